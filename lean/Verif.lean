import Verif.Model.Blame
import Verif.Model.Serialize
import Verif.Model.Serde
import Verif.Model.Parallel.Blame
import Verif.Model.Parallel.Serialize
import Verif.Model.Parallel.Serde
import Verif.Toy
import Verif.Props.Parameters
import Verif.Props.Statement
import Verif.Props.Witness
import Verif.Props.Prove
import Verif.Props.Verify
import Verif.Props.Batch
import Verif.Props.Weights
import Verif.Props.Soundness
import Verif.Props.Transcripts
import Verif.Props.Blame
import Verif.Props.Serialize
import Verif.Props.Serde
import Verif.Props.Gray
import Verif.Props.ZeroKnowledge
import Verif.ToyParallel
import Verif.Model.Parallel.RingCT
import Verif.Props.Parallel.Parameters
import Verif.Props.Parallel.Statement
import Verif.Props.Parallel.Witness
import Verif.Props.Parallel.Prove
import Verif.Props.Parallel.Verify
import Verif.Props.Parallel.Batch
import Verif.Props.Parallel.Weights
import Verif.Props.Parallel.Soundness
import Verif.Props.Parallel.Transcripts
import Verif.Props.Parallel.Blame
import Verif.Props.Parallel.Serialize
import Verif.Props.Parallel.Serde
import Verif.Props.Parallel.RingCT
import Verif.Props.Parallel.ZeroKnowledge
import Verif.Lemmas.Prime
import Verif.Props.Ristretto
import Verif.Props.Forgery
import Verif.Props.Parallel.Forgery
import Verif.Props.ConstantTime
import Verif.Props.Parallel.ConstantTime
import Verif.Props.Sampling
import Verif.Props.Size
import Verif.Props.Api
import Verif.Props.Parallel.Api
import Verif.Props.Example
import Verif.Props.Padding
import Verif.Props.Work
import Verif.Props.Parallel.Work
import Verif.Props.Signing
import Verif.Props.Parallel.Signing
import Verif.Props.Generator
import Verif.Props.Draws
import Verif.Props.Parallel.Generator
import Verif.Props.Parallel.Draws
import Verif.Props.Grind
import Verif.Props.KnownWeights
import Verif.Props.Collision
import Verif.Props.Attack
import Verif.Props.Parallel.Grind
import Verif.Props.Parallel.KnownWeights
import Verif.Props.Parallel.Collision
import Verif.Props.Parallel.Attack
import Verif.Props.Replay
import Verif.Props.Linkable
import Verif.Props.Parallel.Replay
import Verif.Props.Parallel.Linkable
import Verif.Props.ChosenMessage
import Verif.Props.Parallel.ChosenMessage
import Verif.Props.BatchChosen
import Verif.Props.Parallel.BatchChosen
import Verif.Props.Anonymity
import Verif.Props.Parallel.Anonymity
import Verif.Model.Memory
import Verif.Lemmas.Memory
import Verif.Props.Memory
import Verif.Model.Parallel.Memory
import Verif.Lemmas.Parallel.Memory
import Verif.Props.Parallel.Memory
import Verif.Spec.Rewind
import Verif.Lemmas.Rewind
import Verif.Props.Rewind
import Verif.Props.RewindChosen
import Verif.Props.DLog
import Verif.Props.Parallel.DLog
import Verif.Props.Parallel.Rewind
import Verif.Props.Parallel.RewindChosen
import Verif.Spec.Work
import Verif.Model.SerializeTraced
import Verif.Model.Parallel.SerializeTraced
import Verif.Lemmas.Cost
import Verif.Lemmas.Work
import Verif.Props.Cost
import Verif.Props.Parallel.Cost
import Verif.Props.ProverWork
import Verif.Props.Parallel.ProverWork
import Verif.Props.Hashing
import Verif.Props.Insider
import Verif.Props.Parallel.Insider
import Verif.Props.Unlinkable
import Verif.Props.Parallel.Unlinkable
import Verif.Props.Bench
import Verif.Props.Parallel.Bench
import Verif.Props.BenchSingle
import Verif.Props.Parallel.BenchSingle
import Verif.Props.Zeroize
import Verif.Props.WrongMessage
import Verif.Props.Parallel.WrongMessage
import Verif.Props.Mixed
import Verif.Props.KeyRecovery
import Verif.Props.Parallel.KeyRecovery
import Verif.Props.Compare
import Verif.Props.Parallel.Compare
import Verif.Props.Continued
import Verif.Props.Parallel.Continued
import Verif.Props.Session
import Verif.Props.Parallel.Session
import Verif.Props.Messages
import Verif.Props.Parallel.Messages
import Verif.Props.Fits
import Verif.Props.Parallel.Fits
import Verif.Props.BlameIdeal
import Verif.Props.Parallel.BlameIdeal
