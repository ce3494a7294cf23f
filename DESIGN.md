# Formal model of tari-project/triptych in Lean 4

## Approach

The Rust sources under `/repo/src` are transcribed function by function into total, computable Lean
functions (`lean/Verif/Model/**`). Every definition cites file and lines. Specifications that do not use
the model's helpers live in `lean/Verif/Spec/**`; helper lemmas in `lean/Verif/Lemmas/**`; the property theorems in
`lean/Verif/Props/**`, each followed by an `example` showing that its hypotheses are met by a concrete run.

### Abstractions (parameters of the model)

* `F` – any field (`Scalar`), `G` – any `F`-module (`RistrettoPoint`), both with decidable equality. The
  real code is the instance `F = ZMod ℓ`, `G` = the Ristretto group (prime order ℓ). Proving for every
  field and module is stronger than needed. Facts that need "n is smaller than the characteristic" are explicit
  hypotheses that are discharged for `ZMod ℓ`.
* `Env F G` – the external functions: scalar/point byte encodings, BLAKE3 XOF, Merlin challenge and PRF outputs.
  Nothing is assumed about hash outputs. `Env.Lawful` collects the codec facts of curve25519-dalek (32-byte
  encodings, decode∘encode = id, decoding accepts only canonical bytes); it is used only by serialization and
  binding theorems. It is inhabited: a concrete `Env` over `ZMod ℓ` with the real scalar encoding is constructed.
* Merlin transcript – the list of operations performed on it (`append label bytes`, `challenge label len`); a challenge
  is `Env.challenge` of that list. A `TranscriptRng` is its key material (transcript, rekeys, external bytes) plus the
  history of requests; its output is `Env.prf` of that.
* External RNG – arbitrary state machine `σ → Nat → Bytes × σ`.
* Rust outcomes – `Outcome ε α = ok | err | panic | diverge`. Every slice index, range and checked operation of
  the modelled code that could panic is an explicit panic branch. `diverge` is only produced by the weight-drawing
  `while` loop when its fuel argument runs out; all theorems quantify over the fuel.
* Integers – `u32`/`u64`/`usize` values are `Nat`, with every arithmetic operation carrying its own overflow
  check (checked ops give `none`, unchecked ones panic or wrap according to the `overflowChecks` build flag).
* `Arc`, `clone`, references, lifetimes, `Zeroizing` wrappers – identity (`Zeroizing` is modelled for C96, C97 only).

### Not modelled

Elliptic-curve arithmetic, STROBE/Keccak and BLAKE3 internals, wall-clock timing, what remains in registers, in
unnamed temporaries and in the memory of libraries (C96, C97 model the named variables and vectors of this crate only), memory
allocation failure, the wire formats used with serde (proofs are modelled down to values of serde's data model, with the
behaviour of `serde_derive` and of dalek's `Serialize`/`Deserialize` transcribed by hand: C84, C85), and
computational assumptions (DDH, discrete log). Soundness theorems are stated as explicit reductions: an extractor function
returns a witness or an explicit relation; C60, C61 count over all challenge oracles (forking lemma).

## Property plan

| id | modelled | proof |
|---|---|---|
| C01,C02 | `Params.newWithGenerators`, `Params.new` | case analysis; `n*m ≤ n^m` |
| C03 | transcript log of the parameter hash | injectivity of the log, collision made explicit |
| C04,C05 | `InputSet.new`, `newWithPadding`, `newInternal` | list lemmas; log injectivity |
| C06,C07 | `Statement.new` | case analysis; composition of C03, C05 |
| C08,C09,C10 | `Witness.new`, `random`, tag and key | case analysis; field algebra |
| C11,C12,C13 | `proveInternal` with panicking indexing and both timing modes | refinement of the monadic prover to a pure one under the shape invariants of API-built values |
| C14,C15 | `proveInternal` and `verifyBatch` | polynomial identity for the convolution loop, Gray bijection, msm linearity |
| C16,C17,C44,C27,C28 | `verifyBatch` with explicit panics and build flag | refinement of the loop to `Σ w·E`; exact characterisation of outcomes |
| C18,C19 | same | loop invariant: accumulated scalars represent the weighted sum; hyperplane counting |
| C20,C21,C22 | textbook equations in `Spec` | extractor definition, Lagrange interpolation, one-hot argument |
| C23,C24,C25,C26 | transcript logs | list suffix injectivity |
| C29–C33 | blame functions | generic bisection theorem by strong induction; instantiation |
| C34–C38 | `toBytes`, `fromBytes`, borsh | parser/printer induction |
| C39 | `GrayIterator` | closed form of digits, carry lemma, induction over iterator |
| C40 | prover's commit/response as function of nonces, fixed challenge | exact equality of distributions (Mathlib `PMF`): simulator for everything but `X`, and a hybrid that isolates the one step resting on DDH |
| C41 | weight derivation, explicit forger | algebra |
| C42 | functional model | the verifier model has no external RNG input; NullRng is all-zero |
| C43 | `commitMatrix` | linearity of msm |
| C45–C54, C56, C57 | `Verif/Model/Parallel/*` | as above, sharing Gray, blame, msm and transcript lemmas; C57 is the parallel counterpart of C41, C42 |
| C58 | `F = ZMod ℓ` | Pratt certificate for ℓ checked by the kernel; instantiation of C19, C20, C40, C50, C51; residue counting. A prover and verifier run over `ZMod ℓ` is evaluated in the kernel as example |
| C59 | parallel prover's commit/response as function of nonces, fixed challenge | as C40; the masks of `X1` occur nowhere else, so `X1` is part of what is simulated exactly |
| C60 | forger as a decision tree asking 64-byte challenges of a finite set of transcripts; verifier with these challenges | generic forking lemma by double counting over all oracles (`Lemmas/Fork.lean`), the challenge transcript determines statement and commitments (`challengeTranscript_inj`), then C20; C19 links acceptance to the equations. The forger's own randomness is fixed (average over it for randomized forgers); with a signing oracle: C71 |
| C61 | the same for parallel proofs | the same with C51 |
| C62 | the prover again, as a computation that also records jumps, addresses, operand sizes and the operands of variable-time operations (`Model/Leak.lean`, `Model/ProveTraced.lean`); every jump is made by one combinator (`Traced.jump`) that observes the very condition it tests | erasure to `proveInternal` function by function (`Lemmas/Leak.lean`); a relational logic (same trace, related results) through every function (`Lemmas/ConstantTime.lean`) |
| C63 | the same for the parallel prover (`Model/Parallel/ProveTraced.lean`) | the same |
| C64 | `Witness.random` on a scripted generator (`Spec/Sampling.lean`): a 64-bit word and a list of 64-byte blocks | counting the words with a given remainder, and the blocks with a given scalar (as for C61); both `Witness.random` and the parallel one |
| C65 | `toBytes`, `fromBytes` | the shape of proofs (C22, C36) and the length of encodings; both kinds of proof |
| C66 | `Example.setup`, `Example.main` (`Model/Example.lean`: the documentation examples, with `unwrap` as panic) | ring drawn by the loop computed by induction over the positions; C03–C13, C14, C15, C45–C50 for the rest |
| C67 | `Example.fuzz` | C35/C36 (C52 for parallel proofs) for every byte string |
| C68 | `newWithPadding`, prover, verifier | position in the padded list = position in the caller's list; then C14 and C30 |
| C69 | `verifyBatchT` (`Model/VerifyTraced.lean`): `verify_batch` recording the reservation and the multiscalar multiplication | erasure (`C69_erase`: same result as `verify_batch`); number of points from the shape checks; the other outcomes by cases |
| C70, C71 | programs that ask a random oracle and request signatures (`Spec/Signing.lean`), signer with uniform randomness, oracle on a finite set of transcripts; simulator that sets the oracle | program by program induction on what the two experiments differ in (`Lemmas/Signing.lean`: an exact coupling, except if a signature's transcript was asked before, probability at most `(Q + q) / order` per signature because of the mask of `A`); C40's equivalences per signature; C71: simulated program as a forger in C60. Idealised: uniform prover randomness (C12–C14 say how it is derived), all statements with the same parameters, challenges of other transcripts fixed |
| C72, C73 | the same for parallel proofs | the same with C59 and C61 |
| C74 | `withTable` (`Spec/Generator.lean`): the outputs of one transcript generator replaced by a table; the scalars of the prover in order | the table determines the prover's scalars (with C70); every tuple of scalars is hit by at most `K ^ N` tables, so averages differ by at most `(q K / 2 ^ 512) ^ N - 1`; induction over signing programs |
| C75 | the same table for the weight generator | induction over the table: the probability that the first usable quadruples are given ones, and that there are too few usable ones; summed over the exceptional set of C19 |
| C76, C77 | the same for parallel proofs | the same with C72, C73 and C50 |
| C78, C79 | `withSeeds` (`Spec/Grind.lean`): seeds and weight tables answered by two random functions; programs that may ask both adaptively | induction over the program with the answers so far as state (`Lemmas/Grind.lean`): a known transcript has bad known weights only if a new seed hits a known one, or new weights are bad (C19, C75); C23 makes the bad weights a function of the transcript. Tight form for one proof (`Lemmas/KnownWeights.lean`): the bad weights of a transcript satisfy one of finitely many linear relations, with high probability no relation holds for the weights of more than 4 (parallel: 5) of all seeds, hence each new seed is convenient with probability at most 4/2^64 whatever weights are known |
| C80 | programs that may ask for challenges, seeds and weights (`Spec/Attack.lean`) | C60 for fixed seeds and weights, C78 for fixed challenges |
| C81–C83 | the same for parallel proofs | the same with C50, C61 and C77 |
| C84, C85 | derived `Serialize`/`Deserialize` (`Model/Serde.lean`): map and sequence form, identifiers, one slot per field | per-field loop invariant of `visit_map`; exactness of each component decoder; composition with C16, C34 |
| C86, C87 | the prover run in the random-oracle environment, programs that choose a proof and another statement or transcript | Lagrange interpolation at index 0 gives `M[0] = 0` if one proof is valid for `m + 1` challenges, which statements exclude; counting over the answer at one point (`Lemmas/Replay.lean`); C78, C81 for the weights |
| C88, C89 | programs as for C80 that output several proofs | pigeonhole on the linking tags (one key makes one tag); C80/C83 for each output, restricted to statements whose tag belongs to none of the given keys |
| C90, C91 | programs that may ask for challenges, seeds and weights and request signatures (`Spec/ChosenMessage.lean`); signer, verifier and idealisations as in C71/C73 and C80/C83 | C71/C73 for fixed seeds and weights; C78/C81 for fixed challenges and fixed randomness of the signers (fixing the signers' tape turns the program into one that only asks for seeds and weights); several outputs: pigeonhole on tags as in C88 |
| C92, C93 | the same for programs that output a batch | as C90, C91 for each output, with C79/C82 for batches. That input sets with equal hashes are equal is a hypothesis on the statements, since `verify_batch` compares hashes |
| C94, C95 | a program sees the verification keys of honest signers with random keys and gets signatures by one of them | the real signer is replaced by the keyless simulator (C70/C72), the tag by a random element (the tag distinguisher), the simulator's Diffie-Hellman elements by random ones (the tuple distinguisher, which re-randomizes a single tuple), after which nothing depends on the signer. What is not proved: that the two distinguishers cannot succeed (this is the Diffie-Hellman assumption) |
| C96, C97 | `proveInternalM` (`Model/Memory.lean`, `Model/Parallel/Memory.lean`): the prover in the order of the code, with the contents of the variables that die; `Zeroizing` ones leave only their length. The powers of the challenge (public) are left out, and so are commitments made before an error that cannot occur with statements of the library | erasure to `proveInternal` (`C96_result`); an explicit formula for what is left (`C96_memory`), of which the rest of the signer's randomness and its commitments are the arguments; the hybrid simulator of C70/C72 knows all of these, so it also simulates the leftovers |
| C98, C99 | the rewinding of C60/C71/C90/C92 (C61/C73/C91/C93) as an algorithm `extractor` (`Spec/Rewind.lean`): one run, then `m τ` runs with random answers at the point of the forgery | counting over all oracles and tapes of the rewinder: `x (1 - x) ^ τ ≤ 1 / (τ + 1)` for each of `m` rounds, summed over the points touched (`Lemmas/Rewind.lean`, `rewind_bound`); then C20/C51 on the kept runs. `C98_runs` says that the forger is run only with the given answers |
| C100, C101 | `fromBytesT`, `toBytesT` (`Model/SerializeTraced.lean`, `Model/Parallel/SerializeTraced.lean`): the codec recording reads, decodings, loop iterations, the reservation and the number of bytes written | erasure (`C100_erase`, `C101_erase`); induction on the chunks left for each loop; the capacity formula against the encoding; a one-row serde value followed by empty rows for the counterexample |
| C102 | the provers with observations of C62, C63 (`proveInternalT`); the heavy operations among them (`Spec/Work.lean`) | a Hoare-style rule (`Emits`, `Lemmas/Work.lean`) for every step of the prover; number of polynomials from C39 |
| C103, C104 | the batch verifiers with seeds and weight tables answered by random functions, as in C79, C82; proofs made by the prover's algorithm with arbitrary numbers for the keys (`Spec.MadeWith`) | an explicit program (`collisionProgram`, `Lemmas/Collision.lean`): one seed collision per class of proofs by a second-moment argument, then a subset sum with pairwise independent values by another (`Lemmas/SubsetSum.lean`); each class violates one more equation than the next, so the sums are solved one after the other |
| C105 | `Params.new` in an environment whose hash to the group gives prescribed points (`Spec.withGenerators`, `C105_params`), uniformly random generators (`CommitmentH` and `U` not the identity) and users' keys (`Spec/DLog.lean`); attacks as in C98, depending on the public data (`Spec.Attack`) | reduction: generators and keys set up from the challenge point have the same distribution (`avg_setup`), and the coefficients of the challenge point in the commitment generators stay hidden, so a relation involves it except with probability one over the group order (`avg_form`); then `chosen_extract_good` of C98 with the solver `Spec.solver` |
| C106 | as C105 for the parallel proving system; `G1` is one more random generator, set up as a known multiple of the challenge point (`Spec/Parallel/DLog.lean`) | as C105 (`Parallel.dlog_setup` reduces to the plain setup with one more key), from `Parallel.chosen_extract_good` |
| C107 | openings of the offset and the second components to amounts (`Spec.Openings`, `Spec.OtherAmounts`), as functions of the public data and the statement | the number extracted for a position and the two openings give a multiple of the basepoint that is a multiple of `G1`, the former not zero (`amounts_wanted`); then as C106; for amounts on a separate generator `H = h G`, scale the openings by `h` |
| C108 | the 32 byte challenges as answers of a random oracle (`Spec.withHash`), programs asking it adaptively, objects of all six kinds with a hash (`Spec.Hashed`) | equal hashes of different objects give a collision of two transcripts (`Hashed.collision`, from C03, C05, C07, C45, C46 and the different domain separators); birthday bound for adaptive programs by induction on the program (`birthday_state`, `preimage_state`) |
| C109 | as C105, with programs that may also ask for users' keys (`Spec.InsiderProgram`); `withKeys` answers and records the corrupted users; signature requests are answered whether or not the user is corrupted | the extracted key is either part of a relation among the generators, then the solver that knows all users' keys gets it (`D = ∅`), or the key of a user `u` that no kept run corrupted; then the runs are the same without the key of `u` (`insider_same`) and the solver `D = {u}`, which knows the other keys, gets it; sum over `u` (`insider_sum`) |
| C110 | as C109 for `triptych::parallel`; in (d), openings of the commitments as in C107, and the solver knows all users' keys | as C109 (`insider_same`, `insider_sum` in `Props/Parallel/Insider.lean`); for amounts the guard is trivial and only the solver `D = ∅` is needed (`insider_open`): the extracted witness contradicts the openings, which gives the discrete logarithm of `G1` |
| C111 | families of statements depending on all signers' verification keys and all tags (`Spec.Pool`), built by the library's constructors (`C111_pool`); the owner of each statement's tag signs (`unlinkGame`) | real signatures become simulated ones (C70); the tags become random one by one (a hybrid over the tags, `mixedGame`, each step is the tag assumption); then all tags are random multiples of one element and the simulator works on a randomized Diffie-Hellman tuple (`simTupleAt`); at the end the simulator knows nothing about the assignment (`nothingPool`) |
| C112 | as C111 for `triptych::parallel` (`Parallel.Spec.Pool`, with the openings of the auxiliary keys) | as C111, from C72; the simulators use neither keys nor openings |
| C113 | `generate_data`, the proofs and the assertions of the benchmarks and unit tests (`Model/Bench.lean`); `Spec.ringOf`, `Spec.draw` | induction over the signers; positions by modular arithmetic; C08/C09/C47, C06/C46, C11/C48, C13, C15/C49 |
| C114, C115 | nothing new; `Spec.withTables` (independent tables for all weight generators), `Spec.SingleRight`, `Spec.FullRight` | C75/C77 for every part of the batch, conditioning on the other tables, union bound over the parts; C29/C53 and C32/C53 when no part goes wrong |
| C116 | `benches/triptych.rs` 75-170, `benches/parallel.rs` 85-180 as `Bench.benchProve`, `Bench.benchVerify` (Criterion's iteration count is the parameter `k`; the timing code is not modelled) | C113's data for one signer; C11/C48 for each prover call by induction on the iterations; C14/C49 for the verifications |
| C117 | `Witness.zeroize` (already in the model) | case analysis; `0⁻¹ = 0` |
| C118 | nothing new; `Spec.MadeBy`, `Spec.Kept`, `Spec.BatchRight` (`Props/WrongMessage.lean`, `Props/Parallel/WrongMessage.lean`) | C86/C87 for each exchanged place with a program that asks nothing, union bound; C114/C115 for each outcome of the challenges |
| C119 | nothing new; both codecs (`Props/Mixed.lean`) | from C36/C52: equal headers force the same matrix size, hence different lengths; serde from C84/C85 |
| C120 | as C105, C109 with a number as output; `Spec.recoverer`, `Spec.insiderRecoverer` run the program once (`Props/KeyRecovery.lean`, `Props/Parallel/KeyRecovery.lean`) | signatures are simulated without keys (C70/C72); the public data is set up from the point with the same distribution (`avg_setup`), so the program outputs a known multiple of the discrete logarithm |
| C121 | the derived `PartialEq` of all public types, field by field (`Model/Compare.lean`) | `==` is equality of the records; constructors are functions of their arguments and keep them; C05/C46 binding for the unpadded keys; C34/C35/C52 for encodings |
| C122 | two calls of the prover and two of the verifier, each pair with one transcript; the verifier's last challenge replaced by a random one (`withOracle` at one transcript) | C26/C54 for the transcripts left; the other calls do not ask for this challenge (lengths of transcripts); C118/C118_parallel for the second proof; C14/C49 for the transcript that works |
| C123 | a client (`Model/Session.lean`, `Model/Parallel/Session.lean`): the objects it holds, one constructor of `Call` per public function, `World.step` and `World.run`; points, scalars, bytes, serde values and transcripts are the client's and arbitrary | invariants by induction on the history: held objects are built (`Spec.Held`), lists only grow, each proof has a source; C11, C16, C31, C38, C09 (C47, C48, C50, C52, C53) for each call; C14/C49 for acceptance |
| C124 | the `Display` texts (`Model/Errors.lean`); tables of conditions and messages (`Spec/Messages.lean`) | C01, C04, C06, C08 (C45-C47) for the constructors; C11 (C48) for the prover; C27, C44, C18 (C50) and induction over the proofs for the order of the checks; induction on both blame loops |
| C125 | nothing new (`Props/Fits.lean`, `Props/Parallel/Fits.lean`) | C16/C50 for the dimensions of accepted proofs; the dimensions determine `n` and `m`; C35, C36/C52 for encodings |
| C21, C23, C24, C26, C51, C54, C55, C58 (API forms) | `prove*`, `verify`, `verifyBatch` (`Props/Api.lean`, `Props/Parallel/Api.lean`, `Spec/Api.lean`) | the transcript and equation statements composed with the verifier's and prover's exact behaviour: what follows from *accepted* proofs (up to `LuckyWeights`, counted by C19/C50) and which states a prover/verifier run asks challenges of |
| C55 | `examples/ringct.rs` as `Model/Parallel/RingCT` | composition of C46–C49; linear algebra; C51's extractor |

Nothing in the list is inexpressible. Wall-clock timing is outside the model; what is modelled for C62, C63 is the usual
source-level leakage: jumps, addresses, operand sizes, and all operands of variable-time operations. That dalek's
`multiscalar_mul`, scalar and point arithmetic, `subtle`'s `ct_eq`/`conditional_assign` and `crypto_bigint`'s division are
constant time, and that the compiler preserves the property, are assumptions. Memory erasure is modelled (C96, C97) as
the list of what each named variable contains when it dies; that `zeroize` overwrites memory and the compiler makes no copies are
assumptions.

## Where the code and its documentation disagree

Proved as theorems about the model of the code as it is, not repaired:

* `verify_batch_with_single_blame` panics, or blames a valid proof, on argument lists of different lengths, where its documentation
  promises an error (`C31_panic`, `C31_wrong_blame`); with statements of different input sets it can also blame a valid proof.
* The size estimate of `verify_batch` overflows for accepted parameters; builds with overflow checks panic (`C17_debug`,
  `C17_reachable`), where the source says that the only effect is reallocation.
* `to_bytes` panics on serde-decoded proofs without responses and is lossy on ragged ones (`C38_panic`, `C38_lossy`); its capacity
  computation, documented as unable to overflow, can exceed `isize::MAX` on them (`C101_ragged`).
* Prover and verifier are left with different transcripts (`C26_verifier`), so a transcript cannot be continued over several proofs
  (`C122_continued`).
* The verifier's weights depend on 64 bits of one hash, so a forged proof accepted by the batch equation costs about `2 ^ 64` trials
  (C41, optimal by `C78_known_ristretto`), not `2 ^ 126`.
* In batches it is worse: with one collision of seeds per class of proofs, about `2 ^ 32` seeds, proofs can be exchanged without
  changing the weights, and with about 260 such positions some choice makes the weighted sum vanish. A batch containing an invalid proof
  of any statement is then accepted, with probability close to one (`C103_ristretto`, `C104_ristretto`). The search for the choice is
  not counted there (it is a subset sum with random coefficients; its cost is not modelled). Deriving the weights from the transcripts
  themselves, or from seeds of 256 bits, would avoid this.

## Trusted base

Lean 4.33.0 kernel; Mathlib; axioms `propext`, `Classical.choice`, `Quot.sound` only. The reading of the Rust
source, and the assumptions on dalek, Merlin, BLAKE3, borsh and std summarised above.
