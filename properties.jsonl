{"id": "C01", "title": "Parameter construction accepts exactly the documented domain", "statement": "TriptychParameters::new and new_with_generators return Ok exactly when n >= 2, m >= 2 and n**m fits in u32; otherwise they return InvalidParameter naming the first violated condition in that order. They never panic, and the `n*m overflowed` error is never returned.", "quantifier": "every u32 pair (n, m) and every pair of generators (G, U)", "why_tests_cant": "2^64 parameter pairs; tests try a handful and cannot exclude an overflow or panic at an untested pair", "anchors": ["src/parameters.rs:TriptychParameters::new", "src/parameters.rs:TriptychParameters::new_with_generators"]}
{"id": "C02", "title": "Accepted parameters report exact sizes", "statement": "For every accepted parameter set the getters return the n, m, G, U supplied (for `new`: the Ristretto basepoint and the hash-derived U), get_N() equals n**m with no overflow and is at least 4, and there are exactly n*m matrix-commitment generators. Construction is deterministic: equal inputs give equal parameters.", "quantifier": "every accepted parameter set", "why_tests_cant": "size arithmetic must be exact at every boundary, including n**m just below 2**32", "anchors": ["src/parameters.rs:TriptychParameters::get_N", "src/parameters.rs:TriptychParameters::new_with_generators"]}
{"id": "C03", "title": "Parameter hash binds every parameter", "statement": "If two accepted parameter sets carry the same transcript hash then they agree on n, m, G, U and all commitment generators, or the two (explicitly given, distinct) Merlin transcripts are a collision of the transcript hash.", "quantifier": "every pair of accepted parameter sets", "why_tests_cant": "binding is a statement about all pairs of inputs; tests can only compare a few hashes", "anchors": ["src/parameters.rs:TriptychParameters::new_with_generators", "src/parameters.rs:TriptychParameters::get_hash"]}
{"id": "C04", "title": "Input set construction and padding contract", "statement": "TriptychInputSet::new succeeds exactly when the key count fits in u32 and get_keys() returns the keys unchanged. new_with_padding succeeds exactly when 1 <= len <= N; get_keys() is then the given keys in order followed by copies of the last key up to length exactly N; too-long input is reported before empty input. With len == N it equals `new`.", "quantifier": "every key list and every accepted parameter set", "why_tests_cant": "every length and every content; boundary lengths depend on n**m", "anchors": ["src/statement.rs:TriptychInputSet::new", "src/statement.rs:TriptychInputSet::new_with_padding"]}
{"id": "C05", "title": "Input set hash binds keys and unpadded size", "statement": "If two input sets have the same hash then they have the same key vector and were built from the same number of unpadded keys, or their explicit distinct Merlin transcripts collide. In particular a padded set is never hashed over the same transcript as the unpadded set with the same key vector.", "quantifier": "every pair of input sets built by either constructor", "why_tests_cant": "all pairs of key vectors of all lengths", "anchors": ["src/statement.rs:TriptychInputSet::new_internal"]}
{"id": "C06", "title": "Statement construction accepts exactly valid rings", "statement": "TriptychStatement::new succeeds exactly when the input set has N keys and none is the identity; a wrong length is reported in preference to an identity key; the getters return the supplied parameters, input set and linking tag. Hence every statement that exists has exactly n**m keys, none the identity.", "quantifier": "every parameter set, input set and linking tag", "why_tests_cant": "every position of an identity key in rings of every size", "anchors": ["src/statement.rs:TriptychStatement::new"]}
{"id": "C07", "title": "Statement hash binds the whole statement", "statement": "If two statements have the same statement hash then they agree on n, m, G, U, on the key vector, on the unpadded size and on J, unless one of three explicit pairs of distinct Merlin transcripts (statement, parameters, input set) collides.", "quantifier": "every pair of statements", "why_tests_cant": "quantifies over all pairs of statements of all sizes", "anchors": ["src/statement.rs:TriptychStatement::new", "src/statement.rs:TriptychStatement::get_hash"]}
{"id": "C08", "title": "Witness construction accepts exactly valid secrets", "statement": "TriptychWitness::new succeeds exactly when r != 0 and l < N, reporting r == 0 first; the getters return the inputs.", "quantifier": "every parameter set, u32 index and scalar", "why_tests_cant": "boundary l = N-1/N depends on all (n, m)", "anchors": ["src/witness.rs:TriptychWitness::new"]}
{"id": "C09", "title": "Random witness is in range", "statement": "TriptychWitness::random never panics, always yields an index l < N (the next u64 of the generator reduced mod N) and the parameters supplied, whatever the generator returns; its key is the next 64 generator bytes reduced, and is not checked to be non-zero.", "quantifier": "every accepted parameter set and every generator behaviour", "why_tests_cant": "tests cannot enumerate generator outputs; truncation of u64 to u32 must be shown lossless", "anchors": ["src/witness.rs:TriptychWitness::random"]}
{"id": "C10", "title": "Verification key and linking tag satisfy the relation and link", "statement": "For a witness with r != 0: compute_verification_key() = r*G and r * compute_linking_tag() = U. If U is not the identity, two witnesses (over the same U) have the same linking tag exactly when they have the same signing key; if G is not the identity the same holds for verification keys. The tag does not depend on l, n or m.", "quantifier": "every pair of witnesses", "why_tests_cant": "algebraic law over the whole scalar field", "anchors": ["src/witness.rs:TriptychWitness::compute_linking_tag", "src/witness.rs:TriptychWitness::compute_verification_key"]}
{"id": "C11", "title": "Prover accepts exactly valid witnesses and never panics", "statement": "prove_with_rng(witness, statement, rng, transcript) never panics. It returns InvalidParameter (parameters mismatch, then M[l] != r*G, then r*J != U, in that order) if the witness does not satisfy the relation for the statement; otherwise it returns InvalidChallenge exactly when the Fiat-Shamir challenge is zero, and otherwise Ok with a proof whose X and Y have m entries and whose f is m by n-1.", "quantifier": "every witness, statement, generator behaviour and transcript", "why_tests_cant": "all sizes, indexes and randomness; panics from any index expression must be excluded for all of them", "anchors": ["src/proof.rs:TriptychProof::prove_internal", "src/proof.rs:TriptychProof::prove_with_rng"]}
{"id": "C12", "title": "A zero signing key never yields a proof", "statement": "A witness whose signing key is zero (possible through TriptychWitness::random or after zeroize()) makes every prove call return InvalidParameter, for every statement, and leaves the caller's transcript untouched.", "quantifier": "every statement, index, generator and transcript", "why_tests_cant": "zero key has negligible probability in random tests", "anchors": ["src/proof.rs:TriptychProof::prove_internal", "src/witness.rs:TriptychWitness"]}
{"id": "C13", "title": "Constant-time and variable-time provers agree", "statement": "prove_with_rng and prove_with_rng_vartime produce the same result (same proof or same error), the same transcript state and the same generator state on every input.", "quantifier": "every witness, statement, generator state and transcript", "why_tests_cant": "the two code paths use different index selection, digit decomposition and arithmetic; agreement needed at every index and size", "anchors": ["src/proof.rs:prove_with_rng_vartime", "src/gray.rs:decompose", "src/gray.rs:decompose_vartime", "src/util.rs:delta"]}
{"id": "C14", "title": "Completeness: every generated proof verifies", "statement": "If prove returns Ok(proof) then verify with the same statement and an equal starting transcript returns Ok, unless some entry of the response matrix f (including its reconstructed column 0) is zero, in which case verify returns InvalidParameter(`proof f matrix contained 0`). (Verification could also loop drawing weights if the weight generator returned zeros forever.)", "quantifier": "every n, m, ring, signer index, signing key, prover randomness and transcript", "why_tests_cant": "the equations must hold for all sizes, all N signer positions and all randomness", "anchors": ["src/proof.rs:prove_internal", "src/proof.rs:verify", "src/proof.rs:verify_batch"]}
{"id": "C15", "title": "Batch completeness, in any combination", "statement": "Any list of proofs, each generated by prove for its own statement and transcript, where all statements share parameters and input set, verifies as a batch in any order and with any repetitions, unless some f entry is zero or the debug-only size computation overflows.", "quantifier": "every batch size, order and selection of signers", "why_tests_cant": "unbounded batch sizes and orders", "anchors": ["src/proof.rs:verify_batch"]}
{"id": "C16", "title": "Verification never panics on any proof", "statement": "verify and verify_batch return a Result for every list of proofs of any shape whatsoever (including ones obtained through serde that no prover produced), every list of statements and every list of transcripts; a proof whose X, Y or f dimensions do not match the parameters is rejected with InvalidParameter before any transcript is touched. (In builds with overflow checks, provided the size estimate fits u32; see next property.)", "quantifier": "every proof value, statement list and transcript list", "why_tests_cant": "panics must be excluded for every index expression and every malformed shape", "anchors": ["src/proof.rs:verify_batch"]}
{"id": "C17", "title": "Size estimate overflow is harmless", "statement": "Documented claim: if the u32 estimate of the multiscalar size overflows, `the only effect is unnecessary reallocation`. This holds in builds without overflow checks; with overflow checks verify_batch panics exactly when 3 + n*m + N + batch*(5+2m) >= 2**32, which is reachable for accepted parameters (e.g. n = 65535, m = 2).", "quantifier": "every accepted (n, m) and batch size", "why_tests_cant": "needs a ring of 2^32 keys; cannot be run in a test", "anchors": ["src/proof.rs:verify_batch (final_size)"]}
{"id": "C18", "title": "What acceptance means: weighted verification equations", "statement": "verify_batch returns Ok on a well-shaped batch exactly when, with the weights it derives, the weighted sum over all proofs of the four Triptych verification equations (A + xi*B = Com(f, z_A); xi*C + D = Com(f(xi-f), z_C); sum_k M_k prod_j f[j][k_j] - sum_j xi^j X_j = z G; xi-product-sum*U - sum_j xi^j Y_j = z J) is the identity; the weights are all non-zero. In particular if every equation of every proof holds the batch is accepted.", "quantifier": "every batch", "why_tests_cant": "the code computes one multiscalar multiplication with an incremental Gray-code product and inverses; equality with the textbook equations must hold for all sizes", "anchors": ["src/proof.rs:verify_batch"]}
{"id": "C19", "title": "An invalid proof is accepted only for exceptional weights", "statement": "If some equation of some proof in the batch fails, then for any choice of all the other weights at most one value of that equation's weight lets the batch be accepted; over a field of q elements at most q^(4k-1) of the q^(4k) weight vectors of a k-proof batch accept. Weights do not depend on anything but the batch content.", "quantifier": "every batch containing an invalid proof", "why_tests_cant": "a probability bound over all weight vectors", "anchors": ["src/proof.rs:verify_batch (w1..w4)"]}
{"id": "C20", "title": "Special soundness: accepted proofs yield a signing key", "statement": "From m+1 proofs accepted for one statement with the same A, B, C, D, X, Y and pairwise distinct challenges, an explicit extractor computes either an index l and key r with M[l] = r*G and r*J = U, or an explicit non-trivial linear relation among the commitment generators; the only other possibility is that one of the runs accepted a proof violating its equations (exceptional weights).", "quantifier": "every statement, every m+1 accepting runs", "why_tests_cant": "a knowledge-extraction statement over all adversarial proofs", "anchors": ["src/proof.rs:verify_batch", "README.md"]}
{"id": "C21", "title": "Linkability", "statement": "For a fixed non-identity U: two statements satisfied by the same signing key have the same linking tag, and if two statements with the same linking tag are satisfied by keys r and r' then r = r'; so tags are equal exactly when signing keys are equal, across rings and parameters that share U. Together with extraction: two accepted transcripts families with equal tags yield equal keys.", "quantifier": "every pair of statements and keys", "why_tests_cant": "algebraic law over all keys; tests sample", "anchors": ["src/witness.rs:compute_linking_tag", "src/proof.rs:verify_batch", "README.md"]}
{"id": "C22", "title": "Responses are unique (no response malleability)", "statement": "For a fixed statement, transcript and commitments, if two proofs both satisfy the verification equations then they are identical, or an explicit non-trivial relation among the commitment generators results (given G non-identity).", "quantifier": "every pair of proofs", "why_tests_cant": "all pairs of proofs", "anchors": ["src/proof.rs:verify_batch"]}
{"id": "C23", "title": "The challenge binds transcript, statement and commitments", "statement": "The verifier's and prover's challenge is computed from a Merlin transcript from which the caller's prior transcript, the statement hash and A, B, C, D, X, Y can be uniquely recovered: two (transcript, statement hash, commitments) triples, even with different m, produce the same challenge transcript only if they are equal. So a proof checked against a different message, ring or tag is checked against an independent oracle query.", "quantifier": "every pair of transcripts, statements and proofs, of any sizes", "why_tests_cant": "injectivity over unbounded inputs; tests check single modifications", "anchors": ["src/transcript.rs:ProofTranscript::new", "src/transcript.rs:ProofTranscript::commit"]}
{"id": "C24", "title": "Single and parallel proofs are domain separated", "statement": "No single-proof challenge, parameter, input set, statement or weight transcript equals the corresponding parallel one, whatever the inputs.", "quantifier": "every pair of single/parallel inputs", "why_tests_cant": "all pairs of inputs", "anchors": ["src/lib.rs:domains", "src/parallel/transcript.rs: response, build_transcript_rng, as_mut_rng"]}
{"id": "C25", "title": "Prover randomness is bound to witness, statement and transcript", "statement": "All prover nonces come from the Merlin PRF keyed with the transcript (including statement hash), l, r and 32 bytes of external randomness; runs which differ in caller transcript, statement hash, index or key use distinct PRF keys even if the external generator repeats its output, and within one run no PRF query point is used twice.", "quantifier": "every pair of prover runs and every external generator", "why_tests_cant": "needs reasoning over all pairs of runs, including bad generators", "anchors": ["src/transcript.rs:build_transcript_rng", "src/proof.rs:prove_internal"]}
{"id": "C26", "title": "Effect on the caller's transcript", "statement": "After a successful prove the caller's transcript has been extended by exactly domain separator, version, statement hash, commitments and the challenge; after a verify the verifier's transcript is that of the prover further extended with the responses f, z_A, z_C, z. So the two parties' transcripts differ after the protocol and a caller must not draw shared challenges from them. A prove rejected for an invalid witness, and a verify rejected for mismatched numbers of arguments, input sets, parameters or proof shapes, leave transcripts unchanged; and whatever the outcome, prove and verify change a transcript only by appending to it.", "quantifier": "every run", "why_tests_cant": "state after every path, including errors", "anchors": ["src/proof.rs:prove_internal", "src/transcript.rs:response"]}
{"id": "C27", "title": "Batch preconditions are enforced", "statement": "verify_batch returns InvalidParameter if the numbers of statements, proofs and transcripts differ, or two statements differ in input-set hash, or in parameter hash; consequently in an accepted batch every statement has the same ring (and unpadded size) and the same parameters as the first, unless explicit hash transcripts collide.", "quantifier": "every batch", "why_tests_cant": "all mismatching combinations", "anchors": ["src/proof.rs:verify_batch"]}
{"id": "C28", "title": "Empty batches are valid", "statement": "verify_batch and both blame variants return Ok on empty inputs, without touching anything; a single verify is exactly the one-element batch.", "quantifier": "every environment", "why_tests_cant": "definitional contract, needed by every induction over batches", "anchors": ["src/proof.rs:verify_batch", "src/proof.rs:verify"]}
{"id": "C29", "title": "Single blame names an invalid proof", "statement": "For equal-length inputs whose statements share input set and parameters, verify_batch_with_single_blame returns Ok exactly when verify_batch does; otherwise it returns Some(index) with index in range, and the proof at that index does not satisfy verification: either verify of it alone fails or, if it was blamed by elimination, either its equations or zero-f check fail or an explicit earlier sub-batch was accepted although it contains an invalid proof. If batch acceptance coincides with individual acceptance, the index is the smallest invalid index.", "quantifier": "every batch size and every pattern of invalid proofs", "why_tests_cant": "2^k failure patterns for every k", "anchors": ["src/proof.rs:verify_batch_with_single_blame"]}
{"id": "C30", "title": "Single blame terminates within its documented cost", "statement": "The bisection always terminates, calls verify_batch at most 2 + ceil(log2 k) times for k proofs, never overflows usize, and never returns index None for equal-length inputs.", "quantifier": "every batch size and every verifier behaviour", "why_tests_cant": "termination and cost for all sizes and all failure patterns", "anchors": ["src/proof.rs:verify_batch_with_single_blame"]}
{"id": "C31", "title": "Blame functions report mismatched lengths as errors", "statement": "Documented: if lengths do not match a ProofError is returned. False for single blame: with fewer statements (or transcripts) than proofs it panics on slicing, and with more statements than proofs it can blame a valid proof or return index None. Full blame always returns an error on mismatched lengths, possibly with no index.", "quantifier": "every triple of lengths", "why_tests_cant": "the claim is about all length combinations", "anchors": ["src/proof.rs:verify_batch_with_single_blame", "src/proof.rs:verify_batch_with_full_blame"]}
{"id": "C32", "title": "Full blame names exactly the invalid proofs", "statement": "For equal-length inputs verify_batch_with_full_blame returns Ok if verify_batch does, and otherwise an error whose index list is exactly, in increasing order and without duplicates, the indexes i for which verify of proof i alone (on its own transcript) fails.", "quantifier": "every batch", "why_tests_cant": "all failure patterns and sizes", "anchors": ["src/proof.rs:verify_batch_with_full_blame"]}
{"id": "C33", "title": "Blame functions' effect on transcripts", "statement": "verify_batch_with_single_blame never changes the caller's transcripts; verify_batch_with_full_blame leaves them unchanged on success and on failure leaves each as an individual verify would.", "quantifier": "every batch", "why_tests_cant": "all paths through both functions", "anchors": ["src/proof.rs:verify_batch_with_single_blame", "src/proof.rs:verify_batch_with_full_blame"]}
{"id": "C34", "title": "Serialization round trip", "statement": "from_bytes(to_bytes(p)) = Ok(p) for every proof p with X, Y of length m, f of m rows and n-1 columns, 2 <= m < 2^32, 1 <= n-1 < 2^32-1; in particular for every proof returned by prove or by from_bytes.", "quantifier": "every such proof", "why_tests_cant": "all dimensions and contents", "anchors": ["src/proof.rs:to_bytes", "src/proof.rs:from_bytes"]}
{"id": "C35", "title": "Deserialization is canonical", "statement": "If from_bytes(b) = Ok(p) then to_bytes(p) = b; so distinct byte strings never decode to the same proof.", "quantifier": "every byte string", "why_tests_cant": "the fuzz target only samples", "anchors": ["src/proof.rs:from_bytes", "fuzz/fuzz_targets/proofs.rs"]}
{"id": "C36", "title": "Deserialization accepts exactly well-formed encodings", "statement": "from_bytes never panics. It succeeds exactly when the input is the little-endian u32s n-1 >= 1 (n-1 != u32::MAX) and m >= 2 followed by exactly 7 + 2m + m(n-1) 32-byte blocks, each canonical (4 points, 3 scalars, 2m points, m(n-1) scalars); otherwise FailedDeserialization. Serialized length is 8 + 32*(7 + 2m + m(n-1)). No proper prefix or extension of an accepted encoding is accepted.", "quantifier": "every byte string", "why_tests_cant": "all lengths and truncations", "anchors": ["src/proof.rs:from_bytes"]}
{"id": "C37", "title": "Borsh round trip inside a stream", "statement": "Borsh serialization is the u32 length followed by to_bytes (error if the length exceeds u32); deserializing it from any stream with arbitrary following data returns the proof and leaves exactly the following data; deserialization succeeds only on canonical encodings.", "quantifier": "every proof and every following data", "why_tests_cant": "unbounded streams", "anchors": ["src/proof.rs:BorshSerialize", "src/proof.rs:BorshDeserialize"]}
{"id": "C38", "title": "Serialization of serde-built proofs", "statement": "to_bytes is defined on every proof the API can produce. Proofs produced by prove or from_bytes have at least two f rows, so to_bytes does not panic; but the derived serde decoder does no shape validation, and on a proof with empty f to_bytes panics, and on a ragged f the bytes do not decode to the same proof.", "quantifier": "every proof value", "why_tests_cant": "needs the set of all proof shapes", "anchors": ["src/proof.rs:to_bytes", "src/proof.rs:derive(Deserialize)"]}
{"id": "C39", "title": "Ring positions are enumerated by a Gray code consistently", "statement": "For every accepted (n, m): the decomposition of a position k < N has m digits below n, is injective, reaches every digit vector; consecutive positions differ in exactly one digit; the iterator used by prover and verifier yields exactly N steps and replaying them gives exactly the decomposition of each position in order; decompositions never fail on accepted parameters; the constant- and variable-time versions agree.", "quantifier": "every accepted (n, m) and position", "why_tests_cant": "all bases, digit counts and positions; overflow of the u32 shift", "anchors": ["src/gray.rs:GrayIterator"]}
{"id": "C40", "title": "Zero knowledge: responses hide the signer", "statement": "For any fixed challenge, the joint distribution over prover randomness of everything in the proof except the X vector (A, B, C, D, Y, f, z_A, z_C, z) is the same for every signer index, and X is that of a simulator except for masking terms rho_j*G tied to Y_j = rho_j*J (full zero knowledge additionally needs a DDH-type assumption).", "quantifier": "every ring, pair of witnesses, challenge", "why_tests_cant": "a distribution statement over all randomness", "anchors": ["src/proof.rs:prove_internal"]}
{"id": "C41", "title": "Verifier weights and predictability", "statement": "Verifier weights are a function of one 64-bit value per proof and nothing else. If the weights of a verification were known before choosing the linking tag, a proof of a false statement could be accepted with no knowledge of any signing key; so soundness of verify rests on a 64-bit value, not on the 252-bit scalar field.", "quantifier": "every ring and every weight vector", "why_tests_cant": "an attack existence statement for all rings and weights", "anchors": ["src/proof.rs:verify_batch (transcript_weights)", "src/util.rs:NullRng"]}
{"id": "C42", "title": "Verification is deterministic", "statement": "The results of verify, verify_batch and the blame variants, and the transcripts after them, are functions of the statements, proofs and transcripts only: no external randomness is used, and verifying again from equal transcripts gives the same answer.", "quantifier": "every batch", "why_tests_cant": "no test can exclude hidden dependence on randomness", "anchors": ["src/util.rs:NullRng", "src/proof.rs:verify_batch"]}
{"id": "C43", "title": "Matrix commitments are well defined and additively homomorphic", "statement": "The internal commitment accepts exactly m-by-n matrices, rejecting others with an error (rows first), gives the same point in both timing modes, and commits linearly: Com(x*A + y*B, x*r + y*s) = x*Com(A, r) + y*Com(B, s).", "quantifier": "every parameter set and matrices", "why_tests_cant": "all shapes and scalars", "anchors": ["src/parameters.rs:commit_matrix"]}
{"id": "C44", "title": "Zero challenges and zero responses are rejected", "statement": "verify_batch on a well-formed batch returns InvalidChallenge exactly when some proof's challenge is zero (transcripts of proofs before and including it are advanced, later ones untouched); otherwise InvalidParameter(`f contained 0`) exactly when some reconstructed f entry of some proof is 0, before any division is attempted.", "quantifier": "every batch", "why_tests_cant": "probability-negligible branches that tests never reach", "anchors": ["src/transcript.rs:commit", "src/proof.rs:verify_batch"]}
{"id": "C45", "title": "Parallel: parameters", "statement": "parallel::TriptychParameters::new and new_with_generators accept exactly n >= 2, m >= 2, n**m < 2^32, never panic, return the given G, G1, U with N = n**m and n*m commitment generators, and the hash binds n, m, G, G1, U and the commitment generators up to explicit collisions.", "quantifier": "every u32 pair and generators", "why_tests_cant": "2^64 pairs", "anchors": ["src/parallel/parameters.rs"]}
{"id": "C46", "title": "Parallel: input sets, padding and statements", "statement": "parallel input sets require equal-length M and M1 (checked first); padding extends both with their own last element to length N; both vectors and the unpadded size are bound by the hash. A statement exists only if both vectors have N entries, no M[i] is the identity and no M1[i] equals the offset; the statement hash binds params, both vectors, offset and J up to explicit collisions.", "quantifier": "every pair of key vectors, parameters, offset, tag", "why_tests_cant": "all lengths and contents", "anchors": ["src/parallel/statement.rs"]}
{"id": "C47", "title": "Parallel: witnesses and linking tag", "statement": "parallel witness construction accepts exactly r != 0, r1 != 0, l < N in that order; random yields l < N; keys and tags satisfy r*tag = U, key = r*G, auxiliary key = r1*G1; tag equality is key equality when U is not the identity, independently of r1.", "quantifier": "every input", "why_tests_cant": "algebra over the field", "anchors": ["src/parallel/witness.rs"]}
{"id": "C48", "title": "Parallel: prover accepts exactly valid witnesses, never panics, timing modes agree", "statement": "parallel prove returns Ok or InvalidChallenge exactly when parameters match, M[l] = r*G, M1[l] - offset = r1*G1 and r*J = U (first failure reported in this order), never panics, and constant- and variable-time versions agree; a zero r never yields a proof, and neither does a zero r1.", "quantifier": "every witness, statement, generator, transcript", "why_tests_cant": "all sizes and randomness", "anchors": ["src/parallel/proof.rs:prove_internal"]}
{"id": "C49", "title": "Parallel: completeness (single and batch)", "statement": "Every proof returned by parallel prove verifies for the same statement and transcript unless an f entry is zero; batches of such proofs over a common input set (with possibly different offsets and tags) verify in any combination.", "quantifier": "every n, m, ring, signer, keys, offset, randomness, batch", "why_tests_cant": "all sizes and positions", "anchors": ["src/parallel/proof.rs"]}
{"id": "C50", "title": "Parallel: acceptance means the weighted five equations; no panics", "statement": "parallel verify_batch never panics on any proof, rejects wrong shapes and mismatching batches, and accepts a well-shaped batch exactly when the weighted sum of the five equations per proof is the identity with non-zero weights; an invalid proof is accepted for at most one value of a weight.", "quantifier": "every batch", "why_tests_cant": "all shapes, sizes", "anchors": ["src/parallel/proof.rs:verify_batch"]}
{"id": "C51", "title": "Parallel: special soundness and linkability", "statement": "From m+1 accepted proofs with equal commitments and distinct challenges the extractor yields l, r, r1 with M[l] = r*G, M1[l] - offset = r1*G1, r*J = U, the same l for both vectors, or a non-trivial relation among commitment generators, or an exceptional-weight run; equal tags mean equal r.", "quantifier": "every statement and runs", "why_tests_cant": "knowledge extraction over all adversaries", "anchors": ["src/parallel/proof.rs", "src/parallel/mod.rs"]}
{"id": "C52", "title": "Parallel: serialization", "statement": "parallel to_bytes/from_bytes round trip on every well-shaped proof, from_bytes is canonical and accepts exactly header + 8 + 3m + m(n-1) canonical blocks; borsh likewise.", "quantifier": "every proof and byte string", "why_tests_cant": "fuzz target only samples", "anchors": ["src/parallel/proof.rs:from_bytes", "src/parallel/proof.rs:to_bytes", "fuzz/fuzz_targets/parallel.rs"]}
{"id": "C53", "title": "Parallel: blame", "statement": "parallel single blame and full blame satisfy the same contracts as the single-key versions (valid index, minimal under consistency, cost, exact failure list, transcripts), including the length-mismatch panic of single blame.", "quantifier": "every batch", "why_tests_cant": "all failure patterns", "anchors": ["src/parallel/proof.rs:verify_batch_with_single_blame", "src/parallel/proof.rs:verify_batch_with_full_blame"]}
{"id": "C54", "title": "Parallel: challenge binding and transcript effects", "statement": "The parallel challenge transcript determines the caller's transcript, statement hash and A, B, C, D, X, X1, Y; the verifier's transcript after verify is the prover's extended with f, z_A, z_C, z, z1; a verify rejected for mismatched arguments or proof shapes leaves transcripts unchanged, and whatever the outcome prove and verify only append.", "quantifier": "every pair of inputs", "why_tests_cant": "injectivity over unbounded inputs", "anchors": ["src/parallel/transcript.rs: response, build_transcript_rng, as_mut_rng"]}
{"id": "C55", "title": "RingCT example is sound and complete", "statement": "For commitments C = v*H + a*G1 at position l and offset v*H + b*G1, the witness (l, r, a - b) of the example satisfies the parallel relation whenever r != 0 and a != b, for every v, a, b, ring and position; conversely if a parallel statement with offset v'*H + b*G1 is satisfied at a position committing to v != v' then the prover knows H as an explicit multiple of G1.", "quantifier": "every value, mask, ring, position", "why_tests_cant": "all values and masks", "anchors": ["examples/ringct.rs"]}
{"id": "C56", "title": "Parallel size estimate overflow", "statement": "With overflow checks parallel verify_batch panics exactly when 4 + n*m + 2N + batch*(6+3m) >= 2^32, which every accepted parameter set with N >= 2^31 triggers for any non-empty batch.", "quantifier": "every accepted (n, m), batch", "why_tests_cant": "needs 2^31-key rings", "anchors": ["src/parallel/proof.rs:verify_batch (final_size)"]}
{"id": "C57", "title": "Parallel: verifier weights, predictability and determinism", "statement": "The five verifier weights of each parallel proof are a function of one 64-bit value per proof and nothing else, so at most 2^64 weight tuples occur; if the weights of a verification were known before choosing the linking tag, a proof of a false parallel statement (any ring, any offset, no key known) would be accepted. Results and transcripts of parallel verify, verify_batch and the blame variants are functions of statements, proofs and transcripts only.", "quantifier": "every statement, ring, offset, position, weights, nonces; every batch", "why_tests_cant": "no test can exclude hidden inputs or exhibit a forgery for every ring and every weight tuple", "anchors": ["src/parallel/proof.rs:verify_batch", "src/parallel/transcript.rs: response, build_transcript_rng, as_mut_rng"]}
{"id": "C58", "title": "Guarantees at the size of the Ristretto group", "statement": "The order of the Ristretto group is prime, so scalars form a field; every accepted parameter set is small compared with it, so the knowledge extractors of single and parallel proofs work without side conditions; a batch with an invalid proof passes for fewer than one in 2^252 of the vectors of non-zero weights; a commitment mask hides perfectly; reducing a uniform 64-byte string gives every scalar with probability at most 2^-252.", "quantifier": "every accepted (n, m), statement, batch, weights", "why_tests_cant": "counts over 2^252-element spaces", "anchors": ["src/proof.rs:verify_batch", "src/parallel/proof.rs:verify_batch", "src/transcript.rs:commit"]}
{"id": "C59", "title": "Zero knowledge of parallel proofs", "statement": "For any fixed challenge, everything in a parallel proof except the X vector (A, B, C, D, X1, Y, f, z_A, z_C, z, z1) is distributed exactly as the output of a simulator that knows neither index nor keys, hence independent of the signer; the whole proof differs from the simulation only by a masking of X with rho_j*G tied to Y_j = rho_j*J, so distinguishing them is distinguishing Diffie-Hellman tuples from random ones.", "quantifier": "every pair of rings, offset, pair of witnesses, challenge", "why_tests_cant": "a distribution statement over all randomness", "anchors": ["src/parallel/proof.rs:prove_internal"]}
{"id": "C60", "title": "Unforgeability with a random challenge oracle", "statement": "Model the challenge bytes as a random function of the transcript. For every (adaptive) program that asks at most Q challenges and outputs a proof for any of a family of statements with distinct hashes, the probability that its proof satisfies all verification equations is at most m(Q+1)/2^252 plus the expected number of asked points at which rerunning the program with m+1 distinct answers yields, by explicit formulas, a signing key of a ring member with the statement's linking tag or a relation among commitment generators. If the verifier accepts, the proof satisfies the equations unless the weights are exceptional. A holder of a key succeeds with certainty.", "quantifier": "every forger program, number of questions, family of statements, oracle", "why_tests_cant": "quantifies over all adversaries and counts over all oracles", "anchors": ["src/proof.rs:verify", "src/transcript.rs:commit"]}
{"id": "C61", "title": "Unforgeability of parallel proofs with a random challenge oracle", "statement": "Model the challenge bytes of parallel proofs as a random function of the transcript. For every (adaptive) program that asks at most Q challenges and outputs a parallel proof for any of a family of statements with distinct hashes, the probability that its proof satisfies all verification equations is at most m(Q+1)/2^252 plus the expected number of asked points at which rerunning the program with m+1 distinct answers yields, by explicit formulas, both secrets of one ring position (the signing key with the statement's linking tag, and the opening of the second-ring element minus the offset) or a relation among the commitment generators. If the verifier accepts, the proof satisfies the equations unless the weights are exceptional. A holder of both secrets succeeds with certainty.", "quantifier": "every forger program, number of questions, family of parallel statements, oracle", "why_tests_cant": "quantifies over all adversaries and counts over all oracles", "anchors": ["src/parallel/proof.rs:verify", "src/parallel/transcript.rs:commit"]}
{"id": "C62", "title": "The constant-time prover's execution is independent of secrets", "statement": "Two calls of prove/prove_with_rng with the same n and m that end in the same way (success, or the same error) take the same jumps, access the same addresses and perform the same operations on operands of the same sizes (and variable-time operations on the same operands), whatever the index, the key, the rings, the linking tags, the randomness and the transcripts are. The variable-time prover does not have this property: it reveals the index.", "quantifier": "every pair of calls with equal n and m: witnesses, statements, generators and their states, transcripts", "why_tests_cant": "compares executions for all pairs of secrets; functional tests cannot even observe it", "anchors": ["src/proof.rs:prove_internal", "src/util.rs:delta", "src/gray.rs:decompose", "src/parameters.rs:commit_matrix"]}
{"id": "C63", "title": "The constant-time parallel prover's execution is independent of secrets", "statement": "Two calls of the parallel prove/prove_with_rng with the same n and m that end in the same way (success, or the same error) take the same jumps, access the same addresses and perform the same operations on operands of the same sizes (and variable-time operations on the same operands), whatever the index, the two secrets, the two rings, the offset, the linking tag, the randomness and the transcripts are. The variable-time parallel prover does not have this property: it reveals the index.", "quantifier": "every pair of calls with equal n and m: witnesses, statements, generators and their states, transcripts", "why_tests_cant": "compares executions for all pairs of secrets; functional tests cannot even observe it", "anchors": ["src/parallel/proof.rs:prove_internal", "src/util.rs:delta", "src/gray.rs:decompose", "src/parallel/parameters.rs:commit_matrix"]}
{"id": "C64", "title": "Random witnesses are nearly uniform", "statement": "Over all outputs of the supplied generator, TriptychWitness::random picks each index of the ring floor(2^64/N) times or once more out of 2^64, independently of the key, and picks any given key (in particular zero, which is not excluded) with probability at most 2^-252; the same for the parallel witness and each of its keys.", "quantifier": "every parameters object, every generator output (64-bit word and 64-byte blocks), every index and every key", "why_tests_cant": "a counting statement over 2^64 words and 2^512 blocks", "anchors": ["src/witness.rs:random", "src/parallel/witness.rs:random"]}
{"id": "C65", "title": "Proof size is exact and logarithmic in the ring", "statement": "A proof made by any of the provers for a ring of N = n^m keys is encoded by to_bytes in exactly 8 + 32(7 + (n+1) log_n N) bytes (8 + 32(8 + (n+2) log_n N) for parallel proofs), and every proof returned by from_bytes has vectors whose lengths are accounted for by the length of the input in the same way.", "quantifier": "every statement, transcript, generator and proof made from them; every byte string accepted by from_bytes", "why_tests_cant": "ranges over all parameters and all accepted byte strings", "anchors": ["src/proof.rs:to_bytes", "src/proof.rs:from_bytes", "src/parallel/proof.rs:to_bytes", "src/parallel/proof.rs:from_bytes"]}
{"id": "C66", "title": "The documented example works, and exactly when it panics is known", "statement": "The example program in the crate documentation (and the one of the parallel module), for all sizes n, m accepted by the parameters and every behaviour of the generator: its setup panics exactly if the ring drawn contains the identity (or an auxiliary key equal to the offset); otherwise witness and statement belong together, proving succeeds unless the challenge is zero, and the final assertion holds unless a response entry is zero.", "quantifier": "every n, m >= 2 with n^m < 2^32, every generator and generator state", "why_tests_cant": "doc tests run one size with one generator output", "anchors": ["src/lib.rs:crate documentation example", "src/parallel/mod.rs:module documentation example", "src/witness.rs:random", "src/statement.rs:new"]}
{"id": "C67", "title": "The fuzz targets' assertions hold for every input", "statement": "For every byte string, decoding a proof does not panic, and if it succeeds, encoding the proof gives back that byte string; so the assertion in the fuzz targets for proofs and for parallel proofs never fails.", "quantifier": "every byte string", "why_tests_cant": "fuzzing samples the byte strings", "anchors": ["fuzz/fuzz_targets/proofs.rs", "fuzz/fuzz_targets/parallel.rs", "src/proof.rs:from_bytes", "src/parallel/proof.rs:from_bytes"]}
{"id": "C68", "title": "Padding neither adds nor removes signers", "statement": "For an input set made by new_with_padding from a list of keys: a secret satisfies the relation at a ring position exactly if it satisfies it for the caller's own keys at that position, or at the last key for positions in the padding; the holder of one of these keys can sign from every such position; and a key extracted from accepted proofs is the secret of one of the caller's keys.", "quantifier": "every list of keys accepted for the parameters, every secret, position, statement, transcript, generator, and every set of accepted proofs with the same commitments and distinct challenges", "why_tests_cant": "ranges over all key lists and all adversarial proofs", "anchors": ["src/statement.rs:new_with_padding", "src/parallel/statement.rs:new_with_padding", "src/proof.rs:prove_internal", "src/proof.rs:verify_batch"]}
{"id": "C69", "title": "The verifier's work is fixed by the parameters and the batch size", "statement": "Verifying a batch of k proofs that reaches the final check costs exactly one multiscalar multiplication with n^m + nm + 3 + k(5 + 2m) terms (2n^m + nm + 4 + k(6 + 3m) for parallel proofs), one scalar for each point; memory is reserved for that many scalars, reduced modulo 2^32 (so never for more). Every other result (shape, size, zero challenge, zero response) is returned without a multiscalar multiplication. So verifying k proofs with the same parameters one by one costs k - 1 times n^m + nm + 3 (2n^m + nm + 4) more terms than verifying them in one batch.", "quantifier": "every list of statements, proofs and transcripts whose first statement was made by the API", "why_tests_cant": "a statement about the cost for all batches, including hostile ones", "anchors": ["src/proof.rs:verify_batch", "src/parallel/proof.rs:verify_batch"]}
{"id": "C70", "title": "Any number of signatures reveal nothing about keys or positions", "statement": "In the random oracle model, a program that asks for challenges and requests signatures adaptively (chosen statements, transcripts, signers) cannot tell the library's signatures from ones a simulator makes without any key, except with probability q(Q+q)/order (q signatures, Q questions); and, up to its advantage in telling Diffie-Hellman elements from random ones, not from ones made without knowing the signer's position either.", "quantifier": "every program with at most Q questions and q requests, every event it aims at, every family of statements with the same parameters, every signer and transcript", "why_tests_cant": "ranges over all adaptive adversaries and all oracles; a statement about probabilities", "anchors": ["src/proof.rs:prove_internal", "src/transcript.rs:ProofTranscript", "src/parallel/proof.rs:prove_internal"]}
{"id": "C71", "title": "Signatures on other messages do not help to forge (chosen-message attack)", "statement": "In the random oracle model, if a program that may request signatures adaptively outputs a proof that the verifier accepts for a transcript, statement and commitments no signer has used, then (up to (q(Q+q)+m(Q+1))/2^252 and the verifier's exceptional weights) rewinding the program, run with simulated signatures made without any key, yields a signing key of a ring member with the statement's linking tag or a relation among the commitment generators; an extracted key for an honest signer's tag is that signer's key (nobody can be framed). If the proof reuses a signature's statement, transcript and commitments it is that signature, or yields a relation.", "quantifier": "every program with at most Q questions and q requests, every family of statements with the same parameters, every signer", "why_tests_cant": "ranges over all adaptive adversaries and all oracles", "anchors": ["src/proof.rs:prove_internal", "src/proof.rs:verify_batch", "src/transcript.rs:ProofTranscript"]}
{"id": "C72", "title": "Any number of parallel signatures reveal nothing about keys or positions", "statement": "In the random oracle model, a program that asks for challenges and requests parallel signatures adaptively (chosen statements with any offsets, transcripts, signers) cannot tell the library's parallel signatures from ones a simulator makes without any secret, except with probability q(Q+q)/order (q signatures, Q questions); and, up to its advantage in telling Diffie-Hellman elements from random ones, not from ones made without knowing the signer's position either.", "quantifier": "every program with at most Q questions and q requests, every event it aims at, every family of parallel statements (any offsets) with the same parameters, every signer and transcript", "why_tests_cant": "ranges over all adaptive adversaries and all oracles; a statement about probabilities", "anchors": ["src/parallel/proof.rs:prove_internal", "src/parallel/transcript.rs:ProofTranscript"]}
{"id": "C73", "title": "Parallel signatures on other messages do not help to forge (chosen-message attack)", "statement": "In the random oracle model, if a program that may request parallel signatures adaptively outputs a parallel proof that the verifier accepts for a transcript, statement and commitments no signer has used, then (up to (q(Q+q)+m(Q+1))/2^252 and the verifier's exceptional weights) rewinding the program, run with simulated signatures made without any secret, yields both secrets of one ring position (the signing key with the statement's linking tag and the opening of the second-ring element minus the offset) or a relation among the commitment generators; an extracted signing key for an honest signer's tag is that signer's key. If the proof reuses a signature's statement, transcript and commitments it is that signature, or yields a relation.", "quantifier": "every program with at most Q questions and q requests, every family of parallel statements (any offsets) with the same parameters, every signer", "why_tests_cant": "ranges over all adaptive adversaries and all oracles", "anchors": ["src/parallel/proof.rs:prove_internal", "src/parallel/proof.rs:verify_batch", "src/parallel/transcript.rs:ProofTranscript"]}
{"id": "C74", "title": "The prover's randomness is as good as its transcript generator", "statement": "If the 64-byte outputs of the transcript generator that the prover keys with its witness are replaced by a random table, the prover's result is that of a signer using the scalars in the table (in the order of the code), the joint distribution of all m n + m + 4 scalars differs from uniform on every event by at most (m n + m + 4) / 2^258 (Ristretto), and therefore C70 and C71 hold for the code's derivation with that additional error per signature.", "quantifier": "all oracles, statements, requests, adaptive programs, tables and events", "why_tests_cant": "a statement about probabilities over all tables, with error below anything observable", "anchors": ["src/proof.rs:prove_internal", "src/transcript.rs:ProofTranscript", "src/util.rs"]}
{"id": "C75", "title": "Verification with an ideal weight generator: soundness error and termination", "statement": "For every batch fixed in advance that contains an invalid proof, over a random table for the weight generator, verify_batch accepts with probability at most 2^-251 (Ristretto), including the code's rejection of zero weights and the bias of reducing 64 bytes; and the loop that redraws zero weights needs more than j quadruples per proof with probability at most k / 2^(249 j).", "quantifier": "all batches (any size), all invalid proofs in any position, all configurations, all tables", "why_tests_cant": "probabilities over all tables; events too rare to observe", "anchors": ["src/proof.rs:verify_batch"]}
{"id": "C76", "title": "The parallel prover's randomness is as good as its transcript generator", "statement": "If the 64-byte outputs of the transcript generator that the parallel prover keys with its witness are replaced by a random table, the prover's result is that of a signer using the scalars in the table (in the order of the code), the joint distribution of all m n + 2 m + 4 scalars differs from uniform on every event by at most (m n + 2 m + 4) / 2^258 (Ristretto), and therefore C72 and C73 (signatures reveal nothing; chosen-message unforgeability) hold for the code's derivation with that additional error per signature.", "quantifier": "all oracles, parallel statements, requests, adaptive programs, tables and events", "why_tests_cant": "a statement about probabilities over all tables, with error below anything observable", "anchors": ["src/parallel/proof.rs:prove_internal", "src/parallel/transcript.rs:ProofTranscript"]}
{"id": "C77", "title": "Parallel verification with an ideal weight generator: soundness error and termination", "statement": "For every batch of parallel proofs fixed in advance that contains an invalid proof, over a random table for the weight generator, the parallel verify_batch accepts with probability at most 2^-251 (Ristretto), including the code's rejection of zero weights (five per proof) and the bias of reducing 64 bytes; and the loop that redraws zero weights needs more than j quintuples per proof with probability at most k / 2^(249 j) for k proofs.", "quantifier": "all batches of parallel proofs (any size), all invalid proofs in any position, all configurations, all tables", "why_tests_cant": "probabilities over all tables; events too rare to observe", "anchors": ["src/parallel/proof.rs:verify_batch"]}
{"id": "C78", "title": "Grinding the verifier's weights of one proof costs about 2^64 steps", "statement": "The weights of a proof depend on it only through a seed of 64 bits. If the seeds and the weights are random functions, every program that asks for at most Q seeds, in any order and adaptively, outputs a proof that verify accepts although it violates its equations with probability at most 4(Q + 1) / 2^64 + 1 / 2^174, even if it knows the weights of all seeds and uses them to choose what it asks for; if it asks for the weights of at most T seeds, also with probability at most (Q + 1)(T / 2^64 + 1 / 2^251). So the forgery of C41, which takes about 2^64 steps, is essentially optimal.", "quantifier": "every program with any number of adaptive queries, every family of statements, every fixed challenge function, every configuration", "why_tests_cant": "a bound on the success of all possible attack programs, over random functions", "anchors": ["src/proof.rs:verify", "src/proof.rs:verify_batch", "src/transcript.rs:ProofTranscript::as_mut_rng"]}
{"id": "C79", "title": "Grinding the verifier's weights of a batch", "statement": "For batches of k proofs a program asking for at most Q seeds and T times for the weights of k seeds outputs a batch that verify_batch accepts although one proof violates its equations with probability at most (Q + k)(Q + k + k(T + 1)) / 2^64 + (T + 1) / 2^251.", "quantifier": "every program with any number of adaptive queries, every batch size k, every family of statements, every configuration", "why_tests_cant": "a bound on the success of all possible attack programs, over random functions", "anchors": ["src/proof.rs:verify_batch", "src/transcript.rs:ProofTranscript::as_mut_rng"]}
{"id": "C80", "title": "Forgeries against the complete verifier", "statement": "A forger may ask for challenges (Q), weight seeds (R) and weights of seeds (T), all of which are random; the verifier derives the same from what the forger outputs. verify accepts the output with probability at most m(Q + 1) / 2^252 + 4(R + 1) / 2^64 + 1 / 2^174 plus the expected number of questions at which rewinding the forger yields a signing key for the statement or a relation among the commitment generators.", "quantifier": "every forger with any number of adaptive queries of the three kinds, every family of statements with at most m digits, every configuration", "why_tests_cant": "a bound on the success of all possible forgers, over random functions", "anchors": ["src/proof.rs:verify", "src/transcript.rs:ProofTranscript"]}
{"id": "C81", "title": "Grinding the parallel verifier's weights of one proof", "statement": "The weights of a parallel proof depend on it only through a seed of 64 bits. If the seeds and the weights are random functions, every program that asks for at most Q seeds, in any order and adaptively, outputs a parallel proof that verify accepts although it violates its equations with probability at most 5(Q + 1) / 2^64 + 1 / 2^107, even if it knows the weights of all seeds and uses them to choose what it asks for; if it asks for the weights of at most T seeds, also with probability at most (Q + 1)(T / 2^64 + 1 / 2^251).", "quantifier": "every program with any number of adaptive queries, every family of parallel statements, every fixed challenge function, every configuration", "why_tests_cant": "a bound on the success of all possible attack programs, over random functions", "anchors": ["src/parallel/proof.rs:verify", "src/parallel/transcript.rs:ProofTranscript::as_mut_rng"]}
{"id": "C82", "title": "Grinding the parallel verifier's weights of a batch", "statement": "For batches of k parallel proofs a program asking for at most Q seeds and T times for the weights of k seeds outputs a batch that the parallel verify_batch accepts although one proof violates its equations with probability at most (Q + k)(Q + k + k(T + 1)) / 2^64 + (T + 1) / 2^251.", "quantifier": "every program with any number of adaptive queries, every batch size k, every family of parallel statements, every configuration", "why_tests_cant": "a bound on the success of all possible attack programs, over random functions", "anchors": ["src/parallel/proof.rs:verify_batch", "src/parallel/transcript.rs:ProofTranscript::as_mut_rng"]}
{"id": "C83", "title": "Forgeries against the complete parallel verifier", "statement": "A forger of parallel proofs may ask for challenges (Q), weight seeds (R) and weights of seeds (T), all of which are random; the verifier derives the same from what the forger outputs. The parallel verify accepts the output with probability at most m(Q + 1) / 2^252 + 5(R + 1) / 2^64 + 1 / 2^107 plus the expected number of questions at which rewinding the forger yields the two secrets of a position of the ring (the signing key with the linking tag and the opening of the second-ring element minus the offset) or a relation among the commitment generators.", "quantifier": "every forger with any number of adaptive queries of the three kinds, every family of parallel statements with at most m digits, every configuration", "why_tests_cant": "a bound on the success of all possible forgers, over random functions", "anchors": ["src/parallel/proof.rs:verify", "src/parallel/transcript.rs:ProofTranscript"]}
{"id": "C84", "title": "Proofs through serde", "statement": "With the serde feature, deserializing a serialized proof gives back the same proof for every proof value, in formats that render structs as maps and in those that render them as sequences. Deserialization succeeds exactly on the values that represent a proof: every field once (in any order in a map, with unknown fields ignored), points and scalars as tuples of 32 integers in 0..256 that are their canonical encodings; duplicate or missing fields, wrong lengths and non-canonical elements are rejected. As a sequence a proof has one representation only. The dimensions are not checked, but the verifier rejects a decoded proof of wrong dimensions without panicking, and a decoded proof that verifies survives to_bytes and from_bytes.", "quantifier": "every proof value, every value of serde's data model, every statement and transcript", "why_tests_cant": "ranges over all data-model values, including malformed and reordered ones, and all proof shapes", "anchors": ["src/proof.rs:TriptychProof", "src/proof.rs:derive(Deserialize, Serialize)", "Cargo.toml:serde"]}
{"id": "C85", "title": "Parallel proofs through serde", "statement": "With the serde feature, deserializing a serialized parallel proof gives back the same proof for every proof value, in formats that render structs as maps and in those that render them as sequences. Deserialization succeeds exactly on the values that represent a parallel proof: every field (including X1 and z1) once, in any order in a map, with unknown fields ignored, points and scalars as tuples of 32 integers in 0..256 that are their canonical encodings; duplicate or missing fields, wrong lengths and non-canonical elements are rejected. As a sequence a proof has one representation only. The dimensions are not checked, but the verifier rejects a decoded proof of wrong dimensions without panicking, and a decoded proof that verifies survives to_bytes and from_bytes. In formats that render structs as maps, a serialized parallel proof is also decoded by the decoder of non-parallel proofs, with X1 and z1 dropped; a serialized non-parallel proof is never decoded as a parallel one, and in formats that render structs as sequences neither is decoded as the other.", "quantifier": "every parallel proof value, every value of serde's data model, every parallel statement and transcript; every pair of a parallel and a non-parallel proof", "why_tests_cant": "ranges over all data-model values and proof shapes", "anchors": ["src/parallel/proof.rs:TriptychProof", "src/parallel/proof.rs:derive(Deserialize, Serialize)"]}
{"id": "C86", "title": "A proof for one message is not valid for another", "statement": "A proof is bound to the message and the statement it was made for. Deterministically: whatever a proof, it satisfies the verification equations of a given statement for at most m challenges (and this is tight), and if it does so for two challenges then the signer's index and mask are zero or reveal a relation among the commitment generators. With random challenges: whoever asks for at most Q challenges, knowing everything the signers know, finds with probability at most q m (Q + 1) / 2^252 one of q proofs made by the prover and another message or statement for which this proof satisfies the verification equations; for the complete verifier with random weights, 4(R + 1) / 2^64 + 1 / 2^174 is added, R being the number of weight seeds asked for. No assumption on discrete logarithms is used.", "quantifier": "every proof, statement and set of challenges; every program with bounded numbers of questions, every family of signers, statements and transcripts", "why_tests_cant": "the tests replace message, input set or linking tag once; the claim is about every replacement anybody can find", "anchors": ["src/proof.rs:prove_internal", "src/proof.rs:verify", "src/statement.rs:TriptychStatement::new", "src/transcript.rs:ProofTranscript"]}
{"id": "C87", "title": "A parallel proof for one message is not valid for another", "statement": "A parallel proof is bound to the message and the statement (both rings, offset, linking tag) it was made for. Deterministically: whatever a parallel proof, it satisfies the verification equations of a given statement for at most m challenges (and this is tight), and if it does so for two challenges then the signer's index and mask are zero or reveal a relation among the commitment generators. With random challenges: whoever asks for at most Q challenges, knowing everything the signers know, finds with probability at most q m (Q + 1) / 2^252 one of q proofs made by the parallel prover and another message or statement for which this proof satisfies the verification equations; for the complete parallel verifier with random weights, 5(R + 1) / 2^64 + 1 / 2^107 is added, R being the number of weight seeds asked for. No assumption on discrete logarithms is used.", "quantifier": "every parallel proof, statement and set of challenges; every program with bounded numbers of questions, every family of signers, parallel statements and transcripts", "why_tests_cant": "the tests replace message, input sets, linking tag or offset once; the claim is about every replacement anybody can find", "anchors": ["src/parallel/proof.rs:prove_internal", "src/parallel/proof.rs:verify", "src/parallel/statement.rs:TriptychStatement::new", "src/parallel/transcript.rs:ProofTranscript"]}
{"id": "C88", "title": "Holders of a few keys make few unlinkable signatures", "statement": "A program may ask for challenges (Q), weight seeds (R) and weights of seeds (T), all of which are random, and outputs j + 1 proofs for any statements with the same generators (rings, sizes and messages may differ). For any set of at most j signing keys: the probability that verify accepts all proofs although no two have the same linking tag is at most (j + 1)(m(Q + 1) / 2^252 + 4(R + 1) / 2^64 + 1 / 2^174) plus the expected number of questions at which rewinding the program yields a signing key of a ring member that is not among the given keys, or a relation among the commitment generators. If all rings together have at most j members, only relations are left: a set of N keys supports at most N unlinkable signatures.", "quantifier": "all programs (adaptive, unbounded computation, with any keys), all Q, R, T, j, all families of API-built statements with common generators, all finite sets of transcripts as oracle domain, both build modes", "why_tests_cant": "it bounds the success probability of every possible program; a test runs one", "anchors": ["src/proof.rs: TriptychProof::verify, TriptychProof::verify_batch", "src/statement.rs: TriptychStatement::get_J", "src/witness.rs: TriptychWitness::compute_linking_tag"]}
{"id": "C89", "title": "Holders of a few keys make few unlinkable parallel signatures", "statement": "A program may ask for challenges (Q), weight seeds (R) and weights of seeds (T), all of which are random, and outputs j + 1 parallel proofs for any statements with the same generators (rings, offsets, sizes and messages may differ). For any set of at most j signing keys: the probability that the parallel verify accepts all proofs although no two have the same linking tag is at most (j + 1)(m(Q + 1) / 2^252 + 5(R + 1) / 2^64 + 1 / 2^107) plus the expected number of questions at which rewinding the program yields the two secrets of a ring position whose signing key is not among the given keys, or a relation among the commitment generators. If all rings together have at most j verification keys, only relations are left.", "quantifier": "all programs (adaptive, unbounded computation, with any keys), all Q, R, T, j, all families of API-built parallel statements with common generators, all finite sets of transcripts as oracle domain, both build modes", "why_tests_cant": "it bounds the success probability of every possible program; a test runs one", "anchors": ["src/parallel/proof.rs: TriptychProof::verify, TriptychProof::verify_batch", "src/parallel/statement.rs: TriptychStatement::get_J", "src/parallel/witness.rs: TriptychWitness::compute_linking_tag"]}
{"id": "C90", "title": "Existential unforgeability of signatures against the complete verifier", "statement": "All challenges, weight seeds and weights are random. A program may ask for Q challenges, R weight seeds, the weights of T seeds, and request q signatures, adaptively, from honest signers, on any transcripts and API-built statements with common parameters. The probability that it outputs a proof which verify accepts, and which no signer made (its challenge is derived from a transcript no signer used), is at most (q(Q + q) + m(Q + 1)) / 2^252 + 4(R + 1) / 2^64 + 1 / 2^174 plus the expected number of questions at which rewinding the program, run with a simulator that knows no key, yields a signing key or a relation among the commitment generators. The same for j + 1 proofs with different linking tags and any j signing keys: rewinding yields a signing key that is not among them.", "quantifier": "all programs (adaptive, unbounded computation), all Q, R, T, q, j, all families of API-built statements with common parameters and different hashes, all signers with valid witnesses, all finite sets of transcripts as oracle domain that contain the signers' transcripts, both build modes", "why_tests_cant": "it bounds the success probability of every possible program that sees signatures; a test runs one", "anchors": ["src/proof.rs: TriptychProof::prove_with_rng, TriptychProof::verify, TriptychProof::verify_batch", "src/transcript.rs: ProofTranscript::commit, ProofTranscript::response"]}
{"id": "C91", "title": "Existential unforgeability of parallel signatures against the complete verifier", "statement": "All challenges, weight seeds and weights are random. A program may ask for Q challenges, R weight seeds, the weights of T seeds, and request q parallel signatures, adaptively, from honest signers, on any transcripts and API-built statements with common parameters. The probability that it outputs a parallel proof which verify accepts, and which no signer made (its challenge is derived from a transcript no signer used), is at most (q(Q + q) + m(Q + 1)) / 2^252 + 5(R + 1) / 2^64 + 1 / 2^107 plus the expected number of questions at which rewinding the program, run with a simulator that knows no key, yields a signing key or a relation among the commitment generators. The same for j + 1 proofs with different linking tags and any j signing keys: rewinding yields a signing key that is not among them.", "quantifier": "all programs (adaptive, unbounded computation), all Q, R, T, q, j, all families of API-built statements with common parameters and different hashes, all signers with valid witnesses, all finite sets of transcripts as oracle domain that contain the signers' transcripts, both build modes", "why_tests_cant": "it bounds the success probability of every possible program that sees signatures; a test runs one", "anchors": ["src/parallel/proof.rs: TriptychProof::prove_with_rng, TriptychProof::verify, TriptychProof::verify_batch", "src/parallel/transcript.rs: ProofTranscript::commit, ProofTranscript::response"]}
{"id": "C92", "title": "Unforgeability of signatures against batch verification", "statement": "All challenges, weight seeds and weights are random. A program may ask for Q challenges, R weight seeds, T times for the weights of k + 1 seeds, and request q signatures from honest signers, and outputs a batch of k + 1 proofs for API-built statements with common parameters, whose input set and statement hashes do not collide. The probability that verify_batch accepts the batch although one of the proofs was made by no signer is at most (k + 1)(q(Q + q) + m(Q + 1)) / 2^252 + (R + k + 1)(R + k + 1 + (k + 1)(T + 1)) / 2^64 + (T + 1) / 2^251 plus the expected number of questions at which rewinding the program, run with a simulator that knows no key, yields a signing key or a relation among the commitment generators; if no signer made any of the proofs and all linking tags differ, a signing key that is none of k given keys.", "quantifier": "all programs (adaptive, unbounded computation), all Q, R, T, q, k, all families of API-built statements with common parameters and collision-free hashes, all signers with valid witnesses, all finite sets of transcripts as oracle domain that contain the signers' transcripts, both build modes", "why_tests_cant": "it bounds the success probability of every possible program that sees signatures; a test runs one", "anchors": ["src/proof.rs: TriptychProof::prove_with_rng, TriptychProof::verify_batch", "src/transcript.rs: ProofTranscript::commit, ProofTranscript::response"]}
{"id": "C93", "title": "Unforgeability of parallel signatures against batch verification", "statement": "All challenges, weight seeds and weights are random. A program may ask for Q challenges, R weight seeds, T times for the weights of k + 1 seeds, and request q parallel signatures from honest signers, and outputs a batch of k + 1 parallel proofs for API-built statements with common parameters, whose input set and statement hashes do not collide. The probability that verify_batch accepts the batch although one of the proofs was made by no signer is at most (k + 1)(q(Q + q) + m(Q + 1)) / 2^252 + (R + k + 1)(R + k + 1 + (k + 1)(T + 1)) / 2^64 + (T + 1) / 2^251 plus the expected number of questions at which rewinding the program, run with a simulator that knows no key, yields a signing key or a relation among the commitment generators; if no signer made any of the proofs and all linking tags differ, a signing key that is none of k given keys.", "quantifier": "all programs (adaptive, unbounded computation), all Q, R, T, q, k, all families of API-built statements with common parameters and collision-free hashes, all signers with valid witnesses, all finite sets of transcripts as oracle domain that contain the signers' transcripts, both build modes", "why_tests_cant": "it bounds the success probability of every possible program that sees signatures; a test runs one", "anchors": ["src/parallel/proof.rs: TriptychProof::prove_with_rng, TriptychProof::verify_batch", "src/parallel/transcript.rs: ProofTranscript::commit, ProofTranscript::response"]}
{"id": "C94", "title": "Anonymity: nobody can tell which honest ring member signs, under the Diffie-Hellman assumption", "statement": "Several honest signers have random keys. A program sees all their verification keys, and a linking tag, and gets any number of signatures, made with this tag by one of the signers, for rings and messages depending in any way on the keys and containing all of them, while asking for challenges in any order. The probability that it says yes depends on who signs only by: twice q (Q + q) / order + 1 / (order - 1) (over the Ristretto scalar field (q (Q + q) + 1) / 2^251), plus the advantages of two explicit programs, for each of the two signers, which run the program once and know no key they did not choose: one telling pairs (verification key, linking tag) of random keys from pairs of independent random elements, and one telling Diffie-Hellman tuples from random tuples. If the generator U is random, the first task is exactly the Diffie-Hellman one.", "quantifier": "all programs (adaptive, unbounded), all numbers of honest signers, questions and signatures, all families of rings and transcripts, all parameters the library makes in a group of prime order, all pairs of signers", "why_tests_cant": "Anonymity is about the distribution of what any observer sees, for every strategy: a test sees single signatures, and a signature leaking its index in a correlation of two components passes every functional test.", "anchors": ["src/proof.rs: TriptychProof::prove, TriptychProof::prove_vartime, TriptychProof::prove_internal", "src/witness.rs: TriptychWitness::compute_linking_tag", "src/statement.rs: TriptychInputSet::new, TriptychStatement::new", "src/transcript.rs: ProofTranscript"]}
{"id": "C95", "title": "Anonymity of parallel signatures: nobody can tell which honest ring member signs, under the Diffie-Hellman assumption", "statement": "Several honest signers have random keys. A program sees all their verification keys, and a linking tag, and gets any number of parallel signatures, made with this tag by one of the signers, for rings, auxiliary keys, offsets and messages depending in any way on the keys and containing all of them, while asking for challenges in any order. The probability that it says yes depends on who signs only by: twice q (Q + q) / order + 1 / (order - 1) (over the Ristretto scalar field (q (Q + q) + 1) / 2^251), plus the advantages of two explicit programs, for each of the two signers, which run the program once and know no key they did not choose: one telling pairs (verification key, linking tag) of random keys from pairs of independent random elements, and one telling Diffie-Hellman tuples from random tuples. If the generator U is random, the first task is exactly the Diffie-Hellman one. This holds for any choice of the auxiliary keys and openings.", "quantifier": "all programs (adaptive, unbounded), all numbers of honest signers, questions and signatures, all families of rings, auxiliary keys, offsets and transcripts, all parameters the library makes in a group of prime order, all pairs of signers", "why_tests_cant": "Anonymity is about the distribution of what any observer sees, for every strategy: a test sees single signatures, and a signature leaking its index in a correlation of two components passes every functional test.", "anchors": ["src/parallel/proof.rs: TriptychProof::prove, TriptychProof::prove_vartime, TriptychProof::prove_internal", "src/parallel/witness.rs: TriptychWitness::compute_linking_tag", "src/parallel/statement.rs: TriptychInputSet::new, TriptychStatement::new", "src/parallel/transcript.rs: ProofTranscript"]}
{"id": "C96", "title": "What the prover does not erase does not reveal the key", "statement": "A prover with a valid witness leaves in its variables, when it returns, the position of the key in the ring, the verification key, its random matrix a, its random scalars r_A, r_B, r_C, r_D and values computed from these (and its commitments, if the challenge is zero); the masks rho leave only their number. A prover that rejects its witness leaves at most the position and the ring's key there. A dropped witness leaves zeros, and computing a linking tag leaves nothing of the key. Signatures published together with everything the signers leave behind can be simulated without any key: no program with Q questions and q signatures can tell the difference with probability over q (Q + q) / order; a program that makes a new forgery from them reveals a signing key, or a relation among the commitment generators, when it is run with the keyless simulator and rewound (over the Ristretto scalar field, up to (q (Q + q) + m (Q + 1)) / 2^252). The erasure of the masks is necessary: from them and the proof anybody can compute the key.", "quantifier": "all environments (groups, hash functions), all witnesses and statements made by the library, all transcripts, external random generators and both timings; all adaptive programs that ask for challenges and request any number of signatures", "why_tests_cant": "A test sees the returned value and not what is left behind, and that leftovers are harmless is a claim about every program that might read them: a variable that is not erased may depend on the key through any combination with the published proof.", "anchors": ["src/proof.rs: TriptychProof::prove_internal", "src/witness.rs: TriptychWitness (ZeroizeOnDrop), TriptychWitness::compute_linking_tag"]}
{"id": "C97", "title": "What the parallel prover does not erase does not reveal the keys", "statement": "A parallel prover with a valid witness leaves in its variables, when it returns, the position of the keys in the ring, the verification key, the auxiliary key there, its random matrix a, its random scalars r_A, r_B, r_C, r_D, the offset and values computed from these (and its commitments, if the challenge is zero); the masks rho and rho1 leave only their number. A prover that rejects its witness leaves at most the position and the ring's keys there. A dropped witness leaves zeros, and computing a linking tag leaves nothing of the keys. Signatures published together with everything the signers leave behind can be simulated without any key: no program with Q questions and q signatures can tell the difference with probability over q (Q + q) / order; a program that makes a new forgery from them reveals signing keys, or a relation among the commitment generators, when it is run with the keyless simulator and rewound (over the Ristretto scalar field, up to (q (Q + q) + m (Q + 1)) / 2^252). The erasure of the masks is necessary: from them and the proof anybody can compute both keys.", "quantifier": "all environments (groups, hash functions), all witnesses and statements made by the library, all transcripts, external random generators and both timings; all adaptive programs that ask for challenges and request any number of signatures", "why_tests_cant": "A test sees the returned value and not what is left behind, and that leftovers are harmless is a claim about every program that might read them: a variable that is not erased may depend on the key through any combination with the published proof.", "anchors": ["src/parallel/proof.rs: TriptychProof::prove_internal", "src/parallel/witness.rs: TriptychWitness (ZeroizeOnDrop), TriptychWitness::compute_linking_tag"]}
{"id": "C98", "title": "Whoever forges can compute a signing key, by an efficient algorithm", "statement": "There is an explicit algorithm that turns any forger into a signing key. It runs the forger once and then m tau times more, with random answers for the challenge of the forgery, keeps the runs with valid proofs, and computes from them, by the formulas of C20, a signing key of a ring member with the statement's linking tag, or a relation among the commitment generators. If the forger asks at most Q challenges and succeeds with probability epsilon, the algorithm succeeds with probability at least epsilon - (Q + 1) (m / (tau + 1) + m^2 / 2^252) over the Ristretto scalar field; so with tau + 1 at least 2 m (Q + 1) / epsilon tries it succeeds with probability about epsilon / 2. The same holds, with the error terms of C71, C90 and C92, for programs that request signatures from honest signers (which the algorithm simulates without any key), against the complete verifier with its random weights, and for batches; j + 1 accepted new proofs with different linking tags yield a key outside any given set of j keys.", "quantifier": "all environments (groups, hash functions), all families of statements made by the library, all adaptive programs with any number of questions and requested signatures, and any number of tries of the extractor", "why_tests_cant": "A reduction is a claim about every attacker, known or not, and about its probability of success over all random choices; a test can only run particular attackers.", "anchors": ["src/proof.rs: TriptychProof::prove_internal, TriptychProof::verify, TriptychProof::verify_batch"]}
{"id": "C99", "title": "Whoever forges parallel proofs can compute the two secrets, by an efficient algorithm", "statement": "There is an explicit algorithm that turns any forger of parallel proofs into the two secrets of a position of the ring. It runs the forger once and then m tau times more, with random answers for the challenge of the forgery, keeps the runs with valid proofs, and computes from them, by the formulas of C51, both secrets of a position, with the statement's linking tag, or a relation among the commitment generators. If the forger asks at most Q challenges and succeeds with probability epsilon, the algorithm succeeds with probability at least epsilon - (Q + 1) (m / (tau + 1) + m^2 / 2^252) over the Ristretto scalar field; so with tau + 1 at least 2 m (Q + 1) / epsilon tries it succeeds with probability about epsilon / 2. The same holds, with the error terms of C73, C91 and C93, for programs that request signatures from honest signers (which the algorithm simulates without any key), against the complete verifier with its random weights, and for batches; j + 1 accepted new proofs with different linking tags yield a key outside any given set of j keys.", "quantifier": "all environments (groups, hash functions), all families of statements made by the library, all adaptive programs with any number of questions and requested signatures, and any number of tries of the extractor", "why_tests_cant": "A reduction is a claim about every attacker, known or not, and about its probability of success over all random choices; a test can only run particular attackers.", "anchors": ["src/parallel/proof.rs: TriptychProof::prove_internal, TriptychProof::verify, TriptychProof::verify_batch"]}
{"id": "C100", "title": "Decoding cost is bounded by the input, not by what it declares", "statement": "from_bytes on any byte string, whatever dimensions its header declares, performs at most 5 (len / 32) + 5 operations (reads, decodings, loop iterations); it attempts at most len / 32 decodings of points and scalars, and its loops run at most 3 (len / 32) + 2 times, storing at most one element each. In particular a short hostile message that declares billions of rows or columns costs nothing. The same holds for parallel proofs.", "quantifier": "all byte strings of any length, all decoders of points and scalars", "why_tests_cant": "A resource bound must hold for every hostile header and length; a test shows the cost of the messages tried.", "anchors": ["src/proof.rs: from_bytes", "src/parallel/proof.rs: from_bytes"]}
{"id": "C101", "title": "The encoder's reservation", "statement": "to_bytes reserves exactly the bytes it writes, without overflow, for every proof that has an encoding: for proofs decoded by from_bytes as many bytes as they were decoded from; for proofs made by prove at most 2^26 bytes (parallel 2^27), on 32-bit platforms too. The source's remark that the computation cannot overflow is false for proofs decoded with serde: for every k there is a decodable proof of k responses for which room for k * k is requested, which panics when it exceeds isize::MAX although the encoding is short.", "quantifier": "all proofs, byte strings, statements, serde values and sizes k; overflow checks on or off; any pointer width of at least 32 bits", "why_tests_cant": "Absence of overflow is a claim about all shapes of proofs; the failing shapes are not produced by the library's own API and need sizes no unit test allocates.", "anchors": ["src/proof.rs: to_bytes", "src/parallel/proof.rs: to_bytes"]}
{"id": "C102", "title": "The prover's work", "statement": "Making a proof for n^m keys takes exactly this work, in this order, for either timing mode and whatever the witness, position, ring and transcript: two scalar multiplications, 1 + n m random scalars, a multiscalar multiplication of n m + 1 points, three times a random scalar and such a multiplication, m random scalars, n^m (m - 1) convolutions of m + 1 coefficients, m multiscalar multiplications of n^m + 1 points, and m scalar multiplications. The parallel prover makes one more check, draws m more scalars and computes m more multiscalar multiplications of n^m + 2 points. A rejected witness costs 0, 1 or 2 scalar multiplications (parallel up to 3), according to the first condition that fails, and nothing else.", "quantifier": "all environments, parameters, witnesses, statements, generators, transcripts and both timing modes", "why_tests_cant": "Benchmarks measure a few sizes; that the work depends on n and m only, and on nothing secret, is a claim about all inputs.", "anchors": ["src/proof.rs: prove_internal", "src/parallel/proof.rs: prove_internal", "benches/triptych.rs"]}
{"id": "C103", "title": "Batches can be forged with seed collisions", "statement": "The batch verifier mixes all proofs of a batch with weights which depend on each proof only through a seed of 64 bits, so it is weaker than the single verifier: whatever the target statement (its witness need not be known, or exist), proofs made by the prover's algorithm with an arbitrary number in the place of the key, for this statement and one with the same ring and a tag chosen for that number, can be combined into a batch of 2(k+1) proofs that starts with a given invalid proof of the target statement and is accepted with probability at least 1 - 2^65/N^2 - 2^254/2^k - (8k+9)/2^252, by a program that asks for 4N + 2 seeds and one table of weights. With N = 2^36 and k = 270 this is more than 1 - 2^-6. So the birthday term in the bound of C79 is no artefact, and about 2^32 seeds suffice for batches where C78 shows that a single proof needs about 2^64. (The seeds and weights counted are the questions to the hash; finding the subset with sum zero is not counted.)", "quantifier": "all environments, configurations, statements, positions, numbers r, pools of proofs with the stated properties, pool sizes N and batch sizes 2(k+1); probability over the functions giving seeds and weights", "why_tests_cant": "The probability is over all hash functions and the attack needs 2^38 proofs; no test can search for such batches.", "anchors": ["src/proof.rs: verify_batch (weight derivation)", "src/transcript.rs: response, build_transcript_rng, as_mut_rng"]}
{"id": "C104", "title": "Batches of parallel proofs can be forged with seed collisions", "statement": "As C103 for parallel proofs: from proofs with arbitrary numbers in the place of the two keys, for any target statement, one with the same ring and tag and an offset chosen for the second number, and one with a tag chosen for the first number besides, a program that asks for 6N + 3 seeds and one table of weights makes a batch of 3(k+1) proofs starting with a given invalid proof of the target statement, which is accepted with probability at least 1 - 2^66/N^2 - 2^255/2^k - (15k+17)/2^252.", "quantifier": "all environments, configurations, statements, positions, numbers r and r1, pools of proofs with the stated properties, pool sizes N and batch sizes 3(k+1); probability over the functions giving seeds and weights", "why_tests_cant": "The probability is over all hash functions and the attack needs more than 2^39 proofs; no test can search for such batches.", "anchors": ["src/parallel/proof.rs: verify_batch (weight derivation)", "src/parallel/transcript.rs: response, build_transcript_rng, as_mut_rng"]}
{"id": "C105", "title": "Forging is as hard as computing a discrete logarithm", "statement": "Let the generators be random points and let honest users draw random signing keys. A program that sees all of this, may ask for Q challenges, R seeds and the weights of T seeds, and gets q signatures from honest users of its choice, for rings, tags and messages of its choice, (a) makes the verifier accept a proof no user made, for a ring of honest users' keys or with an honest user's linking tag, (b) makes it accept j + 1 proofs no user made with different linking tags, for rings in which at most j keys are not honest users', or (c) makes verify_batch accept a batch with a proof as in (a), with at most the probability with which an explicit algorithm computes the discrete logarithm of a random point (in (b) and (c), the sum over the proofs), plus q(Q+q)/2^252 + (Q+1)(m/(tau+1) + m^2/2^252) + 1/2^252 and the probability that random weights hide an invalid proof. The algorithm is given the point only: it chooses generators and users' keys with it, answers signature requests without keys, runs the program once and m tau times more, and evaluates explicit formulas.", "quantifier": "all programs and their strategies depending on the public data, all Q, R, T, q, tau, j and batch sizes, all parameters n, m accepted by new, all configurations; probability over generators, keys, challenges, seeds, weights and the signers' randomness", "why_tests_cant": "The statement bounds the success of every possible forger by that of a solver for discrete logarithms; no test ranges over programs.", "anchors": ["src/parameters.rs: new", "src/proof.rs: prove_internal, verify, verify_batch", "src/witness.rs: compute_linking_tag, compute_verification_key"]}
{"id": "C106", "title": "Forging parallel proofs is as hard as computing a discrete logarithm", "statement": "Let the generators of the parallel proving system, G1 among them, be random points and let honest users draw random signing keys. A program that sees all of this, may ask for Q challenges, R seeds and the weights of T seeds, and gets q signatures from honest users of its choice, for rings, offsets, tags and messages of its choice in which it knows the number behind the signer's second component, (a) makes the verifier accept a proof no user made, for a ring of honest users' keys or with an honest user's linking tag, (b) makes it accept j + 1 proofs no user made with different linking tags, for rings in which at most j keys are not honest users', or (c) makes verify_batch accept a batch with a proof as in (a), with at most the probability with which an explicit algorithm computes the discrete logarithm of a random point (in (b) and (c), the sum over the proofs), plus q(Q+q)/2^252 + (Q+1)(m/(tau+1) + m^2/2^252) + 1/2^252 and the probability that random weights hide an invalid proof.", "quantifier": "all programs and their strategies depending on the public data, all Q, R, T, q, tau, j and batch sizes, all parameters n, m accepted by new, all configurations; probability over generators, keys, challenges, seeds, weights and the signers' randomness", "why_tests_cant": "The statement bounds the success of every possible forger by that of a solver for discrete logarithms; no test ranges over programs.", "anchors": ["src/parallel/parameters.rs: new", "src/parallel/proof.rs: prove_internal, verify, verify_batch", "src/parallel/witness.rs: compute_linking_tag, compute_verification_key, compute_auxiliary_verification_key"]}
{"id": "C107", "title": "A parallel proof shows that the offset commits to the amount of a ring member", "statement": "Use the second components of a parallel input set and the offset as commitments a G + b G1 to amounts a with masks b, with openings known to whoever made them. In the setting of C106, a program makes the verifier accept a proof no user made for a statement in which every second component is a commitment to another amount than the offset, or makes verify_batch accept a batch with such a proof, with at most the probability with which an explicit algorithm, which is also given the openings, computes the discrete logarithm of a random point (for a batch, the sum over the proofs), plus the error terms of C106. The generator of the amounts may be G or another random point H, as in the RingCT example. This also holds for rings of keys the program made itself.", "quantifier": "all programs and their strategies depending on the public data, all rings, offsets and openings, all Q, R, T, q, tau and batch sizes, all parameters n, m accepted by new, all configurations; probability over generators, keys, challenges, seeds, weights and the signers' randomness", "why_tests_cant": "The statement bounds the success of every possible cheating prover by that of a solver for discrete logarithms; no test ranges over programs.", "anchors": ["src/parallel/parameters.rs: new", "src/parallel/statement.rs: TriptychStatement::new (offset)", "src/parallel/proof.rs: prove_internal, verify, verify_batch", "src/parallel/witness.rs: compute_auxiliary_verification_key"]}
{"id": "C108", "title": "No program finds two objects with the same hash", "statement": "Treat the 32 bytes a transcript returns as random for every transcript. A program that asks for Q such answers, each depending on the earlier ones, and outputs k objects (parameters, input sets, statements, of either proving system) made by the library's constructors outputs two different ones with the same hash with probability at most (Q+3k)(Q+3k-1)/2^257, and one with one of T hashes chosen in advance with probability at most (Q+k)T/2^256. Two input sets padded from different key lists count as different, and so do objects of different kinds.", "quantifier": "all programs asking at most Q questions adaptively, all Q, k, T and target hashes; probability over the answers", "why_tests_cant": "The statement bounds the success of every program that searches for collisions; a test cannot range over programs, and no test would ever find one.", "anchors": ["src/parameters.rs: new_with_generators (hash)", "src/statement.rs: TriptychInputSet::new_internal, TriptychStatement::new", "src/parallel/parameters.rs: new_with_generators", "src/parallel/statement.rs: TriptychInputSet::new_internal, TriptychStatement::new"]}
{"id": "C109", "title": "Forging is as hard as discrete logarithms even if users' keys leak", "statement": "As C105, but the program may also ask, at any time and depending on all it has seen, for the signing keys of honest users of its choice. It (a) makes the verifier accept a proof no user made, for a ring of keys of honest users it did not corrupt or with the linking tag of such a user, (b) makes it accept j + 1 proofs no user made with different linking tags, in an outcome in which the keys in the rings that are not honest users' and the corrupted users are together at most j, or (c) makes verify_batch accept a batch with a proof as in (a), with at most the sum of the probabilities with which one of u + 1 explicit algorithms computes the discrete logarithm of a random point (u is the number of users; in (b) and (c), summed over the proofs), plus the error terms of C105 with (u + 1)/2^252 in place of 1/2^252. So whoever holds j keys, their own or stolen, can spend at most j times, and cannot spend for others.", "quantifier": "all programs and their strategies depending on the public data, the answers and the leaked keys, all Q, R, T, q, tau, j and batch sizes, any number of corrupted users, all parameters n, m accepted by new, all configurations; probability over generators, keys, challenges, seeds, weights and the signers' randomness", "why_tests_cant": "The statement bounds the success of every possible forger, with every strategy for corrupting users, by that of solvers for discrete logarithms; no test ranges over programs.", "anchors": ["src/parameters.rs: new", "src/proof.rs: prove_internal, verify, verify_batch", "src/witness.rs: compute_linking_tag, compute_verification_key"]}
{"id": "C110", "title": "Forging parallel proofs is as hard as discrete logarithms even if users' keys leak, and wrong amounts stay impossible", "statement": "As C106 and C107, but the program may also ask, at any time and depending on all it has seen, for the signing keys of honest users of its choice. It (a) makes the parallel verifier accept a proof no user made, for a ring of keys of honest users it did not corrupt or with the linking tag of such a user, (b) makes it accept j + 1 proofs no user made with different linking tags, in an outcome in which the keys in the rings that are not honest users' and the corrupted users are together at most j, or (c) makes verify_batch accept a batch with a proof as in (a), with at most the sum of the probabilities with which one of u + 1 explicit algorithms computes the discrete logarithm of a random point (u is the number of users; in (b) and (c), summed over the proofs), plus the error terms of C106 with (u + 1)/2^252 in place of 1/2^252. (d) Even if it corrupts all users, it makes the verifier, or verify_batch, accept a proof no user made for a statement in which every second component is a commitment to another amount than the offset with at most the probability with which one explicit algorithm (for a batch, one per proof) computes the discrete logarithm of a random point, plus the error terms of C107; the generator of the amounts may be G or another random point H.", "quantifier": "all programs and their strategies depending on the public data, the answers and the leaked keys, all rings, offsets and openings, all Q, R, T, q, tau, j and batch sizes, any number of corrupted users, all parameters n, m accepted by new, all configurations; probability over generators, keys, challenges, seeds, weights and the signers' randomness", "why_tests_cant": "The statement bounds the success of every possible forger, with every strategy for corrupting users, by that of solvers for discrete logarithms; no test ranges over programs.", "anchors": ["src/parallel/parameters.rs: new", "src/parallel/statement.rs: TriptychStatement::new (offset)", "src/parallel/proof.rs: prove_internal, verify, verify_batch", "src/parallel/witness.rs: compute_linking_tag, compute_verification_key, compute_auxiliary_verification_key"]}
{"id": "C111", "title": "Which tag belongs to which verification key stays hidden", "statement": "Several honest signers have random keys. Some of them sign, each with its own linking tag. A program sees all verification keys, all tags, and the keys of signers that do not sign, and gets any number of signatures with each of the tags, for rings and messages of its choice. (a) For two assignments of signers to tags that are both possible for the rings (each ring contains the key of its tag's owner), the probabilities of any output differ by at most 2 (q (Q + q) / order + 1 / (order - 1)), where q is the number of signatures and Q that of challenge computations, plus, for each of the two assignments, u times the advantage of one explicit program in telling a pair of a verification key and its tag from two random elements, and the advantage of one explicit program in telling Diffie-Hellman tuples from random ones (u is the number of tags). (b) If the assignment is drawn at random from a set of such assignments, a program that names a property of it (such as the owner of one tag, or whether one signer signed at all) is right with at most the probability of guessing blindly plus these terms, on average over the assignments. For Ristretto the first term is at most (q (Q + q) + 1) / 2^251. So many signatures by many users reveal no more than the rings do.", "quantifier": "all programs and their strategies depending on the keys, the tags, the leaked keys and the signatures, all rings (also depending on keys and tags), positions and messages, all numbers of signers and tags, all assignments, all Q and q, all parameters; probability over keys, challenges and the signers' randomness", "why_tests_cant": "The statement bounds what every possible program learns from all signatures together; no test ranges over programs.", "anchors": ["src/proof.rs: prove_internal", "src/statement.rs: TriptychInputSet::new, TriptychStatement::new", "src/witness.rs: compute_linking_tag, compute_verification_key"]}
{"id": "C112", "title": "Which tag belongs to which verification key stays hidden in parallel proofs", "statement": "As C111 for triptych::parallel: the statements also have auxiliary keys and offsets, chosen in any way (depending on the verification keys and tags) such that the owner of the tag knows an opening of the difference to its auxiliary key, under each of the assignments compared; these openings may be known to the program. (a) For two assignments of signers to tags that are both possible for the rings, the probabilities of any output differ by at most 2 (q (Q + q) / order + 1 / (order - 1)) plus, for each of the two, u times the advantage of one explicit program in telling a pair of a verification key and its tag from two random elements, and the advantage of one explicit program in telling Diffie-Hellman tuples from random ones. (b) If the assignment is drawn at random, a program that names a property of it is right with at most the probability of guessing blindly plus these terms, on average over the assignments.", "quantifier": "all programs and their strategies depending on the keys, the tags, the leaked keys and the signatures, all rings, auxiliary keys, offsets and openings (also depending on keys and tags), positions and messages, all numbers of signers and tags, all assignments, all Q and q, all parameters; probability over keys, challenges and the signers' randomness", "why_tests_cant": "The statement bounds what every possible program learns from all signatures together; no test ranges over programs.", "anchors": ["src/parallel/proof.rs: prove_internal", "src/parallel/statement.rs: TriptychInputSet::new, TriptychStatement::new", "src/parallel/witness.rs: compute_linking_tag, compute_verification_key"]}
{"id": "C113", "title": "Several signers with one ring: the benchmarks' and tests' batch flow", "statement": "For all parameters, all numbers b of signers and every behaviour of the generator: building the data as the benchmarks and unit tests do panics if b exceeds N, and otherwise exactly if a key of the ring is the identity (parallel: or an auxiliary key is one of the offsets). If it does not panic, the signers (max 1 b of them) sit at the drawn position and the following ones, wrapping around at N; each holds the key at its position, all statements share one ring whose other members are the generator's next points, each statement is true for its witness, and the generator has been asked for exactly the expected number of blocks. Then, for b >= 1, either a prover call reports a zero challenge, and both the benchmark and the test panic; or all proofs are made (the same with both timings), and the benchmark and the three assertions of the test (batch, single blame, full blame) all succeed unless an entry of a response matrix is zero, in which case both panic. The same for triptych::parallel. (Verification is as in C14: sizes fit a usize, and the weight generator does not return zeros forever.)", "quantifier": "all parameters, batch sizes, generators and their states, configurations", "why_tests_cant": "The tests run one size with one seed; the claim covers all sizes, all wrap-arounds and every behaviour of the generator.", "anchors": ["benches/triptych.rs: generate_data, verify_batch_proof", "benches/parallel.rs: generate_data, verify_batch_proof", "src/proof.rs: tests::generate_data, tests::test_prove_verify_batch", "src/parallel/proof.rs: tests::generate_data, tests::test_prove_verify_batch"]}
{"id": "C114", "title": "Blame is right except with negligible probability", "statement": "When the weight generators of all parts of a batch answer from independent random tables chosen after the batch is fixed, verify_batch_with_single_blame succeeds exactly if all k proofs are genuine and otherwise names the first that is not, and verify_batch_with_full_blame succeeds exactly if all are genuine and otherwise names exactly those that are not, in increasing order - except with probability at most k^2 eps, where eps bounds what can go wrong for one batch of at most k proofs; with Ristretto's order and two attempts per proof the probability is at most k^2 / 2^250.", "quantifier": "all batches of any size whose statements come from the constructors and share parameters and input set, all environments, configurations and tables", "why_tests_cant": "A probability over tables of 64-byte strings, for every batch with every pattern of invalid proofs; no test can see an event of probability 2^-200 or cover all batches.", "anchors": ["src/proof.rs: verify_batch_with_single_blame, verify_batch_with_full_blame, verify_batch"]}
{"id": "C115", "title": "Parallel blame is right except with negligible probability", "statement": "When the weight generators of all parts of a batch answer from independent random tables chosen after the batch is fixed, the parallel verifier's verify_batch_with_single_blame succeeds exactly if all k proofs are genuine and otherwise names the first that is not, and verify_batch_with_full_blame succeeds exactly if all are genuine and otherwise names exactly those that are not, in increasing order - except with probability at most k^2 eps, where eps bounds what can go wrong for one batch of at most k proofs; with Ristretto's order and two attempts per proof the probability is at most k^2 / 2^250.", "quantifier": "all batches of any size whose statements come from the constructors and share parameters and input set, all environments, configurations and tables", "why_tests_cant": "A probability over tables of 64-byte strings, for every batch with every pattern of invalid proofs; no test can see an event of probability 2^-200 or cover all batches.", "anchors": ["src/parallel/proof.rs: verify_batch_with_single_blame, verify_batch_with_full_blame, verify_batch"]}
{"id": "C116", "title": "Single-signer benchmarks, any number of iterations", "statement": "The prover benchmarks (constant and variable time) and the verifier benchmark, in both modules: parameters, then data for one signer; if the data can be made they form a valid witness and statement, and every prover call either makes a proof or reports a zero challenge. The prover benchmark with k iterations, each drawing from the same generator, finishes exactly if all k calls make a proof and panics otherwise; the verifier benchmark panics if the one prover call fails, otherwise all k verifications of that proof (each with a fresh copy of the transcript) succeed unless a response entry is zero, in which case the first one panics. (Verification is as in C14: sizes fit a usize, and the weight generator does not return zeros forever.)", "quantifier": "all parameters, random number generators, generator states, numbers of iterations, environments and configurations", "why_tests_cant": "A benchmark runs for one generator and some number of iterations; the claim is for every generator, starting state and number of iterations.", "anchors": ["benches/triptych.rs: generate_data, prove, prove_vartime, verify", "benches/parallel.rs: generate_data, prove, prove_vartime, verify"]}
{"id": "C117", "title": "Nothing secret is left in a zeroized witness", "statement": "After zeroize, a witness keeps its parameters and nothing else: two witnesses with the same parameters, whatever their indexes and keys, have become equal; index and signing key (and, in the parallel module, the second key) are zero, the verification keys and the linking tag it computes are the identity, and zeroizing again changes nothing.", "quantifier": "all witnesses of both modules", "why_tests_cant": "Equality of the results for all pairs of secrets; a test sees one witness.", "anchors": ["src/witness.rs: TriptychWitness (derive Zeroize)", "src/parallel/witness.rs: TriptychWitness (derive Zeroize)"]}
{"id": "C118", "title": "Proofs with exchanged messages or statements are found", "statement": "k honest proofs are made for any statements and transcripts, with any random number generators. Then the batch is verified with other statements (another linking tag, another ring) or other transcripts in any set of places. With random challenges and random weights: verify_batch succeeds exactly if nothing was exchanged, verify_batch_with_single_blame names the first exchanged place and verify_batch_with_full_blame exactly the exchanged places (a place also counts if the proof's response matrix contains a zero), except with probability at most k m / 2^252 + k^2 / 2^250. The unit tests on invalid batches and on evil messages, input sets and linking tags (batches of one) are instances. The same for the parallel module, where offsets and auxiliary keys may be exchanged as well.", "quantifier": "all numbers of proofs, witnesses, statements, transcripts, generators and sets of exchanged places; all answers of the challenge and weight oracles are counted; statements with different content are assumed to have different hashes (C07, C108)", "why_tests_cant": "The tests try one generator seed and a few places; the claim is a probability over all answers of the hash functions, for every batch and every way of exchanging.", "anchors": ["src/proof.rs: prove, verify_batch, verify_batch_with_single_blame, verify_batch_with_full_blame, tests test_prove_verify_invalid_batch*, test_evil_*", "src/parallel/proof.rs: the same"]}
{"id": "C119", "title": "Stored proofs of the two kinds cannot be mixed up", "statement": "No byte string decodes (TriptychProof::from_bytes) both as a proof and as a parallel proof, and no Borsh stream does. Through serde, in formats that render structs as sequences nothing decodes as both; in formats that render structs as maps a serialized proof never decodes as a parallel proof, while a serialized parallel proof does decode as a proof: exactly the proof consisting of the fields common to both.", "quantifier": "all byte strings, streams, sequences and proofs of both kinds, for every lawful group encoding", "why_tests_cant": "The tests decode only what the same module has encoded; the claim is about every byte string of any length and every pair of proofs.", "anchors": ["src/proof.rs: to_bytes, from_bytes, BorshSerialize, BorshDeserialize, derive(Deserialize, Serialize)", "src/parallel/proof.rs: to_bytes, from_bytes, BorshSerialize, BorshDeserialize, derive(Deserialize, Serialize)"]}
{"id": "C120", "title": "Signatures and linking tags do not help to compute signing keys", "statement": "Let the generators be random points and let users draw random signing keys. A program sees all verification keys and linking tags, may ask for Q challenges, and gets q signatures from users of its choice, for rings, linking tags and messages of its choice. It outputs the signing key of one of the users with at most the probability with which an explicit algorithm, which is given a random point only and runs the program once, computes the discrete logarithm of the point, plus q(Q+q)/2^252. If the program may also ask for signing keys of users of its choice (and for seeds and weights of the verifier), it outputs the key of a user it did not corrupt with at most the sum over the users of such probabilities, plus q(Q+q) over the group order. The same for the parallel module.", "quantifier": "all numbers of users, parameters, programs with their adaptive choices, statements, rings and messages; all generators, keys, challenges and signers' random numbers are counted", "why_tests_cant": "It is a statement about the probability of success of every program, with any number of signatures; no test can try all programs.", "anchors": ["src/lib.rs: overview (it is not possible to determine the signing key associated to a linking tag)", "src/proof.rs: prove, prove_with_rng", "src/witness.rs: compute_linking_tag, compute_verification_key", "src/parallel/proof.rs: prove, prove_with_rng", "src/parallel/witness.rs: compute_linking_tag"]}
{"id": "C121", "title": "What == compares", "statement": "Two accepted parameter sets compare equal exactly if they were made from the same n, m, G and U (and G1). Two input sets made by new compare equal exactly if their keys (and auxiliary keys) do; for sets made by new or new_with_padding in any combination, the same keys before padding and the same size after it give equal sets, and equal sets have the same vectors after padding and come from the same keys before padding, unless two explicit, different transcripts collide (so a padded set is not equal to the unpadded set with the same vector). Statements compare equal exactly if their parameters, input sets, (offsets,) and linking tags do. Decoded proofs compare equal exactly if they were decoded from the same bytes, and proofs that can be encoded exactly if their encodings are the same. The same for the parallel module. So the derived fields (commitment generators, hashes) never make objects differ that were made from the same data.", "quantifier": "every pair of objects made by the constructors or decoders of either module", "why_tests_cant": "equality of all pairs of objects; a cached hash or a lazily padded vector could make equal objects differ on some inputs only", "anchors": ["src/parameters.rs:TriptychParameters", "src/statement.rs:TriptychInputSet, TriptychStatement", "src/proof.rs:TriptychProof", "src/parallel/parameters.rs:TriptychParameters", "src/parallel/statement.rs:TriptychInputSet, TriptychStatement", "src/parallel/proof.rs:TriptychProof"]}
{"id": "C122", "title": "One transcript cannot be continued over several proofs", "statement": "A prover makes a proof with a transcript and then a second proof with the transcript the first call has left; a verifier verifies the first proof with an equal transcript and then the second one with the transcript this call has left. The challenge the verifier computes for the second proof is asked for nowhere else (whatever its value, both proofs and both transcripts stay the same), and if it is random, and the weights are, the second proof is accepted with probability at most m/2^252 + 1/2^250, although both proofs are honest. The transcript with which the second proof is accepted is the one left by the prover, that is the transcript of the first proof up to and including its challenge, which the verifier can compute. The same for the parallel module.", "quantifier": "all statements, witnesses, random number generators, transcripts and timing modes of both calls, all environments and configurations; all answers for the verifier's last challenge and the weights are counted", "why_tests_cant": "a negative statement about all runs; needs counting over the challenges", "anchors": ["src/proof.rs:prove_internal, verify", "src/transcript.rs:ProofTranscript::new, commit, response", "src/parallel/proof.rs:prove_internal, verify", "src/parallel/transcript.rs"]}
{"id": "C123", "title": "Histories of calls of the public functions", "statement": "Take any sequence of calls of the public functions (constructors, padding, random and zeroized witnesses, proving, verification, batches, both kinds of blame, byte, borsh and serde decoding, byte and borsh encoding), with any arguments, in any order, and going on after errors and caught panics. (1) All parameters, input sets, statements and witnesses held at any time are ones that the constructors (or zeroizing) produce; parameters, input sets, statements and proofs never change once held. (2) No call panics, except verification, single or batched or with blame, in builds with overflow checks whose size estimate exceeds u32::MAX, single blame with fewer statements or transcripts than proofs, and encoding of a proof without responses. (3) Every proof held was returned by the prover for a statement and transcript held at that time, or by one of the decoders; if serde decoding was not used, every proof held can be encoded, and decoding gives it back. (4) A call that returns an error changes no object; transcripts can then only have changed in calls of the prover, of verification and of full blame, and the random number generator only in calls of the prover. (5) Whatever is called in between, a proof returned by the prover is accepted for the same statement with any transcript that is in the state the prover's was in, if and only if no response entry, including the implicit ones, is zero (provided that the verifier's loop for weights ends and, in builds with overflow checks, the size estimate fits). (6) A witness that was zeroized is all zeros from then on, and every later attempt to prove with it returns an error and changes nothing. (7) A verification of held statements and proofs gives the same answer at any later time with transcripts that are in the same states. The same for the parallel module.", "quantifier": "all histories (finite sequences of calls with all arguments), all environments, generators and build configurations; (5)-(7): all positions of the first call in a history and all calls in between", "why_tests_cant": "A test runs one history. The absence of panics and the invariants of held objects depend on all earlier calls.", "anchors": ["src/parameters.rs: TriptychParameters::new, new_with_generators, get_N", "src/statement.rs: TriptychInputSet::new, new_with_padding, TriptychStatement::new", "src/witness.rs: TriptychWitness::new, random, zeroize", "src/proof.rs: prove_with_rng, prove_with_rng_vartime, verify, verify_batch, verify_batch_with_single_blame, verify_batch_with_full_blame, to_bytes, from_bytes, BorshSerialize, BorshDeserialize, Deserialize", "src/parallel/*: the same"]}
{"id": "C124", "title": "Which error is reported, and what its message says", "statement": "Every function that fails reports the first applicable row of a fixed table of conditions, with a fixed message, and it succeeds if no row applies: the constructors of parameters, input sets, statements and witnesses; the prover (both timings: parameters differ, M[l] is not r G, (parallel: M1[l] - offset is not r1 G1,) r J is not U, zero challenge), whose message depends on secrets only through these conditions; and verification of one proof or a batch (numbers of statements, proofs and transcripts, hashes of the input sets and of the parameters, then proof by proof the lengths of X, (X1,) Y and the rows and columns of f, the batch size, a zero challenge, a zero response, and at last the weighted sum, which is reported as a failed single proof for batches, too). The blame functions report every failure, also malformed input, as a failed batch; decoding has one message. The message determines the error value, except that all kinds of failed batches have the same message, which does not show the indexes found; they must be read from the error. (Verification is as in C14: in builds with overflow checks the size estimate fits, and the weight generator does not return zeros forever.) The same for the parallel module.", "quantifier": "all arguments of the constructors; all witnesses, statements, transcripts, generators and timings; all batches of any size with statements from the constructors, all proofs of any shape; all byte strings; all pairs of errors", "why_tests_cant": "Which of several defects is reported depends on their order for all combinations and positions in a batch; a test provokes one defect.", "anchors": ["src/proof.rs: ProofError, prove_internal, verify_batch, verify_batch_with_single_blame, verify_batch_with_full_blame, from_bytes", "src/parameters.rs: ParameterError, new_with_generators", "src/statement.rs: StatementError, TriptychInputSet::new, new_with_padding, TriptychStatement::new", "src/witness.rs: WitnessError, new", "src/parallel/*: the same"]}
{"id": "C125", "title": "A proof fits one size of ring", "statement": "If verification, single or in a batch, accepts the same proof for two statements, their parameters have the same n and the same m, so their rings have the same size. A proof made for one pair n, m is reported as an invalid parameter by every batch whose first statement has another pair, even if n^m is equal, in every position of the batch, and no transcript changes. If verification accepts a proof that was decoded from bytes, the first eight bytes are n - 1 and m of the statement's parameters in little endian, and the length is 8 + 32 (7 + (n + 1) m); for parallel proofs 8 + 32 (8 + (n + 2) m).", "quantifier": "all proofs, batches, transcripts, statements and parameters from the constructors, byte strings, both build modes", "why_tests_cant": "Covers all pairs of parameters and all proofs, also made up ones; tests verify with the parameters they prove with.", "anchors": ["src/proof.rs: verify_batch, from_bytes, to_bytes", "src/parallel/proof.rs: verify_batch, from_bytes, to_bytes"]}
