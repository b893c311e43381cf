# Design: a Lean 4 model of google/distributed_point_functions

The theorems are about the Lean model in `lean/Verif/Model`, written by reading the C++ in /repo
(the code is neither built nor run here). Every definition of the model cites the file and lines
it models and states simplifications.

## Layout

| Directory | Content |
|---|---|
| `lean/Verif/Model/*`  | the model of the code, function by function, executable |
| `lean/Verif/Spec/*`   | small specifications, independent of the model |
| `lean/Verif/Lemmas/*` | helper lemmas |
| `lean/Verif/Props/*`  | the property theorems (`Cnn_…`), with `example`s showing the hypotheses are met |

## Modelling decisions

* **Outcome.** `Res α = ok a | err code | ub | crash`: `err` is a non-OK `absl::Status`, `ub` is C++
  undefined behaviour (out-of-bounds index, shift by an amount outside the width, …), `crash` is a
  failing `ABSL_CHECK` / `string_view::substr` range error. They are distinct, so a theorem
  "= ok …" also says that no UB and no crash happens.
* **Integers.** `absl::uint128` is `BitVec 128`, `uintN_t` is `BitVec N`. `int`/`int64_t` counters
  are `Nat`/`Int`; where a 32-bit `int` can really overflow or truncate (PIR inner product `base` and
  its record counter, `blocks_per_tree_prefix` in `EvaluateUntil`, sizes converted to `int` in batched
  DPF, DCF and gate evaluation) the truncation or overflow is modelled. Not modelled: 2^31 or more
  bytes in one record, keys in one PIR request, or elements of a repeated field (protobuf forbids the
  last two), or records in a simple hashed database (its size is converted to `int` in
  simple_hashed_dpf_pir_database.cc:98 and only reported by `size()`); sums in `BitsNeeded`,
  `GetNumBytesRequired` and `CreateIncremental` that overflow are `ub` (one narrowing conversion in
  `BitsNeeded` is `ub` instead of wrapping).
* **External code = parameters.** AES (an arbitrary function key → block → block), `RAND_bytes` (the
  seeds are arguments; failing calls in `Random` only), SHA-256/FarmHash, hybrid encryption, the request sender, `absl::BitGen`
  (a list of random choices). Theorems quantify over all of them.
* **Templates.** A C++ template argument `T` is an element of the inductive type `Ty` (unsigned
  integers, `IntModN`, `XorWrapper`, `Tuple` of any nesting) with a denotation `Ty.den` and a record
  `Helper` of the functions in `ValueTypeHelper<T>`; the DPF model is generic over `Helper`.
* **Floating point.** `security_parameter` is NaN or a rational; the achievable security level
  (`log2` arithmetic in double precision) is a parameter function. `ceil(log2(bits))` is the exact
  integer function (bits is a small positive integer); `log2(0)` cast to int is `ub`. Both are computed in `Doubles` from
  `std::log2` and the conversion of 128-bit integers, whose accuracy is a hypothesis (C94). Sums, products and conversions are
  rounded to doubles with exponents of any size (`roundDouble`, characterised by C94_rounding).
* **Protobuf.** Messages are structures/inductives (`oneof` with an explicit unset case);
  deterministic serialisation used as a map key is modelled as equality of the message.
* **Memory.** Failing aligned allocations (RESOURCE_EXHAUSTED) and ciphers (INTERNAL) are modelled in `Faults` and `PirFaults` only;
  elsewhere these calls succeed. Failing allocations by the standard library and protobuf are not modelled. Aligned
  allocations of zero elements are taken to succeed; Highway is not part of /repo, and if its
  `AllocateAligned` rejects size 0, evaluating no keys aborts instead of returning nothing.
  Where an algorithm writes into the array it reads (aliasing), the model has one buffer.
* **Threads.** `HashThreads` models concurrent calls of `Aes128FixedKeyHash::Evaluate` access by access. It
  is the only shared object with hidden state (the cipher context); all other functions of a DPF, gate,
  database or server that are `const` only read members, and are modelled as functions of one call.

## Trusted base

Lean 4.33.0's kernel; axioms `propext`, `Classical.choice`, `Quot.sound` only; the reading of the
C++ recorded in the comments of the model; the parameters listed above.

Not modelled: logging, timing, hybrid encryption
internals, thread scheduling (but for `HashThreads`), `std::bad_alloc`, performance, the build system, Python/other bindings.

## What is modelled

| Code | Model | Remarks |
|---|---|---|
| dpf/internal/proto_validator, distributed_point_function.proto | `Proto`, `Validator` | |
| dpf/int_mod_n, xor_wrapper.h, tuple.h, internal/value_type_helpers | `IntModN`, `Values` | template parameters are elements of `Ty` |
| dpf/aes_128_fixed_key_hash | `Hash` | AES is a parameter; batches as in the code |
| dpf/aes_128_fixed_key_hash (threads) | `HashThreads` | one access to a block of memory per step, sequentially consistent memory; `EVP_Cipher` writes block by block and does not change the context |
| failing `EVP_CIPHER_CTX_new`, `EVP_EncryptInit_ex`, `EVP_Cipher`, `AES_set_encrypt_key`, `hwy::AllocateAligned` in dpf, dcf, pir | `Faults`, `PirFaults` | each function again with these calls at their places; the outcomes of the calls are a list; what fails on the helper's machine reaches the leader through its sender |
| dpf/internal/evaluate_prg_hwy, aes_128_fixed_key_hash_hwy.h | `SeedsNoHwy`, `Simd`, `EvalSeeds` | lanes and masks; the vector unit (width, alignment) of each call is part of `Env`, so all theorems about evaluation hold on every machine; Highway operations have their documented meaning; the HWY_SCALAR branch does not compile and is left out |
| dpf/distributed_point_function | `Dpf`, `KeyGenOverloads` | a template call is a type of `Ty` with an element; which overload C++ picks for an argument is not modelled |
| dcf/distributed_comparison_function, dcf/fss_gates/multiple_interval_containment | `Dcf`, `Mic` | |
| dcf/fss_gates/prng/basic_rng.h | `Random` | calls of `RAND_bytes` that may fail |
| pir/internal/inner_product_hwy | `InnerProduct` | vector width, halvings, alignment and the addresses of records and results are parameters; loads and stores of vectors and of `uint128` at addresses that are not aligned are undefined behaviour (Highway for RVV asks for less than a multiple of the vector size: not modelled) |
| pir/prng/aes_128_ctr_seeded_prng | `Prng` | AES-CTR of OpenSSL byte by byte |
| pir/dpf_pir_server, dpf_pir_client.h, dense_dpf_pir_* | `PirProto`, `PirServer`, `DensePir` | serialisation, encryption and the sender are parameters |
| dpf, dcf and pir `.proto` files | `Wire` | what the generated code does when serializing and parsing, after the protobuf documentation: field numbers, kinds, defaults, `oneof`, merging, recursion limit. Groups are rejected, unknown fields dropped; which integers are the bits of a `double` is a parameter; an empty message and an absent one are the same where the model of the message does not tell them apart. C36, C46 and C47 take any serialization that keeps the messages of clients; C70 shows that this one does |
| experiments/synthetic_data_benchmarks.cc | `SyntheticData`, `SyntheticInput` | `SyntheticData`: nonzeros and levels are given as numbers; `SyntheticInput` reads them from texts, with `StrSplit` and `SimpleAtoi` of Abseil as documented, a file being a list of lines; operations on `double` are a parameter `Doubles`, `log2` and sums with an error; timing left out |
| dpf, dcf and gate benchmarks (`*_benchmark.cc`) | `Benchmarks` | random numbers are inputs; timing, labels and arenas left out |
| dpf/internal/maybe_deref_span.h | `KeySpan` | a pointer is what it points to (keys are only read); the batched functions again, access by access, and with memory shared by output and points |
| pir benchmarks and int_mod_n_benchmark.cc | `PirBenchmarks` | random numbers are inputs; timing and flags left out |
| pir/testing/* | `PirTesting` | random numbers and Tink are parameters; mocks have no behaviour |
| pir/hashing/* | `Hashing` | SHA-256 and FarmHash are parameters |
| AES and SHA-256 of OpenSSL, AES of Highway | `Aes`, `Lemmas/Sha` | what the code above calls, after FIPS 197 and FIPS 180-4 (`Spec/Fips197`, `Spec/Fips180`); only C71 depends on it, all other theorems hold for any functions in their place. Assumes little-endian memory, the semantics of the round instructions in the documentation of Highway, and that `AES_set_encrypt_key` stores round keys in the order of FIPS 197 (implementations for machines without such instructions may store them differently, but do not meet the vectorised code) |
| pir/*_hashed_dpf_pir_database, *_hashing_sparse_dpf_pir_* | `HashedDb`, `SparsePir` | the wire format of a bucket is a codec; a concrete codec shows the assumption can be met |

`Spec/Ideal.lean` defines the experiment of C48: the key of one party computed from the other party's
pseudorandom blocks alone, which are then replaced by uniform ones. `Spec/Hiding.lean` does the same for comparison
functions, gates and PIR requests (C62). `Spec/Statistical.lean` compares probabilities instead, for types with
`IntModN` (C63).

## Findings

Claims that are false of the code have a theorem `…_refuted` with a concrete witness, and a
`…_partial` theorem for the largest class of inputs found for which they hold:

* C01, C26: a tuple nested in a tuple next to an `IntModN` is given too few bytes; key generation aborts, for
  exactly the DPFs one of whose levels reserves fewer bytes than its type reads (`C26_exact`, `C01_aborts`).
* C03–C05, C49: `blocks_per_tree_prefix` overflows an `int`; outputs are missing or read out of bounds.
* C14, C49: `ExpandSeeds` computes the number of leaves as `size_t`. `EvaluateUntil` limits the domain gap to 62 bits and the
  outputs to 2^63, but expands whole blocks: if the previous level is packed (16 bytes in a block) and the gap is 60
  bits or more the number of leaves is a multiple of 2^64, the buffers have size zero and seeds are written behind them
  (`C49_expansion_refuted`: a byte level with 4 bits, then a 128-bit level with 64 bits, one prefix).
* C07: with packed elements, prefixes in the same block as an earlier prefix are accepted.
* C10: `EvaluateAndApply` passes the number of keys times the number of levels as an `int`; with 2^32 + 1 keys the
  product wraps to the number of levels and all keys are evaluated with the correction words of the first.
  `right_shift + log_domain_size` can overflow (C10_shift).
* C28, C31, C61: with 2^31 keys `BatchEvaluate` of a comparison function throws, and loop counters of gates
  overflow.
* C11: `EvaluateAndApply` and DCF `Evaluate` do not check the points.
* C16, C24, C49: for types of more than 2^28 - 16 bytes (or as many bytes to sample from) `int` sums overflow.
* C19: an unset 128-bit integer validates. C21: `Uint128To` ignores the high 64 bits (C21_exact describes the result for every message).
* C27: a DCF with `XorWrapper` output is wrong (`SetToZero` ignores that type): there the shares add up to `beta` or zero
  by the parity of the left turns on the common part of the paths (`C27_exact`), not by the comparison.
* C29: `log_domain_size = 129` is accepted; `beta` is not checked if `alpha = 0` (exactly: `C29_generateKeys_exact`).
* C30, C31: interval bounds given as `value_uint64` are read as 0; too few mask shares are read out of bounds.
* C32, C34, C35: `int` arithmetic in the inner product and the client for huge databases; databases
  of empty records only cannot be queried.
* C33: with too small a `HWY_MIN_POW2` the last bytes are skipped.
* C41: a failed cuckoo insert can lose an earlier element. C42: two hash functions giving the same
  bucket fill it beyond the maximum. C45: the stash is never checked, so records can be missing.
* C46: queries longer than all keys or differing from a key by trailing zeros match wrongly.
* C47: a database without records answers nothing.
* C48, C62: 128-bit blocks are not uniform modulo 3, so with uniform bits the claim holds for types without
  `IntModN` only.
* C50: `partial_evaluations_level` of a context is never checked; `EvaluateAt` does not validate contexts.
* C54: the simple-hashing client reads out of bounds if a bucket has fewer values than keys.
* C57: with a 128-bit base integer `SampleFromBytes` ORs fresh bytes into the old state; the second of
  two samples modulo 2^64 is even with probability 1/4.
* C61: for every gate, key and point: an evaluation that succeeds reads out of range if mask shares are removed from the key (general form of the C31 finding).
* C60: a sparse client with a multiple of 2^32 buckets computes a remainder modulo zero.
* C58, C63: `BitsNeeded` accepts tuples of `IntModN` and larger integers whose elements are far from uniform; one
  key then reveals much about beta.
* C64: simple hashing reduces `num_buckets` modulo 2^32 and builds fewer buckets than asked for.
* C67: with 2^31 - 1 samples the sum `num_samples + 1` in `GetSecurityLevel` overflows, before any check.
* C69: `ValidateDpfKey` does not check the party; keys with a party other than 0 and 1 are evaluated (C69_party).
* C70: keys for integers in 50 or more tuples can be generated but not be parsed, as messages are nested too deeply.
* C73: value correction functions are looked up by the serialized value type. A type that `ValueTypesAreEqual` and
  `Create` accept but that is not encoded as `ToValueType` does it (a modulus below 2^64 given as `value_uint128`) can
  be evaluated but never generates keys: FAILED_PRECONDITION, whatever is registered.
* C74: in a tuple with k elements other than `IntModN`, `BitsNeeded` looks at the first k elements instead. With an
  `IntModN` in front, a nested tuple is not checked against the security parameter. A DCF ignores the
  `security_parameter` it is given.
* C75: with the default flags (domain 2^20, expansion factor 2) and the nonzeros 0, 2^18 and 2^19,
  `ComputeLevelsToEvaluate` never ends: `(14 + log2(3)) + 1 - log2(3)` is below 15 in double precision, so level 14 is
  followed by level 14. (A script, not a proof, found a level at which this happens for 1423 of the numbers of nonzeros below 5000.) Expansion factors of 3
  and more are safe. With one nonzero and the default factor the first level is 0, for which no prefixes are computed, and
  the program aborts. Several `--levels_to_evaluate` without `--input` read behind the end of a vector; levels that end
  below `--log_domain_size` make the program abort for most random points; `--only_nonzeros` does not ignore the levels.
* C55: `GenerateParams` for cuckoo hashing accepts every positive number of elements. From 6148914691236516353 on (two
  thirds of 2^63), one and a half times the number is a double from 2^63 on, whose conversion to `int64_t` is undefined.
* C94: rounding can make `GetSecurityLevel` exceed the exact level: for the modulus 2^127 + 1 and one sample it is 3 with
  correctly rounded functions, and the exact level is below 3. The excess is at most 2^-40.
* C93: in a line with an empty or blank first column the benchmark program takes the number in the next column.
* C81: seed, index and input are hashed without separators: with SHA-256 function 10 on `x` is function 1 on `0x`, and
  the configuration with seed `s0` on `x` is the one with seed `s` on `0x`, whatever the hash.
* C82: `BM_KeyGeneration` shifts by 128 for domains of 128 bits, with which it is registered. `BM_BatchEvaluation` evaluates
  `key_pointers[i]`, which is key `i / m`: in all registered cases only the first key. `BM_BatchedMicEvaluation` gives its
  bounds as `value_uint64`, which the gate reads as 0 (C30), and evaluates at masked inputs 0 only. `BM_HeavyHitters` with
  fewer than 15 levels would abort.
* C88: `EvaluateAt` with a context does not check the type of the level before `ComputePartialEvaluations` stores evaluations
  for the level. With another type it fails at the value corrections; `previous_hierarchy_level` is still the old level,
  and `EvaluateUntil` rejects the context from then on (`C88_stuck`, `C88_evaluateAt_refuted`). With value corrections
  that cannot be read `EvaluateUntil` fails after it has advanced the context (`C88_evaluateUntil_refuted`).
* C91: a failure of the environment is always reported, but the call cannot always be repeated. If hashing fails in
  `EvaluateUntil`, the context is at the new level already, so the values of this level are lost; if an allocation of the
  expansion fails, the context holds only what the prefixes of the failed call need, and other prefixes, accepted before,
  are rejected (`C91_evaluateUntil_retry_refuted`). If `EvaluateAt` for a later level fails after its evaluations are
  stored, `EvaluateUntil` is rejected from then on (`C91_stuck`, `C91_evaluateAt_stuck_refuted`).
* C83: `BM_BatchedInnerProductOnVariableSizeValues` is registered with average size 2 and draws differences of up to 8: it fails
  as soon as one of 2^16 draws is below -2 (`C83_registered_refuted`). Benchmarks of inner products and of dense servers do not look at
  results: values of zero bytes and requests without index are measured although every round fails.
* C84: `EvaluateAt<T>`, `EvaluateAndApply<T>` and `Evaluate<T>` of a DCF do not compare `T` with the type of the level, as
  `EvaluateUntil<T>` does. Another modulus of `IntModN` gives wrong values without an error; tuples of wider integers abort; with a key
  of another DPF, elements are read out of bounds. `EvaluateAndApply<T>` converts bytes before it decodes the correction, so it aborts
  on wider types where `EvaluateAt<T>` returns an error.
* C86: `BatchEvaluate<absl::uint128>` of a comparison function gives wrong values if `output` is the memory of `evaluation_points`: it
  fills it with zeros first and reads the points at every level.
* C72: `PackSelectionBits` overflows an `int` for more than 2^31 bits. `GenerateRandomStringsVariableSize` fails if
  the difference is larger than the average and a low number is drawn.
* C65: failures of `RAND_bytes` are ignored when the seeds of keys and of masks are drawn. `BasicRng` tests for 0 only;
  with OpenSSL, -1 is a failure too (BoringSSL never returns it).

Observed, without a theorem: the big-endian branches of `ConvertBytesTo` (dpf/int_mod_n.h:75-83) and `DirectlyFromBytes`
(dpf/internal/value_type_helpers.h:219-226) shift after the last byte, for 8 bits to 0 (the library only compiles for little-endian machines,
dpf/internal/evaluate_prg_hwy.cc:128); a zero or unset modulus passes validation; bit sizes 1, 2 and 4 validate although no C++ type has
them; the comment "lowest log_domain_size bits of alpha" should say "highest"; the comment on `tree_levels_needed` is wrong; cuckoo clients and servers accept one hash
function while databases need two; fingerprint 0 means "not checked"; `DpfPirHelper` keeps `encryption_context_info` as a `string_view` (pir/dpf_pir_server.h:163),
which dangles if a class derived from `DpfPirServer` passes a temporary to `MakeHelper` (the three servers pass constants); the `while_waiting` function given to the
sender refers to local variables of `HandleLeaderRequest` (pir/dpf_pir_server.cc:101), so a sender that calls it after returning has undefined behaviour.

## Plan per property

| Property | Model | Proof |
|---|---|---|
| C01 | keygen + EvaluateAt | invariant along the path of alpha (seeds equal/control equal off path; control bits complementary on path), then value correction algebra |
| C02, C14 | ExpandSeeds, EvaluateUntil | induction on levels: leaf i·2ⁿ+s = walk along s |
| C03, C04, C05, C08 | context state machine | refinement: invariant "stored partial evaluations are true walks", induction over call list |
| C06, C07, C09 | validators | case analysis of the guards, context unchanged |
| C10, C11 | EvaluateAndApply | loop invariant over levels; C11 refuted by witness |
| C12 | EvaluateSeedsNoHwy with batches and one aliased buffer | induction on batches and levels |
| C13 | lane-level model of EvaluateSeedsHwy | same functional spec as C12 |
| C15 | Aes128FixedKeyHash::Evaluate with batches, in place | induction on batches |
| C16 | ProtoValidator::Create | induction on the list |
| C17, C18, C19 | GenerateKeysIncremental | induction on tree levels |
| C20–C22, C25 | Helper records | mutual induction on `Ty`/ValueType |
| C23, C24, C67 | IntModN on `BitVec w` | arithmetic |
| C26 | BitsNeeded vs. bytes consumed | flat types proved, nested refuted |
| C27–C29 | DCF over the DPF model | telescoping over bits; XorWrapper refuted, its sums by parity of levels |
| C30, C31 | MIC over DCF | case analysis on wrap-around |
| C32, C33 | inner product | induction on blocks; int overflow refuted beyond 2²⁴ blocks |
| C34–C37 | client/server/leader/helper | composition of C01/C02/C32 |
| C38 | AES-CTR stream | state = position |
| C39 | builder state machine | induction on operations |
| C40–C44 | hash tables | invariants by induction on inserts |
| C45–C47 | sparse PIR | composition; refutations by witness |
| C48 | keygen with ideal outputs | explicit bijection of randomness |
| C57, C58 | sampling as a function of uniform bytes | counting preimages; induction on the integers with intervals of states |
| C59 | overloads of key generation | reduction to the `Value` version on the object with more types registered |
| C60 | PIR servers and clients on arbitrary input | every selection vector of an accepted key has the length of the domain; then as C32 |
| C61 | comparison functions and gates on arbitrary input | C19 and C28 reduce everything to one key and point; there every step is a value or INVALID_ARGUMENT |
| C62 | what one party sees of DCFs, gates, PIR | C48 lifted through key generation; products of bijections; one-time pad |
| C63 | closeness of keys for any two inputs, over uniform blocks | hybrid argument over levels; distance of C58; bijection of C48 |
| C64 | outcome of Build for hashed databases | case analysis of the checks; induction on records and buckets |
| C65 | failing `RAND_bytes` | case analysis; induction on the intervals of a gate |
| C66 | contexts of other objects | exact condition of validation; calls do not read the parameters otherwise; induction on calls |
| C68 | two machines | all seed evaluations equal the scalar one (C13); congruence through every function |
| C69 | keys and EvaluateAt against a textbook description (Spec/Textbook) | equality of key nodes, block elements (C51) and corrections; minimality of depths by induction on the list; for arbitrary key messages (C69_evaluateAt_exact) C21_exact |
| C70 | serialized messages | parsing a sequence of written records is a fold over them; structural induction on values and types; bounds on lengths and nesting from the shape of keys (C69) |
| C71 | published AES and SHA-256 | rounds of the instructions are those of FIPS 197, by `ShiftRows` and `SubBytes` commuting; the inverse cipher undoes round by round, `MixColumns` by linearity and 256 cases per coefficient |
| C72 | helpers for tests | invariants over bits and values; requests equal those of the client (C34, C36) |
| C73 | two objects of the same meaning | members agree by induction over types and levels; congruence of every function; success of key generation implies `Setup` |
| C74 | security parameters accepted by creation | structural induction on types: `BitsNeeded` succeeds exactly if the type tolerates the parameter, with a size given by recursion; induction over the levels |
| C75 | experiments/synthetic_data_benchmarks | induction over the rounds of `ComputePrefixes` and of the choice of levels; induction over the levels with C02, C03, C07; error analysis of doubles with real logarithms |
| C76 | participants on different machines | composition of C36, C46, C47, C01, C27, C30 with C68 and C73 and with size bounds for C70; induction over the workers with the invariant of contexts |
| C77 | PirServer (helper) | case analysis of `HandleHelperRequest` for arbitrary decrypters, codecs and computations; AES-CTR stream of C38 |
| C78 | servers facing keys no client has made | C02 (full expansion = `EvaluateAt` at each point, for any key) composed with C32; case analysis of the checks |
| C79 | two servers adding up shares of many clients (Spec/Aggregation) | induction over the rounds with C02, C03, C07 for the context of each key; group laws |
| C80 | finding heavy hitters | same induction with the invariant that the prefixes found are exactly the heavy ones; heaviness passes to prefixes |
| C81 | createHashFunctions, wrapWithSeed, hashFunction | seed, digit and input can be read back from the hashed string exactly for one-digit indices |
| C82 | Benchmarks | induction over levels with C03, C07, C79 for the rounds of evaluation; prefix sets by induction over draws and levels; loops over keys with C59, C27, C28, C30, C31; IEEE doubles by `roundDouble` (C82_full_ieee) |
| C83 | PirBenchmarks | C32, C72 for inner products and dense servers; C45 and the DPF lemma behind C34 for hashed databases; C24 for samples |
| C84 | EvaluateAt, EvaluateAndApply, Dcf.evaluate with a type other than that of the level (Spec/OtherType) | induction over types: messages determine the form; too few bytes abort (C26) |
| C85 | sizes of serialized keys, requests and responses (Spec/Communication) | sum over the levels: each hierarchy level has its values in one correction word; C69 for the form of keys, C60 and C37 for responses |
| C86 | KeySpan | refinement: every access of a span that refers to keys yields them; C28 for gates without intervals |
| C87 | HashThreads | invariant of each thread, kept by its own steps and by those of others as they write elsewhere; a measure for termination |
| C88 | EvaluateUntil, EvaluateNext, EvaluateAt with a context that fail | all outcomes of a call after any history (C06, C07); the context is replaced only after the last check, but for `EvaluateAt` |
| C89 | contents and size of contexts (Spec/ContextState) | invariant of contexts over histories; nodes of C69 |
| C90 | hash functions with an ideal SHA-256 or FarmHash (Spec/HashUniform) | counting: digests are the numbers below 2^256, each residue class has its even share; different queries hash different messages (C81) |
| C91 | Faults, PirFaults | relation between code with failing calls and the same code without, kept by sequencing and loops; invariant of contexts over histories with failures |
| C92 | PirFaults | the same relation; leader: cases of sender and own result; runs: each step gives the expected value or an error, kept by sequencing |
| C93 | SyntheticInput | the digits of a text by induction; splitting at the first comma, by induction on the length of a line; decimal digits of the Lean library for the round trip |
| C94 | Doubles (Spec/SecurityLevel) | error analysis: relative error of rounding to 53 bits, absolute errors of three logarithms and three sums, monotonicity of rounding, which is to the nearest double, ties to even (Spec/Rounding); then C36, C57, C58, C63, C83 |
| C95 | order of fields, unknown fields | records of different fields commute, record by record for every message without a `oneof`; induction on one of the two sequences, moving each record to the front of the other; unknown records filtered out |
| C96 | length of the message to the helper | the helper's keys from the leader's by C18; then a function of the view of C62 |
| C97 | number of calls of cipher and allocator | costs of the functions of Model/Faults and Model/PirFaults, composed as their runs; sums over the levels (Lemmas/Work, PrefixWork, ApplyWork, PirWork) |
| C49, C50 | all of the above | corollaries of "= ok"; C50 refuted by witness |
