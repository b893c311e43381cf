{"id": "C01", "title": "Point-function correctness of EvaluateAt at every hierarchy level", "statement": "For every parameter list accepted by CreateIncremental, every alpha inside the last domain, every list of betas of the declared value types and every outcome of the random number generator: GenerateKeysIncremental succeeds, and for every hierarchy level h and every list of points inside that level's domain EvaluateAt succeeds on both keys and the two results add up (in the value type's group) to beta[h] at the points equal to the level-h prefix of alpha and to 0 at all other points.", "quantifier": "all parameter lists, all value types (nested tuples, integers mod 2^l, mod N, XOR), all alpha, beta, seeds, PRGs, levels, point lists", "why_tests_cant": "2^128 domains, 2^256 seed pairs and infinitely many parameter lists; a test samples a handful of small ones.", "anchors": ["dpf/distributed_point_function.cc:GenerateKeysIncremental", "dpf/distributed_point_function.cc:GenerateNext", "dpf/distributed_point_function.cc:ComputeValueCorrection", "dpf/distributed_point_function.h:EvaluateAtImpl"]}
{"id": "C02", "title": "Full-domain expansion equals pointwise evaluation", "statement": "The first EvaluateUntil (or EvaluateNext) call on a fresh context, with empty prefixes, at any level with log domain size < 63, returns exactly 2^log_domain_size values and the i-th one is what EvaluateAt returns at point i, for every key that passes validation (honestly generated or not).", "quantifier": "all parameter lists, keys that pass validation, levels, value types", "why_tests_cant": "The expansion has 2^n leaves; tests compare a few small n, not every packing factor and tree/domain offset.", "anchors": ["dpf/distributed_point_function.h:EvaluateUntil", "dpf/distributed_point_function.cc:ExpandAndUpdateContext", "dpf/distributed_point_function.cc:ExpandSeeds"]}
{"id": "C03", "title": "Incremental evaluation refines pointwise evaluation for every call history", "statement": "For every sequence of EvaluateUntil calls on a context made by CreateEvaluationContext, every call that succeeds returns, for each requested prefix in order, the values EvaluateAt gives at all extensions of the prefix, in increasing order.", "quantifier": "all keys, all finite sequences of calls with arbitrary levels, value types and prefix lists, including rejected calls in between", "why_tests_cant": "The state carried in the context depends on the entire history of prefix sets; the number of histories is unbounded.", "anchors": ["dpf/distributed_point_function.h:EvaluateUntil", "dpf/distributed_point_function.cc:ComputePartialEvaluations", "dpf/distributed_point_function.cc:ExpandAndUpdateContext"]}
{"id": "C04", "title": "Evaluation does not depend on which intermediate levels were evaluated", "statement": "If two different call histories on contexts of the same key both end in a successful EvaluateUntil at the same level with prefixes describing the same set of points (same previous level), they return the same values; skipping or inserting intermediate levels never changes an output.", "quantifier": "all pairs of histories", "why_tests_cant": "Needs all pairs of histories.", "anchors": ["dpf/distributed_point_function.h:EvaluateUntil", "dpf/distributed_point_function.cc:ComputePartialEvaluations"]}
{"id": "C05", "title": "Outputs follow the caller's prefix order, duplicates included", "statement": "EvaluateUntil returns the blocks of outputs in the order of the prefixes given, also if prefixes are unsorted, repeated, or fall into the same packed block; permuting or repeating prefixes permutes or repeats the output blocks and nothing else.", "quantifier": "all prefix lists", "why_tests_cant": "Orders and multiplicities are unbounded; de-duplication bugs only show for specific collisions.", "anchors": ["dpf/distributed_point_function.h:EvaluateUntil"]}
{"id": "C06", "title": "EvaluateUntil rejects bad arguments and leaves the context untouched", "statement": "EvaluateUntil fails with INVALID_ARGUMENT and leaves the context as it was if the context is exhausted or does not belong to this DPF, the level is out of range or not after the previous one, the requested type is not the level's type, prefixes are empty/non-empty on the wrong call, a prefix is outside the previous level's domain, the domain gap is 63 bits or more, or the output would exceed half the address space.", "quantifier": "all contexts and arguments", "why_tests_cant": "Every combination of level, prefix and context state has to be rejected.", "anchors": ["dpf/distributed_point_function.h:EvaluateUntil", "dpf/internal/proto_validator.cc:ValidateEvaluationContext"]}
{"id": "C07", "title": "EvaluateUntil accepts exactly extensions of earlier prefixes", "statement": "Within one context a call whose prefixes all extend prefixes of the previous call succeeds, and a call with a prefix that extends no earlier prefix is rejected with INVALID_ARGUMENT.", "quantifier": "all histories, all prefix lists", "why_tests_cant": "Unbounded histories; acceptance depends on stored state.", "anchors": ["dpf/distributed_point_function.h:EvaluateUntil", "dpf/distributed_point_function.cc:ComputePartialEvaluations"]}
{"id": "C08", "title": "EvaluateAt with a context agrees with EvaluateAt without one", "statement": "Whenever EvaluateAt on a context that came from CreateEvaluationContext and any sequence of EvaluateUntil/EvaluateAt calls succeeds, it returns what EvaluateAt on the bare key returns, at any level (also one below the stored partial evaluations) and for any multiset of points, and the context stays usable: later calls still return correct values.", "quantifier": "all mixed call histories, levels and point lists", "why_tests_cant": "Unbounded mixed histories.", "anchors": ["dpf/distributed_point_function.h:EvaluateAtImpl", "dpf/distributed_point_function.cc:ComputePartialEvaluations"]}
{"id": "C09", "title": "EvaluateAt argument checking", "statement": "EvaluateAt returns INVALID_ARGUMENT for a level outside [0, #levels), for any point outside the level's domain, and for a key that is structurally malformed for this DPF; an empty list of points gives an empty result; in no case is memory outside the key or the packed block touched for a generated key.", "quantifier": "all keys, levels, point lists", "why_tests_cant": "All malformed keys and all out-of-range points.", "anchors": ["dpf/distributed_point_function.h:EvaluateAtImpl", "dpf/internal/proto_validator.cc:ValidateDpfKey"]}
{"id": "C10", "title": "EvaluateAndApply visits every level once, in order, with the EvaluateAt values", "statement": "EvaluateAndApply calls the callback with, at level h, the values EvaluateAt would give for each key at its point shifted right to level h; levels come in order 0,1,2,..., it stops right after the first false, never earlier, and returns OK.", "quantifier": "all key batches, points inside the domain, right shifts, callbacks (state machines)", "why_tests_cant": "Callback behaviour, batch size and number of levels are arbitrary.", "anchors": ["dpf/distributed_point_function.h:EvaluateAndApply"]}
{"id": "C11", "title": "EvaluateAndApply and DCF evaluation reject out-of-range points", "statement": "EvaluateAndApply returns INVALID_ARGUMENT if any evaluation point is out of range (as documented).", "quantifier": "all points", "why_tests_cant": "Needs all points; the documented check is absent, so the statement is expected to be refuted.", "anchors": ["dpf/distributed_point_function.h:EvaluateAndApply", "dcf/distributed_comparison_function.h:BatchEvaluate"]}
{"id": "C12", "title": "Batched seed evaluation is pointwise, alias-safe and batch-size independent", "statement": "For any number of seeds and levels, the seed evaluation routine gives for each seed the walk along its own path bits with its own control bit and either the shared or its own correction words, whatever the other seeds are, whether or not outputs overwrite inputs, and for paths read at any right shift; a wrong number of correction words is rejected.", "quantifier": "all batch sizes, levels, paths, shifts, correction words, aliasing modes", "why_tests_cant": "Batch boundary, aliasing and index arithmetic interact for unbounded sizes.", "anchors": ["dpf/internal/evaluate_prg_hwy.cc:EvaluateSeedsNoHwy", "dpf/internal/evaluate_prg_hwy.cc:EvaluateSeeds", "dpf/distributed_point_function.cc:EvaluateSeeds"]}
{"id": "C13", "title": "Vectorised seed evaluation equals the scalar one", "statement": "For every SIMD vector width (multiple of 16 bytes), every number of seeds (full groups of four vectors, single vectors, a partial vector) and every number of levels the SIMD code path writes the same seeds and control bits as the scalar path.", "quantifier": "all vector widths, seed counts, levels, correction word modes", "why_tests_cant": "The hardware running the tests has one vector width; sizes are unbounded.", "anchors": ["dpf/internal/evaluate_prg_hwy.cc:EvaluateSeedsHwy", "dpf/internal/aes_128_fixed_key_hash_hwy.h"]}
{"id": "C14", "title": "Breadth-first expansion equals individual path walks", "statement": "Expanding k seeds by n levels gives k*2^n leaves, and leaf number i*2^n + s is the walk of seed i along the n bits of s (most significant first), for any k and n.", "quantifier": "all k, n, correction words, control bits", "why_tests_cant": "Exponential number of leaves and all batch offsets.", "anchors": ["dpf/distributed_point_function.cc:ExpandSeeds"]}
{"id": "C15", "title": "Fixed-key hash is pointwise on arrays of any size and may run in place", "statement": "Evaluating the AES-based hash on an array gives AES(k, sigma(x)) xor sigma(x) at every index, for arrays of any length, also when output and input are the same array; unequal lengths are rejected; sigma is a permutation.", "quantifier": "all lengths, contents, keys, block ciphers", "why_tests_cant": "Array length and batch boundaries are unbounded.", "anchors": ["dpf/aes_128_fixed_key_hash.cc:Evaluate"]}
{"id": "C16", "title": "Parameter validation and the hierarchy/tree level maps", "statement": "CreateIncremental accepts a parameter list only if it is non-empty, log domain sizes are in [0,128] and strictly increasing, every value type is present and well-formed and the security parameter is in [0,128]; for an accepted list, tree levels are strictly increasing, tree level <= log domain size, the packed elements of a block fit (2^(log-tree) <= elements per block), and the two level maps are inverse to each other. Conversely such lists are accepted if the types have no IntModN and at most 2^28-16 bytes; larger types overflow an int.", "quantifier": "all parameter lists", "why_tests_cant": "Unbounded lists of parameters and nested value types.", "anchors": ["dpf/internal/proto_validator.cc:Create", "dpf/internal/proto_validator.cc:ValidateParameters"]}
{"id": "C17", "title": "Generated keys are accepted by every evaluation entry point", "statement": "Both keys returned by GenerateKeysIncremental pass key validation, CreateEvaluationContext succeeds on them, they have one correction word per tree level below the root, and value corrections of the right length exactly at output levels.", "quantifier": "all parameters, alpha, beta, seeds", "why_tests_cant": "All parameter lists.", "anchors": ["dpf/distributed_point_function.cc:GenerateKeysIncremental", "dpf/internal/proto_validator.cc:ValidateDpfKey", "dpf/distributed_point_function.cc:CreateEvaluationContext"]}
{"id": "C18", "title": "The two keys differ only in seed and party", "statement": "The two keys generated for one point function have identical correction words and identical last-level correction, party numbers 0 and 1, and the raw random seeds; hence either key's size and shape does not depend on alpha or beta.", "quantifier": "all parameters, alpha, beta, seeds", "why_tests_cant": "All inputs.", "anchors": ["dpf/distributed_point_function.cc:GenerateKeysIncremental", "dpf/distributed_point_function.cc:GenerateNext"]}
{"id": "C19", "title": "Key generation rejects exactly the invalid inputs", "statement": "GenerateKeysIncremental returns INVALID_ARGUMENT iff the number of betas is wrong, a beta does not validate against its level's type, or alpha is outside the last domain; otherwise it returns FAILED_PRECONDITION iff some level's type was never registered, and otherwise keys.", "quantifier": "all parameters, alphas, beta lists, registration states", "why_tests_cant": "All alphas (boundary at 2^n, n=128) and all malformed value messages.", "anchors": ["dpf/distributed_point_function.cc:GenerateKeysIncremental", "dpf/internal/proto_validator.cc:ValidateValue", "dpf/distributed_point_function.cc:GetValueCorrectionFunction"]}
{"id": "C20", "title": "Value encoding round trip", "statement": "For every supported type and every element, decoding the encoded element gives it back, and the encoded element validates against the type's own description, which is itself a valid value type.", "quantifier": "all supported types (arbitrarily nested), all elements", "why_tests_cant": "Types are unbounded, elements up to 2^128.", "anchors": ["dpf/internal/value_type_helpers.h:ToValue", "dpf/internal/value_type_helpers.h:FromValue", "dpf/internal/value_type_helpers.cc:Uint128ToValueInteger"]}
{"id": "C21", "title": "Decoding a value rejects everything out of range", "statement": "FromValue<T> returns INVALID_ARGUMENT for a message of a different kind, with an unset integer, of the wrong tuple size or holding an integer that does not fit in T, and otherwise the represented element.", "quantifier": "all value messages", "why_tests_cant": "All 128-bit integers; expected to be refuted for integers >= 2^64 and types of at most 64 bits.", "anchors": ["dpf/internal/value_type_helpers.h:Uint128To", "dpf/internal/value_type_helpers.h:FromValue"]}
{"id": "C22", "title": "Value-type comparison is an equivalence that ignores encoding", "statement": "On well-formed value types the comparison never fails, is reflexive, symmetric and transitive, and does not depend on whether a modulus is stored as a 64-bit or a 128-bit field; on types with an unset part it fails instead of answering 'equal'.", "quantifier": "all (nested) value types", "why_tests_cant": "Unbounded nesting.", "anchors": ["dpf/internal/value_type_helpers.cc:ValueTypesAreEqual"]}
{"id": "C23", "title": "IntModN arithmetic is exact modular arithmetic without overflow", "statement": "For every base width and every modulus allowed by the type, +, - and negation of IntModN return the representative in [0,N) of the mathematical result mod N, although the machine integers have only as many bits as the base type.", "quantifier": "all widths, moduli, operands", "why_tests_cant": "Up to 2^128 moduli x 2^256 operand pairs; wrap-around occurs only for large moduli.", "anchors": ["dpf/int_mod_n.h:SubtractBaseInteger", "dpf/int_mod_n.h:AddBaseInteger"]}
{"id": "C24", "title": "Sampling integers mod N from bytes", "statement": "For every number n>=1 of samples and every byte string of at least the required length, sampling reads only the first 16+b(n-1) bytes, never outside the string, and returns the residues of the running 128-bit state; all samples are in [0,N). A string shorter than required, zero samples, or too high a security demand is rejected.", "quantifier": "all n below 2^32, all strings, moduli, widths", "why_tests_cant": "Unbounded n and strings.", "anchors": ["dpf/int_mod_n.h:UnsafeSampleFromBytes", "dpf/int_mod_n.h:SampleFromBytes", "dpf/int_mod_n.cc:GetNumBytesRequired"]}
{"id": "C25", "title": "Every supported output type is an abelian group", "statement": "For integers, IntModN, XorWrapper and tuples of any nesting, + is associative and commutative, the value-initialised element is neutral, and a + (-a) is neutral, a - b = a + (-b). The sums are: modulo 2^w for integers, modulo N for IntModN, bitwise exclusive or for XorWrapper, element by element for tuples.", "quantifier": "all types, all elements", "why_tests_cant": "Unbounded nesting, large element sets.", "anchors": ["dpf/tuple.h", "dpf/xor_wrapper.h", "dpf/int_mod_n.h"]}
{"id": "C26", "title": "The pseudorandom bytes reserved for a type always suffice to build its elements", "statement": "For every value type for which a DPF can be created, converting the reserved blocks (BitsNeeded rounded up to blocks) to elements of the type never runs out of bytes (never crashes).", "quantifier": "all value types", "why_tests_cant": "Unbounded nesting; expected to be refuted for nested tuples containing IntModN.", "anchors": ["dpf/internal/value_type_helpers.cc:BitsNeeded", "dpf/internal/value_type_helpers.h:ConvertBytesToArrayOf", "dpf/distributed_point_function.cc:CreateIncremental"]}
{"id": "C27", "title": "DCF correctness", "statement": "For every DCF, alpha inside the domain, beta of its value type, random seeds and x inside the domain, Evaluate on the two keys gives shares adding up to beta if x < alpha and to 0 otherwise.", "quantifier": "all domain sizes 1..128, value types, alpha, beta, x, seeds", "why_tests_cant": "2^128 x 2^128 pairs; comparison at bit boundaries.", "anchors": ["dcf/distributed_comparison_function.cc:GenerateKeys", "dcf/distributed_comparison_function.cc:SetToZero", "dcf/distributed_comparison_function.h:BatchEvaluate"]}
{"id": "C28", "title": "DCF batch evaluation equals individual evaluation", "statement": "BatchEvaluate on any batch of keys and points returns at index i what Evaluate returns for keys[i] and points[i]; mismatched sizes are rejected; the previous contents of the output do not matter.", "quantifier": "all batches", "why_tests_cant": "Unbounded batch sizes.", "anchors": ["dcf/distributed_comparison_function.h:BatchEvaluate"]}
{"id": "C29", "title": "DCF argument checking", "statement": "DCF Create rejects log_domain_size < 1, > 128 and invalid value types; GenerateKeys rejects alpha outside the domain and beta of a different type.", "quantifier": "all parameters, alpha, beta", "why_tests_cant": "All parameter values including 128/129.", "anchors": ["dcf/distributed_comparison_function.cc:Create", "dcf/distributed_comparison_function.cc:GenerateKeys"]}
{"id": "C30", "title": "Multiple interval containment gate correctness", "statement": "For every gate with log group size n, any list of intervals p<=q, any input mask r_in, output masks r_out and real input x: evaluating both keys at the masked input (x + r_in mod 2^n) gives, for each interval, shares whose sum minus r_out is 1 mod 2^n if p <= x <= q and 0 otherwise.", "quantifier": "all n in 1..127, intervals, masks, inputs, randomness", "why_tests_cant": "Wrap-around of masked values gives many cases; 2^127-size groups.", "anchors": ["dcf/fss_gates/multiple_interval_containment.cc:Gen", "dcf/fss_gates/multiple_interval_containment.cc:BatchEval"]}
{"id": "C31", "title": "MIC argument checking and batching", "statement": "The gate rejects intervals with missing, reversed or out-of-group bounds, masks and inputs outside the group, and mismatched list sizes; a batch over several keys gives the concatenation of the individual evaluations.", "quantifier": "all parameters and batches", "why_tests_cant": "Unbounded interval lists and batches.", "anchors": ["dcf/fss_gates/multiple_interval_containment.cc:Create", "dcf/fss_gates/multiple_interval_containment.cc:BatchEval"]}
{"id": "C32", "title": "PIR inner product equals the XOR of the selected records", "statement": "For every database and every packed selection bit vector of sufficient length, the inner product is the XOR of exactly those records whose bit is set, each zero-padded to the longest record, for several selections at once; too short selections and empty databases are rejected.", "quantifier": "all record lists (any lengths), all selections", "why_tests_cant": "Unbounded sizes; the index is computed in an int, so the claim is expected to fail from 2^24 blocks on.", "anchors": ["pir/internal/inner_product_hwy.cc:InnerProduct", "pir/internal/inner_product_hwy.cc:InnerProductNoHwy"]}
{"id": "C33", "title": "Vectorised inner product equals the scalar one", "statement": "For every vector width, record length and alignment the SIMD XOR (full vectors, halving partial vectors, scalar tail) gives the same bytes as the scalar loop.", "quantifier": "all widths, record lengths, selections", "why_tests_cant": "Test hardware has one width; lengths unbounded.", "anchors": ["pir/internal/inner_product_hwy.cc:InnerProductHwy", "pir/internal/inner_product_hwy.cc:XorPartialString"]}
{"id": "C34", "title": "Dense PIR returns the requested records", "statement": "For any database of n>=1 records and any list of in-range indices, XORing the two plain-server responses to the two plain requests built by the client gives exactly the requested records, zero-padded to the longest record, in query order.", "quantifier": "all databases, index lists, randomness", "why_tests_cant": "Unbounded databases; correctness across packing boundary 128 and non powers of two.", "anchors": ["pir/dense_dpf_pir_client.cc:CreatePlainRequests", "pir/dense_dpf_pir_server.cc:HandlePlainRequest", "pir/dense_dpf_pir_database.cc"]}
{"id": "C35", "title": "Dense PIR client rejects out-of-range queries", "statement": "The client creates requests iff all indices are in [0, database size); otherwise INVALID_ARGUMENT; and a server rejects an empty key list.", "quantifier": "all index lists", "why_tests_cant": "All 2^64 indices.", "anchors": ["pir/dense_dpf_pir_client.cc:CreatePlainRequests", "pir/dense_dpf_pir_server.cc:HandlePlainRequest"]}
{"id": "C36", "title": "Leader/Helper PIR protocol end to end", "statement": "With an encryption scheme that decrypts what it encrypted, the response a client computes from the leader's answer (leader part XOR masked helper part, unmasked with the client's one-time-pad seed) is the list of requested records.", "quantifier": "all databases, queries, seeds, encryption schemes with correct decryption", "why_tests_cant": "Composition of two servers, masking and unmasking for any number of responses of any length.", "anchors": ["pir/dpf_pir_server.cc:HandleLeaderRequest", "pir/dpf_pir_server.cc:HandleHelperRequest", "pir/dense_dpf_pir_client.cc:HandleResponse", "pir/dpf_pir_client.h:CreateRequest"]}
{"id": "C37", "title": "Leader failure behaviour", "statement": "The leader never returns a response if the sender fails, if the sender did not run the leader's own computation, if the leader's own computation failed, or if the helper's answer has a different shape; the error is reported.", "quantifier": "all sender behaviours, all helper answers", "why_tests_cant": "The sender is an arbitrary callback.", "anchors": ["pir/dpf_pir_server.cc:HandleLeaderRequest"]}
{"id": "C38", "title": "Seeded PRNG gives one stream, however it is read", "statement": "For one seed and nonce, the concatenation of the byte strings returned by successive reads of any lengths is a prefix of one fixed stream; so two PRNGs with the same seed read with different chunkings agree.", "quantifier": "all seeds, all chunkings", "why_tests_cant": "Unbounded chunkings across block boundaries.", "anchors": ["pir/prng/aes_128_ctr_seeded_prng.cc:GetRandomBytes"]}
{"id": "C39", "title": "Database builder semantics", "statement": "Build succeeds at most once per Clear; the built database contains exactly the inserted records in insertion order; Clone builds the same database independently; records read back unchanged.", "quantifier": "all sequences of builder operations", "why_tests_cant": "Operation sequences are unbounded.", "anchors": ["pir/dense_dpf_pir_database.cc:Builder"]}
{"id": "C40", "title": "Cuckoo hash table never misplaces or duplicates elements", "statement": "After any sequence of successful inserts, buckets and stash together hold exactly the inserted multiset; every element in a bucket sits in a bucket given by one of its hash functions; the stash never exceeds its limit; each bucket holds at most one element.", "quantifier": "all insert sequences, hash functions, random choices", "why_tests_cant": "Random walk with unbounded relocations.", "anchors": ["pir/hashing/cuckoo_hash_table.cc:Insert"]}
{"id": "C41", "title": "A failed cuckoo insert loses nothing but the rejected element", "statement": "If Insert reports an error, the table holds the elements it held before.", "quantifier": "all states, elements, random choices", "why_tests_cant": "Random eviction chains; expected to be refuted.", "anchors": ["pir/hashing/cuckoo_hash_table.cc:Insert"]}
{"id": "C42", "title": "Simple hash table inserts into every hash bucket or nowhere", "statement": "Insert puts the element into the bucket of each hash function, or, if one of those buckets is full, changes nothing and reports an error; no bucket ever exceeds the maximum.", "quantifier": "all insert sequences, hash functions", "why_tests_cant": "Unbounded sequences; repeated hash values.", "anchors": ["pir/hashing/simple_hash_table.cc:Insert"]}
{"id": "C43", "title": "Multiple-choice hash table uses a least-loaded candidate bucket", "statement": "Insert adds the element to exactly one of its candidate buckets, one with minimal load before the insert (first among equals); every earlier element stays in place; full tables report an error.", "quantifier": "all insert sequences, hash functions", "why_tests_cant": "Unbounded sequences.", "anchors": ["pir/hashing/multiple_choice_hash_table.cc:Insert"]}
{"id": "C44", "title": "Hash functions map uniformly into the requested range without overflow", "statement": "The SHA-256 hash family returns the 256-bit digest reduced mod the upper bound computed with 128-bit arithmetic only, hence always in [0, upper_bound).", "quantifier": "all digests, all upper bounds >= 1", "why_tests_cant": "2^256 digests.", "anchors": ["pir/hashing/sha256_hash_family.cc:operator()"]}
{"id": "C45", "title": "Cuckoo-hashed database stores every record", "statement": "A successfully built cuckoo-hashed database answers lookups for every inserted key.", "quantifier": "all record sets, hash functions, random choices", "why_tests_cant": "Depends on random relocation; expected to be refuted because the stash is never checked.", "anchors": ["pir/cuckoo_hashed_dpf_pir_database.cc:Build"]}
{"id": "C46", "title": "Cuckoo sparse PIR end to end", "statement": "For a database built without leftover stash, a query for a stored key returns its value (padded) and a query for a key not stored returns nothing.", "quantifier": "all databases, keys, hash functions, query lists", "why_tests_cant": "Unbounded key sets; padding ambiguities make the negative half false in corner cases.", "anchors": ["pir/cuckoo_hashing_sparse_dpf_pir_client.cc:HandleResponse", "pir/cuckoo_hashing_sparse_dpf_pir_server.cc:HandlePlainRequest"]}
{"id": "C47", "title": "Simple-hashing sparse PIR end to end", "statement": "For a database of key/value records, a query for a stored key returns its value and a query for another key returns nothing.", "quantifier": "all databases, keys, hash functions, query lists", "why_tests_cant": "Unbounded.", "anchors": ["pir/simple_hashing_sparse_dpf_pir_client.cc:HandleResponse", "pir/simple_hashed_dpf_pir_database.cc:Build"]}
{"id": "C48", "title": "A single key hides alpha and beta when the PRG is ideal", "statement": "Replace the other party's on-path PRG outputs by independent uniform bits: then for every alpha and beta the correction words in one party's key are uniformly distributed and independent of alpha and beta (exact counting: for each pair of inputs there is a bijection of the randomness giving the same key).", "quantifier": "all alpha, beta, party, parameters", "why_tests_cant": "A statement about distributions over 2^(128*n) outcomes.", "anchors": ["dpf/distributed_point_function.cc:GenerateNext", "dpf/distributed_point_function.cc:ComputeValueCorrection"]}
{"id": "C49", "title": "No undefined behaviour for honest use", "statement": "For every DPF created from accepted parameters with value types whose bytes suffice, key generation and evaluation of generated keys never shift by an invalid amount, index out of bounds or hit a fatal check.", "quantifier": "all parameters, alpha, beta, points, histories", "why_tests_cant": "Absence of UB on all inputs.", "anchors": ["dpf/distributed_point_function.cc", "dpf/distributed_point_function.h"]}
{"id": "C50", "title": "Malformed contexts cannot cause out-of-bounds reads", "statement": "EvaluateUntil and EvaluateAt return an error for every malformed EvaluationContext.", "quantifier": "all contexts", "why_tests_cant": "All messages; expected to be refuted (partial_evaluations_level is not range-checked).", "anchors": ["dpf/distributed_point_function.cc:ComputePartialEvaluations", "dpf/internal/proto_validator.cc:ValidateEvaluationContext"]}
{"id": "C51", "title": "Elements of output types come from the specified bits", "statement": "Converting a long enough pseudorandom byte string to elements of an output type yields exactly: for types made of integers and XorWrappers, the little-endian integers stored side by side (as many elements as fit into 16 bytes, at least one); for types containing IntModN, one element whose integers are sampled one after the other from a 128-bit state, taking state mod modulus (or the low bits) and refilling the state from the following bytes.", "quantifier": "all output types of any nesting, all byte strings", "why_tests_cant": "All types and byte strings; wrong refilling biases values without breaking correctness of shares.", "anchors": ["dpf/internal/value_type_helpers.h", "dpf/int_mod_n.h", "dpf/tuple.h"]}
{"id": "C52", "title": "Dense PIR servers and clients are created iff their configuration is consistent", "statement": "A dense PIR server is created exactly if the configuration is a dense one with a positive number of elements and the database is present and has that size; leaders additionally need a sender, helpers a decrypter, clients an encrypter. Everything else is INVALID_ARGUMENT, never undefined behaviour.", "quantifier": "all configurations, databases, collaborators", "why_tests_cant": "All combinations.", "anchors": ["pir/dense_dpf_pir_server.cc:Create", "pir/dense_dpf_pir_client.cc:Create"]}
{"id": "C53", "title": "Hash tables are created iff their parameters are valid", "statement": "A cuckoo hash table is created exactly if the number of buckets is positive, there are at least two hash functions, and the relocation and stash limits are not negative; a simple (multiple-choice) hash table exactly if the number of buckets is positive, there are at least one (two) hash functions, and the bucket limit, if any, is positive. New tables are empty; everything else is INVALID_ARGUMENT.", "quantifier": "all hash functions, numbers and limits", "why_tests_cant": "All combinations of arguments.", "anchors": ["pir/hashing/cuckoo_hash_table.cc:Create", "pir/hashing/simple_hash_table.cc:Create", "pir/hashing/multiple_choice_hash_table.cc:Create"]}
{"id": "C54", "title": "Clients survive arbitrary responses", "statement": "Whatever response and client state HandleResponse is given, it returns INVALID_ARGUMENT or one result for each query (dense: one string per string of the response, of the same length); it never reads out of bounds.", "quantifier": "all responses and states, for dense, cuckoo-hashing and simple-hashing clients", "why_tests_cant": "All messages of all sizes; expected to be refuted for simple hashing (a bucket with fewer values than keys).", "anchors": ["pir/dense_dpf_pir_client.cc:HandleResponse", "pir/cuckoo_hashing_sparse_dpf_pir_client.cc:HandleResponse", "pir/simple_hashing_sparse_dpf_pir_client.cc:HandleResponse"]}
{"id": "C55", "title": "Sparse PIR servers and clients are created iff their parameters are consistent", "statement": "A sparse PIR server is created exactly if there are a positive number of buckets, (for cuckoo hashing) a positive number of hash functions, a hash family, and a database with one selection bit per bucket; leaders additionally need a sender, helpers a decrypter. A client is created exactly if there is an encrypter and the parameters are of its kind with a positive number of buckets (and of hash functions), the SHA-256 family and a seed. Parameters are generated exactly for configurations of the right kind with a positive number and a hash family. Everything else is INVALID_ARGUMENT.", "quantifier": "all configurations, parameters, databases, collaborators", "why_tests_cant": "All combinations.", "anchors": ["pir/cuckoo_hashing_sparse_dpf_pir_server.cc:CreatePlain", "pir/simple_hashing_sparse_dpf_pir_server.cc:CreatePlain", "pir/cuckoo_hashing_sparse_dpf_pir_client.cc:Create", "pir/simple_hashing_sparse_dpf_pir_client.cc:Create"]}
{"id": "C56", "title": "Requests made for another hash seed are rejected", "statement": "If the fingerprint of the client's hash seed is not zero and differs from that of the server's, the server returns INVALID_ARGUMENT for both plain requests of the client.", "quantifier": "all seeds, hash functions, databases, queries", "why_tests_cant": "All pairs of seeds.", "anchors": ["pir/cuckoo_hashing_sparse_dpf_pir_server.cc:HandlePlainRequest", "pir/simple_hashing_sparse_dpf_pir_server.cc:HandlePlainRequest"]}
{"id": "C57", "title": "Residues sampled from uniform bytes are close to uniform", "statement": "From GetNumBytesRequired uniform bytes, SampleFromBytes makes num_samples residues modulo kModulus whose joint distribution is within total variation distance 2^-security_parameter of independent uniform residues, for every security parameter it accepts.", "quantifier": "all moduli, base integers, accepted security parameters, numbers of samples whose required length fits an int", "why_tests_cant": "A distance of 2^-40 between distributions over 2^(8k) byte strings cannot be observed by sampling; expected to be refuted for more than one sample with a 128-bit base integer.", "anchors": ["dpf/int_mod_n.h:SampleFromBytes", "dpf/int_mod_n.h:UnsafeSampleFromBytes", "dpf/int_mod_n.cc:GetSecurityLevel"]}
{"id": "C58", "title": "Elements made from uniform bytes are close to uniform", "statement": "Converting the bytes that are reserved for an element of a value type, if they are uniform, gives exactly uniform elements for types without IntModN, and for other types elements within total variation distance 2^-security_parameter of uniform, for every security parameter BitsNeeded accepts.", "quantifier": "all value types including nested tuples, all accepted security parameters", "why_tests_cant": "Distances between distributions over huge sets; expected to be refuted for tuples of IntModN and other integers, for which a bound in terms of the sizes of the integers holds.", "anchors": ["dpf/internal/value_type_helpers.h:BitsNeeded", "dpf/internal/value_type_helpers.h:ConvertBytesToArrayOf", "dpf/internal/value_type_helpers.h:SampleAndUpdateBytes"]}
{"id": "C59", "title": "The overloads of key generation need no registration and agree with each other", "statement": "The templates of GenerateKeys and GenerateKeysIncremental (variadic; span of one type; single element) work on an object with which no types have been registered: given one element of the type of each level and alpha in the domain they return keys that evaluate to shares of the point functions with these elements, and the types are registered afterwards. The overloads for absl::uint128 succeed exactly if all levels have integer types, there is one number per level, every number fits its type and alpha is in the domain; then the same holds. Wrong numbers of arguments, GenerateKeys on an incremental DPF, elements not matching the type of their level, and alpha outside the domain give INVALID_ARGUMENT.", "quantifier": "all parameters and value types (whose reserved bytes suffice, C26), arguments, alpha, seeds, earlier registrations", "why_tests_cant": "All combinations of types, levels and values.", "anchors": ["dpf/distributed_point_function.h:GenerateKeys", "dpf/distributed_point_function.h:GenerateKeysIncremental", "dpf/distributed_point_function.h:ToValue"]}
{"id": "C60", "title": "PIR servers and clients survive arbitrary input", "statement": "Creating a PIR server or client (dense, cuckoo, simple; plain, leader, helper) returns an object or an error for every configuration. A server created for a database built from records rejects a request with INVALID_ARGUMENT or, if it is a plain request with keys of any shape, answers with exactly one string per key of the length of the longest record (cuckoo: one of the length of the longest key and one of the longest value); leaders and helpers return if the sender and decrypter they were given return, whatever the other party sends. A client makes a request or returns an error for all queries. No undefined behaviour, no abort.", "quantifier": "all configurations, databases, requests with arbitrary (malformed) keys and fingerprints, roles, helper responses, decrypted strings, queries, seeds", "why_tests_cant": "Requests come from an untrusted client; the space of malformed messages is unbounded.", "anchors": ["pir/dense_dpf_pir_server.cc:HandlePlainRequest", "pir/cuckoo_hashing_sparse_dpf_pir_server.cc:HandlePlainRequest", "pir/simple_hashing_sparse_dpf_pir_server.cc:HandlePlainRequest", "pir/dpf_pir_server.cc:HandleRequest", "pir/dpf_pir_client.h:CreateRequest", "pir/hashing/sha256_hash_family.cc:operator()"]}
{"id": "C61", "title": "Comparison functions and interval gates survive arbitrary input", "statement": "Creating a comparison function or an interval containment gate returns an object or an error for all parameters (value types without empty tuples). Key generation returns keys or INVALID_ARGUMENT for all points, all beta messages, all element types and all masks, and leaves an object that can be used again. Evaluating arbitrary keys at arbitrary points returns INVALID_ARGUMENT or exactly one value per key (comparison function), one per key and interval (gate). No undefined behaviour, no abort.", "quantifier": "all parameters, points, beta messages, element types, masks, (malformed) keys, batches, output spans, call histories", "why_tests_cant": "Keys are received from another party; the space of malformed messages is unbounded.", "anchors": ["dcf/distributed_comparison_function.cc:Create", "dcf/distributed_comparison_function.cc:GenerateKeys", "dcf/distributed_comparison_function.h:BatchEvaluate", "dcf/fss_gates/multiple_interval_containment.cc:Create", "dcf/fss_gates/multiple_interval_containment.cc:Gen", "dcf/fss_gates/multiple_interval_containment.cc:BatchEval"]}
{"id": "C62", "title": "One party learns nothing from comparison keys, gate keys, PIR requests and masked responses", "statement": "Idealise the pseudorandom blocks that the other party computes on the path of the secret point as uniform. Then the key that one party gets from GenerateKeys of a comparison function has the same distribution for all alpha and beta; the key it gets from Gen of an interval containment gate has the same distribution for all input and output masks; the request that one PIR server sees (dense, cuckoo hashing, simple hashing) has the same distribution for all lists of queries of the same length; and the response of the helper that the leader sees has, over a uniform one-time pad, the same distribution for all records of the same shape.", "quantifier": "all parameters, value types, points, masks, queries, seeds, both parties, all database contents", "why_tests_cant": "Equality of distributions over 128-bit blocks cannot be observed by sampling.", "anchors": ["dcf/distributed_comparison_function.cc:GenerateKeys", "dcf/fss_gates/multiple_interval_containment.cc:Gen", "pir/dense_dpf_pir_client.cc:CreatePlainRequests", "pir/cuckoo_hashing_sparse_dpf_pir_client.cc:CreatePlainRequests", "pir/simple_hashing_sparse_dpf_pir_client.cc:CreatePlainRequests", "pir/dpf_pir_server.cc:HandleHelperRequest"]}
{"id": "C63", "title": "How well a key hides its input when values are sampled modulo N", "statement": "Idealise the pseudorandom blocks that the other party computes on the path of alpha as uniform. Then, for every value type, the key one party gets is statistically close to a key with uniform contents, and so the keys for any two pairs of alpha and beta are close: no test tells them apart with advantage more than twice the sum over the levels of (1*N1 + 2*N2 + ...)/2^130, where N1, N2, ... are the numbers of values of the integers in the type (and of zero for types without IntModN). Hence, with a security parameter sigma accepted by Create, each level contributes at most 2^-sigma. The same holds for comparison functions with one level per bit of the domain.", "quantifier": "all parameters, value types, alpha, beta, seeds, both parties, all tests (of any complexity)", "why_tests_cant": "Distances like 2^-64 between distributions of keys cannot be observed by sampling, and a test suite cannot quantify over all distinguishers.", "anchors": ["dpf/distributed_point_function.cc:GenerateKeysIncremental", "dpf/int_mod_n.h:UnsafeSampleFromBytes", "dpf/internal/value_type_helpers.cc:BitsNeeded", "dcf/distributed_comparison_function.cc:GenerateKeys"]}
{"id": "C64", "title": "Build of hashed databases succeeds iff parameters and keys are valid", "statement": "Build of a new builder returns a database with the requested number of buckets exactly if the number of buckets is positive, there are at least two hash functions (cuckoo hashing only), the hash family is SHA-256 with a non-empty seed, and no key is empty; otherwise it returns INVALID_ARGUMENT. With simple hashing it returns INTERNAL if a bucket cannot be serialized. It never reads out of bounds.", "quantifier": "all parameters, all lists of records, all random choices", "why_tests_cant": "All combinations of parameters and record lists, including bucket numbers that do not fit an int.", "anchors": ["pir/cuckoo_hashed_dpf_pir_database.cc:Build", "pir/simple_hashed_dpf_pir_database.cc:Build"]}
{"id": "C65", "title": "A failing random number generator is reported", "statement": "Rand8, Rand64 and Rand128 of BasicRng return INTERNAL if RAND_bytes fails, and otherwise a number consisting of exactly the bytes written by RAND_bytes. No function returns keys, shares or seeds that were to be random although RAND_bytes failed: key generation of point functions, Gen of gates and GenerateSeed return an error then.", "quantifier": "all outcomes of the calls of RAND_bytes, all parameters and arguments", "why_tests_cant": "RAND_bytes does not fail in tests.", "anchors": ["dcf/fss_gates/prng/basic_rng.h:Rand", "dcf/fss_gates/multiple_interval_containment.cc:Gen", "dpf/distributed_point_function.cc:GenerateKeysIncremental", "pir/prng/aes_128_ctr_seeded_prng.cc:GenerateSeed"]}
{"id": "C66", "title": "Contexts can be used with every object of the same parameters, and with no other", "statement": "An EvaluationContext whose parameters have the same domain sizes, the same value types (in any encoding) and the same security parameters (up to 1/10000, where 0 stands for the default) as those of the object gives the same results in every sequence of EvaluateUntil, EvaluateNext and EvaluateAt calls as the context the object itself would have made. If any of them differs, EvaluateUntil and EvaluateNext return INVALID_ARGUMENT and leave the context unchanged.", "quantifier": "all parameters of object and context, all contexts, all sequences of calls", "why_tests_cant": "All pairs of parameter lists, encodings of moduli and security parameters near the tolerance.", "anchors": ["dpf/internal/proto_validator.cc:ParametersAreEqual", "dpf/internal/proto_validator.cc:ValidateEvaluationContext", "dpf/distributed_point_function.h:EvaluateUntil"]}
{"id": "C67", "title": "Number of bytes required for sampling", "statement": "GetNumBytesRequired(n, b, N, sigma) is 16 + ceil(b/8)(n-1) if n >= 1, 1 <= b <= 128, N <= 2^b and sigma is at most the security level, and INVALID_ARGUMENT otherwise; SampleFromBytes rejects numbers of samples that are negative as an int.", "quantifier": "all ints n and b, all 128-bit moduli, all security parameters including NaN", "why_tests_cant": "Boundaries at every bit size and modulus; overflow needs huge n.", "anchors": ["dpf/int_mod_n.cc:CheckParameters", "dpf/int_mod_n.cc:GetNumBytesRequired", "dpf/int_mod_n.cc:GetSecurityLevel", "dpf/int_mod_n.h:SampleFromBytes"]}
{"id": "C68", "title": "Results do not depend on the machine", "statement": "Two machines with the same AES but any vector units (or none), vector widths and alignments of arrays, which may change from call to call, give the same result, the same error and the same context after every call of key generation, EvaluateUntil, EvaluateNext, EvaluateAt, EvaluateAndApply, DCF and gate evaluation, and every PIR client and server answers the same; the two parties of a protocol may use different machines.", "quantifier": "all pairs of machines, all objects, keys, contexts, requests and arguments", "why_tests_cant": "A test runs on one vector width; alignments and their combinations over a sequence of calls are unbounded.", "anchors": ["dpf/internal/evaluate_prg_hwy.cc:EvaluateSeeds", "dpf/distributed_point_function.h:EvaluateAndApply", "pir/internal/inner_product_hwy.cc:InnerProduct", "pir/dpf_pir_server.cc:HandleRequest"]}
{"id": "C69", "title": "Keys and evaluation follow the documented algorithm", "statement": "For every parameter list there is exactly one sequence of tree depths: each is the smallest one above those of the earlier levels such that the values below a node fit into a block. A key is accepted if and only if it has a seed, one correction word per depth and value corrections for every level. GenerateKeys returns the keys of the published algorithm for given root seeds, with the published AES keys, hash, order of bytes, correction words and value corrections, so that keys can be exchanged with another implementation; EvaluateAt walks from the root along the bits of the point, reads the element of the point from the value hash of the node, adds the correction if the control bit is set and negates for party 1. The party of a key is not checked: with any other party the values are those of party 1 without the negation.", "quantifier": "all parameters, types, keys, points, betas, seeds and block ciphers", "why_tests_cant": "Two matching mistakes in key generation and evaluation cancel out in every round-trip test; unbounded parameters and types.", "anchors": ["dpf/distributed_point_function.cc:GenerateNext", "dpf/distributed_point_function.cc:ComputeValueCorrection", "dpf/distributed_point_function.h:EvaluateAt", "dpf/internal/proto_validator.cc:Create", "dpf/aes_128_fixed_key_hash.cc:Evaluate", "dpf/distributed_point_function.cc:kPrgKeyLeft"]}
{"id": "C70", "title": "Messages survive serialization", "statement": "Every key, parameter, evaluation context, value, value type, DCF and gate key, gate parameter, PIR request, response, configuration, public parameter and client state, serialized and parsed again, is the same message, as long as its numbers are in the range of their fields, it is shorter than 2^31 - 16 bytes, and it is not nested deeper than the parser allows (100 by default); values, value types and keys nested deeper are rejected. Different value types have different serializations, which the registration of value types relies on. All generated DPF keys, DCF keys and gate keys, for types with values of at most a million bytes, and the message a PIR client sends to the helper, for at most 2^19 queries, meet these conditions, except for the nesting: keys for integers in 50 tuples can be generated but not be parsed.", "quantifier": "all messages, parameters, types, alphas, betas, seeds and nesting limits", "why_tests_cant": "Unbounded messages and types; tests pass protobuf objects without serializing them.", "anchors": ["dpf/distributed_point_function.proto:DpfKey", "dcf/distributed_comparison_function.proto:DcfKey", "dcf/fss_gates/multiple_interval_containment.proto:MicKey", "pir/private_information_retrieval.proto:PirRequest", "dpf/distributed_point_function.cc:SerializeValueTypeDeterministically", "pir/dpf_pir_client.h:CreateRequest", "pir/dpf_pir_server.cc:HandleHelperRequest"]}
{"id": "C71", "title": "The hash functions and the generator are the published AES and SHA-256", "statement": "Aes128FixedKeyHash maps every block to the AES-128 of FIPS 197, with the bytes of key and block as they are in memory on little-endian machines, of sigma of the block, XORed with sigma of the block. The vectorised code, which calls instructions for single rounds with the expanded key, computes the same AES, for every key, block and vector size. Aes128CtrSeededPrng returns the AES-128 of the nonce and the numbers that follow it, big-endian and modulo 2^128, with the seed as key. As AES is a permutation for every key, with the inverse of FIPS 197, no two of the first 2^128 blocks of a stream are equal. SHA256HashFunction returns the SHA-256 of FIPS 180-4 of seed and input, as a little-endian number modulo the upper bound.", "quantifier": "all keys, blocks, vector sizes, seeds, nonces, lengths, inputs and upper bounds", "why_tests_cant": "2^256 pairs of keys and blocks; tests compare a few fixed values, on one machine.", "anchors": ["dpf/aes_128_fixed_key_hash.cc:Evaluate", "dpf/internal/aes_128_fixed_key_hash_hwy.h:HashOneWithKeyMask", "dpf/internal/evaluate_prg_hwy.cc:EvaluateSeedsHwy", "pir/prng/aes_128_ctr_seeded_prng.cc:GetRandomBytes", "pir/hashing/sha256_hash_family.cc:operator()"]}
{"id": "C72", "title": "The helpers that PIR tests compare against are right", "statement": "PackSelectionBits puts bit i of its input at bit i of the blocks, with zeros after the end. InnerProductWithUnpacked returns the XOR of the selected values, padded with zeros to the longest value, and rejects different numbers of values and bits; the inner product with the packed bits returns the same. Generated strings are as many and as long as asked for, counting strings are the prefix and the number in decimal, negative arguments are rejected. CreateFakeDatabase builds the database of the given elements. The plain and leader requests of a RequestGenerator are answered so that the records asked for can be recovered (for leader requests with the generator's one-time-pad seed), and indices outside of the database are rejected.", "quantifier": "all bits, values, databases, indices, arguments and random numbers", "why_tests_cant": "Tests use these helpers as their reference; an error in both the helper and the code under test goes unnoticed.", "anchors": ["pir/testing/pir_selection_bits.h:PackSelectionBits", "pir/testing/pir_selection_bits.cc:InnerProductWithUnpacked", "pir/testing/mock_pir_database.cc:GenerateCountingStrings", "pir/testing/mock_pir_database.h:CreateFakeDatabase", "pir/testing/request_generator.cc:CreateDpfPirPlainRequests", "pir/testing/request_generator.cc:CreateDpfPirLeaderRequest"]}
{"id": "C73", "title": "Objects whose parameters mean the same are interchangeable", "statement": "Two DPF objects created from parameter lists with the same number of levels, the same domain sizes and the same value types up to their encoding (as ValueTypesAreEqual compares them) are interchangeable, even if the security parameters, the registered types and the floating-point results of the machines differ. They accept the same keys. EvaluateAt, EvaluateAndApply, and every sequence of calls of EvaluateUntil, EvaluateNext and EvaluateAt on the contexts the two objects make of a key return the same. Keys made by one object can be evaluated by one party with it and by the other party with the other object, and the results add up to the point function. Both objects generate the same keys from the same arguments and random seeds.", "quantifier": "all pairs of objects with parameters of the same meaning, all keys including malformed ones, all points, contexts, sequences of calls, messages and seeds", "why_tests_cant": "The parties of a protocol build their objects separately; tests always use one object for both. There are infinitely many pairs of parameter lists and encodings.", "anchors": ["dpf/internal/value_type_helpers.cc:33-141", "dpf/internal/proto_validator.cc:113-158", "dpf/distributed_point_function.cc:570-643", "dpf/distributed_point_function.h:648-1207"]}
{"id": "C74", "title": "Security parameters that are accepted", "statement": "Parameters that are valid otherwise are accepted exactly if every value type can be used with the security parameter of its level (40 plus the log domain size if it is 0). An IntModN can be used with sigma if sigma is at most its security level for one sample; a tuple if its IntModN elements are of one type, sigma is at most the level for sampling all of them together, and every one of its k other elements can be used with sigma + log2(k). Integers can be used with every sigma. All other parameters are refused with an error. A DCF is created exactly if this holds for the security parameter of its DCF parameters.", "quantifier": "all parameter lists, all nested tuples, all security parameters, all results of the floating-point functions", "why_tests_cant": "Types nest without bound and the thresholds are real numbers; expected to be refuted for tuples in which an IntModN precedes other elements, and for DCFs.", "anchors": ["dpf/internal/value_type_helpers.cc:BitsNeeded", "dpf/int_mod_n.cc:CheckParameters", "dpf/internal/proto_validator.cc:Create", "dpf/distributed_point_function.cc:CreateIncremental", "dcf/distributed_comparison_function.cc:Create"]}
{"id": "C75", "title": "Benchmark program for hierarchical evaluation", "statement": "Given a file of bucket numbers (nonzeros) below 2^log_domain_size, the program finds for each length from 1 to log_domain_size the distinct prefixes of the nonzeros. If no levels are given, it chooses ascending hierarchy levels ending in log_domain_size so that no level is expanded to more than max_expansion_factor times the number of nonzeros points, and the choice ends. It then evaluates a key of a random point with value 1 level by level: all points of the first level, then at each level all points that extend a prefix of a nonzero, in increasing order, the same in every iteration. With only_nonzeros, it evaluates at the nonzeros and ignores the levels; without a file it expands the full domain.", "quantifier": "all flags, all input files, all random points and seeds, all numbers of iterations", "why_tests_cant": "There are 2^128 possible nonzeros and all sets of them; whether the choice of levels ends depends on rounding of logarithms for each number of nonzeros and each level. Expected to be refuted in parts.", "anchors": ["experiments/synthetic_data_benchmarks.cc:ComputePrefixes", "experiments/synthetic_data_benchmarks.cc:ComputeLevelsToEvaluate", "experiments/synthetic_data_benchmarks.cc:RunHierarchicalEvaluation", "experiments/synthetic_data_benchmarks.cc:RunBatchedSinglePointEvaluation", "experiments/synthetic_data_benchmarks.cc:main"]}
{"id": "C76", "title": "Participants on different machines that exchange bytes", "statement": "Everything keeps working when the participants run on different machines with the same AES and exchange only serialized messages. PIR: leader, helper and client each have a machine of their own; the client is created from the serialized configuration or public parameters, the requests to leader and helper and their responses travel as bytes, the client stores its request state as bytes, and it still gets the records asked for, with dense databases, cuckoo hashing and simple hashing. Keys: keys of a DPF, DCF or interval gate made by one participant and sent as bytes to two parties with objects of their own, made from parameters that mean the same, evaluate to shares of the right result. Contexts: a sequence of calls, each made by another worker who gets the evaluation context as bytes and passes it on as bytes, returns the same as the calls made one after the other on one object.", "quantifier": "all databases, queries, parameters, alpha, beta, points, seeds, machines with the same AES, sequences of calls", "why_tests_cant": "The tests run everything in one process with in-memory messages; bytes, machines and numbers of levels cannot be enumerated.", "anchors": ["/repo/pir/dense_dpf_pir_server.cc", "/repo/pir/cuckoo_hashing_sparse_dpf_pir_server.cc", "/repo/pir/simple_hashing_sparse_dpf_pir_server.cc", "/repo/pir/dpf_pir_server.cc", "/repo/pir/dense_dpf_pir_client.cc", "/repo/pir/private_information_retrieval.proto", "/repo/dpf/distributed_point_function.proto", "/repo/dpf/distributed_point_function.h", "/repo/dcf/distributed_comparison_function.h", "/repo/dcf/fss_gates/multiple_interval_containment.cc"]}
{"id": "C77", "title": "Which requests the helper answers", "statement": "A helper rejects every request that is not an encrypted helper request with INVALID_ARGUMENT; reports an error of the decrypter or of its own computation as it is; rejects decrypted bytes that cannot be parsed and one-time-pad seeds that do not have 16 bytes with INVALID_ARGUMENT; in all other cases it answers, and the answer is its own computation XORed with successive bytes of the AES-CTR stream of the seed.", "quantifier": "all requests, decrypters, codecs, own computations", "why_tests_cant": "The decrypter and the bytes are arbitrary.", "anchors": ["pir/dpf_pir_server.cc:HandleHelperRequest"]}
{"id": "C78", "title": "What a PIR server answers to keys that no client has made", "statement": "A PIR server (dense, cuckoo, simple; any role) rejects with INVALID_ARGUMENT a request that is not a plain request, has no keys, has a key that EvaluateAt would not accept, or (cuckoo, simple) has a fingerprint other than zero and that of the server's seed, and every request if all records are empty. Every other request is answered, and the answer to each key, honest or not, is the XOR of exactly the records i for which bit i % 128 of EvaluateAt(key, i / 128) is set, each continued by zeros to the length of the longest record: nothing else of the database can be learned from one answer.", "quantifier": "all databases, all requests with arbitrary key messages, all AES and SIMD configurations", "why_tests_cant": "Tests only send keys made by the client; the keys are attacker-controlled messages.", "anchors": ["pir/dense_dpf_pir_server.cc:HandlePlainRequest", "pir/cuckoo_hashing_sparse_dpf_pir_server.cc:HandlePlainRequest", "pir/simple_hashing_sparse_dpf_pir_server.cc:HandlePlainRequest", "pir/dense_dpf_pir_database.cc:InnerProductWith"]}
{"id": "C79", "title": "Sums over many clients", "statement": "Any number of clients generate keys for points with values at every hierarchy level; each of two servers gets one key of every client. If both evaluate the contexts of all their keys through the same rounds of EvaluateUntil (ascending levels; prefixes among the points that had a value in the round before) and add up the results of a round, all calls succeed and the two sums of a round add up, at each of its points x, to the sum of the values of exactly those clients whose point has the prefix x.", "quantifier": "all numbers of clients, points, values, value types, parameters, sequences of rounds, AES", "why_tests_cant": "Tests evaluate one key pair at a time; the number of clients and of rounds is unbounded and the prefixes depend on the data.", "anchors": ["dpf/distributed_point_function.h:EvaluateUntil", "dpf/distributed_point_function.h:GenerateKeysIncremental", "dpf/distributed_point_function.h:CreateEvaluationContext"]}
{"id": "C80", "title": "Finding heavy hitters", "statement": "If all values are 1, of unsigned integer types with more elements than there are clients, two servers that go through ascending levels, publish their sums at all points below the prefixes found so far and keep the points with at least t in total, find exactly the points of the last level that are prefixes of the points of at least t clients, each once, in increasing order. (Up to 2^31 - 1 clients; up to 23 bits from a level to the next, up to 62 to the first.)", "quantifier": "all clients, points, thresholds t >= 1, parameters, choices of levels, AES", "why_tests_cant": "The prefixes of a round depend on the results of all rounds before; correctness needs an invariant over rounds and clients.", "anchors": ["dpf/distributed_point_function.h:EvaluateUntil", "dpf/distributed_point_function.h:GenerateKeysIncremental"]}
{"id": "C81", "title": "Hash functions of a family are independent of each other", "statement": "The hash functions that a HashFamilyConfig with seed s and CreateHashFunctions give do not depend on each other by construction: whatever digests f(s, i, input) one asks for, there is a hash in place of SHA-256 for which function i of the configuration with seed s on input is f(s, i, input) reduced to the range, for all seeds of one length. This holds for up to ten functions and fails from eleven on (function 10 i + d on x is function i on the digit d followed by x, whatever the hash), and for seeds of different lengths already with one function (seed s0 on x is seed s on 0x). Families that treat their seeds independently (FarmHash) give independent functions in any number.", "quantifier": "all seeds, numbers of functions, inputs, ranges, and hash functions in place of SHA-256", "why_tests_cant": "Independence is a statement about all functions and inputs together; tests compare a few values of a few functions.", "anchors": ["pir/hashing/hash_family.cc:CreateHashFunctions", "pir/hashing/hash_family.h:WrapWithSeed", "pir/hashing/sha256_hash_family.cc:SHA256HashFunction", "pir/hashing/hash_family_config.cc:CreateHashFamilyFromConfig"]}
{"id": "C82", "title": "Benchmarks of DPFs, DCFs and gates measure what they say", "statement": "The benchmarks of the library complete without undefined behaviour or termination for the sizes they are registered with, and evaluate keys for the points and values they draw at the points they draw: full evaluation of one level and of hierarchies, random and uniform prefixes (as many as asked for, each one in its domain and extending one of the level before), bitwise hierarchies for heavy hitters, key generation, many keys at many points, comparison functions, and interval containment gates. False for key generation with 128 bits (undefined), for many keys (evaluation i uses key i / m, where m is the number of points for each key), and for gates (intervals are ignored, and all masked inputs are zero).", "quantifier": "all random numbers drawn, AES, value types, sizes, numbers of iterations, keys and intervals", "why_tests_cant": "Benchmarks have no assertions on their results; nothing compares what is evaluated with what was drawn.", "anchors": ["dpf/distributed_point_function_benchmark.cc:BM_EvaluateRegularDpf", "dpf/distributed_point_function_benchmark.cc:BM_EvaluateHierarchicalFull", "dpf/distributed_point_function_benchmark.cc:GenerateRandomPrefixes", "dpf/distributed_point_function_benchmark.cc:BM_KeyGeneration", "dpf/distributed_point_function_benchmark.cc:GenerateUniformPrefixes", "dpf/distributed_point_function_benchmark.cc:BM_HeavyHitters", "dpf/distributed_point_function_benchmark.cc:BM_BatchEvaluation", "dcf/distributed_comparison_function_benchmark.cc:BM_EvaluateDcf", "dcf/fss_gates/multiple_interval_containment_benchmark.cc:BM_BatchedMicEvaluation"]}
{"id": "C83", "title": "Benchmarks of PIR and of sampling measure what they say", "statement": "The benchmarks of PIR databases and servers and of IntModN sampling complete without undefined behaviour or termination for all sizes with at least one value and one byte, and compute what they are meant to measure: the XOR of the selected values (padded to the longest) for every entry of the batch; a response of the dense server which, XORed with the answer to the request that is not sent, gives the values at the drawn indices; for servers with cuckoo hashing the drawn keys and their values in one of three places, if no key is left in the stash; for servers with simple hashing the buckets of the drawn keys; five samples below the modulus for every iteration. False for values of random size if the average is smaller than the difference, as registered: the benchmark ends with an error when a size is negative. Values of zero bytes and requests without an index are measured although every round fails.", "quantifier": "all random numbers drawn, hash functions, AES, sizes, numbers of records, buckets, keys and iterations", "why_tests_cant": "Benchmarks have no assertions on the results of their rounds; failures depend on the random numbers drawn.", "anchors": ["pir/dense_dpf_pir_database_benchmark.cc:BM_InnerProductOnEqualSizeValues", "pir/dense_dpf_pir_database_benchmark.cc:BM_InnerProductOnVariableSizeValues", "pir/dense_dpf_pir_database_benchmark.cc:BM_BatchedInnerProductOnVariableSizeValues", "pir/dense_dpf_pir_server_benchmark.cc:BM_HandlePlainRequestWithEqualSizeRecords", "pir/cuckoo_hashing_sparse_dpf_pir_server_benchmark.cc:BM_HandlePlainRequest", "pir/simple_hashing_sparse_dpf_pir_server_benchmark.cc:BM_HandlePlainRequest", "dpf/int_mod_n_benchmark.cc:BM_Sample"]}
{"id": "C84", "title": "Evaluating a key as another type is an error", "statement": "EvaluateAt<S>, EvaluateAndApply<S> and DistributedComparisonFunction::Evaluate<S> on a key whose level has the type T return INVALID_ARGUMENT for every S other than T, at all points; EvaluateAndApply does not call back. True whenever S is of another form than T (integer, IntModN, XorWrapper, tuple of such forms) or has another number of elements in a block, hence for all keys of unsigned and of XOR-shared integers. False otherwise: keys of IntModN with another modulus evaluate to shares of other numbers; tuples of wider integers abort; EvaluateAndApply aborts on types that need more pseudorandom bytes; keys of another DPF are read out of bounds.", "quantifier": "all DPFs, keys, contexts, levels, pairs of types, points, shifts and callbacks", "why_tests_cant": "Types can be nested arbitrarily; tests use the type of the DPF.", "anchors": ["dpf/distributed_point_function.h:EvaluateAtImpl", "dpf/distributed_point_function.h:EvaluateAndApply", "dpf/distributed_point_function.h:GetValueCorrectionAsArray", "dpf/internal/value_type_helpers.h:ValuesToArray", "dpf/internal/value_type_helpers.h:ConvertBytesToArrayOf", "dcf/distributed_comparison_function.h:Evaluate"]}
{"id": "C85", "title": "Keys and messages are logarithmic in the domain", "statement": "A serialized DPF key has at most 26 bytes, 34 bytes for each level of the tree, and the values of its hierarchy levels; keys of comparison functions and of interval gates likewise, with 26 bytes for each interval. A request of a PIR client for q keys to 2^l buckets has at most 2q(68+34l)+64 bytes and what encryption adds; the leader's response has at most one string as long as the longest record (two with cuckoo hashing, one as long as the longest bucket with simple hashing) for each key, whatever the request holds and the helper sends.", "quantifier": "all DPFs, DCFs and gates that can be created, all points, values and random numbers; all PIR clients, databases, queries and requests", "why_tests_cant": "Tests measure single sizes; the bound is for all domains, types and databases, also those too large to run.", "anchors": ["dpf/distributed_point_function.cc:GenerateKeysIncremental", "dpf/distributed_point_function.proto", "dcf/distributed_comparison_function.cc:GenerateKeys", "dcf/fss_gates/multiple_interval_containment.cc:Gen", "pir/dpf_pir_client.h:CreateRequest", "pir/dense_dpf_pir_client.cc:CreatePlainRequests", "pir/dpf_pir_server.cc:HandleLeaderRequest"]}
{"id": "C86", "title": "Keys by value and by pointer", "statement": "EvaluateAndApply, BatchEvaluate of comparison functions and BatchEval of gates give the same status and outputs whether keys are passed as a span of keys or as a span of pointers to them, also if pointers coincide. If the number of points differs from that of the keys, no pointer is followed and INVALID_ARGUMENT is returned. A pointer to no object is undefined behaviour for comparison functions and gates whatever the other keys; EvaluateAndApply rejects the call if it meets an invalid key before. The callback of EvaluateAndApply may do anything but write to the evaluation points; BatchEvaluate with the output in the memory of the points does not give the values at the points.", "quantifier": "all DPFs, DCFs, gates, spans, keys (valid or not), points and callbacks", "why_tests_cant": "Tests of MaybeDerefSpan access two integers, tests of the functions use few keys; the claim is about every access of all three functions.", "anchors": ["dpf/internal/maybe_deref_span.h", "dpf/distributed_point_function.h:EvaluateAndApply", "dcf/distributed_comparison_function.h:BatchEvaluate", "dcf/fss_gates/multiple_interval_containment.cc:BatchEval"]}
{"id": "C87", "title": "Threads may share hash objects", "statement": "Any number of threads can call Aes128FixedKeyHash::Evaluate at the same time on the same or different objects, in any interleaving of their accesses to memory, if no output overlaps an input or output of another call: every call returns after four accesses per block, its output holds the hashes of the blocks that were in its input, spans of different sizes give INVALID_ARGUMENT and leave the output as it was, no two threads ever compete for a block, no access is outside of the spans, and keys and all other memory stay as they are. Within a call the output may be the input, begin before it, or overlap it anyhow if there are at most 64 blocks.", "quantifier": "all numbers of threads, spans, keys, contents of memory, and all interleavings", "why_tests_cant": "Interleavings are exponentially many and a test sees only those that the scheduler happens to choose (the test of the library starts 1024 threads that hash one block).", "anchors": ["dpf/aes_128_fixed_key_hash.cc:Evaluate", "dpf/aes_128_fixed_key_hash_test.cc:TestThreadSafety"]}
{"id": "C88", "title": "Failing calls leave the context as it was", "statement": "A call of EvaluateUntil, EvaluateNext or EvaluateAt with a context that returns an error leaves the context exactly as it was, so that the caller can go on with it. (False for EvaluateAt with a type other than that of the level: it stores evaluations before it notices, and EvaluateUntil then rejects the context whatever the arguments; also false for keys with value corrections that cannot be read, which no key generation returns.)", "quantifier": "all DPFs, keys, histories of calls, types, levels, prefixes and points", "why_tests_cant": "Tests of the library look at the status of failing calls only, never at the context afterwards, and failing calls after arbitrary histories are infinitely many.", "anchors": ["dpf/distributed_point_function.h:EvaluateUntil", "dpf/distributed_point_function.h:EvaluateAtImpl", "dpf/distributed_point_function.cc:ComputePartialEvaluations", "dpf/internal/proto_validator.cc:ValidateEvaluationContext"]}
{"id": "C89", "title": "What an evaluation context holds", "statement": "A new context holds the parameters, the key and no evaluations. After a successful EvaluateUntil it holds the same parameters and key, the level, and exactly one stored evaluation (index, seed and control bit of the node of the key) for each distinct block of the prefixes, none after a call without prefixes or for the last level. After a successful EvaluateAt with points it holds one for each point, at the level itself; without points it is unchanged. A serialized context exceeds that of the new context by at most 11 bytes and 52 bytes per stored evaluation.", "quantifier": "all DPFs, keys, histories of calls, levels, prefixes and points", "why_tests_cant": "Tests evaluate with a context but do not compare the stored nodes with the tree; the bound is for all numbers of prefixes.", "anchors": ["dpf/distributed_point_function.cc:ExpandAndUpdateContext", "dpf/distributed_point_function.cc:ComputePartialEvaluations", "dpf/distributed_point_function.h:EvaluateAtImpl", "dpf/distributed_point_function.proto:EvaluationContext"]}
{"id": "C90", "title": "Hash values are uniform up to rounding and independent", "statement": "If the answers of SHA-256 to different messages are independent and uniform strings of 32 bytes, then the value that a hash function of the library returns for an input and a bound n is each of 0..n-1 with probability 2^-256 times floor or ceil of 2^256/n, and the values of the (at most ten) hash functions of one configuration on different queries are independent. The same with 2^128 for FarmHash and one value.", "quantifier": "all seeds, inputs, bounds below 2^31, values, and families of different queries to the functions of a configuration", "why_tests_cant": "Tests compare a few hashes with constants; a bias of the reduction or a dependence between functions of a family is a statement about all 2^256 answers.", "anchors": ["pir/hashing/sha256_hash_family.cc:operator()", "pir/hashing/farm_hash_family.cc:operator()", "pir/hashing/hash_family.cc:CreateHashFunctions", "pir/hashing/hash_family_config.cc:CreateHashFamilyFromConfig"]}
{"id": "C91", "title": "Failures of the environment are reported and never give wrong results", "statement": "Whichever calls that set up or apply ciphers or allocate aligned memory fail: a call of the library (creating a DPF, DCF or gate, GenerateKeysIncremental, EvaluateAt, EvaluateUntil, EvaluateNext, EvaluateAndApply, DCF GenerateKeys, Evaluate and BatchEvaluate, gate Gen and BatchEval) in which one fails returns INTERNAL or RESOURCE_EXHAUSTED, and one in which none fails has the same result as on a machine without failures. The callback of EvaluateAndApply has then been called for the first levels only. After any sequence of calls, of which any have failed in this way, successful calls with the context return the values of the key, and a call that failed in this way can be repeated.", "quantifier": "all DPFs, keys, arguments, machines, histories of calls, and all patterns of failing calls", "why_tests_cant": "No test makes an allocation or a cipher fail; the number of patterns of failures is exponential in the number of calls.", "anchors": ["dpf/aes_128_fixed_key_hash.cc:Evaluate", "dpf/internal/evaluate_prg_hwy.cc:EvaluateSeeds", "dpf/distributed_point_function.cc:ExpandSeeds", "dpf/distributed_point_function.cc:ComputePartialEvaluations", "dpf/distributed_point_function.cc:ExpandAndUpdateContext", "dpf/distributed_point_function.h:EvaluateUntil", "dpf/distributed_point_function.h:EvaluateAndApply", "dcf/fss_gates/multiple_interval_containment.cc:BatchEval", "dpf/aes_128_fixed_key_hash.cc:Create", "dpf/distributed_point_function.cc:CreateIncremental"]}
{"id": "C92", "title": "PIR on failing machines: the right records or an error", "statement": "Whichever calls that set up or apply ciphers or allocate aligned memory fail on the machines of client, leader and helper: creating a server or client, making or answering a request and handling a response, in which such a call fails, returns INTERNAL or RESOURCE_EXHAUSTED (for a leader also the error that its sender returned), and has the result of a machine without failures if none fails. Hence a run of the protocol that gives the client certain answers on machines without failures gives these or one of the two errors, never a wrong answer; for dense databases, cuckoo hashing and simple hashing.", "quantifier": "all databases, servers, clients, requests, responses, senders, and all patterns of failing calls in every step", "why_tests_cant": "No test makes an allocation or a cipher fail, and the leader combines its result with the helper's.", "anchors": ["pir/internal/inner_product_hwy.cc:InnerProductHwy", "pir/prng/aes_128_ctr_seeded_prng.cc:CreateWithNonce", "pir/dpf_pir_server.cc:HandleLeaderRequest", "pir/dpf_pir_server.cc:HandleHelperRequest", "pir/dense_dpf_pir_server.cc:HandlePlainRequest", "pir/dense_dpf_pir_client.cc:CreatePlainRequests", "pir/cuckoo_hashing_sparse_dpf_pir_client.cc:HandleResponse", "pir/simple_hashing_sparse_dpf_pir_client.cc:HandleResponse"]}
{"id": "C93", "title": "Benchmark program for hierarchical evaluation reads its input", "statement": "The program takes from every line of the file the number in the first column, written with decimal digits, possibly with a plus sign and white space around, ignores all other columns, and collects each number once. It is terminated if the first column of a line is not a number below 2^128, if reading fails, or if a level given as a flag is not an integer. It never has undefined behaviour on account of its input texts. (False of columns: if the first column is blank, the next that is not is taken; a file with the line ',5' is read as the number 5.)", "quantifier": "all files, lines and texts of flags", "why_tests_cant": "The program has no tests; files, columns and texts are unbounded.", "anchors": ["experiments/synthetic_data_benchmarks.cc:ReadUniqueValuesFromFile", "experiments/synthetic_data_benchmarks.cc:ValidateFlags", "experiments/synthetic_data_benchmarks.cc:main"]}
{"id": "C94", "title": "The security check in double precision", "statement": "If the library's logarithms are accurate to 2^-44 and its conversions of 128-bit integers to 2^-50 of the number, GetSecurityLevel is within 2^-40 of 131 - log2(n (n+1) N), where n (n+1) N / 2^131 is the bound on the distance from uniform. CheckParameters and GetNumBytesRequired accept every security parameter up to that level less 2^-40 and reject every one above it plus 2^-40; whatever security parameter sigma is accepted, residues sampled, elements of tuples of equal IntModN and the gap of a level of keys are within 2^-(sigma - 2^-40) of uniform. The benchmark of sampling never aborts. Logarithms that are rounded up are exact up to 2^40 and from 0 to 64 for all positive 64-bit integers, so private information retrieval works with such a library. (False without the slack: for N = 2^127 + 1 and one sample 3 is accepted, but the bound is above 2^-3; and 2^52 + 1 has logarithm 52.) The rounding used throughout is that of IEEE 754: the nearest number with a 53-bit significand, the one with an even significand in case of a tie.", "quantifier": "all moduli but 0, all numbers of samples below 2^31 - 1, all security parameters, all implementations of log2 and of the conversion of the given accuracy", "why_tests_cant": "Rounding depends on the modulus and the library; tests compare a few levels with a tolerance.", "anchors": ["dpf/int_mod_n.cc:GetSecurityLevel", "dpf/int_mod_n.cc:CheckParameters", "dpf/int_mod_n.cc:GetNumBytesRequired", "dpf/int_mod_n_benchmark.cc:BM_Sample", "dpf/internal/proto_validator.cc:Create"]}
{"id": "C95", "title": "Order of fields and unknown fields", "statement": "A serialized DPF key, parameter, evaluation context, DCF key, gate key, gate parameter or message to the helper, and every message inside them without a oneof, is read as the same message when its fields are written in another order, with the records of each field in their order, and when there are further fields that are not in the .proto files. Messages with a oneof (values, value types, PIR requests, responses, configurations, public parameters and client states) are read as the same message when there are further fields; of several alternatives the last one counts.", "quantifier": "all messages in range, nesting limits, orders of records and unknown records", "why_tests_cant": "Unbounded messages and orders; tests only parse what the same library has just written, or do not serialize at all.", "anchors": ["dpf/distributed_point_function.proto:DpfKey", "dpf/distributed_point_function.proto:EvaluationContext", "dcf/fss_gates/multiple_interval_containment.proto:MicKey", "pir/private_information_retrieval.proto:DpfPirRequest", "pir/dpf_pir_server.cc:HandleHelperRequest"]}
{"id": "C96", "title": "The leader learns nothing from the length of the message to the helper", "statement": "The message of a PIR client to the helper, which the leader gets encrypted, is the request to the leader with other root seeds and party 1, and a random seed for the one-time pad, for dense databases, cuckoo hashing and simple hashing. So its length, which encryption does not hide and which varies with the keys, tells the leader nothing about the queries: over uniform blocks in place of those that the helper computes from its root seeds, the request to the leader and the length of the message to the helper together have the same distribution for all lists of indices of the same length. The same holds for everything the leader sees, including the response of the helper, over a uniform pad, whatever the helper computes, as long as the lengths of its products do not depend on the indices.", "quantifier": "all parameters, databases, queries, seeds, pads and machines", "why_tests_cant": "A statement on distributions; tests look at single requests, and never at lengths.", "anchors": ["pir/dpf_pir_client.h:CreateRequest", "pir/dense_dpf_pir_client.cc:CreatePlainRequests", "pir/cuckoo_hashing_sparse_dpf_pir_client.cc:CreatePlainRequests", "pir/simple_hashing_sparse_dpf_pir_client.cc:CreatePlainRequests"]}
{"id": "C97", "title": "How much is computed does not depend on secrets", "statement": "The number of calls of the cipher and of the allocator that an operation makes when it succeeds is given by a formula in public sizes only. Generating keys takes two calls of the cipher for each level of the tree and one for each 64 blocks of the values of each level of the hierarchy (also for comparison functions, whose tree is one level less deep than the domain has bits). Evaluating the whole domain takes two calls for each 64 seeds of each level of the tree and one for each 64 blocks of the leaves, and four allocations, so it is linear in the number of leaves. Evaluating points takes, on a machine without vector instructions, two calls for each 64 points at each level of the tree; with vectors, the setup of two keys, and a buffer if the last vector is incomplete; and one call for each 64 blocks of the leaves. Evaluating below prefixes takes the calls of the walk from the seeds that the context has stored, or from the root, to the nodes in which the prefixes lie, and from there as for the whole domain; it depends on how many different nodes these are; points evaluated with a context are walked to from the stored seeds. So the number of calls does not depend on the point, the values or the seeds when keys are generated, nor on the key or the points when it is evaluated. PIR clients make calls for the keys of a request by the number of keys and of buckets, and one for each response. Servers in each role evaluate each key on the whole domain and, on machines with vectors, allocate one buffer for each key and each column of the database; a helper makes one more call, for the masks. So neither depends on which records are asked for, on what the database contains, or on whether a query is found. Keys of gates on n bits take 3n-2 calls, whatever the masks and the intervals. Evaluating many keys at once, each at its own point and at all levels, takes the calls of the walk between levels and of the blocks of each level, given by the number of keys; so do evaluating comparison functions, and gates, with two comparison functions for each interval and key. Creating a point function, comparison function or gate takes six calls.", "quantifier": "all accepted parameters, keys, points, values, seeds and ciphers; for points, prefixes and many keys: at least one, on machines that never use vectors, or always vectors of one size", "why_tests_cant": "Tests check results and not how often the cipher is called; that a number is the same for all secrets cannot be seen from samples.", "anchors": ["dpf/aes_128_fixed_key_hash.cc:Evaluate", "dpf/distributed_point_function.cc:GenerateNext", "dpf/distributed_point_function.cc:ExpandSeeds", "dpf/distributed_point_function.cc:HashExpandedSeeds", "dpf/internal/evaluate_prg_hwy.cc:EvaluateSeedsNoHwy", "dcf/distributed_comparison_function.cc:GenerateKeys", "dcf/fss_gates/multiple_interval_containment.cc:Gen", "pir/internal/inner_product_hwy.cc:InnerProductHwy", "pir/dense_dpf_pir_client.cc:CreatePlainRequests", "pir/dpf_pir_server.cc:HandleRequest", "dpf/distributed_point_function.h:EvaluateAndApply", "dcf/distributed_comparison_function.h:BatchEvaluate", "dcf/fss_gates/multiple_interval_containment.cc:BatchEval", "dpf/aes_128_fixed_key_hash.cc:Create"]}
