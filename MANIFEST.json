{"claims": [
 {"property": "C01", "status": "partial", "theorems": ["Verif.C01_point_function_partial", "Verif.C01_aborts", "Verif.C01_refuted"], "note": "Proved for every DPF whose reserved bytes suffice for its types (all types without tuples nested in tuples, all types without IntModN). For every other DPF with registered types the claim is false: key generation aborts for all inputs (C01_aborts; C01_refuted exhibits such a DPF)."},
 {"property": "C02", "status": "proved", "theorems": ["Verif.C02_full_domain", "Verif.C02_next"], "note": "For every key accepted by CreateEvaluationContext."},
 {"property": "C03", "status": "partial", "theorems": ["Verif.C03_incremental_partial", "Verif.C03_refuted"], "note": "Proved for calls where the number of blocks below a prefix fits an int, or all prefixes share a block. Otherwise the claim is false of the code (C03_refuted)."},
 {"property": "C04", "status": "partial", "theorems": ["Verif.C04_history_independent_partial"], "note": "Same restriction as C03."},
 {"property": "C05", "status": "partial", "theorems": ["Verif.C05_prefix_order_partial", "Verif.C05_subset_accepted_partial"], "note": "Same restriction as C03."},
 {"property": "C06", "status": "proved", "theorems": ["Verif.C06_rejects"], "note": ""},
 {"property": "C07", "status": "partial", "theorems": ["Verif.C07_accepts_partial", "Verif.C07_rejects_partial", "Verif.C07_rejects_unpacked", "Verif.C07_refuted", "Verif.C07_accepts_block_partial", "Verif.C07_exact_partial"], "note": "Acceptance proved; rejection proved at block granularity, and exactly if elements are not packed. For packed elements exact rejection is false of the code (C07_refuted). C07_exact_partial says exactly which prefixes are accepted, packed or not (within the restriction of C03)."},
 {"property": "C08", "status": "proved", "theorems": ["Verif.C08_context_agrees", "Verif.C08_accepts"], "note": "That the context stays usable: History includes evalAt steps, so all history theorems hold after them."},
 {"property": "C09", "status": "proved", "theorems": ["Verif.C09_rejects", "Verif.C09_empty", "Verif.C09_safe", "Verif.C69_evaluateAt_exact"], "note": ""},
 {"property": "C10", "status": "partial", "theorems": ["Verif.C10_apply_partial", "Verif.C10_keys", "Verif.C10_tooMany", "Verif.C10_wrapped", "Verif.C10_shift", "Verif.C10_refuted"], "note": "EvaluateAndApply runs the callback, per key and level, on exactly the value that EvaluateAt gives on the point's prefix, for all well-formed keys, as long as the number of correction words of a step fits an int. False beyond: the product wraps (C10_tooMany: INVALID_ARGUMENT; C10_wrapped and C10_refuted: with 2^32+1 keys all keys are evaluated with the correction words of the first)."},
 {"property": "C11", "status": "partial", "theorems": ["Verif.C11_rejects_partial", "Verif.C11_reduced", "Verif.C11_refuted", "Verif.C11_dcf_refuted"], "note": "Wrong numbers of points and malformed keys are rejected. EvaluateAndApply and DCF Evaluate do not check points (C11_refuted, C11_dcf_refuted) and EvaluateAndApply ignores the bits above the domain (C11_reduced)."},
 {"property": "C12", "status": "proved", "theorems": ["Verif.C12_evaluateSeeds_shared", "Verif.C12_evaluateSeeds_perSeed", "Verif.C12_evaluateSeeds_rejects", "Verif.C12_dpf_evaluateSeeds", "Verif.C12_dpf_evaluateSeeds_rejects"], "note": ""},
 {"property": "C13", "status": "proved", "theorems": ["Verif.C13_evaluateSeedsHwy", "Verif.C13_evaluateSeeds", "Verif.C13_walk", "Verif.C13_walk_perSeed"], "note": "For every vector width, number of seeds and levels, both correction word modes, any non-negative right shift, in place or not. Highway operations are modelled by their documented meaning on lists of blocks and 64-bit lanes; hypothesis HwyOk (HwyTarget in Env) says that the AES round instructions compute the library's AES and that a vector has at most HWY_MAX_BYTES bytes. Failing allocations and the HWY_SCALAR target (which does not compile) are not modelled."},
 {"property": "C14", "status": "partial", "theorems": ["Verif.C14_expandSeeds_partial", "Verif.C14_refuted"], "note": "Proved whenever the number of leaves k*2^n fits 64 bits. Otherwise the size of the output buffers wraps and the code writes outside them (C14_refuted)."},
 {"property": "C15", "status": "proved", "theorems": ["Verif.C15_hash_pointwise", "Verif.C15_hash_rejects", "Verif.C15_sigma_halves", "Verif.C15_sigma_permutation"], "note": ""},
 {"property": "C16", "status": "proved", "theorems": ["Verif.C16_rejects", "Verif.C16_levels", "Verif.C16_accepts", "Verif.C16_accepts_bits", "Verif.C16_default_security", "Verif.C16_overflow", "Verif.C16_accepts_refuted", "Verif.C69_depth"], "note": "Lists with types of more than 2^28-16 bytes make int arithmetic overflow (C16_overflow, example C16_accepts_refuted)."},
 {"property": "C17", "status": "proved", "theorems": ["Verif.C17_keys_accepted"], "note": "For DPFs whose reserved bytes suffice (else key generation does not return keys)."},
 {"property": "C18", "status": "proved", "theorems": ["Verif.C18_keys_differ_only_in_seed", "Verif.C18_shape_independent"], "note": ""},
 {"property": "C19", "status": "partial", "theorems": ["Verif.C19_rejects", "Verif.C19_registered", "Verif.C19_unregistered_partial", "Verif.C19_unset_integer_refuted", "Verif.C19_exact"], "note": "Exact except for messages with an unset 128-bit integer, which validate but hold no value; there the claim as stated is false. C19_exact: when exactly keys are returned, for every object whatever its types and registrations."},
 {"property": "C20", "status": "proved", "theorems": ["Verif.C20_roundtrip", "Verif.C20_encoded_validates", "Verif.C20_description_valid", "Verif.C20_encoded_represents", "Verif.C20_descriptions_differ"], "note": ""},
 {"property": "C21", "status": "partial", "theorems": ["Verif.C21_fromValue_accepts", "Verif.C21_fromValue_partial", "Verif.C21_fromValue_outcomes", "Verif.C21_refuted", "Verif.C21_exact"], "note": "False of the code for 128-bit messages decoded as types of at most 64 bits: Uint128To looks at the low 64 bits only (C21_refuted). Proved for all messages without such an integer. C21_exact says what decoding does for every message."},
 {"property": "C22", "status": "proved", "theorems": ["Verif.C22_compare", "Verif.C22_equivalence", "Verif.C22_unset"], "note": ""},
 {"property": "C23", "status": "proved", "theorems": ["Verif.C23_arithmetic", "Verif.C23_construct"], "note": ""},
 {"property": "C24", "status": "proved", "theorems": ["Verif.C24_sample", "Verif.C24_reads_prefix", "Verif.C24_rejects", "Verif.C24_overflow"], "note": "Beyond 2^31 - 1 required bytes the computation of the length overflows (C24_overflow)."},
 {"property": "C25", "status": "proved", "theorems": ["Verif.C25_group", "Verif.C25_sum"], "note": ""},
 {"property": "C26", "status": "partial", "theorems": ["Verif.C26_bytes_suffice_partial", "Verif.C26_exact", "Verif.C26_refuted"], "note": "False of the code for nested tuples mixing IntModN and tuples (C26_refuted). Proved for tuples of leaves and for all types without IntModN. C26_exact: for every type the exact number of bytes below which the conversion aborts and from which on it succeeds."},
 {"property": "C27", "status": "partial", "theorems": ["Verif.C27_comparison_partial", "Verif.C27_typed_partial", "Verif.C27_refuted", "Verif.C27_exact", "Verif.C27_exact_comparison"], "note": "Proved for every output type without XorWrapper whose bytes suffice (C26) and log_domain_size <= 128. False of the code for XorWrapper (C27_refuted: SetToZero ignores it); C27_exact says for all types what the shares add up to."},
 {"property": "C28", "status": "partial", "theorems": ["Verif.C28_batch_partial", "Verif.C28_output", "Verif.C28_sizes", "Verif.C28_many", "Verif.C28_refuted"], "note": "For all keys, malformed ones included, and all points, if there are fewer than 2^31 keys. C28_many says what happens otherwise: the number of keys is converted to int and the call throws or is rejected."},
 {"property": "C29", "status": "partial", "theorems": ["Verif.C29_create_partial", "Verif.C29_create_refuted", "Verif.C29_generateKeys_partial", "Verif.C29_beta_refuted", "Verif.C29_accepts", "Verif.C29_generateKeys_exact"], "note": "False of the code for log_domain_size = 129 (C29_create_refuted) and for beta out of range with alpha = 0 (C29_beta_refuted); all other cases proved; C29_generateKeys_exact says exactly which arguments of GenerateKeys are accepted."},
 {"property": "C30", "status": "partial", "theorems": ["Verif.C30_containment_partial", "Verif.C30_refuted"], "note": "Proved for bounds given as 128-bit numbers; bounds given as value_uint64 are read as 0, refuted with a witness. The hypothesis that there are fewer than 2^31 intervals holds of every message in memory."},
 {"property": "C31", "status": "partial", "theorems": ["Verif.C31_create_partial", "Verif.C31_create_refuted", "Verif.C31_gen", "Verif.C31_eval_partial", "Verif.C31_batch_partial", "Verif.C31_many", "Verif.C31_batch_refuted", "Verif.C31_masks_refuted", "Verif.C31_accepts"], "note": "Masks, inputs, sizes and batching proved; creation checks proved for bounds given as 128-bit numbers (64-bit ones are read as 0). Keys with too few mask shares are undefined behaviour, and so are batches for which the number of keys or of outputs does not fit an int (C31_many is exact)."},
 {"property": "C32", "status": "partial", "theorems": ["Verif.C32_inner_product_partial", "Verif.C32_rejects", "Verif.C32_refuted", "Verif.C32_scalar_refuted", "Verif.C32_many_refuted"], "note": "Proved for selections of at most 2^24 blocks and fewer than 2^31 records; beyond either bound the claim is false of the code (the refuted theorems)."},
 {"property": "C33", "status": "partial", "theorems": ["Verif.C33_record", "Verif.C33_inner_product_partial", "Verif.C33_few_halvings_refuted", "Verif.C33_unaligned"], "note": "Vectorised and scalar code agree for every lane width and all addresses of records, given that the library's smallest vector fraction reaches one byte and kHwyAlignment and the buffers are aligned for vectors; with too small a HWY_MIN_POW2 the claim is false (C33_few_halvings_refuted). C33_unaligned: without the check of the address the loads would be undefined. Same range restriction on the number of selection blocks as C32."},
 {"property": "C34", "status": "partial", "theorems": ["Verif.C34_dense_partial", "Verif.C34_empty_refuted", "Verif.C34_large_refuted"], "note": "Proved for databases with a non-empty record and up to 2^24 records (2^30 with vectors). False for databases of empty records only and for more than 2^30 records."},
 {"property": "C35", "status": "partial", "theorems": ["Verif.C35_client_partial", "Verif.C35_refuted", "Verif.C35_server"], "note": "Proved for fewer than 2^31 records; false for larger ones, as the size is converted to int."},
 {"property": "C36", "status": "partial", "theorems": ["Verif.C36_end_to_end_partial"], "note": "For the databases of C34. Serialisation is a parameter assumed to round-trip on the messages clients send to the helper, which the protobuf format does for up to 2^19 queries (C70_helper_message); encryption is assumed to round-trip."},
 {"property": "C37", "status": "proved", "theorems": ["Verif.C37_response", "Verif.C37_errors", "Verif.C37_malformed"], "note": ""},
 {"property": "C38", "status": "proved", "theorems": ["Verif.C38_stream", "Verif.C38_chunking", "Verif.C38_create", "Verif.C38_neighbouring_nonces"], "note": "AES is an arbitrary function of key, counter and byte position. C38_neighbouring_nonces: streams of neighbouring nonces overlap."},
 {"property": "C39", "status": "proved", "theorems": ["Verif.C39_programs", "Verif.C39_built", "Verif.C39_cuckoo_programs", "Verif.C39_simple_programs"], "note": "Any program over any number of cloned builders. Also for builders of cuckoo-hashed and simple-hashed databases: every Build equals that of a new builder with the last parameters and the records since the last Clear."},
 {"property": "C40", "status": "proved", "theorems": ["Verif.C40_contents", "Verif.C40_placement"], "note": "At most one element per bucket is built into the type of the table, as in the code (std::vector<std::optional<std::string>>)."},
 {"property": "C41", "status": "partial", "theorems": ["Verif.C41_failed_insert_partial", "Verif.C41_refuted"], "note": "False of the code: the element that is lost can be one inserted earlier. Proved: exactly one element is lost, and the stash was full and is unchanged."},
 {"property": "C42", "status": "partial", "theorems": ["Verif.C42_insert", "Verif.C42_contents", "Verif.C42_maximum_partial", "Verif.C42_bound", "Verif.C42_refuted"], "note": "The bound on the bucket size is false of the code if two hash functions give the same bucket (both are checked before both are filled). Proved: the bound for distinct buckets, and a bound of maximum + number of hash functions - 1 in general; everything else is proved in full."},
 {"property": "C43", "status": "proved", "theorems": ["Verif.C43_insert", "Verif.C43_firstMin", "Verif.C43_contents"], "note": ""},
 {"property": "C44", "status": "proved", "theorems": ["Verif.C44_sha256", "Verif.C44_config", "Verif.C44_farm"], "note": "SHA-256 itself and FarmHash are parameters."},
 {"property": "C45", "status": "partial", "theorems": ["Verif.C45_builds", "Verif.C45_buckets", "Verif.C45_stored_partial", "Verif.C45_refuted"], "note": "Every inserted key is stored if the stash of the table is empty at the end. False in general: Build never checks the stash (C45_refuted)."},
 {"property": "C46", "status": "partial", "theorems": ["Verif.C46_answers", "Verif.C46_end_to_end_partial", "Verif.C46_longer_refuted", "Verif.C46_zeros_refuted", "Verif.C46_empty_refuted", "Verif.C46_no_value_refuted"], "note": "C46_answers characterises the answers for all queries. The property itself holds for queries that are not longer than the longest key and differ from other keys (and the empty key) by more than trailing zero bytes, and databases with a non-empty value; it is false otherwise (refuted theorems). Serialisation as in C36."},
 {"property": "C47", "status": "partial", "theorems": ["Verif.C47_answers", "Verif.C47_end_to_end_partial", "Verif.C47_no_records_refuted"], "note": "Holds for all databases with a record; a database without records is built, but its servers answer no request (C47_no_records_refuted). Serialisation as in C36."},
 {"property": "C48", "status": "partial", "theorems": ["Verif.C48_real", "Verif.C48_uniform", "Verif.C48_hides", "Verif.C48_hides_bits_partial", "Verif.C48_refuted"], "note": "C48_real: the generated keys are the experiment at the other party's blocks. C48_hides_bits_partial: for value types without IntModN, for any two inputs an exact bijection of the other party's pseudorandom blocks gives the same key. With uniform bits the claim is false for IntModN (C48_refuted: 128-bit blocks are not uniform mod 3); for all types C48_uniform/C48_hides hold when the elements are uniform in the group."},
 {"property": "C49", "status": "partial", "theorems": ["Verif.C49_create", "Verif.C49_create_refuted", "Verif.C49_keygen", "Verif.C49_evaluateAt", "Verif.C49_evaluateAtCtx", "Verif.C49_evaluateUntil_partial", "Verif.C49_evaluateNext_partial", "Verif.C49_evaluateUntil_refuted", "Verif.C49_expansion_refuted", "Verif.C49_apply_partial"], "note": "No UB and no abort in creation (except for empty tuples, C49_create_refuted, and types of 2^23 or more integers, for some of which int overflows, C16_accepts_refuted), key generation, EvaluateAt, EvaluateAndApply (unless the right shift is so large that an int overflows, C10_shift), and EvaluateUntil/EvaluateNext on contexts with any history if the number of blocks below a prefix fits an int, or the number of blocks fits 64 bits and all prefixes share a block; without that the code reads out of bounds (C49_evaluateUntil_refuted) or writes to a buffer whose size wrapped to zero (C49_expansion_refuted)."},
 {"property": "C50", "status": "partial", "theorems": ["Verif.C50_evaluateUntil_partial", "Verif.C50_evaluateAt_partial", "Verif.C50_refuted", "Verif.C50_evaluateAt_refuted"], "note": "False of the code: partial_evaluations_level is never checked (C50_refuted: out-of-bounds read), and EvaluateAt does not validate the context at all (C50_evaluateAt_refuted). Proved: with partial_evaluations_level in range every context, however malformed, gives a defined result. Contexts of another DPF are rejected by EvaluateUntil: C06_rejects."},
 {"property": "C51", "status": "proved", "theorems": ["Verif.C51_elements"], "note": ""},
 {"property": "C52", "status": "proved", "theorems": ["Verif.C52_server", "Verif.C52_roles", "Verif.C52_client"], "note": "The logarithm of a positive 64-bit number, rounded up, is assumed to be from 0 to 64 (Plausible); C94_plausible proves this for accurate logarithms."},
 {"property": "C53", "status": "proved", "theorems": ["Verif.C53_cuckoo", "Verif.C53_buckets"], "note": ""},
 {"property": "C54", "status": "partial", "theorems": ["Verif.C54_dense", "Verif.C54_cuckoo", "Verif.C54_simple_partial", "Verif.C54_simple_exact", "Verif.C54_simple_refuted"], "note": "Proved for dense and cuckoo clients; the simple-hashing client reads out of bounds if a bucket has fewer values than keys (C54_simple_refuted). C54_simple_exact says for every response which answers it gives and when exactly it reads out of bounds."},
 {"property": "C55", "status": "partial", "theorems": ["Verif.C55_cuckoo_server", "Verif.C55_simple_server", "Verif.C55_roles", "Verif.C55_cuckoo_client", "Verif.C55_simple_client", "Verif.C55_simple_params", "Verif.C55_cuckoo_params_partial", "Verif.C55_cuckoo_params_refuted"], "note": "Proved except for what is false: for more than 6148914691236516352 elements, the number of buckets for cuckoo hashing does not fit into 64 bits, and its conversion is undefined (C55_cuckoo_params_refuted). The logarithm of a positive 64-bit number, rounded up, is assumed to be from 0 to 64 (Plausible); C94_plausible proves this for accurate logarithms."},
 {"property": "C56", "status": "proved", "theorems": ["Verif.C56_cuckoo", "Verif.C56_simple"], "note": ""},
 {"property": "C57", "status": "partial", "theorems": ["Verif.C57_close_partial", "Verif.C57_level_partial", "Verif.C57_refuted"], "note": "Bound n(n+1)N/2^131 = 2^-GetSecurityLevel proved for base integers below 128 bits and for one sample; refuted for two samples with a 128-bit base integer (distance at least 1/8), because the code ORs fresh bytes into what is left of the state."},
 {"property": "C58", "status": "partial", "theorems": ["Verif.C58_close", "Verif.C58_exact", "Verif.C58_level_partial", "Verif.C58_refuted"], "note": "Exactly uniform without IntModN; in general within (1*N1+2*N2+...)/2^130 for every type. This is the documented bound for tuples of equal IntModN; refuted for Tuple<IntModN<uint8_t,171>, uint128>, accepted with security parameter 40 at distance at least 1/16."},
 {"property": "C59", "status": "proved", "theorems": ["Verif.C59_variadic", "Verif.C59_span", "Verif.C59_templates_reject", "Verif.C59_integers", "Verif.C59_integers_other", "Verif.C59_single_level"], "note": "Value types whose reserved bytes suffice, as in the statement (C26)."},
 {"property": "C60", "status": "partial", "theorems": ["Verif.C60_create_server", "Verif.C60_create_client", "Verif.C60_dense_partial", "Verif.C60_cuckoo_partial", "Verif.C60_simple_partial", "Verif.C60_scalar_refuted", "Verif.C60_dense_client", "Verif.C60_cuckoo_client_partial", "Verif.C60_cuckoo_client_refuted", "Verif.C60_simple_client_partial", "Verif.C60_simple_client_refuted"], "note": "Creation, all servers in all roles and all clients are proved safe on arbitrary input, except where the claim is false of the code: without vectors a database of more than 2^24 and at most 2^30 records makes every client request undefined behaviour (C60_scalar_refuted), and sparse clients whose number of buckets is a multiple of 2^32 compute a remainder modulo zero (C60_cuckoo_client_refuted, C60_simple_client_refuted)."},
 {"property": "C61", "status": "partial", "theorems": ["Verif.C61_dcf_create", "Verif.C61_dcf_keygen_partial", "Verif.C61_dcf_typed_partial", "Verif.C61_dcf_evaluate", "Verif.C61_dcf_batch_partial", "Verif.C61_dcf_into_partial", "Verif.C61_mic_create", "Verif.C61_mic_gen", "Verif.C61_mic_eval_partial", "Verif.C61_mic_eval_refuted"], "note": "Proved except where the claim is false of the code: comparison functions on 2^129 points (C29_create_refuted), empty tuples or huge types (C49_create_refuted, C16_accepts_refuted), batches too large for an int (C28_refuted, C31_batch_refuted) and gate keys with fewer mask shares than intervals, for which every evaluation that would otherwise succeed reads out of range (C61_mic_eval_refuted)."},
 {"property": "C62", "status": "partial", "theorems": ["Verif.C62_dcf_real", "Verif.C62_dcf_hides", "Verif.C62_dcf_hides_bits_partial", "Verif.C62_dcf_refuted", "Verif.C62_gate_real", "Verif.C62_gate_hides", "Verif.C62_dense_real", "Verif.C62_cuckoo_real", "Verif.C62_simple_real", "Verif.C62_request_hides", "Verif.C62_mask_real", "Verif.C62_mask_hides"], "note": "Proved with uniform bits for gates, PIR requests, masks, and comparison functions without IntModN; with IntModN the claim is false for uniform bits (C62_dcf_refuted: keys for alpha 0 and 1 differ in distribution), and holds for uniform elements (C62_dcf_hides). Uniformity of blocks is the idealisation of AES; the encryption of the helper's request is a parameter."},
 {"property": "C63", "status": "partial", "theorems": ["Verif.C63_simulated", "Verif.C63_close", "Verif.C63_dcf_close", "Verif.C63_level_partial", "Verif.C63_refuted"], "note": "The bound in terms of the numbers of values is proved for all types. The bound 2^-security_parameter is proved for tuples of equal IntModN (and trivially without IntModN); for tuples of IntModN and other integers it is false: with security parameter 40, keys of Tuple<IntModN<uint8_t,171>,uint128> for two betas are told apart with advantage more than 1/4 (C63_refuted). C63_level_partial takes the rounding of GetSecurityLevel as a hypothesis, which C94_elements_partial discharges for accurate logarithms."},
 {"property": "C64", "status": "partial", "theorems": ["Verif.C64_cuckoo", "Verif.C64_cuckoo_huge", "Verif.C64_simple", "Verif.C64_simple_huge", "Verif.C64_simple_refuted"], "note": "Proved for fewer than 2^31 buckets (the only ones a hash table can have) and fewer than 2^31 records. With 2^31 or more buckets cuckoo hashing gives INVALID_ARGUMENT or INTERNAL; simple hashing reduces the number modulo 2^32 and builds a database with fewer buckets than requested, so the claim is refuted there."},
 {"property": "C65", "status": "partial", "theorems": ["Verif.C65_rng_partial", "Verif.C65_rng_refuted", "Verif.C65_mic_partial", "Verif.C65_mic_success", "Verif.C65_dpf_refuted", "Verif.C65_mic_refuted", "Verif.C65_seed_refuted"], "note": "BasicRng and the masks of gates report failures that RAND_bytes reports by 0; a failure reported by -1 is taken for success (C65_rng_refuted; BoringSSL never returns it). The seeds of DPF keys (hence of DCF and gate keys) and GenerateSeed do not: the result of RAND_bytes is ignored, and keys or an all-zero seed are returned (C65_dpf_refuted, C65_mic_refuted, C65_seed_refuted)."},
 {"property": "C66", "status": "proved", "theorems": ["Verif.C66_same", "Verif.C66_differs"], "note": "SameParameters (Spec/Evaluation.lean) spells out when parameters agree; security parameters are rationals, subtraction is exact."},
 {"property": "C67", "status": "partial", "theorems": ["Verif.C67_bytes_required_partial", "Verif.C67_refuted", "Verif.C24_rejects"], "note": "Exact for all inputs whose result fits an int and with less than 2^31 - 1 samples; beyond, int sums overflow (C67_refuted)."},
 {"property": "C68", "status": "partial", "theorems": ["Verif.C68_dpf", "Verif.C68_apply", "Verif.C68_point_function_partial", "Verif.C68_dcf", "Verif.C68_mic", "Verif.C68_clients", "Verif.C68_dense_partial", "Verif.C68_cuckoo_partial", "Verif.C68_simple_partial", "Verif.C60_scalar_refuted"], "note": "False for servers with more than 2^24 and at most 2^30 records on a machine without vectors, where the inner product overflows (C60_scalar_refuted). EvaluateAndApply for right shifts that are not negative. C68_point_function_partial has the hypothesis of C01 that the reserved bytes suffice."},
 {"property": "C69", "status": "proved", "theorems": ["Verif.C69_depth", "Verif.C69_accepted", "Verif.C69_evaluateAt", "Verif.C69_generateKeys", "Verif.C69_party", "Verif.C69_evaluateAt_exact"], "note": "For DPFs whose reserved bytes suffice (C26) and value corrections that decode (C21). AES is a parameter."},
 {"property": "C70", "status": "proved", "theorems": ["Verif.C70_value", "Verif.C70_type", "Verif.C70_type_injective", "Verif.C70_key", "Verif.C70_parameters", "Verif.C70_context", "Verif.C70_dcfKey", "Verif.C70_micKey", "Verif.C70_micParameters", "Verif.C70_request", "Verif.C70_response", "Verif.C70_config", "Verif.C70_public", "Verif.C70_state", "Verif.C70_generated", "Verif.C70_dcf_generated", "Verif.C70_mic_generated", "Verif.C70_helper_message", "Verif.C70_deep_refuted"], "note": "The wire format follows the protobuf documentation. C70_deep_refuted is the exception for deep types."},
 {"property": "C71", "status": "proved", "theorems": ["Verif.C71_permutation", "Verif.C71_hash", "Verif.C71_instructions", "Verif.C71_stream", "Verif.C71_sha"], "note": "AES and SHA-256 are written down from the standards (Spec/Fips197, Spec/Fips180). Assumes that AES_set_encrypt_key stores the round keys as in FIPS 197. The values in the tests of /repo are among the examples."},
 {"property": "C72", "status": "partial", "theorems": ["Verif.C72_pack_partial", "Verif.C72_pack_refuted", "Verif.C72_reference_partial", "Verif.C72_agrees_partial", "Verif.C72_random_bits_partial", "Verif.C72_counting", "Verif.C72_random_strings", "Verif.C72_equal_sizes", "Verif.C72_variable_sizes_partial", "Verif.C72_variable_sizes_refuted", "Verif.C72_database", "Verif.C72_requests_partial", "Verif.C72_rejects", "Verif.C72_leader_partial"], "note": "Selection bits up to 2^31; beyond it packing overflows an int (C72_pack_refuted). Requests under the restrictions of C34 and C36. Strings of variable size if the difference is at most the average; otherwise false (C72_variable_sizes_refuted)."},
 {"property": "C73", "status": "partial", "theorems": ["Verif.C73_at", "Verif.C73_apply", "Verif.C73_contexts", "Verif.C73_any_context", "Verif.C73_shares", "Verif.C73_keys_partial", "Verif.C73_encoding", "Verif.C73_never", "Verif.C73_keys_refuted"], "note": "Evaluation: proved in full. Key generation: false of the code if a type is encoded otherwise than ToValueType encodes it (C73_keys_refuted; C73_encoding says that FAILED_PRECONDITION is returned); C73_keys_partial covers all objects with registered types."},
 {"property": "C74", "status": "partial", "theorems": ["Verif.C74_reserved", "Verif.C74_create_partial", "Verif.C74_monotone", "Verif.C74_intended_partial", "Verif.C74_intended_refuted", "Verif.C74_dcf_partial", "Verif.C74_nan"], "note": "The exact condition (Spec.Tolerates) demands the raised security parameter of the first k elements of a tuple instead of the k elements that are not IntModN; it is the intended one if the IntModN elements come last (C74_intended_partial), and not in general (C74_intended_refuted). A DCF ignores the security parameter it is given and uses 40 plus the log domain size minus 1 (C74_dcf_partial). Elements are limited to 2^31 - 128 bits, beyond which an int overflows (C16_overflow); empty types are excluded. Floating-point results (security levels, logarithms) are parameters; the sum with log2 k is rounded to a double."},
 {"property": "C75", "status": "partial", "theorems": ["Verif.C75_prefixes", "Verif.C75_levels", "Verif.C75_doubles", "Verif.C75_ieee", "Verif.C75_run_partial", "Verif.C75_flags_partial", "Verif.C75_full_domain", "Verif.C75_only_nonzeros", "Verif.C75_no_input_levels", "Verif.C75_short_levels", "Verif.C75_only_nonzeros_levels", "Verif.C75_hang_refuted", "Verif.C75_single_refuted"], "note": "The program completes with the stated results if floating-point errors are harmless, which is proved for expansion factors of at least 3 (n * f at least 5 and below 2^29, at most 128 bits), and for good levels given by flags. Refuted: with the default flags and nonzeros 0, 2^18, 2^19 the choice of levels never ends; with one nonzero the program aborts; several levels without input read out of bounds; only_nonzeros does not ignore levels; levels ending below log_domain_size abort for most random points."},
 {"property": "C76", "status": "partial", "theorems": ["Verif.C76_dense_partial", "Verif.C76_cuckoo_partial", "Verif.C76_cuckoo_end_to_end_partial", "Verif.C76_simple_partial", "Verif.C76_point_function_partial", "Verif.C76_contexts_partial", "Verif.C76_comparison_partial", "Verif.C76_containment_partial", "Verif.C76_comparison_exact"], "note": "Full protocol runs with wire encodings of C70 and separate machines. C76_cuckoo_partial carries over any run of C46. Missing: what protocol buffers cannot carry (messages of 2 GB, types nested deeper than the parser's limit, C70_deep_refuted), more than 2^18 queries, and the cases in which C27, C30, C46 fail in one process too (refuted there)."},
 {"property": "C77", "status": "proved", "theorems": ["Verif.C77_helper"], "note": "Decision logic of the helper role for arbitrary decrypters, codecs and computations."},
 {"property": "C78", "status": "partial", "theorems": ["Verif.C78_dense_partial", "Verif.C78_cuckoo_partial", "Verif.C78_simple_partial"], "note": "Exact answer for arbitrary key messages. Missing: more than 2^24 records or buckets, where the claim is false (C32_refuted, C32_scalar_refuted)."},
 {"property": "C79", "status": "partial", "theorems": ["Verif.C79_sums_partial"], "note": "Restricted like C01 (bytes reserved for the value types) and C03 (less than 2^31 blocks below a prefix), where the claim is false otherwise (C01_refuted, C03_refuted)."},
 {"property": "C80", "status": "proved", "theorems": ["Verif.C80_hitters"], "note": "The servers' protocol around the API calls (adding up, comparing with the threshold) is part of the specification (Spec/Aggregation.lean), not of the repository."},
 {"property": "C81", "status": "partial", "theorems": ["Verif.C81_functions_partial", "Verif.C81_functions_refuted", "Verif.C81_seeds_refuted", "Verif.C81_family"], "note": "Independence holds exactly for up to ten functions and seeds of one length (the servers use three functions and 16-byte seeds); refuted beyond, because seed, index and input are hashed without separators."},
 {"property": "C82", "status": "partial", "theorems": ["Verif.C82_full", "Verif.C82_full_ieee", "Verif.C82_random", "Verif.C82_isrg", "Verif.C82_uniform", "Verif.C82_heavyHitters", "Verif.C82_keygen_partial", "Verif.C82_keygen_refuted", "Verif.C82_regular", "Verif.C82_batch", "Verif.C82_batch_first", "Verif.C82_batch_refuted", "Verif.C82_dcf", "Verif.C82_mic", "Verif.C82_mic_refuted"], "note": "Everything is proved except what is false: key generation with 128 bits is undefined (C82_keygen_refuted), evaluation i of BM_BatchEvaluation does not use key i (C82_batch_refuted; C82_batch says which one), and BM_BatchedMicEvaluation ignores the intervals (C82_mic_refuted; C82_mic says what the gates compute instead). C82_full holds for all doubles off by at most 1/1000; C82_full_ieee discharges this for IEEE doubles and gives the exact sizes. Timing and labels are not modelled."},
 {"property": "C83", "status": "partial", "theorems": ["Verif.C83_equal", "Verif.C83_equal_empty", "Verif.C83_variable", "Verif.C83_variable_negative", "Verif.C83_registered_refuted", "Verif.C83_dense_partial", "Verif.C83_dense_no_index", "Verif.C83_cuckoo_partial", "Verif.C83_empty_keys", "Verif.C83_simple_partial", "Verif.C83_sample", "Verif.C83_sample_insecure"], "note": "Everything is proved except what is false: sizes below zero with the registered average of 2 (C83_registered_refuted; C83_variable_negative says what happens). The rounds of servers need exact logarithms and a number of buckets that fits (ExactAt, Manageable; as in C34), cuckoo hashing that no key is left in the stash (C45), simple hashing that all records fit into a message. The security level of C83_sample is computed with doubles and is a hypothesis, which C94_sample discharges for accurate logarithms. Timing and flags are not modelled."},
 {"property": "C84", "status": "partial", "theorems": ["Verif.C84_evaluateAt_partial", "Verif.C84_integers", "Verif.C84_context_partial", "Verif.C84_outcomes", "Verif.C84_apply_partial", "Verif.C84_dcf_partial", "Verif.C84_modulus_refuted", "Verif.C84_abort_refuted", "Verif.C84_key_refuted"], "note": "False of the code for another modulus (C84_modulus_refuted), for tuples of wider integers (C84_abort_refuted) and for keys of another DPF (C84_key_refuted). Proved for types of another form or with another number of elements in a block, in particular for all types other than that of the level if this is an integer or an XorWrapper (C84_integers). C84_outcomes: for every type, a key that evaluates as the type of the level gives values, INVALID_ARGUMENT or an abort, the latter only if the type needs more bytes than reserved."},
 {"property": "C85", "status": "partial", "theorems": ["Verif.C85_dpf", "Verif.C85_dcf", "Verif.C85_mic", "Verif.C85_dense_request", "Verif.C85_cuckoo_request", "Verif.C85_simple_request", "Verif.C85_dense_response_partial", "Verif.C85_cuckoo_response_partial", "Verif.C85_simple_response_partial"], "note": "Keys and requests: full, below the 2 GB that protocol buffers can serialize. Responses: for the databases that servers can handle (C60: without vectors 2^24 buckets)."},
 {"property": "C86", "status": "proved", "theorems": ["Verif.C86_apply", "Verif.C86_dcf", "Verif.C86_mic", "Verif.C86_sizes", "Verif.C86_apply_dangling", "Verif.C86_dcf_dangling", "Verif.C86_mic_dangling", "Verif.C86_inplace_refuted", "Verif.C86_inplace"], "note": "Pointers are modelled by the object they point to, as the functions do not write to keys. C86_inplace_refuted and C86_inplace are the last sentence of the property: with output and points in the same memory the outputs are wrong and do not depend on the points."},
 {"property": "C87", "status": "proved", "theorems": ["Verif.C87_result", "Verif.C87_no_race", "Verif.C87_rest", "Verif.C87_terminates", "Verif.C87_overlap_refuted", "Verif.C87_shared_output_refuted"], "note": "The condition on overlaps within a call is needed (C87_overlap_refuted: 65 blocks shifted by one), and so is that outputs are separate (C87_shared_output_refuted). EVP_Cipher does not change the context, as the comment in the code says; its failures are left out. Memory is sequentially consistent, which C87_no_race justifies."},
 {"property": "C88", "status": "partial", "theorems": ["Verif.C88_generated", "Verif.C88_evaluateUntil", "Verif.C88_evaluateNext", "Verif.C88_evaluateAt_partial", "Verif.C88_stuck", "Verif.C88_evaluateAt_refuted", "Verif.C88_evaluateUntil_refuted"], "note": "Proved for keys whose value corrections can be read (all generated keys: C88_generated), and for EvaluateAt with the type of the level. False otherwise: EvaluateAt with another type stores evaluations before it fails, after which every EvaluateUntil is rejected (C88_stuck, C88_evaluateAt_refuted); with unreadable value corrections EvaluateUntil fails and advances the context (C88_evaluateUntil_refuted)."},
 {"property": "C89", "status": "proved", "theorems": ["Verif.C89_create", "Verif.C89_evaluateUntil", "Verif.C89_evaluateAt", "Verif.C89_size"], "note": "Setup as in C01 (types that fit the bytes reserved for them); EvaluateAt with the type of the level."},
 {"property": "C90", "status": "proved", "theorems": ["Verif.C90_sha256", "Verif.C90_family", "Verif.C90_farm", "Verif.C90_evenShare"], "note": "SHA-256 and FarmHash are parameters of the model; the theorems count, among all answers they might give, those that lead to given values. The seed of the configuration is nonempty and at most ten functions are created, as with more the messages of different functions may coincide (C81)."},
 {"property": "C91", "status": "partial", "theorems": ["Verif.C91_generateKeys", "Verif.C91_evaluateAt", "Verif.C91_evaluateUntil", "Verif.C91_evaluateNext", "Verif.C91_evaluateAtCtx", "Verif.C91_evaluateAndApply", "Verif.C91_dcf_generateKeys", "Verif.C91_dcf_evaluate", "Verif.C91_mic_batchEval", "Verif.C91_evaluateUntil_values_partial", "Verif.C91_evaluateAt_values", "Verif.C91_evaluateUntil_retry", "Verif.C91_evaluateAt_retry", "Verif.C91_stuck", "Verif.C91_evaluateUntil_retry_refuted", "Verif.C91_evaluateAt_stuck_refuted", "Verif.C91_create", "Verif.C91_create_calls", "Verif.C91_gen"], "note": "Reporting is proved for every call. Values after failures: EvaluateAt in full, EvaluateUntil if the number of blocks below a prefix fits an int (as C03). That a failed call can be repeated is false of the code: refuted by witnesses when hashing fails (level lost), when the expansion fails (other prefixes rejected) and after EvaluateAt (EvaluateUntil rejected); C91_evaluateUntil_retry and C91_evaluateAt_retry say what holds. PIR servers and clients are in C92."},
 {"property": "C92", "status": "proved", "theorems": ["Verif.C92_dense_create", "Verif.C92_cuckoo_create", "Verif.C92_simple_create", "Verif.C92_innerProduct", "Verif.C92_plain_and_helper", "Verif.C92_leader", "Verif.C92_clients", "Verif.C92_dense_run", "Verif.C92_dense_records", "Verif.C92_cuckoo_run", "Verif.C92_simple_run"], "note": "Failing calls are those of EVP_CIPHER_CTX_new, EVP_EncryptInit_ex, EVP_Cipher, AES_set_encrypt_key and hwy::AllocateAligned; other allocations are assumed to succeed. C92_dense_records, C46 and C47 give the answers on machines without failures."},
 {"property": "C93", "status": "partial", "theorems": ["Verif.C93_file", "Verif.C93_column_partial", "Verif.C93_column_refuted", "Verif.C93_round_trip", "Verif.C93_main", "Verif.C93_rejects"], "note": "C93_file says exactly which files are read and what is read from them; C93_main and C93_rejects lift this to the program, whose behaviour on numbers is C75. False of lines with a blank first column: C93_column_refuted. StrSplit, SimpleAtoi of Abseil are modelled as documented; ReadLine is not modelled, files are lists of lines."},
 {"property": "C94", "status": "partial", "theorems": ["Verif.C94_level", "Verif.C94_check", "Verif.C94_exact_refuted", "Verif.C94_residues_partial", "Verif.C94_elements_partial", "Verif.C94_sample", "Verif.C94_ceil", "Verif.C94_ceil_bits", "Verif.C94_ceil_refuted", "Verif.C94_plausible", "Verif.C94_end_to_end_partial", "Verif.C94_works", "Verif.C94_cuckoo_partial", "Verif.C94_simple_partial", "Verif.C94_rounding", "Verif.C94_rounding_unique"], "note": "Proved except for what is false: more than one sample with 128-bit base integers (C57_refuted), tuples of IntModN and other integers (C58_refuted, C63_refuted), exactness without slack (C94_exact_refuted, C94_ceil_refuted). Infinities (modulus 0) are not modelled. C94_end_to_end_partial, C94_cuckoo_partial and C94_simple_partial are C36, C46 and C47 with their restrictions. C94_rounding: the rounding of the model is the one of IEEE 754."},
 {"property": "C95", "status": "proved", "theorems": ["Verif.C95_key", "Verif.C95_parameters", "Verif.C95_context", "Verif.C95_gates", "Verif.C95_helper", "Verif.C95_inner", "Verif.C95_values", "Verif.C95_pir"], "note": "The wire format follows the protobuf documentation (Model/Wire); the model does not keep unknown fields."},
 {"property": "C96", "status": "proved", "theorems": ["Verif.C96_dense_real", "Verif.C96_cuckoo_real", "Verif.C96_simple_real", "Verif.C96_hides", "Verif.C96_view"], "note": "As in C62, the blocks that the helper computes from its root seeds are replaced by uniform ones (ideal PRG); that encryption hides all but the length is outside the model."},
 {"property": "C97", "status": "proved", "theorems": ["Verif.C97_generateKeys", "Verif.C97_generateKeys_hides", "Verif.C97_domain", "Verif.C97_linear", "Verif.C97_prefixes", "Verif.C97_points", "Verif.C97_points_context", "Verif.C97_dcf", "Verif.C97_mic", "Verif.C97_dense_request", "Verif.C97_cuckoo_request", "Verif.C97_simple_request", "Verif.C97_dense_response", "Verif.C97_cuckoo_response", "Verif.C97_simple_response", "Verif.C97_dense_server", "Verif.C97_cuckoo_server", "Verif.C97_simple_server", "Verif.C97_evaluateAndApply", "Verif.C97_dcf_batchEvaluate", "Verif.C97_dcf_evaluate", "Verif.C97_mic_batchEval", "Verif.C97_create"], "note": "Calls are those of the model with failing calls (Model/Faults, Model/PirFaults): EVP_Cipher, AES_set_encrypt_key and hwy::AllocateAligned. Allocations by the standard library and the time of other code are not counted, nor are the block cipher calls of the generator of the masks, which cannot fail."}
]}
