{
 "claims": [
  {
   "property": "C01",
   "status": "proved",
   "theorems": [
    "Verif.Props.C01_reads_return_last_write"
   ],
   "note": "in-memory database, every insert history"
  },
  {
   "property": "C02",
   "status": "proved",
   "theorems": [
    "Verif.Props.C02_insert_never_panics"
   ],
   "note": "every panic site of trie.rs/memory_db.rs on the insert path is an explicit error value in the model"
  },
  {
   "property": "C03",
   "status": "proved",
   "theorems": [
    "Verif.Props.C03_root_history_independent"
   ],
   "note": "the whole database, not only the root, is equal"
  },
  {
   "property": "C04",
   "status": "proved",
   "theorems": [
    "Verif.Props.C04_root_is_from_scratch",
    "Verif.Props.C04_spec_branch"
   ],
   "note": ""
  },
  {
   "property": "C05",
   "status": "proved",
   "theorems": [
    "Verif.Props.C05_reinsert_is_noop"
   ],
   "note": ""
  },
  {
   "property": "C06",
   "status": "proved",
   "theorems": [
    "Verif.Props.C06_zero_is_not_absent"
   ],
   "note": "needs 2^128 != 0 in the scalar field"
  },
  {
   "property": "C07",
   "status": "proved",
   "theorems": [
    "Verif.Props.C07_shape_is_canonical"
   ],
   "note": ""
  },
  {
   "property": "C08",
   "status": "proved",
   "theorems": [
    "Verif.Props.C08_stored_nodes_consistent"
   ],
   "note": ""
  },
  {
   "property": "C09",
   "status": "proved",
   "theorems": [
    "Verif.Props.C09_root_binds_map"
   ],
   "note": "the alternative is an explicit break among the nodes of the two tries; an example gives parameters with no break"
  },
  {
   "property": "C10",
   "status": "proved",
   "theorems": [
    "Verif.Props.C10_insert_is_local"
   ],
   "note": ""
  },
  {
   "property": "C11",
   "status": "partial",
   "theorems": [
    "Verif.Props.C11_cached_db_refines_memory_partial",
    "Verif.Props.C11_overwrite_after_flush_wrong_root",
    "Verif.Props.C11_stale_read",
    "Verif.Props.C11_insert_panics",
    "Verif.Props.C11_full_claim_false"
   ],
   "note": "the full claim is false for the code: counterexamples proved; the positive theorem covers all runs of inserts, flushes and restarts in which no flushed value is overwritten and nothing is changed below four bytes that two stems came to share since the trie was opened (stems of any depth, restarts anywhere); restarts read typed tables, readability of the bytes is C61"
  },
  {
   "property": "C12",
   "status": "partial",
   "theorems": [
    "Verif.Props.C12_disk_is_last_flush",
    "Verif.Props.C12_flush_writes_batch",
    "Verif.Props.C12_disk_reads",
    "Verif.Props.C12_flush_durable_partial",
    "Verif.Props.C12_disk_differs_from_cache",
    "Verif.Props.C12_reopened_lists_nothing"
   ],
   "note": "atomicity and byte-level flush hold in general; equality of reads before and after holds for the histories of C11 when the records can be read (C61) and is false in general"
  },
  {
   "property": "C13",
   "status": "proved",
   "theorems": [
    "Verif.Props.C13_rows_never_collide",
    "Verif.Props.C13_write_touches_one_item"
   ],
   "note": ""
  },
  {
   "property": "C14",
   "status": "partial",
   "theorems": [
    "Verif.Props.C14_stem_round_trip",
    "Verif.Props.C14_branch_round_trip",
    "Verif.Props.C14_child_round_trip",
    "Verif.Props.C14_round_trip_partial",
    "Verif.Props.C14_full_claim_false"
   ],
   "note": "round trip exactly when the stored points pass the point decoder's validation; the full claim is false: arkworks' decoder refuses points outside the prime-order subgroup, and 126 of the default generators are such points (C61)"
  },
  {
   "property": "C15",
   "status": "partial",
   "theorems": [
    "Verif.Props.C15_malformed_rejected_partial",
    "Verif.Props.C15_short_branch_record_panics",
    "Verif.Props.C15_long_branch_record_accepted",
    "Verif.Props.C15_full_claim_false"
   ],
   "note": "the branch decoder's length check never fires"
  },
  {
   "property": "C16",
   "status": "partial",
   "theorems": [
    "Verif.Props.C16_enumeration_complete",
    "Verif.Props.C16_cached_enumeration_partial",
    "Verif.Props.C16_stem_listing_incomplete"
   ],
   "note": "full for the in-memory database; the cached database violates it"
  },
  {
   "property": "C17",
   "status": "proved",
   "theorems": [
    "Verif.Props.C17_key_path"
   ],
   "note": "the length of the walked prefix is at most 31; the code's depth field counts visited nodes and is one larger when the walk ends at a stem"
  },
  {
   "property": "C18",
   "status": "proved",
   "theorems": [
    "Verif.Props.C18_creation_total",
    "Verif.Props.C18_real_opener"
   ],
   "note": "with the modelled multipoint prover: unless the hash gives a zero challenge (then create panics)"
  },
  {
   "property": "C19",
   "status": "partial",
   "theorems": [
    "Verif.Props.C19_same_queries_partial",
    "Verif.Props.C19_full_claim_false"
   ],
   "note": "holds exactly when opened nodes adjacent in path order have different commitments; otherwise the verifier panics, shown for every crypto by one stem with equal halves"
  },
  {
   "property": "C20",
   "status": "partial",
   "theorems": [
    "Verif.Props.C20_honest_proofs_verify_partial",
    "Verif.Props.C20_real_opener_partial",
    "Verif.Props.multiOpener_complete",
    "Verif.Props.C20_full_claim_false"
   ],
   "note": "same exact condition as C19; proved for the modelled multipoint argument when the challenge t falls outside the domain, and relative to any complete opening argument"
  },
  {
   "property": "C21",
   "status": "partial",
   "theorems": [
    "Verif.Props.C21_accepted_claims_true_partial",
    "Verif.Props.C21_rewound_claims_true_partial",
    "Verif.Props.C65_trie_convincing_partial",
    "Verif.Props.C78_trie_extracted_partial",
    "Verif.Props.C66_trie_random_oracle_partial",
    "Verif.Props.C21_honest_hints_consistent",
    "Verif.Props.C21_absence_forged_by_own_stem",
    "Verif.Props.C21_absence_forged_through_stem",
    "Verif.Props.C21_value_forged_by_repetition",
    "Verif.Props.C21_presence_forged_at_shared_path",
    "Verif.Props.C21_presence_forged_by_stray_zero",
    "Verif.Props.C71_light_client_partial"
   ],
   "note": "the full claim is false: five forgeries, each accepted for every crypto and every complete opening argument. Proved: with extracted vectors, or the scheme is explicitly broken, every undisputed claim of a value is true and every undisputed claim of absence is true except at depth two or more below a stem; a claim is undisputed if its key is given one value only and the hint's entry for its stem is compatible with the other entries, which may be anything among themselves; with the modelled multipoint argument the vectors are computed from accepted runs of check (C56); such runs exist for every program that forges a claim for more than a small part of all random hashes (C65, C66)"
  },
  {
   "property": "C22",
   "status": "partial",
   "theorems": [
    "Verif.Props.C22_no_panic_iff_partial",
    "Verif.Props.C22_full_claim_false"
   ],
   "note": "the full claim is false (eight panics); the exact condition for not panicking is proved"
  },
  {
   "property": "C23",
   "status": "proved",
   "theorems": [
    "Verif.Props.C23_order_insensitive"
   ],
   "note": ""
  },
  {
   "property": "C24",
   "status": "proved",
   "theorems": [
    "Verif.Props.C24_proof_roundtrip"
   ],
   "note": "for key lists so short that 36 per key is below 2^32 (counts are written as u32); the opening proof has 8 L and 8 R points"
  },
  {
   "property": "C25",
   "status": "partial",
   "theorems": [
    "Verif.Props.C25_outcome_partial",
    "Verif.Props.C25_same_hint_partial",
    "Verif.Props.C25_canonical_partial",
    "Verif.Props.C25_encoder_partial",
    "Verif.Props.C25_panics",
    "Verif.Props.C25_not_injective"
   ],
   "note": "both halves of the claim are false (panic on status 3; bit 2, stem order and repeated stems ignored); exact outcome and exact collisions proved, and exactly when the encoder panics"
  },
  {
   "property": "C26",
   "status": "partial",
   "theorems": [
    "Verif.Props.C26_stateless_update_partial",
    "Verif.Props.C26_full_claim_false"
   ],
   "note": "for every reachable trie, distinct keys, honest proof and list of new values the updater returns the root of the updated trie exactly when the opened nodes are Separated (see C20) and the place of every written key is taken; otherwise it panics, so the full claim is false. Relative to any complete opening argument (multiOpener_complete gives one); every iteration order of the hash sets is covered"
  },
  {
   "property": "C27",
   "status": "partial",
   "theorems": [
    "Verif.Props.C27_rejects_partial",
    "Verif.Props.C27_extra_ignored",
    "Verif.Props.C27_missing_ignored",
    "Verif.Props.C27_full_claim_false"
   ],
   "note": "repeated keys and rejected proofs are refused; the length checks compare with the bitwise complement of a length, so the full claim is false: surplus new values are ignored and missing ones count as no change"
  },
  {
   "property": "C28",
   "status": "proved",
   "theorems": [
    "Verif.Props.C28_completeness",
    "Verif.Props.C28_creation_total"
   ],
   "note": "for every vector length 2^k, k < 64; a zero challenge makes create panic"
  },
  {
   "property": "C29",
   "status": "partial",
   "theorems": [
    "Verif.Props.C29_verifiers_agree_partial",
    "Verif.Props.C29_short_R_panics",
    "Verif.Props.C29_long_R",
    "Verif.Props.C29_full_claim_false"
   ],
   "note": "agreement for all proofs with as many L as R points, all oracles incl. zero challenges; with extra R points the plain verifier accepts while the other two panic"
  },
  {
   "property": "C30",
   "status": "proved",
   "theorems": [
    "Verif.Props.C30_division_exact",
    "Verif.Props.C30_long_panics"
   ],
   "note": "for every domain size up to 2^31 embedded in the field; beyond it the division panics"
  },
  {
   "property": "C31",
   "status": "proved",
   "theorems": [
    "Verif.Props.C31_barycentric",
    "Verif.Props.C31_zero_inside_domain"
   ],
   "note": "for every domain size; inside the domain the coefficients are all zero"
  },
  {
   "property": "C32",
   "status": "proved",
   "theorems": [
    "Verif.Props.C32_completeness",
    "Verif.Props.C32_creation_total",
    "Verif.Props.C32_empty_panics",
    "Verif.Props.C32_powers"
   ],
   "note": "for every domain size 2^k, k <= 31, every hash-map order; per run: unless the challenge t falls in the domain"
  },
  {
   "property": "C33",
   "status": "partial",
   "theorems": [
    "Verif.Props.C33_roundtrip",
    "Verif.Props.C33_length_checked_partial",
    "Verif.Props.C33_panics_partial",
    "Verif.Props.C33_canonical",
    "Verif.Props.C33_overlong_accepted"
   ],
   "note": "round-trip and lengths proved; a wrong length below 4 GiB never decodes (exactly when it panics is proved), beyond that the u32 comparison accepts trailing bytes"
  },
  {
   "property": "C34",
   "status": "proved",
   "theorems": [
    "Verif.Props.C34_prehash_injective",
    "Verif.Props.C34_whole_run",
    "Verif.Props.C34_statement_bound",
    "Verif.Props.C34_queries_bound",
    "Verif.Props.C34_rounds_bound",
    "Verif.Props.C34_number",
    "Verif.Props.C34_lengths_matter"
   ],
   "note": "strings hashed determine the absorbed items given labels and kinds; whole runs up to an explicit hash collision"
  },
  {
   "property": "C35",
   "status": "proved",
   "theorems": [
    "Verif.Props.C35_grouping",
    "Verif.Props.C35_order_irrelevant"
   ],
   "note": "exact equality of the lists; the proof is independent of the hash map order"
  },
  {
   "property": "C36",
   "status": "partial",
   "theorems": [
    "Verif.Props.C36_exact_partial",
    "Verif.Props.C36_full_claim_false",
    "Verif.Props.C36_large_windows_wrong",
    "Verif.Props.C36_other_windows_panic"
   ],
   "note": "exact for every window size 1..24 and any scalars up to the number of bases; windows of 25..30 bits give wrong results and others panic; scalars beyond the bases panic instead of being ignored (so the last part of the claim is false)"
  },
  {
   "property": "C37",
   "status": "proved",
   "theorems": [
    "Verif.Props.C37_dispatch",
    "Verif.Props.C37_parallel",
    "Verif.Props.C37_linear",
    "Verif.Props.C37_sparse_dense",
    "Verif.Props.C37_is_the_assumed_committer",
    "Verif.Props.C37_too_few"
   ],
   "note": "arkworks' wNAF multiplication is taken by its contract; the parallel sum is proved for every way the work may be shared out"
  },
  {
   "property": "C38",
   "status": "partial",
   "theorems": [
    "Verif.Props.C38_equality",
    "Verif.Props.C38_equivalence",
    "Verif.Props.C38_invalid_unequal",
    "Verif.Props.C38_encoding",
    "Verif.Props.C38_map_to_field",
    "Verif.Props.C38_scalar_hash_partial",
    "Verif.Props.C38_same_scalar",
    "Verif.Props.C38_at_most_five",
    "Verif.Props.C38_at_most_four",
    "Verif.Props.C38_full_claim_false"
   ],
   "note": "equality, encoding and the map to the base field: proved for all affine points; the map to the scalar field is constant on classes but not injective: an element of the subgroup other than the neutral one hashes to 0; which elements have the same image is characterised, at most five do, at most four if the image is not below 2^129"
  },
  {
   "property": "C39",
   "status": "proved",
   "theorems": [
    "Verif.Props.C39_total",
    "Verif.Props.C39_accepts",
    "Verif.Props.C39_reencode",
    "Verif.Props.C39_roundtrip",
    "Verif.Props.C39_other_lengths",
    "Verif.Props.C39_reduce"
   ],
   "note": "also: over-long inputs are accepted, only their last 32 bytes are read"
  },
  {
   "property": "C40",
   "status": "proved",
   "theorems": [
    "Verif.Props.C40_batch",
    "Verif.Props.C40_zero_y"
   ],
   "note": "for every list of affine curve points; off the curve (y = 0) the single map panics and the batch gives 0"
  },
  {
   "property": "C41",
   "status": "proved",
   "theorems": [
    "Verif.Props.C41_places_disjoint",
    "Verif.Props.C41_keys_differ",
    "Verif.Props.C41_bound_sharp"
   ],
   "note": "for slots below 2^256-2^248 and chunks below 2^248-64; both bounds are exact (overflow panic, collision)"
  },
  {
   "property": "C42",
   "status": "proved",
   "theorems": [
    "Verif.Props.C42_same_stem",
    "Verif.Props.C42_header_group",
    "Verif.Props.C42_pages"
   ],
   "note": ""
  },
  {
   "property": "C43",
   "status": "partial",
   "theorems": [
    "Verif.Props.C43_chunking_partial",
    "Verif.Props.C43_full_claim_false",
    "Verif.Props.C43_empty_panics"
   ],
   "note": "nothing is lost; minimality fails exactly when a PUSH32 sits on the last byte of the last chunk but one; empty code panics"
  },
  {
   "property": "C44",
   "status": "partial",
   "theorems": [
    "Verif.Props.C44_headers_partial",
    "Verif.Props.C44_extra_chunk_wrong",
    "Verif.Props.C44_full_claim_false"
   ],
   "note": "headers right for every chunk covering code; the extra padding chunk's header is always wrong"
  },
  {
   "property": "C45",
   "status": "partial",
   "theorems": [
    "Verif.Props.C45_derivation_total_partial",
    "Verif.Props.C45_full_claim_false"
   ],
   "note": "exact domain proved; the claim for all 256-bit numbers is false (overflow panics)"
  },
  {
   "property": "C46",
   "status": "proved",
   "theorems": [
    "Verif.Props.C46_input_unambiguous",
    "Verif.Props.C46_layout",
    "Verif.Props.C46_general_encoder",
    "Verif.Props.C46_hash_collision"
   ],
   "note": ""
  },
  {
   "property": "C47",
   "status": "proved",
   "theorems": [
    "Verif.Props.C47_delta",
    "Verif.Props.C47_update",
    "Verif.Props.C47_sparse_delta",
    "Verif.Props.C47_sparse_sequence",
    "Verif.Props.C47_sparse",
    "Verif.Props.C47_sparse_panics"
   ],
   "note": "as elements: the bytes are those of one of the two points of the element; arkworks' addition and the committer on points are contracts"
  },
  {
   "property": "C48",
   "status": "partial",
   "theorems": [
    "Verif.Props.C48_scalar_bytes_partial",
    "Verif.Props.C48_full_claim_false"
   ],
   "note": "proved for strings of 32 bytes; shorter strings are errors; longer strings are accepted, only their first 32 bytes are read"
  },
  {
   "property": "C49",
   "status": "partial",
   "theorems": [
    "Verif.Props.C49_prover_query",
    "Verif.Props.C49_verifier_query",
    "Verif.Props.C49_prover",
    "Verif.Props.C49_prover_only",
    "Verif.Props.C49_verifier",
    "Verif.Props.C49_verifier_only_partial",
    "Verif.Props.C49_sparse",
    "Verif.Props.C49_end_to_end",
    "Verif.Props.C49_proof_created",
    "Verif.Props.C49_empty_request_panics"
   ],
   "note": "well-formed requests are parsed exactly and honest ones verify; malformed requests are errors for some lengths and panics otherwise"
  },
  {
   "property": "C50",
   "status": "proved",
   "theorems": [
    "Verif.Props.C50_commit",
    "Verif.Props.C50_add",
    "Verif.Props.C50_homomorphic",
    "Verif.Props.C50_tree_key"
   ],
   "note": "as elements, hashes and encodings; the 64 bytes themselves are not determined by the element (C54_not_unique)"
  },
  {
   "property": "C51",
   "status": "proved",
   "theorems": [
    "Verif.Props.C51_hex",
    "Verif.Props.C51_conversion",
    "Verif.Props.C51_other_stems",
    "Verif.Props.C51_expressible",
    "Verif.Props.C51_accepted",
    "Verif.Props.C51_honest",
    "Verif.Props.C51_honest_exists",
    "Verif.Props.C51_status_panics",
    "Verif.Props.C51_invalid",
    "Verif.Props.C66_witness_random_oracle_partial"
   ],
   "note": "from the record of strings on (serde_json is trusted); malformed strings, the extension state 3 and a non-canonical scalar panic instead of being rejected"
  },
  {
   "property": "C52",
   "status": "proved",
   "theorems": [
    "Verif.Props.C52_prime_order",
    "Verif.Props.C52_cyclic",
    "Verif.Props.C52_represented",
    "Verif.Props.C52_operations",
    "Verif.Props.C52_parameters",
    "Verif.Props.C52_canonical",
    "Verif.Props.C52_scalar_field"
   ],
   "note": "the group axioms (including associativity), the exact order and the descent of equality, hash and encodings are proved for the concrete curve; that arkworks' extended-coordinate formulas compute the affine addition law is its contract"
  },
  {
   "property": "C53",
   "status": "proved",
   "theorems": [
    "Verif.Props.C53_default",
    "Verif.Props.C53_generated",
    "Verif.Props.C53_candidates",
    "Verif.Props.C53_roundtrip",
    "Verif.Props.C53_hex_roundtrip",
    "Verif.Props.C53_hex_accepts"
   ],
   "note": "SHA-256 is an arbitrary function; the default table is checked entry by entry by the kernel"
  },
  {
   "property": "C54",
   "status": "proved",
   "theorems": [
    "Verif.Props.C54_hash",
    "Verif.Props.C54_hashes",
    "Verif.Props.C54_roundtrip",
    "Verif.Props.C54_not_unique"
   ],
   "note": ""
  },
  {
   "property": "C55",
   "status": "proved",
   "theorems": [
    "Verif.Props.C55_ipa_sound",
    "Verif.Props.C55_families_exist"
   ],
   "note": "special soundness: the vector and the relations are computed from the family; that such families exist for every prover accepted often enough is C65 and C66"
  },
  {
   "property": "C56",
   "status": "proved",
   "theorems": [
    "Verif.Props.C56_multipoint_sound",
    "Verif.Props.C56_families_exist"
   ],
   "note": "special soundness: the vectors and the relations are computed from the family; that such families exist for every prover accepted often enough is C65 and C66"
  },
  {
   "property": "C57",
   "status": "partial",
   "theorems": [
    "Verif.Props.C57_outcome",
    "Verif.Props.C57_accepted_partial",
    "Verif.Props.C57_same_as_witness",
    "Verif.Props.C57_expressible",
    "Verif.Props.C57_honest",
    "Verif.Props.C57_state3_not_accepted",
    "Verif.Props.C57_full_claim_false",
    "Verif.Props.C66_java_random_oracle_partial"
   ],
   "note": "full claim false: extension state 3, null in place of a value or an array, and everything the native verifier panics on make it panic instead of returning false; acceptance is characterised exactly for all arguments"
  },
  {
   "property": "C58",
   "status": "partial",
   "theorems": [
    "Verif.Props.C58_commit",
    "Verif.Props.C58_single",
    "Verif.Props.C58_many",
    "Verif.Props.C58_update",
    "Verif.Props.C58_update_outcome_partial",
    "Verif.Props.C58_any_bytes",
    "Verif.Props.C58_full_claim_false"
   ],
   "note": "full claim false: updateSparse panics on missing or non-canonical scalars (characterised exactly when the commitment is valid), and 64 bytes which are no commitment are used as if they were one or panic (compress and hash: characterised for all 64-byte strings; addCommitment and updateSparse: commitments only, arkworks' addition of points off the curve being outside the model)"
  },
  {
   "property": "C59",
   "status": "proved",
   "theorems": [
    "Verif.Props.C59_context",
    "Verif.Props.C59_verify",
    "Verif.Props.C59_create",
    "Verif.Props.C59_verify_uncompressed",
    "Verif.Props.C59_create_uncompressed",
    "Verif.Props.C59_honest",
    "Verif.Props.C59_proof_created",
    "Verif.Props.C59_unchecked"
   ],
   "note": "arkworks' operations on points are a contract for representatives of elements (met by the extended addition formulas, exists_ark); memory behind the pointers is the caller's part; what the uncompressed verifier answers for 64-byte strings which are no group elements, which it does not reject, is C87"
  },
  {
   "property": "C60",
   "status": "partial",
   "theorems": [
    "Verif.Props.C60_msm_partial",
    "Verif.Props.C60_full_claim_false",
    "Verif.Props.C60_same",
    "Verif.Props.C60_pedersen"
   ],
   "note": "full claim false: multi_scalar_mul ignores a cut-off scalar at the end and all scalars after the 256th; its outcome is characterised for every input"
  },
  {
   "property": "C61",
   "status": "partial",
   "theorems": [
    "Verif.Props.C61_reads",
    "Verif.Props.C61_committer",
    "Verif.Props.C61_generators",
    "Verif.Props.C61_commitment_readable",
    "Verif.Props.C61_first_write",
    "Verif.Props.C61_stem_unreadable",
    "Verif.Props.C61_single_root",
    "Verif.Props.C61_reopen_panics",
    "Verif.Props.C61_full_claim_false",
    "Verif.Props.C61_readable_partial"
   ],
   "note": "full claim false: after inserting value one at key zero and flushing, both records are refused and Trie::new panics; which commitments are readable is characterised exactly; holds for every history if all generators are in the prime-order subgroup; arkworks' check of the subgroup is a contract"
  },
  {
   "property": "C62",
   "status": "partial",
   "theorems": [
    "Verif.Props.C62_points_compute_elements_partial",
    "Verif.Props.C62_cached",
    "Verif.Props.C62_choice_of_points",
    "Verif.Props.C62_repaired",
    "Verif.Props.C62_stored_points_depend_on_history"
   ],
   "note": "holds for reads, root commitments (as elements) and root hashes; false for what is stored: two histories with the same final contents leave records with different points and different bytes"
  },
  {
   "property": "C63",
   "status": "partial",
   "theorems": [
    "Verif.Props.C63_accepted_update_partial",
    "Verif.Props.C66_update_random_oracle_partial",
    "Verif.Props.C63_update_drops_value",
    "Verif.Props.C63_full_claim_false"
   ],
   "note": "full claim false: a hint that names the key's own stem as the other stem passes verification with true claims, and the updater then replaces the whole stem by the new values; holds for every accepted proof whose hint is consistent at the stems of the written keys"
  },
  {
   "property": "C64",
   "status": "proved",
   "theorems": [
    "Verif.Props.C64_seed",
    "Verif.Props.C64_default_hex"
   ],
   "note": "SHA-256 is written out from FIPS 180-4 (the sha2 crate by contract); 1061 candidates, each accepted as the next entry or rejected with a certificate; arkworks' generator is a constant"
  },
  {
   "property": "C65",
   "status": "proved",
   "theorems": [
    "Verif.Props.C65_ipa_convincing",
    "Verif.Props.C65_multipoint_convincing",
    "Verif.Props.C65_honest_convincing",
    "Verif.Props.C65_honest_ipa_convincing",
    "Verif.Props.C65_part_small",
    "Verif.Props.C65_coins"
   ],
   "note": "strategies with coins: C65_coins; the runs exist, and C78 bounds the number of runs after which they are found; the version for tries is listed with C21"
  },
  {
   "property": "C66",
   "status": "proved",
   "theorems": [
    "Verif.Props.C66_random_oracle",
    "Verif.Props.C66_honest_wins",
    "Verif.Props.C66_part_small",
    "Verif.Props.C66_ffi_random_oracle",
    "Verif.Props.C66_c_random_oracle",
    "Verif.Props.C66_accepted_found",
    "Verif.Props.C66_coins"
   ],
   "note": "programs with coins: C66_coins; the hash is a random function into the scalar field on a finite set of strings; the runs exist, the time to find them is not bounded; the versions for tries, stateless updates, execution witnesses and the Java function, which need the conditions of C21 and C63, are listed with C21, C63, C51 and C57"
  },
  {
   "property": "C67",
   "status": "partial",
   "theorems": [
    "Verif.Props.C67_compressed",
    "Verif.Props.C67_canonical",
    "Verif.Props.C67_total",
    "Verif.Props.C67_uncompressed_partial",
    "Verif.Props.C67_uncompressed_accepts",
    "Verif.Props.C67_one_of_two",
    "Verif.Props.C67_full_claim_false",
    "Verif.Props.C67_hash",
    "Verif.Props.C67_sum"
   ],
   "note": "the uncompressed round trip holds for the points of the subgroup only: the first generator of the reference string is written but refused on reading"
  },
  {
   "property": "C68",
   "status": "partial",
   "theorems": [
    "Verif.Props.C68_openings_accepted",
    "Verif.Props.C68_bytes_accepted",
    "Verif.Props.C68_c_accepted",
    "Verif.Props.C68_proofs_accepted_partial",
    "Verif.Props.C68_bandersnatch_partial",
    "Verif.Props.C68_update_partial",
    "Verif.Props.C68_full_claim_false"
   ],
   "note": "openings and the byte interfaces: full; tries: if the opened nodes are Separated (otherwise the check panics with every hash, proved), updates: with the conditions of C26"
  },
  {
   "property": "C69",
   "status": "partial",
   "theorems": [
    "Verif.Props.C69_ipa_random_oracle_partial",
    "Verif.Props.C69_ipa_accepted",
    "Verif.Props.C69_free_vector_false"
   ],
   "note": "proved if the public vector is a function of what is absorbed, as in the multipoint argument; with a vector chosen by the prover the claim is false, proved with a program that asks m+4 questions"
  },
  {
   "property": "C70",
   "status": "partial",
   "theorems": [
    "Verif.Props.C70_client_follows_partial",
    "Verif.Props.C70_chain_random_oracle_partial",
    "Verif.Props.C70_honest_chain_partial",
    "Verif.Props.C70_honest_chain_random_partial",
    "Verif.Props.C70_full_claim_false",
    "Verif.Props.C70_honest_chain_false"
   ],
   "note": "accepted chains: holds if the hints are consistent at the stems of the written keys, false otherwise; honest chains: the client ends with the root exactly if every block meets the conditions of C26 and panics otherwise; the loops of client and server are not code of the repository"
  },
  {
   "property": "C71",
   "status": "proved",
   "theorems": [
    "Verif.Props.C71_state_reads",
    "Verif.Props.C71_root_binds_state",
    "Verif.Props.C71_code_reads",
    "Verif.Props.C71_collision",
    "Verif.Props.C71_random_hash_partial"
   ],
   "note": "the loops that write accounts and read code are not code of the repository; clients that read the state through proofs, with the conditions of C21: C71_light_client_partial, listed there, and C71_random_hash_partial"
  },
  {
   "property": "C72",
   "status": "proved",
   "theorems": [
    "Verif.Props.C72_proof_size",
    "Verif.Props.C72_query_count"
   ],
   "note": ""
  },
  {
   "property": "C73",
   "status": "partial",
   "theorems": [
    "Verif.Props.C73_memory_partial",
    "Verif.Props.C73_accepted",
    "Verif.Props.C73_honest",
    "Verif.Props.C73_amplification",
    "Verif.Props.C73_full_claim_false",
    "Verif.Props.C73_same_result"
   ],
   "note": "the full claim is false: eight bytes make the decoder ask for up to 4 GiB, because it allocates the announced number of depths before reading them; on all inputs but those that announce more depths than they contain (proved exactly) three times the input and 512 bytes suffice, and an accepted input takes exactly its length, two bytes per depth and 500. Counted are the bytes of the items, not spare capacity"
  },
  {
   "property": "C74",
   "status": "partial",
   "theorems": [
    "Verif.Props.C74_bounded_partial",
    "Verif.Props.C74_padding_ignored",
    "Verif.Props.C74_stretch",
    "Verif.Props.C74_full_claim_false"
   ],
   "note": "queries, commitments and foreign stems are bounded by the distinct keys; the full claim is false: depths and statuses beyond the number of distinct stems are ignored, so anyone can lengthen an accepted proof up to 4 GiB"
  },
  {
   "property": "C75",
   "status": "proved",
   "theorems": [
    "Verif.Props.C75_one_stem_claims_true",
    "Verif.Props.C75_one_stem_update",
    "Verif.Props.C75_account",
    "Verif.Props.C75_random_hash",
    "Verif.Props.C75_account_random_hash",
    "Verif.Props.C75_account_coins",
    "Verif.Props.C75_absence_alone_forged",
    "Verif.Props.C75_two_stems_forged"
   ],
   "note": "up to an explicit break of the commitments, as C21, but without its condition on the hint; both restrictions (one stem, one value shown) are needed: forgeries proved"
  },
  {
   "property": "C76",
   "status": "proved",
   "theorems": [
    "Verif.Props.C76_rows",
    "Verif.Props.C76_bound_attained",
    "Verif.Props.C76_insert_rows"
   ],
   "note": "the bound of 30 branch rows per further stem is attained; in-memory database (for the cached one see C11)"
  },
  {
   "property": "C77",
   "status": "partial",
   "theorems": [
    "Verif.Props.C77_memory",
    "Verif.Props.C77_disk_partial",
    "Verif.Props.C77_nodes_partial",
    "Verif.Props.C77_disk_fails",
    "Verif.Props.C77_full_claim_false"
   ],
   "note": "full in memory; on disk for the runs of C11, and false otherwise: after a flushed value is overwritten the node opens polynomials which are not those its commitments commit to"
  },
  {
   "property": "C78",
   "status": "proved",
   "theorems": [
    "Verif.Props.C78_ipa_extracted",
    "Verif.Props.C78_multipoint_extracted"
   ],
   "note": "deterministic strategies and challenges drawn by the verifier; for strategies with a hash only the existence of the runs is proved (C66); the version for tries is listed with C21"
  },
  {
   "property": "C79",
   "status": "proved",
   "theorems": [
    "Verif.Props.C79_claims_agree",
    "Verif.Props.C79_same_depth_agree",
    "Verif.Props.C79_two_values_forged",
    "Verif.Props.C79_rewound_claims_agree",
    "Verif.Props.C79_random_hash",
    "Verif.Props.C79_coins"
   ],
   "note": "up to an explicit break by vectors or elements of the two proofs; that both claims are undisputed is needed as in C21"
  },
  {
   "property": "C80",
   "status": "proved",
   "theorems": [
    "Verif.Props.C80_paths_decide",
    "Verif.Props.C80_partial_node",
    "Verif.Props.C80_neighbour_needed",
    "Verif.Props.C80_partial_prover"
   ],
   "note": "in-memory database; the rows are given by sets, a node that keeps part of the rows is not code of the repository"
  },
  {
   "property": "C81",
   "status": "partial",
   "theorems": [
    "Verif.Props.C81_memory",
    "Verif.Props.C81_disk_partial",
    "Verif.Props.C81_disk_returns",
    "Verif.Props.C81_stale",
    "Verif.Props.C81_full_claim_false"
   ],
   "note": "full in memory; on disk reads are right if every row keeps to one side of the cache depth, and what writes return is characterised exactly; the full claim is false there"
  },
  {
   "property": "C82",
   "status": "partial",
   "theorems": [
    "Verif.Props.C82_multi_scalar_mul",
    "Verif.Props.C82_create_proof",
    "Verif.Props.C82_create_proof_uncompressed",
    "Verif.Props.C82_verify",
    "Verif.Props.C82_pedersen",
    "Verif.Props.C82_contexts",
    "Verif.Props.C82_null_unchecked",
    "Verif.Props.C82_csharp_partial",
    "Verif.Props.C82_csharp_full_claim_false"
   ],
   "note": "the C functions exactly, including where they are undefined; the C# class for arrays of at least 32 bytes, with witnesses of access outside of shorter arrays"
  },
  {
   "property": "C83",
   "status": "partial",
   "theorems": [
    "Verif.Props.C83_sha",
    "Verif.Props.C83_spread",
    "Verif.Props.C83_not_uniform",
    "Verif.Props.C83_openings",
    "Verif.Props.C83_ffi",
    "Verif.Props.C83_c",
    "Verif.Props.C83_c_coins",
    "Verif.Props.C83_one_stem",
    "Verif.Props.C83_account",
    "Verif.Props.C83_accepted_found",
    "Verif.Props.C83_pairs",
    "Verif.Props.C83_bits",
    "Verif.Props.C83_one_stem_bits",
    "Verif.Props.C83_account_bits",
    "Verif.Props.C83_honest_openings",
    "Verif.Props.C83_honest_bytes",
    "Verif.Props.C83_honest_c",
    "Verif.Props.C83_trie_partial",
    "Verif.Props.C83_update_partial",
    "Verif.Props.C83_witness_partial",
    "Verif.Props.C83_text_partial",
    "Verif.Props.C83_java_partial",
    "Verif.Props.C83_chain_partial",
    "Verif.Props.C83_ipa_partial",
    "Verif.Props.C83_state_partial",
    "Verif.Props.C83_honest_proofs_partial",
    "Verif.Props.C83_honest_update_partial",
    "Verif.Props.C83_honest_trie_partial"
   ],
   "note": "the statements about a random hash with 32-byte digests as values, reduced as in the code; partial where the statements for challenges from the field are"
  },
  {
   "property": "C84",
   "status": "partial",
   "theorems": [
    "Verif.Props.C84_one_stem",
    "Verif.Props.C84_account",
    "Verif.Props.C84_one_stem_coins",
    "Verif.Props.C84_account_coins",
    "Verif.Props.C84_one_stem_bits",
    "Verif.Props.C84_account_bits",
    "Verif.Props.C84_claims_partial",
    "Verif.Props.C84_update_partial"
   ],
   "note": "Complete for claims about keys of one stem and about items of an account kept together. C84_claims_partial and C84_update_partial have the conditions of C63 and C66 on hints and keys, which the code needs (see the disagreements in DESIGN.md). The writes a trie is made of come from the program; Trie.insert of the model makes the trie. SHA-256 is a random function to digests, groups and generators are any."
  },
  {
   "property": "C85",
   "status": "proved",
   "theorems": [
    "Verif.Props.C85_separated",
    "Verif.Props.C85_one_half",
    "Verif.Props.C85_differ",
    "Verif.Props.C85_honest_proofs",
    "Verif.Props.C85_update",
    "Verif.Props.C85_header",
    "Verif.Props.C85_state",
    "Verif.Props.C85_storage_panics",
    "Verif.Props.C85_digest",
    "Verif.Props.C85_update_digest",
    "Verif.Props.C85_state_digest",
    "Verif.Props.C85_chain"
   ],
   "note": "The condition Separated of C19, C20, C26, C68 and C83 in terms of the contents of the trie. SelfBreak is an explicit break by nodes of the trie itself: two vectors with one commitment, two commitments with one hash, a hash that is 1, or a non-zero hash that is half of a stored value. In the updates the place of every written key must be taken, which the code needs (C26_full_claim_false)."
  },
  {
   "property": "C86",
   "status": "proved",
   "theorems": [
    "Verif.Props.C86_openings",
    "Verif.Props.C86_proofs",
    "Verif.Props.C86_update",
    "Verif.Props.C86_state",
    "Verif.Props.C86_chain",
    "Verif.Props.C86_bytes",
    "Verif.Props.C86_c",
    "Verif.Props.C86_c_uncompressed",
    "Verif.Props.C86_proofs_coins",
    "Verif.Props.C86_update_coins",
    "Verif.Props.C86_state_coins",
    "Verif.Props.C86_chain_coins",
    "Verif.Props.C86_c_coins",
    "Verif.Props.C86_c_uncompressed_coins",
    "Verif.Props.C86_bits",
    "Verif.Props.C86_proofs_bits",
    "Verif.Props.C86_state_bits"
   ],
   "note": "The prover and the verifier of the model run with the same random function as the program that chooses their inputs. SHA-256 is a random function to digests; groups and generators are any. Excluded are requests for two equal halves of a stem, for which C85 shows the panic, and for the updater writes to empty places (C26)."
  },
  {
   "property": "C87",
   "status": "partial",
   "theorems": [
    "Verif.Props.C87_sound_partial",
    "Verif.Props.C87_forgery",
    "Verif.Props.C87_program",
    "Verif.Props.C87_absence",
    "Verif.Props.C87_program_many",
    "Verif.Props.C87_absence_many",
    "Verif.Props.C87_full_claim_false"
   ],
   "note": "the claim is false for points off the curve, which the function does not reject: zero values can be forged with a few hash questions; it holds if every point in the output is a point of the group. The forgery uses arkworks' addition formulas and multi-scalar multiplication off the curve (contract Formulas, met by exists_formulas)"
  },
  {
   "property": "C88",
   "status": "proved",
   "theorems": [
    "Verif.Props.C88_grammar",
    "Verif.Props.C88_reads",
    "Verif.Props.C88_text",
    "Verif.Props.C88_roundtrip",
    "Verif.Props.C88_injective",
    "Verif.Props.C88_fields",
    "Verif.Props.C88_whitespace",
    "Verif.Props.C88_accepted",
    "Verif.Props.C88_panics",
    "Verif.Props.C88_honest"
   ],
   "note": "serde and serde_json are not in the repository: the derived readers and writers and the parser are modelled from their documented behaviour (Ffi/Json.lean, Ffi/JsonText.lean); the grammar JsonText and the relation SaysWitness are stated without them. Half surrogates are refused where a string is read and let pass in skipped fields, as by serde_json"
  },
  {
   "property": "C89",
   "status": "proved",
   "theorems": [
    "Verif.Props.C89_claims",
    "Verif.Props.C89_honest",
    "Verif.Props.C89_ascii",
    "Verif.Props.C89_padding"
   ],
   "note": "lengths are numbers of characters, which are also the numbers of bytes (C89_ascii); the honest part has the conditions of C20 (Separated, challenge t outside of the domain), as C51 and C88"
  }
 ]
}