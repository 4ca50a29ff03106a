import Verif.Props.Trie
import Verif.Props.Codec
import Verif.Props.Db
import Verif.Props.Proof
import Verif.Props.Sound
import Verif.Props.Panic
import Verif.Props.Wire
import Verif.Props.Ipa
import Verif.Props.Multi
import Verif.Props.Eip
import Verif.Props.Msm
import Verif.Props.Bander
import Verif.Props.Concrete
import Verif.Props.Ffi
import Verif.Props.Commitments
import Verif.Props.Witness
import Verif.Props.Updater
import Verif.Props.Rewind
import Verif.Props.RewindTrie
import Verif.Props.Java
import Verif.Props.CBind
import Verif.Props.Reload
import Verif.Props.PointTrie
import Verif.Props.UpdateSound
import Verif.Props.CrsSeed
import Verif.Props.Convince
import Verif.Props.Rom
import Verif.Props.Serialize
import Verif.Props.RomBytes
import Verif.Props.RomClients
import Verif.Props.Complete
import Verif.Props.RomIpa
import Verif.Props.Follow
import Verif.Props.State
import Verif.Props.Size
import Verif.Props.Memory
import Verif.Props.Padding
import Verif.Props.OneStem
import Verif.Props.Storage
import Verif.Props.CrsHex
import Verif.Props.DiskProof
import Verif.Props.Extractor
import Verif.Props.Agree
import Verif.Props.RomPair
import Verif.Props.Footprint
import Verif.Props.Coins
import Verif.Props.Tables
import Verif.Props.Raw
import Verif.Props.Digest
import Verif.Props.Chosen
import Verif.Props.Collide
import Verif.Props.Separate
import Verif.Props.Robust
import Verif.Props.Unchecked
import Verif.Props.RobustBytes
import Verif.Props.Absence
import Verif.Props.DigestCoins
import Verif.Props.ForgeMany
import Verif.Props.Json
import Verif.Props.JsonText
import Verif.Props.JsonWitness
import Verif.Props.JsonSize

/-! Axioms of every property theorem: at most `propext`, `Classical.choice`, `Quot.sound`. -/

#print axioms Verif.Props.C01_reads_return_last_write
#print axioms Verif.Props.C02_insert_never_panics
#print axioms Verif.Props.C03_root_history_independent
#print axioms Verif.Props.C04_root_is_from_scratch
#print axioms Verif.Props.C04_spec_branch
#print axioms Verif.Props.C05_reinsert_is_noop
#print axioms Verif.Props.C06_zero_is_not_absent
#print axioms Verif.Props.C07_shape_is_canonical
#print axioms Verif.Props.C08_stored_nodes_consistent
#print axioms Verif.Props.C09_root_binds_map
#print axioms Verif.Props.C10_insert_is_local
#print axioms Verif.Props.C11_cached_db_refines_memory_partial
#print axioms Verif.Props.C11_overwrite_after_flush_wrong_root
#print axioms Verif.Props.C11_stale_read
#print axioms Verif.Props.C11_insert_panics
#print axioms Verif.Props.C11_full_claim_false
#print axioms Verif.Props.C12_disk_is_last_flush
#print axioms Verif.Props.C12_flush_writes_batch
#print axioms Verif.Props.C12_disk_reads
#print axioms Verif.Props.C12_flush_durable_partial
#print axioms Verif.Props.C12_disk_differs_from_cache
#print axioms Verif.Props.C12_reopened_lists_nothing
#print axioms Verif.Props.C13_rows_never_collide
#print axioms Verif.Props.C13_write_touches_one_item
#print axioms Verif.Props.C14_stem_round_trip
#print axioms Verif.Props.C14_branch_round_trip
#print axioms Verif.Props.C14_child_round_trip
#print axioms Verif.Props.C14_round_trip_partial
#print axioms Verif.Props.C14_full_claim_false
#print axioms Verif.Props.C15_malformed_rejected_partial
#print axioms Verif.Props.C15_short_branch_record_panics
#print axioms Verif.Props.C15_long_branch_record_accepted
#print axioms Verif.Props.C15_full_claim_false
#print axioms Verif.Props.C16_enumeration_complete
#print axioms Verif.Props.C16_cached_enumeration_partial
#print axioms Verif.Props.C16_stem_listing_incomplete
#print axioms Verif.Props.C17_key_path
#print axioms Verif.Props.C18_creation_total
#print axioms Verif.Props.C18_real_opener
#print axioms Verif.Props.C19_same_queries_partial
#print axioms Verif.Props.C19_full_claim_false
#print axioms Verif.Props.C20_honest_proofs_verify_partial
#print axioms Verif.Props.C20_real_opener_partial
#print axioms Verif.Props.multiOpener_complete
#print axioms Verif.Props.C20_full_claim_false
#print axioms Verif.Props.C21_accepted_claims_true_partial
#print axioms Verif.Props.C21_rewound_claims_true_partial
#print axioms Verif.Props.C65_trie_convincing_partial
#print axioms Verif.Props.C78_trie_extracted_partial
#print axioms Verif.Props.C66_trie_random_oracle_partial
#print axioms Verif.Props.C21_honest_hints_consistent
#print axioms Verif.Props.C21_absence_forged_by_own_stem
#print axioms Verif.Props.C21_absence_forged_through_stem
#print axioms Verif.Props.C21_value_forged_by_repetition
#print axioms Verif.Props.C21_presence_forged_at_shared_path
#print axioms Verif.Props.C21_presence_forged_by_stray_zero
#print axioms Verif.Props.C71_light_client_partial
#print axioms Verif.Props.C22_no_panic_iff_partial
#print axioms Verif.Props.C22_full_claim_false
#print axioms Verif.Props.C23_order_insensitive
#print axioms Verif.Props.C24_proof_roundtrip
#print axioms Verif.Props.C25_outcome_partial
#print axioms Verif.Props.C25_same_hint_partial
#print axioms Verif.Props.C25_canonical_partial
#print axioms Verif.Props.C25_encoder_partial
#print axioms Verif.Props.C25_panics
#print axioms Verif.Props.C25_not_injective
#print axioms Verif.Props.C26_stateless_update_partial
#print axioms Verif.Props.C26_full_claim_false
#print axioms Verif.Props.C27_rejects_partial
#print axioms Verif.Props.C27_extra_ignored
#print axioms Verif.Props.C27_missing_ignored
#print axioms Verif.Props.C27_full_claim_false
#print axioms Verif.Props.C28_completeness
#print axioms Verif.Props.C28_creation_total
#print axioms Verif.Props.C29_verifiers_agree_partial
#print axioms Verif.Props.C29_short_R_panics
#print axioms Verif.Props.C29_long_R
#print axioms Verif.Props.C29_full_claim_false
#print axioms Verif.Props.C30_division_exact
#print axioms Verif.Props.C30_long_panics
#print axioms Verif.Props.C31_barycentric
#print axioms Verif.Props.C31_zero_inside_domain
#print axioms Verif.Props.C32_completeness
#print axioms Verif.Props.C32_creation_total
#print axioms Verif.Props.C32_empty_panics
#print axioms Verif.Props.C32_powers
#print axioms Verif.Props.C33_roundtrip
#print axioms Verif.Props.C33_length_checked_partial
#print axioms Verif.Props.C33_panics_partial
#print axioms Verif.Props.C33_canonical
#print axioms Verif.Props.C33_overlong_accepted
#print axioms Verif.Props.C34_prehash_injective
#print axioms Verif.Props.C34_whole_run
#print axioms Verif.Props.C34_statement_bound
#print axioms Verif.Props.C34_queries_bound
#print axioms Verif.Props.C34_rounds_bound
#print axioms Verif.Props.C34_number
#print axioms Verif.Props.C34_lengths_matter
#print axioms Verif.Props.C35_grouping
#print axioms Verif.Props.C35_order_irrelevant
#print axioms Verif.Props.C36_exact_partial
#print axioms Verif.Props.C36_full_claim_false
#print axioms Verif.Props.C36_large_windows_wrong
#print axioms Verif.Props.C36_other_windows_panic
#print axioms Verif.Props.C37_dispatch
#print axioms Verif.Props.C37_parallel
#print axioms Verif.Props.C37_linear
#print axioms Verif.Props.C37_sparse_dense
#print axioms Verif.Props.C37_is_the_assumed_committer
#print axioms Verif.Props.C37_too_few
#print axioms Verif.Props.C38_equality
#print axioms Verif.Props.C38_equivalence
#print axioms Verif.Props.C38_invalid_unequal
#print axioms Verif.Props.C38_encoding
#print axioms Verif.Props.C38_map_to_field
#print axioms Verif.Props.C38_scalar_hash_partial
#print axioms Verif.Props.C38_same_scalar
#print axioms Verif.Props.C38_at_most_five
#print axioms Verif.Props.C38_at_most_four
#print axioms Verif.Props.C38_full_claim_false
#print axioms Verif.Props.C39_total
#print axioms Verif.Props.C39_accepts
#print axioms Verif.Props.C39_reencode
#print axioms Verif.Props.C39_roundtrip
#print axioms Verif.Props.C39_other_lengths
#print axioms Verif.Props.C39_reduce
#print axioms Verif.Props.C40_batch
#print axioms Verif.Props.C40_zero_y
#print axioms Verif.Props.C41_places_disjoint
#print axioms Verif.Props.C41_keys_differ
#print axioms Verif.Props.C41_bound_sharp
#print axioms Verif.Props.C42_same_stem
#print axioms Verif.Props.C42_header_group
#print axioms Verif.Props.C42_pages
#print axioms Verif.Props.C43_chunking_partial
#print axioms Verif.Props.C43_full_claim_false
#print axioms Verif.Props.C43_empty_panics
#print axioms Verif.Props.C44_headers_partial
#print axioms Verif.Props.C44_extra_chunk_wrong
#print axioms Verif.Props.C44_full_claim_false
#print axioms Verif.Props.C45_derivation_total_partial
#print axioms Verif.Props.C45_full_claim_false
#print axioms Verif.Props.C46_input_unambiguous
#print axioms Verif.Props.C46_layout
#print axioms Verif.Props.C46_general_encoder
#print axioms Verif.Props.C46_hash_collision
#print axioms Verif.Props.C47_delta
#print axioms Verif.Props.C47_update
#print axioms Verif.Props.C47_sparse_delta
#print axioms Verif.Props.C47_sparse_sequence
#print axioms Verif.Props.C47_sparse
#print axioms Verif.Props.C47_sparse_panics
#print axioms Verif.Props.C48_scalar_bytes_partial
#print axioms Verif.Props.C48_full_claim_false
#print axioms Verif.Props.C49_prover_query
#print axioms Verif.Props.C49_verifier_query
#print axioms Verif.Props.C49_prover
#print axioms Verif.Props.C49_prover_only
#print axioms Verif.Props.C49_verifier
#print axioms Verif.Props.C49_verifier_only_partial
#print axioms Verif.Props.C49_sparse
#print axioms Verif.Props.C49_end_to_end
#print axioms Verif.Props.C49_proof_created
#print axioms Verif.Props.C49_empty_request_panics
#print axioms Verif.Props.C50_commit
#print axioms Verif.Props.C50_add
#print axioms Verif.Props.C50_homomorphic
#print axioms Verif.Props.C50_tree_key
#print axioms Verif.Props.C51_hex
#print axioms Verif.Props.C51_conversion
#print axioms Verif.Props.C51_other_stems
#print axioms Verif.Props.C51_expressible
#print axioms Verif.Props.C51_accepted
#print axioms Verif.Props.C51_honest
#print axioms Verif.Props.C51_honest_exists
#print axioms Verif.Props.C51_status_panics
#print axioms Verif.Props.C51_invalid
#print axioms Verif.Props.C66_witness_random_oracle_partial
#print axioms Verif.Props.C52_prime_order
#print axioms Verif.Props.C52_cyclic
#print axioms Verif.Props.C52_represented
#print axioms Verif.Props.C52_operations
#print axioms Verif.Props.C52_parameters
#print axioms Verif.Props.C52_canonical
#print axioms Verif.Props.C52_scalar_field
#print axioms Verif.Props.C53_default
#print axioms Verif.Props.C53_generated
#print axioms Verif.Props.C53_candidates
#print axioms Verif.Props.C53_roundtrip
#print axioms Verif.Props.C53_hex_roundtrip
#print axioms Verif.Props.C53_hex_accepts
#print axioms Verif.Props.C54_hash
#print axioms Verif.Props.C54_hashes
#print axioms Verif.Props.C54_roundtrip
#print axioms Verif.Props.C54_not_unique
#print axioms Verif.Props.C55_ipa_sound
#print axioms Verif.Props.C55_families_exist
#print axioms Verif.Props.C56_multipoint_sound
#print axioms Verif.Props.C56_families_exist
#print axioms Verif.Props.C57_outcome
#print axioms Verif.Props.C57_accepted_partial
#print axioms Verif.Props.C57_same_as_witness
#print axioms Verif.Props.C57_expressible
#print axioms Verif.Props.C57_honest
#print axioms Verif.Props.C57_state3_not_accepted
#print axioms Verif.Props.C57_full_claim_false
#print axioms Verif.Props.C66_java_random_oracle_partial
#print axioms Verif.Props.C58_commit
#print axioms Verif.Props.C58_single
#print axioms Verif.Props.C58_many
#print axioms Verif.Props.C58_update
#print axioms Verif.Props.C58_update_outcome_partial
#print axioms Verif.Props.C58_any_bytes
#print axioms Verif.Props.C58_full_claim_false
#print axioms Verif.Props.C59_context
#print axioms Verif.Props.C59_verify
#print axioms Verif.Props.C59_create
#print axioms Verif.Props.C59_verify_uncompressed
#print axioms Verif.Props.C59_create_uncompressed
#print axioms Verif.Props.C59_honest
#print axioms Verif.Props.C59_proof_created
#print axioms Verif.Props.C59_unchecked
#print axioms Verif.Props.C60_msm_partial
#print axioms Verif.Props.C60_full_claim_false
#print axioms Verif.Props.C60_same
#print axioms Verif.Props.C60_pedersen
#print axioms Verif.Props.C61_reads
#print axioms Verif.Props.C61_committer
#print axioms Verif.Props.C61_generators
#print axioms Verif.Props.C61_commitment_readable
#print axioms Verif.Props.C61_first_write
#print axioms Verif.Props.C61_stem_unreadable
#print axioms Verif.Props.C61_single_root
#print axioms Verif.Props.C61_reopen_panics
#print axioms Verif.Props.C61_full_claim_false
#print axioms Verif.Props.C61_readable_partial
#print axioms Verif.Props.C62_points_compute_elements_partial
#print axioms Verif.Props.C62_cached
#print axioms Verif.Props.C62_choice_of_points
#print axioms Verif.Props.C62_repaired
#print axioms Verif.Props.C62_stored_points_depend_on_history
#print axioms Verif.Props.C63_accepted_update_partial
#print axioms Verif.Props.C66_update_random_oracle_partial
#print axioms Verif.Props.C63_update_drops_value
#print axioms Verif.Props.C63_full_claim_false
#print axioms Verif.Props.C64_seed
#print axioms Verif.Props.C64_default_hex
#print axioms Verif.Props.C65_ipa_convincing
#print axioms Verif.Props.C65_multipoint_convincing
#print axioms Verif.Props.C65_honest_convincing
#print axioms Verif.Props.C65_honest_ipa_convincing
#print axioms Verif.Props.C65_part_small
#print axioms Verif.Props.C65_coins
#print axioms Verif.Props.C66_random_oracle
#print axioms Verif.Props.C66_honest_wins
#print axioms Verif.Props.C66_part_small
#print axioms Verif.Props.C66_ffi_random_oracle
#print axioms Verif.Props.C66_c_random_oracle
#print axioms Verif.Props.C66_accepted_found
#print axioms Verif.Props.C66_coins
#print axioms Verif.Props.C67_compressed
#print axioms Verif.Props.C67_canonical
#print axioms Verif.Props.C67_total
#print axioms Verif.Props.C67_uncompressed_partial
#print axioms Verif.Props.C67_uncompressed_accepts
#print axioms Verif.Props.C67_one_of_two
#print axioms Verif.Props.C67_full_claim_false
#print axioms Verif.Props.C67_hash
#print axioms Verif.Props.C67_sum
#print axioms Verif.Props.C68_openings_accepted
#print axioms Verif.Props.C68_bytes_accepted
#print axioms Verif.Props.C68_c_accepted
#print axioms Verif.Props.C68_proofs_accepted_partial
#print axioms Verif.Props.C68_bandersnatch_partial
#print axioms Verif.Props.C68_update_partial
#print axioms Verif.Props.C68_full_claim_false
#print axioms Verif.Props.C69_ipa_random_oracle_partial
#print axioms Verif.Props.C69_ipa_accepted
#print axioms Verif.Props.C69_free_vector_false
#print axioms Verif.Props.C70_client_follows_partial
#print axioms Verif.Props.C70_chain_random_oracle_partial
#print axioms Verif.Props.C70_honest_chain_partial
#print axioms Verif.Props.C70_honest_chain_random_partial
#print axioms Verif.Props.C70_full_claim_false
#print axioms Verif.Props.C70_honest_chain_false
#print axioms Verif.Props.C71_state_reads
#print axioms Verif.Props.C71_root_binds_state
#print axioms Verif.Props.C71_code_reads
#print axioms Verif.Props.C71_collision
#print axioms Verif.Props.C71_random_hash_partial
#print axioms Verif.Props.C72_proof_size
#print axioms Verif.Props.C72_query_count
#print axioms Verif.Props.C73_memory_partial
#print axioms Verif.Props.C73_accepted
#print axioms Verif.Props.C73_honest
#print axioms Verif.Props.C73_amplification
#print axioms Verif.Props.C73_full_claim_false
#print axioms Verif.Props.C73_same_result
#print axioms Verif.Props.C74_bounded_partial
#print axioms Verif.Props.C74_padding_ignored
#print axioms Verif.Props.C74_stretch
#print axioms Verif.Props.C74_full_claim_false
#print axioms Verif.Props.C75_one_stem_claims_true
#print axioms Verif.Props.C75_one_stem_update
#print axioms Verif.Props.C75_account
#print axioms Verif.Props.C75_random_hash
#print axioms Verif.Props.C75_account_random_hash
#print axioms Verif.Props.C75_account_coins
#print axioms Verif.Props.C75_absence_alone_forged
#print axioms Verif.Props.C75_two_stems_forged
#print axioms Verif.Props.C76_rows
#print axioms Verif.Props.C76_bound_attained
#print axioms Verif.Props.C76_insert_rows
#print axioms Verif.Props.C77_memory
#print axioms Verif.Props.C77_disk_partial
#print axioms Verif.Props.C77_nodes_partial
#print axioms Verif.Props.C77_disk_fails
#print axioms Verif.Props.C77_full_claim_false
#print axioms Verif.Props.C78_ipa_extracted
#print axioms Verif.Props.C78_multipoint_extracted
#print axioms Verif.Props.C79_claims_agree
#print axioms Verif.Props.C79_same_depth_agree
#print axioms Verif.Props.C79_two_values_forged
#print axioms Verif.Props.C79_rewound_claims_agree
#print axioms Verif.Props.C79_random_hash
#print axioms Verif.Props.C79_coins
#print axioms Verif.Props.C80_paths_decide
#print axioms Verif.Props.C80_partial_node
#print axioms Verif.Props.C80_neighbour_needed
#print axioms Verif.Props.C80_partial_prover
#print axioms Verif.Props.C81_memory
#print axioms Verif.Props.C81_disk_partial
#print axioms Verif.Props.C81_disk_returns
#print axioms Verif.Props.C81_stale
#print axioms Verif.Props.C81_full_claim_false
#print axioms Verif.Props.C82_multi_scalar_mul
#print axioms Verif.Props.C82_create_proof
#print axioms Verif.Props.C82_create_proof_uncompressed
#print axioms Verif.Props.C82_verify
#print axioms Verif.Props.C82_pedersen
#print axioms Verif.Props.C82_contexts
#print axioms Verif.Props.C82_null_unchecked
#print axioms Verif.Props.C82_csharp_partial
#print axioms Verif.Props.C82_csharp_full_claim_false
#print axioms Verif.Props.C83_sha
#print axioms Verif.Props.C83_spread
#print axioms Verif.Props.C83_not_uniform
#print axioms Verif.Props.C83_openings
#print axioms Verif.Props.C83_ffi
#print axioms Verif.Props.C83_c
#print axioms Verif.Props.C83_c_coins
#print axioms Verif.Props.C83_one_stem
#print axioms Verif.Props.C83_account
#print axioms Verif.Props.C83_accepted_found
#print axioms Verif.Props.C83_pairs
#print axioms Verif.Props.C83_bits
#print axioms Verif.Props.C83_one_stem_bits
#print axioms Verif.Props.C83_account_bits
#print axioms Verif.Props.C83_honest_openings
#print axioms Verif.Props.C83_honest_bytes
#print axioms Verif.Props.C83_honest_c
#print axioms Verif.Props.C83_trie_partial
#print axioms Verif.Props.C83_update_partial
#print axioms Verif.Props.C83_witness_partial
#print axioms Verif.Props.C83_text_partial
#print axioms Verif.Props.C83_java_partial
#print axioms Verif.Props.C83_chain_partial
#print axioms Verif.Props.C83_ipa_partial
#print axioms Verif.Props.C83_state_partial
#print axioms Verif.Props.C83_honest_proofs_partial
#print axioms Verif.Props.C83_honest_update_partial
#print axioms Verif.Props.C83_honest_trie_partial
#print axioms Verif.Props.C84_one_stem
#print axioms Verif.Props.C84_account
#print axioms Verif.Props.C84_one_stem_coins
#print axioms Verif.Props.C84_account_coins
#print axioms Verif.Props.C84_one_stem_bits
#print axioms Verif.Props.C84_account_bits
#print axioms Verif.Props.C84_claims_partial
#print axioms Verif.Props.C84_update_partial
#print axioms Verif.Props.C85_separated
#print axioms Verif.Props.C85_one_half
#print axioms Verif.Props.C85_differ
#print axioms Verif.Props.C85_honest_proofs
#print axioms Verif.Props.C85_update
#print axioms Verif.Props.C85_header
#print axioms Verif.Props.C85_state
#print axioms Verif.Props.C85_storage_panics
#print axioms Verif.Props.C85_digest
#print axioms Verif.Props.C85_update_digest
#print axioms Verif.Props.C85_state_digest
#print axioms Verif.Props.C85_chain
#print axioms Verif.Props.C86_openings
#print axioms Verif.Props.C86_proofs
#print axioms Verif.Props.C86_update
#print axioms Verif.Props.C86_state
#print axioms Verif.Props.C86_chain
#print axioms Verif.Props.C86_bytes
#print axioms Verif.Props.C86_c
#print axioms Verif.Props.C86_c_uncompressed
#print axioms Verif.Props.C86_proofs_coins
#print axioms Verif.Props.C86_update_coins
#print axioms Verif.Props.C86_state_coins
#print axioms Verif.Props.C86_chain_coins
#print axioms Verif.Props.C86_c_coins
#print axioms Verif.Props.C86_c_uncompressed_coins
#print axioms Verif.Props.C86_bits
#print axioms Verif.Props.C86_proofs_bits
#print axioms Verif.Props.C86_state_bits
#print axioms Verif.Props.C87_sound_partial
#print axioms Verif.Props.C87_forgery
#print axioms Verif.Props.C87_program
#print axioms Verif.Props.C87_absence
#print axioms Verif.Props.C87_program_many
#print axioms Verif.Props.C87_absence_many
#print axioms Verif.Props.C87_full_claim_false
#print axioms Verif.Props.C88_grammar
#print axioms Verif.Props.C88_reads
#print axioms Verif.Props.C88_text
#print axioms Verif.Props.C88_roundtrip
#print axioms Verif.Props.C88_injective
#print axioms Verif.Props.C88_fields
#print axioms Verif.Props.C88_whitespace
#print axioms Verif.Props.C88_accepted
#print axioms Verif.Props.C88_panics
#print axioms Verif.Props.C88_honest
#print axioms Verif.Props.C89_claims
#print axioms Verif.Props.C89_honest
#print axioms Verif.Props.C89_ascii
#print axioms Verif.Props.C89_padding
