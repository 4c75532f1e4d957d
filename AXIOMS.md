# Axioms of the theorems named in MANIFEST.json

Printed by `#print axioms`; `propext`, `Classical.choice` and `Quot.sound` are Lean's own.

| theorem | axioms |
|---|---|
| `Kry.C01_fresh` | propext, Classical.choice, Quot.sound |
| `Kry.C01_live` | propext, Classical.choice, Quot.sound |
| `Kry.C01_dead` | propext, Classical.choice, Quot.sound |
| `Kry.C02_partial` | propext, Classical.choice, Quot.sound |
| `Kry.C02_late_session_reports_user` | propext, Classical.choice, Quot.sound |
| `Kry.C02_so_violation` | propext, Classical.choice, Quot.sound |
| `Kry.C02_failed_logout_violation` | propext, Classical.choice, Quot.sound |
| `Kry.C03_no_ro_beside_so` | propext, Classical.choice, Quot.sound |
| `Kry.C03_open_refused` | propext, Classical.choice, Quot.sound |
| `Kry.C03_login_refused` | propext, Classical.choice, Quot.sound |
| `Kry.C04_login` | propext, Classical.choice, Quot.sound |
| `Kry.C04_nobody_without_session` | propext, Classical.choice, Quot.sound |
| `Kry.C04_first_session_public` | propext, Classical.choice, Quot.sound |
| `Kry.C05_right_pin` | propext, Classical.choice, Quot.sound |
| `Kry.C05_answer` | propext, Classical.choice, Quot.sound |
| `Kry.C05_locked` | propext, Classical.choice, Quot.sound |
| `Kry.C05_restart` | propext, Classical.choice, Quot.sound |
| `Kry.C05_padding_violation` | propext, Classical.choice, Quot.sound |
| `Kry.C05_uncounted_violation` | propext, Classical.choice, Quot.sound |
| `Kry.C06_flags_partial` | propext, Classical.choice, Quot.sound |
| `Kry.C06_low_violation` | propext, Classical.choice, Quot.sound |
| `Kry.C06_init_pin_violation` | propext, Classical.choice, Quot.sound |
| `Kry.C07_pins` | propext, Classical.choice, Quot.sound |
| `Kry.C07_login` | propext, Classical.choice, Quot.sound |
| `Kry.C07_new_pin` | propext, Classical.choice, Quot.sound |
| `Kry.C27_stable` | propext, Classical.choice, Quot.sound |
| `Kry.C08_authorised` | propext, Classical.choice, Quot.sound |
| `Kry.C09_all_or_nothing` | propext, Classical.choice, Quot.sound |
| `Kry.C09_crash_violation` | propext, Classical.choice, Quot.sound |
| `Kry.C10_one_object` | propext, Classical.choice, Quot.sound |
| `Kry.C10_one_handle` | propext, Classical.choice, Quot.sound |
| `Kry.C10_stable` | propext, Classical.choice, Quot.sound |
| `Kry.C10_fresh` | propext, Classical.choice, Quot.sound |
| `Kry.C10_dead` | propext, Classical.choice, Quot.sound |
| `Kry.C11_owner` | propext, Classical.choice, Quot.sound |
| `Kry.C11_usable` | propext, Classical.choice, Quot.sound |
| `Kry.C11_destroyed` | propext, Classical.choice, Quot.sound |
| `Kry.C11_closed` | propext, Classical.choice, Quot.sound |
| `Kry.C11_allClosed` | propext, Classical.choice, Quot.sound |
| `Kry.C11_loggedOut` | propext, Classical.choice, Quot.sound |
| `Kry.C11_othersStay` | propext, Classical.choice, Quot.sound |
| `Kry.C12_use_partial` | propext, Classical.choice, Quot.sound |
| `Kry.C12_derive` | propext, Classical.choice, Quot.sound |
| `Kry.C12_find` | propext, Classical.choice, Quot.sound |
| `Kry.C12_made` | propext, Classical.choice, Quot.sound |
| `Kry.C12_size_violation` | propext, Classical.choice, Quot.sound |
| `Kry.C12_session_violation` | propext, Classical.choice, Quot.sound |
| `Kry.C12_operation_violation` | propext, Classical.choice, Quot.sound |
| `Kry.C12_search_violation` | propext, Classical.choice, Quot.sound |
| `Kry.C13_noninterference_partial` | propext, Classical.choice, Quot.sound |
| `Kry.C13_dh_private_value_is_returned` | propext |
| `Kry.C13_class_change_reveals` | propext |
| `Kry.C13_key_type_change_reveals` | propext |
| `Kry.C13_dedup_violation` | propext, Classical.choice, Quot.sound |
| `Kry.C14_sensitive_stays_true` | propext, Classical.choice, Quot.sound |
| `Kry.C14_wrap_with_trusted_stays_true` | propext, Classical.choice, Quot.sound |
| `Kry.C14_extractable_stays_false` | propext, Classical.choice, Quot.sound |
| `Kry.C14_copyable_stays_false` | propext, Classical.choice, Quot.sound |
| `Kry.C14_handle` | propext, Classical.choice, Quot.sound |
| `Kry.C14_token` | propext, Classical.choice, Quot.sound |
| `Kry.C14_dedup_violation` | propext, Classical.choice, Quot.sound |
| `Kry.C15_accepts_iff` | propext, Classical.choice, Quot.sound |
| `Kry.C15_values` | propext, Classical.choice, Quot.sound |
| `Kry.C15_create_object` | propext, Classical.choice, Quot.sound |
| `Kry.C16_create` | propext, Classical.choice, Quot.sound |
| `Kry.C16_set` | propext, Classical.choice, Quot.sound |
| `Kry.C16_generated` | propext, Classical.choice, Quot.sound |
| `Kry.C16_derive` | propext, Classical.choice, Quot.sound |
| `Kry.C16_copy_partial` | propext, Classical.choice, Quot.sound |
| `Kry.C16_unwrap_forges` | propext |
| `Kry.C16_generate_forges` | propext |
| `Kry.C16_derive_forges` | propext |
| `Kry.C16_copy_forges` | propext |
| `Kry.C17_partial` | propext, Classical.choice, Quot.sound |
| `Kry.C17_copy_forges` | propext, Quot.sound |
| `Kry.C17_unwrap_copy_forges` | propext, Quot.sound |
| `Kry.C17_concat_forges` | propext, Quot.sound |
| `Kry.C17_agreement_forges` | propext |
| `Kry.C18_modifiable` | propext, Classical.choice, Quot.sound |
| `Kry.C18_destroyable` | propext, Classical.choice, Quot.sound |
| `Kry.C18_copyable` | propext, Classical.choice, Quot.sound |
| `Kry.C19_objects_partial` | propext, Classical.choice, Quot.sound |
| `Kry.C19_operations_partial` | propext, Classical.choice, Quot.sound |
| `Kry.C19_copy_violation` | propext, Classical.choice, Quot.sound |
| `Kry.C19_counter_violation` | propext, Classical.choice, Quot.sound |
| `Kry.C19_derive_violation` | propext, Classical.choice, Quot.sound |
| `Kry.C20_handle` | propext, Classical.choice, Quot.sound |
| `Kry.C20_gone_partial` | propext, Classical.choice, Quot.sound |
| `Kry.C20_fault_violation` | propext, Classical.choice, Quot.sound |
| `Kry.C21_partial` | propext, Classical.choice, Quot.sound |
| `Kry.C21_encrypted_violation` | propext, Classical.choice, Quot.sound |
| `Kry.C21_twice_violation` | propext, Classical.choice, Quot.sound |
| `Kry.C22_active` | propext, Classical.choice, Quot.sound |
| `Kry.C22_search_active` | propext, Classical.choice, Quot.sound |
| `Kry.C22_idle_init` | propext, Classical.choice, Quot.sound |
| `Kry.C22_idle_run` | propext, Classical.choice, Quot.sound |
| `Kry.C22_search_idle` | propext, Classical.choice, Quot.sound |
| `Kry.C22_running_partial` | propext, Classical.choice, Quot.sound |
| `Kry.C22_login_violation` | propext, Classical.choice, Quot.sound |
| `Kry.C22_findFinal_violation` | propext, Classical.choice, Quot.sound |
| `Kry.C22_cancel_violation` | propext, Classical.choice, Quot.sound |
| `Kry.C23_partial` | propext, Classical.choice, Quot.sound |
| `Kry.C23_violation` | propext, Classical.choice, Quot.sound |
| `Kry.C24_output` | propext, Classical.choice, Quot.sound |
| `Kry.C24_forever` | propext, Classical.choice, Quot.sound |
| `Kry.C24_token_forever` | propext, Classical.choice, Quot.sound |
| `Kry.C24_dedup_violation` | propext, Classical.choice, Quot.sound |
| `Kry.C25_init_partial` | propext, Classical.choice, Quot.sound |
| `Kry.C25_digest` | propext, Classical.choice, Quot.sound |
| `Kry.C25_wrap` | propext, Classical.choice, Quot.sound |
| `Kry.C25_unwrap` | propext, Classical.choice, Quot.sound |
| `Kry.C25_derive_partial` | propext, Classical.choice, Quot.sound |
| `Kry.C25_encapsulate` | propext, Classical.choice, Quot.sound |
| `Kry.C25_decapsulate` | propext, Classical.choice, Quot.sound |
| `Kry.C25_generate` | propext, Classical.choice, Quot.sound |
| `Kry.C25_generatePair` | propext, Classical.choice, Quot.sound |
| `Kry.C25_tls_violation` | propext, Classical.choice, Quot.sound |
| `Kry.C25_derive_violation` | propext, Classical.choice, Quot.sound |
| `Kry.C26_pair_partial` | propext, Classical.choice, Quot.sound |
| `Kry.C26_derive_partial` | propext, Classical.choice, Quot.sound |
| `Kry.C26_single` | propext, Classical.choice, Quot.sound |
| `Kry.C26_pair_violation` | propext, Classical.choice, Quot.sound |
| `Kry.C26_derive_violation` | propext, Classical.choice, Quot.sound |
| `Kry.C26_fault_violation` | propext, Classical.choice, Quot.sound |
| `Kry.C27_created` | propext, Classical.choice, Quot.sound |
| `Kry.C27_generated` | propext, Classical.choice, Quot.sound |
| `Kry.C27_set` | propext, Classical.choice, Quot.sound |
| `Kry.C27_copied` | propext, Classical.choice, Quot.sound |
| `Kry.C27_unwrapped` | propext, Classical.choice, Quot.sound |
| `Kry.C27_encapsulated` | propext, Classical.choice, Quot.sound |
| `Kry.C27_decapsulated` | propext, Classical.choice, Quot.sound |
| `Kry.C27_pair` | propext, Classical.choice, Quot.sound |
| `Kry.C27_derived` | propext, Classical.choice, Quot.sound |
| `Kry.C27_overwrite_violation` | propext, Classical.choice, Quot.sound |
| `Kry.C27_date_violation` | propext, Classical.choice, Quot.sound |
| `Kry.C28_store` | propext, Classical.choice, Quot.sound |
| `Kry.C28_remove` | propext, Classical.choice, Quot.sound |
| `Kry.C28_refines_store` | propext, Classical.choice, Quot.sound |
| `Kry.C28_refines_remove` | propext, Classical.choice, Quot.sound |
| `Kry.C28_call` | propext, Classical.choice, Quot.sound |
| `Kry.C29_use` | propext, Classical.choice, Quot.sound |
| `Kry.C29_read` | propext, Classical.choice, Quot.sound |
| `Kry.C29_value` | propext, Classical.choice, Quot.sound |
| `Kry.C29_key` | propext, Classical.choice, Quot.sound |
| `Kry.C29_reinit` | propext, Classical.choice, Quot.sound |
| `Kry.C29_dh_violation` | propext, Classical.choice, Quot.sound |
| `Kry.C30_disk_partial` | propext, Classical.choice, Quot.sound |
| `Kry.C30_memory_partial` | propext, Classical.choice, Quot.sound |
| `Kry.C30_twice_violation` | propext, Classical.choice, Quot.sound |
| `Kry.C30_class_violation` | propext, Classical.choice, Quot.sound |
| `Kry.C30_copy_violation` | propext, Classical.choice, Quot.sound |
| `Kry.C30_dh_violation` | propext, Classical.choice, Quot.sound |
| `Kry.C30_logout_violation` | propext, Classical.choice, Quot.sound |
| `Kry.C31_entries_independent` | propext, Quot.sound |
| `Kry.C31_one_entry` | propext, Classical.choice, Quot.sound |
| `Kry.C32_register` | propext, Quot.sound |
| `Kry.C32_slots` | propext, Classical.choice, Quot.sound |
| `Kry.C32_mechs` | propext, Classical.choice, Quot.sound |
| `Kry.C33_config` | propext, Classical.choice, Quot.sound |
| `Kry.C33_reported` | propext, Classical.choice, Quot.sound |
| `Kry.C33_refused` | propext, Classical.choice, Quot.sound |
| `Kry.C33_transparent` | propext, Classical.choice, Quot.sound |
| `Kry.C33_objects_violation` | propext, Classical.choice, Quot.sound |
| `Kry.C34_args` | propext, Quot.sound |
| `Kry.C34_slots` | propext, Classical.choice, Quot.sound |
| `Kry.C34_file_violation` | none |
| `Kry.C34_number_violation` | propext, Classical.choice, Quot.sound |
| `Kry.C34_overflow_violation` | none |
| `Kry.C34_present` | propext, Quot.sound |
| `Kry.C35_copy` | propext, Quot.sound |
| `Kry.C35_widths` | propext, Classical.choice, Quot.sound |
| `Kry.C35_label` | propext, Classical.choice, Quot.sound |
| `Kry.C35_slot` | propext, Classical.choice, Quot.sound |
| `Kry.C35_empty_violation` | propext, Classical.choice, Quot.sound |
| `Kry.C36_accepted_iff_well_formed` | propext, Classical.choice, Quot.sound |
| `Kry.C36_value_kept_partial` | propext, Quot.sound |
| `Kry.C36_round_trips` | propext, Classical.choice, Quot.sound |
| `Kry.C36_array_read_complete` | propext, Quot.sound |
| `Kry.C36_empty_date_is_altered` | none |
| `Kry.C36_null_value_crashes` | propext |
| `Kry.C37_lookup_exact` | propext, Quot.sound |
| `Kry.C37_model_lookup_is_search` | propext, Quot.sound |
| `Kry.C37_names_exact` | propext, Classical.choice, Quot.sound |
| `Kry.C38_sign` | propext, Classical.choice, Quot.sound |
| `Kry.C38_verify` | propext, Classical.choice, Quot.sound |
| `Kry.C38_refuse` | propext, Classical.choice, Quot.sound |
| `Kry.C38_no_reuse` | propext, Classical.choice, Quot.sound |
| `Kry.C38_two_violation` | propext, Classical.choice, Quot.sound |
| `Kry.C38_back_violation` | propext, Classical.choice, Quot.sound |
| `Kry.C38_last_violation` | propext, Classical.choice, Quot.sound |
| `Kry.C38_ignored` | propext, Classical.choice, Quot.sound |
| `Kry.C39_values` | propext, Classical.choice, Quot.sound |
| `Kry.C39_slices` | propext, Quot.sound |
| `Kry.C39_distinct` | propext, Classical.choice, Quot.sound |
| `Kry.C39_fields` | propext, Classical.choice, Quot.sound |
| `Kry.C39_parse` | propext, Quot.sound |
| `Kry.C39_lengths` | propext, Classical.choice, Quot.sound |
| `Kry.C39_length_violation` | propext |
| `Kry.C39_width_violation` | propext, Quot.sound |
| `Kry.C40_read` | propext, Classical.choice, Quot.sound |
| `Kry.C40_result_partial` | propext, Classical.choice, Quot.sound |
| `Kry.C40_three_violation` | propext, Classical.choice, Quot.sound |
| `Kry.C40_panic_violation` | propext, Classical.choice, Quot.sound |
| `Kry.C40_number_violation` | propext, Classical.choice, Quot.sound |
| `Kry.C40_backslash_violation` | propext, Classical.choice, Quot.sound |
| `Kry.C40_escape_violation` | propext, Classical.choice, Quot.sound |
| `Kry.C40_short_violation` | propext, Classical.choice, Quot.sound |
| `Kry.C41_session_partial` | propext |
| `Kry.C41_started_partial` | propext |
| `Kry.C41_finished_partial` | propext |
| `Kry.C41_message_violation` | propext |
| `Kry.C41_shared_violation` | propext |
| `Kry.C41_generate_violation` | propext |
| `Kry.C41_operation` | propext |
| `Kry.C41_detected` | propext, Quot.sound |
| `Kry.C41_object` | propext |
| `Kry.C41_stored_violation` | propext |
| `Kry.C42_digest_partial` | propext, Quot.sound |
| `Kry.C42_mac_partial` | propext, Quot.sound |
| `Kry.C42_rejected` | propext, Quot.sound |
| `Kry.C42_altered_violation` | propext, Quot.sound |
| `Kry.C42_both_violation` | propext, Quot.sound |
| `Kry.C42_failed_violation` | propext, Quot.sound |
| `Kry.C42_verifySig_violation` | propext, Quot.sound |
| `Kry.C42_dropped_violation` | propext, Quot.sound |
| `Kry.C42_key_violation` | propext, Quot.sound |
| `Kry.C42_oneshot_violation` | propext, Quot.sound |
| `Kry.C43_next_partial` | propext, Classical.choice, Quot.sound |
| `Kry.C43_between` | propext, Classical.choice, Quot.sound |
| `Kry.C43_violation` | propext, Classical.choice, Quot.sound |
| `Kry.C44_create` | propext, Classical.choice, Quot.sound |
| `Kry.C44_off` | propext, Classical.choice, Quot.sound |
| `Kry.C44_modifiable_violation` | propext, Classical.choice, Quot.sound |
| `Kry.C45_concat_inherits_partial` | propext, Classical.choice, Quot.sound |
| `Kry.C45_launders` | propext, Quot.sound |
| `Kry.C46_output_partial` | propext, Classical.choice, Quot.sound |
| `Kry.C46_extract_aligned_wrong` | propext, Quot.sound |
| `Kry.C47_partial` | propext, Classical.choice, Quot.sound |
| `Kry.C47_live_partial` | propext, Classical.choice, Quot.sound |
| `Kry.C47_forever` | none |
| `Kry.C47_login_violation` | propext, Quot.sound |
| `Kry.C47_logout_violation` | propext, Quot.sound |
| `Kry.C47_frozen_violation` | propext, Quot.sound |
| `Kry.C47_fips_violation` | propext, Quot.sound |
| `Kry.C47_partial_nonvacuous` | propext, Quot.sound |
| `Kry.C48_create_partial` | propext, Classical.choice, Quot.sound |
| `Kry.C48_unwrap_partial` | propext, Classical.choice, Quot.sound |
| `Kry.C48_derive_partial` | propext, Classical.choice, Quot.sound |
| `Kry.C48_agreement_partial` | propext, Classical.choice, Quot.sound |
| `Kry.C48_generate_partial` | propext, Classical.choice, Quot.sound |
| `Kry.C48_generate_violation` | propext, Quot.sound |
| `Kry.C48_unwrap_hmac_violation` | propext, Classical.choice, Quot.sound |
| `Kry.C48_unwrap_hotp_violation` | propext, Classical.choice, Quot.sound |
| `Kry.C48_set_violation` | propext, Quot.sound |
| `Kry.C49_fixed` | propext, Classical.choice, Quot.sound |
| `Kry.C49_others` | propext, Classical.choice, Quot.sound |
| `Kry.C49_unnamed` | propext, Classical.choice, Quot.sound |
| `Kry.C49_failed_partial` | propext, Classical.choice, Quot.sound |
| `Kry.C49_failed_violation` | propext, Classical.choice, Quot.sound |
| `Kry.C50_multi` | propext, Quot.sound |
| `Kry.C50_oneshot` | propext, Quot.sound |
| `Kry.C50_verify` | propext, Quot.sound |
| `Kry.C50_verifySig` | propext, Quot.sound |
| `Kry.C50_reset` | propext, Quot.sound |
| `Kry.C50_after` | none |
| `Kry.C84_sign` | propext, Classical.choice, Quot.sound |
| `Kry.C84_verify` | propext, Classical.choice, Quot.sound |
| `Kry.C84_verifySig` | propext, Classical.choice, Quot.sound |
| `Kry.C84_param` | propext, Classical.choice, Quot.sound |
| `Kry.C84_ended` | propext, Classical.choice, Quot.sound |
| `Kry.C51_use_partial` | propext, Classical.choice, Quot.sound |
| `Kry.C51_made` | propext, Classical.choice, Quot.sound |
| `Kry.C51_legacy_violation` | propext, Quot.sound |
| `Kry.C51_placeholder_violation` | propext, Quot.sound |
| `Kry.C51_range_violation` | propext, Quot.sound |
| `Kry.C52_parts` | propext, Quot.sound |
| `Kry.C52_final` | propext, Quot.sound |
| `Kry.C52_pad` | propext, Quot.sound |
| `Kry.C52_query` | propext, Classical.choice, Quot.sound |
| `Kry.C52_oneshot` | propext, Classical.choice, Quot.sound |
| `Kry.C53_parts` | propext, Quot.sound |
| `Kry.C53_final` | propext, Quot.sound |
| `Kry.C53_pad_partial` | propext, Classical.choice, Quot.sound |
| `Kry.C53_pad_sound` | propext, Classical.choice, Quot.sound |
| `Kry.C53_small_first_violation` | propext, Quot.sound |
| `Kry.C53_final_length_violation` | propext, Quot.sound |
| `Kry.C54_stream` | propext, Quot.sound |
| `Kry.C54_roundtrip` | propext, Quot.sound |
| `Kry.C54_nonce_partial` | propext, Classical.choice, Quot.sound |
| `Kry.C54_nonce_violation` | propext, Quot.sound |
| `Kry.C54_last_violation` | propext, Quot.sound |
| `Kry.C55_counter_partial` | propext, Classical.choice, Quot.sound |
| `Kry.C55_xor_partial` | propext, Classical.choice, Quot.sound |
| `Kry.C55_fixed` | propext, Quot.sound |
| `Kry.C55_xor_violation` | propext, Quot.sound |
| `Kry.C55_fixed_violation` | propext, Quot.sound |
| `Kry.C56_parts` | propext, Classical.choice, Quot.sound |
| `Kry.C56_oneshot` | propext, Classical.choice, Quot.sound |
| `Kry.C56_verify` | propext, Classical.choice, Quot.sound |
| `Kry.C56_verify_oneshot` | propext, Classical.choice, Quot.sound |
| `Kry.C56_zero_violation` | propext, Classical.choice, Quot.sound |
| `Kry.C56_noparts_violation` | propext, Classical.choice, Quot.sound |
| `Kry.C57_encrypt` | propext, Quot.sound |
| `Kry.C57_encrypt_oneshot` | propext, Quot.sound |
| `Kry.C57_decrypt_partial` | propext, Quot.sound |
| `Kry.C57_decrypt_oneshot` | propext, Quot.sound |
| `Kry.C57_roundtrip` | propext, Quot.sound |
| `Kry.C57_skip_violation` | propext, Quot.sound |
| `Kry.C58_encrypt_partial` | propext, Classical.choice, Quot.sound |
| `Kry.C58_encrypt_oneshot` | propext, Classical.choice, Quot.sound |
| `Kry.C58_decrypt_partial` | propext, Classical.choice, Quot.sound |
| `Kry.C58_decrypt_oneshot_partial` | propext, Classical.choice, Quot.sound |
| `Kry.C58_roundtrip` | propext, Classical.choice, Quot.sound |
| `Kry.C58_excess_violation` | propext, Quot.sound |
| `Kry.C58_empty_violation` | propext, Classical.choice, Quot.sound |
| `Kry.C59_update_partial` | propext, Quot.sound |
| `Kry.C59_final` | propext, Quot.sound |
| `Kry.C59_oneshot_partial` | propext, Quot.sound |
| `Kry.C59_pad_violation` | propext, Quot.sound |
| `Kry.C59_ctr_violation` | propext, Quot.sound |
| `Kry.C59_cts_violation` | propext, Quot.sound |
| `Kry.C59_ccm_violation` | propext, Quot.sound |
| `Kry.C59_cts_room_violation` | propext, Quot.sound |
| `Kry.C60_prf` | propext, Classical.choice, Quot.sound |
| `Kry.C60_master` | propext, Classical.choice, Quot.sound |
| `Kry.C60_ems` | propext, Classical.choice, Quot.sound |
| `Kry.C60_kdf` | propext, Classical.choice, Quot.sound |
| `Kry.C60_expand_partial` | propext, Classical.choice, Quot.sound |
| `Kry.C60_protect` | propext, Classical.choice, Quot.sound |
| `Kry.C60_once` | propext, Quot.sound |
| `Kry.C60_zero_violation` | propext, Classical.choice, Quot.sound |
| `Kry.C60_launder_violation` | propext, Classical.choice, Quot.sound |
| `Kry.C61_mac` | propext, Classical.choice, Quot.sound |
| `Kry.C61_sign` | propext, Classical.choice, Quot.sound |
| `Kry.C61_verify` | propext, Classical.choice, Quot.sound |
| `Kry.C61_done` | propext, Quot.sound |
| `Kry.C61_zero_violation` | propext, Classical.choice, Quot.sound |
| `Kry.C61_empty_violation` | propext, Classical.choice, Quot.sound |
| `Kry.C62_value` | propext, Classical.choice, Quot.sound |
| `Kry.C62_kind` | propext, Classical.choice, Quot.sound |
| `Kry.C62_once` | propext |
| `Kry.C62_launder` | propext, Classical.choice, Quot.sound |
| `Kry.C62_launder_violation` | propext |
| `Kry.C62_size_violation` | propext |
| `Kry.C63_value_partial` | propext, Classical.choice, Quot.sound |
| `Kry.C63_marks` | propext, Classical.choice, Quot.sound |
| `Kry.C63_refused` | propext, Classical.choice, Quot.sound |
| `Kry.C63_zero` | propext, Classical.choice, Quot.sound |
| `Kry.C63_zero_violation` | propext, Quot.sound |
| `Kry.C64_value` | propext, Classical.choice, Quot.sound |
| `Kry.C64_protect` | propext, Classical.choice, Quot.sound |
| `Kry.C64_once` | propext |
| `Kry.C64_panic_violation` | propext, Quot.sound |
| `Kry.C65_value` | propext, Classical.choice, Quot.sound |
| `Kry.expand_unique` | propext, Quot.sound |
| `Kry.C65_kind_partial` | propext, Classical.choice, Quot.sound |
| `Kry.C65_base` | propext, Classical.choice, Quot.sound |
| `Kry.C65_once` | propext |
| `Kry.C65_data` | propext, Classical.choice, Quot.sound |
| `Kry.C65_data_violation` | propext, Quot.sound |
| `Kry.C65_class_violation` | propext, Quot.sound |
| `Kry.C65_size_violation` | propext, Quot.sound |
| `Kry.C65_short_violation` | propext, Quot.sound |
| `Kry.C65_flag_violation` | propext, Quot.sound |
| `Kry.C66_wrong_partial` | propext, Classical.choice, Quot.sound |
| `Kry.C66_right` | propext, Classical.choice, Quot.sound |
| `Kry.C66_started_partial` | propext, Classical.choice, Quot.sound |
| `Kry.C66_any_violation` | propext, Classical.choice, Quot.sound |
| `Kry.C66_set` | propext, Classical.choice, Quot.sound |
| `Kry.C66_set_accepted` | propext, Classical.choice, Quot.sound |
| `Kry.C66_set_violation` | propext, Classical.choice, Quot.sound |
| `Kry.C66_refused` | propext, Classical.choice, Quot.sound |
| `Kry.C66_lockout_violation` | propext, Classical.choice, Quot.sound |
| `Kry.C66_right_runs_partial` | propext, Classical.choice, Quot.sound |
| `Kry.C66_so` | propext, Classical.choice, Quot.sound |
| `Kry.C66_witness` | propext, Classical.choice, Quot.sound |
| `Kry.C66_lockout_witness` | propext, Classical.choice, Quot.sound |
| `Kry.C67_rows_partial` | propext, Classical.choice, Quot.sound |
| `Kry.C67_refused` | propext, Classical.choice, Quot.sound |
| `Kry.C67_lost_violation` | propext, Classical.choice, Quot.sound |
| `Kry.C67_kicked_violation` | propext, Classical.choice, Quot.sound |
| `Kry.C67_lost_witness` | propext, Classical.choice, Quot.sound |
| `Kry.C67_lostTo_witness` | propext, Classical.choice, Quot.sound |
| `Kry.C68_now_partial` | propext, Classical.choice, Quot.sound |
| `Kry.C68_restart_partial` | propext, Classical.choice, Quot.sound |
| `Kry.C68_now_witness` | propext, Classical.choice, Quot.sound |
| `Kry.C68_restart_witness` | propext, Classical.choice, Quot.sound |
| `Kry.C68_null_violation` | propext, Quot.sound |
| `Kry.C68_unavailable_violation` | propext, Classical.choice, Quot.sound |
| `Kry.C68_violation_witness` | propext, Classical.choice, Quot.sound |
| `Kry.C68_missing` | propext, Classical.choice, Quot.sound |
| `Kry.C69_secret_partial` | propext, Classical.choice, Quot.sound |
| `Kry.C69_verified_partial` | propext, Classical.choice, Quot.sound |
| `Kry.C69_secret_witness` | propext, Classical.choice, Quot.sound |
| `Kry.C69_secret_witness2` | propext, Classical.choice, Quot.sound |
| `Kry.C69_verified_witness` | propext, Classical.choice, Quot.sound |
| `Kry.C69_loggedout_violation` | propext, Classical.choice, Quot.sound |
| `Kry.C69_short_violation` | propext, Quot.sound |
| `Kry.C69_alter_violation` | propext, Classical.choice, Quot.sound |
| `Kry.C69_loggedout_witness` | propext, Classical.choice, Quot.sound |
| `Kry.C69_short_witness` | propext, Classical.choice, Quot.sound |
| `Kry.C70_exact_partial` | propext, Classical.choice, Quot.sound |
| `Kry.C70_stored_partial` | propext, Classical.choice, Quot.sound |
| `Kry.C70_tidy_empty` | propext |
| `Kry.C70_tidy_store` | propext, Classical.choice, Quot.sound |
| `Kry.C70_tidy_pin` | propext, Classical.choice, Quot.sound |
| `Kry.C70_stored_witness` | propext, Classical.choice, Quot.sound |
| `Kry.C70_stored_witness2` | propext, Classical.choice, Quot.sound |
| `Kry.C70_order_violation` | propext, Classical.choice, Quot.sound |
| `Kry.C70_column_violation` | propext, Classical.choice, Quot.sound |
| `Kry.C71_dead_partial` | propext, Classical.choice, Quot.sound |
| `Kry.C71_back_violation` | propext, Classical.choice, Quot.sound |
| `Kry.C71_witness` | propext, Classical.choice, Quot.sound |
| `Kry.C72_search_partial` | propext, Classical.choice, Quot.sound |
| `Kry.C72_read_partial` | propext, Classical.choice, Quot.sound |
| `Kry.C72_witness` | propext, Classical.choice, Quot.sound |
| `Kry.C73_store` | propext, Classical.choice, Quot.sound |
| `Kry.C73_set` | propext, Classical.choice, Quot.sound |
| `Kry.C73_runs` | propext, Classical.choice, Quot.sound |
| `Kry.C73_witness` | propext, Classical.choice, Quot.sound |
| `Kry.C74_read_partial` | propext, Classical.choice, Quot.sound |
| `Kry.C74_class_violation` | propext, Classical.choice, Quot.sound |
| `Kry.C74_twice_violation` | propext, Classical.choice, Quot.sound |
| `Kry.C74_witness` | propext, Classical.choice, Quot.sound |
| `Kry.C75_back` | propext, Classical.choice, Quot.sound |
| `Kry.C75_succeeds` | propext, Classical.choice, Quot.sound |
| `Kry.C75_calls` | propext, Classical.choice, Quot.sound |
| `Kry.C75_empty_integer_violation` | propext, Quot.sound |
| `Kry.C75_zero_modulus_violation` | propext, Quot.sound |
| `Kry.C75_negative_violation` | propext, Quot.sound |
| `Kry.C75_small_violation` | propext, Quot.sound |
| `Kry.C75_empty_prime_violation` | propext, Quot.sound |
| `Kry.C75_encoding` | propext, Classical.choice, Quot.sound |
| `Kry.C76_back` | propext, Classical.choice, Quot.sound |
| `Kry.C76_type` | propext, Classical.choice, Quot.sound |
| `Kry.C76_succeeds` | propext, Classical.choice, Quot.sound |
| `Kry.C76_rfc8410_violation` | propext, Quot.sound |
| `Kry.C76_rfc8410_export_violation` | propext, Quot.sound |
| `Kry.C76_length_violation` | propext, Quot.sound |
| `Kry.C77_to_raw` | propext, Classical.choice, Quot.sound |
| `Kry.C77_to_der` | propext, Classical.choice, Quot.sound |
| `Kry.C77_fits` | propext, Classical.choice, Quot.sound |
| `Kry.C77_back` | propext, Classical.choice, Quot.sound |
| `Kry.C77_forth` | propext, Classical.choice, Quot.sound |
| `Kry.C77_parts` | propext, Quot.sound |
| `Kry.C77_raw_parts` | propext, Quot.sound |
| `Kry.C77_accepts` | propext, Classical.choice, Quot.sound |
| `Kry.C77_verifies` | propext, Classical.choice, Quot.sound |
| `Kry.C77_finished` | propext, Quot.sound |
| `Kry.C77_given_first` | propext, Classical.choice, Quot.sound |
| `Kry.C77_signs` | propext, Classical.choice, Quot.sound |
| `Kry.C78_back` | propext, Classical.choice, Quot.sound |
| `Kry.C78_wrap_back` | propext, Classical.choice, Quot.sound |
| `Kry.C78_asking` | propext, Classical.choice, Quot.sound |
| `Kry.C78_honest` | propext, Quot.sound |
| `Kry.C78_limits` | propext, Classical.choice, Quot.sound |
| `Kry.C78_parts` | propext, Classical.choice, Quot.sound |
| `Kry.C78_verifies` | propext, Classical.choice, Quot.sound |
| `Kry.C78_accepted` | propext, Classical.choice, Quot.sound |
| `Kry.C78_finished` | propext, Classical.choice, Quot.sound |
| `Kry.C78_parameters` | propext, Classical.choice, Quot.sound |
| `Kry.C78_zero_buffer_violation` | propext, Classical.choice, Quot.sound |
| `Kry.C78_x509_length_violation` | propext, Classical.choice, Quot.sound |
| `Kry.C78_oaep_violation` | propext, Quot.sound |
| `Kry.C78_short_buffer_violation` | propext, Classical.choice, Quot.sound |
| `Kry.C78_padded_violation` | propext, Classical.choice, Quot.sound |
| `Kry.C79_signs` | propext, Quot.sound |
| `Kry.C79_verifies` | propext, Quot.sound |
| `Kry.C79_parts` | propext, Classical.choice, Quot.sound |
| `Kry.C79_init` | propext, Classical.choice, Quot.sound |
| `Kry.C79_injective` | propext, Quot.sound |
| `Kry.C79_cross` | propext, Quot.sound |
| `Kry.C79_accepted` | propext, Quot.sound |
| `Kry.C79_bound` | propext, Quot.sound |
| `Kry.C79_finished` | propext, Classical.choice, Quot.sound |
| `Kry.C79_invalid_violation` | propext, Quot.sound |
| `Kry.C79_hash_violation` | propext, Classical.choice, Quot.sound |
| `Kry.C79_size_violation` | propext, Quot.sound |
| `Kry.C80_signs` | propext, Quot.sound |
| `Kry.C80_verifies` | propext, Quot.sound |
| `Kry.C80_parts` | propext, Quot.sound |
| `Kry.C80_accepted` | propext, Quot.sound |
| `Kry.C80_init` | propext, Quot.sound |
| `Kry.C80_finished` | propext, Quot.sound |
| `Kry.C80_lost_part_violation` | propext, Quot.sound |
| `Kry.C80_alive_violation` | propext, Quot.sound |
| `Kry.C81_ecdh` | propext, Classical.choice, Quot.sound |
| `Kry.C81_determined` | propext, Quot.sound |
| `Kry.C81_agree` | propext, Classical.choice, Quot.sound |
| `Kry.C81_works` | propext, Classical.choice, Quot.sound |
| `Kry.C81_refuses` | propext, Classical.choice, Quot.sound |
| `Kry.C81_der` | propext, Classical.choice, Quot.sound |
| `Kry.C81_ffdh_partial` | propext, Classical.choice, Quot.sound |
| `Kry.C81_ffdh_violation` | propext, Classical.choice, Quot.sound |
| `Kry.C81_ffdh_short_violation` | propext, Classical.choice, Quot.sound |
| `Kry.C81_ffdh_agree` | propext, Quot.sound |
| `Kry.C81_ffdh_works` | propext, Classical.choice, Quot.sound |
| `Kry.C81_ffdh_refuses` | propext, Classical.choice, Quot.sound |
| `Kry.C82_encap` | propext, Classical.choice, Quot.sound |
| `Kry.C82_decap` | propext, Classical.choice, Quot.sound |
| `Kry.C82_same` | propext, Classical.choice, Quot.sound |
| `Kry.C82_size` | propext, Classical.choice, Quot.sound |
| `Kry.C82_refuses` | propext, Classical.choice, Quot.sound |
| `Kry.C83_public` | propext, Classical.choice, Quot.sound |
| `Kry.C83_private` | propext, Classical.choice, Quot.sound |
| `Kry.C83_derived` | propext, Classical.choice, Quot.sound |
| `Kry.C83_pair_partial` | propext, Classical.choice, Quot.sound |
| `Kry.C83_forged_violation` | propext, Classical.choice, Quot.sound |
| `Kry.C83_refused_violation` | propext, Classical.choice, Quot.sound |
| `Kry.C83_usages` | propext, Classical.choice, Quot.sound |
| `Kry.C84_digest` | propext, Classical.choice, Quot.sound |
| `Kry.C85_apart` | propext, Classical.choice, Quot.sound |
| `Kry.C85_same` | propext, Classical.choice, Quot.sound |
| `Kry.C86_calls` | propext, Classical.choice, Quot.sound |
| `Kry.C86_encrypt` | propext, Classical.choice, Quot.sound |
| `Kry.C86_pad` | propext, Classical.choice, Quot.sound |
| `Kry.C86_decrypt` | propext, Classical.choice, Quot.sound |
| `Kry.C86_unpad_partial` | propext, Classical.choice, Quot.sound |
| `Kry.C86_roundtrip_partial` | propext, Classical.choice, Quot.sound |
| `Kry.C86_ctr` | propext, Classical.choice, Quot.sound |
| `Kry.C86_gcm` | propext, Classical.choice, Quot.sound |
| `Kry.C86_gcm_open` | propext, Classical.choice, Quot.sound |
| `Kry.C86_ccm` | propext, Classical.choice, Quot.sound |
| `Kry.C86_ccm_open_partial` | propext, Classical.choice, Quot.sound |
| `Kry.C87_talk` | propext, Classical.choice, Quot.sound |
| `Kry.C87_sign` | propext, Classical.choice, Quot.sound |
| `Kry.C87_sign_oneshot` | propext, Classical.choice, Quot.sound |
| `Kry.C87_gives` | propext, Classical.choice, Quot.sound |
| `Kry.C87_verify` | propext, Classical.choice, Quot.sound |
| `Kry.C87_verify_oneshot` | propext, Classical.choice, Quot.sound |
| `Kry.C87_given` | propext, Classical.choice, Quot.sound |
| `Kry.C87_given_oneshot` | propext, Classical.choice, Quot.sound |
| `Kry.C87_accepts` | propext, Classical.choice, Quot.sound |
| `Kry.C87_zero_violation` | propext, Classical.choice, Quot.sound |
| `Kry.C88_talk` | propext, Classical.choice, Quot.sound |
| `Kry.C88_signed` | propext, Classical.choice, Quot.sound |
| `Kry.C88_gives` | propext, Classical.choice, Quot.sound |
| `Kry.C88_verified` | propext, Classical.choice, Quot.sound |
| `Kry.C88_verdict` | propext, Classical.choice, Quot.sound |
| `Kry.C88_roundtrip` | propext, Classical.choice, Quot.sound |
| `Kry.C89_talk` | propext, Classical.choice, Quot.sound |
| `Kry.C89_signed` | propext, Classical.choice, Quot.sound |
| `Kry.C89_gives` | propext, Classical.choice, Quot.sound |
| `Kry.C89_verified` | propext, Classical.choice, Quot.sound |
| `Kry.C89_verdict_partial` | propext, Classical.choice, Quot.sound |
| `Kry.C89_roundtrip` | propext, Classical.choice, Quot.sound |
| `Kry.C89_whole` | propext, Classical.choice, Quot.sound |
| `Kry.C89_invalid_violation` | propext, Classical.choice, Quot.sound |
| `Kry.C90_talk` | propext, Classical.choice, Quot.sound |
| `Kry.C90_signed` | propext, Classical.choice, Quot.sound |
| `Kry.C90_gives` | propext, Classical.choice, Quot.sound |
| `Kry.C90_range` | propext, Classical.choice, Quot.sound |
| `Kry.C90_verified` | propext, Classical.choice, Quot.sound |
| `Kry.C90_verdict_partial` | propext, Classical.choice, Quot.sound |
| `Kry.C90_roundtrip` | propext, Classical.choice, Quot.sound |
| `Kry.C90_whole` | propext, Classical.choice, Quot.sound |
| `Kry.C90_invalid_violation` | propext, Classical.choice, Quot.sound |
| `Kry.C91_talk` | propext, Classical.choice, Quot.sound |
| `Kry.C91_signed` | propext, Classical.choice, Quot.sound |
| `Kry.C91_gives` | propext, Classical.choice, Quot.sound |
| `Kry.C91_verified` | propext, Classical.choice, Quot.sound |
| `Kry.C91_verdict_partial` | propext, Classical.choice, Quot.sound |
| `Kry.C91_roundtrip` | propext, Classical.choice, Quot.sound |
| `Kry.C91_whole` | propext, Classical.choice, Quot.sound |
| `Kry.C91_invalid_violation` | propext, Classical.choice, Quot.sound |
| `Kry.C92_mac` | propext, Classical.choice, Quot.sound |
| `Kry.C92_ecdsa` | propext, Classical.choice, Quot.sound |
| `Kry.C92_rsa` | propext, Classical.choice, Quot.sound |
| `Kry.C92_eddsa` | propext, Classical.choice, Quot.sound |
| `Kry.C92_eddsa_param` | propext, Classical.choice, Quot.sound |
| `Kry.C92_pq` | propext, Classical.choice, Quot.sound |
| `Kry.C92_eddsa_violation` | propext, Classical.choice, Quot.sound |
| `Kry.C93_pq` | propext, Classical.choice, Quot.sound |
| `Kry.C93_pqSet` | propext, Classical.choice, Quot.sound |
| `Kry.C93_aes` | propext, Quot.sound |
| `Kry.C93_mac` | none |
| `Kry.C93_ecdsa` | propext, Quot.sound |
| `Kry.C93_rsa` | propext, Classical.choice, Quot.sound |
| `Kry.C93_pss` | propext, Classical.choice, Quot.sound |
| `Kry.C93_pss_taken` | propext, Classical.choice, Quot.sound |
| `Kry.C93_hash_violation` | propext, Classical.choice, Quot.sound |
