# Axioms each theorem of the manifest depends on

From `#print axioms`, grouped by the set of axioms. All three are the standard ones of Lean.

## none

* `Psbt.C38_u32`

## propext

* `Psbt.C03_wrong_type`
* `Psbt.C115_dleq`
* `Psbt.C37_segwit_covers_only`
* `Psbt.C55_map`
* `Psbt.C55_xpriv`
* `Psbt.V0.C109_source_counterexample`
* `Psbt.V2.C54_dleq_iff`
* `Psbt.V2.C93_roles_partial`

## Quot.sound, propext

* `Psbt.C02_end_of_map_iff`
* `Psbt.C04_tap_signature_iff`
* `Psbt.C109_value_counterexample`
* `Psbt.C32_weight`
* `Psbt.C38_ecdsa`
* `Psbt.C38_taproot`
* `Psbt.C55_derivation_failed`
* `Psbt.C55_not_supported`
* `Psbt.C55_set_partial`
* `Psbt.C93_key_names`
* `Psbt.C95_listing_unique`
* `Psbt.V2.C109_roles`
* `Psbt.V2.C44_operand`

## Classical.choice, Quot.sound, propext

* `Psbt.Both.C108_combine`
* `Psbt.Both.C108_extract`
* `Psbt.Both.C108_extract_with_limit`
* `Psbt.Both.C108_fee`
* `Psbt.Both.C108_finalize_counterexample`
* `Psbt.Both.C108_finalize_partial`
* `Psbt.Both.C108_message_counterexample`
* `Psbt.Both.C108_message_partial`
* `Psbt.Both.C108_output_type`
* `Psbt.Both.C108_scripts_partial`
* `Psbt.Both.C108_sign_partial`
* `Psbt.Both.C108_unsigned_tx_iff_partial`
* `Psbt.Both.C108_unsigned_tx_partial`
* `Psbt.C01_reads_exactly_compact_size`
* `Psbt.C01_writes_compact_size`
* `Psbt.C02_oversized_rejected`
* `Psbt.C02_pair_format`
* `Psbt.C02_pair_read_iff`
* `Psbt.C03_format`
* `Psbt.C03_long_key_data_unreadable`
* `Psbt.C03_read_iff`
* `Psbt.C03_roundtrip`
* `Psbt.C04_exact`
* `Psbt.C04_format`
* `Psbt.C04_roundtrip`
* `Psbt.C05_height_iff`
* `Psbt.C05_time_iff`
* `Psbt.C100_v0`
* `Psbt.C100_v2`
* `Psbt.C100_v2_signer`
* `Psbt.C109_funding`
* `Psbt.C109_key_text`
* `Psbt.C109_length`
* `Psbt.C109_map_iff`
* `Psbt.C109_pair_iff`
* `Psbt.C109_unsourced_occur`
* `Psbt.C109_v0_index`
* `Psbt.C109_v0_which_input`
* `Psbt.C109_v2_index`
* `Psbt.C109_v2_which_input`
* `Psbt.C109_value_iff`
* `Psbt.C113_commits`
* `Psbt.C113_witnesses`
* `Psbt.C115_version`
* `Psbt.C117_bip32_counterexample`
* `Psbt.C117_fee_apart`
* `Psbt.C117_finalize_input_partial`
* `Psbt.C117_fingerprint_counterexample`
* `Psbt.C117_get_key_partial`
* `Psbt.C117_insert_apart`
* `Psbt.C117_insert_partial`
* `Psbt.C117_map_apart`
* `Psbt.C117_parts`
* `Psbt.C117_redeem_script_counterexample`
* `Psbt.C117_value_apart`
* `Psbt.C37_legacy_covers_only`
* `Psbt.C37_legacy_layout`
* `Psbt.C37_segwit_layout`
* `Psbt.C38_hex`
* `Psbt.C38_reads_iff`
* `Psbt.C38_text`
* `Psbt.C38_text_injective`
* `Psbt.C38_writes`
* `Psbt.C53_other_versions_rejected`
* `Psbt.C53_version_iff`
* `Psbt.C53_version_roundtrip`
* `Psbt.C55_set_counterexample`
* `Psbt.C73_base64_bijective`
* `Psbt.C74_any_order`
* `Psbt.C74_bytes_v0`
* `Psbt.C74_bytes_v2`
* `Psbt.C74_dleq_length`
* `Psbt.C74_fields`
* `Psbt.C74_hex_read`
* `Psbt.C74_hex_written`
* `Psbt.C74_json`
* `Psbt.C74_keys_read`
* `Psbt.C74_left_out`
* `Psbt.C74_other_names`
* `Psbt.C74_owned_counterexample`
* `Psbt.C74_parts`
* `Psbt.C74_required`
* `Psbt.C74_twice`
* `Psbt.C74_v0_roundtrip_iff`
* `Psbt.C74_v2_roundtrip_iff`
* `Psbt.C75_lock_time_counterexample`
* `Psbt.C75_roles_partial`
* `Psbt.C75_version_counterexample`
* `Psbt.C76_downgrade_counterexample`
* `Psbt.C76_downgrade_loses`
* `Psbt.C76_downgrade_partial`
* `Psbt.C76_downgrade_reads`
* `Psbt.C76_ignored_partial`
* `Psbt.C76_upgrade_counterexample`
* `Psbt.C86_msg_ecdsa`
* `Psbt.C86_msg_partial`
* `Psbt.C86_stale_counterexample`
* `Psbt.C86_v0_ecdsa`
* `Psbt.C86_v0_sign`
* `Psbt.C86_v2_ecdsa`
* `Psbt.C86_v2_sign`
* `Psbt.C94_one_version`
* `Psbt.C94_one_version_text`
* `Psbt.C94_v0_refused`
* `Psbt.C94_v2_refused`
* `Psbt.C95_control_iff`
* `Psbt.C95_read_iff`
* `Psbt.C95_same_tree`
* `Psbt.C95_swapped_root`
* `Psbt.C95_written`
* `Psbt.V0.C08_v0_invalid_magic_iff`
* `Psbt.V0.C08_v0_invalid_separator_iff`
* `Psbt.V0.C08_v0_magic_and_separator`
* `Psbt.V0.C101_all_signed`
* `Psbt.V0.C101_amount`
* `Psbt.V0.C101_one_segwit_counterexample`
* `Psbt.V0.C101_one_taproot`
* `Psbt.V0.C101_v0_checked_partial`
* `Psbt.V0.C101_v0_contradiction_counterexample`
* `Psbt.V0.C101_v0_unchecked_counterexample`
* `Psbt.V0.C101_v0_updated`
* `Psbt.V0.C102_signatures_counterexample`
* `Psbt.V0.C102_v0`
* `Psbt.V0.C102_v0_parsed`
* `Psbt.V0.C102_v0_restored`
* `Psbt.V0.C103_v0_alike`
* `Psbt.V0.C103_v0_extract`
* `Psbt.V0.C103_v0_finalize`
* `Psbt.V0.C103_v0_message`
* `Psbt.V0.C103_v0_sign`
* `Psbt.V0.C104_v0_anyone_can_pay`
* `Psbt.V0.C104_v0_ecdsa`
* `Psbt.V0.C104_v0_taproot`
* `Psbt.V0.C105_v0`
* `Psbt.V0.C105_v0_trace`
* `Psbt.V0.C107_v0_counterexample`
* `Psbt.V0.C107_v0_money_partial`
* `Psbt.V0.C107_v0_partial`
* `Psbt.V0.C109_error_iff`
* `Psbt.V0.C109_preimage`
* `Psbt.V0.C109_roles`
* `Psbt.V0.C109_text_iff`
* `Psbt.V0.C110_combine_kept`
* `Psbt.V0.C110_combine_retry`
* `Psbt.V0.C110_final_again`
* `Psbt.V0.C110_finalize_counterexample`
* `Psbt.V0.C110_finalize_retry_partial`
* `Psbt.V0.C110_stuck`
* `Psbt.V0.C111_ecdsa`
* `Psbt.V0.C111_frame`
* `Psbt.V0.C111_panics_iff`
* `Psbt.V0.C111_reports`
* `Psbt.V0.C111_steady`
* `Psbt.V0.C112_fresh`
* `Psbt.V0.C112_same`
* `Psbt.V0.C113_extracted_iff`
* `Psbt.V0.C113_known`
* `Psbt.V0.C113_native`
* `Psbt.V0.C114_completed`
* `Psbt.V0.C114_copies`
* `Psbt.V0.C114_copies_from_descriptors`
* `Psbt.V0.C114_from_descriptors`
* `Psbt.V0.C115_told`
* `Psbt.V0.C116_output_type`
* `Psbt.V0.C116_sighash`
* `Psbt.V0.C116_sign`
* `Psbt.V0.C116_taproot`
* `Psbt.V0.C117_checks_apart`
* `Psbt.V0.C117_error`
* `Psbt.V0.C117_error_apart`
* `Psbt.V0.C117_roles`
* `Psbt.V0.C117_sighash_apart`
* `Psbt.V0.C117_sign_apart`
* `Psbt.V0.C117_update_apart`
* `Psbt.V0.C118_combine`
* `Psbt.V0.C118_panic`
* `Psbt.V0.C119_told`
* `Psbt.V0.C11_v0_global`
* `Psbt.V0.C11_v0_input`
* `Psbt.V0.C11_v0_output`
* `Psbt.V0.C11_v0_psbt`
* `Psbt.V0.C120_v0_any_order`
* `Psbt.V0.C120_v0_determined`
* `Psbt.V0.C120_v0_records`
* `Psbt.V0.C121_v0`
* `Psbt.V0.C121_v0_from_descriptors`
* `Psbt.V0.C121_v0_same`
* `Psbt.V0.C121_v0_transaction`
* `Psbt.V0.C123_counterexample`
* `Psbt.V0.C123_v0_extract_partial`
* `Psbt.V0.C123_v0_fee`
* `Psbt.V0.C125_completed`
* `Psbt.V0.C125_session`
* `Psbt.V0.C127_v0_extract`
* `Psbt.V0.C127_v0_finalize`
* `Psbt.V0.C128_accepted`
* `Psbt.V0.C128_combines`
* `Psbt.V0.C128_extract_partial`
* `Psbt.V0.C128_kept`
* `Psbt.V0.C128_only_all_partial`
* `Psbt.V0.C128_order`
* `Psbt.V0.C128_type_counterexample`
* `Psbt.V0.C129_v0_combine_counterexample`
* `Psbt.V0.C129_v0_counterexample`
* `Psbt.V0.C129_v0_crashes_iff`
* `Psbt.V0.C129_v0_guarded`
* `Psbt.V0.C12_v0_global`
* `Psbt.V0.C12_v0_input`
* `Psbt.V0.C12_v0_output`
* `Psbt.V0.C12_v0_psbt`
* `Psbt.V0.C130_any_order`
* `Psbt.V0.C130_blank_copies`
* `Psbt.V0.C130_copies`
* `Psbt.V0.C130_many_copies`
* `Psbt.V0.C130_old_script_kept`
* `Psbt.V0.C130_shared`
* `Psbt.V0.C13_v0_global`
* `Psbt.V0.C13_v0_input`
* `Psbt.V0.C13_v0_output`
* `Psbt.V0.C13_v0_psbt`
* `Psbt.V0.C14_v0_counts`
* `Psbt.V0.C15_v0_preimages`
* `Psbt.V0.C16_v0_no_panic`
* `Psbt.V0.C45_roundtrip_iff`
* `Psbt.V0.C46_parse_stable`
* `Psbt.V0.C47_global_rejected`
* `Psbt.V0.C47_global_required`
* `Psbt.V0.C47_input_rejected`
* `Psbt.V0.C47_output_rejected`
* `Psbt.V0.C47_unsigned`
* `Psbt.V0.C48_again_iff_partial`
* `Psbt.V0.C48_again_partial`
* `Psbt.V0.C48_failed_but_changed_counterexample`
* `Psbt.V0.C48_failure_frame`
* `Psbt.V0.C48_input_iff_partial`
* `Psbt.V0.C48_keys_partial`
* `Psbt.V0.C48_panic_counterexample`
* `Psbt.V0.C48_panic_only_partial`
* `Psbt.V0.C48_refused`
* `Psbt.V0.C48_self`
* `Psbt.V0.C48_sighash_counterexample`
* `Psbt.V0.C48_signatures`
* `Psbt.V0.C48_success_iff`
* `Psbt.V0.C48_unsigned_tx`
* `Psbt.V0.C48_unsigned_tx_kept`
* `Psbt.V0.C48_utxo_counterexample`
* `Psbt.V0.C48_utxos`
* `Psbt.V0.C48_xpubs`
* `Psbt.V0.C49_default_partial`
* `Psbt.V0.C49_errors`
* `Psbt.V0.C49_extracted`
* `Psbt.V0.C49_fee_errors`
* `Psbt.V0.C49_fee_iff`
* `Psbt.V0.C49_length_counterexample`
* `Psbt.V0.C49_never_panics_partial`
* `Psbt.V0.C49_overflow_counterexample`
* `Psbt.V0.C49_panic_counterexample`
* `Psbt.V0.C49_panics_iff`
* `Psbt.V0.C49_rate_partial`
* `Psbt.V0.C49_saturation_counterexample`
* `Psbt.V0.C49_with_limit_iff`
* `Psbt.V0.C50_ecdsa`
* `Psbt.V0.C50_failed_unchanged`
* `Psbt.V0.C50_frame`
* `Psbt.V0.C50_other_key_counterexample`
* `Psbt.V0.C50_panic_counterexample`
* `Psbt.V0.C50_panics_iff`
* `Psbt.V0.C50_reports`
* `Psbt.V0.C50_schnorr`
* `Psbt.V0.C50_unknown`
* `Psbt.V0.C51_error`
* `Psbt.V0.C51_from_unsigned_tx`
* `Psbt.V0.C51_roundtrips`
* `Psbt.V0.C52_accepts_iff_partial`
* `Psbt.V0.C52_complete_partial`
* `Psbt.V0.C52_error_sound`
* `Psbt.V0.C52_legacy_counterexample`
* `Psbt.V0.C52_nested_counterexample`
* `Psbt.V0.C52_panic_counterexample`
* `Psbt.V0.C52_panic_only`
* `Psbt.V0.C52_panics_iff`
* `Psbt.V0.C52_sound_partial`
* `Psbt.V0.C52_unsound_counterexample`
* `Psbt.V0.C56_v0_prefix_free`
* `Psbt.V0.C60_v0_bytes`
* `Psbt.V0.C60_v0_global_pairs`
* `Psbt.V0.C60_v0_input_pairs`
* `Psbt.V0.C60_v0_output_pairs`
* `Psbt.V0.C60_v0_read`
* `Psbt.V0.C61_assoc_iff_partial`
* `Psbt.V0.C61_assoc_partial`
* `Psbt.V0.C61_counterexample`
* `Psbt.V0.C61_iff_partial`
* `Psbt.V0.C61_no_conflict_counterexample`
* `Psbt.V0.C61_partial`
* `Psbt.V0.C62_commits`
* `Psbt.V0.C62_covers_only`
* `Psbt.V0.C62_layout`
* `Psbt.V0.C62_message_iff`
* `Psbt.V0.C64_v0_answers`
* `Psbt.V0.C65_v0_after`
* `Psbt.V0.C65_v0_older`
* `Psbt.V0.C65_v0_older_counterexample`
* `Psbt.V0.C66_again_counterexample`
* `Psbt.V0.C66_determined`
* `Psbt.V0.C66_effect`
* `Psbt.V0.C66_error_iff`
* `Psbt.V0.C66_finalize_iff`
* `Psbt.V0.C66_panic_counterexample`
* `Psbt.V0.C67_each`
* `Psbt.V0.C67_effect`
* `Psbt.V0.C67_independent_counterexample`
* `Psbt.V0.C67_independent_partial`
* `Psbt.V0.C67_ok`
* `Psbt.V0.C67_panic_counterexample`
* `Psbt.V0.C67_stops`
* `Psbt.V0.C67_unfunded`
* `Psbt.V0.C68_all_partial`
* `Psbt.V0.C68_counterexample`
* `Psbt.V0.C68_single_partial`
* `Psbt.V0.C68_whole_partial`
* `Psbt.V0.C69_after_finalize_partial`
* `Psbt.V0.C69_default_type_counterexample`
* `Psbt.V0.C69_empty_counterexample`
* `Psbt.V0.C69_errors`
* `Psbt.V0.C69_extract_iff`
* `Psbt.V0.C69_unchecked`
* `Psbt.V0.C70_agrees`
* `Psbt.V0.C70_msg_iff`
* `Psbt.V0.C70_no_panic`
* `Psbt.V0.C70_other_unknown_counterexample`
* `Psbt.V0.C71_finalizer_ready`
* `Psbt.V0.C71_idempotent`
* `Psbt.V0.C71_panic_iff`
* `Psbt.V0.C71_refused_iff`
* `Psbt.V0.C71_scripts_match`
* `Psbt.V0.C71_unchecked_error_iff`
* `Psbt.V0.C71_unchecked_iff`
* `Psbt.V0.C71_unique`
* `Psbt.V0.C71_updated_iff`
* `Psbt.V0.C72_idempotent`
* `Psbt.V0.C72_panic_iff`
* `Psbt.V0.C72_refused_iff`
* `Psbt.V0.C72_unchecked_error_iff`
* `Psbt.V0.C72_unchecked_iff`
* `Psbt.V0.C72_unique`
* `Psbt.V0.C72_updated_iff`
* `Psbt.V0.C73_v0_display`
* `Psbt.V0.C73_v0_error_iff`
* `Psbt.V0.C73_v0_parses_iff`
* `Psbt.V0.C73_v0_roundtrip`
* `Psbt.V0.C79_any_order`
* `Psbt.V0.C79_combine_iff`
* `Psbt.V0.C79_combine_unsigned`
* `Psbt.V0.C79_copies`
* `Psbt.V0.C79_leaf_counterexample`
* `Psbt.V0.C79_order`
* `Psbt.V0.C79_report`
* `Psbt.V0.C79_stale_counterexample`
* `Psbt.V0.C81_combine_counterexample`
* `Psbt.V0.C81_combine_limits_iff`
* `Psbt.V0.C81_hand_over_iff`
* `Psbt.V0.C81_sign_limits`
* `Psbt.V0.C82_end_to_end`
* `Psbt.V0.C82_history`
* `Psbt.V0.C82_transaction_kept`
* `Psbt.V0.C82_txid`
* `Psbt.V0.C88_completed`
* `Psbt.V0.C89_accepted`
* `Psbt.V0.C89_end_to_end`
* `Psbt.V0.C89_same_messages`
* `Psbt.V0.C89_signed`
* `Psbt.V0.C90_completed`
* `Psbt.V0.C91_completed`
* `Psbt.V0.C91_copies`
* `Psbt.V0.C93_named_counterexample`
* `Psbt.V0.C93_named_partial`
* `Psbt.V0.C96_every_leaf`
* `Psbt.V0.C96_input_committed`
* `Psbt.V0.C96_output_committed_partial`
* `Psbt.V0.C96_scripts_proven`
* `Psbt.V0.C96_stale_tree_counterexample`
* `Psbt.V0.C97_completed`
* `Psbt.V0.C97_copies`
* `Psbt.V0.C98_v0_cut`
* `Psbt.V0.C98_v0_ends`
* `Psbt.V0.C98_v0_text`
* `Psbt.V2.C06_roundtrip_iff`
* `Psbt.V2.C07_parse_stable`
* `Psbt.V2.C08_invalid_magic_iff`
* `Psbt.V2.C08_invalid_separator_iff`
* `Psbt.V2.C08_magic_and_separator`
* `Psbt.V2.C09_global_rejected`
* `Psbt.V2.C09_global_required`
* `Psbt.V2.C101_v2_counterexample`
* `Psbt.V2.C101_v2_partial`
* `Psbt.V2.C102_v2`
* `Psbt.V2.C102_v2_parsed`
* `Psbt.V2.C102_v2_restored`
* `Psbt.V2.C103_v2_alike`
* `Psbt.V2.C103_v2_extract`
* `Psbt.V2.C103_v2_finalize`
* `Psbt.V2.C103_v2_message`
* `Psbt.V2.C103_v2_sign`
* `Psbt.V2.C103_v2_transaction`
* `Psbt.V2.C104_v2`
* `Psbt.V2.C105_v2_counterexample`
* `Psbt.V2.C105_v2_panics_iff`
* `Psbt.V2.C105_v2_partial`
* `Psbt.V2.C105_v2_trace`
* `Psbt.V2.C106_kept`
* `Psbt.V2.C106_lost`
* `Psbt.V2.C107_v2_counterexample`
* `Psbt.V2.C107_v2_money_partial`
* `Psbt.V2.C107_v2_partial`
* `Psbt.V2.C109_preimage_counterexample`
* `Psbt.V2.C109_xpub_counterexample`
* `Psbt.V2.C10_input_rejected`
* `Psbt.V2.C10_input_required`
* `Psbt.V2.C10_output_rejected`
* `Psbt.V2.C10_output_required`
* `Psbt.V2.C10_output_script_optional_with_silent_payments`
* `Psbt.V2.C110_global_in_place`
* `Psbt.V2.C110_global_kept`
* `Psbt.V2.C110_global_retry`
* `Psbt.V2.C111_errors`
* `Psbt.V2.C111_flags`
* `Psbt.V2.C111_frame`
* `Psbt.V2.C111_never_panics`
* `Psbt.V2.C111_never_panics_iff`
* `Psbt.V2.C111_signatures`
* `Psbt.V2.C111_steady`
* `Psbt.V2.C113_counterexample`
* `Psbt.V2.C113_extracted_iff`
* `Psbt.V2.C113_finalized_iff`
* `Psbt.V2.C113_known_partial`
* `Psbt.V2.C115_amount_called_missing`
* `Psbt.V2.C115_count_called_duplicate`
* `Psbt.V2.C115_index_called_missing`
* `Psbt.V2.C115_input_key_called_duplicate`
* `Psbt.V2.C115_output_key_called_duplicate`
* `Psbt.V2.C115_scan_key_called_short`
* `Psbt.V2.C115_script_called_missing`
* `Psbt.V2.C115_share_called_short`
* `Psbt.V2.C115_told_partial`
* `Psbt.V2.C115_txid_called_missing`
* `Psbt.V2.C115_xpub_called_key_data`
* `Psbt.V2.C116_output_type`
* `Psbt.V2.C116_sighash`
* `Psbt.V2.C116_sign`
* `Psbt.V2.C117_roles`
* `Psbt.V2.C117_sign_apart`
* `Psbt.V2.C118_combine`
* `Psbt.V2.C118_global`
* `Psbt.V2.C118_global_in_place`
* `Psbt.V2.C118_panic`
* `Psbt.V2.C11_global_counterexample`
* `Psbt.V2.C11_global_exact_partial`
* `Psbt.V2.C11_global_partial`
* `Psbt.V2.C11_input_counterexample`
* `Psbt.V2.C11_input_exact_partial`
* `Psbt.V2.C11_input_partial`
* `Psbt.V2.C11_output_counterexample`
* `Psbt.V2.C11_output_exact_partial`
* `Psbt.V2.C11_output_partial`
* `Psbt.V2.C11_psbt_partial`
* `Psbt.V2.C120_v2_any_order`
* `Psbt.V2.C120_v2_determined`
* `Psbt.V2.C120_v2_records`
* `Psbt.V2.C121_v2`
* `Psbt.V2.C121_v2_flags_counterexample`
* `Psbt.V2.C121_v2_same`
* `Psbt.V2.C121_v2_same_but_flags`
* `Psbt.V2.C122_combined`
* `Psbt.V2.C122_combined_returned`
* `Psbt.V2.C122_no_silent_payments`
* `Psbt.V2.C122_other_address`
* `Psbt.V2.C122_readable_iff`
* `Psbt.V2.C122_returned`
* `Psbt.V2.C122_signed`
* `Psbt.V2.C122_there_and_back`
* `Psbt.V2.C123_v2_extract`
* `Psbt.V2.C123_v2_fee`
* `Psbt.V2.C124_extracted_counterexample`
* `Psbt.V2.C124_steps_partial`
* `Psbt.V2.C126_hashes_partial`
* `Psbt.V2.C126_timelock_counterexample`
* `Psbt.V2.C127_v2_new`
* `Psbt.V2.C127_v2_signatures`
* `Psbt.V2.C128_v2_counterexample`
* `Psbt.V2.C128_v2_restored`
* `Psbt.V2.C128_v2_same_partial`
* `Psbt.V2.C129_v2_crashes_iff`
* `Psbt.V2.C129_v2_finalize_counterexample`
* `Psbt.V2.C129_v2_sign_counterexample`
* `Psbt.V2.C12_global_counterexample`
* `Psbt.V2.C12_global_exact_partial`
* `Psbt.V2.C12_global_partial`
* `Psbt.V2.C12_input_counterexample`
* `Psbt.V2.C12_input_exact_partial`
* `Psbt.V2.C12_input_partial`
* `Psbt.V2.C12_output_exact_partial`
* `Psbt.V2.C12_output_partial`
* `Psbt.V2.C12_psbt_partial`
* `Psbt.V2.C130_v2_any_order`
* `Psbt.V2.C130_v2_copies_iff`
* `Psbt.V2.C13_global`
* `Psbt.V2.C13_input`
* `Psbt.V2.C13_output`
* `Psbt.V2.C13_psbt`
* `Psbt.V2.C14_counts`
* `Psbt.V2.C15_preimages`
* `Psbt.V2.C16_counterexample`
* `Psbt.V2.C16_panics_iff_partial`
* `Psbt.V2.C16_panics_only_on_huge_counts_partial`
* `Psbt.V2.C17_error_iff`
* `Psbt.V2.C17_lock_time_iff`
* `Psbt.V2.C17_satisfies_every_input`
* `Psbt.V2.C18_never_panics`
* `Psbt.V2.C19_adding_never_fails`
* `Psbt.V2.C19_counts`
* `Psbt.V2.C20_constructor_new_iff`
* `Psbt.V2.C20_creator_flags`
* `Psbt.V2.C20_flags_only_cleared`
* `Psbt.V2.C20_no_more`
* `Psbt.V2.C20_sighash_single`
* `Psbt.V2.C20_updater`
* `Psbt.V2.C21_id_depends_only_on_transaction`
* `Psbt.V2.C21_set_sequence_iff`
* `Psbt.V2.C21_set_sequence_keeps_id`
* `Psbt.V2.C21_set_sequence_never_panics`
* `Psbt.V2.C22_signer_never_panics`
* `Psbt.V2.C22_updater_id_never_panics`
* `Psbt.V2.C23_unsigned_tx`
* `Psbt.V2.C24_agreement_partial`
* `Psbt.V2.C24_id_counterexample`
* `Psbt.V2.C24_id_iff_partial`
* `Psbt.V2.C24_id_partial`
* `Psbt.V2.C24_length_counterexample`
* `Psbt.V2.C24_lost_lock_time_counterexample`
* `Psbt.V2.C25_again_counterexample`
* `Psbt.V2.C25_again_iff_partial`
* `Psbt.V2.C25_again_partial`
* `Psbt.V2.C25_self`
* `Psbt.V2.C26_fallback_counterexample`
* `Psbt.V2.C26_global_iff_partial`
* `Psbt.V2.C26_iff_partial`
* `Psbt.V2.C26_input_iff_partial`
* `Psbt.V2.C26_non_witness_utxo_kept`
* `Psbt.V2.C26_partial`
* `Psbt.V2.C26_sighash_counterexample`
* `Psbt.V2.C26_utxo_counterexample`
* `Psbt.V2.C27_counterexample`
* `Psbt.V2.C27_iff_partial`
* `Psbt.V2.C27_no_conflict_counterexample`
* `Psbt.V2.C27_partial`
* `Psbt.V2.C28_counterexample`
* `Psbt.V2.C28_exact_partial`
* `Psbt.V2.C28_iff_partial`
* `Psbt.V2.C28_length_counterexample`
* `Psbt.V2.C28_partial`
* `Psbt.V2.C29_fingerprint_counterexample`
* `Psbt.V2.C29_panic_counterexample`
* `Psbt.V2.C29_panic_only_partial`
* `Psbt.V2.C29_result_partial`
* `Psbt.V2.C29_success_iff_partial`
* `Psbt.V2.C30_errors`
* `Psbt.V2.C30_fee_iff`
* `Psbt.V2.C30_funding_utxo`
* `Psbt.V2.C31_extraction`
* `Psbt.V2.C31_extractor_iff`
* `Psbt.V2.C31_id_never_panics`
* `Psbt.V2.C31_refusals`
* `Psbt.V2.C32_default_partial`
* `Psbt.V2.C32_never_panics`
* `Psbt.V2.C32_rate_partial`
* `Psbt.V2.C32_saturation_counterexample`
* `Psbt.V2.C32_too_high`
* `Psbt.V2.C32_with_limit_iff`
* `Psbt.V2.C33_existing_signatures`
* `Psbt.V2.C33_frame`
* `Psbt.V2.C33_same_transaction`
* `Psbt.V2.C33_signatures`
* `Psbt.V2.C33_signer`
* `Psbt.V2.C34_clear`
* `Psbt.V2.C34_cleared_without_signature`
* `Psbt.V2.C34_flags`
* `Psbt.V2.C35_independent`
* `Psbt.V2.C35_never_panics_partial`
* `Psbt.V2.C35_panic_counterexample`
* `Psbt.V2.C35_panics_iff`
* `Psbt.V2.C35_reports`
* `Psbt.V2.C35_silent_counterexample`
* `Psbt.V2.C36_output_type_iff`
* `Psbt.V2.C36_total`
* `Psbt.V2.C36_unknown_iff`
* `Psbt.V2.C37_index_error`
* `Psbt.V2.C37_legacy_commits`
* `Psbt.V2.C37_never_panics_partial`
* `Psbt.V2.C37_panic_counterexample`
* `Psbt.V2.C37_panics_iff`
* `Psbt.V2.C37_segwit_commits`
* `Psbt.V2.C37_sighash_iff`
* `Psbt.V2.C37_sighash_type_error`
* `Psbt.V2.C37_single_counterexample`
* `Psbt.V2.C37_succeeds`
* `Psbt.V2.C37_taproot_error`
* `Psbt.V2.C39_check_iff`
* `Psbt.V2.C39_error`
* `Psbt.V2.C39_signing_keeps`
* `Psbt.V2.C39_taproot_counterexample`
* `Psbt.V2.C40_finalize_iff`
* `Psbt.V2.C40_recognised_counterexample`
* `Psbt.V2.C40_recognised_partial`
* `Psbt.V2.C40_unsigned_tx_counterexample`
* `Psbt.V2.C40_unsigned_tx_partial`
* `Psbt.V2.C41_failing_input_iff`
* `Psbt.V2.C41_finalize_iff`
* `Psbt.V2.C41_id`
* `Psbt.V2.C41_legacy_counterexample`
* `Psbt.V2.C41_legacy_never`
* `Psbt.V2.C41_new_error`
* `Psbt.V2.C41_new_iff`
* `Psbt.V2.C41_panic_iff`
* `Psbt.V2.C41_refused_input_iff`
* `Psbt.V2.C42_committed`
* `Psbt.V2.C42_descriptor_iff`
* `Psbt.V2.C42_keys`
* `Psbt.V2.C43_counterexample`
* `Psbt.V2.C43_fails_iff`
* `Psbt.V2.C43_key_spend`
* `Psbt.V2.C43_keys`
* `Psbt.V2.C43_smallest_partial`
* `Psbt.V2.C43_taproot_iff`
* `Psbt.V2.C44_after_iff`
* `Psbt.V2.C44_older_iff`
* `Psbt.V2.C54_consistent`
* `Psbt.V2.C56_prefix_free`
* `Psbt.V2.C57_id_identifies`
* `Psbt.V2.C58_counterexample`
* `Psbt.V2.C58_iff_partial`
* `Psbt.V2.C58_inputs_only_leaves_outputs_modifiable`
* `Psbt.V2.C58_partial`
* `Psbt.V2.C59_counterexample`
* `Psbt.V2.C59_iff_partial`
* `Psbt.V2.C59_partial`
* `Psbt.V2.C60_bytes`
* `Psbt.V2.C60_global_pairs`
* `Psbt.V2.C60_input_pairs`
* `Psbt.V2.C60_output_pairs`
* `Psbt.V2.C60_read`
* `Psbt.V2.C63_checked_and_extracted`
* `Psbt.V2.C63_signed_iff_partial`
* `Psbt.V2.C63_signed_partial`
* `Psbt.V2.C64_answers`
* `Psbt.V2.C65_after_counterexample`
* `Psbt.V2.C65_after_iff_partial`
* `Psbt.V2.C65_after_partial`
* `Psbt.V2.C65_extracted_never`
* `Psbt.V2.C65_older_counterexample`
* `Psbt.V2.C65_older_iff_partial`
* `Psbt.V2.C65_older_partial`
* `Psbt.V2.C73_v2_display`
* `Psbt.V2.C73_v2_error_iff`
* `Psbt.V2.C73_v2_parses_iff`
* `Psbt.V2.C73_v2_roundtrip`
* `Psbt.V2.C77_any_order`
* `Psbt.V2.C77_combine_iff`
* `Psbt.V2.C77_combine_unsigned`
* `Psbt.V2.C77_copies`
* `Psbt.V2.C77_order`
* `Psbt.V2.C77_report`
* `Psbt.V2.C77_signer`
* `Psbt.V2.C77_stale_counterexample`
* `Psbt.V2.C78_combine_counterexample`
* `Psbt.V2.C78_combine_iff`
* `Psbt.V2.C78_copies_partial`
* `Psbt.V2.C78_sign`
* `Psbt.V2.C80_hand_over_partial`
* `Psbt.V2.C80_input_builder`
* `Psbt.V2.C80_new_output_iff`
* `Psbt.V2.C80_not_carried`
* `Psbt.V2.C83_end_to_end_partial`
* `Psbt.V2.C83_final_lock_time`
* `Psbt.V2.C84_check_iff`
* `Psbt.V2.C84_errors`
* `Psbt.V2.C85_legacy_counterexample`
* `Psbt.V2.C85_segwit_counterexample`
* `Psbt.V2.C85_sequences_stated_partial`
* `Psbt.V2.C85_taproot_counterexample`
* `Psbt.V2.C87_built`
* `Psbt.V2.C87_failures`
* `Psbt.V2.C87_input_builder`
* `Psbt.V2.C92_extracted_counterexample`
* `Psbt.V2.C92_refused_counterexample`
* `Psbt.V2.C92_steps_partial`
* `Psbt.V2.C93_excluded_named`
* `Psbt.V2.C93_extractor`
* `Psbt.V2.C93_parse_counterexample`
* `Psbt.V2.C93_text_counterexample`
* `Psbt.V2.C98_v2_cut`
* `Psbt.V2.C98_v2_ends`
* `Psbt.V2.C98_v2_text`
* `Psbt.V2.C99_kept_partial`
* `Psbt.V2.C99_lock_time_counterexample`
* `Psbt.V2.C99_signed_partial`
* `Psbt.V2.C99_survives_iff_partial`
* `Psbt.V2.C99_unconstrained_partial`
