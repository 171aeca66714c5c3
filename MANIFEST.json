{
 "claims": [
  {
   "property": "C01",
   "status": "proved",
   "theorems": [
    "Psbt.C01_writes_compact_size",
    "Psbt.C01_reads_exactly_compact_size"
   ],
   "note": ""
  },
  {
   "property": "C02",
   "status": "proved",
   "theorems": [
    "Psbt.C02_pair_format",
    "Psbt.C02_pair_read_iff",
    "Psbt.C02_end_of_map_iff",
    "Psbt.C02_oversized_rejected"
   ],
   "note": ""
  },
  {
   "property": "C03",
   "status": "proved",
   "theorems": [
    "Psbt.C03_format",
    "Psbt.C03_read_iff",
    "Psbt.C03_roundtrip",
    "Psbt.C03_wrong_type",
    "Psbt.C03_long_key_data_unreadable"
   ],
   "note": ""
  },
  {
   "property": "C04",
   "status": "proved",
   "theorems": [
    "Psbt.C04_roundtrip",
    "Psbt.C04_exact",
    "Psbt.C04_format",
    "Psbt.C04_tap_signature_iff"
   ],
   "note": ""
  },
  {
   "property": "C05",
   "status": "proved",
   "theorems": [
    "Psbt.C05_height_iff",
    "Psbt.C05_time_iff"
   ],
   "note": ""
  },
  {
   "property": "C06",
   "status": "proved",
   "theorems": [
    "Psbt.V2.C06_roundtrip_iff"
   ],
   "note": "Exact characterisation: round-trips iff Spec.WF."
  },
  {
   "property": "C07",
   "status": "proved",
   "theorems": [
    "Psbt.V2.C07_parse_stable"
   ],
   "note": ""
  },
  {
   "property": "C08",
   "status": "proved",
   "theorems": [
    "Psbt.V0.C08_v0_magic_and_separator",
    "Psbt.V0.C08_v0_invalid_magic_iff",
    "Psbt.V0.C08_v0_invalid_separator_iff",
    "Psbt.V2.C08_magic_and_separator",
    "Psbt.V2.C08_invalid_magic_iff",
    "Psbt.V2.C08_invalid_separator_iff"
   ],
   "note": ""
  },
  {
   "property": "C09",
   "status": "proved",
   "theorems": [
    "Psbt.V2.C09_global_required",
    "Psbt.V2.C09_global_rejected"
   ],
   "note": ""
  },
  {
   "property": "C10",
   "status": "proved",
   "theorems": [
    "Psbt.V2.C10_input_required",
    "Psbt.V2.C10_input_rejected",
    "Psbt.V2.C10_output_required",
    "Psbt.V2.C10_output_rejected",
    "Psbt.V2.C10_output_script_optional_with_silent_payments"
   ],
   "note": "With silent payments compiled in an output may lack its script; C10_output_script_optional_with_silent_payments shows it."
  },
  {
   "property": "C11",
   "status": "partial",
   "theorems": [
    "Psbt.V0.C11_v0_global",
    "Psbt.V0.C11_v0_input",
    "Psbt.V0.C11_v0_output",
    "Psbt.V0.C11_v0_psbt",
    "Psbt.V2.C11_global_counterexample",
    "Psbt.V2.C11_input_counterexample",
    "Psbt.V2.C11_output_counterexample",
    "Psbt.V2.C11_global_partial",
    "Psbt.V2.C11_input_partial",
    "Psbt.V2.C11_output_partial",
    "Psbt.V2.C11_input_exact_partial",
    "Psbt.V2.C11_output_exact_partial",
    "Psbt.V2.C11_global_exact_partial",
    "Psbt.V2.C11_psbt_partial"
   ],
   "note": "Proved for PSBT v0 (C11_v0_*). False of the v2 code as stated: counterexamples C11_*_counterexample (repeated input count; repeated txid/amount after a placeholder value). The _partial theorems prove it for all other keys, and for these too when no placeholder value occurs. C11_*_exact_partial say exactly which repetitions an accepted map can contain."
  },
  {
   "property": "C12",
   "status": "partial",
   "theorems": [
    "Psbt.V0.C12_v0_global",
    "Psbt.V0.C12_v0_input",
    "Psbt.V0.C12_v0_output",
    "Psbt.V2.C12_global_counterexample",
    "Psbt.V2.C12_input_counterexample",
    "Psbt.V2.C12_global_partial",
    "Psbt.V2.C12_input_partial",
    "Psbt.V2.C12_output_partial",
    "Psbt.V2.C12_input_exact_partial",
    "Psbt.V2.C12_output_exact_partial",
    "Psbt.V2.C12_global_exact_partial",
    "Psbt.V0.C12_v0_psbt",
    "Psbt.V2.C12_psbt_partial"
   ],
   "note": "Proved for PSBT v0 (C12_v0_*). False of the v2 code as stated: the input count must precede the output count, and placeholder values make order matter (C12_*_counterexample). Proved otherwise. C12_*_exact_partial say exactly which other orders of an accepted map are accepted, and that the result is then the same (but for an input count that is given several times)."
  },
  {
   "property": "C13",
   "status": "proved",
   "theorems": [
    "Psbt.V0.C13_v0_global",
    "Psbt.V0.C13_v0_input",
    "Psbt.V0.C13_v0_output",
    "Psbt.V2.C13_global",
    "Psbt.V2.C13_input",
    "Psbt.V2.C13_output",
    "Psbt.V0.C13_v0_psbt",
    "Psbt.V2.C13_psbt"
   ],
   "note": ""
  },
  {
   "property": "C14",
   "status": "proved",
   "theorems": [
    "Psbt.V0.C14_v0_counts",
    "Psbt.V2.C14_counts"
   ],
   "note": ""
  },
  {
   "property": "C15",
   "status": "proved",
   "theorems": [
    "Psbt.V0.C15_v0_preimages",
    "Psbt.V2.C15_preimages"
   ],
   "note": ""
  },
  {
   "property": "C16",
   "status": "partial",
   "theorems": [
    "Psbt.V0.C16_v0_no_panic",
    "Psbt.V2.C16_counterexample",
    "Psbt.V2.C16_panics_only_on_huge_counts_partial",
    "Psbt.V2.C16_panics_iff_partial"
   ],
   "note": "Proved for PSBT v0 (C16_v0_no_panic). False of the v2 code: C16_counterexample. Proved for v2: it panics exactly when an announced count needs 2^63 bytes or more (C16_panics_iff_partial)."
  },
  {
   "property": "C17",
   "status": "proved",
   "theorems": [
    "Psbt.V2.C17_lock_time_iff",
    "Psbt.V2.C17_error_iff",
    "Psbt.V2.C17_satisfies_every_input"
   ],
   "note": ""
  },
  {
   "property": "C18",
   "status": "proved",
   "theorems": [
    "Psbt.V2.C18_never_panics"
   ],
   "note": ""
  },
  {
   "property": "C19",
   "status": "proved",
   "theorems": [
    "Psbt.V2.C19_counts",
    "Psbt.V2.C19_adding_never_fails"
   ],
   "note": ""
  },
  {
   "property": "C20",
   "status": "proved",
   "theorems": [
    "Psbt.V2.C20_sighash_single",
    "Psbt.V2.C20_constructor_new_iff",
    "Psbt.V2.C20_creator_flags",
    "Psbt.V2.C20_no_more",
    "Psbt.V2.C20_updater",
    "Psbt.V2.C20_flags_only_cleared"
   ],
   "note": ""
  },
  {
   "property": "C21",
   "status": "proved",
   "theorems": [
    "Psbt.V2.C21_id_depends_only_on_transaction",
    "Psbt.V2.C21_set_sequence_iff",
    "Psbt.V2.C21_set_sequence_never_panics",
    "Psbt.V2.C21_set_sequence_keeps_id"
   ],
   "note": ""
  },
  {
   "property": "C22",
   "status": "proved",
   "theorems": [
    "Psbt.V2.C22_updater_id_never_panics",
    "Psbt.V2.C22_signer_never_panics"
   ],
   "note": ""
  },
  {
   "property": "C23",
   "status": "proved",
   "theorems": [
    "Psbt.V2.C23_unsigned_tx"
   ],
   "note": ""
  },
  {
   "property": "C24",
   "status": "partial",
   "theorems": [
    "Psbt.V2.C24_id_iff_partial",
    "Psbt.V2.C24_agreement_partial",
    "Psbt.V2.C24_length_counterexample",
    "Psbt.V2.C24_id_counterexample",
    "Psbt.V2.C24_lost_lock_time_counterexample",
    "Psbt.V2.C24_id_partial"
   ],
   "note": "False of the code: different numbers of inputs are accepted, and filled-in lock-time requirements can change or destroy the lock time (C24_*_counterexample). Proved: position-wise agreement, and conditions under which the id is kept (C24_id_iff_partial: exactly if the lock time is); exactly when combining fails, and how, is C118."
  },
  {
   "property": "C25",
   "status": "partial",
   "theorems": [
    "Psbt.V2.C25_again_iff_partial",
    "Psbt.V2.C25_self",
    "Psbt.V2.C25_again_counterexample",
    "Psbt.V2.C25_again_partial"
   ],
   "note": "Combining with itself: proved. Combining again with the same other: false when a non-witness UTXO was dropped (C25_again_counterexample), and proved to fail in no other case (C25_again_iff_partial)."
  },
  {
   "property": "C26",
   "status": "partial",
   "theorems": [
    "Psbt.V2.C26_global_iff_partial",
    "Psbt.V2.C26_input_iff_partial",
    "Psbt.V2.C26_iff_partial",
    "Psbt.V2.C26_partial",
    "Psbt.V2.C26_non_witness_utxo_kept",
    "Psbt.V2.C26_sighash_counterexample",
    "Psbt.V2.C26_utxo_counterexample",
    "Psbt.V2.C26_fallback_counterexample"
   ],
   "note": "False for the exceptions listed in C26_partial (counterexamples given); proved for every other key. C26_iff_partial, C26_global_iff_partial and C26_input_iff_partial say exactly when a key is lost."
  },
  {
   "property": "C27",
   "status": "partial",
   "theorems": [
    "Psbt.V2.C27_iff_partial",
    "Psbt.V2.C27_counterexample",
    "Psbt.V2.C27_no_conflict_counterexample",
    "Psbt.V2.C27_partial"
   ],
   "note": "False of the code (C27_counterexample, C27_no_conflict_counterexample); proved for PSBTs that do not contradict each other, and that for no others the order is irrelevant (C27_iff_partial)."
  },
  {
   "property": "C28",
   "status": "partial",
   "theorems": [
    "Psbt.V2.C28_exact_partial",
    "Psbt.V2.C28_iff_partial",
    "Psbt.V2.C28_counterexample",
    "Psbt.V2.C28_length_counterexample",
    "Psbt.V2.C28_partial"
   ],
   "note": "False of the code (C28_counterexample, C28_length_counterexample); proved: exactly when the grouping matters, for equal lengths (C28_iff_partial) and for any (C28_exact_partial)."
  },
  {
   "property": "C29",
   "status": "partial",
   "theorems": [
    "Psbt.V2.C29_panic_counterexample",
    "Psbt.V2.C29_fingerprint_counterexample",
    "Psbt.V2.C29_result_partial",
    "Psbt.V2.C29_success_iff_partial",
    "Psbt.V2.C29_panic_only_partial"
   ],
   "note": "False of the code: panic and silent overwrite (C29_*_counterexample). Proved: exact result, exact success condition, the only cause of a panic."
  },
  {
   "property": "C30",
   "status": "proved",
   "theorems": [
    "Psbt.V2.C30_funding_utxo",
    "Psbt.V2.C30_fee_iff",
    "Psbt.V2.C30_errors"
   ],
   "note": ""
  },
  {
   "property": "C31",
   "status": "proved",
   "theorems": [
    "Psbt.V2.C31_extractor_iff",
    "Psbt.V2.C31_refusals",
    "Psbt.V2.C31_extraction",
    "Psbt.V2.C31_id_never_panics"
   ],
   "note": ""
  },
  {
   "property": "C32",
   "status": "partial",
   "theorems": [
    "Psbt.V2.C32_with_limit_iff",
    "Psbt.V2.C32_rate_partial",
    "Psbt.V2.C32_saturation_counterexample",
    "Psbt.V2.C32_too_high",
    "Psbt.V2.C32_default_partial",
    "Psbt.V2.C32_never_panics",
    "Psbt.C32_weight"
   ],
   "note": "Exact characterisation proved (C32_with_limit_iff). In terms of the real rate it holds for fees below 2^64/1000 satoshi; beyond, the multiplication saturates (C32_saturation_counterexample)."
  },
  {
   "property": "C33",
   "status": "proved",
   "theorems": [
    "Psbt.V2.C33_frame",
    "Psbt.V2.C33_signatures",
    "Psbt.V2.C33_existing_signatures",
    "Psbt.V2.C33_same_transaction",
    "Psbt.V2.C33_signer"
   ],
   "note": ""
  },
  {
   "property": "C34",
   "status": "proved",
   "theorems": [
    "Psbt.V2.C34_flags",
    "Psbt.V2.C34_clear",
    "Psbt.V2.C34_cleared_without_signature"
   ],
   "note": "C34_flags is the exact effect of a signing run; C34_cleared_without_signature shows that the flags are also cleared when the provider had no key for the input."
  },
  {
   "property": "C35",
   "status": "partial",
   "theorems": [
    "Psbt.V2.C35_reports",
    "Psbt.V2.C35_independent",
    "Psbt.V2.C35_panics_iff",
    "Psbt.V2.C35_never_panics_partial",
    "Psbt.V2.C35_panic_counterexample",
    "Psbt.V2.C35_silent_counterexample"
   ],
   "note": "False of the code: a panic (C35_panic_counterexample) and inputs skipped silently (C35_silent_counterexample). Proved: the exact reports and the exact condition for a panic."
  },
  {
   "property": "C36",
   "status": "proved",
   "theorems": [
    "Psbt.V2.C36_output_type_iff",
    "Psbt.V2.C36_unknown_iff",
    "Psbt.V2.C36_total"
   ],
   "note": ""
  },
  {
   "property": "C37",
   "status": "partial",
   "theorems": [
    "Psbt.C37_segwit_layout",
    "Psbt.C37_segwit_covers_only",
    "Psbt.C37_legacy_layout",
    "Psbt.C37_legacy_covers_only",
    "Psbt.V2.C37_sighash_iff",
    "Psbt.V2.C37_index_error",
    "Psbt.V2.C37_sighash_type_error",
    "Psbt.V2.C37_taproot_error",
    "Psbt.V2.C37_never_panics_partial",
    "Psbt.V2.C37_panics_iff",
    "Psbt.V2.C37_succeeds",
    "Psbt.V2.C37_segwit_commits",
    "Psbt.V2.C37_legacy_commits",
    "Psbt.V2.C37_panic_counterexample",
    "Psbt.V2.C37_single_counterexample"
   ],
   "note": "The message is exactly the specified one (C37_sighash_iff) and commits to what it should (C37_segwit_commits, C37_legacy_commits). False of the code in two respects: a panic when the transaction has too few inputs (C37_panic_counterexample; exactly when: C37_panics_iff) and the constant message of SIGHASH_SINGLE without output (C37_single_counterexample)."
  },
  {
   "property": "C38",
   "status": "proved",
   "theorems": [
    "Psbt.C38_ecdsa",
    "Psbt.C38_taproot",
    "Psbt.C38_u32",
    "Psbt.C38_text",
    "Psbt.C38_text_injective",
    "Psbt.C38_hex",
    "Psbt.C38_reads_iff",
    "Psbt.C38_writes"
   ],
   "note": ""
  },
  {
   "property": "C39",
   "status": "partial",
   "theorems": [
    "Psbt.V2.C39_check_iff",
    "Psbt.V2.C39_error",
    "Psbt.V2.C39_signing_keeps",
    "Psbt.V2.C39_taproot_counterexample"
   ],
   "note": "Proved for the type ECDSA signatures have to use; the check also rejects taproot inputs that declare SIGHASH_DEFAULT (C39_taproot_counterexample) and any input with a non-standard type, signed or not."
  },
  {
   "property": "C40",
   "status": "partial",
   "theorems": [
    "Psbt.V2.C40_finalize_iff",
    "Psbt.V2.C40_recognised_partial",
    "Psbt.V2.C40_recognised_counterexample",
    "Psbt.V2.C40_unsigned_tx_partial",
    "Psbt.V2.C40_unsigned_tx_counterexample"
   ],
   "note": "What finalizing an input does is proved exactly (C40_finalize_iff). False of the code: an input without witness UTXO is not recognised as finalized, and the unsigned transaction changes (C40_*_counterexample); the partial theorems give the exact conditions."
  },
  {
   "property": "C41",
   "status": "partial",
   "theorems": [
    "Psbt.V2.C41_new_iff",
    "Psbt.V2.C41_new_error",
    "Psbt.V2.C41_id",
    "Psbt.V2.C41_finalize_iff",
    "Psbt.V2.C41_failing_input_iff",
    "Psbt.V2.C41_refused_input_iff",
    "Psbt.V2.C41_panic_iff",
    "Psbt.V2.C41_legacy_never",
    "Psbt.V2.C41_legacy_counterexample"
   ],
   "note": "Exact conditions for success, each error and panics. False as stated in one respect: a PSBT with a legacy input makes the finalizer panic (C41_legacy_counterexample, C41_legacy_never)."
  },
  {
   "property": "C42",
   "status": "proved",
   "theorems": [
    "Psbt.V2.C42_descriptor_iff",
    "Psbt.V2.C42_keys",
    "Psbt.V2.C42_committed"
   ],
   "note": "Parsing and satisfying scripts is rust-miniscript, a parameter of the model (MsLib)."
  },
  {
   "property": "C43",
   "status": "partial",
   "theorems": [
    "Psbt.V2.C43_taproot_iff",
    "Psbt.V2.C43_key_spend",
    "Psbt.V2.C43_smallest_partial",
    "Psbt.V2.C43_fails_iff",
    "Psbt.V2.C43_keys",
    "Psbt.V2.C43_counterexample"
   ],
   "note": "Minimal in the sum of element sizes (C43_smallest_partial); false for the size in the transaction (C43_counterexample). Failure and key spends: proved."
  },
  {
   "property": "C44",
   "status": "proved",
   "theorems": [
    "Psbt.V2.C44_after_iff",
    "Psbt.V2.C44_older_iff",
    "Psbt.V2.C44_operand"
   ],
   "note": ""
  },
  {
   "property": "C45",
   "status": "proved",
   "theorems": [
    "Psbt.V0.C45_roundtrip_iff"
   ],
   "note": "Well-formedness (Spec.V0.WF) spells out the hypotheses; the theorem shows it is also necessary."
  },
  {
   "property": "C46",
   "status": "proved",
   "theorems": [
    "Psbt.V0.C46_parse_stable"
   ],
   "note": "Includes that the re-serialised global map is no longer than the one read, so that the 4,000,000 byte limit of the reader cannot break the second parse."
  },
  {
   "property": "C47",
   "status": "proved",
   "theorems": [
    "Psbt.V0.C47_unsigned",
    "Psbt.V0.C47_global_required",
    "Psbt.V0.C47_global_rejected",
    "Psbt.V0.C47_input_rejected",
    "Psbt.V0.C47_output_rejected"
   ],
   "note": ""
  },
  {
   "property": "C48",
   "status": "partial",
   "theorems": [
    "Psbt.V0.C48_again_iff_partial",
    "Psbt.V0.C48_input_iff_partial",
    "Psbt.V0.C48_unsigned_tx",
    "Psbt.V0.C48_refused",
    "Psbt.V0.C48_unsigned_tx_kept",
    "Psbt.V0.C48_keys_partial",
    "Psbt.V0.C48_signatures",
    "Psbt.V0.C48_utxos",
    "Psbt.V0.C48_xpubs",
    "Psbt.V0.C48_success_iff",
    "Psbt.V0.C48_self",
    "Psbt.V0.C48_again_partial",
    "Psbt.V0.C48_sighash_counterexample",
    "Psbt.V0.C48_utxo_counterexample",
    "Psbt.V0.C48_panic_counterexample",
    "Psbt.V0.C48_panic_only_partial",
    "Psbt.V0.C48_failure_frame",
    "Psbt.V0.C48_failed_but_changed_counterexample"
   ],
   "note": "Transaction, lengths, idempotence, signatures, UTXOs and extended keys: exact results proved. False as stated: the sighash type of the second and replaced UTXOs are lost, and it can panic (C48_*_counterexample). Exactly when combining again changes something: C48_again_iff_partial; when a key of an input is lost: C48_input_iff_partial."
  },
  {
   "property": "C49",
   "status": "partial",
   "theorems": [
    "Psbt.V0.C49_fee_iff",
    "Psbt.V0.C49_fee_errors",
    "Psbt.V0.C49_extracted",
    "Psbt.V0.C49_with_limit_iff",
    "Psbt.V0.C49_rate_partial",
    "Psbt.V0.C49_default_partial",
    "Psbt.V0.C49_errors",
    "Psbt.V0.C49_never_panics_partial",
    "Psbt.V0.C49_panics_iff",
    "Psbt.V0.C49_panic_counterexample",
    "Psbt.V0.C49_length_counterexample",
    "Psbt.V0.C49_saturation_counterexample",
    "Psbt.V0.C49_overflow_counterexample"
   ],
   "note": "Exact characterisations of fee, extracted transaction, limit and errors. False as stated: panics for inconsistent UTXO data or missing maps, saturating arithmetic, and output sums over 64 bits reported as an absurd fee rate (C49_*_counterexample)."
  },
  {
   "property": "C50",
   "status": "proved",
   "theorems": [
    "Psbt.V0.C50_frame",
    "Psbt.V0.C50_reports",
    "Psbt.V0.C50_failed_unchanged",
    "Psbt.V0.C50_unknown",
    "Psbt.V0.C50_ecdsa",
    "Psbt.V0.C50_schnorr",
    "Psbt.V0.C50_panics_iff",
    "Psbt.V0.C50_panic_counterexample",
    "Psbt.V0.C50_other_key_counterexample"
   ],
   "note": "For signatures without randomness; with the crate feature rand see C112. C50_panic_counterexample shows the panic the statement excludes; C50_other_key_counterexample: the provider is trusted to return the key asked for."
  },
  {
   "property": "C51",
   "status": "proved",
   "theorems": [
    "Psbt.V0.C51_from_unsigned_tx",
    "Psbt.V0.C51_error",
    "Psbt.V0.C51_roundtrips"
   ],
   "note": ""
  },
  {
   "property": "C52",
   "status": "partial",
   "theorems": [
    "Psbt.V0.C52_accepts_iff_partial",
    "Psbt.V0.C52_error_sound",
    "Psbt.V0.C52_panic_only",
    "Psbt.V0.C52_panics_iff",
    "Psbt.V0.C52_sound_partial",
    "Psbt.V0.C52_complete_partial",
    "Psbt.V0.C52_nested_counterexample",
    "Psbt.V0.C52_legacy_counterexample",
    "Psbt.V0.C52_unsound_counterexample",
    "Psbt.V0.C52_panic_counterexample"
   ],
   "note": "False of the code in both directions (C52_nested_counterexample, C52_legacy_counterexample, C52_unsound_counterexample) and it can panic (C52_panic_counterexample). Proved: the exact condition of acceptance, that errors are truthful, and soundness and completeness outside these cases."
  },
  {
   "property": "C53",
   "status": "proved",
   "theorems": [
    "Psbt.C53_version_iff",
    "Psbt.C53_version_roundtrip",
    "Psbt.C53_other_versions_rejected"
   ],
   "note": ""
  },
  {
   "property": "C54",
   "status": "proved",
   "theorems": [
    "Psbt.V2.C54_dleq_iff",
    "Psbt.V2.C54_consistent"
   ],
   "note": ""
  },
  {
   "property": "C55",
   "status": "partial",
   "theorems": [
    "Psbt.C55_xpriv",
    "Psbt.C55_map",
    "Psbt.C55_set_partial",
    "Psbt.C55_not_supported",
    "Psbt.C55_derivation_failed",
    "Psbt.C55_set_counterexample"
   ],
   "note": "Proved for extended keys and key maps; false for sets of extended keys, which match the fingerprint of the parent (C55_set_counterexample, exact behaviour in C55_set_partial)."
  },
  {
   "property": "C56",
   "status": "proved",
   "theorems": [
    "Psbt.V0.C56_v0_prefix_free",
    "Psbt.V2.C56_prefix_free"
   ],
   "note": ""
  },
  {
   "property": "C57",
   "status": "proved",
   "theorems": [
    "Psbt.V2.C57_id_identifies"
   ],
   "note": ""
  },
  {
   "property": "C58",
   "status": "partial",
   "theorems": [
    "Psbt.V2.C58_iff_partial",
    "Psbt.V2.C58_counterexample",
    "Psbt.V2.C58_inputs_only_leaves_outputs_modifiable",
    "Psbt.V2.C58_partial"
   ],
   "note": "False of the code: no_more_inputs keeps the constructor type, and a constructor for inputs only may leave the outputs flagged (C58_counterexample, C58_inputs_only_leaves_outputs_modifiable). Proved for histories without those explicit calls; C58_iff_partial: for all histories, the flag is set exactly if the matching no_more call was not made."
  },
  {
   "property": "C59",
   "status": "partial",
   "theorems": [
    "Psbt.V2.C59_iff_partial",
    "Psbt.V2.C59_counterexample",
    "Psbt.V2.C59_partial"
   ],
   "note": "False of the code when a sequence number is omitted (C59_counterexample); and exactly then (C59_iff_partial)."
  },
  {
   "property": "C60",
   "status": "proved",
   "theorems": [
    "Psbt.V0.C60_v0_global_pairs",
    "Psbt.V0.C60_v0_input_pairs",
    "Psbt.V0.C60_v0_output_pairs",
    "Psbt.V0.C60_v0_bytes",
    "Psbt.V0.C60_v0_read",
    "Psbt.V2.C60_global_pairs",
    "Psbt.V2.C60_input_pairs",
    "Psbt.V2.C60_output_pairs",
    "Psbt.V2.C60_bytes",
    "Psbt.V2.C60_read"
   ],
   "note": ""
  },
  {
   "property": "C61",
   "status": "partial",
   "theorems": [
    "Psbt.V0.C61_iff_partial",
    "Psbt.V0.C61_assoc_iff_partial",
    "Psbt.V0.C61_counterexample",
    "Psbt.V0.C61_no_conflict_counterexample",
    "Psbt.V0.C61_partial",
    "Psbt.V0.C61_assoc_partial"
   ],
   "note": "False of the code (C61_counterexample, C61_no_conflict_counterexample); proved for PSBTs that do not contradict each other (commutativity) and with one kind of UTXO per input (associativity). Exactly when the order and the grouping matter: C61_iff_partial, C61_assoc_iff_partial."
  },
  {
   "property": "C62",
   "status": "proved",
   "theorems": [
    "Psbt.V0.C62_message_iff",
    "Psbt.V0.C62_layout",
    "Psbt.V0.C62_commits",
    "Psbt.V0.C62_covers_only"
   ],
   "note": ""
  },
  {
   "property": "C63",
   "status": "partial",
   "theorems": [
    "Psbt.V2.C63_signed_iff_partial",
    "Psbt.V2.C63_checked_and_extracted",
    "Psbt.V2.C63_signed_partial"
   ],
   "note": "False of the code for every PSBT with an input: C63_checked_and_extracted gives the exact difference (sequence numbers). Exactly when the checked transaction is the signed one: C63_signed_iff_partial."
  },
  {
   "property": "C64",
   "status": "proved",
   "theorems": [
    "Psbt.V0.C64_v0_answers",
    "Psbt.V2.C64_answers"
   ],
   "note": ""
  },
  {
   "property": "C65",
   "status": "partial",
   "theorems": [
    "Psbt.V2.C65_after_iff_partial",
    "Psbt.V2.C65_older_iff_partial",
    "Psbt.V0.C65_v0_after",
    "Psbt.V0.C65_v0_older",
    "Psbt.V0.C65_v0_older_counterexample",
    "Psbt.V2.C65_after_partial",
    "Psbt.V2.C65_older_partial",
    "Psbt.V2.C65_extracted_never",
    "Psbt.V2.C65_after_counterexample",
    "Psbt.V2.C65_older_counterexample"
   ],
   "note": "v2: false (C65_after_counterexample, C65_older_counterexample), and no timelock is met in an extracted transaction (C65_extracted_never); the partial theorems give sufficient conditions, C65_after_iff_partial and C65_older_iff_partial exact ones. v0: exact for absolute locks (C65_v0_after), for relative locks except versions of 2^31 and more (C65_v0_older)."
  },
  {
   "property": "C66",
   "status": "partial",
   "theorems": [
    "Psbt.V0.C66_finalize_iff",
    "Psbt.V0.C66_error_iff",
    "Psbt.V0.C66_effect",
    "Psbt.V0.C66_determined",
    "Psbt.V0.C66_panic_counterexample",
    "Psbt.V0.C66_again_counterexample"
   ],
   "note": "Exact result and errors for PSBTs whose non-witness UTXOs have the outputs spent (Sound). Otherwise it panics (C66_panic_counterexample). Finalizing again is an error (C66_again_counterexample)."
  },
  {
   "property": "C67",
   "status": "partial",
   "theorems": [
    "Psbt.V0.C67_each",
    "Psbt.V0.C67_effect",
    "Psbt.V0.C67_ok",
    "Psbt.V0.C67_unfunded",
    "Psbt.V0.C67_independent_partial",
    "Psbt.V0.C67_stops",
    "Psbt.V0.C67_independent_counterexample",
    "Psbt.V0.C67_panic_counterexample"
   ],
   "note": "Exact result (C67_each, C67_stops). False as stated: finalizing an earlier input removes key hints a later input may need (C67_independent_counterexample); C67_independent_partial proves independence when no input needs keys that only others list. Panics for dangling UTXOs."
  },
  {
   "property": "C68",
   "status": "partial",
   "theorems": [
    "Psbt.V0.C68_all_partial",
    "Psbt.V0.C68_whole_partial",
    "Psbt.V0.C68_single_partial",
    "Psbt.V0.C68_counterexample"
   ],
   "note": "False: finalize_inp_mall does not allow malleable satisfactions (C68_counterexample; C68_single_partial: it does what finalize_inp does). The functions for all inputs do as claimed (C68_all_partial, C68_whole_partial), provided inputs need no keys that only other inputs list."
  },
  {
   "property": "C69",
   "status": "partial",
   "theorems": [
    "Psbt.V0.C69_extract_iff",
    "Psbt.V0.C69_after_finalize_partial",
    "Psbt.V0.C69_unchecked",
    "Psbt.V0.C69_errors",
    "Psbt.V0.C69_empty_counterexample",
    "Psbt.V0.C69_default_type_counterexample"
   ],
   "note": "C69_extract_iff and C69_errors are exact. After finalizing, extraction fails for inputs needing no scripts (C69_empty_counterexample); C69_after_finalize_partial gives the exact condition. Fails for final taproot inputs that declare SIGHASH_DEFAULT."
  },
  {
   "property": "C70",
   "status": "partial",
   "theorems": [
    "Psbt.V0.C70_msg_iff",
    "Psbt.V0.C70_agrees",
    "Psbt.V0.C70_no_panic",
    "Psbt.V0.C70_other_unknown_counterexample"
   ],
   "note": "Exact (C70_msg_iff, C70_agrees). False as stated: sighash_msg also needs the outputs spent by all other inputs (C70_other_unknown_counterexample)."
  },
  {
   "property": "C71",
   "status": "proved",
   "theorems": [
    "Psbt.V0.C71_updated_iff",
    "Psbt.V0.C71_unique",
    "Psbt.V0.C71_refused_iff",
    "Psbt.V0.C71_panic_iff",
    "Psbt.V0.C71_idempotent",
    "Psbt.V0.C71_unchecked_iff",
    "Psbt.V0.C71_unchecked_error_iff",
    "Psbt.V0.C71_scripts_match",
    "Psbt.V0.C71_finalizer_ready"
   ],
   "note": "Exact success, result, errors and panics. rust-miniscript and key derivation are a parameter (UpdLib); keys that can be derived have a path (Definite). Scripts of an earlier update with another descriptor are kept (example beside C71_scripts_match), so the match is proved for inputs that had none."
  },
  {
   "property": "C72",
   "status": "proved",
   "theorems": [
    "Psbt.V0.C72_updated_iff",
    "Psbt.V0.C72_unique",
    "Psbt.V0.C72_refused_iff",
    "Psbt.V0.C72_panic_iff",
    "Psbt.V0.C72_idempotent",
    "Psbt.V0.C72_unchecked_iff",
    "Psbt.V0.C72_unchecked_error_iff"
   ],
   "note": "Exact success, result, errors and panics. rust-miniscript and key derivation are a parameter (UpdLib)."
  },
  {
   "property": "C73",
   "status": "proved",
   "theorems": [
    "Psbt.C73_base64_bijective",
    "Psbt.V2.C73_v2_display",
    "Psbt.V2.C73_v2_parses_iff",
    "Psbt.V2.C73_v2_error_iff",
    "Psbt.V2.C73_v2_roundtrip",
    "Psbt.V0.C73_v0_display",
    "Psbt.V0.C73_v0_parses_iff",
    "Psbt.V0.C73_v0_error_iff",
    "Psbt.V0.C73_v0_roundtrip"
   ],
   "note": "Proved for both versions. The base64 crate is modelled from memory (standard alphabet, padding required, no trailing bits); its decode errors are not told apart."
  },
  {
   "property": "C74",
   "status": "partial",
   "theorems": [
    "Psbt.C74_hex_read",
    "Psbt.C74_hex_written",
    "Psbt.C74_v2_roundtrip_iff",
    "Psbt.C74_v0_roundtrip_iff",
    "Psbt.C74_owned_counterexample",
    "Psbt.C74_json",
    "Psbt.C74_parts",
    "Psbt.C74_dleq_length",
    "Psbt.C74_keys_read",
    "Psbt.C74_fields",
    "Psbt.C74_bytes_v2",
    "Psbt.C74_bytes_v0",
    "Psbt.C74_any_order",
    "Psbt.C74_other_names",
    "Psbt.C74_twice",
    "Psbt.C74_left_out",
    "Psbt.C74_required"
   ],
   "note": "Exact. False as stated: PSBTs with hash preimages are not read back from human-readable formats that do not lend strings, such as serde_json::from_reader (C74_owned_counterexample). The serde implementations of rust-bitcoin types are a parameter (SerdeLib) assumed to round-trip; formats are reduced to the data model."
  },
  {
   "property": "C75",
   "status": "partial",
   "theorems": [
    "Psbt.C75_roles_partial",
    "Psbt.C75_lock_time_counterexample",
    "Psbt.C75_version_counterexample"
   ],
   "note": "False: the roles derive Deserialize without checks (C75_lock_time_counterexample, C75_version_counterexample). Proved: what was written is read back."
  },
  {
   "property": "C76",
   "status": "partial",
   "theorems": [
    "Psbt.C76_downgrade_loses",
    "Psbt.C76_downgrade_reads",
    "Psbt.C76_downgrade_partial",
    "Psbt.C76_downgrade_counterexample",
    "Psbt.C76_upgrade_counterexample",
    "Psbt.C76_ignored_partial"
   ],
   "note": "False: a PSBT written without the feature is never read with it (C76_upgrade_counterexample), and the other way round not in formats that write structs as sequences (C76_downgrade_counterexample). Proved: in human-readable formats a PSBT written with the feature is read without it, and silent payment data is dropped without notice (C76_downgrade_loses, C76_downgrade_reads), so one without such data is read as the same PSBT (C76_downgrade_partial); single fields are ignored in maps."
  },
  {
   "property": "C77",
   "status": "partial",
   "theorems": [
    "Psbt.V2.C77_report",
    "Psbt.V2.C77_combine_iff",
    "Psbt.V2.C77_combine_unsigned",
    "Psbt.V2.C77_order",
    "Psbt.V2.C77_any_order",
    "Psbt.V2.C77_copies",
    "Psbt.V2.C77_signer",
    "Psbt.V2.C77_stale_counterexample"
   ],
   "note": "Exact condition (C77_combine_iff). False only where a signer replaces an outdated signature: combining brings it back (C77_stale_counterexample). Order independence assumes that private keys with the same public key sign alike."
  },
  {
   "property": "C78",
   "status": "partial",
   "theorems": [
    "Psbt.V2.C78_sign",
    "Psbt.V2.C78_combine_iff",
    "Psbt.V2.C78_copies_partial",
    "Psbt.V2.C78_combine_counterexample"
   ],
   "note": "Proved for signing and for combining copies of one PSBT. False in general: combining keeps the flags of the first PSBT only (C78_combine_counterexample); C78_combine_iff is exact."
  },
  {
   "property": "C79",
   "status": "partial",
   "theorems": [
    "Psbt.V0.C79_report",
    "Psbt.V0.C79_combine_iff",
    "Psbt.V0.C79_combine_unsigned",
    "Psbt.V0.C79_order",
    "Psbt.V0.C79_any_order",
    "Psbt.V0.C79_copies",
    "Psbt.V0.C79_stale_counterexample",
    "Psbt.V0.C79_leaf_counterexample"
   ],
   "note": "Exact condition (C79_combine_iff). False where an outdated ECDSA signature is replaced, or a leaf is signed differently by both (C79_stale_counterexample, C79_leaf_counterexample). Order independence assumes that providers agree on keys and private keys with the same public key sign alike."
  },
  {
   "property": "C80",
   "status": "partial",
   "theorems": [
    "Psbt.V2.C80_hand_over_partial",
    "Psbt.V2.C80_input_builder",
    "Psbt.V2.C80_new_output_iff",
    "Psbt.V2.C80_not_carried"
   ],
   "note": "Proved for added inputs and outputs the format can carry, with signatures and final scripts within the size limits. False otherwise: the constructor accepts outputs of amount zero (OP_RETURN), without script, and null outpoints, which are then never read back (C80_not_carried)."
  },
  {
   "property": "C81",
   "status": "partial",
   "theorems": [
    "Psbt.V0.C81_hand_over_iff",
    "Psbt.V0.C81_sign_limits",
    "Psbt.V0.C81_combine_limits_iff",
    "Psbt.V0.C81_combine_counterexample"
   ],
   "note": "Exact (C81_hand_over_iff), and signing stays within the limits. False for combining: two PSBTs within the limits may combine to one whose global map is larger than 4,000,000 bytes, which is never read back (C81_combine_counterexample; C81_combine_limits_iff is exact)."
  },
  {
   "property": "C82",
   "status": "proved",
   "theorems": [
    "Psbt.V0.C82_transaction_kept",
    "Psbt.V0.C82_history",
    "Psbt.V0.C82_end_to_end",
    "Psbt.V0.C82_txid"
   ],
   "note": "Proved, including calls that report errors and assignments to the maps."
  },
  {
   "property": "C83",
   "status": "partial",
   "theorems": [
    "Psbt.V2.C83_end_to_end_partial",
    "Psbt.V2.C83_final_lock_time"
   ],
   "note": "Proved for version, outpoints and outputs. False for lock time and sequence numbers: finalizing drops them (C83_final_lock_time, C40_unsigned_tx_counterexample)."
  },
  {
   "property": "C84",
   "status": "proved",
   "theorems": [
    "Psbt.V2.C84_check_iff",
    "Psbt.V2.C84_errors"
   ],
   "note": ""
  },
  {
   "property": "C85",
   "status": "partial",
   "theorems": [
    "Psbt.V2.C85_sequences_stated_partial",
    "Psbt.V2.C85_segwit_counterexample",
    "Psbt.V2.C85_legacy_counterexample",
    "Psbt.V2.C85_taproot_counterexample"
   ],
   "note": "False of the code for whatever goes through its finalizer (C85_*_counterexample, short of hash collisions, for ECDSA before and after SegWit and for taproot). C85_sequences_stated_partial: it holds if every input states its sequence number, which only PSBTs finalized elsewhere do."
  },
  {
   "property": "C86",
   "status": "partial",
   "theorems": [
    "Psbt.C86_v2_ecdsa",
    "Psbt.C86_v0_ecdsa",
    "Psbt.C86_msg_ecdsa",
    "Psbt.C86_msg_partial",
    "Psbt.C86_v2_sign",
    "Psbt.C86_v0_sign",
    "Psbt.C86_stale_counterexample"
   ],
   "note": "Exact for every ECDSA message and for signing. C86_msg_partial: taproot messages, if all PSBTs the cache was used for state the same spent outputs; otherwise false (C86_stale_counterexample): sighash_msg takes the amounts of the PSBT the cache was first used for."
  },
  {
   "property": "C87",
   "status": "proved",
   "theorems": [
    "Psbt.V2.C87_built",
    "Psbt.V2.C87_failures",
    "Psbt.V2.C87_input_builder"
   ],
   "note": ""
  },
  {
   "property": "C88",
   "status": "proved",
   "theorems": [
    "Psbt.V0.C88_completed"
   ],
   "note": "The laws of KeyLaws are assumptions on rust-miniscript: that it makes key descriptors, satisfies them with the signature it is given, and that the interpreter accepts a signature made with the key over the message. Shown to be consistent with an interpreter that accepts nothing else. Inputs of a single key only; a PSBT v2 counterpart is refuted by C85."
  },
  {
   "property": "C89",
   "status": "proved",
   "theorems": [
    "Psbt.V0.C89_same_messages",
    "Psbt.V0.C89_end_to_end",
    "Psbt.V0.C89_signed",
    "Psbt.V0.C89_accepted"
   ],
   "note": "C89_accepted assumes of the interpreter that it reads the transaction only through messages and the number of inputs; the messages are exact."
  },
  {
   "property": "C90",
   "status": "proved",
   "theorems": [
    "Psbt.V0.C90_completed"
   ],
   "note": "KeyLaws as for C88, and TweakLaw: tweaking public and secret keys gives keys that belong together. Sighash types are the default ones, as updating does not set them."
  },
  {
   "property": "C91",
   "status": "proved",
   "theorems": [
    "Psbt.V0.C91_completed",
    "Psbt.V0.C91_copies"
   ],
   "note": "KeyLaws as for C88, and ScriptLaws: what is expected of rust-miniscript for scripts that need nothing but signatures. Shown to be consistent with an interpreter that accepts nothing else (mM_laws, mM_scripts). For copies the signers must not have different keys for one origin and there must be no ECDSA signatures yet (otherwise see C79)."
  },
  {
   "property": "C92",
   "status": "partial",
   "theorems": [
    "Psbt.V2.C92_steps_partial",
    "Psbt.V2.C92_extracted_counterexample",
    "Psbt.V2.C92_refused_counterexample"
   ],
   "note": "C92_steps_partial: with no stated sequence number other than 0 and the fallback lock time, everything succeeds. C92_extracted_counterexample: but no signature is over the message of the extracted transaction, short of a collision. C92_refused_counterexample: in all other cases finalizing fails. Assume KeyLaws (as C88) and Strict (the interpreter rejects signatures of other messages); both hold of a concrete library (zM_laws, zM_strict)."
  },
  {
   "property": "C93",
   "status": "partial",
   "theorems": [
    "Psbt.C93_key_names",
    "Psbt.V2.C93_parse_counterexample",
    "Psbt.V2.C93_text_counterexample",
    "Psbt.V2.C93_roles_partial",
    "Psbt.V2.C93_extractor",
    "Psbt.V2.C93_excluded_named",
    "Psbt.V0.C93_named_counterexample",
    "Psbt.V0.C93_named_partial"
   ],
   "note": "Fails for every failure to parse a PSBT v2, whose error panics when printed (C93_parse_counterexample, C93_text_counterexample), and for the names v0 gives to refused records of the global and output maps (C93_named_counterexample). Proved: all other v2 errors can be printed with their sources, with the same text without std except for the errors of finalizing an input; an extractor never returns the error that cannot be printed; names in v0 input maps and in the v2 global map are right."
  },
  {
   "property": "C94",
   "status": "proved",
   "theorems": [
    "Psbt.C94_one_version",
    "Psbt.C94_one_version_text",
    "Psbt.C94_v0_refused",
    "Psbt.C94_v2_refused"
   ],
   "note": "Complete: acceptance of the same bytes by both decoders is contradictory; the refusal of each version's serialisation by the other decoder names the reason."
  },
  {
   "property": "C95",
   "status": "proved",
   "theorems": [
    "Psbt.C95_read_iff",
    "Psbt.C95_listing_unique",
    "Psbt.C95_same_tree",
    "Psbt.C95_swapped_root",
    "Psbt.C95_written",
    "Psbt.C95_control_iff"
   ],
   "note": "Complete. Byte strings of 2^64 and more bytes are excluded."
  },
  {
   "property": "C96",
   "status": "partial",
   "theorems": [
    "Psbt.V0.C96_input_committed",
    "Psbt.V0.C96_scripts_proven",
    "Psbt.V0.C96_every_leaf",
    "Psbt.V0.C96_output_committed_partial",
    "Psbt.V0.C96_stale_tree_counterexample"
   ],
   "note": "Inputs: complete; no entry can be promised for leaves whose proofs collide, so collision freedom of the strings hashed for this tree is a hypothesis (met in the example). Outputs: an old tree stays if the descriptor has none (counterexample), the rest is proved."
  },
  {
   "property": "C97",
   "status": "proved",
   "theorems": [
    "Psbt.V0.C97_completed",
    "Psbt.V0.C97_copies"
   ],
   "note": "For the kinds of descriptors listed, and under the laws of the signature, tweak and miniscript libraries stated as hypotheses (KeyLaws, ScriptLaws, TweakLaw), which the example meets."
  },
  {
   "property": "C98",
   "status": "proved",
   "theorems": [
    "Psbt.V2.C98_v2_ends",
    "Psbt.V2.C98_v2_cut",
    "Psbt.V2.C98_v2_text",
    "Psbt.V0.C98_v0_ends",
    "Psbt.V0.C98_v0_cut",
    "Psbt.V0.C98_v0_text"
   ],
   "note": "Complete. Allocation failures for lack of memory are not modelled."
  },
  {
   "property": "C99",
   "status": "partial",
   "theorems": [
    "Psbt.V2.C99_kept_partial",
    "Psbt.V2.C99_unconstrained_partial",
    "Psbt.V2.C99_signed_partial",
    "Psbt.V2.C99_lock_time_counterexample",
    "Psbt.V2.C99_survives_iff_partial"
   ],
   "note": "Proved as long as the lock time stays the same (C99_kept_partial), which it does if the inputs added require none (C99_unconstrained_partial). It is not when the lock time changes, short of a hash failure (C99_survives_iff_partial, exact). False as stated: constructors accept an input that changes the lock time under the signatures (C99_lock_time_counterexample)."
  },
  {
   "property": "C100",
   "status": "proved",
   "theorems": [
    "Psbt.C100_v2",
    "Psbt.C100_v2_signer",
    "Psbt.C100_v0"
   ],
   "note": "Complete. ECDSA signatures are deterministic (RFC 6979, low R), as in the code."
  },
  {
   "property": "C101",
   "status": "partial",
   "theorems": [
    "Psbt.V0.C101_v0_checked_partial",
    "Psbt.V0.C101_v0_updated",
    "Psbt.V0.C101_amount",
    "Psbt.V0.C101_all_signed",
    "Psbt.V0.C101_one_taproot",
    "Psbt.V0.C101_v0_unchecked_counterexample",
    "Psbt.V0.C101_v0_contradiction_counterexample",
    "Psbt.V0.C101_one_segwit_counterexample",
    "Psbt.V2.C101_v2_partial",
    "Psbt.V2.C101_v2_counterexample"
   ],
   "note": "The code violates the claim. v2 never compares the full transaction that an input carries with the id the input names, and signs, computes fees and extracts with it (C101_v2_counterexample); v0 signing does not either (C101_v0_unchecked_counterexample). v0 signer_checks compare the id but not a witness UTXO beside it, which is then used (C101_v0_contradiction_counterexample). Proved: the fee is right after signer_checks if both kinds of UTXO agree, after updating from descriptors, and whenever segwit or taproot signatures for all inputs (or one taproot signature) are valid."
  },
  {
   "property": "C102",
   "status": "proved",
   "theorems": [
    "Psbt.V2.C102_v2",
    "Psbt.V2.C102_v2_restored",
    "Psbt.V0.C102_v0",
    "Psbt.V0.C102_v0_restored",
    "Psbt.V0.C102_signatures_counterexample",
    "Psbt.V0.C102_v0_parsed",
    "Psbt.V2.C102_v2_parsed"
   ],
   "note": "Proved for both versions. C102_signatures_counterexample shows the limit that BIP-174 leaves open: neither order of combining protects a valid signature from a participant with an invalid one under the same key."
  },
  {
   "property": "C103",
   "status": "proved",
   "theorems": [
    "Psbt.V2.C103_v2_transaction",
    "Psbt.V2.C103_v2_sign",
    "Psbt.V2.C103_v2_message",
    "Psbt.V2.C103_v2_finalize",
    "Psbt.V2.C103_v2_extract",
    "Psbt.V2.C103_v2_alike",
    "Psbt.V0.C103_v0_sign",
    "Psbt.V0.C103_v0_message",
    "Psbt.V0.C103_v0_finalize",
    "Psbt.V0.C103_v0_extract",
    "Psbt.V0.C103_v0_alike"
   ],
   "note": "Proved for both versions and all results. Combining and serialising do look at these records, of course; they are the subject of C27 to C29, C102 and of the round trips."
  },
  {
   "property": "C104",
   "status": "proved",
   "theorems": [
    "Psbt.V0.C104_v0_ecdsa",
    "Psbt.V0.C104_v0_taproot",
    "Psbt.V0.C104_v0_anyone_can_pay",
    "Psbt.V2.C104_v2"
   ],
   "note": "Proved for both versions."
  },
  {
   "property": "C105",
   "status": "partial",
   "theorems": [
    "Psbt.V2.C105_v2_trace",
    "Psbt.V2.C105_v2_counterexample",
    "Psbt.V2.C105_v2_partial",
    "Psbt.V2.C105_v2_panics_iff",
    "Psbt.V0.C105_v0_trace",
    "Psbt.V0.C105_v0"
   ],
   "note": "PSBT v0 is proved. PSBT v2 asks for memory by a count it is told: 40 bytes are enough for any request. For v2 the bound is proved of the runs that succeed. Not counted: the vector for one key (at most 4,000,000 bytes, raw.rs:106) and those that grow as bytes are read."
  },
  {
   "property": "C106",
   "status": "proved",
   "theorems": [
    "Psbt.V2.C106_kept",
    "Psbt.V2.C106_lost"
   ],
   "note": "Both directions, for any number of calls. `C106_lost` supposes that the UTXOs and scripts are proper (what is signed with SINGLE has a matching output), and leaves the two messages equal only if a hash function collides."
  },
  {
   "property": "C107",
   "status": "partial",
   "theorems": [
    "Psbt.V2.C107_v2_partial",
    "Psbt.V2.C107_v2_money_partial",
    "Psbt.V2.C107_v2_counterexample",
    "Psbt.V0.C107_v0_partial",
    "Psbt.V0.C107_v0_money_partial",
    "Psbt.V0.C107_v0_counterexample"
   ],
   "note": "The code never compares outpoints, so the claim holds only of what the caller asked for."
  },
  {
   "property": "C108",
   "status": "partial",
   "theorems": [
    "Psbt.Both.C108_unsigned_tx_partial",
    "Psbt.Both.C108_fee",
    "Psbt.Both.C108_extract",
    "Psbt.Both.C108_extract_with_limit",
    "Psbt.Both.C108_combine",
    "Psbt.Both.C108_message_counterexample",
    "Psbt.Both.C108_scripts_partial",
    "Psbt.Both.C108_finalize_partial",
    "Psbt.Both.C108_finalize_counterexample",
    "Psbt.Both.C108_output_type",
    "Psbt.Both.C108_message_partial",
    "Psbt.Both.C108_sign_partial",
    "Psbt.Both.C108_unsigned_tx_iff_partial"
   ],
   "note": "What depends on the unsigned transaction needs all sequence numbers to be there (C108_unsigned_tx_iff_partial). Signing: if neither panics; taproot signatures are made by v0 only. Finalizing: if both succeed (v0 with malleable satisfactions allowed), every input requires the lock time of the transaction, or requires none and is final, and key hashes stand for keys the input lists itself; C108_finalize_counterexample: they disagree on time locks otherwise."
  },
  {
   "property": "C109",
   "status": "partial",
   "theorems": [
    "Psbt.C109_value_iff",
    "Psbt.C109_value_counterexample",
    "Psbt.C109_pair_iff",
    "Psbt.C109_map_iff",
    "Psbt.C109_key_text",
    "Psbt.V2.C109_preimage_counterexample",
    "Psbt.V2.C109_xpub_counterexample",
    "Psbt.V2.C109_roles",
    "Psbt.V0.C109_error_iff",
    "Psbt.V0.C109_text_iff",
    "Psbt.V0.C109_preimage",
    "Psbt.V0.C109_roles",
    "Psbt.V0.C109_source_counterexample",
    "Psbt.C109_unsourced_occur",
    "Psbt.C109_v2_index",
    "Psbt.C109_v0_index",
    "Psbt.C109_funding",
    "Psbt.C109_length",
    "Psbt.C109_v2_which_input",
    "Psbt.C109_v0_which_input"
   ],
   "note": "Fails for five failures of parsing, and for some v2 messages that name the wrong thing (counterexamples); a v2 parse failure as a whole cannot be printed at all (C93)."
  },
  {
   "property": "C110",
   "status": "partial",
   "theorems": [
    "Psbt.V2.C110_global_in_place",
    "Psbt.V2.C110_global_kept",
    "Psbt.V2.C110_global_retry",
    "Psbt.V0.C110_combine_kept",
    "Psbt.V0.C110_combine_retry",
    "Psbt.V0.C110_final_again",
    "Psbt.V0.C110_stuck",
    "Psbt.V0.C110_finalize_retry_partial",
    "Psbt.V0.C110_finalize_counterexample"
   ],
   "note": "Holds for combining. Fails for finalizing in v0 (counterexample): the second call reports errors for inputs that are final already; what it does finalize is right (_partial)."
  },
  {
   "property": "C111",
   "status": "proved",
   "theorems": [
    "Psbt.V2.C111_frame",
    "Psbt.V2.C111_signatures",
    "Psbt.V2.C111_flags",
    "Psbt.V2.C111_errors",
    "Psbt.V2.C111_never_panics",
    "Psbt.V2.C111_steady",
    "Psbt.V2.C111_never_panics_iff",
    "Psbt.V0.C111_frame",
    "Psbt.V0.C111_reports",
    "Psbt.V0.C111_ecdsa",
    "Psbt.V0.C111_panics_iff",
    "Psbt.V0.C111_steady"
   ],
   "note": "v2: that signing panics with no provider holds exactly if every input ECDSA signing applies to has a message (C111_never_panics_iff); see C35 for the panic."
  },
  {
   "property": "C112",
   "status": "proved",
   "theorems": [
    "Psbt.V0.C112_fresh",
    "Psbt.V0.C112_same"
   ],
   "note": "For v0; v2 has no taproot signing."
  },
  {
   "property": "C113",
   "status": "partial",
   "theorems": [
    "Psbt.C113_witnesses",
    "Psbt.C113_commits",
    "Psbt.V0.C113_extracted_iff",
    "Psbt.V0.C113_known",
    "Psbt.V0.C113_native",
    "Psbt.V2.C113_extracted_iff",
    "Psbt.V2.C113_finalized_iff",
    "Psbt.V2.C113_known_partial",
    "Psbt.V2.C113_counterexample"
   ],
   "note": "Proved for v0. False of v2 (C113_counterexample): the finalizer drops sequence numbers and lock times, and extraction uses another default for a missing sequence number. V2.C113_finalized_iff gives the exact condition."
  },
  {
   "property": "C114",
   "status": "proved",
   "theorems": [
    "Psbt.V0.C114_completed",
    "Psbt.V0.C114_copies",
    "Psbt.V0.C114_from_descriptors",
    "Psbt.V0.C114_copies_from_descriptors"
   ],
   "note": "Assumes KeyLaws, ScriptLaws and LeafLaws of rust-miniscript (what it satisfies and what the interpreter accepts); leaves with hash locks or timelocks are not covered by the laws."
  },
  {
   "property": "C115",
   "status": "partial",
   "theorems": [
    "Psbt.C115_dleq",
    "Psbt.C115_version",
    "Psbt.V2.C115_told_partial",
    "Psbt.V2.C115_count_called_duplicate",
    "Psbt.V2.C115_xpub_called_key_data",
    "Psbt.V2.C115_scan_key_called_short",
    "Psbt.V2.C115_share_called_short",
    "Psbt.V2.C115_txid_called_missing",
    "Psbt.V2.C115_index_called_missing",
    "Psbt.V2.C115_amount_called_missing",
    "Psbt.V2.C115_script_called_missing",
    "Psbt.V2.C115_input_key_called_duplicate",
    "Psbt.V2.C115_output_key_called_duplicate",
    "Psbt.V0.C115_told"
   ],
   "note": "The v0 parser tells the truth. The v2 parser does not in the ten cases of Misled2, for each of which there is a theorem with a PSBT that is complained about in this way; these are findings 50 to 54 in DESIGN.md. For values made by rust-bitcoin (transactions, witnesses, origins) the kind of the consensus error is not said, only that the bytes are not written by any value."
  },
  {
   "property": "C116",
   "status": "proved",
   "theorems": [
    "Psbt.V2.C116_output_type",
    "Psbt.V2.C116_sighash",
    "Psbt.V2.C116_sign",
    "Psbt.V0.C116_output_type",
    "Psbt.V0.C116_sighash",
    "Psbt.V0.C116_taproot",
    "Psbt.V0.C116_sign"
   ],
   "note": "Equivalences, but for taproot messages (V0.C116_taproot): that a reason gives its error needs that no UTXO has its index out of range, as a panic about another input may come first (C50_panic_counterexample)."
  },
  {
   "property": "C117",
   "status": "partial",
   "theorems": [
    "Psbt.C117_parts",
    "Psbt.C117_insert_partial",
    "Psbt.C117_finalize_input_partial",
    "Psbt.C117_get_key_partial",
    "Psbt.C117_fingerprint_counterexample",
    "Psbt.C117_redeem_script_counterexample",
    "Psbt.C117_bip32_counterexample",
    "Psbt.V2.C117_roles",
    "Psbt.V0.C117_error",
    "Psbt.V0.C117_roles",
    "Psbt.C117_value_apart",
    "Psbt.C117_insert_apart",
    "Psbt.C117_map_apart",
    "Psbt.C117_fee_apart",
    "Psbt.V2.C117_sign_apart",
    "Psbt.V0.C117_sign_apart",
    "Psbt.V0.C117_sighash_apart",
    "Psbt.V0.C117_checks_apart",
    "Psbt.V0.C117_update_apart",
    "Psbt.V0.C117_error_apart"
   ],
   "note": "Three messages do not name what is wrong (the counterexamples, findings 55 to 57); all others do. Errors whose Display is todo!() have no message (C93). Which hash a preimage does not match is not in the message of v2 (C109_preimage_counterexample)."
  },
  {
   "property": "C118",
   "status": "proved",
   "theorems": [
    "Psbt.V2.C118_global",
    "Psbt.V2.C118_global_in_place",
    "Psbt.V2.C118_combine",
    "Psbt.V2.C118_panic",
    "Psbt.V0.C118_combine",
    "Psbt.V0.C118_panic"
   ],
   "note": "All six are equivalences. Contradictory means that neither path is an ending of the other; equal paths with different fingerprints are not reported by the code (finding 6, C29)."
  },
  {
   "property": "C119",
   "status": "proved",
   "theorems": [
    "Psbt.V0.C119_told"
   ],
   "note": "An equivalence. The error MissingInputUtxo exists but is never given by this method: a missing output gives MissingSpendUtxos first."
  },
  {
   "property": "C120",
   "status": "proved",
   "theorems": [
    "Psbt.V2.C120_v2_records",
    "Psbt.V2.C120_v2_any_order",
    "Psbt.V2.C120_v2_determined",
    "Psbt.V0.C120_v0_records",
    "Psbt.V0.C120_v0_any_order",
    "Psbt.V0.C120_v0_determined"
   ],
   "note": "The conditions in `Together` on the records that one side may lack are necessary: combine of the code keeps or drops these records depending on the order (C02, C102 and DESIGN.md section 4)."
  },
  {
   "property": "C121",
   "status": "partial",
   "theorems": [
    "Psbt.V2.C121_v2",
    "Psbt.V2.C121_v2_same",
    "Psbt.V2.C121_v2_same_but_flags",
    "Psbt.V2.C121_v2_flags_counterexample",
    "Psbt.V0.C121_v0",
    "Psbt.V0.C121_v0_same",
    "Psbt.V0.C121_v0_transaction",
    "Psbt.V0.C121_v0_from_descriptors"
   ],
   "note": "v0 in full. v2: equal results except for the modifiable flags when something signed is combined into a copy that nobody signed (C121_v2_flags_counterexample): combine keeps the flags of its first argument. C121_v2_same_but_flags holds for all sessions, C121_v2_same for those that avoid it."
  },
  {
   "property": "C122",
   "status": "proved",
   "theorems": [
    "Psbt.V2.C122_readable_iff",
    "Psbt.V2.C122_there_and_back",
    "Psbt.V2.C122_returned",
    "Psbt.V2.C122_signed",
    "Psbt.V2.C122_no_silent_payments",
    "Psbt.V2.C122_combined",
    "Psbt.V2.C122_combined_returned",
    "Psbt.V2.C122_other_address"
   ],
   "note": ""
  },
  {
   "property": "C123",
   "status": "partial",
   "theorems": [
    "Psbt.V2.C123_v2_fee",
    "Psbt.V2.C123_v2_extract",
    "Psbt.V0.C123_v0_fee",
    "Psbt.V0.C123_v0_extract_partial",
    "Psbt.V0.C123_counterexample"
   ],
   "note": "Exact for both versions. False as stated: v0 reports amounts that do not fit 64 bits as an absurd fee rate, also when the outputs are worth more than the inputs (C123_counterexample)."
  },
  {
   "property": "C124",
   "status": "partial",
   "theorems": [
    "Psbt.V2.C124_steps_partial",
    "Psbt.V2.C124_extracted_counterexample"
   ],
   "note": "C124_steps_partial: everything succeeds if no sequence number other than 0 is stated and the lock time is the fallback lock time (otherwise see C92_refused_counterexample). C124_extracted_counterexample: but no signature made is over a message of the extracted transaction, short of a collision. Assumes KeyLaws and ScriptLaws as C91, and deterministic signatures as C121."
  },
  {
   "property": "C125",
   "status": "proved",
   "theorems": [
    "Psbt.V0.C125_completed",
    "Psbt.V0.C125_session"
   ],
   "note": "Assumes KeyLaws, ScriptLaws, LeafLaws, LockLaws and LeafLockLaws of rust-miniscript. A relative lock needs a transaction version below 2^31 (C65_v0_older: versions are compared as signed numbers). Preimages must be of 32 bytes, as the satisfier demands; that they are right follows from C15 for a PSBT that was read."
  },
  {
   "property": "C126",
   "status": "partial",
   "theorems": [
    "Psbt.V2.C126_hashes_partial",
    "Psbt.V2.C126_timelock_counterexample"
   ],
   "note": "C126_hashes_partial: scripts with hashes are completed, under the conditions of C124_steps_partial (LockLaws assumed). C126_timelock_counterexample: no PSBT that spends an output that takes a timelock can be finalized, whatever lock time and sequence number it states, because the finalized input no longer has them when the interpreter runs."
  },
  {
   "property": "C127",
   "status": "proved",
   "theorems": [
    "Psbt.V2.C127_v2_signatures",
    "Psbt.V2.C127_v2_new",
    "Psbt.V0.C127_v0_finalize",
    "Psbt.V0.C127_v0_extract"
   ],
   "note": "Exact (iff) for Finalizer::new, the signature type check and extraction in v0; the sanity check of v0 finalize is C127_v0_finalize."
  },
  {
   "property": "C128",
   "status": "partial",
   "theorems": [
    "Psbt.V0.C128_accepted",
    "Psbt.V0.C128_combines",
    "Psbt.V0.C128_kept",
    "Psbt.V0.C128_order",
    "Psbt.V0.C128_extract_partial",
    "Psbt.V0.C128_only_all_partial",
    "Psbt.V0.C128_type_counterexample",
    "Psbt.V2.C128_v2_restored",
    "Psbt.V2.C128_v2_same_partial",
    "Psbt.V2.C128_v2_counterexample"
   ],
   "note": "Extraction fails in v0 when an input with another signature type than ALL was finalized before combining with an unfinished copy (C128_type_counterexample), so C128_extract_partial asks for matching types and C128_only_all_partial for type ALL. In v2 the combination has its sequence numbers and lock times back and yields another transaction (C128_v2_counterexample); C128_v2_same_partial says exactly when it is the same."
  },
  {
   "property": "C129",
   "status": "proved",
   "theorems": [
    "Psbt.V0.C129_v0_crashes_iff",
    "Psbt.V0.C129_v0_guarded",
    "Psbt.V0.C129_v0_counterexample",
    "Psbt.V0.C129_v0_combine_counterexample",
    "Psbt.V2.C129_v2_crashes_iff",
    "Psbt.V2.C129_v2_sign_counterexample",
    "Psbt.V2.C129_v2_finalize_counterexample"
   ],
   "note": "The exact conditions are proved. The counterexamples are byte strings that are read without an error and then make signing (v0, v2) or finalizing (v2) panic, and a v0 PSBT that becomes dangerous by combining it with another."
  },
  {
   "property": "C130",
   "status": "proved",
   "theorems": [
    "Psbt.V0.C130_any_order",
    "Psbt.V0.C130_copies",
    "Psbt.V0.C130_blank_copies",
    "Psbt.V0.C130_shared",
    "Psbt.V0.C130_many_copies",
    "Psbt.V0.C130_old_script_kept",
    "Psbt.V2.C130_v2_any_order",
    "Psbt.V2.C130_v2_copies_iff"
   ],
   "note": "Any order is proved without conditions. On copies, an updater that replaces an old script is undone by combining (C130_old_script_kept), so the condition that nothing was replaced is needed."
  }
 ]
}
