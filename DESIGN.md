# Formal model of rust-psbt in Lean 4 — design

Subject: `tcharding/rust-psbt` at the pinned commit in `/repo`. The code is read as text, never built or run.

* `properties.jsonl` — the properties C01, C02, … in words.
* `lean/Verif/Model/` — the model, function by function; every definition cites the file and lines it models.
* `lean/Verif/Spec/` — small specifications, written from the BIPs and the documentation, not from the code.
  Byte layouts are written out there on their own (`Spec/Encoding.lean`: integers, compact sizes, transactions, txids;
  `Spec/RawMap.lean`: pairs and maps), and `Lemmas/Encoding.lean`, `Lemmas/RawMap.lean` prove that the encoders of the model
  write the same bytes. Specifications name API functions where a property is about calls to the API.
* `lean/Verif/Lemmas/` — helper lemmas. `lean/Verif/Props/` — the property theorems `C##_…`, with examples beside them. `lean/Verif/Cases/` — more theorems
  applied to concrete PSBTs and bytes that meet their hypotheses.
* `MANIFEST.json` — which theorems settle which property. `AXIOMS.md` — the axioms each of them depends on.
* `seeded/LOG.jsonl` — wrong programs the theorems were tried on.

## 1. Shape of the model

* Bytes are `List UInt8`. `u8`/`u32`/`u64` values are Lean's fixed-width `UInt8`/`UInt32`/`UInt64`. `usize` is 64 bits.
* A Rust function `fn f(&mut self, ..) -> Result<T, E>` becomes a pure function into `Except`. Where it can panic the result type is
  `Out E T`: a reachable panic (`expect`, `unwrap`, slice index, arithmetic underflow, capacity overflow, `unreachable!`) is the value
  `Fail.panic why`, distinct from every error value. Where Rust leaves `self` changed although it returns an error, and a property speaks of
  it, the new state is part of the result (v0 signing, v0 updating and finalizing); where not, the comment says so.
* `BTreeMap` is a strictly sorted association list (`BMap`) with insertion that overwrites; the order is any strict total order of the keys.
* Readers (`BufRead`) are the remaining byte list; a decoder returns the value and the rest.
* rust-bitcoin, secp256k1, miniscript, base64 and serde are dependencies whose source is not in `/repo`. What the crate needs of them is
  either modelled concretely, from memory of their documented behaviour (compact sizes, byte vectors, transactions, witnesses, weight, script
  patterns, lock times, sequences, sighash types and the legacy, BIP-143 and BIP-341 signature messages, the taproot builder, Merkle roots
  and control blocks, base64, the serde data model), or is
  a field of a record every theorem quantifies over:
  - `Lib`: parsing of keys, DER signatures, extended keys (type `Foreign`: a byte parser that is idempotent on its own
    serialisation, does not grow it and serialises nothing to the empty string; x-only keys have 32 bytes); the hash functions; the order
    of control blocks as map keys; whether the feature `silent-payments` is on; sizes of `Input` and `Output` in memory.
  - `SigLib`: secret keys, ECDSA and Schnorr signing, tweaking, BIP-32 derivation. No laws are assumed.
  - `MsLib`: parsing and satisfying miniscripts, the interpreter. No laws are assumed except where a theorem lists them.
  - `UpdLib`: descriptor keys, encoding of miniscripts, the taproot output key (`outputKey`) and its parity, for updating v0 PSBTs.
  - `SerdeLib`: the serde implementations of dependency types, assumed to round-trip (`SerdeLib.Good`; `someSerde_good` shows such exist).
  Concrete instances (`Demo.lib`, `Demo.mixLib`, `Demo.msLib`, …) show that the records are inhabited and are used in the examples.
* The feature `silent-payments` is a Boolean of `Lib`, so theorems hold with it on and off.

## 2. Property by property

"Negated" means: the property as stated is false of the code; a theorem `…_counterexample` proves that with a concrete input, and
`…_partial` or exact theorems say what does hold. These have status `partial` in the manifest.

| id | model | method | result |
|----|-------|--------|--------|
| C01–C05 | `Model/Wire`, `Raw`, `Ser` | round trip by induction; canonicity by inversion; independent format specification | proved |
| C06, C07, C56 | v2 maps and PSBT, serialise/deserialise | fold lemma over the emitted pairs; exact well-formedness `Spec.WF` | proved (C06 is an equivalence) |
| C08–C10 | same | inversion of the decoder | proved |
| C11, C12 | same, also v0 | insertion of a pair touches one slot; commutation of distinct slots; induction over the pairs / permutations; v2: a field with a placeholder value is read exactly if only the last of its pairs gives another value (`Props/V2Parse3.lean`) | v0 proved, v2 negated, with the exact conditions |
| C13–C15 | same | invariant by induction over the pairs | proved |
| C16 | same, with capacity overflow as a panic | total function; negation by witness, and exactly when it panics | v0 proved, v2 negated, exact condition proved |
| C17, C18 | lock time with its two `expect`s | refinement to BIP-370 over the list of inputs | proved |
| C19–C22, C58 | roles as transition systems over call histories | invariant by induction over the history | proved; C58 negated, exact condition in `C58_iff_partial` |
| C23, C57, C59 | unsigned transaction, unique id | refinement; injectivity of the id preimage | proved; C59 negated |
| C24–C29, C48, C61 | combine of v2 and v0 | per-map specification, exact results | mostly negated; exact conditions for order, grouping and repetition (`C27_iff_partial`, `C28_exact_partial`, `C61_iff_partial`, `C61_assoc_iff_partial`, `C25_again_iff_partial`, `C48_again_iff_partial`), for lost keys (`C26_iff_partial`, `C48_input_iff_partial`) and for the unique id (`C24_id_iff_partial`) |
| C30–C32, C49 | UTXOs, fee, extraction | refinement to exact integer arithmetic | C30, C31 proved; saturation negated |
| C33–C37, C62 | v2 signing, sighash | frame theorems; exact message, injectivity (commitment) | C35, C37 negated in listed cases |
| C38, C53, C60 | sighash types, versions, format | decision logic over all `u32`; independent format specification | proved |
| C39–C44, C63–C65 | v2 finalizer and satisfier | exact success condition; fold invariant; BIP-65/112 specification | see notes in the manifest |
| C45–C47, C50–C52, C66–C70 | version 0 | as for version 2 | see notes in the manifest |
| C54, C55 | silent payments, key providers | invariants, decision logic | C54 proved, C55 negated for sets |
| C71, C72 | updating v0 from descriptors | exact result per kind of descriptor | proved |
| C73 | base64 | bit-level specification, bijection | proved |
| C74–C76 | serde | round trip for abstract formats; fields looked up by name, those left out (`C74_left_out`, `C74_required`) | negated in listed cases |
| C77, C79 | several signers (`Spec/Parallel.lean`, `Spec/V0Parallel.lean`) | what a signer adds depends only on the unsigned part; induction over the signers, permutations | exact; negated for replaced signatures |
| C78 | flags honest about the signatures | invariant of `sign`; exact condition for `combine` | negated for combining in general |
| C80, C81 | hand-over between roles (`Spec/HandOver.lean`, `Spec/V0HandOver.lean`) | induction over histories of role calls, with `Spec.WF` as invariant | negated for data the format cannot carry |
| C82, C83 | from creation to extraction (`Spec/V0HandOver.lean`, `Spec/Lifecycle.lean`) | induction over histories; what the transaction moves is an invariant | v2: negated for lock time and sequences |
| C84, C85 | the script interpreter on its own, and the messages it checks (`Spec/Interp.lean`) | induction over the inputs; commitment theorems of C37 | C85: negated for whatever is finalized; partial for stated sequences |
| C86 | the sighash cache of rust-bitcoin as memory (`Model/SighashCache.lean`, `Model/V*/SignCached.lean`, `Spec/SighashCache.lean`) | refinement: invariant of the cache over histories of calls | negated for taproot messages of PSBTs that disagree |
| C87 | histories of creator, constructor and builder calls (`Spec/Build.lean`) | induction over the history | exact |
| C88 | completing a v0 transaction whose inputs are of single keys (`Spec/Complete.lean`) | C50, C67, C69 put together, under stated laws of the libraries | exact for key inputs |
| C89 | the messages signed and the transaction extracted, v0 (`Spec/V0Messages.lean`) | messages do not depend on scripts and witnesses; histories of C82 | exact |
| C90 | making, funding, updating, signing, finalizing and extracting v0, from descriptors of one key (`Spec/FromDescriptor.lean`) | C71 feeds the hypotheses of C88; tweak law for taproot | exact for such descriptors |
| C91 | several signers, in turn or on copies, inputs with scripts of several keys (`Spec/Signers.lean`) | invariant over the signers (all signatures valid, all keys gone through); C79 for copies; `ScriptLaws` listed in the specification | proved under these laws |
| C92 | v2 inputs of one key through signer, finalizer and extractor (`Spec/V2Complete.lean`: `OneKeyInput`, `Plain`, `Strict`) | composition of C35, C41, C31 under `KeyLaws`; `checkedTx` is the signed transaction iff `Plain`; C85 and C37 for what goes wrong | partial: the steps succeed exactly if `Plain`, and what is extracted has no valid signature (both proved for all such PSBTs) |
| C93 | `Model/Report.lean`: `Display` and `source` of the v2 errors as a value per error (message, cause), names of key types. Spec: the chain of messages a caller sees. Counterexamples for every parse failure (`todo!()` in `Display`) and for the v0 names; the rest by cases over the error types; the table of names of key types is complete and right (`C93_key_names`) | | partial |
| C94 | The two decoders on the same bytes: the pairs of the global map are unique, v0 requires a pair of type 0, v2 excludes it. Errors: the first pair written decides | | proved |
| C95 | `Model/TapBuilder.lean`, `tapTreeCodec`, `ctrlCodec`; spec `Tree`, `Tree.list`, `Tree.root` (`Spec/TapTree.lean`, `Spec/TapRoot.lean`) | the builder's branch stack as a forest; induction on trees; listings are uniquely decodable | proved |
| C96 | updating v0 inputs and outputs from taproot descriptors; spec `ProvesLeaf`, `Committed` (`Spec/TapSpend.lean`) | Merkle proofs lead to the root by induction; without collisions a proof starts from one leaf | partial: negated for outputs with an old tree |
| C97 | the roles of C90 and C91 composed (`Spec/Shared.lean`: which keys of a descriptor the signers have between them) | what updating makes of each input meets the hypotheses of C91: the last origin recorded for a key is one of its origins in the descriptor (`someone`), scripts by kind | `C97_completed`, `C97_copies` |
| C98 | deserialisation and string form of both versions | decoders do not look beyond what they read (`Local`), composed over maps; two ends of one byte string are the same | `C98_v0_ends`, `C98_v0_cut`, `C98_v0_text`, `C98_v2_ends`, `C98_v2_cut`, `C98_v2_text` |
| C99 | constructor calls on a PSBT with signatures (`Spec.Extended`), messages of BIP-143 and the legacy algorithm | induction over the calls; a message depends only on what its type covers (C37) | `C99_kept_partial`, `C99_unconstrained_partial`, `C99_signed_partial`, `C99_survives_iff_partial`; fails: `C99_lock_time_counterexample` |
| C100 | signing of both versions; a second signature library that signs Schnorr differently stands for randomness | result of signing per input (C33, C50), composed with itself | `C100_v2`, `C100_v2_signer`, `C100_v0` |
| C101 | `fee`, `signer_checks`, updating, signature messages of both versions; a chain is a list of transactions | injectivity of the bytes an id is the hash of; commitments of the messages (C37, C62) | `C101_v0_updated`, `C101_amount`, `C101_all_signed`, `C101_one_taproot`; `C101_v0_checked_partial`, `C101_v2_partial`; three counterexamples and the limit of one BIP-143 signature |
| C102 | `combine` of both versions; the records of a map as in `Spec.V2Format` and `Spec.V0Format` | case analysis on the kind of record; success of the second combination from the xpub merge | `C102_v2`, `C102_v0`, `C102_v2_restored`, `C102_v0_restored`; `C102_signatures_counterexample`: neither order protects signatures |
| C103 | signing, checks, messages, finalizer, extractor, fee, lock time of both versions as they are modelled | every operation commutes with leaving out the other records (`Spec.core`) | `C103_v2_transaction`, `C103_v2_sign`, `C103_v2_message`, `C103_v2_finalize`, `C103_v2_extract`, `C103_v2_alike`, `C103_v0_sign`, `C103_v0_message`, `C103_v0_finalize`, `C103_v0_extract`, `C103_v0_alike` |
| C104 | `sign` of both versions; what is reported per input | what the loop does with an input is a function of the PSBT it started with (`outcome`), and this function looks at one map, at all UTXO fields only for taproot without ANYONECANPAY | `C104_v2`, `C104_v0_ecdsa`, `C104_v0_taproot`, `C104_v0_anyone_can_pay` |
| C105 | both `deserialize` with the list of `Vec::with_capacity` requests for the maps | the trace has the result of parsing; v0: the unsigned transaction the counts come from is among the bytes, each input and output of it takes nine or more; v2: a global map with any count decodes | v0 `C105_v0`, `C105_v0_trace`; v2 `C105_v2_counterexample`, `C105_v2_panics_iff`, `C105_v2_trace`, if parsing succeeds `C105_v2_partial` |
| C106 | v2 `set_sequence` between signing and signing | the PSBTs differ in sequence numbers only; the hashed bytes (C55) are compared part by part | `C106_kept`, `C106_lost` |
| C107 | both roads from nothing to a transaction (C82, C83), with `Spec.Acceptable`, the checks of `CheckTransaction` other than that of the size | from C82 and C83, which say what the transaction spends and pays; the amounts from C30 and C49 | partial: `C107_v2_partial`, `C107_v0_partial`, `C107_v2_money_partial`, `C107_v0_money_partial`; it fails in `C107_v2_counterexample`, `C107_v0_counterexample` |
| C108 | both models side by side, with the relation `Spec.SamePsbt` of BIP-370 (`Spec/BothVersions.lean`) | the characterisations of either version (C17, C30, C36, C37, C49) are compared; signing and combining by simulation, input by input; finalizing: the two satisfiers are the same function, so the relational characterisations of C41 and C67 coincide | partial: `C108_fee`, `C108_output_type`, `C108_extract`, `C108_extract_with_limit`, `C108_combine` without condition; `C108_unsigned_tx_partial`, `C108_message_partial`, `C108_sign_partial` if all sequence numbers are there; else `C108_message_counterexample`; `C108_scripts_partial`, `C108_finalize_partial` for inputs that require the lock time of the transaction, or none and are final (`Spec/BothVersionsFinalize.lean`), else `C108_finalize_counterexample` |
| C109 | `Model/ReportParts.lean`: `Display` and `source` of the errors of parsing and of all errors of v0, as for C93, with the texts of other crates as parameters. Spec: the innermost message (`root`) and that it occurs in what can be seen (`Explained`) | by cases over the error types; that a cause is hidden by choosing a text for it that occurs in no message | partial: `C109_value_iff`, `C109_pair_iff`, `C109_map_iff`, `V0.C109_error_iff`, `V0.C109_text_iff` say which failures have their cause; `C109_key_text`, `C109_v2_index` and its like (numbers), `V2.C109_roles`, `V0.C109_roles`, `V0.C109_preimage` hold; `…_counterexample` for the rest |
| C110 | `Global.combineMut` (the global map as the failed call leaves it); `V0.Psbt.combine`, `finalizeMut`, `finalizeWhile` as before. Spec: `Spec/Retry.lean` (`Mended`: what was mergeable is kept; `Repaired`: the missing data were added to the PSBT that the failed call left) | combining: induction over the list of extended keys with the map as state; merging is idempotent and keeps what it has; finalizing: a final input has none of the data the satisfier reads, other inputs are finalized independently (C67) | partial: `V2.C110_global_kept`, `V2.C110_global_retry`, `V0.C110_combine_kept`, `V0.C110_combine_retry` hold; `V0.C110_finalize_retry_partial`, `V0.C110_final_again`, `V0.C110_stuck` and `V0.C110_finalize_counterexample` for finalizing |
| C111 | `World` (a provider with a state, a sequence of random strings), `findKeyW`, `signLoopW`, `V0.Psbt.signW`, `V2.Psbt.signW`: signing that carries that state along. Spec: `Spec/World.lean` (`Gave`, `Steady`) | induction over the loops with the state as a parameter; what comes of an input is one of a set of allowed outcomes, the rest as for C33-C35 and C50 | `V0.C111_frame`, `_reports`, `_ecdsa`, `_panics_iff`, `_steady`; `V2.C111_frame`, `_signatures`, `_flags`, `_errors`, `_never_panics`, `_never_panics_iff`, `_steady` |
| C112 | as C111, with the counter of strings drawn. Spec: `Drawn`, `TapMade`, `SameButNonces` | the counter only grows, each signature takes the next number; simulation of the run without randomness | `V0.C112_fresh`, `V0.C112_same` |
| C113 | Spec: `Spec/TxId.lean` (`SameBody`, `Countable`, `Native`, `NoScriptSig`, `Extracts`) | injectivity of the encoding by decoding it again; C82 for the history; the interpreter's verdict on every finalized input (C67, C69, C41) rules out script sigs | partial (v2 violates it): `C113_witnesses`, `C113_commits`; `V0.C113_extracted_iff`, `_known`, `_native`; `V2.C113_extracted_iff`, `_finalized_iff`, `_known_partial`, `_counterexample` |
| C114 | Spec: `Spec/ScriptPath.lean` (`LeafLaws`, `LeafSpend`, `SharedLeaf`, `SharedAny`) | invariant of signing in turn: every leaf signature is one with the key of its public key on the leaf's message; the loop over the leaves finds a satisfied one, and every one it can find is accepted; C96 for the control blocks, C97 for the rest | proved: `V0.C114_completed`, `_copies`, `_from_descriptors`, `_copies_from_descriptors` |
| C115 | Spec: `Spec/Refused.lean`: tables of the key types with the reasons for which a pair of each is refused; `Fault2`, `Fault0` | every codec gives one of its reasons; every insertion step gives a fault of the pair or of an earlier one (`Explains`, by the invariant of the fold); maps and whole PSBTs by induction over pairs and maps | v0 proved: `V0.C115_told`; `C115_dleq`, `C115_version`. v2 partial: `V2.C115_told_partial`; the untrue complaints are listed by `Misled2`, and each is made: `V2.C115_count_called_duplicate`, `_xpub_called_key_data`, `_scan_key_called_short`, `_share_called_short`, `_txid_called_missing`, `_index_called_missing`, `_amount_called_missing`, `_script_called_missing`, `_input_key_called_duplicate`, `_output_key_called_duplicate` |
| C116 | Spec: `Spec/SignTold.lean`: `TypeFault`, `SighashFault`, `TapFault`, one case for each error with what it claims of the PSBT | by cases on the steps of the functions, with the characterisations of funding, output types and sighash types proved for C30, C36, C37; the reports of signing from the outcome of each input (C35, C50) | proved: `V2.C116_output_type`, `V2.C116_sighash`, `V2.C116_sign`, `V0.C116_output_type`, `V0.C116_sighash`, `V0.C116_taproot`, `V0.C116_sign` |
| C117 | Spec: `Spec/ReportAbout.lean`: for each error the words and values that have to be in its message | by cases over the error types; a phrase is found in the piece of the message it is in; messages are told apart by how they begin | partial: `C117_parts`, `C117_insert_partial`, `C117_finalize_input_partial`, `C117_get_key_partial`, `V2.C117_roles`, `V0.C117_roles`, `V0.C117_error`; apart: `C117_value_apart`, `C117_insert_apart`, `C117_map_apart`, `C117_fee_apart`, `V2.C117_input_apart`, `V0.C117_input_apart`, `V2.C117_sign_apart`, `V0.C117_sign_apart`, `V0.C117_sighash_apart`, `V0.C117_checks_apart`, `V0.C117_update_apart`, `V0.C117_error_apart`; fails: `C117_fingerprint_counterexample`, `C117_redeem_script_counterexample`, `C117_bip32_counterexample` |
| C118 | Spec: `Spec/CombineTold.lean`: an inductive description of each mismatch, with no reference to the order of the code other than 'first' | by induction over the merged key map and over the zipped maps, both directions | `V2.C118_global`, `V2.C118_global_in_place`, `V2.C118_combine`, `V2.C118_panic`, `V0.C118_combine`, `V0.C118_panic` |
| C119 | Spec: `Spec/MsgTold.lean`: what is missing or wrong for each error | by cases over the kind of output spent, both directions | `V0.C119_told` |
| C120 | Spec: `Spec/Gather.lean`: a tree of combine calls, pairwise compatibility of records (no key with two values; sighash types, the fallback lock time and witness outputs present in all or none, which is where combine is not symmetric) and the union of records | compatible copies combine to their union and the union is again compatible with the rest (induction over the tree); a PSBT as received is determined by its records (`Lemmas/SameRecords.lean`), so two arrangements give equal PSBTs | `V2.C120_v2_records`, `V2.C120_v2_any_order`, `V2.C120_v2_determined`, `V0.C120_v0_records`, `V0.C120_v0_any_order`, `V0.C120_v0_determined` |
| C121 | Spec: `Spec/Sessions.lean`: a tree of sign and combine steps, its signers, the PSBT at its end | induction over the tree with the invariant that the signatures of a node are those of the original and of the copies its signers sign alone; a sign step is a combine with such a copy | `V2.C121_v2`, `V2.C121_v2_same`, `V2.C121_v2_same_but_flags`, `V0.C121_v0`, `V0.C121_v0_same`, and with C91 and C114 `V0.C121_v0_transaction`, `V0.C121_v0_from_descriptors`; negated for the v2 flags when something signed is combined into something unsigned: `V2.C121_v2_flags_counterexample` |
| C122 | Spec: `Spec/Feature.lean`: the build without the feature, what a PSBT is to it (silent payment records among the unknown ones), same silent payment data, same unknown records | the two builds write the same pairs in another order (adding records to a sorted map is a permutation of appending them), every map read in one order is read in the other (C12), then through the loops over the maps; the way back by putting the records found into the fields | `V2.C122_readable_iff`, `V2.C122_there_and_back`, `V2.C122_returned`, `V2.C122_signed`, `V2.C122_no_silent_payments`, `V2.C122_combined`, `V2.C122_combined_returned`, `V2.C122_other_address` (Spec: `Spec/FeatureCombine.lean`) |
| C123 | Spec: `Spec/ExtractTold.lean`: the first thing that prevents computing a fee | induction over the inputs with the sum so far, then case by case; both directions | `V2.C123_v2_fee`, `V2.C123_v2_extract`, `V0.C123_v0_fee`, `V0.C123_v0_extract_partial`; negated for v0 amounts over 64 bits |
| C124 | Spec: `Spec/V2Sessions.lean`: what the signers hold between them | the signatures at the end of a session are those of C121; each input is satisfied by them under ScriptLaws and KeyLaws, then C41 and C63 | `V2.C124_steps_partial`; negated by `V2.C124_extracted_counterexample`: every signature is over a transaction with other sequence numbers |
| C125 | Spec: `Spec/Locked.lean`: what a script demands, when answers suffice and are truthful, what is expected of rust-miniscript (`LockLaws`, `LeafLockLaws`), what the PSBT and its signers must hold | the satisfier's answers are truthful by C65 and C15 and sufficient by the hypothesis; signatures as in C91; then as C114 and C121 | `V0.C125_completed`, `V0.C125_session` |
| C126 | Spec: `Spec/V2Locked.lean`: hashes held by the input; outputs that take a timelock | hashes as C125 through the session of C124; timelocks: what is finalized was accepted with sequence number 0xFFFFFFFF and lock time 0 (C41) | `V2.C126_hashes_partial`; negated for every timelocked output by `V2.C126_timelock_counterexample` |
| C127 | Spec: `Spec/FinalizeTold.lean`: for each error, which fault it tells and what must be right before it | the errors are sound, and at most one fault is the first, so an iff | `V2.C127_v2_signatures`, `V2.C127_v2_new`, `V0.C127_v0_finalize`, `V0.C127_v0_extract` |
| C128 | Spec: `Spec/Divided.lean`: a tree of copying, finalizing one or all inputs, and combining results that do not finalize the same input | induction over the tree: each final input is what the finalizer makes of some copy; v2: lists compared input by input | `V0.C128_combines`, `V0.C128_accepted`, `V0.C128_kept`, `V0.C128_order`, `V0.C128_extract_partial`, `V0.C128_only_all_partial`, `V2.C128_v2_restored`, `V2.C128_v2_same_partial`; it fails: `V0.C128_type_counterexample`, `V2.C128_v2_counterexample` |
| C129 | Spec: `Spec/V0Crash.lean`, `Spec/V2Crash.lean`: the calls that count, one constructor each, and in v0 the histories of a user who looks at previous outputs | the exact panic conditions of all functions put together; the condition is an invariant of all v0 functions | `V0.C129_v0_crashes_iff`, `V0.C129_v0_guarded`, `V2.C129_v2_crashes_iff`; bytes that lead to panics: `V0.C129_v0_counterexample`, `V0.C129_v0_combine_counterexample`, `V2.C129_v2_sign_counterexample`, `V2.C129_v2_finalize_counterexample` |
| C130 | Spec: `Spec/Updaters.lean`, `Spec/V2Updaters.lean`: the calls one after the other, with what each says; nothing replaced; nobody has filled in the map; copies combined one after the other | a call depends on and changes only its own map: calls at different places commute, and combining with the untouched copy adds nothing | `V0.C130_any_order`, `V0.C130_copies`, `V0.C130_blank_copies`, `V0.C130_shared`, `V0.C130_many_copies`, `V2.C130_v2_any_order`, `V2.C130_v2_copies_iff`; counterexample when a script was there: `V0.C130_old_script_kept` |

## 3. Trusted base

* Lean's kernel (4.33.0). The axioms are at most `propext`, `Classical.choice`, `Quot.sound`; `AXIOMS.md` lists them per theorem. No axiom is
  added; there is no `sorry`, `native_decide`, `bv_decide`, `implemented_by` or `unsafe`.
* That the model reads the Rust code faithfully (section 6 has tests of that). Generated parts: the field tables of the v2/v0 formats and of serde were written by scripts
  and then checked by hand against the structs.
* That the concrete models of dependency code (list in section 1) are right for rust-bitcoin 0.32, miniscript 12, base64 and serde 1.
* The law fields of the records in section 1.

### Modelled

All of `src/raw.rs`, `src/serialize.rs`, `src/consts.rs` (numbers), `src/sighash_type.rs`, `src/version.rs`, `src/serde_utils.rs`,
`src/v2/**` (map parsing and writing, roles, combine, lock time, signing, key providers, extraction, finalizer, satisfier, base64, DLEQ) and
`src/v0/**` (maps, PSBT, combine, signing, checks, extraction, fee, finalizer, satisfier, interpreter checks, descriptor update, sighash
messages, base64).

### Not modelled

* `Debug`, `println!` in the finalizers, conversions between
  error types beyond their variant.
* secp256k1 contexts. The sighash cache is modelled as memory in `Model/SighashCache.lean`; the other modules use the functions without
  memory, which C86 shows to give the same for ECDSA and for signing. C86 assumes that `sha256d` is `sha256` twice (`Spec.DoubleHash`).
* Memory exhaustion below the capacity-overflow panic; the two allocation limits of `Witness::consensus_decode`.
* Hidden nodes of the taproot builder (`add_hidden_node`, not called by this crate).
* A satisfier on a transaction with fewer inputs than the PSBT panics in Rust; in the model this is a precondition of the finalizer functions.
* Tags, lengths and integer widths of binary serde formats; serde errors are not told apart; base64 decode errors are not told apart.
* `ItemSize for Placeholder` (never called), builders and getters that return a field.

## 4. Where the code departs from the properties

Found while proving; each is a theorem or an example.

1. v2 global map: the duplicate check for the input count tests the output count (C11, C12): a repeated input count is accepted and an input
   count after the output count refused. Bytes after the number in the value are ignored.
2. v2 input: previous txid and index are recognised as missing by placeholder values (zero, `u32::MAX`); key data of
   these and of the output's amount and script is not checked (C10–C12).
3. v2 output: amount 0 is `MissingValue`, an empty script is `MissingScriptPubkey` (C10).
4. `deserialize` ignores trailing bytes; `serialize` writes the announced counts, not the lengths; an absurd count panics (C16).
5. v2 and v0 `combine` are documented as commutative and are not (C24–C28, C61, C48).
6. Merging extended keys can panic and overwrites silently (C29, C48).
7. v2 `bip32_sign_ecdsa` panics when the message cannot be computed and no key is found; flags are cleared although no signature was
   added; `Signer::sign` loses the PSBT on error; unfunded inputs are skipped silently (C34, C35).
8. An omitted sequence is 0 in the unsigned and MAX in the extracted transaction (C59).
9. `Input::finalize` clears sequence and lock time requirements, unknown and proprietary pairs; an input without witness UTXO is never
   recognised as final and the finalizer panics (C40, C41); the interpreter check runs on another transaction (C63).
10. `no_more_inputs` keeps the constructor's type; `Constructor<InputsOnly>::new` does not look at the outputs flag (C58).
11. Proprietary keys of more than 1024 bytes and values of more than 4,000,000 bytes are written but not read (C03, C06).
12. `GetKey` for sets of extended keys matches the parent's fingerprint (C55).
13. v0: `extract_tx`, `fee`, `iter_funding_utxos`, `spend_utxo` and signing panic for a UTXO index out of range or missing maps; a version
    above 0 does not round-trip; the global map is limited to 4,000,000 bytes (C45, C49, C50).
14. v0 `signer_checks` always refuses valid P2SH-P2WSH inputs and accepts wrong ones (C52).
15. v2 version 0 (or, through serde, any number) is written but not read (C06, C75).
16. Fee rates saturate for fees of 2^64/1000 and more (C32, C49).
17. `sighash_ecdsa` panics for a legacy input beyond the transaction's inputs; SIGHASH_SINGLE without output signs the constant 1 (C37).
18. The sighash check refuses taproot inputs with SIGHASH_DEFAULT and unsigned inputs with non-standard types (C39, C69).
19. v0 `combine` leaves `self` partly merged on error; v0 Schnorr signing does not check the key it got.
20. `witness_size` ignores the length prefixes of elements (C43).
21. v2 `check_after` ignores final sequences and the boundary, `check_older` the transaction version; an extracted transaction meets no
    timelock (C65). v0 `check_older` compares the version as a signed number.
22. v0 `finalize_inp_mall` passes `allow_mall = false` (C68).
23. v0: finalizing an input removes key hints a later one may need; one unfunded input makes all fail; `finalize_mut` does not run the sanity
    check; finalizing twice fails; empty final scripts cannot be extracted (C66, C67, C69).
24. `sighash_msg` needs the UTXOs of all inputs even for ECDSA; unknown witness programs get legacy messages (C70).
25. Updating with a taproot descriptor drops the leaf hashes of the internal key's origin, keeps the old source of other known keys, and sets
    the merkle root to none for a tree-less descriptor; scripts of an earlier descriptor of another kind stay (examples beside C71).
26. serde: preimages are read as borrowed strings (C74); role types can be deserialised without the checks of their constructors (C75); data
    written without silent payments is not read with them, and JSON written with them is read without them, but the silent payment
    data is dropped without notice, where the binary form keeps it among the unknown records (C76, C122).
27. Combining signed copies brings back signatures a signer had replaced (C77, C79); with PSBT v0 a leaf signed by both keeps the second one's
    signature, though signing in turn keeps the first one's, and though the key path signature kept is the first one's (C79).
28. v2: combining keeps the modifiable flags of the first PSBT only: an unsigned copy combined with a signed one says that inputs and outputs
    may still be added (C78).
29. v2: the constructor accepts outputs of amount zero (every OP_RETURN output), outputs without script and null outpoints; the serialised PSBT
    is then rejected by the crate's own parser, which uses these values as placeholders for missing fields (C80).
30. Combining two PSBTs v0 can give one whose global map exceeds 4,000,000 bytes, which the crate writes but never reads (C81).
31. v2: a transaction extracted from a finalized PSBT has the fallback lock time and sequence MAX everywhere, whatever the inputs asked for and
    the signatures commit to (C83).
32. v2: so no ECDSA message the finalizer checks a signature for is a message of the extracted transaction, unless the hash function
    collides (C85). Only PSBTs finalized elsewhere, with all sequence numbers stated, are checked in the transaction that is extracted.
33. v0: `sighash_msg` with a cache that has been used for another PSBT of the same transaction silently uses the amounts and scripts which
    that PSBT stated, for taproot inputs (C86).
34. v2: the documentation's example for `constructor_outputs_only_modifiable` sets the flag for inputs, so the constructor it makes is an error,
    which the example ignores (C20, C87).
35. v2: no PSBT with P2WPKH inputs becomes a valid transaction through the crate's own signer, finalizer and extractor (C92). If no input
    states a sequence number (or states 0) the signatures are over 0 but 0xFFFFFFFF is extracted; otherwise the finalizer refuses the signatures.
36. v2: `Display` and `source` of `DeserializeError` (and of `ExtractTxError`) are `todo!()`: printing the error of any failed parse
    panics (C93). v0: an excluded record of the global map or of an output is reported under the name of a record of an input
    (`PSBT_GLOBAL_TX_VERSION` as `PSBT_IN_PARTIAL_SIG`) (C93).
37. v0: updating an output with a taproot descriptor without scripts leaves a script tree that was there, although the output does not commit to
    it (C96).
38. v2: `Constructor::input` takes any input, also when the PSBT has signatures and the required lock time of the new input changes the lock
    time of the transaction; BIP-370 tells constructors to refuse it. All signatures become invalid without an error
    (`C99_lock_time_counterexample`).
39. A full previous transaction carried by an input is used without comparing its id with the one the input names: by everything in v2, and
    in v0 by signing, `fee` and extraction (only updating, and `signer_checks`, which the crate itself never calls, compare). For legacy inputs the
    signature is valid while the fee computed is wrong. `signer_checks` does not compare a witness UTXO with the transaction beside it (C101).
40. `combine` compares nothing but the transactions: a participant's PSBT with an invalid signature under the same key replaces a valid one.
    ECDSA and taproot script signatures are those of the argument, the taproot key signature is that of `self`, so neither order protects
    both (C102). BIP-174 allows a combiner to choose either record.
41. v2: parsing allocates the vectors for inputs and outputs by the counts the global map states, before any is read: 40 bytes make it ask for
    any amount of memory (C105). v0 takes the counts from the transaction it has read.
42. v2: the updater sets the sequence number of inputs that have signatures; the signatures that cover it, and those of the other inputs
    of type ALL, become invalid without a word (C106).
43. Neither version refuses an outpoint that is spent already: a coin can be there twice, `fee` counts it twice, and extraction with the fee
    check returns a transaction that pays more than the coin and that no node accepts (C107).
44. The errors for public keys (two kinds), ECDSA signatures, taproot signatures and taproot trees hold the error of the library that says
    what is wrong, but do not give it as the source, and print it only without `std`; in both versions (C109).
45. v2: the message for a preimage that does not match its hash says `self` where the hash function belongs (`stringify!(self)`). That for an
    xpub with an empty value is "key should not contain data", that for one with a value of one to three bytes speaks of the path (C109).
46. The errors of `v0::miniscript` implement the deprecated `cause`, which nothing calls, and so have no `source` (C109).
47. v0: after a call of `finalize_mut` that finalized some inputs only, every later call reports errors for those inputs, since they have no
    key data left, and the deprecated `finalize` functions, which stop at the first error, never come to the inputs after them (C110).
48. v2: a native segwit transaction that is finalized and extracted has another id than its unsigned transaction, unless all sequence
    numbers are given as 0xFFFFFFFF and the lock time is the fallback lock time (`V2.C113_counterexample`, `V2.C113_finalized_iff`). So
    transactions that spend its outputs cannot be prepared before it is signed.
49. Sighash types are read with any number of prefixes `0x` and a plus sign after them, as in `0x0x+1F` (`C38_reads_iff`).
50. v2: a number of inputs that comes after the number of outputs is reported as a duplicate key, although it occurs once
    (`V2.C115_count_called_duplicate`).
51. v2: a scan key or an ECDH share of 33 bytes that is no public key is reported to have the wrong length, "got: 33, expected: 33"
    (`V2.C115_scan_key_called_short`, `V2.C115_share_called_short`; src/macros.rs:134-169).
52. v2: an extended public key with an empty value is reported as a key with data that should have none
    (`V2.C115_xpub_called_key_data`; src/v2/map/global.rs:265-268).
53. v2: an id of zeros, an index of ones, an amount of zero and (without silent payments) an empty script are reported as missing though
    they are there (`V2.C115_txid_called_missing` and the three theorems after it).
54. v2: the same id, index, amount, script, silent payment info or label given once without and once with key data, which is ignored,
    is reported as a duplicate key (`V2.C115_input_key_called_duplicate`, `V2.C115_output_key_called_duplicate`).
55. v2: the message of a fingerprint of an extended key that cannot be read is about the derivation path (C117_fingerprint_counterexample).
56. Both versions: the message of a missing redeem script when finalizing is `PSBT is Redeem script` (C117_redeem_script_counterexample).
57. Both versions: the message of a key that cannot be derived is `a bip23 error` (C117_bip32_counterexample).
58. The two finalizers disagree on timelocks for the same PSBT: v2 does not satisfy `after` with the fallback lock time although it becomes the lock time of the transaction, and does satisfy it for an input whose sequence number disables lock times (C108_finalize_counterexample).
59. When the outputs of a v0 PSBT add up to 2^64 satoshi or more, extraction reports an absurd fee rate although the outputs exceed the inputs (C49_overflow_counterexample, C123_counterexample).
60. No output that takes a timelock can be spent through PSBT v2: finalizing removes the sequence number and the required lock times of an input before the interpreter reads them (C126_timelock_counterexample).
61. Combining a finalized input with an unfinished copy of it does not give a sound input. In v0 the partial signatures come back, the signature type does not, so for types other than ALL extraction is refused (C128_type_counterexample). In v2 the sequence number and the required lock times come back, so another transaction is extracted than the one whose scripts were checked (C128_v2_counterexample).
62. Whoever sends a PSBT can make the receiver's program panic. In v0 a non-witness UTXO without the output spent is read without complaint, signing then panics with any keys, even if it came in by combining (C129_v0_counterexample, C129_v0_combine_counterexample). In v2 a P2WSH input without its witness script makes any signer panic that has no key for it, and a legacy input makes the finalizer panic (C129_v2_sign_counterexample, C129_v2_finalize_counterexample). The theorems of C129 show that there is nothing else.
63. Which silent payment address wins when two PSBTs disagree depends on the build that combines them: a build with the feature keeps the address of the first PSBT, a build without it that of the second, because unknown records are overwritten and optional fields are kept (C122_other_address).
64. Combining never replaces a script, an internal key or a sequence number, updating does. So when one of two copies has had a wrong script corrected by an updater, combining that copy into the other brings the wrong script back without an error (C130_old_script_kept). The same holds for v2 sequence numbers (C130_v2_copies_iff).

## 5. Tests of the theorems

`seeded/LOG.jsonl` has one line per wrong program: the definition, the edit, the claim it breaks, the theorems that failed to compile on it
and those tightened because none had. Mutants are run in a scratch copy on the compiled project, recompiling what depends on the edit.

`seeded/AUTO.jsonl` has the edits made by a program instead of by hand: in every definition of the model a constant, comparison, operator,
field, branch or result is changed, and the project is recompiled until a module no longer compiles (`stops_at`, with the theorem or lemma
there). Edits that do not type check are left out. The ones that survived are also in `LOG.jsonl`, with the theorem tightened or the reason
why the edit changes nothing.

## 6. The project's own test vectors

`lean/Verif/Vectors/` runs the vectors of `/repo/tests` and of the tests in `/repo/src/v0` through the model, with real SHA-256, RIPEMD-160,
secp256k1 and deterministic ECDSA for the dependencies (`Real.lean`). They are checks of the model against results the authors of the code
expect, by evaluation (`#guard`); no property rests on them.

* `Parse.lean`: all hex and base64 vectors of BIP-174, BIP-370 and BIP-375 for both versions, with the feature `silent-payments` off and on; the
  lock-time vectors; the packages that fail the signer's checks. The only vector on which the two features differ is the one the tests
  leave out with `silent-payments` (tests/bip370-parse-invalid.rs:129).
* `Roles.lean`: the BIP-174 workflow. Creating, updating, both signers, combining, finalizing and extracting give the bytes of the vectors,
  signatures included. The messages for the BIP-371 invalid vectors, fee limits and fee errors. Beyond the tests: the taproot signatures in
  the BIP-371 vectors, made by another implementation, are valid for the key-path and script-path messages the model computes.
* `V2Roles.lean`: the same workflow in version 2. The signatures and the combination are those of version 0; the finalizer panics (finding 9).
