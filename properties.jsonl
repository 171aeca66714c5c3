{"id": "C01", "title": "Compact-size integers round-trip and only minimal encodings are accepted", "statement": "Decoding the encoding of any 64-bit length, followed by anything, returns that length and leaves exactly what followed. Conversely every accepted length prefix is the unique minimal encoding of the value returned.", "quantifier": "every u64 and every trailing byte string; every byte string offered to the decoder", "why_tests_cant": "2^64 values and unboundedly many inputs; boundary values 0xFC/0xFD, 0xFFFF/0x10000, 2^32-1/2^32 are easily mishandled", "anchors": ["src/raw.rs Key::decode, Key::serialize, Pair::serialize", "src/serialize.rs VarInt"]}
{"id": "C02", "title": "Raw key-value pairs round-trip exactly up to the size limits", "statement": "A raw key-value pair whose key and value are within the decoder's size limits decodes back to itself from its serialisation followed by any bytes, consuming exactly its serialisation; every pair the decoder accepts re-serialises to exactly the bytes it consumed; a zero length byte is reported as end-of-map and oversized keys or values are rejected.", "quantifier": "every pair, every suffix, every input byte string", "why_tests_cant": "unbounded sizes; the limits sit at four million bytes where tests do not go", "anchors": ["src/raw.rs Pair::decode, Pair::serialize, Key::decode, Key::serialize", "src/v0/bitcoin/raw.rs"]}
{"id": "C03", "title": "Proprietary keys round-trip", "statement": "A proprietary key (prefix, subtype, key data) turned into a raw key and back is unchanged as long as prefix and key data are within the decoder's limits; raw keys of another type, and encodings with leftover or missing bytes, are rejected; longer key data is written but cannot be read back.", "quantifier": "every prefix, subtype and key data; every raw key", "why_tests_cant": "unbounded byte strings; limit of 1024 bytes applies only on reading", "anchors": ["src/raw.rs ProprietaryKey::to_key, TryFrom<Key>, Encodable, Decodable"]}
{"id": "C04", "title": "Field value codecs are inverse to each other", "statement": "For key origins, sequence numbers, sighash types, signatures with sighash byte, taproot leaf keys, leaf scripts with version, leaf hash lists with key origin, taproot trees, witnesses, transactions and outputs: decoding the encoding of any value gives that value back with nothing left over.", "quantifier": "every value of each field type, any length of path, list or script", "why_tests_cant": "unbounded lists; the formats have no explicit length in places (path until end of data, version as last byte)", "anchors": ["src/serialize.rs impls of Serialize/Deserialize", "src/v0/bitcoin/serialize.rs"]}
{"id": "C05", "title": "Required lock times keep their unit", "statement": "A required height lock time decodes only from a 4-byte value below 500,000,000 and a required time lock time only from a 4-byte value of at least 500,000,000, and each decodes to the value encoded.", "quantifier": "every byte string", "why_tests_cant": "2^32 values plus every wrong length", "anchors": ["src/serialize.rs impl Deserialize for absolute::Height, absolute::Time"]}
{"id": "C06", "title": "v2 PSBT serialise/deserialise round-trip", "statement": "Every version 2 PSBT that is consistent (counts equal the numbers of maps, no field carries the value the decoder uses to mean 'absent', data within size limits) deserialises from its own serialisation to an equal PSBT.", "quantifier": "every PSBT: any number of inputs, outputs, any field contents, unknown and proprietary entries", "why_tests_cant": "product of more than fifty fields with unbounded maps; a single field written in one format and read in another only shows on particular combinations", "anchors": ["src/v2/mod.rs Psbt::serialize, Psbt::deserialize", "src/v2/map/global.rs decode, insert_pair, get_pairs", "src/v2/map/input.rs decode, insert_pair, get_pairs", "src/v2/map/output.rs decode, insert_pair, get_pairs", "src/v2/map/mod.rs serialize_map"]}
{"id": "C07", "title": "Parsing then re-serialising a v2 PSBT is stable", "statement": "If a byte string parses as a version 2 PSBT then serialising the result and parsing again yields the same PSBT.", "quantifier": "every byte string", "why_tests_cant": "must hold for adversarial non-canonical inputs (other key order, uncompressed keys, trailing data)", "anchors": ["src/v2/mod.rs Psbt::serialize, Psbt::deserialize"]}
{"id": "C08", "title": "Magic and separator are mandatory", "statement": "A byte string parses as a PSBT only if it starts with the five bytes 'psbt' 0xff; any other start gives the magic or separator error, whatever follows.", "quantifier": "every byte string, including shorter than five bytes", "why_tests_cant": "all prefixes and lengths", "anchors": ["src/v2/mod.rs Psbt::deserialize", "src/v0/bitcoin/serialize.rs Psbt::deserialize"]}
{"id": "C09", "title": "v2 global map: required fields and version", "statement": "A parsed version 2 PSBT was given the PSBT version (equal to 2), the transaction version, the input count and the output count; a map missing any of these, stating another version or containing an unsigned transaction is rejected.", "quantifier": "every sequence of key-value pairs in a global map", "why_tests_cant": "any subset and order of the pairs", "anchors": ["src/v2/map/global.rs Global::decode"]}
{"id": "C10", "title": "v2 input and output maps: required fields", "statement": "Every parsed input has a previous txid and output index that were present in its map, and every parsed output has an amount and (unless silent payment support is compiled in, where the script may still be undetermined) a script; maps lacking one are rejected.", "quantifier": "every sequence of key-value pairs in an input or output map", "why_tests_cant": "any subset and order of pairs; the decoder recognises absence by reserved values", "anchors": ["src/v2/map/input.rs Input::decode", "src/v2/map/output.rs Output::decode"]}
{"id": "C11", "title": "Duplicate keys are rejected", "statement": "A map that contains the same key twice is never accepted, whichever key it is and wherever the two occurrences are.", "quantifier": "every pair list with a repeated key, for global, input and output maps of both versions", "why_tests_cant": "every key type times every pair of positions", "anchors": ["src/v2/map/global.rs insert_pair", "src/v2/map/input.rs insert_pair", "src/v2/map/output.rs insert_pair", "src/macros.rs v2_impl_psbt_insert_pair", "src/v0/bitcoin/map/input.rs insert_pair", "src/v0/bitcoin/map/output.rs insert_pair"]}
{"id": "C12", "title": "Pair order inside a map does not matter", "statement": "Two maps made of the same pairs in different order parse to the same result when one of them is accepted.", "quantifier": "every permutation of every pair list", "why_tests_cant": "factorially many permutations", "anchors": ["src/v2/map/global.rs decode, insert_pair", "src/v2/map/input.rs decode, insert_pair", "src/v2/map/output.rs decode, insert_pair"]}
{"id": "C13", "title": "Unknown and proprietary entries survive", "statement": "Every entry of a key type the library does not know is present, unchanged, after parsing and in the serialisation of the parsed PSBT.", "quantifier": "every map and every unknown key type and content", "why_tests_cant": "all unknown key types and contents", "anchors": ["src/v2/map/global.rs unknowns, proprietaries", "src/v2/map/input.rs unknowns, proprietaries", "src/v2/map/output.rs unknowns, proprietaries", "src/v0/bitcoin/map/global.rs unknown, proprietary", "src/v0/bitcoin/map/input.rs unknown, proprietary", "src/v0/bitcoin/map/output.rs unknown, proprietary"]}
{"id": "C14", "title": "Number of input and output maps", "statement": "A parsed version 2 PSBT has exactly as many inputs and outputs as its global counts say; a parsed version 0 PSBT has exactly as many as its unsigned transaction.", "quantifier": "every byte string", "why_tests_cant": "any count up to 2^64-1", "anchors": ["src/v2/mod.rs Psbt::deserialize", "src/v0/bitcoin/serialize.rs Psbt::deserialize"]}
{"id": "C15", "title": "Preimages are checked", "statement": "Every hash preimage entry in a parsed PSBT hashes to its key, for all four hash functions.", "quantifier": "every byte string, every entry", "why_tests_cant": "any number of entries", "anchors": ["src/v2/map/input.rs psbt_insert_hash_pair", "src/v0/bitcoin/map/input.rs psbt_insert_hash_pair"]}
{"id": "C16", "title": "Parsing never panics", "statement": "Deserialising never panics: every byte string gives a PSBT or an error.", "quantifier": "every byte string", "why_tests_cant": "adversarial inputs, e.g. absurd declared counts", "anchors": ["src/v2/mod.rs Psbt::deserialize", "src/v0/bitcoin/serialize.rs Psbt::deserialize"]}
{"id": "C17", "title": "Lock time determination follows BIP-370", "statement": "The determined lock time is: the fallback (or zero) if no input requires one; otherwise the maximum required height if every input that requires a lock time allows a height; otherwise the maximum required time if every such input allows a time; an error exactly if neither kind suits all.", "quantifier": "every list of inputs with every combination of required times, heights and fallback", "why_tests_cant": "unboundedly many inputs; tie and mixed cases", "anchors": ["src/v2/mod.rs Psbt::determine_lock_time", "src/v2/map/input.rs requires_time_based_lock_time, requires_height_based_lock_time, has_lock_time"]}
{"id": "C18", "title": "Lock time determination never panics", "statement": "Determining the lock time returns a value or an error for every PSBT; its internal assertions never fire.", "quantifier": "every PSBT", "why_tests_cant": "depends on a global argument over all inputs", "anchors": ["src/v2/mod.rs Psbt::determine_lock_time"]}
{"id": "C19", "title": "Constructor keeps counts equal to the maps", "statement": "Starting from a creator, after any sequence of constructor calls the PSBT's input and output counts equal the number of inputs and outputs, the inputs and outputs are exactly those added, in order.", "quantifier": "every sequence of creator and constructor calls", "why_tests_cant": "unbounded histories", "anchors": ["src/v2/mod.rs Creator, Constructor"]}
{"id": "C20", "title": "Modifiable flags track the roles", "statement": "A constructor for inputs (outputs) can only be obtained from a PSBT whose inputs (outputs) are flagged modifiable; the two modifiable flags only ever go from set to cleared during construction and signing, clearing one never touches another, and an updater obtained from a constructor has both cleared. (Signing with SIGHASH_SINGLE may set the third flag.)", "quantifier": "every flags byte and every call history", "why_tests_cant": "256 flag bytes times unbounded histories", "anchors": ["src/v2/mod.rs Creator, Constructor", "src/v2/map/global.rs set_inputs_modifiable_flag, clear_inputs_modifiable_flag, set_outputs_modifiable_flag, clear_outputs_modifiable_flag"]}
{"id": "C21", "title": "Unique id is stable under the updater and signer", "statement": "Changing the sequence number of any input, or adding signatures, never changes the PSBT's unique identification; setting a sequence changes nothing but the sequence of the addressed input and fails exactly for an index out of range.", "quantifier": "every PSBT, index, sequence number and history of updates", "why_tests_cant": "unbounded update histories", "anchors": ["src/v2/mod.rs Psbt::id, Updater::set_sequence, Signer"]}
{"id": "C22", "title": "Role guarantees hold: no panic from the 'guarantees lock time' assertions", "statement": "Once an updater or signer exists, asking for its id or unsigned transaction never panics, after any history of operations on it.", "quantifier": "every PSBT from which the role is built and every operation history", "why_tests_cant": "unbounded histories", "anchors": ["src/v2/mod.rs Updater::id, Signer::unsigned_tx, Extractor::id"]}
{"id": "C23", "title": "The unsigned transaction reflects the PSBT", "statement": "The unsigned transaction has the PSBT's transaction version and determined lock time, one input per PSBT input with its outpoint and sequence and empty scripts, and one output per PSBT output with its amount and script, in order.", "quantifier": "every PSBT", "why_tests_cant": "unbounded lists", "anchors": ["src/v2/mod.rs Psbt::unsigned_tx", "src/v2/map/input.rs unsigned_tx_in", "src/v2/map/output.rs tx_out"]}
{"id": "C24", "title": "Combining refuses PSBTs for different transactions", "statement": "Combining succeeds only if the PSBT versions, transaction versions, and pairwise outpoints, amounts and scripts agree; on success these are unchanged and the combined PSBT has the same unique id.", "quantifier": "every pair of PSBTs", "why_tests_cant": "every field of every map", "anchors": ["src/v2/mod.rs Psbt::combine_with", "src/v2/map/global.rs combine", "src/v2/map/input.rs combine", "src/v2/map/output.rs combine"]}
{"id": "C25", "title": "Combining is idempotent", "statement": "Combining a PSBT with itself, or combining again with the same other PSBT, changes nothing.", "quantifier": "every PSBT / every pair", "why_tests_cant": "all maps and fields", "anchors": ["src/v2/mod.rs Psbt::combine_with", "src/macros.rs v2_combine_option, v2_combine_map"]}
{"id": "C26", "title": "Combining loses nothing", "statement": "After combining, every key present in either PSBT is present in the result, with a value from one of the two.", "quantifier": "every pair of PSBTs and every key", "why_tests_cant": "over all keys of all maps", "anchors": ["src/v2/map/global.rs combine", "src/v2/map/input.rs combine", "src/v2/map/output.rs combine"]}
{"id": "C27", "title": "Combining is commutative", "statement": "combine(a, b) = combine(b, a), as the documentation states.", "quantifier": "every pair of PSBTs", "why_tests_cant": "all pairs", "anchors": ["src/v2/mod.rs combine, Psbt::combine_with"]}
{"id": "C28", "title": "Combining is associative", "statement": "Combining several PSBTs gives the same result however the combinations are grouped.", "quantifier": "every triple of PSBTs", "why_tests_cant": "all triples", "anchors": ["src/v2/mod.rs Psbt::combine_with"]}
{"id": "C29", "title": "Extended public key conflicts are resolved safely", "statement": "When both PSBTs give a key origin for the same extended key, the longer path is kept if the shorter one is its ending and anything else is an error; merging never panics.", "quantifier": "every pair of key origins and every pair of xpub maps", "why_tests_cant": "all paths lengths and contents", "anchors": ["src/v2/map/global.rs Global::combine", "src/v0/bitcoin/mod.rs Psbt::combine"]}
{"id": "C30", "title": "Fee is inputs minus outputs", "statement": "The fee is exactly the sum of the funding output values minus the sum of the output amounts, with an error, never a wrapped value, when a sum exceeds 64 bits, the difference is negative or a funding output is missing or out of range.", "quantifier": "every PSBT", "why_tests_cant": "unbounded lists and 64-bit overflow", "anchors": ["src/v2/mod.rs Psbt::fee", "src/v2/map/input.rs funding_utxo", "src/v0/bitcoin/mod.rs Psbt::fee"]}
{"id": "C31", "title": "Extraction only from a finalized PSBT and faithfully", "statement": "An extractor exists only for a PSBT all of whose inputs are finalized; the extracted transaction has the PSBT's version, lock time, outpoints, sequences, outputs in order and each input's final scriptSig and witness; extraction never panics.", "quantifier": "every PSBT", "why_tests_cant": "unbounded lists", "anchors": ["src/v2/extract.rs Extractor", "src/v2/map/input.rs signed_tx_in"]}
{"id": "C32", "title": "Fee-rate limit at extraction", "statement": "Extraction with a limit returns a transaction if and only if its fee rate does not exceed the limit, and the default limit is 25,000 sat/vB; the unchecked variant returns the same transaction without the check.", "quantifier": "every finalized PSBT and every limit", "why_tests_cant": "64-bit arithmetic edge cases", "anchors": ["src/v2/extract.rs extract_tx, extract_tx_with_fee_rate_limit", "src/v0/bitcoin/mod.rs extract_tx"]}
{"id": "C33", "title": "Signing only adds signatures", "statement": "Signing changes nothing in a PSBT except partial signatures of its inputs and the modifiable flags; existing signatures of other keys are kept; in particular the unique id and fee are unchanged.", "quantifier": "every PSBT, key provider and signing outcome", "why_tests_cant": "all PSBTs and key providers", "anchors": ["src/v2/mod.rs Signer::sign, Psbt::bip32_sign_ecdsa"]}
{"id": "C34", "title": "Flags after signing follow BIP-370", "statement": "After a signature with sighash type t: inputs stay modifiable only if t has ANYONECANPAY, outputs only if t is NONE, and the SINGLE flag is set if t is SINGLE; flags are never gained otherwise.", "quantifier": "every flags byte and every standard sighash type; every PSBT signed", "why_tests_cant": "256 x 6 plus histories of several signatures", "anchors": ["src/v2/mod.rs Psbt::clear_tx_modifiable, bip32_sign_ecdsa"]}
{"id": "C35", "title": "Signing reports each input and never panics", "statement": "Signing attempts every ECDSA input; the returned maps say precisely for each input which keys signed or which error occurred; one input's error does not prevent the others; no panic.", "quantifier": "every PSBT and key provider", "why_tests_cant": "any number of inputs and any mix of outcomes", "anchors": ["src/v2/mod.rs Psbt::sign, bip32_sign_ecdsa"]}
{"id": "C36", "title": "Output types are classified correctly", "statement": "The output type used for signing is determined by the funding script (and redeem script for P2SH) exactly as: P2WPKH, P2WSH, P2SH-P2WPKH, P2SH-P2WSH, P2SH, P2TR, everything that is neither P2SH nor a witness program is bare, and unknown witness programs are refused.", "quantifier": "every script and redeem script", "why_tests_cant": "all byte strings", "anchors": ["src/v2/mod.rs Psbt::output_type", "src/v0/bitcoin/mod.rs Psbt::output_type"]}
{"id": "C37", "title": "What is signed is bound to the input", "statement": "The message signed for an input is the signature hash of that input index with the script code and amount its output type prescribes and the input's sighash type (ALL by default); out of range indexes and non-standard sighash types are errors.", "quantifier": "every PSBT and index", "why_tests_cant": "all combinations of types", "anchors": ["src/v2/mod.rs Psbt::sighash_ecdsa", "src/v0/bitcoin/mod.rs sighash_ecdsa, sighash_taproot"]}
{"id": "C38", "title": "Sighash type conversions", "statement": "Converting an ECDSA or taproot sighash type to the PSBT type and back is the identity; conversion succeeds exactly for the standard values; the raw number and its textual form round-trip.", "quantifier": "every u32", "why_tests_cant": "2^32 values", "anchors": ["src/sighash_type.rs PsbtSighashType"]}
{"id": "C39", "title": "Partial signatures must match the input's sighash type", "statement": "The consistency check passes exactly when every partial signature of every input uses the input's declared sighash type (ALL if none), and its error names the first offending input.", "quantifier": "every PSBT", "why_tests_cant": "all inputs and signatures", "anchors": ["src/v2/mod.rs check_partial_sigs_sighash_type"]}
{"id": "C40", "title": "Finalizing an input keeps only what must be kept", "statement": "A finalized input keeps its outpoint and UTXO fields, gets the final scripts, has no other field left, and is recognised as finalized; the unsigned transaction is not changed by finalizing.", "quantifier": "every input and every final scripts", "why_tests_cant": "all field combinations", "anchors": ["src/v2/map/input.rs Input::finalize"]}
{"id": "C41", "title": "The finalizer works input by input", "statement": "A finalizer exists only if all funding outputs, the lock time and all partial signature types are in order; finalization replaces each input by its finalized form, keeps global map, outputs and input order, and reports the first failing input by its index.", "quantifier": "every PSBT and every satisfier outcome", "why_tests_cant": "any number of inputs", "anchors": ["src/v2/miniscript/finalize.rs Finalizer"]}
{"id": "C42", "title": "Descriptor choice for finalization", "statement": "The spending descriptor is chosen by the funding script with all hash commitments checked: redeem script and witness script are used only when they hash to the value committed, are refused where they do not belong, and missing ones are reported.", "quantifier": "every input and script", "why_tests_cant": "all scripts", "anchors": ["src/v2/miniscript/finalize.rs get_descriptor"]}
{"id": "C43", "title": "Taproot finalization picks a smallest witness", "statement": "A key-spend signature is used if present; otherwise the witness chosen among satisfiable tapscript leaves has minimal size; failure is reported only if no leaf is satisfiable.", "quantifier": "every set of tap scripts and satisfaction results", "why_tests_cant": "unbounded candidates and ties", "anchors": ["src/v2/miniscript/finalize.rs construct_tap_witness"]}
{"id": "C44", "title": "Timelock conditions during finalization", "statement": "An absolute lock is considered met only if the input's required lock time of the same unit is at least as large; a relative lock only if the input's sequence enables it and is at least as large in the same unit.", "quantifier": "every lock and every input", "why_tests_cant": "2^32 x 2^32 combinations", "anchors": ["src/v2/miniscript/satisfy.rs check_after, check_older"]}
{"id": "C45", "title": "v0 PSBT serialise/deserialise round-trip", "statement": "Every version 0 PSBT whose unsigned transaction has no signatures, whose map counts match and whose version is 0 deserialises from its serialisation to an equal PSBT.", "quantifier": "every v0 PSBT", "why_tests_cant": "unbounded fields", "anchors": ["src/v0/bitcoin/serialize.rs Psbt::serialize, deserialize", "src/v0/bitcoin/map/global.rs", "src/v0/bitcoin/map/input.rs", "src/v0/bitcoin/map/output.rs"]}
{"id": "C46", "title": "Parsing then re-serialising a v0 PSBT is stable", "statement": "If a byte string parses as a version 0 PSBT then serialising the result and parsing again yields the same PSBT.", "quantifier": "every byte string", "why_tests_cant": "adversarial inputs", "anchors": ["src/v0/bitcoin/serialize.rs Psbt::deserialize"]}
{"id": "C47", "title": "v0 PSBTs carry an unsigned transaction and no v2 fields", "statement": "A parsed v0 PSBT has an unsigned transaction with empty scriptSigs and witnesses; maps that contain version 2 fields, or no unsigned transaction, or a second one, are rejected.", "quantifier": "every byte string", "why_tests_cant": "any order and subset of pairs", "anchors": ["src/v0/bitcoin/map/global.rs decode_global", "src/v0/bitcoin/map/input.rs insert_pair", "src/v0/bitcoin/map/output.rs insert_pair"]}
{"id": "C48", "title": "v0 combining", "statement": "Combining v0 PSBTs needs equal unsigned transactions, keeps that transaction, keeps all keys of both, is idempotent and never panics.", "quantifier": "every pair of v0 PSBTs", "why_tests_cant": "all pairs", "anchors": ["src/v0/bitcoin/mod.rs Psbt::combine", "src/v0/bitcoin/map/input.rs combine", "src/v0/bitcoin/map/output.rs combine"]}
{"id": "C49", "title": "v0 extraction and fee-rate limit", "statement": "Extracting from a v0 PSBT yields the unsigned transaction with each input's final scriptSig and witness filled in; with a limit it succeeds exactly when the fee is computable and the rate does not exceed the limit; the error hands back the PSBT or transaction; it never panics.", "quantifier": "every v0 PSBT and limit", "why_tests_cant": "64-bit edge cases; inconsistent UTXO data", "anchors": ["src/v0/bitcoin/mod.rs extract_tx, internal_extract_tx_with_fee_rate_limit, iter_funding_utxos"]}
{"id": "C50", "title": "v0 signing", "statement": "Signing a v0 PSBT changes only signature fields of its inputs. Every input is reported exactly once, with the keys used or with an error, and an input that fails is unchanged. An ECDSA input gets one signature per key the provider has for it, on the message its script type and declared sighash type determine; a taproot input gets exactly the missing key path and leaf signatures the provider has keys for, on the BIP-341 message, and keeps those it had. Signing never panics on a PSBT whose non-witness UTXOs contain the outputs spent.", "quantifier": "every v0 PSBT and key provider", "why_tests_cant": "all PSBTs", "anchors": ["src/v0/bitcoin/mod.rs sign, bip32_sign_ecdsa, bip32_sign_schnorr, sighash_ecdsa, sighash_taproot, spend_utxo, output_type"]}
{"id": "C51", "title": "A new v0 PSBT matches its transaction", "statement": "Creating a PSBT from an unsigned transaction succeeds exactly if all scriptSigs and witnesses are empty and gives empty maps, one per transaction input and output.", "quantifier": "every transaction", "why_tests_cant": "any number of inputs and outputs", "anchors": ["src/v0/bitcoin/mod.rs from_unsigned_tx, unsigned_tx_checks"]}
{"id": "C52", "title": "v0 pre-signing checks", "statement": "The signer checks accept a PSBT exactly if UTXO data, redeem scripts and witness scripts are mutually consistent as BIP-174 prescribes.", "quantifier": "every v0 PSBT", "why_tests_cant": "all script combinations", "anchors": ["src/v0/mod.rs Psbt::signer_checks"]}
{"id": "C53", "title": "Only versions 0 and 2 are PSBT versions", "statement": "A PSBT version number is accepted exactly if it is 0 or 2, and reading back a written version gives the same version.", "quantifier": "every u32 and byte string", "why_tests_cant": "2^32 values", "anchors": ["src/version.rs Version"]}
{"id": "C54", "title": "Silent payment fields are consistent", "statement": "A DLEQ proof is accepted exactly for 64 bytes; a parsed map never has ECDH shares without DLEQ proofs or the reverse, nor an output label without silent payment info.", "quantifier": "every byte string", "why_tests_cant": "any number of entries", "anchors": ["src/v2/dleq.rs DleqProof", "src/v2/map/global.rs sp_ecdh_shares, sp_dleq_proofs", "src/v2/map/input.rs sp_ecdh_shares, sp_dleq_proofs", "src/v2/map/output.rs sp_v0_info"]}
{"id": "C55", "title": "Key lookup only returns keys that belong to the request", "statement": "A key provider returns a key for a BIP-32 request only if the request's fingerprint is that of the extended key it derives from, and for a public key request only the private key stored for it.", "quantifier": "every provider and request", "why_tests_cant": "all key sets", "anchors": ["src/v2/mod.rs impl GetKey", "src/v0/bitcoin/mod.rs impl GetKey"]}
{"id": "C56", "title": "Different PSBTs serialise differently", "statement": "Two different consistent PSBTs never have the same serialisation, and no serialisation is a proper prefix of another.", "quantifier": "every pair of PSBTs", "why_tests_cant": "all pairs", "anchors": ["src/v2/mod.rs Psbt::serialize"]}
{"id": "C57", "title": "The unique id identifies the transaction", "statement": "Two PSBTs with the same unique id describe the same transaction: same transaction version, lock time, spent outpoints in order and outputs in order - unless a collision of double SHA-256 has been found.", "quantifier": "every pair of PSBTs whose lock time can be determined", "why_tests_cant": "ranges over all pairs of PSBTs", "anchors": ["src/v2/mod.rs Psbt::id, Psbt::unsigned_tx"]}
{"id": "C58", "title": "Only modifiable PSBTs are extended", "statement": "Inputs (outputs) are only ever added to a PSBT whose inputs (outputs) are flagged modifiable at that moment.", "quantifier": "every history of creator and constructor calls", "why_tests_cant": "unbounded call histories", "anchors": ["src/v2/mod.rs Constructor::input, output, no_more_inputs, no_more_outputs"]}
{"id": "C59", "title": "What is signed is what is extracted", "statement": "The transaction extracted from a finalized PSBT, without its scriptSigs and witnesses, is the unsigned transaction of that PSBT - the one signers sign.", "quantifier": "every finalized PSBT", "why_tests_cant": "every combination of omitted and given fields", "anchors": ["src/v2/map/input.rs Input::unsigned_tx_in, Input::signed_tx_in", "src/v2/extract.rs Extractor"]}
{"id": "C60", "title": "PSBT v2 is written in the standard format", "statement": "A serialised PSBT v2 consists of the magic bytes, the global map, the input maps and the output maps in order, each closed by a zero byte; the pairs of every map are exactly those that BIP-174/370/371/375 define for the fields that are set, with the key types, key data and value encodings given there.", "quantifier": "every PSBT v2, every field, every pair", "why_tests_cant": "a consistent error in writer and reader passes every round-trip test; every combination of fields", "anchors": ["src/consts.rs", "src/v2/map/global.rs Global::get_pairs", "src/v2/map/input.rs Input::get_pairs", "src/v2/map/output.rs Output::get_pairs", "src/v2/mod.rs Psbt::serialize"]}
{"id": "C61", "title": "v0 combine does not depend on the order", "statement": "Combining v0 PSBTs is commutative and associative, as its documentation says: whichever order a coordinator merges the PSBTs of several signers in, the result is the same.", "quantifier": "every two or three v0 PSBTs", "why_tests_cant": "needs all pairs and triples of PSBTs, with conflicting and missing fields in every combination", "anchors": ["src/v0/bitcoin/mod.rs Psbt::combine", "src/v0/bitcoin/map/input.rs Input::combine", "src/v0/bitcoin/map/output.rs Output::combine"]}
{"id": "C62", "title": "What a taproot signature message covers", "statement": "The message signed for a taproot input of a PSBT v0 is the BIP-341 signature hash of that input index, for the key path or the given leaf, with the declared type (DEFAULT if none). Equal messages imply agreement on the leaf, the type, the transaction version and lock time, the outpoint, sequence, amount and script of the input, and - as the type says - on the index and the outpoints, sequences, amounts and scripts of all inputs, on all outputs, or on the output of the same index (or else two hashed strings collide); conversely agreement on these implies equal messages.", "quantifier": "every two PSBTs, indexes, leaves, types", "why_tests_cant": "what a hash does not commit to shows only in pairs of transactions that differ in exactly that; unboundedly many pairs", "anchors": ["src/v0/bitcoin/mod.rs sighash_taproot"]}
{"id": "C63", "title": "The finalizer checks the transaction that is extracted", "statement": "The signatures the finalizer verifies are verified against the transaction that will be extracted from the finalized PSBT (apart from script sigs and witnesses), so that an accepted PSBT gives a transaction with valid signatures.", "quantifier": "every PSBT v2 that is finalized", "why_tests_cant": "a test compares one transaction; the two transactions are computed by different code from different fields and must agree for all of them", "anchors": ["src/v2/miniscript/mod.rs Psbt::interpreter_check", "src/v2/extract.rs Extractor", "src/v2/map/input.rs Input::finalize"]}
{"id": "C64", "title": "Satisfactions use only what the input holds", "statement": "When an input is finalized, the signature looked up for a key is the one stored for that key (and leaf), a key or signature looked up by key hash has that hash and is stored in the input, a preimage is the 32-byte value stored for that hash; everything stored is found.", "quantifier": "every input, key, hash and leaf", "why_tests_cant": "lookups range over all maps and all keys", "anchors": ["src/v2/miniscript/satisfy.rs InputSatisfier", "src/v0/miniscript/mod.rs PsbtInputSatisfier"]}
{"id": "C65", "title": "A timelock considered met is met by the transaction", "statement": "If the finalizer treats an absolute or relative timelock as satisfied for an input, then the transaction of the PSBT (and the transaction extracted from it) passes CHECKLOCKTIMEVERIFY (BIP-65) or CHECKSEQUENCEVERIFY (BIP-112) with that lock in that input.", "quantifier": "every PSBT, input and lock", "why_tests_cant": "depends on the lock times of all inputs, sequence numbers and transaction version together", "anchors": ["src/v2/miniscript/satisfy.rs check_after, check_older", "src/v0/miniscript/mod.rs check_after, check_older"]}
{"id": "C66", "title": "Finalizing one v0 input fills in checked scripts and changes nothing else", "statement": "Finalizing an input of a PSBT v0 either fails with an error and leaves the PSBT as it is, or replaces this input with one that has its UTXO fields, the script sig and witness made from what the PSBT holds, accepted by the script interpreter in the unsigned transaction, and nothing else. Every other input, the outputs and the global fields stay. It does not panic.", "quantifier": "every PSBT v0, input index and miniscript library", "why_tests_cant": "the scripts made depend on all inputs, the key hints of all inputs and the interpreter", "anchors": ["src/v0/miniscript/mod.rs finalize_inp, finalize_inp_mut", "src/v0/miniscript/finalizer.rs finalize_input, finalize_input_helper, get_descriptor, construct_tap_witness"]}
{"id": "C67", "title": "Finalizing all v0 inputs finalizes each input that can be", "statement": "Finalizing a PSBT v0 treats inputs one by one: each input that can be finalized is, each that cannot stays as it is and gives one error, in order; the result for an input does not depend on whether other inputs are finalized before it. No errors means all inputs are finalized.", "quantifier": "every PSBT v0, with and without malleable satisfactions", "why_tests_cant": "the loop changes the PSBT that later inputs are finalized in", "anchors": ["src/v0/miniscript/mod.rs finalize, finalize_mut, finalize_mall, finalize_mall_mut", "src/v0/miniscript/finalizer.rs finalize, finalize_mall, finalize_helper"]}
{"id": "C68", "title": "The malleable variants allow malleable satisfactions", "statement": "Each finalizing function that says it allows malleable satisfactions finalizes an input that only a malleable satisfaction exists for, and the others do not.", "quantifier": "every PSBT v0 and input", "why_tests_cant": "needs scripts with only malleable satisfactions; the flag is passed through several functions", "anchors": ["src/v0/miniscript/mod.rs finalize_inp_mall, finalize_inp_mall_mut, finalize_mall_mut", "src/v0/miniscript/finalizer.rs finalize_input"]}
{"id": "C69", "title": "A v0 transaction is extracted exactly if all inputs are final and valid", "statement": "Extracting the transaction of a PSBT v0 succeeds exactly if there is an input map for every input, partial signatures have the declared type, every input has final scripts and the interpreter accepts them; the transaction is the unsigned one with these scripts filled in, the same as extracting without checks. After finalizing without errors it succeeds.", "quantifier": "every PSBT v0", "why_tests_cant": "conjunction over all inputs, and all of the interpreter's verdicts", "anchors": ["src/v0/miniscript/mod.rs extract, sanity_check", "src/v0/miniscript/finalizer.rs interpreter_check"]}
{"id": "C70", "title": "The signature message given to external signers is the one signing uses", "statement": "The message `sighash_msg` gives for an input (or a leaf) of a PSBT v0 is the message the PSBT's own signing uses, of the kind the type of spend asks for, and it is given whenever signing has one.", "quantifier": "every PSBT v0, input index and leaf hash", "why_tests_cant": "two separate implementations of the dispatch over types of spend and sighash types", "anchors": ["src/v0/miniscript/mod.rs sighash_msg", "src/v0/bitcoin/mod.rs sighash_ecdsa, sighash_taproot"]}
{"id": "C71", "title": "Updating a v0 input from a descriptor", "statement": "Updating an input of a PSBT v0 with a descriptor succeeds exactly if the input is there, its UTXO fields agree with each other and with the outpoint, and the output spent has the script of the descriptor. Then redeem script, witness script, key origins, internal key, merkle root and leaf scripts are those of the descriptor; nothing else changes; doing it again changes nothing; the scripts added match the output spent, so that the finalizer accepts them. On an error nothing changes. It never panics for descriptors whose tree has control blocks and whose segwit keys are compressed.", "quantifier": "every PSBT v0, input index and descriptor (with the keys of any miniscripts, any tree)", "why_tests_cant": "all kinds of descriptors, all prior contents of the maps, keys that repeat in and across leaves", "anchors": ["src/v0/miniscript/mod.rs update_input_with_descriptor, PsbtInputExt::update_with_descriptor_unchecked, update_item_with_descriptor_helper"]}
{"id": "C72", "title": "Updating a v0 output from a descriptor", "statement": "Updating an output of a PSBT v0 with a descriptor succeeds exactly if the output is there and has the script of the descriptor. Then redeem script, witness script, key origins, internal key and tap tree are those of the descriptor; nothing else changes; doing it again changes nothing. On an error nothing changes. It never panics for descriptors with a valid tree whose segwit keys are compressed.", "quantifier": "every PSBT v0, output index and descriptor", "why_tests_cant": "all kinds of descriptors, all prior contents of the maps, keys that repeat in and across leaves", "anchors": ["src/v0/miniscript/mod.rs update_output_with_descriptor, PsbtOutputExt::update_with_descriptor_unchecked, update_item_with_descriptor_helper"]}
{"id": "C73", "title": "String form of PSBTs", "statement": "A PSBT displays as the base64 form (RFC 4648, padded) of its serialisation. A string parses to a PSBT exactly if it is the canonical base64 form of bytes that deserialise to it; the base64 error is given exactly to strings that are the base64 form of nothing, and other failures are those of deserialisation. Display then parse gives back the PSBT whenever serialise then deserialise does.", "quantifier": "every PSBT v0 and v2 and every string", "why_tests_cant": "all lengths modulo 3, all paddings, all malformed strings", "anchors": ["src/v2/mod.rs Display for Psbt, FromStr for Psbt", "src/v0/bitcoin/mod.rs Display for Psbt, FromStr for Psbt"]}
{"id": "C74", "title": "Serde round trip", "statement": "A PSBT (v0 or v2) serialised with serde in any format, human-readable or not, is read back the same. Human-readable formats get maps with the names of the fields, byte strings as lower-case hexadecimal text (read in either case, and nothing else), and keys of maps that are strings, so that JSON can hold them; the order of the fields does not matter, other names are ignored, a field given twice is an error. DLEQ proofs are read from exactly 64 bytes. In a human-readable format a field that holds one value or nothing may be left out, which means nothing; every other field has to be there.", "quantifier": "every PSBT v0 and v2, every format by what it tells serde (human-readable or not, lending strings or not), every value of any format", "why_tests_cant": "all contents of all fields, all orders and additional names, all malformed texts", "anchors": ["src/serde_utils.rs", "src/raw.rs Key, Pair, ProprietaryKey", "src/v2/dleq.rs DleqProof", "src/v2/map/global.rs derive(Serialize, Deserialize)", "src/v2/map/input.rs derive(Serialize, Deserialize)", "src/v2/map/output.rs derive(Serialize, Deserialize)", "src/v0/bitcoin derive(Serialize, Deserialize)"]}
{"id": "C75", "title": "Deserialised roles keep the guarantees of their constructors", "statement": "A role (updater, signer, finalizer, extractor, constructor) or PSBT v2 obtained with serde satisfies what its constructor checks: the lock time can be determined, the version is 2, the counts are those of the maps; so the panics documented as impossible are impossible.", "quantifier": "every serialised value", "why_tests_cant": "all values an attacker may hand to deserialisation", "anchors": ["src/v2/mod.rs Creator, Constructor, Updater, Signer", "src/v2/extract.rs Extractor", "src/v2/miniscript/finalize.rs Finalizer"]}
{"id": "C76", "title": "Serde data across builds with and without silent payments", "statement": "A PSBT v2 without silent-payment data written by a program built without the feature is read by one built with it, and the other way round.", "quantifier": "every PSBT v2, every format", "why_tests_cant": "two builds of the crate", "anchors": ["src/v2/map/global.rs sp_ecdh_shares, sp_dleq_proofs", "src/v2/map/input.rs sp_ecdh_shares, sp_dleq_proofs", "src/v2/map/output.rs sp_v0_info, sp_v0_label"]}
{"id": "C77", "title": "Several signers of a PSBT v2, in turn or in parallel", "statement": "Signing copies of a PSBT with different keys and combining the copies gives the PSBT that signing in turn gives; the order of the signers does not matter; an earlier signer changes nothing about what a later one reports.", "quantifier": "every PSBT v2, any number of signers, every key provider", "why_tests_cant": "all PSBTs, all sets of signers and all their orders", "anchors": ["src/v2/mod.rs Signer::sign, Psbt::sign, Psbt::combine_with", "src/v2/map/input.rs combine"]}
{"id": "C78", "title": "Modifiable flags stay honest", "statement": "If the modifiable flags of a PSBT v2 forbid every change that would make one of its signatures invalid, this is still so after signing and after combining.", "quantifier": "every PSBT v2, every key provider, every PSBT combined with", "why_tests_cant": "all histories of signing and combining", "anchors": ["src/v2/mod.rs Psbt::sign, Psbt::combine_with", "src/v2/map/global.rs set_sighash_single_flag, combine, tx_modifiable_flags"]}
{"id": "C79", "title": "Several signers of a PSBT v0, in turn or in parallel", "statement": "Signing copies of a PSBT v0 with different keys and combining the copies gives the PSBT that signing in turn gives, ECDSA and taproot alike; the order of the signers does not matter; an earlier signer changes nothing about the errors a later one reports.", "quantifier": "every PSBT v0, any number of signers, every key provider", "why_tests_cant": "all PSBTs, all sets of signers and all their orders", "anchors": ["src/v0/bitcoin/mod.rs Psbt::sign, combine, bip32_sign_ecdsa, bip32_sign_schnorr", "src/v0/bitcoin/map/input.rs combine"]}
{"id": "C80", "title": "A PSBT v2 can be handed over at any time", "statement": "Whatever roles have worked on a PSBT v2, in whatever order, writing it out and reading it back gives exactly that PSBT, so that every role may continue where another one left off.", "quantifier": "every history of creating, constructing, updating, signing, combining, finalizing and receiving", "why_tests_cant": "histories of any length, with any inputs, outputs, keys and copies", "anchors": ["src/v2/mod.rs Creator, Constructor, Updater, Signer, Finalizer, Psbt::combine_with, serialize, deserialize", "src/v2/map/input.rs InputBuilder", "src/v2/map/output.rs Output::new"]}
{"id": "C81", "title": "A PSBT v0 can be handed over at any time", "statement": "Whatever has been done to a PSBT v0 through the crate, writing it out and reading it back gives exactly that PSBT, provided it is within the size limits of the format; signing and combining do not break these limits.", "quantifier": "every history of creating, assigning maps, updating, signing, combining, finalizing and receiving", "why_tests_cant": "histories of any length, with any keys, copies and sizes", "anchors": ["src/v0/bitcoin/mod.rs Psbt::from_unsigned_tx, serialize, deserialize, sign, combine", "src/v0/miniscript/mod.rs PsbtExt", "src/v0/bitcoin/map/global.rs"]}
{"id": "C82", "title": "The transaction of a PSBT v0 stays the same from creation to extraction", "statement": "No updating, signing, combining or finalizing changes the transaction a PSBT v0 was created from; whatever is extracted in the end spends the same outpoints with the same sequences and pays the same outputs, with the same version and lock time, and has the same transaction identifier if no input needs a script.", "quantifier": "every transaction and every history of calls, including failing ones and combining with any PSBT", "why_tests_cant": "histories of any length over any PSBTs", "anchors": ["src/v0/bitcoin/mod.rs Psbt::from_unsigned_tx, sign, combine, extract_tx, extract_tx_unchecked_fee_rate", "src/v0/miniscript/mod.rs PsbtExt finalize, extract, update_input_with_descriptor"]}
{"id": "C83", "title": "What goes into a PSBT v2 is what the extracted transaction moves", "statement": "The transaction extracted from a PSBT v2 has the version, the spent outpoints, the outputs, the lock time and the sequence numbers it was created, constructed and updated with, whatever the updater, signers, combiner and finalizer did in between.", "quantifier": "every list of inputs and outputs and every history of calls, combining with any PSBT", "why_tests_cant": "histories of any length over any PSBTs", "anchors": ["src/v2/mod.rs Creator, Constructor, Updater, Signer, Psbt::combine_with", "src/v2/miniscript/finalize.rs Finalizer", "src/v2/extract.rs Extractor"]}
{"id": "C84", "title": "What the script interpreter accepts", "statement": "Checking a PSBT v2 with the script interpreter passes exactly if every input has final scripts and a known funding output, a lock time can be determined, and the interpreter accepts the final scripts of every input in the unsigned transaction, told the sequence number and lock time of that input; otherwise the lock time conflict or the first rejected input is reported, and a PSBT with final scripts and funding outputs never makes it panic.", "quantifier": "every PSBT v2, whatever the interpreter does, with and without debug assertions", "why_tests_cant": "any number of inputs, of which any may be the first to be rejected", "anchors": ["src/v2/miniscript/mod.rs Psbt::interpreter_check, interpreter_check_input", "src/v2/map/input.rs Input::lock_time, funding_utxo"]}
{"id": "C85", "title": "The signatures checked are those of the extracted transaction", "statement": "Once the interpreter has accepted the signatures of a PSBT v2, they are signatures of the transaction that is extracted from it: the messages they sign are the messages of its inputs.", "quantifier": "every PSBT v2 that is finalized, checked and extracted, every script, amount and sighash type", "why_tests_cant": "the library's own check and a test using it see the same, other transaction", "anchors": ["src/v2/miniscript/finalize.rs Finalizer::finalize", "src/v2/miniscript/mod.rs Psbt::interpreter_check", "src/v2/map/input.rs unsigned_tx_in, signed_tx_in", "src/v2/extract.rs Extractor"]}
{"id": "C86", "title": "The sighash cache does not change results", "statement": "Computing a signature hash through a sighash cache that has been used before gives what a new cache gives: the message depends only on the PSBT, its transaction and the input, not on the calls made earlier; so signing all inputs through one cache signs what signing each with a cache of its own would.", "quantifier": "every transaction, every history of sighash calls on the cache for PSBTs v0 and v2 (failed calls included), every further call", "why_tests_cant": "the contents of the cache depend on the whole history of calls, on their order and on which of them failed", "anchors": ["src/v0/bitcoin/mod.rs Psbt::sign, bip32_sign_ecdsa, bip32_sign_schnorr, sighash_ecdsa, sighash_taproot", "src/v2/mod.rs Psbt::sign, sighash_ecdsa", "src/v0/miniscript/mod.rs sighash_msg"]}
{"id": "C87", "title": "A built PSBT is what was asked for", "statement": "A PSBT v2 made with the creator and the constructor contains exactly what was asked for: the added inputs and outputs in order, the fallback lock time and transaction version that were set last (none and 2 if never), each flag as it was last set or cleared, and no other field; an input made with the builder has its outpoint, what was last set of each kind, and nothing else. The only calls that can fail are taking up a PSBT whose flags forbid it and finishing one whose lock times conflict.", "quantifier": "every sequence of calls of creator, constructor and input builder, with repetitions and contradictions, any arguments", "why_tests_cant": "any number of calls in any order, of which later ones may override earlier ones", "anchors": ["src/v2/mod.rs Creator, Constructor", "src/v2/map/input.rs InputBuilder", "src/v2/map/global.rs flags"]}
{"id": "C88", "title": "A wallet can complete a v0 transaction", "statement": "A PSBT v0 whose inputs each spend an output of a single key (P2PKH, P2WPKH, P2WPKH in P2SH, or taproot by its key) that the signer holds, completes: signing succeeds, finalizing reports no error, extracting succeeds, and the result is the unsigned transaction with exactly the script sig and witness each kind of output calls for, the signatures being those of the messages of the input.", "quantifier": "every PSBT v0 with any number and mixture of such inputs, any declared sighash types, any keys, whatever else the PSBT contains; any library that meets the stated laws of key descriptors", "why_tests_cant": "any mixture and number of inputs, and any contents of the other fields may get in the way", "anchors": ["src/v0/bitcoin/mod.rs Psbt::sign", "src/v0/miniscript/mod.rs finalize_mut, extract", "src/v0/miniscript/finalizer.rs finalize_input, get_descriptor", "src/v0/miniscript/mod.rs PsbtInputSatisfier"]}
{"id": "C89", "title": "What is signed is what is extracted (v0)", "statement": "Whatever message anyone signs for a PSBT v0, with ECDSA or for taproot, at any time, is the message of the same input of every transaction extracted later, in whichever way; and if the script interpreter looks at the transaction only to compute such messages, then it accepts every input of the transaction that extracting with verification gives, in that transaction, with the scripts, witnesses, sequence numbers and lock time it has there.", "quantifier": "every transaction, every history of calls (with failed ones and combining with anything), every input, script, amount, leaf and sighash type", "why_tests_cant": "the history between signing and extracting is unbounded; v2 violates it (C85) although every role's tests pass", "anchors": ["src/v0/bitcoin/mod.rs Psbt::from_unsigned_tx, extract_tx, extract_tx_unchecked_fee_rate, extract_tx_fee_rate_limit, sighash_ecdsa, sighash_taproot", "src/v0/miniscript/mod.rs extract, interpreter_check"]}
{"id": "C90", "title": "From descriptors to a spent v0 transaction", "statement": "A wallet that makes a PSBT v0 of an unsigned transaction, states the outputs its inputs spend, updates each input with the descriptor of its output (one key: pkh, wpkh, sh(wpkh), or tr by its internal key), signs, finalizes and extracts, succeeds at every step; the extracted transaction is the unsigned one, each input having exactly the script sig and witness its descriptor calls for, with signatures of the keys of the descriptor over the messages of the transaction.", "quantifier": "every unsigned transaction, any number and mixture of such descriptors, any taproot trees, any derivation paths and origins, every provider that holds the keys; any library that meets the stated laws of key descriptors", "why_tests_cant": "any mixture and number of inputs and any trees; each step's tests pass although what one step writes may not be what the next one looks for", "anchors": ["src/v0/bitcoin/mod.rs Psbt::from_unsigned_tx, sign", "src/v0/miniscript/mod.rs update_input_with_descriptor, finalize_mut, extract", "src/v0/miniscript/mod.rs PsbtInputSatisfier"]}
{"id": "C91", "title": "Several signers complete a v0 transaction together", "statement": "If for every input of an unsigned PSBT v0 the signers together hold the keys that it takes (a single key, or enough keys of a script such as multisig in P2SH, P2WSH or P2WSH in P2SH, or the key of a taproot output), then once all of them have signed, one after the other or on copies that are then combined, finalizing reports no error, extracting succeeds, and the result is the unsigned transaction with script sigs and witnesses that the script interpreter accepts.", "quantifier": "every PSBT v0 with any number and mixture of such inputs, any number of signers in any order, any keys and overlaps of keys, any declared sighash types; any library that meets the stated laws", "why_tests_cant": "any number of signers, inputs and distributions of the keys among signers", "anchors": ["src/v0/bitcoin/mod.rs Psbt::sign, combine", "src/v0/bitcoin/map/input.rs Input::combine", "src/v0/miniscript/mod.rs finalize_mut, extract", "src/v0/miniscript/finalizer.rs get_descriptor"]}
{"id": "C92", "title": "A v2 transaction with one key per input can be completed", "statement": "If every input of a PSBT v2 has a witness UTXO with an output to a single key (P2WPKH, also inside P2SH) and the signer holds this key, then signing, finalizing and extracting succeed, and in the extracted transaction every signature is over the message of its input, so that the transaction is valid.", "quantifier": "every PSBT v2 with any number of such inputs, any sequence numbers, lock times, amounts, outputs and declared sighash types; any library that meets the stated laws", "why_tests_cant": "any number of inputs and any contents; the crate's own interpreter check accepts what it signs, so tests with it pass", "anchors": ["src/v2/mod.rs Signer, Finalizer, unsigned_tx", "src/v2/miniscript/finalize.rs Finalizer::finalize, interpreter_check", "src/v2/extract.rs Extractor", "src/v2/map/input.rs signed_tx_in, unsigned_tx_in"]}
{"id": "C93", "title": "Failures can be reported", "statement": "Every error the v2 API returns can be printed, with its chain of sources, without a panic; without std the printed message says what the chain says. A record refused because it does not belong to the version of the PSBT is named in the message.", "quantifier": "every byte string or text that fails to parse, every error value the creating, signing, combining, finalizing and extracting roles can return, std or not; every key type a version excludes, in any map state", "why_tests_cant": "The error paths are as many as there are malformed inputs; a test prints the few errors its author thought of, while a panic in printing shows up only when one of the others occurs.", "anchors": ["src/v2/error.rs: DeserializeError, SignError, DetermineLockTimeError", "src/v2/mod.rs: ParsePsbtError, CombineError", "src/v2/extract.rs: ExtractTxError", "src/v2/miniscript/finalize.rs", "src/consts.rs: psbt_in_key_type_value_to_str", "src/v0/bitcoin/error.rs: Error::ExcludedKey"]}
{"id": "C94", "title": "The two versions are told apart", "statement": "No bytes and no text are accepted both as a PSBT v0 and as a PSBT v2. The serialisation of a PSBT v0 is refused as v2 because of its unsigned transaction, that of a PSBT v2 is refused as v0 because of its version number, whatever follows.", "quantifier": "all byte strings, all texts, all well-formed PSBTs of either version, any trailing bytes", "why_tests_cant": "A user who tries one decoder and then the other relies on there being no bytes at all that both accept with different meaning; tests try a handful of files.", "anchors": ["src/v0/bitcoin/serialize.rs: Psbt::deserialize", "src/v0/bitcoin/map/global.rs: Psbt::decode_global", "src/v2/mod.rs: Psbt::deserialize", "src/v2/map/global.rs: Global::decode"]}
{"id": "C95", "title": "Script trees and control blocks are read as what BIP-371 and BIP-341 say", "statement": "A PSBT_OUT_TAP_TREE value is accepted exactly if it lists, depth-first with depths, versions and scripts, the leaves of a binary tree of height at most 128; the tree kept is the same up to which child comes first, has the same Merkle root, and is written as its listing; a listing belongs to one tree only. A control block is accepted exactly if it is a leaf version with parity, an x-only key and at most 128 hashes, and all of it is kept.", "quantifier": "every byte string shorter than 2^64, every tree and every library of keys and hashes", "why_tests_cant": "all tree shapes, depths and orders of leaves", "anchors": ["src/serialize.rs impl Deserialize for TapTree", "src/serialize.rs impl Serialize for TapTree", "src/serialize.rs impl Deserialize for ControlBlock"]}
{"id": "C96", "title": "Filling in from a taproot descriptor gives what a script path spend needs", "statement": "After an input was updated with a taproot descriptor, its internal key and Merkle root make the script of the output spent; every script entry that is new has a control block that proves, as BIP-341 verifies it, that this output commits to the script; every leaf of the descriptor has such an entry (unless two strings hashed for the tree collide). After an output was updated, its internal key and its script tree make its script.", "quantifier": "every PSBT, index and taproot descriptor, with trees of every shape and repeated scripts", "why_tests_cant": "all trees, and repeated leaves at different depths", "anchors": ["src/v0/miniscript/mod.rs update_item_with_descriptor_helper", "src/v0/miniscript/mod.rs PsbtExt::update_input_with_descriptor", "src/v0/miniscript/mod.rs PsbtExt::update_output_with_descriptor"]}
{"id": "C97", "title": "Wallets that share descriptors complete a v0 transaction together", "statement": "Take a transaction without signatures and, for each of its inputs, an output of a descriptor whose keys several signers have between them: pkh, wpkh, sh(wpkh), scripts in wsh, sh or sh(wsh) that need nothing but signatures (such as multisig), and tr by its internal key. Creating a PSBT v0, setting the UTXO fields, updating each input with its descriptor, signing by one signer after another, finalizing and extracting all succeed, and the result is the transaction with script sigs and witnesses the interpreter accepts. The same holds if the signers sign copies of the PSBT and the copies are combined, provided they do not have different keys for the same origin. Neither the scripts nor the key origins have to be entered by hand: updating from the descriptors sets what each signer needs to find its keys and the finalizer needs to choose the scripts.", "quantifier": "every transaction, every list of outputs and descriptors of these kinds, every number of signers and every way the keys are shared between them", "why_tests_cant": "tests sign with one key, with the fields of the inputs entered by hand; the claim composes six roles over any number of inputs and signers, where a field that one role sets and another reads differently is only seen at the end", "anchors": ["src/v0/miniscript/mod.rs: PsbtExt::update_input_with_descriptor", "src/v0/bitcoin/mod.rs: Psbt::sign, Psbt::combine, bip32_sign_ecdsa, bip32_sign_schnorr", "src/v0/miniscript/finalizer.rs: finalize_helper", "src/v0/miniscript/mod.rs: PsbtExt::finalize_mut, extract"]}
{"id": "C98", "title": "A PSBT that was cut off is never accepted", "statement": "The serialisation of a PSBT (v0 or v2) is refused with an error, not with a panic, if any number of its last bytes are missing, and so is its string form if any of its last characters are missing. More generally every byte string that is accepted starts with bytes that are accepted as the same PSBT whatever follows them, while every proper prefix of these bytes is refused. So what is read does not depend on what comes after a PSBT in a file or stream; bytes after its end are ignored rather than refused.", "quantifier": "every PSBT of either version, every accepted byte string, every place to cut it off and everything that can follow", "why_tests_cant": "a test cuts a few PSBTs at a few places; here it is every PSBT at every byte", "anchors": ["src/v2/mod.rs Psbt::deserialize, FromStr", "src/v0/bitcoin/serialize.rs Psbt::deserialize", "src/v0/bitcoin/mod.rs FromStr", "src/raw.rs Pair::decode", "src/v0/bitcoin/macros.rs impl_psbtmap_decoding"]}
{"id": "C99", "title": "Signatures survive what may still be added", "statement": "If a PSBT v2 carries signatures and its modifiable flags still allow inputs or outputs to be added, then adding them with a constructor leaves every signed input with the same data and the same message to sign, so the signatures stay valid for the larger transaction. In particular a constructor refuses an input that would change the lock time of a PSBT that has signatures (BIP-370).", "quantifier": "every PSBT v2 whose flags match its signatures, every sequence of constructor calls on it, every sighash type", "why_tests_cant": "all signature types times all sequences of additions, of any length", "anchors": ["src/v2/mod.rs Constructor::new, Constructor::input, Constructor::output, Constructor::psbt, Constructor::updater, Psbt::sign, Psbt::clear_tx_modifiable, Psbt::determine_lock_time"]}
{"id": "C100", "title": "Signing again changes nothing", "statement": "Signing a PSBT a second time with the same keys leaves it exactly as it is: no signature is replaced or added and, for v2, no flag changes; the same errors are reported. For v2 the report of the keys is the same, too. Schnorr signatures stay even though signing anew would give different ones (they use fresh randomness).", "quantifier": "every PSBT of either version, every key provider, every outcome of the first signing (including errors for some inputs)", "why_tests_cant": "all PSBTs, mixtures of inputs and key providers", "anchors": ["src/v2/mod.rs Psbt::sign, Psbt::bip32_sign_ecdsa, Psbt::clear_tx_modifiable, Signer::sign", "src/v0/bitcoin/mod.rs Psbt::sign, Psbt::bip32_sign_ecdsa, Psbt::bip32_sign_schnorr"]}
{"id": "C101", "title": "The fee shown is the fee paid", "statement": "The fee that a PSBT is computed to pay, and that limits and wallets rely on, is what the transaction really pays: the outputs used are those that exist on the chain under the outpoints of the inputs. In particular a full previous transaction carried by an input is used only if it has the id the input names, as BIP-174 demands of signers. Where this cannot be checked (witness UTXOs), a signature made for a wrong amount is not valid for the output that exists.", "quantifier": "every PSBT of either version, every set of transactions on the chain, every sighash type, every mixture of inputs; up to collisions of the hash functions between the strings at hand", "why_tests_cant": "all PSBTs, chains and combinations of true and false UTXO data, including malicious ones", "anchors": ["src/v0/mod.rs Psbt::signer_checks", "src/v0/bitcoin/mod.rs Psbt::fee, Psbt::iter_funding_utxos, Psbt::sighash_ecdsa, Psbt::sighash_taproot", "src/v0/miniscript/mod.rs PsbtExt::update_input_with_descriptor", "src/v2/mod.rs Psbt::fee, Psbt::sighash_ecdsa", "src/v2/map/input.rs Input::funding_utxo"]}
{"id": "C102", "title": "Who wins when combined PSBTs contradict each other", "statement": "Which PSBT a record of a combined PSBT comes from is decided by its key type alone: for the types without key data (one record per map, such as scripts, UTXOs, final scripts, the taproot key signature) the PSBT that is combined into wins, for the types with key data (partial signatures, derivations, preimages, taproot script signatures, proprietary and unknown records) the other one. A record about which only one of them has something to say is kept, and no record comes from elsewhere (xpubs are merged, a non-witness UTXO may be given up, the sighash type and the fallback lock time are not filled in). So another participant can replace a valid signature by an invalid one in either order of combining; but combining with one's own PSBT once more always succeeds and brings back every record of it.", "quantifier": "every pair of PSBTs of either version whose unknown records are of unknown types (every parsed PSBT is such), every map, key and value", "why_tests_cant": "all contradictions between all pairs of PSBTs, including malicious ones, for every kind of record", "anchors": ["src/v2/mod.rs combine, Psbt::combine_with", "src/v2/map/global.rs Global::combine", "src/v2/map/input.rs Input::combine", "src/v2/map/output.rs Output::combine", "src/v0/bitcoin/mod.rs Psbt::combine", "src/v0/bitcoin/map/input.rs Input::combine", "src/v0/bitcoin/map/output.rs Output::combine", "src/macros.rs v2_combine_option, v2_combine_map"]}
{"id": "C103", "title": "Records meant for others change nothing", "statement": "Two PSBTs that agree on the transaction, on the amounts and scripts of its outputs and on what is needed to spend each input behave the same, whatever their extended keys, output metadata (scripts, derivation paths, taproot trees), silent payment data, proprietary and unknown records are: they have the same lock time, unsigned transaction, identifier and fee, signing puts the same signatures into them and reports the same keys and errors, the signer checks and the messages are the same, finalizing gives the same scripts, witnesses and errors, and extraction the same transaction or error. So nobody can influence a signature or the final transaction through a record the library does not interpret.", "quantifier": "every pair of PSBTs of either version that agree in the named parts, every key provider, every behaviour of the key and script libraries, every result including errors and panics", "why_tests_cant": "a statement about all contents of the other records, for every PSBT; a test fixes one", "anchors": ["src/v2/mod.rs Psbt::sign, unsigned_tx, id, determine_lock_time, fee, sighash_ecdsa", "src/v2/miniscript/finalize.rs Finalizer::new, finalize", "src/v2/extract.rs Extractor", "src/v0/bitcoin/mod.rs sign, sighash_ecdsa, sighash_taproot, fee, extract_tx", "src/v0/mod.rs signer_checks", "src/v0/miniscript/mod.rs finalize_mut, finalize_inp_mut, extract, sighash_msg", "src/v0/miniscript/finalizer.rs"]}
{"id": "C104", "title": "An input is signed independently of the maps of the others", "statement": "If two PSBTs are for the same transaction and have the same map for one input, then after signing both with the same keys their maps for that input are the same again, and the same keys or the same error are reported for it, whatever the maps of the other inputs contain. For a taproot input of a v0 PSBT the UTXO fields of the other inputs must also agree, since its message commits to the outputs they spend; not if the input declares an ANYONECANPAY sighash type. So another participant who controls the maps of the other inputs can influence a signature through the transaction and those outputs only.", "quantifier": "every pair of PSBTs with the same transaction, every input index, every key provider and signature library, runs that succeed and runs that report errors", "why_tests_cant": "a statement about all contents of the maps of all other inputs", "anchors": ["src/v2/mod.rs Psbt::sign, bip32_sign_ecdsa, sighash_ecdsa", "src/v0/bitcoin/mod.rs Psbt::sign, bip32_sign_ecdsa, bip32_sign_schnorr, sighash_ecdsa, sighash_taproot, spend_utxo"]}
{"id": "C105", "title": "The memory parsing asks for is in proportion to the bytes it is given", "statement": "Whatever bytes parsing is given, and whether or not they turn out to be a PSBT, the memory it asks for to hold the input and output maps is at most a constant times the number of bytes. So nobody can exhaust the memory of a wallet or a server with a short message. PSBT v2 fails: the counts are taken from the global map before any map is read, so that 40 bytes make parsing ask for memory for any number of inputs up to 2^64 - 1; it panics exactly if that is 2^63 bytes or more.", "quantifier": "every byte string, both versions", "why_tests_cant": "a bound on a quantity that ordinary tests do not observe, over all byte strings, most of which no test has", "anchors": ["src/v2/mod.rs Psbt::deserialize", "src/v0/bitcoin/serialize.rs Psbt::deserialize", "src/v2/map/global.rs Global::decode"]}
{"id": "C106", "title": "Changing sequence numbers affects exactly the signatures that cover them", "statement": "However often the updater sets sequence numbers of a PSBT v2 that has signatures already, the signature message of every input whose signature type covers none of the numbers that changed stays as it was, so its signatures remain valid; and the message of every input whose type covers a number that changed becomes another one, up to a collision of the hash function, so nobody can use a signature for sequence numbers the signer did not see. A signature of type ALL covers the numbers of all inputs, NONE, SINGLE and ANYONECANPAY only that of the input itself.", "quantifier": "every PSBT v2, every sequence of calls that set sequence numbers, every input and signature type, legacy and segwit v0", "why_tests_cant": "all subsets of inputs, all new numbers and all signature types, and the absence of collisions other than those of the hash function", "anchors": ["src/v2/mod.rs Updater::set_sequence", "src/v2/mod.rs Psbt::sighash_ecdsa", "src/v2/map/input.rs Input::unsigned_tx_in"]}
{"id": "C107", "title": "An extracted transaction passes the checks every node makes first", "statement": "A transaction that extraction returns has inputs and outputs, spends no output twice, spends no null outpoint, and pays no more than there can be. So what the library makes is not refused by the first node that sees it. This fails: the constructor of PSBT v2, and the conversion of a transaction to PSBT v0, accept the same outpoint twice; `fee` then counts the coin twice, the fee check passes, and the transaction extracted pays more than the coin it spends. What holds is that the transaction passes exactly if what the caller asked for does, and that it pays no more than there can be if its fee is known and the coins it spends are worth no more than that.", "quantifier": "every PSBT of both versions, every history of calls that builds, updates, signs, combines, finalizes and extracts it", "why_tests_cant": "all histories of calls; tests use distinct outpoints", "anchors": ["src/v2/mod.rs Constructor::input", "src/v2/mod.rs Psbt::fee", "src/v2/extract.rs Extractor::extract_tx", "src/v0/bitcoin/mod.rs Psbt::from_unsigned_tx", "src/v0/bitcoin/mod.rs Psbt::extract_tx", "src/v0/bitcoin/mod.rs Psbt::fee"]}
{"id": "C108", "title": "Both versions treat the same PSBT in the same way", "statement": "If a PSBT v0 and a PSBT v2 say the same - the fields of the v2 maps say what the unsigned transaction says, as BIP-370 lays down, and all other records are equal - then both have the same unsigned transaction, the same fee, the same type of spend and the same message to sign for every input; signing both with the same keys adds the same ECDSA signatures and reports the same keys; combining two pairs has the same outcome; finalizing both gives every input the same script sig and witness; and the transaction extracted from the v2 PSBT is the one extracted from the v0 PSBT. So a wallet may use either version, and a coordinator may convert between them. This fails for a v2 PSBT without a sequence number: by BIP-370, and at extraction, it is the final one, but the message is computed for number 0. It holds if all sequence numbers are there. Finalizing differs where timelocks do: v0 takes the lock time and sequence number of the unsigned transaction, v2 the lock time the input requires.", "quantifier": "every PSBT v0 and every PSBT v2 that say the same, every input, every key provider, every pair to combine", "why_tests_cant": "two implementations, written apart, have to agree on all PSBTs", "anchors": ["src/v0/bitcoin/mod.rs Psbt", "src/v2/mod.rs Psbt", "src/v2/map/input.rs Input::unsigned_tx_in", "src/v2/map/input.rs Input::signed_tx_in", "src/v2/extract.rs Extractor", "src/v0/bitcoin/mod.rs Psbt::combine", "src/v2/mod.rs Psbt::combine_with", "src/v0/miniscript/mod.rs PsbtInputSatisfier", "src/v2/miniscript/satisfy.rs InputSatisfier"]}
{"id": "C109", "title": "The cause of a failure can be seen", "statement": "Whatever fails, the report leads to its cause: following an error to its sources, one comes to a message that has the text of the innermost error, and without std, where there are no sources, it is in the message; a key in a message can be told from every other key; the message names what is wrong. This fails in several places. For five failures of parsing - keys (two kinds), ECDSA and taproot signatures, taproot trees - the cause is neither the source nor, with std, in the message, in both versions. A v2 preimage that does not match is reported without its hash function ('self'). Of a global xpub without a value it is said that its key should be empty, of one with too short a value that its path is wrong. Errors of v0::miniscript have no source. All other errors of both versions lead to their cause.", "quantifier": "every error value of both versions, whatever the texts of the errors of other crates; every key; every pair inserted", "why_tests_cant": "it must hold for every variant of some thirty error types with every cause, in two builds", "anchors": ["src/serialize.rs Error", "src/v2/map/global.rs InsertPairError", "src/v2/map/input.rs InsertPairError", "src/v2/map/input.rs HashType", "src/v2/map/output.rs InsertPairError", "src/v0/bitcoin/error.rs Error", "src/v0/bitcoin/mod.rs SignError", "src/v0/miniscript/mod.rs Error", "src/v0/miniscript/mod.rs InputError", "src/error.rs write_err", "src/raw.rs Key"]}
{"id": "C110", "title": "A call that failed can be made again", "statement": "A call that fails but leaves the caller the PSBT it worked on does no harm: nothing that was in the PSBT is lost, and once the cause is removed the same call gives what it would have given had the failed call not been made. So it is for combining in place (v0 PSBTs, v2 global maps): every extended key of the PSBT is still there with a source of one of the two PSBTs, nothing else but the version has changed, and combining with the mended PSBT succeeds and gives the same result as without the failure, whenever the latter succeeds. For finalizing v0 PSBTs it fails: an input that is final has no key left to be satisfied from, so the second call reports an error for each of the inputs the first one finalized, and the functions that stop at the first error never get past them. What is true: the second call leaves every input as one call on the completed PSBT would have.", "quantifier": "every pair of PSBTs or global maps whose combination fails, every mended one; every v0 PSBT of which some inputs can be finalized, every completed one, every library", "why_tests_cant": "it depends on where in a list a failure occurs and on what the calls before it have left behind, for all pairs of PSBTs", "anchors": ["src/v0/bitcoin/mod.rs Psbt::combine", "src/v2/map/global.rs Global::combine", "src/v0/miniscript/mod.rs PsbtExt::finalize_mut", "src/v0/miniscript/finalizer.rs finalize_input", "src/v0/miniscript/finalizer.rs finalize"]}
{"id": "C111", "title": "Signing with key providers that change their answers", "statement": "A key provider may keep a state (ask a device, count, refuse, give another key next time). Whatever it answers, signing changes only signatures (and, in v2, the modifiable flags, in a way that does not depend on the provider), reports what it did, and every ECDSA signature added is on the message the input has to sign, made with a key the provider gave for an entry of that input and stored under the public key of that key. v0: every input is reported exactly once, with keys or an error, an input with an error is unchanged, and signing panics exactly if a non-witness UTXO lacks the output spent. v2: the keys reported are those that signed, errors are about inputs without a message for which a key was given; signing panics with no provider exactly if every input ECDSA signing applies to has a message (otherwise it depends on the provider and its state whether it panics). A provider that always answers alike gives the result of the same provider taken as a function.", "quantifier": "every PSBT, every provider with any state and any answers (a function of state and request), every initial state", "why_tests_cant": "a provider can answer anything at any time; the order of the requests and the number of them depend on the PSBT", "anchors": ["src/v0/bitcoin/mod.rs Psbt::sign", "src/v0/bitcoin/mod.rs Psbt::bip32_sign_ecdsa", "src/v0/bitcoin/mod.rs Psbt::bip32_sign_schnorr", "src/v2/mod.rs Psbt::sign", "src/v2/mod.rs Psbt::bip32_sign_ecdsa", "src/v2/mod.rs GetKey"]}
{"id": "C112", "title": "Random nonces", "statement": "With the feature `rand`, taproot signatures are made with random strings. Signing keeps the taproot signatures that are there. Each new one is made with a key the provider gave for the origin that the input lists for its place (the internal key without leaves for the key path, otherwise a key listed with the leaf), on the message to sign there, and with a random string of its own, drawn during the call. With a provider that always answers alike, randomness changes nothing but the bytes of the new taproot signatures: reports, places and sighash types are those of signing without randomness.", "quantifier": "every v0 PSBT, every key provider, every sequence of random strings, every signature function of message, key and string", "why_tests_cant": "a test sees a few random strings; which strings are drawn for which signature depends on all inputs before", "anchors": ["src/v0/bitcoin/mod.rs Psbt::bip32_sign_schnorr", "src/v0/bitcoin/mod.rs Psbt::sign"]}
{"id": "C113", "title": "The id of a transaction is known before it is signed", "statement": "The identifier of a transaction does not depend on the witnesses, and commits to everything else (unless two transactions collide under the double SHA-256). v0: whatever calls a PSBT goes through, a transaction extracted from it in whichever way has the same outpoints, scripts, sequence numbers, outputs, version and lock time as the unsigned transaction at the beginning, and so the same id, exactly if no input was given a non-empty final script sig; if all inputs spend native segwit outputs and the interpreter accepts no script sig for those, the id is that of the unsigned transaction, whoever signs. The same is claimed of v2.", "quantifier": "every transaction, every PSBT, every history of calls, every way of extraction, every satisfier, every interpreter that is strict about script sigs of native segwit outputs", "why_tests_cant": "that nothing else changes along any history, and that ids are different otherwise, concerns all histories and all pairs of transactions", "anchors": ["src/v0/bitcoin/mod.rs Psbt::extract_tx", "src/v0/miniscript/finalizer.rs", "src/v0/miniscript/mod.rs Psbt::extract", "src/v2/extract.rs Extractor", "src/v2/miniscript/finalize.rs", "src/v2/mod.rs Psbt::unsigned_tx"]}
{"id": "C114", "title": "Several signers spend taproot outputs by their scripts", "statement": "v0: take outputs of descriptors and signers who between them have the keys: for each output either those C97 asks for, or, for a taproot output, all keys of one of its leaves, if the leaves need nothing but signatures and no strings hashed for the script tree collide. Updating the inputs with the descriptors, letting the signers sign in any order, or each on a copy of their own with the copies combined, then finalizing and extracting gives the transaction, with witnesses the interpreter accepts, whichever of the leaves and control blocks the finalizer picks and whatever signatures for other leaves the signers add. Likewise of PSBTs whose taproot inputs were filled in some other way.", "quantifier": "every set of outputs and descriptors, every script tree, every number of signers, every distribution of the keys among them, every library that satisfies the stated laws", "why_tests_cant": "the choice among leaves, control blocks and signatures by different signers ranges over all trees and all distributions of keys", "anchors": ["src/v0/bitcoin/mod.rs Psbt::sign", "src/v0/bitcoin/mod.rs Psbt::bip32_sign_schnorr", "src/v0/miniscript/finalizer.rs construct_tap_witness", "src/v0/miniscript/mod.rs Psbt::update_input_with_descriptor", "src/v0/bitcoin/mod.rs Psbt::combine"]}
{"id": "C115", "title": "What parsing complains about is so", "statement": "When parsing a PSBT ends with an error, what the error says is true of the bytes: a key said to be a duplicate did occur before in the map, a field said to be missing is missing, lengths and numbers in the error are those in the bytes, key data or a value said to be unreadable is no value of its type in the way the error says, and bytes that ended too early did. The pairs before the place complained about are whole, and the place is in the map the error names (v2), at a position the counts, or the unsigned transaction, allow.", "quantifier": "every byte string that is not accepted, both versions, every library that satisfies the stated laws, with and without silent payments", "why_tests_cant": "each of some sixty kinds of complaint is about all byte strings with every history of pairs before the place complained about", "anchors": ["src/v2/map/global.rs Global::decode", "src/v2/map/input.rs Input::insert_pair", "src/v2/map/output.rs Output::insert_pair", "src/v0/bitcoin/map/global.rs Psbt::decode_global", "src/v0/bitcoin/map/input.rs Input::insert_pair", "src/v0/bitcoin/mod.rs Psbt::deserialize", "src/macros.rs v2_impl_psbt_insert_sp_pair", "src/serialize.rs Error"]}
{"id": "C116", "title": "What signing complains about is so", "statement": "When signing an input, or computing the message to sign for it, ends with an error, what the error says is true of the PSBT: an index said to be out of bounds is, with the length there is; an output said to be missing is missing; a script said to be missing is missing and the way the input is spent needs it; a sighash type said to be invalid is none the algorithm has; an algorithm said to be wrong is. For ECDSA also the converse: whenever one of these holds, signing says so.", "quantifier": "every PSBT of both versions, every input index, transaction, key provider and library", "why_tests_cant": "the complaints are about all combinations of UTXOs, scripts, sighash types and counts, including those of other inputs that a taproot message commits to", "anchors": ["src/v2/mod.rs Psbt::sighash_ecdsa", "src/v2/mod.rs Psbt::output_type", "src/v2/mod.rs Psbt::checked_input", "src/v2/mod.rs Psbt::sign", "src/v0/bitcoin/mod.rs Psbt::sighash_ecdsa", "src/v0/bitcoin/mod.rs Psbt::sighash_taproot", "src/v0/bitcoin/mod.rs Psbt::output_type", "src/v0/bitcoin/mod.rs Psbt::sign"]}
{"id": "C117", "title": "A message says what is wrong", "statement": "The message of an error names the thing that is wrong and shows the values the error carries, each next to what it is, with and without the standard library. Two failures of different kinds never have the same message.", "quantifier": "every value of every error type of both versions that can be shown, and all texts of errors of other crates", "why_tests_cant": "the messages contain keys, numbers, scripts and texts of other crates, all of which vary; that two messages differ is a claim about all pairs", "anchors": ["src/serialize.rs Error", "src/v2/map/global.rs InsertPairError", "src/v2/map/global.rs DecodeError", "src/v2/map/input.rs InsertPairError", "src/v2/map/output.rs InsertPairError", "src/v2/error.rs SignError", "src/v2/miniscript/finalize.rs InputError", "src/v0/bitcoin/error.rs Error", "src/v0/bitcoin/mod.rs SignError", "src/v0/miniscript/mod.rs InputError", "src/v0/mod.rs SignerChecksError"]}
{"id": "C118", "title": "What combining complains about is so", "statement": "When combining two PSBTs fails, the error is exactly right: it names the first thing in the documented order of checks that does not fit (version, transaction version, an extended key with contradictory origins, the first pair of inputs that spend different outputs, the first pair of outputs that differ), with the values of the first and of the second PSBT in this order. Conversely each of these mismatches, when it is the first, gives this error. Combining panics exactly when a contradictory pair of origins has the longer path first.", "quantifier": "all pairs of PSBTs of either version (in v2 also all pairs of global maps), and all errors", "why_tests_cant": "the pairs are unbounded, several mismatches can occur together in any of the maps, and the error reported depends on the order in which they are met", "anchors": ["src/v2/mod.rs Psbt::combine_with", "src/v2/map/global.rs Global::combine", "src/v2/map/input.rs Input::combine", "src/v2/map/output.rs Output::combine", "src/v0/bitcoin/mod.rs Psbt::combine"]}
{"id": "C119", "title": "What sighash_msg complains about is so", "statement": "When the v0 method that gives the message to sign for an input fails, the error is exactly right: the index is out of bounds, an output spent by some input is not known, the declared sighash type is not one of the standard types of the kind of output, there is no output with this index for SIGHASH_SINGLE of a taproot input, or the witness or redeem script needed is missing. Conversely each of these gives its error.", "quantifier": "all v0 PSBTs with as many input maps as inputs and spent outputs in range, all input indices, all leaf hashes and all errors", "why_tests_cant": "the kinds of output, sighash types, scripts and numbers of inputs and outputs combine without bound", "anchors": ["src/v0/miniscript/mod.rs PsbtExt::sighash_msg"]}
{"id": "C120", "title": "Copies can be combined in any order and grouping", "statement": "Any number of copies of a PSBT, none of which contradicts another, can be combined: in every order and grouping combining succeeds, and the result has in each map exactly the records of all the copies. For PSBTs as they are received the result is the same PSBT whatever the order and grouping, and combining a copy in again changes nothing. A received PSBT is determined by the records of its maps.", "quantifier": "all finite families of copies of either version with pairwise compatible maps, and all binary trees of combine calls over them", "why_tests_cant": "the number of copies, of records in each map and of arrangements is unbounded; what combining two PSBTs does says nothing about results that were themselves combined", "anchors": ["src/v2/mod.rs combine, Psbt::combine_with", "src/v2/map/global.rs Global::combine", "src/v2/map/input.rs Input::combine", "src/v2/map/output.rs Output::combine", "src/v0/bitcoin/mod.rs Psbt::combine", "src/v0/bitcoin/map/input.rs combine", "src/v0/bitcoin/map/output.rs combine"]}
{"id": "C121", "title": "However signing and combining are interleaved, the result depends only on who signed", "statement": "Signers sign, copies are made and handed on, combiners put copies together, and any of it happens again on the results, in every order and nesting. If each signer can sign the original and replaces no signature of it by a different one, and keys sign deterministically, then no step fails, nothing but signatures (and, in v2, the modifiable flags) differs from the original, and the signatures at the end are exactly those of the original and those each signer puts on a copy of the original alone. So two histories with the same signers end with the same PSBT. If the signers of a v0 session together have the keys that spending each input takes, the PSBT at its end can be finalized and extracted, however the session was arranged.", "quantifier": "all PSBTs of either version, all signature libraries and key providers, and all finite trees of sign and combine steps over copies of the original", "why_tests_cant": "the number of signers, of copies and of arrangements of the steps is unbounded; a test of two signers says nothing of results that were themselves combined and signed again", "anchors": ["src/v2/mod.rs Signer::sign, Psbt::sign, combine, Psbt::combine_with", "src/v2/map/global.rs Global::combine", "src/v2/map/input.rs Input::combine", "src/v0/bitcoin/mod.rs Psbt::sign, Psbt::combine", "src/v0/bitcoin/map/input.rs combine"]}
{"id": "C122", "title": "Programs with and without silent payment support can hand a PSBT v2 to each other", "statement": "Take a PSBT v2 that a program built with silent payment support has read. A program built without it can read what the first writes exactly if every output has a script; it then has the same PSBT, with the silent payment data among its unknown records, and what it writes is read back by the first program as the PSBT it had. If the second program signs, or changes anything but unknown records, the first program reads what it writes with all those changes and with its silent payment data as it was. A PSBT of the second program without records of the types silent payments use is the same to the first: no silent payment data, and the same bytes when written. Combining two PSBTs the first program has read works in the second program exactly if it works in the first, and when the two do not state different silent payment addresses or labels for an output, the first program reads what the second writes as the combination it would have made itself; when they do, the second program keeps those of the second PSBT, the first those of the first.", "quantifier": "all PSBTs v2 either build can read, any number of maps, shares, proofs, addresses and unknown records, all dependency behaviours, all sizes of the structures in the two builds", "why_tests_cant": "a test suite is compiled with one set of features at a time, so no test sees two builds exchange a PSBT; the orders in which records are written differ between them and are unbounded in number", "anchors": ["src/v2/map/global.rs Global::decode, insert_pair, get_pairs", "src/v2/map/input.rs Input::decode, insert_pair, get_pairs", "src/v2/map/output.rs Output::decode, insert_pair, get_pairs", "src/v2/mod.rs Psbt::serialize, Psbt::deserialize, Signer::sign", "src/v2/mod.rs combine_with", "src/v2/map/output.rs combine", "src/macros.rs v2_combine_map, v2_combine_option"]}
{"id": "C123", "title": "What extracting complains about is so", "statement": "When computing the fee or extracting a transaction is refused, the error is the first cause there is, looking at the inputs in order, then at the outputs, then at the difference, then at the fee rate, and everything it tells is so: the output an input spends is not known, or not in the transaction given, with the index and the number of outputs told; the amounts of inputs or outputs do not fit 64 bits; the outputs are worth more than the inputs; the fee rate told is that of the transaction and above the limit. Conversely each of these causes, when it is the first, is refused with that error.", "quantifier": "every PSBT of either version, every limit, every number of inputs and outputs, all amounts", "why_tests_cant": "the first of several causes has to be told for every combination of causes over unbounded lists, with 64-bit edge cases", "anchors": ["src/v2/mod.rs Psbt::fee, iter_funding_utxos", "src/v2/extract.rs Extractor::extract_tx, internal_extract_tx_with_fee_rate_limit", "src/v0/bitcoin/mod.rs Psbt::fee, internal_extract_tx_with_fee_rate_limit", "src/error.rs FeeError, FundingUtxoError"]}
{"id": "C124", "title": "Signers of a v2 session complete the transaction together", "statement": "If every input of a PSBT v2 has a witness UTXO and the signers together hold the keys that spending it takes (a single key, or enough keys of a script that needs nothing but signatures, such as multisig, in P2WSH, both also inside P2SH), then however they work, one after the other, on copies, with copies combined in any order and nesting, the PSBT at the end can be finalized and extracted, and every signature is over the message of its input in the extracted transaction.", "quantifier": "every PSBT v2, every number of signers and inputs, every arrangement of signing, copying and combining, every script and choice of keys", "why_tests_cant": "ranges over all arrangements of signers and combiners and over all scripts and key distributions", "anchors": ["src/v2/mod.rs Signer::sign", "src/v2/mod.rs combine, Psbt::combine_with", "src/v2/miniscript/finalize.rs Finalizer::finalize", "src/v2/extract.rs Extractor::extract_tx_unchecked"]}
{"id": "C125", "title": "Scripts with hash preimages and timelocks are completed too (v0)", "statement": "If an input of a PSBT v0 is spent by a script (P2WSH, also inside P2SH, P2SH, or a leaf of a taproot output) that takes signatures, preimages of hashes and timelocks, the signers hold the keys between them, the preimages are in the input, and the unsigned transaction meets the timelocks (its version not being negative when read as a signed number), then after signing, in turn or in any arrangement of copies and combining, finalizing and extracting succeed and give the unsigned transaction with scripts that the interpreter accepts. Inputs of all other kinds may be in the same PSBT. Arrangements with copies are covered for PSBTs without ECDSA signatures at the start, keys that sign deterministically, and signers that never hold different keys for the same origin.", "quantifier": "every PSBT v0, every number of inputs and signers, every script, every set of hashes and timelocks, every lock time and sequence number, every arrangement of signers", "why_tests_cant": "ranges over all scripts, all combinations of locks with lock times, sequence numbers and versions, and all signing sessions", "anchors": ["src/v0/miniscript/mod.rs PsbtInputSatisfier, check_after, check_older, finalize_mut, extract", "src/v0/miniscript/finalizer.rs finalize_input, get_descriptor", "src/v0/bitcoin/mod.rs Psbt::sign, Psbt::combine", "src/v0/miniscript/finalizer.rs construct_tap_witness"]}
{"id": "C126", "title": "Scripts with hash preimages and timelocks are completed too (v2)", "statement": "If an input of a PSBT v2 is spent by a script (P2WSH, also inside P2SH) that takes signatures, preimages of hashes and timelocks, the signers hold the keys between them, the preimages are in the input, and the lock time and sequence numbers that the PSBT states meet the timelocks, then after any signing session the PSBT can be finalized and extracted.", "quantifier": "every PSBT v2, every number of inputs and signers, every script, every set of hashes and timelocks, every arrangement of signers", "why_tests_cant": "ranges over all scripts, all combinations of locks with stated lock times and sequence numbers, and all signing sessions", "anchors": ["src/v2/miniscript/satisfy.rs check_after, check_older", "src/v2/miniscript/finalize.rs finalize", "src/v2/miniscript/mod.rs interpreter_check, interpreter_check_input", "src/v2/map/input.rs lock_time"]}
{"id": "C127", "title": "What the checks before and after finalizing complain about is so", "statement": "When a PSBT is refused by the checks around finalizing, the error is exactly right: it tells the first thing that is wrong, with its values, and every such fault, when it is the first, gives this error. For the v2 finalizer these are, in this order, an input whose output is not known, lock times that cannot be met together, and partial signatures of another type than declared (the first input, the first key in order). For v0 they are: a wrong number of inputs, and partial signatures of another type than declared (finalizing and extracting; the PSBT is left as it was); then, extracting, an input without final scripts, an input whose output is not known, and scripts the interpreter rejects.", "quantifier": "every PSBT of either version (extracting in v0: whose non-witness UTXOs have the output spent) and every error", "why_tests_cant": "that the error is the first fault, and that each fault is reported, is a claim about all combinations of faults on all inputs", "anchors": ["src/v2/miniscript/finalize.rs Finalizer::new", "src/v2/mod.rs check_partial_sigs_sighash_type", "src/v0/miniscript/mod.rs sanity_check, extract", "src/v0/miniscript/finalizer.rs interpreter_check, finalize_helper"]}
{"id": "C128", "title": "Parties that finalize their own inputs can combine the results", "statement": "Copies of a PSBT are handed out; each party signs and finalizes the inputs they can, one or all at a time, and the results are combined. Combining accepts all of them, in any order, provided the copies handed out do not contradict each other on the paths of extended keys. The final scripts of every party come through unchanged, wherever no two parties finalized the same input. The order in which two results are combined makes no difference to the transaction. Once every input is final, that transaction can be extracted, and it passes the checks. In v2, where a whole PSBT is finalized at once, the result can be combined with a copy that is not finalized, and the same transaction is extracted from the combination.", "quantifier": "every PSBT, every way to hand out copies that agree on the transaction and on the outputs spent, every sequence of finalizing and combining them (v0); every PSBT that can be finalized (v2)", "why_tests_cant": "the ways to divide the inputs among parties and to merge the results are unbounded, and final inputs meet unfinished copies of themselves", "anchors": ["src/v0/bitcoin/map/input.rs combine", "src/v0/bitcoin/mod.rs combine", "src/v0/miniscript/finalizer.rs finalize_input", "src/v0/miniscript/mod.rs extract, sanity_check", "src/v2/map/input.rs combine, finalize", "src/v2/miniscript/finalize.rs Finalizer::finalize", "src/v2/extract.rs extract_tx_unchecked_fee_rate"]}
{"id": "C129", "title": "Exactly what in a PSBT can make later calls panic", "statement": "Bytes that are read without an error may still make a later call panic; there is a complete list of what does. In v0, whatever bytes a PSBT was read from and whatever was done to it since, a call that checks, signs, finalizes or extracts, or computes a fee or a signature hash, can panic if and only if some input has no witness UTXO and a non-witness UTXO that lacks the output spent. A user who looks at this whenever a PSBT is received or an input map is assigned never meets such a panic: no function of the crate brings it about, in any order, with any keys and descriptors, whatever is combined. In v2, a call on a PSBT or on a role made from it (other than adding inputs and outputs, and combining) can panic if and only if an input that ECDSA signing applies to has no message to sign, or the finalizer makes final scripts for all inputs and one of them has no witness UTXO.", "quantifier": "every byte string, every PSBT, every history of calls and assignments, every key provider, every miniscript library, builds with and without debug assertions", "why_tests_cant": "a panic is an attack by whoever sends the bytes; tests find panics, only a proof shows that the list is complete for all PSBTs and histories", "anchors": ["src/v0/bitcoin/mod.rs sign, spend_utxo, signer_checks, fee, extract_tx, iter_funding_utxos", "src/v0/miniscript/mod.rs finalize_mut, finalize_inp_mut, extract, sighash_msg", "src/v0/miniscript/finalizer.rs get_utxo", "src/v2/mod.rs Updater, Signer, sign, bip32_sign_ecdsa", "src/v2/miniscript/finalize.rs Finalizer", "src/v2/miniscript/mod.rs interpreter_check", "src/v2/extract.rs Extractor"]}
{"id": "C130", "title": "Updaters can work in any order, and on copies", "statement": "Filling in inputs and outputs of a PSBT v0 from descriptors can be done in any order: the PSBT is the same at the end, every call says the same, and if there is no panic in one order there is none in another. Several people can also do it on copies, each filling in inputs and outputs that nobody else does; combining the copies gives what filling in everything on one PSBT gives, provided nobody replaced a script or key that was there before; in particular for inputs and outputs that nobody had filled in. Two people may also fill in the same input or output, if they use the same descriptor for it. The same holds for the sequence numbers of a PSBT v2: any order, and on copies exactly if the second copy replaced no number that was stated before.", "quantifier": "every PSBT, every list of descriptors and indices, valid or not, every permutation, any number of copies, every miniscript library", "why_tests_cant": "the orders and ways to share out the work are exponentially many; tests try a few", "anchors": ["src/v0/miniscript/mod.rs update_input_with_descriptor, update_output_with_descriptor", "src/v0/bitcoin/mod.rs combine", "src/v0/bitcoin/map/input.rs combine", "src/v0/bitcoin/map/output.rs combine", "src/v2/mod.rs Updater::set_sequence, combine_with"]}
