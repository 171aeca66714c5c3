/- Key types: src/consts.rs:10-118. -/
import Verif.Model.Basic
namespace Psbt

abbrev PSBT_GLOBAL_UNSIGNED_TX : UInt8 := 0x00
abbrev PSBT_GLOBAL_XPUB : UInt8 := 0x01
abbrev PSBT_GLOBAL_TX_VERSION : UInt8 := 0x02
abbrev PSBT_GLOBAL_FALLBACK_LOCKTIME : UInt8 := 0x03
abbrev PSBT_GLOBAL_INPUT_COUNT : UInt8 := 0x04
abbrev PSBT_GLOBAL_OUTPUT_COUNT : UInt8 := 0x05
abbrev PSBT_GLOBAL_TX_MODIFIABLE : UInt8 := 0x06
abbrev PSBT_GLOBAL_SP_ECDH_SHARE : UInt8 := 0x07
abbrev PSBT_GLOBAL_SP_DLEQ : UInt8 := 0x08
abbrev PSBT_GLOBAL_VERSION : UInt8 := 0xFB
abbrev PSBT_GLOBAL_PROPRIETARY : UInt8 := 0xFC
abbrev PSBT_IN_NON_WITNESS_UTXO : UInt8 := 0x00
abbrev PSBT_IN_WITNESS_UTXO : UInt8 := 0x01
abbrev PSBT_IN_PARTIAL_SIG : UInt8 := 0x02
abbrev PSBT_IN_SIGHASH_TYPE : UInt8 := 0x03
abbrev PSBT_IN_REDEEM_SCRIPT : UInt8 := 0x04
abbrev PSBT_IN_WITNESS_SCRIPT : UInt8 := 0x05
abbrev PSBT_IN_BIP32_DERIVATION : UInt8 := 0x06
abbrev PSBT_IN_FINAL_SCRIPTSIG : UInt8 := 0x07
abbrev PSBT_IN_FINAL_SCRIPTWITNESS : UInt8 := 0x08
abbrev PSBT_IN_POR_COMMITMENT : UInt8 := 0x09
abbrev PSBT_IN_RIPEMD160 : UInt8 := 0x0a
abbrev PSBT_IN_SHA256 : UInt8 := 0x0b
abbrev PSBT_IN_HASH160 : UInt8 := 0x0c
abbrev PSBT_IN_HASH256 : UInt8 := 0x0d
abbrev PSBT_IN_PREVIOUS_TXID : UInt8 := 0x0e
abbrev PSBT_IN_OUTPUT_INDEX : UInt8 := 0x0f
abbrev PSBT_IN_SEQUENCE : UInt8 := 0x10
abbrev PSBT_IN_REQUIRED_TIME_LOCKTIME : UInt8 := 0x11
abbrev PSBT_IN_REQUIRED_HEIGHT_LOCKTIME : UInt8 := 0x12
abbrev PSBT_IN_TAP_KEY_SIG : UInt8 := 0x13
abbrev PSBT_IN_TAP_SCRIPT_SIG : UInt8 := 0x14
abbrev PSBT_IN_TAP_LEAF_SCRIPT : UInt8 := 0x15
abbrev PSBT_IN_TAP_BIP32_DERIVATION : UInt8 := 0x16
abbrev PSBT_IN_TAP_INTERNAL_KEY : UInt8 := 0x17
abbrev PSBT_IN_TAP_MERKLE_ROOT : UInt8 := 0x18
abbrev PSBT_IN_SP_ECDH_SHARE : UInt8 := 0x1D
abbrev PSBT_IN_SP_DLEQ : UInt8 := 0x1E
abbrev PSBT_IN_PROPRIETARY : UInt8 := 0xFC
abbrev PSBT_OUT_REDEEM_SCRIPT : UInt8 := 0x00
abbrev PSBT_OUT_WITNESS_SCRIPT : UInt8 := 0x01
abbrev PSBT_OUT_BIP32_DERIVATION : UInt8 := 0x02
abbrev PSBT_OUT_AMOUNT : UInt8 := 0x03
abbrev PSBT_OUT_SCRIPT : UInt8 := 0x04
abbrev PSBT_OUT_TAP_INTERNAL_KEY : UInt8 := 0x05
abbrev PSBT_OUT_TAP_TREE : UInt8 := 0x06
abbrev PSBT_OUT_TAP_BIP32_DERIVATION : UInt8 := 0x07
abbrev PSBT_OUT_SP_V0_INFO : UInt8 := 0x09
abbrev PSBT_OUT_SP_V0_LABEL : UInt8 := 0x0A
abbrev PSBT_OUT_PROPRIETARY : UInt8 := 0xFC

end Psbt
