/- Errors of PSBT v0. -/
import Verif.Model.Maps
import Verif.Model.Consts
namespace Psbt.V0
open Psbt

/-- The parts of `v0::bitcoin::Error` (src/v0/bitcoin/error.rs:23-108) that reading, combining and the fee use. The
variants produced by the value codecs and by `raw::Key`/`raw::Pair` (among them `NoMorePairs`, `InvalidHash`,
`ConsensusEncoding`, `InvalidPublicKey`) are the model's `SerErr`, because the v0 codecs
(src/v0/bitcoin/serialize.rs:115-370, src/v0/bitcoin/raw.rs) are the ones of src/serialize.rs and src/raw.rs up to the
name of the error for short data (`Io` instead of `NotEnoughData`). The texts of `XPubKey` and `Version` are dropped. -/
inductive Err where
  | invalidMagic
  | missingUtxo
  | invalidSeparator
  | psbtUtxoOutOfbounds
  | invalidKey (k : RawKey)
  | duplicateKey (k : RawKey)
  | unsignedTxHasScriptSigs
  | unsignedTxHasScriptWitnesses
  | mustHaveUnsignedTx
  | unexpectedUnsignedTx (expected actual : Tx)
  | invalidPreimageHashPair (t : HashTy)
  | combineInconsistentKeySources (xpub : Bytes)
  | negativeFee
  | feeOverflow
  | xpubKey
  | version
  | partialDataConsumption
  | excludedKey (t : UInt8)
  | ser (e : SerErr)
  | consensus (e : CErr)
  deriving DecidableEq

/-- Both kinds of wrong key data give `InvalidKey`, src/v0/bitcoin/macros.rs:96, 113. -/
instance : MapErr Err where
  dup := .duplicateKey
  keyEmpty := .invalidKey
  keyNotEmpty := .invalidKey
  deser := .ser
  preimage := .invalidPreimageHashPair

end Psbt.V0
