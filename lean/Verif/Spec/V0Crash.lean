/- Which calls on a PSBT v0 end in a panic, and PSBTs that only ever had the outputs they spend. -/
import Verif.Spec.V0HandOver
import Verif.Model.V0.Checks
namespace Psbt.Spec.V0
open Psbt.V0

variable {L : Lib}

/-- Some call that checks the PSBT, works out what is spent, signs it, finalizes it or extracts from it panics. The public
signature hash functions are given a cache for its own transaction. -/
inductive Crashes (S : SigLib L) (M : MsLib L) (p : Psbt L) : Prop
  | signerChecks {w} : p.signerChecks = .error (.panic w) → Crashes S M p
  | spendUtxo {n w} : p.spendUtxo n = .error (.panic w) → Crashes S M p
  | fundingUtxos {w} : p.fundingUtxos = .error (.panic w) → Crashes S M p
  | sighashEcdsa {n w} : p.sighashEcdsa n p.unsignedTx = .error (.panic w) → Crashes S M p
  | sighashTaproot {n leaf w} : p.sighashTaproot n p.unsignedTx leaf = .error (.panic w) → Crashes S M p
  | sighashMsg {n leaf w} : p.sighashMsg n p.unsignedTx leaf = .error (.panic w) → Crashes S M p
  | sign {k w} : p.sign S k = .error (.panic w) → Crashes S M p
  | finalizeMut {mall w} : p.finalizeMut M mall = .error (.panic w) → Crashes S M p
  | finalizeHelper {mall w} : p.finalizeHelper M mall = .error (.panic w) → Crashes S M p
  | finalizeInp {n w} : p.finalizeInp M n = .error (.panic w) → Crashes S M p
  | finalizeInpMall {n w} : p.finalizeInpMall M n = .error (.panic w) → Crashes S M p
  | interpreterCheck {w} : p.interpreterCheck M = .error (.panic w) → Crashes S M p
  | extract {w} : p.extract M = .error (.panic w) → Crashes S M p
  | fee {w} : p.fee = .error (.panic w) → Crashes S M p
  | extractTx {w} : p.extractTx = .error (.panic w) → Crashes S M p
  | extractWithLimit {max w} : p.extractWithLimit max = .error (.panic w) → Crashes S M p

/-- A function of the crate takes a user from the PSBT `p` to `q`; `o` is the PSBT combined with. -/
inductive Runs (S : SigLib L) (M : MsLib L) (U : UpdLib L) (p o : Psbt L) : Psbt L → Prop
  | updateInput {n d q r} : p.updateInput U n d = .ok (q, r) → Runs S M U p o q
  | updateOutput {n d q r} : p.updateOutput U n d = .ok (q, r) → Runs S M U p o q
  | sign {k q r} : p.sign S k = .ok (q, r) → Runs S M U p o q
  | combine {q r} : p.combine o = (q, r) → Runs S M U p o q
  | finalizeMut {mall q r} : p.finalizeMut M mall = .ok (q, r) → Runs S M U p o q
  | finalizeHelper {mall q r} : p.finalizeHelper M mall = .ok (q, r) → Runs S M U p o q
  | finalizeInp {n q} : p.finalizeInp M n = .ok q → Runs S M U p o q
  | finalizeInpMall {n q} : p.finalizeInpMall M n = .ok q → Runs S M U p o q

/-- The user looks at the previous outputs when a PSBT comes in and when assigning an input map: a non-witness UTXO that is
needed must have the output spent. Apart from that the user may do anything. -/
inductive Guarded (S : SigLib L) (M : MsLib L) (U : UpdLib L) : Psbt L → Prop
  | received {b p} : Psbt.deserialize L b = .ok p → IndicesInRange p → Guarded S M U p
  | created {tx p} : Psbt.fromUnsignedTx L tx = .ok p → Guarded S M U p
  | setInput {p} (n : Nat) {j} : Guarded S M U p → InputSound j → IndicesInRange (withInput p n j) → Guarded S M U (withInput p n j)
  | setOutput {p} (n : Nat) {j} : Guarded S M U p → OutputSound j → Guarded S M U { p with outputs := p.outputs.set n j }
  | setGlobal {p} (x pr) {u} : Guarded S M U p → (∀ k v, BMap.get u k = some v → k.ty ∉ globalTypes) →
      Guarded S M U { p with xpub := x, proprietary := pr, unknown := u }
  | runs {p o q} : Guarded S M U p → Guarded S M U o → Runs S M U p o q → Guarded S M U q

end Psbt.Spec.V0
