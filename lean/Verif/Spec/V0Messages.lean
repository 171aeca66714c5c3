/- Messages to sign, of two transactions. -/
import Verif.Spec.V0HandOver
import Verif.Spec.V0Sign
import Verif.Spec.V0Finalize
namespace Psbt.Spec.V0
open Psbt.V0 Psbt.Spec

/-- The two transactions have the same messages to sign: for every input, every script and amount, every taproot leaf, and
every sighash type. -/
def SameMessages (L : Lib) (t t' : Tx) : Prop :=
  ∀ n, (∀ code ty, legacySighash L t n code ty = legacySighash L t' n code ty) ∧
    (∀ code v ty, segwitSighash L t n code v ty = segwitSighash L t' n code v ty) ∧
    ∀ q leaf ty, tapSighash L t n q leaf ty = tapSighash L t' n q leaf ty

variable {L : Lib}

/-- `m` is a message to sign for taproot of `tx`, at index `n`, for the key path or the given leaf: with ANYONECANPAY when `u` is the
output spent by the input, otherwise when `us` are the outputs spent by all inputs. -/
def TapMessage (L : Lib) (tx : Tx) (n : Nat) (u : TxOut) (us : List TxOut) (leaf : Option Hash32) (ty : TapTy) (m : Hash32) : Prop :=
  ((ty.1 = 0x81 ∨ ty.1 = 0x82 ∨ ty.1 = 0x83) ∧ tapSighash L tx n (.one n u) leaf ty = .ok m) ∨
  ((ty.1 = 0x00 ∨ ty.1 = 0x01 ∨ ty.1 = 0x02 ∨ ty.1 = 0x03) ∧ tapSighash L tx n (.all us) leaf ty = .ok m)

/-- The interpreter looks at the transaction only to compute messages and to count inputs; the sequence number and lock time it is
given apart. -/
def ReadsMessages (M : MsLib L) : Prop :=
  ∀ spk s w seq lt t t' n us, SameMessages L t t' → t.input.length = t'.input.length →
    M.interp ⟨spk, s, w, seq, lt, t, n, us⟩ = M.interp ⟨spk, s, w, seq, lt, t', n, us⟩

end Psbt.Spec.V0
