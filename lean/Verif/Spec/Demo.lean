/-
A concrete choice of the dependencies, used only to show by evaluation that theorem hypotheses can be met and to run
counterexamples. The "hash functions" are toy functions; nothing is proved about them.
-/
import Verif.Model.Ser
namespace Psbt.Demo
open Psbt

/-- Accepts exactly the byte strings of length `n`. -/
def fixed (n : Nat) (hn : 0 < n) : Foreign where
  dec b := if b.length = n then some b else none
  ord := inferInstance
  canon b c h := by
    split at h
    · cases h; rename_i h; simp [h]
    · cases h
  shrink b c h := by
    split at h
    · cases h; exact Nat.le_refl _
    · cases h
  nonempty b c h := by
    split at h
    · cases h; rename_i h; intro e; rw [e] at h; simp at h; omega
    · cases h

/-- First `n` bytes, zero-padded. -/
def pad (n : Nat) (b : Bytes) : FixedBytes n := ⟨(b ++ List.replicate n 0).take n, by simp⟩

def lib (sp : Bool) : Lib where
  sp := sp
  pubkey := fixed 33 (by decide)
  secpPk := fixed 33 (by decide)
  xonly := fixed 32 (by decide)
  compressed := fixed 33 (by decide)
  derSig := fixed 8 (by decide)
  ctrlOrd := inferInstance
  xpub := fixed 78 (by decide)
  ripemd160 b := pad 20 (0x01 :: b)
  sha256 b := pad 32 (0x02 :: b)
  hash160 b := pad 20 (0x03 :: b)
  sha256d b := pad 32 (0x04 :: b)
  inputSize := 1024
  outputSize := 512
  xonly_len b c h := by
    simp only [fixed] at h
    split at h
    · cases h; rename_i h; exact ⟨h, h⟩
    · cases h
  inputSize_pos := by decide
  outputSize_pos := by decide

/-- Another toy hash, which depends on the whole string. -/
def mix (b : Bytes) : FixedBytes 32 :=
  let n := b.foldl (fun a x => (a * 1000003 + x.toNat + 1) % (2 ^ 256 - 189)) 7
  ⟨(List.range 32).map fun k => UInt8.ofNat (n / 256 ^ k), by simp⟩
/-- The same dependencies with that hash. -/
def mixLib : Lib := { lib false with sha256 := mix, sha256d := fun b => mix (mix b).1 }

/-- A byte string of `n` times `b`. -/
def rep (n : Nat) (b : UInt8) : FixedBytes n := ⟨List.replicate n b, by simp⟩

/-- A value of a fixed-length foreign type. -/
def val (n : Nat) (hn : 0 < n) (b : UInt8) : (fixed n hn).T := ⟨List.replicate n b, by simp [fixed]⟩

/-- The control block of a tree with one leaf. -/
def blk (sp : Bool) (b : UInt8) : (lib sp).ctrl.T := ⟨0xc0 :: List.replicate 32 b, by
  simp [Lib.ctrl, ctrlDec, lib, fixed, MAX_TREE_DEPTH]
  decide⟩

end Psbt.Demo
