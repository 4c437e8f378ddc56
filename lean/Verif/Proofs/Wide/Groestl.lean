import Verif.Proofs.Wide.Boxes
import Verif.Proofs.Groestl

/-! The rounds of Grøstl. -/

namespace Digestpp.Proofs.Wide.Groestl
open Model Spec Spec.Groestl

theorem matrix : mds 0x1b 8 ((List.range 8).map fun i => (List.range 8).map fun k => B i k) = true :=
  mds_of 8 0x1b field_1b exp_1b log_1b table_1b B (by decide +kernel)

theorem aes_distinct : distinct aesTable = true := by decide +kernel

theorem sbox_inj (a b : Byte) (h : aesSbox a = aesSbox b) : a = b := by
  rw [aesSbox_table, aesSbox_table] at h
  exact distinct_inj _ aes_distinct a b h

/-- The cell from which ShiftBytes takes a byte. -/
def src (R : Nat) (s : Nat → Nat) (x : Nat × Nat) : Nat × Nat := (x.1, (x.2 + s x.1) % R)

/-- The cell to which ShiftBytes moves a byte. -/
def dst (R : Nat) (s : Nat → Nat) (x : Nat × Nat) : Nat × Nat := (x.1, (x.2 + R - s x.1) % R)

theorem spreadsP (R : Nat) (hR : R = 8 ∨ R = 16) : Spreads 8 R (src R (sigmaP R)) (dst R (sigmaP R)) := by
  rcases hR with rfl | rfl <;> exact spreads_of _ _ _ _ (by decide +kernel) (by decide +kernel) (by decide +kernel)

theorem spreadsQ (R : Nat) (hR : R = 8 ∨ R = 16) : Spreads 8 R (src R (sigmaQ R)) (dst R (sigmaQ R)) := by
  rcases hR with rfl | rfl <;> exact spreads_of _ _ _ _ (by decide +kernel) (by decide +kernel) (by decide +kernel)

theorem isLayer (R : Nat) (s : Nat → Nat) (h : Spreads 8 R (src R s) (dst R s)) :
    IsLayer 8 0x1b (fun _ => aesSbox) B (src R s) (dst R s) R :=
  ⟨field_1b, matrix, fun _ _ a b => sbox_inj a b, h⟩

theorem layer_eq (R : Nat) (s : Nat → Nat) (A : Mat) :
    layer 8 0x1b (fun _ => aesSbox) B (src R s) A = mixBytes (shiftBytes R s (subBytes A)) := rfl

theorem roundP_isRound (R : Nat) (hR : R = 8 ∨ R = 16) (i : BitVec 64) :
    IsRound R 9 (src R (sigmaP R)) fun x => Model.Groestl.roundP R x i := by
  refine isRound_of (isLayer R _ (spreadsP R hR)) _ (fun r j => byteAt ((BitVec.ofNat 64 j <<< 4) ^^^ i) r) (fun _ _ => 0) fun A => ?_
  unfold Model.Groestl.roundP
  rw [matXor_zero, layer_eq, add_words R A fun j => (BitVec.ofNat 64 j <<< 4) ^^^ i, ← Proofs.Groestl.lookups_eq R (by omega)]
  rcases hR with rfl | rfl <;> rfl

theorem roundQ_isRound (R : Nat) (hR : R = 8 ∨ R = 16) (i : BitVec 64) :
    IsRound R 9 (src R (sigmaQ R)) fun x => Model.Groestl.roundQ R x i := by
  refine isRound_of (isLayer R _ (spreadsQ R hR)) _ (fun r j => byteAt ((0xffffffffffffffff - (BitVec.ofNat 64 j <<< 60)) ^^^ i) r)
    (fun _ _ => 0) fun A => ?_
  unfold Model.Groestl.roundQ
  rw [matXor_zero, layer_eq, add_words R A fun j => (0xffffffffffffffff - (BitVec.ofNat 64 j <<< 60)) ^^^ i,
    ← Proofs.Groestl.lookups_eq R (by omega)]
  rcases hR with rfl | rfl <;> rfl

theorem wideTrailP (R : Nat) (hR : R = 8 ∨ R = 16) : WideTrail 9 R fun i x => Model.Groestl.roundP R x i :=
  wideTrail_of (spreadsP R hR) _ (roundP_isRound R hR)

theorem wideTrailQ (R : Nat) (hR : R = 8 ∨ R = 16) : WideTrail 9 R fun i x => Model.Groestl.roundQ R x i :=
  wideTrail_of (spreadsQ R hR) _ (roundQ_isRound R hR)

end Digestpp.Proofs.Wide.Groestl
