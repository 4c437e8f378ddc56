import Verif.Proofs.Wide.Boxes
import Verif.Proofs.Kupyna

/-! The rounds of the permutation `T⊕` of Kupyna. -/

namespace Digestpp.Proofs.Wide.Kupyna
open Model Spec Spec.Kupyna

theorem matrix : mds 0x1d 8 ((List.range 8).map fun i => (List.range 8).map fun k => B i k) = true :=
  mds_of 8 0x1d field_1d exp_1d log_1d table_1d B (by decide +kernel)

theorem boxes_distinct : ∀ r, r < 4 → distinct ([pi0, pi1, pi2, pi3].getD r []) = true := by decide +kernel

theorem sbox_inj (k : Nat) (a b : Byte) (h : sbox k a = sbox k b) : a = b :=
  distinct_inj _ (boxes_distinct (k % 4) (Nat.mod_lt _ (by decide))) a b h

/-- The cell from which `τ` takes a byte. -/
def src (R : Nat) (x : Nat × Nat) : Nat × Nat := (x.1, (x.2 + R - delta R x.1) % R)

/-- The cell to which `τ` moves a byte. -/
def dst (R : Nat) (x : Nat × Nat) : Nat × Nat := (x.1, (x.2 + delta R x.1) % R)

theorem spreads (R : Nat) (hR : R = 8 ∨ R = 16) : Spreads 8 R (src R) (dst R) := by
  rcases hR with rfl | rfl <;> exact spreads_of _ _ _ _ (by decide +kernel) (by decide +kernel) (by decide +kernel)

theorem isLayer (R : Nat) (hR : R = 8 ∨ R = 16) : IsLayer 8 0x1d sbox B (src R) (dst R) R :=
  ⟨field_1d, matrix, fun k _ a b => sbox_inj k a b, spreads R hR⟩

theorem layer_eq (R : Nat) (A : Mat) : layer 8 0x1d sbox B (src R) A = psi (tau R (sub A)) := rfl

theorem roundP_isRound (R : Nat) (hR : R = 8 ∨ R = 16) (i : BitVec 64) : IsRound R 9 (src R) fun x => Model.Kupyna.roundP R x i := by
  refine isRound_of (isLayer R hR) _ (fun r j => byteAt ((BitVec.ofNat 64 j <<< 4) ^^^ i) r) (fun _ _ => 0) fun A => ?_
  unfold Model.Kupyna.roundP
  rw [matXor_zero, layer_eq, add_words R A fun j => (BitVec.ofNat 64 j <<< 4) ^^^ i, ← Proofs.Kupyna.G_eq R hR]

theorem wideTrailP (R : Nat) (hR : R = 8 ∨ R = 16) : WideTrail 9 R fun i x => Model.Kupyna.roundP R x i :=
  wideTrail_of (spreads R hR) _ (roundP_isRound R hR)

end Digestpp.Proofs.Wide.Kupyna
