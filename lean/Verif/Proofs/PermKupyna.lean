import Mathlib.Tactic.Tauto
import Verif.Proofs.PermTables
import Verif.Proofs.PermSkein
import Verif.Model.Kupyna

/-! C56: the permutations `T⊕` and `T+` of Kupyna. -/

namespace Digestpp.Proofs.Perm.Kupyna
open Spec Model Model.Kupyna

theorem checked : Checked 8 kupyna_T kupynaRows kupynaBox where
  lin := by decide +kernel
  inv := by
    intro B hB
    have : B = kupynaBox0 ∨ B = kupynaBox1 ∨ B = kupynaBox2 ∨ B = kupynaBox3 := by
      simp only [kupynaBox, List.mem_cons, List.not_mem_nil, or_false] at hB
      tauto
    rcases this with rfl | rfl | rfl | rfl
    · exact ⟨kupynaInv0, by decide +kernel⟩
    · exact ⟨kupynaInv1, by decide +kernel⟩
    · exact ⟨kupynaInv2, by decide +kernel⟩
    · exact ⟨kupynaInv3, by decide +kernel⟩
  len := by decide

theorem G_permutes (R : Nat) (hR : R = 8 ∨ R = 16) : Permutes R (G R) :=
  layer_permutes checked R (fun c i => (c + R - [0, 1, 2, 3, 4, 5, 6, if R = 16 then 11 else 7].getD i 0) % R) (by
    obtain rfl | rfl := hR <;> decide)

theorem roundP_permutes (R : Nat) (hR : R = 8 ∨ R = 16) (i : BitVec 64) : Permutes R fun x => roundP R x i :=
  comp (xor_permutes fun idx => (BitVec.ofNat 64 idx <<< 4) ^^^ i) (G_permutes R hR)

theorem roundQ_permutes (R : Nat) (hR : R = 8 ∨ R = 16) (i : BitVec 64) : Permutes R fun x => roundQ R x i :=
  comp (add_permutes fun j => 0x00F0F0F0F0F0F0F3#64 ^^^ (BitVec.ofNat 64 (((R - 1 - j) * 0x10) ^^^ (i.setWidth 8).toNat) <<< 56)) (G_permutes R hR)

/-- Two rounds. -/
def stepP (R : Nat) (p : List (BitVec 64)) (k : Nat) : List (BitVec 64) :=
  roundP R (roundP R p (BitVec.ofNat 64 (2 * k))) (BitVec.ofNat 64 (2 * k) + 1)

def stepQ (R : Nat) (q : List (BitVec 64)) (k : Nat) : List (BitVec 64) :=
  roundQ R (roundQ R q (BitVec.ofNat 64 (2 * k))) (BitVec.ofNat 64 (2 * k) + 1)

theorem roundsPQ_eq (R : Nat) (p q : List (BitVec 64)) :
    roundsPQ R (p, q) = ((List.range (iterations R)).foldl (stepP R) p, (List.range (iterations R)).foldl (stepQ R) q) :=
  pair_foldl (stepP R) (stepQ R) _ (p, q)

theorem P_permutes (R : Nat) (hR : R = 8 ∨ R = 16) (q : List (BitVec 64)) : Permutes R fun p => (roundsPQ R (p, q)).1 := by
  simp only [roundsPQ_eq]
  refine Perm.foldl (fun k p => stepP R p k) _ fun k _ => ?_
  have h := comp (roundP_permutes R hR (BitVec.ofNat 64 (2 * k))) (roundP_permutes R hR (BitVec.ofNat 64 (2 * k) + 1))
  exact h

theorem Q_permutes (R : Nat) (hR : R = 8 ∨ R = 16) (p : List (BitVec 64)) : Permutes R fun q => (roundsPQ R (p, q)).2 := by
  simp only [roundsPQ_eq]
  refine Perm.foldl (fun k q => stepQ R q k) _ fun k _ => ?_
  have h := comp (roundQ_permutes R hR (BitVec.ofNat 64 (2 * k))) (roundQ_permutes R hR (BitVec.ofNat 64 (2 * k) + 1))
  exact h

end Digestpp.Proofs.Perm.Kupyna
