import Verif.Proofs.PermTables
import Verif.Model.Groestl

/-! C56: the permutations `P` and `Q` of Grøstl. -/

namespace Digestpp.Proofs.Perm.Groestl
open Spec Model Model.Groestl

theorem checked : Checked 8 groestl_T groestlRows groestlBox where
  lin := by decide +kernel
  inv := by
    intro B hB
    have : B = groestlBox0 := by simpa [groestlBox] using hB
    subst this
    exact ⟨groestlInv0, by decide +kernel⟩
  len := by decide

theorem lookups_permutes (R s0 s1 s2 s3 s4 s5 s6 s7 : Nat)
    (hs : ∀ d, d < R → ∀ i, i < 8 → ∃ c, c < R ∧ (c + [s0, s1, s2, s3, s4, s5, s6, s7].getD i 0) % R = d) :
    Permutes R (lookups R s0 s1 s2 s3 s4 s5 s6 s7) :=
  layer_permutes checked R (fun c i => (c + [s0, s1, s2, s3, s4, s5, s6, s7].getD i 0) % R) hs

theorem roundP_permutes (R : Nat) (i : BitVec 64) : Permutes R fun x => roundP R x i :=
  comp (xor_permutes fun idx => (BitVec.ofNat 64 idx <<< 4) ^^^ i) (lookups_permutes R 0 1 2 3 4 5 6 (if R = 16 then 11 else 7) (shifts _))

theorem roundQ_permutes (R : Nat) (i : BitVec 64) : Permutes R fun x => roundQ R x i :=
  comp (xor_permutes fun idx => (0xffffffffffffffff#64 - (BitVec.ofNat 64 idx <<< 60)) ^^^ i) (lookups_permutes R 1 3 5 (if R = 16 then 11 else 7) 0 2 4 6 (shifts _))

/-- Two rounds. -/
def stepP (R : Nat) (p : List (BitVec 64)) (k : Nat) : List (BitVec 64) :=
  roundP R (roundP R p (BitVec.ofNat 64 (2 * k))) (BitVec.ofNat 64 (2 * k) + 1)

def stepQ (R : Nat) (q : List (BitVec 64)) (k : Nat) : List (BitVec 64) :=
  roundQ R (roundQ R q (BitVec.ofNat 64 (2 * k) <<< 56)) ((BitVec.ofNat 64 (2 * k) + 1) <<< 56)

theorem roundsPQ_eq (R : Nat) (p q : List (BitVec 64)) :
    roundsPQ R (p, q) = ((List.range (iterations R)).foldl (stepP R) p, (List.range (iterations R)).foldl (stepQ R) q) :=
  pair_foldl (stepP R) (stepQ R) _ (p, q)

theorem P_permutes (R : Nat) (q : List (BitVec 64)) : Permutes R fun p => (roundsPQ R (p, q)).1 := by
  simp only [roundsPQ_eq]
  exact Perm.foldl (fun k p => stepP R p k) _ fun k _ => comp (roundP_permutes R _) (roundP_permutes R _)

theorem Q_permutes (R : Nat) (p : List (BitVec 64)) : Permutes R fun q => (roundsPQ R (p, q)).2 := by
  simp only [roundsPQ_eq]
  exact Perm.foldl (fun k q => stepQ R q k) _ fun k _ => comp (roundQ_permutes R _) (roundQ_permutes R _)

end Digestpp.Proofs.Perm.Groestl
