import Verif.Proofs.PermTables
import Verif.Model.Streebog
import Verif.Proofs.Extension

/-! C56: the transformations `LPS` and `E` of Streebog. -/

namespace Digestpp.Proofs.Perm.Streebog
open Spec Model Model.Streebog

theorem checked : Checked 8 streebog_T streebogRows streebogBox where
  lin := by decide +kernel
  inv := by
    intro B hB
    have : B = streebogBox0 := by simpa [streebogBox] using hB
    subst this
    exact ⟨streebogInv0, by decide +kernel⟩
  len := by decide

/-- The sum of eight entries. -/
def sum8 (c : Nat → Byte) : BitVec 64 :=
  (streebog_T.getD 0 []).getD (c 0).toNat 0 ^^^ (streebog_T.getD 1 []).getD (c 1).toNat 0 ^^^ (streebog_T.getD 2 []).getD (c 2).toNat 0 ^^^
  (streebog_T.getD 3 []).getD (c 3).toNat 0 ^^^ (streebog_T.getD 4 []).getD (c 4).toNat 0 ^^^ (streebog_T.getD 5 []).getD (c 5).toNat 0 ^^^
  (streebog_T.getD 6 []).getD (c 6).toNat 0 ^^^ (streebog_T.getD 7 []).getD (c 7).toNat 0

theorem sum8_inj (c d : Nat → Byte) (h : sum8 c = sum8 d) (i : Nat) (hi : i < 8) : c i = d i := by
  have e : ∀ c, (sum8 c).toNat = sumN (fun i => ((streebog_T.getD i []).getD (c i).toNat 0).toNat) 8 := by
    intro c
    unfold sum8
    simp only [BitVec.toNat_xor, sumN, Nat.zero_xor]
  have h := congrArg BitVec.toNat h
  rw [e, e] at h
  exact BitVec.eq_of_toNat_eq (indices checked (fun i => (c i).toNat) (fun i => (d i).toNat) (fun _ _ => BitVec.isLt _) (fun _ _ => BitVec.isLt _) h i hi)

theorem lps_eq (A : List (BitVec 64)) (hA : A.length = 8) (I : Nat) (hI : I < 8) :
    lps I (stores64 A) = sum8 fun i => (A.getD i 0 >>> (8 * I)).setWidth 8 := by
  match A, hA with
  | [a0, a1, a2, a3, a4, a5, a6, a7], _ =>
    have : I = 0 ∨ I = 1 ∨ I = 2 ∨ I = 3 ∨ I = 4 ∨ I = 5 ∨ I = 6 ∨ I = 7 := by omega
    rcases this with rfl | rfl | rfl | rfl | rfl | rfl | rfl | rfl <;> rfl

theorem lpsBlock_eq (A : List (BitVec 64)) (hA : A.length = 8) :
    lpsBlock A = (List.range 8).map fun I => sum8 fun i => (A.getD i 0 >>> (8 * I)).setWidth 8 := by
  have h : (List.range 8).map (fun I => lps I (stores64 A)) = (List.range 8).map fun I => sum8 fun i => (A.getD i 0 >>> (8 * I)).setWidth 8 :=
    List.map_congr_left fun I hI => lps_eq A hA I (List.mem_range.mp hI)
  exact h

theorem lpsBlock_permutes : Permutes 8 lpsBlock := by
  apply of_inj
  · intro A _
    rfl
  intro A B hA hB h
  rw [lpsBlock_eq A hA, lpsBlock_eq B hB] at h
  rw [← map_range_getD A 0 8 hA, ← map_range_getD B 0 8 hB]
  apply List.map_congr_left
  intro i hi
  apply eq_of_bytes
  intro I hI
  have := congrArg (fun l => l.getD I 0) h
  simp only [getD_map_range _ _ _ _ hI] at this
  exact sum8_inj _ _ this i (List.mem_range.mp hi)

theorem xorBlocks_permutes (k : List (BitVec 64)) : Permutes 8 fun A => xorBlocks A k := xor_permutes fun i => k.getD i 0

/-- The rounds of `e`, on the words of the block. -/
theorem rounds_permutes : ∀ (l : List Nat) (k : List (BitVec 64)), Permutes 8 fun A =>
    (l.foldl (fun (p : List (BitVec 64) × List (BitVec 64)) i =>
      (xorBlocks (lpsBlock p.1) (lpsBlock (xorBlocks p.2 (streebog_RC.getD i []))), lpsBlock (xorBlocks p.2 (streebog_RC.getD i [])))) (A, k)).1
  | [], _ => id' 8
  | i :: l, k => comp (comp lpsBlock_permutes (xorBlocks_permutes (lpsBlock (xorBlocks k (streebog_RC.getD i [])))))
      (rounds_permutes l (lpsBlock (xorBlocks k (streebog_RC.getD i []))))

theorem loads_stores (A : List (BitVec 64)) (n : Nat) (hA : A.length = n) : loads64 n (stores64 A) = A := by
  have hl : (stores64 A).length = 8 * n := by
    subst hA
    induction A with
    | nil => rfl
    | cons a A ih =>
      show (bytes64 a ++ stores64 A).length = _
      rw [List.length_append, ih, List.length_cons]
      show 8 + _ = _
      omega
  rw [loads64_eq n _ hl, stores64_eq, Extension.leWords_ofLeWords (by decide) (by decide)]

/-- The block, given by its words. -/
theorem e_permutes (K : List (BitVec 64)) : Permutes 8 fun A => e K (stores64 A) := by
  have h : Permutes 8 fun A => xorBlocks K A := Perm.congr (xorBlocks_permutes K) fun A _ => by
    unfold xorBlocks
    apply List.map_congr_left
    intro i _
    exact BitVec.xor_comm _ _
  refine Perm.congr (comp h (rounds_permutes (List.range 12) K)) fun A hA => ?_
  unfold e
  rw [loads_stores A 8 hA]

end Digestpp.Proofs.Perm.Streebog
