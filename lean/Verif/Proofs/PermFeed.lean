import Verif.Proofs.PermGroestl
import Verif.Proofs.PermKupyna
import Verif.Proofs.PermWhirlpool
import Verif.Proofs.PermStreebog
import Verif.Proofs.PermSkein

/-! C57: feed-forward in Grøstl, Kupyna, Whirlpool, Streebog and Skein. -/

namespace Digestpp.Proofs.Perm
open Spec Model

theorem feed {w n : Nat} {op : BitVec w → BitVec w → BitVec w} {g : List (BitVec w) → M (List (BitVec w))} (E : List (BitVec w) → List (BitVec w))
    (hE : Permutes n E) (h : ∀ A, A.length = n → g A = .ok ((List.range n).map fun i => op (A.getD i 0) ((E A).getD i 0))) : FeedForward n op g := by
  refine ⟨E, hE, fun A hA => ?_⟩
  rw [h A hA]
  have e1 := map_range_getD A 0 n hA
  have e2 := map_range_getD (E A) 0 n (hE.length A hA)
  have : List.zipWith op A (E A) = List.zipWith op ((List.range n).map fun i => A.getD i 0) ((List.range n).map fun i => (E A).getD i 0) := by rw [e1, e2]
  rw [this, List.zipWith_map, List.zipWith_self]

theorem getD_append_left' {w : Nat} (A r : List (BitVec w)) (i : Nat) (h : i < A.length) : (A ++ r).getD i 0 = A.getD i 0 := by
  rw [List.getD_eq_getElem?_getD, List.getD_eq_getElem?_getD, List.getElem?_append_left h]

namespace Groestl
open Model.Groestl

/-- The permutation of the first array. -/
def P (R : Nat) (p : List (BitVec 64)) : List (BitVec 64) := (List.range (iterations R)).foldl (stepP R) p

/-- The permutation of the second array. -/
def Q (R : Nat) (q : List (BitVec 64)) : List (BitVec 64) := (List.range (iterations R)).foldl (stepQ R) q

theorem P_perm (R : Nat) : Permutes R (P R) := by
  have h := P_permutes R []
  simp only [roundsPQ_eq] at h
  exact h

/-- The words of the chaining value, for a fixed block. The array has more words than the functions use if `R` is 8. -/
theorem compress_feed (R : Nat) (m rest : List (BitVec 64)) :
    FeedForward R (· ^^^ ·) fun A => .ok ((compress R (A ++ rest) m).take R) := by
  generalize hq : Q R ((List.range R).map fun c => m.getD c 0) = q
  have hE := comp (comp (xor_permutes (n := R) fun c => m.getD c 0) (P_perm R)) (xor_permutes fun c => q.getD c 0)
  refine feed _ hE fun A hA => congrArg Except.ok ?_
  have hm : (List.range R).map (fun c => (A ++ rest).getD c 0 ^^^ m.getD c 0) = (List.range R).map fun c => A.getD c 0 ^^^ m.getD c 0 := by
    apply List.map_congr_left
    intro c hc
    rw [getD_append_left' A rest c (by rw [hA]; exact List.mem_range.mp hc)]
  unfold compress
  dsimp only
  rw [hm, List.take_append_of_le_length (by simp), List.take_of_length_le (by simp), roundsPQ_eq]
  apply List.map_congr_left
  intro c hc
  rw [getD_map_range _ _ _ _ (List.mem_range.mp hc), getD_append_left' A rest c (by rw [hA]; exact List.mem_range.mp hc), BitVec.xor_comm (A.getD c 0), ← hq]
  rfl

/-- The output transformation. -/
theorem output_feed (R : Nat) (rest : List (BitVec 64)) :
    FeedForward R (· ^^^ ·) fun A => .ok ((outputTransform R (A ++ rest)).take R) := by
  refine feed (P R) (P_perm R) fun A hA => congrArg Except.ok ?_
  unfold outputTransform
  dsimp only
  rw [List.take_append_of_le_length (by simp), List.take_of_length_le (by simp)]
  apply List.map_congr_left
  intro c hc
  rw [getD_append_left' A rest c (by rw [hA]; exact List.mem_range.mp hc), List.take_append_of_le_length (by omega), List.take_of_length_le (by omega)]
  rfl

end Groestl

namespace Kupyna
open Model.Kupyna

/-- The permutation of the first array. -/
def P (R : Nat) (p : List (BitVec 64)) : List (BitVec 64) := (List.range (iterations R)).foldl (stepP R) p

/-- The permutation of the second array. -/
def Q (R : Nat) (q : List (BitVec 64)) : List (BitVec 64) := (List.range (iterations R)).foldl (stepQ R) q

theorem P_perm (R : Nat) (hR : R = 8 ∨ R = 16) : Permutes R (P R) := by
  have h := P_permutes R hR []
  simp only [roundsPQ_eq] at h
  exact h

/-- The words of the chaining value, for a fixed block. The array has more words than the functions use if `R` is 8. -/
theorem compress_feed (R : Nat) (hR : R = 8 ∨ R = 16) (m rest : List (BitVec 64)) :
    FeedForward R (· ^^^ ·) fun A => .ok ((compress R (A ++ rest) m).take R) := by
  generalize hq : Q R ((List.range R).map fun c => m.getD c 0) = q
  have hE := comp (comp (xor_permutes (n := R) fun c => m.getD c 0) (P_perm R hR)) (xor_permutes fun c => q.getD c 0)
  refine feed _ hE fun A hA => congrArg Except.ok ?_
  have hm : (List.range R).map (fun c => (A ++ rest).getD c 0 ^^^ m.getD c 0) = (List.range R).map fun c => A.getD c 0 ^^^ m.getD c 0 := by
    apply List.map_congr_left
    intro c hc
    rw [getD_append_left' A rest c (by rw [hA]; exact List.mem_range.mp hc)]
  unfold compress
  dsimp only
  rw [hm, List.take_append_of_le_length (by simp), List.take_of_length_le (by simp), roundsPQ_eq]
  apply List.map_congr_left
  intro c hc
  rw [getD_map_range _ _ _ _ (List.mem_range.mp hc), getD_append_left' A rest c (by rw [hA]; exact List.mem_range.mp hc), BitVec.xor_comm (A.getD c 0), ← hq]
  rfl

/-- The output transformation. -/
theorem output_feed (R : Nat) (hR : R = 8 ∨ R = 16) (rest : List (BitVec 64)) :
    FeedForward R (· ^^^ ·) fun A => .ok ((outputTransform R (A ++ rest)).take R) := by
  refine feed (P R) (P_perm R hR) fun A hA => congrArg Except.ok ?_
  unfold outputTransform
  dsimp only
  rw [List.take_append_of_le_length (by simp), List.take_of_length_le (by simp)]
  apply List.map_congr_left
  intro c hc
  rw [getD_append_left' A rest c (by rw [hA]; exact List.mem_range.mp hc), List.take_append_of_le_length (by omega), List.take_of_length_le (by omega)]
  rfl

end Kupyna

namespace Whirlpool
open Model.Whirlpool

/-- The words of the block, for a fixed chaining value. -/
theorem compress_feed (h : List (BitVec 64)) : FeedForward 8 (· ^^^ ·) fun A => .ok (compress (stores64 A) h) := by
  have hE := comp (comp (xor_permutes (n := 8) fun c => h.getD c 0) (state_permutes h)) (xor_permutes fun c => h.getD c 0)
  refine feed _ hE fun A hA => congrArg Except.ok ?_
  unfold compress
  dsimp only
  rw [Streebog.loads_stores A 8 hA]
  apply List.map_congr_left
  intro c hc
  rw [getD_map_range _ _ _ _ (List.mem_range.mp hc)]
  have e : (List.range 8).map (fun i => h.getD i 0 ^^^ A.getD i 0) = (List.range 8).map fun i => A.getD i 0 ^^^ h.getD i 0 :=
    List.map_congr_left fun i _ => BitVec.xor_comm _ _
  rw [e]
  ac_rfl

end Whirlpool

namespace Streebog
open Model.Streebog

/-- The words of the block, for a fixed chaining value. -/
theorem gN_feed (h : List (BitVec 64)) (N : BitVec 64) : FeedForward 8 (· ^^^ ·) fun A => .ok (gN h (stores64 A) N) := by
  have hE := comp (e_permutes (lpsBlock (h.set 0 (h.getD 0 0 ^^^ N)))) (xorBlocks_permutes h)
  refine feed _ hE fun A hA => congrArg Except.ok ?_
  unfold gN
  dsimp only
  rw [loads_stores A 8 hA]
  unfold xorBlocks
  apply List.map_congr_left
  intro c hc
  rw [getD_map_range _ _ _ _ (List.mem_range.mp hc), getD_map_range _ _ _ _ (List.mem_range.mp hc), BitVec.xor_comm _ (A.getD c 0), BitVec.xor_comm (h.getD c 0)]

end Streebog

namespace Skein
open Model.Skein
open Proofs.Skein (FOk)

/-- The words of the block, for a fixed chaining value and tweak. -/
theorem block_feed {F : Fns} {T : Spec.Skein.Threefish} (ok : FOk F T) (reallen : Nat) (h : Model.Skein.St) :
    FeedForward F.nw (· ^^^ ·) fun A => (Model.Skein.block F reallen (stores64 A) h).map (·.H) := by
  obtain ⟨f, pf, ef⟩ := runs ok (h.H ++ [lastKey h.H]) [h.tweak0 + BitVec.ofNat 64 reallen, h.tweak1, (h.tweak0 + BitVec.ofNat 64 reallen) ^^^ h.tweak1]
  refine feed f pf fun A hA => ?_
  unfold Model.Skein.block
  dsimp only
  have ef := ef A hA
  dsimp only at ef
  rw [Streebog.loads_stores A F.nw hA, ef]
  show Except.ok ((List.range F.nw).map fun i => (f A).getD i 0 ^^^ A.getD i 0) = _
  simp only [BitVec.xor_comm]

end Skein

end Digestpp.Proofs.Perm
