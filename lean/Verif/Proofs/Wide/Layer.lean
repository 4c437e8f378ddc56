import Verif.Spec.Active
import Verif.Proofs.Pack
import Verif.Proofs.Wide.Trail
import Verif.Proofs.Wide.Mds

/-! From tables to the theorem on four rounds. -/

namespace Digestpp.Proofs.Wide
open Spec

/-- The cells in which two matrices differ. -/
def diff (A B : Mat) (x : Nat × Nat) : Bool := decide (A x.1 x.2 ≠ B x.1 x.2)

/-- Substitution, permutation of the cells, mixing of the columns. -/
def layer (n : Nat) (p : Byte) (box : Nat → Byte → Byte) (M : Nat → Nat → Byte) (src : Nat × Nat → Nat × Nat) (A : Mat) : Mat := fun i j =>
  xorSum n fun k => gmul p (box k (A (src (k, j)).1 (src (k, j)).2)) (M i k)

/-- What is required of the parts. -/
structure IsLayer (n : Nat) (p : Byte) (box : Nat → Byte → Byte) (M : Nat → Nat → Byte) (src dst : Nat × Nat → Nat × Nat) (c : Nat) : Prop where
  field : IsField p
  mds : mds p n ((List.range n).map fun i => (List.range n).map fun k => M i k) = true
  box : ∀ k, k < n → ∀ a b, box k a = box k b → a = b
  spreads : Spreads n c src dst

theorem colWt_eq (n : Nat) (a : Nat × Nat → Bool) (j : Nat) : colWt n a j = (List.range n).countP fun i => a (i, j) := by
  rw [List.countP_eq_length_filter]
  simp only [colWt, Finset.card, Finset.filter, Finset.range, Multiset.range]
  simp

theorem foldl_xor_init {w : Nat} {α : Type} (f : α → BitVec w) : ∀ (l : List α) (s : BitVec w),
    l.foldl (fun s k => s ^^^ f k) s = s ^^^ l.foldl (fun s k => s ^^^ f k) 0
  | [], s => BitVec.xor_zero.symm
  | a :: l, s => by
    rw [List.foldl_cons, List.foldl_cons, foldl_xor_init f l (s ^^^ f a), foldl_xor_init f l (0 ^^^ f a), BitVec.xor_assoc]
    congr 2
    exact BitVec.zero_xor.symm

theorem foldl_xor_xor {w : Nat} {α : Type} (f g : α → BitVec w) : ∀ (l : List α) (s t : BitVec w),
    l.foldl (fun s k => s ^^^ f k) s ^^^ l.foldl (fun s k => s ^^^ g k) t = l.foldl (fun s k => s ^^^ (f k ^^^ g k)) (s ^^^ t)
  | [], _, _ => rfl
  | a :: l, s, t => by
    rw [List.foldl_cons, List.foldl_cons, List.foldl_cons, foldl_xor_xor f g l]
    congr 1
    ac_rfl

theorem xorSum_xor {w : Nat} (n : Nat) (f g : Nat → BitVec w) : xorSum n f ^^^ xorSum n g = xorSum n fun k => f k ^^^ g k := by
  unfold xorSum
  rw [foldl_xor_xor]
  congr 1
  exact BitVec.xor_zero

theorem dot_map (p : Byte) (hp : IsField p) (x m : Nat → Byte) (l : List Nat) :
    dot p (l.map m) (l.map x) = l.foldl (fun s k => s ^^^ gmul p (x k) (m k)) 0 := by
  induction l with
  | nil => rfl
  | cons a l ih =>
    rw [List.foldl_cons, foldl_xor_init]
    show gmul p (m a) (x a) ^^^ dot p (l.map m) (l.map x) = _
    rw [ih, gmul_comm hp (m a) (x a)]
    congr 1
    exact BitVec.zero_xor.symm

theorem countP_compl {α : Type} (q : α → Bool) (l : List α) : l.countP q + l.countP (fun a => !q a) = l.length := by
  induction l with
  | nil => rfl
  | cons a l ih => cases h : q a <;> simp [List.countP_cons, h] <;> omega

/-- The branch number of the mixing of columns. -/
theorem branch (n : Nat) (p : Byte) (hp : IsField p) (M : Nat → Nat → Byte)
    (hm : mds p n ((List.range n).map fun i => (List.range n).map fun k => M i k) = true) (x : Nat → Byte)
    (h0 : ((List.range n).countP fun k => decide (x k ≠ 0)) ≠ 0) :
    n + 1 ≤ ((List.range n).countP fun k => decide (x k ≠ 0))
      + (List.range n).countP fun i => decide (xorSum n (fun k => gmul p (x k) (M i k)) ≠ 0) := by
  have h := mds_sound p hp n _ hm (by
    intro r hr
    obtain ⟨i, _, rfl⟩ := List.mem_map.mp hr
    rw [List.length_map, List.length_range]) ((List.range n).map x) (by rw [List.length_map, List.length_range])
    (by rw [List.countP_map]; exact h0)
  rw [List.countP_map, List.countP_map] at h
  have e : List.countP ((fun r => decide (dot p r ((List.range n).map x) = 0)) ∘ fun i => (List.range n).map fun k => M i k) (List.range n)
      = (List.range n).countP fun i => !decide (xorSum n (fun k => gmul p (x k) (M i k)) ≠ 0) := by
    apply List.countP_congr
    intro i _
    show decide (dot p ((List.range n).map fun k => M i k) ((List.range n).map x) = 0) = true ↔ _
    rw [dot_map p hp]
    unfold xorSum
    simp
  rw [e] at h
  have := countP_compl (fun i => decide (xorSum n (fun k => gmul p (x k) (M i k)) ≠ 0)) (List.range n)
  rw [List.length_range] at this
  have h' : ((List.range n).countP fun k => decide (x k ≠ 0)) = List.countP ((fun y => decide (y ≠ 0)) ∘ x) (List.range n) := rfl
  omega

theorem layer_mixes {n : Nat} {p : Byte} {box : Nat → Byte → Byte} {M : Nat → Nat → Byte} {src dst : Nat × Nat → Nat × Nat} {c : Nat}
    (h : IsLayer n p box M src dst c) (A B : Mat) :
    Mixes n c (n + 1) (fun x => diff A B (src x)) (diff (layer n p box M src A) (layer n p box M src B)) := by
  have key : ∀ j, ∃ x : Nat → Byte, colWt n (fun x => diff A B (src x)) j = ((List.range n).countP fun k => decide (x k ≠ 0)) ∧
      colWt n (diff (layer n p box M src A) (layer n p box M src B)) j
        = (List.range n).countP fun i => decide (xorSum n (fun k => gmul p (x k) (M i k)) ≠ 0) := by
    intro j
    refine ⟨fun k => box k (A (src (k, j)).1 (src (k, j)).2) ^^^ box k (B (src (k, j)).1 (src (k, j)).2), ?_, ?_⟩
    · rw [colWt_eq]
      apply List.countP_congr
      intro k hk
      have hk := List.mem_range.mp hk
      unfold diff
      simp only [decide_eq_true_eq]
      refine not_congr ⟨fun e => ?_, fun e => ?_⟩
      · rw [e]; exact BitVec.xor_self
      · exact h.box k hk _ _ (BitVec.xor_eq_zero_iff.mp e)
    · rw [colWt_eq]
      apply List.countP_congr
      intro i _
      unfold diff layer
      simp only [decide_eq_true_eq]
      refine not_congr ?_
      simp only [gmul_xor_left]
      rw [← xorSum_xor]
      exact BitVec.xor_eq_zero_iff.symm
  refine ⟨?_, ?_, ?_⟩
  · intro j _ h0
    obtain ⟨x, e1, e2⟩ := key j
    rw [e1] at h0 ⊢
    rw [e2]
    exact branch n p h.field M h.mds x h0
  · intro j _ h0
    obtain ⟨x, e1, e2⟩ := key j
    rw [e1] at h0
    rw [e2]
    apply List.countP_eq_zero.mpr
    intro i _
    have hz : ∀ k ∈ List.range n, x k = 0 := by
      intro k hk
      have := List.countP_eq_zero.mp h0 k hk
      simpa using this
    have : xorSum n (fun k => gmul p (x k) (M i k)) = 0 := by
      have e : ∀ l : List Nat, (∀ k ∈ l, x k = 0) → l.foldl (fun s k => s ^^^ gmul p (x k) (M i k)) 0 = 0 := by
        intro l
        induction l with
        | nil => intro _; rfl
        | cons a l ih =>
          intro hl
          rw [List.foldl_cons, hl a List.mem_cons_self, gmul_zero_left]
          exact ih fun k hk => hl k (List.mem_cons_of_mem _ hk)
      exact e _ hz
    simp [this]
  · intro j _ h0
    obtain ⟨x, e1, e2⟩ := key j
    rw [e1]
    rw [e2] at h0
    by_cases hn : ((List.range n).countP fun k => decide (x k ≠ 0)) = 0
    · exact hn
    · have := branch n p h.field M h.mds x hn
      have hle : ((List.range n).countP fun k => decide (x k ≠ 0)) ≤ n := by
        have := List.countP_le_length (p := fun k => decide (x k ≠ 0)) (l := List.range n)
        rwa [List.length_range] at this
      omega

end Digestpp.Proofs.Wide
