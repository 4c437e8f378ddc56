import Mathlib.Algebra.Order.BigOperators.Group.Finset
import Mathlib.Algebra.BigOperators.Group.Finset.Piecewise
import Mathlib.Algebra.Group.Action.Defs
import Mathlib.Data.Finset.Prod

/-! The theorem on four rounds: substitution, a permutation of the cells that spreads columns, a mixing of columns. -/

namespace Digestpp.Proofs.Wide
open Finset

/-- The cells of an array of `r` rows and `c` columns. -/
def cells (r c : Nat) : Finset (Nat × Nat) := range r ×ˢ range c

/-- The number of marked cells. -/
def wt (r c : Nat) (a : Nat × Nat → Bool) : Nat := #{x ∈ cells r c | a x = true}

/-- The number of marked cells in column `j`. -/
def colWt (r : Nat) (a : Nat × Nat → Bool) (j : Nat) : Nat := #{i ∈ range r | a (i, j) = true}

/-- The columns with marked cells. -/
def cols (r c : Nat) (a : Nat × Nat → Bool) : Finset Nat := {j ∈ range c | colWt r a j ≠ 0}

theorem wt_eq_sum (r c : Nat) (a : Nat × Nat → Bool) : wt r c a = ∑ j ∈ range c, colWt r a j := by
  unfold wt cells colWt
  simp only [card_filter]
  rw [sum_product_right]

/-- A permutation of the cells that spreads each column over different columns: the cell `x` receives `src x`; `dst` is the inverse. -/
structure Spreads (r c : Nat) (src dst : Nat × Nat → Nat × Nat) : Prop where
  src_mem : ∀ x ∈ cells r c, src x ∈ cells r c
  dst_mem : ∀ x ∈ cells r c, dst x ∈ cells r c
  src_dst : ∀ x ∈ cells r c, src (dst x) = x
  dst_src : ∀ x ∈ cells r c, dst (src x) = x
  src_col : ∀ j < c, ∀ i < r, ∀ k < r, (src (i, j)).2 = (src (k, j)).2 → i = k
  dst_col : ∀ j < c, ∀ i < r, ∀ k < r, (dst (i, j)).2 = (dst (k, j)).2 → i = k

/-- What a mixing of columns with branch number `b` does to the marks of cells that differ. -/
structure Mixes (r c b : Nat) (a a' : Nat × Nat → Bool) : Prop where
  branch : ∀ j < c, colWt r a j ≠ 0 → b ≤ colWt r a j + colWt r a' j
  zero : ∀ j < c, colWt r a j = 0 → colWt r a' j = 0
  zero' : ∀ j < c, colWt r a' j = 0 → colWt r a j = 0

variable {r c b : Nat} {src dst : Nat × Nat → Nat × Nat}

theorem wt_src (h : Spreads r c src dst) (a : Nat × Nat → Bool) : wt r c (fun x => a (src x)) = wt r c a := by
  unfold wt
  refine card_bij' (fun x _ => src x) (fun x _ => dst x) ?_ ?_ ?_ ?_
  · intro x hx
    rw [mem_filter] at hx ⊢
    exact ⟨h.src_mem x hx.1, hx.2⟩
  · intro x hx
    rw [mem_filter] at hx ⊢
    exact ⟨h.dst_mem x hx.1, by show a (src (dst x)) = true; rw [h.src_dst x hx.1]; exact hx.2⟩
  · intro x hx
    exact h.dst_src x (mem_filter.mp hx).1
  · intro x hx
    exact h.src_dst x (mem_filter.mp hx).1

theorem cols_mixes {a a' : Nat × Nat → Bool} (h : Mixes r c b a a') : cols r c a' = cols r c a := by
  unfold cols
  apply filter_congr
  intro j hj
  have hj := mem_range.mp hj
  exact ⟨fun h1 h2 => h1 (h.zero j hj h2), fun h1 h2 => h1 (h.zero' j hj h2)⟩

/-- Two rounds. -/
theorem two_rounds {p a' : Nat × Nat → Bool} (h : Mixes r c b p a') : b * #(cols r c a') ≤ wt r c p + wt r c a' := by
  rw [cols_mixes h, wt_eq_sum, wt_eq_sum, ← sum_add_distrib, mul_comm, ← smul_eq_mul, ← sum_const]
  refine le_trans (sum_le_sum (f := fun _ => b) (g := fun j => colWt r p j + colWt r a' j) ?_) ?_
  · intro j hj
    have hj := mem_filter.mp hj
    exact h.branch j (mem_range.mp hj.1) hj.2
  · exact sum_le_sum_of_subset (filter_subset _ _)

theorem colWt_pos {a : Nat × Nat → Bool} {i j : Nat} (hi : i < r) (h : a (i, j) = true) : colWt r a j ≠ 0 := by
  intro e
  have := card_eq_zero.mp e
  have hm : i ∈ ({i ∈ range r | a (i, j) = true} : Finset Nat) := mem_filter.mpr ⟨mem_range.mpr hi, h⟩
  rw [this] at hm
  exact absurd hm (notMem_empty i)

/-- A column after the permutation has no more marks than there are marked columns before it. -/
theorem colWt_le_src (h : Spreads r c src dst) (a : Nat × Nat → Bool) (j : Nat) (hj : j < c) :
    colWt r (fun x => a (src x)) j ≤ #(cols r c a) := by
  unfold colWt
  refine card_le_card_of_injOn (fun i => (src (i, j)).2) ?_ ?_
  · intro i hi
    have hi := mem_filter.mp hi
    have hir := mem_range.mp hi.1
    have hm := h.src_mem (i, j) (mem_product.mpr ⟨hi.1, mem_range.mpr hj⟩)
    have hm := mem_product.mp hm
    exact mem_filter.mpr ⟨hm.2, colWt_pos (mem_range.mp hm.1) hi.2⟩
  · intro i hi k hk e
    exact h.src_col j hj i (mem_range.mp (mem_filter.mp hi).1) k (mem_range.mp (mem_filter.mp hk).1) e

/-- A column before the permutation has no more marks than there are marked columns after it. -/
theorem colWt_le_dst (h : Spreads r c src dst) (a : Nat × Nat → Bool) (j : Nat) (hj : j < c) :
    colWt r a j ≤ #(cols r c (fun x => a (src x))) := by
  unfold colWt
  refine card_le_card_of_injOn (fun i => (dst (i, j)).2) ?_ ?_
  · intro i hi
    have hi := mem_filter.mp hi
    have hx : (i, j) ∈ cells r c := mem_product.mpr ⟨hi.1, mem_range.mpr hj⟩
    have hm := mem_product.mp (h.dst_mem (i, j) hx)
    refine mem_filter.mpr ⟨hm.2, colWt_pos (i := (dst (i, j)).1) (mem_range.mp hm.1) ?_⟩
    show a (src (dst (i, j))) = true
    rw [h.src_dst _ hx]
    exact hi.2
  · intro i hi k hk e
    exact h.dst_col j hj i (mem_range.mp (mem_filter.mp hi).1) k (mem_range.mp (mem_filter.mp hk).1) e

/-- Marked cells at the beginning of four rounds (Daemen and Rijmen). -/
theorem four_rounds (h : Spreads r c src dst) {a1 a2 a3 a4 : Nat × Nat → Bool}
    (h1 : Mixes r c b (fun x => a1 (src x)) a2) (h2 : Mixes r c b (fun x => a2 (src x)) a3)
    (h3 : Mixes r c b (fun x => a3 (src x)) a4) (h0 : wt r c a1 ≠ 0) :
    b * b ≤ wt r c a1 + wt r c a2 + wt r c a3 + wt r c a4 := by
  have e1 := two_rounds h1
  have e3 := two_rounds h3
  rw [wt_src h a1] at e1
  rw [wt_src h a3] at e3
  -- an active column of `a3`
  have act : ∀ {p a' : Nat × Nat → Bool}, Mixes r c b p a' → wt r c p ≠ 0 → wt r c a' ≠ 0 := by
    intro p a' hm hp e
    rw [wt_eq_sum] at hp e
    apply hp
    refine sum_eq_zero fun j hj => hm.zero' j (mem_range.mp hj) ?_
    exact (sum_eq_zero_iff.mp e) j hj
  have w2 : wt r c a2 ≠ 0 := act h1 (by rwa [wt_src h a1])
  have w2' : wt r c (fun x => a2 (src x)) ≠ 0 := by rwa [wt_src h a2]
  obtain ⟨j, hj, hj0⟩ : ∃ j, j < c ∧ colWt r (fun x => a2 (src x)) j ≠ 0 := by
    by_contra hn
    apply w2'
    rw [wt_eq_sum]
    refine sum_eq_zero fun j hj => ?_
    by_contra hz
    exact hn ⟨j, mem_range.mp hj, hz⟩
  have e2 := h2.branch j hj hj0
  have l2 := colWt_le_src h a2 j hj
  have l3 := colWt_le_dst h a3 j hj
  rw [← cols_mixes h3] at l3
  have : b * b ≤ b * #(cols r c a2) + b * #(cols r c a4) := by
    rw [← Nat.mul_add]
    exact Nat.mul_le_mul_left b (by omega)
  omega

end Digestpp.Proofs.Wide
