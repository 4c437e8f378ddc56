import Verif.Proofs.Pad

/-! Arrays filled from the front by a recurrence. -/

namespace Digestpp.Proofs

theorem getD_map_range {α : Type} (F : Nat → α) (d : α) (n i : Nat) (h : i < n) : ((List.range n).map F).getD i d = F i := by
  rw [List.getD_eq_getElem?_getD, List.getElem?_map, List.getElem?_range h]; rfl

theorem expand_spec {α : Type} (f : List α → Nat → α) (F : Nat → α) (n0 n : Nat) (W0 : List α)
    (h0 : W0 = (List.range n0).map F)
    (h : ∀ t, n0 ≤ t → t < n0 + n → f ((List.range t).map F) t = F t) :
    (List.range' n0 n).foldl (fun W t => W ++ [f W t]) W0 = (List.range (n0 + n)).map F := by
  induction n with
  | zero => simpa using h0
  | succ n ih =>
    rw [List.range'_1_concat, List.foldl_append, ih (fun t h1 h2 => h t h1 (by omega))]
    simp only [List.foldl_cons, List.foldl_nil]
    rw [h (n0 + n) (by omega) (by omega), ← Nat.add_assoc, List.range_succ, List.map_append]
    rfl

/-- Two folds over `0, 1, …, n-1` run in step. -/
theorem foldl_range_sim {α β : Type} (f : α → Nat → α) (g : β → Nat → β) (R : Nat → α → β → Prop) (n : Nat) (a : α) (b : β)
    (h0 : R 0 a b) (h : ∀ t a b, t < n → R t a b → R (t + 1) (f a t) (g b t)) :
    R n ((List.range n).foldl f a) ((List.range n).foldl g b) := by
  induction n with
  | zero => exact h0
  | succ n ih =>
    rw [List.range_succ, List.foldl_append, List.foldl_append]
    exact h n _ _ (by omega) (ih (fun t a b ht => h t a b (by omega)))

theorem map_range_getD {α : Type} (l : List α) (d : α) (n : Nat) (h : l.length = n) :
    (List.range n).map (fun i => l.getD i d) = l := by
  subst h
  apply List.ext_getElem
  · simp
  · intro i h1 h2
    simp [h2]

end Digestpp.Proofs
