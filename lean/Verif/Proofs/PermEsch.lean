import Verif.Proofs.Perm
import Verif.Proofs.EschCore

/-! C56: Sparkle is a permutation. -/

namespace Digestpp.Proofs.Perm.Esch
open Spec Spec.Esch

/-- The inverse of the box. -/
def alzetteInv (c : BitVec 32) (b : BitVec 32 × BitVec 32) : BitVec 32 × BitVec 32 :=
  let (x, y) := b
  let x := x ^^^ c
  let y := y ^^^ x.rotateRight 16
  let x := x - y.rotateRight 24
  let x := x ^^^ c
  let y := y ^^^ x.rotateRight 31
  let x := x - y
  let x := x ^^^ c
  let y := y ^^^ x.rotateRight 17
  let x := x - y.rotateRight 17
  let x := x ^^^ c
  let y := y ^^^ x.rotateRight 24
  let x := x - y.rotateRight 31
  (x, y)

theorem alzette_inv (c : BitVec 32) (b : BitVec 32 × BitVec 32) : alzetteInv c (alzette c b) = b := by
  obtain ⟨x, y⟩ := b
  unfold alzetteInv alzette
  simp only [BitVec.xor_assoc, BitVec.xor_self, BitVec.xor_zero, BitVec.add_sub_cancel]

theorem alzette_inj {c : BitVec 32} {a b : BitVec 32 × BitVec 32} (h : alzette c a = alzette c b) : a = b := by
  rw [← alzette_inv c a, h, alzette_inv]

/-- The same on the first `n` branches. -/
def Same (n : Nat) (B C : Branches) : Prop := ∀ i, i < n → B i = C i

theorem linear_inj (h : Nat) (h0 : 0 < h) (B C : Branches) (e : Same (2 * h) (linear h B) (linear h C)) : Same (2 * h) B C := by
  have left : ∀ i, i < h → B i = C i := by
    intro i hi
    have := e (i + h) (by omega)
    unfold linear at this
    dsimp only at this
    rwa [if_neg (by omega), if_neg (by omega), Nat.add_sub_cancel] at this
  have fe : ∀ i, i < h → feistel h B i = feistel h C i := by
    have sum : ∀ (p : BitVec 32 × BitVec 32 → BitVec 32), (List.range h).foldl (fun a i => a ^^^ p (B i)) 0 = (List.range h).foldl (fun a i => a ^^^ p (C i)) 0 := by
      intro p
      have : ∀ l : List Nat, (∀ i ∈ l, i < h) → ∀ a, l.foldl (fun a i => a ^^^ p (B i)) a = l.foldl (fun a i => a ^^^ p (C i)) a := by
        intro l
        induction l with
        | nil => exact fun _ _ => rfl
        | cons i l ih =>
          intro hl a
          rw [List.foldl_cons, List.foldl_cons, left i (hl i (List.mem_cons_self ..))]
          exact ih (fun j hj => hl j (List.mem_cons_of_mem _ hj)) _
      exact this _ (fun i hi => List.mem_range.1 hi) 0
    intro i hi
    unfold feistel
    rw [sum Prod.fst, sum Prod.snd, left i hi]
  intro i hi
  by_cases hl : i < h
  · exact left i hl
  · obtain ⟨j, hj, hji⟩ : ∃ j, j < h ∧ (j + 1) % h = i - h := by
      by_cases h1 : i - h = 0
      · exact ⟨h - 1, by omega, by rw [show h - 1 + 1 = h by omega, Nat.mod_self, h1]⟩
      · exact ⟨i - h - 1, by omega, by rw [show i - h - 1 + 1 = i - h by omega, Nat.mod_eq_of_lt (by omega)]⟩
    have := e j (by omega)
    unfold linear at this
    dsimp only at this
    rw [if_pos hj, if_pos hj, hji, show i - h + h = i by omega, fe (i - h) (by omega)] at this
    have e1 := xor_left_inj rfl (congrArg Prod.fst this)
    have e2 := xor_left_inj rfl (congrArg Prod.snd this)
    exact Prod.ext e1 e2

theorem step_inj (h : Nat) (h2 : 2 ≤ h) (s : Nat) (B C : Branches) (e : Same (2 * h) (step h B s) (step h C s)) : Same (2 * h) B C := by
  unfold step at e
  dsimp only at e
  have e := linear_inj h (by omega) _ _ e
  intro i hi
  have := alzette_inj (e i hi)
  by_cases i0 : i = 0
  · subst i0
    rw [if_pos rfl, if_pos rfl] at this
    injection this with t1 t2
    exact Prod.ext t1 (xor_left_inj rfl t2)
  · rw [if_neg i0, if_neg i0] at this
    by_cases i1 : i = 1
    · subst i1
      rw [if_pos rfl, if_pos rfl] at this
      injection this with t1 t2
      exact Prod.ext t1 (xor_left_inj rfl t2)
    · rwa [if_neg i1, if_neg i1] at this

theorem flat_inj (nb : Nat) (B C : Branches) (h : Esch.flat nb B = Esch.flat nb C) : Same nb B C := by
  unfold Esch.flat at h
  induction nb with
  | zero => exact fun i hi => absurd hi (by omega)
  | succ n ih =>
    rw [List.range_succ, List.flatMap_append, List.flatMap_append] at h
    have hl : ∀ B : Branches, ((List.range n).flatMap fun i => [(B i).1, (B i).2]).length = 2 * n := by
      intro B
      simp [List.length_flatMap, Nat.mul_comm]
    obtain ⟨h1, h2⟩ := List.append_inj h (by rw [hl, hl])
    intro i hi
    by_cases e : i = n
    · subst e
      simp only [List.flatMap_cons, List.flatMap_nil, List.append_nil, List.cons.injEq, and_true] at h2
      exact Prod.ext h2.1 h2.2
    · exact ih h1 i (by omega)

theorem flat_of (nb : Nat) (H : List (BitVec 32)) (h : H.length = 2 * nb) : H = Esch.flat nb fun i => (H.getD (2 * i) 0, H.getD (2 * i + 1) 0) := by
  unfold Esch.flat
  induction nb generalizing H with
  | zero => exact List.length_eq_zero_iff.1 (by omega)
  | succ n ih =>
    match H, h with
    | x :: y :: H, h =>
      rw [List.range_succ_eq_map, List.flatMap_cons, List.flatMap_map]
      have := ih H (by simp only [List.length_cons] at h; omega)
      simp only [Nat.mul_zero, Nat.zero_add, List.getD_cons_zero, List.getD_cons_succ, List.cons_append, List.nil_append, Nat.mul_succ]
      rw [← this]

theorem length_flat (nb : Nat) (B : Branches) : (Esch.flat nb B).length = 2 * nb := by
  unfold Esch.flat
  simp [List.length_flatMap, Nat.mul_comm]

theorem step_permutes (F : Family) (nb : Nat) (hF : Esch.Size F nb) (s : Nat) : Permutes (2 * nb) (Model.Esch.sparkleStep nb s) := by
  have hn : 2 * F.h = nb ∧ 2 ≤ F.h := by
    obtain ⟨rfl, rfl⟩ | ⟨rfl, rfl⟩ := hF <;> decide
  have e := fun B => Proofs.Esch.step_eq F nb hF s B []
  simp only [List.append_nil] at e
  apply of_inj
  · intro A hA
    rw [flat_of nb A hA, e, length_flat]
  · intro A B hA hB h
    rw [flat_of nb A hA, flat_of nb B hB, e, e] at h
    have := flat_inj _ _ _ h
    rw [← hn.1] at this
    have := step_inj F.h hn.2 s _ _ this
    rw [hn.1] at this
    rw [flat_of nb A hA, flat_of nb B hB]
    exact Proofs.Esch.flat_congr _ _ _ this

theorem permutes (F : Family) (nb : Nat) (hF : Esch.Size F nb) (ns : Nat) : Permutes (2 * nb) (Model.Esch.sparkle nb ns) :=
  Perm.foldl (fun s H => Model.Esch.sparkleStep nb s H) (List.range ns) fun s _ => step_permutes F nb hF s

end Digestpp.Proofs.Perm.Esch
