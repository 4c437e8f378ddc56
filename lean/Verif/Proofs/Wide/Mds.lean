import Verif.Proofs.Wide.Field

/-! Matrices over the field all of whose square submatrices are regular: a checker, and what follows from it. -/

namespace Digestpp.Proofs.Wide
open Spec

/-- The product of a row and a vector. -/
def dot (p : Byte) : List Byte → List Byte → Byte
  | a :: r, b :: x => gmul p a b ^^^ dot p r x
  | _, _ => 0

/-- The row `s` after elimination of the first variable by means of the row `r`. -/
def reduce (p : Byte) : List Byte → List Byte → List Byte
  | a :: r, b :: s => List.zipWith (fun u v => gmul p a v ^^^ gmul p b u) r s
  | _, _ => []

/-- A condition on each element of a list together with those after it. -/
def allTails {α : Type} (f : α → List α → Bool) : List α → Bool
  | [] => true
  | a :: l => f a l && allTails f l

/-- Any `j` of the rows, with `j` elements each, are linearly independent; by elimination. -/
def good (p : Byte) : Nat → List (List Byte) → Bool
  | 0 => fun _ => true
  | j + 1 => allTails fun r rs => decide (r.headD 0 ≠ 0) && good p j (rs.map (reduce p r))

theorem good_cons (p : Byte) (j : Nat) (r : List Byte) (rs : List (List Byte)) :
    good p (j + 1) (r :: rs) = (decide (r.headD 0 ≠ 0) && good p j (rs.map (reduce p r)) && good p (j + 1) rs) := rfl

theorem dot_zipWith (p : Byte) (hp : IsField p) (a b : Byte) : ∀ r s x, r.length = x.length → s.length = x.length →
    dot p (List.zipWith (fun u v => gmul p a v ^^^ gmul p b u) r s) x = gmul p a (dot p s x) ^^^ gmul p b (dot p r x)
  | [], [], [], _, _ => by
    show (0 : Byte) = gmul p a 0 ^^^ gmul p b 0
    rw [gmul_zero_right, gmul_zero_right]
    exact (BitVec.xor_self (x := (0 : Byte))).symm
  | [], _ :: _, [], _, h2 => nomatch h2
  | _ :: _, _, [], h1, _ => nomatch h1
  | [], _, _ :: _, h1, _ => nomatch h1
  | _ :: _, [], _ :: _, _, h2 => nomatch h2
  | u :: r, v :: s, y :: x, h1, h2 => by
    show gmul p (gmul p a v ^^^ gmul p b u) y ^^^ dot p (List.zipWith (fun u v => gmul p a v ^^^ gmul p b u) r s) x
      = gmul p a (gmul p v y ^^^ dot p s x) ^^^ gmul p b (gmul p u y ^^^ dot p r x)
    rw [dot_zipWith p hp a b r s x (Nat.succ.inj h1) (Nat.succ.inj h2), gmul_xor_left, gmul_xor_right, gmul_xor_right, gmul_assoc hp,
      gmul_assoc hp]
    exact xor_swap4 _ _ _ _

theorem dot_reduce (p : Byte) (hp : IsField p) (a b y : Byte) (r s x : List Byte) (hr : r.length = x.length) (hs : s.length = x.length)
    (h : dot p (a :: r) (y :: x) = 0) (h' : dot p (b :: s) (y :: x) = 0) : dot p (reduce p (a :: r) (b :: s)) x = 0 := by
  show dot p (List.zipWith _ r s) x = 0
  rw [dot_zipWith p hp a b r s x hr hs]
  have e : dot p r x = gmul p a y := (BitVec.xor_eq_zero_iff.mp h).symm
  have e' : dot p s x = gmul p b y := (BitVec.xor_eq_zero_iff.mp h').symm
  rw [e, e', ← gmul_assoc hp, ← gmul_assoc hp, gmul_comm hp a b]
  exact BitVec.xor_self

theorem length_reduce (p : Byte) (n : Nat) : ∀ r s : List Byte, r.length = n + 1 → s.length = n + 1 → (reduce p r s).length = n
  | a :: r, b :: s, h, h' => by
    show (List.zipWith _ r s).length = n
    rw [List.length_zipWith, Nat.succ.inj h, Nat.succ.inj h', Nat.min_self]

theorem dot_zero (p : Byte) : ∀ r x : List Byte, (∀ y ∈ x, y = 0) → dot p r x = 0
  | [], _, _ => by unfold dot; rfl
  | _ :: _, [], _ => by unfold dot; rfl
  | a :: r, y :: x, h => by
    show gmul p a y ^^^ dot p r x = 0
    rw [h y List.mem_cons_self, gmul_zero_right, dot_zero p r x fun z hz => h z (List.mem_cons_of_mem _ hz)]
    exact BitVec.xor_self

/-- If as many of the rows vanish on a vector as it has elements, then it is zero. -/
theorem good_sound (p : Byte) (hp : IsField p) : ∀ (j : Nat) (rs : List (List Byte)) (x : List Byte), good p j rs = true → x.length = j →
    (∀ r ∈ rs, r.length = j) → j ≤ rs.countP (fun r => decide (dot p r x = 0)) → ∀ y ∈ x, y = 0
  | 0, _, x, _, hx, _, _ => by
    rw [List.length_eq_zero_iff.mp hx]
    intro y hy
    cases hy
  | j + 1, [], _, _, _, _, hc => absurd hc (by simp)
  | j + 1, r :: rs, x, hg, hx, hl, hc => by
    rw [good_cons, Bool.and_eq_true, Bool.and_eq_true] at hg
    obtain ⟨⟨h0, h1⟩, h2⟩ := hg
    by_cases hr : dot p r x = 0
    · match x, hx with
      | y :: x, hx =>
        match r, hl r List.mem_cons_self, hr, h0, h1, hl, hc with
        | a :: r, hrl, hr, h0, h1, hl, hc =>
          have hx := Nat.succ.inj hx
          have hrl := Nat.succ.inj hrl
          have hrs : ∀ s ∈ rs, s.length = j + 1 := fun s hs => hl s (List.mem_cons_of_mem _ hs)
          rw [List.countP_cons_of_pos (by simpa using hr)] at hc
          have hx0 : ∀ z ∈ x, z = 0 := by
            refine good_sound p hp j (rs.map (reduce p (a :: r))) x h1 hx ?_ ?_
            · intro s hs
              obtain ⟨t, ht, rfl⟩ := List.mem_map.mp hs
              exact length_reduce p j _ _ (by simpa using hrl) (hrs t ht)
            · rw [List.countP_map]
              refine Nat.le_trans (Nat.le_of_succ_le_succ hc) ?_
              apply List.countP_mono_left
              intro s hs hz
              have hz := of_decide_eq_true hz
              match s, hrs s hs, hz with
              | b :: s, hsl, hz =>
                exact decide_eq_true (dot_reduce p hp a b y r s x (by omega) (by have := Nat.succ.inj hsl; omega) hr hz)
          intro z hz
          rcases List.mem_cons.mp hz with rfl | hz
          · refine gmul_eq_zero hp (of_decide_eq_true h0) ?_
            have := hr
            unfold dot at this
            rw [dot_zero p r x hx0] at this
            exact BitVec.xor_zero.symm.trans this
          · exact hx0 z hz
    · rw [List.countP_cons_of_neg (by simpa using hr)] at hc
      exact good_sound p hp (j + 1) rs x h2 hx (fun s hs => hl s (List.mem_cons_of_mem _ hs)) hc

/-- The elements of a list at the places marked. -/
def pick {α : Type} : List Bool → List α → List α
  | true :: m, a :: l => a :: pick m l
  | false :: m, _ :: l => pick m l
  | _, _ => []

/-- All lists of `n` marks. -/
def masks : Nat → List (List Bool)
  | 0 => [[]]
  | n + 1 => (masks n).flatMap fun m => [true :: m, false :: m]

theorem mem_masks : ∀ m : List Bool, m ∈ masks m.length
  | [] => List.mem_cons_self
  | b :: m => by
    show b :: m ∈ (masks m.length).flatMap fun m => [true :: m, false :: m]
    refine List.mem_flatMap.mpr ⟨m, mem_masks m, ?_⟩
    cases b <;> simp

/-- Every square submatrix is regular: for each choice of columns. -/
def mds (p : Byte) (n : Nat) (rows : List (List Byte)) : Bool :=
  (masks n).all fun m => good p (m.count true) (rows.map (pick m))

theorem length_pick {α : Type} : ∀ (m : List Bool) (l : List α), m.length = l.length → (pick m l).length = m.count true
  | [], [], _ => rfl
  | true :: m, a :: l, h => by
    show (pick m l).length + 1 = _
    rw [length_pick m l (Nat.succ.inj h)]
    simp
  | false :: m, a :: l, h => by
    show (pick m l).length = _
    rw [length_pick m l (Nat.succ.inj h)]
    simp

/-- The places of the elements that are not zero. -/
def support (x : List Byte) : List Bool := x.map fun y => decide (y ≠ 0)

theorem dot_pick (p : Byte) : ∀ r x : List Byte, r.length = x.length → dot p (pick (support x) r) (pick (support x) x) = dot p r x
  | [], [], _ => rfl
  | a :: r, y :: x, h => by
    have ih := dot_pick p r x (Nat.succ.inj h)
    by_cases hy : y = 0
    · have e : support (y :: x) = false :: support x := by unfold support; simp [hy]
      rw [e]
      show dot p (pick (support x) r) (pick (support x) x) = gmul p a y ^^^ dot p r x
      rw [ih, hy, gmul_zero_right]
      exact BitVec.zero_xor.symm
    · have e : support (y :: x) = true :: support x := by unfold support; rw [List.map_cons, decide_eq_true hy]
      rw [e]
      show gmul p a y ^^^ dot p (pick (support x) r) (pick (support x) x) = gmul p a y ^^^ dot p r x
      rw [ih]

theorem pick_support : ∀ x : List Byte, ∀ y ∈ pick (support x) x, y ≠ 0
  | [], _, h => by cases h
  | z :: x, y, h => by
    by_cases hz : z = 0
    · have e : support (z :: x) = false :: support x := by unfold support; simp [hz]
      rw [e] at h
      exact pick_support x y h
    · have e : support (z :: x) = true :: support x := by unfold support; rw [List.map_cons, decide_eq_true hz]
      rw [e] at h
      rcases List.mem_cons.mp h with rfl | h
      · exact hz
      · exact pick_support x y h

theorem count_support (x : List Byte) : (support x).count true = x.countP fun y => decide (y ≠ 0) := by
  unfold support
  rw [List.count_eq_countP, List.countP_map]
  apply List.countP_congr
  intro y _
  simp

/-- Fewer rows vanish on a vector than it has elements other than zero. -/
theorem mds_sound (p : Byte) (hp : IsField p) (n : Nat) (rows : List (List Byte)) (h : mds p n rows = true) (hl : ∀ r ∈ rows, r.length = n)
    (x : List Byte) (hx : x.length = n) (h0 : x.countP (fun y => decide (y ≠ 0)) ≠ 0) :
    rows.countP (fun r => decide (dot p r x = 0)) < x.countP (fun y => decide (y ≠ 0)) := by
  apply Nat.lt_of_not_le
  intro hc
  have hs : (support x).length = n := by unfold support; rw [List.length_map, hx]
  have hg := List.all_eq_true.mp h (support x) (by rw [← hs]; exact mem_masks _)
  have hz := good_sound p hp _ _ (pick (support x) x) hg (length_pick _ _ (by rw [hs, hx]))
    (by
      intro r hr
      obtain ⟨s, hs', rfl⟩ := List.mem_map.mp hr
      exact length_pick _ _ (by rw [hs, hl s hs']))
    (by
      rw [List.countP_map, count_support]
      refine Nat.le_trans hc ?_
      apply List.countP_mono_left
      intro r hr hd
      have hd := of_decide_eq_true hd
      exact decide_eq_true ((dot_pick p r x (by rw [hl r hr, hx])).trans hd))
  apply h0
  rw [← count_support, ← length_pick (support x) x (by rw [hs, hx])]
  match hpk : pick (support x) x with
  | [] => rfl
  | y :: l =>
    have hm : y ∈ pick (support x) x := by rw [hpk]; exact List.mem_cons_self
    exact absurd (hz y hm) (pick_support x y hm)

end Digestpp.Proofs.Wide
