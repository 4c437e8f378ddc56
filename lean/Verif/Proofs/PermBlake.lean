import Verif.Proofs.PermMd
import Verif.Proofs.SkeinCore
import Verif.Model.Blake
import Verif.Model.Blake2

/-! C56: the rounds of BLAKE and BLAKE2, for each block. -/

namespace Digestpp.Proofs.Perm.Blake
open Spec Model
open Model.Blake (Quad atQuad)
open Proofs.Skein (getD_set)

variable {w : Nat}

theorem atQuad_permutes (g : Quad w → Quad w) (hg : ∀ p q, g p = g q → p = q) (ia ib ic id n : Nat) (ha : ia < n) (hb : ib < n) (hc : ic < n) (hd : id < n)
    (h1 : ia ≠ ib) (h2 : ia ≠ ic) (h3 : ia ≠ id) (h4 : ib ≠ ic) (h5 : ib ≠ id) (h6 : ic ≠ id) : Permutes n (atQuad g ia ib ic id) := by
  apply of_inj
  · intro A hA
    unfold atQuad
    simpa using hA
  intro A B hA hB h
  have e : ∀ C : List (BitVec w), C.length = n → ∀ j, (atQuad g ia ib ic id C).getD j 0
      = if j = id then (g ⟨C.getD ia 0, C.getD ib 0, C.getD ic 0, C.getD id 0⟩).d
        else if j = ic then (g ⟨C.getD ia 0, C.getD ib 0, C.getD ic 0, C.getD id 0⟩).c
        else if j = ib then (g ⟨C.getD ia 0, C.getD ib 0, C.getD ic 0, C.getD id 0⟩).b
        else if j = ia then (g ⟨C.getD ia 0, C.getD ib 0, C.getD ic 0, C.getD id 0⟩).a else C.getD j 0 := by
    intro C hC j
    unfold atQuad
    dsimp only
    rw [getD_set _ _ _ _ _ (by simp only [List.length_set]; omega), getD_set _ _ _ _ _ (by simp only [List.length_set]; omega),
      getD_set _ _ _ _ _ (by simp only [List.length_set]; omega), getD_set _ _ _ _ _ (by omega)]
  have f := fun j => (e A hA j).symm.trans ((congrArg (fun l => l.getD j 0) h).trans (e B hB j))
  have fd := f id
  have fc := f ic
  have fb := f ib
  have fa := f ia
  rw [if_pos rfl, if_pos rfl] at fd
  rw [if_neg h6, if_neg h6, if_pos rfl, if_pos rfl] at fc
  rw [if_neg h5, if_neg h5, if_neg h4, if_neg h4, if_pos rfl, if_pos rfl] at fb
  rw [if_neg h3, if_neg h3, if_neg h2, if_neg h2, if_neg h1, if_neg h1, if_pos rfl, if_pos rfl] at fa
  have q : ∀ p q : Quad w, p.a = q.a → p.b = q.b → p.c = q.c → p.d = q.d → p = q := by
    rintro ⟨_, _, _, _⟩ ⟨_, _, _, _⟩ rfl rfl rfl rfl
    rfl
  have := hg _ _ (q _ _ fa fb fc fd)
  injection this with xa xb xc xd
  rw [← map_range_getD A 0 n hA, ← map_range_getD B 0 n hB]
  apply List.map_congr_left
  intro j _
  by_cases ja : j = ia
  · rw [ja, xa]
  by_cases jb : j = ib
  · rw [jb, xb]
  by_cases jc : j = ic
  · rw [jc, xc]
  by_cases jd : j = id
  · rw [jd, xd]
  have := f j
  rwa [if_neg jd, if_neg jd, if_neg jc, if_neg jc, if_neg jb, if_neg jb, if_neg ja, if_neg ja] at this

theorem round_permutes (g : Nat → Quad w → Quad w) (hg : ∀ i p q, g i p = g i q → p = q) : Permutes 16 (Model.Blake.round g) := by
  have a := fun i ia ib ic id (h : (ia < 16 ∧ ib < 16 ∧ ic < 16 ∧ id < 16) ∧ ia ≠ ib ∧ ia ≠ ic ∧ ia ≠ id ∧ ib ≠ ic ∧ ib ≠ id ∧ ic ≠ id) =>
    atQuad_permutes (g i) (hg i) ia ib ic id 16 h.1.1 h.1.2.1 h.1.2.2.1 h.1.2.2.2 h.2.1 h.2.2.1 h.2.2.2.1 h.2.2.2.2.1 h.2.2.2.2.2.1 h.2.2.2.2.2.2
  have h := comp (comp (comp (comp (comp (comp (comp (a 0 0 4 8 12 (by decide)) (a 1 1 5 9 13 (by decide))) (a 2 2 6 10 14 (by decide)))
    (a 3 3 7 11 15 (by decide))) (a 4 0 5 10 15 (by decide))) (a 5 1 6 11 12 (by decide))) (a 6 2 7 8 13 (by decide))) (a 7 3 4 9 14 (by decide))
  exact h

/-- The common part of the two functions `G`. -/
theorem quad_inj (R1 R2 R3 R4 : BitVec w → BitVec w) (i1 : ∀ x y, R1 x = R1 y → x = y) (i2 : ∀ x y, R2 x = R2 y → x = y)
    (i3 : ∀ x y, R3 x = R3 y → x = y) (i4 : ∀ x y, R4 x = R4 y → x = y) (m n : BitVec w) (p q : Quad w)
    (h : (let a := p.a + p.b + m
      let d := R1 (p.d ^^^ a)
      let c := p.c + d
      let b := R2 (p.b ^^^ c)
      let a := a + b + n
      let d := R3 (d ^^^ a)
      let c := c + d
      let b := R4 (b ^^^ c)
      (⟨a, b, c, d⟩ : Quad w)) =
      (let a := q.a + q.b + m
      let d := R1 (q.d ^^^ a)
      let c := q.c + d
      let b := R2 (q.b ^^^ c)
      let a := a + b + n
      let d := R3 (d ^^^ a)
      let c := c + d
      let b := R4 (b ^^^ c)
      (⟨a, b, c, d⟩ : Quad w))) : p = q := by
  obtain ⟨a, b, c, d⟩ := p
  obtain ⟨a', b', c', d'⟩ := q
  dsimp only at h
  injection h with ha hb hc hd
  have b2 := xor_left_inj hc (i4 _ _ hb)
  have c2 := add_left_inj hd hc
  have d2 := xor_left_inj ha (i3 _ _ hd)
  have a2 := add_left_inj b2 (add_left_inj rfl ha)
  have b1 := xor_left_inj c2 (i2 _ _ b2)
  have c1 := add_left_inj d2 c2
  have d1 := xor_left_inj a2 (i1 _ _ d2)
  have a1 := add_left_inj b1 (add_left_inj rfl a2)
  rw [a1, b1, c1, d1]

theorem rotr_inj {w : Nat} (r : Nat) (hr : 0 < r ∧ r < w) (x y : BitVec w) (h : Model.rotr x r hr = Model.rotr y r hr) : x = y := by
  rw [rotr_eq, rotr_eq, rotr_rotl _ _ hr.2, rotr_rotl _ _ hr.2] at h
  exact rotl_inj h

theorem blake32 (M : List (BitVec 32)) (n : Nat) :
    Permutes 16 fun v => (List.range n).foldl (fun v r => Model.Blake.round (Model.Blake.G Model.Blake.u32 M r) v) v :=
  Perm.foldl (fun r v => Model.Blake.round (Model.Blake.G Model.Blake.u32 M r) v) _ fun r _ => round_permutes _ fun i p q h =>
    quad_inj _ _ _ _ (rotr_inj _ (by decide)) (rotr_inj _ (by decide)) (rotr_inj _ (by decide)) (rotr_inj _ (by decide)) _ _ p q h

theorem blake64 (M : List (BitVec 64)) (n : Nat) :
    Permutes 16 fun v => (List.range n).foldl (fun v r => Model.Blake.round (Model.Blake.G Model.Blake.u64 M r) v) v :=
  Perm.foldl (fun r v => Model.Blake.round (Model.Blake.G Model.Blake.u64 M r) v) _ fun r _ => round_permutes _ fun i p q h =>
    quad_inj _ _ _ _ (rotr_inj _ (by decide)) (rotr_inj _ (by decide)) (rotr_inj _ (by decide)) (rotr_inj _ (by decide)) _ _ p q h

theorem blake2s (M : List (BitVec 32)) (n : Nat) :
    Permutes 16 fun v => (List.range n).foldl (fun v r => Model.Blake.round (Model.Blake2.G Model.Blake2.u32 M r) v) v :=
  Perm.foldl (fun r v => Model.Blake.round (Model.Blake2.G Model.Blake2.u32 M r) v) _ fun r _ => round_permutes _ fun i p q h =>
    quad_inj _ _ _ _ (rotr_inj _ (by decide)) (rotr_inj _ (by decide)) (rotr_inj _ (by decide)) (rotr_inj _ (by decide)) _ _ p q h

theorem blake2b (M : List (BitVec 64)) (n : Nat) :
    Permutes 16 fun v => (List.range n).foldl (fun v r => Model.Blake.round (Model.Blake2.G Model.Blake2.u64 M r) v) v :=
  Perm.foldl (fun r v => Model.Blake.round (Model.Blake2.G Model.Blake2.u64 M r) v) _ fun r _ => round_permutes _ fun i p q h =>
    quad_inj _ _ _ _ (rotr_inj _ (by decide)) (rotr_inj _ (by decide)) (rotr_inj _ (by decide)) (rotr_inj _ (by decide)) _ _ p q h

end Digestpp.Proofs.Perm.Blake
