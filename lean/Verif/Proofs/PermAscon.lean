import Verif.Proofs.Perm
import Verif.Proofs.AsconCore

/-! C56: the Ascon permutation. -/

namespace Digestpp.Proofs.Perm

/-- `1 + z^a + z^b` as a map of words; its square doubles the rotations. -/
def tri {w : Nat} (a b : Nat) (x : BitVec w) : BitVec w := x ^^^ x.rotateLeft a ^^^ x.rotateLeft b

theorem tri_tri {w : Nat} (a b : Nat) (x : BitVec w) : tri a b (tri a b x) = tri (2 * a) (2 * b) x := by
  unfold tri
  rw [rotl_xor, rotl_xor, rotl_xor, rotl_xor, rotl_rotl, rotl_rotl, rotl_rotl, rotl_rotl, Nat.add_comm b a, ← Nat.two_mul, ← Nat.two_mul]
  generalize x.rotateLeft a = p
  generalize x.rotateLeft b = q
  generalize x.rotateLeft (a + b) = r
  generalize x.rotateLeft (2 * a) = s
  generalize x.rotateLeft (2 * b) = t
  apply BitVec.eq_of_getLsbD_eq
  intro i _
  simp only [BitVec.getLsbD_xor]
  generalize x.getLsbD i = x
  generalize p.getLsbD i = p
  generalize q.getLsbD i = q
  generalize r.getLsbD i = r
  generalize s.getLsbD i = s
  generalize t.getLsbD i = t
  revert x p q r s t
  decide

theorem tri_zero {w : Nat} (a b : Nat) (ha : a % w = 0) (hb : b % w = 0) (x : BitVec w) : tri a b x = x := by
  unfold tri
  rw [rotl_mod x a ha, rotl_mod x b hb, BitVec.xor_self, BitVec.zero_xor]

theorem tri_inj64 (a b : Nat) {x y : BitVec 64} (h : tri a b x = tri a b y) : x = y := by
  have s : ∀ a b, tri a b x = tri a b y → tri (2 * a) (2 * b) x = tri (2 * a) (2 * b) y := fun a b h => by
    rw [← tri_tri, ← tri_tri, h]
  have e := s _ _ (s _ _ (s _ _ (s _ _ (s _ _ (s _ _ h)))))
  rwa [tri_zero _ _ (by omega) (by omega), tri_zero _ _ (by omega) (by omega)] at e

theorem rotr_rotl {w : Nat} (x : BitVec w) (r : Nat) (hr : r < w) : x.rotateRight r = x.rotateLeft (w - r) := by
  apply BitVec.eq_of_getLsbD_eq
  intro i hi
  rw [bit_rotl _ _ _ hi, BitVec.getLsbD_rotateRight, Nat.mod_eq_of_lt hr]
  by_cases h0 : r = 0
  · subst h0
    simp only [Nat.sub_zero, Nat.mod_self, decide_eq_true hi, cond_true, Nat.zero_add, Nat.add_mod_right, Nat.mod_eq_of_lt hi]
  rw [Nat.mod_eq_of_lt (show w - r < w by omega), show w - (w - r) = r by omega]
  by_cases h : i < w - r
  · rw [decide_eq_true h, cond_true, Nat.mod_eq_of_lt (show i + r < w by omega), Nat.add_comm]
  · rw [decide_eq_false h, cond_false, decide_eq_true hi, Bool.true_and, show i + r = i - (w - r) + w by omega, Nat.add_mod_right,
      Nat.mod_eq_of_lt (show i - (w - r) < w by omega)]

namespace Ascon
open Spec Spec.Ascon

theorem sbox_inj : ∀ a b c d e a' b' c' d' e' : Bool,
    (sbox (num a b c d e)).testBit 4 = (sbox (num a' b' c' d' e')).testBit 4 →
    (sbox (num a b c d e)).testBit 3 = (sbox (num a' b' c' d' e')).testBit 3 →
    (sbox (num a b c d e)).testBit 2 = (sbox (num a' b' c' d' e')).testBit 2 →
    (sbox (num a b c d e)).testBit 1 = (sbox (num a' b' c' d' e')).testBit 1 →
    (sbox (num a b c d e)).testBit 0 = (sbox (num a' b' c' d' e')).testBit 0 →
    a = a' ∧ b = b' ∧ c = c' ∧ d = d' ∧ e = e' := by decide +kernel

theorem subst_inj (s t : State) (h : subst s = subst t) : s = t := by
  have bit : ∀ j, j < 64 → s.s0.getLsbD j = t.s0.getLsbD j ∧ s.s1.getLsbD j = t.s1.getLsbD j ∧ s.s2.getLsbD j = t.s2.getLsbD j ∧
      s.s3.getLsbD j = t.s3.getLsbD j ∧ s.s4.getLsbD j = t.s4.getLsbD j := by
    intro j hj
    have g : ∀ f g : Nat → Bool, ofBits 64 f = ofBits 64 g → f j = g j := by
      intro f g e
      have := congrArg (fun z => z.getLsbD j) e
      simpa only [getLsbD_ofBits, decide_eq_true hj, Bool.true_and] using this
    unfold subst at h
    dsimp only at h
    injection h with h0 h1 h2 h3 h4
    exact sbox_inj _ _ _ _ _ _ _ _ _ _ (g _ _ h0) (g _ _ h1) (g _ _ h2) (g _ _ h3) (g _ _ h4)
  obtain ⟨s0, s1, s2, s3, s4⟩ := s
  obtain ⟨t0, t1, t2, t3, t4⟩ := t
  congr 1 <;> apply BitVec.eq_of_getLsbD_eq <;> intro j hj
  · exact (bit j hj).1
  · exact (bit j hj).2.1
  · exact (bit j hj).2.2.1
  · exact (bit j hj).2.2.2.1
  · exact (bit j hj).2.2.2.2

theorem linear_inj (s t : State) (h : linear s = linear t) : s = t := by
  unfold linear at h
  simp only [rotr_rotl _ _ (show 19 < 64 by decide), rotr_rotl _ _ (show 28 < 64 by decide), rotr_rotl _ _ (show 61 < 64 by decide),
    rotr_rotl _ _ (show 39 < 64 by decide), rotr_rotl _ _ (show 1 < 64 by decide), rotr_rotl _ _ (show 6 < 64 by decide),
    rotr_rotl _ _ (show 10 < 64 by decide), rotr_rotl _ _ (show 17 < 64 by decide), rotr_rotl _ _ (show 7 < 64 by decide),
    rotr_rotl _ _ (show 41 < 64 by decide)] at h
  injection h with h0 h1 h2 h3 h4
  obtain ⟨s0, s1, s2, s3, s4⟩ := s
  obtain ⟨t0, t1, t2, t3, t4⟩ := t
  congr 1
  · exact tri_inj64 _ _ h0
  · exact tri_inj64 _ _ h1
  · exact tri_inj64 _ _ h2
  · exact tri_inj64 _ _ h3
  · exact tri_inj64 _ _ h4

theorem addConst_inj (i : Nat) (s t : State) (h : addConst i s = addConst i t) : s = t := by
  obtain ⟨s0, s1, s2, s3, s4⟩ := s
  obtain ⟨t0, t1, t2, t3, t4⟩ := t
  unfold addConst at h
  injection h with h0 h1 h2 h3 h4
  dsimp only at h0 h1 h2 h3 h4
  rw [h0, h1, h3, h4, xor_left_inj rfl h2]

theorem p12_inj (s t : State) (h : p12 s = p12 t) : s = t := by
  have : ∀ (l : List Nat) (s t : State), l.foldl (fun s i => linear (subst (addConst i s))) s = l.foldl (fun s i => linear (subst (addConst i s))) t →
      s = t := by
    intro l
    induction l with
    | nil => exact fun _ _ h => h
    | cons i l ih => exact fun s t h => addConst_inj i _ _ (subst_inj _ _ (linear_inj _ _ (ih _ _ h)))
  exact this _ s t h

theorem arr_of (A : List (BitVec 64)) (h : A.length = 5) : ∃ s, A = Ascon.arr s := by
  match A, h with
  | [a, b, c, d, e], _ => exact ⟨⟨a, b, c, d, e⟩, rfl⟩

theorem permutes : Permutes 5 fun H => (List.range 12).foldl Model.Ascon.round H := by
  apply of_inj
  · intro A h
    obtain ⟨s, rfl⟩ := arr_of A h
    rw [Proofs.Ascon.rounds_eq]
    rfl
  · intro A B hA hB h
    obtain ⟨s, rfl⟩ := arr_of A hA
    obtain ⟨t, rfl⟩ := arr_of B hB
    rw [Proofs.Ascon.rounds_eq, Proofs.Ascon.rounds_eq] at h
    have : p12 s = p12 t := by
      generalize p12 s = u at h
      generalize p12 t = v at h
      obtain ⟨u0, u1, u2, u3, u4⟩ := u
      obtain ⟨v0, v1, v2, v3, v4⟩ := v
      unfold Proofs.Ascon.arr at h
      simp only [List.cons.injEq, and_true] at h
      obtain ⟨rfl, rfl, rfl, rfl, rfl⟩ := h
      rfl
    rw [p12_inj s t this]

end Ascon
end Digestpp.Proofs.Perm
