import Verif.Proofs.KeccakPad
import Verif.Proofs.Numeral

/-! Padded strings determine what was padded. -/

namespace Digestpp.Proofs
open Model Spec

/-- Zeros at the end and a nonzero byte before them can be recognized. -/
theorem zeros_inj {a a' : Bytes} {d d' : Byte} {z z' : Nat} (hd : d ≠ 0) (hd' : d' ≠ 0)
    (h : a ++ [d] ++ List.replicate z 0 = a' ++ [d'] ++ List.replicate z' 0) : a = a' ∧ d = d' ∧ z = z' := by
  have hr := congrArg List.reverse h
  simp only [List.reverse_append, List.reverse_replicate, List.reverse_singleton, ← List.append_assoc] at hr
  clear h
  induction z generalizing z' with
  | zero =>
    cases z' with
    | zero =>
      simp only [List.replicate_zero, List.nil_append, List.singleton_append, List.cons.injEq, List.reverse_inj] at hr
      exact ⟨hr.2, hr.1, rfl⟩
    | succ z' =>
      rw [List.replicate_succ] at hr
      simp only [List.replicate_zero, List.nil_append, List.cons_append, List.cons.injEq] at hr
      exact absurd hr.1 hd
  | succ z ih =>
    cases z' with
    | zero =>
      rw [List.replicate_succ] at hr
      simp only [List.replicate_zero, List.nil_append, List.cons_append, List.cons.injEq] at hr
      exact absurd hr.1.symm hd'
    | succ z' =>
      rw [List.replicate_succ, List.replicate_succ] at hr
      simp only [List.cons_append, List.cons.injEq, true_and] at hr
      obtain ⟨e1, e2, e3⟩ := ih hr
      exact ⟨e1, e2, by omega⟩

/-- Merkle–Damgård padding with a field of fixed length can be removed, whatever the field says. -/
theorem mdPad_inj {bs : Nat} {f f' msg msg' : Bytes} (hf : f.length = f'.length) (h : mdPad bs f msg = mdPad bs f' msg') : msg = msg' := by
  unfold mdPad at h
  exact (zeros_inj (by decide) (by decide) (List.append_inj' h hf).1).1

/-- A string is determined by its complete blocks if it consists of them. -/
theorem flatten_chunks {α : Type} (n : Nat) (l : List α) (h : l.length % n = 0) : (chunks n l).flatten = l := by
  rcases Nat.eq_zero_or_pos n with h0 | h0
  · subst h0
    rw [Nat.mod_zero] at h
    rw [List.length_eq_zero_iff.mp h]; simp [chunks]
  · obtain ⟨k, hk⟩ : ∃ k, l.length = n * k := ⟨l.length / n, by have := Nat.div_add_mod l.length n; omega⟩
    clear h
    induction k generalizing l with
    | zero => rw [List.length_eq_zero_iff.mp (by omega : l.length = 0)]; simp [chunks]
    | succ k ih =>
      rw [Nat.mul_add, Nat.mul_one] at hk
      conv => lhs; rw [← List.take_append_drop n l]
      rw [Keccak.chunks_cons n h0 _ _ (by rw [List.length_take]; omega), List.flatten_cons,
        ih _ (by rw [List.length_drop]; omega), List.take_append_drop]

theorem chunks_inj {α : Type} {n : Nat} {l l' : List α} (h1 : l.length % n = 0) (h2 : l'.length % n = 0)
    (h : chunks n l = chunks n l') : l = l' := by
  rw [← flatten_chunks n l h1, h, flatten_chunks n l' h2]

namespace Keccak

theorem xorLast_xorLast (p : Bytes) : Spec.Keccak.xorLast (Spec.Keccak.xorLast p) = p := by
  unfold Spec.Keccak.xorLast
  rw [List.length_set]
  rcases Nat.eq_zero_or_pos p.length with h | h
  · rw [List.length_eq_zero_iff.mp h]; rfl
  · rw [List.set_set]
    apply List.ext_getElem (by simp)
    intro i h1 h2
    rw [List.getElem_set]
    split
    · rename_i e
      subst e
      rw [List.getD_eq_getElem?_getD, List.getElem?_set_self (by omega), Option.getD_some, List.getD_eq_getElem?_getD,
        List.getElem?_eq_getElem (by omega), Option.getD_some]
      rw [BitVec.xor_assoc, BitVec.xor_self, BitVec.xor_zero]
    · rfl

theorem padD_inj {r : Nat} {d d' : Byte} {msg msg' : Bytes} (hd : d ≠ 0) (hd' : d' ≠ 0)
    (h : Spec.Keccak.padD r d msg = Spec.Keccak.padD r d' msg') : msg = msg' ∧ d = d' := by
  unfold Spec.Keccak.padD at h
  have h := congrArg Spec.Keccak.xorLast h
  rw [xorLast_xorLast, xorLast_xorLast] at h
  obtain ⟨h1, h2, _⟩ := zeros_inj hd hd' h
  exact ⟨h1, h2⟩

theorem length_padD (r : Nat) (hr : 0 < r) (d : Byte) (msg : Bytes) : (Spec.Keccak.padD r d msg).length % r = 0 := by
  unfold Spec.Keccak.padD Spec.Keccak.xorLast
  simp only [List.length_set, List.length_append, List.length_singleton, List.length_replicate]
  have hlt := Nat.mod_lt (msg.length + 1) hr
  rcases Nat.eq_zero_or_pos ((msg.length + 1) % r) with h0 | h0
  · rw [h0, Nat.sub_zero, Nat.mod_self, Nat.add_zero]; exact h0
  · rw [Nat.mod_eq_of_lt (by omega : r - (msg.length + 1) % r < r)]
    have e := Nat.div_add_mod (msg.length + 1) r
    rw [show msg.length + 1 + (r - (msg.length + 1) % r) = r * ((msg.length + 1) / r) + r by omega,
      Nat.add_mod_right, Nat.mul_mod_right]

/-- `bytepad` can be removed if what is padded can be cut from what follows. -/
theorem bytepadFull_inj {r : Nat} {x x' a a' : Bytes} (hl : x.length = x'.length)
    (h : Spec.Keccak.bytepadFull x r ++ a = Spec.Keccak.bytepadFull x' r ++ a') : x = x' ∧ a = a' := by
  unfold Spec.Keccak.bytepadFull at h
  dsimp only at h
  obtain ⟨h1, h2⟩ := List.append_inj h (by simp only [List.length_append, List.length_replicate, hl])
  obtain ⟨h3, _⟩ := List.append_inj h1 (by simp only [List.length_append, hl])
  exact ⟨(List.append_inj h3 rfl).2, h2⟩

theorem bytepad_inj {r : Nat} {x x' a a' : Bytes} (hl : x.length = x'.length)
    (h : Spec.Keccak.bytepad x r ++ a = Spec.Keccak.bytepad x' r ++ a') : x = x' ∧ a = a' := by
  unfold Spec.Keccak.bytepad at h
  dsimp only at h
  obtain ⟨h1, h2⟩ := List.append_inj h (by simp only [List.length_append, List.length_replicate, hl])
  obtain ⟨h3, _⟩ := List.append_inj h1 (by simp only [List.length_append, hl])
  exact ⟨(List.append_inj h3 rfl).2, h2⟩

theorem encodeString_inj {s s' a a' : Bytes} (hs : s.length < 2 ^ 61) (hs' : s'.length < 2 ^ 61)
    (h : Spec.Keccak.encodeString s ++ a = Spec.Keccak.encodeString s' ++ a') : s = s' ∧ a = a' := by
  unfold Spec.Keccak.encodeString at h
  rw [List.append_assoc, List.append_assoc] at h
  obtain ⟨h1, h2⟩ := Encode.leftEncode_inj (by omega) (by omega) h
  exact List.append_inj h2 (by omega)

/-- Function name and customization can be recovered, and what follows. -/
theorem prefix_inj {r : Nat} {N S N' S' a a' : Bytes} (hN : N.length < 2 ^ 61) (hS : S.length < 2 ^ 61) (hN' : N'.length < 2 ^ 61)
    (hS' : S'.length < 2 ^ 61)
    (h : Spec.Keccak.bytepadFull (Spec.Keccak.encodeString N ++ Spec.Keccak.encodeString S) r ++ a
      = Spec.Keccak.bytepadFull (Spec.Keccak.encodeString N' ++ Spec.Keccak.encodeString S') r ++ a') : N = N' ∧ S = S' ∧ a = a' := by
  have h0 := h
  unfold Spec.Keccak.bytepadFull at h0
  dsimp only at h0
  simp only [List.append_assoc] at h0
  obtain ⟨_, h1⟩ := List.append_inj h0 rfl
  obtain ⟨e1, h2⟩ := encodeString_inj hN hN' h1
  obtain ⟨e2, _⟩ := encodeString_inj hS hS' h2
  subst e1; subst e2
  exact ⟨rfl, rfl, (bytepadFull_inj rfl h).2⟩

/-- The key can be recovered, and what follows. -/
theorem key_inj {r : Nat} {K K' a a' : Bytes} (hK : K.length < 2 ^ 61) (hK' : K'.length < 2 ^ 61)
    (h : Spec.Keccak.bytepad (Spec.Keccak.encodeString K) r ++ a = Spec.Keccak.bytepad (Spec.Keccak.encodeString K') r ++ a') :
    K = K' ∧ a = a' := by
  have h0 := h
  unfold Spec.Keccak.bytepad at h0
  dsimp only at h0
  rw [List.append_assoc, List.append_assoc, List.append_assoc, List.append_assoc] at h0
  obtain ⟨_, h1⟩ := List.append_inj h0 rfl
  obtain ⟨e1, h2⟩ := encodeString_inj hK hK' h1
  subst e1
  exact ⟨rfl, (bytepad_inj rfl h).2⟩

end Keccak
end Digestpp.Proofs
