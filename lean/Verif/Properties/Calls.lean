import Verif.Model.Calls
import Verif.Properties.Overloads
import Verif.Model.Md5

/-! C68, what selected functions do with arrays of characters, with sequences of integers and with arrays as output iterators. -/

namespace Digestpp.Properties
open Spec.Cpp Model

theorem takeWhile_of_all (p : Byte → Bool) : (l : Bytes) → l.all p = true → l.takeWhile p = l
  | [], _ => rfl
  | a :: l, h => by
    simp only [List.all_cons, Bool.and_eq_true] at h
    rw [List.takeWhile_cons, if_pos h.1, takeWhile_of_all p l h.2]

theorem takeWhile_zero : (s : Bytes) → (s ++ [0]).takeWhile (· != 0) = s.takeWhile (· != 0)
  | [] => rfl
  | a :: s => by
    rw [List.cons_append, List.takeWhile_cons, List.takeWhile_cons, takeWhile_zero s]

theorem takeWhile_nonzero : (s : Bytes) → 0 ∉ s.takeWhile (· != 0)
  | [] => by simp
  | a :: s => by
    rw [List.takeWhile_cons]
    split
    · rename_i h
      intro hm
      rcases List.mem_cons.1 hm with e | hm
      · rw [← e] at h; simp at h
      · exact takeWhile_nonzero s hm
    · simp

/-- **C68**: an array of `char` selects the function for strings (in every version of C++), so a string literal with contents `s` is absorbed up to its first zero. -/
theorem literal_absorbed {S : Type} (update : Bytes → S → M S) (s : Bytes) (st : S) (v : Version) (n : Nat) :
    Model.Overloads.absorb v [{ ty := .arr true .char n }] = .calls .string ∧
    absorbCharArray update (s ++ [0]) st = absorb update (.str (s.takeWhile (· != 0))) st ∧ (s.takeWhile (· != 0) = s ↔ 0 ∉ s) := by
  refine ⟨(absorb_selects v _ _).2 (.string (.inr (.inl (.inr ⟨true, n, rfl⟩)))), ?_, ?_⟩
  · unfold absorbCharArray cString
    rw [if_neg (by simp)]
    have e : (s ++ [0]).takeWhile (· != 0) = s.takeWhile (· != 0) := takeWhile_zero s
    rw [e]
    rfl
  · constructor
    · intro h hm
      exact takeWhile_nonzero s (by rw [h]; exact hm)
    · intro h
      exact takeWhile_of_all _ s (by
        rw [List.all_eq_true]
        intro x hx
        simp only [bne_iff_ne, ne_eq]
        rintro rfl
        exact h hx)

/-- **C68**: an array of `char` without a zero is read beyond its end. -/
theorem char_array_overrun {S : Type} (update : Bytes → S → M S) (mem : Bytes) (st : S) (h : 0 ∉ mem) : absorbCharArray update mem st = .error .outOfBounds := by
  unfold absorbCharArray cString
  rw [if_pos (by
    rw [List.all_eq_true]
    intro x hx
    simp only [bne_iff_ne, ne_eq]
    rintro rfl
    exact h hx)]
  rfl

/-- **C68**: arrays of the other byte types are not taken for strings. -/
theorem other_arrays_rejected (v : Version) (c : Bool) (t : Ty) (n : Nat) (ht : t ≠ .char) : Model.Overloads.absorb v [{ ty := .arr c t n }] = .noMatch := by
  rcases absorb_outcomes v [{ ty := .arr c t n }] with h | h | ⟨f, h⟩
  · exact h
  · rw [absorb_one] at h
    simp only at h
    split at h <;> simp at h
  · exfalso
    cases (absorb_selects v _ f).1 h with
    | array _ e => cases e
    | basicString _ _ e => cases e
    | stream _ e => cases e
    | string hs =>
      rcases hs with e | (⟨c', e⟩ | ⟨c', n', e⟩) | ⟨_, e | ⟨_, e⟩⟩
      · cases e
      · cases e
      · simp only [Ty.arr.injEq] at e
        exact ht e.2.1
      · cases e
      · cases e

/-- **C68**: of integers given by iterators only the lowest eight bits count, in any class. -/
theorem integers_truncated {S : Type} (update : Bytes → S → M S) (xs ys : List Int) (s : S) (h : xs.map (· % 256) = ys.map (· % 256)) : absorbIntegers update xs s = absorbIntegers update ys s := by
  unfold absorbIntegers
  have e : xs.map elementByte = ys.map elementByte := by
    have f : ∀ x : Int, elementByte x = BitVec.ofInt 8 (x % 256) := by
      intro x
      apply BitVec.eq_of_toInt_eq
      simp only [elementByte, BitVec.toInt_ofInt]
      exact (Int.emod_bmod x 256).symm
    have g : ∀ l : List Int, l.map elementByte = (l.map (· % 256)).map (BitVec.ofInt 8) := by
      intro l
      rw [List.map_map]
      exact List.map_congr_left fun x _ => f x
    rw [g, g, h]
  rw [e]

/-- Different sequences with the same digest: 256 and 0. -/
example {S : Type} (update : Bytes → S → M S) (s : S) : absorbIntegers update [256, -1] s = absorbIntegers update [0, 255] s := integers_truncated update _ _ s (by decide)

/-- **C68**: `digest(buf)` for an array selects the function for iterators, which does not know the size of the array: it writes beyond it exactly if the array is smaller than the digest.
`digest(buf, size)` throws then. -/
theorem digest_array_unchecked {S P : Type} (pr : HashProvider S P) (buf : Bytes) (s : S) (hash : Bytes) (h : pr.digestIt s = .ok hash) (v : Version) :
    Model.Overloads.digest v false [{ ty := .arr false .uchar buf.length }] = .calls .iterator ∧ hash.length = pr.hashSize s / 8 ∧
    (pr.digestArray buf s = .error .outOfBounds ↔ buf.length < hash.length) ∧ (buf.length < hash.length → pr.digestBuf buf s = .ok .threw) := by
  have hl : hash.length = pr.hashSize s / 8 := by
    unfold HashProvider.digestIt at h
    dsimp only at h
    split at h
    · simp [bind, Except.bind, throw, throwThe, MonadExceptOf.throw] at h
    · cases hf : pr.final s with
      | error e => rw [hf] at h; simp [bind, Except.bind] at h
      | ok out =>
        rw [hf] at h
        simp only [bind, Except.bind, pure, Except.pure, memcpyTo] at h
        split at h
        · rename_i hle
          have := Except.ok.inj h
          rw [← this]
          simp at hle ⊢
          omega
        · simp at h
  refine ⟨((digest_outcomes v false _).1 _).2 ⟨rfl, .iterator ⟨.uchar, .inr (.inr (.inl rfl)), .inr (.inr (.inr ⟨_, rfl⟩))⟩, fun e => by simp at e⟩, hl, ?_, ?_⟩
  · unfold HashProvider.digestArray
    rw [h]
    simp only [bind, Except.bind, memcpyTo]
    split
    · simp; omega
    · simp; omega
  · intro hlt
    unfold HashProvider.digestBuf
    rw [if_pos (by omega)]
    rfl

end Digestpp.Properties
