import Verif.Proofs.Encode
import Verif.Proofs.K12
import Verif.Proofs.LeWords

/-! Numerals of least length, and how they are told apart. -/

namespace Digestpp.Proofs
open Model Spec

theorem leNat_lt (b : Bytes) : leNat b < 256 ^ b.length := by
  induction b with
  | nil => decide
  | cons x b ih =>
    have := x.isLt
    simp only [leNat, List.length_cons, Nat.pow_succ]
    omega

theorem beNat_lt (b : Bytes) : beNat b < 256 ^ b.length := by
  have := leNat_lt b.reverse
  rwa [List.length_reverse] at this

theorem beNat_beBytes (n x : Nat) : beNat (beBytes n x) = x % 256 ^ n := by
  unfold beNat beBytes; rw [List.reverse_reverse, leNat_leBytes]

namespace Encode
open Spec.Keccak (byteCount)

theorem lt_byteCount (x : Nat) : x < 256 ^ byteCount x := by
  unfold byteCount
  by_cases hx : x = 0
  · subst hx; decide
  · have h : Nat.log2 x < 8 * (Nat.log2 x / 8 + 1) := by omega
    have := (Nat.log2_lt hx).mp h
    rwa [Nat.pow_mul] at this

theorem byteCount_min (x : Nat) (h : 1 < byteCount x) : 256 ^ (byteCount x - 1) ≤ x := by
  have hx : x ≠ 0 := by intro e; subst e; exact absurd h (by decide)
  have := Nat.log2_self_le hx
  refine Nat.le_trans ?_ this
  unfold byteCount
  rw [show (256 : Nat) = 2 ^ 8 by decide, ← Nat.pow_mul]
  exact Nat.pow_le_pow_right (by decide) (by omega)

/-- No numeral is shorter. -/
theorem byteCount_least (x : Nat) (b : Bytes) (h1 : 1 ≤ b.length) (h : beNat b = x) : byteCount x ≤ b.length := by
  rcases Nat.lt_or_ge 1 (byteCount x) with h2 | h2
  · have h3 := byteCount_min x h2
    have h4 := beNat_lt b
    rw [h] at h4
    have := (Nat.pow_lt_pow_iff_right (a := 256) (by decide)).mp (Nat.lt_of_le_of_lt h3 h4)
    omega
  · omega

theorem byteCount_pos (x : Nat) : 1 ≤ byteCount x := by unfold byteCount; omega

theorem beNat_min (x : Nat) : beNat (beBytes (byteCount x) x) = x := by
  rw [beNat_beBytes, Nat.mod_eq_of_lt (lt_byteCount x)]

theorem leftEncode_inj {x y : Nat} {a b : Bytes} (hx : x < 2 ^ 64) (hy : y < 2 ^ 64)
    (h : Spec.Keccak.leftEncode x ++ a = Spec.Keccak.leftEncode y ++ b) : x = y ∧ a = b := by
  unfold Spec.Keccak.leftEncode at h
  rw [List.cons_append, List.cons_append, List.cons.injEq] at h
  obtain ⟨h1, h2⟩ := h
  have c1 := byteCount_le x hx
  have c2 := byteCount_le y hy
  have hc : byteCount x = byteCount y := by
    have := congrArg BitVec.toNat h1
    rw [BitVec.toNat_ofNat, BitVec.toNat_ofNat] at this
    omega
  obtain ⟨h3, h4⟩ := List.append_inj h2 (by rw [length_beBytes, length_beBytes, hc])
  refine ⟨?_, h4⟩
  have := congrArg beNat h3
  rwa [beNat_min, beNat_min] at this

theorem rightEncode_inj {x y : Nat} {a b : Bytes} (hx : x < 2 ^ 64) (hy : y < 2 ^ 64)
    (h : a ++ Spec.Keccak.rightEncode x = b ++ Spec.Keccak.rightEncode y) : x = y ∧ a = b := by
  unfold Spec.Keccak.rightEncode at h
  rw [← List.append_assoc, ← List.append_assoc] at h
  obtain ⟨h2, h1⟩ := List.append_inj' h rfl
  have c1 := byteCount_le x hx
  have c2 := byteCount_le y hy
  have hc : byteCount x = byteCount y := by
    rw [List.cons.injEq] at h1
    have := congrArg BitVec.toNat h1.1
    rw [BitVec.toNat_ofNat, BitVec.toNat_ofNat] at this
    omega
  obtain ⟨h4, h3⟩ := List.append_inj' h2 (by rw [length_beBytes, length_beBytes, hc])
  refine ⟨?_, h4⟩
  have := congrArg beNat h3
  rwa [beNat_min, beNat_min] at this

/-- The number of bytes K12 uses. -/
def k12Count (x : Nat) : Nat := if x = 0 then 0 else byteCount x

theorem beNat_k12 (x : Nat) : beNat (beBytes (k12Count x) x) = x := by
  unfold k12Count
  by_cases h : x = 0
  · subst h; rfl
  · rw [if_neg h, beNat_min]

theorem k12Count_le (x : Nat) (hx : x < 2 ^ 64) : k12Count x ≤ 8 := by
  unfold k12Count; have := byteCount_le x hx; split <;> omega

theorem k12Count_least (x : Nat) (b : Bytes) (h : beNat b = x) : k12Count x ≤ b.length := by
  unfold k12Count
  by_cases h0 : x = 0
  · simp [h0]
  · rw [if_neg h0]
    refine byteCount_least x b ?_ h
    cases b with
    | nil => exact absurd h.symm h0
    | cons _ _ => simp

theorem lengthEncode_inj {x y : Nat} {a b : Bytes} (hx : x < 2 ^ 64) (hy : y < 2 ^ 64)
    (h : a ++ Spec.K12.lengthEncode x = b ++ Spec.K12.lengthEncode y) : x = y ∧ a = b := by
  have e : ∀ z, Spec.K12.lengthEncode z = beBytes (k12Count z) z ++ [BitVec.ofNat 8 (k12Count z)] := fun _ => rfl
  rw [e, e, ← List.append_assoc, ← List.append_assoc] at h
  obtain ⟨h2, h1⟩ := List.append_inj' h rfl
  have c1 := k12Count_le x hx
  have c2 := k12Count_le y hy
  have hc : k12Count x = k12Count y := by
    rw [List.cons.injEq] at h1
    have := congrArg BitVec.toNat h1.1
    rw [BitVec.toNat_ofNat, BitVec.toNat_ofNat] at this
    omega
  obtain ⟨h4, h3⟩ := List.append_inj' h2 (by rw [length_beBytes, length_beBytes, hc])
  refine ⟨?_, h4⟩
  have := congrArg beNat h3
  rwa [beNat_k12, beNat_k12] at this

end Encode
end Digestpp.Proofs
