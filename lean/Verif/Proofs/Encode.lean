import Verif.Model.Shake
import Verif.Spec.Sp800185
import Verif.Proofs.Words

/-! `left_encode` and `right_encode`. -/

namespace Digestpp.Proofs
open Model Spec

namespace Encode

theorem log2_div (x : Nat) (h : x / 256 ≠ 0) : Nat.log2 x / 8 = Nat.log2 (x / 256) / 8 + 1 := by
  have hx : x ≠ 0 := by intro e; subst e; simp at h
  have h1 : Nat.log2 (x / 256) + 8 = Nat.log2 x := by
    symm
    have e1 := Nat.log2_self_le h
    have e2 := Nat.lt_log2_self (n := x / 256)
    rw [Nat.log2_eq_iff hx]
    generalize Nat.log2 (x / 256) = L at e1 e2
    rw [show L + 8 + 1 = (L + 1) + 8 by omega, Nat.pow_add 2 L 8, Nat.pow_add 2 (L + 1) 8]
    omega
  omega

theorem log2_small (x : Nat) (h : x / 256 = 0) : Nat.log2 x / 8 = 0 := by
  by_cases hx : x = 0
  · subst hx; rfl
  · have : Nat.log2 x < 8 := (Nat.log2_lt hx).mpr (by omega)
    omega

theorem countLoop_eq (fuel tmp n : Nat) (h : tmp < 256 ^ (fuel + 1)) :
    Model.Shake.countLoop fuel tmp n = n + Nat.log2 tmp / 8 := by
  induction fuel generalizing tmp n with
  | zero => rw [log2_small tmp (by omega)]; rfl
  | succ fuel ih =>
    unfold Model.Shake.countLoop
    by_cases h0 : tmp / 256 = 0
    · rw [if_pos h0, log2_small tmp h0]; rfl
    · rw [if_neg h0, ih _ _ (by rw [Nat.pow_succ] at h; omega), log2_div tmp h0]
      omega

theorem beBytes_eq (n x : Nat) : (List.range n).map (fun j => BitVec.ofNat 8 (x >>> (8 * (n - 1 - j)))) = beBytes n x := by
  unfold beBytes leBytes
  apply List.ext_getElem
  · simp
  · intro i h1 h2
    simp only [List.length_map, List.length_range] at h1
    simp only [List.getElem_map, List.getElem_range, List.getElem_reverse, List.length_map, List.length_range]
    rw [Nat.shiftRight_eq_div_pow, Nat.pow_mul]

theorem leftEncode_eq (x : Nat) (h : x < 2 ^ 64) : Model.Shake.leftEncode x = Spec.Keccak.leftEncode x := by
  unfold Model.Shake.leftEncode Spec.Keccak.leftEncode
  have : Model.Shake.countLoop 8 x 1 = Spec.Keccak.byteCount x := by
    rw [countLoop_eq 8 x 1 (by omega)]; unfold Spec.Keccak.byteCount; omega
  dsimp only
  rw [this, beBytes_eq]

theorem rightEncode_eq (x : Nat) (h : x < 2 ^ 64) : Model.Shake.rightEncode x false = Spec.Keccak.rightEncode x := by
  unfold Model.Shake.rightEncode Spec.Keccak.rightEncode
  have : Model.Shake.countLoop 8 x 1 = Spec.Keccak.byteCount x := by
    rw [countLoop_eq 8 x 1 (by omega)]; unfold Spec.Keccak.byteCount; omega
  dsimp only
  rw [if_neg (by simp), this, beBytes_eq]

theorem byteCount_le (x : Nat) (h : x < 2 ^ 64) : Spec.Keccak.byteCount x ≤ 8 := by
  unfold Spec.Keccak.byteCount
  by_cases hx : x = 0
  · subst hx; decide
  · have : Nat.log2 x < 64 := (Nat.log2_lt hx).mpr h
    omega

theorem length_beBytes (n x : Nat) : (beBytes n x).length = n := by simp [beBytes, leBytes]

theorem length_leftEncode (x : Nat) (h : x < 2 ^ 64) : (Spec.Keccak.leftEncode x).length ≤ 9 := by
  have := byteCount_le x h
  simp only [Spec.Keccak.leftEncode, List.length_cons, length_beBytes]
  omega

end Encode
end Digestpp.Proofs
