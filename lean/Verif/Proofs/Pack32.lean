import Verif.Proofs.Pack

/-! Words of 32 bits and their bytes. -/

namespace Digestpp.Proofs
open Model Spec

/-- The word with the given bytes. -/
def pack32 (f : Nat → Byte) : BitVec 32 := f 3 ++ f 2 ++ f 1 ++ f 0

theorem getLsbD_pack32 (f : Nat → Byte) (i : Nat) (h : i < 32) : (pack32 f).getLsbD i = (f (i / 8)).getLsbD (i % 8) := by
  unfold pack32
  simp only [BitVec.getLsbD_append]
  have h8 : i / 8 < 4 := by omega
  have e := Nat.div_add_mod i 8
  have hm := Nat.mod_lt i (show 8 > 0 by omega)
  generalize i / 8 = q at *
  generalize i % 8 = r at *
  subst e
  have : q = 0 ∨ q = 1 ∨ q = 2 ∨ q = 3 := by omega
  rcases this with rfl | rfl | rfl | rfl <;>
    (simp (disch := omega) only [if_pos, if_neg, Nat.mul_zero, Nat.zero_add] <;> congr 1 <;> omega)

theorem pack32_congr {f g : Nat → Byte} (h : ∀ i, i < 4 → f i = g i) : pack32 f = pack32 g := by
  unfold pack32
  rw [h 0 (by omega), h 1 (by omega), h 2 (by omega), h 3 (by omega)]

theorem pack32_xor (f g : Nat → Byte) : pack32 f ^^^ pack32 g = pack32 fun i => f i ^^^ g i := by
  apply BitVec.eq_of_getLsbD_eq
  intro i hi
  rw [BitVec.getLsbD_xor, getLsbD_pack32 _ _ hi, getLsbD_pack32 _ _ hi, getLsbD_pack32 _ _ hi, BitVec.getLsbD_xor]

/-- Byte number `r` of a word, as the code extracts it. -/
theorem byte_pack32 (f : Nat → Byte) (r : Nat) (h : r < 4) : ((pack32 f) >>> (8 * r)).setWidth 8 = f r := by
  apply BitVec.eq_of_getLsbD_eq
  intro i hi
  rw [BitVec.getLsbD_setWidth, BitVec.getLsbD_ushiftRight, getLsbD_pack32 _ _ (by omega)]
  rw [show (8 * r + i) / 8 = r by omega, show (8 * r + i) % 8 = i by omega]
  simp [hi]

/-- Two halves. -/
theorem pack_halves (f g : Nat → Byte) :
    (pack32 f).setWidth 64 ^^^ ((pack32 g).setWidth 64 <<< 32) = pack fun i => if i < 4 then f i else g (i - 4) := by
  apply BitVec.eq_of_getLsbD_eq
  intro i hi
  rw [BitVec.getLsbD_xor, BitVec.getLsbD_shiftLeft, BitVec.getLsbD_setWidth, BitVec.getLsbD_setWidth, getLsbD_pack _ _ hi]
  by_cases h : i < 32
  · rw [getLsbD_pack32 _ _ h, if_pos (show i / 8 < 4 by omega)]
    simp [h, hi]
  · rw [BitVec.getLsbD_of_ge _ _ (by omega), getLsbD_pack32 _ _ (by omega), if_neg (show ¬ i / 8 < 4 by omega)]
    rw [show (i - 32) / 8 = i / 8 - 4 by omega, show (i - 32) % 8 = i % 8 by omega]
    simp [h, hi]
    intro _; omega

theorem pack_lo (f : Nat → Byte) : (pack f).setWidth 32 = pack32 f := by
  apply BitVec.eq_of_getLsbD_eq
  intro i hi
  rw [BitVec.getLsbD_setWidth, getLsbD_pack _ _ (by omega), getLsbD_pack32 _ _ hi]
  simp [hi]

theorem pack_hi (f : Nat → Byte) : (pack f >>> 32).setWidth 32 = pack32 fun i => f (i + 4) := by
  apply BitVec.eq_of_getLsbD_eq
  intro i hi
  rw [BitVec.getLsbD_setWidth, BitVec.getLsbD_ushiftRight, getLsbD_pack _ _ (by omega), getLsbD_pack32 _ _ hi]
  rw [show (32 + i) / 8 = i / 8 + 4 by omega, show (32 + i) % 8 = i % 8 by omega]
  simp [hi]

/-- Four lookups. -/
theorem pack32_xor4 (g : Nat → Nat → Byte) :
    pack32 (g 0) ^^^ pack32 (g 1) ^^^ pack32 (g 2) ^^^ pack32 (g 3) = pack32 fun i => xorSum 4 fun k => g k i := by
  simp only [pack32_xor]
  apply pack32_congr
  intro i _
  simp [xorSum, List.range_succ]

end Digestpp.Proofs
