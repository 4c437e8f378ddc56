import Verif.Proofs.Words

/-! Little-endian numbers in pieces. -/

namespace Digestpp.Proofs
open Model Spec

theorem leNat_append (a b : Bytes) : leNat (a ++ b) = leNat a + 256 ^ a.length * leNat b := by
  induction a with
  | nil => simp [leNat]
  | cons x a ih =>
    rw [List.cons_append, leNat, leNat, ih, List.length_cons, Nat.pow_succ]
    rw [Nat.mul_add, ← Nat.mul_assoc, Nat.mul_comm (256 ^ a.length) 256]
    omega

theorem leBytes_succ (n x : Nat) : leBytes (n + 1) x = BitVec.ofNat 8 x :: leBytes n (x / 256) := by
  unfold leBytes
  rw [List.range_succ_eq_map, List.map_cons, List.map_map]
  congr 1
  · simp
  · apply List.map_congr_left
    intro i _
    show BitVec.ofNat 8 (x / 256 ^ (i + 1)) = _
    rw [Nat.pow_succ, Nat.mul_comm, Nat.div_div_eq_div_mul]

theorem leNat_leBytes (n x : Nat) : leNat (leBytes n x) = x % 256 ^ n := by
  induction n generalizing x with
  | zero => simp [leBytes, leNat, Nat.mod_one]
  | succ n ih =>
    have e : 256 ^ (n + 1) = 256 * 256 ^ n := by rw [Nat.pow_succ, Nat.mul_comm]
    rw [leBytes_succ, leNat, ih, BitVec.toNat_ofNat, e, Nat.mod_mul]

theorem leBytes_append (m n a b : Nat) (h : a < 256 ^ m) : leBytes m a ++ leBytes n b = leBytes (m + n) (a + 256 ^ m * b) := by
  induction m generalizing a with
  | zero =>
    have : a = 0 := by simpa using h
    subst this
    simp [leBytes]
  | succ m ih =>
    rw [show m + 1 + n = m + n + 1 by omega, leBytes_succ, leBytes_succ, List.cons_append,
      ih _ (by rw [Nat.pow_succ] at h; exact Nat.div_lt_of_lt_mul (by omega))]
    have e : a + 256 ^ (m + 1) * b = a + 256 * (256 ^ m * b) := by
      rw [Nat.pow_succ, Nat.mul_comm (256 ^ m) 256, Nat.mul_assoc]
    rw [e, Nat.add_mul_div_left _ _ (by omega : 0 < 256)]
    congr 1
    apply BitVec.eq_of_toNat_eq
    rw [BitVec.toNat_ofNat, BitVec.toNat_ofNat]
    omega

theorem leBytes_zero (n : Nat) : leBytes n 0 = List.replicate n 0 := by
  apply List.ext_getElem
  · simp [length_leBytes]
  · intro i h1 h2; simp [leBytes]

theorem leWords_append {w : Nat} (hw : 0 < w / 8) (k : Nat) (a b : Bytes) (ha : a.length = k * (w / 8)) :
    leWords w (a ++ b) = leWords w a ++ leWords w b := by
  unfold leWords
  have e1 : a.length / (w / 8) = k := by rw [ha, Nat.mul_div_cancel _ hw]
  have e2 : (a ++ b).length / (w / 8) = k + b.length / (w / 8) := by
    rw [List.length_append, ha, Nat.add_comm, Nat.add_mul_div_right _ _ hw, Nat.add_comm]
  rw [e1, e2, List.range_add, List.map_append, List.map_map]
  congr 1
  · apply List.map_congr_left
    intro i hi
    rw [List.mem_range] at hi
    have : (i + 1) * (w / 8) ≤ a.length := by rw [ha]; exact Nat.mul_le_mul_right _ hi
    rw [Nat.add_mul] at this
    rw [List.drop_append_of_le_length (by omega), List.take_append_of_le_length (by rw [List.length_drop]; omega)]
  · apply List.map_congr_left
    intro i _
    show BitVec.ofNat w (leNat (((a ++ b).drop ((k + i) * (w / 8))).take (w / 8))) = _
    rw [Nat.add_mul, ← ha, List.drop_append, List.drop_of_length_le (by omega), List.nil_append,
      Nat.add_sub_cancel_left]

theorem leWords_one {w : Nat} (h8 : w / 8 * 8 = w) (hw : 0 < w / 8) (x : Nat) (r : Bytes) :
    leWords w (leBytes (w / 8) x ++ r) = BitVec.ofNat w x :: leWords w r := by
  rw [leWords_append hw 1 _ _ (by rw [length_leBytes]; omega)]
  have : leWords w (leBytes (w / 8) x) = [BitVec.ofNat w x] := by
    unfold leWords
    rw [length_leBytes, Nat.div_self hw]
    show [BitVec.ofNat w (leNat (((leBytes (w / 8) x).drop (0 * (w / 8))).take (w / 8)))] = _
    rw [Nat.zero_mul, List.drop_zero, List.take_of_length_le (by rw [length_leBytes]; omega), leNat_leBytes]
    congr 1
    apply BitVec.eq_of_toNat_eq
    rw [BitVec.toNat_ofNat, BitVec.toNat_ofNat]
    have : (256 : Nat) ^ (w / 8) = 2 ^ w := by
      rw [show (256 : Nat) = 2 ^ 8 from rfl, ← Nat.pow_mul]; congr 1; omega
    rw [this, Nat.mod_mod]
  rw [this]; rfl

theorem length_leWords (w : Nat) (b : Bytes) : (leWords w b).length = b.length / (w / 8) := by simp [leWords]

/-- Numbers that occupy different bits. -/
theorem add_eq_xor (i a b : Nat) (h : a < 2 ^ i) : a + 2 ^ i * b = a ^^^ 2 ^ i * b := by
  apply Nat.eq_of_testBit_eq
  intro j
  rw [Nat.add_comm, Nat.testBit_two_pow_mul_add _ h, Nat.testBit_xor, Nat.testBit_two_pow_mul]
  by_cases hj : j < i
  · rw [if_pos hj, decide_eq_false (by omega : ¬ j ≥ i)]
    simp
  · rw [if_neg hj, Nat.testBit_lt_two_pow (Nat.lt_of_lt_of_le h (Nat.pow_le_pow_right (by omega) (by omega)))]
    rw [decide_eq_true (by omega : j ≥ i)]
    simp

theorem ofNat_add_xor {w : Nat} (i a b : Nat) (h : a < 2 ^ i) :
    BitVec.ofNat w (a + 2 ^ i * b) = BitVec.ofNat w a ^^^ BitVec.ofNat w (2 ^ i * b) := by
  rw [add_eq_xor i a b h]
  apply BitVec.eq_of_toNat_eq
  rw [BitVec.toNat_xor, BitVec.toNat_ofNat, BitVec.toNat_ofNat, BitVec.toNat_ofNat, Nat.xor_mod_two_pow]

end Digestpp.Proofs
