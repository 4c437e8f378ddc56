import Verif.Proofs.Keccak

/-! FIPS 202's padding of bit strings, for byte strings with a suffix of at most six bits. -/

namespace Digestpp.Proofs
open Model Spec

namespace Keccak
open Spec.Keccak (bits ofBits pad10s1 padded padD xorLast)

theorem bits_append (a b : Bytes) : bits (a ++ b) = bits a ++ bits b := by simp [bits]

theorem bits_cons (x : Byte) (b : Bytes) : bits (x :: b) = (List.range 8).map x.getLsbD ++ bits b := by simp [bits]

theorem length_bits (b : Bytes) : (bits b).length = 8 * b.length := by
  induction b with
  | nil => rfl
  | cons x b ih => rw [bits_cons, List.length_append, ih]; simp; omega

theorem chunks_cons {α : Type} (n : Nat) (hn : 0 < n) (a b : List α) (ha : a.length = n) : chunks n (a ++ b) = a :: chunks n b := by
  unfold chunks
  rw [List.length_append, ha, Nat.add_comm n, Nat.add_div_right _ hn, List.range_succ_eq_map, List.map_cons, List.map_map]
  congr 1
  · rw [blockAt_append_left n 0 a b (by omega), blockAt_zero n a ha]
  · apply List.map_congr_left
    intro i _
    show blockAt n (i + 1) (a ++ b) = blockAt n i b
    rw [Nat.add_comm, blockAt_append_right n 1 i a b (by omega)]

theorem ofBits_byte : ∀ x : Byte, BitVec.ofNat 8 (((List.range 8).map x.getLsbD).foldr (fun x n => (if x then 1 else 0) + 2 * n) 0) = x := by
  decide +kernel

theorem ofBits_bits (b : Bytes) : ofBits (bits b) = b := by
  induction b with
  | nil => rfl
  | cons x b ih =>
    unfold ofBits at ih ⊢
    rw [bits_cons, chunks_cons 8 (by omega) _ _ (by simp), List.map_cons, ih, ofBits_byte]

theorem bits_zeros (n : Nat) : bits (List.replicate n 0) = List.replicate (8 * n) false := by
  induction n with
  | zero => rfl
  | succ n ih =>
    rw [List.replicate_succ, bits_cons, ih, show (List.range 8).map (0 : Byte).getLsbD = List.replicate 8 false by decide,
      List.replicate_append_replicate]
    congr 1; omega

theorem pad_count (x m j k : Nat) (hx : 0 < x) (h : m + 2 + j = k * x) (hj : j < x) : (m + 2 + x - 1) / x * x - (m + 2) = j := by
  have : (m + 2 + x - 1) / x = k := by
    apply Nat.div_eq_of_lt_le
    · omega
    · rw [Nat.add_mul]; omega
  rw [this]; omega

/-- Bit-level and byte-level padding agree. -/
theorem padded_eq (r : Nat) (suffix : List Bool) (d : Byte) (msg : Bytes) (hr : 0 < r) (hs : suffix.length ≤ 6)
    (h1 : bits [d] = suffix ++ true :: List.replicate (7 - suffix.length) false)
    (h2 : bits [d ^^^ 0x80] = suffix ++ true :: List.replicate (6 - suffix.length) false ++ [true]) :
    padded r suffix msg = padD r d msg := by
  obtain ⟨z, hz⟩ : ∃ z, z = (r - (msg.length + 1) % r) % r := ⟨_, rfl⟩
  obtain ⟨k, hk⟩ : ∃ k, msg.length + 1 + z = k * r := by
    have hm := Nat.mod_lt (msg.length + 1) hr
    have hd := Nat.div_add_mod (msg.length + 1) r
    by_cases h0 : (msg.length + 1) % r = 0
    · refine ⟨(msg.length + 1) / r, ?_⟩
      rw [h0, Nat.sub_zero, Nat.mod_self] at hz
      rw [hz, Nat.mul_comm]; omega
    · refine ⟨(msg.length + 1) / r + 1, ?_⟩
      rw [Nat.mod_eq_of_lt (by omega)] at hz
      rw [Nat.add_mul, Nat.mul_comm]; omega
  have hzr : z < r := by rw [hz]; exact Nat.mod_lt _ hr
  have hbits : bits (padD r d msg) = bits msg ++ suffix ++ pad10s1 (8 * r) (bits msg ++ suffix).length := by
    have hcnt : ((8 * msg.length + suffix.length + 2 + 8 * r - 1) / (8 * r) * (8 * r)) - (8 * msg.length + suffix.length + 2)
        = 8 * z + 6 - suffix.length := by
      refine pad_count (8 * r) (8 * msg.length + suffix.length) _ k (by omega) ?_ (by omega)
      rw [show 8 * msg.length + suffix.length + 2 + (8 * z + 6 - suffix.length) = 8 * (msg.length + 1 + z) by omega, hk]
      rw [← Nat.mul_assoc, ← Nat.mul_assoc, Nat.mul_comm 8 k]
    unfold padD pad10s1
    rw [← hz, List.append_assoc msg, xorLast_append _ _ (by simp), bits_append, List.append_assoc]
    congr 1
    rw [List.length_append, length_bits, hcnt]
    cases z with
    | zero =>
      show bits [d ^^^ 0x80] = _
      rw [h2]; simp
    | succ z =>
      rw [List.replicate_succ', ← List.append_assoc, xorLast_append _ _ (by simp), bits_append, bits_append, bits_zeros, h1]
      rw [show bits (xorLast [0]) = List.replicate 7 false ++ [true] by decide]
      simp only [List.append_assoc, List.cons_append]
      congr 2
      rw [← List.append_assoc, ← List.append_assoc, List.replicate_append_replicate, List.replicate_append_replicate]
      congr 2
      omega
  unfold padded
  dsimp only
  rw [← hbits, ofBits_bits]

theorem padded_sha3 (r : Nat) (msg : Bytes) (hr : 0 < r) : padded r [false, true] msg = padD r 0x06 msg :=
  padded_eq r _ _ msg hr (by decide) (by decide) (by decide)

theorem padded_shake (r : Nat) (msg : Bytes) (hr : 0 < r) : padded r [true, true, true, true] msg = padD r 0x1f msg :=
  padded_eq r _ _ msg hr (by decide) (by decide) (by decide)

theorem padded_cshake (r : Nat) (msg : Bytes) (hr : 0 < r) : padded r [false, false] msg = padD r 0x04 msg :=
  padded_eq r _ _ msg hr (by decide) (by decide) (by decide)

end Keccak
end Digestpp.Proofs
