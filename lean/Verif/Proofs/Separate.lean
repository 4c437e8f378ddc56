import Verif.Proofs.Sha2

/-! The initial values of SHA-512/t, for C61. -/

namespace Digestpp.Proofs.Separate
open Spec

/-- Bits of the initial value that the IV generation function gives for `t` bits, with the compression function of the model. -/
def genBits (t : Nat) : Nat :=
  ((Model.Sha2.compress Model.Sha2.u64 (mdPad 128 (beBytes 16 (8 * (Model.Sha2.ivName t).length)) (Model.Sha2.ivName t))
    (Model.Sha2.iv512.map (· ^^^ 0xa5a5a5a5a5a5a5a5))).getD 0 0).toNat % 65536

/-- The values for 8, 16, …, 512 bits. -/
def table : List Nat :=
  [25849, 62259, 9196, 51310, 38421, 43876, 23021, 52784, 29619, 27781, 22760, 39774, 14168, 58019, 31700, 59596, 21385,
   30247, 24273, 23382, 47981, 24104, 20470, 45619, 47062, 27008, 30265, 19874, 809, 49191, 51171, 63276, 19100, 42247,
   56514, 15002, 9435, 6423, 13187, 12778, 17255, 43239, 14866, 23400, 23646, 48185, 6325, 40664, 44671, 15830, 39853,
   4686, 1568, 38469, 59254, 62139, 15702, 35912, 30278, 19699, 19071, 8866, 21419, 51464]

/-- Whether entries `a`, …, `a + n - 1` are what the IV generation function gives, where it is used. -/
def entries (a n : Nat) : Bool := (List.range' a n).all fun k => k == 47 || k == 63 || genBits (8 * k + 8) == table.getD k 0

theorem entries0 : entries 0 16 = true := by decide +kernel
theorem entries1 : entries 16 16 = true := by decide +kernel
theorem entries2 : entries 32 16 = true := by decide +kernel
theorem entries3 : entries 48 16 = true := by decide +kernel

theorem entry (k : Nat) (hk : k < 64) (h1 : k ≠ 47) (h2 : k ≠ 63) : genBits (8 * k + 8) = table.getD k 0 := by
  have use : ∀ a n, entries a n = true → a ≤ k → k < a + n → genBits (8 * k + 8) = table.getD k 0 := by
    intro a n h h3 h4
    have := List.all_eq_true.1 h k (List.mem_range'_1.2 ⟨h3, h4⟩)
    simpa [h1, h2] using this
  rcases (by omega : k < 16 ∨ (16 ≤ k ∧ k < 32) ∨ (32 ≤ k ∧ k < 48) ∨ 48 ≤ k) with h | h | h | h
  · exact use 0 16 entries0 (by omega) (by omega)
  · exact use 16 16 entries1 (by omega) (by omega)
  · exact use 32 16 entries2 (by omega) (by omega)
  · exact use 48 16 entries3 (by omega) (by omega)

theorem block (k : Nat) (hk : k < 64) : (mdPad 128 (beBytes 16 (8 * (Model.Sha2.ivName (8 * k + 8)).length)) (Model.Sha2.ivName (8 * k + 8))).length = 128 := by
  have : ((List.range 64).all fun k => (mdPad 128 (beBytes 16 (8 * (Model.Sha2.ivName (8 * k + 8)).length)) (Model.Sha2.ivName (8 * k + 8))).length == 128) = true := by
    decide +kernel
  simpa using List.all_eq_true.1 this k (List.mem_range.2 hk)

/-- The initial value for `t` bits has these bits. -/
theorem ivOf_bits (k : Nat) (hk : k < 64) : (((Sha2.arr (Sha2.ivOf (8 * k + 8))).getD 0 0).toNat % 65536) = table.getD k 0 := by
  unfold Sha2.ivOf
  by_cases h2 : k = 63
  · subst h2
    rw [if_pos rfl, Sha2.iv512_eq]
    decide +kernel
  · rw [if_neg (by omega)]
    by_cases h1 : k = 47
    · subst h1
      rw [if_pos rfl, Sha2.iv384_eq]
      decide +kernel
    · rw [if_neg (by omega), Sha2.ivGen_eval _ (block k hk)]
      exact entry k hk h1 h2

theorem table_nodup : table.Nodup := by decide +kernel

theorem ivOf_ne (t t' : Nat) (h8 : t % 8 = 0) (h8' : t' % 8 = 0) (h0 : 0 < t) (h0' : 0 < t') (ht : t ≤ 512) (ht' : t' ≤ 512) (hne : t ≠ t') :
    Sha2.arr (Sha2.ivOf t) ≠ Sha2.arr (Sha2.ivOf t') := by
  intro e
  have k := ivOf_bits (t / 8 - 1) (by omega)
  have k' := ivOf_bits (t' / 8 - 1) (by omega)
  rw [show 8 * (t / 8 - 1) + 8 = t by omega] at k
  rw [show 8 * (t' / 8 - 1) + 8 = t' by omega, ← e, k] at k'
  have hl : table.length = 64 := rfl
  rw [List.getD_eq_getElem?_getD, List.getD_eq_getElem?_getD, List.getElem?_eq_getElem (by rw [hl]; omega), List.getElem?_eq_getElem (by rw [hl]; omega)] at k'
  have pw := List.pairwise_iff_getElem.1 table_nodup
  rcases Nat.lt_or_gt_of_ne (show t / 8 - 1 ≠ t' / 8 - 1 by omega) with h | h
  · exact pw _ _ _ _ h k'
  · exact pw _ _ _ _ h k'.symm

end Digestpp.Proofs.Separate
