import Verif.Spec.Differential
import Verif.Proofs.Wide.Boxes

/-! How often a difference at the input of an S-box becomes a given difference at its output. The counters are the digits of one large
number. -/

namespace Digestpp.Proofs.Wide
open Spec

/-- Digit `b` of a number in base `2^16`. -/
def digit (n b : Nat) : Nat := n / 65536 ^ b % 65536

theorem digit_add (n d b : Nat) (h : digit n d + 1 < 65536) : digit (n + 65536 ^ d) b = digit n b + (if d = b then 1 else 0) := by
  unfold digit at h ⊢
  have hp : ∀ k, 0 < 65536 ^ k := fun k => Nat.pow_pos (by decide)
  rcases Nat.lt_trichotomy b d with hb | hb | hb
  · obtain ⟨k, rfl⟩ : ∃ k, d = b + (k + 1) := ⟨d - b - 1, by omega⟩
    rw [if_neg (by omega), Nat.pow_add, Nat.add_mul_div_left _ _ (hp b), Nat.pow_succ, Nat.add_mul_mod_self_right]
    rfl
  · subst hb
    rw [if_pos rfl, Nat.add_div_right _ (hp b), Nat.add_mod]
    generalize n / 65536 ^ b % 65536 = m at h
    rw [Nat.mod_eq_of_lt (show 1 < 65536 by decide), Nat.mod_eq_of_lt h]
  · obtain ⟨k, rfl⟩ : ∃ k, b = d + (1 + k) := ⟨b - d - 1, by omega⟩
    rw [if_neg (by omega), Nat.pow_add, ← Nat.div_div_eq_div_mul, ← Nat.div_div_eq_div_mul, Nat.add_div_right _ (hp d), Nat.pow_add,
      ← Nat.div_div_eq_div_mul, ← Nat.div_div_eq_div_mul, Nat.pow_one]
    have e : (n / 65536 ^ d + 1) / 65536 = n / 65536 ^ d / 65536 := by omega
    rw [e]
    rfl

/-- Counting the numbers of a list. -/
def tally : Nat → (Nat → Nat) → Nat → Nat
  | 0, _, n => n
  | k + 1, f, n => tally k f (n + Nat.shiftLeft 1 (16 * f k))

theorem shift_pow (d : Nat) : Nat.shiftLeft 1 (16 * d) = 65536 ^ d := by
  show 1 <<< (16 * d) = _
  rw [Nat.one_shiftLeft, Nat.pow_mul]

theorem tally_digit (f : Nat → Nat) (b : Nat) : ∀ k n, (∀ d, digit n d + k < 65536) →
    digit (tally k f n) b = digit n b + (List.range k).countP fun x => decide (f x = b)
  | 0, n, _ => rfl
  | k + 1, n, h => by
    have hd := digit_add n (f k)
    unfold tally
    rw [shift_pow, tally_digit f b k _ (by
      intro d
      rw [hd d (by have := h (f k); omega)]
      have := h d
      split <;> omega), hd b (by have := h (f k); omega), List.range_succ, List.countP_append, List.countP_singleton]
    by_cases e : f k = b
    · simp [e]; omega
    · simp [e]

/-- All digits below the 256th are `e`. -/
def ones : Nat → Nat → Nat
  | 0, _ => 0
  | k + 1, e => ones k e * 65536 + e

theorem digit_ones (e : Nat) (he : e < 65536) : ∀ k b, digit (ones k e) b = if b < k then e else 0
  | 0, b => by unfold digit ones; simp
  | k + 1, b => by
    have ih := digit_ones e he k
    unfold digit at ih ⊢
    unfold ones
    cases b with
    | zero => rw [Nat.pow_zero, Nat.div_one, Nat.add_comm, Nat.add_mul_mod_self_right, if_pos (by omega), Nat.mod_eq_of_lt he]
    | succ b =>
      rw [Nat.pow_succ, Nat.mul_comm (65536 ^ b), ← Nat.div_div_eq_div_mul, show (ones k e * 65536 + e) / 65536 = ones k e by omega, ih b]
      simp

theorem digit_and (n m b : Nat) : digit (Nat.land n m) b = digit n b &&& digit m b := by
  show digit (n &&& m) b = _
  unfold digit
  have e : (65536 : Nat) ^ b = 2 ^ (16 * b) := by rw [Nat.pow_mul]
  rw [e, show 65536 = 2 ^ 16 from rfl, ← Nat.shiftRight_eq_div_pow, ← Nat.shiftRight_eq_div_pow, ← Nat.shiftRight_eq_div_pow,
    Nat.shiftRight_and_distrib, Nat.and_mod_two_pow]

/-- The check for one difference `a`: no output difference occurs more often than `2^j - 1 - e` times. -/
def ddtRow (T j e a : Nat) : Bool :=
  Nat.beq (Nat.land (tally 256 (fun x => Nat.xor (Nat.land (Nat.shiftRight T (8 * x)) 255) (Nat.land (Nat.shiftRight T (8 * Nat.xor x a)) 255)) (ones 256 e))
    (ones 256 (65536 - 2 ^ j))) 0

/-- The check for all differences. -/
def ddt (T j e : Nat) : Bool := (List.range 255).all fun a => ddtRow T j e (a + 1)

theorem low_digit : ∀ j, j < 16 → ∀ d, d < 65536 → d &&& (65536 - 2 ^ j) = 0 → d < 2 ^ j := by
  intro j hj d hd h
  by_contra hn
  have h1 : 2 ^ j ≤ d := by omega
  obtain ⟨i, hi, ht⟩ := Nat.exists_ge_and_testBit_of_ge_two_pow h1
  have hi16 : i < 16 := by
    by_contra hc
    have : d < 2 ^ i := Nat.lt_of_lt_of_le hd (Nat.pow_le_pow_right (n := 2) (by decide) (show 16 ≤ i by omega))
    rw [Nat.testBit_lt_two_pow this] at ht
    cases ht
  have hb : (65536 - 2 ^ j).testBit i = true := by
    have key : ∀ j, j < 16 → ∀ i, i < 16 → j ≤ i → (65536 - 2 ^ j).testBit i = true := by decide +kernel
    exact key j hj i hi16 hi
  have := congrArg (fun n => n.testBit i) h
  simp only [Nat.testBit_and, ht, hb] at this
  simp at this

theorem ddtRow_sound (T j e a : Nat) (hj : j < 16) (he : e < 65536 - 256) (h : ddtRow T j e a = true) (b : Nat) (hb : b < 256) :
    e + ((List.range 256).countP fun x => decide ((T >>> (8 * x)) % 256 ^^^ (T >>> (8 * (x ^^^ a))) % 256 = b)) < 2 ^ j := by
  have h := Nat.eq_of_beq_eq_true h
  have hd := congrArg (fun n => digit n b) h
  dsimp -failIfUnchanged only at hd
  rw [digit_and, tally_digit _ _ 256 _ (by
    intro d
    rw [digit_ones e (by omega)]
    split <;> omega), digit_ones e (by omega), if_pos hb, digit_ones _ (by have := Nat.pow_pos (n := j) (show 0 < 2 by decide); omega), if_pos hb] at hd
  have hz : digit 0 b = 0 := by unfold digit; simp
  rw [hz] at hd
  have hlen : ∀ p : Nat → Bool, (List.range 256).countP p ≤ 256 := by
    intro p
    have := List.countP_le_length (p := p) (l := List.range 256)
    rwa [List.length_range] at this
  have := low_digit j hj _ (by have := hlen (fun x => decide (Nat.xor (Nat.land (Nat.shiftRight T (8 * x)) 255) (Nat.land (Nat.shiftRight T (8 * Nat.xor x a)) 255) = b)); omega) hd
  refine Nat.lt_of_le_of_lt (Nat.le_of_eq ?_) this
  congr 1
  apply List.countP_congr
  intro x _
  have m : ∀ y : Nat, y % 256 = Nat.land y 255 := fun y => (Nat.and_two_pow_sub_one_eq_mod y 8).symm
  rw [m, m]
  rfl

/-- A table as one large number. -/
def IsPacked (T : Nat) (t : List Byte) : Prop := ∀ n, n < 256 → (T >>> (8 * n)) % 256 = (t.getD n 0).toNat

theorem ddt_sound (T j e : Nat) (t : List Byte) (ht : IsPacked T t) (hj : j < 16) (he : e < 65536 - 256) (h : ddt T j e = true)
    (a b : Byte) (ha : a ≠ 0) : e + differential (fun x => t.getD x.toNat 0) a b < 2 ^ j := by
  have h0 : a.toNat ≠ 0 := fun e => ha (BitVec.eq_of_toNat_eq e)
  have hr := List.all_eq_true.mp h (a.toNat - 1) (List.mem_range.mpr (by have := a.isLt; omega))
  rw [show a.toNat - 1 + 1 = a.toNat by omega] at hr
  have := ddtRow_sound T j e a.toNat hj he hr b.toNat b.isLt
  refine Nat.lt_of_le_of_lt (Nat.le_of_eq ?_) this
  congr 1
  unfold differential
  apply List.countP_congr
  intro x hx
  have hx := List.mem_range.mp hx
  have hxa : x ^^^ a.toNat < 256 := Nat.xor_lt_two_pow (n := 8) hx a.isLt
  rw [ht x hx, ht _ hxa]
  have e1 : (BitVec.ofNat 8 x).toNat = x := Nat.mod_eq_of_lt hx
  simp only [decide_eq_true_eq, BitVec.toNat_xor, e1]
  rw [← BitVec.toNat_xor]
  exact ⟨fun h => congrArg _ h, fun h => BitVec.eq_of_toNat_eq h⟩

theorem uniformity_of (T j e δ : Nat) (t : List Byte) (ht : IsPacked T t) (hj : j < 16) (he : e < 65536 - 256) (h : ddt T j e = true)
    (hδ : e + δ + 1 = 2 ^ j) (a b : Byte) (ha : a ≠ 0) (hab : differential (fun x => t.getD x.toNat 0) a b = δ) :
    Uniformity (fun x => t.getD x.toNat 0) δ := by
  refine ⟨fun a b ha => ?_, a, b, ha, hab⟩
  have := ddt_sound T j e t ht hj he h a b ha
  omega

end Digestpp.Proofs.Wide
