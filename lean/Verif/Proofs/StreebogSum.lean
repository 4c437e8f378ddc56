import Verif.Spec.Streebog
import Verif.Proofs.Words

/-! Additions of 512-bit numbers word by word. -/

namespace Digestpp.Proofs.Streebog
open Spec Spec.Streebog

set_option exponentiation.threshold 600 in
theorem two512 : (2 : Nat) ^ 512 = 2 ^ (64 * 8) := rfl

theorem pow_succ64 (i : Nat) : 2 ^ (64 * (i + 1)) = 2 ^ (64 * i) * 2 ^ 64 := by
  rw [Nat.mul_add, Nat.pow_add]

theorem limb_lt (i x : Nat) : limb i x < 2 ^ 64 := Nat.mod_lt _ (by decide)

theorem limb_zero (f r : Nat) (hf : f < 2 ^ 64) : limb 0 (f + 2 ^ 64 * r) = f := by
  unfold limb
  rw [Nat.mul_zero, Nat.pow_zero, Nat.div_one, Nat.add_mul_mod_self_left, Nat.mod_eq_of_lt hf]

theorem limb_succ (i f r : Nat) (hf : f < 2 ^ 64) : limb (i + 1) (f + 2 ^ 64 * r) = limb i r := by
  unfold limb
  rw [pow_succ64, Nat.mul_comm (2 ^ (64 * i)), ← Nat.div_div_eq_div_mul, Nat.add_mul_div_left _ _ (by decide), Nat.div_eq_of_lt hf,
    Nat.zero_add]

theorem limb_ofLimbs (f : Nat → Nat) (n i : Nat) (hf : ∀ i, f i < 2 ^ 64) (hi : i < n) : limb i (ofLimbs f n) = f i := by
  induction n generalizing f i with
  | zero => omega
  | succ n ih =>
    cases i with
    | zero => exact limb_zero _ _ (hf 0)
    | succ i =>
      show limb (i + 1) (f 0 + _) = _
      rw [limb_succ _ _ _ (hf 0)]
      exact ih (fun i => f (i + 1)) i (fun i => hf (i + 1)) (by omega)

theorem limb_div (i x : Nat) : limb (i + 1) x = limb i (x / 2 ^ 64) := by
  unfold limb
  rw [pow_succ64, Nat.mul_comm (2 ^ (64 * i)), ← Nat.div_div_eq_div_mul]

theorem ofLimbs_congr (f g : Nat → Nat) (n : Nat) (h : ∀ i, i < n → f i = g i) : ofLimbs f n = ofLimbs g n := by
  induction n generalizing f g with
  | zero => rfl
  | succ n ih =>
    unfold ofLimbs
    rw [h 0 (by omega), ih _ (fun i => g (i + 1)) (fun i hi => h (i + 1) (by omega))]

theorem ofLimbs_limb (x n : Nat) : ofLimbs (fun i => limb i x) n = x % 2 ^ (64 * n) := by
  induction n generalizing x with
  | zero => rw [Nat.mul_zero, Nat.pow_zero, Nat.mod_one]; rfl
  | succ n ih =>
    unfold ofLimbs
    simp only [limb_div]
    rw [ih, pow_succ64, Nat.mul_comm (2 ^ (64 * n)), Nat.mod_mul]
    unfold limb
    rw [Nat.mul_zero, Nat.pow_zero, Nat.div_one]

/-- The carry into word `i`. -/
def carry (a b i : Nat) : Nat := (a % 2 ^ (64 * i) + b % 2 ^ (64 * i)) / 2 ^ (64 * i)

theorem carry_le (a b i : Nat) : carry a b i ≤ 1 := by
  unfold carry
  have hp : 0 < 2 ^ (64 * i) := Nat.pow_pos (by decide)
  have h1 := Nat.mod_lt a hp
  have h2 := Nat.mod_lt b hp
  generalize 2 ^ (64 * i) = p at *
  exact Nat.le_of_lt_succ ((Nat.div_lt_iff_lt_mul hp).mpr (by omega))

theorem add_div (a b i : Nat) :
    (a + b) / 2 ^ (64 * i) = a / 2 ^ (64 * i) + b / 2 ^ (64 * i) + carry a b i := by
  unfold carry
  have hp : 0 < 2 ^ (64 * i) := Nat.pow_pos (by decide)
  generalize 2 ^ (64 * i) = p at *
  have e1 := Nat.div_add_mod a p
  have e2 := Nat.div_add_mod b p
  have : a + b = (a % p + b % p) + p * (a / p + b / p) := by rw [Nat.mul_add]; omega
  rw [this, Nat.add_mul_div_left _ _ hp]
  omega

theorem limb_add (a b i : Nat) : limb i (a + b) = (limb i a + limb i b + carry a b i) % 2 ^ 64 := by
  unfold limb
  rw [add_div]
  generalize carry a b i = c
  omega

theorem mod_succ (x i : Nat) : x % 2 ^ (64 * (i + 1)) = x % 2 ^ (64 * i) + 2 ^ (64 * i) * limb i x := by
  rw [pow_succ64, Nat.mod_mul]
  rfl

theorem carry_succ (a b i : Nat) : carry a b (i + 1) = (limb i a + limb i b + carry a b i) / 2 ^ 64 := by
  show (a % 2 ^ (64 * (i + 1)) + b % 2 ^ (64 * (i + 1))) / 2 ^ (64 * (i + 1)) = _
  rw [mod_succ, mod_succ, pow_succ64, ← Nat.div_div_eq_div_mul]
  unfold carry
  have hp : 0 < 2 ^ (64 * i) := Nat.pow_pos (by decide)
  generalize 2 ^ (64 * i) = p at *
  generalize limb i a = x
  generalize limb i b = y
  rw [show a % p + p * x + (b % p + p * y) = (a % p + b % p) + p * (x + y) by rw [Nat.mul_add]; omega, Nat.add_mul_div_left _ _ hp,
    Nat.add_comm _ (x + y)]

theorem carry_zero (a b : Nat) : carry a b 0 = 0 := by
  unfold carry
  simp [Nat.mod_one]

theorem carry_pos (a b i : Nat) : carry a b i = 1 ↔ 2 ^ (64 * i) ≤ a % 2 ^ (64 * i) + b % 2 ^ (64 * i) := by
  have hc := carry_le a b i
  have hp : 0 < 2 ^ (64 * i) := Nat.pow_pos (by decide)
  have := Nat.div_pos_iff (a := a % 2 ^ (64 * i) + b % 2 ^ (64 * i)) (b := 2 ^ (64 * i))
  constructor
  · intro h
    exact (this.mp (by show 0 < carry a b i; omega)).2
  · intro h
    have : 0 < carry a b i := this.mpr ⟨hp, h⟩
    omega

/-- Where no carry has to be passed on the two additions agree. -/
theorem addNoRipple_eq (a b : Nat) (h : ¬ Ripple a b) : addNoRipple a b = add512 a b := by
  unfold addNoRipple add512
  rw [two512, ← ofLimbs_limb]
  apply ofLimbs_congr
  intro i hi
  rw [limb_add]
  congr 2
  cases i with
  | zero => rw [carry_zero]; rfl
  | succ i =>
    rw [carry_succ, Nat.add_sub_cancel]
    have h1 := carry_le a b i
    have h2 := limb_lt i a
    have h3 := limb_lt i b
    have h4 : ¬ (limb i a + limb i b = 2 ^ 64 - 1 ∧ carry a b i = 1) := by
      rintro ⟨h5, h6⟩
      exact h ⟨i, by omega, h5, (carry_pos a b i).mp h6⟩
    generalize limb i a = x at *
    generalize limb i b = y at *
    generalize carry a b i = c at *
    clear h
    split <;> omega

/-- Where a carry has to be passed on they differ. -/
theorem addNoRipple_ne (a b : Nat) (h : Ripple a b) : addNoRipple a b ≠ add512 a b := by
  obtain ⟨i, hi, hs, hc⟩ := h
  intro e
  have e1 := congrArg (limb (i + 1)) e
  unfold addNoRipple add512 at e1
  rw [two512, ← ofLimbs_limb, limb_ofLimbs _ _ _ (fun _ => Nat.mod_lt _ (by decide)) (by omega),
    limb_ofLimbs _ _ _ (fun _ => limb_lt _ _) (by omega)] at e1
  rw [limb_add, carry_succ, (carry_pos a b i).mpr hc, Nat.add_sub_cancel, hs, if_neg (by omega)] at e1
  have h2 := limb_lt (i + 1) a
  have h3 := limb_lt (i + 1) b
  generalize limb (i + 1) a = x at *
  generalize limb (i + 1) b = y at *
  clear hc hs e
  omega

theorem sumWith_eq (msg : Bytes) (h : NoRipple msg) (k : Nat) (hk : k ≤ (pad msg).length / 64) :
    sumWith addNoRipple msg k = sumWith add512 msg k := by
  induction k with
  | zero => simp only [sumWith, foldBlocks, List.range_zero, List.foldl_nil]
  | succ k ih =>
    have := h k (by omega)
    unfold sumWith at *
    unfold foldBlocks at *
    rw [List.range_succ, List.foldl_append, List.foldl_append, ih (by omega)]
    exact addNoRipple_eq _ _ this

theorem hashWith_eq (n : Nat) (msg : Bytes) (h : NoRipple msg) : hashWith addNoRipple n msg = hashWith add512 n msg := by
  unfold hashWith
  unfold hashGen
  rw [sumWith_eq msg h _ (Nat.le_refl _)]

/-- A carry into a word is impossible as long as the checksum is zero. -/
theorem noRipple_short (msg : Bytes) (h : msg.length < 64) : NoRipple msg := by
  intro k hk
  have hp : (pad msg).length = 64 := by
    unfold pad toMultiple
    simp
    omega
  have : k = 0 := by rw [hp] at hk; omega
  subst this
  rintro ⟨i, _, _, hc⟩
  have e : sumWith add512 msg 0 = 0 := by simp only [sumWith, foldBlocks, List.range_zero, List.foldl_nil]
  rw [e, Nat.zero_mod, Nat.zero_add] at hc
  exact absurd (Nat.mod_lt _ (Nat.pow_pos (by decide))) (Nat.not_lt.mpr hc)

end Digestpp.Proofs.Streebog
