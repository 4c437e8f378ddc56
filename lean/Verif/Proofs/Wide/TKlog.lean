import Verif.Proofs.Wide.Streebog

/-! The substitution of Streebog as a function on the field. -/

namespace Digestpp.Proofs.Wide.Streebog
open Spec Spec.StreebogField

theorem pow_exp : ∀ n, n < 511 → pow n = expT exp_1d n
  | 0, _ => table_1d.one.symm
  | n + 1, h => by
    rw [table_1d.next n (by omega)]
    show mul 2 (pow n) = _
    rw [pow_exp n (by omega)]
    rfl

theorem tk_subfield : ∀ j, 0 < j → j < 16 → Streebog.pi.getD (expT exp_1d (17 * j)).toNat 0 = kappa (16 - j) := by
  have h : ∀ j, j < 16 → 0 < j → Streebog.pi.getD (expT exp_1d (17 * j)).toNat 0 = kappa (16 - j) := by decide +kernel
  exact fun j h0 h1 => h j h1 h0

theorem tk_coset : ∀ i, i < 17 → 0 < i → ∀ j, j < 15 →
    Streebog.pi.getD (expT exp_1d (i + 17 * j)).toNat 0 = kappa (16 - i) ^^^ expT exp_1d (17 * s j) := by decide +kernel

theorem s_lt : ∀ j, j < 15 → s j < 15 := by decide

theorem log_pos : ∀ n, n < 256 → 0 < n → expT exp_1d (if logT log_1d n = 0 then 255 else logT log_1d n) = BitVec.ofNat 8 n ∧
    (if logT log_1d n = 0 then 255 else logT log_1d n) < 256 ∧ 0 < (if logT log_1d n = 0 then 255 else logT log_1d n) := by decide +kernel

theorem pi_tklog (a b : Byte) : TKlog a b ↔ Streebog.pi.getD a.toNat 0 = b := by
  constructor
  · intro h
    cases h with
    | zero => decide +kernel
    | subfield j h0 h1 => rw [pow_exp _ (by omega)]; exact tk_subfield j h0 h1
    | coset i j h0 h1 h2 =>
      have := s_lt j h2
      rw [pow_exp _ (by omega), pow_exp _ (by omega)]
      exact tk_coset i h1 h0 j h2
  · intro h
    subst h
    by_cases h0 : a.toNat = 0
    · have : a = 0 := BitVec.eq_of_toNat_eq h0
      subst this
      exact TKlog.zero
    · obtain ⟨e, h1, h2⟩ := log_pos a.toNat a.isLt (by omega)
      rw [BitVec.ofNat_toNat, BitVec.setWidth_eq] at e
      generalize (if logT log_1d a.toNat = 0 then 255 else logT log_1d a.toNat) = n at e h1 h2
      subst e
      rw [← pow_exp n (by omega)]
      by_cases hm : n % 17 = 0
      · obtain ⟨j, rfl⟩ : ∃ j, n = 17 * j := ⟨n / 17, by omega⟩
        rw [pow_exp _ (by omega), tk_subfield j (by omega) (by omega), ← pow_exp _ (by omega)]
        exact TKlog.subfield j (by omega) (by omega)
      · obtain ⟨i, j, rfl, hi, hi', hj⟩ : ∃ i j, n = i + 17 * j ∧ 0 < i ∧ i < 17 ∧ j < 15 := ⟨n % 17, n / 17, by omega, by omega, by omega, by omega⟩
        have := s_lt j hj
        rw [pow_exp _ (by omega), tk_coset i hi' hi j hj, ← pow_exp _ (by omega), ← pow_exp (17 * s j) (by omega)]
        exact TKlog.coset i j hi hi' hj

end Digestpp.Proofs.Wide.Streebog
