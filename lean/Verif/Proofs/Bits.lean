import Verif.Spec.Bits

/-! Words given bit by bit. -/

namespace Digestpp.Proofs

theorem getLsbD_ofBits (w : Nat) (f : Nat → Bool) (i : Nat) : (Spec.ofBits w f).getLsbD i = (decide (i < w) && f i) := by
  induction w with
  | zero => simp [Spec.ofBits]
  | succ w ih =>
    rw [Spec.ofBits, BitVec.getLsbD_cons]
    by_cases h : i = w
    · subst h; simp
    · rw [if_neg h, ih]
      congr 1
      simp only [decide_eq_decide]
      omega

theorem ofBits_eq {w : Nat} (x : BitVec w) (f : Nat → Bool) (h : ∀ i, i < w → f i = x.getLsbD i) : Spec.ofBits w f = x := by
  apply BitVec.eq_of_getLsbD_eq
  intro i hi
  rw [getLsbD_ofBits, h i hi, decide_eq_true hi, Bool.true_and]

end Digestpp.Proofs
