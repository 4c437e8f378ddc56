import Verif.Vocab

/-! Differences at the input and output of an S-box, or of a table in which an S-box and a linear function are combined. -/

namespace Digestpp.Spec

/-- How many bytes `x` are such that the images of `x` and `x ⊕ a` have the difference `b`. -/
def differential {w : Nat} (S : Byte → BitVec w) (a : Byte) (b : BitVec w) : Nat :=
  (List.range 256).countP fun n => decide (S (BitVec.ofNat 8 n) ^^^ S (BitVec.ofNat 8 n ^^^ a) = b)

/-- `δ` is the greatest number of this kind for `a ≠ 0`. -/
def Uniformity {w : Nat} (S : Byte → BitVec w) (δ : Nat) : Prop :=
  (∀ a b, a ≠ 0 → differential S a b ≤ δ) ∧ ∃ a b, a ≠ 0 ∧ differential S a b = δ

end Digestpp.Spec
