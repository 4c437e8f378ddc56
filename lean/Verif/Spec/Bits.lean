import Verif.Vocab

/-! Words given bit by bit. -/

namespace Digestpp.Spec

/-- The word whose bit `i` (of weight `2^i`) is `f i`. -/
def ofBits : (w : Nat) → (Nat → Bool) → BitVec w
  | 0, _ => BitVec.nil
  | w + 1, f => BitVec.cons (f w) (ofBits w f)

end Digestpp.Spec
