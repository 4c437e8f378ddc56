import Verif.Spec.Active
import Verif.Spec.Echo

/-! The S-boxes of a round of ECHO: those of two rounds of the AES in each of sixteen words. -/

namespace Digestpp.Spec.Echo

/-- Word number `w` of 128 bits in an array of words of 64 bits, as an AES state. -/
def word (x : List (BitVec 64)) (w : Nat) : Mat := fun i j => byteAt (x.getD (2 * w + j / 2) 0) (4 * (j % 2) + i)

/-- The number of bytes in which two AES states differ. -/
def different (A B : Mat) : Nat := ((List.range 4).map fun j => (List.range 4).countP fun i => decide (A i j ≠ B i j)).sum

/-- The S-boxes with different inputs in the two AES rounds on all words of two states. The inputs of the second round are those of the first
after SubBytes, ShiftRows and MixColumns, up to the round key, which is the same for both states. -/
def activeBoxes (x y : List (BitVec 64)) : Nat :=
  ((List.range 16).map fun w => different (word x w) (word y w)
    + different (mixColumns (shiftRows (subBytes (word x w)))) (mixColumns (shiftRows (subBytes (word y w))))).sum

end Digestpp.Spec.Echo
