import Verif.Vocab

/-! Arithmetic in the field with 256 elements, the AES S-box, byte matrices. -/

namespace Digestpp.Spec

/-- Multiplication by `x` modulo `x^8 + p`. -/
def xtime (p a : Byte) : Byte := (a <<< 1) ^^^ (if a.getLsbD 7 then p else 0)

/-- The product of `a` and the polynomial formed by the low `n` bits of `b`, modulo `x^8 + p`. -/
def gmulN (p : Byte) : Nat → Byte → Byte → Byte
  | 0, _, _ => 0
  | n + 1, a, b => (if b.getLsbD 0 then a else 0) ^^^ gmulN p n (xtime p a) (b >>> 1)

/-- Multiplication modulo `x^8 + p`. -/
def gmul (p a b : Byte) : Byte := gmulN p 8 a b

/-- Multiplication modulo the AES polynomial `x^8 + x^4 + x^3 + x + 1`. -/
def aesMul (a b : Byte) : Byte := gmul 0x1b a b

/-- FIPS 197, 5.1.1: the multiplicative inverse, `0` for `0`; computed as the power 254. -/
def aesInv (a : Byte) : Byte :=
  let a2 := aesMul a a
  let a4 := aesMul a2 a2
  let a8 := aesMul a4 a4
  let a16 := aesMul a8 a8
  let a32 := aesMul a16 a16
  let a64 := aesMul a32 a32
  let a128 := aesMul a64 a64
  aesMul a2 (aesMul a4 (aesMul a8 (aesMul a16 (aesMul a32 (aesMul a64 a128)))))

/-- FIPS 197, 5.1.1: the S-box; inversion and an affine map. -/
def aesSbox (a : Byte) : Byte :=
  let b := aesInv a
  b ^^^ b.rotateLeft 1 ^^^ b.rotateLeft 2 ^^^ b.rotateLeft 3 ^^^ b.rotateLeft 4 ^^^ 0x63

/-- The sum of `f 0`, …, `f (n-1)` in a field of characteristic two. -/
def xorSum {w : Nat} (n : Nat) (f : Nat → BitVec w) : BitVec w := (List.range n).foldl (fun s k => s ^^^ f k) 0

/-- A matrix of bytes: row, column. -/
abbrev Mat := Nat → Nat → Byte

/-- Byte string to matrix with eight rows, column by column. -/
def matOf (b : Bytes) : Mat := fun i j => b.getD (8 * j + i) 0

/-- Matrix with eight rows and `c` columns to byte string. -/
def matBytes (c : Nat) (A : Mat) : Bytes := (List.range c).flatMap fun j => (List.range 8).map fun i => A i j

/-- Entrywise sum. -/
def matXor (A B : Mat) : Mat := fun i j => A i j ^^^ B i j

end Digestpp.Spec
