import Verif.Spec.Gf

/-! What lies behind the literals of RFC 6986: the substitution `π` as a "TKlog" (L. Perrin, "Partitions in the S-Box of Streebog and
Kuznyechik", 2019) and the linear transformation as a matrix over the field with 256 elements (O. Kazymyrov, V. Kazymyrova, "Algebraic
Aspects of the Russian Hash Standard GOST R 34.11-2012", 2013; there with another polynomial and the bits reversed). -/

namespace Digestpp.Spec.StreebogField

/-- Multiplication modulo `x^8 + x^4 + x^3 + x^2 + 1`. -/
def mul (a b : Byte) : Byte := gmul 0x1d a b

/-- The powers of the generator `x`. -/
def pow : Nat → Byte
  | 0 => 1
  | n + 1 => mul 2 (pow n)

/-- The affine function `κ` of four bits. -/
def kappa (x : Nat) : Byte :=
  0xfc ^^^ (if x.testBit 0 then 0x12 else 0) ^^^ (if x.testBit 1 then 0x26 else 0) ^^^ (if x.testBit 2 then 0x24 else 0)
    ^^^ (if x.testBit 3 then 0x30 else 0)

/-- The permutation `s` of the numbers below 15. -/
def s (j : Nat) : Nat := [0, 12, 9, 8, 7, 4, 14, 6, 5, 10, 2, 11, 1, 3, 13].getD j 0

/-- The graph of `π`: zero goes to `κ(0)`, the nonzero elements `x^(17 j)` of the subfield with 16 elements to `κ(16 - j)`, and `x^(i + 17 j)`,
`0 < i < 17`, to the sum of `κ(16 - i)` and the element `x^(17 s(j))` of the subfield. -/
inductive TKlog : Byte → Byte → Prop
  | zero : TKlog 0 (kappa 0)
  | subfield (j : Nat) : 0 < j → j < 16 → TKlog (pow (17 * j)) (kappa (16 - j))
  | coset (i j : Nat) : 0 < i → i < 17 → j < 15 → TKlog (pow (i + 17 * j)) (kappa (16 - i) ^^^ pow (17 * s j))

/-- The matrix; the first row and column belong to the most significant byte. -/
def rows : List (List Byte) :=
  [[0x83, 0x47, 0x8b, 0x07, 0xb2, 0x46, 0x87, 0x64],
   [0x46, 0xb6, 0x0f, 0x01, 0x1a, 0x83, 0x98, 0x8e],
   [0xac, 0xcc, 0x9c, 0xa9, 0x32, 0x8a, 0x89, 0x50],
   [0x03, 0x21, 0x65, 0x8c, 0xba, 0x93, 0xc1, 0x38],
   [0x5b, 0x06, 0x8c, 0x65, 0x18, 0x10, 0xa8, 0x9e],
   [0xf9, 0x7d, 0x86, 0xd9, 0x8a, 0x32, 0x77, 0x28],
   [0xa4, 0x8b, 0x47, 0x4f, 0x9e, 0xf5, 0xdc, 0x18],
   [0x64, 0x1c, 0x31, 0x4b, 0x2b, 0x8e, 0xe0, 0x83]]

/-- The factor with which byte `k` of a word enters byte `i` of its image; byte 0 is the least significant. -/
def factor (i k : Nat) : Byte := (rows.getD (7 - k) []).getD (7 - i) 0

end Digestpp.Spec.StreebogField
