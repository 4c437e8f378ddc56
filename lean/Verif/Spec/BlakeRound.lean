import Verif.Vocab

/-! What BLAKE and BLAKE2 share: the permutations and the way a round applies `G` to the columns and then to the diagonals of a
4 × 4 matrix of words. -/

namespace Digestpp.Spec.Blake

/-- A column or a diagonal, from top to bottom. -/
structure Col (w : Nat) where
  a : BitVec w
  b : BitVec w
  c : BitVec w
  d : BitVec w

/-- The entry in row `i`. -/
def Col.row {w : Nat} (x : Col w) (i : Nat) : BitVec w :=
  if i = 0 then x.a else if i = 1 then x.b else if i = 2 then x.c else x.d

/-- A round on a matrix with entries `v (4 * row + column)`: `G_0` … `G_3` on the columns, then `G_4` … `G_7` on the diagonals, which
start in the given column and go right by one in each row. -/
def round {w : Nat} (G : Nat → Col w → Col w) (v : Nat → BitVec w) : Nat → BitVec w :=
  let col := fun j => G j ⟨v j, v (4 + j), v (8 + j), v (12 + j)⟩
  let u := fun k => (col (k % 4)).row (k / 4)
  let diag := fun j => G (4 + j) ⟨u j, u (4 + (j + 1) % 4), u (8 + (j + 2) % 4), u (12 + (j + 3) % 4)⟩
  fun k => (diag ((k % 4 + 4 - k / 4) % 4)).row (k / 4)

/-- The permutations of BLAKE (section 2.1.2, table of σ) and BLAKE2 (RFC 7693 section 2.7). -/
def sigma : List (List Nat) :=
  [[ 0,  1,  2,  3,  4,  5,  6,  7,  8,  9, 10, 11, 12, 13, 14, 15],
   [14, 10,  4,  8,  9, 15, 13,  6,  1, 12,  0,  2, 11,  7,  5,  3],
   [11,  8, 12,  0,  5,  2, 15, 13, 10, 14,  3,  6,  7,  1,  9,  4],
   [ 7,  9,  3,  1, 13, 12, 11, 14,  2,  6,  5, 10,  4,  0, 15,  8],
   [ 9,  0,  5,  7,  2,  4, 10, 15, 14,  1, 11, 12,  6,  8,  3, 13],
   [ 2, 12,  6, 10,  0, 11,  8,  3,  4, 13,  7,  5, 15, 14,  1,  9],
   [12,  5,  1, 15, 14, 13,  4, 10,  0,  7,  6,  3,  9,  2,  8, 11],
   [13, 11,  7, 14, 12,  1,  3,  9,  5,  0, 15,  4,  8,  6,  2, 10],
   [ 6, 15, 14,  9, 11,  3,  0,  8, 12,  2, 13,  7,  1,  4, 10,  5],
   [10,  2,  8,  4,  7,  6,  1,  5, 15, 11,  9, 14,  3, 12, 13,  0]]

/-- σ of round `r`, at `j`. -/
def perm (r j : Nat) : Nat := (sigma.getD (r % 10) []).getD j 0

end Digestpp.Spec.Blake
