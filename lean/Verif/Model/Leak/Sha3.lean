import Verif.Model.Leak
import Verif.Model.Locals.Sha3
import Verif.Model.Sha3

/-! `transform` of algorithm/detail/sha3_provider.hpp with its local arrays. Traced; see `Model/Leak`. -/

namespace Digestpp.Model.Leak.Sha3
open Model.Sha3
open Locals.Sha3 (Stack)

/-- sha3_provider.hpp 28 (and likewise 29-32): the right-hand side. -/
def column (A : List (BitVec 64)) (x : Nat) : L (BitVec 64) := do
  let a0 ← rd A (0 * 5 + x)
  let a1 ← rd A (1 * 5 + x)
  let a2 ← rd A (2 * 5 + x)
  let a3 ← rd A (3 * 5 + x)
  let a4 ← rd A (4 * 5 + x)
  pure (a0 ^^^ a1 ^^^ a2 ^^^ a3 ^^^ a4)

/-- sha3_provider.hpp 28-32. -/
def fillC (A C : List (BitVec 64)) : L (List (BitVec 64)) := do
  let x ← column A 0
  let C ← wr C 0 x
  let x ← column A 1
  let C ← wr C 1 x
  let x ← column A 2
  let C ← wr C 2 x
  let x ← column A 3
  let C ← wr C 3 x
  let x ← column A 4
  let C ← wr C 4 x
  pure C

/-- sha3_provider.hpp 34 (and likewise 35-38): the right-hand side. -/
def parity (C : List (BitVec 64)) (i j : Nat) : L (BitVec 64) := do
  let x ← rd C i
  let y ← rd C j
  pure (x ^^^ rotl y 1)

/-- sha3_provider.hpp 34-38. -/
def fillD (C D : List (BitVec 64)) : L (List (BitVec 64)) := do
  let x ← parity C 4 1
  let D ← wr D 0 x
  let x ← parity C 0 2
  let D ← wr D 1 x
  let x ← parity C 1 3
  let D ← wr D 2 x
  let x ← parity C 2 4
  let D ← wr D 3 x
  let x ← parity C 3 0
  let D ← wr D 4 x
  pure D

/-- sha3_provider.hpp 41 (and likewise 42-68): the right-hand side. -/
def lane (A D : List (BitVec 64)) (i x n : Nat) (hn : 0 < n ∧ n < 64 := by decide) : L (BitVec 64) := do
  let a ← rd A i
  let d ← rd D x
  pure (rotl (a ^^^ d) n hn)

/-- sha3_provider.hpp 40. -/
def lane0 (A D : List (BitVec 64)) : L (BitVec 64) := do
  let a ← rd A (0 * 5 + 0)
  let d ← rd D 0
  pure (a ^^^ d)

/-- sha3_provider.hpp 70-74 (and likewise 76-80, 82-86, 88-92, 94-98): five elements of the new state. -/
def row (r : Nat) (b0 b1 b2 b3 b4 : BitVec 64) (A : List (BitVec 64)) : L (List (BitVec 64)) := do
  let A ← wr A (r * 5 + 0) (b0 ^^^ (~~~b1 &&& b2))
  let A ← wr A (r * 5 + 1) (b1 ^^^ (~~~b2 &&& b3))
  let A ← wr A (r * 5 + 2) (b2 ^^^ (~~~b3 &&& b4))
  let A ← wr A (r * 5 + 3) (b3 ^^^ (~~~b4 &&& b0))
  let A ← wr A (r * 5 + 4) (b4 ^^^ (~~~b0 &&& b1))
  pure A

/-- sha3_provider.hpp 70-98, 100: the new state from the values `B`, and the round constant. -/
def chi (B00 B1 B2 B3 B4 B5 B6 B7 B8 B9 B10 B11 B12 B13 B14 B15 B16 B17 B18 B19 B20 B21 B22 B23 B24 : BitVec 64) (round : Nat) (A : List (BitVec 64)) : L (List (BitVec 64)) := do
  let A ← row 0 B00 B1 B2 B3 B4 A
  let A ← row 1 B5 B6 B7 B8 B9 A
  let A ← row 2 B10 B11 B12 B13 B14 A
  let A ← row 3 B15 B16 B17 B18 B19 A
  let A ← row 4 B20 B21 B22 B23 B24 A
  let rc ← rd sha3_RC round
  upd A 0 (· ^^^ rc)

/-- sha3_provider.hpp 40-68, 70-100: the values `B` and the new state. -/
def lanes (A D : List (BitVec 64)) (round : Nat) : L (List (BitVec 64)) := do
  let B00 ← lane0 A D
  let B10 ← lane A D (0 * 5 + 1) 1 1
  let B20 ← lane A D (0 * 5 + 2) 2 62
  let B5 ← lane A D (0 * 5 + 3) 3 28
  let B15 ← lane A D (0 * 5 + 4) 4 27
  let B16 ← lane A D (1 * 5 + 0) 0 36
  let B1 ← lane A D (1 * 5 + 1) 1 44
  let B11 ← lane A D (1 * 5 + 2) 2 6
  let B21 ← lane A D (1 * 5 + 3) 3 55
  let B6 ← lane A D (1 * 5 + 4) 4 20
  let B7 ← lane A D (2 * 5 + 0) 0 3
  let B17 ← lane A D (2 * 5 + 1) 1 10
  let B2 ← lane A D (2 * 5 + 2) 2 43
  let B12 ← lane A D (2 * 5 + 3) 3 25
  let B22 ← lane A D (2 * 5 + 4) 4 39
  let B23 ← lane A D (3 * 5 + 0) 0 41
  let B8 ← lane A D (3 * 5 + 1) 1 45
  let B18 ← lane A D (3 * 5 + 2) 2 15
  let B3 ← lane A D (3 * 5 + 3) 3 21
  let B13 ← lane A D (3 * 5 + 4) 4 8
  let B14 ← lane A D (4 * 5 + 0) 0 18
  let B24 ← lane A D (4 * 5 + 1) 1 2
  let B9 ← lane A D (4 * 5 + 2) 2 61
  let B19 ← lane A D (4 * 5 + 3) 3 56
  let B4 ← lane A D (4 * 5 + 4) 4 14
  chi B00 B1 B2 B3 B4 B5 B6 B7 B8 B9 B10 B11 B12 B13 B14 B15 B16 B17 B18 B19 B20 B21 B22 B23 B24 round A

/-- sha3_provider.hpp 27-100: one round. -/
def round (k : Stack) (round : Nat) (A : List (BitVec 64)) : L (List (BitVec 64)) := do
  let C ← fillC A k.C
  let D ← fillD C k.D
  lanes A D round

/-- sha3_provider.hpp 22-102: `transform<R>(A)`; `k t` are the contents of the local arrays at the beginning of round `t`. -/
def permute (k : Nat → Stack) (R : Nat) (A : List (BitVec 64)) : L (List (BitVec 64)) :=
  loop (24 - R) 24 (fun t A => round (k t) t A) A

/-- sha3_provider.hpp 111-112. -/
def xorBlock (data : Bytes) (r r64 blk : Nat) (A : List (BitVec 64)) : L (List (BitVec 64)) :=
  loop 0 r64 (fun i A => do
    let x ← rd64 (data.drop (blk * r)) i
    upd A i (· ^^^ x)) A

/-- sha3_provider.hpp 104-116: `transform<R>(data, num_blks, A, rate)`. -/
def transform (k : Nat → Nat → Stack) (R rate : Nat) (data : Bytes) (n : Nat) (A : List (BitVec 64)) : L (List (BitVec 64)) :=
  loop 0 n (fun blk A => do
    let A ← xorBlock data (rate / 8) (rate / 64) blk A
    permute (k blk) R A) A

end Digestpp.Model.Leak.Sha3
