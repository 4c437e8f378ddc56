import Verif.Model.Leak
import Verif.Model.Locals.Esch
import Verif.Model.Esch

/-! `transform` and `sparkle` of algorithm/detail/esch_provider.hpp with the local array `M[4]` and checked indices of `H` and `C`. Traced; see `Model/Leak`. -/

namespace Digestpp.Model.Leak.Esch
open Model.Esch

/-- `H[a] += rotate_right(H[b], n)` and the like, as in esch_provider.hpp 32-42: `f` is applied to `H[a]` and `H[b]`. -/
def stmt (a b : Nat) (f : BitVec 32 → BitVec 32 → BitVec 32) (H : List (BitVec 32)) : L (List (BitVec 32)) := do
  let y ← rd H b
  upd H a (f · y)

/-- `H[px] ^= esch_constants<void>::C[j]` (esch_provider.hpp 34, 37, 40, 43; with `s % 8` for `j` 28). -/
def xorC (a j : Nat) (H : List (BitVec 32)) : L (List (BitVec 32)) := do
  let c ← rd esch_C j
  upd H a (· ^^^ c)

/-- esch_provider.hpp 32-43: the body of the loop over `j`. -/
def arxBody (px py j : Nat) (H : List (BitVec 32)) : L (List (BitVec 32)) := do
  let H ← stmt px py (fun x y => x + rotr y 31) H
  let H ← stmt py px (fun y x => y ^^^ rotr x 24) H
  let H ← xorC px j H
  let H ← stmt px py (fun x y => x + rotr y 17) H
  let H ← stmt py px (fun y x => y ^^^ rotr x 17) H
  let H ← xorC px j H
  let H ← stmt px py (fun x y => x + y) H
  let H ← stmt py px (fun y x => y ^^^ rotr x 31) H
  let H ← xorC px j H
  let H ← stmt px py (fun x y => x + rotr y 24) H
  let H ← stmt py px (fun y x => y ^^^ rotr x 16) H
  xorC px j H

/-- esch_provider.hpp 45-53: the values of `x` and `y`. -/
def feistelXY (rounds : Nat) (H : List (BitVec 32)) : L (BitVec 32 × BitVec 32) := do
  let a ← rd H 0
  let b ← rd H 2
  let c ← rd H 4
  let x := a ^^^ b ^^^ c
  let a ← rd H 1
  let b ← rd H 3
  let c ← rd H 5
  let y := a ^^^ b ^^^ c
  if ← branch (rounds > 6) then do
    let a ← rd H 6
    let b ← rd H 7
    pure (ell (x ^^^ a), ell (y ^^^ b))
  else pure (ell x, ell y)

/-- esch_provider.hpp 57-58; `i` and `j` are `2 * k` and `rounds + 2 * k`. -/
def feistelBody (rounds : Nat) (x y : BitVec 32) (k : Nat) (H : List (BitVec 32)) : L (List (BitVec 32)) := do
  let a ← rd H (2 * k)
  let H ← upd H (rounds + 2 * k) (· ^^^ (a ^^^ y))
  let a ← rd H (2 * k + 1)
  upd H (rounds + 2 * k + 1) (· ^^^ (a ^^^ x))

/-- `H[a] = H[b]`, as in esch_provider.hpp 64-65, 67-68. -/
def move (a b : Nat) (H : List (BitVec 32)) : L (List (BitVec 32)) := do
  let x ← rd H b
  wr H a x

/-- esch_provider.hpp 60-70: moving the branches. -/
def permuteBranches (rounds : Nat) (H : List (BitVec 32)) : L (List (BitVec 32)) := do
  let x ← rd H rounds
  let y ← rd H (rounds + 1)
  let H ← loop 0 (rounds - 2) (fun i H => do
    let H ← move (i + rounds) i H
    move i (i + rounds + 2) H) H
  let H ← move (rounds * 2 - 2) (rounds - 2) H
  let H ← move (rounds * 2 - 1) (rounds - 1) H
  let H ← wr H (rounds - 2) x
  wr H (rounds - 1) y

/-- esch_provider.hpp 28-70: one iteration of the loop over `s`. -/
def sparkleStep (rounds s : Nat) (H : List (BitVec 32)) : L (List (BitVec 32)) := do
  let H ← xorC 1 (s % 8) H
  let H ← upd H 3 (· ^^^ BitVec.ofNat 32 s)
  let H ← loop 0 rounds (fun j H => arxBody (2 * j) (2 * j + 1) j H) H
  let xy ← feistelXY rounds H
  let H ← loop 0 (rounds / 2) (feistelBody rounds xy.1 xy.2) H
  permuteBranches rounds H

/-- esch_provider.hpp 23-72: `sparkle(H, rounds, ns)`. -/
def sparkle (rounds ns : Nat) (H : List (BitVec 32)) : L (List (BitVec 32)) := loop 0 ns (sparkleStep rounds) H

/-- esch_provider.hpp 181-203: one iteration of the loop in `transform`; `Mw` is the contents of the local array at its beginning. -/
def block (hs : Nat) (lastBlock : Bool) (Mw : List (BitVec 32)) (data : Bytes) (blk : Nat) (H : List (BitVec 32)) : L (List (BitVec 32)) := do
  let Mw ← loop 0 4 (fun i Mw => do
    let x ← rd32 data (blk * 4 + i)
    wr Mw i x) Mw
  let m0 ← rd Mw 0
  let m2 ← rd Mw 2
  let x := m0 ^^^ m2
  let m1 ← rd Mw 1
  let m3 ← rd Mw 3
  let y := m1 ^^^ m3
  let x := ell x
  let y := ell y
  let m0 ← rd Mw 0
  let H ← upd H 0 (· ^^^ m0 ^^^ y)
  let m1 ← rd Mw 1
  let H ← upd H 1 (· ^^^ m1 ^^^ x)
  let m2 ← rd Mw 2
  let H ← upd H 2 (· ^^^ m2 ^^^ y)
  let m3 ← rd Mw 3
  let H ← upd H 3 (· ^^^ m3 ^^^ x)
  let H ← upd H 4 (· ^^^ y)
  let H ← upd H 5 (· ^^^ x)
  let steps := if ← branch lastBlock then 11 else 7
  if ← branch (hs > 256) then do
    let H ← upd H 6 (· ^^^ y)
    let H ← upd H 7 (· ^^^ x)
    sparkle 8 (steps + 1) H
  else sparkle 6 steps H

/-- esch_provider.hpp 177-204: `transform(data, num_blks, lastBlock)`. -/
def transform (k : Nat → List (BitVec 32)) (lastBlock : Bool) (data : Bytes) (n : Nat) (s : Blk St) : L (Blk St) := do
  let H ← loop 0 n (fun blk H => block s.h.hs lastBlock (k blk) data blk H) s.h.H
  pure { s with h := { s.h with H := H } }

end Digestpp.Model.Leak.Esch
