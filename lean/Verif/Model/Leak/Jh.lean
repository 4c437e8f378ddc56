import Verif.Model.Leak
import Verif.Model.Locals.Jh
import Verif.Model.Jh

/-! `transform` of algorithm/detail/jh_provider.hpp, statement by statement, with checked indices of `H`, `C` and the message. Traced; see `Model/Leak`. -/

namespace Digestpp.Model.Leak.Jh
open Model.Jh
open Locals.Jh (sbitsliBody)

/-- jh_provider.hpp 22-25, for the reference `x` to `H[i]`. -/
def bitswapAt (mask : BitVec 64) (shift i : Nat) (H : List (BitVec 64)) : L (List (BitVec 64)) :=
  upd H i fun x => ((x &&& mask) <<< shift) ||| ((x &&& ~~~mask) >>> shift)

/-- jh_provider.hpp 27-37: `bitswap`. -/
def bitswap (mask : BitVec 64) (shift : Nat) (H : List (BitVec 64)) : L (List (BitVec 64)) := do
  let H ← bitswapAt mask shift 2 H
  let H ← bitswapAt mask shift 3 H
  let H ← bitswapAt mask shift 6 H
  let H ← bitswapAt mask shift 7 H
  let H ← bitswapAt mask shift 10 H
  let H ← bitswapAt mask shift 11 H
  let H ← bitswapAt mask shift 14 H
  bitswapAt mask shift 15 H

/-- jh_provider.hpp 88-91: `Sbitsli(H[i], H[i + 1], H[i + 4], H[i + 5], …, C[c], C[c + 1])`, with `i` 0 and 2; the references are eight
different elements. -/
def sbitsli (i c : Nat) (H : List (BitVec 64)) : L (List (BitVec 64)) := do
  let x0a ← rd H i
  let x0b ← rd H (i + 1)
  let x1a ← rd H (i + 4)
  let x1b ← rd H (i + 5)
  let x2a ← rd H (i + 8)
  let x2b ← rd H (i + 9)
  let x3a ← rd H (i + 12)
  let x3b ← rd H (i + 13)
  let ca ← rd jh_C c
  let cb ← rd jh_C (c + 1)
  let v := sbitsliBody ⟨x0a, x0b, x1a, x1b, x2a, x2b, x3a, x3b⟩ ca cb
  let H ← wr H i v.x0a
  let H ← wr H (i + 1) v.x0b
  let H ← wr H (i + 4) v.x1a
  let H ← wr H (i + 5) v.x1b
  let H ← wr H (i + 8) v.x2a
  let H ← wr H (i + 9) v.x2b
  let H ← wr H (i + 12) v.x3a
  wr H (i + 13) v.x3b

/-- `H[i] ^= H[j]`, as in jh_provider.hpp 68. -/
def xor1 (i j : Nat) (H : List (BitVec 64)) : L (List (BitVec 64)) := do
  let x ← rd H j
  upd H i (· ^^^ x)

/-- `H[i] ^= H[j] ^ H[k]`, as in jh_provider.hpp 72. -/
def xor2 (i j k : Nat) (H : List (BitVec 64)) : L (List (BitVec 64)) := do
  let x ← rd H j
  let y ← rd H k
  upd H i (· ^^^ (x ^^^ y))

/-- jh_provider.hpp 66-84: `Lbitsli`. -/
def lbitsli (H : List (BitVec 64)) : L (List (BitVec 64)) := do
  let H ← xor1 2 4 H
  let H ← xor1 3 5 H
  let H ← xor1 6 8 H
  let H ← xor1 7 9 H
  let H ← xor2 10 12 0 H
  let H ← xor2 11 13 1 H
  let H ← xor1 14 0 H
  let H ← xor1 15 1 H
  let H ← xor1 0 6 H
  let H ← xor1 1 7 H
  let H ← xor1 4 10 H
  let H ← xor1 5 11 H
  let H ← xor2 8 14 2 H
  let H ← xor2 9 15 3 H
  let H ← xor1 12 2 H
  xor1 13 3 H

/-- jh_provider.hpp 86-95: `round`. -/
def round (r : Nat) (mask : BitVec 64) (shift : Nat) (H : List (BitVec 64)) : L (List (BitVec 64)) := do
  let H ← sbitsli 0 (r * 4) H
  let H ← sbitsli 2 (r * 4 + 2) H
  let H ← lbitsli H
  if ← branch (shift ≠ 0) then bitswap mask shift H else pure H

/-- `std::swap(H[i], H[j])`, as in jh_provider.hpp 195. -/
def swap (i j : Nat) (H : List (BitVec 64)) : L (List (BitVec 64)) := do
  let x ← rd H i
  let y ← rd H j
  let H ← wr H i y
  wr H j x

/-- jh_provider.hpp 187-198: one iteration of the loop over `r`. -/
def seven (r : Nat) (H : List (BitVec 64)) : L (List (BitVec 64)) := do
  let H ← round r 0x5555555555555555#64 1 H
  let H ← round (r + 1) 0x3333333333333333#64 2 H
  let H ← round (r + 2) 0x0f0f0f0f0f0f0f0f#64 4 H
  let H ← round (r + 3) 0x00ff00ff00ff00ff#64 8 H
  let H ← round (r + 4) 0x0000ffff0000ffff#64 16 H
  let H ← round (r + 5) 0x00000000ffffffff#64 32 H
  let H ← round (r + 6) 0#64 0 H
  let H ← swap 2 3 H
  let H ← swap 6 7 H
  let H ← swap 10 11 H
  swap 14 15 H

/-- jh_provider.hpp 175-182 (`o` = 0), 201-208 (`o` = 8): the statements `H[o + i] ^= M[i]`. -/
def xorM (o : Nat) (mp : Bytes) (H : List (BitVec 64)) : L (List (BitVec 64)) := do
  let x ← rd64 mp 0
  let H ← upd H (o + 0) (· ^^^ x)
  let x ← rd64 mp 1
  let H ← upd H (o + 1) (· ^^^ x)
  let x ← rd64 mp 2
  let H ← upd H (o + 2) (· ^^^ x)
  let x ← rd64 mp 3
  let H ← upd H (o + 3) (· ^^^ x)
  let x ← rd64 mp 4
  let H ← upd H (o + 4) (· ^^^ x)
  let x ← rd64 mp 5
  let H ← upd H (o + 5) (· ^^^ x)
  let x ← rd64 mp 6
  let H ← upd H (o + 6) (· ^^^ x)
  let x ← rd64 mp 7
  upd H (o + 7) (· ^^^ x)

/-- jh_provider.hpp 174-208: one block; `mp` is the range that starts at the pointer `M`. The loop counts by seven. -/
def block (mp : Bytes) (H : List (BitVec 64)) : L (List (BitVec 64)) := do
  let H ← xorM 0 mp H
  let H ← loop 0 6 (fun t H => seven (7 * t) H) H
  xorM 8 mp H

/-- jh_provider.hpp 170-210: `transform`. -/
def transform (data : Bytes) (n : Nat) (s : Blk St) : L (Blk St) := do
  let H ← loop 0 n (fun blk H => block (data.drop (blk * 64)) H) s.h.H
  pure { s with h := { s.h with H := H } }

end Digestpp.Model.Leak.Jh
