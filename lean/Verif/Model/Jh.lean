import Verif.Model.Absorb
import Verif.Model.MdFinal
import Verif.Model.Functions
import Verif.Model.Hasher
import Verif.Model.Validate
import Verif.Model.Tables.Jh

/-! Model of jh_provider.hpp. -/

namespace Digestpp.Model

/-- detail/functions.hpp 16-19: `byteswap(uint16_t)`. The argument is promoted to `int`, the result is converted back. -/
def byteswap16 (v : BitVec 16) : BitVec 16 := ((v &&& 0xff#16) <<< 8) ||| ((v &&& 0xff00#16) >>> 8)

namespace Jh

/-- jh_provider.hpp 22-25: `bitswap` of one word. All counts passed are between 1 and 32. -/
def bitswap1 (x mask : BitVec 64) (shift : Nat) : BitVec 64 :=
  ((x &&& mask) <<< shift) ||| ((x &&& ~~~mask) >>> shift)

/-- jh_provider.hpp 27-37: `bitswap` of the odd-numbered pairs of words. -/
def bitswap (H : List (BitVec 64)) (mask : BitVec 64) (shift : Nat) : List (BitVec 64) :=
  [H.getD 0 0, H.getD 1 0, bitswap1 (H.getD 2 0) mask shift, bitswap1 (H.getD 3 0) mask shift,
   H.getD 4 0, H.getD 5 0, bitswap1 (H.getD 6 0) mask shift, bitswap1 (H.getD 7 0) mask shift,
   H.getD 8 0, H.getD 9 0, bitswap1 (H.getD 10 0) mask shift, bitswap1 (H.getD 11 0) mask shift,
   H.getD 12 0, H.getD 13 0, bitswap1 (H.getD 14 0) mask shift, bitswap1 (H.getD 15 0) mask shift]

/-- jh_provider.hpp 39-64: `Sbitsli`. The statements come in pairs, one on `x0a, …, x3a, ca, ta` and the same on
`x0b, …, x3b, cb, tb`; this is one of the two halves. -/
def sbitsli (x0 x1 x2 x3 c : BitVec 64) : BitVec 64 × BitVec 64 × BitVec 64 × BitVec 64 :=
  let x3 := ~~~x3
  let x0 := x0 ^^^ (c &&& ~~~x2)
  let t := c ^^^ (x0 &&& x1)
  let x0 := x0 ^^^ (x2 &&& x3)
  let x3 := x3 ^^^ (~~~x1 &&& x2)
  let x1 := x1 ^^^ (x0 &&& x2)
  let x2 := x2 ^^^ (x0 &&& ~~~x3)
  let x0 := x0 ^^^ (x1 ||| x3)
  let x3 := x3 ^^^ (x1 &&& x2)
  let x1 := x1 ^^^ (t &&& x0)
  let x2 := x2 ^^^ t
  (x0, x1, x2, x3)

/-- jh_provider.hpp 66-84: `Lbitsli`. The statements come in pairs, one on the even-numbered words and the same on the words
after them; this is one of the two halves: the words `H[0], H[2], …, H[14]` before and after. -/
def lbitsli (h : List (BitVec 64)) : List (BitVec 64) :=
  let h2 := h.getD 1 0 ^^^ h.getD 2 0
  let h6 := h.getD 3 0 ^^^ h.getD 4 0
  let h10 := h.getD 5 0 ^^^ (h.getD 6 0 ^^^ h.getD 0 0)
  let h14 := h.getD 7 0 ^^^ h.getD 0 0
  let h0 := h.getD 0 0 ^^^ h6
  let h4 := h.getD 2 0 ^^^ h10
  let h8 := h.getD 4 0 ^^^ (h14 ^^^ h2)
  let h12 := h.getD 6 0 ^^^ h2
  [h0, h2, h4, h6, h8, h10, h12, h14]

/-- jh_provider.hpp 88-92: both `Sbitsli` and `Lbitsli` on the words `H[i], H[i + 2], …, H[i + 14]`, for `i` 0 or 1. -/
def half (H : List (BitVec 64)) (r i : Nat) : List (BitVec 64) :=
  let e := sbitsli (H.getD i 0) (H.getD (4 + i) 0) (H.getD (8 + i) 0) (H.getD (12 + i) 0) (jh_C.getD (r * 4 + i) 0)
  let o := sbitsli (H.getD (2 + i) 0) (H.getD (6 + i) 0) (H.getD (10 + i) 0) (H.getD (14 + i) 0) (jh_C.getD (r * 4 + 2 + i) 0)
  lbitsli [e.1, o.1, e.2.1, o.2.1, e.2.2.1, o.2.2.1, e.2.2.2, o.2.2.2]

/-- jh_provider.hpp 88-92: `round` up to `bitswap`. -/
def sl (H : List (BitVec 64)) (r : Nat) : List (BitVec 64) :=
  let a := half H r 0
  let b := half H r 1
  [a.getD 0 0, b.getD 0 0, a.getD 1 0, b.getD 1 0, a.getD 2 0, b.getD 2 0, a.getD 3 0, b.getD 3 0,
   a.getD 4 0, b.getD 4 0, a.getD 5 0, b.getD 5 0, a.getD 6 0, b.getD 6 0, a.getD 7 0, b.getD 7 0]

/-- jh_provider.hpp 86-95: `round`. -/
def round (H : List (BitVec 64)) (r : Nat) (mask : BitVec 64) (shift : Nat) : List (BitVec 64) :=
  let H := sl H r
  if shift ≠ 0 then bitswap H mask shift else H

/-- jh_provider.hpp 195-198: the four `std::swap`. -/
def swapWords (H : List (BitVec 64)) : List (BitVec 64) :=
  [H.getD 0 0, H.getD 1 0, H.getD 3 0, H.getD 2 0, H.getD 4 0, H.getD 5 0, H.getD 7 0, H.getD 6 0,
   H.getD 8 0, H.getD 9 0, H.getD 11 0, H.getD 10 0, H.getD 12 0, H.getD 13 0, H.getD 15 0, H.getD 14 0]

/-- jh_provider.hpp 187-198: one iteration of the loop over `r`. -/
def seven (H : List (BitVec 64)) (r : Nat) : List (BitVec 64) :=
  let H := round H r 0x5555555555555555#64 1
  let H := round H (r + 1) 0x3333333333333333#64 2
  let H := round H (r + 2) 0x0f0f0f0f0f0f0f0f#64 4
  let H := round H (r + 3) 0x00ff00ff00ff00ff#64 8
  let H := round H (r + 4) 0x0000ffff0000ffff#64 16
  let H := round H (r + 5) 0x00000000ffffffff#64 32
  let H := round H (r + 6) 0#64 0
  swapWords H

/-- jh_provider.hpp 175-182: `H[i] ^= M[i]` for `i` from 0 to 7. -/
def xorFirst (H M : List (BitVec 64)) : List (BitVec 64) :=
  (List.range 16).map fun i => if i < 8 then H.getD i 0 ^^^ M.getD i 0 else H.getD i 0

/-- jh_provider.hpp 201-208: `H[8 + i] ^= M[i]` for `i` from 0 to 7. -/
def xorLast (H M : List (BitVec 64)) : List (BitVec 64) :=
  (List.range 16).map fun i => if i < 8 then H.getD i 0 else H.getD i 0 ^^^ M.getD (i - 8) 0

/-- jh_provider.hpp 174-208: one block. -/
def compress (H : List (BitVec 64)) (M : List (BitVec 64)) : List (BitVec 64) :=
  let H := xorFirst H M
  let H := [0, 7, 14, 21, 28, 35].foldl seven H
  xorLast H M

/-- jh_provider.hpp 212-214: the members `H` and `hs`. -/
structure St where
  H : List (BitVec 64)
  hs : Nat

/-- jh_provider.hpp 170-210: `transform`. -/
def transform (data : Bytes) (n : Nat) (s : Blk St) : M (Blk St) := do
  let h ← forBlocks 64 data n (fun _ b h => pure { h with H := compress h.H (loads64 8 b) }) s.h
  pure { s with h := h }

/-- jh_provider.hpp 123-134: `init`. -/
def init (s : Blk St) : M (Blk St) :=
  transform (List.replicate 64 0) 1
    { s with
      h := { s.h with H := (List.replicate 16 0).set 0 (BitVec.setWidth 64 (byteswap16 (BitVec.ofNat 16 s.h.hs))) }
      pos := 0
      total := 0 }

/-- jh_provider.hpp 136-140: `update`. -/
def update (data : Bytes) (s : Blk St) : M (Blk St) := absorbBytes 64 64 transform data s

/-- jh_provider.hpp 142-159: `final`. -/
def final (s : Blk St) : M Bytes := do
  let s ← mdFinal 64 1 56 (fun t => bytes64 (byteswap64 t)) transform s
  readBytes (stores64 s.h.H) (szSub 128 (s.h.hs / 8)) (s.h.hs / 8)

/-- jh_provider.hpp 161-165: `clear`. -/
def clear (s : Blk St) : M (Blk St) :=
  pure { s with h := { s.h with H := List.replicate 16 0 }, m := zeroBytes s.m }

/-- jh_provider.hpp 98-217: the class. -/
def provider : HashProvider (Blk St) Empty where
  init := init
  update := update
  final := final
  clear := clear
  hashSize := fun s => s.h.hs
  set := nofun

/-- jh_provider.hpp 104-109: the constructor taking a size. -/
def new (hashsize : Nat) (mem : Blk St) : Option (Blk St) :=
  if validateMax hashsize 512 then some { mem with h := { mem.h with hs := hashsize } } else none

/-- The member arrays `H[16]` and `m[64]`. -/
def Mem (s : Blk St) : Prop := s.h.H.length = 16 ∧ s.m.length = 64

/-- algorithm/jh.hpp: `jh(hashsize)`. -/
def jh (hashsize : Nat) : HashClass where
  S := _
  P := _
  pr := provider
  Mem := Mem
  ctor := fun s => pure (new hashsize s)

/-- jh_provider.hpp 111-116, algorithm/jh.hpp: `static_size::jh<N>`. -/
def jhStatic (N : Nat) : HashClass where
  S := _
  P := _
  pr := provider
  Mem := Mem
  ctor := fun s => pure (some { s with h := { s.h with hs := N } })

end Digestpp.Model.Jh
