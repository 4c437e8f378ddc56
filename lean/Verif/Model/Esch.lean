import Verif.Model.Hasher
import Verif.Model.Validate
import Verif.Model.Tables.Esch

/-! Model of algorithm/detail/esch_provider.hpp. The array `H` has `N / 32` elements; `sparkle` and `transform` use the first 12 of
them if `hs <= 256` and the first 16 otherwise, which is within the array for all classes of the library (`N = 384` occurs only with
`hs = 256`). -/

namespace Digestpp.Model.Esch

/-- `H[i]` for the member `H` (esch_provider.hpp 207). -/
def at32 (H : List (BitVec 32)) (i : Nat) : BitVec 32 := H.getD i 0

/-- esch_provider.hpp 32-43: the body of the loop over `j`, on `H[px]`, `H[py]`. -/
def arxBox (c x y : BitVec 32) : BitVec 32 × BitVec 32 :=
  let x := x + rotr y 31
  let y := y ^^^ rotr x 24
  let x := x ^^^ c
  let x := x + rotr y 17
  let y := y ^^^ rotr x 17
  let x := x ^^^ c
  let x := x + y
  let y := y ^^^ rotr x 31
  let x := x ^^^ c
  let x := x + rotr y 24
  let y := y ^^^ rotr x 16
  let x := x ^^^ c
  (x, y)

/-- esch_provider.hpp 30-44: the loop over `j`. -/
def arxLayer (rounds : Nat) (H : List (BitVec 32)) : List (BitVec 32) :=
  (List.range rounds).foldl (fun H j =>
    let r := arxBox (esch_C.getD j 0) (at32 H (2 * j)) (at32 H (2 * j + 1))
    (H.set (2 * j) r.1).set (2 * j + 1) r.2) H

/-- esch_provider.hpp 52-53, 186-187: `rotate_right(x ^ (x << 16), 16)`. -/
def ell (x : BitVec 32) : BitVec 32 := rotr (x ^^^ (x <<< 16)) 16

/-- esch_provider.hpp 45-53: the values of `x` and `y`. -/
def feistelXY (rounds : Nat) (H : List (BitVec 32)) : BitVec 32 × BitVec 32 :=
  let x := at32 H 0 ^^^ at32 H 2 ^^^ at32 H 4
  let y := at32 H 1 ^^^ at32 H 3 ^^^ at32 H 5
  let x := if rounds > 6 then x ^^^ at32 H 6 else x
  let y := if rounds > 6 then y ^^^ at32 H 7 else y
  (ell x, ell y)

/-- esch_provider.hpp 55-59: the loop over `i`, `j`. -/
def feistelXor (rounds : Nat) (x y : BitVec 32) (H : List (BitVec 32)) : List (BitVec 32) :=
  (List.range (rounds / 2)).foldl (fun H k =>
    let i := 2 * k
    let j := rounds + 2 * k
    let H := H.set j (at32 H j ^^^ (at32 H i ^^^ y))
    H.set (j + 1) (at32 H (j + 1) ^^^ (at32 H (i + 1) ^^^ x))) H

/-- esch_provider.hpp 60-70: moving the branches. -/
def permuteBranches (rounds : Nat) (H : List (BitVec 32)) : List (BitVec 32) :=
  let x := at32 H rounds
  let y := at32 H (rounds + 1)
  let H := (List.range (rounds - 2)).foldl (fun H i =>
    let H := H.set (i + rounds) (at32 H i)
    H.set i (at32 H (i + rounds + 2))) H
  let H := H.set (rounds * 2 - 2) (at32 H (rounds - 2))
  let H := H.set (rounds * 2 - 1) (at32 H (rounds - 1))
  let H := H.set (rounds - 2) x
  H.set (rounds - 1) y

/-- esch_provider.hpp 28-70: one iteration of the loop over `s`. -/
def sparkleStep (rounds s : Nat) (H : List (BitVec 32)) : List (BitVec 32) :=
  let H := H.set 1 (at32 H 1 ^^^ esch_C.getD (s % 8) 0)
  let H := H.set 3 (at32 H 3 ^^^ BitVec.ofNat 32 s)
  let H := arxLayer rounds H
  let xy := feistelXY rounds H
  permuteBranches rounds (feistelXor rounds xy.1 xy.2 H)

/-- esch_provider.hpp 23-72: `sparkle(H, rounds, ns)`. -/
def sparkle (rounds ns : Nat) (H : List (BitVec 32)) : List (BitVec 32) :=
  (List.range ns).foldl (fun H s => sparkleStep rounds s H) H

/-- esch_provider.hpp 207, 211-212: the members besides `m`, `pos`, `total`. -/
structure St where
  H : List (BitVec 32)
  hs : Nat
  squeezing : Bool

/-- esch_provider.hpp 181-203: one iteration of the loop in `transform`. -/
def absorbBlock (lastBlock : Bool) (b : Bytes) (h : St) : St :=
  let Mw := loads32 4 b
  let x := ell (at32 Mw 0 ^^^ at32 Mw 2)
  let y := ell (at32 Mw 1 ^^^ at32 Mw 3)
  let H := h.H
  let H := H.set 0 (at32 H 0 ^^^ at32 Mw 0 ^^^ y)
  let H := H.set 1 (at32 H 1 ^^^ at32 Mw 1 ^^^ x)
  let H := H.set 2 (at32 H 2 ^^^ at32 Mw 2 ^^^ y)
  let H := H.set 3 (at32 H 3 ^^^ at32 Mw 3 ^^^ x)
  let H := H.set 4 (at32 H 4 ^^^ y)
  let H := H.set 5 (at32 H 5 ^^^ x)
  let H := if h.hs > 256 then (H.set 6 (at32 H 6 ^^^ y)).set 7 (at32 H 7 ^^^ x) else H
  let steps := if lastBlock then 11 else 7
  let steps := if h.hs > 256 then steps + 1 else steps
  { h with H := sparkle (if h.hs > 256 then 8 else 6) steps H }

/-- esch_provider.hpp 177-204: `transform(data, num_blks, lastBlock)`. -/
def transform (lastBlock : Bool) (data : Bytes) (n : Nat) (s : Blk St) : M (Blk St) := do
  let h ← forBlocks 16 data n (fun _ b h => pure (absorbBlock lastBlock b h)) s.h
  pure { s with h := h }

/-- esch_provider.hpp 109-116: `init`. -/
def init (s : Blk St) : M (Blk St) :=
  pure { h := { s.h with squeezing := false, H := s.h.H.map fun _ => 0 }, m := zeroBytes s.m, pos := 0, total := 0 }

/-- esch_provider.hpp 118-122: `update`. -/
def update (data : Bytes) (s : Blk St) : M (Blk St) :=
  absorbBytes 16 (16 + 1) (transform false) data s

/-- esch_provider.hpp 135, 138: `H[(hs+128)/64 - 1] ^= v`. -/
def xorConst (v : BitVec 32) (h : St) : M St :=
  let i := (h.hs + 128) / 64 - 1
  if i < h.H.length then pure { h with H := h.H.set i (at32 h.H i ^^^ v) } else .error .outOfBounds

/-- esch_provider.hpp 127-149: the first part of `squeeze`; gives the bytes copied. -/
def squeezeFirst (xof : Bool) (hss : Nat) (s : Blk St) : M (Bytes × Blk St) :=
  if !s.h.squeezing then do
    let s := { s with total := 1, h := { s.h with squeezing := true } }
    let s ← (if s.pos < 16 then do
        let m ← memset s.m s.pos 0 (16 - s.pos)
        let m ← setByte m s.pos 0x80
        let h ← xorConst (if xof then 0x5000000 else 0x1000000) s.h
        pure { s with m := m, h := h }
      else do
        let h ← xorConst (if xof then 0x6000000 else 0x2000000) s.h
        pure { s with h := h })
    let s ← transform true s.m 1 s
    pure ([], s)
  else if s.pos < 16 then do
    let toCopy := min hss (16 - s.pos)
    let out ← readBytes (stores32 s.h.H) s.pos toCopy
    pure (out, { s with pos := s.pos + toCopy, total := 0 })
  else pure ([], s)

/-- esch_provider.hpp 151-159: `while (processed < hss)`. Every iteration copies at least one byte, so `hss` of them are enough.
`out` holds the bytes copied so far. -/
def squeezeLoop (hss : Nat) : Nat → Bytes → Blk St → M (Bytes × Blk St)
  | 0, out, s => pure (out, s)
  | fuel + 1, out, s =>
    if out.length < hss then do
      let H := if s.total = 0 then sparkle (if s.h.hs > 256 then 8 else 6) (if s.h.hs > 256 then 8 else 7) s.h.H else s.h.H
      let pos := min (hss - out.length) 16
      let b ← readBytes (stores32 H) 0 pos
      squeezeLoop hss fuel (out ++ b) { s with h := { s.h with H := H }, pos := pos, total := 0 }
    else pure (out, s)

/-- esch_provider.hpp 124-160: `squeeze`. -/
def squeeze (xof : Bool) (hss : Nat) (s : Blk St) : M (Bytes × Blk St) := do
  let (out, s) ← squeezeFirst xof hss s
  squeezeLoop hss hss out s

/-- esch_provider.hpp 162-165: `final`. -/
def final (s : Blk St) : M Bytes := do
  let (out, _) ← squeeze false (s.h.hs / 8) s
  pure out

/-- esch_provider.hpp 167-171: `clear`. -/
def clear (s : Blk St) : M (Blk St) :=
  pure { s with h := { s.h with H := s.h.H.map fun _ => 0 }, m := zeroBytes s.m }

/-- esch_provider.hpp 76-213: the class for `XOF = false`. -/
def provider : HashProvider (Blk St) Empty where
  init := init
  update := update
  final := final
  clear := clear
  hashSize := fun s => s.h.hs
  set := nofun

/-- esch_provider.hpp 76-213: the class for `XOF = true`. -/
def xofProvider : XofProvider (Blk St) Empty where
  init := init
  update := update
  squeeze := squeeze true
  clear := clear
  set := nofun

/-- esch_provider.hpp 207-208: the arrays `H[N / 32]` and `m[128]`. -/
def Mem (N : Nat) (s : Blk St) : Prop := s.h.H.length = N / 32 ∧ s.m.length = 128

/-- esch_provider.hpp 82-88: the constructor taking a size. -/
def new (hashsize : Nat) (mem : Blk St) : Option (Blk St) :=
  if validateList hashsize [256, 384] then some { mem with h := { mem.h with hs := hashsize, squeezing := false } } else none

/-- algorithm/esch.hpp: `esch(hashsize)`. -/
def esch (hashsize : Nat) : HashClass where
  S := _
  P := _
  pr := provider
  Mem := Mem 512
  ctor := fun s => pure (new hashsize s)

/-- esch_provider.hpp 90-96, algorithm/esch.hpp: `static_size::esch<N>`. -/
def eschStatic (N : Nat) : HashClass where
  S := _
  P := _
  pr := provider
  Mem := Mem 512
  ctor := fun s => pure (some { s with h := { s.h with hs := N, squeezing := false } })

/-- esch_provider.hpp 98-102, algorithm/esch.hpp: `esch256_xof` (`N = 384`) and `esch384_xof` (`N = 512`). -/
def eschXof (N : Nat) : XofClass where
  S := _
  P := _
  pr := xofProvider
  Mem := Mem N
  ctor := fun s => pure (some { s with h := { s.h with hs := N - 128, squeezing := false } })

end Digestpp.Model.Esch
