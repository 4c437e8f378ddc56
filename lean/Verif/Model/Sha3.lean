import Verif.Model.Hasher
import Verif.Model.Validate
import Verif.Model.Tables.Sha3

/-! Model of algorithm/detail/sha3_provider.hpp. -/

namespace Digestpp.Model.Sha3

/-- sha3_provider.hpp 25-101: one iteration of the round loop, with the round constant. -/
def round (A : List (BitVec 64)) (rc : BitVec 64) : List (BitVec 64) :=
  let a := fun i => A.getD i 0
  let C0 := a 0 ^^^ a 5 ^^^ a 10 ^^^ a 15 ^^^ a 20
  let C1 := a 1 ^^^ a 6 ^^^ a 11 ^^^ a 16 ^^^ a 21
  let C2 := a 2 ^^^ a 7 ^^^ a 12 ^^^ a 17 ^^^ a 22
  let C3 := a 3 ^^^ a 8 ^^^ a 13 ^^^ a 18 ^^^ a 23
  let C4 := a 4 ^^^ a 9 ^^^ a 14 ^^^ a 19 ^^^ a 24
  let D0 := C4 ^^^ rotl C1 1
  let D1 := C0 ^^^ rotl C2 1
  let D2 := C1 ^^^ rotl C3 1
  let D3 := C2 ^^^ rotl C4 1
  let D4 := C3 ^^^ rotl C0 1
  let B00 := a 0 ^^^ D0
  let B10 := rotl (a 1 ^^^ D1) 1
  let B20 := rotl (a 2 ^^^ D2) 62
  let B5 := rotl (a 3 ^^^ D3) 28
  let B15 := rotl (a 4 ^^^ D4) 27
  let B16 := rotl (a 5 ^^^ D0) 36
  let B1 := rotl (a 6 ^^^ D1) 44
  let B11 := rotl (a 7 ^^^ D2) 6
  let B21 := rotl (a 8 ^^^ D3) 55
  let B6 := rotl (a 9 ^^^ D4) 20
  let B7 := rotl (a 10 ^^^ D0) 3
  let B17 := rotl (a 11 ^^^ D1) 10
  let B2 := rotl (a 12 ^^^ D2) 43
  let B12 := rotl (a 13 ^^^ D3) 25
  let B22 := rotl (a 14 ^^^ D4) 39
  let B23 := rotl (a 15 ^^^ D0) 41
  let B8 := rotl (a 16 ^^^ D1) 45
  let B18 := rotl (a 17 ^^^ D2) 15
  let B3 := rotl (a 18 ^^^ D3) 21
  let B13 := rotl (a 19 ^^^ D4) 8
  let B14 := rotl (a 20 ^^^ D0) 18
  let B24 := rotl (a 21 ^^^ D1) 2
  let B9 := rotl (a 22 ^^^ D2) 61
  let B19 := rotl (a 23 ^^^ D3) 56
  let B4 := rotl (a 24 ^^^ D4) 14
  [B00 ^^^ (~~~B1 &&& B2) ^^^ rc, B1 ^^^ (~~~B2 &&& B3), B2 ^^^ (~~~B3 &&& B4), B3 ^^^ (~~~B4 &&& B00), B4 ^^^ (~~~B00 &&& B1),
   B5 ^^^ (~~~B6 &&& B7), B6 ^^^ (~~~B7 &&& B8), B7 ^^^ (~~~B8 &&& B9), B8 ^^^ (~~~B9 &&& B5), B9 ^^^ (~~~B5 &&& B6),
   B10 ^^^ (~~~B11 &&& B12), B11 ^^^ (~~~B12 &&& B13), B12 ^^^ (~~~B13 &&& B14), B13 ^^^ (~~~B14 &&& B10),
   B14 ^^^ (~~~B10 &&& B11),
   B15 ^^^ (~~~B16 &&& B17), B16 ^^^ (~~~B17 &&& B18), B17 ^^^ (~~~B18 &&& B19), B18 ^^^ (~~~B19 &&& B15),
   B19 ^^^ (~~~B15 &&& B16),
   B20 ^^^ (~~~B21 &&& B22), B21 ^^^ (~~~B22 &&& B23), B22 ^^^ (~~~B23 &&& B24), B23 ^^^ (~~~B24 &&& B20),
   B24 ^^^ (~~~B20 &&& B21)]

/-- sha3_provider.hpp 22-103: `transform<R>(A)`. -/
def permute (R : Nat) (A : List (BitVec 64)) : List (BitVec 64) :=
  (List.range' (24 - R) R).foldl (fun A r => round A (sha3_RC.getD r 0)) A

/-- sha3_provider.hpp 111-112: `A[i] ^= word i of the block`, for `i < r64`; `A` has 25 elements. -/
def xorBlock (r64 : Nat) (block : Bytes) (A : List (BitVec 64)) : M (List (BitVec 64)) :=
  if r64 ≤ 25 then
    let W := loads64 r64 block
    .ok ((List.range r64).foldl (fun A i => A.set i (A.getD i 0 ^^^ W.getD i 0)) A)
  else .error .outOfBounds

/-- sha3_provider.hpp 104-116: `transform<R>(data, num_blks, A, rate)`. -/
def transform (R rate : Nat) (data : Bytes) (n : Nat) (A : List (BitVec 64)) : M (List (BitVec 64)) :=
  forBlocks (rate / 8) data n (fun _ b A => do
    let A ← xorBlock (rate / 64) b A
    pure (permute R A)) A

/-- sha3_provider.hpp 165-166, shake_provider.hpp 131-132: `if (r != pos) memset(&m[pos], 0, r - pos)`. -/
def zeroFill (r : Nat) (m : Bytes) (pos : Nat) : M Bytes :=
  if r ≠ pos then memset m pos 0 (szSub r pos) else pure m

/-- sha3_provider.hpp 163-168, shake_provider.hpp 130-134: padding the last block with the suffix byte `d` and processing it;
gives the new `m` and `A`. The caller increments `pos`. -/
def padLast (R rate : Nat) (d : Byte) (m : Bytes) (pos : Nat) (A : List (BitVec 64)) : M (Bytes × List (BitVec 64)) := do
  let r := rate / 8
  let m ← setByte m pos d                                  -- m[pos++] = d
  let m ← zeroFill r m (pos + 1)
  let b ← readBytes m (szSub r 1) 1                        -- m[r - 1] |= 0x80
  let m ← setByte m (szSub r 1) (b.getD 0 0 ||| 0x80)
  let A ← transform R rate m 1 A
  pure (m, A)

/-- The members besides `m`, `pos`, `total` (sha3_provider.hpp 184-189). -/
structure St where
  A : List (BitVec 64)
  hs : Nat
  rate : Nat

/-- sha3_provider.hpp 148-153: `init`. -/
def init (s : Blk St) : M (Blk St) :=
  pure { s with h := { s.h with A := List.replicate 25 0 }, pos := 0, total := 0 }

/-- sha3_provider.hpp 158: the callback. -/
def onBlocks (data : Bytes) (n : Nat) (s : Blk St) : M (Blk St) := do
  let A ← transform 24 s.h.rate data n s.h.A
  pure { s with h := { s.h with A := A } }

/-- sha3_provider.hpp 155-159: `update`. -/
def update (data : Bytes) (s : Blk St) : M (Blk St) :=
  absorbBytes (s.h.rate / 8) (s.h.rate / 8) onBlocks data s

/-- sha3_provider.hpp 161-170: `final`. -/
def final (s : Blk St) : M Bytes := do
  let (_, A) ← padLast 24 s.h.rate 0x06 s.m s.pos s.h.A
  readBytes (stores64 A) 0 (s.h.hs / 8)

/-- sha3_provider.hpp 177-181: `clear`. -/
def clear (s : Blk St) : M (Blk St) :=
  pure { s with h := { s.h with A := List.replicate 25 0 }, m := zeroBytes s.m }

/-- sha3_provider.hpp 121-190: the class, as used by `hasher`. -/
def provider : HashProvider (Blk St) Empty where
  init := init
  update := update
  final := final
  clear := clear
  hashSize := fun s => s.h.hs
  set := nofun

/-- sha3_provider.hpp 127-133: the constructor taking a size; `none`: throws. -/
def new (hashsize : Nat) (mem : Blk St) : Option (Blk St) :=
  if validateList hashsize [224, 256, 384, 512] then
    some { mem with h := { mem.h with hs := hashsize, rate := szSub 1600 (hashsize * 2 % szMod) } }
  else none

/-- sha3_provider.hpp 135-141: the constructor for a compile-time size. -/
def newStatic (hss : Nat) (mem : Blk St) : Blk St :=
  { mem with h := { mem.h with hs := hss, rate := szSub 1600 (hss * 2 % szMod) } }

/-- algorithm/sha3.hpp: `sha3(hashsize)`. -/
def sha3 (hashsize : Nat) : HashClass where
  S := _
  P := _
  pr := provider
  Mem := fun s => s.m.length = 144
  ctor := fun s => pure (new hashsize s)

/-- algorithm/sha3.hpp: `static_size::sha3<N>`. -/
def sha3Static (N : Nat) : HashClass where
  S := _
  P := _
  pr := provider
  Mem := fun s => s.m.length = 144
  ctor := fun s => pure (some (newStatic N s))

end Digestpp.Model.Sha3
