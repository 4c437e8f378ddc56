import Verif.Model.Hasher
import Verif.Model.MdFinal
import Verif.Model.Validate
import Verif.Model.Tables.Streebog

/-! Model of algorithm/detail/streebog_provider.hpp. The function that adds a block to the checksum is an argument `add`, for the sake
of comparison with a corrected one; the code has `addm`. -/

namespace Digestpp.Model.Streebog

/-- streebog_provider.hpp 22-33: `lps<I>`. -/
def lps (I : Nat) (ch : Bytes) : BitVec 64 :=
  (streebog_T.getD 0 []).getD (ch.getD I 0).toNat 0 ^^^ (streebog_T.getD 1 []).getD (ch.getD (8 + I) 0).toNat 0 ^^^
  (streebog_T.getD 2 []).getD (ch.getD (16 + I) 0).toNat 0 ^^^ (streebog_T.getD 3 []).getD (ch.getD (24 + I) 0).toNat 0 ^^^
  (streebog_T.getD 4 []).getD (ch.getD (32 + I) 0).toNat 0 ^^^ (streebog_T.getD 5 []).getD (ch.getD (40 + I) 0).toNat 0 ^^^
  (streebog_T.getD 6 []).getD (ch.getD (48 + I) 0).toNat 0 ^^^ (streebog_T.getD 7 []).getD (ch.getD (56 + I) 0).toNat 0

/-- streebog_provider.hpp 35-48: `lps_block`. -/
def lpsBlock (block : List (BitVec 64)) : List (BitVec 64) :=
  let ch := stores64 block
  [lps 0 ch, lps 1 ch, lps 2 ch, lps 3 ch, lps 4 ch, lps 5 ch, lps 6 ch, lps 7 ch]

/-- streebog_provider.hpp 50-60: `xor_blocks`. -/
def xorBlocks (block toxor : List (BitVec 64)) : List (BitVec 64) :=
  (List.range 8).map fun i => block.getD i 0 ^^^ toxor.getD i 0

/-- streebog_provider.hpp 62-74: `e`; the result is the new `K`. -/
def e (K : List (BitVec 64)) (m : Bytes) : List (BitVec 64) :=
  ((List.range 12).foldl (fun (K, tmp) i =>
    let K := lpsBlock K
    let tmp := lpsBlock (xorBlocks tmp (streebog_RC.getD i []))
    (xorBlocks K tmp, tmp)) (xorBlocks K (loads64 8 m), K)).1

/-- streebog_provider.hpp 76-85: `gN`. -/
def gN (h : List (BitVec 64)) (m : Bytes) (N : BitVec 64) : List (BitVec 64) :=
  let hN := e (lpsBlock (h.set 0 (h.getD 0 0 ^^^ N))) m
  xorBlocks (xorBlocks h hN) (loads64 8 m)

/-- streebog_provider.hpp 87-98: `addm`. -/
def addm (m : Bytes) (h : List (BitVec 64)) : List (BitVec 64) :=
  let m64 := loads64 8 m
  ((List.range 8).foldl (fun (h, carry) i =>
    let t := h.getD i 0 + m64.getD i 0
    let overflow := t < h.getD i 0 || t < m64.getD i 0
    (h.set i (t + if carry then 1 else 0), overflow)) (h, false)).1

/-- streebog_provider.hpp 178-181: the members `h`, `S`, `hs`. -/
structure St where
  h : List (BitVec 64)
  S : List (BitVec 64)
  hs : Nat

variable (add : Bytes → List (BitVec 64) → List (BitVec 64))

/-- streebog_provider.hpp 167-176: `transform`. -/
def transform (final : Bool) (data : Bytes) (n : Nat) (s : Blk St) : M (Blk St) := do
  let h ← forBlocks 64 data n (fun blk b h =>
    pure { h with
      h := gN h.h b (if final then 0 else s.total + BitVec.ofNat 64 (blk * 512))
      S := if final then h.S else add b h.S }) s.h
  pure { s with h := h }

/-- streebog_provider.hpp 127-133: `init`. -/
def init (s : Blk St) : M (Blk St) :=
  pure { s with
    h := { s.h with
      h := loads64 8 (List.replicate 64 (if s.h.hs = 512 then 0 else 1))
      S := List.replicate 8 0 }
    pos := 0, total := 0 }

/-- streebog_provider.hpp 135-139: `update`. -/
def update (data : Bytes) (s : Blk St) : M (Blk St) :=
  absorbBytes 64 64 (transform add false) data s

/-- streebog_provider.hpp 149-154: the end of `final`. -/
def finalTail (s : Blk St) : M Bytes := do
  let m ← memcpyTo s.m 0 (bytes64 s.total)
  let m ← memset m 8 0 (64 - 8)
  let s ← transform add true m 1 { s with m := m }
  let s ← transform add true (stores64 s.h.S) 1 s
  readBytes (stores64 s.h.h) (8 * szSub 8 (s.h.hs / 64)) (s.h.hs / 8)

/-- streebog_provider.hpp 141-155: `final`. -/
def final (s : Blk St) : M Bytes := do
  let m ← setByte s.m s.pos 0x01
  let m ← zeroRest 64 m (s.pos + 1)
  let s ← transform add false m 1 { s with m := m, pos := s.pos + 1 }
  finalTail add { s with total := s.total + BitVec.ofNat 64 ((s.pos - 1) * 8) }

/-- streebog_provider.hpp 157-162: `clear`. -/
def clear (s : Blk St) : M (Blk St) :=
  pure { s with h := { s.h with h := List.replicate 8 0, S := List.replicate 8 0 }, m := zeroBytes s.m }

/-- streebog_provider.hpp 102-185: the class. -/
def provider : HashProvider (Blk St) Empty where
  init := init
  update := update add
  final := final add
  clear := clear
  hashSize := fun s => s.h.hs
  set := nofun

/-- streebog_provider.hpp 108-113: the constructor taking a size. -/
def new (hashsize : Nat) (mem : Blk St) : Option (Blk St) :=
  if validateList hashsize [256, 512] then some { mem with h := { mem.h with hs := hashsize } } else none

/-- The member arrays `h[8]`, `S[8]` and `m[64]` (streebog_provider.hpp 178-180). -/
def Mem (s : Blk St) : Prop := s.h.h.length = 8 ∧ s.h.S.length = 8 ∧ s.m.length = 64

/-- algorithm/streebog.hpp 80: `streebog(hashsize)` with a given addition. -/
def gen (hashsize : Nat) : HashClass where
  S := _
  P := _
  pr := provider add
  Mem := Mem
  ctor := fun s => pure (new hashsize s)

/-- algorithm/streebog.hpp 137-138: `static_size::streebog<N>` with a given addition. -/
def genStatic (N : Nat) : HashClass where
  S := _
  P := _
  pr := provider add
  Mem := Mem
  ctor := fun s => pure (some { s with h := { s.h with hs := N } })

/-- algorithm/streebog.hpp: `streebog(hashsize)`. -/
def streebog (hashsize : Nat) : HashClass := gen addm hashsize

/-- streebog_provider.hpp 115-120, algorithm/streebog.hpp: `static_size::streebog<N>`. -/
def streebogStatic (N : Nat) : HashClass := genStatic addm N

end Digestpp.Model.Streebog
