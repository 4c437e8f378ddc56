import Verif.Model.Hasher
import Verif.Model.MdFinal

/-! Model of algorithm/detail/sm3_provider.hpp.

The round functions call `rotate_left(const, t)` with `t` from 0 to 63, which shifts a 32-bit word by 32 (`t = 0`) or more
(`t ≥ 32`): undefined behaviour. The model takes the meaning of this one call as a parameter `rot`: `rotlChecked` is what the
language says, `rotlMasked` what the usual machines do. -/

namespace Digestpp.Model.Sm3

/-- The meaning of `rotate_left(uint32_t, int)` for counts that may be out of range. -/
abbrev Rot := BitVec 32 → Nat → M (BitVec 32)

/-- sm3_provider.hpp 20-23: `xorf`. -/
def xorf (x y z : BitVec 32) : BitVec 32 := x ^^^ y ^^^ z

/-- sm3_provider.hpp 25-28: `ff1`. -/
def ff1 (x y z : BitVec 32) : BitVec 32 := (x &&& y) ^^^ (x &&& z) ^^^ (y &&& z)

/-- sm3_provider.hpp 30-33: `gg1`. -/
def gg1 (x y z : BitVec 32) : BitVec 32 := (x &&& y) ^^^ (~~~x &&& z)

/-- sm3_provider.hpp 35-38: `p0`. -/
def p0 (x : BitVec 32) : BitVec 32 := x ^^^ rotl x 9 ^^^ rotl x 17

/-- sm3_provider.hpp 40-43: `p1`. -/
def p1 (x : BitVec 32) : BitVec 32 := x ^^^ rotl x 15 ^^^ rotl x 23

/-- The local variables `a` … `h` (sm3_provider.hpp 126-133). -/
structure Vars where
  a : BitVec 32
  b : BitVec 32
  c : BitVec 32
  d : BitVec 32
  e : BitVec 32
  f : BitVec 32
  g : BitVec 32
  h : BitVec 32

/-- sm3_provider.hpp 137-148 and 153-164: one round; `k`, `ff`, `gg` are the constant and functions of the loop. -/
def round (rot : Rot) (k : BitVec 32) (ff gg : BitVec 32 → BitVec 32 → BitVec 32 → BitVec 32) (W W2 : List (BitVec 32))
    (v : Vars) (t : Nat) : M Vars := do
  let kt ← rot k t
  let ss1 := rotl (rotl v.a 12 + v.e + kt) 7
  let ss2 := ss1 ^^^ rotl v.a 12
  let tt1 := ff v.a v.b v.c + v.d + ss2 + W2.getD t 0
  let tt2 := gg v.e v.f v.g + v.h + ss1 + W.getD t 0
  pure { d := v.c, c := rotl v.b 9, b := v.a, a := tt1, h := v.g, g := rotl v.f 19, f := v.e, e := p0 tt2 }

/-- sm3_provider.hpp 119-122: the array `W`, filled from the front. -/
def schedule (Mw : List (BitVec 32)) : List (BitVec 32) :=
  (List.range' 16 52).foldl (fun W t =>
    W ++ [p1 (W.getD (t - 16) 0 ^^^ W.getD (t - 9) 0 ^^^ rotl (W.getD (t - 3) 0) 15) ^^^ rotl (W.getD (t - 13) 0) 7 ^^^
      W.getD (t - 6) 0]) Mw

/-- sm3_provider.hpp 113-174: one iteration of the loop in `transform`. -/
def compress (rot : Rot) (block : Bytes) (H : List (BitVec 32)) : M (List (BitVec 32)) := do
  let Mw := (loads32 16 block).map byteswap32
  let W := schedule Mw
  let W2 := (List.range 64).map fun t => W.getD t 0 ^^^ W.getD (t + 4) 0          -- 123-124
  let v : Vars := ⟨H.getD 0 0, H.getD 1 0, H.getD 2 0, H.getD 3 0, H.getD 4 0, H.getD 5 0, H.getD 6 0, H.getD 7 0⟩
  let v ← (List.range 16).foldlM (round rot 0x79cc4519 xorf xorf W W2) v           -- 135-149
  let v ← (List.range' 16 48).foldlM (round rot 0x7a879d8a ff1 gg1 W W2) v         -- 151-165
  pure [H.getD 0 0 ^^^ v.a, H.getD 1 0 ^^^ v.b, H.getD 2 0 ^^^ v.c, H.getD 3 0 ^^^ v.d,
        H.getD 4 0 ^^^ v.e, H.getD 5 0 ^^^ v.f, H.getD 6 0 ^^^ v.g, H.getD 7 0 ^^^ v.h]

/-- sm3_provider.hpp 109-176: `transform`. -/
def transform (rot : Rot) (data : Bytes) (n : Nat) (s : Blk (List (BitVec 32))) : M (Blk (List (BitVec 32))) := do
  let h ← forBlocks 64 data n (fun _ b h => compress rot b h) s.h
  pure { s with h := h }

/-- sm3_provider.hpp 60-72: `init`. -/
def init (s : Blk (List (BitVec 32))) : M (Blk (List (BitVec 32))) :=
  pure { s with
    h := [0x7380166f, 0x4914b2b9, 0x172442d7, 0xda8a0600, 0xa96f30bc, 0x163138aa, 0xe38dee4d, 0xb0fb0e4e], pos := 0, total := 0 }

/-- sm3_provider.hpp 74-78: `update`. -/
def update (rot : Rot) (data : Bytes) (s : Blk (List (BitVec 32))) : M (Blk (List (BitVec 32))) :=
  absorbBytes 64 64 (transform rot) data s

/-- sm3_provider.hpp 80-98: `final`. -/
def final (rot : Rot) (s : Blk (List (BitVec 32))) : M Bytes := do
  let s ← mdFinal 64 56 56 (fun total => bytes64 (byteswap64 total)) (transform rot) s
  readBytes (stores32 (s.h.map byteswap32)) 0 32

/-- sm3_provider.hpp 100-104: `clear`. -/
def clear (s : Blk (List (BitVec 32))) : M (Blk (List (BitVec 32))) :=
  pure { s with h := List.replicate 8 0, m := zeroBytes s.m }

/-- sm3_provider.hpp 46-182: the class, as used by `hasher`. -/
def provider (rot : Rot) : HashProvider (Blk (List (BitVec 32))) Empty where
  init := init
  update := update rot
  final := final rot
  clear := clear
  hashSize := fun _ => 256
  set := nofun

/-- algorithm/sm3.hpp: `sm3`. -/
def cls (rot : Rot) : HashClass where
  S := _
  P := _
  pr := provider rot
  Mem := fun s => s.m.length = 64
  ctor := fun s => pure (some s)

end Digestpp.Model.Sm3
