import Verif.Model.Hasher
import Verif.Model.MdFinal
import Verif.Model.Tables.Sha1

/-! Model of algorithm/detail/sha1_provider.hpp. -/

namespace Digestpp.Model.Sha1

/-- sha1_provider.hpp 21-24: `Ch`. -/
def Ch (x y z : BitVec 32) : BitVec 32 := (x &&& y) ^^^ (~~~x &&& z)

/-- sha1_provider.hpp 26-29: `Parity`. -/
def Parity (x y z : BitVec 32) : BitVec 32 := x ^^^ y ^^^ z

/-- sha1_provider.hpp 31-34: `Maj`. -/
def Maj (x y z : BitVec 32) : BitVec 32 := (x &&& y) ^^^ (x &&& z) ^^^ (y &&& z)

/-- sha1_provider.hpp 110-116: the variables of the round loop: `a, b, c, d, e` and the current `f` and `K`. -/
structure Vars where
  a : BitVec 32
  b : BitVec 32
  c : BitVec 32
  d : BitVec 32
  e : BitVec 32
  f : BitVec 32 → BitVec 32 → BitVec 32 → BitVec 32
  K : BitVec 32

/-- sha1_provider.hpp 127-141: `f` and `K` for the next rounds. -/
def switch (t : Nat) (v : Vars) : Vars :=
  if t = 19 then { v with f := Parity, K := sha1_K.getD 1 0 }
  else if t = 39 then { v with f := Maj, K := sha1_K.getD 2 0 }
  else if t = 59 then { v with f := Parity, K := sha1_K.getD 3 0 }
  else v

/-- sha1_provider.hpp 120-141: one round. -/
def round (W : List (BitVec 32)) (v : Vars) (t : Nat) : Vars :=
  let T := rotl v.a 5 + v.f v.b v.c v.d + v.e + v.K + W.getD t 0
  switch t { v with e := v.d, d := v.c, c := rotl v.b 30, b := v.a, a := T }

/-- sha1_provider.hpp 104-108: the array `W`, filled from the front. -/
def schedule (Mw : List (BitVec 32)) : List (BitVec 32) :=
  (List.range' 16 64).foldl (fun W t =>
    W ++ [rotl (W.getD (t - 3) 0 ^^^ W.getD (t - 8) 0 ^^^ W.getD (t - 14) 0 ^^^ W.getD (t - 16) 0) 1]) Mw

/-- sha1_provider.hpp 100-148: one iteration of the loop in `transform`. -/
def compress (block : Bytes) (H : List (BitVec 32)) : M (List (BitVec 32)) :=
  let Mw := (loads32 16 block).map byteswap32
  let W := schedule Mw
  let v : Vars := ⟨H.getD 0 0, H.getD 1 0, H.getD 2 0, H.getD 3 0, H.getD 4 0, Ch, sha1_K.getD 0 0⟩
  let v := (List.range 80).foldl (round W) v
  pure [H.getD 0 0 + v.a, H.getD 1 0 + v.b, H.getD 2 0 + v.c, H.getD 3 0 + v.d, H.getD 4 0 + v.e]

/-- sha1_provider.hpp 96-150: `transform`. -/
def transform (data : Bytes) (n : Nat) (s : Blk (List (BitVec 32))) : M (Blk (List (BitVec 32))) := do
  let h ← forBlocks 64 data n (fun _ b h => compress b h) s.h
  pure { s with h := h }

/-- sha1_provider.hpp 51-60: `init`. -/
def init (s : Blk (List (BitVec 32))) : M (Blk (List (BitVec 32))) :=
  pure { s with h := [0x67452301, 0xefcdab89, 0x98badcfe, 0x10325476, 0xc3d2e1f0], pos := 0, total := 0 }

/-- sha1_provider.hpp 62-66: `update`. -/
def update (data : Bytes) (s : Blk (List (BitVec 32))) : M (Blk (List (BitVec 32))) :=
  absorbBytes 64 64 transform data s

/-- sha1_provider.hpp 68-85: `final`. -/
def final (s : Blk (List (BitVec 32))) : M Bytes := do
  let s ← mdFinal 64 56 56 (fun total => bytes64 (byteswap64 total)) transform s
  readBytes (stores32 (s.h.map byteswap32)) 0 (160 / 8)

/-- sha1_provider.hpp 87-91: `clear`. -/
def clear (s : Blk (List (BitVec 32))) : M (Blk (List (BitVec 32))) :=
  pure { s with h := List.replicate 5 0, m := zeroBytes s.m }

/-- sha1_provider.hpp 37-156: the class, as used by `hasher`. -/
def provider : HashProvider (Blk (List (BitVec 32))) Empty where
  init := init
  update := update
  final := final
  clear := clear
  hashSize := fun _ => 160
  set := nofun

/-- algorithm/sha1.hpp: `sha1`. The provider has an implicit (empty) constructor. -/
def cls : HashClass where
  S := _
  P := _
  pr := provider
  Mem := fun s => s.m.length = 64
  ctor := fun s => pure (some s)

end Digestpp.Model.Sha1
