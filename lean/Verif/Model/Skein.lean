import Verif.Model.Hasher
import Verif.Model.Validate
import Verif.Model.Tables.Skein

/-! Model of algorithm/detail/skein_provider.hpp. `N` is `64 * nw`, so `N / 8` is `8 * nw`. -/

namespace Digestpp.Model.Skein

/-- skein_provider.hpp 20-179, 341-351: what depends on the number `nw` of words: the tables of `skein_functions<nw>` and the number of calls of
`G8`. -/
structure Fns where
  nw : Nat
  I : List (List Nat)
  C : List (List Nat)
  g8 : Nat

/-- skein_provider.hpp 25-61: `skein_functions<4>`. -/
def f4 : Fns := ⟨4, skein_I4, skein_C4, 9⟩
/-- skein_provider.hpp 63-109: `skein_functions<8>`. -/
def f8 : Fns := ⟨8, skein_I8, skein_C8, 9⟩
/-- skein_provider.hpp 111-178: `skein_functions<16>`. -/
def f16 : Fns := ⟨16, skein_I16, skein_C16, 10⟩

/-- skein_provider.hpp 30-32: `G[i0] += G[i1]; G[i1] = rotate_left(G[i1], c) ^ G[i0]`. -/
def pair (i0 i1 c : Nat) (G : List (BitVec 64)) : M (List (BitVec 64)) := do
  let x0 := G.getD i0 0 + G.getD i1 0
  let x1 ← rotlChecked (G.getD i1 0) c
  pure ((G.set i0 x0).set i1 (x1 ^^^ x0))

/-- skein_provider.hpp 28-36, 66-80, 115-141: `GTv4<r>`. -/
def GTv4 (F : Fns) (r : Nat) (G : List (BitVec 64)) : M (List (BitVec 64)) :=
  (List.range (F.nw / 2)).foldlM
    (fun G j => pair ((F.I.getD r []).getD (2 * j) 0) ((F.I.getD r []).getD (2 * j + 1) 0) ((F.C.getD r []).getD j 0) G) G

/-- skein_provider.hpp 38-45, 82-93, 143-162: `KStRv4<r>`. -/
def KStRv4 (F : Fns) (r : Nat) (keys tweaks : List (BitVec 64)) (G : List (BitVec 64)) : List (BitVec 64) :=
  (List.range F.nw).map fun i =>
    let k := keys.getD ((r + i + 1) % (F.nw + 1)) 0
    G.getD i 0 +
      (if i = F.nw - 3 then k + tweaks.getD ((r + 1) % 3) 0
       else if i = F.nw - 2 then k + tweaks.getD ((r + 2) % 3) 0
       else if i = F.nw - 1 then k + BitVec.ofNat 64 r + 1
       else k)

/-- skein_provider.hpp 47-60, 95-108, 164-177: `G8<r>`. -/
def G8 (F : Fns) (r : Nat) (keys tweaks : List (BitVec 64)) (G : List (BitVec 64)) : M (List (BitVec 64)) := do
  let G ← GTv4 F 0 G
  let G ← GTv4 F 1 G
  let G ← GTv4 F 2 G
  let G ← GTv4 F 3 G
  let G := KStRv4 F r keys tweaks G
  let G ← GTv4 F 4 G
  let G ← GTv4 F 5 G
  let G ← GTv4 F 6 G
  let G ← GTv4 F 7 G
  pure (KStRv4 F (r + 1) keys tweaks G)

/-- skein_provider.hpp 380, 384-387: the members other than the block buffer. -/
structure St where
  H : List (BitVec 64)
  hbk : List (BitVec 64)
  tweak0 : BitVec 64
  tweak1 : BitVec 64
  hs : Nat
  squeezing : Bool
  p : Bytes
  n : Bytes
  k : Bytes

/-- skein_provider.hpp 332-339: `keys[N / 64]`, the xor of a constant and the other keys. -/
def lastKey (H : List (BitVec 64)) : BitVec 64 := H.foldl (· ^^^ ·) 0x1BD11BDAA9FC1A22

/-- skein_provider.hpp 333-339: `G` before the rounds. -/
def start (F : Fns) (W keys tweaks : List (BitVec 64)) : List (BitVec 64) :=
  (List.range F.nw).map fun i =>
    let g := W.getD i 0 + keys.getD i 0
    if i = F.nw - 3 then g + tweaks.getD 0 0
    else if i = F.nw - 2 then g + tweaks.getD 1 0
    else g

/-- skein_provider.hpp 317-358: one iteration of the loop in `transform`. -/
def block (F : Fns) (reallen : Nat) (b : Bytes) (h : St) : M St := do
  let W := loads64 F.nw b
  let t0 := h.tweak0 + BitVec.ofNat 64 reallen
  let tweaks := [t0, h.tweak1, t0 ^^^ h.tweak1]
  let keys := h.H ++ [lastKey h.H]
  let G ← (List.range F.g8).foldlM (fun G i => G8 F (2 * i) keys tweaks G) (start F W keys tweaks)
  pure { h with
    tweak0 := t0
    tweak1 := h.tweak1 &&& ~~~((64 : BitVec 64) <<< 56)
    H := (List.range F.nw).map fun i => G.getD i 0 ^^^ W.getD i 0 }

/-- skein_provider.hpp 315-360: `transform(mp, num_blks, reallen)`. -/
def transform (F : Fns) (reallen : Nat) (mp : Bytes) (n : Nat) (s : Blk St) : M (Blk St) := do
  let h ← forBlocks (8 * F.nw) mp n (fun _ b h => block F reallen b h) s.h
  pure { s with h := h }

/-- skein_provider.hpp 247-251: `update`. -/
def update (F : Fns) (data : Bytes) (s : Blk St) : M (Blk St) :=
  absorbBytes (8 * F.nw) (8 * F.nw + 1) (transform F (8 * F.nw)) data s

/-- skein_provider.hpp 260-261, 370-371: zeros after the data in the buffer. -/
def zeroTail (bs : Nat) (m : Bytes) (pos : Nat) : M Bytes :=
  if pos < bs then memset m pos 0 (bs - pos) else pure m

/-- skein_provider.hpp 259-263, 369-372: the last block. -/
def last (F : Fns) (s : Blk St) : M (Blk St) := do
  let m ← zeroTail (8 * F.nw) s.m s.pos
  transform F s.pos m 1 { s with m := m, h := { s.h with tweak1 := s.h.tweak1 ||| (1 : BitVec 64) <<< 63 } }

/-- `(1ULL << 62) | (code << 56)`. -/
def code1 (code : BitVec 64) : BitVec 64 := (1 : BitVec 64) <<< 62 ||| code <<< 56

/-- skein_provider.hpp 362-378: `inject_parameter(p, code)`. -/
def injectParameter (F : Fns) (p : Bytes) (code : BitVec 64) (s : Blk St) : M (Blk St) :=
  if p = [] then pure s
  else do
    let s ← update F p { s with h := { s.h with tweak1 := code1 code } }
    let s ← last F s
    pure { s with pos := 0, total := 0, h := { s.h with squeezing := false, tweak0 := 0, tweak1 := code1 48 } }

/-- skein_provider.hpp 229-236: the contents of `m` for the configuration block; 64-bit sizes. -/
def config (size64 : BitVec 64) (m : Bytes) : M Bytes := do
  let m := zeroBytes m
  let m ← setByte m 0 0x53
  let m ← setByte m 1 0x48
  let m ← setByte m 2 0x41
  let m ← setByte m 3 0x33
  let m ← setByte m 4 0x01
  memcpyTo m 8 (bytes64 size64)

/-- skein_provider.hpp 220-245: `init`. -/
def init (F : Fns) (xof : Bool) (s : Blk St) : M (Blk St) := do
  let s := { s with pos := 0, total := 0, h := { s.h with squeezing := false, tweak0 := 0, H := List.replicate F.nw 0 } }
  let s ← injectParameter F s.h.k 0 s
  let size64 := if xof then (-1 : BitVec 64) else BitVec.ofNat 64 s.h.hs
  let m ← config size64 s.m
  let s ← transform F 32 m 1
    { s with m := m, h := { s.h with tweak1 := (1 : BitVec 64) <<< 62 ||| (4 : BitVec 64) <<< 56 ||| (1 : BitVec 64) <<< 63 } }
  let s := { s with pos := 0, total := 0, h := { s.h with tweak0 := 0, tweak1 := code1 48 } }
  let s ← injectParameter F s.h.p 8 s
  injectParameter F s.h.n 20 s

/-- skein_provider.hpp 255-275: `squeeze` before the loop; the bytes it writes. -/
def squeezeFirst (F : Fns) (hs : Nat) (s : Blk St) : M (Bytes × Blk St) :=
  if s.h.squeezing = false then do
    let s ← last F { s with h := { s.h with squeezing := true } }
    let m ← memset s.m 0 0 (8 * F.nw)
    pure ([], { s with m := m, pos := 0, total := 0, h := { s.h with hbk := s.h.H } })
  else if s.pos < 8 * F.nw then do
    let toCopy := min hs (8 * F.nw - s.pos)
    let b ← readBytes (stores64 s.h.H) s.pos toCopy
    pure (b, { s with pos := s.pos + toCopy })
  else pure ([], s)

/-- skein_provider.hpp 276-287: `while (processed < hs)`. Every iteration copies at least one byte, so `hs` of them are enough.
`out` holds the bytes copied so far. -/
def squeezeLoop (F : Fns) (hs : Nat) : Nat → Bytes → Blk St → M (Bytes × Blk St)
  | 0, out, s => pure (out, s)
  | fuel + 1, out, s =>
    if out.length < hs then do
      let pos := min (hs - out.length) (8 * F.nw)
      let m ← memcpyTo s.m 0 (bytes64 s.total)
      let s ← transform F 8 m 1
        { s with m := m, pos := pos, h := { s.h with tweak0 := 0, tweak1 := (255 : BitVec 64) <<< 56, H := s.h.hbk } }
      let b ← readBytes (stores64 s.h.H) 0 pos
      squeezeLoop F hs fuel (out ++ b) { s with total := s.total + 1 }
    else pure (out, s)

/-- skein_provider.hpp 253-288: `squeeze`. -/
def squeeze (F : Fns) (hs : Nat) (s : Blk St) : M (Bytes × Blk St) := do
  let (out, s) ← squeezeFirst F hs s
  squeezeLoop F hs hs out s

/-- skein_provider.hpp 290-293: `final`. -/
def final (F : Fns) (s : Blk St) : M Bytes := do
  let (out, _) ← squeeze F (s.h.hs / 8) s
  pure out

/-- skein_provider.hpp 300-312: `clear`. -/
def clear (F : Fns) (s : Blk St) : M (Blk St) :=
  pure { s with
    m := zeroBytes s.m
    h := { s.h with H := List.replicate F.nw 0, hbk := List.replicate F.nw 0, tweak0 := 0, tweak1 := 0, p := [], n := [], k := [] } }

/-- skein_provider.hpp 205-218: `set_personalization`, `set_nonce`, `set_key`. -/
def set (p : SkeinParam) (s : Blk St) : M (Bool × Blk St) :=
  match p with
  | .personalization v => pure (false, { s with h := { s.h with p := v } })
  | .nonce v => pure (false, { s with h := { s.h with n := v } })
  | .key v => pure (false, { s with h := { s.h with k := v } })

/-- skein_provider.hpp 180-388: the class, `XOF = false`. -/
def provider (F : Fns) : HashProvider (Blk St) SkeinParam where
  init := init F false
  update := update F
  final := final F
  clear := clear F
  hashSize := fun s => s.h.hs
  set := set

/-- skein_provider.hpp 180-388: the class, `XOF = true`. -/
def xofProvider (F : Fns) : XofProvider (Blk St) SkeinParam where
  init := init F true
  update := update F
  squeeze := squeeze F
  clear := clear F
  set := set

/-- skein_provider.hpp 186-198, 387: what the constructors set; the strings are default-constructed. -/
def fields (hs : Nat) (mem : Blk St) : Blk St := { mem with h := { mem.h with hs := hs, p := [], n := [], k := [] } }

/-- The array members have their sizes (skein_provider.hpp 380-384). -/
def Mem (F : Fns) (s : Blk St) : Prop := s.m.length = 8 * F.nw

/-- skein_provider.hpp 186-191: the constructor taking a size. -/
def new (hashsize : Nat) (mem : Blk St) : Option (Blk St) :=
  if validateMax hashsize (szMod - 1) then some (fields hashsize mem) else none

/-- algorithm/skein.hpp: `skein256(n)`, `skein512(n)`, `skein1024(n)`. -/
def skein (F : Fns) (hashsize : Nat) : HashClass where
  S := _
  P := _
  pr := provider F
  Mem := Mem F
  ctor := fun s => pure (new hashsize s)

/-- skein_provider.hpp 193-198, algorithm/skein.hpp: `static_size::skein256<n>` and so on. -/
def skeinStatic (F : Fns) (n : Nat) : HashClass where
  S := _
  P := _
  pr := provider F
  Mem := Mem F
  ctor := fun s => pure (some (fields n s))

/-- algorithm/skein.hpp: `skein256_xof`, `skein512_xof`, `skein1024_xof`; the size is the default argument `N`. -/
def skeinXof (F : Fns) : XofClass where
  S := _
  P := _
  pr := xofProvider F
  Mem := Mem F
  ctor := fun s => pure (new (64 * F.nw) s)

end Digestpp.Model.Skein
