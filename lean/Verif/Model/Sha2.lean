import Verif.Model.Hasher
import Verif.Model.MdFinal
import Verif.Model.Validate
import Verif.Model.Tables.Sha2

/-! Model of algorithm/detail/sha2_provider.hpp. -/

namespace Digestpp.Model.Sha2

/-- What depends on the template parameter `T` (`uint32_t` or `uint64_t`): the overloaded functions of `sha2_functions`, `getK`,
`byteswap`, loads and stores, and the constant `N`. -/
structure Word (w : Nat) where
  N : Nat
  rounds : Nat
  sum0 : BitVec w → BitVec w
  sum1 : BitVec w → BitVec w
  sigma0 : BitVec w → BitVec w
  sigma1 : BitVec w → BitVec w
  K : List (BitVec w)
  byteswap : BitVec w → BitVec w
  loads : Nat → Bytes → List (BitVec w)
  stores : List (BitVec w) → Bytes

/-- sha2_provider.hpp 69-87, 37-41, 225, 267: `T = uint32_t`. -/
def u32 : Word 32 where
  N := 256
  rounds := 64
  sum0 := fun x => rotr x 2 ^^^ rotr x 13 ^^^ rotr x 22
  sum1 := fun x => rotr x 6 ^^^ rotr x 11 ^^^ rotr x 25
  sigma0 := fun x => rotr x 7 ^^^ rotr x 18 ^^^ (x >>> 3)
  sigma1 := fun x => rotr x 17 ^^^ rotr x 19 ^^^ (x >>> 10)
  K := sha256_K
  byteswap := byteswap32
  loads := loads32
  stores := stores32

/-- sha2_provider.hpp 49-67, 43-47, 225, 267: `T = uint64_t`. -/
def u64 : Word 64 where
  N := 512
  rounds := 80
  sum0 := fun x => rotr x 28 ^^^ rotr x 34 ^^^ rotr x 39
  sum1 := fun x => rotr x 14 ^^^ rotr x 18 ^^^ rotr x 41
  sigma0 := fun x => rotr x 1 ^^^ rotr x 8 ^^^ (x >>> 7)
  sigma1 := fun x => rotr x 19 ^^^ rotr x 61 ^^^ (x >>> 6)
  K := sha512_K
  byteswap := byteswap64
  loads := loads64
  stores := stores64

/-- sha2_provider.hpp 22-26: `Ch`. -/
def Ch {w : Nat} (x y z : BitVec w) : BitVec w := (x &&& y) ^^^ (~~~x &&& z)

/-- sha2_provider.hpp 28-32: `Maj`. -/
def Maj {w : Nat} (x y z : BitVec w) : BitVec w := (x &&& y) ^^^ (x &&& z) ^^^ (y &&& z)

/-- The local variables `a` … `h` (sha2_provider.hpp 232-239). -/
structure Vars (w : Nat) where
  a : BitVec w
  b : BitVec w
  c : BitVec w
  d : BitVec w
  e : BitVec w
  f : BitVec w
  g : BitVec w
  h : BitVec w

/-- sha2_provider.hpp 243-252: one round. -/
def round {w : Nat} (T : Word w) (W : List (BitVec w)) (v : Vars w) (t : Nat) : Vars w :=
  let T1 := v.h + T.sum1 v.e + Ch v.e v.f v.g + T.K.getD t 0 + W.getD t 0
  let T2 := T.sum0 v.a + Maj v.a v.b v.c
  { h := v.g, g := v.f, f := v.e, e := v.d + T1, d := v.c, c := v.b, b := v.a, a := T1 + T2 }

/-- sha2_provider.hpp 226-230: the array `W`, filled from the front. -/
def schedule {w : Nat} (T : Word w) (Mw : List (BitVec w)) : List (BitVec w) :=
  (List.range' 16 (T.rounds - 16)).foldl (fun W t =>
    W ++ [T.sigma1 (W.getD (t - 2) 0) + W.getD (t - 7) 0 + T.sigma0 (W.getD (t - 15) 0) + W.getD (t - 16) 0]) Mw

/-- sha2_provider.hpp 221-262: one iteration of the loop in `transform`. -/
def compress {w : Nat} (T : Word w) (block : Bytes) (H : List (BitVec w)) : List (BitVec w) :=
  let Mw := (T.loads 16 block).map T.byteswap
  let W := schedule T Mw
  let v : Vars w := ⟨H.getD 0 0, H.getD 1 0, H.getD 2 0, H.getD 3 0, H.getD 4 0, H.getD 5 0, H.getD 6 0, H.getD 7 0⟩
  let v := (List.range T.rounds).foldl (round T W) v
  [H.getD 0 0 + v.a, H.getD 1 0 + v.b, H.getD 2 0 + v.c, H.getD 3 0 + v.d,
   H.getD 4 0 + v.e, H.getD 5 0 + v.f, H.getD 6 0 + v.g, H.getD 7 0 + v.h]

/-- sha2_provider.hpp 268, 272: the members other than the block buffer: `H` and `hs`. -/
structure St (w : Nat) where
  H : List (BitVec w)
  hs : Nat

/-- sha2_provider.hpp 217-265: `transform`. -/
def transform {w : Nat} (T : Word w) (data : Bytes) (n : Nat) (s : Blk (St w)) : M (Blk (St w)) := do
  let h ← forBlocks (T.N / 4) data n (fun _ b h => pure { h with H := compress T b h.H }) s.h
  pure { s with h := h }

/-- sha2_provider.hpp 183-187: `update`. -/
def update {w : Nat} (T : Word w) (data : Bytes) (s : Blk (St w)) : M (Blk (St w)) :=
  absorbBytes (T.N / 4) (T.N / 4) (transform T) data s

/-- sha2_provider.hpp 191-204: `final` without the copy to `hash`. -/
def finalState {w : Nat} (T : Word w) (s : Blk (St w)) : M (Blk (St w)) := do
  let s ← mdFinal (T.N / 4) (T.N / 4 - w / 8 * 2) (T.N / 4) (fun total => bytes64 (byteswap64 total)) (transform T) s
  pure { s with h := { s.h with H := s.h.H.map T.byteswap } }

/-- sha2_provider.hpp 205: `memcpy(hash, &H[0], hs/8)`: the bytes copied. -/
def output {w : Nat} (T : Word w) (s : Blk (St w)) : M Bytes :=
  readBytes (T.stores s.h.H) 0 (s.h.hs / 8)

/-- sha2_provider.hpp 189-206: `final`. -/
def final {w : Nat} (T : Word w) (s : Blk (St w)) : M Bytes := do
  let s ← finalState T s
  output T s

/-- sha2_provider.hpp 208-212: `clear`. -/
def clear {w : Nat} (s : Blk (St w)) : M (Blk (St w)) :=
  pure { s with h := { s.h with H := List.replicate 8 0 }, m := zeroBytes s.m }

/-- sha2_provider.hpp 290-303: `sha2_provider<uint32_t, 256>::init`. -/
def init256 (s : Blk (St 32)) : M (Blk (St 32)) :=
  pure { s with pos := 0, total := 0, h := { s.h with
    H := [0x6a09e667, 0xbb67ae85, 0x3c6ef372, 0xa54ff53a, 0x510e527f, 0x9b05688c, 0x1f83d9ab, 0x5be0cd19] } }

/-- sha2_provider.hpp 275-288: `sha2_provider<uint32_t, 224>::init`. -/
def init224 (s : Blk (St 32)) : M (Blk (St 32)) :=
  pure { s with pos := 0, total := 0, h := { s.h with
    H := [0xc1059ed8, 0x367cd507, 0x3070dd17, 0xf70e5939, 0xffc00b31, 0x68581511, 0x64f98fa7, 0xbefa4fa4] } }

/-- sha2_provider.hpp 126-134: the values for 224 bits. -/
def iv512_224 : List (BitVec 64) :=
  [0x8C3D37C819544DA2, 0x73E1996689DCD4D6, 0x1DFAB7AE32FF9C82, 0x679DD514582F9FCF,
   0x0F6D2B697BD44DA8, 0x77E36F7304C48942, 0x3F9D85A86A1D36C8, 0x1112E6AD91D692A1]

/-- sha2_provider.hpp 136-144: the values for 256 bits. -/
def iv512_256 : List (BitVec 64) :=
  [0x22312194FC2BF72C, 0x9F555FA3C84C64C2, 0x2393B86B6F53B151, 0x963877195940EABD,
   0x96283EE2A88EFFE3, 0xBE5E1E2553863992, 0x2B0199FC2C85B8AA, 0x0EB72DDC81C52CA2]

/-- sha2_provider.hpp 146-154: the values for 384 bits. -/
def iv384 : List (BitVec 64) :=
  [0xcbbb9d5dc1059ed8, 0x629a292a367cd507, 0x9159015a3070dd17, 0x152fecd8f70e5939,
   0x67332667ffc00b31, 0x8eb44a8768581511, 0xdb0c2e0d64f98fa7, 0x47b5481dbefa4fa4]

/-- sha2_provider.hpp 156-164: the values for 512 bits. -/
def iv512 : List (BitVec 64) :=
  [0x6a09e667f3bcc908, 0xbb67ae8584caa73b, 0x3c6ef372fe94f82b, 0xa54ff53a5f1d36f1,
   0x510e527fade682d1, 0x9b05688c2b3e6c1f, 0x1f83d9abfb41bd6b, 0x5be0cd19137e2179]

/-- sha2_provider.hpp 172: `"SHA-512/" + std::to_string(hs)`. -/
def ivName (hs : Nat) : Bytes :=
  [0x53, 0x48, 0x41, 0x2d, 0x35, 0x31, 0x32, 0x2f] ++ (Nat.toDigits 10 hs).map fun c => BitVec.ofNat 8 c.toNat

/-- sha2_provider.hpp 170-180: the end of `init`, computing the initial value for an unusual size with the object itself.
`buf` is the 64-byte array `final` writes its output to. -/
def initGen (s : Blk (St 64)) : M (Blk (St 64)) := do
  let s := { s with h := { s.h with H := s.h.H.map (· ^^^ 0xa5a5a5a5a5a5a5a5) } }
  let s ← update u64 (ivName s.h.hs) s
  let s ← finalState u64 s
  let out ← output u64 s
  let _ ← memcpyTo (List.replicate 64 0) 0 out
  pure { s with h := { s.h with H := s.h.H.map byteswap64 }, pos := 0, total := 0 }

/-- sha2_provider.hpp 118-181: `init` for `T = uint64_t`. -/
def init512 (s : Blk (St 64)) : M (Blk (St 64)) :=
  let s := { s with pos := 0, total := 0 }
  match s.h.hs with
  | 224 => pure { s with h := { s.h with H := iv512_224 } }
  | 256 => pure { s with h := { s.h with H := iv512_256 } }
  | 384 => pure { s with h := { s.h with H := iv384 } }
  | hs =>
    let s := { s with h := { s.h with H := iv512 } }
    if hs = 512 then pure s else initGen s

/-- sha2_provider.hpp 92-273: the class for `T = uint64_t` (`sha512`, `sha384`, `static_size::sha512<N>`). -/
def provider512 : HashProvider (Blk (St 64)) Empty where
  init := init512
  update := update u64
  final := final u64
  clear := clear
  hashSize := fun s => s.h.hs
  set := nofun

/-- sha2_provider.hpp 92-273, 290-303: `sha2_provider<uint32_t, 256>`. -/
def provider256 : HashProvider (Blk (St 32)) Empty where
  init := init256
  update := update u32
  final := final u32
  clear := clear
  hashSize := fun s => s.h.hs
  set := nofun

/-- sha2_provider.hpp 92-273, 275-288: `sha2_provider<uint32_t, 224>`. -/
def provider224 : HashProvider (Blk (St 32)) Empty where
  init := init224
  update := update u32
  final := final u32
  clear := clear
  hashSize := fun s => s.h.hs
  set := nofun

/-- sha2_provider.hpp 106-111: the constructor taking a size; `none`: throws. `mem` is the uninitialised memory. -/
def new512 (hashsize : Nat) (mem : Blk (St 64)) : Option (Blk (St 64)) :=
  if validateMax hashsize 512 then some { mem with h := { mem.h with hs := hashsize } } else none

/-- sha2_provider.hpp 98-104: the default constructor with template argument `O`. -/
def newStatic {w : Nat} (O : Nat) (mem : Blk (St w)) : Blk (St w) := { mem with h := { mem.h with hs := O } }

/-- algorithm/sha2.hpp: `sha512(hashsize)`. -/
def sha512 (hashsize : Nat) : HashClass where
  S := _
  P := _
  pr := provider512
  Mem := fun s => s.m.length = 128
  ctor := fun s => pure (new512 hashsize s)

/-- algorithm/sha2.hpp: `sha384` (`N = 384`) and `static_size::sha512<N>`. -/
def sha512Static (N : Nat) : HashClass where
  S := _
  P := _
  pr := provider512
  Mem := fun s => s.m.length = 128
  ctor := fun s => pure (some (newStatic N s))

/-- algorithm/sha2.hpp: `sha256`. -/
def sha256 : HashClass where
  S := _
  P := _
  pr := provider256
  Mem := fun s => s.m.length = 64
  ctor := fun s => pure (some (newStatic 256 s))

/-- algorithm/sha2.hpp: `sha224`. -/
def sha224 : HashClass where
  S := _
  P := _
  pr := provider224
  Mem := fun s => s.m.length = 64
  ctor := fun s => pure (some (newStatic 224 s))

end Digestpp.Model.Sha2
