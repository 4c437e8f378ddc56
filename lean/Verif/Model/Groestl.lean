import Verif.Model.Hasher
import Verif.Model.MdFinal
import Verif.Model.Validate
import Verif.Model.Tables.Groestl

/-! Model of algorithm/detail/groestl_provider.hpp. The template parameter `R` (8 or 16) is an ordinary argument. -/

namespace Digestpp.Model.Groestl

/-- `groestl_constants<void>::T[i][static_cast<unsigned char>(x >> (8 * i))]`, the index as written in groestl_provider.hpp 29-36 and
46-53. -/
def look (i : Nat) (x : BitVec 64) : BitVec 64 := (groestl_T.getD i []).getD ((x >>> (8 * i)).setWidth 8).toNat 0

/-- groestl_provider.hpp 28-36 (with `s` = 0, 1, 2, 3, 4, 5, 6, 7 or 11) and 45-53: the second loop of a round. -/
def lookups (R : Nat) (s0 s1 s2 s3 s4 s5 s6 s7 : Nat) (x : List (BitVec 64)) : List (BitVec 64) :=
  (List.range R).map fun c =>
    look 0 (x.getD ((c + s0) % R) 0) ^^^ look 1 (x.getD ((c + s1) % R) 0) ^^^ look 2 (x.getD ((c + s2) % R) 0) ^^^
    look 3 (x.getD ((c + s3) % R) 0) ^^^ look 4 (x.getD ((c + s4) % R) 0) ^^^ look 5 (x.getD ((c + s5) % R) 0) ^^^
    look 6 (x.getD ((c + s6) % R) 0) ^^^ look 7 (x.getD ((c + s7) % R) 0)

/-- groestl_provider.hpp 22-37: `roundP`; the result is the array `y`. -/
def roundP (R : Nat) (x : List (BitVec 64)) (i : BitVec 64) : List (BitVec 64) :=
  let x := (List.range R).map fun idx => x.getD idx 0 ^^^ ((BitVec.ofNat 64 idx <<< 4) ^^^ i)
  lookups R 0 1 2 3 4 5 6 (if R = 16 then 11 else 7) x

/-- groestl_provider.hpp 39-54: `roundQ`. -/
def roundQ (R : Nat) (x : List (BitVec 64)) (i : BitVec 64) : List (BitVec 64) :=
  let x := (List.range R).map fun idx => x.getD idx 0 ^^^ ((0xffffffffffffffff - (BitVec.ofNat 64 idx <<< 60)) ^^^ i)
  lookups R 1 3 5 (if R = 16 then 11 else 7) 0 2 4 6 x

/-- groestl_provider.hpp 67, 91: half the number of rounds (the loops count by two). -/
def iterations (R : Nat) : Nat := if R = 16 then 7 else 5

/-- groestl_provider.hpp 67-73: the loop, on the pair `AP1`, `AQ1`. -/
def roundsPQ (R : Nat) (pq : List (BitVec 64) × List (BitVec 64)) : List (BitVec 64) × List (BitVec 64) :=
  (List.range (iterations R)).foldl (fun (p, q) k =>
    let r := BitVec.ofNat 64 (2 * k)
    (roundP R (roundP R p r) (r + 1), roundQ R (roundQ R q (r <<< 56)) ((r + 1) <<< 56))) pq

/-- groestl_provider.hpp 56-79: `groestl_functions::transform`. The array `h` has 16 elements of which the first `R` are used. -/
def compress (R : Nat) (h m : List (BitVec 64)) : List (BitVec 64) :=
  let pq := roundsPQ R ((List.range R).map fun c => h.getD c 0 ^^^ m.getD c 0, (List.range R).map fun c => m.getD c 0)
  ((List.range R).map fun c => pq.1.getD c 0 ^^^ pq.2.getD c 0 ^^^ h.getD c 0) ++ h.drop R

/-- groestl_provider.hpp 81-99: `groestl_functions::outputTransform`. -/
def outputTransform (R : Nat) (h : List (BitVec 64)) : List (BitVec 64) :=
  let t1 := (List.range (iterations R)).foldl (fun t k =>
    let r := BitVec.ofNat 64 (2 * k)
    roundP R (roundP R t r) (r + 1)) (h.take R)
  ((List.range R).map fun c => h.getD c 0 ^^^ t1.getD c 0) ++ h.drop R

/-- groestl_provider.hpp 199-201: the members `h` and `hs`. -/
structure St where
  h : List (BitVec 64)
  hs : Nat

/-- groestl_provider.hpp 178: `block_bytes`. -/
def blockBytes (hs : Nat) : Nat := if hs > 256 then 128 else 64

/-- The template argument in groestl_provider.hpp 182-185, 192-195. -/
def cols (hs : Nat) : Nat := if hs > 256 then 16 else 8

/-- groestl_provider.hpp 188-197: `transform`. -/
def transform (data : Bytes) (n : Nat) (s : Blk St) : M (Blk St) := do
  let h ← forBlocks (blockBytes s.h.hs) data n (fun _ b h =>
    pure { h with h := compress (cols h.hs) h.h (loads64 (cols h.hs) b) }) s.h
  pure { s with h := h }

/-- groestl_provider.hpp 128-135: `init`. -/
def init (s : Blk St) : M (Blk St) :=
  pure { s with
    h := { s.h with h := (List.replicate 16 0).set (if s.h.hs > 256 then 15 else 7) (byteswap64 (BitVec.ofNat 64 s.h.hs)) },
    pos := 0, total := 0 }

/-- groestl_provider.hpp 137-141: `update`. -/
def update (data : Bytes) (s : Blk St) : M (Blk St) :=
  absorbBytes (blockBytes s.h.hs) (blockBytes s.h.hs) transform data s

/-- groestl_provider.hpp 156-160: `final` from the second `memset` to the last `transform`. -/
def finalTail (s : Blk St) : M (Blk St) := do
  let bs := blockBytes s.h.hs
  let m ← memset s.m s.pos 0 (szSub (bs - 8) s.pos)
  let total := s.total + BitVec.ofNat 64 ((bs - s.pos) * 8)
  let m ← memcpyTo m (bs - 8) (bytes64 (byteswap64 (total / 8 / BitVec.ofNat 64 bs)))
  transform m 1 { s with m := m, total := total }

/-- groestl_provider.hpp 145-160: `final` up to `outputTransform`. -/
def finalPad (s : Blk St) : M (Blk St) := do
  let bs := blockBytes s.h.hs
  let m ← setByte s.m s.pos 0x80
  let pos := s.pos + 1
  let total := s.total + BitVec.ofNat 64 (pos * 8)
  if pos > bs - 8 then do
    let m ← zeroRest bs m pos
    let s ← transform m 1 { s with m := m, pos := pos, total := total }
    finalTail { s with pos := 0, total := s.total + BitVec.ofNat 64 ((bs - pos) * 8) }
  else finalTail { s with m := m, pos := pos, total := total }

/-- groestl_provider.hpp 143-167: `final`. -/
def final (s : Blk St) : M Bytes := do
  let s ← finalPad s
  let h := outputTransform (cols s.h.hs) s.h.h
  readBytes (stores64 h) (szSub (blockBytes s.h.hs) (s.h.hs / 8)) (s.h.hs / 8)

/-- groestl_provider.hpp 169-173: `clear`. -/
def clear (s : Blk St) : M (Blk St) :=
  pure { s with h := { s.h with h := List.replicate 16 0 }, m := zeroBytes s.m }

/-- groestl_provider.hpp 103-205: the class. -/
def provider : HashProvider (Blk St) Empty where
  init := init
  update := update
  final := final
  clear := clear
  hashSize := fun s => s.h.hs
  set := nofun

/-- groestl_provider.hpp 109-114: the constructor taking a size. -/
def new (hashsize : Nat) (mem : Blk St) : Option (Blk St) :=
  if validateMax hashsize 512 then some { mem with h := { mem.h with hs := hashsize } } else none

/-- The member arrays `h[16]` and `m[128]`. -/
def Mem (s : Blk St) : Prop := s.h.h.length = 16 ∧ s.m.length = 128

/-- algorithm/groestl.hpp: `groestl(hashsize)`. -/
def groestl (hashsize : Nat) : HashClass where
  S := _
  P := _
  pr := provider
  Mem := Mem
  ctor := fun s => pure (new hashsize s)

/-- groestl_provider.hpp 116-121, algorithm/groestl.hpp: `static_size::groestl<N>`. -/
def groestlStatic (N : Nat) : HashClass where
  S := _
  P := _
  pr := provider
  Mem := Mem
  ctor := fun s => pure (some { s with h := { s.h with hs := N } })

end Digestpp.Model.Groestl
