import Verif.Model.Hasher
import Verif.Model.MdFinal
import Verif.Model.Validate
import Verif.Model.Tables.Kupyna

/-! Model of algorithm/detail/kupyna_provider.hpp. The template parameter `R` (8 or 16) is an ordinary argument. -/

namespace Digestpp.Model.Kupyna

/-- `kupyna_constants<void>::T[i][static_cast<unsigned char>(x >> (8 * i))]`, as in kupyna_provider.hpp 26-33. -/
def look (i : Nat) (x : BitVec 64) : BitVec 64 := (kupyna_T.getD i []).getD ((x >>> (8 * i)).setWidth 8).toNat 0

/-- kupyna_provider.hpp 22-34: `G`; the result is the array `y`. -/
def G (R : Nat) (x : List (BitVec 64)) : List (BitVec 64) :=
  (List.range R).map fun c =>
    look 0 (x.getD ((c + R) % R) 0) ^^^ look 1 (x.getD ((c + R - 1) % R) 0) ^^^ look 2 (x.getD ((c + R - 2) % R) 0) ^^^
    look 3 (x.getD ((c + R - 3) % R) 0) ^^^ look 4 (x.getD ((c + R - 4) % R) 0) ^^^ look 5 (x.getD ((c + R - 5) % R) 0) ^^^
    look 6 (x.getD ((c + R - 6) % R) 0) ^^^ look 7 (x.getD ((c + R - (if R = 16 then 11 else 7)) % R) 0)

/-- kupyna_provider.hpp 36-43: `roundP`. -/
def roundP (R : Nat) (x : List (BitVec 64)) (i : BitVec 64) : List (BitVec 64) :=
  G R ((List.range R).map fun idx => x.getD idx 0 ^^^ ((BitVec.ofNat 64 idx <<< 4) ^^^ i))

/-- kupyna_provider.hpp 45-53: `roundQ`. The exclusive or of two nonnegative `int`s is modelled on natural numbers. -/
def roundQ (R : Nat) (x : List (BitVec 64)) (i : BitVec 64) : List (BitVec 64) :=
  G R ((List.range R).map fun j =>
    x.getD j 0 + (0x00F0F0F0F0F0F0F3 ^^^ (BitVec.ofNat 64 (((R - 1 - j) * 0x10) ^^^ (i.setWidth 8).toNat) <<< 56)))

/-- kupyna_provider.hpp 66, 90: half the number of rounds (the loops count by two). -/
def iterations (R : Nat) : Nat := if R = 16 then 7 else 5

/-- kupyna_provider.hpp 66-72: the loop, on the pair `AP1`, `AQ1`. -/
def roundsPQ (R : Nat) (pq : List (BitVec 64) × List (BitVec 64)) : List (BitVec 64) × List (BitVec 64) :=
  (List.range (iterations R)).foldl (fun (p, q) k =>
    let r := BitVec.ofNat 64 (2 * k)
    (roundP R (roundP R p r) (r + 1), roundQ R (roundQ R q r) (r + 1))) pq

/-- kupyna_provider.hpp 55-78: `kupyna_functions::transform`. The array `h` has 16 elements of which the first `R` are used. -/
def compress (R : Nat) (h m : List (BitVec 64)) : List (BitVec 64) :=
  let pq := roundsPQ R ((List.range R).map fun c => h.getD c 0 ^^^ m.getD c 0, (List.range R).map fun c => m.getD c 0)
  ((List.range R).map fun c => pq.1.getD c 0 ^^^ pq.2.getD c 0 ^^^ h.getD c 0) ++ h.drop R

/-- kupyna_provider.hpp 80-98: `kupyna_functions::outputTransform`. -/
def outputTransform (R : Nat) (h : List (BitVec 64)) : List (BitVec 64) :=
  let t1 := (List.range (iterations R)).foldl (fun t k =>
    let r := BitVec.ofNat 64 (2 * k)
    roundP R (roundP R t r) (r + 1)) (h.take R)
  ((List.range R).map fun c => h.getD c 0 ^^^ t1.getD c 0) ++ h.drop R

/-- kupyna_provider.hpp 193-195: the members `h` and `hs`. -/
structure St where
  h : List (BitVec 64)
  hs : Nat

/-- kupyna_provider.hpp 172: `block_bytes`. -/
def blockBytes (hs : Nat) : Nat := if hs > 256 then 128 else 64

/-- The template argument in kupyna_provider.hpp 176-179, 186-189. -/
def cols (hs : Nat) : Nat := if hs > 256 then 16 else 8

/-- kupyna_provider.hpp 182-191: `transform`. -/
def transform (data : Bytes) (n : Nat) (s : Blk St) : M (Blk St) := do
  let h ← forBlocks (blockBytes s.h.hs) data n (fun _ b h =>
    pure { h with h := compress (cols h.hs) h.h (loads64 (cols h.hs) b) }) s.h
  pure { s with h := h }

/-- kupyna_provider.hpp 127-133: `init`. -/
def init (s : Blk St) : M (Blk St) :=
  pure { s with
    h := { s.h with h := (List.replicate 16 0).set 0 (BitVec.ofNat 64 (blockBytes s.h.hs)) },
    pos := 0, total := 0 }

/-- kupyna_provider.hpp 135-139: `update`. -/
def update (data : Bytes) (s : Blk St) : M (Blk St) :=
  absorbBytes (blockBytes s.h.hs) (blockBytes s.h.hs) transform data s

/-- kupyna_provider.hpp 153-157: `final` from the second `memset` to the last `transform`. -/
def finalTail (s : Blk St) : M (Blk St) := do
  let bs := blockBytes s.h.hs
  let m ← memset s.m s.pos 0 (szSub bs s.pos)
  let m ← memcpyTo m (bs - 12) (bytes64 s.total)
  let m ← memset m (bs - 4) 0 4
  transform m 1 { s with m := m }

/-- kupyna_provider.hpp 143-157: `final` up to `outputTransform`. -/
def finalPad (s : Blk St) : M (Blk St) := do
  let bs := blockBytes s.h.hs
  let total := s.total + BitVec.ofNat 64 (s.pos * 8)
  let m ← setByte s.m s.pos 0x80
  let pos := s.pos + 1
  if pos > bs - 12 then do
    let m ← zeroRest bs m pos
    let s ← transform m 1 { s with m := m, pos := pos, total := total }
    finalTail { s with pos := 0 }
  else finalTail { s with m := m, pos := pos, total := total }

/-- kupyna_provider.hpp 141-161: `final`. -/
def final (s : Blk St) : M Bytes := do
  let s ← finalPad s
  let h := outputTransform (cols s.h.hs) s.h.h
  readBytes (stores64 h) (szSub (blockBytes s.h.hs) (s.h.hs / 8)) (s.h.hs / 8)

/-- kupyna_provider.hpp 163-167: `clear`. -/
def clear (s : Blk St) : M (Blk St) :=
  pure { s with h := { s.h with h := List.replicate 16 0 }, m := zeroBytes s.m }

/-- kupyna_provider.hpp 102-199: the class. -/
def provider : HashProvider (Blk St) Empty where
  init := init
  update := update
  final := final
  clear := clear
  hashSize := fun s => s.h.hs
  set := nofun

/-- kupyna_provider.hpp 108-113: the constructor taking a size. -/
def new (hashsize : Nat) (mem : Blk St) : Option (Blk St) :=
  if validateList hashsize [256, 512] then some { mem with h := { mem.h with hs := hashsize } } else none

/-- The member arrays `h[16]` and `m[128]`. -/
def Mem (s : Blk St) : Prop := s.h.h.length = 16 ∧ s.m.length = 128

/-- algorithm/kupyna.hpp: `kupyna(hashsize)`. -/
def kupyna (hashsize : Nat) : HashClass where
  S := _
  P := _
  pr := provider
  Mem := Mem
  ctor := fun s => pure (new hashsize s)

/-- kupyna_provider.hpp 115-120, algorithm/kupyna.hpp: `static_size::kupyna<N>`. -/
def kupynaStatic (N : Nat) : HashClass where
  S := _
  P := _
  pr := provider
  Mem := Mem
  ctor := fun s => pure (some { s with h := { s.h with hs := N } })

end Digestpp.Model.Kupyna
