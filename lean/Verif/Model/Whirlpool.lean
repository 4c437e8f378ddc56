import Verif.Model.Hasher
import Verif.Model.MdFinal
import Verif.Model.Tables.Whirlpool

/-! Model of algorithm/detail/whirlpool_provider.hpp. -/

namespace Digestpp.Model.Whirlpool

/-- `whirlpool_constants<void>::T[i][static_cast<unsigned char>(x >> (8 * i))]`, as in whirlpool_provider.hpp 24-31. -/
def look (i : Nat) (x : BitVec 64) : BitVec 64 := (whirlpool_T.getD i []).getD ((x >>> (8 * i)).setWidth 8).toNat 0

/-- whirlpool_provider.hpp 21-32: `G<a>`. -/
def G (a : Nat) (ll : List (BitVec 64)) : BitVec 64 :=
  look 0 (ll.getD (a % 8) 0) ^^^ look 1 (ll.getD ((a - 1) % 8) 0) ^^^ look 2 (ll.getD ((a - 2) % 8) 0) ^^^
  look 3 (ll.getD ((a - 3) % 8) 0) ^^^ look 4 (ll.getD ((a - 4) % 8) 0) ^^^ look 5 (ll.getD ((a - 5) % 8) 0) ^^^
  look 6 (ll.getD ((a - 6) % 8) 0) ^^^ look 7 (ll.getD ((a - 7) % 8) 0)

/-- whirlpool_provider.hpp 103-112: the new `K`. -/
def nextKey (r : Nat) (K : List (BitVec 64)) : List (BitVec 64) :=
  [G (0 + 8) K ^^^ whirlpool_RC.getD r 0, G (1 + 8) K, G (2 + 8) K, G (3 + 8) K, G (4 + 8) K, G (5 + 8) K, G (6 + 8) K, G (7 + 8) K]

/-- whirlpool_provider.hpp 114-123: the new `state`; `L` is the new `K`. -/
def nextState (L state : List (BitVec 64)) : List (BitVec 64) :=
  [L.getD 0 0 ^^^ G (0 + 8) state, L.getD 1 0 ^^^ G (1 + 8) state, L.getD 2 0 ^^^ G (2 + 8) state, L.getD 3 0 ^^^ G (3 + 8) state,
   L.getD 4 0 ^^^ G (4 + 8) state, L.getD 5 0 ^^^ G (5 + 8) state, L.getD 6 0 ^^^ G (6 + 8) state, L.getD 7 0 ^^^ G (7 + 8) state]

/-- whirlpool_provider.hpp 99-124: the rounds, on the pair `K`, `state`. -/
def rounds (ks : List (BitVec 64) × List (BitVec 64)) : List (BitVec 64) × List (BitVec 64) :=
  (List.range 10).foldl (fun (K, state) r =>
    let L := nextKey r K
    (L, nextState L state)) ks

/-- whirlpool_provider.hpp 93-127: one iteration of the loop in `transform`. -/
def compress (block : Bytes) (h : List (BitVec 64)) : List (BitVec 64) :=
  let mp := loads64 8 block
  let state := (List.range 8).map fun i => h.getD i 0 ^^^ mp.getD i 0
  let ks := rounds (h, state)
  (List.range 8).map fun i => h.getD i 0 ^^^ (ks.2.getD i 0 ^^^ mp.getD i 0)

/-- whirlpool_provider.hpp 89-130: `transform`. -/
def transform (data : Bytes) (n : Nat) (s : Blk (List (BitVec 64))) : M (Blk (List (BitVec 64))) := do
  let h ← forBlocks 64 data n (fun _ b h => pure (compress b h)) s.h
  pure { s with h := h }

/-- whirlpool_provider.hpp 49-54: `init`. -/
def init (s : Blk (List (BitVec 64))) : M (Blk (List (BitVec 64))) :=
  pure { s with h := List.replicate 8 0, pos := 0, total := 0 }

/-- whirlpool_provider.hpp 56-60: `update`. -/
def update (data : Bytes) (s : Blk (List (BitVec 64))) : M (Blk (List (BitVec 64))) :=
  absorbBytes 64 64 transform data s

/-- whirlpool_provider.hpp 62-78: `final`. The code swaps the bytes of `total` before the padding, which does not change it. -/
def final (s : Blk (List (BitVec 64))) : M Bytes := do
  let s ← mdFinal 64 32 56 (fun total => bytes64 (byteswap64 total)) transform s
  readBytes (stores64 s.h) 0 64

/-- whirlpool_provider.hpp 80-84: `clear`. -/
def clear (s : Blk (List (BitVec 64))) : M (Blk (List (BitVec 64))) :=
  pure { s with h := List.replicate 8 0, m := zeroBytes s.m }

/-- whirlpool_provider.hpp 35-137: the class. -/
def provider : HashProvider (Blk (List (BitVec 64))) Empty where
  init := init
  update := update
  final := final
  clear := clear
  hashSize := fun _ => 512
  set := nofun

/-- algorithm/whirlpool.hpp: `whirlpool`. -/
def cls : HashClass where
  S := _
  P := _
  pr := provider
  Mem := fun s => s.m.length = 64
  ctor := fun s => pure (some s)

end Digestpp.Model.Whirlpool
