import Verif.Model.Hasher
import Verif.Model.MdFinal
import Verif.Model.Validate
import Verif.Model.BlakeRound
import Verif.Model.Tables.Blake

/-! Model of algorithm/detail/blake_provider.hpp. -/

namespace Digestpp.Model.Blake

/-- What depends on the template parameter `T` (`uint32_t` or `uint64_t`): the rotation counts of `G`, `C<T>`, the counter word `t1`,
the number of rounds, `byteswap`, loads and stores. -/
structure Word (w : Nat) where
  R1 : BitVec w → BitVec w
  R2 : BitVec w → BitVec w
  R3 : BitVec w → BitVec w
  R4 : BitVec w → BitVec w
  c : List (BitVec w)
  t1 : BitVec 64 → BitVec w
  rounds : Nat
  byteswap : BitVec w → BitVec w
  loads : Nat → Bytes → List (BitVec w)
  stores : List (BitVec w) → Bytes

/-- blake_provider.hpp 22-34, 66-70, 89, 105-124: `T = uint32_t`. -/
def u32 : Word 32 where
  R1 := fun x => rotr x 16
  R2 := fun x => rotr x 12
  R3 := fun x => rotr x 8
  R4 := fun x => rotr x 7
  c := blake_c
  t1 := fun totalbytes => (totalbytes >>> 32).setWidth 32
  rounds := 14
  byteswap := byteswap32
  loads := loads32
  stores := stores32

/-- blake_provider.hpp 36-48, 72-76, 89, 105-124: `T = uint64_t`. -/
def u64 : Word 64 where
  R1 := fun x => rotr x 32
  R2 := fun x => rotr x 25
  R3 := fun x => rotr x 16
  R4 := fun x => rotr x 11
  c := blake_c512
  t1 := fun _ => 0
  rounds := 16
  byteswap := byteswap64
  loads := loads64
  stores := stores64

variable {w : Nat}

/-- blake_provider.hpp 24: `S[r % 10][j]`. -/
def S (r j : Nat) : Nat := ((blake_S.getD (r % 10) []).getD j 0).toNat

/-- blake_provider.hpp 22-48: `G(r, i, a, b, c, d, M)`. -/
def G (T : Word w) (M : List (BitVec w)) (r i : Nat) (q : Quad w) : Quad w :=
  let a := q.a + q.b + (M.getD (S r (2 * i)) 0 ^^^ T.c.getD (S r (2 * i + 1)) 0)
  let d := T.R1 (q.d ^^^ a)
  let c := q.c + d
  let b := T.R2 (q.b ^^^ c)
  let a := a + b + (M.getD (S r (2 * i + 1)) 0 ^^^ T.c.getD (S r (2 * i)) 0)
  let d := T.R3 (d ^^^ a)
  let c := c + d
  let b := T.R4 (b ^^^ c)
  ⟨a, b, c, d⟩

/-- blake_provider.hpp 88-91: the counter words, `static_cast<T>(totalbytes)`, `static_cast<T>(totalbytes >> 32)`, or zeros. -/
def counters (T : Word w) (padding : Bool) (totalbytes : BitVec 64) : BitVec w × BitVec w :=
  if padding then (0, 0) else (totalbytes.setWidth w, T.t1 totalbytes)

/-- blake_provider.hpp 83-85, 93-132: one iteration of the loop in `transform`, after the counter words. -/
def compress (T : Word w) (t : BitVec w × BitVec w) (block : Bytes) (H : List (BitVec w)) : List (BitVec w) :=
  let M := (T.loads 16 block).map T.byteswap
  let v := H.take 8 ++
    [H.getD 8 0 ^^^ T.c.getD 0 0, H.getD 9 0 ^^^ T.c.getD 1 0, H.getD 10 0 ^^^ T.c.getD 2 0, H.getD 11 0 ^^^ T.c.getD 3 0,
     t.1 ^^^ T.c.getD 4 0, t.1 ^^^ T.c.getD 5 0, t.2 ^^^ T.c.getD 6 0, t.2 ^^^ T.c.getD 7 0]
  let v := (List.range T.rounds).foldl (fun v r => round (G T M r) v) v
  [H.getD 0 0 ^^^ H.getD 8 0 ^^^ v.getD 0 0 ^^^ v.getD 8 0,
   H.getD 1 0 ^^^ H.getD 9 0 ^^^ v.getD 1 0 ^^^ v.getD 9 0,
   H.getD 2 0 ^^^ H.getD 10 0 ^^^ v.getD 2 0 ^^^ v.getD 10 0,
   H.getD 3 0 ^^^ H.getD 11 0 ^^^ v.getD 3 0 ^^^ v.getD 11 0,
   H.getD 4 0 ^^^ H.getD 8 0 ^^^ v.getD 4 0 ^^^ v.getD 12 0,
   H.getD 5 0 ^^^ H.getD 9 0 ^^^ v.getD 5 0 ^^^ v.getD 13 0,
   H.getD 6 0 ^^^ H.getD 10 0 ^^^ v.getD 6 0 ^^^ v.getD 14 0,
   H.getD 7 0 ^^^ H.getD 11 0 ^^^ v.getD 7 0 ^^^ v.getD 15 0,
   H.getD 8 0, H.getD 9 0, H.getD 10 0, H.getD 11 0]

/-- blake_provider.hpp 299, 301: the members other than the block buffer. The union `u` is modelled as two arrays: which of its
members is used depends only on `hs`, which never changes, and `zero_memory(u.H512)` covers all of it. -/
structure St where
  H512 : List (BitVec 64)
  H256 : List (BitVec 32)
  hs : Nat

/-- blake_provider.hpp 289: `block_bytes`. -/
def blockBytes (hs : Nat) : Nat := if hs > 256 then 128 else 64

/-- blake_provider.hpp 87: `total + (!final ? (blk + 1) * sizeof(M) * 8 : 0)`; `sizeof(M)` is the block size. -/
def totalbytes (bs : Nat) (final : Bool) (total : BitVec 64) (blk : Nat) : BitVec 64 :=
  total + (if final then 0 else BitVec.ofNat 64 ((blk + 1) * bs * 8))

/-- blake_provider.hpp 291-297, 78-134: one block of either `transform`. -/
def block (padding final : Bool) (total : BitVec 64) (blk : Nat) (b : Bytes) (h : St) : St :=
  if h.hs > 256 then { h with H512 := compress u64 (counters u64 padding (totalbytes 128 final total blk)) b h.H512 }
  else { h with H256 := compress u32 (counters u32 padding (totalbytes 64 final total blk)) b h.H256 }

/-- blake_provider.hpp 291-297: `transform`. -/
def transform (padding final : Bool) (data : Bytes) (n : Nat) (s : Blk St) : M (Blk St) := do
  let h ← forBlocks (blockBytes s.h.hs) data n (fun blk b h => pure (block padding final s.total blk b h)) s.h
  pure { s with h := h }

/-- blake_provider.hpp 181-220: the `switch`. Other sizes leave the arrays as they are. -/
def setIV (h : St) : St :=
  match h.hs with
  | 512 => { h with H512 := [0x6A09E667F3BCC908, 0xBB67AE8584CAA73B, 0x3C6EF372FE94F82B, 0xA54FF53A5F1D36F1,
      0x510E527FADE682D1, 0x9B05688C2B3E6C1F, 0x1F83D9ABFB41BD6B, 0x5BE0CD19137E2179] ++ h.H512.drop 8 }
  | 384 => { h with H512 := [0xcbbb9d5dc1059ed8, 0x629a292a367cd507, 0x9159015a3070dd17, 0x152fecd8f70e5939,
      0x67332667ffc00b31, 0x8eb44a8768581511, 0xdb0c2e0d64f98fa7, 0x47b5481dbefa4fa4] ++ h.H512.drop 8 }
  | 256 => { h with H256 := [0x6a09e667, 0xbb67ae85, 0x3c6ef372, 0xa54ff53a, 0x510e527f, 0x9b05688c, 0x1f83d9ab, 0x5be0cd19]
      ++ h.H256.drop 8 }
  | 224 => { h with H256 := [0xC1059ED8, 0x367CD507, 0x3070DD17, 0xF70E5939, 0xFFC00B31, 0x68581511, 0x64F98FA7, 0xBEFA4FA4]
      ++ h.H256.drop 8 }
  | _ => h

/-- blake_provider.hpp 174-222: `init`. -/
def init (s : Blk St) : M (Blk St) := pure { s with pos := 0, total := 0, h := setIV s.h }

/-- blake_provider.hpp 224-228: `update`. -/
def update (data : Bytes) (s : Blk St) : M (Blk St) :=
  absorbBytes (blockBytes s.h.hs) (blockBytes s.h.hs) (transform false false) data s

/-- blake_provider.hpp 136-144: `blake_functions::set_salt`. -/
def saltWords (T : Word w) (H : List (BitVec w)) (salt : Bytes) : M (List (BitVec w)) := do
  if salt.length ≠ 0 then
    let b ← readBytes salt 0 (4 * (w / 8))
    pure (H.take 8 ++ (T.loads 4 b).map T.byteswap)
  else pure (H.take 8 ++ [0, 0, 0, 0])

/-- blake_provider.hpp 230-239: `set_salt`; `true`: throws. -/
def setSalt (salt : Bytes) (s : Blk St) : M (Bool × Blk St) :=
  if salt.length ≠ 0 ∧ ((s.h.hs > 256 ∧ salt.length ≠ 32) ∨ (s.h.hs ≤ 256 ∧ salt.length ≠ 16)) then pure (true, s)
  else if s.h.hs > 256 then do
    let H ← saltWords u64 s.h.H512 salt
    pure (false, { s with h := { s.h with H512 := H } })
  else do
    let H ← saltWords u32 s.h.H256 salt
    pure (false, { s with h := { s.h with H256 := H } })

/-- blake_provider.hpp 243: `messageend`. -/
def messageend (hs : Nat) : Nat := if hs > 256 then 111 else 55

/-- blake_provider.hpp 244: `truncated`. -/
def truncated (hs : Nat) : Bool := hs ≠ 512 ∧ hs ≠ 256

/-- blake_provider.hpp 256-260: the `if (pos <= messageend)` statement. -/
def padEnd (hs : Nat) (m : Bytes) (pos : Nat) : M Bytes :=
  if pos ≤ messageend hs then do
    let m ← memset m pos 0 (szSub (messageend hs) pos)
    setByte m (messageend hs) (if truncated hs then 0x00 else 0x01)
  else pure m

/-- blake_provider.hpp 262-263: `if (block_bytes() == 128) memset(&m[128 - 16], 0, sizeof(uint64_t))`. -/
def padLen (hs : Nat) (m : Bytes) : M Bytes :=
  if blockBytes hs = 128 then memset m (128 - 16) 0 8 else pure m

/-- blake_provider.hpp 266-277: the output. -/
def output (h : St) : M Bytes :=
  if h.hs > 256 then readBytes (stores64 ((h.H512.take 8).map byteswap64 ++ h.H512.drop 8)) 0 (h.hs / 8)
  else readBytes (stores32 ((h.H256.take 8).map byteswap32 ++ h.H256.drop 8)) 0 (h.hs / 8)

/-- blake_provider.hpp 256-277: `final` after the first `if`. -/
def finalTail (padding : Bool) (s : Blk St) : M Bytes := do
  let m ← padEnd s.h.hs s.m s.pos
  let m ← padLen s.h.hs m
  let m ← memcpyTo m (blockBytes s.h.hs - 8) (bytes64 (byteswap64 s.total))
  let s ← transform padding true m 1 { s with m := m }
  output s.h

/-- blake_provider.hpp 241-278: `final`. -/
def final (s : Blk St) : M Bytes := do
  let total := s.total + BitVec.ofNat 64 (8 * s.pos)
  let m ← setByte s.m s.pos (if s.pos = messageend s.h.hs ∧ truncated s.h.hs = false then 0x81 else 0x80)
  if s.pos > messageend s.h.hs then do
    let m ← zeroRest (blockBytes s.h.hs) m (s.pos + 1)
    let s ← transform false true m 1 { s with m := m, pos := s.pos + 1, total := total }
    finalTail true { s with pos := 0 }
  else finalTail (s.pos = 0) { s with m := m, pos := s.pos + 1, total := total }

/-- blake_provider.hpp 280-284: `clear`. -/
def clear (s : Blk St) : M (Blk St) :=
  pure { s with h := { s.h with H512 := List.replicate 12 0, H256 := List.replicate 12 0 }, m := zeroBytes s.m }

/-- blake_provider.hpp 147-305: the class; algorithm/mixin/blake_mixin.hpp: its setter. -/
def provider : HashProvider (Blk St) SaltParam where
  init := init
  update := update
  final := final
  clear := clear
  hashSize := fun s => s.h.hs
  set := fun (.salt v) => setSalt v

/-- blake_provider.hpp 153-159: the constructor taking a size. -/
def new (hashsize : Nat) (mem : Blk St) : Option (Blk St) :=
  if validateList hashsize [224, 256, 384, 512] then
    some { mem with h := { H512 := List.replicate 12 0, H256 := List.replicate 12 0, hs := hashsize } }
  else none

/-- algorithm/blake.hpp: `blake(hashsize)`. -/
def blake (hashsize : Nat) : HashClass where
  S := _
  P := _
  pr := provider
  Mem := fun s => s.m.length = 128
  ctor := fun s => pure (new hashsize s)

/-- blake_provider.hpp 161-167, algorithm/blake.hpp: `static_size::blake<N>`. -/
def blakeStatic (N : Nat) : HashClass where
  S := _
  P := _
  pr := provider
  Mem := fun s => s.m.length = 128
  ctor := fun s => pure (some { s with h := { H512 := List.replicate 12 0, H256 := List.replicate 12 0, hs := N } })

end Digestpp.Model.Blake
