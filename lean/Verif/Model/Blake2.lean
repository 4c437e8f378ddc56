import Verif.Model.Hasher
import Verif.Model.MdFinal
import Verif.Model.Validate
import Verif.Model.BlakeRound
import Verif.Model.Tables.Blake2

/-! Model of algorithm/detail/blake2_provider.hpp. `N` (line 376) is `8 * w`, so `N / 4` is `2 * w` and `N / 8` is `w`. -/

namespace Digestpp.Model.Blake2
open Blake (Quad round)

/-- constants/blake2_constants.hpp 60-65: `blake2_type`. -/
inductive Kind where
  | hash
  | xHash
  | xof
  deriving DecidableEq

/-- What depends on the template parameter `T` (`uint32_t` or `uint64_t`): the rotation counts of `G`, `IV<T>`, the counter word `t1`,
the number of rounds, loads and stores. -/
structure Word (w : Nat) where
  R1 : BitVec w → BitVec w
  R2 : BitVec w → BitVec w
  R3 : BitVec w → BitVec w
  R4 : BitVec w → BitVec w
  IV : List (BitVec w)
  t1 : BitVec 64 → BitVec w
  rounds : Nat
  loads : Nat → Bytes → List (BitVec w)
  stores : List (BitVec w) → Bytes

/-- blake2_provider.hpp 35-45, 63-67, 326, 346-360: `T = uint32_t`. -/
def u32 : Word 32 where
  R1 := fun x => rotr x 16
  R2 := fun x => rotr x 12
  R3 := fun x => rotr x 8
  R4 := fun x => rotr x 7
  IV := blake2s_IV
  t1 := fun totalbytes => (totalbytes >>> 32).setWidth 32
  rounds := 10
  loads := loads32
  stores := stores32

/-- blake2_provider.hpp 23-33, 69-73, 326, 346-360: `T = uint64_t`. -/
def u64 : Word 64 where
  R1 := fun x => rotr x 32
  R2 := fun x => rotr x 24
  R3 := fun x => rotr x 16
  R4 := fun x => rotr x 63
  IV := blake2b_IV
  t1 := fun _ => 0
  rounds := 12
  loads := loads64
  stores := stores64

variable {w : Nat}

/-- blake2_provider.hpp 25: `S[r][j]`. -/
def S (r j : Nat) : Nat := ((blake2_S.getD r []).getD j 0).toNat

/-- blake2_provider.hpp 23-45: `G(r, i, a, b, c, d, M)`. -/
def G (T : Word w) (M : List (BitVec w)) (r i : Nat) (q : Quad w) : Quad w :=
  let a := q.a + q.b + M.getD (S r (2 * i)) 0
  let d := T.R1 (q.d ^^^ a)
  let c := q.c + d
  let b := T.R2 (q.b ^^^ c)
  let a := a + b + M.getD (S r (2 * i + 1)) 0
  let d := T.R3 (d ^^^ a)
  let c := c + d
  let b := T.R4 (b ^^^ c)
  ⟨a, b, c, d⟩

/-- blake2_provider.hpp 321-323, 325-326, 335-369: one iteration of the loop in `transform`, given `totalbytes`, `f0` and `f1`. -/
def compress (T : Word w) (totalbytes : BitVec 64) (f0 f1 : BitVec w) (block : Bytes) (H : List (BitVec w)) : List (BitVec w) :=
  let M := T.loads 16 block
  let v := H.take 8 ++
    [T.IV.getD 0 0, T.IV.getD 1 0, T.IV.getD 2 0, T.IV.getD 3 0,
     totalbytes.setWidth w ^^^ T.IV.getD 4 0, T.t1 totalbytes ^^^ T.IV.getD 5 0, f0 ^^^ T.IV.getD 6 0, f1 ^^^ T.IV.getD 7 0]
  let v := (List.range T.rounds).foldl (fun v r => round (G T M r) v) v
  [H.getD 0 0 ^^^ v.getD 0 0 ^^^ v.getD 8 0, H.getD 1 0 ^^^ v.getD 1 0 ^^^ v.getD 9 0,
   H.getD 2 0 ^^^ v.getD 2 0 ^^^ v.getD 10 0, H.getD 3 0 ^^^ v.getD 3 0 ^^^ v.getD 11 0,
   H.getD 4 0 ^^^ v.getD 4 0 ^^^ v.getD 12 0, H.getD 5 0 ^^^ v.getD 5 0 ^^^ v.getD 13 0,
   H.getD 6 0 ^^^ v.getD 6 0 ^^^ v.getD 14 0, H.getD 7 0 ^^^ v.getD 7 0 ^^^ v.getD 15 0]

/-- blake2_provider.hpp 377-380, 384-389: the members other than the block buffer. -/
structure St (w : Nat) where
  H : List (BitVec w)
  s : List (BitVec w)
  p : List (BitVec w)
  k : Bytes
  hs : Nat
  xoffset : BitVec 64
  squeezing : Bool
  fanout : BitVec 8
  nodedepth : BitVec 8
  nodeoffset : BitVec 8

/-- blake2_provider.hpp 324: `total / 8 + (padding ? 0 : (blk + 1) * N) / 4`. -/
def totalbytes (w : Nat) (padding : Bool) (total : BitVec 64) (blk : Nat) : BitVec 64 :=
  total / 8 + (if padding then 0 else BitVec.ofNat 64 ((blk + 1) * (8 * w))) / 4

/-- blake2_provider.hpp 327-333: `f0`. -/
def flag0 (w : Nat) (padding : Bool) : BitVec w := if padding then -1 else 0

/-- blake2_provider.hpp 327-333: `f1`; `fanout - 1` is computed as `int`. -/
def flag1 (padding : Bool) (h : St w) : BitVec w :=
  if padding then if h.fanout ≠ 0 ∧ (h.nodeoffset.toNat + 1 = h.fanout.toNat ∨ h.nodedepth ≠ 0) then -1 else 0
  else 0

/-- blake2_provider.hpp 319-371: one iteration of the loop. -/
def block (T : Word w) (padding : Bool) (total : BitVec 64) (blk : Nat) (b : Bytes) (h : St w) : St w :=
  { h with H := compress T (totalbytes w padding total blk) (flag0 w padding) (flag1 padding h) b h.H }

/-- blake2_provider.hpp 317-372: `transform(data, num_blks, padding)`. -/
def transform (T : Word w) (padding : Bool) (data : Bytes) (n : Nat) (s : Blk (St w)) : M (Blk (St w)) := do
  let h ← forBlocks (2 * w) data n (fun blk b h => pure (block T padding s.total blk b h)) s.h
  pure { s with h := h }

/-- blake2_provider.hpp 200-204: `update`. -/
def update (T : Word w) (data : Bytes) (s : Blk (St w)) : M (Blk (St w)) :=
  absorbBytes (2 * w) (2 * w + 1) (transform T false) data s

/-- `H[i] ^= x`, as in blake2_provider.hpp 79-106, 169-193, 261-264. -/
def xorAt (H : List (BitVec w)) (i : Nat) (x : BitVec w) : List (BitVec w) := H.set i (H.getD i 0 ^^^ x)

/-- blake2_provider.hpp 75-87: `initH`. -/
def initH (T : Word w) (fanout : BitVec 8) : List (BitVec w) :=
  if fanout = 0 then xorAt T.IV 0 0x01010000 else T.IV

/-- blake2_provider.hpp 168-178: the digest length, and the output length of an extendable variant. -/
def initLen (kind : Kind) (hs : Nat) (H : List (BitVec w)) : List (BitVec w) :=
  if kind = .hash then xorAt H 0 (BitVec.ofNat w (hs / 8))
  else
    let H := xorAt H 0 (BitVec.ofNat w w)
    let rhs : BitVec w := if kind = .xHash then BitVec.ofNat w (hs / 8) else (-1 : BitVec w) >>> (w / 2)
    if w = 64 then xorAt H 1 (rhs <<< (w / 2)) else xorAt H 3 rhs

/-- blake2_provider.hpp 180-183, 261-264: salt and personalization. -/
def initSalt (s p : List (BitVec w)) (H : List (BitVec w)) : List (BitVec w) :=
  xorAt (xorAt (xorAt (xorAt H 4 (s.getD 0 0)) 5 (s.getD 1 0)) 6 (p.getD 0 0)) 7 (p.getD 1 0)

/-- blake2_provider.hpp 185-194: the tree parameters. -/
def initTree (h : St w) (H : List (BitVec w)) : List (BitVec w) :=
  if h.fanout ≠ 0 then
    let H := xorAt H 0 (h.fanout.setWidth w <<< 16 ||| (2 : BitVec w) <<< 24)
    let H := xorAt H (if w = 64 then 1 else 2) (h.nodeoffset.setWidth w)
    if w = 64 then xorAt H 2 (h.nodedepth.setWidth w ||| BitVec.ofNat w w <<< 8)
    else xorAt H 3 (h.nodedepth.setWidth w <<< 16 ||| BitVec.ofNat w w <<< 24)
  else H

/-- blake2_provider.hpp 166-194: the chaining value set up by `init`. -/
def initial (T : Word w) (kind : Kind) (h : St w) : List (BitVec w) :=
  initTree h (initSalt h.s h.p (xorAt (initLen kind h.hs (initH T h.fanout)) 0 (BitVec.ofNat w (h.k.length * 256))))

/-- blake2_provider.hpp 310-313: the contents of the local array `key`. -/
def keyBlock (w : Nat) (k : Bytes) : M Bytes :=
  if k.length ≤ 2 * w then pure (k ++ List.replicate (2 * w - k.length) 0) else .error .outOfBounds

/-- blake2_provider.hpp 305-315: `absorb_key`. -/
def absorbKey (T : Word w) (s : Blk (St w)) : M (Blk (St w)) :=
  if s.h.k = [] then pure s
  else do
    let key ← keyBlock w s.h.k
    update T key s

/-- blake2_provider.hpp 159-198: `init`. -/
def init (T : Word w) (kind : Kind) (s : Blk (St w)) : M (Blk (St w)) :=
  let s := { s with pos := 0, total := 0, h := { s.h with H := initial T kind s.h, xoffset := 0, squeezing := false } }
  if s.h.fanout = 0 ∨ s.h.nodedepth = 0 then absorbKey T s else pure s

/-- blake2_provider.hpp 206-212: `set_key`; `true`: throws. -/
def setKey (key : Bytes) (s : Blk (St w)) : M (Bool × Blk (St w)) :=
  if key.length > w then pure (true, s) else pure (false, { s with h := { s.h with k := key } })

/-- `memcpy(&dst[0], src, len)` onto an array of two words; the callers make sure that `len` is zero or the size of the array. -/
def copyWords (T : Word w) (dst : List (BitVec w)) (src : Bytes) : M (List (BitVec w)) :=
  if src.length = 0 then pure dst
  else if src.length = w / 4 then pure (T.loads 2 src)
  else .error .outOfBounds

/-- blake2_provider.hpp 214-220: `set_salt`. -/
def setSalt (T : Word w) (salt : Bytes) (s : Blk (St w)) : M (Bool × Blk (St w)) :=
  if salt.length ≠ 0 ∧ salt.length ≠ w / 4 then pure (true, s)
  else do
    let x ← copyWords T s.h.s salt
    pure (false, { s with h := { s.h with s := x } })

/-- blake2_provider.hpp 222-228: `set_personalization`. -/
def setPersonalization (T : Word w) (personalization : Bytes) (s : Blk (St w)) : M (Bool × Blk (St w)) :=
  if personalization.length ≠ 0 ∧ personalization.length ≠ w / 4 then pure (true, s)
  else do
    let x ← copyWords T s.h.p personalization
    pure (false, { s with h := { s.h with p := x } })

/-- algorithm/mixin/blake2_mixin.hpp with 206-228. -/
def set (T : Word w) (p : Blake2Param) (s : Blk (St w)) : M (Bool × Blk (St w)) :=
  match p with
  | .salt v => setSalt T v s
  | .personalization v => setPersonalization T v s
  | .key v => setKey v s

/-- blake2_provider.hpp 89-107: `initX`. -/
def initX (T : Word w) (hs processed : Nat) (xoffset : BitVec 64) (rhs : BitVec w) : List (BitVec w) :=
  let len : Nat := if rhs = -1 then w else min (szSub hs processed) w
  if w = 64 then
    let H := xorAt T.IV 0 (BitVec.ofNat w len)
    let H := xorAt H 0 0x0000004000000000
    let H := xorAt H 1 (xoffset.setWidth w)
    let H := xorAt H 1 (rhs <<< 32)
    xorAt H 2 0x0000000000004000
  else
    let H := xorAt T.IV 0 (BitVec.ofNat w len)
    let H := xorAt H 1 0x00000020
    let H := xorAt H 2 (xoffset.setWidth w)
    let H := xorAt H 3 0x20000000
    xorAt H 3 ((rhs.setWidth 16).setWidth w)

/-- blake2_provider.hpp 246-248, 280-282: zero the rest of the buffer, last `transform`. -/
def lastBlock (T : Word w) (s : Blk (St w)) : M (Blk (St w)) := do
  let m ← zeroRest (2 * w) s.m s.pos
  transform T true m 1 { s with m := m }

/-- blake2_provider.hpp 240-257: `squeeze` before the loop; the bytes it writes. -/
def squeezeFirst (T : Word w) (kind : Kind) (hs : Nat) (s : Blk (St w)) : M (Bytes × Blk (St w)) :=
  if s.h.squeezing = false then do
    let total := if kind = .xof then s.total + BitVec.ofNat 64 (s.pos * 8) else s.total
    let s ← lastBlock T { s with total := total, h := { s.h with squeezing := true, xoffset := 0 } }
    let m ← memcpyTo s.m 0 (T.stores s.h.H)
    pure ([], { s with m := m })
  else if s.pos < w then do
    let toCopy := min hs (w - s.pos)
    let b ← readBytes (T.stores s.h.H) s.pos toCopy
    pure (b, { s with pos := s.pos + toCopy })
  else pure ([], s)

/-- blake2_provider.hpp 258-271: `while (processed < hs)`. Every iteration copies at least one byte, so `hs` of them are enough.
`out` holds the bytes copied so far. -/
def squeezeLoop (T : Word w) (kind : Kind) (hs : Nat) : Nat → Bytes → Blk (St w) → M (Bytes × Blk (St w))
  | 0, out, s => pure (out, s)
  | fuel + 1, out, s =>
    if out.length < hs then do
      let H := initSalt s.h.s s.h.p
        (initX T hs out.length s.h.xoffset (if kind = .xof then -1 else BitVec.ofNat w hs))
      let m ← memset s.m w 0 (2 * w - w)
      let s ← transform T true m 1
        { s with h := { s.h with H := H, xoffset := s.h.xoffset + 1 }, total := BitVec.ofNat 64 (8 * w), m := m }
      let pos := min (hs - out.length) w
      let b ← readBytes (T.stores s.h.H) 0 pos
      squeezeLoop T kind hs fuel (out ++ b) { s with pos := pos }
    else pure (out, s)

/-- blake2_provider.hpp 237-272: `squeeze`. -/
def squeeze (T : Word w) (kind : Kind) (hs : Nat) (s : Blk (St w)) : M (Bytes × Blk (St w)) := do
  let (out, s) ← squeezeFirst T kind hs s
  squeezeLoop T kind hs hs out s

/-- blake2_provider.hpp 274-287: `final(hash, hs_override)`. -/
def final (T : Word w) (kind : Kind) (hsOverride : Nat) (s : Blk (St w)) : M Bytes :=
  let s := { s with total := s.total + BitVec.ofNat 64 (s.pos * 8) }
  let hss := if hsOverride ≠ 0 then hsOverride else s.h.hs
  if kind = .hash then do
    let s ← lastBlock T s
    readBytes (T.stores s.h.H) 0 (hss / 8)
  else do
    let (out, _) ← squeeze T kind (hss / 8) s
    pure out

/-- blake2_provider.hpp 289-300: `clear`. -/
def clear (s : Blk (St w)) : M (Blk (St w)) :=
  pure { s with h := { s.h with H := List.replicate 8 0, s := [0, 0], p := [0, 0], k := [], fanout := 0, nodedepth := 0, nodeoffset := 0 },
                m := zeroBytes s.m }

/-- blake2_provider.hpp 115-390: the class, for the kinds `hash` and `x_hash`. -/
def provider (T : Word w) (kind : Kind) : HashProvider (Blk (St w)) Blake2Param where
  init := init T kind
  update := update T
  final := final T kind 0
  clear := clear
  hashSize := fun s => s.h.hs
  set := set T

/-- blake2_provider.hpp 115-390: the class, for the kind `xof`. -/
def xofProvider (T : Word w) : XofProvider (Blk (St w)) Blake2Param where
  init := init T .xof
  update := update T
  squeeze := squeeze T .xof
  clear := clear
  set := set T

/-- blake2_provider.hpp 126-129, 144: the largest size accepted. -/
def limit (w : Nat) (kind : Kind) : Nat := if kind = .hash then 8 * w else 8 * w * (w / 8) * 4 - 16

/-- blake2_provider.hpp 131-135, 147-151: what the constructors set. The string `k` is default-constructed, hence empty. -/
def fields (hs : Nat) (mem : Blk (St w)) : Blk (St w) :=
  { mem with h := { mem.h with hs := hs, squeezing := false, s := [0, 0], p := [0, 0], k := [], fanout := 0, nodedepth := 0, nodeoffset := 0 } }

/-- blake2_provider.hpp 120-136: the constructor taking a size, for the kinds `hash` and `x_hash`. -/
def new (kind : Kind) (hashsize : Nat) (mem : Blk (St w)) : Option (Blk (St w)) :=
  if validateMax hashsize (limit w kind) then some (fields hashsize mem) else none

/-- The array members have their sizes (blake2_provider.hpp 377-381). -/
def Mem (s : Blk (St w)) : Prop := s.m.length = 2 * w

/-- algorithm/blake2.hpp: `blake2b(n)`, `blake2s(n)`, `blake2xb(n)`, `blake2xs(n)`. -/
def blake2 (T : Word w) (kind : Kind) (hashsize : Nat) : HashClass where
  S := _
  P := _
  pr := provider T kind
  Mem := Mem
  ctor := fun s => pure (new kind hashsize s)

/-- blake2_provider.hpp 138-152, algorithm/blake2.hpp: `static_size::blake2b<n>` and so on. -/
def blake2Static (T : Word w) (kind : Kind) (n : Nat) : HashClass where
  S := _
  P := _
  pr := provider T kind
  Mem := Mem
  ctor := fun s => pure (some (fields n s))

/-- algorithm/blake2.hpp: `blake2xb_xof`, `blake2xs_xof`. -/
def blake2xof (T : Word w) : XofClass where
  S := _
  P := _
  pr := xofProvider T
  Mem := Mem
  ctor := fun s => pure (some (fields (8 * w) s))

end Digestpp.Model.Blake2
