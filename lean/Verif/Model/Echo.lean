import Verif.Model.Hasher
import Verif.Model.MdFinal
import Verif.Model.Validate
import Verif.Model.Tables.Echo

/-! Model of algorithm/detail/echo_provider.hpp.

The member `h` (echo_provider.hpp 280) is an array of 32 words of which the last `block_bytes()` bytes serve as the message buffer
`m` (209, 215, 249). Since `block_bytes()` never changes, the model keeps the two parts separately: `St.c` is the part in front of
the buffer, `Blk.m` the buffer. -/

namespace Digestpp.Model.Echo

/-- `std::swap(w[i], w[j])` (echo_provider.hpp 24-39). -/
def swap (i j : Nat) (w : List (BitVec 64)) : List (BitVec 64) := (w.set i (w.getD j 0)).set j (w.getD i 0)

/-- echo_provider.hpp 22-40: `shift_rows`. -/
def shiftRows (w : List (BitVec 64)) : List (BitVec 64) :=
  let w := swap 2 10 w
  let w := swap 3 11 w
  let w := swap 4 20 w
  let w := swap 5 21 w
  let w := swap 6 30 w
  let w := swap 7 31 w
  let w := swap 12 28 w
  let w := swap 13 29 w
  let w := swap 22 14 w
  let w := swap 23 15 w
  let w := swap 30 14 w
  let w := swap 31 15 w
  let w := swap 26 18 w
  let w := swap 27 19 w
  let w := swap 26 10 w
  swap 27 11 w

/-- echo_provider.hpp 56-59: doubling the eight bytes of a word in the AES field. -/
def dbl (a : BitVec 64) : BitVec 64 := ((a <<< 1) &&& 0xfefefefefefefefe#64) ^^^ (((a >>> 7) &&& 0x0101010101010101#64) * 0x1b#64)

/-- echo_provider.hpp 50-64: the body of the inner loop of `mix_columns`. -/
def mixStep (w : List (BitVec 64)) (idx : Nat) : List (BitVec 64) :=
  let a := w.getD idx 0
  let b := w.getD (idx + 2) 0
  let c := w.getD (idx + 4) 0
  let d := w.getD (idx + 6) 0
  let w := w.set idx (dbl a ^^^ dbl b ^^^ b ^^^ c ^^^ d)
  let w := w.set (idx + 2) (dbl b ^^^ dbl c ^^^ c ^^^ d ^^^ a)
  let w := w.set (idx + 4) (dbl c ^^^ dbl d ^^^ d ^^^ a ^^^ b)
  w.set (idx + 6) (dbl d ^^^ dbl a ^^^ a ^^^ b ^^^ c)

/-- echo_provider.hpp 42-67: `mix_columns`. -/
def mixColumns (w : List (BitVec 64)) : List (BitVec 64) :=
  (List.range 4).foldl (fun w i => (List.range 2).foldl (fun w j => mixStep w (i * 4 * 2 + j)) w) w

/-- `T[0][a] ^ T[1][b] ^ T[2][c] ^ T[3][d]`, the combination of table entries used throughout echo_provider.hpp 75-117. -/
def col (a b c d : Byte) : BitVec 32 :=
  (echo_T.getD 0 []).getD a.toNat 0 ^^^ (echo_T.getD 1 []).getD b.toNat 0 ^^^ (echo_T.getD 2 []).getD c.toNat 0 ^^^
    (echo_T.getD 3 []).getD d.toNat 0

/-- `(unsigned char)(x >> n)` (echo_provider.hpp 76-104). -/
def byteAt {w : Nat} (x : BitVec w) (n : Nat) : Byte := (x >>> n).setWidth 8

/-- echo_provider.hpp 73-117: the body of the loop in `sub_words`, for word number `r`: the two 64-bit halves. -/
def subWord (x0 x1 : BitVec 64) (counter salt0 salt1 : BitVec 64) : BitVec 64 × BitVec 64 :=
  let t0 := counter.setWidth 32 ^^^ col (byteAt x0 0) (byteAt x0 40) (byteAt x1 16) (byteAt x1 56)
  let t1 := (counter >>> 32).setWidth 32 ^^^ col (byteAt x0 32) (byteAt x1 8) (byteAt x1 48) (byteAt x0 24)
  let t2 := col (byteAt x1 0) (byteAt x1 40) (byteAt x0 16) (byteAt x0 56)
  let t3 := col (byteAt x1 32) (byteAt x0 8) (byteAt x0 48) (byteAt x1 24)
  ((col (byteAt t0 0) (byteAt t1 8) (byteAt t2 16) (byteAt t3 24)).setWidth 64 ^^^
      ((col (byteAt t1 0) (byteAt t2 8) (byteAt t3 16) (byteAt t0 24)).setWidth 64 <<< 32) ^^^ salt0,
   (col (byteAt t2 0) (byteAt t3 8) (byteAt t0 16) (byteAt t1 24)).setWidth 64 ^^^
      ((col (byteAt t3 0) (byteAt t0 8) (byteAt t1 16) (byteAt t2 24)).setWidth 64 <<< 32) ^^^ salt1)

/-- echo_provider.hpp 69-119: `sub_words`, on the array and the counter. -/
def subWords (salt : List (BitVec 64)) (s : List (BitVec 64) × BitVec 64) : List (BitVec 64) × BitVec 64 :=
  (List.range 16).foldl (fun (w, counter) r =>
    let x := subWord (w.getD (r * 2) 0) (w.getD (r * 2 + 1) 0) counter (salt.getD 0 0) (salt.getD 1 0)
    ((w.set (r * 2) x.1).set (r * 2 + 1) x.2, counter + 1)) s

/-- echo_provider.hpp 264-271: the array `w` after the rounds. `h` is the whole array of 32 words. -/
def rounds (n : Nat) (salt h : List (BitVec 64)) (counter : BitVec 64) : List (BitVec 64) :=
  ((List.range n).foldl (fun (s : List (BitVec 64) × BitVec 64) _ =>
    let s := subWords salt s
    (mixColumns (shiftRows s.1), s.2)) (h, counter)).1

/-- echo_provider.hpp 122-132: `final256`; the result are the first eight words of `h`, the others remain as they are. -/
def final256 (h w : List (BitVec 64)) : List (BitVec 64) :=
  (List.range 8).map fun i => h.getD i 0 ^^^ h.getD (i + 8) 0 ^^^ h.getD (i + 16) 0 ^^^ h.getD (i + 24) 0 ^^^
    w.getD i 0 ^^^ w.getD (i + 8) 0 ^^^ w.getD (i + 16) 0 ^^^ w.getD (i + 24) 0

/-- echo_provider.hpp 134-152: `final512`; the result are the first sixteen words of `h`. -/
def final512 (h w : List (BitVec 64)) : List (BitVec 64) :=
  (List.range 16).map fun i => h.getD i 0 ^^^ h.getD (i + 16) 0 ^^^ w.getD i 0 ^^^ w.getD (i + 16) 0

/-- echo_provider.hpp 280-282: the members other than `pos`, `total` and the part of `h` that serves as a buffer. -/
structure St where
  c : List (BitVec 64)
  salt : List (BitVec 64)
  hs : Nat

/-- echo_provider.hpp 245: `block_bytes`. -/
def blockBytes (hs : Nat) : Nat := (if hs > 256 then 1024 else 1536) / 8

/-- echo_provider.hpp 264-276: an iteration of the loop in `transform` once the block is in the buffer. -/
def compress (counter : BitVec 64) (m : Bytes) (h : St) : St :=
  let a := h.c ++ loads64 (blockBytes h.hs / 8) m
  let w := rounds (if h.hs > 256 then 10 else 8) h.salt a counter
  { h with c := if h.hs ≤ 256 then final256 a w else final512 a w }

/-- echo_provider.hpp 247-278, 210: `transform(data, n, true, block_bytes() * n)`. Here `addtototal` does not become less than
`block_bytes()` before the last iteration, so that `delta` is `block_bytes()` throughout. The comparison `m != mp` (261) is not
modelled: copying the buffer to itself has no effect. -/
def transform (data : Bytes) (n : Nat) (s : Blk St) : M (Blk St) :=
  forBlocks (blockBytes s.h.hs) data n (fun blk b x => do
    let counter := s.total + BitVec.ofNat 64 ((blk * blockBytes s.h.hs + blockBytes s.h.hs) * 8)
    let m ← memcpyTo x.m 0 b
    pure { x with m := m, h := compress counter m x.h }) s

/-- echo_provider.hpp 247-278, 223, 231: `transform(m, 1, addedbits, 0)`; `delta` is zero and nothing is copied. -/
def transformLast (addedbits : Bool) (s : Blk St) : Blk St :=
  { s with h := compress (if addedbits then s.total + BitVec.ofNat 64 ((0 * blockBytes s.h.hs + 0) * 8) else 0) s.m s.h }

/-- echo_provider.hpp 183-194: `init`. The words set in the loop are the ones in front of the buffer. -/
def init (s : Blk St) : M (Blk St) :=
  pure { s with
    h := { s.h with c := (List.range (if s.h.hs > 256 then 8 else 4)).flatMap fun _ => [BitVec.ofNat 64 s.h.hs, 0] },
    m := zeroBytes s.m, pos := 0, total := 0 }

/-- echo_provider.hpp 196-205: `set_salt`; `true`: throws. -/
def setSalt (salt : Bytes) (s : Blk St) : M (Bool × Blk St) :=
  if salt.length ≠ 0 ∧ salt.length ≠ 16 then pure (true, s)
  else if salt.length ≠ 0 then pure (false, { s with h := { s.h with salt := loads64 2 salt } })
  else pure (false, { s with h := { s.h with salt := [0, 0] } })

/-- echo_provider.hpp 207-211: `update`. -/
def update (data : Bytes) (s : Blk St) : M (Blk St) :=
  absorbBytes (blockBytes s.h.hs) (blockBytes s.h.hs) transform data s

/-- echo_provider.hpp 226-233: `final` after the first `if`. -/
def finalTail (s : Blk St) : M Bytes := do
  let limit := blockBytes s.h.hs
  let m ← memset s.m s.pos 0 (szSub (limit - 18) s.pos)
  let m ← memcpyTo m (limit - 18) (leBytes16 (BitVec.ofNat 16 s.h.hs))
  let m ← memcpyTo m (limit - 16) (bytes64 s.total)
  let m ← memset m (limit - 8) 0 8
  let s := transformLast (s.pos > 1) { s with m := m }
  readBytes (stores64 s.h.c ++ s.m) 0 (s.h.hs / 8)
where
  /-- The two bytes of a `uint16_t`, little-endian. -/
  leBytes16 (x : BitVec 16) : Bytes := [x.setWidth 8, (x >>> 8).setWidth 8]

/-- echo_provider.hpp 213-234: `final`. -/
def final (s : Blk St) : M Bytes := do
  let limit := blockBytes s.h.hs
  let total := s.total + BitVec.ofNat 64 (s.pos * 8)
  let m ← setByte s.m s.pos 0x80
  if s.pos + 1 > limit - 18 then do
    let m ← zeroRest limit m (s.pos + 1)
    let s := transformLast true { s with m := m, pos := s.pos + 1, total := total }
    finalTail { s with pos := 0 }
  else finalTail { s with m := m, pos := s.pos + 1, total := total }

/-- echo_provider.hpp 236-240: `clear`. -/
def clear (s : Blk St) : M (Blk St) :=
  pure { s with h := { s.h with c := List.replicate s.h.c.length 0, salt := [0, 0] }, m := zeroBytes s.m }

/-- echo_provider.hpp 156-286: the class; algorithm/mixin/echo_mixin.hpp 48-54: its setter. -/
def provider : HashProvider (Blk St) SaltParam where
  init := init
  update := update
  final := final
  clear := clear
  hashSize := fun s => s.h.hs
  set := fun (.salt v) => setSalt v

/-- echo_provider.hpp 162-168: the constructor taking a size. -/
def new (hashsize : Nat) (mem : Blk St) : Option (Blk St) :=
  if validateMax hashsize 512 then some { mem with h := { mem.h with salt := [0, 0], hs := hashsize } } else none

/-- The member array `h[32]`, divided as for the digest size `hs`. -/
def Mem (hs : Nat) (s : Blk St) : Prop := s.h.c.length = (256 - blockBytes hs) / 8 ∧ s.m.length = blockBytes hs

/-- algorithm/echo.hpp: `echo(hashsize)`. -/
def echo (hashsize : Nat) : HashClass where
  S := _
  P := _
  pr := provider
  Mem := Mem hashsize
  ctor := fun s => pure (new hashsize s)

/-- echo_provider.hpp 170-176, algorithm/echo.hpp: `static_size::echo<N>`. -/
def echoStatic (N : Nat) : HashClass where
  S := _
  P := _
  pr := provider
  Mem := Mem N
  ctor := fun s => pure (some { s with h := { s.h with salt := [0, 0], hs := N } })

end Digestpp.Model.Echo
