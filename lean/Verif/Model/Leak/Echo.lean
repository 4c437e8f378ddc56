import Verif.Model.Leak
import Verif.Model.Locals.Echo
import Verif.Model.Echo

/-! `transform` of algorithm/detail/echo_provider.hpp with its local array `w[32]` and with the member `h[32]` as one array, whose last
`block_bytes()` bytes are the buffer `m`. Traced; see `Model/Leak`. -/

namespace Digestpp.Model.Leak.Echo
open Model.Echo

/-- `std::swap(w[i], w[j])` (echo_provider.hpp 24-39). -/
def swap (i j : Nat) (w : List (BitVec 64)) : L (List (BitVec 64)) := do
  let x ← rd w i
  let y ← rd w j
  let w ← wr w i y
  wr w j x

/-- echo_provider.hpp 22-40: `shift_rows`. -/
def shiftRows (w : List (BitVec 64)) : L (List (BitVec 64)) := do
  let w ← swap 2 10 w
  let w ← swap 3 11 w
  let w ← swap 4 20 w
  let w ← swap 5 21 w
  let w ← swap 6 30 w
  let w ← swap 7 31 w
  let w ← swap 12 28 w
  let w ← swap 13 29 w
  let w ← swap 22 14 w
  let w ← swap 23 15 w
  let w ← swap 30 14 w
  let w ← swap 31 15 w
  let w ← swap 26 18 w
  let w ← swap 27 19 w
  let w ← swap 26 10 w
  swap 27 11 w

/-- echo_provider.hpp 50-64: the body of the inner loop of `mix_columns`. -/
def mixStep (idx : Nat) (w : List (BitVec 64)) : L (List (BitVec 64)) := do
  let a ← rd w idx
  let b ← rd w (idx + 2)
  let c ← rd w (idx + 4)
  let d ← rd w (idx + 6)
  let w ← wr w idx (dbl a ^^^ dbl b ^^^ b ^^^ c ^^^ d)
  let w ← wr w (idx + 2) (dbl b ^^^ dbl c ^^^ c ^^^ d ^^^ a)
  let w ← wr w (idx + 4) (dbl c ^^^ dbl d ^^^ d ^^^ a ^^^ b)
  wr w (idx + 6) (dbl d ^^^ dbl a ^^^ a ^^^ b ^^^ c)

/-- echo_provider.hpp 42-67: `mix_columns`. -/
def mixColumns (w : List (BitVec 64)) : L (List (BitVec 64)) :=
  loop 0 4 (fun i w => loop 0 2 (fun j w => mixStep (i * 4 * 2 + j) w) w) w

/-- `echo_constants<void>::T[i][(unsigned char)(x >> n)]`, as in echo_provider.hpp 76-115. -/
def look {v : Nat} (i : Nat) (x : BitVec v) (n : Nat) : L (BitVec 32) := do
  let row ← rd echo_T i
  rd row ((x >>> n).setWidth 8).toNat

/-- The four table elements of each of the statements in echo_provider.hpp 75-117. -/
def four {v : Nat} (x0 : BitVec v) (n0 : Nat) (x1 : BitVec v) (n1 : Nat) (x2 : BitVec v) (n2 : Nat) (x3 : BitVec v) (n3 : Nat) :
    L (BitVec 32 × BitVec 32 × BitVec 32 × BitVec 32) := do
  let a ← look 0 x0 n0
  let b ← look 1 x1 n1
  let c ← look 2 x2 n2
  let d ← look 3 x3 n3
  pure (a, b, c, d)

/-- echo_provider.hpp 75-92: `t0`, `t1`, `t2`, `t3` (`x0`, `x1` are `w[idx]`, `w[idx1]`). `t1` is computed with 64 bits and truncated. -/
def first (x0 x1 counter : BitVec 64) : L (BitVec 32 × BitVec 32 × BitVec 32 × BitVec 32) := do
  let v ← four x0 0 x0 40 x1 16 x1 56
  let t0 := counter.setWidth 32 ^^^ v.1 ^^^ v.2.1 ^^^ v.2.2.1 ^^^ v.2.2.2
  let v ← four x0 32 x1 8 x1 48 x0 24
  let t1 := ((counter >>> 32) ^^^ v.1.setWidth 64 ^^^ v.2.1.setWidth 64 ^^^ v.2.2.1.setWidth 64 ^^^ v.2.2.2.setWidth 64).setWidth 32
  let v ← four x1 0 x1 40 x0 16 x0 56
  let t2 := v.1 ^^^ v.2.1 ^^^ v.2.2.1 ^^^ v.2.2.2
  let v ← four x1 32 x0 8 x0 48 x1 24
  let t3 := v.1 ^^^ v.2.1 ^^^ v.2.2.1 ^^^ v.2.2.2
  pure (t0, t1, t2, t3)

/-- echo_provider.hpp 96-106, 107-117: the right-hand side of the assignment, with the arguments in the order of the code and `s` the
index into `salt`. -/
def second (salt : List (BitVec 64)) (s : Nat) (a b c d : BitVec 32) : L (BitVec 64) := do
  let v ← four a 0 b 8 c 16 d 24
  let u ← four b 0 c 8 d 16 a 24
  let z ← rd salt s
  pure ((v.1 ^^^ v.2.1 ^^^ v.2.2.1 ^^^ v.2.2.2).setWidth 64 ^^^ ((u.1 ^^^ u.2.1 ^^^ u.2.2.1 ^^^ u.2.2.2).setWidth 64 <<< 32) ^^^ z)

/-- echo_provider.hpp 73-117: the body of the loop in `sub_words`, on `w` and `counter`. -/
def subWord (salt : List (BitVec 64)) (r : Nat) (s : List (BitVec 64) × BitVec 64) : L (List (BitVec 64) × BitVec 64) := do
  let x0 ← rd s.1 (r * 2)
  let x1 ← rd s.1 (r * 2 + 1)
  let t ← first x0 x1 s.2
  let counter := s.2 + 1
  let y ← second salt 0 t.1 t.2.1 t.2.2.1 t.2.2.2
  let w ← wr s.1 (r * 2) y
  let y ← second salt 1 t.2.2.1 t.2.2.2 t.1 t.2.1
  let w ← wr w (r * 2 + 1) y
  pure (w, counter)

/-- echo_provider.hpp 69-119: `sub_words`. -/
def subWords (salt : List (BitVec 64)) (s : List (BitVec 64) × BitVec 64) : L (List (BitVec 64) × BitVec 64) :=
  loop 0 16 (subWord salt) s

/-- echo_provider.hpp 266-271: the rounds. -/
def rounds (n : Nat) (salt : List (BitVec 64)) (s : List (BitVec 64) × BitVec 64) : L (List (BitVec 64) × BitVec 64) :=
  loop 0 n (fun _ s => do
    let s ← subWords salt s
    let w ← shiftRows s.1
    let w ← mixColumns w
    pure (w, s.2)) s

/-- echo_provider.hpp 122-132: `final256`, the eight statements. -/
def final256 (w h : List (BitVec 64)) : L (List (BitVec 64)) :=
  loop 0 8 (fun i h => do
    let a ← rd h i
    let b ← rd h (i + 8)
    let c ← rd h (i + 16)
    let d ← rd h (i + 24)
    let e ← rd w i
    let f ← rd w (i + 8)
    let g ← rd w (i + 16)
    let j ← rd w (i + 24)
    wr h i (a ^^^ b ^^^ c ^^^ d ^^^ e ^^^ f ^^^ g ^^^ j)) h

/-- echo_provider.hpp 134-152: `final512`, the sixteen statements. -/
def final512 (w h : List (BitVec 64)) : L (List (BitVec 64)) :=
  loop 0 16 (fun i h => do
    let a ← rd h i
    let b ← rd h (i + 16)
    let c ← rd w i
    let d ← rd w (i + 16)
    wr h i (a ^^^ b ^^^ c ^^^ d)) h

/-- `memcpy` to a place in the array `h`, given by a byte offset (echo_provider.hpp 262). -/
def poke (h : List (BitVec 64)) (off : Nat) (b : Bytes) : L (List (BitVec 64)) := do
  let x ← memcpyTo (stores64 h) off b
  pure (loads64 h.length x)

/-- echo_provider.hpp 261-262. `mp` is `none` if the pointer is equal to `m`. -/
def copyIn (hs : Nat) (mp : Option Bytes) (blk delta : Nat) (h : List (BitVec 64)) : L (List (BitVec 64)) :=
  match mp with
  | none => do
    let _ ← branch false
    pure h
  | some p => do
    let _ ← branch true
    let b ← readBytes p (blockBytes hs * blk) delta
    poke h (szSub 256 (blockBytes hs)) b

/-- echo_provider.hpp 252-276: an iteration of the loop, on `h` and `addtototal` (a number of bytes, below `2^64`). `w` is the contents of
the local array at its beginning. -/
def block (hs : Nat) (salt : List (BitVec 64)) (total : BitVec 64) (w : List (BitVec 64)) (mp : Option Bytes) (addedbits : Bool) (blk : Nat)
    (s : List (BitVec 64) × Nat) : L (List (BitVec 64) × Nat) := do
  let delta := min s.2 (blockBytes hs)
  let counter := if addedbits then total + BitVec.ofNat 64 ((blk * blockBytes hs + delta) * 8) else 0
  let h ← if ← branch addedbits then copyIn hs mp blk delta s.1 else pure s.1
  let w ← copyN w h 32
  let x ← rounds (if ← branch (hs > 256) then 10 else 8) salt (w, counter)
  let h ← if ← branch (hs ≤ 256) then final256 x.1 h else final512 x.1 h
  pure (h, if addedbits then s.2 - delta else s.2)

/-- echo_provider.hpp 247-278: `transform`; the result is the array `h`. -/
def transform (hs : Nat) (salt : List (BitVec 64)) (total : BitVec 64) (k : Nat → List (BitVec 64)) (mp : Option Bytes) (n : Nat) (addedbits : Bool)
    (addtototal : Nat) (h : List (BitVec 64)) : L (List (BitVec 64)) := do
  let s ← loop 0 n (fun blk s => block hs salt total (k blk) mp addedbits blk s) (h, addtototal)
  pure s.1

end Digestpp.Model.Leak.Echo
