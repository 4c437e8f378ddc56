import Verif.Model.Leak
import Verif.Model.Locals.Groestl
import Verif.Model.Groestl
import Verif.Model.Kupyna

/-! The transformations of algorithm/detail/groestl_provider.hpp and kupyna_provider.hpp with their local arrays. Traced; see `Model/Leak`. -/

namespace Digestpp.Model.Leak
open Locals (PQ)

/-- `T[i][static_cast<unsigned char>(x[j] >> (8 * i))]`, as in groestl_provider.hpp 29-36, kupyna_provider.hpp 26-33. -/
def look (T : List (List (BitVec 64))) (x : List (BitVec 64)) (i j : Nat) : L (BitVec 64) := do
  let row ← rd T i
  let v ← rd x j
  rd row ((v >>> (8 * i)).setWidth 8).toNat

/-- groestl_provider.hpp 29-36, 46-53, kupyna_provider.hpp 26-33: the right-hand side; the `j` are the indices of the array `x`. -/
def cell (T : List (List (BitVec 64))) (x : List (BitVec 64)) (j0 j1 j2 j3 j4 j5 j6 j7 : Nat) : L (BitVec 64) := do
  let v0 ← look T x 0 j0
  let v1 ← look T x 1 j1
  let v2 ← look T x 2 j2
  let v3 ← look T x 3 j3
  let v4 ← look T x 4 j4
  let v5 ← look T x 5 j5
  let v6 ← look T x 6 j6
  let v7 ← look T x 7 j7
  pure (v0 ^^^ v1 ^^^ v2 ^^^ v3 ^^^ v4 ^^^ v5 ^^^ v6 ^^^ v7)

/-- groestl_provider.hpp 25-26, 42-43, kupyna_provider.hpp 39-40, 48-50: the first loop of a round; `f idx` is the change of `x[idx]`. -/
def mix (R : Nat) (f : Nat → BitVec 64 → BitVec 64) (x : List (BitVec 64)) : L (List (BitVec 64)) :=
  loop 0 R (fun idx x => upd x idx (f idx)) x

/-- A round writes both arrays (groestl_provider.hpp 22-54, kupyna_provider.hpp 36-53): `round x y i` gives the new `x` and `y`. -/
abbrev PRound := List (BitVec 64) → List (BitVec 64) → BitVec 64 → L (List (BitVec 64) × List (BitVec 64))

/-- groestl_provider.hpp 61-65, kupyna_provider.hpp 60-64; the pointer `m` is the range `mp`. -/
def fillPQ (R : Nat) (h : List (BitVec 64)) (mp : Bytes) (k : PQ) : L PQ :=
  loop 0 R (fun column k => do
    let x ← rd h column
    let y ← rd64 mp column
    let AP1 ← wr k.AP1 column (x ^^^ y)
    let y ← rd64 mp column
    let AQ1 ← wr k.AQ1 column y
    pure { k with AP1 := AP1, AQ1 := AQ1 }) k

/-- groestl_provider.hpp 69-72, kupyna_provider.hpp 68-71; `qarg` is what is done to the last argument of `roundQ`. -/
def stepPQ (P Q : PRound) (qarg : BitVec 64 → BitVec 64) (r : BitVec 64) (k : PQ) : L PQ := do
  let (AP1, AP2) ← P k.AP1 k.AP2 r
  let (AP2, AP1) ← P AP2 AP1 (r + 1)
  let (AQ1, AQ2) ← Q k.AQ1 k.AQ2 (qarg r)
  let (AQ2, AQ1) ← Q AQ2 AQ1 (qarg (r + 1))
  pure ⟨AQ1, AQ2, AP1, AP2⟩

/-- groestl_provider.hpp 56-79, kupyna_provider.hpp 55-78: `transform`; the loop counts by two. -/
def compress (R its : Nat) (P Q : PRound) (qarg : BitVec 64 → BitVec 64) (k : PQ) (h : List (BitVec 64)) (mp : Bytes) : L (List (BitVec 64)) := do
  let k ← fillPQ R h mp k
  let k ← loop 0 its (fun t k => stepPQ P Q qarg (BitVec.ofNat 64 (2 * t)) k) k
  loop 0 R (fun column h => do
    let p ← rd k.AP1 column
    let q ← rd k.AQ1 column
    let x ← rd h column
    wr h column (p ^^^ q ^^^ x)) h

/-- groestl_provider.hpp 81-99, kupyna_provider.hpp 80-98: `outputTransform`; `t1`, `t2` are the contents of the local arrays at its beginning. -/
def outputTransform (R its : Nat) (P : PRound) (t1 t2 h : List (BitVec 64)) : L (List (BitVec 64)) := do
  let t1 ← loop 0 R (fun column t1 => do
    let x ← rd h column
    wr t1 column x) t1
  let t ← loop 0 its (fun t k => do
    let r := BitVec.ofNat 64 (2 * t)
    let (t1, t2) ← P k.1 k.2 r
    let (t2, t1) ← P t2 t1 (r + 1)
    pure (t1, t2)) (t1, t2)
  loop 0 R (fun column h => do
    let x ← rd t.1 column
    upd h column (· ^^^ x)) h

namespace Groestl
open Model.Groestl

/-- groestl_provider.hpp 28-36, 45-53: the second loop of a round. -/
def lookups (R s0 s1 s2 s3 s4 s5 s6 s7 : Nat) (x y : List (BitVec 64)) : L (List (BitVec 64)) :=
  loopDown R (fun c y => do
    let v ← cell groestl_T x ((c + s0) % R) ((c + s1) % R) ((c + s2) % R) ((c + s3) % R) ((c + s4) % R) ((c + s5) % R) ((c + s6) % R) ((c + s7) % R)
    wr y c v) y

/-- groestl_provider.hpp 22-37: `roundP`. -/
def roundP (R : Nat) : PRound := fun x y i => do
  let x ← mix R (fun idx v => v ^^^ ((BitVec.ofNat 64 idx <<< 4) ^^^ i)) x
  let y ← lookups R 0 1 2 3 4 5 6 (if R = 16 then 11 else 7) x y
  pure (x, y)

/-- groestl_provider.hpp 39-54: `roundQ`. -/
def roundQ (R : Nat) : PRound := fun x y i => do
  let x ← mix R (fun idx v => v ^^^ ((0xffffffffffffffff - (BitVec.ofNat 64 idx <<< 60)) ^^^ i)) x
  let y ← lookups R 1 3 5 (if R = 16 then 11 else 7) 0 2 4 6 x y
  pure (x, y)

/-- groestl_provider.hpp 188-197: `transform`. -/
def transform (k : Nat → PQ) (data : Bytes) (n : Nat) (s : Blk St) : L (Blk St) := do
  let h ← loop 0 n (fun blk h =>
    compress (cols s.h.hs) (iterations (cols s.h.hs)) (roundP (cols s.h.hs)) (roundQ (cols s.h.hs)) (· <<< 56) (k blk) h (data.drop (blockBytes s.h.hs * blk))) s.h.h
  pure { s with h := { s.h with h := h } }

end Groestl

namespace Kupyna
open Model.Kupyna

/-- kupyna_provider.hpp 22-34: `G`. -/
def G (R : Nat) (x y : List (BitVec 64)) : L (List (BitVec 64)) :=
  loop 0 R (fun c y => do
    let v ← cell kupyna_T x ((c + R) % R) ((c + R - 1) % R) ((c + R - 2) % R) ((c + R - 3) % R) ((c + R - 4) % R) ((c + R - 5) % R) ((c + R - 6) % R)
      ((c + R - (if R = 16 then 11 else 7)) % R)
    wr y c v) y

/-- kupyna_provider.hpp 36-43: `roundP`. -/
def roundP (R : Nat) : PRound := fun x y i => do
  let x ← mix R (fun idx v => v ^^^ ((BitVec.ofNat 64 idx <<< 4) ^^^ i)) x
  let y ← G R x y
  pure (x, y)

/-- kupyna_provider.hpp 45-53: `roundQ`. -/
def roundQ (R : Nat) : PRound := fun x y i => do
  let x ← mix R (fun j v => v + (0x00F0F0F0F0F0F0F3 ^^^ (BitVec.ofNat 64 (((R - 1 - j) * 0x10) ^^^ (i.setWidth 8).toNat) <<< 56))) x
  let y ← G R x y
  pure (x, y)

/-- kupyna_provider.hpp 182-191: `transform`. -/
def transform (k : Nat → PQ) (data : Bytes) (n : Nat) (s : Blk St) : L (Blk St) := do
  let h ← loop 0 n (fun blk h =>
    compress (cols s.h.hs) (iterations (cols s.h.hs)) (roundP (cols s.h.hs)) (roundQ (cols s.h.hs)) id (k blk) h (data.drop (blockBytes s.h.hs * blk))) s.h.h
  pure { s with h := { s.h with h := h } }

end Kupyna

end Digestpp.Model.Leak
