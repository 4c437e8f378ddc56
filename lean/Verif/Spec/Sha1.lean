import Verif.Spec.Md

/-! SHA-1, from FIPS 180-4. -/

namespace Digestpp.Spec.Sha1

abbrev W := BitVec 32

/-- FIPS 180-4 section 4.1.1. -/
def f (t : Nat) (x y z : W) : W :=
  if t < 20 then (x &&& y) ^^^ (~~~x &&& z)
  else if t < 40 then x ^^^ y ^^^ z
  else if t < 60 then (x &&& y) ^^^ (x &&& z) ^^^ (y &&& z)
  else x ^^^ y ^^^ z

/-- FIPS 180-4 section 4.2.1. -/
def K (t : Nat) : W :=
  if t < 20 then 0x5a827999 else if t < 40 then 0x6ed9eba1 else if t < 60 then 0x8f1bbcdc else 0xca62c1d6

/-- FIPS 180-4 section 6.1.2, step 1: the message schedule. -/
def sched (M : List W) (t : Nat) : W :=
  if t < 16 then M.getD t 0
  else (sched M (t - 3) ^^^ sched M (t - 8) ^^^ sched M (t - 14) ^^^ sched M (t - 16)).rotateLeft 1

/-- Chaining value. -/
abbrev H := W × W × W × W × W

/-- FIPS 180-4 section 6.1.2, step 3. -/
def round (M : List W) (v : H) (t : Nat) : H :=
  let (a, b, c, d, e) := v
  (a.rotateLeft 5 + f t b c d + e + K t + sched M t, a, b.rotateLeft 30, c, d)

/-- FIPS 180-4 section 6.1.2. -/
def compress (h : H) (block : Bytes) : H :=
  let v := (List.range 80).foldl (round (beWords 32 block)) h
  (h.1 + v.1, h.2.1 + v.2.1, h.2.2.1 + v.2.2.1, h.2.2.2.1 + v.2.2.2.1, h.2.2.2.2 + v.2.2.2.2)

/-- SHA-1 of a message of fewer than `2^64` bits. -/
def hash (msg : Bytes) : Bytes :=
  let h := (chunks 64 (mdPad 64 (beBytes 8 (8 * msg.length)) msg)).foldl compress
    (0x67452301, 0xefcdab89, 0x98badcfe, 0x10325476, 0xc3d2e1f0)
  ofBeWords [h.1, h.2.1, h.2.2.1, h.2.2.2.1, h.2.2.2.2]

/-- SHA-1. -/
def sha1 : HashFn Empty Unit := plainFn 20 hash

end Digestpp.Spec.Sha1
