import Verif.Spec.Api
import Verif.Spec.Md
import Verif.Spec.Bits

/-! The hash function JH: H. Wu, "The Hash Function JH" (version of January 2011, 42 rounds). A string of
bits is a function from positions; the first bit of a byte is its most significant one, the first bit of a four-bit element
as well. -/

namespace Digestpp.Spec.Jh
open Spec

/-- A string of bits. -/
abbrev Bits := Nat → Bool

/-- A string of four-bit elements. -/
abbrev Elems := Nat → BitVec 4

/-- The bits of a byte string. -/
def bitsOf (b : Bytes) : Bits := fun i => (b.getD (i / 8) 0).getLsbD (7 - i % 8)

/-- The first `n` bytes of a string of bits. -/
def bytesOf (n : Nat) (A : Bits) : Bytes := (List.range n).map fun i => ofBits 8 fun j => A (8 * i + (7 - j))

/-- Bit `j` of a four-bit element. -/
def bit (j : Nat) (x : BitVec 4) : Bool := x.getLsbD (3 - j)

/-- S-boxes: `S0` and `S1`. -/
def S (c : Bool) (x : BitVec 4) : BitVec 4 :=
  (if c then [3, 12, 6, 13, 5, 7, 1, 9, 15, 2, 0, 4, 11, 10, 14, 8]
    else [9, 0, 4, 11, 13, 12, 3, 15, 1, 10, 2, 6, 7, 5, 8, 14]).getD x.toNat 0

/-- Multiplication by 2 in the field with 16 elements, modulo `x^4 + x + 1`. -/
def twice (x : BitVec 4) : BitVec 4 := (x <<< 1) ^^^ (if x.getLsbD 3 then 3 else 0)

/-- Linear transformation: `L(A, B) = (5 A + 2 B, 2 A + B)`. -/
def L (A B : BitVec 4) : BitVec 4 × BitVec 4 := (twice (twice A) ^^^ A ^^^ twice B, twice A ^^^ B)

/-- Permutation: `π_d`. -/
def pi (a : Elems) : Elems := fun i =>
  if i % 4 = 2 then a (i + 1) else if i % 4 = 3 then a (i - 1) else a i

/-- Permutation: `P'_d`. -/
def P' (d : Nat) (a : Elems) : Elems := fun i =>
  if i < 2 ^ (d - 1) then a (2 * i) else a (2 * (i - 2 ^ (d - 1)) + 1)

/-- Permutation: `φ_d`. -/
def phi (d : Nat) (a : Elems) : Elems := fun i =>
  if i < 2 ^ (d - 1) then a i else if i % 2 = 0 then a (i + 1) else a (i - 1)

/-- Permutation: `P_d = φ_d ∘ P'_d ∘ π_d`. -/
def P (d : Nat) (a : Elems) : Elems := phi d (P' d (pi a))

/-- Round function: the S-box layer with the round constant `c`. -/
def subst (c : Bits) (a : Elems) : Elems := fun i => S (c i) (a i)

/-- Round function: the linear layer. -/
def linear (v : Elems) : Elems := fun i =>
  if i % 2 = 0 then (L (v i) (v (i + 1))).1 else (L (v (i - 1)) (v i)).2

/-- Round function: the round function `R_d`. -/
def R (d : Nat) (c : Bits) (a : Elems) : Elems := P d (linear (subst c a))

/-- Round constants: `C_0`, the first 256 bits of the fractional part of the square root of two. -/
def sqrt2 : BitVec 256 := 0x6a09e667f3bcc908b2fb1366ea957d3e3adec17512775099da2f590b0667322a

/-- Round constants: the round constant of round `r`, as 64 four-bit elements; `C_{r+1} = R_6(C_r, 0)`. -/
def C : Nat → Elems
  | 0 => fun i => ofBits 4 fun j => sqrt2.getLsbD (255 - (4 * i + (3 - j)))
  | r + 1 => R 6 (fun _ => false) (C r)

/-- Round constants: the bits of a round constant. -/
def constBits (r : Nat) : Bits := fun i => bit (i % 4) (C r (i / 4))

/-- Grouping. -/
def group (A : Bits) : Elems := fun k =>
  ofBits 4 fun j => A (k / 2 + 128 * (k % 2) + 256 * (3 - j))

/-- De-grouping: the inverse. -/
def degroup (q : Elems) : Bits := fun i => bit (i / 256) (q (2 * (i % 128) + i / 128 % 2))

/-- `E8`: 42 rounds. -/
def E8 (A : Bits) : Bits :=
  degroup ((List.range 42).foldl (fun a r => R 8 (constBits r) a) (group A))

/-- Compression function `F8`: the message block is added to the first half before and to the second half after. -/
def F8 (H M : Bits) : Bits :=
  let B := E8 fun j => if j < 512 then H j ^^ M j else H j
  fun j => if j < 512 then B j else B j ^^ M (j - 512)

/-- Padding: bit 1, `383 + (-l mod 512)` bits 0, the length in 128 bits; between 512 and 1023 bits are added.
`wrap` is applied to the length. -/
def pad (wrap : Nat → Nat) (msg : Bytes) : Bytes :=
  msg ++ [0x80] ++ List.replicate (47 + toMultiple 64 msg.length) 0 ++ beBytes 16 (wrap (8 * msg.length))

/-- Initial value: `F8` of the digest size in 16 bits followed by zeros, and the zero block. -/
def iv (n : Nat) : Bits := F8 (bitsOf (beBytes 2 (8 * n))) fun _ => false

/-- JH with `n` bytes of output. -/
def hashWith (wrap : Nat → Nat) (n : Nat) (msg : Bytes) : Bytes :=
  let M := pad wrap msg
  let H := foldBlocks 64 (fun _ b H => F8 H (bitsOf b)) M (M.length / 64) (iv n)
  (bytesOf 128 H).drop (128 - n)

/-- JH-`8n`, for `n` from 1 to 64. -/
def jh (n : Nat) : HashFn Empty Unit := plainFn n (hashWith (fun l => l) n)

/-- JH-`8n` with a length of only 64 bits. -/
def jhWrap (n : Nat) : HashFn Empty Unit := plainFn n (hashWith wrap64 n)

end Digestpp.Spec.Jh
