import Verif.Spec.Md
import Verif.Spec.Sha2
import Verif.Spec.BlakeRound

/-! BLAKE-224, BLAKE-256, BLAKE-384 and BLAKE-512, from the final round submission "SHA-3 proposal BLAKE" (version 1.3). -/

namespace Digestpp.Spec

/-- `arctan (1 / x)` in units of `1 / N` by the first `terms` terms of the series, each rounded down. -/
def arctanInv (x N terms : Nat) : Int :=
  (List.range terms).foldl (fun s k => s + (-1) ^ k * ((N / ((2 * k + 1) * x ^ (2 * k + 1)) : Nat) : Int)) 0

/-- The first `n` binary digits of the fractional part of π, by Machin's formula π = 16 arctan (1/5) - 4 arctan (1/239), computed with
64 digits more. -/
def piDigits (n : Nat) : Nat :=
  ((16 * arctanInv 5 (2 ^ (n + 64)) (n / 4) - 4 * arctanInv 239 (2 ^ (n + 64)) (n / 4)) / 2 ^ 64).toNat % 2 ^ n

namespace Blake

/-- What differs between the 32-bit and the 64-bit variants: the rotation distances and the number of rounds. -/
structure Variant (w : Nat) where
  r1 : Nat
  r2 : Nat
  r3 : Nat
  r4 : Nat
  rounds : Nat

/-- Section 2.1. -/
def v256 : Variant 32 := ⟨16, 12, 8, 7, 14⟩

/-- Section 2.3. -/
def v512 : Variant 64 := ⟨32, 25, 16, 11, 16⟩

/-- Sections 2.1.1, 2.3.1: the constants are the first digits of π. -/
def c (w i : Nat) : BitVec w := BitVec.ofNat w (piDigits (16 * w) / 2 ^ (w * (15 - i)))

variable {w : Nat}

/-- Sections 2.1.2, 2.3.2: the function `G_i` in round `r`. -/
def G (v : Variant w) (m : List (BitVec w)) (r i : Nat) (x : Col w) : Col w :=
  let p := perm r (2 * i)
  let q := perm r (2 * i + 1)
  let a := x.a + x.b + (m.getD p 0 ^^^ c w q)
  let d := (x.d ^^^ a).rotateRight v.r1
  let c' := x.c + d
  let b := (x.b ^^^ c').rotateRight v.r2
  let a := a + b + (m.getD q 0 ^^^ c w p)
  let d := (d ^^^ a).rotateRight v.r3
  let c' := c' + d
  let b := (b ^^^ c').rotateRight v.r4
  ⟨a, b, c', d⟩

/-- Sections 2.1.2, 2.3.2: the compression function on the chain value `h`, the block, the salt `s` and the counter `t`. -/
def compress (v : Variant w) (s : Nat → BitVec w) (t : Nat) (block : Bytes) (h : Nat → BitVec w) : Nat → BitVec w :=
  let t0 := BitVec.ofNat w t
  let t1 := BitVec.ofNat w (t / 2 ^ w)
  let init := fun k =>
    if k < 8 then h k
    else (if k < 12 then s (k - 8) else if k < 14 then t0 else t1) ^^^ c w (k - 8)
  let v := (List.range v.rounds).foldl (fun x r => round (G v (beWords w block) r) x) init
  fun i => h i ^^^ s (i % 4) ^^^ v i ^^^ v (i + 8)

/-- Sections 2.1.3, 2.2, 2.3.3, 2.4: a one bit, zeros, a one bit (only in BLAKE-256 and BLAKE-512: `one`), the length in
`bits`. The
zeros are as few as make all of it a multiple of the block length. -/
def pad (bs lf : Nat) (one : Bool) (bits : Nat) (msg : Bytes) : Bytes :=
  let body : Bytes := 0x80 :: List.replicate (toMultiple bs (msg.length + 1 + lf)) 0
  msg ++ body.dropLast ++ [body.getLastD 0 ||| (if one then 0x01 else 0x00)] ++ beBytes lf bits

/-- Section 2.1.3: the number of message bits in blocks `0` … `i`, or zero if block `i` has none. -/
def counter (bs len i : Nat) : Nat := if i * bs < len then 8 * min len ((i + 1) * bs) else 0

/-- Hash of a message: `iv` is the initial value, `salt` the four salt words as bytes. `wrap` is applied to the numbers of bits. -/
def coreWith (wrap : Nat → Nat) (v : Variant w) (iv : Nat → BitVec w) (one : Bool) (salt msg : Bytes) : Bytes :=
  let bs := 2 * w
  let p := pad bs (w / 4) one (wrap (8 * msg.length)) msg
  let s := fun i => (beWords w salt).getD i 0
  let h := foldBlocks bs (fun i b h => compress v s (wrap (counter bs msg.length i)) b h) p (p.length / bs) iv
  ofBeWords ((List.range 8).map h)

/-- Hash of a message. -/
def core (v : Variant w) (iv : Nat → BitVec w) (one : Bool) (salt msg : Bytes) : Bytes := coreWith (fun n => n) v iv one salt msg

/-- The words of a SHA-2 initial value. -/
def ivOf (h : Sha2.H8 w) (i : Nat) : BitVec w := [h.a, h.b, h.c, h.d, h.e, h.f, h.g, h.h].getD i 0

/-- BLAKE with a given digest size in bytes, as a function object with a salt of four words. Setting an empty salt removes it. -/
def fnWith (wrap : Nat → Nat) (v : Variant w) (iv : Sha2.H8 w) (one : Bool) (size : Nat) : HashFn SaltParam Bytes where
  size := size
  dflt := List.replicate (w / 2) 0
  set := fun (.salt x) _ =>
    if x.length = w / 2 then some x else if x.length = 0 then some (List.replicate (w / 2) 0) else none
  digest := fun salt msg => (coreWith wrap v (ivOf iv) one salt msg).take size

/-- BLAKE with a given digest size in bytes. -/
def fn (v : Variant w) (iv : Sha2.H8 w) (one : Bool) (size : Nat) : HashFn SaltParam Bytes := fnWith (fun n => n) v iv one size

/-- BLAKE-256: section 2.1; the initial value is that of SHA-256. -/
def blake256 : HashFn SaltParam Bytes := fn v256 Sha2.iv256 true 32
/-- BLAKE-224: section 2.2; the initial value is that of SHA-224. -/
def blake224 : HashFn SaltParam Bytes := fn v256 Sha2.iv224 false 28
/-- BLAKE-512: section 2.3; the initial value is that of SHA-512. -/
def blake512 : HashFn SaltParam Bytes := fn v512 Sha2.iv512 true 64
/-- BLAKE-384: section 2.4; the initial value is that of SHA-384. -/
def blake384 : HashFn SaltParam Bytes := fn v512 Sha2.iv384 false 48

end Blake
end Digestpp.Spec
