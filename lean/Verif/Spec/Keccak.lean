import Verif.Spec.Blocks
import Verif.Spec.Words
import Verif.Spec.Api

/-! Keccak-p[1600], the sponge construction, SHA-3 and SHAKE, from FIPS 202. -/

namespace Digestpp.Spec
namespace Keccak

abbrev Lane := BitVec 64

/-- A state array: lane `(x, y)` is number `5y + x` (FIPS 202 section 3.1.2); coordinates are modulo 5. -/
abbrev State := List Lane

def lane (A : State) (x y : Nat) : Lane := A.getD (5 * (y % 5) + x % 5) 0
def ofLanes (f : Nat → Nat → Lane) : State := (List.range 25).map fun i => f (i % 5) (i / 5)

/-- Section 3.2.1: θ. -/
def theta (A : State) : State :=
  let C := fun x => lane A x 0 ^^^ lane A x 1 ^^^ lane A x 2 ^^^ lane A x 3 ^^^ lane A x 4
  let D := fun x => C (x + 4) ^^^ (C (x + 1)).rotateLeft 1
  ofLanes fun x y => lane A x y ^^^ D x

/-- Section 3.2.2: the coordinates visited by ρ, from `(1, 0)`. -/
def rhoPath : Nat → Nat × Nat
  | 0 => (1, 0)
  | t + 1 => let (x, y) := rhoPath t; (y, (2 * x + 3 * y) % 5)

/-- The rotation of lane `(x, y)`: `(t+1)(t+2)/2` if it is visited at step `t`; lane `(0, 0)` is not rotated. -/
def rhoOffset (x y : Nat) : Nat :=
  match (List.range 24).find? fun t => rhoPath t == (x, y) with
  | some t => (t + 1) * (t + 2) / 2 % 64
  | none => 0

/-- Section 3.2.2: ρ. -/
def rho (A : State) : State := ofLanes fun x y => (lane A x y).rotateLeft (rhoOffset x y)

/-- Section 3.2.3: π. -/
def pi (A : State) : State := ofLanes fun x y => lane A (x + 3 * y) x

/-- Section 3.2.4: χ. -/
def chi (A : State) : State := ofLanes fun x y => lane A x y ^^^ (~~~lane A (x + 1) y &&& lane A (x + 2) y)

/-- Section 3.2.5, algorithm 5: the register after `t` steps. -/
def lfsr : Nat → List Bool
  | 0 => [true, false, false, false, false, false, false, false]
  | t + 1 =>
    let R := false :: lfsr t
    let b := R.getD 8 false
    ((((R.set 0 (R.getD 0 false ^^ b)).set 4 (R.getD 4 false ^^ b)).set 5 (R.getD 5 false ^^ b)).set 6
      (R.getD 6 false ^^ b)).take 8

/-- Algorithm 5. -/
def rc (t : Nat) : Bool := (lfsr (t % 255)).getD 0 false

/-- Algorithm 6: bit `2^j - 1` of the round constant is `rc(j + 7 i)`. -/
def RC (ir : Nat) : Lane :=
  (List.range 7).foldl (fun r j => if rc (j + 7 * ir) then r ||| (1 : Lane) <<< (2 ^ j - 1) else r) 0

/-- Section 3.2.5: ι. -/
def iota (ir : Nat) (A : State) : State := ofLanes fun x y => if x = 0 ∧ y = 0 then lane A 0 0 ^^^ RC ir else lane A x y

/-- Section 3.3: one round. -/
def round (ir : Nat) (A : State) : State := iota ir (chi (pi (rho (theta A))))

/-- Section 3.3: Keccak-p[1600, nr]: the last `nr` of 24 rounds. -/
def keccakP (nr : Nat) (A : State) : State := (List.range nr).foldl (fun A i => round (24 - nr + i) A) A

/-- Exclusive or of a string into the beginning of the state. -/
def xorInto (A : State) (P : Bytes) : State :=
  let W := leWords 64 P
  (List.range 25).map fun i => A.getD i 0 ^^^ W.getD i 0

/-- Section 4, algorithm 8, absorbing: the state after the string `P`, a multiple of `r` bytes, has been absorbed. -/
def absorb (nr r : Nat) (P : Bytes) : State :=
  (chunks r P).foldl (fun A b => keccakP nr (xorInto A b)) (List.replicate 25 0)

/-- Iteration. -/
def iter {α : Type} (f : α → α) : Nat → α → α
  | 0, a => a
  | n + 1, a => iter f n (f a)

/-- Section 4, algorithm 8, squeezing: byte `i` of the output, `r` bytes from each state. -/
def squeeze (nr r : Nat) (A : State) (i : Nat) : Byte := (ofLeWords (iter (keccakP nr) (i / r) A)).getD (i % r) 0

/-- The bits of a byte string, least significant bit of each byte first (FIPS 202 section B.1). -/
def bits (b : Bytes) : List Bool := b.flatMap fun x => (List.range 8).map x.getLsbD

/-- The inverse. -/
def ofBits (l : List Bool) : Bytes :=
  (chunks 8 l).map fun b => BitVec.ofNat 8 (b.foldr (fun x n => (if x then 1 else 0) + 2 * n) 0)

/-- Section 5.1: pad10*1. -/
def pad10s1 (x m : Nat) : List Bool := true :: List.replicate (((m + 2 + x - 1) / x * x) - (m + 2)) false ++ [true]

/-- Message, domain separation bits, padding; as bytes. -/
def padded (r : Nat) (suffix : List Bool) (msg : Bytes) : Bytes :=
  let m := bits msg ++ suffix
  ofBits (m ++ pad10s1 (8 * r) m.length)

/-- Exclusive or of `0x80` to the last byte. -/
def xorLast (p : Bytes) : Bytes := p.set (p.length - 1) (p.getD (p.length - 1) 0 ^^^ 0x80)

/-- The same padding for whole bytes (FIPS 202 section B.2; RFC 9861 section 2.2): a byte `d` holding suffix and first padding bit,
zeros up to a multiple of `r`, and `0x80` xored to the last byte. -/
def padD (r : Nat) (d : Byte) (msg : Bytes) : Bytes :=
  xorLast (msg ++ [d] ++ List.replicate ((r - (msg.length + 1) % r) % r) 0)

/-- KECCAK[c] with `r = 200 - c/8` bytes on message and suffix. -/
def keccak (r : Nat) (suffix : List Bool) (msg : Bytes) : Nat → Byte := squeeze 24 r (absorb 24 r (padded r suffix msg))

end Keccak

/-- Section 6.1: SHA3-d. -/
def sha3 (d : Nat) : HashFn Empty Unit where
  size := d / 8
  dflt := ()
  set := nofun
  digest := fun _ msg => slice (Keccak.keccak (200 - 2 * d / 8) [false, true] msg) 0 (d / 8)

/-- Section 6.2: SHAKE128 and SHAKE256 (`b` = 128 or 256). -/
def shake (b : Nat) : XofFn Empty Unit where
  dflt := ()
  set := nofun
  stream := fun _ msg => Keccak.keccak (200 - 2 * b / 8) [true, true, true, true] msg

end Digestpp.Spec
