import Verif.Spec.Md

/-! SHA-224, SHA-256, SHA-384, SHA-512 and SHA-512/t, from FIPS 180-4. -/

namespace Digestpp.Spec

/-- The `k`-th root of `n`, rounded down, found bit by bit (for roots below `2^b`). -/
def root (k b n : Nat) : Nat :=
  (List.range b).foldr (fun i r => if (r + 2 ^ i) ^ k ≤ n then r + 2 ^ i else r) 0

/-- Primality by trial division. -/
def isPrime (p : Nat) : Bool := 2 ≤ p && (List.range p).all fun d => d < 2 || p % d != 0

/-- The first 80 primes. -/
def primes : List Nat := (List.range 410).filter isPrime

namespace Sha2

/-- The first `w` bits of the fractional part of the `k`-th root of `p`. -/
def fracRoot (k w p : Nat) : Nat := root k (w + 10) (p * 2 ^ (w * k)) % 2 ^ w

/-- What differs between the 32-bit and the 64-bit variants. -/
structure Variant (w : Nat) where
  rounds : Nat
  bsum0 : BitVec w → BitVec w
  bsum1 : BitVec w → BitVec w
  ssig0 : BitVec w → BitVec w
  ssig1 : BitVec w → BitVec w

/-- FIPS 180-4 section 4.1.2. -/
def v256 : Variant 32 where
  rounds := 64
  bsum0 := fun x => x.rotateRight 2 ^^^ x.rotateRight 13 ^^^ x.rotateRight 22
  bsum1 := fun x => x.rotateRight 6 ^^^ x.rotateRight 11 ^^^ x.rotateRight 25
  ssig0 := fun x => x.rotateRight 7 ^^^ x.rotateRight 18 ^^^ x >>> 3
  ssig1 := fun x => x.rotateRight 17 ^^^ x.rotateRight 19 ^^^ x >>> 10

/-- FIPS 180-4 section 4.1.3. -/
def v512 : Variant 64 where
  rounds := 80
  bsum0 := fun x => x.rotateRight 28 ^^^ x.rotateRight 34 ^^^ x.rotateRight 39
  bsum1 := fun x => x.rotateRight 14 ^^^ x.rotateRight 18 ^^^ x.rotateRight 41
  ssig0 := fun x => x.rotateRight 1 ^^^ x.rotateRight 8 ^^^ x >>> 7
  ssig1 := fun x => x.rotateRight 19 ^^^ x.rotateRight 61 ^^^ x >>> 6

/-- FIPS 180-4 sections 4.2.2, 4.2.3: the constants are the first bits of the fractional parts of the cube roots of the first
primes. -/
def K (w t : Nat) : BitVec w := BitVec.ofNat w (fracRoot 3 w (primes.getD t 0))

def Ch {w : Nat} (x y z : BitVec w) : BitVec w := (x &&& y) ^^^ (~~~x &&& z)
def Maj {w : Nat} (x y z : BitVec w) : BitVec w := (x &&& y) ^^^ (x &&& z) ^^^ (y &&& z)

/-- FIPS 180-4 sections 6.2.2, 6.4.2, step 1: the message schedule. -/
def sched {w : Nat} (v : Variant w) (M : List (BitVec w)) (t : Nat) : BitVec w :=
  if t < 16 then M.getD t 0
  else v.ssig1 (sched v M (t - 2)) + sched v M (t - 7) + v.ssig0 (sched v M (t - 15)) + sched v M (t - 16)

/-- Eight words. -/
structure H8 (w : Nat) where
  a : BitVec w
  b : BitVec w
  c : BitVec w
  d : BitVec w
  e : BitVec w
  f : BitVec w
  g : BitVec w
  h : BitVec w

/-- FIPS 180-4 sections 6.2.2, 6.4.2, step 3. -/
def round {w : Nat} (v : Variant w) (M : List (BitVec w)) (r : H8 w) (t : Nat) : H8 w :=
  let T1 := r.h + v.bsum1 r.e + Ch r.e r.f r.g + K w t + sched v M t
  let T2 := v.bsum0 r.a + Maj r.a r.b r.c
  ⟨T1 + T2, r.a, r.b, r.c, r.d + T1, r.e, r.f, r.g⟩

/-- FIPS 180-4 sections 6.2.2, 6.4.2. -/
def compress {w : Nat} (v : Variant w) (h : H8 w) (block : Bytes) : H8 w :=
  let r := (List.range v.rounds).foldl (round v (beWords w block)) h
  ⟨h.a + r.a, h.b + r.b, h.c + r.c, h.d + r.d, h.e + r.e, h.f + r.f, h.g + r.g, h.h + r.h⟩

/-- Padding (section 5.1: the length field has two words), compression of all blocks, and the resulting words as bytes. -/
def core {w : Nat} (v : Variant w) (iv : H8 w) (msg : Bytes) : H8 w :=
  (chunks (2 * w) (mdPad (2 * w) (beBytes (w / 4) (8 * msg.length)) msg)).foldl (compress v) iv

/-- The same with a length field that says `bits`. -/
def coreWith (bits : Nat) {w : Nat} (v : Variant w) (iv : H8 w) (msg : Bytes) : H8 w :=
  (chunks (2 * w) (mdPad (2 * w) (beBytes (w / 4) bits) msg)).foldl (compress v) iv

def H8.bytes {w : Nat} (h : H8 w) : Bytes := ofBeWords [h.a, h.b, h.c, h.d, h.e, h.f, h.g, h.h]

/-- Eight words given by a function of a prime, from the `i`-th prime on. -/
def H8.ofPrimes {w : Nat} (f : Nat → BitVec w) (i : Nat) : H8 w :=
  let g := fun j => f (primes.getD (i + j) 0)
  ⟨g 0, g 1, g 2, g 3, g 4, g 5, g 6, g 7⟩

/-- FIPS 180-4 section 5.3.3: square roots of the first eight primes. -/
def iv256 : H8 32 := .ofPrimes (fun p => BitVec.ofNat 32 (fracRoot 2 32 p)) 0
/-- FIPS 180-4 section 5.3.2: second 32 bits of the fractional parts of the square roots of the ninth to sixteenth primes. -/
def iv224 : H8 32 := .ofPrimes (fun p => BitVec.ofNat 32 (fracRoot 2 64 p)) 8
/-- FIPS 180-4 section 5.3.5. -/
def iv512 : H8 64 := .ofPrimes (fun p => BitVec.ofNat 64 (fracRoot 2 64 p)) 0
/-- FIPS 180-4 section 5.3.4. -/
def iv384 : H8 64 := .ofPrimes (fun p => BitVec.ofNat 64 (fracRoot 2 64 p)) 8

/-- FIPS 180-4 section 5.3.6: the SHA-512/t IV generation function. -/
def ivGen (t : Nat) : H8 64 :=
  let x := fun (a : BitVec 64) => a ^^^ 0xa5a5a5a5a5a5a5a5
  let h := iv512
  core v512 ⟨x h.a, x h.b, x h.c, x h.d, x h.e, x h.f, x h.g, x h.h⟩
    (("SHA-512/" ++ toString t).toList.map fun c => BitVec.ofNat 8 c.toNat)

/-- SHA-224 and SHA-256. -/
def sha224 : HashFn Empty Unit := plainFn 28 fun msg => (core v256 iv224 msg).bytes.take 28
def sha256 : HashFn Empty Unit := plainFn 32 fun msg => (core v256 iv256 msg).bytes
/-- SHA-384. -/
def sha384 : HashFn Empty Unit := plainFn 48 fun msg => (core v512 iv384 msg).bytes.take 48
/-- SHA-512. -/
def sha512 : HashFn Empty Unit := plainFn 64 fun msg => (core v512 iv512 msg).bytes
/-- SHA-512/t. -/
def sha512t (t : Nat) : HashFn Empty Unit := plainFn (t / 8) fun msg => (core v512 (ivGen t) msg).bytes.take (t / 8)

end Sha2
end Digestpp.Spec
