import Verif.Spec.Keccak

/-! cSHAKE and KMAC, from NIST SP 800-185. -/

namespace Digestpp.Spec
namespace Keccak

/-- Section 2.3.1: the smallest positive number of bytes that holds `x`. -/
def byteCount (x : Nat) : Nat := Nat.log2 x / 8 + 1

/-- Section 2.3.1: left_encode. -/
def leftEncode (x : Nat) : Bytes := BitVec.ofNat 8 (byteCount x) :: beBytes (byteCount x) x

/-- Section 2.3.1: right_encode. -/
def rightEncode (x : Nat) : Bytes := beBytes (byteCount x) x ++ [BitVec.ofNat 8 (byteCount x)]

/-- Section 2.3.2: encode_string. -/
def encodeString (s : Bytes) : Bytes := leftEncode (8 * s.length) ++ s

/-- Section 2.3.3: bytepad. -/
def bytepad (x : Bytes) (w : Nat) : Bytes :=
  let z := leftEncode w ++ x
  z ++ List.replicate ((w - z.length % w) % w) 0

/-- The parameters of cSHAKE: function name and customization. -/
structure CShakeParams where
  N : Bytes
  S : Bytes

/-- Section 3.3: cSHAKE with `r = 200 - c/8` bytes. -/
def cshakeStream (r : Nat) (p : CShakeParams) (msg : Bytes) : Nat → Byte :=
  if p.N = [] ∧ p.S = [] then keccak r [true, true, true, true] msg
  else keccak r [false, false] (bytepad (encodeString p.N ++ encodeString p.S) r ++ msg)

/-! Not in the standard, but in the code (shake_provider.hpp 107): -/

/-- As `bytepad`, but a whole block of zeros is appended if the length is already a multiple of `w`. -/
def bytepadFull (x : Bytes) (w : Nat) : Bytes :=
  let z := leftEncode w ++ x
  z ++ List.replicate (w - z.length % w) 0

/-- As `cshakeStream`, with `bytepadFull`. -/
def cshakeFullStream (r : Nat) (p : CShakeParams) (msg : Bytes) : Nat → Byte :=
  if p.N = [] ∧ p.S = [] then keccak r [true, true, true, true] msg
  else keccak r [false, false] (bytepadFull (encodeString p.N ++ encodeString p.S) r ++ msg)

/-- The strings for which the two agree by definition: some padding is needed. -/
def cshakeRegular (r : Nat) (p : CShakeParams) : Prop :=
  p.N = [] ∧ p.S = [] ∨ (leftEncode r ++ (encodeString p.N ++ encodeString p.S)).length % r ≠ 0

end Keccak

open Keccak in
/-- Section 3.3: cSHAKE128 and cSHAKE256 (`b` = 128 or 256). -/
def cshake (b : Nat) : XofFn CShakeParam CShakeParams where
  dflt := ⟨[], []⟩
  set := fun p θ =>
    match p with
    | .functionName v => some { θ with N := v }
    | .customization v => some { θ with S := v }
  stream := cshakeStream (200 - 2 * b / 8)

open Keccak in
/-- cSHAKE as the code has it. -/
def cshakeFull (b : Nat) : XofFn CShakeParam CShakeParams where
  dflt := ⟨[], []⟩
  set := (cshake b).set
  stream := cshakeFullStream (200 - 2 * b / 8)

/-- The parameters of KMAC: key and customization. -/
structure KmacParams where
  K : Bytes
  S : Bytes

/-- The effect of the setters. -/
def kmacSet (p : KmacParam) (θ : KmacParams) : Option KmacParams :=
  match p with
  | .key v => some { θ with K := v }
  | .customization v => some { θ with S := v }

/-- Section 4.3: KMAC, for a given cSHAKE; `L` is the output length in bits, 0 for KMACXOF (section 4.3.1). -/
def kmacStream (cs : Keccak.CShakeParams → Bytes → Nat → Byte) (r L : Nat) (p : KmacParams) (msg : Bytes) : Nat → Byte :=
  cs ⟨ascii "KMAC", p.S⟩ (Keccak.bytepad (Keccak.encodeString p.K) r ++ msg ++ Keccak.rightEncode L)

/-- Section 4.3: KMAC128 and KMAC256 with `L` bits of output. -/
def kmac (b L : Nat) : HashFn KmacParam KmacParams where
  size := L / 8
  dflt := ⟨[], []⟩
  set := kmacSet
  digest := fun p msg => slice (kmacStream (Keccak.cshakeStream (200 - 2 * b / 8)) (200 - 2 * b / 8) L p msg) 0 (L / 8)

/-- Section 4.3.1: KMACXOF128 and KMACXOF256. -/
def kmacXof (b : Nat) : XofFn KmacParam KmacParams where
  dflt := ⟨[], []⟩
  set := kmacSet
  stream := kmacStream (Keccak.cshakeStream (200 - 2 * b / 8)) (200 - 2 * b / 8) 0

/-- The same with cSHAKE as the code has it. -/
def kmacFull (b L : Nat) : HashFn KmacParam KmacParams where
  size := L / 8
  dflt := ⟨[], []⟩
  set := kmacSet
  digest := fun p msg => slice (kmacStream (Keccak.cshakeFullStream (200 - 2 * b / 8)) (200 - 2 * b / 8) L p msg) 0 (L / 8)

/-- The same with cSHAKE as the code has it. -/
def kmacXofFull (b : Nat) : XofFn KmacParam KmacParams where
  dflt := ⟨[], []⟩
  set := kmacSet
  stream := kmacStream (Keccak.cshakeFullStream (200 - 2 * b / 8)) (200 - 2 * b / 8) 0

end Digestpp.Spec
