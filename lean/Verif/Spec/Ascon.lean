import Verif.Spec.Bits
import Verif.Spec.Md

/-! Ascon-Hash256, Ascon-XOF128 and Ascon-CXOF128 (NIST SP 800-232). -/

namespace Digestpp.Spec.Ascon

/-- The state: words `S_0`, …, `S_4`. -/
structure State where
  s0 : BitVec 64
  s1 : BitVec 64
  s2 : BitVec 64
  s3 : BitVec 64
  s4 : BitVec 64

/-- The constants `const_0`, …, `const_15` (Table 5). -/
def const (i : Nat) : BitVec 64 :=
  [0x3c, 0x2d, 0x1e, 0x0f, 0xf0, 0xe1, 0xd2, 0xc3, 0xb4, 0xa5, 0x96, 0x87, 0x78, 0x69, 0x5a, 0x4b].getD i 0

/-- The 5-bit S-box (Table 6). -/
def sbox (x : Nat) : Nat :=
  [0x4, 0xb, 0x1f, 0x14, 0x1a, 0x15, 0x9, 0x2, 0x1b, 0x5, 0x8, 0x12, 0x1d, 0x3, 0x6, 0x1c,
   0x1e, 0x13, 0x7, 0xe, 0x0, 0xd, 0x11, 0x18, 0x10, 0xc, 0x1, 0x19, 0x16, 0xa, 0xf, 0x17].getD x 0

/-- The number with the given bits, the first of weight 16. -/
def num (b0 b1 b2 b3 b4 : Bool) : Nat := 16 * b0.toNat + 8 * b1.toNat + 4 * b2.toNat + 2 * b3.toNat + b4.toNat

/-- The constant-addition layer `p_C` of round `i` of 12 rounds. -/
def addConst (i : Nat) (s : State) : State := { s with s2 := s.s2 ^^^ const (16 - 12 + i) }

/-- The substitution layer `p_S`: the S-box applied to the 64 columns. -/
def subst (s : State) : State :=
  let col (j : Nat) : Nat := sbox (num (s.s0.getLsbD j) (s.s1.getLsbD j) (s.s2.getLsbD j) (s.s3.getLsbD j) (s.s4.getLsbD j))
  ⟨ofBits 64 fun j => (col j).testBit 4, ofBits 64 fun j => (col j).testBit 3, ofBits 64 fun j => (col j).testBit 2,
    ofBits 64 fun j => (col j).testBit 1, ofBits 64 fun j => (col j).testBit 0⟩

/-- The linear diffusion layer `p_L`. -/
def linear (s : State) : State :=
  ⟨s.s0 ^^^ s.s0.rotateRight 19 ^^^ s.s0.rotateRight 28, s.s1 ^^^ s.s1.rotateRight 61 ^^^ s.s1.rotateRight 39,
    s.s2 ^^^ s.s2.rotateRight 1 ^^^ s.s2.rotateRight 6, s.s3 ^^^ s.s3.rotateRight 10 ^^^ s.s3.rotateRight 17,
    s.s4 ^^^ s.s4.rotateRight 7 ^^^ s.s4.rotateRight 41⟩

/-- `Ascon-p[12]`. -/
def p12 (s : State) : State := (List.range 12).foldl (fun s i => linear (subst (addConst i s))) s

/-- The initial state for the initial value `v`. -/
def start (v : BitVec 64) : State := p12 ⟨v, 0, 0, 0, 0⟩

/-- Padding: a one bit (the least significant one of its byte) and the least number of zeros to a multiple of 8 bytes. -/
def pad (m : Bytes) : Bytes := m ++ [0x01] ++ List.replicate (toMultiple 8 (m.length + 1)) 0

/-- Absorbing a block. -/
def absorbBlock (b : Bytes) (s : State) : State := p12 { s with s0 := s.s0 ^^^ (leWords 64 b).getD 0 0 }

/-- Absorbing a string of blocks. -/
def absorb (s : State) (x : Bytes) : State := foldBlocks 8 (fun _ => absorbBlock) x (x.length / 8) s

/-- `f` repeated. -/
def iter {α : Type} (f : α → α) : Nat → α → α
  | 0, a => a
  | n + 1, a => f (iter f n a)

/-- Byte `n` of the output. -/
def squeeze (s : State) (n : Nat) : Byte := (leBytes 8 (iter p12 (n / 8) s).s0.toNat).getD (n % 8) 0

/-- Ascon-Hash256. -/
def hash256 : HashFn Empty Unit := plainFn 32 fun msg => slice (squeeze (absorb (start 0x0000080100cc0002) (pad msg))) 0 32

/-- Ascon-XOF128. -/
def xof128 : XofFn Empty Unit where
  dflt := ()
  set := nofun
  stream := fun _ msg => squeeze (absorb (start 0x0000080000cc0003) (pad msg))

/-- Ascon-CXOF128; the parameter is the customization string, whose length in bits is absorbed before it. The standard limits it to 256
bytes. -/
def cxof128 : XofFn CustomizationParam Bytes where
  dflt := []
  set := fun p _ => match p with | .customization z => some z
  stream := fun z msg => squeeze (absorb (start 0x0000080000cc0004) (leBytes 8 (8 * z.length) ++ pad z ++ pad msg))

end Digestpp.Spec.Ascon
