import Verif.Spec.Md
import Verif.Spec.Gf

/-! Grøstl ("Grøstl – a SHA-3 candidate", submission document of 2011, sections 3.1–3.6). -/

namespace Digestpp.Spec.Groestl

/-- 3.4.1: AddRoundConstant of `P`. -/
def addP (r : Nat) (A : Mat) : Mat := fun i j =>
  if i = 0 then A i j ^^^ (BitVec.ofNat 8 (16 * j) ^^^ BitVec.ofNat 8 r) else A i j

/-- 3.4.1: AddRoundConstant of `Q`. -/
def addQ (r : Nat) (A : Mat) : Mat := fun i j =>
  A i j ^^^ (if i = 7 then 0xff ^^^ BitVec.ofNat 8 (16 * j) ^^^ BitVec.ofNat 8 r else 0xff)

/-- 3.4.2: SubBytes. -/
def subBytes (A : Mat) : Mat := fun i j => aesSbox (A i j)

/-- 3.4.3: ShiftBytes on `c` columns: row `i` is rotated left by `σ i`. -/
def shiftBytes (c : Nat) (σ : Nat → Nat) (A : Mat) : Mat := fun i j => A i ((j + σ i) % c)

/-- 3.4.4: the matrix `circ(02, 02, 03, 04, 05, 03, 05, 07)`. -/
def B (i k : Nat) : Byte := ([0x02, 0x02, 0x03, 0x04, 0x05, 0x03, 0x05, 0x07] : List Byte).getD ((k + 8 - i) % 8) 0

/-- 3.4.4: MixBytes: multiplication by `B` from the left. -/
def mixBytes (A : Mat) : Mat := fun i j => xorSum 8 fun k => aesMul (A k j) (B i k)

/-- 3.4.3: the shift vector of `P`. -/
def sigmaP (c i : Nat) : Nat := if c = 16 then [0, 1, 2, 3, 4, 5, 6, 11].getD i 0 else [0, 1, 2, 3, 4, 5, 6, 7].getD i 0

/-- 3.4.3: the shift vector of `Q`. -/
def sigmaQ (c i : Nat) : Nat := if c = 16 then [1, 3, 5, 11, 0, 2, 4, 6].getD i 0 else [1, 3, 5, 7, 0, 2, 4, 6].getD i 0

/-- 3.4.5: the number of rounds. -/
def rounds (c : Nat) : Nat := if c = 16 then 14 else 10

/-- 3.4: the permutation `P` on `c` columns. -/
def P (c : Nat) (A : Mat) : Mat :=
  (List.range (rounds c)).foldl (fun A r => mixBytes (shiftBytes c (sigmaP c) (subBytes (addP r A)))) A

/-- 3.4: the permutation `Q` on `c` columns. -/
def Q (c : Nat) (A : Mat) : Mat :=
  (List.range (rounds c)).foldl (fun A r => mixBytes (shiftBytes c (sigmaQ c) (subBytes (addQ r A)))) A

/-- 3.2: the compression function. -/
def f (c : Nat) (h m : Mat) : Mat := matXor (matXor (P c (matXor h m)) (Q c m)) h

/-- 3.6: the number of blocks of the padded message. -/
def blocks (c len : Nat) : Nat := (len + 9 + (8 * c - 1)) / (8 * c)

/-- 3.6: padding; the last 64 bits are the number of blocks of the padded message. -/
def pad (c : Nat) (msg : Bytes) : Bytes :=
  mdPad (8 * c) (beBytes 8 (blocks c msg.length)) msg

/-- Padding by an implementation that finds the number of blocks from a 64-bit count of bits. -/
def padWrap (c : Nat) (msg : Bytes) : Bytes :=
  mdPad (8 * c) (beBytes 8 (wrap64 (64 * c * blocks c msg.length) / (64 * c))) msg

/-- 3.1, 3.3, 3.5: Grøstl with `c` columns and `n` output bytes, with the given padding. -/
def hashWith (pad : Nat → Bytes → Bytes) (c n : Nat) (msg : Bytes) : Bytes :=
  let M := pad c msg
  let h := foldBlocks (8 * c) (fun _ b h => f c h (matOf b)) M (M.length / (8 * c)) (matOf (beBytes (8 * c) (8 * n)))
  (matBytes c (matXor (P c h) h)).drop (8 * c - n)

/-- Grøstl with `c` columns and `n` output bytes. -/
def hash : Nat → Nat → Bytes → Bytes := hashWith pad

/-- Grøstl-`8n`, for `n` from 1 to 64. -/
def groestl (n : Nat) : HashFn Empty Unit := plainFn n (hash (if n ≤ 32 then 8 else 16) n)

/-- The same with a 64-bit count of bits. -/
def groestlWrap (n : Nat) : HashFn Empty Unit := plainFn n (hashWith padWrap (if n ≤ 32 then 8 else 16) n)

end Digestpp.Spec.Groestl
