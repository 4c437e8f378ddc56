import Verif.Spec.Md
import Verif.Spec.Gf

/-! WHIRLPOOL (P. Barreto, V. Rijmen, "The WHIRLPOOL hashing function", revised 2003; ISO/IEC 10118-3). Sections refer to the
former. -/

namespace Digestpp.Spec.Whirlpool

/-- 7.2: the mini-box `E`. -/
def E : List (BitVec 4) := [0x1, 0xB, 0x9, 0xC, 0xD, 0x6, 0xF, 0x3, 0xE, 0x8, 0x7, 0x4, 0xA, 0x2, 0x5, 0x0]

/-- 7.2: the mini-box `R`. -/
def R : List (BitVec 4) := [0x7, 0xC, 0xB, 0xD, 0xE, 0x4, 0x9, 0xF, 0x6, 0x3, 0x8, 0xA, 0x2, 0x5, 0x1, 0x0]

/-- The value of a mini-box. -/
def mini (t : List (BitVec 4)) (x : BitVec 4) : BitVec 4 := t.getD x.toNat 0

/-- The value of the inverse of a mini-box. -/
def miniInv (t : List (BitVec 4)) (x : BitVec 4) : BitVec 4 := BitVec.ofNat 4 (t.findIdx (· = x))

/-- 7.2: the S-box. -/
def sbox (x : Byte) : Byte :=
  let u := mini E (x.extractLsb' 4 4)
  let l := miniInv E (x.extractLsb' 0 4)
  let r := mini R (u ^^^ l)
  mini E (u ^^^ r) ++ miniInv E (l ^^^ r)

/-- 2.1: multiplication modulo `x^8 + x^4 + x^3 + x^2 + 1`. -/
def mul (a b : Byte) : Byte := gmul 0x1d a b

/-- 2.3: the matrix `cir(01, 01, 04, 01, 08, 05, 02, 09)`. -/
def C (k j : Nat) : Byte := ([0x01, 0x01, 0x04, 0x01, 0x08, 0x05, 0x02, 0x09] : List Byte).getD ((j + 8 - k) % 8) 0

/-- 3.1: `μ`, byte string to matrix, row by row. -/
def mu (b : Bytes) : Mat := fun i j => b.getD (8 * i + j) 0

/-- 3.2: `γ`. -/
def gamma (A : Mat) : Mat := fun i j => sbox (A i j)

/-- 3.3: `π`: column `j` is shifted downwards by `j`. -/
def pi (A : Mat) : Mat := fun i j => A ((i + 8 - j) % 8) j

/-- 3.4: `θ`: multiplication by `C` from the right. -/
def theta (A : Mat) : Mat := fun i j => xorSum 8 fun k => mul (A i k) (C k j)

/-- 3.6: the round constants `c^1`, …, `c^10`; `r` counts from zero. -/
def const (r : Nat) : Mat := fun i j => if i = 0 then sbox (BitVec.ofNat 8 (8 * r + j)) else 0

/-- 3.7: the round function `ρ[k]`. -/
def rho (k A : Mat) : Mat := matXor (theta (pi (gamma A))) k

/-- 3.8: the round keys. -/
def key (K : Mat) : Nat → Mat
  | 0 => K
  | r + 1 => rho (const r) (key K r)

/-- 3.9: the block cipher `W[K]`. -/
def W (K A : Mat) : Mat := (List.range 10).foldl (fun A r => rho (key K (r + 1)) A) (matXor A (key K 0))

/-- 3.11: the compression function. -/
def compress (h m : Mat) : Mat := matXor (matXor (W h m) h) m

/-- 3.10, 3.11: WHIRLPOOL; the length field has 256 bits. `wrap` is applied to the number of bits. -/
def hashWith (wrap : Nat → Nat) (msg : Bytes) : Bytes :=
  let M := mdPad 64 (beBytes 32 (wrap (8 * msg.length))) msg
  let h := foldBlocks 64 (fun _ b h => compress h (mu b)) M (M.length / 64) (fun _ _ => 0)
  (List.range 8).flatMap fun i => (List.range 8).map fun j => h i j

/-- WHIRLPOOL. -/
def whirlpool : HashFn Empty Unit := plainFn 64 (hashWith fun n => n)

/-- WHIRLPOOL with a length of only 64 bits. -/
def whirlpoolWrap : HashFn Empty Unit := plainFn 64 (hashWith wrap64)

end Digestpp.Spec.Whirlpool
