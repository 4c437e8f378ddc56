import Verif.Spec.Gf
import Verif.Spec.Md

/-! GOST R 34.11-2012 (Streebog), RFC 6986. A 512-bit vector is a matrix: byte number `8 j + i`, counted from the least significant
one, is in row `i` and column `j`. -/

namespace Digestpp.Spec.Streebog

/-- RFC 6986, 6.2: the substitution `π`. -/
def pi : List Byte :=
  [0xfc, 0xee, 0xdd, 0x11, 0xcf, 0x6e, 0x31, 0x16, 0xfb, 0xc4, 0xfa, 0xda, 0x23, 0xc5, 0x04, 0x4d,
   0xe9, 0x77, 0xf0, 0xdb, 0x93, 0x2e, 0x99, 0xba, 0x17, 0x36, 0xf1, 0xbb, 0x14, 0xcd, 0x5f, 0xc1,
   0xf9, 0x18, 0x65, 0x5a, 0xe2, 0x5c, 0xef, 0x21, 0x81, 0x1c, 0x3c, 0x42, 0x8b, 0x01, 0x8e, 0x4f,
   0x05, 0x84, 0x02, 0xae, 0xe3, 0x6a, 0x8f, 0xa0, 0x06, 0x0b, 0xed, 0x98, 0x7f, 0xd4, 0xd3, 0x1f,
   0xeb, 0x34, 0x2c, 0x51, 0xea, 0xc8, 0x48, 0xab, 0xf2, 0x2a, 0x68, 0xa2, 0xfd, 0x3a, 0xce, 0xcc,
   0xb5, 0x70, 0x0e, 0x56, 0x08, 0x0c, 0x76, 0x12, 0xbf, 0x72, 0x13, 0x47, 0x9c, 0xb7, 0x5d, 0x87,
   0x15, 0xa1, 0x96, 0x29, 0x10, 0x7b, 0x9a, 0xc7, 0xf3, 0x91, 0x78, 0x6f, 0x9d, 0x9e, 0xb2, 0xb1,
   0x32, 0x75, 0x19, 0x3d, 0xff, 0x35, 0x8a, 0x7e, 0x6d, 0x54, 0xc6, 0x80, 0xc3, 0xbd, 0x0d, 0x57,
   0xdf, 0xf5, 0x24, 0xa9, 0x3e, 0xa8, 0x43, 0xc9, 0xd7, 0x79, 0xd6, 0xf6, 0x7c, 0x22, 0xb9, 0x03,
   0xe0, 0x0f, 0xec, 0xde, 0x7a, 0x94, 0xb0, 0xbc, 0xdc, 0xe8, 0x28, 0x50, 0x4e, 0x33, 0x0a, 0x4a,
   0xa7, 0x97, 0x60, 0x73, 0x1e, 0x00, 0x62, 0x44, 0x1a, 0xb8, 0x38, 0x82, 0x64, 0x9f, 0x26, 0x41,
   0xad, 0x45, 0x46, 0x92, 0x27, 0x5e, 0x55, 0x2f, 0x8c, 0xa3, 0xa5, 0x7d, 0x69, 0xd5, 0x95, 0x3b,
   0x07, 0x58, 0xb3, 0x40, 0x86, 0xac, 0x1d, 0xf7, 0x30, 0x37, 0x6b, 0xe4, 0x88, 0xd9, 0xe7, 0x89,
   0xe1, 0x1b, 0x83, 0x49, 0x4c, 0x3f, 0xf8, 0xfe, 0x8d, 0x53, 0xaa, 0x90, 0xca, 0xd8, 0x85, 0x61,
   0x20, 0x71, 0x67, 0xa4, 0x2d, 0x2b, 0x09, 0x5b, 0xcb, 0x9b, 0x25, 0xd0, 0xbe, 0xe5, 0x6c, 0x52,
   0x59, 0xa6, 0x74, 0xd2, 0xe6, 0xf4, 0xb4, 0xc0, 0xd1, 0x66, 0xaf, 0xc2, 0x39, 0x4b, 0x63, 0xb6]

/-- RFC 6986, 6.4: the rows of the matrix `A`. -/
def rows : List (BitVec 64) :=
  [0x8e20faa72ba0b470, 0x47107ddd9b505a38, 0xad08b0e0c3282d1c, 0xd8045870ef14980e,
   0x6c022c38f90a4c07, 0x3601161cf205268d, 0x1b8e0b0e798c13c8, 0x83478b07b2468764,
   0xa011d380818e8f40, 0x5086e740ce47c920, 0x2843fd2067adea10, 0x14aff010bdd87508,
   0x0ad97808d06cb404, 0x05e23c0468365a02, 0x8c711e02341b2d01, 0x46b60f011a83988e,
   0x90dab52a387ae76f, 0x486dd4151c3dfdb9, 0x24b86a840e90f0d2, 0x125c354207487869,
   0x092e94218d243cba, 0x8a174a9ec8121e5d, 0x4585254f64090fa0, 0xaccc9ca9328a8950,
   0x9d4df05d5f661451, 0xc0a878a0a1330aa6, 0x60543c50de970553, 0x302a1e286fc58ca7,
   0x18150f14b9ec46dd, 0x0c84890ad27623e0, 0x0642ca05693b9f70, 0x0321658cba93c138,
   0x86275df09ce8aaa8, 0x439da0784e745554, 0xafc0503c273aa42a, 0xd960281e9d1d5215,
   0xe230140fc0802984, 0x71180a8960409a42, 0xb60c05ca30204d21, 0x5b068c651810a89e,
   0x456c34887a3805b9, 0xac361a443d1c8cd2, 0x561b0d22900e4669, 0x2b838811480723ba,
   0x9bcf4486248d9f5d, 0xc3e9224312c8c1a0, 0xeffa11af0964ee50, 0xf97d86d98a327728,
   0xe4fa2054a80b329c, 0x727d102a548b194e, 0x39b008152acb8227, 0x9258048415eb419d,
   0x492c024284fbaec0, 0xaa16012142f35760, 0x550b8e9e21f7a530, 0xa48b474f9ef5dc18,
   0x70a6a56e2440598e, 0x3853dc371220a247, 0x1ca76e95091051ad, 0x0edd37c48a08a6d8,
   0x07e095624504536c, 0x8d70c431ac02a736, 0xc83862965601dd1b, 0x641c314b2b8ee083]

/-- RFC 6986, 6.5: the iteration constants `C_1`, …, `C_12`. -/
def constants : List Nat :=
  [0xb1085bda1ecadae9ebcb2f81c0657c1f2f6a76432e45d016714eb88d7585c4fc4b7ce09192676901a2422a08a460d31505767436cc744d23dd806559f2a64507,
   0x6fa3b58aa99d2f1a4fe39d460f70b5d7f3feea720a232b9861d55e0f16b501319ab5176b12d699585cb561c2db0aa7ca55dda21bd7cbcd56e679047021b19bb7,
   0xf574dcac2bce2fc70a39fc286a3d843506f15e5f529c1f8bf2ea7514b1297b7bd3e20fe490359eb1c1c93a376062db09c2b6f443867adb31991e96f50aba0ab2,
   0xef1fdfb3e81566d2f948e1a05d71e4dd488e857e335c3c7d9d721cad685e353fa9d72c82ed03d675d8b71333935203be3453eaa193e837f1220cbebc84e3d12e,
   0x4bea6bacad4747999a3f410c6ca923637f151c1f1686104a359e35d7800fffbdbfcd1747253af5a3dfff00b723271a167a56a27ea9ea63f5601758fd7c6cfe57,
   0xae4faeae1d3ad3d96fa4c33b7a3039c02d66c4f95142a46c187f9ab49af08ec6cffaa6b71c9ab7b40af21f66c2bec6b6bf71c57236904f35fa68407a46647d6e,
   0xf4c70e16eeaac5ec51ac86febf240954399ec6c7e6bf87c9d3473e33197a93c90992abc52d822c3706476983284a05043517454ca23c4af38886564d3a14d493,
   0x9b1f5b424d93c9a703e7aa020c6e41414eb7f8719c36de1e89b4443b4ddbc49af4892bcb929b069069d18d2bd1a5c42f36acc2355951a8d9a47f0dd4bf02e71e,
   0x378f5a541631229b944c9ad8ec165fde3a7d3a1b258942243cd955b7e00d0984800a440bdbb2ceb17b2b8a9aa6079c540e38dc92cb1f2a607261445183235adb,
   0xabbedea680056f52382ae548b2e4f3f38941e71cff8a78db1fffe18a1b3361039fe76702af69334b7a1e6c303b7652f43698fad1153bb6c374b4c7fb98459ced,
   0x7bcd9ed0efc889fb3002c6cd635afe94d8fa6bbbebab076120018021148466798a1d71efea48b9caefbacd1d7d476e98dea2594ac06fd85d6bcaa4cd81f32d1b,
   0x378ee767f11631bad21380b00449b17acda43c32bcdf1d77f82012d430219f9b5d80ef9d1891cc86e71da4aa88e12852faf417d5d9b21b9948bc924af11bd720]

/-- RFC 6986, 6.4: the linear transformation `l` of 64-bit vectors: row `j` of the matrix is added if bit `63 - j` is set. -/
def l (w : BitVec 64) : BitVec 64 :=
  rows.zipIdx.foldl (fun s r => s ^^^ (if w.getLsbD (63 - r.2) then r.1 else 0)) 0

/-- A number as a 512-bit vector. -/
def vec (x : Nat) : Mat := matOf (leBytes 64 x)

/-- Substitution. -/
def S (a : Mat) : Mat := fun i j => pi.getD (a i j).toNat 0

/-- RFC 6986, 6.3: the permutation `τ` of the bytes: transposition. -/
def P (a : Mat) : Mat := fun i j => a j i

/-- The linear transformation of each 64-bit part. -/
def L (a : Mat) : Mat := fun i j =>
  (leBytes 8 (l (BitVec.ofNat 64 (leNat ((List.range 8).map fun i => a i j)))).toNat).getD i 0

/-- The composition. -/
def LPS (a : Mat) : Mat := L (P (S a))

/-- RFC 6986, 8: the round keys `K_1`, … -/
def key (K : Mat) : Nat → Mat
  | 0 => K
  | i + 1 => LPS (matXor (key K i) (vec (constants.getD i 0)))

/-- RFC 6986, 8: the first `n` rounds of the transformation `E` and the addition of the next key. -/
def E (K m : Mat) : Nat → Mat
  | 0 => matXor K m
  | n + 1 => matXor (key K (n + 1)) (LPS (E K m n))

/-- RFC 6986, 8: the compression function `g_N`. -/
def g (N : Nat) (h m : Mat) : Mat := matXor (matXor (E (LPS (matXor h (vec N))) m 12) h) m

/-- RFC 6986, 9, stage 3: the message is completed by a byte 1 (its first bit is the one bit) and zeros. -/
def pad (msg : Bytes) : Bytes := msg ++ [0x01] ++ List.replicate (toMultiple 64 (msg.length + 1)) 0

/-- The chaining value after all blocks, RFC 6986, 9; block number `k` is processed with `N = 512 k`. `wrap` is applied to it. -/
def chain (wrap : Nat → Nat) (iv : Mat) (msg : Bytes) : Mat :=
  foldBlocks 64 (fun k b h => g (wrap (512 * k)) h (matOf b)) (pad msg) ((pad msg).length / 64) iv

/-- The checksum after the first `k` blocks, for a given way `add` to add. -/
def sumWith (add : Nat → Nat → Nat) (msg : Bytes) (k : Nat) : Nat :=
  foldBlocks 64 (fun _ b x => add x (leNat b)) (pad msg) k 0

/-- Addition modulo `2^512`. -/
def add512 (a b : Nat) : Nat := (a + b) % 2 ^ 512

/-- RFC 6986, 9 with a given addition, `wrap` being applied to bit counts: `n` is the size of the digest in bytes. -/
def hashGen (wrap : Nat → Nat) (add : Nat → Nat → Nat) (n : Nat) (msg : Bytes) : Bytes :=
  let iv : Mat := fun _ _ => if n = 64 then 0 else 1
  let h := g 0 (chain wrap iv msg) (vec (wrap (8 * msg.length)))
  let h := g 0 h (vec (sumWith add msg ((pad msg).length / 64)))
  (matBytes 8 h).drop (64 - n)

/-- RFC 6986, 9 with a given addition: `n` is the size of the digest in bytes. -/
def hashWith (add : Nat → Nat → Nat) (n : Nat) (msg : Bytes) : Bytes := hashGen (fun l => l) add n msg

/-- Streebog with digests of `n` bytes, 32 or 64. -/
def streebog (n : Nat) : HashFn Empty Unit := plainFn n (hashWith add512 n)

/-- Word number `i` of a number, 64 bits each. -/
def limb (i x : Nat) : Nat := x / 2 ^ (64 * i) % 2 ^ 64

/-- The number with given words. -/
def ofLimbs (f : Nat → Nat) : Nat → Nat
  | 0 => 0
  | n + 1 => f 0 + 2 ^ 64 * ofLimbs (fun i => f (i + 1)) n

/-- An addition in which the carry into a word only takes account of the two words before, not of the carry into those. -/
def addNoRipple (a b : Nat) : Nat :=
  ofLimbs (fun i => (limb i a + limb i b + (if 0 < i ∧ 2 ^ 64 ≤ limb (i - 1) a + limb (i - 1) b then 1 else 0)) % 2 ^ 64) 8

/-- A carry enters a word (other than the last) in which the sum is all ones, so that it should be passed on. -/
def Ripple (a b : Nat) : Prop :=
  ∃ i, i < 7 ∧ limb i a + limb i b = 2 ^ 64 - 1 ∧ 2 ^ (64 * i) ≤ a % 2 ^ (64 * i) + b % 2 ^ (64 * i)

/-- No carry is passed on in any of the additions made for `msg`. -/
def NoRipple (msg : Bytes) : Prop :=
  ∀ k, k < (pad msg).length / 64 → ¬ Ripple (sumWith add512 msg k) (leNat (blockAt 64 k (pad msg)))

end Digestpp.Spec.Streebog
