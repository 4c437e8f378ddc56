import Verif.Spec.Md

/-! MD5, from RFC 1321. -/

namespace Digestpp.Spec.Md5

abbrev W := BitVec 32

/-- RFC 1321 section 3.4: the auxiliary functions. -/
def F (x y z : W) : W := (x &&& y) ||| (~~~x &&& z)
def G (x y z : W) : W := (x &&& z) ||| (y &&& ~~~z)
def H (x y z : W) : W := x ^^^ y ^^^ z
def I (x y z : W) : W := y ^^^ (x ||| ~~~z)

/-- RFC 1321 section 3.4: the table `T[1..64]` (integer part of 4294967296 times abs(sin(i))). -/
def T : List Nat := [
  0xd76aa478, 0xe8c7b756, 0x242070db, 0xc1bdceee, 0xf57c0faf, 0x4787c62a, 0xa8304613, 0xfd469501,
  0x698098d8, 0x8b44f7af, 0xffff5bb1, 0x895cd7be, 0x6b901122, 0xfd987193, 0xa679438e, 0x49b40821,
  0xf61e2562, 0xc040b340, 0x265e5a51, 0xe9b6c7aa, 0xd62f105d, 0x02441453, 0xd8a1e681, 0xe7d3fbc8,
  0x21e1cde6, 0xc33707d6, 0xf4d50d87, 0x455a14ed, 0xa9e3e905, 0xfcefa3f8, 0x676f02d9, 0x8d2a4c8a,
  0xfffa3942, 0x8771f681, 0x6d9d6122, 0xfde5380c, 0xa4beea44, 0x4bdecfa9, 0xf6bb4b60, 0xbebfbc70,
  0x289b7ec6, 0xeaa127fa, 0xd4ef3085, 0x04881d05, 0xd9d4d039, 0xe6db99e5, 0x1fa27cf8, 0xc4ac5665,
  0xf4292244, 0x432aff97, 0xab9423a7, 0xfc93a039, 0x655b59c3, 0x8f0ccc92, 0xffeff47d, 0x85845dd1,
  0x6fa87e4f, 0xfe2ce6e0, 0xa3014314, 0x4e0811a1, 0xf7537e82, 0xbd3af235, 0x2ad7d2bb, 0xeb86d391]

/-- The function used in step `i` (0-based). -/
def f (i : Nat) : W → W → W → W := if i < 16 then F else if i < 32 then G else if i < 48 then H else I

/-- The message word used in step `i`. -/
def k (i : Nat) : Nat :=
  if i < 16 then i else if i < 32 then (1 + 5 * (i - 16)) % 16 else if i < 48 then (5 + 3 * (i - 32)) % 16
  else 7 * (i - 48) % 16

/-- The shift amount used in step `i`. -/
def s (i : Nat) : Nat :=
  ([[7, 12, 17, 22], [5, 9, 14, 20], [4, 11, 16, 23], [6, 10, 15, 21]].getD (i / 16) []).getD (i % 4) 0

/-- `a = b + ((a + f(b,c,d) + X[k] + T[i]) <<< s)`, then the roles of the registers move round by one. -/
def step (X : List W) (r : W × W × W × W) (i : Nat) : W × W × W × W :=
  let (a, b, c, d) := r
  (d, b + (a + f i b c d + X.getD (k i) 0 + BitVec.ofNat 32 (T.getD i 0)).rotateLeft (s i), b, c)

/-- Process one 16-word block. -/
def compress (h : W × W × W × W) (block : Bytes) : W × W × W × W :=
  let r := (List.range 64).foldl (step (leWords 32 block)) h
  (h.1 + r.1, h.2.1 + r.2.1, h.2.2.1 + r.2.2.1, h.2.2.2 + r.2.2.2)

/-- MD5 of a message of any length ("if b is greater than 2^64, only the low-order 64 bits of b are used"). -/
def hash (msg : Bytes) : Bytes :=
  let h := (chunks 64 (mdPad 64 (leBytes 8 (8 * msg.length)) msg)).foldl compress
    (0x67452301, 0xefcdab89, 0x98badcfe, 0x10325476)
  ofLeWords [h.1, h.2.1, h.2.2.1, h.2.2.2]

/-- MD5. -/
def md5 : HashFn Empty Unit := plainFn 16 hash

end Digestpp.Spec.Md5
