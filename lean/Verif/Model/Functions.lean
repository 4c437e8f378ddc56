import Verif.Model.Basic

/-! Model of detail/functions.hpp: byte swapping and rotations, and of the little-endian loads and stores that the
providers do through `reinterpret_cast` (README: "Big endian systems are not supported"). -/

namespace Digestpp.Model

/-- detail/functions.hpp 22-28: `byteswap(uint32_t)`. -/
def byteswap32 (v : BitVec 32) : BitVec 32 :=
  ((v &&& 0xff000000#32) >>> 24) ||| ((v &&& 0x00ff0000#32) >>> 8) |||
  ((v &&& 0x0000ff00#32) <<< 8) ||| ((v &&& 0x000000ff#32) <<< 24)

/-- detail/functions.hpp 31-41: `byteswap(uint64_t)`. -/
def byteswap64 (v : BitVec 64) : BitVec 64 :=
  ((v &&& 0xff00000000000000#64) >>> 56) ||| ((v &&& 0x00ff000000000000#64) >>> 40) |||
  ((v &&& 0x0000ff0000000000#64) >>> 24) ||| ((v &&& 0x000000ff00000000#64) >>> 8) |||
  ((v &&& 0x00000000ff000000#64) <<< 8) ||| ((v &&& 0x0000000000ff0000#64) <<< 24) |||
  ((v &&& 0x000000000000ff00#64) <<< 40) ||| ((v &&& 0x00000000000000ff#64) <<< 56)

/-- detail/functions.hpp 61-64, 73-76: `rotate_right(x, n)`. Shifting a `w`-bit word by `w` or more is undefined, so the
function takes a proof that `n` is in range; it is only usable where the count is visibly in range.
(`w - n` for `n = 0` would be a shift by `w`.) -/
def rotr {w : Nat} (x : BitVec w) (n : Nat) (_h : 0 < n ∧ n < w := by decide) : BitVec w :=
  (x >>> n) ||| (x <<< (w - n))

/-- detail/functions.hpp 67-70, 79-82: `rotate_left(x, n)`, for counts visibly in range. -/
def rotl {w : Nat} (x : BitVec w) (n : Nat) (_h : 0 < n ∧ n < w := by decide) : BitVec w :=
  (x <<< n) ||| (x >>> (w - n))

/-- detail/functions.hpp 67-70, 79-82: `rotate_left(x, n)` for an arbitrary count: undefined behaviour when either of its shifts
is by `w` or more (or by the wrapped-around `w - n`). -/
def rotlChecked {w : Nat} (x : BitVec w) (n : Nat) : M (BitVec w) :=
  if 0 < n ∧ n < w then .ok ((x <<< n) ||| (x >>> (w - n))) else .error .shift

/-- What x86 and ARM64 machine shifts make of `rotate_left`: shift counts are reduced modulo the word size. -/
def rotlMasked {w : Nat} (x : BitVec w) (n : Nat) : M (BitVec w) :=
  .ok ((x <<< (n % w)) ||| (x >>> ((2 ^ 32 + w - n) % 2 ^ 32 % w)))

/-- `reinterpret_cast<const uint32_t*>(p)[i]` on a little-endian machine, for a 4-byte range. -/
def le32 (b : Bytes) : BitVec 32 :=
  b.getD 3 0 ++ b.getD 2 0 ++ b.getD 1 0 ++ b.getD 0 0

/-- `reinterpret_cast<const uint64_t*>(p)[i]` on a little-endian machine, for an 8-byte range. -/
def le64 (b : Bytes) : BitVec 64 :=
  b.getD 7 0 ++ b.getD 6 0 ++ b.getD 5 0 ++ b.getD 4 0 ++ b.getD 3 0 ++ b.getD 2 0 ++ b.getD 1 0 ++ b.getD 0 0

/-- The `n` little-endian 32-bit words at the start of a range. -/
def loads32 (n : Nat) (b : Bytes) : List (BitVec 32) :=
  (List.range n).map fun i => le32 (b.drop (4 * i))

/-- The `n` little-endian 64-bit words at the start of a range. -/
def loads64 (n : Nat) (b : Bytes) : List (BitVec 64) :=
  (List.range n).map fun i => le64 (b.drop (8 * i))

/-- Object representation of a `uint32_t`. -/
def bytes32 (x : BitVec 32) : Bytes :=
  [x.extractLsb' 0 8, x.extractLsb' 8 8, x.extractLsb' 16 8, x.extractLsb' 24 8]

/-- Object representation of a `uint64_t`. -/
def bytes64 (x : BitVec 64) : Bytes :=
  [x.extractLsb' 0 8, x.extractLsb' 8 8, x.extractLsb' 16 8, x.extractLsb' 24 8,
   x.extractLsb' 32 8, x.extractLsb' 40 8, x.extractLsb' 48 8, x.extractLsb' 56 8]

/-- Object representation of an array of `uint32_t`. -/
def stores32 (l : List (BitVec 32)) : Bytes := l.flatMap bytes32

/-- Object representation of an array of `uint64_t`. -/
def stores64 (l : List (BitVec 64)) : Bytes := l.flatMap bytes64

end Digestpp.Model
