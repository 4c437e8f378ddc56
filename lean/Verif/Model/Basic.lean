import Verif.Vocab

/-!
# Basic vocabulary of the model

Bytes, machine words, memory ranges and undefined behaviour.
-/

namespace Digestpp

/-- Kinds of undefined behaviour the model distinguishes. Not in the code; where the code can run into them: absorb_data.hpp 21, 37
(`memcpy`), functions.hpp 61-82 (shifts), hasher.hpp 272-273 (`&hash[0]`). -/
inductive UB where
  /-- read or write outside an array (includes `memcpy`/`memset` with a length that underflowed) -/
  | outOfBounds
  /-- shift of a `w`-bit word by `w` or more positions -/
  | shift
  /-- integer division or remainder by zero -/
  | divByZero
  /-- `&v[0]` of an empty `std::vector` -/
  | emptyVector
  deriving DecidableEq, Repr

/-- Computations that may run into undefined behaviour. Not in the code: the result type of the functions of the model. -/
abbrev M := Except UB

namespace Model

/-- `size_t` arithmetic (e.g. absorb_data.hpp 16-39): 64-bit target, values are reduced modulo `2^64`. -/
def szMod : Nat := 2 ^ 64

/-- `a - b` on `size_t` (wraps around), as in absorb_data.hpp 21 `bs - pos` and the `memset` lengths of the `final` functions
(e.g. md5_provider.hpp 77-92). -/
def szSub (a b : Nat) : Nat := (a + szMod - b) % szMod

/-- `memcpy(dst + off, src, src.length)` (absorb_data.hpp 21, 37): the destination object is `dst`. -/
def memcpyTo (dst : Bytes) (off : Nat) (src : Bytes) : M Bytes :=
  if off + src.length ≤ dst.length then
    .ok (dst.take off ++ src ++ dst.drop (off + src.length))
  else .error .outOfBounds

/-- The `n` bytes at `src + off`, as read by `memcpy(_, src + off, n)` (absorb_data.hpp 21, 37) or by a transformation reading a block
(absorb_data.hpp 22, 32). -/
def readBytes (src : Bytes) (off n : Nat) : M Bytes :=
  if off + n ≤ src.length then .ok ((src.drop off).take n) else .error .outOfBounds

/-- `memset(dst + off, v, n)`, as in the `final` functions, e.g. md5_provider.hpp 77-92. -/
def memset (dst : Bytes) (off : Nat) (v : Byte) (n : Nat) : M Bytes :=
  if off + n ≤ dst.length then
    .ok (dst.take off ++ List.replicate n v ++ dst.drop (off + n))
  else .error .outOfBounds

/-- `dst[i] = v`, as in the `final` functions, e.g. `m[pos++] = 0x80` in md5_provider.hpp 77-92. -/
def setByte (dst : Bytes) (i : Nat) (v : Byte) : M Bytes :=
  if i < dst.length then .ok (dst.set i v) else .error .outOfBounds

/-- detail/functions.hpp 85-104: `zero_memory` on a byte array (`n` is the size of the array itself). -/
def zeroBytes (b : Bytes) : Bytes := List.replicate b.length 0

/-- `for (blk = 0; blk < n; blk++) step(blk, data + blk * bs)`: the loop all `transform(data, num_blks)` functions
share. Each iteration reads the `bs` bytes of its block. -/
def forBlocks {σ : Type} (bs : Nat) (data : Bytes) (n : Nat) (step : Nat → Bytes → σ → M σ) (s : σ) : M σ :=
  (List.range n).foldlM (fun s blk => do
    let b ← readBytes data (blk * bs) bs
    step blk b s) s

end Model
end Digestpp
