import Verif.Model.Md5
import Verif.Model.Sha1
import Verif.Model.Sha2
import Verif.Model.Sm3
import Verif.Model.Whirlpool
import Verif.Model.Groestl
import Verif.Model.Jh
import Verif.Model.Kupyna
import Verif.Model.Echo
import Verif.Model.Blake
import Verif.Model.Blake2
import Verif.Model.Streebog

/-! The `update` functions on a machine whose `size_t` has `z` bits. The rest of the model fixes `z = 64`. Only the places where a product
or a sum of type `size_t` can exceed `2^z` are written again. `uint64_t` quantities, `total` among them, keep their 64 bits. -/

namespace Digestpp.Model.Width

/-- `a - b` on a `size_t` of `z` bits, as in absorb_data.hpp 21, 23, 24. -/
def sub (z a b : Nat) : Nat := (a + 2 ^ z - b) % 2 ^ z

/-- detail/absorb_data.hpp 28-37: `absorb_bytes` from the second `if` on. `(bytes) * 8` (34) is computed as a `size_t` and only then
added to `total`. -/
def absorbTail {σ : Type} (z bs bschk : Nat) (transform : Bytes → Nat → Blk σ → M (Blk σ))
    (data : Bytes) (s : Blk σ) : M (Blk σ) :=
  if data.length ≥ bschk then
    if bs = 0 then .error .divByZero else do
      let blocks := sub z ((data.length + bs) % 2 ^ z) bschk / bs
      let bytes := blocks * bs % 2 ^ z
      let s ← transform data blocks s
      absorbRest (data.drop bytes) { s with total := s.total + BitVec.ofNat 64 (bytes * 8 % 2 ^ z) }
  else absorbRest data s

/-- detail/absorb_data.hpp 16-38: `absorb_bytes`. -/
def absorbBytes {σ : Type} (z bs bschk : Nat) (transform : Bytes → Nat → Blk σ → M (Blk σ))
    (data : Bytes) (s : Blk σ) : M (Blk σ) :=
  if s.pos ≠ 0 ∧ (s.pos + data.length) % 2 ^ z ≥ bschk then do
    let chunk ← readBytes data 0 (sub z bs s.pos)
    let m ← memcpyTo s.m s.pos chunk
    let s ← transform m 1 { s with m := m }
    absorbTail z bs bschk transform (data.drop (sub z bs s.pos))
      { s with total := s.total + BitVec.ofNat 64 (bs * 8 % 2 ^ z), pos := 0 }
  else absorbTail z bs bschk transform data s

/-- md5_provider.hpp 71-75: `update`. -/
def md5 (z : Nat) : Bytes → Blk (List (BitVec 32)) → M (Blk (List (BitVec 32))) := absorbBytes z 64 64 Md5.transform

/-- sha1_provider.hpp 62-66: `update`. -/
def sha1 (z : Nat) : Bytes → Blk (List (BitVec 32)) → M (Blk (List (BitVec 32))) := absorbBytes z 64 64 Sha1.transform

/-- sha2_provider.hpp 183-187: `update`. -/
def sha2 (z : Nat) {w : Nat} (T : Sha2.Word w) : Bytes → Blk (Sha2.St w) → M (Blk (Sha2.St w)) :=
  absorbBytes z (T.N / 4) (T.N / 4) (Sha2.transform T)

/-- sm3_provider.hpp 74-78: `update`. -/
def sm3 (z : Nat) (rot : Sm3.Rot) : Bytes → Blk (List (BitVec 32)) → M (Blk (List (BitVec 32))) :=
  absorbBytes z 64 64 (Sm3.transform rot)

/-- whirlpool_provider.hpp 56-60: `update`. -/
def whirlpool (z : Nat) : Bytes → Blk (List (BitVec 64)) → M (Blk (List (BitVec 64))) := absorbBytes z 64 64 Whirlpool.transform

/-- groestl_provider.hpp 137-141: `update`. -/
def groestl (z : Nat) (data : Bytes) (s : Blk Groestl.St) : M (Blk Groestl.St) :=
  absorbBytes z (Groestl.blockBytes s.h.hs) (Groestl.blockBytes s.h.hs) Groestl.transform data s

/-- jh_provider.hpp 136-140: `update`. -/
def jh (z : Nat) : Bytes → Blk Jh.St → M (Blk Jh.St) := absorbBytes z 64 64 Jh.transform

/-- kupyna_provider.hpp 135-139: `update`. -/
def kupyna (z : Nat) (data : Bytes) (s : Blk Kupyna.St) : M (Blk Kupyna.St) :=
  absorbBytes z (Kupyna.blockBytes s.h.hs) (Kupyna.blockBytes s.h.hs) Kupyna.transform data s

/-- echo_provider.hpp 207-211: `update`. The count of the blocks given to `transform` (210) is a `size_t` product with a value of at most
the length of the data, and `(blk * block_bytes() + delta) * 8` (257) has 64 bits because `delta` has; only `blk * block_bytes()` is of
type `size_t`, and it is at most the length of the data. -/
def echo (z : Nat) (data : Bytes) (s : Blk Echo.St) : M (Blk Echo.St) :=
  absorbBytes z (Echo.blockBytes s.h.hs) (Echo.blockBytes s.h.hs) Echo.transform data s

/-- blake_provider.hpp 87: `total + (!final ? (blk + 1) * sizeof(M) * 8 : 0)`; the product is a `size_t`. -/
def blakeTotal (z bs : Nat) (total : BitVec 64) (blk : Nat) : BitVec 64 := total + BitVec.ofNat 64 ((blk + 1) * bs * 8 % 2 ^ z)

/-- blake_provider.hpp 291-297, 78-134: `transform(data, num_blks, false, false)`. -/
def blakeTransform (z : Nat) (data : Bytes) (n : Nat) (s : Blk Blake.St) : M (Blk Blake.St) := do
  let h ← forBlocks (Blake.blockBytes s.h.hs) data n (fun blk b h => pure
    (if h.hs > 256 then
      { h with H512 := Blake.compress Blake.u64 (Blake.counters Blake.u64 false (blakeTotal z 128 s.total blk)) b h.H512 }
    else { h with H256 := Blake.compress Blake.u32 (Blake.counters Blake.u32 false (blakeTotal z 64 s.total blk)) b h.H256 })) s.h
  pure { s with h := h }

/-- blake_provider.hpp 224-228: `update`. -/
def blake (z : Nat) (data : Bytes) (s : Blk Blake.St) : M (Blk Blake.St) :=
  absorbBytes z (Blake.blockBytes s.h.hs) (Blake.blockBytes s.h.hs) (blakeTransform z) data s

/-- blake2_provider.hpp 324: `total / 8 + (padding ? 0 : (blk + 1) * N) / 4`; the product is a `size_t`. -/
def blake2Total (z w : Nat) (total : BitVec 64) (blk : Nat) : BitVec 64 :=
  total / 8 + BitVec.ofNat 64 ((blk + 1) * (8 * w) % 2 ^ z) / 4

/-- blake2_provider.hpp 317-372: `transform(data, num_blks, false)`. -/
def blake2Transform (z : Nat) {w : Nat} (T : Blake2.Word w) (data : Bytes) (n : Nat) (s : Blk (Blake2.St w)) :
    M (Blk (Blake2.St w)) := do
  let h ← forBlocks (2 * w) data n (fun blk b h => pure
    { h with H := Blake2.compress T (blake2Total z w s.total blk) (Blake2.flag0 w false) (Blake2.flag1 false h) b h.H }) s.h
  pure { s with h := h }

/-- blake2_provider.hpp 200-204: `update`. -/
def blake2 (z : Nat) {w : Nat} (T : Blake2.Word w) : Bytes → Blk (Blake2.St w) → M (Blk (Blake2.St w)) :=
  absorbBytes z (2 * w) (2 * w + 1) (blake2Transform z T)

/-- streebog_provider.hpp 167-176: `transform(mp, num_blks, false)`; `blk * 512` (171) is a `size_t`. -/
def streebogTransform (z : Nat) (add : Bytes → List (BitVec 64) → List (BitVec 64)) (data : Bytes) (n : Nat) (s : Blk Streebog.St) :
    M (Blk Streebog.St) := do
  let h ← forBlocks 64 data n (fun blk b h =>
    pure { h with h := Streebog.gN h.h b (s.total + BitVec.ofNat 64 (blk * 512 % 2 ^ z)), S := add b h.S }) s.h
  pure { s with h := h }

/-- streebog_provider.hpp 135-139: `update`. -/
def streebog (z : Nat) (add : Bytes → List (BitVec 64) → List (BitVec 64)) : Bytes → Blk Streebog.St → M (Blk Streebog.St) :=
  absorbBytes z 64 64 (streebogTransform z add)

end Digestpp.Model.Width
