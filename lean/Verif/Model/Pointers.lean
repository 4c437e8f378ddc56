import Verif.Model.Absorb
import Verif.Model.Blake
import Verif.Spec.Pointers

/-! `absorb_bytes` once more, with the addresses of the ranges: what C++ demands of the pointers themselves. The providers cast the input to pointers to words
(`reinterpret_cast<const uint64_t*>(data)[i]`), and `memcpy` is called with whatever pointer the caller gave. -/

namespace Digestpp.Model

/-- Not in the code: a pointer, by its address; `none` is the null pointer. -/
abbrev Ptr := Option Nat

/-- Not in the code: undefined behaviour that comes from the pointer values. -/
inductive PtrUB where
  /-- undefined behaviour that does not depend on addresses -/
  | other (u : UB)
  /-- access to a word at an address that is not a multiple of its alignment -/
  | misaligned
  /-- `memcpy` from a null pointer, of zero bytes too (C17 7.24.1, as C++ before C++26 has it) -/
  | nullCopy
  deriving DecidableEq, Repr

/-- Not in the code: computations that see pointer values. -/
abbrev MP := Except PtrUB

/-- Not in the code: a computation that does not see pointer values. -/
def MP.lift {α : Type} (x : M α) : MP α := x.mapError .other

/-- Pointer arithmetic of absorb_data.hpp 24, 34: `data += k` (adding zero to a null pointer is allowed). -/
def Ptr.add (p : Ptr) (k : Nat) : Ptr := p.map (· + k)

/-- What `memcpy` demands of its source: absorb_data.hpp 21, 37. -/
def copyFrom (p : Ptr) : MP Unit :=
  match p with
  | none => .error .nullCopy
  | some _ => .ok ()

/-- Reading words of `w` bytes at the front of a range. sha1_provider.hpp 102, sha2_provider.hpp 223, sm3_provider.hpp 115, md5_provider.hpp 105,
blake_provider.hpp 85, blake2_provider.hpp 323, skein_provider.hpp 326, sha3_provider.hpp 112, groestl_provider.hpp 193-195, kupyna_provider.hpp 187-189, whirlpool_provider.hpp 97,
streebog_provider.hpp 66, 84, 89, jh_provider.hpp 174, esch_provider.hpp 183, ascon_provider.hpp 145: the words of the blocks lie at multiples of `w` from the front. -/
def wordsFrom (w : Nat) (p : Ptr) : MP Unit :=
  match p with
  | none => .error .nullCopy
  | some a => if a % w = 0 then .ok () else .error .misaligned

/-- absorb_data.hpp 36-37, with the pointer. -/
def absorbRestAt {σ : Type} (p : Ptr) (data : Bytes) (s : Blk σ) : MP (Blk σ) := do
  copyFrom p
  MP.lift (absorbRest data s)

/-- absorb_data.hpp 28-37, with the pointer; `w`: size and alignment of the words that `transform` reads. -/
def absorbTailAt {σ : Type} (w bs bschk : Nat) (transform : Bytes → Nat → Blk σ → M (Blk σ)) (p : Ptr) (data : Bytes) (s : Blk σ) : MP (Blk σ) :=
  if data.length ≥ bschk then
    if bs = 0 then .error (.other .divByZero) else do
      let blocks := (szSub (data.length + bs) bschk) / bs
      let bytes := blocks * bs
      wordsFrom w p
      let s ← MP.lift (transform data blocks s)
      absorbRestAt (p.add bytes) (data.drop bytes) { s with total := s.total + BitVec.ofNat 64 (bytes * 8) }
  else absorbRestAt p data s

/-- absorb_data.hpp 16-38: `absorb_bytes`, with the pointer `p` to the input and the address `ma` of the buffer. -/
def absorbBytesAt {σ : Type} (w ma bs bschk : Nat) (transform : Bytes → Nat → Blk σ → M (Blk σ)) (p : Ptr) (data : Bytes) (s : Blk σ) : MP (Blk σ) :=
  if s.pos ≠ 0 ∧ (s.pos + data.length) % szMod ≥ bschk then do
    copyFrom p
    let chunk ← MP.lift (readBytes data 0 (szSub bs s.pos))
    let m ← MP.lift (memcpyTo s.m s.pos chunk)
    wordsFrom w (some ma)
    let s ← MP.lift (transform m 1 { s with m := m })
    absorbTailAt w bs bschk transform (p.add (szSub bs s.pos)) (data.drop (szSub bs s.pos)) { s with total := s.total + BitVec.ofNat 64 (bs * 8), pos := 0 }
  else absorbTailAt w bs bschk transform p data s

/-- Not in the code: calls of `update` one after the other, each with its pointer. -/
def absorbsAt {σ : Type} (w ma bs bschk : Nat) (transform : Bytes → Nat → Blk σ → M (Blk σ)) (calls : List (Ptr × Bytes)) (s : Blk σ) : MP (Blk σ) :=
  calls.foldlM (fun s c => absorbBytesAt w ma bs bschk transform c.1 c.2 s) s

/-- Not in the code: the same calls without addresses. -/
def absorbs {σ : Type} (bs bschk : Nat) (transform : Bytes → Nat → Blk σ → M (Blk σ)) (calls : List Bytes) (s : Blk σ) : M (Blk σ) :=
  calls.foldlM (fun s d => absorbBytes bs bschk transform d s) s

/-- blake_provider.hpp 230-239, 136-144: `set_salt` with the pointer to the salt, which is read as words. -/
def Blake.setSaltAt (p : Ptr) (salt : Bytes) (s : Blk Blake.St) : MP (Bool × Blk Blake.St) :=
  if salt.length ≠ 0 ∧ ((s.h.hs > 256 ∧ salt.length ≠ 32) ∨ (s.h.hs ≤ 256 ∧ salt.length ≠ 16)) then pure (true, s)
  else do
    if salt.length ≠ 0 then wordsFrom (if s.h.hs > 256 then 8 else 4) p
    MP.lift (Blake.setSalt salt s)

/-- Not in the code: what a fault of a pointer does to a computation. -/
def outcome {α : Type} (f : Option Spec.Fault) (x : M α) : MP α :=
  match f with
  | some .null => .error .nullCopy
  | some .misaligned => .error .misaligned
  | none => MP.lift x

/-- The rules by which compilers lay out classes (Itanium and Microsoft ABI alike for these members): the offset after members of given size and alignment. -/
def offsetAfter (members : List (Nat × Nat)) : Nat :=
  members.foldl (fun o m => (o + m.2 - 1) / m.2 * m.2 + m.1) 0

/-- The members in front of the buffer `m`, by size and alignment, and the alignment of the words that `transform` reads. A `std::string` has 32 bytes, or 24 (libc++).
md5_provider.hpp 188, sha1_provider.hpp 152, sha2_provider.hpp 268 (both word sizes), sm3_provider.hpp 178, sha3_provider.hpp 184, shake_provider.hpp 169, blake_provider.hpp 299,
blake2_provider.hpp 377-380 (both word sizes, both sizes of strings), skein_provider.hpp 380 (three sizes), groestl_provider.hpp 199, kupyna_provider.hpp 193, whirlpool_provider.hpp 132,
streebog_provider.hpp 178-179, jh_provider.hpp 212, esch_provider.hpp 207 (two sizes), ascon_provider.hpp 176. -/
def buffers : List (Nat × List (Nat × Nat)) :=
  [(4, [(16, 4)]), (4, [(20, 4)]), (4, [(32, 4)]), (8, [(64, 8)]), (4, [(32, 4)]), (8, [(200, 8)]), (8, [(200, 8)]), (8, [(96, 8)]),
   (4, [(32, 4), (8, 4), (8, 4), (32, 8)]), (4, [(32, 4), (8, 4), (8, 4), (24, 8)]), (8, [(64, 8), (16, 8), (16, 8), (32, 8)]), (8, [(64, 8), (16, 8), (16, 8), (24, 8)]),
   (8, [(32, 8), (32, 8)]), (8, [(64, 8), (64, 8)]), (8, [(128, 8), (128, 8)]), (8, [(128, 8)]), (8, [(128, 8)]), (8, [(64, 8)]),
   (8, [(64, 8), (64, 8)]), (8, [(128, 8)]), (4, [(48, 4)]), (4, [(64, 4)]), (8, [(40, 8)])]

end Digestpp.Model
