import Verif.Model.Arrays
import Verif.Model.Md5

/-! `transform` of algorithm/detail/md5_provider.hpp with checked accesses. There are no local arrays. -/

namespace Digestpp.Model.Locals.Md5
open Model.Md5

/-- md5_provider.hpp 21-43: `M` is the pointer into the data, `o` its position in words. -/
abbrev Round := Nat → (a b c d : BitVec 32) → (data : Bytes) → (o : Nat) → M (BitVec 32)

/-- md5_provider.hpp 21-25: `roundf`. -/
def roundf : Round := fun r a b c d data o => do
  let k ← rd md5_K r
  let m ← rd32 data (o + r)
  let s ← rd md5_S r
  let x ← rotlChecked (a + (d ^^^ (b &&& (c ^^^ d))) + k + m) s
  pure (b + x)

/-- md5_provider.hpp 27-31: `roundg`. -/
def roundg : Round := fun r a b c d data o => do
  let k ← rd md5_K r
  let m ← rd32 data (o + (5 * r + 1) % 16)
  let s ← rd md5_S r
  let x ← rotlChecked (a + (c ^^^ (d &&& (b ^^^ c))) + k + m) s
  pure (b + x)

/-- md5_provider.hpp 33-37: `roundh`. -/
def roundh : Round := fun r a b c d data o => do
  let k ← rd md5_K r
  let m ← rd32 data (o + (3 * r + 5) % 16)
  let s ← rd md5_S r
  let x ← rotlChecked (a + (b ^^^ c ^^^ d) + k + m) s
  pure (b + x)

/-- md5_provider.hpp 39-43: `roundi`. -/
def roundi : Round := fun r a b c d data o => do
  let k ← rd md5_K r
  let m ← rd32 data (o + (7 * r) % 16)
  let s ← rd md5_S r
  let x ← rotlChecked (a + (c ^^^ (b ||| ~~~d)) + k + m) s
  pure (b + x)

/-- md5_provider.hpp 113-116 (and likewise 117-120, …, 176-179): four consecutive calls. -/
def four (f : Round) (data : Bytes) (o : Nat) (v : Vars) (r : Nat) : M Vars := do
  let (a, b, c, d) := v
  let a ← f r a b c d data o
  let d ← f (r + 1) d a b c data o
  let c ← f (r + 2) c d a b data o
  let b ← f (r + 3) b c d a data o
  pure (a, b, c, d)

/-- md5_provider.hpp 108-184: one iteration; the pointer has been advanced `blk` times by 16 words. -/
def block (data : Bytes) (blk : Nat) (H : List (BitVec 32)) : M (List (BitVec 32)) := do
  let a ← rd H 0
  let b ← rd H 1
  let c ← rd H 2
  let d ← rd H 3
  let v ← [0, 4, 8, 12].foldlM (four roundf data (blk * 16)) (a, b, c, d)
  let v ← [16, 20, 24, 28].foldlM (four roundg data (blk * 16)) v
  let v ← [32, 36, 40, 44].foldlM (four roundh data (blk * 16)) v
  let v ← [48, 52, 56, 60].foldlM (four roundi data (blk * 16)) v
  let H ← upd H 0 (· + v.1)
  let H ← upd H 1 (· + v.2.1)
  let H ← upd H 2 (· + v.2.2.1)
  upd H 3 (· + v.2.2.2)

/-- md5_provider.hpp 103-186: `transform`. -/
def transform (data : Bytes) (n : Nat) (s : Blk (List (BitVec 32))) : M (Blk (List (BitVec 32))) := do
  let h ← loop 0 n (fun blk h => block data blk h) s.h
  pure { s with h := h }

end Digestpp.Model.Locals.Md5
