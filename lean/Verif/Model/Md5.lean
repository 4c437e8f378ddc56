import Verif.Model.Hasher
import Verif.Model.MdFinal
import Verif.Model.Tables.Md5

/-! Model of algorithm/detail/md5_provider.hpp. -/

namespace Digestpp.Model.Md5

/-- The local variables `a, b, c, d` (md5_provider.hpp 108-111). -/
abbrev Vars := BitVec 32 × BitVec 32 × BitVec 32 × BitVec 32

/-- md5_provider.hpp 21-43: one of the functions `roundf`, `roundg`, `roundh`, `roundi`: the value assigned to `a`. -/
abbrev Round := Nat → (a b c d : BitVec 32) → (Mw : List (BitVec 32)) → M (BitVec 32)

/-- md5_provider.hpp 21-25: `roundf`. The indices `round` are literals below 64 at all call sites. -/
def roundf : Round := fun r a b c d Mw => do
  let x ← rotlChecked (a + (d ^^^ (b &&& (c ^^^ d))) + md5_K.getD r 0 + Mw.getD r 0) (md5_S.getD r 0)
  pure (b + x)

/-- md5_provider.hpp 27-31: `roundg`. -/
def roundg : Round := fun r a b c d Mw => do
  let x ← rotlChecked (a + (c ^^^ (d &&& (b ^^^ c))) + md5_K.getD r 0 + Mw.getD ((5 * r + 1) % 16) 0) (md5_S.getD r 0)
  pure (b + x)

/-- md5_provider.hpp 33-37: `roundh`. -/
def roundh : Round := fun r a b c d Mw => do
  let x ← rotlChecked (a + (b ^^^ c ^^^ d) + md5_K.getD r 0 + Mw.getD ((3 * r + 5) % 16) 0) (md5_S.getD r 0)
  pure (b + x)

/-- md5_provider.hpp 39-43: `roundi`. -/
def roundi : Round := fun r a b c d Mw => do
  let x ← rotlChecked (a + (c ^^^ (b ||| ~~~d)) + md5_K.getD r 0 + Mw.getD ((7 * r) % 16) 0) (md5_S.getD r 0)
  pure (b + x)

/-- md5_provider.hpp 113-116 (and likewise 117-120, …, 176-179): four consecutive calls, rotating the roles of the variables. -/
def four (f : Round) (Mw : List (BitVec 32)) (v : Vars) (r : Nat) : M Vars := do
  let (a, b, c, d) := v
  let a ← f r a b c d Mw
  let d ← f (r + 1) d a b c Mw
  let c ← f (r + 2) c d a b Mw
  let b ← f (r + 3) b c d a Mw
  pure (a, b, c, d)

/-- md5_provider.hpp 108-184: one iteration of the loop in `transform`. -/
def compress (block : Bytes) (H : List (BitVec 32)) : M (List (BitVec 32)) := do
  let Mw := loads32 16 block
  let v : Vars := (H.getD 0 0, H.getD 1 0, H.getD 2 0, H.getD 3 0)
  let v ← [0, 4, 8, 12].foldlM (four roundf Mw) v          -- 113-128
  let v ← [16, 20, 24, 28].foldlM (four roundg Mw) v       -- 130-145
  let v ← [32, 36, 40, 44].foldlM (four roundh Mw) v       -- 147-162
  let v ← [48, 52, 56, 60].foldlM (four roundi Mw) v       -- 164-179
  pure [H.getD 0 0 + v.1, H.getD 1 0 + v.2.1, H.getD 2 0 + v.2.2.1, H.getD 3 0 + v.2.2.2]

/-- md5_provider.hpp 103-186: `transform`. -/
def transform (data : Bytes) (n : Nat) (s : Blk (List (BitVec 32))) : M (Blk (List (BitVec 32))) := do
  let h ← forBlocks 64 data n (fun _ b h => compress b h) s.h
  pure { s with h := h }

/-- md5_provider.hpp 61-69: `init`. -/
def init (s : Blk (List (BitVec 32))) : M (Blk (List (BitVec 32))) :=
  pure { s with h := [0x67452301, 0xefcdab89, 0x98badcfe, 0x10325476], pos := 0, total := 0 }

/-- md5_provider.hpp 71-75: `update`. -/
def update (data : Bytes) (s : Blk (List (BitVec 32))) : M (Blk (List (BitVec 32))) :=
  absorbBytes 64 64 transform data s

/-- md5_provider.hpp 77-92: `final`. -/
def final (s : Blk (List (BitVec 32))) : M Bytes := do
  let s ← mdFinal 64 56 56 bytes64 transform s
  readBytes (stores32 s.h) 0 16                            -- memcpy(hash, H.data(), 16)

/-- md5_provider.hpp 94-98: `clear`. -/
def clear (s : Blk (List (BitVec 32))) : M (Blk (List (BitVec 32))) :=
  pure { s with h := List.replicate 4 0, m := zeroBytes s.m }

/-- md5_provider.hpp 47-192: the class, as used by `hasher`. MD5 has no parameters. -/
def provider : HashProvider (Blk (List (BitVec 32))) Empty where
  init := init
  update := update
  final := final
  clear := clear
  hashSize := fun _ => 128
  set := nofun

/-- algorithm/md5.hpp: `md5`. The provider has an implicit (empty) constructor. -/
def cls : HashClass where
  S := _
  P := _
  pr := provider
  Mem := fun s => s.m.length = 64
  ctor := fun s => pure (some s)

end Digestpp.Model.Md5
