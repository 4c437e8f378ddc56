import Verif.Model.Hasher
import Verif.Model.MdFinal
import Verif.Model.Validate
import Verif.Model.Tables.Lsh

/-! Model of algorithm/detail/lsh_provider.hpp. The template parameter `T` is a word size `w` with a record of what depends on it.

`addmix` calls `rotate_left(y, gamma)` with `gamma = 0`, which shifts a word by its full width: undefined behaviour. The model takes
the meaning of this one call as a parameter `rot`: `rotlChecked` is what the language says, `rotlMasked` what the usual machines
do. -/

namespace Digestpp.Model.Lsh

/-- The meaning of `rotate_left` (functions.hpp 67-70, 79-82) for counts that may be out of range. -/
abbrev Rot (w : Nat) := BitVec w → Nat → M (BitVec w)

/-- What depends on the template parameter `T` of lsh_provider.hpp: the specializations of lines 20-67. -/
structure Word (w : Nat) where
  NS : Nat
  SC : List (List (BitVec w))
  G : List Nat
  rot0 : BitVec w → BitVec w
  rot1 : BitVec w → BitVec w
  rot2 : BitVec w → BitVec w
  rot3 : BitVec w → BitVec w
  loads : Nat → Bytes → List (BitVec w)
  stores : List (BitVec w) → Bytes

/-- lsh_provider.hpp 26-30, 41-45, 56-60, 222-223: `T = uint32_t`. The rotations by `lsh_constants::AB256` (constants/lsh_constants.hpp 26)
are written out so that they are seen to be in range. -/
def u32 : Word 32 where
  NS := 26
  SC := lsh_SC256
  G := lsh_G256
  rot0 := fun x => rotl x 29
  rot1 := fun x => rotl x 1
  rot2 := fun x => rotl x 5
  rot3 := fun x => rotl x 17
  loads := loads32
  stores := stores32

/-- lsh_provider.hpp 32-36, 47-51, 62-66, 222-223: `T = uint64_t`; rotations by `lsh_constants::AB512` (constants/lsh_constants.hpp 29). -/
def u64 : Word 64 where
  NS := 28
  SC := lsh_SC512
  G := lsh_G512
  rot0 := fun x => rotl x 23
  rot1 := fun x => rotl x 59
  rot2 := fun x => rotl x 7
  rot3 := fun x => rotl x 3
  loads := loads64
  stores := stores64

variable {w : Nat}

/-- The second indices on the right-hand sides of lsh_provider.hpp 150-165. -/
def tauIdx : List Nat := [3, 2, 0, 1, 7, 4, 5, 6, 11, 10, 8, 9, 15, 12, 13, 14]

/-- lsh_provider.hpp 145-167: `msgexpand`; the rows of `msgexp`. -/
def msgexpand (T : Word w) (mp : Bytes) : List (List (BitVec w)) :=
  (List.range' 2 (T.NS - 1)).foldl (fun W i =>
    W ++ [(List.range 16).map fun l => (W.getD (i - 1) []).getD l 0 + (W.getD (i - 2) []).getD (tauIdx.getD l 0) 0])
    [(T.loads 32 mp).take 16, (T.loads 32 mp).drop 16]

/-- lsh_provider.hpp 169-177: `addmix`; the new values of `t[l]` and `t[l + 8]`. `ra`, `rb` are the rotations by `alpha`, `beta`. -/
def addmix (rot : Rot w) (cv row : List (BitVec w)) (sc : BitVec w) (ra rb : BitVec w → BitVec w) (gamma : Nat) (l : Nat) :
    M (BitVec w × BitVec w) := do
  let x := cv.getD l 0 ^^^ row.getD l 0
  let y := cv.getD (l + 8) 0 ^^^ row.getD (l + 8) 0
  let x := ra (x + y) ^^^ sc
  let y := rb (x + y)
  let t8 ← rot y gamma
  pure (x + y, t8)

/-- The indices on the right-hand sides of lsh_provider.hpp 189-204. -/
def permIdx : List Nat := [6, 4, 5, 7, 12, 15, 14, 13, 2, 0, 1, 3, 8, 11, 10, 9]

/-- lsh_provider.hpp 225-229: the members `cv`, `t`, `msgexp`, `hs`. -/
structure St (w : Nat) where
  cv : List (BitVec w)
  t : List (BitVec w)
  msgexp : List (List (BitVec w))
  hs : Nat

/-- lsh_provider.hpp 179-205: `step`. -/
def step (rot : Rot w) (T : Word w) (i : Nat) (ra rb : BitVec w → BitVec w) (h : St w) : M (St w) := do
  let xy ← (List.range 8).mapM fun l =>
    addmix rot h.cv (h.msgexp.getD i []) ((T.SC.getD i []).getD l 0) ra rb (T.G.getD l 0) l
  let t := xy.map Prod.fst ++ xy.map Prod.snd
  pure { h with t := t, cv := permIdx.map fun k => t.getD k 0 }

/-- lsh_provider.hpp 211-218: one iteration of the loop in `transform`. -/
def compress (rot : Rot w) (T : Word w) (b : Bytes) (h : St w) : M (St w) := do
  let h := { h with msgexp := msgexpand T b }
  let h ← (List.range (T.NS / 2)).foldlM (fun h k => do
    let h ← step rot T (2 * k) T.rot0 T.rot1 h
    step rot T (2 * k + 1) T.rot2 T.rot3 h) h
  pure { h with cv := (List.range 16).map fun i => h.cv.getD i 0 ^^^ (h.msgexp.getD T.NS []).getD i 0 }

/-- lsh_provider.hpp 143: `block_bytes`; `N` is `8 * w` (line 222). -/
def blockBytes (w : Nat) : Nat := 4 * w

/-- lsh_provider.hpp 207-220: `transform`. -/
def transform (rot : Rot w) (T : Word w) (data : Bytes) (n : Nat) (s : Blk (St w)) : M (Blk (St w)) := do
  let h ← forBlocks (blockBytes w) data n (fun _ b h => compress rot T b h) s.h
  pure { s with h := h }

/-- lsh_provider.hpp 96-110: `init`. -/
def init (rot : Rot w) (T : Word w) (s : Blk (St w)) : M (Blk (St w)) := do
  let s ← transform rot T (List.replicate (4 * w) 0) 1 { s with
    h := { s.h with cv := [BitVec.ofNat w w, BitVec.ofNat w s.h.hs] ++ List.replicate 14 0 }, pos := 0, total := 0 }
  pure { s with h := { s.h with t := List.replicate 16 0, msgexp := List.replicate (T.NS + 1) (List.replicate 16 0) } }

/-- lsh_provider.hpp 112-116: `update`. -/
def update (rot : Rot w) (T : Word w) (data : Bytes) (s : Blk (St w)) : M (Blk (St w)) :=
  absorbBytes (blockBytes w) (blockBytes w) (transform rot T) data s

/-- lsh_provider.hpp 118-130: `final`. Of the local array `h` only the first eight elements are ever written. -/
def final (rot : Rot w) (T : Word w) (s : Blk (St w)) : M Bytes := do
  let m ← setByte s.m s.pos 0x80
  let m ← zeroRest (blockBytes w) m (s.pos + 1)
  let s ← transform rot T m 1 { s with m := m, pos := s.pos + 1, total := s.total + BitVec.ofNat 64 ((s.pos + 1) * 8) }
  readBytes (T.stores ((List.range 8).map fun i => s.h.cv.getD i 0 ^^^ s.h.cv.getD (i + 8) 0)) 0 (s.h.hs / 8)

/-- lsh_provider.hpp 132-138: `clear`. -/
def clear (T : Word w) (s : Blk (St w)) : M (Blk (St w)) :=
  pure { s with
    h := { s.h with
      cv := List.replicate 16 0, t := List.replicate 16 0, msgexp := List.replicate (T.NS + 1) (List.replicate 16 0) }
    m := zeroBytes s.m }

/-- lsh_provider.hpp 69-232: the class. -/
def provider (rot : Rot w) (T : Word w) : HashProvider (Blk (St w)) Empty where
  init := init rot T
  update := update rot T
  final := final rot T
  clear := clear T
  hashSize := fun s => s.h.hs
  set := nofun

/-- lsh_provider.hpp 75-81: the constructor taking a size. -/
def new (hashsize : Nat) (mem : Blk (St w)) : Option (Blk (St w)) :=
  if validateMax hashsize (8 * w) then some { mem with h := { mem.h with hs := hashsize } } else none

/-- The member arrays `cv[16]` and `m[N / 2]` (lsh_provider.hpp 225-228); `t` and `msgexp` are only written to before `init` ends. -/
def Mem (s : Blk (St w)) : Prop := s.h.cv.length = 16 ∧ s.m.length = 4 * w

/-- algorithm/lsh.hpp: `lsh256(hashsize)`, `lsh512(hashsize)`. -/
def lsh (rot : Rot w) (T : Word w) (hashsize : Nat) : HashClass where
  S := _
  P := _
  pr := provider rot T
  Mem := Mem
  ctor := fun s => pure (new hashsize s)

/-- lsh_provider.hpp 83-89, algorithm/lsh.hpp: `static_size::lsh256<N>`, `static_size::lsh512<N>`. -/
def lshStatic (rot : Rot w) (T : Word w) (N : Nat) : HashClass where
  S := _
  P := _
  pr := provider rot T
  Mem := Mem
  ctor := fun s => pure (some { s with h := { s.h with hs := N } })

end Digestpp.Model.Lsh
