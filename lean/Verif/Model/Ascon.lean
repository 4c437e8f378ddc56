import Verif.Model.Hasher
import Verif.Model.Tables.Ascon

/-! Model of algorithm/detail/ascon_provider.hpp. The constant `rate` is 64. -/

namespace Digestpp.Model.Ascon

/-- ascon_provider.hpp 13-18: `ascon_type`. -/
inductive Kind where
  | hash
  | xof
  | cxof

/-- `H[i]` for the member `H` (ascon_provider.hpp 176). -/
def at64 (H : List (BitVec 64)) (i : Nat) : BitVec 64 := H.getD i 0

/-- ascon_provider.hpp 149-171: the body of the loop over `i`. -/
def round (H : List (BitVec 64)) (i : Nat) : List (BitVec 64) :=
  let H := H.set 2 (at64 H 2 ^^^ ascon_RC.getD i 0)
  let H := H.set 0 (at64 H 0 ^^^ at64 H 4)
  let H := H.set 4 (at64 H 4 ^^^ at64 H 3)
  let H := H.set 2 (at64 H 2 ^^^ at64 H 1)
  let t0 := at64 H 0 ^^^ (~~~at64 H 1 &&& at64 H 2)
  let t1 := at64 H 1 ^^^ (~~~at64 H 2 &&& at64 H 3)
  let t2 := at64 H 2 ^^^ (~~~at64 H 3 &&& at64 H 4)
  let t3 := at64 H 3 ^^^ (~~~at64 H 4 &&& at64 H 0)
  let t4 := at64 H 4 ^^^ (~~~at64 H 0 &&& at64 H 1)
  let t1 := t1 ^^^ t0
  let t0 := t0 ^^^ t4
  let t3 := t3 ^^^ t2
  let t2 := ~~~t2
  let H := H.set 0 (t0 ^^^ rotr t0 19 ^^^ rotr t0 28)
  let H := H.set 1 (t1 ^^^ rotr t1 61 ^^^ rotr t1 39)
  let H := H.set 2 (t2 ^^^ rotr t2 1 ^^^ rotr t2 6)
  let H := H.set 3 (t3 ^^^ rotr t3 10 ^^^ rotr t3 17)
  H.set 4 (t4 ^^^ rotr t4 7 ^^^ rotr t4 41)

/-- ascon_provider.hpp 145-172: one iteration of the loop over `blk`. -/
def absorbBlock (b : Bytes) (H : List (BitVec 64)) : List (BitVec 64) :=
  (List.range 12).foldl round (H.set 0 (at64 H 0 ^^^ at64 (loads64 1 b) 0))

/-- ascon_provider.hpp 177, 179, 183: the members besides `m`, `pos`, `total`. -/
structure St where
  H : List (BitVec 64)
  Z : Bytes
  squeezing : Bool

/-- ascon_provider.hpp 141-173: `transform(data, num_blks)`. -/
def transform (data : Bytes) (n : Nat) (s : Blk St) : M (Blk St) := do
  let H ← forBlocks 8 data n (fun _ b H => pure (absorbBlock b H)) s.h.H
  pure { s with h := { s.h with H := H } }

/-- ascon_provider.hpp 85-89: `update`. -/
def update (data : Bytes) (s : Blk St) : M (Blk St) := absorbBytes 8 8 transform data s

/-- ascon_provider.hpp 36-64: the part of `init` before the customization. -/
def initFields (k : Kind) (s : Blk St) : Blk St :=
  { h := { s.h with
      squeezing := false
      H := match k with
        | .cxof => ascon_IVCXOF
        | .xof => ascon_IVXOF
        | .hash => ascon_IVHASH }
    m := zeroBytes s.m, pos := 0, total := 0 }

/-- ascon_provider.hpp 66-76: the customization. The array of the 8 bytes of `Z0` is read up to `8 - pad`. -/
def initCustom (s : Blk St) : M (Blk St) := do
  let Z := s.h.Z
  let s ← update (bytes64 (BitVec.ofNat 64 (Z.length * 8))) s
  let s ← (if !Z.isEmpty then update Z s else pure s)
  let pad := Z.length % 8
  let z ← readBytes (bytes64 1) 0 (8 - pad)
  update z s

/-- ascon_provider.hpp 36-77: `init`. -/
def init (k : Kind) (s : Blk St) : M (Blk St) :=
  match k with
  | .cxof => initCustom (initFields k s)
  | _ => pure (initFields k s)

/-- ascon_provider.hpp 79-83: `set_customization`. -/
def setCustomization (v : Bytes) (s : Blk St) : Blk St := { s with h := { s.h with Z := v } }

/-- ascon_provider.hpp 93-114: the first part of `squeeze`; gives the bytes copied. -/
def squeezeFirst (hs : Nat) (s : Blk St) : M (Bytes × Blk St) :=
  if !s.h.squeezing then do
    let m ← setByte s.m s.pos 1
    let pos := s.pos + 1
    let m ← (if 8 ≠ pos then memset m pos 0 (szSub 8 pos) else pure m)
    let s ← transform m 1 { s with m := m, pos := pos }
    let m ← memset s.m 0 0 8
    pure ([], { s with m := m, h := { s.h with squeezing := true } })
  else if s.pos < 8 then do
    let toCopy := min hs (8 - s.pos)
    let out ← readBytes (stores64 s.h.H) s.pos toCopy
    pure (out, { s with pos := s.pos + toCopy })
  else if s.pos = 8 then do
    let s ← transform s.m 1 s
    pure ([], s)
  else pure ([], s)

/-- ascon_provider.hpp 116-123: `while (processed < hs)`. Every iteration copies at least one byte, so `hs` of them are enough. `out`
holds the bytes copied so far. -/
def squeezeLoop (hs : Nat) : Nat → Bytes → Blk St → M (Bytes × Blk St)
  | 0, out, s => pure (out, s)
  | fuel + 1, out, s =>
    if out.length < hs then do
      let s ← (if out.length ≠ 0 then transform s.m 1 s else pure s)
      let pos := min (hs - out.length) 8
      let b ← readBytes (stores64 s.h.H) 0 pos
      squeezeLoop hs fuel (out ++ b) { s with pos := pos }
    else pure (out, s)

/-- ascon_provider.hpp 91-124: `squeeze`. -/
def squeeze (hs : Nat) (s : Blk St) : M (Bytes × Blk St) := do
  let (out, s) ← squeezeFirst hs s
  squeezeLoop hs hs out s

/-- ascon_provider.hpp 126-129: `final`. -/
def final (s : Blk St) : M Bytes := do
  let (out, _) ← squeeze (256 / 8) s
  pure out

/-- ascon_provider.hpp 131-135: `clear`. -/
def clear (s : Blk St) : M (Blk St) :=
  pure { s with h := { s.h with H := s.h.H.map fun _ => 0 }, m := zeroBytes s.m }

/-- ascon_provider.hpp 177-178: the arrays `H[5]` and `m[64]`; the string `Z` is empty after construction. -/
def Mem (s : Blk St) : Prop := s.h.H.length = 5 ∧ s.m.length = 64

/-- ascon_provider.hpp 26-29: the constructor. -/
def new (mem : Blk St) : Blk St := { mem with h := { mem.h with Z := [], squeezing := false } }

/-- algorithm/ascon.hpp: `ascon_hash`. -/
def asconHash : HashClass where
  S := Blk St
  P := Empty
  pr :=
    { init := init .hash
      update := update
      final := final
      clear := clear
      hashSize := fun _ => 256
      set := nofun }
  Mem := Mem
  ctor := fun s => pure (some (new s))

/-- algorithm/ascon.hpp: `ascon_xof`. -/
def asconXof : XofClass where
  S := Blk St
  P := Empty
  pr :=
    { init := init .xof
      update := update
      squeeze := squeeze
      clear := clear
      set := nofun }
  Mem := Mem
  ctor := fun s => pure (some (new s))

/-- algorithm/ascon.hpp, mixin/ascon_cxof_mixin.hpp 28-34: `ascon_cxof`. -/
def asconCxof : XofClass where
  S := Blk St
  P := CustomizationParam
  pr :=
    { init := init .cxof
      update := update
      squeeze := squeeze
      clear := clear
      set := fun p s => match p with
        | .customization v => pure (false, setCustomization v s) }
  Mem := Mem
  ctor := fun s => pure (some (new s))

end Digestpp.Model.Ascon
