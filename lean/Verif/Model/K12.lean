import Verif.Model.Shake

/-! Model of algorithm/detail/k12m14_provider.hpp. -/

namespace Digestpp.Model.K12

/-- The members besides `m`, `pos`, `total` (k12m14_provider.hpp 131-141). -/
structure St where
  main : Blk Shake.St
  child : Blk Shake.St
  S : Bytes
  chunk : Nat
  squeezing : Bool

/-- k12m14_provider.hpp 101-105: a block, first case; gives `main` and `child`. -/
def first (R rate : Nat) (b : Bytes) (h : St) : M (Blk Shake.St × Blk Shake.St) := do
  let main ← Shake.update R rate b h.main
  let main ← Shake.update R rate [3, 0, 0, 0, 0, 0, 0, 0] main
  pure (main, h.child)

/-- k12m14_provider.hpp 107-112: a block, second case. -/
def next (B R rate : Nat) (b : Bytes) (h : St) : M (Blk Shake.St × Blk Shake.St) := do
  let child ← Shake.update R rate b h.child
  let r ← Shake.squeeze R rate (B / 4) child
  let main ← Shake.update R rate r.1 h.main
  pure (main, r.2)

/-- k12m14_provider.hpp 101-112: `if (!chunk)`. -/
def absorbChunk (B R rate : Nat) (b : Bytes) (h : St) : M (Blk Shake.St × Blk Shake.St) :=
  if h.chunk = 0 then first R rate b h else next B R rate b h

/-- k12m14_provider.hpp 99-118: one iteration of the loop of `transform`. -/
def transformStep (B R : Nat) (b : Bytes) (h : St) : M St := do
  let mc ← absorbChunk B R (Shake.rateOf B) b h
  let child ← Shake.init R (Shake.rateOf B) mc.2
  pure { main := mc.1, child := Shake.setSuffix 0x0b child, S := h.S, chunk := (h.chunk + 1) % szMod, squeezing := h.squeezing }

/-- k12m14_provider.hpp 58, 95-119: the callback and `transform`. -/
def onBlocks (B R : Nat) (data : Bytes) (n : Nat) (s : Blk St) : M (Blk St) := do
  let h ← forBlocks 8192 data n (fun _ b h => transformStep B R b h) s.h
  pure { s with h := h }

/-- k12m14_provider.hpp 55-59: `update`. -/
def update (B R : Nat) (data : Bytes) (s : Blk St) : M (Blk St) :=
  absorbBytes 8192 8193 (onBlocks B R) data s

/-- k12m14_provider.hpp 46-53: `init`. -/
def init (B R : Nat) (s : Blk St) : M (Blk St) := do
  let main ← Shake.init R (Shake.rateOf B) s.h.main
  pure { h := { main := main, child := s.h.child, S := s.h.S, chunk := 0, squeezing := false }, m := s.m, pos := 0, total := 0 }

/-- k12m14_provider.hpp 67-68: `if (!S.empty()) update(S)`. -/
def updateS (B R : Nat) (s : Blk St) : M (Blk St) :=
  if s.h.S.isEmpty then pure s else update B R s.h.S s

/-- k12m14_provider.hpp 72-76: a single chunk. -/
def finishSingle (R rate : Nat) (s : Blk St) : M (Blk Shake.St × Blk Shake.St) := do
  let b ← readBytes s.m 0 s.pos
  let main ← Shake.update R rate b s.h.main
  pure (Shake.setSuffix 0x07 main, s.h.child)

/-- k12m14_provider.hpp 77-86: several chunks. -/
def finishTree (B R rate : Nat) (s : Blk St) : M (Blk Shake.St × Blk Shake.St) := do
  let b ← readBytes s.m 0 s.pos
  let child ← Shake.update R rate b s.h.child
  let r ← Shake.squeeze R rate (B / 4) child
  let main ← Shake.update R rate r.1 s.h.main
  let main := Shake.setSuffix 0x06 main
  let main ← Shake.update R rate (Shake.rightEncode s.h.chunk true) main
  let main ← Shake.update R rate [0xff, 0xff] main
  pure (main, r.2)

/-- k12m14_provider.hpp 70-89: the end of the message. -/
def finish (B R rate : Nat) (s : Blk St) : M (Blk Shake.St × Blk Shake.St) :=
  if s.pos ≠ 0 then
    if s.h.chunk = 0 then finishSingle R rate s else finishTree B R rate s
  else pure (Shake.setSuffix 0x07 s.h.main, s.h.child)

/-- k12m14_provider.hpp 63-91: the part of `squeeze` that is done once. -/
def squeezeFirst (B R : Nat) (s : Blk St) : M (Blk St) :=
  if !s.h.squeezing then do
    let b := Shake.rightEncode s.h.S.length true
    let s ← updateS B R s
    let s ← update B R b s
    let mc ← finish B R (Shake.rateOf B) s
    pure { s with h := { main := mc.1, child := mc.2, S := s.h.S, chunk := s.h.chunk, squeezing := true } }
  else pure s

/-- k12m14_provider.hpp 61-93: `squeeze`. -/
def squeeze (B R hs : Nat) (s : Blk St) : M (Bytes × Blk St) := do
  let s ← squeezeFirst B R s
  let r ← Shake.squeeze R (Shake.rateOf B) hs s.h.main
  pure (r.1, { s with h := { main := r.2, child := s.h.child, S := s.h.S, chunk := s.h.chunk, squeezing := s.h.squeezing } })

/-- k12m14_provider.hpp 122-129: `clear`. -/
def clear (s : Blk St) : M (Blk St) := do
  let main ← Shake.clear s.h.main
  let child ← Shake.clear s.h.child
  pure { s with h := { main := main, child := child, S := [], chunk := s.h.chunk, squeezing := s.h.squeezing }, m := zeroBytes s.m }

/-- algorithm/mixin/k12m14_mixin.hpp with k12m14_provider.hpp 41-44. -/
def set (p : CustomizationParam) (s : Blk St) : M (Bool × Blk St) :=
  match p with
  | .customization v =>
    pure (false, { s with h := { main := s.h.main, child := s.h.child, S := v, chunk := s.h.chunk, squeezing := s.h.squeezing } })

/-- k12m14_provider.hpp 26-142 with `B` bits and `R` rounds. -/
def provider (B R : Nat) : XofProvider (Blk St) CustomizationParam where
  init := init B R
  update := update B R
  squeeze := squeeze B R
  clear := clear
  set := set

/-- k12m14_provider.hpp 31-34: the constructor; the members of class type are default-constructed. -/
def new (s : Blk St) : Blk St :=
  { s with h := { s.h with main := Shake.new s.h.main, child := Shake.new s.h.child, S := [] } }

/-- algorithm/k12m14.hpp: `k12`, `kt128` (128, 12), `kt256` (256, 12), `m14` (256, 14). -/
def k12 (B R : Nat) : XofClass where
  S := Blk St
  P := CustomizationParam
  pr := provider B R
  Mem := fun s => s.m.length = 8192 ∧ s.h.main.m.length = 168 ∧ s.h.child.m.length = 168
  ctor := fun s => pure (some (new s))

end Digestpp.Model.K12
