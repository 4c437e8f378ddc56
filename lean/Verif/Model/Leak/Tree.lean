import Verif.Model.Leak.Xof
import Verif.Model.Blake2p
import Verif.Model.K12

/-! BLAKE2sp, BLAKE2bp, KangarooTwelve and MarsupilamiFourteen with a trace (see `Model/Leak`). Where the code passes a part of an array to another function, the model reads that part, so that
the trace has an event more, which tells where the part is. Positions in the traces of the functions called are relative to that part. The loops over the leaves, whose bounds are constants, leave no event. -/

namespace Digestpp.Model.Leak

namespace Blake2
open Model.Blake2
variable {w : Nat}

/-- blake2_provider.hpp 274-287: `final(hash, hs_override)` for `blake2_type::hash`. -/
def finalHash (T : Word w) (ld : Bytes → Nat → L (BitVec w)) (hsOverride : Nat) (k : Stacks w) (s : Blk (St w)) : L Bytes := do
  let hss := if hsOverride ≠ 0 then hsOverride else s.h.hs
  let s ← lastBlock T ld k { s with total := s.total + BitVec.ofNat 64 (s.pos * 8) }
  readBytes (T.stores s.h.H) 0 (hss / 8)

end Blake2

namespace Blake2p
open Model.Blake2 (Word St)
open Model.Blake2p (PSt)
open Blake2 (Stacks)
variable {w : Nat}

/-- `for (size_t p = 0; p < P; p++)`, as `Model.Blake2p.forLeaves` (blake2p_provider.hpp 76-79, 168-174). -/
def forLeaves {α κ : Type} (f : κ → Nat → α → L α) : (Nat → κ) → Nat → List α → L (List α)
  | _, _, [] => pure []
  | k, i, a :: l => do
    let a ← f (k 0) i a
    let l ← forLeaves f (fun j => k (j + 1)) (i + 1) l
    pure (a :: l)

/-- blake2p_provider.hpp 69-80: `init`. -/
def init (T : Word w) (ld : Bytes → Nat → L (BitVec w)) (k : Nat → (Nat → Stacks w) × Bytes) (s : Blk (PSt w)) : L (Blk (PSt w)) := do
  let main ← Blake2.init T ld .hash (k 0) s.h.main
  let leaf ← forLeaves (fun k _ l => Blake2.init T ld .hash k l) (fun i => k (i + 1)) 0 s.h.leaf
  pure { s with pos := 0, total := 0, h := { s.h with main := main, leaf := leaf } }

/-- blake2p_provider.hpp 170-173: what `transform` does for leaf `i`. -/
def leafBlocks (T : Word w) (ld : Bytes → Nat → L (BitVec w)) (data : Bytes) (n : Nat) (k : Nat → Nat → Stacks w) (i : Nat) (l : Blk (St w)) : L (Blk (St w)) :=
  loop 0 n (fun blk l => do
    let b ← readBytes data (blk * 512 + i * (2 * w)) (2 * w)
    Blake2.update T ld (k blk) b l) l

/-- blake2p_provider.hpp 163-175: `transform`, without OpenMP. -/
def transform (T : Word w) (ld : Bytes → Nat → L (BitVec w)) (k : Nat → Nat → Nat → Stacks w) (data : Bytes) (n : Nat) (s : Blk (PSt w)) : L (Blk (PSt w)) := do
  let leaf ← forLeaves (leafBlocks T ld data n) k 0 s.h.leaf
  pure { s with h := { s.h with leaf := leaf } }

/-- blake2p_provider.hpp 82-86: `update`. -/
def update (T : Word w) (ld : Bytes → Nat → L (BitVec w)) (k : Nat → Nat → Nat → Nat → Stacks w) (data : Bytes) (s : Blk (PSt w)) : L (Blk (PSt w)) :=
  absorbBytes 512 512 (transform T ld) k data s

/-- blake2p_provider.hpp 150-156. The conditional expression in 154 is a branch. -/
def leafRest (T : Word w) (ld : Bytes → Nat → L (BitVec w)) (k : Nat → Stacks w) (m : Bytes) (pos i : Nat) (l : Blk (St w)) : L (Blk (St w)) := do
  if ← branch (pos > i * (2 * w)) then
    let c ← branch (pos < i * (2 * w) + 2 * w)
    let len := if c then pos - i * (2 * w) else 2 * w
    let b ← readBytes m (i * (2 * w)) len
    Blake2.update T ld k b l
  else pure l

/-- blake2p_provider.hpp 148-160: the loop in `finalize`. `k i 0`: for the calls of `leaf[i].update`, `k i 1 0`: for `leaf[i].final`, `k i 2`: for `main.update`. -/
def finLeaves (T : Word w) (ld : Bytes → Nat → L (BitVec w)) (m : Bytes) (pos : Nat) : (Nat → Nat → Nat → Stacks w) → Nat → List (Blk (St w)) → Blk (St w) → L (Blk (St w))
  | _, _, [], main => pure main
  | k, i, l :: ls, main => do
    let l ← leafRest T ld (k 0 0) m pos i l
    let buf ← Blake2.finalHash T ld (8 * w) (k 0 1 0) l
    let main ← Blake2.update T ld (k 0 2) buf main
    finLeaves T ld m pos (fun j => k (j + 1)) (i + 1) ls main

/-- blake2p_provider.hpp 120-130, 144-161: `final` and `finalize`. -/
def final (T : Word w) (ld : Bytes → Nat → L (BitVec w)) (k : Nat → Nat → Nat → Nat → Stacks w) (s : Blk (PSt w)) : L Bytes := do
  let m ← zeroRest 512 s.m s.pos
  let main ← finLeaves T ld m s.pos (k 0) 0 s.h.leaf s.h.main
  Blake2.finalHash T ld 0 (k 1 0 0 0) main

end Blake2p

namespace K12
open Model.K12

/-- What is in the local arrays of the Keccak permutation, for each call of a function of `main` or `child`. -/
abbrev Stacks := Nat → Nat → Nat → Shake.Stacks

/-- k12m14_provider.hpp 103-104. -/
def first (R rate : Nat) (k : Stacks) (b : Bytes) (h : St) : L (Blk Model.Shake.St × Blk Model.Shake.St) := do
  let main ← Shake.update R rate (k 0 0) b h.main
  let main ← Shake.update R rate (k 1 0) [3, 0, 0, 0, 0, 0, 0, 0] main
  pure (main, h.child)

/-- k12m14_provider.hpp 108-111. -/
def next (B R rate : Nat) (k : Stacks) (b : Bytes) (h : St) : L (Blk Model.Shake.St × Blk Model.Shake.St) := do
  let child ← Shake.update R rate (k 0 0) b h.child
  let r ← Shake.squeeze R rate (k 1 0) (B / 4) child
  let main ← Shake.update R rate (k 2 0) r.1 h.main
  pure (main, r.2)

/-- k12m14_provider.hpp 101-112: `if (!chunk)`. -/
def absorbChunk (B R rate : Nat) (k : Stacks) (b : Bytes) (h : St) : L (Blk Model.Shake.St × Blk Model.Shake.St) := do
  if ← branch (h.chunk = 0) then first R rate k b h else next B R rate k b h

/-- k12m14_provider.hpp 99-118: one iteration of the loop of `transform`. -/
def transformStep (B R : Nat) (k : Stacks) (b : Bytes) (h : St) : L St := do
  let mc ← absorbChunk B R (Model.Shake.rateOf B) k b h
  let child ← Shake.init R (Model.Shake.rateOf B) (k 3) mc.2
  pure { main := mc.1, child := Model.Shake.setSuffix 0x0b child, S := h.S, chunk := (h.chunk + 1) % szMod, squeezing := h.squeezing }

/-- k12m14_provider.hpp 58, 95-119: the callback and `transform`. -/
def onBlocks (B R : Nat) (k : Nat → Stacks) (data : Bytes) (n : Nat) (s : Blk St) : L (Blk St) := do
  let h ← loop 0 n (fun blk h => do
    let b ← readBytes data (blk * 8192) 8192
    transformStep B R (k blk) b h) s.h
  pure { s with h := h }

/-- k12m14_provider.hpp 55-59: `update`. -/
def update (B R : Nat) (k : Nat → Nat → Stacks) (data : Bytes) (s : Blk St) : L (Blk St) := absorbBytes 8192 8193 (onBlocks B R) k data s

/-- k12m14_provider.hpp 46-53: `init`. -/
def init (B R : Nat) (k : Nat → Nat → Shake.Stacks) (s : Blk St) : L (Blk St) := do
  let main ← Shake.init R (Model.Shake.rateOf B) k s.h.main
  pure { h := { main := main, child := s.h.child, S := s.h.S, chunk := 0, squeezing := false }, m := s.m, pos := 0, total := 0 }

/-- k12m14_provider.hpp 67-68: `if (!S.empty()) update(S)`. -/
def updateS (B R : Nat) (k : Nat → Nat → Stacks) (s : Blk St) : L (Blk St) := do
  if ← branch (s.h.S.isEmpty = true) then pure s else update B R k s.h.S s

/-- k12m14_provider.hpp 74-75. -/
def finishSingle (R rate : Nat) (k : Stacks) (s : Blk St) : L (Blk Model.Shake.St × Blk Model.Shake.St) := do
  let b ← readBytes s.m 0 s.pos
  let main ← Shake.update R rate (k 0 0) b s.h.main
  pure (Model.Shake.setSuffix 0x07 main, s.h.child)

/-- k12m14_provider.hpp 79-85. `right_encode`, whose argument is the number of chunks, is not traced. -/
def finishTree (B R rate : Nat) (k : Stacks) (s : Blk St) : L (Blk Model.Shake.St × Blk Model.Shake.St) := do
  let b ← readBytes s.m 0 s.pos
  let child ← Shake.update R rate (k 0 0) b s.h.child
  let r ← Shake.squeeze R rate (k 1 0) (B / 4) child
  let main ← Shake.update R rate (k 2 0) r.1 s.h.main
  let main := Model.Shake.setSuffix 0x06 main
  let main ← Shake.update R rate (k 3 0) (Model.Shake.rightEncode s.h.chunk true) main
  let main ← Shake.update R rate (k 4 0) [0xff, 0xff] main
  pure (main, r.2)

/-- k12m14_provider.hpp 70-89: the end of the message. -/
def finish (B R rate : Nat) (k : Stacks) (s : Blk St) : L (Blk Model.Shake.St × Blk Model.Shake.St) := do
  if ← branch (s.pos ≠ 0) then
    if ← branch (s.h.chunk = 0) then finishSingle R rate k s else finishTree B R rate k s
  else pure (Model.Shake.setSuffix 0x07 s.h.main, s.h.child)

/-- k12m14_provider.hpp 63-91: the part of `squeeze` that is done once. -/
def squeezeFirst (B R : Nat) (k : Nat → Nat → Nat → Stacks) (s : Blk St) : L (Blk St) := do
  if ← branch ((!s.h.squeezing) = true) then do
    let b := Model.Shake.rightEncode s.h.S.length true
    let s ← updateS B R (k 0) s
    let s ← update B R (k 1) b s
    let mc ← finish B R (Model.Shake.rateOf B) (k 2 0 0) s
    pure { s with h := { main := mc.1, child := mc.2, S := s.h.S, chunk := s.h.chunk, squeezing := true } }
  else pure s

/-- k12m14_provider.hpp 61-93: `squeeze`. -/
def squeeze (B R : Nat) (k : Nat → Nat → Nat → Stacks) (hs : Nat) (s : Blk St) : L (Bytes × Blk St) := do
  let s ← squeezeFirst B R k s
  let r ← Shake.squeeze R (Model.Shake.rateOf B) (k 3 0 0 0 0) hs s.h.main
  pure (r.1, { s with h := { main := r.2, child := s.h.child, S := s.h.S, chunk := s.h.chunk, squeezing := s.h.squeezing } })

end K12
end Digestpp.Model.Leak
