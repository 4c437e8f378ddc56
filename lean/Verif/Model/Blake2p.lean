import Verif.Model.Blake2

/-! Model of algorithm/detail/blake2p_provider.hpp, for the only kind that algorithm/blake2.hpp uses, `blake2_type::hash`. (So `squeeze` and
the member `squeezing` have no effect and are left out.) -/

namespace Digestpp.Model.Blake2p
open Model.Blake2 (Word St)

variable {w : Nat}

/-- blake2p_provider.hpp 178: `P`. -/
def leaves (w : Nat) : Nat := if w = 64 then 4 else 8

/-- blake2p_provider.hpp 179-180, 184: the members other than the block buffer, `pos`, `total`. -/
structure PSt (w : Nat) where
  main : Blk (St w)
  leaf : List (Blk (St w))
  hs : Nat

/-- `for (size_t p = 0; p < P; p++)`, where iteration `p` deals with `leaf[p]` only. -/
def forLeaves {α : Type} (f : Nat → α → M α) : Nat → List α → M (List α)
  | _, [] => pure []
  | i, a :: l => do
    let a ← f i a
    let l ← forLeaves f (i + 1) l
    pure (a :: l)

/-- blake2_provider.hpp 230-235: `set_blake2p_params`. -/
def setTree (fanout nodedepth nodeoffset : BitVec 8) (s : Blk (St w)) : Blk (St w) :=
  { s with h := { s.h with fanout := fanout, nodedepth := nodedepth, nodeoffset := nodeoffset } }

/-- blake2p_provider.hpp 69-80: `init`. -/
def init (T : Word w) (s : Blk (PSt w)) : M (Blk (PSt w)) := do
  let main ← Blake2.init T .hash s.h.main
  let leaf ← forLeaves (fun _ l => Blake2.init T .hash l) 0 s.h.leaf
  pure { s with pos := 0, total := 0, h := { s.h with main := main, leaf := leaf } }

/-- blake2p_provider.hpp 170-173: what `transform` does for leaf `i`. -/
def leafBlocks (T : Word w) (data : Bytes) (n i : Nat) (l : Blk (St w)) : M (Blk (St w)) :=
  (List.range n).foldlM (fun l blk => do
    let b ← readBytes data (blk * 512 + i * (2 * w)) (2 * w)
    Blake2.update T b l) l

/-- blake2p_provider.hpp 163-175: `transform`. Iteration `i` of the parallel loop touches `leaf[i]` only; the iterations are run here one
after the other (see C42 for other orders). -/
def transform (T : Word w) (data : Bytes) (n : Nat) (s : Blk (PSt w)) : M (Blk (PSt w)) := do
  let leaf ← forLeaves (leafBlocks T data n) 0 s.h.leaf
  pure { s with h := { s.h with leaf := leaf } }

/-- blake2p_provider.hpp 82-86: `update`. -/
def update (T : Word w) (data : Bytes) (s : Blk (PSt w)) : M (Blk (PSt w)) := absorbBytes 512 512 (transform T) data s

/-- The loops in the setters, blake2p_provider.hpp 91-92, 98-99, 105-106; a leaf that throws ends the loop. -/
def setLeaves (T : Word w) (p : Blake2Param) : List (Blk (St w)) → M (Bool × List (Blk (St w)))
  | [] => pure (false, [])
  | l :: ls => do
    let (t, l) ← Blake2.set T p l
    if t then pure (true, l :: ls)
    else do
      let (t, ls) ← setLeaves T p ls
      pure (t, l :: ls)

/-- blake2p_provider.hpp 88-107: the setters. -/
def set (T : Word w) (p : Blake2Param) (s : Blk (PSt w)) : M (Bool × Blk (PSt w)) := do
  let (t, main) ← Blake2.set T p s.h.main
  if t then pure (true, { s with h := { s.h with main := main } })
  else do
    let (t, leaf) ← setLeaves T p s.h.leaf
    pure (t, { s with h := { s.h with main := main, leaf := leaf } })

/-- blake2p_provider.hpp 150-156: the part of the last, incomplete group of blocks for leaf `i`. -/
def leafRest (T : Word w) (m : Bytes) (pos i : Nat) (l : Blk (St w)) : M (Blk (St w)) :=
  if pos > i * (2 * w) then do
    let len := if pos < i * (2 * w) + 2 * w then pos - i * (2 * w) else 2 * w
    let b ← readBytes m (i * (2 * w)) len
    Blake2.update T b l
  else pure l

/-- blake2p_provider.hpp 148-160: the loop in `finalize`, giving `main`. -/
def finLeaves (T : Word w) (m : Bytes) (pos : Nat) : Nat → List (Blk (St w)) → Blk (St w) → M (Blk (St w))
  | _, [], main => pure main
  | i, l :: ls, main => do
    let l ← leafRest T m pos i l
    let buf ← Blake2.final T .hash (8 * w) l
    let main ← Blake2.update T buf main
    finLeaves T m pos (i + 1) ls main

/-- blake2p_provider.hpp 144-161: `finalize`. -/
def finalize (T : Word w) (s : Blk (PSt w)) : M (Blk (St w)) := do
  let m ← zeroRest 512 s.m s.pos
  finLeaves T m s.pos 0 s.h.leaf s.h.main

/-- blake2p_provider.hpp 120-130: `final`. -/
def final (T : Word w) (s : Blk (PSt w)) : M Bytes := do
  let main ← finalize T { s with total := s.total + BitVec.ofNat 64 (s.pos * 8) }
  Blake2.final T .hash 0 main

/-- blake2p_provider.hpp 132-138: `clear`. -/
def clear (s : Blk (PSt w)) : M (Blk (PSt w)) := do
  let main ← Blake2.clear s.h.main
  let leaf ← forLeaves (fun _ l => Blake2.clear l) 0 s.h.leaf
  pure { s with m := zeroBytes s.m, h := { s.h with main := main, leaf := leaf } }

/-- blake2p_provider.hpp 22-186: the class. -/
def provider (T : Word w) : HashProvider (Blk (PSt w)) Blake2Param where
  init := init T
  update := update T
  final := final T
  clear := clear
  hashSize := fun s => s.h.hs
  set := set T

/-- blake2p_provider.hpp 27-45, 47-62: what the constructors set. -/
def fields (hs : Nat) (mem : Blk (PSt w)) : M (Blk (PSt w)) := do
  let P := BitVec.ofNat 8 (leaves w)
  let leaf ← forLeaves (fun p l => pure (setTree P 0 (BitVec.ofNat 8 p) (Blake2.fields hs l))) 0 mem.h.leaf
  pure { mem with h := ⟨setTree P 1 0 (Blake2.fields hs mem.h.main), leaf, hs⟩ }

/-- blake2p_provider.hpp 27-45: the constructor taking a size. `main(hashsize)` throws first; the sizes accepted are the same. -/
def new (hashsize : Nat) (mem : Blk (PSt w)) : M (Option (Blk (PSt w))) :=
  if validateMax hashsize (8 * w) then do
    let s ← fields hashsize mem
    pure (some s)
  else pure none

/-- The array members have their sizes (blake2p_provider.hpp 180-181). -/
def Mem (s : Blk (PSt w)) : Prop :=
  s.m.length = 512 ∧ Blake2.Mem s.h.main ∧ s.h.leaf.length = leaves w ∧ ∀ l ∈ s.h.leaf, Blake2.Mem l

/-- algorithm/blake2.hpp: `blake2bp(n)`, `blake2sp(n)`. -/
def blake2p (T : Word w) (hashsize : Nat) : HashClass where
  S := _
  P := _
  pr := provider T
  Mem := Mem
  ctor := new hashsize

/-- algorithm/blake2.hpp: `static_size::blake2bp<n>`, `static_size::blake2sp<n>`. -/
def blake2pStatic (T : Word w) (n : Nat) : HashClass where
  S := _
  P := _
  pr := provider T
  Mem := Mem
  ctor := fun s => do
    let s ← fields n s
    pure (some s)

/-! blake2p_provider.hpp 165-167: with OpenMP, the iterations of the loop in `transform` run in parallel. -/

/-- Runs one step of component `i` for every `i` in the schedule, in this order: the next of the steps `f i 0`, `f i 1`, ... that
component `i` has not done yet. A component is its number of steps done, and its state. -/
def runSchedule {α : Type} (f : Nat → Nat → α → M α) : List Nat → List (Nat × α) → M (List (Nat × α))
  | [], st => pure st
  | i :: sched, st =>
    match st[i]? with
    | none => .error .outOfBounds
    | some (c, a) => do
      let a ← f i c a
      runSchedule f sched (st.set i (c + 1, a))

/-- blake2p_provider.hpp 172: what iteration `blk` of the inner loop does in iteration `i` of the outer loop. -/
def leafBlock (T : Word w) (data : Bytes) (i blk : Nat) (l : Blk (St w)) : M (Blk (St w)) := do
  let b ← readBytes data (blk * 512 + i * (2 * w)) (2 * w)
  Blake2.update T b l

/-- blake2p_provider.hpp 163-175: `transform` with the updates of the leaves in the order given by a schedule. -/
def transformSchedule (T : Word w) (sched : List Nat) (data : Bytes) (s : Blk (PSt w)) : M (Blk (PSt w)) := do
  let st ← runSchedule (leafBlock T data) sched (s.h.leaf.map fun l => (0, l))
  pure { s with h := { s.h with leaf := st.map Prod.snd } }

/-- The class (blake2p_provider.hpp 21-186) with a scheduler that looks at the object and at the arguments. -/
def providerSchedule (T : Word w) (scheduler : Bytes → Nat → Blk (PSt w) → List Nat) : HashProvider (Blk (PSt w)) Blake2Param :=
  { provider T with update := absorbBytes 512 512 fun data n s => transformSchedule T (scheduler data n s) data s }

/-- `blake2bp(n)`, `blake2sp(n)` with a scheduler. -/
def blake2pSchedule (T : Word w) (scheduler : Bytes → Nat → Blk (PSt w) → List Nat) (hashsize : Nat) : HashClass where
  S := _
  P := _
  pr := providerSchedule T scheduler
  Mem := Mem
  ctor := new hashsize

end Digestpp.Model.Blake2p
