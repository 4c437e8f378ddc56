import Verif.Model.Hasher

/-!
# Several threads

Calls of member functions of hasher.hpp by threads that are interleaved in any order. A call is not one step: the members of the object are read and
written one after the other, and other threads may run in between.
-/

namespace Digestpp.Model.Threads

/-- A class as threads see it: contents of an object, member functions, their effect, and which of them are declared `const`. Made from the classes of the model by
`ofHash` and `ofXof` below (hasher.hpp 86-390). -/
structure Kind where
  S : Type
  Op : Type
  step : Op → S → M (Obs × S)
  const : Op → Bool

/-- hasher.hpp 324, 349, 372: of the member functions of a hash function class, the two `digest` and `hexdigest` are `const`. -/
def hashConst {P : Type} : HashOp P → Bool
  | .digestBuf _ | .digest | .hexdigest => true
  | .absorb _ | .reset _ | .set _ => false

/-- hasher.hpp 36-390 with a hash function provider. -/
def ofHash (c : HashClass) : Kind := ⟨c.S, HashOp c.P, c.pr.step, hashConst⟩

/-- hasher.hpp 36-390 with an XOF provider: no member function is `const`. -/
def ofXof (c : XofClass) : Kind := ⟨c.S, XofOp c.P, c.pr.step, fun _ => false⟩

/-- How the calls access the object (hasher.hpp 86-390, and in `digest`, lines 326-330 and 351-354, the implicit copy constructor of the provider, which copies member by member).
`reads op`: the accesses of a call that read, in order; each copies a part of the object (first argument) into memory of the calling thread (second
argument). `writes op s`: the accesses that write, if the object contained `s` when the call began; each changes a part of the object. How large a part is, in
which order they come, how often the same part is read or written: all this is left open; required is only that everything is read and that
the writes together have the effect of the call. Simplified: the reads come before the writes. -/
structure Impl (k : Kind) where
  reads : k.Op → List (k.S → k.S → k.S)
  writes : k.Op → k.S → List (k.S → k.S)
  reads_all : ∀ op s d, (reads op).foldl (fun d r => r s d) d = s
  writes_all : ∀ op s o s', k.step op s = .ok (o, s') → k.const op = false → (writes op s).foldl (fun d w => w d) s = s'

/-- The accesses of a class whose members are copied by `parts` (e.g. the members of md5_provider.hpp, lines 188-191): every call reads each member once, a call that is not
`const` writes each member once. -/
def Impl.plain (k : Kind) (parts : List (k.S → k.S → k.S)) (all : ∀ s d, parts.foldl (fun d p => p s d) d = s) : Impl k where
  reads _ := parts
  writes op s :=
    match k.step op s with
    | .ok (_, s') => parts.map fun p => p s'
    | .error _ => []
  reads_all _ := all
  writes_all op s o s' h _ := by
    rw [h]
    show (parts.map fun p => p s').foldl (fun d w => w d) s = s'
    rw [List.foldl_map]
    exact all s' s

variable {ι : Type} {K : ι → Kind}

/-- Where a thread is within a call of a function of hasher.hpp 86-390. -/
inductive Phase (K : ι → Kind) where
  /-- between calls -/
  | idle
  /-- accesses left to do, and what has been read so far (in `digest`: the object `copy` of lines 329, 351) -/
  | reading (o : ι) (op : (K o).Op) (todo : List ((K o).S → (K o).S → (K o).S)) (img : (K o).S)
  /-- accesses left to do, and what the call is going to return -/
  | writing (o : ι) (todo : List ((K o).S → (K o).S)) (r : Obs)
  /-- undefined behaviour -/
  | undefined

/-- A thread making calls of functions of hasher.hpp 86-390: the calls still to make, where it is in the current one, what it has seen. -/
structure Thread (K : ι → Kind) where
  calls : List (Sigma fun o => (K o).Op)
  phase : Phase K
  seen : List Obs

/-- The objects, and the threads using them (not in the code; README.md 297-303). -/
structure Config (K : ι → Kind) (τ : Type) where
  mem : ∀ o, (K o).S
  thread : τ → Thread K

/-- Replaces the contents of object `o` (a write to a member of the object, hasher.hpp 394 `provider`). -/
def write [DecidableEq ι] (o : ι) (s : (K o).S) (m : ∀ o, (K o).S) : ∀ o, (K o).S := fun o' => if h : o' = o then h ▸ s else m o'

/-- One access, or one step that accesses no object, by a thread making calls of functions of hasher.hpp 86-390. `stack` is what is in the memory of the thread into which
`digest` copies the object. -/
def tick [DecidableEq ι] (I : (o : ι) → Impl (K o)) (stack : ∀ o, (K o).S) (m : ∀ o, (K o).S) (t : Thread K) : (∀ o, (K o).S) × Thread K :=
  match t.phase with
  | .idle =>
    match t.calls with
    | [] => (m, t)
    | c :: cs => (m, { t with calls := cs, phase := .reading c.1 c.2 ((I c.1).reads c.2) (stack c.1) })
  | .reading o op (r :: rs) img => (m, { t with phase := .reading o op rs (r (m o) img) })
  | .reading o op [] img =>
    match (K o).step op img with
    | .error _ => (m, { t with phase := .undefined })
    | .ok (r, _) =>
      if (K o).const op then (m, { t with phase := .idle, seen := t.seen ++ [r] })
      else (m, { t with phase := .writing o ((I o).writes op img) r })
  | .writing o (w :: ws) r => (write o (w (m o)) m, { t with phase := .writing o ws r })
  | .writing _ [] r => (m, { t with phase := .idle, seen := t.seen ++ [r] })
  | .undefined => (m, t)

/-- Thread `u` makes a step (README.md 297-303: threads run simultaneously). -/
def Config.step {τ : Type} [DecidableEq ι] [DecidableEq τ] (I : (o : ι) → Impl (K o)) (stack : τ → ∀ o, (K o).S) (c : Config K τ) (u : τ) : Config K τ :=
  let r := tick I (stack u) c.mem (c.thread u)
  ⟨r.1, fun t => if t = u then r.2 else c.thread t⟩

/-- The threads make steps in the order of `sched` (README.md 297-303). -/
def Config.run {τ : Type} [DecidableEq ι] [DecidableEq τ] (I : (o : ι) → Impl (K o)) (stack : τ → ∀ o, (K o).S) (sched : List τ) (c : Config K τ) : Config K τ :=
  sched.foldl (Config.step I stack) c

/-- Before the first call. (not in the code) -/
def Config.start {τ : Type} (m : ∀ o, (K o).S) (prog : τ → List (Sigma fun o => (K o).Op)) : Config K τ := ⟨m, fun t => ⟨prog t, .idle, []⟩⟩

/-- All calls have returned (hasher.hpp 86-390). -/
def Thread.Finished (t : Thread K) : Prop := t.phase = .idle ∧ t.calls = []

/-- The next step reads the object (hasher.hpp 326-330, 351-354 for `const` calls). -/
def Thread.Reads (t : Thread K) (o : ι) : Prop := ∃ op r rs img, t.phase = .reading o op (r :: rs) img

/-- The next step writes the object (hasher.hpp 394 `provider`). -/
def Thread.Writes (t : Thread K) (o : ι) : Prop := ∃ w ws r, t.phase = .writing o (w :: ws) r

/-- A data race (C++11, 1.10 [intro.multithread] 21; README.md 297-303): two threads are about to access the same object, and one of them to write it. -/
def Config.Race {τ : Type} (c : Config K τ) : Prop := ∃ t u o, t ≠ u ∧ (c.thread t).Writes o ∧ ((c.thread u).Writes o ∨ (c.thread u).Reads o)

end Digestpp.Model.Threads
