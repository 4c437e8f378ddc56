import Verif.Vocab

/-! C63: what README.md, section "Thread Safety" (lines 297-303), promises. A thread makes calls on objects; `Op o` are the calls there are for the object `o`, `S o` is what it
contains. -/

namespace Digestpp.Spec.Threads

variable {ι : Type} [DecidableEq ι] {S Op : ι → Type}

/-- The contents of all objects, with those of `o` replaced. -/
def put (o : ι) (s : S o) (m : ∀ o, S o) : ∀ o, S o := fun o' => if h : o' = o then h ▸ s else m o'

/-- The calls of one thread, one after the other, no other thread being there: what it sees, and the objects afterwards. `none` if a call has no defined result. -/
def alone (step : (o : ι) → Op o → S o → Option (Obs × S o)) : List (Sigma Op) → (∀ o, S o) → Option (List Obs × ∀ o, S o)
  | [], m => some ([], m)
  | c :: cs, m =>
    match step c.1 c.2 (m c.1) with
    | none => none
    | some (r, s) =>
      match alone step cs (put c.1 s m) with
      | none => none
      | some (rs, m) => some (r :: rs, m)

/-- The thread calls a member function of `o`. -/
def Uses (prog : List (Sigma Op)) (o : ι) : Prop := ∃ c ∈ prog, c.1 = o

/-- The thread calls a member function of `o` that is not `const`. -/
def Modifies (const : (o : ι) → Op o → Bool) (prog : List (Sigma Op)) (o : ι) : Prop := ∃ c ∈ prog, c.1 = o ∧ const c.1 c.2 = false

/-- The conditions of README.md: an object that one thread modifies is not used by another. Objects of which only `const` functions are called may be shared. -/
def Disciplined {τ : Type} (const : (o : ι) → Op o → Bool) (prog : τ → List (Sigma Op)) : Prop :=
  ∀ t u, t ≠ u → ∀ o, Modifies const (prog t) o → ¬ Uses (prog u) o

end Digestpp.Spec.Threads
