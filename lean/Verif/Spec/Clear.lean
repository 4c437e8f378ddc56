import Verif.Spec.Api
import Verif.Spec.Blake2

/-! Objects that keep something, or lose something else, in `reset(true)`: the parameters afterwards are a function `clr` of those before.
For the default value as constant function this is what `Spec.Api` has. -/

namespace Digestpp.Spec

namespace HashFn
variable {P Θ : Type} (f : HashFn P Θ) (clr : Θ → Θ)

/-- The effect of one call. -/
def stepClr : HashOp P → HashObj Θ → Obs × HashObj Θ
  | .reset true, o => (.done, ⟨clr o.params, []⟩)
  | op, o => f.step op o

/-- The effect of a history of calls. -/
def runClr : List (HashOp P) → HashObj Θ → List Obs × HashObj Θ
  | [], o => ([], o)
  | op :: ops, o =>
    let r := f.stepClr clr op o
    let rs := runClr ops r.2
    (r.1 :: rs.1, rs.2)

/-- Every call of the history is covered. -/
def CoveredClr (c : Cover P Θ) : List (HashOp P) → HashObj Θ → Prop
  | [], _ => True
  | op :: ops, o => c.hashOp op o ∧ CoveredClr c ops (f.stepClr clr op o).2

end HashFn

namespace XofFn
variable {P Θ : Type} (f : XofFn P Θ) (clr : Θ → Θ)

/-- The effect of one call. -/
def stepClr : XofOp P → XofObj Θ → Obs × XofObj Θ
  | .reset true, o => (.done, ⟨clr o.params, [], 0⟩)
  | op, o => f.step op o

/-- The effect of a history of calls. -/
def runClr : List (XofOp P) → XofObj Θ → List Obs × XofObj Θ
  | [], o => ([], o)
  | op :: ops, o =>
    let r := f.stepClr clr op o
    let rs := runClr ops r.2
    (r.1 :: rs.1, rs.2)

/-- Every call of the history is covered. -/
def CoveredClr (c : Cover P Θ) : List (XofOp P) → XofObj Θ → Prop
  | [], _ => True
  | op :: ops, o => c.xofOp op o ∧ CoveredClr c ops (f.stepClr clr op o).2

end XofFn

namespace Blake2
variable {w : Nat}

/-- BLAKE2bp and BLAKE2sp, with a flag among the parameters: whether all nodes have been given the parameters of sequential hashing.
If so, `main` takes the key too, and no node is a last one. No standard has this; it is what the objects of the library turn into. -/
def pfnClr (v : Variant w) (P : Nat) (keep : Bool) (n : Nat) : HashFn Blake2Param (Bool × Theta) where
  size := n
  dflt := (false, .none w)
  set := fun p x => (set w keep p x.2).map fun θ => (x.1, θ)
  digest := fun x msg =>
    match x with
    | (false, θ) => (pfn v P keep n).digest θ msg
    | (true, θ) =>
      let node := fun data => core v (seqParams θ n 0) false (keyed (2 * w) θ.key data)
      (node ((List.range P).flatMap fun i => node (stripe (2 * w) P i msg))).take n

/-- What `reset(true)` does to the parameters. -/
def pfnCleared (w : Nat) : Bool × Theta → Bool × Theta := fun _ => (true, .none w)

end Blake2
end Digestpp.Spec
