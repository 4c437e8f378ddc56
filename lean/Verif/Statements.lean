import Verif.Model.Hasher
import Verif.Spec.Api

/-! What it means that a class of the library conforms to a standard: whatever was in memory before construction, the constructor
succeeds, and every covered history of calls runs without undefined behaviour and shows the caller exactly what the standard's
function prescribes. -/

namespace Digestpp
open Model Spec

/-- Conformance of a hash function class (hasher.hpp) to `f`, for the histories `cov` covers. -/
def HashConforms (c : HashClass) {Θ : Type} (f : HashFn c.P Θ) (cov : Cover c.P Θ) : Prop :=
  ∀ mem, c.Mem mem → ∃ s, c.construct mem = .ok (some s) ∧
    ∀ ops, f.Covered cov ops f.new → ∃ s', c.pr.run ops s = .ok ((f.run ops f.new).1, s')

/-- Conformance of an extendable output class (hasher.hpp) to `f`, for the histories `cov` covers. -/
def XofConforms (c : XofClass) {Θ : Type} (f : XofFn c.P Θ) (cov : Cover c.P Θ) : Prop :=
  ∀ mem, c.Mem mem → ∃ s, c.construct mem = .ok (some s) ∧
    ∀ ops, f.Covered cov ops f.new → ∃ s', c.pr.run ops s = .ok ((f.run ops f.new).1, s')

end Digestpp
