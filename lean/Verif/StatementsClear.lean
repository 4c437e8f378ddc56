import Verif.Model.Hasher
import Verif.Spec.Clear

/-! Conformance as in `Statements`, for classes whose `reset(true)` maps the parameters by `clr` instead of giving the default value. -/

namespace Digestpp
open Model Spec

/-- As `HashConforms`, with `reset(true)` (hasher.hpp 385-390) mapping the parameters by `clr`. -/
def HashConformsClr (c : HashClass) {Θ : Type} (f : HashFn c.P Θ) (clr : Θ → Θ) (cov : Cover c.P Θ) : Prop :=
  ∀ mem, c.Mem mem → ∃ s, c.construct mem = .ok (some s) ∧
    ∀ ops, f.CoveredClr clr cov ops f.new → ∃ s', c.pr.run ops s = .ok ((f.runClr clr ops f.new).1, s')

/-- As `XofConforms`, with `reset(true)` (hasher.hpp 385-390) mapping the parameters by `clr`. -/
def XofConformsClr (c : XofClass) {Θ : Type} (f : XofFn c.P Θ) (clr : Θ → Θ) (cov : Cover c.P Θ) : Prop :=
  ∀ mem, c.Mem mem → ∃ s, c.construct mem = .ok (some s) ∧
    ∀ ops, f.CoveredClr clr cov ops f.new → ∃ s', c.pr.run ops s = .ok ((f.runClr clr ops f.new).1, s')

end Digestpp
