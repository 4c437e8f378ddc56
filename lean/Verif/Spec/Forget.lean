import Verif.Spec.Api

/-! Which calls of a history a `reset` keeps something of. -/

namespace Digestpp

/-- Calls that change the parameters: the setters, and `reset(true)`. -/
def HashOp.isConfig {P : Type} : HashOp P → Bool
  | .set _ => true
  | .reset b => b
  | _ => false

/-- Calls that change the parameters: the setters, and `reset(true)`. -/
def XofOp.isConfig {P : Type} : XofOp P → Bool
  | .set _ => true
  | .reset b => b
  | _ => false

end Digestpp
