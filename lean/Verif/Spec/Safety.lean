import Verif.History

/-! What is required of the caller for memory safety (C38), and nothing more: in particular `absorb` may follow `squeeze`, messages and
outputs may have any length, and parameters may be reset at any time. -/

namespace Digestpp

/-- The argument is a valid memory object; setter arguments are shorter than `2^61` bytes. -/
def HashOp.Valid {P : Type} [Param P] : HashOp P → Prop
  | .absorb src => src.Valid
  | .set p => (Param.value p).length < 2 ^ 61
  | _ => True

/-- The argument is a valid memory object; setter arguments and outputs are shorter than `2^61` bytes. -/
def XofOp.Valid {P : Type} [Param P] : XofOp P → Prop
  | .absorb src => src.Valid
  | .squeezeBuf buf => buf.length < 2 ^ 61
  | .squeeze n | .hexsqueeze n => n < 2 ^ 61
  | .set p => (Param.value p).length < 2 ^ 61
  | _ => True

/-- The call makes the library use `&hash[0]` of an empty vector. -/
def XofOp.EmptyVector {P : Type} : XofOp P → Prop
  | .squeeze n | .hexsqueeze n => n = 0
  | _ => False

end Digestpp
