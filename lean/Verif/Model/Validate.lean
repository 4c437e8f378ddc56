import Verif.Vocab

/-! Model of detail/validate_hash_size.hpp. -/

namespace Digestpp.Model

/-- detail/validate_hash_size.hpp 14-23: `validate_hash_size(hs, {…})`; true if it returns, false if it throws.
`std::find` returns a pointer into the backing array of the `initializer_list`, or its past-the-end pointer; used as a condition,
either is true because neither is null (all call sites pass non-empty lists). -/
def validateList (hs : Nat) (_set : List Nat) : Bool :=
  if hs = 0 then false else true

/-- detail/validate_hash_size.hpp 26-36: `validate_hash_size(hs, max)`. -/
def validateMax (hs max : Nat) : Bool :=
  if hs = 0 then false else if hs % 8 ≠ 0 then false else if hs > max then false else true

end Digestpp.Model
