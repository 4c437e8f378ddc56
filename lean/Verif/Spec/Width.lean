import Verif.Spec.Api

/-! Calls that give a function at most so many bytes at once. -/

namespace Digestpp.Spec

/-- A pointer, an array or a string of fewer than `lim` bytes. Streams and iterator ranges may have any length: they are handed on in
pieces of at most 65536 bytes. -/
def SmallSource (lim : Nat) : Source → Prop
  | .ptr d => d.length < lim
  | .array d => d.length < lim
  | .str d => d.length < lim
  | .stream _ => True
  | .iter _ => True

/-- A call that absorbs fewer than `lim` bytes at once, or any other call. -/
def SmallOp {P : Type} (lim : Nat) : HashOp P → Prop
  | .absorb src => SmallSource lim src
  | _ => True

end Digestpp.Spec
