/-! What someone who watches memory accesses and branches sees of a computation (C66). -/

namespace Digestpp

/-- An observable event. Which array is meant is clear from the position in the program. -/
inductive Ev where
  /-- an element with this index is read -/
  | read (i : Nat)
  /-- an element with this index is written -/
  | write (i : Nat)
  /-- so many bytes at this offset are read -/
  | load (off n : Nat)
  /-- so many bytes at this offset are written -/
  | store (off n : Nat)
  /-- a loop from `lo` to `hi` begins -/
  | loop (lo hi : Nat)
  /-- a branch on a condition -/
  | branch (b : Bool)
  /-- a shift or rotation by a count that is not a constant of the program -/
  | shift (n : Nat)
  deriving DecidableEq

end Digestpp
