import Verif.Vocab

/-! When a sequence of `absorb` calls runs into undefined behaviour because of the pointers. -/

namespace Digestpp.Spec

/-- The block boundaries of the message are at multiples of `bs`. After `t` bytes the next one is this far away. -/
def toBoundary (bs t : Nat) : Nat := (bs - t % bs) % bs

/-- What can be wrong with a pointer: null, or not a multiple of the alignment. -/
inductive Fault where
  | null
  | misaligned
  deriving DecidableEq, Repr

/-- The fault of one call `absorb(p, l)` after `t` bytes, `none` being the null pointer. Whole blocks (with `z = 1`: those after which at least one byte more is there) are read in
place, as words of `w` bytes. -/
def fault (w bs z t : Nat) (p : Option Nat) (l : Nat) : Option Fault :=
  match p with
  | none => some .null
  | some a => if toBoundary bs t + bs + z ≤ l ∧ (a + toBoundary bs t) % w ≠ 0 then some .misaligned else none

/-- The first fault of a sequence of calls. -/
def faults (w bs z : Nat) : Nat → List (Option Nat × Nat) → Option Fault
  | _, [] => none
  | t, (p, l) :: rest => (fault w bs z t p l).or (faults w bs z (t + l) rest)

end Digestpp.Spec
