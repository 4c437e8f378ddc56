import Verif.Vocab

/-! How far differences spread: the number of bytes in which two states differ at the beginning of each round. -/

namespace Digestpp.Spec

/-- Byte number `i` of a word. -/
def byteAt (w : BitVec 64) (i : Nat) : Byte := (w >>> (8 * i)).setWidth 8

/-- The number of bytes in which two arrays of words differ. -/
def active (x y : List (BitVec 64)) : Nat :=
  ((List.range x.length).map fun j => (List.range 8).countP fun i => decide (byteAt (x.getD j 0) i ≠ byteAt (y.getD j 0) i)).sum

/-- The sum of a number that is defined for two states, over the states with which each of the rounds begins. -/
def along {X : Type} (count : X → X → Nat) : List (X → X) → X → X → Nat
  | [], _, _ => 0
  | f :: fs, x, y => count x y + along count fs (f x) (f y)

/-- The number of different bytes, added up over rounds. Every byte of the array goes through one S-box in a round, so this is the number of
S-boxes with different inputs ("active S-boxes"). -/
def activeIn : List (List (BitVec 64) → List (BitVec 64)) → List (BitVec 64) → List (BitVec 64) → Nat := along active

/-- What the wide trail strategy promises for `n` rounds if the mixing of columns has branch number `b`: `b²` for every four rounds, `b`
for two more, one for one more. -/
def wideTrail (b n : Nat) : Nat := b * b * (n / 4) + b * (n % 4 / 2) + n % 4 % 2

/-- Rounds, with round constants or keys of any value: whatever two different states of `R` words they start from, there are as many active
S-boxes as promised. -/
def WideTrail (b R : Nat) {κ : Type} (round : κ → List (BitVec 64) → List (BitVec 64)) : Prop :=
  ∀ (ks : List κ) (x y : List (BitVec 64)), x.length = R → y.length = R → x ≠ y →
    wideTrail b ks.length ≤ activeIn (ks.map round) x y

end Digestpp.Spec
