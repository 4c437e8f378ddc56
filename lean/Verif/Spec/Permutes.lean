import Verif.Model.Basic

/-! Permutations of arrays of words, for C56. -/

namespace Digestpp.Spec

/-- `f` permutes the arrays of `n` words: it maps them to such arrays, different ones to different ones, and reaches all of them. -/
structure Permutes {w : Nat} (n : Nat) (f : List (BitVec w) → List (BitVec w)) : Prop where
  length : ∀ A, A.length = n → (f A).length = n
  inj : ∀ A B, A.length = n → B.length = n → f A = f B → A = B
  surj : ∀ B, B.length = n → ∃ A, A.length = n ∧ f A = B

/-- The piece of code `g` has no undefined behaviour on arrays of `n` words, and permutes them. -/
def Runs {w : Nat} (n : Nat) (g : List (BitVec w) → M (List (BitVec w))) : Prop :=
  ∃ f, Permutes n f ∧ ∀ A, A.length = n → g A = .ok (f A)

/-- The piece of code `g` feeds its argument, an array of `n` words, through a permutation and combines the result with the argument word by word: the shape
of Davies and Meyer (the argument is the chaining value, the block is fixed) and of Matyas, Meyer and Oseas (the other way round). -/
def FeedForward {w : Nat} (n : Nat) (op : BitVec w → BitVec w → BitVec w) (g : List (BitVec w) → M (List (BitVec w))) : Prop :=
  ∃ E, Permutes n E ∧ ∀ A, A.length = n → g A = .ok (List.zipWith op A (E A))

end Digestpp.Spec
