import Verif.Vocab

/-! Cutting a byte string into blocks. -/

namespace Digestpp.Spec

/-- Block number `i` of length `n`. -/
def blockAt {α : Type} (n i : Nat) (l : List α) : List α := (l.drop (i * n)).take n

/-- The complete blocks of length `n` of a string. -/
def chunks {α : Type} (n : Nat) (l : List α) : List (List α) :=
  (List.range (l.length / n)).map fun i => blockAt n i l

/-- Iterate a compression function over the first `k` blocks, passing the block number. -/
def foldBlocks {σ : Type} (n : Nat) (step : Nat → Bytes → σ → σ) (msg : Bytes) (k : Nat) (h : σ) : σ :=
  (List.range k).foldl (fun h i => step i (blockAt n i msg) h) h

end Digestpp.Spec
