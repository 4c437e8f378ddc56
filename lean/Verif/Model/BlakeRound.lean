import Verif.Model.Functions

/-! The round structure the BLAKE and BLAKE2 providers share. -/

namespace Digestpp.Model.Blake

/-- The four words the reference parameters `a`, `b`, `c`, `d` of `G` stand for (blake_provider.hpp 22, 36; blake2_provider.hpp 23, 35). -/
structure Quad (w : Nat) where
  a : BitVec w
  b : BitVec w
  c : BitVec w
  d : BitVec w

/-- The call `G(r, i, v[ia], v[ib], v[ic], v[id], M)` (blake_provider.hpp 53-60; blake2_provider.hpp 50-57), where `g` is the effect of `G` on the words. -/
def atQuad {w : Nat} (g : Quad w → Quad w) (ia ib ic id : Nat) (v : List (BitVec w)) : List (BitVec w) :=
  let q := g ⟨v.getD ia 0, v.getD ib 0, v.getD ic 0, v.getD id 0⟩
  (((v.set ia q.a).set ib q.b).set ic q.c).set id q.d

/-- blake_provider.hpp 50-61, blake2_provider.hpp 49-60: `round(r, M, v)`; `g i` is the effect of `G` with second argument `i`. -/
def round {w : Nat} (g : Nat → Quad w → Quad w) (v : List (BitVec w)) : List (BitVec w) :=
  let v := atQuad (g 0) 0 4 8 12 v
  let v := atQuad (g 1) 1 5 9 13 v
  let v := atQuad (g 2) 2 6 10 14 v
  let v := atQuad (g 3) 3 7 11 15 v
  let v := atQuad (g 4) 0 5 10 15 v
  let v := atQuad (g 5) 1 6 11 12 v
  let v := atQuad (g 6) 2 7 8 13 v
  atQuad (g 7) 3 4 9 14 v

end Digestpp.Model.Blake
