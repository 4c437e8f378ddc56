import Verif.Model.Leak.Groestl
import Verif.Model.Locals.Whirlpool
import Verif.Model.Whirlpool

/-! `transform` of algorithm/detail/whirlpool_provider.hpp with its local arrays. Traced; see `Model/Leak`. -/

namespace Digestpp.Model.Leak.Whirlpool
open Model.Whirlpool
open Locals.Whirlpool (Stack)

/-- whirlpool_provider.hpp 21-32: `G<a>`. -/
def G (a : Nat) (ll : List (BitVec 64)) : L (BitVec 64) :=
  cell whirlpool_T ll (a % 8) ((a - 1) % 8) ((a - 2) % 8) ((a - 3) % 8) ((a - 4) % 8) ((a - 5) % 8) ((a - 6) % 8) ((a - 7) % 8)

/-- whirlpool_provider.hpp 103-110. -/
def key (r : Nat) (K L : List (BitVec 64)) : Model.L (List (BitVec 64)) := do
  let g ← G (0 + 8) K
  let c ← rd whirlpool_RC r
  let L ← wr L 0 (g ^^^ c)
  let g ← G (1 + 8) K
  let L ← wr L 1 g
  let g ← G (2 + 8) K
  let L ← wr L 2 g
  let g ← G (3 + 8) K
  let L ← wr L 3 g
  let g ← G (4 + 8) K
  let L ← wr L 4 g
  let g ← G (5 + 8) K
  let L ← wr L 5 g
  let g ← G (6 + 8) K
  let L ← wr L 6 g
  let g ← G (7 + 8) K
  wr L 7 g

/-- whirlpool_provider.hpp 114-121. -/
def add (state L : List (BitVec 64)) : Model.L (List (BitVec 64)) := do
  let g ← G (0 + 8) state
  let L ← upd L 0 (· ^^^ g)
  let g ← G (1 + 8) state
  let L ← upd L 1 (· ^^^ g)
  let g ← G (2 + 8) state
  let L ← upd L 2 (· ^^^ g)
  let g ← G (3 + 8) state
  let L ← upd L 3 (· ^^^ g)
  let g ← G (4 + 8) state
  let L ← upd L 4 (· ^^^ g)
  let g ← G (5 + 8) state
  let L ← upd L 5 (· ^^^ g)
  let g ← G (6 + 8) state
  let L ← upd L 6 (· ^^^ g)
  let g ← G (7 + 8) state
  upd L 7 (· ^^^ g)

/-- whirlpool_provider.hpp 101-123: a round, on the pair `K`, `state`. -/
def round (L : Nat → List (BitVec 64)) (r : Nat) (ks : List (BitVec 64) × List (BitVec 64)) : Model.L (List (BitVec 64) × List (BitVec 64)) := do
  let L ← key r ks.1 (L r)
  let K ← copyN ks.1 L 8
  let L ← add ks.2 L
  let state ← copyN ks.2 L 8
  pure (K, state)

/-- whirlpool_provider.hpp 93-127: one iteration of the loop in `transform`; `mp` is the range that starts at the pointer. -/
def block (k : Stack) (mp : Bytes) (h : List (BitVec 64)) : Model.L (List (BitVec 64)) := do
  let K ← copyN k.K h 8
  let state ← loop 0 8 (fun i state => do
    let x ← rd h i
    let y ← rd64 mp i
    wr state i (x ^^^ y)) k.state
  let ks ← loop 0 10 (round k.L) (K, state)
  loop 0 8 (fun i h => do
    let x ← rd ks.2 i
    let y ← rd64 mp i
    upd h i (· ^^^ (x ^^^ y))) h

/-- whirlpool_provider.hpp 89-130: `transform`; at iteration `b` the pointer `mp` has been moved by `64 * b`. -/
def transform (k : Nat → Stack) (data : Bytes) (n : Nat) (s : Blk (List (BitVec 64))) : L (Blk (List (BitVec 64))) := do
  let h ← loop 0 n (fun b h => block (k b) (data.drop (b * 64)) h) s.h
  pure { s with h := h }

end Digestpp.Model.Leak.Whirlpool
