import Verif.Model.Arrays
import Verif.Model.Sha2

/-! `transform` of algorithm/detail/sha2_provider.hpp with its local arrays. -/

namespace Digestpp.Model.Locals.Sha2
open Model.Sha2

/-- sha2_provider.hpp 221, 226: the local arrays `M` and `W`, uninitialized. -/
structure Stack (w : Nat) where
  M : List (BitVec w)
  W : List (BitVec w)

/-- sha2_provider.hpp 221, 225-226: their declared sizes. -/
def Stack.Sized {w : Nat} (T : Word w) (k : Stack w) : Prop := k.M.length = 16 ∧ k.W.length = T.rounds

/-- sha2_provider.hpp 222-223: the loop filling `M`. `ld` is the access to `reinterpret_cast<const T*>(data)`. -/
def loadM {w : Nat} (T : Word w) (ld : Bytes → Nat → M (BitVec w)) (data : Bytes) (blk : Nat) (Mw : List (BitVec w)) : M (List (BitVec w)) :=
  loop 0 16 (fun i Mw => do
    let x ← ld data (blk * 16 + i)
    wr Mw i (T.byteswap x)) Mw

/-- sha2_provider.hpp 227-228. -/
def copyW {w : Nat} (Mw W : List (BitVec w)) : M (List (BitVec w)) :=
  loop 0 16 (fun t W => do
    let x ← rd Mw t
    wr W t x) W

/-- sha2_provider.hpp 229-230. -/
def expandW {w : Nat} (T : Word w) (W : List (BitVec w)) : M (List (BitVec w)) :=
  loop 16 T.rounds (fun t W => do
    let x2 ← rd W (t - 2)
    let x7 ← rd W (t - 7)
    let x15 ← rd W (t - 15)
    let x16 ← rd W (t - 16)
    wr W t (T.sigma1 x2 + x7 + T.sigma0 x15 + x16)) W

/-- sha2_provider.hpp 243-252. -/
def round {w : Nat} (T : Word w) (W : List (BitVec w)) (t : Nat) (v : Vars w) : M (Vars w) := do
  let k ← rd T.K t
  let x ← rd W t
  let T1 := v.h + T.sum1 v.e + Ch v.e v.f v.g + k + x
  let T2 := T.sum0 v.a + Maj v.a v.b v.c
  pure { h := v.g, g := v.f, f := v.e, e := v.d + T1, d := v.c, c := v.b, b := v.a, a := T1 + T2 }

/-- sha2_provider.hpp 232-239. -/
def vars {w : Nat} (H : List (BitVec w)) : M (Vars w) := do
  let a ← rd H 0
  let b ← rd H 1
  let c ← rd H 2
  let d ← rd H 3
  let e ← rd H 4
  let f ← rd H 5
  let g ← rd H 6
  let h ← rd H 7
  pure ⟨a, b, c, d, e, f, g, h⟩

/-- sha2_provider.hpp 255-262. -/
def add {w : Nat} (v : Vars w) (H : List (BitVec w)) : M (List (BitVec w)) := do
  let H ← upd H 0 (· + v.a)
  let H ← upd H 1 (· + v.b)
  let H ← upd H 2 (· + v.c)
  let H ← upd H 3 (· + v.d)
  let H ← upd H 4 (· + v.e)
  let H ← upd H 5 (· + v.f)
  let H ← upd H 6 (· + v.g)
  upd H 7 (· + v.h)

/-- sha2_provider.hpp 221-262: one iteration. -/
def block {w : Nat} (T : Word w) (ld : Bytes → Nat → M (BitVec w)) (k : Stack w) (data : Bytes) (blk : Nat) (h : St w) : M (St w) := do
  let Mw ← loadM T ld data blk k.M
  let W ← copyW Mw k.W
  let W ← expandW T W
  let v ← vars h.H
  let v ← loop 0 T.rounds (round T W) v
  let H ← add v h.H
  pure { h with H := H }

/-- sha2_provider.hpp 217-265: `transform`. What is on the stack may be different in each iteration. -/
def transform {w : Nat} (T : Word w) (ld : Bytes → Nat → M (BitVec w)) (k : Nat → Stack w) (data : Bytes) (n : Nat) (s : Blk (St w)) : M (Blk (St w)) := do
  let h ← loop 0 n (fun blk h => block T ld (k blk) data blk h) s.h
  pure { s with h := h }

end Digestpp.Model.Locals.Sha2
