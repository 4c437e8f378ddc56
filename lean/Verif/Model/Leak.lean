import Verif.LeakVocab
import Verif.Model.Arrays

/-!
# Computations that leave a trace

The operations of `Model/Arrays`, with a list of what someone sees who watches addresses and branches. `Model/Leak/*` are the bodies of
`Model/Locals/*` in terms of these operations, and with the conditions of all branches recorded. That nothing else has been changed is proved
(`erase`, `Proofs/Leak`).
-/

namespace Digestpp.Model

/-- A computation with its trace. Not in the code: the result type of the functions in `Model/Leak`. -/
def L (α : Type) : Type := M (α × List Ev)

namespace L

/-- Returning a value leaves no trace. (Not in the code.) -/
def pure {α : Type} (a : α) : L α := Except.ok (a, [])

/-- The trace of a sequence is the sequence of the traces. (Not in the code.) -/
def bind {α β : Type} (x : L α) (f : α → L β) : L β :=
  match x with
  | .error e => .error e
  | .ok (a, t) =>
    match f a with
    | .error e => .error e
    | .ok (b, u) => .ok (b, t ++ u)

instance : Monad L where
  pure := pure
  bind := bind

/-- An operation with its event. (Not in the code.) -/
def op {α : Type} (e : Ev) (x : M α) : L α :=
  match x with
  | .error e => .error e
  | .ok a => .ok (a, [e])

/-- The computation without its trace. (Not in the code.) -/
def erase {α : Type} (x : L α) : M α :=
  match x with
  | .error e => .error e
  | .ok (a, _) => .ok a

end L

namespace Leak

/-- `a[i]` as a value, as `Model.rd` (e.g. sha2_provider.hpp 230). -/
def rd {α : Type} (a : List α) (i : Nat) : L α := .op (.read i) (Model.rd a i)

/-- `a[i] = x`, as `Model.wr` (e.g. sha2_provider.hpp 228). -/
def wr {α : Type} (a : List α) (i : Nat) (x : α) : L (List α) := .op (.write i) (Model.wr a i x)

/-- `a[i] op= …`, as `Model.upd` (e.g. sha2_provider.hpp 255). -/
def upd {α : Type} (a : List α) (i : Nat) (f : α → α) : L (List α) := do
  let x ← rd a i
  wr a i (f x)

/-- Reading bytes, as `Model.readBytes` (e.g. lsh_provider.hpp 147). -/
def readBytes (p : Bytes) (off n : Nat) : L Bytes := .op (.load off n) (Model.readBytes p off n)

/-- Writing bytes, as `Model.memcpyTo` (e.g. echo_provider.hpp 262). -/
def memcpyTo (dst : Bytes) (off : Nat) (src : Bytes) : L Bytes := .op (.store off src.length) (Model.memcpyTo dst off src)

/-- `reinterpret_cast<const uint32_t*>(p)[i]`, as `Model.rd32` (e.g. sha1_provider.hpp 102). -/
def rd32 (p : Bytes) (i : Nat) : L (BitVec 32) := .op (.load (4 * i) 4) (Model.rd32 p i)

/-- `reinterpret_cast<const uint64_t*>(p)[i]`, as `Model.rd64` (e.g. whirlpool_provider.hpp 97). -/
def rd64 (p : Bytes) (i : Nat) : L (BitVec 64) := .op (.load (8 * i) 8) (Model.rd64 p i)

/-- `for (int t = lo; t < hi; t++) body`, as `Model.loop` (e.g. sha2_provider.hpp 229). -/
def loop {σ : Type} (lo hi : Nat) (body : Nat → σ → L σ) (s : σ) : L σ := do
  L.op (.loop lo hi) (Except.ok ())
  (List.range' lo (hi - lo)).foldlM (fun s t => body t s) s

/-- `for (int c = n - 1; c >= 0; c--) body`, as `Model.loopDown` (e.g. groestl_provider.hpp 28). -/
def loopDown {σ : Type} (n : Nat) (body : Nat → σ → L σ) (s : σ) : L σ := do
  L.op (.loop 0 n) (Except.ok ())
  (List.range n).reverse.foldlM (fun s t => body t s) s

/-- `memcpy(dst, src, n * sizeof(dst[0]))`, as `Model.copyN` (e.g. whirlpool_provider.hpp 112). -/
def copyN {α : Type} (dst src : List α) (n : Nat) : L (List α) := .op (.store 0 n) (Model.copyN dst src n)

/-- A branch on `c` (e.g. skein_provider.hpp 324-327). -/
def branch (c : Bool) : L Bool := .op (.branch c) (Except.ok c)

/-- `rotate_left(x, n)` with a count that is not a constant, where `rot` is its meaning (functions.hpp 67-70, 79-82). -/
def rotBy {w : Nat} (rot : BitVec w → Nat → M (BitVec w)) (x : BitVec w) (n : Nat) : L (BitVec w) := .op (.shift n) (rot x n)

end Leak
end Digestpp.Model
