import Verif.Model.Functions

/-! Arrays with checked indices, for the bodies of the transformation functions (C58). The other parts of the model use total functions on lists there. -/

namespace Digestpp.Model

/-- `a[i]` as a value, e.g. `W[t - 16]` in sha2_provider.hpp 230: undefined unless `i` is below the declared size of the array. -/
def rd {α : Type} (a : List α) (i : Nat) : M α :=
  match a[i]? with
  | some x => .ok x
  | none => .error .outOfBounds

/-- `a[i] = x`, e.g. `W[t] = M[t]` in sha2_provider.hpp 228. -/
def wr {α : Type} (a : List α) (i : Nat) (x : α) : M (List α) :=
  if i < a.length then .ok (a.set i x) else .error .outOfBounds

/-- `a[i] op= …`, e.g. `H[0] += a` in sha2_provider.hpp 255. -/
def upd {α : Type} (a : List α) (i : Nat) (f : α → α) : M (List α) := do
  let x ← rd a i
  wr a i (f x)

/-- `reinterpret_cast<const uint32_t*>(p)[i]`, e.g. sha1_provider.hpp 102. -/
def rd32 (p : Bytes) (i : Nat) : M (BitVec 32) := do
  let b ← readBytes p (4 * i) 4
  pure (le32 b)

/-- `reinterpret_cast<const uint64_t*>(p)[i]`, e.g. whirlpool_provider.hpp 97. -/
def rd64 (p : Bytes) (i : Nat) : M (BitVec 64) := do
  let b ← readBytes p (8 * i) 8
  pure (le64 b)

/-- `for (int t = lo; t < hi; t++) body`, e.g. sha2_provider.hpp 229. -/
def loop {σ : Type} (lo hi : Nat) (body : Nat → σ → M σ) (s : σ) : M σ :=
  (List.range' lo (hi - lo)).foldlM (fun s t => body t s) s

/-- `for (int c = n - 1; c >= 0; c--) body`, e.g. groestl_provider.hpp 28. -/
def loopDown {σ : Type} (n : Nat) (body : Nat → σ → M σ) (s : σ) : M σ :=
  (List.range n).reverse.foldlM (fun s t => body t s) s

/-- `memcpy(dst, src, n * sizeof(dst[0]))` between arrays of the same type, e.g. whirlpool_provider.hpp 112. -/
def copyN {α : Type} (dst src : List α) (n : Nat) : M (List α) :=
  if n ≤ dst.length ∧ n ≤ src.length then .ok (src.take n ++ dst.drop n) else .error .outOfBounds

end Digestpp.Model
