import Verif.Model.Arrays
import Verif.Model.Skein

/-! `transform` of algorithm/detail/skein_provider.hpp with its local arrays. -/

namespace Digestpp.Model.Locals.Skein
open Model.Skein

/-- skein_provider.hpp 30-32 (and likewise 33-35, 66-80, 115-141):
`G[I[r][2j]] += G[I[r][2j+1]]; G[I[r][2j+1]] = rotate_left(G[I[r][2j+1]], C[r][j]) ^ G[I[r][2j]]`. -/
def pair (F : Fns) (r j : Nat) (G : List (BitVec 64)) : M (List (BitVec 64)) := do
  let Ir ← rd F.I r
  let i0 ← rd Ir (2 * j)
  let i1 ← rd Ir (2 * j + 1)
  let x ← rd G i1
  let G ← upd G i0 (· + x)
  let Cr ← rd F.C r
  let c ← rd Cr j
  let y ← rd G i1
  let y ← rotlChecked y c
  let z ← rd G i0
  wr G i1 (y ^^^ z)

/-- skein_provider.hpp 28-36, 66-80, 115-141: `GTv4<r>`. -/
def GTv4 (F : Fns) (r : Nat) (G : List (BitVec 64)) : M (List (BitVec 64)) :=
  loop 0 (F.nw / 2) (fun j G => pair F r j G) G

/-- skein_provider.hpp 40-43 (and likewise 84-91, 145-160): the statement for `G[i]`. -/
def KSt (F : Fns) (r : Nat) (keys tweaks : List (BitVec 64)) (i : Nat) (G : List (BitVec 64)) : M (List (BitVec 64)) := do
  let k ← rd keys ((r + i + 1) % (F.nw + 1))
  if i = F.nw - 3 then
    let t ← rd tweaks ((r + 1) % 3)
    upd G i (· + (k + t))
  else if i = F.nw - 2 then
    let t ← rd tweaks ((r + 2) % 3)
    upd G i (· + (k + t))
  else if i = F.nw - 1 then upd G i (· + (k + BitVec.ofNat 64 r + 1))
  else upd G i (· + k)

/-- skein_provider.hpp 38-45, 82-93, 143-162: `KStRv4<r>`. -/
def KStRv4 (F : Fns) (r : Nat) (keys tweaks : List (BitVec 64)) (G : List (BitVec 64)) : M (List (BitVec 64)) :=
  loop 0 F.nw (fun i G => KSt F r keys tweaks i G) G

/-- skein_provider.hpp 47-60, 95-108, 164-177: `G8<r>`. -/
def G8 (F : Fns) (r : Nat) (keys tweaks : List (BitVec 64)) (G : List (BitVec 64)) : M (List (BitVec 64)) := do
  let G ← GTv4 F 0 G
  let G ← GTv4 F 1 G
  let G ← GTv4 F 2 G
  let G ← GTv4 F 3 G
  let G ← KStRv4 F r keys tweaks G
  let G ← GTv4 F 4 G
  let G ← GTv4 F 5 G
  let G ← GTv4 F 6 G
  let G ← GTv4 F 7 G
  KStRv4 F (r + 1) keys tweaks G

/-- skein_provider.hpp 322-323: the local arrays of the loop body. -/
structure Stack where
  M : List (BitVec 64)
  G : List (BitVec 64)

/-- skein_provider.hpp 322-323: their declared sizes. -/
def Stack.Sized (F : Fns) (k : Stack) : Prop := k.M.length = F.nw ∧ k.G.length = F.nw

/-- skein_provider.hpp 317-318, 380-387: the arrays declared before the loop and the members. -/
structure Env where
  keys : List (BitVec 64)
  tweaks : List (BitVec 64)
  h : St

/-- skein_provider.hpp 317-318, 380: the declared sizes. -/
def Env.Sized (F : Fns) (e : Env) : Prop := e.keys.length = F.nw + 1 ∧ e.tweaks.length = 3 ∧ e.h.H.length = F.nw

/-- skein_provider.hpp 324-327. -/
def loadM (F : Fns) (mp : Bytes) (b : Nat) (Mw : List (BitVec 64)) : M (List (BitVec 64)) :=
  loop 0 F.nw (fun i Mw => do
    let x ← rd64 mp (b * F.nw + i)
    wr Mw i x) Mw

/-- skein_provider.hpp 328: `memcpy(keys, H.data(), …)`, word by word. -/
def copyKeys (F : Fns) (H keys : List (BitVec 64)) : M (List (BitVec 64)) :=
  loop 0 F.nw (fun i keys => do
    let x ← rd H i
    wr keys i x) keys

/-- skein_provider.hpp 329-331. -/
def setTweaks (reallen : Nat) (h : St) (tweaks : List (BitVec 64)) : M (List (BitVec 64)) := do
  let tweaks ← wr tweaks 0 h.tweak0
  let tweaks ← wr tweaks 1 h.tweak1
  let tweaks ← upd tweaks 0 (· + BitVec.ofNat 64 reallen)
  let x ← rd tweaks 0
  let y ← rd tweaks 1
  wr tweaks 2 (x ^^^ y)

/-- skein_provider.hpp 333-337: the loop; the pair is `keys`, `G`. -/
def addKeys (F : Fns) (Mw : List (BitVec 64)) (kG : List (BitVec 64) × List (BitVec 64)) : M (List (BitVec 64) × List (BitVec 64)) :=
  loop 0 F.nw (fun i kG => do
    let x ← rd kG.1 i
    let keys ← upd kG.1 F.nw (· ^^^ x)
    let m ← rd Mw i
    let k ← rd keys i
    let G ← wr kG.2 i (m + k)
    pure (keys, G)) kG

/-- skein_provider.hpp 356-357. -/
def store (F : Fns) (G Mw H : List (BitVec 64)) : M (List (BitVec 64)) :=
  loop 0 F.nw (fun i H => do
    let x ← rd G i
    let y ← rd Mw i
    wr H i (x ^^^ y)) H

/-- skein_provider.hpp 320-358: one iteration. -/
def block (F : Fns) (reallen : Nat) (k : Stack) (mp : Bytes) (b : Nat) (e : Env) : M Env := do
  let Mw ← loadM F mp b k.M
  let keys ← copyKeys F e.h.H e.keys
  let tweaks ← setTweaks reallen e.h e.tweaks
  let keys ← wr keys F.nw 0x1BD11BDAA9FC1A22
  let kG ← addKeys F Mw (keys, k.G)
  let t0 ← rd tweaks 0
  let G ← upd kG.2 (F.nw - 3) (· + t0)
  let t1 ← rd tweaks 1
  let G ← upd G (F.nw - 2) (· + t1)
  let G ← loop 0 F.g8 (fun i G => G8 F (2 * i) kG.1 tweaks G) G
  let tweaks ← upd tweaks 1 (· &&& ~~~((64 : BitVec 64) <<< 56))
  let t0 ← rd tweaks 0
  let t1 ← rd tweaks 1
  let H ← store F G Mw e.h.H
  pure ⟨kG.1, tweaks, { e.h with tweak0 := t0, tweak1 := t1, H := H }⟩

/-- skein_provider.hpp 315-360: `transform`. -/
def transform (F : Fns) (k : Nat → Stack) (keys tweaks : List (BitVec 64)) (reallen : Nat) (mp : Bytes) (n : Nat) (s : Blk St) : M (Blk St) := do
  let e ← loop 0 n (fun b e => block F reallen (k b) mp b e) ⟨keys, tweaks, s.h⟩
  pure { s with h := e.h }

end Digestpp.Model.Locals.Skein
