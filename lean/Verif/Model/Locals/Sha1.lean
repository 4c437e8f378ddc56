import Verif.Model.Arrays
import Verif.Model.Sha1
import Verif.Model.Sm3

/-! `transform` of algorithm/detail/sha1_provider.hpp and sm3_provider.hpp with their local arrays. -/

namespace Digestpp.Model.Locals

/-- sha1_provider.hpp 101-102, sm3_provider.hpp 114-115: the loop filling `M`. -/
def loadM32 (data : Bytes) (blk : Nat) (Mw : List (BitVec 32)) : M (List (BitVec 32)) :=
  loop 0 (64 / 4) (fun i Mw => do
    let x ← rd32 data (blk * 16 + i)
    wr Mw i (byteswap32 x)) Mw

/-- sha1_provider.hpp 105-106, sm3_provider.hpp 119-120. -/
def copyW32 (Mw W : List (BitVec 32)) : M (List (BitVec 32)) :=
  loop 0 16 (fun t W => do
    let x ← rd Mw t
    wr W t x) W

namespace Sha1
open Model.Sha1

/-- sha1_provider.hpp 100, 104: the local arrays. -/
structure Stack where
  M : List (BitVec 32)
  W : List (BitVec 32)

/-- sha1_provider.hpp 100, 104: their declared sizes. -/
def Stack.Sized (k : Stack) : Prop := k.M.length = 16 ∧ k.W.length = 80

/-- sha1_provider.hpp 107-108. -/
def expandW (W : List (BitVec 32)) : M (List (BitVec 32)) :=
  loop 16 80 (fun t W => do
    let x3 ← rd W (t - 3)
    let x8 ← rd W (t - 8)
    let x14 ← rd W (t - 14)
    let x16 ← rd W (t - 16)
    wr W t (rotl (x3 ^^^ x8 ^^^ x14 ^^^ x16) 1)) W

/-- sha1_provider.hpp 127-141. -/
def switch (t : Nat) (v : Vars) : M Vars :=
  if t = 19 then do
    let k ← rd sha1_K 1
    pure { v with f := Parity, K := k }
  else if t = 39 then do
    let k ← rd sha1_K 2
    pure { v with f := Maj, K := k }
  else if t = 59 then do
    let k ← rd sha1_K 3
    pure { v with f := Parity, K := k }
  else pure v

/-- sha1_provider.hpp 120-141. -/
def round (W : List (BitVec 32)) (t : Nat) (v : Vars) : M Vars := do
  let x ← rd W t
  let T := rotl v.a 5 + v.f v.b v.c v.d + v.e + v.K + x
  switch t { v with e := v.d, d := v.c, c := rotl v.b 30, b := v.a, a := T }

/-- sha1_provider.hpp 110-117. -/
def vars (H : List (BitVec 32)) : M Vars := do
  let a ← rd H 0
  let b ← rd H 1
  let c ← rd H 2
  let d ← rd H 3
  let e ← rd H 4
  let k ← rd sha1_K 0
  pure ⟨a, b, c, d, e, Ch, k⟩

/-- sha1_provider.hpp 144-148. -/
def add (v : Vars) (H : List (BitVec 32)) : M (List (BitVec 32)) := do
  let H ← upd H 0 (· + v.a)
  let H ← upd H 1 (· + v.b)
  let H ← upd H 2 (· + v.c)
  let H ← upd H 3 (· + v.d)
  upd H 4 (· + v.e)

/-- sha1_provider.hpp 100-148: one iteration. -/
def block (k : Stack) (data : Bytes) (blk : Nat) (H : List (BitVec 32)) : M (List (BitVec 32)) := do
  let Mw ← loadM32 data blk k.M
  let W ← copyW32 Mw k.W
  let W ← expandW W
  let v ← vars H
  let v ← loop 0 80 (round W) v
  add v H

/-- sha1_provider.hpp 96-150: `transform`. -/
def transform (k : Nat → Stack) (data : Bytes) (n : Nat) (s : Blk (List (BitVec 32))) : M (Blk (List (BitVec 32))) := do
  let h ← loop 0 n (fun blk h => block (k blk) data blk h) s.h
  pure { s with h := h }

end Sha1

namespace Sm3
open Model.Sm3

/-- sm3_provider.hpp 113, 117-118: the local arrays. -/
structure Stack where
  M : List (BitVec 32)
  W : List (BitVec 32)
  W2 : List (BitVec 32)

/-- sm3_provider.hpp 113, 117-118: their declared sizes. -/
def Stack.Sized (k : Stack) : Prop := k.M.length = 16 ∧ k.W.length = 68 ∧ k.W2.length = 64

/-- sm3_provider.hpp 121-122. -/
def expandW (W : List (BitVec 32)) : M (List (BitVec 32)) :=
  loop 16 68 (fun t W => do
    let x16 ← rd W (t - 16)
    let x9 ← rd W (t - 9)
    let x3 ← rd W (t - 3)
    let x13 ← rd W (t - 13)
    let x6 ← rd W (t - 6)
    wr W t (p1 (x16 ^^^ x9 ^^^ rotl x3 15) ^^^ rotl x13 7 ^^^ x6)) W

/-- sm3_provider.hpp 123-124. -/
def fillW2 (W W2 : List (BitVec 32)) : M (List (BitVec 32)) :=
  loop 0 64 (fun t W2 => do
    let x ← rd W t
    let y ← rd W (t + 4)
    wr W2 t (x ^^^ y)) W2

/-- sm3_provider.hpp 137-148 and 153-164. -/
def round (rot : Rot) (k : BitVec 32) (ff gg : BitVec 32 → BitVec 32 → BitVec 32 → BitVec 32) (W W2 : List (BitVec 32)) (t : Nat) (v : Vars) : M Vars := do
  let kt ← rot k t
  let ss1 := rotl (rotl v.a 12 + v.e + kt) 7
  let ss2 := ss1 ^^^ rotl v.a 12
  let x2 ← rd W2 t
  let tt1 := ff v.a v.b v.c + v.d + ss2 + x2
  let x ← rd W t
  let tt2 := gg v.e v.f v.g + v.h + ss1 + x
  pure { d := v.c, c := rotl v.b 9, b := v.a, a := tt1, h := v.g, g := rotl v.f 19, f := v.e, e := p0 tt2 }

/-- sm3_provider.hpp 126-133. -/
def vars (H : List (BitVec 32)) : M Vars := do
  let a ← rd H 0
  let b ← rd H 1
  let c ← rd H 2
  let d ← rd H 3
  let e ← rd H 4
  let f ← rd H 5
  let g ← rd H 6
  let h ← rd H 7
  pure ⟨a, b, c, d, e, f, g, h⟩

/-- sm3_provider.hpp 167-174. -/
def add (v : Vars) (H : List (BitVec 32)) : M (List (BitVec 32)) := do
  let H ← upd H 0 (· ^^^ v.a)
  let H ← upd H 1 (· ^^^ v.b)
  let H ← upd H 2 (· ^^^ v.c)
  let H ← upd H 3 (· ^^^ v.d)
  let H ← upd H 4 (· ^^^ v.e)
  let H ← upd H 5 (· ^^^ v.f)
  let H ← upd H 6 (· ^^^ v.g)
  upd H 7 (· ^^^ v.h)

/-- sm3_provider.hpp 113-174: one iteration. -/
def block (rot : Rot) (k : Stack) (data : Bytes) (blk : Nat) (H : List (BitVec 32)) : M (List (BitVec 32)) := do
  let Mw ← loadM32 data blk k.M
  let W ← copyW32 Mw k.W
  let W ← expandW W
  let W2 ← fillW2 W k.W2
  let v ← vars H
  let v ← loop 0 16 (round rot 0x79cc4519 xorf xorf W W2) v
  let v ← loop 16 64 (round rot 0x7a879d8a ff1 gg1 W W2) v
  add v H

/-- sm3_provider.hpp 109-176: `transform`. -/
def transform (rot : Rot) (k : Nat → Stack) (data : Bytes) (n : Nat) (s : Blk (List (BitVec 32))) : M (Blk (List (BitVec 32))) := do
  let h ← loop 0 n (fun blk h => block rot (k blk) data blk h) s.h
  pure { s with h := h }

end Sm3

end Digestpp.Model.Locals
