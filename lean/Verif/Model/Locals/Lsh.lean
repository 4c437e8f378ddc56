import Verif.Model.Arrays
import Verif.Model.Lsh

/-! `transform` of algorithm/detail/lsh_provider.hpp with checked indices of the members and tables. -/

namespace Digestpp.Model.Locals.Lsh
open Model.Lsh

variable {w : Nat}

/-- lsh_provider.hpp 225-227: the declared sizes of the members `cv`, `t` and `msgexp`. -/
def Sized (T : Word w) (h : St w) : Prop :=
  h.cv.length = 16 ∧ h.t.length = 16 ∧ h.msgexp.length = T.NS + 1 ∧ ∀ row ∈ h.msgexp, row.length = 16

/-- lsh_provider.hpp 147: the `memcpy` fills the first two rows, of sixteen words each. -/
def copyRows (T : Word w) (mp : Bytes) (m : List (List (BitVec w))) : M (List (List (BitVec w))) := do
  let b ← readBytes mp 0 (blockBytes w)
  let row ← rd m 0
  let row ← copyN row ((T.loads 32 b).take 16) 16
  let m ← wr m 0 row
  let row ← rd m 1
  let row ← copyN row ((T.loads 32 b).drop 16) 16
  wr m 1 row

/-- A statement `msgexp[i][l] = msgexp[i - 1][l] + msgexp[i - 2][k]` of lsh_provider.hpp 150-165. -/
def expand1 (i l k : Nat) (m : List (List (BitVec w))) : M (List (List (BitVec w))) := do
  let r1 ← rd m (i - 1)
  let x ← rd r1 l
  let r2 ← rd m (i - 2)
  let y ← rd r2 k
  let row ← rd m i
  let row ← wr row l (x + y)
  wr m i row

/-- lsh_provider.hpp 150-165: the sixteen statements. -/
def expandRow (i : Nat) (m : List (List (BitVec w))) : M (List (List (BitVec w))) :=
  [(0, 3), (1, 2), (2, 0), (3, 1), (4, 7), (5, 4), (6, 5), (7, 6), (8, 11), (9, 10), (10, 8), (11, 9), (12, 15), (13, 12), (14, 13), (15, 14)].foldlM
    (fun m (lk : Nat × Nat) => expand1 i lk.1 lk.2 m) m

/-- lsh_provider.hpp 145-167: `msgexpand`. -/
def msgexpand (T : Word w) (mp : Bytes) (m : List (List (BitVec w))) : M (List (List (BitVec w))) := do
  let m ← copyRows T mp m
  loop 2 (T.NS + 1) expandRow m

/-- lsh_provider.hpp 169-177: `addmix`, on the array `t`. -/
def addmix (rot : Rot w) (cv : List (BitVec w)) (msgexp : List (List (BitVec w))) (l i : Nat) (sc : BitVec w) (ra rb : BitVec w → BitVec w) (gamma : Nat)
    (t : List (BitVec w)) : M (List (BitVec w)) := do
  let a ← rd cv l
  let row ← rd msgexp i
  let b ← rd row l
  let x := a ^^^ b
  let a ← rd cv (l + 8)
  let row ← rd msgexp i
  let b ← rd row (l + 8)
  let y := a ^^^ b
  let x := ra (x + y) ^^^ sc
  let y := rb (x + y)
  let t ← wr t l (x + y)
  let z ← rot y gamma
  wr t (l + 8) z

/-- A statement of lsh_provider.hpp 181-188, with `l` from 0 to 7: the arguments are `lsh_constants<void>::SC256[i][l]` (27-30) and
`G256[l]` (42-45), or those of 33-36 and 48-51. -/
def addmixC (rot : Rot w) (T : Word w) (i : Nat) (ra rb : BitVec w → BitVec w) (cv : List (BitVec w)) (msgexp : List (List (BitVec w))) (l : Nat)
    (t : List (BitVec w)) : M (List (BitVec w)) := do
  let row ← rd T.SC i
  let sc ← rd row l
  let g ← rd T.G l
  addmix rot cv msgexp l i sc ra rb g t

/-- lsh_provider.hpp 189-204. -/
def permute (t cv : List (BitVec w)) : M (List (BitVec w)) :=
  [(0, 6), (1, 4), (2, 5), (3, 7), (4, 12), (5, 15), (6, 14), (7, 13), (8, 2), (9, 0), (10, 1), (11, 3), (12, 8), (13, 11), (14, 10), (15, 9)].foldlM
    (fun cv (ij : Nat × Nat) => do
      let x ← rd t ij.2
      wr cv ij.1 x) cv

/-- lsh_provider.hpp 179-205: `step`. -/
def step (rot : Rot w) (T : Word w) (i : Nat) (ra rb : BitVec w → BitVec w) (h : St w) : M (St w) := do
  let t ← addmixC rot T i ra rb h.cv h.msgexp 0 h.t
  let t ← addmixC rot T i ra rb h.cv h.msgexp 1 t
  let t ← addmixC rot T i ra rb h.cv h.msgexp 2 t
  let t ← addmixC rot T i ra rb h.cv h.msgexp 3 t
  let t ← addmixC rot T i ra rb h.cv h.msgexp 4 t
  let t ← addmixC rot T i ra rb h.cv h.msgexp 5 t
  let t ← addmixC rot T i ra rb h.cv h.msgexp 6 t
  let t ← addmixC rot T i ra rb h.cv h.msgexp 7 t
  let cv ← permute t h.cv
  pure { h with t := t, cv := cv }

/-- lsh_provider.hpp 211-218: one iteration of the loop in `transform`; `mp` is the range that starts at the argument of `msgexpand`. -/
def block (rot : Rot w) (T : Word w) (mp : Bytes) (h : St w) : M (St w) := do
  let m ← msgexpand T mp h.msgexp
  let h ← loop 0 (T.NS / 2) (fun k h => do
    let h ← step rot T (2 * k) T.rot0 T.rot1 h
    step rot T (2 * k + 1) T.rot2 T.rot3 h) { h with msgexp := m }
  let cv ← loop 0 16 (fun i cv => do
    let row ← rd h.msgexp T.NS
    let x ← rd row i
    upd cv i (· ^^^ x)) h.cv
  pure { h with cv := cv }

/-- lsh_provider.hpp 207-220: `transform`. -/
def transform (rot : Rot w) (T : Word w) (data : Bytes) (n : Nat) (s : Blk (St w)) : M (Blk (St w)) := do
  let h ← loop 0 n (fun blk h => block rot T (data.drop (blockBytes w * blk)) h) s.h
  pure { s with h := h }

end Digestpp.Model.Locals.Lsh
