import Verif.Proofs.Leak.Basic
import Verif.Model.Leak.Groestl

/-! Traces of the functions of `Model/Leak/Groestl`: without the trace they are those of `Model/Locals`; the length of the trace is the same for all data. -/

namespace Digestpp.Proofs.Leak
open Model
open Locals (PQ)
theorem look_erase (T : List (List (BitVec 64))) (x : List (BitVec 64)) (i : Nat) (j : Nat) : L.erase (Model.Leak.look T x i j) = Model.Locals.look T x i j := by
  unfold Model.Leak.look Model.Locals.look
  erase_simp []

theorem look_len (T T' : List (List (BitVec 64))) (x x' : List (BitVec 64)) (i : Nat) (j : Nat) : Len (Model.Leak.look T x i j) (Model.Leak.look T' x' i j) := by
  unfold Model.Leak.look
  len []

theorem cell_erase (T : List (List (BitVec 64))) (x : List (BitVec 64)) (j0 : Nat) (j1 : Nat) (j2 : Nat) (j3 : Nat) (j4 : Nat) (j5 : Nat) (j6 : Nat) (j7 : Nat) : L.erase (Model.Leak.cell T x j0 j1 j2 j3 j4 j5 j6 j7) = Model.Locals.cell T x j0 j1 j2 j3 j4 j5 j6 j7 := by
  unfold Model.Leak.cell Model.Locals.cell
  erase_simp [look_erase]

theorem cell_len (T T' : List (List (BitVec 64))) (x x' : List (BitVec 64)) (j0 : Nat) (j1 : Nat) (j2 : Nat) (j3 : Nat) (j4 : Nat) (j5 : Nat) (j6 : Nat) (j7 : Nat) : Len (Model.Leak.cell T x j0 j1 j2 j3 j4 j5 j6 j7) (Model.Leak.cell T' x' j0 j1 j2 j3 j4 j5 j6 j7) := by
  unfold Model.Leak.cell
  len [(look_len _ _ _ _ _ _)]

theorem mix_erase (R : Nat) (f : Nat → BitVec 64 → BitVec 64) (x : List (BitVec 64)) : L.erase (Model.Leak.mix R f x) = Model.Locals.mix R f x := by
  unfold Model.Leak.mix Model.Locals.mix
  erase_simp []

theorem mix_len (R : Nat) (f f' : Nat → BitVec 64 → BitVec 64) (x x' : List (BitVec 64)) : Len (Model.Leak.mix R f x) (Model.Leak.mix R f' x') := by
  unfold Model.Leak.mix
  len []

theorem fillPQ_erase (R : Nat) (h : List (BitVec 64)) (mp : Bytes) (k : PQ) : L.erase (Model.Leak.fillPQ R h mp k) = Model.Locals.fillPQ R h mp k := by
  unfold Model.Leak.fillPQ Model.Locals.fillPQ
  erase_simp []

theorem fillPQ_len (R : Nat) (h h' : List (BitVec 64)) (mp mp' : Bytes) (k k' : PQ) : Len (Model.Leak.fillPQ R h mp k) (Model.Leak.fillPQ R h' mp' k') := by
  unfold Model.Leak.fillPQ
  len []

/-- The rounds of `Model/Leak` and of `Model/Locals`. -/
abbrev RErase (P : Model.Leak.PRound) (P' : Model.Locals.PRound) : Prop := ∀ x y i, L.erase (P x y i) = P' x y i

abbrev RLen (P : Model.Leak.PRound) : Prop := ∀ x y i x' y' i', Len (P x y i) (P x' y' i')

theorem stepPQ_erase {P Q : Model.Leak.PRound} {P' Q' : Model.Locals.PRound} (hP : RErase P P') (hQ : RErase Q Q') (qarg : BitVec 64 → BitVec 64) (r : BitVec 64)
    (k : PQ) : L.erase (Model.Leak.stepPQ P Q qarg r k) = Model.Locals.stepPQ P' Q' qarg r k := by
  unfold Model.Leak.stepPQ Model.Locals.stepPQ
  erase_simp [hP _ _ _, hQ _ _ _]

theorem stepPQ_len {P Q : Model.Leak.PRound} (hP : RLen P) (hQ : RLen Q) (qarg : BitVec 64 → BitVec 64) (r : BitVec 64) (k k' : PQ) :
    Len (Model.Leak.stepPQ P Q qarg r k) (Model.Leak.stepPQ P Q qarg r k') := by
  unfold Model.Leak.stepPQ
  len [(hP _ _ _ _ _ _), (hQ _ _ _ _ _ _)]

theorem compress_erase {P Q : Model.Leak.PRound} {P' Q' : Model.Locals.PRound} (hP : RErase P P') (hQ : RErase Q Q') (R its : Nat) (qarg : BitVec 64 → BitVec 64) (k : PQ)
    (h : List (BitVec 64)) (mp : Bytes) : L.erase (Model.Leak.compress R its P Q qarg k h mp) = Model.Locals.compress R its P' Q' qarg k h mp := by
  unfold Model.Leak.compress Model.Locals.compress
  erase_simp [fillPQ_erase, stepPQ_erase hP hQ]

theorem compress_len {P Q : Model.Leak.PRound} (hP : RLen P) (hQ : RLen Q) (R its : Nat) (qarg : BitVec 64 → BitVec 64) (k k' : PQ) (h h' : List (BitVec 64)) (mp mp' : Bytes) :
    Len (Model.Leak.compress R its P Q qarg k h mp) (Model.Leak.compress R its P Q qarg k' h' mp') := by
  unfold Model.Leak.compress
  len [(fillPQ_len _ _ _ _ _ _ _), (stepPQ_len hP hQ _ _ _ _)]

theorem outputTransform_erase {P : Model.Leak.PRound} {P' : Model.Locals.PRound} (hP : RErase P P') (R its : Nat) (t1 t2 h : List (BitVec 64)) :
    L.erase (Model.Leak.outputTransform R its P t1 t2 h) = Model.Locals.outputTransform R its P' t1 t2 h := by
  unfold Model.Leak.outputTransform Model.Locals.outputTransform
  erase_simp [hP _ _ _]

namespace Groestl
open Model.Groestl
theorem lookups_erase (R : Nat) (s0 : Nat) (s1 : Nat) (s2 : Nat) (s3 : Nat) (s4 : Nat) (s5 : Nat) (s6 : Nat) (s7 : Nat) (x : List (BitVec 64)) (y : List (BitVec 64)) : L.erase (Model.Leak.Groestl.lookups R s0 s1 s2 s3 s4 s5 s6 s7 x y) = Model.Locals.Groestl.lookups R s0 s1 s2 s3 s4 s5 s6 s7 x y := by
  unfold Model.Leak.Groestl.lookups Model.Locals.Groestl.lookups
  erase_simp [cell_erase]

theorem lookups_len (R : Nat) (s0 : Nat) (s1 : Nat) (s2 : Nat) (s3 : Nat) (s4 : Nat) (s5 : Nat) (s6 : Nat) (s7 : Nat) (x x' : List (BitVec 64)) (y y' : List (BitVec 64)) : Len (Model.Leak.Groestl.lookups R s0 s1 s2 s3 s4 s5 s6 s7 x y) (Model.Leak.Groestl.lookups R s0 s1 s2 s3 s4 s5 s6 s7 x' y') := by
  unfold Model.Leak.Groestl.lookups
  len [(cell_len _ _ _ _ _ _ _ _ _ _ _ _)]

theorem roundP_erase (R : Nat) : RErase (Model.Leak.Groestl.roundP R) (Model.Locals.Groestl.roundP R) := by
  intro x y i
  unfold Model.Leak.Groestl.roundP Model.Locals.Groestl.roundP
  erase_simp [mix_erase, lookups_erase]

theorem roundP_len (R : Nat) : RLen (Model.Leak.Groestl.roundP R) := by
  intro x y i x' y' i'
  unfold Model.Leak.Groestl.roundP
  len [(mix_len _ _ _ _ _), (lookups_len _ _ _ _ _ _ _ _ _ _ _ _ _ )]

theorem roundQ_erase (R : Nat) : RErase (Model.Leak.Groestl.roundQ R) (Model.Locals.Groestl.roundQ R) := by
  intro x y i
  unfold Model.Leak.Groestl.roundQ Model.Locals.Groestl.roundQ
  erase_simp [mix_erase, lookups_erase]

theorem roundQ_len (R : Nat) : RLen (Model.Leak.Groestl.roundQ R) := by
  intro x y i x' y' i'
  unfold Model.Leak.Groestl.roundQ
  len [(mix_len _ _ _ _ _), (lookups_len _ _ _ _ _ _ _ _ _ _ _ _ _ )]

theorem transform_erase (k : Nat → PQ) (data : Bytes) (n : Nat) (s : Blk St) : L.erase (Model.Leak.Groestl.transform k data n s) = Model.Locals.Groestl.transform k data n s := by
  unfold Model.Leak.Groestl.transform Model.Locals.Groestl.transform
  erase_simp [compress_erase (roundP_erase _) (roundQ_erase _)]

theorem transform_len (k k' : Nat → PQ) (data data' : Bytes) (n : Nat) (s s' : Blk St) (hs : s.h.hs = s'.h.hs) : Len (Model.Leak.Groestl.transform k data n s) (Model.Leak.Groestl.transform k' data' n s') := by
  unfold Model.Leak.Groestl.transform
  rw [hs]
  len [(compress_len (roundP_len _) (roundQ_len _) _ _ _ _ _ _ _ _ _)]

end Groestl
namespace Kupyna
open Model.Kupyna
theorem G_erase (R : Nat) (x : List (BitVec 64)) (y : List (BitVec 64)) : L.erase (Model.Leak.Kupyna.G R x y) = Model.Locals.Kupyna.G R x y := by
  unfold Model.Leak.Kupyna.G Model.Locals.Kupyna.G
  erase_simp [cell_erase]

theorem G_len (R : Nat) (x x' : List (BitVec 64)) (y y' : List (BitVec 64)) : Len (Model.Leak.Kupyna.G R x y) (Model.Leak.Kupyna.G R x' y') := by
  unfold Model.Leak.Kupyna.G
  len [(cell_len _ _ _ _ _ _ _ _ _ _ _ _)]

theorem roundP_erase (R : Nat) : RErase (Model.Leak.Kupyna.roundP R) (Model.Locals.Kupyna.roundP R) := by
  intro x y i
  unfold Model.Leak.Kupyna.roundP Model.Locals.Kupyna.roundP
  erase_simp [mix_erase, G_erase]

theorem roundP_len (R : Nat) : RLen (Model.Leak.Kupyna.roundP R) := by
  intro x y i x' y' i'
  unfold Model.Leak.Kupyna.roundP
  len [(mix_len _ _ _ _ _), (G_len _ _ _ _ _ )]

theorem roundQ_erase (R : Nat) : RErase (Model.Leak.Kupyna.roundQ R) (Model.Locals.Kupyna.roundQ R) := by
  intro x y i
  unfold Model.Leak.Kupyna.roundQ Model.Locals.Kupyna.roundQ
  erase_simp [mix_erase, G_erase]

theorem roundQ_len (R : Nat) : RLen (Model.Leak.Kupyna.roundQ R) := by
  intro x y i x' y' i'
  unfold Model.Leak.Kupyna.roundQ
  len [(mix_len _ _ _ _ _), (G_len _ _ _ _ _ )]

theorem transform_erase (k : Nat → PQ) (data : Bytes) (n : Nat) (s : Blk St) : L.erase (Model.Leak.Kupyna.transform k data n s) = Model.Locals.Kupyna.transform k data n s := by
  unfold Model.Leak.Kupyna.transform Model.Locals.Kupyna.transform
  erase_simp [compress_erase (roundP_erase _) (roundQ_erase _)]

theorem transform_len (k k' : Nat → PQ) (data data' : Bytes) (n : Nat) (s s' : Blk St) (hs : s.h.hs = s'.h.hs) : Len (Model.Leak.Kupyna.transform k data n s) (Model.Leak.Kupyna.transform k' data' n s') := by
  unfold Model.Leak.Kupyna.transform
  rw [hs]
  len [(compress_len (roundP_len _) (roundQ_len _) _ _ _ _ _ _ _ _ _)]

end Kupyna
end Digestpp.Proofs.Leak
