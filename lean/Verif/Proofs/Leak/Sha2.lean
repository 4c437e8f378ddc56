import Verif.Proofs.Leak.Basic
import Verif.Model.Leak.Sha2

/-! Traces of the functions of `Model/Leak/Sha2`: without the trace they are those of `Model/Locals`; the trace is the same for all data. -/

namespace Digestpp.Proofs.Leak.Sha2
open Model
open Model.Sha2
open Locals.Sha2 (Stack)
theorem loadM_erase {w : Nat} (T : Word w) (ld : Bytes → Nat → L (BitVec w)) (ldM : Bytes → Nat → M (BitVec w)) (data : Bytes) (blk : Nat) (Mw : List (BitVec w)) (hld : ∀ x0 x1, L.erase (ld x0 x1) = ldM x0 x1) : L.erase (Model.Leak.Sha2.loadM T ld data blk Mw) = Model.Locals.Sha2.loadM T ldM data blk Mw := by
  unfold Model.Leak.Sha2.loadM Model.Locals.Sha2.loadM
  erase_simp [hld]

theorem loadM_agree {w : Nat} (T : Word w) (ld : Bytes → Nat → L (BitVec w)) (data data' : Bytes) (blk : Nat) (Mw Mw' : List (BitVec w)) (hld : ∀ x0 x1 x0', Agree Any (ld x0 x1) (ld x0' x1)) : Agree Any (Model.Leak.Sha2.loadM T ld data blk Mw) (Model.Leak.Sha2.loadM T ld data' blk Mw') := by
  unfold Model.Leak.Sha2.loadM
  agree [(hld _ _ _)]

theorem copyW_erase {w : Nat} (Mw : List (BitVec w)) (W : List (BitVec w)) : L.erase (Model.Leak.Sha2.copyW Mw W) = Model.Locals.Sha2.copyW Mw W := by
  unfold Model.Leak.Sha2.copyW Model.Locals.Sha2.copyW
  erase_simp []

theorem copyW_agree {w : Nat} (Mw Mw' : List (BitVec w)) (W W' : List (BitVec w)) : Agree Any (Model.Leak.Sha2.copyW Mw W) (Model.Leak.Sha2.copyW Mw' W') := by
  unfold Model.Leak.Sha2.copyW
  agree []

theorem expandW_erase {w : Nat} (T : Word w) (W : List (BitVec w)) : L.erase (Model.Leak.Sha2.expandW T W) = Model.Locals.Sha2.expandW T W := by
  unfold Model.Leak.Sha2.expandW Model.Locals.Sha2.expandW
  erase_simp []

theorem expandW_agree {w : Nat} (T : Word w) (W W' : List (BitVec w)) : Agree Any (Model.Leak.Sha2.expandW T W) (Model.Leak.Sha2.expandW T W') := by
  unfold Model.Leak.Sha2.expandW
  agree []

theorem round_erase {w : Nat} (T : Word w) (W : List (BitVec w)) (t : Nat) (v : Vars w) : L.erase (Model.Leak.Sha2.round T W t v) = Model.Locals.Sha2.round T W t v := by
  unfold Model.Leak.Sha2.round Model.Locals.Sha2.round
  erase_simp []

theorem round_agree {w : Nat} (T : Word w) (W W' : List (BitVec w)) (t : Nat) (v v' : Vars w) : Agree Any (Model.Leak.Sha2.round T W t v) (Model.Leak.Sha2.round T W' t v') := by
  unfold Model.Leak.Sha2.round
  agree []

theorem vars_erase {w : Nat} (H : List (BitVec w)) : L.erase (Model.Leak.Sha2.vars H) = Model.Locals.Sha2.vars H := by
  unfold Model.Leak.Sha2.vars Model.Locals.Sha2.vars
  erase_simp []

theorem vars_agree {w : Nat} (H H' : List (BitVec w)) : Agree Any (Model.Leak.Sha2.vars H) (Model.Leak.Sha2.vars H') := by
  unfold Model.Leak.Sha2.vars
  agree []

theorem add_erase {w : Nat} (v : Vars w) (H : List (BitVec w)) : L.erase (Model.Leak.Sha2.add v H) = Model.Locals.Sha2.add v H := by
  unfold Model.Leak.Sha2.add Model.Locals.Sha2.add
  erase_simp []

theorem add_agree {w : Nat} (v v' : Vars w) (H H' : List (BitVec w)) : Agree Any (Model.Leak.Sha2.add v H) (Model.Leak.Sha2.add v' H') := by
  unfold Model.Leak.Sha2.add
  agree []

theorem block_erase {w : Nat} (T : Word w) (ld : Bytes → Nat → L (BitVec w)) (ldM : Bytes → Nat → M (BitVec w)) (k : Stack w) (data : Bytes) (blk : Nat) (h : St w) (hld : ∀ x0 x1, L.erase (ld x0 x1) = ldM x0 x1) : L.erase (Model.Leak.Sha2.block T ld k data blk h) = Model.Locals.Sha2.block T ldM k data blk h := by
  unfold Model.Leak.Sha2.block Model.Locals.Sha2.block
  erase_simp [hld, Sha2.loadM_erase (hld := hld), Sha2.copyW_erase, Sha2.expandW_erase, Sha2.round_erase, Sha2.vars_erase, Sha2.add_erase]

theorem block_agree {w : Nat} (T : Word w) (ld : Bytes → Nat → L (BitVec w)) (k k' : Stack w) (data data' : Bytes) (blk : Nat) (h h' : St w) (hld : ∀ x0 x1 x0', Agree Any (ld x0 x1) (ld x0' x1)) : Agree Any (Model.Leak.Sha2.block T ld k data blk h) (Model.Leak.Sha2.block T ld k' data' blk h') := by
  unfold Model.Leak.Sha2.block
  agree [(Sha2.loadM_agree _ _ _ _ _ _ _ hld), (Sha2.copyW_agree _ _ _ _), (Sha2.expandW_agree _ _ _), (Sha2.round_agree _ _ _ _ _ _), (Sha2.vars_agree _ _), (Sha2.add_agree _ _ _ _), (hld _ _ _)]

theorem transform_erase {w : Nat} (T : Word w) (ld : Bytes → Nat → L (BitVec w)) (ldM : Bytes → Nat → M (BitVec w)) (k : Nat → Stack w) (data : Bytes) (n : Nat) (s : Blk (St w)) (hld : ∀ x0 x1, L.erase (ld x0 x1) = ldM x0 x1) : L.erase (Model.Leak.Sha2.transform T ld k data n s) = Model.Locals.Sha2.transform T ldM k data n s := by
  unfold Model.Leak.Sha2.transform Model.Locals.Sha2.transform
  erase_simp [hld, Sha2.block_erase (hld := hld)]

theorem transform_agree {w : Nat} (T : Word w) (ld : Bytes → Nat → L (BitVec w)) (k k' : Nat → Stack w) (data data' : Bytes) (n : Nat) (s s' : Blk (St w)) (hld : ∀ x0 x1 x0', Agree Any (ld x0 x1) (ld x0' x1)) : Agree Any (Model.Leak.Sha2.transform T ld k data n s) (Model.Leak.Sha2.transform T ld k' data' n s') := by
  unfold Model.Leak.Sha2.transform
  agree [(Sha2.block_agree _ _ _ _ _ _ _ _ _ hld), (hld _ _ _)]

end Digestpp.Proofs.Leak.Sha2
