import Verif.Proofs.Leak.Basic
import Verif.Model.Leak.Lsh

/-! Traces of the functions of `Model/Leak/Lsh`: without the trace they are those of `Model/Locals`; the trace is the same for all data. -/

namespace Digestpp.Proofs.Leak.Lsh
open Model
open Model.Lsh
variable {w : Nat}
theorem copyRows_erase (T : Word w) (mp : Bytes) (m : List (List (BitVec w))) : L.erase (Model.Leak.Lsh.copyRows T mp m) = Model.Locals.Lsh.copyRows T mp m := by
  unfold Model.Leak.Lsh.copyRows Model.Locals.Lsh.copyRows
  erase_simp []

theorem copyRows_agree (T : Word w) (mp mp' : Bytes) (m m' : List (List (BitVec w))) : Agree Any (Model.Leak.Lsh.copyRows T mp m) (Model.Leak.Lsh.copyRows T mp' m') := by
  unfold Model.Leak.Lsh.copyRows
  agree []

theorem expand1_erase (i : Nat) (l : Nat) (k : Nat) (m : List (List (BitVec w))) : L.erase (Model.Leak.Lsh.expand1 i l k m) = Model.Locals.Lsh.expand1 i l k m := by
  unfold Model.Leak.Lsh.expand1 Model.Locals.Lsh.expand1
  erase_simp []

theorem expand1_agree (i : Nat) (l : Nat) (k : Nat) (m m' : List (List (BitVec w))) : Agree Any (Model.Leak.Lsh.expand1 i l k m) (Model.Leak.Lsh.expand1 i l k m') := by
  unfold Model.Leak.Lsh.expand1
  agree []

theorem expandRow_erase (i : Nat) (m : List (List (BitVec w))) : L.erase (Model.Leak.Lsh.expandRow i m) = Model.Locals.Lsh.expandRow i m := by
  unfold Model.Leak.Lsh.expandRow Model.Locals.Lsh.expandRow
  erase_simp [Lsh.expand1_erase]

theorem expandRow_agree (i : Nat) (m m' : List (List (BitVec w))) : Agree Any (Model.Leak.Lsh.expandRow i m) (Model.Leak.Lsh.expandRow i m') := by
  unfold Model.Leak.Lsh.expandRow
  agree [(Lsh.expand1_agree _ _ _ _ _)]

theorem msgexpand_erase (T : Word w) (mp : Bytes) (m : List (List (BitVec w))) : L.erase (Model.Leak.Lsh.msgexpand T mp m) = Model.Locals.Lsh.msgexpand T mp m := by
  unfold Model.Leak.Lsh.msgexpand Model.Locals.Lsh.msgexpand
  erase_simp [Lsh.copyRows_erase, Lsh.expandRow_erase]

theorem msgexpand_agree (T : Word w) (mp mp' : Bytes) (m m' : List (List (BitVec w))) : Agree Any (Model.Leak.Lsh.msgexpand T mp m) (Model.Leak.Lsh.msgexpand T mp' m') := by
  unfold Model.Leak.Lsh.msgexpand
  agree [(Lsh.copyRows_agree _ _ _ _ _), (Lsh.expandRow_agree _ _ _)]

theorem addmix_erase (rot : Rot w) (cv : List (BitVec w)) (msgexp : List (List (BitVec w))) (l : Nat) (i : Nat) (sc : BitVec w) (ra : BitVec w → BitVec w) (rb : BitVec w → BitVec w) (gamma : Nat) (t : List (BitVec w)) : L.erase (Model.Leak.Lsh.addmix rot cv msgexp l i sc ra rb gamma t) = Model.Locals.Lsh.addmix rot cv msgexp l i sc ra rb gamma t := by
  unfold Model.Leak.Lsh.addmix Model.Locals.Lsh.addmix
  erase_simp []

theorem addmix_agree (rot : Rot w) (cv cv' : List (BitVec w)) (msgexp msgexp' : List (List (BitVec w))) (l : Nat) (i : Nat) (sc sc' : BitVec w) (ra : BitVec w → BitVec w) (rb : BitVec w → BitVec w) (gamma : Nat) (t t' : List (BitVec w)) : Agree Any (Model.Leak.Lsh.addmix rot cv msgexp l i sc ra rb gamma t) (Model.Leak.Lsh.addmix rot cv' msgexp' l i sc' ra rb gamma t') := by
  unfold Model.Leak.Lsh.addmix
  agree []

theorem addmixC_erase (rot : Rot w) (T : Word w) (i : Nat) (ra : BitVec w → BitVec w) (rb : BitVec w → BitVec w) (cv : List (BitVec w)) (msgexp : List (List (BitVec w))) (l : Nat) (t : List (BitVec w)) : L.erase (Model.Leak.Lsh.addmixC rot T i ra rb cv msgexp l t) = Model.Locals.Lsh.addmixC rot T i ra rb cv msgexp l t := by
  unfold Model.Leak.Lsh.addmixC Model.Locals.Lsh.addmixC
  erase_simp [Lsh.addmix_erase]

theorem addmixC_agree (rot : Rot w) (T : Word w) (i : Nat) (ra : BitVec w → BitVec w) (rb : BitVec w → BitVec w) (cv cv' : List (BitVec w)) (msgexp msgexp' : List (List (BitVec w))) (l : Nat) (t t' : List (BitVec w)) : Agree Any (Model.Leak.Lsh.addmixC rot T i ra rb cv msgexp l t) (Model.Leak.Lsh.addmixC rot T i ra rb cv' msgexp' l t') := by
  unfold Model.Leak.Lsh.addmixC
  agree [(Lsh.addmix_agree _ _ _ _ _ _ _ _ _ _ _ _ _ _)]

theorem permute_erase (t : List (BitVec w)) (cv : List (BitVec w)) : L.erase (Model.Leak.Lsh.permute t cv) = Model.Locals.Lsh.permute t cv := by
  unfold Model.Leak.Lsh.permute Model.Locals.Lsh.permute
  erase_simp []

theorem permute_agree (t t' : List (BitVec w)) (cv cv' : List (BitVec w)) : Agree Any (Model.Leak.Lsh.permute t cv) (Model.Leak.Lsh.permute t' cv') := by
  unfold Model.Leak.Lsh.permute
  agree []

theorem step_erase (rot : Rot w) (T : Word w) (i : Nat) (ra : BitVec w → BitVec w) (rb : BitVec w → BitVec w) (h : St w) : L.erase (Model.Leak.Lsh.step rot T i ra rb h) = Model.Locals.Lsh.step rot T i ra rb h := by
  unfold Model.Leak.Lsh.step Model.Locals.Lsh.step
  erase_simp [Lsh.addmixC_erase, Lsh.permute_erase]

theorem step_agree (rot : Rot w) (T : Word w) (i : Nat) (ra : BitVec w → BitVec w) (rb : BitVec w → BitVec w) (h h' : St w) : Agree Any (Model.Leak.Lsh.step rot T i ra rb h) (Model.Leak.Lsh.step rot T i ra rb h') := by
  unfold Model.Leak.Lsh.step
  agree [(Lsh.addmixC_agree _ _ _ _ _ _ _ _ _ _ _ _), (Lsh.permute_agree _ _ _ _)]

theorem block_erase (rot : Rot w) (T : Word w) (mp : Bytes) (h : St w) : L.erase (Model.Leak.Lsh.block rot T mp h) = Model.Locals.Lsh.block rot T mp h := by
  unfold Model.Leak.Lsh.block Model.Locals.Lsh.block
  erase_simp [Lsh.msgexpand_erase, Lsh.step_erase]

theorem block_agree (rot : Rot w) (T : Word w) (mp mp' : Bytes) (h h' : St w) : Agree Any (Model.Leak.Lsh.block rot T mp h) (Model.Leak.Lsh.block rot T mp' h') := by
  unfold Model.Leak.Lsh.block
  agree [(Lsh.msgexpand_agree _ _ _ _ _), (Lsh.step_agree _ _ _ _ _ _ _)]

theorem transform_erase (rot : Rot w) (T : Word w) (data : Bytes) (n : Nat) (s : Blk (St w)) : L.erase (Model.Leak.Lsh.transform rot T data n s) = Model.Locals.Lsh.transform rot T data n s := by
  unfold Model.Leak.Lsh.transform Model.Locals.Lsh.transform
  erase_simp [Lsh.block_erase]

theorem transform_agree (rot : Rot w) (T : Word w) (data data' : Bytes) (n : Nat) (s s' : Blk (St w)) : Agree Any (Model.Leak.Lsh.transform rot T data n s) (Model.Leak.Lsh.transform rot T data' n s') := by
  unfold Model.Leak.Lsh.transform
  agree [(Lsh.block_agree _ _ _ _ _ _)]

end Digestpp.Proofs.Leak.Lsh
