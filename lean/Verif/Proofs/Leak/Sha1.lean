import Verif.Proofs.Leak.Basic
import Verif.Model.Leak.Sha1

/-! Traces of the functions of `Model/Leak/Sha1`: without the trace they are those of `Model/Locals`; the trace is the same for all data. -/

namespace Digestpp.Proofs.Leak
open Model
theorem loadM32_erase (data : Bytes) (blk : Nat) (Mw : List (BitVec 32)) : L.erase (Model.Leak.loadM32 data blk Mw) = Model.Locals.loadM32 data blk Mw := by
  unfold Model.Leak.loadM32 Model.Locals.loadM32
  erase_simp []

theorem loadM32_agree (data data' : Bytes) (blk : Nat) (Mw Mw' : List (BitVec 32)) : Agree Any (Model.Leak.loadM32 data blk Mw) (Model.Leak.loadM32 data' blk Mw') := by
  unfold Model.Leak.loadM32
  agree []

theorem copyW32_erase (Mw : List (BitVec 32)) (W : List (BitVec 32)) : L.erase (Model.Leak.copyW32 Mw W) = Model.Locals.copyW32 Mw W := by
  unfold Model.Leak.copyW32 Model.Locals.copyW32
  erase_simp []

theorem copyW32_agree (Mw Mw' : List (BitVec 32)) (W W' : List (BitVec 32)) : Agree Any (Model.Leak.copyW32 Mw W) (Model.Leak.copyW32 Mw' W') := by
  unfold Model.Leak.copyW32
  agree []

namespace Sha1
open Model.Sha1
open Locals.Sha1 (Stack)
theorem expandW_erase (W : List (BitVec 32)) : L.erase (Model.Leak.Sha1.expandW W) = Model.Locals.Sha1.expandW W := by
  unfold Model.Leak.Sha1.expandW Model.Locals.Sha1.expandW
  erase_simp []

theorem expandW_agree (W W' : List (BitVec 32)) : Agree Any (Model.Leak.Sha1.expandW W) (Model.Leak.Sha1.expandW W') := by
  unfold Model.Leak.Sha1.expandW
  agree []

theorem switch_erase (t : Nat) (v : Vars) : L.erase (Model.Leak.Sha1.switch t v) = Model.Locals.Sha1.switch t v := by
  unfold Model.Leak.Sha1.switch Model.Locals.Sha1.switch
  erase_simp []

theorem switch_agree (t : Nat) (v v' : Vars) : Agree Any (Model.Leak.Sha1.switch t v) (Model.Leak.Sha1.switch t v') := by
  unfold Model.Leak.Sha1.switch
  agree []

theorem round_erase (W : List (BitVec 32)) (t : Nat) (v : Vars) : L.erase (Model.Leak.Sha1.round W t v) = Model.Locals.Sha1.round W t v := by
  unfold Model.Leak.Sha1.round Model.Locals.Sha1.round
  erase_simp [Sha1.switch_erase]

theorem round_agree (W W' : List (BitVec 32)) (t : Nat) (v v' : Vars) : Agree Any (Model.Leak.Sha1.round W t v) (Model.Leak.Sha1.round W' t v') := by
  unfold Model.Leak.Sha1.round
  agree [(Sha1.switch_agree _ _ _)]

theorem vars_erase (H : List (BitVec 32)) : L.erase (Model.Leak.Sha1.vars H) = Model.Locals.Sha1.vars H := by
  unfold Model.Leak.Sha1.vars Model.Locals.Sha1.vars
  erase_simp []

theorem vars_agree (H H' : List (BitVec 32)) : Agree Any (Model.Leak.Sha1.vars H) (Model.Leak.Sha1.vars H') := by
  unfold Model.Leak.Sha1.vars
  agree []

theorem add_erase (v : Vars) (H : List (BitVec 32)) : L.erase (Model.Leak.Sha1.add v H) = Model.Locals.Sha1.add v H := by
  unfold Model.Leak.Sha1.add Model.Locals.Sha1.add
  erase_simp []

theorem add_agree (v v' : Vars) (H H' : List (BitVec 32)) : Agree Any (Model.Leak.Sha1.add v H) (Model.Leak.Sha1.add v' H') := by
  unfold Model.Leak.Sha1.add
  agree []

theorem block_erase (k : Stack) (data : Bytes) (blk : Nat) (H : List (BitVec 32)) : L.erase (Model.Leak.Sha1.block k data blk H) = Model.Locals.Sha1.block k data blk H := by
  unfold Model.Leak.Sha1.block Model.Locals.Sha1.block
  erase_simp [loadM32_erase, copyW32_erase, Sha1.expandW_erase, Sha1.round_erase, Sha1.vars_erase, Sha1.add_erase]

theorem block_agree (k k' : Stack) (data data' : Bytes) (blk : Nat) (H H' : List (BitVec 32)) : Agree Any (Model.Leak.Sha1.block k data blk H) (Model.Leak.Sha1.block k' data' blk H') := by
  unfold Model.Leak.Sha1.block
  agree [(loadM32_agree _ _ _ _ _), (copyW32_agree _ _ _ _), (Sha1.expandW_agree _ _), (Sha1.round_agree _ _ _ _ _), (Sha1.vars_agree _ _), (Sha1.add_agree _ _ _ _)]

theorem transform_erase (k : Nat → Stack) (data : Bytes) (n : Nat) (s : Blk (List (BitVec 32))) : L.erase (Model.Leak.Sha1.transform k data n s) = Model.Locals.Sha1.transform k data n s := by
  unfold Model.Leak.Sha1.transform Model.Locals.Sha1.transform
  erase_simp [Sha1.block_erase]

theorem transform_agree (k k' : Nat → Stack) (data data' : Bytes) (n : Nat) (s s' : Blk (List (BitVec 32))) : Agree Any (Model.Leak.Sha1.transform k data n s) (Model.Leak.Sha1.transform k' data' n s') := by
  unfold Model.Leak.Sha1.transform
  agree [(Sha1.block_agree _ _ _ _ _ _ _)]

end Sha1
namespace Sm3
open Model.Sm3
open Locals.Sm3 (Stack)
theorem expandW_erase (W : List (BitVec 32)) : L.erase (Model.Leak.Sm3.expandW W) = Model.Locals.Sm3.expandW W := by
  unfold Model.Leak.Sm3.expandW Model.Locals.Sm3.expandW
  erase_simp []

theorem expandW_agree (W W' : List (BitVec 32)) : Agree Any (Model.Leak.Sm3.expandW W) (Model.Leak.Sm3.expandW W') := by
  unfold Model.Leak.Sm3.expandW
  agree []

theorem fillW2_erase (W : List (BitVec 32)) (W2 : List (BitVec 32)) : L.erase (Model.Leak.Sm3.fillW2 W W2) = Model.Locals.Sm3.fillW2 W W2 := by
  unfold Model.Leak.Sm3.fillW2 Model.Locals.Sm3.fillW2
  erase_simp []

theorem fillW2_agree (W W' : List (BitVec 32)) (W2 W2' : List (BitVec 32)) : Agree Any (Model.Leak.Sm3.fillW2 W W2) (Model.Leak.Sm3.fillW2 W' W2') := by
  unfold Model.Leak.Sm3.fillW2
  agree []

theorem round_erase (rot : Rot) (k : BitVec 32) (ff : BitVec 32 → BitVec 32 → BitVec 32 → BitVec 32) (gg : BitVec 32 → BitVec 32 → BitVec 32 → BitVec 32) (W : List (BitVec 32)) (W2 : List (BitVec 32)) (t : Nat) (v : Vars) : L.erase (Model.Leak.Sm3.round rot k ff gg W W2 t v) = Model.Locals.Sm3.round rot k ff gg W W2 t v := by
  unfold Model.Leak.Sm3.round Model.Locals.Sm3.round
  erase_simp []

theorem round_agree (rot : Rot) (k k' : BitVec 32) (ff ff' : BitVec 32 → BitVec 32 → BitVec 32 → BitVec 32) (gg gg' : BitVec 32 → BitVec 32 → BitVec 32 → BitVec 32) (W W' : List (BitVec 32)) (W2 W2' : List (BitVec 32)) (t : Nat) (v v' : Vars) : Agree Any (Model.Leak.Sm3.round rot k ff gg W W2 t v) (Model.Leak.Sm3.round rot k' ff' gg' W' W2' t v') := by
  unfold Model.Leak.Sm3.round
  agree []

theorem vars_erase (H : List (BitVec 32)) : L.erase (Model.Leak.Sm3.vars H) = Model.Locals.Sm3.vars H := by
  unfold Model.Leak.Sm3.vars Model.Locals.Sm3.vars
  erase_simp []

theorem vars_agree (H H' : List (BitVec 32)) : Agree Any (Model.Leak.Sm3.vars H) (Model.Leak.Sm3.vars H') := by
  unfold Model.Leak.Sm3.vars
  agree []

theorem add_erase (v : Vars) (H : List (BitVec 32)) : L.erase (Model.Leak.Sm3.add v H) = Model.Locals.Sm3.add v H := by
  unfold Model.Leak.Sm3.add Model.Locals.Sm3.add
  erase_simp []

theorem add_agree (v v' : Vars) (H H' : List (BitVec 32)) : Agree Any (Model.Leak.Sm3.add v H) (Model.Leak.Sm3.add v' H') := by
  unfold Model.Leak.Sm3.add
  agree []

theorem block_erase (rot : Rot) (k : Stack) (data : Bytes) (blk : Nat) (H : List (BitVec 32)) : L.erase (Model.Leak.Sm3.block rot k data blk H) = Model.Locals.Sm3.block rot k data blk H := by
  unfold Model.Leak.Sm3.block Model.Locals.Sm3.block
  erase_simp [loadM32_erase, copyW32_erase, Sha1.expandW_erase, Sha1.round_erase, Sha1.vars_erase, Sha1.add_erase, Sm3.expandW_erase, Sm3.fillW2_erase, Sm3.round_erase, Sm3.vars_erase, Sm3.add_erase]

theorem block_agree (rot : Rot) (k k' : Stack) (data data' : Bytes) (blk : Nat) (H H' : List (BitVec 32)) : Agree Any (Model.Leak.Sm3.block rot k data blk H) (Model.Leak.Sm3.block rot k' data' blk H') := by
  unfold Model.Leak.Sm3.block
  agree [(loadM32_agree _ _ _ _ _), (copyW32_agree _ _ _ _), (Sha1.expandW_agree _ _), (Sha1.round_agree _ _ _ _ _), (Sha1.vars_agree _ _), (Sha1.add_agree _ _ _ _), (Sm3.expandW_agree _ _), (Sm3.fillW2_agree _ _ _ _), (Sm3.round_agree _ _ _ _ _ _ _ _ _ _ _ _ _ _), (Sm3.vars_agree _ _), (Sm3.add_agree _ _ _ _)]

theorem transform_erase (rot : Rot) (k : Nat → Stack) (data : Bytes) (n : Nat) (s : Blk (List (BitVec 32))) : L.erase (Model.Leak.Sm3.transform rot k data n s) = Model.Locals.Sm3.transform rot k data n s := by
  unfold Model.Leak.Sm3.transform Model.Locals.Sm3.transform
  erase_simp [Sha1.block_erase, Sm3.block_erase]

theorem transform_agree (rot : Rot) (k k' : Nat → Stack) (data data' : Bytes) (n : Nat) (s s' : Blk (List (BitVec 32))) : Agree Any (Model.Leak.Sm3.transform rot k data n s) (Model.Leak.Sm3.transform rot k' data' n s') := by
  unfold Model.Leak.Sm3.transform
  agree [(Sha1.block_agree _ _ _ _ _ _ _), (Sm3.block_agree _ _ _ _ _ _ _ _)]

end Sm3
end Digestpp.Proofs.Leak
