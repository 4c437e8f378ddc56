import Verif.Proofs.Leak.Basic
import Verif.Model.Leak.Ascon

/-! Traces of the functions of `Model/Leak/Ascon`: without the trace they are those of `Model/Locals`; the trace is the same for all data. -/

namespace Digestpp.Proofs.Leak.Ascon
open Model
open Model.Ascon
theorem xorHH_erase (a : Nat) (b : Nat) (H : List (BitVec 64)) : L.erase (Model.Leak.Ascon.xorHH a b H) = Model.Locals.Ascon.xorHH a b H := by
  unfold Model.Leak.Ascon.xorHH Model.Locals.Ascon.xorHH
  erase_simp []

theorem xorHH_agree (a : Nat) (b : Nat) (H H' : List (BitVec 64)) : Agree Any (Model.Leak.Ascon.xorHH a b H) (Model.Leak.Ascon.xorHH a b H') := by
  unfold Model.Leak.Ascon.xorHH
  agree []

theorem chi_erase (a : Nat) (b : Nat) (c : Nat) (H : List (BitVec 64)) : L.erase (Model.Leak.Ascon.chi a b c H) = Model.Locals.Ascon.chi a b c H := by
  unfold Model.Leak.Ascon.chi Model.Locals.Ascon.chi
  erase_simp []

theorem chi_agree (a : Nat) (b : Nat) (c : Nat) (H H' : List (BitVec 64)) : Agree Any (Model.Leak.Ascon.chi a b c H) (Model.Leak.Ascon.chi a b c H') := by
  unfold Model.Leak.Ascon.chi
  agree []

theorem round_erase (i : Nat) (H : List (BitVec 64)) : L.erase (Model.Leak.Ascon.round i H) = Model.Locals.Ascon.round i H := by
  unfold Model.Leak.Ascon.round Model.Locals.Ascon.round
  erase_simp [Ascon.xorHH_erase, Ascon.chi_erase]

theorem round_agree (i : Nat) (H H' : List (BitVec 64)) : Agree Any (Model.Leak.Ascon.round i H) (Model.Leak.Ascon.round i H') := by
  unfold Model.Leak.Ascon.round
  agree [(Ascon.xorHH_agree _ _ _ _), (Ascon.chi_agree _ _ _ _ _)]

theorem block_erase (data : Bytes) (blk : Nat) (H : List (BitVec 64)) : L.erase (Model.Leak.Ascon.block data blk H) = Model.Locals.Ascon.block data blk H := by
  unfold Model.Leak.Ascon.block Model.Locals.Ascon.block
  erase_simp [Ascon.round_erase]

theorem block_agree (data data' : Bytes) (blk : Nat) (H H' : List (BitVec 64)) : Agree Any (Model.Leak.Ascon.block data blk H) (Model.Leak.Ascon.block data' blk H') := by
  unfold Model.Leak.Ascon.block
  agree [(Ascon.round_agree _ _ _)]

theorem transform_erase (data : Bytes) (n : Nat) (s : Blk St) : L.erase (Model.Leak.Ascon.transform data n s) = Model.Locals.Ascon.transform data n s := by
  unfold Model.Leak.Ascon.transform Model.Locals.Ascon.transform
  erase_simp [Ascon.block_erase]

theorem transform_agree (data data' : Bytes) (n : Nat) (s s' : Blk St) : Agree Any (Model.Leak.Ascon.transform data n s) (Model.Leak.Ascon.transform data' n s') := by
  unfold Model.Leak.Ascon.transform
  agree [(Ascon.block_agree _ _ _ _ _)]

end Digestpp.Proofs.Leak.Ascon
