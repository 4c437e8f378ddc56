import Verif.Proofs.Leak.Basic
import Verif.Model.Leak.Jh

/-! Traces of the functions of `Model/Leak/Jh`: without the trace they are those of `Model/Locals`; the trace is the same for all data. -/

namespace Digestpp.Proofs.Leak.Jh
open Model
open Model.Jh
open Locals.Jh (sbitsliBody)
theorem bitswapAt_erase (mask : BitVec 64) (shift : Nat) (i : Nat) (H : List (BitVec 64)) : L.erase (Model.Leak.Jh.bitswapAt mask shift i H) = Model.Locals.Jh.bitswapAt mask shift i H := by
  unfold Model.Leak.Jh.bitswapAt Model.Locals.Jh.bitswapAt
  erase_simp []

theorem bitswapAt_agree (mask mask' : BitVec 64) (shift : Nat) (i : Nat) (H H' : List (BitVec 64)) : Agree Any (Model.Leak.Jh.bitswapAt mask shift i H) (Model.Leak.Jh.bitswapAt mask' shift i H') := by
  unfold Model.Leak.Jh.bitswapAt
  agree []

theorem bitswap_erase (mask : BitVec 64) (shift : Nat) (H : List (BitVec 64)) : L.erase (Model.Leak.Jh.bitswap mask shift H) = Model.Locals.Jh.bitswap mask shift H := by
  unfold Model.Leak.Jh.bitswap Model.Locals.Jh.bitswap
  erase_simp [Jh.bitswapAt_erase]

theorem bitswap_agree (mask mask' : BitVec 64) (shift : Nat) (H H' : List (BitVec 64)) : Agree Any (Model.Leak.Jh.bitswap mask shift H) (Model.Leak.Jh.bitswap mask' shift H') := by
  unfold Model.Leak.Jh.bitswap
  agree [(Jh.bitswapAt_agree _ _ _ _ _ _)]

theorem sbitsli_erase (i : Nat) (c : Nat) (H : List (BitVec 64)) : L.erase (Model.Leak.Jh.sbitsli i c H) = Model.Locals.Jh.sbitsli i c H := by
  unfold Model.Leak.Jh.sbitsli Model.Locals.Jh.sbitsli
  erase_simp []

theorem sbitsli_agree (i : Nat) (c : Nat) (H H' : List (BitVec 64)) : Agree Any (Model.Leak.Jh.sbitsli i c H) (Model.Leak.Jh.sbitsli i c H') := by
  unfold Model.Leak.Jh.sbitsli
  agree []

theorem xor1_erase (i : Nat) (j : Nat) (H : List (BitVec 64)) : L.erase (Model.Leak.Jh.xor1 i j H) = Model.Locals.Jh.xor1 i j H := by
  unfold Model.Leak.Jh.xor1 Model.Locals.Jh.xor1
  erase_simp []

theorem xor1_agree (i : Nat) (j : Nat) (H H' : List (BitVec 64)) : Agree Any (Model.Leak.Jh.xor1 i j H) (Model.Leak.Jh.xor1 i j H') := by
  unfold Model.Leak.Jh.xor1
  agree []

theorem xor2_erase (i : Nat) (j : Nat) (k : Nat) (H : List (BitVec 64)) : L.erase (Model.Leak.Jh.xor2 i j k H) = Model.Locals.Jh.xor2 i j k H := by
  unfold Model.Leak.Jh.xor2 Model.Locals.Jh.xor2
  erase_simp []

theorem xor2_agree (i : Nat) (j : Nat) (k : Nat) (H H' : List (BitVec 64)) : Agree Any (Model.Leak.Jh.xor2 i j k H) (Model.Leak.Jh.xor2 i j k H') := by
  unfold Model.Leak.Jh.xor2
  agree []

theorem lbitsli_erase (H : List (BitVec 64)) : L.erase (Model.Leak.Jh.lbitsli H) = Model.Locals.Jh.lbitsli H := by
  unfold Model.Leak.Jh.lbitsli Model.Locals.Jh.lbitsli
  erase_simp [Jh.xor1_erase, Jh.xor2_erase]

theorem lbitsli_agree (H H' : List (BitVec 64)) : Agree Any (Model.Leak.Jh.lbitsli H) (Model.Leak.Jh.lbitsli H') := by
  unfold Model.Leak.Jh.lbitsli
  agree [(Jh.xor1_agree _ _ _ _), (Jh.xor2_agree _ _ _ _ _)]

theorem round_erase (r : Nat) (mask : BitVec 64) (shift : Nat) (H : List (BitVec 64)) : L.erase (Model.Leak.Jh.round r mask shift H) = Model.Locals.Jh.round r mask shift H := by
  unfold Model.Leak.Jh.round Model.Locals.Jh.round
  erase_simp [Jh.bitswap_erase, Jh.sbitsli_erase, Jh.lbitsli_erase]

theorem round_agree (r : Nat) (mask mask' : BitVec 64) (shift : Nat) (H H' : List (BitVec 64)) : Agree Any (Model.Leak.Jh.round r mask shift H) (Model.Leak.Jh.round r mask' shift H') := by
  unfold Model.Leak.Jh.round
  agree [(Jh.bitswap_agree _ _ _ _ _), (Jh.sbitsli_agree _ _ _ _), (Jh.lbitsli_agree _ _)]

theorem swap_erase (i : Nat) (j : Nat) (H : List (BitVec 64)) : L.erase (Model.Leak.Jh.swap i j H) = Model.Locals.Jh.swap i j H := by
  unfold Model.Leak.Jh.swap Model.Locals.Jh.swap
  erase_simp []

theorem swap_agree (i : Nat) (j : Nat) (H H' : List (BitVec 64)) : Agree Any (Model.Leak.Jh.swap i j H) (Model.Leak.Jh.swap i j H') := by
  unfold Model.Leak.Jh.swap
  agree []

theorem seven_erase (r : Nat) (H : List (BitVec 64)) : L.erase (Model.Leak.Jh.seven r H) = Model.Locals.Jh.seven r H := by
  unfold Model.Leak.Jh.seven Model.Locals.Jh.seven
  erase_simp [Jh.round_erase, Jh.swap_erase]

theorem seven_agree (r : Nat) (H H' : List (BitVec 64)) : Agree Any (Model.Leak.Jh.seven r H) (Model.Leak.Jh.seven r H') := by
  unfold Model.Leak.Jh.seven
  agree [(Jh.round_agree _ _ _ _ _ _), (Jh.swap_agree _ _ _ _)]

theorem xorM_erase (o : Nat) (mp : Bytes) (H : List (BitVec 64)) : L.erase (Model.Leak.Jh.xorM o mp H) = Model.Locals.Jh.xorM o mp H := by
  unfold Model.Leak.Jh.xorM Model.Locals.Jh.xorM
  erase_simp []

theorem xorM_agree (o : Nat) (mp mp' : Bytes) (H H' : List (BitVec 64)) : Agree Any (Model.Leak.Jh.xorM o mp H) (Model.Leak.Jh.xorM o mp' H') := by
  unfold Model.Leak.Jh.xorM
  agree []

theorem block_erase (mp : Bytes) (H : List (BitVec 64)) : L.erase (Model.Leak.Jh.block mp H) = Model.Locals.Jh.block mp H := by
  unfold Model.Leak.Jh.block Model.Locals.Jh.block
  erase_simp [Jh.seven_erase, Jh.xorM_erase]

theorem block_agree (mp mp' : Bytes) (H H' : List (BitVec 64)) : Agree Any (Model.Leak.Jh.block mp H) (Model.Leak.Jh.block mp' H') := by
  unfold Model.Leak.Jh.block
  agree [(Jh.seven_agree _ _ _), (Jh.xorM_agree _ _ _ _ _)]

theorem transform_erase (data : Bytes) (n : Nat) (s : Blk St) : L.erase (Model.Leak.Jh.transform data n s) = Model.Locals.Jh.transform data n s := by
  unfold Model.Leak.Jh.transform Model.Locals.Jh.transform
  erase_simp [Jh.block_erase]

theorem transform_agree (data data' : Bytes) (n : Nat) (s s' : Blk St) : Agree Any (Model.Leak.Jh.transform data n s) (Model.Leak.Jh.transform data' n s') := by
  unfold Model.Leak.Jh.transform
  agree [(Jh.block_agree _ _ _ _)]

end Digestpp.Proofs.Leak.Jh
