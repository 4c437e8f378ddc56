import Verif.Proofs.Leak.Basic
import Verif.Model.Leak.Esch

/-! Traces of the functions of `Model/Leak/Esch`: without the trace they are those of `Model/Locals`; the trace is the same for all data. -/

namespace Digestpp.Proofs.Leak.Esch
open Model
open Model.Esch
theorem stmt_erase (a : Nat) (b : Nat) (f : BitVec 32 → BitVec 32 → BitVec 32) (H : List (BitVec 32)) : L.erase (Model.Leak.Esch.stmt a b f H) = Model.Locals.Esch.stmt a b f H := by
  unfold Model.Leak.Esch.stmt Model.Locals.Esch.stmt
  erase_simp []

theorem stmt_agree (a : Nat) (b : Nat) (f : BitVec 32 → BitVec 32 → BitVec 32) (H H' : List (BitVec 32)) : Agree Any (Model.Leak.Esch.stmt a b f H) (Model.Leak.Esch.stmt a b f H') := by
  unfold Model.Leak.Esch.stmt
  agree []

theorem xorC_erase (a : Nat) (j : Nat) (H : List (BitVec 32)) : L.erase (Model.Leak.Esch.xorC a j H) = Model.Locals.Esch.xorC a j H := by
  unfold Model.Leak.Esch.xorC Model.Locals.Esch.xorC
  erase_simp []

theorem xorC_agree (a : Nat) (j : Nat) (H H' : List (BitVec 32)) : Agree Any (Model.Leak.Esch.xorC a j H) (Model.Leak.Esch.xorC a j H') := by
  unfold Model.Leak.Esch.xorC
  agree []

theorem arxBody_erase (px : Nat) (py : Nat) (j : Nat) (H : List (BitVec 32)) : L.erase (Model.Leak.Esch.arxBody px py j H) = Model.Locals.Esch.arxBody px py j H := by
  unfold Model.Leak.Esch.arxBody Model.Locals.Esch.arxBody
  erase_simp [Esch.stmt_erase, Esch.xorC_erase]

theorem arxBody_agree (px : Nat) (py : Nat) (j : Nat) (H H' : List (BitVec 32)) : Agree Any (Model.Leak.Esch.arxBody px py j H) (Model.Leak.Esch.arxBody px py j H') := by
  unfold Model.Leak.Esch.arxBody
  agree [(Esch.stmt_agree _ _ _ _ _), (Esch.xorC_agree _ _ _ _)]

theorem feistelXY_erase (rounds : Nat) (H : List (BitVec 32)) : L.erase (Model.Leak.Esch.feistelXY rounds H) = Model.Locals.Esch.feistelXY rounds H := by
  unfold Model.Leak.Esch.feistelXY Model.Locals.Esch.feistelXY
  erase_simp []

theorem feistelXY_agree (rounds : Nat) (H H' : List (BitVec 32)) : Agree Any (Model.Leak.Esch.feistelXY rounds H) (Model.Leak.Esch.feistelXY rounds H') := by
  unfold Model.Leak.Esch.feistelXY
  agree []

theorem feistelBody_erase (rounds : Nat) (x : BitVec 32) (y : BitVec 32) (k : Nat) (H : List (BitVec 32)) : L.erase (Model.Leak.Esch.feistelBody rounds x y k H) = Model.Locals.Esch.feistelBody rounds x y k H := by
  unfold Model.Leak.Esch.feistelBody Model.Locals.Esch.feistelBody
  erase_simp []

theorem feistelBody_agree (rounds : Nat) (x x' : BitVec 32) (y y' : BitVec 32) (k : Nat) (H H' : List (BitVec 32)) : Agree Any (Model.Leak.Esch.feistelBody rounds x y k H) (Model.Leak.Esch.feistelBody rounds x' y' k H') := by
  unfold Model.Leak.Esch.feistelBody
  agree []

theorem move_erase (a : Nat) (b : Nat) (H : List (BitVec 32)) : L.erase (Model.Leak.Esch.move a b H) = Model.Locals.Esch.move a b H := by
  unfold Model.Leak.Esch.move Model.Locals.Esch.move
  erase_simp []

theorem move_agree (a : Nat) (b : Nat) (H H' : List (BitVec 32)) : Agree Any (Model.Leak.Esch.move a b H) (Model.Leak.Esch.move a b H') := by
  unfold Model.Leak.Esch.move
  agree []

theorem permuteBranches_erase (rounds : Nat) (H : List (BitVec 32)) : L.erase (Model.Leak.Esch.permuteBranches rounds H) = Model.Locals.Esch.permuteBranches rounds H := by
  unfold Model.Leak.Esch.permuteBranches Model.Locals.Esch.permuteBranches
  erase_simp [Esch.move_erase]

theorem permuteBranches_agree (rounds : Nat) (H H' : List (BitVec 32)) : Agree Any (Model.Leak.Esch.permuteBranches rounds H) (Model.Leak.Esch.permuteBranches rounds H') := by
  unfold Model.Leak.Esch.permuteBranches
  agree [(Esch.move_agree _ _ _ _)]

theorem sparkleStep_erase (rounds : Nat) (s : Nat) (H : List (BitVec 32)) : L.erase (Model.Leak.Esch.sparkleStep rounds s H) = Model.Locals.Esch.sparkleStep rounds s H := by
  unfold Model.Leak.Esch.sparkleStep Model.Locals.Esch.sparkleStep
  erase_simp [Esch.xorC_erase, Esch.arxBody_erase, Esch.feistelXY_erase, Esch.feistelBody_erase, Esch.permuteBranches_erase]

theorem sparkleStep_agree (rounds : Nat) (s : Nat) (H H' : List (BitVec 32)) : Agree Any (Model.Leak.Esch.sparkleStep rounds s H) (Model.Leak.Esch.sparkleStep rounds s H') := by
  unfold Model.Leak.Esch.sparkleStep
  agree [(Esch.xorC_agree _ _ _ _), (Esch.arxBody_agree _ _ _ _ _), (Esch.feistelXY_agree _ _ _), (Esch.feistelBody_agree _ _ _ _ _ _ _ _), (Esch.permuteBranches_agree _ _ _)]

theorem sparkle_erase (rounds : Nat) (ns : Nat) (H : List (BitVec 32)) : L.erase (Model.Leak.Esch.sparkle rounds ns H) = Model.Locals.Esch.sparkle rounds ns H := by
  unfold Model.Leak.Esch.sparkle Model.Locals.Esch.sparkle
  erase_simp [Esch.sparkleStep_erase]

theorem sparkle_agree (rounds : Nat) (ns : Nat) (H H' : List (BitVec 32)) : Agree Any (Model.Leak.Esch.sparkle rounds ns H) (Model.Leak.Esch.sparkle rounds ns H') := by
  unfold Model.Leak.Esch.sparkle
  agree [(Esch.sparkleStep_agree _ _ _ _)]

theorem block_erase (hs : Nat) (lastBlock : Bool) (Mw : List (BitVec 32)) (data : Bytes) (blk : Nat) (H : List (BitVec 32)) : L.erase (Model.Leak.Esch.block hs lastBlock Mw data blk H) = Model.Locals.Esch.block hs lastBlock Mw data blk H := by
  unfold Model.Leak.Esch.block Model.Locals.Esch.block
  erase_simp [Esch.sparkle_erase]

theorem block_agree (hs : Nat) (lastBlock : Bool) (Mw Mw' : List (BitVec 32)) (data data' : Bytes) (blk : Nat) (H H' : List (BitVec 32)) : Agree Any (Model.Leak.Esch.block hs lastBlock Mw data blk H) (Model.Leak.Esch.block hs lastBlock Mw' data' blk H') := by
  unfold Model.Leak.Esch.block
  agree [(Esch.sparkle_agree _ _ _ _)]

theorem transform_erase (k : Nat → List (BitVec 32)) (lastBlock : Bool) (data : Bytes) (n : Nat) (s : Blk St) : L.erase (Model.Leak.Esch.transform k lastBlock data n s) = Model.Locals.Esch.transform k lastBlock data n s := by
  unfold Model.Leak.Esch.transform Model.Locals.Esch.transform
  erase_simp [Esch.block_erase]

theorem transform_agree (k k' : Nat → List (BitVec 32)) (lastBlock : Bool) (data data' : Bytes) (n : Nat) (s s' : Blk St) (hs : s.h.hs = s'.h.hs) : Agree Any (Model.Leak.Esch.transform k lastBlock data n s) (Model.Leak.Esch.transform k' lastBlock data' n s') := by
  unfold Model.Leak.Esch.transform
  rw [hs]
  agree [(Esch.block_agree _ _ _ _ _ _ _ _ _)]

end Digestpp.Proofs.Leak.Esch
