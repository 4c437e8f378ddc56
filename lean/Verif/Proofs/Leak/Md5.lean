import Verif.Proofs.Leak.Basic
import Verif.Model.Leak.Md5

/-! Traces of the functions of `Model/Leak/Md5`: without the trace they are those of `Model/Locals`; the trace is the same for all data. -/

namespace Digestpp.Proofs.Leak.Md5
open Model
open Model.Md5
theorem roundf_erase (r : Nat) (a b c d : BitVec 32) (data : Bytes) (o : Nat) : L.erase (Model.Leak.Md5.roundf r a b c d data o) = Model.Locals.Md5.roundf r a b c d data o := by
  unfold Model.Leak.Md5.roundf Model.Locals.Md5.roundf
  erase_simp []

theorem roundf_agree (r : Nat) (a b c d a' b' c' d' : BitVec 32) (data data' : Bytes) (o : Nat) : Agree Any (Model.Leak.Md5.roundf r a b c d data o) (Model.Leak.Md5.roundf r a' b' c' d' data' o) := by
  unfold Model.Leak.Md5.roundf
  agree []

theorem roundg_erase (r : Nat) (a b c d : BitVec 32) (data : Bytes) (o : Nat) : L.erase (Model.Leak.Md5.roundg r a b c d data o) = Model.Locals.Md5.roundg r a b c d data o := by
  unfold Model.Leak.Md5.roundg Model.Locals.Md5.roundg
  erase_simp []

theorem roundg_agree (r : Nat) (a b c d a' b' c' d' : BitVec 32) (data data' : Bytes) (o : Nat) : Agree Any (Model.Leak.Md5.roundg r a b c d data o) (Model.Leak.Md5.roundg r a' b' c' d' data' o) := by
  unfold Model.Leak.Md5.roundg
  agree []

theorem roundh_erase (r : Nat) (a b c d : BitVec 32) (data : Bytes) (o : Nat) : L.erase (Model.Leak.Md5.roundh r a b c d data o) = Model.Locals.Md5.roundh r a b c d data o := by
  unfold Model.Leak.Md5.roundh Model.Locals.Md5.roundh
  erase_simp []

theorem roundh_agree (r : Nat) (a b c d a' b' c' d' : BitVec 32) (data data' : Bytes) (o : Nat) : Agree Any (Model.Leak.Md5.roundh r a b c d data o) (Model.Leak.Md5.roundh r a' b' c' d' data' o) := by
  unfold Model.Leak.Md5.roundh
  agree []

theorem roundi_erase (r : Nat) (a b c d : BitVec 32) (data : Bytes) (o : Nat) : L.erase (Model.Leak.Md5.roundi r a b c d data o) = Model.Locals.Md5.roundi r a b c d data o := by
  unfold Model.Leak.Md5.roundi Model.Locals.Md5.roundi
  erase_simp []

theorem roundi_agree (r : Nat) (a b c d a' b' c' d' : BitVec 32) (data data' : Bytes) (o : Nat) : Agree Any (Model.Leak.Md5.roundi r a b c d data o) (Model.Leak.Md5.roundi r a' b' c' d' data' o) := by
  unfold Model.Leak.Md5.roundi
  agree []

theorem four_erase {f : Model.Leak.Md5.Round} {g : Model.Locals.Md5.Round} (h : ∀ r a b c d data o, L.erase (f r a b c d data o) = g r a b c d data o)
    (data : Bytes) (o : Nat) (v : Vars) (r : Nat) : L.erase (Model.Leak.Md5.four f data o v r) = Model.Locals.Md5.four g data o v r := by
  unfold Model.Leak.Md5.four Model.Locals.Md5.four
  erase_simp [h]

theorem four_agree {f : Model.Leak.Md5.Round} (h : ∀ r a b c d a' b' c' d' data data' o, Agree Any (f r a b c d data o) (f r a' b' c' d' data' o))
    (data data' : Bytes) (o : Nat) (v v' : Vars) (r : Nat) : Agree Any (Model.Leak.Md5.four f data o v r) (Model.Leak.Md5.four f data' o v' r) := by
  unfold Model.Leak.Md5.four
  agree [(h _ _ _ _ _ _ _ _ _ _ _ _)]

theorem block_erase (data : Bytes) (blk : Nat) (H : List (BitVec 32)) : L.erase (Model.Leak.Md5.block data blk H) = Model.Locals.Md5.block data blk H := by
  unfold Model.Leak.Md5.block Model.Locals.Md5.block
  erase_simp [Md5.roundf_erase, Md5.roundg_erase, Md5.roundh_erase, Md5.roundi_erase, four_erase roundf_erase, four_erase roundg_erase, four_erase roundh_erase, four_erase roundi_erase]

theorem block_agree (data data' : Bytes) (blk : Nat) (H H' : List (BitVec 32)) : Agree Any (Model.Leak.Md5.block data blk H) (Model.Leak.Md5.block data' blk H') := by
  unfold Model.Leak.Md5.block
  agree [(Md5.roundf_agree _ _ _ _ _ _ _ _ _ _ _ _), (Md5.roundg_agree _ _ _ _ _ _ _ _ _ _ _ _), (Md5.roundh_agree _ _ _ _ _ _ _ _ _ _ _ _), (Md5.roundi_agree _ _ _ _ _ _ _ _ _ _ _ _), (four_agree roundf_agree _ _ _ _ _ _), (four_agree roundg_agree _ _ _ _ _ _), (four_agree roundh_agree _ _ _ _ _ _), (four_agree roundi_agree _ _ _ _ _ _)]

theorem transform_erase (data : Bytes) (n : Nat) (s : Blk (List (BitVec 32))) : L.erase (Model.Leak.Md5.transform data n s) = Model.Locals.Md5.transform data n s := by
  unfold Model.Leak.Md5.transform Model.Locals.Md5.transform
  erase_simp [Md5.block_erase]

theorem transform_agree (data data' : Bytes) (n : Nat) (s s' : Blk (List (BitVec 32))) : Agree Any (Model.Leak.Md5.transform data n s) (Model.Leak.Md5.transform data' n s') := by
  unfold Model.Leak.Md5.transform
  agree [(Md5.block_agree _ _ _ _ _)]

end Digestpp.Proofs.Leak.Md5
