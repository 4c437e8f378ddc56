import Verif.Model.Validate

namespace Digestpp.Proofs
open Model

theorem validateMax_iff (hs max : Nat) : validateMax hs max = true ↔ 0 < hs ∧ hs % 8 = 0 ∧ hs ≤ max := by
  unfold validateMax
  split
  · simp; omega
  · split
    · simp; omega
    · split
      · simp; omega
      · simp; omega

theorem validateList_iff (hs : Nat) (set : List Nat) : validateList hs set = true ↔ 0 < hs := by
  unfold validateList
  split
  · simp; omega
  · simp; omega

end Digestpp.Proofs
