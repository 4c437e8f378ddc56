import Verif.Model.Kupyna
import Verif.Spec.Kupyna
import Verif.Proofs.Pack

/-! The tables of the Kupyna provider. -/

namespace Digestpp.Proofs.Kupyna
open Model Spec Spec.Kupyna

theorem T0_eq : kupyna_T0 = pi0.map (fun s => pack fun i => mul s (B i 0)) := by decide +kernel
theorem T1_eq : kupyna_T1 = pi1.map (fun s => pack fun i => mul s (B i 1)) := by decide +kernel
theorem T2_eq : kupyna_T2 = pi2.map (fun s => pack fun i => mul s (B i 2)) := by decide +kernel
theorem T3_eq : kupyna_T3 = pi3.map (fun s => pack fun i => mul s (B i 3)) := by decide +kernel

theorem Tr_eq : ∀ r, r < 4 → kupyna_T.getD (r + 4) [] = (kupyna_T.getD r []).map (fun x => x.rotateLeft (8 * 4)) := by
  decide +kernel

theorem len_pi : ∀ r, r < 4 → (([pi0, pi1, pi2, pi3].getD r [])).length = 256 := by decide +kernel

theorem getD_map {α β : Type} (l : List α) (f : α → β) (i : Nat) (a : α) (b : β) (h : i < l.length) :
    (l.map f).getD i b = f (l.getD i a) := by
  simp [List.getD_eq_getElem?_getD, h]

theorem low (r : Nat) (hr : r < 4) : kupyna_T.getD r [] = ([pi0, pi1, pi2, pi3].getD r []).map (fun s => pack fun i => mul s (B i r)) := by
  have : r = 0 ∨ r = 1 ∨ r = 2 ∨ r = 3 := by omega
  rcases this with rfl | rfl | rfl | rfl
  · exact T0_eq
  · exact T1_eq
  · exact T2_eq
  · exact T3_eq

theorem look_pack (r : Nat) (hr : r < 8) (f : Nat → Byte) :
    Model.Kupyna.look r (pack f) = pack fun i => mul (sbox r (f r)) (B i r) := by
  unfold Model.Kupyna.look sbox
  rw [byte_pack _ _ hr]
  by_cases h4 : r < 4
  · rw [low r h4, Nat.mod_eq_of_lt h4, getD_map _ _ _ 0 _ (by rw [len_pi r h4]; exact (f r).isLt)]
  · obtain ⟨q, rfl⟩ : ∃ q, r = q + 4 := ⟨r - 4, by omega⟩
    have hq : q < 4 := by omega
    rw [Tr_eq q hq, low q hq, Nat.add_mod_right, Nat.mod_eq_of_lt hq, List.map_map,
      getD_map _ _ _ 0 _ (by rw [len_pi q hq]; exact (f _).isLt)]
    show BitVec.rotateLeft (pack _) (8 * 4) = _
    rw [rotateLeft_pack _ _ (by omega)]
    apply pack_congr
    intro i hi
    congr 1
    unfold B
    congr 1
    omega

end Digestpp.Proofs.Kupyna
