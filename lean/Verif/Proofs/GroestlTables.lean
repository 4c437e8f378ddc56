import Verif.Model.Groestl
import Verif.Spec.Groestl
import Verif.Proofs.Pack
import Verif.Proofs.Aes

/-! The tables of the Grøstl provider. -/

namespace Digestpp.Proofs.Groestl
open Model Spec Spec.Groestl

theorem T0_eq : groestl_T0 = aesTable.map (fun s => pack fun i => aesMul s (B i 0)) := by decide +kernel

theorem Tr_eq : ∀ r, r < 8 → groestl_T.getD r [] = groestl_T0.map (fun x => x.rotateLeft (8 * r)) := by decide +kernel

theorem look_pack (r : Nat) (hr : r < 8) (f : Nat → Byte) :
    Model.Groestl.look r (pack f) = pack fun i => aesMul (aesSbox (f r)) (B i r) := by
  unfold Model.Groestl.look
  rw [byte_pack _ _ hr, Tr_eq r hr, T0_eq, List.map_map, aesTable_map, getD_map_range _ _ _ _ (f r).isLt]
  show BitVec.rotateLeft (pack _) (8 * r) = _
  rw [rotateLeft_pack _ _ hr, BitVec.ofNat_toNat, BitVec.setWidth_eq]
  apply pack_congr
  intro i hi
  congr 1
  unfold B
  congr 1
  omega

end Digestpp.Proofs.Groestl
