import Verif.Proofs.Wide.TKlog
import Verif.Proofs.Wide.Uniform

/-! C70: the tables of the S-boxes. -/

namespace Digestpp.Properties
open Model Spec

/-- The substitution of RFC 6986 is the function found by Perrin. -/
theorem streebog_tklog (a b : Byte) : StreebogField.TKlog a b ↔ Spec.Streebog.pi.getD a.toNat 0 = b := Proofs.Wide.Streebog.pi_tklog a b

/-- The linear transformation of RFC 6986 is multiplication by a matrix over the field. -/
theorem streebog_linear (w : BitVec 64) (i : Nat) (hi : i < 8) :
    byteAt (Spec.Streebog.l w) i = xorSum 8 fun k => StreebogField.mul (byteAt w k) (StreebogField.factor i k) := by
  have := Proofs.Wide.Streebog.l_matrix fun k => byteAt w k
  rw [Proofs.Wide.pack_byteAt] at this
  rw [this]
  exact Proofs.byte_pack _ i hi

/-- The tables of the code, without a literal of RFC 6986. -/
theorem streebog_tables (r : Nat) (hr : r < 8) (a b : Byte) (h : StreebogField.TKlog a b) (i : Nat) (hi : i < 8) :
    byteAt ((streebog_T.getD r []).getD a.toNat 0) i = StreebogField.mul b (StreebogField.factor i r) := by
  rw [Proofs.Wide.streebog_table r hr a, (streebog_tklog a b).mp h]
  exact Proofs.byte_pack _ i hi

/-- The relation is a function on all bytes. -/
theorem streebog_tklog_total (a : Byte) : ∃ b, StreebogField.TKlog a b ∧ ∀ c, StreebogField.TKlog a c → c = b :=
  ⟨_, (streebog_tklog a _).mpr rfl, fun c h => ((streebog_tklog a c).mp h).symm⟩

/-- Grøstl. -/
theorem groestl_uniformity (r : Nat) (hr : r < 8) : Uniformity (fun x => (groestl_T.getD r []).getD x.toNat 0) 4 :=
  Proofs.Wide.groestl_table_uniformity r hr

/-- ECHO. -/
theorem echo_uniformity (r : Nat) (hr : r < 4) : Uniformity (fun x => (echo_T.getD r []).getD x.toNat 0) 4 :=
  Proofs.Wide.echo_table_uniformity r hr

/-- Kupyna. -/
theorem kupyna_uniformity (r : Nat) (hr : r < 8) : Uniformity (fun x => (kupyna_T.getD r []).getD x.toNat 0) 8 :=
  Proofs.Wide.kupyna_table_uniformity r hr

/-- WHIRLPOOL. -/
theorem whirlpool_uniformity (r : Nat) (hr : r < 8) : Uniformity (fun x => (whirlpool_T.getD r []).getD x.toNat 0) 8 :=
  Proofs.Wide.whirlpool_table_uniformity r hr

/-- Streebog. -/
theorem streebog_uniformity (r : Nat) (hr : r < 8) : Uniformity (fun x => (streebog_T.getD r []).getD x.toNat 0) 8 :=
  Proofs.Wide.streebog_table_uniformity r hr

/-- A pair of the function behind `π`, and the entry of the list in RFC 6986. -/
example : StreebogField.TKlog (StreebogField.pow (1 + 17 * 1)) (StreebogField.kappa 15 ^^^ StreebogField.pow (17 * StreebogField.s 1)) :=
  StreebogField.TKlog.coset 1 1 (by decide) (by decide) (by decide)

example : StreebogField.pow (1 + 17 * 1) = 45 ∧ Spec.Streebog.pi.getD 45 0 = StreebogField.kappa 15 ^^^ StreebogField.pow (17 * StreebogField.s 1) := by
  decide +kernel

/-- A linear S-box has the worst possible number. -/
example : differential (fun x : Byte => x) 1 1 = 256 := by decide +kernel

end Digestpp.Properties
