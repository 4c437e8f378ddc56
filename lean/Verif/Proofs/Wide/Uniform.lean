import Verif.Proofs.Wide.Sboxes
import Verif.Proofs.Wide.Groestl
import Verif.Proofs.EchoCore

/-! The tables in which S-boxes and matrices are combined. -/

namespace Digestpp.Proofs.Wide
open Spec

/-- A linear injective function after the S-box changes nothing. -/
theorem uniformity_linear {w v δ : Nat} {S : Byte → BitVec w} (h : Uniformity S δ) (L : BitVec w → BitVec v) (hx : ∀ a b, L a ^^^ L b = L (a ^^^ b))
    (hi : ∀ a, L a = 0 → a = 0) (t : Byte → BitVec v) (ht : ∀ x, t x = L (S x)) : Uniformity t δ := by
  have h0 : L 0 = 0 := by
    have := hx 0 0
    rw [BitVec.xor_self] at this
    rw [show (0 : BitVec w) = 0 ^^^ 0 from BitVec.xor_self.symm, ← this]
    rfl
  have inj : ∀ a b, L a = L b → a = b := by
    intro a b e
    apply BitVec.xor_eq_zero_iff.mp
    apply hi
    rw [← hx, e]
    exact BitVec.xor_self
  have key : ∀ a d, differential t a (L d) = differential S a d := by
    intro a d
    unfold differential
    apply List.countP_congr
    intro x _
    simp only [ht, hx, decide_eq_true_eq]
    exact ⟨inj _ _, fun e => by rw [e]⟩
  refine ⟨fun a b ha => ?_, ?_⟩
  · by_cases hb : ∃ d, L d = b
    · obtain ⟨d, rfl⟩ := hb
      rw [key]
      exact h.1 a d ha
    · have : differential t a b = 0 := by
        apply List.countP_eq_zero.mpr
        intro x _
        simp only [ht, hx, decide_eq_true_eq]
        exact fun e => hb ⟨_, e⟩
      omega
  · obtain ⟨a, d, ha, hd⟩ := h.2
    exact ⟨a, L d, ha, (key a d).trans hd⟩

/-- Multiplication by a column of a matrix. -/
theorem uniformity_column {p : Byte} (hp : IsField p) {δ : Nat} {S : Byte → Byte} (h : Uniformity S δ) (m : Nat → Byte) (hm : m 0 ≠ 0)
    (t : Byte → BitVec 64) (ht : ∀ x, t x = pack fun i => gmul p (S x) (m i)) : Uniformity t δ := by
  refine uniformity_linear h (fun a => pack fun i => gmul p a (m i)) ?_ ?_ t ht
  · intro a b
    rw [pack_xor]
    simp only [gmul_xor_left]
  · intro a e
    have e := congrArg (fun w : BitVec 64 => ((w >>> (8 * 0)).setWidth 8 : Byte)) e
    rw [byte_pack _ 0 (by decide)] at e
    rw [gmul_comm hp] at e
    exact gmul_eq_zero hp hm e

/-- The same for words of 32 bits. -/
theorem uniformity_column32 {p : Byte} (hp : IsField p) {δ : Nat} {S : Byte → Byte} (h : Uniformity S δ) (m : Nat → Byte) (hm : m 0 ≠ 0)
    (t : Byte → BitVec 32) (ht : ∀ x, t x = pack32 fun i => gmul p (S x) (m i)) : Uniformity t δ := by
  refine uniformity_linear h (fun a => pack32 fun i => gmul p a (m i)) ?_ ?_ t ht
  · intro a b
    rw [pack32_xor]
    simp only [gmul_xor_left]
  · intro a e
    have e := congrArg (fun w : BitVec 32 => ((w >>> (8 * 0)).setWidth 8 : Byte)) e
    rw [byte_pack32 _ 0 (by decide)] at e
    rw [gmul_comm hp] at e
    exact gmul_eq_zero hp hm e

theorem aesSbox_uniformity : Uniformity aesSbox 4 := by
  have : (fun x : Byte => aesTable.getD x.toNat 0) = aesSbox := funext fun x => (aesSbox_table x).symm
  rw [← this]
  exact aes_uniformity

theorem whirlpool_sbox_uniformity : Uniformity Spec.Whirlpool.sbox 8 := by
  have : (fun x : Byte => Whirlpool.box.getD x.toNat 0) = Spec.Whirlpool.sbox := by
    funext x
    unfold Whirlpool.box
    rw [getD_map_range _ _ _ _ x.isLt, BitVec.ofNat_toNat, BitVec.setWidth_eq]
  rw [← this]
  exact whirlpool_uniformity

theorem kupyna_sbox_uniformity (k : Nat) : Uniformity (Spec.Kupyna.sbox k) 8 := by
  unfold Spec.Kupyna.sbox
  have : k % 4 = 0 ∨ k % 4 = 1 ∨ k % 4 = 2 ∨ k % 4 = 3 := by omega
  rcases this with e | e | e | e <;> rw [e]
  · exact kupyna0_uniformity
  · exact kupyna1_uniformity
  · exact kupyna2_uniformity
  · exact kupyna3_uniformity

theorem groestl_table_uniformity (r : Nat) (hr : r < 8) : Uniformity (fun x => (Model.groestl_T.getD r []).getD x.toNat 0) 4 := by
  refine uniformity_column field_1b aesSbox_uniformity (fun i => Spec.Groestl.B i r) ?_ _ fun x => ?_
  · revert r; decide +kernel
  · have := Proofs.Groestl.look_pack r hr fun _ => x
    unfold Model.Groestl.look at this
    rw [byte_pack _ _ hr] at this
    exact this

theorem kupyna_table_uniformity (r : Nat) (hr : r < 8) : Uniformity (fun x => (Model.kupyna_T.getD r []).getD x.toNat 0) 8 := by
  refine uniformity_column field_1d (kupyna_sbox_uniformity r) (fun i => Spec.Kupyna.B i r) ?_ _ fun x => ?_
  · revert r; decide +kernel
  · have := Proofs.Kupyna.look_pack r hr fun _ => x
    unfold Model.Kupyna.look at this
    rw [byte_pack _ _ hr] at this
    exact this

theorem whirlpool_table_uniformity (r : Nat) (hr : r < 8) : Uniformity (fun x => (Model.whirlpool_T.getD r []).getD x.toNat 0) 8 := by
  refine uniformity_column field_1d whirlpool_sbox_uniformity (fun i => Spec.Whirlpool.C r i) ?_ _ fun x => ?_
  · revert r; decide +kernel
  · have := Proofs.Whirlpool.look_pack r hr fun _ => x
    unfold Model.Whirlpool.look at this
    rw [byte_pack _ _ hr] at this
    exact this

theorem streebog_table (r : Nat) (hr : r < 8) (x : Byte) : (Model.streebog_T.getD r []).getD x.toNat 0
    = pack fun i => gmul 0x1d (Spec.Streebog.pi.getD x.toNat 0) (Spec.StreebogField.factor i r) := by
  rw [Proofs.Streebog.look_eq r hr x, Streebog.l_place r hr]

theorem streebog_table_uniformity (r : Nat) (hr : r < 8) : Uniformity (fun x => (Model.streebog_T.getD r []).getD x.toNat 0) 8 := by
  refine uniformity_column field_1d streebog_uniformity (fun i => Spec.StreebogField.factor i r) ?_ _ (streebog_table r hr)
  revert r; decide +kernel

theorem echo_table_uniformity (r : Nat) (hr : r < 4) : Uniformity (fun x => (Model.echo_T.getD r []).getD x.toNat 0) 4 := by
  refine uniformity_column32 field_1b aesSbox_uniformity (fun i => Spec.Echo.mc i r) ?_ _ (Proofs.Echo.look r hr)
  revert r; decide +kernel

end Digestpp.Proofs.Wide
