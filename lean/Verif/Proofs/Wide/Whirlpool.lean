import Verif.Proofs.Wide.Boxes
import Verif.Proofs.Whirlpool

/-! The rounds of WHIRLPOOL. In the code a row of the matrix is a word, so rows take the part of columns here. -/

namespace Digestpp.Proofs.Wide.Whirlpool
open Model Spec Spec.Whirlpool

/-- The matrix as it acts on words. -/
def M (i k : Nat) : Byte := C k i

theorem matrix : mds 0x1d 8 ((List.range 8).map fun i => (List.range 8).map fun k => M i k) = true :=
  mds_of 8 0x1d field_1d exp_1d log_1d table_1d M (by decide +kernel)

/-- The S-box as a table. -/
def box : List Byte := (List.range 256).map fun n => sbox (BitVec.ofNat 8 n)

theorem sbox_inv : ∀ n, n < 256 → (box.findIdx fun v => Nat.beq v.toNat (sbox (BitVec.ofNat 8 n)).toNat) = n := by decide +kernel

theorem sbox_inj (a b : Byte) (h : sbox a = sbox b) : a = b := by
  have ha := sbox_inv a.toNat a.isLt
  have hb := sbox_inv b.toNat b.isLt
  rw [BitVec.ofNat_toNat, BitVec.setWidth_eq] at ha hb
  rw [h] at ha
  exact BitVec.eq_of_toNat_eq (ha.symm.trans hb)

/-- The cell from which `π` takes a byte; the second number is that of the word. -/
def src (x : Nat × Nat) : Nat × Nat := (x.1, (x.2 + 8 - x.1) % 8)

/-- The cell to which `π` moves a byte. -/
def dst (x : Nat × Nat) : Nat × Nat := (x.1, (x.2 + x.1) % 8)

theorem spreads : Spreads 8 8 src dst := spreads_of _ _ _ _ (by decide +kernel) (by decide +kernel) (by decide +kernel)

theorem isLayer : IsLayer 8 0x1d (fun _ => sbox) M src dst 8 := ⟨field_1d, matrix, fun _ _ a b => sbox_inj a b, spreads⟩

theorem layer_eq (A : Mat) : layer 8 0x1d (fun _ => sbox) M src A = fun i j => theta (pi (gamma fun r c => A c r)) j i := rfl

/-- The eight words that `G` makes. -/
theorem G_words (A : Mat) (a : Nat) : Model.Whirlpool.G (a + 8) (colWords 8 A)
    = pack fun i => layer 8 0x1d (fun _ => sbox) M src A i a := Proofs.Whirlpool.G_eq a fun r c => A c r

theorem words8 (A : Mat) : colWords 8 A = [pack fun i => A i 0, pack fun i => A i 1, pack fun i => A i 2, pack fun i => A i 3,
    pack fun i => A i 4, pack fun i => A i 5, pack fun i => A i 6, pack fun i => A i 7] := rfl

theorem nextState_isRound (L : List (BitVec 64)) : IsRound 8 9 src fun x => Model.Whirlpool.nextState L x := by
  refine isRound_of isLayer _ (fun _ _ => 0) (fun i j => byteAt (L.getD j 0) i) fun A => ?_
  have e : ∀ j, L.getD j 0 ^^^ (pack fun i => layer 8 0x1d (fun _ => sbox) M src A i j)
      = pack fun i => matXor (layer 8 0x1d (fun _ => sbox) M src A) (fun i j => byteAt (L.getD j 0) i) i j := by
    intro j
    rw [BitVec.xor_comm]
    conv_lhs => rw [← pack_byteAt (L.getD j 0)]
    rw [pack_xor]
    rfl
  unfold Model.Whirlpool.nextState
  rw [matXor_zero, G_words, G_words, G_words, G_words, G_words, G_words, G_words, G_words, e, e, e, e, e, e, e, e]
  rfl

theorem nextKey_isRound (r : Nat) : IsRound 8 9 src fun x => Model.Whirlpool.nextKey r x := by
  have h := nextState_isRound [whirlpool_RC.getD r 0]
  have e : (fun x => Model.Whirlpool.nextState [whirlpool_RC.getD r 0] x) = fun x => Model.Whirlpool.nextKey r x := by
    funext x
    unfold Model.Whirlpool.nextState Model.Whirlpool.nextKey
    show [whirlpool_RC.getD r 0 ^^^ _, (0 : BitVec 64) ^^^ _, (0 : BitVec 64) ^^^ _, (0 : BitVec 64) ^^^ _, (0 : BitVec 64) ^^^ _,
      (0 : BitVec 64) ^^^ _, (0 : BitVec 64) ^^^ _, (0 : BitVec 64) ^^^ _] = _
    have z : ∀ w : BitVec 64, (0 : BitVec 64) ^^^ w = w := fun w => BitVec.zero_xor
    rw [z, z, z, z, z, z, z, BitVec.xor_comm]
  rw [e] at h
  exact h

theorem wideTrail : WideTrail 9 8 fun L x => Model.Whirlpool.nextState L x := wideTrail_of spreads _ nextState_isRound

theorem wideTrailKey : WideTrail 9 8 fun r x => Model.Whirlpool.nextKey r x := wideTrail_of spreads _ nextKey_isRound

end Digestpp.Proofs.Wide.Whirlpool
