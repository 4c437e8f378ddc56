import Verif.Proofs.Wide.Rounds
import Verif.Proofs.Wide.Tables
import Verif.Proofs.Aes

/-! Means to check the parts of a layer. -/

namespace Digestpp.Proofs.Wide
open Spec

/-- The entries of a table are different: each is found first where it is. -/
def distinct (t : List Byte) : Bool := (List.range 256).all fun n => Nat.beq (t.findIdx fun v => Nat.beq v.toNat (t.getD n 0).toNat) n

theorem distinct_inj (t : List Byte) (h : distinct t = true) (a b : Byte) (e : t.getD a.toNat 0 = t.getD b.toNat 0) : a = b := by
  have ha := Nat.eq_of_beq_eq_true (List.all_eq_true.mp h a.toNat (List.mem_range.mpr a.isLt))
  have hb := Nat.eq_of_beq_eq_true (List.all_eq_true.mp h b.toNat (List.mem_range.mpr b.isLt))
  rw [e] at ha
  exact BitVec.eq_of_toNat_eq (ha.symm.trans hb)

/-- The conditions on a permutation of the cells, without sets. -/
theorem spreads_of (r c : Nat) (src dst : Nat × Nat → Nat × Nat)
    (h : ∀ i < r, ∀ j < c, (src (i, j)).1 < r ∧ (src (i, j)).2 < c ∧ (dst (i, j)).1 < r ∧ (dst (i, j)).2 < c ∧
      src (dst (i, j)) = (i, j) ∧ dst (src (i, j)) = (i, j))
    (h1 : ∀ j < c, ∀ i < r, ∀ k < r, (src (i, j)).2 = (src (k, j)).2 → i = k)
    (h2 : ∀ j < c, ∀ i < r, ∀ k < r, (dst (i, j)).2 = (dst (k, j)).2 → i = k) : Spreads r c src dst := by
  have m : ∀ x ∈ cells r c, x.1 < r ∧ x.2 < c := fun x hx =>
    ⟨Finset.mem_range.mp (Finset.mem_product.mp hx).1, Finset.mem_range.mp (Finset.mem_product.mp hx).2⟩
  have m' : ∀ x : Nat × Nat, x.1 < r → x.2 < c → x ∈ cells r c := fun x hr hc =>
    Finset.mem_product.mpr ⟨Finset.mem_range.mpr hr, Finset.mem_range.mpr hc⟩
  refine ⟨?_, ?_, ?_, ?_, h1, h2⟩ <;> rintro ⟨i, j⟩ hx <;> obtain ⟨hi, hj⟩ := m _ hx <;> obtain ⟨a, b, c, d, e, f⟩ := h i hi j hj
  · exact m' _ a b
  · exact m' _ c d
  · exact e
  · exact f

/-- The check of a matrix by tables. -/
theorem mds_of (n : Nat) (p : Byte) (hp : IsField p) (E L : Nat) (ht : IsTable p E L) (M : Nat → Nat → Byte)
    (h : mdsT E L n ((List.range n).map fun i => (List.range n).map fun k => (M i k).toNat) = true) :
    mds p n ((List.range n).map fun i => (List.range n).map fun k => M i k) = true := by
  rw [← mdsT_eq p hp E L ht, List.map_map]
  simp only [Function.comp_def, List.map_map]
  exact h

/-- Adding words to the columns. -/
theorem add_words (R : Nat) (A : Mat) (k : Nat → BitVec 64) :
    ((List.range R).map fun j => (colWords R A).getD j 0 ^^^ k j) = colWords R (matXor A fun i j => byteAt (k j) i) := by
  apply List.map_congr_left
  intro j hj
  rw [getD_colWords _ _ _ (List.mem_range.mp hj)]
  conv_lhs => rw [← pack_byteAt (k j)]
  rw [pack_xor]
  rfl

theorem aesSbox_table (a : Byte) : aesSbox a = aesTable.getD a.toNat 0 := by
  rw [← aesTable_eq, getD_map_range _ _ _ _ a.isLt, BitVec.ofNat_toNat, BitVec.setWidth_eq]

theorem matXor_zero (A : Mat) : matXor A (fun _ _ => 0) = A := by
  funext i j
  exact BitVec.xor_zero

end Digestpp.Proofs.Wide
