import Verif.Spec.Gf
import Verif.Proofs.Words
import Verif.Proofs.Sched
import Verif.Proofs.LeWords
import Verif.Proofs.MdFinal

/-! Matrices of bytes kept as 64-bit words, one word for each column. -/

namespace Digestpp.Proofs
open Model Spec

/-- The word with the given bytes. -/
def pack (f : Nat → Byte) : BitVec 64 := f 7 ++ f 6 ++ f 5 ++ f 4 ++ f 3 ++ f 2 ++ f 1 ++ f 0

theorem getLsbD_pack (f : Nat → Byte) (i : Nat) (h : i < 64) : (pack f).getLsbD i = (f (i / 8)).getLsbD (i % 8) := by
  unfold pack
  rw [getLsbD_app8]
  have h8 : i / 8 < 8 := by omega
  have e := Nat.div_add_mod i 8
  have hm := Nat.mod_lt i (show 8 > 0 by omega)
  generalize i / 8 = q at *
  generalize i % 8 = r at *
  subst e
  have : q = 0 ∨ q = 1 ∨ q = 2 ∨ q = 3 ∨ q = 4 ∨ q = 5 ∨ q = 6 ∨ q = 7 := by omega
  rcases this with rfl | rfl | rfl | rfl | rfl | rfl | rfl | rfl <;>
    (simp (disch := omega) only [if_pos, if_neg, Nat.mul_zero, Nat.zero_add] <;> congr 1 <;> omega)

theorem pack_congr {f g : Nat → Byte} (h : ∀ i, i < 8 → f i = g i) : pack f = pack g := by
  unfold pack
  rw [h 0 (by omega), h 1 (by omega), h 2 (by omega), h 3 (by omega), h 4 (by omega), h 5 (by omega), h 6 (by omega),
    h 7 (by omega)]

theorem pack_xor (f g : Nat → Byte) : pack f ^^^ pack g = pack fun i => f i ^^^ g i := by
  apply BitVec.eq_of_getLsbD_eq
  intro i hi
  rw [BitVec.getLsbD_xor, getLsbD_pack _ _ hi, getLsbD_pack _ _ hi, getLsbD_pack _ _ hi, BitVec.getLsbD_xor]

/-- Byte number `r` of a word, as the code extracts it. -/
theorem byte_pack (f : Nat → Byte) (r : Nat) (h : r < 8) : ((pack f) >>> (8 * r)).setWidth 8 = f r := by
  apply BitVec.eq_of_getLsbD_eq
  intro i hi
  rw [BitVec.getLsbD_setWidth, BitVec.getLsbD_ushiftRight, getLsbD_pack _ _ (by omega)]
  rw [show (8 * r + i) / 8 = r by omega, show (8 * r + i) % 8 = i by omega]
  simp [hi]

theorem bytes64_pack (f : Nat → Byte) : bytes64 (pack f) = (List.range 8).map f := by
  unfold pack
  rw [extract_app8]
  rfl

theorem pack_bytes64 (x : BitVec 64) (b : Bytes) (h : bytes64 x = b) : x = pack fun i => b.getD i 0 := by
  subst h
  exact eq_app8 x

theorem le64_pack (b : Bytes) : le64 b = pack fun i => b.getD i 0 := rfl

/-- Column words of a matrix with `c` columns. -/
def colWords (c : Nat) (A : Mat) : List (BitVec 64) := (List.range c).map fun j => pack fun i => A i j

theorem length_colWords (c : Nat) (A : Mat) : (colWords c A).length = c := by simp [colWords]

theorem getD_colWords (c : Nat) (A : Mat) (j : Nat) (h : j < c) : (colWords c A).getD j 0 = pack fun i => A i j :=
  getD_map_range _ _ _ _ h

theorem colWords_congr {c : Nat} {A B : Mat} (h : ∀ i, i < 8 → ∀ j, j < c → A i j = B i j) : colWords c A = colWords c B := by
  apply List.map_congr_left
  intro j hj
  exact pack_congr fun i hi => h i hi j (List.mem_range.mp hj)

theorem loads64_mat (c : Nat) (b : Bytes) : loads64 c b = colWords c (matOf b) := by
  unfold loads64 colWords
  apply List.map_congr_left
  intro j _
  rw [le64_pack]
  apply pack_congr
  intro i _
  unfold matOf
  rw [List.getD_eq_getElem?_getD, List.getD_eq_getElem?_getD, List.getElem?_drop]

theorem stores64_mat (c : Nat) (A : Mat) : stores64 (colWords c A) = matBytes c A := by
  unfold stores64 colWords matBytes
  rw [List.flatMap_map]
  simp only [bytes64_pack]

theorem colWords_xor (c : Nat) (A B : Mat) :
    ((List.range c).map fun j => (colWords c A).getD j 0 ^^^ (colWords c B).getD j 0) = colWords c (matXor A B) := by
  apply List.map_congr_left
  intro j hj
  rw [getD_colWords _ _ _ (List.mem_range.mp hj), getD_colWords _ _ _ (List.mem_range.mp hj), pack_xor]
  rfl

theorem length_matBytes (c : Nat) (A : Mat) : (matBytes c A).length = 8 * c := by
  unfold matBytes
  induction c with
  | zero => rfl
  | succ c ih =>
    rw [List.range_succ (n := c), List.flatMap_append, List.length_append, ih]
    simp
    omega

theorem rotateLeft_pack (f : Nat → Byte) (r : Nat) (h : r < 8) : (pack f).rotateLeft (8 * r) = pack fun i => f ((i + 8 - r) % 8) := by
  apply BitVec.eq_of_getLsbD_eq
  intro i hi
  rw [BitVec.getLsbD_rotateLeft, Nat.mod_eq_of_lt (show 8 * r < 64 by omega), getLsbD_pack _ i hi]
  by_cases hlt : i < 8 * r
  · rw [decide_eq_true hlt, cond_true, getLsbD_pack _ _ (by omega)]
    rw [show (64 - 8 * r + i) / 8 = (i / 8 + 8 - r) % 8 by omega, show (64 - 8 * r + i) % 8 = i % 8 by omega]
  · rw [decide_eq_false hlt, cond_false, getLsbD_pack _ _ (by omega)]
    rw [show (i - 8 * r) / 8 = (i / 8 + 8 - r) % 8 by omega, show (i - 8 * r) % 8 = i % 8 by omega]
    simp [hi]

/-- Eight lookups. -/
theorem pack_xor8 (g : Nat → Nat → Byte) :
    pack (g 0) ^^^ pack (g 1) ^^^ pack (g 2) ^^^ pack (g 3) ^^^ pack (g 4) ^^^ pack (g 5) ^^^ pack (g 6) ^^^ pack (g 7)
      = pack fun i => xorSum 8 fun k => g k i := by
  simp only [pack_xor]
  apply pack_congr
  intro i _
  simp [xorSum, List.range_succ]

theorem pack_zero : (pack fun _ => 0) = 0 := by decide

/-- A number in the last column of an otherwise empty matrix. -/
theorem colWords_be (k x : Nat) (hx : x < 2 ^ 64) :
    colWords (k + 1) (matOf (beBytes (8 * (k + 1)) x)) = List.replicate k 0 ++ [byteswap64 (BitVec.ofNat 64 x)] := by
  have e := beBytes_pad (8 * k) 8 x (by rw [show (256 : Nat) ^ 8 = 2 ^ 64 by decide]; exact hx)
  rw [show 8 * (k + 1) = 8 * k + 8 by omega, e]
  unfold colWords
  rw [List.range_succ, List.map_append]
  congr 1
  · rw [List.eq_replicate_iff]
    refine ⟨by simp, ?_⟩
    intro w hw
    obtain ⟨j, hj, rfl⟩ := List.mem_map.mp hw
    have hj := List.mem_range.mp hj
    rw [← pack_zero]
    apply pack_congr
    intro i hi
    unfold matOf
    rw [List.getD_eq_getElem?_getD, List.getElem?_append_left (by simp; omega), List.getElem?_replicate, if_pos (by omega)]
    rfl
  · rw [pack_bytes64 _ _ (bytes64_byteswap_ofNat x)]
    show [_] = [_]
    congr 1
    apply pack_congr
    intro i _
    unfold matOf
    rw [List.getD_eq_getElem?_getD, List.getElem?_append_right (by simp), List.getD_eq_getElem?_getD]
    congr 2
    simp

theorem foldl_pairs {α : Type} (f : α → Nat → α) (n : Nat) (a : α) :
    (List.range n).foldl (fun a k => f (f a (2 * k)) (2 * k + 1)) a = (List.range (2 * n)).foldl f a := by
  induction n with
  | zero => rfl
  | succ n ih =>
    rw [List.range_succ, List.foldl_append, ih, show 2 * (n + 1) = 2 * n + 1 + 1 by omega, List.range_succ, List.range_succ,
      List.foldl_append, List.foldl_append]
    rfl

end Digestpp.Proofs
