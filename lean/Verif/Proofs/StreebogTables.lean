import Verif.Model.Streebog
import Verif.Spec.Streebog
import Verif.Proofs.Pack

/-! The tables of the Streebog provider. -/

namespace Digestpp.Proofs.Streebog
open Model Spec Spec.Streebog

/-- A byte in position `k` of an otherwise zero word. -/
def place (k : Nat) (b : Byte) : BitVec 64 := pack fun i => if i = k then b else 0

theorem T0_eq : streebog_T0 = pi.map (fun s => l (place 0 s)) := by decide +kernel
theorem T1_eq : streebog_T1 = pi.map (fun s => l (place 1 s)) := by decide +kernel
theorem T2_eq : streebog_T2 = pi.map (fun s => l (place 2 s)) := by decide +kernel
theorem T3_eq : streebog_T3 = pi.map (fun s => l (place 3 s)) := by decide +kernel
theorem T4_eq : streebog_T4 = pi.map (fun s => l (place 4 s)) := by decide +kernel
theorem T5_eq : streebog_T5 = pi.map (fun s => l (place 5 s)) := by decide +kernel
theorem T6_eq : streebog_T6 = pi.map (fun s => l (place 6 s)) := by decide +kernel
theorem T7_eq : streebog_T7 = pi.map (fun s => l (place 7 s)) := by decide +kernel

theorem T_eq (k : Nat) (hk : k < 8) : streebog_T.getD k [] = pi.map (fun s => l (place k s)) := by
  have : k = 0 ∨ k = 1 ∨ k = 2 ∨ k = 3 ∨ k = 4 ∨ k = 5 ∨ k = 6 ∨ k = 7 := by omega
  rcases this with rfl | rfl | rfl | rfl | rfl | rfl | rfl | rfl
  · exact T0_eq
  · exact T1_eq
  · exact T2_eq
  · exact T3_eq
  · exact T4_eq
  · exact T5_eq
  · exact T6_eq
  · exact T7_eq

theorem len_pi : pi.length = 256 := by decide +kernel

theorem look_eq (k : Nat) (hk : k < 8) (b : Byte) : (streebog_T.getD k []).getD b.toNat 0 = l (place k (pi.getD b.toNat 0)) := by
  have hb := b.isLt
  rw [T_eq k hk]
  simp [List.getD_eq_getElem?_getD, len_pi, hb]

theorem RC_eq : ∀ i, i < 12 → streebog_RC.getD i [] = colWords 8 (vec (constants.getD i 0)) := by decide +kernel

theorem foldl_xor_map {α : Type} (xs : List α) (f g h : α → BitVec 64) (hf : ∀ x, h x = f x ^^^ g x) (a b : BitVec 64) :
    xs.foldl (fun s x => s ^^^ h x) (a ^^^ b) = xs.foldl (fun s x => s ^^^ f x) a ^^^ xs.foldl (fun s x => s ^^^ g x) b := by
  induction xs generalizing a b with
  | nil => rfl
  | cons x xs ih =>
    simp only [List.foldl_cons]
    rw [← ih, hf]
    congr 1
    ac_rfl

/-- The transformation is linear. -/
theorem l_xor (x y : BitVec 64) : l (x ^^^ y) = l x ^^^ l y := by
  unfold l
  rw [← foldl_xor_map (h := fun r => if (x ^^^ y).getLsbD (63 - r.2) then r.1 else 0)]
  · congr 1
  · intro r
    rw [BitVec.getLsbD_xor]
    cases x.getLsbD (63 - r.2) <;> cases y.getLsbD (63 - r.2) <;> simp

theorem l_pack (f : Nat → Byte) : l (place 0 (f 0)) ^^^ l (place 1 (f 1)) ^^^ l (place 2 (f 2)) ^^^ l (place 3 (f 3)) ^^^
    l (place 4 (f 4)) ^^^ l (place 5 (f 5)) ^^^ l (place 6 (f 6)) ^^^ l (place 7 (f 7)) = l (pack f) := by
  simp only [← l_xor]
  congr 1
  have := pack_xor8 fun k i => if i = k then f k else 0
  refine Eq.trans this ?_
  apply pack_congr
  intro i hi
  have : i = 0 ∨ i = 1 ∨ i = 2 ∨ i = 3 ∨ i = 4 ∨ i = 5 ∨ i = 6 ∨ i = 7 := by omega
  rcases this with rfl | rfl | rfl | rfl | rfl | rfl | rfl | rfl <;> simp [xorSum, List.range_succ]

/-- Reading a matrix back. -/
theorem matOf_matBytes (c : Nat) (A : Mat) (i j : Nat) (hi : i < 8) (hj : j < c) : matOf (matBytes c A) i j = A i j := by
  unfold matOf
  induction c with
  | zero => omega
  | succ c ih =>
    have hl := length_matBytes c A
    have e : matBytes (c + 1) A = matBytes c A ++ (List.range 8).map fun i => A i c := by
      unfold matBytes
      rw [List.range_succ (n := c), List.flatMap_append, List.flatMap_singleton]
    rw [e]
    by_cases h : j < c
    · rw [List.getD_eq_getElem?_getD, List.getElem?_append_left (by omega), ← List.getD_eq_getElem?_getD, ih h]
    · have : j = c := by omega
      subst this
      rw [List.getD_eq_getElem?_getD, List.getElem?_append_right (by omega), show 8 * j + i - (matBytes j A).length = i by omega]
      simp [hi]

theorem pack_ofNat (f : Nat → Byte) : pack f = BitVec.ofNat 64 (leNat ((List.range 8).map f)) := by
  have := le64_eq ((List.range 8).map f) (by simp)
  rw [List.take_of_length_le (by simp)] at this
  exact this

theorem lpsBlock_eq (A : Mat) : Model.Streebog.lpsBlock (colWords 8 A) = colWords 8 (LPS A) := by
  have hl : ∀ I, I < 8 → Model.Streebog.lps I (stores64 (colWords 8 A)) = pack fun i => LPS A i I := by
    intro I hI
    have hb : ∀ k, k < 8 → (stores64 (colWords 8 A)).getD (8 * k + I) 0 = A I k := by
      intro k hk
      rw [stores64_mat]
      exact matOf_matBytes 8 A I k hI hk
    have h0 := hb 0 (by omega)
    rw [Nat.mul_zero, Nat.zero_add] at h0
    unfold Model.Streebog.lps
    rw [h0, hb 1 (by omega), hb 2 (by omega), hb 3 (by omega), hb 4 (by omega), hb 5 (by omega), hb 6 (by omega), hb 7 (by omega),
      look_eq 0 (by omega), look_eq 1 (by omega), look_eq 2 (by omega), look_eq 3 (by omega), look_eq 4 (by omega),
      look_eq 5 (by omega), look_eq 6 (by omega), look_eq 7 (by omega)]
    have e := l_pack fun k => pi.getD (A I k).toNat 0
    rw [e, pack_ofNat]
    exact pack_bytes64 _ _ (bytes64_eq _)
  unfold Model.Streebog.lpsBlock
  dsimp only
  rw [hl 0 (by omega), hl 1 (by omega), hl 2 (by omega), hl 3 (by omega), hl 4 (by omega), hl 5 (by omega), hl 6 (by omega),
    hl 7 (by omega)]
  rfl

end Digestpp.Proofs.Streebog
