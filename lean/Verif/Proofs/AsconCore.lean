import Verif.Model.Ascon
import Verif.Spec.Ascon
import Verif.Proofs.Words
import Verif.Proofs.Bits

/-! The Ascon permutation. -/

namespace Digestpp.Proofs

namespace Ascon
open Model Spec Spec.Ascon

/-- The state as an array. -/
def arr (s : State) : List (BitVec 64) := [s.s0, s.s1, s.s2, s.s3, s.s4]

/-- The Boolean functions of the S-box. -/
theorem sbox_bits : ∀ a b c d e : Bool,
    let t0 := (a ^^ e) ^^ (!b && (c ^^ b))
    let t1 := b ^^ (!(c ^^ b) && d)
    let t2 := (c ^^ b) ^^ (!d && (e ^^ d))
    let t3 := d ^^ (!(e ^^ d) && (a ^^ e))
    let t4 := (e ^^ d) ^^ (!(a ^^ e) && b)
    (sbox (num a b c d e)).testBit 4 = (t0 ^^ t4) ∧ (sbox (num a b c d e)).testBit 3 = (t1 ^^ t0) ∧
    (sbox (num a b c d e)).testBit 2 = !t2 ∧ (sbox (num a b c d e)).testBit 1 = (t3 ^^ t2) ∧
    (sbox (num a b c d e)).testBit 0 = t4 := by decide

theorem subst_eq (s : State) :
    subst s =
      let t0 := (s.s0 ^^^ s.s4) ^^^ (~~~s.s1 &&& (s.s2 ^^^ s.s1))
      let t1 := s.s1 ^^^ (~~~(s.s2 ^^^ s.s1) &&& s.s3)
      let t2 := (s.s2 ^^^ s.s1) ^^^ (~~~s.s3 &&& (s.s4 ^^^ s.s3))
      let t3 := s.s3 ^^^ (~~~(s.s4 ^^^ s.s3) &&& (s.s0 ^^^ s.s4))
      let t4 := (s.s4 ^^^ s.s3) ^^^ (~~~(s.s0 ^^^ s.s4) &&& s.s1)
      ⟨t0 ^^^ t4, t1 ^^^ t0, ~~~t2, t3 ^^^ t2, t4⟩ := by
  unfold subst
  dsimp only
  congr 1 <;> apply ofBits_eq <;> intro i hi
  · rw [(sbox_bits _ _ _ _ _).1]
    simp [hi]
  · rw [(sbox_bits _ _ _ _ _).2.1]
    simp [hi]
  · rw [(sbox_bits _ _ _ _ _).2.2.1]
    simp [hi]
  · rw [(sbox_bits _ _ _ _ _).2.2.2.1]
    simp [hi]
  · rw [(sbox_bits _ _ _ _ _).2.2.2.2]
    simp [hi]

theorem RC_eq : ∀ i, i < 12 → ascon_RC.getD i 0 = const (16 - 12 + i) := by decide

theorem round_eq (s : State) (i : Nat) (hi : i < 12) : Model.Ascon.round (arr s) i = arr (linear (subst (addConst i s))) := by
  rw [subst_eq]
  unfold Model.Ascon.round
  rw [RC_eq i hi]
  simp only [rotr_eq]
  rfl

theorem rounds_eq (s : State) : (List.range 12).foldl Model.Ascon.round (arr s) = arr (p12 s) := by
  unfold p12
  have : ∀ n, n ≤ 12 → (List.range n).foldl Model.Ascon.round (arr s)
      = arr ((List.range n).foldl (fun s i => linear (subst (addConst i s))) s) := by
    intro n hn
    induction n with
    | zero => rfl
    | succ n ih => rw [List.range_succ, List.foldl_append, List.foldl_append, ih (by omega)]; exact round_eq _ _ (by omega)
  exact this 12 (by omega)

theorem absorbBlock_eq (b : Bytes) (hb : b.length = 8) (s : State) :
    Model.Ascon.absorbBlock b (arr s) = arr (Spec.Ascon.absorbBlock b s) := by
  unfold Model.Ascon.absorbBlock Spec.Ascon.absorbBlock
  rw [loads64_eq 1 b hb, ← rounds_eq]
  rfl

/-- The precomputed initial states. -/
theorem ivHash : ascon_IVHASH = arr (start 0x0000080100cc0002) := by
  unfold start; rw [← rounds_eq]; decide +kernel
theorem ivXof : ascon_IVXOF = arr (start 0x0000080000cc0003) := by
  unfold start; rw [← rounds_eq]; decide +kernel
theorem ivCxof : ascon_IVCXOF = arr (start 0x0000080000cc0004) := by
  unfold start; rw [← rounds_eq]; decide +kernel

end Ascon
end Digestpp.Proofs
