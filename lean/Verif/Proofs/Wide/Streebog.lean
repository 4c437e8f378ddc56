import Verif.Proofs.Wide.Boxes
import Verif.Proofs.StreebogTables
import Verif.Spec.StreebogField

/-! The rounds of Streebog. -/

namespace Digestpp.Proofs.Wide.Streebog
open Model Spec Spec.Streebog Spec.StreebogField
open Proofs.Streebog (place l_pack l_xor)

theorem matrix : mds 0x1d 8 ((List.range 8).map fun i => (List.range 8).map fun k => factor i k) = true :=
  mds_of 8 0x1d field_1d exp_1d log_1d table_1d factor (by decide +kernel)

theorem pi_distinct : distinct Streebog.pi = true := by decide +kernel

theorem pi_inj (a b : Byte) (h : Streebog.pi.getD a.toNat 0 = Streebog.pi.getD b.toNat 0) : a = b := distinct_inj _ pi_distinct a b h

theorem byte_bits : ∀ n < 256, ∀ b, b = BitVec.ofNat 8 n → b = (if b.getLsbD 0 then 1 else 0) ^^^ (if b.getLsbD 1 then 2 else 0) ^^^ (if b.getLsbD 2 then 4 else 0)
    ^^^ (if b.getLsbD 3 then 8 else 0) ^^^ (if b.getLsbD 4 then 16 else 0) ^^^ (if b.getLsbD 5 then 32 else 0)
    ^^^ (if b.getLsbD 6 then 64 else 0) ^^^ (if b.getLsbD 7 then 128 else 0) := by
  intro n hn b hb
  subst hb
  revert n
  decide +kernel

/-- Two linear functions of bytes that agree on the powers of two. -/
theorem additive_ext (f g : Byte → BitVec 64) (hf : ∀ a b, f (a ^^^ b) = f a ^^^ f b) (hg : ∀ a b, g (a ^^^ b) = g a ^^^ g b)
    (h : ∀ n < 8, f (BitVec.twoPow 8 n) = g (BitVec.twoPow 8 n)) (b : Byte) : f b = g b := by
  have zero : ∀ f : Byte → BitVec 64, (∀ a b, f (a ^^^ b) = f a ^^^ f b) → f 0 = 0 := by
    intro f hf
    have e := hf 0 0
    rw [show (0 : Byte) ^^^ 0 = 0 from rfl] at e
    have : f 0 ^^^ f 0 = f 0 ^^^ f 0 ^^^ f 0 := congrArg (· ^^^ f 0) e
    rw [BitVec.xor_self, BitVec.zero_xor] at this
    exact this.symm
  have step : ∀ (c : Bool) (n : Nat), n < 8 → f (if c then BitVec.twoPow 8 n else 0) = g (if c then BitVec.twoPow 8 n else 0) := by
    intro c n hn
    cases c
    · exact (zero f hf).trans (zero g hg).symm
    · exact h n hn
  rw [byte_bits b.toNat b.isLt b (by rw [BitVec.ofNat_toNat, BitVec.setWidth_eq])]
  simp only [hf, hg]
  have s0 := step (b.getLsbD 0) 0 (by decide)
  have s1 := step (b.getLsbD 1) 1 (by decide)
  have s2 := step (b.getLsbD 2) 2 (by decide)
  have s3 := step (b.getLsbD 3) 3 (by decide)
  have s4 := step (b.getLsbD 4) 4 (by decide)
  have s5 := step (b.getLsbD 5) 5 (by decide)
  have s6 := step (b.getLsbD 6) 6 (by decide)
  have s7 := step (b.getLsbD 7) 7 (by decide)
  rw [show BitVec.twoPow 8 0 = 1 from rfl] at s0
  rw [show BitVec.twoPow 8 1 = 2 from rfl] at s1
  rw [show BitVec.twoPow 8 2 = 4 from rfl] at s2
  rw [show BitVec.twoPow 8 3 = 8 from rfl] at s3
  rw [show BitVec.twoPow 8 4 = 16 from rfl] at s4
  rw [show BitVec.twoPow 8 5 = 32 from rfl] at s5
  rw [show BitVec.twoPow 8 6 = 64 from rfl] at s6
  rw [show BitVec.twoPow 8 7 = 128 from rfl] at s7
  rw [s0, s1, s2, s3, s4, s5, s6, s7]

theorem l_units : ∀ k < 8, ∀ n < 8, l (place k (BitVec.twoPow 8 n)) = pack fun i => gmul 0x1d (BitVec.twoPow 8 n) (factor i k) := by
  decide +kernel

/-- The linear transformation as a matrix over the field. -/
theorem l_place (k : Nat) (hk : k < 8) (b : Byte) : l (place k b) = pack fun i => gmul 0x1d b (factor i k) := by
  refine additive_ext (fun b => l (place k b)) (fun b => pack fun i => gmul 0x1d b (factor i k)) ?_ ?_ (l_units k hk) b
  · intro a b
    show l (place k (a ^^^ b)) = l (place k a) ^^^ l (place k b)
    rw [← l_xor]
    congr 1
    unfold place
    rw [pack_xor]
    apply pack_congr
    intro i _
    split
    · rfl
    · exact BitVec.xor_self.symm
  · intro a b
    show (pack fun i => gmul 0x1d (a ^^^ b) (factor i k)) = _
    rw [pack_xor]
    apply pack_congr
    intro i _
    exact gmul_xor_left _ _ _ _

theorem l_matrix (f : Nat → Byte) : l (pack f) = pack fun i => xorSum 8 fun k => gmul 0x1d (f k) (factor i k) := by
  rw [← l_pack, l_place 0 (by decide), l_place 1 (by decide), l_place 2 (by decide), l_place 3 (by decide), l_place 4 (by decide),
    l_place 5 (by decide), l_place 6 (by decide), l_place 7 (by decide)]
  exact pack_xor8 fun k i => gmul 0x1d (f k) (factor i k)

/-- Transposition. -/
def swap (x : Nat × Nat) : Nat × Nat := (x.2, x.1)

theorem spreads : Spreads 8 8 swap swap := spreads_of _ _ _ _ (by decide +kernel) (by decide +kernel) (by decide +kernel)

theorem isLayer : IsLayer 8 0x1d (fun _ a => Streebog.pi.getD a.toNat 0) factor swap swap 8 :=
  ⟨field_1d, matrix, fun _ _ a b => pi_inj a b, spreads⟩

theorem lps_layer (A : Mat) : colWords 8 (LPS A) = colWords 8 (layer 8 0x1d (fun _ a => Streebog.pi.getD a.toNat 0) factor swap A) := by
  unfold colWords
  apply List.map_congr_left
  intro j _
  have e := l_matrix fun k => Streebog.pi.getD (A j k).toNat 0
  have e' : (pack fun i => LPS A i j) = l (pack fun k => Streebog.pi.getD (A j k).toNat 0) := by
    rw [Proofs.Streebog.pack_ofNat fun k => Streebog.pi.getD (A j k).toNat 0]
    exact (pack_bytes64 _ _ (bytes64_eq _)).symm
  rw [e', e]
  rfl

theorem round_isRound (K : List (BitVec 64)) :
    IsRound 8 9 swap fun x => Model.Streebog.lpsBlock (Model.Streebog.xorBlocks x K) := by
  refine isRound_of isLayer _ (fun i j => byteAt (K.getD j 0) i) (fun _ _ => 0) fun A => ?_
  rw [matXor_zero, ← lps_layer]
  unfold Model.Streebog.xorBlocks
  rw [add_words 8 A fun j => K.getD j 0, Proofs.Streebog.lpsBlock_eq]

theorem data_isRound (K : List (BitVec 64)) :
    IsRound 8 9 swap fun x => Model.Streebog.xorBlocks (Model.Streebog.lpsBlock x) K := by
  refine isRound_of isLayer _ (fun _ _ => 0) (fun i j => byteAt (K.getD j 0) i) fun A => ?_
  rw [matXor_zero]
  unfold Model.Streebog.xorBlocks
  rw [Proofs.Streebog.lpsBlock_eq, lps_layer, add_words 8 _ fun j => K.getD j 0]

theorem wideTrailData : WideTrail 9 8 fun K x => Model.Streebog.xorBlocks (Model.Streebog.lpsBlock x) K := wideTrail_of spreads _ data_isRound

theorem wideTrail : WideTrail 9 8 fun K x => Model.Streebog.lpsBlock (Model.Streebog.xorBlocks x K) := wideTrail_of spreads _ round_isRound

end Digestpp.Proofs.Wide.Streebog
