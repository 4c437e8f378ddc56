import Verif.Proofs.Wide.Groestl
import Verif.Proofs.EchoCore
import Verif.Spec.ActiveEcho

/-! The rounds of ECHO: the theorem on four rounds for words of 128 bits, and that on two rounds of the AES within each word. -/

namespace Digestpp.Proofs.Wide.Echo
open Model Spec Spec.Echo
open Proofs.Echo (half words)

theorem matrix : mds 0x1b 4 ((List.range 4).map fun i => (List.range 4).map fun k => mc i k) = true :=
  mds_of 4 0x1b field_1b exp_1b log_1b table_1b mc (by decide +kernel)

/-- The cell from which ShiftRows takes a byte, or BIG.ShiftRows a word. -/
def src (x : Nat × Nat) : Nat × Nat := (x.1, (x.2 + x.1) % 4)

/-- The cell to which it is moved. -/
def dst (x : Nat × Nat) : Nat × Nat := (x.1, (x.2 + 4 - x.1) % 4)

theorem spreads : Spreads 4 4 src dst := spreads_of _ _ _ _ (by decide +kernel) (by decide +kernel) (by decide +kernel)

theorem isLayer : IsLayer 4 0x1b (fun _ => aesSbox) mc src dst 4 := ⟨field_1b, matrix, fun _ _ a b => Groestl.sbox_inj a b, spreads⟩

/-- A round of the AES without key. -/
def R (A : Mat) : Mat := mixColumns (shiftRows (subBytes A))

theorem R_eq (A : Mat) : R A = layer 4 0x1b (fun _ => aesSbox) mc src A := rfl

theorem R_mixes (A B : Mat) : Mixes 4 4 5 (fun x => diff A B (src x)) (diff (R A) (R B)) := layer_mixes isLayer A B

theorem wt_diff (A B : Mat) : wt 4 4 (diff A B) = different A B := by
  rw [wt_eq_sum]
  unfold different
  have e : ∀ f : Nat → Nat, ((List.range 4).map f).sum = ∑ j ∈ Finset.range 4, f j := by
    intro f
    simp [Finset.sum, Finset.range, Multiset.range]
  rw [e]
  apply Finset.sum_congr rfl
  intro j _
  rw [colWt_eq]
  rfl

/-- AES states as rounds. -/
theorem R_isRound : IsRoundOf (fun _ : Mat => True) diff 4 4 5 src R := ⟨fun _ _ => trivial, fun A B _ _ => R_mixes A B⟩

theorem R_two (A B : Mat) (h : wt 4 4 (diff A B) ≠ 0) : 5 ≤ different A B + different (R A) (R B) := by
  rw [← wt_diff, ← wt_diff]
  exact two_ne spreads R_isRound A B trivial trivial h

theorem wt_zero_iff (A B : Mat) : wt 4 4 (diff A B) = 0 ↔ ∀ p < 4, ∀ q < 4, A p q = B p q := by
  rw [wt_eq_sum, Finset.sum_eq_zero_iff]
  constructor
  · intro h p hp q hq
    have := h q (Finset.mem_range.mpr hq)
    rw [colWt_eq, List.countP_eq_zero] at this
    have := this p (List.mem_range.mpr hp)
    simpa [diff] using this
  · intro h q hq
    rw [colWt_eq, List.countP_eq_zero]
    intro p hp
    simpa [diff] using h p (List.mem_range.mp hp) q (Finset.mem_range.mp hq)

theorem R_zero_iff (A B : Mat) : wt 4 4 (diff (R A) (R B)) = 0 ↔ wt 4 4 (diff A B) = 0 := by
  have m := R_mixes A B
  rw [← wt_src spreads (diff A B), wt_eq_sum, wt_eq_sum, Finset.sum_eq_zero_iff, Finset.sum_eq_zero_iff]
  exact ⟨fun h j hj => m.zero' j (Finset.mem_range.mp hj) (h j hj), fun h j hj => m.zero j (Finset.mem_range.mp hj) (h j hj)⟩

theorem aesRound_zero_iff (K A B : Mat) : (∀ p < 4, ∀ q < 4, aesRound K A p q = aesRound K B p q) ↔ ∀ p < 4, ∀ q < 4, A p q = B p q := by
  rw [← wt_zero_iff A B, ← R_zero_iff, wt_zero_iff]
  have e : ∀ p q, aesRound K A p q = aesRound K B p q ↔ R A p q = R B p q :=
    fun p q => ⟨fun h => xor_cancel h, fun h => congrArg (· ^^^ K p q) h⟩
  simp only [e]

/-- The words in which two states differ. -/
def W (S T : State) (x : Nat × Nat) : Bool := decide (wt 4 4 (diff (S (x.1 + 4 * x.2)) (T (x.1 + 4 * x.2))) ≠ 0)

theorem W_false (S T : State) (x : Nat × Nat) : W S T x = false ↔ ∀ p < 4, ∀ q < 4, S (x.1 + 4 * x.2) p q = T (x.1 + 4 * x.2) p q := by
  unfold W
  rw [decide_eq_false_iff_not, not_not, wt_zero_iff]

theorem W_sub (wrap : Nat → Nat) (salt : Mat) (κ : Nat) (S T : State) (x : Nat × Nat) :
    W (bigSubWords wrap salt κ S) (bigSubWords wrap salt κ T) x = W S T x := by
  rw [Bool.eq_iff_iff, ← not_iff_not, Bool.not_eq_true, Bool.not_eq_true, W_false, W_false]
  unfold bigSubWords
  rw [aesRound_zero_iff, aesRound_zero_iff]

/-- BIG.ShiftRows and BIG.MixColumns. -/
def mixed (S : State) : State := bigMixColumns (bigShiftRows S)

theorem mixed_eq (S : State) (i j p q : Nat) (hi : i < 4) (hj : j < 4) : mixed S (i + 4 * j) p q
    = xorSum 4 fun k => gmul 0x1b (S ((src (k, j)).1 + 4 * (src (k, j)).2) p q) (mc i k) := by
  unfold mixed bigMixColumns bigShiftRows src
  rw [show (i + 4 * j) / 4 = j by omega, show (i + 4 * j) % 4 = i by omega]
  unfold xorSum
  have e : ∀ k, k < 4 → S ((4 * j + k) % 4 + 4 * (((4 * j + k) / 4 + (4 * j + k) % 4) % 4)) = S (k + 4 * ((j + k) % 4)) := by
    intro k hk
    rw [show (4 * j + k) % 4 = k by omega, show (4 * j + k) / 4 = j by omega]
  show List.foldl (fun s k => s ^^^ aesMul (S ((4 * j + k) % 4 + 4 * (((4 * j + k) / 4 + (4 * j + k) % 4) % 4)) p q) (mc i k)) 0 [0, 1, 2, 3] = _
  show _ = List.foldl (fun s k => s ^^^ gmul 0x1b (S (k + 4 * ((j + k) % 4)) p q) (mc i k)) 0 [0, 1, 2, 3]
  simp only [List.foldl_cons, List.foldl_nil]
  rw [e 0 (by omega), e 1 (by omega), e 2 (by omega), e 3 (by omega)]
  rfl

/-- The difference of byte `(p, q)` of the words of column `j`, after BIG.ShiftRows. -/
def col (S T : State) (j p q k : Nat) : Byte := S ((src (k, j)).1 + 4 * (src (k, j)).2) p q ^^^ T ((src (k, j)).1 + 4 * (src (k, j)).2) p q

theorem mixed_diff (S T : State) (i j p q : Nat) (hi : i < 4) (hj : j < 4) :
    mixed S (i + 4 * j) p q ^^^ mixed T (i + 4 * j) p q = xorSum 4 fun k => gmul 0x1b (col S T j p q k) (mc i k) := by
  rw [mixed_eq S i j p q hi hj, mixed_eq T i j p q hi hj, xorSum_xor]
  simp only [← gmul_xor_left]
  rfl

theorem W_src_false (S T : State) (j k : Nat) : W S T (src (k, j)) = false ↔ ∀ p < 4, ∀ q < 4, col S T j p q k = 0 := by
  rw [W_false]
  unfold col
  constructor
  · intro h p hp q hq
    exact BitVec.xor_eq_zero_iff.mpr (h p hp q hq)
  · intro h p hp q hq
    exact BitVec.xor_eq_zero_iff.mp (h p hp q hq)

theorem W_mixed_false (S T : State) (i j : Nat) (hi : i < 4) (hj : j < 4) : W (mixed S) (mixed T) (i, j) = false
    ↔ ∀ p < 4, ∀ q < 4, (xorSum 4 fun k => gmul 0x1b (col S T j p q k) (mc i k)) = 0 := by
  rw [W_false]
  constructor
  · intro h p hp q hq
    rw [← mixed_diff S T i j p q hi hj]
    exact BitVec.xor_eq_zero_iff.mpr (h p hp q hq)
  · intro h p hp q hq
    have := h p hp q hq
    rw [← mixed_diff S T i j p q hi hj] at this
    exact BitVec.xor_eq_zero_iff.mp this

theorem colWt_zero (a : Nat × Nat → Bool) (j : Nat) : colWt 4 a j = 0 ↔ ∀ i < 4, a (i, j) = false := by
  rw [colWt_eq, List.countP_eq_zero]
  simp

/-- One byte position of the words of a column. -/
theorem col_branch (S T : State) (j p q : Nat) (hj : j < 4) (hp : p < 4) (hq : q < 4) (k : Nat) (hk : k < 4) (h : col S T j p q k ≠ 0) :
    5 ≤ colWt 4 (fun x => W S T (src x)) j + colWt 4 (W (mixed S) (mixed T)) j := by
  have b := branch 4 0x1b field_1b mc matrix (col S T j p q) (by
    intro e
    have := List.countP_eq_zero.mp e k (List.mem_range.mpr hk)
    simp at this
    exact h this)
  refine Nat.le_trans b (Nat.add_le_add ?_ ?_)
  · rw [colWt_eq]
    apply List.countP_mono_left
    intro k _ hk
    by_contra hn
    rw [Bool.not_eq_true, W_src_false] at hn
    simp [hn p hp q hq] at hk
  · rw [colWt_eq]
    apply List.countP_mono_left
    intro i hi hk
    by_contra hn
    rw [Bool.not_eq_true, W_mixed_false S T i j (List.mem_range.mp hi) hj] at hn
    exact of_decide_eq_true hk (hn p hp q hq)

theorem mixed_mixes (S T : State) : Mixes 4 4 5 (fun x => W S T (src x)) (W (mixed S) (mixed T)) := by
  refine ⟨fun j hj h => ?_, fun j hj h => ?_, fun j hj h => ?_⟩
  · have h' : ¬ ∀ k < 4, ∀ p < 4, ∀ q < 4, col S T j p q k = 0 := by
      intro hz
      apply h
      rw [colWt_zero]
      exact fun k hk => (W_src_false S T j k).mpr (hz k hk)
    simp only [Classical.not_forall] at h'
    obtain ⟨k, hk, p, hp, q, hq, hc⟩ := h'
    exact col_branch S T j p q hj hp hq k hk hc
  · rw [colWt_zero] at h ⊢
    intro i hi
    rw [W_mixed_false S T i j hi hj]
    intro p hp q hq
    have z : ∀ k < 4, col S T j p q k = 0 := fun k hk => (W_src_false S T j k).mp (h k hk) p hp q hq
    show List.foldl (fun s k => s ^^^ gmul 0x1b (col S T j p q k) (mc i k)) 0 [0, 1, 2, 3] = 0
    simp only [List.foldl_cons, List.foldl_nil]
    rw [z 0 (by omega), z 1 (by omega), z 2 (by omega), z 3 (by omega), gmul_zero_left, gmul_zero_left, gmul_zero_left, gmul_zero_left]
    rfl
  · rw [colWt_zero]
    intro k hk
    show W S T (src (k, j)) = false
    rw [W_src_false]
    intro p hp q hq
    by_contra hc
    have b := col_branch S T j p q hj hp hq k hk hc
    have le : colWt 4 (fun x => W S T (src x)) j ≤ 4 := by
      rw [colWt_eq]
      have := List.countP_le_length (p := fun i => (fun x => W S T (src x)) (i, j)) (l := List.range 4)
      rwa [List.length_range] at this
    omega

theorem round_isRound (wrap : Nat → Nat) (salt : Mat) (κ : Nat) :
    IsRoundOf (fun _ : State => True) W 4 4 5 src fun S => mixed (bigSubWords wrap salt κ S) := by
  refine ⟨fun _ _ => trivial, fun S T _ _ => ?_⟩
  refine Mixes.congr (mixed_mixes (bigSubWords wrap salt κ S) (bigSubWords wrap salt κ T)) (fun i _ j _ => ?_) fun i _ j _ => rfl
  exact (W_sub wrap salt κ S T _).symm

/-- The words of an array as AES states. -/
theorem words_word (n : Nat) (x : List (BitVec 64)) (hx : x.length = 2 * n) : words n (word x) = x := by
  have e : words n (word x) = (List.range (2 * n)).map fun q => x.getD q 0 := by
    apply List.map_congr_left
    intro q _
    conv_rhs => rw [← pack_byteAt (x.getD q 0)]
    apply pack_congr
    intro b hb
    unfold word
    rw [show 2 * (q / 2) + (2 * (q % 2) + b / 4) / 2 = q by omega, show 4 * ((2 * (q % 2) + b / 4) % 2) + b % 4 = b by omega]
  rw [e, ← hx]
  apply List.ext_getElem
  · rw [List.length_map, List.length_range]
  · intro j h1 h2
    rw [List.getElem_map, List.getElem_range, List.getD_eq_getElem?_getD, List.getElem?_eq_getElem h2]
    rfl

theorem word_words (n : Nat) (S : State) (w : Nat) (hw : w < n) (p q : Nat) (hp : p < 4) (hq : q < 4) : word (words n S) w p q = S w p q := by
  unfold word
  rw [Proofs.Echo.getD_words n S _ (by omega)]
  unfold half byteAt
  rw [byte_pack _ _ (by omega), show (2 * w + q / 2) / 2 = w by omega, show (4 * (q % 2) + p) % 4 = p by omega,
    show 2 * ((2 * w + q / 2) % 2) + (4 * (q % 2) + p) / 4 = q by omega]

/-- A round of the model. -/
def round (salt : List (BitVec 64)) (c : BitVec 64) (x : List (BitVec 64)) : List (BitVec 64) :=
  Model.Echo.mixColumns (Model.Echo.shiftRows (Model.Echo.subWords salt (x, c)).1)

theorem round_eq (salt : List (BitVec 64)) (hs : salt.length = 2) (c : BitVec 64) (x : List (BitVec 64)) (hx : x.length = 32) :
    round salt c x = words 16 (mixed (bigSubWords wrap64 (word salt 0) c.toNat (word x))) := by
  have es : salt = [half (word salt 0) 0, half (word salt 0) 1] := (words_word 1 salt hs).symm
  have ec : c = BitVec.ofNat 64 c.toNat := by simp
  unfold round
  conv_lhs => rw [← words_word 16 x hx, es, ec]
  rw [Proofs.Echo.subWords_eq, Proofs.Echo.shiftRows_eq, Proofs.Echo.mixColumns_eq]
  rfl

/-- The words in which two arrays differ. -/
def V (x y : List (BitVec 64)) : Nat × Nat → Bool := W (word x) (word y)

theorem W_congr (S T S' T' : State) (hS : ∀ w < 16, ∀ p < 4, ∀ q < 4, S' w p q = S w p q) (hT : ∀ w < 16, ∀ p < 4, ∀ q < 4, T' w p q = T w p q)
    (i j : Nat) (hi : i < 4) (hj : j < 4) : W S' T' (i, j) = W S T (i, j) := by
  rw [Bool.eq_iff_iff, ← not_iff_not, Bool.not_eq_true, Bool.not_eq_true, W_false, W_false]
  have hw : i + 4 * j < 16 := by omega
  constructor
  · intro h p hp q hq
    rw [← hS _ hw p hp q hq, ← hT _ hw p hp q hq]
    exact h p hp q hq
  · intro h p hp q hq
    show S' (i + 4 * j) p q = T' (i + 4 * j) p q
    rw [hS _ hw p hp q hq, hT _ hw p hp q hq]
    exact h p hp q hq

theorem model_isRound (salt : List (BitVec 64)) (hs : salt.length = 2) (c : BitVec 64) :
    IsRoundOf (fun x : List (BitVec 64) => x.length = 32) V 4 4 5 src (round salt c) := by
  refine ⟨fun x hx => ?_, fun x y hx hy => ?_⟩
  · rw [round_eq salt hs c x hx]
    unfold words
    rw [List.length_map, List.length_range]
  · have m := (round_isRound wrap64 (word salt 0) c.toNat).mixes (word x) (word y) trivial trivial
    refine Mixes.congr m (fun i _ j _ => rfl) fun i hi j hj => ?_
    unfold V
    rw [round_eq salt hs c x hx, round_eq salt hs c y hy]
    exact W_congr _ _ _ _ (fun w hw p hp q hq => word_words 16 _ w hw p q hp hq) (fun w hw p hp q hq => word_words 16 _ w hw p q hp hq) i j hi hj

/-- Every active word has five active S-boxes. -/
theorem boxes (x y : List (BitVec 64)) : 5 * wt 4 4 (V x y) ≤ activeBoxes x y := by
  have key : ∀ w, 5 * (if V x y (w % 4, w / 4) then 1 else 0) ≤ different (word x w) (word y w)
      + different (mixColumns (shiftRows (subBytes (word x w)))) (mixColumns (shiftRows (subBytes (word y w)))) := by
    intro w
    by_cases h : V x y (w % 4, w / 4) = true
    · rw [if_pos h]
      unfold V W at h
      simp only [decide_eq_true_eq] at h
      rw [show w % 4 + 4 * (w / 4) = w by omega] at h
      exact R_two _ _ h
    · rw [if_neg h]
      omega
  have e : wt 4 4 (V x y) = ((List.range 16).map fun w => if V x y (w % 4, w / 4) then 1 else 0).sum := by
    rw [wt_eq_sum]
    have c : ∀ j, colWt 4 (V x y) j = (if V x y (0, j) then 1 else 0) + (if V x y (1, j) then 1 else 0) + (if V x y (2, j) then 1 else 0)
        + (if V x y (3, j) then 1 else 0) := by
      intro j
      rw [colWt_eq]
      show List.countP (fun i => V x y (i, j)) [0, 1, 2, 3] = _
      simp only [List.countP_cons, List.countP_nil]
      omega
    have s : ∑ j ∈ Finset.range 4, colWt 4 (V x y) j = colWt 4 (V x y) 0 + colWt 4 (V x y) 1 + colWt 4 (V x y) 2 + colWt 4 (V x y) 3 := by
      simp [Finset.sum_range_succ]
    rw [s, c, c, c, c]
    show _ = ([0, 1, 2, 3, 4, 5, 6, 7, 8, 9, 10, 11, 12, 13, 14, 15].map fun w => if V x y (w % 4, w / 4) then 1 else 0).sum
    simp only [List.map_cons, List.map_nil, List.sum_cons, List.sum_nil, Nat.reduceMod, Nat.reduceDiv]
    omega
  rw [e]
  unfold activeBoxes
  generalize List.range 16 = l
  induction l with
  | nil => exact Nat.le_refl _
  | cons w l ih =>
    have := key w
    simp only [List.map_cons, List.sum_cons, Nat.mul_add]
    omega

theorem ne_wt (x y : List (BitVec 64)) (hx : x.length = 32) (hy : y.length = 32) (h : x ≠ y) : wt 4 4 (V x y) ≠ 0 := by
  intro e
  apply h
  rw [← words_word 16 x hx, ← words_word 16 y hy]
  apply Proofs.Echo.words_congr
  intro w hw p hp q hq
  rw [wt_eq_sum, Finset.sum_eq_zero_iff] at e
  have := e (w / 4) (Finset.mem_range.mpr (by omega))
  rw [colWt_zero] at this
  have := this (w % 4) (by omega)
  unfold V at this
  rw [W_false] at this
  have := this p hp q hq
  simp only [show w % 4 + 4 * (w / 4) = w by omega] at this
  exact this

theorem wideTrail (salt : List (BitVec 64)) (hs : salt.length = 2) (cs : List (BitVec 64)) (x y : List (BitVec 64)) (hx : x.length = 32)
    (hy : y.length = 32) (h : x ≠ y) : 5 * Spec.wideTrail 5 cs.length ≤ along activeBoxes (cs.map (round salt)) x y := by
  have hf : ∀ f ∈ cs.map (round salt), IsRoundOf (fun x : List (BitVec 64) => x.length = 32) V 4 4 5 src f := by
    intro f hf
    obtain ⟨c, _, rfl⟩ := List.mem_map.mp hf
    exact model_isRound salt hs c
  have t := trail spreads (cs.map (round salt)) hf x y hx hy (ne_wt x y hx hy h)
  rw [List.length_map] at t
  exact Nat.le_trans (Nat.mul_le_mul_left 5 t) (along_le 5 (P := fun x : List (BitVec 64) => x.length = 32) _ activeBoxes _ (fun f h => (hf f h).len)
    (fun x y _ _ => boxes x y) x y hx hy)

end Digestpp.Proofs.Wide.Echo
