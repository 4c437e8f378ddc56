import Verif.Proofs.JhCore
import Verif.Proofs.MdFinal
import Verif.Proofs.Api
import Verif.Proofs.Blake

/-! The JH provider computes JH. -/

namespace Digestpp.Proofs.Jh
open Model Spec Spec.Jh

/-- The words `H` from the bits. -/
def arr (A : Bits) : List (BitVec 64) := (List.range 16).map fun w => ofBits 64 fun t => A (64 * w + bp t)

theorem length_arr (A : Bits) : (arr A).length = 16 := by unfold arr; rw [List.length_map, List.length_range]

theorem bp_bp : ∀ i, i < 64 → bp (bp i) = i := by decide

theorem arr_bit (A : Bits) (w t : Nat) (hw : w < 16) (ht : t < 64) : ((arr A).getD w 0).getLsbD t = A (64 * w + bp t) := by
  unfold arr
  rw [getD_map_range _ _ _ _ hw, getLsbD_ofBits, decide_eq_true ht, Bool.true_and]

theorem eq_arr (H : List (BitVec 64)) (A : Bits) (hl : H.length = 16)
    (h : ∀ w, w < 16 → ∀ t, t < 64 → (H.getD w 0).getLsbD t = A (64 * w + bp t)) : H = arr A := by
  rw [← map_range_getD H 0 16 hl]
  unfold arr
  apply List.map_congr_left
  intro w hw
  have hw := List.mem_range.mp hw
  exact (ofBits_eq _ _ fun t ht => (h w hw t ht).symm).symm

theorem tau0 : ∀ j, j < 128 → tau 0 j = j := by decide

theorem holds_arr (A : Bits) : Holds 0 (arr A) (group A) := by
  intro j hj par hp b hb
  have hm : j % 64 < 64 := Nat.mod_lt _ (by decide)
  rw [tau0 j hj]
  unfold at_
  rw [arr_bit _ _ _ (word_lt b par j hb hp hj) (bp_lt _ hm), bp_bp _ hm]
  unfold bit group
  rw [getLsbD_ofBits, decide_eq_true (by omega), Bool.true_and]
  congr 1
  omega

theorem arr_degroup (H : List (BitVec 64)) (a : Elems) (hl : H.length = 16) (h : Holds 0 H a) : H = arr (degroup a) := by
  apply eq_arr _ _ hl
  intro w hw t ht
  have hb := bp_lt t ht
  have := h (64 * (w % 2) + bp t) (by omega) (w / 2 % 2) (by omega) (w / 4) (by omega)
  rw [tau0 _ (by omega)] at this
  unfold at_ at this
  rw [show 4 * (w / 4) + 2 * (w / 2 % 2) + (64 * (w % 2) + bp t) / 64 = w by omega,
    show (64 * (w % 2) + bp t) % 64 = bp t by omega, bp_bp _ ht] at this
  rw [this]
  unfold degroup
  rw [show (64 * w + bp t) / 256 = w / 4 by omega, show (64 * w + bp t) % 128 = 64 * (w % 2) + bp t by omega,
    show (64 * w + bp t) / 128 % 2 = w / 2 % 2 by omega]

theorem length_swapWords (H : List (BitVec 64)) : (Model.Jh.swapWords H).length = 16 := rfl

theorem length_seven (H : List (BitVec 64)) (r : Nat) : (Model.Jh.seven H r).length = 16 := by
  unfold Model.Jh.seven
  exact length_swapWords _

theorem length_sevens (l : List Nat) (H : List (BitVec 64)) (h : H.length = 16) : (l.foldl Model.Jh.seven H).length = 16 := by
  induction l generalizing H with
  | nil => exact h
  | cons r l ih => rw [List.foldl_cons]; exact ih _ (length_seven H r)

theorem rounds_eq (A : Bits) : [0, 7, 14, 21, 28, 35].foldl Model.Jh.seven (arr A) = arr (E8 A) := by
  unfold E8
  refine arr_degroup _ _ ?_ (rounds_holds _ _ (holds_arr A))
  exact length_sevens _ _ (length_arr A)

theorem le64_bit (b : Bytes) (t : Nat) (ht : t < 64) : (le64 b).getLsbD t = (b.getD (t / 8) 0).getLsbD (t % 8) := by
  unfold le64
  rw [getLsbD_app8]
  have e : ∀ k, t / 8 = k → (b.getD (t / 8) 0).getLsbD (t % 8) = (b.getD k 0).getLsbD (t - 8 * k) := by
    intro k hk
    rw [hk]
    congr 1
    omega
  repeat' split
  · exact (e 0 (by omega)).symm
  · exact (e 1 (by omega)).symm
  · exact ((e 2 (by omega)).trans (congrArg _ (by omega))).symm
  · exact ((e 3 (by omega)).trans (congrArg _ (by omega))).symm
  · exact ((e 4 (by omega)).trans (congrArg _ (by omega))).symm
  · exact ((e 5 (by omega)).trans (congrArg _ (by omega))).symm
  · exact ((e 6 (by omega)).trans (congrArg _ (by omega))).symm
  · exact ((e 7 (by omega)).trans (congrArg _ (by omega))).symm

theorem load_bit (b : Bytes) (w t : Nat) (hw : w < 8) (ht : t < 64) :
    ((loads64 8 b).getD w 0).getLsbD t = bitsOf b (64 * w + bp t) := by
  have hb : ∀ t, t < 64 → bp t / 8 = t / 8 ∧ 7 - bp t % 8 = t % 8 := by decide
  obtain ⟨h1, h2⟩ := hb t ht
  unfold loads64 bitsOf
  rw [getD_map_range _ _ _ _ hw, le64_bit _ _ ht]
  rw [show (64 * w + bp t) / 8 = 8 * w + t / 8 by omega, show 7 - (64 * w + bp t) % 8 = t % 8 by omega]
  rw [List.getD_eq_getElem?_getD, List.getElem?_drop, ← List.getD_eq_getElem?_getD]

theorem xorFirst_eq (A : Bits) (b : Bytes) :
    Model.Jh.xorFirst (arr A) (loads64 8 b) = arr fun j => if j < 512 then A j ^^ bitsOf b j else A j := by
  apply eq_arr
  · unfold Model.Jh.xorFirst; rw [List.length_map, List.length_range]
  · intro w hw t ht
    have hb := bp_lt t ht
    unfold Model.Jh.xorFirst
    rw [getD_map_range _ _ _ _ hw]
    split
    · rw [if_pos (by omega), BitVec.getLsbD_xor, arr_bit _ _ _ hw ht, load_bit _ _ _ (by omega) ht]
    · rw [if_neg (by omega), arr_bit _ _ _ hw ht]

theorem xorLast_eq (A : Bits) (b : Bytes) :
    Model.Jh.xorLast (arr A) (loads64 8 b) = arr fun j => if j < 512 then A j else A j ^^ bitsOf b (j - 512) := by
  apply eq_arr
  · unfold Model.Jh.xorLast; rw [List.length_map, List.length_range]
  · intro w hw t ht
    have hb := bp_lt t ht
    unfold Model.Jh.xorLast
    rw [getD_map_range _ _ _ _ hw]
    split
    · rw [if_pos (by omega), arr_bit _ _ _ hw ht]
    · rw [if_neg (by omega), BitVec.getLsbD_xor, arr_bit _ _ _ hw ht, load_bit _ _ _ (by omega) ht,
        show 64 * w + bp t - 512 = 64 * (w - 8) + bp t by omega]

theorem compress_eq (A : Bits) (b : Bytes) : Model.Jh.compress (arr A) (loads64 8 b) = arr (F8 A (bitsOf b)) := by
  unfold Model.Jh.compress
  dsimp only
  rw [xorFirst_eq, rounds_eq, xorLast_eq]
  rfl

/-- The state of the provider for digest size `N`, from the chaining value. -/
def st (N : Nat) (A : Bits) : Model.Jh.St := ⟨arr A, N⟩

/-- The block function. -/
def step (b : Bytes) (h : Model.Jh.St) : Model.Jh.St := { h with H := Model.Jh.compress h.H (loads64 8 b) }

theorem step_st (N : Nat) (A : Bits) (b : Bytes) : step b (st N A) = st N (F8 A (bitsOf b)) := by
  unfold step st
  dsimp only
  rw [compress_eq]

theorem isCompress (N : Nat) : IsCompress 64 (fun h => ∃ A, h = st N A) step Model.Jh.transform := by
  refine isCompress_of (compress := fun b h => pure { h with H := Model.Jh.compress h.H (loads64 8 b) }) ?_ (fun _ _ _ => rfl)
  rintro b _ hb ⟨A, rfl⟩
  exact ⟨rfl, _, step_st N A b⟩

/-- The initial value. -/
def ivN (N : Nat) : Bits := F8 (bitsOf (beBytes 2 N)) fun _ => false

/-- `s` has absorbed `msg`. -/
def Abs (N : Nat) (msg : Bytes) (s : Blk Model.Jh.St) : Prop :=
  Buffered 64 0 64 (fun _ b h => step b h) (st N (ivN N)) msg s

theorem abs_hs (N : Nat) (msg : Bytes) (s : Blk Model.Jh.St) (h : Abs N msg s) : s.h.hs = N := by
  have : ∃ A, s.h = st N A := by
    rw [h.h]
    exact foldBlocks_inv (fun _ b h hb hi => (isCompress N).1 b h hb hi) _ _ _ (by
      have := Nat.div_mul_le_self (msg.length - 0) 64; omega) ⟨_, rfl⟩
  obtain ⟨A, e⟩ := this
  rw [e]; rfl

theorem update_ok (N : Nat) (msg data : Bytes) (s : Blk Model.Jh.St) (h : Abs N msg s) (hd : data.length < 2 ^ 63) :
    ∃ s', Model.Jh.update data s = .ok s' ∧ Abs N (msg ++ data) s' :=
  absorbBytes_spec (by omega) (by omega) (by omega) (by omega) (isCompress N).isTransform
    (fun _ b h hb hi => (isCompress N).1 b h hb hi) ⟨_, rfl⟩ msg data s h hd

theorem init_arr : ∀ N, N ≤ 512 →
    (List.replicate 16 (0 : BitVec 64)).set 0 (BitVec.setWidth 64 (byteswap16 (BitVec.ofNat 16 N))) = arr (bitsOf (beBytes 2 N)) := by
  intro N hN
  have h0 : ∀ N, N ≤ 512 → ∀ t, t < 64 →
      (BitVec.setWidth 64 (byteswap16 (BitVec.ofNat 16 N))).getLsbD t = bitsOf (beBytes 2 N) (64 * 0 + bp t) := by decide +kernel
  apply eq_arr
  · rw [List.length_set, List.length_replicate]
  · intro w hw t ht
    by_cases h : w = 0
    · subst h
      exact h0 N hN t ht
    · rw [List.getD_eq_getElem?_getD, List.getElem?_set_ne (Ne.symm h), List.getElem?_replicate, if_pos hw]
      unfold bitsOf
      rw [List.getD_eq_getElem?_getD, List.getElem?_eq_none (by rw [length_beBytes]; omega)]
      simp

theorem bitsOf_zero (n : Nat) : bitsOf (List.replicate n 0) = fun _ => false := by
  funext i
  unfold bitsOf
  rw [List.getD_eq_getElem?_getD, List.getElem?_replicate]
  split <;> simp

theorem init_ok (N : Nat) (h : N ≤ 512) (s : Blk Model.Jh.St) (hm : s.m.length = 64) (hs : s.h.hs = N) :
    ∃ s', Model.Jh.init s = .ok s' ∧ Abs N [] s' := by
  unfold Model.Jh.init
  rw [hs, init_arr N h]
  rw [(isCompress N).one _ (List.replicate 64 0) List.length_replicate ⟨bitsOf (beBytes 2 N), by
    show (⟨_, s.h.hs⟩ : Model.Jh.St) = _
    rw [hs]; rfl⟩]
  refine ⟨_, rfl, Buffered.start _ _ hm rfl rfl ?_⟩
  show step _ ⟨arr _, s.h.hs⟩ = _
  rw [hs]
  have := step_st N (bitsOf (beBytes 2 N)) (List.replicate 64 0)
  rw [bitsOf_zero] at this
  exact this

theorem bytes64_arr (A : Bits) (w : Nat) :
    bytes64 (ofBits 64 fun t => A (64 * w + bp t)) = (List.range 8).map fun i => ofBits 8 fun j => A (8 * (8 * w + i) + (7 - j)) := by
  have key : ∀ k, k < 8 → (ofBits 64 fun t => A (64 * w + bp t)).extractLsb' (8 * k) 8
      = ofBits 8 fun j => A (8 * (8 * w + k) + (7 - j)) := by
    intro k hk
    symm
    apply ofBits_eq
    intro i hi
    rw [BitVec.getLsbD_extractLsb', decide_eq_true hi, Bool.true_and, getLsbD_ofBits, decide_eq_true (by omega), Bool.true_and]
    unfold bp
    congr 1
    omega
  unfold bytes64
  have k0 := key 0 (by omega); have k1 := key 1 (by omega); have k2 := key 2 (by omega); have k3 := key 3 (by omega)
  have k4 := key 4 (by omega); have k5 := key 5 (by omega); have k6 := key 6 (by omega); have k7 := key 7 (by omega)
  simp only [Nat.mul_zero, Nat.mul_one, Nat.reduceMul] at k0 k1 k2 k3 k4 k5 k6 k7
  rw [k0, k1, k2, k3, k4, k5, k6, k7]
  rfl

theorem flatMap_range {α : Type} (f : Nat → α) (m n : Nat) :
    ((List.range n).flatMap fun w => (List.range m).map fun i => f (m * w + i)) = (List.range (m * n)).map f := by
  induction n with
  | zero => rfl
  | succ n ih =>
    rw [List.range_succ, List.flatMap_append, ih, Nat.mul_succ, List.range_add, List.map_append, List.map_map]
    simp only [List.flatMap_cons, List.flatMap_nil, List.append_nil]
    rfl

theorem stores_arr (A : Bits) : stores64 (arr A) = bytesOf 128 A := by
  unfold stores64 arr bytesOf
  rw [List.flatMap_map]
  simp only [bytes64_arr]
  exact flatMap_range (fun i => ofBits 8 fun j => A (8 * i + (7 - j))) 8 16

theorem pad_eq (msg : Bytes) :
    mdPad 64 (List.replicate (63 - 8) 0 ++ bytes64 (byteswap64 (BitVec.ofNat 64 (8 * msg.length)))) msg = pad wrap64 msg := by
  unfold mdPad pad
  rw [bytes64_byteswap_ofNat]
  have e1 : beBytes 16 (wrap64 (8 * msg.length)) = List.replicate 8 0 ++ beBytes 8 (8 * msg.length) := by
    rw [← beBytes8_wrap64]; exact beBytes_pad 8 8 _ (wrap64_lt _)
  have e2 : (List.replicate (63 - 8) (0 : Byte) ++ beBytes 8 (8 * msg.length)).length = 63 := by
    rw [List.length_append, List.length_replicate, length_beBytes]
  have e3 : toMultiple 64 (msg.length + 1 + 63) = toMultiple 64 msg.length := by
    unfold toMultiple
    omega
  rw [e2, e3, e1]
  have e4 : List.replicate (47 + toMultiple 64 msg.length) (0 : Byte) ++ List.replicate 8 0
      = List.replicate (toMultiple 64 msg.length) 0 ++ List.replicate (63 - 8) 0 := by
    rw [List.replicate_append_replicate, List.replicate_append_replicate]
    congr 1
    omega
  simp only [← List.append_assoc]
  congr 1
  simp only [List.append_assoc]
  rw [e4]

theorem final_ok (N : Nat) (hN : N % 8 = 0) (hN' : N ≤ 512) (msg : Bytes) (s : Blk Model.Jh.St) (h : Abs N msg s) :
    Model.Jh.final s = .ok (Spec.Jh.hashWith wrap64 (N / 8) msg) := by
  obtain ⟨s', e, h', -⟩ := mdFinal_spec (lf := 63) (limit := 1) (fill := 56) (enc := fun t => bytes64 (byteswap64 t))
    (isCompress N) (by omega) (by omega) rfl (by omega) (by omega) (by omega) (fun _ => rfl) msg s h ⟨_, rfl⟩
  unfold Model.Jh.final
  rw [e, ok_bind, h', pad_eq msg]
  rw [foldBlocks_conj (st N) (step := fun _ b H => F8 H (bitsOf b)) (fun _ b A => step_st N A b)]
  unfold Spec.Jh.hashWith
  have e8 : 8 * (N / 8) = N := by omega
  unfold iv
  rw [e8]
  show readBytes (stores64 (arr _)) (szSub 128 (N / 8)) (N / 8) = _
  unfold ivN
  dsimp only
  generalize foldBlocks 64 _ _ _ _ = X
  rw [stores_arr, szSub_eq _ _ (by omega) (by unfold szMod; omega)]
  have hb : (bytesOf 128 X).length = 128 := by unfold bytesOf; rw [List.length_map, List.length_range]
  rw [readBytes_ok _ _ _ (by omega), List.take_of_length_le (by rw [List.length_drop]; omega)]

theorem refines (N : Nat) (h0 : 0 < N) (h8 : N % 8 = 0) (hN : N ≤ 512) :
    HashRefines Model.Jh.provider (jhWrap (N / 8)) (Cover.all Empty) (fun _ => Abs N) where
  init := fun _ msg s h => init_ok N hN s h.mlen (abs_hs N msg s h)
  update := fun _ msg s data h hd => update_ok N msg data s h hd
  final := fun _ msg s h _ => final_ok N h8 hN msg s h
  clear := fun _ _ msg s h => by
    obtain ⟨s2, e, r⟩ := init_ok N hN { s with
        h := { s.h with H := List.replicate 16 0 }
        m := zeroBytes s.m } (by rw [zeroBytes]; simpa using h.mlen) (abs_hs N msg s h)
    exact ⟨_, s2, rfl, e, r⟩
  size := fun _ msg s h => by
    show s.h.hs / 8 = _
    rw [abs_hs N msg s h]
    rfl
  size_pos := show 0 < N / 8 by omega
  digest_length := fun _ msg s h _ => by
    show ((bytesOf 128 _).drop _).length = N / 8
    rw [List.length_drop]
    unfold bytesOf
    rw [List.length_map, List.length_range]
    omega
  set := fun _ _ _ p => nomatch p

end Digestpp.Proofs.Jh
