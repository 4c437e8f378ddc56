import Verif.Proofs.EschCore
import Verif.Proofs.Sponge
import Verif.Proofs.Blake

/-! The Esch provider absorbs and squeezes as a sponge. -/

namespace Digestpp.Proofs.Esch
open Model Spec Spec.Esch
open Model.Esch (St)

/-- The families with the number of branches and the field `hs`. -/
def Sized (F : Family) (nb hs : Nat) : Prop := F = f256 ∧ nb = 6 ∧ hs = 256 ∨ F = f384 ∧ nb = 8 ∧ hs = 384

theorem Sized.size {F : Family} {nb hs : Nat} (h : Sized F nb hs) : Size F nb := by
  obtain ⟨h1, h2, _⟩ | ⟨h1, h2, _⟩ := h
  · exact .inl ⟨h1, h2⟩
  · exact .inr ⟨h1, h2⟩

/-- The state as it is kept: the branches and the unused part of the array. -/
def arr (nb rl : Nat) (B : Branches) : List (BitVec 32) := flat nb B ++ List.replicate rl 0

theorem sparkle_arr {F : Family} {nb hs : Nat} (hF : Sized F nb hs) (rl : Nat) (B : Branches) :
    Model.Esch.sparkle (if hs > 256 then 8 else 6) (if hs > 256 then 8 else 7) (arr nb rl B)
      = arr nb rl (Spec.Esch.sparkle F.h F.slim B) := by
  have hs' := hF.size
  obtain ⟨rfl, rfl, rfl⟩ | ⟨rfl, rfl, rfl⟩ := hF
  · exact sparkle_eq f256 6 hs' 7 B _
  · exact sparkle_eq f384 8 hs' 8 B _

/-- Absorbing a block. -/
def stepB (F : Family) (last : Bool) (b : Bytes) (B : Branches) : Branches :=
  Spec.Esch.sparkle F.h (if last then F.slim + 4 else F.slim) (inject F.h B b)

theorem absorbBlock_eq {F : Family} {nb hs : Nat} (hF : Sized F nb hs) (rl : Nat) (q last : Bool) (b : Bytes) (hb : b.length = 16)
    (B : Branches) :
    Model.Esch.absorbBlock last b ⟨arr nb rl B, hs, q⟩ = ⟨arr nb rl (stepB F last b B), hs, q⟩ := by
  have hs' := hF.size
  have hi := inject_eq F nb hs' b hb B (List.replicate rl 0)
  obtain ⟨rfl, rfl, rfl⟩ | ⟨rfl, rfl, rfl⟩ := hF
  · have e : Model.Esch.absorbBlock last b ⟨arr 6 rl B, 256, q⟩ =
        ⟨Model.Esch.sparkle 6 (if last then 11 else 7) (injectM (decide (6 = 8)) b (arr 6 rl B)), 256, q⟩ := rfl
    rw [e, arr, hi, sparkle_eq f256 6 hs']
    cases last <;> rfl
  · have e : Model.Esch.absorbBlock last b ⟨arr 8 rl B, 384, q⟩ =
        ⟨Model.Esch.sparkle 8 ((if last then 11 else 7) + 1) (injectM (decide (8 = 8)) b (arr 8 rl B)), 384, q⟩ := rfl
    rw [e, arr, hi, sparkle_eq f384 8 hs']
    cases last <;> rfl

theorem transform_eq (last : Bool) (data : Bytes) (n : Nat) (s : Blk St) (hn : n * 16 ≤ data.length) :
    Model.Esch.transform last data n s = .ok { s with h := foldBlocks 16 (fun _ => Model.Esch.absorbBlock last) data n s.h } := by
  unfold Model.Esch.transform
  rw [forBlocks_ok (step := fun _ b h => pure (Model.Esch.absorbBlock last b h)) (g := fun _ b h => Model.Esch.absorbBlock last b h) (inv := fun _ => True) (fun _ _ _ _ _ => ⟨rfl, trivial⟩) data n s.h
    hn trivial, ok_bind]
  rfl

theorem isTransform : IsTransform 16 128 (fun _ : St => True) (fun _ => Model.Esch.absorbBlock false) (Model.Esch.transform false) := by
  intro s data n i hn hm _ _
  exact ⟨s.m, hm, transform_eq false data n s hn⟩

/-- `s` has absorbed `msg`. -/
def Absorbing (nb hs rl : Nat) (msg : Bytes) (s : Blk St) : Prop :=
  Buffered 16 1 128 (fun _ => Model.Esch.absorbBlock false) ⟨arr nb rl fun _ => (0, 0), hs, false⟩ msg s

/-- The branches after the complete blocks. -/
def mid (F : Family) (msg : Bytes) : Branches := foldBlocks 16 (fun _ => stepB F false) msg ((msg.length - 1) / 16) fun _ => (0, 0)

theorem Absorbing.fields {F : Family} {nb hs rl : Nat} (hF : Sized F nb hs) {msg : Bytes} {s : Blk St} (h : Absorbing nb hs rl msg s) :
    s.h = ⟨arr nb rl (mid F msg), hs, false⟩ := by
  rw [h.h]
  exact foldBlocks_conj' (fun B => (⟨arr nb rl B, hs, false⟩ : St)) 16 msg _ (fun _ => (0, 0)) (by omega)
    fun _ _ b B hb => absorbBlock_eq hF rl false false b hb B

/-- `s` has given `n > 0` bytes of the output that begins with the state `B0`. -/
structure Squeezing (F : Family) (nb hs rl : Nat) (B0 : Branches) (n : Nat) (s : Blk St) : Prop where
  n_pos : 0 < n
  mlen : s.m.length = 128
  h : s.h = ⟨arr nb rl (iter (Spec.Esch.sparkle F.h F.slim) ((n - 1) / 16) B0), hs, true⟩
  pos : s.pos = (n - 1) % 16 + 1
  total : s.total = 0 ∨ s.pos < 16

theorem update_ok {nb hs rl : Nat} {msg : Bytes} {s : Blk St} (data : Bytes) (h : Absorbing nb hs rl msg s) (hd : data.length < 2 ^ 63) :
    ∃ s', Model.Esch.update data s = .ok s' ∧ Absorbing nb hs rl (msg ++ data) s' :=
  absorbBytes_spec (by decide) (by decide) (by decide) (by decide) isTransform (fun _ _ _ _ _ => trivial) trivial msg data s h hd

theorem flat_zero {F : Family} {nb hs : Nat} (hF : Sized F nb hs) (rl : Nat) :
    arr nb rl (fun _ => (0, 0)) = List.replicate (2 * nb + rl) 0 := by
  unfold arr
  rw [← List.replicate_append_replicate]
  congr 1
  obtain ⟨_, rfl, _⟩ | ⟨_, rfl, _⟩ := hF <;> rfl

theorem length_arr {F : Family} {nb hs : Nat} (hF : Sized F nb hs) (rl : Nat) (B : Branches) : (arr nb rl B).length = 2 * nb + rl := by
  unfold arr
  rw [List.length_append, List.length_replicate]
  obtain ⟨_, rfl, _⟩ | ⟨_, rfl, _⟩ := hF <;> rfl

theorem init_ok {F : Family} {nb hs : Nat} (hF : Sized F nb hs) (rl : Nat) (s : Blk St) (hm : s.m.length = 128)
    (hl : s.h.H.length = 2 * nb + rl) (hh : s.h.hs = hs) : ∃ s', Model.Esch.init s = .ok s' ∧ Absorbing nb hs rl [] s' := by
  refine ⟨_, rfl, Buffered.start _ _ ?_ rfl rfl ?_⟩
  · show (List.replicate _ _).length = _
    rw [List.length_replicate]; exact hm
  · dsimp only
    rw [flat_zero hF, hh, List.map_const', hl]

theorem read_state {F : Family} {nb hs : Nat} (hF : Sized F nb hs) (rl : Nat) (B0 : Branches) (q k : Nat) (hk : q % 16 + k ≤ 16) :
    readBytes (stores32 (arr nb rl (iter (Spec.Esch.sparkle F.h F.slim) (q / 16) B0))) (q % 16) k
      = .ok (slice (Spec.Esch.squeeze F B0) q k) := by
  have hout : ∀ B, ∃ t : Bytes, stores32 (arr nb rl B) = outBytes B ++ t := by
    intro B
    have e : ∃ t, arr nb rl B = [(B 0).1, (B 0).2, (B 1).1, (B 1).2] ++ t := by
      obtain ⟨_, rfl, _⟩ | ⟨_, rfl, _⟩ := hF
      · exact ⟨_, rfl⟩
      · exact ⟨_, rfl⟩
    obtain ⟨t, e⟩ := e
    refine ⟨ofLeWords t, ?_⟩
    rw [stores32_eq, e]
    unfold ofLeWords outBytes ofLeWords
    rw [List.flatMap_append]
  have hol : ∀ B, (outBytes B).length = 16 := by
    intro B
    unfold outBytes
    rw [length_ofLeWords]
    rfl
  rw [read_stream (fun j => stores32 (arr nb rl (iter (Spec.Esch.sparkle F.h F.slim) j B0))) 16 (by decide) ?_ q k hk]
  · congr 1
    apply slice_congr
    intro i
    unfold Spec.Esch.squeeze
    obtain ⟨t, e⟩ := hout (iter (Spec.Esch.sparkle F.h F.slim) (i / 16) B0)
    have := hol (iter (Spec.Esch.sparkle F.h F.slim) (i / 16) B0)
    rw [e, List.getD_eq_getElem?_getD, List.getD_eq_getElem?_getD, List.getElem?_append_left (by omega)]
  · intro j
    obtain ⟨t, e⟩ := hout (iter (Spec.Esch.sparkle F.h F.slim) j B0)
    have := hol (iter (Spec.Esch.sparkle F.h F.slim) j B0)
    rw [e, List.length_append]
    omega

theorem loop_done (hss : Nat) (f : Nat → Byte) (n0 : Nat) (fuel : Nat) (s : Blk St) :
    Model.Esch.squeezeLoop hss fuel (slice f n0 hss) s = .ok (slice f n0 hss, s) := by
  cases fuel with
  | zero => rfl
  | succ fuel =>
    unfold Model.Esch.squeezeLoop
    rw [length_slice, if_neg (by omega)]
    rfl

theorem loop_ok {F : Family} {nb hs : Nat} (hF : Sized F nb hs) (rl : Nat) (B0 : Branches) (n0 hss : Nat) (q : Bool) (m : Bytes) (fuel : Nat) :
    ∀ (p : Nat) (H : List (BitVec 32)) (pos : Nat) (t : BitVec 64), hss - p ≤ fuel → p < hss → (n0 + p) % 16 = 0 →
    (if t = 0 then Model.Esch.sparkle (if hs > 256 then 8 else 6) (if hs > 256 then 8 else 7) H else H)
      = arr nb rl (iter (Spec.Esch.sparkle F.h F.slim) ((n0 + p) / 16) B0) →
    Model.Esch.squeezeLoop hss fuel (slice (Spec.Esch.squeeze F B0) n0 p) ⟨⟨H, hs, q⟩, m, pos, t⟩
      = .ok (slice (Spec.Esch.squeeze F B0) n0 hss,
          ⟨⟨arr nb rl (iter (Spec.Esch.sparkle F.h F.slim) ((n0 + hss - 1) / 16) B0), hs, q⟩, m, (n0 + hss - 1) % 16 + 1, 0⟩) := by
  induction fuel with
  | zero => intro p H pos t h1 h2; omega
  | succ fuel ih =>
    intro p H pos t hf hp hq hH
    unfold Model.Esch.squeezeLoop
    rw [length_slice, if_pos hp]
    dsimp only
    rw [hH]
    have hrd := read_state hF rl B0 (n0 + p) (min (hss - p) 16) (by omega)
    rw [hq] at hrd
    rw [hrd, ok_bind, slice_append]
    by_cases hle : hss - p ≤ 16
    · rw [Nat.min_eq_left hle, show p + (hss - p) = hss by omega, loop_done]
      rw [show (n0 + hss - 1) / 16 = (n0 + p) / 16 by omega, show (n0 + hss - 1) % 16 + 1 = hss - p by omega]
    · rw [Nat.min_eq_right (by omega)]
      refine ih (p + 16) _ 16 0 (by omega) (by omega) (by omega) ?_
      rw [if_pos rfl, sparkle_arr hF, show (n0 + (p + 16)) / 16 = (n0 + p) / 16 + 1 by omega]
      rfl

theorem squeeze_next {F : Family} {nb hs rl : Nat} (hF : Sized F nb hs) {B0 : Branches} {n : Nat} {s : Blk St} (xof : Bool) (k : Nat)
    (hk : 0 < k) (h : Squeezing F nb hs rl B0 n s) :
    ∃ s', Model.Esch.squeeze xof k s = .ok (slice (Spec.Esch.squeeze F B0) n k, s') ∧ Squeezing F nb hs rl B0 (n + k) s' := by
  obtain ⟨hn, hml, hh, hpos, ht⟩ := h
  obtain ⟨sh, m, pos, total⟩ := s
  dsimp only at hml hh hpos ht
  subst hh hpos
  unfold Model.Esch.squeeze Model.Esch.squeezeFirst
  dsimp only
  rw [if_neg (by simp)]
  have fin : ∀ s' : Blk St, s' = ⟨⟨arr nb rl (iter (Spec.Esch.sparkle F.h F.slim) ((n + k - 1) / 16) B0), hs, true⟩, m,
      (n + k - 1) % 16 + 1, 0⟩ → Squeezing F nb hs rl B0 (n + k) s' := by
    intro s' e
    subst e
    exact ⟨by omega, hml, rfl, rfl, .inl rfl⟩
  by_cases hc : (n - 1) % 16 + 1 < 16
  · rw [if_pos hc]
    have hrd := read_state hF rl B0 n (min k (16 - ((n - 1) % 16 + 1))) (by omega)
    rw [show n / 16 = (n - 1) / 16 by omega, show n % 16 = (n - 1) % 16 + 1 by omega] at hrd
    rw [hrd, ok_bind]
    show ∃ s', Model.Esch.squeezeLoop k k _ _ = _ ∧ _
    by_cases hle : k ≤ 16 - ((n - 1) % 16 + 1)
    · rw [Nat.min_eq_left hle, loop_done]
      refine ⟨_, rfl, fin _ ?_⟩
      rw [show (n + k - 1) / 16 = (n - 1) / 16 by omega, show (n + k - 1) % 16 + 1 = (n - 1) % 16 + 1 + k by omega]
    · rw [Nat.min_eq_right (by omega)]
      refine ⟨_, loop_ok hF rl B0 n k true m k (16 - ((n - 1) % 16 + 1)) _ _ 0 (by omega) (by omega) (by omega) ?_, fin _ rfl⟩
      rw [if_pos rfl, sparkle_arr hF, show (n + (16 - ((n - 1) % 16 + 1))) / 16 = (n - 1) / 16 + 1 by omega]
      rfl
  · obtain rfl : total = 0 := ht.resolve_right hc
    rw [if_neg hc]
    refine ⟨_, loop_ok hF rl B0 n k true m k 0 _ _ 0 (by omega) (by omega) (by omega) ?_, fin _ rfl⟩
    rw [if_pos rfl, sparkle_arr hF, show (n + 0) / 16 = (n - 1) / 16 + 1 by omega]
    rfl

/-- A further squeeze of length zero. -/
theorem squeeze_empty_next {F : Family} {nb hs rl : Nat} (hF : Sized F nb hs) {B0 : Branches} {n : Nat} {s : Blk St} (xof : Bool)
    (h : Squeezing F nb hs rl B0 n s) :
    ∃ s', Model.Esch.squeeze xof 0 s = .ok ([], s') ∧ Squeezing F nb hs rl B0 n s' := by
  obtain ⟨hn, hml, hh, hpos, ht⟩ := h
  obtain ⟨sh, m, pos, total⟩ := s
  dsimp only at hml hh hpos ht
  subst hh hpos
  unfold Model.Esch.squeeze Model.Esch.squeezeFirst
  dsimp only
  rw [if_neg (by simp)]
  by_cases hc : (n - 1) % 16 + 1 < 16
  · have hrd := read_state hF rl B0 n 0 (by omega)
    rw [show n / 16 = (n - 1) / 16 by omega, show n % 16 = (n - 1) % 16 + 1 by omega] at hrd
    rw [if_pos hc, Nat.zero_min, hrd, ok_bind]
    exact ⟨_, rfl, hn, hml, rfl, rfl, .inl rfl⟩
  · rw [if_neg hc]
    exact ⟨_, rfl, hn, hml, rfl, rfl, ht⟩

/-- Squeezing has begun, but no output was given: position 0. -/
structure Fresh (nb hs rl : Nat) (B0 : Branches) (s : Blk St) : Prop where
  mlen : s.m.length = 128
  h : s.h = ⟨arr nb rl B0, hs, true⟩
  pos : s.pos = 0 ∨ s.pos = 16 ∧ s.total ≠ 0

theorem fresh_empty {F : Family} {nb hs rl : Nat} (hF : Sized F nb hs) {B0 : Branches} {s : Blk St} (xof : Bool) (h : Fresh nb hs rl B0 s) :
    ∃ s', Model.Esch.squeeze xof 0 s = .ok ([], s') ∧ Fresh nb hs rl B0 s' := by
  obtain ⟨hml, hh, hp⟩ := h
  obtain ⟨sh, m, pos, total⟩ := s
  dsimp only at hml hh hp
  subst hh
  unfold Model.Esch.squeeze Model.Esch.squeezeFirst
  dsimp only
  rw [if_neg (by simp)]
  by_cases hc : pos = 0
  · subst hc
    have hrd := read_state hF rl B0 0 0 (by omega)
    rw [if_pos (by omega), Nat.zero_min]
    dsimp only [Nat.zero_div, Nat.zero_mod] at hrd
    rw [show stores32 (arr nb rl B0) = stores32 (arr nb rl (iter (Spec.Esch.sparkle F.h F.slim) 0 B0)) from rfl, hrd, ok_bind]
    exact ⟨_, rfl, hml, rfl, .inl rfl⟩
  · obtain ⟨rfl, ht⟩ := hp.resolve_left hc
    rw [if_neg (by omega)]
    exact ⟨_, rfl, hml, rfl, .inr ⟨rfl, ht⟩⟩

theorem fresh_squeeze {F : Family} {nb hs rl : Nat} (hF : Sized F nb hs) {B0 : Branches} {s : Blk St} (xof : Bool) (k : Nat) (hk : 0 < k)
    (h : Fresh nb hs rl B0 s) :
    ∃ s', Model.Esch.squeeze xof k s = .ok (slice (Spec.Esch.squeeze F B0) 0 k, s') ∧ Squeezing F nb hs rl B0 k s' := by
  obtain ⟨hml, hh, hp⟩ := h
  obtain ⟨sh, m, pos, total⟩ := s
  dsimp only at hml hh hp
  subst hh
  unfold Model.Esch.squeeze Model.Esch.squeezeFirst
  dsimp only
  rw [if_neg (by simp)]
  have fin : ∀ s' : Blk St, s' = ⟨⟨arr nb rl (iter (Spec.Esch.sparkle F.h F.slim) ((0 + k - 1) / 16) B0), hs, true⟩, m,
      (0 + k - 1) % 16 + 1, 0⟩ → Squeezing F nb hs rl B0 k s' := by
    intro s' e
    subst e
    rw [Nat.zero_add]
    exact ⟨hk, hml, rfl, rfl, .inl rfl⟩
  by_cases hc : pos = 0
  · subst hc
    have hrd := read_state hF rl B0 0 (min k 16) (by omega)
    dsimp only [Nat.zero_div, Nat.zero_mod] at hrd
    rw [if_pos (by omega), Nat.sub_zero, show stores32 (arr nb rl B0) = stores32 (arr nb rl (iter (Spec.Esch.sparkle F.h F.slim) 0 B0)) from rfl,
      hrd, ok_bind]
    show ∃ s', Model.Esch.squeezeLoop k k _ _ = _ ∧ _
    by_cases hle : k ≤ 16
    · rw [Nat.min_eq_left hle, loop_done]
      refine ⟨_, rfl, fin _ ?_⟩
      rw [show (0 + k - 1) / 16 = 0 by omega, show (0 + k - 1) % 16 + 1 = 0 + k by omega]
      rfl
    · rw [Nat.min_eq_right (by omega)]
      refine ⟨_, loop_ok hF rl B0 0 k true m k 16 _ _ 0 (by omega) (by omega) (by omega) ?_, fin _ rfl⟩
      rw [if_pos rfl, sparkle_arr hF]
      rfl
  · obtain ⟨rfl, ht⟩ := hp.resolve_left hc
    rw [if_neg (by omega)]
    refine ⟨_, loop_ok hF rl B0 0 k true m k 0 _ _ total (by omega) (by omega) (by omega) ?_, fin _ rfl⟩
    rw [if_neg ht]
    rfl

/-- The domain of the extendable output functions. -/
def dom (xof : Bool) : BitVec 32 := if xof then 4 else 0

theorem xorConst_eq {F : Family} {nb hs : Nat} (hF : Sized F nb hs) (rl : Nat) (q : Bool) (v : BitVec 32) (B : Branches) :
    Model.Esch.xorConst v ⟨arr nb rl B, hs, q⟩ = .ok ⟨arr nb rl (addConst F.h v B), hs, q⟩ := by
  unfold Model.Esch.xorConst
  dsimp only
  rw [if_pos (by rw [length_arr hF]; obtain ⟨_, rfl, rfl⟩ | ⟨_, rfl, rfl⟩ := hF <;> omega)]
  obtain ⟨rfl, rfl, rfl⟩ | ⟨rfl, rfl, rfl⟩ := hF <;> rfl

/-- The part of the first squeeze before the loop. -/
theorem squeezeFirst_ok {F : Family} {nb hs rl : Nat} (hF : Sized F nb hs) {msg : Bytes} {s : Blk St} (xof : Bool) (k : Nat)
    (h : Absorbing nb hs rl msg s) :
    ∃ m', m'.length = 128 ∧ Model.Esch.squeezeFirst xof k s
      = .ok ([], ⟨⟨arr nb rl (Spec.Esch.absorb F (dom xof) msg), hs, true⟩, m', s.pos, 1⟩) := by
  have hh := h.fields hF
  have hpfx := Buffered.pfx h
  have hpos := h.pos
  have hml := h.mlen
  obtain ⟨sh, m, pos, total⟩ := s
  dsimp only at hh hpfx hpos hml
  subst hh
  obtain ⟨last, hlast⟩ : ∃ last, last = msg.drop ((msg.length - 1) / 16 * 16) := ⟨_, rfl⟩
  have hll : last.length = pos := by rw [hlast, List.length_drop, hpos]
  rw [← hlast] at hpfx
  have hp16 : pos ≤ 16 := by omega
  have habs : Spec.Esch.absorb F (dom xof) msg = stepB F true
      (if last.length < 16 then last ++ [0x80] ++ List.replicate (15 - last.length) 0 else last)
      (addConst F.h (((if last.length < 16 then 1 else 2) ^^^ dom xof) <<< 24) (mid F msg)) := by
    rw [hlast, Nat.mul_comm]
    rfl
  obtain ⟨B0, hB0⟩ : ∃ B0, B0 = Spec.Esch.absorb F (dom xof) msg := ⟨_, rfl⟩
  rw [← hB0] at habs ⊢
  have hsq : ∃ m', m'.length = 128 ∧ Model.Esch.squeezeFirst xof k ⟨⟨arr nb rl (mid F msg), hs, false⟩, m, pos, total⟩
      = .ok ([], ⟨⟨arr nb rl B0, hs, true⟩, m', pos, 1⟩) := by
    unfold Model.Esch.squeezeFirst
    dsimp only
    rw [if_pos (show (!false) = true from rfl)]
    have htr : ∀ m' : Bytes, m'.length = 128 → ∀ b, b.length = 16 → b <+: m' → ∀ B,
        Model.Esch.transform true m' 1 ⟨⟨arr nb rl B, hs, true⟩, m', pos, 1⟩ = .ok ⟨⟨arr nb rl (stepB F true b B), hs, true⟩, m', pos, 1⟩ := by
      intro m' hm' b hb hbm B
      rw [transform_eq _ _ _ _ (by omega)]
      dsimp only
      have : foldBlocks 16 (fun _ => Model.Esch.absorbBlock true) m' 1 ⟨arr nb rl B, hs, true⟩
          = Model.Esch.absorbBlock true b ⟨arr nb rl B, hs, true⟩ := by
        simp only [foldBlocks, List.range_one, List.foldl_cons, List.foldl_nil]
        congr 1
        obtain ⟨r, rfl⟩ := hbm
        simp [blockAt, ← hb]
      rw [this, absorbBlock_eq hF rl true true b hb]
    by_cases hc : pos < 16
    · rw [if_pos (by omega), if_pos (by omega)] at habs
      rw [if_pos hc]
      obtain ⟨m1, e1, p1, l1⟩ := memset_pfx m last pos 0 (16 - pos) hpfx hll.symm (by omega)
      have p1' : last <+: m1 := List.IsPrefix.trans (List.prefix_append _ _) p1
      obtain ⟨m2, e2, p2, l2⟩ : ∃ m2, setByte m1 pos 0x80 = .ok m2 ∧ last ++ [0x80] ++ List.replicate (15 - last.length) 0 <+: m2 ∧
          m2.length = m1.length := by
        obtain ⟨r, rfl⟩ := p1
        rw [show 16 - pos = (15 - pos) + 1 by omega, List.replicate_succ]
        refine ⟨last ++ [0x80] ++ List.replicate (15 - last.length) 0 ++ r, ?_, List.prefix_append _ _, ?_⟩
        · unfold setByte
          rw [if_pos (by simp; omega)]
          rw [← hll]
          simp
        · simp [hll]
      rw [e1, ok_bind, e2, ok_bind, xorConst_eq hF, ok_bind]
      refine ⟨m2, by omega, ?_⟩
      rw [show ∀ s : Blk St, (pure s : M (Blk St)) = .ok s from fun _ => rfl, ok_bind]
      rw [htr m2 (by omega) _ (by simp; omega) p2, ok_bind, habs]
      cases xof <;> rfl
    · rw [if_neg (by omega), if_neg (by omega)] at habs
      rw [if_neg hc, xorConst_eq hF, ok_bind]
      refine ⟨m, hml, ?_⟩
      rw [show ∀ s : Blk St, (pure s : M (Blk St)) = .ok s from fun _ => rfl, ok_bind]
      rw [htr m hml _ (by omega) hpfx, ok_bind, habs]
      cases xof <;> rfl
  exact hsq

theorem squeeze_first {F : Family} {nb hs rl : Nat} (hF : Sized F nb hs) {msg : Bytes} {s : Blk St} (xof : Bool) (k : Nat)
    (hk : 0 < k) (h : Absorbing nb hs rl msg s) :
    ∃ s', Model.Esch.squeeze xof k s = .ok (slice (Spec.Esch.squeeze F (Spec.Esch.absorb F (dom xof) msg)) 0 k, s') ∧
      Squeezing F nb hs rl (Spec.Esch.absorb F (dom xof) msg) k s' := by
  obtain ⟨m', hm', e⟩ := squeezeFirst_ok hF xof k h
  obtain ⟨B0, hB0⟩ : ∃ B0, B0 = Spec.Esch.absorb F (dom xof) msg := ⟨_, rfl⟩
  rw [← hB0] at e ⊢
  unfold Model.Esch.squeeze
  rw [e, ok_bind]
  dsimp only
  have hl := loop_ok hF rl B0 0 k true m' k 0 (arr nb rl B0) s.pos 1 (by omega) hk (by omega) (by rw [if_neg (by decide)]; rfl)
  rw [slice_nil, Nat.zero_add] at hl
  exact ⟨_, hl, hk, hm', rfl, rfl, .inl rfl⟩

/-- A first squeeze of length zero. -/
theorem squeeze_empty {F : Family} {nb hs rl : Nat} (hF : Sized F nb hs) {msg : Bytes} {s : Blk St} (xof : Bool)
    (h : Absorbing nb hs rl msg s) :
    ∃ s', Model.Esch.squeeze xof 0 s = .ok ([], s') ∧
      (0 < msg.length % 16 → Squeezing F nb hs rl (Spec.Esch.absorb F (dom xof) msg) (msg.length % 16) s') ∧
      (msg.length % 16 = 0 → Fresh nb hs rl (Spec.Esch.absorb F (dom xof) msg) s') := by
  obtain ⟨m', hm', e⟩ := squeezeFirst_ok hF xof 0 h
  have hpos := h.pos
  unfold Model.Esch.squeeze
  rw [e, ok_bind]
  refine ⟨_, rfl, fun h0 => ⟨h0, hm', ?_, ?_, .inr ?_⟩, fun h0 => ⟨hm', rfl, ?_⟩⟩
  · rw [show (msg.length % 16 - 1) / 16 = 0 by omega]; rfl
  · show s.pos = _
    omega
  · show s.pos < 16
    omega
  · show s.pos = 0 ∨ s.pos = 16 ∧ (1 : BitVec 64) ≠ 0
    have h1 : (1 : BitVec 64) ≠ 0 := by decide
    by_cases h2 : s.pos = 0
    · exact .inl h2
    · exact .inr ⟨by omega, h1⟩

theorem Absorbing.mem {nb hs rl : Nat} {F : Family} (hF : Sized F nb hs) {msg : Bytes} {s : Blk St} (h : Absorbing nb hs rl msg s) :
    s.m.length = 128 ∧ s.h.H.length = 2 * nb + rl ∧ s.h.hs = hs := by
  refine ⟨h.mlen, ?_, ?_⟩
  · rw [h.fields hF]; exact length_arr hF rl _
  · rw [h.fields hF]

theorem Squeezing.mem {nb hs rl : Nat} {F : Family} (hF : Sized F nb hs) {B0 : Branches} {n : Nat} {s : Blk St}
    (h : Squeezing F nb hs rl B0 n s) : s.m.length = 128 ∧ s.h.H.length = 2 * nb + rl ∧ s.h.hs = hs := by
  refine ⟨h.mlen, ?_, ?_⟩
  · rw [h.h]; exact length_arr hF rl _
  · rw [h.h]

theorem clear_ok {F : Family} {nb hs rl : Nat} (hF : Sized F nb hs) (s : Blk St)
    (h : s.m.length = 128 ∧ s.h.H.length = 2 * nb + rl ∧ s.h.hs = hs) :
    ∃ s1 s2, Model.Esch.clear s = .ok s1 ∧ Model.Esch.init s1 = .ok s2 ∧ Absorbing nb hs rl [] s2 := by
  obtain ⟨hm, hl, hh⟩ := h
  obtain ⟨s2, e, r⟩ := init_ok hF rl { s with h := { s.h with H := s.h.H.map fun _ => 0 }, m := zeroBytes s.m }
    (by show (List.replicate _ _).length = _; rw [List.length_replicate]; exact hm)
    (by show (s.h.H.map _).length = _; rw [List.length_map]; exact hl) hh
  exact ⟨_, s2, rfl, e, r⟩

/-- **Esch** as a hash function. -/
theorem refines {F : Family} {nb hs : Nat} (hF : Sized F nb hs) (rl : Nat) :
    HashRefines Model.Esch.provider (Spec.Esch.esch F (hs / 8)) (Cover.all Empty) (fun _ => Absorbing nb hs rl) := by
  constructor
  · intro _ msg s h
    obtain ⟨h1, h2, h3⟩ := h.mem hF
    exact init_ok hF rl s h1 h2 h3
  · intro _ msg s data h hd
    exact update_ok data h hd
  · intro _ msg s h _
    obtain ⟨s', e, _⟩ := squeeze_first hF false (hs / 8) (by obtain ⟨_, _, rfl⟩ | ⟨_, _, rfl⟩ := hF <;> decide) h
    show Model.Esch.final s = _
    unfold Model.Esch.final
    rw [(h.mem hF).2.2, e]
    rfl
  · intro _ _ msg s h
    exact clear_ok hF s (h.mem hF)
  · intro _ msg s h
    show s.h.hs / 8 = hs / 8
    rw [(h.mem hF).2.2]
  · show 0 < hs / 8
    obtain ⟨_, _, rfl⟩ | ⟨_, _, rfl⟩ := hF <;> decide
  · intro _ msg _ _ _
    exact length_slice _ _ _
  · nofun

/-- What an extendable-output object has absorbed and given. -/
def Rx (F : Family) (nb hs rl : Nat) (msg : Bytes) (n : Nat) (s : Blk St) : Prop :=
  (n = 0 → Absorbing nb hs rl msg s) ∧ (0 < n → Squeezing F nb hs rl (Spec.Esch.absorb F 4 msg) n s)

theorem Rx.mem {F : Family} {nb hs rl : Nat} (hF : Sized F nb hs) {msg : Bytes} {n : Nat} {s : Blk St} (h : Rx F nb hs rl msg n s) :
    s.m.length = 128 ∧ s.h.H.length = 2 * nb + rl ∧ s.h.hs = hs := by
  by_cases hn : n = 0
  · exact (h.1 hn).mem hF
  · exact (h.2 (by omega)).mem hF

theorem Absorbing.rx {F : Family} {nb hs rl : Nat} {msg : Bytes} {s : Blk St} (h : Absorbing nb hs rl msg s) : Rx F nb hs rl msg 0 s :=
  ⟨fun _ => h, fun h => absurd h (by omega)⟩

/-- **Esch** as an extendable-output function. -/
theorem refines_xof {F : Family} {nb hs : Nat} (hF : Sized F nb hs) (rl : Nat) :
    XofRefines Model.Esch.xofProvider (Spec.Esch.eschXof F) (Cover.all Empty) (fun _ => Rx F nb hs rl) := by
  constructor
  · intro _ msg n s h
    obtain ⟨h1, h2, h3⟩ := h.mem hF
    obtain ⟨s', e, r⟩ := init_ok hF rl s h1 h2 h3
    exact ⟨s', e, r.rx⟩
  · intro _ msg s data h hd
    obtain ⟨s', e, r⟩ := update_ok data (h.1 rfl) hd
    exact ⟨s', e, r.rx⟩
  · intro _ msg n s k h _ hk _ _
    show ∃ s', Model.Esch.squeeze true k s = .ok (slice (Spec.Esch.squeeze F (Spec.Esch.absorb F 4 msg)) n k, s') ∧ _
    by_cases hn : n = 0
    · subst hn
      obtain ⟨s', e, q⟩ := squeeze_first hF true k hk (h.1 rfl)
      rw [Nat.zero_add]
      exact ⟨s', e, fun hc => absurd hc (by omega), fun _ => q⟩
    · obtain ⟨s', e, q⟩ := squeeze_next hF true k hk (h.2 (by omega))
      exact ⟨s', e, fun hc => absurd hc (by omega), fun _ => q⟩
  · intro _ _ msg n s h
    obtain ⟨s1, s2, e1, e2, r⟩ := clear_ok hF s (h.mem hF)
    exact ⟨s1, s2, e1, e2, r.rx⟩
  · nofun

end Digestpp.Proofs.Esch
