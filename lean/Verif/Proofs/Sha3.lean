import Verif.Proofs.KeccakPad
import Verif.Proofs.Api

/-! The SHA-3 provider computes SHA-3. -/

namespace Digestpp.Proofs
open Model Spec

namespace Sha3

/-- Absorbing a block, on the provider's fields. -/
def step (b : Bytes) (h : Model.Sha3.St) : Model.Sha3.St := ⟨Keccak.step 24 b h.A, h.hs, h.rate⟩

/-- The fields after `init`. -/
def h0 (d r : Nat) : Model.Sha3.St := ⟨List.replicate 25 0, d, 8 * r⟩

theorem fold_eq (d r : Nat) (msg : Bytes) (k : Nat) (A : List (BitVec 64)) :
    foldBlocks r (fun _ => step) msg k ⟨A, d, 8 * r⟩ = ⟨foldBlocks r (fun _ => Keccak.step 24) msg k A, d, 8 * r⟩ :=
  foldBlocks_conj (fun A : List (BitVec 64) => (⟨A, d, 8 * r⟩ : Model.Sha3.St)) (step' := fun _ => step)
    (step := fun _ => Keccak.step 24) (fun _ _ _ => rfl) r msg k A

/-- Fields that stay. -/
def inv (d r : Nat) (h : Model.Sha3.St) : Prop := h.A.length = 25 ∧ h.hs = d ∧ h.rate = 8 * r

theorem isTransform (d r : Nat) (h8 : r % 8 = 0) (hr : r ≤ 200) :
    IsTransform r 144 (inv d r) (fun _ => step) Model.Sha3.onBlocks := by
  intro s data n i hn hm hi _
  obtain ⟨⟨A, hs, rate⟩, m, pos, total⟩ := s
  obtain ⟨hA, h1, h2⟩ := hi
  dsimp only at hA h1 h2 hm
  subst h1 h2
  refine ⟨m, hm, ?_⟩
  unfold Model.Sha3.onBlocks
  dsimp only
  rw [Keccak.transform_eq 24 r (by omega) h8 hr data n A hn hA, ok_bind, fold_eq]
  rfl

/-- `s` has absorbed `msg`. -/
def R (d r : Nat) (msg : Bytes) (s : Blk Model.Sha3.St) : Prop := Buffered r 0 144 (fun _ => step) (h0 d r) msg s

theorem R.fields {d r : Nat} {msg : Bytes} {s : Blk Model.Sha3.St} (h : R d r msg s) : s.h.hs = d ∧ s.h.rate = 8 * r := by
  have := h.h
  rw [h0, fold_eq] at this
  rw [this]; exact ⟨rfl, rfl⟩

theorem init_ok (d r : Nat) (s : Blk Model.Sha3.St) (hm : s.m.length = 144) (h1 : s.h.hs = d) (h2 : s.h.rate = 8 * r) :
    ∃ s', Model.Sha3.init s = .ok s' ∧ R d r [] s' := by
  obtain ⟨⟨A, hs, rate⟩, m, pos, total⟩ := s
  dsimp only at h1 h2
  subst h1 h2
  exact ⟨_, rfl, by unfold R; exact Buffered.start _ _ hm rfl rfl rfl⟩

theorem length_foldBlocks (R r : Nat) (msg : Bytes) (k : Nat) :
    (foldBlocks r (fun _ => Keccak.step R) msg k (List.replicate 25 0)).length = 25 := by
  unfold foldBlocks
  induction k with
  | zero => simp
  | succ k _ =>
    rw [List.range_succ, List.foldl_append]
    exact Keccak.length_step _ _ _

theorem final_ok (d r : Nat) (h8 : r % 8 = 0) (hr0 : 0 < r) (hr : r ≤ 144) (hd : d / 8 ≤ r) (msg : Bytes)
    (s : Blk Model.Sha3.St) (h : R d r msg s) :
    Model.Sha3.final s = .ok (slice (Spec.Keccak.keccak r [false, true] msg) 0 (d / 8)) := by
  obtain ⟨hf1, hf2⟩ := h.fields
  have hh := h.h
  rw [h0, fold_eq] at hh
  rw [Nat.sub_zero] at hh
  have hpfx := Buffered.pfx h
  have hpos := h.pos
  rw [Nat.sub_zero] at hpfx hpos
  have hlt := Nat.mod_lt msg.length hr0
  have hdiv := mod_eq_sub_div msg.length r
  have hpl : (msg.drop (msg.length / r * r)).length = s.pos := by rw [hpos, List.length_drop]
  obtain ⟨m', e, -⟩ := Keccak.padLast_eq 24 r (by omega) h8 (by omega) 0x06 (by decide) s.m _ s.h.A hpfx
    (by rw [hpl, hpos, hdiv]; exact hlt) (by rw [h.mlen]; exact hr) (by rw [hh]; exact length_foldBlocks _ _ _ _)
  unfold Model.Sha3.final
  rw [hf2, hf1, ← hpl, e, ok_bind]
  dsimp only
  have hA : Keccak.step 24 (Keccak.lastBlock r 0x06 (msg.drop (msg.length / r * r))) s.h.A
      = Spec.Keccak.absorb 24 r (Spec.Keccak.padded r [false, true] msg) := by
    rw [Keccak.padded_sha3 r msg hr0, Keccak.absorb_padD 24 r 0x06 msg hr0, hh]
  rw [hA]
  have hl : (Spec.Keccak.absorb 24 r (Spec.Keccak.padded r [false, true] msg)).length = 25 := by
    rw [← hA]; exact Keccak.length_step _ _ _
  rw [stores64_eq, readBytes_ok _ _ _ (by rw [length_ofLeWords, hl]; omega), List.drop_zero]
  rw [← Keccak.map_getD_take _ 0 _ (by rw [length_ofLeWords, hl]; omega)]
  congr 1
  unfold slice Spec.Keccak.keccak Spec.Keccak.squeeze
  apply List.map_congr_left
  intro i hi
  rw [List.mem_range] at hi
  rw [Nat.zero_add, Nat.div_eq_of_lt (by omega), Nat.mod_eq_of_lt (by omega)]
  rfl

theorem refines (d : Nat) (hd : d = 224 ∨ d = 256 ∨ d = 384 ∨ d = 512) :
    HashRefines Model.Sha3.provider (Spec.sha3 d) (Cover.all Empty) (fun _ msg s => R d (200 - 2 * d / 8) msg s) := by
  obtain ⟨r, hr⟩ : ∃ r, r = 200 - 2 * d / 8 := ⟨_, rfl⟩
  rw [← hr]
  have h8 : r % 8 = 0 := by omega
  have h144 : r ≤ 144 := by omega
  have hr0 : 72 ≤ r := by omega
  have hdr : d / 8 ≤ r := by omega
  constructor
  · intro _ msg s h
    exact init_ok d r s h.mlen h.fields.1 h.fields.2
  · intro _ msg s data h hl
    show ∃ s', Model.Sha3.update data s = _ ∧ _
    unfold Model.Sha3.update
    rw [h.fields.2, show 8 * r / 8 = r by omega]
    exact absorbBytes_spec (by omega) (by omega) h144 (by omega) (isTransform d r h8 (by omega))
      (fun _ b h _ hi => ⟨Keccak.length_step _ _ _, hi.2.1, hi.2.2⟩) ⟨by simp [h0], rfl, rfl⟩ msg data s h hl
  · intro _ msg s h _
    show _ = Except.ok (slice (Spec.Keccak.keccak (200 - 2 * d / 8) [false, true] msg) 0 (d / 8))
    rw [← hr]
    exact final_ok d r h8 (by omega) h144 hdr msg s h
  · intro _ _ msg s h
    have hf := h.fields
    obtain ⟨⟨A, hs, rate⟩, m, pos, total⟩ := s
    obtain ⟨s', e, r'⟩ := init_ok d r ⟨⟨List.replicate 25 0, hs, rate⟩, zeroBytes m, pos, total⟩
      (by simpa [zeroBytes] using h.mlen) hf.1 hf.2
    exact ⟨_, s', rfl, e, r'⟩
  · intro _ msg s h
    show s.h.hs / 8 = d / 8
    rw [h.fields.1]
  · show 0 < d / 8
    omega
  · intro _ msg _ _ _
    exact length_slice _ _ _
  · nofun

end Sha3
end Digestpp.Proofs
