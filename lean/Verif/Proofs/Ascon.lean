import Verif.Proofs.AsconCore
import Verif.Proofs.Sponge
import Verif.Proofs.Blake
import Verif.Proofs.PadOne

/-! The Ascon provider absorbs and squeezes as a sponge. -/

namespace Digestpp.Proofs.Ascon
open Model Spec Spec.Ascon
open Model.Ascon (St)

/-- Absorbing a block, on the provider's fields. -/
def step (b : Bytes) (h : St) : St := ⟨Model.Ascon.absorbBlock b h.H, h.Z, h.squeezing⟩

theorem transform_eq (data : Bytes) (n : Nat) (s : Blk St) (hn : n * 8 ≤ data.length) :
    Model.Ascon.transform data n s = .ok { s with h := foldBlocks 8 (fun _ => step) data n s.h } := by
  unfold Model.Ascon.transform
  rw [forBlocks_ok (step := fun _ b H => pure (Model.Ascon.absorbBlock b H)) (g := fun _ b H => Model.Ascon.absorbBlock b H)
    (inv := fun _ => True) (fun _ _ _ _ _ => ⟨rfl, trivial⟩) data n s.h.H hn trivial, ok_bind]
  obtain ⟨⟨H, Z, q⟩, m, pos, total⟩ := s
  have := foldBlocks_conj (fun H : List (BitVec 64) => (⟨H, Z, q⟩ : St)) (step' := fun _ => step)
    (step := fun _ => Model.Ascon.absorbBlock) (fun _ _ _ => rfl) 8 data n H
  dsimp only
  rw [this]
  rfl

theorem isTransform : IsTransform 8 64 (fun _ : St => True) (fun _ => step) Model.Ascon.transform := by
  intro s data n i hn hm _ _
  exact ⟨s.m, hm, transform_eq data n s hn⟩

/-- `s` has customization `Z` and has absorbed `raw` (including what the customization puts before the message). -/
def Absorbing (s0 : State) (Z raw : Bytes) (s : Blk St) : Prop := Buffered 8 0 64 (fun _ => step) ⟨arr s0, Z, false⟩ raw s

theorem fold_eq (s0 : State) (Z : Bytes) (q : Bool) (raw : Bytes) (k : Nat) (hk : k * 8 ≤ raw.length) :
    foldBlocks 8 (fun _ => step) raw k ⟨arr s0, Z, q⟩ = ⟨arr (foldBlocks 8 (fun _ => Spec.Ascon.absorbBlock) raw k s0), Z, q⟩ :=
  foldBlocks_conj' (fun x => (⟨arr x, Z, q⟩ : St)) 8 raw k s0 hk
    fun _ _ b t hb => congrArg (fun H => (⟨H, Z, q⟩ : St)) (absorbBlock_eq b hb t)

theorem Absorbing.fields {s0 : State} {Z raw : Bytes} {s : Blk St} (h : Absorbing s0 Z raw s) :
    s.h = ⟨arr (foldBlocks 8 (fun _ => Spec.Ascon.absorbBlock) raw (raw.length / 8) s0), Z, false⟩ := by
  rw [h.h]
  exact fold_eq s0 Z false raw _ (by omega)

theorem update_ok {s0 : State} {Z raw : Bytes} {s : Blk St} (data : Bytes) (h : Absorbing s0 Z raw s) (hd : data.length < 2 ^ 63) :
    ∃ s', Model.Ascon.update data s = .ok s' ∧ Absorbing s0 Z (raw ++ data) s' :=
  absorbBytes_spec (by decide) (by decide) (by decide) (by decide) isTransform (fun _ _ _ _ _ => trivial) trivial raw data s h hd

/-- The initial state of each kind. -/
def s0 : Model.Ascon.Kind → State
  | .hash => start 0x0000080100cc0002
  | .xof => start 0x0000080000cc0003
  | .cxof => start 0x0000080000cc0004

theorem initFields_ok (k : Model.Ascon.Kind) (s : Blk St) (hm : s.m.length = 64) :
    Absorbing (s0 k) s.h.Z [] (Model.Ascon.initFields k s) := by
  refine Buffered.start _ _ ?_ rfl rfl ?_
  · show (List.replicate _ _).length = _
    rw [List.length_replicate]; exact hm
  · unfold Model.Ascon.initFields
    cases k
    · dsimp only; rw [ivHash]; rfl
    · dsimp only; rw [ivXof]; rfl
    · dsimp only; rw [ivCxof]; rfl

/-- What the customization puts before the message. -/
def pre (Z : Bytes) : Bytes := leBytes 8 (8 * Z.length) ++ pad Z

theorem length_pad (m : Bytes) : (pad m).length % 8 = 0 := by
  unfold pad toMultiple
  simp only [List.length_append, List.length_singleton, List.length_replicate]
  omega

theorem length_pre (Z : Bytes) : (pre Z).length % 8 = 0 := by
  have := length_pad Z
  unfold pre
  rw [List.length_append, length_leBytes]
  omega

theorem pad_append (x m : Bytes) (hx : x.length % 8 = 0) : pad (x ++ m) = x ++ pad m := by
  unfold pad toMultiple
  rw [List.length_append, show (x.length + m.length + 1) % 8 = (m.length + 1) % 8 by omega]
  simp only [List.append_assoc]

theorem initCustom_ok {s1 : State} {Z : Bytes} {s : Blk St} (hZ : Z.length < 2 ^ 61) (h : Absorbing s1 Z [] s) :
    ∃ s', Model.Ascon.initCustom s = .ok s' ∧ Absorbing s1 Z (pre Z) s' := by
  have hz : s.h.Z = Z := by rw [h.fields]
  unfold Model.Ascon.initCustom
  dsimp only
  rw [hz]
  obtain ⟨a, ea, ra⟩ := update_ok (bytes64 (BitVec.ofNat 64 (Z.length * 8))) h (by rw [bytes64_eq, length_leBytes]; decide)
  rw [ea, ok_bind]
  obtain ⟨b, eb, rb⟩ : ∃ b, (if (!Z.isEmpty) = true then Model.Ascon.update Z a else pure a) = .ok b ∧
      Absorbing s1 Z ([] ++ bytes64 (BitVec.ofNat 64 (Z.length * 8)) ++ Z) b := by
    by_cases he : Z = []
    · subst he
      exact ⟨a, rfl, by rw [List.append_nil]; exact ra⟩
    · rw [if_pos (by simpa using he)]
      exact update_ok Z ra (by omega)
  rw [eb, ok_bind]
  have hrd : readBytes (bytes64 1) 0 (8 - Z.length % 8) = .ok ([0x01] ++ List.replicate (toMultiple 8 (Z.length + 1)) 0) := by
    have : toMultiple 8 (Z.length + 1) = 7 - Z.length % 8 := by unfold toMultiple; omega
    rw [this]
    have : ∀ j, j < 8 → readBytes (bytes64 1) 0 (8 - j) = .ok ([0x01] ++ List.replicate (7 - j) 0) := by
      intro j hj
      match j, hj with
      | 0, _ | 1, _ | 2, _ | 3, _ | 4, _ | 5, _ | 6, _ | 7, _ => rfl
    exact this _ (by omega)
  rw [hrd, ok_bind]
  obtain ⟨c, ec, rc⟩ := update_ok ([0x01] ++ List.replicate (toMultiple 8 (Z.length + 1)) 0) rb
    (by unfold toMultiple; simp; omega)
  refine ⟨c, ec, ?_⟩
  have : pre Z = [] ++ bytes64 (BitVec.ofNat 64 (Z.length * 8)) ++ Z ++ ([0x01] ++ List.replicate (toMultiple 8 (Z.length + 1)) 0) := by
    unfold pre pad
    rw [bytes64_eq, BitVec.toNat_ofNat, Nat.mod_eq_of_lt (by omega), Nat.mul_comm, List.nil_append]
    simp only [List.append_assoc]
  rw [this]
  exact rc

/-- What precedes the message. -/
def prefixOf (k : Model.Ascon.Kind) (Z : Bytes) : Bytes :=
  match k with
  | .cxof => pre Z
  | _ => []

theorem init_ok (k : Model.Ascon.Kind) (Z : Bytes) (s : Blk St) (hm : s.m.length = 64) (hZ : s.h.Z = Z) (hz : Z.length < 2 ^ 61) :
    ∃ s', Model.Ascon.init k s = .ok s' ∧ Absorbing (s0 k) Z (prefixOf k Z) s' := by
  have h := initFields_ok k s hm
  rw [hZ] at h
  cases k
  · exact ⟨_, rfl, h⟩
  · exact ⟨_, rfl, h⟩
  · exact initCustom_ok hz h

/-- `s` has given `n > 0` bytes of the output that begins with the state `B0`. -/
structure Squeezing (Z : Bytes) (B0 : State) (n : Nat) (s : Blk St) : Prop where
  n_pos : 0 < n
  mlen : s.m.length = 64
  mz : List.replicate 8 0 <+: s.m
  h : s.h = ⟨arr (iter p12 ((n - 1) / 8) B0), Z, true⟩
  pos : s.pos = (n - 1) % 8 + 1

theorem length_arr (s : State) : (stores64 (arr s)).length = 40 := by
  rw [stores64_eq, length_ofLeWords]
  rfl

theorem read_state (B0 : State) (q k : Nat) (hk : q % 8 + k ≤ 8) :
    readBytes (stores64 (arr (iter p12 (q / 8) B0))) (q % 8) k = .ok (slice (Spec.Ascon.squeeze B0) q k) := by
  rw [read_stream (fun j => stores64 (arr (iter p12 j B0))) 8 (by decide) (fun j => by rw [length_arr]; decide) q k hk]
  congr 1
  apply slice_congr
  intro i
  unfold Spec.Ascon.squeeze
  rw [stores64_eq]
  unfold ofLeWords arr
  rw [List.flatMap_cons, List.getD_eq_getElem?_getD, List.getD_eq_getElem?_getD,
    List.getElem?_append_left (by rw [length_leBytes]; omega)]

/-- A block of zeros: the permutation. -/
theorem perm_ok (m : Bytes) (hz : List.replicate 8 0 <+: m) (B : State) (Z : Bytes) (q : Bool) (pos : Nat) (t : BitVec 64) :
    Model.Ascon.transform m 1 ⟨⟨arr B, Z, q⟩, m, pos, t⟩ = .ok ⟨⟨arr (p12 B), Z, q⟩, m, pos, t⟩ := by
  have hl := hz.length_le
  rw [List.length_replicate] at hl
  rw [transform_eq _ _ _ (by omega)]
  dsimp only
  rw [fold_eq _ _ _ _ _ (by omega)]
  have : foldBlocks 8 (fun _ => Spec.Ascon.absorbBlock) m 1 B = Spec.Ascon.absorbBlock (List.replicate 8 0) B := by
    simp only [foldBlocks, List.range_one, List.foldl_cons, List.foldl_nil]
    congr 1
    obtain ⟨r, rfl⟩ := hz
    rfl
  rw [this]
  have e : Spec.Ascon.absorbBlock (List.replicate 8 0) B = p12 B := by
    unfold Spec.Ascon.absorbBlock
    rw [show (leWords 64 (List.replicate 8 0)).getD 0 0 = 0#64 by decide, BitVec.xor_zero]
  rw [e]

theorem loop_done (hs : Nat) (f : Nat → Byte) (n0 : Nat) (fuel : Nat) (s : Blk St) :
    Model.Ascon.squeezeLoop hs fuel (slice f n0 hs) s = .ok (slice f n0 hs, s) := by
  cases fuel with
  | zero => rfl
  | succ fuel =>
    unfold Model.Ascon.squeezeLoop
    rw [length_slice, if_neg (by omega)]
    rfl

theorem loop_ok (B0 : State) (n0 hs : Nat) (Z : Bytes) (q : Bool) (m : Bytes) (hz : List.replicate 8 0 <+: m) (t : BitVec 64) (fuel : Nat) :
    ∀ (p : Nat) (B : State) (pos : Nat), hs - p ≤ fuel → p < hs → (n0 + p) % 8 = 0 →
    (if p ≠ 0 then p12 B else B) = iter p12 ((n0 + p) / 8) B0 →
    Model.Ascon.squeezeLoop hs fuel (slice (Spec.Ascon.squeeze B0) n0 p) ⟨⟨arr B, Z, q⟩, m, pos, t⟩
      = .ok (slice (Spec.Ascon.squeeze B0) n0 hs,
          ⟨⟨arr (iter p12 ((n0 + hs - 1) / 8) B0), Z, q⟩, m, (n0 + hs - 1) % 8 + 1, t⟩) := by
  induction fuel with
  | zero => intro p B pos h1 h2; omega
  | succ fuel ih =>
    intro p B pos hf hp hq hB
    unfold Model.Ascon.squeezeLoop
    rw [length_slice, if_pos hp]
    have e : (if p ≠ 0 then Model.Ascon.transform m 1 ⟨⟨arr B, Z, q⟩, m, pos, t⟩ else pure ⟨⟨arr B, Z, q⟩, m, pos, t⟩ : M (Blk St))
        = .ok ⟨⟨arr (iter p12 ((n0 + p) / 8) B0), Z, q⟩, m, pos, t⟩ := by
      rw [← hB]
      by_cases h : p ≠ 0
      · rw [if_pos h, if_pos h]; exact perm_ok m hz B Z q pos t
      · rw [if_neg h, if_neg h]; rfl
    dsimp only
    rw [e, ok_bind]
    have hrd := read_state B0 (n0 + p) (min (hs - p) 8) (by omega)
    rw [hq] at hrd
    dsimp only
    rw [hrd, ok_bind, slice_append]
    by_cases hle : hs - p ≤ 8
    · rw [Nat.min_eq_left hle, show p + (hs - p) = hs by omega, loop_done]
      rw [show (n0 + hs - 1) / 8 = (n0 + p) / 8 by omega, show (n0 + hs - 1) % 8 + 1 = hs - p by omega]
    · rw [Nat.min_eq_right (by omega)]
      refine ih (p + 8) _ 8 (by omega) (by omega) (by omega) ?_
      rw [if_pos (by omega), show (n0 + (p + 8)) / 8 = (n0 + p) / 8 + 1 by omega]
      rfl

theorem squeeze_next {Z : Bytes} {B0 : State} {n : Nat} {s : Blk St} (k : Nat) (hk : 0 < k) (h : Squeezing Z B0 n s) :
    ∃ s', Model.Ascon.squeeze k s = .ok (slice (Spec.Ascon.squeeze B0) n k, s') ∧ Squeezing Z B0 (n + k) s' := by
  obtain ⟨hn, hml, hmz, hh, hpos⟩ := h
  obtain ⟨sh, m, pos, total⟩ := s
  dsimp only at hml hh hpos hmz
  subst hh hpos
  unfold Model.Ascon.squeeze Model.Ascon.squeezeFirst
  dsimp only
  rw [if_neg (by simp)]
  have fin : ∀ s' : Blk St, s' = ⟨⟨arr (iter p12 ((n + k - 1) / 8) B0), Z, true⟩, m, (n + k - 1) % 8 + 1, total⟩ →
      Squeezing Z B0 (n + k) s' := by
    intro s' e
    subst e
    exact ⟨by omega, hml, hmz, rfl, rfl⟩
  by_cases hc : (n - 1) % 8 + 1 < 8
  · rw [if_pos hc]
    have hrd := read_state B0 n (min k (8 - ((n - 1) % 8 + 1))) (by omega)
    rw [show n / 8 = (n - 1) / 8 by omega, show n % 8 = (n - 1) % 8 + 1 by omega] at hrd
    rw [hrd, ok_bind]
    show ∃ s', Model.Ascon.squeezeLoop k k _ _ = _ ∧ _
    by_cases hle : k ≤ 8 - ((n - 1) % 8 + 1)
    · rw [Nat.min_eq_left hle, loop_done]
      refine ⟨_, rfl, fin _ ?_⟩
      rw [show (n + k - 1) / 8 = (n - 1) / 8 by omega, show (n + k - 1) % 8 + 1 = (n - 1) % 8 + 1 + k by omega]
    · rw [Nat.min_eq_right (by omega)]
      refine ⟨_, loop_ok B0 n k Z true m hmz total k (8 - ((n - 1) % 8 + 1)) _ _ (by omega) (by omega) (by omega) ?_, fin _ rfl⟩
      rw [if_pos (by omega), show (n + (8 - ((n - 1) % 8 + 1))) / 8 = (n - 1) / 8 + 1 by omega]
      rfl
  · rw [if_neg hc, if_pos (show (n - 1) % 8 + 1 = 8 by omega), perm_ok m hmz, ok_bind]
    refine ⟨_, loop_ok B0 n k Z true m hmz total k 0 _ _ (by omega) (by omega) (by omega) ?_, fin _ rfl⟩
    rw [if_neg (by omega), show (n + 0) / 8 = (n - 1) / 8 + 1 by omega]
    rfl

/-- The part of the first squeeze before the loop. -/
theorem squeezeFirst_ok {s1 : State} {Z raw : Bytes} {s : Blk St} (k : Nat) (h : Absorbing s1 Z raw s) :
    ∃ m, m.length = 64 ∧ List.replicate 8 0 <+: m ∧ Model.Ascon.squeezeFirst k s
      = .ok ([], ⟨⟨arr (Spec.Ascon.absorb s1 (pad raw)), Z, true⟩, m, raw.length % 8 + 1, s.total⟩) := by
  have hpos : s.pos = raw.length % 8 := by
    have := h.pos
    rw [Nat.sub_zero] at this
    rw [this]
    omega
  have hh := h.fields
  obtain ⟨m1, m2, x, e1, e2, hm2, hxm, hxl, hpl, e⟩ := padOne_specM 1 (by decide) (by decide) (by decide) raw s h
  have hfull : step x s.h = ⟨arr (Spec.Ascon.absorb s1 (pad raw)), Z, false⟩ := by
    rw [e]
    exact (fold_eq s1 Z false (pad raw) _ (Nat.div_mul_le_self _ _)).trans rfl
  obtain ⟨B0, hB0⟩ : ∃ B0, B0 = Spec.Ascon.absorb s1 (pad raw) := ⟨_, rfl⟩
  rw [← hB0] at hfull ⊢
  rw [← hpos]
  obtain ⟨sh, m, pos, total⟩ := s
  dsimp only at hh e1 e2 hfull
  unfold zeroRest at e2
  obtain ⟨m3, e3, hm3, hz3⟩ : ∃ m3, memset m2 0 0 8 = .ok m3 ∧ m3.length = 64 ∧ List.replicate 8 0 <+: m3 := by
    obtain ⟨m3, e3, p3, l3⟩ := memset_pfx m2 [] 0 0 8 (List.nil_prefix) rfl (by simp; omega)
    exact ⟨m3, e3, by omega, p3⟩
  have hsq : Model.Ascon.squeezeFirst k ⟨sh, m, pos, total⟩ = .ok ([], ⟨⟨arr B0, Z, true⟩, m3, pos + 1, total⟩) := by
    unfold Model.Ascon.squeezeFirst
    dsimp only
    rw [if_pos (by rw [hh]; rfl), e1, ok_bind]
    have e2' : (if 8 ≠ pos + 1 then memset m1 (pos + 1) 0 (szSub 8 (pos + 1)) else pure m1) = .ok m2 := by
      rw [← e2]
      by_cases h8 : pos + 1 = 8
      · rw [if_neg (by omega), if_neg (by omega)]
      · rw [if_pos (by omega), if_pos (by omega)]
    rw [e2', ok_bind, transform_eq _ _ _ (by omega), ok_bind]
    have hf : foldBlocks 8 (fun _ => step) m2 1 sh = step x sh := by
      simp only [foldBlocks, List.range_one, List.foldl_cons, List.foldl_nil]
      congr 1
      obtain ⟨r, rfl⟩ := hxm
      simp [blockAt, ← hxl]
    dsimp only
    rw [hf, hfull, e3]
    rfl
  exact ⟨m3, hm3, hz3, hsq⟩

theorem squeeze_first {s1 : State} {Z raw : Bytes} {s : Blk St} (k : Nat) (hk : 0 < k) (h : Absorbing s1 Z raw s) :
    ∃ s', Model.Ascon.squeeze k s = .ok (slice (Spec.Ascon.squeeze (Spec.Ascon.absorb s1 (pad raw))) 0 k, s') ∧
      Squeezing Z (Spec.Ascon.absorb s1 (pad raw)) k s' := by
  obtain ⟨m3, hm3, hz3, hsq⟩ := squeezeFirst_ok k h
  obtain ⟨B0, hB0⟩ : ∃ B0, B0 = Spec.Ascon.absorb s1 (pad raw) := ⟨_, rfl⟩
  rw [← hB0] at hsq ⊢
  unfold Model.Ascon.squeeze
  rw [hsq, ok_bind]
  dsimp only
  have hl := loop_ok B0 0 k Z true m3 hz3 s.total k 0 B0 (raw.length % 8 + 1) (by omega) hk (by omega) (by rw [if_neg (by omega)]; rfl)
  rw [slice_nil, Nat.zero_add] at hl
  exact ⟨_, hl, hk, hm3, hz3, rfl, rfl⟩

/-- A first squeeze of length zero. -/
theorem squeeze_empty {s1 : State} {Z raw : Bytes} {s : Blk St} (h : Absorbing s1 Z raw s) :
    ∃ s', Model.Ascon.squeeze 0 s = .ok ([], s') ∧ Squeezing Z (Spec.Ascon.absorb s1 (pad raw)) (raw.length % 8 + 1) s' := by
  obtain ⟨m3, hm3, hz3, hsq⟩ := squeezeFirst_ok 0 h
  unfold Model.Ascon.squeeze
  rw [hsq, ok_bind]
  refine ⟨_, rfl, by omega, hm3, hz3, ?_, ?_⟩
  · rw [show (raw.length % 8 + 1 - 1) / 8 = 0 by omega]; rfl
  · show raw.length % 8 + 1 = _
    omega

/-- The position after a further squeeze of length zero: at the end of a block, the next block is passed over. -/
def skip (n : Nat) : Nat := if n % 8 = 0 then n + 8 else n

/-- A further squeeze of length zero. -/
theorem squeeze_empty_next {Z : Bytes} {B0 : State} {n : Nat} {s : Blk St} (h : Squeezing Z B0 n s) :
    ∃ s', Model.Ascon.squeeze 0 s = .ok ([], s') ∧ Squeezing Z B0 (skip n) s' := by
  obtain ⟨hn, hml, hmz, hh, hpos⟩ := h
  obtain ⟨sh, m, pos, total⟩ := s
  dsimp only at hml hh hpos hmz
  subst hh hpos
  unfold Model.Ascon.squeeze Model.Ascon.squeezeFirst
  dsimp only
  rw [if_neg (by simp)]
  unfold skip
  by_cases hc : (n - 1) % 8 + 1 < 8
  · have hrd := read_state B0 n 0 (by omega)
    rw [show n / 8 = (n - 1) / 8 by omega, show n % 8 = (n - 1) % 8 + 1 by omega] at hrd
    rw [if_pos hc, Nat.zero_min, hrd, ok_bind, if_neg (by omega)]
    exact ⟨_, rfl, hn, hml, hmz, rfl, rfl⟩
  · rw [if_neg hc, if_pos (show (n - 1) % 8 + 1 = 8 by omega), perm_ok m hmz, ok_bind, if_pos (by omega)]
    refine ⟨_, rfl, by omega, hml, hmz, ?_, ?_⟩
    · rw [show (n + 8 - 1) / 8 = (n - 1) / 8 + 1 by omega]; rfl
    · show (n - 1) % 8 + 1 = _
      omega

theorem Absorbing.mem {s1 : State} {Z raw : Bytes} {s : Blk St} (h : Absorbing s1 Z raw s) : s.m.length = 64 ∧ s.h.Z = Z :=
  ⟨h.mlen, by rw [h.fields]⟩

theorem Squeezing.mem {Z : Bytes} {B0 : State} {n : Nat} {s : Blk St} (h : Squeezing Z B0 n s) : s.m.length = 64 ∧ s.h.Z = Z :=
  ⟨h.mlen, by rw [h.h]⟩

theorem clear_ok (k : Model.Ascon.Kind) (Z : Bytes) (hz : Z.length < 2 ^ 61) (s : Blk St) (h : s.m.length = 64 ∧ s.h.Z = Z) :
    ∃ s1 s2, Model.Ascon.clear s = .ok s1 ∧ Model.Ascon.init k s1 = .ok s2 ∧ Absorbing (s0 k) Z (prefixOf k Z) s2 := by
  obtain ⟨s2, e, r⟩ := init_ok k Z { s with h := { s.h with H := s.h.H.map fun _ => 0 }, m := zeroBytes s.m }
    (by show (List.replicate _ _).length = _; rw [List.length_replicate]; exact h.1) h.2 hz
  exact ⟨_, s2, rfl, e, r⟩

/-- **Ascon-Hash256.** -/
theorem refines_hash : HashRefines Model.Ascon.asconHash.pr hash256 (Cover.all Empty) (fun _ => Absorbing (s0 .hash) []) := by
  constructor
  · intro _ msg s h
    exact init_ok .hash [] s h.mem.1 h.mem.2 (by decide)
  · intro _ msg s data h hd
    exact update_ok data h hd
  · intro _ msg s h _
    obtain ⟨s', e, _⟩ := squeeze_first 32 (by decide) h
    show Model.Ascon.final s = _
    unfold Model.Ascon.final
    rw [show 256 / 8 = 32 from rfl, e]
    rfl
  · intro _ _ msg s h
    exact clear_ok .hash [] (by decide) s h.mem
  · intro _ msg s h
    exact show 256 / 8 = 32 from rfl
  · exact show 0 < 32 by decide
  · intro _ msg _ _ _
    exact length_slice _ _ _
  · nofun

/-- What an extendable-output object has absorbed and given. -/
def Rx (k : Model.Ascon.Kind) (Z msg : Bytes) (n : Nat) (s : Blk St) : Prop :=
  Z.length < 2 ^ 61 ∧ (n = 0 → Absorbing (s0 k) Z (prefixOf k Z ++ msg) s) ∧
    (0 < n → Squeezing Z (Spec.Ascon.absorb (s0 k) (pad (prefixOf k Z ++ msg))) n s)

theorem Rx.mem {k : Model.Ascon.Kind} {Z msg : Bytes} {n : Nat} {s : Blk St} (h : Rx k Z msg n s) : s.m.length = 64 ∧ s.h.Z = Z := by
  by_cases hn : n = 0
  · exact (h.2.1 hn).mem
  · exact (h.2.2 (by omega)).mem

theorem Absorbing.rx {k : Model.Ascon.Kind} {Z msg : Bytes} {s : Blk St} (hz : Z.length < 2 ^ 61)
    (h : Absorbing (s0 k) Z (prefixOf k Z ++ msg) s) : Rx k Z msg 0 s :=
  ⟨hz, fun _ => h, fun h => absurd h (by omega)⟩

theorem rx_init (k : Model.Ascon.Kind) (Z : Bytes) (s : Blk St) (hm : s.m.length = 64) (hZ : s.h.Z = Z) (hz : Z.length < 2 ^ 61) :
    ∃ s', Model.Ascon.init k s = .ok s' ∧ Rx k Z [] 0 s' := by
  obtain ⟨s', e, r⟩ := init_ok k Z s hm hZ hz
  exact ⟨s', e, Absorbing.rx hz (by rw [List.append_nil]; exact r)⟩

theorem rx_update {k : Model.Ascon.Kind} {Z msg : Bytes} {s : Blk St} (data : Bytes) (h : Rx k Z msg 0 s) (hd : data.length < 2 ^ 63) :
    ∃ s', Model.Ascon.update data s = .ok s' ∧ Rx k Z (msg ++ data) 0 s' := by
  obtain ⟨s', e, r⟩ := update_ok data (h.2.1 rfl) hd
  rw [List.append_assoc] at r
  exact ⟨s', e, Absorbing.rx h.1 r⟩

theorem rx_squeeze {k : Model.Ascon.Kind} {Z msg : Bytes} {n : Nat} {s : Blk St} (len : Nat) (hl : 0 < len) (h : Rx k Z msg n s) :
    ∃ s', Model.Ascon.squeeze len s
      = .ok (slice (Spec.Ascon.squeeze (Spec.Ascon.absorb (s0 k) (pad (prefixOf k Z ++ msg)))) n len, s') ∧ Rx k Z msg (n + len) s' := by
  by_cases hn : n = 0
  · subst hn
    obtain ⟨s', e, q⟩ := squeeze_first len hl (h.2.1 rfl)
    rw [Nat.zero_add]
    exact ⟨s', e, h.1, fun hc => absurd hc (by omega), fun _ => q⟩
  · obtain ⟨s', e, q⟩ := squeeze_next len hl (h.2.2 (by omega))
    exact ⟨s', e, h.1, fun hc => absurd hc (by omega), fun _ => q⟩

theorem stream_xof (msg : Bytes) :
    xof128.stream () msg = Spec.Ascon.squeeze (Spec.Ascon.absorb (s0 .xof) (pad (prefixOf .xof [] ++ msg))) := by
  unfold xof128 s0 prefixOf
  dsimp only
  rw [List.nil_append]

theorem stream_cxof (Z msg : Bytes) :
    cxof128.stream Z msg = Spec.Ascon.squeeze (Spec.Ascon.absorb (s0 .cxof) (pad (prefixOf .cxof Z ++ msg))) := by
  unfold cxof128 s0 prefixOf
  dsimp only
  rw [pad_append _ _ (length_pre Z)]
  rfl

/-- **Ascon-XOF128.** -/
theorem refines_xof : XofRefines Model.Ascon.asconXof.pr xof128 (Cover.all Empty) (fun _ => Rx .xof []) := by
  constructor
  · intro _ msg n s h
    exact rx_init .xof [] s h.mem.1 h.mem.2 (by decide)
  · intro _ msg s data h hd
    exact rx_update data h hd
  · intro _ msg n s k h _ hk _ _
    rw [show ∀ u, xof128.stream u msg = _ from fun _ => stream_xof msg]
    exact rx_squeeze k hk h
  · intro _ _ msg n s h
    obtain ⟨s1, s2, e1, e2, r⟩ := clear_ok .xof [] (by decide) s h.mem
    exact ⟨s1, s2, e1, e2, Absorbing.rx (by decide) r⟩
  · nofun

/-- Customizations of fewer than `2^61` bytes, `reset(true)` not called. -/
def cover : Cover CustomizationParam Bytes :=
  ⟨fun _ _ => True, False, fun | .customization v => v.length < 2 ^ 61, fun _ => True⟩

/-- **Ascon-CXOF128**, except for `reset(true)`. -/
theorem refines_cxof : XofRefines Model.Ascon.asconCxof.pr cxof128 cover (Rx .cxof) := by
  constructor
  · intro Z msg n s h
    exact rx_init .cxof Z s h.mem.1 h.mem.2 h.1
  · intro Z msg s data h hd
    exact rx_update data h hd
  · intro Z msg n s k h _ hk _ _
    rw [stream_cxof]
    exact rx_squeeze k hk h
  · intro hc
    exact hc.elim
  · intro Z msg n s p h hp
    cases p with
    | customization v =>
      obtain ⟨s', e, r⟩ := rx_init .cxof v (Model.Ascon.setCustomization v s) h.mem.1 rfl hp
      exact ⟨_, s', rfl, e, r⟩

end Digestpp.Proofs.Ascon
