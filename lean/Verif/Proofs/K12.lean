import Verif.Model.K12
import Verif.Spec.K12
import Verif.Proofs.CShake

/-! The KangarooTwelve provider computes KT128, KT256 and MarsupilamiFourteen. -/

namespace Digestpp.Proofs
open Model Spec

namespace K12
open Model.K12 (St)
open Shake (Absorbing Squeezing)

theorem lengthEncode_eq (x : Nat) (h : x < 2 ^ 64) : Model.Shake.rightEncode x true = Spec.K12.lengthEncode x := by
  unfold Model.Shake.rightEncode Spec.K12.lengthEncode
  have : Model.Shake.countLoop 8 x (if x ≠ 0 then 1 else 0) = if x = 0 then 0 else Spec.Keccak.byteCount x := by
    rw [Encode.countLoop_eq 8 x _ (by omega)]; unfold Spec.Keccak.byteCount
    by_cases hx : x = 0
    · subst hx; decide
    · rw [if_pos hx, if_neg hx]; omega
  dsimp only
  rw [if_pos rfl, this, Encode.beBytes_eq]

theorem length_lengthEncode (x : Nat) (h : x < 2 ^ 64) :
    0 < (Spec.K12.lengthEncode x).length ∧ (Spec.K12.lengthEncode x).length ≤ 9 := by
  have := Encode.byteCount_le x h
  unfold Spec.K12.lengthEncode
  simp only [List.length_append, Encode.length_beBytes, List.length_singleton]
  split <;> omega

variable {B R r : Nat}

/-- The assumptions about the parameters. -/
structure Par (B R r : Nat) : Prop where
  rate : Model.Shake.rateOf B = 8 * r
  R24 : R ≤ 24
  r8 : r % 8 = 0
  r0 : 0 < r
  r168 : r ≤ 168
  c0 : 0 < B / 4
  c1 : B / 4 < 2 ^ 62

theorem init_child (hp : Par B R r) (c : Blk Model.Shake.St) (hm : c.m.length = 168) (hN : c.h.N = []) (hS : c.h.S = []) :
    ∃ c', Model.Shake.init R (8 * r) c = .ok c' ∧ Absorbing R r [] [] 0 [] c' := by
  obtain ⟨s', e, h⟩ := Shake.init_ok hp.R24 hp.r8 hp.r0 hp.r168 c hm (by rw [hN]; simp) (by rw [hS]; simp)
  rw [hN, hS] at h
  exact ⟨s', e, h⟩

/-- The state before a block: chunk counter, what `main` has absorbed, and the state of `child`. -/
structure Inv (R r : Nat) (raw : Bytes) (h : St) : Prop where
  main : Absorbing R r [] [] 0 raw h.main
  child_m : h.child.m.length = 168
  child_N : h.child.h.N = []
  child_S : h.child.h.S = []
  child : h.chunk ≠ 0 → Absorbing R r [] [] 0x0b [] h.child

/-- The output of a chunk. -/
def cvOf (R r c : Nat) (b : Bytes) : Bytes := slice (Spec.K12.turbo R r 0x0b b) 0 c

theorem child_ok (hp : Par B R r) (b : Bytes) (hb : b.length < 2 ^ 63) (c : Blk Model.Shake.St)
    (h : Absorbing R r [] [] 0x0b [] c) :
    ∃ c1 c2, Model.Shake.update R (8 * r) b c = .ok c1 ∧ Model.Shake.squeeze R (8 * r) (B / 4) c1 = .ok (cvOf R r (B / 4) b, c2) ∧
      c2.m.length = 168 ∧ c2.h.N = [] ∧ c2.h.S = [] := by
  obtain ⟨c1, e1, r1⟩ := Shake.update_ok hp.R24 hp.r8 hp.r0 hp.r168 b h hb
  obtain ⟨c2, e2, r2⟩ := Shake.squeeze_first hp.R24 hp.r8 hp.r0 hp.r168 (d := 0x0b) (B / 4) hp.c0 (by decide) (by decide) r1
  exact ⟨c1, c2, e1, e2, r2.mlen, r2.N, r2.S⟩

theorem transformStep_ok (hp : Par B R r) (b raw : Bytes) (hb : b.length < 2 ^ 63) (h : St) (hi : Inv R r raw h) :
    ∃ h', Model.K12.transformStep B R b h = .ok h' ∧ h'.S = h.S ∧ h'.squeezing = h.squeezing ∧ h'.chunk = (h.chunk + 1) % szMod ∧
      Inv R r (raw ++ if h.chunk = 0 then b ++ [3, 0, 0, 0, 0, 0, 0, 0] else cvOf R r (B / 4) b) h' ∧
      Absorbing R r [] [] 0x0b [] h'.child := by
  obtain ⟨main, child, S, chunk, q⟩ := h
  obtain ⟨h1, h2, h3, h4, h5⟩ := hi
  dsimp only at h1 h2 h3 h4 h5
  have key : ∃ mc, Model.K12.absorbChunk B R (8 * r) b ⟨main, child, S, chunk, q⟩ = .ok mc ∧
      Absorbing R r [] [] 0 (raw ++ if chunk = 0 then b ++ [3, 0, 0, 0, 0, 0, 0, 0] else cvOf R r (B / 4) b) mc.1 ∧
      mc.2.m.length = 168 ∧ mc.2.h.N = [] ∧ mc.2.h.S = [] := by
    unfold Model.K12.absorbChunk
    by_cases hc : chunk = 0
    · rw [if_pos hc, if_pos hc]
      unfold Model.K12.first
      dsimp only
      obtain ⟨s1, e1, r1⟩ := Shake.update_ok hp.R24 hp.r8 hp.r0 hp.r168 b h1 hb
      obtain ⟨s2, e2, r2⟩ := Shake.update_ok hp.R24 hp.r8 hp.r0 hp.r168 [3, 0, 0, 0, 0, 0, 0, 0] r1 (by simp)
      rw [e1, ok_bind, e2, ok_bind]
      exact ⟨_, rfl, by rw [← List.append_assoc]; exact r2, h2, h3, h4⟩
    · rw [if_neg hc, if_neg hc]
      unfold Model.K12.next
      dsimp only
      obtain ⟨c1, c2, e1, e2, k1, k2, k3⟩ := child_ok hp b hb child (h5 hc)
      obtain ⟨s3, e3, r3⟩ := Shake.update_ok hp.R24 hp.r8 hp.r0 hp.r168 (cvOf R r (B / 4) b) h1
        (by rw [cvOf, length_slice]; have := hp.c1; omega)
      rw [e1, ok_bind, e2, ok_bind, e3, ok_bind]
      exact ⟨_, rfl, r3, k1, k2, k3⟩
  obtain ⟨⟨m1, c1⟩, e, k1, k2, k3, k4⟩ := key
  obtain ⟨c2, e2, r2⟩ := init_child hp c1 k2 k3 k4
  have r3 := Shake.setSuffix_ok 0x0b r2
  refine ⟨⟨m1, Model.Shake.setSuffix 0x0b c2, S, (chunk + 1) % szMod, q⟩, ?_, rfl, rfl, rfl, ⟨k1, r3.mlen, ?_, ?_, fun _ => r3⟩, r3⟩
  · unfold Model.K12.transformStep
    dsimp only
    rw [hp.rate, e, ok_bind, e2, ok_bind]
    rfl
  · rw [r3.fields]
  · rw [r3.fields]

/-- The effect of a block. -/
def step (B R : Nat) (b : Bytes) (h : St) : St :=
  match Model.K12.transformStep B R b h with
  | .ok h' => h'
  | .error _ => h

def inv (R r : Nat) (h : St) : Prop := ∃ raw, Inv R r raw h

theorem step_ok (hp : Par B R r) (b : Bytes) (hb : b.length < 2 ^ 63) (h : St) (hi : inv R r h) :
    Model.K12.transformStep B R b h = .ok (step B R b h) ∧ inv R r (step B R b h) := by
  obtain ⟨raw, hi⟩ := hi
  obtain ⟨h', e, -, -, -, k, -⟩ := transformStep_ok hp b raw hb h hi
  have : step B R b h = h' := by unfold step; rw [e]
  rw [this]
  exact ⟨e, _, k⟩

theorem isTransform (hp : Par B R r) :
    IsTransform 8192 8192 (inv R r) (fun _ => step B R) (Model.K12.onBlocks B R) := by
  intro s data n i hn hm hi _
  refine ⟨s.m, hm, ?_⟩
  unfold Model.K12.onBlocks
  rw [forBlocks_ok (g := fun _ => step B R) (inv := inv R r) (fun i b h hb hi => step_ok hp b (by omega) h hi) data n s.h hn hi]
  rfl

/-- What `main` has absorbed after `k` blocks. -/
def content (R r c : Nat) (msg : Bytes) (k : Nat) : Bytes :=
  if k = 0 then [] else Spec.K12.piece 0 msg ++ [3, 0, 0, 0, 0, 0, 0, 0] ++
    ((List.range (k - 1)).map fun i => Spec.K12.cv R r c msg (i + 1)).flatten

theorem content_succ (c : Nat) (msg : Bytes) (k : Nat) :
    content R r c msg (k + 1) = content R r c msg k ++
      if k = 0 then Spec.K12.piece 0 msg ++ [3, 0, 0, 0, 0, 0, 0, 0] else Spec.K12.cv R r c msg k := by
  unfold content
  cases k with
  | zero => simp
  | succ k =>
    rw [if_neg (by omega), if_neg (by omega), if_neg (by omega), Nat.add_sub_cancel, Nat.add_sub_cancel, List.range_succ,
      List.map_append, List.flatten_append]
    simp

theorem fold_ok (hp : Par B R r) (msg : Bytes) (h0 : St) (hi : Inv R r [] h0) (hc : h0.chunk = 0) (k : Nat) (hk : k < 2 ^ 64)
    (hl : k * 8192 ≤ msg.length) :
    Inv R r (content R r (B / 4) msg k) (foldBlocks 8192 (fun _ => step B R) msg k h0) ∧
      (foldBlocks 8192 (fun _ => step B R) msg k h0).chunk = k ∧
      (foldBlocks 8192 (fun _ => step B R) msg k h0).S = h0.S ∧
      (foldBlocks 8192 (fun _ => step B R) msg k h0).squeezing = h0.squeezing := by
  induction k with
  | zero => exact ⟨hi, hc, rfl, rfl⟩
  | succ k ih =>
    obtain ⟨i1, i2, i3, i4⟩ := ih (by omega) (Nat.le_trans (Nat.mul_le_mul_right _ (Nat.le_succ k)) hl)
    rw [foldBlocks_succ]
    obtain ⟨h1, hh1⟩ : ∃ h1, h1 = foldBlocks 8192 (fun _ => step B R) msg k h0 := ⟨_, rfl⟩
    rw [← hh1] at i1 i2 i3 i4 ⊢
    have hbl := length_blockAt 8192 k msg hl
    obtain ⟨h', e, k1, k2, k3, k4, -⟩ := transformStep_ok hp (blockAt 8192 k msg) _ (by omega) h1 i1
    have : step B R (blockAt 8192 k msg) h1 = h' := by unfold step; rw [e]
    rw [this]
    refine ⟨?_, by rw [k3, i2]; exact Nat.mod_eq_of_lt hk, by rw [k1, i3], by rw [k2, i4]⟩
    rw [content_succ]
    rw [i2] at k4
    by_cases h0 : k = 0
    · subst h0; exact k4
    · rw [if_neg h0] at k4 ⊢; exact k4

theorem update_ok (hp : Par B R r) (h0 : St) (hi : Inv R r [] h0) (msg data : Bytes) (s : Blk St)
    (h : Buffered 8192 1 8192 (fun _ => step B R) h0 msg s) (hd : data.length < 2 ^ 63) :
    ∃ s', Model.K12.update B R data s = .ok s' ∧ Buffered 8192 1 8192 (fun _ => step B R) h0 (msg ++ data) s' := by
  unfold Model.K12.update
  exact absorbBytes_spec (by omega) (by omega) (by omega) (by omega) (isTransform hp)
    (fun _ b h hb hi => (step_ok hp b (by omega) h hi).2) ⟨_, hi⟩ msg data s h hd

/-- The fields that are there in any case. -/
structure Fields (C : Bytes) (s : Blk St) : Prop where
  mlen : s.m.length = 8192
  S : s.h.S = C
  main_m : s.h.main.m.length = 168
  main_N : s.h.main.h.N = []
  main_S : s.h.main.h.S = []
  child_m : s.h.child.m.length = 168
  child_N : s.h.child.h.N = []
  child_S : s.h.child.h.S = []

theorem foldS (hp : Par B R r) (msg : Bytes) (h0 : St) (hi : inv R r h0) (k : Nat) (hl : k * 8192 ≤ msg.length) :
    (foldBlocks 8192 (fun _ => step B R) msg k h0).S = h0.S ∧
    (foldBlocks 8192 (fun _ => step B R) msg k h0).squeezing = h0.squeezing ∧
    inv R r (foldBlocks 8192 (fun _ => step B R) msg k h0) := by
  induction k with
  | zero => exact ⟨rfl, rfl, hi⟩
  | succ k ih =>
    obtain ⟨i1, i2, raw, i3⟩ := ih (Nat.le_trans (Nat.mul_le_mul_right _ (Nat.le_succ k)) hl)
    rw [foldBlocks_succ]
    obtain ⟨h1, hh1⟩ : ∃ h1, h1 = foldBlocks 8192 (fun _ => step B R) msg k h0 := ⟨_, rfl⟩
    rw [← hh1] at i1 i2 i3 ⊢
    have hbl := length_blockAt 8192 k msg hl
    obtain ⟨h', e, k1, k2, k3, k4, -⟩ := transformStep_ok hp (blockAt 8192 k msg) _ (by omega) h1 i3
    have : step B R (blockAt 8192 k msg) h1 = h' := by unfold step; rw [e]
    rw [this]
    exact ⟨by rw [k1, i1], by rw [k2, i2], _, k4⟩

/-- `s` has customization `C`, absorbed `msg` and gave `n` bytes of output. -/
def Rel (B R r : Nat) (C msg : Bytes) (n : Nat) (s : Blk St) : Prop :=
  C.length < 2 ^ 61 ∧
  (n = 0 ∧ (∃ h0, Inv R r [] h0 ∧ h0.chunk = 0 ∧ h0.S = C ∧ h0.squeezing = false ∧
      Buffered 8192 1 8192 (fun _ => step B R) h0 msg s) ∨
    (Fields C s ∧ s.h.squeezing = true ∧ 0 < n ∧ (msg.length < 2 ^ 64 →
      ∃ A0, Squeezing R r [] [] A0 n s.h.main ∧ Spec.Keccak.squeeze R r A0 = Spec.K12.stream R r (B / 4) C msg)))

theorem Rel.fields (hp : Par B R r) {C msg : Bytes} {n : Nat} {s : Blk St} (h : Rel B R r C msg n s) : Fields C s := by
  rcases h.2 with ⟨-, h0, hi, hc, hS, hq, hb⟩ | h
  · have hh := hb.h
    obtain ⟨e1, -, raw, e2⟩ := foldS hp msg h0 ⟨_, hi⟩ ((msg.length - 1) / 8192) (by omega)
    rw [← hh] at e1 e2
    have hf := e2.main.fields
    exact ⟨hb.mlen, by rw [e1, hS], e2.main.mlen, by rw [hf], by rw [hf], e2.child_m, e2.child_N, e2.child_S⟩
  · exact h.1

theorem init_ok (hp : Par B R r) (C : Bytes) (hC : C.length < 2 ^ 61) (s : Blk St) (h : Fields C s) :
    ∃ s', Model.K12.init B R s = .ok s' ∧ Rel B R r C [] 0 s' := by
  unfold Model.K12.init
  obtain ⟨m', e, k⟩ := init_child hp s.h.main h.main_m h.main_N h.main_S
  rw [hp.rate, e, ok_bind]
  exact ⟨_, rfl, hC, .inl ⟨rfl, ⟨m', s.h.child, s.h.S, 0, false⟩, ⟨k, h.child_m, h.child_N, h.child_S, fun hc => absurd rfl hc⟩, rfl, h.S, rfl,
    Buffered.start _ _ h.mlen rfl rfl rfl⟩⟩

theorem piece_last (S : Bytes) (k : Nat) (hk : k = (S.length - 1) / 8192) (h0 : 0 < S.length) :
    Spec.K12.piece k S = S.drop (k * 8192) := by
  unfold Spec.K12.piece blockAt
  rw [List.take_of_length_le]
  rw [List.length_drop]
  omega

/-- The end of the message. -/
theorem finish_ok (hp : Par B R r) (S : Bytes) (hS0 : 0 < S.length) (hS : S.length < 2 ^ 65) (h0 : St) (hi : Inv R r [] h0)
    (hc : h0.chunk = 0) (s : Blk St) (h : Buffered 8192 1 8192 (fun _ => step B R) h0 S s) :
    ∃ mc, Model.K12.finish B R (8 * r) s = .ok mc ∧ mc.2.m.length = 168 ∧ mc.2.h.N = [] ∧ mc.2.h.S = [] ∧
      if S.length ≤ 8192 then Absorbing R r [] [] 0x07 S mc.1
      else Absorbing R r [] [] 0x06 (Spec.K12.finalNode R r (B / 4) S) mc.1 := by
  have hh := h.h
  have hpos := h.pos
  have hbuf := h.buf
  have hml := h.mlen
  obtain ⟨k, hk⟩ : ∃ k, k = (S.length - 1) / 8192 := ⟨_, rfl⟩
  rw [← hk] at hh hpos hbuf
  obtain ⟨k1, k2, k3, k4⟩ := fold_ok hp S h0 hi hc k (by omega) (by omega)
  rw [← hh] at k1 k2 k3 k4
  have hrd : readBytes s.m 0 s.pos = .ok (Spec.K12.piece k S) := by
    rw [readBytes_ok _ _ _ (by omega), List.drop_zero, hbuf, piece_last S k hk hS0]
  have hpl : (Spec.K12.piece k S).length < 2 ^ 63 := by
    unfold Spec.K12.piece blockAt; rw [List.length_take]; omega
  have hcount : Spec.K12.count S = k + 1 := by unfold Spec.K12.count; omega
  unfold Model.K12.finish
  rw [if_pos (by omega), k2]
  by_cases hk0 : k = 0
  · rw [if_pos hk0]
    unfold Model.K12.finishSingle
    obtain ⟨s1, e1, r1⟩ := Shake.update_ok hp.R24 hp.r8 hp.r0 hp.r168 (Spec.K12.piece k S) k1.main hpl
    rw [hrd, ok_bind, e1, ok_bind]
    refine ⟨_, rfl, k1.child_m, k1.child_N, k1.child_S, ?_⟩
    rw [if_pos (by omega)]
    have r2 := Shake.setSuffix_ok 0x07 r1
    rw [piece_last S k hk hS0, hk0] at r2
    simpa [content] using r2
  · rw [if_neg hk0]
    unfold Model.K12.finishTree
    obtain ⟨c1, c2, e1, e2, j1, j2, j3⟩ := child_ok hp (Spec.K12.piece k S) hpl s.h.child (k1.child (by rw [k2]; exact hk0))
    obtain ⟨s3, e3, r3⟩ := Shake.update_ok hp.R24 hp.r8 hp.r0 hp.r168 (cvOf R r (B / 4) (Spec.K12.piece k S)) k1.main
        (by rw [cvOf, length_slice]; have := hp.c1; omega)
    have r4 := Shake.setSuffix_ok 0x06 r3
    have hle := length_lengthEncode k (by omega)
    obtain ⟨s5, e5, r5⟩ := Shake.update_ok hp.R24 hp.r8 hp.r0 hp.r168 (Spec.K12.lengthEncode k) r4 (by omega)
    obtain ⟨s6, e6, r6⟩ := Shake.update_ok hp.R24 hp.r8 hp.r0 hp.r168 [0xff, 0xff] r5 (by simp)
    rw [hrd, ok_bind, e1, ok_bind, e2, ok_bind]
    dsimp only
    rw [e3, ok_bind, k2, lengthEncode_eq k (by omega), e5, ok_bind, e6, ok_bind]
    refine ⟨_, rfl, j1, j2, j3, ?_⟩
    rw [if_neg (by omega)]
    have hcs := content_succ (R := R) (r := r) (B / 4) S k
    rw [if_neg hk0] at hcs
    unfold Spec.K12.finalNode
    rw [hcount, Nat.add_sub_cancel]
    have : content R r (B / 4) S (k + 1) = Spec.K12.piece 0 S ++ [3, 0, 0, 0, 0, 0, 0, 0] ++
        ((List.range k).map fun i => Spec.K12.cv R r (B / 4) S (i + 1)).flatten := by
      unfold content; rw [if_neg (by omega), Nat.add_sub_cancel]
    rw [← this, hcs]
    exact r6

theorem updateS_ok (hp : Par B R r) (C : Bytes) (hC : C.length < 2 ^ 61) (h0 : St) (hi : Inv R r [] h0) (hS : h0.S = C)
    (msg : Bytes) (s : Blk St) (h : Buffered 8192 1 8192 (fun _ => step B R) h0 msg s) :
    ∃ s', Model.K12.updateS B R s = .ok s' ∧ Buffered 8192 1 8192 (fun _ => step B R) h0 (msg ++ C) s' := by
  have hsS : s.h.S = C := by rw [h.h, (foldS hp msg h0 ⟨_, hi⟩ _ (by omega)).1, hS]
  unfold Model.K12.updateS
  rw [hsS]
  cases hCe : C with
  | nil => exact ⟨s, rfl, by rwa [List.append_nil]⟩
  | cons x t =>
    rw [if_neg (by simp), ← hCe]
    exact update_ok hp h0 hi msg C s h (by omega)

/-- What the sponge that gives the output has absorbed. -/
def lastNode (R r c : Nat) (S : Bytes) : Bytes := if S.length ≤ 8192 then S else Spec.K12.finalNode R r c S

/-- The part of `squeeze` done once, in any case. -/
theorem squeezeFirst_ok (hp : Par B R r) (C : Bytes) (hC : C.length < 2 ^ 61) (msg : Bytes) (h0 : St) (hi : Inv R r [] h0)
    (hc : h0.chunk = 0) (hS : h0.S = C) (hq : h0.squeezing = false) (s : Blk St)
    (h : Buffered 8192 1 8192 (fun _ => step B R) h0 msg s) (hm : msg.length < 2 ^ 64) :
    ∃ s' d, Model.K12.squeezeFirst B R s = .ok s' ∧ Fields C s' ∧ s'.h.squeezing = true ∧ (d = 0x06 ∨ d = 0x07) ∧
      ∃ X, Absorbing R r [] [] d X s'.h.main ∧ Spec.K12.turbo R r d X = Spec.K12.stream R r (B / 4) C msg ∧
        X = lastNode R r (B / 4) (msg ++ C ++ Spec.K12.lengthEncode C.length) ∧
        s'.pos = ((msg ++ C ++ Spec.K12.lengthEncode C.length).length - 1) % 8192 + 1 := by
  have hf := foldS hp msg h0 ⟨_, hi⟩ ((msg.length - 1) / 8192) (by omega)
  rw [← h.h] at hf
  have hsS : s.h.S = C := by rw [hf.1, hS]
  have hsq : s.h.squeezing = false := by rw [hf.2.1, hq]
  have hle := length_lengthEncode C.length (by omega)
  unfold Model.K12.squeezeFirst
  rw [hsq, if_pos (show (!false) = true from rfl), hsS, lengthEncode_eq _ (by omega)]
  dsimp only
  obtain ⟨s1, e1, r1⟩ := updateS_ok hp C hC h0 hi hS msg s h
  obtain ⟨s2, e2, r2⟩ := update_ok hp h0 hi (msg ++ C) (Spec.K12.lengthEncode C.length) s1 r1 (by omega)
  obtain ⟨X, hX⟩ : ∃ X, X = msg ++ C ++ Spec.K12.lengthEncode C.length := ⟨_, rfl⟩
  have hXl : X.length = msg.length + C.length + (Spec.K12.lengthEncode C.length).length := by rw [hX]; simp [Nat.add_assoc]
  rw [← hX] at r2
  have hpos : s2.pos = (X.length - 1) % 8192 + 1 := by rw [r2.pos]; omega
  obtain ⟨mc, e3, j1, j2, j3, j4⟩ := finish_ok hp X (by omega) (by omega) h0 hi hc s2 r2
  rw [e1, ok_bind, e2, ok_bind, hp.rate, e3, ok_bind]
  have hf2 := foldS hp X h0 ⟨_, hi⟩ ((X.length - 1) / 8192) (by omega)
  rw [← r2.h] at hf2
  have hst : Spec.K12.stream R r (B / 4) C msg = if X.length ≤ 8192 then Spec.K12.turbo R r 0x07 X
      else Spec.K12.turbo R r 0x06 (Spec.K12.finalNode R r (B / 4) X) := by
    unfold Spec.K12.stream Spec.K12.tree
    rw [← hX]
  by_cases hle : X.length ≤ 8192
  · rw [if_pos hle] at j4 hst
    have jf := j4.fields
    exact ⟨_, 0x07, rfl, ⟨r2.mlen, by rw [← hS]; exact hf2.1, j4.mlen, by rw [jf], by rw [jf], j1, j2, j3⟩, rfl, .inr rfl, X, j4, hst.symm,
      by rw [← hX]; unfold lastNode; rw [if_pos hle], by rw [← hX]; exact hpos⟩
  · rw [if_neg hle] at j4 hst
    have jf := j4.fields
    exact ⟨_, 0x06, rfl, ⟨r2.mlen, by rw [← hS]; exact hf2.1, j4.mlen, by rw [jf], by rw [jf], j1, j2, j3⟩, rfl, .inl rfl, _, j4, hst.symm,
      by rw [← hX]; unfold lastNode; rw [if_neg hle], by rw [← hX]; exact hpos⟩

theorem squeeze_ok (hp : Par B R r) (C msg : Bytes) (n : Nat) (s : Blk St) (k : Nat) (hk : 0 < k) (hm : msg.length < 2 ^ 64)
    (h : Rel B R r C msg n s) :
    ∃ s', Model.K12.squeeze B R k s = .ok (slice (Spec.K12.stream R r (B / 4) C msg) n k, s') ∧ Rel B R r C msg (n + k) s' := by
  unfold Model.K12.squeeze
  rcases h.2 with ⟨rfl, h0, hi, hc, hS, hq, hb⟩ | ⟨hf, hq, hn, hA⟩
  · obtain ⟨s1, d, e1, f1, q1, hd, X, a1, hX, -⟩ := squeezeFirst_ok hp C h.1 msg h0 hi hc hS hq s hb hm
    obtain ⟨m2, e2, r2⟩ := Shake.squeeze_first hp.R24 hp.r8 hp.r0 hp.r168 (d := d) k hk
      (by obtain rfl | rfl := hd <;> decide) (by obtain rfl | rfl := hd <;> decide) a1
    rw [e1, ok_bind, hp.rate, e2, ok_bind, ← hX]
    refine ⟨_, rfl, h.1, .inr ⟨⟨f1.mlen, f1.S, r2.mlen, r2.N, r2.S, f1.child_m, f1.child_N, f1.child_S⟩, q1, by omega, fun _ => ?_⟩⟩
    exact ⟨_, by rw [Nat.zero_add]; exact r2, hX⟩
  · obtain ⟨A0, hA, hst⟩ := hA hm
    obtain ⟨m2, e2, r2⟩ := Shake.squeeze_next hp.R24 hp.r0 hp.r168 k hk hA
    have e1 : Model.K12.squeezeFirst B R s = .ok s := by
      unfold Model.K12.squeezeFirst
      rw [hq]; rfl
    rw [e1, ok_bind, hp.rate, e2, ok_bind, ← hst]
    exact ⟨_, rfl, h.1, .inr ⟨⟨hf.mlen, hf.S, r2.mlen, r2.N, r2.S, hf.child_m, hf.child_N, hf.child_S⟩, hq, by omega,
      fun _ => ⟨A0, r2, hst⟩⟩⟩

/-- Customizations shorter than `2^61` bytes are covered. -/
def prm : CustomizationParam → Prop
  | .customization v => v.length < 2 ^ 61

theorem par (b R : Nat) (hb : b = 128 ∨ b = 256) (hR : R ≤ 24) : Par b R (200 - 2 * b / 8) := by
  obtain ⟨r, hr, he, h8, hr0, h168⟩ := Shake.rateOf_eq b hb
  rw [← hr]
  exact ⟨he, hR, h8, hr0, h168, by omega, by omega⟩

theorem refines (b R : Nat) (hb : b = 128 ∨ b = 256) (hR : R ≤ 24) :
    XofRefines (Model.K12.provider b R) (Spec.k12 b R) ⟨fun _ m => m.length < 2 ^ 64, True, prm, fun _ => True⟩ (Rel b R (200 - 2 * b / 8)) := by
  have hp := par b R hb hR
  constructor
  · intro C msg n s h
    exact init_ok hp C h.1 s (h.fields hp)
  · intro C msg s data h hd
    rcases h.2 with ⟨-, h0, hi, hc, hS, hq, hb⟩ | ⟨-, -, hn, -⟩
    · obtain ⟨s', e, r⟩ := update_ok hp h0 hi msg data s hb hd
      exact ⟨s', e, h.1, .inl ⟨rfl, h0, hi, hc, hS, hq, r⟩⟩
    · omega
  · intro C msg n s k h hm hk _ _
    exact squeeze_ok hp C msg n s k hk hm h
  · intro _ C msg n s h
    have hf := h.fields hp
    obtain ⟨⟨⟨mA, mm, mp, mt⟩, ⟨cA, cm, cp, ct⟩, S, ch, q⟩, m, pos, total⟩ := s
    obtain ⟨s2, e2, r2⟩ := init_ok hp [] (by simp)
      ⟨⟨⟨{ mA with A := List.replicate 25 0, N := [], S := [] }, zeroBytes mm, mp, mt⟩,
        ⟨{ cA with A := List.replicate 25 0, N := [], S := [] }, zeroBytes cm, cp, ct⟩, [], ch, q⟩, zeroBytes m, pos, total⟩
      ⟨by simpa [zeroBytes] using hf.mlen, rfl, by simpa [zeroBytes] using hf.main_m, rfl, rfl,
        by simpa [zeroBytes] using hf.child_m, rfl, rfl⟩
    exact ⟨_, s2, rfl, e2, r2⟩
  · intro C msg n s p h hpp
    have hf := h.fields hp
    cases p with
    | customization v =>
      obtain ⟨s2, e2, r2⟩ := init_ok hp v hpp
        { s with h := { main := s.h.main, child := s.h.child, S := v, chunk := s.h.chunk, squeezing := s.h.squeezing } }
        ⟨hf.mlen, rfl, hf.main_m, hf.main_N, hf.main_S, hf.child_m, hf.child_N, hf.child_S⟩
      exact ⟨_, s2, rfl, e2, r2⟩

end K12
end Digestpp.Proofs
