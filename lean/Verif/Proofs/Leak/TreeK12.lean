import Verif.Proofs.Leak.TreeTwin

/-! KangarooTwelve and MarsupilamiFourteen: the trace of a whole computation. -/

namespace Digestpp.Proofs.Leak
open Model Properties Model.K12
variable {R B : Nat}

/-- The local arrays of all calls of functions of `main` and `child`. -/
abbrev _root_.Digestpp.Properties.K12Sized (k : Leak.K12.Stacks) : Prop := Each (Each (Each KeccakSized)) k

/-- What is known of the sponge of the chunks before it is used. -/
structure Unused (s s' : Blk Shake.St) : Prop where
  m : Sz 168 s.m s'.m
  h : s.h.N.length = 0 ∧ s.h.S.length = 0
  h' : s'.h.N.length = 0 ∧ s'.h.S.length = 0

theorem ShakeSame.unused {s s' : Blk Shake.St} (h : ShakeSame 0 0 s s') : Unused s s' :=
  let ⟨_, h⟩ := h
  ⟨h.m, ⟨h.h.2.1, h.h.2.2.1⟩, h.h'.2.1, h.h'.2.2.1⟩

theorem ShakeSame.suffix {nl sl : Nat} {s s' : Blk Shake.St} (v : Byte) (h : ShakeSame nl sl s s') : ShakeSame nl sl (Shake.setSuffix v s) (Shake.setSuffix v s') :=
  let ⟨q, h⟩ := h
  ⟨q, h.pos, h.total, h.m, h.h, h.h'⟩

/-- The members of two objects that have absorbed, or given, the same number of bytes. -/
structure K12Rel (sl : Nat) (h h' : St) : Prop where
  main : ShakeSame 0 0 h.main h'.main
  unused : Unused h.child h'.child
  child : h.chunk ≠ 0 → ShakeSame 0 0 h.child h'.child
  S : h.S.length = sl ∧ h'.S.length = sl
  chunk : h.chunk = h'.chunk
  q : h.squeezing = h'.squeezing

theorem shake_update_twin' (hR : R ≤ 24) {rate : Nat} (hr : Safety.Shake.Rate rate) {nl sl : Nat} {k k' : Nat → Leak.Shake.Stacks} {d d' : Bytes} {s s' : Blk Shake.St}
    (hk : Each KeccakSized k) (hk' : Each KeccakSized k') (hd : d.length = d'.length) (hl : d.length < 2 ^ 63) (h : ShakeSame nl sl s s') :
    Twin (ShakeSame nl sl) (Leak.Shake.update R rate k d s) (Shake.update R rate d s) (Leak.Shake.update R rate k' d' s') (Shake.update R rate d' s') :=
  let ⟨q, h⟩ := h
  (shake_update_twin hR hr hk hk' hd hl h).mono fun _ _ _ _ r => ⟨q, r⟩

theorem shake_first_length {rate n : Nat} {s : Blk Shake.St} {r : Bytes × Blk Shake.St} (e : Shake.squeezeFirst R rate n s = .ok r) : r.1.length ≤ n := by
  unfold Shake.squeezeFirst at e
  dsimp only at e
  split at e
  · obtain ⟨x, _, e⟩ := M.bind_eq_ok e
    cases Except.ok.inj e
    exact Nat.zero_le _
  · split at e
    · obtain ⟨x, ex, e⟩ := M.bind_eq_ok e
      cases Except.ok.inj e
      show x.length ≤ n
      rw [length_readBytes ex]
      omega
    · split at e
      all_goals
        cases Except.ok.inj e
        exact Nat.zero_le _

theorem shake_loop_length {r n : Nat} : ∀ (fuel : Nat) (o : Bytes) (s : Blk Shake.St) (x : Bytes × Blk Shake.St), o.length ≤ n → Shake.squeezeLoop R r n fuel o s = .ok x → x.1.length ≤ n
  | 0, o, s, x, h, e => by
    cases Except.ok.inj e
    exact h
  | fuel + 1, o, s, x, h, e => by
    unfold Shake.squeezeLoop at e
    dsimp only at e
    split at e
    · obtain ⟨b, eb, e⟩ := M.bind_eq_ok e
      exact shake_loop_length fuel _ _ x (by rw [List.length_append, length_readBytes eb]; omega) e
    · cases Except.ok.inj e
      exact h

theorem shake_squeeze_length {rate n : Nat} {s : Blk Shake.St} {r : Bytes × Blk Shake.St} (e : Shake.squeeze R rate n s = .ok r) : r.1.length ≤ n := by
  obtain ⟨x, ex, e⟩ := M.bind_eq_ok e
  exact shake_loop_length n x.1 x.2 r (shake_first_length ex) e

theorem shake_squeeze_twin' (hR : R ≤ 24) {rate : Nat} (hr : Safety.Shake.Rate rate) {nl sl n : Nat} {k k' : Nat → Leak.Shake.Stacks} {s s' : Blk Shake.St} (hk : Each KeccakSized k) (hk' : Each KeccakSized k')
    (h : ShakeSame nl sl s s') :
    Twin (fun x y => x.1.length = y.1.length ∧ x.1.length ≤ n ∧ ShakeSame nl sl x.2 y.2) (Leak.Shake.squeeze R rate k n s) (Shake.squeeze R rate n s) (Leak.Shake.squeeze R rate k' n s') (Shake.squeeze R rate n s') :=
  (Twin.bind (shake_first_twin hR hr (hk 0) (hk' 0) h) fun a b r =>
    (shake_loop_twin hR n _ _ a.1 b.1 a.2 b.2 (fun i => hk (i + 1)) (fun i => hk' (i + 1)) r.1 r.2)).mono fun _ _ e _ r => ⟨r.1, shake_squeeze_length e, true, r.2⟩

/-- `main` and `child` after a chunk. -/
abbrev PairRel (x y : Blk Shake.St × Blk Shake.St) : Prop := ShakeSame 0 0 x.1 y.1 ∧ Unused x.2 y.2

theorem k12_chunk_twin (hR : R ≤ 24) (hB : B ≤ 1024) {sl : Nat} {k k' : Leak.K12.Stacks} {b b' : Bytes} {h h' : St} (hk : K12Sized k) (hk' : K12Sized k') (hb : b.length = b'.length) (hl : b.length < 2 ^ 63)
    (r : K12Rel sl h h') :
    Twin PairRel (Leak.K12.absorbChunk B R (Shake.rateOf B) k b h) (absorbChunk B R (Shake.rateOf B) b h) (Leak.K12.absorbChunk B R (Shake.rateOf B) k' b' h') (absorbChunk B R (Shake.rateOf B) b' h') := by
  have rate := Safety.Shake.rateOf_ok B
  refine Twin.branch (by rw [r.chunk]) (fun _ _ => ?_) fun hc _ => ?_
  · refine Twin.bind (shake_update_twin' hR rate (hk 0 0) (hk' 0 0) hb hl r.main) fun x y q => ?_
    exact Twin.bind (shake_update_twin' hR rate (hk 1 0) (hk' 1 0) rfl (by decide) q) fun x y q => Twin.pure ⟨q, r.unused⟩
  · refine Twin.bind (shake_update_twin' hR rate (hk 0 0) (hk' 0 0) hb hl (r.child hc)) fun x y q => ?_
    refine Twin.bind (shake_squeeze_twin' hR rate (hk 1 0) (hk' 1 0) q) fun x y q => ?_
    exact Twin.bind (shake_update_twin' hR rate (hk 2 0) (hk' 2 0) q.1 (by have := q.2.1; omega) r.main) fun u v p => Twin.pure ⟨p, q.2.2.unused⟩

theorem k12_step_twin (hR : R ≤ 24) (hB : B ≤ 1024) {sl : Nat} {k k' : Leak.K12.Stacks} {b b' : Bytes} {h h' : St} (hk : K12Sized k) (hk' : K12Sized k') (hb : b.length = b'.length) (hl : b.length < 2 ^ 63)
    (r : K12Rel sl h h') :
    Twin (K12Rel sl) (Leak.K12.transformStep B R k b h) (transformStep B R b h) (Leak.K12.transformStep B R k' b' h') (transformStep B R b' h') := by
  refine Twin.bind (k12_chunk_twin hR hB hk hk' hb hl r) fun x y q => ?_
  refine Twin.bind (shake_init_twin hR (Safety.Shake.rateOf_ok B) (by decide) (by decide) (hk 3) (hk' 3) q.2.m q.2.h q.2.h') fun c c' p => ?_
  have p : ShakeSame 0 0 (Shake.setSuffix 0x0b c) (Shake.setSuffix 0x0b c') := ShakeSame.suffix _ ⟨false, p⟩
  exact Twin.pure ⟨q.1, p.unused, fun _ => p, r.S, by show (h.chunk + 1) % szMod = (h'.chunk + 1) % szMod; rw [r.chunk], r.q⟩

theorem k12_twin (hR : R ≤ 24) (hB : B ≤ 1024) (sl : Nat) : TwinTransformRel 8192 8192 (K12Rel sl) (Each K12Sized) (Leak.K12.onBlocks B R) (onBlocks B R) := by
  intro k k' data data' n s s' hk hk' hd hd' h
  refine Twin.bind (Twin.loop (R := K12Rel sl) (fun i hi a b r => ?_) s.h s'.h h.h) fun x y r => Twin.pure ⟨h.pos, h.total, h.m, r⟩
  refine Twin.bind (Twin.readBytes rfl rfl) fun c c' q => ?_
  exact k12_step_twin hR hB (hk i) (hk' i) (q.1.trans q.2.symm) (by rw [q.1]; decide) r

theorem k12_update_twin (hR : R ≤ 24) (hB : B ≤ 1024) {sl : Nat} {k k' : Nat → Nat → Leak.K12.Stacks} {d d' : Bytes} {s s' : Blk St} (hk : Each (Each K12Sized) k) (hk' : Each (Each K12Sized) k')
    (hd : d.length = d'.length) (hl : d.length < 2 ^ 63) (h : SameRel 8192 (K12Rel sl) s s') :
    Twin (SameRel 8192 (K12Rel sl)) (Leak.K12.update B R k d s) (update B R d s) (Leak.K12.update B R k' d' s') (update B R d' s') :=
  absorbBytes_twinRel (k12_twin hR hB sl) (z := 1) (by decide) (by decide) (by decide) hk hk' hd hl h

/-- What the trace of `init` depends on. -/
abbrev _root_.Digestpp.Properties.K12New (sl : Nat) (s : Blk St) : Prop := s.m.length = 8192 ∧ s.h.S.length = sl ∧ (s.h.main.m.length = 168 ∧ s.h.main.h.N.length = 0 ∧ s.h.main.h.S.length = 0) ∧
  s.h.child.m.length = 168 ∧ s.h.child.h.N.length = 0 ∧ s.h.child.h.S.length = 0

theorem k12_init_twin (hR : R ≤ 24) {sl : Nat} {k k' : Nat → Nat → Leak.Shake.Stacks} {s s' : Blk St} (hk : Each (Each KeccakSized) k) (hk' : Each (Each KeccakSized) k') (h : K12New sl s) (h' : K12New sl s') :
    Twin (SameRel 8192 (K12Rel sl)) (Leak.K12.init B R k s) (init B R s) (Leak.K12.init B R k' s') (init B R s') := by
  refine Twin.bind (shake_init_twin hR (Safety.Shake.rateOf_ok B) (by decide) (by decide) hk hk' ⟨h.2.2.1.1, h'.2.2.1.1⟩ h.2.2.1.2 h'.2.2.1.2) fun a b r => Twin.pure ?_
  exact ⟨rfl, rfl, ⟨h.1, h'.1⟩, ⟨false, r⟩, ⟨⟨h.2.2.2.1, h'.2.2.2.1⟩, h.2.2.2.2, h'.2.2.2.2⟩, fun c => absurd rfl c, ⟨h.2.1, h'.2.1⟩, rfl, rfl⟩

/-- `main` and `child` at the end of the message. -/
abbrev EndRel (chunk : Nat) (x y : Blk Shake.St × Blk Shake.St) : Prop := ShakeSame 0 0 x.1 y.1 ∧ Unused x.2 y.2 ∧ (chunk ≠ 0 → ShakeSame 0 0 x.2 y.2)

theorem k12_finish_twin (hR : R ≤ 24) (hB : B ≤ 1024) {sl : Nat} {k k' : Leak.K12.Stacks} {s s' : Blk St} (hk : K12Sized k) (hk' : K12Sized k') (h : SameRel 8192 (K12Rel sl) s s') :
    Twin (EndRel s.h.chunk) (Leak.K12.finish B R (Shake.rateOf B) k s) (finish B R (Shake.rateOf B) s) (Leak.K12.finish B R (Shake.rateOf B) k' s') (finish B R (Shake.rateOf B) s') := by
  have rate := Safety.Shake.rateOf_ok B
  have r := h.h
  have len : ∀ {b : Bytes}, Model.readBytes s.m 0 s.pos = .ok b → b.length < 2 ^ 63 := by
    intro b e
    have l := length_readBytes e
    unfold Model.readBytes at e
    split at e
    · have := h.m.1
      omega
    · cases e
  refine Twin.branch (by rw [h.pos]) (fun _ _ => ?_) fun _ _ => Twin.pure ⟨r.main.suffix _, r.unused, r.child⟩
  refine Twin.branch (by rw [r.chunk]) (fun hc _ => ?_) fun hc _ => ?_
  · refine Twin.bind ((Twin.readBytes rfl h.pos).mono (Q := fun a b => a.length = b.length ∧ a.length < 2 ^ 63) fun a b e _ q => ⟨q.1.trans q.2.symm, len e⟩) fun c c' q => ?_
    exact Twin.bind (shake_update_twin' hR rate (hk 0 0) (hk' 0 0) q.1 q.2 r.main) fun x y p => Twin.pure ⟨p.suffix _, r.unused, fun h => absurd hc h⟩
  · refine Twin.bind ((Twin.readBytes rfl h.pos).mono (Q := fun a b => a.length = b.length ∧ a.length < 2 ^ 63) fun a b e _ q => ⟨q.1.trans q.2.symm, len e⟩) fun c c' q => ?_
    refine Twin.bind (shake_update_twin' hR rate (hk 0 0) (hk' 0 0) q.1 q.2 (r.child hc)) fun x y q => ?_
    refine Twin.bind (shake_squeeze_twin' hR rate (hk 1 0) (hk' 1 0) q) fun x y q => ?_
    refine Twin.bind (shake_update_twin' hR rate (hk 2 0) (hk' 2 0) q.1 (by have := q.2.1; omega) r.main) fun u v p => ?_
    refine Twin.bind (shake_update_twin' hR rate (hk 3 0) (hk' 3 0) (by rw [r.chunk]) (by have := Safety.Shake.length_rightEncode s.h.chunk true; omega) (p.suffix 0x06)) fun u v p => ?_
    exact Twin.bind (shake_update_twin' hR rate (hk 4 0) (hk' 4 0) rfl (by decide) p) fun u v p => Twin.pure ⟨p, q.2.2.unused, fun _ => q.2.2⟩

theorem k12_first_twin (hR : R ≤ 24) (hB : B ≤ 1024) {sl : Nat} (hsl : sl < 2 ^ 63) {k k' : Nat → Nat → Nat → Leak.K12.Stacks} {s s' : Blk St} (hk : Each (Each (Each K12Sized)) k)
    (hk' : Each (Each (Each K12Sized)) k') (h : SameRel 8192 (K12Rel sl) s s') :
    Twin (SameRel 8192 (K12Rel sl)) (Leak.K12.squeezeFirst B R k s) (squeezeFirst B R s) (Leak.K12.squeezeFirst B R k' s') (squeezeFirst B R s') := by
  have hS := h.h.S
  refine Twin.branch (by rw [h.h.q]) (fun _ _ => ?_) fun _ _ => Twin.pure h
  refine Twin.bind (R := SameRel 8192 (K12Rel sl)) (Twin.branch (by rw [List.isEmpty_iff_length_eq_zero, List.isEmpty_iff_length_eq_zero, hS.1, hS.2]) (fun _ _ => Twin.pure h) fun _ _ =>
    k12_update_twin hR hB (hk 0) (hk' 0) (hS.1.trans hS.2.symm) (by rw [hS.1]; exact hsl) h) fun x y r => ?_
  refine Twin.bind (k12_update_twin hR hB (hk 1) (hk' 1) (by rw [hS.1, hS.2]) (by have := Safety.Shake.length_rightEncode s.h.S.length true; omega) r) fun x y r => ?_
  refine Twin.bind (k12_finish_twin hR hB (hk 2 0 0) (hk' 2 0 0) r) fun u v p => Twin.pure ⟨r.pos, r.total, r.m, p.1, p.2.1, p.2.2, r.h.S, r.h.chunk, rfl⟩

theorem k12_squeeze_twin (hR : R ≤ 24) (hB : B ≤ 1024) {sl n : Nat} (hsl : sl < 2 ^ 63) {k k' : Nat → Nat → Nat → Leak.K12.Stacks} {s s' : Blk St} (hk : Each (Each (Each K12Sized)) k)
    (hk' : Each (Each (Each K12Sized)) k') (h : SameRel 8192 (K12Rel sl) s s') :
    Twin (fun x y => SameRel 8192 (K12Rel sl) x.2 y.2) (Leak.K12.squeeze B R k n s) (squeeze B R n s) (Leak.K12.squeeze B R k' n s') (squeeze B R n s') := by
  refine Twin.bind (k12_first_twin hR hB hsl hk hk' h) fun x y r => ?_
  exact Twin.bind (shake_squeeze_twin' hR (Safety.Shake.rateOf_ok B) (hk 3 0 0 0 0) (hk' 3 0 0 0 0) r.h.main) fun u v p => Twin.pure ⟨r.pos, r.total, r.m, p.2.2, r.h.unused, r.h.child, r.h.S, r.h.chunk, r.h.q⟩

end Digestpp.Proofs.Leak
