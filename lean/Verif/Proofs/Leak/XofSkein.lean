import Verif.Proofs.Leak.XofBlake2
import Verif.Proofs.SafetySkein
import Verif.Proofs.SafetyAscon

/-! Skein: the trace of a whole computation. -/

namespace Digestpp.Proofs.Leak
open Model Properties Model.Skein
variable {F : Fns} {T : Spec.Skein.Threefish}

/-- The sizes the trace depends on: the hash size and the lengths of the strings. -/
structure _root_.Digestpp.Properties.SkeinSizes where
  hs : Nat
  p : Nat
  n : Nat
  k : Nat

/-- What the trace of `init` depends on. -/
abbrev _root_.Digestpp.Properties.SkeinNew (z : SkeinSizes) (h : St) : Prop := h.hs = z.hs ∧ h.p.length = z.p ∧ h.n.length = z.n ∧ h.k.length = z.k

/-- What is known of the members of a Skein object. -/
abbrev SkeinSt (nw : Nat) (z : SkeinSizes) (b q : Bool) (h : St) : Prop :=
  h.H.length = nw ∧ (b = true → h.hbk.length = nw) ∧ h.squeezing = q ∧ SkeinNew z h

/-- The local arrays of `transform`. -/
abbrev _root_.Digestpp.Properties.SkeinSized (F : Fns) (k : Leak.Skein.Stacks) : Prop :=
  Each (Locals.Skein.Stack.Sized F) k.1 ∧ k.2.1.length = F.nw + 1 ∧ k.2.2.length = 3

/-- Two objects that have absorbed, or given, the same number of bytes. -/
def SkeinSame (nw : Nat) (z : SkeinSizes) (s s' : Blk St) : Prop := ∃ q, Same (8 * nw) (SkeinSt nw z q q) s s'

theorem skein_keeps (ok : Skein.FOk F T) (len : Nat) (z : SkeinSizes) (b q : Bool) : SafeTransform (8 * T.nw) (8 * T.nw) (SkeinSt T.nw z b q) (transform F len) := by
  intro s data n hn hm hi
  obtain ⟨h', m', hm', ⟨H, t0, t1, hH, c⟩, e⟩ := Safety.Skein.transform_safe ok s.h len s data n hn hm (.refl hi.1)
  exact ⟨h', m', hm', c ▸ ⟨hH, hi.2⟩, e⟩

theorem skein_twin (hF : F = f4 ∨ F = f8 ∨ F = f16) (ok : Skein.FOk F T) (len : Nat) (z : SkeinSizes) (b q : Bool) :
    TwinTransform (8 * T.nw) (8 * T.nw) (SkeinSt T.nw z b q) (SkeinSized F) (Leak.Skein.call F len) (transform F len) :=
  .of (skein_keeps ok len z b q) fun n =>
    trace_of (skein_trace F hF len n) (p := fun k d s => SkeinSized F k ∧ n * (8 * T.nw) ≤ d.length ∧ SkeinSt T.nw z b q s.h) (fun _ _ _ h => ⟨h.1, ok.nw ▸ h.2.1, ok.nw ▸ h.2.2.1⟩) |>.imp
    fun _ h k d s x y c => h k d s ⟨x, y, c⟩

theorem skein_update_twin (hF : F = f4 ∨ F = f8 ∨ F = f16) (ok : Skein.FOk F T) {z : SkeinSizes} {b q : Bool} {k k' : Nat → Leak.Skein.Stacks} {d d' : Bytes} {s s' : Blk St}
    (hk : Each (SkeinSized F) k) (hk' : Each (SkeinSized F) k') (hd : d.length = d'.length) (hl : d.length < 2 ^ 63) (h : Same (8 * T.nw) (SkeinSt T.nw z b q) s s') :
    Twin (Same (8 * T.nw) (SkeinSt T.nw z b q)) (Leak.Skein.update F k d s) (update F d s) (Leak.Skein.update F k' d' s') (update F d' s') := by
  have hw := Safety.Skein.nw_bounds ok
  unfold Leak.Skein.update update
  rw [ok.nw]
  exact absorbBytes_twin (skein_twin hF ok _ z b q) (z := 1) (by omega) (by omega) (by omega) hk hk' hd hl h

theorem skein_zeroTail_twin {bs ms : Nat} {p q : Bytes} {pos pos' : Nat} (hm : Sz ms p q) (hp : pos = pos') :
    Twin (Sz ms) (Leak.Skein.zeroTail bs p pos) (zeroTail bs p pos) (Leak.Skein.zeroTail bs q pos') (zeroTail bs q pos') := by
  subst hp
  exact Twin.branch Iff.rfl (fun _ _ => Twin.memset hm rfl rfl) fun _ _ => Twin.pure hm

theorem skein_last_twin (hF : F = f4 ∨ F = f8 ∨ F = f16) (ok : Skein.FOk F T) {z : SkeinSizes} {b q : Bool} {k k' : Leak.Skein.Stacks} {s s' : Blk St} (hk : SkeinSized F k) (hk' : SkeinSized F k')
    (h : Same (8 * T.nw) (SkeinSt T.nw z b q) s s') :
    Twin (Same (8 * T.nw) (SkeinSt T.nw z b q)) (Leak.Skein.last F k s) (last F s) (Leak.Skein.last F k' s') (last F s') := by
  unfold Leak.Skein.last last
  rw [h.pos]
  exact Twin.bind (skein_zeroTail_twin h.m rfl) fun m m' rm =>
    skein_twin hF ok s'.pos z b q k k' m m' 1 _ _ hk hk' (by rw [rm.1]; omega) (by rw [rm.2]; omega) ⟨rfl, h.total, rm, h.h, h.h'⟩

theorem skein_inject_twin (hF : F = f4 ∨ F = f8 ∨ F = f16) (ok : Skein.FOk F T) {z : SkeinSizes} {k k' : (Nat → Leak.Skein.Stacks) × Leak.Skein.Stacks} {p p' : Bytes} {code : BitVec 64} {s s' : Blk St}
    (hk : Each (SkeinSized F) k.1 ∧ SkeinSized F k.2) (hk' : Each (SkeinSized F) k'.1 ∧ SkeinSized F k'.2) (hp : p.length = p'.length) (hl : p.length < 2 ^ 63) (h : Same (8 * T.nw) (SkeinSt T.nw z false false) s s') :
    Twin (Same (8 * T.nw) (SkeinSt T.nw z false false)) (Leak.Skein.injectParameter F k p code s) (injectParameter F p code s) (Leak.Skein.injectParameter F k' p' code s') (injectParameter F p' code s') := by
  refine Twin.branch (by rw [← List.length_eq_zero_iff, ← List.length_eq_zero_iff, hp]) (fun _ _ => Twin.pure h) fun _ _ => ?_
  refine Twin.bind (skein_update_twin hF ok hk.1 hk'.1 hp hl ⟨h.pos, h.total, h.m, h.h, h.h'⟩) fun a b r => ?_
  refine Twin.bind (skein_last_twin hF ok hk.2 hk'.2 r) fun a b r => ?_
  exact Twin.pure ⟨rfl, rfl, r.m, ⟨r.h.1, nofun, rfl, r.h.2.2.2⟩, ⟨r.h'.1, nofun, rfl, r.h'.2.2.2⟩⟩

theorem skein_config_twin {ms : Nat} {v v' : BitVec 64} {p q : Bytes} (hm : Sz ms p q) : Twin (Sz ms) (Leak.Skein.config v p) (config v p) (Leak.Skein.config v' q) (config v' q) := by
  have h0 : Sz ms (zeroBytes p) (zeroBytes q) := ⟨(Safety.length_zeroBytes p).trans hm.1, (Safety.length_zeroBytes q).trans hm.2⟩
  exact Twin.bind (Twin.setByte h0 rfl) fun _ _ r => Twin.bind (Twin.setByte r rfl) fun _ _ r => Twin.bind (Twin.setByte r rfl) fun _ _ r =>
    Twin.bind (Twin.setByte r rfl) fun _ _ r => Twin.bind (Twin.setByte r rfl) fun _ _ r => Twin.memcpyTo r rfl rfl

theorem skein_init_twin (hF : F = f4 ∨ F = f8 ∨ F = f16) (ok : Skein.FOk F T) (xof : Bool) {z : SkeinSizes} (hz : z.k < 2 ^ 63 ∧ z.p < 2 ^ 63 ∧ z.n < 2 ^ 63)
    {k k' : Nat → (Nat → Leak.Skein.Stacks) × Leak.Skein.Stacks} {s s' : Blk St} (hk : ∀ i, Each (SkeinSized F) (k i).1 ∧ SkeinSized F (k i).2) (hk' : ∀ i, Each (SkeinSized F) (k' i).1 ∧ SkeinSized F (k' i).2)
    (hm : Sz (8 * T.nw) s.m s'.m) (h : SkeinNew z s.h) (h' : SkeinNew z s'.h) :
    Twin (Same (8 * T.nw) (SkeinSt T.nw z false false)) (Leak.Skein.init F xof k s) (init F xof s) (Leak.Skein.init F xof k' s') (init F xof s') := by
  have r0 : Same (8 * T.nw) (SkeinSt T.nw z false false) { s with pos := 0, total := 0, h := { s.h with squeezing := false, tweak0 := 0, H := List.replicate F.nw 0 } }
      { s' with pos := 0, total := 0, h := { s'.h with squeezing := false, tweak0 := 0, H := List.replicate F.nw 0 } } :=
    ⟨rfl, rfl, hm, ⟨by rw [← ok.nw]; exact List.length_replicate, nofun, rfl, h⟩, ⟨by rw [← ok.nw]; exact List.length_replicate, nofun, rfl, h'⟩⟩
  refine Twin.bind (skein_inject_twin hF ok (hk 0) (hk' 0) (h.2.2.2.trans h'.2.2.2.symm) (by show s.h.k.length < _; rw [h.2.2.2]; exact hz.1) r0) fun a b r => ?_
  refine Twin.bind (skein_config_twin r.m) fun m m' rm => ?_
  refine Twin.bind (skein_twin hF ok 32 z false false (k 1).2 (k' 1).2 m m' 1 _ _ (hk 1).2 (hk' 1).2 (by rw [rm.1]; omega) (by rw [rm.2]; omega) ⟨r.pos, r.total, rm, r.h, r.h'⟩) fun c d r => ?_
  have r1 : Same (8 * T.nw) (SkeinSt T.nw z false false) { c with pos := 0, total := 0, h := { c.h with tweak0 := 0, tweak1 := code1 48 } } { d with pos := 0, total := 0, h := { d.h with tweak0 := 0, tweak1 := code1 48 } } :=
    ⟨rfl, rfl, r.m, r.h, r.h'⟩
  have hp := r.h.2.2.2.2.1
  have hp' := r.h'.2.2.2.2.1
  refine Twin.bind (skein_inject_twin hF ok (hk 2) (hk' 2) (hp.trans hp'.symm) (by show c.h.p.length < _; rw [hp]; exact hz.2.1) r1) fun a b r => ?_
  have hn := r.h.2.2.2.2.2.1
  have hn' := r.h'.2.2.2.2.2.1
  exact skein_inject_twin hF ok (hk 3) (hk' 3) (hn.trans hn'.symm) (by rw [hn]; exact hz.2.2) r

theorem skein_first_twin (hF : F = f4 ∨ F = f8 ∨ F = f16) (ok : Skein.FOk F T) {z : SkeinSizes} {n : Nat} {k k' : Leak.Skein.Stacks} {s s' : Blk St} (hk : SkeinSized F k) (hk' : SkeinSized F k')
    (h : SkeinSame T.nw z s s') :
    Twin (OutSame (Same (8 * T.nw) (SkeinSt T.nw z true true))) (Leak.Skein.squeezeFirst F k n s) (squeezeFirst F n s) (Leak.Skein.squeezeFirst F k' n s') (squeezeFirst F n s') := by
  obtain ⟨q, h⟩ := h
  refine Twin.branch (by rw [h.h.2.2.1, h.h'.2.2.1]) (fun hq _ => ?_) fun hq _ => ?_
  · refine Twin.bind (skein_last_twin hF ok (z := z) (b := false) (q := true) hk hk' ⟨h.pos, h.total, h.m, ⟨h.h.1, nofun, rfl, h.h.2.2.2⟩, ⟨h.h'.1, nofun, rfl, h.h'.2.2.2⟩⟩) fun a b r => ?_
    refine Twin.bind (Twin.memset r.m rfl rfl) fun m m' rm => ?_
    exact Twin.pure ⟨rfl, rfl, rfl, rm, ⟨r.h.1, fun _ => r.h.1, r.h.2.2⟩, ⟨r.h'.1, fun _ => r.h'.1, r.h'.2.2⟩⟩
  · have hq : q = true := by
      rw [h.h.2.2.1] at hq
      cases q
      · exact absurd rfl hq
      · rfl
    subst hq
    refine Twin.branch (by rw [h.pos]) (fun _ _ => ?_) fun _ _ => Twin.pure ⟨rfl, h⟩
    refine Twin.bind (Twin.readBytes h.pos (by rw [h.pos])) fun a b r => Twin.pure ⟨r.1.trans r.2.symm, ?_, h.total, h.m, h.h, h.h'⟩
    show s.pos + min n (8 * F.nw - s.pos) = s'.pos + min n (8 * F.nw - s'.pos)
    rw [h.pos]

theorem skein_loop_twin (hF : F = f4 ∨ F = f8 ∨ F = f16) (ok : Skein.FOk F T) {z : SkeinSizes} {n : Nat} : ∀ (fuel : Nat) (k k' : Nat → Leak.Skein.Stacks) (o o' : Bytes) (s s' : Blk St),
    Each (SkeinSized F) k → Each (SkeinSized F) k' → o.length = o'.length → Same (8 * T.nw) (SkeinSt T.nw z true true) s s' →
    Twin (OutSame (Same (8 * T.nw) (SkeinSt T.nw z true true))) (Leak.Skein.squeezeLoop F n fuel k o s) (squeezeLoop F n fuel o s)
      (Leak.Skein.squeezeLoop F n fuel k' o' s') (squeezeLoop F n fuel o' s')
  | 0, k, k', o, o', s, s', hk, hk', ho, h => Twin.seen (by rw [ho]) (Twin.pure ⟨ho, h⟩)
  | fuel + 1, k, k', o, o', s, s', hk, hk', ho, h => by
    refine Twin.branch (by rw [ho]) (fun _ _ => ?_) fun _ _ => Twin.pure ⟨ho, h⟩
    refine Twin.bind (Twin.memcpyTo h.m rfl rfl) fun m m' rm => ?_
    refine Twin.bind (skein_twin hF ok 8 z true true (k 0) (k' 0) m m' 1 _ _ (hk 0) (hk' 0) (by rw [rm.1]; omega) (by rw [rm.2]; omega)
      ⟨by show min _ _ = min _ _; rw [ho], h.total, rm, ⟨h.h.2.1 rfl, h.h.2⟩, ⟨h.h'.2.1 rfl, h.h'.2⟩⟩) fun a b r => ?_
    refine Twin.bind (Twin.readBytes rfl (by rw [ho])) fun c c' rc => ?_
    exact skein_loop_twin hF ok fuel _ _ _ _ _ _ (fun i => hk (i + 1)) (fun i => hk' (i + 1)) (by rw [List.length_append, List.length_append, ho, rc.1, rc.2])
      ⟨r.pos, by show a.total + 1 = b.total + 1; rw [r.total], r.m, r.h, r.h'⟩

theorem skein_squeeze_twin (hF : F = f4 ∨ F = f8 ∨ F = f16) (ok : Skein.FOk F T) {z : SkeinSizes} {n : Nat} {k k' : Nat → Leak.Skein.Stacks} {s s' : Blk St} (hk : Each (SkeinSized F) k)
    (hk' : Each (SkeinSized F) k') (h : SkeinSame T.nw z s s') :
    Twin (fun x y => SkeinSame T.nw z x.2 y.2) (Leak.Skein.squeeze F k n s) (squeeze F n s) (Leak.Skein.squeeze F k' n s') (squeeze F n s') :=
  Twin.bind (skein_first_twin hF ok (hk 0) (hk' 0) h) fun a b r =>
    (skein_loop_twin hF ok n _ _ a.1 b.1 a.2 b.2 (fun i => hk (i + 1)) (fun i => hk' (i + 1)) r.1 r.2).mono fun _ _ _ _ r => ⟨true, r.2⟩

theorem skein_final_twin (hF : F = f4 ∨ F = f8 ∨ F = f16) (ok : Skein.FOk F T) {z : SkeinSizes} {k k' : Nat → Leak.Skein.Stacks} {s s' : Blk St} (hk : Each (SkeinSized F) k)
    (hk' : Each (SkeinSized F) k') (h : SkeinSame T.nw z s s') : Twin Any (Leak.Skein.final F k s) (final F s) (Leak.Skein.final F k' s') (final F s') := by
  unfold Leak.Skein.final final
  have e : s.h.hs = s'.h.hs := by
    obtain ⟨q, h⟩ := h
    exact h.h.2.2.2.1.trans h.h'.2.2.2.1.symm
  rw [e]
  exact Twin.bind (skein_squeeze_twin hF ok hk hk' h) fun _ _ _ => Twin.pure trivial

end Digestpp.Proofs.Leak
