import Verif.Proofs.Leak.XofTwin
import Verif.Proofs.SafetyBlake2

/-! BLAKE2: the trace of a whole computation. -/

namespace Digestpp.Proofs.Leak
open Model Properties Model.Blake2
variable {w : Nat} {T : Word w} {ld : Bytes → Nat → L (BitVec w)}

/-- What is known of the members of a BLAKE2 object. -/
abbrev Blake2St (hs : Nat) (q : Bool) (h : St w) : Prop := Safety.Blake2.Keep hs h ∧ h.squeezing = q

/-- The local arrays of `transform`. -/
abbrev _root_.Digestpp.Properties.Blake2Sized (k : Leak.Blake2.Stacks w) : Prop := Each Locals.Blake.Stack.Sized k

/-- Two objects that have absorbed, or given, the same number of bytes. -/
def Blake2Same (hs : Nat) (s s' : Blk (St w)) : Prop := ∃ q, Same (2 * w) (Blake2St hs q) s s'

/-- C66 for one of the word sizes. -/
def Blake2Trace (T : Word w) (ld : Bytes → Nat → L (BitVec w)) : Prop := ∀ n padding,
  SameTrace (fun c : Call (Leak.Blake2.Stacks w) (Blk (St w)) => Each Locals.Blake.Stack.Sized c.locals ∧ n * (2 * w) ≤ c.data.length ∧ c.obj.h.H.length = 8)
    (fun c => Leak.Blake2.transform T ld c.locals padding c.data n c.obj) (fun c => Blake2.transform T padding c.data n c.obj)

theorem blake2_keeps (p : Bool) (hs : Nat) (q : Bool) : SafeTransform (2 * w) (2 * w) (Blake2St hs q) (transform T p) := by
  intro s data n hn hm hi
  obtain ⟨h', e, i⟩ := forBlocks_safe (inv := Blake2St hs q) (step := fun blk b h => pure (block T p s.total blk b h))
    (fun _ b h _ hi => ⟨_, rfl, ⟨rfl, hi.1.2⟩, hi.2⟩) data n s.h hn hi
  exact ⟨h', s.m, hm, i, by unfold transform; rw [e]; rfl⟩

theorem blake2_twin (tr : Blake2Trace T ld) (p : Bool) (hs : Nat) (q : Bool) :
    TwinTransform (2 * w) (2 * w) (Blake2St hs q) Blake2Sized (fun k => Leak.Blake2.transform T ld k p) (transform T p) :=
  .of (blake2_keeps p hs q) fun n => trace_of (tr n p) (p := fun k d s => Blake2Sized k ∧ n * (2 * w) ≤ d.length ∧ Blake2St hs q s.h) (fun _ _ _ h => ⟨h.1, h.2.1, h.2.2.1.1⟩) |>.imp
    fun _ h k d s a b c => h k d s ⟨a, b, c⟩

theorem blake2_update_twin (g : Safety.Blake2.Good T) (tr : Blake2Trace T ld) {hs : Nat} {k k' : Nat → Leak.Blake2.Stacks w} {d d' : Bytes} {s s' : Blk (St w)} (hk : Each Blake2Sized k) (hk' : Each Blake2Sized k')
    (hd : d.length = d'.length) (hl : d.length < 2 ^ 63) (h : Blake2Same hs s s') :
    Twin (Blake2Same hs) (Leak.Blake2.update T ld k d s) (update T d s) (Leak.Blake2.update T ld k' d' s') (update T d' s') := by
  obtain ⟨q, h⟩ := h
  have hw := g.w2
  exact (absorbBytes_twin (blake2_twin tr false hs q) (z := 1) (by omega) (by omega) (by omega) hk hk' hd hl h).mono fun _ _ _ _ r => ⟨q, r⟩

theorem keyBlock_run {key k : Bytes} (hk : key.length = 2 * w) (h : k.length ≤ 2 * w) :
    Leak.Blake2.keyBlock w key k = .ok (k ++ List.replicate (2 * w - k.length) 0,
      [.store 0 k.length] ++ ([.branch (k.length ≠ 2 * w)] ++ if k.length = 2 * w then [] else [.store k.length (2 * w - k.length)])) := by
  have e1 : Leak.memcpyTo key 0 k = .ok (k ++ key.drop k.length, [.store 0 k.length]) := by
    unfold Leak.memcpyTo Model.memcpyTo
    rw [if_pos (by omega), Nat.zero_add]
    rfl
  refine bind_ok e1 (bind_ok (a := decide (k.length ≠ 2 * w)) (t := [.branch (k.length ≠ 2 * w)]) rfl ?_)
  by_cases h2 : k.length = 2 * w
  · rw [if_neg (by simpa using h2), if_pos h2, List.drop_of_length_le (by omega), h2, Nat.sub_self]
    rfl
  · rw [if_pos (by simpa using h2), if_neg h2]
    unfold Leak.memset Model.memset
    rw [if_pos (by rw [List.length_append, List.length_drop]; omega), List.take_append_of_le_length (Nat.le_refl _), List.take_length, List.drop_of_length_le (l := k ++ key.drop k.length) (by
      rw [List.length_append, List.length_drop]; omega), List.append_nil]
    rfl

theorem keyBlock_twin {key key' k k' : Bytes} (hk : key.length = 2 * w) (hk' : key'.length = 2 * w) (h : k.length = k'.length) :
    Twin (Sz (2 * w)) (Leak.Blake2.keyBlock w key k) (keyBlock w k) (Leak.Blake2.keyBlock w key' k') (keyBlock w k') := by
  intro a b ea eb
  by_cases hl : k.length ≤ 2 * w
  · have e1 := keyBlock_run hk hl
    have e2 := keyBlock_run (k := k') hk' (h ▸ hl)
    unfold keyBlock at ea eb
    rw [if_pos hl] at ea
    rw [if_pos (h ▸ hl)] at eb
    cases Except.ok.inj ea
    cases Except.ok.inj eb
    refine ⟨_, e1, by rw [e2, h], ?_, ?_⟩ <;> (rw [List.length_append, List.length_replicate]; omega)
  · unfold keyBlock at ea
    rw [if_neg hl] at ea
    cases ea

/-- What the trace of `init` depends on. -/
abbrev _root_.Digestpp.Properties.Blake2New (hs kl : Nat) (fanout nodedepth : BitVec 8) (s : Blk (St w)) : Prop :=
  s.m.length = 2 * w ∧ s.h.hs = hs ∧ s.h.k.length = kl ∧ s.h.fanout = fanout ∧ s.h.nodedepth = nodedepth

theorem blake2_init_twin (g : Safety.Blake2.Good T) (tr : Blake2Trace T ld) (kind : Kind) {hs kl : Nat} (hkl : kl ≤ w) {fo nd : BitVec 8} {k k' : (Nat → Leak.Blake2.Stacks w) × Bytes} {s s' : Blk (St w)}
    (hk : Each Blake2Sized k.1 ∧ k.2.length = 2 * w) (hk' : Each Blake2Sized k'.1 ∧ k'.2.length = 2 * w) (h : Blake2New hs kl fo nd s) (h' : Blake2New hs kl fo nd s') :
    Twin (Blake2Same hs) (Leak.Blake2.init T ld kind k s) (init T kind s) (Leak.Blake2.init T ld kind k' s') (init T kind s') := by
  have hw := g.w2
  have r : Blake2Same hs { s with pos := 0, total := 0, h := { s.h with H := initial T kind s.h, xoffset := 0, squeezing := false } }
      { s' with pos := 0, total := 0, h := { s'.h with H := initial T kind s'.h, xoffset := 0, squeezing := false } } :=
    ⟨false, rfl, rfl, ⟨h.1, h'.1⟩, ⟨⟨Safety.Blake2.length_initial g kind _, by show s.h.k.length ≤ w; omega, h.2.1⟩, rfl⟩,
      ⟨⟨Safety.Blake2.length_initial g kind _, by show s'.h.k.length ≤ w; omega, h'.2.1⟩, rfl⟩⟩
  refine Twin.branch (by show (s.h.fanout = 0 ∨ s.h.nodedepth = 0) ↔ (s'.h.fanout = 0 ∨ s'.h.nodedepth = 0); rw [h.2.2.2.1, h.2.2.2.2, h'.2.2.2.1, h'.2.2.2.2]) (fun _ _ => ?_) fun _ _ => Twin.pure r
  refine Twin.branch (by show s.h.k = [] ↔ s'.h.k = []; rw [← List.length_eq_zero_iff, ← List.length_eq_zero_iff, h.2.2.1, h'.2.2.1]) (fun _ _ => Twin.pure r) fun _ _ => ?_
  refine Twin.bind (keyBlock_twin hk.2 hk'.2 (by show s.h.k.length = s'.h.k.length; rw [h.2.2.1, h'.2.2.1])) fun a b rl => ?_
  exact blake2_update_twin g tr hk.1 hk'.1 (rl.1.trans rl.2.symm) (by rw [rl.1]; omega) r

theorem blake2_last_twin (tr : Blake2Trace T ld) {hs : Nat} {q : Bool} {k k' : Leak.Blake2.Stacks w} {s s' : Blk (St w)} (hk : Blake2Sized k) (hk' : Blake2Sized k') (h : Same (2 * w) (Blake2St hs q) s s') :
    Twin (Same (2 * w) (Blake2St hs q)) (Leak.Blake2.lastBlock T ld k s) (lastBlock T s) (Leak.Blake2.lastBlock T ld k' s') (lastBlock T s') :=
  Twin.bind (zeroRest_twin h.m h.pos) fun m m' rm =>
    blake2_twin tr true hs q k k' m m' 1 _ _ hk hk' (by rw [rm.1]; omega) (by rw [rm.2]; omega) ⟨h.pos, h.total, rm, h.h, h.h'⟩

/-- Bytes of the same number and objects related by `R`. -/
abbrev OutSame {S : Type} (R : S → S → Prop) (x y : Bytes × S) : Prop := x.1.length = y.1.length ∧ R x.2 y.2

theorem blake2_first_twin (g : Safety.Blake2.Good T) (tr : Blake2Trace T ld) (kind : Kind) {hs n : Nat} {k k' : Leak.Blake2.Stacks w} {s s' : Blk (St w)} (hk : Blake2Sized k) (hk' : Blake2Sized k')
    (h : Blake2Same hs s s') :
    Twin (OutSame (Same (2 * w) (Blake2St hs true))) (Leak.Blake2.squeezeFirst T ld kind k n s) (squeezeFirst T kind n s) (Leak.Blake2.squeezeFirst T ld kind k' n s') (squeezeFirst T kind n s') := by
  obtain ⟨q, h⟩ := h
  refine Twin.branch (by rw [h.h.2, h.h'.2]) (fun hq _ => ?_) fun hq _ => ?_
  · refine Twin.bind (blake2_last_twin tr (q := true) hk hk' ⟨h.pos, by dsimp only; rw [h.pos, h.total], h.m, ⟨h.h.1, rfl⟩, ⟨h.h'.1, rfl⟩⟩) fun a b r => ?_
    refine Twin.bind (Twin.memcpyTo r.m rfl (by rw [g.stores _ r.h.1.1, g.stores _ r.h'.1.1])) fun m m' rm => ?_
    exact Twin.pure ⟨rfl, r.pos, r.total, rm, r.h, r.h'⟩
  · have hq : q = true := by
      rw [h.h.2] at hq
      cases q
      · exact absurd rfl hq
      · rfl
    subst hq
    refine Twin.branch (by rw [h.pos]) (fun _ _ => ?_) fun _ _ => Twin.pure ⟨rfl, h⟩
    refine Twin.bind (Twin.readBytes h.pos (by rw [h.pos])) fun a b r => Twin.pure ⟨r.1.trans r.2.symm, ?_, h.total, h.m, h.h, h.h'⟩
    show s.pos + min n (w - s.pos) = s'.pos + min n (w - s'.pos)
    rw [h.pos]

theorem blake2_loop_twin (g : Safety.Blake2.Good T) (tr : Blake2Trace T ld) (kind : Kind) {hs n : Nat} : ∀ (fuel : Nat) (k k' : Nat → Leak.Blake2.Stacks w) (o o' : Bytes) (s s' : Blk (St w)),
    Each Blake2Sized k → Each Blake2Sized k' → o.length = o'.length → Same (2 * w) (Blake2St hs true) s s' →
    Twin (OutSame (Same (2 * w) (Blake2St hs true))) (Leak.Blake2.squeezeLoop T ld kind n fuel k o s) (squeezeLoop T kind n fuel o s)
      (Leak.Blake2.squeezeLoop T ld kind n fuel k' o' s') (squeezeLoop T kind n fuel o' s')
  | 0, k, k', o, o', s, s', hk, hk', ho, h => Twin.seen (by rw [ho]) (Twin.pure ⟨ho, h⟩)
  | fuel + 1, k, k', o, o', s, s', hk, hk', ho, h => by
    refine Twin.branch (by rw [ho]) (fun _ _ => ?_) fun _ _ => Twin.pure ⟨ho, h⟩
    refine Twin.bind (Twin.memset h.m rfl rfl) fun m m' rm => ?_
    refine Twin.bind (blake2_twin tr true hs true (k 0) (k' 0) m m' 1 _ _ (hk 0) (hk' 0) (by rw [rm.1]; omega) (by rw [rm.2]; omega)
      ⟨h.pos, rfl, rm, ⟨⟨Safety.Blake2.length_initX g .., h.h.1.2⟩, h.h.2⟩, ⟨⟨Safety.Blake2.length_initX g .., h.h'.1.2⟩, h.h'.2⟩⟩) fun a b r => ?_
    refine Twin.bind (Twin.readBytes rfl (by rw [ho])) fun c c' rc => ?_
    exact blake2_loop_twin g tr kind fuel _ _ _ _ _ _ (fun i => hk (i + 1)) (fun i => hk' (i + 1)) (by rw [List.length_append, List.length_append, ho, rc.1, rc.2])
      ⟨by show min _ _ = min _ _; rw [ho], r.total, r.m, r.h, r.h'⟩

theorem blake2_squeeze_twin (g : Safety.Blake2.Good T) (tr : Blake2Trace T ld) (kind : Kind) {hs n : Nat} {k k' : Nat → Leak.Blake2.Stacks w} {s s' : Blk (St w)} (hk : Each Blake2Sized k)
    (hk' : Each Blake2Sized k') (h : Blake2Same hs s s') :
    Twin (fun x y => Blake2Same hs x.2 y.2) (Leak.Blake2.squeeze T ld kind k n s) (squeeze T kind n s) (Leak.Blake2.squeeze T ld kind k' n s') (squeeze T kind n s') :=
  Twin.bind (blake2_first_twin g tr kind (hk 0) (hk' 0) h) fun a b r =>
    (blake2_loop_twin g tr kind n _ _ a.1 b.1 a.2 b.2 (fun i => hk (i + 1)) (fun i => hk' (i + 1)) r.1 r.2).mono fun _ _ _ _ r => ⟨true, r.2⟩

theorem blake2_final_twin (g : Safety.Blake2.Good T) (tr : Blake2Trace T ld) (kind : Kind) {hs : Nat} {k k' : Nat → Leak.Blake2.Stacks w} {s s' : Blk (St w)} (hk : Each Blake2Sized k)
    (hk' : Each Blake2Sized k') (h : Blake2Same hs s s') : Twin Any (Leak.Blake2.final T ld kind k s) (final T kind 0 s) (Leak.Blake2.final T ld kind k' s') (final T kind 0 s') := by
  obtain ⟨q, h⟩ := h
  have r : Same (2 * w) (Blake2St hs q) { s with total := s.total + BitVec.ofNat 64 (s.pos * 8) } { s' with total := s'.total + BitVec.ofNat 64 (s'.pos * 8) } :=
    ⟨h.pos, by show s.total + _ = s'.total + _; rw [h.pos, h.total], h.m, h.h, h.h'⟩
  have e : ∀ s : Blk (St w), final T kind 0 s = if kind = .hash then (lastBlock T { s with total := s.total + BitVec.ofNat 64 (s.pos * 8) } >>= fun t => readBytes (T.stores t.h.H) 0 (s.h.hs / 8))
      else (squeeze T kind (s.h.hs / 8) { s with total := s.total + BitVec.ofNat 64 (s.pos * 8) } >>= fun r => pure r.1) := fun _ => rfl
  rw [e, e]
  refine Twin.ite Iff.rfl (fun _ _ => ?_) fun _ _ => ?_
  · refine Twin.bind (blake2_last_twin tr (hk 0) (hk' 0) r) fun a b ra => ?_
    rw [h.h.1.2.2, h.h'.1.2.2, ra.h.1.2.2, ra.h'.1.2.2]
    exact (Twin.readBytes rfl rfl).mono fun _ _ _ _ _ => trivial
  · show Twin Any (Leak.Blake2.squeeze T ld kind k (s.h.hs / 8) _ >>= _) _ (Leak.Blake2.squeeze T ld kind k' (s'.h.hs / 8) _ >>= _) _
    rw [h.h.1.2.2, h.h'.1.2.2]
    exact Twin.bind (blake2_squeeze_twin g tr kind hk hk' ⟨q, r⟩) fun _ _ _ => Twin.pure trivial

end Digestpp.Proofs.Leak
