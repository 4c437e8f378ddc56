import Verif.Proofs.SafetyBlake2
import Verif.Proofs.Skein

/-! Memory safety of Skein objects. -/

namespace Digestpp.Proofs.Safety.Skein
open Model Model.Skein
open Proofs.Skein (FOk upd arr block_ok length_arr eq_arr)

variable {F : Fns} {T : Spec.Skein.Threefish}

structure I0 (nw hs : Nat) (s : Blk St) : Prop where
  m : s.m.length = 8 * nw
  p : s.h.p.length < 2 ^ 61
  n : s.h.n.length < 2 ^ 61
  k : s.h.k.length < 2 ^ 61
  hs : s.h.hs = hs

structure I (nw hs : Nat) (s : Blk St) : Prop extends I0 nw hs s where
  H : s.h.H.length = nw
  pos : s.pos ≤ 8 * nw
  hbk : s.h.squeezing = true → s.h.hbk.length = nw

/-- What the block function leaves alone: everything but `H` and the tweak. -/
def Keep (nw : Nat) (fr h : St) : Prop := ∃ H t0 t1, H.length = nw ∧ h = { fr with H := H, tweak0 := t0, tweak1 := t1 }

theorem Keep.refl {nw : Nat} {h : St} (hH : h.H.length = nw) : Keep nw h h := ⟨h.H, h.tweak0, h.tweak1, hH, rfl⟩

theorem block_safe (ok : FOk F T) (fr : St) (len : Nat) (b : Bytes) (h : St) (hb : b.length = 8 * T.nw) (hi : Keep T.nw fr h) :
    ∃ h', block F len b h = .ok h' ∧ Keep T.nw fr h' := by
  obtain ⟨H, t0, t1, hH, rfl⟩ := hi
  have e : ({ fr with H := H, tweak0 := t0, tweak1 := t1 } : St) = upd fr T.nw (fun i => H.getD i 0) t0 t1 := by
    unfold upd
    rw [← eq_arr T.nw H (fun i => H.getD i 0) hH (fun _ _ => rfl)]
  rw [e, block_ok ok len b hb]
  exact ⟨_, rfl, _, _, _, length_arr .., rfl⟩

theorem transform_safe (ok : FOk F T) (fr : St) (len : Nat) : SafeTransform (8 * T.nw) (8 * T.nw) (Keep T.nw fr) (transform F len) := by
  intro s data n hn hm hi
  obtain ⟨h', e, i⟩ := forBlocks_safe (inv := Keep T.nw fr) (step := fun _ b h => block F len b h)
    (fun _ b h hb hi => block_safe ok fr len b h hb hi) data n s.h hn hi
  exact ⟨h', s.m, hm, i, by unfold transform; rw [ok.nw, e]; rfl⟩

theorem transform_one (ok : FOk F T) (len : Nat) (m : Bytes) (s : Blk St) (hm : m.length = 8 * T.nw) (hH : s.h.H.length = T.nw)
    (hs : s.m.length = 8 * T.nw) : ∃ h' m', transform F len m 1 s = .ok { s with h := h', m := m' } ∧ m'.length = 8 * T.nw ∧ Keep T.nw s.h h' := by
  obtain ⟨h', m', hm', hi', e⟩ := transform_safe ok s.h len s m 1 (by omega) hs (Keep.refl hH)
  exact ⟨h', m', e, hm', hi'⟩

theorem nw_bounds (ok : FOk F T) : 4 ≤ T.nw ∧ T.nw ≤ 16 := ⟨ok.ge, ok.le⟩

theorem update_safe (ok : FOk F T) {hs : Nat} (s : Blk St) (d : Bytes) (h : I T.nw hs s) (hd : d.length < 2 ^ 63) :
    ∃ s', update F d s = .ok s' ∧ I T.nw hs s' ∧ ∃ H t0 t1, s'.h = { s.h with H := H, tweak0 := t0, tweak1 := t1 } := by
  have hw := nw_bounds ok
  obtain ⟨s', e, a, b, H, t0, t1, hH, c⟩ := absorbBytes_safe_le (z := 1) (by omega) (by omega) (by omega) (by omega)
    (transform_safe ok s.h (8 * T.nw)) d s h.m h.pos (Keep.refl h.H) hd
  refine ⟨s', by unfold update; rw [ok.nw]; exact e, ⟨⟨a, ?_, ?_, ?_, ?_⟩, ?_, by omega, ?_⟩, H, t0, t1, c⟩
  · rw [c]; exact h.p
  · rw [c]; exact h.n
  · rw [c]; exact h.k
  · rw [c]; exact h.hs
  · rw [c]; exact hH
  · rw [c]; exact h.hbk

theorem last_safe (ok : FOk F T) {hs : Nat} (s : Blk St) (h : I T.nw hs s) :
    ∃ s', last F s = .ok s' ∧ I T.nw hs s' ∧ ∃ H t0 t1, s'.h = { s.h with H := H, tweak0 := t0, tweak1 := t1 } := by
  have h1 : ∃ m, zeroTail (8 * F.nw) s.m s.pos = .ok m ∧ m.length = 8 * T.nw := by
    unfold zeroTail
    rw [ok.nw]
    split
    · obtain ⟨m, e, l⟩ := memset_safe s.m s.pos 0 (8 * T.nw - s.pos) (by rw [h.m]; omega)
      exact ⟨m, e, l.trans h.m⟩
    · exact ⟨s.m, rfl, h.m⟩
  obtain ⟨m, e, l⟩ := h1
  obtain ⟨h', m', e', l', H, t0, t1, hH, c⟩ := transform_one ok s.pos m
    { s with m := m, h := { s.h with tweak1 := s.h.tweak1 ||| (1 : BitVec 64) <<< 63 } } l h.H l
  refine ⟨_, (by unfold last; rw [e, ok_bind, e']), ?_⟩
  dsimp only at c ⊢
  refine ⟨⟨⟨l', ?_, ?_, ?_, ?_⟩, ?_, h.pos, ?_⟩, H, t0, t1, c⟩
  · rw [c]; exact h.p
  · rw [c]; exact h.n
  · rw [c]; exact h.k
  · rw [c]; exact h.hs
  · rw [c]; exact hH
  · rw [c]; exact h.hbk

theorem injectParameter_safe (ok : FOk F T) {hs : Nat} (p : Bytes) (code : BitVec 64) (s : Blk St) (h : I T.nw hs s) (hp : p.length < 2 ^ 63) :
    ∃ s', injectParameter F p code s = .ok s' ∧ I T.nw hs s' := by
  unfold injectParameter
  split
  · exact ⟨s, rfl, h⟩
  · obtain ⟨s1, e1, i1, _⟩ := update_safe ok { s with h := { s.h with tweak1 := code1 code } } p
      ⟨⟨h.m, h.p, h.n, h.k, h.hs⟩, h.H, h.pos, h.hbk⟩ hp
    obtain ⟨s2, e2, i2, _⟩ := last_safe ok s1 i1
    refine ⟨_, (by rw [e1, ok_bind, e2]; rfl), ?_⟩
    exact ⟨⟨i2.m, i2.p, i2.n, i2.k, i2.hs⟩, i2.H, Nat.zero_le _, nofun⟩

theorem config_safe (v : BitVec 64) (m : Bytes) (hm : 16 ≤ m.length) : ∃ m', config v m = .ok m' ∧ m'.length = m.length := by
  unfold config
  dsimp only
  have h0 := length_zeroBytes m
  obtain ⟨m1, e1, l1⟩ := setByte_safe (zeroBytes m) 0 0x53 (by omega)
  obtain ⟨m2, e2, l2⟩ := setByte_safe m1 1 0x48 (by omega)
  obtain ⟨m3, e3, l3⟩ := setByte_safe m2 2 0x41 (by omega)
  obtain ⟨m4, e4, l4⟩ := setByte_safe m3 3 0x33 (by omega)
  obtain ⟨m5, e5, l5⟩ := setByte_safe m4 4 0x01 (by omega)
  obtain ⟨m6, e6, l6⟩ := memcpyTo_safe m5 8 (bytes64 v) (by show 8 + 8 ≤ _; omega)
  exact ⟨m6, by rw [e1, ok_bind, e2, ok_bind, e3, ok_bind, e4, ok_bind, e5, ok_bind, e6], by omega⟩

theorem init_safe (ok : FOk F T) (xof : Bool) {hs : Nat} (s : Blk St) (h : I0 T.nw hs s) :
    ∃ s', init F xof s = .ok s' ∧ I T.nw hs s' := by
  have hw := nw_bounds ok
  unfold init
  dsimp only
  obtain ⟨s1, e1, i1⟩ := injectParameter_safe ok (hs := hs) s.h.k 0
    { s with pos := 0, total := 0, h := { s.h with squeezing := false, tweak0 := 0, H := List.replicate F.nw 0 } }
    ⟨⟨h.m, h.p, h.n, h.k, h.hs⟩, by show (List.replicate F.nw _).length = _; rw [List.length_replicate, ok.nw], Nat.zero_le _, nofun⟩
    (by have := h.k; omega)
  rw [e1, ok_bind]
  obtain ⟨m, em, lm⟩ := config_safe (if xof then (-1 : BitVec 64) else BitVec.ofNat 64 s1.h.hs) s1.m (by rw [i1.m]; omega)
  rw [em, ok_bind]
  obtain ⟨h', m', e', l', H, t0, t1, hH, c⟩ := transform_one ok 32 m
    { s1 with m := m, h := { s1.h with tweak1 := (1 : BitVec 64) <<< 62 ||| (4 : BitVec 64) <<< 56 ||| (1 : BitVec 64) <<< 63 } }
    (lm.trans i1.m) i1.H (lm.trans i1.m)
  rw [e', ok_bind]
  dsimp only at c ⊢
  subst c
  obtain ⟨s2, e2, i2⟩ := injectParameter_safe ok (hs := hs) s1.h.p 8
    { h := { s1.h with H := H, tweak0 := 0, tweak1 := code1 48 }, m := m', pos := 0, total := 0 }
    ⟨⟨l', i1.p, i1.n, i1.k, i1.hs⟩, hH, Nat.zero_le _, i1.hbk⟩ (by have := i1.p; omega)
  dsimp only at e2
  rw [e2, ok_bind]
  exact injectParameter_safe ok s2.h.n 20 s2 i2 (by have := i2.n; omega)

/-- The object while squeezing. -/
structure Sq (nw hs : Nat) (s : Blk St) : Prop extends I nw hs s where
  q : s.h.squeezing = true

theorem squeezeFirst_safe (ok : FOk F T) {hs : Nat} (n : Nat) (s : Blk St) (h : I T.nw hs s) :
    ∃ b s', squeezeFirst F n s = .ok (b, s') ∧ b.length ≤ n ∧ Sq T.nw hs s' := by
  unfold squeezeFirst
  rw [ok.nw]
  split
  · rename_i hq
    have h1 : ∃ s1, last F { s with h := { s.h with squeezing := true } } = .ok s1 ∧ s1.m.length = 8 * T.nw ∧
        I0 T.nw hs s1 ∧ s1.h.H.length = T.nw ∧ s1.h.squeezing = true := by
      have h1 : ∃ m, zeroTail (8 * F.nw) s.m s.pos = .ok m ∧ m.length = 8 * T.nw := by
        unfold zeroTail
        rw [ok.nw]
        split
        · obtain ⟨m, e, l⟩ := memset_safe s.m s.pos 0 (8 * T.nw - s.pos) (by rw [h.m]; omega)
          exact ⟨m, e, l.trans h.m⟩
        · exact ⟨s.m, rfl, h.m⟩
      obtain ⟨m, e, l⟩ := h1
      obtain ⟨h', m', e', l', H', t0', t1', hH', c'⟩ := transform_one ok s.pos m
        { s with m := m, h := { s.h with squeezing := true, tweak1 := s.h.tweak1 ||| (1 : BitVec 64) <<< 63 } } l h.H l
      refine ⟨_, (by unfold last; dsimp only; rw [e, ok_bind, e']), ?_⟩
      dsimp only at c' ⊢
      subst c'
      exact ⟨l', ⟨l', h.p, h.n, h.k, h.hs⟩, hH', rfl⟩
    obtain ⟨s1, e1, m1, i1, H1, q1⟩ := h1
    obtain ⟨m, e2, l2⟩ := memset_safe s1.m 0 0 (8 * T.nw) (by omega)
    rw [e1, ok_bind, e2, ok_bind]
    exact ⟨[], _, rfl, Nat.zero_le _, ⟨⟨l2.trans m1, i1.p, i1.n, i1.k, i1.hs⟩, H1, Nat.zero_le _, fun _ => H1⟩, q1⟩
  · rename_i hq
    have hq' : s.h.squeezing = true := by simpa using hq
    split
    · dsimp only
      obtain ⟨b, e, l⟩ := readBytes_safe (stores64 s.h.H) s.pos (min n (8 * T.nw - s.pos)) (by rw [length_stores64, h.H]; omega)
      rw [e, ok_bind]
      exact ⟨b, _, rfl, by omega, ⟨⟨h.m, h.p, h.n, h.k, h.hs⟩, h.H, by show s.pos + min n (8 * T.nw - s.pos) ≤ _; omega, h.hbk⟩, hq'⟩
    · exact ⟨[], s, rfl, Nat.zero_le _, h, hq'⟩

theorem squeezeLoop_safe (ok : FOk F T) {hs : Nat} (n : Nat) : ∀ fuel (out : Bytes) (s : Blk St), out.length ≤ n →
    n ≤ out.length + fuel → Sq T.nw hs s → ∃ b s', squeezeLoop F n fuel out s = .ok (b, s') ∧ b.length = n ∧ Sq T.nw hs s' := by
  have hw := nw_bounds ok
  intro fuel
  induction fuel with
  | zero => exact fun out s h1 h2 hq => ⟨out, s, rfl, by omega, hq⟩
  | succ fuel ih =>
    intro out s hl hf hq
    unfold squeezeLoop
    rw [ok.nw]
    split
    · dsimp only
      obtain ⟨m, e, l⟩ := memcpyTo_safe s.m 0 (bytes64 s.total) (by show 0 + 8 ≤ _; rw [hq.m]; omega)
      rw [e, ok_bind]
      obtain ⟨h', m', e', l', H', t0', t1', hH', c'⟩ := transform_one ok 8 m
        { s with m := m, pos := min (n - out.length) (8 * T.nw),
                 h := { s.h with tweak0 := 0, tweak1 := (255 : BitVec 64) <<< 56, H := s.h.hbk } }
        (l.trans hq.m) (hq.hbk hq.q) (l.trans hq.m)
      rw [e', ok_bind]
      dsimp only at c' ⊢
      subst c'
      dsimp only
      obtain ⟨b, e2, l2⟩ := readBytes_safe (stores64 H') 0 (min (n - out.length) (8 * T.nw)) (by rw [length_stores64, hH']; omega)
      rw [e2, ok_bind]
      exact ih _ _ (by rw [List.length_append]; omega) (by rw [List.length_append]; omega)
        ⟨⟨⟨l', hq.p, hq.n, hq.k, hq.hs⟩, hH', by show min _ _ ≤ _; omega, hq.hbk⟩, hq.q⟩
    · exact ⟨out, s, rfl, by omega, hq⟩

theorem squeeze_safe (ok : FOk F T) {hs : Nat} (n : Nat) (s : Blk St) (h : I T.nw hs s) :
    ∃ b s', squeeze F n s = .ok (b, s') ∧ b.length = n ∧ I T.nw hs s' := by
  obtain ⟨b, s1, e1, l1, q1⟩ := squeezeFirst_safe ok n s h
  obtain ⟨b2, s2, e2, l2, q2⟩ := squeezeLoop_safe ok n n b s1 l1 (by omega) q1
  exact ⟨b2, s2, by unfold squeeze; rw [e1]; exact e2, l2, q2.toI⟩

theorem clear_safe {hs nw : Nat} (s : Blk St) (h : I nw hs s) : ∃ s', clear F s = .ok s' ∧ I0 nw hs s' :=
  ⟨_, rfl, by show (zeroBytes s.m).length = _; rw [length_zeroBytes, h.m], (by decide : 0 < 2 ^ 61), (by decide : 0 < 2 ^ 61),
    (by decide : 0 < 2 ^ 61), h.hs⟩

theorem set_safe {hs nw : Nat} (s : Blk St) (p : SkeinParam) (h : I nw hs s) (hp : (Param.value p).length < 2 ^ 61) :
    ∃ t s', Model.Skein.set p s = .ok (t, s') ∧ (if t then I nw hs s' else I0 nw hs s') := by
  cases p with
  | personalization v => exact ⟨false, _, rfl, h.m, hp, h.n, h.k, h.hs⟩
  | nonce v => exact ⟨false, _, rfl, h.m, h.p, hp, h.k, h.hs⟩
  | key v => exact ⟨false, _, rfl, h.m, h.p, h.n, hp, h.hs⟩

theorem hash (ok : FOk F T) (hs : Nat) (h0 : 0 < hs / 8) : HashSafe (provider F) (I0 T.nw hs) (I T.nw hs) where
  sub := fun _ h => h.toI0
  init := fun s h => init_safe ok false s h
  update := fun s d h hd => let ⟨s', e, i, _⟩ := update_safe ok s d h hd; ⟨s', e, i⟩
  final := fun s h => by
    obtain ⟨b, s', e, l, _⟩ := squeeze_safe ok (s.h.hs / 8) s h
    refine ⟨b, ?_, l⟩
    show Model.Skein.final F s = _
    unfold Model.Skein.final
    rw [e]; rfl
  size := fun s h => by show 0 < s.h.hs / 8; rw [h.hs]; exact h0
  clear := clear_safe
  set := set_safe

theorem xof (ok : FOk F T) (hs : Nat) : XofSafe (xofProvider F) (I0 T.nw hs) (I T.nw hs) where
  sub := fun _ h => h.toI0
  init := fun s h => init_safe ok true s h
  update := fun s d h hd => let ⟨s', e, i, _⟩ := update_safe ok s d h hd; ⟨s', e, i⟩
  squeeze := fun s n h _ => squeeze_safe ok n s h
  clear := clear_safe
  set := set_safe

end Digestpp.Proofs.Safety.Skein
