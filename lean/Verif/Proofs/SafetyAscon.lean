import Verif.Proofs.SafetyShake
import Verif.Model.Ascon
import Verif.Model.Esch

/-! Memory safety of Ascon and Esch objects. -/

namespace Digestpp.Proofs.Safety
open Model

theorem length_zeroBytes (m : Bytes) : (zeroBytes m).length = m.length := List.length_replicate ..

namespace Ascon
open Model.Ascon

structure I0 (s : Blk St) : Prop where
  m : s.m.length = 64
  H : s.h.H.length = 5
  Z : s.h.Z.length < 2 ^ 61

structure I (s : Blk St) : Prop extends I0 s where
  pos : s.pos ≤ 8
  absorbing : s.h.squeezing = false → s.pos < 8

theorem length_round (H : List (BitVec 64)) (i : Nat) : (round H i).length = H.length := by
  simp only [round, List.length_set]

theorem length_absorbBlock (b : Bytes) (H : List (BitVec 64)) : (absorbBlock b H).length = H.length := by
  unfold absorbBlock
  have : ∀ (l : List Nat) (H : List (BitVec 64)), (l.foldl round H).length = H.length := by
    intro l
    induction l with
    | nil => exact fun _ => rfl
    | cons i l ih => intro H; rw [List.foldl_cons, ih, length_round]
  rw [this, List.length_set]

/-- What `transform` leaves alone. -/
def Keep (Z : Bytes) (q : Bool) (h : St) : Prop := h.H.length = 5 ∧ h.Z = Z ∧ h.squeezing = q

theorem transform_ok (data : Bytes) (n : Nat) (s : Blk St) (hn : n * 8 ≤ data.length) (hH : s.h.H.length = 5) :
    ∃ H, transform data n s = .ok { s with h := { s.h with H := H } } ∧ H.length = 5 := by
  obtain ⟨H, e, l⟩ := forBlocks_safe (inv := fun H => H.length = 5) (step := fun _ b H => pure (absorbBlock b H))
    (fun _ b H _ hi => ⟨_, rfl, by rw [length_absorbBlock]; exact hi⟩) data n s.h.H hn hH
  exact ⟨H, by unfold transform; rw [e]; rfl, l⟩

theorem transform_safe (Z : Bytes) (q : Bool) : SafeTransform 8 64 (Keep Z q) transform := by
  intro s data n hn hm hi
  obtain ⟨H, e, l⟩ := transform_ok data n s hn hi.1
  exact ⟨{ s.h with H := H }, s.m, hm, ⟨l, hi.2⟩, e⟩

theorem update_safe (s : Blk St) (d : Bytes) (h : I s) (hd : d.length < 2 ^ 63) :
    ∃ s', update d s = .ok s' ∧ I s' ∧ s'.h.Z = s.h.Z := by
  obtain ⟨s', e, a, b, c⟩ := absorbBytes_safe_le (z := 0) (by omega) (by omega) (by omega) (by omega)
    (transform_safe s.h.Z s.h.squeezing) d s h.m h.pos ⟨h.H, rfl, rfl⟩ hd
  refine ⟨s', e, ⟨⟨a, c.1, ?_⟩, by omega, fun _ => by omega⟩, c.2.1⟩
  rw [c.2.1]; exact h.Z

theorem init_safe (k : Kind) (s : Blk St) (h : I0 s) : ∃ s', init k s = .ok s' ∧ I s' ∧ s'.h.Z = s.h.Z := by
  have hb : I (initFields k s) := by
    refine ⟨⟨?_, ?_, h.Z⟩, Nat.zero_le _, fun _ => by show 0 < 8; decide⟩
    · show (zeroBytes s.m).length = _
      rw [length_zeroBytes]; exact h.m
    · cases k <;> rfl
  have hZ : (initFields k s).h.Z = s.h.Z := rfl
  have hc : ∃ s', initCustom (initFields k s) = .ok s' ∧ I s' ∧ s'.h.Z = s.h.Z := by
    unfold initCustom
    dsimp only
    rw [hZ]
    obtain ⟨s1, e1, i1, z1⟩ := update_safe _ (bytes64 (BitVec.ofNat 64 (s.h.Z.length * 8))) hb
      (by show 8 < 2 ^ 63; decide)
    have h2 : ∃ s2, (if !s.h.Z.isEmpty then update s.h.Z s1 else pure s1) = .ok s2 ∧ I s2 ∧ s2.h.Z = s1.h.Z := by
      split
      · exact update_safe _ _ i1 (by have := h.Z; omega)
      · exact ⟨s1, rfl, i1, rfl⟩
    obtain ⟨s2, e2, i2, z2⟩ := h2
    obtain ⟨z, ez, lz⟩ := readBytes_safe (bytes64 1) 0 (8 - s.h.Z.length % 8) (by show 0 + (8 - s.h.Z.length % 8) ≤ 8; omega)
    obtain ⟨s3, e3, i3, z3⟩ := update_safe s2 z i2 (by omega)
    refine ⟨s3, ?_, i3, by rw [z3, z2, z1]; rfl⟩
    rw [e1, ok_bind, e2, ok_bind, ez, ok_bind, e3]
  cases k with
  | cxof => exact hc
  | hash => exact ⟨_, rfl, hb, rfl⟩
  | xof => exact ⟨_, rfl, hb, rfl⟩

/-- The object while squeezing. -/
def Sq (Z : Bytes) (s : Blk St) : Prop := s.m.length = 64 ∧ s.pos ≤ 8 ∧ s.h.H.length = 5 ∧ s.h.squeezing = true ∧ s.h.Z = Z

theorem squeezeFirst_safe (hs : Nat) (s : Blk St) (h : I s) : ∃ b s', squeezeFirst hs s = .ok (b, s') ∧ b.length ≤ hs ∧ Sq s.h.Z s' := by
  have hm := h.m
  have hpos := h.pos
  unfold squeezeFirst
  by_cases hq : s.h.squeezing = true
  · rw [hq]
    simp only [Bool.not_true, Bool.false_eq_true, if_false]
    split
    · obtain ⟨b, e, l⟩ := readBytes_safe (stores64 s.h.H) s.pos (min hs (8 - s.pos)) (by rw [length_stores64, h.H]; omega)
      rw [e, ok_bind]
      exact ⟨b, _, rfl, by omega, h.m, by show s.pos + min hs (8 - s.pos) ≤ _; omega, h.H, hq, rfl⟩
    · split
      · obtain ⟨H, e, l⟩ := transform_ok s.m 1 s (by omega) h.H
        rw [e, ok_bind]
        exact ⟨[], _, rfl, Nat.zero_le _, h.m, h.pos, l, hq, rfl⟩
      · exact ⟨[], _, rfl, Nat.zero_le _, h.m, h.pos, h.H, hq, rfl⟩
  · have hq' : s.h.squeezing = false := by simpa using hq
    have hp := h.absorbing hq'
    rw [hq']
    simp only [Bool.not_false, if_true]
    obtain ⟨m1, e1, l1⟩ := setByte_safe s.m s.pos 1 (by omega)
    have h2 : ∃ m2, (if 8 ≠ s.pos + 1 then memset m1 (s.pos + 1) 0 (szSub 8 (s.pos + 1)) else pure m1) = .ok m2 ∧ m2.length = 64 := by
      split
      · rw [szSub_eq _ _ (by omega) (by unfold szMod; omega)]
        obtain ⟨m2, e2, l2⟩ := memset_safe m1 (s.pos + 1) 0 (8 - (s.pos + 1)) (by omega)
        exact ⟨m2, e2, by omega⟩
      · exact ⟨m1, rfl, by omega⟩
    obtain ⟨m2, e2, l2⟩ := h2
    obtain ⟨H, e3, l3⟩ := transform_ok m2 1 { s with m := m2, pos := s.pos + 1 } (by omega) h.H
    obtain ⟨m4, e4, l4⟩ := memset_safe m2 0 0 8 (by omega)
    rw [e1, ok_bind, e2, ok_bind, e3, ok_bind, e4, ok_bind]
    exact ⟨[], _, rfl, Nat.zero_le _, l4.trans l2, by show s.pos + 1 ≤ 8; omega, l3, rfl, rfl⟩

theorem squeezeLoop_safe (Z : Bytes) (hs : Nat) : ∀ fuel (out : Bytes) (s : Blk St), out.length ≤ hs → hs ≤ out.length + fuel → Sq Z s →
    ∃ b s', squeezeLoop hs fuel out s = .ok (b, s') ∧ b.length = hs ∧ Sq Z s' := by
  intro fuel
  induction fuel with
  | zero => exact fun out s h1 h2 hq => ⟨out, s, rfl, by omega, hq⟩
  | succ fuel ih =>
    intro out s hl hf hq
    unfold squeezeLoop
    split
    · have h1 : ∃ s1, (if out.length ≠ 0 then transform s.m 1 s else pure s) = .ok s1 ∧ Sq Z s1 := by
        split
        · obtain ⟨H, e, l⟩ := transform_ok s.m 1 s (by have := hq.1; omega) hq.2.2.1
          exact ⟨_, e, hq.1, hq.2.1, l, hq.2.2.2⟩
        · exact ⟨s, rfl, hq⟩
      obtain ⟨s1, e1, q1⟩ := h1
      rw [e1, ok_bind]
      dsimp only
      obtain ⟨b, e, l⟩ := readBytes_safe (stores64 s1.h.H) 0 (min (hs - out.length) 8) (by rw [length_stores64, q1.2.2.1]; omega)
      rw [e, ok_bind]
      exact ih _ _ (by rw [List.length_append]; omega) (by rw [List.length_append]; omega)
        ⟨q1.1, by show min _ _ ≤ _; omega, q1.2.2⟩
    · exact ⟨out, s, rfl, by omega, hq⟩

theorem squeeze_safe (hs : Nat) (s : Blk St) (h : I s) :
    ∃ b s', squeeze hs s = .ok (b, s') ∧ b.length = hs ∧ I s' ∧ s'.h.Z = s.h.Z := by
  obtain ⟨b, s1, e1, l1, q1⟩ := squeezeFirst_safe hs s h
  obtain ⟨b2, s2, e2, l2, q2⟩ := squeezeLoop_safe s.h.Z hs hs b s1 l1 (by omega) q1
  refine ⟨b2, s2, ?_, l2, ⟨⟨q2.1, q2.2.2.1, ?_⟩, q2.2.1, fun h => ?_⟩, q2.2.2.2.2⟩
  · unfold squeeze; rw [e1]; exact e2
  · rw [q2.2.2.2.2]; exact h.Z
  · rw [q2.2.2.2.1] at h; cases h

theorem clear_safe (s : Blk St) (h : I s) : ∃ s', clear s = .ok s' ∧ I0 s' ∧ s'.h.Z = s.h.Z := by
  refine ⟨_, rfl, ⟨?_, ?_, h.Z⟩, rfl⟩
  · show (zeroBytes s.m).length = _
    rw [length_zeroBytes]; exact h.m
  · show (s.h.H.map _).length = _
    rw [List.length_map]; exact h.H

/-- Without customization the string `Z` is always empty. -/
def J0 (s : Blk St) : Prop := I0 s ∧ s.h.Z = []
def J (s : Blk St) : Prop := I s ∧ s.h.Z = []

theorem hash : HashSafe asconHash.pr (P := Empty) J0 J where
  sub := fun _ h => ⟨h.1.toI0, h.2⟩
  init := fun s h => let ⟨s', e, i, z⟩ := init_safe .hash s h.1; ⟨s', e, i, z.trans h.2⟩
  update := fun s d h hd => let ⟨s', e, i, z⟩ := update_safe s d h.1 hd; ⟨s', e, i, z.trans h.2⟩
  final := fun s h => by
    obtain ⟨b, s', e, l, _⟩ := squeeze_safe 32 s h.1
    refine ⟨b, ?_, by show b.length = 256 / 8; rw [l]⟩
    show Model.Ascon.final s = _
    unfold Model.Ascon.final
    rw [show 256 / 8 = 32 from rfl, e]; rfl
  size := fun s _ => by show 0 < 256 / 8; decide
  clear := fun s h => let ⟨s', e, i, z⟩ := clear_safe s h.1; ⟨s', e, i, z.trans h.2⟩
  set := nofun

theorem xof : XofSafe (asconXof).pr (P := Empty) J0 J where
  sub := fun _ h => ⟨h.1.toI0, h.2⟩
  init := fun s h => let ⟨s', e, i, z⟩ := init_safe .xof s h.1; ⟨s', e, i, z.trans h.2⟩
  update := fun s d h hd => let ⟨s', e, i, z⟩ := update_safe s d h.1 hd; ⟨s', e, i, z.trans h.2⟩
  squeeze := fun s n h _ => let ⟨b, s', e, l, i, z⟩ := squeeze_safe n s h.1; ⟨b, s', e, l, i, z.trans h.2⟩
  clear := fun s h => let ⟨s', e, i, z⟩ := clear_safe s h.1; ⟨s', e, i, z.trans h.2⟩
  set := nofun

theorem cxof : XofSafe (asconCxof).pr (P := CustomizationParam) I0 I where
  sub := fun _ h => h.toI0
  init := fun s h => let ⟨s', e, i, _⟩ := init_safe .cxof s h; ⟨s', e, i⟩
  update := fun s d h hd => let ⟨s', e, i, _⟩ := update_safe s d h hd; ⟨s', e, i⟩
  squeeze := fun s n h _ => let ⟨b, s', e, l, i, _⟩ := squeeze_safe n s h; ⟨b, s', e, l, i⟩
  clear := fun s h => let ⟨s', e, i, _⟩ := clear_safe s h; ⟨s', e, i⟩
  set := fun s p h hp => by
    cases p with
    | customization v => exact ⟨false, _, rfl, h.m, h.H, hp⟩

end Ascon

theorem length_stores32 (l : List (BitVec 32)) : (stores32 l).length = 4 * l.length := by
  unfold stores32
  induction l with
  | nil => rfl
  | cons a l ih => rw [List.flatMap_cons, List.length_append, ih]; show 4 + _ = _; rw [List.length_cons]; omega

theorem length_foldl {α β : Type} {f : List α → β → List α} (hf : ∀ H i, (f H i).length = H.length) :
    ∀ (l : List β) (H : List α), (l.foldl f H).length = H.length := by
  intro l
  induction l with
  | nil => exact fun _ => rfl
  | cons i l ih => intro H; rw [List.foldl_cons, ih, hf]

namespace Esch
open Model.Esch

theorem length_sparkle (rounds ns : Nat) (H : List (BitVec 32)) : (sparkle rounds ns H).length = H.length := by
  unfold sparkle
  refine length_foldl (fun H s => ?_) _ H
  simp only [sparkleStep, permuteBranches, List.length_set]
  rw [length_foldl (fun H i => by simp only [List.length_set])]
  unfold feistelXor
  rw [length_foldl (fun H i => by simp only [List.length_set])]
  unfold arxLayer
  rw [length_foldl (fun H i => by simp only [List.length_set])]
  simp only [List.length_set]

theorem length_absorbBlock (l : Bool) (b : Bytes) (h : St) : (absorbBlock l b h).H.length = h.H.length ∧ (absorbBlock l b h).hs = h.hs ∧
    (absorbBlock l b h).squeezing = h.squeezing := by
  refine ⟨?_, rfl, rfl⟩
  simp only [absorbBlock, length_sparkle]
  split <;> simp only [List.length_set]

structure I0 (N hs : Nat) (s : Blk St) : Prop where
  m : s.m.length = 128
  H : s.h.H.length = N / 32
  hs : s.h.hs = hs

structure I (N hs : Nat) (s : Blk St) : Prop extends I0 N hs s where
  pos : s.pos ≤ 16

/-- The sizes: 256 or 384 bits of output, and a state that is large enough. -/
def Sizes (N hs : Nat) : Prop := 384 ≤ N ∧ hs ≤ 384

def Keep (N hs : Nat) (q : Bool) (h : St) : Prop := h.H.length = N / 32 ∧ h.hs = hs ∧ h.squeezing = q

theorem transform_safe (l : Bool) (N hs : Nat) (q : Bool) : SafeTransform 16 128 (Keep N hs q) (transform l) := by
  intro s data n hn hm hi
  obtain ⟨h', e, i⟩ := forBlocks_safe (inv := Keep N hs q) (step := fun _ b h => pure (absorbBlock l b h))
    (fun _ b h _ hi => ⟨_, rfl, by
      obtain ⟨h1, h2, h3⟩ := length_absorbBlock l b h
      exact ⟨h1.trans hi.1, h2.trans hi.2.1, h3.trans hi.2.2⟩⟩) data n s.h hn hi
  exact ⟨h', s.m, hm, i, by unfold transform; rw [e]; rfl⟩

theorem update_safe {N hs : Nat} (s : Blk St) (d : Bytes) (h : I N hs s) (hd : d.length < 2 ^ 63) :
    ∃ s', update d s = .ok s' ∧ I N hs s' := by
  obtain ⟨s', e, a, b, c⟩ := absorbBytes_safe_le (z := 1) (by omega) (by omega) (by omega) (by omega)
    (transform_safe false N hs s.h.squeezing) d s h.m h.pos ⟨h.H, h.hs, rfl⟩ hd
  exact ⟨s', e, ⟨a, c.1, c.2.1⟩, by omega⟩

theorem init_safe {N hs : Nat} (s : Blk St) (h : I0 N hs s) : ∃ s', init s = .ok s' ∧ I N hs s' := by
  refine ⟨_, rfl, ⟨?_, ?_, h.hs⟩, Nat.zero_le _⟩
  · show (zeroBytes s.m).length = _
    rw [length_zeroBytes]; exact h.m
  · show (s.h.H.map _).length = _
    rw [List.length_map]; exact h.H

theorem xorConst_safe {N hs : Nat} (hN : Sizes N hs) (v : BitVec 32) (q : Bool) (h : St) (hi : Keep N hs q h) :
    ∃ h', xorConst v h = .ok h' ∧ Keep N hs q h' := by
  obtain ⟨a, b⟩ := hN
  obtain ⟨c, d, f⟩ := hi
  refine ⟨{ h with H := h.H.set ((h.hs + 128) / 64 - 1) (at32 h.H ((h.hs + 128) / 64 - 1) ^^^ v) }, ?_, ?_, d, f⟩
  · unfold xorConst
    exact if_pos (by rw [c, d]; omega)
  · show (List.set _ _ _).length = _
    rw [List.length_set]; exact c

theorem squeezeFirst_safe {N hs : Nat} (hN : Sizes N hs) (xof : Bool) (hss : Nat) (s : Blk St) (h : I N hs s) :
    ∃ b s', squeezeFirst xof hss s = .ok (b, s') ∧ b.length ≤ hss ∧ I N hs s' := by
  have hm := h.m
  have hpos := h.pos
  unfold squeezeFirst
  by_cases hq : s.h.squeezing = true
  · rw [hq]
    simp only [Bool.not_true, Bool.false_eq_true, if_false]
    split
    · have := hN.1
      obtain ⟨b, e, l⟩ := readBytes_safe (stores32 s.h.H) s.pos (min hss (16 - s.pos)) (by rw [length_stores32, h.H]; omega)
      rw [e, ok_bind]
      exact ⟨b, _, rfl, by omega, ⟨h.m, h.H, h.hs⟩, by show s.pos + min hss (16 - s.pos) ≤ _; omega⟩
    · exact ⟨[], s, rfl, Nat.zero_le _, h⟩
  · have hq' : s.h.squeezing = false := by simpa using hq
    obtain ⟨s1, hs1⟩ : ∃ s1 : Blk St, s1 = { s with total := 1, h := { s.h with squeezing := true } } := ⟨_, rfl⟩
    have hm1 : s1.m.length = 128 := by rw [hs1]; exact hm
    have hp1 : s1.pos = s.pos := by rw [hs1]
    have hk1 : Keep N hs true s1.h := by rw [hs1]; exact ⟨h.H, h.hs, rfl⟩
    have h2 : ∃ s2, (if s1.pos < 16 then do
        let m ← memset s1.m s1.pos 0 (16 - s1.pos)
        let m ← setByte m s1.pos 0x80
        let h ← xorConst (if xof then 0x5000000 else 0x1000000) s1.h
        pure { s1 with m := m, h := h }
      else do
        let h ← xorConst (if xof then 0x6000000 else 0x2000000) s1.h
        pure { s1 with h := h }) = .ok s2 ∧ s2.m.length = 128 ∧ s2.pos = s.pos ∧ Keep N hs true s2.h := by
      split
      · obtain ⟨m2, e2, l2⟩ := memset_safe s1.m s1.pos 0 (16 - s1.pos) (by omega)
        obtain ⟨m3, e3, l3⟩ := setByte_safe m2 s1.pos 0x80 (by omega)
        obtain ⟨h4, e4, l4⟩ := xorConst_safe hN (if xof then 0x5000000 else 0x1000000) true s1.h hk1
        rw [e2, ok_bind, e3, ok_bind, e4, ok_bind]
        exact ⟨_, rfl, by show m3.length = _; omega, hp1, l4⟩
      · obtain ⟨h4, e4, l4⟩ := xorConst_safe hN (if xof then 0x6000000 else 0x2000000) true s1.h hk1
        rw [e4, ok_bind]
        exact ⟨_, rfl, hm1, hp1, l4⟩
    obtain ⟨s2, e2, m2, p2, k2⟩ := h2
    rw [hq', if_pos (show (!false) = true from rfl)]
    dsimp only
    rw [hs1] at e2
    dsimp only at e2
    rw [e2, ok_bind]
    obtain ⟨h', m', hm', hi', e3⟩ := transform_safe true N hs true s2 s2.m 1 (by omega) m2 k2
    rw [e3, ok_bind]
    exact ⟨[], _, rfl, Nat.zero_le _, ⟨hm', hi'.1, hi'.2.1⟩, by show s2.pos ≤ 16; omega⟩

theorem squeezeLoop_safe {N hs : Nat} (hN : Sizes N hs) (hss : Nat) : ∀ fuel (out : Bytes) (s : Blk St), out.length ≤ hss →
    hss ≤ out.length + fuel → I N hs s → ∃ b s', squeezeLoop hss fuel out s = .ok (b, s') ∧ b.length = hss ∧ I N hs s' := by
  intro fuel
  induction fuel with
  | zero => exact fun out s h1 h2 hq => ⟨out, s, rfl, by omega, hq⟩
  | succ fuel ih =>
    intro out s hl hf hq
    unfold squeezeLoop
    split
    · dsimp only
      obtain ⟨H, hH⟩ : ∃ H, H = if s.total = 0 then sparkle (if s.h.hs > 256 then 8 else 6) (if s.h.hs > 256 then 8 else 7) s.h.H else s.h.H :=
        ⟨_, rfl⟩
      have lH : H.length = N / 32 := by
        rw [hH]; split
        · rw [length_sparkle]; exact hq.H
        · exact hq.H
      rw [← hH]
      have := hN.1
      obtain ⟨b, e, l⟩ := readBytes_safe (stores32 H) 0 (min (hss - out.length) 16) (by rw [length_stores32, lH]; omega)
      rw [e, ok_bind]
      exact ih _ _ (by rw [List.length_append]; omega) (by rw [List.length_append]; omega)
        ⟨⟨hq.m, lH, hq.hs⟩, by show min _ _ ≤ _; omega⟩
    · exact ⟨out, s, rfl, by omega, hq⟩

theorem squeeze_safe {N hs : Nat} (hN : Sizes N hs) (xof : Bool) (hss : Nat) (s : Blk St) (h : I N hs s) :
    ∃ b s', squeeze xof hss s = .ok (b, s') ∧ b.length = hss ∧ I N hs s' := by
  obtain ⟨b, s1, e1, l1, q1⟩ := squeezeFirst_safe hN xof hss s h
  obtain ⟨b2, s2, e2, l2, q2⟩ := squeezeLoop_safe hN hss hss b s1 l1 (by omega) q1
  exact ⟨b2, s2, by unfold squeeze; rw [e1]; exact e2, l2, q2⟩

theorem clear_safe {N hs : Nat} (s : Blk St) (h : I N hs s) : ∃ s', clear s = .ok s' ∧ I0 N hs s' := by
  refine ⟨_, rfl, ?_, ?_, h.hs⟩
  · show (zeroBytes s.m).length = _
    rw [length_zeroBytes]; exact h.m
  · show (s.h.H.map _).length = _
    rw [List.length_map]; exact h.H

theorem xof {N hs : Nat} (hN : Sizes N hs) : XofSafe xofProvider (I0 N hs) (I N hs) where
  sub := fun _ h => h.toI0
  init := init_safe
  update := update_safe
  squeeze := fun s n h _ => squeeze_safe hN true n s h
  clear := clear_safe
  set := nofun

end Esch
end Digestpp.Proofs.Safety
