import Verif.Proofs.Safety
import Verif.Proofs.Kmac
import Verif.Proofs.K12

/-! Memory safety of SHAKE, cSHAKE, KMAC and KangarooTwelve objects. -/

namespace Digestpp.Proofs.Safety
open Model

theorem length_stores64 (l : List (BitVec 64)) : (stores64 l).length = 8 * l.length := by
  unfold stores64
  induction l with
  | nil => rfl
  | cons a l ih => rw [List.flatMap_cons, List.length_append, ih]; show 8 + _ = _; rw [List.length_cons]; omega

theorem length_permute (R : Nat) (A : List (BitVec 64)) (h : A.length = 25) : (Sha3.permute R A).length = 25 := by
  unfold Sha3.permute
  induction List.range' (24 - R) R generalizing A with
  | nil => exact h
  | cons i l ih => rw [List.foldl_cons]; exact ih _ rfl

theorem xorBlock_safe (r64 : Nat) (b : Bytes) (A : List (BitVec 64)) (hr : r64 ≤ 25) (hA : A.length = 25) :
    ∃ A', Sha3.xorBlock r64 b A = .ok A' ∧ A'.length = 25 := by
  refine ⟨_, if_pos hr, ?_⟩
  induction List.range r64 generalizing A with
  | nil => exact hA
  | cons i l ih => rw [List.foldl_cons]; exact ih _ (by rw [List.length_set]; exact hA)

theorem transform_safe (R rate : Nat) (hr : rate / 64 ≤ 25) (data : Bytes) (n : Nat) (A : List (BitVec 64)) (hn : n * (rate / 8) ≤ data.length)
    (hA : A.length = 25) : ∃ A', Sha3.transform R rate data n A = .ok A' ∧ A'.length = 25 := by
  refine forBlocks_safe (inv := fun A => A.length = 25) (fun i b A hb hA => ?_) data n A hn hA
  obtain ⟨A1, e, l⟩ := xorBlock_safe (rate / 64) b A hr hA
  exact ⟨_, by rw [e]; rfl, length_permute R _ l⟩

namespace Shake
open Model.Shake

/-- The rate. -/
def Rate (rate : Nat) : Prop := 8 ≤ rate ∧ rate ≤ 1344

theorem rateOf_ok (B : Nat) : Rate (rateOf B) := by
  unfold rateOf Rate; split <;> decide

/-- An object whose strings are of reasonable size. -/
structure I0 (s : Blk St) : Prop where
  m : s.m.length = 168
  N : s.h.N.length < 2 ^ 61
  S : s.h.S.length < 2 ^ 61

structure I (rate : Nat) (s : Blk St) : Prop extends I0 s where
  A : s.h.A.length = 25
  pos : s.pos ≤ rate / 8
  absorbing : s.h.squeezing = false → s.pos < rate / 8

/-- What absorbing leaves alone. -/
def Keep (N S : Bytes) (q : Bool) (h : St) : Prop := h.A.length = 25 ∧ h.N = N ∧ h.S = S ∧ h.squeezing = q

theorem onBlocks_safe {R rate : Nat} (hr : Rate rate) (N S : Bytes) (q : Bool) :
    SafeTransform (rate / 8) 168 (Keep N S q) (onBlocks R rate) := by
  intro s data n hn hm hi
  obtain ⟨A, e, l⟩ := transform_safe R rate (by have := hr.2; omega) data n s.h.A hn hi.1
  refine ⟨{ s.h with A := A }, s.m, hm, ⟨l, hi.2⟩, ?_⟩
  unfold onBlocks
  rw [e]; rfl

theorem update_safe {R rate : Nat} (hr : Rate rate) (s : Blk St) (d : Bytes) (h : I rate s) (hd : d.length < 2 ^ 63) :
    ∃ s', update R rate d s = .ok s' ∧ I rate s' ∧ s'.h.N = s.h.N ∧ s'.h.S = s.h.S := by
  have h1 := hr.1
  have h2 := hr.2
  obtain ⟨s', e, a, b, c⟩ := absorbBytes_safe_le (z := 0) (by omega) (by omega) (by omega) (by omega)
    (onBlocks_safe hr s.h.N s.h.S s.h.squeezing) d s h.m h.pos ⟨h.A, rfl, rfl, rfl⟩ hd
  refine ⟨s', e, ⟨⟨a, ?_, ?_⟩, c.1, ?_, fun _ => ?_⟩, c.2.1, c.2.2.1⟩
  · rw [c.2.1]; exact h.N
  · rw [c.2.2.1]; exact h.S
  · omega
  · omega

theorem updateString_safe {R rate : Nat} (hr : Rate rate) (s : Blk St) (d : Bytes) (h : I rate s) (hd : d.length < 2 ^ 63) :
    ∃ s', updateString R rate d s = .ok s' ∧ I rate s' ∧ s'.h.N = s.h.N ∧ s'.h.S = s.h.S := by
  unfold updateString
  split
  · exact ⟨s, rfl, h, rfl, rfl⟩
  · exact update_safe hr s d h hd

theorem countLoop_le : ∀ fuel tmp n, countLoop fuel tmp n ≤ n + fuel
  | 0, _, _ => Nat.le_refl _
  | fuel + 1, tmp, n => by
    unfold countLoop
    split
    · omega
    · have := countLoop_le fuel (tmp / 256) (n + 1); omega

theorem length_leftEncode (x : Nat) : (leftEncode x).length ≤ 10 := by
  unfold leftEncode
  have := countLoop_le 8 x 1
  simp; omega

theorem length_rightEncode (x : Nat) (q : Bool) : (rightEncode x q).length ≤ 10 := by
  unfold rightEncode
  have h1 := countLoop_le 8 x (if q then if x ≠ 0 then 1 else 0 else 1)
  have h2 : (if q then if x ≠ 0 then 1 else 0 else 1) ≤ 1 := by split <;> (try split) <;> omega
  simp only [List.length_append, List.length_map, List.length_range, List.length_cons, List.length_nil]
  omega

theorem initFields_safe {rate : Nat} (hr : Rate rate) (s : Blk St) (h : I0 s) : I rate (initFields s) := by
  have := hr.1
  refine ⟨⟨h.m, h.N, h.S⟩, rfl, Nat.zero_le _, fun _ => ?_⟩
  show 0 < rate / 8
  omega

theorem init_safe {R rate : Nat} (hr : Rate rate) (s : Blk St) (h : I0 s) :
    ∃ s', init R rate s = .ok s' ∧ I rate s' ∧ s'.h.N = s.h.N ∧ s'.h.S = s.h.S := by
  have hb := initFields_safe hr s h
  unfold init
  split
  · unfold initPrefix
    dsimp only
    have l1 := length_leftEncode (rate / 8)
    obtain ⟨s1, e1, i1, n1, t1⟩ := update_safe (R := R) hr _ (leftEncode (rate / 8)) hb (by omega)
    obtain ⟨s2, e2, i2, n2, t2⟩ := update_safe (R := R) hr _ (leftEncode ((initFields s).h.N.length * 8 % szMod)) i1
      (by have := length_leftEncode ((initFields s).h.N.length * 8 % szMod); omega)
    obtain ⟨s3, e3, i3, n3, t3⟩ := updateString_safe (R := R) hr _ (initFields s).h.N i2 (by have := hb.N; omega)
    obtain ⟨s4, e4, i4, n4, t4⟩ := update_safe (R := R) hr _ (leftEncode ((initFields s).h.S.length * 8 % szMod)) i3
      (by have := length_leftEncode ((initFields s).h.S.length * 8 % szMod); omega)
    obtain ⟨s5, e5, i5, n5, t5⟩ := updateString_safe (R := R) hr _ (initFields s).h.S i4 (by have := hb.S; omega)
    obtain ⟨t, ht⟩ : ∃ t, t = ((leftEncode (rate / 8)).length + (leftEncode ((initFields s).h.N.length * 8 % szMod)).length +
      (leftEncode ((initFields s).h.S.length * 8 % szMod)).length + (initFields s).h.S.length + (initFields s).h.N.length) % szMod := ⟨_, rfl⟩
    have h2 := hr.2
    obtain ⟨b, eb, lb⟩ := memset_safe (List.replicate 1024 0) 0 0 (rate / 8 - t % (rate / 8)) (by rw [List.length_replicate]; omega)
    obtain ⟨z, ez, lz⟩ := readBytes_safe b 0 (rate / 8 - t % (rate / 8)) (by rw [lb, List.length_replicate]; omega)
    obtain ⟨s6, e6, i6, n6, t6⟩ := update_safe (R := R) hr s5 z i5 (by omega)
    refine ⟨s6, ?_, i6, ?_, ?_⟩
    · rw [e1, ok_bind, e2, ok_bind, e3, ok_bind, e4, ok_bind, e5, ok_bind, ← ht, eb, ok_bind, ez, ok_bind, e6]
    · rw [n6, n5, n4, n3, n2, n1]; rfl
    · rw [t6, t5, t4, t3, t2, t1]; rfl
  · exact ⟨_, rfl, hb, rfl, rfl⟩

theorem padLast_safe {R rate : Nat} (hr : Rate rate) (d : Byte) (m : Bytes) (pos : Nat) (A : List (BitVec 64)) (hm : m.length = 168)
    (hp : pos < rate / 8) (hA : A.length = 25) :
    ∃ m' A', Sha3.padLast R rate d m pos A = .ok (m', A') ∧ m'.length = 168 ∧ A'.length = 25 := by
  have h1 := hr.1
  have h2 := hr.2
  unfold Sha3.padLast
  dsimp only
  obtain ⟨m1, e1, l1⟩ := setByte_safe m pos d (by omega)
  have hz : ∃ m2, Sha3.zeroFill (rate / 8) m1 (pos + 1) = .ok m2 ∧ m2.length = 168 := by
    unfold Sha3.zeroFill
    split
    · rw [szSub_eq _ _ (by omega) (by unfold szMod; omega)]
      obtain ⟨m2, e, l⟩ := memset_safe m1 (pos + 1) 0 (rate / 8 - (pos + 1)) (by omega)
      exact ⟨m2, e, by omega⟩
    · exact ⟨m1, rfl, by omega⟩
  obtain ⟨m2, e2, l2⟩ := hz
  have hsub : szSub (rate / 8) 1 = rate / 8 - 1 := szSub_eq _ _ (by omega) (by unfold szMod; omega)
  obtain ⟨b, e3, l3⟩ := readBytes_safe m2 (rate / 8 - 1) 1 (by omega)
  obtain ⟨m3, e4, l4⟩ := setByte_safe m2 (rate / 8 - 1) (b.getD 0 0 ||| 0x80) (by omega)
  obtain ⟨A', e5, l5⟩ := transform_safe R rate (by omega) m3 1 A (by omega) hA
  refine ⟨m3, A', ?_, by omega, l5⟩
  rw [e1, ok_bind, e2, ok_bind, hsub, e3, ok_bind, e4, ok_bind, e5]
  rfl

/-- The state of the object while squeezing. -/
def Sq (rate : Nat) (N S : Bytes) (s : Blk St) : Prop :=
  s.m.length = 168 ∧ s.pos ≤ rate / 8 ∧ s.h.A.length = 25 ∧ s.h.squeezing = true ∧ s.h.N = N ∧ s.h.S = S

theorem squeezeFirst_safe {R rate : Nat} (hr : Rate rate) (hs : Nat) (s : Blk St) (h : I rate s) :
    ∃ b s', squeezeFirst R rate hs s = .ok (b, s') ∧ b.length ≤ hs ∧ Sq rate s.h.N s.h.S s' := by
  have h1 := hr.1
  have h2 := hr.2
  unfold squeezeFirst
  dsimp only
  by_cases hq : s.h.squeezing = true
  · rw [hq]
    simp only [Bool.not_true, Bool.false_eq_true, if_false]
    split
    · rename_i hp
      obtain ⟨b, e, l⟩ := readBytes_safe (stores64 s.h.A) s.pos (min hs (rate / 8 - s.pos)) (by rw [length_stores64, h.A]; omega)
      rw [e, ok_bind]
      exact ⟨b, _, rfl, by omega, h.m, by show s.pos + min hs (rate / 8 - s.pos) ≤ _; omega, h.A, hq, rfl, rfl⟩
    · split
      · exact ⟨[], _, rfl, Nat.zero_le _, h.m, h.pos, length_permute R _ h.A, rfl, rfl, rfl⟩
      · exact ⟨[], _, rfl, Nat.zero_le _, h.m, h.pos, h.A, hq, rfl, rfl⟩
  · have hq' : s.h.squeezing = false := by simpa using hq
    have hp := h.absorbing hq'
    rw [hq']
    simp only [Bool.not_false, if_true]
    obtain ⟨m', A', e, l, l'⟩ := padLast_safe (R := R) hr (domain s.h) s.m s.pos s.h.A h.m hp h.A
    rw [e, ok_bind]
    exact ⟨[], _, rfl, Nat.zero_le _, l, by show s.pos + 1 ≤ _; omega, l', rfl, rfl, rfl⟩

theorem squeezeLoop_safe {R rate : Nat} (hr : Rate rate) (N S : Bytes) (hs : Nat) : ∀ fuel (out : Bytes) (s : Blk St), out.length ≤ hs →
    hs ≤ out.length + fuel → Sq rate N S s →
    ∃ b s', squeezeLoop R (rate / 8) hs fuel out s = .ok (b, s') ∧ b.length = hs ∧ Sq rate N S s' := by
  have h1 := hr.1
  have h2 := hr.2
  intro fuel
  induction fuel with
  | zero => exact fun out s h1 h2 hq => ⟨out, s, rfl, by omega, hq⟩
  | succ fuel ih =>
    intro out s hl hf hq
    unfold squeezeLoop
    split
    · dsimp only
      obtain ⟨A, hA⟩ : ∃ A, A = if out.length ≠ 0 then Sha3.permute R s.h.A else s.h.A := ⟨_, rfl⟩
      have lA : A.length = 25 := by
        rw [hA]; split
        · exact length_permute R _ hq.2.2.1
        · exact hq.2.2.1
      rw [← hA]
      obtain ⟨b, e, l⟩ := readBytes_safe (stores64 A) 0 (min (hs - out.length) (rate / 8)) (by rw [length_stores64, lA]; omega)
      rw [e, ok_bind]
      exact ih _ _ (by rw [List.length_append]; omega) (by rw [List.length_append]; omega)
        ⟨hq.1, by show min _ _ ≤ _; omega, lA, hq.2.2.2⟩
    · exact ⟨out, s, rfl, by omega, hq⟩

theorem squeeze_safe {R rate : Nat} (hr : Rate rate) (hs : Nat) (s : Blk St) (h : I rate s) :
    ∃ b s', squeeze R rate hs s = .ok (b, s') ∧ b.length = hs ∧ I rate s' ∧ s'.h.N = s.h.N ∧ s'.h.S = s.h.S := by
  obtain ⟨b, s1, e1, l1, q1⟩ := squeezeFirst_safe (R := R) hr hs s h
  obtain ⟨b2, s2, e2, l2, q2⟩ := squeezeLoop_safe (R := R) hr s.h.N s.h.S hs hs b s1 l1 (by omega) q1
  refine ⟨b2, s2, ?_, l2, ⟨⟨q2.1, ?_, ?_⟩, q2.2.2.1, q2.2.1, fun h => ?_⟩, q2.2.2.2.2.1, q2.2.2.2.2.2⟩
  · unfold squeeze; rw [e1]; exact e2
  · rw [q2.2.2.2.2.1]; exact h.N
  · rw [q2.2.2.2.2.2]; exact h.S
  · rw [q2.2.2.2.1] at h; cases h

theorem clear_safe (s : Blk St) (h : s.m.length = 168) : ∃ s', clear s = .ok s' ∧ I0 s' ∧ s'.h.N = [] ∧ s'.h.S = [] :=
  ⟨_, rfl, ⟨by show (zeroBytes s.m).length = _; unfold zeroBytes; rw [List.length_replicate, h],
    (by decide : (0 : Nat) < 2 ^ 61), (by decide : (0 : Nat) < 2 ^ 61)⟩, rfl, rfl⟩

theorem shake (B : Nat) : XofSafe (Model.Shake.shake B).pr (P := Empty) I0 (I (rateOf B)) where
  sub := fun _ h => h.toI0
  init := fun s h => let ⟨s', e, i, _⟩ := init_safe (rateOf_ok B) s h; ⟨s', e, i⟩
  update := fun s d h hd => let ⟨s', e, i, _⟩ := update_safe (rateOf_ok B) s d h hd; ⟨s', e, i⟩
  squeeze := fun s n h _ => let ⟨b, s', e, l, i, _⟩ := squeeze_safe (rateOf_ok B) n s h; ⟨b, s', e, l, i⟩
  clear := fun s h => let ⟨s', e, i, _⟩ := clear_safe s h.m; ⟨s', e, i⟩
  set := nofun

theorem cshake (B : Nat) : XofSafe (Model.Shake.cshake B).pr (P := CShakeParam) I0 (I (rateOf B)) where
  sub := fun _ h => h.toI0
  init := fun s h => let ⟨s', e, i, _⟩ := init_safe (rateOf_ok B) s h; ⟨s', e, i⟩
  update := fun s d h hd => let ⟨s', e, i, _⟩ := update_safe (rateOf_ok B) s d h hd; ⟨s', e, i⟩
  squeeze := fun s n h _ => let ⟨b, s', e, l, i, _⟩ := squeeze_safe (rateOf_ok B) n s h; ⟨b, s', e, l, i⟩
  clear := fun s h => let ⟨s', e, i, _⟩ := clear_safe s h.m; ⟨s', e, i⟩
  set := fun s p h hp => by
    cases p with
    | functionName v => exact ⟨false, _, rfl, h.m, hp, h.S⟩
    | customization v => exact ⟨false, _, rfl, h.m, h.N, hp⟩

end Shake

namespace Kmac
open Model.Kmac
open Shake (rateOf_ok)

structure I0 (s : St) : Prop where
  sh : Shake.I0 s.shake
  K : s.K.length < 2 ^ 62

structure I (B : Nat) (s : St) : Prop where
  sh : Shake.I (Model.Shake.rateOf B) s.shake
  K : s.K.length < 2 ^ 62

theorem length_bytepad (B : Nat) (v : Bytes) (h : v.length < 2 ^ 61) : (bytepad B v).length < 2 ^ 62 := by
  unfold bytepad
  dsimp only
  have hp : (if B = 128 then 168 else 136) ≤ 168 := by split <;> omega
  generalize (if B = 128 then 168 else 136) = pad at hp ⊢
  have l1 := Shake.length_leftEncode pad
  have l2 := Shake.length_leftEncode (v.length * 8 % szMod)
  split
  · rw [List.length_append, List.length_append, List.length_append, List.length_replicate]; omega
  · rw [List.length_append, List.length_append]; omega

theorem update_safe {B : Nat} (s : St) (d : Bytes) (h : I B s) (hd : d.length < 2 ^ 63) : ∃ s', update B d s = .ok s' ∧ I B s' := by
  obtain ⟨sh, e, i, _⟩ := Shake.update_safe (R := 24) (rateOf_ok B) s.shake d h.sh hd
  exact ⟨{ s with shake := sh }, by unfold update; rw [e]; rfl, i, h.K⟩

theorem init_safe {B : Nat} (s : St) (h : I0 s) : ∃ s', init B s = .ok s' ∧ I B s' := by
  obtain ⟨sh, e, i, _⟩ := Shake.init_safe (R := 24) (rateOf_ok B) (Model.Shake.setFunctionName (ascii "KMAC") s.shake)
    ⟨h.sh.m, (by decide : (ascii "KMAC").length < 2 ^ 61), h.sh.S⟩
  have hK := h.K
  obtain ⟨s', e', i'⟩ := update_safe (B := B) { s with squeezing := false, shake := sh } s.K ⟨i, h.K⟩ (by omega)
  exact ⟨s', by unfold init; rw [e]; exact e', i'⟩

theorem squeeze_safe {B : Nat} (xof : Bool) (hs : Nat) (s : St) (h : I B s) :
    ∃ b s', squeeze B xof hs s = .ok (b, s') ∧ b.length = hs ∧ I B s' := by
  have h1 : ∃ s1, squeezeFirst B xof hs s = .ok s1 ∧ I B s1 := by
    unfold squeezeFirst
    split
    · have := Shake.length_rightEncode (if !xof then hs * 8 % szMod else 0) false
      obtain ⟨s1, e1, i1⟩ := update_safe (B := B) s (Model.Shake.rightEncode (if !xof then hs * 8 % szMod else 0) false) h (by omega)
      exact ⟨{ s1 with squeezing := true }, by rw [e1]; rfl, i1.sh, i1.K⟩
    · exact ⟨s, rfl, h⟩
  obtain ⟨s1, e1, i1⟩ := h1
  obtain ⟨b, sh, e, l, i, _⟩ := Shake.squeeze_safe (R := 24) (rateOf_ok B) hs s1.shake i1.sh
  exact ⟨b, { s1 with shake := sh }, by unfold squeeze; rw [e1, ok_bind, e]; rfl, l, i, i1.K⟩

theorem clear_safe {B : Nat} (s : St) (h : I B s) : ∃ s', clear B s = .ok s' ∧ I0 s' := by
  obtain ⟨sh, e, i, _⟩ := Shake.clear_safe s.shake h.sh.m
  exact ⟨_, by unfold clear; rw [e]; rfl, i, length_bytepad B [] (by decide)⟩

theorem set_safe {B : Nat} (s : St) (p : KmacParam) (h : I B s) (hp : (Param.value p).length < 2 ^ 61) :
    ∃ t s', set B p s = .ok (t, s') ∧ (if t then I B s' else I0 s') := by
  cases p with
  | key v => exact ⟨false, _, rfl, h.sh.toI0, length_bytepad B v hp⟩
  | customization v => exact ⟨false, _, rfl, ⟨h.sh.m, h.sh.N, hp⟩, h.K⟩

theorem xof (B : Nat) : XofSafe (xofProvider B) I0 (I B) where
  sub := fun _ h => ⟨h.sh.toI0, h.K⟩
  init := init_safe
  update := update_safe
  squeeze := fun s n h _ => squeeze_safe true n s h
  clear := clear_safe
  set := set_safe

end Kmac

namespace K12
open Model.K12
open Shake (rateOf_ok)

structure I0 (s : Blk St) : Prop where
  m : s.m.length = 8192
  main : Shake.I0 s.h.main
  child : Shake.I0 s.h.child
  S : s.h.S.length < 2 ^ 61

/-- The part of the invariant about the sponges. -/
def H (B : Nat) (S : Bytes) (h : St) : Prop :=
  Shake.I (Model.Shake.rateOf B) h.main ∧ Shake.I0 h.child ∧ (h.chunk ≠ 0 → Shake.I (Model.Shake.rateOf B) h.child) ∧ h.S = S

structure I (B : Nat) (s : Blk St) : Prop where
  m : s.m.length = 8192
  h : H B s.h.S s.h
  S : s.h.S.length < 2 ^ 61
  pos : s.pos ≤ 8192

theorem setSuffix_I {rate : Nat} (v : Byte) (s : Blk Model.Shake.St) (h : Shake.I rate s) : Shake.I rate (Model.Shake.setSuffix v s) :=
  ⟨⟨h.m, h.N, h.S⟩, h.A, h.pos, h.absorbing⟩

theorem transformStep_safe {B R : Nat} (hB : B ≤ 1024) (S b : Bytes) (h : St) (hb : b.length = 8192) (hi : H B S h) :
    ∃ h', transformStep B R b h = .ok h' ∧ H B S h' := by
  have h1 : ∃ mc, absorbChunk B R (Model.Shake.rateOf B) b h = .ok mc ∧ Shake.I (Model.Shake.rateOf B) mc.1 ∧ Shake.I0 mc.2 := by
    unfold absorbChunk
    split
    · obtain ⟨m1, e1, i1, _⟩ := Shake.update_safe (R := R) (rateOf_ok B) h.main b hi.1 (by omega)
      obtain ⟨m2, e2, i2, _⟩ := Shake.update_safe (R := R) (rateOf_ok B) m1 [3, 0, 0, 0, 0, 0, 0, 0] i1 (by decide)
      exact ⟨_, by unfold first; rw [e1, ok_bind, e2]; rfl, i2, hi.2.1⟩
    · rename_i hc
      obtain ⟨c1, e1, i1, _⟩ := Shake.update_safe (R := R) (rateOf_ok B) h.child b (hi.2.2.1 hc) (by omega)
      obtain ⟨o, c2, e2, l2, i2, _⟩ := Shake.squeeze_safe (R := R) (rateOf_ok B) (B / 4) c1 i1
      obtain ⟨m1, e3, i3, _⟩ := Shake.update_safe (R := R) (rateOf_ok B) h.main o hi.1 (by omega)
      exact ⟨_, by unfold next; rw [e1, ok_bind, e2, ok_bind, e3]; rfl, i3, i2.toI0⟩
  obtain ⟨mc, e, i1, i2⟩ := h1
  obtain ⟨c, ec, ic, _⟩ := Shake.init_safe (R := R) (rateOf_ok B) mc.2 i2
  refine ⟨_, (by unfold transformStep; rw [e, ok_bind, ec]; rfl), ?_⟩
  exact ⟨i1, (setSuffix_I 0x0b c ic).toI0, fun _ => setSuffix_I 0x0b c ic, hi.2.2.2⟩

theorem onBlocks_safe {B R : Nat} (hB : B ≤ 1024) (S : Bytes) : SafeTransform 8192 8192 (H B S) (onBlocks B R) := by
  intro s data n hn hm hi
  obtain ⟨h', e, l⟩ := forBlocks_safe (inv := H B S) (step := fun _ b h => transformStep B R b h)
    (fun _ b h hb hi => transformStep_safe hB S b h hb hi) data n s.h hn hi
  exact ⟨h', s.m, hm, l, by unfold onBlocks; rw [e]; rfl⟩

theorem update_safe {B R : Nat} (hB : B ≤ 1024) (s : Blk St) (d : Bytes) (h : I B s) (hd : d.length < 2 ^ 63) :
    ∃ s', update B R d s = .ok s' ∧ I B s' := by
  obtain ⟨s', e, a, b, c⟩ := absorbBytes_safe_le (z := 1) (by omega) (by omega) (by omega) (by omega)
    (onBlocks_safe (R := R) hB s.h.S) d s h.m h.pos h.h hd
  refine ⟨s', e, a, ?_, ?_, ?_⟩
  · rw [c.2.2.2]; exact c
  · rw [c.2.2.2]; exact h.S
  · omega

theorem init_safe {B R : Nat} (s : Blk St) (h : I0 s) : ∃ s', init B R s = .ok s' ∧ I B s' := by
  obtain ⟨m, e, i, _⟩ := Shake.init_safe (R := R) (rateOf_ok B) s.h.main h.main
  refine ⟨_, (by unfold init; rw [e]; rfl), ?_⟩
  exact ⟨h.m, ⟨i, h.child, fun hc => absurd rfl hc, rfl⟩, h.S, Nat.zero_le _⟩

theorem finish_safe {B R : Nat} (hB : B ≤ 1024) (s : Blk St) (h : I B s) : ∃ mc, finish B R (Model.Shake.rateOf B) s = .ok mc ∧
    Shake.I (Model.Shake.rateOf B) mc.1 ∧ Shake.I0 mc.2 ∧ (s.h.chunk ≠ 0 → Shake.I (Model.Shake.rateOf B) mc.2) := by
  have hp := h.pos
  have hm := h.m
  unfold finish
  split
  · obtain ⟨b, eb, lb⟩ := readBytes_safe s.m 0 s.pos (by omega)
    split
    · rename_i hc
      obtain ⟨m, e, i, _⟩ := Shake.update_safe (R := R) (rateOf_ok B) s.h.main b h.h.1 (by omega)
      refine ⟨_, by unfold finishSingle; rw [eb, ok_bind, e]; rfl, setSuffix_I 0x07 m i, h.h.2.1, fun h => absurd hc h⟩
    · rename_i hc
      obtain ⟨c1, e1, i1, _⟩ := Shake.update_safe (R := R) (rateOf_ok B) s.h.child b (h.h.2.2.1 hc) (by omega)
      obtain ⟨o, c2, e2, l2, i2, _⟩ := Shake.squeeze_safe (R := R) (rateOf_ok B) (B / 4) c1 i1
      obtain ⟨m1, e3, i3, _⟩ := Shake.update_safe (R := R) (rateOf_ok B) s.h.main o h.h.1 (by omega)
      have hl := Shake.length_rightEncode s.h.chunk true
      obtain ⟨m2, e4, i4, _⟩ := Shake.update_safe (R := R) (rateOf_ok B) (Model.Shake.setSuffix 0x06 m1)
        (Model.Shake.rightEncode s.h.chunk true) (setSuffix_I 0x06 m1 i3) (by omega)
      obtain ⟨m3, e5, i5, _⟩ := Shake.update_safe (R := R) (rateOf_ok B) m2 [0xff, 0xff] i4 (by decide)
      refine ⟨(m3, c2), ?_, i5, i2.toI0, fun _ => i2⟩
      unfold finishTree
      rw [eb, ok_bind, e1, ok_bind, e2, ok_bind]
      dsimp only
      rw [e3, ok_bind, e4, ok_bind, e5]
      rfl
  · exact ⟨_, rfl, setSuffix_I 0x07 _ h.h.1, h.h.2.1, h.h.2.2.1⟩

theorem squeeze_safe {B R : Nat} (hB : B ≤ 1024) (hs : Nat) (s : Blk St) (h : I B s) :
    ∃ b s', squeeze B R hs s = .ok (b, s') ∧ b.length = hs ∧ I B s' := by
  have h1 : ∃ s1, squeezeFirst B R s = .ok s1 ∧ I B s1 := by
    unfold squeezeFirst
    split
    · have hl := Shake.length_rightEncode s.h.S.length true
      have hS := h.S
      have h2 : ∃ s2, updateS B R s = .ok s2 ∧ I B s2 := by
        unfold updateS
        split
        · exact ⟨s, rfl, h⟩
        · exact update_safe hB s s.h.S h (by omega)
      obtain ⟨s2, e2, i2⟩ := h2
      obtain ⟨s3, e3, i3⟩ := update_safe (R := R) hB s2 (Model.Shake.rightEncode s.h.S.length true) i2 (by omega)
      obtain ⟨mc, e4, i4, i5, i6⟩ := finish_safe (R := R) hB s3 i3
      refine ⟨_, (by dsimp only; rw [e2, ok_bind, e3, ok_bind, e4]; rfl), ?_⟩
      exact ⟨i3.m, ⟨i4, i5, i6, rfl⟩, i3.S, i3.pos⟩
    · exact ⟨s, rfl, h⟩
  obtain ⟨s1, e1, i1⟩ := h1
  obtain ⟨b, m, e, l, i, _⟩ := Shake.squeeze_safe (R := R) (rateOf_ok B) hs s1.h.main i1.h.1
  refine ⟨b, _, (by unfold squeeze; rw [e1, ok_bind, e]; rfl), l, ?_⟩
  exact ⟨i1.m, ⟨i, i1.h.2.1, i1.h.2.2.1, rfl⟩, i1.S, i1.pos⟩

theorem clear_safe {B : Nat} (s : Blk St) (h : I B s) : ∃ s', clear s = .ok s' ∧ I0 s' := by
  obtain ⟨m, e, i, _⟩ := Shake.clear_safe s.h.main h.h.1.m
  obtain ⟨c, e2, i2, _⟩ := Shake.clear_safe s.h.child h.h.2.1.m
  refine ⟨_, (by unfold clear; rw [e, ok_bind, e2]; rfl), ?_⟩
  refine ⟨?_, i, i2, (by decide : (0 : Nat) < 2 ^ 61)⟩
  show (zeroBytes s.m).length = _
  unfold zeroBytes; rw [List.length_replicate]; exact h.m

theorem xof {B R : Nat} (hB : B ≤ 1024) : XofSafe (provider B R) I0 (I B) where
  sub := fun _ h => ⟨h.m, h.h.1.toI0, h.h.2.1, h.S⟩
  init := init_safe
  update := update_safe hB
  squeeze := fun s n h _ => squeeze_safe hB n s h
  clear := clear_safe
  set := fun s p h hp => by
    cases p with
    | customization v => exact ⟨false, _, rfl, h.m, h.h.1.toI0, h.h.2.1, hp⟩

end K12
end Digestpp.Proofs.Safety
