import Verif.Proofs.Leak.XofBlake2
import Verif.Proofs.Leak.HashSponge
import Verif.Proofs.SafetyShake

/-! SHAKE, cSHAKE and KMAC: the trace of a whole computation. -/

namespace Digestpp.Proofs.Leak
open Model Properties Model.Shake
variable {R rate : Nat}

/-- What is known of the members of a SHAKE object: `nl` and `sl` are the lengths of the strings. -/
abbrev ShakeSt (nl sl : Nat) (q : Bool) (h : St) : Prop := h.A.length = 25 ∧ h.N.length = nl ∧ h.S.length = sl ∧ h.squeezing = q

/-- The local arrays of `sha3_functions::transform`. -/
abbrev _root_.Digestpp.Properties.KeccakSized (k : Leak.Shake.Stacks) : Prop := Each (Each Locals.Sha3.Stack.Sized) k

/-- Two objects that have absorbed, or given, the same number of bytes. -/
def ShakeSame (nl sl : Nat) (s s' : Blk St) : Prop := ∃ q, Same 168 (ShakeSt nl sl q) s s'

theorem shake_keeps (hr : Safety.Shake.Rate rate) (nl sl : Nat) (q : Bool) : SafeTransform (rate / 8) 168 (ShakeSt nl sl q) (onBlocks R rate) := by
  intro s data n hn hm hi
  obtain ⟨A, e, l⟩ := Safety.transform_safe R rate (by have := hr.2; omega) data n s.h.A hn hi.1
  refine ⟨{ s.h with A := A }, s.m, hm, ⟨l, hi.2⟩, ?_⟩
  unfold onBlocks
  rw [e]; rfl

theorem shake_twin (hR : R ≤ 24) (hr : Safety.Shake.Rate rate) (nl sl : Nat) (q : Bool) :
    TwinTransform (rate / 8) 168 (ShakeSt nl sl q) KeccakSized (Leak.Shake.onBlocks R rate) (onBlocks R rate) :=
  .of (shake_keeps hr nl sl q) fun n => by
    obtain ⟨tr, h⟩ := keccak_trace R rate n hR (by have := hr.2; omega)
    refine ⟨tr ++ [], fun k d s hk hd hi => ?_⟩
    obtain ⟨A, e, e'⟩ := h ⟨k, d, s.h.A⟩ ⟨hk, hd, hi.1⟩
    exact ⟨{ s with h := { s.h with A := A } }, congrArg (fun x : M (List (BitVec 64)) => x >>= fun A => (pure { s with h := { s.h with A := A } } : M (Blk St))) e, bind_ok e' rfl⟩

theorem shake_update_twin (hR : R ≤ 24) (hr : Safety.Shake.Rate rate) {nl sl : Nat} {q : Bool} {k k' : Nat → Leak.Shake.Stacks} {d d' : Bytes} {s s' : Blk St}
    (hk : Each KeccakSized k) (hk' : Each KeccakSized k') (hd : d.length = d'.length) (hl : d.length < 2 ^ 63) (h : Same 168 (ShakeSt nl sl q) s s') :
    Twin (Same 168 (ShakeSt nl sl q)) (Leak.Shake.update R rate k d s) (update R rate d s) (Leak.Shake.update R rate k' d' s') (update R rate d' s') := by
  have h1 := hr.1
  have h2 := hr.2
  exact absorbBytes_twin (shake_twin hR hr nl sl q) (z := 0) (by omega) (by omega) (by omega) hk hk' hd hl h

theorem shake_string_twin (hR : R ≤ 24) (hr : Safety.Shake.Rate rate) {nl sl : Nat} {q : Bool} {k k' : Nat → Leak.Shake.Stacks} {d d' : Bytes} {s s' : Blk St}
    (hk : Each KeccakSized k) (hk' : Each KeccakSized k') (hd : d.length = d'.length) (hl : d.length < 2 ^ 63) (h : Same 168 (ShakeSt nl sl q) s s') :
    Twin (Same 168 (ShakeSt nl sl q)) (Leak.Shake.updateString R rate k d s) (updateString R rate d s) (Leak.Shake.updateString R rate k' d' s') (updateString R rate d' s') :=
  Twin.branch (by rw [List.isEmpty_iff_length_eq_zero, List.isEmpty_iff_length_eq_zero, hd]) (fun _ _ => Twin.pure h) fun _ _ => shake_update_twin hR hr hk hk' hd hl h

theorem shake_prefix_twin (hR : R ≤ 24) (hr : Safety.Shake.Rate rate) {nl sl : Nat} (hn : nl < 2 ^ 63) (hs : sl < 2 ^ 63) {k k' : Nat → Nat → Leak.Shake.Stacks} {s s' : Blk St}
    (hk : Each (Each KeccakSized) k) (hk' : Each (Each KeccakSized) k') (h : Same 168 (ShakeSt nl sl false) s s') :
    Twin (Same 168 (ShakeSt nl sl false)) (Leak.Shake.initPrefix R rate k s) (initPrefix R rate s) (Leak.Shake.initPrefix R rate k' s') (initPrefix R rate s') := by
  unfold Leak.Shake.initPrefix initPrefix
  dsimp only
  have len : ∀ x, (leftEncode x).length < 2 ^ 63 := fun x => by have := Safety.Shake.length_leftEncode x; omega
  have eN := h.h.2.1
  have eN' := h.h'.2.1
  have eS := h.h.2.2.1
  have eS' := h.h'.2.2.1
  rw [eN, eN', eS, eS']
  have h2 := hr.2
  refine Twin.bind (shake_update_twin hR hr (hk 0) (hk' 0) rfl (len _) h) fun a b r => ?_
  refine Twin.bind (shake_update_twin hR hr (hk 1) (hk' 1) rfl (len _) r) fun a b r => ?_
  refine Twin.bind (shake_string_twin hR hr (hk 2) (hk' 2) (eN.trans eN'.symm) (by rw [eN]; exact hn) r) fun a b r => ?_
  refine Twin.bind (shake_update_twin hR hr (hk 3) (hk' 3) rfl (len _) r) fun a b r => ?_
  refine Twin.bind (shake_string_twin hR hr (hk 4) (hk' 4) (eS.trans eS'.symm) (by rw [eS]; exact hs) r) fun a b r => ?_
  refine Twin.bind (Twin.memset (ms := 1024) ⟨List.length_replicate, List.length_replicate⟩ rfl rfl) fun m m' _ => ?_
  refine Twin.bind (Twin.readBytes rfl rfl) fun z z' rz => ?_
  exact shake_update_twin hR hr (hk 5) (hk' 5) (rz.1.trans rz.2.symm) (by rw [rz.1]; omega) r

theorem shake_init_twin (hR : R ≤ 24) (hr : Safety.Shake.Rate rate) {nl sl : Nat} (hn : nl < 2 ^ 63) (hs : sl < 2 ^ 63) {k k' : Nat → Nat → Leak.Shake.Stacks} {s s' : Blk St}
    (hk : Each (Each KeccakSized) k) (hk' : Each (Each KeccakSized) k') (hm : Sz 168 s.m s'.m) (h : s.h.N.length = nl ∧ s.h.S.length = sl) (h' : s'.h.N.length = nl ∧ s'.h.S.length = sl) :
    Twin (Same 168 (ShakeSt nl sl false)) (Leak.Shake.init R rate k s) (init R rate s) (Leak.Shake.init R rate k' s') (init R rate s') := by
  have r : Same 168 (ShakeSt nl sl false) (initFields s) (initFields s') := ⟨rfl, rfl, hm, ⟨rfl, h.1, h.2, rfl⟩, ⟨rfl, h'.1, h'.2, rfl⟩⟩
  have e : ∀ {x y : Bytes}, x.length = y.length → x.isEmpty = y.isEmpty := fun {x y} e => by
    rw [Bool.eq_iff_iff, List.isEmpty_iff_length_eq_zero, List.isEmpty_iff_length_eq_zero, e]
  exact Twin.branch (by rw [e (h.1.trans h'.1.symm), e (h.2.trans h'.2.symm)]) (fun _ _ => shake_prefix_twin hR hr hn hs hk hk' r) fun _ _ => Twin.pure r

theorem permute_twin (hR : R ≤ 24) {k k' : Nat → Locals.Sha3.Stack} {A A' : List (BitVec 64)} (hk : Each Locals.Sha3.Stack.Sized k) (hk' : Each Locals.Sha3.Stack.Sized k') (hA : A.length = 25) (hA' : A'.length = 25) :
    Twin (fun x y : List (BitVec 64) => x.length = 25 ∧ y.length = 25) (Leak.Sha3.permute k R A) (.ok (Sha3.permute R A)) (Leak.Sha3.permute k' R A') (.ok (Sha3.permute R A')) :=
  SameTrace.twin (keccak_permute_trace R hR) (i := ⟨k, [], A⟩) (j := ⟨k', [], A'⟩) ⟨hk, hA⟩ ⟨hk', hA'⟩ fun B B' e e' => by
    cases Except.ok.inj e
    cases Except.ok.inj e'
    exact ⟨length_permute R A hA, length_permute R A' hA'⟩

theorem shake_next_twin (hR : R ≤ 24) {p p' : Nat} {k k' : Nat → Locals.Sha3.Stack} {A A' : List (BitVec 64)} (hk : Each Locals.Sha3.Stack.Sized k) (hk' : Each Locals.Sha3.Stack.Sized k') (hp : p = p')
    (hA : A.length = 25) (hA' : A'.length = 25) :
    Twin (fun x y : List (BitVec 64) => x.length = 25 ∧ y.length = 25) (Leak.Shake.next R k p A) (.ok (if p ≠ 0 then Sha3.permute R A else A))
      (Leak.Shake.next R k' p' A') (.ok (if p' ≠ 0 then Sha3.permute R A' else A')) := by
  subst hp
  rw [apply_ite Except.ok, apply_ite Except.ok]
  exact Twin.branch Iff.rfl (fun _ _ => permute_twin hR hk hk' hA hA') fun _ _ => Twin.pure ⟨hA, hA'⟩

theorem shake_first_twin (hR : R ≤ 24) (hr : Safety.Shake.Rate rate) {nl sl n : Nat} {k k' : Leak.Shake.Stacks} {s s' : Blk St} (hk : KeccakSized k) (hk' : KeccakSized k') (h : ShakeSame nl sl s s') :
    Twin (OutSame (Same 168 (ShakeSt nl sl true))) (Leak.Shake.squeezeFirst R rate k n s) (squeezeFirst R rate n s) (Leak.Shake.squeezeFirst R rate k' n s') (squeezeFirst R rate n s') := by
  obtain ⟨q, h⟩ := h
  have h2 := hr.2
  refine Twin.branch (by rw [h.h.2.2.2, h.h'.2.2.2]) (fun hq _ => ?_) fun hq _ => ?_
  · refine Twin.bind (padLast_twin hR (by omega) (by omega : rate / 8 ≤ 168) hk hk' h.m h.pos h.h.1 h.h'.1) fun x y r => ?_
    exact Twin.pure ⟨rfl, by show s.pos + 1 = s'.pos + 1; rw [h.pos], h.total, r.1, ⟨r.2.1, h.h.2.1, h.h.2.2.1, rfl⟩, ⟨r.2.2, h.h'.2.1, h.h'.2.2.1, rfl⟩⟩
  · have hq : q = true := by
      rw [h.h.2.2.2] at hq
      cases q
      · exact absurd rfl hq
      · rfl
    subst hq
    refine Twin.branch (by rw [h.pos]) (fun _ _ => ?_) fun _ _ => Twin.branch (by rw [h.pos]) (fun _ _ => ?_) fun _ _ => Twin.pure ⟨rfl, h⟩
    · refine Twin.bind (Twin.readBytes h.pos (by rw [h.pos])) fun a b r => Twin.pure ⟨r.1.trans r.2.symm, ?_, h.total, h.m, h.h, h.h'⟩
      show s.pos + min n (rate / 8 - s.pos) = s'.pos + min n (rate / 8 - s'.pos)
      rw [h.pos]
    · exact Twin.skip (permute_twin hR (hk 0) (hk' 0) h.h.1 h.h'.1) fun r => Twin.pure ⟨rfl, h.pos, h.total, h.m, ⟨r.1, h.h.2⟩, ⟨r.2, h.h'.2⟩⟩

theorem shake_loop_twin (hR : R ≤ 24) {nl sl n r : Nat} : ∀ (fuel : Nat) (k k' : Nat → Leak.Shake.Stacks) (o o' : Bytes) (s s' : Blk St),
    Each KeccakSized k → Each KeccakSized k' → o.length = o'.length → Same 168 (ShakeSt nl sl true) s s' →
    Twin (OutSame (Same 168 (ShakeSt nl sl true))) (Leak.Shake.squeezeLoop R r n fuel k o s) (squeezeLoop R r n fuel o s) (Leak.Shake.squeezeLoop R r n fuel k' o' s') (squeezeLoop R r n fuel o' s')
  | 0, k, k', o, o', s, s', hk, hk', ho, h => Twin.seen (by rw [ho]) (Twin.pure ⟨ho, h⟩)
  | fuel + 1, k, k', o, o', s, s', hk, hk', ho, h => by
    refine Twin.branch (by rw [ho]) (fun _ _ => ?_) fun _ _ => Twin.pure ⟨ho, h⟩
    refine Twin.skip (shake_next_twin hR (hk 0 0) (hk' 0 0) ho h.h.1 h.h'.1) fun rA => ?_
    refine Twin.bind (Twin.readBytes rfl (by rw [ho])) fun c c' rc => ?_
    exact shake_loop_twin hR fuel _ _ _ _ _ _ (fun i => hk (i + 1)) (fun i => hk' (i + 1)) (by rw [List.length_append, List.length_append, ho, rc.1, rc.2])
      ⟨by show min _ _ = min _ _; rw [ho], h.total, h.m, ⟨rA.1, h.h.2⟩, ⟨rA.2, h.h'.2⟩⟩

theorem shake_squeeze_twin (hR : R ≤ 24) (hr : Safety.Shake.Rate rate) {nl sl n : Nat} {k k' : Nat → Leak.Shake.Stacks} {s s' : Blk St} (hk : Each KeccakSized k) (hk' : Each KeccakSized k')
    (h : ShakeSame nl sl s s') :
    Twin (fun x y => ShakeSame nl sl x.2 y.2) (Leak.Shake.squeeze R rate k n s) (squeeze R rate n s) (Leak.Shake.squeeze R rate k' n s') (squeeze R rate n s') :=
  Twin.bind (shake_first_twin hR hr (hk 0) (hk' 0) h) fun a b r =>
    (shake_loop_twin hR n _ _ a.1 b.1 a.2 b.2 (fun i => hk (i + 1)) (fun i => hk' (i + 1)) r.1 r.2).mono fun _ _ _ _ r => ⟨true, r.2⟩

/-- Two KMAC objects that have absorbed, or given, the same number of bytes. -/
structure KmacSame (hs kl sl : Nat) (s s' : Kmac.St) : Prop where
  hs : s.hs = hs ∧ s'.hs = hs
  K : s.K.length = kl ∧ s'.K.length = kl
  q : s.squeezing = s'.squeezing
  shake : ShakeSame 4 sl s.shake s'.shake

/-- What the trace of `init` depends on. `kl`: the length of the padded key. -/
abbrev _root_.Digestpp.Properties.KmacNew (hs kl sl : Nat) (s : Kmac.St) : Prop := s.shake.m.length = 168 ∧ s.hs = hs ∧ s.K.length = kl ∧ s.shake.h.S.length = sl

theorem kmac_update_twin (B : Nat) {hs kl sl : Nat} {k k' : Nat → Leak.Shake.Stacks} {d d' : Bytes} {s s' : Kmac.St} (hk : Each KeccakSized k) (hk' : Each KeccakSized k')
    (hd : d.length = d'.length) (hl : d.length < 2 ^ 63) (h : KmacSame hs kl sl s s') :
    Twin (KmacSame hs kl sl) (Leak.Kmac.update B k d s) (Kmac.update B d s) (Leak.Kmac.update B k' d' s') (Kmac.update B d' s') := by
  obtain ⟨q, r⟩ := h.shake
  exact Twin.bind (shake_update_twin (by decide) (Safety.Shake.rateOf_ok B) hk hk' hd hl r) fun a b r => Twin.pure ⟨h.hs, h.K, h.q, q, r⟩

theorem kmac_init_twin (B : Nat) {hs kl sl : Nat} (hkl : kl < 2 ^ 63) (hsl : sl < 2 ^ 63) {k k' : Nat → Nat → Leak.Shake.Stacks} {s s' : Kmac.St} (hk : Each (Each KeccakSized) k) (hk' : Each (Each KeccakSized) k')
    (h : KmacNew hs kl sl s) (h' : KmacNew hs kl sl s') :
    Twin (KmacSame hs kl sl) (Leak.Kmac.init B k s) (Kmac.init B s) (Leak.Kmac.init B k' s') (Kmac.init B s') := by
  refine Twin.bind (shake_init_twin (nl := 4) (by decide) (Safety.Shake.rateOf_ok B) (by decide) hsl hk hk' ⟨h.1, h'.1⟩ ⟨(by decide : (ascii "KMAC").length = 4), h.2.2.2⟩
    ⟨(by decide : (ascii "KMAC").length = 4), h'.2.2.2⟩) fun a b r => ?_
  exact kmac_update_twin B (hk 6) (hk' 6) (h.2.2.1.trans h'.2.2.1.symm) (by rw [h.2.2.1]; exact hkl) ⟨⟨h.2.1, h'.2.1⟩, ⟨h.2.2.1, h'.2.2.1⟩, rfl, false, r⟩

theorem kmac_first_twin (B : Nat) (xof : Bool) {hs kl sl n : Nat} {k k' : Nat → Leak.Shake.Stacks} {s s' : Kmac.St} (hk : Each KeccakSized k) (hk' : Each KeccakSized k')
    (h : KmacSame hs kl sl s s') :
    Twin (KmacSame hs kl sl) (Leak.Kmac.squeezeFirst B xof k n s) (Kmac.squeezeFirst B xof n s) (Leak.Kmac.squeezeFirst B xof k' n s') (Kmac.squeezeFirst B xof n s') := by
  refine Twin.branch (by rw [h.q]) (fun _ _ => ?_) fun _ _ => Twin.pure h
  refine Twin.bind (kmac_update_twin B hk hk' rfl (by have := Safety.Shake.length_rightEncode (if !xof then n * 8 % szMod else 0) false; omega) h) fun a b r => ?_
  exact Twin.pure ⟨r.hs, r.K, rfl, r.shake⟩

theorem kmac_squeeze_twin (B : Nat) (xof : Bool) {hs kl sl n : Nat} {k k' : (Nat → Leak.Shake.Stacks) × (Nat → Leak.Shake.Stacks)} {s s' : Kmac.St} (hk : Each KeccakSized k.1 ∧ Each KeccakSized k.2)
    (hk' : Each KeccakSized k'.1 ∧ Each KeccakSized k'.2) (h : KmacSame hs kl sl s s') :
    Twin (fun x y => KmacSame hs kl sl x.2 y.2) (Leak.Kmac.squeeze B xof k n s) (Kmac.squeeze B xof n s) (Leak.Kmac.squeeze B xof k' n s') (Kmac.squeeze B xof n s') := by
  refine Twin.bind (kmac_first_twin B xof hk.1 hk'.1 h) fun a b r => ?_
  exact Twin.bind (shake_squeeze_twin (by decide) (Safety.Shake.rateOf_ok B) hk.2 hk'.2 r.shake) fun x y q => Twin.pure ⟨r.hs, r.K, r.q, q⟩

theorem kmac_final_twin (B : Nat) {hs kl sl : Nat} {k k' : (Nat → Leak.Shake.Stacks) × (Nat → Leak.Shake.Stacks)} {s s' : Kmac.St} (hk : Each KeccakSized k.1 ∧ Each KeccakSized k.2)
    (hk' : Each KeccakSized k'.1 ∧ Each KeccakSized k'.2) (h : KmacSame hs kl sl s s') :
    Twin Any (Leak.Kmac.final B k s) (Kmac.final B s) (Leak.Kmac.final B k' s') (Kmac.final B s') := by
  unfold Leak.Kmac.final Kmac.final
  rw [h.hs.1, h.hs.2]
  exact Twin.bind (kmac_squeeze_twin B false hk hk' h) fun _ _ _ => Twin.pure trivial

end Digestpp.Proofs.Leak
