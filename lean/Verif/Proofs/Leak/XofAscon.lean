import Verif.Proofs.Leak.XofBlake2
import Verif.Proofs.SafetyAscon

/-! Ascon and Esch: the trace of a whole computation. -/

namespace Digestpp.Proofs.Leak
open Model Properties

section Ascon
open Model.Ascon

/-- What is known of the members of an Ascon object: `zl` is the length of the customization. -/
abbrev AsconSt (zl : Nat) (q : Bool) (h : St) : Prop := h.H.length = 5 ∧ h.Z.length = zl ∧ h.squeezing = q

/-- Two objects that have absorbed, or given, the same number of bytes. -/
def AsconSame (zl : Nat) (s s' : Blk St) : Prop := ∃ q, Same 64 (AsconSt zl q) s s'

theorem ascon_keeps (zl : Nat) (q : Bool) : SafeTransform 8 64 (AsconSt zl q) transform := by
  intro s data n hn hm hi
  obtain ⟨H, e, l⟩ := Safety.Ascon.transform_ok data n s hn hi.1
  exact ⟨{ s.h with H := H }, s.m, hm, ⟨l, hi.2⟩, e⟩

theorem ascon_twin (zl : Nat) (q : Bool) : TwinTransform 8 64 (AsconSt zl q) (fun _ : Unit => True) Leak.Ascon.callback transform :=
  .of (ascon_keeps zl q) fun n => trace_of (ascon_trace n) (p := fun _ d s => n * 8 ≤ d.length ∧ AsconSt zl q s.h) (fun _ _ _ h => ⟨h.1, h.2.1⟩) |>.imp fun _ h k d s _ b c => h k d s ⟨b, c⟩

theorem ascon_update_twin {zl : Nat} {q : Bool} {k k' : Nat → Unit} {d d' : Bytes} {s s' : Blk St} (hd : d.length = d'.length) (hl : d.length < 2 ^ 63) (h : Same 64 (AsconSt zl q) s s') :
    Twin (Same 64 (AsconSt zl q)) (Leak.Ascon.update k d s) (update d s) (Leak.Ascon.update k' d' s') (update d' s') :=
  absorbBytes_twin (ascon_twin zl q) (z := 0) (by omega) (by omega) (by omega) (fun _ => trivial) (fun _ => trivial) hd hl h

theorem ascon_custom_twin {zl : Nat} (hz : zl < 2 ^ 63) {s s' : Blk St} (h : Same 64 (AsconSt zl false) s s') :
    Twin (Same 64 (AsconSt zl false)) (Leak.Ascon.initCustom s) (initCustom s) (Leak.Ascon.initCustom s') (initCustom s') := by
  have e := h.h.2.1
  have e' := h.h'.2.1
  have ee : s.h.Z.length = s'.h.Z.length := e.trans e'.symm
  refine Twin.bind (ascon_update_twin rfl (by show 8 < _; decide) h) fun a b r => ?_
  refine Twin.bind (R := Same 64 (AsconSt zl false)) ?_ fun a b r => ?_
  · exact Twin.branch (by rw [show s.h.Z.isEmpty = s'.h.Z.isEmpty by rw [Bool.eq_iff_iff, List.isEmpty_iff_length_eq_zero, List.isEmpty_iff_length_eq_zero, ee]])
      (fun _ _ => ascon_update_twin ee (by rw [e]; exact hz) r) fun _ _ => Twin.pure r
  · exact Twin.bind (Twin.readBytes rfl (by rw [ee])) fun z z' rz => ascon_update_twin (rz.1.trans rz.2.symm) (by rw [rz.1]; omega) r

theorem ascon_init_twin (kind : Kind) {zl : Nat} (hz : zl < 2 ^ 63) {k k' : Unit} {s s' : Blk St} (hm : Sz 64 s.m s'.m) (h : s.h.Z.length = zl) (h' : s'.h.Z.length = zl) :
    Twin (Same 64 (AsconSt zl false)) (Leak.Ascon.init kind k s) (init kind s) (Leak.Ascon.init kind k' s') (init kind s') := by
  have l : ∀ s : Blk St, (initFields kind s).h.H.length = 5 := fun s => by cases kind <;> rfl
  have r : Same 64 (AsconSt zl false) (initFields kind s) (initFields kind s') :=
    ⟨rfl, rfl, ⟨(Safety.length_zeroBytes s.m).trans hm.1, (Safety.length_zeroBytes s'.m).trans hm.2⟩, ⟨l s, h, rfl⟩, ⟨l s', h', rfl⟩⟩
  cases kind with
  | cxof => exact ascon_custom_twin hz r
  | hash => exact Twin.pure r
  | xof => exact Twin.pure r

theorem ascon_first_twin {zl n : Nat} {s s' : Blk St} (h : AsconSame zl s s') :
    Twin (OutSame (Same 64 (AsconSt zl true))) (Leak.Ascon.squeezeFirst n s) (squeezeFirst n s) (Leak.Ascon.squeezeFirst n s') (squeezeFirst n s') := by
  obtain ⟨q, h⟩ := h
  refine Twin.branch (by rw [h.h.2.2, h.h'.2.2]) (fun hq _ => ?_) fun hq _ => ?_
  · refine Twin.bind (Twin.setByte h.m h.pos) fun m m' rm => ?_
    refine Twin.bind (Twin.branch (by rw [h.pos]) (fun _ _ => Twin.memset rm (by rw [h.pos]) (by rw [h.pos])) fun _ _ => Twin.pure rm) fun m m' rm => ?_
    refine Twin.bind (ascon_twin zl q () () m m' 1 _ _ trivial trivial (by rw [rm.1]; omega) (by rw [rm.2]; omega) ⟨by show s.pos + 1 = s'.pos + 1; rw [h.pos], h.total, rm, h.h, h.h'⟩) fun a b r => ?_
    refine Twin.bind (Twin.memset r.m rfl rfl) fun m m' rm => ?_
    exact Twin.pure ⟨rfl, r.pos, r.total, rm, ⟨r.h.1, r.h.2.1, rfl⟩, ⟨r.h'.1, r.h'.2.1, rfl⟩⟩
  · have hq : q = true := by
      rw [h.h.2.2] at hq
      cases q
      · exact absurd rfl hq
      · rfl
    subst hq
    refine Twin.branch (by rw [h.pos]) (fun _ _ => ?_) fun _ _ => Twin.branch (by rw [h.pos]) (fun _ _ => ?_) fun _ _ => Twin.pure ⟨rfl, h⟩
    · refine Twin.bind (Twin.readBytes h.pos (by rw [h.pos])) fun a b r => Twin.pure ⟨r.1.trans r.2.symm, ?_, h.total, h.m, h.h, h.h'⟩
      show s.pos + min n (8 - s.pos) = s'.pos + min n (8 - s'.pos)
      rw [h.pos]
    · exact Twin.bind (ascon_twin zl true () () s.m s'.m 1 _ _ trivial trivial (by rw [h.m.1]; omega) (by rw [h.m.2]; omega) h) fun a b r => Twin.pure ⟨rfl, r⟩

theorem ascon_loop_twin {zl n : Nat} : ∀ (fuel : Nat) (o o' : Bytes) (s s' : Blk St), o.length = o'.length → Same 64 (AsconSt zl true) s s' →
    Twin (OutSame (Same 64 (AsconSt zl true))) (Leak.Ascon.squeezeLoop n fuel o s) (squeezeLoop n fuel o s) (Leak.Ascon.squeezeLoop n fuel o' s') (squeezeLoop n fuel o' s')
  | 0, o, o', s, s', ho, h => Twin.seen (by rw [ho]) (Twin.pure ⟨ho, h⟩)
  | fuel + 1, o, o', s, s', ho, h => by
    refine Twin.branch (by rw [ho]) (fun _ _ => ?_) fun _ _ => Twin.pure ⟨ho, h⟩
    refine Twin.bind (R := Same 64 (AsconSt zl true)) ?_ fun a b r => ?_
    · exact Twin.branch (by rw [ho]) (fun _ _ => ascon_twin zl true () () s.m s'.m 1 _ _ trivial trivial (by rw [h.m.1]; omega) (by rw [h.m.2]; omega) h) fun _ _ => Twin.pure h
    · refine Twin.bind (Twin.readBytes rfl (by rw [ho])) fun c c' rc => ?_
      exact ascon_loop_twin fuel _ _ _ _ (by rw [List.length_append, List.length_append, ho, rc.1, rc.2]) ⟨by show min _ _ = min _ _; rw [ho], r.total, r.m, r.h, r.h'⟩

theorem ascon_squeeze_twin {zl n : Nat} {k k' : Nat → Unit} {s s' : Blk St} (h : AsconSame zl s s') :
    Twin (fun x y => AsconSame zl x.2 y.2) (Leak.Ascon.squeeze k n s) (squeeze n s) (Leak.Ascon.squeeze k' n s') (squeeze n s') :=
  Twin.bind (ascon_first_twin h) fun a b r => (ascon_loop_twin n a.1 b.1 a.2 b.2 r.1 r.2).mono fun _ _ _ _ r => ⟨true, r.2⟩

theorem ascon_final_twin {zl : Nat} {k k' : Nat → Unit} {s s' : Blk St} (h : AsconSame zl s s') : Twin Any (Leak.Ascon.final k s) (final s) (Leak.Ascon.final k' s') (final s') :=
  Twin.bind (ascon_squeeze_twin h) fun _ _ _ => Twin.pure trivial

end Ascon

section Esch
open Model.Esch

/-- The hash size and the number of elements of `H`. -/
abbrev _root_.Digestpp.Properties.EschSizes (N hs : Nat) : Prop := (hs = 256 ∧ 384 ≤ N) ∨ (hs = 384 ∧ 512 ≤ N)

/-- What is known of the members of an Esch object. -/
abbrev EschSt (N hs : Nat) (q : Bool) (h : St) : Prop := Safety.Esch.Keep N hs q h

/-- The local array of `transform`. -/
abbrev _root_.Digestpp.Properties.EschSized (k : Leak.Esch.Stacks) : Prop := Each (fun M : List (BitVec 32) => M.length = 4) k

/-- Two objects that have absorbed, or given, the same number of bytes. -/
def EschSame (N hs : Nat) (s s' : Blk St) : Prop := ∃ q, Same 128 (EschSt N hs q) s s'

theorem esch_twin (l : Bool) {N hs : Nat} (hN : EschSizes N hs) (q : Bool) : TwinTransform 16 128 (EschSt N hs q) EschSized (fun k => Leak.Esch.transform k l) (transform l) :=
  .of (Safety.Esch.transform_safe l N hs q) fun n => trace_of (esch_trace hs n l) (p := fun k d s => EschSized k ∧ n * 16 ≤ d.length ∧ EschSt N hs q s.h)
    (fun _ _ _ h => ⟨h.1, h.2.1, h.2.2.2.1, by rw [h.2.2.1]; split <;> omega⟩) |>.imp fun _ h k d s a b c => h k d s ⟨a, b, c⟩

theorem esch_update_twin {N hs : Nat} (hN : EschSizes N hs) {q : Bool} {k k' : Nat → Leak.Esch.Stacks} {d d' : Bytes} {s s' : Blk St} (hk : Each EschSized k) (hk' : Each EschSized k')
    (hd : d.length = d'.length) (hl : d.length < 2 ^ 63) (h : Same 128 (EschSt N hs q) s s') :
    Twin (Same 128 (EschSt N hs q)) (Leak.Esch.update k d s) (update d s) (Leak.Esch.update k' d' s') (update d' s') :=
  absorbBytes_twin (esch_twin false hN q) (z := 1) (by omega) (by omega) (by omega) hk hk' hd hl h

theorem xorConst_twin {N hs : Nat} (hN : EschSizes N hs) {q : Bool} {v v' : BitVec 32} {h h' : St} (i : EschSt N hs q h) (i' : EschSt N hs q h') :
    Twin (fun x y => EschSt N hs q x ∧ EschSt N hs q y) (Leak.Esch.xorConst v h) (xorConst v h) (Leak.Esch.xorConst v' h') (xorConst v' h') := by
  have run : ∀ (v : BitVec 32) (h : St), EschSt N hs q h → ∃ a, xorConst v h = .ok a ∧ EschSt N hs q a ∧ Leak.Esch.xorConst v h = .ok (a, [.read ((hs + 128) / 64 - 1), .write ((hs + 128) / 64 - 1)]) := by
    intro v h ⟨l, e, q⟩
    have hi : (h.hs + 128) / 64 - 1 < h.H.length := by rw [l, e]; omega
    refine ⟨{ h with H := h.H.set ((h.hs + 128) / 64 - 1) (at32 h.H ((h.hs + 128) / 64 - 1) ^^^ v) }, if_pos hi, ⟨(List.length_set ..).trans l, e, q⟩, ?_⟩
    rw [← e]
    have er : Leak.rd h.H ((h.hs + 128) / 64 - 1) = .ok (at32 h.H ((h.hs + 128) / 64 - 1), [.read ((h.hs + 128) / 64 - 1)]) := by
      unfold Leak.rd Model.rd at32
      rw [List.getD_eq_getElem?_getD, List.getElem?_eq_getElem hi]
      rfl
    have ew : ∀ x : BitVec 32, Leak.wr h.H ((h.hs + 128) / 64 - 1) x = .ok (h.H.set ((h.hs + 128) / 64 - 1) x, [.write ((h.hs + 128) / 64 - 1)]) := fun x => by
      unfold Leak.wr Model.wr
      rw [if_pos hi]
      rfl
    exact bind_ok (t := [.read ((h.hs + 128) / 64 - 1), .write ((h.hs + 128) / 64 - 1)]) (u := []) (bind_ok er (ew _)) rfl
  intro a b ea eb
  obtain ⟨a', e1, i1, t1⟩ := run v h i
  obtain ⟨b', e2, i2, t2⟩ := run v' h' i'
  cases Except.ok.inj (e1.symm.trans ea)
  cases Except.ok.inj (e2.symm.trans eb)
  exact ⟨_, t1, t2, i1, i2⟩

theorem esch_pad_twin (xof : Bool) {N hs : Nat} (hN : EschSizes N hs) {q : Bool} {s s' : Blk St} (h : Same 128 (EschSt N hs q) s s') :
    Twin (Same 128 (EschSt N hs q)) (Leak.Esch.padLast xof s) (if s.pos < 16 then do
        let m ← memset s.m s.pos 0 (16 - s.pos)
        let m ← setByte m s.pos 0x80
        let h ← xorConst (if xof then 0x5000000 else 0x1000000) s.h
        pure { s with m := m, h := h }
      else do
        let h ← xorConst (if xof then 0x6000000 else 0x2000000) s.h
        pure { s with h := h }) (Leak.Esch.padLast xof s') (if s'.pos < 16 then do
        let m ← memset s'.m s'.pos 0 (16 - s'.pos)
        let m ← setByte m s'.pos 0x80
        let h ← xorConst (if xof then 0x5000000 else 0x1000000) s'.h
        pure { s' with m := m, h := h }
      else do
        let h ← xorConst (if xof then 0x6000000 else 0x2000000) s'.h
        pure { s' with h := h }) := by
  refine Twin.branch (by rw [h.pos]) (fun _ _ => ?_) fun _ _ => ?_
  · refine Twin.bind (Twin.memset h.m h.pos (by rw [h.pos])) fun m m' rm => ?_
    refine Twin.bind (Twin.setByte rm h.pos) fun m m' rm => ?_
    exact Twin.bind (xorConst_twin hN h.h h.h') fun x y r => Twin.pure ⟨h.pos, h.total, rm, r.1, r.2⟩
  · exact Twin.bind (xorConst_twin hN h.h h.h') fun x y r => Twin.pure ⟨h.pos, h.total, h.m, r.1, r.2⟩

theorem sparkle_twin {N hs : Nat} (hN : EschSizes N hs) {H H' : List (BitVec 32)} (h : H.length = N / 32) (h' : H'.length = N / 32) {ns : Nat} :
    Twin (fun x y : List (BitVec 32) => x.length = N / 32 ∧ y.length = N / 32) (Leak.Esch.sparkle (if hs > 256 then 8 else 6) ns H) (.ok (sparkle (if hs > 256 then 8 else 6) ns H))
      (Leak.Esch.sparkle (if hs > 256 then 8 else 6) ns H') (.ok (sparkle (if hs > 256 then 8 else 6) ns H')) := by
  have ok : ∀ H : List (BitVec 32), H.length = N / 32 → L.erase (Leak.Esch.sparkle (if hs > 256 then 8 else 6) ns H) = .ok (sparkle (if hs > 256 then 8 else 6) ns H) := fun H h => by
    rw [Esch.sparkle_erase]
    exact sparkle_locals _ ns (by split <;> omega) H (by rw [h]; split <;> omega)
  refine (Twin.ofAgree (Esch.sparkle_agree _ ns H H') (ok H h) (ok H' h')).mono fun a b ea eb _ => ?_
  cases Except.ok.inj ea
  cases Except.ok.inj eb
  exact ⟨(Safety.Esch.length_sparkle ..).trans h, (Safety.Esch.length_sparkle ..).trans h'⟩

theorem esch_next_twin {N hs : Nat} (hN : EschSizes N hs) {t t' : BitVec 64} (ht : t = t') {H H' : List (BitVec 32)} (h : H.length = N / 32) (h' : H'.length = N / 32) :
    Twin (fun x y : List (BitVec 32) => x.length = N / 32 ∧ y.length = N / 32) (Leak.Esch.next t hs H) (.ok (if t = 0 then sparkle (if hs > 256 then 8 else 6) (if hs > 256 then 8 else 7) H else H))
      (Leak.Esch.next t' hs H') (.ok (if t' = 0 then sparkle (if hs > 256 then 8 else 6) (if hs > 256 then 8 else 7) H' else H')) := by
  subst ht
  rw [apply_ite Except.ok, apply_ite Except.ok]
  exact Twin.branch Iff.rfl (fun _ _ => sparkle_twin hN h h') fun _ _ => Twin.pure ⟨h, h'⟩

theorem esch_first_twin (xof : Bool) {N hs : Nat} (hN : EschSizes N hs) {n : Nat} {k k' : Leak.Esch.Stacks} {s s' : Blk St} (hk : EschSized k) (hk' : EschSized k') (h : EschSame N hs s s') :
    Twin (OutSame (Same 128 (EschSt N hs true))) (Leak.Esch.squeezeFirst xof k n s) (squeezeFirst xof n s) (Leak.Esch.squeezeFirst xof k' n s') (squeezeFirst xof n s') := by
  obtain ⟨q, h⟩ := h
  refine Twin.branch (by rw [h.h.2.2, h.h'.2.2]) (fun hq _ => ?_) fun hq _ => ?_
  · have r0 : Same 128 (EschSt N hs true) { s with total := 1, h := { s.h with squeezing := true } } { s' with total := 1, h := { s'.h with squeezing := true } } :=
      ⟨h.pos, rfl, h.m, ⟨h.h.1, h.h.2.1, rfl⟩, ⟨h.h'.1, h.h'.2.1, rfl⟩⟩
    refine Twin.bind (esch_pad_twin xof hN r0) fun a b r => ?_
    exact Twin.bind (esch_twin true hN true k k' a.m b.m 1 a b hk hk' (by rw [r.m.1]; omega) (by rw [r.m.2]; omega) r) fun c d r => Twin.pure ⟨rfl, r⟩
  · have hq : q = true := by
      rw [h.h.2.2] at hq
      cases q
      · exact absurd rfl hq
      · rfl
    subst hq
    refine Twin.branch (by rw [h.pos]) (fun _ _ => ?_) fun _ _ => Twin.pure ⟨rfl, h⟩
    refine Twin.bind (Twin.readBytes h.pos (by rw [h.pos])) fun a b r => Twin.pure ⟨r.1.trans r.2.symm, ?_, rfl, h.m, h.h, h.h'⟩
    show s.pos + min n (16 - s.pos) = s'.pos + min n (16 - s'.pos)
    rw [h.pos]

theorem esch_loop_twin {N hs : Nat} (hN : EschSizes N hs) {n : Nat} : ∀ (fuel : Nat) (o o' : Bytes) (s s' : Blk St), o.length = o'.length → Same 128 (EschSt N hs true) s s' →
    Twin (OutSame (Same 128 (EschSt N hs true))) (Leak.Esch.squeezeLoop n fuel o s) (squeezeLoop n fuel o s) (Leak.Esch.squeezeLoop n fuel o' s') (squeezeLoop n fuel o' s')
  | 0, o, o', s, s', ho, h => Twin.seen (by rw [ho]) (Twin.pure ⟨ho, h⟩)
  | fuel + 1, o, o', s, s', ho, h => by
    refine Twin.branch (by rw [ho]) (fun _ _ => ?_) fun _ _ => Twin.pure ⟨ho, h⟩
    rw [h.h.2.1, h.h'.2.1]
    refine Twin.skip (esch_next_twin hN h.total h.h.1 h.h'.1) fun rH => ?_
    refine Twin.bind (Twin.readBytes rfl (by rw [ho])) fun c c' rc => ?_
    exact esch_loop_twin hN fuel _ _ _ _ (by rw [List.length_append, List.length_append, ho, rc.1, rc.2])
      ⟨by show min _ _ = min _ _; rw [ho], rfl, h.m, ⟨rH.1, h.h.2⟩, ⟨rH.2, h.h'.2⟩⟩

theorem esch_squeeze_twin (xof : Bool) {N hs : Nat} (hN : EschSizes N hs) {n : Nat} {k k' : Nat → Leak.Esch.Stacks} {s s' : Blk St} (hk : Each EschSized k) (hk' : Each EschSized k') (h : EschSame N hs s s') :
    Twin (fun x y => EschSame N hs x.2 y.2) (Leak.Esch.squeeze xof k n s) (squeeze xof n s) (Leak.Esch.squeeze xof k' n s') (squeeze xof n s') :=
  Twin.bind (esch_first_twin xof hN (hk 0) (hk' 0) h) fun a b r => (esch_loop_twin hN n a.1 b.1 a.2 b.2 r.1 r.2).mono fun _ _ _ _ r => ⟨true, r.2⟩

theorem esch_final_twin {N hs : Nat} (hN : EschSizes N hs) {k k' : Nat → Leak.Esch.Stacks} {s s' : Blk St} (hk : Each EschSized k) (hk' : Each EschSized k') (h : EschSame N hs s s') :
    Twin Any (Leak.Esch.final k s) (final s) (Leak.Esch.final k' s') (final s') := by
  have e : s.h.hs = s'.h.hs := by
    obtain ⟨q, h⟩ := h
    exact h.h.2.1.trans h.h'.2.1.symm
  unfold Leak.Esch.final final
  rw [e]
  exact Twin.bind (esch_squeeze_twin false hN hk hk' h) fun _ _ _ => Twin.pure trivial

theorem esch_init_twin {N hs : Nat} {k k' : Unit} {s s' : Blk St} (hm : Sz 128 s.m s'.m) (h : s.h.H.length = N / 32 ∧ s.h.hs = hs) (h' : s'.h.H.length = N / 32 ∧ s'.h.hs = hs) :
    Twin (Same 128 (EschSt N hs false)) (Leak.Esch.init k s) (init s) (Leak.Esch.init k' s') (init s') :=
  Twin.pure ⟨rfl, rfl, ⟨(Safety.length_zeroBytes s.m).trans hm.1, (Safety.length_zeroBytes s'.m).trans hm.2⟩, ⟨List.length_map _ |>.trans h.1, h.2, rfl⟩, ⟨List.length_map _ |>.trans h'.1, h'.2, rfl⟩⟩

end Esch

end Digestpp.Proofs.Leak
