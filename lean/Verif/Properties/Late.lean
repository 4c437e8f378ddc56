import Verif.Proofs.LateSponge
import Verif.Properties.EmptySqueeze

/-! C52: data absorbed after squeezing has begun. -/

namespace Digestpp.Properties
open Model Spec

private theorem late_mono {c : XofClass} {Θ : Type} {f : XofFn c.P Θ} {g : Late Θ} {adm : Θ → Bytes → Prop} {clr : Prop} {prm prm' : c.P → Prop}
    {out : Nat → Prop} (h : LateConforms c f ⟨adm, clr, prm, out⟩ g) (hp : ∀ p, prm' p → prm p) : LateConforms c f ⟨adm, clr, prm', out⟩ g := by
  intro mem hm
  obtain ⟨s, e, hs⟩ := h mem hm
  refine ⟨s, e, fun ops hc => hs ops ?_⟩
  have : ∀ (ops : List (XofOp c.P)) o, g.Covered f ⟨adm, clr, prm', out⟩ ops o → g.Covered f ⟨adm, clr, prm, out⟩ ops o := by
    intro ops
    induction ops with
    | nil => intros; trivial
    | cons op ops ih =>
      intro o hc
      refine ⟨?_, ih _ hc.2⟩
      cases op with
      | set p => exact hp p hc.1
      | _ => exact hc.1
  exact this ops _ hc

/-- **C52** for `shake128` and `shake256`: late bytes are lost, and as many bytes of output are passed over. -/
theorem shake_late (b : Nat) (hb : b = 128 ∨ b = 256) :
    LateConforms (Model.Shake.shake b) (Spec.shake b) (Cover.all Empty) (.sponge (200 - 2 * b / 8)) := by
  obtain ⟨Z, h⟩ := Proofs.Shake.lateShake b hb
  refine Proofs.lateConforms (c := Model.Shake.shake b) h ?_
  intro mem hm
  obtain ⟨r, hr, he, h8, hr0, h168⟩ := Proofs.Shake.rateOf_eq b hb
  obtain ⟨s', e, h⟩ := Proofs.Shake.rel_init r h8 hr0 h168 ⟨[], []⟩ (Model.Shake.new mem) hm rfl rfl (by simp) (by simp)
  refine ⟨_, s', rfl, ?_, by rw [← hr]; exact h⟩
  rw [show (Model.Shake.shake b).pr.init = Model.Shake.init 24 (8 * r) by rw [← he]; rfl]
  exact e

/-- **C52** for `cshake128` and `cshake256`. -/
theorem cshake_late (b : Nat) (hb : b = 128 ∨ b = 256) :
    LateConforms (Model.Shake.cshake b) (Spec.cshakeFull b) ⟨fun _ _ => True, True, shortStrings, fun _ => True⟩
      (.sponge (200 - 2 * b / 8)) := by
  obtain ⟨Z, h⟩ := Proofs.Shake.lateFull b hb
  exact late_mono (Proofs.lateConforms (c := Model.Shake.cshake b) h (cshake_init b hb)) fun p h => by cases p <;> exact h

/-- **C52** for `kmac128_xof` and `kmac256_xof`. -/
theorem kmac_xof_late (b : Nat) (hb : b = 128 ∨ b = 256) :
    LateConforms (Model.Kmac.kmacXof b) (Spec.kmacXofFull b) ⟨fun _ _ => True, True, kmacShort, fun _ => True⟩
      (.sponge (200 - 2 * b / 8)) := by
  obtain ⟨Z, h⟩ := Proofs.Kmac.late b hb
  refine late_mono (Proofs.lateConforms (c := Model.Kmac.kmacXof b) h fun mem hm => ?_) fun p h => by cases p <;> exact h
  have ⟨s', e, r⟩ := kmac_init b 0 0 hb mem hm
  exact ⟨_, s', rfl, e, r⟩

private theorem k12_general_late (b R : Nat) (hb : b = 128 ∨ b = 256) (hR : R ≤ 24) :
    LateConforms (Model.K12.k12 b R) (Spec.k12 b R) ⟨fun _ m => m.length < 2 ^ 64, True, k12Short, fun _ => True⟩ .k12 := by
  refine late_mono (Proofs.lateConforms (c := Model.K12.k12 b R) (Proofs.K12.late b R hb hR) ?_) fun p h => by cases p; exact h
  intro mem hm
  obtain ⟨s', e, r⟩ := Proofs.K12.init_ok (Proofs.K12.par b R hb hR) [] (by simp) (Model.K12.new mem)
    ⟨hm.1, rfl, hm.2.1, rfl, rfl, hm.2.2, rfl, rfl⟩
  exact ⟨_, s', rfl, e, r⟩

/-- **C52** for `k12`: late bytes have no effect at all. -/
theorem k12_late :
    LateConforms (Model.K12.k12 128 12) (Spec.k12 128 12) ⟨fun _ m => m.length < 2 ^ 64, True, k12Short, fun _ => True⟩ .k12 :=
  k12_general_late 128 12 (.inl rfl) (by decide)

/-- **C52** for `kt256`. -/
theorem kt256_late :
    LateConforms (Model.K12.k12 256 12) (Spec.k12 256 12) ⟨fun _ m => m.length < 2 ^ 64, True, k12Short, fun _ => True⟩ .k12 :=
  k12_general_late 256 12 (.inr rfl) (by decide)

/-- **C52** for `m14`. -/
theorem m14_late :
    LateConforms (Model.K12.k12 256 14) (Spec.k12 256 14) ⟨fun _ m => m.length < 2 ^ 64, True, k12Short, fun _ => True⟩ .k12 :=
  k12_general_late 256 14 (.inr rfl) (by decide)

/-- **C52** for `esch256_xof`. -/
theorem esch256_late : LateConforms (Model.Esch.eschXof 384) (Spec.Esch.eschXof Spec.Esch.f256) (Cover.all Empty) (.sponge 16) := by
  have sz : Proofs.Esch.Sized Spec.Esch.f256 6 256 := .inl ⟨rfl, rfl, rfl⟩
  obtain ⟨Z, h⟩ := Proofs.Esch.late sz 0
  refine Proofs.lateConforms (c := Model.Esch.eschXof 384) h ?_
  intro mem hm
  obtain ⟨s', e, r⟩ := Proofs.Esch.init_ok sz 0 { mem with h := { mem.h with hs := 384 - 128, squeezing := false } } hm.2 hm.1 rfl
  exact ⟨_, s', rfl, e, r.rx⟩

/-- **C52** for `esch384_xof`. -/
theorem esch384_late : LateConforms (Model.Esch.eschXof 512) (Spec.Esch.eschXof Spec.Esch.f384) (Cover.all Empty) (.sponge 16) := by
  have sz : Proofs.Esch.Sized Spec.Esch.f384 8 384 := .inr ⟨rfl, rfl, rfl⟩
  obtain ⟨Z, h⟩ := Proofs.Esch.late sz 0
  refine Proofs.lateConforms (c := Model.Esch.eschXof 512) h ?_
  intro mem hm
  obtain ⟨s', e, r⟩ := Proofs.Esch.init_ok sz 0 { mem with h := { mem.h with hs := 512 - 128, squeezing := false } } hm.2 hm.1 rfl
  exact ⟨_, s', rfl, e, r.rx⟩

/-- **C52**, from the descriptions: which bytes are absorbed late makes no difference to anything the caller sees. -/
theorem late_lost {c : XofClass} {Θ : Type} {f : XofFn c.P Θ} {cov : Cover c.P Θ} {g : Late Θ} (h : LateConforms c f cov g) :
    LateLost c f cov g := Proofs.lateLost h

/-- **C52**, `shake128` and `shake256` with the calls written out. -/
theorem shake_late_lost (b : Nat) (hb : b = 128 ∨ b = 256) (mem : (Model.Shake.shake b).S) (hm : (Model.Shake.shake b).Mem mem)
    (msg x : Bytes) (n k : Nat) (hmsg : msg.length < 2 ^ 63) (hn : 0 < n) (h : n + x.length < 200 - 2 * b / 8) (hk : 0 < k) (hk' : k < 2 ^ 61) :
    (Model.Shake.shake b).trial mem [.absorb (.str msg), .squeeze n, .absorb (.str x), .squeeze k] =
      some [.done, .bytes (slice ((Spec.shake b).stream () msg) 0 n), .done,
        .bytes (slice ((Spec.shake b).stream () msg) (n + x.length) k)] := by
  obtain ⟨s, e, hs⟩ := shake_late b hb mem hm
  have hr : 200 - 2 * b / 8 ≤ 168 := by obtain rfl | rfl := hb <;> decide
  have hmod : n % (200 - 2 * b / 8) = n := Nat.mod_eq_of_lt (by omega)
  obtain ⟨s', e'⟩ := hs [.absorb (.str msg), .squeeze n, .absorb (.str x), .squeeze k] (by
    refine ⟨⟨hmsg, .inl rfl⟩, ⟨trivial, hn, by omega, trivial⟩, ⟨show x.length < 2 ^ 63 by omega, .inr ?_⟩, ⟨trivial, hk, hk', trivial⟩, trivial⟩
    show 0 < (0 + n) % (200 - 2 * b / 8) ∧ (0 + n) % (200 - 2 * b / 8) + x.length < 200 - 2 * b / 8
    rw [Nat.zero_add, hmod]
    exact ⟨hn, h⟩)
  unfold XofClass.trial
  simp only [e, e', bind, Except.bind, pure, Except.pure]
  simp only [Late.run, Late.step, Late.new, Late.next, Late.lose, Late.sponge, Source.contents, List.nil_append, Nat.zero_add, if_true,
    if_neg (show ¬ n = 0 by omega)]

/-! In `ascon_xof`, the BLAKE2 and the Skein extendable-output classes late bytes are not lost: they change the output in a way no standard
describes. -/

/-- Two late bytes in the same place, with different output after them. -/
def lateTrial (c : XofClass) (mem : c.S) (x : Byte) : Option (List Obs) :=
  c.trial mem [.squeeze 9, .absorb (.str [x]), .squeezeBuf (List.replicate 60 0)]

/-- **C52** does not extend to the other classes: there late bytes change the output. -/
theorem late_matters :
    differ (lateTrial Model.Ascon.asconXof asconMem 1) (lateTrial Model.Ascon.asconXof asconMem 2) = true ∧
    differ (lateTrial (Model.Blake2.blake2xof Model.Blake2.u64) (blake2Mem 64) 1) (lateTrial (Model.Blake2.blake2xof Model.Blake2.u64) (blake2Mem 64) 2) = true ∧
    differ (lateTrial (Model.Blake2.blake2xof Model.Blake2.u32) (blake2Mem 32) 1) (lateTrial (Model.Blake2.blake2xof Model.Blake2.u32) (blake2Mem 32) 2) = true ∧
    differ (lateTrial (Model.Skein.skeinXof Model.Skein.f4) (skeinMem 32) 1) (lateTrial (Model.Skein.skeinXof Model.Skein.f4) (skeinMem 32) 2) = true := by
  refine ⟨?_, ?_, ?_, ?_⟩ <;> decide +kernel

/-! Cases that meet the hypotheses. -/

/-- The stream of `shake128` for the empty message is 7f9c2ba4e88f827d…: after two bytes, three late ones pass over 2ba4e8. -/
example : (Model.Shake.shake 128).trial shakeMem [.hexsqueeze 2, .absorb (.str [1, 2, 3]), .hexsqueeze 3]
    = some [.text "7f9c".toList, .done, .text "8f827d".toList] := by decide +kernel
example : (Late.sponge 168).Covered (Spec.shake 128) (Cover.all Empty) [.hexsqueeze 2, .absorb (.str [1, 2, 3]), .hexsqueeze 3]
    (Late.new (Spec.shake 128)) :=
  ⟨⟨trivial, by decide, by decide, trivial⟩, ⟨show 3 < 2 ^ 63 by decide, .inr ⟨show 0 < (0 + 2) % 168 by decide, show (0 + 2) % 168 + 3 < 168 by decide⟩⟩,
    ⟨trivial, by decide, by decide, trivial⟩, trivial⟩
example : Late.k12.Covered (Spec.k12 128 12) ⟨fun _ m => m.length < 2 ^ 64, True, k12Short, fun _ => True⟩
    [.absorb (.str [7]), .squeeze 2, .absorb (.str [1, 2, 3]), .squeeze 3] (Late.new (Spec.k12 128 12)) :=
  ⟨⟨show 1 < 2 ^ 63 by decide, .inl rfl⟩, ⟨show 1 < 2 ^ 64 by decide, by decide, by decide, trivial⟩, ⟨show 3 < 2 ^ 63 by decide, .inr (by
    show (([7] ++ [] ++ Spec.K12.lengthEncode 0 : Bytes).length - 1) % 8192 + 1 + 0 + 3 ≤ 8192
    decide +kernel)⟩, ⟨show 1 < 2 ^ 64 by decide, by decide, by decide, trivial⟩, trivial⟩
example (pre post : List (XofOp Empty)) (h : (Late.sponge 168).Covered (Spec.shake 128) (Cover.all Empty) (pre ++ .absorb (.str [1, 2]) :: post)
    (Late.new (Spec.shake 128))) (h0 : ((Late.sponge 168).run (Spec.shake 128) pre (Late.new (Spec.shake 128))).2.squeezed ≠ 0) :
    ∃ s obs s1 s2, (Model.Shake.shake 128).construct shakeMem = .ok (some s) ∧
      (Model.Shake.shake 128).pr.run (pre ++ .absorb (.str [1, 2]) :: post) s = .ok (obs, s1) ∧
      (Model.Shake.shake 128).pr.run (pre ++ .absorb (.str [3, 4]) :: post) s = .ok (obs, s2) := by
  obtain ⟨s, e, hs⟩ := late_lost (shake_late 128 (.inl rfl)) shakeMem rfl
  obtain ⟨obs, s1, s2, h1, h2⟩ := hs pre (.str [1, 2]) (.str [3, 4]) post h (show 2 < 2 ^ 63 by decide) rfl h0
  exact ⟨s, obs, s1, s2, e, h1, h2⟩

end Digestpp.Properties
