import Verif.Spec.GapFns
import Verif.Proofs.GapLaws
import Verif.Proofs.GapSponge
import Verif.Proofs.GapSmall
import Verif.Proofs.GapSkein
import Verif.Proofs.GapBlake2
import Verif.Proofs.Catalog

/-! C32: squeezes of length zero. -/

namespace Digestpp.Properties
open Model Spec

private theorem mono {c : XofClass} {Θ : Type} {f : XofFn c.P Θ} {g : Gap Θ} {adm : Θ → Bytes → Prop} {clr : Prop} {prm prm' : c.P → Prop}
    {out : Nat → Prop} (h : GapConforms c f ⟨adm, clr, prm, out⟩ g) (hp : ∀ p, prm' p → prm p) : GapConforms c f ⟨adm, clr, prm', out⟩ g := by
  intro mem hm
  obtain ⟨s, e, hs⟩ := h mem hm
  refine ⟨s, e, fun ops hc => hs ops ?_⟩
  have : ∀ (ops : List (XofOp c.P)) o, g.Covered f ⟨adm, clr, prm', out⟩ ops o → g.Covered f ⟨adm, clr, prm, out⟩ ops o := by
    intro ops
    induction ops with
    | nil => intros; trivial
    | cons op ops ih =>
      intro o hc
      refine ⟨?_, ih _ hc.2⟩
      cases op with
      | set p => exact hp p hc.1
      | _ => exact hc.1
  exact this ops _ hc

/-- **C32**, what squeezes of length zero do in `shake128` and `shake256`. -/
theorem shake_gap (b : Nat) (hb : b = 128 ∨ b = 256) :
    GapConforms (Model.Shake.shake b) (Spec.shake b) (Cover.all Empty) (.sponge (200 - 2 * b / 8) fun _ msg => msg.length) := by
  obtain ⟨Z, h⟩ := Proofs.Shake.gapShake b hb
  refine Proofs.gapConforms (c := Model.Shake.shake b) h ?_
  intro mem hm
  obtain ⟨r, hr, he, h8, hr0, h168⟩ := Proofs.Shake.rateOf_eq b hb
  obtain ⟨s', e, h⟩ := Proofs.Shake.rel_init r h8 hr0 h168 ⟨[], []⟩ (Model.Shake.new mem) hm rfl rfl (by simp) (by simp)
  refine ⟨_, s', rfl, ?_, by rw [← hr]; exact h⟩
  rw [show (Model.Shake.shake b).pr.init = Model.Shake.init 24 (8 * r) by rw [← he]; rfl]
  exact e

/-- **C32**, what squeezes of length zero do in `cshake128` and `cshake256`. -/
theorem cshake_gap (b : Nat) (hb : b = 128 ∨ b = 256) :
    GapConforms (Model.Shake.cshake b) (Spec.cshakeFull b) ⟨fun _ _ => True, True, shortStrings, fun _ => True⟩
      (.sponge (200 - 2 * b / 8) fun _ msg => msg.length) := by
  obtain ⟨Z, h⟩ := Proofs.Shake.gapFull b hb
  exact mono (Proofs.gapConforms (c := Model.Shake.cshake b) h (cshake_init b hb)) fun p h => by cases p <;> exact h

/-- **C32**, what squeezes of length zero do in `kmac128_xof` and `kmac256_xof`; two bytes encode the output length. -/
theorem kmac_xof_gap (b : Nat) (hb : b = 128 ∨ b = 256) :
    GapConforms (Model.Kmac.kmacXof b) (Spec.kmacXofFull b) ⟨fun _ _ => True, True, kmacShort, fun _ => True⟩
      (.sponge (200 - 2 * b / 8) fun _ msg => msg.length + 2) := by
  obtain ⟨Z, h⟩ := Proofs.Kmac.gap b hb
  refine mono (Proofs.gapConforms (c := Model.Kmac.kmacXof b) h fun mem hm => ?_) fun p h => by cases p <;> exact h
  have ⟨s', e, r⟩ := kmac_init b 0 0 hb mem hm
  exact ⟨_, s', rfl, e, r⟩

private theorem k12_general_gap (b R : Nat) (hb : b = 128 ∨ b = 256) (hR : R ≤ 24) :
    GapConforms (Model.K12.k12 b R) (Spec.k12 b R) ⟨fun _ m => m.length < 2 ^ 64, True, k12Short, fun _ => True⟩ (.k12 b R) := by
  obtain ⟨Z, h⟩ := Proofs.K12.gap b R hb hR
  have e : (Gap.k12 b R) = ⟨fun _ _ => [], fun C msg => Proofs.K12.lastLength R (200 - 2 * b / 8) (b / 4) C msg % (200 - 2 * b / 8) + 1,
      Proofs.Shake.skip (200 - 2 * b / 8)⟩ := by
    unfold Gap.k12 Gap.sponge
    congr 1
    funext C msg
    refine congrArg (fun n => n % (200 - 2 * b / 8) + 1) ?_
    unfold Proofs.K12.lastLength Proofs.K12.lastNode
    dsimp only
    split <;> rfl
  rw [e]
  refine mono (Proofs.gapConforms (c := Model.K12.k12 b R) h ?_) fun p h => by cases p; exact h
  intro mem hm
  obtain ⟨s', e, r⟩ := Proofs.K12.init_ok (Proofs.K12.par b R hb hR) [] (by simp) (Model.K12.new mem)
    ⟨hm.1, rfl, hm.2.1, rfl, rfl, hm.2.2, rfl, rfl⟩
  exact ⟨_, s', rfl, e, r⟩

/-- **C32**, what squeezes of length zero do in `k12`. -/
theorem k12_gap :
    GapConforms (Model.K12.k12 128 12) (Spec.k12 128 12) ⟨fun _ m => m.length < 2 ^ 64, True, k12Short, fun _ => True⟩ (.k12 128 12) :=
  k12_general_gap 128 12 (.inl rfl) (by decide)

/-- **C32**, what squeezes of length zero do in `kt256`. -/
theorem kt256_gap :
    GapConforms (Model.K12.k12 256 12) (Spec.k12 256 12) ⟨fun _ m => m.length < 2 ^ 64, True, k12Short, fun _ => True⟩ (.k12 256 12) :=
  k12_general_gap 256 12 (.inr rfl) (by decide)

/-- **C32**, what squeezes of length zero do in `m14`. -/
theorem m14_gap :
    GapConforms (Model.K12.k12 256 14) (Spec.k12 256 14) ⟨fun _ m => m.length < 2 ^ 64, True, k12Short, fun _ => True⟩ (.k12 256 14) :=
  k12_general_gap 256 14 (.inr rfl) (by decide)

private theorem blake2x_general_gap {w : Nat} {T : Model.Blake2.Word w} {v : Spec.Blake2.Variant w} (ok : Proofs.Blake2.WordOk T v) :
    GapConforms (Model.Blake2.blake2xof T) (Spec.Blake2.xof v true) (blake2xCoverFull w) (.blake2x v) := by
  refine mono (prm := (Proofs.Blake2.xcover w true).prm) ?_ fun _ _ => .inl rfl
  refine Proofs.gapConforms (c := Model.Blake2.blake2xof T) (Proofs.Blake2.gap_refines ok true) ?_
  intro mem hm
  obtain ⟨s', e, r⟩ := blake2_fields_ok ok .xof (8 * w) trivial mem hm
  exact ⟨Model.Blake2.fields (8 * w) mem, s', rfl, e, r.rx⟩

/-- **C32**, what squeezes of length zero do in `blake2xb_xof`. -/
theorem blake2xb_gap :
    GapConforms (Model.Blake2.blake2xof Model.Blake2.u64) (Spec.Blake2.xof Spec.Blake2.v2b true) (blake2xCoverFull 64) (.blake2x Spec.Blake2.v2b) :=
  blake2x_general_gap Proofs.Blake2.u64_ok

/-- **C32**, what squeezes of length zero do in `blake2xs_xof`. -/
theorem blake2xs_gap :
    GapConforms (Model.Blake2.blake2xof Model.Blake2.u32) (Spec.Blake2.xof Spec.Blake2.v2s true) (blake2xCoverFull 32) (.blake2x Spec.Blake2.v2s) :=
  blake2x_general_gap Proofs.Blake2.u32_ok

private theorem skein_general_gap {F : Model.Skein.Fns} {T : Spec.Skein.Threefish} (ok : Proofs.Skein.FOk F T) :
    GapConforms (Model.Skein.skeinXof F) (Spec.Skein.xof T) skeinCover (.skein T) := by
  have hge := ok.ge
  have hle := ok.le
  have hnw := ok.nw
  refine Proofs.gapConforms (c := Model.Skein.skeinXof F) (Proofs.Skein.gap_refines ok (64 * F.nw)) ?_
  intro mem hmem
  have hmem' : mem.m.length = 8 * F.nw := hmem
  obtain ⟨s', e, r⟩ := Proofs.Skein.init_R ok true (64 * F.nw) ⟨[], [], []⟩ Proofs.Skein.valid_none (Model.Skein.fields (64 * F.nw) mem)
    (by rw [← ok.nw]; exact hmem') ⟨rfl, rfl, rfl, rfl⟩
  refine ⟨Model.Skein.fields (64 * F.nw) mem, s', ?_, e, r.rx ok⟩
  show (pure (Model.Skein.new (64 * F.nw) mem) : M _) = _
  unfold Model.Skein.new
  rw [if_pos ((Proofs.validateMax_iff _ _).mpr (by unfold szMod; omega))]
  rfl

/-- **C32**, what squeezes of length zero do in `skein256_xof`. -/
theorem skein256_gap : GapConforms (Model.Skein.skeinXof Model.Skein.f4) (Spec.Skein.xof Spec.Skein.threefish256) skeinCover
    (.skein Spec.Skein.threefish256) := skein_general_gap Proofs.Skein.f4_ok

/-- **C32**, what squeezes of length zero do in `skein512_xof`. -/
theorem skein512_gap : GapConforms (Model.Skein.skeinXof Model.Skein.f8) (Spec.Skein.xof Spec.Skein.threefish512) skeinCover
    (.skein Spec.Skein.threefish512) := skein_general_gap Proofs.Skein.f8_ok

/-- **C32**, what squeezes of length zero do in `skein1024_xof`. -/
theorem skein1024_gap : GapConforms (Model.Skein.skeinXof Model.Skein.f16) (Spec.Skein.xof Spec.Skein.threefish1024) skeinCover
    (.skein Spec.Skein.threefish1024) := skein_general_gap Proofs.Skein.f16_ok

/-- **C32**, what squeezes of length zero do in `esch256_xof`. -/
theorem esch256_gap : GapConforms (Model.Esch.eschXof 384) (Spec.Esch.eschXof Spec.Esch.f256) (Cover.all Empty) .esch := by
  have sz : Proofs.Esch.Sized Spec.Esch.f256 6 256 := .inl ⟨rfl, rfl, rfl⟩
  refine Proofs.gapConforms (c := Model.Esch.eschXof 384) (Proofs.Esch.gap sz 0) ?_
  intro mem hm
  obtain ⟨s', e, r⟩ := Proofs.Esch.init_ok sz 0 { mem with h := { mem.h with hs := 384 - 128, squeezing := false } } hm.2 hm.1 rfl
  exact ⟨_, s', rfl, e, r.rx⟩

/-- **C32**, what squeezes of length zero do in `esch384_xof`. -/
theorem esch384_gap : GapConforms (Model.Esch.eschXof 512) (Spec.Esch.eschXof Spec.Esch.f384) (Cover.all Empty) .esch := by
  have sz : Proofs.Esch.Sized Spec.Esch.f384 8 384 := .inr ⟨rfl, rfl, rfl⟩
  refine Proofs.gapConforms (c := Model.Esch.eschXof 512) (Proofs.Esch.gap sz 0) ?_
  intro mem hm
  obtain ⟨s', e, r⟩ := Proofs.Esch.init_ok sz 0 { mem with h := { mem.h with hs := 512 - 128, squeezing := false } } hm.2 hm.1 rfl
  exact ⟨_, s', rfl, e, r.rx⟩

/-- **C32**, what squeezes of length zero do in `ascon_xof`. -/
theorem ascon_xof_gap : GapConforms Model.Ascon.asconXof Spec.Ascon.xof128 (Cover.all Empty) (.sponge 8 fun _ msg => msg.length) := by
  obtain ⟨Z, h⟩ := Proofs.Ascon.gap_xof
  refine Proofs.gapConforms (c := Model.Ascon.asconXof) h ?_
  intro mem hm
  obtain ⟨s', e, r⟩ := Proofs.Ascon.rx_init .xof [] (Model.Ascon.new mem) hm.2 rfl (by decide)
  exact ⟨_, s', rfl, e, r⟩

/-- **C32**, what squeezes of length zero do in `ascon_cxof`. -/
theorem ascon_cxof_gap : GapConforms Model.Ascon.asconCxof Spec.Ascon.cxof128 asconCover (.sponge 8 fun _ msg => msg.length) := by
  obtain ⟨Z, h⟩ := Proofs.Ascon.gap_cxof
  refine Proofs.gapConforms (c := Model.Ascon.asconCxof) h ?_
  intro mem hm
  obtain ⟨s', e, r⟩ := Proofs.Ascon.rx_init .cxof [] (Model.Ascon.new mem) hm.2 rfl (by decide)
  exact ⟨_, s', rfl, e, r⟩

/-- The descriptions above extend the functions: in histories without squeezes of length zero they say what the function says. -/
theorem gap_extends {P Θ : Type} (f : XofFn P Θ) (g : Gap Θ) (c : Cover P Θ) (ops : List (XofOp P)) (h : f.Covered c ops f.new) :
    (g.run f ops (Gap.new f)).1 = (f.run ops f.new).1 :=
  Proofs.gap_run_eq ops f.new (Gap.new f) rfl rfl rfl h

/-- Where a squeeze of length zero has no effect when `k > 0` bytes have been squeezed: in the sponges not at the end of a block. -/
def Idle : XofName → Nat → Prop
  | .shake b, k | .cshake b, k | .kmac b, k => k % (200 - 2 * b / 8) ≠ 0
  | .k12, k => k % 168 ≠ 0
  | .kt256, k | .m14, k => k % 136 ≠ 0
  | .ascon, k | .asconCxof, k => k % 8 ≠ 0
  | _, _ => True

private theorem sponge_idle {Θ : Type} {r : Nat} {len : Θ → Bytes → Nat} (θ : Θ) (msg : Bytes) (k : Nat) (_ : 0 < k) (h : k % r ≠ 0) :
    (Gap.sponge r len).skip (((Gap.sponge r len).lead θ msg).length + k) = ((Gap.sponge r len).lead θ msg).length + k := by
  show (if (0 + k) % r = 0 then 0 + k + r else 0 + k) = 0 + k
  rw [Nat.zero_add, if_neg h]

private theorem laws (x : XofName) (hs : x.Supported) :
    ∃ (Θ : Type) (f : XofFn x.cls.P Θ) (cov : Cover x.cls.P Θ) (g : Gap Θ), Proofs.GapLaws x.cls x.limits (Idle x) f cov g := by
  have hp : ∀ p : SkeinParam, (Param.value p).length < 2 ^ 61 → p.value.length < 2 ^ 63 := fun p h => by
    cases p <;> exact Nat.lt_trans h (by decide)
  cases x with
  | shake b => exact ⟨_, _, _, _, shake_gap b hs, fun _ _ h => h, fun _ h => h, fun _ => trivial, fun p => p.elim, fun p => p.elim, sponge_idle⟩
  | esch256 => exact ⟨_, _, _, _, esch256_gap, fun _ _ h => h, fun _ h => h, fun _ => trivial, fun p => p.elim, fun p => p.elim, fun _ _ _ _ _ => rfl⟩
  | esch384 => exact ⟨_, _, _, _, esch384_gap, fun _ _ h => h, fun _ h => h, fun _ => trivial, fun p => p.elim, fun p => p.elim, fun _ _ _ _ _ => rfl⟩
  | ascon => exact ⟨_, _, _, _, ascon_xof_gap, fun _ _ h => h, fun _ h => h, fun _ => trivial, fun p => p.elim, fun p => p.elim, sponge_idle⟩
  | cshake b => exact ⟨_, _, _, _, cshake_gap b hs, fun _ _ _ => trivial, fun _ h => h, id, fun p h => by cases p <;> exact h,
      fun p _ => by cases p <;> rfl, sponge_idle⟩
  | kmac b => exact ⟨_, _, _, _, kmac_xof_gap b hs, fun _ _ _ => trivial, fun _ h => h, id, fun p h => by cases p <;> exact h,
      fun p _ => by cases p <;> rfl, sponge_idle⟩
  | k12 => exact ⟨_, _, _, _, k12_gap, fun _ _ h => h, fun _ h => h, id, fun p h => by cases p; exact h, fun p _ => by cases p; rfl, sponge_idle⟩
  | kt256 => exact ⟨_, _, _, _, kt256_gap, fun _ _ h => h, fun _ h => h, id, fun p h => by cases p; exact h, fun p _ => by cases p; rfl, sponge_idle⟩
  | m14 => exact ⟨_, _, _, _, m14_gap, fun _ _ h => h, fun _ h => h, id, fun p h => by cases p; exact h, fun p _ => by cases p; rfl, sponge_idle⟩
  | asconCxof =>
    exact ⟨_, _, _, _, ascon_cxof_gap, fun _ _ h => h, fun _ h => h, id, fun p h => by cases p; exact h, fun p _ => by cases p; rfl, sponge_idle⟩
  | blake2xb => exact ⟨_, _, _, _, blake2xb_gap, fun _ _ h => h, fun _ h => h, id, fun _ _ => trivial, Proofs.blake2_acc 64, fun _ _ _ _ _ => rfl⟩
  | blake2xs => exact ⟨_, _, _, _, blake2xs_gap, fun _ _ h => h, fun _ h => h, id, fun _ _ => trivial, Proofs.blake2_acc 32, fun _ _ _ _ _ => rfl⟩
  | skein256 => exact ⟨_, _, _, _, skein256_gap, fun _ _ h => h, fun _ h => h, id, hp, fun p _ => by cases p <;> rfl, fun _ _ _ _ _ => rfl⟩
  | skein512 => exact ⟨_, _, _, _, skein512_gap, fun _ _ h => h, fun _ h => h, id, hp, fun p _ => by cases p <;> rfl, fun _ _ _ _ _ => rfl⟩
  | skein1024 => exact ⟨_, _, _, _, skein1024_gap, fun _ _ h => h, fun _ h => h, id, hp, fun p _ => by cases p <;> rfl, fun _ _ _ _ _ => rfl⟩

/-- **C32**, wherever it holds: after squeezing has begun, a squeeze of length zero has no effect on later calls, in the sponges if the
position is not at the end of a block. Missing: a first squeeze of length zero and ends of blocks, where it is false
(`empty_squeeze_not_neutral`, `empty_squeeze_block_end`); what happens there is said by the theorems `shake_gap`, …, `ascon_cxof_gap`. -/
theorem empty_squeeze_partial (x : XofName) (hs : x.Supported) (ops post : List (XofOp x.cls.P)) (hf : XofFine x.limits (ops ++ post) 0 0)
    (hk : 0 < (posAfter x.limits ops (0, 0)).2) (hi : Idle x (posAfter x.limits ops (0, 0)).2) :
    x.cls.Same (ops ++ [.squeezeBuf []]) ops post := by
  obtain ⟨_, _, _, _, h⟩ := laws x hs
  exact h.neutral ops post hf hk hi

/-! Counterexamples: a first squeeze of length zero. -/

/-- The message of the counterexamples, if any, and the call whose result differs. -/
def gapLater {P : Type} : List (XofOp P) := [.squeezeBuf [0, 0, 0, 0]]

private theorem not_neutral_of {c : XofClass} (mem : c.S) (hm : c.Mem mem) (before later : List (XofOp c.P))
    (h : ∃ a b, c.after mem before later = some a ∧ c.after mem (before ++ [.squeezeBuf []]) later = some b ∧ a ≠ b) :
    ¬ EmptySqueezeNeutral c := by
  obtain ⟨a, b, ha, hb, hne⟩ := h
  exact Proofs.not_neutral mem hm before later a b ha hb hne

/-- Both histories are without undefined behaviour and differ in what is seen. -/
def differ (a b : Option (List Obs)) : Bool :=
  match a, b with
  | some a, some b => decide (a ≠ b)
  | _, _ => false

private theorem differ_spec {a b : Option (List Obs)} (h : differ a b = true) : ∃ x y, a = some x ∧ b = some y ∧ x ≠ y := by
  cases a <;> cases b <;> first | exact Bool.noConfusion h | exact ⟨_, _, rfl, rfl, of_decide_eq_true h⟩

/-- **C32** is false in every class: a squeeze of length zero changes later output. -/
theorem empty_squeeze_not_neutral (x : XofName) (hs : x.Supported) : ¬ EmptySqueezeNeutral x.cls := by
  cases x with
  | shake b =>
    obtain rfl | rfl := hs
    · exact not_neutral_of (c := Model.Shake.shake 128) shakeMem rfl [] gapLater (differ_spec (by decide +kernel))
    · exact not_neutral_of (c := Model.Shake.shake 256) shakeMem rfl [] gapLater (differ_spec (by decide +kernel))
  | cshake b =>
    obtain rfl | rfl := hs
    · exact not_neutral_of (c := Model.Shake.cshake 128) shakeMem rfl [] gapLater (differ_spec (by decide +kernel))
    · exact not_neutral_of (c := Model.Shake.cshake 256) shakeMem rfl [] gapLater (differ_spec (by decide +kernel))
  | kmac b =>
    obtain rfl | rfl := hs
    · exact not_neutral_of (c := Model.Kmac.kmacXof 128) kmacMem rfl [] gapLater (differ_spec (by decide +kernel))
    · exact not_neutral_of (c := Model.Kmac.kmacXof 256) kmacMem rfl [] gapLater (differ_spec (by decide +kernel))
  | k12 => exact not_neutral_of (c := Model.K12.k12 128 12) k12Mem ⟨List.length_replicate, rfl, rfl⟩ [] gapLater (differ_spec (by decide +kernel))
  | kt256 => exact not_neutral_of (c := Model.K12.k12 256 12) k12Mem ⟨List.length_replicate, rfl, rfl⟩ [] gapLater (differ_spec (by decide +kernel))
  | m14 => exact not_neutral_of (c := Model.K12.k12 256 14) k12Mem ⟨List.length_replicate, rfl, rfl⟩ [] gapLater (differ_spec (by decide +kernel))
  | blake2xb => exact not_neutral_of (c := Model.Blake2.blake2xof Model.Blake2.u64) (blake2Mem 64) rfl [] gapLater (differ_spec (by decide +kernel))
  | blake2xs => exact not_neutral_of (c := Model.Blake2.blake2xof Model.Blake2.u32) (blake2Mem 32) rfl [] gapLater (differ_spec (by decide +kernel))
  | skein256 => exact not_neutral_of (c := Model.Skein.skeinXof Model.Skein.f4) (skeinMem 32) rfl [] gapLater (differ_spec (by decide +kernel))
  | skein512 => exact not_neutral_of (c := Model.Skein.skeinXof Model.Skein.f8) (skeinMem 64) rfl [] gapLater (differ_spec (by decide +kernel))
  | skein1024 => exact not_neutral_of (c := Model.Skein.skeinXof Model.Skein.f16) (skeinMem 128) List.length_replicate [] gapLater (differ_spec (by decide +kernel))
  | esch256 => exact not_neutral_of (c := Model.Esch.eschXof 384) eschXofMem ⟨rfl, rfl⟩ [.absorb (.str [1])] gapLater (differ_spec (by decide +kernel))
  | esch384 => exact not_neutral_of (c := Model.Esch.eschXof 512) eschMem ⟨rfl, rfl⟩ [.absorb (.str [1])] gapLater (differ_spec (by decide +kernel))
  | ascon => exact not_neutral_of (c := Model.Ascon.asconXof) asconMem ⟨rfl, rfl⟩ [] gapLater (differ_spec (by decide +kernel))
  | asconCxof => exact not_neutral_of (c := Model.Ascon.asconCxof) asconMem ⟨rfl, rfl⟩ [] gapLater (differ_spec (by decide +kernel))

/-- The same at the end of a block: after 8 bytes of output, `ascon_xof` skips 8 bytes. -/
theorem empty_squeeze_block_end : ¬ ∀ ops post : List (XofOp Empty), XofFine XofName.ascon.limits (ops ++ post) 0 0 →
    0 < (posAfter XofName.ascon.limits ops (0, 0)).2 → XofName.ascon.cls.Same (ops ++ [.squeezeBuf []]) ops post := by
  intro h
  obtain ⟨os, -, h1, h2⟩ := h [.squeeze 8] gapLater ⟨trivial, by decide, by decide, trivial, trivial, by decide, by decide, trivial, trivial⟩
    (by decide) asconMem asconMem ⟨rfl, rfl⟩ ⟨rfl, rfl⟩
  have hd : differ (XofName.ascon.cls.after asconMem ([.squeeze 8] ++ [.squeezeBuf []]) gapLater)
      (XofName.ascon.cls.after asconMem [.squeeze 8] gapLater) = true := by decide +kernel
  obtain ⟨a, b, ha, hb, hne⟩ := differ_spec hd
  exact hne (Option.some.inj (ha.symm.trans (h1.trans (h2.symm.trans hb))))

/-! Cases that meet the hypotheses. -/

example : XofFine XofName.ascon.limits ([.absorb (.str [1, 2]), .squeeze 5] ++ [.squeeze 3, .hexsqueeze 4]) 0 0 := by fine
example : Idle .ascon (posAfter XofName.ascon.limits [.absorb (.str [1, 2]), .squeeze 5] (0, 0)).2 := by
  show 5 % 8 ≠ 0
  decide
example : XofName.ascon.cls.Same ([.absorb (.str [1, 2]), .squeeze 5] ++ [.squeezeBuf []]) [.absorb (.str [1, 2]), .squeeze 5]
    [.squeeze 3, .hexsqueeze 4] :=
  empty_squeeze_partial .ascon trivial _ _ (by fine) (by decide) (by show 5 % 8 ≠ 0; decide)

/-- After a first squeeze of length zero, `shake128` skips one byte (of the stream 7f9c2ba4e8…). -/
example : (Model.Shake.shake 128).trial shakeMem [.squeezeBuf [], .hexsqueeze 4] = some [.buffer [], .text "9c2ba4e8".toList] := by decide +kernel
example : (Gap.sponge 168 fun (_ : Unit) msg => msg.length).Covered (Spec.shake 128) (Cover.all Empty) [.squeezeBuf [], .hexsqueeze 4]
    (Gap.new (Spec.shake 128)) :=
  ⟨⟨trivial, show 0 < 2 ^ 61 by decide, trivial⟩, ⟨trivial, by decide, by decide, trivial⟩, trivial⟩

end Digestpp.Properties
