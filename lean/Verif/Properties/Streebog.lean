import Verif.Proofs.Streebog
import Verif.Proofs.Conforms
import Verif.Proofs.Validate

/-! C20: Streebog. -/

namespace Digestpp.Properties
open Model Spec

private theorem conforms_gen {add : Bytes → List (BitVec 64) → List (BitVec 64)} {addN : Nat → Nat → Nat}
    (ok : Proofs.Streebog.AddOk add addN) (N : Nat) (hN : N = 256 ∨ N = 512) :
    HashConforms (Model.Streebog.gen add N) (plainFn (N / 8) (Spec.Streebog.hashGen wrap64 addN (N / 8))) (Cover.all Empty) := by
  refine Proofs.hashConforms (c := Model.Streebog.gen add N) (Proofs.Streebog.refines ok N hN) ?_
  intro mem hm
  obtain ⟨s', e, r⟩ := Proofs.Streebog.init_ok (add := add) N hN { mem with h := { mem.h with hs := N } } hm.2.2 rfl
  refine ⟨_, s', ?_, e, r⟩
  show (pure (Model.Streebog.new N mem) : M _) = _
  unfold Model.Streebog.new
  rw [if_pos ((Proofs.validateList_iff N _).mpr (by omega))]
  rfl

/-- The messages for which the result is that of the standard: shorter than `2^61` bytes, and when the checksum is computed no carry
has to be passed through a 64-bit word. -/
def streebogCover : Cover Empty Unit :=
  ⟨fun _ m => m.length < 2 ^ 61 ∧ Spec.Streebog.NoRipple m, True, fun _ => True, fun _ => True⟩

/-- **C46.** The exact behaviour for all messages: `streebog(N)` computes GOST R 34.11-2012 with an addition that does not pass on
carries, and bit counts modulo `2^64`. -/
theorem streebog_all_lengths (N : Nat) (hN : N = 256 ∨ N = 512) :
    HashConforms (Model.Streebog.streebog N) (plainFn (N / 8) (Spec.Streebog.hashGen wrap64 Spec.Streebog.addNoRipple (N / 8)))
      (Cover.all Empty) := conforms_gen Proofs.Streebog.addm_ok N hN

/-- **C46.** The same for `static_size::streebog<N>`. -/
theorem streebog_static_all_lengths (N : Nat) (hN : N = 256 ∨ N = 512) :
    HashConforms (Model.Streebog.streebogStatic N)
      (plainFn (N / 8) (Spec.Streebog.hashGen wrap64 Spec.Streebog.addNoRipple (N / 8))) (Cover.all Empty) := by
  refine Proofs.hashConforms (c := Model.Streebog.streebogStatic N) (Proofs.Streebog.refines Proofs.Streebog.addm_ok N hN) ?_
  intro mem hm
  obtain ⟨s', e, r⟩ := Proofs.Streebog.init_ok (add := Model.Streebog.addm) N hN { mem with h := { mem.h with hs := N } } hm.2.2 rfl
  exact ⟨_, s', rfl, e, r⟩

/-- The exact behaviour: `streebog(N)` computes GOST R 34.11-2012 with an addition that does not pass on carries. -/
theorem streebog_conforms_full (N : Nat) (hN : N = 256 ∨ N = 512) :
    HashConforms (Model.Streebog.streebog N) (plainFn (N / 8) (Spec.Streebog.hashWith Spec.Streebog.addNoRipple (N / 8)))
      (Cover.below Empty (2 ^ 61)) :=
  (streebog_all_lengths N hN).below _ (fun _ => Spec.Streebog.hashWith Spec.Streebog.addNoRipple (N / 8))
    fun _ => Proofs.Streebog.hashGen_eq _ _

/-- The same for `static_size::streebog<N>`. -/
theorem streebog_static_conforms_full (N : Nat) (hN : N = 256 ∨ N = 512) :
    HashConforms (Model.Streebog.streebogStatic N) (plainFn (N / 8) (Spec.Streebog.hashWith Spec.Streebog.addNoRipple (N / 8)))
      (Cover.below Empty (2 ^ 61)) :=
  (streebog_static_all_lengths N hN).below _ (fun _ => Spec.Streebog.hashWith Spec.Streebog.addNoRipple (N / 8))
    fun _ => Proofs.Streebog.hashGen_eq _ _

private theorem mono_plain {S : Type} {pr : HashProvider S Empty} {n : Nat} {d d' : Bytes → Bytes} {c c' : Cover Empty Unit}
    {R : Unit → Bytes → S → Prop} (h : Proofs.HashRefines pr (plainFn n d) c R)
    (ha : ∀ msg, c'.adm () msg → c.adm () msg ∧ d' msg = d msg) (hc : c.clr) : Proofs.HashRefines pr (plainFn n d') c' R :=
  h.mono rfl rfl rfl (fun _ msg _ _ hm => ha msg hm) (fun _ => hc) (fun p => nomatch p)

private theorem refines_std (N : Nat) (hN : N = 256 ∨ N = 512) :
    Proofs.HashRefines (Model.Streebog.provider Model.Streebog.addm) (Spec.Streebog.streebog (N / 8)) streebogCover
      (fun _ => Proofs.Streebog.Abs Model.Streebog.addm N) :=
  mono_plain (Proofs.Streebog.refines Proofs.Streebog.addm_ok N hN)
    (fun msg ha => ⟨trivial, ((Proofs.Streebog.hashWith_eq (N / 8) msg ha.2).symm.trans (Proofs.Streebog.hashGen_eq _ _ msg ha.1))⟩)
    trivial

/-- **C20**, partial: `streebog(N)` computes Streebog-N for messages that do not require carries to be passed on; the full property
would have no such condition and is false (`streebog_not_conforms`). -/
theorem streebog_conforms_partial (N : Nat) (hN : N = 256 ∨ N = 512) :
    HashConforms (Model.Streebog.streebog N) (Spec.Streebog.streebog (N / 8)) streebogCover := by
  refine Proofs.hashConforms (c := Model.Streebog.streebog N) (refines_std N hN) ?_
  intro mem hm
  obtain ⟨s', e, r⟩ := Proofs.Streebog.init_ok (add := Model.Streebog.addm) N hN { mem with h := { mem.h with hs := N } } hm.2.2 rfl
  refine ⟨_, s', ?_, e, r⟩
  show (pure (Model.Streebog.new N mem) : M _) = _
  unfold Model.Streebog.new
  rw [if_pos ((Proofs.validateList_iff N _).mpr (by omega))]
  rfl

/-- **C20**, partial: the same for `static_size::streebog<N>`. -/
theorem streebog_static_conforms_partial (N : Nat) (hN : N = 256 ∨ N = 512) :
    HashConforms (Model.Streebog.streebogStatic N) (Spec.Streebog.streebog (N / 8)) streebogCover := by
  refine Proofs.hashConforms (c := Model.Streebog.streebogStatic N) (refines_std N hN) ?_
  intro mem hm
  obtain ⟨s', e, r⟩ := Proofs.Streebog.init_ok (add := Model.Streebog.addm) N hN { mem with h := { mem.h with hs := N } } hm.2.2 rfl
  exact ⟨_, s', rfl, e, r⟩

/-- Messages shorter than 64 bytes meet the condition. -/
theorem streebog_short (msg : Bytes) (h : msg.length < 64) : streebogCover.adm () msg :=
  ⟨show msg.length < 2 ^ 61 by omega, Proofs.Streebog.noRipple_short msg h⟩

/-- The condition says exactly when a single addition goes wrong. -/
theorem streebog_add_wrong_iff (a b : Nat) :
    Spec.Streebog.addNoRipple a b ≠ Spec.Streebog.add512 a b ↔ Spec.Streebog.Ripple a b :=
  ⟨fun h => Classical.byContradiction fun hn => h (Proofs.Streebog.addNoRipple_eq a b hn), Proofs.Streebog.addNoRipple_ne a b⟩

/-! The hypotheses can be met; the value is that of test/testvectors/streebog256.txt for the empty message. -/

def streebogMem : Blk Model.Streebog.St := ⟨⟨List.replicate 8 7, List.replicate 8 9, 5⟩, List.replicate 64 0xaa, 17, 99⟩
def streebogOps : List (HashOp Empty) := [.absorb (.ptr []), .hexdigest]

example : (Model.Streebog.streebog 256).Mem streebogMem := ⟨rfl, rfl, rfl⟩
example : (Spec.Streebog.streebog (256 / 8)).Covered streebogCover streebogOps (Spec.Streebog.streebog (256 / 8)).new :=
  ⟨show 0 < 2 ^ 63 by decide, streebog_short [] (by decide), trivial⟩
example : (Model.Streebog.streebog 256).trial streebogMem streebogOps = some [.done,
    .text "3f539a213e97c802cc229d474c6aa32a825a360b2a933a949fd925208d9ce1bb".toList] := by decide +kernel

/-! ### A message for which the result is wrong -/

/-- Sixteen bytes `ff`, forty-eight bytes `00`, one byte `01`: the second block added to the first gives a carry into a word of
ones. -/
def streebogBad : Bytes := List.replicate 16 0xff ++ List.replicate 48 0x00 ++ [0x01]

theorem streebogBad_code : (Model.Streebog.streebog 256).trial streebogMem [.absorb (.ptr streebogBad), .hexdigest]
    = some [.done, .text "726dd78117b6e1f58ce383295657b114b9c4de0a06ee593ea20a31ce06084951".toList] := by decide +kernel

theorem streebogBad_right : (Model.Streebog.gen Proofs.Streebog.addRight 256).trial streebogMem [.absorb (.ptr streebogBad), .hexdigest]
    = some [.done, .text "3c2238c111182024c02dd0128cde3a8b77fdbfca9d005626c57b2397f382c526".toList] := by decide +kernel

theorem streebogBad_spec : ((Spec.Streebog.streebog (256 / 8)).run [.absorb (.ptr streebogBad), .hexdigest]
    (Spec.Streebog.streebog (256 / 8)).new).1
    = [.done, .text "3c2238c111182024c02dd0128cde3a8b77fdbfca9d005626c57b2397f382c526".toList] := by
  have h := (conforms_gen Proofs.Streebog.addRight_ok 256 (Or.inl rfl)).below (2 ^ 61)
    (fun _ => Spec.Streebog.hashWith Spec.Streebog.add512 (256 / 8)) fun _ => Proofs.Streebog.hashGen_eq _ _
  have h := Proofs.hashConforms_trial h streebogMem ⟨rfl, rfl, rfl⟩
    [.absorb (.ptr streebogBad), .hexdigest] ⟨show streebogBad.length < 2 ^ 63 by decide, show streebogBad.length < 2 ^ 61 by decide, trivial⟩
  rw [streebogBad_right] at h
  exact (Option.some.inj h).symm

/-- **C20** is false as it stands: `streebog(256)` does not compute GOST R 34.11-2012 for all messages. -/
theorem streebog_not_conforms :
    ¬ HashConforms (Model.Streebog.streebog 256) (Spec.Streebog.streebog (256 / 8)) (Cover.below Empty (2 ^ 61)) := by
  intro h
  have h := Proofs.hashConforms_trial h streebogMem ⟨rfl, rfl, rfl⟩
    [.absorb (.ptr streebogBad), .hexdigest] ⟨show streebogBad.length < 2 ^ 63 by decide, show streebogBad.length < 2 ^ 61 by decide, trivial⟩
  exact absurd ((streebogBad_code.symm.trans h).trans (congrArg some streebogBad_spec)) (by decide)

end Digestpp.Properties
