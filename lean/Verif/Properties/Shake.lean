import Verif.Proofs.CShake
import Verif.Proofs.Conforms

/-! C07, C08: SHAKE and cSHAKE. -/

namespace Digestpp.Properties
open Model Spec

/-- **C07.** `shake128` and `shake256` compute SHAKE128 and SHAKE256, for messages and outputs of any length. -/
theorem shake_conforms (b : Nat) (hb : b = 128 ∨ b = 256) : XofConforms (Model.Shake.shake b) (Spec.shake b) (Cover.all Empty) := by
  refine Proofs.xofConforms (c := Model.Shake.shake b) (Proofs.Shake.refinesShake b hb) ?_
  intro mem hm
  obtain ⟨r, hr, he, h8, hr0, h168⟩ := Proofs.Shake.rateOf_eq b hb
  obtain ⟨s', e, h⟩ := Proofs.Shake.rel_init r h8 hr0 h168 ⟨[], []⟩ (Model.Shake.new mem) hm rfl rfl (by simp) (by simp)
  refine ⟨_, s', rfl, ?_, by rw [← hr]; exact h⟩
  rw [show (Model.Shake.shake b).pr.init = Model.Shake.init 24 (8 * r) by rw [← he]; rfl]
  exact e

/-- Function names and customizations shorter than `2^61` bytes. -/
def shortStrings : CShakeParam → Prop
  | .functionName v | .customization v => v.length < 2 ^ 61

theorem cshake_init (b : Nat) (hb : b = 128 ∨ b = 256) (mem : (Model.Shake.cshake b).S) (hm : (Model.Shake.cshake b).Mem mem) :
    ∃ s s', (Model.Shake.cshake b).ctor mem = .ok (some s) ∧ (Model.Shake.cshake b).pr.init s = .ok s' ∧
      Proofs.Shake.Rel (200 - 2 * b / 8) ⟨[], []⟩ [] 0 s' := by
  obtain ⟨r, hr, he, h8, hr0, h168⟩ := Proofs.Shake.rateOf_eq b hb
  obtain ⟨s', e, h⟩ := Proofs.Shake.rel_init r h8 hr0 h168 ⟨[], []⟩ (Model.Shake.new mem) hm rfl rfl (by simp) (by simp)
  refine ⟨_, s', rfl, ?_, by rw [← hr]; exact h⟩
  rw [show (Model.Shake.cshake b).pr.init = Model.Shake.init 24 (8 * r) by rw [← he]; rfl]
  exact e

/-- **C08**, what `cshake128` and `cshake256` compute in all cases: cSHAKE with a padding of the prefix that is never empty. -/
theorem cshake_conforms_full (b : Nat) (hb : b = 128 ∨ b = 256) :
    XofConforms (Model.Shake.cshake b) (Spec.cshakeFull b) ⟨fun _ _ => True, True, shortStrings, fun _ => True⟩ :=
  Proofs.xofConforms (c := Model.Shake.cshake b)
    ((Proofs.Shake.refinesFull b hb).mono rfl rfl (fun _ _ _ _ _ _ => ⟨trivial, rfl⟩) id fun p h => by cases p <;> exact h)
    (cshake_init b hb)

/-- **C08**, wherever it holds: `cshake128` and `cshake256` compute cSHAKE128 and cSHAKE256 if the encoded strings do not end at a
block boundary. Missing: the other strings, for which it is false (`cshake_not_conforms`). -/
theorem cshake_conforms_partial (b : Nat) (hb : b = 128 ∨ b = 256) :
    XofConforms (Model.Shake.cshake b) (Spec.cshake b)
      ⟨fun θ _ => Spec.Keccak.cshakeRegular (200 - 2 * b / 8) θ, True, shortStrings, fun _ => True⟩ :=
  Proofs.xofConforms (c := Model.Shake.cshake b)
    ((Proofs.Shake.refinesFull b hb).mono rfl rfl
      (fun θ msg _ _ _ h => ⟨trivial, Proofs.Shake.stream_regular _ (by omega) θ h msg⟩) id fun p h => by cases p <;> exact h)
    (cshake_init b hb)

/-! The hypotheses can be met; the values are those of "abc". -/

def shakeMem : Blk Model.Shake.St := ⟨⟨[], [1], [2], true, 3⟩, List.replicate 168 0xaa, 17, 99⟩
def shakeOps : List (XofOp Empty) := [.absorb (.str [0x61]), .absorb (.iter [0x62, 0x63]), .hexsqueeze 5, .hexsqueeze 11]

example : (Model.Shake.shake 128).Mem shakeMem := rfl
example : (Spec.shake 128).Covered (Cover.all Empty) shakeOps (Spec.shake 128).new :=
  ⟨⟨show 1 < 2 ^ 63 by decide, rfl⟩, ⟨trivial, rfl⟩, ⟨trivial, show 0 < 5 by decide, show 5 < 2 ^ 61 by decide, trivial⟩,
    ⟨trivial, show 0 < 11 by decide, show 11 < 2 ^ 61 by decide, trivial⟩, trivial⟩
example : (Model.Shake.shake 128).trial shakeMem shakeOps = some [.done, .done, .text "5881092dd8".toList,
    .text "18bf5cf8a3ddb793fbcba7".toList] := by decide +kernel
example : (Model.Shake.shake 256).trial shakeMem shakeOps = some [.done, .done, .text "4833666013".toList,
    .text "60a8771c6863080cc4114d".toList] := by decide +kernel

/-- SP 800-185 sample 1. -/
def cshakeOps : List (XofOp CShakeParam) := [.set (.customization (ascii "Email Signature")),
  .absorb (.ptr [0, 1, 2, 3]), .hexsqueeze 32]
example : (Model.Shake.cshake 128).trial shakeMem cshakeOps = some [.done, .done,
    .text "c1c36925b6409a04f1b504fcbca9d82b4017277cb5ed2b2065fc1d3814d5aaf5".toList] := by decide +kernel
example : (Spec.cshake 128).Covered ⟨fun θ _ => Spec.Keccak.cshakeRegular (200 - 2 * 128 / 8) θ, True, shortStrings, fun _ => True⟩ cshakeOps
    (Spec.cshake 128).new :=
  ⟨show 15 < 2 ^ 61 by decide, ⟨show 4 < 2 ^ 63 by decide, rfl⟩,
    ⟨.inr (by decide +kernel), show 0 < 32 by decide, show 32 < 2 ^ 61 by decide, trivial⟩, trivial⟩

/-! The false part of C08. -/

/-- A customization of 161 bytes: the encoded strings are exactly one block of `cshake128`. -/
def cshakeBad : Bytes := List.replicate 161 0x61
def cshakeBadOps : List (XofOp CShakeParam) := [.set (.customization cshakeBad), .squeeze 4]

/-- What the standard prescribes to be absorbed. -/
private def cshakeBadRaw : Bytes :=
  Spec.Keccak.bytepad (Spec.Keccak.encodeString [] ++ Spec.Keccak.encodeString cshakeBad) 168

private def cshakeBadState : Blk Model.Shake.St := Model.Shake.initFields { shakeMem with h := { shakeMem.h with S := cshakeBad, N := [] } }

private theorem cshakeBad_eval : (do
    let s ← Model.Shake.update 24 1344 cshakeBadRaw cshakeBadState
    let r ← Model.Shake.squeeze 24 1344 4 s
    pure r.1 : M Bytes).toOption = some [0x79, 0x20, 0x1f, 0x79] := by decide +kernel

private theorem cshakeBad_trial : (Model.Shake.cshake 128).trial shakeMem cshakeBadOps
    = some [.done, .bytes [0x16, 0x28, 0xf2, 0x24]] := by decide +kernel

/-- **C08 is false in general**: with a customization of 161 bytes and no function name, `cshake128` does not compute
cSHAKE128. -/
theorem cshake_not_conforms :
    ¬ XofConforms (Model.Shake.cshake 128) (Spec.cshake 128) ⟨fun _ _ => True, True, shortStrings, fun _ => True⟩ := by
  intro h
  have h1 := Proofs.xofConforms_trial h shakeMem rfl cshakeBadOps
    ⟨show (List.replicate 161 (0x61 : Byte)).length < 2 ^ 61 by rw [List.length_replicate]; decide, ⟨trivial, show 0 < 4 by decide, show 4 < 2 ^ 61 by decide, trivial⟩, trivial⟩
  rw [cshakeBad_trial] at h1
  have h2 : [0x16, 0x28, 0xf2, 0x24] = slice (Spec.Keccak.cshakeStream 168 ⟨[], cshakeBad⟩ []) 0 4 := by
    have := Option.some.inj h1
    injection this with _ this
    injection this with this
    injection this
  obtain ⟨s1, e1, r1⟩ := Proofs.Shake.update_ok (R := 24) (r := 168) (by omega) (by omega) (by omega) (by omega) cshakeBadRaw
    (Proofs.Shake.initFields_ok 24 168 { shakeMem with h := { shakeMem.h with S := cshakeBad, N := [] } } rfl) (by decide +kernel)
  obtain ⟨s2, e2, -⟩ := Proofs.Shake.squeeze_first (R := 24) (r := 168) (by omega) (by omega) (by omega) (by omega) (d := 0x04) 4
    (by omega) (by decide) (by decide) r1
  have h3 := cshakeBad_eval
  rw [show cshakeBadState = Model.Shake.initFields { shakeMem with h := { shakeMem.h with S := cshakeBad, N := [] } } from rfl,
    e1, Proofs.ok_bind, e2] at h3
  have h4 : slice (Spec.Keccak.cshakeStream 168 ⟨[], cshakeBad⟩ []) 0 4 = [0x79, 0x20, 0x1f, 0x79] := by
    rw [← Option.some.inj h3, Spec.Keccak.cshakeStream, if_neg (by decide), Spec.Keccak.keccak,
      Proofs.Keccak.padded_cshake _ _ (by omega), List.append_nil, List.nil_append, cshakeBadRaw]
  rw [h4] at h2
  revert h2
  decide

end Digestpp.Properties
