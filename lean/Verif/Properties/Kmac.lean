import Verif.Proofs.Kmac
import Verif.Proofs.Conforms
import Verif.Proofs.Validate

/-! C09: KMAC. -/

namespace Digestpp.Properties
open Model Spec

/-- Keys and customizations shorter than `2^61` bytes. -/
def kmacShort : KmacParam → Prop
  | .key v | .customization v => v.length < 2 ^ 61

theorem kmac_init (b hs L : Nat) (hb : b = 128 ∨ b = 256) (mem : Model.Kmac.St) (hm : mem.shake.m.length = 168) :
    ∃ s', Model.Kmac.init b (Model.Kmac.new b hs mem) = .ok s' ∧ Proofs.Kmac.Rel (200 - 2 * b / 8) hs L ⟨[], []⟩ [] 0 s' := by
  obtain ⟨r, hr, he, h8, hr0, h168⟩ := Proofs.Shake.rateOf_eq b hb
  rw [← hr]
  exact Proofs.Kmac.init_ok b r hs L he h8 hr0 h168 ⟨[], []⟩ (Model.Kmac.new b hs mem) hm (by simp) (by simp)
    (Proofs.Kmac.bytepad_eq b r hb hr [] (by simp)) rfl rfl

private theorem kmac_ctor (b hs : Nat) (h0 : 0 < hs) (hs8 : hs % 8 = 0) (hs64 : hs < 2 ^ 64) (mem : Model.Kmac.St) :
    (Model.Kmac.kmac b hs).ctor mem = .ok (some (Model.Kmac.new b hs mem)) := by
  show (pure (if validateMax hs (szMod - 1) then some (Model.Kmac.new b hs mem) else none) : M _) = _
  rw [if_pos ((Proofs.validateMax_iff hs (szMod - 1)).mpr ⟨h0, hs8, by unfold szMod; omega⟩)]
  rfl

private theorem kmac_digest (b hs : Nat) (hb : b = 128 ∨ b = 256) (θ : KmacParams)
    (h : Spec.Keccak.cshakeRegular (200 - 2 * b / 8) ⟨ascii "KMAC", θ.S⟩) (msg : Bytes) :
    kmacStream (Spec.Keccak.cshakeStream (200 - 2 * b / 8)) (200 - 2 * b / 8) hs θ msg
      = kmacStream (Spec.Keccak.cshakeFullStream (200 - 2 * b / 8)) (200 - 2 * b / 8) hs θ msg := by
  unfold kmacStream
  rw [Proofs.Shake.stream_regular _ (by omega) _ h]

/-- **C09**, what `kmac128(hs)` and `kmac256(hs)` compute in all cases: KMAC with the cSHAKE of the code (`cshake_conforms_full`). -/
theorem kmac_conforms_full (b hs : Nat) (hb : b = 128 ∨ b = 256) (h0 : 0 < hs) (hs8 : hs % 8 = 0) (hs64 : hs < 2 ^ 64) :
    HashConforms (Model.Kmac.kmac b hs) (Spec.kmacFull b hs) ⟨fun _ _ => True, True, kmacShort, fun _ => True⟩ :=
  Proofs.hashConforms (c := Model.Kmac.kmac b hs)
    ((Proofs.Kmac.refinesFull b hs hb h0 hs8 hs64).mono rfl rfl rfl (fun _ _ _ _ _ => ⟨trivial, rfl⟩) id fun p h => by
      cases p <;> exact h)
    fun mem hm =>
      have ⟨s', e, r⟩ := kmac_init b hs hs hb mem hm
      ⟨_, s', kmac_ctor b hs h0 hs8 hs64 mem, e, r⟩

/-- **C09**, wherever it holds: `kmac128(hs)` and `kmac256(hs)` compute KMAC128 and KMAC256 with `hs` bits of output, unless function
name and customization fill a block exactly. Missing: those customizations, for which it is false (`kmac_not_conforms`). -/
theorem kmac_conforms_partial (b hs : Nat) (hb : b = 128 ∨ b = 256) (h0 : 0 < hs) (hs8 : hs % 8 = 0) (hs64 : hs < 2 ^ 64) :
    HashConforms (Model.Kmac.kmac b hs) (Spec.kmac b hs)
      ⟨fun θ _ => Spec.Keccak.cshakeRegular (200 - 2 * b / 8) ⟨ascii "KMAC", θ.S⟩, True, kmacShort, fun _ => True⟩ :=
  Proofs.hashConforms (c := Model.Kmac.kmac b hs)
    ((Proofs.Kmac.refinesFull b hs hb h0 hs8 hs64).mono rfl rfl rfl
      (fun θ msg _ _ h => ⟨trivial, congrArg (fun f => slice f 0 (hs / 8)) (kmac_digest b hs hb θ h msg)⟩) id fun p h => by
      cases p <;> exact h)
    fun mem hm =>
      have ⟨s', e, r⟩ := kmac_init b hs hs hb mem hm
      ⟨_, s', kmac_ctor b hs h0 hs8 hs64 mem, e, r⟩

/-- **C09**, what `static_size::kmac128<hs>` and `static_size::kmac256<hs>` compute in all cases. -/
theorem kmac_static_conforms_full (b hs : Nat) (hb : b = 128 ∨ b = 256) (h0 : 0 < hs) (hs8 : hs % 8 = 0) (hs64 : hs < 2 ^ 64) :
    HashConforms (Model.Kmac.kmacStatic b hs) (Spec.kmacFull b hs) ⟨fun _ _ => True, True, kmacShort, fun _ => True⟩ :=
  Proofs.hashConforms (c := Model.Kmac.kmacStatic b hs)
    ((Proofs.Kmac.refinesFull b hs hb h0 hs8 hs64).mono rfl rfl rfl (fun _ _ _ _ _ => ⟨trivial, rfl⟩) id fun p h => by
      cases p <;> exact h)
    fun mem hm =>
      have ⟨s', e, r⟩ := kmac_init b hs hs hb mem hm
      ⟨_, s', rfl, e, r⟩

/-- **C09** for `static_size::kmac128<hs>` and `static_size::kmac256<hs>`. -/
theorem kmac_static_conforms_partial (b hs : Nat) (hb : b = 128 ∨ b = 256) (h0 : 0 < hs) (hs8 : hs % 8 = 0) (hs64 : hs < 2 ^ 64) :
    HashConforms (Model.Kmac.kmacStatic b hs) (Spec.kmac b hs)
      ⟨fun θ _ => Spec.Keccak.cshakeRegular (200 - 2 * b / 8) ⟨ascii "KMAC", θ.S⟩, True, kmacShort, fun _ => True⟩ :=
  Proofs.hashConforms (c := Model.Kmac.kmacStatic b hs)
    ((Proofs.Kmac.refinesFull b hs hb h0 hs8 hs64).mono rfl rfl rfl
      (fun θ msg _ _ h => ⟨trivial, congrArg (fun f => slice f 0 (hs / 8)) (kmac_digest b hs hb θ h msg)⟩) id fun p h => by
      cases p <;> exact h)
    fun mem hm =>
      have ⟨s', e, r⟩ := kmac_init b hs hs hb mem hm
      ⟨_, s', rfl, e, r⟩

/-- **C09**, what `kmac128_xof` and `kmac256_xof` compute in all cases. -/
theorem kmac_xof_conforms_full (b : Nat) (hb : b = 128 ∨ b = 256) :
    XofConforms (Model.Kmac.kmacXof b) (Spec.kmacXofFull b) ⟨fun _ _ => True, True, kmacShort, fun _ => True⟩ :=
  Proofs.xofConforms (c := Model.Kmac.kmacXof b)
    ((Proofs.Kmac.refinesXofFull b hb).mono rfl rfl (fun _ _ _ _ _ _ => ⟨trivial, rfl⟩) id fun p h => by cases p <;> exact h)
    fun mem hm =>
      have ⟨s', e, r⟩ := kmac_init b 0 0 hb mem hm
      ⟨_, s', rfl, e, r⟩

/-- **C09**, wherever it holds, for `kmac128_xof` and `kmac256_xof`: KMACXOF128 and KMACXOF256. -/
theorem kmac_xof_conforms_partial (b : Nat) (hb : b = 128 ∨ b = 256) :
    XofConforms (Model.Kmac.kmacXof b) (Spec.kmacXof b)
      ⟨fun θ _ => Spec.Keccak.cshakeRegular (200 - 2 * b / 8) ⟨ascii "KMAC", θ.S⟩, True, kmacShort, fun _ => True⟩ :=
  Proofs.xofConforms (c := Model.Kmac.kmacXof b)
    ((Proofs.Kmac.refinesXofFull b hb).mono rfl rfl (fun θ msg _ _ _ h => ⟨trivial, kmac_digest b 0 hb θ h msg⟩) id fun p h => by
      cases p <;> exact h)
    fun mem hm =>
      have ⟨s', e, r⟩ := kmac_init b 0 0 hb mem hm
      ⟨_, s', rfl, e, r⟩

/-! The hypotheses can be met; the values are those of SP 800-185 sample 1 and KMACXOF sample 1. -/

def kmacMem : Model.Kmac.St := ⟨[7], 3, true, ⟨⟨[], [1], [2], true, 3⟩, List.replicate 168 0xaa, 17, 99⟩⟩
def kmacKey : Bytes := (List.range 32).map fun i => BitVec.ofNat 8 (0x40 + i)
def kmacOps : List (HashOp KmacParam) := [.set (.key kmacKey), .absorb (.ptr [0, 1, 2, 3]), .hexdigest]

example : (Model.Kmac.kmac 128 256).Mem kmacMem := rfl
example : (Spec.kmac 128 256).Covered
    ⟨fun θ _ => Spec.Keccak.cshakeRegular (200 - 2 * 128 / 8) ⟨ascii "KMAC", θ.S⟩, True, kmacShort, fun _ => True⟩ kmacOps (Spec.kmac 128 256).new :=
  ⟨show 32 < 2 ^ 61 by decide, show 4 < 2 ^ 63 by decide, .inr (by decide +kernel), trivial⟩
example : (Model.Kmac.kmac 128 256).trial kmacMem kmacOps = some [.done, .done,
    .text "e5780b0d3ea6f7d3a429c5706aa43a00fadbd7d49628839e3187243f456ee14e".toList] := by decide +kernel
example : (Model.Kmac.kmacXof 128).trial kmacMem [.set (.key kmacKey), .absorb (.ptr [0, 1, 2, 3]), .hexsqueeze 5, .hexsqueeze 27]
    = some [.done, .done, .text "cd83740bbd".toList, .text "92ccc8cf032b1481a0f4460e7ca9dd12b08a0c4031178bacd6ec35".toList] := by
  decide +kernel

/-! The false part of C09. -/

def kmacBad : Bytes := List.replicate 157 0x61
def kmacBadOps : List (HashOp KmacParam) := [.set (.customization kmacBad), .digest]

private def kmacBadRaw : Bytes :=
  Spec.Keccak.bytepad (Spec.Keccak.encodeString (ascii "KMAC") ++ Spec.Keccak.encodeString kmacBad) 168 ++
    (Spec.Keccak.bytepad (Spec.Keccak.encodeString []) 168 ++ [] ++ Spec.Keccak.rightEncode 32)

private def kmacBadState : Blk Model.Shake.St := ⟨⟨[], ascii "KMAC", kmacBad, true, 3⟩, List.replicate 168 0xaa, 17, 99⟩

private theorem kmacBad_eval : (do
    let s ← Model.Shake.update 24 1344 kmacBadRaw (Model.Shake.initFields kmacBadState)
    let r ← Model.Shake.squeeze 24 1344 4 s
    pure r.1 : M Bytes).toOption ≠ some [0xae, 0xb8, 0x5e, 0x91] := by decide +kernel

private theorem kmacBad_trial : (Model.Kmac.kmac 128 32).trial kmacMem kmacBadOps
    = some [.done, .bytes [0xae, 0xb8, 0x5e, 0x91]] := by decide +kernel

/-- **C09 is false in general**: with a customization of 157 bytes, `kmac128` does not compute KMAC128. -/
theorem kmac_not_conforms :
    ¬ HashConforms (Model.Kmac.kmac 128 32) (Spec.kmac 128 32) ⟨fun _ _ => True, True, kmacShort, fun _ => True⟩ := by
  intro h
  have h1 := Proofs.hashConforms_trial h kmacMem rfl kmacBadOps
    ⟨show (List.replicate 157 (0x61 : Byte)).length < 2 ^ 61 by rw [List.length_replicate]; decide, trivial, trivial⟩
  rw [kmacBad_trial] at h1
  have h2 : [0xae, 0xb8, 0x5e, 0x91] = slice (kmacStream (Spec.Keccak.cshakeStream 168) 168 32 ⟨[], kmacBad⟩ []) 0 4 := by
    have := Option.some.inj h1
    injection this with _ this
    injection this with this
    injection this
  obtain ⟨s1, e1, r1⟩ := Proofs.Shake.update_ok (R := 24) (r := 168) (by omega) (by omega) (by omega) (by omega) kmacBadRaw
    (Proofs.Shake.initFields_ok 24 168 kmacBadState rfl) (by decide +kernel)
  obtain ⟨s2, e2, -⟩ := Proofs.Shake.squeeze_first (R := 24) (r := 168) (by omega) (by omega) (by omega) (by omega) (d := 0x04) 4
    (by omega) (by decide) (by decide) r1
  apply kmacBad_eval
  rw [e1, Proofs.ok_bind, e2, h2, kmacStream, Spec.Keccak.cshakeStream, if_neg (fun h => absurd h.1 (by decide)),
    Spec.Keccak.keccak, Proofs.Keccak.padded_cshake _ _ (by omega), List.nil_append, kmacBadRaw]
  rfl

end Digestpp.Properties
