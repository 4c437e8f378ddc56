import Verif.Spec.SpongeInputs
import Verif.Proofs.Injective
import Verif.Properties.Shake
import Verif.Properties.Kmac

/-! C48: cSHAKE and KMAC give different strings to the sponge for different parameters and messages. -/

namespace Digestpp.Properties
open Model Spec Proofs

/-- **C48**, cSHAKE: what the object gives out is the output of the sponge for the blocks of `cshakeInput`. -/
theorem cshake_input (b : Nat) (hb : b = 128 ∨ b = 256) :
    XofConforms (Model.Shake.cshake b) { Spec.cshake b with
        stream := fun θ msg => spongeStream (200 - 2 * b / 8) (cshakeInput (200 - 2 * b / 8) θ msg) }
      ⟨fun _ _ => True, True, shortStrings, fun _ => True⟩ := by
  have h := cshake_conforms_full b hb
  have e : Spec.cshakeFull b = { Spec.cshake b with
      stream := fun θ msg => spongeStream (200 - 2 * b / 8) (cshakeInput (200 - 2 * b / 8) θ msg) } := by
    refine congrArg (XofFn.mk _ _) ?_
    funext θ msg
    show Spec.Keccak.cshakeFullStream _ θ msg = _
    unfold Spec.Keccak.cshakeFullStream cshakeInput spongeStream Spec.Keccak.keccak
    split <;> rfl
  rwa [e] at h

/-- **C48**, cSHAKE: function name, customization and message can be recovered from the blocks. -/
theorem cshake_input_injective (b : Nat) (hb : b = 128 ∨ b = 256) (θ θ' : Spec.Keccak.CShakeParams) (msg msg' : Bytes)
    (hN : θ.N.length < 2 ^ 61) (hS : θ.S.length < 2 ^ 61) (hN' : θ'.N.length < 2 ^ 61) (hS' : θ'.S.length < 2 ^ 61)
    (h : chunks (200 - 2 * b / 8) (cshakeInput (200 - 2 * b / 8) θ msg) = chunks (200 - 2 * b / 8) (cshakeInput (200 - 2 * b / 8) θ' msg')) :
    θ = θ' ∧ msg = msg' := by
  generalize hr : 200 - 2 * b / 8 = r at h
  have h0 : 0 < r := by omega
  have e : ∀ θ : Spec.Keccak.CShakeParams, ∀ msg, cshakeInput r θ msg = if θ.N = [] ∧ θ.S = [] then Spec.Keccak.padD r 0x1f msg
      else Spec.Keccak.padD r 0x04 (Spec.Keccak.bytepadFull (Spec.Keccak.encodeString θ.N ++ Spec.Keccak.encodeString θ.S) r ++ msg) := by
    intro θ msg
    unfold cshakeInput
    rw [Keccak.padded_shake r _ h0, Keccak.padded_cshake r _ h0]
  rw [e, e] at h
  obtain ⟨N, S⟩ := θ
  obtain ⟨N', S'⟩ := θ'
  dsimp only at *
  split at h <;> split at h
  · rename_i h1 h2
    obtain ⟨e1, _⟩ := Keccak.padD_inj (by decide) (by decide) (chunks_inj (Keccak.length_padD r h0 _ _) (Keccak.length_padD r h0 _ _) h)
    exact ⟨by rw [h1.1, h1.2, h2.1, h2.2], e1⟩
  · obtain ⟨_, e2⟩ := Keccak.padD_inj (by decide) (by decide) (chunks_inj (Keccak.length_padD r h0 _ _) (Keccak.length_padD r h0 _ _) h)
    exact absurd e2 (by decide)
  · obtain ⟨_, e2⟩ := Keccak.padD_inj (by decide) (by decide) (chunks_inj (Keccak.length_padD r h0 _ _) (Keccak.length_padD r h0 _ _) h)
    exact absurd e2 (by decide)
  · obtain ⟨e1, _⟩ := Keccak.padD_inj (by decide) (by decide) (chunks_inj (Keccak.length_padD r h0 _ _) (Keccak.length_padD r h0 _ _) h)
    obtain ⟨e2, e3, e4⟩ := Keccak.prefix_inj hN hS hN' hS' e1
    exact ⟨by rw [e2, e3], e4⟩

/-- **C48**, KMAC: what the object gives out is the output of the sponge for the blocks of `kmacInput`. -/
theorem kmac_input (b hs : Nat) (hb : b = 128 ∨ b = 256) (h0 : 0 < hs) (hs8 : hs % 8 = 0) (hs64 : hs < 2 ^ 64) :
    HashConforms (Model.Kmac.kmac b hs) { Spec.kmac b hs with
        digest := fun θ msg => slice (spongeStream (200 - 2 * b / 8) (kmacInput (200 - 2 * b / 8) hs θ msg)) 0 (hs / 8) }
      ⟨fun _ _ => True, True, kmacShort, fun _ => True⟩ := by
  have h := kmac_conforms_full b hs hb h0 hs8 hs64
  have e : Spec.kmacFull b hs = { Spec.kmac b hs with
      digest := fun θ msg => slice (spongeStream (200 - 2 * b / 8) (kmacInput (200 - 2 * b / 8) hs θ msg)) 0 (hs / 8) } := by
    refine congrArg (HashFn.mk _ _ _) ?_
    funext θ msg
    refine congrArg (fun f => slice f 0 (hs / 8)) ?_
    unfold kmacStream Spec.Keccak.cshakeFullStream kmacInput spongeStream Spec.Keccak.keccak
    rw [if_neg (fun h => absurd (show ascii "KMAC" = [] from h.1) (by decide))]
  rwa [e] at h

/-- **C48**, the same for the KMAC with output of any length. -/
theorem kmac_xof_input (b : Nat) (hb : b = 128 ∨ b = 256) :
    XofConforms (Model.Kmac.kmacXof b) { Spec.kmacXof b with
        stream := fun θ msg => spongeStream (200 - 2 * b / 8) (kmacInput (200 - 2 * b / 8) 0 θ msg) }
      ⟨fun _ _ => True, True, kmacShort, fun _ => True⟩ := by
  have h := kmac_xof_conforms_full b hb
  have e : Spec.kmacXofFull b = { Spec.kmacXof b with
      stream := fun θ msg => spongeStream (200 - 2 * b / 8) (kmacInput (200 - 2 * b / 8) 0 θ msg) } := by
    refine congrArg (XofFn.mk _ _) ?_
    funext θ msg
    show kmacStream _ _ _ θ msg = _
    unfold kmacStream Spec.Keccak.cshakeFullStream kmacInput spongeStream Spec.Keccak.keccak
    rw [if_neg (fun h => absurd (show ascii "KMAC" = [] from h.1) (by decide))]
  rwa [e] at h

/-- **C48**, KMAC: key, customization, message and output length can be recovered from the blocks. -/
theorem kmac_input_injective (b : Nat) (hb : b = 128 ∨ b = 256) (L L' : Nat) (θ θ' : KmacParams) (msg msg' : Bytes) (hL : L < 2 ^ 64)
    (hL' : L' < 2 ^ 64) (hK : θ.K.length < 2 ^ 61) (hS : θ.S.length < 2 ^ 61) (hK' : θ'.K.length < 2 ^ 61) (hS' : θ'.S.length < 2 ^ 61)
    (h : chunks (200 - 2 * b / 8) (kmacInput (200 - 2 * b / 8) L θ msg) = chunks (200 - 2 * b / 8) (kmacInput (200 - 2 * b / 8) L' θ' msg')) :
    θ = θ' ∧ msg = msg' ∧ L = L' := by
  generalize hr : 200 - 2 * b / 8 = r at h
  have h0 : 0 < r := by omega
  unfold kmacInput at h
  rw [Keccak.padded_cshake r _ h0, Keccak.padded_cshake r _ h0] at h
  obtain ⟨e1, _⟩ := Keccak.padD_inj (by decide) (by decide) (chunks_inj (Keccak.length_padD r h0 _ _) (Keccak.length_padD r h0 _ _) h)
  obtain ⟨_, e2, e3⟩ := Keccak.prefix_inj (by decide) hS (by decide) hS' e1
  rw [List.append_assoc, List.append_assoc] at e3
  obtain ⟨e4, e5⟩ := Keccak.key_inj hK hK' e3
  obtain ⟨e6, e7⟩ := Encode.rightEncode_inj hL hL' e5
  obtain ⟨K, S⟩ := θ
  obtain ⟨K', S'⟩ := θ'
  dsimp only at *
  exact ⟨by rw [e2, e4], e7, e6⟩

/-! Moving bytes between neighbouring strings changes the blocks. -/

example : chunks 168 (cshakeInput 168 ⟨ascii "ab", ascii "c"⟩ [1]) ≠ chunks 168 (cshakeInput 168 ⟨ascii "a", ascii "bc"⟩ [1]) :=
  fun h => absurd (congrArg Spec.Keccak.CShakeParams.N (cshake_input_injective 128 (.inl rfl) _ _ _ _ (by decide) (by decide) (by decide)
    (by decide) h).1) (by decide)
example : chunks 136 (kmacInput 136 256 ⟨[1, 2], []⟩ [3]) ≠ chunks 136 (kmacInput 136 256 ⟨[1], []⟩ [2, 3]) :=
  fun h => absurd (kmac_input_injective 256 (.inr rfl) 256 256 _ _ _ _ (by decide) (by decide) (by decide) (by decide) (by decide)
    (by decide) h).2.1 (by decide)

end Digestpp.Properties
