import Verif.Proofs.Inner
import Verif.Properties.SpongeInputs
import Verif.Properties.Inputs

/-! C60: two messages with the same output of a sponge class contain a collision of the inner part of the state, or different final states give the same output; and each inner collision
gives messages with the same output. The functions are those the classes compute (C06 – C09, C24, C25, C40, C48). -/

namespace Digestpp.Properties
open Model Spec Proofs

/-- **C60**, SHA-3. -/
theorem sha3_inner (d : Nat) (hd : d = 224 ∨ d = 256 ∨ d = 384 ∨ d = 512) : (Spec.Inputs.sha3 d).ReducesToInner ofLeWords (Spec.Keccak.Inner (200 - 2 * d / 8)) every :=
  Inner.keccak_reduces (200 - 2 * d / 8) (by omega) (by omega) (by omega) (fun _ msg => Spec.Keccak.padded (200 - 2 * d / 8) [false, true] msg) (fun _ _ => rfl)
    (fun _ msg => by
      rw [Keccak.padded_sha3 _ _ (by omega)]
      exact ⟨Inner.length_padD_pos _ _ _, Keccak.length_padD _ (by omega) _ _⟩) rfl rfl (Proofs.Inputs.sha3_det d (by omega))

/-- **C60**, the first `n` bytes of SHAKE. -/
theorem shake_inner (b n : Nat) (hb : b = 128 ∨ b = 256) :
    (Spec.Inputs.firstBytes n (Spec.Inputs.shake b)).ReducesToInner ofLeWords (Spec.Keccak.Inner (200 - 2 * b / 8)) every :=
  Inner.keccak_reduces (200 - 2 * b / 8) (by omega) (by omega) (by omega) (fun _ msg => Spec.Keccak.padded (200 - 2 * b / 8) [true, true, true, true] msg) (fun _ _ => rfl)
    (fun _ msg => by
      rw [Keccak.padded_shake _ _ (by omega)]
      exact ⟨Inner.length_padD_pos _ _ _, Keccak.length_padD _ (by omega) _ _⟩) rfl rfl (Proofs.Inputs.shake_det b (by omega))

/-- The strings of cSHAKE are shorter than 2^61 bytes. -/
def CshakeShort (θ : Spec.Keccak.CShakeParams) (_ : Bytes) : Prop := θ.N.length < 2 ^ 61 ∧ θ.S.length < 2 ^ 61

/-- The strings of KMAC are shorter than 2^61 bytes. -/
def KmacShort (θ : KmacParams) (_ : Bytes) : Prop := θ.K.length < 2 ^ 61 ∧ θ.S.length < 2 ^ 61

private theorem cshake_padded (r : Nat) (h0 : 0 < r) (θ : Spec.Keccak.CShakeParams) (msg : Bytes) : 0 < (cshakeInput r θ msg).length ∧ (cshakeInput r θ msg).length % r = 0 := by
  unfold cshakeInput
  split
  · rw [Keccak.padded_shake _ _ h0]
    exact ⟨Inner.length_padD_pos _ _ _, Keccak.length_padD _ h0 _ _⟩
  · rw [Keccak.padded_cshake _ _ h0]
    exact ⟨Inner.length_padD_pos _ _ _, Keccak.length_padD _ h0 _ _⟩

private theorem kmac_padded (r L : Nat) (h0 : 0 < r) (θ : KmacParams) (msg : Bytes) : 0 < (kmacInput r L θ msg).length ∧ (kmacInput r L θ msg).length % r = 0 := by
  unfold kmacInput
  rw [Keccak.padded_cshake _ _ h0]
  exact ⟨Inner.length_padD_pos _ _ _, Keccak.length_padD _ h0 _ _⟩

/-- **C60**, cSHAKE and KMAC: the iterations give what the objects compute (`cshake_input`, `kmac_input`, `kmac_xof_input`). -/
theorem sponge_results (b hs : Nat) (θ : Spec.Keccak.CShakeParams) (κ : KmacParams) (msg : Bytes) :
    (Spec.Inputs.cshake b).result θ msg = spongeStream (200 - 2 * b / 8) (cshakeInput (200 - 2 * b / 8) θ msg) ∧
    (Spec.Inputs.kmac b hs).result κ msg = slice (spongeStream (200 - 2 * b / 8) (kmacInput (200 - 2 * b / 8) hs κ msg)) 0 (hs / 8) ∧
    (Spec.Inputs.kmacXof b).result κ msg = spongeStream (200 - 2 * b / 8) (kmacInput (200 - 2 * b / 8) 0 κ msg) := ⟨rfl, rfl, rfl⟩

/-- **C60**, cSHAKE, with different names, customizations or messages. -/
theorem cshake_inner (b n : Nat) (hb : b = 128 ∨ b = 256) :
    (Spec.Inputs.firstBytes n (Spec.Inputs.cshake b)).ReducesToInner ofLeWords (Spec.Keccak.Inner (200 - 2 * b / 8)) CshakeShort :=
  Inner.keccak_reduces (200 - 2 * b / 8) (by omega) (by omega) (by omega) (cshakeInput (200 - 2 * b / 8)) (fun _ _ => rfl) (fun θ msg => cshake_padded _ (by omega) θ msg) rfl rfl
    fun θ θ' msg msg' h h' e => cshake_input_injective b hb θ θ' msg msg' h.1 h.2 h'.1 h'.2 e

/-- **C60**, KMAC, with different keys, customizations or messages. -/
theorem kmac_inner (b hs : Nat) (hb : b = 128 ∨ b = 256) (hs64 : hs < 2 ^ 64) :
    (Spec.Inputs.kmac b hs).ReducesToInner ofLeWords (Spec.Keccak.Inner (200 - 2 * b / 8)) KmacShort :=
  Inner.keccak_reduces (200 - 2 * b / 8) (by omega) (by omega) (by omega) (kmacInput (200 - 2 * b / 8) hs) (fun _ _ => rfl) (fun θ msg => kmac_padded _ _ (by omega) θ msg) rfl rfl
    fun θ θ' msg msg' h h' e =>
      have k := kmac_input_injective b hb hs hs θ θ' msg msg' hs64 hs64 h.1 h.2 h'.1 h'.2 e
      ⟨k.1, k.2.1⟩

/-- **C60**, KMACXOF. -/
theorem kmac_xof_inner (b n : Nat) (hb : b = 128 ∨ b = 256) :
    (Spec.Inputs.firstBytes n (Spec.Inputs.kmacXof b)).ReducesToInner ofLeWords (Spec.Keccak.Inner (200 - 2 * b / 8)) KmacShort :=
  Inner.keccak_reduces (200 - 2 * b / 8) (by omega) (by omega) (by omega) (kmacInput (200 - 2 * b / 8) 0) (fun _ _ => rfl) (fun θ msg => kmac_padded _ _ (by omega) θ msg) rfl rfl
    fun θ θ' msg msg' h h' e =>
      have k := kmac_input_injective b hb 0 0 θ θ' msg msg' (by decide) (by decide) h.1 h.2 h'.1 h'.2 e
      ⟨k.1, k.2.1⟩

/-- **C60**, Ascon. -/
theorem ascon_inner (n : Nat) :
    Spec.Inputs.asconHash.ReducesToInner Spec.Ascon.stateBytes Spec.Ascon.Inner every ∧
    (Spec.Inputs.firstBytes n Spec.Inputs.asconXof).ReducesToInner Spec.Ascon.stateBytes Spec.Ascon.Inner every ∧
    (Spec.Inputs.firstBytes n Spec.Inputs.asconCxof).ReducesToInner Spec.Ascon.stateBytes Spec.Ascon.Inner fun z _ => z.length < 2 ^ 61 :=
  ⟨Inner.ascon_reduces (fun _ msg => Spec.Ascon.pad msg) (fun _ _ => rfl) (fun _ msg => Inner.length_pad msg) rfl Proofs.Inputs.asconHash_det,
   Inner.ascon_reduces (fun _ msg => Spec.Ascon.pad msg) (fun _ _ => rfl) (fun _ msg => Inner.length_pad msg) rfl Proofs.Inputs.asconXof_det,
   Inner.ascon_reduces (fun z msg => leBytes 8 (8 * z.length) ++ Spec.Ascon.pad z ++ Spec.Ascon.pad msg) (fun _ _ => rfl)
    (fun z msg => by
      have h1 := Inner.length_pad z
      have h2 := Inner.length_pad msg
      rw [List.length_append, List.length_append, length_leBytes]
      omega) rfl Proofs.Inputs.asconCxof_det⟩

/-- **C60**, Esch and XOEsch. -/
theorem esch_inner (F : Spec.Esch.Family) (hF : F = Spec.Esch.f256 ∨ F = Spec.Esch.f384) (n : Nat) :
    (Spec.Inputs.esch F n).ReducesToInner (Spec.Esch.stateBytes F.h) (Spec.Esch.Inner F.h) every ∧
    (Spec.Inputs.firstBytes n (Spec.Inputs.eschXof F)).ReducesToInner (Spec.Esch.stateBytes F.h) (Spec.Esch.Inner F.h) every :=
  ⟨Inner.esch_reduces F hF 0 (.inl rfl) rfl rfl (Proofs.Inputs.esch_det F n), Inner.esch_reduces F hF 4 (.inr rfl) rfl rfl (Proofs.Inputs.eschXof_det F)⟩

/-! ## The converse -/

private theorem differ {r : Nat} {X X' b b' t : Bytes} (hb : b.length = r) (hb' : b'.length = r) (h : X ≠ X') : X ++ b ++ t ≠ X' ++ b' ++ t := fun e =>
  h (List.append_inj_left' (List.append_cancel_right e) (by rw [hb, hb']))

/-- **C60**, SHA-3: for each inner collision and each block there is a second block, so that all messages that go on in the same way after them have the same digest. -/
theorem sha3_extends (d : Nat) (hd : d = 224 ∨ d = 256 ∨ d = 384 ∨ d = 512) (X X' : Bytes) (hX : X.length % (200 - 2 * d / 8) = 0) (hX' : X'.length % (200 - 2 * d / 8) = 0) (hne : X ≠ X')
    (h : Spec.Keccak.Inner (200 - 2 * d / 8) (Spec.Keccak.absorb 24 (200 - 2 * d / 8) X) (Spec.Keccak.absorb 24 (200 - 2 * d / 8) X')) (b : Bytes) (hb : b.length = 200 - 2 * d / 8) :
    ∃ b', ∀ t, X ++ b ++ t ≠ X' ++ b' ++ t ∧ (Spec.sha3 d).digest () (X ++ b ++ t) = (Spec.sha3 d).digest () (X' ++ b' ++ t) := by
  have h0 : 0 < 200 - 2 * d / 8 := by omega
  obtain ⟨b', hb', e⟩ := Inner.absorb_complete h0 (by omega) hX hX' h b hb
  refine ⟨b', fun t => ⟨differ hb hb' hne, ?_⟩⟩
  show slice (Spec.Keccak.squeeze _ _ (Spec.Keccak.absorb _ _ (Spec.Keccak.padded _ _ _))) _ _ = slice (Spec.Keccak.squeeze _ _ (Spec.Keccak.absorb _ _ (Spec.Keccak.padded _ _ _))) _ _
  rw [Keccak.padded_sha3 _ _ h0, Keccak.padded_sha3 _ _ h0, e]

/-- **C60**, SHAKE. -/
theorem shake_extends (b : Nat) (hb : b = 128 ∨ b = 256) (X X' : Bytes) (hX : X.length % (200 - 2 * b / 8) = 0) (hX' : X'.length % (200 - 2 * b / 8) = 0) (hne : X ≠ X')
    (h : Spec.Keccak.Inner (200 - 2 * b / 8) (Spec.Keccak.absorb 24 (200 - 2 * b / 8) X) (Spec.Keccak.absorb 24 (200 - 2 * b / 8) X')) (c : Bytes) (hc : c.length = 200 - 2 * b / 8) :
    ∃ c', ∀ t, X ++ c ++ t ≠ X' ++ c' ++ t ∧ (Spec.shake b).stream () (X ++ c ++ t) = (Spec.shake b).stream () (X' ++ c' ++ t) := by
  have h0 : 0 < 200 - 2 * b / 8 := by omega
  obtain ⟨c', hc', e⟩ := Inner.absorb_complete h0 (by omega) hX hX' h c hc
  refine ⟨c', fun t => ⟨differ hc hc' hne, ?_⟩⟩
  show Spec.Keccak.squeeze _ _ (Spec.Keccak.absorb _ _ (Spec.Keccak.padded _ _ _)) = Spec.Keccak.squeeze _ _ (Spec.Keccak.absorb _ _ (Spec.Keccak.padded _ _ _))
  rw [Keccak.padded_shake _ _ h0, Keccak.padded_shake _ _ h0, e]

/-- **C60**, Ascon-Hash256 and Ascon-XOF128. -/
theorem ascon_extends (v : BitVec 64) (X X' : Bytes) (hX : X.length % 8 = 0) (hX' : X'.length % 8 = 0) (hne : X ≠ X')
    (h : Spec.Ascon.Inner (Spec.Ascon.absorb (Spec.Ascon.start v) X) (Spec.Ascon.absorb (Spec.Ascon.start v) X')) (b : Bytes) (hb : b.length = 8) :
    ∃ b', ∀ t, X ++ b ++ t ≠ X' ++ b' ++ t ∧
      (v = 0x0000080100cc0002 → Spec.Ascon.hash256.digest () (X ++ b ++ t) = Spec.Ascon.hash256.digest () (X' ++ b' ++ t)) ∧
      (v = 0x0000080000cc0003 → Spec.Ascon.xof128.stream () (X ++ b ++ t) = Spec.Ascon.xof128.stream () (X' ++ b' ++ t)) := by
  obtain ⟨b', hb', e⟩ := Inner.ascon_absorb_complete _ hX hX' h b hb
  refine ⟨b', fun t => ⟨differ hb hb' hne, fun hv => ?_, fun hv => ?_⟩⟩
  · subst hv
    exact congrArg (fun s => slice (Spec.Ascon.squeeze s) 0 32) (e t)
  · subst hv
    exact congrArg Spec.Ascon.squeeze (e t)

/-- **C60**, Esch and XOEsch: the states after whole blocks differ as by adding a block. -/
theorem esch_extends (F : Spec.Esch.Family) (hF : F = Spec.Esch.f256 ∨ F = Spec.Esch.f384) (n : Nat) (X X' : Bytes) (hX : X.length % 16 = 0) (hX' : X'.length % 16 = 0) (hne : X ≠ X') (d : Bytes)
    (h : let state := fun X : Bytes => (chunks 16 X).foldl (fun B b => Spec.Esch.sparkle F.h F.slim (Spec.Esch.inject F.h B b)) fun _ => (0, 0)
      ∀ i, i < 2 * F.h → state X' i = Spec.Esch.inject F.h (state X) d i) (b : Bytes) (hb : b.length = 16) :
    ∃ b', ∀ t, t ≠ [] → X ++ b ++ t ≠ X' ++ b' ++ t ∧ (Spec.Esch.esch F n).digest () (X ++ b ++ t) = (Spec.Esch.esch F n).digest () (X' ++ b' ++ t) ∧
      (Spec.Esch.eschXof F).stream () (X ++ b ++ t) = (Spec.Esch.eschXof F).stream () (X' ++ b' ++ t) := by
  have hh : F.h = 3 ∨ F.h = 4 := by rcases hF with rfl | rfl; exacts [.inl rfl, .inr rfl]
  obtain ⟨b', hb', e⟩ := Inner.esch_complete hh h b
  refine ⟨b', fun t ht => ⟨differ hb hb' hne, ?_⟩⟩
  have one : ∀ b : Bytes, b.length = 16 → chunks 16 b = [b] := fun b hb => by
    have := Keccak.chunks_cons 16 (by decide) b [] hb
    rw [List.append_nil] at this
    rw [this]; simp [chunks]
  have fold : ∀ (dom : BitVec 32) (X b : Bytes), X.length % 16 = 0 → b.length = 16 → Spec.Esch.absorb F dom (X ++ b ++ t) =
      (Spec.Inputs.eschInputs dom t).foldl (Spec.Inputs.eschStep F)
        (Spec.Inputs.eschStep F ((chunks 16 X).foldl (fun B b => Spec.Esch.sparkle F.h F.slim (Spec.Esch.inject F.h B b)) fun _ => (0, 0)) (none, b)) := by
    intro dom X b hX hb
    rw [Proofs.Inputs.esch_absorb, Inner.eschInputs_append dom (X ++ b) t (by rw [List.length_append]; omega) ht, Extension.chunks_append (by decide) hX, one b hb,
      List.foldl_append, List.map_append, List.foldl_append, List.foldl_map, List.foldl_map]
    rfl
  have same : ∀ dom, Spec.Esch.squeeze F (Spec.Esch.absorb F dom (X ++ b ++ t)) = Spec.Esch.squeeze F (Spec.Esch.absorb F dom (X' ++ b' ++ t)) := by
    intro dom
    rw [fold dom X b hX hb, fold dom X' b' hX' hb']
    exact Inner.squeeze_congr (by omega) (Inner.eschFold_congr (by omega) _ e)
  exact ⟨congrArg (fun f => slice f 0 n) (same 0), same 4⟩

/-! ## Cases -/

/-! Concrete strings that meet the hypotheses of the theorems on extension are inner collisions of the full functions: nobody knows one. Concrete states are easily given. -/

/-- **C60**: from any two states with the same inner part, the next block of one can be chosen so that the states agree from then on. -/
theorem keccak_next_block (r : Nat) (hr : r % 8 = 0) (A A' : Spec.Keccak.State) (hA : A.length = 25) (hA' : A'.length = 25) (h : Spec.Keccak.Inner r A A') (b : Bytes) (hb : b.length = r) :
    ∃ b', b'.length = r ∧ Spec.Inputs.keccakStep 24 A b = Spec.Inputs.keccakStep 24 A' b' :=
  Inner.keccak_complete hr hA hA' h b hb

example : ∃ b', b'.length = 168 ∧ Spec.Inputs.keccakStep 24 (List.replicate 25 0) (List.replicate 168 7) = Spec.Inputs.keccakStep 24 (5 :: List.replicate 24 0) b' :=
  keccak_next_block 168 rfl _ _ rfl rfl (by unfold Spec.Keccak.Inner; decide +kernel) _ (by rw [List.length_replicate])

/-- The inner part counts. -/
example : ¬ Spec.Keccak.Inner 168 (List.replicate 25 0) (List.replicate 24 0 ++ [1]) := by unfold Spec.Keccak.Inner; decide +kernel

/-- Messages that fill less than a block never have the same state: here the inner parts are those of the initial state, reached by the same (empty) sequence of inputs. -/
example (msg msg' : Bytes) (h : msg.length < 136) (h' : msg'.length < 136) (hne : msg ≠ msg') :
    ofLeWords ((Spec.Inputs.sha3 256).chain () msg) ≠ ofLeWords ((Spec.Inputs.sha3 256).chain () msg') := by
  intro e
  have hr : (Spec.Inputs.sha3 256).result () msg = (Spec.Inputs.sha3 256).result () msg' :=
    congrArg (fun A => slice (Spec.Keccak.squeeze 24 136 A) 0 32) (Collision.ofLeWords_inj (by decide)
      (by rw [show ∀ msg, ((Spec.Inputs.sha3 256).chain () msg).length = 25 from fun _ => Inner.length_fold _]; exact (Inner.length_fold _).symm) e)
  rcases sha3_inner 256 (.inr (.inl rfl)) () () msg msg' trivial trivial (fun h => hne h.2) hr with ⟨X, X', _, _, l, l', hx, _⟩ | h
  · have len : ∀ msg : Bytes, msg.length < 136 → ((Spec.Inputs.sha3 256).inputs () msg).length = 1 := fun msg h => by
      show (chunks 136 (Spec.Keccak.padded 136 _ msg)).length = 1
      rw [Keccak.padded_sha3 _ _ (by decide), Collision.length_chunks]
      unfold Spec.Keccak.padD Spec.Keccak.xorLast
      simp only [List.length_set, List.length_append, List.length_singleton, List.length_replicate]
      omega
    rw [len msg h] at l
    rw [len msg' h'] at l'
    exact hx ((List.length_eq_zero_iff.1 (by omega)).trans (List.length_eq_zero_iff.1 (by omega)).symm)
  · exact h.1 e

/-- A sponge with a one-byte rate and a zero permutation on four words: any two strings of the same length collide in the inner part. -/
def zeroSponge : Iter Unit Spec.Ascon.State Bytes Bytes where
  inputs := fun _ msg => chunks 8 (Spec.Ascon.pad msg)
  iv := ⟨0, 0, 0, 0, 0⟩
  f := fun s b => { s with s0 := s.s0 ^^^ (leWords 64 b).getD 0 0 }
  out := fun _ s => leBytes 8 s.s0.toNat

example : zeroSponge.InnerCollision Spec.Ascon.Inner () () [1, 0, 0, 0, 0, 0, 0, 0, 2] [3, 0, 0, 0, 0, 0, 0, 0] := by
  refine ⟨[[1, 0, 0, 0, 0, 0, 0, 0]], [[3, 0, 0, 0, 0, 0, 0, 0]], ⟨[[2, 1, 0, 0, 0, 0, 0, 0]], by decide⟩, ⟨[[1, 0, 0, 0, 0, 0, 0, 0]], by decide⟩, by decide, by decide, by decide, ?_⟩
  exact ⟨rfl, rfl, rfl, rfl⟩

end Digestpp.Properties
