import Verif.Proofs.Collision
import Verif.Properties.Inputs

/-! C51: collisions of digests are collisions of the compression function or of the output step. That the objects compute these
iterations is C40. -/

namespace Digestpp.Properties
open Model Spec Proofs
open Proofs.Collision (Short)

private theorem mono {Θ V I O : Type} {it : Iter Θ V I O} {ok : Θ → Bytes → Prop} (h : it.Determines every) : it.Determines ok :=
  Collision.Determines.mono h fun _ _ _ => trivial

/-- **C51**, MD5: two messages with the same digest contain a collision of the compression function. -/
theorem md5_collision : Spec.Inputs.md5.ReducesToStep (fun h => ofLeWords [h.1, h.2.1, h.2.2.1, h.2.2.2]) Short :=
  Collision.reducesToStep (Collision.reduces _ (mono Inputs.md5_det) Collision.md5_free) fun _ _ _ _ h => h

/-- **C51**, SHA-1. -/
theorem sha1_collision : Spec.Inputs.sha1.ReducesToStep (fun h => ofBeWords [h.1, h.2.1, h.2.2.1, h.2.2.2.1, h.2.2.2.2]) Short :=
  Collision.reducesToStep (Collision.reduces _ (mono Inputs.sha1_det) Collision.sha1_free) fun _ _ _ _ h => h

/-- **C51**, SM3. -/
theorem sm3_collision : Spec.Inputs.sm3.ReducesToStep (fun h => ofBeWords [h.a, h.b, h.c, h.d, h.e, h.f, h.g, h.h]) Short :=
  Collision.reducesToStep (Collision.reduces _ (mono Inputs.sm3_det) Collision.sm3_free) fun _ _ _ _ h => h

/-- **C51**, the SHA-2 family: a collision of the compression function, or of the first `n` bytes of the last chaining value. -/
theorem sha2_collision {w : Nat} (hw : w = 32 ∨ w = 64) (v : Spec.Sha2.Variant w) (iv : Spec.Sha2.H8 w) (n : Nat) :
    (Spec.Inputs.sha2 v iv n).Reduces (fun h => h.bytes) Short :=
  Collision.reduces _ (mono (Inputs.sha2_det (by omega) _ _ _)) (Collision.sha2_free (by omega) _ _ _)

/-- **C51**, SHA-256. -/
theorem sha256_collision : (Spec.Inputs.sha2 Spec.Sha2.v256 Spec.Sha2.iv256 32).ReducesToStep (fun h => h.bytes) Short :=
  Collision.reducesToStep (sha2_collision (.inl rfl) _ _ _) fun _ _ v v' h => by
    have e : ∀ v : Spec.Sha2.H8 32, v.bytes.take 32 = v.bytes := fun v => List.take_of_length_le (by rw [Inputs.length_bytes]; decide)
    rw [← e v, ← e v']
    exact h

/-- **C51**, SHA-512. -/
theorem sha512_collision : (Spec.Inputs.sha2 Spec.Sha2.v512 Spec.Sha2.iv512 64).ReducesToStep (fun h => h.bytes) Short :=
  Collision.reducesToStep (sha2_collision (.inr rfl) _ _ _) fun _ _ v v' h => by
    have e : ∀ v : Spec.Sha2.H8 64, v.bytes.take 64 = v.bytes := fun v => List.take_of_length_le (by simp [Spec.Sha2.H8.bytes, ofBeWords, length_beBytes])
    rw [← e v, ← e v']
    exact h

/-- **C51**, Whirlpool. -/
theorem whirlpool_collision :
    Spec.Inputs.whirlpool.ReducesToStep (fun h => (List.range 8).flatMap fun i => (List.range 8).map fun j => h i j) Short :=
  Collision.reducesToStep (Collision.reduces _ (mono Inputs.whirlpool_det) Collision.whirlpool_free) fun _ _ _ _ h => h

/-- **C51**, Kupyna, with 8 or 16 columns. -/
theorem kupyna_collision (c n : Nat) (hc : c = 8 ∨ c = 16) : (Spec.Inputs.kupyna c n).Reduces (matBytes c) Short :=
  Collision.reduces _ (mono (Inputs.kupyna_det _ _ (by omega))) (Collision.kupyna_free _ _ (by omega))

/-- **C51**, Grøstl, with 8 or 16 columns. -/
theorem groestl_collision (c n : Nat) (hc : c = 8 ∨ c = 16) :
    (Spec.Inputs.groestl c n).Reduces (matBytes c) fun _ msg => msg.length < 2 ^ 61 - 256 :=
  Collision.reduces _ (mono (Inputs.groestl_det _ _ (by omega))) (Collision.groestl_free _ _ (by omega) (by omega))

/-- **C51**, JH. -/
theorem jh_collision (n : Nat) : (Spec.Inputs.jh n).Reduces (Spec.Jh.bytesOf 128) Short :=
  Collision.reduces _ (mono (Inputs.jh_det _)) (Collision.jh_free _)

/-- **C51**, ECHO, with 4 or 8 words of chaining value and any salts. -/
theorem echo_collision (cw n : Nat) (hc : cw = 4 ∨ cw = 8) :
    (Spec.Inputs.echo cw n).Reduces (fun V => (List.range cw).flatMap fun t => Spec.Echo.stateBytes (V t)) Short :=
  Collision.reduces _ (mono (Inputs.echo_det _ _ (by omega))) (Collision.echo_free _ _ (by omega))

/-- **C51**, Streebog: a collision of the function `g`, or of the upper half of the last chaining value. -/
theorem streebog_collision (n : Nat) : (Spec.Inputs.streebog n).Reduces (matBytes 8) Short :=
  Collision.reduces _ (mono (Inputs.streebog_det _)) (Collision.streebog_free _)

/-- **C51**, Streebog-512. -/
theorem streebog512_collision : (Spec.Inputs.streebog 64).ReducesToStep (matBytes 8) Short :=
  Collision.reducesToStep (streebog_collision 64) fun _ _ _ _ h => h

/-- **C51**, BLAKE, with any salts. -/
theorem blake_collision {w : Nat} (hw : w = 32 ∨ w = 64) (v : Spec.Blake.Variant w) (iv : Spec.Sha2.H8 w) (one : Bool) (n : Nat) :
    (Spec.Inputs.blake v iv one n).Reduces (fun h => ofBeWords ((List.range 8).map h)) Short :=
  Collision.reduces _ (mono (Inputs.blake_det (by omega) _ _ _ _)) (Collision.blake_free (by omega) _ _ _ _)

/-- **C51**, BLAKE2b and BLAKE2s, with any keys, salts and personalizations: the collision is one of the compression function. -/
theorem blake2_collision :
    (∀ n θ θ' msg msg', Spec.Inputs.BlakeOk 64 θ → Spec.Inputs.BlakeOk 64 θ' → ¬ (θ = θ' ∧ msg = msg') →
      let it := Spec.Inputs.blake2 Spec.Blake2.v2b n
      it.result θ msg = it.result θ' msg' →
        Spec.Inputs.BlockCollision Spec.Blake2.v2b it θ θ' msg msg' ∨ it.OutCollision Spec.Inputs.bytes8 θ θ' msg msg') ∧
    (∀ n θ θ' msg msg', Spec.Inputs.BlakeOk 32 θ → Spec.Inputs.BlakeOk 32 θ' → ¬ (θ = θ' ∧ msg = msg') →
      let it := Spec.Inputs.blake2 Spec.Blake2.v2s n
      it.result θ msg = it.result θ' msg' →
        Spec.Inputs.BlockCollision Spec.Blake2.v2s it θ θ' msg msg' ∨ it.OutCollision Spec.Inputs.bytes8 θ θ' msg msg') :=
  ⟨fun n _ _ _ _ h h' hne e => Collision.blake2_reduces (by decide) (by decide) (by decide) _ (by decide) n h h' hne e,
   fun n _ _ _ _ h h' hne e => Collision.blake2_reduces (by decide) (by decide) (by decide) _ (by decide) n h h' hne e⟩

/-- **C51**, Skein: for two messages hashed with the same parameters. -/
theorem skein_collision (T : Spec.Skein.Threefish) (hT : T = Spec.Skein.threefish256 ∨ T = Spec.Skein.threefish512 ∨ T = Spec.Skein.threefish1024)
    (n : Nat) (θ : Spec.Skein.Theta) :
    (Spec.Inputs.skein T n).Reduces (fun h => ofLeWords ((List.range T.nw).map h)) fun θ' msg => θ' = θ ∧ Spec.Inputs.SkeinOk θ' msg := by
  have hn : 0 < T.nw := by rcases hT with rfl | rfl | rfl <;> decide
  exact Collision.reduces _ (Collision.Determines.mono (Inputs.skein_det T hn n) fun _ _ h => h.2) (Collision.skein_free T hn n θ)

/-- **C51**, Skein with different parameters: the chaining value may also become zero, the initial value, again. -/
theorem skein_collision_params (T : Spec.Skein.Threefish)
    (hT : T = Spec.Skein.threefish256 ∨ T = Spec.Skein.threefish512 ∨ T = Spec.Skein.threefish1024) (n : Nat)
    (θ θ' : Spec.Skein.Theta) (msg msg' : Bytes) (ok : Spec.Inputs.SkeinOk θ msg) (ok' : Spec.Inputs.SkeinOk θ' msg')
    (hne : ¬ (θ = θ' ∧ msg = msg')) (h : (Spec.Inputs.skein T n).result θ msg = (Spec.Inputs.skein T n).result θ' msg') :
    let bytes := fun h => ofLeWords ((List.range T.nw).map h)
    let it := Spec.Inputs.skein T n
    it.StepCollision bytes θ θ' msg msg' ∨ it.OutCollision bytes θ θ' msg msg' ∨ it.Returns bytes θ msg ∨ it.Returns bytes θ' msg' := by
  have hn : 0 < T.nw := by rcases hT with rfl | rfl | rfl <;> decide
  exact Collision.reduces_or_returns _ (Inputs.skein_det T hn n) ok ok' hne h

/-- **C51**, LSH: there is no length in the padding, so the chaining value may also become the initial value again. -/
theorem lsh_collision {w : Nat} (hw : w = 32 ∨ w = 64) (F : Spec.Lsh.Family w) (n : Nat) (msg msg' : Bytes) (hne : msg ≠ msg')
    (h : (Spec.Inputs.lsh F n).result () msg = (Spec.Inputs.lsh F n).result () msg') :
    let bytes := fun h => ofLeWords ((List.range 16).map h)
    let it := Spec.Inputs.lsh F n
    it.StepCollision bytes () () msg msg' ∨ it.OutCollision bytes () () msg msg' ∨ it.Returns bytes () msg ∨ it.Returns bytes () msg' :=
  Collision.reduces_or_returns _ (Inputs.lsh_det (by omega) F n) trivial trivial (fun e => hne e.2) h

/-! The statements are not empty: a compression function that ignores the chaining value has collisions that are found, and without
length in the padding a hash function need not have any. -/

/-- The last block is the chaining value. -/
def lastBlock : Iter Unit Bytes Bytes Bytes :=
  { inputs := fun _ msg => chunks 64 (mdPad 64 (leBytes 8 (8 * msg.length)) msg), iv := [], f := fun _ b => b, out := fun _ v => v }

example : lastBlock.result () (List.replicate 64 1) = lastBlock.result () (List.replicate 64 2) := by decide +kernel

example : lastBlock.StepCollision id () () (List.replicate 64 1) (List.replicate 64 2) :=
  Collision.reducesToStep (Collision.reduces (ok := Short) id
    (mono (Inputs.unit_det fun _ _ h => Inputs.md_chunks (by decide) (by rw [length_leBytes, length_leBytes]) h))
    (Collision.md_suffixFree (bs := 64) (lf := 8) (by decide) (by decide) (fun msg => leBytes 8 (8 * msg.length)) (fun _ => length_leBytes _ _) rfl
      fun msg msg' h h' e => by have := Collision.leBytes_inj (n := 8) (by omega) (by omega) e; omega))
    (fun _ _ _ _ h => h) () () _ _ (by decide) (by decide) (by decide) (by decide +kernel)

/-- The messages themselves as inputs, one call for each byte; the chaining value is the message read as a number. -/
def noLength : Iter Unit Nat Byte Nat :=
  { inputs := fun _ msg => msg, iv := 0, f := fun n b => if n = 0 ∧ b = 0 then 0 else n * 256 + b.toNat, out := fun _ v => v }

/-- Without the length in the padding there are collisions of the hash that are none of the compression function. -/
example : noLength.Determines (fun _ _ => True) ∧ noLength.result () [0, 7] = noLength.result () [7] ∧
    ¬ noLength.StepCollision (leBytes 8) () () [0, 7] [7] := by
  refine ⟨fun _ _ _ _ _ _ h => ⟨rfl, h⟩, by decide, ?_⟩
  rintro ⟨k, k', i, i', h1, h2, h3, h4⟩
  have hk' : k' = 0 := by
    cases k' with
    | zero => rfl
    | succ k' => exact nomatch h2
  subst hk'
  cases h2
  match k, h1 with
  | 0, h1 => cases h1; exact absurd h4 (by decide)
  | 1, h1 => cases h1; exact h3 (by decide)

end Digestpp.Properties
