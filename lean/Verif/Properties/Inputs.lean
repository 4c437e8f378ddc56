import Verif.Proofs.Inputs
import Verif.Properties.Md5
import Verif.Properties.Sha1
import Verif.Properties.Sha2
import Verif.Properties.Sha3
import Verif.Properties.Shake
import Verif.Properties.Sm3
import Verif.Properties.Whirlpool
import Verif.Properties.Kupyna
import Verif.Properties.Groestl
import Verif.Properties.Jh
import Verif.Properties.Echo
import Verif.Properties.Streebog
import Verif.Properties.Lsh
import Verif.Properties.Blake
import Verif.Properties.Blake2
import Verif.Properties.Blake2p
import Verif.Properties.Skein
import Verif.Properties.Esch
import Verif.Properties.Ascon
import Verif.Properties.K12

/-! C40: what is handed to the compression function determines the message and the parameters. For cSHAKE and KMAC see C48. -/

namespace Digestpp.Properties
open Model Spec Proofs

/-- The objects of a class show what the iteration `it` of a compression function gives, and the inputs of its calls determine the
parameters and the message. -/
def HashIterates (c : HashClass) {Θ V I : Type} (f : HashFn c.P Θ) (cov : Cover c.P Θ) (it : Iter Θ V I Bytes) (ok : Θ → Bytes → Prop) : Prop :=
  HashConforms c { f with digest := it.result } cov ∧ it.Determines ok

def XofIterates (c : XofClass) {Θ V I : Type} (f : XofFn c.P Θ) (cov : Cover c.P Θ) (it : Iter Θ V I (Nat → Byte)) (ok : Θ → Bytes → Prop) :
    Prop :=
  XofConforms c { f with stream := it.result } cov ∧ it.Determines ok

/-- All parameters and messages. -/
abbrev every {Θ : Type} : Θ → Bytes → Prop := fun _ _ => True

private theorem param {c : HashClass} {Θ V I : Type} {f : HashFn c.P Θ} {cov : Cover c.P Θ} {it : Iter Θ V I Bytes}
    {ok : Θ → Bytes → Prop} (h : HashConforms c f cov) (e : f = { f with digest := it.result }) (d : it.Determines ok) :
    HashIterates c f cov it ok := ⟨by rw [e] at h; exact h, d⟩

private theorem xparam {c : XofClass} {Θ V I : Type} {f : XofFn c.P Θ} {cov : Cover c.P Θ} {it : Iter Θ V I (Nat → Byte)}
    {ok : Θ → Bytes → Prop} (h : XofConforms c f cov) (e : f = { f with stream := it.result }) (d : it.Determines ok) :
    XofIterates c f cov it ok := ⟨by rw [e] at h; exact h, d⟩

/-- **C40**, MD5. -/
theorem md5_inputs : HashIterates Model.Md5.cls Spec.Md5.md5 (Cover.all Empty) Spec.Inputs.md5 every :=
  param md5_conforms Inputs.md5_eq Inputs.md5_det

/-- **C40**, SHA-1. -/
theorem sha1_inputs : HashIterates Model.Sha1.cls Spec.Sha1.sha1 (Cover.all Empty) Spec.Inputs.sha1 every :=
  param sha1_all_lengths Inputs.sha1_eq Inputs.sha1_det

/-- **C40**, SHA-224. -/
theorem sha224_inputs : HashIterates Model.Sha2.sha224 Spec.Sha2.sha224 (Cover.all Empty)
    (Spec.Inputs.sha2 Spec.Sha2.v256 Spec.Sha2.iv224 28) every :=
  param sha224_all_lengths Inputs.sha224_eq (Inputs.sha2_det (by decide) _ _ _)

/-- **C40**, SHA-256. -/
theorem sha256_inputs : HashIterates Model.Sha2.sha256 Spec.Sha2.sha256 (Cover.all Empty)
    (Spec.Inputs.sha2 Spec.Sha2.v256 Spec.Sha2.iv256 32) every :=
  param sha256_all_lengths Inputs.sha256_eq (Inputs.sha2_det (by decide) _ _ _)

/-- **C40**, SHA-512, SHA-512/t and SHA-384, with run-time and compile-time digest size. -/
theorem sha512_inputs (t : Nat) (h0 : 0 < t) (h8 : t % 8 = 0) (ht : t ≤ 512) :
    let it := Spec.Inputs.sha2 Spec.Sha2.v512
      (if t = 512 then Spec.Sha2.iv512 else if t = 384 then Spec.Sha2.iv384 else Spec.Sha2.ivGen t) (t / 8)
    HashIterates (Model.Sha2.sha512 t) (sha512Wrap t) (Cover.all Empty) it every ∧
    HashIterates (Model.Sha2.sha512Static t) (sha512Wrap t) (Cover.all Empty) it every :=
  ⟨param (sha512_all_lengths t h0 h8 ht) rfl (Inputs.sha2_det (by decide) _ _ _),
   param (sha512_static_all_lengths t h0 h8 ht) rfl (Inputs.sha2_det (by decide) _ _ _)⟩

/-- **C40**, SHA-3. -/
theorem sha3_inputs (d : Nat) (hd : d = 224 ∨ d = 256 ∨ d = 384 ∨ d = 512) :
    HashIterates (Model.Sha3.sha3 d) (Spec.sha3 d) (Cover.all Empty) (Spec.Inputs.sha3 d) every ∧
    HashIterates (Model.Sha3.sha3Static d) (Spec.sha3 d) (Cover.all Empty) (Spec.Inputs.sha3 d) every :=
  ⟨param (sha3_conforms d hd) (Inputs.sha3_eq d) (Inputs.sha3_det d (by omega)),
   param (sha3_static_conforms d hd) (Inputs.sha3_eq d) (Inputs.sha3_det d (by omega))⟩

/-- **C40**, SHAKE. -/
theorem shake_inputs (b : Nat) (hb : b = 128 ∨ b = 256) :
    XofIterates (Model.Shake.shake b) (Spec.shake b) (Cover.all Empty) (Spec.Inputs.shake b) every :=
  xparam (shake_conforms b hb) (Inputs.shake_eq b) (Inputs.shake_det b (by omega))

/-- **C40**, SM3 (with rotations of masked amounts, see C39). -/
theorem sm3_inputs : HashIterates (Model.Sm3.cls rotlMasked) Spec.Sm3.sm3 (Cover.all Empty) Spec.Inputs.sm3 every :=
  param sm3_all_lengths_masked Inputs.sm3_eq Inputs.sm3_det

/-- **C40**, Whirlpool. -/
theorem whirlpool_inputs : HashIterates Model.Whirlpool.cls Spec.Whirlpool.whirlpoolWrap (Cover.all Empty) Spec.Inputs.whirlpool every :=
  param whirlpool_all_lengths Inputs.whirlpool_eq Inputs.whirlpool_det

/-- **C40**, Kupyna. -/
theorem kupyna_inputs (N : Nat) (h0 : 0 < N) (h8 : N % 8 = 0) (hN : N ≤ 512) :
    let it := Spec.Inputs.kupyna (if N / 8 ≤ 32 then 8 else 16) (N / 8)
    HashIterates (Model.Kupyna.kupyna N) (Spec.Kupyna.kupynaWrap (N / 8)) (Cover.all Empty) it every ∧
    HashIterates (Model.Kupyna.kupynaStatic N) (Spec.Kupyna.kupynaWrap (N / 8)) (Cover.all Empty) it every :=
  ⟨param (kupyna_all_lengths N h0 h8 hN) (Inputs.kupyna_eq _) (Inputs.kupyna_det _ _ (by split <;> omega)),
   param (kupyna_static_all_lengths N h0 h8 hN) (Inputs.kupyna_eq _) (Inputs.kupyna_det _ _ (by split <;> omega))⟩

/-- **C40**, Grøstl. -/
theorem groestl_inputs (N : Nat) (h0 : 0 < N) (h8 : N % 8 = 0) (hN : N ≤ 512) :
    let it := Spec.Inputs.groestl (if N / 8 ≤ 32 then 8 else 16) (N / 8)
    HashIterates (Model.Groestl.groestl N) (Spec.Groestl.groestlWrap (N / 8)) (Cover.all Empty) it every ∧
    HashIterates (Model.Groestl.groestlStatic N) (Spec.Groestl.groestlWrap (N / 8)) (Cover.all Empty) it every :=
  ⟨param (groestl_all_lengths N h0 h8 hN) (Inputs.groestl_eq _) (Inputs.groestl_det _ _ (by split <;> omega)),
   param (groestl_static_all_lengths N h0 h8 hN) (Inputs.groestl_eq _) (Inputs.groestl_det _ _ (by split <;> omega))⟩

/-- **C40**, JH. -/
theorem jh_inputs (N : Nat) (h0 : 0 < N) (h8 : N % 8 = 0) (hN : N ≤ 512) :
    HashIterates (Model.Jh.jh N) (Spec.Jh.jhWrap (N / 8)) (Cover.all Empty) (Spec.Inputs.jh (N / 8)) every ∧
    HashIterates (Model.Jh.jhStatic N) (Spec.Jh.jhWrap (N / 8)) (Cover.all Empty) (Spec.Inputs.jh (N / 8)) every :=
  ⟨param (jh_all_lengths N h0 h8 hN) (Inputs.jh_eq _) (Inputs.jh_det _),
   param (jh_static_all_lengths N h0 h8 hN) (Inputs.jh_eq _) (Inputs.jh_det _)⟩

/-- **C40**, ECHO: the salt, too. -/
theorem echo_inputs (N : Nat) (h0 : 0 < N) (h8 : N % 8 = 0) (hN : N ≤ 512) :
    let it := Spec.Inputs.echo (if N / 8 ≤ 32 then 4 else 8) (N / 8)
    HashIterates (Model.Echo.echo N) (Spec.Echo.echoWith wrap64 (N / 8)) (Cover.all SaltParam) it every ∧
    HashIterates (Model.Echo.echoStatic N) (Spec.Echo.echoWith wrap64 (N / 8)) (Cover.all SaltParam) it every :=
  ⟨param (echo_all_lengths N h0 h8 hN) (Inputs.echo_eq _) (Inputs.echo_det _ _ (by split <;> omega)),
   param (echo_static_all_lengths N h0 h8 hN) (Inputs.echo_eq _) (Inputs.echo_det _ _ (by split <;> omega))⟩

/-- **C40**, Streebog. -/
theorem streebog_inputs (N : Nat) (hN : N = 256 ∨ N = 512) :
    let fn := plainFn (N / 8) (Spec.Streebog.hashGen wrap64 Spec.Streebog.addNoRipple (N / 8))
    HashIterates (Model.Streebog.streebog N) fn (Cover.all Empty) (Spec.Inputs.streebog (N / 8)) every ∧
    HashIterates (Model.Streebog.streebogStatic N) fn (Cover.all Empty) (Spec.Inputs.streebog (N / 8)) every :=
  ⟨param (streebog_all_lengths N hN) (Inputs.streebog_eq _) (Inputs.streebog_det _),
   param (streebog_static_all_lengths N hN) (Inputs.streebog_eq _) (Inputs.streebog_det _)⟩

/-- **C40**, LSH-256 (with rotations of masked amounts, see C39). -/
theorem lsh256_inputs (N : Nat) (h0 : 0 < N) (h8 : N % 8 = 0) (hN : N ≤ 256) :
    let it := Spec.Inputs.lsh Spec.Lsh.lsh256 (N / 8)
    HashIterates (Model.Lsh.lsh rotlMasked Model.Lsh.u32 N) (Spec.Lsh.lsh Spec.Lsh.lsh256 (N / 8)) (Cover.all Empty) it every ∧
    HashIterates (Model.Lsh.lshStatic rotlMasked Model.Lsh.u32 N) (Spec.Lsh.lsh Spec.Lsh.lsh256 (N / 8)) (Cover.all Empty) it every :=
  ⟨param (lsh256_conforms_masked_partial N h0 h8 hN) (Inputs.lsh_eq _ _) (Inputs.lsh_det (by decide) _ _),
   param (lsh256_static_conforms_masked_partial N h0 h8 hN) (Inputs.lsh_eq _ _) (Inputs.lsh_det (by decide) _ _)⟩

/-- **C40**, LSH-512. -/
theorem lsh512_inputs (N : Nat) (h0 : 0 < N) (h8 : N % 8 = 0) (hN : N ≤ 512) :
    let it := Spec.Inputs.lsh Spec.Lsh.lsh512 (N / 8)
    HashIterates (Model.Lsh.lsh rotlMasked Model.Lsh.u64 N) (Spec.Lsh.lsh Spec.Lsh.lsh512 (N / 8)) (Cover.all Empty) it every ∧
    HashIterates (Model.Lsh.lshStatic rotlMasked Model.Lsh.u64 N) (Spec.Lsh.lsh Spec.Lsh.lsh512 (N / 8)) (Cover.all Empty) it every :=
  ⟨param (lsh512_conforms_masked_partial N h0 h8 hN) (Inputs.lsh_eq _ _) (Inputs.lsh_det (by decide) _ _),
   param (lsh512_static_conforms_masked_partial N h0 h8 hN) (Inputs.lsh_eq _ _) (Inputs.lsh_det (by decide) _ _)⟩

/-- **C40**, BLAKE-224 and BLAKE-256: the salt, too. -/
theorem blake256_inputs :
    (let it := Spec.Inputs.blake Spec.Blake.v256 Spec.Sha2.iv224 false 28
     HashIterates (Model.Blake.blake 224) (blakeWrap 224) (Cover.all SaltParam) it every ∧
     HashIterates (Model.Blake.blakeStatic 224) (blakeWrap 224) (Cover.all SaltParam) it every) ∧
    (let it := Spec.Inputs.blake Spec.Blake.v256 Spec.Sha2.iv256 true 32
     HashIterates (Model.Blake.blake 256) (blakeWrap 256) (Cover.all SaltParam) it every ∧
     HashIterates (Model.Blake.blakeStatic 256) (blakeWrap 256) (Cover.all SaltParam) it every) :=
  ⟨⟨param (blake_all_lengths 224 (by decide)) (Inputs.blake_eq ..) (Inputs.blake_det (by decide) _ _ _ _),
    param (blake_static_all_lengths 224 (by decide)) (Inputs.blake_eq ..) (Inputs.blake_det (by decide) _ _ _ _)⟩,
   ⟨param (blake_all_lengths 256 (by decide)) (Inputs.blake_eq ..) (Inputs.blake_det (by decide) _ _ _ _),
    param (blake_static_all_lengths 256 (by decide)) (Inputs.blake_eq ..) (Inputs.blake_det (by decide) _ _ _ _)⟩⟩

/-- **C40**, BLAKE-384 and BLAKE-512: the salt, too. -/
theorem blake512_inputs :
    (let it := Spec.Inputs.blake Spec.Blake.v512 Spec.Sha2.iv384 false 48
     HashIterates (Model.Blake.blake 384) (blakeWrap 384) (Cover.all SaltParam) it every ∧
     HashIterates (Model.Blake.blakeStatic 384) (blakeWrap 384) (Cover.all SaltParam) it every) ∧
    (let it := Spec.Inputs.blake Spec.Blake.v512 Spec.Sha2.iv512 true 64
     HashIterates (Model.Blake.blake 512) (blakeWrap 512) (Cover.all SaltParam) it every ∧
     HashIterates (Model.Blake.blakeStatic 512) (blakeWrap 512) (Cover.all SaltParam) it every) :=
  ⟨⟨param (blake_all_lengths 384 (by decide)) (Inputs.blake_eq ..) (Inputs.blake_det (by decide) _ _ _ _),
    param (blake_static_all_lengths 384 (by decide)) (Inputs.blake_eq ..) (Inputs.blake_det (by decide) _ _ _ _)⟩,
   ⟨param (blake_all_lengths 512 (by decide)) (Inputs.blake_eq ..) (Inputs.blake_det (by decide) _ _ _ _),
    param (blake_static_all_lengths 512 (by decide)) (Inputs.blake_eq ..) (Inputs.blake_det (by decide) _ _ _ _)⟩⟩

/-! BLAKE2: key, salt and personalization, too. -/

section
open Spec.Blake2 Model.Blake2

/-- The parameters an object can have meet `BlakeOk`. -/
theorem blake2_params_ok (w : Nat) (keep : Bool) :
    Spec.Inputs.BlakeOk w (.none w) ∧
    ∀ p θ θ', Spec.Inputs.BlakeOk w θ → Spec.Blake2.set w keep p θ = some θ' → Spec.Inputs.BlakeOk w θ' := by
  refine ⟨⟨Nat.zero_le _, List.length_replicate, List.length_replicate⟩, ?_⟩
  intro p θ θ' h hs
  obtain ⟨h1, h2, h3⟩ := h
  cases p with
  | key x =>
    simp only [Spec.Blake2.set] at hs
    split at hs
    · cases hs; exact ⟨by assumption, h2, h3⟩
    · cases hs
  | salt x =>
    simp only [Spec.Blake2.set] at hs
    split at hs
    · cases hs; exact ⟨h1, by assumption, h3⟩
    · split at hs
      · split at hs
        · cases hs; exact ⟨h1, h2, h3⟩
        · cases hs; exact ⟨h1, List.length_replicate, h3⟩
      · cases hs
  | personalization x =>
    simp only [Spec.Blake2.set] at hs
    split at hs
    · cases hs; exact ⟨h1, h2, by assumption⟩
    · split at hs
      · split at hs
        · cases hs; exact ⟨h1, h2, h3⟩
        · cases hs; exact ⟨h1, h2, List.length_replicate⟩
      · cases hs

/-- **C40**, BLAKE2b. -/
theorem blake2b_inputs (N : Nat) (h0 : 0 < N) (h8 : N % 8 = 0) (hm : N ≤ 512) :
    let it := Spec.Inputs.blake2 v2b (N / 8)
    HashIterates (Model.Blake2.blake2 u64 .hash N) (Spec.Blake2.fn v2b true (N / 8)) blake2CoverFull it (fun θ _ => Spec.Inputs.BlakeOk 64 θ) ∧
    HashIterates (Model.Blake2.blake2Static u64 .hash N) (Spec.Blake2.fn v2b true (N / 8)) blake2CoverFull it
      (fun θ _ => Spec.Inputs.BlakeOk 64 θ) :=
  ⟨param (blake2b_conforms_full N h0 h8 hm) (Inputs.blake2_eq ..) (Inputs.blake2_det (by decide) (by decide) _ _),
   param (blake2b_static_conforms_full N h0 h8 hm) (Inputs.blake2_eq ..) (Inputs.blake2_det (by decide) (by decide) _ _)⟩

/-- **C40**, BLAKE2s. -/
theorem blake2s_inputs (N : Nat) (h0 : 0 < N) (h8 : N % 8 = 0) (hm : N ≤ 256) :
    let it := Spec.Inputs.blake2 v2s (N / 8)
    HashIterates (Model.Blake2.blake2 u32 .hash N) (Spec.Blake2.fn v2s true (N / 8)) blake2CoverFull it (fun θ _ => Spec.Inputs.BlakeOk 32 θ) ∧
    HashIterates (Model.Blake2.blake2Static u32 .hash N) (Spec.Blake2.fn v2s true (N / 8)) blake2CoverFull it
      (fun θ _ => Spec.Inputs.BlakeOk 32 θ) :=
  ⟨param (blake2s_conforms_full N h0 h8 hm) (Inputs.blake2_eq ..) (Inputs.blake2_det (by decide) (by decide) _ _),
   param (blake2s_static_conforms_full N h0 h8 hm) (Inputs.blake2_eq ..) (Inputs.blake2_det (by decide) (by decide) _ _)⟩

/-- **C40**, BLAKE2Xb with a digest size. -/
theorem blake2xb_inputs (N : Nat) (h0 : 0 < N) (h8 : N % 8 = 0) (hm : N ≤ 16368) :
    let it := Spec.Inputs.blake2x v2b (N / 8)
    HashIterates (Model.Blake2.blake2 u64 .xHash N) (Spec.Blake2.xfn v2b true (N / 8)) blake2CoverFull it (fun θ _ => Spec.Inputs.BlakeOk 64 θ) ∧
    HashIterates (Model.Blake2.blake2Static u64 .xHash N) (Spec.Blake2.xfn v2b true (N / 8)) blake2CoverFull it
      (fun θ _ => Spec.Inputs.BlakeOk 64 θ) :=
  ⟨param (blake2xb_conforms_full N h0 h8 hm) (Inputs.blake2x_eq ..) (Inputs.blake2x_det (by decide) (by decide) _ _),
   param (blake2xb_static_conforms_full N h0 h8 (by omega)) (Inputs.blake2x_eq ..) (Inputs.blake2x_det (by decide) (by decide) _ _)⟩

/-- **C40**, BLAKE2Xs with a digest size. -/
theorem blake2xs_inputs (N : Nat) (h0 : 0 < N) (h8 : N % 8 = 0) (hm : N ≤ 4080) :
    let it := Spec.Inputs.blake2x v2s (N / 8)
    HashIterates (Model.Blake2.blake2 u32 .xHash N) (Spec.Blake2.xfn v2s true (N / 8)) blake2CoverFull it (fun θ _ => Spec.Inputs.BlakeOk 32 θ) ∧
    HashIterates (Model.Blake2.blake2Static u32 .xHash N) (Spec.Blake2.xfn v2s true (N / 8)) blake2CoverFull it
      (fun θ _ => Spec.Inputs.BlakeOk 32 θ) :=
  ⟨param (blake2xs_conforms_full N h0 h8 hm) (Inputs.blake2x_eq ..) (Inputs.blake2x_det (by decide) (by decide) _ _),
   param (blake2xs_static_conforms_full N h0 h8 (by omega)) (Inputs.blake2x_eq ..) (Inputs.blake2x_det (by decide) (by decide) _ _)⟩

/-- **C40**, BLAKE2Xb and BLAKE2Xs as extendable output functions. -/
theorem blake2x_xof_inputs :
    XofIterates (Model.Blake2.blake2xof u64) (Spec.Blake2.xof v2b true) (blake2xCoverFull 64) (Spec.Inputs.blake2xof v2b)
      (fun θ _ => Spec.Inputs.BlakeOk 64 θ) ∧
    XofIterates (Model.Blake2.blake2xof u32) (Spec.Blake2.xof v2s true) (blake2xCoverFull 32) (Spec.Inputs.blake2xof v2s)
      (fun θ _ => Spec.Inputs.BlakeOk 32 θ) :=
  ⟨xparam blake2xb_xof_conforms_full (Inputs.blake2xof_eq ..) (Inputs.blake2xof_det (by decide) (by decide) _),
   xparam blake2xs_xof_conforms_full (Inputs.blake2xof_eq ..) (Inputs.blake2xof_det (by decide) (by decide) _)⟩

/-- **C40**, BLAKE2bp: the inputs of the leaves. -/
theorem blake2bp_inputs (N : Nat) (h0 : 0 < N) (h8 : N % 8 = 0) (hm : N ≤ 512) :
    let it := Spec.Inputs.blake2p v2b 4 (N / 8)
    HashIterates (Model.Blake2p.blake2p u64 N) (Spec.Blake2.pfn v2b 4 true (N / 8)) blake2pCoverFull it (fun θ _ => Spec.Inputs.BlakeOk 64 θ) ∧
    HashIterates (Model.Blake2p.blake2pStatic u64 N) (Spec.Blake2.pfn v2b 4 true (N / 8)) blake2pCoverFull it
      (fun θ _ => Spec.Inputs.BlakeOk 64 θ) :=
  ⟨param (blake2bp_conforms_full_partial N h0 h8 hm) (Inputs.blake2p_eq ..) (Inputs.blake2p_det (by decide) (by decide) _ _ _ (by decide)),
   param (blake2bp_static_conforms_full_partial N h0 h8 hm) (Inputs.blake2p_eq ..) (Inputs.blake2p_det (by decide) (by decide) _ _ _ (by decide))⟩

/-- **C40**, BLAKE2sp. -/
theorem blake2sp_inputs (N : Nat) (h0 : 0 < N) (h8 : N % 8 = 0) (hm : N ≤ 256) :
    let it := Spec.Inputs.blake2p v2s 8 (N / 8)
    HashIterates (Model.Blake2p.blake2p u32 N) (Spec.Blake2.pfn v2s 8 true (N / 8)) blake2pCoverFull it (fun θ _ => Spec.Inputs.BlakeOk 32 θ) ∧
    HashIterates (Model.Blake2p.blake2pStatic u32 N) (Spec.Blake2.pfn v2s 8 true (N / 8)) blake2pCoverFull it
      (fun θ _ => Spec.Inputs.BlakeOk 32 θ) :=
  ⟨param (blake2sp_conforms_full_partial N h0 h8 hm) (Inputs.blake2p_eq ..) (Inputs.blake2p_det (by decide) (by decide) _ _ _ (by decide)),
   param (blake2sp_static_conforms_full_partial N h0 h8 hm) (Inputs.blake2p_eq ..) (Inputs.blake2p_det (by decide) (by decide) _ _ _ (by decide))⟩

end

/-! Skein: key, personalization and nonce, too. -/

section
open Spec.Skein Model.Skein

/-- **C40**, Skein with a digest size. -/
theorem skein_inputs (N : Nat) (h0 : 0 < N) (h8 : N % 8 = 0) (hm : N < 2 ^ 64) :
    (let it := Spec.Inputs.skein threefish256 (N / 8)
     HashIterates (Model.Skein.skein f4 N) (Spec.Skein.fn threefish256 (N / 8)) skeinCover it Spec.Inputs.SkeinOk ∧
     HashIterates (Model.Skein.skeinStatic f4 N) (Spec.Skein.fn threefish256 (N / 8)) skeinCover it Spec.Inputs.SkeinOk) ∧
    (let it := Spec.Inputs.skein threefish512 (N / 8)
     HashIterates (Model.Skein.skein f8 N) (Spec.Skein.fn threefish512 (N / 8)) skeinCover it Spec.Inputs.SkeinOk ∧
     HashIterates (Model.Skein.skeinStatic f8 N) (Spec.Skein.fn threefish512 (N / 8)) skeinCover it Spec.Inputs.SkeinOk) ∧
    (let it := Spec.Inputs.skein threefish1024 (N / 8)
     HashIterates (Model.Skein.skein f16 N) (Spec.Skein.fn threefish1024 (N / 8)) skeinCover it Spec.Inputs.SkeinOk ∧
     HashIterates (Model.Skein.skeinStatic f16 N) (Spec.Skein.fn threefish1024 (N / 8)) skeinCover it Spec.Inputs.SkeinOk) :=
  ⟨⟨param (skein256_conforms N h0 h8 hm) (Inputs.skein_eq ..) (Inputs.skein_det _ (by decide) _),
    param (skein256_static_conforms N h0 h8) (Inputs.skein_eq ..) (Inputs.skein_det _ (by decide) _)⟩,
   ⟨param (skein512_conforms N h0 h8 hm) (Inputs.skein_eq ..) (Inputs.skein_det _ (by decide) _),
    param (skein512_static_conforms N h0 h8) (Inputs.skein_eq ..) (Inputs.skein_det _ (by decide) _)⟩,
   ⟨param (skein1024_conforms N h0 h8 hm) (Inputs.skein_eq ..) (Inputs.skein_det _ (by decide) _),
    param (skein1024_static_conforms N h0 h8) (Inputs.skein_eq ..) (Inputs.skein_det _ (by decide) _)⟩⟩

/-- **C40**, Skein as an extendable output function. -/
theorem skein_xof_inputs :
    XofIterates (Model.Skein.skeinXof f4) (Spec.Skein.xof threefish256) skeinCover (Spec.Inputs.skeinXof threefish256) Spec.Inputs.SkeinOk ∧
    XofIterates (Model.Skein.skeinXof f8) (Spec.Skein.xof threefish512) skeinCover (Spec.Inputs.skeinXof threefish512) Spec.Inputs.SkeinOk ∧
    XofIterates (Model.Skein.skeinXof f16) (Spec.Skein.xof threefish1024) skeinCover (Spec.Inputs.skeinXof threefish1024) Spec.Inputs.SkeinOk :=
  ⟨xparam skein256_xof_conforms (Inputs.skeinXof_eq _) (Inputs.skeinXof_det _ (by decide)),
   xparam skein512_xof_conforms (Inputs.skeinXof_eq _) (Inputs.skeinXof_det _ (by decide)),
   xparam skein1024_xof_conforms (Inputs.skeinXof_eq _) (Inputs.skeinXof_det _ (by decide))⟩

end

section
open Spec.Esch

/-- **C40**, Esch. -/
theorem esch_inputs :
    (HashIterates (Model.Esch.esch 256) (Spec.Esch.esch f256 32) (Cover.all Empty) (Spec.Inputs.esch f256 32) every ∧
     HashIterates (Model.Esch.eschStatic 256) (Spec.Esch.esch f256 32) (Cover.all Empty) (Spec.Inputs.esch f256 32) every) ∧
    (HashIterates (Model.Esch.esch 384) (Spec.Esch.esch f384 48) (Cover.all Empty) (Spec.Inputs.esch f384 48) every ∧
     HashIterates (Model.Esch.eschStatic 384) (Spec.Esch.esch f384 48) (Cover.all Empty) (Spec.Inputs.esch f384 48) every) :=
  ⟨⟨param esch256_conforms (Inputs.esch_eq ..) (Inputs.esch_det _ _), param esch256_static_conforms (Inputs.esch_eq ..) (Inputs.esch_det _ _)⟩,
   ⟨param esch384_conforms (Inputs.esch_eq ..) (Inputs.esch_det _ _), param esch384_static_conforms (Inputs.esch_eq ..) (Inputs.esch_det _ _)⟩⟩

/-- **C40**, XOEsch. -/
theorem esch_xof_inputs :
    XofIterates (Model.Esch.eschXof 384) (Spec.Esch.eschXof f256) (Cover.all Empty) (Spec.Inputs.eschXof f256) every ∧
    XofIterates (Model.Esch.eschXof 512) (Spec.Esch.eschXof f384) (Cover.all Empty) (Spec.Inputs.eschXof f384) every :=
  ⟨xparam esch256_xof_conforms (Inputs.eschXof_eq _) (Inputs.eschXof_det _), xparam esch384_xof_conforms (Inputs.eschXof_eq _) (Inputs.eschXof_det _)⟩

end

/-- **C40**, Ascon-Hash256 and Ascon-XOF128. -/
theorem ascon_inputs :
    HashIterates Model.Ascon.asconHash Spec.Ascon.hash256 (Cover.all Empty) Spec.Inputs.asconHash every ∧
    XofIterates Model.Ascon.asconXof Spec.Ascon.xof128 (Cover.all Empty) Spec.Inputs.asconXof every :=
  ⟨param ascon_hash_conforms Inputs.asconHash_eq Inputs.asconHash_det, xparam ascon_xof_conforms Inputs.asconXof_eq Inputs.asconXof_det⟩

/-- **C40**, Ascon-CXOF128: the customization, too. -/
theorem ascon_cxof_inputs :
    XofIterates Model.Ascon.asconCxof Spec.Ascon.cxof128 asconCover Spec.Inputs.asconCxof (fun z _ => z.length < 2 ^ 61) :=
  xparam ascon_cxof_conforms Inputs.asconCxof_eq Inputs.asconCxof_det

/-- **C40**, KangarooTwelve, KT256 and MarsupilamiFourteen: the objects give out the stream computed from the inputs of all the sponges. -/
theorem k12_inputs :
    let cov : Cover CustomizationParam Bytes := ⟨fun _ m => m.length < 2 ^ 64, True, k12Short, fun _ => True⟩
    XofConforms (Model.K12.k12 128 12) { Spec.k12 128 12 with stream := Spec.Inputs.k12Stream 12 168 32 } cov ∧
    XofConforms (Model.K12.k12 256 12) { Spec.k12 256 12 with stream := Spec.Inputs.k12Stream 12 136 64 } cov ∧
    XofConforms (Model.K12.k12 256 14) { Spec.k12 256 14 with stream := Spec.Inputs.k12Stream 14 136 64 } cov :=
  ⟨by have h := k12_conforms; rw [Inputs.k12_eq] at h; exact h, by have h := kt256_conforms; rw [Inputs.k12_eq] at h; exact h,
   by have h := m14_conforms; rw [Inputs.k12_eq] at h; exact h⟩

/-- **C40**, KangarooTwelve and relatives: the blocks given to the permutation determine customization and message. -/
theorem k12_inputs_injective (R r c : Nat) (h0 : 0 < r) (C C' msg msg' : Bytes) (hC : C.length < 2 ^ 64) (hC' : C'.length < 2 ^ 64)
    (h : Spec.Inputs.k12 R r c C msg = Spec.Inputs.k12 R r c C' msg') : C = C' ∧ msg = msg' :=
  Inputs.k12_inj R r c h0 C C' msg msg' hC hC' h

/-! The statements are not empty: `Determines` fails for padding with zeros only, and the hypotheses can be met. -/

/-- MD5 with zeros instead of the bit `1` and the length. -/
def zeroPadded : Iter Unit (BitVec 32 × BitVec 32 × BitVec 32 × BitVec 32) Bytes Bytes :=
  { Spec.Inputs.md5 with inputs := fun _ msg => chunks 64 (msg ++ List.replicate (64 - msg.length % 64) 0) }

example : ¬ zeroPadded.Determines every := fun h =>
  absurd (h () () [1] [1, 0] trivial trivial (by decide)).2 (by decide)

example : Spec.Inputs.md5.inputs () [1] ≠ Spec.Inputs.md5.inputs () [1, 0] := fun h =>
  absurd (md5_inputs.2 () () [1] [1, 0] trivial trivial h).2 (by decide)

example : Spec.Inputs.md5.inputs () [1] = [[1, 0x80] ++ List.replicate 54 0 ++ [8] ++ List.replicate 7 0] := by decide

example : Spec.Inputs.BlakeOk 64 ⟨[1, 2, 3], List.replicate 16 7, List.replicate 16 9⟩ := ⟨by decide, by decide, by decide⟩

/-- A key of a zero byte is told from no key. -/
example (msg : Bytes) : (Spec.Inputs.blake2 Spec.Blake2.v2b 32).inputs (.none 64) (List.replicate 128 0 ++ msg)
    ≠ (Spec.Inputs.blake2 Spec.Blake2.v2b 32).inputs { Spec.Blake2.Theta.none 64 with key := [0] } msg := fun h =>
  absurd (congrArg (fun θ => θ.key) ((blake2b_inputs 256 (by decide) (by decide) (by decide)).1.2 _ _ _ _ (blake2_params_ok 64 true).1
    ((blake2_params_ok 64 true).2 (.key [0]) _ _ (blake2_params_ok 64 true).1 rfl) h).1) (by decide)

example : Spec.Inputs.SkeinOk ⟨[1], [2, 3], [4]⟩ [5, 6, 7] := ⟨by decide, by decide, by decide, by decide⟩

/-- Customization is told from message. -/
example : Spec.Inputs.k12 12 168 32 [1] [2] ≠ Spec.Inputs.k12 12 168 32 [] [2, 1] := fun h =>
  absurd (k12_inputs_injective 12 168 32 (by decide) [1] [] [2] [2, 1] (by decide) (by decide) h).1 (by decide)

end Digestpp.Properties
