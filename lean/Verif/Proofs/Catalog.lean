import Verif.Catalog
import Verif.Proofs.Laws
import Verif.Properties.Md5
import Verif.Properties.Sha1
import Verif.Properties.Sha2
import Verif.Properties.Sm3
import Verif.Properties.Sha3
import Verif.Properties.Shake
import Verif.Properties.Kmac
import Verif.Properties.K12
import Verif.Properties.Blake
import Verif.Properties.Blake2
import Verif.Properties.Blake2p
import Verif.Properties.Skein
import Verif.Properties.Groestl
import Verif.Properties.Whirlpool
import Verif.Properties.Kupyna
import Verif.Properties.Streebog
import Verif.Properties.Lsh
import Verif.Properties.Esch
import Verif.Properties.Ascon
import Verif.Properties.Echo
import Verif.Properties.Jh

/-! The laws of the interface hold of every class. -/

namespace Digestpp.Proofs
open Model Spec Properties

private theorem plain {c : HashClass} (hP : c.P = Empty) [Param c.P] {n : Nat} {L : Limits c.P} {Θ : Type} {f : HashFn c.P Θ}
    {cov : Cover c.P Θ} (conf : HashConforms c f cov) (size : f.size = n) (adm : ∀ θ m, L.len m.length → cov.adm θ m) (clr : cov.clr) :
    ∃ (Θ : Type) (f : HashFn c.P Θ) (cov : Cover c.P Θ), HashLaws c n L f cov := by
  have nf : ∀ p : c.P, False := fun p => nomatch (hP ▸ p : Empty)
  exact ⟨Θ, f, cov, conf, size, adm, fun _ => clr, fun p => (nf p).elim, fun p => (nf p).elim, fun p => (nf p).elim, fun p => (nf p).elim,
    fun p => (nf p).elim⟩

private theorem xplain {c : XofClass} (hP : c.P = Empty) [Param c.P] {L : Limits c.P} {Θ : Type} {f : XofFn c.P Θ}
    {cov : Cover c.P Θ} (conf : XofConforms c f cov) (adm : ∀ θ m, L.len m.length → cov.adm θ m) (out : ∀ n, cov.out n) (clr : cov.clr) :
    ∃ (Θ : Type) (f : XofFn c.P Θ) (cov : Cover c.P Θ), XofLaws c L f cov := by
  have nf : ∀ p : c.P, False := fun p => nomatch (hP ▸ p : Empty)
  exact ⟨Θ, f, cov, conf, adm, fun _ _ => out _, fun _ => clr, fun p => (nf p).elim, fun p => (nf p).elim, fun p => (nf p).elim,
    fun p => (nf p).elim, fun p => (nf p).elim⟩

section Setters

theorem blake2_acc (w : Nat) (p : Blake2Param) (θ : Spec.Blake2.Theta) : (Spec.Blake2.set w true p θ).isSome =
    (if Param.kind p = 2 then decide ((Param.value p).length ≤ w)
      else decide ((Param.value p).length = 0) || decide ((Param.value p).length = w / 4)) := by
  cases p with
  | key x =>
    show (if x.length ≤ w then some _ else none).isSome = decide (x.length ≤ w)
    by_cases h : x.length ≤ w <;> simp [h]
  | salt x =>
    show (if x.length = w / 4 then some _ else if x.length = 0 then some _ else none).isSome =
      (decide (x.length = 0) || decide (x.length = w / 4))
    by_cases h : x.length = w / 4
    · simp [h]
    · by_cases h' : x.length = 0
      · rw [if_neg h, if_pos h']; simp [h']
      · rw [if_neg h, if_neg h']; simp [h, h']
  | personalization x =>
    show (if x.length = w / 4 then some _ else if x.length = 0 then some _ else none).isSome =
      (decide (x.length = 0) || decide (x.length = w / 4))
    by_cases h : x.length = w / 4
    · simp [h]
    · by_cases h' : x.length = 0
      · rw [if_neg h, if_pos h']; simp [h']
      · rw [if_neg h, if_neg h']; simp [h, h']

theorem blake2_comm (w : Nat) (p q : Blake2Param) (θ a b : Spec.Blake2.Theta) (hk : Param.kind p ≠ Param.kind q)
    (ha : Spec.Blake2.set w true p θ = some a) (hb : Spec.Blake2.set w true q θ = some b) :
    Spec.Blake2.set w true q a = Spec.Blake2.set w true p b := by
  cases p <;> cases q <;> first | exact absurd rfl hk | skip
  all_goals
    simp only [Spec.Blake2.set] at ha hb ⊢
    split at ha <;> split at hb <;> try split at ha
    all_goals try split at hb
    all_goals first | cases ha | skip
    all_goals first | cases hb | skip
    all_goals simp_all

theorem blake2_over (w : Nat) (p q : Blake2Param) (θ a : Spec.Blake2.Theta) (hk : Param.kind p = Param.kind q)
    (hq : Param.value q ≠ []) (ha : Spec.Blake2.set w true p θ = some a) : Spec.Blake2.set w true q a = Spec.Blake2.set w true q θ := by
  cases p <;> cases q <;> first | (simp [Param.kind] at hk; done) | skip
  all_goals
    have hl : ∀ x : Bytes, x ≠ [] → x.length ≠ 0 := fun x h h' => h (List.length_eq_zero_iff.mp h')
    have := hl _ hq
    simp only [Param.value] at this
    simp only [Spec.Blake2.set] at ha ⊢
    split at ha <;> try split at ha
    all_goals first | cases ha | skip
    all_goals simp_all

theorem salt_laws {n : Nat} (hn : n ≠ 0) {d : Bytes} {g : Bytes → Option Bytes} {set : SaltParam → Bytes → Option Bytes}
    (hg : ∀ x, g x = if x.length = n then some x else if x.length = 0 then some d else none) (hs : ∀ x θ, set (.salt x) θ = g x) :
    (∀ p θ, (set p θ).isSome = (decide ((Param.value p).length = 0) || decide ((Param.value p).length = n))) ∧
    (∀ p q θ a b, Param.kind p ≠ Param.kind q → set p θ = some a → set q θ = some b → set q a = set p b) ∧
    (∀ p q θ a, Param.kind p = Param.kind q → Param.value q ≠ [] → set p θ = some a → set q a = set q θ) ∧
    EmptyLaw (fun _ => True) set d := by
  refine ⟨?_, fun p q θ a b hk => absurd rfl hk, ?_, ?_⟩
  · rintro ⟨x⟩ θ
    rw [hs, hg]
    show _ = (decide (x.length = 0) || decide (x.length = n))
    by_cases h : x.length = n
    · simp [h]
    · by_cases h' : x.length = 0
      · rw [if_neg h, if_pos h']; simp [h']
      · rw [if_neg h, if_neg h']; simp [h, h']
  · rintro ⟨x⟩ ⟨y⟩ θ a _ _ _
    rw [hs, hs]
  · rintro ⟨x⟩ hp
    cases (show x = [] from hp)
    refine ⟨fun _ => ⟨?_, fun ⟨y⟩ θ a _ _ => by rw [hs, hs]⟩, fun h => absurd trivial h⟩
    rw [hs, hg, if_neg (fun h => hn h.symm)]; rfl

theorem skein_comm (p q : SkeinParam) (θ a b : Spec.Skein.Theta) (hk : Param.kind p ≠ Param.kind q)
    (ha : Spec.Skein.set p θ = some a) (hb : Spec.Skein.set q θ = some b) : Spec.Skein.set q a = Spec.Skein.set p b := by
  cases p <;> cases q <;> first | exact absurd rfl hk | skip
  all_goals (cases ha; cases hb; rfl)

theorem skein_over (p q : SkeinParam) (θ a : Spec.Skein.Theta) (hk : Param.kind p = Param.kind q)
    (ha : Spec.Skein.set p θ = some a) : Spec.Skein.set q a = Spec.Skein.set q θ := by
  cases p <;> cases q <;> first | (simp [Param.kind] at hk; done) | skip
  all_goals (cases ha; rfl)

theorem kmac_comm (p q : KmacParam) (θ a b : KmacParams) (hk : Param.kind p ≠ Param.kind q)
    (ha : kmacSet p θ = some a) (hb : kmacSet q θ = some b) : kmacSet q a = kmacSet p b := by
  cases p <;> cases q <;> first | exact absurd rfl hk | skip
  all_goals (cases ha; cases hb; rfl)

theorem kmac_over (p q : KmacParam) (θ a : KmacParams) (hk : Param.kind p = Param.kind q)
    (ha : kmacSet p θ = some a) : kmacSet q a = kmacSet q θ := by
  cases p <;> cases q <;> first | (simp [Param.kind] at hk; done) | skip
  all_goals (cases ha; rfl)

theorem cshake_comm (b : Nat) (p q : CShakeParam) (θ x y : Keccak.CShakeParams) (hk : Param.kind p ≠ Param.kind q)
    (ha : (cshake b).set p θ = some x) (hb : (cshake b).set q θ = some y) : (cshake b).set q x = (cshake b).set p y := by
  cases p <;> cases q <;> first | exact absurd rfl hk | skip
  all_goals (cases ha; cases hb; rfl)

theorem cshake_over (b : Nat) (p q : CShakeParam) (θ x : Keccak.CShakeParams) (hk : Param.kind p = Param.kind q)
    (ha : (cshake b).set p θ = some x) : (cshake b).set q x = (cshake b).set q θ := by
  cases p <;> cases q <;> first | (simp [Param.kind] at hk; done) | skip
  all_goals (cases ha; rfl)

theorem blake2_emp (w : Nat) (hw : w / 4 ≠ 0) : EmptyLaw (fun p => Param.kind p = 2) (Spec.Blake2.set w true) (.none w) := by
  intro p hp
  cases p with
  | key x =>
    cases (show x = [] from hp)
    refine ⟨fun _ => ⟨?_, fun q θ a hk ha => ?_⟩, fun h => absurd rfl h⟩
    · simp [Spec.Blake2.set, Spec.Blake2.Theta.none]
    · cases q with
      | key y =>
        simp only [Spec.Blake2.set] at ha ⊢
        split at ha
        · cases ha; rfl
        · cases ha
      | salt y => exact absurd hk (show ¬(0 : Nat) = 2 by decide)
      | personalization y => exact absurd hk (show ¬(1 : Nat) = 2 by decide)
  | salt x =>
    cases (show x = [] from hp)
    refine ⟨fun h => absurd h (show ¬(0 : Nat) = 2 by decide), fun _ θ => ?_⟩
    simp only [Spec.Blake2.set]
    rw [if_neg (fun h => hw h.symm)]; rfl
  | personalization x =>
    cases (show x = [] from hp)
    refine ⟨fun h => absurd h (show ¬(1 : Nat) = 2 by decide), fun _ θ => ?_⟩
    simp only [Spec.Blake2.set]
    rw [if_neg (fun h => hw h.symm)]; rfl

theorem skein_emp : EmptyLaw (fun _ => True) Spec.Skein.set ⟨[], [], []⟩ := by
  intro p hp
  refine ⟨fun _ => ⟨?_, fun q θ a hk ha => ?_⟩, fun h => absurd trivial h⟩
  · cases p <;> (cases (show _ = ([] : Bytes) from hp); rfl)
  · exact skein_over q p θ a hk ha

theorem kmac_emp : EmptyLaw (fun _ => True) kmacSet ⟨[], []⟩ := by
  intro p hp
  refine ⟨fun _ => ⟨?_, fun q θ a hk ha => ?_⟩, fun h => absurd trivial h⟩
  · cases p <;> (cases (show _ = ([] : Bytes) from hp); rfl)
  · exact kmac_over q p θ a hk ha

theorem cshake_emp (b : Nat) : EmptyLaw (fun _ => True) (cshake b).set ⟨[], []⟩ := by
  intro p hp
  refine ⟨fun _ => ⟨?_, fun q θ a hk ha => ?_⟩, fun h => absurd trivial h⟩
  · cases p <;> (cases (show _ = ([] : Bytes) from hp); rfl)
  · exact cshake_over b q p θ a hk ha

end Setters

theorem blakeWrap_set (N n : Nat) (h : N = 224 ∨ N = 256 ∨ N = 384 ∨ N = 512) (hn : n = if N ≤ 256 then 16 else 32) (x θ : Bytes) :
    (blakeWrap N).set (.salt x) θ =
    if x.length = n then some x else if x.length = 0 then some (List.replicate n 0) else none := by
  rcases h with rfl | rfl | rfl | rfl <;> subst hn <;> rfl

theorem hash_laws (h : HashName) (hs : h.Supported) :
    ∃ (Θ : Type) (f : HashFn h.cls.P Θ) (cov : Cover h.cls.P Θ), HashLaws h.cls (h.size / 8) h.limits f cov := by
  cases h with
  | md5 => exact plain rfl md5_conforms rfl (fun _ _ h => h) trivial
  | sha1 => exact plain rfl sha1_all_lengths rfl (fun _ _ h => h) trivial
  | sha224 => exact plain rfl sha224_all_lengths rfl (fun _ _ h => h) trivial
  | sha256 => exact plain rfl sha256_all_lengths rfl (fun _ _ h => h) trivial
  | sm3 => exact plain rfl sm3_all_lengths_masked rfl (fun _ _ h => h) trivial
  | whirlpool => exact plain rfl whirlpool_all_lengths rfl (fun _ _ h => h) trivial
  | ascon => exact plain rfl ascon_hash_conforms rfl (fun _ _ h => h) trivial
  | sha512 f N =>
    cases f with
    | runtime => exact plain rfl (sha512_all_lengths N hs.1 hs.2.1 hs.2.2) rfl (fun _ _ h => h) trivial
    | static => exact plain rfl (sha512_static_all_lengths N hs.1 hs.2.1 hs.2.2) rfl (fun _ _ h => h) trivial
  | sha3 f N =>
    cases f with
    | runtime => exact plain rfl (sha3_conforms N hs) rfl (fun _ _ h => h) trivial
    | static => exact plain rfl (sha3_static_conforms N hs) rfl (fun _ _ h => h) trivial
  | groestl f N =>
    cases f with
    | runtime => exact plain rfl (groestl_all_lengths N hs.1 hs.2.1 hs.2.2) rfl (fun _ _ h => h) trivial
    | static => exact plain rfl (groestl_static_all_lengths N hs.1 hs.2.1 hs.2.2) rfl (fun _ _ h => h) trivial
  | kupyna f N =>
    cases f with
    | runtime => exact plain rfl (kupyna_all_lengths N hs.1 hs.2.1 hs.2.2) rfl (fun _ _ h => h) trivial
    | static => exact plain rfl (kupyna_static_all_lengths N hs.1 hs.2.1 hs.2.2) rfl (fun _ _ h => h) trivial
  | streebog f N =>
    cases f with
    | runtime => exact plain rfl (streebog_all_lengths N hs) rfl (fun _ _ h => h) trivial
    | static => exact plain rfl (streebog_static_all_lengths N hs) rfl (fun _ _ h => h) trivial
  | lsh256 f N =>
    cases f with
    | runtime => exact plain rfl (lsh256_conforms_masked_partial N hs.1 hs.2.1 hs.2.2) rfl (fun _ _ h => h) trivial
    | static => exact plain rfl (lsh256_static_conforms_masked_partial N hs.1 hs.2.1 hs.2.2) rfl (fun _ _ h => h) trivial
  | lsh512 f N =>
    cases f with
    | runtime => exact plain rfl (lsh512_conforms_masked_partial N hs.1 hs.2.1 hs.2.2) rfl (fun _ _ h => h) trivial
    | static => exact plain rfl (lsh512_static_conforms_masked_partial N hs.1 hs.2.1 hs.2.2) rfl (fun _ _ h => h) trivial
  | esch f N =>
    cases f with
    | runtime =>
      rcases hs with rfl | rfl
      · exact plain rfl esch256_conforms rfl (fun _ _ h => h) trivial
      · exact plain rfl esch384_conforms rfl (fun _ _ h => h) trivial
    | static =>
      rcases hs with rfl | rfl
      · exact plain rfl esch256_static_conforms rfl (fun _ _ h => h) trivial
      · exact plain rfl esch384_static_conforms rfl (fun _ _ h => h) trivial
  | jh f N =>
    cases f with
    | runtime => exact plain rfl (jh_all_lengths N hs.1 hs.2.1 hs.2.2) rfl (fun _ _ h => h) trivial
    | static => exact plain rfl (jh_static_all_lengths N hs.1 hs.2.1 hs.2.2) rfl (fun _ _ h => h) trivial
  | kmac f b N =>
    cases f with
    | runtime =>
      exact ⟨_, _, _, kmac_conforms_full b N hs.1 hs.2.1 hs.2.2.1 hs.2.2.2, rfl, fun _ _ _ => trivial, id,
        fun p h => by cases p <;> exact h, fun p _ => by cases p <;> rfl, kmac_comm, fun p q θ a hk _ => kmac_over p q θ a hk, kmac_emp⟩
    | static =>
      exact ⟨_, _, _, kmac_static_conforms_full b N hs.1 hs.2.1 hs.2.2.1 hs.2.2.2, rfl, fun _ _ _ => trivial, id,
        fun p h => by cases p <;> exact h, fun p _ => by cases p <;> rfl, kmac_comm, fun p q θ a hk _ => kmac_over p q θ a hk, kmac_emp⟩
  | blake f N =>
    have e : (blakeWrap N).size = N / 8 := by rcases hs with rfl | rfl | rfl | rfl <;> rfl
    have ed : (blakeWrap N).dflt = List.replicate (if N ≤ 256 then 16 else 32) 0 := by rcases hs with rfl | rfl | rfl | rfl <;> rfl
    have l := salt_laws (n := if N ≤ 256 then 16 else 32) (by split <;> decide) (fun _ => rfl) (blakeWrap_set N _ hs rfl)
    cases f with
    | runtime =>
      exact ⟨_, _, _, blake_all_lengths N hs, e, fun _ _ h => h, id, fun _ _ => trivial, l.1, l.2.1, l.2.2.1, ed ▸ l.2.2.2⟩
    | static =>
      exact ⟨_, _, _, blake_static_all_lengths N hs, e, fun _ _ h => h, id, fun _ _ => trivial, l.1, l.2.1, l.2.2.1, ed ▸ l.2.2.2⟩
  | echo f N =>
    have l := salt_laws (set := (Spec.Echo.echoWith wrap64 (N / 8)).set) (by decide) (fun _ => rfl) (fun _ _ => rfl)
    cases f with
    | runtime =>
      exact ⟨_, _, _, echo_all_lengths N hs.1 hs.2.1 hs.2.2, rfl, fun _ _ h => h, id, fun _ _ => trivial, l.1, l.2.1, l.2.2.1, l.2.2.2⟩
    | static =>
      exact ⟨_, _, _, echo_static_all_lengths N hs.1 hs.2.1 hs.2.2, rfl, fun _ _ h => h, id, fun _ _ => trivial, l.1, l.2.1, l.2.2.1, l.2.2.2⟩
  | blake2b f N =>
    cases f with
    | runtime => exact ⟨_, _, _, blake2b_conforms_full N hs.1 hs.2.1 hs.2.2, rfl, fun _ _ h => h, id, fun _ _ => trivial, blake2_acc 64,
        blake2_comm 64, blake2_over 64, blake2_emp 64 (by decide)⟩
    | static => exact ⟨_, _, _, blake2b_static_conforms_full N hs.1 hs.2.1 hs.2.2, rfl, fun _ _ h => h, id, fun _ _ => trivial, blake2_acc 64,
        blake2_comm 64, blake2_over 64, blake2_emp 64 (by decide)⟩
  | blake2s f N =>
    cases f with
    | runtime => exact ⟨_, _, _, blake2s_conforms_full N hs.1 hs.2.1 hs.2.2, rfl, fun _ _ h => h, id, fun _ _ => trivial, blake2_acc 32,
        blake2_comm 32, blake2_over 32, blake2_emp 32 (by decide)⟩
    | static => exact ⟨_, _, _, blake2s_static_conforms_full N hs.1 hs.2.1 hs.2.2, rfl, fun _ _ h => h, id, fun _ _ => trivial, blake2_acc 32,
        blake2_comm 32, blake2_over 32, blake2_emp 32 (by decide)⟩
  | blake2xb f N =>
    cases f with
    | runtime => exact ⟨_, _, _, blake2xb_conforms_full N hs.1 hs.2.1 hs.2.2, rfl, fun _ _ h => h, id, fun _ _ => trivial, blake2_acc 64,
        blake2_comm 64, blake2_over 64, blake2_emp 64 (by decide)⟩
    | static => exact ⟨_, _, _, blake2xb_static_conforms_full N hs.1 hs.2.1 hs.2.2, rfl, fun _ _ h => h, id, fun _ _ => trivial, blake2_acc 64,
        blake2_comm 64, blake2_over 64, blake2_emp 64 (by decide)⟩
  | blake2xs f N =>
    cases f with
    | runtime => exact ⟨_, _, _, blake2xs_conforms_full N hs.1 hs.2.1 hs.2.2, rfl, fun _ _ h => h, id, fun _ _ => trivial, blake2_acc 32,
        blake2_comm 32, blake2_over 32, blake2_emp 32 (by decide)⟩
    | static => exact ⟨_, _, _, blake2xs_static_conforms_full N hs.1 hs.2.1 hs.2.2, rfl, fun _ _ h => h, id, fun _ _ => trivial, blake2_acc 32,
        blake2_comm 32, blake2_over 32, blake2_emp 32 (by decide)⟩
  | blake2bp f N =>
    cases f with
    | runtime => exact ⟨_, _, _, blake2bp_conforms_full_partial N hs.1 hs.2.1 hs.2.2, rfl, fun _ _ h => h, id, fun _ _ => trivial,
        blake2_acc 64, blake2_comm 64, blake2_over 64, blake2_emp 64 (by decide)⟩
    | static => exact ⟨_, _, _, blake2bp_static_conforms_full_partial N hs.1 hs.2.1 hs.2.2, rfl, fun _ _ h => h, id, fun _ _ => trivial,
        blake2_acc 64, blake2_comm 64, blake2_over 64, blake2_emp 64 (by decide)⟩
  | blake2sp f N =>
    cases f with
    | runtime => exact ⟨_, _, _, blake2sp_conforms_full_partial N hs.1 hs.2.1 hs.2.2, rfl, fun _ _ h => h, id, fun _ _ => trivial,
        blake2_acc 32, blake2_comm 32, blake2_over 32, blake2_emp 32 (by decide)⟩
    | static => exact ⟨_, _, _, blake2sp_static_conforms_full_partial N hs.1 hs.2.1 hs.2.2, rfl, fun _ _ h => h, id, fun _ _ => trivial,
        blake2_acc 32, blake2_comm 32, blake2_over 32, blake2_emp 32 (by decide)⟩
  | skein256 f N =>
    have hp : ∀ p : SkeinParam, (Param.value p).length < 2 ^ 61 → p.value.length < 2 ^ 63 := fun p h => by
      cases p <;> exact Nat.lt_trans h (by decide)
    cases f with
    | runtime => exact ⟨_, _, _, skein256_conforms N hs.1 hs.2.1 hs.2.2, rfl, fun _ _ h => h, id, hp,
        fun p _ => by cases p <;> rfl, skein_comm, fun p q θ a hk _ => skein_over p q θ a hk, skein_emp⟩
    | static => exact ⟨_, _, _, skein256_static_conforms N hs.1 hs.2.1, rfl, fun _ _ h => h, id, hp,
        fun p _ => by cases p <;> rfl, skein_comm, fun p q θ a hk _ => skein_over p q θ a hk, skein_emp⟩
  | skein512 f N =>
    have hp : ∀ p : SkeinParam, (Param.value p).length < 2 ^ 61 → p.value.length < 2 ^ 63 := fun p h => by
      cases p <;> exact Nat.lt_trans h (by decide)
    cases f with
    | runtime => exact ⟨_, _, _, skein512_conforms N hs.1 hs.2.1 hs.2.2, rfl, fun _ _ h => h, id, hp,
        fun p _ => by cases p <;> rfl, skein_comm, fun p q θ a hk _ => skein_over p q θ a hk, skein_emp⟩
    | static => exact ⟨_, _, _, skein512_static_conforms N hs.1 hs.2.1, rfl, fun _ _ h => h, id, hp,
        fun p _ => by cases p <;> rfl, skein_comm, fun p q θ a hk _ => skein_over p q θ a hk, skein_emp⟩
  | skein1024 f N =>
    have hp : ∀ p : SkeinParam, (Param.value p).length < 2 ^ 61 → p.value.length < 2 ^ 63 := fun p h => by
      cases p <;> exact Nat.lt_trans h (by decide)
    cases f with
    | runtime => exact ⟨_, _, _, skein1024_conforms N hs.1 hs.2.1 hs.2.2, rfl, fun _ _ h => h, id, hp,
        fun p _ => by cases p <;> rfl, skein_comm, fun p q θ a hk _ => skein_over p q θ a hk, skein_emp⟩
    | static => exact ⟨_, _, _, skein1024_static_conforms N hs.1 hs.2.1, rfl, fun _ _ h => h, id, hp,
        fun p _ => by cases p <;> rfl, skein_comm, fun p q θ a hk _ => skein_over p q θ a hk, skein_emp⟩

private theorem custom_laws {set : CustomizationParam → Bytes → Option Bytes} (hs : ∀ v θ, set (.customization v) θ = some v) :
    (∀ p θ, (set p θ).isSome = true) ∧
    (∀ p q θ a b, Param.kind p ≠ Param.kind q → set p θ = some a → set q θ = some b → set q a = set p b) ∧
    (∀ p q θ a, Param.kind p = Param.kind q → Param.value q ≠ [] → set p θ = some a → set q a = set q θ) ∧
    EmptyLaw (fun _ => True) set [] :=
  ⟨fun ⟨v⟩ θ => by rw [hs]; rfl, fun _ _ _ _ _ h => absurd rfl h, fun _ ⟨_⟩ _ _ _ _ _ => by rw [hs, hs],
    fun ⟨v⟩ hp => ⟨fun _ => ⟨by cases (show v = [] from hp); exact hs _ _, fun _ _ _ _ _ => by rw [hs, hs]⟩, fun h => absurd trivial h⟩⟩

theorem xof_laws (x : XofName) (hs : x.Supported) :
    ∃ (Θ : Type) (f : XofFn x.cls.P Θ) (cov : Cover x.cls.P Θ), XofLaws x.cls x.limits f cov := by
  have hp : ∀ p : SkeinParam, (Param.value p).length < 2 ^ 61 → p.value.length < 2 ^ 63 := fun p h => by
    cases p <;> exact Nat.lt_trans h (by decide)
  cases x with
  | shake b => exact xplain rfl (shake_conforms b hs) (fun _ _ h => h) (fun _ => trivial) trivial
  | esch256 => exact xplain rfl esch256_xof_conforms (fun _ _ h => h) (fun _ => trivial) trivial
  | esch384 => exact xplain rfl esch384_xof_conforms (fun _ _ h => h) (fun _ => trivial) trivial
  | ascon => exact xplain rfl ascon_xof_conforms (fun _ _ h => h) (fun _ => trivial) trivial
  | cshake b => exact ⟨_, _, _, cshake_conforms_full b hs, fun _ _ _ => trivial, fun _ h => h, id, fun p h => by cases p <;> exact h,
      fun p _ => by cases p <;> rfl, cshake_comm b, fun p q θ a hk _ => cshake_over b p q θ a hk, cshake_emp b⟩
  | kmac b => exact ⟨_, _, _, kmac_xof_conforms_full b hs, fun _ _ _ => trivial, fun _ h => h, id, fun p h => by cases p <;> exact h,
      fun p _ => by cases p <;> rfl, kmac_comm, fun p q θ a hk _ => kmac_over p q θ a hk, kmac_emp⟩
  | k12 =>
    have l := custom_laws (set := (Spec.k12 128 12).set) fun _ _ => rfl
    exact ⟨_, _, _, k12_conforms, fun _ _ h => h, fun _ h => h, id, fun p h => by cases p; exact h, l.1, l.2.1, l.2.2.1, l.2.2.2⟩
  | kt256 =>
    have l := custom_laws (set := (Spec.k12 256 12).set) fun _ _ => rfl
    exact ⟨_, _, _, kt256_conforms, fun _ _ h => h, fun _ h => h, id, fun p h => by cases p; exact h, l.1, l.2.1, l.2.2.1, l.2.2.2⟩
  | m14 =>
    have l := custom_laws (set := (Spec.k12 256 14).set) fun _ _ => rfl
    exact ⟨_, _, _, m14_conforms, fun _ _ h => h, fun _ h => h, id, fun p h => by cases p; exact h, l.1, l.2.1, l.2.2.1, l.2.2.2⟩
  | asconCxof =>
    have l := custom_laws (set := Spec.Ascon.cxof128.set) fun _ _ => rfl
    exact ⟨_, _, _, ascon_cxof_conforms, fun _ _ h => h, fun _ h => h, id, fun p h => by cases p; exact h, l.1, l.2.1, l.2.2.1, l.2.2.2⟩
  | blake2xb => exact ⟨_, _, _, blake2xb_xof_conforms_full, fun _ _ h => h, fun _ h => h, id, fun _ _ => trivial, blake2_acc 64,
      blake2_comm 64, blake2_over 64, blake2_emp 64 (by decide)⟩
  | blake2xs => exact ⟨_, _, _, blake2xs_xof_conforms_full, fun _ _ h => h, fun _ h => h, id, fun _ _ => trivial, blake2_acc 32,
      blake2_comm 32, blake2_over 32, blake2_emp 32 (by decide)⟩
  | skein256 => exact ⟨_, _, _, skein256_xof_conforms, fun _ _ h => h, fun _ h => h, id, hp, fun p _ => by cases p <;> rfl, skein_comm,
      fun p q θ a hk _ => skein_over p q θ a hk, skein_emp⟩
  | skein512 => exact ⟨_, _, _, skein512_xof_conforms, fun _ _ h => h, fun _ h => h, id, hp, fun p _ => by cases p <;> rfl, skein_comm,
      fun p q θ a hk _ => skein_over p q θ a hk, skein_emp⟩
  | skein1024 => exact ⟨_, _, _, skein1024_xof_conforms, fun _ _ h => h, fun _ h => h, id, hp, fun p _ => by cases p <;> rfl, skein_comm,
      fun p q θ a hk _ => skein_over p q θ a hk, skein_emp⟩

end Digestpp.Proofs
