import Verif.Catalog
import Verif.Proofs.Catalog

/-! C43: `X(N)` and `static_size::X<N>()`. -/

namespace Digestpp

/-- The hash functions that have both forms. -/
inductive Sized where
  | sha512 | sha3 | groestl | kupyna | streebog | lsh256 | lsh512 | esch | jh | kmac (b : Nat) | blake | echo | blake2b | blake2s | blake2xb | blake2xs | blake2bp | blake2sp | skein256 | skein512 | skein1024

namespace Sized

/-- The class of the given form and size. -/
def name : Sized → Form → Nat → HashName
  | sha512, f, N => .sha512 f N
  | sha3, f, N => .sha3 f N
  | groestl, f, N => .groestl f N
  | kupyna, f, N => .kupyna f N
  | streebog, f, N => .streebog f N
  | lsh256, f, N => .lsh256 f N
  | lsh512, f, N => .lsh512 f N
  | esch, f, N => .esch f N
  | jh, f, N => .jh f N
  | kmac b, f, N => .kmac f b N
  | blake, f, N => .blake f N
  | echo, f, N => .echo f N
  | blake2b, f, N => .blake2b f N
  | blake2s, f, N => .blake2s f N
  | blake2xb, f, N => .blake2xb f N
  | blake2xs, f, N => .blake2xs f N
  | blake2bp, f, N => .blake2bp f N
  | blake2sp, f, N => .blake2sp f N
  | skein256, f, N => .skein256 f N
  | skein512, f, N => .skein512 f N
  | skein1024, f, N => .skein1024 f N

/-- The parameters that can be set, the same in both forms. -/
def P : Sized → Type
  | sha512 | sha3 | groestl | kupyna | streebog | lsh256 | lsh512 | esch | jh => Empty
  | kmac _ => KmacParam
  | blake | echo => SaltParam
  | blake2b | blake2s | blake2xb | blake2xs | blake2bp | blake2sp => Blake2Param
  | skein256 | skein512 | skein1024 => SkeinParam

/-- Calls on either form. -/
def ops : (a : Sized) → (f : Form) → (N : Nat) → List (HashOp a.P) → List (HashOp (a.name f N).cls.P)
  | sha512, .runtime, _, l => l
  | sha512, .static, _, l => l
  | sha3, .runtime, _, l => l
  | sha3, .static, _, l => l
  | groestl, .runtime, _, l => l
  | groestl, .static, _, l => l
  | kupyna, .runtime, _, l => l
  | kupyna, .static, _, l => l
  | streebog, .runtime, _, l => l
  | streebog, .static, _, l => l
  | lsh256, .runtime, _, l => l
  | lsh256, .static, _, l => l
  | lsh512, .runtime, _, l => l
  | lsh512, .static, _, l => l
  | esch, .runtime, _, l => l
  | esch, .static, _, l => l
  | jh, .runtime, _, l => l
  | jh, .static, _, l => l
  | kmac _, .runtime, _, l => l
  | kmac _, .static, _, l => l
  | blake, .runtime, _, l => l
  | blake, .static, _, l => l
  | echo, .runtime, _, l => l
  | echo, .static, _, l => l
  | blake2b, .runtime, _, l => l
  | blake2b, .static, _, l => l
  | blake2s, .runtime, _, l => l
  | blake2s, .static, _, l => l
  | blake2xb, .runtime, _, l => l
  | blake2xb, .static, _, l => l
  | blake2xs, .runtime, _, l => l
  | blake2xs, .static, _, l => l
  | blake2bp, .runtime, _, l => l
  | blake2bp, .static, _, l => l
  | blake2sp, .runtime, _, l => l
  | blake2sp, .static, _, l => l
  | skein256, .runtime, _, l => l
  | skein256, .static, _, l => l
  | skein512, .runtime, _, l => l
  | skein512, .static, _, l => l
  | skein1024, .runtime, _, l => l
  | skein1024, .static, _, l => l

end Sized

namespace Proofs
open Model Spec Properties

private theorem plainL {c : HashClass} (hP : c.P = Empty) [Param c.P] {n : Nat} {L : Limits c.P} {Θ : Type} {f : HashFn c.P Θ}
    {cov : Cover c.P Θ} (conf : HashConforms c f cov) (size : f.size = n) (adm : ∀ θ m, L.len m.length → cov.adm θ m) (clr : cov.clr) :
    HashLaws c n L f cov := by
  have nf : ∀ p : c.P, False := fun p => nomatch (hP ▸ p : Empty)
  exact ⟨conf, size, adm, fun _ => clr, fun p => (nf p).elim, fun p => (nf p).elim, fun p => (nf p).elim, fun p => (nf p).elim, fun p => (nf p).elim⟩

private theorem go (nm : HashName) {Θ : Type} {f : HashFn nm.cls.P Θ} {cov : Cover nm.cls.P Θ}
    (h : HashLaws nm.cls (nm.size / 8) nm.limits f cov) {c' : HashClass} {g : List (HashOp nm.cls.P) → List (HashOp c'.P)}
    (h' : ∀ mem, c'.Mem mem → ∀ ops, f.Covered cov ops f.new → c'.trial mem (g ops) = some (f.run ops f.new).1)
    (ops : List (HashOp nm.cls.P)) (hf : HashFine nm.limits ops 0) (mem : nm.cls.S) (hm : nm.cls.Mem mem) (mem' : c'.S) (hm' : c'.Mem mem') :
    ∃ os, nm.cls.trial mem ops = some os ∧ c'.trial mem' (g ops) = some os :=
  ⟨_, h.trial hm hf, h' mem' hm' ops (h.covered ops _ hf)⟩

private theorem sized (a : Sized) (N : Nat) (hs : (a.name .runtime N).Supported) (hs' : (a.name .static N).Supported) :
    ∀ (ops : List (HashOp a.P)), HashFine (a.name .runtime N).limits (a.ops .runtime N ops) 0 →
    ∀ mem, (a.name .runtime N).cls.Mem mem → ∀ mem', (a.name .static N).cls.Mem mem' →
    ∃ os, (a.name .runtime N).cls.trial mem (a.ops .runtime N ops) = some os ∧
      (a.name .static N).cls.trial mem' (a.ops .static N ops) = some os := by
  cases a with
  | sha512 =>
    exact go (.sha512 .runtime N) (plainL rfl (sha512_all_lengths N hs.1 hs.2.1 hs.2.2) rfl (fun _ _ h => h) trivial) fun m hm o ho => hashConforms_trial (sha512_static_all_lengths N hs'.1 hs'.2.1 hs'.2.2) m hm o ho
  | sha3 =>
    exact go (.sha3 .runtime N) (plainL rfl (sha3_conforms N hs) rfl (fun _ _ h => h) trivial) fun m hm o ho => hashConforms_trial (sha3_static_conforms N hs') m hm o ho
  | groestl =>
    exact go (.groestl .runtime N) (plainL rfl (groestl_all_lengths N hs.1 hs.2.1 hs.2.2) rfl (fun _ _ h => h) trivial) fun m hm o ho => hashConforms_trial (groestl_static_all_lengths N hs'.1 hs'.2.1 hs'.2.2) m hm o ho
  | kupyna =>
    exact go (.kupyna .runtime N) (plainL rfl (kupyna_all_lengths N hs.1 hs.2.1 hs.2.2) rfl (fun _ _ h => h) trivial) fun m hm o ho => hashConforms_trial (kupyna_static_all_lengths N hs'.1 hs'.2.1 hs'.2.2) m hm o ho
  | streebog =>
    exact go (.streebog .runtime N) (plainL rfl (streebog_all_lengths N hs) rfl (fun _ _ h => h) trivial) fun m hm o ho => hashConforms_trial (streebog_static_all_lengths N hs') m hm o ho
  | lsh256 =>
    exact go (.lsh256 .runtime N) (plainL rfl (lsh256_conforms_masked_partial N hs.1 hs.2.1 hs.2.2) rfl (fun _ _ h => h) trivial) fun m hm o ho => hashConforms_trial (lsh256_static_conforms_masked_partial N hs'.1 hs'.2.1 hs'.2.2) m hm o ho
  | lsh512 =>
    exact go (.lsh512 .runtime N) (plainL rfl (lsh512_conforms_masked_partial N hs.1 hs.2.1 hs.2.2) rfl (fun _ _ h => h) trivial) fun m hm o ho => hashConforms_trial (lsh512_static_conforms_masked_partial N hs'.1 hs'.2.1 hs'.2.2) m hm o ho
  | esch =>
    rcases hs with rfl | rfl
    · exact go (.esch .runtime _) (plainL rfl esch256_conforms rfl (fun _ _ h => h) trivial) fun m hm o ho => hashConforms_trial esch256_static_conforms m hm o ho
    · exact go (.esch .runtime _) (plainL rfl esch384_conforms rfl (fun _ _ h => h) trivial) fun m hm o ho => hashConforms_trial esch384_static_conforms m hm o ho
  | jh =>
    exact go (.jh .runtime N) (plainL rfl (jh_all_lengths N hs.1 hs.2.1 hs.2.2) rfl (fun _ _ h => h) trivial) fun m hm o ho => hashConforms_trial (jh_static_all_lengths N hs'.1 hs'.2.1 hs'.2.2) m hm o ho
  | kmac b =>
    exact go (.kmac .runtime b N) ⟨kmac_conforms_full b N hs.1 hs.2.1 hs.2.2.1 hs.2.2.2, rfl, fun _ _ _ => trivial, id,
        fun p h => by cases p <;> exact h, fun p _ => by cases p <;> rfl, kmac_comm, fun p q θ a hk _ => kmac_over p q θ a hk, kmac_emp⟩ fun m hm o ho => hashConforms_trial (kmac_static_conforms_full b N hs'.1 hs'.2.1 hs'.2.2.1 hs'.2.2.2) m hm o ho
  | blake =>
    have e : (blakeWrap N).size = N / 8 := by rcases hs with rfl | rfl | rfl | rfl <;> rfl
    have ed : (blakeWrap N).dflt = List.replicate (if N ≤ 256 then 16 else 32) 0 := by rcases hs with rfl | rfl | rfl | rfl <;> rfl
    have l := salt_laws (n := if N ≤ 256 then 16 else 32) (by split <;> decide) (fun _ => rfl) (blakeWrap_set N _ hs rfl)
    exact go (.blake .runtime N) ⟨blake_all_lengths N hs, e, fun _ _ h => h, id, fun _ _ => trivial, l.1, l.2.1, l.2.2.1, ed ▸ l.2.2.2⟩ fun m hm o ho => hashConforms_trial (blake_static_all_lengths N hs') m hm o ho
  | echo =>
    have l := salt_laws (set := (Spec.Echo.echoWith wrap64 (N / 8)).set) (by decide) (fun _ => rfl) (fun _ _ => rfl)
    exact go (.echo .runtime N) ⟨echo_all_lengths N hs.1 hs.2.1 hs.2.2, rfl, fun _ _ h => h, id, fun _ _ => trivial, l.1, l.2.1, l.2.2.1, l.2.2.2⟩ fun m hm o ho => hashConforms_trial (echo_static_all_lengths N hs'.1 hs'.2.1 hs'.2.2) m hm o ho
  | blake2b =>
    exact go (.blake2b .runtime N) ⟨blake2b_conforms_full N hs.1 hs.2.1 hs.2.2, rfl, fun _ _ h => h, id, fun _ _ => trivial, blake2_acc 64,
        blake2_comm 64, blake2_over 64, blake2_emp 64 (by decide)⟩ fun m hm o ho => hashConforms_trial (blake2b_static_conforms_full N hs'.1 hs'.2.1 hs'.2.2) m hm o ho
  | blake2s =>
    exact go (.blake2s .runtime N) ⟨blake2s_conforms_full N hs.1 hs.2.1 hs.2.2, rfl, fun _ _ h => h, id, fun _ _ => trivial, blake2_acc 32,
        blake2_comm 32, blake2_over 32, blake2_emp 32 (by decide)⟩ fun m hm o ho => hashConforms_trial (blake2s_static_conforms_full N hs'.1 hs'.2.1 hs'.2.2) m hm o ho
  | blake2xb =>
    exact go (.blake2xb .runtime N) ⟨blake2xb_conforms_full N hs.1 hs.2.1 hs.2.2, rfl, fun _ _ h => h, id, fun _ _ => trivial, blake2_acc 64,
        blake2_comm 64, blake2_over 64, blake2_emp 64 (by decide)⟩ fun m hm o ho => hashConforms_trial (blake2xb_static_conforms_full N hs'.1 hs'.2.1 hs'.2.2) m hm o ho
  | blake2xs =>
    exact go (.blake2xs .runtime N) ⟨blake2xs_conforms_full N hs.1 hs.2.1 hs.2.2, rfl, fun _ _ h => h, id, fun _ _ => trivial, blake2_acc 32,
        blake2_comm 32, blake2_over 32, blake2_emp 32 (by decide)⟩ fun m hm o ho => hashConforms_trial (blake2xs_static_conforms_full N hs'.1 hs'.2.1 hs'.2.2) m hm o ho
  | blake2bp =>
    exact go (.blake2bp .runtime N) ⟨blake2bp_conforms_full_partial N hs.1 hs.2.1 hs.2.2, rfl, fun _ _ h => h, id, fun _ _ => trivial,
        blake2_acc 64, blake2_comm 64, blake2_over 64, blake2_emp 64 (by decide)⟩ fun m hm o ho => hashConforms_trial (blake2bp_static_conforms_full_partial N hs'.1 hs'.2.1 hs'.2.2) m hm o ho
  | blake2sp =>
    exact go (.blake2sp .runtime N) ⟨blake2sp_conforms_full_partial N hs.1 hs.2.1 hs.2.2, rfl, fun _ _ h => h, id, fun _ _ => trivial,
        blake2_acc 32, blake2_comm 32, blake2_over 32, blake2_emp 32 (by decide)⟩ fun m hm o ho => hashConforms_trial (blake2sp_static_conforms_full_partial N hs'.1 hs'.2.1 hs'.2.2) m hm o ho
  | skein256 =>
    have hp : ∀ p : SkeinParam, (Param.value p).length < 2 ^ 61 → p.value.length < 2 ^ 63 := fun p h => by
      cases p <;> exact Nat.lt_trans h (by decide)
    exact go (.skein256 .runtime N) ⟨skein256_conforms N hs.1 hs.2.1 hs.2.2, rfl, fun _ _ h => h, id, hp,
        fun p _ => by cases p <;> rfl, skein_comm, fun p q θ a hk _ => skein_over p q θ a hk, skein_emp⟩ fun m hm o ho => hashConforms_trial (skein256_static_conforms N hs'.1 hs'.2.1) m hm o ho
  | skein512 =>
    have hp : ∀ p : SkeinParam, (Param.value p).length < 2 ^ 61 → p.value.length < 2 ^ 63 := fun p h => by
      cases p <;> exact Nat.lt_trans h (by decide)
    exact go (.skein512 .runtime N) ⟨skein512_conforms N hs.1 hs.2.1 hs.2.2, rfl, fun _ _ h => h, id, hp,
        fun p _ => by cases p <;> rfl, skein_comm, fun p q θ a hk _ => skein_over p q θ a hk, skein_emp⟩ fun m hm o ho => hashConforms_trial (skein512_static_conforms N hs'.1 hs'.2.1) m hm o ho
  | skein1024 =>
    have hp : ∀ p : SkeinParam, (Param.value p).length < 2 ^ 61 → p.value.length < 2 ^ 63 := fun p h => by
      cases p <;> exact Nat.lt_trans h (by decide)
    exact go (.skein1024 .runtime N) ⟨skein1024_conforms N hs.1 hs.2.1 hs.2.2, rfl, fun _ _ h => h, id, hp,
        fun p _ => by cases p <;> rfl, skein_comm, fun p q θ a hk _ => skein_over p q θ a hk, skein_emp⟩ fun m hm o ho => hashConforms_trial (skein1024_static_conforms N hs'.1 hs'.2.1) m hm o ho

end Proofs

namespace Properties

/-- **C43.** `X(N)` and `static_size::X<N>()` show the same on every history of calls, whatever was in memory before their construction. -/
theorem static_eq_runtime (a : Sized) (N : Nat) (hs : (a.name .runtime N).Supported) (hs' : (a.name .static N).Supported)
    (ops : List (HashOp a.P)) (hf : HashFine (a.name .runtime N).limits (a.ops .runtime N ops) 0)
    (mem : (a.name .runtime N).cls.S) (hm : (a.name .runtime N).cls.Mem mem)
    (mem' : (a.name .static N).cls.S) (hm' : (a.name .static N).cls.Mem mem') :
    ∃ os, (a.name .runtime N).cls.trial mem (a.ops .runtime N ops) = some os ∧
      (a.name .static N).cls.trial mem' (a.ops .static N ops) = some os :=
  Proofs.sized a N hs hs' ops hf mem hm mem' hm'

/-- `blake2b(160)` and `static_size::blake2b<160>()` with a key. -/
example (mem : (Model.Blake2.blake2 Model.Blake2.u64 .hash 160).S) (hm : (Model.Blake2.blake2 Model.Blake2.u64 .hash 160).Mem mem)
    (mem' : (Model.Blake2.blake2Static Model.Blake2.u64 .hash 160).S)
    (hm' : (Model.Blake2.blake2Static Model.Blake2.u64 .hash 160).Mem mem') :
    ∃ os, (Model.Blake2.blake2 Model.Blake2.u64 .hash 160).trial mem [.set (.key (ascii "k")), .absorb (.ptr (ascii "a")), .digest] = some os ∧
      (Model.Blake2.blake2Static Model.Blake2.u64 .hash 160).trial mem' [.set (.key (ascii "k")), .absorb (.ptr (ascii "a")), .digest] =
        some os :=
  static_eq_runtime .blake2b 160 (by decide) (by decide) [.set (.key (ascii "k")), .absorb (.ptr (ascii "a")), .digest]
    (by
      show HashFine (HashName.blake2b .runtime 160).limits [.set (Blake2Param.key (ascii "k")), .absorb (.ptr (ascii "a")), .digest] 0
      fine)
    mem hm mem' hm'

end Properties
end Digestpp
