import Verif.Properties.StaticSize
import Verif.Proofs.Sizes

/-! C35, C49: which digest sizes the constructors accept.

The overload of `validate_hash_size` with a maximum is right. The overload with a list of sizes (sha3, blake, esch, kupyna, streebog)
accepts every size but zero, and many of the sizes accepted by mistake make the first call of `digest` undefined. -/

namespace Digestpp

/-- The constructor throws `std::runtime_error`, whatever is in memory. -/
def Model.HashClass.Throws (c : HashClass) : Prop := ∀ mem, c.Mem mem → c.construct mem = .ok none

/-- The constructor gives an object, whatever is in memory. -/
def Model.HashClass.Constructs (c : HashClass) : Prop := ∀ mem, c.Mem mem → ∃ s, c.construct mem = .ok (some s)

/-- The constructor gives an object, and then a call of `digest` is undefined. -/
def Model.HashClass.DigestUndefined (c : HashClass) : Prop :=
  ∀ mem, c.Mem mem → ∃ s e, c.construct mem = .ok (some s) ∧ c.pr.step .digest s = .error e

namespace Sized

/-- The digest sizes README.md 198-227 and the comments in algorithm/*.hpp (`@outputsize`, `@throw`) document. -/
def Documented : Sized → Nat → Prop
  | sha512, N | groestl, N | lsh512, N | jh, N | echo, N | blake2b, N | blake2bp, N => 8 ≤ N ∧ N ≤ 512 ∧ N % 8 = 0
  | lsh256, N | blake2s, N | blake2sp, N => 8 ≤ N ∧ N ≤ 256 ∧ N % 8 = 0
  | sha3, N | blake, N => N = 224 ∨ N = 256 ∨ N = 384 ∨ N = 512
  | kupyna, N | streebog, N => N = 256 ∨ N = 512
  | esch, N => N = 256 ∨ N = 384
  | kmac _, N | skein256, N | skein512, N | skein1024, N | blake2xb, N | blake2xs, N => 0 < N ∧ N % 8 = 0

instance (a : Sized) (N : Nat) : Decidable (a.Documented N) := by
  cases a <;> unfold Documented <;> infer_instance

/-- The classes whose constructors call the overload with a list of sizes. -/
def ByList : Sized → Prop
  | sha3 | blake | kupyna | streebog | esch => True
  | _ => False

/-- BLAKE2Xb and BLAKE2Xs. -/
def IsBlake2x : Sized → Prop
  | blake2xb | blake2xs => True
  | _ => False

/-- The variants there are. -/
def Variant : Sized → Prop
  | kmac b => b = 128 ∨ b = 256
  | _ => True

end Sized
end Digestpp

namespace Digestpp.Proofs
open Model

theorem constructs_of_supported (h : HashName) (hs : h.Supported) : h.cls.Constructs := by
  obtain ⟨Θ, f, cov, l⟩ := hash_laws h hs
  intro mem hm
  obtain ⟨s, e, -⟩ := l.conf mem hm
  exact ⟨s, e⟩

theorem throws_of {c : HashClass} (h : ∀ mem, c.Mem mem → c.ctor mem = .ok none) : c.Throws := by
  intro mem hm
  unfold HashClass.construct
  rw [h mem hm]; rfl

theorem construct_of {c : HashClass} {mem s s' : c.S} (h : c.ctor mem = .ok (some s)) (hi : c.pr.init s = .ok s') :
    c.construct mem = .ok (some s') := by
  unfold HashClass.construct
  rw [h]
  show (do let s ← c.pr.init s; pure (some s)) = _
  rw [hi]; rfl

theorem validateMax_false {hs max : Nat} (h : ¬(0 < hs ∧ hs % 8 = 0 ∧ hs ≤ max)) : validateMax hs max = false := by
  rw [← validateMax_iff] at h
  simpa using h

theorem undefined_of {c : HashClass} {mem s : c.S} (h : c.construct mem = .ok (some s)) (he : ∃ e, c.pr.step .digest s = .error e) :
    ∃ s e, c.construct mem = .ok (some s) ∧ c.pr.step .digest s = .error e :=
  let ⟨e, he⟩ := he
  ⟨s, e, h, he⟩

theorem accepts_iff {c : HashClass} {p : Prop} [Decidable p] (hm : ∃ mem, c.Mem mem) (h1 : p → c.Constructs) (h2 : ¬p → c.Throws) :
    (c.Constructs ↔ p) ∧ (c.Throws ↔ ¬p) := by
  obtain ⟨mem, hm⟩ := hm
  have no : c.Constructs → ¬c.Throws := fun a b => by
    obtain ⟨s, e⟩ := a mem hm
    rw [b mem hm] at e
    cases e
  by_cases hp : p
  · exact ⟨⟨fun _ => hp, h1⟩, ⟨fun h => absurd h (no (h1 hp)), h2⟩⟩
  · exact ⟨⟨fun h => absurd (h2 hp) (no h), h1⟩, ⟨fun _ => hp, h2⟩⟩

theorem sha3_ctor (N : Nat) (mem : Blk Sha3.St) (hv : ∀ l, validateList N l = true) : (Sha3.sha3 N).construct mem =
    .ok (some ⟨⟨List.replicate 25 0, N, szSub 1600 (N * 2 % szMod)⟩, mem.m, 0, 0⟩) :=
  construct_of (c := Sha3.sha3 N) (mem := mem) (s := ⟨⟨mem.h.A, N, szSub 1600 (N * 2 % szMod)⟩, mem.m, mem.pos, mem.total⟩)
    (by show pure (Sha3.new N mem) = _; unfold Sha3.new; rw [hv]; rfl) rfl

theorem blake_ctor (N : Nat) (mem : Blk Blake.St) (hv : ∀ l, validateList N l = true) : (Blake.blake N).construct mem =
    .ok (some ⟨Blake.setIV ⟨List.replicate 12 0, List.replicate 12 0, N⟩, mem.m, 0, 0⟩) :=
  construct_of (c := Blake.blake N) (mem := mem) (s := ⟨⟨List.replicate 12 0, List.replicate 12 0, N⟩, mem.m, mem.pos, mem.total⟩)
    (by show pure (Blake.new N mem) = _; unfold Blake.new; rw [hv]; rfl) rfl

theorem kupyna_ctor (N : Nat) (mem : Blk Kupyna.St) (hv : ∀ l, validateList N l = true) : (Kupyna.kupyna N).construct mem =
    .ok (some ⟨⟨(List.replicate 16 0).set 0 (BitVec.ofNat 64 (Kupyna.blockBytes N)), N⟩, mem.m, 0, 0⟩) :=
  construct_of (c := Kupyna.kupyna N) (mem := mem) (s := ⟨⟨mem.h.h, N⟩, mem.m, mem.pos, mem.total⟩)
    (by show pure (Kupyna.new N mem) = _; unfold Kupyna.new; rw [hv]; rfl) rfl

theorem streebog_ctor (N : Nat) (mem : Blk Streebog.St) (hv : ∀ l, validateList N l = true) : (Streebog.streebog N).construct mem =
    .ok (some ⟨⟨loads64 8 (List.replicate 64 (if N = 512 then 0 else 1)), List.replicate 8 0, N⟩, mem.m, 0, 0⟩) :=
  construct_of (c := Streebog.streebog N) (mem := mem) (s := ⟨⟨mem.h.h, mem.h.S, N⟩, mem.m, mem.pos, mem.total⟩)
    (by show pure (Streebog.new N mem) = _; unfold Streebog.new; rw [hv]; rfl) rfl

theorem esch_ctor (N : Nat) (mem : Blk Esch.St) (hv : ∀ l, validateList N l = true) : (Esch.esch N).construct mem =
    .ok (some ⟨⟨mem.h.H.map fun _ => 0, N, false⟩, zeroBytes mem.m, 0, 0⟩) :=
  construct_of (c := Esch.esch N) (mem := mem) (s := ⟨⟨mem.h.H, N, false⟩, mem.m, mem.pos, mem.total⟩)
    (by show pure (Esch.new N mem) = _; unfold Esch.new; rw [hv]; rfl) rfl

theorem blake_init_hs (h : Blake.St) : (Blake.setIV h).hs = h.hs := by
  unfold Blake.setIV
  split <;> rfl

theorem blake_init_len {h : Blake.St} (hl : h.H512.length = 12) : (Blake.setIV h).H512.length = 12 := by
  unfold Blake.setIV
  split <;> simp [hl]

end Digestpp.Proofs

namespace Digestpp.Properties
open Model Proofs

/-- C35, for the constructors with a largest size: a documented size constructs an object, every other size throws. -/
theorem size_checked_partial (a : Sized) (hv : a.Variant) (hl : ¬a.ByList) (hx : ¬a.IsBlake2x) (N : Nat) (hN : N < 2 ^ 64) :
    (a.Documented N → (a.name .runtime N).cls.Constructs) ∧ (¬a.Documented N → (a.name .runtime N).cls.Throws) := by
  constructor
  · intro h
    apply constructs_of_supported
    cases a <;> simp only [Sized.Documented, Sized.name, HashName.Supported, Sized.ByList, Sized.IsBlake2x, Sized.Variant,
      not_true_eq_false] at * <;> omega
  · intro h
    cases a <;> simp only [Sized.Documented, Sized.ByList, Sized.IsBlake2x, not_true_eq_false] at *
    all_goals refine throws_of fun mem hm => ?_
    case sha512 => show pure (Sha2.new512 N mem) = _; unfold Sha2.new512; rw [validateMax_false (by omega)]; rfl
    case groestl => show pure (Groestl.new N mem) = _; unfold Groestl.new; rw [validateMax_false (by omega)]; rfl
    case lsh256 => show pure (Lsh.new N mem) = _; unfold Lsh.new; rw [validateMax_false (by omega)]; rfl
    case lsh512 => show pure (Lsh.new N mem) = _; unfold Lsh.new; rw [validateMax_false (by omega)]; rfl
    case jh => show pure (Jh.new N mem) = _; unfold Jh.new; rw [validateMax_false (by omega)]; rfl
    case echo => show pure (Echo.new N mem) = _; unfold Echo.new; rw [validateMax_false (by omega)]; rfl
    case kmac b =>
      show pure (if validateMax N (szMod - 1) = true then some (Kmac.new b N mem) else none) = _
      rw [validateMax_false (by omega)]; rfl
    case skein256 => show pure (Skein.new N mem) = _; unfold Skein.new; rw [validateMax_false (by omega)]; rfl
    case skein512 => show pure (Skein.new N mem) = _; unfold Skein.new; rw [validateMax_false (by omega)]; rfl
    case skein1024 => show pure (Skein.new N mem) = _; unfold Skein.new; rw [validateMax_false (by omega)]; rfl
    case blake2b =>
      show pure (Blake2.new .hash N mem) = _
      unfold Blake2.new; rw [validateMax_false (by show ¬(0 < N ∧ N % 8 = 0 ∧ N ≤ 8 * 64); omega)]; rfl
    case blake2s =>
      show pure (Blake2.new .hash N mem) = _
      unfold Blake2.new; rw [validateMax_false (by show ¬(0 < N ∧ N % 8 = 0 ∧ N ≤ 8 * 32); omega)]; rfl
    case blake2bp => show Blake2p.new N mem = _; unfold Blake2p.new; rw [validateMax_false (by omega)]; rfl
    case blake2sp => show Blake2p.new N mem = _; unfold Blake2p.new; rw [validateMax_false (by omega)]; rfl

example : (Sized.groestl.name .runtime 384).cls.Constructs := (size_checked_partial .groestl trivial id id 384 (by decide)).1 (by decide)
example : (Sized.jh.name .runtime 252).cls.Throws := (size_checked_partial .jh trivial id id 252 (by decide)).2 (by decide)
example : (Sized.sha512.name .runtime 520).cls.Throws := (size_checked_partial .sha512 trivial id id 520 (by decide)).2 (by decide)

/-- C35, the other constructors: documented sizes do construct an object, but so does every other size except zero. -/
theorem size_list_accepts_all (a : Sized) (hl : a.ByList) (N : Nat) :
    (N = 0 → (a.name .runtime N).cls.Throws) ∧ (N ≠ 0 → (a.name .runtime N).cls.Constructs) := by
  constructor
  · rintro rfl
    refine throws_of fun mem hm => ?_
    cases a <;> first | exact hl.elim | rfl
  · intro h0
    have hv : ∀ l, validateList N l = true := fun l => (validateList_iff N l).2 (by omega)
    intro mem hm
    cases a <;> try exact hl.elim
    case sha3 => exact ⟨_, sha3_ctor N mem hv⟩
    case blake => exact ⟨_, blake_ctor N mem hv⟩
    case kupyna => exact ⟨_, kupyna_ctor N mem hv⟩
    case streebog => exact ⟨_, streebog_ctor N mem hv⟩
    case esch => exact ⟨_, esch_ctor N mem hv⟩

example : (Sized.sha3.name .runtime 256).cls.Constructs ∧ (Sized.sha3.name .runtime 257).cls.Constructs :=
  ⟨(size_list_accepts_all .sha3 trivial 256).2 (by decide), (size_list_accepts_all .sha3 trivial 257).2 (by decide)⟩

/-- C35 is false: for each of these five there are sizes that are not documented and do not throw. -/
theorem size_list_unchecked (a : Sized) (hl : a.ByList) :
    ¬∀ N < 2 ^ 64, ¬a.Documented N → (a.name .runtime N).cls.Throws := by
  intro h
  have hd : ¬a.Documented 8 := by cases a <;> first | exact hl.elim | decide
  have h1 := h 8 (by decide) hd
  have h2 := (size_list_accepts_all a hl 8).2 (by decide)
  have hne : ∃ mem, (a.name .runtime 8).cls.Mem mem := by
    cases a <;> try exact hl.elim
    case sha3 => exact ⟨(⟨⟨[], 0, 0⟩, List.replicate 144 0, 0, 0⟩ : Blk Sha3.St), rfl⟩
    case blake => exact ⟨(⟨⟨[], [], 0⟩, List.replicate 128 0, 0, 0⟩ : Blk Blake.St), rfl⟩
    case kupyna => exact ⟨(⟨⟨List.replicate 16 0, 0⟩, List.replicate 128 0, 0, 0⟩ : Blk Kupyna.St), rfl, rfl⟩
    case streebog => exact ⟨(⟨⟨List.replicate 8 0, List.replicate 8 0, 0⟩, List.replicate 64 0, 0, 0⟩ : Blk Streebog.St), rfl, rfl, rfl⟩
    case esch => exact ⟨(⟨⟨List.replicate 16 0, 0, false⟩, List.replicate 128 0, 0, 0⟩ : Blk Esch.St), rfl, rfl⟩
  obtain ⟨mem, hm⟩ := hne
  obtain ⟨s, e⟩ := h2 mem hm
  rw [h1 mem hm] at e
  cases e

/-- Sizes accepted by mistake for which the first `digest` is undefined: the buffer, the state or the vector for the result is too
small. Sizes of `2^32` bits and more are left out because allocating the result may fail first. -/
def BadSize : Sized → Nat → Prop
  | .sha3, N => N ≤ 220 ∨ 800 ≤ N
  | .blake, N => N < 8 ∨ 776 ≤ N
  | .esch, N => N < 8 ∨ 960 ≤ N
  | .kupyna, N => N < 8 ∨ 1032 ≤ N
  | .streebog, N => N < 8 ∨ 8 ≤ N % 64 ∨ 576 ≤ N
  | _, _ => False

theorem size_list_undefined (a : Sized) (N : Nat) (h0 : 0 < N) (h32 : N < 2 ^ 32) (hb : BadSize a N) :
    (a.name .runtime N).cls.DigestUndefined := by
  have hv : ∀ l, validateList N l = true := fun l => (validateList_iff N l).2 (by omega)
  intro mem hm
  cases a <;> try exact hb.elim
  case sha3 =>
    have hb : N ≤ 220 ∨ 800 ≤ N := hb
    refine undefined_of (sha3_ctor N mem hv) (step_digest_err (sha3_final_err _ hm rfl ?_ ?_))
    · show 144 < szSub 1600 (N * 2 % szMod) / 8 ∨ szSub 1600 (N * 2 % szMod) / 8 = 0
      unfold szSub szMod; omega
    · show szSub 1600 (N * 2 % szMod) / 8 < 2 ^ 64
      unfold szSub szMod; omega
  case blake =>
    have hb : N < 8 ∨ 776 ≤ N := hb
    refine undefined_of (blake_ctor N mem hv) ?_
    by_cases h : N < 8
    · exact step_digest_empty (by
        show (Blake.setIV _).hs / 8 = 0
        rw [blake_init_hs]; show N / 8 = 0; omega)
    · exact step_digest_err (blake_final_err _ (blake_init_len (by rfl)) (by
        show 776 ≤ (Blake.setIV _).hs
        rw [blake_init_hs]; show 776 ≤ N; omega))
  case kupyna =>
    have hb : N < 8 ∨ 1032 ≤ N := hb
    refine undefined_of (kupyna_ctor N mem hv) ?_
    by_cases h : N < 8
    · exact step_digest_empty (by show N / 8 = 0; omega)
    · exact step_digest_err (kupyna_final_err _ (by simp) (by show 1032 ≤ N; omega) (by show N < 2 ^ 64; omega))
  case streebog =>
    have hb : N < 8 ∨ 8 ≤ N % 64 ∨ 576 ≤ N := hb
    refine undefined_of (streebog_ctor N mem hv) ?_
    by_cases h : N < 8
    · exact step_digest_empty (by show N / 8 = 0; omega)
    · exact step_digest_err (streebog_final_err _ _ (by simp [loads64]) (by show 8 ≤ N % 64 ∨ 576 ≤ N; omega) (by show N < 2 ^ 64; omega))
  case esch =>
    have hb : N < 8 ∨ 960 ≤ N := hb
    refine undefined_of (esch_ctor N mem hv) ?_
    by_cases h : N < 8
    · exact step_digest_empty (by show N / 8 = 0; omega)
    · exact step_digest_err (esch_final_err _ (by have := hm.1; simpa using this) (by have := hm.2; simpa [zeroBytes] using this) rfl rfl
        (by show 960 ≤ N; omega))

example : (Sized.sha3.name .runtime 128).cls.DigestUndefined :=
  size_list_undefined .sha3 128 (by decide) (by decide) (.inl (by decide))
example : (Sized.blake.name .runtime 1024).cls.DigestUndefined :=
  size_list_undefined .blake 1024 (by decide) (by decide) (.inr (by decide))

/-- C49 is false: BLAKE2Xb and BLAKE2Xs accept sizes up to 16368 and 4080 bits only. -/
theorem blake2x_size_limit (N : Nat) :
    (((Sized.blake2xb.name .runtime N).cls.Constructs ↔ 0 < N ∧ N % 8 = 0 ∧ N ≤ 16368) ∧
      ((Sized.blake2xb.name .runtime N).cls.Throws ↔ ¬(0 < N ∧ N % 8 = 0 ∧ N ≤ 16368))) ∧
    (((Sized.blake2xs.name .runtime N).cls.Constructs ↔ 0 < N ∧ N % 8 = 0 ∧ N ≤ 4080) ∧
      ((Sized.blake2xs.name .runtime N).cls.Throws ↔ ¬(0 < N ∧ N % 8 = 0 ∧ N ≤ 4080))) := by
  constructor
  · refine accepts_iff ⟨(⟨⟨[], [], [], [], 0, 0, false, 0, 0, 0⟩, List.replicate 128 0, 0, 0⟩ : Blk (Blake2.St 64)), rfl⟩
      (fun h => constructs_of_supported (.blake2xb .runtime N) h) fun h => throws_of fun mem hm => ?_
    show pure (Blake2.new .xHash N mem) = _
    unfold Blake2.new; rw [validateMax_false (by show ¬(0 < N ∧ N % 8 = 0 ∧ N ≤ 16368); omega)]; rfl
  · refine accepts_iff ⟨(⟨⟨[], [], [], [], 0, 0, false, 0, 0, 0⟩, List.replicate 64 0, 0, 0⟩ : Blk (Blake2.St 32)), rfl⟩
      (fun h => constructs_of_supported (.blake2xs .runtime N) h) fun h => throws_of fun mem hm => ?_
    show pure (Blake2.new .xHash N mem) = _
    unfold Blake2.new; rw [validateMax_false (by show ¬(0 < N ∧ N % 8 = 0 ∧ N ≤ 4080); omega)]; rfl

/-- C49: a documented size that is rejected. -/
theorem blake2x_size_rejected : Sized.blake2xb.Documented 16376 ∧ (Sized.blake2xb.name .runtime 16376).cls.Throws ∧
    Sized.blake2xs.Documented 4088 ∧ (Sized.blake2xs.name .runtime 4088).cls.Throws :=
  ⟨by decide, (blake2x_size_limit 16376).1.2.2 (by decide), by decide, (blake2x_size_limit 4088).2.2.2 (by decide)⟩

end Digestpp.Properties
