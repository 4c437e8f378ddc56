import Verif.Proofs.Catalog
import Verif.Proofs.SafetySkein

/-! C38: no history of calls leads to undefined behaviour, except squeezing zero bytes into a vector. -/

namespace Digestpp.Proofs.Safety
open Model Spec

variable {c : HashClass} [Param c.P]

/-- The class is safe because of these invariants. -/
structure HashInv (c : HashClass) [Param c.P] (I0 I : c.S → Prop) : Prop where
  pr : HashSafe c.pr I0 I
  ctor : ∀ mem, c.Mem mem → ∃ s, c.ctor mem = .ok (some s) ∧ I0 s

structure XofInv (c : XofClass) [Param c.P] (I0 I : c.S → Prop) : Prop where
  pr : XofSafe c.pr I0 I
  ctor : ∀ mem, c.Mem mem → ∃ s, c.ctor mem = .ok (some s) ∧ I0 s

theorem HashInv.construct {I0 I : c.S → Prop} (h : HashInv c I0 I) (mem : c.S) (hm : c.Mem mem) :
    ∃ s, c.construct mem = .ok (some s) ∧ I s := by
  obtain ⟨s0, e0, i0⟩ := h.ctor mem hm
  obtain ⟨s, e, i⟩ := h.pr.init s0 i0
  refine ⟨s, ?_, i⟩
  unfold HashClass.construct
  rw [e0, ok_bind]
  show (c.pr.init s0 >>= fun s => pure (some s)) = _
  rw [e]; rfl

theorem HashInv.run {I0 I : c.S → Prop} (h : HashInv c I0 I) (mem : c.S) (hm : c.Mem mem) (ops : List (HashOp c.P))
    (hv : ∀ op ∈ ops, op.Valid) : ∃ s os s', c.construct mem = .ok (some s) ∧ c.pr.run ops s = .ok (os, s') ∧ I s' := by
  obtain ⟨s, e, i⟩ := h.construct mem hm
  obtain ⟨os, s', e', i'⟩ := h.pr.run ops hv s i
  exact ⟨s, os, s', e, e', i'⟩

theorem XofInv.construct {c : XofClass} [Param c.P] {I0 I : c.S → Prop} (h : XofInv c I0 I) (mem : c.S) (hm : c.Mem mem) :
    ∃ s, c.construct mem = .ok (some s) ∧ I s := by
  obtain ⟨s0, e0, i0⟩ := h.ctor mem hm
  obtain ⟨s, e, i⟩ := h.pr.init s0 i0
  refine ⟨s, ?_, i⟩
  unfold XofClass.construct
  rw [e0, ok_bind]
  show (c.pr.init s0 >>= fun s => pure (some s)) = _
  rw [e]; rfl

/-- Classes without limits: safety follows from conformance. -/
theorem laws_run {size : Nat} {L : Limits c.P} {Θ : Type} {f : HashFn c.P Θ} {cov : Cover c.P Θ} (h : HashLaws c size L f cov)
    (hl : ∀ n, L.len n) (hc : L.clr) (mem : c.S) (hm : c.Mem mem) (ops : List (HashOp c.P)) (hv : ∀ op ∈ ops, op.Valid) :
    ∃ s os s', c.construct mem = .ok (some s) ∧ c.pr.run ops s = .ok (os, s') := by
  have hf : ∀ (ops : List (HashOp c.P)) (n : Nat), (∀ op ∈ ops, op.Valid) → HashFine L ops n := by
    intro ops
    induction ops with
    | nil => exact fun _ _ => trivial
    | cons op ops ih =>
      intro n hv
      have h1 := hv op (List.mem_cons_self ..)
      have h2 : ∀ q ∈ ops, q.Valid := fun q hq => hv q (List.mem_cons_of_mem _ hq)
      cases op with
      | absorb src => exact ⟨h1, ih _ h2⟩
      | digestBuf b => exact ⟨hl _, ih _ h2⟩
      | digest => exact ⟨hl _, ih _ h2⟩
      | hexdigest => exact ⟨hl _, ih _ h2⟩
      | reset b => exact ⟨fun _ => hc, ih _ h2⟩
      | set p => exact ⟨h1, ih _ h2⟩
  obtain ⟨s, e, hr⟩ := h.conf mem hm
  obtain ⟨s', e'⟩ := hr ops (h.covered ops f.new (hf ops _ hv))
  exact ⟨s, _, s', e, e'⟩

theorem validateMax_ok {N max : Nat} (h0 : 0 < N) (h8 : N % 8 = 0) (h : N ≤ max) : validateMax N max = true := by
  unfold validateMax
  rw [if_neg (by omega), if_neg (by omega), if_neg (by omega)]

section Classes
open Model.Blake2 (Kind)

local instance {w : Nat} (T : Model.Blake2.Word w) (k : Kind) (N : Nat) : Param (Model.Blake2.blake2 T k N).P := inferInstanceAs (Param Blake2Param)
local instance {w : Nat} (T : Model.Blake2.Word w) (k : Kind) (N : Nat) : Param (Model.Blake2.blake2Static T k N).P := inferInstanceAs (Param Blake2Param)
local instance {w : Nat} (T : Model.Blake2.Word w) (N : Nat) : Param (Model.Blake2p.blake2p T N).P := inferInstanceAs (Param Blake2Param)
local instance {w : Nat} (T : Model.Blake2.Word w) (N : Nat) : Param (Model.Blake2p.blake2pStatic T N).P := inferInstanceAs (Param Blake2Param)
local instance (F : Model.Skein.Fns) (N : Nat) : Param (Model.Skein.skein F N).P := inferInstanceAs (Param SkeinParam)
local instance (F : Model.Skein.Fns) (N : Nat) : Param (Model.Skein.skeinStatic F N).P := inferInstanceAs (Param SkeinParam)
local instance (F : Model.Skein.Fns) : Param (Model.Skein.skeinXof F).P := inferInstanceAs (Param SkeinParam)
local instance : Param Model.Ascon.asconHash.P := inferInstanceAs (Param Empty)

theorem blake2_inv {w : Nat} {T : Model.Blake2.Word w} (g : Blake2.Good T) (kind : Kind) {N : Nat} (h0 : 0 < N) (h8 : N % 8 = 0)
    (hN : N ≤ Model.Blake2.limit w kind) :
    HashInv (Model.Blake2.blake2 T kind N) (Blake2.I0 N) (Blake2.I N) :=
  ⟨Blake2.hash g kind N (by omega) (fun hk => by rw [hk] at hN; unfold Model.Blake2.limit at hN; rw [if_pos rfl] at hN; omega), fun mem hm =>
    ⟨Model.Blake2.fields N mem, by
      show pure (Model.Blake2.new kind N mem) = _
      unfold Model.Blake2.new
      rw [validateMax_ok h0 h8 hN]
      rfl, hm, Nat.zero_le _, rfl⟩⟩

theorem blake2Static_inv {w : Nat} {T : Model.Blake2.Word w} (g : Blake2.Good T) (kind : Kind) {N : Nat} (h0 : 0 < N) (h8 : N % 8 = 0)
    (hN : kind = .hash → N ≤ 8 * w) :
    HashInv (Model.Blake2.blake2Static T kind N) (Blake2.I0 N) (Blake2.I N) :=
  ⟨Blake2.hash g kind N (by omega) (fun hk => by have := hN hk; omega), fun mem hm => ⟨_, rfl, hm, Nat.zero_le _, rfl⟩⟩

theorem blake2p_fields {w : Nat} (N : Nat) (mem : Blk (Model.Blake2p.PSt w)) (hm : Model.Blake2p.Mem mem) :
    ∃ s, Model.Blake2p.fields N mem = .ok s ∧ Blake2p.I0 N s := by
  obtain ⟨l, e, n, q⟩ := Blake2p.forLeaves_safe (w := w) (Q := Model.Blake2.Mem) (Q' := Blake2.I0 N) (n := Model.Blake2p.leaves w)
    (f := fun p l => pure (Model.Blake2p.setTree (BitVec.ofNat 8 (Model.Blake2p.leaves w)) 0 (BitVec.ofNat 8 p) (Model.Blake2.fields N l)))
    (fun i a _ ha => ⟨_, rfl, ha, Nat.zero_le _, rfl⟩) mem.h.leaf 0 (by rw [hm.2.2.1]; omega) hm.2.2.2
  refine ⟨_, (by unfold Model.Blake2p.fields; dsimp only; rw [e]; rfl), ?_⟩
  exact ⟨hm.1, ⟨hm.2.1, Nat.zero_le _, rfl⟩, ⟨n.trans hm.2.2.1, q⟩, rfl⟩

theorem blake2p_inv {w : Nat} {T : Model.Blake2.Word w} (g : Blake2.Good T) {N : Nat} (h0 : 0 < N) (h8 : N % 8 = 0) (hN : N ≤ 8 * w) :
    HashInv (Model.Blake2p.blake2p T N) (Blake2p.I0 N) (Blake2p.I N) :=
  ⟨Blake2p.hash g N (by omega) (by omega), fun mem hm => by
    obtain ⟨s, e, i⟩ := blake2p_fields N mem hm
    refine ⟨s, ?_, i⟩
    show Model.Blake2p.new N mem = _
    unfold Model.Blake2p.new
    rw [validateMax_ok h0 h8 hN, if_pos rfl, e]
    rfl⟩

theorem blake2pStatic_inv {w : Nat} {T : Model.Blake2.Word w} (g : Blake2.Good T) {N : Nat} (h0 : 0 < N) (h8 : N % 8 = 0) (hN : N ≤ 8 * w) :
    HashInv (Model.Blake2p.blake2pStatic T N) (Blake2p.I0 N) (Blake2p.I N) :=
  ⟨Blake2p.hash g N (by omega) (by omega), fun mem hm => by
    obtain ⟨s, e, i⟩ := blake2p_fields N mem hm
    refine ⟨s, ?_, i⟩
    show (Model.Blake2p.fields N mem >>= fun s => pure (some s)) = _
    rw [e]; rfl⟩

open Proofs.Skein (FOk)

theorem skein_inv {F : Model.Skein.Fns} {T : Spec.Skein.Threefish} (ok : FOk F T) {N : Nat} (h0 : 0 < N) (h8 : N % 8 = 0)
    (hN : N < 2 ^ 64) : HashInv (Model.Skein.skein F N) (Skein.I0 T.nw N) (Skein.I T.nw N) :=
  ⟨Skein.hash ok N (by omega), fun mem hm => ⟨Model.Skein.fields N mem, by
      show pure (Model.Skein.new N mem) = _
      unfold Model.Skein.new
      rw [validateMax_ok h0 h8 (by unfold szMod; omega)]
      rfl, (show mem.m.length = _ from ok.nw ▸ hm), (by decide : 0 < 2 ^ 61), (by decide : 0 < 2 ^ 61), (by decide : 0 < 2 ^ 61), rfl⟩⟩

theorem skeinStatic_inv {F : Model.Skein.Fns} {T : Spec.Skein.Threefish} (ok : FOk F T) {N : Nat} (h0 : 0 < N) (h8 : N % 8 = 0) :
    HashInv (Model.Skein.skeinStatic F N) (Skein.I0 T.nw N) (Skein.I T.nw N) :=
  ⟨Skein.hash ok N (by omega), fun mem hm => ⟨Model.Skein.fields N mem, rfl, (show mem.m.length = _ from ok.nw ▸ hm),
    (by decide : 0 < 2 ^ 61), (by decide : 0 < 2 ^ 61), (by decide : 0 < 2 ^ 61), rfl⟩⟩

theorem skeinXof_inv {F : Model.Skein.Fns} {T : Spec.Skein.Threefish} (ok : FOk F T) :
    XofInv (Model.Skein.skeinXof F) (Skein.I0 T.nw (64 * T.nw)) (Skein.I T.nw (64 * T.nw)) :=
  ⟨Skein.xof ok _, fun mem hm => ⟨Model.Skein.fields (64 * T.nw) mem, by
      have h1 := ok.ge
      have h2 := ok.le
      show pure (Model.Skein.new (64 * F.nw) mem) = _
      unfold Model.Skein.new
      rw [ok.nw, validateMax_ok (by omega) (by omega) (by unfold szMod; omega)]
      rfl, (show mem.m.length = _ from ok.nw ▸ hm), (by decide : 0 < 2 ^ 61), (by decide : 0 < 2 ^ 61), (by decide : 0 < 2 ^ 61), rfl⟩⟩

theorem ascon_inv : HashInv (Model.Ascon.asconHash) Ascon.J0 Ascon.J :=
  ⟨Ascon.hash, fun _ hm => ⟨_, rfl, ⟨hm.2, hm.1, (by decide : 0 < 2 ^ 61)⟩, rfl⟩⟩

end Classes

/-- For every XOF there are invariants that make it safe. -/
theorem xof_inv (x : XofName) (hs : x.Supported) : ∃ I0 I, XofInv x.cls I0 I := by
  cases x with
  | shake b => exact ⟨_, _, Shake.shake b, fun _ hm => ⟨_, rfl, hm, (by decide : 0 < 2 ^ 61), (by decide : 0 < 2 ^ 61)⟩⟩
  | cshake b => exact ⟨_, _, Shake.cshake b, fun _ hm => ⟨_, rfl, hm, (by decide : 0 < 2 ^ 61), (by decide : 0 < 2 ^ 61)⟩⟩
  | kmac b => exact ⟨_, _, Kmac.xof b, fun _ hm => ⟨_, rfl, ⟨hm, (by decide : 0 < 2 ^ 61), (by decide : 0 < 2 ^ 61)⟩,
      Kmac.length_bytepad b [] (by decide)⟩⟩
  | k12 => exact ⟨_, _, K12.xof (B := 128) (R := 12) (by decide), fun _ hm => ⟨_, rfl, hm.1,
      ⟨hm.2.1, (by decide : 0 < 2 ^ 61), (by decide : 0 < 2 ^ 61)⟩, ⟨hm.2.2, (by decide : 0 < 2 ^ 61), (by decide : 0 < 2 ^ 61)⟩, (by decide : 0 < 2 ^ 61)⟩⟩
  | kt256 => exact ⟨_, _, K12.xof (B := 256) (R := 12) (by decide), fun _ hm => ⟨_, rfl, hm.1,
      ⟨hm.2.1, (by decide : 0 < 2 ^ 61), (by decide : 0 < 2 ^ 61)⟩, ⟨hm.2.2, (by decide : 0 < 2 ^ 61), (by decide : 0 < 2 ^ 61)⟩, (by decide : 0 < 2 ^ 61)⟩⟩
  | m14 => exact ⟨_, _, K12.xof (B := 256) (R := 14) (by decide), fun _ hm => ⟨_, rfl, hm.1,
      ⟨hm.2.1, (by decide : 0 < 2 ^ 61), (by decide : 0 < 2 ^ 61)⟩, ⟨hm.2.2, (by decide : 0 < 2 ^ 61), (by decide : 0 < 2 ^ 61)⟩, (by decide : 0 < 2 ^ 61)⟩⟩
  | blake2xb => exact ⟨_, _, Blake2.xof Blake2.good64 512, fun _ hm => ⟨_, rfl, hm, Nat.zero_le _, rfl⟩⟩
  | blake2xs => exact ⟨_, _, Blake2.xof Blake2.good32 256, fun _ hm => ⟨_, rfl, hm, Nat.zero_le _, rfl⟩⟩
  | skein256 => exact ⟨_, _, skeinXof_inv Proofs.Skein.f4_ok⟩
  | skein512 => exact ⟨_, _, skeinXof_inv Proofs.Skein.f8_ok⟩
  | skein1024 => exact ⟨_, _, skeinXof_inv Proofs.Skein.f16_ok⟩
  | esch256 => exact ⟨_, _, Esch.xof (N := 384) (hs := 256) ⟨by decide, by decide⟩, fun _ hm => ⟨_, rfl, hm.2, hm.1, rfl⟩⟩
  | esch384 => exact ⟨_, _, Esch.xof (N := 512) (hs := 384) ⟨by decide, by decide⟩, fun _ hm => ⟨_, rfl, hm.2, hm.1, rfl⟩⟩
  | ascon => exact ⟨_, _, Ascon.xof, fun _ hm => ⟨_, rfl, ⟨hm.2, hm.1, (by decide : 0 < 2 ^ 61)⟩, rfl⟩⟩
  | asconCxof => exact ⟨_, _, Ascon.cxof, fun _ hm => ⟨_, rfl, hm.2, hm.1, (by decide : 0 < 2 ^ 61)⟩⟩

end Digestpp.Proofs.Safety

namespace Digestpp.Properties
open Model Spec Proofs Proofs.Safety

/-- **C38** for hash functions: every history of calls with valid memory arguments runs to the end: there is no access outside an array,
no copy with an underflowing length, no `&v[0]` of an empty vector. Messages may have any length, and the calls come in any order. -/
theorem hash_no_ub (h : HashName) (hs : h.Supported) (mem : h.cls.S) (hm : h.cls.Mem mem) (ops : List (HashOp h.cls.P))
    (hv : ∀ op ∈ ops, op.Valid) : ∃ s os s', h.cls.construct mem = .ok (some s) ∧ h.cls.pr.run ops s = .ok (os, s') := by
  have hi : ∀ {I0 I : h.cls.S → Prop}, HashInv h.cls I0 I →
      ∃ s os s', h.cls.construct mem = .ok (some s) ∧ h.cls.pr.run ops s = .ok (os, s') := fun hI => by
    obtain ⟨s, os, s', e, e', _⟩ := hI.run mem hm ops hv
    exact ⟨s, os, s', e, e'⟩
  obtain ⟨Θ, fn, cov, hL⟩ := hash_laws h hs
  have hl := laws_run hL (mem := mem) (hm := hm) (ops := ops) (hv := hv)
  cases h with
  | blake2b f N =>
    obtain ⟨h0, h8, hN⟩ := hs
    cases f
    · exact hi (blake2_inv Blake2.good64 .hash h0 h8 hN)
    · exact hi (blake2Static_inv Blake2.good64 .hash h0 h8 (fun _ => hN))
  | blake2s f N =>
    obtain ⟨h0, h8, hN⟩ := hs
    cases f
    · exact hi (blake2_inv Blake2.good32 .hash h0 h8 hN)
    · exact hi (blake2Static_inv Blake2.good32 .hash h0 h8 (fun _ => hN))
  | blake2xb f N =>
    cases f
    · exact hi (blake2_inv Blake2.good64 .xHash hs.1 hs.2.1 hs.2.2)
    · exact hi (blake2Static_inv Blake2.good64 .xHash hs.1 hs.2.1 nofun)
  | blake2xs f N =>
    cases f
    · exact hi (blake2_inv Blake2.good32 .xHash hs.1 hs.2.1 hs.2.2)
    · exact hi (blake2Static_inv Blake2.good32 .xHash hs.1 hs.2.1 nofun)
  | blake2bp f N =>
    obtain ⟨h0, h8, hN⟩ := hs
    cases f
    · exact hi (blake2p_inv Blake2.good64 h0 h8 hN)
    · exact hi (blake2pStatic_inv Blake2.good64 h0 h8 hN)
  | blake2sp f N =>
    obtain ⟨h0, h8, hN⟩ := hs
    cases f
    · exact hi (blake2p_inv Blake2.good32 h0 h8 hN)
    · exact hi (blake2pStatic_inv Blake2.good32 h0 h8 hN)
  | skein256 f N =>
    obtain ⟨h0, h8, hN⟩ := hs
    cases f
    · exact hi (skein_inv Proofs.Skein.f4_ok h0 h8 hN)
    · exact hi (skeinStatic_inv Proofs.Skein.f4_ok h0 h8)
  | skein512 f N =>
    obtain ⟨h0, h8, hN⟩ := hs
    cases f
    · exact hi (skein_inv Proofs.Skein.f8_ok h0 h8 hN)
    · exact hi (skeinStatic_inv Proofs.Skein.f8_ok h0 h8)
  | skein1024 f N =>
    obtain ⟨h0, h8, hN⟩ := hs
    cases f
    · exact hi (skein_inv Proofs.Skein.f16_ok h0 h8 hN)
    · exact hi (skeinStatic_inv Proofs.Skein.f16_ok h0 h8)
  | _ => exact hl (fun _ => trivial) trivial

/-- **C38** for extendable output functions: every history of calls with valid memory arguments, including absorbing after squeezing,
runs to the end, unless it squeezes zero bytes into a vector; then that is the only thing that goes wrong. -/
theorem xof_no_ub (x : XofName) (hs : x.Supported) (mem : x.cls.S) (hm : x.cls.Mem mem) :
    ∃ s, x.cls.construct mem = .ok (some s) ∧ ∀ ops : List (XofOp x.cls.P), (∀ op ∈ ops, op.Valid) →
      (∃ os s', x.cls.pr.run ops s = .ok (os, s')) ∨
      ((∃ op ∈ ops, op.EmptyVector) ∧ x.cls.pr.run ops s = .error .emptyVector) := by
  obtain ⟨I0, I, hI⟩ := xof_inv x hs
  obtain ⟨s, e, i⟩ := hI.construct mem hm
  refine ⟨s, e, fun ops hv => ?_⟩
  rcases hI.pr.run ops hv s i with ⟨os, s', e', _⟩ | h
  · exact .inl ⟨os, s', e'⟩
  · exact .inr h

/-- Squeezing zero bytes with `squeeze(len)` or `hexsqueeze(len)` does go wrong, for every class and in every state. -/
theorem xof_squeeze_zero_ub (x : XofName) (s : x.cls.S) :
    x.cls.pr.step (.squeeze 0) s = .error .emptyVector ∧ x.cls.pr.step (.hexsqueeze 0) s = .error .emptyVector :=
  ⟨rfl, rfl⟩

/-- A history of BLAKE2bp calls with a wrong key, `reset(true)` and more input after a digest. -/
example (mem : (HashName.blake2bp .runtime 512).cls.S) (hm : (HashName.blake2bp .runtime 512).cls.Mem mem) : ∃ s os s',
    (HashName.blake2bp .runtime 512).cls.construct mem = .ok (some s) ∧
    (HashName.blake2bp .runtime 512).cls.pr.run [.absorb (.stream (List.replicate 5000 1)), .digest,
      .set (Blake2Param.key (List.replicate 65 0)), .absorb (.iter [2]), .reset true, .hexdigest] s = .ok (os, s') :=
  hash_no_ub (.blake2bp .runtime 512) (by decide) mem hm _ (by
    intro op h
    simp only [List.mem_cons, List.not_mem_nil, or_false] at h
    rcases h with rfl | rfl | rfl | rfl | rfl | rfl
    · trivial
    · trivial
    · show (List.replicate 65 (0 : Byte)).length < _
      rw [List.length_replicate]; decide
    all_goals trivial)

/-- Absorbing after squeezing, and a `squeeze` into an empty buffer. -/
example (mem : XofName.k12.cls.S) (hm : XofName.k12.cls.Mem mem) : ∃ s os s', XofName.k12.cls.construct mem = .ok (some s) ∧
    XofName.k12.cls.pr.run [.absorb (.str [1, 2, 3]), .squeeze 200, .absorb (.str [4]), .squeezeBuf [], .reset true, .hexsqueeze 7] s
      = .ok (os, s') := by
  obtain ⟨s, e, h⟩ := xof_no_ub .k12 trivial mem hm
  rcases h [.absorb (.str [1, 2, 3]), .squeeze 200, .absorb (.str [4]), .squeezeBuf [], .reset true, .hexsqueeze 7] (by
    intro op h
    simp only [List.mem_cons, List.not_mem_nil, or_false] at h
    rcases h with rfl | rfl | rfl | rfl | rfl | rfl <;> first | trivial | (show (_ : Nat) < _; decide)) with ⟨os, s', e'⟩ | ⟨⟨op, h, h'⟩, _⟩
  · exact ⟨s, os, s', e, e'⟩
  · simp only [List.mem_cons, List.not_mem_nil, or_false] at h
    rcases h with rfl | rfl | rfl | rfl | rfl | rfl <;> simp [XofOp.EmptyVector] at h'

end Digestpp.Properties
