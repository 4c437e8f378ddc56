import Verif.Proofs.Cpp.AsconInit
import Verif.Spec.Pieces

/-! C71, Ascon: the member functions together. -/

namespace Digestpp.Cpp.Ascon
open Model (Blk)
open Model.Ascon (Kind)
open Spec (pieces slice)
open Proofs.Ascon (Rx s0 prefixOf)
attribute [local irreducible] eval exec block

variable {N : Nat}

/-- The object of the model, as it is in memory. -/
def obj (s : Blk Model.Ascon.St) : Env := ⟨own s.pos s.total s.h.squeezing, [.a8 s.m, .a64 s.h.H]⟩

/-- The bytes of the output. -/
def stream (k : Kind) (Z msg : Bytes) : Nat → Byte := Spec.Ascon.squeeze (Spec.Ascon.absorb (s0 k) (Spec.Ascon.pad (prefixOf k Z ++ msg)))

/-- The members of an object in use. -/
theorem bounds {k : Kind} {Z msg : Bytes} {n : Nat} {s : Blk Model.Ascon.St} (h : Rx k Z msg n s) : s.m.length = 64 ∧ s.pos ≤ 8 ∧ (s.h.squeezing = false → s.pos < 8) := by
  by_cases hn : n = 0
  · obtain ⟨f1, f2, -⟩ := absorbing_fields (h.2.1 hn)
    exact ⟨f1, by omega, fun _ => f2⟩
  · have h' := h.2.2 (by omega)
    have := h'.pos
    refine ⟨h'.mlen, by omega, fun h0 => ?_⟩
    rw [h'.h] at h0
    cases h0

theorem squeeze_source {k : Kind} (hN1 : 80 < N) {Z msg out : Bytes} {n : Nat} {s : Blk Model.Ascon.St} (k0 : 0 < out.length) (k1 : out.length < N) (k2 : out.length < 2 ^ 64) (h : Rx k Z msg n s)
    (hH : s.h.H.length = 5) :
    ∃ s', Rx k Z msg (n + out.length) s' ∧ s'.h.H.length = 5 ∧ AsconCalls.squeeze N (obj s) out = some (slice (stream k Z msg) n out.length, obj s') := by
  obtain ⟨s', e, h'⟩ := Proofs.Ascon.rx_squeeze out.length k0 h
  obtain ⟨b1, b2, b3⟩ := bounds h
  obtain ⟨hR', x⟩ := squeeze_run (N := N) hN1 k1 k2 b1 b2 b3 ⟨hH, rfl⟩ e
  exact ⟨s', h', hR'.1, x⟩

theorem squeezes_source {k : Kind} (hN1 : 80 < N) {Z msg : Bytes} : ∀ (outs : List Bytes) (n : Nat) (s : Blk Model.Ascon.St), (∀ o ∈ outs, 0 < o.length ∧ o.length < N ∧ o.length < 2 ^ 64) →
    Rx k Z msg n s → s.h.H.length = 5 → AsconCalls.squeezes N outs (obj s) = some (pieces (stream k Z msg) n (outs.map List.length)) := by
  intro outs
  induction outs with
  | nil => intro n s _ _ _; rfl
  | cons out outs ih =>
    intro n s ho h hH
    obtain ⟨k0, k1, k2⟩ := ho out List.mem_cons_self
    obtain ⟨s', h', hH', x⟩ := squeeze_source (N := N) hN1 k0 k1 k2 h hH
    have := ih (n + out.length) s' (fun o h => ho o (List.mem_cons_of_mem _ h)) h' hH'
    unfold AsconCalls.squeezes
    rw [x]
    show Option.map _ (AsconCalls.squeezes N outs (obj s')) = _
    rw [this]
    rfl

theorem update_source {k : Kind} (hN1 : 80 < N) {Z msg d : Bytes} {s : Blk Model.Ascon.St} (hd : d.length < 2 ^ 63) (hN : d.length < N) (h : Rx k Z msg 0 s) (hH : s.h.H.length = 5) :
    ∃ s', Rx k Z (msg ++ d) 0 s' ∧ s'.h.H.length = 5 ∧ AsconCalls.update N (obj s) d = some (obj s') := by
  obtain ⟨s', e, h'⟩ := Proofs.Ascon.rx_update d h hd
  obtain ⟨b1, b2, -⟩ := bounds h
  obtain ⟨-, -, -, q1⟩ := absorbing_fields (h.2.1 rfl)
  obtain ⟨-, -, -, q2⟩ := absorbing_fields (h'.2.1 rfl)
  obtain ⟨x, e1, rest', ⟨hH', rfl⟩, rfl⟩ := update_run (N := N) (by omega) hN hN1 b1 b2 ⟨hH, rfl⟩ e
  refine ⟨s', h', hH', ?_⟩
  show (match exec N (AsconCalls.calls N) Src.Ascon.update ⟨[.ptr 0 0 1, .u64 (BitVec.ofNat 64 d.length), .u64 (BitVec.ofNat 64 s.pos), .u64 s.total], .a8 d :: .a8 s.m :: [.a64 s.h.H]⟩ with
    | some ⟨[_, _, p, t], _ :: A⟩ => some (Env.mk (p :: t :: [.bool s.h.squeezing]) A)
    | _ => none) = _
  rw [e1, q1]
  unfold obj
  rw [q2]

theorem updates_source {k : Kind} (hN1 : 80 < N) {Z : Bytes} : ∀ (parts : List Bytes) (msg : Bytes) (s : Blk Model.Ascon.St), (∀ d ∈ parts, d.length < 2 ^ 63) → (∀ d ∈ parts, d.length < N) →
    Rx k Z msg 0 s → s.h.H.length = 5 → ∃ s', Rx k Z (msg ++ parts.flatten) 0 s' ∧ s'.h.H.length = 5 ∧ parts.foldlM (AsconCalls.update N) (obj s) = some (obj s') := by
  intro parts
  induction parts with
  | nil =>
    intro msg s _ _ h hH
    exact ⟨s, by rw [List.flatten_nil, List.append_nil]; exact h, hH, rfl⟩
  | cons d parts ih =>
    intro msg s hp hN h hH
    obtain ⟨s', h', hH', e3⟩ := update_source (N := N) hN1 (hp d List.mem_cons_self) (hN d List.mem_cons_self) h hH
    obtain ⟨s2, h2, hH2, e2⟩ := ih _ s' (fun d h => hp d (List.mem_cons_of_mem _ h)) (fun d h => hN d (List.mem_cons_of_mem _ h)) h' hH'
    refine ⟨s2, by rw [List.flatten_cons, ← List.append_assoc]; exact h2, hH2, ?_⟩
    rw [List.foldlM_cons, e3]
    exact e2

theorem init_source (k : Kind) {Z m : Bytes} {p t z0 : BitVec 64} {q : Bool} {H : List (BitVec 64)} (hN1 : 80 < N) (hZ : Z.length < 2 ^ 61) (hZN : Z.length < N) (hm : m.length = 64) (hH : H.length = 5) :
    ∃ s, Rx k Z [] 0 s ∧ s.h.H.length = 5 ∧ AsconCalls.init (code k) N Z z0 ⟨[.u64 p, .u64 t, .bool q], [.a8 m, .a64 H]⟩ = some (obj s) := by
  obtain ⟨s, z, h, l, x⟩ := init_run (N := N) k (p := p) (t := t) (z0 := z0) (q := q) hN1 hZ hZN hm hH
  obtain ⟨-, -, -, q1⟩ := absorbing_fields h
  refine ⟨s, Proofs.Ascon.Absorbing.rx hZ (by rw [List.append_nil]; exact h), l, ?_⟩
  show (match exec N (AsconCalls.own N) (Src.Ascon.init (code k)) ⟨[.u64 p, .u64 t, .bool q, .bool Z.isEmpty, .u64 (BitVec.ofNat 64 Z.length)], X m H z0 Z⟩ with
    | some ⟨vs, _ :: A⟩ => some (Env.mk (vs.take 3) (A.take 2))
    | _ => none) = _
  rw [x]
  unfold obj
  rw [q1]
  rfl

theorem run_source (k : Kind) (hN1 : 80 < N) {parts outs : List Bytes} (hp : ∀ d ∈ parts, d.length < 2 ^ 63) (hN : ∀ d ∈ parts, d.length < N)
    (ho : ∀ o ∈ outs, 0 < o.length ∧ o.length < N ∧ o.length < 2 ^ 64) {Z m : Bytes} {p t z0 : BitVec 64} {q : Bool} {H : List (BitVec 64)} (hZ : Z.length < 2 ^ 61) (hZN : Z.length < N)
    (hm : m.length = 64) (hH : H.length = 5) :
    AsconCalls.run (code k) N Z z0 parts outs ⟨[.u64 p, .u64 t, .bool q], [.a8 m, .a64 H]⟩ = some (pieces (stream k Z parts.flatten) 0 (outs.map List.length)) := by
  obtain ⟨s, h, l, z⟩ := init_source (N := N) k (p := p) (t := t) (z0 := z0) (q := q) hN1 hZ hZN hm hH
  obtain ⟨s', h', l', x⟩ := updates_source (N := N) hN1 parts [] s hp hN h l
  rw [List.nil_append] at h'
  have y := squeezes_source (N := N) hN1 outs 0 s' ho h' l'
  unfold AsconCalls.run
  rw [z]
  show Option.bind (parts.foldlM (AsconCalls.update N) _) _ = _
  rw [x]
  exact y

end Digestpp.Cpp.Ascon
