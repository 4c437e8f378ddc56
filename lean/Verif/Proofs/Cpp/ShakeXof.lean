import Verif.Proofs.Cpp.ShakeInit
import Verif.Spec.Pieces

/-! C71, SHAKE and cSHAKE: the member functions together. -/

namespace Digestpp.Cpp.Shake
open Model (Blk)
open Spec (pieces slice)
open Proofs.Shake (Rel)
attribute [local irreducible] eval exec block

variable {N : Nat}

/-- The object of the model, as it is in memory. -/
def obj (s : Blk Model.Shake.St) (rest : List Arr) : Env := ⟨own s.pos s.total s.h.squeezing s.h.suffix s.h.N.isEmpty s.h.S.isEmpty, .a8 s.m :: rest⟩

/-- The members of an object in use. -/
theorem bounds {r n : Nat} (hr0 : 0 < r) {msg : Bytes} {θ : Spec.Keccak.CShakeParams} {s : Blk Model.Shake.St} (h : Rel r θ msg n s) :
    s.m.length = 168 ∧ s.pos ≤ r ∧ (s.h.squeezing = false → s.pos < r) ∧ s.h.N = θ.N ∧ s.h.S = θ.S ∧ (n = 0 → s.h.squeezing = false ∧ s.h.suffix = 0) := by
  rcases h.2.2 with ⟨-, h⟩ | h
  · have hp := h.pos
    rw [Nat.sub_zero, Proofs.mod_eq_sub_div] at hp
    have := Nat.mod_lt ((Proofs.Shake.pfx r θ ++ msg).length) hr0
    have hf := h.fields
    refine ⟨h.mlen, by omega, fun _ => by omega, ?_, ?_, fun _ => ?_⟩ <;> rw [hf]
    exact ⟨rfl, rfl⟩
  · have := Nat.mod_lt (n - 1) hr0
    refine ⟨h.mlen, by rw [h.pos]; omega, fun h0 => ?_, h.N, h.S, fun h0 => ?_⟩
    · rw [h.sq] at h0; cases h0
    · have := h.n_pos; omega

theorem squeeze_source {r : Nat} (h8 : r % 8 = 0) (hr0 : 0 < r) (hr : r ≤ 168) (hN1 : 80 < N) {θ : Spec.Keccak.CShakeParams} {msg out : Bytes} {n : Nat} {s : Blk Model.Shake.St}
    {rest : List Arr} (k0 : 0 < out.length) (k1 : out.length < N) (k2 : out.length < 2 ^ 64) (h : Rel r θ msg n s) (hR : R s.h rest) :
    ∃ s' rest', Rel r θ msg (n + out.length) s' ∧ R s'.h rest' ∧
      Xof.squeeze (8 * r) N (obj s rest) out = some (slice (Spec.Keccak.cshakeFullStream r θ msg) n out.length, obj s' rest') := by
  obtain ⟨s', e, h'⟩ := Proofs.Shake.rel_squeeze r h8 hr0 hr _ msg n s out.length h k0
  obtain ⟨b1, b2, b3, -⟩ := bounds hr0 h
  have h8r : 8 * r / 8 = r := by omega
  obtain ⟨rest', hR', x⟩ := squeeze_run (N := N) (rate := 8 * r) (by omega) (by omega) hN1 k1 k2 b1 (by omega) (by rw [h8r]; exact b3) hR e
  exact ⟨s', rest', h', hR', x⟩

theorem squeezes_source {r : Nat} (h8 : r % 8 = 0) (hr0 : 0 < r) (hr : r ≤ 168) (hN1 : 80 < N) {θ : Spec.Keccak.CShakeParams} {msg : Bytes} : ∀ (outs : List Bytes) (n : Nat)
    (s : Blk Model.Shake.St) (rest : List Arr), (∀ o ∈ outs, 0 < o.length ∧ o.length < N ∧ o.length < 2 ^ 64) → Rel r θ msg n s → R s.h rest →
    Xof.squeezes (8 * r) N outs (obj s rest) = some (pieces (Spec.Keccak.cshakeFullStream r θ msg) n (outs.map List.length)) := by
  intro outs
  induction outs with
  | nil => intro n s rest _ _ _; rfl
  | cons out outs ih =>
    intro n s rest ho h hR
    obtain ⟨k0, k1, k2⟩ := ho out List.mem_cons_self
    obtain ⟨s', rest', h', hR', x⟩ := squeeze_source (N := N) h8 hr0 hr hN1 k0 k1 k2 h hR
    have := ih (n + out.length) s' rest' (fun o h => ho o (List.mem_cons_of_mem _ h)) h' hR'
    unfold Xof.squeezes
    rw [x]
    show Option.map _ (Xof.squeezes (8 * r) N outs (obj s' rest')) = _
    rw [this]
    rfl

theorem update_source {r : Nat} (h8 : r % 8 = 0) (hr0 : 0 < r) (hr : r ≤ 168) (hN1 : 80 < N) {θ : Spec.Keccak.CShakeParams} {msg d : Bytes} {s : Blk Model.Shake.St} {rest : List Arr}
    (hd : d.length < 2 ^ 63) (hN : d.length < N) (h : Rel r θ msg 0 s) (hR : R s.h rest) :
    ∃ s' rest', Rel r θ (msg ++ d) 0 s' ∧ R s'.h rest' ∧ Xof.update (8 * r) N (obj s rest) d = some (obj s' rest') := by
  obtain ⟨s', e, h'⟩ := Proofs.Shake.rel_update r h8 hr0 hr _ msg s d h hd
  obtain ⟨b1, b2, -, b4, b5, b6⟩ := bounds hr0 h
  obtain ⟨-, -, -, c4, c5, c6⟩ := bounds hr0 h'
  obtain ⟨x, e1, rest', hR', rfl⟩ := update_run (N := N) (rate := 8 * r) (by omega) (by omega) (by omega) hN hN1 b1 (by omega) hR e
  refine ⟨s', rest', h', hR', ?_⟩
  show (match exec N (Xof.calls (8 * r) N) (Src.Shake.update (8 * r)) ⟨[.ptr 0 0 1, .u64 (BitVec.ofNat 64 d.length), .u64 (BitVec.ofNat 64 s.pos), .u64 s.total], .a8 d :: .a8 s.m :: rest⟩ with
    | some ⟨[_, _, p, t], _ :: A⟩ => some (Env.mk (p :: t :: [.bool s.h.squeezing, .u8 s.h.suffix, .bool s.h.N.isEmpty, .bool s.h.S.isEmpty]) A)
    | _ => none) = _
  rw [e1, b4, b5, (b6 rfl).1, (b6 rfl).2]
  unfold obj
  rw [c4, c5, (c6 rfl).1, (c6 rfl).2]

theorem updates_source {r : Nat} (h8 : r % 8 = 0) (hr0 : 0 < r) (hr : r ≤ 168) (hN1 : 80 < N) {θ : Spec.Keccak.CShakeParams} : ∀ (parts : List Bytes) (msg : Bytes) (s : Blk Model.Shake.St)
    (rest : List Arr), (∀ d ∈ parts, d.length < 2 ^ 63) → (∀ d ∈ parts, d.length < N) → Rel r θ msg 0 s → R s.h rest →
    ∃ s' rest', Rel r θ (msg ++ parts.flatten) 0 s' ∧ R s'.h rest' ∧ parts.foldlM (Xof.update (8 * r) N) (obj s rest) = some (obj s' rest') := by
  intro parts
  induction parts with
  | nil =>
    intro msg s rest _ _ h hR
    exact ⟨s, rest, by rw [List.flatten_nil, List.append_nil]; exact h, hR, rfl⟩
  | cons d parts ih =>
    intro msg s rest hp hN h hR
    obtain ⟨s', rest', h', hR', e3⟩ := update_source (N := N) h8 hr0 hr hN1 (hp d List.mem_cons_self) (hN d List.mem_cons_self) h hR
    obtain ⟨s2, rest2, h2, hR2, e2⟩ := ih _ s' rest' (fun d h => hp d (List.mem_cons_of_mem _ h)) (fun d h => hN d (List.mem_cons_of_mem _ h)) h' hR'
    refine ⟨s2, rest2, by rw [List.flatten_cons, ← List.append_assoc]; exact h2, hR2, ?_⟩
    rw [List.foldlM_cons, e3]
    exact e2

theorem init_source {r : Nat} (h8 : r % 8 = 0) (hr0 : 0 < r) (h168 : r ≤ 168) (hN1 : 168 < N) {θ : Spec.Keccak.CShakeParams} (hNl : θ.N.length < 2 ^ 61) (hSl : θ.S.length < 2 ^ 61)
    (hNN : θ.N.length < N) (hSN : θ.S.length < N) {p t : BitVec 64} {q : Bool} {f : BitVec 8} {buf m : Bytes} {A C D : List (BitVec 64)} (hbuf : buf.length = 1024) (hm : m.length = 168)
    (hA : A.length = 25) (hC : C.length = 5) (hD : D.length = 5) :
    ∃ s rest, Rel r θ [] 0 s ∧ R s.h rest ∧
      Xof.init (8 * r) N ⟨θ.N, θ.S, buf⟩ ⟨[.u64 p, .u64 t, .bool q, .u8 f, .bool θ.N.isEmpty, .bool θ.S.isEmpty], [.a8 m, .a64 A, .a64 C, .a64 D]⟩ = some (obj s rest) := by
  obtain ⟨s, rest, buf', h0, hR, x0⟩ := init_run (N := N) (θ := θ) (p := p) (t := t) (q := q) (f := f) h8 hr0 h168 hN1 hNl hSl hNN hSN hbuf hm hA hC hD
  have h : Rel r θ [] 0 s := ⟨hNl, hSl, .inl ⟨rfl, by rw [List.append_nil]; exact h0⟩⟩
  obtain ⟨-, -, -, c4, c5, c6⟩ := bounds hr0 h
  refine ⟨s, rest, h, hR, ?_⟩
  show (match exec N (Xof.own (8 * r) N) (Src.Shake.init (8 * r)) ⟨[.u64 p, .u64 t, .bool q, .u8 f, .bool θ.N.isEmpty, .bool θ.S.isEmpty, .u64 (BitVec.ofNat 64 θ.N.length),
      .u64 (BitVec.ofNat 64 θ.S.length)], X m [.a64 A, .a64 C, .a64 D] buf θ.N θ.S⟩ with
    | some ⟨vs, _ :: A⟩ => some (Env.mk (vs.take 6) (A.take 4))
    | _ => none) = _
  rw [x0]
  unfold obj
  rw [c4, c5, (c6 rfl).1, (c6 rfl).2]
  obtain ⟨-, C', D', -, -, rfl⟩ := hR
  rfl

theorem run_source {B : Nat} (hB : B = 128 ∨ B = 256) (hN1 : 168 < N) {parts outs : List Bytes} (hp : ∀ d ∈ parts, d.length < 2 ^ 63) (hN : ∀ d ∈ parts, d.length < N)
    (ho : ∀ o ∈ outs, 0 < o.length ∧ o.length < N ∧ o.length < 2 ^ 64) {θ : Spec.Keccak.CShakeParams} (hNl : θ.N.length < 2 ^ 61) (hSl : θ.S.length < 2 ^ 61) (hNN : θ.N.length < N)
    (hSN : θ.S.length < N) {p t : BitVec 64} {q : Bool} {f : BitVec 8} {buf m : Bytes} {A C D : List (BitVec 64)} (hbuf : buf.length = 1024) (hm : m.length = 168) (hA : A.length = 25)
    (hC : C.length = 5) (hD : D.length = 5) :
    Xof.run (1600 - 2 * B) N ⟨θ.N, θ.S, buf⟩ parts outs ⟨[.u64 p, .u64 t, .bool q, .u8 f, .bool θ.N.isEmpty, .bool θ.S.isEmpty], [.a8 m, .a64 A, .a64 C, .a64 D]⟩ =
      some (pieces ((Spec.cshakeFull B).stream θ parts.flatten) 0 (outs.map List.length)) := by
  obtain ⟨r, hr, he⟩ : ∃ r, r = 200 - 2 * B / 8 ∧ 1600 - 2 * B = 8 * r := ⟨_, rfl, by omega⟩
  have h8 : r % 8 = 0 := by omega
  have hr0 : 0 < r := by omega
  have h168 : r ≤ 168 := by omega
  obtain ⟨s, rest, h, hR, z⟩ := init_source (N := N) (θ := θ) (p := p) (t := t) (q := q) (f := f) h8 hr0 h168 hN1 hNl hSl hNN hSN hbuf hm hA hC hD
  obtain ⟨s', rest', h', hR', x⟩ := updates_source (N := N) h8 hr0 h168 (by omega) parts [] _ rest hp hN h hR
  rw [List.nil_append] at h'
  have y := squeezes_source (N := N) h8 hr0 h168 (by omega) outs 0 s' rest' ho h' hR'
  unfold Xof.run
  rw [he, z]
  show Option.bind (parts.foldlM (Xof.update (8 * r) N) _) _ = _
  rw [x]
  show Xof.squeezes (8 * r) N outs (obj s' rest') = _
  rw [y, hr]
  rfl

end Digestpp.Cpp.Shake
