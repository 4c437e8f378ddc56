import Verif.Cpp.Mac
import Verif.Proofs.Cpp.RightEncode
import Verif.Proofs.Cpp.ShakeXof
import Verif.Proofs.Kmac

/-! C71, KMAC: `squeeze`, and the member functions together. -/

namespace Digestpp.Cpp.Kmac
open Model (Blk)
open Model.Shake (rightEncode)
open Spec (pieces slice)
open Proofs.Shake (Rel)
open Shake (R obj)
attribute [local irreducible] eval exec block

variable {N : Nat}

/-- The variables of `squeeze` (kmac_provider.hpp 94, 123-127). -/
abbrev W (k : Nat) (q : Bool) (s : Blk Model.Shake.St) (more : List Val) : List Val :=
  .ptr 0 0 1 :: .u64 (BitVec.ofNat 64 k) :: .bool q :: (Shake.own s.pos s.total s.h.squeezing s.h.suffix s.h.N.isEmpty s.h.S.isEmpty ++ more)

/-- The arrays of `squeeze` (kmac_provider.hpp 98). -/
abbrev X (out m : Bytes) (rest : List Arr) (buf : Bytes) : List Arr := .a8 out :: .a8 m :: (rest ++ [.a8 buf])

/-- kmac_provider.hpp 103. -/
theorem last_run {r n : Nat} (h8 : r % 8 = 0) (hr0 : 0 < r) (hr : r ≤ 168) (hN1 : 80 < N) {θ : Spec.Keccak.CShakeParams} {msg out buf : Bytes} {s : Blk Model.Shake.St} {rest : List Arr} {q : Bool}
    (k0 : 0 < out.length) (k1 : out.length < N) (k2 : out.length < 2 ^ 64) (h : Rel r θ msg n s) (hR : R s.h rest) :
    ∃ s' rest', Rel r θ msg (n + out.length) s' ∧ R s'.h rest' ∧
      exec N (Mac.calls (8 * r) N) (.call 3 (.var 0) (.var 1)) ⟨W out.length q s [], X out s.m rest buf⟩ =
        some ⟨W out.length q s' [], X (slice (Spec.Keccak.cshakeFullStream r θ msg) n out.length) s'.m rest' buf⟩ := by
  obtain ⟨s', rest', h', hR', x⟩ := Shake.squeeze_source (N := N) h8 hr0 hr hN1 k0 k1 k2 h hR
  refine ⟨s', rest', h', hR', st_call (ev_var rfl rfl) (ev_var rfl rfl) ?_⟩
  obtain ⟨-, C, D, -, -, rfl⟩ := hR
  obtain ⟨-, C', D', -, -, rfl⟩ := hR'
  have hlen : (BitVec.ofNat 64 out.length).toNat = out.length := by rw [BitVec.toNat_ofNat, Nat.mod_eq_of_lt k2]
  show (if (BitVec.ofNat 64 out.length).toNat = out.length then
      match Xof.squeeze (8 * r) N (obj s [.a64 s.h.A, .a64 C, .a64 D]) out with
      | some (b, o) => some (Env.mk (.ptr 0 0 1 :: .u64 (BitVec.ofNat 64 out.length) :: .bool q :: (o.vars ++ [])) (.a8 b :: (o.arrs ++ [.a8 buf])))
      | none => none
    else none) = _
  rw [if_pos hlen, x]
  rfl

/-- kmac_provider.hpp 100. -/
theorem update_run {r : Nat} (h8 : r % 8 = 0) (hr0 : 0 < r) (hr : r ≤ 168) (hN1 : 80 < N) {θ : Spec.Keccak.CShakeParams} {msg out buf T : Bytes} {s : Blk Model.Shake.St} {rest : List Arr} {q : Bool} {k : Nat}
    (hd : T.length < 2 ^ 63) (hN : T.length < N) (hb : buf.take T.length = T) (h : Rel r θ msg 0 s) (hR : R s.h rest) :
    ∃ s' rest', Rel r θ (msg ++ T) 0 s' ∧ R s'.h rest' ∧
      Mac.calls (8 * r) N 2 (.ptr 5 0 1) (.u64 (BitVec.ofNat 64 T.length)) ⟨W k q s [.u64 (BitVec.ofNat 64 T.length)], X out s.m rest buf⟩ =
        some ⟨W k q s' [.u64 (BitVec.ofNat 64 T.length)], X out s'.m rest' buf⟩ := by
  obtain ⟨s', rest', h', hR', x⟩ := Shake.update_source (N := N) h8 hr0 hr hN1 hd hN h hR
  refine ⟨s', rest', h', hR', ?_⟩
  obtain ⟨-, C, D, -, -, rfl⟩ := hR
  obtain ⟨-, C', D', -, -, rfl⟩ := hR'
  have hlen : (BitVec.ofNat 64 T.length).toNat = T.length := by rw [BitVec.toNat_ofNat, Nat.mod_eq_of_lt (by omega)]
  have hle : T.length ≤ buf.length := by
    have := congrArg List.length hb
    rw [List.length_take] at this
    omega
  show (if (BitVec.ofNat 64 T.length).toNat ≤ buf.length then
      match Xof.update (8 * r) N (obj s [.a64 s.h.A, .a64 C, .a64 D]) (buf.take (BitVec.ofNat 64 T.length).toNat) with
      | some o => some (Env.mk (.ptr 0 0 1 :: .u64 (BitVec.ofNat 64 k) :: .bool q :: (o.vars ++ [.u64 (BitVec.ofNat 64 T.length)])) (.a8 out :: (o.arrs ++ [.a8 buf])))
      | none => none
    else none) = _
  rw [hlen, if_pos hle, hb, x]
  rfl

/-- The first call of `squeeze`. -/
theorem first_source {r L : Nat} {xof : Bool} (h8 : r % 8 = 0) (hr0 : 0 < r) (hr : r ≤ 168) (hN1 : 80 < N) {θ : Spec.Keccak.CShakeParams} {msg out buf : Bytes} {s : Blk Model.Shake.St} {rest : List Arr}
    (k0 : 0 < out.length) (k1 : out.length < N) (k2 : out.length < 2 ^ 61) (hL : L = if xof then 0 else 8 * out.length) (hbuf : buf.length = 32) (h : Rel r θ msg 0 s) (hR : R s.h rest) :
    ∃ s' rest', Rel r θ (msg ++ Spec.Keccak.rightEncode L) out.length s' ∧ R s'.h rest' ∧
      Mac.squeeze (8 * r) N xof buf false (obj s rest) out = some (slice (Spec.Keccak.cshakeFullStream r θ (msg ++ Spec.Keccak.rightEncode L)) 0 out.length, true, obj s' rest') := by
  have hL64 : L < 2 ^ 64 := by cases xof <;> rw [hL] <;> simp <;> omega
  obtain ⟨T, hT⟩ : ∃ T, rightEncode L false = T := ⟨_, rfl⟩
  have hT' : Spec.Keccak.rightEncode L = T := by rw [← hT, Proofs.Encode.rightEncode_eq L hL64]
  have hTl : T.length ≤ 9 := by rw [← hT']; exact Proofs.Kmac.length_rightEncode L hL64
  rw [hT']
  obtain ⟨s1, rest1, h1, hR1, x1⟩ := update_run (N := N) (T := T) (buf := T ++ buf.drop T.length) (q := false) (k := out.length) (out := out) h8 hr0 hr hN1 (by omega) (by omega) (by rw [List.take_left]) h hR
  obtain ⟨s2, rest2, h2, hR2, x2⟩ := last_run (N := N) (buf := T ++ buf.drop T.length) (q := true) h8 hr0 hr hN1 k0 k1 (by omega) h1 hR1
  rw [Nat.zero_add] at h2
  refine ⟨s2, rest2, h2, hR2, ?_⟩
  have hrun : exec N (Mac.calls (8 * r) N) (Src.Kmac.squeeze xof) ⟨W out.length false s [], X out s.m rest buf⟩ =
      some ⟨W out.length true s2 [], X (slice (Spec.Keccak.cshakeFullStream r θ (msg ++ T)) 0 out.length) s2.m rest2 (T ++ buf.drop T.length)⟩ := by
    unfold Src.Kmac.squeeze
    refine st_cons (E1 := ⟨W out.length true s1 [], X out s1.m rest1 (T ++ buf.drop T.length)⟩) ?_ (st_one x2)
    refine st_then (v := .bool true) (ev_lnot (b := false) (ev_var rfl rfl) rfl) rfl ?_
    refine st_scope (vs' := W out.length true s1 [.u64 (BitVec.ofNat 64 T.length)]) ?_ rfl
    refine st_cons (E1 := ⟨W out.length false s [.undef .u64], X out s.m rest buf⟩) (st_declare rfl) ?_
    refine st_cons (E1 := ⟨W out.length false s [.u64 (BitVec.ofNat 64 T.length)], X out s.m rest (T ++ buf.drop T.length)⟩) ?_ ?_
    · obtain ⟨w, hw1, hw2⟩ : ∃ w, eval ⟨W out.length false s [.undef .u64], X out s.m rest buf⟩ (.cond (.lnot (.lit (.bool xof))) (.bin .mul (.var 1) (.lit (.i32 8))) (.lit (.i32 0))) [] = some [w] ∧
          conv .u64 w = some (.u64 (BitVec.ofNat 64 L)) := by
        cases xof with
        | true =>
          rw [hL]
          exact ⟨.i32 0, ev_else (v := .bool false) (ev_lnot (b := true) ev_lit rfl) rfl ev_lit, rfl⟩
        | false =>
          rw [hL]
          refine ⟨.u64 (BitVec.ofNat 64 (8 * out.length)), ev_then (v := .bool true) (ev_lnot (b := false) ev_lit rfl) rfl ?_, rfl⟩
          rw [Nat.mul_comm]
          exact Shake.times8 (ev_var rfl rfl)
      obtain ⟨-, C, D, -, -, rfl⟩ := hR
      have := RightEncode.run (N := N) (ext := Mac.calls (8 * r) N) (dep := 10) (res := 9) (num := L) (k12 := false) (vs := W out.length false s [.undef .u64])
        (vs' := W out.length false s [.u64 (BitVec.ofNat 64 T.length)]) (old := .undef .u64) (v := .u64 (BitVec.ofNat 64 T.length)) (buf := buf) (more := []) (by omega) rfl (by omega) rfl (by rw [hT]; rfl) rfl
        hL64 (by omega) hw1 hw2
      rw [hT] at this
      exact this
    refine st_cons (E1 := ⟨W out.length false s1 [.u64 (BitVec.ofNat 64 T.length)], X out s1.m rest1 (T ++ buf.drop T.length)⟩) ?_ (st_one (st_set ev_lit rfl rfl rfl))
    refine st_call ?_ (ev_var rfl rfl) x1
    obtain ⟨-, C, D, -, -, rfl⟩ := hR
    exact ev_addr (xs := .a8 (T ++ buf.drop T.length)) rfl ev_lit (n := 0) rfl (get8 (by rw [Shake.fill_length (by omega)]; omega))
  show (match exec N (Mac.calls (8 * r) N) (Src.Kmac.squeeze xof) ⟨.ptr 0 0 1 :: .u64 (BitVec.ofNat 64 out.length) :: .bool false :: (obj s rest).vars, .a8 out :: ((obj s rest).arrs ++ [.a8 buf])⟩ with
    | some ⟨_ :: _ :: .bool q :: vs, .a8 b :: A⟩ => some (b, q, Env.mk vs (A.take (obj s rest).arrs.length))
    | _ => none) = _
  rw [show exec N (Mac.calls (8 * r) N) (Src.Kmac.squeeze xof) ⟨.ptr 0 0 1 :: .u64 (BitVec.ofNat 64 out.length) :: .bool false :: (obj s rest).vars, .a8 out :: ((obj s rest).arrs ++ [.a8 buf])⟩ = _ from hrun]
  obtain ⟨-, C, D, -, -, rfl⟩ := hR
  obtain ⟨-, C', D', -, -, rfl⟩ := hR2
  rfl

/-- A later call of `squeeze`. -/
theorem next_source {r n : Nat} {xof : Bool} (h8 : r % 8 = 0) (hr0 : 0 < r) (hr : r ≤ 168) (hN1 : 80 < N) {θ : Spec.Keccak.CShakeParams} {msg out buf : Bytes} {s : Blk Model.Shake.St} {rest : List Arr}
    (k0 : 0 < out.length) (k1 : out.length < N) (k2 : out.length < 2 ^ 64) (h : Rel r θ msg n s) (hR : R s.h rest) :
    ∃ s' rest', Rel r θ msg (n + out.length) s' ∧ R s'.h rest' ∧
      Mac.squeeze (8 * r) N xof buf true (obj s rest) out = some (slice (Spec.Keccak.cshakeFullStream r θ msg) n out.length, true, obj s' rest') := by
  obtain ⟨s2, rest2, h2, hR2, x2⟩ := last_run (N := N) (buf := buf) (q := true) h8 hr0 hr hN1 k0 k1 (by omega) h hR
  refine ⟨s2, rest2, h2, hR2, ?_⟩
  have hrun : exec N (Mac.calls (8 * r) N) (Src.Kmac.squeeze xof) ⟨W out.length true s [], X out s.m rest buf⟩ =
      some ⟨W out.length true s2 [], X (slice (Spec.Keccak.cshakeFullStream r θ msg) n out.length) s2.m rest2 buf⟩ := by
    unfold Src.Kmac.squeeze
    exact st_cons (E1 := ⟨W out.length true s [], X out s.m rest buf⟩) (st_else (v := .bool false) (ev_lnot (b := true) (ev_var rfl rfl) rfl) rfl st_skip) (st_one x2)
  show (match exec N (Mac.calls (8 * r) N) (Src.Kmac.squeeze xof) ⟨.ptr 0 0 1 :: .u64 (BitVec.ofNat 64 out.length) :: .bool true :: (obj s rest).vars, .a8 out :: ((obj s rest).arrs ++ [.a8 buf])⟩ with
    | some ⟨_ :: _ :: .bool q :: vs, .a8 b :: A⟩ => some (b, q, Env.mk vs (A.take (obj s rest).arrs.length))
    | _ => none) = _
  rw [show exec N (Mac.calls (8 * r) N) (Src.Kmac.squeeze xof) ⟨.ptr 0 0 1 :: .u64 (BitVec.ofNat 64 out.length) :: .bool true :: (obj s rest).vars, .a8 out :: ((obj s rest).arrs ++ [.a8 buf])⟩ = _ from hrun]
  obtain ⟨-, C, D, -, -, rfl⟩ := hR
  obtain ⟨-, C', D', -, -, rfl⟩ := hR2
  rfl

theorem more_source {r : Nat} {xof : Bool} (h8 : r % 8 = 0) (hr0 : 0 < r) (hr : r ≤ 168) (hN1 : 80 < N) {θ : Spec.Keccak.CShakeParams} {msg buf : Bytes} : ∀ (outs : List Bytes) (n : Nat)
    (s : Blk Model.Shake.St) (rest : List Arr), (∀ o ∈ outs, 0 < o.length ∧ o.length < N ∧ o.length < 2 ^ 64) → Rel r θ msg n s → R s.h rest →
    Mac.squeezes (8 * r) N xof buf outs true (obj s rest) = some (pieces (Spec.Keccak.cshakeFullStream r θ msg) n (outs.map List.length)) := by
  intro outs
  induction outs with
  | nil => intro n s rest _ _ _; rfl
  | cons out outs ih =>
    intro n s rest ho h hR
    obtain ⟨k0, k1, k2⟩ := ho out List.mem_cons_self
    obtain ⟨s', rest', h', hR', x⟩ := next_source (N := N) (xof := xof) (buf := buf) h8 hr0 hr hN1 k0 k1 k2 h hR
    have := ih (n + out.length) s' rest' (fun o h => ho o (List.mem_cons_of_mem _ h)) h' hR'
    unfold Mac.squeezes
    rw [x]
    show Option.map _ (Mac.squeezes (8 * r) N xof buf outs true (obj s' rest')) = _
    rw [this]
    rfl

theorem run_source {B L : Nat} {xof : Bool} (hB : B = 128 ∨ B = 256) (hN1 : 168 < N) {parts outs : List Bytes} (hp : ∀ d ∈ parts, d.length < 2 ^ 63) (hN : ∀ d ∈ parts, d.length < N)
    (ho : ∀ o ∈ outs, 0 < o.length ∧ o.length < N ∧ o.length < 2 ^ 61) (hL : ∀ o ∈ outs.head?, L = if xof then 0 else 8 * o.length) {θ : Spec.KmacParams} (hKl : θ.K.length < 2 ^ 61)
    (hSl : θ.S.length < 2 ^ 61) (hKN : (Proofs.Kmac.keyBytes (200 - 2 * B / 8) θ).length < N) (hSN : θ.S.length < N) {p t : BitVec 64} {q : Bool} {f : BitVec 8} {big buf m : Bytes} {A C D : List (BitVec 64)}
    (hbig : big.length = 1024) (hbuf : buf.length = 32) (hm : m.length = 168) (hA : A.length = 25) (hC : C.length = 5) (hD : D.length = 5) :
    Mac.run (1600 - 2 * B) N xof ⟨ascii "KMAC", θ.S, big⟩ (Proofs.Kmac.keyBytes (200 - 2 * B / 8) θ) buf parts outs
        ⟨[.u64 p, .u64 t, .bool q, .u8 f, .bool false, .bool θ.S.isEmpty], [.a8 m, .a64 A, .a64 C, .a64 D]⟩ =
      some (pieces (Spec.kmacStream (Spec.Keccak.cshakeFullStream (200 - 2 * B / 8)) (200 - 2 * B / 8) L θ parts.flatten) 0 (outs.map List.length)) := by
  obtain ⟨r, hr, he⟩ : ∃ r, r = 200 - 2 * B / 8 ∧ 1600 - 2 * B = 8 * r := ⟨_, rfl, by omega⟩
  rw [← hr] at hKN ⊢
  have h8 : r % 8 = 0 := by omega
  have hr0 : 0 < r := by omega
  have h168 : r ≤ 168 := by omega
  obtain ⟨s, rest, h, hR, z⟩ := Shake.init_source (N := N) (θ := Proofs.Kmac.csp θ) (p := p) (t := t) (q := q) (f := f) h8 hr0 h168 hN1 (show (ascii "KMAC").length < 2 ^ 61 by decide) hSl
    (show (ascii "KMAC").length < N from Nat.lt_of_le_of_lt (by decide : _ ≤ 168) hN1) hSN hbig hm hA hC hD
  have hKb := Proofs.Kmac.length_keyBytes r hr0 h168 θ hKl
  obtain ⟨s0, rest0, h0, hR0, x0⟩ := Shake.update_source (N := N) h8 hr0 h168 (by omega) hKb hKN h hR
  obtain ⟨s', rest', h', hR', x⟩ := Shake.updates_source (N := N) h8 hr0 h168 (by omega) parts _ _ rest0 hp hN h0 hR0
  rw [List.nil_append] at h'
  have y : Mac.squeezes (8 * r) N xof buf outs false (obj s' rest') = some (pieces (Spec.kmacStream (Spec.Keccak.cshakeFullStream r) r L θ parts.flatten) 0 (outs.map List.length)) := by
    cases outs with
    | nil => rfl
    | cons out outs =>
      obtain ⟨k0, k1, k2⟩ := ho out List.mem_cons_self
      obtain ⟨s2, rest2, h2, hR2, x2⟩ := first_source (N := N) (xof := xof) (buf := buf) (L := L) h8 hr0 h168 (by omega) k0 k1 k2 (hL out rfl) hbuf h' hR'
      have := more_source (N := N) (xof := xof) (buf := buf) h8 hr0 h168 (by omega) outs out.length s2 rest2
        (fun o h => ⟨(ho o (List.mem_cons_of_mem _ h)).1, (ho o (List.mem_cons_of_mem _ h)).2.1, Nat.lt_trans (ho o (List.mem_cons_of_mem _ h)).2.2 (by decide)⟩) h2 hR2
      unfold Mac.squeezes
      rw [x2]
      show Option.map _ (Mac.squeezes (8 * r) N xof buf outs true (obj s2 rest2)) = _
      rw [this]
      show _ = some (slice _ 0 out.length :: pieces _ (0 + out.length) _)
      rw [Nat.zero_add]
      rfl
  unfold Mac.run
  rw [he]
  rw [show Xof.init (8 * r) N ⟨ascii "KMAC", θ.S, big⟩ ⟨[.u64 p, .u64 t, .bool q, .u8 f, .bool false, .bool θ.S.isEmpty], [.a8 m, .a64 A, .a64 C, .a64 D]⟩ = _ from z]
  show Option.bind (Xof.update (8 * r) N (obj s rest) _) _ = _
  rw [x0]
  show Option.bind (parts.foldlM (Xof.update (8 * r) N) _) _ = _
  rw [x]
  exact y

end Digestpp.Cpp.Kmac
