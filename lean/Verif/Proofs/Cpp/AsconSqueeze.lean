import Verif.Proofs.Cpp.Ascon

/-! C71, Ascon: `update` and `squeeze`. -/

namespace Digestpp.Cpp.Ascon
open Src Src.Ascon
open Model (Blk memset setByte readBytes szSub szMod stores64)
open Absorb (absorb_any sub64 ev_move)
open Final
open Sha3 (ev_quot succ64)
open Shake (ev_min part64_at readBytes_length truth_nonzero fill patch_fill)
attribute [local irreducible] eval exec block

variable {N : Nat}

/-- The variables of an object. -/
abbrev own (pos : Nat) (t : BitVec 64) (q : Bool) : List Val := [.u64 (BitVec.ofNat 64 pos), .u64 t, .bool q]

/-- The variables of `squeeze`. -/
abbrev W (hs pos : Nat) (t : BitVec 64) (q : Bool) (more : List Val) : List Val :=
  .ptr 0 0 1 :: .u64 (BitVec.ofNat 64 hs) :: .u64 (BitVec.ofNat 64 pos) :: .u64 t :: .bool q :: more

theorem update_run {data : Bytes} {s s' : Blk Model.Ascon.St} {rest : List Arr} (hd : data.length + 1000 < 2 ^ 64) (hN : data.length < N)
    (hN1 : 80 < N) (hm : s.m.length = 64) (hp : s.pos ≤ 8) (hR : R s.h rest) (h : Model.Ascon.update data s = .ok s') :
    ∃ e, exec N (AsconCalls.calls N) update
      ⟨[.ptr 0 0 1, .u64 (BitVec.ofNat 64 data.length), .u64 (BitVec.ofNat 64 s.pos), .u64 s.total], .a8 data :: .a8 s.m :: rest⟩ = some e ∧
      ∃ rest', R s'.h rest' ∧
        e = ⟨[.ptr 0 0 1, .u64 (BitVec.ofNat 64 data.length), .u64 (BitVec.ofNat 64 s'.pos), .u64 s'.total], .a8 data :: .a8 s'.m :: rest'⟩ := by
  unfold Model.Ascon.update at h
  exact absorb_any (trans hN1) (by omega) (Nat.le_refl _) (by omega) (fun _ => ev_lit) rfl (fun _ => ev_lit) rfl (by omega) hN (by omega) (by omega) (by omega) hp hR h

/-- The call of `transform` with the buffer `m`. -/
theorem call_run {vs : List Val} {out m : Bytes} {s s' : Blk Model.Ascon.St} {rest : List Arr} (hN1 : 80 < N) (hm : m.length = 64) (hR : R s.h rest)
    (h : Model.Ascon.transform m 1 s = .ok s') :
    ∃ h' rest', s' = { s with h := h' } ∧ R h' rest' ∧ exec N (AsconCalls.calls N) (.call 0 (.addr 1 (.lit (.i32 0))) (.lit (.i32 1))) ⟨vs, .a8 out :: .a8 m :: rest⟩ =
      some ⟨vs, .a8 out :: .a8 m :: rest'⟩ := by
  obtain ⟨h', rest', hh, r', x⟩ := trans hN1 out m m 1 0 1 (.i32 1) s s' rest vs (.inr ⟨rfl, rfl⟩) (by omega) (by omega) (by omega) rfl hR h
  exact ⟨h', rest', hh, r', st_call (ev_addr rfl ev_lit (n := 0) rfl (get8 (by omega))) ev_lit x⟩

theorem transform_fields {m : Bytes} {n : Nat} {s s' : Blk Model.Ascon.St} (h : Model.Ascon.transform m n s = .ok s') :
    s'.m = s.m ∧ s'.pos = s.pos ∧ s'.total = s.total ∧ s'.h.Z = s.h.Z ∧ s'.h.squeezing = s.h.squeezing := by
  obtain ⟨H, -, e⟩ := then_ok h
  obtain rfl := Except.ok.inj e
  exact ⟨rfl, rfl, rfl, rfl, rfl⟩

/-- The body of the loop, ascon_provider.hpp 116-123. -/
def body : Stmt := .scope (block [
  .ite (.var 6) (.scope (block [.call 0 (.addr 1 (.lit (.i32 0))) (.lit (.i32 1))])) .skip,
  .set 2 (.cond (.bin .lt (.var 5) (.bin .sub (.var 1) (.var 6))) (.var 5) (.bin .sub (.var 1) (.var 6))),
  .memcpy (.bin .add (.var 0) (.var 6)) (.addr 2 (.lit (.i32 0))) (.var 2),
  .set 6 (.bin .add (.var 6) (.var 2))])

theorem body_run {o c out : Bytes} {s s1 : Blk Model.Ascon.St} (hN : 80 < N) (ho : o.length < out.length) (hout : out.length < 2 ^ 64) (hm : s.m.length = 64) (hH : s.h.H.length = 5)
    (h1 : (if o.length ≠ 0 then Model.Ascon.transform s.m 1 s else pure s) = .ok s1) (h2 : readBytes (stores64 s1.h.H) 0 (min (out.length - o.length) 8) = .ok c) :
    s1.h.H.length = 5 ∧ exec N (AsconCalls.calls N) body ⟨W out.length s.pos s.total s.h.squeezing [.u64 8, .u64 (BitVec.ofNat 64 o.length)], ar (fill o out) s.m s.h.H⟩ =
        some ⟨W out.length (min (out.length - o.length) 8) s1.total s1.h.squeezing [.u64 8, .u64 (BitVec.ofNat 64 (o ++ c).length)], ar (fill (o ++ c) out) s1.m s1.h.H⟩ := by
  obtain ⟨hH1, x⟩ : s1.h.H.length = 5 ∧
      exec N (AsconCalls.calls N) (.ite (.var 6) (.scope (block [.call 0 (.addr 1 (.lit (.i32 0))) (.lit (.i32 1))])) .skip)
        ⟨W out.length s.pos s.total s.h.squeezing [.u64 8, .u64 (BitVec.ofNat 64 o.length)], ar (fill o out) s.m s.h.H⟩ =
        some ⟨W out.length s1.pos s1.total s1.h.squeezing [.u64 8, .u64 (BitVec.ofNat 64 o.length)], ar (fill o out) s1.m s1.h.H⟩ := by
    have ht := truth_nonzero (n := o.length) (by omega)
    by_cases h : o.length = 0
    · rw [if_neg (by omega)] at h1
      rw [decide_eq_false (by omega)] at ht
      obtain rfl := Except.ok.inj h1
      exact ⟨hH, st_else (ev_var rfl rfl) ht st_skip⟩
    · rw [if_pos h] at h1
      rw [decide_eq_true h] at ht
      obtain ⟨f1, f2, f3, -, f5⟩ := transform_fields h1
      obtain ⟨h', rest', rfl, ⟨l, rfl⟩, x⟩ := call_run (N := N) (vs := W out.length s.pos s.total s.h.squeezing [.u64 8, .u64 (BitVec.ofNat 64 o.length)]) (out := fill o out) hN hm ⟨hH, rfl⟩ h1
      rw [f2, f3, f5, f1]
      exact ⟨l, st_then (ev_var rfl rfl) ht (st_scope (st_one x) rfl)⟩
  refine ⟨hH1, ?_⟩
  have hc := readBytes_length h2
  generalize hk : min (out.length - o.length) 8 = k at h2 hc
  have hk1 : k ≤ out.length - o.length := by omega
  unfold body
  refine st_scope (vs' := W out.length k s1.total s1.h.squeezing [.u64 8, .u64 (BitVec.ofNat 64 (o ++ c).length)]) (st_cons x ?_) rfl
  refine st_cons (E1 := ⟨W out.length k s1.total s1.h.squeezing [.u64 8, .u64 (BitVec.ofNat 64 o.length)], ar (fill o out) s1.m s1.h.H⟩) ?_ ?_
  · rw [← hk]
    exact st_set (ev_min (a := out.length - o.length) (b := 8) (by omega) (by omega)
      (ev_as (ev_bin (ev_var rfl rfl) (ev_var rfl rfl) rfl) (congrArg Val.u64 (sub64 (by omega) (by omega)))) (ev_var rfl rfl)) rfl rfl rfl
  refine st_cons (E1 := ⟨W out.length k s1.total s1.h.squeezing [.u64 8, .u64 (BitVec.ofNat 64 o.length)], ar (fill (o ++ c) out) s1.m s1.h.H⟩) ?_ ?_
  · exact st_memcpy (ev_move (n := o.length) (ev_var rfl rfl) (ev_var rfl rfl) (count_u64 (by omega))) (ev_addr rfl ev_lit (n := 0) rfl (get64 (by omega))) (ev_var rfl rfl) (count_u64 (by omega)) rfl rfl
      (by omega) (part64_at h2) (patch_fill (by omega)) rfl
  · refine st_one (st_set (v := .u64 (BitVec.ofNat 64 (o ++ c).length)) (ev_as (ev_bin (ev_var rfl rfl) (ev_var rfl rfl) rfl) ?_) rfl rfl rfl)
    rw [List.length_append, hc, BitVec.ofNat_add]

/-- What one iteration leaves. -/
theorem turn_fields {o : Bytes} {s s1 : Blk Model.Ascon.St} (h1 : (if o.length ≠ 0 then Model.Ascon.transform s.m 1 s else pure s) = .ok s1) :
    s1.m = s.m ∧ s1.total = s.total ∧ s1.h.Z = s.h.Z ∧ s1.h.squeezing = s.h.squeezing := by
  by_cases h : o.length = 0
  · rw [if_neg (by omega)] at h1
    obtain rfl := Except.ok.inj h1
    exact ⟨rfl, rfl, rfl, rfl⟩
  · rw [if_pos h] at h1
    obtain ⟨f1, -, f3, f4, f5⟩ := transform_fields h1
    exact ⟨f1, f3, f4, f5⟩

/-- The loop, ascon_provider.hpp 116-123. -/
theorem loop_run {out : Bytes} (hN : 80 < N) (hout : out.length < 2 ^ 64)
    (fuel : Nat) : ∀ (K : Nat) (o b' : Bytes) (s s' : Blk Model.Ascon.St), out.length - o.length < K → out.length - o.length ≤ fuel → o.length ≤ out.length →
      s.m.length = 64 → s.h.H.length = 5 → Model.Ascon.squeezeLoop out.length fuel o s = .ok (b', s') →
      s'.h.H.length = 5 ∧ b'.length = out.length ∧
        iterate (fun E => test E (.bin .lt (.var 6) (.var 1))) (exec N (AsconCalls.calls N) body) K
          ⟨W out.length s.pos s.total s.h.squeezing [.u64 8, .u64 (BitVec.ofNat 64 o.length)], ar (fill o out) s.m s.h.H⟩ =
          some ⟨W out.length s'.pos s'.total s'.h.squeezing [.u64 8, .u64 (BitVec.ofNat 64 out.length)], ar b' s'.m s'.h.H⟩ := by
  have hcond : ∀ (p : Nat) (t : BitVec 64) (q : Bool) (o : Bytes) (arrs : List Arr), o.length ≤ out.length →
      test ⟨W out.length p t q [.u64 8, .u64 (BitVec.ofNat 64 o.length)], arrs⟩ (.bin .lt (.var 6) (.var 1)) = some (decide (o.length < out.length)) := fun p t q o arrs h =>
    test_nat (ev_bin (ev_var rfl rfl) (ev_var rfl rfl) rfl) rfl (decide_eq_decide.2 (by simp only [BitVec.toNat_ofNat]; omega))
  have hdone : ∀ (K : Nat) (o : Bytes) (s : Blk Model.Ascon.St), 0 < K → o.length = out.length →
      iterate (fun E => test E (.bin .lt (.var 6) (.var 1))) (exec N (AsconCalls.calls N) body) K
          ⟨W out.length s.pos s.total s.h.squeezing [.u64 8, .u64 (BitVec.ofNat 64 o.length)], ar (fill o out) s.m s.h.H⟩ =
          some ⟨W out.length s.pos s.total s.h.squeezing [.u64 8, .u64 (BitVec.ofNat 64 out.length)], ar o s.m s.h.H⟩ := by
    intro K o s hK ho
    obtain ⟨K, rfl⟩ : ∃ k, K = k + 1 := ⟨K - 1, by omega⟩
    rw [iterate, hcond _ _ _ _ _ (by omega), decide_eq_false (by omega)]
    show some _ = _
    rw [ho, fill, List.drop_of_length_le (by omega), List.append_nil]
  induction fuel with
  | zero =>
    intro K o b' s s' hK hf ho hm hH h
    obtain ⟨rfl, rfl⟩ := Prod.mk.inj (Except.ok.inj h)
    exact ⟨hH, by omega, hdone K o s (by omega) (by omega)⟩
  | succ fuel ih =>
    intro K o b' s s' hK hf ho hm hH h
    unfold Model.Ascon.squeezeLoop at h
    by_cases hlt : o.length < out.length
    · rw [if_pos hlt] at h
      obtain ⟨s1, e0, h⟩ := then_ok h
      obtain ⟨c, e1, e2⟩ := then_ok h
      have hc := readBytes_length e1
      obtain ⟨l, x⟩ := body_run (N := N) hN hlt hout hm hH e0 e1
      obtain ⟨f1, -⟩ := turn_fields e0
      have hlen : (o ++ c).length = o.length + min (out.length - o.length) 8 := by rw [List.length_append, hc]
      obtain ⟨K, rfl⟩ : ∃ k, K = k + 1 := ⟨K - 1, by omega⟩
      obtain ⟨m1, m2, y⟩ := ih K (o ++ c) b' { s1 with pos := min (out.length - o.length) 8 } s' (by omega) (by omega) (by omega) (by rw [← hm, ← f1]) l e2
      refine ⟨m1, m2, ?_⟩
      rw [iterate, hcond _ _ _ _ _ (by omega), decide_eq_true hlt]
      show Option.bind (exec N (AsconCalls.calls N) body _) _ = _
      rw [x]
      exact y
    · rw [if_neg hlt] at h
      obtain ⟨rfl, rfl⟩ := Prod.mk.inj (Except.ok.inj h)
      exact ⟨hH, by omega, hdone K o s (by omega) (by omega)⟩

/-- ascon_provider.hpp 95-103, the branch. -/
def pad : Stmt := block [
  .store 1 (.var 2) (.lit (.i32 0x01)),
  .set 2 (.bin .add (.var 2) (.lit (.i32 1))),
  .ite (.bin .ne (.var 5) (.var 2)) (.scope (block [.memset (.addr 1 (.var 2)) (.lit (.i32 0)) (.bin .sub (.var 5) (.var 2))])) .skip,
  .call 0 (.addr 1 (.lit (.i32 0))) (.lit (.i32 1)),
  .memset (.addr 1 (.lit (.i32 0))) (.lit (.i32 0)) (.var 5),
  .set 4 (.lit (.bool true))]

theorem pad_run {hs : Nat} {out o1 : Bytes} {s s1 : Blk Model.Ascon.St} {rest : List Arr} (hN1 : 80 < N) (hm : s.m.length = 64)
    (hp : s.pos < 8) (hq : s.h.squeezing = false) (hR : R s.h rest) (h : Model.Ascon.squeezeFirst hs s = .ok (o1, s1)) :
    o1 = [] ∧ s1.h.H.length = 5 ∧ s1.m.length = 64 ∧
      exec N (AsconCalls.calls N) pad ⟨W hs s.pos s.total false [.u64 8, .u64 0], .a8 out :: .a8 s.m :: rest⟩ =
        some ⟨W hs s1.pos s1.total s1.h.squeezing [.u64 8, .u64 0], ar out s1.m s1.h.H⟩ := by
  unfold Model.Ascon.squeezeFirst at h
  rw [if_pos (by rw [hq]; rfl)] at h
  obtain ⟨m1, f1, e1⟩ := then_ok h
  obtain ⟨hp1, rfl⟩ := setByte_inv f1
  have l1 : (s.m.set s.pos 1).length = 64 := by rw [List.length_set, hm]
  generalize hM1 : s.m.set s.pos 1 = m1 at e1 l1
  obtain ⟨m2, f2, e1⟩ := then_ok e1
  obtain ⟨s3, f3, e1⟩ := then_ok e1
  obtain ⟨m4, f4, e1⟩ := then_ok e1
  obtain ⟨rfl, rfl⟩ := Prod.mk.inj (Except.ok.inj e1)
  have l2 : m2.length = 64 := by
    split at f2
    · rw [memset_length f2, l1]
    · rw [← Except.ok.inj f2, l1]
  obtain ⟨h', rest', rfl, ⟨lH, rfl⟩, x⟩ := call_run (N := N) (vs := W hs (s.pos + 1) s.total false [.u64 8, .u64 0]) (out := out) (s := { s with m := m2, pos := s.pos + 1 }) hN1 l2 hR f3
  have l4 : m4.length = 64 := by rw [memset_length f4]; exact l2
  refine ⟨rfl, lH, l4, ?_⟩
  unfold pad
  refine st_cons (E1 := ⟨W hs s.pos s.total false [.u64 8, .u64 0], .a8 out :: .a8 m1 :: rest⟩) ?_ ?_
  · rw [← hM1]
    exact st_store (n := s.pos) (ev_var rfl rfl) (count_u64 (by omega)) ev_lit rfl (put8 rfl (by omega)) rfl
  refine st_cons (E1 := ⟨W hs (s.pos + 1) s.total false [.u64 8, .u64 0], .a8 out :: .a8 m1 :: rest⟩) ?_ ?_
  · exact st_set (v := .u64 (BitVec.ofNat 64 (s.pos + 1))) (ev_as (ev_bin (ev_var rfl rfl) ev_lit rfl) (congrArg Val.u64 succ64)) rfl rfl rfl
  refine st_cons (E1 := ⟨W hs (s.pos + 1) s.total false [.u64 8, .u64 0], .a8 out :: .a8 m2 :: rest⟩) ?_ ?_
  · have hb := ev_bin (o := .ne) (E := ⟨W hs (s.pos + 1) s.total false [.u64 8, .u64 0], .a8 out :: .a8 m1 :: rest⟩) (as := []) (x := .var 5) (y := .var 2)
      (ev_var rfl rfl) (ev_var rfl rfl) (r := .bool (!decide (BitVec.ofNat 64 8 = BitVec.ofNat 64 (s.pos + 1)))) rfl
    by_cases he : 8 = s.pos + 1
    · rw [if_neg (by omega)] at f2
      obtain rfl := Except.ok.inj f2
      exact st_else hb (by rw [decide_eq_true (by rw [← he])]; rfl) st_skip
    · have hne : ¬BitVec.ofNat 64 8 = BitVec.ofNat 64 (s.pos + 1) := by
        intro h0
        have := congrArg BitVec.toNat h0
        rw [BitVec.toNat_ofNat, BitVec.toNat_ofNat, Nat.mod_eq_of_lt (by omega), Nat.mod_eq_of_lt (by omega)] at this
        exact he this
      rw [if_pos he, show szSub 8 (s.pos + 1) = 8 - (s.pos + 1) by unfold szSub szMod; omega] at f2
      refine st_then hb (by rw [decide_eq_false hne]; rfl) (st_scope (vs' := W hs (s.pos + 1) s.total false [.u64 8, .u64 0]) (st_one ?_) rfl)
      exact st_memset (ev_elem (n := s.pos + 1) (by omega) (ev_var rfl rfl) (count_u64 (by omega))) ev_lit
        (ev_as (ev_bin (ev_var rfl rfl) (ev_var rfl rfl) rfl) (congrArg Val.u64 (sub64 (a := 8) (by omega) (by omega)))) (count_u64 (by omega)) rfl rfl (patch_of_memset f2) rfl
  refine st_cons x ?_
  refine st_cons (E1 := ⟨W hs (s.pos + 1) s.total false [.u64 8, .u64 0], ar out m4 h'.H⟩) ?_ ?_
  · exact st_memset (ev_addr rfl ev_lit (n := 0) rfl (get8 (by omega))) ev_lit (ev_var rfl rfl) (count_u64 (n := 8) (by omega)) rfl rfl (patch_of_memset f4) rfl
  exact st_one (st_set ev_lit rfl rfl rfl)

/-- ascon_provider.hpp 95-114. -/
def first : Stmt := .ite (.lnot (.var 4)) (.scope pad) (.scope (block [
  .ite (.bin .lt (.var 2) (.var 5)) (.scope (block [
    .decl .u64 (.cond (.bin .lt (.bin .sub (.var 5) (.var 2)) (.var 1)) (.bin .sub (.var 5) (.var 2)) (.var 1)),
    .memcpy (.var 0) (.bin .add (.recast 1 (.addr 2 (.lit (.i32 0)))) (.var 2)) (.var 7),
    .set 6 (.bin .add (.var 6) (.var 7)),
    .set 2 (.bin .add (.var 2) (.var 7))])) (.scope (block [
    .ite (.bin .eq (.var 2) (.var 5)) (.scope (block [.call 0 (.addr 1 (.lit (.i32 0))) (.lit (.i32 1))])) .skip]))]))

theorem first_run {out o1 : Bytes} {s s1 : Blk Model.Ascon.St} {rest : List Arr} (hN1 : 80 < N) (hout : out.length < 2 ^ 64) (hm : s.m.length = 64)
    (hp : s.pos ≤ 8) (hp' : s.h.squeezing = false → s.pos < 8) (hR : R s.h rest) (h : Model.Ascon.squeezeFirst out.length s = .ok (o1, s1)) :
    s1.h.H.length = 5 ∧ s1.m.length = 64 ∧ o1.length ≤ out.length ∧
      exec N (AsconCalls.calls N) first ⟨W out.length s.pos s.total s.h.squeezing [.u64 8, .u64 0], .a8 out :: .a8 s.m :: rest⟩ =
        some ⟨W out.length s1.pos s1.total s1.h.squeezing [.u64 8, .u64 (BitVec.ofNat 64 o1.length)], ar (fill o1 out) s1.m s1.h.H⟩ := by
  cases hq : s.h.squeezing with
  | false =>
    obtain ⟨rfl, l1, l2, x⟩ := pad_run (N := N) (out := out) hN1 hm (hp' hq) hq hR h
    exact ⟨l1, l2, Nat.zero_le _, st_then (ev_lnot (b := false) (ev_var rfl rfl) rfl) rfl (st_scope x rfl)⟩
  | true =>
    unfold Model.Ascon.squeezeFirst at h
    rw [if_neg (by rw [hq]; simp)] at h
    by_cases hlt : s.pos < 8
    · rw [if_pos hlt] at h
      obtain ⟨hH, rfl⟩ := hR
      obtain ⟨b, e1, e2⟩ := then_ok h
      obtain ⟨rfl, rfl⟩ := Prod.mk.inj (Except.ok.inj e2)
      have hb := readBytes_length e1
      refine ⟨hH, hm, by omega, ?_⟩
      rw [hb]
      generalize hk : min out.length (8 - s.pos) = k at e1 hb
      refine st_else (ev_lnot (b := true) (ev_var rfl rfl) rfl) rfl (st_scope (st_one (st_then (ev_bin (ev_var rfl rfl) (ev_var rfl rfl) rfl) ?_ (st_scope
        (vs' := W out.length (s.pos + k) s.total s.h.squeezing [.u64 8, .u64 (BitVec.ofNat 64 k), .u64 (BitVec.ofNat 64 k)]) ?_ rfl))) rfl)
      · exact truth_true (show (BitVec.ofNat 64 s.pos).toNat < 8 by simp only [BitVec.toNat_ofNat]; omega)
      refine st_cons (E1 := ⟨W out.length s.pos s.total true [.u64 8, .u64 0, .u64 (BitVec.ofNat 64 k)], ar out s.m s.h.H⟩) ?_ ?_
      · rw [← hk]
        exact st_decl (ev_min (by omega) (by omega) (ev_var rfl rfl) (ev_as (ev_bin (ev_var rfl rfl) (ev_var rfl rfl) rfl) (congrArg Val.u64 (sub64 (a := 8) (by omega) (by omega))))) rfl rfl
      refine st_cons (E1 := ⟨W out.length s.pos s.total true [.u64 8, .u64 0, .u64 (BitVec.ofNat 64 k)], ar (fill b out) s.m s.h.H⟩) ?_ ?_
      · exact st_memcpy (ev_var rfl rfl) (ev_move (n := s.pos) (ev_recast (ev_addr rfl ev_lit (n := 0) rfl (get64 (by omega)))) (ev_var rfl rfl) (count_u64 (by omega))) (ev_var rfl rfl)
          (count_u64 (by omega)) rfl rfl (by omega) (part64_at (by rw [show (Arr.a64 s.h.H).size * 0 + 1 * s.pos = s.pos by rw [Nat.mul_zero]; omega]; exact e1)) (patch_fill (o := []) (by simp; omega)) rfl
      refine st_cons (E1 := ⟨W out.length s.pos s.total true [.u64 8, .u64 (BitVec.ofNat 64 k), .u64 (BitVec.ofNat 64 k)], ar (fill b out) s.m s.h.H⟩) ?_ ?_
      · exact st_set (v := .u64 (BitVec.ofNat 64 k)) (ev_as (ev_bin (ev_var rfl rfl) (ev_var rfl rfl) rfl) (congrArg Val.u64 (BitVec.zero_add _))) rfl rfl rfl
      · rw [hq]
        exact st_one (st_set (v := .u64 (BitVec.ofNat 64 (s.pos + k))) (ev_as (ev_bin (ev_var rfl rfl) (ev_var rfl rfl) rfl) (by rw [BitVec.ofNat_add])) rfl rfl rfl)
    · have hpr : s.pos = 8 := by omega
      rw [if_neg hlt, if_pos hpr] at h
      obtain ⟨s2, e1, e2⟩ := then_ok h
      obtain ⟨rfl, rfl⟩ := Prod.mk.inj (Except.ok.inj e2)
      obtain ⟨f1, f2, f3, -, f5⟩ := transform_fields e1
      obtain ⟨h', rest', hs2, ⟨l, rfl⟩, x⟩ := call_run (N := N) (vs := W out.length s.pos s.total true [.u64 8, .u64 0]) (out := out) hN1 hm hR e1
      have hh : s2.h = h' := congrArg Blk.h hs2
      subst hh
      refine ⟨l, by rw [f1, hm], Nat.zero_le _, ?_⟩
      rw [f1, f2, f3, f5, hq]
      refine st_else (ev_lnot (b := true) (ev_var rfl rfl) rfl) rfl (st_scope (st_one (st_else (ev_bin (ev_var rfl rfl) (ev_var rfl rfl) rfl) ?_ (st_scope (st_one (st_then (ev_bin (ev_var rfl rfl) (ev_var rfl rfl) rfl) ?_
        (st_scope (st_one x) rfl))) rfl))) rfl)
      · exact truth_false (show ¬(BitVec.ofNat 64 s.pos).toNat < 8 by simp only [BitVec.toNat_ofNat]; omega)
      · exact truth_true (show BitVec.ofNat 64 s.pos = BitVec.ofNat 64 8 by rw [hpr])

theorem squeeze_run {out b : Bytes} {s s' : Blk Model.Ascon.St} {rest : List Arr} (hN1 : 80 < N) (hN : out.length < N) (hout : out.length < 2 ^ 64)
    (hm : s.m.length = 64) (hp : s.pos ≤ 8) (hp' : s.h.squeezing = false → s.pos < 8) (hR : R s.h rest) (h : Model.Ascon.squeeze out.length s = .ok (b, s')) :
    R s'.h [.a64 s'.h.H] ∧ AsconCalls.squeeze N ⟨own s.pos s.total s.h.squeezing, .a8 s.m :: rest⟩ out =
      some (b, ⟨own s'.pos s'.total s'.h.squeezing, [.a8 s'.m, .a64 s'.h.H]⟩) := by
  obtain ⟨⟨o1, s1⟩, e1, e2⟩ := then_ok h
  obtain ⟨l3, l4, l5, x⟩ := first_run (N := N) hN1 hout hm hp hp' hR e1
  obtain ⟨k3, k4, y⟩ := loop_run (N := N) hN1 hout out.length N o1 b s1 s' (by omega) (by omega) l5 l4 l3 e2
  refine ⟨⟨k3, rfl⟩, ?_⟩
  have z : exec N (AsconCalls.calls N) squeeze ⟨W out.length s.pos s.total s.h.squeezing [], .a8 out :: .a8 s.m :: rest⟩ =
      some ⟨W out.length s'.pos s'.total s'.h.squeezing [.u64 8, .u64 (BitVec.ofNat 64 out.length)], ar b s'.m s'.h.H⟩ := by
    show exec N (AsconCalls.calls N) (block [.decl .u64 (.bin .div (.lit (.u64 64)) (.lit (.i32 8))), .decl .u64 (.lit (.i32 0)), first, .while (.bin .lt (.var 6) (.var 1)) body]) _ = _
    refine st_cons (E1 := ⟨W out.length s.pos s.total s.h.squeezing [.u64 8], .a8 out :: .a8 s.m :: rest⟩)
      (st_decl (ev_quot (n := 64) (k := 8) (by decide) (by omega) ev_lit) rfl rfl) ?_
    refine st_cons (E1 := ⟨W out.length s.pos s.total s.h.squeezing [.u64 8, .u64 0], .a8 out :: .a8 s.m :: rest⟩)
      (st_decl ev_lit rfl rfl) ?_
    refine st_cons x (st_one ?_)
    rw [exec]
    exact y
  unfold AsconCalls.squeeze
  rw [z]
  rfl

end Digestpp.Cpp.Ascon
