import Verif.Proofs.Cpp.Esch

/-! C71, Esch: `update` and `squeeze`. -/

namespace Digestpp.Cpp.Esch
open Src Src.Esch
open Model (Blk memset setByte readBytes szSub szMod stores32)
open Absorb (absorb_any sub64 ev_move)
open Final
open Sha3 (succ64)
open Shake (ev_min readBytes_length fill patch_fill)
attribute [local irreducible] eval exec block

variable {N : Nat}

/-- The variables of an object. -/
abbrev own (pos : Nat) (t : BitVec 64) (q : Bool) : List Val := [.u64 (BitVec.ofNat 64 pos), .u64 t, .bool q]

/-- The variables of `squeeze`. -/
abbrev W (hss pos : Nat) (t : BitVec 64) (q : Bool) (more : List Val) : List Val :=
  .ptr 0 0 1 :: .u64 (BitVec.ofNat 64 hss) :: .u64 (BitVec.ofNat 64 pos) :: .u64 t :: .bool q :: more

theorem update_run {hs L : Nat} (hD : Dim hs L) {data : Bytes} {s s' : Blk Model.Esch.St} {rest : List Arr} (hd : data.length + 1000 < 2 ^ 64) (hN : data.length < N)
    (hN1 : 80 < N) (hm : s.m.length = 128) (hp : s.pos ≤ 16) (hR : R hs L s.h rest) (h : Model.Esch.update data s = .ok s') :
    ∃ e, exec N (EschCalls.calls N hs) update
      ⟨[.ptr 0 0 1, .u64 (BitVec.ofNat 64 data.length), .u64 (BitVec.ofNat 64 s.pos), .u64 s.total], .a8 data :: .a8 s.m :: rest⟩ = some e ∧
      ∃ rest', R hs L s'.h rest' ∧
        e = ⟨[.ptr 0 0 1, .u64 (BitVec.ofNat 64 data.length), .u64 (BitVec.ofNat 64 s'.pos), .u64 s'.total], .a8 data :: .a8 s'.m :: rest'⟩ := by
  unfold Model.Esch.update at h
  exact absorb_any (bs := 16) (bschk := 17) (v2 := .i32 17) (trans hD hN1) (by omega) (by omega) (by omega) (fun _ => ev_lit) rfl (fun _ => ev_bin ev_lit ev_lit rfl) rfl (by omega) hN (by omega) (by omega) (by omega) hp hR h

theorem part32_at {H : List (BitVec 32)} {o n : Nat} {b : Bytes} (h : readBytes (stores32 H) o n = .ok b) : (Arr.a32 H).part o n = some b := by
  have := part_of h
  unfold Arr.part at this ⊢
  rw [bytes_a32]
  exact this

theorem truth_u64 {t : BitVec 64} : truth (.u64 t) = some (decide (t ≠ 0)) := by
  show some (t != 0) = _
  congr 1
  by_cases h : t = 0
  · subst h; rfl
  · rw [decide_eq_true h, bne_iff_ne]; exact h

/-- The call of `sparkle` in the loop, esch_provider.hpp 154. -/
theorem mix_run {hs L : Nat} (hD : Dim hs L) {vs : List Val} {out m : Bytes} {H M : List (BitVec 32)} (hN : 80 < N) (hH : H.length = L) :
    (Model.Esch.sparkle (if hs > 256 then 8 else 6) (if hs > 256 then 8 else 7) H).length = L ∧
    exec N (EschCalls.calls N hs) (.call 1 (.cond (.bin .gt (.lit (.u64 (BitVec.ofNat 64 hs))) (.lit (.i32 256))) (.lit (.i32 8)) (.lit (.i32 6)))
      (.cond (.bin .gt (.lit (.u64 (BitVec.ofNat 64 hs))) (.lit (.i32 256))) (.lit (.i32 8)) (.lit (.i32 7)))) ⟨vs, arM out m H M⟩ =
      some ⟨vs, arM out m (Model.Esch.sparkle (if hs > 256 then 8 else 6) (if hs > 256 then 8 else 7) H) M⟩ := by
  obtain ⟨rfl, hL⟩ | ⟨rfl, hL⟩ := hD
  · obtain ⟨e, l⟩ := Proofs.Locals.Esch.sparkle_ok 6 7 (.inl rfl) L (by omega) H hH
    obtain ⟨x, -⟩ := sparkle_call (N := N) (vs := vs) (x0 := .a8 out) (x1 := .a8 m) (rest := [.a32 M]) hN (.inl rfl) (by omega) hH e
    exact ⟨l, st_call (xv := .i32 (6 : Nat)) (yv := .i32 (7 : Nat)) (ev_else (ev_bin ev_lit ev_lit rfl) rfl ev_lit) (ev_else (ev_bin ev_lit ev_lit rfl) rfl ev_lit) x⟩
  · obtain ⟨e, l⟩ := Proofs.Locals.Esch.sparkle_ok 8 8 (.inr rfl) L (by omega) H hH
    obtain ⟨x, -⟩ := sparkle_call (N := N) (vs := vs) (x0 := .a8 out) (x1 := .a8 m) (rest := [.a32 M]) hN (.inr rfl) (by omega) hH e
    exact ⟨l, st_call (xv := .i32 (8 : Nat)) (yv := .i32 (8 : Nat)) (ev_then (ev_bin ev_lit ev_lit rfl) rfl ev_lit) (ev_then (ev_bin ev_lit ev_lit rfl) rfl ev_lit) x⟩

/-- The body of the loop, esch_provider.hpp 151-159. -/
def body (hs : Nat) : Stmt := .scope (block [
  .ite (.lnot (.var 3)) (.scope (block [
    .call 1 (.cond (.bin .gt (.lit (.u64 (BitVec.ofNat 64 hs))) (.lit (.i32 256))) (.lit (.i32 8)) (.lit (.i32 6))) (.cond (.bin .gt (.lit (.u64 (BitVec.ofNat 64 hs))) (.lit (.i32 256))) (.lit (.i32 8)) (.lit (.i32 7)))])) .skip,
  .set 2 (.cond (.bin .lt (.cast .u64 (.lit (.i32 16))) (.bin .sub (.var 1) (.var 5))) (.cast .u64 (.lit (.i32 16))) (.bin .sub (.var 1) (.var 5))),
  .memcpy (.bin .add (.var 0) (.var 5)) (.addr 2 (.lit (.i32 0))) (.var 2),
  .set 5 (.bin .add (.var 5) (.var 2)),
  .set 3 (.lit (.i32 0))])

/-- The state after line 154. -/
def mixed (hs : Nat) (t : BitVec 64) (H : List (BitVec 32)) : List (BitVec 32) := if t = 0 then Model.Esch.sparkle (if hs > 256 then 8 else 6) (if hs > 256 then 8 else 7) H else H

theorem body_run {hs L pos : Nat} (hD : Dim hs L) {o c out m : Bytes} {t : BitVec 64} {q : Bool} {H M : List (BitVec 32)} (hN : 80 < N) (ho : o.length < out.length) (hout : out.length < 2 ^ 64)
    (hH : H.length = L) (h2 : readBytes (stores32 (mixed hs t H)) 0 (min (out.length - o.length) 16) = .ok c) :
    (mixed hs t H).length = L ∧ exec N (EschCalls.calls N hs) (body hs) ⟨W out.length pos t q [.u64 (BitVec.ofNat 64 o.length)], arM (fill o out) m H M⟩ =
        some ⟨W out.length (min (out.length - o.length) 16) 0 q [.u64 (BitVec.ofNat 64 (o ++ c).length)], arM (fill (o ++ c) out) m (mixed hs t H) M⟩ := by
  have hL : 12 ≤ L := by have := hD.le; split at this <;> omega
  obtain ⟨hH1, x⟩ : (mixed hs t H).length = L ∧
      exec N (EschCalls.calls N hs) (.ite (.lnot (.var 3)) (.scope (block [
        .call 1 (.cond (.bin .gt (.lit (.u64 (BitVec.ofNat 64 hs))) (.lit (.i32 256))) (.lit (.i32 8)) (.lit (.i32 6))) (.cond (.bin .gt (.lit (.u64 (BitVec.ofNat 64 hs))) (.lit (.i32 256))) (.lit (.i32 8)) (.lit (.i32 7)))])) .skip)
        ⟨W out.length pos t q [.u64 (BitVec.ofNat 64 o.length)], arM (fill o out) m H M⟩ =
        some ⟨W out.length pos t q [.u64 (BitVec.ofNat 64 o.length)], arM (fill o out) m (mixed hs t H) M⟩ := by
    by_cases h : t = 0
    · obtain ⟨l, x⟩ := mix_run (N := N) hD (vs := W out.length pos t q [.u64 (BitVec.ofNat 64 o.length)]) (out := fill o out) (m := m) (M := M) hN hH
      unfold mixed
      rw [if_pos h]
      exact ⟨l, st_then (ev_lnot (b := false) (ev_var rfl rfl) (by rw [truth_u64, decide_eq_false (by rw [h]; simp)])) rfl (st_scope (st_one x) rfl)⟩
    · unfold mixed
      rw [if_neg h]
      exact ⟨hH, st_else (ev_lnot (b := true) (ev_var rfl rfl) (by rw [truth_u64, decide_eq_true h])) rfl st_skip⟩
  refine ⟨hH1, ?_⟩
  have hc := readBytes_length h2
  generalize hk : min (out.length - o.length) 16 = k at h2 hc
  have hk1 : k ≤ out.length - o.length := by omega
  generalize mixed hs t H = H1 at x h2 hH1
  unfold body
  refine st_scope (vs' := W out.length k 0 q [.u64 (BitVec.ofNat 64 (o ++ c).length)]) (st_cons x ?_) rfl
  refine st_cons (E1 := ⟨W out.length k t q [.u64 (BitVec.ofNat 64 o.length)], arM (fill o out) m H1 M⟩) ?_ ?_
  · rw [← hk]
    exact st_set (ev_min (a := out.length - o.length) (b := 16) (by omega) (by omega)
      (ev_as (ev_bin (ev_var rfl rfl) (ev_var rfl rfl) rfl) (congrArg Val.u64 (sub64 (by omega) (by omega)))) (ev_cast ev_lit rfl)) rfl rfl rfl
  refine st_cons (E1 := ⟨W out.length k t q [.u64 (BitVec.ofNat 64 o.length)], arM (fill (o ++ c) out) m H1 M⟩) ?_ ?_
  · exact st_memcpy (ev_move (n := o.length) (ev_var rfl rfl) (ev_var rfl rfl) (count_u64 (by omega))) (ev_addr rfl ev_lit (n := 0) rfl (get32 (by omega))) (ev_var rfl rfl) (count_u64 (by omega)) rfl rfl
      (by omega) (part32_at h2) (patch_fill (by omega)) rfl
  refine st_cons (E1 := ⟨W out.length k t q [.u64 (BitVec.ofNat 64 (o ++ c).length)], arM (fill (o ++ c) out) m H1 M⟩) ?_ ?_
  · refine st_set (v := .u64 (BitVec.ofNat 64 (o ++ c).length)) (ev_as (ev_bin (ev_var rfl rfl) (ev_var rfl rfl) rfl) ?_) rfl rfl rfl
    rw [List.length_append, hc, BitVec.ofNat_add]
  · exact st_one (st_set ev_lit rfl rfl rfl)

/-- The loop, esch_provider.hpp 151-159. -/
theorem loop_run {hs L : Nat} (hD : Dim hs L) {out M : _} {N : Nat} (hN : 80 < N) (hout : out.length < 2 ^ 64)
    (fuel : Nat) : ∀ (K : Nat) (o b' : Bytes) (s s' : Blk Model.Esch.St), out.length - o.length < K → out.length - o.length ≤ fuel → o.length ≤ out.length →
      s.h.hs = hs → s.h.H.length = L → Model.Esch.squeezeLoop out.length fuel o s = .ok (b', s') →
      s'.h.hs = hs ∧ s'.h.H.length = L ∧ b'.length = out.length ∧
        iterate (fun E => test E (.bin .lt (.var 5) (.var 1))) (exec N (EschCalls.calls N hs) (body hs)) K
          ⟨W out.length s.pos s.total s.h.squeezing [.u64 (BitVec.ofNat 64 o.length)], arM (fill o out) s.m s.h.H M⟩ =
          some ⟨W out.length s'.pos s'.total s'.h.squeezing [.u64 (BitVec.ofNat 64 out.length)], arM b' s'.m s'.h.H M⟩ := by
  have hcond : ∀ (p : Nat) (t : BitVec 64) (q : Bool) (o : Bytes) (arrs : List Arr), o.length ≤ out.length →
      test ⟨W out.length p t q [.u64 (BitVec.ofNat 64 o.length)], arrs⟩ (.bin .lt (.var 5) (.var 1)) = some (decide (o.length < out.length)) := fun p t q o arrs h =>
    test_nat (ev_bin (ev_var rfl rfl) (ev_var rfl rfl) rfl) rfl (decide_eq_decide.2 (by simp only [BitVec.toNat_ofNat]; omega))
  have hdone : ∀ (K : Nat) (o : Bytes) (s : Blk Model.Esch.St), 0 < K → o.length = out.length →
      iterate (fun E => test E (.bin .lt (.var 5) (.var 1))) (exec N (EschCalls.calls N hs) (body hs)) K
          ⟨W out.length s.pos s.total s.h.squeezing [.u64 (BitVec.ofNat 64 o.length)], arM (fill o out) s.m s.h.H M⟩ =
          some ⟨W out.length s.pos s.total s.h.squeezing [.u64 (BitVec.ofNat 64 out.length)], arM o s.m s.h.H M⟩ := by
    intro K o s hK ho
    obtain ⟨K, rfl⟩ : ∃ k, K = k + 1 := ⟨K - 1, by omega⟩
    rw [iterate, hcond _ _ _ _ _ (by omega), decide_eq_false (by omega)]
    show some _ = _
    rw [ho, fill, List.drop_of_length_le (by omega), List.append_nil]
  induction fuel with
  | zero =>
    intro K o b' s s' hK hf ho hh hH h
    obtain ⟨rfl, rfl⟩ := Prod.mk.inj (Except.ok.inj h)
    exact ⟨hh, hH, by omega, hdone K o s (by omega) (by omega)⟩
  | succ fuel ih =>
    intro K o b' s s' hK hf ho hh hH h
    unfold Model.Esch.squeezeLoop at h
    by_cases hlt : o.length < out.length
    · rw [if_pos hlt] at h
      obtain ⟨c, e1, e2⟩ := then_ok h
      have hc := readBytes_length e1
      rw [hh] at e1 e2
      obtain ⟨l, x⟩ := body_run (N := N) (pos := s.pos) (t := s.total) (q := s.h.squeezing) (m := s.m) (M := M) hD hN hlt hout hH e1
      have hlen : (o ++ c).length = o.length + min (out.length - o.length) 16 := by rw [List.length_append, hc]
      obtain ⟨K, rfl⟩ : ∃ k, K = k + 1 := ⟨K - 1, by omega⟩
      obtain ⟨m0, m1, m2, y⟩ := ih K (o ++ c) b' { s with h := { s.h with H := mixed hs s.total s.h.H }, pos := min (out.length - o.length) 16, total := 0 } s' (by omega) (by omega) (by omega) hh l e2
      refine ⟨m0, m1, m2, ?_⟩
      rw [iterate, hcond _ _ _ _ _ (by omega), decide_eq_true hlt]
      show Option.bind (exec N (EschCalls.calls N hs) (body hs) _) _ = _
      rw [x]
      exact y
    · rw [if_neg hlt] at h
      obtain ⟨rfl, rfl⟩ := Prod.mk.inj (Except.ok.inj h)
      exact ⟨hh, hH, by omega, hdone K o s (by omega) (by omega)⟩

/-- The call of `transform` with the buffer `m`, esch_provider.hpp 140. -/
theorem call_run {hs L : Nat} (hD : Dim hs L) {vs : List Val} {out m : Bytes} {s s' : Blk Model.Esch.St} {rest : List Arr} (hN1 : 80 < N) (hm : m.length = 128) (hR : R hs L s.h rest)
    (h : Model.Esch.transform true m 1 s = .ok s') :
    ∃ h' rest', s' = { s with h := h' } ∧ R hs L h' rest' ∧ h'.squeezing = s.h.squeezing ∧ exec N (EschCalls.calls N hs) (.call 4 (.addr 1 (.lit (.i32 0))) (.lit (.i32 1))) ⟨vs, .a8 out :: .a8 m :: rest⟩ =
      some ⟨vs, .a8 out :: .a8 m :: rest'⟩ := by
  obtain ⟨h', rest', hh, r', hq, x⟩ := trans_call (N := N) (vs := vs) (data := out) (m := m) (src := m) (p := 1) (o := 0) (n := 1) (y := .i32 1) hD hN1 (.inr ⟨rfl, rfl⟩) (by omega) (by omega) (by omega) rfl hR h
  exact ⟨h', rest', hh, r', hq, st_call (ev_addr rfl ev_lit (n := 0) rfl (get8 (by omega))) ev_lit x⟩

/-- The index `(hs+128)/64 - 1`. -/
abbrev top (hs : Nat) : Expr := .bin .sub (.bin .div (.bin .add (.lit (.u64 (BitVec.ofNat 64 hs))) (.lit (.i32 128))) (.lit (.i32 64))) (.lit (.i32 1))

theorem ev_top {hs L : Nat} (hD : Dim hs L) {E : Env} : ∃ v, eval E (top hs) [] = some [v] ∧ count v = some ((hs + 128) / 64 - 1) := by
  obtain ⟨rfl, -⟩ | ⟨rfl, -⟩ := hD
  · exact ⟨.u64 5, ev_bin (ev_bin (ev_bin ev_lit ev_lit rfl) ev_lit rfl) ev_lit rfl, rfl⟩
  · exact ⟨.u64 7, ev_bin (ev_bin (ev_bin ev_lit ev_lit rfl) ev_lit rfl) ev_lit rfl, rfl⟩

/-- esch_provider.hpp 135 and 138. -/
theorem const_run {hs L : Nat} (hD : Dim hs L) {vs : List Val} {out m : Bytes} {h h' : Model.Esch.St} {rest : List Arr} {xof : Bool} {x y : Int} (hR : R hs L h rest)
    (e : Model.Esch.xorConst (if xof then BitVec.ofInt 32 x else BitVec.ofInt 32 y) h = .ok h') :
    ∃ rest', R hs L h' rest' ∧ h'.squeezing = h.squeezing ∧
      exec N (EschCalls.calls N hs) (.store 2 (top hs) (.bin .xor (.idx 2 (top hs)) (.cond (.lit (.bool xof)) (.lit (.i32 x)) (.lit (.i32 y))))) ⟨vs, .a8 out :: .a8 m :: rest⟩ =
        some ⟨vs, .a8 out :: .a8 m :: rest'⟩ := by
  obtain ⟨rfl, hH, M, hM, rfl⟩ := hR
  unfold Model.Esch.xorConst at e
  dsimp only at e
  split at e
  · next hi =>
    obtain rfl := Except.ok.inj e
    obtain ⟨v, hv, hc⟩ := ev_top hD (E := ⟨vs, arM out m h.H M⟩)
    refine ⟨_, ⟨rfl, by dsimp only; rw [List.length_set]; exact hH, M, hM, rfl⟩, rfl, ?_⟩
    cases xof
    · exact st_store (v := .u32 (h.H.getD ((h.hs + 128) / 64 - 1) 0 ^^^ BitVec.ofInt 32 y)) hv hc (ev_bin (ev_idx rfl hv hc (get32 hi)) (ev_else ev_lit rfl ev_lit) rfl) rfl (put32 rfl hi) rfl
    · exact st_store (v := .u32 (h.H.getD ((h.hs + 128) / 64 - 1) 0 ^^^ BitVec.ofInt 32 x)) hv hc (ev_bin (ev_idx rfl hv hc (get32 hi)) (ev_then ev_lit rfl ev_lit) rfl) rfl (put32 rfl hi) rfl
  · cases e

/-- esch_provider.hpp 131-139. -/
def mark (hs : Nat) (xof : Bool) : Stmt := .ite (.bin .lt (.var 2) (.lit (.i32 16))) (.scope (block [
    .memset (.addr 1 (.var 2)) (.lit (.i32 0)) (.bin .sub (.lit (.i32 16)) (.var 2)),
    .store 1 (.var 2) (.lit (.i32 0x80)),
    .store 2 (top hs) (.bin .xor (.idx 2 (top hs)) (.cond (.lit (.bool xof)) (.lit (.i32 0x5000000)) (.lit (.i32 0x1000000))))])) (.scope (block [
    .store 2 (top hs) (.bin .xor (.idx 2 (top hs)) (.cond (.lit (.bool xof)) (.lit (.i32 0x6000000)) (.lit (.i32 0x2000000))))]))

/-- esch_provider.hpp 129-140. -/
def pad (hs : Nat) (xof : Bool) : Stmt := block [
  .set 3 (.lit (.i32 1)),
  .set 4 (.lit (.bool true)),
  mark hs xof,
  .call 4 (.addr 1 (.lit (.i32 0))) (.lit (.i32 1))]

theorem mark_run {hs L hss pos : Nat} (hD : Dim hs L) {xof : Bool} {out m : Bytes} {t : BitVec 64} {q : Bool} {h : Model.Esch.St} {s' : Blk Model.Esch.St} {rest : List Arr} (hm : m.length = 128)
    (hp : pos ≤ 16) (hR : R hs L h rest)
    (e : (if pos < 16 then do
        let m ← memset m pos 0 (16 - pos)
        let m ← setByte m pos 0x80
        let h ← Model.Esch.xorConst (if xof then 0x5000000 else 0x1000000) h
        pure (Blk.mk h m pos t)
      else do
        let h ← Model.Esch.xorConst (if xof then 0x6000000 else 0x2000000) h
        pure (Blk.mk h m pos t) : M (Blk Model.Esch.St)) = .ok s') :
    ∃ rest', R hs L s'.h rest' ∧ s'.h.squeezing = h.squeezing ∧ s'.m.length = 128 ∧ s'.pos = pos ∧ s'.total = t ∧
      exec N (EschCalls.calls N hs) (mark hs xof) ⟨W hss pos t q [.u64 0], .a8 out :: .a8 m :: rest⟩ = some ⟨W hss pos t q [.u64 0], .a8 out :: .a8 s'.m :: rest'⟩ := by
  unfold mark
  by_cases hlt : pos < 16
  · rw [if_pos hlt] at e
    obtain ⟨m1, e1, e⟩ := then_ok e
    obtain ⟨m2, e2, e⟩ := then_ok e
    obtain ⟨h', e3, e⟩ := then_ok e
    obtain rfl := Except.ok.inj e
    obtain ⟨hp1, rfl⟩ := setByte_inv e2
    have l1 := memset_length e1
    obtain ⟨rest', r, hq, x⟩ := const_run (N := N) hD (vs := W hss pos t q [.u64 0]) (out := out) (m := m1.set pos 0x80) (x := 0x5000000) (y := 0x1000000) hR e3
    refine ⟨rest', r, hq, by dsimp only; rw [List.length_set, l1, hm], rfl, rfl, ?_⟩
    refine st_then (ev_bin (ev_var rfl rfl) ev_lit rfl) ?_ (st_scope (vs' := W hss pos t q [.u64 0]) ?_ rfl)
    · exact truth_true (show (BitVec.ofNat 64 pos).toNat < 16 by simp only [BitVec.toNat_ofNat]; omega)
    refine st_cons (E1 := ⟨W hss pos t q [.u64 0], .a8 out :: .a8 m1 :: rest⟩) ?_ ?_
    · exact st_memset (ev_elem (n := pos) (by omega) (ev_var rfl rfl) (count_u64 (by omega))) ev_lit
        (ev_as (ev_bin ev_lit (ev_var rfl rfl) rfl) (congrArg Val.u64 (sub64 (a := 16) (by omega) (by omega)))) (count_u64 (by omega)) rfl rfl (patch_of_memset e1) rfl
    refine st_cons (E1 := ⟨W hss pos t q [.u64 0], .a8 out :: .a8 (m1.set pos 0x80) :: rest⟩) ?_ (st_one x)
    exact st_store (n := pos) (ev_var rfl rfl) (count_u64 (by omega)) ev_lit rfl (put8 rfl (by omega)) rfl
  · rw [if_neg hlt] at e
    obtain ⟨h', e3, e⟩ := then_ok e
    obtain rfl := Except.ok.inj e
    obtain ⟨rest', r, hq, x⟩ := const_run (N := N) hD (vs := W hss pos t q [.u64 0]) (out := out) (m := m) (x := 0x6000000) (y := 0x2000000) hR e3
    refine ⟨rest', r, hq, hm, rfl, rfl, ?_⟩
    refine st_else (ev_bin (ev_var rfl rfl) ev_lit rfl) ?_ (st_scope (vs' := W hss pos t q [.u64 0]) (st_one x) rfl)
    exact truth_false (show ¬(BitVec.ofNat 64 pos).toNat < 16 by simp only [BitVec.toNat_ofNat]; omega)

theorem pad_run {hs L hss : Nat} (hD : Dim hs L) {xof : Bool} {out o1 : Bytes} {s s1 : Blk Model.Esch.St} {rest : List Arr} (hN1 : 80 < N) (hm : s.m.length = 128)
    (hp : s.pos ≤ 16) (hq : s.h.squeezing = false) (hR : R hs L s.h rest) (h : Model.Esch.squeezeFirst xof hss s = .ok (o1, s1)) :
    o1 = [] ∧ s1.m.length = 128 ∧ ∃ rest', R hs L s1.h rest' ∧
      exec N (EschCalls.calls N hs) (pad hs xof) ⟨W hss s.pos s.total false [.u64 0], .a8 out :: .a8 s.m :: rest⟩ =
        some ⟨W hss s1.pos s1.total s1.h.squeezing [.u64 0], .a8 out :: .a8 s1.m :: rest'⟩ := by
  unfold Model.Esch.squeezeFirst at h
  rw [if_pos (by rw [hq]; rfl)] at h
  obtain ⟨s2, e1, h⟩ := then_ok h
  obtain ⟨s3, e2, h⟩ := then_ok h
  obtain ⟨rfl, rfl⟩ := Prod.mk.inj (Except.ok.inj h)
  obtain ⟨rest2, r2, q2, l2, p2, t2, x⟩ := mark_run (N := N) (hss := hss) (q := true) (out := out) (h := { s.h with squeezing := true }) (t := 1) hD hm hp hR e1
  obtain ⟨h3, rest3, rfl, r3, q4, y⟩ := call_run (N := N) (vs := W hss s.pos 1 true [.u64 0]) (out := out) hD hN1 l2 r2 e2
  have q3 : h3.squeezing = true := q4.trans q2
  refine ⟨rfl, l2, rest3, r3, ?_⟩
  unfold pad
  refine st_cons (E1 := ⟨W hss s.pos 1 false [.u64 0], .a8 out :: .a8 s.m :: rest⟩) (st_set ev_lit rfl rfl rfl) ?_
  refine st_cons (E1 := ⟨W hss s.pos 1 true [.u64 0], .a8 out :: .a8 s.m :: rest⟩) (st_set ev_lit rfl rfl rfl) ?_
  refine st_cons x (st_one ?_)
  show exec N _ _ _ = some ⟨W hss s2.pos s2.total h3.squeezing [.u64 0], _⟩
  rw [p2, t2, q3]
  exact y

/-- esch_provider.hpp 127-149. -/
def first (hs : Nat) (xof : Bool) : Stmt := .ite (.lnot (.var 4)) (.scope (pad hs xof)) (.scope (block [
  .ite (.bin .lt (.var 2) (.lit (.i32 16))) (.scope (block [
    .decl .u64 (.cond (.bin .lt (.bin .sub (.lit (.i32 16)) (.var 2)) (.var 1)) (.bin .sub (.lit (.i32 16)) (.var 2)) (.var 1)),
    .memcpy (.var 0) (.bin .add (.recast 1 (.addr 2 (.lit (.i32 0)))) (.var 2)) (.var 6),
    .set 5 (.bin .add (.var 5) (.var 6)),
    .set 2 (.bin .add (.var 2) (.var 6)),
    .set 3 (.lit (.i32 0))])) .skip]))

theorem first_run {hs L : Nat} (hD : Dim hs L) {xof : Bool} {out o1 : Bytes} {s s1 : Blk Model.Esch.St} {rest : List Arr} (hN1 : 80 < N) (hout : out.length < 2 ^ 64) (hm : s.m.length = 128)
    (hp : s.pos ≤ 16) (hR : R hs L s.h rest) (h : Model.Esch.squeezeFirst xof out.length s = .ok (o1, s1)) :
    s1.m.length = 128 ∧ o1.length ≤ out.length ∧ ∃ rest', R hs L s1.h rest' ∧
      exec N (EschCalls.calls N hs) (first hs xof) ⟨W out.length s.pos s.total s.h.squeezing [.u64 0], .a8 out :: .a8 s.m :: rest⟩ =
        some ⟨W out.length s1.pos s1.total s1.h.squeezing [.u64 (BitVec.ofNat 64 o1.length)], .a8 (fill o1 out) :: .a8 s1.m :: rest'⟩ := by
  cases hq : s.h.squeezing with
  | false =>
    obtain ⟨rfl, l2, rest', r', x⟩ := pad_run (N := N) (out := out) hD hN1 hm hp hq hR h
    exact ⟨l2, Nat.zero_le _, rest', r', st_then (ev_lnot (b := false) (ev_var rfl rfl) rfl) rfl (st_scope x rfl)⟩
  | true =>
    unfold Model.Esch.squeezeFirst at h
    rw [if_neg (by rw [hq]; simp)] at h
    by_cases hlt : s.pos < 16
    · rw [if_pos hlt] at h
      obtain ⟨b, e1, e2⟩ := then_ok h
      obtain ⟨rfl, rfl⟩ := Prod.mk.inj (Except.ok.inj e2)
      have hb := readBytes_length e1
      have hL : 12 ≤ L := by have := hD.le; split at this <;> omega
      obtain ⟨r1, hH, M, hM, rfl⟩ := hR
      refine ⟨hm, by omega, _, ⟨r1, hH, M, hM, rfl⟩, ?_⟩
      rw [hb]
      generalize hk : min out.length (16 - s.pos) = k at e1 hb
      refine st_else (ev_lnot (b := true) (ev_var rfl rfl) rfl) rfl (st_scope (st_one (st_then (ev_bin (ev_var rfl rfl) ev_lit rfl) ?_ (st_scope
        (vs' := W out.length (s.pos + k) 0 s.h.squeezing [.u64 (BitVec.ofNat 64 k), .u64 (BitVec.ofNat 64 k)]) ?_ rfl))) rfl)
      · exact truth_true (show (BitVec.ofNat 64 s.pos).toNat < 16 by simp only [BitVec.toNat_ofNat]; omega)
      refine st_cons (E1 := ⟨W out.length s.pos s.total true [.u64 0, .u64 (BitVec.ofNat 64 k)], arM out s.m s.h.H M⟩) ?_ ?_
      · rw [← hk]
        exact st_decl (ev_min (by omega) (by omega) (ev_var rfl rfl) (ev_as (ev_bin ev_lit (ev_var rfl rfl) rfl) (congrArg Val.u64 (sub64 (a := 16) (by omega) (by omega))))) rfl rfl
      refine st_cons (E1 := ⟨W out.length s.pos s.total true [.u64 0, .u64 (BitVec.ofNat 64 k)], arM (fill b out) s.m s.h.H M⟩) ?_ ?_
      · exact st_memcpy (ev_var rfl rfl) (ev_move (n := s.pos) (ev_recast (ev_addr rfl ev_lit (n := 0) rfl (get32 (by omega)))) (ev_var rfl rfl) (count_u64 (by omega))) (ev_var rfl rfl)
          (count_u64 (by omega)) rfl rfl (by omega) (part32_at (by rw [show (Arr.a32 s.h.H).size * 0 + 1 * s.pos = s.pos by rw [Nat.mul_zero]; omega]; exact e1)) (patch_fill (o := []) (by simp; omega)) rfl
      refine st_cons (E1 := ⟨W out.length s.pos s.total true [.u64 (BitVec.ofNat 64 k), .u64 (BitVec.ofNat 64 k)], arM (fill b out) s.m s.h.H M⟩) ?_ ?_
      · exact st_set (v := .u64 (BitVec.ofNat 64 k)) (ev_as (ev_bin (ev_var rfl rfl) (ev_var rfl rfl) rfl) (congrArg Val.u64 (BitVec.zero_add _))) rfl rfl rfl
      refine st_cons (E1 := ⟨W out.length (s.pos + k) s.total true [.u64 (BitVec.ofNat 64 k), .u64 (BitVec.ofNat 64 k)], arM (fill b out) s.m s.h.H M⟩) ?_ ?_
      · exact st_set (v := .u64 (BitVec.ofNat 64 (s.pos + k))) (ev_as (ev_bin (ev_var rfl rfl) (ev_var rfl rfl) rfl) (by rw [BitVec.ofNat_add])) rfl rfl rfl
      · rw [hq]
        exact st_one (st_set ev_lit rfl rfl rfl)
    · rw [if_neg hlt] at h
      obtain ⟨rfl, rfl⟩ := Prod.mk.inj (Except.ok.inj h)
      refine ⟨hm, Nat.zero_le _, rest, hR, ?_⟩
      rw [hq]
      refine st_else (ev_lnot (b := true) (ev_var rfl rfl) rfl) rfl (st_scope (st_one (st_else (ev_bin (ev_var rfl rfl) ev_lit rfl) ?_ st_skip)) rfl)
      exact truth_false (show ¬(BitVec.ofNat 64 s.pos).toNat < 16 by simp only [BitVec.toNat_ofNat]; omega)

theorem squeeze_run {hs L : Nat} (hD : Dim hs L) {xof : Bool} {out b : Bytes} {s s' : Blk Model.Esch.St} {rest : List Arr} (hN1 : 80 < N) (hN : out.length < N) (hout : out.length < 2 ^ 64)
    (hm : s.m.length = 128) (hp : s.pos ≤ 16) (hR : R hs L s.h rest) (h : Model.Esch.squeeze xof out.length s = .ok (b, s')) :
    ∃ rest', R hs L s'.h rest' ∧ EschCalls.squeeze hs xof N ⟨own s.pos s.total s.h.squeezing, .a8 s.m :: rest⟩ out =
      some (b, ⟨own s'.pos s'.total s'.h.squeezing, .a8 s'.m :: rest'⟩) := by
  obtain ⟨⟨o1, s1⟩, e1, e2⟩ := then_ok h
  obtain ⟨l4, l5, rest1, ⟨r1, r2, M, hM, rfl⟩, x⟩ := first_run (N := N) hD hN1 hout hm hp hR e1
  obtain ⟨k1, k3, k4, y⟩ := loop_run (N := N) (M := M) hD hN1 hout out.length N o1 b s1 s' (by omega) (by omega) l5 r1 r2 e2
  refine ⟨_, ⟨k1, k3, M, hM, rfl⟩, ?_⟩
  have z : exec N (EschCalls.calls N hs) (squeeze hs xof) ⟨W out.length s.pos s.total s.h.squeezing [], .a8 out :: .a8 s.m :: rest⟩ =
      some ⟨W out.length s'.pos s'.total s'.h.squeezing [.u64 (BitVec.ofNat 64 out.length)], arM b s'.m s'.h.H M⟩ := by
    show exec N (EschCalls.calls N hs) (block [.decl .u64 (.lit (.i32 0)), first hs xof, .while (.bin .lt (.var 5) (.var 1)) (body hs)]) _ = _
    refine st_cons (E1 := ⟨W out.length s.pos s.total s.h.squeezing [.u64 0], .a8 out :: .a8 s.m :: rest⟩)
      (st_decl ev_lit rfl rfl) ?_
    refine st_cons x (st_one ?_)
    rw [exec]
    exact y
  unfold EschCalls.squeeze
  rw [z]
  rfl

end Digestpp.Cpp.Esch
