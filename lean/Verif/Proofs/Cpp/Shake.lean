import Verif.Cpp.Xof
import Verif.Proofs.Cpp.Sha3Hash
import Verif.Proofs.Shake

/-! C71, SHAKE: `init`, `update` and `squeeze`. -/

namespace Digestpp.Cpp.Shake
open Src Src.Shake
open Model (Blk memset memcpyTo setByte readBytes szSub szMod stores64)
open Absorb (absorb_any sub64 ev_move)
open Final
open Sha3 (ev_quot succ64 byte_or)

theorem ev_lor_false {E : Env} {as : List Val} {x y : Expr} {v w : Val} {b : Bool} (hx : eval E x as = some [v]) (h : truth v = some false) (hy : eval E y as = some [w])
    (hw : truth w = some b) : eval E (.lor x y) as = some [.bool b] := by
  unfold eval
  rw [hx]
  show (match truth v with
    | some false => match eval E y as with
      | some [y] => (truth y).map fun b => [Val.bool b]
      | _ => none
    | some true => some [.bool true]
    | none => none) = _
  rw [h, hy]
  show Option.map _ (truth w) = _
  rw [hw]
  rfl

attribute [local irreducible] eval exec block

variable {N : Nat} {ext : Nat → Val → Val → Env → Option Env}

/-- `A` is in the array after `m`, the local arrays of the permutation follow it. -/
def R (h : Model.Shake.St) (rest : List Arr) : Prop :=
  h.A.length = 25 ∧ ∃ C D : List (BitVec 64), C.length = 5 ∧ D.length = 5 ∧ rest = [.a64 h.A, .a64 C, .a64 D]

theorem trans {rate : Nat} (hN : 80 < N) (hr : rate ≤ 1600) (h8 : 8 ≤ rate) : Absorb.Trans N (rate / 8) R (Model.Shake.onBlocks 24 rate) (Xof.calls rate N) := by
  rintro data m src p o n y s s' rest vs hs hb hl hn hy ⟨hA, C, D, hC, hD, rfl⟩ h
  have hlen : n * (rate / 8) ≤ (src.drop o).length := by rw [List.length_drop]; omega
  have hk : Model.Locals.Sha3.Stack.Sized ⟨List.replicate 5 0, List.replicate 5 0⟩ := ⟨List.length_replicate, List.length_replicate⟩
  unfold Model.Shake.onBlocks at h
  rw [← Proofs.Locals.Sha3.transform_eq (fun _ _ => ⟨List.replicate 5 0, List.replicate 5 0⟩) (fun _ _ => hk) 24 rate (by decide) hr _ _ hlen _ hA] at h
  obtain ⟨A', e1, e2⟩ := then_ok h
  obtain rfl := Except.ok.inj e2
  obtain ⟨e, x, more, C', D', lC, lD, lA, rfl⟩ := Sha3.transform_run (N := N) (ext := fun _ _ _ _ => none) (m := m) _ hk hN hn hs hr h8 hl hlen hA hC hD e1
  exact ⟨_, _, rfl, ⟨lA, C', D', lC, lD, rfl⟩, invoke_run (f := 0) hy x⟩

theorem permute_call {rate : Nat} {vs : List Val} {y : Val} {data m : Bytes} {A C D : List (BitVec 64)} (hN : 80 < N) (hA : A.length = 25) (hC : C.length = 5) (hD : D.length = 5) :
    ∃ C' D' : List (BitVec 64), C'.length = 5 ∧ D'.length = 5 ∧ (Model.Sha3.permute 24 A).length = 25 ∧
      Xof.calls rate N 1 (.ptr 2 0 8) y ⟨vs, Sha3.ar data m A C D⟩ = some ⟨vs, Sha3.ar data m (Model.Sha3.permute 24 A) C' D'⟩ := by
  obtain ⟨C', D', h1, h2, h3, x⟩ := Sha3.permute_run (N := N) (ext := fun _ _ _ _ => none) (v0 := .undef .u64) (v1 := .undef .u64) (v2 := .undef .u64) (v3 := .undef .u64) (v4 := .undef .u64)
    (data := data) (m := m) hN hA hC hD
  refine ⟨C', D', h1, h2, h3, ?_⟩
  show Option.map _ (exec N _ Src.Sha3.permute _) = _
  rw [x]
  rfl

/-- The variables of an object. -/
abbrev own (pos : Nat) (t : BitVec 64) (q : Bool) (f : BitVec 8) (a b : Bool) : List Val := [.u64 (BitVec.ofNat 64 pos), .u64 t, .bool q, .u8 f, .bool a, .bool b]

/-- The variables of `squeeze`. -/
abbrev W (hs pos : Nat) (t : BitVec 64) (q : Bool) (f : BitVec 8) (a b : Bool) (more : List Val) : List Val :=
  .ptr 0 0 1 :: .u64 (BitVec.ofNat 64 hs) :: .u64 (BitVec.ofNat 64 pos) :: .u64 t :: .bool q :: .u8 f :: .bool a :: .bool b :: more

theorem update_run {rate : Nat} {data : Bytes} {s s' : Blk Model.Shake.St} {rest : List Arr} (hr : rate ≤ 1344) (h8 : 8 ≤ rate) (hd : data.length + 1000 < 2 ^ 64) (hN : data.length < N)
    (hN1 : 80 < N) (hm : s.m.length = 168) (hp : s.pos ≤ rate / 8) (hR : R s.h rest) (h : Model.Shake.update 24 rate data s = .ok s') :
    ∃ e, exec N (Xof.calls rate N) (update rate)
      ⟨[.ptr 0 0 1, .u64 (BitVec.ofNat 64 data.length), .u64 (BitVec.ofNat 64 s.pos), .u64 s.total], .a8 data :: .a8 s.m :: rest⟩ = some e ∧
      ∃ rest', R s'.h rest' ∧
        e = ⟨[.ptr 0 0 1, .u64 (BitVec.ofNat 64 data.length), .u64 (BitVec.ofNat 64 s'.pos), .u64 s'.total], .a8 data :: .a8 s'.m :: rest'⟩ := by
  unfold Model.Shake.update at h
  exact absorb_any (trans hN1 (by omega) h8) (by omega) (Nat.le_refl _) (by omega) (fun _ => ev_quot (k := 8) (by decide) (by omega) ev_lit) rfl
    (fun _ => ev_quot (k := 8) (by decide) (by omega) ev_lit) rfl (by omega) hN (by omega) (by omega) (by omega) hp hR h

/-- `std::min`. -/
theorem ev_min {E : Env} {x y : Expr} {a b : Nat} (ha : a < 2 ^ 64) (hb : b < 2 ^ 64) (hx : eval E x [] = some [.u64 (BitVec.ofNat 64 a)]) (hy : eval E y [] = some [.u64 (BitVec.ofNat 64 b)]) :
    eval E (.cond (.bin .lt y x) y x) [] = some [.u64 (BitVec.ofNat 64 (min a b))] := by
  have hc := ev_bin (o := .lt) hy hx (r := .bool (decide ((BitVec.ofNat 64 b).toNat < (BitVec.ofNat 64 a).toNat))) rfl
  rw [BitVec.toNat_ofNat, BitVec.toNat_ofNat, Nat.mod_eq_of_lt ha, Nat.mod_eq_of_lt hb] at hc
  by_cases h : b < a
  · rw [Nat.min_eq_right (by omega)]
    exact ev_then hc (truth_true h) hy
  · rw [Nat.min_eq_left (by omega)]
    exact ev_else hc (truth_false h) hx

theorem part64_at {H : List (BitVec 64)} {o n : Nat} {b : Bytes} (h : readBytes (stores64 H) o n = .ok b) : (Arr.a64 H).part o n = some b := by
  have := part_of h
  unfold Arr.part at this ⊢
  rw [bytes_a64]
  exact this

theorem readBytes_length {xs b : Bytes} {o n : Nat} (h : readBytes xs o n = .ok b) : b.length = n := by
  unfold readBytes at h
  split at h
  · rw [← Except.ok.inj h, List.length_take, List.length_drop]; omega
  · cases h

theorem truth_nonzero {n : Nat} (hn : n < 2 ^ 64) : truth (.u64 (BitVec.ofNat 64 n)) = some (decide (n ≠ 0)) := by
  show some (BitVec.ofNat 64 n != 0) = _
  congr 1
  by_cases h : n = 0
  · subst h; rfl
  · rw [decide_eq_true h, bne_iff_ne]
    intro h0
    have := congrArg BitVec.toNat h0
    rw [BitVec.toNat_ofNat, Nat.mod_eq_of_lt hn] at this
    exact h this

/-- The bytes written so far, and the rest of the buffer. -/
abbrev fill (b out : Bytes) : Bytes := b ++ out.drop b.length

theorem patch_fill {o b out : Bytes} (h : o.length + b.length ≤ out.length) : (Arr.a8 (fill o out)).patch (0 + 1 * o.length) b = some (.a8 (fill (o ++ b) out)) := by
  have hl : (fill o out).length = out.length := by rw [List.length_append, List.length_drop]; omega
  unfold Arr.patch
  show (if 0 + 1 * o.length + b.length ≤ (fill o out).length then some (Arr.a8 ((fill o out).take (0 + 1 * o.length) ++ b ++ (fill o out).drop (0 + 1 * o.length + b.length))) else none) = _
  rw [if_pos (by omega), show 0 + 1 * o.length = o.length by omega]
  congr 2
  rw [List.take_left, List.drop_append, List.drop_of_length_le (by omega), List.nil_append, show o.length + b.length - o.length = b.length by omega, List.drop_drop, fill, List.length_append]

/-- The body of the loop, shake_provider.hpp 148-155. -/
def body : Stmt := .scope (block [
  .ite (.var 9) (.scope (block [.call 1 (.addr 2 (.lit (.i32 0))) (.lit (.i32 0))])) .skip,
  .set 2 (.cond (.bin .lt (.var 8) (.bin .sub (.var 1) (.var 9))) (.var 8) (.bin .sub (.var 1) (.var 9))),
  .memcpy (.bin .add (.var 0) (.var 9)) (.addr 2 (.lit (.i32 0))) (.var 2),
  .set 9 (.bin .add (.var 9) (.var 2))])

theorem body_run {rate r pos : Nat} {t : BitVec 64} {q a b : Bool} {f : BitVec 8} {o c out m : Bytes} {A A1 C D : List (BitVec 64)} (hN : 80 < N) (hr : r < 2 ^ 32) (ho : o.length < out.length)
    (hout : out.length < 2 ^ 64) (hA : A.length = 25) (hC : C.length = 5) (hD : D.length = 5) (h1 : A1 = if o.length ≠ 0 then Model.Sha3.permute 24 A else A)
    (h2 : readBytes (stores64 A1) 0 (min (out.length - o.length) r) = .ok c) :
    ∃ C' D' : List (BitVec 64), C'.length = 5 ∧ D'.length = 5 ∧ A1.length = 25 ∧
      exec N (Xof.calls rate N) body ⟨W out.length pos t q f a b [.u64 (BitVec.ofNat 64 r), .u64 (BitVec.ofNat 64 o.length)], Sha3.ar (fill o out) m A C D⟩ =
        some ⟨W out.length (min (out.length - o.length) r) t q f a b [.u64 (BitVec.ofNat 64 r), .u64 (BitVec.ofNat 64 (o ++ c).length)], Sha3.ar (fill (o ++ c) out) m A1 C' D'⟩ := by
  obtain ⟨C', D', hC', hD', hA1, x⟩ : ∃ C' D' : List (BitVec 64), C'.length = 5 ∧ D'.length = 5 ∧ A1.length = 25 ∧
      exec N (Xof.calls rate N) (.ite (.var 9) (.scope (block [.call 1 (.addr 2 (.lit (.i32 0))) (.lit (.i32 0))])) .skip)
        ⟨W out.length pos t q f a b [.u64 (BitVec.ofNat 64 r), .u64 (BitVec.ofNat 64 o.length)], Sha3.ar (fill o out) m A C D⟩ =
        some ⟨W out.length pos t q f a b [.u64 (BitVec.ofNat 64 r), .u64 (BitVec.ofNat 64 o.length)], Sha3.ar (fill o out) m A1 C' D'⟩ := by
    have ht := truth_nonzero (n := o.length) (by omega)
    by_cases h : o.length = 0
    · rw [if_neg (by omega)] at h1
      rw [decide_eq_false (by omega)] at ht
      subst h1
      exact ⟨C, D, hC, hD, hA, st_else (ev_var rfl rfl) ht st_skip⟩
    · rw [if_pos h] at h1
      rw [decide_eq_true h] at ht
      obtain ⟨C', D', hC', hD', hA1, x⟩ := permute_call (N := N) (rate := rate) (vs := W out.length pos t q f a b [.u64 (BitVec.ofNat 64 r), .u64 (BitVec.ofNat 64 o.length)]) (y := .i32 0)
        (data := fill o out) (m := m) hN hA hC hD
      rw [← h1] at x hA1
      exact ⟨C', D', hC', hD', hA1, st_then (ev_var rfl rfl) ht (st_scope (st_one (st_call (ev_addr rfl ev_lit (n := 0) rfl (get64 (by omega))) ev_lit x)) rfl)⟩
  refine ⟨C', D', hC', hD', hA1, ?_⟩
  have hc := readBytes_length h2
  generalize hk : min (out.length - o.length) r = k at h2 hc
  have hk1 : k ≤ out.length - o.length := by omega
  unfold body
  refine st_scope (vs' := W out.length k t q f a b [.u64 (BitVec.ofNat 64 r), .u64 (BitVec.ofNat 64 (o ++ c).length)]) (st_cons x ?_) rfl
  refine st_cons (E1 := ⟨W out.length k t q f a b [.u64 (BitVec.ofNat 64 r), .u64 (BitVec.ofNat 64 o.length)], Sha3.ar (fill o out) m A1 C' D'⟩) ?_ ?_
  · rw [← hk]
    exact st_set (ev_min (a := out.length - o.length) (b := r) (by omega) (by omega)
      (ev_as (ev_bin (ev_var rfl rfl) (ev_var rfl rfl) rfl) (congrArg Val.u64 (sub64 (by omega) (by omega)))) (ev_var rfl rfl)) rfl rfl rfl
  refine st_cons (E1 := ⟨W out.length k t q f a b [.u64 (BitVec.ofNat 64 r), .u64 (BitVec.ofNat 64 o.length)], Sha3.ar (fill (o ++ c) out) m A1 C' D'⟩) ?_ ?_
  · exact st_memcpy (ev_move (n := o.length) (ev_var rfl rfl) (ev_var rfl rfl) (count_u64 (by omega))) (ev_addr rfl ev_lit (n := 0) rfl (get64 (by omega))) (ev_var rfl rfl) (count_u64 (by omega)) rfl rfl
      (by omega) (part64_at h2) (patch_fill (by omega)) rfl
  · refine st_one (st_set (v := .u64 (BitVec.ofNat 64 (o ++ c).length)) (ev_as (ev_bin (ev_var rfl rfl) (ev_var rfl rfl) rfl) ?_) rfl rfl rfl)
    rw [List.length_append, hc, BitVec.ofNat_add]

/-- The loop, shake_provider.hpp 148-155. -/
theorem loop_run {rate r : Nat} {t : BitVec 64} {q a b : Bool} {f : BitVec 8} {out m : Bytes} (hN : 80 < N) (hr : r < 2 ^ 32) (hr0 : 0 < r) (hout : out.length < 2 ^ 64)
    (fuel : Nat) : ∀ (K : Nat) (o b' : Bytes) (s s' : Blk Model.Shake.St) (C D : List (BitVec 64)), out.length - o.length < K → out.length - o.length ≤ fuel → o.length ≤ out.length →
      s.h.A.length = 25 → C.length = 5 → D.length = 5 → Model.Shake.squeezeLoop 24 r out.length fuel o s = .ok (b', s') →
      ∃ C' D' : List (BitVec 64), C'.length = 5 ∧ D'.length = 5 ∧ s'.h.A.length = 25 ∧ b'.length = out.length ∧
        iterate (fun E => test E (.bin .lt (.var 9) (.var 1))) (exec N (Xof.calls rate N) body) K
          ⟨W out.length s.pos t q f a b [.u64 (BitVec.ofNat 64 r), .u64 (BitVec.ofNat 64 o.length)], Sha3.ar (fill o out) m s.h.A C D⟩ =
          some ⟨W out.length s'.pos t q f a b [.u64 (BitVec.ofNat 64 r), .u64 (BitVec.ofNat 64 out.length)], Sha3.ar b' m s'.h.A C' D'⟩ := by
  have hcond : ∀ (p : Nat) (o : Bytes) (arrs : List Arr), o.length ≤ out.length →
      test ⟨W out.length p t q f a b [.u64 (BitVec.ofNat 64 r), .u64 (BitVec.ofNat 64 o.length)], arrs⟩ (.bin .lt (.var 9) (.var 1)) = some (decide (o.length < out.length)) := fun p o arrs h =>
    test_nat (ev_bin (ev_var rfl rfl) (ev_var rfl rfl) rfl) rfl (decide_eq_decide.2 (by simp only [BitVec.toNat_ofNat]; omega))
  have hdone : ∀ (K : Nat) (o : Bytes) (s : Blk Model.Shake.St) (C D : List (BitVec 64)), 0 < K → o.length = out.length →
      iterate (fun E => test E (.bin .lt (.var 9) (.var 1))) (exec N (Xof.calls rate N) body) K
          ⟨W out.length s.pos t q f a b [.u64 (BitVec.ofNat 64 r), .u64 (BitVec.ofNat 64 o.length)], Sha3.ar (fill o out) m s.h.A C D⟩ =
          some ⟨W out.length s.pos t q f a b [.u64 (BitVec.ofNat 64 r), .u64 (BitVec.ofNat 64 out.length)], Sha3.ar o m s.h.A C D⟩ := by
    intro K o s C D hK ho
    obtain ⟨K, rfl⟩ : ∃ k, K = k + 1 := ⟨K - 1, by omega⟩
    rw [iterate, hcond _ _ _ (by omega), decide_eq_false (by omega)]
    show some _ = _
    rw [ho, fill, List.drop_of_length_le (by omega), List.append_nil]
  induction fuel with
  | zero =>
    intro K o b' s s' C D hK hf ho hA hC hD h
    obtain ⟨rfl, rfl⟩ := Prod.mk.inj (Except.ok.inj h)
    exact ⟨C, D, hC, hD, hA, by omega, hdone K o s C D (by omega) (by omega)⟩
  | succ fuel ih =>
    intro K o b' s s' C D hK hf ho hA hC hD h
    unfold Model.Shake.squeezeLoop at h
    by_cases hlt : o.length < out.length
    · rw [if_pos hlt] at h
      obtain ⟨c, e1, e2⟩ := then_ok h
      obtain ⟨A1, hA1⟩ : ∃ A1, A1 = if o.length ≠ 0 then Model.Sha3.permute 24 s.h.A else s.h.A := ⟨_, rfl⟩
      rw [← hA1] at e1 e2
      have hc := readBytes_length e1
      obtain ⟨C1, D1, l1, l2, l3, x⟩ := body_run (N := N) (rate := rate) (pos := s.pos) (t := t) (q := q) (a := a) (b := b) (f := f) (m := m) hN hr hlt hout hA hC hD hA1 e1
      have hlen : (o ++ c).length = o.length + min (out.length - o.length) r := by rw [List.length_append, hc]
      obtain ⟨K, rfl⟩ : ∃ k, K = k + 1 := ⟨K - 1, by omega⟩
      obtain ⟨C2, D2, m1, m2, m3, m4, y⟩ := ih K (o ++ c) b' _ s' C1 D1 (by omega) (by omega) (by omega) l3 l1 l2 e2
      refine ⟨C2, D2, m1, m2, m3, m4, ?_⟩
      rw [iterate, hcond _ _ _ (by omega), decide_eq_true hlt]
      show Option.bind (exec N (Xof.calls rate N) body _) _ = _
      rw [x]
      exact y
    · rw [if_neg hlt] at h
      obtain ⟨rfl, rfl⟩ := Prod.mk.inj (Except.ok.inj h)
      exact ⟨C, D, hC, hD, hA, by omega, hdone K o s C D (by omega) (by omega)⟩

/-- shake_provider.hpp 128-136, the branch. -/
def pad : Stmt := block [
  .store 1 (.var 2) (.cond (.var 5) (.var 5) (.cond (.land (.var 6) (.var 7)) (.lit (.i32 0x1F)) (.lit (.i32 0x04)))),
  .set 2 (.bin .add (.var 2) (.lit (.i32 1))),
  .ite (.bin .ne (.var 8) (.var 2)) (.scope (block [.memset (.addr 1 (.var 2)) (.lit (.i32 0)) (.bin .sub (.var 8) (.var 2))])) .skip,
  .store 1 (.bin .sub (.var 8) (.lit (.i32 1))) (.bin .or (.idx 1 (.bin .sub (.var 8) (.lit (.i32 1)))) (.lit (.i32 0x80))),
  .call 0 (.addr 1 (.lit (.i32 0))) (.lit (.i32 1)),
  .set 4 (.lit (.bool true))]

/-- The value of the first padding byte, shake_provider.hpp 130. -/
theorem domain_run {hs pos : Nat} {t : BitVec 64} {q : Bool} {more : List Val} {arrs : List Arr} (h : Model.Shake.St) :
    ∃ v, eval ⟨W hs pos t q h.suffix h.N.isEmpty h.S.isEmpty more, arrs⟩ (.cond (.var 5) (.var 5) (.cond (.land (.var 6) (.var 7)) (.lit (.i32 0x1F)) (.lit (.i32 0x04)))) [] = some [v] ∧
      conv .u8 v = some (.u8 (Model.Shake.domain h)) := by
  unfold Model.Shake.domain
  by_cases h0 : h.suffix = 0
  · rw [if_neg (by simp [h0])]
    have hz : truth (.u8 h.suffix) = some false := by rw [h0]; rfl
    cases hN : h.N.isEmpty <;> cases hS : h.S.isEmpty
    · exact ⟨_, ev_else (ev_var rfl rfl) hz (ev_else (ev_land_false (ev_var rfl rfl) rfl) rfl ev_lit), rfl⟩
    · exact ⟨_, ev_else (ev_var rfl rfl) hz (ev_else (ev_land_false (ev_var rfl rfl) rfl) rfl ev_lit), rfl⟩
    · exact ⟨_, ev_else (ev_var rfl rfl) hz (ev_else (ev_land_true (ev_var rfl rfl) rfl (ev_var rfl rfl) rfl) rfl ev_lit), rfl⟩
    · exact ⟨_, ev_else (ev_var rfl rfl) hz (ev_then (ev_land_true (ev_var rfl rfl) rfl (ev_var rfl rfl) rfl) rfl ev_lit), rfl⟩
  · rw [if_pos h0]
    refine ⟨.u8 h.suffix, ev_then (ev_var rfl rfl) ?_ (ev_var rfl rfl), rfl⟩
    show some (h.suffix != 0) = _
    rw [bne_iff_ne.2 h0]

theorem pad_run {hs rate : Nat} {q : Bool} {out m' : Bytes} {A' : List (BitVec 64)} {s : Blk Model.Shake.St} {rest : List Arr} (hr : rate ≤ 1344) (h8 : 8 ≤ rate) (hN1 : 80 < N) (hm : s.m.length = 168)
    (hp : s.pos < rate / 8) (hR : R s.h rest) (h : Model.Sha3.padLast 24 rate (Model.Shake.domain s.h) s.m s.pos s.h.A = .ok (m', A')) :
    ∃ C D : List (BitVec 64), C.length = 5 ∧ D.length = 5 ∧ A'.length = 25 ∧ m'.length = 168 ∧
      exec N (Xof.calls rate N) pad ⟨W hs s.pos s.total q s.h.suffix s.h.N.isEmpty s.h.S.isEmpty [.u64 (BitVec.ofNat 64 (rate / 8)), .u64 0], .a8 out :: .a8 s.m :: rest⟩ =
        some ⟨W hs (s.pos + 1) s.total true s.h.suffix s.h.N.isEmpty s.h.S.isEmpty [.u64 (BitVec.ofNat 64 (rate / 8)), .u64 0], Sha3.ar out m' A' C D⟩ := by
  obtain ⟨m1, f1, e1⟩ := then_ok h
  obtain ⟨hp1, rfl⟩ := setByte_inv f1
  have l1 : (s.m.set s.pos (Model.Shake.domain s.h)).length = 168 := by rw [List.length_set, hm]
  generalize hM1 : s.m.set s.pos (Model.Shake.domain s.h) = m1 at e1 l1
  obtain ⟨m2, f2, e1⟩ := then_ok e1
  obtain ⟨c, f3, e1⟩ := then_ok e1
  obtain ⟨m4, f4, e1⟩ := then_ok e1
  obtain ⟨A1, f5, e1⟩ := then_ok e1
  obtain ⟨rfl, rfl⟩ := Prod.mk.inj (Except.ok.inj e1)
  have hsz : szSub (rate / 8) 1 = rate / 8 - 1 := by unfold szSub szMod; omega
  rw [hsz] at f3 f4
  have l2 : m2.length = 168 := by
    unfold Model.Sha3.zeroFill at f2
    split at f2
    · rw [memset_length f2, l1]
    · rw [← Except.ok.inj f2, l1]
  obtain ⟨hp2, rfl⟩ := setByte_inv f4
  have hc : c.getD 0 0 = m2.getD (rate / 8 - 1) 0 := by
    unfold readBytes at f3
    split at f3
    · rw [← Except.ok.inj f3]
      simp only [List.getD_eq_getElem?_getD, List.getElem?_take, List.getElem?_drop]
      simp
    · cases f3
  have l4 : (m2.set (rate / 8 - 1) (c.getD 0 0 ||| 0x80)).length = 168 := by rw [List.length_set, l2]
  have hcall : Model.Shake.onBlocks 24 rate (m2.set (rate / 8 - 1) (c.getD 0 0 ||| 0x80)) 1 s = .ok { s with h := { s.h with A := A1 } } := by
    unfold Model.Shake.onBlocks
    rw [f5]
    rfl
  have l5 := l4
  rw [hc] at hcall l4
  obtain ⟨h', rest', hh, r', x⟩ := trans hN1 (by omega) h8 out _ _ 1 0 1 (.i32 1) s _ rest
    (W hs (s.pos + 1) s.total q s.h.suffix s.h.N.isEmpty s.h.S.isEmpty [.u64 (BitVec.ofNat 64 (rate / 8)), .u64 0]) (.inr ⟨rfl, rfl⟩) (by omega) (by omega) (by omega) rfl hR hcall
  have hh' : { s.h with A := A1 } = h' := congrArg Blk.h hh
  subst hh'
  obtain ⟨lA, C', D', lC, lD, rfl⟩ := r'
  refine ⟨C', D', lC, lD, lA, l5, ?_⟩
  rw [hc]
  have e3 : ∀ (m : Bytes) (rest : List Arr), eval ⟨W hs (s.pos + 1) s.total q s.h.suffix s.h.N.isEmpty s.h.S.isEmpty [.u64 (BitVec.ofNat 64 (rate / 8)), .u64 0], .a8 out :: .a8 m :: rest⟩
      (.bin .sub (.var 8) (.lit (.i32 1))) [] = some [.u64 (BitVec.ofNat 64 (rate / 8 - 1))] := fun m rest =>
    ev_as (ev_bin (ev_var rfl rfl) ev_lit rfl) (congrArg Val.u64 (sub64 (b := 1) (by omega) (by omega)))
  unfold pad
  obtain ⟨v, hv1, hv2⟩ := domain_run (hs := hs) (pos := s.pos) (t := s.total) (q := q) (more := [.u64 (BitVec.ofNat 64 (rate / 8)), .u64 0]) (arrs := .a8 out :: .a8 s.m :: rest) s.h
  refine st_cons (E1 := ⟨W hs s.pos s.total q s.h.suffix s.h.N.isEmpty s.h.S.isEmpty [.u64 (BitVec.ofNat 64 (rate / 8)), .u64 0], .a8 out :: .a8 m1 :: rest⟩) ?_ ?_
  · rw [← hM1]
    exact st_store (n := s.pos) (ev_var rfl rfl) (count_u64 (by omega)) hv1 rfl (put8 hv2 (by omega)) rfl
  refine st_cons (E1 := ⟨W hs (s.pos + 1) s.total q s.h.suffix s.h.N.isEmpty s.h.S.isEmpty [.u64 (BitVec.ofNat 64 (rate / 8)), .u64 0], .a8 out :: .a8 m1 :: rest⟩) ?_ ?_
  · exact st_set (v := .u64 (BitVec.ofNat 64 (s.pos + 1))) (ev_as (ev_bin (ev_var rfl rfl) ev_lit rfl) (congrArg Val.u64 succ64)) rfl rfl rfl
  refine st_cons (E1 := ⟨W hs (s.pos + 1) s.total q s.h.suffix s.h.N.isEmpty s.h.S.isEmpty [.u64 (BitVec.ofNat 64 (rate / 8)), .u64 0], .a8 out :: .a8 m2 :: rest⟩) ?_ ?_
  · have hb := ev_bin (o := .ne) (E := ⟨W hs (s.pos + 1) s.total q s.h.suffix s.h.N.isEmpty s.h.S.isEmpty [.u64 (BitVec.ofNat 64 (rate / 8)), .u64 0], .a8 out :: .a8 m1 :: rest⟩) (as := []) (x := .var 8) (y := .var 2)
      (ev_var rfl rfl) (ev_var rfl rfl) (r := .bool (!decide (BitVec.ofNat 64 (rate / 8) = BitVec.ofNat 64 (s.pos + 1)))) rfl
    unfold Model.Sha3.zeroFill at f2
    by_cases he : rate / 8 = s.pos + 1
    · rw [if_neg (by omega)] at f2
      obtain rfl := Except.ok.inj f2
      exact st_else hb (by rw [decide_eq_true (by rw [he])]; rfl) st_skip
    · have hne : ¬BitVec.ofNat 64 (rate / 8) = BitVec.ofNat 64 (s.pos + 1) := by
        intro h0
        have := congrArg BitVec.toNat h0
        rw [BitVec.toNat_ofNat, BitVec.toNat_ofNat, Nat.mod_eq_of_lt (by omega), Nat.mod_eq_of_lt (by omega)] at this
        exact he this
      rw [if_pos he, show szSub (rate / 8) (s.pos + 1) = rate / 8 - (s.pos + 1) by unfold szSub szMod; omega] at f2
      refine st_then hb (by rw [decide_eq_false hne]; rfl) (st_scope (vs' := W hs (s.pos + 1) s.total q s.h.suffix s.h.N.isEmpty s.h.S.isEmpty [.u64 (BitVec.ofNat 64 (rate / 8)), .u64 0]) (st_one ?_) rfl)
      exact st_memset (ev_elem (n := s.pos + 1) (by omega) (ev_var rfl rfl) (count_u64 (by omega))) ev_lit
        (ev_as (ev_bin (ev_var rfl rfl) (ev_var rfl rfl) rfl) (congrArg Val.u64 (sub64 (by omega) (by omega)))) (count_u64 (by omega)) rfl rfl (patch_of_memset f2) rfl
  refine st_cons (E1 := ⟨W hs (s.pos + 1) s.total q s.h.suffix s.h.N.isEmpty s.h.S.isEmpty [.u64 (BitVec.ofNat 64 (rate / 8)), .u64 0],
    .a8 out :: .a8 (m2.set (rate / 8 - 1) (m2.getD (rate / 8 - 1) 0 ||| 0x80)) :: rest⟩) ?_ ?_
  · exact st_store (n := rate / 8 - 1) (e3 _ _) (count_u64 (by omega)) (ev_bin (ev_idx rfl (e3 _ _) (count_u64 (by omega)) (get8 hp2)) ev_lit rfl) rfl (put8 (byte_or _) hp2) rfl
  refine st_cons (st_call (ev_addr rfl ev_lit (n := 0) rfl (get8 (by omega))) ev_lit x) ?_
  exact st_one (st_set ev_lit rfl rfl rfl)

/-- shake_provider.hpp 128-147. -/
def first : Stmt := .ite (.lnot (.var 4)) (.scope pad) (.scope (block [
  .ite (.bin .lt (.var 2) (.var 8)) (.scope (block [
    .decl .u64 (.cond (.bin .lt (.bin .sub (.var 8) (.var 2)) (.var 1)) (.bin .sub (.var 8) (.var 2)) (.var 1)),
    .memcpy (.var 0) (.bin .add (.recast 1 (.addr 2 (.lit (.i32 0)))) (.var 2)) (.var 10),
    .set 9 (.bin .add (.var 9) (.var 10)),
    .set 2 (.bin .add (.var 2) (.var 10))])) (.scope (block [
    .ite (.bin .eq (.var 2) (.var 8)) (.scope (block [.call 1 (.addr 2 (.lit (.i32 0))) (.lit (.i32 0))])) .skip]))]))

theorem first_run {rate : Nat} {out o1 : Bytes} {s s1 : Blk Model.Shake.St} {rest : List Arr} (hr : rate ≤ 1344) (h8 : 8 ≤ rate) (hN1 : 80 < N) (hout : out.length < 2 ^ 64) (hm : s.m.length = 168)
    (hp : s.pos ≤ rate / 8) (hp' : s.h.squeezing = false → s.pos < rate / 8) (hR : R s.h rest) (h : Model.Shake.squeezeFirst 24 rate out.length s = .ok (o1, s1)) :
    ∃ C D : List (BitVec 64), C.length = 5 ∧ D.length = 5 ∧ s1.h.A.length = 25 ∧ s1.m.length = 168 ∧ o1.length ≤ out.length ∧
      exec N (Xof.calls rate N) first
        ⟨W out.length s.pos s.total s.h.squeezing s.h.suffix s.h.N.isEmpty s.h.S.isEmpty [.u64 (BitVec.ofNat 64 (rate / 8)), .u64 0], .a8 out :: .a8 s.m :: rest⟩ =
        some ⟨W out.length s1.pos s1.total s1.h.squeezing s1.h.suffix s1.h.N.isEmpty s1.h.S.isEmpty [.u64 (BitVec.ofNat 64 (rate / 8)), .u64 (BitVec.ofNat 64 o1.length)],
          Sha3.ar (fill o1 out) s1.m s1.h.A C D⟩ := by
  unfold Model.Shake.squeezeFirst at h
  cases hq : s.h.squeezing with
  | false =>
    rw [hq] at h
    obtain ⟨⟨m', A'⟩, e1, e2⟩ := then_ok h
    obtain ⟨rfl, rfl⟩ := Prod.mk.inj (Except.ok.inj e2)
    obtain ⟨C, D, l1, l2, l3, l4, x⟩ := pad_run (N := N) (hs := out.length) (q := false) (out := out) hr h8 hN1 hm (hp' hq) hR e1
    exact ⟨C, D, l1, l2, l3, l4, Nat.zero_le _, st_then (ev_lnot (b := false) (ev_var rfl rfl) rfl) rfl (st_scope x rfl)⟩
  | true =>
    rw [hq] at h
    obtain ⟨hA, C, D, hC, hD, rfl⟩ := hR
    by_cases hlt : s.pos < rate / 8
    · replace h : (readBytes (stores64 s.h.A) s.pos (min out.length (rate / 8 - s.pos)) >>= fun b => pure (b, { s with pos := s.pos + min out.length (rate / 8 - s.pos) })) = .ok (o1, s1) := by
        dsimp only at h
        rw [if_neg (by simp), if_pos hlt] at h
        exact h
      obtain ⟨b, e1, e2⟩ := then_ok h
      obtain ⟨rfl, rfl⟩ := Prod.mk.inj (Except.ok.inj e2)
      have hb := readBytes_length e1
      refine ⟨C, D, hC, hD, hA, hm, by omega, ?_⟩
      rw [hb]
      generalize hk : min out.length (rate / 8 - s.pos) = k at e1 hb
      refine st_else (ev_lnot (b := true) (ev_var rfl rfl) rfl) rfl (st_scope (st_one (st_then (ev_bin (ev_var rfl rfl) (ev_var rfl rfl) rfl) ?_ (st_scope
        (vs' := W out.length (s.pos + k) s.total s.h.squeezing s.h.suffix s.h.N.isEmpty s.h.S.isEmpty [.u64 (BitVec.ofNat 64 (rate / 8)), .u64 (BitVec.ofNat 64 k), .u64 (BitVec.ofNat 64 k)]) ?_ rfl))) rfl)
      · exact truth_true (by simp only [BitVec.toNat_ofNat]; omega)
      refine st_cons (E1 := ⟨W out.length s.pos s.total true s.h.suffix s.h.N.isEmpty s.h.S.isEmpty [.u64 (BitVec.ofNat 64 (rate / 8)), .u64 0, .u64 (BitVec.ofNat 64 k)],
        Sha3.ar out s.m s.h.A C D⟩) ?_ ?_
      · rw [← hk]
        exact st_decl (ev_min (by omega) (by omega) (ev_var rfl rfl) (ev_as (ev_bin (ev_var rfl rfl) (ev_var rfl rfl) rfl) (congrArg Val.u64 (sub64 (by omega) (by omega))))) rfl rfl
      refine st_cons (E1 := ⟨W out.length s.pos s.total true s.h.suffix s.h.N.isEmpty s.h.S.isEmpty [.u64 (BitVec.ofNat 64 (rate / 8)), .u64 0, .u64 (BitVec.ofNat 64 k)],
        Sha3.ar (fill b out) s.m s.h.A C D⟩) ?_ ?_
      · exact st_memcpy (ev_var rfl rfl) (ev_move (n := s.pos) (ev_recast (ev_addr rfl ev_lit (n := 0) rfl (get64 (by omega)))) (ev_var rfl rfl) (count_u64 (by omega))) (ev_var rfl rfl)
          (count_u64 (by omega)) rfl rfl (by omega) (part64_at (by rw [show (Arr.a64 s.h.A).size * 0 + 1 * s.pos = s.pos by rw [Nat.mul_zero]; omega]; exact e1)) (patch_fill (o := []) (by simp; omega)) rfl
      refine st_cons (E1 := ⟨W out.length s.pos s.total true s.h.suffix s.h.N.isEmpty s.h.S.isEmpty [.u64 (BitVec.ofNat 64 (rate / 8)), .u64 (BitVec.ofNat 64 k), .u64 (BitVec.ofNat 64 k)],
        Sha3.ar (fill b out) s.m s.h.A C D⟩) ?_ ?_
      · exact st_set (v := .u64 (BitVec.ofNat 64 k)) (ev_as (ev_bin (ev_var rfl rfl) (ev_var rfl rfl) rfl) (congrArg Val.u64 (BitVec.zero_add _))) rfl rfl rfl
      · rw [hq]
        exact st_one (st_set (v := .u64 (BitVec.ofNat 64 (s.pos + k))) (ev_as (ev_bin (ev_var rfl rfl) (ev_var rfl rfl) rfl) (by rw [BitVec.ofNat_add])) rfl rfl rfl)
    · have hpr : s.pos = rate / 8 := by omega
      replace h : (.ok (([] : Bytes), { s with h := { s.h with A := Model.Sha3.permute 24 s.h.A } }) : M (Bytes × Blk Model.Shake.St)) = .ok (o1, s1) := by
        dsimp only at h
        rw [if_neg (by simp), if_neg hlt, if_pos hpr] at h
        exact h
      obtain ⟨rfl, rfl⟩ := Prod.mk.inj (Except.ok.inj h)
      obtain ⟨C', D', l1, l2, l3, x⟩ := permute_call (N := N) (rate := rate)
        (vs := W out.length s.pos s.total true s.h.suffix s.h.N.isEmpty s.h.S.isEmpty [.u64 (BitVec.ofNat 64 (rate / 8)), .u64 0]) (y := .i32 0) (data := out) (m := s.m) hN1 hA hC hD
      refine ⟨C', D', l1, l2, l3, hm, Nat.zero_le _, ?_⟩
      show _ = some (Env.mk (W out.length s.pos s.total s.h.squeezing s.h.suffix s.h.N.isEmpty s.h.S.isEmpty [.u64 (BitVec.ofNat 64 (rate / 8)), .u64 0]) (Sha3.ar out s.m (Model.Sha3.permute 24 s.h.A) C' D'))
      generalize Model.Sha3.permute 24 s.h.A = A' at x
      rw [hq]
      refine st_else (ev_lnot (b := true) (ev_var rfl rfl) rfl) rfl (st_scope (st_one (st_else (ev_bin (ev_var rfl rfl) (ev_var rfl rfl) rfl) ?_ (st_scope (st_one (st_then (ev_bin (ev_var rfl rfl) (ev_var rfl rfl) rfl) ?_
        (st_scope (st_one (st_call (ev_addr rfl ev_lit (n := 0) rfl (get64 (by omega))) ev_lit x)) rfl))) rfl))) rfl)
      · exact truth_false (by simp only [BitVec.toNat_ofNat]; omega)
      · exact truth_true (by rw [hpr])

/-- The fields of an object that `squeeze` leaves as they are. -/
theorem loop_fields {r hs : Nat} (fuel : Nat) : ∀ (o b : Bytes) (s s' : Blk Model.Shake.St), Model.Shake.squeezeLoop 24 r hs fuel o s = .ok (b, s') →
    s'.m = s.m ∧ s'.total = s.total ∧ s'.h.squeezing = s.h.squeezing ∧ s'.h.suffix = s.h.suffix ∧ s'.h.N = s.h.N ∧ s'.h.S = s.h.S := by
  induction fuel with
  | zero =>
    intro o b s s' h
    obtain ⟨rfl, rfl⟩ := Prod.mk.inj (Except.ok.inj h)
    exact ⟨rfl, rfl, rfl, rfl, rfl, rfl⟩
  | succ fuel ih =>
    intro o b s s' h
    unfold Model.Shake.squeezeLoop at h
    by_cases hlt : o.length < hs
    · rw [if_pos hlt] at h
      obtain ⟨c, e1, e2⟩ := then_ok h
      have := ih _ _ _ _ e2
      exact this
    · rw [if_neg hlt] at h
      obtain ⟨rfl, rfl⟩ := Prod.mk.inj (Except.ok.inj h)
      exact ⟨rfl, rfl, rfl, rfl, rfl, rfl⟩

theorem squeeze_run {rate : Nat} {out b : Bytes} {s s' : Blk Model.Shake.St} {rest : List Arr} (hr : rate ≤ 1344) (h8 : 8 ≤ rate) (hN1 : 80 < N) (hN : out.length < N) (hout : out.length < 2 ^ 64)
    (hm : s.m.length = 168) (hp : s.pos ≤ rate / 8) (hp' : s.h.squeezing = false → s.pos < rate / 8) (hR : R s.h rest) (h : Model.Shake.squeeze 24 rate out.length s = .ok (b, s')) :
    ∃ rest', R s'.h rest' ∧ Xof.squeeze rate N ⟨own s.pos s.total s.h.squeezing s.h.suffix s.h.N.isEmpty s.h.S.isEmpty, .a8 s.m :: rest⟩ out =
      some (b, ⟨own s'.pos s'.total s'.h.squeezing s'.h.suffix s'.h.N.isEmpty s'.h.S.isEmpty, .a8 s'.m :: rest'⟩) := by
  obtain ⟨⟨o1, s1⟩, e1, e2⟩ := then_ok h
  obtain ⟨C, D, l1, l2, l3, l4, l5, x⟩ := first_run (N := N) hr h8 hN1 hout hm hp hp' hR e1
  obtain ⟨f1, f2, f3, f4, f5, f6⟩ := loop_fields _ _ _ _ _ e2
  obtain ⟨C', D', k1, k2, k3, k4, y⟩ := loop_run (N := N) (rate := rate) (r := rate / 8) (t := s1.total) (q := s1.h.squeezing) (a := s1.h.N.isEmpty) (b := s1.h.S.isEmpty) (f := s1.h.suffix) (m := s1.m)
    hN1 (by omega) (by omega) hout out.length N o1 b s1 s' C D (by omega) (by omega) l5 l3 l1 l2 e2
  refine ⟨[.a64 s'.h.A, .a64 C', .a64 D'], ⟨k3, C', D', k1, k2, rfl⟩, ?_⟩
  have z : exec N (Xof.calls rate N) (squeeze rate) ⟨W out.length s.pos s.total s.h.squeezing s.h.suffix s.h.N.isEmpty s.h.S.isEmpty [], .a8 out :: .a8 s.m :: rest⟩ =
      some ⟨W out.length s'.pos s'.total s'.h.squeezing s'.h.suffix s'.h.N.isEmpty s'.h.S.isEmpty [.u64 (BitVec.ofNat 64 (rate / 8)), .u64 (BitVec.ofNat 64 out.length)],
        Sha3.ar b s'.m s'.h.A C' D'⟩ := by
    show exec N (Xof.calls rate N) (block [.decl .u64 (.bin .div (.lit (.u64 (BitVec.ofNat 64 rate))) (.lit (.i32 8))), .decl .u64 (.lit (.i32 0)), first, .while (.bin .lt (.var 9) (.var 1)) body]) _ = _
    refine st_cons (E1 := ⟨W out.length s.pos s.total s.h.squeezing s.h.suffix s.h.N.isEmpty s.h.S.isEmpty [.u64 (BitVec.ofNat 64 (rate / 8))], .a8 out :: .a8 s.m :: rest⟩)
      (st_decl (ev_quot (k := 8) (by decide) (by omega) ev_lit) rfl rfl) ?_
    refine st_cons (E1 := ⟨W out.length s.pos s.total s.h.squeezing s.h.suffix s.h.N.isEmpty s.h.S.isEmpty [.u64 (BitVec.ofNat 64 (rate / 8)), .u64 0], .a8 out :: .a8 s.m :: rest⟩)
      (st_decl ev_lit rfl rfl) ?_
    refine st_cons x (st_one ?_)
    rw [f1, f2, f3, f4, f5, f6, exec]
    exact y
  unfold Xof.squeeze
  rw [z]
  rfl

end Digestpp.Cpp.Shake
