import Verif.Proofs.Cpp.Sha3Round
import Verif.Proofs.Cpp.Whirlpool

/-! C71, SHA-3: the permutation and `transform`. -/

namespace Digestpp.Cpp.Sha3
open Src Src.Sha3
open Model (Blk loop rd64 upd)
open Absorb (ev_move div64)
attribute [local irreducible] eval exec block

variable {N : Nat} {ext : Nat → Val → Val → Env → Option Env}

/-- The arrays. -/
abbrev ar (data m : Bytes) (A C D : List (BitVec 64)) : List Arr := [.a8 data, .a8 m, .a64 A, .a64 C, .a64 D]

theorem permute_run {v0 v1 v2 v3 v4 : Val} {data m : Bytes} {A C D : List (BitVec 64)} (hN : 80 < N) (hA : A.length = 25) (hC : C.length = 5) (hD : D.length = 5) :
    ∃ C' D' : List (BitVec 64), C'.length = 5 ∧ D'.length = 5 ∧ (Model.Sha3.permute 24 A).length = 25 ∧
      exec N ext permute ⟨[v0, v1, v2, v3, v4], ar data m A C D⟩ = some ⟨[v0, v1, v2, v3, v4], ar data m (Model.Sha3.permute 24 A) C' D'⟩ := by
  have hl := Whirlpool.loop_pure (fun A r => Model.Sha3.round A (Model.sha3_RC.getD r 0)) 24 A
  rw [List.range_eq_range', show (List.range' 0 24).foldl (fun A r => Model.Sha3.round A (Model.sha3_RC.getD r 0)) A = Model.Sha3.permute 24 A from rfl] at hl
  generalize Model.Sha3.permute 24 A = A' at hl
  obtain ⟨e, x, C', D', hC', hD', hA', rfl⟩ := for_rel (N := N) (ext := ext)
    (fun r (A : List (BitVec 64)) e => ∃ C D : List (BitVec 64), C.length = 5 ∧ D.length = 5 ∧ A.length = 25 ∧ e = ⟨[v0, v1, v2, v3, v4, .i32 (r : Int)], ar data m A C D⟩)
    (Q := fun e => ∃ C D : List (BitVec 64), C.length = 5 ∧ D.length = 5 ∧ A'.length = 25 ∧ e = ⟨[v0, v1, v2, v3, v4], ar data m A' C D⟩)
    (i := .decl .i32 (.bin .sub (.lit (.i32 24)) (.lit (.i32 24)))) (c := .bin .lt (.var 5) (.lit (.i32 24))) (st := .set 5 (.bin .add (.var 5) (.lit (.i32 1))))
    (vs := [v0, v1, v2, v3, v4]) (A := ar data m A C D) (E0 := ⟨[v0, v1, v2, v3, v4, .i32 0], ar data m A C D⟩) hl (st_decl (v := .i32 0) (ev_bin ev_lit ev_lit rfl) rfl rfl) ⟨C, D, hC, hD, hA, rfl⟩
    (by
      rintro t A e _ ht ⟨C, D, -, -, -, rfl⟩
      exact test_nat (by ev) rfl (decide_eq_decide.2 (by omega)))
    (by
      rintro t A e A1 _ ht ⟨C, D, hC, hD, hA, rfl⟩ hf
      obtain rfl := Except.ok.inj hf
      obtain ⟨vs, C', D', hC', hD', x⟩ := round_run (N := N) (ext := ext) (v0 := v0) (v1 := v1) (v2 := v2) (v3 := v3) (v4 := v4) (data := data) (m := m) ht hA hC hD
      refine ⟨⟨[v0, v1, v2, v3, v4, .i32 ((t + 1 : Nat) : Int)], ar data m (Model.Sha3.round A (Model.sha3_RC.getD t 0)) C' D'⟩, ?_, C', D', hC', hD', rfl, rfl⟩
      refine st_seq (st_scope x rfl) ?_
      run)
    (by omega) (by omega)
    (by
      rintro e ⟨C, D, hC, hD, hA, rfl⟩
      exact ⟨C, D, hC, hD, hA, rfl⟩)
  exact ⟨C', D', hC', hD', hA', st_one x⟩

/-- The variables of `transform`. -/
abbrev vs (p o n rate blk : Nat) (more : List Val) : List Val :=
  .ptr p o 1 :: .u64 (BitVec.ofNat 64 n) :: .u64 (BitVec.ofNat 64 (rate / 8)) :: .u64 (BitVec.ofNat 64 (rate / 64)) :: .u64 (BitVec.ofNat 64 blk) :: more

theorem ev_quot {E : Env} {as : List Val} {x : Expr} {n k : Nat} (hk : 0 < k ∧ k < 2 ^ 31) (hn : n < 2 ^ 64) (hx : eval E x as = some [.u64 (BitVec.ofNat 64 n)]) :
    eval E (.bin .div x (.lit (.i32 (k : Int)))) as = some [.u64 (BitVec.ofNat 64 (n / k))] := by
  refine ev_bin hx ev_lit ?_
  have e : BitVec.ofInt 64 (k : Int) = BitVec.ofNat 64 k := BitVec.ofInt_natCast ..
  show (if BitVec.ofInt 64 (k : Int) = 0 then none else some (Val.u64 (BitVec.ofNat 64 n / BitVec.ofInt 64 (k : Int)))) = _
  rw [e, div64 hn (by omega), if_neg]
  intro h0
  have := congrArg BitVec.toNat h0
  rw [BitVec.toNat_ofNat, Nat.mod_eq_of_lt (by omega)] at this
  exact absurd this (by show k ≠ 0; omega)

theorem succ64 {t : Nat} : BitVec.ofNat 64 t + BitVec.ofInt 64 1 = BitVec.ofNat 64 (t + 1) := by rw [BitVec.ofNat_add]; rfl

theorem upd_inv {xs ys : List (BitVec 64)} {i : Nat} {f : BitVec 64 → BitVec 64} (h : upd xs i f = .ok ys) : i < xs.length ∧ ys = xs.set i (f (xs.getD i 0)) := by
  by_cases hi : i < xs.length
  · rw [Proofs.upd_ok f 0 hi] at h
    exact ⟨hi, (Except.ok.inj h).symm⟩
  · unfold upd Model.rd at h
    rw [List.getElem?_eq_none (by omega)] at h
    cases h

/-- sha3_provider.hpp 111-112. -/
theorem xor_run {p o n rate blk : Nat} {data m src : Bytes} {A A' C D : List (BitVec 64)} (hN : 80 < N) (hs : Src data m p src) (hr : rate ≤ 1600) (hb : blk < 2 ^ 64) (hbr : blk * (rate / 8) < 2 ^ 64)
    (hA : A.length = 25) (h : Model.Locals.Sha3.xorBlock (src.drop o) (rate / 8) (rate / 64) blk A = .ok A') :
    exec N ext for111 ⟨vs p o n rate blk [], ar data m A C D⟩ = some ⟨vs p o n rate blk [], ar data m A' C D⟩ ∧ A'.length = 25 := by
  refine for_fun (fun t s => ⟨vs p o n rate blk [.u64 (BitVec.ofNat 64 t)], ar data m s C D⟩) (fun _ (s : List (BitVec 64)) => s.length = 25) h ?_ hA ?_ ?_ (by omega) (by omega) rfl rfl
  · run
  · intro t s _ ht hs
    exact test_nat (by ev) rfl (decide_eq_decide.2 (by simp only [BitVec.toNat_ofNat]; omega))
  · intro t s s' _ ht hl he
    obtain ⟨x, e1, e2⟩ := then_ok he
    obtain ⟨hi, rfl⟩ := upd_inv e2
    refine ⟨?_, by rw [List.length_set]; exact hl⟩
    have hA : (ar data m s C D)[p]? = some (.a8 src) := hs.get _
    rw [List.drop_drop] at e1
    have hld := load_of_rd64 (o := o + 1 * (blk * (rate / 8)) + 8 * t) e1 (by omega)
    refine st_seq (E1 := ⟨vs p o n rate blk [.u64 (BitVec.ofNat 64 t)], ar data m (s.set t (s.getD t 0 ^^^ x)) C D⟩) (st_scope (vs' := vs p o n rate blk [.u64 (BitVec.ofNat 64 t)]) (st_one ?_) rfl) ?_
    · refine st_store (n := t) (v := .u64 (s.getD t 0 ^^^ x)) (ev_var rfl rfl) (count_u64 (by omega)) (ev_bin (w := .u64 x) (ev_idx rfl (ev_var rfl rfl) (count_u64 (by omega)) (get64 hi)) ?_ rfl) rfl (put64 rfl hi) rfl
      refine ev_at (ev_recast (ev_move (n := blk * (rate / 8)) (ev_var rfl rfl) ?_ (count_u64 hbr))) (ev_var rfl rfl) hA (count_u64 (by omega)) hld
      exact ev_as (ev_bin (ev_var rfl rfl) (ev_var rfl rfl) rfl) (by rw [BitVec.ofNat_mul])
    · exact st_set (v := .u64 (BitVec.ofNat 64 (t + 1))) (ev_as (ev_bin (ev_var rfl rfl) ev_lit rfl) (congrArg Val.u64 succ64)) rfl rfl rfl

theorem transform_run {p o n rate : Nat} {data m src : Bytes} {A A' C D : List (BitVec 64)} (k0 : Model.Locals.Sha3.Stack) (hk : k0.Sized) (hN : 80 < N) (hn : n < N) (hs : Src data m p src)
    (hr : rate ≤ 1600) (h8 : 8 ≤ rate) (hl : src.length < 2 ^ 64) (hd : n * (rate / 8) ≤ (src.drop o).length) (hA : A.length = 25) (hC : C.length = 5) (hD : D.length = 5)
    (h : Model.Locals.Sha3.transform (fun _ _ => k0) 24 rate (src.drop o) n A = .ok A') :
    ∃ e, exec N ext (transform rate) ⟨[.ptr p o 1, .u64 (BitVec.ofNat 64 n)], ar data m A C D⟩ = some e ∧ ∃ (more : List Val) (C' D' : List (BitVec 64)), C'.length = 5 ∧ D'.length = 5 ∧ A'.length = 25 ∧
      e = ⟨.ptr p o 1 :: .u64 (BitVec.ofNat 64 n) :: more, ar data m A' C' D'⟩ := by
  rw [List.length_drop] at hd
  have hn' : n < 2 ^ 64 := Nat.lt_of_le_of_lt (Nat.le_mul_of_pos_right n (by omega : 0 < rate / 8)) (by omega)
  unfold transform
  apply ex_cons (E1 := ⟨[.ptr p o 1, .u64 (BitVec.ofNat 64 n), .u64 (BitVec.ofNat 64 (rate / 8))], ar data m A C D⟩)
  · exact st_decl (v := .u64 (BitVec.ofNat 64 (rate / 8))) (ev_quot (k := 8) (by decide) (by omega) ev_lit) rfl rfl
  apply ex_cons (E1 := ⟨[.ptr p o 1, .u64 (BitVec.ofNat 64 n), .u64 (BitVec.ofNat 64 (rate / 8)), .u64 (BitVec.ofNat 64 (rate / 64))], ar data m A C D⟩)
  · exact st_decl (v := .u64 (BitVec.ofNat 64 (rate / 64))) (ev_quot (k := 64) (by decide) (by omega) ev_lit) rfl rfl
  apply ex_one
  apply for_rel (fun blk (A : List (BitVec 64)) e => ∃ C D : List (BitVec 64), C.length = 5 ∧ D.length = 5 ∧ A.length = 25 ∧ e = ⟨vs p o n rate blk [], ar data m A C D⟩) h
    (E0 := ⟨vs p o n rate 0 [], ar data m A C D⟩)
  · run
  · exact ⟨C, D, hC, hD, hA, rfl⟩
  · rintro t A e _ ht ⟨C, D, -, -, -, rfl⟩
    exact test_nat (by ev) rfl (decide_eq_decide.2 (by simp only [BitVec.toNat_ofNat]; omega))
  · rintro blk A e A1 _ ht ⟨C, D, hC, hD, hA, rfl⟩ he
    obtain ⟨A2, e1, e2⟩ := then_ok he
    have hbb : blk * (rate / 8) ≤ n * (rate / 8) := Nat.mul_le_mul_right _ (Nat.le_of_lt ht)
    obtain ⟨x, hA2⟩ := xor_run (N := N) (ext := ext) (n := n) (m := m) (C := C) (D := D) hN hs hr (by omega) (by omega) hA e1
    rw [(Proofs.Locals.Sha3.permute_ok (fun _ => k0) (fun _ => hk) 24 (by decide) A2 hA2).1] at e2
    obtain rfl := Except.ok.inj e2
    obtain ⟨C', D', hC', hD', hA', y⟩ := permute_run (N := N) (ext := ext) (v0 := .ptr p o 1) (v1 := .u64 (BitVec.ofNat 64 n)) (v2 := .u64 (BitVec.ofNat 64 (rate / 8)))
      (v3 := .u64 (BitVec.ofNat 64 (rate / 64))) (v4 := .u64 (BitVec.ofNat 64 blk)) (data := data) (m := m) hN hA2 hC hD
    refine ⟨⟨vs p o n rate (blk + 1) [], ar data m (Model.Sha3.permute 24 A2) C' D'⟩, ?_, C', D', hC', hD', hA', rfl⟩
    generalize Model.Sha3.permute 24 A2 = A3 at y
    refine st_seq (st_scope (st_cons x (st_one (st_scope y rfl))) rfl) ?_
    exact st_set (v := .u64 (BitVec.ofNat 64 (blk + 1))) (ev_as (ev_bin (ev_var rfl rfl) ev_lit rfl) (congrArg Val.u64 succ64)) rfl rfl rfl
  · omega
  · omega
  · rintro e ⟨C, D, hC, hD, hA, rfl⟩
    exact ⟨_, C, D, hC, hD, hA, rfl⟩

/-- `A` is in the array after `m`, the local arrays of the permutation follow it. -/
def R (hs rate : Nat) (h : Model.Sha3.St) (rest : List Arr) : Prop :=
  h.A.length = 25 ∧ h.hs = hs ∧ h.rate = rate ∧ ∃ C D : List (BitVec 64), C.length = 5 ∧ D.length = 5 ∧ rest = [.a64 h.A, .a64 C, .a64 D]

theorem trans {hs rate : Nat} (hN : 80 < N) (hr : rate ≤ 1600) (h8 : 8 ≤ rate) : Absorb.Trans N (rate / 8) (R hs rate) Model.Sha3.onBlocks (invoke N (transform rate)) := by
  rintro data m src p o n y s s' rest vs hs hb hl hn hy ⟨hA, h1, h2, C, D, hC, hD, rfl⟩ h
  have hlen : n * (rate / 8) ≤ (src.drop o).length := by rw [List.length_drop]; omega
  have hk : Model.Locals.Sha3.Stack.Sized ⟨List.replicate 5 0, List.replicate 5 0⟩ := ⟨List.length_replicate, List.length_replicate⟩
  unfold Model.Sha3.onBlocks at h
  rw [h2, ← Proofs.Locals.Sha3.transform_eq (fun _ _ => ⟨List.replicate 5 0, List.replicate 5 0⟩) (fun _ _ => hk) 24 rate (by decide) hr _ _ hlen _ hA] at h
  obtain ⟨A', e1, e2⟩ := then_ok h
  obtain rfl := Except.ok.inj e2
  obtain ⟨e, x, more, C', D', lC, lD, lA, rfl⟩ := transform_run (N := N) (ext := fun _ _ _ _ => none) (m := m) _ hk hN hn hs hr h8 hl hlen hA hC hD e1
  exact ⟨_, _, rfl, ⟨lA, h1, h2, C', D', lC, lD, rfl⟩, invoke_run hy x⟩

end Digestpp.Cpp.Sha3
