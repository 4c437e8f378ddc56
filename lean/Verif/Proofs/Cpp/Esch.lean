import Verif.Cpp.EschCalls
import Verif.Proofs.Cpp.EschSparkle
import Verif.Proofs.Cpp.Shake
import Verif.Proofs.Esch

/-! C71, Esch: `transform`. -/

namespace Digestpp.Cpp.Esch
open Src Src.Esch
open Model (Blk loop upd rd wr rd32)
open Sha3 (succ64)
attribute [local irreducible] eval exec block

variable {N : Nat}

/-- The variables of `transform`. -/
abbrev vs (p o n blk : Nat) (more : List Val) : List Val := .ptr p o 1 :: .u64 (BitVec.ofNat 64 n) :: .u64 (BitVec.ofNat 64 blk) :: more

/-- The arrays with `M`. -/
abbrev arM (data m : Bytes) (H M : List (BitVec 32)) : List Arr := ar (.a8 data) (.a8 m) H [.a32 M]

theorem count_idx {blk t : Nat} (hb : blk * 4 + t < 2 ^ 64) (ht : t < 4) : count (.u64 (BitVec.ofNat 64 blk * BitVec.ofInt 64 4 + BitVec.ofInt 64 (t : Int))) = some (blk * 4 + t) := by
  show some _ = _
  rw [BitVec.ofInt_natCast, show BitVec.ofInt 64 4 = 4#64 from rfl]
  simp only [BitVec.toNat_add, BitVec.toNat_mul, BitVec.toNat_ofNat]
  congr 1
  omega

/-- esch_provider.hpp 182-183. -/
theorem load_run {ext : Nat → Val → Val → Env → Option Env} {p o n blk : Nat} {data m src : Bytes} {H M M' : List (BitVec 32)} (hN : 80 < N) (hs : Src data m p src) (hb : blk * 4 + 4 < 2 ^ 64)
    (hM : M.length = 4) (h : loop 0 4 (fun i Mw => do
      let x ← rd32 (src.drop o) (blk * 4 + i)
      wr Mw i x) M = .ok M') :
    exec N ext for182 ⟨vs p o n blk [], arM data m H M⟩ = some ⟨vs p o n blk [], arM data m H M'⟩ ∧ M'.length = 4 := by
  refine for_fun (fun t M => ⟨vs p o n blk [.i32 t], arM data m H M⟩) (fun _ (M : List (BitVec 32)) => M.length = 4) h ?_ hM ?_ ?_ (by omega) (by omega) rfl rfl
  · run
  · intro t M _ ht hM
    exact test_nat (by ev) rfl (decide_eq_decide.2 (by omega))
  · intro t M M1 _ ht hM hf
    obtain ⟨x, e1, e2⟩ := then_ok hf
    obtain ⟨hi, rfl⟩ := wr_inv e2
    have hA : (arM data m H M)[p]? = some (.a8 src) := hs.get _
    refine ⟨?_, by rw [List.length_set]; exact hM⟩
    refine st_seq (E1 := ⟨vs p o n blk [.i32 t], arM data m H (M.set t x)⟩) (st_scope (vs' := vs p o n blk [.i32 t]) (st_one ?_) rfl) (by run)
    exact st_store (n := t) (v := .u32 x) (ev_var rfl rfl) count_nat
      (ev_at (ev_recast (ev_var rfl rfl)) (ev_bin (ev_bin (ev_var rfl rfl) ev_lit rfl) (ev_var rfl rfl) rfl) hA (count_idx (by omega) ht) (load_of_rd32 e1 rfl)) rfl (put32 rfl hi) rfl

/-- The variables with `x` and `y`. -/
abbrev vt (p o n blk : Nat) (x y : BitVec 32) (more : List Val) : List Val := vs p o n blk (.u32 x :: .u32 y :: more)

/-- The call of `sparkle`. -/
theorem sparkle_call {vs : List Val} {x0 x1 : Arr} {rest : List Arr} {r ns n : Nat} {H H' : List (BitVec 32)} (hN : 80 < N) (hr : r = 6 ∨ r = 8) (hns : ns ≤ 12) (hH : H.length = n)
    (h : Model.Locals.Esch.sparkle r ns H = .ok H') : EschCalls.sparkle N (.i32 r) (.i32 ns) ⟨vs, ar x0 x1 H rest⟩ = some ⟨vs, ar x0 x1 H' rest⟩ ∧ H'.length = n := by
  obtain ⟨z, l⟩ := steps_run (N := N) (ext := fun _ _ _ _ => none) (x0 := x0) (x1 := x1) (rest := rest) hN hr hns hH h
  refine ⟨?_, l⟩
  show Option.map _ (exec N _ sparkle ⟨[.i32 r, .i32 ns], ar x0 x1 H rest⟩) = _
  rw [show exec N _ sparkle _ = _ from st_one z]
  rfl

/-- esch_provider.hpp 181-203. -/
def turn (hs : Nat) (last : Bool) : Stmt := block [
    for182,
    .decl .u32 (.bin .xor (.idx 3 (.lit (.i32 0))) (.idx 3 (.lit (.i32 2)))),
    .decl .u32 (.bin .xor (.idx 3 (.lit (.i32 1))) (.idx 3 (.lit (.i32 3)))),
    .set 3 (.ret rotate_right (.push (.bin .xor (.var 3) (.bin .shl (.var 3) (.lit (.i32 16)))) (.push (.cast .u32 (.lit (.i32 16))) .nil))),
    .set 4 (.ret rotate_right (.push (.bin .xor (.var 4) (.bin .shl (.var 4) (.lit (.i32 16)))) (.push (.cast .u32 (.lit (.i32 16))) .nil))),
    .store 2 (.lit (.i32 0)) (.bin .xor (.bin .xor (.idx 2 (.lit (.i32 0))) (.idx 3 (.lit (.i32 0)))) (.var 4)),
    .store 2 (.lit (.i32 1)) (.bin .xor (.bin .xor (.idx 2 (.lit (.i32 1))) (.idx 3 (.lit (.i32 1)))) (.var 3)),
    .store 2 (.lit (.i32 2)) (.bin .xor (.bin .xor (.idx 2 (.lit (.i32 2))) (.idx 3 (.lit (.i32 2)))) (.var 4)),
    .store 2 (.lit (.i32 3)) (.bin .xor (.bin .xor (.idx 2 (.lit (.i32 3))) (.idx 3 (.lit (.i32 3)))) (.var 3)),
    .store 2 (.lit (.i32 4)) (.bin .xor (.idx 2 (.lit (.i32 4))) (.var 4)),
    .store 2 (.lit (.i32 5)) (.bin .xor (.idx 2 (.lit (.i32 5))) (.var 3)),
    .ite (.bin .gt (.lit (.u64 (BitVec.ofNat 64 hs))) (.lit (.i32 256))) (.scope (block [
      .store 2 (.lit (.i32 6)) (.bin .xor (.idx 2 (.lit (.i32 6))) (.var 4)),
      .store 2 (.lit (.i32 7)) (.bin .xor (.idx 2 (.lit (.i32 7))) (.var 3))
    ])) .skip,
    .decl .i32 (.cond (.lit (.bool last)) (.lit (.i32 11)) (.lit (.i32 7))),
    .ite (.bin .gt (.lit (.u64 (BitVec.ofNat 64 hs))) (.lit (.i32 256))) (.scope (block [
      .set 5 (.bin .add (.var 5) (.lit (.i32 1)))
    ])) .skip,
    .call 1 (.cond (.bin .gt (.lit (.u64 (BitVec.ofNat 64 hs))) (.lit (.i32 256))) (.lit (.i32 8)) (.lit (.i32 6))) (.var 5)]

theorem steps_ev {E : Env} {last : Bool} : eval E (.cond (.lit (.bool last)) (.lit (.i32 11)) (.lit (.i32 7))) [] = some [.i32 ((if last then 11 else 7 : Nat) : Int)] := by
  cases last
  · exact ev_else ev_lit rfl ev_lit
  · exact ev_then ev_lit rfl ev_lit

theorem turn_run {hs p o n blk : Nat} {last : Bool} {data m src : Bytes} {H H' M : List (BitVec 32)} (hhs : hs = 256 ∨ hs = 384) (hN : 80 < N) (hs' : Src data m p src) (hb : blk * 4 + 4 < 2 ^ 64)
    (hM : M.length = 4) (h : Model.Locals.Esch.block hs last M (src.drop o) blk H = .ok H') :
    ∃ M', M'.length = 4 ∧ H'.length = H.length ∧ exec N (EschCalls.inner N) (.scope (turn hs last)) ⟨vs p o n blk [], arM data m H M⟩ = some ⟨vs p o n blk [], arM data m H' M'⟩ := by
  unfold Model.Locals.Esch.block at h
  obtain ⟨M', eM, h⟩ := then_ok h
  obtain ⟨z0, lM⟩ := load_run (N := N) (ext := EschCalls.inner N) (n := n) (H := H) hN hs' hb hM eM
  obtain ⟨a0, e, h⟩ := then_ok h
  obtain ⟨k0, rfl⟩ := rd_inv 0 e
  obtain ⟨a2, e, h⟩ := then_ok h
  obtain ⟨k2, rfl⟩ := rd_inv 0 e
  obtain ⟨a1, e, h⟩ := then_ok h
  obtain ⟨k1, rfl⟩ := rd_inv 0 e
  obtain ⟨a3, e, h⟩ := then_ok h
  obtain ⟨k3, rfl⟩ := rd_inv 0 e
  clear e
  generalize hX : M'.getD 0 0 ^^^ M'.getD 2 0 = X at h
  generalize hY : M'.getD 1 0 ^^^ M'.getD 3 0 = Y at h
  dsimp only at h
  generalize hx : Model.Esch.ell X = x at h
  generalize hy : Model.Esch.ell Y = y at h
  obtain ⟨b0, e, h⟩ := then_ok h
  obtain ⟨-, rfl⟩ := rd_inv 0 e
  obtain ⟨H1, e1, h⟩ := then_ok h
  obtain ⟨b1, e, h⟩ := then_ok h
  obtain ⟨-, rfl⟩ := rd_inv 0 e
  obtain ⟨H2, e2, h⟩ := then_ok h
  obtain ⟨b2, e, h⟩ := then_ok h
  obtain ⟨-, rfl⟩ := rd_inv 0 e
  obtain ⟨H3, e3, h⟩ := then_ok h
  obtain ⟨b3, e, h⟩ := then_ok h
  obtain ⟨-, rfl⟩ := rd_inv 0 e
  obtain ⟨H4, e4, h⟩ := then_ok h
  obtain ⟨H5, e5, h⟩ := then_ok h
  obtain ⟨H6, e6, h⟩ := then_ok h
  clear e
  obtain ⟨z1, l1⟩ := upd_run (N := N) (ext := EschCalls.inner N) (vs := vt p o n blk x y []) (x0 := .a8 data) (x1 := .a8 m) (rest := [.a32 M']) e1 (i := .lit (.i32 0)) ev_lit (count_nat (n := 0))
    (e := .bin .xor (.bin .xor (.idx 2 (.lit (.i32 0))) (.idx 3 (.lit (.i32 0)))) (.var 4)) (fun ha => by ev)
  obtain ⟨z2, l2⟩ := upd_run (N := N) (ext := EschCalls.inner N) (vs := vt p o n blk x y []) (x0 := .a8 data) (x1 := .a8 m) (rest := [.a32 M']) e2 (i := .lit (.i32 1)) ev_lit (count_nat (n := 1))
    (e := .bin .xor (.bin .xor (.idx 2 (.lit (.i32 1))) (.idx 3 (.lit (.i32 1)))) (.var 3)) (fun ha => by ev)
  obtain ⟨z3, l3⟩ := upd_run (N := N) (ext := EschCalls.inner N) (vs := vt p o n blk x y []) (x0 := .a8 data) (x1 := .a8 m) (rest := [.a32 M']) e3 (i := .lit (.i32 2)) ev_lit (count_nat (n := 2))
    (e := .bin .xor (.bin .xor (.idx 2 (.lit (.i32 2))) (.idx 3 (.lit (.i32 2)))) (.var 4)) (fun ha => by ev)
  obtain ⟨z4, l4⟩ := upd_run (N := N) (ext := EschCalls.inner N) (vs := vt p o n blk x y []) (x0 := .a8 data) (x1 := .a8 m) (rest := [.a32 M']) e4 (i := .lit (.i32 3)) ev_lit (count_nat (n := 3))
    (e := .bin .xor (.bin .xor (.idx 2 (.lit (.i32 3))) (.idx 3 (.lit (.i32 3)))) (.var 3)) (fun ha => by ev)
  obtain ⟨z5, l5⟩ := upd_run (N := N) (ext := EschCalls.inner N) (vs := vt p o n blk x y []) (x0 := .a8 data) (x1 := .a8 m) (rest := [.a32 M']) e5 (i := .lit (.i32 4)) ev_lit (count_nat (n := 4))
    (e := .bin .xor (.idx 2 (.lit (.i32 4))) (.var 4)) (fun ha => by ev)
  obtain ⟨z6, l6⟩ := upd_run (N := N) (ext := EschCalls.inner N) (vs := vt p o n blk x y []) (x0 := .a8 data) (x1 := .a8 m) (rest := [.a32 M']) e6 (i := .lit (.i32 5)) ev_lit (count_nat (n := 5))
    (e := .bin .xor (.idx 2 (.lit (.i32 5))) (.var 3)) (fun ha => by ev)
  have front : ∀ {t : Stmt} {ts : List Stmt} {E : Env}, exec N (EschCalls.inner N) (block (t :: ts)) ⟨vt p o n blk x y [], arM data m H6 M'⟩ = some E →
      exec N (EschCalls.inner N) (block (for182 ::
        .decl .u32 (.bin .xor (.idx 3 (.lit (.i32 0))) (.idx 3 (.lit (.i32 2)))) ::
        .decl .u32 (.bin .xor (.idx 3 (.lit (.i32 1))) (.idx 3 (.lit (.i32 3)))) ::
        .set 3 (.ret rotate_right (.push (.bin .xor (.var 3) (.bin .shl (.var 3) (.lit (.i32 16)))) (.push (.cast .u32 (.lit (.i32 16))) .nil))) ::
        .set 4 (.ret rotate_right (.push (.bin .xor (.var 4) (.bin .shl (.var 4) (.lit (.i32 16)))) (.push (.cast .u32 (.lit (.i32 16))) .nil))) ::
        .store 2 (.lit (.i32 0)) (.bin .xor (.bin .xor (.idx 2 (.lit (.i32 0))) (.idx 3 (.lit (.i32 0)))) (.var 4)) ::
        .store 2 (.lit (.i32 1)) (.bin .xor (.bin .xor (.idx 2 (.lit (.i32 1))) (.idx 3 (.lit (.i32 1)))) (.var 3)) ::
        .store 2 (.lit (.i32 2)) (.bin .xor (.bin .xor (.idx 2 (.lit (.i32 2))) (.idx 3 (.lit (.i32 2)))) (.var 4)) ::
        .store 2 (.lit (.i32 3)) (.bin .xor (.bin .xor (.idx 2 (.lit (.i32 3))) (.idx 3 (.lit (.i32 3)))) (.var 3)) ::
        .store 2 (.lit (.i32 4)) (.bin .xor (.idx 2 (.lit (.i32 4))) (.var 4)) ::
        .store 2 (.lit (.i32 5)) (.bin .xor (.idx 2 (.lit (.i32 5))) (.var 3)) :: t :: ts)) ⟨vs p o n blk [], arM data m H M⟩ = some E := by
    intro t ts E k
    refine st_cons z0 ?_
    refine st_cons (E1 := ⟨vs p o n blk [.u32 X], arM data m H M'⟩) (by rw [← hX]; run) ?_
    refine st_cons (E1 := ⟨vs p o n blk [.u32 X, .u32 Y], arM data m H M'⟩) (by rw [← hY]; run) ?_
    refine st_cons (E1 := ⟨vs p o n blk [.u32 x, .u32 Y], arM data m H M'⟩) (by rw [← hx]; run) ?_
    refine st_cons (E1 := ⟨vs p o n blk [.u32 x, .u32 y], arM data m H M'⟩) (by rw [← hy]; run) ?_
    exact st_cons z1 (st_cons z2 (st_cons z3 (st_cons z4 (st_cons z5 (st_cons z6 k)))))
  obtain rfl | rfl := hhs
  · rw [if_neg (by decide)] at h
    obtain ⟨z7, l7⟩ := sparkle_call (N := N) (x0 := .a8 data) (x1 := .a8 m) (rest := [.a32 M']) (vs := vt p o n blk x y [.i32 ((if last then 11 else 7 : Nat) : Int)]) (n := H6.length) hN (.inl rfl)
      (by cases last <;> decide) rfl h
    refine ⟨M', lM, by omega, st_scope (vs' := vt p o n blk x y [.i32 ((if last then 11 else 7 : Nat) : Int)]) (front ?_) rfl⟩
    refine st_cons (E1 := ⟨vt p o n blk x y [], arM data m H6 M'⟩) (st_else (ev_bin ev_lit ev_lit rfl) rfl st_skip) ?_
    refine st_cons (E1 := ⟨vt p o n blk x y [.i32 ((if last then 11 else 7 : Nat) : Int)], arM data m H6 M'⟩) (st_decl steps_ev rfl rfl) ?_
    refine st_cons (E1 := ⟨vt p o n blk x y [.i32 ((if last then 11 else 7 : Nat) : Int)], arM data m H6 M'⟩) (st_else (ev_bin ev_lit ev_lit rfl) rfl st_skip) ?_
    exact st_one (st_call (xv := .i32 (6 : Nat)) (ev_else (ev_bin ev_lit ev_lit rfl) rfl ev_lit) (ev_var rfl rfl) z7)
  · rw [if_pos (by decide)] at h
    obtain ⟨H7, e7, h⟩ := then_ok h
    obtain ⟨H8, e8, h⟩ := then_ok h
    obtain ⟨y7, l7⟩ := upd_run (N := N) (ext := EschCalls.inner N) (vs := vt p o n blk x y []) (x0 := .a8 data) (x1 := .a8 m) (rest := [.a32 M']) e7 (i := .lit (.i32 6)) ev_lit (count_nat (n := 6))
      (e := .bin .xor (.idx 2 (.lit (.i32 6))) (.var 4)) (fun ha => by ev)
    obtain ⟨y8, l8⟩ := upd_run (N := N) (ext := EschCalls.inner N) (vs := vt p o n blk x y []) (x0 := .a8 data) (x1 := .a8 m) (rest := [.a32 M']) e8 (i := .lit (.i32 7)) ev_lit (count_nat (n := 7))
      (e := .bin .xor (.idx 2 (.lit (.i32 7))) (.var 3)) (fun ha => by ev)
    obtain ⟨z7, l9⟩ := sparkle_call (N := N) (x0 := .a8 data) (x1 := .a8 m) (rest := [.a32 M']) (vs := vt p o n blk x y [.i32 (((if last then 11 else 7) + 1 : Nat) : Int)]) (n := H8.length) hN (.inr rfl)
      (by cases last <;> decide) rfl h
    refine ⟨M', lM, by omega, st_scope (vs' := vt p o n blk x y [.i32 (((if last then 11 else 7) + 1 : Nat) : Int)]) (front ?_) rfl⟩
    refine st_cons (E1 := ⟨vt p o n blk x y [], arM data m H8 M'⟩) (st_then (ev_bin ev_lit ev_lit rfl) rfl (st_scope (vs' := vt p o n blk x y []) (st_cons y7 (st_one y8)) rfl)) ?_
    refine st_cons (E1 := ⟨vt p o n blk x y [.i32 ((if last then 11 else 7 : Nat) : Int)], arM data m H8 M'⟩) (st_decl steps_ev rfl rfl) ?_
    refine st_cons (E1 := ⟨vt p o n blk x y [.i32 (((if last then 11 else 7) + 1 : Nat) : Int)], arM data m H8 M'⟩) (st_then (ev_bin ev_lit ev_lit rfl) rfl
      (st_scope (vs' := vt p o n blk x y [.i32 (((if last then 11 else 7) + 1 : Nat) : Int)]) (st_one (st_set (v := .i32 (((if last then 11 else 7) + 1 : Nat) : Int))
        (ev_bin (ev_var rfl rfl) ev_lit (int_add (by cases last <;> decide))) rfl rfl rfl)) rfl)) ?_
    exact st_one (st_call (xv := .i32 (8 : Nat)) (ev_then (ev_bin ev_lit ev_lit rfl) rfl ev_lit) (ev_var rfl rfl) z7)

theorem transform_run {hs L p o n : Nat} {last : Bool} {data m src : Bytes} {H H' M : List (BitVec 32)} (hhs : hs = 256 ∨ hs = 384) (hN : 80 < N) (hn : n < N) (hd : n * 4 + 4 < 2 ^ 64)
    (hs' : Src data m p src) (hM : M.length = 4) (hH : H.length = L)
    (hk : ∀ blk M (H : List (BitVec 32)), blk < n → M.length = 4 → H.length = L →
      Model.Locals.Esch.block hs last [0, 0, 0, 0] (src.drop o) blk H = Model.Locals.Esch.block hs last M (src.drop o) blk H)
    (hl : loop 0 n (fun blk H => Model.Locals.Esch.block hs last [0, 0, 0, 0] (src.drop o) blk H) H = .ok H') :
    ∃ e, exec N (EschCalls.inner N) (transform hs last) ⟨[.ptr p o 1, .u64 (BitVec.ofNat 64 n)], arM data m H M⟩ = some e ∧
      ∃ M', M'.length = 4 ∧ H'.length = L ∧ e = ⟨[.ptr p o 1, .u64 (BitVec.ofNat 64 n)], arM data m H' M'⟩ := by
  apply ex_one
  apply for_rel (fun blk (H : List (BitVec 32)) e => ∃ M, M.length = 4 ∧ H.length = L ∧ e = ⟨vs p o n blk [], arM data m H M⟩) hl
    (E0 := ⟨vs p o n 0 [], arM data m H M⟩)
  · run
  · exact ⟨M, hM, hH, rfl⟩
  · rintro t h e _ ht ⟨M, hM, hH, rfl⟩
    exact test_nat (by ev) rfl (decide_eq_decide.2 (by simp only [BitVec.toNat_ofNat]; omega))
  · rintro blk H e H1 _ ht ⟨M, hM, hH, rfl⟩ he
    rw [hk blk M H ht hM hH] at he
    obtain ⟨M', lM, lH, x⟩ := turn_run (N := N) (n := n) hhs hN hs' (by omega) hM he
    refine ⟨⟨vs p o n (blk + 1) [], arM data m H1 M'⟩, st_seq x ?_, M', lM, lH.trans hH, rfl⟩
    exact st_set (v := .u64 (BitVec.ofNat 64 (blk + 1))) (ev_as (ev_bin (ev_var rfl rfl) ev_lit rfl) (congrArg Val.u64 succ64)) rfl rfl rfl
  · omega
  · omega
  · rintro e ⟨M, hM, hH, rfl⟩
    exact ⟨M, hM, hH, rfl⟩

/-- The state is in the array after `m`, the local array of `transform` follows it. -/
def R (hs L : Nat) (h : Model.Esch.St) (rest : List Arr) : Prop := h.hs = hs ∧ h.H.length = L ∧ ∃ M : List (BitVec 32), M.length = 4 ∧ rest = [.a32 h.H, .a32 M]

/-- The sizes there are. -/
def Dim (hs L : Nat) : Prop := (hs = 256 ∧ 12 ≤ L) ∨ (hs = 384 ∧ 16 ≤ L)

theorem Dim.hs {hs L : Nat} (h : Dim hs L) : hs = 256 ∨ hs = 384 := by
  obtain ⟨h, -⟩ | ⟨h, -⟩ := h
  · exact .inl h
  · exact .inr h

theorem Dim.le {hs L : Nat} (h : Dim hs L) : (if hs > 256 then 16 else 12) ≤ L := by
  obtain ⟨rfl, h⟩ | ⟨rfl, h⟩ := h
  · exact h
  · exact h

theorem trans_call {hs L : Nat} {last : Bool} (hD : Dim hs L) (hN : 80 < N) {data m src : Bytes} {p o n : Nat} {y : Val} {s s' : Blk Model.Esch.St} {rest : List Arr} {vs : List Val}
    (hs' : Src data m p src) (hb : o + n * 16 ≤ src.length) (hl : src.length < 2 ^ 64) (hn : n < N) (hy : conv .u64 y = some (.u64 (BitVec.ofNat 64 n))) (hR : R hs L s.h rest)
    (h : Model.Esch.transform last (src.drop o) n s = .ok s') :
    ∃ h' rest', s' = { s with h := h' } ∧ R hs L h' rest' ∧ h'.squeezing = s.h.squeezing ∧ EschCalls.transform N hs last (.ptr p o 1) y ⟨vs, .a8 data :: .a8 m :: rest⟩ = some ⟨vs, .a8 data :: .a8 m :: rest'⟩ := by
  obtain ⟨rfl, hH, M, hM, rfl⟩ := hR
  have hlen : n * 16 ≤ (src.drop o).length := by rw [List.length_drop]; omega
  rw [← Proofs.Locals.Esch.transform_eq (fun _ => [0, 0, 0, 0]) (fun _ => rfl) _ _ _ hlen s (by unfold Proofs.Locals.Esch.Sized; rw [hH]; exact hD.le)] at h
  obtain ⟨H', e1, e2⟩ := then_ok h
  obtain rfl := Except.ok.inj e2
  obtain ⟨e, x, M', lM, lH, rfl⟩ := transform_run (N := N) (m := m) hD.hs hN hn (by omega) hs' hM hH
    (fun blk M H hb hM hH => by
      have hr := readBytes_of_le (in_blocks hb hlen)
      have hS : Proofs.Locals.Esch.Sized { s.h with H := H } := by unfold Proofs.Locals.Esch.Sized; dsimp only; rw [hH]; exact hD.le
      exact (Proofs.Locals.Esch.block_ok last [0, 0, 0, 0] rfl _ _ blk hr { s.h with H := H } hS).1.trans (Proofs.Locals.Esch.block_ok last M hM _ _ blk hr { s.h with H := H } hS).1.symm) e1
  refine ⟨_, _, rfl, ⟨rfl, lH, M', lM, rfl⟩, rfl, ?_⟩
  unfold EschCalls.transform
  rw [hy]
  show Option.map _ (exec N (EschCalls.inner N) (transform s.h.hs last) ⟨[.ptr p o 1, .u64 (BitVec.ofNat 64 n)], arM data m s.h.H M⟩) = _
  rw [x]
  rfl

theorem trans {hs L : Nat} (hD : Dim hs L) (hN : 80 < N) : Absorb.Trans N 16 (R hs L) (Model.Esch.transform false) (EschCalls.calls N hs) := by
  intro data m src p o n y s s' rest vs hs' hb hl hn hy hR h
  obtain ⟨h', rest', e, r, -, x⟩ := trans_call hD hN hs' hb hl hn hy hR h
  exact ⟨h', rest', e, r, x⟩

end Digestpp.Cpp.Esch
