import Verif.Cpp.Src.Esch
import Verif.Proofs.Cpp.Steps
import Verif.Proofs.Locals.Esch

/-! C71, Esch: `sparkle`. -/

namespace Digestpp.Cpp.Esch
open Src Src.Esch
open Model (loop upd rd wr)
attribute [local irreducible] eval exec block

variable {N : Nat} {ext : Nat → Val → Val → Env → Option Env} {x0 x1 : Arr} {rest : List Arr}

/-- The arrays. -/
abbrev ar (x0 x1 : Arr) (H : List (BitVec 32)) (rest : List Arr) : List Arr := x0 :: x1 :: .a32 H :: rest

theorem upd_inv {xs ys : List (BitVec 32)} {i : Nat} {f : BitVec 32 → BitVec 32} (h : upd xs i f = .ok ys) : i < xs.length ∧ ys = xs.set i (f (xs.getD i 0)) := by
  by_cases hi : i < xs.length
  · rw [Proofs.upd_ok f 0 hi] at h
    exact ⟨hi, (Except.ok.inj h).symm⟩
  · unfold upd Model.rd at h
    rw [List.getElem?_eq_none (by omega)] at h
    cases h

/-- `H[i] op= e`. -/
theorem upd_run {vs : List Val} {H H' : List (BitVec 32)} {a : Nat} {f : BitVec 32 → BitVec 32} {i e : Expr} {iv : Val} (h : upd H a f = .ok H') (hi : eval ⟨vs, ar x0 x1 H rest⟩ i [] = some [iv])
    (hc : count iv = some a) (he : a < H.length → eval ⟨vs, ar x0 x1 H rest⟩ e [] = some [.u32 (f (H.getD a 0))]) :
    exec N ext (.store 2 i e) ⟨vs, ar x0 x1 H rest⟩ = some ⟨vs, ar x0 x1 H' rest⟩ ∧ H'.length = H.length := by
  obtain ⟨ha, rfl⟩ := upd_inv h
  exact ⟨st_store hi hc (he ha) rfl (put32 rfl ha) rfl, List.length_set⟩

/-- `H[i] = e`. -/
theorem wr_run {vs : List Val} {H H' : List (BitVec 32)} {a : Nat} {x : BitVec 32} {i e : Expr} {iv : Val} (h : wr H a x = .ok H') (hi : eval ⟨vs, ar x0 x1 H rest⟩ i [] = some [iv])
    (hc : count iv = some a) (he : eval ⟨vs, ar x0 x1 H rest⟩ e [] = some [.u32 x]) :
    exec N ext (.store 2 i e) ⟨vs, ar x0 x1 H rest⟩ = some ⟨vs, ar x0 x1 H' rest⟩ ∧ H'.length = H.length := by
  obtain ⟨ha, rfl⟩ := wr_inv h
  exact ⟨st_store hi hc he rfl (put32 rfl ha) rfl, List.length_set⟩

/-- `H[a] op= f(H[b])`. -/
theorem stmt_run {vs : List Val} {H H' : List (BitVec 32)} {a b : Nat} {f : BitVec 32 → BitVec 32 → BitVec 32} {i e : Expr} {iv : Val} (h : Model.Locals.Esch.stmt a b f H = .ok H')
    (hi : eval ⟨vs, ar x0 x1 H rest⟩ i [] = some [iv])
    (hc : count iv = some a) (he : a < H.length → b < H.length → eval ⟨vs, ar x0 x1 H rest⟩ e [] = some [.u32 (f (H.getD a 0) (H.getD b 0))]) :
    exec N ext (.store 2 i e) ⟨vs, ar x0 x1 H rest⟩ = some ⟨vs, ar x0 x1 H' rest⟩ ∧ H'.length = H.length := by
  obtain ⟨y, e1, e2⟩ := then_ok h
  obtain ⟨hb, rfl⟩ := rd_inv 0 e1
  exact upd_run e2 hi hc fun ha => he ha hb

/-- `H[a] ^= C[j]`. -/
theorem xorC_run {vs : List Val} {H H' : List (BitVec 32)} {a j : Nat} {i e : Expr} {iv : Val} (h : Model.Locals.Esch.xorC a j H = .ok H') (hi : eval ⟨vs, ar x0 x1 H rest⟩ i [] = some [iv])
    (hc : count iv = some a) (he : a < H.length → j < Model.esch_C.length → eval ⟨vs, ar x0 x1 H rest⟩ e [] = some [.u32 (H.getD a 0 ^^^ Model.esch_C.getD j 0)]) :
    exec N ext (.store 2 i e) ⟨vs, ar x0 x1 H rest⟩ = some ⟨vs, ar x0 x1 H' rest⟩ ∧ H'.length = H.length := by
  obtain ⟨y, e1, e2⟩ := then_ok h
  obtain ⟨hb, rfl⟩ := rd_inv 0 e1
  exact upd_run e2 hi hc fun ha => he ha hb

/-- The variables of the loop over `j`. -/
abbrev vj (r ns s j px py : Nat) : List Val := [.i32 r, .i32 ns, .i32 s, .i32 j, .i32 px, .i32 py]

/-- esch_provider.hpp 32-43. -/
theorem arx_body {r ns s j px py : Nat} {H H' : List (BitVec 32)} (h : Model.Locals.Esch.arxBody px py j H = .ok H') :
    exec N ext (.scope (block [
    .store 2 (.var 4) (.bin .add (.idx 2 (.var 4)) (.ret rotate_right (.push (.idx 2 (.var 5)) (.push (.cast .u32 (.lit (.i32 31))) .nil)))),
    .store 2 (.var 5) (.bin .xor (.idx 2 (.var 5)) (.ret rotate_right (.push (.idx 2 (.var 4)) (.push (.cast .u32 (.lit (.i32 24))) .nil)))),
    .store 2 (.var 4) (.bin .xor (.idx 2 (.var 4)) (.tab (.a32 Model.esch_C) (.var 3))),
    .store 2 (.var 4) (.bin .add (.idx 2 (.var 4)) (.ret rotate_right (.push (.idx 2 (.var 5)) (.push (.cast .u32 (.lit (.i32 17))) .nil)))),
    .store 2 (.var 5) (.bin .xor (.idx 2 (.var 5)) (.ret rotate_right (.push (.idx 2 (.var 4)) (.push (.cast .u32 (.lit (.i32 17))) .nil)))),
    .store 2 (.var 4) (.bin .xor (.idx 2 (.var 4)) (.tab (.a32 Model.esch_C) (.var 3))),
    .store 2 (.var 4) (.bin .add (.idx 2 (.var 4)) (.idx 2 (.var 5))),
    .store 2 (.var 5) (.bin .xor (.idx 2 (.var 5)) (.ret rotate_right (.push (.idx 2 (.var 4)) (.push (.cast .u32 (.lit (.i32 31))) .nil)))),
    .store 2 (.var 4) (.bin .xor (.idx 2 (.var 4)) (.tab (.a32 Model.esch_C) (.var 3))),
    .store 2 (.var 4) (.bin .add (.idx 2 (.var 4)) (.ret rotate_right (.push (.idx 2 (.var 5)) (.push (.cast .u32 (.lit (.i32 24))) .nil)))),
    .store 2 (.var 5) (.bin .xor (.idx 2 (.var 5)) (.ret rotate_right (.push (.idx 2 (.var 4)) (.push (.cast .u32 (.lit (.i32 16))) .nil)))),
    .store 2 (.var 4) (.bin .xor (.idx 2 (.var 4)) (.tab (.a32 Model.esch_C) (.var 3)))])) ⟨vj r ns s j px py, ar x0 x1 H rest⟩ =
      some ⟨vj r ns s j px py, ar x0 x1 H' rest⟩ ∧ H'.length = H.length := by
  unfold Model.Locals.Esch.arxBody at h
  obtain ⟨H1, h1, h⟩ := then_ok h
  obtain ⟨H2, h2, h⟩ := then_ok h
  obtain ⟨H3, h3, h⟩ := then_ok h
  obtain ⟨H4, h4, h⟩ := then_ok h
  obtain ⟨H5, h5, h⟩ := then_ok h
  obtain ⟨H6, h6, h⟩ := then_ok h
  obtain ⟨H7, h7, h⟩ := then_ok h
  obtain ⟨H8, h8, h⟩ := then_ok h
  obtain ⟨H9, h9, h⟩ := then_ok h
  obtain ⟨H10, h10, h⟩ := then_ok h
  obtain ⟨H11, h11, h12⟩ := then_ok h
  obtain ⟨y1, l1⟩ := stmt_run (N := N) (ext := ext) (vs := vj r ns s j px py) (x0 := x0) (x1 := x1) (rest := rest) h1 (i := .var 4) (ev_var rfl rfl) count_nat
    (e := .bin .add (.idx 2 (.var 4)) (.ret rotate_right (.push (.idx 2 (.var 5)) (.push (.cast .u32 (.lit (.i32 31))) .nil)))) (fun ha hb => by ev)
  obtain ⟨y2, l2⟩ := stmt_run (N := N) (ext := ext) (vs := vj r ns s j px py) (x0 := x0) (x1 := x1) (rest := rest) h2 (i := .var 5) (ev_var rfl rfl) count_nat
    (e := .bin .xor (.idx 2 (.var 5)) (.ret rotate_right (.push (.idx 2 (.var 4)) (.push (.cast .u32 (.lit (.i32 24))) .nil)))) (fun ha hb => by ev)
  obtain ⟨y3, l3⟩ := xorC_run (N := N) (ext := ext) (vs := vj r ns s j px py) (x0 := x0) (x1 := x1) (rest := rest) h3 (i := .var 4) (ev_var rfl rfl) count_nat
    (e := .bin .xor (.idx 2 (.var 4)) (.tab (.a32 Model.esch_C) (.var 3))) (fun ha hb => by ev)
  obtain ⟨y4, l4⟩ := stmt_run (N := N) (ext := ext) (vs := vj r ns s j px py) (x0 := x0) (x1 := x1) (rest := rest) h4 (i := .var 4) (ev_var rfl rfl) count_nat
    (e := .bin .add (.idx 2 (.var 4)) (.ret rotate_right (.push (.idx 2 (.var 5)) (.push (.cast .u32 (.lit (.i32 17))) .nil)))) (fun ha hb => by ev)
  obtain ⟨y5, l5⟩ := stmt_run (N := N) (ext := ext) (vs := vj r ns s j px py) (x0 := x0) (x1 := x1) (rest := rest) h5 (i := .var 5) (ev_var rfl rfl) count_nat
    (e := .bin .xor (.idx 2 (.var 5)) (.ret rotate_right (.push (.idx 2 (.var 4)) (.push (.cast .u32 (.lit (.i32 17))) .nil)))) (fun ha hb => by ev)
  obtain ⟨y6, l6⟩ := xorC_run (N := N) (ext := ext) (vs := vj r ns s j px py) (x0 := x0) (x1 := x1) (rest := rest) h6 (i := .var 4) (ev_var rfl rfl) count_nat
    (e := .bin .xor (.idx 2 (.var 4)) (.tab (.a32 Model.esch_C) (.var 3))) (fun ha hb => by ev)
  obtain ⟨y7, l7⟩ := stmt_run (N := N) (ext := ext) (vs := vj r ns s j px py) (x0 := x0) (x1 := x1) (rest := rest) h7 (i := .var 4) (ev_var rfl rfl) count_nat
    (e := .bin .add (.idx 2 (.var 4)) (.idx 2 (.var 5))) (fun ha hb => by ev)
  obtain ⟨y8, l8⟩ := stmt_run (N := N) (ext := ext) (vs := vj r ns s j px py) (x0 := x0) (x1 := x1) (rest := rest) h8 (i := .var 5) (ev_var rfl rfl) count_nat
    (e := .bin .xor (.idx 2 (.var 5)) (.ret rotate_right (.push (.idx 2 (.var 4)) (.push (.cast .u32 (.lit (.i32 31))) .nil)))) (fun ha hb => by ev)
  obtain ⟨y9, l9⟩ := xorC_run (N := N) (ext := ext) (vs := vj r ns s j px py) (x0 := x0) (x1 := x1) (rest := rest) h9 (i := .var 4) (ev_var rfl rfl) count_nat
    (e := .bin .xor (.idx 2 (.var 4)) (.tab (.a32 Model.esch_C) (.var 3))) (fun ha hb => by ev)
  obtain ⟨y10, l10⟩ := stmt_run (N := N) (ext := ext) (vs := vj r ns s j px py) (x0 := x0) (x1 := x1) (rest := rest) h10 (i := .var 4) (ev_var rfl rfl) count_nat
    (e := .bin .add (.idx 2 (.var 4)) (.ret rotate_right (.push (.idx 2 (.var 5)) (.push (.cast .u32 (.lit (.i32 24))) .nil)))) (fun ha hb => by ev)
  obtain ⟨y11, l11⟩ := stmt_run (N := N) (ext := ext) (vs := vj r ns s j px py) (x0 := x0) (x1 := x1) (rest := rest) h11 (i := .var 5) (ev_var rfl rfl) count_nat
    (e := .bin .xor (.idx 2 (.var 5)) (.ret rotate_right (.push (.idx 2 (.var 4)) (.push (.cast .u32 (.lit (.i32 16))) .nil)))) (fun ha hb => by ev)
  obtain ⟨y12, l12⟩ := xorC_run (N := N) (ext := ext) (vs := vj r ns s j px py) (x0 := x0) (x1 := x1) (rest := rest) h12 (i := .var 4) (ev_var rfl rfl) count_nat
    (e := .bin .xor (.idx 2 (.var 4)) (.tab (.a32 Model.esch_C) (.var 3))) (fun ha hb => by ev)
  exact ⟨st_scope (vs' := vj r ns s j px py) (st_cons y1 (st_cons y2 (st_cons y3 (st_cons y4 (st_cons y5 (st_cons y6 (st_cons y7 (st_cons y8 (st_cons y9 (st_cons y10 (st_cons y11
    (st_one y12)))))))))))) rfl, by omega⟩

/-- esch_provider.hpp 30-44. -/
theorem arx_run {r ns s n : Nat} {H H' : List (BitVec 32)} (hN : 80 < N) (hr : r ≤ 8) (hH : H.length = n)
    (h : loop 0 r (fun j H => Model.Locals.Esch.arxBody (2 * j) (2 * j + 1) j H) H = .ok H') :
    exec N ext for30 ⟨[.i32 r, .i32 ns, .i32 s], ar x0 x1 H rest⟩ = some ⟨[.i32 r, .i32 ns, .i32 s], ar x0 x1 H' rest⟩ ∧ H'.length = n := by
  refine for_fun (fun t H => ⟨vj r ns s t (2 * t) (2 * t + 1), ar x0 x1 H rest⟩) (fun _ (H : List (BitVec 32)) => H.length = n) h ?_ hH ?_ ?_ (by omega) (by omega) rfl rfl
  · run
  · intro t H _ ht hH
    exact test_nat (by ev) rfl (decide_eq_decide.2 (by omega))
  · intro t H H1 _ ht hH hf
    obtain ⟨x, l⟩ := arx_body (N := N) (ext := ext) (x0 := x0) (x1 := x1) (rest := rest) (r := r) (ns := ns) (s := s) hf
    refine ⟨st_seq x ?_, by omega⟩
    refine st_cons (E1 := ⟨vj r ns s (t + 1) (2 * t) (2 * t + 1), ar x0 x1 H1 rest⟩) (by run) ?_
    refine st_cons (E1 := ⟨vj r ns s (t + 1) (2 * (t + 1)) (2 * t + 1), ar x0 x1 H1 rest⟩) (by run) ?_
    exact st_one (by run)

/-- The variables after line 46. -/
abbrev vx (r ns s : Nat) (x y : BitVec 32) (more : List Val) : List Val := .i32 r :: .i32 ns :: .i32 s :: .u32 x :: .u32 y :: more

/-- esch_provider.hpp 55-59. -/
theorem feistel_run {r ns s n : Nat} {x y : BitVec 32} {H H' : List (BitVec 32)} (hN : 80 < N) (hr : r = 6 ∨ r = 8) (hH : H.length = n)
    (h : loop 0 (r / 2) (Model.Locals.Esch.feistelBody r x y) H = .ok H') :
    exec N ext for55 ⟨vx r ns s x y [], ar x0 x1 H rest⟩ = some ⟨vx r ns s x y [], ar x0 x1 H' rest⟩ ∧ H'.length = n := by
  refine for_fun (fun t H => ⟨vx r ns s x y [.i32 (2 * t : Nat), .i32 (r + 2 * t : Nat)], ar x0 x1 H rest⟩) (fun _ (H : List (BitVec 32)) => H.length = n) h ?_ hH ?_ ?_ (by omega) (by omega) rfl rfl
  · run
  · intro t H _ ht hH
    exact test_nat (by ev) rfl (decide_eq_decide.2 (by omega))
  · intro t H H2 _ ht hH hf
    obtain ⟨a, e1, hf⟩ := then_ok hf
    obtain ⟨H1, e2, hf⟩ := then_ok hf
    obtain ⟨b, e3, e4⟩ := then_ok hf
    obtain ⟨ha, rfl⟩ := rd_inv 0 e1
    obtain ⟨hb, rfl⟩ := rd_inv 0 e3
    obtain ⟨y1, l1⟩ := upd_run (N := N) (ext := ext) (vs := vx r ns s x y [.i32 (2 * t : Nat), .i32 (r + 2 * t : Nat)]) (x0 := x0) (x1 := x1) (rest := rest) e2 (i := .var 6) (ev_var rfl rfl) count_nat
      (e := .bin .xor (.idx 2 (.var 6)) (.bin .xor (.idx 2 (.var 5)) (.var 4))) (fun ha => by ev)
    have cb : count (.i32 (((2 * t : Nat) : Int) + 1)) = some (2 * t + 1) := count_nat (n := 2 * t + 1)
    have cj : count (.i32 (((r + 2 * t : Nat) : Int) + 1)) = some (r + 2 * t + 1) := count_nat (n := r + 2 * t + 1)
    obtain ⟨y2, l2⟩ := upd_run (N := N) (ext := ext) (vs := vx r ns s x y [.i32 (2 * t : Nat), .i32 (r + 2 * t : Nat)]) (x0 := x0) (x1 := x1) (rest := rest) e4 (i := .bin .add (.var 6) (.lit (.i32 1)))
      (ev_bin (ev_var rfl rfl) ev_lit (int_add (by omega))) cj
      (e := .bin .xor (.idx 2 (.bin .add (.var 6) (.lit (.i32 1)))) (.bin .xor (.idx 2 (.bin .add (.var 5) (.lit (.i32 1)))) (.var 3)))
      (fun ha => ev_bin (ev_idx rfl (ev_bin (ev_var rfl rfl) ev_lit (int_add (by omega))) cj (get32 ha)) (ev_bin (ev_idx rfl (ev_bin (ev_var rfl rfl) ev_lit (int_add (by omega))) cb (get32 hb)) (ev_var rfl rfl) rfl) rfl)
    refine ⟨st_seq (st_scope (vs' := vx r ns s x y [.i32 (2 * t : Nat), .i32 (r + 2 * t : Nat)]) (st_cons y1 (st_one y2)) rfl) ?_, by omega⟩
    refine st_cons (E1 := ⟨vx r ns s x y [.i32 (2 * (t + 1) : Nat), .i32 (r + 2 * t : Nat)], ar x0 x1 H2 rest⟩) (by run) ?_
    exact st_one (by run)

theorem move_inv {H H' : List (BitVec 32)} {a b : Nat} (h : Model.Locals.Esch.move a b H = .ok H') : b < H.length ∧ wr H a (H.getD b 0) = .ok H' := by
  obtain ⟨x, e1, e2⟩ := then_ok h
  obtain ⟨hb, rfl⟩ := rd_inv 0 e1
  exact ⟨hb, e2⟩

/-- esch_provider.hpp 62-66. -/
theorem move_run {r ns s n : Nat} {x y : BitVec 32} {H H' : List (BitVec 32)} (hN : 80 < N) (hr : r = 6 ∨ r = 8) (hH : H.length = n)
    (h : loop 0 (r - 2) (fun i H => do
      let H ← Model.Locals.Esch.move (i + r) i H
      Model.Locals.Esch.move i (i + r + 2) H) H = .ok H') :
    exec N ext for62 ⟨vx r ns s x y [], ar x0 x1 H rest⟩ = some ⟨vx r ns s x y [], ar x0 x1 H' rest⟩ ∧ H'.length = n := by
  refine for_fun (fun t H => ⟨vx r ns s x y [.i32 t], ar x0 x1 H rest⟩) (fun _ (H : List (BitVec 32)) => H.length = n) h ?_ hH ?_ ?_ (by omega) (by omega) rfl rfl
  · run
  · intro t H _ ht hH
    exact test_nat (by ev) rfl (decide_eq_decide.2 (by omega))
  · intro t H H2 _ ht hH hf
    obtain ⟨H1, e1, e2⟩ := then_ok hf
    obtain ⟨hb, e1⟩ := move_inv e1
    obtain ⟨hb', e2⟩ := move_inv e2
    have c1 : count (.i32 ((t : Int) + (r : Int))) = some (t + r) := count_nat (n := t + r)
    have c2 : count (.i32 ((t : Int) + (r : Int) + 2)) = some (t + r + 2) := count_nat (n := t + r + 2)
    obtain ⟨y1, l1⟩ := wr_run (N := N) (ext := ext) (vs := vx r ns s x y [.i32 t]) (x0 := x0) (x1 := x1) (rest := rest) e1 (i := .bin .add (.var 5) (.var 0))
      (ev_bin (ev_var rfl rfl) (ev_var rfl rfl) (int_add (by omega))) c1 (e := .idx 2 (.var 5)) (ev_idx rfl (ev_var rfl rfl) count_nat (get32 hb))
    obtain ⟨y2, l2⟩ := wr_run (N := N) (ext := ext) (vs := vx r ns s x y [.i32 t]) (x0 := x0) (x1 := x1) (rest := rest) e2 (i := .var 5) (ev_var rfl rfl) count_nat
      (e := .idx 2 (.bin .add (.bin .add (.var 5) (.var 0)) (.lit (.i32 2))))
      (ev_idx rfl (ev_bin (ev_bin (ev_var rfl rfl) (ev_var rfl rfl) (int_add (by omega))) ev_lit (int_add (by omega))) c2 (get32 hb'))
    refine ⟨st_seq (st_scope (vs' := vx r ns s x y [.i32 t]) (st_cons y1 (st_one y2)) rfl) ?_, by omega⟩
    run

/-- esch_provider.hpp 45-53. -/
theorem xy_run {r ns s : Nat} {H : List (BitVec 32)} {xy : BitVec 32 × BitVec 32} {t : Stmt} {ts : List Stmt} {E : Env} (h : Model.Locals.Esch.feistelXY r H = .ok xy)
    (k : exec N ext (block (t :: ts)) ⟨vx r ns s xy.1 xy.2 [], ar x0 x1 H rest⟩ = some E) :
    exec N ext (block (.decl .u32 (.bin .xor (.bin .xor (.idx 2 (.lit (.i32 0))) (.idx 2 (.lit (.i32 2)))) (.idx 2 (.lit (.i32 4)))) ::
      .decl .u32 (.bin .xor (.bin .xor (.idx 2 (.lit (.i32 1))) (.idx 2 (.lit (.i32 3)))) (.idx 2 (.lit (.i32 5)))) ::
      .ite (.bin .gt (.var 0) (.lit (.i32 6))) (.scope (block [
        .set 3 (.bin .xor (.var 3) (.idx 2 (.lit (.i32 6)))),
        .set 4 (.bin .xor (.var 4) (.idx 2 (.lit (.i32 7))))])) .skip ::
      .set 3 (.ret rotate_right (.push (.bin .xor (.var 3) (.bin .shl (.var 3) (.lit (.i32 16)))) (.push (.cast .u32 (.lit (.i32 16))) .nil))) ::
      .set 4 (.ret rotate_right (.push (.bin .xor (.var 4) (.bin .shl (.var 4) (.lit (.i32 16)))) (.push (.cast .u32 (.lit (.i32 16))) .nil))) :: t :: ts))
      ⟨[.i32 r, .i32 ns, .i32 s], ar x0 x1 H rest⟩ = some E := by
  unfold Model.Locals.Esch.feistelXY at h
  obtain ⟨a0, e, h⟩ := then_ok h
  obtain ⟨h0, rfl⟩ := rd_inv 0 e
  obtain ⟨a2, e, h⟩ := then_ok h
  obtain ⟨h2, rfl⟩ := rd_inv 0 e
  obtain ⟨a4, e, h⟩ := then_ok h
  obtain ⟨h4, rfl⟩ := rd_inv 0 e
  obtain ⟨a1, e, h⟩ := then_ok h
  obtain ⟨h1, rfl⟩ := rd_inv 0 e
  obtain ⟨a3, e, h⟩ := then_ok h
  obtain ⟨h3, rfl⟩ := rd_inv 0 e
  obtain ⟨a5, e, h⟩ := then_ok h
  obtain ⟨h5, rfl⟩ := rd_inv 0 e
  generalize hx : H.getD 0 0 ^^^ H.getD 2 0 ^^^ H.getD 4 0 = x at h
  generalize hy : H.getD 1 0 ^^^ H.getD 3 0 ^^^ H.getD 5 0 = y at h
  refine st_cons (E1 := ⟨[.i32 r, .i32 ns, .i32 s, .u32 x], ar x0 x1 H rest⟩) ?_ ?_
  · rw [← hx]
    run
  refine st_cons (E1 := ⟨vx r ns s x y [], ar x0 x1 H rest⟩) ?_ ?_
  · rw [← hy]
    run
  by_cases h6 : 6 < r
  · rw [if_pos h6] at h
    obtain ⟨a6, e, h⟩ := then_ok h
    obtain ⟨h6', rfl⟩ := rd_inv 0 e
    obtain ⟨a7, e, h⟩ := then_ok h
    obtain ⟨h7, rfl⟩ := rd_inv 0 e
    obtain rfl := Except.ok.inj h
    refine st_cons (E1 := ⟨vx r ns s (x ^^^ H.getD 6 0) (y ^^^ H.getD 7 0) [], ar x0 x1 H rest⟩) (st_then (ev_bin (ev_var rfl rfl) ev_lit rfl) (truth_true (by omega)) (by run)) ?_
    refine st_cons (E1 := ⟨vx r ns s (Model.Esch.ell (x ^^^ H.getD 6 0)) (y ^^^ H.getD 7 0) [], ar x0 x1 H rest⟩) (by run) ?_
    exact st_cons (by run) k
  · rw [if_neg h6] at h
    obtain rfl := Except.ok.inj h
    refine st_cons (E1 := ⟨vx r ns s x y [], ar x0 x1 H rest⟩) (st_else (ev_bin (ev_var rfl rfl) ev_lit rfl) (truth_false (by omega)) st_skip) ?_
    refine st_cons (E1 := ⟨vx r ns s (Model.Esch.ell x) y [], ar x0 x1 H rest⟩) (by run) ?_
    exact st_cons (by run) k

/-- esch_provider.hpp 60-70. -/
theorem permute_run {r ns s n : Nat} {x y : BitVec 32} {H H' : List (BitVec 32)} (hN : 80 < N) (hr : r = 6 ∨ r = 8) (hH : H.length = n) (h : Model.Locals.Esch.permuteBranches r H = .ok H') :
    H'.length = n ∧ ∃ x' y', exec N ext (block [
      .set 3 (.idx 2 (.var 0)),
      .set 4 (.idx 2 (.bin .add (.var 0) (.lit (.i32 1)))),
      for62,
      .store 2 (.bin .sub (.bin .mul (.var 0) (.lit (.i32 2))) (.lit (.i32 2))) (.idx 2 (.bin .sub (.var 0) (.lit (.i32 2)))),
      .store 2 (.bin .sub (.bin .mul (.var 0) (.lit (.i32 2))) (.lit (.i32 1))) (.idx 2 (.bin .sub (.var 0) (.lit (.i32 1)))),
      .store 2 (.bin .sub (.var 0) (.lit (.i32 2))) (.var 3),
      .store 2 (.bin .sub (.var 0) (.lit (.i32 1))) (.var 4)]) ⟨vx r ns s x y [], ar x0 x1 H rest⟩ = some ⟨vx r ns s x' y' [], ar x0 x1 H' rest⟩ := by
  unfold Model.Locals.Esch.permuteBranches at h
  obtain ⟨x', e, h⟩ := then_ok h
  obtain ⟨h0, hx⟩ := rd_inv 0 e
  obtain ⟨y', e, h⟩ := then_ok h
  obtain ⟨h1, hy⟩ := rd_inv 0 e
  obtain ⟨H1, e1, h⟩ := then_ok h
  obtain ⟨H2, e2, h⟩ := then_ok h
  obtain ⟨H3, e3, h⟩ := then_ok h
  obtain ⟨H4, e4, e5⟩ := then_ok h
  obtain ⟨b2, e2⟩ := move_inv e2
  obtain ⟨b3, e3⟩ := move_inv e3
  obtain ⟨z1, l1⟩ := move_run (N := N) (ext := ext) (x0 := x0) (x1 := x1) (rest := rest) (ns := ns) (s := s) (x := x') (y := y') hN hr hH e1
  have c1 : count (.i32 ((r : Int) - 1)) = some (r - 1) := by rw [show (r : Int) - 1 = ((r - 1 : Nat) : Int) by omega]; exact count_nat
  have c2 : count (.i32 ((r : Int) - 2)) = some (r - 2) := by rw [show (r : Int) - 2 = ((r - 2 : Nat) : Int) by omega]; exact count_nat
  have d1 : count (.i32 ((r : Int) * 2 - 1)) = some (r * 2 - 1) := by rw [show (r : Int) * 2 - 1 = ((r * 2 - 1 : Nat) : Int) by omega]; exact count_nat
  have d2 : count (.i32 ((r : Int) * 2 - 2)) = some (r * 2 - 2) := by rw [show (r : Int) * 2 - 2 = ((r * 2 - 2 : Nat) : Int) by omega]; exact count_nat
  have c3 : count (.i32 ((r : Int) + 1)) = some (r + 1) := count_nat (n := r + 1)
  obtain ⟨z2, l2⟩ := wr_run (N := N) (ext := ext) (vs := vx r ns s x' y' []) (x0 := x0) (x1 := x1) (rest := rest) e2 (i := .bin .sub (.bin .mul (.var 0) (.lit (.i32 2))) (.lit (.i32 2)))
    (ev_bin (ev_bin (ev_var rfl rfl) ev_lit (int_mul (by omega))) ev_lit (int_sub (by omega))) d2 (e := .idx 2 (.bin .sub (.var 0) (.lit (.i32 2))))
    (ev_idx rfl (ev_bin (ev_var rfl rfl) ev_lit (int_sub (by omega))) c2 (get32 b2))
  obtain ⟨z3, l3⟩ := wr_run (N := N) (ext := ext) (vs := vx r ns s x' y' []) (x0 := x0) (x1 := x1) (rest := rest) e3 (i := .bin .sub (.bin .mul (.var 0) (.lit (.i32 2))) (.lit (.i32 1)))
    (ev_bin (ev_bin (ev_var rfl rfl) ev_lit (int_mul (by omega))) ev_lit (int_sub (by omega))) d1 (e := .idx 2 (.bin .sub (.var 0) (.lit (.i32 1))))
    (ev_idx rfl (ev_bin (ev_var rfl rfl) ev_lit (int_sub (by omega))) c1 (get32 b3))
  obtain ⟨z4, l4⟩ := wr_run (N := N) (ext := ext) (vs := vx r ns s x' y' []) (x0 := x0) (x1 := x1) (rest := rest) e4 (i := .bin .sub (.var 0) (.lit (.i32 2)))
    (ev_bin (ev_var rfl rfl) ev_lit (int_sub (by omega))) c2 (e := .var 3) (ev_var rfl rfl)
  obtain ⟨z5, l5⟩ := wr_run (N := N) (ext := ext) (vs := vx r ns s x' y' []) (x0 := x0) (x1 := x1) (rest := rest) e5 (i := .bin .sub (.var 0) (.lit (.i32 1)))
    (ev_bin (ev_var rfl rfl) ev_lit (int_sub (by omega))) c1 (e := .var 4) (ev_var rfl rfl)
  refine ⟨by omega, x', y', ?_⟩
  refine st_cons (E1 := ⟨vx r ns s x' y [], ar x0 x1 H rest⟩) ?_ ?_
  · rw [hx]
    exact st_set (ev_idx rfl (ev_var rfl rfl) count_nat (get32 h0)) rfl rfl rfl
  refine st_cons (E1 := ⟨vx r ns s x' y' [], ar x0 x1 H rest⟩) ?_ ?_
  · rw [hy]
    exact st_set (ev_idx rfl (ev_bin (ev_var rfl rfl) ev_lit (int_add (by omega))) c3 (get32 h1)) rfl rfl rfl
  exact st_cons z1 (st_cons z2 (st_cons z3 (st_cons z4 (st_one z5))))

/-- esch_provider.hpp 26-71. -/
theorem steps_run {r ns n : Nat} {H H' : List (BitVec 32)} (hN : 80 < N) (hr : r = 6 ∨ r = 8) (hns : ns ≤ 12) (hH : H.length = n) (h : Model.Locals.Esch.sparkle r ns H = .ok H') :
    exec N ext for26 ⟨[.i32 r, .i32 ns], ar x0 x1 H rest⟩ = some ⟨[.i32 r, .i32 ns], ar x0 x1 H' rest⟩ ∧ H'.length = n := by
  refine for_fun (fun t H => ⟨[.i32 r, .i32 ns, .i32 t], ar x0 x1 H rest⟩) (fun _ (H : List (BitVec 32)) => H.length = n) h ?_ hH ?_ ?_ (by omega) (by omega) rfl rfl
  · run
  · intro t H _ ht hH
    exact test_nat (by ev) rfl (decide_eq_decide.2 (by omega))
  · intro t H H5 _ ht hH hf
    obtain ⟨H1, e1, hf⟩ := then_ok hf
    obtain ⟨H2, e2, hf⟩ := then_ok hf
    obtain ⟨H3, e3, hf⟩ := then_ok hf
    obtain ⟨xy, e4, hf⟩ := then_ok hf
    obtain ⟨H4, e5, e6⟩ := then_ok hf
    have cm : count (.i32 ((t : Int) % 8)) = some (t % 8) := count_nat (n := t % 8)
    obtain ⟨z1, l1⟩ := xorC_run (N := N) (ext := ext) (vs := [.i32 r, .i32 ns, .i32 t]) (x0 := x0) (x1 := x1) (rest := rest) e1 (i := .lit (.i32 1)) ev_lit (count_nat (n := 1))
      (e := .bin .xor (.idx 2 (.lit (.i32 1))) (.tab (.a32 Model.esch_C) (.bin .mod (.var 2) (.lit (.i32 8)))))
      (fun ha hb => ev_bin (ev_idx rfl ev_lit (count_nat (n := 1)) (get32 ha)) (ev_tab (ev_bin (ev_var rfl rfl) ev_lit (int_mod (by omega) (by omega))) cm (get32 hb)) rfl)
    obtain ⟨z2, l2⟩ := upd_run (N := N) (ext := ext) (vs := [.i32 r, .i32 ns, .i32 t]) (x0 := x0) (x1 := x1) (rest := rest) e2 (i := .lit (.i32 3)) ev_lit (count_nat (n := 3))
      (e := .bin .xor (.idx 2 (.lit (.i32 3))) (.var 2)) (fun ha => ev_as (ev_bin (ev_idx rfl ev_lit (count_nat (n := 3)) (get32 ha)) (ev_var rfl rfl) rfl)
        (show Val.u32 (H1.getD 3 0 ^^^ BitVec.ofInt 32 (t : Int)) = _ by rw [BitVec.ofInt_natCast]))
    obtain ⟨z3, l3⟩ := arx_run (N := N) (ext := ext) (x0 := x0) (x1 := x1) (rest := rest) (ns := ns) (s := t) (n := n) hN (by omega) (by omega) e3
    obtain ⟨z5, l5⟩ := feistel_run (N := N) (ext := ext) (x0 := x0) (x1 := x1) (rest := rest) (ns := ns) (s := t) (n := n) hN hr l3 e5
    obtain ⟨l6, x', y', z6⟩ := permute_run (N := N) (ext := ext) (x0 := x0) (x1 := x1) (rest := rest) (ns := ns) (s := t) (x := xy.1) (y := xy.2) (n := n) hN hr l5 e6
    refine ⟨st_seq (E1 := ⟨[.i32 r, .i32 ns, .i32 t], ar x0 x1 H5 rest⟩) (st_scope (vs' := vx r ns t x' y' []) (st_cons z1 (st_cons z2 (st_cons z3 (xy_run e4 (st_cons z5 z6))))) rfl) (by run), l6⟩

/-- The text of `sparkle`, esch_provider.hpp 24-72. -/
theorem sparkle_run {r ns n : Nat} {H : List (BitVec 32)} (hN : 80 < N) (hr : r = 6 ∨ r = 8) (hns : ns ≤ 12) (hn : r * 2 ≤ n) (hH : H.length = n) :
    exec N ext sparkle ⟨[.i32 r, .i32 ns], ar x0 x1 H rest⟩ = some ⟨[.i32 r, .i32 ns], ar x0 x1 (Model.Esch.sparkle r ns H) rest⟩ ∧ (Model.Esch.sparkle r ns H).length = n := by
  obtain ⟨z, l⟩ := steps_run (N := N) (ext := ext) (x0 := x0) (x1 := x1) (rest := rest) hN hr hns hH (Proofs.Locals.Esch.sparkle_ok r ns hr n hn H hH).1
  exact ⟨st_one z, l⟩

end Digestpp.Cpp.Esch
