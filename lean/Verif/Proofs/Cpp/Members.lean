import Verif.Proofs.Cpp.Final

/-! C71: `init`, `update` and `final` of MD5, SHA-1 and SHA-2. -/

namespace Digestpp.Cpp
open Model (Blk loop wr mdFinal mdFinalTail memset memcpyTo szSub szMod bytes64 byteswap32 byteswap64 readBytes stores32 stores64)
open Absorb (absorb_run ev_move)
open Final
attribute [local irreducible] eval exec block

variable {N : Nat} {ext : Nat → Val → Val → Env → Option Env}

theorem const_i32 {n : Nat} (h : n < 2 ^ 31) : Const (.lit (.i32 n)) n := by
  have e : BitVec.ofInt 64 (n : Int) = BitVec.ofNat 64 n := BitVec.ofInt_natCast ..
  refine ⟨.i32 n, fun _ => ev_lit, fun a => ?_, fun a => ?_, fun a => ?_⟩
  · show some (Val.bool (decide ((BitVec.ofInt 64 (n : Int)).toNat < a.toNat))) = _
    rw [e, BitVec.toNat_ofNat, Nat.mod_eq_of_lt (by omega)]
  · show some (Val.bool (a != BitVec.ofInt 64 (n : Int))) = _
    rw [e]
  · show some (Val.u64 (BitVec.ofInt 64 (n : Int) - a)) = _
    rw [e]

theorem const_u64 {x : Expr} {n : Nat} (h : n < 2 ^ 64) (hx : ∀ E, eval E x [] = some [.u64 (BitVec.ofNat 64 n)]) : Const x n := by
  refine ⟨_, hx, fun a => ?_, fun a => rfl, fun a => rfl⟩
  show some (Val.bool (decide ((BitVec.ofNat 64 n).toNat < a.toNat))) = _
  rw [BitVec.toNat_ofNat, Nat.mod_eq_of_lt h]

/-- `&m[0] + n`. -/
theorem ev_off {vs : List Val} {out m : Bytes} {rest : List Arr} {y : Expr} {v : Val} {n : Nat} (hm : 0 < m.length) (hy : eval ⟨vs, .a8 out :: .a8 m :: rest⟩ y [] = some [v]) (hc : count v = some n) :
    eval ⟨vs, .a8 out :: .a8 m :: rest⟩ (.bin .add (.addr 1 (.lit (.i32 0))) y) [] = some [.ptr 1 n 1] := by
  refine ev_as (ev_move (ev_addr rfl ev_lit (n := 0) rfl (get8 hm)) hy hc) ?_
  show Val.ptr 1 (1 * 0 + 1 * n) 1 = _
  rw [Nat.mul_zero, Nat.zero_add, Nat.one_mul]

/-- `&m[n]`. -/
theorem ev_elem {vs : List Val} {out m : Bytes} {rest : List Arr} {y : Expr} {v : Val} {n : Nat} (hm : n < m.length) (hy : eval ⟨vs, .a8 out :: .a8 m :: rest⟩ y [] = some [v]) (hc : count v = some n) :
    eval ⟨vs, .a8 out :: .a8 m :: rest⟩ (.addr 1 y) [] = some [.ptr 1 n 1] := by
  refine ev_as (ev_addr rfl hy hc (get8 hm)) ?_
  show Val.ptr 1 (1 * n) 1 = _
  rw [Nat.one_mul]

namespace Md5
open Src.Md5

theorem init_run {p t : BitVec 64} {data m : Bytes} {h : List (BitVec 32)} (hh : h.length = 4) :
    exec N ext init ⟨[.u64 p, .u64 t], ar data m h⟩ = some ⟨[.u64 0, .u64 0], ar data m [0x67452301, 0xefcdab89, 0x98badcfe, 0x10325476]⟩ := by
  match h, hh with
  | [a, b, c, d], _ => unfold init; run

theorem update_run {data : Bytes} {s s' : Blk (List (BitVec 32))} {rest : List Arr} (hd : data.length + 128 < 2 ^ 64) (hN : data.length < N) (hN1 : 1 < N)
    (hm : s.m.length = 64) (hp : s.pos ≤ 64) (hR : R s.h rest) (h : Model.Md5.update data s = .ok s') :
    ∃ e, exec N (invoke N transform) update
      ⟨[.ptr 0 0 1, .u64 (BitVec.ofNat 64 data.length), .u64 (BitVec.ofNat 64 s.pos), .u64 s.total], .a8 data :: .a8 s.m :: rest⟩ = some e ∧
      ∃ rest', R s'.h rest' ∧
        e = ⟨[.ptr 0 0 1, .u64 (BitVec.ofNat 64 data.length), .u64 (BitVec.ofNat 64 s'.pos), .u64 s'.total], .a8 data :: .a8 s'.m :: rest'⟩ :=
  absorb_run (bschk := 64) (trans (N := N)) (by omega) (by omega) (by omega) (fun _ => ev_lit) rfl (fun _ => ev_lit) rfl hd hN hN1 hm hp hR h

theorem final_run {out out' b : Bytes} {s : Blk (List (BitVec 32))} {rest : List Arr} (hN1 : 1 < N) (hm : s.m.length = 64) (hR : R s.h rest)
    (h : Model.Md5.final s = .ok b) (ho : memcpyTo out 0 b = .ok out') :
    ∃ e, exec N (invoke N transform) final ⟨[.ptr 0 0 1, .u64 (BitVec.ofNat 64 s.pos), .u64 s.total], .a8 out :: .a8 s.m :: rest⟩ = some e ∧ e.arrs[0]? = some (.a8 out') := by
  obtain ⟨s2, e1, e2⟩ := then_ok h
  obtain ⟨s1, rest1, r1, m1, p1, e3, k⟩ := pre_run (trans (N := N)) hN1 (const_i32 (n := 56) (by decide)) (const_i32 (n := 64) (by decide)) (by decide) (by decide) (by decide)
    (out := out) (more := []) hm hR e1
  obtain ⟨ma, f1, e3⟩ := then_ok e3
  obtain ⟨mb, f2, e3⟩ := then_ok e3
  have la := (memset_length f1).trans m1
  have lb := (memcpyTo_length f2).trans la
  obtain ⟨rest2, ⟨r2, rfl⟩, hm2, x⟩ := call_run (trans (N := N)) hN1 (by decide) (by decide) (out := out) (vs := vv s1.pos s1.total []) (s := { s1 with m := mb }) lb r1 e3
  apply k
  apply ex_cons (memset_run (const_i32 (n := 56) (by decide)) p1 (by decide) (ev_off (by omega) (by ev) (count_u64 (by omega))) f1)
  apply ex_cons (length_run (ev_off (n := 56) (by omega) (by ev) rfl) (by ev) rfl f2)
  apply ex_cons x
  apply ex_one
  exact ex_of (output_run rfl (ev_addr rfl ev_lit (n := 0) rfl (get32 (by omega))) ev_lit rfl (part32 e2) ho) rfl

end Md5

namespace Sha1
open Src.Sha1

theorem init_run {p t : BitVec 64} {data m : Bytes} {h M W : List (BitVec 32)} (hh : h.length = 5) :
    exec N ext init ⟨[.u64 p, .u64 t], ar data m h M W⟩ = some ⟨[.u64 0, .u64 0], ar data m [0x67452301, 0xefcdab89, 0x98badcfe, 0x10325476, 0xc3d2e1f0] M W⟩ := by
  match h, hh with
  | [a, b, c, d, e], _ => unfold init; run

theorem update_run {data : Bytes} {s s' : Blk (List (BitVec 32))} {rest : List Arr} (hd : data.length + 128 < 2 ^ 64) (hN : data.length < N) (hN1 : 80 < N)
    (hm : s.m.length = 64) (hp : s.pos ≤ 64) (hR : R s.h rest) (h : Model.Sha1.update data s = .ok s') :
    ∃ e, exec N (invoke N transform) update
      ⟨[.ptr 0 0 1, .u64 (BitVec.ofNat 64 data.length), .u64 (BitVec.ofNat 64 s.pos), .u64 s.total], .a8 data :: .a8 s.m :: rest⟩ = some e ∧
      ∃ rest', R s'.h rest' ∧
        e = ⟨[.ptr 0 0 1, .u64 (BitVec.ofNat 64 data.length), .u64 (BitVec.ofNat 64 s'.pos), .u64 s'.total], .a8 data :: .a8 s'.m :: rest'⟩ :=
  absorb_run (bschk := 64) (trans hN1) (by omega) (by omega) (by omega) (fun _ => ev_lit) rfl (fun _ => ev_lit) rfl hd hN (by omega) hm hp hR h

theorem swap_run {x0 x1 x2 x3 : Val} {out m : Bytes} {h M W : List (BitVec 32)} (hh : h.length = 5) (hN : 80 < N) :
    exec N ext for82 ⟨[x0, x1, x2, x3], ar out m h M W⟩ = some ⟨[x0, x1, x2, x3], ar out m (h.map byteswap32) M W⟩ := by
  match h, hh with
  | [a, b, c, d, e], _ =>
  refine (for_fun (lo := 0) (hi := 5) (f := fun i H => wr H i (byteswap32 (H.getD i 0))) (fun t H => ⟨[x0, x1, x2, x3, .i32 (t : Int)], ar out m H M W⟩)
    (fun _ (H : List (BitVec 32)) => H.length = 5) (s := [a, b, c, d, e]) (s' := [a, b, c, d, e].map byteswap32) rfl ?_ rfl ?_ ?_ (by omega) (by omega) rfl rfl).1
  · run
  · intro t s _ ht hs
    exact test_nat (by ev) rfl (decide_eq_decide.2 (by omega))
  · intro t s s' _ ht hs he
    obtain ⟨hl, rfl⟩ := wr_inv he
    refine ⟨?_, by rw [List.length_set]; exact hs⟩
    run

theorem final_run {out out' b : Bytes} {s : Blk (List (BitVec 32))} {rest : List Arr} (hN1 : 80 < N) (hm : s.m.length = 64) (hR : R s.h rest)
    (h : Model.Sha1.final s = .ok b) (ho : memcpyTo out 0 b = .ok out') :
    ∃ e, exec N (invoke N transform) final ⟨[.ptr 0 0 1, .u64 (BitVec.ofNat 64 s.pos), .u64 s.total], .a8 out :: .a8 s.m :: rest⟩ = some e ∧ e.arrs[0]? = some (.a8 out') := by
  obtain ⟨s2, e1, e2⟩ := then_ok h
  obtain ⟨s1, rest1, r1, m1, p1, e3, k⟩ := pre_run (trans hN1) (by omega) (const_i32 (n := 56) (by decide)) (const_i32 (n := 64) (by decide)) (by decide) (by decide) (by decide)
    (out := out) (more := []) hm hR e1
  obtain ⟨ma, f1, e3⟩ := then_ok e3
  obtain ⟨mb, f2, e3⟩ := then_ok e3
  have la := (memset_length f1).trans m1
  have lb := (memcpyTo_length f2).trans la
  obtain ⟨rest2, ⟨r2, M, W, hM, hW, rfl⟩, hm2, x⟩ := call_run (trans hN1) (by omega) (by decide) (by decide) (out := out) (vs := vv s1.pos s1.total [.u64 (byteswap64 s1.total)]) (s := { s1 with m := mb }) lb r1 e3
  apply k
  apply ex_cons (memset_run (const_i32 (n := 56) (by decide)) p1 (by decide) (ev_off (by omega) (by ev) (count_u64 (by omega))) f1)
  apply ex_cons (E1 := ⟨vv s1.pos s1.total [.u64 (byteswap64 s1.total)], .a8 out :: .a8 ma :: rest1⟩)
  · exact st_decl (by ev) rfl rfl
  apply ex_cons (length_run (ev_off (n := 56) (by omega) (by ev) rfl) (by ev) rfl f2)
  apply ex_cons x
  apply ex_cons (swap_run r2 hN1)
  apply ex_one
  have l3 : (s2.h.map byteswap32).length = 5 := by rw [List.length_map, r2]
  exact ex_of (output_run rfl (ev_addr rfl ev_lit (n := 0) rfl (get32 (by omega))) (by ev) rfl (part32 e2) ho) rfl

end Sha1
theorem forBlocks_hs {w : Nat} {T : Model.Sha2.Word w} {data : Bytes} {n : Nat} {s s' : Blk (Model.Sha2.St w)} (h : Model.Sha2.transform T data n s = .ok s') : s'.h.hs = s.h.hs := by
  obtain ⟨h', e1, e2⟩ := then_ok h
  obtain rfl := Except.ok.inj e2
  unfold Model.forBlocks at e1
  generalize List.range n = l at e1
  show h'.hs = s.h.hs
  generalize s.h = h0 at e1
  induction l generalizing h0 with
  | nil => rw [← Except.ok.inj e1]
  | cons a l ih =>
    rw [List.foldlM_cons] at e1
    obtain ⟨x, y1, y2⟩ := then_ok e1
    obtain ⟨z, y3, y4⟩ := then_ok y1
    rw [ih x y2, ← Except.ok.inj y4]

theorem mdFinal_hs {w bs limit fill : Nat} {enc : BitVec 64 → Bytes} {T : Model.Sha2.Word w} {s s' : Blk (Model.Sha2.St w)} (h : mdFinal bs limit fill enc (Model.Sha2.transform T) s = .ok s') :
    s'.h.hs = s.h.hs := by
  have tail : ∀ {s : Blk (Model.Sha2.St w)}, mdFinalTail bs fill enc (Model.Sha2.transform T) s = .ok s' → s'.h.hs = s.h.hs := by
    intro s h
    obtain ⟨_, _, h⟩ := then_ok h
    obtain ⟨_, _, h⟩ := then_ok h
    have := forBlocks_hs h
    exact this
  obtain ⟨m, _, h⟩ := then_ok h
  dsimp only at h
  split at h
  · obtain ⟨_, _, h⟩ := then_ok h
    obtain ⟨_, h1, h⟩ := then_ok h
    have a := tail h
    have b := forBlocks_hs h1
    exact a.trans b
  · have a := tail h
    exact a

theorem ev_eighth {p t x : Val} {hs : Nat} {more : List Val} {A : List Arr} (h : hs < 2 ^ 64) :
    eval ⟨p :: t :: x :: .u64 (BitVec.ofNat 64 hs) :: more, A⟩ (.bin .div (.var 3) (.lit (.i32 8))) [] = some [.u64 (BitVec.ofNat 64 (hs / 8))] :=
  ev_as (ev_bin (v := .u64 (BitVec.ofNat 64 hs)) (w := .i32 8) (r := .u64 (BitVec.ofNat 64 hs / BitVec.ofNat 64 8)) (ev_var rfl rfl) ev_lit rfl) (by rw [Absorb.div64 h (by decide)])

namespace Sha256
open Src.Sha256

theorem init224_run {p t : BitVec 64} {data m : Bytes} {h M W : List (BitVec 32)} (hh : h.length = 8) :
    exec N ext init224 ⟨[.u64 p, .u64 t], ar data m h M W⟩ = some ⟨[.u64 0, .u64 0], ar data m [0xc1059ed8, 0x367cd507, 0x3070dd17, 0xf70e5939, 0xffc00b31, 0x68581511, 0x64f98fa7, 0xbefa4fa4] M W⟩ := by
  match h, hh with
  | [a, b, c, d, e, f, g, i], _ => unfold init224; run

theorem init256_run {p t : BitVec 64} {data m : Bytes} {h M W : List (BitVec 32)} (hh : h.length = 8) :
    exec N ext init256 ⟨[.u64 p, .u64 t], ar data m h M W⟩ = some ⟨[.u64 0, .u64 0], ar data m [0x6a09e667, 0xbb67ae85, 0x3c6ef372, 0xa54ff53a, 0x510e527f, 0x9b05688c, 0x1f83d9ab, 0x5be0cd19] M W⟩ := by
  match h, hh with
  | [a, b, c, d, e, f, g, i], _ => unfold init256; run

theorem quarter (E : Env) : eval E (.bin .div (.lit (.u64 256)) (.lit (.i32 4))) [] = some [.u64 (BitVec.ofNat 64 64)] := ev_bin ev_lit ev_lit rfl

theorem limit (E : Env) : eval E (.bin .sub (.bin .div (.lit (.u64 256)) (.lit (.i32 4))) (.bin .mul (.lit (.u64 4)) (.lit (.i32 2)))) [] = some [.u64 (BitVec.ofNat 64 56)] :=
  ev_bin (quarter E) (ev_bin ev_lit ev_lit (r := .u64 8) rfl) rfl

theorem update_run {data : Bytes} {s s' : Blk (Model.Sha2.St 32)} {rest : List Arr} (hd : data.length + 128 < 2 ^ 64) (hN : data.length < N) (hN1 : 80 < N)
    (hm : s.m.length = 64) (hp : s.pos ≤ 64) (hR : R s.h rest) (h : Model.Sha2.update Model.Sha2.u32 data s = .ok s') :
    ∃ e, exec N (invoke N transform) update
      ⟨[.ptr 0 0 1, .u64 (BitVec.ofNat 64 data.length), .u64 (BitVec.ofNat 64 s.pos), .u64 s.total], .a8 data :: .a8 s.m :: rest⟩ = some e ∧
      ∃ rest', R s'.h rest' ∧
        e = ⟨[.ptr 0 0 1, .u64 (BitVec.ofNat 64 data.length), .u64 (BitVec.ofNat 64 s'.pos), .u64 s'.total], .a8 data :: .a8 s'.m :: rest'⟩ :=
  absorb_run (bschk := 64) (trans hN1) (by omega) (by omega) (by omega) quarter rfl quarter rfl hd hN (by omega) hm hp hR h

theorem swap_run {x0 x1 x2 x3 x4 : Val} {out m : Bytes} {h M W : List (BitVec 32)} (hh : h.length = 8) (hN : 80 < N) :
    exec N ext for203 ⟨[x0, x1, x2, x3, x4], ar out m h M W⟩ = some ⟨[x0, x1, x2, x3, x4], ar out m (h.map byteswap32) M W⟩ := by
  match h, hh with
  | [a, b, c, d, e, f, g, i], _ =>
  refine (for_fun (lo := 0) (hi := 8) (f := fun i H => wr H i (byteswap32 (H.getD i 0))) (fun t H => ⟨[x0, x1, x2, x3, x4, .i32 (t : Int)], ar out m H M W⟩)
    (fun _ (H : List (BitVec 32)) => H.length = 8) (s := [a, b, c, d, e, f, g, i]) (s' := [a, b, c, d, e, f, g, i].map byteswap32) rfl ?_ rfl ?_ ?_ (by omega) (by omega) rfl rfl).1
  · run
  · intro t s _ ht hs
    exact test_nat (by ev) rfl (decide_eq_decide.2 (by omega))
  · intro t s s' _ ht hs he
    obtain ⟨hl, rfl⟩ := wr_inv he
    refine ⟨?_, by rw [List.length_set]; exact hs⟩
    run

theorem final_run {out out' b : Bytes} {s : Blk (Model.Sha2.St 32)} {rest : List Arr} (hN1 : 80 < N) (hm : s.m.length = 64) (hR : R s.h rest) (hs : s.h.hs < 2 ^ 64)
    (h : Model.Sha2.final Model.Sha2.u32 s = .ok b) (ho : memcpyTo out 0 b = .ok out') :
    ∃ e, exec N (invoke N transform) final ⟨[.ptr 0 0 1, .u64 (BitVec.ofNat 64 s.pos), .u64 s.total, .u64 (BitVec.ofNat 64 s.h.hs)], .a8 out :: .a8 s.m :: rest⟩ = some e ∧
      e.arrs[0]? = some (.a8 out') := by
  obtain ⟨s3, e0, e2⟩ := then_ok h
  obtain ⟨s2, e1, e5⟩ := then_ok e0
  obtain rfl := Except.ok.inj e5
  have hhs : s2.h.hs = s.h.hs := mdFinal_hs e1
  obtain ⟨s1, rest1, r1, m1, p1, e3, k⟩ := pre_run (trans hN1) (by omega) (const_u64 (n := 56) (by decide) limit) (const_u64 (n := 64) (by decide) quarter)
    (by decide) (by decide) (by decide) (out := out) (more := [.u64 (BitVec.ofNat 64 s.h.hs)]) hm hR e1
  obtain ⟨ma, f1, e3⟩ := then_ok e3
  obtain ⟨mb, f2, e3⟩ := then_ok e3
  have la := (memset_length f1).trans m1
  have lb := (memcpyTo_length f2).trans la
  obtain ⟨rest2, ⟨r2, M, W, hM, hW, rfl⟩, hm2, x⟩ := call_run (trans hN1) (by omega) (by decide) (by decide) (out := out)
    (vs := vv s1.pos s1.total [.u64 (BitVec.ofNat 64 s.h.hs), .u64 (byteswap64 s1.total)]) (s := { s1 with m := mb }) lb r1 e3
  apply k
  apply ex_cons (memset_run (fill := 64) (const_u64 (by decide) quarter) (by omega) (by decide) (ev_elem (by omega) (by ev) (count_u64 (by omega))) f1)
  apply ex_cons (E1 := ⟨vv s1.pos s1.total [.u64 (BitVec.ofNat 64 s.h.hs), .u64 (byteswap64 s1.total)], .a8 out :: .a8 ma :: rest1⟩)
  · exact st_decl (by ev) rfl rfl
  apply ex_cons (length_run (ev_elem (n := 56) (by omega) (ev_bin (quarter _) ev_lit rfl) rfl) (by ev) rfl f2)
  apply ex_cons x
  apply ex_cons (swap_run r2 hN1)
  apply ex_one
  have l3 : (s2.h.H.map byteswap32).length = 8 := by rw [List.length_map, r2]
  refine ex_of (output_run rfl (ev_addr rfl ev_lit (n := 0) rfl (get32 (by omega))) (ev_eighth hs) (count_u64 (by omega)) (part32 (n := s.h.hs / 8) ?_) ho) rfl
  rw [← hhs]
  exact e2

end Sha256

namespace Sha512
open Src.Sha512

theorem quarter (E : Env) : eval E (.bin .div (.lit (.u64 512)) (.lit (.i32 4))) [] = some [.u64 (BitVec.ofNat 64 128)] := ev_bin ev_lit ev_lit rfl

theorem limit (E : Env) : eval E (.bin .sub (.bin .div (.lit (.u64 512)) (.lit (.i32 4))) (.bin .mul (.lit (.u64 8)) (.lit (.i32 2)))) [] = some [.u64 (BitVec.ofNat 64 112)] :=
  ev_bin (quarter E) (ev_bin ev_lit ev_lit (r := .u64 16) rfl) rfl

theorem update_run {data : Bytes} {s s' : Blk (Model.Sha2.St 64)} {rest : List Arr} (hd : data.length + 256 < 2 ^ 64) (hN : data.length < N) (hN1 : 80 < N)
    (hm : s.m.length = 128) (hp : s.pos ≤ 128) (hR : R s.h rest) (h : Model.Sha2.update Model.Sha2.u64 data s = .ok s') :
    ∃ e, exec N (invoke N transform) update
      ⟨[.ptr 0 0 1, .u64 (BitVec.ofNat 64 data.length), .u64 (BitVec.ofNat 64 s.pos), .u64 s.total], .a8 data :: .a8 s.m :: rest⟩ = some e ∧
      ∃ rest', R s'.h rest' ∧
        e = ⟨[.ptr 0 0 1, .u64 (BitVec.ofNat 64 data.length), .u64 (BitVec.ofNat 64 s'.pos), .u64 s'.total], .a8 data :: .a8 s'.m :: rest'⟩ :=
  absorb_run (bschk := 128) (trans hN1) (by omega) (by omega) (by omega) quarter rfl quarter rfl hd hN (by omega) hm hp hR h

theorem swap_run {x0 x1 x2 x3 x4 : Val} {out m : Bytes} {h M W : List (BitVec 64)} (hh : h.length = 8) (hN : 80 < N) :
    exec N ext for203 ⟨[x0, x1, x2, x3, x4], ar out m h M W⟩ = some ⟨[x0, x1, x2, x3, x4], ar out m (h.map byteswap64) M W⟩ := by
  match h, hh with
  | [a, b, c, d, e, f, g, i], _ =>
  refine (for_fun (lo := 0) (hi := 8) (f := fun i H => wr H i (byteswap64 (H.getD i 0))) (fun t H => ⟨[x0, x1, x2, x3, x4, .i32 (t : Int)], ar out m H M W⟩)
    (fun _ (H : List (BitVec 64)) => H.length = 8) (s := [a, b, c, d, e, f, g, i]) (s' := [a, b, c, d, e, f, g, i].map byteswap64) rfl ?_ rfl ?_ ?_ (by omega) (by omega) rfl rfl).1
  · run
  · intro t s _ ht hs
    exact test_nat (by ev) rfl (decide_eq_decide.2 (by omega))
  · intro t s s' _ ht hs he
    obtain ⟨hl, rfl⟩ := wr_inv he
    refine ⟨?_, by rw [List.length_set]; exact hs⟩
    run

/-- With the state after it. -/
theorem final_full {out out' b : Bytes} {s : Blk (Model.Sha2.St 64)} {rest : List Arr} (hN1 : 80 < N) (hm : s.m.length = 128) (hR : R s.h rest) (hs : s.h.hs < 2 ^ 64)
    (h : Model.Sha2.final Model.Sha2.u64 s = .ok b) (ho : memcpyTo out 0 b = .ok out') :
    ∃ e, exec N (invoke N transform) final ⟨[.ptr 0 0 1, .u64 (BitVec.ofNat 64 s.pos), .u64 s.total, .u64 (BitVec.ofNat 64 s.h.hs)], .a8 out :: .a8 s.m :: rest⟩ = some e ∧
      ∃ s3 rest3 p' t' more, Model.Sha2.finalState Model.Sha2.u64 s = .ok s3 ∧ s3.m.length = 128 ∧ R s3.h rest3 ∧ e = ⟨.ptr 0 0 1 :: .u64 p' :: .u64 t' :: more, .a8 out' :: .a8 s3.m :: rest3⟩ := by
  obtain ⟨s3, e0, e2⟩ := then_ok h
  obtain ⟨s2, e1, e5⟩ := then_ok e0
  obtain rfl := Except.ok.inj e5
  have hhs : s2.h.hs = s.h.hs := mdFinal_hs e1
  obtain ⟨s1, rest1, r1, m1, p1, e3, k⟩ := pre_run (trans hN1) (by omega) (const_u64 (n := 112) (by decide) limit) (const_u64 (n := 128) (by decide) quarter)
    (by decide) (by decide) (by decide) (out := out) (more := [.u64 (BitVec.ofNat 64 s.h.hs)]) hm hR e1
  obtain ⟨ma, f1, e3⟩ := then_ok e3
  obtain ⟨mb, f2, e3⟩ := then_ok e3
  have la := (memset_length f1).trans m1
  have lb := (memcpyTo_length f2).trans la
  obtain ⟨rest2, ⟨r2, M, W, hM, hW, rfl⟩, hm2, x⟩ := call_run (trans hN1) (by omega) (by decide) (by decide) (out := out)
    (vs := vv s1.pos s1.total [.u64 (BitVec.ofNat 64 s.h.hs), .u64 (byteswap64 s1.total)]) (s := { s1 with m := mb }) lb r1 e3
  apply k
  apply ex_cons (memset_run (fill := 128) (const_u64 (by decide) quarter) (by omega) (by decide) (ev_elem (by omega) (by ev) (count_u64 (by omega))) f1)
  apply ex_cons (E1 := ⟨vv s1.pos s1.total [.u64 (BitVec.ofNat 64 s.h.hs), .u64 (byteswap64 s1.total)], .a8 out :: .a8 ma :: rest1⟩)
  · exact st_decl (by ev) rfl rfl
  apply ex_cons (length_run (ev_elem (n := 120) (by omega) (ev_bin (quarter _) ev_lit rfl) rfl) (by ev) rfl f2)
  apply ex_cons x
  apply ex_cons (swap_run r2 hN1)
  apply ex_one
  have l3 : (s2.h.H.map byteswap64).length = 8 := by rw [List.length_map, r2]
  refine ex_of (output_run rfl (ev_addr rfl ev_lit (n := 0) rfl (get64 (by omega))) (ev_eighth hs) (count_u64 (by omega)) (part64 (n := s.h.hs / 8) ?_) ho) ⟨_, _, BitVec.ofNat 64 s1.pos, s1.total, [.u64 (BitVec.ofNat 64 s.h.hs), .u64 (byteswap64 s1.total)], e0, ?_, ⟨l3, M, W, hM, hW, rfl⟩, ?_⟩
  · rw [← hhs]
    exact e2
  · show s2.m.length = 128
    rw [hm2]
    exact lb
  · rw [show s2.m = mb from hm2]
    rfl

theorem final_run {out out' b : Bytes} {s : Blk (Model.Sha2.St 64)} {rest : List Arr} (hN1 : 80 < N) (hm : s.m.length = 128) (hR : R s.h rest) (hs : s.h.hs < 2 ^ 64)
    (h : Model.Sha2.final Model.Sha2.u64 s = .ok b) (ho : memcpyTo out 0 b = .ok out') :
    ∃ e, exec N (invoke N transform) final ⟨[.ptr 0 0 1, .u64 (BitVec.ofNat 64 s.pos), .u64 s.total, .u64 (BitVec.ofNat 64 s.h.hs)], .a8 out :: .a8 s.m :: rest⟩ = some e ∧
      e.arrs[0]? = some (.a8 out') := by
  obtain ⟨e, x, s3, rest3, p', t', more, _, _, _, rfl⟩ := final_full hN1 hm hR hs h ho
  exact ⟨_, x, rfl⟩

end Sha512
end Digestpp.Cpp
