import Verif.Proofs.Cpp.Hash
import Verif.Proofs.Cpp.Whirlpool
import Verif.Proofs.Whirlpool

/-! C71, Whirlpool: `init`, `update`, `final`, and the functions together. -/

namespace Digestpp.Cpp.Whirlpool
open Src Src.Whirlpool
open Model (Blk mdFinal mdFinalTail memset memcpyTo szSub szMod bytes64 byteswap64 stores64)
open Absorb (absorb_run)
open Final
attribute [local irreducible] eval exec block

variable {N : Nat} {ext : Nat → Val → Val → Env → Option Env}

theorem patch_zero {h : List (BitVec 64)} (hh : h.length = 8) : (Arr.a64 h).patch 0 (List.replicate 64 0) = some (.a64 (List.replicate 8 0)) := by
  have hl : (stores64 h).length = 64 := by rw [stores_length, hh]
  unfold Arr.patch
  rw [Final.bytes_a64, List.length_replicate, if_pos (by omega), List.take_zero, List.nil_append, List.drop_of_length_le (by omega), List.append_nil]
  show some (Arr.a64 (words 64 h.length (List.replicate 64 0))) = _
  rw [hh]
  exact congrArg (fun x => some (Arr.a64 x)) (by decide)

theorem init_run {p t : BitVec 64} {data m : Bytes} {h K state L : List (BitVec 64)} (hh : h.length = 8) :
    exec N ext init ⟨[.u64 p, .u64 t], ar data m h K state L⟩ = some ⟨[.u64 0, .u64 0], ar data m (List.replicate 8 0) K state L⟩ := by
  unfold init
  refine st_cons (E1 := ⟨[.u64 0, .u64 t], ar data m h K state L⟩) (by run) ?_
  refine st_cons (E1 := ⟨[.u64 0, .u64 0], ar data m h K state L⟩) (by run) ?_
  refine st_one ?_
  exact st_memset (a := 2) (o := 0) (z := 8) (ev_addr (xs := .a64 h) rfl ev_lit (n := 0) rfl (get64 (by omega))) ev_lit (ev_bin ev_lit ev_lit (r := .u64 64) rfl) (k := 64) (x := 0) rfl rfl rfl (patch_zero hh) rfl

theorem update_run {data : Bytes} {s s' : Blk (List (BitVec 64))} {rest : List Arr} (hd : data.length + 128 < 2 ^ 64) (hN : data.length < N) (hN1 : 80 < N)
    (hm : s.m.length = 64) (hp : s.pos ≤ 64) (hR : R s.h rest) (h : Model.Whirlpool.update data s = .ok s') :
    ∃ e, exec N (invoke N transform) update
      ⟨[.ptr 0 0 1, .u64 (BitVec.ofNat 64 data.length), .u64 (BitVec.ofNat 64 s.pos), .u64 s.total], .a8 data :: .a8 s.m :: rest⟩ = some e ∧
      ∃ rest', R s'.h rest' ∧
        e = ⟨[.ptr 0 0 1, .u64 (BitVec.ofNat 64 data.length), .u64 (BitVec.ofNat 64 s'.pos), .u64 s'.total], .a8 data :: .a8 s'.m :: rest'⟩ :=
  absorb_run (bschk := 64) (trans hN1) (by omega) (by omega) (by omega) (fun _ => ev_lit) rfl (fun _ => ev_lit) rfl hd hN (by omega) hm hp hR h

theorem final_run {out out' b : Bytes} {s : Blk (List (BitVec 64))} {rest : List Arr} (hN1 : 80 < N) (hm : s.m.length = 64) (hp : s.pos ≤ 64) (hR : R s.h rest)
    (h : Model.Whirlpool.final s = .ok b) (ho : memcpyTo out 0 b = .ok out') :
    ∃ e, exec N (invoke N transform) final ⟨[.ptr 0 0 1, .u64 (BitVec.ofNat 64 s.pos), .u64 s.total], .a8 out :: .a8 s.m :: rest⟩ = some e ∧ e.arrs[0]? = some (.a8 out') := by
  obtain ⟨s2, e1, e2⟩ := then_ok h
  have hx : ∃ x, x = byteswap64 (s.total + BitVec.ofNat 64 (s.pos * 8)) := ⟨_, rfl⟩
  obtain ⟨x, hx⟩ := hx
  obtain ⟨s1, rest1, r1, m1, p1, t1, e3, k⟩ := pad_run (trans hN1) (by omega) (const_i32 (n := 32) (by decide)) (const_i32 (n := 64) (by decide)) (by decide) (by decide) (by decide)
    (out := out) (more := [.u64 x]) hm hR e1
  obtain ⟨ma, f1, e3⟩ := then_ok e3
  obtain ⟨mb, f2, e3⟩ := then_ok e3
  rw [t1] at f2
  replace f2 : memcpyTo ma (64 - 8) (bytes64 (Model.byteswap64 (s.total + BitVec.ofNat 64 (s.pos * 8)))) = .ok mb := f2
  rw [← hx] at f2
  have la := (memset_length f1).trans m1
  have lb := (memcpyTo_length f2).trans la
  obtain ⟨rest2, ⟨r2, K, state, L, hK, hS, hL, rfl⟩, hm2, y⟩ := call_run (trans hN1) (by omega) (by decide) (by decide) (out := out) (vs := vv s1.pos s1.total [.u64 x]) (s := { s1 with m := mb }) lb r1 e3
  apply ex_cons (E1 := ⟨vv s.pos (s.total + BitVec.ofNat 64 (s.pos * 8)) [], .a8 out :: .a8 s.m :: rest⟩)
  · exact st_set (v := .u64 (s.total + BitVec.ofNat 64 (s.pos * 8))) (ev_as (by ev) (by rw [BitVec.ofNat_mul]; rfl)) rfl rfl rfl
  apply ex_cons (E1 := ⟨vv s.pos (s.total + BitVec.ofNat 64 (s.pos * 8)) [.u64 x], .a8 out :: .a8 s.m :: rest⟩)
  · rw [hx]
    exact st_decl (by ev) rfl rfl
  apply k
  apply ex_cons (memset_run (const_i32 (n := 56) (by decide)) (by omega) (by decide) (ev_elem (by omega) (by ev) (count_u64 (by omega))) f1)
  apply ex_cons (length_run (ev_elem (n := 56) (by omega) (by ev) rfl) (by ev) rfl f2)
  apply ex_cons y
  apply ex_one
  exact ex_of (output_run rfl (ev_addr rfl ev_lit (n := 0) rfl (get64 (by omega))) (by ev) rfl (part64 e2) ho) rfl

end Digestpp.Cpp.Whirlpool

namespace Digestpp.Cpp
open Model Spec
attribute [local irreducible] eval exec block

variable {N : Nat}

theorem whirlpool_hash {parts : List Bytes} (hp : ∀ d ∈ parts, d.length < 2 ^ 63) (hN : ∀ d ∈ parts, d.length < N) (h1 : 80 < N) {out : Bytes} (ho : out.length = 64) {p t : BitVec 64} {m : Bytes}
    {H K state L : List (BitVec 64)} (hm : m.length = 64) (hH : H.length = 8) (hK : K.length = 8) (hS : state.length = 8) (hL : L.length = 8) :
    whirlpool.hash N parts out ⟨.u64 p, .u64 t, [.a8 m, .a64 H, .a64 K, .a64 state, .a64 L]⟩ = some (Spec.Whirlpool.whirlpoolWrap.digest () parts.flatten) := by
  have e : whirlpool.runInit N ⟨.u64 p, .u64 t, [.a8 m, .a64 H, .a64 K, .a64 state, .a64 L]⟩ = some ⟨.u64 0, .u64 0, [.a8 m, .a64 (List.replicate 8 0), .a64 K, .a64 state, .a64 L]⟩ := by
    unfold Class.runInit
    rw [show exec N _ whirlpool.init ⟨[.u64 p, .u64 t], .a8 [] :: [.a8 m, .a64 H, .a64 K, .a64 state, .a64 L]⟩ = _ from Whirlpool.init_run hH]
    rfl
  unfold Class.hash
  rw [e]
  obtain ⟨s', e', r⟩ := Proofs.Whirlpool.init_ok ⟨H, m, 0, 0⟩ hm
  obtain rfl := Except.ok.inj e'
  exact absorb_source (N := N) (bs := 64) (c := whirlpool) Proofs.Whirlpool.refines (fun _ _ h => buffered_pos (by decide) h)
    (fun data s s' rest h63 hN hm hp hR h => Whirlpool.update_run (by omega) hN h1 hm hp hR h)
    (fun out out' b msg s rest ha hm hR h ho => Whirlpool.final_run h1 hm (buffered_pos (by decide) ha).2 hR h ho) hp hN ho r ⟨rfl, K, state, L, hK, hS, hL, rfl⟩

end Digestpp.Cpp
