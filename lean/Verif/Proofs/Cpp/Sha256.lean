import Verif.Cpp.Src.Sha256
import Verif.Proofs.Cpp.Steps
import Verif.Proofs.Locals.Sha2
import Verif.Proofs.Locals.Total

/-! C71, SHA-256. -/

namespace Digestpp.Cpp.Sha256
open Src Src.Sha256
open Model (loop rd wr rd32 rd64)
attribute [local irreducible] eval exec block

variable {N : Nat} {ext : Nat → Val → Val → Env → Option Env}

/-- Variables and arrays in the loop over the blocks. -/
def vs (p o n blk : Nat) (more : List Val) : List Val := .ptr p o 1 :: .u64 (BitVec.ofNat 64 n) :: .u64 (BitVec.ofNat 64 blk) :: more

theorem vs_succ (p o n blk : Nat) : vs p o n (blk + 1) [] = [.ptr p o 1, .u64 (BitVec.ofNat 64 n), .u64 (BitVec.ofNat 64 blk + BitVec.ofInt 64 1)] := by
  rw [vs, BitVec.ofNat_add]
  rfl

def ar (data m : Bytes) (H M W : List (BitVec 32)) : List Arr := [.a8 data, .a8 m, .a32 H, .a32 M, .a32 W]

theorem load_idx {src : Bytes} {o blk t : Nat} {x : BitVec 32} (hb : blk * 16 + t < 2 ^ 64) (ht : t < 2 ^ 31) (hx : rd32 (src.drop o) (blk * 16 + t) = .ok x) :
    load (.a8 src) 4 (o + 4 * (BitVec.ofNat 64 blk * BitVec.ofInt 64 16 + BitVec.ofInt 64 (t : Int)).toNat) = some (.u32 x) := by
  apply load_of_rd32 hx
  have e : (BitVec.ofNat 64 blk * BitVec.ofInt 64 16 + BitVec.ofInt 64 (t : Int)).toNat = blk * 16 + t := by
    rw [show BitVec.ofInt 64 (t : Int) = BitVec.ofNat 64 t from BitVec.ofInt_natCast .., show BitVec.ofInt 64 16 = 16#64 from rfl]
    simp only [BitVec.toNat_add, BitVec.toNat_mul, BitVec.toNat_ofNat]
    omega
  omega

theorem loadM_length {data : Bytes} {blk : Nat} {M M' : List (BitVec 32)} (h : Model.Locals.Sha2.loadM Model.Sha2.u32 rd32 data blk M = .ok M') : M'.length = M.length :=
  loop_inv (P := fun X => X.length = M.length) h rfl fun t s s' hs hf => by
    obtain ⟨x, _, hw⟩ := then_ok hf
    rw [(wr_inv hw).2, List.length_set, hs]

theorem copyW_length {M W W' : List (BitVec 32)} (h : Model.Locals.Sha2.copyW M W = .ok W') : W'.length = W.length :=
  loop_inv (P := fun X => X.length = W.length) h rfl fun t s s' hs hf => by
    obtain ⟨x, _, hw⟩ := then_ok hf
    rw [(wr_inv hw).2, List.length_set, hs]

theorem expandW_length {W W' : List (BitVec 32)} (h : Model.Locals.Sha2.expandW Model.Sha2.u32 W = .ok W') : W'.length = W.length :=
  loop_inv (P := fun X => X.length = W.length) h rfl fun t s s' hs hf => by
    obtain ⟨x, _, hf⟩ := then_ok hf
    obtain ⟨x, _, hf⟩ := then_ok hf
    obtain ⟨x, _, hf⟩ := then_ok hf
    obtain ⟨x, _, hw⟩ := then_ok hf
    rw [(wr_inv hw).2, List.length_set, hs]

theorem run222 {p o n blk : Nat} {data m src : Bytes} {H M M' W : List (BitVec 32)} (hM : M.length = 16) (hN : 80 < N) (hb : blk * 16 + 16 ≤ 2 ^ 64) (hs : Src data m p src)
    (h : Model.Locals.Sha2.loadM Model.Sha2.u32 rd32 (src.drop o) blk M = .ok M') :
    exec N ext for222 ⟨vs p o n blk [], ar data m H M W⟩ = some ⟨vs p o n blk [], ar data m H M' W⟩ := by
  refine (for_fun (fun t M => ⟨vs p o n blk [.i32 t], ar data m H M W⟩) (fun _ M => M.length = 16) h ?_ hM ?_ ?_ (by omega) (by omega) rfl rfl).1
  · run
  · intro t M _ ht hM
    exact test_nat (by ev) rfl (decide_eq_decide.2 (by omega))
  · intro t M M1 _ ht hM hf
    obtain ⟨x, hx, hw⟩ := then_ok hf
    obtain ⟨_, rfl⟩ := wr_inv hw
    have hl := load_idx (by omega) (by omega) hx
    have hA : (ar data m H M W)[p]? = some (.a8 src) := hs.get _
    exact ⟨by run, by rw [List.length_set, hM]⟩

theorem run227 {p o n blk : Nat} {data m : Bytes} {H M W W' : List (BitVec 32)} (hM : M.length = 16) (hW : W.length = 64) (hN : 80 < N)
    (h : Model.Locals.Sha2.copyW M W = .ok W') :
    exec N ext for227 ⟨vs p o n blk [.i32 64], ar data m H M W⟩ = some ⟨vs p o n blk [.i32 64], ar data m H M W'⟩ := by
  refine (for_fun (fun t W => ⟨vs p o n blk [.i32 64, .i32 t], ar data m H M W⟩) (fun _ W => W.length = 64) h ?_ hW ?_ ?_ (by omega) (by omega) rfl rfl).1
  · run
  · intro t W _ ht hW
    exact test_nat (by ev) rfl (decide_eq_decide.2 (by omega))
  · intro t W W1 _ ht hW hf
    obtain ⟨x, hx, hw⟩ := then_ok hf
    obtain ⟨_, rfl⟩ := rd_inv 0 hx
    obtain ⟨_, rfl⟩ := wr_inv hw
    exact ⟨by run, by rw [List.length_set, hW]⟩

theorem run229 {p o n blk : Nat} {data m : Bytes} {H M W W' : List (BitVec 32)} (hW : W.length = 64) (hN : 80 < N)
    (h : Model.Locals.Sha2.expandW Model.Sha2.u32 W = .ok W') :
    exec N ext for229 ⟨vs p o n blk [.i32 64], ar data m H M W⟩ = some ⟨vs p o n blk [.i32 64], ar data m H M W'⟩ := by
  refine (for_fun (fun t W => ⟨vs p o n blk [.i32 64, .i32 t], ar data m H M W⟩) (fun _ W => W.length = 64) h ?_ hW ?_ ?_ ?_ (by decide) rfl rfl).1
  · run
  · intro t W _ ht hW
    replace ht : t ≤ 64 := ht
    exact test_nat (by ev) rfl (decide_eq_decide.2 (show (t : Int) < 64 ↔ t < 64 by omega))
  · intro t W W1 h16 ht hW hf
    replace ht : t < 64 := ht
    obtain ⟨x2, hx2, hf⟩ := then_ok hf
    obtain ⟨x7, hx7, hf⟩ := then_ok hf
    obtain ⟨x15, hx15, hf⟩ := then_ok hf
    obtain ⟨x16, hx16, hw⟩ := then_ok hf
    obtain ⟨_, rfl⟩ := rd_inv 0 hx2
    obtain ⟨_, rfl⟩ := rd_inv 0 hx7
    obtain ⟨_, rfl⟩ := rd_inv 0 hx15
    obtain ⟨_, rfl⟩ := rd_inv 0 hx16
    obtain ⟨_, rfl⟩ := wr_inv hw
    refine ⟨?_, by rw [List.length_set, hW]⟩
    rw [show t - 2 = ((t : Int) - 2).toNat by omega, show t - 7 = ((t : Int) - 7).toNat by omega, show t - 15 = ((t : Int) - 15).toNat by omega,
      show t - 16 = ((t : Int) - 16).toNat by omega]
    run
  · show 64 - 16 < N
    omega

theorem run241 {p o n blk : Nat} {data m : Bytes} {H M W : List (BitVec 32)} {v v' : Model.Sha2.Vars 32} (hW : W.length = 64) (hN : 80 < N)
    (h : loop 0 64 (Model.Locals.Sha2.round Model.Sha2.u32 W) v = .ok v') :
    exec N ext for241 ⟨vs p o n blk [.i32 64, .u32 v.a, .u32 v.b, .u32 v.c, .u32 v.d, .u32 v.e, .u32 v.f, .u32 v.g, .u32 v.h], ar data m H M W⟩
      = some ⟨vs p o n blk [.i32 64, .u32 v'.a, .u32 v'.b, .u32 v'.c, .u32 v'.d, .u32 v'.e, .u32 v'.f, .u32 v'.g, .u32 v'.h], ar data m H M W⟩ := by
  refine (for_fun (fun t v => ⟨vs p o n blk [.i32 64, .u32 v.a, .u32 v.b, .u32 v.c, .u32 v.d, .u32 v.e, .u32 v.f, .u32 v.g, .u32 v.h, .i32 t], ar data m H M W⟩) (fun _ _ => True) h ?_ trivial ?_ ?_ (by show 64 - 0 < N; omega) (by decide) rfl rfl).1
  · run
  · intro t v _ ht _
    exact test_nat (by ev) rfl (decide_eq_decide.2 (show (t : Int) < 64 ↔ t < 64 by omega))
  · intro t v v1 _ ht _ hf
    obtain ⟨k, hk, hf⟩ := then_ok hf
    obtain ⟨x, hx, hf⟩ := then_ok hf
    obtain ⟨hk', rfl⟩ := rd_inv 0 hk
    obtain ⟨_, rfl⟩ := rd_inv 0 hx
    have hk1 : t < Model.sha256_K.length := hk'
    cases hf
    refine ⟨?_, trivial⟩
    run

theorem transform_run {p o n : Nat} {data m src : Bytes} {M W : List (BitVec 32)} {h h' : Model.Sha2.St 32} (k0 : Model.Locals.Sha2.Stack 32) (hM : M.length = 16) (hW : W.length = 64)
    (hH : h.H.length = 8) (hN : 80 < N) (hn : n < N) (hd : n * 16 < 2 ^ 64) (hs : Src data m p src)
    (hk : ∀ blk M W h, blk < n → M.length = 16 → W.length = 64 → h.H.length = 8 →
      Model.Locals.Sha2.block Model.Sha2.u32 rd32 k0 (src.drop o) blk h = Model.Locals.Sha2.block Model.Sha2.u32 rd32 ⟨M, W⟩ (src.drop o) blk h)
    (hl : loop 0 n (fun blk h => Model.Locals.Sha2.block Model.Sha2.u32 rd32 k0 (src.drop o) blk h) h = .ok h') :
    ∃ e, exec N ext transform ⟨[.ptr p o 1, .u64 (BitVec.ofNat 64 n)], ar data m h.H M W⟩ = some e ∧ ∃ M' W', M'.length = 16 ∧ W'.length = 64 ∧ h'.H.length = 8 ∧ e = ⟨[.ptr p o 1, .u64 (BitVec.ofNat 64 n)], ar data m h'.H M' W'⟩ := by
  apply ex_one
  apply for_rel (fun blk (h : Model.Sha2.St 32) e => ∃ M W, M.length = 16 ∧ W.length = 64 ∧ h.H.length = 8 ∧ e = ⟨vs p o n blk [], ar data m h.H M W⟩) hl
    (E0 := ⟨vs p o n 0 [], ar data m h.H M W⟩)
  · run
  · exact ⟨M, W, hM, hW, hH, rfl⟩
  · rintro t h e _ ht ⟨M, W, hM, hW, hH, rfl⟩
    exact test_nat (by ev) rfl (decide_eq_decide.2 (by simp only [BitVec.toNat_ofNat]; omega))
  · rintro blk h e h1 _ ht ⟨M, W, hM, hW, hH, rfl⟩ he
    rw [hk blk M W h ht hM hW hH] at he
    obtain ⟨M1, e1, he⟩ := then_ok he
    obtain ⟨W1, e2, he⟩ := then_ok he
    obtain ⟨W2, e3, he⟩ := then_ok he
    obtain ⟨v1, e4, he⟩ := then_ok he
    obtain ⟨v2, e5, he⟩ := then_ok he
    obtain ⟨H2, e6, he⟩ := then_ok he
    obtain rfl := Except.ok.inj he
    clear hk hl he
    have l1 : M1.length = 16 := (loadM_length e1).trans hM
    have l2 : W1.length = 64 := (copyW_length e2).trans hW
    have l3 : W2.length = 64 := (expandW_length e3).trans l2
    obtain ⟨H, hsz⟩ := h
    match H, hH with
    | [a0, a1, a2, a3, a4, a5, a6, a7], _ =>
    obtain rfl := Except.ok.inj e4
    obtain rfl := Except.ok.inj e6
    have x1 := run222 (N := N) (ext := ext) (p := p) (o := o) (n := n) (H := [a0, a1, a2, a3, a4, a5, a6, a7]) (W := W) hM hN (by omega) hs e1
    have x2 := run227 (N := N) (ext := ext) (p := p) (o := o) (n := n) (blk := blk) (data := data) (m := m) (H := [a0, a1, a2, a3, a4, a5, a6, a7]) l1 hW hN e2
    have x3 := run229 (N := N) (ext := ext) (p := p) (o := o) (n := n) (blk := blk) (data := data) (m := m) (H := [a0, a1, a2, a3, a4, a5, a6, a7]) (M := M1) l2 hN e3
    have x4 := run241 (N := N) (ext := ext) (p := p) (o := o) (n := n) (blk := blk) (data := data) (m := m) (H := [a0, a1, a2, a3, a4, a5, a6, a7]) (M := M1) l3 hN e5
    clear e1 e2 e3 e4 e5 e6
    refine ⟨⟨vs p o n (blk + 1) [], ar data m _ M1 W2⟩, ?_, M1, W2, l1, l3, rfl, rfl⟩
    rw [vs_succ]
    run
  · omega
  · omega
  · rintro e ⟨M, W, hM, hW, hH, rfl⟩
    exact ⟨M, W, hM, hW, hH, rfl⟩
end Digestpp.Cpp.Sha256
