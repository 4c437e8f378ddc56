import Verif.Cpp.Src.Sha1
import Verif.Proofs.Cpp.Steps
import Verif.Proofs.Locals.Sha1

/-! C71, SHA-1. -/

namespace Digestpp.Cpp.Sha1
open Src Src.Sha1
open Model (loop rd wr rd32)
open Model.Locals (loadM32 copyW32)
open Model.Locals.Sha1 (expandW)
attribute [local irreducible] eval exec block

variable {N : Nat} {ext : Nat → Val → Val → Env → Option Env}

/-- Variables and arrays in the loop over the blocks. -/
def vs (p o n blk : Nat) (more : List Val) : List Val := .ptr p o 1 :: .u64 (BitVec.ofNat 64 n) :: .u64 (BitVec.ofNat 64 blk) :: more

theorem vs_succ (p o n blk : Nat) : vs p o n (blk + 1) [] = [.ptr p o 1, .u64 (BitVec.ofNat 64 n), .u64 (BitVec.ofNat 64 blk + BitVec.ofInt 64 1)] := by
  rw [vs, BitVec.ofNat_add]
  rfl

def ar (data m : Bytes) (H M W : List (BitVec 32)) : List Arr := [.a8 data, .a8 m, .a32 H, .a32 M, .a32 W]

theorem load_idx {src : Bytes} {o blk t : Nat} {x : BitVec 32} (hb : blk * 16 + t < 2 ^ 64) (ht : t < 2 ^ 31) (hx : rd32 (src.drop o) (blk * 16 + t) = .ok x) :
    load (.a8 src) 4 (o + 4 * (BitVec.ofNat 64 blk * BitVec.ofInt 64 16 + (BitVec.ofNat 32 t).setWidth 64).toNat) = some (.u32 x) := by
  apply load_of_rd32 hx
  have e : (BitVec.ofNat 64 blk * BitVec.ofInt 64 16 + (BitVec.ofNat 32 t).setWidth 64).toNat = blk * 16 + t := by
    rw [show BitVec.ofInt 64 16 = 16#64 from rfl]
    simp only [BitVec.toNat_add, BitVec.toNat_mul, BitVec.toNat_ofNat, BitVec.toNat_setWidth]
    omega
  omega

theorem loadM_length {data : Bytes} {blk : Nat} {M M' : List (BitVec 32)} (h : loadM32 data blk M = .ok M') : M'.length = M.length :=
  loop_inv (P := fun X => X.length = M.length) h rfl fun t s s' hs hf => by
    obtain ⟨x, _, hw⟩ := then_ok hf
    rw [(wr_inv hw).2, List.length_set, hs]

theorem copyW_length {M W W' : List (BitVec 32)} (h : copyW32 M W = .ok W') : W'.length = W.length :=
  loop_inv (P := fun X => X.length = W.length) h rfl fun t s s' hs hf => by
    obtain ⟨x, _, hw⟩ := then_ok hf
    rw [(wr_inv hw).2, List.length_set, hs]

theorem expandW_length {W W' : List (BitVec 32)} (h : expandW W = .ok W') : W'.length = W.length :=
  loop_inv (P := fun X => X.length = W.length) h rfl fun t s s' hs hf => by
    obtain ⟨x, _, hf⟩ := then_ok hf
    obtain ⟨x, _, hf⟩ := then_ok hf
    obtain ⟨x, _, hf⟩ := then_ok hf
    obtain ⟨x, _, hw⟩ := then_ok hf
    rw [(wr_inv hw).2, List.length_set, hs]

theorem run101 {p o n blk : Nat} {data m src : Bytes} {H M M' W : List (BitVec 32)} (hM : M.length = 16) (hN : 80 < N) (hb : blk * 16 + 16 ≤ 2 ^ 64) (hs : Src data m p src)
    (h : loadM32 (src.drop o) blk M = .ok M') :
    exec N ext for101 ⟨vs p o n blk [], ar data m H M W⟩ = some ⟨vs p o n blk [], ar data m H M' W⟩ := by
  refine (for_fun (fun t M => ⟨vs p o n blk [.u32 (BitVec.ofNat 32 t)], ar data m H M W⟩) (fun _ M => M.length = 16) h ?_ hM ?_ ?_ (by omega) (by omega) rfl rfl).1
  · run
  · intro t M _ ht hM
    exact test_nat (by ev) rfl (decide_eq_decide.2 (by
      show (BitVec.ofNat 32 t).toNat < 16 ↔ _
      rw [BitVec.toNat_ofNat]
      omega))
  · intro t M M1 _ ht hM hf
    obtain ⟨x, hx, hw⟩ := then_ok hf
    obtain ⟨_, rfl⟩ := wr_inv hw
    have hl := load_idx (by omega) (by omega) hx
    have hA : (ar data m H M W)[p]? = some (.a8 src) := hs.get _
    refine ⟨?_, by rw [List.length_set, hM]⟩
    rw [BitVec.ofNat_add]
    run

theorem run105 {p o n blk : Nat} {data m : Bytes} {H M W W' : List (BitVec 32)} (hM : M.length = 16) (hW : W.length = 80) (hN : 80 < N)
    (h : copyW32 M W = .ok W') :
    exec N ext for105 ⟨vs p o n blk [], ar data m H M W⟩ = some ⟨vs p o n blk [], ar data m H M W'⟩ := by
  refine (for_fun (fun t W => ⟨vs p o n blk [.i32 t], ar data m H M W⟩) (fun _ W => W.length = 80) h ?_ hW ?_ ?_ (by omega) (by omega) rfl rfl).1
  · run
  · intro t W _ ht hW
    exact test_nat (by ev) rfl (decide_eq_decide.2 (by omega))
  · intro t W W1 _ ht hW hf
    obtain ⟨x, hx, hw⟩ := then_ok hf
    obtain ⟨_, rfl⟩ := rd_inv 0 hx
    obtain ⟨_, rfl⟩ := wr_inv hw
    exact ⟨by run, by rw [List.length_set, hW]⟩

theorem run107 {p o n blk : Nat} {data m : Bytes} {H M W W' : List (BitVec 32)} (hW : W.length = 80) (hN : 80 < N)
    (h : expandW W = .ok W') :
    exec N ext for107 ⟨vs p o n blk [], ar data m H M W⟩ = some ⟨vs p o n blk [], ar data m H M W'⟩ := by
  refine (for_fun (fun t W => ⟨vs p o n blk [.i32 t], ar data m H M W⟩) (fun _ W => W.length = 80) h ?_ hW ?_ ?_ (by omega) (by decide) rfl rfl).1
  · run
  · intro t W _ ht hW
    exact test_nat (by ev) rfl (decide_eq_decide.2 (by omega))
  · intro t W W1 h16 ht hW hf
    obtain ⟨x2, hx2, hf⟩ := then_ok hf
    obtain ⟨x7, hx7, hf⟩ := then_ok hf
    obtain ⟨x15, hx15, hf⟩ := then_ok hf
    obtain ⟨x16, hx16, hw⟩ := then_ok hf
    obtain ⟨_, rfl⟩ := rd_inv 0 hx2
    obtain ⟨_, rfl⟩ := rd_inv 0 hx7
    obtain ⟨_, rfl⟩ := rd_inv 0 hx15
    obtain ⟨_, rfl⟩ := rd_inv 0 hx16
    obtain ⟨_, rfl⟩ := wr_inv hw
    refine ⟨?_, by rw [List.length_set, hW]⟩
    rw [show t - 3 = ((t : Int) - 3).toNat by omega, show t - 8 = ((t : Int) - 8).toNat by omega, show t - 14 = ((t : Int) - 14).toNat by omega,
      show t - 16 = ((t : Int) - 16).toNat by omega]
    run

/-- The number standing for the function in round `t`, and the function. -/
def num (t : Nat) : Int := if t < 20 then 0 else if t < 40 then 1 else if t < 60 then 2 else 1

def fn (t : Nat) : BitVec 32 → BitVec 32 → BitVec 32 → BitVec 32 :=
  if t < 20 then Model.Sha1.Ch else if t < 40 then Model.Sha1.Parity else if t < 60 then Model.Sha1.Maj else Model.Sha1.Parity

theorem run118 {p o n blk : Nat} {data m : Bytes} {H M W : List (BitVec 32)} {v v' : Model.Sha1.Vars} (hW : W.length = 80) (hN : 80 < N) (hf : v.f = Model.Sha1.Ch)
    (h : loop 0 80 (Model.Locals.Sha1.round W) v = .ok v') :
    exec N ext for118 ⟨vs p o n blk [.u32 v.a, .u32 v.b, .u32 v.c, .u32 v.d, .u32 v.e, .u32 v.K, .i32 0], ar data m H M W⟩
      = some ⟨vs p o n blk [.u32 v'.a, .u32 v'.b, .u32 v'.c, .u32 v'.d, .u32 v'.e, .u32 v'.K, .i32 1], ar data m H M W⟩ := by
  refine (for_fun (fun t v => ⟨vs p o n blk [.u32 v.a, .u32 v.b, .u32 v.c, .u32 v.d, .u32 v.e, .u32 v.K, .i32 (num t), .i32 t], ar data m H M W⟩) (fun t v => v.f = fn t) h ?_ hf ?_ ?_ (by omega) (by decide) rfl rfl).1
  · run
  · intro t v _ ht _
    exact test_nat (by ev) rfl (decide_eq_decide.2 (by omega))
  · intro t v v1 _ ht hv hf
    obtain ⟨x, hx, hf⟩ := then_ok hf
    obtain ⟨_, rfl⟩ := rd_inv 0 hx
    obtain ⟨a, b, c, d, e, f, K⟩ := v
    obtain rfl : f = fn t := hv
    unfold Model.Locals.Sha1.switch at hf
    by_cases h19 : t = 19
    · subst h19
      obtain rfl := Except.ok.inj hf
      refine ⟨?_, rfl⟩
      run
    by_cases h39 : t = 39
    · subst h39
      obtain rfl := Except.ok.inj hf
      refine ⟨?_, rfl⟩
      run
    by_cases h59 : t = 59
    · subst h59
      obtain rfl := Except.ok.inj hf
      refine ⟨?_, rfl⟩
      run
    rw [if_neg h19, if_neg h39, if_neg h59] at hf
    obtain rfl := Except.ok.inj hf
    have f1 : fn (t + 1) = fn t := by
      unfold fn
      by_cases c1 : t < 20
      · rw [if_pos c1, if_pos (by omega)]
      by_cases c2 : t < 40
      · rw [if_neg c1, if_pos c2, if_neg (by omega), if_pos (by omega)]
      by_cases c3 : t < 60
      · rw [if_neg c1, if_neg c2, if_pos c3, if_neg (by omega), if_neg (by omega), if_pos (by omega)]
      · rw [if_neg c1, if_neg c2, if_neg c3, if_neg (by omega), if_neg (by omega), if_neg (by omega)]
    have n1 : num (t + 1) = num t := by
      unfold num
      repeat' split
      all_goals omega
    refine ⟨?_, f1.symm⟩
    rw [n1]
    by_cases c1 : t < 20
    · rw [show num t = 0 from if_pos c1, show fn t = Model.Sha1.Ch from if_pos c1]
      run
    by_cases c2 : t < 40
    · rw [show num t = 1 by rw [num, if_neg c1, if_pos c2], show fn t = Model.Sha1.Parity by rw [fn, if_neg c1, if_pos c2]]
      run
    by_cases c3 : t < 60
    · rw [show num t = 2 by rw [num, if_neg c1, if_neg c2, if_pos c3], show fn t = Model.Sha1.Maj by rw [fn, if_neg c1, if_neg c2, if_pos c3]]
      run
    · rw [show num t = 1 by rw [num, if_neg c1, if_neg c2, if_neg c3], show fn t = Model.Sha1.Parity by rw [fn, if_neg c1, if_neg c2, if_neg c3]]
      run

theorem transform_run {p o n : Nat} {data m src : Bytes} {M W : List (BitVec 32)} {H H' : List (BitVec 32)} (k0 : Model.Locals.Sha1.Stack) (hM : M.length = 16) (hW : W.length = 80)
    (hH : H.length = 5) (hN : 80 < N) (hn : n < N) (hd : n * 16 < 2 ^ 64) (hs : Src data m p src)
    (hk : ∀ blk M W H, blk < n → M.length = 16 → W.length = 80 → H.length = 5 →
      Model.Locals.Sha1.block k0 (src.drop o) blk H = Model.Locals.Sha1.block ⟨M, W⟩ (src.drop o) blk H)
    (hl : loop 0 n (fun blk H => Model.Locals.Sha1.block k0 (src.drop o) blk H) H = .ok H') :
    ∃ e, exec N ext transform ⟨[.ptr p o 1, .u64 (BitVec.ofNat 64 n)], ar data m H M W⟩ = some e ∧
      ∃ M' W', M'.length = 16 ∧ W'.length = 80 ∧ H'.length = 5 ∧ e = ⟨[.ptr p o 1, .u64 (BitVec.ofNat 64 n)], ar data m H' M' W'⟩ := by
  apply ex_one
  apply for_rel (fun blk (H : List (BitVec 32)) e => ∃ M W, M.length = 16 ∧ W.length = 80 ∧ H.length = 5 ∧ e = ⟨vs p o n blk [], ar data m H M W⟩) hl
    (E0 := ⟨vs p o n 0 [], ar data m H M W⟩)
  · run
  · exact ⟨M, W, hM, hW, hH, rfl⟩
  · rintro t h e _ ht ⟨M, W, hM, hW, hH, rfl⟩
    exact test_nat (by ev) rfl (decide_eq_decide.2 (by simp only [BitVec.toNat_ofNat]; omega))
  · rintro blk H e H1 _ ht ⟨M, W, hM, hW, hH, rfl⟩ he
    rw [hk blk M W H ht hM hW hH] at he
    obtain ⟨M1, e1, he⟩ := then_ok he
    obtain ⟨W1, e2, he⟩ := then_ok he
    obtain ⟨W2, e3, he⟩ := then_ok he
    obtain ⟨v1, e4, he⟩ := then_ok he
    obtain ⟨v2, e5, e6⟩ := then_ok he
    clear hk hl he
    have l1 : M1.length = 16 := (loadM_length e1).trans hM
    have l2 : W1.length = 80 := (copyW_length e2).trans hW
    have l3 : W2.length = 80 := (expandW_length e3).trans l2
    match H, hH with
    | [a0, a1, a2, a3, a4], _ =>
    obtain rfl := Except.ok.inj e4
    obtain rfl := Except.ok.inj e6
    have x1 := run101 (N := N) (ext := ext) (p := p) (o := o) (n := n) (H := [a0, a1, a2, a3, a4]) (W := W) hM hN (by omega) hs e1
    have x2 := run105 (N := N) (ext := ext) (p := p) (o := o) (n := n) (blk := blk) (data := data) (m := m) (H := [a0, a1, a2, a3, a4]) l1 hW hN e2
    have x3 := run107 (N := N) (ext := ext) (p := p) (o := o) (n := n) (blk := blk) (data := data) (m := m) (H := [a0, a1, a2, a3, a4]) (M := M1) l2 hN e3
    have x4 := run118 (N := N) (ext := ext) (p := p) (o := o) (n := n) (blk := blk) (data := data) (m := m) (H := [a0, a1, a2, a3, a4]) (M := M1) l3 hN rfl e5
    clear e1 e2 e3 e4 e5 e6
    refine ⟨⟨vs p o n (blk + 1) [], ar data m _ M1 W2⟩, ?_, M1, W2, l1, l3, rfl, rfl⟩
    rw [vs_succ]
    run
  · omega
  · omega
  · rintro e ⟨M, W, hM, hW, hH, rfl⟩
    exact ⟨M, W, hM, hW, hH, rfl⟩
end Digestpp.Cpp.Sha1
