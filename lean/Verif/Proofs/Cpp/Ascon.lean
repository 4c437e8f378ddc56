import Verif.Cpp.AsconCalls
import Verif.Proofs.Cpp.Shake
import Verif.Proofs.Locals.Ascon
import Verif.Proofs.Ascon

/-! C71, Ascon: `transform`. -/

namespace Digestpp.Cpp.Ascon
open Src Src.Ascon
open Model (Blk loop rd64)
open Sha3 (succ64 upd_inv)
attribute [local irreducible] eval exec block

variable {N : Nat} {ext : Nat → Val → Val → Env → Option Env}

/-- The arrays. -/
abbrev ar (data m : Bytes) (H : List (BitVec 64)) : List Arr := [.a8 data, .a8 m, .a64 H]

/-- The variables of `transform`. -/
abbrev vs (p o n blk : Nat) (more : List Val) : List Val := .ptr p o 1 :: .u64 (BitVec.ofNat 64 n) :: .u64 (BitVec.ofNat 64 blk) :: more

/-- ascon_provider.hpp 147-171. -/
theorem rounds_run {p o n blk : Nat} {data m : Bytes} {H H' : List (BitVec 64)} (hN : 80 < N) (hH : H.length = 5) (h : loop 0 12 Model.Locals.Ascon.round H = .ok H') :
    exec N ext for147 ⟨vs p o n blk [], ar data m H⟩ = some ⟨vs p o n blk [], ar data m H'⟩ ∧ H'.length = 5 := by
  refine for_fun (fun t H => ⟨vs p o n blk [.i32 t], ar data m H⟩) (fun _ (H : List (BitVec 64)) => H.length = 5) h ?_ hH ?_ ?_ (by omega) (by omega) rfl rfl
  · run
  · intro t H _ ht hH
    exact test_nat (by ev) rfl (decide_eq_decide.2 (by omega))
  · intro t H H1 _ ht hH hf
    obtain ⟨e, l⟩ := Proofs.Locals.Ascon.round_ok t ht H hH
    have hk : t < Model.ascon_RC.length := by rw [Proofs.Locals.Ascon.RC_length]; exact ht
    rw [e] at hf
    obtain rfl := Except.ok.inj hf
    refine ⟨?_, l⟩
    unfold Model.Ascon.round
    match H, hH with
    | [a0, a1, a2, a3, a4], _ =>
    run

theorem transform_run {p o n : Nat} {data m src : Bytes} {H H' : List (BitVec 64)} (hN : 80 < N) (hn : n < N) (hs : Src data m p src) (hl : src.length < 2 ^ 64)
    (hd : n * 8 ≤ (src.drop o).length) (hH : H.length = 5) (h : loop 0 n (Model.Locals.Ascon.block (src.drop o)) H = .ok H') :
    exec N ext transform ⟨[.ptr p o 1, .u64 (BitVec.ofNat 64 n)], ar data m H⟩ = some ⟨[.ptr p o 1, .u64 (BitVec.ofNat 64 n)], ar data m H'⟩ ∧ H'.length = 5 := by
  rw [List.length_drop] at hd
  have x : exec N ext for143 ⟨[.ptr p o 1, .u64 (BitVec.ofNat 64 n)], ar data m H⟩ = some ⟨[.ptr p o 1, .u64 (BitVec.ofNat 64 n)], ar data m H'⟩ ∧ H'.length = 5 := by
    refine for_fun (fun blk H => ⟨vs p o n blk [], ar data m H⟩) (fun _ (H : List (BitVec 64)) => H.length = 5) h ?_ hH ?_ ?_ (by omega) (by omega) rfl rfl
    · run
    · intro t H _ ht hH
      exact test_nat (by ev) rfl (decide_eq_decide.2 (by simp only [BitVec.toNat_ofNat]; omega))
    · intro blk H H1 _ ht hH hf
      obtain ⟨x, e1, hf⟩ := then_ok hf
      obtain ⟨H2, e2, e3⟩ := then_ok hf
      obtain ⟨hi, rfl⟩ := upd_inv e2
      obtain ⟨y, l⟩ := rounds_run (N := N) (ext := ext) (p := p) (o := o) (n := n) (blk := blk) (data := data) (m := m) hN (by rw [List.length_set]; exact hH) e3
      refine ⟨?_, l⟩
      have hA : (ar data m H)[p]? = some (.a8 src) := hs.get _
      have hld := load_of_rd64 (o := o + 8 * blk) e1 rfl
      refine st_seq (E1 := ⟨vs p o n blk [], ar data m H1⟩) (st_scope (vs' := vs p o n blk []) (st_cons ?_ (st_one y)) rfl) ?_
      · exact st_store (n := 0) (v := .u64 (H.getD 0 0 ^^^ x)) ev_lit rfl (ev_bin (w := .u64 x) (ev_idx rfl ev_lit (n := 0) rfl (get64 hi))
          (ev_at (ev_recast (ev_var rfl rfl)) (ev_var rfl rfl) hA (count_u64 (by omega)) hld) rfl) rfl (put64 rfl hi) rfl
      · exact st_set (v := .u64 (BitVec.ofNat 64 (blk + 1))) (ev_as (ev_bin (ev_var rfl rfl) ev_lit rfl) (congrArg Val.u64 succ64)) rfl rfl rfl
  exact ⟨st_one x.1, x.2⟩

/-- `H` is in the array after `m`. -/
def R (h : Model.Ascon.St) (rest : List Arr) : Prop := h.H.length = 5 ∧ rest = [.a64 h.H]

theorem trans (hN : 80 < N) : Absorb.Trans N 8 R Model.Ascon.transform (AsconCalls.calls N) := by
  rintro data m src p o n y s s' rest vs hs hb hl hn hy ⟨hH, rfl⟩ h
  have hlen : n * 8 ≤ (src.drop o).length := by rw [List.length_drop]; omega
  rw [← Proofs.Locals.Ascon.transform_eq _ _ hlen s hH] at h
  obtain ⟨H', e1, e2⟩ := then_ok h
  obtain rfl := Except.ok.inj e2
  obtain ⟨x, l⟩ := transform_run (N := N) (ext := fun _ _ _ _ => none) (m := m) hN hn hs hl hlen hH e1
  exact ⟨_, _, rfl, ⟨l, rfl⟩, invoke_run (f := 0) hy x⟩

end Digestpp.Cpp.Ascon
