import Verif.Cpp.Src.Kmac
import Verif.Proofs.Cpp.LeftEncode

/-! C71, KMAC: `right_encode`. -/

namespace Digestpp.Cpp.RightEncode
open Src Src.Kmac
open LeftEncode (U at_app set_app shift_run count_run countLoop_le countLoop_ge shr8 shr64 inc8 dec8 to8 truth8 truth64 while_stop while_more)
open Model.Shake (countLoop rightEncode)
attribute [local irreducible] eval exec block

variable {N : Nat} {ext : Nat → Val → Val → Env → Option Env}

/-- The value of `n` at first (shake_provider.hpp 39). -/
def start (num : Nat) (k12 : Bool) : Nat := if k12 then if num ≠ 0 then 1 else 0 else 1

/-- The variables of `right_encode` after those of the function that calls it (shake_provider.hpp 36-45). -/
abbrev V (vs : List Val) (num : Nat) (k12 : Bool) (n tmp : Nat) (more : List Val) : List Val :=
  vs ++ (.u64 (BitVec.ofNat 64 num) :: .ptr 5 0 1 :: .bool k12 :: .u8 (BitVec.ofNat 8 n) :: .u64 (BitVec.ofNat 64 tmp) :: more)

/-- The buffer when `n` bytes are still to be written. -/
def stage (T buf : Bytes) (n : Nat) : Bytes := buf.take n ++ T.drop n ++ buf.drop T.length

theorem stage_zero {T buf : Bytes} : stage T buf 0 = T ++ buf.drop T.length := rfl

theorem stage_length {T buf : Bytes} {n : Nat} (h : n ≤ T.length) (hb : T.length ≤ buf.length) : (stage T buf n).length = buf.length := by
  unfold stage
  simp only [List.length_append, List.length_take, List.length_drop]
  omega

theorem stage_step {T buf : Bytes} {n : Nat} (h : n < T.length) (hb : T.length ≤ buf.length) : (stage T buf (n + 1)).set n (T.getD n 0) = stage T buf n := by
  apply List.ext_getElem?
  intro i
  rw [List.getElem?_set, stage_length (by omega) hb]
  have hT : T.getD n 0 = T[n] := by rw [List.getD_eq_getElem?_getD, List.getElem?_eq_getElem h, Option.getD_some]
  by_cases hi : n = i
  · subst hi
    rw [if_pos rfl, if_pos (by omega), hT]
    unfold stage
    rw [List.append_assoc, List.getElem?_append_right (by simp only [List.length_take]; omega),
      List.getElem?_append_left (by simp only [List.length_take, List.length_drop]; omega), List.getElem?_drop]
    simp only [List.length_take]
    rw [show n + (n - min n buf.length) = n by omega, List.getElem?_eq_getElem h]
  · rw [if_neg hi]
    unfold stage
    simp only [List.getElem?_append, List.length_append, List.length_take, List.length_drop, List.getElem?_take, List.getElem?_drop]
    repeat' split
    all_goals first | rfl | omega | (congr 1; omega)

theorem stage_all {T buf : Bytes} (hb : T.length ≤ buf.length) : stage T buf T.length = buf := by
  unfold stage
  rw [List.drop_of_length_le (Nat.le_refl _), List.append_nil, List.take_append_drop]

theorem byte_at {num n : Nat} {k12 : Bool} (hn : countLoop 8 num (start num k12) = n) {j : Nat} (hj : j < n) : (rightEncode num k12).getD j 0 = BitVec.ofNat 8 (num >>> (8 * (n - 1 - j))) := by
  unfold rightEncode
  unfold start at hn
  dsimp only
  rw [hn, List.getD_eq_getElem?_getD, List.getElem?_append_left (by simpa using hj), List.getElem?_map, List.getElem?_range hj]
  rfl

theorem byte_last {num n : Nat} {k12 : Bool} (hn : countLoop 8 num (start num k12) = n) : (rightEncode num k12).getD n 0 = BitVec.ofNat 8 n := by
  unfold rightEncode
  unfold start at hn
  dsimp only
  rw [hn, List.getD_eq_getElem?_getD, List.getElem?_append_right (by simp), List.length_map, List.length_range, Nat.sub_self]
  rfl

theorem length_eq {num n : Nat} {k12 : Bool} (hn : countLoop 8 num (start num k12) = n) : (rightEncode num k12).length = n + 1 := by
  unfold rightEncode
  unfold start at hn
  dsimp only
  rw [hn, List.length_append, List.length_map, List.length_range]
  rfl

/-- shake_provider.hpp 46: `n--`. -/
theorem dec_run {vs : List Val} {dep num n : Nat} {k12 : Bool} {more : List Val} {A : List Arr} (hd : vs.length = dep) (hn : n + 1 < 256) :
    exec N ext (.set (dep + 3) (.bin .sub (.var (dep + 3)) (.lit (.i32 1)))) ⟨V vs num k12 (n + 1) 0 more, A⟩ = some ⟨V vs num k12 n 0 more, A⟩ := by
  refine st_set (v := .i32 (n : Int)) (old := .u8 (BitVec.ofNat 8 (n + 1))) ?_ (at_app hd) to8 (set_app hd)
  exact ev_bin (ev_var (v := .u8 (BitVec.ofNat 8 (n + 1))) (at_app hd) rfl) ev_lit (dec8 (by omega))

/-- shake_provider.hpp 46-47: the loop. -/
theorem write_run {vs : List Val} {dep num n0 : Nat} {k12 : Bool} {res : Val} {buf : Bytes} {a0 a1 a2 a3 a4 : Arr} {more : List Arr} (hd : vs.length = dep) (hnum : num < 2 ^ 64)
    (h0 : countLoop 8 num (start num k12) = n0) (h8 : n0 ≤ 8) (hb : (rightEncode num k12).length ≤ buf.length) : ∀ (n K : Nat), n ≤ n0 → n < K →
    iterate (fun E => test E (.var (dep + 3))) (exec N ext (.seq (.set (dep + 3) (.bin .sub (.var (dep + 3)) (.lit (.i32 1)))) (.scope (block [
      .storep (.var (dep + 1)) (.var (dep + 3)) (.cast .u8 (.bin .shr (.var (dep + 0)) (.bin .mul (.lit (.i32 8)) (.var (dep + 6))))),
      .set (dep + 6) (.bin .add (.var (dep + 6)) (.lit (.i32 1)))])))) K
      ⟨V vs num k12 n 0 [res, .u64 (BitVec.ofNat 64 (n0 - n))], a0 :: a1 :: a2 :: a3 :: a4 :: .a8 (stage (rightEncode num k12) buf n) :: more⟩ =
      some ⟨V vs num k12 0 0 [res, .u64 (BitVec.ofNat 64 n0)], a0 :: a1 :: a2 :: a3 :: a4 :: .a8 (stage (rightEncode num k12) buf 0) :: more⟩ := by
  intro n
  have hl := length_eq h0
  induction n with
  | zero =>
    intro K h1 h2
    obtain ⟨K, rfl⟩ : ∃ K', K = K' + 1 := ⟨K - 1, by omega⟩
    exact while_stop (v := .u8 0) (ev_var (at_app hd) rfl) rfl
  | succ n ih =>
    intro K h1 h2
    obtain ⟨K, rfl⟩ : ∃ K', K = K' + 1 := ⟨K - 1, by omega⟩
    have hs := ih K (by omega) (by omega)
    refine while_more (v := .u8 (BitVec.ofNat 8 (n + 1))) (ev_var (at_app hd) rfl) (by rw [truth8 (by omega), decide_eq_true (by omega)]) ?_ hs
    refine st_seq (dec_run hd (by omega)) ?_
    refine st_scope (vs' := V vs num k12 n 0 [res, .u64 (BitVec.ofNat 64 (n0 - n))]) ?_ (List.take_of_length_le (by simp))
    refine st_cons (E1 := ⟨V vs num k12 n 0 [res, .u64 (BitVec.ofNat 64 (n0 - (n + 1)))], a0 :: a1 :: a2 :: a3 :: a4 :: .a8 (stage (rightEncode num k12) buf n) :: more⟩) ?_ (st_one ?_)
    · refine st_storep (a := 5) (o := 0) (s := 1) (n := n) (v := .u8 ((rightEncode num k12).getD n 0)) (ev_var (at_app hd) rfl) (ev_var (v := .u8 (BitVec.ofNat 8 n)) (at_app hd) rfl) ?_ ?_
        (xs := .a8 (stage (rightEncode num k12) buf (n + 1))) rfl ⟨rfl, rfl⟩ (xs' := .a8 (stage (rightEncode num k12) buf n)) ?_ rfl
      · show some (BitVec.ofNat 8 n).toNat = _
        rw [BitVec.toNat_ofNat, Nat.mod_eq_of_lt (by omega)]
      · rw [byte_at h0 (by omega)]
        have hm : eval ⟨V vs num k12 n 0 [res, .u64 (BitVec.ofNat 64 (n0 - (n + 1)))], a0 :: a1 :: a2 :: a3 :: a4 :: .a8 (stage (rightEncode num k12) buf (n + 1)) :: more⟩
            (.bin .mul (.lit (.i32 8)) (.var (dep + 6))) [] = some [.u64 (BitVec.ofNat 64 (8 * (n0 - (n + 1))))] := by
          refine ev_bin ev_lit (ev_var (v := .u64 (BitVec.ofNat 64 (n0 - (n + 1)))) (at_app hd) rfl) ?_
          show some (Val.u64 (BitVec.ofInt 64 8 * BitVec.ofNat 64 (n0 - (n + 1)))) = _
          congr 2
          apply BitVec.eq_of_toNat_eq
          rw [BitVec.toNat_mul, BitVec.toNat_ofNat, BitVec.toNat_ofNat, Nat.mod_eq_of_lt (by omega : n0 - (n + 1) < 2 ^ 64)]
          rfl
        refine ev_cast (v := .u64 (BitVec.ofNat 64 (num / 2 ^ (8 * (n0 - (n + 1)))))) (ev_bin (ev_var (v := .u64 (BitVec.ofNat 64 num)) (at_app hd) rfl) hm ?_) ?_
        · rw [shr64 (count_u64 (by omega)) (by omega), shr8 hnum]
        · show some (Val.u8 ((BitVec.ofNat 64 (num / 2 ^ (8 * (n0 - (n + 1))))).setWidth 8)) = _
          congr 2
          apply BitVec.eq_of_toNat_eq
          rw [BitVec.toNat_setWidth, BitVec.toNat_ofNat, BitVec.toNat_ofNat, Nat.shiftRight_eq_div_pow, show n0 - 1 - n = n0 - (n + 1) by omega]
          exact Nat.mod_mod_of_dvd _ (by decide)
      · rw [show (0 : Nat) / 1 + n = n by omega]
        have := put8 (xs := stage (rightEncode num k12) buf (n + 1)) (i := n) (v := .u8 ((rightEncode num k12).getD n 0)) rfl (by rw [stage_length (by omega) hb]; omega)
        rw [stage_step (by omega) hb] at this
        exact this
    · refine st_set (v := .u64 (BitVec.ofNat 64 (n0 - n))) (old := .u64 (BitVec.ofNat 64 (n0 - (n + 1)))) ?_ (at_app hd) rfl (set_app hd)
      refine ev_bin (ev_var (v := .u64 (BitVec.ofNat 64 (n0 - (n + 1)))) (at_app hd) rfl) ev_lit ?_
      show some (Val.u64 (BitVec.ofNat 64 (n0 - (n + 1)) + BitVec.ofInt 64 1)) = _
      congr 2
      apply BitVec.eq_of_toNat_eq
      rw [BitVec.toNat_add, BitVec.toNat_ofNat, BitVec.toNat_ofNat, show (BitVec.ofInt 64 1).toNat = 1 from rfl]
      omega

/-- shake_provider.hpp 36-49: the bytes of `right_encode` are at the beginning of the buffer, their number is in the variable `res`. -/
theorem run {vs vs' : List Val} {dep res num : Nat} {k12 : Bool} {ev : Expr} {w old v : Val} {buf : Bytes} {a0 a1 a2 a3 a4 : Arr} {more : List Arr} (hN : 10 < N) (hd : vs.length = dep) (hres : res < dep)
    (hold : vs[res]? = some old) (hty : assign old (.u64 (BitVec.ofNat 64 (rightEncode num k12).length)) = some v) (hv : vs.set res v = vs') (hnum : num < 2 ^ 64) (hbuf : 9 ≤ buf.length)
    (hev : eval ⟨vs, a0 :: a1 :: a2 :: a3 :: a4 :: .a8 buf :: more⟩ ev [] = some [w]) (hw : conv .u64 w = some (.u64 (BitVec.ofNat 64 num))) :
    exec N ext (right_encode dep ev (.addr 5 (.lit (.i32 0))) (.lit (.bool k12)) res) ⟨vs, a0 :: a1 :: a2 :: a3 :: a4 :: .a8 buf :: more⟩ =
      some ⟨vs', a0 :: a1 :: a2 :: a3 :: a4 :: .a8 (rightEncode num k12 ++ buf.drop (rightEncode num k12).length) :: more⟩ := by
  obtain ⟨n0, h0⟩ : ∃ n, countLoop 8 num (start num k12) = n := ⟨_, rfl⟩
  have hst : start num k12 ≤ 1 := by unfold start; (repeat' split) <;> omega
  have h8 : n0 ≤ 8 := by have := countLoop_le 8 7 num (start num k12) (by omega); omega
  have hl := length_eq h0
  have hb : (rightEncode num k12).length ≤ buf.length := by omega
  unfold right_encode
  refine st_scope (vs' := vs' ++ [.u64 (BitVec.ofNat 64 num), .ptr 5 0 1, .bool k12, .u8 255, .u64 0, .u64 (BitVec.ofNat 64 (n0 + 1)), .u64 (BitVec.ofNat 64 n0)]) ?_ (by
    rw [← hv, List.take_append_of_le_length (by rw [List.length_set]), List.take_of_length_le (by rw [List.length_set])])
  refine st_cons (E1 := ⟨vs ++ [.u64 (BitVec.ofNat 64 num)], _⟩) (st_decl hev hw rfl) ?_
  refine st_cons (E1 := ⟨vs ++ [.u64 (BitVec.ofNat 64 num), .ptr 5 0 1], a0 :: a1 :: a2 :: a3 :: a4 :: .a8 buf :: more⟩) ?_ ?_
  · exact st_declp (ev_addr (xs := .a8 buf) rfl ev_lit (n := 0) rfl (get8 (by omega))) (by rw [List.append_assoc]; rfl)
  refine st_cons (E1 := ⟨vs ++ [.u64 (BitVec.ofNat 64 num), .ptr 5 0 1, .bool k12], a0 :: a1 :: a2 :: a3 :: a4 :: .a8 buf :: more⟩) ?_ (st_one ?_)
  · exact st_decl ev_lit (v' := .bool k12) rfl (by rw [List.append_assoc]; rfl)
  refine st_cons (E1 := ⟨vs ++ [.u64 (BitVec.ofNat 64 num), .ptr 5 0 1, .bool k12, .u8 (BitVec.ofNat 8 (start num k12))], a0 :: a1 :: a2 :: a3 :: a4 :: .a8 buf :: more⟩) ?_ ?_
  · cases k12 with
    | false => exact st_decl (ev_else (v := .bool false) (ev_var (at_app hd) rfl) rfl ev_lit) rfl (by rw [List.append_assoc]; rfl)
    | true =>
      by_cases hz : num = 0
      · subst hz
        exact st_decl (ev_then (v := .bool true) (ev_var (at_app hd) rfl) rfl (ev_else (v := .u64 0) (ev_var (at_app hd) rfl) rfl ev_lit)) rfl (by rw [List.append_assoc]; rfl)
      · have hs : start num true = 1 := by unfold start; rw [if_pos rfl, if_pos hz]
        rw [hs]
        exact st_decl (ev_then (v := .bool true) (ev_var (at_app hd) rfl) rfl (ev_then (v := .u64 (BitVec.ofNat 64 num)) (ev_var (at_app hd) rfl) (by rw [truth64 hnum, decide_eq_true hz]) ev_lit)) rfl
          (by rw [List.append_assoc]; rfl)
  refine st_cons (E1 := ⟨V vs num k12 (start num k12) num [], a0 :: a1 :: a2 :: a3 :: a4 :: .a8 buf :: more⟩) ?_ ?_
  · exact st_decl (ev_var (v := .u64 (BitVec.ofNat 64 num)) (at_app hd) rfl) rfl (by rw [List.append_assoc]; rfl)
  have hd1 : (vs ++ [Val.u64 (BitVec.ofNat 64 num)]).length = dep + 1 := by rw [List.length_append, hd]; rfl
  have eV : ∀ n tmp more, U (vs ++ [.u64 (BitVec.ofNat 64 num)]) (.ptr 5 0 1) (.bool k12) n tmp more = V vs num k12 n tmp more := by
    intro n tmp more
    unfold U V
    rw [List.append_assoc]
    rfl
  refine st_cons (E1 := ⟨V vs num k12 (start num k12) (num / 256) [], a0 :: a1 :: a2 :: a3 :: a4 :: .a8 buf :: more⟩) ?_ ?_
  · have := shift_run (N := N) (ext := ext) (x := .ptr 5 0 1) (y := .bool k12) (n := start num k12) (more := []) (A := a0 :: a1 :: a2 :: a3 :: a4 :: .a8 buf :: more) hd1 hnum
    rw [eV, eV] at this
    exact this
  refine st_cons (E1 := ⟨V vs num k12 n0 0 [], a0 :: a1 :: a2 :: a3 :: a4 :: .a8 buf :: more⟩) ?_ ?_
  · rw [exec, ← h0]
    have := count_run (N := N) (ext := ext) (x := .ptr 5 0 1) (y := .bool k12) (A := a0 :: a1 :: a2 :: a3 :: a4 :: .a8 buf :: more) hd1 8 N num (start num k12) (by omega) hnum (by omega) (by omega)
    rw [eV, eV] at this
    exact this
  refine st_cons (E1 := ⟨V vs num k12 n0 0 [], a0 :: a1 :: a2 :: a3 :: a4 :: .a8 (stage (rightEncode num k12) buf n0) :: more⟩) ?_ ?_
  · refine st_storep (a := 5) (o := 0) (s := 1) (n := n0) (v := .u8 (BitVec.ofNat 8 n0)) (ev_var (at_app hd) rfl) (ev_var (v := .u8 (BitVec.ofNat 8 n0)) (at_app hd) rfl) ?_ (ev_var (at_app hd) rfl)
      (xs := .a8 buf) rfl ⟨rfl, rfl⟩ (xs' := .a8 (stage (rightEncode num k12) buf n0)) ?_ rfl
    · show some (BitVec.ofNat 8 n0).toNat = _
      rw [BitVec.toNat_ofNat, Nat.mod_eq_of_lt (by omega)]
    · rw [show (0 : Nat) / 1 + n0 = n0 by omega]
      have := put8 (xs := buf) (i := n0) (v := .u8 (BitVec.ofNat 8 n0)) rfl (by omega)
      have hT := byte_last h0
      have hst := stage_step (T := rightEncode num k12) (buf := buf) (n := n0) (by omega) hb
      rw [← hl, stage_all hb, hT] at hst
      rw [← hst]
      exact this
  refine st_cons (E1 := ⟨V vs num k12 n0 0 [.u64 (BitVec.ofNat 64 (n0 + 1))], a0 :: a1 :: a2 :: a3 :: a4 :: .a8 (stage (rightEncode num k12) buf n0) :: more⟩) ?_ ?_
  · refine st_decl (v := .i32 ((n0 + 1 : Nat) : Int)) (ev_bin (ev_var (v := .u8 (BitVec.ofNat 8 n0)) (at_app hd) rfl) ev_lit (inc8 (by omega))) (v' := .u64 (BitVec.ofNat 64 (n0 + 1))) ?_
      (by rw [List.append_assoc]; rfl)
    show some (Val.u64 (BitVec.ofInt 64 ((n0 + 1 : Nat) : Int))) = _
    rw [BitVec.ofInt_natCast]
  refine st_cons (E1 := ⟨V vs num k12 n0 0 [.u64 (BitVec.ofNat 64 (n0 + 1)), .u64 (BitVec.ofNat 64 (n0 - n0))], a0 :: a1 :: a2 :: a3 :: a4 :: .a8 (stage (rightEncode num k12) buf n0) :: more⟩) ?_ ?_
  · refine st_decl ev_lit (v' := .u64 0) rfl ?_
    rw [List.append_assoc, Nat.sub_self]; rfl
  refine st_cons (E1 := ⟨V vs num k12 0 0 [.u64 (BitVec.ofNat 64 (n0 + 1)), .u64 (BitVec.ofNat 64 n0)], a0 :: a1 :: a2 :: a3 :: a4 :: .a8 (stage (rightEncode num k12) buf 0) :: more⟩) ?_ ?_
  · rw [exec]
    exact write_run hd hnum h0 h8 hb n0 N (Nat.le_refl _) (by omega)
  rw [stage_zero]
  refine st_cons (E1 := ⟨vs ++ [.u64 (BitVec.ofNat 64 num), .ptr 5 0 1, .bool k12, .u8 255, .u64 0, .u64 (BitVec.ofNat 64 (n0 + 1)), .u64 (BitVec.ofNat 64 n0)],
    a0 :: a1 :: a2 :: a3 :: a4 :: .a8 (rightEncode num k12 ++ buf.drop (rightEncode num k12).length) :: more⟩) ?_ (st_one ?_)
  · refine st_set (v := .i32 (-1)) (old := .u8 0) (v' := .u8 255) ?_ (at_app hd) rfl (set_app hd)
    exact ev_bin (ev_var (v := .u8 0) (at_app hd) rfl) ev_lit rfl
  refine st_set (v := .u64 (BitVec.ofNat 64 (n0 + 1))) (old := old) (v' := v) (ev_var (at_app hd) rfl) (by rw [List.getElem?_append_left (by omega)]; exact hold) (by rw [← hl]; exact hty) ?_
  rw [List.set_append, if_pos (by omega), hv]

end Digestpp.Cpp.RightEncode
