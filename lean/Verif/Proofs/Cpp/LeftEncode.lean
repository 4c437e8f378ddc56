import Verif.Cpp.Src.Shake
import Verif.Proofs.Cpp.Final
import Verif.Model.Shake

/-! C71, cSHAKE: `left_encode`. -/

namespace Digestpp.Cpp.LeftEncode
open Src Src.Shake
open Model.Shake (countLoop leftEncode)
attribute [local irreducible] eval exec block

variable {N : Nat} {ext : Nat → Val → Val → Env → Option Env}

theorem at_app {vs l : List Val} {d k : Nat} (h : vs.length = d) : (vs ++ l)[d + k]? = l[k]? := by
  rw [List.getElem?_append_right (by omega), show d + k - vs.length = k by omega]

theorem set_app {vs l : List Val} {v : Val} {d k : Nat} (h : vs.length = d) : (vs ++ l).set (d + k) v = vs ++ l.set k v := by
  rw [List.set_append, if_neg (by omega), show d + k - vs.length = k by omega]

theorem countLoop_le : ∀ (fuel k tmp n : Nat), tmp < 256 ^ (k + 1) → countLoop fuel tmp n ≤ n + k
  | 0, _, _, _, _ => Nat.le_add_right ..
  | fuel + 1, k, tmp, n, h => by
    unfold countLoop
    split
    · omega
    · cases k with
      | zero => omega
      | succ k =>
        have := countLoop_le fuel k (tmp / 256) (n + 1) (by rw [Nat.div_lt_iff_lt_mul (by omega), ← Nat.pow_succ]; exact h)
        omega

theorem countLoop_ge : ∀ (fuel tmp n : Nat), n ≤ countLoop fuel tmp n
  | 0, _, _ => Nat.le_refl _
  | fuel + 1, tmp, n => by
    unfold countLoop
    split
    · omega
    · have := countLoop_ge fuel (tmp / 256) (n + 1); omega

/-- The variables `n` and `tmp` after two others (shake_provider.hpp 24-25, 39-40). -/
abbrev U (vs : List Val) (x y : Val) (n tmp : Nat) (more : List Val) : List Val :=
  vs ++ (x :: y :: .u8 (BitVec.ofNat 8 n) :: .u64 (BitVec.ofNat 64 tmp) :: more)

/-- The variables of `left_encode` after those of the function that calls it (shake_provider.hpp 21-25). -/
abbrev V (vs : List Val) (num n tmp : Nat) (more : List Val) : List Val := U vs (.u64 (BitVec.ofNat 64 num)) (.ptr 5 0 1) n tmp more

theorem shr8 {x k : Nat} (hx : x < 2 ^ 64) : BitVec.ofNat 64 x >>> k = BitVec.ofNat 64 (x / 2 ^ k) := by
  apply BitVec.eq_of_toNat_eq
  rw [BitVec.toNat_ushiftRight, BitVec.toNat_ofNat, BitVec.toNat_ofNat, Nat.mod_eq_of_lt hx, Nat.shiftRight_eq_div_pow,
    Nat.mod_eq_of_lt (Nat.lt_of_le_of_lt (Nat.div_le_self ..) hx)]

theorem shr64 {x : BitVec 64} {v : Val} {k : Nat} (hc : count v = some k) (hk : k < 64) : binary .shr (.u64 x) v = some (.u64 (x >>> k)) := by
  have : binary .shr (.u64 x) v = (count v).bind (shiftRight (.u64 x)) := by unfold binary; rfl
  rw [this, hc]
  exact if_pos hk

theorem shift_run {vs : List Val} {x y : Val} {dep n tmp : Nat} {more : List Val} {A : List Arr} (hd : vs.length = dep) (ht : tmp < 2 ^ 64) :
    exec N ext (.set (dep + 3) (.bin .shr (.var (dep + 3)) (.lit (.i32 8)))) ⟨U vs x y n tmp more, A⟩ = some ⟨U vs x y n (tmp / 256) more, A⟩ := by
  refine st_set (v := .u64 (BitVec.ofNat 64 (tmp / 256))) (old := .u64 (BitVec.ofNat 64 tmp)) (v' := .u64 (BitVec.ofNat 64 (tmp / 256))) ?_ ?_ rfl ?_
  · refine ev_bin (ev_var (v := .u64 (BitVec.ofNat 64 tmp)) (at_app hd) rfl) ev_lit ?_
    show some (Val.u64 (BitVec.ofNat 64 tmp >>> 8)) = _
    rw [shr8 ht, show (2 : Nat) ^ 8 = 256 from rfl]
  · exact at_app hd
  · exact set_app hd

theorem inc8 {n : Nat} (h : n < 255) : binary .add (.u8 (BitVec.ofNat 8 n)) (.i32 1) = some (.i32 ((n + 1 : Nat) : Int)) := by
  show chk (((BitVec.ofNat 8 n).toNat : Int) + 1) = _
  rw [BitVec.toNat_ofNat, Nat.mod_eq_of_lt (by omega)]
  exact chk_ok (by omega)

theorem dec8 {n : Nat} (h : n + 1 < 256) : binary .sub (.u8 (BitVec.ofNat 8 (n + 1))) (.i32 1) = some (.i32 (n : Int)) := by
  show chk (((BitVec.ofNat 8 (n + 1)).toNat : Int) - 1) = _
  rw [BitVec.toNat_ofNat, Nat.mod_eq_of_lt (by omega)]
  rw [show (((n + 1 : Nat) : Int) - 1) = (n : Int) by omega]
  exact chk_ok (by omega)

theorem to8 {n : Nat} : conv .u8 (.i32 (n : Int)) = some (.u8 (BitVec.ofNat 8 n)) := by
  show some (Val.u8 (BitVec.ofInt 8 (n : Int))) = _
  rw [BitVec.ofInt_natCast]

theorem truth64 {n : Nat} (hn : n < 2 ^ 64) : truth (.u64 (BitVec.ofNat 64 n)) = some (decide (n ≠ 0)) := by
  show some (BitVec.ofNat 64 n != 0) = _
  congr 1
  by_cases h : n = 0
  · subst h; rfl
  · rw [decide_eq_true h, bne_iff_ne]
    intro h0
    have := congrArg BitVec.toNat h0
    rw [BitVec.toNat_ofNat, Nat.mod_eq_of_lt hn] at this
    exact h this

theorem truth8 {n : Nat} (hn : n < 256) : truth (.u8 (BitVec.ofNat 8 n)) = some (decide (n ≠ 0)) := by
  show some (BitVec.ofNat 8 n != 0) = _
  congr 1
  by_cases h : n = 0
  · subst h; rfl
  · rw [decide_eq_true h, bne_iff_ne]
    intro h0
    have := congrArg BitVec.toNat h0
    rw [BitVec.toNat_ofNat, Nat.mod_eq_of_lt hn] at this
    exact h this

theorem while_stop {c : Expr} {s : Stmt} {E : Env} {v : Val} {K : Nat} (hc : eval E c [] = some [v]) (hb : truth v = some false) :
    iterate (fun E => test E c) (exec N ext s) (K + 1) E = some E := by
  unfold iterate
  rw [test_of hc hb]

theorem while_more {c : Expr} {s : Stmt} {E E1 E2 : Env} {v : Val} {K : Nat} (hc : eval E c [] = some [v]) (hb : truth v = some true) (h : exec N ext s E = some E1)
    (h2 : iterate (fun E => test E c) (exec N ext s) K E1 = some E2) : iterate (fun E => test E c) (exec N ext s) (K + 1) E = some E2 := by
  unfold iterate
  rw [test_of hc hb]
  show Option.bind (exec N ext s E) _ = _
  rw [h]
  exact h2

/-- shake_provider.hpp 26-27: the loop, after the first shift. -/
theorem count_run {vs : List Val} {x y : Val} {dep : Nat} {A : List Arr} (hd : vs.length = dep) : ∀ (fuel K tmp n : Nat), tmp < 256 ^ (fuel + 1) → tmp < 2 ^ 64 → fuel < K → n + fuel < 256 →
    iterate (fun E => test E (.var (dep + 3))) (exec N ext (.seq (.scope (block [.set (dep + 2) (.bin .add (.var (dep + 2)) (.lit (.i32 1)))]))
      (.set (dep + 3) (.bin .shr (.var (dep + 3)) (.lit (.i32 8)))))) K ⟨U vs x y n (tmp / 256) [], A⟩ = some ⟨U vs x y (countLoop fuel tmp n) 0 [], A⟩ := by
  intro fuel
  induction fuel with
  | zero =>
    intro K tmp n h1 h2 h3 h4
    obtain ⟨K, rfl⟩ : ∃ K', K = K' + 1 := ⟨K - 1, by omega⟩
    have h0 : tmp / 256 = 0 := by omega
    rw [h0]
    exact while_stop (v := .u64 0) (ev_var (at_app hd) rfl) rfl
  | succ fuel ih =>
    intro K tmp n h1 h2 h3 h4
    obtain ⟨K, rfl⟩ : ∃ K', K = K' + 1 := ⟨K - 1, by omega⟩
    unfold countLoop
    by_cases h0 : tmp / 256 = 0
    · rw [if_pos h0, h0]
      exact while_stop (v := .u64 0) (ev_var (at_app hd) rfl) rfl
    · rw [if_neg h0]
      have hlt : tmp / 256 < 2 ^ 64 := Nat.lt_of_le_of_lt (Nat.div_le_self ..) h2
      refine while_more (v := .u64 (BitVec.ofNat 64 (tmp / 256))) (ev_var (at_app hd) rfl) (by rw [truth64 hlt, decide_eq_true h0])
        (E1 := ⟨U vs x y (n + 1) (tmp / 256 / 256) [], A⟩) ?_
        (ih K (tmp / 256) (n + 1) (by rw [Nat.div_lt_iff_lt_mul (by omega), ← Nat.pow_succ]; exact h1) hlt (by omega) (by omega))
      refine st_seq (E1 := ⟨U vs x y (n + 1) (tmp / 256) [], A⟩) ?_ (shift_run hd hlt)
      refine st_scope (vs' := U vs x y (n + 1) (tmp / 256) []) (st_one ?_) ?_
      · refine st_set (v := .i32 ((n + 1 : Nat) : Int)) (old := .u8 (BitVec.ofNat 8 n)) ?_ (at_app hd) (to8 (n := n + 1)) (set_app hd)
        exact ev_bin (ev_var (v := .u8 (BitVec.ofNat 8 n)) (at_app hd) rfl) ev_lit (inc8 (by omega))
      · exact List.take_of_length_le (by simp)

/-- The buffer when `n` bytes are still to be written. -/
def stage (T buf : Bytes) (n : Nat) : Bytes := T.take 1 ++ (buf.drop 1).take n ++ T.drop (n + 1) ++ buf.drop T.length

theorem stage_zero {T buf : Bytes} : stage T buf 0 = T ++ buf.drop T.length := by
  unfold stage
  rw [List.take_zero, List.append_nil, List.take_append_drop]

theorem stage_length {T buf : Bytes} {n : Nat} (h : n < T.length) (hb : T.length ≤ buf.length) : (stage T buf n).length = buf.length := by
  unfold stage
  simp only [List.length_append, List.length_take, List.length_drop]
  omega

theorem stage_start {T buf : Bytes} {n : Nat} (h : T.length = n + 1) (hb : T.length ≤ buf.length) : buf.set 0 (T.getD 0 0) = stage T buf n := by
  unfold stage
  cases buf with
  | nil => rw [List.length_nil] at hb; omega
  | cons b buf =>
    cases T with
    | nil => simp at h
    | cons t T =>
      rw [List.drop_of_length_le (by omega : (t :: T).length ≤ n + 1), List.append_nil]
      simp only [List.length_cons] at h hb ⊢
      simp only [List.set_cons_zero, List.getD_cons_zero, List.take_succ_cons, List.take_zero, List.drop_succ_cons, List.drop_zero, List.cons_append, List.nil_append]
      rw [show T.length = n by omega, List.take_append_drop]

theorem stage_step {T buf : Bytes} {n : Nat} (h : n + 1 < T.length) (hb : T.length ≤ buf.length) : (stage T buf (n + 1)).set (n + 1) (T.getD (n + 1) 0) = stage T buf n := by
  apply List.ext_getElem?
  intro i
  rw [List.getElem?_set, stage_length h hb]
  have hT : T.getD (n + 1) 0 = T[n + 1] := by rw [List.getD_eq_getElem?_getD, List.getElem?_eq_getElem h, Option.getD_some]
  by_cases hi : n + 1 = i
  · subst hi
    rw [if_pos rfl, if_pos (by omega), hT]
    unfold stage
    rw [List.append_assoc, List.append_assoc, List.getElem?_append_right (by simp only [List.length_take]; omega), List.getElem?_append_right (by simp only [List.length_take, List.length_drop]; omega),
      List.getElem?_append_left (by simp only [List.length_take, List.length_drop]; omega), List.getElem?_drop]
    simp only [List.length_take, List.length_drop]
    rw [show n + 1 + (n + 1 - min 1 T.length - min n (buf.length - 1)) = n + 1 by omega, List.getElem?_eq_getElem h]
  · rw [if_neg hi]
    unfold stage
    simp only [List.getElem?_append, List.length_append, List.length_take, List.length_drop, List.getElem?_take, List.getElem?_drop]
    repeat' split
    all_goals first | rfl | omega | (congr 1; omega)

theorem stage_byte {T buf : Bytes} {n : Nat} (h : n < T.length) (hb : T.length ≤ buf.length) : n < (stage T buf n).length := by rw [stage_length h hb]; omega

theorem byte_at {num n : Nat} (hn : countLoop 8 num 1 = n) {j : Nat} (hj : j < n) : (leftEncode num).getD (j + 1) 0 = BitVec.ofNat 8 (num >>> (8 * (n - 1 - j))) := by
  unfold leftEncode
  rw [List.getD_cons_succ, List.getD_eq_getElem?_getD, List.getElem?_map, hn, List.getElem?_range hj]
  rfl

theorem length_eq {num n : Nat} (hn : countLoop 8 num 1 = n) : (leftEncode num).length = n + 1 := by
  unfold leftEncode
  rw [List.length_cons, List.length_map, List.length_range, hn]

/-- shake_provider.hpp 31-32: the loop. -/
theorem write_run {vs : List Val} {dep num n0 : Nat} {res : Val} {buf : Bytes} {a0 a1 a2 a3 a4 : Arr} {more : List Arr} (hd : vs.length = dep) (hnum : num < 2 ^ 64) (h0 : countLoop 8 num 1 = n0) (h8 : n0 ≤ 8)
    (hb : (leftEncode num).length ≤ buf.length) : ∀ (n K : Nat), n ≤ n0 → n < K →
    iterate (fun E => test E (.var (dep + 2))) (exec N ext (.scope (block [
      .storep (.var (dep + 1)) (.var (dep + 2)) (.cast .u8 (.bin .shr (.var (dep + 0)) (.bin .mul (.lit (.i32 8)) (.var (dep + 5))))),
      .set (dep + 2) (.bin .sub (.var (dep + 2)) (.lit (.i32 1))),
      .set (dep + 5) (.bin .add (.var (dep + 5)) (.lit (.i32 1)))]))) K
      ⟨V vs num n 0 [res, .u64 (BitVec.ofNat 64 (n0 - n))], a0 :: a1 :: a2 :: a3 :: a4 :: .a8 (stage (leftEncode num) buf n) :: more⟩ =
      some ⟨V vs num 0 0 [res, .u64 (BitVec.ofNat 64 n0)], a0 :: a1 :: a2 :: a3 :: a4 :: .a8 (stage (leftEncode num) buf 0) :: more⟩ := by
  intro n
  have hl := length_eq h0
  induction n with
  | zero =>
    intro K h1 h2
    obtain ⟨K, rfl⟩ : ∃ K', K = K' + 1 := ⟨K - 1, by omega⟩
    exact while_stop (v := .u8 0) (ev_var (at_app hd) rfl) rfl
  | succ n ih =>
    intro K h1 h2
    obtain ⟨K, rfl⟩ : ∃ K', K = K' + 1 := ⟨K - 1, by omega⟩
    have hs := ih K (by omega) (by omega)
    refine while_more (v := .u8 (BitVec.ofNat 8 (n + 1))) (ev_var (at_app hd) rfl) (by rw [truth8 (by omega), decide_eq_true (by omega)]) ?_ hs
    refine st_scope (vs' := V vs num n 0 [res, .u64 (BitVec.ofNat 64 (n0 - n))]) ?_ (List.take_of_length_le (by simp))
    refine st_cons (E1 := ⟨V vs num (n + 1) 0 [res, .u64 (BitVec.ofNat 64 (n0 - (n + 1)))], a0 :: a1 :: a2 :: a3 :: a4 :: .a8 (stage (leftEncode num) buf n) :: more⟩) ?_ ?_
    · refine st_storep (a := 5) (o := 0) (s := 1) (n := n + 1) (v := .u8 ((leftEncode num).getD (n + 1) 0)) (ev_var (at_app hd) rfl) (ev_var (v := .u8 (BitVec.ofNat 8 (n + 1))) (at_app hd) rfl) ?_ ?_
        (xs := .a8 (stage (leftEncode num) buf (n + 1))) rfl ⟨rfl, rfl⟩ (xs' := .a8 (stage (leftEncode num) buf n)) ?_ rfl
      · show some (BitVec.ofNat 8 (n + 1)).toNat = _
        rw [BitVec.toNat_ofNat, Nat.mod_eq_of_lt (by omega)]
      · rw [byte_at h0 (by omega)]
        have hm : eval ⟨V vs num (n + 1) 0 [res, .u64 (BitVec.ofNat 64 (n0 - (n + 1)))], a0 :: a1 :: a2 :: a3 :: a4 :: .a8 (stage (leftEncode num) buf (n + 1)) :: more⟩
            (.bin .mul (.lit (.i32 8)) (.var (dep + 5))) [] = some [.u64 (BitVec.ofNat 64 (8 * (n0 - (n + 1))))] := by
          refine ev_bin ev_lit (ev_var (v := .u64 (BitVec.ofNat 64 (n0 - (n + 1)))) (at_app hd) rfl) ?_
          show some (Val.u64 (BitVec.ofInt 64 8 * BitVec.ofNat 64 (n0 - (n + 1)))) = _
          congr 2
          apply BitVec.eq_of_toNat_eq
          rw [BitVec.toNat_mul, BitVec.toNat_ofNat, BitVec.toNat_ofNat, Nat.mod_eq_of_lt (by omega : n0 - (n + 1) < 2 ^ 64)]
          rfl
        refine ev_cast (v := .u64 (BitVec.ofNat 64 (num / 2 ^ (8 * (n0 - (n + 1)))))) (ev_bin (ev_var (v := .u64 (BitVec.ofNat 64 num)) (at_app hd) rfl) hm ?_) ?_
        · rw [shr64 (count_u64 (by omega)) (by omega), shr8 hnum]
        · show some (Val.u8 ((BitVec.ofNat 64 (num / 2 ^ (8 * (n0 - (n + 1))))).setWidth 8)) = _
          congr 2
          apply BitVec.eq_of_toNat_eq
          rw [BitVec.toNat_setWidth, BitVec.toNat_ofNat, BitVec.toNat_ofNat, Nat.shiftRight_eq_div_pow, show n0 - 1 - n = n0 - (n + 1) by omega]
          exact Nat.mod_mod_of_dvd _ (by decide)
      · rw [show (0 : Nat) / 1 + (n + 1) = n + 1 by omega]
        have := put8 (xs := stage (leftEncode num) buf (n + 1)) (i := n + 1) (v := .u8 ((leftEncode num).getD (n + 1) 0)) rfl (stage_byte (by omega) hb)
        rw [stage_step (by omega) hb] at this
        exact this
    refine st_cons (E1 := ⟨V vs num n 0 [res, .u64 (BitVec.ofNat 64 (n0 - (n + 1)))], a0 :: a1 :: a2 :: a3 :: a4 :: .a8 (stage (leftEncode num) buf n) :: more⟩) ?_ (st_one ?_)
    · refine st_set (v := .i32 (n : Int)) (old := .u8 (BitVec.ofNat 8 (n + 1))) ?_ (at_app hd) to8 (set_app hd)
      exact ev_bin (ev_var (v := .u8 (BitVec.ofNat 8 (n + 1))) (at_app hd) rfl) ev_lit (dec8 (by omega))
    · refine st_set (v := .u64 (BitVec.ofNat 64 (n0 - n))) (old := .u64 (BitVec.ofNat 64 (n0 - (n + 1)))) ?_ (at_app hd) rfl (set_app hd)
      refine ev_bin (ev_var (v := .u64 (BitVec.ofNat 64 (n0 - (n + 1)))) (at_app hd) rfl) ev_lit ?_
      show some (Val.u64 (BitVec.ofNat 64 (n0 - (n + 1)) + BitVec.ofInt 64 1)) = _
      congr 2
      apply BitVec.eq_of_toNat_eq
      rw [BitVec.toNat_add, BitVec.toNat_ofNat, BitVec.toNat_ofNat, show (BitVec.ofInt 64 1).toNat = 1 from rfl]
      omega

/-- shake_provider.hpp 21-34: the bytes of `left_encode` are at the beginning of the buffer, their number is in the variable `res`. -/
theorem run {vs vs' : List Val} {dep res num : Nat} {ev : Expr} {old v : Val} {buf : Bytes} {a0 a1 a2 a3 a4 : Arr} {more : List Arr} (hN : 10 < N) (hd : vs.length = dep) (hres : res < dep)
    (hold : vs[res]? = some old) (hty : assign old (.u64 (BitVec.ofNat 64 (leftEncode num).length)) = some v) (hv : vs.set res v = vs') (hnum : num < 2 ^ 64) (hbuf : 9 ≤ buf.length)
    (hev : eval ⟨vs, a0 :: a1 :: a2 :: a3 :: a4 :: .a8 buf :: more⟩ ev [] = some [.u64 (BitVec.ofNat 64 num)]) :
    exec N ext (left_encode dep ev (.addr 5 (.lit (.i32 0))) res) ⟨vs, a0 :: a1 :: a2 :: a3 :: a4 :: .a8 buf :: more⟩ =
      some ⟨vs', a0 :: a1 :: a2 :: a3 :: a4 :: .a8 (leftEncode num ++ buf.drop (leftEncode num).length) :: more⟩ := by
  obtain ⟨n0, h0⟩ : ∃ n, countLoop 8 num 1 = n := ⟨_, rfl⟩
  have h8 : n0 ≤ 8 := by have := countLoop_le 8 7 num 1 (by omega); omega
  have h1 : 1 ≤ n0 := by have := countLoop_ge 8 num 1; omega
  have hl := length_eq h0
  have hb : (leftEncode num).length ≤ buf.length := by omega
  unfold left_encode
  refine st_scope (vs' := vs' ++ [.u64 (BitVec.ofNat 64 num), .ptr 5 0 1, .u8 0, .u64 0, .u64 (BitVec.ofNat 64 (n0 + 1)), .u64 (BitVec.ofNat 64 n0)]) ?_ (by
    rw [← hv, List.take_append_of_le_length (by rw [List.length_set]), List.take_of_length_le (by rw [List.length_set])])
  refine st_cons (E1 := ⟨vs ++ [.u64 (BitVec.ofNat 64 num)], _⟩) (st_decl hev rfl rfl) ?_
  refine st_cons (E1 := ⟨vs ++ [.u64 (BitVec.ofNat 64 num), .ptr 5 0 1], a0 :: a1 :: a2 :: a3 :: a4 :: .a8 buf :: more⟩) ?_ (st_one ?_)
  · exact st_declp (ev_addr (xs := .a8 buf) rfl ev_lit (n := 0) rfl (get8 (by omega))) (by rw [List.append_assoc]; rfl)
  refine st_cons (E1 := ⟨vs ++ [.u64 (BitVec.ofNat 64 num), .ptr 5 0 1, .u8 (BitVec.ofNat 8 1)], a0 :: a1 :: a2 :: a3 :: a4 :: .a8 buf :: more⟩) ?_ ?_
  · exact st_decl ev_lit rfl (by rw [List.append_assoc]; rfl)
  refine st_cons (E1 := ⟨V vs num 1 num [], a0 :: a1 :: a2 :: a3 :: a4 :: .a8 buf :: more⟩) ?_ ?_
  · exact st_decl (ev_var (v := .u64 (BitVec.ofNat 64 num)) (at_app hd) rfl) rfl (by rw [List.append_assoc]; rfl)
  refine st_cons (E1 := ⟨V vs num 1 (num / 256) [], a0 :: a1 :: a2 :: a3 :: a4 :: .a8 buf :: more⟩) (shift_run hd hnum) ?_
  refine st_cons (E1 := ⟨V vs num n0 0 [], a0 :: a1 :: a2 :: a3 :: a4 :: .a8 buf :: more⟩) ?_ ?_
  · rw [exec, ← h0]
    exact count_run hd 8 N num 1 (by omega) hnum (by omega) (by omega)
  refine st_cons (E1 := ⟨V vs num n0 0 [], a0 :: a1 :: a2 :: a3 :: a4 :: .a8 (stage (leftEncode num) buf n0) :: more⟩) ?_ ?_
  · refine st_storep (a := 5) (o := 0) (s := 1) (n := 0) (v := .u8 (BitVec.ofNat 8 n0)) (ev_var (at_app hd) rfl) ev_lit rfl (ev_var (at_app hd) rfl) (xs := .a8 buf) rfl ⟨rfl, rfl⟩
      (xs' := .a8 (stage (leftEncode num) buf n0)) ?_ rfl
    have := put8 (xs := buf) (i := 0) (v := .u8 (BitVec.ofNat 8 n0)) rfl (by omega)
    rw [← stage_start hl hb]
    have hT : (leftEncode num).getD 0 0 = BitVec.ofNat 8 n0 := by unfold leftEncode; rw [List.getD_cons_zero, h0]
    rw [hT]
    exact this
  refine st_cons (E1 := ⟨V vs num n0 0 [.u64 (BitVec.ofNat 64 (n0 + 1))], a0 :: a1 :: a2 :: a3 :: a4 :: .a8 (stage (leftEncode num) buf n0) :: more⟩) ?_ ?_
  · refine st_decl (v := .i32 ((n0 + 1 : Nat) : Int)) (ev_bin (ev_var (v := .u8 (BitVec.ofNat 8 n0)) (at_app hd) rfl) ev_lit (inc8 (by omega))) (v' := .u64 (BitVec.ofNat 64 (n0 + 1))) ?_
      (by rw [List.append_assoc]; rfl)
    show some (Val.u64 (BitVec.ofInt 64 ((n0 + 1 : Nat) : Int))) = _
    rw [BitVec.ofInt_natCast]
  refine st_cons (E1 := ⟨V vs num n0 0 [.u64 (BitVec.ofNat 64 (n0 + 1)), .u64 (BitVec.ofNat 64 (n0 - n0))], a0 :: a1 :: a2 :: a3 :: a4 :: .a8 (stage (leftEncode num) buf n0) :: more⟩) ?_ ?_
  · refine st_decl ev_lit (v' := .u64 0) rfl ?_
    rw [List.append_assoc, Nat.sub_self]; rfl
  refine st_cons (E1 := ⟨V vs num 0 0 [.u64 (BitVec.ofNat 64 (n0 + 1)), .u64 (BitVec.ofNat 64 n0)], a0 :: a1 :: a2 :: a3 :: a4 :: .a8 (stage (leftEncode num) buf 0) :: more⟩) ?_ (st_one ?_)
  · rw [exec]
    exact write_run hd hnum h0 h8 hb n0 N (Nat.le_refl _) (by omega)
  rw [stage_zero]
  refine st_set (v := .u64 (BitVec.ofNat 64 (n0 + 1))) (old := old) (v' := v) (ev_var (at_app hd) rfl) (by rw [List.getElem?_append_left (by omega)]; exact hold) (by rw [← hl]; exact hty) ?_
  rw [List.set_append, if_pos (by omega), hv]
  rfl

end Digestpp.Cpp.LeftEncode
