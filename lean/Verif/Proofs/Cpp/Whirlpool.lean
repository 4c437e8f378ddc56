import Verif.Cpp.Src.Whirlpool
import Verif.Proofs.Cpp.Final
import Verif.Proofs.Locals.Whirlpool

/-! C71, Whirlpool: `transform`. -/

namespace Digestpp.Cpp.Whirlpool
open Src Src.Whirlpool
open Model (loop rd wr rd64 loads64 stores64)
open Model.Whirlpool (look nextKey nextState rounds compress)
attribute [local irreducible] eval exec block

variable {N : Nat} {ext : Nat → Val → Val → Env → Option Env}

theorem load64 {ll : List (BitVec 64)} {k : Nat} (h : k < ll.length) : load (.a64 ll) 8 (0 + 8 * k) = some (.u64 (ll.getD k 0)) := by
  show (if (0 + 8 * k) % 8 = 0 then ll[(0 + 8 * k) / 8]?.map Val.u64 else none) = _
  rw [if_pos (by omega), show (0 + 8 * k) / 8 = k by omega, List.getElem?_eq_getElem h, List.getD_eq_getElem?_getD, List.getElem?_eq_getElem h]
  rfl

theorem row_length {i : Nat} (h : i < 8) : (Model.whirlpool_T.getD i []).length = 256 := by
  have h1 := Proofs.Locals.Whirlpool.T_ok
  exact h1.2 _ (Proofs.Locals.Skein.getD_mem _ i [] (by rw [h1.1]; exact h))

/-- A lookup without a shift. -/
theorem ev_row0 {E : Env} {as : List Val} {e : Expr} {x : BitVec 64} (he : eval E e as = some [.u64 x]) :
    eval E (.tab (.a64 (Model.whirlpool_T.getD 0 [])) (.cast .u8 e)) as = some [.u64 (look 0 x)] := by
  refine ev_tab (ev_cast he rfl) rfl ?_
  rw [get64 (by rw [row_length (by omega)]; exact (x.setWidth 8).isLt)]
  unfold look
  rw [Nat.mul_zero, BitVec.ushiftRight_zero]

/-- A lookup. -/
theorem ev_row {E : Env} {as : List Val} {e : Expr} {x : BitVec 64} (i : Nat) (hi : i < 8) (he : eval E e as = some [.u64 x]) :
    eval E (.tab (.a64 (Model.whirlpool_T.getD i [])) (.cast .u8 (.bin .shr e (.lit (.i32 (8 * i : Nat)))))) as = some [.u64 (look i x)] := by
  have hb : binary .shr (.u64 x) (.i32 (8 * i : Nat)) = some (.u64 (x >>> (8 * i))) := by
    show (count (.i32 (8 * i : Nat))).bind (shiftRight (.u64 x)) = _
    rw [count_nat]
    exact if_pos (by omega)
  refine ev_tab (ev_cast (ev_bin he ev_lit hb) rfl) rfl ?_
  rw [get64 (by rw [row_length hi]; exact ((x >>> (8 * i)).setWidth 8).isLt)]
  rfl

/-- An element of the array given to `G`. -/
theorem ev_ll {E : Env} {p k : Nat} {ll : List (BitVec 64)} {e : Expr} {iv : Val} (hp : E.arrs[p]? = some (.a64 ll)) (hl : ll.length = 8)
    (he : eval E e [.ptr p 0 8] = some [iv]) (hc : count iv = some k) (hk : k < 8) : eval E (.at (.arg 0) e) [.ptr p 0 8] = some [.u64 (ll.getD k 0)] :=
  ev_at (ev_arg rfl) he hp hc (load64 (by omega))

theorem ev_index {E : Env} {as : List Val} {a : Expr} {n : Nat} (ha : eval E a as = some [.i32 (n : Int)]) (hn : n < 2 ^ 31) :
    ∃ v, eval E (.bin .mod a (.lit (.i32 8))) as = some [v] ∧ count v = some (n % 8) := by
  refine ⟨_, ev_bin ha ev_lit (int_mod (by omega) (by omega)), ?_⟩
  rw [count_int (by omega)]
  exact congrArg some (by omega)

theorem ev_back {E : Env} {as : List Val} {a : Expr} {n : Nat} (j : Nat) (ha : eval E a as = some [.i32 (n : Int)]) (hn : n < 2 ^ 31) (hj : j ≤ n) :
    eval E (.bin .sub a (.lit (.i32 (j : Int)))) as = some [.i32 ((n - j : Nat) : Int)] := by
  refine ev_bin ha ev_lit ((int_sub (by omega)).trans ?_)
  exact congrArg (fun x => some (Val.i32 x)) (by omega)

/-- whirlpool_provider.hpp 22-32. -/
theorem ev_G {E : Env} {p n : Nat} {ll : List (BitVec 64)} {a : Expr} (hp : E.arrs[p]? = some (.a64 ll)) (hl : ll.length = 8) (h8 : 8 ≤ n) (hn : n < 2 ^ 31)
    (ha : eval E a [.ptr p 0 8] = some [.i32 (n : Int)]) : eval E (G a) [.ptr p 0 8] = some [.u64 (Model.Whirlpool.G n ll)] := by
  obtain ⟨v0, e0, c0⟩ := ev_index ha hn
  obtain ⟨v1, e1, c1⟩ := ev_index (ev_back 1 ha hn (by omega)) (by omega)
  obtain ⟨v2, e2, c2⟩ := ev_index (ev_back 2 ha hn (by omega)) (by omega)
  obtain ⟨v3, e3, c3⟩ := ev_index (ev_back 3 ha hn (by omega)) (by omega)
  obtain ⟨v4, e4, c4⟩ := ev_index (ev_back 4 ha hn (by omega)) (by omega)
  obtain ⟨v5, e5, c5⟩ := ev_index (ev_back 5 ha hn (by omega)) (by omega)
  obtain ⟨v6, e6, c6⟩ := ev_index (ev_back 6 ha hn (by omega)) (by omega)
  obtain ⟨v7, e7, c7⟩ := ev_index (ev_back 7 ha hn (by omega)) (by omega)
  have r0 := ev_row0 (ev_ll hp hl e0 c0 (by omega))
  have r1 := ev_row 1 (by omega) (ev_ll hp hl e1 c1 (by omega))
  have r2 := ev_row 2 (by omega) (ev_ll hp hl e2 c2 (by omega))
  have r3 := ev_row 3 (by omega) (ev_ll hp hl e3 c3 (by omega))
  have r4 := ev_row 4 (by omega) (ev_ll hp hl e4 c4 (by omega))
  have r5 := ev_row 5 (by omega) (ev_ll hp hl e5 c5 (by omega))
  have r6 := ev_row 6 (by omega) (ev_ll hp hl e6 c6 (by omega))
  have r7 := ev_row 7 (by omega) (ev_ll hp hl e7 c7 (by omega))
  exact ev_cast (ev_bin (ev_bin (ev_bin (ev_bin (ev_bin (ev_bin (ev_bin r0 r1 rfl) r2 rfl) r3 rfl) r4 rfl) r5 rfl) r6 rfl) r7 rfl) rfl

/-- `G<i + 8>(array)`. -/
theorem ev_call {E : Env} {p : Nat} {ll : List (BitVec 64)} (i : Nat) (hi : i < 8) (hp : E.arrs[p]? = some (.a64 ll)) (hl : ll.length = 8) :
    eval E (.ret (G (.bin .add (.lit (.i32 (i : Int))) (.lit (.i32 8)))) (.push (.addr p (.lit (.i32 0))) .nil)) [] = some [.u64 (Model.Whirlpool.G (i + 8) ll)] := by
  refine ev_ret (ev_push (ev_addr hp ev_lit (n := 0) rfl (get64 (by omega))) ev_nil) ?_
  exact ev_G hp hl (by omega) (by omega) (ev_bin ev_lit ev_lit (int_add (by omega)))

/-- The words of memory. -/
theorem words_stores : ∀ (xs : List (BitVec 64)), words 64 xs.length (stores64 xs) = xs
  | [] => rfl
  | x :: xs => by
    have e : stores64 (x :: xs) = digits 8 x.toNat ++ stores64 xs := by rw [Final.digits8]; rfl
    have l : (digits 8 x.toNat).length = 64 / 8 := rfl
    show BitVec.ofNat 64 (number ((stores64 (x :: xs)).take (64 / 8))) :: words 64 xs.length ((stores64 (x :: xs)).drop (64 / 8)) = _
    rw [e, List.take_left' l, List.drop_left' l, words_stores xs]
    congr 1
    apply BitVec.eq_of_toNat_eq
    have hx := x.isLt
    simp only [digits, number, BitVec.toNat_ofNat]
    omega

theorem stores_length (xs : List (BitVec 64)) : (stores64 xs).length = 8 * xs.length := by
  induction xs with
  | nil => rfl
  | cons x xs ih =>
    have e : stores64 (x :: xs) = digits 8 x.toNat ++ stores64 xs := by rw [Final.digits8]; rfl
    rw [e, List.length_append, ih, List.length_cons]
    show 8 + _ = _
    omega

/-- `memcpy` between whole arrays of words. -/
theorem copy_words {vs : List Val} {A A' : List Arr} {a b : Nat} {xs ys : List (BitVec 64)} (ha : A[a]? = some (.a64 xs)) (hb : A[b]? = some (.a64 ys)) (hx : xs.length = 8)
    (hy : ys.length = 8) (hab : a ≠ b) (hA : A.set a (.a64 ys) = A') :
    exec N ext (.memcpy (.addr a (.lit (.i32 0))) (.addr b (.lit (.i32 0))) (.lit (.u64 64))) ⟨vs, A⟩ = some ⟨vs, A'⟩ := by
  refine st_memcpy (ev_addr ha ev_lit (n := 0) rfl (get64 (by omega))) (ev_addr hb ev_lit (n := 0) rfl (get64 (by omega))) ev_lit (k := 64) rfl ha hb (by omega)
    (bs := stores64 ys) ?_ ?_ hA
  · unfold Arr.part
    rw [Final.bytes_a64, if_pos (by rw [stores_length]; show 8 * 0 + 64 ≤ _; omega)]
    show some (((stores64 ys).drop 0).take 64) = _
    rw [List.drop_zero, List.take_of_length_le (by rw [stores_length]; omega)]
  · unfold Arr.patch
    rw [Final.bytes_a64, if_pos (by rw [stores_length, stores_length]; show 8 * 0 + _ ≤ _; omega)]
    show some (Arr.a64 (words 64 xs.length ((stores64 xs).take 0 ++ stores64 ys ++ (stores64 xs).drop (0 + (stores64 ys).length)))) = _
    rw [List.take_zero, List.nil_append, List.drop_of_length_le (by rw [stores_length, stores_length]; omega), List.append_nil, hx, ← hy, words_stores]

/-- Variables and arrays in the loop over the blocks. -/
def vs (p o n blk : Nat) (more : List Val) : List Val := .ptr p o 1 :: .u64 (BitVec.ofNat 64 n) :: .u64 (BitVec.ofNat 64 blk) :: more

theorem vs_succ (p o n blk : Nat) : vs p o n (blk + 1) [] = [.ptr p o 1, .u64 (BitVec.ofNat 64 n), .u64 (BitVec.ofNat 64 blk + BitVec.ofInt 64 1)] := by
  rw [vs, BitVec.ofNat_add]
  rfl

def ar (data m : Bytes) (h K state L : List (BitVec 64)) : List Arr := [.a8 data, .a8 m, .a64 h, .a64 K, .a64 state, .a64 L]

/-- whirlpool_provider.hpp 101-123: a round. -/
theorem round_run {vs' : List Val} {r : Nat} {data m : Bytes} {h K state L : List (BitVec 64)} (hv : vs'[3]? = some (.i32 (r : Int))) (hr : r < 10) (hK : K.length = 8)
    (hS : state.length = 8) (hL : L.length = 8) :
    exec N ext (block [
      .store 5 (.lit (.i32 0)) (.bin .xor (.ret (G (.bin .add (.lit (.i32 0)) (.lit (.i32 8)))) (.push (.addr 3 (.lit (.i32 0))) .nil)) (.tab (.a64 Model.whirlpool_RC) (.var 3))),
      .store 5 (.lit (.i32 1)) (.ret (G (.bin .add (.lit (.i32 1)) (.lit (.i32 8)))) (.push (.addr 3 (.lit (.i32 0))) .nil)),
      .store 5 (.lit (.i32 2)) (.ret (G (.bin .add (.lit (.i32 2)) (.lit (.i32 8)))) (.push (.addr 3 (.lit (.i32 0))) .nil)),
      .store 5 (.lit (.i32 3)) (.ret (G (.bin .add (.lit (.i32 3)) (.lit (.i32 8)))) (.push (.addr 3 (.lit (.i32 0))) .nil)),
      .store 5 (.lit (.i32 4)) (.ret (G (.bin .add (.lit (.i32 4)) (.lit (.i32 8)))) (.push (.addr 3 (.lit (.i32 0))) .nil)),
      .store 5 (.lit (.i32 5)) (.ret (G (.bin .add (.lit (.i32 5)) (.lit (.i32 8)))) (.push (.addr 3 (.lit (.i32 0))) .nil)),
      .store 5 (.lit (.i32 6)) (.ret (G (.bin .add (.lit (.i32 6)) (.lit (.i32 8)))) (.push (.addr 3 (.lit (.i32 0))) .nil)),
      .store 5 (.lit (.i32 7)) (.ret (G (.bin .add (.lit (.i32 7)) (.lit (.i32 8)))) (.push (.addr 3 (.lit (.i32 0))) .nil)),
      .memcpy (.addr 3 (.lit (.i32 0))) (.addr 5 (.lit (.i32 0))) (.lit (.u64 64)),
      .store 5 (.lit (.i32 0)) (.bin .xor (.idx 5 (.lit (.i32 0))) (.ret (G (.bin .add (.lit (.i32 0)) (.lit (.i32 8)))) (.push (.addr 4 (.lit (.i32 0))) .nil))),
      .store 5 (.lit (.i32 1)) (.bin .xor (.idx 5 (.lit (.i32 1))) (.ret (G (.bin .add (.lit (.i32 1)) (.lit (.i32 8)))) (.push (.addr 4 (.lit (.i32 0))) .nil))),
      .store 5 (.lit (.i32 2)) (.bin .xor (.idx 5 (.lit (.i32 2))) (.ret (G (.bin .add (.lit (.i32 2)) (.lit (.i32 8)))) (.push (.addr 4 (.lit (.i32 0))) .nil))),
      .store 5 (.lit (.i32 3)) (.bin .xor (.idx 5 (.lit (.i32 3))) (.ret (G (.bin .add (.lit (.i32 3)) (.lit (.i32 8)))) (.push (.addr 4 (.lit (.i32 0))) .nil))),
      .store 5 (.lit (.i32 4)) (.bin .xor (.idx 5 (.lit (.i32 4))) (.ret (G (.bin .add (.lit (.i32 4)) (.lit (.i32 8)))) (.push (.addr 4 (.lit (.i32 0))) .nil))),
      .store 5 (.lit (.i32 5)) (.bin .xor (.idx 5 (.lit (.i32 5))) (.ret (G (.bin .add (.lit (.i32 5)) (.lit (.i32 8)))) (.push (.addr 4 (.lit (.i32 0))) .nil))),
      .store 5 (.lit (.i32 6)) (.bin .xor (.idx 5 (.lit (.i32 6))) (.ret (G (.bin .add (.lit (.i32 6)) (.lit (.i32 8)))) (.push (.addr 4 (.lit (.i32 0))) .nil))),
      .store 5 (.lit (.i32 7)) (.bin .xor (.idx 5 (.lit (.i32 7))) (.ret (G (.bin .add (.lit (.i32 7)) (.lit (.i32 8)))) (.push (.addr 4 (.lit (.i32 0))) .nil))),
      .memcpy (.addr 4 (.lit (.i32 0))) (.addr 5 (.lit (.i32 0))) (.lit (.u64 64))])
      ⟨vs', ar data m h K state L⟩ = some ⟨vs', ar data m h (nextKey r K) (nextState (nextKey r K) state) (nextState (nextKey r K) state)⟩ := by
  have hRC : r < Model.whirlpool_RC.length := by rw [Proofs.Locals.Whirlpool.RC_length]; exact hr
  match L, hL with
  | [l0, l1, l2, l3, l4, l5, l6, l7], _ =>
  generalize hg : Model.Whirlpool.G = g
  have hc3 : ∀ (L : List (BitVec 64)) (i : Nat), i < 8 →
      eval ⟨vs', ar data m h K state L⟩ (.ret (G (.bin .add (.lit (.i32 (i : Int))) (.lit (.i32 8)))) (.push (.addr 3 (.lit (.i32 0))) .nil)) [] = some [.u64 (g (i + 8) K)] := by
    intro L i hi
    rw [← hg]
    exact ev_call i hi rfl hK
  have hc4 : ∀ (K L : List (BitVec 64)) (i : Nat), i < 8 →
      eval ⟨vs', ar data m h K state L⟩ (.ret (G (.bin .add (.lit (.i32 (i : Int))) (.lit (.i32 8)))) (.push (.addr 4 (.lit (.i32 0))) .nil)) [] = some [.u64 (g (i + 8) state)] := by
    intro K L i hi
    rw [← hg]
    exact ev_call i hi rfl hS
  have s3 : ∀ (i : Nat) (v : BitVec 64) (L L' : List (BitVec 64)), g (i + 8) K = v → i < 8 → i < L.length → L.set i v = L' →
      exec N ext (.store 5 (.lit (.i32 (i : Int))) (.ret (G (.bin .add (.lit (.i32 (i : Int))) (.lit (.i32 8)))) (.push (.addr 3 (.lit (.i32 0))) .nil)))
        ⟨vs', ar data m h K state L⟩ = some ⟨vs', ar data m h K state L'⟩ := by
    intro i v L L' hv hi hl e
    subst e hv
    exact st_store ev_lit count_nat (hc3 L i hi) rfl (put64 rfl hl) rfl
  have s4 : ∀ (i : Nat) (v : BitVec 64) (K L L' : List (BitVec 64)), L.getD i 0 ^^^ g (i + 8) state = v → i < 8 → i < L.length → L.set i v = L' →
      exec N ext (.store 5 (.lit (.i32 (i : Int))) (.bin .xor (.idx 5 (.lit (.i32 (i : Int)))) (.ret (G (.bin .add (.lit (.i32 (i : Int))) (.lit (.i32 8)))) (.push (.addr 4 (.lit (.i32 0))) .nil))))
        ⟨vs', ar data m h K state L⟩ = some ⟨vs', ar data m h K state L'⟩ := by
    intro i v K L L' hv hi hl e
    subst e hv
    exact st_store ev_lit count_nat (ev_bin (ev_idx rfl ev_lit count_nat (get64 hl)) (hc4 K L i hi) rfl) rfl (put64 rfl hl) rfl
  obtain ⟨k0, f0⟩ : ∃ v, g (0 + 8) K ^^^ Model.whirlpool_RC.getD r 0 = v := ⟨_, rfl⟩
  obtain ⟨k1, f1⟩ : ∃ v, g (1 + 8) K = v := ⟨_, rfl⟩
  obtain ⟨k2, f2⟩ : ∃ v, g (2 + 8) K = v := ⟨_, rfl⟩
  obtain ⟨k3, f3⟩ : ∃ v, g (3 + 8) K = v := ⟨_, rfl⟩
  obtain ⟨k4, f4⟩ : ∃ v, g (4 + 8) K = v := ⟨_, rfl⟩
  obtain ⟨k5, f5⟩ : ∃ v, g (5 + 8) K = v := ⟨_, rfl⟩
  obtain ⟨k6, f6⟩ : ∃ v, g (6 + 8) K = v := ⟨_, rfl⟩
  obtain ⟨k7, f7⟩ : ∃ v, g (7 + 8) K = v := ⟨_, rfl⟩
  obtain ⟨t0, d0⟩ : ∃ v, k0 ^^^ g (0 + 8) state = v := ⟨_, rfl⟩
  obtain ⟨t1, d1⟩ : ∃ v, k1 ^^^ g (1 + 8) state = v := ⟨_, rfl⟩
  obtain ⟨t2, d2⟩ : ∃ v, k2 ^^^ g (2 + 8) state = v := ⟨_, rfl⟩
  obtain ⟨t3, d3⟩ : ∃ v, k3 ^^^ g (3 + 8) state = v := ⟨_, rfl⟩
  obtain ⟨t4, d4⟩ : ∃ v, k4 ^^^ g (4 + 8) state = v := ⟨_, rfl⟩
  obtain ⟨t5, d5⟩ : ∃ v, k5 ^^^ g (5 + 8) state = v := ⟨_, rfl⟩
  obtain ⟨t6, d6⟩ : ∃ v, k6 ^^^ g (6 + 8) state = v := ⟨_, rfl⟩
  obtain ⟨t7, d7⟩ : ∃ v, k7 ^^^ g (7 + 8) state = v := ⟨_, rfl⟩
  have hk : nextKey r K = [k0, k1, k2, k3, k4, k5, k6, k7] := by
    subst hg f0 f1 f2 f3 f4 f5 f6 f7
    rfl
  have ht : nextState [k0, k1, k2, k3, k4, k5, k6, k7] state = [t0, t1, t2, t3, t4, t5, t6, t7] := by
    subst hg d0 d1 d2 d3 d4 d5 d6 d7
    rfl
  rw [hk, ht]
  refine st_cons (E1 := ⟨vs', ar data m h K state [k0, l1, l2, l3, l4, l5, l6, l7]⟩) ?_ ?_
  · subst f0
    exact st_store ev_lit (n := 0) rfl (ev_bin (hc3 _ 0 (by omega)) (ev_tab (ev_var hv rfl) count_nat (get64 hRC)) rfl) rfl (put64 rfl (Nat.le_of_ble_eq_true rfl)) rfl
  refine st_cons (s3 1 k1 _ [k0, k1, l2, l3, l4, l5, l6, l7] f1 (by decide) (Nat.le_of_ble_eq_true rfl) rfl) ?_
  refine st_cons (s3 2 k2 _ [k0, k1, k2, l3, l4, l5, l6, l7] f2 (by decide) (Nat.le_of_ble_eq_true rfl) rfl) ?_
  refine st_cons (s3 3 k3 _ [k0, k1, k2, k3, l4, l5, l6, l7] f3 (by decide) (Nat.le_of_ble_eq_true rfl) rfl) ?_
  refine st_cons (s3 4 k4 _ [k0, k1, k2, k3, k4, l5, l6, l7] f4 (by decide) (Nat.le_of_ble_eq_true rfl) rfl) ?_
  refine st_cons (s3 5 k5 _ [k0, k1, k2, k3, k4, k5, l6, l7] f5 (by decide) (Nat.le_of_ble_eq_true rfl) rfl) ?_
  refine st_cons (s3 6 k6 _ [k0, k1, k2, k3, k4, k5, k6, l7] f6 (by decide) (Nat.le_of_ble_eq_true rfl) rfl) ?_
  refine st_cons (s3 7 k7 _ [k0, k1, k2, k3, k4, k5, k6, k7] f7 (by decide) (Nat.le_of_ble_eq_true rfl) rfl) ?_
  refine st_cons (E1 := ⟨vs', ar data m h [k0, k1, k2, k3, k4, k5, k6, k7] state [k0, k1, k2, k3, k4, k5, k6, k7]⟩) (copy_words (a := 3) (b := 5) rfl rfl hK rfl (by decide) rfl) ?_
  refine st_cons (s4 0 t0 _ _ [t0, k1, k2, k3, k4, k5, k6, k7] d0 (by decide) (Nat.le_of_ble_eq_true rfl) rfl) ?_
  refine st_cons (s4 1 t1 _ _ [t0, t1, k2, k3, k4, k5, k6, k7] d1 (by decide) (Nat.le_of_ble_eq_true rfl) rfl) ?_
  refine st_cons (s4 2 t2 _ _ [t0, t1, t2, k3, k4, k5, k6, k7] d2 (by decide) (Nat.le_of_ble_eq_true rfl) rfl) ?_
  refine st_cons (s4 3 t3 _ _ [t0, t1, t2, t3, k4, k5, k6, k7] d3 (by decide) (Nat.le_of_ble_eq_true rfl) rfl) ?_
  refine st_cons (s4 4 t4 _ _ [t0, t1, t2, t3, t4, k5, k6, k7] d4 (by decide) (Nat.le_of_ble_eq_true rfl) rfl) ?_
  refine st_cons (s4 5 t5 _ _ [t0, t1, t2, t3, t4, t5, k6, k7] d5 (by decide) (Nat.le_of_ble_eq_true rfl) rfl) ?_
  refine st_cons (s4 6 t6 _ _ [t0, t1, t2, t3, t4, t5, t6, k7] d6 (by decide) (Nat.le_of_ble_eq_true rfl) rfl) ?_
  refine st_cons (s4 7 t7 _ _ [t0, t1, t2, t3, t4, t5, t6, t7] d7 (by decide) (Nat.le_of_ble_eq_true rfl) rfl) ?_
  exact st_one (copy_words (a := 4) (b := 5) rfl rfl hS rfl (by decide) rfl)

theorem loop_pure {σ : Type} (g : σ → Nat → σ) (n : Nat) (s : σ) : loop 0 n (fun t s => .ok (g s t)) s = .ok ((List.range n).foldl g s) := by
  unfold loop
  rw [Nat.sub_zero, ← List.range_eq_range']
  generalize List.range n = l
  induction l generalizing s with
  | nil => rfl
  | cons t l ih =>
    rw [List.foldlM_cons, List.foldl_cons]
    exact ih (g s t)

/-- whirlpool_provider.hpp 99-124. -/
theorem rounds_run {p o n blk : Nat} {data m : Bytes} {h K state L : List (BitVec 64)} (hN : 80 < N) (hK : K.length = 8) (hS : state.length = 8) (hL : L.length = 8) :
    ∃ L', L'.length = 8 ∧ exec N ext for99 ⟨vs p o n blk [], ar data m h K state L⟩ = some ⟨vs p o n blk [], ar data m h (rounds (K, state)).1 (rounds (K, state)).2 L'⟩ ∧
      (rounds (K, state)).1.length = 8 ∧ (rounds (K, state)).2.length = 8 := by
  let g : List (BitVec 64) × List (BitVec 64) → Nat → List (BitVec 64) × List (BitVec 64) := fun ks r => (nextKey r ks.1, nextState (nextKey r ks.1) ks.2)
  have hl := loop_pure g 10 (K, state)
  obtain ⟨e, x, L', hL', rfl, h1, h2⟩ := for_rel (N := N) (ext := ext)
    (fun r (ks : List (BitVec 64) × List (BitVec 64)) e => ∃ L : List (BitVec 64), L.length = 8 ∧ e = ⟨vs p o n blk [.i32 (r : Int)], ar data m h ks.1 ks.2 L⟩ ∧ ks.1.length = 8 ∧ ks.2.length = 8)
    (Q := fun e => ∃ L : List (BitVec 64), L.length = 8 ∧ e = ⟨vs p o n blk [], ar data m h (rounds (K, state)).1 (rounds (K, state)).2 L⟩ ∧
      (rounds (K, state)).1.length = 8 ∧ (rounds (K, state)).2.length = 8)
    (i := .decl .i32 (.lit (.i32 0))) (c := .bin .lt (.var 3) (.lit (.i32 10))) (st := .set 3 (.bin .add (.var 3) (.lit (.i32 1))))
    (vs := vs p o n blk []) (A := ar data m h K state L) (E0 := ⟨vs p o n blk [.i32 0], ar data m h K state L⟩) hl (by run) ⟨L, hL, rfl, hK, hS⟩
    (by
      rintro t ks e _ ht ⟨L, hL, rfl, -, -⟩
      exact test_nat (by ev) rfl (decide_eq_decide.2 (by omega)))
    (by
      rintro t ks e ks' _ ht ⟨L, hL, rfl, hK, hS⟩ hf
      obtain rfl := Except.ok.inj hf
      have x := round_run (N := N) (ext := ext) (vs' := vs p o n blk [.i32 (t : Int)]) (data := data) (m := m) (h := h) rfl ht hK hS hL
      refine ⟨⟨vs p o n blk [.i32 ((t + 1 : Nat) : Int)], ar data m h (nextKey t ks.1) (nextState (nextKey t ks.1) ks.2) (nextState (nextKey t ks.1) ks.2)⟩, ?_, _, rfl, rfl, rfl, rfl⟩
      refine st_seq (st_scope x rfl) ?_
      run)
    (by omega) (by omega)
    (by
      rintro e ⟨L, hL, rfl, h1, h2⟩
      exact ⟨L, hL, rfl, h1, h2⟩)
  exact ⟨L', hL', x, h1, h2⟩

theorem load_mp {src b : Bytes} {o i : Nat} (hb : Model.readBytes src o 64 = .ok b) (hi : i < 8) : load (.a8 src) 8 (o + 8 * i) = some (.u64 ((loads64 8 b).getD i 0)) :=
  load_of_rd64 (q := o) (k := i) (Proofs.rd64_drop hb (by omega) _ hi) rfl

theorem list8 {xs : List (BitVec 64)} (h : xs.length = 8) : xs = (List.range 8).map fun i => xs.getD i 0 := by
  match xs, h with
  | [_, _, _, _, _, _, _, _], _ => rfl

/-- whirlpool_provider.hpp 96-97. -/
theorem load_run {p o n blk : Nat} {data m src b : Bytes} {h K state L : List (BitVec 64)} (hN : 80 < N) (hs : Src data m p src) (hb : Model.readBytes src o 64 = .ok b) (hh : h.length = 8)
    (hS : state.length = 8) :
    exec N ext for96 ⟨vs p o n blk [], ar data m h K state L⟩ = some ⟨vs p o n blk [], ar data m h K ((List.range 8).map fun i => h.getD i 0 ^^^ (loads64 8 b).getD i 0) L⟩ := by
  have hld : ∀ i, i < 8 → load (.a8 src) 8 (o + 8 * i) = some (.u64 ((loads64 8 b).getD i 0)) := fun i hi => load_mp hb hi
  generalize hx : loads64 8 b = x at hld ⊢
  refine (for_fun (lo := 0) (hi := 8) (f := fun i s => wr s i (h.getD i 0 ^^^ x.getD i 0)) (fun t s => ⟨vs p o n blk [.i32 (t : Int)], ar data m h K s L⟩)
    (fun _ (s : List (BitVec 64)) => s.length = 8) (s := state) (s' := (List.range 8).map fun i => h.getD i 0 ^^^ x.getD i 0) ?_ ?_ hS ?_ ?_ (by omega) (by omega) rfl rfl).1
  · match state, hS with
    | [_, _, _, _, _, _, _, _], _ => rfl
  · run
  · intro t s _ ht hs
    exact test_nat (by ev) rfl (decide_eq_decide.2 (by omega))
  · intro t s s' _ ht hs' he
    obtain ⟨hl, rfl⟩ := wr_inv he
    refine ⟨?_, by rw [List.length_set]; exact hs'⟩
    have hA : (ar data m h K s L)[p]? = some (.a8 src) := hs.get _
    have hld := hld t ht
    run

/-- whirlpool_provider.hpp 126-127. -/
theorem mix_run {p o n blk : Nat} {data m src b : Bytes} {h K state L : List (BitVec 64)} (hN : 80 < N) (hs : Src data m p src) (hb : Model.readBytes src o 64 = .ok b) (hh : h.length = 8)
    (hS : state.length = 8) :
    exec N ext for126 ⟨vs p o n blk [], ar data m h K state L⟩ =
      some ⟨vs p o n blk [], ar data m ((List.range 8).map fun i => h.getD i 0 ^^^ (state.getD i 0 ^^^ (loads64 8 b).getD i 0)) K state L⟩ := by
  have hld : ∀ i, i < 8 → load (.a8 src) 8 (o + 8 * i) = some (.u64 ((loads64 8 b).getD i 0)) := fun i hi => load_mp hb hi
  generalize hx : loads64 8 b = x at hld ⊢
  refine (for_fun (lo := 0) (hi := 8) (f := fun i s => wr s i (s.getD i 0 ^^^ (state.getD i 0 ^^^ x.getD i 0))) (fun t s => ⟨vs p o n blk [.i32 (t : Int)], ar data m s K state L⟩)
    (fun _ (s : List (BitVec 64)) => s.length = 8) (s := h) (s' := (List.range 8).map fun i => h.getD i 0 ^^^ (state.getD i 0 ^^^ x.getD i 0)) ?_ ?_ hh ?_ ?_ (by omega) (by omega) rfl rfl).1
  · match h, hh with
    | [_, _, _, _, _, _, _, _], _ => rfl
  · run
  · intro t s _ ht hs
    exact test_nat (by ev) rfl (decide_eq_decide.2 (by omega))
  · intro t s s' _ ht hs' he
    obtain ⟨hl, rfl⟩ := wr_inv he
    refine ⟨?_, by rw [List.length_set]; exact hs'⟩
    have hA : (ar data m s K state L)[p]? = some (.a8 src) := hs.get _
    have hld := hld t ht
    run

/-- whirlpool_provider.hpp 93-128. -/
theorem block_run {p o n blk : Nat} {data m src b : Bytes} {h K state L : List (BitVec 64)} (hN : 80 < N) (hs : Src data m p src) (hb : Model.readBytes src o 64 = .ok b) (hh : h.length = 8)
    (hK : K.length = 8) (hS : state.length = 8) (hL : L.length = 8) :
    ∃ K' state' L' : List (BitVec 64), K'.length = 8 ∧ state'.length = 8 ∧ L'.length = 8 ∧
      exec N ext (block [
        .memcpy (.addr 3 (.lit (.i32 0))) (.addr 2 (.lit (.i32 0))) (.lit (.u64 64)), for96, for99, for126, .set 0 (.bin .add (.var 0) (.lit (.i32 64)))])
        ⟨vs p o n blk [], ar data m h K state L⟩ = some ⟨vs p (o + 64) n blk [], ar data m (compress b h) K' state' L'⟩ := by
  have hS1 : ((List.range 8).map fun i => h.getD i 0 ^^^ (loads64 8 b).getD i 0).length = 8 := by simp
  obtain ⟨L', hL', x, h1, h2⟩ := rounds_run (N := N) (ext := ext) (p := p) (o := o) (n := n) (blk := blk) (data := data) (m := m) (h := h) (L := L) hN hh hS1 hL
  refine ⟨_, _, L', h1, h2, hL', ?_⟩
  refine st_cons (E1 := ⟨vs p o n blk [], ar data m h h state L⟩) (copy_words (a := 3) (b := 2) rfl rfl hK hh (by decide) rfl) ?_
  refine st_cons (load_run hN hs hb hh hS) ?_
  refine st_cons x ?_
  refine st_cons (mix_run hN hs hb hh h2) ?_
  refine st_one (st_set (v := .ptr p (o + 64) 1) (ev_as (ev_bin (ev_var rfl rfl) ev_lit rfl) ?_) rfl rfl rfl)
  rfl

theorem transform_run {p o n : Nat} {data m src : Bytes} {h h' K state L : List (BitVec 64)} (k0 : Model.Locals.Whirlpool.Stack) (hk : k0.Sized) (hN : 80 < N) (hn : n < N) (hn' : n < 2 ^ 64)
    (hs : Src data m p src) (hd : n * 64 ≤ (src.drop o).length) (hh : h.length = 8) (hK : K.length = 8) (hS : state.length = 8) (hL : L.length = 8)
    (hl : loop 0 n (fun b h => Model.Locals.Whirlpool.block k0 ((src.drop o).drop (b * 64)) h) h = .ok h') :
    ∃ e, exec N ext transform ⟨[.ptr p o 1, .u64 (BitVec.ofNat 64 n)], ar data m h K state L⟩ = some e ∧ ∃ K' state' L' : List (BitVec 64), K'.length = 8 ∧ state'.length = 8 ∧ L'.length = 8 ∧
      h'.length = 8 ∧ e = ⟨[.ptr p (o + 64 * n) 1, .u64 (BitVec.ofNat 64 n)], ar data m h' K' state' L'⟩ := by
  apply ex_one
  apply for_rel (fun blk (h : List (BitVec 64)) e => ∃ K state L : List (BitVec 64), K.length = 8 ∧ state.length = 8 ∧ L.length = 8 ∧ h.length = 8 ∧
    e = ⟨vs p (o + 64 * blk) n blk [], ar data m h K state L⟩) hl (E0 := ⟨vs p o n 0 [], ar data m h K state L⟩)
  · run
  · exact ⟨K, state, L, hK, hS, hL, hh, rfl⟩
  · rintro t h e _ ht ⟨K, state, L, hK, hS, hL, hh, rfl⟩
    exact test_nat (by ev) rfl (decide_eq_decide.2 (by simp only [BitVec.toNat_ofNat]; omega))
  · rintro blk h e h1 _ ht ⟨K, state, L, hK, hS, hL, hh, rfl⟩ he
    rw [List.length_drop] at hd
    have hb := readBytes_of_le (src := src) (o := o + 64 * blk) (n := 64) (by omega)
    rw [List.drop_drop, show o + blk * 64 = o + 64 * blk by omega, Proofs.Locals.Whirlpool.block_ok k0 hk _ _ h hh fun c hc => Proofs.rd64_drop hb (by omega) _ hc] at he
    obtain rfl := Except.ok.inj he
    obtain ⟨K', state', L', hK', hS', hL', x⟩ := block_run (N := N) (ext := ext) (n := n) (blk := blk) hN hs hb hh hK hS hL
    refine ⟨⟨vs p (o + 64 * (blk + 1)) n (blk + 1) [], ar data m _ K' state' L'⟩, ?_, K', state', L', hK', hS', hL', by simp [compress], rfl⟩
    rw [vs_succ, Nat.mul_add, Nat.mul_one, ← Nat.add_assoc]
    refine st_seq (st_scope x rfl) ?_
    run
  · omega
  · omega
  · rintro e ⟨K, state, L, hK, hS, hL, hh, rfl⟩
    exact ⟨K, state, L, hK, hS, hL, hh, rfl⟩

/-- The chaining value is in the array after `m`, the local arrays of `transform` follow it. -/
def R (h : List (BitVec 64)) (rest : List Arr) : Prop :=
  h.length = 8 ∧ ∃ K state L : List (BitVec 64), K.length = 8 ∧ state.length = 8 ∧ L.length = 8 ∧ rest = [.a64 h, .a64 K, .a64 state, .a64 L]

theorem trans (hN : 80 < N) : Absorb.Trans N 64 R Model.Whirlpool.transform (invoke N Src.Whirlpool.transform) := by
  rintro data m src p o n y s s' rest vs hs hb hl hn hy ⟨hH, K, state, L, hK, hS, hL, rfl⟩ h
  have hlen : n * 64 ≤ (src.drop o).length := by rw [List.length_drop]; omega
  have hk : Model.Locals.Whirlpool.Stack.Sized ⟨List.replicate 8 0, List.replicate 8 0, fun _ => List.replicate 8 0⟩ :=
    ⟨List.length_replicate, List.length_replicate, fun _ => List.length_replicate⟩
  rw [← Proofs.Locals.Whirlpool.transform_eq (fun _ => ⟨List.replicate 8 0, List.replicate 8 0, fun _ => List.replicate 8 0⟩) (fun _ => hk) _ _ hlen s hH] at h
  obtain ⟨h', e1, e2⟩ := then_ok h
  obtain rfl := Except.ok.inj e2
  obtain ⟨e, x, K', state', L', lK, lS, lL, lH, rfl⟩ := transform_run (N := N) (ext := fun _ _ _ _ => none) (m := m) _ hk hN hn (by omega) hs hlen hH hK hS hL e1
  exact ⟨h', _, rfl, ⟨lH, K', state', L', lK, lS, lL, rfl⟩, invoke_run hy x⟩

end Digestpp.Cpp.Whirlpool
