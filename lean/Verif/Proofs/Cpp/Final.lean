import Verif.Proofs.Cpp.Trans
import Verif.Model.MdFinal

/-! C71, the `final` functions: what MD5, SHA-1 and SHA-2 have in common. -/

namespace Digestpp.Cpp.Final
open Model (Blk mdFinal mdFinalTail zeroRest szSub szMod setByte memset memcpyTo bytes32 bytes64 stores32 stores64 readBytes)
open Absorb (Trans ev_move sub64)
attribute [local irreducible] eval exec block

variable {N : Nat} {ext : Nat → Val → Val → Env → Option Env}

/-- The variables of `final`. -/
def vv (pos : Nat) (total : BitVec 64) (more : List Val) : List Val := .ptr 0 0 1 :: .u64 (BitVec.ofNat 64 pos) :: .u64 total :: more

theorem setByte_inv {m m' : Bytes} {i : Nat} {v : Byte} (h : setByte m i v = .ok m') : i < m.length ∧ m' = m.set i v := by
  unfold setByte at h
  split at h
  · exact ⟨by assumption, (Except.ok.inj h).symm⟩
  · cases h

theorem memset_length {m m' : Bytes} {i n : Nat} {v : Byte} (h : memset m i v n = .ok m') : m'.length = m.length := by
  unfold memset at h
  split at h
  · rw [← Except.ok.inj h]
    simp only [List.length_append, List.length_take, List.length_drop, List.length_replicate]
    omega
  · cases h

theorem memcpyTo_length {m m' b : Bytes} {i : Nat} (h : memcpyTo m i b = .ok m') : m'.length = m.length := by
  unfold memcpyTo at h
  split at h
  · rw [← Except.ok.inj h]
    simp only [List.length_append, List.length_take, List.length_drop]
    omega
  · cases h

/-- An expression without variables that is a number in comparisons and subtractions with a `size_t`. -/
def Const (e : Expr) (n : Nat) : Prop := ∃ v, (∀ E, eval E e [] = some [v]) ∧ (∀ a, binary .gt (.u64 a) v = some (.bool (decide (n < a.toNat)))) ∧
  (∀ a, binary .ne (.u64 a) v = some (.bool (a != BitVec.ofNat 64 n))) ∧ ∀ a, binary .sub v (.u64 a) = some (.u64 (BitVec.ofNat 64 n - a))

variable {σ : Type} {R : σ → List Arr → Prop} {tr : Bytes → Nat → Blk σ → M (Blk σ)} {bs limit fill : Nat} {enc : BitVec 64 → Bytes}

/-- `m[pos++] = 0x80; if (pos > limit) { if (pos != bs) memset(&m[pos], 0, bs - pos); transform(&m[0], 1); pos = 0; }`. -/
theorem pad_run (hT : Trans N bs R tr ext) (hN : 1 < N) {eL eB : Expr} (cL : Const eL limit) (cB : Const eB bs) (hL : limit < bs) (hL0 : 0 < limit) (hb : bs < 2 ^ 32)
    {s s' : Blk σ} {rest : List Arr} {out : Bytes} {more : List Val} (hm : s.m.length = bs) (hR : R s.h rest) (h : mdFinal bs limit fill enc tr s = .ok s') :
    ∃ s1 rest1, R s1.h rest1 ∧ s1.m.length = bs ∧ s1.pos ≤ limit ∧ s1.total = s.total + BitVec.ofNat 64 (s.pos * 8) ∧ mdFinalTail bs fill enc tr s1 = .ok s' ∧
      ∀ (t : Stmt) (ss : List Stmt) (P : Env → Prop),
      (∃ e, exec N ext (block (t :: ss)) ⟨vv s1.pos s1.total more, .a8 out :: .a8 s1.m :: rest1⟩ = some e ∧ P e) →
      ∃ e, exec N ext (block (
        .store 1 (.var 1) (.lit (.i32 0x80)) ::
        .set 1 (.bin .add (.var 1) (.lit (.i32 1))) ::
        .ite (.bin .gt (.var 1) eL) (.scope (block [
          .ite (.bin .ne (.var 1) eB) (.scope (block [
            .memset (.addr 1 (.var 1)) (.lit (.i32 0)) (.bin .sub eB (.var 1))
          ])) .skip,
          .call 0 (.addr 1 (.lit (.i32 0))) (.lit (.i32 1)),
          .set 1 (.lit (.i32 0))
        ])) .skip :: t :: ss)) ⟨vv s.pos (s.total + BitVec.ofNat 64 (s.pos * 8)) more, .a8 out :: .a8 s.m :: rest⟩ = some e ∧ P e := by
  obtain ⟨vL, l1, l2, -, -⟩ := cL
  obtain ⟨vB, b1, -, b3, b4⟩ := cB
  obtain ⟨m1, e1, h⟩ := then_ok h
  obtain ⟨hp, rfl⟩ := setByte_inv e1
  have hm1 : (s.m.set s.pos 0x80).length = bs := by rw [List.length_set, hm]
  generalize hM1 : s.m.set s.pos 0x80 = m1 at h hm1
  have hgt : ∀ {q : Bool}, decide (limit < s.pos + 1) = q → truth (.bool (decide (limit < (BitVec.ofNat 64 (s.pos + 1)).toNat))) = some q := by
    intro q hq
    rw [BitVec.toNat_ofNat, Nat.mod_eq_of_lt (by omega), hq]
    rfl
  have start : ∀ (t : Stmt) (ss : List Stmt) (P : Env → Prop),
      (∃ e, exec N ext (block (t :: ss)) ⟨vv (s.pos + 1) (s.total + BitVec.ofNat 64 (s.pos * 8)) more, .a8 out :: .a8 m1 :: rest⟩ = some e ∧ P e) →
      ∃ e, exec N ext (block (.store 1 (.var 1) (.lit (.i32 0x80)) ::
        .set 1 (.bin .add (.var 1) (.lit (.i32 1))) :: t :: ss)) ⟨vv s.pos (s.total + BitVec.ofNat 64 (s.pos * 8)) more, .a8 out :: .a8 s.m :: rest⟩ = some e ∧ P e := by
    intro t ss P hP
    apply ex_cons (E1 := ⟨vv s.pos (s.total + BitVec.ofNat 64 (s.pos * 8)) more, .a8 out :: .a8 m1 :: rest⟩)
    · rw [← hM1]
      exact st_store (n := s.pos) (by ev) (count_u64 (by omega)) (by ev) rfl (put8 rfl hp) rfl
    apply ex_cons (E1 := ⟨vv (s.pos + 1) (s.total + BitVec.ofNat 64 (s.pos * 8)) more, .a8 out :: .a8 m1 :: rest⟩)
    · exact st_set (v := .u64 (BitVec.ofNat 64 (s.pos + 1))) (ev_as (by ev) (by rw [BitVec.ofNat_add]; rfl)) rfl rfl rfl
    exact hP
  by_cases hc : s.pos + 1 > limit
  · rw [if_pos hc] at h
    obtain ⟨m2, e2, h⟩ := then_ok h
    obtain ⟨s2, e3, h⟩ := then_ok h
    have hm2 : m2.length = bs := by
      unfold zeroRest at e2
      split at e2
      · rw [memset_length e2, hm1]
      · rw [← Except.ok.inj e2, hm1]
    obtain ⟨h', rest', rfl, r', x⟩ := hT out m2 m2 1 0 1 (.i32 1) { s with m := m2, pos := s.pos + 1, total := s.total + BitVec.ofNat 64 (s.pos * 8) } s2 rest
      (vv (s.pos + 1) (s.total + BitVec.ofNat 64 (s.pos * 8)) more) (.inr ⟨rfl, rfl⟩) (by omega) (by omega) hN rfl hR e3
    refine ⟨_, rest', r', hm2, Nat.zero_le _, rfl, h, fun t ss P hP => start _ _ _ ?_⟩
    apply ex_cons _ hP
    refine st_then (v := .bool (decide (limit < (BitVec.ofNat 64 (s.pos + 1)).toNat))) (ev_bin (by ev) (l1 _) (l2 _)) (hgt (decide_eq_true hc)) ?_
    refine st_scope (vs' := vv 0 (s.total + BitVec.ofNat 64 (s.pos * 8)) more) ?_ (List.take_of_length_le (Nat.le_refl _))
    refine st_cons (E1 := ⟨vv (s.pos + 1) (s.total + BitVec.ofNat 64 (s.pos * 8)) more, .a8 out :: .a8 m2 :: rest⟩) ?_ ?_
    · by_cases hz : s.pos + 1 = bs
      · obtain rfl : m1 = m2 := by
          unfold zeroRest at e2
          rw [if_neg (by omega)] at e2
          exact Except.ok.inj e2
        refine st_else (ev_bin (by ev) (b1 _) (b3 _)) ?_ st_skip
        rw [hz, bne_self_eq_false]
        rfl
      · unfold zeroRest at e2
        rw [if_pos hz, show szSub bs (s.pos + 1) = bs - (s.pos + 1) by unfold szSub szMod; omega] at e2
        refine st_then (ev_bin (by ev) (b1 _) (b3 _)) ?_ (st_scope (vs' := vv (s.pos + 1) (s.total + BitVec.ofNat 64 (s.pos * 8)) more) (st_one ?_) (List.take_length ..))
        · have : (BitVec.ofNat 64 (s.pos + 1) != BitVec.ofNat 64 bs) = true := by
            rw [bne_iff_ne]
            intro h0
            have := congrArg BitVec.toNat h0
            rw [BitVec.toNat_ofNat, BitVec.toNat_ofNat, Nat.mod_eq_of_lt (by omega), Nat.mod_eq_of_lt (by omega)] at this
            exact hz this
          rw [this]
          rfl
        · exact st_memset (ev_addr rfl (by ev) (count_u64 (n := s.pos + 1) (by omega)) (get8 (by omega))) (by ev) (ev_as (ev_bin (b1 _) (by ev) (b4 _)) (by rw [sub64 (by omega) (by omega)]))
            (count_u64 (by omega)) rfl rfl (by show (Arr.a8 m1).patch (1 * _) _ = _; rw [Nat.one_mul]; exact patch_of_memset e2) rfl
    · refine st_cons (st_call (ev_addr rfl ev_lit (n := 0) rfl (get8 (by omega))) (by ev) x) ?_
      exact st_one (st_set (v := .i32 0) (by ev) rfl rfl rfl)
  · rw [if_neg hc] at h
    refine ⟨{ s with m := m1, pos := s.pos + 1, total := s.total + BitVec.ofNat 64 (s.pos * 8) }, rest, hR, hm1, by show s.pos + 1 ≤ limit; omega, rfl, h, fun t ss P hP => start _ _ _ ?_⟩
    apply ex_cons _ hP
    exact st_else (v := .bool (decide (limit < (BitVec.ofNat 64 (s.pos + 1)).toNat))) (ev_bin (by ev) (l1 _) (l2 _)) (hgt (decide_eq_false hc)) st_skip

/-- `total += pos * 8;` before that. -/
theorem pre_run (hT : Trans N bs R tr ext) (hN : 1 < N) {eL eB : Expr} (cL : Const eL limit) (cB : Const eB bs) (hL : limit < bs) (hL0 : 0 < limit) (hb : bs < 2 ^ 32)
    {s s' : Blk σ} {rest : List Arr} {out : Bytes} {more : List Val} (hm : s.m.length = bs) (hR : R s.h rest) (h : mdFinal bs limit fill enc tr s = .ok s') :
    ∃ s1 rest1, R s1.h rest1 ∧ s1.m.length = bs ∧ s1.pos ≤ limit ∧ mdFinalTail bs fill enc tr s1 = .ok s' ∧ ∀ (t : Stmt) (ss : List Stmt) (P : Env → Prop),
      (∃ e, exec N ext (block (t :: ss)) ⟨vv s1.pos s1.total more, .a8 out :: .a8 s1.m :: rest1⟩ = some e ∧ P e) →
      ∃ e, exec N ext (block (
        .set 2 (.bin .add (.var 2) (.bin .mul (.var 1) (.lit (.i32 8)))) ::
        .store 1 (.var 1) (.lit (.i32 0x80)) ::
        .set 1 (.bin .add (.var 1) (.lit (.i32 1))) ::
        .ite (.bin .gt (.var 1) eL) (.scope (block [
          .ite (.bin .ne (.var 1) eB) (.scope (block [
            .memset (.addr 1 (.var 1)) (.lit (.i32 0)) (.bin .sub eB (.var 1))
          ])) .skip,
          .call 0 (.addr 1 (.lit (.i32 0))) (.lit (.i32 1)),
          .set 1 (.lit (.i32 0))
        ])) .skip :: t :: ss)) ⟨vv s.pos s.total more, .a8 out :: .a8 s.m :: rest⟩ = some e ∧ P e := by
  obtain ⟨s1, rest1, r1, m1, p1, -, e, k⟩ := pad_run hT hN cL cB hL hL0 hb (out := out) (more := more) hm hR h
  refine ⟨s1, rest1, r1, m1, p1, e, fun t ss P hP => ?_⟩
  apply ex_cons (E1 := ⟨vv s.pos (s.total + BitVec.ofNat 64 (s.pos * 8)) more, .a8 out :: .a8 s.m :: rest⟩)
  · exact st_set (v := .u64 (s.total + BitVec.ofNat 64 (s.pos * 8))) (ev_as (by ev) (by rw [BitVec.ofNat_mul]; rfl)) rfl rfl rfl
  exact k t ss P hP

theorem digits4 (x : BitVec 32) : digits 4 x.toNat = bytes32 x := by
  unfold bytes32
  simp only [digits, BitVec.extractLsb', Nat.shiftRight_eq_div_pow, Nat.div_div_eq_div_mul, Nat.reducePow, Nat.reduceMul, Nat.div_one]

theorem digits8 (x : BitVec 64) : digits 8 x.toNat = bytes64 x := by
  unfold bytes64
  simp only [digits, BitVec.extractLsb', Nat.shiftRight_eq_div_pow, Nat.div_div_eq_div_mul, Nat.reducePow, Nat.reduceMul, Nat.div_one]

theorem bytes_a32 (H : List (BitVec 32)) : (Arr.a32 H).bytes = stores32 H := by
  show H.flatMap (fun x => digits 4 x.toNat) = H.flatMap bytes32
  rw [funext digits4]

theorem bytes_a64 (H : List (BitVec 64)) : (Arr.a64 H).bytes = stores64 H := by
  show H.flatMap (fun x => digits 8 x.toNat) = H.flatMap bytes64
  rw [funext digits8]

theorem part32 {H : List (BitVec 32)} {n : Nat} {b : Bytes} (h : readBytes (stores32 H) 0 n = .ok b) : (Arr.a32 H).part 0 n = some b := by
  have := part_of h
  unfold Arr.part at this ⊢
  rw [bytes_a32]
  exact this

theorem part64 {H : List (BitVec 64)} {n : Nat} {b : Bytes} (h : readBytes (stores64 H) 0 n = .ok b) : (Arr.a64 H).part 0 n = some b := by
  have := part_of h
  unfold Arr.part at this ⊢
  rw [bytes_a64]
  exact this

/-- The second `memset`. -/
theorem memset_run {eF d : Expr} (cF : Const eF fill) {s : Blk σ} {m' : Bytes} {rest : List Arr} {out : Bytes} {more : List Val} (hp : s.pos ≤ fill) (hf : fill < 2 ^ 32)
    (hd : eval ⟨vv s.pos s.total more, .a8 out :: .a8 s.m :: rest⟩ d [] = some [.ptr 1 s.pos 1]) (h : memset s.m s.pos 0 (szSub fill s.pos) = .ok m') :
    exec N ext (.memset d (.lit (.i32 0)) (.bin .sub eF (.var 1))) ⟨vv s.pos s.total more, .a8 out :: .a8 s.m :: rest⟩ =
      some ⟨vv s.pos s.total more, .a8 out :: .a8 m' :: rest⟩ := by
  obtain ⟨vF, f1, -, -, f4⟩ := cF
  rw [show szSub fill s.pos = fill - s.pos by unfold szSub szMod; omega] at h
  exact st_memset hd (by ev) (ev_as (ev_bin (f1 _) (by ev) (f4 _)) (by rw [sub64 (by omega) (by omega)])) (count_u64 (by omega)) rfl rfl (patch_of_memset h) rfl

/-- `memcpy` of the length. -/
theorem length_run {d n : Expr} {k o : Nat} {vs : List Val} {x : BitVec 64} {m m' : Bytes} {rest : List Arr} {out : Bytes}
    (hd : eval ⟨vs, .a8 out :: .a8 m :: rest⟩ d [] = some [.ptr 1 o 1]) (hn : eval ⟨vs, .a8 out :: .a8 m :: rest⟩ n [] = some [.i32 8]) (hx : vs[k]? = some (.u64 x))
    (h : memcpyTo m o (bytes64 x) = .ok m') : exec N ext (.memcpyv d k n) ⟨vs, .a8 out :: .a8 m :: rest⟩ = some ⟨vs, .a8 out :: .a8 m' :: rest⟩ :=
  st_memcpyv hd hx hn (c := 8) rfl rfl (bs := bytes64 x) (congrArg some (digits8 x)) (Nat.le_refl 8) (patch_of h) rfl

/-- The second call of `transform`. -/
theorem call_run (hT : Trans N bs R tr ext) (hN : 1 < N) (hb : bs < 2 ^ 32) (hb0 : 0 < bs) {s s' : Blk σ} {rest : List Arr} {out : Bytes} {vs : List Val} (hm : s.m.length = bs) (hR : R s.h rest)
    (h : tr s.m 1 s = .ok s') : ∃ rest', R s'.h rest' ∧ s'.m = s.m ∧
      exec N ext (.call 0 (.addr 1 (.lit (.i32 0))) (.lit (.i32 1))) ⟨vs, .a8 out :: .a8 s.m :: rest⟩ = some ⟨vs, .a8 out :: .a8 s.m :: rest'⟩ := by
  obtain ⟨h', rest', rfl, r', x⟩ := hT out s.m s.m 1 0 1 (.i32 1) s s' rest vs (.inr ⟨rfl, rfl⟩) (by omega) (by omega) hN rfl hR h
  exact ⟨rest', r', rfl, st_call (ev_addr rfl ev_lit (n := 0) rfl (get8 (by omega))) (by ev) x⟩

/-- `memcpy` to the output. -/
theorem output_run {n : Expr} {z k : Nat} {nv : Val} {vs : List Val} {xs : Arr} {b : Bytes} {m : Bytes} {more : List Arr} {out out' : Bytes} (hv : vs[0]? = some (.ptr 0 0 1))
    (hs : eval ⟨vs, .a8 out :: .a8 m :: xs :: more⟩ (.addr 2 (.lit (.i32 0))) [] = some [.ptr 2 0 z]) (hn : eval ⟨vs, .a8 out :: .a8 m :: xs :: more⟩ n [] = some [nv]) (hc : count nv = some k)
    (hp : xs.part 0 k = some b) (h : memcpyTo out 0 b = .ok out') :
    exec N ext (.memcpy (.var 0) (.addr 2 (.lit (.i32 0))) n) ⟨vs, .a8 out :: .a8 m :: xs :: more⟩ = some ⟨vs, .a8 out' :: .a8 m :: xs :: more⟩ :=
  st_memcpy (ev_var hv rfl) hs hn hc rfl rfl (by omega) hp (patch_of h) rfl

end Digestpp.Cpp.Final
