import Verif.Cpp.Src.Absorb
import Verif.Proofs.Cpp.Steps
import Verif.Model.Absorb

/-! C71, `absorb_bytes`. -/

namespace Digestpp.Cpp.Absorb
open Src Src.Absorb
open Model (Blk absorbBytes absorbTail absorbRest readBytes memcpyTo szSub szMod)
attribute [local irreducible] eval exec block

variable {N : Nat} {ext : Nat → Val → Val → Env → Option Env}

/-- What a call of the transformation function does: `tr` is the model of it, `R` tells how the chaining value is in the arrays after `m`. -/
def Trans {σ : Type} (N bs : Nat) (R : σ → List Arr → Prop) (tr : Bytes → Nat → Blk σ → M (Blk σ)) (ext : Nat → Val → Val → Env → Option Env) : Prop :=
  ∀ (data m src : Bytes) (p o n : Nat) (y : Val) (s s' : Blk σ) (rest : List Arr) (vs : List Val), Src data m p src → o + n * bs ≤ src.length → src.length < 2 ^ 64 → n < N →
    conv .u64 y = some (.u64 (BitVec.ofNat 64 n)) → R s.h rest → tr (src.drop o) n s = .ok s' →
    ∃ h' rest', s' = { s with h := h' } ∧ R h' rest' ∧ ext 0 (.ptr p o 1) y ⟨vs, .a8 data :: .a8 m :: rest⟩ = some ⟨vs, .a8 data :: .a8 m :: rest'⟩

theorem ev_move {E : Env} {as : List Val} {x y : Expr} {a o s n : Nat} {yv : Val} (hx : eval E x as = some [.ptr a o s]) (hy : eval E y as = some [yv]) (hc : count yv = some n) :
    eval E (.bin .add x y) as = some [.ptr a (o + s * n) s] :=
  ev_bin hx hy (by show Option.bind (count yv) _ = _; rw [hc]; rfl)

theorem sub64 {a b : Nat} (hb : b ≤ a) (ha : a < 2 ^ 64) : BitVec.ofNat 64 a - BitVec.ofNat 64 b = BitVec.ofNat 64 (a - b) := by
  apply BitVec.eq_of_toNat_eq
  simp only [BitVec.toNat_sub, BitVec.toNat_ofNat]
  omega

theorem div64 {a b : Nat} (ha : a < 2 ^ 64) (hb : b < 2 ^ 64) : BitVec.ofNat 64 a / BitVec.ofNat 64 b = BitVec.ofNat 64 (a / b) := by
  apply BitVec.eq_of_toNat_eq
  have : a / b < 2 ^ 64 := Nat.lt_of_le_of_lt (Nat.div_le_self ..) ha
  rw [BitVec.toNat_udiv, BitVec.toNat_ofNat, BitVec.toNat_ofNat, BitVec.toNat_ofNat, Nat.mod_eq_of_lt ha, Nat.mod_eq_of_lt hb, Nat.mod_eq_of_lt this]

/-- The variables: those of the caller, and those of `absorb_bytes`. -/
def vv (len bs bschk o l pos : Nat) (total : BitVec 64) (more : List Val) : List Val :=
  .ptr 0 0 1 :: .u64 (BitVec.ofNat 64 len) :: .u64 (BitVec.ofNat 64 pos) :: .u64 total :: .ptr 0 o 1 :: .u64 (BitVec.ofNat 64 l) :: .u64 (BitVec.ofNat 64 bs) ::
    .u64 (BitVec.ofNat 64 bschk) :: .ptr 1 0 1 :: more

variable {σ : Type} {R : σ → List Arr → Prop} {tr : Bytes → Nat → Blk σ → M (Blk σ)} {bs bschk : Nat}

theorem rest_run {len o l : Nat} {data : Bytes} {s s' : Blk σ} {rest : List Arr} (hl : o + l = data.length) (hd : data.length < 2 ^ 64) (hp : s.pos < 2 ^ 64)
    (h : absorbRest (data.drop o) s = .ok s') :
    exec N ext (block [.memcpy (.bin .add (.var (4 + 4)) (.var 2)) (.var (4 + 0)) (.var (4 + 1)), .set 2 (.bin .add (.var 2) (.var (4 + 1)))])
      ⟨vv len bs bschk o l s.pos s.total [], .a8 data :: .a8 s.m :: rest⟩ = some ⟨vv len bs bschk o l s'.pos s'.total [], .a8 data :: .a8 s'.m :: rest⟩ := by
  obtain ⟨m, e1, e2⟩ := then_ok h
  obtain rfl := Except.ok.inj e2
  have hdl : (data.drop o).length = l := by rw [List.length_drop]; omega
  have hr : (Arr.a8 data).part o l = some (data.drop o) := by
    refine part_of ?_
    unfold readBytes
    rw [if_pos (by omega), List.take_of_length_le (by omega)]
  have hq : (Arr.a8 s.m).patch (0 + 1 * s.pos) (data.drop o) = some (.a8 m) := by
    rw [show 0 + 1 * s.pos = s.pos by omega]
    exact patch_of e1
  refine st_cons (st_memcpy (ev_move (n := s.pos) (by ev) (by ev) (count_u64 hp)) (by ev) (by ev) (count_u64 (by omega)) rfl rfl (by omega) hr hq rfl) ?_
  refine st_one (st_set (v := .u64 (BitVec.ofNat 64 (s.pos + (data.drop o).length))) (ev_as (by ev) ?_) rfl rfl rfl)
  rw [hdl, BitVec.ofNat_add]

theorem tail_run (hT : Trans N bs R tr ext) (hb0 : 0 < bs) (hb1 : bs ≤ bschk) (hb2 : bschk ≤ bs + 1) {len o l : Nat} {data : Bytes} {s s' : Blk σ} {rest : List Arr}
    (hl : o + l = data.length) (hd : data.length + 2 * bs < 2 ^ 64) (hN : data.length < N) (hp : s.pos < 2 ^ 64) (hR : R s.h rest)
    (h : absorbTail bs bschk tr (data.drop o) s = .ok s') :
    ∃ e, exec N ext (block [
    .ite (.bin .ge (.var (4 + 1)) (.var (4 + 3))) (.scope (block [
      .decl .u64 (.bin .div (.bin .sub (.bin .add (.var (4 + 1)) (.var (4 + 2))) (.var (4 + 3))) (.var (4 + 2))),
      .decl .u64 (.bin .mul (.var (4 + 5)) (.var (4 + 2))),
      .call 0 (.var (4 + 0)) (.var (4 + 5)),
      .set (4 + 1) (.bin .sub (.var (4 + 1)) (.var (4 + 6))),
      .set (4 + 0) (.bin .add (.var (4 + 0)) (.var (4 + 6))),
      .set 3 (.bin .add (.var 3) (.bin .mul (.var (4 + 6)) (.lit (.i32 8))))
    ])) .skip,
    .memcpy (.bin .add (.var (4 + 4)) (.var 2)) (.var (4 + 0)) (.var (4 + 1)),
    .set 2 (.bin .add (.var 2) (.var (4 + 1)))])
      ⟨vv len bs bschk o l s.pos s.total [], .a8 data :: .a8 s.m :: rest⟩ = some e ∧
      ∃ rest' o' l', R s'.h rest' ∧ e = ⟨vv len bs bschk o' l' s'.pos s'.total [], .a8 data :: .a8 s'.m :: rest'⟩ := by
  have hdl : (data.drop o).length = l := by rw [List.length_drop]; omega
  unfold absorbTail at h
  rw [hdl] at h
  have hcond : ∀ {q : Bool}, decide (bschk ≤ l) = q → truth (.bool (decide ((BitVec.ofNat 64 bschk).toNat ≤ (BitVec.ofNat 64 l).toNat))) = some q := by
    intro q hq
    rw [BitVec.toNat_ofNat, BitVec.toNat_ofNat, Nat.mod_eq_of_lt (by omega), Nat.mod_eq_of_lt (by omega), hq]
    rfl
  by_cases hc : l ≥ bschk
  · rw [if_pos hc, if_neg (by omega)] at h
    obtain ⟨s1, e1, h⟩ := then_ok h
    have hsz : szSub (l + bs) bschk = l + bs - bschk := by unfold szSub szMod; omega
    rw [hsz] at e1 h
    have hmul : (l + bs - bschk) / bs * bs ≤ l := Nat.le_trans (Nat.div_mul_le_self ..) (by omega)
    have hle : (l + bs - bschk) / bs ≤ l := Nat.le_trans (Nat.le_mul_of_pos_right _ hb0) hmul
    generalize hB : (l + bs - bschk) / bs = B at e1 h hmul hle
    obtain ⟨h1, rest1, rfl, r1, x1⟩ := hT data s.m data 0 o B (.u64 (BitVec.ofNat 64 B)) s s1 rest
      (vv len bs bschk o l s.pos s.total [.u64 (BitVec.ofNat 64 B), .u64 (BitVec.ofNat 64 (B * bs))]) (.inl ⟨rfl, rfl⟩) (by omega) (by omega) (by omega) rfl hR e1
    have hx := rest_run (N := N) (ext := ext) (bs := bs) (bschk := bschk) (len := len) (o := o + B * bs) (l := l - B * bs) (data := data) (rest := rest1)
      (s := { m := s.m, pos := s.pos, h := h1, total := s.total + BitVec.ofNat 64 (B * bs * 8) }) (s' := s') (by omega) (by omega) hp (by
        rw [← List.drop_drop]
        exact h)
    refine ex_of (st_cons (st_then (by ev) (hcond (decide_eq_true hc)) ?_) hx) ⟨rest1, _, _, ?_, rfl⟩
    · refine st_scope (vs' := vv len bs bschk (o + B * bs) (l - B * bs) s.pos (s.total + BitVec.ofNat 64 (B * bs * 8)) [.u64 (BitVec.ofNat 64 B), .u64 (BitVec.ofNat 64 (B * bs))]) ?_ rfl
      have d1 : BitVec.ofNat 64 bs ≠ 0#64 := by
        intro h0
        have := congrArg BitVec.toNat h0
        rw [BitVec.toNat_ofNat, Nat.mod_eq_of_lt (by omega)] at this
        exact absurd this (by show bs ≠ 0; omega)
      refine st_cons (st_decl (v := .u64 (BitVec.ofNat 64 B)) (ev_as (ev_bin (v := .u64 (BitVec.ofNat 64 l + BitVec.ofNat 64 bs - BitVec.ofNat 64 bschk)) (w := .u64 (BitVec.ofNat 64 bs)) (by ev) (by ev) (if_neg d1)) ?_) rfl rfl) ?_
      · rw [← BitVec.ofNat_add, sub64 (by omega) (by omega), div64 (by omega) (by omega), hB]
      refine st_cons (st_decl (v := .u64 (BitVec.ofNat 64 (B * bs))) (ev_as (by ev) (by rw [BitVec.ofNat_mul])) rfl rfl) ?_
      refine st_cons (st_call (by ev) (by ev) x1) ?_
      refine st_cons (st_set (v := .u64 (BitVec.ofNat 64 (l - B * bs))) (ev_as (by ev) (by rw [sub64 hmul (by omega)])) rfl rfl rfl) ?_
      refine st_cons (st_set (v := .ptr 0 (o + B * bs) 1) (ev_as (ev_move (n := B * bs) (by ev) (by ev) (count_u64 (by omega))) (by rw [Nat.one_mul])) rfl rfl rfl) ?_
      refine st_one (st_set (v := .u64 (s.total + BitVec.ofNat 64 (B * bs * 8))) (ev_as (by ev) (by rw [BitVec.ofNat_mul (B * bs)]; rfl)) rfl rfl rfl)
    · obtain ⟨m, _, e2⟩ := then_ok h
      obtain rfl := Except.ok.inj e2
      exact r1
  · rw [if_neg hc] at h
    refine ex_of (st_cons (st_else (by ev) (hcond (decide_eq_false hc)) st_skip) (rest_run hl (by omega) hp h)) ⟨rest, _, _, ?_, rfl⟩
    obtain ⟨m, _, e2⟩ := then_ok h
    obtain rfl := Except.ok.inj e2
    exact hR

theorem absorb_any (hT : Trans N bs R tr ext) (hb0 : 0 < bs) (hb1 : bs ≤ bschk) (hb2 : bschk ≤ bs + 1) {ebs ebschk : Expr} {v1 v2 : Val} {data : Bytes} {s s' : Blk σ}
    {rest : List Arr} (he1 : ∀ E, eval E ebs [] = some [v1]) (hc1 : conv .u64 v1 = some (.u64 (BitVec.ofNat 64 bs)))
    (he2 : ∀ E, eval E ebschk [] = some [v2]) (hc2 : conv .u64 v2 = some (.u64 (BitVec.ofNat 64 bschk)))
    (hd : data.length + 2 * bs < 2 ^ 64) (hN : data.length < N) (hN1 : 1 < N) (hm : bs ≤ s.m.length) (hm2 : s.m.length < 2 ^ 64) (hp : s.pos ≤ bs) (hR : R s.h rest)
    (h : absorbBytes bs bschk tr data s = .ok s') :
    ∃ e, exec N ext (block [absorb_bytes 4 (.var 0) (.var 1) ebs ebschk (.addr 1 (.lit (.i32 0))) 2 3])
      ⟨[.ptr 0 0 1, .u64 (BitVec.ofNat 64 data.length), .u64 (BitVec.ofNat 64 s.pos), .u64 s.total], .a8 data :: .a8 s.m :: rest⟩ = some e ∧
      ∃ rest', R s'.h rest' ∧
        e = ⟨[.ptr 0 0 1, .u64 (BitVec.ofNat 64 data.length), .u64 (BitVec.ofNat 64 s'.pos), .u64 s'.total], .a8 data :: .a8 s'.m :: rest'⟩ := by
  have hg : (Arr.a8 s.m).get 0 = some (.u8 (s.m.getD 0 0)) := get8 (by omega)
  apply ex_one
  apply ex_scope
  apply ex_cons (E1 := ⟨_, .a8 data :: .a8 s.m :: rest⟩)
  · exact st_declp (by ev) rfl
  apply ex_cons (E1 := ⟨_, .a8 data :: .a8 s.m :: rest⟩)
  · exact st_decl (by ev) rfl rfl
  apply ex_cons (E1 := ⟨_, .a8 data :: .a8 s.m :: rest⟩)
  · exact st_decl (he1 _) hc1 rfl
  apply ex_cons (E1 := ⟨_, .a8 data :: .a8 s.m :: rest⟩)
  · exact st_decl (he2 _) hc2 rfl
  apply ex_cons (E1 := ⟨vv data.length bs bschk 0 data.length s.pos s.total [], .a8 data :: .a8 s.m :: rest⟩)
  · exact st_declp (ev_addr rfl ev_lit (n := 0) rfl hg) rfl
  apply ex_one
  unfold absorbBytes at h
  by_cases hc : s.pos ≠ 0 ∧ (s.pos + data.length) % szMod ≥ bschk
  · rw [if_pos hc] at h
    obtain ⟨chunk, e1, h⟩ := then_ok h
    obtain ⟨m, e2, h⟩ := then_ok h
    obtain ⟨s1, e3, h⟩ := then_ok h
    have hsz : szSub bs s.pos = bs - s.pos := by unfold szSub szMod; omega
    rw [hsz] at e1
    have hmod : (s.pos + data.length) % szMod = s.pos + data.length := Nat.mod_eq_of_lt (by unfold szMod; omega)
    have hq : (Arr.a8 s.m).patch (0 + 1 * s.pos) chunk = some (.a8 m) := by
      rw [show 0 + 1 * s.pos = s.pos by omega]
      exact patch_of e2
    have hml : m.length = s.m.length := by
      have hk := e1
      unfold readBytes at hk
      split at hk
      · have := Except.ok.inj hk
        have hcl : chunk.length = bs - s.pos := by rw [← this, List.length_take, List.length_drop]; omega
        unfold memcpyTo at e2
        split at e2
        · rw [← Except.ok.inj e2]
          simp only [List.length_append, List.length_take, List.length_drop]
          omega
        · cases e2
      · cases hk
    obtain ⟨h1, rest1, rfl, r1, x1⟩ := hT data m m 1 0 1 (.i32 1) { s with m := m } s1 rest
      (vv data.length bs bschk 0 data.length s.pos s.total []) (.inr ⟨rfl, rfl⟩) (by omega) (by omega) hN1 rfl hR e3
    rw [show ({ s with m := m, h := h1 } : Blk σ).pos = s.pos from rfl, hsz] at h
    have hge : s.pos + data.length ≥ bschk := hmod ▸ hc.2
    obtain ⟨e, x, rest', o', l', r', rfl⟩ := tail_run (N := N) (ext := ext) hT hb0 hb1 hb2 (len := data.length) (o := bs - s.pos) (l := data.length - (bs - s.pos))
      (s := { m := m, pos := 0, h := h1, total := s.total + BitVec.ofNat 64 (bs * 8) }) (by omega) hd hN (by show 0 < _; omega) r1 h
    refine ex_of (st_cons (st_then (ev_land_true (b := true) (v := .u64 (BitVec.ofNat 64 s.pos)) (by ev) ?_ (by ev) ?_) rfl ?_) x) ⟨rest', r', rfl⟩
    · have : (BitVec.ofNat 64 s.pos != 0) = true := by
        rw [bne_iff_ne]
        intro h0
        have := congrArg BitVec.toNat h0
        rw [BitVec.toNat_ofNat, Nat.mod_eq_of_lt (by omega)] at this
        exact hc.1 this
      show (match some (Val.bool (BitVec.ofNat 64 s.pos != 0)) with
        | some (.bool b) => some b
        | _ => none) = _
      rw [this]
    · exact truth_true (by
        rw [← BitVec.ofNat_add, BitVec.toNat_ofNat, BitVec.toNat_ofNat, Nat.mod_eq_of_lt (by omega), Nat.mod_eq_of_lt (by omega)]
        exact hge)
    · refine st_scope (vs' := vv data.length bs bschk (bs - s.pos) (data.length - (bs - s.pos)) 0 (s.total + BitVec.ofNat 64 (bs * 8)) []) ?_ rfl
      refine st_cons (st_memcpy (ev_move (n := s.pos) (by ev) (by ev) (count_u64 (by omega))) (by ev) (ev_as (by ev) (by rw [sub64 hp (by omega)]))
        (count_u64 (by omega)) rfl rfl (by omega) (part_of e1) hq rfl) ?_
      refine st_cons (st_call (by ev) (by ev) x1) ?_
      refine st_cons (st_set (v := .u64 (BitVec.ofNat 64 (data.length - (bs - s.pos)))) (ev_as (by ev) (by rw [sub64 hp (by omega), sub64 (by omega) (by omega)])) rfl rfl rfl) ?_
      refine st_cons (st_set (v := .ptr 0 (bs - s.pos) 1) (ev_as (ev_move (n := bs - s.pos) (by ev) (ev_as (by ev) (by rw [sub64 hp (by omega)])) (count_u64 (by omega))) (by
        rw [Nat.one_mul, Nat.zero_add])) rfl rfl rfl) ?_
      refine st_cons (st_set (v := .u64 (s.total + BitVec.ofNat 64 (bs * 8))) (ev_as (by ev) (by rw [BitVec.ofNat_mul]; rfl)) rfl rfl rfl) ?_
      exact st_one (st_set (v := .i32 0) (by ev) rfl rfl rfl)
  · rw [if_neg hc] at h
    obtain ⟨e, x, rest', o', l', r', rfl⟩ := tail_run (N := N) (ext := ext) hT hb0 hb1 hb2 (len := data.length) (o := 0) (l := data.length) (by omega) hd hN (by omega) hR h
    refine ex_of (st_cons (st_else (v := .bool false) ?_ rfl st_skip) x) ⟨rest', r', rfl⟩
    have hmod : (s.pos + data.length) % szMod = s.pos + data.length := Nat.mod_eq_of_lt (by unfold szMod; omega)
    rw [hmod] at hc
    by_cases h0 : s.pos = 0
    · exact ev_land_false (v := .u64 (BitVec.ofNat 64 s.pos)) (by ev) (by rw [h0]; rfl)
    · refine ev_land_true (v := .u64 (BitVec.ofNat 64 s.pos)) (by ev) ?_ (by ev) ?_
      · have : (BitVec.ofNat 64 s.pos != 0) = true := by
          rw [bne_iff_ne]
          intro h1
          have := congrArg BitVec.toNat h1
          rw [BitVec.toNat_ofNat, Nat.mod_eq_of_lt (by omega)] at this
          exact h0 this
        show (match some (Val.bool (BitVec.ofNat 64 s.pos != 0)) with
          | some (.bool b) => some b
          | _ => none) = _
        rw [this]
      · exact truth_false (by
          rw [← BitVec.ofNat_add, BitVec.toNat_ofNat, BitVec.toNat_ofNat, Nat.mod_eq_of_lt (by omega), Nat.mod_eq_of_lt (by omega)]
          omega)

theorem absorb_run (hT : Trans N bs R tr ext) (hb0 : 0 < bs) (hb1 : bs ≤ bschk) (hb2 : bschk ≤ bs + 1) {ebs ebschk : Expr} {v1 v2 : Val} {data : Bytes} {s s' : Blk σ}
    {rest : List Arr} (he1 : ∀ E, eval E ebs [] = some [v1]) (hc1 : conv .u64 v1 = some (.u64 (BitVec.ofNat 64 bs)))
    (he2 : ∀ E, eval E ebschk [] = some [v2]) (hc2 : conv .u64 v2 = some (.u64 (BitVec.ofNat 64 bschk)))
    (hd : data.length + 2 * bs < 2 ^ 64) (hN : data.length < N) (hN1 : 1 < N) (hm : s.m.length = bs) (hp : s.pos ≤ bs) (hR : R s.h rest)
    (h : absorbBytes bs bschk tr data s = .ok s') :
    ∃ e, exec N ext (block [absorb_bytes 4 (.var 0) (.var 1) ebs ebschk (.addr 1 (.lit (.i32 0))) 2 3])
      ⟨[.ptr 0 0 1, .u64 (BitVec.ofNat 64 data.length), .u64 (BitVec.ofNat 64 s.pos), .u64 s.total], .a8 data :: .a8 s.m :: rest⟩ = some e ∧
      ∃ rest', R s'.h rest' ∧
        e = ⟨[.ptr 0 0 1, .u64 (BitVec.ofNat 64 data.length), .u64 (BitVec.ofNat 64 s'.pos), .u64 s'.total], .a8 data :: .a8 s'.m :: rest'⟩ :=
  absorb_any hT hb0 hb1 hb2 he1 hc1 he2 hc2 hd hN hN1 (by omega) (by omega) hp hR h

end Digestpp.Cpp.Absorb
