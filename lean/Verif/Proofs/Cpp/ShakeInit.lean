import Verif.Proofs.Cpp.Shake
import Verif.Proofs.Cpp.LeftEncode
import Verif.Proofs.CShake

/-! C71, SHAKE and cSHAKE: `init`. -/

namespace Digestpp.Cpp.Shake
open Src Src.Shake
open Model (Blk)
open Proofs.Shake (Absorbing)
open Model.Shake (leftEncode)
attribute [local irreducible] eval exec block

variable {N : Nat}

theorem ev_lor_true {E : Env} {as : List Val} {x y : Expr} {v : Val} (hx : eval E x as = some [v]) (h : truth v = some true) : eval E (.lor x y) as = some [.bool true] := by
  unfold eval
  rw [hx]
  show (match truth v with
    | some false => match eval E y as with
      | some [y] => (truth y).map fun b => [Val.bool b]
      | _ => none
    | some true => some [.bool true]
    | none => none) = _
  rw [h]

/-- A call of `update` in `init`. -/
theorem piece_run {r a : Nat} {θN θS raw data b : Bytes} {s : Blk Model.Shake.St} {rest more : List Arr} {vs : List Val} {e : Arr} (h8 : r % 8 = 0) (hr0 : 0 < r) (hr : r ≤ 168) (hN1 : 80 < N)
    (hd : data.length < 2 ^ 63) (hN : data.length < N) (hb : more[a]? = some (.a8 b)) (hp : b.take data.length = data) (h : Absorbing 24 r θN θS 0 raw s) (hR : R s.h rest) :
    ∃ s' rest', Absorbing 24 r θN θS 0 (raw ++ data) s' ∧ R s'.h rest' ∧
      Xof.own (8 * r) N 2 (.ptr (a + 5) 0 1) (.u64 (BitVec.ofNat 64 data.length)) ⟨.u64 (BitVec.ofNat 64 s.pos) :: .u64 s.total :: vs, e :: .a8 s.m :: (rest ++ more)⟩ =
        some ⟨.u64 (BitVec.ofNat 64 s'.pos) :: .u64 s'.total :: vs, e :: .a8 s'.m :: (rest' ++ more)⟩ := by
  obtain ⟨s', e1, h'⟩ := Proofs.Shake.update_ok (by omega) h8 hr0 hr data h hd
  have hpos := h.pos
  rw [Nat.sub_zero, Proofs.mod_eq_sub_div] at hpos
  have hlt := Nat.mod_lt raw.length hr0
  obtain ⟨x, e2, rest', hR', rfl⟩ := update_run (N := N) (rate := 8 * r) (by omega) (by omega) (by omega) hN hN1 h.mlen (by omega) hR e1
  refine ⟨s', rest', h', hR', ?_⟩
  obtain ⟨hA, C, D, hC, hD, rfl⟩ := hR
  obtain ⟨hA', C', D', hC', hD', rfl⟩ := hR'
  have hlen : (BitVec.ofNat 64 data.length).toNat = data.length := by rw [BitVec.toNat_ofNat, Nat.mod_eq_of_lt (by omega)]
  have hle : data.length ≤ b.length := by
    have := congrArg List.length hp
    rw [List.length_take] at this
    omega
  show (match more[a]? with
    | some (.a8 b) =>
      if (BitVec.ofNat 64 data.length).toNat ≤ b.length then
        match exec N (Xof.calls (8 * r) N) (Src.Shake.update (8 * r))
          ⟨[.ptr 0 0 1, .u64 (BitVec.ofNat 64 data.length), .u64 (BitVec.ofNat 64 s.pos), .u64 s.total], [.a8 (b.take (BitVec.ofNat 64 data.length).toNat), .a8 s.m, .a64 s.h.A, .a64 C, .a64 D]⟩ with
        | some ⟨[_, _, p, t], [_, m, A, C, D]⟩ => some (Env.mk (p :: t :: vs) (e :: m :: A :: C :: D :: more))
        | _ => none
      else none
    | _ => none) = _
  rw [hb]
  dsimp only
  rw [hlen, if_pos hle, hp, e2]
  rfl

/-- The variables of `init` after its first lines (shake_provider.hpp 82-86, 169-177). -/
abbrev W0 (s : Blk Model.Shake.St) (a b : Bool) (nl sl : Nat) (more : List Val) : List Val :=
  .u64 (BitVec.ofNat 64 s.pos) :: .u64 s.total :: .bool false :: .u8 0 :: .bool a :: .bool b :: .u64 (BitVec.ofNat 64 nl) :: .u64 (BitVec.ofNat 64 sl) :: more

/-- The arrays of `init` (shake_provider.hpp 90, 169-177). -/
abbrev X (m : Bytes) (rest : List Arr) (buf θN θS : Bytes) : List Arr := .a8 [] :: .a8 m :: (rest ++ [.a8 buf, .a8 θN, .a8 θS])

theorem encode_run {rate dep num : Nat} {vs vs' : List Val} {ev : Expr} {old v : Val} {m buf θN θS : Bytes} {h : Model.Shake.St} {rest : List Arr} (hN : 10 < N) (hd : vs.length = dep) (hres : 9 < dep)
    (hold : vs[9]? = some old) (hty : assign old (.u64 (BitVec.ofNat 64 (leftEncode num).length)) = some v) (hv : vs.set 9 v = vs') (hnum : num < 2 ^ 64) (hbuf : 9 ≤ buf.length) (hR : R h rest)
    (hev : eval ⟨vs, X m rest buf θN θS⟩ ev [] = some [.u64 (BitVec.ofNat 64 num)]) :
    exec N (Xof.own rate N) (left_encode dep ev (.addr 5 (.lit (.i32 0))) 9) ⟨vs, X m rest buf θN θS⟩ =
      some ⟨vs', X m rest (leftEncode num ++ buf.drop (leftEncode num).length) θN θS⟩ := by
  obtain ⟨-, C, D, -, -, rfl⟩ := hR
  exact LeftEncode.run hN hd hres hold hty hv hnum hbuf hev

theorem ev_buf {m buf θN θS : Bytes} {vs : List Val} {h : Model.Shake.St} {rest : List Arr} (hR : R h rest) (hb : 0 < buf.length) :
    eval ⟨vs, X m rest buf θN θS⟩ (.addr 5 (.lit (.i32 0))) [] = some [.ptr (0 + 5) 0 1] := by
  obtain ⟨-, C, D, -, -, rfl⟩ := hR
  exact ev_addr (xs := .a8 buf) rfl ev_lit (n := 0) rfl (get8 hb)

theorem ev_name {m buf θN θS : Bytes} {vs : List Val} {h : Model.Shake.St} {rest : List Arr} (hR : R h rest) (hb : 0 < θN.length) :
    eval ⟨vs, X m rest buf θN θS⟩ (.recast 1 (.addr 6 (.lit (.i32 0)))) [] = some [.ptr (1 + 5) 0 1] := by
  obtain ⟨-, C, D, -, -, rfl⟩ := hR
  exact ev_recast (ev_addr (xs := .a8 θN) rfl ev_lit (n := 0) rfl (get8 hb))

theorem ev_custom {m buf θN θS : Bytes} {vs : List Val} {h : Model.Shake.St} {rest : List Arr} (hR : R h rest) (hb : 0 < θS.length) :
    eval ⟨vs, X m rest buf θN θS⟩ (.recast 1 (.addr 7 (.lit (.i32 0)))) [] = some [.ptr (2 + 5) 0 1] := by
  obtain ⟨-, C, D, -, -, rfl⟩ := hR
  exact ev_recast (ev_addr (xs := .a8 θS) rfl ev_lit (n := 0) rfl (get8 hb))

theorem memset_buf {rate n : Nat} {m buf θN θS : Bytes} {vs : List Val} {h : Model.Shake.St} {rest : List Arr} {en : Expr} (hR : R h rest) (hb : 0 < buf.length) (hn : n ≤ buf.length) (hn2 : n < 2 ^ 64)
    (he : eval ⟨vs, X m rest buf θN θS⟩ en [] = some [.u64 (BitVec.ofNat 64 n)]) :
    exec N (Xof.own rate N) (.memset (.addr 5 (.lit (.i32 0))) (.lit (.i32 0)) en) ⟨vs, X m rest buf θN θS⟩ = some ⟨vs, X m rest (List.replicate n 0 ++ buf.drop n) θN θS⟩ := by
  refine st_memset (a := 5) (o := 0) (z := 1) (ev_buf hR hb) ev_lit he (k := n) (x := 0) (count_u64 hn2) rfl (xs := .a8 buf) ?_ (xs' := .a8 (List.replicate n 0 ++ buf.drop n)) ?_ ?_
  · obtain ⟨-, C, D, -, -, rfl⟩ := hR; rfl
  · unfold Arr.patch
    show (if 0 + (List.replicate n (0 : BitVec 8)).length ≤ buf.length then some (Arr.a8 (buf.take 0 ++ List.replicate n 0 ++ buf.drop (0 + (List.replicate n (0 : BitVec 8)).length))) else none) = _
    rw [List.length_replicate, if_pos (by omega), List.take_zero, List.nil_append, Nat.zero_add]
  · obtain ⟨-, C, D, -, -, rfl⟩ := hR; rfl

theorem times8 {E : Env} {x : Expr} {n : Nat} (h : eval E x [] = some [.u64 (BitVec.ofNat 64 n)]) : eval E (.bin .mul x (.lit (.i32 8))) [] = some [.u64 (BitVec.ofNat 64 (n * 8))] := by
  refine ev_bin h ev_lit ?_
  show some (Val.u64 (BitVec.ofNat 64 n * BitVec.ofInt 64 8)) = _
  congr 2
  apply BitVec.eq_of_toNat_eq
  rw [BitVec.toNat_mul, BitVec.toNat_ofNat, BitVec.toNat_ofNat, show (BitVec.ofInt 64 8).toNat = 8 from rfl, Nat.mod_mul_mod]

theorem plus {E : Env} {x y : Expr} {a b : Nat} (h : eval E x [] = some [.u64 (BitVec.ofNat 64 a)]) (h' : eval E y [] = some [.u64 (BitVec.ofNat 64 b)]) :
    eval E (.bin .add x y) [] = some [.u64 (BitVec.ofNat 64 (a + b))] := by
  refine ev_bin h h' ?_
  show some (Val.u64 (BitVec.ofNat 64 a + BitVec.ofNat 64 b)) = _
  rw [BitVec.ofNat_add]

/-- `if (!X.empty()) update(X.data(), X.length())`. -/
theorem string_run {r k : Nat} {θN θS raw θ : Bytes} {s : Blk Model.Shake.St} {rest : List Arr} {vs : List Val} {buf : Bytes} {a : Nat} {d : Expr} {flag size : Nat} (h8 : r % 8 = 0) (hr0 : 0 < r)
    (hr : r ≤ 168) (hN1 : 80 < N) (hd : θ.length < 2 ^ 63) (hN : θ.length < N) (hθ : [Arr.a8 buf, .a8 θN, .a8 θS][a]? = some (.a8 θ)) (h : Absorbing 24 r θN θS 0 raw s) (hR : R s.h rest)
    (hf : vs[flag]? = some (.bool θ.isEmpty)) (hs : vs[size]? = some (.u64 (BitVec.ofNat 64 θ.length))) (hk : k = a + 5)
    (hp : ∀ vs m, 0 < θ.length → eval ⟨vs, X m rest buf θN θS⟩ d [] = some [.ptr k 0 1]) :
    ∃ s' rest', Absorbing 24 r θN θS 0 (raw ++ θ) s' ∧ R s'.h rest' ∧
      exec N (Xof.own (8 * r) N) (.ite (.lnot (.var (flag + 2))) (.scope (block [.call 2 d (.var (size + 2))])) .skip)
        ⟨.u64 (BitVec.ofNat 64 s.pos) :: .u64 s.total :: vs, X s.m rest buf θN θS⟩ = some ⟨.u64 (BitVec.ofNat 64 s'.pos) :: .u64 s'.total :: vs, X s'.m rest' buf θN θS⟩ := by
  subst hk
  cases hθe : θ with
  | nil =>
    rw [hθe] at hf
    refine ⟨s, rest, by rw [List.append_nil]; exact h, hR, st_else (v := .bool false) (ev_lnot (b := true) (ev_var hf rfl) rfl) rfl st_skip⟩
  | cons t T =>
    rw [← hθe]
    have hpos : 0 < θ.length := by rw [hθe, List.length_cons]; omega
    have he : θ.isEmpty = false := by rw [hθe]; rfl
    rw [he] at hf
    obtain ⟨s', rest', h', hR', x⟩ := piece_run (N := N) (a := a) (data := θ) (b := θ) (vs := vs) (e := .a8 []) h8 hr0 hr hN1 hd hN hθ (List.take_length ..) h hR
    refine ⟨s', rest', h', hR', st_then (v := .bool true) (ev_lnot (b := false) (ev_var hf rfl) rfl) rfl ?_⟩
    exact st_scope (st_one (st_call (hp _ _ hpos) (ev_var hs rfl) x)) (by rw [List.take_of_length_le]; exact Nat.le_refl _)

/-- shake_provider.hpp 89-110. -/
def prefixText (rate : Nat) : Stmt := block [
  .decl .u64 (.bin .div (.lit (.u64 (BitVec.ofNat 64 rate))) (.lit (.i32 8))),
  .declare .u64,
  left_encode 10 (.var 8) (.addr 5 (.lit (.i32 0))) 9,
  .decl .u64 (.var 9),
  .call 2 (.addr 5 (.lit (.i32 0))) (.var 9),
  left_encode 11 (.bin .mul (.var 6) (.lit (.i32 8))) (.addr 5 (.lit (.i32 0))) 9,
  .set 10 (.bin .add (.var 10) (.var 9)),
  .call 2 (.addr 5 (.lit (.i32 0))) (.var 9),
  .ite (.lnot (.var 4)) (.scope (block [.call 2 (.recast 1 (.addr 6 (.lit (.i32 0)))) (.var 6)])) .skip,
  left_encode 11 (.bin .mul (.var 7) (.lit (.i32 8))) (.addr 5 (.lit (.i32 0))) 9,
  .call 2 (.addr 5 (.lit (.i32 0))) (.var 9),
  .set 10 (.bin .add (.var 10) (.var 9)),
  .ite (.lnot (.var 5)) (.scope (block [.call 2 (.recast 1 (.addr 7 (.lit (.i32 0)))) (.var 7)])) .skip,
  .set 10 (.bin .add (.var 10) (.bin .add (.var 7) (.var 6))),
  .set 9 (.bin .sub (.var 8) (.bin .mod (.var 10) (.var 8))),
  .memset (.addr 5 (.lit (.i32 0))) (.lit (.i32 0)) (.var 9),
  .call 2 (.addr 5 (.lit (.i32 0))) (.var 9)]

theorem encode_length {num : Nat} (h : num < 2 ^ 64) : (leftEncode num).length ≤ 9 := by
  rw [Proofs.Encode.leftEncode_eq num h]
  exact Proofs.Encode.length_leftEncode num h

theorem fill_length {T buf : Bytes} (h : T.length ≤ buf.length) : (T ++ buf.drop T.length).length = buf.length := by
  rw [List.length_append, List.length_drop]; omega

theorem prefix_run {r : Nat} {θN θS buf : Bytes} {s : Blk Model.Shake.St} {rest : List Arr} (h8 : r % 8 = 0) (hr0 : 0 < r) (hr : r ≤ 168) (hN1 : 168 < N) (hNl : θN.length < 2 ^ 61)
    (hSl : θS.length < 2 ^ 61) (hNN : θN.length < N) (hSN : θS.length < N) (hbuf : buf.length = 1024) (h : Absorbing 24 r θN θS 0 [] s) (hR : R s.h rest) :
    ∃ s' rest' buf' vs, Absorbing 24 r θN θS 0 (Spec.Keccak.bytepadFull (Spec.Keccak.encodeString θN ++ Spec.Keccak.encodeString θS) r) s' ∧ R s'.h rest' ∧
      exec N (Xof.own (8 * r) N) (prefixText (8 * r)) ⟨W0 s θN.isEmpty θS.isEmpty θN.length θS.length [], X s.m rest buf θN θS⟩ =
        some ⟨W0 s' θN.isEmpty θS.isEmpty θN.length θS.length vs, X s'.m rest' buf' θN θS⟩ := by
  obtain ⟨b1, e1⟩ : ∃ b, leftEncode r = b := ⟨_, rfl⟩
  obtain ⟨b2, e2⟩ : ∃ b, leftEncode (θN.length * 8) = b := ⟨_, rfl⟩
  obtain ⟨b3, e3⟩ : ∃ b, leftEncode (θS.length * 8) = b := ⟨_, rfl⟩
  have l1 : b1.length ≤ 9 := e1 ▸ encode_length (by omega)
  have l2 : b2.length ≤ 9 := e2 ▸ encode_length (by omega)
  have l3 : b3.length ≤ 9 := e3 ▸ encode_length (by omega)
  obtain ⟨buf1, hf1⟩ : ∃ b, b1 ++ buf.drop b1.length = b := ⟨_, rfl⟩
  obtain ⟨buf2, hf2⟩ : ∃ b, b2 ++ buf1.drop b2.length = b := ⟨_, rfl⟩
  obtain ⟨buf3, hf3⟩ : ∃ b, b3 ++ buf2.drop b3.length = b := ⟨_, rfl⟩
  have k1 : buf1.length = 1024 := by rw [← hf1, fill_length (by omega), hbuf]
  have k2 : buf2.length = 1024 := by rw [← hf2, fill_length (by omega), k1]
  have k3 : buf3.length = 1024 := by rw [← hf3, fill_length (by omega), k2]
  obtain ⟨tot, ht⟩ : ∃ t, b1.length + b2.length + b3.length + (θS.length + θN.length) = t := ⟨_, rfl⟩
  obtain ⟨z, hz⟩ : ∃ z, r - tot % r = z := ⟨_, rfl⟩
  obtain ⟨buf4, hf4⟩ : ∃ b, List.replicate z (0 : BitVec 8) ++ buf3.drop z = b := ⟨_, rfl⟩
  have hz1 : z ≤ r := by omega
  have k4 : buf4.length = 1024 := by rw [← hf4, List.length_append, List.length_replicate, List.length_drop]; omega
  have q0 : ∀ s : Blk Model.Shake.St, ∀ more : List Val, W0 s θN.isEmpty θS.isEmpty θN.length θS.length more = .u64 (BitVec.ofNat 64 s.pos) :: .u64 s.total ::
    (.bool false :: .u8 0 :: .bool θN.isEmpty :: .bool θS.isEmpty :: .u64 (BitVec.ofNat 64 θN.length) :: .u64 (BitVec.ofNat 64 θS.length) :: more) := fun _ _ => rfl
  obtain ⟨s1, rest1, a1, R1, x1⟩ := piece_run (N := N) (a := 0) (data := b1) (b := buf1) (more := [.a8 buf1, .a8 θN, .a8 θS]) (e := .a8 [])
    (vs := [.bool false, .u8 0, .bool θN.isEmpty, .bool θS.isEmpty, .u64 (BitVec.ofNat 64 θN.length), .u64 (BitVec.ofNat 64 θS.length), .u64 (BitVec.ofNat 64 r), .u64 (BitVec.ofNat 64 b1.length),
      .u64 (BitVec.ofNat 64 b1.length)]) h8 hr0 hr (by omega) (by omega) (by omega) rfl (by rw [← hf1, List.take_left]) h hR
  obtain ⟨s2, rest2, a2, R2, x2⟩ := piece_run (N := N) (a := 0) (data := b2) (b := buf2) (more := [.a8 buf2, .a8 θN, .a8 θS]) (e := .a8 [])
    (vs := [.bool false, .u8 0, .bool θN.isEmpty, .bool θS.isEmpty, .u64 (BitVec.ofNat 64 θN.length), .u64 (BitVec.ofNat 64 θS.length), .u64 (BitVec.ofNat 64 r), .u64 (BitVec.ofNat 64 b2.length),
      .u64 (BitVec.ofNat 64 (b1.length + b2.length))]) h8 hr0 hr (by omega) (by omega) (by omega) rfl (by rw [← hf2, List.take_left]) a1 R1
  obtain ⟨s3, rest3, a3, R3, x3⟩ := string_run (N := N) (a := 1) (k := 6) (θ := θN) (buf := buf2) (flag := 2) (size := 4) (d := .recast 1 (.addr 6 (.lit (.i32 0))))
    (vs := [.bool false, .u8 0, .bool θN.isEmpty, .bool θS.isEmpty, .u64 (BitVec.ofNat 64 θN.length), .u64 (BitVec.ofNat 64 θS.length), .u64 (BitVec.ofNat 64 r), .u64 (BitVec.ofNat 64 b2.length),
      .u64 (BitVec.ofNat 64 (b1.length + b2.length))]) h8 hr0 hr (by omega) (by omega) hNN rfl a2 R2 rfl rfl rfl (fun _ _ hb => ev_name R2 hb)
  obtain ⟨s4, rest4, a4, R4, x4⟩ := piece_run (N := N) (a := 0) (data := b3) (b := buf3) (more := [.a8 buf3, .a8 θN, .a8 θS]) (e := .a8 [])
    (vs := [.bool false, .u8 0, .bool θN.isEmpty, .bool θS.isEmpty, .u64 (BitVec.ofNat 64 θN.length), .u64 (BitVec.ofNat 64 θS.length), .u64 (BitVec.ofNat 64 r), .u64 (BitVec.ofNat 64 b3.length),
      .u64 (BitVec.ofNat 64 (b1.length + b2.length))]) h8 hr0 hr (by omega) (by omega) (by omega) rfl (by rw [← hf3, List.take_left]) a3 R3
  obtain ⟨s5, rest5, a5, R5, x5⟩ := string_run (N := N) (a := 2) (k := 7) (θ := θS) (buf := buf3) (flag := 3) (size := 5) (d := .recast 1 (.addr 7 (.lit (.i32 0))))
    (vs := [.bool false, .u8 0, .bool θN.isEmpty, .bool θS.isEmpty, .u64 (BitVec.ofNat 64 θN.length), .u64 (BitVec.ofNat 64 θS.length), .u64 (BitVec.ofNat 64 r), .u64 (BitVec.ofNat 64 b3.length),
      .u64 (BitVec.ofNat 64 (b1.length + b2.length + b3.length))]) h8 hr0 hr (by omega) (by omega) hSN rfl a4 R4 rfl rfl rfl (fun _ _ hb => ev_custom R4 hb)
  obtain ⟨s6, rest6, a6, R6, x6⟩ := piece_run (N := N) (a := 0) (data := List.replicate z 0) (b := buf4) (more := [.a8 buf4, .a8 θN, .a8 θS]) (e := .a8 [])
    (vs := [.bool false, .u8 0, .bool θN.isEmpty, .bool θS.isEmpty, .u64 (BitVec.ofNat 64 θN.length), .u64 (BitVec.ofNat 64 θS.length), .u64 (BitVec.ofNat 64 r), .u64 (BitVec.ofNat 64 z),
      .u64 (BitVec.ofNat 64 tot)]) h8 hr0 hr (by omega) (by rw [List.length_replicate]; omega) (by rw [List.length_replicate]; omega) rfl
      (by rw [← hf4, List.length_replicate, List.take_append_of_le_length (by rw [List.length_replicate]), List.take_of_length_le (by rw [List.length_replicate])]) a5 R5
  rw [List.length_replicate] at x6
  refine ⟨s6, rest6, buf4, [.u64 (BitVec.ofNat 64 r), .u64 (BitVec.ofNat 64 z), .u64 (BitVec.ofNat 64 tot)], ?_, R6, ?_⟩
  · have e : [] ++ b1 ++ b2 ++ θN ++ b3 ++ θS ++ List.replicate z 0 = Spec.Keccak.bytepadFull (Spec.Keccak.encodeString θN ++ Spec.Keccak.encodeString θS) r := by
      unfold Spec.Keccak.bytepadFull Spec.Keccak.encodeString
      dsimp only
      rw [Nat.mul_comm 8 θN.length, Nat.mul_comm 8 θS.length, ← Proofs.Encode.leftEncode_eq r (by omega), ← Proofs.Encode.leftEncode_eq _ (by omega : θN.length * 8 < 2 ^ 64),
        ← Proofs.Encode.leftEncode_eq _ (by omega : θS.length * 8 < 2 ^ 64), e1, e2, e3]
      have hlen : (b1 ++ (b2 ++ θN ++ (b3 ++ θS))).length = tot := by simp only [List.length_append]; omega
      rw [hlen, hz]
      simp only [List.nil_append, List.append_assoc]
    rw [← e]
    exact a6
  unfold prefixText
  refine st_cons (E1 := ⟨W0 s θN.isEmpty θS.isEmpty θN.length θS.length [.u64 (BitVec.ofNat 64 r)], X s.m rest buf θN θS⟩) ?_ ?_
  · refine st_decl (v := .u64 (BitVec.ofNat 64 r)) ?_ rfl rfl
    have := Sha3.ev_quot (E := ⟨W0 s θN.isEmpty θS.isEmpty θN.length θS.length [], X s.m rest buf θN θS⟩) (as := []) (x := .lit (.u64 (BitVec.ofNat 64 (8 * r)))) (n := 8 * r) (k := 8) (by decide) (by omega) ev_lit
    rw [show 8 * r / 8 = r by omega] at this
    exact this
  refine st_cons (E1 := ⟨W0 s θN.isEmpty θS.isEmpty θN.length θS.length [.u64 (BitVec.ofNat 64 r), .undef .u64], X s.m rest buf θN θS⟩) (st_declare rfl) ?_
  refine st_cons (E1 := ⟨W0 s θN.isEmpty θS.isEmpty θN.length θS.length [.u64 (BitVec.ofNat 64 r), .u64 (BitVec.ofNat 64 b1.length)], X s.m rest buf1 θN θS⟩) ?_ ?_
  · have := encode_run (N := N) (rate := 8 * r) (dep := 10) (num := r) (ev := .var 8) (vs := W0 s θN.isEmpty θS.isEmpty θN.length θS.length [.u64 (BitVec.ofNat 64 r), .undef .u64])
      (vs' := W0 s θN.isEmpty θS.isEmpty θN.length θS.length [.u64 (BitVec.ofNat 64 r), .u64 (BitVec.ofNat 64 b1.length)]) (old := .undef .u64) (v := .u64 (BitVec.ofNat 64 b1.length)) (m := s.m) (buf := buf)
      (θN := θN) (θS := θS) (by omega) rfl (by omega) rfl (by rw [e1]; rfl) rfl (by omega) (by omega) hR (ev_var rfl rfl)
    rw [e1, hf1] at this
    exact this
  refine st_cons (E1 := ⟨W0 s θN.isEmpty θS.isEmpty θN.length θS.length [.u64 (BitVec.ofNat 64 r), .u64 (BitVec.ofNat 64 b1.length), .u64 (BitVec.ofNat 64 b1.length)], X s.m rest buf1 θN θS⟩)
    (st_decl (v := .u64 (BitVec.ofNat 64 b1.length)) (ev_var rfl rfl) rfl rfl) ?_
  refine st_cons (st_call (ev_buf hR (by omega)) (ev_var rfl rfl) x1) ?_
  refine st_cons (E1 := ⟨W0 s1 θN.isEmpty θS.isEmpty θN.length θS.length [.u64 (BitVec.ofNat 64 r), .u64 (BitVec.ofNat 64 b2.length), .u64 (BitVec.ofNat 64 b1.length)], X s1.m rest1 buf2 θN θS⟩) ?_ ?_
  · have := encode_run (N := N) (rate := 8 * r) (dep := 11) (num := θN.length * 8) (ev := .bin .mul (.var 6) (.lit (.i32 8)))
      (vs := W0 s1 θN.isEmpty θS.isEmpty θN.length θS.length [.u64 (BitVec.ofNat 64 r), .u64 (BitVec.ofNat 64 b1.length), .u64 (BitVec.ofNat 64 b1.length)])
      (vs' := W0 s1 θN.isEmpty θS.isEmpty θN.length θS.length [.u64 (BitVec.ofNat 64 r), .u64 (BitVec.ofNat 64 b2.length), .u64 (BitVec.ofNat 64 b1.length)]) (old := .u64 (BitVec.ofNat 64 b1.length))
      (v := .u64 (BitVec.ofNat 64 b2.length)) (m := s1.m) (buf := buf1)
      (θN := θN) (θS := θS) (by omega) rfl (by omega) rfl (by rw [e2]; rfl) rfl (by omega) (by omega) R1 (times8 (ev_var rfl rfl))
    rw [e2, hf2] at this
    exact this
  refine st_cons (E1 := ⟨W0 s1 θN.isEmpty θS.isEmpty θN.length θS.length [.u64 (BitVec.ofNat 64 r), .u64 (BitVec.ofNat 64 b2.length), .u64 (BitVec.ofNat 64 (b1.length + b2.length))], X s1.m rest1 buf2 θN θS⟩)
    (st_set (plus (ev_var rfl rfl) (ev_var rfl rfl)) rfl rfl rfl) ?_
  refine st_cons (st_call (ev_buf R1 (by omega)) (ev_var rfl rfl) x2) ?_
  refine st_cons x3 ?_
  refine st_cons (E1 := ⟨W0 s3 θN.isEmpty θS.isEmpty θN.length θS.length [.u64 (BitVec.ofNat 64 r), .u64 (BitVec.ofNat 64 b3.length), .u64 (BitVec.ofNat 64 (b1.length + b2.length))], X s3.m rest3 buf3 θN θS⟩) ?_ ?_
  · have := encode_run (N := N) (rate := 8 * r) (dep := 11) (num := θS.length * 8) (ev := .bin .mul (.var 7) (.lit (.i32 8)))
      (vs := W0 s3 θN.isEmpty θS.isEmpty θN.length θS.length [.u64 (BitVec.ofNat 64 r), .u64 (BitVec.ofNat 64 b2.length), .u64 (BitVec.ofNat 64 (b1.length + b2.length))])
      (vs' := W0 s3 θN.isEmpty θS.isEmpty θN.length θS.length [.u64 (BitVec.ofNat 64 r), .u64 (BitVec.ofNat 64 b3.length), .u64 (BitVec.ofNat 64 (b1.length + b2.length))]) (old := .u64 (BitVec.ofNat 64 b2.length))
      (v := .u64 (BitVec.ofNat 64 b3.length)) (m := s3.m) (buf := buf2)
      (θN := θN) (θS := θS) (by omega) rfl (by omega) rfl (by rw [e3]; rfl) rfl (by omega) (by omega) R3 (times8 (ev_var rfl rfl))
    rw [e3, hf3] at this
    exact this
  refine st_cons (st_call (ev_buf R3 (by omega)) (ev_var rfl rfl) x4) ?_
  refine st_cons (E1 := ⟨W0 s4 θN.isEmpty θS.isEmpty θN.length θS.length [.u64 (BitVec.ofNat 64 r), .u64 (BitVec.ofNat 64 b3.length), .u64 (BitVec.ofNat 64 (b1.length + b2.length + b3.length))], X s4.m rest4 buf3 θN θS⟩)
    (st_set (plus (ev_var rfl rfl) (ev_var rfl rfl)) rfl rfl rfl) ?_
  refine st_cons x5 ?_
  refine st_cons (E1 := ⟨W0 s5 θN.isEmpty θS.isEmpty θN.length θS.length [.u64 (BitVec.ofNat 64 r), .u64 (BitVec.ofNat 64 b3.length), .u64 (BitVec.ofNat 64 tot)], X s5.m rest5 buf3 θN θS⟩) ?_ ?_
  · rw [← ht]
    exact st_set (plus (ev_var rfl rfl) (plus (ev_var rfl rfl) (ev_var rfl rfl))) rfl rfl rfl
  refine st_cons (E1 := ⟨W0 s5 θN.isEmpty θS.isEmpty θN.length θS.length [.u64 (BitVec.ofNat 64 r), .u64 (BitVec.ofNat 64 z), .u64 (BitVec.ofNat 64 tot)], X s5.m rest5 buf3 θN θS⟩) ?_ ?_
  · refine st_set (v := .u64 (BitVec.ofNat 64 z)) (old := .u64 (BitVec.ofNat 64 b3.length)) ?_ rfl rfl rfl
    have hm := ev_bin (o := .mod) (E := ⟨W0 s5 θN.isEmpty θS.isEmpty θN.length θS.length [.u64 (BitVec.ofNat 64 r), .u64 (BitVec.ofNat 64 b3.length), .u64 (BitVec.ofNat 64 tot)], X s5.m rest5 buf3 θN θS⟩)
      (as := []) (x := .var 10) (y := .var 8) (v := .u64 (BitVec.ofNat 64 tot)) (w := .u64 (BitVec.ofNat 64 r)) (ev_var rfl rfl) (ev_var rfl rfl) (r := .u64 (BitVec.ofNat 64 (tot % r))) (by
        show (if BitVec.ofNat 64 r = 0#64 then none else some (Val.u64 (BitVec.ofNat 64 tot % BitVec.ofNat 64 r))) = _
        rw [if_neg (by
          intro h0
          have := congrArg BitVec.toNat h0
          rw [BitVec.toNat_ofNat, Nat.mod_eq_of_lt (by omega)] at this
          exact absurd this (by show r ≠ 0; omega))]
        congr 2
        apply BitVec.eq_of_toNat_eq
        have := Nat.mod_lt tot hr0
        rw [BitVec.toNat_umod, BitVec.toNat_ofNat, BitVec.toNat_ofNat, BitVec.toNat_ofNat, Nat.mod_eq_of_lt (by omega : tot < 2 ^ 64), Nat.mod_eq_of_lt (by omega : r < 2 ^ 64),
          Nat.mod_eq_of_lt (Nat.lt_trans this (by omega))])
    refine ev_bin (ev_var (v := .u64 (BitVec.ofNat 64 r)) rfl rfl) hm ?_
    have := Nat.mod_lt tot hr0
    show some (Val.u64 (BitVec.ofNat 64 r - BitVec.ofNat 64 (tot % r))) = _
    rw [Absorb.sub64 (by omega) (by omega), hz]
  refine st_cons (E1 := ⟨W0 s5 θN.isEmpty θS.isEmpty θN.length θS.length [.u64 (BitVec.ofNat 64 r), .u64 (BitVec.ofNat 64 z), .u64 (BitVec.ofNat 64 tot)], X s5.m rest5 buf4 θN θS⟩) ?_ (st_one ?_)
  · rw [← hf4]
    exact memset_buf R5 (by omega) (by omega) (by omega) (ev_var rfl rfl)
  exact st_call (ev_buf R5 (by omega)) (ev_var rfl rfl) x6

/-- shake_provider.hpp 80-111. -/
theorem init_run {r : Nat} {θ : Spec.Keccak.CShakeParams} {buf m : Bytes} {p t : BitVec 64} {q : Bool} {f : BitVec 8} {A C D : List (BitVec 64)} (h8 : r % 8 = 0) (hr0 : 0 < r) (hr : r ≤ 168)
    (hN1 : 168 < N) (hNl : θ.N.length < 2 ^ 61) (hSl : θ.S.length < 2 ^ 61) (hNN : θ.N.length < N) (hSN : θ.S.length < N) (hbuf : buf.length = 1024) (hm : m.length = 168) (hA : A.length = 25)
    (hC : C.length = 5) (hD : D.length = 5) :
    ∃ s' rest' buf', Absorbing 24 r θ.N θ.S 0 (Proofs.Shake.pfx r θ) s' ∧ R s'.h rest' ∧
      exec N (Xof.own (8 * r) N) (init (8 * r)) ⟨[.u64 p, .u64 t, .bool q, .u8 f, .bool θ.N.isEmpty, .bool θ.S.isEmpty, .u64 (BitVec.ofNat 64 θ.N.length), .u64 (BitVec.ofNat 64 θ.S.length)],
        X m [.a64 A, .a64 C, .a64 D] buf θ.N θ.S⟩ = some ⟨W0 s' θ.N.isEmpty θ.S.isEmpty θ.N.length θ.S.length [], X s'.m rest' buf' θ.N θ.S⟩ := by
  obtain ⟨θN, θS⟩ := θ
  dsimp only at *
  have r0 := Proofs.Shake.initFields_ok 24 r ⟨⟨A, θN, θS, q, f⟩, m, 0, 0⟩ hm
  dsimp only at r0
  obtain ⟨s0, hs0⟩ : ∃ s0, s0 = Model.Shake.initFields ⟨⟨A, θN, θS, q, f⟩, m, 0, 0⟩ := ⟨_, rfl⟩
  have g0 : s0.m = m := by rw [hs0]; rfl
  have g1 : s0.pos = 0 := by rw [hs0]; rfl
  have g2 : s0.total = 0 := by rw [hs0]; rfl
  have R0 : R s0.h [.a64 (List.replicate 25 0), .a64 C, .a64 D] := by rw [hs0]; exact ⟨List.length_replicate, C, D, hC, hD, rfl⟩
  rw [← hs0] at r0
  have hhead : ∀ E : Env,
      exec N (Xof.own (8 * r) N) (.ite (.lor (.lnot (.var 4)) (.lnot (.var 5))) (.scope (prefixText (8 * r))) .skip)
        ⟨W0 s0 θN.isEmpty θS.isEmpty θN.length θS.length [], X s0.m [.a64 (List.replicate 25 0), .a64 C, .a64 D] buf θN θS⟩ = some E →
      exec N (Xof.own (8 * r) N) (init (8 * r)) ⟨[.u64 p, .u64 t, .bool q, .u8 f, .bool θN.isEmpty, .bool θS.isEmpty, .u64 (BitVec.ofNat 64 θN.length), .u64 (BitVec.ofNat 64 θS.length)],
        X m [.a64 A, .a64 C, .a64 D] buf θN θS⟩ = some E := by
    intro E hE
    unfold init
    obtain ⟨Y, hY⟩ : ∃ Y, X m [.a64 (List.replicate 25 0), .a64 C, .a64 D] buf θN θS = Y := ⟨_, rfl⟩
    obtain ⟨ne, hne⟩ : ∃ v, Val.bool θN.isEmpty = v := ⟨_, rfl⟩
    obtain ⟨se, hse⟩ : ∃ v, Val.bool θS.isEmpty = v := ⟨_, rfl⟩
    obtain ⟨nl, hnl⟩ : ∃ v, Val.u64 (BitVec.ofNat 64 θN.length) = v := ⟨_, rfl⟩
    obtain ⟨sl, hsl⟩ : ∃ v, Val.u64 (BitVec.ofNat 64 θS.length) = v := ⟨_, rfl⟩
    have hE' : exec N (Xof.own (8 * r) N) (.ite (.lor (.lnot (.var 4)) (.lnot (.var 5))) (.scope (prefixText (8 * r))) .skip)
        ⟨[.u64 0, .u64 0, .bool false, .u8 0, ne, se, nl, sl], Y⟩ = some E := by
      rw [← hE, ← hY, ← hne, ← hse, ← hnl, ← hsl]
      unfold W0
      rw [g0, g1, g2]
      rfl
    rw [hne, hse, hnl, hsl]
    refine st_cons (E1 := ⟨[.u64 p, .u64 t, .bool q, .u8 f, ne, se, nl, sl], Y⟩) ?_ ?_
    · rw [← hY]
      exact st_memset (a := 2) (o := 0) (z := 8) (ev_addr (xs := .a64 A) rfl ev_lit (n := 0) rfl (get64 (by omega))) ev_lit ev_lit (k := 200) (x := 0) rfl rfl rfl (Sha3.patch_zero hA) rfl
    refine st_cons (E1 := ⟨[.u64 0, .u64 t, .bool q, .u8 f, ne, se, nl, sl], Y⟩) (st_set ev_lit rfl rfl rfl) ?_
    refine st_cons (E1 := ⟨[.u64 0, .u64 0, .bool q, .u8 f, ne, se, nl, sl], Y⟩) (st_set ev_lit rfl rfl rfl) ?_
    refine st_cons (E1 := ⟨[.u64 0, .u64 0, .bool false, .u8 f, ne, se, nl, sl], Y⟩) (st_set ev_lit rfl rfl rfl) ?_
    refine st_cons (E1 := ⟨[.u64 0, .u64 0, .bool false, .u8 0, ne, se, nl, sl], Y⟩) (st_set ev_lit rfl rfl rfl) ?_
    exact st_one hE'
  by_cases hc : θN = [] ∧ θS = []
  · obtain ⟨rfl, rfl⟩ := hc
    refine ⟨s0, _, buf, ?_, R0, hhead _ ?_⟩
    · exact r0
    · refine st_else (v := .bool false) ?_ rfl st_skip
      exact ev_lor_false (ev_lnot (b := true) (ev_var rfl rfl) rfl) rfl (ev_lnot (b := true) (ev_var rfl rfl) rfl) rfl
  · obtain ⟨s', rest', buf', vs, h', R', x⟩ := prefix_run (N := N) h8 hr0 hr hN1 hNl hSl hNN hSN hbuf r0 R0
    refine ⟨s', rest', buf', ?_, R', hhead _ ?_⟩
    · unfold Proofs.Shake.pfx
      rw [if_neg hc]
      exact h'
    · refine st_then (v := .bool true) ?_ rfl (st_scope x rfl)
      cases θN with
      | cons => exact ev_lor_true (ev_lnot (b := false) (ev_var rfl rfl) rfl) rfl
      | nil =>
        cases θS with
        | cons => exact ev_lor_false (ev_lnot (b := true) (ev_var rfl rfl) rfl) rfl (ev_lnot (b := false) (ev_var rfl rfl) rfl) rfl
        | nil => exact absurd ⟨rfl, rfl⟩ hc

end Digestpp.Cpp.Shake
