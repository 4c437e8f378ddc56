import Verif.Proofs.Cpp.Hash

/-! C71: `init` of SHA-512, which may call `update` and `final` of its own object. -/

namespace Digestpp.Cpp.Sha512
open Model Spec
open Proofs (Buffered)
open Src.Sha512
attribute [local irreducible] eval exec block

variable {N : Nat} {ext : Nat → Val → Val → Env → Option Env}

theorem name_eq (hs : Nat) : sha512Name hs = Model.Sha2.ivName hs := rfl

theorem name_short (hs : Nat) (h : hs ≤ 512) : 0 < (sha512Name hs).length ∧ (sha512Name hs).length < 12 := by
  have : ∀ t, t ≤ 512 → 0 < (sha512Name t).length ∧ (sha512Name t).length < 12 := by decide +kernel
  exact this hs h

theorem xor_run {x0 x1 x2 x3 : Val} {e : Arr} {m : Bytes} {h : List (BitVec 64)} {rest : List Arr} (hh : h.length = 8) (hN : 80 < N) :
    exec N ext for170 ⟨[x0, x1, x2, x3], e :: .a8 m :: .a64 h :: rest⟩ = some ⟨[x0, x1, x2, x3], e :: .a8 m :: .a64 (h.map (· ^^^ 0xa5a5a5a5a5a5a5a5)) :: rest⟩ := by
  match h, hh with
  | [a, b, c, d, f, g, i, j], _ =>
  refine (for_fun (lo := 0) (hi := 8) (f := fun i H => wr H i (H.getD i 0 ^^^ 0xa5a5a5a5a5a5a5a5)) (fun t H => ⟨[x0, x1, x2, x3, .i32 (t : Int)], e :: .a8 m :: .a64 H :: rest⟩)
    (fun _ (H : List (BitVec 64)) => H.length = 8) (s := [a, b, c, d, f, g, i, j]) (s' := [a, b, c, d, f, g, i, j].map (· ^^^ 0xa5a5a5a5a5a5a5a5)) rfl ?_ rfl ?_ ?_ (by omega) (by omega) rfl rfl).1
  · run
  · intro t s _ ht hs
    exact test_nat (by ev) rfl (decide_eq_decide.2 (by omega))
  · intro t s s' _ ht hs he
    obtain ⟨hl, rfl⟩ := wr_inv he
    refine ⟨?_, by rw [List.length_set]; exact hs⟩
    run

theorem back_run {x0 x1 x2 x3 : Val} {e : Arr} {m : Bytes} {h : List (BitVec 64)} {rest : List Arr} (hh : h.length = 8) (hN : 80 < N) :
    exec N ext for177 ⟨[x0, x1, x2, x3], e :: .a8 m :: .a64 h :: rest⟩ = some ⟨[x0, x1, x2, x3], e :: .a8 m :: .a64 (h.map byteswap64) :: rest⟩ := by
  match h, hh with
  | [a, b, c, d, f, g, i, j], _ =>
  refine (for_fun (lo := 0) (hi := 8) (f := fun i H => wr H i (byteswap64 (H.getD i 0))) (fun t H => ⟨[x0, x1, x2, x3, .i32 (t : Int)], e :: .a8 m :: .a64 H :: rest⟩)
    (fun _ (H : List (BitVec 64)) => H.length = 8) (s := [a, b, c, d, f, g, i, j]) (s' := [a, b, c, d, f, g, i, j].map byteswap64) rfl ?_ rfl ?_ ?_ (by omega) (by omega) rfl rfl).1
  · run
  · intro t s _ ht hs
    exact test_nat (by ev) rfl (decide_eq_decide.2 (by omega))
  · intro t s s' _ ht hs he
    obtain ⟨hl, rfl⟩ := wr_inv he
    refine ⟨?_, by rw [List.length_set]; exact hs⟩
    run

/-- The variables of `init`. -/
def iv (hs : Nat) (p t : BitVec 64) : List Val := [.u64 p, .u64 t, .u64 (BitVec.ofNat 64 hs), .u64 (BitVec.ofNat 64 (sha512Name hs).length)]

/-- The arrays in it. -/
def ia (hs : Nat) (m buf : Bytes) (rest : List Arr) : List Arr := .a8 [] :: .a8 m :: (rest ++ [.a8 buf, .a8 (sha512Name hs)])

theorem own_update {hs : Nat} {p t p' t' : BitVec 64} {m m' buf : Bytes} {H M W H' M' W' : List (BitVec 64)}
    (h : exec N (invoke N transform) update ⟨[.ptr 0 0 1, .u64 (BitVec.ofNat 64 (sha512Name hs).length), .u64 p, .u64 t], [.a8 (sha512Name hs), .a8 m, .a64 H, .a64 M, .a64 W]⟩ =
      some ⟨[.ptr 0 0 1, .u64 (BitVec.ofNat 64 (sha512Name hs).length), .u64 p', .u64 t'], [.a8 (sha512Name hs), .a8 m', .a64 H', .a64 M', .a64 W']⟩) :
    (sha512 hs).own N 1 (.ptr 6 0 1) (.u64 (BitVec.ofNat 64 (sha512Name hs).length)) ⟨iv hs p t, ia hs m buf [.a64 H, .a64 M, .a64 W]⟩ =
      some ⟨iv hs p' t', ia hs m' buf [.a64 H', .a64 M', .a64 W']⟩ := by
  show (match exec N (invoke N transform) update ⟨[.ptr 0 0 1, .u64 (BitVec.ofNat 64 (sha512Name hs).length), .u64 p, .u64 t], [.a8 (sha512Name hs), .a8 m, .a64 H, .a64 M, .a64 W]⟩ with
    | some ⟨[_, _, p, t], [tmp, m, H, M, W]⟩ => some (⟨[p, t, .u64 (BitVec.ofNat 64 hs), .u64 (BitVec.ofNat 64 (sha512Name hs).length)], [.a8 [], m, H, M, W, .a8 buf, tmp]⟩ : Env)
    | _ => none) = _
  rw [h]
  rfl

theorem own_final {hs : Nat} {p t p' t' : BitVec 64} {m m' buf buf' : Bytes} {H M W H' M' W' : List (BitVec 64)} {y : Val} {more : List Val}
    (h : exec N (invoke N transform) final ⟨[.ptr 0 0 1, .u64 p, .u64 t, .u64 (BitVec.ofNat 64 hs)], [.a8 buf, .a8 m, .a64 H, .a64 M, .a64 W]⟩ =
      some ⟨.ptr 0 0 1 :: .u64 p' :: .u64 t' :: more, [.a8 buf', .a8 m', .a64 H', .a64 M', .a64 W']⟩) :
    (sha512 hs).own N 2 (.ptr 5 0 1) y ⟨iv hs p t, ia hs m buf [.a64 H, .a64 M, .a64 W]⟩ =
      some ⟨iv hs p' t', ia hs m' buf' [.a64 H', .a64 M', .a64 W']⟩ := by
  show (match exec N (invoke N transform) final ⟨[.ptr 0 0 1, .u64 p, .u64 t, .u64 (BitVec.ofNat 64 hs)], [.a8 buf, .a8 m, .a64 H, .a64 M, .a64 W]⟩ with
    | some ⟨_ :: p :: t :: _, [buf, m, H, M, W]⟩ => some (⟨[p, t, .u64 (BitVec.ofNat 64 hs), .u64 (BitVec.ofNat 64 (sha512Name hs).length)], [.a8 [], m, H, M, W, buf, .a8 (sha512Name hs)]⟩ : Env)
    | _ => none) = _
  rw [h]
  rfl

/-- sha2_provider.hpp 170-180. -/
theorem gen_run {hs : Nat} (hhs : hs ≤ 512) (hN : 80 < N) {m buf : Bytes} {M W : List (BitVec 64)} (hm : m.length = 128) (hb : buf.length = 64) (hM : M.length = 16) (hW : W.length = 80) :
    ∃ s' M' W' buf', Proofs.Sha2.Abs Spec.Sha2.v512 (Spec.Sha2.ivGen hs) hs [] s' ∧ s'.pos = 0 ∧ s'.total = 0 ∧ s'.h.H.length = 8 ∧ M'.length = 16 ∧ W'.length = 80 ∧
      exec N ((sha512 hs).own N) (block [for170, .call 1 (.recast 1 (.addr 6 (.lit (.i32 0)))) (.var 3), .call 2 (.addr 5 (.lit (.i32 0))) (.lit (.i32 0)), for177,
        .set 0 (.lit (.i32 0)), .set 1 (.lit (.i32 0))]) ⟨iv hs 0 0, ia hs m buf [.a64 Model.Sha2.iv512, .a64 M, .a64 W]⟩ =
        some ⟨iv hs 0 0, ia hs s'.m buf' [.a64 s'.h.H, .a64 M', .a64 W']⟩ := by
  have hlen := Proofs.Sha2.length_ivName hs hhs
  have hn := name_short hs hhs
  obtain ⟨s1, e1, a1⟩ := Proofs.Sha2.update_ok Proofs.Sha2.u64_ok Proofs.Sha2.xiv hs [] (Model.Sha2.ivName hs)
    ⟨⟨Model.Sha2.iv512.map (· ^^^ 0xa5a5a5a5a5a5a5a5), hs⟩, m, 0, 0⟩
    (Buffered.start _ _ hm rfl rfl (by rw [Proofs.Sha2.xiv_eq])) (by omega)
  rw [List.nil_append] at a1
  obtain ⟨s2, e2, h2, m2⟩ := Proofs.Sha2.finalState_ok Proofs.Sha2.u64_ok Proofs.Sha2.xiv hs _ s1 a1
  rw [Proofs.Sha2.coreWith_eq _ _ _ hlen] at h2
  have e3 := Proofs.Sha2.output_ok Proofs.Sha2.u64_ok _ hs s2 h2 hhs
  obtain ⟨buf', e4⟩ : ∃ buf', memcpyTo buf 0 (((Spec.Sha2.core Spec.Sha2.v512 Proofs.Sha2.xiv (Model.Sha2.ivName hs)).bytes).take (hs / 8)) = .ok buf' :=
    ⟨_, Proofs.memcpyTo_ok _ _ 0 (by rw [List.length_take, Proofs.Sha2.length_bytes rfl]; omega)⟩
  have hs1 : s1.h.hs = hs := abs_hs a1
  have f1 : Model.Sha2.final Model.Sha2.u64 s1 = .ok (((Spec.Sha2.core Spec.Sha2.v512 Proofs.Sha2.xiv (Model.Sha2.ivName hs)).bytes).take (hs / 8)) := by
    unfold Model.Sha2.final
    rw [e2]
    exact e3
  have r0 : R (⟨Model.Sha2.iv512.map (· ^^^ 0xa5a5a5a5a5a5a5a5), hs⟩ : Model.Sha2.St 64) [.a64 (Model.Sha2.iv512.map (· ^^^ 0xa5a5a5a5a5a5a5a5)), .a64 M, .a64 W] := ⟨rfl, M, W, hM, hW, rfl⟩
  obtain ⟨e, x1, rest1, ⟨l1, M1, W1, hM1, hW1, rfl⟩, rfl⟩ := update_run (N := N) (by rw [← name_eq]; omega) (by rw [← name_eq]; omega) hN
    (s := ⟨⟨Model.Sha2.iv512.map (· ^^^ 0xa5a5a5a5a5a5a5a5), hs⟩, m, 0, 0⟩) hm (Nat.zero_le _) r0 e1
  obtain ⟨hm1, hp1⟩ := buffered_pos (by decide) a1
  obtain ⟨e, x2, s3, rest3, p', t', more, g1, g2, ⟨l3, M3, W3, hM3, hW3, rfl⟩, rfl⟩ := final_full (N := N) hN hm1 ⟨l1, M1, W1, hM1, hW1, rfl⟩ (by omega) f1 e4
  obtain rfl : s2 = s3 := Except.ok.inj (e2.symm.trans g1)
  rw [hs1] at x2
  refine ⟨{ s2 with h := { s2.h with H := s2.h.H.map byteswap64 }, pos := 0, total := 0 }, M3, W3, buf', ?_, rfl, rfl, ?_, hM3, hW3, ?_⟩
  · refine Buffered.start _ _ m2 rfl rfl ?_
    dsimp only
    rw [h2]
    dsimp only
    rw [List.map_map, Proofs.Sha2.ivGen_def]
    congr 1
    conv => rhs; rw [← List.map_id (Proofs.Sha2.arr (Spec.Sha2.core Spec.Sha2.v512 Proofs.Sha2.xiv (Model.Sha2.ivName hs)))]
    apply List.map_congr_left
    intro x _
    exact Proofs.byteswap64_byteswap64 x
  · show (s2.h.H.map byteswap64).length = 8
    rw [List.length_map]
    exact l3
  · apply st_cons (xor_run rfl hN)
    apply st_cons (st_call (E := ⟨iv hs 0 0, ia hs m buf _⟩) (ev_recast (ev_addr rfl ev_lit (n := 0) rfl (get8 hn.1))) (ev_var rfl rfl) (own_update x1))
    apply st_cons (st_call (ev_addr rfl ev_lit (n := 0) rfl (get8 (by omega))) ev_lit (own_final x2))
    apply st_cons (back_run l3 hN)
    apply st_cons (E1 := ⟨iv hs 0 t', ia hs s2.m buf' [.a64 (s2.h.H.map byteswap64), .a64 M3, .a64 W3]⟩)
    · st
    apply st_one
    st

theorem ne_u64 {a : Nat} (ha : a ≤ 512) {k : Nat} (hk : k ≤ 512) (h : a ≠ k) : decide (BitVec.ofNat 64 a = BitVec.ofInt 64 (k : Int)) = false := by
  refine decide_eq_false fun e => h ?_
  have : (BitVec.ofNat 64 a).toNat = (BitVec.ofNat 64 k).toNat := congrArg BitVec.toNat (e.trans (BitVec.ofInt_natCast ..))
  rw [BitVec.toNat_ofNat, BitVec.toNat_ofNat, Nat.mod_eq_of_lt (by omega), Nat.mod_eq_of_lt (by omega)] at this
  exact this

/-- `hs == k`. -/
theorem ev_size {hs k : Nat} {p t : BitVec 64} {A : List Arr} :
    eval ⟨iv hs p t, A⟩ (.bin .eq (.var 2) (.lit (.i32 k))) [] = some [.bool (decide (BitVec.ofNat 64 hs = BitVec.ofInt 64 (k : Int)))] :=
  ev_bin (ev_var rfl rfl) ev_lit rfl

theorem no_run {c : Expr} {s t : Stmt} {vs vs' : List Val} {A A' : List Arr} {b : Bool} (hc : eval ⟨vs, A⟩ c [] = some [.bool b]) (hb : b = false) (h : exec N ext t ⟨vs, A⟩ = some ⟨vs', A'⟩)
    (hl : vs'.take vs.length = vs') : exec N ext (.ite c s (.scope t)) ⟨vs, A⟩ = some ⟨vs', A'⟩ :=
  st_else hc (by rw [hb]; rfl) (st_scope h hl)

/-- sha2_provider.hpp 118-181. -/
theorem init_run {hs : Nat} (hhs : hs ≤ 512) (hN : 80 < N) {p t : BitVec 64} {m buf : Bytes} {H M W : List (BitVec 64)} (hm : m.length = 128) (hb : buf.length = 64) (hH : H.length = 8)
    (hM : M.length = 16) (hW : W.length = 80) :
    ∃ s' M' W' buf', Proofs.Sha2.Abs Spec.Sha2.v512 (Proofs.Sha2.ivOf hs) hs [] s' ∧ s'.pos = 0 ∧ s'.total = 0 ∧ s'.h.H.length = 8 ∧ M'.length = 16 ∧ W'.length = 80 ∧
      exec N ((sha512 hs).own N) init ⟨iv hs p t, ia hs m buf [.a64 H, .a64 M, .a64 W]⟩ = some ⟨iv hs 0 0, ia hs s'.m buf' [.a64 s'.h.H, .a64 M', .a64 W']⟩ := by
  match H, hH with
  | [a, b, c, d, e, f, g, i], _ =>
  by_cases h1 : hs = 224
  · subst h1
    refine ⟨⟨⟨Model.Sha2.iv512_224, 224⟩, m, 0, 0⟩, M, W, buf, Buffered.start _ _ hm rfl rfl ?_, rfl, rfl, rfl, hM, hW, ?_⟩
    · show (⟨_, 224⟩ : Model.Sha2.St 64) = ⟨Proofs.Sha2.arr (Spec.Sha2.ivGen 224), 224⟩
      rw [Proofs.Sha2.iv512_224_eq]
    · run
  by_cases h2 : hs = 256
  · subst h2
    refine ⟨⟨⟨Model.Sha2.iv512_256, 256⟩, m, 0, 0⟩, M, W, buf, Buffered.start _ _ hm rfl rfl ?_, rfl, rfl, rfl, hM, hW, ?_⟩
    · show (⟨_, 256⟩ : Model.Sha2.St 64) = ⟨Proofs.Sha2.arr (Spec.Sha2.ivGen 256), 256⟩
      rw [Proofs.Sha2.iv512_256_eq]
    · run
  by_cases h3 : hs = 384
  · subst h3
    refine ⟨⟨⟨Model.Sha2.iv384, 384⟩, m, 0, 0⟩, M, W, buf, Buffered.start _ _ hm rfl rfl ?_, rfl, rfl, rfl, hM, hW, ?_⟩
    · show (⟨_, 384⟩ : Model.Sha2.St 64) = ⟨Proofs.Sha2.arr Spec.Sha2.iv384, 384⟩
      rw [Proofs.Sha2.iv384_eq]
    · run
  by_cases h4 : hs = 512
  · subst h4
    refine ⟨⟨⟨Model.Sha2.iv512, 512⟩, m, 0, 0⟩, M, W, buf, Buffered.start _ _ hm rfl rfl ?_, rfl, rfl, rfl, hM, hW, ?_⟩
    · show (⟨_, 512⟩ : Model.Sha2.St 64) = ⟨Proofs.Sha2.arr Spec.Sha2.iv512, 512⟩
      rw [Proofs.Sha2.iv512_eq]
    · run
  obtain ⟨s', M', W', buf', a1, a2, a3, a4, a5, a6, x⟩ := gen_run hhs hN hm hb hM hW
  refine ⟨s', M', W', buf', ?_, a2, a3, a4, a5, a6, ?_⟩
  · unfold Proofs.Sha2.ivOf
    rw [if_neg h4, if_neg h3]
    exact a1
  · apply st_cons (E1 := ⟨iv hs 0 t, ia hs m buf [.a64 [a, b, c, d, e, f, g, i], .a64 M, .a64 W]⟩)
    · st
    apply st_cons (E1 := ⟨iv hs 0 0, ia hs m buf [.a64 [a, b, c, d, e, f, g, i], .a64 M, .a64 W]⟩)
    · st
    apply st_one
    refine no_run ev_size (ne_u64 hhs (by decide) h1) (st_one (no_run ev_size (ne_u64 hhs (by decide) h2) (st_one (no_run ev_size (ne_u64 hhs (by decide) h3) ?_ rfl)) rfl)) rfl
    have y := no_run (s := .skip) ev_size (ne_u64 hhs (by decide) h4) x rfl
    apply st_cons
    · st
    apply st_cons
    · st
    apply st_cons
    · st
    apply st_cons
    · st
    apply st_cons
    · st
    apply st_cons
    · st
    apply st_cons
    · st
    apply st_cons
    · st
    exact st_one y

theorem hash_run {hs : Nat} {parts : List Bytes} (hp : ∀ d ∈ parts, d.length < 2 ^ 63) (hN : ∀ d ∈ parts, d.length < N) (h1 : 80 < N) (hhs : hs ≤ 512) (hpos : 0 < hs / 8) {out : Bytes}
    (ho : out.length = hs / 8) {p t : BitVec 64} {m buf : Bytes} {H M W : List (BitVec 64)} (hm : m.length = 128) (hb : buf.length = 64) (hH : H.length = 8) (hM : M.length = 16) (hW : W.length = 80) :
    hashSha512 hs N parts buf out ⟨.u64 p, .u64 t, [.a8 m, .a64 H, .a64 M, .a64 W]⟩ =
      some ((Spec.Sha2.coreWith (bits64 parts.flatten.length) Spec.Sha2.v512 (Proofs.Sha2.ivOf hs) parts.flatten).bytes.take (hs / 8)) := by
  obtain ⟨s', M', W', buf', a1, a2, a3, a4, a5, a6, x⟩ := init_run (N := N) (p := p) (t := t) hhs h1 hm hb hH hM hW
  have e : initSha512 hs N buf ⟨.u64 p, .u64 t, [.a8 m, .a64 H, .a64 M, .a64 W]⟩ = some ⟨.u64 0, .u64 0, [.a8 s'.m, .a64 s'.h.H, .a64 M', .a64 W']⟩ := by
    show (match exec N ((sha512 hs).own N) init ⟨iv hs p t, ia hs m buf [.a64 H, .a64 M, .a64 W]⟩ with
      | some ⟨p :: t :: _, [_, m, H, M, W, _, _]⟩ => some (⟨p, t, [m, H, M, W]⟩ : Object)
      | _ => none) = _
    rw [x]
    rfl
  have e2 : s'.h.H = Proofs.Sha2.arr (Proofs.Sha2.ivOf hs) := by
    have := a1.h
    rw [this]
    rfl
  unfold hashSha512
  rw [e, e2]
  exact sha512_hash hp hN h1 hhs hpos ho _ (buffered_pos (by decide) a1).1 a5 a6

end Digestpp.Cpp.Sha512
