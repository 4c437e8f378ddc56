import Verif.Proofs.Cpp.AsconSqueeze
import Verif.Proofs.Cpp.ShakeInit

/-! C71, Ascon: `init`. -/

namespace Digestpp.Cpp.Ascon
open Src Src.Ascon
open Model (Blk bytes64 stores64)
open Model.Ascon (Kind)
open Proofs.Ascon (Absorbing s0 pre prefixOf)
open Spec (toMultiple leBytes)
open Absorb (sub64)
attribute [local irreducible] eval exec block

variable {N : Nat}

theorem length_bytes64 (x : BitVec 64) : (bytes64 x).length = 8 := by rw [Proofs.bytes64_eq, Proofs.length_leBytes]

/-- The members of an object that absorbs. -/
theorem absorbing_fields {s1 : Spec.Ascon.State} {Z raw : Bytes} {s : Blk Model.Ascon.St} (h : Absorbing s1 Z raw s) : s.m.length = 64 ∧ s.pos < 8 ∧ s.h.Z = Z ∧ s.h.squeezing = false := by
  have hp := h.pos
  rw [Nat.sub_zero, Proofs.mod_eq_sub_div] at hp
  have hf := h.fields
  exact ⟨h.mlen, by omega, by rw [hf], by rw [hf]⟩

/-- A call of `update` in `init`. -/
theorem piece_run {a n : Nat} {s1 : Spec.Ascon.State} {Z raw data : Bytes} {b : Arr} {s : Blk Model.Ascon.St} {more : List Arr} {vs : List Val} {e : Arr} (hN1 : 80 < N) (hn : data.length = n)
    (hd : data.length < 2 ^ 63) (hN : data.length < N) (hb : more[a]? = some b) (hp : b.bytes.take data.length = data) (h : Absorbing s1 Z raw s) (hH : s.h.H.length = 5) :
    ∃ s', Absorbing s1 Z (raw ++ data) s' ∧ s'.h.H.length = 5 ∧
      AsconCalls.own N 2 (.ptr (a + 3) 0 1) (.u64 (BitVec.ofNat 64 n)) ⟨.u64 (BitVec.ofNat 64 s.pos) :: .u64 s.total :: vs, e :: .a8 s.m :: .a64 s.h.H :: more⟩ =
        some ⟨.u64 (BitVec.ofNat 64 s'.pos) :: .u64 s'.total :: vs, e :: .a8 s'.m :: .a64 s'.h.H :: more⟩ := by
  subst hn
  obtain ⟨s', e1, h'⟩ := Proofs.Ascon.update_ok data h hd
  obtain ⟨f1, f2, -⟩ := absorbing_fields h
  obtain ⟨x, e2, rest', ⟨hH', rfl⟩, rfl⟩ := update_run (N := N) (by omega) hN hN1 f1 (by omega) ⟨hH, rfl⟩ e1
  refine ⟨s', h', hH', ?_⟩
  have hlen : (BitVec.ofNat 64 data.length).toNat = data.length := by rw [BitVec.toNat_ofNat, Nat.mod_eq_of_lt (by omega)]
  have hle : data.length ≤ b.bytes.length := by
    have := congrArg List.length hp
    rw [List.length_take] at this
    omega
  show (match more[a]? with
    | some b =>
      if (BitVec.ofNat 64 data.length).toNat ≤ b.bytes.length then
        match exec N (AsconCalls.calls N) Src.Ascon.update
          ⟨[.ptr 0 0 1, .u64 (BitVec.ofNat 64 data.length), .u64 (BitVec.ofNat 64 s.pos), .u64 s.total], [.a8 (b.bytes.take (BitVec.ofNat 64 data.length).toNat), .a8 s.m, .a64 s.h.H]⟩ with
        | some ⟨[_, _, p, t], [_, m, H]⟩ => some (Env.mk (p :: t :: vs) (e :: m :: H :: more))
        | _ => none
      else none
    | _ => none) = _
  rw [hb]
  dsimp only
  rw [hlen, if_pos hle, hp, e2]

/-- The variables of `init` after its first lines (ascon_provider.hpp 38-40, 176-183). -/
abbrev W0 (s : Blk Model.Ascon.St) (Z : Bytes) (more : List Val) : List Val :=
  .u64 (BitVec.ofNat 64 s.pos) :: .u64 s.total :: .bool false :: .bool Z.isEmpty :: .u64 (BitVec.ofNat 64 Z.length) :: more

/-- The arrays after `H` in `init` (ascon_provider.hpp 60-75, 178). -/
abbrev more (z : BitVec 64) (Z : Bytes) : List Arr := [.a64 Model.ascon_IVHASH, .a64 Model.ascon_IVXOF, .a64 Model.ascon_IVCXOF, .a64 [z], .a8 Z]

/-- The arrays of `init`. -/
abbrev X (m : Bytes) (H : List (BitVec 64)) (z : BitVec 64) (Z : Bytes) : List Arr := .a8 [] :: .a8 m :: .a64 H :: more z Z

/-- ascon_provider.hpp 68-76. -/
def custom : Stmt := block [
  .store 6 (.lit (.i32 0)) (.bin .mul (.var 4) (.lit (.i32 8))),
  .call 2 (.recast 1 (.addr 6 (.lit (.i32 0)))) (.lit (.u64 8)),
  .store 6 (.lit (.i32 0)) (.lit (.u64 1)),
  .ite (.lnot (.var 3)) (.scope (block [.call 2 (.recast 1 (.addr 7 (.lit (.i32 0)))) (.var 4)])) .skip,
  .decl .u64 (.bin .mod (.var 4) (.lit (.i32 8))),
  .call 2 (.recast 1 (.addr 6 (.lit (.i32 0)))) (.bin .sub (.lit (.i32 8)) (.var 5))]

theorem box_bytes {z : BitVec 64} {n : Nat} : (Arr.a64 [z]).bytes.take n = (bytes64 z).take n := by
  rw [Final.bytes_a64]
  show ((bytes64 z ++ []).take n) = _
  rw [List.append_nil]

theorem one_bytes {Z : Bytes} : (bytes64 1).take (8 - Z.length % 8) = [0x01] ++ List.replicate (toMultiple 8 (Z.length + 1)) 0 := by
  have : toMultiple 8 (Z.length + 1) = 7 - Z.length % 8 := by unfold toMultiple; omega
  rw [this]
  have : ∀ j, j < 8 → (bytes64 1).take (8 - j) = [0x01] ++ List.replicate (7 - j) 0 := by
    intro j hj
    match j, hj with
    | 0, _ | 1, _ | 2, _ | 3, _ | 4, _ | 5, _ | 6, _ | 7, _ => rfl
  exact this _ (by omega)

theorem rem8 {E : Env} {x : Expr} {n : Nat} (hn : n < 2 ^ 64) (h : eval E x [] = some [.u64 (BitVec.ofNat 64 n)]) : eval E (.bin .mod x (.lit (.i32 8))) [] = some [.u64 (BitVec.ofNat 64 (n % 8))] := by
  refine ev_bin h ev_lit ?_
  show some (Val.u64 (BitVec.ofNat 64 n % 8#64)) = _
  congr 2
  apply BitVec.eq_of_toNat_eq
  rw [BitVec.toNat_umod, BitVec.toNat_ofNat, BitVec.toNat_ofNat, BitVec.toNat_ofNat, Nat.mod_eq_of_lt hn, Nat.mod_eq_of_lt (by omega : n % 8 < 2 ^ 64)]

theorem custom_run {s1 : Spec.Ascon.State} {Z : Bytes} {z0 : BitVec 64} {s : Blk Model.Ascon.St} (hN1 : 80 < N) (hZ : Z.length < 2 ^ 61) (hZN : Z.length < N) (h : Absorbing s1 Z [] s)
    (hH : s.h.H.length = 5) :
    ∃ s' v, Absorbing s1 Z (pre Z) s' ∧ s'.h.H.length = 5 ∧
      exec N (AsconCalls.own N) custom ⟨W0 s Z [], X s.m s.h.H z0 Z⟩ = some ⟨W0 s' Z [v], X s'.m s'.h.H 1 Z⟩ := by
  obtain ⟨z, hz⟩ : ∃ z, z = BitVec.ofNat 64 (Z.length * 8) := ⟨_, rfl⟩
  obtain ⟨a, ra, la, xa⟩ := piece_run (N := N) (a := 3) (n := 8) (data := bytes64 z) (b := .a64 [z]) (more := more z Z) (vs := [.bool false, .bool Z.isEmpty, .u64 (BitVec.ofNat 64 Z.length)])
    (e := .a8 []) hN1 (length_bytes64 _) (by rw [length_bytes64]; omega) (by rw [length_bytes64]; omega) rfl (by rw [box_bytes, List.take_of_length_le (Nat.le_refl _)]) h hH
  obtain ⟨b, rb, lb, xb⟩ : ∃ b, Absorbing s1 Z ([] ++ bytes64 z ++ Z) b ∧ b.h.H.length = 5 ∧
      exec N (AsconCalls.own N) (.ite (.lnot (.var 3)) (.scope (block [.call 2 (.recast 1 (.addr 7 (.lit (.i32 0)))) (.var 4)])) .skip) ⟨W0 a Z [], X a.m a.h.H 1 Z⟩ =
        some ⟨W0 b Z [], X b.m b.h.H 1 Z⟩ := by
    by_cases he : Z = []
    · subst he
      exact ⟨a, by rw [List.append_nil]; exact ra, la, st_else (ev_lnot (b := true) (ev_var rfl rfl) rfl) rfl st_skip⟩
    · obtain ⟨b, rb, lb, xb⟩ := piece_run (N := N) (a := 4) (n := Z.length) (data := Z) (b := .a8 Z) (more := more 1 Z) (vs := [.bool false, .bool Z.isEmpty, .u64 (BitVec.ofNat 64 Z.length)])
        (e := .a8 []) hN1 rfl (by omega) hZN rfl (List.take_of_length_le (Nat.le_refl _)) ra la
      have h0 : Z.isEmpty = false := by cases Z with
        | nil => exact absurd rfl he
        | cons => rfl
      have hl : 0 < Z.length := List.length_pos_iff.2 he
      refine ⟨b, rb, lb, st_then (ev_lnot (b := false) (ev_var rfl rfl) (by rw [h0]; rfl)) rfl (st_scope (st_one (st_call (ev_recast (ev_addr (xs := .a8 Z) rfl ev_lit (n := 0) rfl (get8 hl))) (ev_var rfl rfl) xb)) rfl)⟩
  have hlen : ([0x01] ++ List.replicate (toMultiple 8 (Z.length + 1)) 0 : Bytes).length = 8 - Z.length % 8 := by
    rw [← one_bytes, List.length_take, length_bytes64]; omega
  obtain ⟨c, rc, lc, xc⟩ := piece_run (N := N) (a := 3) (n := 8 - Z.length % 8) (data := [0x01] ++ List.replicate (toMultiple 8 (Z.length + 1)) 0) (b := .a64 [1]) (more := more 1 Z)
    (vs := [.bool false, .bool Z.isEmpty, .u64 (BitVec.ofNat 64 Z.length), .u64 (BitVec.ofNat 64 (Z.length % 8))])
    (e := .a8 []) hN1 hlen (by omega) (by omega) rfl (by rw [hlen, box_bytes, one_bytes]) rb lb
  refine ⟨c, .u64 (BitVec.ofNat 64 (Z.length % 8)), ?_, lc, ?_⟩
  · have : pre Z = [] ++ bytes64 z ++ Z ++ ([0x01] ++ List.replicate (toMultiple 8 (Z.length + 1)) 0) := by
      unfold pre Spec.Ascon.pad
      rw [hz, Proofs.bytes64_eq, BitVec.toNat_ofNat, Nat.mod_eq_of_lt (by omega), Nat.mul_comm, List.nil_append]
      simp only [List.append_assoc]
    rw [this]
    exact rc
  unfold custom
  refine st_cons (E1 := ⟨W0 s Z [], X s.m s.h.H z Z⟩) ?_ ?_
  · rw [hz]
    exact st_store (n := 0) (xs := .a64 [z0]) ev_lit rfl (Shake.times8 (ev_var rfl rfl)) rfl (put64 rfl (Nat.lt_succ_self 0)) rfl
  refine st_cons (E1 := ⟨W0 a Z [], X a.m a.h.H z Z⟩) (st_call (ev_recast (ev_addr (xs := .a64 [z]) rfl ev_lit (n := 0) rfl (get64 (Nat.lt_succ_self 0)))) ev_lit xa) ?_
  refine st_cons (E1 := ⟨W0 a Z [], X a.m a.h.H 1 Z⟩) (st_store (n := 0) (xs := .a64 [z]) ev_lit rfl ev_lit rfl (put64 rfl (Nat.lt_succ_self 0)) rfl) ?_
  refine st_cons xb ?_
  refine st_cons (E1 := ⟨W0 b Z [.u64 (BitVec.ofNat 64 (Z.length % 8))], X b.m b.h.H 1 Z⟩) (st_decl (rem8 (by omega) (ev_var rfl rfl)) rfl rfl) ?_
  refine st_one (st_call (ev_recast (ev_addr (xs := .a64 [1]) rfl ev_lit (n := 0) rfl (get64 (Nat.lt_succ_self 0)))) ?_ xc)
  exact ev_as (ev_bin ev_lit (ev_var rfl rfl) rfl) (congrArg Val.u64 (sub64 (a := 8) (by omega) (by omega)))

/-- The number of a value of `ascon_type` (constants/ascon_constants.hpp 48-53). -/
def code : Kind → Nat
  | .hash => 0
  | .xof => 1
  | .cxof => 2

/-- The initial value. -/
def iv : Kind → List (BitVec 64)
  | .hash => Model.ascon_IVHASH
  | .xof => Model.ascon_IVXOF
  | .cxof => Model.ascon_IVCXOF

theorem iv_bytes (k : Kind) : ∃ b, (Arr.a64 (iv k)).part 0 40 = some b ∧ (Arr.a64 (List.replicate 5 0)).patch 0 b = some (.a64 (iv k)) := by
  cases k <;> exact ⟨_, rfl, rfl⟩

/-- ascon_provider.hpp 60-65. -/
def choose (type : Nat) : Stmt := .ite (.bin .eq (.lit (.i32 (type : Int))) (.lit (.i32 2))) (.scope (block [.memcpy (.addr 2 (.lit (.i32 0))) (.addr 5 (.lit (.i32 0))) (.lit (.u64 40))]))
  (.scope (block [.ite (.bin .eq (.lit (.i32 (type : Int))) (.lit (.i32 1))) (.scope (block [.memcpy (.addr 2 (.lit (.i32 0))) (.addr 4 (.lit (.i32 0))) (.lit (.u64 40))]))
    (.scope (block [.memcpy (.addr 2 (.lit (.i32 0))) (.addr 3 (.lit (.i32 0))) (.lit (.u64 40))]))]))

theorem choose_run (k : Kind) {m Z : Bytes} {z : BitVec 64} {v0 v1 v2 v3 v4 : Val} :
    exec N (AsconCalls.own N) (choose (code k)) ⟨[v0, v1, v2, v3, v4], X m (List.replicate 5 0) z Z⟩ = some ⟨[v0, v1, v2, v3, v4], X m (iv k) z Z⟩ := by
  obtain ⟨b, h1, h2⟩ := iv_bytes k
  unfold choose
  cases k
  · refine st_else (ev_bin ev_lit ev_lit rfl) rfl (st_scope (vs' := [v0, v1, v2, v3, v4]) (st_one (st_else (ev_bin ev_lit ev_lit rfl) rfl (st_scope (vs' := [v0, v1, v2, v3, v4]) (st_one ?_) rfl))) rfl)
    exact st_memcpy (ev_addr (xs := .a64 (List.replicate 5 0)) rfl ev_lit (n := 0) rfl (get64 (by decide))) (ev_addr (xs := .a64 Model.ascon_IVHASH) rfl ev_lit (n := 0) rfl (get64 (by decide))) ev_lit
      (k := 40) rfl rfl rfl (by decide) h1 h2 rfl
  · refine st_else (ev_bin ev_lit ev_lit rfl) rfl (st_scope (vs' := [v0, v1, v2, v3, v4]) (st_one (st_then (ev_bin ev_lit ev_lit rfl) rfl (st_scope (vs' := [v0, v1, v2, v3, v4]) (st_one ?_) rfl))) rfl)
    exact st_memcpy (ev_addr (xs := .a64 (List.replicate 5 0)) rfl ev_lit (n := 0) rfl (get64 (by decide))) (ev_addr (xs := .a64 Model.ascon_IVXOF) rfl ev_lit (n := 0) rfl (get64 (by decide))) ev_lit
      (k := 40) rfl rfl rfl (by decide) h1 h2 rfl
  · refine st_then (ev_bin ev_lit ev_lit rfl) rfl (st_scope (vs' := [v0, v1, v2, v3, v4]) (st_one ?_) rfl)
    exact st_memcpy (ev_addr (xs := .a64 (List.replicate 5 0)) rfl ev_lit (n := 0) rfl (get64 (by decide))) (ev_addr (xs := .a64 Model.ascon_IVCXOF) rfl ev_lit (n := 0) rfl (get64 (by decide))) ev_lit
      (k := 40) rfl rfl rfl (by decide) h1 h2 rfl

theorem patch_zero {h : List (BitVec 64)} (hh : h.length = 5) : (Arr.a64 h).patch 0 (List.replicate 40 0) = some (.a64 (List.replicate 5 0)) := by
  have hl : (stores64 h).length = 40 := by rw [Whirlpool.stores_length, hh]
  unfold Arr.patch
  rw [Final.bytes_a64, List.length_replicate, if_pos (by omega), List.take_zero, List.nil_append, List.drop_of_length_le (by omega), List.append_nil]
  show some (Arr.a64 (words 64 h.length (List.replicate 40 0))) = _
  rw [hh]
  exact congrArg (fun x => some (Arr.a64 x)) (by decide)

theorem patch_all {m : Bytes} (hm : m.length = 64) : (Arr.a8 m).patch 0 (List.replicate 64 0) = some (.a8 (List.replicate 64 0)) := by
  unfold Arr.patch
  show (if 0 + (List.replicate 64 (0 : BitVec 8)).length ≤ m.length then some (Arr.a8 (m.take 0 ++ List.replicate 64 0 ++ m.drop (0 + (List.replicate 64 (0 : BitVec 8)).length))) else none) = _
  rw [List.length_replicate, if_pos (by omega), List.take_zero, List.nil_append, List.drop_of_length_le (by omega), List.append_nil]

theorem init_run (k : Kind) {Z m : Bytes} {p t z0 : BitVec 64} {q : Bool} {H : List (BitVec 64)} (hN1 : 80 < N) (hZ : Z.length < 2 ^ 61) (hZN : Z.length < N) (hm : m.length = 64) (hH : H.length = 5) :
    ∃ s z, Absorbing (s0 k) Z (prefixOf k Z) s ∧ s.h.H.length = 5 ∧
      exec N (AsconCalls.own N) (init (code k)) ⟨[.u64 p, .u64 t, .bool q, .bool Z.isEmpty, .u64 (BitVec.ofNat 64 Z.length)], X m H z0 Z⟩ = some ⟨W0 s Z [], X s.m s.h.H z Z⟩ := by
  have r0 := Proofs.Ascon.initFields_ok k ⟨⟨H, Z, q⟩, m, 0, 0⟩ hm
  dsimp only at r0
  obtain ⟨s1, hs1⟩ : ∃ s1, s1 = Model.Ascon.initFields k ⟨⟨H, Z, q⟩, m, 0, 0⟩ := ⟨_, rfl⟩
  have g0 : s1.m = List.replicate 64 0 := by rw [hs1]; show List.replicate m.length 0 = _; rw [hm]
  have g1 : s1.pos = 0 := by rw [hs1]; rfl
  have g2 : s1.total = 0 := by rw [hs1]; rfl
  have g3 : s1.h.H = iv k := by rw [hs1]; cases k <;> rfl
  have g4 : s1.h.H.length = 5 := by rw [g3]; cases k <;> rfl
  rw [← hs1] at r0
  have hhead : ∀ E : Env,
      exec N (AsconCalls.own N) (.ite (.bin .eq (.lit (.i32 (code k : Int))) (.lit (.i32 2))) (.scope custom) .skip) ⟨W0 s1 Z [], X s1.m s1.h.H z0 Z⟩ = some E →
      exec N (AsconCalls.own N) (init (code k)) ⟨[.u64 p, .u64 t, .bool q, .bool Z.isEmpty, .u64 (BitVec.ofNat 64 Z.length)], X m H z0 Z⟩ = some E := by
    intro E hE
    obtain ⟨ze, hze⟩ : ∃ v, Val.bool Z.isEmpty = v := ⟨_, rfl⟩
    obtain ⟨zl, hzl⟩ : ∃ v, Val.u64 (BitVec.ofNat 64 Z.length) = v := ⟨_, rfl⟩
    unfold W0 at hE
    rw [g0, g1, g2, g3, hze, hzl] at hE
    rw [hze, hzl]
    show exec N (AsconCalls.own N) (block [.set 0 (.lit (.i32 0)), .set 1 (.lit (.i32 0)), .set 2 (.lit (.bool false)),
      .memset (.addr 2 (.lit (.i32 0))) (.lit (.i32 0)) (.lit (.u64 40)), .memset (.addr 1 (.lit (.i32 0))) (.lit (.i32 0)) (.lit (.u64 64)), choose (code k),
      .ite (.bin .eq (.lit (.i32 (code k : Int))) (.lit (.i32 2))) (.scope custom) .skip]) _ = _
    refine st_cons (E1 := ⟨[.u64 0, .u64 t, .bool q, ze, zl], X m H z0 Z⟩) (st_set ev_lit rfl rfl rfl) ?_
    refine st_cons (E1 := ⟨[.u64 0, .u64 0, .bool q, ze, zl], X m H z0 Z⟩) (st_set ev_lit rfl rfl rfl) ?_
    refine st_cons (E1 := ⟨[.u64 0, .u64 0, .bool false, ze, zl], X m H z0 Z⟩) (st_set ev_lit rfl rfl rfl) ?_
    refine st_cons (E1 := ⟨[.u64 0, .u64 0, .bool false, ze, zl], X m (List.replicate 5 0) z0 Z⟩)
      (st_memset (a := 2) (o := 0) (z := 8) (ev_addr (xs := .a64 H) rfl ev_lit (n := 0) rfl (get64 (by omega))) ev_lit ev_lit (k := 40) (x := 0) rfl rfl rfl (patch_zero hH) rfl) ?_
    refine st_cons (E1 := ⟨[.u64 0, .u64 0, .bool false, ze, zl], X (List.replicate 64 0) (List.replicate 5 0) z0 Z⟩)
      (st_memset (a := 1) (o := 0) (z := 1) (ev_addr (xs := .a8 m) rfl ev_lit (n := 0) rfl (get8 (by omega))) ev_lit ev_lit (k := 64) (x := 0) rfl rfl rfl (patch_all hm) rfl) ?_
    exact st_cons (choose_run k) (st_one hE)
  by_cases hc : k = .cxof
  · subst hc
    obtain ⟨s', v, h', l', x⟩ := custom_run (N := N) (z0 := z0) hN1 hZ hZN r0 g4
    exact ⟨s', 1, h', l', hhead _ (st_then (ev_bin ev_lit ev_lit rfl) rfl (st_scope x rfl))⟩
  · refine ⟨s1, z0, ?_, g4, hhead _ ?_⟩
    · cases k
      · exact r0
      · exact r0
      · exact absurd rfl hc
    · cases k
      · exact st_else (ev_bin ev_lit ev_lit rfl) rfl st_skip
      · exact st_else (ev_bin ev_lit ev_lit rfl) rfl st_skip
      · exact absurd rfl hc

end Digestpp.Cpp.Ascon
