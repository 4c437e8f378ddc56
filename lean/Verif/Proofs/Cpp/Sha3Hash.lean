import Verif.Proofs.Cpp.Hash
import Verif.Proofs.Cpp.Sha3
import Verif.Proofs.Sha3

/-! C71, SHA-3: `init`, `update`, `final`, and the functions together. -/

namespace Digestpp.Cpp.Sha3
open Src Src.Sha3
open Model (Blk memset memcpyTo setByte readBytes szSub szMod stores64)
open Absorb (absorb_any sub64)
open Final
attribute [local irreducible] eval exec block

variable {N : Nat} {ext : Nat → Val → Val → Env → Option Env}

theorem patch_zero {h : List (BitVec 64)} (hh : h.length = 25) : (Arr.a64 h).patch 0 (List.replicate 200 0) = some (.a64 (List.replicate 25 0)) := by
  have hl : (stores64 h).length = 200 := by rw [Whirlpool.stores_length, hh]
  unfold Arr.patch
  rw [Final.bytes_a64, List.length_replicate, if_pos (by omega), List.take_zero, List.nil_append, List.drop_of_length_le (by omega), List.append_nil]
  show some (Arr.a64 (words 64 h.length (List.replicate 200 0))) = _
  rw [hh]
  exact congrArg (fun x => some (Arr.a64 x)) (by decide)

theorem byte_or (x : BitVec 8) : conv .u8 (.i32 (BitVec.ofInt 32 (x.toNat : Int) ||| BitVec.ofInt 32 128).toInt) = some (.u8 (x ||| 0x80)) := by
  have h : ∀ i : Fin 256, BitVec.ofInt 8 (BitVec.ofInt 32 (i.val : Int) ||| BitVec.ofInt 32 128).toInt = (BitVec.ofFin i : BitVec 8) ||| 0x80 := by decide +kernel
  exact congrArg (fun x => some (Val.u8 x)) (h x.toFin)

theorem init_run {p t : BitVec 64} {data m : Bytes} {A C D : List (BitVec 64)} (hA : A.length = 25) :
    exec N ext init ⟨[.u64 p, .u64 t], ar data m A C D⟩ = some ⟨[.u64 0, .u64 0], ar data m (List.replicate 25 0) C D⟩ := by
  unfold init
  refine st_cons (E1 := ⟨[.u64 p, .u64 t], ar data m (List.replicate 25 0) C D⟩) ?_ ?_
  · exact st_memset (a := 2) (o := 0) (z := 8) (ev_addr (xs := .a64 A) rfl ev_lit (n := 0) rfl (get64 (by omega))) ev_lit ev_lit (k := 200) (x := 0) rfl rfl rfl (patch_zero hA) rfl
  refine st_cons (E1 := ⟨[.u64 0, .u64 t], ar data m (List.replicate 25 0) C D⟩) (by run) ?_
  exact st_one (by run)

theorem update_run {hs rate : Nat} {data : Bytes} {s s' : Blk Model.Sha3.St} {rest : List Arr} (hr : rate ≤ 1152) (h8 : 8 ≤ rate) (hd : data.length + 1000 < 2 ^ 64) (hN : data.length < N)
    (hN1 : 80 < N) (hm : s.m.length = 144) (hp : s.pos ≤ rate / 8) (hR : R hs rate s.h rest) (h : Model.Sha3.update data s = .ok s') :
    ∃ e, exec N (invoke N (transform rate)) (update rate)
      ⟨[.ptr 0 0 1, .u64 (BitVec.ofNat 64 data.length), .u64 (BitVec.ofNat 64 s.pos), .u64 s.total], .a8 data :: .a8 s.m :: rest⟩ = some e ∧
      ∃ rest', R hs rate s'.h rest' ∧
        e = ⟨[.ptr 0 0 1, .u64 (BitVec.ofNat 64 data.length), .u64 (BitVec.ofNat 64 s'.pos), .u64 s'.total], .a8 data :: .a8 s'.m :: rest'⟩ := by
  unfold Model.Sha3.update at h
  rw [hR.2.2.1] at h
  exact absorb_any (trans hN1 (by omega) h8) (by omega) (Nat.le_refl _) (by omega) (fun _ => ev_quot (k := 8) (by decide) (by omega) ev_lit) rfl
    (fun _ => ev_quot (k := 8) (by decide) (by omega) ev_lit) rfl (by omega) hN (by omega) (by omega) (by omega) hp hR h

theorem final_run {hs rate : Nat} {out out' b : Bytes} {s : Blk Model.Sha3.St} {rest : List Arr} (hr : rate ≤ 1152) (h8 : 8 ≤ rate) (hhs : hs ≤ 1152) (hN1 : 80 < N) (hm : s.m.length = 144)
    (hp : s.pos < rate / 8) (hR : R hs rate s.h rest) (h : Model.Sha3.final s = .ok b) (ho : memcpyTo out 0 b = .ok out') :
    ∃ e, exec N (invoke N (transform rate)) (final hs rate) ⟨[.ptr 0 0 1, .u64 (BitVec.ofNat 64 s.pos), .u64 s.total], .a8 out :: .a8 s.m :: rest⟩ = some e ∧ e.arrs[0]? = some (.a8 out') := by
  obtain ⟨⟨m3, A'⟩, e1, e2⟩ := then_ok h
  replace e2 : readBytes (stores64 A') 0 (s.h.hs / 8) = .ok b := e2
  rw [hR.2.1] at e2
  rw [hR.2.2.1] at e1
  obtain ⟨m1, f1, e1⟩ := then_ok e1
  obtain ⟨hp1, rfl⟩ := setByte_inv f1
  have l1 : (s.m.set s.pos 0x06).length = 144 := by rw [List.length_set, hm]
  generalize hM1 : s.m.set s.pos 0x06 = m1 at e1 l1
  obtain ⟨m2, f2, e1⟩ := then_ok e1
  obtain ⟨c, f3, e1⟩ := then_ok e1
  obtain ⟨m4, f4, e1⟩ := then_ok e1
  obtain ⟨A1, f5, e1⟩ := then_ok e1
  obtain ⟨rfl, rfl⟩ := Prod.mk.inj (Except.ok.inj e1)
  have hsz : szSub (rate / 8) 1 = rate / 8 - 1 := by unfold szSub szMod; omega
  rw [hsz] at f3 f4
  have l2 : m2.length = 144 := by
    unfold Model.Sha3.zeroFill at f2
    split at f2
    · rw [memset_length f2, l1]
    · rw [← Except.ok.inj f2, l1]
  obtain ⟨hp2, rfl⟩ := setByte_inv f4
  have hc : c.getD 0 0 = m2.getD (rate / 8 - 1) 0 := by
    unfold readBytes at f3
    split at f3
    · rw [← Except.ok.inj f3]
      simp only [List.getD_eq_getElem?_getD, List.getElem?_take, List.getElem?_drop]
      simp
    · cases f3
  have l4 : (m2.set (rate / 8 - 1) (c.getD 0 0 ||| 0x80)).length = 144 := by rw [List.length_set, l2]
  have hcall : Model.Sha3.onBlocks (m2.set (rate / 8 - 1) (c.getD 0 0 ||| 0x80)) 1 s = .ok { s with h := { s.h with A := A1 } } := by
    unfold Model.Sha3.onBlocks
    rw [hR.2.2.1, f5]
    rfl
  rw [hc] at hcall l4
  obtain ⟨h', rest', hh, r', x⟩ := trans (hs := hs) hN1 (by omega) h8 out _ _ 1 0 1 (.i32 1) s _ rest
    [.ptr 0 0 1, .u64 (BitVec.ofNat 64 (s.pos + 1)), .u64 s.total, .u64 (BitVec.ofNat 64 (rate / 8))] (.inr ⟨rfl, rfl⟩) (by omega) (by omega) (by omega) rfl hR hcall
  have hh' : { s.h with A := A1 } = h' := congrArg Blk.h hh
  subst hh'
  obtain ⟨lA, -, -, C', D', lC, lD, rfl⟩ := r'
  unfold final
  apply ex_cons (E1 := ⟨vv s.pos s.total [.u64 (BitVec.ofNat 64 (rate / 8))], .a8 out :: .a8 s.m :: rest⟩)
  · exact st_decl (ev_quot (k := 8) (by decide) (by omega) ev_lit) rfl rfl
  apply ex_cons (E1 := ⟨vv s.pos s.total [.u64 (BitVec.ofNat 64 (rate / 8))], .a8 out :: .a8 m1 :: rest⟩)
  · rw [← hM1]
    exact st_store (n := s.pos) (ev_var rfl rfl) (count_u64 (by omega)) ev_lit rfl (put8 rfl (by omega)) rfl
  apply ex_cons (E1 := ⟨vv (s.pos + 1) s.total [.u64 (BitVec.ofNat 64 (rate / 8))], .a8 out :: .a8 m1 :: rest⟩)
  · exact st_set (v := .u64 (BitVec.ofNat 64 (s.pos + 1))) (ev_as (ev_bin (ev_var rfl rfl) ev_lit rfl) (congrArg Val.u64 succ64)) rfl rfl rfl
  apply ex_cons (E1 := ⟨vv (s.pos + 1) s.total [.u64 (BitVec.ofNat 64 (rate / 8))], .a8 out :: .a8 m2 :: rest⟩)
  · have hne : (BitVec.ofNat 64 (rate / 8) != BitVec.ofNat 64 (s.pos + 1)) = decide (rate / 8 ≠ s.pos + 1) := by
      by_cases he : rate / 8 = s.pos + 1
      · rw [he, bne_self_eq_false, decide_eq_false (by omega)]
      · rw [decide_eq_true he, bne_iff_ne]
        intro h0
        have := congrArg BitVec.toNat h0
        rw [BitVec.toNat_ofNat, BitVec.toNat_ofNat, Nat.mod_eq_of_lt (by omega), Nat.mod_eq_of_lt (by omega)] at this
        exact he this
    have hb := ev_bin (o := .ne) (E := ⟨vv (s.pos + 1) s.total [.u64 (BitVec.ofNat 64 (rate / 8))], .a8 out :: .a8 m1 :: rest⟩) (as := []) (x := .var 3) (y := .var 1)
      (ev_var rfl rfl) (ev_var rfl rfl) (r := .bool (BitVec.ofNat 64 (rate / 8) != BitVec.ofNat 64 (s.pos + 1))) rfl
    rw [hne] at hb
    unfold Model.Sha3.zeroFill at f2
    by_cases he : rate / 8 = s.pos + 1
    · rw [if_neg (by omega)] at f2
      obtain rfl := Except.ok.inj f2
      exact st_else hb (by rw [decide_eq_false (by omega)]; rfl) st_skip
    · rw [if_pos he, show szSub (rate / 8) (s.pos + 1) = rate / 8 - (s.pos + 1) by unfold szSub szMod; omega] at f2
      refine st_then hb (by rw [decide_eq_true he]; rfl) (st_scope (vs' := vv (s.pos + 1) s.total [.u64 (BitVec.ofNat 64 (rate / 8))]) (st_one ?_) rfl)
      exact st_memset (ev_elem (n := s.pos + 1) (by omega) (ev_var rfl rfl) (count_u64 (by omega))) ev_lit
        (ev_as (ev_bin (ev_var rfl rfl) (ev_var rfl rfl) rfl) (congrArg Val.u64 (sub64 (by omega) (by omega)))) (count_u64 (by omega)) rfl rfl (patch_of_memset f2) rfl
  have hi : ∀ rest : List Arr, eval ⟨vv (s.pos + 1) s.total [.u64 (BitVec.ofNat 64 (rate / 8))], .a8 out :: .a8 m2 :: rest⟩ (.bin .sub (.var 3) (.lit (.i32 1))) [] =
      some [.u64 (BitVec.ofNat 64 (rate / 8 - 1))] := fun rest =>
    ev_as (ev_bin (ev_var rfl rfl) ev_lit rfl) (congrArg Val.u64 (sub64 (b := 1) (by omega) (by omega)))
  apply ex_cons (E1 := ⟨vv (s.pos + 1) s.total [.u64 (BitVec.ofNat 64 (rate / 8))], .a8 out :: .a8 (m2.set (rate / 8 - 1) (m2.getD (rate / 8 - 1) 0 ||| 0x80)) :: rest⟩)
  · refine st_store (n := rate / 8 - 1) (hi _) (count_u64 (by omega)) (ev_bin (ev_idx rfl (hi _) (count_u64 (by omega)) (get8 hp2)) ev_lit rfl) rfl (put8 (byte_or _) hp2) rfl
  apply ex_cons (st_call (ev_addr rfl ev_lit (n := 0) rfl (get8 (by omega))) (by ev) x)
  apply ex_one
  refine ex_of (output_run rfl (ev_addr rfl ev_lit (n := 0) rfl (get64 (by omega))) (nv := .u64 (BitVec.ofNat 64 (hs / 8))) ?_ (count_u64 (by omega)) (part64 e2) ho) rfl
  exact ev_quot (k := 8) (by decide) (by omega) (ev_ret ev_nil (ev_cast ev_lit rfl))

end Digestpp.Cpp.Sha3

namespace Digestpp.Cpp
open Model Spec
attribute [local irreducible] eval exec block

variable {N : Nat}

theorem sha3_hash {d : Nat} (hd : d = 224 ∨ d = 256 ∨ d = 384 ∨ d = 512) {parts : List Bytes} (hp : ∀ d ∈ parts, d.length < 2 ^ 63) (hN : ∀ d ∈ parts, d.length < N) (h1 : 80 < N) {out : Bytes}
    (ho : out.length = d / 8) {p t : BitVec 64} {m : Bytes} {A C D : List (BitVec 64)} (hm : m.length = 144) (hA : A.length = 25) (hC : C.length = 5) (hD : D.length = 5) :
    (sha3 d).hash N parts out ⟨.u64 p, .u64 t, [.a8 m, .a64 A, .a64 C, .a64 D]⟩ = some ((Spec.sha3 d).digest () parts.flatten) := by
  have e : (sha3 d).runInit N ⟨.u64 p, .u64 t, [.a8 m, .a64 A, .a64 C, .a64 D]⟩ = some ⟨.u64 0, .u64 0, [.a8 m, .a64 (List.replicate 25 0), .a64 C, .a64 D]⟩ := by
    unfold Class.runInit
    rw [show exec N _ (sha3 d).init ⟨[.u64 p, .u64 t], .a8 [] :: [.a8 m, .a64 A, .a64 C, .a64 D]⟩ = _ from Sha3.init_run hA]
  unfold Class.hash
  rw [e]
  have hrate : 8 * (200 - 2 * d / 8) = 1600 - 2 * d := by omega
  obtain ⟨s', e', r⟩ := Proofs.Sha3.init_ok d (200 - 2 * d / 8) ⟨⟨A, d, 1600 - 2 * d⟩, m, 0, 0⟩ hm rfl hrate.symm
  obtain rfl := Except.ok.inj e'
  have hq : (1600 - 2 * d) / 8 = 200 - 2 * d / 8 := by omega
  exact absorb_source (N := N) (bs := 200 - 2 * d / 8) (ml := 144) (R := Sha3.R d (1600 - 2 * d)) (c := sha3 d) (Proofs.Sha3.refines d hd) (fun _ _ h => buffered_pos (by omega) h)
    (fun data s s' rest h63 hN hm hp hR h => Sha3.update_run (by omega) (by omega) (by omega) hN h1 hm (by omega) hR h)
    (fun out out' b msg s rest ha hm hR h ho => by
      refine Sha3.final_run (by omega) (by omega) (by omega) h1 hm ?_ hR h ho
      have := ha.pos
      rw [Nat.sub_zero, Proofs.mod_eq_sub_div] at this
      rw [this, hq]
      exact Nat.mod_lt _ (by omega)) hp hN ho r ⟨rfl, rfl, rfl, C, D, hC, hD, rfl⟩

end Digestpp.Cpp
