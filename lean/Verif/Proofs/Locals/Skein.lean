import Verif.Model.Locals.Skein
import Verif.Proofs.Locals.Sha1

/-! C58, Skein. -/

namespace Digestpp.Proofs.Locals.Skein
open Model Model.Skein

/-- What the tables of `skein_functions<nw>` must satisfy. -/
structure TOk (F : Fns) : Prop where
  nw : 3 ≤ F.nw
  i : F.I.length = 8
  c : F.C.length = 8
  row : ∀ row ∈ F.I, row.length = F.nw ∧ ∀ x ∈ row, x < F.nw
  ne : ∀ row ∈ F.I, ∀ j, j < F.nw / 2 → row.getD (2 * j) 0 ≠ row.getD (2 * j + 1) 0
  crow : ∀ row ∈ F.C, row.length = F.nw / 2

theorem f4_ok : TOk f4 := ⟨by decide, rfl, rfl, by decide, by decide, by decide⟩
theorem f8_ok : TOk f8 := ⟨by decide, rfl, rfl, by decide +kernel, by decide +kernel, by decide +kernel⟩
theorem f16_ok : TOk f16 := ⟨by decide, rfl, rfl, by decide +kernel, by decide +kernel, by decide +kernel⟩

theorem getD_mem {α : Type} (l : List α) (i : Nat) (d : α) (h : i < l.length) : l.getD i d ∈ l := by
  rw [List.getD_eq_getElem?_getD, List.getElem?_eq_getElem h]
  exact List.getElem_mem h

theorem pair_ok {F : Fns} (ok : TOk F) (r j : Nat) (hr : r < 8) (hj : j < F.nw / 2) (G : List (BitVec 64)) (hG : G.length = F.nw) :
    Locals.Skein.pair F r j G = Skein.pair ((F.I.getD r []).getD (2 * j) 0) ((F.I.getD r []).getD (2 * j + 1) 0) ((F.C.getD r []).getD j 0) G ∧
      ∀ G', Skein.pair ((F.I.getD r []).getD (2 * j) 0) ((F.I.getD r []).getD (2 * j + 1) 0) ((F.C.getD r []).getD j 0) G = .ok G' → G'.length = F.nw := by
  have hi := ok.i
  have hc := ok.c
  have m1 := getD_mem F.I r [] (by omega)
  have m2 := getD_mem F.C r [] (by omega)
  obtain ⟨l1, b1⟩ := ok.row _ m1
  have ne := ok.ne _ m1 j hj
  have l2 := ok.crow _ m2
  have x0 := b1 _ (getD_mem _ (2 * j) 0 (by omega))
  have x1 := b1 _ (getD_mem _ (2 * j + 1) 0 (by omega))
  unfold Locals.Skein.pair
  rw [rd_ok [] (by omega), ok_then, rd_ok 0 (by omega), ok_then, rd_ok 0 (by omega), ok_then]
  generalize (F.I.getD r []).getD (2 * j) 0 = i0 at *
  generalize (F.I.getD r []).getD (2 * j + 1) 0 = i1 at *
  rw [rd_ok 0 (by omega), ok_then, upd_ok _ 0 (by omega), ok_then, rd_ok [] (by omega), ok_then, rd_ok 0 (by omega), ok_then,
    rd_ok 0 (by rw [List.length_set]; omega), ok_then, getD_set, if_neg (by omega)]
  unfold Skein.pair
  cases rotlChecked (G.getD i1 0) ((F.C.getD r []).getD j 0) with
  | error e => exact ⟨rfl, fun _ h => by cases h⟩
  | ok y =>
    rw [ok_then, ok_then, rd_ok 0 (by rw [List.length_set]; omega), ok_then, getD_set, if_pos ⟨rfl, by omega⟩, wr_ok _ (by rw [List.length_set]; omega)]
    refine ⟨rfl, fun G' h => ?_⟩
    cases h
    rw [List.length_set, List.length_set, hG]

theorem foldlM_pres {σ α : Type} (g : σ → α → M σ) (P : σ → Prop) : ∀ (l : List α), (∀ t ∈ l, ∀ s, P s → ∀ s', g s t = .ok s' → P s') →
    ∀ s, P s → ∀ s', l.foldlM g s = .ok s' → P s'
  | [], _, s, hs, s', h => by cases h; exact hs
  | t :: l, h, s, hs, s', e => by
    rw [List.foldlM_cons] at e
    have p := h t (by simp) s hs
    generalize g s t = x at p e
    cases x with
    | error _ => cases e
    | ok x => exact foldlM_pres g P l (fun t ht => h t (by simp [ht])) x (p x rfl) s' e

theorem GTv4_ok {F : Fns} (ok : TOk F) (r : Nat) (hr : r < 8) (G : List (BitVec 64)) (hG : G.length = F.nw) :
    Locals.Skein.GTv4 F r G = Skein.GTv4 F r G ∧ ∀ G', Skein.GTv4 F r G = .ok G' → G'.length = F.nw := by
  unfold Locals.Skein.GTv4 Skein.GTv4 loop
  rw [Nat.sub_zero, ← List.range_eq_range']
  refine ⟨foldlM_congr _ _ (fun G : List (BitVec 64) => G.length = F.nw) _ (fun j hj G hG => pair_ok ok r j hr (List.mem_range.1 hj) G hG) G hG,
    foldlM_pres _ (fun G : List (BitVec 64) => G.length = F.nw) _ (fun j hj G hG => (pair_ok ok r j hr (List.mem_range.1 hj) G hG).2) G hG⟩

theorem KStRv4_ok {F : Fns} (r : Nat) (keys tweaks : List (BitVec 64)) (hk : keys.length = F.nw + 1) (ht : tweaks.length = 3)
    (G : List (BitVec 64)) (hG : G.length = F.nw) :
    Locals.Skein.KStRv4 F r keys tweaks G = .ok (Skein.KStRv4 F r keys tweaks G) := by
  unfold Locals.Skein.KStRv4 Skein.KStRv4
  let val : Nat → BitVec 64 := fun i =>
    G.getD i 0 +
      (if i = F.nw - 3 then keys.getD ((r + i + 1) % (F.nw + 1)) 0 + tweaks.getD ((r + 1) % 3) 0
       else if i = F.nw - 2 then keys.getD ((r + i + 1) % (F.nw + 1)) 0 + tweaks.getD ((r + 2) % 3) 0
       else if i = F.nw - 1 then keys.getD ((r + i + 1) % (F.nw + 1)) 0 + BitVec.ofNat 64 r + 1
       else keys.getD ((r + i + 1) % (F.nw + 1)) 0)
  obtain ⟨e, l, v, _⟩ := loop_eq (fun G i => G.set i (val i))
    (fun t (X : List (BitVec 64)) => X.length = F.nw ∧ (∀ j, j < t → X.getD j 0 = val j) ∧ ∀ j, t ≤ j → X.getD j 0 = G.getD j 0) 0 F.nw (by omega)
    (fun i G => Locals.Skein.KSt F r keys tweaks i G) G ⟨hG, by omega, fun _ _ => rfl⟩ (by
      intro t X _ htn ⟨hX, h1, h2⟩
      constructor
      · unfold Locals.Skein.KSt
        have hm : (r + t + 1) % (F.nw + 1) < F.nw + 1 := Nat.mod_lt _ (by omega)
        rw [rd_ok 0 (by omega), ok_then]
        dsimp only [val]
        split
        · rw [rd_ok 0 (by omega), ok_then, upd_ok _ 0 (by omega), h2 t (by omega)]
        split
        · rw [rd_ok 0 (by omega), ok_then, upd_ok _ 0 (by omega), h2 t (by omega)]
        split
        · rw [upd_ok _ 0 (by omega), h2 t (by omega)]
        · rw [upd_ok _ 0 (by omega), h2 t (by omega)]
      · refine ⟨by rw [List.length_set, hX], fun j hj => ?_, fun j hj => ?_⟩
        · rw [getD_set]
          split
          · rename_i h; rw [h.1]
          · exact h1 j (by omega)
        · rw [getD_set, if_neg (by omega), h2 j (by omega)])
  rw [e]
  congr 1
  rw [← map_range_getD _ 0 F.nw l]
  refine List.map_congr_left fun j hj => ?_
  rw [v j (List.mem_range.1 hj)]

theorem KStRv4_length (F : Fns) (r : Nat) (keys tweaks G : List (BitVec 64)) : (Skein.KStRv4 F r keys tweaks G).length = F.nw := by
  unfold Skein.KStRv4
  rw [List.length_map, List.length_range]

/-- A step that agrees, followed by steps that agree. -/
theorem seq_ok {α β : Type} {P : α → Prop} {Q : β → Prop} {x y : M α} (h : x = y ∧ ∀ a, y = .ok a → P a) {f g : α → M β}
    (hf : ∀ a, P a → f a = g a ∧ ∀ b, g a = .ok b → Q b) : (x >>= f) = (y >>= g) ∧ ∀ b, (y >>= g) = .ok b → Q b := by
  obtain ⟨rfl, p⟩ := h
  cases x with
  | error e => exact ⟨rfl, fun _ h => by cases h⟩
  | ok a => exact hf a (p a rfl)

theorem G8_ok {F : Fns} (ok : TOk F) (r : Nat) (keys tweaks : List (BitVec 64)) (hk : keys.length = F.nw + 1) (ht : tweaks.length = 3)
    (G : List (BitVec 64)) (hG : G.length = F.nw) :
    Locals.Skein.G8 F r keys tweaks G = Skein.G8 F r keys tweaks G ∧ ∀ G', Skein.G8 F r keys tweaks G = .ok G' → G'.length = F.nw := by
  unfold Locals.Skein.G8 Skein.G8
  refine seq_ok (GTv4_ok ok 0 (by omega) G hG) fun G hG => ?_
  refine seq_ok (GTv4_ok ok 1 (by omega) G hG) fun G hG => ?_
  refine seq_ok (GTv4_ok ok 2 (by omega) G hG) fun G hG => ?_
  refine seq_ok (GTv4_ok ok 3 (by omega) G hG) fun G hG => ?_
  rw [KStRv4_ok r keys tweaks hk ht G hG, ok_then]
  have hG := KStRv4_length F r keys tweaks G
  refine seq_ok (GTv4_ok ok 4 (by omega) _ hG) fun G hG => ?_
  refine seq_ok (GTv4_ok ok 5 (by omega) G hG) fun G hG => ?_
  refine seq_ok (GTv4_ok ok 6 (by omega) G hG) fun G hG => ?_
  refine seq_ok (GTv4_ok ok 7 (by omega) G hG) fun G hG => ?_
  rw [KStRv4_ok (r + 1) keys tweaks hk ht G hG]
  exact ⟨rfl, fun G' h => by cases h; exact KStRv4_length F _ keys tweaks G⟩

theorem setTweaks_ok (reallen : Nat) (h : St) (tw : List (BitVec 64)) (ht : tw.length = 3) :
    Locals.Skein.setTweaks reallen h tw = .ok [h.tweak0 + BitVec.ofNat 64 reallen, h.tweak1, h.tweak0 + BitVec.ofNat 64 reallen ^^^ h.tweak1] := by
  match tw, ht with
  | [a, b, c], _ => rfl

theorem copyKeys_ok (F : Fns) (H keys : List (BitVec 64)) (hH : H.length = F.nw) (hk : keys.length = F.nw + 1) :
    ∃ x, Locals.Skein.copyKeys F H keys = .ok (H ++ [x]) := by
  obtain ⟨b, e, l, v, _⟩ := fill (0 : BitVec 64) (fun j => H.getD j 0) (F.nw + 1) 0 F.nw (by omega) (by omega) (fun i keys => do
    let x ← rd H i
    wr keys i x) keys hk (by omega) (fun t a _ ht ha _ => by rw [rd_ok 0 (by omega), ok_then, wr_ok _ (by omega)])
  refine ⟨b.getD F.nw 0, e.trans ?_⟩
  congr 1
  conv => lhs; rw [← map_range_getD b 0 _ l, List.range_succ, List.map_append]
  congr 1
  conv => rhs; rw [← map_range_getD H 0 _ hH]
  exact List.map_congr_left fun j hj => v j (List.mem_range.1 hj)

theorem take_succ_foldl (H : List (BitVec 64)) (t : Nat) (ht : t < H.length) (a : BitVec 64) :
    (H.take (t + 1)).foldl (· ^^^ ·) a = (H.take t).foldl (· ^^^ ·) a ^^^ H.getD t 0 := by
  rw [List.take_succ_eq_append_getElem ht, List.foldl_append, List.getD_eq_getElem?_getD, List.getElem?_eq_getElem ht]
  rfl

theorem addKeys_ok (F : Fns) (Mw H G : List (BitVec 64)) (hM : Mw.length = F.nw) (hH : H.length = F.nw) (hG : G.length = F.nw) :
    Locals.Skein.addKeys F Mw (H ++ [0x1BD11BDAA9FC1A22], G) =
      .ok (H ++ [lastKey H], (List.range F.nw).map fun i => Mw.getD i 0 + H.getD i 0) := by
  have hget : ∀ (x : BitVec 64) j, j < F.nw → (H ++ [x]).getD j 0 = H.getD j 0 := by
    intro x j hj
    rw [List.getD_eq_getElem?_getD, List.getElem?_append_left (by omega), ← List.getD_eq_getElem?_getD]
  have hlast : ∀ (x : BitVec 64), (H ++ [x]).getD F.nw 0 = x := by
    intro x
    rw [List.getD_eq_getElem?_getD, List.getElem?_append_right (by omega), hH, Nat.sub_self]
    rfl
  have hset : ∀ (x y : BitVec 64), (H ++ [x]).set F.nw y = H ++ [y] := by
    intro x y
    rw [List.set_append_right _ _ (by omega), hH, Nat.sub_self]
    rfl
  let f : List (BitVec 64) × List (BitVec 64) → Nat → List (BitVec 64) × List (BitVec 64) := fun kG i =>
    (H ++ [(H.take (i + 1)).foldl (· ^^^ ·) 0x1BD11BDAA9FC1A22], kG.2.set i (Mw.getD i 0 + H.getD i 0))
  obtain ⟨e, i1, i2, i3⟩ := loop_eq f
    (fun t kG => kG.1 = H ++ [(H.take t).foldl (· ^^^ ·) 0x1BD11BDAA9FC1A22] ∧ kG.2.length = F.nw ∧ ∀ j, j < t → kG.2.getD j 0 = Mw.getD j 0 + H.getD j 0)
    0 F.nw (by omega)
    (fun i kG => do
      let x ← rd kG.1 i
      let keys ← upd kG.1 F.nw (· ^^^ x)
      let m ← rd Mw i
      let k ← rd keys i
      let G ← wr kG.2 i (m + k)
      pure (keys, G)) (H ++ [0x1BD11BDAA9FC1A22], G) ⟨rfl, hG, by omega⟩ (by
      intro t kG _ ht ⟨h1, h2, h3⟩
      have hl : ∀ x : BitVec 64, (H ++ [x]).length = F.nw + 1 := fun x => by rw [List.length_append, hH]; rfl
      constructor
      · rw [h1, rd_ok 0 (by rw [hl]; omega), ok_then, upd_ok _ 0 (by rw [hl]; omega), ok_then, rd_ok 0 (by omega), ok_then, hset,
          rd_ok 0 (by rw [hl]; omega), ok_then, wr_ok _ (by omega), ok_then, hget _ _ ht, hget _ _ ht, hlast, ← take_succ_foldl _ _ (by omega)]
        rfl
      · refine ⟨rfl, by rw [List.length_set, h2], fun j hj => ?_⟩
        show (List.set _ _ _).getD j 0 = _
        rw [getD_set]
        split
        · rename_i h; rw [h.1]
        · exact h3 j (by omega))
  refine e.trans ?_
  generalize (List.range' 0 (F.nw - 0)).foldl f (H ++ [0x1BD11BDAA9FC1A22], G) = kG at i1 i2 i3
  obtain ⟨a, b⟩ := kG
  dsimp only at i1 i2 i3
  rw [i1, List.take_of_length_le (by omega)]
  congr 2
  rw [← map_range_getD b 0 _ i2]
  exact List.map_congr_left fun j hj => i3 j (List.mem_range.1 hj)

theorem store_ok (F : Fns) (G Mw H : List (BitVec 64)) (hG : G.length = F.nw) (hM : Mw.length = F.nw) (hH : H.length = F.nw) :
    Locals.Skein.store F G Mw H = .ok ((List.range F.nw).map fun i => G.getD i 0 ^^^ Mw.getD i 0) :=
  fill_all 0 _ F.nw 0 (by omega) _ _ hH (by omega) fun t a _ ht ha _ => by
    rw [rd_ok 0 (by omega), ok_then, rd_ok 0 (by omega), ok_then, wr_ok _ (by omega)]

theorem start_ok {F : Fns} (ok : TOk F) (W H : List (BitVec 64)) (hH : H.length = F.nw) (x t0 t1 t2 : BitVec 64) :
    (do let G ← upd ((List.range F.nw).map fun i => W.getD i 0 + H.getD i 0) (F.nw - 3) (· + t0)
        upd G (F.nw - 2) (· + t1)) = .ok (start F W (H ++ [x]) [t0, t1, t2]) := by
  have h3 := ok.nw
  have hl : ((List.range F.nw).map fun i => W.getD i 0 + H.getD i 0).length = F.nw := by rw [List.length_map, List.length_range]
  rw [upd_ok _ 0 (by omega), ok_then, upd_ok _ 0 (by rw [List.length_set]; omega)]
  congr 1
  unfold start
  rw [← map_range_getD (List.set _ _ _) 0 F.nw (by rw [List.length_set, List.length_set, hl])]
  refine List.map_congr_left fun i hi => ?_
  have hi := List.mem_range.1 hi
  have hget : (H ++ [x]).getD i 0 = H.getD i 0 := by
    rw [List.getD_eq_getElem?_getD, List.getElem?_append_left (by omega), ← List.getD_eq_getElem?_getD]
  rw [getD_set, getD_set, getD_set, List.length_set, hl, hget]
  rw [getD_map_range _ _ _ _ hi, getD_map_range _ _ _ _ (by omega), getD_map_range _ _ _ _ (by omega)]
  dsimp only
  by_cases e3 : i = F.nw - 3
  · subst e3
    rw [if_neg (by omega), if_pos ⟨rfl, by omega⟩, if_pos rfl]
    rfl
  · by_cases e2 : i = F.nw - 2
    · subst e2
      rw [if_pos ⟨rfl, by omega⟩, if_neg (by omega), if_neg (by omega), if_pos rfl]
      rfl
    · rw [if_neg (by omega), if_neg (by omega), if_neg e3, if_neg e2]

theorem block_ok {F : Fns} (ok : TOk F) (reallen : Nat) (k : Locals.Skein.Stack) (hk : k.Sized F) (mp b : Bytes) (blk : Nat)
    (hr : readBytes mp (blk * (8 * F.nw)) (8 * F.nw) = .ok b) (e : Locals.Skein.Env) (he : e.Sized F) :
    RelM (fun (e : Locals.Skein.Env) h => e.Sized F ∧ e.h = h) (Locals.Skein.block F reallen k mp blk e) (Skein.block F reallen b e.h) := by
  obtain ⟨k1, k2⟩ := hk
  obtain ⟨e1, e2, e3⟩ := he
  have h3 := ok.nw
  have eM : Locals.Skein.loadM F mp blk k.M = .ok (loads64 F.nw b) := by
    rw [← map_range_getD (loads64 F.nw b) 0 F.nw (loads64_length _ b)]
    refine fill_all 0 _ F.nw 0 (by omega) _ _ k1 (by omega) fun t a _ ht ha _ => ?_
    rw [rd64_block hr ht, ok_then, wr_ok _ (by omega)]
  obtain ⟨x, ek⟩ := copyKeys_ok F e.h.H e.keys e3 e1
  unfold Locals.Skein.block
  rw [eM, ok_then, ek, ok_then, setTweaks_ok _ _ _ e2, ok_then, wr_ok _ (by rw [List.length_append, e3]; exact Nat.lt_succ_self _), ok_then,
    List.set_append_right _ _ (by omega), e3, Nat.sub_self]
  rw [show [x].set 0 (0x1BD11BDAA9FC1A22 : BitVec 64) = [0x1BD11BDAA9FC1A22] from rfl, addKeys_ok F _ _ _ (loads64_length _ b) e3 k2, ok_then]
  unfold Skein.block
  dsimp only
  generalize h0 : e.h.tweak0 + BitVec.ofNat 64 reallen = t0
  generalize h1 : e.h.tweak1 = t1
  rw [show rd [t0, t1, t0 ^^^ t1] 0 = .ok t0 from rfl, ok_then]
  have hs := start_ok ok (loads64 F.nw b) e.h.H e3 (lastKey e.h.H) t0 t1 (t0 ^^^ t1)
  have hs2 := fun (f : List (BitVec 64) → M Locals.Skein.Env) => congrArg (fun z : M _ => z >>= f) hs
  simp only [bind_assoc] at hs2
  rw [show rd [t0, t1, t0 ^^^ t1] 1 = .ok t1 from rfl]
  simp only [ok_then]
  rw [hs2]
  have hl := List.length_append (as := e.h.H) (bs := [lastKey e.h.H])
  have main : loop 0 F.g8 (fun i G => Locals.Skein.G8 F (2 * i) (e.h.H ++ [lastKey e.h.H]) [t0, t1, t0 ^^^ t1] G)
        (start F (loads64 F.nw b) (e.h.H ++ [lastKey e.h.H]) [t0, t1, t0 ^^^ t1]) =
      (List.range F.g8).foldlM (fun G i => Skein.G8 F (2 * i) (e.h.H ++ [lastKey e.h.H]) [t0, t1, t0 ^^^ t1] G)
        (start F (loads64 F.nw b) (e.h.H ++ [lastKey e.h.H]) [t0, t1, t0 ^^^ t1]) ∧
      ∀ G', (List.range F.g8).foldlM (fun G i => Skein.G8 F (2 * i) (e.h.H ++ [lastKey e.h.H]) [t0, t1, t0 ^^^ t1] G)
        (start F (loads64 F.nw b) (e.h.H ++ [lastKey e.h.H]) [t0, t1, t0 ^^^ t1]) = .ok G' → G'.length = F.nw := by
    have hst : (start F (loads64 F.nw b) (e.h.H ++ [lastKey e.h.H]) [t0, t1, t0 ^^^ t1]).length = F.nw := by
      unfold start
      rw [List.length_map, List.length_range]
    unfold loop
    rw [Nat.sub_zero, ← List.range_eq_range']
    have hg := fun i G hG => G8_ok ok (2 * i) (e.h.H ++ [lastKey e.h.H]) [t0, t1, t0 ^^^ t1] (by rw [hl, e3]; rfl) rfl G hG
    exact ⟨foldlM_congr _ _ (fun G : List (BitVec 64) => G.length = F.nw) _ (fun i _ G hG => hg i G hG) _ hst,
      foldlM_pres _ (fun G : List (BitVec 64) => G.length = F.nw) _ (fun i _ G hG => (hg i G hG).2) _ hst⟩
  rw [ok_then, main.1]
  have ml := main.2
  generalize (List.foldlM (fun G i => Skein.G8 F (2 * i) (e.h.H ++ [lastKey e.h.H]) [t0, t1, t0 ^^^ t1] G)
        (start F (loads64 F.nw b) (e.h.H ++ [lastKey e.h.H]) [t0, t1, t0 ^^^ t1]) (List.range F.g8) : M _) = X at ml ⊢
  cases X with
  | error e => rfl
  | ok G =>
    have hG := ml G rfl
    rw [ok_then, ok_then, show upd [t0, t1, t0 ^^^ t1] 1 (· &&& ~~~((64 : BitVec 64) <<< 56)) = .ok [t0, t1 &&& ~~~((64 : BitVec 64) <<< 56), t0 ^^^ t1] from rfl,
      ok_then]
    rw [show ∀ y, rd [t0, y, t0 ^^^ t1] 0 = .ok t0 from fun _ => rfl, show ∀ y, rd [t0, y, t0 ^^^ t1] 1 = .ok y from fun _ => rfl, ok_then, ok_then,
      store_ok F G _ _ hG (loads64_length _ b) e3, ok_then]
    refine ⟨⟨?_, rfl, ?_⟩, rfl⟩
    · show (e.h.H ++ [lastKey e.h.H]).length = _
      rw [hl, e3]; rfl
    · show (List.map _ _).length = _
      rw [List.length_map, List.length_range]

theorem transform_eq {F : Fns} (ok : TOk F) (k : Nat → Locals.Skein.Stack) (hk : ∀ i, (k i).Sized F) (keys tweaks : List (BitVec 64))
    (hkeys : keys.length = F.nw + 1) (htw : tweaks.length = 3) (reallen : Nat) (mp : Bytes) (n : Nat) (hd : n * (8 * F.nw) ≤ mp.length) (s : Blk St)
    (hs : s.h.H.length = F.nw) : Locals.Skein.transform F k keys tweaks reallen mp n s = Skein.transform F reallen mp n s := by
  unfold Locals.Skein.transform Skein.transform
  have h := blocks_rel (8 * F.nw) mp n hd (fun (e : Locals.Skein.Env) h => e.Sized F ∧ e.h = h) (fun b e => Locals.Skein.block F reallen (k b) mp b e)
    (fun _ b h => Skein.block F reallen b h) (by
      intro blk b e h _ hr _ ⟨he, hh⟩
      subst hh
      exact block_ok ok reallen _ (hk blk) mp b blk hr e he) ⟨keys, tweaks, s.h⟩ s.h ⟨⟨hkeys, htw, hs⟩, rfl⟩
  generalize loop 0 n (fun b e => Locals.Skein.block F reallen (k b) mp b e) ⟨keys, tweaks, s.h⟩ = x at h ⊢
  generalize forBlocks (8 * F.nw) mp n (fun _ b h => Skein.block F reallen b h) s.h = y at h ⊢
  cases x with
  | error e1 =>
    cases y with
    | error e2 => cases h; rfl
    | ok y => exact h.elim
  | ok x =>
    cases y with
    | error e2 => exact h.elim
    | ok y =>
      obtain ⟨_, rfl⟩ := h
      rfl

end Digestpp.Proofs.Locals.Skein
