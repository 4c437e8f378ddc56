import Verif.Model.Locals.Lsh
import Verif.Proofs.Locals.Skein

/-! C58, LSH. -/

namespace Digestpp.Proofs.Locals.Lsh
open Model
open Model.Lsh

variable {w : Nat}

/-- What is needed of the template parameter: the sizes of the tables, an even number of steps, 32 words in a block. -/
def Good (T : Word w) : Prop :=
  T.SC.length = T.NS ∧ (∀ row ∈ T.SC, row.length = 8) ∧ T.G.length = 8 ∧ 2 * (T.NS / 2) = T.NS ∧ 2 ≤ T.NS ∧ ∀ b, (T.loads 32 b).length = 32

theorem good32 : Good u32 := ⟨by decide +kernel, by decide +kernel, by decide +kernel, by decide, by decide, fun b => loads32_length 32 b⟩

theorem good64 : Good u64 := ⟨by decide +kernel, by decide +kernel, by decide +kernel, by decide, by decide, fun b => loads64_length 32 b⟩

theorem rows_set {α : Type} {m : List (List α)} {n : Nat} (h : ∀ row ∈ m, row.length = n) (i : Nat) (r : List α) (hr : r.length = n) :
    ∀ row ∈ m.set i r, row.length = n := by
  intro row hrow
  rcases List.mem_or_eq_of_mem_set hrow with h1 | h1
  · exact h _ h1
  · rw [h1, hr]

theorem copyRows_ok {T : Word w} (ok : Good T) (mp b : Bytes) (hr : readBytes mp 0 (blockBytes w) = .ok b) (m : List (List (BitVec w)))
    (hm : m.length = T.NS + 1) (hrow : ∀ row ∈ m, row.length = 16) :
    Locals.Lsh.copyRows T mp m = .ok ((m.set 0 ((T.loads 32 b).take 16)).set 1 ((T.loads 32 b).drop 16)) := by
  obtain ⟨-, -, -, -, h2, h6⟩ := ok
  have l1 : ((T.loads 32 b).take 16).length = 16 := by rw [List.length_take, h6]; rfl
  have l2 : ((T.loads 32 b).drop 16).length = 16 := by rw [List.length_drop, h6]
  have hr1 := rows_set hrow 0 _ l1
  unfold Locals.Lsh.copyRows
  rw [hr, ok_then, rd_ok [] (by omega), ok_then, copyN_ok (hrow _ (Skein.getD_mem m 0 [] (by omega))) l1, ok_then, wr_ok _ (by omega), ok_then,
    rd_ok [] (by rw [List.length_set]; omega), ok_then, copyN_ok (hr1 _ (Skein.getD_mem _ 1 [] (by rw [List.length_set]; omega))) l2, ok_then,
    wr_ok _ (by rw [List.length_set]; omega)]

theorem pairs_eq : [(0, 3), (1, 2), (2, 0), (3, 1), (4, 7), (5, 4), (6, 5), (7, 6), (8, 11), (9, 10), (10, 8), (11, 9), (12, 15), (13, 12), (14, 13), (15, 14)] =
    (List.range 16).map fun l => (l, tauIdx.getD l 0) := by decide

theorem tau_lt : ∀ l, l < 16 → tauIdx.getD l 0 < 16 := by decide

theorem expandRow_ok (i : Nat) (m : List (List (BitVec w))) (h2 : 2 ≤ i) (hi : i < m.length) (hrow : ∀ j, j < m.length → (m.getD j []).length = 16) :
    Locals.Lsh.expandRow i m = .ok (m.set i ((List.range 16).map fun l => (m.getD (i - 1) []).getD l 0 + (m.getD (i - 2) []).getD (tauIdx.getD l 0) 0)) := by
  let val : Nat → BitVec w := fun l => (m.getD (i - 1) []).getD l 0 + (m.getD (i - 2) []).getD (tauIdx.getD l 0) 0
  have e : Locals.Lsh.expandRow i m = loop 0 16 (fun l m => Locals.Lsh.expand1 i l (tauIdx.getD l 0) m) m := by
    unfold Locals.Lsh.expandRow loop
    rw [pairs_eq, List.foldlM_map, Nat.sub_zero, ← List.range_eq_range']
  obtain ⟨e1, row, hx, hl, hv⟩ := loop_eq (fun (x : List (List (BitVec w))) l => x.set i ((x.getD i []).set l (val l)))
    (fun t x => ∃ row, x = m.set i row ∧ row.length = 16 ∧ ∀ j, j < t → row.getD j 0 = val j) 0 16 (by omega)
    (fun l m => Locals.Lsh.expand1 i l (tauIdx.getD l 0) m) m
    ⟨m.getD i [], by
      apply List.ext_getElem? 
      intro j
      rw [List.getElem?_set]
      split
      · rename_i h
        rw [← h, List.getD_eq_getElem?_getD, List.getElem?_eq_getElem hi]
        simp
      · rfl, hrow i hi, by omega⟩
    (by
      rintro t x _ ht ⟨row, rfl, hl, hv⟩
      have g0 : (m.set i row).getD i [] = row := by rw [getD_set, if_pos ⟨rfl, hi⟩]
      have g1 : (m.set i row).getD (i - 1) [] = m.getD (i - 1) [] := by rw [getD_set, if_neg (by omega)]
      have g2 : (m.set i row).getD (i - 2) [] = m.getD (i - 2) [] := by rw [getD_set, if_neg (by omega)]
      constructor
      · unfold Locals.Lsh.expand1
        rw [rd_ok [] (by rw [List.length_set]; omega), ok_then, g1, rd_ok 0 (by rw [hrow _ (by omega)]; exact ht), ok_then,
          rd_ok [] (by rw [List.length_set]; omega), ok_then, g2, rd_ok 0 (by rw [hrow _ (by omega)]; exact tau_lt t ht), ok_then,
          rd_ok [] (by rw [List.length_set]; omega), ok_then, g0, wr_ok _ (by omega), ok_then, wr_ok _ (by rw [List.length_set]; omega)]
      · refine ⟨row.set t (val t), by rw [g0, List.set_set], by rw [List.length_set, hl], fun j hj => ?_⟩
        rw [getD_set]
        split
        · rename_i h; rw [h.1]
        · exact hv j (by omega))
  rw [e, e1, hx]
  congr 2
  rw [← map_range_getD row 0 16 hl]
  exact List.map_congr_left fun j hj => hv j (List.mem_range.1 hj)

theorem msgexpand_ok {T : Word w} (ok : Good T) (mp b : Bytes) (hr : readBytes mp 0 (blockBytes w) = .ok b) (m : List (List (BitVec w)))
    (hm : m.length = T.NS + 1) (hrow : ∀ row ∈ m, row.length = 16) :
    Locals.Lsh.msgexpand T mp m = .ok (msgexpand T b) ∧ (msgexpand T b).length = T.NS + 1 ∧ ∀ row ∈ msgexpand T b, row.length = 16 := by
  obtain ⟨-, -, -, -, h2, h6⟩ := id ok
  have l1 : ((T.loads 32 b).take 16).length = 16 := by rw [List.length_take, h6]; rfl
  have l2 : ((T.loads 32 b).drop 16).length = 16 := by rw [List.length_drop, h6]
  obtain ⟨F, e, f0, fr⟩ := expand_rec (d := ([] : List (BitVec w)))
    (fun W i => (List.range 16).map fun l => (W.getD (i - 1) []).getD l 0 + (W.getD (i - 2) []).getD (tauIdx.getD l 0) 0)
    (fun F i => (List.range 16).map fun l => (F (i - 1)).getD l 0 + (F (i - 2)).getD (tauIdx.getD l 0) 0) 2 (T.NS + 1) (by omega)
    [(T.loads 32 b).take 16, (T.loads 32 b).drop 16] rfl (by
      intro F t h1 h2
      rw [getD_map_range _ _ _ _ (by omega), getD_map_range _ _ _ _ (by omega)])
  have em : msgexpand T b = (List.range (T.NS + 1)).map F := e
  have fl : ∀ j, j < T.NS + 1 → (F j).length = 16 := by
    intro j hj
    rcases Nat.lt_or_ge j 2 with h | h
    · rw [f0 j h]
      rcases (by omega : j = 0 ∨ j = 1) with rfl | rfl
      · exact l1
      · exact l2
    · rw [fr j h hj, List.length_map, List.length_range]
  refine ⟨?_, by rw [em, List.length_map, List.length_range], ?_⟩
  · unfold Locals.Lsh.msgexpand
    rw [copyRows_ok ok mp b hr m hm hrow, ok_then]
    have hr' := rows_set (rows_set hrow 0 _ l1) 1 _ l2
    obtain ⟨x, e1, hx, hv, -⟩ := fill_upd ([] : List (BitVec w)) F (T.NS + 1) 2 (T.NS + 1) (by omega) (Nat.le_refl _) Locals.Lsh.expandRow
      ((m.set 0 ((T.loads 32 b).take 16)).set 1 ((T.loads 32 b).drop 16)) (by rw [List.length_set, List.length_set, hm]) (by
        intro j hj
        rw [f0 j hj]
        rcases (by omega : j = 0 ∨ j = 1) with rfl | rfl
        · rw [getD_set, if_neg (by omega), getD_set, if_pos ⟨rfl, by omega⟩]
          rfl
        · rw [getD_set, if_pos ⟨rfl, by rw [List.length_set]; omega⟩]
          rfl) (by
        intro t x h1 h2 hl hv hrest
        rw [expandRow_ok t x h1 (by omega) (fun j hj => ?_), fr t h1 h2, hv _ (by omega), hv _ (by omega)]
        rcases Nat.lt_or_ge j t with h | h
        · rw [hv j h]; exact fl j (by omega)
        · rw [hrest j h]
          exact hr' _ (Skein.getD_mem _ j [] (by rw [List.length_set, List.length_set]; omega)))
    rw [e1, em, ← map_range_getD x [] (T.NS + 1) hx]
    exact congrArg _ (List.map_congr_left fun j hj => hv j (List.mem_range.1 hj))
  · rw [em]
    intro row hrow
    obtain ⟨j, hj, rfl⟩ := List.mem_map.1 hrow
    exact fl j (List.mem_range.1 hj)

theorem addmixC_ok {T : Word w} (ok : Good T) (rot : Rot w) (i : Nat) (hi : i < T.NS) (ra rb : BitVec w → BitVec w) (cv : List (BitVec w)) (hcv : cv.length = 16)
    (m : List (List (BitVec w))) (hm : i < m.length) (hrow : (m.getD i []).length = 16) (l : Nat) (hl : l < 8) (t : List (BitVec w)) (ht : t.length = 16) :
    Locals.Lsh.addmixC rot T i ra rb cv m l t =
      (addmix rot cv (m.getD i []) ((T.SC.getD i []).getD l 0) ra rb (T.G.getD l 0) l >>= fun xy => .ok ((t.set l xy.1).set (l + 8) xy.2)) := by
  obtain ⟨h1, h2, h3, -⟩ := ok
  have hs := h2 _ (Skein.getD_mem T.SC i [] (by omega))
  unfold Locals.Lsh.addmixC Locals.Lsh.addmix addmix
  rw [rd_ok [] (by omega), ok_then, rd_ok 0 (by omega), ok_then, rd_ok 0 (by omega), ok_then, rd_ok 0 (by omega), ok_then, rd_ok [] hm, ok_then,
    rd_ok 0 (by omega), ok_then]
  dsimp only
  rw [rd_ok 0 (by omega), ok_then, ok_then, rd_ok 0 (by omega), ok_then, wr_ok _ (by omega), ok_then]
  generalize rot _ _ = z
  cases z with
  | error e => rfl
  | ok z =>
    rw [ok_then, wr_ok _ (by rw [List.length_set]; omega)]
    rfl

theorem len16 {α : Type} {l : List α} (h : l.length = 16) : ∃ a0 a1 a2 a3 a4 a5 a6 a7 a8 a9 a10 a11 a12 a13 a14 a15,
    l = [a0, a1, a2, a3, a4, a5, a6, a7, a8, a9, a10, a11, a12, a13, a14, a15] := by
  match l, h with
  | [a0, a1, a2, a3, a4, a5, a6, a7, a8, a9, a10, a11, a12, a13, a14, a15], _ => exact ⟨a0, a1, a2, a3, a4, a5, a6, a7, a8, a9, a10, a11, a12, a13, a14, a15, rfl⟩

theorem range8_mapM {α : Type} (g : Nat → M α) : (List.range 8).mapM g = (do
    let x0 ← g 0
    let x1 ← g 1
    let x2 ← g 2
    let x3 ← g 3
    let x4 ← g 4
    let x5 ← g 5
    let x6 ← g 6
    let x7 ← g 7
    pure [x0, x1, x2, x3, x4, x5, x6, x7]) := by
  have : List.range 8 = [0, 1, 2, 3, 4, 5, 6, 7] := by decide
  rw [this]
  simp only [List.mapM_cons, List.mapM_nil, bind_assoc, pure_bind]

theorem permute_ok (t cv : List (BitVec w)) (ht : t.length = 16) (hcv : cv.length = 16) : Locals.Lsh.permute t cv = .ok (permIdx.map fun k => t.getD k 0) := by
  obtain ⟨a0, a1, a2, a3, a4, a5, a6, a7, a8, a9, a10, a11, a12, a13, a14, a15, rfl⟩ := len16 ht
  obtain ⟨c0, c1, c2, c3, c4, c5, c6, c7, c8, c9, c10, c11, c12, c13, c14, c15, rfl⟩ := len16 hcv
  rfl

theorem step_eq {T : Word w} (ok : Good T) (rot : Rot w) (i : Nat) (hi : i < T.NS) (ra rb : BitVec w → BitVec w) (h : St w) (hh : Locals.Lsh.Sized T h) :
    Locals.Lsh.step rot T i ra rb h = step rot T i ra rb h ∧ ∀ h', step rot T i ra rb h = .ok h' → Locals.Lsh.Sized T h' := by
  obtain ⟨s1, s2, s3, s4⟩ := hh
  have hr := s4 _ (Skein.getD_mem h.msgexp i [] (by omega))
  have A := addmixC_ok ok rot i hi ra rb h.cv s1 h.msgexp (by omega) hr
  unfold Locals.Lsh.step step
  revert A
  generalize hg : (fun l => addmix rot h.cv (h.msgexp.getD i []) ((T.SC.getD i []).getD l 0) ra rb (T.G.getD l 0) l) = g
  rw [range8_mapM]
  intro A
  have A' : ∀ l, l < 8 → ∀ t : List (BitVec w), t.length = 16 →
      Locals.Lsh.addmixC rot T i ra rb h.cv h.msgexp l t = (g l >>= fun xy => .ok ((t.set l xy.1).set (l + 8) xy.2)) := by
    intro l hl t ht
    rw [A l hl t ht, ← hg]
  clear A hg
  have L : ∀ (t : List (BitVec w)) a x b y, t.length = 16 → ((t.set a x).set b y).length = 16 := fun t a x b y ht => by rw [List.length_set, List.length_set, ht]
  have key : ∀ (c : M (List (BitVec w))) (a : M (List (BitVec w × BitVec w))), c = (do
      let t ← Locals.Lsh.addmixC rot T i ra rb h.cv h.msgexp 0 h.t
      let t ← Locals.Lsh.addmixC rot T i ra rb h.cv h.msgexp 1 t
      let t ← Locals.Lsh.addmixC rot T i ra rb h.cv h.msgexp 2 t
      let t ← Locals.Lsh.addmixC rot T i ra rb h.cv h.msgexp 3 t
      let t ← Locals.Lsh.addmixC rot T i ra rb h.cv h.msgexp 4 t
      let t ← Locals.Lsh.addmixC rot T i ra rb h.cv h.msgexp 5 t
      let t ← Locals.Lsh.addmixC rot T i ra rb h.cv h.msgexp 6 t
      Locals.Lsh.addmixC rot T i ra rb h.cv h.msgexp 7 t) → a = (do
      let x0 ← g 0
      let x1 ← g 1
      let x2 ← g 2
      let x3 ← g 3
      let x4 ← g 4
      let x5 ← g 5
      let x6 ← g 6
      let x7 ← g 7
      pure [x0, x1, x2, x3, x4, x5, x6, x7] : M (List (BitVec w × BitVec w))) →
      (∃ e, a = .error e ∧ c = .error e) ∨ ∃ xy, xy.length = 8 ∧ a = .ok xy ∧ c = .ok (xy.map Prod.fst ++ xy.map Prod.snd) := by
    intro c a hc ha
    obtain ⟨a0, a1, a2, a3, a4, a5, a6, a7, a8, a9, a10, a11, a12, a13, a14, a15, e⟩ := len16 s2
    rw [e, A' 0 (by omega) _ rfl] at hc
    cases hg0 : g 0 with
    | error e => rw [hg0] at hc ha; exact .inl ⟨e, ha, hc⟩
    | ok x0 =>
    rw [hg0, ok_then, ok_then, A' 1 (by omega) _ rfl] at hc
    rw [hg0, ok_then] at ha
    cases hg1 : g 1 with
    | error e => rw [hg1] at hc ha; exact .inl ⟨e, ha, hc⟩
    | ok x1 =>
    rw [hg1, ok_then, ok_then, A' 2 (by omega) _ rfl] at hc
    rw [hg1, ok_then] at ha
    cases hg2 : g 2 with
    | error e => rw [hg2] at hc ha; exact .inl ⟨e, ha, hc⟩
    | ok x2 =>
    rw [hg2, ok_then, ok_then, A' 3 (by omega) _ rfl] at hc
    rw [hg2, ok_then] at ha
    cases hg3 : g 3 with
    | error e => rw [hg3] at hc ha; exact .inl ⟨e, ha, hc⟩
    | ok x3 =>
    rw [hg3, ok_then, ok_then, A' 4 (by omega) _ rfl] at hc
    rw [hg3, ok_then] at ha
    cases hg4 : g 4 with
    | error e => rw [hg4] at hc ha; exact .inl ⟨e, ha, hc⟩
    | ok x4 =>
    rw [hg4, ok_then, ok_then, A' 5 (by omega) _ rfl] at hc
    rw [hg4, ok_then] at ha
    cases hg5 : g 5 with
    | error e => rw [hg5] at hc ha; exact .inl ⟨e, ha, hc⟩
    | ok x5 =>
    rw [hg5, ok_then, ok_then, A' 6 (by omega) _ rfl] at hc
    rw [hg5, ok_then] at ha
    cases hg6 : g 6 with
    | error e => rw [hg6] at hc ha; exact .inl ⟨e, ha, hc⟩
    | ok x6 =>
    rw [hg6, ok_then, ok_then, A' 7 (by omega) _ rfl] at hc
    rw [hg6, ok_then] at ha
    cases hg7 : g 7 with
    | error e => rw [hg7] at hc ha; exact .inl ⟨e, ha, hc⟩
    | ok x7 =>
    rw [hg7, ok_then] at hc
    rw [hg7, ok_then] at ha
    exact .inr ⟨_, rfl, ha, hc⟩
  specialize key _ _ rfl rfl
  revert key
  generalize (do
      let x0 ← g 0
      let x1 ← g 1
      let x2 ← g 2
      let x3 ← g 3
      let x4 ← g 4
      let x5 ← g 5
      let x6 ← g 6
      let x7 ← g 7
      pure [x0, x1, x2, x3, x4, x5, x6, x7] : M (List (BitVec w × BitVec w))) = a
  intro key
  have shape : ∀ K : List (BitVec w) → M (St w), (do
      let t ← Locals.Lsh.addmixC rot T i ra rb h.cv h.msgexp 0 h.t
      let t ← Locals.Lsh.addmixC rot T i ra rb h.cv h.msgexp 1 t
      let t ← Locals.Lsh.addmixC rot T i ra rb h.cv h.msgexp 2 t
      let t ← Locals.Lsh.addmixC rot T i ra rb h.cv h.msgexp 3 t
      let t ← Locals.Lsh.addmixC rot T i ra rb h.cv h.msgexp 4 t
      let t ← Locals.Lsh.addmixC rot T i ra rb h.cv h.msgexp 5 t
      let t ← Locals.Lsh.addmixC rot T i ra rb h.cv h.msgexp 6 t
      let t ← Locals.Lsh.addmixC rot T i ra rb h.cv h.msgexp 7 t
      K t) = (do
      let t ← Locals.Lsh.addmixC rot T i ra rb h.cv h.msgexp 0 h.t
      let t ← Locals.Lsh.addmixC rot T i ra rb h.cv h.msgexp 1 t
      let t ← Locals.Lsh.addmixC rot T i ra rb h.cv h.msgexp 2 t
      let t ← Locals.Lsh.addmixC rot T i ra rb h.cv h.msgexp 3 t
      let t ← Locals.Lsh.addmixC rot T i ra rb h.cv h.msgexp 4 t
      let t ← Locals.Lsh.addmixC rot T i ra rb h.cv h.msgexp 5 t
      let t ← Locals.Lsh.addmixC rot T i ra rb h.cv h.msgexp 6 t
      Locals.Lsh.addmixC rot T i ra rb h.cv h.msgexp 7 t) >>= K := fun K => by simp only [bind_assoc]
  rw [shape]
  rcases key with ⟨e, ha, hc⟩ | ⟨xy, hxy, ha, hc⟩
  · rw [hc, ha]
    exact ⟨rfl, nofun⟩
  · have ht : (xy.map Prod.fst ++ xy.map Prod.snd).length = 16 := by rw [List.length_append, List.length_map, List.length_map, hxy]
    rw [hc, ha, ok_then, ok_then, permute_ok _ _ ht s1, ok_then]
    refine ⟨rfl, fun h' e => ?_⟩
    cases e
    exact ⟨rfl, ht, s3, s4⟩

theorem block_eq {T : Word w} (ok : Good T) (rot : Rot w) (mp b : Bytes) (hr : readBytes mp 0 (blockBytes w) = .ok b) (h : St w) (hh : Locals.Lsh.Sized T h) :
    Locals.Lsh.block rot T mp h = compress rot T b h ∧ ∀ h', compress rot T b h = .ok h' → Locals.Lsh.Sized T h' := by
  obtain ⟨s1, s2, s3, s4⟩ := hh
  obtain ⟨e, m1, m2⟩ := msgexpand_ok ok mp b hr h.msgexp s3 s4
  obtain ⟨-, -, -, h4, -⟩ := id ok
  unfold Locals.Lsh.block compress
  rw [e, ok_then]
  dsimp only
  have body : ∀ k, k < T.NS / 2 → ∀ h : St w, Locals.Lsh.Sized T h → (do
        let h ← Locals.Lsh.step rot T (2 * k) T.rot0 T.rot1 h
        Locals.Lsh.step rot T (2 * k + 1) T.rot2 T.rot3 h) = (do
        let h ← step rot T (2 * k) T.rot0 T.rot1 h
        step rot T (2 * k + 1) T.rot2 T.rot3 h) ∧ ∀ h', (do
        let h ← step rot T (2 * k) T.rot0 T.rot1 h
        step rot T (2 * k + 1) T.rot2 T.rot3 h) = .ok h' → Locals.Lsh.Sized T h' := by
    intro k hk h hh
    obtain ⟨e1, p1⟩ := step_eq ok rot (2 * k) (by omega) T.rot0 T.rot1 h hh
    rw [e1]
    cases hz : step rot T (2 * k) T.rot0 T.rot1 h with
    | error e => exact ⟨rfl, nofun⟩
    | ok z => exact step_eq ok rot (2 * k + 1) (by omega) T.rot2 T.rot3 z (p1 z hz)
  have hs0 : Locals.Lsh.Sized T { h with msgexp := msgexpand T b } := ⟨s1, s2, m1, m2⟩
  have loopEq : loop 0 (T.NS / 2) (fun k h => do
        let h ← Locals.Lsh.step rot T (2 * k) T.rot0 T.rot1 h
        Locals.Lsh.step rot T (2 * k + 1) T.rot2 T.rot3 h) { h with msgexp := msgexpand T b } =
      (List.range (T.NS / 2)).foldlM (fun h k => do
        let h ← step rot T (2 * k) T.rot0 T.rot1 h
        step rot T (2 * k + 1) T.rot2 T.rot3 h) { h with msgexp := msgexpand T b } := by
    unfold loop
    rw [Nat.sub_zero, ← List.range_eq_range']
    exact foldlM_congr _ _ (Locals.Lsh.Sized T) _ (fun k hk h hh => body k (List.mem_range.1 hk) h hh) _ hs0
  rw [loopEq]
  have pres : ∀ h', (List.range (T.NS / 2)).foldlM (fun h k => do
        let h ← step rot T (2 * k) T.rot0 T.rot1 h
        step rot T (2 * k + 1) T.rot2 T.rot3 h) { h with msgexp := msgexpand T b } = .ok h' → Locals.Lsh.Sized T h' :=
    fun h' e => Skein.foldlM_pres _ (Locals.Lsh.Sized T) _ (fun k hk h hh h' e => (body k (List.mem_range.1 hk) h hh).2 h' e) _ hs0 h' e
  cases hz : (List.range (T.NS / 2)).foldlM (fun h k => do
        let h ← step rot T (2 * k) T.rot0 T.rot1 h
        step rot T (2 * k + 1) T.rot2 T.rot3 h) { h with msgexp := msgexpand T b } with
  | error e => exact ⟨rfl, nofun⟩
  | ok z =>
    obtain ⟨z1, z2, z3, z4⟩ := pres z hz
    have hrow := z4 _ (Skein.getD_mem z.msgexp T.NS [] (by omega))
    rw [ok_then, ok_then, fill_upd_all 0 (fun i => z.cv.getD i 0 ^^^ (z.msgexp.getD T.NS []).getD i 0) 16 _ z.cv z1 (fun t x ht hx hv => by
      rw [rd_ok [] (by omega), ok_then, rd_ok 0 (by omega), ok_then, upd_ok _ 0 (by omega), hv]), ok_then]
    refine ⟨rfl, fun h' e => ?_⟩
    cases e
    exact ⟨by simp, z2, z3, z4⟩

theorem transform_eq {T : Word w} (ok : Good T) (rot : Rot w) (data : Bytes) (n : Nat) (hd : n * blockBytes w ≤ data.length) (s : Blk (St w))
    (hs : Locals.Lsh.Sized T s.h) : Locals.Lsh.transform rot T data n s = Lsh.transform rot T data n s := by
  unfold Locals.Lsh.transform Lsh.transform
  rw [blocks_eq (blockBytes w) data n hd (Locals.Lsh.Sized T) _ (fun _ b h => compress rot T b h) ?_ _ hs]
  intro blk b h hblk hr _ hh
  refine block_eq ok rot _ b ?_ h hh
  rw [← hr, Nat.mul_comm]
  unfold readBytes
  rw [List.length_drop, List.drop_zero]
  have := Nat.mul_le_mul_right (blockBytes w) (show blk + 1 ≤ n by omega)
  rw [Nat.succ_mul] at this
  rw [if_pos (by omega), if_pos (by omega)]

end Digestpp.Proofs.Locals.Lsh
