import Verif.Model.Locals.Groestl
import Verif.Proofs.Locals.Skein

/-! C58, Grøstl and Kupyna. -/

namespace Digestpp.Proofs.Locals
open Model
open Model.Locals (look cell mix PRound PQ fillPQ stepPQ)

/-- Eight tables of 256 elements. -/
def Tables (T : List (List (BitVec 64))) : Prop := T.length = 8 ∧ ∀ row ∈ T, row.length = 256

theorem tables_ok (T : List (List (BitVec 64))) (h : T.length = 8) (h2 : T.all (fun row => row.length == 256) = true) : Tables T :=
  ⟨h, by simpa only [List.all_eq_true, beq_iff_eq] using h2⟩

theorem look_ok {T : List (List (BitVec 64))} (ok : Tables T) (x : List (BitVec 64)) (i j : Nat) (hi : i < 8) (hj : j < x.length) :
    look T x i j = .ok ((T.getD i []).getD ((x.getD j 0 >>> (8 * i)).setWidth 8).toNat 0) := by
  obtain ⟨h1, h2⟩ := ok
  have hb : ((x.getD j 0 >>> (8 * i)).setWidth 8).toNat < 256 := ((x.getD j 0 >>> (8 * i)).setWidth 8).isLt
  have hr := h2 _ (Skein.getD_mem T i [] (by omega))
  unfold look
  rw [rd_ok [] (by omega), ok_then, rd_ok 0 hj, ok_then, rd_ok 0 (by omega)]

theorem cell_ok {T : List (List (BitVec 64))} (ok : Tables T) (x : List (BitVec 64)) (R : Nat) (hx : x.length = R) (hR : 0 < R) (j0 j1 j2 j3 j4 j5 j6 j7 : Nat) :
    cell T x (j0 % R) (j1 % R) (j2 % R) (j3 % R) (j4 % R) (j5 % R) (j6 % R) (j7 % R) =
      .ok ((T.getD 0 []).getD ((x.getD (j0 % R) 0 >>> (8 * 0)).setWidth 8).toNat 0 ^^^ (T.getD 1 []).getD ((x.getD (j1 % R) 0 >>> (8 * 1)).setWidth 8).toNat 0 ^^^
        (T.getD 2 []).getD ((x.getD (j2 % R) 0 >>> (8 * 2)).setWidth 8).toNat 0 ^^^ (T.getD 3 []).getD ((x.getD (j3 % R) 0 >>> (8 * 3)).setWidth 8).toNat 0 ^^^
        (T.getD 4 []).getD ((x.getD (j4 % R) 0 >>> (8 * 4)).setWidth 8).toNat 0 ^^^ (T.getD 5 []).getD ((x.getD (j5 % R) 0 >>> (8 * 5)).setWidth 8).toNat 0 ^^^
        (T.getD 6 []).getD ((x.getD (j6 % R) 0 >>> (8 * 6)).setWidth 8).toNat 0 ^^^ (T.getD 7 []).getD ((x.getD (j7 % R) 0 >>> (8 * 7)).setWidth 8).toNat 0) := by
  have m : ∀ j, j % R < x.length := fun j => by rw [hx]; exact Nat.mod_lt _ hR
  unfold cell
  rw [look_ok ok x 0 _ (by omega) (m _), ok_then, look_ok ok x 1 _ (by omega) (m _), ok_then, look_ok ok x 2 _ (by omega) (m _), ok_then,
    look_ok ok x 3 _ (by omega) (m _), ok_then, look_ok ok x 4 _ (by omega) (m _), ok_then, look_ok ok x 5 _ (by omega) (m _), ok_then,
    look_ok ok x 6 _ (by omega) (m _), ok_then, look_ok ok x 7 _ (by omega) (m _), ok_then]
  rfl

theorem mix_ok (R : Nat) (f : Nat → BitVec 64 → BitVec 64) (x : List (BitVec 64)) (hx : x.length = R) :
    mix R f x = .ok ((List.range R).map fun idx => f idx (x.getD idx 0)) :=
  fill_upd_all 0 _ R _ x hx fun t b ht hb h => by rw [upd_ok _ 0 (by omega), h]

/-- A round with arrays of `R` words computes `f`. -/
def Rounds (R : Nat) (P : PRound) (f : List (BitVec 64) → BitVec 64 → List (BitVec 64)) : Prop :=
  ∀ x y i, x.length = R → y.length = R → ∃ x', P x y i = .ok (x', f x i) ∧ x'.length = R ∧ (f x i).length = R

theorem fillPQ_ok (R : Nat) (h : List (BitVec 64)) (hh : R ≤ h.length) (mp b : Bytes) (hm : ∀ c, c < R → rd64 mp c = .ok ((loads64 R b).getD c 0)) (k : PQ)
    (hk : k.Sized R) :
    fillPQ R h mp k = .ok { k with AP1 := (List.range R).map fun c => h.getD c 0 ^^^ (loads64 R b).getD c 0, AQ1 := (List.range R).map fun c => (loads64 R b).getD c 0 } := by
  obtain ⟨k1, k2, k3, k4⟩ := hk
  let p : Nat → BitVec 64 := fun c => h.getD c 0 ^^^ (loads64 R b).getD c 0
  let q : Nat → BitVec 64 := fun c => (loads64 R b).getD c 0
  have set_inv : ∀ (v : Nat → BitVec 64) (a : List (BitVec 64)) (t : Nat), (∀ j, j < t → a.getD j 0 = v j) → t < a.length → ∀ j, j < t + 1 → (a.set t (v t)).getD j 0 = v j := by
    intro v a t ha ht j hj
    rw [getD_set]
    split
    · rename_i h; rw [h.1]
    · exact ha j (by omega)
  obtain ⟨e, i1, i2, i3, i4, i5, i6⟩ := loop_eq (fun (k : PQ) t => { k with AP1 := k.AP1.set t (p t), AQ1 := k.AQ1.set t (q t) })
    (fun t (x : PQ) => x.AP1.length = R ∧ x.AQ1.length = R ∧ x.AP2 = k.AP2 ∧ x.AQ2 = k.AQ2 ∧ (∀ j, j < t → x.AP1.getD j 0 = p j) ∧
      ∀ j, j < t → x.AQ1.getD j 0 = q j) 0 R (by omega)
    (fun column k => do
      let x ← rd h column
      let y ← rd64 mp column
      let AP1 ← wr k.AP1 column (x ^^^ y)
      let y ← rd64 mp column
      let AQ1 ← wr k.AQ1 column y
      pure { k with AP1 := AP1, AQ1 := AQ1 }) k ⟨k3, k1, rfl, rfl, by omega, by omega⟩ (by
      intro t x _ ht ⟨h1, h2, h3, h4, h5, h6⟩
      constructor
      · rw [rd_ok 0 (by omega), ok_then, hm t ht, ok_then, wr_ok _ (by omega), ok_then, ok_then, wr_ok _ (by omega)]
        rfl
      · exact ⟨by rw [List.length_set, h1], by rw [List.length_set, h2], h3, h4, set_inv p _ t h5 (by omega), set_inv q _ t h6 (by omega)⟩)
  refine Eq.trans e ?_
  generalize (List.range' 0 (R - 0)).foldl (fun (k : PQ) t => { k with AP1 := k.AP1.set t (p t), AQ1 := k.AQ1.set t (q t) }) k = z at i1 i2 i3 i4 i5 i6
  obtain ⟨q1, q2, p1, p2⟩ := z
  dsimp only at i1 i2 i3 i4 i5 i6
  subst i3 i4
  have ep : p1 = (List.range R).map p := by
    rw [← map_range_getD p1 0 R i1]
    exact List.map_congr_left fun j hj => i5 j (List.mem_range.1 hj)
  have eq : q1 = (List.range R).map q := by
    rw [← map_range_getD q1 0 R i2]
    exact List.map_congr_left fun j hj => i6 j (List.mem_range.1 hj)
  rw [ep, eq]

theorem stepPQ_ok {R : Nat} {P Q : PRound} {fP fQ : List (BitVec 64) → BitVec 64 → List (BitVec 64)} (hP : Rounds R P fP) (hQ : Rounds R Q fQ)
    (qarg : BitVec 64 → BitVec 64) (r : BitVec 64) (k : PQ) (hk : k.Sized R) :
    ∃ a b, stepPQ P Q qarg r k = .ok ⟨fQ (fQ k.AQ1 (qarg r)) (qarg (r + 1)), a, fP (fP k.AP1 r) (r + 1), b⟩ ∧
      PQ.Sized R ⟨fQ (fQ k.AQ1 (qarg r)) (qarg (r + 1)), a, fP (fP k.AP1 r) (r + 1), b⟩ := by
  obtain ⟨k1, k2, k3, k4⟩ := hk
  obtain ⟨x1, e1, l1, m1⟩ := hP k.AP1 k.AP2 r k3 k4
  obtain ⟨x2, e2, l2, m2⟩ := hP (fP k.AP1 r) x1 (r + 1) m1 l1
  obtain ⟨x3, e3, l3, m3⟩ := hQ k.AQ1 k.AQ2 (qarg r) k1 k2
  obtain ⟨x4, e4, l4, m4⟩ := hQ (fQ k.AQ1 (qarg r)) x3 (qarg (r + 1)) m3 l3
  refine ⟨x4, x2, ?_, m4, l4, m2, l2⟩
  unfold stepPQ
  rw [e1, ok_then]
  dsimp only
  rw [e2, ok_then]
  dsimp only
  rw [e3, ok_then]
  dsimp only
  rw [e4, ok_then]
  rfl

theorem compress_ok {R : Nat} (its : Nat) {P Q : PRound} {fP fQ : List (BitVec 64) → BitVec 64 → List (BitVec 64)} (hP : Rounds R P fP) (hQ : Rounds R Q fQ)
    (qarg : BitVec 64 → BitVec 64) (k : PQ) (hk : k.Sized R) (h : List (BitVec 64)) (hl : h.length = 16) (hR : R ≤ 16) (mp b : Bytes)
    (hm : ∀ c, c < R → rd64 mp c = .ok ((loads64 R b).getD c 0)) (pq : List (BitVec 64) × List (BitVec 64))
    (hpq : pq = (List.range its).foldl (fun x t => (fP (fP x.1 (BitVec.ofNat 64 (2 * t))) (BitVec.ofNat 64 (2 * t) + 1),
      fQ (fQ x.2 (qarg (BitVec.ofNat 64 (2 * t)))) (qarg (BitVec.ofNat 64 (2 * t) + 1))))
        ((List.range R).map fun c => h.getD c 0 ^^^ (loads64 R b).getD c 0, (List.range R).map fun c => (loads64 R b).getD c 0)) :
    Locals.compress R its P Q qarg k h mp = .ok (((List.range R).map fun c => pq.1.getD c 0 ^^^ pq.2.getD c 0 ^^^ h.getD c 0) ++ h.drop R) := by
  unfold Locals.compress
  rw [fillPQ_ok R h (by omega) mp b hm k hk, ok_then]
  have main : ∃ a c, loop 0 its (fun t k => stepPQ P Q qarg (BitVec.ofNat 64 (2 * t)) k)
      { k with AP1 := (List.range R).map fun c => h.getD c 0 ^^^ (loads64 R b).getD c 0, AQ1 := (List.range R).map fun c => (loads64 R b).getD c 0 } =
        .ok ⟨pq.2, a, pq.1, c⟩ ∧ PQ.Sized R ⟨pq.2, a, pq.1, c⟩ := by
    rw [hpq]
    unfold loop
    rw [Nat.sub_zero, ← List.range_eq_range']
    obtain ⟨k1, k2, k3, k4⟩ := hk
    have hs : PQ.Sized R { k with AP1 := (List.range R).map fun c => h.getD c 0 ^^^ (loads64 R b).getD c 0, AQ1 := (List.range R).map fun c => (loads64 R b).getD c 0 } :=
      ⟨by simp, k2, by simp, k4⟩
    revert hs
    generalize ((List.range R).map fun c => h.getD c 0 ^^^ (loads64 R b).getD c 0) = p0
    generalize ((List.range R).map fun c => (loads64 R b).getD c 0) = q0
    generalize k.AP2 = p2
    generalize k.AQ2 = q2
    generalize List.range its = l
    induction l generalizing p0 q0 p2 q2 with
    | nil => exact fun hs => ⟨_, _, rfl, hs⟩
    | cons t l ih =>
      intro hs
      obtain ⟨a, c, e, s'⟩ := stepPQ_ok hP hQ qarg (BitVec.ofNat 64 (2 * t)) _ hs
      rw [List.foldlM_cons]
      dsimp only
      rw [e, ok_then]
      exact ih _ _ _ _ s'
  obtain ⟨a, c, e, s1, s2, s3, s4⟩ := main
  rw [e, ok_then]
  dsimp only at s1 s3
  refine fill_upd_drop 0 _ 16 R hR _ h hl fun t x ht hx hv => ?_
  rw [rd_ok 0 (by show t < pq.1.length; omega), ok_then, rd_ok 0 (by show t < pq.2.length; omega), ok_then, rd_ok 0 (by omega), ok_then, wr_ok _ (by omega), hv]

theorem output_ok {R : Nat} (its : Nat) {P : PRound} {fP : List (BitVec 64) → BitVec 64 → List (BitVec 64)} (hP : Rounds R P fP)
    (t1 t2 h : List (BitVec 64)) (h1 : t1.length = R) (h2 : t2.length = R) (hl : h.length = 16) (hR : R ≤ 16) (p : List (BitVec 64))
    (hp : p = (List.range its).foldl (fun x t => fP (fP x (BitVec.ofNat 64 (2 * t))) (BitVec.ofNat 64 (2 * t) + 1)) (h.take R)) :
    Locals.outputTransform R its P t1 t2 h = .ok (((List.range R).map fun c => h.getD c 0 ^^^ p.getD c 0) ++ h.drop R) := by
  unfold Locals.outputTransform
  have e0 : loop 0 R (fun column t1 => do
      let x ← rd h column
      wr t1 column x) t1 = .ok (h.take R) := by
    have : h.take R = (List.range R).map fun c => h.getD c 0 := by
      rw [← map_range_getD (h.take R) 0 R (by rw [List.length_take]; omega)]
      refine List.map_congr_left fun j hj => ?_
      rw [List.getD_eq_getElem?_getD, List.getElem?_take, if_pos (List.mem_range.1 hj), ← List.getD_eq_getElem?_getD]
    rw [this]
    refine fill_all 0 _ R 0 (by omega) _ _ h1 (by omega) fun t a _ ht ha _ => ?_
    rw [rd_ok 0 (by omega), ok_then, wr_ok _ (by omega)]
  rw [e0, ok_then]
  have main : ∃ a, loop 0 its (fun t (k : List (BitVec 64) × List (BitVec 64)) => do
      let r := BitVec.ofNat 64 (2 * t)
      let (t1, t2) ← P k.1 k.2 r
      let (t2, t1) ← P t2 t1 (r + 1)
      pure (t1, t2)) (h.take R, t2) = .ok (p, a) ∧ p.length = R := by
    rw [hp]
    unfold loop
    rw [Nat.sub_zero, ← List.range_eq_range']
    have hs : (h.take R).length = R := by rw [List.length_take]; omega
    revert hs h2
    generalize h.take R = x
    generalize List.range its = l
    induction l generalizing x t2 with
    | nil => exact fun _ hs => ⟨_, rfl, hs⟩
    | cons t l ih =>
      intro h2 hs
      obtain ⟨x1, e1, l1, m1⟩ := hP x t2 (BitVec.ofNat 64 (2 * t)) hs h2
      obtain ⟨x2, e2, l2, m2⟩ := hP _ x1 (BitVec.ofNat 64 (2 * t) + 1) m1 l1
      rw [List.foldlM_cons]
      dsimp only
      rw [e1, ok_then]
      dsimp only
      rw [e2, ok_then]
      exact ih _ _ l2 m2
  obtain ⟨a, e, hpl⟩ := main
  rw [e, ok_then]
  refine fill_upd_drop 0 _ 16 R hR _ h hl fun t x ht hx hv => ?_
  rw [rd_ok 0 (by show t < p.length; omega), ok_then, upd_ok _ 0 (by omega), hv]

namespace Groestl
open Model.Groestl

theorem T_ok : Tables groestl_T := tables_ok _ (by decide +kernel) (by decide +kernel)

theorem roundP_ok (R : Nat) (hR : 0 < R) : Rounds R (Locals.Groestl.roundP R) (roundP R) := by
  intro x y i hx hy
  refine ⟨(List.range R).map fun idx => x.getD idx 0 ^^^ ((BitVec.ofNat 64 idx <<< 4) ^^^ i), ?_, by simp, by simp [roundP, lookups]⟩
  unfold Locals.Groestl.roundP
  rw [mix_ok R _ x hx, ok_then]
  unfold Locals.Groestl.lookups
  rw [fill_down 0 _ R _ y hy fun t b ht hb => by rw [cell_ok T_ok _ R (by simp) hR, ok_then, wr_ok _ (by omega)]]
  rfl

theorem roundQ_ok (R : Nat) (hR : 0 < R) : Rounds R (Locals.Groestl.roundQ R) (roundQ R) := by
  intro x y i hx hy
  refine ⟨(List.range R).map fun idx => x.getD idx 0 ^^^ ((0xffffffffffffffff - (BitVec.ofNat 64 idx <<< 60)) ^^^ i), ?_, by simp, by simp [roundQ, lookups]⟩
  unfold Locals.Groestl.roundQ
  rw [mix_ok R _ x hx, ok_then]
  unfold Locals.Groestl.lookups
  rw [fill_down 0 _ R _ y hy fun t b ht hb => by rw [cell_ok T_ok _ R (by simp) hR, ok_then, wr_ok _ (by omega)]]
  rfl

theorem cols_cases (hs : Nat) : (cols hs = 16 ∨ cols hs = 8) ∧ blockBytes hs = 8 * cols hs := by
  unfold cols blockBytes
  split <;> simp

theorem transform_eq (k : Nat → PQ) (data : Bytes) (n : Nat) (s : Blk St) (hk : ∀ i, (k i).Sized (cols s.h.hs))
    (hd : n * blockBytes s.h.hs ≤ data.length) (hs : s.h.h.length = 16) : Locals.Groestl.transform k data n s = Groestl.transform data n s := by
  unfold Locals.Groestl.transform Groestl.transform
  obtain ⟨hc, hb⟩ := cols_cases s.h.hs
  have hR : 0 < cols s.h.hs ∧ cols s.h.hs ≤ 16 := by omega
  rw [blocks_eq (blockBytes s.h.hs) data n hd (fun h : List (BitVec 64) => h.length = 16) _
    (fun _ b h => pure (compress (cols s.h.hs) h (loads64 (cols s.h.hs) b))) ?_ _ hs]
  · have L : forBlocks (blockBytes s.h.hs) data n (fun _ b (h : St) => pure { h with h := compress (cols h.hs) h.h (loads64 (cols h.hs) b) }) s.h =
        (forBlocks (blockBytes s.h.hs) data n (fun _ b h => pure (compress (cols s.h.hs) h (loads64 (cols s.h.hs) b))) s.h.h >>= fun y => pure (St.mk y s.h.hs)) :=
      forBlocks_lens (blockBytes s.h.hs) data n _ _ (fun h => St.mk h s.h.hs) (fun _ _ _ => rfl) s.h.h
    rw [L]
    cases forBlocks (blockBytes s.h.hs) data n (fun _ b h => pure (compress (cols s.h.hs) h (loads64 (cols s.h.hs) b))) s.h.h <;> rfl
  · intro blk b h _ hr _ hh
    refine ⟨?_, fun h' e => ?_⟩
    · exact compress_ok (iterations (cols s.h.hs)) (roundP_ok _ hR.1) (roundQ_ok _ hR.1) (· <<< 56) (k blk) (hk blk) h hh hR.2 _ b
        (fun c hc => by rw [Nat.mul_comm]; exact rd64_drop hr (by omega) _ hc) _ rfl
    · cases e
      unfold compress
      rw [List.length_append, List.length_map, List.length_range, List.length_drop]
      omega

theorem outputTransform_eq (hs : Nat) (t1 t2 h : List (BitVec 64)) (h1 : t1.length = cols hs) (h2 : t2.length = cols hs) (hl : h.length = 16) :
    Locals.outputTransform (cols hs) (iterations (cols hs)) (Locals.Groestl.roundP (cols hs)) t1 t2 h = .ok (outputTransform (cols hs) h) := by
  obtain ⟨hc, hb⟩ := cols_cases hs
  exact output_ok (iterations (cols hs)) (roundP_ok _ (by omega)) t1 t2 h h1 h2 hl (by omega) _ rfl

end Groestl

namespace Kupyna
open Model.Kupyna

theorem T_ok : Tables kupyna_T := tables_ok _ (by decide +kernel) (by decide +kernel)

theorem G_ok (R : Nat) (hR : 0 < R) (x y : List (BitVec 64)) (hx : x.length = R) (hy : y.length = R) : Locals.Kupyna.G R x y = .ok (G R x) := by
  unfold Locals.Kupyna.G
  rw [fill_upd_all 0 _ R _ y hy fun t b ht hb _ => by rw [cell_ok T_ok _ R hx hR, ok_then, wr_ok _ (by omega)]]
  rfl

theorem roundP_ok (R : Nat) (hR : 0 < R) : Rounds R (Locals.Kupyna.roundP R) (roundP R) := by
  intro x y i hx hy
  refine ⟨(List.range R).map fun idx => x.getD idx 0 ^^^ ((BitVec.ofNat 64 idx <<< 4) ^^^ i), ?_, by simp, by simp [roundP, G]⟩
  unfold Locals.Kupyna.roundP
  rw [mix_ok R _ x hx, ok_then, G_ok R hR _ y (by simp) hy]
  rfl

theorem roundQ_ok (R : Nat) (hR : 0 < R) : Rounds R (Locals.Kupyna.roundQ R) (roundQ R) := by
  intro x y i hx hy
  refine ⟨(List.range R).map fun j => x.getD j 0 + (0x00F0F0F0F0F0F0F3 ^^^ (BitVec.ofNat 64 (((R - 1 - j) * 0x10) ^^^ (i.setWidth 8).toNat) <<< 56)), ?_, by simp, by simp [roundQ, G]⟩
  unfold Locals.Kupyna.roundQ
  rw [mix_ok R _ x hx, ok_then, G_ok R hR _ y (by simp) hy]
  rfl

theorem cols_cases (hs : Nat) : (cols hs = 16 ∨ cols hs = 8) ∧ blockBytes hs = 8 * cols hs := by
  unfold cols blockBytes
  split <;> simp

theorem transform_eq (k : Nat → PQ) (data : Bytes) (n : Nat) (s : Blk St) (hk : ∀ i, (k i).Sized (cols s.h.hs))
    (hd : n * blockBytes s.h.hs ≤ data.length) (hs : s.h.h.length = 16) : Locals.Kupyna.transform k data n s = Kupyna.transform data n s := by
  unfold Locals.Kupyna.transform Kupyna.transform
  obtain ⟨hc, hb⟩ := cols_cases s.h.hs
  have hR : 0 < cols s.h.hs ∧ cols s.h.hs ≤ 16 := by omega
  rw [blocks_eq (blockBytes s.h.hs) data n hd (fun h : List (BitVec 64) => h.length = 16) _
    (fun _ b h => pure (compress (cols s.h.hs) h (loads64 (cols s.h.hs) b))) ?_ _ hs]
  · have L : forBlocks (blockBytes s.h.hs) data n (fun _ b (h : St) => pure { h with h := compress (cols h.hs) h.h (loads64 (cols h.hs) b) }) s.h =
        (forBlocks (blockBytes s.h.hs) data n (fun _ b h => pure (compress (cols s.h.hs) h (loads64 (cols s.h.hs) b))) s.h.h >>= fun y => pure (St.mk y s.h.hs)) :=
      forBlocks_lens (blockBytes s.h.hs) data n _ _ (fun h => St.mk h s.h.hs) (fun _ _ _ => rfl) s.h.h
    rw [L]
    cases forBlocks (blockBytes s.h.hs) data n (fun _ b h => pure (compress (cols s.h.hs) h (loads64 (cols s.h.hs) b))) s.h.h <;> rfl
  · intro blk b h _ hr _ hh
    refine ⟨?_, fun h' e => ?_⟩
    · exact compress_ok (iterations (cols s.h.hs)) (roundP_ok _ hR.1) (roundQ_ok _ hR.1) id (k blk) (hk blk) h hh hR.2 _ b
        (fun c hc => by rw [Nat.mul_comm]; exact rd64_drop hr (by omega) _ hc) _ rfl
    · cases e
      unfold compress
      rw [List.length_append, List.length_map, List.length_range, List.length_drop]
      omega

theorem outputTransform_eq (hs : Nat) (t1 t2 h : List (BitVec 64)) (h1 : t1.length = cols hs) (h2 : t2.length = cols hs) (hl : h.length = 16) :
    Locals.outputTransform (cols hs) (iterations (cols hs)) (Locals.Kupyna.roundP (cols hs)) t1 t2 h = .ok (outputTransform (cols hs) h) := by
  obtain ⟨hc, hb⟩ := cols_cases hs
  exact output_ok (iterations (cols hs)) (roundP_ok _ (by omega)) t1 t2 h h1 h2 hl (by omega) _ rfl

end Kupyna
end Digestpp.Proofs.Locals
