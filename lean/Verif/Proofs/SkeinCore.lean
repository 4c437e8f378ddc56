import Verif.Model.Skein
import Verif.Spec.Skein
import Verif.Proofs.Words
import Verif.Proofs.Pad
import Verif.Proofs.Sched

/-! Skein: the block function. -/

namespace Digestpp.Proofs.Skein
open Model Spec
open Model.Skein (Fns St)
open Spec.Skein (Threefish mix0 mix1 mixRound subkey)

/-- Entries of the tables. -/
def idx (F : Fns) (r i : Nat) : Nat := (F.I.getD r []).getD i 0
def cnt (F : Fns) (r j : Nat) : Nat := (F.C.getD r []).getD j 0

/-- The first `n` values of a function. -/
def arr (n : Nat) (v : Nat → BitVec 64) : List (BitVec 64) := (List.range n).map v

theorem getD_arr (n : Nat) (v : Nat → BitVec 64) (i : Nat) (h : i < n) : (arr n v).getD i 0 = v i := getD_map_range v 0 n i h

theorem length_arr (n : Nat) (v : Nat → BitVec 64) : (arr n v).length = n := by simp [arr]

theorem arr_congr (n : Nat) (v u : Nat → BitVec 64) (h : ∀ i, i < n → v i = u i) : arr n v = arr n u :=
  List.map_congr_left fun i hi => h i (List.mem_range.mp hi)

theorem eq_arr (n : Nat) (G : List (BitVec 64)) (v : Nat → BitVec 64) (hl : G.length = n) (h : ∀ i, i < n → G.getD i 0 = v i) :
    G = arr n v := by
  rw [← map_range_getD G 0 n hl]
  exact arr_congr n _ _ h

/-- The tables are those of Threefish. -/
structure FOk (F : Fns) (T : Threefish) : Prop where
  nw : F.nw = T.nw
  ge : 4 ≤ T.nw
  le : T.nw ≤ 16
  even : T.nw % 2 = 0
  rounds : T.rounds = 8 * F.g8
  lt : ∀ r, r < 8 → ∀ i, i < T.nw → idx F r i < T.nw
  inj : ∀ r, r < 8 → ∀ i, i < T.nw → ∀ j, j < T.nw → idx F r i = idx F r j → i = j
  perm : ∀ i, i < T.nw → T.perm.getD i 0 < T.nw
  link : ∀ r, r < 8 → ∀ i, i < T.nw → idx F ((r + 1) % 8) i = idx F r (T.perm.getD i 0)
  id0 : ∀ i, i < T.nw → idx F 0 i = i
  id4 : ∀ i, i < T.nw → idx F 4 i = i
  rot : ∀ r, r < 8 → ∀ j, j < T.nw / 2 → cnt F r j = (T.rot.getD r []).getD j 0 ∧ 0 < cnt F r j ∧ cnt F r j < 64

theorem f4_ok : FOk Model.Skein.f4 Spec.Skein.threefish256 := by constructor <;> decide
theorem f8_ok : FOk Model.Skein.f8 Spec.Skein.threefish512 := by constructor <;> decide +kernel
theorem f16_ok : FOk Model.Skein.f16 Spec.Skein.threefish1024 := by constructor <;> decide +kernel

variable {F : Fns} {T : Threefish}

theorem pair_ok (i0 i1 c : Nat) (hc : 0 < c ∧ c < 64) (G : List (BitVec 64)) :
    Model.Skein.pair i0 i1 c G
      = .ok ((G.set i0 (mix0 (G.getD i0 0) (G.getD i1 0))).set i1 (mix1 c (G.getD i0 0) (G.getD i1 0))) := by
  unfold Model.Skein.pair
  rw [rotlChecked_eq _ _ hc, ok_bind]
  rfl

theorem getD_set {α : Type} (l : List α) (i j : Nat) (x d : α) (hi : i < l.length) :
    (l.set i x).getD j d = if j = i then x else l.getD j d := by
  simp only [List.getD_eq_getElem?_getD]
  by_cases h : j = i
  · subst h
    rw [if_pos rfl, List.getElem?_set_self hi]
    rfl
  · rw [if_neg h, List.getElem?_set_ne (fun e => h e.symm)]

/-- The value in place `i` after mixing. -/
def mixed (c : Nat → Nat) (S : Nat → BitVec 64) (i : Nat) : BitVec 64 :=
  if i % 2 = 0 then mix0 (S i) (S (i + 1)) else mix1 (c (i / 2)) (S (i - 1)) (S i)

theorem gt_fold (ok : FOk F T) (r : Nat) (hr : r < 8) (G : List (BitVec 64)) (hl : G.length = T.nw) (S : Nat → BitVec 64)
    (hS : ∀ i, i < T.nw → G.getD (idx F r i) 0 = S i) (m : Nat) (hm : 2 * m ≤ T.nw) :
    ∃ G', (List.range m).foldlM (fun G j => Model.Skein.pair (idx F r (2 * j)) (idx F r (2 * j + 1)) (cnt F r j) G) G = .ok G' ∧
      G'.length = T.nw ∧ ∀ i, i < T.nw → G'.getD (idx F r i) 0 = if i < 2 * m then mixed (cnt F r) S i else S i := by
  induction m with
  | zero => exact ⟨G, rfl, hl, fun i hi => by rw [if_neg (by omega)]; exact hS i hi⟩
  | succ m ih =>
    obtain ⟨G', e, hl', h'⟩ := ih (by omega)
    have hc := (ok.rot r hr m (by omega)).2
    have h0 := h' (2 * m) (by omega)
    have h1 := h' (2 * m + 1) (by omega)
    rw [if_neg (by omega)] at h0 h1
    have l0 := ok.lt r hr (2 * m) (by omega)
    have l1 := ok.lt r hr (2 * m + 1) (by omega)
    refine ⟨(G'.set (idx F r (2 * m)) (mix0 (S (2 * m)) (S (2 * m + 1)))).set (idx F r (2 * m + 1)) (mix1 (cnt F r m) (S (2 * m)) (S (2 * m + 1))),
      ?_, ?_, ?_⟩
    · rw [List.range_succ, List.foldlM_append, e, ok_bind, List.foldlM_cons, pair_ok _ _ _ hc, h0, h1]
      rfl
    · rw [List.length_set, List.length_set, hl']
    · intro i hi
      rw [getD_set _ _ _ _ _ (by rw [List.length_set]; omega), getD_set _ _ _ _ _ (by omega)]
      by_cases e1 : i = 2 * m + 1
      · subst e1
        rw [if_pos rfl, if_pos (by omega)]
        unfold mixed
        rw [if_neg (by omega), show (2 * m + 1) / 2 = m by omega, show 2 * m + 1 - 1 = 2 * m by omega]
      · rw [if_neg (fun h => e1 (ok.inj r hr _ hi _ (by omega) h))]
        by_cases e0 : i = 2 * m
        · subst e0
          rw [if_pos rfl, if_pos (by omega)]
          unfold mixed
          rw [if_pos (by omega)]
        · rw [if_neg (fun h => e0 (ok.inj r hr _ hi _ (by omega) h)), h' i hi]
          by_cases hlt : i < 2 * m
          · rw [if_pos hlt, if_pos (by omega)]
          · rw [if_neg hlt, if_neg (by omega)]

/-- `G` holds the words `S` of the specification in the places that row `r` of the index table gives. -/
def Rel (F : Fns) (T : Threefish) (r : Nat) (G : List (BitVec 64)) (S : Nat → BitVec 64) : Prop :=
  G.length = T.nw ∧ ∀ i, i < T.nw → G.getD (idx F r i) 0 = S i

theorem GTv4_ok (ok : FOk F T) (r : Nat) (hr : r < 8) (G : List (BitVec 64)) (S : Nat → BitVec 64) (h : Rel F T r G S) :
    ∃ G', Model.Skein.GTv4 F r G = .ok G' ∧ Rel F T ((r + 1) % 8) G' (mixRound T r S) := by
  have hev := ok.even
  obtain ⟨G', e, hl, h'⟩ := gt_fold ok r hr G h.1 S h.2 (T.nw / 2) (by omega)
  refine ⟨G', ?_, hl, ?_⟩
  · unfold Model.Skein.GTv4
    rw [ok.nw]
    exact e
  · intro i hi
    have hp := ok.perm i hi
    rw [ok.link r hr i hi, h' _ hp, if_pos (by omega)]
    unfold mixed mixRound
    rw [Nat.mod_eq_of_lt hr, (ok.rot r hr (T.perm.getD i 0 / 2) (by omega)).1]

/-- Four rounds. -/
def four (T : Threefish) (r : Nat) (S : Nat → BitVec 64) : Nat → BitVec 64 :=
  mixRound T (r + 3) (mixRound T (r + 2) (mixRound T (r + 1) (mixRound T r S)))

theorem rel_arr (r : Nat) (hid : ∀ i, i < T.nw → idx F r i = i) (v : Nat → BitVec 64) : Rel F T r (arr T.nw v) v :=
  ⟨length_arr _ _, fun i hi => by rw [hid i hi, getD_arr _ _ _ hi]⟩

theorem arr_rel (r : Nat) (hid : ∀ i, i < T.nw → idx F r i = i) (G : List (BitVec 64)) (v : Nat → BitVec 64) (h : Rel F T r G v) :
    G = arr T.nw v :=
  eq_arr _ _ _ h.1 fun i hi => by rw [← h.2 i hi, hid i hi]

/-- A subkey added in. -/
def addKey (T : Threefish) (k t : Nat → BitVec 64) (s : Nat) (v : Nat → BitVec 64) (i : Nat) : BitVec 64 := v i + subkey T k t s i

theorem KStRv4_ok (ok : FOk F T) (r : Nat) (keys tweaks : List (BitVec 64)) (k t : Nat → BitVec 64)
    (hk : ∀ i, i ≤ T.nw → keys.getD i 0 = Spec.Skein.key T k i) (ht : ∀ i, i < 3 → tweaks.getD i 0 = t i) (v : Nat → BitVec 64) :
    Model.Skein.KStRv4 F r keys tweaks (arr T.nw v) = arr T.nw (addKey T k t (r + 1) v) := by
  have hge := ok.ge
  unfold Model.Skein.KStRv4
  rw [ok.nw]
  apply arr_congr
  intro i hi
  dsimp only
  unfold addKey subkey
  have hm : (r + i + 1) % (T.nw + 1) < T.nw + 1 := Nat.mod_lt _ (by omega)
  rw [getD_arr _ _ _ hi, hk _ (by omega), ht _ (Nat.mod_lt _ (by omega)), ht _ (Nat.mod_lt _ (by omega)),
    show r + i + 1 = r + 1 + i by omega]
  congr 1
  split
  · rfl
  · split
    · rfl
    · split
      · rw [BitVec.ofNat_add, BitVec.add_assoc]
        rfl
      · exact (BitVec.add_zero _).symm

theorem gt4 (ok : FOk F T) (r : Nat) (hr : r + 3 < 8) (hid : ∀ i, i < T.nw → idx F r i = i)
    (hid' : ∀ i, i < T.nw → idx F ((r + 4) % 8) i = i) (v : Nat → BitVec 64) (g : List (BitVec 64) → M (List (BitVec 64))) :
    (do
      let G ← Model.Skein.GTv4 F r (arr T.nw v)
      let G ← Model.Skein.GTv4 F (r + 1) G
      let G ← Model.Skein.GTv4 F (r + 2) G
      let G ← Model.Skein.GTv4 F (r + 3) G
      g G) = g (arr T.nw (four T r v)) := by
  obtain ⟨G1, e1, r1⟩ := GTv4_ok ok r (by omega) _ _ (rel_arr r hid v)
  rw [Nat.mod_eq_of_lt (by omega)] at r1
  obtain ⟨G2, e2, r2⟩ := GTv4_ok ok (r + 1) (by omega) _ _ r1
  rw [Nat.mod_eq_of_lt (by omega)] at r2
  obtain ⟨G3, e3, r3⟩ := GTv4_ok ok (r + 2) (by omega) _ _ r2
  rw [Nat.mod_eq_of_lt (by omega)] at r3
  obtain ⟨G4, e4, r4⟩ := GTv4_ok ok (r + 3) (by omega) _ _ r3
  rw [e1, ok_bind, e2, ok_bind, e3, ok_bind, e4, ok_bind, arr_rel _ hid' G4 _ r4]
  rfl

theorem G8_ok (ok : FOk F T) (r : Nat) (keys tweaks : List (BitVec 64)) (k t : Nat → BitVec 64)
    (hk : ∀ i, i ≤ T.nw → keys.getD i 0 = Spec.Skein.key T k i) (ht : ∀ i, i < 3 → tweaks.getD i 0 = t i) (v : Nat → BitVec 64) :
    Model.Skein.G8 F r keys tweaks (arr T.nw v)
      = .ok (arr T.nw (addKey T k t (r + 2) (four T 4 (addKey T k t (r + 1) (four T 0 v))))) := by
  unfold Model.Skein.G8
  have e0 := gt4 ok 0 (by omega) ok.id0 ok.id4 v fun G => do
    let G := Model.Skein.KStRv4 F r keys tweaks G
    let G ← Model.Skein.GTv4 F 4 G
    let G ← Model.Skein.GTv4 F 5 G
    let G ← Model.Skein.GTv4 F 6 G
    let G ← Model.Skein.GTv4 F 7 G
    pure (Model.Skein.KStRv4 F (r + 1) keys tweaks G)
  refine e0.trans ?_
  dsimp only
  rw [KStRv4_ok ok r keys tweaks k t hk ht]
  have e1 := gt4 ok 4 (by omega) ok.id4 ok.id0 (addKey T k t (r + 1) (four T 0 v)) fun G => do
    pure (Model.Skein.KStRv4 F (r + 1) keys tweaks G)
  refine e1.trans ?_
  rw [KStRv4_ok ok (r + 1) keys tweaks k t hk ht]
  rfl

/-- Eight rounds of the specification. -/
theorem round8 (k t : Nat → BitVec 64) (p : Nat → BitVec 64) (n : Nat) :
    addKey T k t (2 * n) ((List.range (8 * n)).foldl (Spec.Skein.round T k t) p)
      = (List.range n).foldl (fun v i => addKey T k t (2 * i + 2) (four T 4 (addKey T k t (2 * i + 1) (four T 0 v)))) (addKey T k t 0 p) := by
  induction n with
  | zero => rfl
  | succ n ih =>
    rw [List.range_succ, List.foldl_append, ← ih]
    have hr : List.range (8 * (n + 1)) = List.range (8 * n) ++ (List.range 8).map (8 * n + ·) := by
      rw [show 8 * (n + 1) = 8 * n + 8 by omega, List.range_add]
    rw [hr, List.foldl_append]
    generalize (List.range (8 * n)).foldl (Spec.Skein.round T k t) p = v
    have hm : ∀ j, j < 8 → mixRound T (8 * n + j) = mixRound T j := by
      intro j hj
      funext e i
      unfold mixRound
      rw [show (8 * n + j) % 8 = j % 8 by omega]
    have hk0 : ∀ v, Spec.Skein.round T k t v (8 * n) = mixRound T 0 (addKey T k t (2 * n) v) := by
      intro v
      unfold Spec.Skein.round
      rw [show mixRound T (8 * n) = mixRound T 0 from hm 0 (by omega)]
      congr 1
      funext i
      rw [if_pos (by omega), show 8 * n / 4 = 2 * n by omega]
      rfl
    have hk4 : ∀ v, Spec.Skein.round T k t v (8 * n + 4) = mixRound T 4 (addKey T k t (2 * n + 1) v) := by
      intro v
      unfold Spec.Skein.round
      rw [hm 4 (by omega)]
      congr 1
      funext i
      rw [if_pos (by omega), show (8 * n + 4) / 4 = 2 * n + 1 by omega]
      rfl
    have hj : ∀ j, j < 8 → j % 4 ≠ 0 → ∀ v, Spec.Skein.round T k t v (8 * n + j) = mixRound T j v := by
      intro j hj h4 v
      unfold Spec.Skein.round
      rw [hm j hj]
      congr 1
      funext i
      rw [if_neg (by omega)]
    show addKey T k t (2 * (n + 1)) (Spec.Skein.round T k t (Spec.Skein.round T k t (Spec.Skein.round T k t (Spec.Skein.round T k t
      (Spec.Skein.round T k t (Spec.Skein.round T k t (Spec.Skein.round T k t (Spec.Skein.round T k t v (8 * n)) (8 * n + 1)) (8 * n + 2))
      (8 * n + 3)) (8 * n + 4)) (8 * n + 5)) (8 * n + 6)) (8 * n + 7)) = _
    rw [hk0, hj 1 (by omega) (by omega), hj 2 (by omega) (by omega), hj 3 (by omega) (by omega), hk4, hj 5 (by omega) (by omega),
      hj 6 (by omega) (by omega), hj 7 (by omega) (by omega)]
    rfl

theorem rounds_ok (ok : FOk F T) (keys tweaks : List (BitVec 64)) (k t : Nat → BitVec 64)
    (hk : ∀ i, i ≤ T.nw → keys.getD i 0 = Spec.Skein.key T k i) (ht : ∀ i, i < 3 → tweaks.getD i 0 = t i) (p : Nat → BitVec 64) :
    (List.range F.g8).foldlM (fun G i => Model.Skein.G8 F (2 * i) keys tweaks G) (arr T.nw (addKey T k t 0 p))
      = .ok (arr T.nw (Spec.Skein.encrypt T k t p)) := by
  have gen : ∀ n, (List.range n).foldlM (fun G i => Model.Skein.G8 F (2 * i) keys tweaks G) (arr T.nw (addKey T k t 0 p))
      = .ok (arr T.nw ((List.range n).foldl (fun v i => addKey T k t (2 * i + 2) (four T 4 (addKey T k t (2 * i + 1) (four T 0 v))))
          (addKey T k t 0 p))) := by
    intro n
    induction n with
    | zero => rfl
    | succ n ih =>
      rw [List.range_succ, List.foldlM_append, ih, ok_bind, List.foldlM_cons, G8_ok ok _ _ _ k t hk ht, List.foldl_append]
      rfl
  rw [gen, ← round8]
  congr 1
  unfold Spec.Skein.encrypt addKey
  rw [ok.rounds, show 8 * F.g8 / 4 = 2 * F.g8 by omega]

/-- What one iteration does. -/
def stepH (T : Threefish) (t0 t1 : BitVec 64) (b : Bytes) (h : Nat → BitVec 64) : Nat → BitVec 64 :=
  let m := fun j => (leWords 64 b).getD j 0
  let t := fun i => if i = 0 then t0 else if i = 1 then t1 else t0 ^^^ t1
  fun j => Spec.Skein.encrypt T h t m j ^^^ m j

theorem foldl_xor_arr (n : Nat) (k : Nat → BitVec 64) (x : BitVec 64) :
    (arr n k).foldl (· ^^^ ·) x = (List.range n).foldl (fun x i => x ^^^ k i) x := by
  unfold arr
  rw [List.foldl_map]

/-- The members, with the chaining value `v` and the tweak. -/
def upd (s : St) (n : Nat) (v : Nat → BitVec 64) (t0 t1 : BitVec 64) : St := { s with H := arr n v, tweak0 := t0, tweak1 := t1 }

theorem block_ok (ok : FOk F T) (len : Nat) (b : Bytes) (hb : b.length = 8 * T.nw) (s : St) (v : Nat → BitVec 64) (t0 t1 : BitVec 64) :
    Model.Skein.block F len b (upd s T.nw v t0 t1)
      = .ok (upd s T.nw (stepH T (t0 + BitVec.ofNat 64 len) t1 b v) (t0 + BitVec.ofNat 64 len) (t1 &&& ~~~((64 : BitVec 64) <<< 56))) := by
  have hge := ok.ge
  unfold Model.Skein.block
  dsimp only
  rw [ok.nw, loads64_eq T.nw b hb]
  have hH : (upd s T.nw v t0 t1).H = arr T.nw v := rfl
  have ht0 : (upd s T.nw v t0 t1).tweak0 = t0 := rfl
  have ht1 : (upd s T.nw v t0 t1).tweak1 = t1 := rfl
  rw [hH, ht0, ht1]
  have hk : ∀ i, i ≤ T.nw → (arr T.nw v ++ [Model.Skein.lastKey (arr T.nw v)]).getD i 0 = Spec.Skein.key T v i := by
    intro i hi
    unfold Spec.Skein.key
    by_cases h : i = T.nw
    · subst h
      rw [if_pos rfl, List.getD_eq_getElem?_getD, List.getElem?_append_right (by rw [length_arr]; omega), length_arr, Nat.sub_self]
      exact foldl_xor_arr _ _ _
    · rw [if_neg h, List.getD_eq_getElem?_getD, List.getElem?_append_left (by rw [length_arr]; omega), ← List.getD_eq_getElem?_getD,
        getD_arr _ _ _ (by omega)]
  generalize arr T.nw v ++ [Model.Skein.lastKey (arr T.nw v)] = keys at hk
  generalize t0 + BitVec.ofNat 64 len = u0
  have ht : ∀ i, i < 3 → [u0, t1, u0 ^^^ t1].getD i 0 = (fun i => if i = 0 then u0 else if i = 1 then t1 else u0 ^^^ t1) i := by
    intro i hi
    match i, hi with
    | 0, _ => rfl
    | 1, _ => rfl
    | 2, _ => rfl
  have hst : Model.Skein.start F (leWords 64 b) keys [u0, t1, u0 ^^^ t1]
      = arr T.nw (addKey T v (fun i => if i = 0 then u0 else if i = 1 then t1 else u0 ^^^ t1) 0 (fun j => (leWords 64 b).getD j 0)) := by
    unfold Model.Skein.start
    rw [ok.nw]
    apply arr_congr
    intro i hi
    dsimp only
    unfold addKey subkey
    rw [hk i (by omega), Nat.zero_add, Nat.mod_eq_of_lt (by omega : i < T.nw + 1)]
    split
    · rw [BitVec.add_assoc]; rfl
    · split
      · rw [BitVec.add_assoc]; rfl
      · split
        · exact congrArg _ (BitVec.add_zero _).symm
        · exact congrArg _ (BitVec.add_zero _).symm
  rw [hst, rounds_ok ok keys _ v _ hk ht, ok_bind]
  congr 1
  have hf : ∀ (x y : List (BitVec 64)), x = y → ({ upd s T.nw v t0 t1 with H := x, tweak0 := u0, tweak1 := t1 &&& ~~~((64 : BitVec 64) <<< 56) } : St)
      = { s with H := y, tweak0 := u0, tweak1 := t1 &&& ~~~((64 : BitVec 64) <<< 56) } := by
    intro x y h
    rw [h]
    rfl
  apply hf
  apply arr_congr
  intro i hi
  rw [getD_arr _ _ _ hi]
  rfl

end Digestpp.Proofs.Skein
