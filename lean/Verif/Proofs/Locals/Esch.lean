import Verif.Model.Locals.Esch
import Verif.Proofs.Locals.Sha1

/-! C58, Esch. -/

namespace Digestpp.Proofs.Locals.Esch
open Model
open Model.Esch

theorem C_length : esch_C.length = 8 := by decide

section pair
variable (H : List (BitVec 32)) (px py : Nat)

theorem getD_two (hx : px < H.length) (hy : py < H.length) (hne : px ≠ py) (X Y : BitVec 32) :
    ((H.set px X).set py Y).getD px 0 = X ∧ ((H.set px X).set py Y).getD py 0 = Y := by
  constructor
  · rw [getD_set, if_neg (by omega), getD_set, if_pos ⟨rfl, hx⟩]
  · rw [getD_set, if_pos ⟨rfl, by rw [List.length_set]; exact hy⟩]

theorem updx (hx : px < H.length) (hy : py < H.length) (hne : px ≠ py) (X Y : BitVec 32) (f : BitVec 32 → BitVec 32) :
    upd ((H.set px X).set py Y) px f = .ok ((H.set px (f X)).set py Y) := by
  rw [upd_ok f 0 (by rw [List.length_set, List.length_set]; exact hx), (getD_two H px py hx hy hne X Y).1, List.set_comm _ _ (by omega), List.set_set]

theorem updy (hx : px < H.length) (hy : py < H.length) (hne : px ≠ py) (X Y : BitVec 32) (f : BitVec 32 → BitVec 32) :
    upd ((H.set px X).set py Y) py f = .ok ((H.set px X).set py (f Y)) := by
  rw [upd_ok f 0 (by rw [List.length_set, List.length_set]; exact hy), (getD_two H px py hx hy hne X Y).2, List.set_set]

theorem stx (hx : px < H.length) (hy : py < H.length) (hne : px ≠ py) (X Y : BitVec 32) (f : BitVec 32 → BitVec 32 → BitVec 32) :
    Locals.Esch.stmt px py f ((H.set px X).set py Y) = .ok ((H.set px (f X Y)).set py Y) := by
  unfold Locals.Esch.stmt
  rw [rd_ok 0 (by rw [List.length_set, List.length_set]; exact hy), ok_then, (getD_two H px py hx hy hne X Y).2, updx H px py hx hy hne]

theorem sty (hx : px < H.length) (hy : py < H.length) (hne : px ≠ py) (X Y : BitVec 32) (f : BitVec 32 → BitVec 32 → BitVec 32) :
    Locals.Esch.stmt py px f ((H.set px X).set py Y) = .ok ((H.set px X).set py (f Y X)) := by
  unfold Locals.Esch.stmt
  rw [rd_ok 0 (by rw [List.length_set, List.length_set]; exact hx), ok_then, (getD_two H px py hx hy hne X Y).1, updy H px py hx hy hne]

theorem xorCx (hx : px < H.length) (hy : py < H.length) (hne : px ≠ py) (j : Nat) (hj : j < 8) (X Y : BitVec 32) :
    Locals.Esch.xorC px j ((H.set px X).set py Y) = .ok ((H.set px (X ^^^ esch_C.getD j 0)).set py Y) := by
  unfold Locals.Esch.xorC
  rw [rd_ok 0 (by rw [C_length]; exact hj), ok_then, updx H px py hx hy hne]

theorem arxBody_ok (hx : px < H.length) (hy : py < H.length) (hne : px ≠ py) (j : Nat) (hj : j < 8) : Locals.Esch.arxBody px py j H =
    .ok ((H.set px (arxBox (esch_C.getD j 0) (at32 H px) (at32 H py)).1).set py (arxBox (esch_C.getD j 0) (at32 H px) (at32 H py)).2) := by
  have e : Locals.Esch.arxBody px py j H = Locals.Esch.arxBody px py j ((H.set px (at32 H px)).set py (at32 H py)) := by
    congr 1
    refine List.ext_getElem? fun i => ?_
    rw [List.getElem?_set, List.getElem?_set, List.length_set]
    unfold at32
    rw [List.getD_eq_getElem?_getD, List.getD_eq_getElem?_getD, List.getElem?_eq_getElem hx, List.getElem?_eq_getElem hy]
    split
    · rename_i h; subst h; rw [List.getElem?_eq_getElem hy]; simp
    · split
      · rename_i h; subst h; rw [List.getElem?_eq_getElem hx]; simp
      · rfl
  rw [e]
  unfold Locals.Esch.arxBody
  rw [stx H px py hx hy hne, ok_then, sty H px py hx hy hne, ok_then, xorCx H px py hx hy hne j hj, ok_then,
    stx H px py hx hy hne, ok_then, sty H px py hx hy hne, ok_then, xorCx H px py hx hy hne j hj, ok_then,
    stx H px py hx hy hne, ok_then, sty H px py hx hy hne, ok_then, xorCx H px py hx hy hne j hj, ok_then,
    stx H px py hx hy hne, ok_then, sty H px py hx hy hne, ok_then, xorCx H px py hx hy hne j hj]
  rfl

end pair

theorem xorC_ok (a j : Nat) (hj : j < 8) (H : List (BitVec 32)) (ha : a < H.length) : Locals.Esch.xorC a j H = .ok (H.set a (at32 H a ^^^ esch_C.getD j 0)) := by
  unfold Locals.Esch.xorC
  rw [rd_ok 0 (by rw [C_length]; exact hj), ok_then, upd_ok _ 0 ha]
  rfl

theorem move_ok (a b : Nat) (H : List (BitVec 32)) (ha : a < H.length) (hb : b < H.length) : Locals.Esch.move a b H = .ok (H.set a (at32 H b)) := by
  unfold Locals.Esch.move
  rw [rd_ok 0 hb, ok_then, wr_ok _ ha]
  rfl

theorem feistelXY_ok (rounds : Nat) (H : List (BitVec 32)) (h8 : 8 ≤ H.length) : Locals.Esch.feistelXY rounds H = .ok (feistelXY rounds H) := by
  unfold Locals.Esch.feistelXY feistelXY
  rw [rd_ok 0 (by omega), ok_then, rd_ok 0 (by omega), ok_then, rd_ok 0 (by omega), ok_then]
  rw [rd_ok 0 (by omega), ok_then, rd_ok 0 (by omega), ok_then, rd_ok 0 (by omega), ok_then]
  split
  · rw [rd_ok 0 (by omega), ok_then, rd_ok 0 (by omega), ok_then]
    rfl
  · rfl

theorem permute_ok (rounds : Nat) (hr : 2 ≤ rounds) (N : Nat) (hN : rounds * 2 ≤ N) (H : List (BitVec 32)) (hH : H.length = N) :
    Locals.Esch.permuteBranches rounds H = .ok (permuteBranches rounds H) ∧ (permuteBranches rounds H).length = N := by
  obtain ⟨e, l⟩ := loop_eq (fun (H : List (BitVec 32)) i =>
      let H := H.set (i + rounds) (at32 H i)
      H.set i (at32 H (i + rounds + 2))) (fun _ H => H.length = N) 0 (rounds - 2) (by omega) (fun i H => do
      let H ← Locals.Esch.move (i + rounds) i H
      Locals.Esch.move i (i + rounds + 2) H) H hH (fun t H _ ht hl => by
        constructor
        · rw [move_ok _ _ _ (by omega) (by omega), ok_then, move_ok _ _ _ (by rw [List.length_set]; omega) (by rw [List.length_set]; omega)]
        · show ((H.set _ _).set _ _).length = N
          rw [List.length_set, List.length_set, hl])
  rw [Nat.sub_zero, ← List.range_eq_range'] at e l
  unfold Locals.Esch.permuteBranches permuteBranches
  constructor
  · rw [rd_ok 0 (by omega), ok_then, rd_ok 0 (by omega), ok_then, e, ok_then, move_ok _ _ _ (by omega) (by omega), ok_then,
      move_ok _ _ _ (by rw [List.length_set]; omega) (by rw [List.length_set]; omega), ok_then,
      wr_ok _ (by rw [List.length_set, List.length_set]; omega), ok_then, wr_ok _ (by rw [List.length_set, List.length_set, List.length_set]; omega)]
    rfl
  · dsimp only
    rw [List.length_set, List.length_set, List.length_set, List.length_set, l]

theorem feistelBody_ok (rounds : Nat) (x y : BitVec 32) (k : Nat) (H : List (BitVec 32)) (hl : rounds + 2 * k + 1 < H.length) :
    Locals.Esch.feistelBody rounds x y k H = .ok (
      let i := 2 * k
      let j := rounds + 2 * k
      let H := H.set j (at32 H j ^^^ (at32 H i ^^^ y))
      H.set (j + 1) (at32 H (j + 1) ^^^ (at32 H (i + 1) ^^^ x))) := by
  unfold Locals.Esch.feistelBody
  rw [rd_ok 0 (by omega), ok_then, upd_ok _ 0 (by omega), ok_then, rd_ok 0 (by rw [List.length_set]; omega), ok_then, upd_ok _ 0 (by rw [List.length_set]; omega)]
  rfl

theorem step_ok (rounds s : Nat) (hr : rounds = 6 ∨ rounds = 8) (N : Nat) (hN : rounds * 2 ≤ N) (H : List (BitVec 32)) (hH : H.length = N) :
    Locals.Esch.sparkleStep rounds s H = .ok (sparkleStep rounds s H) ∧ (sparkleStep rounds s H).length = N := by
  unfold Locals.Esch.sparkleStep sparkleStep
  rw [xorC_ok _ _ (Nat.mod_lt _ (by omega)) _ (by omega), ok_then, upd_ok _ 0 (by rw [List.length_set]; omega), ok_then]
  have l0 : ((H.set 1 (at32 H 1 ^^^ esch_C.getD (s % 8) 0)).set 3 (at32 (H.set 1 (at32 H 1 ^^^ esch_C.getD (s % 8) 0)) 3 ^^^ BitVec.ofNat 32 s)).length = N := by
    rw [List.length_set, List.length_set, hH]
  change (_ = Except.ok (let H := (H.set 1 (at32 H 1 ^^^ esch_C.getD (s % 8) 0)).set 3 (at32 (H.set 1 (at32 H 1 ^^^ esch_C.getD (s % 8) 0)) 3 ^^^ BitVec.ofNat 32 s)
    let H := arxLayer rounds H
    let xy := feistelXY rounds H
    permuteBranches rounds (feistelXor rounds xy.1 xy.2 H))) ∧ (let H := (H.set 1 (at32 H 1 ^^^ esch_C.getD (s % 8) 0)).set 3 (at32 (H.set 1 (at32 H 1 ^^^ esch_C.getD (s % 8) 0)) 3 ^^^ BitVec.ofNat 32 s)
    let H := arxLayer rounds H
    let xy := feistelXY rounds H
    permuteBranches rounds (feistelXor rounds xy.1 xy.2 H)).length = N
  revert l0
  unfold at32
  generalize ((H.set 1 (H.getD 1 0 ^^^ esch_C.getD (s % 8) 0)).set 3 ((H.set 1 (H.getD 1 0 ^^^ esch_C.getD (s % 8) 0)).getD 3 0 ^^^ BitVec.ofNat 32 s)) = G
  intro l0
  dsimp only
  obtain ⟨e1, l1⟩ := loop_eq (fun (H : List (BitVec 32)) j =>
      let r := arxBox (esch_C.getD j 0) (at32 H (2 * j)) (at32 H (2 * j + 1))
      (H.set (2 * j) r.1).set (2 * j + 1) r.2) (fun _ H => H.length = N) 0 rounds (by omega) (fun j H => Locals.Esch.arxBody (2 * j) (2 * j + 1) j H) G l0
    (fun t H _ ht hl => ⟨arxBody_ok H _ _ (by omega) (by omega) (by omega) t (by omega), by
      show ((H.set _ _).set _ _).length = N
      rw [List.length_set, List.length_set, hl]⟩)
  rw [Nat.sub_zero, ← List.range_eq_range'] at e1 l1
  change _ = Except.ok (arxLayer rounds G) at e1
  change (arxLayer rounds G).length = N at l1
  rw [e1, ok_then, feistelXY_ok _ _ (by omega), ok_then]
  generalize feistelXY rounds (arxLayer rounds G) = xy
  obtain ⟨e2, l2⟩ := loop_eq (fun (H : List (BitVec 32)) k =>
      let i := 2 * k
      let j := rounds + 2 * k
      let H := H.set j (at32 H j ^^^ (at32 H i ^^^ xy.2))
      H.set (j + 1) (at32 H (j + 1) ^^^ (at32 H (i + 1) ^^^ xy.1))) (fun _ H => H.length = N) 0 (rounds / 2) (by omega)
    (Locals.Esch.feistelBody rounds xy.1 xy.2) (arxLayer rounds G) l1 (fun t H _ ht hl => ⟨feistelBody_ok _ _ _ _ _ (by omega), by
      show ((H.set _ _).set _ _).length = N
      rw [List.length_set, List.length_set, hl]⟩)
  rw [Nat.sub_zero, ← List.range_eq_range'] at e2 l2
  change _ = Except.ok (feistelXor rounds xy.1 xy.2 (arxLayer rounds G)) at e2
  change (feistelXor rounds xy.1 xy.2 (arxLayer rounds G)).length = N at l2
  rw [e2, ok_then]
  exact permute_ok rounds (by omega) N hN _ l2

theorem sparkle_ok (rounds ns : Nat) (hr : rounds = 6 ∨ rounds = 8) (N : Nat) (hN : rounds * 2 ≤ N) (H : List (BitVec 32)) (hH : H.length = N) :
    Locals.Esch.sparkle rounds ns H = .ok (sparkle rounds ns H) ∧ (sparkle rounds ns H).length = N := by
  have := loop_eq (fun (H : List (BitVec 32)) s => sparkleStep rounds s H) (fun _ H => H.length = N) 0 ns (by omega) (Locals.Esch.sparkleStep rounds) H hH
    (fun t H _ _ hl => step_ok rounds t hr N hN H hl)
  rw [Nat.sub_zero, ← List.range_eq_range'] at this
  exact this

/-- The number of elements of `H` is at least twice the number of branches. -/
def Sized (h : St) : Prop := (if h.hs > 256 then 16 else 12) ≤ h.H.length

theorem block_ok (lastBlock : Bool) (Mw : List (BitVec 32)) (hM : Mw.length = 4) (data b : Bytes) (blk : Nat) (hr : readBytes data (blk * 16) 16 = .ok b) (h : St)
    (hs : Sized h) :
    Locals.Esch.block h.hs lastBlock Mw data blk h.H = .ok (absorbBlock lastBlock b h).H ∧ (absorbBlock lastBlock b h).H.length = h.H.length := by
  have hl : 12 ≤ h.H.length := by unfold Sized at hs; split at hs <;> omega
  unfold Locals.Esch.block
  rw [fill_all 0 (fun i => (loads32 4 b).getD i 0) 4 0 (by omega) _ Mw hM (by omega) (fun t a _ ht ha _ => by
    rw [rd32_block (n := 4) hr ht, ok_then, wr_ok _ (by omega)]), ok_then, map_range_getD (loads32 4 b) 0 4 (loads32_length 4 b)]
  generalize hB : loads32 4 b = B
  have hB4 : B.length = 4 := by rw [← hB]; exact loads32_length 4 b
  unfold absorbBlock
  rw [hB]
  simp only [rd_ok 0 (a := B) (i := 0) (by omega), rd_ok 0 (a := B) (i := 1) (by omega), rd_ok 0 (a := B) (i := 2) (by omega), rd_ok 0 (a := B) (i := 3) (by omega), ok_then]
  rw [upd_ok _ 0 (by omega), ok_then, upd_ok _ 0 (by rw [List.length_set]; omega), ok_then, upd_ok _ 0 (by rw [List.length_set, List.length_set]; omega), ok_then,
    upd_ok _ 0 (by rw [List.length_set, List.length_set, List.length_set]; omega), ok_then,
    upd_ok _ 0 (by rw [List.length_set, List.length_set, List.length_set, List.length_set]; omega), ok_then,
    upd_ok _ 0 (by rw [List.length_set, List.length_set, List.length_set, List.length_set, List.length_set]; omega), ok_then]
  unfold at32
  by_cases h2 : h.hs > 256
  · have hl : 16 ≤ h.H.length := by unfold Sized at hs; rw [if_pos h2] at hs; exact hs
    simp only [if_pos h2]
    rw [upd_ok _ 0 (by simp only [List.length_set]; omega), ok_then, upd_ok _ 0 (by simp only [List.length_set]; omega), ok_then, getD_set (i := 6) (j := 7), if_neg (c := 6 = 7 ∧ _) (by omega)]
    refine sparkle_ok 8 ((if lastBlock then 11 else 7) + 1) (.inr rfl) h.H.length hl _ ?_
    simp only [List.length_set]
  · simp only [if_neg h2]
    refine sparkle_ok 6 (if lastBlock then 11 else 7) (.inl rfl) h.H.length hl _ ?_
    simp only [List.length_set]

theorem transform_eq (k : Nat → List (BitVec 32)) (hk : ∀ i, (k i).length = 4) (lastBlock : Bool) (data : Bytes) (n : Nat) (hd : n * 16 ≤ data.length) (s : Blk St)
    (hs : Sized s.h) : Locals.Esch.transform k lastBlock data n s = Esch.transform lastBlock data n s := by
  unfold Locals.Esch.transform Esch.transform
  have R := blocks_rel 16 data n hd (fun (x : List (BitVec 32)) (y : St) => Sized y ∧ y = { s.h with H := x })
    (fun blk H => Locals.Esch.block s.h.hs lastBlock (k blk) data blk H) (fun _ b h => pure (absorbBlock lastBlock b h)) (by
      rintro blk b x y hblk hr hb ⟨hy, rfl⟩
      obtain ⟨e, l⟩ := block_ok lastBlock (k blk) (hk blk) data b blk hr { s.h with H := x } hy
      dsimp only at e
      rw [e]
      refine ⟨?_, rfl⟩
      show (if s.h.hs > 256 then 16 else 12) ≤ _
      rw [l]
      exact hy) s.h.H s.h ⟨hs, rfl⟩
  revert R
  generalize forBlocks _ _ _ _ _ = u
  generalize loop _ _ _ _ = v
  intro R
  cases u with
  | error e1 =>
    cases v with
    | error e2 => cases R; rfl
    | ok y => exact R.elim
  | ok u =>
    cases v with
    | error e2 => exact R.elim
    | ok v =>
      obtain ⟨-, e⟩ := R
      rw [ok_then, ok_then, e]

end Digestpp.Proofs.Locals.Esch
