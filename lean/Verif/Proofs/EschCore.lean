import Verif.Model.Esch
import Verif.Spec.Esch
import Verif.Proofs.Words
import Verif.Proofs.Sched

/-! The functions of the Esch provider on branches. -/

namespace Digestpp.Proofs.Esch
open Model Spec Spec.Esch

/-- The array holding `n` branches. -/
def flat (n : Nat) (B : Branches) : List (BitVec 32) := (List.range n).flatMap fun i => [(B i).1, (B i).2]

theorem arxBox_eq (c x y : BitVec 32) : Model.Esch.arxBox c x y = alzette c (x, y) := by
  unfold Model.Esch.arxBox alzette
  simp only [rotr_eq]

theorem ell_eq (x : BitVec 32) : Model.Esch.ell x = Spec.Esch.ell x := by
  unfold Model.Esch.ell Spec.Esch.ell
  rw [rotr_eq]
  apply BitVec.eq_of_getLsbD_eq
  intro i hi
  have h16 : ∀ i, i < 32 → (0xffff : BitVec 32).getLsbD i = decide (i < 16) := by decide
  rw [BitVec.getLsbD_xor, BitVec.getLsbD_and, h16 i hi, BitVec.getLsbD_rotateRight, BitVec.getLsbD_rotateLeft]
  by_cases h : i < 16
  · rw [decide_eq_true (show i < 32 - 16 % 32 by omega), cond_true, cond_true,
      BitVec.getLsbD_xor, BitVec.getLsbD_shiftLeft]
    have e1 : ¬ 16 % 32 + i < 16 := by omega
    have e2 : 16 % 32 + i < 32 := by omega
    have e3 : 16 % 32 + i - 16 = i := by omega
    have e4 : 32 - 16 % 32 + i = 16 % 32 + i := by omega
    simp [h, e1, e2, e3, e4]
  · rw [decide_eq_false (show ¬ i < 32 - 16 % 32 by omega), cond_false, cond_false,
      BitVec.getLsbD_xor, BitVec.getLsbD_shiftLeft]
    have e1 : i - (32 - 16 % 32) < 16 := by omega
    simp [h, e1, hi]

theorem flat6 (B : Branches) : flat 6 B = [(B 0).1, (B 0).2, (B 1).1, (B 1).2, (B 2).1, (B 2).2, (B 3).1, (B 3).2, (B 4).1, (B 4).2,
    (B 5).1, (B 5).2] := rfl

theorem flat8 (B : Branches) : flat 8 B = [(B 0).1, (B 0).2, (B 1).1, (B 1).2, (B 2).1, (B 2).2, (B 3).1, (B 3).2, (B 4).1, (B 4).2,
    (B 5).1, (B 5).2, (B 6).1, (B 6).2, (B 7).1, (B 7).2] := rfl

theorem arx6 (B : Branches) (r : List (BitVec 32)) :
    Model.Esch.arxLayer 6 (flat 6 B ++ r) = flat 6 (fun i => Model.Esch.arxBox (esch_C.getD i 0) (B i).1 (B i).2) ++ r := by
  rfl

theorem arx8 (B : Branches) (r : List (BitVec 32)) :
    Model.Esch.arxLayer 8 (flat 8 B ++ r) = flat 8 (fun i => Model.Esch.arxBox (esch_C.getD i 0) (B i).1 (B i).2) ++ r := by
  rw [flat8, flat8]
  unfold Model.Esch.arxLayer
  generalize esch_C = C
  simp [List.range, List.range.loop, Model.Esch.at32]

theorem feistelXY6 (B : Branches) (r : List (BitVec 32)) :
    Model.Esch.feistelXY 6 (flat 6 B ++ r) = (Model.Esch.ell ((B 0).1 ^^^ (B 1).1 ^^^ (B 2).1), Model.Esch.ell ((B 0).2 ^^^ (B 1).2 ^^^ (B 2).2)) := by
  rfl

theorem feistelXY8 (B : Branches) (r : List (BitVec 32)) :
    Model.Esch.feistelXY 8 (flat 8 B ++ r) = (Model.Esch.ell ((B 0).1 ^^^ (B 1).1 ^^^ (B 2).1 ^^^ (B 3).1),
      Model.Esch.ell ((B 0).2 ^^^ (B 1).2 ^^^ (B 2).2 ^^^ (B 3).2)) := by
  rfl

theorem lin6 (B : Branches) (x y : BitVec 32) (r : List (BitVec 32)) :
    Model.Esch.permuteBranches 6 (Model.Esch.feistelXor 6 x y (flat 6 B ++ r)) = flat 6 (fun i =>
      if i < 3 then ((B ((i + 1) % 3 + 3)).1 ^^^ ((B ((i + 1) % 3)).1 ^^^ y), (B ((i + 1) % 3 + 3)).2 ^^^ ((B ((i + 1) % 3)).2 ^^^ x))
      else B (i - 3)) ++ r := by
  rw [flat6, flat6]
  unfold Model.Esch.permuteBranches Model.Esch.feistelXor
  simp [List.range, List.range.loop, Model.Esch.at32]

theorem lin8 (B : Branches) (x y : BitVec 32) (r : List (BitVec 32)) :
    Model.Esch.permuteBranches 8 (Model.Esch.feistelXor 8 x y (flat 8 B ++ r)) = flat 8 (fun i =>
      if i < 4 then ((B ((i + 1) % 4 + 4)).1 ^^^ ((B ((i + 1) % 4)).1 ^^^ y), (B ((i + 1) % 4 + 4)).2 ^^^ ((B ((i + 1) % 4)).2 ^^^ x))
      else B (i - 4)) ++ r := by
  rw [flat8, flat8]
  unfold Model.Esch.permuteBranches Model.Esch.feistelXor
  simp [List.range, List.range.loop, Model.Esch.at32]

theorem flat_congr (n : Nat) (B C : Branches) (h : ∀ i, i < n → B i = C i) : flat n B = flat n C := by
  unfold flat
  rw [List.flatMap_def, List.flatMap_def]
  congr 1
  apply List.map_congr_left
  intro i hi
  rw [h i (List.mem_range.mp hi)]

/-- The families with the number of branches. -/
def Size (F : Family) (nb : Nat) : Prop := F = f256 ∧ nb = 6 ∨ F = f384 ∧ nb = 8

theorem C_eq : ∀ i, i < 8 → esch_C.getD i 0 = c i := by decide

theorem set_y01 (F : Family) (nb : Nat) (hF : Size F nb) (B : Branches) (u v : BitVec 32) (r : List (BitVec 32)) :
    (((flat nb B ++ r).set 1 (Model.Esch.at32 (flat nb B ++ r) 1 ^^^ u)).set 3
      (Model.Esch.at32 ((flat nb B ++ r).set 1 (Model.Esch.at32 (flat nb B ++ r) 1 ^^^ u)) 3 ^^^ v))
      = flat nb (fun i => if i = 0 then ((B 0).1, (B 0).2 ^^^ u) else if i = 1 then ((B 1).1, (B 1).2 ^^^ v) else B i) ++ r := by
  obtain ⟨rfl, rfl⟩ | ⟨rfl, rfl⟩ := hF <;> rfl

theorem linear3 (E : Branches) (i : Nat) : linear 3 E i =
    if i < 3 then ((E ((i + 1) % 3 + 3)).1 ^^^ ((E ((i + 1) % 3)).1 ^^^ ell ((E 0).2 ^^^ (E 1).2 ^^^ (E 2).2)),
      (E ((i + 1) % 3 + 3)).2 ^^^ ((E ((i + 1) % 3)).2 ^^^ ell ((E 0).1 ^^^ (E 1).1 ^^^ (E 2).1))) else E (i - 3) := by
  unfold linear feistel
  simp only [List.range, List.range.loop, List.foldl_cons, List.foldl_nil, show ∀ x : BitVec 32, 0 ^^^ x = x from fun _ => BitVec.zero_xor]

theorem linear4 (E : Branches) (i : Nat) : linear 4 E i =
    if i < 4 then ((E ((i + 1) % 4 + 4)).1 ^^^ ((E ((i + 1) % 4)).1 ^^^ ell ((E 0).2 ^^^ (E 1).2 ^^^ (E 2).2 ^^^ (E 3).2)),
      (E ((i + 1) % 4 + 4)).2 ^^^ ((E ((i + 1) % 4)).2 ^^^ ell ((E 0).1 ^^^ (E 1).1 ^^^ (E 2).1 ^^^ (E 3).1))) else E (i - 4) := by
  unfold linear feistel
  simp only [List.range, List.range.loop, List.foldl_cons, List.foldl_nil, show ∀ x : BitVec 32, 0 ^^^ x = x from fun _ => BitVec.zero_xor]

theorem step_eq (F : Family) (nb : Nat) (hF : Size F nb) (s : Nat) (B : Branches) (r : List (BitVec 32)) :
    Model.Esch.sparkleStep nb s (flat nb B ++ r) = flat nb (Spec.Esch.step F.h B s) ++ r := by
  unfold Model.Esch.sparkleStep
  dsimp only
  rw [set_y01 F nb hF B _ _ r, C_eq _ (Nat.mod_lt _ (by decide))]
  obtain ⟨D, hD⟩ : ∃ D : Branches, D = fun i =>
      if i = 0 then ((B 0).1, (B 0).2 ^^^ c (s % 8)) else if i = 1 then ((B 1).1, (B 1).2 ^^^ BitVec.ofNat 32 s) else B i := ⟨_, rfl⟩
  have hst : Spec.Esch.step F.h B s = linear F.h fun i => alzette (c i) (D i) := by rw [hD]; rfl
  rw [← hD, hst]
  clear hst hD
  obtain ⟨rfl, rfl⟩ | ⟨rfl, rfl⟩ := hF
  · have e : flat 6 (fun i => Model.Esch.arxBox (esch_C.getD i 0) (D i).1 (D i).2) = flat 6 fun i => alzette (c i) (D i) :=
      flat_congr _ _ _ fun i hi => by rw [C_eq i (by omega), arxBox_eq]
    rw [arx6, e]
    generalize (fun i => alzette (c i) (D i)) = E
    rw [feistelXY6, lin6, ell_eq, ell_eq]
    exact congrArg (· ++ r) (flat_congr _ _ _ fun i _ => (linear3 E i).symm)
  · have e : flat 8 (fun i => Model.Esch.arxBox (esch_C.getD i 0) (D i).1 (D i).2) = flat 8 fun i => alzette (c i) (D i) :=
      flat_congr _ _ _ fun i hi => by rw [C_eq i (by omega), arxBox_eq]
    rw [arx8, e]
    generalize (fun i => alzette (c i) (D i)) = E
    rw [feistelXY8, lin8, ell_eq, ell_eq]
    exact congrArg (· ++ r) (flat_congr _ _ _ fun i _ => (linear4 E i).symm)

theorem sparkle_eq (F : Family) (nb : Nat) (hF : Size F nb) (ns : Nat) (B : Branches) (r : List (BitVec 32)) :
    Model.Esch.sparkle nb ns (flat nb B ++ r) = flat nb (Spec.Esch.sparkle F.h ns B) ++ r := by
  unfold Model.Esch.sparkle Spec.Esch.sparkle
  induction ns with
  | zero => rfl
  | succ n ih =>
    rw [List.range_succ, List.foldl_append, List.foldl_append, ih]
    exact step_eq F nb hF n _ r

/-- The part of `transform` before the permutation. -/
def injectM (big : Bool) (b : Bytes) (H : List (BitVec 32)) : List (BitVec 32) :=
  let Mw := loads32 4 b
  let x := Model.Esch.ell (Model.Esch.at32 Mw 0 ^^^ Model.Esch.at32 Mw 2)
  let y := Model.Esch.ell (Model.Esch.at32 Mw 1 ^^^ Model.Esch.at32 Mw 3)
  let H := H.set 0 (Model.Esch.at32 H 0 ^^^ Model.Esch.at32 Mw 0 ^^^ y)
  let H := H.set 1 (Model.Esch.at32 H 1 ^^^ Model.Esch.at32 Mw 1 ^^^ x)
  let H := H.set 2 (Model.Esch.at32 H 2 ^^^ Model.Esch.at32 Mw 2 ^^^ y)
  let H := H.set 3 (Model.Esch.at32 H 3 ^^^ Model.Esch.at32 Mw 3 ^^^ x)
  let H := H.set 4 (Model.Esch.at32 H 4 ^^^ y)
  let H := H.set 5 (Model.Esch.at32 H 5 ^^^ x)
  if big then (H.set 6 (Model.Esch.at32 H 6 ^^^ y)).set 7 (Model.Esch.at32 H 7 ^^^ x) else H

theorem inject_eq (F : Family) (nb : Nat) (hF : Size F nb) (b : Bytes) (hb : b.length = 16) (B : Branches) (r : List (BitVec 32)) :
    injectM (decide (nb = 8)) b (flat nb B ++ r) = flat nb (inject F.h B b) ++ r := by
  unfold injectM
  rw [loads32_eq 4 b hb]
  have e : ∃ m0 m1 m2 m3, leWords 32 b = [m0, m1, m2, m3] := by
    have hl : (leWords 32 b).length = 4 := by unfold leWords; rw [List.length_map, List.length_range, hb]
    match leWords 32 b, hl with
    | [m0, m1, m2, m3], _ => exact ⟨m0, m1, m2, m3, rfl⟩
  obtain ⟨m0, m1, m2, m3, e⟩ := e
  have e0 : blockBranches b 0 = (m0, m1) := by unfold blockBranches; rw [e]; rfl
  have e1 : blockBranches b 1 = (m2, m3) := by unfold blockBranches; rw [e]; rfl
  have e2 : blockBranches b 2 = (0, 0) := rfl
  have e3 : blockBranches b 3 = (0, 0) := rfl
  rw [e]
  dsimp only
  rw [ell_eq, ell_eq]
  have a0 : Model.Esch.at32 [m0, m1, m2, m3] 0 = m0 := rfl
  have a1 : Model.Esch.at32 [m0, m1, m2, m3] 1 = m1 := rfl
  have a2 : Model.Esch.at32 [m0, m1, m2, m3] 2 = m2 := rfl
  have a3 : Model.Esch.at32 [m0, m1, m2, m3] 3 = m3 := rfl
  have x0 : ∀ x : BitVec 32, x ^^^ 0 = x := fun x => BitVec.xor_zero
  have x1 : ∀ x : BitVec 32, 0 ^^^ x = x := fun x => BitVec.zero_xor
  rw [a0, a1, a2, a3]
  obtain ⟨rfl, rfl⟩ | ⟨rfl, rfl⟩ := hF
  · have f : ∀ i, inject 3 B b i = if i < 3 then ((B i).1 ^^^ (blockBranches b i).1 ^^^ ell (m1 ^^^ m3),
        (B i).2 ^^^ (blockBranches b i).2 ^^^ ell (m0 ^^^ m2)) else B i := by
      intro i
      unfold inject feistel
      simp only [List.range_succ, List.range_zero, List.nil_append, List.foldl_append, List.foldl_cons, List.foldl_nil, e0, e1, e2, x0, x1,
        BitVec.xor_assoc]
    show _ = flat 6 (inject 3 B b) ++ r
    rw [flat6 (inject 3 B b), f, f, f, f, f, f, e0, e1, e2]
    simp [flat6, f256, Model.Esch.at32]
  · have f : ∀ i, inject 4 B b i = if i < 4 then ((B i).1 ^^^ (blockBranches b i).1 ^^^ ell (m1 ^^^ m3),
        (B i).2 ^^^ (blockBranches b i).2 ^^^ ell (m0 ^^^ m2)) else B i := by
      intro i
      unfold inject feistel
      simp only [List.range_succ, List.range_zero, List.nil_append, List.foldl_append, List.foldl_cons, List.foldl_nil, e0, e1, e2, e3, x0, x1,
        BitVec.xor_assoc]
    show _ = flat 8 (inject 4 B b) ++ r
    rw [flat8 (inject 4 B b), f, f, f, f, f, f, f, f, e0, e1, e2, e3]
    simp [flat8, f384, Model.Esch.at32]

end Digestpp.Proofs.Esch
