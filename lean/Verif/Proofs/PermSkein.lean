import Verif.Proofs.Perm
import Verif.Proofs.SkeinCore

/-! C56: Threefish, for each key and tweak. -/

namespace Digestpp.Proofs.Perm

theorem add_left_inj' {w : Nat} {x y a b : BitVec w} (ha : a = b) (h : x + a = y + b) : x = y := by
  subst ha
  have := congrArg (· - a) h
  simpa [BitVec.add_sub_cancel] using this

namespace Runs
open Spec

theorem pure {w n : Nat} {f : List (BitVec w) → List (BitVec w)} (h : Permutes n f) : Runs n fun A => Pure.pure (f A) := ⟨f, h, fun _ _ => rfl⟩

theorem ok {w n : Nat} {f : List (BitVec w) → List (BitVec w)} {g : List (BitVec w) → M (List (BitVec w))} (h : Permutes n f)
    (hg : ∀ A, A.length = n → g A = .ok (f A)) : Runs n g := ⟨f, h, hg⟩

theorem bind {w n : Nat} {f g : List (BitVec w) → M (List (BitVec w))} (hf : Runs n f) (hg : Runs n g) : Runs n fun A => f A >>= g := by
  obtain ⟨f', pf, ef⟩ := hf
  obtain ⟨g', pg, eg⟩ := hg
  exact ⟨_, Perm.comp pf pg, fun A hA => by
    dsimp only
    rw [ef A hA, ok_bind, eg _ (pf.length A hA)]⟩

theorem foldlM {w n : Nat} {α : Type} (f : α → List (BitVec w) → M (List (BitVec w))) : ∀ l : List α, (∀ r ∈ l, Runs n (f r)) →
    Runs n fun A => l.foldlM (fun A r => f r A) A
  | [], _ => pure (id' n)
  | r :: l, h => bind (h r (List.mem_cons_self ..)) (foldlM f l fun r hr => h r (List.mem_cons_of_mem _ hr))

theorem congr {w n : Nat} {f g : List (BitVec w) → M (List (BitVec w))} (hf : Runs n f) (h : ∀ A, A.length = n → g A = f A) : Runs n g := by
  obtain ⟨f', pf, ef⟩ := hf
  exact ⟨f', pf, fun A hA => by rw [h A hA, ef A hA]⟩

end Runs

open Spec in
/-- Adding fixed words. -/
theorem add_permutes {w n : Nat} (k : Nat → BitVec w) : Permutes n fun A => (List.range n).map fun i => A.getD i 0 + k i := by
  apply of_inj
  · intro A _
    simp
  · intro A B hA hB h
    rw [← map_range_getD A 0 n hA, ← map_range_getD B 0 n hB]
    apply List.map_congr_left
    intro i hi
    have := congrArg (fun l => l.getD i 0) h
    rw [getD_map_range _ _ _ _ (List.mem_range.mp hi), getD_map_range _ _ _ _ (List.mem_range.mp hi)] at this
    exact add_left_inj' rfl this

end Digestpp.Proofs.Perm

namespace Digestpp.Proofs.Perm.Skein
open Model Spec
open Model.Skein (Fns)
open Spec.Skein (Threefish mix0 mix1)
open Proofs.Skein (FOk idx cnt getD_set)

theorem pair_runs (n i0 i1 c : Nat) (hc : 0 < c ∧ c < 64) (h0 : i0 < n) (h1 : i1 < n) (hne : i0 ≠ i1) : Runs n (Model.Skein.pair i0 i1 c) := by
  refine Runs.ok (of_inj (f := fun G => (G.set i0 (mix0 (G.getD i0 0) (G.getD i1 0))).set i1 (mix1 c (G.getD i0 0) (G.getD i1 0)))
    (fun A hA => by simpa using hA) ?_) fun A _ => Proofs.Skein.pair_ok i0 i1 c hc A
  intro A B hA hB h
  have g : ∀ C : List (BitVec 64), C.length = n → ∀ j,
      ((C.set i0 (mix0 (C.getD i0 0) (C.getD i1 0))).set i1 (mix1 c (C.getD i0 0) (C.getD i1 0))).getD j 0
        = if j = i1 then mix1 c (C.getD i0 0) (C.getD i1 0) else if j = i0 then mix0 (C.getD i0 0) (C.getD i1 0) else C.getD j 0 := by
    intro C hC j
    rw [getD_set _ _ _ _ _ (by rw [List.length_set]; omega), getD_set _ _ _ _ _ (by omega)]
  have e : ∀ j, (if j = i1 then mix1 c (A.getD i0 0) (A.getD i1 0) else if j = i0 then mix0 (A.getD i0 0) (A.getD i1 0) else A.getD j 0)
      = (if j = i1 then mix1 c (B.getD i0 0) (B.getD i1 0) else if j = i0 then mix0 (B.getD i0 0) (B.getD i1 0) else B.getD j 0) := by
    intro j
    rw [← g A hA, ← g B hB]
    exact congrArg (fun l => l.getD j 0) h
  have e1 := e i1
  rw [if_pos rfl, if_pos rfl] at e1
  have e0 := e i0
  rw [if_neg hne, if_neg hne, if_pos rfl, if_pos rfl] at e0
  unfold mix1 at e1
  have x1 : A.getD i1 0 = B.getD i1 0 := rotl_inj (xor_left_inj e0 e1)
  unfold mix0 at e0
  have x0 : A.getD i0 0 = B.getD i0 0 := add_left_inj' x1 e0
  rw [← map_range_getD A 0 n hA, ← map_range_getD B 0 n hB]
  apply List.map_congr_left
  intro j _
  by_cases j1 : j = i1
  · rw [j1, x1]
  · by_cases j0 : j = i0
    · rw [j0, x0]
    · have := e j
      rwa [if_neg j1, if_neg j1, if_neg j0, if_neg j0] at this

theorem GTv4_runs {F : Fns} {T : Threefish} (ok : FOk F T) (r : Nat) (hr : r < 8) : Runs F.nw (Model.Skein.GTv4 F r) := by
  have hev := ok.even
  unfold Model.Skein.GTv4
  refine Runs.foldlM (fun j G => Model.Skein.pair ((F.I.getD r []).getD (2 * j) 0) ((F.I.getD r []).getD (2 * j + 1) 0) ((F.C.getD r []).getD j 0) G)
    (List.range (F.nw / 2)) ?_
  intro j hj
  have hj := List.mem_range.mp hj
  rw [ok.nw] at hj ⊢
  refine pair_runs _ _ _ _ (ok.rot r hr j hj).2 (ok.lt r hr (2 * j) (by omega)) (ok.lt r hr (2 * j + 1) (by omega)) ?_
  intro h
  have := ok.inj r hr (2 * j) (by omega) (2 * j + 1) (by omega) h
  omega

theorem KStRv4_runs (F : Fns) (r : Nat) (keys tweaks : List (BitVec 64)) : Permutes F.nw (Model.Skein.KStRv4 F r keys tweaks) :=
  add_permutes _

theorem G8_runs {F : Fns} {T : Threefish} (ok : FOk F T) (r : Nat) (keys tweaks : List (BitVec 64)) : Runs F.nw (Model.Skein.G8 F r keys tweaks) := by
  have g := fun i (hi : i < 8) => GTv4_runs ok i hi
  exact Runs.bind (g 0 (by omega)) <| Runs.bind (g 1 (by omega)) <| Runs.bind (g 2 (by omega)) <| Runs.bind (g 3 (by omega)) <|
    Runs.bind (f := fun A => pure (Model.Skein.KStRv4 F r keys tweaks A)) (Runs.pure (KStRv4_runs F r keys tweaks)) <|
    Runs.bind (g 4 (by omega)) <| Runs.bind (g 5 (by omega)) <| Runs.bind (g 6 (by omega)) <| Runs.bind (g 7 (by omega)) <|
    Runs.pure (KStRv4_runs F (r + 1) keys tweaks)

theorem start_permutes (F : Fns) (keys tweaks : List (BitVec 64)) : Permutes F.nw fun W => Model.Skein.start F W keys tweaks := by
  refine Perm.congr (add_permutes fun i => if i = F.nw - 3 then keys.getD i 0 + tweaks.getD 0 0
    else if i = F.nw - 2 then keys.getD i 0 + tweaks.getD 1 0 else keys.getD i 0) fun A _ => ?_
  unfold Model.Skein.start
  apply List.map_congr_left
  intro i _
  dsimp only
  split
  · rw [BitVec.add_assoc]
  · split
    · rw [BitVec.add_assoc]
    · rfl

theorem runs {F : Fns} {T : Threefish} (ok : FOk F T) (keys tweaks : List (BitVec 64)) :
    Runs F.nw fun W => (List.range F.g8).foldlM (fun G i => Model.Skein.G8 F (2 * i) keys tweaks G) (Model.Skein.start F W keys tweaks) := by
  obtain ⟨f, pf, ef⟩ := Runs.foldlM (n := F.nw) (fun i G => Model.Skein.G8 F (2 * i) keys tweaks G) (List.range F.g8) fun i _ => G8_runs ok (2 * i) keys tweaks
  exact ⟨_, Perm.comp (start_permutes F keys tweaks) pf, fun A hA => ef _ ((start_permutes F keys tweaks).length A hA)⟩

end Digestpp.Proofs.Perm.Skein
