import Verif.Proofs.PermMd
import Verif.Proofs.Lsh

/-! C56: the compression function of LSH, for each block. -/

namespace Digestpp.Proofs.Perm.Lsh
open Spec Model Spec.Lsh
open Proofs.Lsh (arr arr_getD)

variable {w : Nat}

/-- The same sixteen words. -/
def Same (f g : Nat → BitVec w) : Prop := ∀ l, l < 16 → f l = g l

theorem mixWords_inj (F : Family w) (j l : Nat) {x y x' y' : BitVec w} (h : mixWords F j l x y = mixWords F j l x' y') : x = x' ∧ y = y' := by
  unfold mixWords at h
  dsimp only at h
  injection h with h1 h2
  have y2 := rotl_inj h2
  have x2 := add_left_inj y2 h1
  have y1 := add_right_inj' x2 (rotl_inj y2)
  exact ⟨add_left_inj y1 (rotl_inj (xor_left_inj rfl x2)), y1⟩

theorem mix_inj (F : Family w) (j : Nat) (f g : Nat → BitVec w) (h : Same (mix F j f) (mix F j g)) : Same f g := by
  have p : ∀ l, l < 8 → f l = g l ∧ f (l + 8) = g (l + 8) := by
    intro l hl
    have a := h l (by omega)
    have b := h (l + 8) (by omega)
    unfold mix at a b
    rw [if_pos hl, if_pos hl] at a
    rw [if_neg (by omega), if_neg (by omega), Nat.add_sub_cancel] at b
    exact mixWords_inj F j l (Prod.ext a b)
  intro l hl
  by_cases h8 : l < 8
  · exact (p l h8).1
  · have := (p (l - 8) (by omega)).2
    rwa [show l - 8 + 8 = l by omega] at this

theorem step_inj (F : Family w) (M : Nat → Nat → BitVec w) (j : Nat) (f g : Nat → BitVec w) (h : Same (step F M f j) (step F M g j)) : Same f g := by
  have hσ : ∀ d, d < 16 → ∃ l, l < 16 ∧ σ l = d := by decide
  have := mix_inj F j (msgAdd f (M j)) (msgAdd g (M j)) fun d hd => by
    obtain ⟨l, hl, rfl⟩ := hσ d hd
    exact h l hl
  exact fun l hl => xor_left_inj rfl (this l hl)

theorem foldl_inj (F : Family w) (M : Nat → Nat → BitVec w) : ∀ (l : List Nat) (f g : Nat → BitVec w),
    Same (l.foldl (step F M) f) (l.foldl (step F M) g) → Same f g
  | [], _, _, h => h
  | j :: l, f, g, h => step_inj F M j f g (foldl_inj F M l _ _ h)

theorem CF_inj (F : Family w) (m f g : Nat → BitVec w) (h : Same (CF F f m) (CF F g m)) : Same f g :=
  foldl_inj F _ _ f g fun l hl => xor_left_inj rfl (h l hl)

theorem runs {T : Model.Lsh.Word w} {F : Family w} (ok : Proofs.Lsh.Ok T F) (b : Bytes) (hb : b.length = 4 * w) (h : Model.Lsh.St w) :
    Runs 16 fun cv => (Model.Lsh.compress rotlMasked T b { h with cv := cv }).map (·.cv) := by
  refine ⟨fun cv => arr (CF F (cv.getD · 0) (words w b)), of_inj (fun _ _ => by simp [arr]) ?_, ?_⟩
  · intro A B hA hB h
    rw [arr_getD A hA, arr_getD B hB]
    apply List.map_congr_left
    intro l hl
    refine CF_inj F (words w b) (A.getD · 0) (B.getD · 0) (fun l hl => ?_) l (List.mem_range.mp hl)
    have := congrArg (fun x => x.getD l 0) h
    unfold arr at this
    simp only [getD_map_range _ _ _ _ hl] at this
    exact this
  · intro A hA
    obtain ⟨t, e⟩ := Proofs.Lsh.compress_eq ok b hb (A.getD · 0) { h with cv := A } (arr_getD A hA)
    dsimp only
    rw [e]
    rfl

end Digestpp.Proofs.Perm.Lsh
