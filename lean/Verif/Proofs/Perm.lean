import Mathlib.Data.Fintype.EquivFin
import Mathlib.Data.Finite.Prod
import Mathlib.Data.List.OfFn
import Verif.Spec.Permutes

/-! C56: permutations. -/

namespace Digestpp.Proofs.Perm
open Spec

instance {w : Nat} : Finite (BitVec w) := Finite.of_injective BitVec.toFin fun _ _ h => BitVec.eq_of_toFin_eq h

/-- On the arrays of one length, an injective function is onto. -/
theorem of_inj {w n : Nat} {f : List (BitVec w) → List (BitVec w)} (hl : ∀ A, A.length = n → (f A).length = n)
    (hi : ∀ A B, A.length = n → B.length = n → f A = f B → A = B) : Permutes n f := by
  refine ⟨hl, hi, fun B hB => ?_⟩
  let g : (Fin n → BitVec w) → (Fin n → BitVec w) := fun a i => (f (List.ofFn a)).getD i 0
  have hof : ∀ A : List (BitVec w), A.length = n → List.ofFn (fun i : Fin n => A.getD i 0) = A := by
    intro A hA
    apply List.ext_getElem
    · rw [List.length_ofFn, hA]
    · intro i h1 h2
      rw [List.getElem_ofFn, List.getD_eq_getElem?_getD, List.getElem?_eq_getElem h2, Option.getD_some]
  have hg : ∀ a, List.ofFn (g a) = f (List.ofFn a) := fun a => hof _ (hl _ List.length_ofFn)
  have inj : Function.Injective g := by
    intro a b h
    have := hi (List.ofFn a) (List.ofFn b) List.length_ofFn List.length_ofFn (by rw [← hg a, ← hg b, h])
    exact List.ofFn_injective this
  obtain ⟨a, ha⟩ := Finite.injective_iff_surjective.1 inj (fun i => B.getD i 0)
  exact ⟨List.ofFn a, List.length_ofFn, by rw [← hg, ha, hof B hB]⟩

theorem comp {w n : Nat} {f g : List (BitVec w) → List (BitVec w)} (hf : Permutes n f) (hg : Permutes n g) : Permutes n fun A => g (f A) where
  length := fun A h => hg.length _ (hf.length A h)
  inj := fun A B hA hB h => hf.inj A B hA hB (hg.inj _ _ (hf.length A hA) (hf.length B hB) h)
  surj := fun B hB => by
    obtain ⟨C, hC, rfl⟩ := hg.surj B hB
    obtain ⟨A, hA, rfl⟩ := hf.surj C hC
    exact ⟨A, hA, rfl⟩

theorem id' {w : Nat} (n : Nat) : Permutes (w := w) n fun A => A :=
  ⟨fun _ h => h, fun _ _ _ _ h => h, fun B h => ⟨B, h, rfl⟩⟩

theorem foldl {w n : Nat} {α : Type} (f : α → List (BitVec w) → List (BitVec w)) : ∀ l : List α, (∀ r ∈ l, Permutes n (f r)) →
    Permutes n fun A => l.foldl (fun A r => f r A) A
  | [], _ => id' n
  | r :: l, h => comp (h r (List.mem_cons_self ..)) (foldl f l fun r hr => h r (List.mem_cons_of_mem _ hr))

theorem congr {w n : Nat} {f g : List (BitVec w) → List (BitVec w)} (hf : Permutes n f) (h : ∀ A, A.length = n → g A = f A) : Permutes n g where
  length := fun A hA => by rw [h A hA]; exact hf.length A hA
  inj := fun A B hA hB e => hf.inj A B hA hB (by rw [← h A hA, ← h B hB, e])
  surj := fun B hB => by
    obtain ⟨A, hA, e⟩ := hf.surj B hB
    exact ⟨A, hA, by rw [h A hA, e]⟩

/-! Rotations of words. -/

theorem bit_rotl {w : Nat} (x : BitVec w) (r i : Nat) (hi : i < w) : (x.rotateLeft r).getLsbD i = x.getLsbD ((i + (w - r % w)) % w) := by
  rw [BitVec.getLsbD_rotateLeft]
  have := Nat.mod_lt r (show 0 < w by omega)
  by_cases h : i < r % w
  · rw [decide_eq_true h, cond_true, Nat.mod_eq_of_lt (show i + (w - r % w) < w by omega), Nat.add_comm]
  · rw [decide_eq_false h, cond_false, decide_eq_true hi, Bool.true_and]
    congr 1
    rw [show i + (w - r % w) = i - r % w + w by omega, Nat.add_mod_right, Nat.mod_eq_of_lt (show i - r % w < w by omega)]

theorem rotl_rotl {w : Nat} (x : BitVec w) (a b : Nat) : (x.rotateLeft a).rotateLeft b = x.rotateLeft (a + b) := by
  apply BitVec.eq_of_getLsbD_eq
  intro i hi
  have hw : 0 < w := by omega
  rw [bit_rotl _ _ _ hi, bit_rotl _ _ _ (Nat.mod_lt _ hw), bit_rotl _ _ _ hi]
  congr 1
  have h1 := Nat.mod_lt a hw
  have h2 := Nat.mod_lt b hw
  rw [Nat.mod_add_mod, Nat.add_mod a b]
  by_cases h : a % w + b % w < w
  · rw [Nat.mod_eq_of_lt h, show i + (w - b % w) + (w - a % w) = i + (w - (a % w + b % w)) + w by omega, Nat.add_mod_right]
  · rw [show (a % w + b % w) % w = a % w + b % w - w by
      rw [Nat.mod_eq_sub_mod (by omega), Nat.mod_eq_of_lt (by omega)],
      show i + (w - b % w) + (w - a % w) = i + (w - (a % w + b % w - w)) by omega]

theorem rotl_xor {w : Nat} (x y : BitVec w) (r : Nat) : (x ^^^ y).rotateLeft r = x.rotateLeft r ^^^ y.rotateLeft r := by
  apply BitVec.eq_of_getLsbD_eq
  intro i hi
  rw [BitVec.getLsbD_xor, bit_rotl _ _ _ hi, bit_rotl _ _ _ hi, bit_rotl _ _ _ hi, BitVec.getLsbD_xor]

theorem rotl_mod {w : Nat} (x : BitVec w) (r : Nat) (h : r % w = 0) : x.rotateLeft r = x := by
  apply BitVec.eq_of_getLsbD_eq
  intro i hi
  rw [bit_rotl _ _ _ hi, h, Nat.sub_zero, Nat.add_mod_right, Nat.mod_eq_of_lt hi]

theorem rotl_inj {w : Nat} {x y : BitVec w} {r : Nat} (h : x.rotateLeft r = y.rotateLeft r) : x = y := by
  by_cases hw : w = 0
  · subst hw; exact Subsingleton.elim _ _
  have e : ∀ z : BitVec w, (z.rotateLeft r).rotateLeft (w - r % w) = z := by
    intro z
    rw [rotl_rotl]
    apply rotl_mod
    have := Nat.mod_lt r (show 0 < w by omega)
    rw [Nat.add_mod]
    by_cases h0 : r % w = 0
    · rw [h0, Nat.sub_zero, Nat.mod_self, Nat.zero_mod]
    · rw [Nat.mod_eq_of_lt (show w - r % w < w by omega), show r % w + (w - r % w) = w by omega, Nat.mod_self]
  rw [← e x, h, e y]

theorem xor_left_inj {w : Nat} {x y a b : BitVec w} (ha : a = b) (h : x ^^^ a = y ^^^ b) : x = y := by
  subst ha
  have := congrArg (· ^^^ a) h
  simpa [BitVec.xor_assoc] using this

end Digestpp.Proofs.Perm
