import Verif.Proofs.PermAscon
import Verif.Proofs.Md5
import Verif.Proofs.Sha1
import Verif.Proofs.Sha2
import Verif.Proofs.Sm3

/-! C57: the compression functions of MD5, SHA-1, SHA-2 and SM3 have the shape of Davies and Meyer. -/

namespace Digestpp.Proofs.Perm
open Spec Model

theorem foldl_inj {α β : Type} (f : β → α → β) (hf : ∀ a x y, f x a = f y a → x = y) : ∀ (l : List α) (x y : β), l.foldl f x = l.foldl f y → x = y
  | [], _, _, h => h
  | a :: l, _, _, h => hf a _ _ (foldl_inj f hf l _ _ h)

theorem add_right_inj' {w : Nat} {x y a b : BitVec w} (ha : a = b) (h : a + x = b + y) : x = y := by
  subst ha
  have := congrArg (· - a) h
  simpa [BitVec.add_comm a, BitVec.add_sub_cancel] using this

theorem add_left_inj {w : Nat} {x y a b : BitVec w} (ha : a = b) (h : x + a = y + b) : x = y := by
  rw [BitVec.add_comm x, BitVec.add_comm y] at h
  exact add_right_inj' ha h

/-- A function of tuples of words, seen as a function of arrays. -/
theorem of_tuples {w n : Nat} {β : Type} (arr : β → List (BitVec w)) (unarr : List (BitVec w) → β) (E : β → β) (hl : ∀ v, (arr v).length = n)
    (h1 : ∀ v, unarr (arr v) = v) (h2 : ∀ l, l.length = n → arr (unarr l) = l) (hE : ∀ u v, E u = E v → u = v) : Permutes n fun l => arr (E (unarr l)) :=
  of_inj (fun _ _ => hl _) fun A B hA hB h => by
    have := congrArg unarr h
    rw [h1, h1] at this
    rw [← h2 A hA, ← h2 B hB, hE _ _ this]

theorem Md5.step_inj (X : List (BitVec 32)) (i : Nat) (u v : BitVec 32 × BitVec 32 × BitVec 32 × BitVec 32)
    (h : Spec.Md5.step X u i = Spec.Md5.step X v i) : u = v := by
  obtain ⟨a, b, c, d⟩ := u
  obtain ⟨a', b', c', d'⟩ := v
  unfold Spec.Md5.step at h
  dsimp only at h
  simp only [Prod.mk.injEq] at h
  obtain ⟨rfl, h, rfl, rfl⟩ := h
  rw [add_left_inj rfl (add_left_inj rfl (add_left_inj rfl (rotl_inj (add_right_inj' rfl h))))]

theorem Md5.feedForward (b : Bytes) (hb : b.length = 64) : FeedForward 4 (· + ·) (Model.Md5.compress b) := by
  refine ⟨_, of_tuples Proofs.Md5.arr Proofs.Md5.unarr (fun h => (List.range 64).foldl (Spec.Md5.step (leWords 32 b)) h) (fun _ => rfl) (fun _ => rfl)
    (fun l hl => ?_) fun u v h => foldl_inj _ (Md5.step_inj _) _ _ _ h, fun A hA => ?_⟩
  · match l, hl with
    | [_, _, _, _], _ => rfl
  · rw [Proofs.Md5.compress_eq b A hb]
    match A, hA with
    | [_, _, _, _], _ => rfl

theorem Sha1.round_inj (M : List (BitVec 32)) (t : Nat) (u v : Spec.Sha1.H) (h : Spec.Sha1.round M u t = Spec.Sha1.round M v t) : u = v := by
  obtain ⟨a, b, c, d, e⟩ := u
  obtain ⟨a', b', c', d', e'⟩ := v
  unfold Spec.Sha1.round at h
  dsimp only at h
  simp only [Prod.mk.injEq] at h
  obtain ⟨h, rfl, hb, rfl, rfl⟩ := h
  have := rotl_inj hb
  subst this
  rw [add_right_inj' rfl (add_left_inj rfl (add_left_inj rfl h))]

theorem Sha1.feedForward (b : Bytes) (hb : b.length = 64) : FeedForward 5 (· + ·) (Model.Sha1.compress b) := by
  refine ⟨_, of_tuples Proofs.Sha1.arr Proofs.Sha1.unarr (fun h => (List.range 80).foldl (Spec.Sha1.round (beWords 32 b)) h) (fun _ => rfl) (fun _ => rfl)
    (fun l hl => ?_) fun u v h => foldl_inj _ (Sha1.round_inj _) _ _ _ h, fun A hA => ?_⟩
  · match l, hl with
    | [_, _, _, _, _], _ => rfl
  · rw [Proofs.Sha1.compress_eq b A hb]
    match A, hA with
    | [_, _, _, _, _], _ => rfl

theorem Sha2.round_inj {w : Nat} (v : Spec.Sha2.Variant w) (M : List (BitVec w)) (t : Nat) (x y : Spec.Sha2.H8 w)
    (h : Spec.Sha2.round v M x t = Spec.Sha2.round v M y t) : x = y := by
  obtain ⟨a, b, c, d, e, f, g, k⟩ := x
  obtain ⟨a', b', c', d', e', f', g', k'⟩ := y
  unfold Spec.Sha2.round at h
  dsimp only at h
  simp only [Spec.Sha2.H8.mk.injEq] at h
  obtain ⟨h1, rfl, rfl, rfl, h2, rfl, rfl, rfl⟩ := h
  have h1 := add_left_inj rfl h1
  rw [h1] at h2
  rw [add_left_inj rfl h2, add_left_inj rfl (add_left_inj rfl (add_left_inj rfl (add_left_inj rfl h1)))]

theorem Sha2.feedForward {w : Nat} {T : Model.Sha2.Word w} {v : Spec.Sha2.Variant w} (ok : Proofs.Sha2.WordOk T v) (b : Bytes) (hb : b.length = 2 * w) :
    FeedForward 8 (· + ·) fun H => .ok (Model.Sha2.compress T b H) := by
  refine ⟨_, of_tuples Proofs.Sha2.arr Proofs.Sha2.unarr (fun h => (List.range v.rounds).foldl (Spec.Sha2.round v (beWords w b)) h) (fun _ => rfl)
    (fun _ => rfl) (fun l hl => ?_) fun x y h => foldl_inj _ (Sha2.round_inj _ _) _ _ _ h, fun A hA => ?_⟩
  · match l, hl with
    | [_, _, _, _, _, _, _, _], _ => rfl
  · dsimp only
    rw [Proofs.Sha2.compress_eq ok b A hb]
    match A, hA with
    | [_, _, _, _, _, _, _, _], _ => rfl

theorem tri_inj32 (a b : Nat) {x y : BitVec 32} (h : tri a b x = tri a b y) : x = y := by
  have s : ∀ a b, tri a b x = tri a b y → tri (2 * a) (2 * b) x = tri (2 * a) (2 * b) y := fun a b h => by
    rw [← tri_tri, ← tri_tri, h]
  have e := s _ _ (s _ _ (s _ _ (s _ _ (s _ _ h))))
  rwa [tri_zero _ _ (by omega) (by omega), tri_zero _ _ (by omega) (by omega)] at e

theorem Sm3.round_inj (M : List (BitVec 32)) (t : Nat) (x y : Spec.Sm3.H8) (h : Spec.Sm3.round M x t = Spec.Sm3.round M y t) : x = y := by
  obtain ⟨a, b, c, d, e, f, g, k⟩ := x
  obtain ⟨a', b', c', d', e', f', g', k'⟩ := y
  unfold Spec.Sm3.round at h
  dsimp only at h
  simp only [Spec.Sm3.H8.mk.injEq] at h
  obtain ⟨h1, rfl, hb, rfl, h2, rfl, hf, rfl⟩ := h
  have := rotl_inj hb
  subst this
  have := rotl_inj hf
  subst this
  have h2 := tri_inj32 9 17 h2
  rw [add_right_inj' rfl (add_left_inj rfl (add_left_inj rfl h1)), add_right_inj' rfl (add_left_inj rfl (add_left_inj rfl h2))]

theorem Sm3.feedForward (b : Bytes) (hb : b.length = 64) : FeedForward 8 (· ^^^ ·) (Model.Sm3.compress rotlMasked b) := by
  refine ⟨_, of_tuples Proofs.Sm3.arr Proofs.Sm3.unarr (fun h => (List.range 64).foldl (Spec.Sm3.round (beWords 32 b)) h) (fun _ => rfl) (fun _ => rfl)
    (fun l hl => ?_) fun u v h => foldl_inj _ (Sm3.round_inj _) _ _ _ h, fun A hA => ?_⟩
  · match l, hl with
    | [_, _, _, _, _, _, _, _], _ => rfl
  · rw [Proofs.Sm3.compress_eq b A hb]
    match A, hA with
    | [a, b', c, d, e, f, g, k], _ =>
      unfold Proofs.Sm3.step Proofs.Sm3.arr Spec.Sm3.compress
      dsimp only
      generalize (List.range 64).foldl _ _ = r
      simp only [List.zipWith_cons_cons, List.zipWith_nil_left, BitVec.xor_comm r.a, BitVec.xor_comm r.b, BitVec.xor_comm r.c, BitVec.xor_comm r.d,
        BitVec.xor_comm r.e, BitVec.xor_comm r.f, BitVec.xor_comm r.g, BitVec.xor_comm r.h]
      rfl

/-- Exactly one argument is returned unchanged. -/
theorem fixed_point {w n : Nat} {op : BitVec w → BitVec w → BitVec w} {g : List (BitVec w) → M (List (BitVec w))} (h : FeedForward n op g)
    (h0 : ∀ x, op x 0 = x) (hop : ∀ x y, op x y = x → y = 0) : ∃ A, (A.length = n ∧ g A = .ok A) ∧ ∀ B, B.length = n → g B = .ok B → B = A := by
  obtain ⟨E, pE, e⟩ := h
  have z : ∀ (A C : List (BitVec w)), A.length = C.length → List.zipWith op A C = A → C = List.replicate C.length 0 := by
    intro A C hl hz
    induction A generalizing C with
    | nil => rw [List.length_eq_zero_iff.mp hl.symm]; rfl
    | cons a A ih =>
      match C, hl with
      | c :: C, hl =>
        rw [List.zipWith_cons_cons] at hz
        injection hz with hz1 hz2
        rw [hop _ _ hz1, List.length_cons, List.replicate_succ, ← ih C (by simpa using hl) hz2]
  have z' : ∀ A : List (BitVec w), List.zipWith op A (List.replicate A.length 0) = A := by
    intro A
    induction A with
    | nil => rfl
    | cons a A ih => rw [List.length_cons, List.replicate_succ, List.zipWith_cons_cons, ih, h0]
  obtain ⟨A, hA, eA⟩ := pE.surj (List.replicate n 0) List.length_replicate
  refine ⟨A, ⟨hA, by rw [e A hA, eA, ← hA, z']⟩, fun B hB hg => ?_⟩
  rw [e B hB] at hg
  injection hg with hg
  have := z B (E B) (by rw [hB, pE.length B hB]) hg
  rw [pE.length B hB] at this
  exact pE.inj _ _ hB hA (by rw [this, eA])

end Digestpp.Proofs.Perm
