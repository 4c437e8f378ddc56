import Verif.Model.BlakeRound
import Verif.Spec.BlakeRound
import Verif.Proofs.Sched

/-! The rounds of BLAKE and BLAKE2. -/

namespace Digestpp.Proofs.Blake
open Model Spec

variable {w : Nat}

def toCol (q : Model.Blake.Quad w) : Spec.Blake.Col w := ⟨q.a, q.b, q.c, q.d⟩
def ofCol (x : Spec.Blake.Col w) : Model.Blake.Quad w := ⟨x.a, x.b, x.c, x.d⟩

theorem at0 (g : Model.Blake.Quad w → Model.Blake.Quad w) (x0 x1 x2 x3 x4 x5 x6 x7 x8 x9 x10 x11 x12 x13 x14 x15 : BitVec w) :
    Model.Blake.atQuad g 0 4 8 12 [x0, x1, x2, x3, x4, x5, x6, x7, x8, x9, x10, x11, x12, x13, x14, x15]
      = [(g ⟨x0, x4, x8, x12⟩).a, x1, x2, x3, (g ⟨x0, x4, x8, x12⟩).b, x5, x6, x7, (g ⟨x0, x4, x8, x12⟩).c, x9, x10, x11, (g ⟨x0, x4, x8, x12⟩).d, x13, x14, x15] := rfl

theorem at1 (g : Model.Blake.Quad w → Model.Blake.Quad w) (x0 x1 x2 x3 x4 x5 x6 x7 x8 x9 x10 x11 x12 x13 x14 x15 : BitVec w) :
    Model.Blake.atQuad g 1 5 9 13 [x0, x1, x2, x3, x4, x5, x6, x7, x8, x9, x10, x11, x12, x13, x14, x15]
      = [x0, (g ⟨x1, x5, x9, x13⟩).a, x2, x3, x4, (g ⟨x1, x5, x9, x13⟩).b, x6, x7, x8, (g ⟨x1, x5, x9, x13⟩).c, x10, x11, x12, (g ⟨x1, x5, x9, x13⟩).d, x14, x15] := rfl

theorem at2 (g : Model.Blake.Quad w → Model.Blake.Quad w) (x0 x1 x2 x3 x4 x5 x6 x7 x8 x9 x10 x11 x12 x13 x14 x15 : BitVec w) :
    Model.Blake.atQuad g 2 6 10 14 [x0, x1, x2, x3, x4, x5, x6, x7, x8, x9, x10, x11, x12, x13, x14, x15]
      = [x0, x1, (g ⟨x2, x6, x10, x14⟩).a, x3, x4, x5, (g ⟨x2, x6, x10, x14⟩).b, x7, x8, x9, (g ⟨x2, x6, x10, x14⟩).c, x11, x12, x13, (g ⟨x2, x6, x10, x14⟩).d, x15] := rfl

theorem at3 (g : Model.Blake.Quad w → Model.Blake.Quad w) (x0 x1 x2 x3 x4 x5 x6 x7 x8 x9 x10 x11 x12 x13 x14 x15 : BitVec w) :
    Model.Blake.atQuad g 3 7 11 15 [x0, x1, x2, x3, x4, x5, x6, x7, x8, x9, x10, x11, x12, x13, x14, x15]
      = [x0, x1, x2, (g ⟨x3, x7, x11, x15⟩).a, x4, x5, x6, (g ⟨x3, x7, x11, x15⟩).b, x8, x9, x10, (g ⟨x3, x7, x11, x15⟩).c, x12, x13, x14, (g ⟨x3, x7, x11, x15⟩).d] := rfl

theorem at4 (g : Model.Blake.Quad w → Model.Blake.Quad w) (x0 x1 x2 x3 x4 x5 x6 x7 x8 x9 x10 x11 x12 x13 x14 x15 : BitVec w) :
    Model.Blake.atQuad g 0 5 10 15 [x0, x1, x2, x3, x4, x5, x6, x7, x8, x9, x10, x11, x12, x13, x14, x15]
      = [(g ⟨x0, x5, x10, x15⟩).a, x1, x2, x3, x4, (g ⟨x0, x5, x10, x15⟩).b, x6, x7, x8, x9, (g ⟨x0, x5, x10, x15⟩).c, x11, x12, x13, x14, (g ⟨x0, x5, x10, x15⟩).d] := rfl

theorem at5 (g : Model.Blake.Quad w → Model.Blake.Quad w) (x0 x1 x2 x3 x4 x5 x6 x7 x8 x9 x10 x11 x12 x13 x14 x15 : BitVec w) :
    Model.Blake.atQuad g 1 6 11 12 [x0, x1, x2, x3, x4, x5, x6, x7, x8, x9, x10, x11, x12, x13, x14, x15]
      = [x0, (g ⟨x1, x6, x11, x12⟩).a, x2, x3, x4, x5, (g ⟨x1, x6, x11, x12⟩).b, x7, x8, x9, x10, (g ⟨x1, x6, x11, x12⟩).c, (g ⟨x1, x6, x11, x12⟩).d, x13, x14, x15] := rfl

theorem at6 (g : Model.Blake.Quad w → Model.Blake.Quad w) (x0 x1 x2 x3 x4 x5 x6 x7 x8 x9 x10 x11 x12 x13 x14 x15 : BitVec w) :
    Model.Blake.atQuad g 2 7 8 13 [x0, x1, x2, x3, x4, x5, x6, x7, x8, x9, x10, x11, x12, x13, x14, x15]
      = [x0, x1, (g ⟨x2, x7, x8, x13⟩).a, x3, x4, x5, x6, (g ⟨x2, x7, x8, x13⟩).b, (g ⟨x2, x7, x8, x13⟩).c, x9, x10, x11, x12, (g ⟨x2, x7, x8, x13⟩).d, x14, x15] := rfl

theorem at7 (g : Model.Blake.Quad w → Model.Blake.Quad w) (x0 x1 x2 x3 x4 x5 x6 x7 x8 x9 x10 x11 x12 x13 x14 x15 : BitVec w) :
    Model.Blake.atQuad g 3 4 9 14 [x0, x1, x2, x3, x4, x5, x6, x7, x8, x9, x10, x11, x12, x13, x14, x15]
      = [x0, x1, x2, (g ⟨x3, x4, x9, x14⟩).a, (g ⟨x3, x4, x9, x14⟩).b, x5, x6, x7, x8, (g ⟨x3, x4, x9, x14⟩).c, x10, x11, x12, x13, (g ⟨x3, x4, x9, x14⟩).d, x15] := rfl

theorem round_eq' (g : Nat → Model.Blake.Quad w → Model.Blake.Quad w) (f : Nat → BitVec w) :
    Model.Blake.round g ((List.range 16).map f)
      = (List.range 16).map (Spec.Blake.round (fun i x => toCol (g i (ofCol x))) f) := by
  rw [show (List.range 16).map f = [f 0, f 1, f 2, f 3, f 4, f 5, f 6, f 7, f 8, f 9, f 10, f 11, f 12, f 13, f 14, f 15] from rfl]
  unfold Model.Blake.round
  dsimp only
  rw [at0, at1, at2, at3, at4, at5, at6, at7]
  rfl

theorem round_eq (g : Nat → Model.Blake.Quad w → Model.Blake.Quad w) (G : Nat → Spec.Blake.Col w → Spec.Blake.Col w)
    (h : ∀ i, i < 8 → ∀ q, toCol (g i q) = G i (toCol q)) (f : Nat → BitVec w) :
    Model.Blake.round g ((List.range 16).map f) = (List.range 16).map (Spec.Blake.round G f) := by
  rw [round_eq']
  apply List.map_congr_left
  intro k hk
  rw [List.mem_range] at hk
  have e : ∀ i, i < 8 → (fun x => toCol (g i (ofCol x))) = G i := by
    intro i hi; funext x; exact h i hi (ofCol x)
  have e' : ∀ i x, i < 8 → toCol (g i (ofCol x)) = G i x := fun i x hi => congrFun (e i hi) x
  simp only [Spec.Blake.round]
  have hm : ∀ n, n % 4 < 8 := by intro n; omega
  have hm' : ∀ n, 4 + n % 4 < 8 := by intro n; omega
  rw [e' (4 + _) _ (hm' _)]
  simp only [e' _ _ (hm _)]

end Digestpp.Proofs.Blake
