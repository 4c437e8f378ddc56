import Verif.Proofs.Absorb
import Verif.Model.Hasher

/-! Undefined behaviour of a part is undefined behaviour of the whole. -/

namespace Digestpp.Proofs
open Model

theorem construct_ub (c : HashClass) (mem s : c.S) (e : UB) (h : c.ctor mem = .ok (some s)) (hi : c.pr.init s = .error e) :
    c.construct mem = .error e := by
  unfold HashClass.construct
  rw [h, ok_bind]
  dsimp only
  rw [hi]
  rfl

theorem digestIt_ub {S P : Type} (pr : HashProvider S P) (s : S) (e : UB) (h : 0 < pr.hashSize s / 8) (hf : pr.final s = .error e) :
    pr.digestIt s = .error e := by
  unfold HashProvider.digestIt
  obtain ⟨n, hn⟩ : ∃ n, pr.hashSize s / 8 = n + 1 := ⟨pr.hashSize s / 8 - 1, by omega⟩
  rw [hn, List.replicate_succ, hf]
  rfl

end Digestpp.Proofs
