import Verif.Proofs.PermTables
import Verif.Model.Whirlpool

/-! C56: the block cipher of WHIRLPOOL, for each key, and its key schedule. -/

namespace Digestpp.Proofs.Perm.Whirlpool
open Spec Model Model.Whirlpool

theorem checked : Checked 8 whirlpool_T whirlpoolRows whirlpoolBox where
  lin := by decide +kernel
  inv := by
    intro B hB
    have : B = whirlpoolBox0 := by simpa [whirlpoolBox] using hB
    subst this
    exact ⟨whirlpoolInv0, by decide +kernel⟩
  len := by decide

/-- The lookups for all eight words. -/
def layer (ll : List (BitVec 64)) : List (BitVec 64) := (List.range 8).map fun c => G (c + 8) ll

theorem layer_permutes : Permutes 8 layer :=
  Perm.layer_permutes checked 8 (fun c i => (c + 8 - i) % 8) (by decide)

theorem nextState_permutes (L : List (BitVec 64)) : Permutes 8 (nextState L) := by
  have h := comp layer_permutes (xor_permutes fun i => L.getD i 0)
  refine Perm.congr h fun A _ => ?_
  show _ = [_, _, _, _, _, _, _, _]
  unfold nextState layer
  simp only [List.range, List.range.loop, List.map, BitVec.xor_comm (L.getD _ _)]
  rfl

theorem nextKey_permutes (r : Nat) : Permutes 8 (nextKey r) := by
  have h := comp layer_permutes (xor_permutes fun i => if i = 0 then whirlpool_RC.getD r 0 else 0)
  refine Perm.congr h fun A _ => ?_
  show _ = [_, _, _, _, _, _, _, _]
  unfold nextKey layer
  simp only [List.range, List.range.loop, List.map]
  simp

theorem state_permutes (K : List (BitVec 64)) : Permutes 8 fun s => (rounds (K, s)).2 :=
  keyed (fun K r => nextKey r K) nextState nextState_permutes (List.range 10) K

theorem rounds_key (l : List Nat) : ∀ K s : List (BitVec 64), (l.foldl (fun (p : List (BitVec 64) × List (BitVec 64)) r =>
    (nextKey r p.1, nextState (nextKey r p.1) p.2)) (K, s)).1 = l.foldl (fun K r => nextKey r K) K := by
  induction l with
  | nil => intros; rfl
  | cons r l ih => intro K s; exact ih _ _

theorem key_permutes (s : List (BitVec 64)) : Permutes 8 fun K => (rounds (K, s)).1 :=
  Perm.congr (Perm.foldl (fun r K => nextKey r K) (List.range 10) fun r _ => nextKey_permutes r) fun K _ => rounds_key _ K s

end Digestpp.Proofs.Perm.Whirlpool
