import Verif.Model.Sm3
import Verif.Model.Lsh

/-! C39: SM3 and LSH only depend on what `rotate_left` does with the counts they pass to it. -/

namespace Digestpp.Proofs.Shifts
open Model

theorem foldlM_congr {α σ : Type} {f g : σ → α → M σ} : ∀ (l : List α) (s : σ), (∀ a ∈ l, ∀ s, f s a = g s a) →
    l.foldlM f s = l.foldlM g s
  | [], _, _ => rfl
  | a :: l, s, h => by
    rw [List.foldlM_cons, List.foldlM_cons, h a (List.mem_cons_self ..)]
    exact congrArg _ (funext fun s => foldlM_congr l s fun b hb => h b (List.mem_cons_of_mem _ hb))

theorem mapM_congr {α β : Type} {f g : α → M β} : ∀ (l : List α), (∀ a ∈ l, f a = g a) → l.mapM f = l.mapM g
  | [], _ => rfl
  | a :: l, h => by
    rw [List.mapM_cons, List.mapM_cons, h a (List.mem_cons_self ..), mapM_congr l fun b hb => h b (List.mem_cons_of_mem _ hb)]

theorem sm3_compress {rot rot' : Model.Sm3.Rot} (h : ∀ x n, n < 64 → rot x n = rot' x n) : Model.Sm3.compress rot = Model.Sm3.compress rot' := by
  funext block H
  unfold Model.Sm3.compress
  have r : ∀ k ff gg W W2 t, t < 64 → ∀ v, Model.Sm3.round rot k ff gg W W2 v t = Model.Sm3.round rot' k ff gg W W2 v t := by
    intro k ff gg W W2 t ht v
    unfold Model.Sm3.round
    rw [h _ _ ht]
  dsimp only
  rw [foldlM_congr (List.range 16) _ fun t ht s => r _ _ _ _ _ t (by rw [List.mem_range] at ht; omega) s]
  refine congrArg _ (funext fun v => ?_)
  rw [foldlM_congr (List.range' 16 48) _ fun t ht s => r _ _ _ _ _ t (by rw [List.mem_range'_1] at ht; omega) s]

theorem sm3_provider {rot rot' : Model.Sm3.Rot} (h : ∀ x n, n < 64 → rot x n = rot' x n) :
    Model.Sm3.provider rot = Model.Sm3.provider rot' := by
  have ht : Model.Sm3.transform rot = Model.Sm3.transform rot' := by
    unfold Model.Sm3.transform
    rw [sm3_compress h]
  unfold Model.Sm3.provider Model.Sm3.update Model.Sm3.final
  rw [ht]

theorem lsh_compress {w : Nat} {T : Model.Lsh.Word w} {rot rot' : Model.Lsh.Rot w} (hT : ∀ l, l < 8 → T.G.getD l 0 < w)
    (h : ∀ x n, n < w → rot x n = rot' x n) : Model.Lsh.compress rot T = Model.Lsh.compress rot' T := by
  have s : ∀ i ra rb, Model.Lsh.step rot T i ra rb = Model.Lsh.step rot' T i ra rb := by
    intro i ra rb
    funext st
    unfold Model.Lsh.step
    rw [mapM_congr (List.range 8) (g := fun l => Model.Lsh.addmix rot' st.cv (st.msgexp.getD i []) ((T.SC.getD i []).getD l 0) ra rb (T.G.getD l 0) l)]
    intro l hl
    rw [List.mem_range] at hl
    unfold Model.Lsh.addmix
    dsimp only
    rw [h _ _ (hT l hl)]
  funext b st
  unfold Model.Lsh.compress
  simp only [s]

theorem lsh_provider {w : Nat} {T : Model.Lsh.Word w} {rot rot' : Model.Lsh.Rot w} (hT : ∀ l, l < 8 → T.G.getD l 0 < w)
    (h : ∀ x n, n < w → rot x n = rot' x n) : Model.Lsh.provider rot T = Model.Lsh.provider rot' T := by
  have ht : Model.Lsh.transform rot T = Model.Lsh.transform rot' T := by
    unfold Model.Lsh.transform
    rw [lsh_compress hT h]
  unfold Model.Lsh.provider Model.Lsh.update Model.Lsh.final Model.Lsh.init
  rw [ht]

end Digestpp.Proofs.Shifts
