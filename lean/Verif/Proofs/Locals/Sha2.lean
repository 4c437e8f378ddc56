import Verif.Model.Locals.Sha2
import Verif.Proofs.Arrays

/-! C58, SHA-2. -/

namespace Digestpp.Proofs.Locals.Sha2
open Model Model.Sha2 Model.Locals.Sha2

variable {w : Nat}

theorem schedule_getD (T : Word w) (Mw : List (BitVec w)) (hM : Mw.length = 16) (h16 : 16 ≤ T.rounds) :
    ∃ F : Nat → BitVec w, schedule T Mw = (List.range T.rounds).map F ∧ (∀ j, j < 16 → F j = Mw.getD j 0) ∧
      ∀ t, 16 ≤ t → t < T.rounds → F t = T.sigma1 (F (t - 2)) + F (t - 7) + T.sigma0 (F (t - 15)) + F (t - 16) := by
  let f := fun (W : List (BitVec w)) t => T.sigma1 (W.getD (t - 2) 0) + W.getD (t - 7) 0 + T.sigma0 (W.getD (t - 15) 0) + W.getD (t - 16) 0
  exact expand_rec f (fun F t => T.sigma1 (F (t - 2)) + F (t - 7) + T.sigma0 (F (t - 15)) + F (t - 16)) 16 T.rounds h16 Mw hM (by
    intro F t h1 h2
    show T.sigma1 _ + _ + T.sigma0 _ + _ = _
    rw [getD_map_range _ _ _ _ (by omega), getD_map_range _ _ _ _ (by omega), getD_map_range _ _ _ _ (by omega), getD_map_range _ _ _ _ (by omega)])

theorem block_eq (T : Word w) (ld : Bytes → Nat → M (BitVec w)) (h16 : 16 ≤ T.rounds) (hK : T.rounds ≤ T.K.length)
    (hld : ∀ data blk b i, readBytes data (blk * (T.N / 4)) (T.N / 4) = .ok b → i < 16 → ld data (blk * 16 + i) = .ok ((T.loads 16 b).getD i 0))
    (hl : ∀ b, (T.loads 16 b).length = 16) (k : Stack w) (hk : k.Sized T) (data : Bytes) (blk : Nat) (b : Bytes)
    (hr : readBytes data (blk * (T.N / 4)) (T.N / 4) = .ok b) (h : St w) (hH : h.H.length = 8) :
    block T ld k data blk h = .ok { h with H := compress T b h.H } := by
  obtain ⟨k1, k2⟩ := hk
  have hM : loadM T ld data blk k.M = .ok ((T.loads 16 b).map T.byteswap) := by
    have e : (T.loads 16 b).map T.byteswap = (List.range 16).map fun i => T.byteswap ((T.loads 16 b).getD i 0) := by
      conv => lhs; rw [← map_range_getD (T.loads 16 b) 0 16 (hl b), List.map_map]
      rfl
    rw [e]
    refine fill_all 0 _ 16 0 (by omega) _ _ k1 (by omega) fun t a _ ht ha _ => ?_
    rw [hld data blk b t hr ht, ok_then, wr_ok _ (by omega)]
  have hMl : ((T.loads 16 b).map T.byteswap).length = 16 := by rw [List.length_map, hl]
  obtain ⟨F, hF, hF0, hFt⟩ := schedule_getD T _ hMl h16
  obtain ⟨W1, e1, l1, v1, _⟩ := fill (0 : BitVec w) F T.rounds 0 16 (by omega) h16 (fun t W => do
    let x ← rd ((T.loads 16 b).map T.byteswap) t
    wr W t x) k.W k2 (by omega) (fun t a _ ht ha _ => by
      rw [rd_ok 0 (by omega), ok_then, wr_ok _ (by omega), hF0 t ht])
  have e2 : expandW T W1 = .ok (schedule T ((T.loads 16 b).map T.byteswap)) := by
    rw [hF]
    refine fill_all 0 F T.rounds 16 h16 _ _ l1 v1 fun t a h1 h2 ha hv => ?_
    rw [rd_ok 0 (by omega), rd_ok 0 (by omega), rd_ok 0 (by omega), rd_ok 0 (by omega), ok_then, ok_then, ok_then, ok_then, wr_ok _ (by omega),
      hv _ (by omega), hv _ (by omega), hv _ (by omega), hv _ (by omega), hFt t h1 h2]
  have hW : (schedule T ((T.loads 16 b).map T.byteswap)).length = T.rounds := by rw [hF]; simp
  have e3 : ∀ v, loop 0 T.rounds (Locals.Sha2.round T (schedule T ((T.loads 16 b).map T.byteswap))) v =
      .ok ((List.range' 0 (T.rounds - 0)).foldl (Sha2.round T (schedule T ((T.loads 16 b).map T.byteswap))) v) := fun v =>
    (loop_eq _ (fun _ _ => True) 0 T.rounds (by omega) _ v trivial (by
      intro t v _ ht _
      refine ⟨?_, trivial⟩
      unfold Locals.Sha2.round
      rw [rd_ok 0 (by omega), ok_then, rd_ok 0 (by omega), ok_then]
      rfl)).1
  unfold block
  rw [hM, ok_then]
  show (copyW _ _ >>= _) = _
  unfold copyW
  rw [e1, ok_then, e2, ok_then]
  obtain ⟨H, hs⟩ := h
  match H, hH with
  | [a0, a1, a2, a3, a4, a5, a6, a7], _ =>
    show (loop 0 T.rounds _ _ >>= _) = _
    rw [e3, Nat.sub_zero, ← List.range_eq_range', ok_then]
    rfl

theorem transform_eq (T : Word w) (ld : Bytes → Nat → M (BitVec w)) (h16 : 16 ≤ T.rounds) (hK : T.rounds ≤ T.K.length)
    (hld : ∀ data blk b i, readBytes data (blk * (T.N / 4)) (T.N / 4) = .ok b → i < 16 → ld data (blk * 16 + i) = .ok ((T.loads 16 b).getD i 0))
    (hl : ∀ b, (T.loads 16 b).length = 16)
    (k : Nat → Stack w) (hk : ∀ i, (k i).Sized T) (data : Bytes) (n : Nat) (hd : n * (T.N / 4) ≤ data.length) (s : Blk (St w)) (hs : s.h.H.length = 8) :
    Locals.Sha2.transform T ld k data n s = Sha2.transform T data n s := by
  unfold Locals.Sha2.transform Sha2.transform
  rw [blocks_eq (T.N / 4) data n hd (fun h : St w => h.H.length = 8) (fun blk h => block T ld (k blk) data blk h)
    (fun _ b h => pure { h with H := compress T b h.H }) ?_ s.h hs]
  intro blk b h _ hr _ hH
  exact ⟨block_eq T ld h16 hK hld hl (k blk) (hk blk) data blk b hr h hH, fun _ h => by cases h; rfl⟩

end Digestpp.Proofs.Locals.Sha2
