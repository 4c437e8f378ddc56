import Verif.Model.Locals.Sha1
import Verif.Model.Locals.Md5
import Verif.Proofs.Arrays

/-! C58, SHA-1, SM3, MD5. -/

namespace Digestpp.Proofs.Locals
open Model
open Model.Locals (loadM32 copyW32)

theorem loads32_length (n : Nat) (b : Bytes) : (loads32 n b).length = n := by simp [loads32]
theorem loads64_length (n : Nat) (b : Bytes) : (loads64 n b).length = n := by simp [loads64]

theorem map_getD {α β : Type} (f : α → β) (l : List α) (d : α) (n : Nat) (h : l.length = n) : l.map f = (List.range n).map fun i => f (l.getD i d) := by
  conv => lhs; rw [← map_range_getD l d n h, List.map_map]
  rfl

theorem loadM32_ok {data b : Bytes} {blk : Nat} (hr : readBytes data (blk * 64) 64 = .ok b) (k : List (BitVec 32)) (hk : k.length = 16) :
    loadM32 data blk k = .ok ((loads32 16 b).map byteswap32) := by
  rw [map_getD byteswap32 _ 0 16 (loads32_length 16 b)]
  refine fill_all 0 _ 16 0 (by omega) _ _ hk (by omega) fun t a _ ht ha _ => ?_
  rw [rd32_block (n := 16) hr ht, ok_then, wr_ok _ (by omega)]

theorem copyW32_ok (Mw k : List (BitVec 32)) (n : Nat) (hM : Mw.length = 16) (hn : 16 ≤ n) (hk : k.length = n) :
    ∃ W, copyW32 Mw k = .ok W ∧ W.length = n ∧ ∀ j, j < 16 → W.getD j 0 = Mw.getD j 0 := by
  obtain ⟨W, e, l, v, _⟩ := fill (0 : BitVec 32) (fun j => Mw.getD j 0) n 0 16 (by omega) hn (fun t W => do
    let x ← rd Mw t
    wr W t x) k hk (by omega) (fun t a _ ht ha _ => by
      rw [rd_ok 0 (by omega), ok_then, wr_ok _ (by omega)])
  exact ⟨W, e, l, v⟩

namespace Sha1
open Model.Sha1

theorem schedule_rec (Mw : List (BitVec 32)) (hM : Mw.length = 16) :
    ∃ F : Nat → BitVec 32, schedule Mw = (List.range 80).map F ∧ (∀ j, j < 16 → F j = Mw.getD j 0) ∧
      ∀ t, 16 ≤ t → t < 80 → F t = rotl (F (t - 3) ^^^ F (t - 8) ^^^ F (t - 14) ^^^ F (t - 16)) 1 := by
  refine expand_rec (d := 0) (fun W t => rotl (W.getD (t - 3) 0 ^^^ W.getD (t - 8) 0 ^^^ W.getD (t - 14) 0 ^^^ W.getD (t - 16) 0) 1)
    (fun F t => rotl (F (t - 3) ^^^ F (t - 8) ^^^ F (t - 14) ^^^ F (t - 16)) 1) 16 80 (by omega) Mw hM ?_
  intro F t h1 h2
  rw [getD_map_range _ _ _ _ (by omega), getD_map_range _ _ _ _ (by omega), getD_map_range _ _ _ _ (by omega), getD_map_range _ _ _ _ (by omega)]

theorem vars_ok (a0 a1 a2 a3 a4 : BitVec 32) : Locals.Sha1.vars [a0, a1, a2, a3, a4] = .ok ⟨a0, a1, a2, a3, a4, Ch, sha1_K.getD 0 0⟩ := rfl

theorem add_ok (v : Vars) (a0 a1 a2 a3 a4 : BitVec 32) : Locals.Sha1.add v [a0, a1, a2, a3, a4] = .ok [a0 + v.a, a1 + v.b, a2 + v.c, a3 + v.d, a4 + v.e] := rfl

theorem block_eq (k : Locals.Sha1.Stack) (hk : k.Sized) (data : Bytes) (blk : Nat) (b : Bytes) (hr : readBytes data (blk * 64) 64 = .ok b) (H : List (BitVec 32))
    (hH : H.length = 5) : Locals.Sha1.block k data blk H = compress b H := by
  obtain ⟨k1, k2⟩ := hk
  have hMl : ((loads32 16 b).map byteswap32).length = 16 := by rw [List.length_map, loads32_length]
  obtain ⟨F, hF, hF0, hFt⟩ := schedule_rec _ hMl
  obtain ⟨W1, e1, l1, v1⟩ := copyW32_ok _ _ 80 hMl (by omega) k2
  have e2 : Locals.Sha1.expandW W1 = .ok (schedule ((loads32 16 b).map byteswap32)) := by
    rw [hF]
    refine fill_all 0 F 80 16 (by omega) _ _ l1 (fun j hj => by rw [v1 j hj, hF0 j hj]) fun t a h1 h2 ha hv => ?_
    rw [rd_ok 0 (by omega), rd_ok 0 (by omega), rd_ok 0 (by omega), rd_ok 0 (by omega), ok_then, ok_then, ok_then, ok_then, wr_ok _ (by omega),
      hv _ (by omega), hv _ (by omega), hv _ (by omega), hv _ (by omega), hFt t h1 h2]
  have hW : (schedule ((loads32 16 b).map byteswap32)).length = 80 := by rw [hF]; simp
  have e3 : ∀ v, loop 0 80 (Locals.Sha1.round (schedule ((loads32 16 b).map byteswap32))) v =
      .ok ((List.range' 0 (80 - 0)).foldl (Sha1.round (schedule ((loads32 16 b).map byteswap32))) v) := fun v =>
    (loop_eq _ (fun _ _ => True) 0 80 (by omega) _ v trivial (by
      intro t v _ ht _
      refine ⟨?_, trivial⟩
      unfold Locals.Sha1.round
      rw [rd_ok 0 (by omega), ok_then]
      unfold Sha1.round Locals.Sha1.switch Sha1.switch
      split
      · rfl
      split
      · rfl
      split
      · rfl
      · rfl)).1
  unfold Locals.Sha1.block
  rw [loadM32_ok hr _ k1, ok_then, e1, ok_then, e2, ok_then]
  match H, hH with
  | [a0, a1, a2, a3, a4], _ =>
    rw [vars_ok, ok_then, e3, Nat.sub_zero, ← List.range_eq_range', ok_then, add_ok]
    rfl

theorem transform_eq (k : Nat → Locals.Sha1.Stack) (hk : ∀ i, (k i).Sized) (data : Bytes) (n : Nat) (hd : n * 64 ≤ data.length) (s : Blk (List (BitVec 32)))
    (hs : s.h.length = 5) : Locals.Sha1.transform k data n s = Sha1.transform data n s := by
  unfold Locals.Sha1.transform Sha1.transform
  rw [blocks_eq 64 data n hd (fun h : List (BitVec 32) => h.length = 5) (fun blk h => Locals.Sha1.block (k blk) data blk h) (fun _ b h => compress b h) ?_ s.h hs]
  intro blk b H _ hr _ hH
  exact ⟨block_eq (k blk) (hk blk) data blk b hr H hH, fun _ h => by cases h; rfl⟩

end Sha1

namespace Sm3
open Model.Sm3

theorem schedule_rec (Mw : List (BitVec 32)) (hM : Mw.length = 16) :
    ∃ F : Nat → BitVec 32, schedule Mw = (List.range 68).map F ∧ (∀ j, j < 16 → F j = Mw.getD j 0) ∧
      ∀ t, 16 ≤ t → t < 68 → F t = p1 (F (t - 16) ^^^ F (t - 9) ^^^ rotl (F (t - 3)) 15) ^^^ rotl (F (t - 13)) 7 ^^^ F (t - 6) := by
  refine expand_rec (d := 0) (fun W t => p1 (W.getD (t - 16) 0 ^^^ W.getD (t - 9) 0 ^^^ rotl (W.getD (t - 3) 0) 15) ^^^ rotl (W.getD (t - 13) 0) 7 ^^^
      W.getD (t - 6) 0)
    (fun F t => p1 (F (t - 16) ^^^ F (t - 9) ^^^ rotl (F (t - 3)) 15) ^^^ rotl (F (t - 13)) 7 ^^^ F (t - 6)) 16 68 (by omega) Mw hM ?_
  intro F t h1 h2
  rw [getD_map_range _ _ _ _ (by omega), getD_map_range _ _ _ _ (by omega), getD_map_range _ _ _ _ (by omega), getD_map_range _ _ _ _ (by omega),
    getD_map_range _ _ _ _ (by omega)]

theorem vars_ok (a0 a1 a2 a3 a4 a5 a6 a7 : BitVec 32) : Locals.Sm3.vars [a0, a1, a2, a3, a4, a5, a6, a7] = .ok ⟨a0, a1, a2, a3, a4, a5, a6, a7⟩ := rfl

theorem add_ok (v : Vars) (a0 a1 a2 a3 a4 a5 a6 a7 : BitVec 32) : Locals.Sm3.add v [a0, a1, a2, a3, a4, a5, a6, a7] =
    .ok [a0 ^^^ v.a, a1 ^^^ v.b, a2 ^^^ v.c, a3 ^^^ v.d, a4 ^^^ v.e, a5 ^^^ v.f, a6 ^^^ v.g, a7 ^^^ v.h] := rfl

theorem transform_eq (rot : Rot) (k : Nat → Locals.Sm3.Stack) (hk : ∀ i, (k i).Sized) (data : Bytes) (n : Nat) (hd : n * 64 ≤ data.length) (s : Blk (List (BitVec 32)))
    (hs : s.h.length = 8) : Locals.Sm3.transform rot k data n s = Sm3.transform rot data n s := by
  unfold Locals.Sm3.transform Sm3.transform
  rw [blocks_eq 64 data n hd (fun h : List (BitVec 32) => h.length = 8) (fun blk h => Locals.Sm3.block rot (k blk) data blk h) (fun _ b h => compress rot b h) ?_ s.h hs]
  intro blk b H _ hr _ hH
  obtain ⟨k1, k2, k3⟩ := hk blk
  have hMl : ((loads32 16 b).map byteswap32).length = 16 := by rw [List.length_map, loads32_length]
  obtain ⟨F, hF, hF0, hFt⟩ := schedule_rec _ hMl
  obtain ⟨W1, e1, l1, v1⟩ := copyW32_ok _ _ 68 hMl (by omega) k2
  have e2 : Locals.Sm3.expandW W1 = .ok (schedule ((loads32 16 b).map byteswap32)) := by
    rw [hF]
    refine fill_all 0 F 68 16 (by omega) _ _ l1 (fun j hj => by rw [v1 j hj, hF0 j hj]) fun t a h1 h2 ha hv => ?_
    rw [rd_ok 0 (by omega), rd_ok 0 (by omega), rd_ok 0 (by omega), rd_ok 0 (by omega), rd_ok 0 (by omega), ok_then, ok_then, ok_then, ok_then, ok_then,
      wr_ok _ (by omega), hv _ (by omega), hv _ (by omega), hv _ (by omega), hv _ (by omega), hv _ (by omega), hFt t h1 h2]
  have hW : (schedule ((loads32 16 b).map byteswap32)).length = 68 := by rw [hF]; simp
  have e4 : Locals.Sm3.fillW2 (schedule ((loads32 16 b).map byteswap32)) (k blk).W2 = .ok ((List.range 64).map fun t =>
      (schedule ((loads32 16 b).map byteswap32)).getD t 0 ^^^ (schedule ((loads32 16 b).map byteswap32)).getD (t + 4) 0) := by
    refine fill_all 0 _ 64 0 (by omega) _ _ k3 (by omega) fun t a h1 h2 ha hv => ?_
    rw [rd_ok 0 (by omega), ok_then, rd_ok 0 (by omega), ok_then, wr_ok _ (by omega)]
  have e3 : ∀ (kk : BitVec 32) (ff gg : BitVec 32 → BitVec 32 → BitVec 32 → BitVec 32) (W W2 : List (BitVec 32)) (lo hi : Nat) (v : Vars), hi ≤ 64 → W.length = 68 → W2.length = 64 →
      loop lo hi (Locals.Sm3.round rot kk ff gg W W2) v = (List.range' lo (hi - lo)).foldlM (Sm3.round rot kk ff gg W W2) v := by
    intro kk ff gg W W2 lo hi v hhi hW hW2
    refine foldlM_congr _ _ (fun _ => True) _ (fun t ht v _ => ⟨?_, fun _ _ => trivial⟩) v trivial
    rw [List.mem_range'_1] at ht
    unfold Locals.Sm3.round Sm3.round
    rw [rd_ok 0 (by omega), rd_ok 0 (by omega)]
    rfl
  have main : Locals.Sm3.block rot (k blk) data blk H = compress rot b H := by
    unfold Locals.Sm3.block compress
    rw [loadM32_ok hr _ k1, ok_then, e1, ok_then, e2, ok_then, e4, ok_then]
    match H, hH with
    | [a0, a1, a2, a3, a4, a5, a6, a7], _ =>
      rw [vars_ok, ok_then, e3 _ _ _ _ _ _ _ _ (by omega) hW (by simp), Nat.sub_zero, ← List.range_eq_range']
      dsimp only
      refine congrArg _ (funext fun v => ?_)
      rw [e3 _ _ _ _ _ _ _ _ (by omega) hW (by simp)]
      refine congrArg _ (funext fun v => ?_)
      rw [add_ok]
      rfl
  refine ⟨main, fun H' h => ?_⟩
  unfold compress at h
  simp only [bind, Except.bind] at h
  split at h
  · cases h
  split at h
  · cases h
  cases h
  rfl

end Sm3

namespace Md5
open Model.Md5

theorem transform_eq (data : Bytes) (n : Nat) (hd : n * 64 ≤ data.length) (s : Blk (List (BitVec 32))) (hs : s.h.length = 4) :
    Locals.Md5.transform data n s = Md5.transform data n s := by
  unfold Locals.Md5.transform Md5.transform
  rw [blocks_eq 64 data n hd (fun h : List (BitVec 32) => h.length = 4) (fun blk h => Locals.Md5.block data blk h) (fun _ b h => compress b h) ?_ s.h hs]
  intro blk b H _ hr _ hH
  have hK : md5_K.length = 64 := by decide
  have hS : md5_S.length = 64 := by decide
  have four_eq : ∀ (f : Locals.Md5.Round) (g : Md5.Round) (l : List Nat) (r0 : Nat), (∀ r ∈ l, r + 3 < r0) →
      (∀ r a b' c d, r < r0 → f r a b' c d data (blk * 16) = g r a b' c d (loads32 16 b)) → ∀ v,
      l.foldlM (Locals.Md5.four f data (blk * 16)) v = l.foldlM (Md5.four g (loads32 16 b)) v := by
    intro f g l r0 hl h v
    refine foldlM_congr _ _ (fun _ => True) l (fun r hr' v _ => ⟨?_, fun _ _ => trivial⟩) v trivial
    have := hl r hr'
    unfold Locals.Md5.four Md5.four
    obtain ⟨a, b', c, d⟩ := v
    dsimp only
    rw [h _ _ _ _ _ (by omega)]
    congr 1; funext a
    rw [h _ _ _ _ _ (by omega)]
    congr 1; funext d
    rw [h _ _ _ _ _ (by omega)]
    congr 1; funext c
    rw [h _ _ _ _ _ (by omega)]
  have ef := four_eq Locals.Md5.roundf Md5.roundf [0, 4, 8, 12] 16 (by decide) (fun r a b' c d h => by
    unfold Locals.Md5.roundf Md5.roundf
    rw [rd_ok 0 (by omega), ok_then, rd32_block (n := 16) hr (by omega), ok_then, rd_ok 0 (by omega), ok_then])
  have eg := four_eq Locals.Md5.roundg Md5.roundg [16, 20, 24, 28] 32 (by decide) (fun r a b' c d h => by
    unfold Locals.Md5.roundg Md5.roundg
    rw [rd_ok 0 (by omega), ok_then, rd32_block (n := 16) hr (by omega), ok_then, rd_ok 0 (by omega), ok_then])
  have eh := four_eq Locals.Md5.roundh Md5.roundh [32, 36, 40, 44] 48 (by decide) (fun r a b' c d h => by
    unfold Locals.Md5.roundh Md5.roundh
    rw [rd_ok 0 (by omega), ok_then, rd32_block (n := 16) hr (by omega), ok_then, rd_ok 0 (by omega), ok_then])
  have ei := four_eq Locals.Md5.roundi Md5.roundi [48, 52, 56, 60] 64 (by decide) (fun r a b' c d h => by
    unfold Locals.Md5.roundi Md5.roundi
    rw [rd_ok 0 (by omega), ok_then, rd32_block (n := 16) hr (by omega), ok_then, rd_ok 0 (by omega), ok_then])
  have main : Locals.Md5.block data blk H = compress b H := by
    unfold Locals.Md5.block compress
    match H, hH with
    | [a0, a1, a2, a3], _ =>
      have r0 : rd [a0, a1, a2, a3] 0 = .ok a0 := rfl
      have r1 : rd [a0, a1, a2, a3] 1 = .ok a1 := rfl
      have r2 : rd [a0, a1, a2, a3] 2 = .ok a2 := rfl
      have r3 : rd [a0, a1, a2, a3] 3 = .ok a3 := rfl
      rw [r0, ok_then, r1, ok_then, r2, ok_then, r3, ok_then, ef]
      congr 1; funext v
      rw [eg]
      congr 1; funext v
      rw [eh]
      congr 1; funext v
      rw [ei]
      congr 1
  refine ⟨main, fun H' h => ?_⟩
  unfold compress at h
  simp only [bind, Except.bind] at h
  split at h
  · cases h
  split at h
  · cases h
  split at h
  · cases h
  split at h
  · cases h
  cases h
  rfl

end Md5
end Digestpp.Proofs.Locals
