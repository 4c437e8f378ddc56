import Verif.Proofs.PermTables
import Verif.Proofs.JhCore

/-! C56: `E8` of JH, and its compression function for each block. -/

namespace Digestpp.Proofs.Perm.Jh
open Spec Model Model.Jh
open Proofs.Jh (sb sbitsli_bit bitswap1_bit MaskOk)

theorem sb_inj : ∀ c x0 x1 x2 x3 y0 y1 y2 y3 : Bool, sb x0 x1 x2 x3 c = sb y0 y1 y2 y3 c → x0 = y0 ∧ x1 = y1 ∧ x2 = y2 ∧ x3 = y3 := by decide

theorem sbitsli_inj {c x0 x1 x2 x3 y0 y1 y2 y3 : BitVec 64} (h : sbitsli x0 x1 x2 x3 c = sbitsli y0 y1 y2 y3 c) :
    x0 = y0 ∧ x1 = y1 ∧ x2 = y2 ∧ x3 = y3 := by
  have e : ∀ t, t < 64 → x0.getLsbD t = y0.getLsbD t ∧ x1.getLsbD t = y1.getLsbD t ∧ x2.getLsbD t = y2.getLsbD t ∧ x3.getLsbD t = y3.getLsbD t := by
    intro t ht
    have a := sbitsli_bit x0 x1 x2 x3 c t ht
    have b := sbitsli_bit y0 y1 y2 y3 c t ht
    rw [h] at a
    exact sb_inj (c.getLsbD t) _ _ _ _ _ _ _ _ (Prod.ext (a.1.symm.trans b.1) (Prod.ext (a.2.1.symm.trans b.2.1)
      (Prod.ext (a.2.2.1.symm.trans b.2.2.1) (a.2.2.2.symm.trans b.2.2.2))))
  exact ⟨BitVec.eq_of_getLsbD_eq fun t ht => (e t ht).1, BitVec.eq_of_getLsbD_eq fun t ht => (e t ht).2.1,
    BitVec.eq_of_getLsbD_eq fun t ht => (e t ht).2.2.1, BitVec.eq_of_getLsbD_eq fun t ht => (e t ht).2.2.2⟩

theorem lbitsli_inj {a0 a1 a2 a3 a4 a5 a6 a7 b0 b1 b2 b3 b4 b5 b6 b7 : BitVec 64}
    (h : lbitsli [a0, a1, a2, a3, a4, a5, a6, a7] = lbitsli [b0, b1, b2, b3, b4, b5, b6, b7]) :
    a0 = b0 ∧ a1 = b1 ∧ a2 = b2 ∧ a3 = b3 ∧ a4 = b4 ∧ a5 = b5 ∧ a6 = b6 ∧ a7 = b7 := by
  have h : [a0 ^^^ (a3 ^^^ a4), a1 ^^^ a2, a2 ^^^ (a5 ^^^ (a6 ^^^ a0)), a3 ^^^ a4, a4 ^^^ ((a7 ^^^ a0) ^^^ (a1 ^^^ a2)), a5 ^^^ (a6 ^^^ a0), a6 ^^^ (a1 ^^^ a2),
      a7 ^^^ a0] = [b0 ^^^ (b3 ^^^ b4), b1 ^^^ b2, b2 ^^^ (b5 ^^^ (b6 ^^^ b0)), b3 ^^^ b4, b4 ^^^ ((b7 ^^^ b0) ^^^ (b1 ^^^ b2)), b5 ^^^ (b6 ^^^ b0),
      b6 ^^^ (b1 ^^^ b2), b7 ^^^ b0] := h
  simp only [List.cons.injEq, and_true] at h
  obtain ⟨h0, h1, h2, h3, h4, h5, h6, h7⟩ := h
  have e0 := xor_left_inj h3 h0
  have e7 := xor_left_inj e0 h7
  have e4 := xor_left_inj (show (a7 ^^^ a0) ^^^ (a1 ^^^ a2) = (b7 ^^^ b0) ^^^ (b1 ^^^ b2) by rw [h7, h1]) h4
  have e2 := xor_left_inj h5 h2
  have e6 := xor_left_inj h1 h6
  have e3 := xor_left_inj e4 h3
  have e1 := xor_left_inj e2 h1
  have e5 := xor_left_inj (show a6 ^^^ a0 = b6 ^^^ b0 by rw [e6, e0]) h5
  exact ⟨e0, e1, e2, e3, e4, e5, e6, e7⟩

theorem half_inj (A B : List (BitVec 64)) (r i : Nat) (h : half A r i = half B r i) (j : Nat) (hj : j < 8) : A.getD (2 * j + i) 0 = B.getD (2 * j + i) 0 := by
  unfold half at h
  obtain ⟨e0, o0, e1, o1, e2, o2, e3, o3⟩ := lbitsli_inj h
  obtain ⟨a0, a4, a8, a12⟩ := sbitsli_inj (Prod.ext e0 (Prod.ext e1 (Prod.ext e2 e3)))
  obtain ⟨a2, a6, a10, a14⟩ := sbitsli_inj (Prod.ext o0 (Prod.ext o1 (Prod.ext o2 o3)))
  have : j = 0 ∨ j = 1 ∨ j = 2 ∨ j = 3 ∨ j = 4 ∨ j = 5 ∨ j = 6 ∨ j = 7 := by omega
  rcases this with rfl | rfl | rfl | rfl | rfl | rfl | rfl | rfl
  · rw [Nat.mul_zero, Nat.zero_add]; exact a0
  · exact a2
  · exact a4
  · exact a6
  · exact a8
  · exact a10
  · exact a12
  · exact a14

theorem length_half (A : List (BitVec 64)) (r i : Nat) : (half A r i).length = 8 := rfl

theorem sl_permutes (r : Nat) : Permutes 16 fun H => sl H r := by
  apply of_inj
  · intro A _
    rfl
  intro A B hA hB h
  unfold sl at h
  dsimp only at h
  simp only [List.cons.injEq, and_true] at h
  obtain ⟨h0, h1, h2, h3, h4, h5, h6, h7, h8, h9, h10, h11, h12, h13, h14, h15⟩ := h
  have l8 : ∀ X Y : List (BitVec 64), X.length = 8 → Y.length = 8 → X.getD 0 0 = Y.getD 0 0 → X.getD 1 0 = Y.getD 1 0 → X.getD 2 0 = Y.getD 2 0 →
      X.getD 3 0 = Y.getD 3 0 → X.getD 4 0 = Y.getD 4 0 → X.getD 5 0 = Y.getD 5 0 → X.getD 6 0 = Y.getD 6 0 → X.getD 7 0 = Y.getD 7 0 → X = Y := by
    intro X Y hX hY
    match X, hX, Y, hY with
    | [_, _, _, _, _, _, _, _], _, [_, _, _, _, _, _, _, _], _ =>
      rintro rfl rfl rfl rfl rfl rfl rfl rfl
      rfl
  have e := half_inj A B r 0 (l8 _ _ rfl rfl h0 h2 h4 h6 h8 h10 h12 h14)
  have o := half_inj A B r 1 (l8 _ _ rfl rfl h1 h3 h5 h7 h9 h11 h13 h15)
  rw [← map_range_getD A 0 16 hA, ← map_range_getD B 0 16 hB]
  apply List.map_congr_left
  intro k hk
  have hk := List.mem_range.mp hk
  by_cases hp : k % 2 = 0
  · have := e (k / 2) (by omega)
    rwa [show 2 * (k / 2) + 0 = k by omega] at this
  · have := o (k / 2) (by omega)
    rwa [show 2 * (k / 2) + 1 = k by omega] at this

theorem bitswap1_inj {mask : BitVec 64} {shift : Nat} (hm : MaskOk mask shift) (hs : shift < 64) {x y : BitVec 64}
    (h : bitswap1 x mask shift = bitswap1 y mask shift) : x = y := by
  apply BitVec.eq_of_getLsbD_eq
  intro j hj
  have hlt : j ^^^ shift < 64 := Nat.xor_lt_two_pow (n := 6) hj hs
  have := congrArg (fun z => z.getLsbD (j ^^^ shift)) h
  simp only [bitswap1_bit _ _ _ hm _ hlt, Nat.xor_assoc, Nat.xor_self, Nat.xor_zero] at this
  exact this

theorem bitswap_permutes {mask : BitVec 64} {shift : Nat} (hm : MaskOk mask shift) (hs : shift < 64) : Permutes 16 fun H => bitswap H mask shift := by
  apply of_inj
  · intro A _
    rfl
  intro A B hA hB h
  match A, hA, B, hB with
  | [_, _, _, _, _, _, _, _, _, _, _, _, _, _, _, _], _, [_, _, _, _, _, _, _, _, _, _, _, _, _, _, _, _], _ =>
    unfold bitswap at h
    simp only [List.cons.injEq, and_true] at h
    obtain ⟨h0, h1, h2, h3, h4, h5, h6, h7, h8, h9, h10, h11, h12, h13, h14, h15⟩ := h
    have h2 := bitswap1_inj hm hs h2
    have h3 := bitswap1_inj hm hs h3
    have h6 := bitswap1_inj hm hs h6
    have h7 := bitswap1_inj hm hs h7
    have h10 := bitswap1_inj hm hs h10
    have h11 := bitswap1_inj hm hs h11
    have h14 := bitswap1_inj hm hs h14
    have h15 := bitswap1_inj hm hs h15
    simp only [List.getD_cons_zero, List.getD_cons_succ] at h0 h1 h2 h3 h4 h5 h6 h7 h8 h9 h10 h11 h12 h13 h14 h15
    rw [h0, h1, h2, h3, h4, h5, h6, h7, h8, h9, h10, h11, h12, h13, h14, h15]

theorem round_permutes (r : Nat) (mask : BitVec 64) (shift : Nat) (hs : shift ≠ 0) (hm : MaskOk mask shift) (h : shift < 64) :
    Permutes 16 fun H => round H r mask shift := by
  refine Perm.congr (comp (sl_permutes r) (bitswap_permutes hm h)) fun A _ => ?_
  unfold round
  rw [if_pos hs]

theorem last_permutes (r : Nat) (mask : BitVec 64) : Permutes 16 fun H => round H r mask 0 := sl_permutes r

theorem swapWords_permutes : Permutes 16 swapWords := by
  apply of_inj
  · intro A _
    rfl
  intro A B hA hB h
  match A, hA, B, hB with
  | [_, _, _, _, _, _, _, _, _, _, _, _, _, _, _, _], _, [_, _, _, _, _, _, _, _, _, _, _, _, _, _, _, _], _ =>
    unfold swapWords at h
    simp only [List.getD_cons_zero, List.getD_cons_succ, List.cons.injEq, and_true] at h
    obtain ⟨h0, h1, h2, h3, h4, h5, h6, h7, h8, h9, h10, h11, h12, h13, h14, h15⟩ := h
    rw [h0, h1, h2, h3, h4, h5, h6, h7, h8, h9, h10, h11, h12, h13, h14, h15]

theorem seven_permutes (r : Nat) : Permutes 16 fun H => seven H r := by
  have h0 := round_permutes r 0x5555555555555555#64 1 (by decide) (by decide +kernel) (by decide)
  have h1 := comp h0 (round_permutes (r + 1) 0x3333333333333333#64 2 (by decide) (by decide +kernel) (by decide))
  have h2 := comp h1 (round_permutes (r + 2) 0x0f0f0f0f0f0f0f0f#64 4 (by decide) (by decide +kernel) (by decide))
  have h3 := comp h2 (round_permutes (r + 3) 0x00ff00ff00ff00ff#64 8 (by decide) (by decide +kernel) (by decide))
  have h4 := comp h3 (round_permutes (r + 4) 0x0000ffff0000ffff#64 16 (by decide) (by decide +kernel) (by decide))
  have h5 := comp h4 (round_permutes (r + 5) 0x00000000ffffffff#64 32 (by decide) (by decide +kernel) (by decide))
  have h6 := comp h5 (last_permutes (r + 6) 0#64)
  exact comp h6 swapWords_permutes

theorem e8_permutes : Permutes 16 fun H => [0, 7, 14, 21, 28, 35].foldl seven H :=
  foldl (fun r H => seven H r) _ fun r _ => seven_permutes r

theorem xorFirst_permutes (M : List (BitVec 64)) : Permutes 16 fun H => xorFirst H M := by
  refine Perm.congr (xor_permutes (n := 16) fun i => if i < 8 then M.getD i 0 else 0) fun A _ => ?_
  unfold xorFirst
  apply List.map_congr_left
  intro i _
  split <;> simp

theorem xorLast_permutes (M : List (BitVec 64)) : Permutes 16 fun H => xorLast H M := by
  refine Perm.congr (xor_permutes (n := 16) fun i => if i < 8 then 0 else M.getD (i - 8) 0) fun A _ => ?_
  unfold xorLast
  apply List.map_congr_left
  intro i _
  split <;> simp

theorem compress_permutes (M : List (BitVec 64)) : Permutes 16 fun H => compress H M := by
  have h := comp (comp (xorFirst_permutes M) e8_permutes) (xorLast_permutes M)
  exact h

end Digestpp.Proofs.Perm.Jh
