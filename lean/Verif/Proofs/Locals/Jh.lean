import Verif.Model.Locals.Jh
import Verif.Proofs.Locals.Lsh

/-! C58, JH. -/

namespace Digestpp.Proofs.Locals.Jh
open Model
open Model.Jh

theorem C_length : jh_C.length = 168 := by decide +kernel

theorem bitswap_ok (mask : BitVec 64) (shift : Nat) (H : List (BitVec 64)) (h : H.length = 16) : Locals.Jh.bitswap mask shift H = .ok (bitswap H mask shift) := by
  obtain ⟨a0, a1, a2, a3, a4, a5, a6, a7, a8, a9, a10, a11, a12, a13, a14, a15, rfl⟩ := Lsh.len16 h
  rfl

private theorem l0 (a0 a1 a2 a3 a4 a5 a6 a7 a8 a9 a10 a11 a12 a13 a14 a15 : BitVec 64) : Locals.Jh.xor1 2 4 [a0, a1, a2, a3, a4, a5, a6, a7, a8, a9, a10, a11, a12, a13, a14, a15] =
    .ok [a0, a1, a2 ^^^ a4, a3, a4, a5, a6, a7, a8, a9, a10, a11, a12, a13, a14, a15] := rfl

private theorem l1 (a0 a1 a2 a3 a4 a5 a6 a7 a8 a9 a10 a11 a12 a13 a14 a15 : BitVec 64) : Locals.Jh.xor1 3 5 [a0, a1, a2, a3, a4, a5, a6, a7, a8, a9, a10, a11, a12, a13, a14, a15] =
    .ok [a0, a1, a2, a3 ^^^ a5, a4, a5, a6, a7, a8, a9, a10, a11, a12, a13, a14, a15] := rfl

private theorem l2 (a0 a1 a2 a3 a4 a5 a6 a7 a8 a9 a10 a11 a12 a13 a14 a15 : BitVec 64) : Locals.Jh.xor1 6 8 [a0, a1, a2, a3, a4, a5, a6, a7, a8, a9, a10, a11, a12, a13, a14, a15] =
    .ok [a0, a1, a2, a3, a4, a5, a6 ^^^ a8, a7, a8, a9, a10, a11, a12, a13, a14, a15] := rfl

private theorem l3 (a0 a1 a2 a3 a4 a5 a6 a7 a8 a9 a10 a11 a12 a13 a14 a15 : BitVec 64) : Locals.Jh.xor1 7 9 [a0, a1, a2, a3, a4, a5, a6, a7, a8, a9, a10, a11, a12, a13, a14, a15] =
    .ok [a0, a1, a2, a3, a4, a5, a6, a7 ^^^ a9, a8, a9, a10, a11, a12, a13, a14, a15] := rfl

private theorem l4 (a0 a1 a2 a3 a4 a5 a6 a7 a8 a9 a10 a11 a12 a13 a14 a15 : BitVec 64) : Locals.Jh.xor2 10 12 0 [a0, a1, a2, a3, a4, a5, a6, a7, a8, a9, a10, a11, a12, a13, a14, a15] =
    .ok [a0, a1, a2, a3, a4, a5, a6, a7, a8, a9, a10 ^^^ (a12 ^^^ a0), a11, a12, a13, a14, a15] := rfl

private theorem l5 (a0 a1 a2 a3 a4 a5 a6 a7 a8 a9 a10 a11 a12 a13 a14 a15 : BitVec 64) : Locals.Jh.xor2 11 13 1 [a0, a1, a2, a3, a4, a5, a6, a7, a8, a9, a10, a11, a12, a13, a14, a15] =
    .ok [a0, a1, a2, a3, a4, a5, a6, a7, a8, a9, a10, a11 ^^^ (a13 ^^^ a1), a12, a13, a14, a15] := rfl

private theorem l6 (a0 a1 a2 a3 a4 a5 a6 a7 a8 a9 a10 a11 a12 a13 a14 a15 : BitVec 64) : Locals.Jh.xor1 14 0 [a0, a1, a2, a3, a4, a5, a6, a7, a8, a9, a10, a11, a12, a13, a14, a15] =
    .ok [a0, a1, a2, a3, a4, a5, a6, a7, a8, a9, a10, a11, a12, a13, a14 ^^^ a0, a15] := rfl

private theorem l7 (a0 a1 a2 a3 a4 a5 a6 a7 a8 a9 a10 a11 a12 a13 a14 a15 : BitVec 64) : Locals.Jh.xor1 15 1 [a0, a1, a2, a3, a4, a5, a6, a7, a8, a9, a10, a11, a12, a13, a14, a15] =
    .ok [a0, a1, a2, a3, a4, a5, a6, a7, a8, a9, a10, a11, a12, a13, a14, a15 ^^^ a1] := rfl

private theorem l8 (a0 a1 a2 a3 a4 a5 a6 a7 a8 a9 a10 a11 a12 a13 a14 a15 : BitVec 64) : Locals.Jh.xor1 0 6 [a0, a1, a2, a3, a4, a5, a6, a7, a8, a9, a10, a11, a12, a13, a14, a15] =
    .ok [a0 ^^^ a6, a1, a2, a3, a4, a5, a6, a7, a8, a9, a10, a11, a12, a13, a14, a15] := rfl

private theorem l9 (a0 a1 a2 a3 a4 a5 a6 a7 a8 a9 a10 a11 a12 a13 a14 a15 : BitVec 64) : Locals.Jh.xor1 1 7 [a0, a1, a2, a3, a4, a5, a6, a7, a8, a9, a10, a11, a12, a13, a14, a15] =
    .ok [a0, a1 ^^^ a7, a2, a3, a4, a5, a6, a7, a8, a9, a10, a11, a12, a13, a14, a15] := rfl

private theorem l10 (a0 a1 a2 a3 a4 a5 a6 a7 a8 a9 a10 a11 a12 a13 a14 a15 : BitVec 64) : Locals.Jh.xor1 4 10 [a0, a1, a2, a3, a4, a5, a6, a7, a8, a9, a10, a11, a12, a13, a14, a15] =
    .ok [a0, a1, a2, a3, a4 ^^^ a10, a5, a6, a7, a8, a9, a10, a11, a12, a13, a14, a15] := rfl

private theorem l11 (a0 a1 a2 a3 a4 a5 a6 a7 a8 a9 a10 a11 a12 a13 a14 a15 : BitVec 64) : Locals.Jh.xor1 5 11 [a0, a1, a2, a3, a4, a5, a6, a7, a8, a9, a10, a11, a12, a13, a14, a15] =
    .ok [a0, a1, a2, a3, a4, a5 ^^^ a11, a6, a7, a8, a9, a10, a11, a12, a13, a14, a15] := rfl

private theorem l12 (a0 a1 a2 a3 a4 a5 a6 a7 a8 a9 a10 a11 a12 a13 a14 a15 : BitVec 64) : Locals.Jh.xor2 8 14 2 [a0, a1, a2, a3, a4, a5, a6, a7, a8, a9, a10, a11, a12, a13, a14, a15] =
    .ok [a0, a1, a2, a3, a4, a5, a6, a7, a8 ^^^ (a14 ^^^ a2), a9, a10, a11, a12, a13, a14, a15] := rfl

private theorem l13 (a0 a1 a2 a3 a4 a5 a6 a7 a8 a9 a10 a11 a12 a13 a14 a15 : BitVec 64) : Locals.Jh.xor2 9 15 3 [a0, a1, a2, a3, a4, a5, a6, a7, a8, a9, a10, a11, a12, a13, a14, a15] =
    .ok [a0, a1, a2, a3, a4, a5, a6, a7, a8, a9 ^^^ (a15 ^^^ a3), a10, a11, a12, a13, a14, a15] := rfl

private theorem l14 (a0 a1 a2 a3 a4 a5 a6 a7 a8 a9 a10 a11 a12 a13 a14 a15 : BitVec 64) : Locals.Jh.xor1 12 2 [a0, a1, a2, a3, a4, a5, a6, a7, a8, a9, a10, a11, a12, a13, a14, a15] =
    .ok [a0, a1, a2, a3, a4, a5, a6, a7, a8, a9, a10, a11, a12 ^^^ a2, a13, a14, a15] := rfl

private theorem l15 (a0 a1 a2 a3 a4 a5 a6 a7 a8 a9 a10 a11 a12 a13 a14 a15 : BitVec 64) : Locals.Jh.xor1 13 3 [a0, a1, a2, a3, a4, a5, a6, a7, a8, a9, a10, a11, a12, a13, a14, a15] =
    .ok [a0, a1, a2, a3, a4, a5, a6, a7, a8, a9, a10, a11, a12, a13 ^^^ a3, a14, a15] := rfl

theorem lbitsli_ok (a0 a1 a2 a3 a4 a5 a6 a7 a8 a9 a10 a11 a12 a13 a14 a15 : BitVec 64) : Locals.Jh.lbitsli [a0, a1, a2, a3, a4, a5, a6, a7, a8, a9, a10, a11, a12, a13, a14, a15] =
    .ok (let a := lbitsli [a0, a2, a4, a6, a8, a10, a12, a14]
      let b := lbitsli [a1, a3, a5, a7, a9, a11, a13, a15]
      [a.getD 0 0, b.getD 0 0, a.getD 1 0, b.getD 1 0, a.getD 2 0, b.getD 2 0, a.getD 3 0, b.getD 3 0,
       a.getD 4 0, b.getD 4 0, a.getD 5 0, b.getD 5 0, a.getD 6 0, b.getD 6 0, a.getD 7 0, b.getD 7 0]) := by
  unfold Locals.Jh.lbitsli
  rw [l0, ok_then, l1, ok_then, l2, ok_then, l3, ok_then, l4, ok_then, l5, ok_then, l6, ok_then, l7, ok_then, l8, ok_then, l9, ok_then, l10, ok_then, l11, ok_then, l12, ok_then, l13, ok_then, l14, ok_then, l15]
  rfl

theorem body_eq (v : Locals.Jh.Refs) (ca cb : BitVec 64) :
    Locals.Jh.sbitsliBody v ca cb =
      let e := sbitsli v.x0a v.x1a v.x2a v.x3a ca
      let o := sbitsli v.x0b v.x1b v.x2b v.x3b cb
      ⟨e.1, o.1, e.2.1, o.2.1, e.2.2.1, o.2.2.1, e.2.2.2, o.2.2.2⟩ := rfl

theorem sbitsli0_ok (c : Nat) (hc : c + 1 < 168) (a0 a1 a2 a3 a4 a5 a6 a7 a8 a9 a10 a11 a12 a13 a14 a15 : BitVec 64) : Locals.Jh.sbitsli 0 c [a0, a1, a2, a3, a4, a5, a6, a7, a8, a9, a10, a11, a12, a13, a14, a15] =
    .ok (let e := sbitsli a0 a4 a8 a12 (jh_C.getD c 0)
      let o := sbitsli a1 a5 a9 a13 (jh_C.getD (c + 1) 0)
      [e.1, o.1, a2, a3, e.2.1, o.2.1, a6, a7, e.2.2.1, o.2.2.1, a10, a11, e.2.2.2, o.2.2.2, a14, a15]) := by
  unfold Locals.Jh.sbitsli
  simp only [rd_ok 0 (a := jh_C) (i := c) (by rw [C_length]; omega), rd_ok 0 (a := jh_C) (i := c + 1) (by rw [C_length]; omega), body_eq]
  generalize jh_C.getD c 0 = ca
  generalize jh_C.getD (c + 1) 0 = cb
  rfl

theorem sbitsli2_ok (c : Nat) (hc : c + 1 < 168) (a0 a1 a2 a3 a4 a5 a6 a7 a8 a9 a10 a11 a12 a13 a14 a15 : BitVec 64) : Locals.Jh.sbitsli 2 c [a0, a1, a2, a3, a4, a5, a6, a7, a8, a9, a10, a11, a12, a13, a14, a15] =
    .ok (let e := sbitsli a2 a6 a10 a14 (jh_C.getD c 0)
      let o := sbitsli a3 a7 a11 a15 (jh_C.getD (c + 1) 0)
      [a0, a1, e.1, o.1, a4, a5, e.2.1, o.2.1, a8, a9, e.2.2.1, o.2.2.1, a12, a13, e.2.2.2, o.2.2.2]) := by
  unfold Locals.Jh.sbitsli
  simp only [rd_ok 0 (a := jh_C) (i := c) (by rw [C_length]; omega), rd_ok 0 (a := jh_C) (i := c + 1) (by rw [C_length]; omega), body_eq]
  generalize jh_C.getD c 0 = ca
  generalize jh_C.getD (c + 1) 0 = cb
  rfl

theorem round_ok (r : Nat) (hr : r < 42) (mask : BitVec 64) (shift : Nat) (H : List (BitVec 64)) (h : H.length = 16) :
    Locals.Jh.round r mask shift H = .ok (round H r mask shift) := by
  obtain ⟨a0, a1, a2, a3, a4, a5, a6, a7, a8, a9, a10, a11, a12, a13, a14, a15, rfl⟩ := Lsh.len16 h
  unfold Locals.Jh.round
  rw [sbitsli0_ok _ (by omega), ok_then]
  dsimp only
  rw [sbitsli2_ok _ (by omega), ok_then]
  dsimp only
  rw [lbitsli_ok, ok_then]
  unfold round
  dsimp only
  split
  · rw [bitswap_ok _ _ _ rfl]
    rfl
  · rfl

theorem round_length (r : Nat) (mask : BitVec 64) (shift : Nat) (H : List (BitVec 64)) : (round H r mask shift).length = 16 := by
  unfold round
  dsimp only
  split <;> rfl

theorem swap_ok (H : List (BitVec 64)) (h : H.length = 16) : (do
    let H ← Locals.Jh.swap 2 3 H
    let H ← Locals.Jh.swap 6 7 H
    let H ← Locals.Jh.swap 10 11 H
    Locals.Jh.swap 14 15 H) = .ok (swapWords H) := by
  obtain ⟨a0, a1, a2, a3, a4, a5, a6, a7, a8, a9, a10, a11, a12, a13, a14, a15, rfl⟩ := Lsh.len16 h
  rfl

theorem seven_ok (r : Nat) (hr : r < 36) (H : List (BitVec 64)) (h : H.length = 16) : Locals.Jh.seven r H = .ok (seven H r) := by
  unfold Locals.Jh.seven
  rw [round_ok _ (by omega) _ _ _ h, ok_then, round_ok _ (by omega) _ _ _ (round_length _ _ _ _), ok_then,
    round_ok _ (by omega) _ _ _ (round_length _ _ _ _), ok_then, round_ok _ (by omega) _ _ _ (round_length _ _ _ _), ok_then,
    round_ok _ (by omega) _ _ _ (round_length _ _ _ _), ok_then, round_ok _ (by omega) _ _ _ (round_length _ _ _ _), ok_then,
    round_ok _ (by omega) _ _ _ (round_length _ _ _ _), ok_then, swap_ok _ (round_length _ _ _ _)]
  rfl

theorem xorM_ok (o : Nat) (mp : Bytes) (Mw : List (BitVec 64)) (hm : ∀ c, c < 8 → rd64 mp c = .ok (Mw.getD c 0)) (H : List (BitVec 64)) :
    Locals.Jh.xorM o mp H = (do
      let H ← upd H (o + 0) (· ^^^ Mw.getD 0 0)
      let H ← upd H (o + 1) (· ^^^ Mw.getD 1 0)
      let H ← upd H (o + 2) (· ^^^ Mw.getD 2 0)
      let H ← upd H (o + 3) (· ^^^ Mw.getD 3 0)
      let H ← upd H (o + 4) (· ^^^ Mw.getD 4 0)
      let H ← upd H (o + 5) (· ^^^ Mw.getD 5 0)
      let H ← upd H (o + 6) (· ^^^ Mw.getD 6 0)
      upd H (o + 7) (· ^^^ Mw.getD 7 0)) := by
  unfold Locals.Jh.xorM
  simp only [hm 0 (by omega), hm 1 (by omega), hm 2 (by omega), hm 3 (by omega), hm 4 (by omega), hm 5 (by omega), hm 6 (by omega), hm 7 (by omega), ok_then]

theorem xorFirst_ok (mp : Bytes) (Mw : List (BitVec 64)) (hm : ∀ c, c < 8 → rd64 mp c = .ok (Mw.getD c 0)) (H : List (BitVec 64)) (h : H.length = 16) :
    Locals.Jh.xorM 0 mp H = .ok (xorFirst H Mw) := by
  rw [xorM_ok 0 mp Mw hm]
  obtain ⟨a0, a1, a2, a3, a4, a5, a6, a7, a8, a9, a10, a11, a12, a13, a14, a15, rfl⟩ := Lsh.len16 h
  rfl

theorem xorLast_ok (mp : Bytes) (Mw : List (BitVec 64)) (hm : ∀ c, c < 8 → rd64 mp c = .ok (Mw.getD c 0)) (H : List (BitVec 64)) (h : H.length = 16) :
    Locals.Jh.xorM 8 mp H = .ok (xorLast H Mw) := by
  rw [xorM_ok 8 mp Mw hm]
  obtain ⟨a0, a1, a2, a3, a4, a5, a6, a7, a8, a9, a10, a11, a12, a13, a14, a15, rfl⟩ := Lsh.len16 h
  rfl

theorem block_ok (mp : Bytes) (Mw : List (BitVec 64)) (hm : ∀ c, c < 8 → rd64 mp c = .ok (Mw.getD c 0)) (H : List (BitVec 64)) (h : H.length = 16) :
    Locals.Jh.block mp H = .ok (compress H Mw) := by
  unfold Locals.Jh.block
  rw [xorFirst_ok mp Mw hm H h, ok_then]
  obtain ⟨e, l⟩ := loop_eq (fun (H : List (BitVec 64)) t => seven H (7 * t)) (fun _ H => H.length = 16) 0 6 (by omega) (fun t H => Locals.Jh.seven (7 * t) H)
    (xorFirst H Mw) (by simp [xorFirst]) (fun t H _ ht hl => ⟨seven_ok _ (by omega) H hl, rfl⟩)
  rw [e, ok_then, xorLast_ok mp Mw hm _ l]
  rfl

theorem transform_eq (data : Bytes) (n : Nat) (hd : n * 64 ≤ data.length) (s : Blk St) (hs : s.h.H.length = 16) :
    Locals.Jh.transform data n s = Jh.transform data n s := by
  unfold Locals.Jh.transform Jh.transform
  rw [blocks_eq 64 data n hd (fun h : List (BitVec 64) => h.length = 16) _ (fun _ b h => pure (compress h (loads64 8 b))) ?_ _ hs]
  · have L : forBlocks 64 data n (fun _ b (h : St) => pure { h with H := compress h.H (loads64 8 b) }) s.h =
        (forBlocks 64 data n (fun _ b h => pure (compress h (loads64 8 b))) s.h.H >>= fun y => pure (St.mk y s.h.hs)) :=
      forBlocks_lens 64 data n _ _ (fun h => St.mk h s.h.hs) (fun _ _ _ => rfl) s.h.H
    rw [L]
    cases forBlocks 64 data n (fun _ b h => pure (compress h (loads64 8 b))) s.h.H <;> rfl
  · intro blk b h _ hr _ hh
    refine ⟨block_ok _ (loads64 8 b) (fun c hc => rd64_drop hr (by omega) _ hc) h hh, fun h' e => ?_⟩
    cases e
    simp [compress, xorLast]

end Digestpp.Proofs.Locals.Jh
