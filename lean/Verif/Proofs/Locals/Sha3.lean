import Verif.Model.Locals.Sha3
import Verif.Proofs.Arrays

/-! C58, Keccak. -/

namespace Digestpp.Proofs.Locals.Sha3
open Model Model.Sha3

theorem fillC_ok (a0 a1 a2 a3 a4 a5 a6 a7 a8 a9 a10 a11 a12 a13 a14 a15 a16 a17 a18 a19 a20 a21 a22 a23 a24 c0 c1 c2 c3 c4 : BitVec 64) :
    Locals.Sha3.fillC [a0, a1, a2, a3, a4, a5, a6, a7, a8, a9, a10, a11, a12, a13, a14, a15, a16, a17, a18, a19, a20, a21, a22, a23, a24] [c0, c1, c2, c3, c4] =
      .ok [a0 ^^^ a5 ^^^ a10 ^^^ a15 ^^^ a20, a1 ^^^ a6 ^^^ a11 ^^^ a16 ^^^ a21, a2 ^^^ a7 ^^^ a12 ^^^ a17 ^^^ a22, a3 ^^^ a8 ^^^ a13 ^^^ a18 ^^^ a23,
        a4 ^^^ a9 ^^^ a14 ^^^ a19 ^^^ a24] := rfl

theorem fillD_ok (c0 c1 c2 c3 c4 d0 d1 d2 d3 d4 : BitVec 64) :
    Locals.Sha3.fillD [c0, c1, c2, c3, c4] [d0, d1, d2, d3, d4] =
      .ok [c4 ^^^ rotl c1 1, c0 ^^^ rotl c2 1, c1 ^^^ rotl c3 1, c2 ^^^ rotl c4 1, c3 ^^^ rotl c0 1] := rfl

theorem row0_ok (b0 b1 b2 b3 b4 a0 a1 a2 a3 a4 a5 a6 a7 a8 a9 a10 a11 a12 a13 a14 a15 a16 a17 a18 a19 a20 a21 a22 a23 a24 : BitVec 64) : Locals.Sha3.row 0 b0 b1 b2 b3 b4 [a0, a1, a2, a3, a4, a5, a6, a7, a8, a9, a10, a11, a12, a13, a14, a15, a16, a17, a18, a19, a20, a21, a22, a23, a24] =
    .ok [b0 ^^^ (~~~b1 &&& b2), b1 ^^^ (~~~b2 &&& b3), b2 ^^^ (~~~b3 &&& b4), b3 ^^^ (~~~b4 &&& b0), b4 ^^^ (~~~b0 &&& b1), a5, a6, a7, a8, a9, a10, a11, a12, a13, a14, a15, a16, a17, a18, a19, a20, a21, a22, a23, a24] := rfl

theorem row1_ok (b0 b1 b2 b3 b4 a0 a1 a2 a3 a4 a5 a6 a7 a8 a9 a10 a11 a12 a13 a14 a15 a16 a17 a18 a19 a20 a21 a22 a23 a24 : BitVec 64) : Locals.Sha3.row 1 b0 b1 b2 b3 b4 [a0, a1, a2, a3, a4, a5, a6, a7, a8, a9, a10, a11, a12, a13, a14, a15, a16, a17, a18, a19, a20, a21, a22, a23, a24] =
    .ok [a0, a1, a2, a3, a4, b0 ^^^ (~~~b1 &&& b2), b1 ^^^ (~~~b2 &&& b3), b2 ^^^ (~~~b3 &&& b4), b3 ^^^ (~~~b4 &&& b0), b4 ^^^ (~~~b0 &&& b1), a10, a11, a12, a13, a14, a15, a16, a17, a18, a19, a20, a21, a22, a23, a24] := rfl

theorem row2_ok (b0 b1 b2 b3 b4 a0 a1 a2 a3 a4 a5 a6 a7 a8 a9 a10 a11 a12 a13 a14 a15 a16 a17 a18 a19 a20 a21 a22 a23 a24 : BitVec 64) : Locals.Sha3.row 2 b0 b1 b2 b3 b4 [a0, a1, a2, a3, a4, a5, a6, a7, a8, a9, a10, a11, a12, a13, a14, a15, a16, a17, a18, a19, a20, a21, a22, a23, a24] =
    .ok [a0, a1, a2, a3, a4, a5, a6, a7, a8, a9, b0 ^^^ (~~~b1 &&& b2), b1 ^^^ (~~~b2 &&& b3), b2 ^^^ (~~~b3 &&& b4), b3 ^^^ (~~~b4 &&& b0), b4 ^^^ (~~~b0 &&& b1), a15, a16, a17, a18, a19, a20, a21, a22, a23, a24] := rfl

theorem row3_ok (b0 b1 b2 b3 b4 a0 a1 a2 a3 a4 a5 a6 a7 a8 a9 a10 a11 a12 a13 a14 a15 a16 a17 a18 a19 a20 a21 a22 a23 a24 : BitVec 64) : Locals.Sha3.row 3 b0 b1 b2 b3 b4 [a0, a1, a2, a3, a4, a5, a6, a7, a8, a9, a10, a11, a12, a13, a14, a15, a16, a17, a18, a19, a20, a21, a22, a23, a24] =
    .ok [a0, a1, a2, a3, a4, a5, a6, a7, a8, a9, a10, a11, a12, a13, a14, b0 ^^^ (~~~b1 &&& b2), b1 ^^^ (~~~b2 &&& b3), b2 ^^^ (~~~b3 &&& b4), b3 ^^^ (~~~b4 &&& b0), b4 ^^^ (~~~b0 &&& b1), a20, a21, a22, a23, a24] := rfl

theorem row4_ok (b0 b1 b2 b3 b4 a0 a1 a2 a3 a4 a5 a6 a7 a8 a9 a10 a11 a12 a13 a14 a15 a16 a17 a18 a19 a20 a21 a22 a23 a24 : BitVec 64) : Locals.Sha3.row 4 b0 b1 b2 b3 b4 [a0, a1, a2, a3, a4, a5, a6, a7, a8, a9, a10, a11, a12, a13, a14, a15, a16, a17, a18, a19, a20, a21, a22, a23, a24] =
    .ok [a0, a1, a2, a3, a4, a5, a6, a7, a8, a9, a10, a11, a12, a13, a14, a15, a16, a17, a18, a19, b0 ^^^ (~~~b1 &&& b2), b1 ^^^ (~~~b2 &&& b3), b2 ^^^ (~~~b3 &&& b4), b3 ^^^ (~~~b4 &&& b0), b4 ^^^ (~~~b0 &&& b1)] := rfl

theorem chi_ok (B00 B1 B2 B3 B4 B5 B6 B7 B8 B9 B10 B11 B12 B13 B14 B15 B16 B17 B18 B19 B20 B21 B22 B23 B24 a0 a1 a2 a3 a4 a5 a6 a7 a8 a9 a10 a11 a12 a13 a14 a15 a16 a17 a18 a19 a20 a21 a22 a23 a24 rc : BitVec 64) (t : Nat) (h : rd sha3_RC t = .ok rc) :
    Locals.Sha3.chi B00 B1 B2 B3 B4 B5 B6 B7 B8 B9 B10 B11 B12 B13 B14 B15 B16 B17 B18 B19 B20 B21 B22 B23 B24 t [a0, a1, a2, a3, a4, a5, a6, a7, a8, a9, a10, a11, a12, a13, a14, a15, a16, a17, a18, a19, a20, a21, a22, a23, a24] =
      .ok [B00 ^^^ (~~~B1 &&& B2) ^^^ rc, B1 ^^^ (~~~B2 &&& B3), B2 ^^^ (~~~B3 &&& B4), B3 ^^^ (~~~B4 &&& B00), B4 ^^^ (~~~B00 &&& B1), B5 ^^^ (~~~B6 &&& B7), B6 ^^^ (~~~B7 &&& B8), B7 ^^^ (~~~B8 &&& B9), B8 ^^^ (~~~B9 &&& B5), B9 ^^^ (~~~B5 &&& B6), B10 ^^^ (~~~B11 &&& B12), B11 ^^^ (~~~B12 &&& B13), B12 ^^^ (~~~B13 &&& B14), B13 ^^^ (~~~B14 &&& B10), B14 ^^^ (~~~B10 &&& B11), B15 ^^^ (~~~B16 &&& B17), B16 ^^^ (~~~B17 &&& B18), B17 ^^^ (~~~B18 &&& B19), B18 ^^^ (~~~B19 &&& B15), B19 ^^^ (~~~B15 &&& B16), B20 ^^^ (~~~B21 &&& B22), B21 ^^^ (~~~B22 &&& B23), B22 ^^^ (~~~B23 &&& B24), B23 ^^^ (~~~B24 &&& B20), B24 ^^^ (~~~B20 &&& B21)] := by
  unfold Locals.Sha3.chi
  rw [row0_ok, ok_then, row1_ok, ok_then, row2_ok, ok_then, row3_ok, ok_then, row4_ok, ok_then, h]
  rfl

theorem lane_ok {A D : List (BitVec 64)} {i x : Nat} (n : Nat) (hn : 0 < n ∧ n < 64) {a d : BitVec 64} (ha : rd A i = .ok a) (hd : rd D x = .ok d) :
    Locals.Sha3.lane A D i x n hn = .ok (rotl (a ^^^ d) n hn) := by
  unfold Locals.Sha3.lane
  rw [ha, hd]
  rfl

theorem lane0_ok {A D : List (BitVec 64)} {a d : BitVec 64} (ha : rd A (0 * 5 + 0) = .ok a) (hd : rd D 0 = .ok d) :
    Locals.Sha3.lane0 A D = .ok (a ^^^ d) := by
  unfold Locals.Sha3.lane0
  rw [ha, hd]
  rfl

theorem round_ok (k : Locals.Sha3.Stack) (hk : k.Sized) (t : Nat) (ht : t < 24) (A : List (BitVec 64)) (hA : A.length = 25) :
    Locals.Sha3.round k t A = .ok (Sha3.round A (sha3_RC.getD t 0)) := by
  obtain ⟨C, D⟩ := k
  obtain ⟨hC, hD⟩ := hk
  unfold Locals.Sha3.round
  match A, hA, C, hC, D, hD with
  | [a0, a1, a2, a3, a4, a5, a6, a7, a8, a9, a10, a11, a12, a13, a14, a15, a16, a17, a18, a19, a20, a21, a22, a23, a24], _, [c0, c1, c2, c3, c4], _,
    [d0, d1, d2, d3, d4], _ =>
    rw [fillC_ok, ok_then, fillD_ok, ok_then]
    unfold Locals.Sha3.lanes
    have hrc : rd sha3_RC t = .ok (sha3_RC.getD t 0) := rd_ok 0 ht
    rw [lane0_ok rfl rfl, ok_then]
    repeat rw [lane_ok _ _ rfl rfl, ok_then]
    rw [chi_ok _ _ _ _ _ _ _ _ _ _ _ _ _ _ _ _ _ _ _ _ _ _ _ _ _ _ _ _ _ _ _ _ _ _ _ _ _ _ _ _ _ _ _ _ _ _ _ _ _ _ _ t hrc]
    rfl

theorem round_length (A : List (BitVec 64)) (rc : BitVec 64) : (Sha3.round A rc).length = 25 := rfl

theorem permute_ok (k : Nat → Locals.Sha3.Stack) (hk : ∀ i, (k i).Sized) (R : Nat) (hR : R ≤ 24) (A : List (BitVec 64)) (hA : A.length = 25) :
    Locals.Sha3.permute k R A = .ok (Sha3.permute R A) ∧ (Sha3.permute R A).length = 25 := by
  obtain ⟨e, l⟩ := loop_eq (fun A r => Sha3.round A (sha3_RC.getD r 0)) (fun _ A => A.length = 25) (24 - R) 24 (by omega)
    (fun t A => Locals.Sha3.round (k t) t A) A hA (fun t A _ ht hA => ⟨round_ok (k t) (hk t) t ht A hA, round_length _ _⟩)
  rw [show 24 - (24 - R) = R by omega] at e l
  exact ⟨e, l⟩

theorem xorBlock_ok (data b : Bytes) (r r64 blk : Nat) (h8 : 8 * r64 ≤ r) (h25 : r64 ≤ 25) (hr : readBytes data (blk * r) r = .ok b)
    (A : List (BitVec 64)) (hA : A.length = 25) :
    Locals.Sha3.xorBlock data r r64 blk A = Sha3.xorBlock r64 b A ∧ ∀ A', Sha3.xorBlock r64 b A = .ok A' → A'.length = 25 := by
  obtain ⟨e, l⟩ := loop_eq (fun A i => A.set i (A.getD i 0 ^^^ (loads64 r64 b).getD i 0)) (fun _ A => A.length = 25) 0 r64 (by omega)
    (fun i A => do
      let x ← rd64 (data.drop (blk * r)) i
      upd A i (· ^^^ x)) A hA (by
      intro i A _ hi hA
      rw [rd64_drop hr (by omega) r64 hi, ok_then, upd_ok _ 0 (by omega)]
      exact ⟨rfl, by rw [List.length_set, hA]⟩)
  rw [Nat.sub_zero, ← List.range_eq_range'] at e l
  unfold Sha3.xorBlock
  rw [if_pos h25]
  refine ⟨e, fun A' h => ?_⟩
  cases h
  exact l

theorem transform_eq (k : Nat → Nat → Locals.Sha3.Stack) (hk : ∀ i j, (k i j).Sized) (R rate : Nat) (hR : R ≤ 24) (hrate : rate ≤ 1600) (data : Bytes)
    (n : Nat) (hd : n * (rate / 8) ≤ data.length) (A : List (BitVec 64)) (hA : A.length = 25) :
    Locals.Sha3.transform k R rate data n A = Sha3.transform R rate data n A := by
  unfold Locals.Sha3.transform Sha3.transform
  refine blocks_eq (rate / 8) data n hd (fun A : List (BitVec 64) => A.length = 25) _ _ ?_ A hA
  intro blk b A _ hr _ hA
  obtain ⟨e, l⟩ := xorBlock_ok data b (rate / 8) (rate / 64) blk (by omega) (by omega) hr A hA
  rw [e]
  cases hx : Sha3.xorBlock (rate / 64) b A with
  | error x => exact ⟨rfl, fun _ h => by cases h⟩
  | ok A1 =>
    have hp := permute_ok (k blk) (hk blk) R hR A1 (l A1 hx)
    refine ⟨hp.1, fun A' h => ?_⟩
    cases h
    exact hp.2

end Digestpp.Proofs.Locals.Sha3
