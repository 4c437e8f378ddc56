import Verif.Proofs.Leak.Basic
import Verif.Model.Leak.Sha3

/-! Traces of the functions of `Model/Leak/Sha3`: without the trace they are those of `Model/Locals`; the trace is the same for all data. -/

namespace Digestpp.Proofs.Leak.Sha3
open Model
open Model.Sha3
open Locals.Sha3 (Stack)
theorem column_erase (A : List (BitVec 64)) (x : Nat) : L.erase (Model.Leak.Sha3.column A x) = Model.Locals.Sha3.column A x := by
  unfold Model.Leak.Sha3.column Model.Locals.Sha3.column
  erase_simp []

theorem column_agree (A A' : List (BitVec 64)) (x : Nat) : Agree Any (Model.Leak.Sha3.column A x) (Model.Leak.Sha3.column A' x) := by
  unfold Model.Leak.Sha3.column
  agree []

theorem fillC_erase (A : List (BitVec 64)) (C : List (BitVec 64)) : L.erase (Model.Leak.Sha3.fillC A C) = Model.Locals.Sha3.fillC A C := by
  unfold Model.Leak.Sha3.fillC Model.Locals.Sha3.fillC
  erase_simp [Sha3.column_erase]

theorem fillC_agree (A A' : List (BitVec 64)) (C C' : List (BitVec 64)) : Agree Any (Model.Leak.Sha3.fillC A C) (Model.Leak.Sha3.fillC A' C') := by
  unfold Model.Leak.Sha3.fillC
  agree [(Sha3.column_agree _ _ _)]

theorem parity_erase (C : List (BitVec 64)) (i : Nat) (j : Nat) : L.erase (Model.Leak.Sha3.parity C i j) = Model.Locals.Sha3.parity C i j := by
  unfold Model.Leak.Sha3.parity Model.Locals.Sha3.parity
  erase_simp []

theorem parity_agree (C C' : List (BitVec 64)) (i : Nat) (j : Nat) : Agree Any (Model.Leak.Sha3.parity C i j) (Model.Leak.Sha3.parity C' i j) := by
  unfold Model.Leak.Sha3.parity
  agree []

theorem fillD_erase (C : List (BitVec 64)) (D : List (BitVec 64)) : L.erase (Model.Leak.Sha3.fillD C D) = Model.Locals.Sha3.fillD C D := by
  unfold Model.Leak.Sha3.fillD Model.Locals.Sha3.fillD
  erase_simp [Sha3.parity_erase]

theorem fillD_agree (C C' : List (BitVec 64)) (D D' : List (BitVec 64)) : Agree Any (Model.Leak.Sha3.fillD C D) (Model.Leak.Sha3.fillD C' D') := by
  unfold Model.Leak.Sha3.fillD
  agree [(Sha3.parity_agree _ _ _ _)]

theorem lane_erase (A : List (BitVec 64)) (D : List (BitVec 64)) (i : Nat) (x : Nat) (n : Nat) (hn : 0 < n ∧ n < 64) : L.erase (Model.Leak.Sha3.lane A D i x n hn) = Model.Locals.Sha3.lane A D i x n hn := by
  unfold Model.Leak.Sha3.lane Model.Locals.Sha3.lane
  erase_simp []

theorem lane_agree (A A' : List (BitVec 64)) (D D' : List (BitVec 64)) (i : Nat) (x : Nat) (n : Nat) (hn hn' : 0 < n ∧ n < 64) : Agree Any (Model.Leak.Sha3.lane A D i x n hn) (Model.Leak.Sha3.lane A' D' i x n hn') := by
  unfold Model.Leak.Sha3.lane
  agree []

theorem lane0_erase (A : List (BitVec 64)) (D : List (BitVec 64)) : L.erase (Model.Leak.Sha3.lane0 A D) = Model.Locals.Sha3.lane0 A D := by
  unfold Model.Leak.Sha3.lane0 Model.Locals.Sha3.lane0
  erase_simp []

theorem lane0_agree (A A' : List (BitVec 64)) (D D' : List (BitVec 64)) : Agree Any (Model.Leak.Sha3.lane0 A D) (Model.Leak.Sha3.lane0 A' D') := by
  unfold Model.Leak.Sha3.lane0
  agree []

theorem row_erase (r : Nat) (b0 : BitVec 64) (b1 : BitVec 64) (b2 : BitVec 64) (b3 : BitVec 64) (b4 : BitVec 64) (A : List (BitVec 64)) : L.erase (Model.Leak.Sha3.row r b0 b1 b2 b3 b4 A) = Model.Locals.Sha3.row r b0 b1 b2 b3 b4 A := by
  unfold Model.Leak.Sha3.row Model.Locals.Sha3.row
  erase_simp []

theorem row_agree (r : Nat) (b0 b0' : BitVec 64) (b1 b1' : BitVec 64) (b2 b2' : BitVec 64) (b3 b3' : BitVec 64) (b4 b4' : BitVec 64) (A A' : List (BitVec 64)) : Agree Any (Model.Leak.Sha3.row r b0 b1 b2 b3 b4 A) (Model.Leak.Sha3.row r b0' b1' b2' b3' b4' A') := by
  unfold Model.Leak.Sha3.row
  agree []

theorem chi_erase (B00 : BitVec 64) (B1 : BitVec 64) (B2 : BitVec 64) (B3 : BitVec 64) (B4 : BitVec 64) (B5 : BitVec 64) (B6 : BitVec 64) (B7 : BitVec 64) (B8 : BitVec 64) (B9 : BitVec 64) (B10 : BitVec 64) (B11 : BitVec 64) (B12 : BitVec 64) (B13 : BitVec 64) (B14 : BitVec 64) (B15 : BitVec 64) (B16 : BitVec 64) (B17 : BitVec 64) (B18 : BitVec 64) (B19 : BitVec 64) (B20 : BitVec 64) (B21 : BitVec 64) (B22 : BitVec 64) (B23 : BitVec 64) (B24 : BitVec 64) (round : Nat) (A : List (BitVec 64)) : L.erase (Model.Leak.Sha3.chi B00 B1 B2 B3 B4 B5 B6 B7 B8 B9 B10 B11 B12 B13 B14 B15 B16 B17 B18 B19 B20 B21 B22 B23 B24 round A) = Model.Locals.Sha3.chi B00 B1 B2 B3 B4 B5 B6 B7 B8 B9 B10 B11 B12 B13 B14 B15 B16 B17 B18 B19 B20 B21 B22 B23 B24 round A := by
  unfold Model.Leak.Sha3.chi Model.Locals.Sha3.chi
  erase_simp [Sha3.row_erase]

theorem chi_agree (B00 B00' : BitVec 64) (B1 B1' : BitVec 64) (B2 B2' : BitVec 64) (B3 B3' : BitVec 64) (B4 B4' : BitVec 64) (B5 B5' : BitVec 64) (B6 B6' : BitVec 64) (B7 B7' : BitVec 64) (B8 B8' : BitVec 64) (B9 B9' : BitVec 64) (B10 B10' : BitVec 64) (B11 B11' : BitVec 64) (B12 B12' : BitVec 64) (B13 B13' : BitVec 64) (B14 B14' : BitVec 64) (B15 B15' : BitVec 64) (B16 B16' : BitVec 64) (B17 B17' : BitVec 64) (B18 B18' : BitVec 64) (B19 B19' : BitVec 64) (B20 B20' : BitVec 64) (B21 B21' : BitVec 64) (B22 B22' : BitVec 64) (B23 B23' : BitVec 64) (B24 B24' : BitVec 64) (round : Nat) (A A' : List (BitVec 64)) : Agree Any (Model.Leak.Sha3.chi B00 B1 B2 B3 B4 B5 B6 B7 B8 B9 B10 B11 B12 B13 B14 B15 B16 B17 B18 B19 B20 B21 B22 B23 B24 round A) (Model.Leak.Sha3.chi B00' B1' B2' B3' B4' B5' B6' B7' B8' B9' B10' B11' B12' B13' B14' B15' B16' B17' B18' B19' B20' B21' B22' B23' B24' round A') := by
  unfold Model.Leak.Sha3.chi
  agree [(Sha3.row_agree _ _ _ _ _ _ _ _ _ _ _ _ _)]

theorem lanes_erase (A : List (BitVec 64)) (D : List (BitVec 64)) (round : Nat) : L.erase (Model.Leak.Sha3.lanes A D round) = Model.Locals.Sha3.lanes A D round := by
  unfold Model.Leak.Sha3.lanes Model.Locals.Sha3.lanes
  erase_simp [Sha3.lane_erase, Sha3.lane0_erase, Sha3.chi_erase]

theorem lanes_agree (A A' : List (BitVec 64)) (D D' : List (BitVec 64)) (round : Nat) : Agree Any (Model.Leak.Sha3.lanes A D round) (Model.Leak.Sha3.lanes A' D' round) := by
  unfold Model.Leak.Sha3.lanes
  agree [(Sha3.lane_agree _ _ _ _ _ _ _ _ _), (Sha3.lane0_agree _ _ _ _), (Sha3.chi_agree _ _ _ _ _ _ _ _ _ _ _ _ _ _ _ _ _ _ _ _ _ _ _ _ _ _ _ _ _ _ _ _ _ _ _ _ _ _ _ _ _ _ _ _ _ _ _ _ _ _ _ _ _)]

theorem round_erase (k : Stack) (round : Nat) (A : List (BitVec 64)) : L.erase (Model.Leak.Sha3.round k round A) = Model.Locals.Sha3.round k round A := by
  unfold Model.Leak.Sha3.round Model.Locals.Sha3.round
  erase_simp [Sha3.fillC_erase, Sha3.fillD_erase, Sha3.lanes_erase]

theorem round_agree (k k' : Stack) (round : Nat) (A A' : List (BitVec 64)) : Agree Any (Model.Leak.Sha3.round k round A) (Model.Leak.Sha3.round k' round A') := by
  unfold Model.Leak.Sha3.round
  agree [(Sha3.fillC_agree _ _ _ _), (Sha3.fillD_agree _ _ _ _), (Sha3.lanes_agree _ _ _ _ _)]

theorem permute_erase (k : Nat → Stack) (R : Nat) (A : List (BitVec 64)) : L.erase (Model.Leak.Sha3.permute k R A) = Model.Locals.Sha3.permute k R A := by
  unfold Model.Leak.Sha3.permute Model.Locals.Sha3.permute
  erase_simp [Sha3.round_erase]

theorem permute_agree (k k' : Nat → Stack) (R : Nat) (A A' : List (BitVec 64)) : Agree Any (Model.Leak.Sha3.permute k R A) (Model.Leak.Sha3.permute k' R A') := by
  unfold Model.Leak.Sha3.permute
  agree [(Sha3.round_agree _ _ _ _ _)]

theorem xorBlock_erase (data : Bytes) (r : Nat) (r64 : Nat) (blk : Nat) (A : List (BitVec 64)) : L.erase (Model.Leak.Sha3.xorBlock data r r64 blk A) = Model.Locals.Sha3.xorBlock data r r64 blk A := by
  unfold Model.Leak.Sha3.xorBlock Model.Locals.Sha3.xorBlock
  erase_simp []

theorem xorBlock_agree (data data' : Bytes) (r : Nat) (r64 : Nat) (blk : Nat) (A A' : List (BitVec 64)) : Agree Any (Model.Leak.Sha3.xorBlock data r r64 blk A) (Model.Leak.Sha3.xorBlock data' r r64 blk A') := by
  unfold Model.Leak.Sha3.xorBlock
  agree []

theorem transform_erase (k : Nat → Nat → Stack) (R : Nat) (rate : Nat) (data : Bytes) (n : Nat) (A : List (BitVec 64)) : L.erase (Model.Leak.Sha3.transform k R rate data n A) = Model.Locals.Sha3.transform k R rate data n A := by
  unfold Model.Leak.Sha3.transform Model.Locals.Sha3.transform
  erase_simp [Sha3.permute_erase, Sha3.xorBlock_erase]

theorem transform_agree (k k' : Nat → Nat → Stack) (R : Nat) (rate : Nat) (data data' : Bytes) (n : Nat) (A A' : List (BitVec 64)) : Agree Any (Model.Leak.Sha3.transform k R rate data n A) (Model.Leak.Sha3.transform k' R rate data' n A') := by
  unfold Model.Leak.Sha3.transform
  agree [(Sha3.permute_agree _ _ _ _ _), (Sha3.xorBlock_agree _ _ _ _ _ _ _)]

end Digestpp.Proofs.Leak.Sha3
