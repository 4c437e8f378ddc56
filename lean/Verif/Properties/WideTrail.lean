import Verif.Proofs.Wide.Groestl
import Verif.Proofs.Wide.Kupyna
import Verif.Proofs.Wide.Whirlpool
import Verif.Proofs.Wide.Streebog
import Verif.Proofs.Wide.Echo

/-! C69: how far differences spread in the rounds that look up tables. -/

namespace Digestpp.Properties
open Model Spec

/-- Grøstl, `P` for 8 or 16 columns. -/
theorem groestl_wide_trail_p (R : Nat) (hR : R = 8 ∨ R = 16) : WideTrail 9 R fun i x => Model.Groestl.roundP R x i :=
  Proofs.Wide.Groestl.wideTrailP R hR

/-- Grøstl, `Q` for 8 or 16 columns. -/
theorem groestl_wide_trail_q (R : Nat) (hR : R = 8 ∨ R = 16) : WideTrail 9 R fun i x => Model.Groestl.roundQ R x i :=
  Proofs.Wide.Groestl.wideTrailQ R hR

/-- Kupyna, the permutation with constants added by exclusive or. -/
theorem kupyna_wide_trail_p (R : Nat) (hR : R = 8 ∨ R = 16) : WideTrail 9 R fun i x => Model.Kupyna.roundP R x i :=
  Proofs.Wide.Kupyna.wideTrailP R hR

/-- WHIRLPOOL, the state under any keys. -/
theorem whirlpool_wide_trail : WideTrail 9 8 fun L x => Model.Whirlpool.nextState L x := Proofs.Wide.Whirlpool.wideTrail

/-- WHIRLPOOL, the keys. -/
theorem whirlpool_wide_trail_key : WideTrail 9 8 fun r x => Model.Whirlpool.nextKey r x := Proofs.Wide.Whirlpool.wideTrailKey

/-- Streebog, the state under any keys. -/
theorem streebog_wide_trail : WideTrail 9 8 fun K x => Model.Streebog.xorBlocks (Model.Streebog.lpsBlock x) K :=
  Proofs.Wide.Streebog.wideTrailData

/-- Streebog, the keys. -/
theorem streebog_wide_trail_key : WideTrail 9 8 fun K x => Model.Streebog.lpsBlock (Model.Streebog.xorBlocks x K) :=
  Proofs.Wide.Streebog.wideTrail

/-- ECHO, for any salt and any counters: the S-boxes of both AES rounds of all words, five for each word that the theorem on four rounds promises. -/
theorem echo_wide_trail (salt : List (BitVec 64)) (hs : salt.length = 2) (cs : List (BitVec 64)) (x y : List (BitVec 64)) (hx : x.length = 32)
    (hy : y.length = 32) (h : x ≠ y) :
    5 * wideTrail 5 cs.length ≤ along Spec.Echo.activeBoxes
      (cs.map fun c x => Model.Echo.mixColumns (Model.Echo.shiftRows (Model.Echo.subWords salt (x, c)).1)) x y :=
  Proofs.Wide.Echo.wideTrail salt hs cs x y hx hy h

/-- Four rounds of ECHO. -/
theorem echo_four_rounds (salt : List (BitVec 64)) (hs : salt.length = 2) (c : BitVec 64) (x y : List (BitVec 64)) (hx : x.length = 32)
    (hy : y.length = 32) (h : x ≠ y) :
    125 ≤ along Spec.Echo.activeBoxes
      ([c, c + 16, c + 32, c + 48].map fun c x => Model.Echo.mixColumns (Model.Echo.shiftRows (Model.Echo.subWords salt (x, c)).1)) x y := by
  have := echo_wide_trail salt hs [c, c + 16, c + 32, c + 48] x y hx hy h
  rw [show [c, c + 16, c + 32, c + 48].length = 4 from rfl] at this
  exact this

/-- All ten or fourteen rounds of `P` of Grøstl. -/
theorem groestl_active (R : Nat) (hR : R = 8 ∨ R = 16) (x y : List (BitVec 64)) (hx : x.length = R) (hy : y.length = R) (h : x ≠ y) :
    (if R = 8 then 171 else 252)
      ≤ activeIn (((List.range (if R = 8 then 10 else 14)).map fun r => BitVec.ofNat 64 r).map fun i x => Model.Groestl.roundP R x i) x y := by
  have := groestl_wide_trail_p R hR ((List.range (if R = 8 then 10 else 14)).map fun r => BitVec.ofNat 64 r) x y hx hy h
  refine Nat.le_trans ?_ this
  rw [List.length_map, List.length_range]
  rcases hR with rfl | rfl <;> decide

/-- All ten rounds of WHIRLPOOL, for any ten round keys. -/
theorem whirlpool_active (ks : List (List (BitVec 64))) (hk : ks.length = 10) (x y : List (BitVec 64)) (hx : x.length = 8) (hy : y.length = 8)
    (h : x ≠ y) : 171 ≤ activeIn (ks.map fun L x => Model.Whirlpool.nextState L x) x y := by
  have := whirlpool_wide_trail ks x y hx hy h
  rw [hk] at this
  exact this

/-- All twelve rounds of Streebog, for any twelve round keys. -/
theorem streebog_active (ks : List (List (BitVec 64))) (hk : ks.length = 12) (x y : List (BitVec 64)) (hx : x.length = 8) (hy : y.length = 8)
    (h : x ≠ y) : 243 ≤ activeIn (ks.map fun K x => Model.Streebog.xorBlocks (Model.Streebog.lpsBlock x) K) x y := by
  have := streebog_wide_trail ks x y hx hy h
  rw [hk] at this
  exact this

/-- Two states that differ in one bit, four rounds. -/
example : 81 ≤ activeIn (([0, 1, 2, 3] : List (BitVec 64)).map fun i x => Model.Groestl.roundP 8 x i) (List.replicate 8 0) (1 :: List.replicate 7 0) :=
  groestl_wide_trail_p 8 (Or.inl rfl) [0, 1, 2, 3] _ _ rfl rfl (by decide)

/-- Two rounds cannot promise more than 9. -/
example : activeIn (([0, 1] : List (BitVec 64)).map fun i x => Model.Groestl.roundP 8 x i) (List.replicate 8 0) (1 :: List.replicate 7 0) = 9 ∧
    wideTrail 9 2 = 9 := by decide +kernel

/-- The same in the other rounds. -/
example : activeIn (([0, 1] : List (BitVec 64)).map fun i x => Model.Kupyna.roundP 16 x i) (List.replicate 16 0) (1 :: List.replicate 15 0) = 9 ∧
    activeIn (([[], []] : List (List (BitVec 64))).map fun L x => Model.Whirlpool.nextState L x) (List.replicate 8 0) (1 :: List.replicate 7 0) = 9 ∧
    activeIn (([[], []] : List (List (BitVec 64))).map fun K x => Model.Streebog.xorBlocks (Model.Streebog.lpsBlock x) K) (List.replicate 8 0)
      (1 :: List.replicate 7 0) = 9 := by decide +kernel

/-- In ECHO one round cannot promise more than 5. -/
example : Spec.Echo.activeBoxes (List.replicate 32 0) (1 :: List.replicate 31 0) = 5 ∧ 5 * wideTrail 5 1 = 5 := by decide +kernel

/-- Rounds without mixing keep no such promise. -/
example : ¬ WideTrail 9 8 fun (_ : Nat) x => x := by
  intro h
  have := h [0, 0] (List.replicate 8 0) (1 :: List.replicate 7 0) rfl rfl (by decide)
  revert this
  decide

end Digestpp.Properties
