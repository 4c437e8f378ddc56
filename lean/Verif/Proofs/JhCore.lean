import Verif.Model.Jh
import Verif.Spec.Jh
import Verif.Proofs.Words
import Verif.Proofs.Bits
import Verif.Proofs.Sched

/-! The rounds of JH: the bit-sliced code and the specification in terms of four-bit elements. In round `r` the code keeps the
elements `2j` and `2j + 1` at position `tau r j` of its eight 128-bit words, instead of moving them. -/

set_option linter.unusedSimpArgs false

namespace Digestpp.Proofs.Jh
open Model Spec Spec.Jh

/-! ## The permutation -/

/-- Where `π_d` takes element `i` from. -/
def piI (i : Nat) : Nat := if i % 4 = 2 then i + 1 else if i % 4 = 3 then i - 1 else i
/-- Where `P'_d` takes element `i` from. -/
def pI' (d i : Nat) : Nat := if i < 2 ^ (d - 1) then 2 * i else 2 * (i - 2 ^ (d - 1)) + 1
/-- Where `φ_d` takes element `i` from. -/
def phiI (d i : Nat) : Nat := if i < 2 ^ (d - 1) then i else if i % 2 = 0 then i + 1 else i - 1
/-- Where `P_d` takes element `i` from. -/
def pI (d i : Nat) : Nat := piI (pI' d (phiI d i))

theorem P_eq (d : Nat) (a : Elems) (i : Nat) : P d a i = a (pI d i) := by
  have h1 : ∀ (a : Elems) i, pi a i = a (piI i) := by
    intro a i; unfold pi piI; repeat' split
    all_goals rfl
  have h2 : ∀ (a : Elems) i, P' d a i = a (pI' d i) := by
    intro a i; unfold P' pI'; split <;> rfl
  have h3 : ∀ (a : Elems) i, phi d a i = a (phiI d i) := by
    intro a i; unfold phi phiI; repeat' split
    all_goals rfl
  unfold P pI
  rw [h3, h2, h1]

/-! ## The round constants -/

/-- Four-bit elements of a 256-bit string. -/
def elems (x : BitVec 256) : Elems := fun i => ofBits 4 fun j => x.getLsbD (255 - (4 * i + (3 - j)))

/-- The round constants. -/
def cTab : List (BitVec 256) :=
  [0x6a09e667f3bcc908b2fb1366ea957d3e3adec17512775099da2f590b0667322a,
   0xbb896bf05955abcd5281828d66e7d99ac4203494f89bf12817deb43288712231,
   0x1836e76b12d79c55118a1139d2417df52a2021225ff6350063d88e5f1f91631c,
   0x263085a7000fa9c3317c6ca8ab65f7a7713cf4201060ce886af855a90d6a4eed,
   0x1cebafd51a156aeb62a11fb3be2e14f60b7e48de85814270fd62e97614d7b441,
   0xe5564cb574f7e09c75e2e244929e9549279ab224a28e445d57185e7d7a09fdc1,
   0x5820f0f0d764cff3a5552a5e41a82b9eff6ee0aa615773bb07e8603424c3cf8a,
   0xb126fb741733c5bfcef6f43a62e8e5706a26656028aa897ec1ea4616ce8fd510,
   0xdbf0de32bca77254bb4f562581a3bc991cf94f225652c27f14eae958ae6aa616,
   0xe6113be617f45f3de53cff03919a94c32c927b093ac8f23b47f7189aadb9bc67,
   0x80d0d26052ca45d593ab5fb3102506390083afb5ffe107dacfcba7dbe601a12b,
   0x43af1c76126714dfa950c368787c81ae3beecf956c85c962086ae16e40ebb0b4,
   0x9aee8994d2d74a5cdb7b1ef294eed5c1520724dd8ed58c92d3f0e174b0c32045,
   0x0b2aa58ceb3bdb9e1eef66b376e0c565d5d8fe7bacb8da866f859ac521f3d571,
   0x7a1523ef3d970a3a9b0b4d610e02749d37b8d57c1885fe4206a7f338e8356866,
   0x2c2db8f7876685f2cd9a2e0ddb64c9d5bf13905371fc39e0fa86e1477234a297,
   0x9df085eb2544ebf62b50686a71e6e828dfed9dbe0b106c9452ceddff3d138990,
   0xe6e5c42cb2d460c9d6e4791a1681bb2e222e54558eb78d5244e217d1bfcf5058,
   0x8f1f57e44e126210f00763ff57da208a5093b8ff7947534a4c260a17642f72b2,
   0xae4ef4792ea148608cf116cb2bff66e8fc74811266cd641112cd17801ed38b59,
   0x91a744efbf68b192d0549b608bdb3191fc12a0e83543cec5f882250b244f78e4,
   0x4b5d27d3368f9c17d4b2a2b216c7e74e7714d2cc03e1e44588cd9936de74357c,
   0x0ea17cafb8286131bda9e3757b3610aa3f77a6d0575053fc926eea7e237df289,
   0x848af9f57eb1a616e2c342c8cea528b8a95a5d16d9d87be9bb3784d0c351c32b,
   0xc0435cc3654fb85dd9335ba91ac3dbde1f85d567d7ad16f9de6e009bca3f95b5,
   0x927547fe5e5e45e2fe99f1651ea1cbf097dc3a3d40ddd21cee260543c288ec6b,
   0xc117a3770d3a34469d50dfa7db020300d306a365374fa828c8b780ee1b9d7a34,
   0x8ff2178ae2dbe5e872fac789a34bc228debf54a882743caad14f3a550fdbe68f,
   0xabd06c52ed58ff091205d0f627574c8cbc1fe7cf79210f5a2286f6e23a27efa0,
   0x631f4acb8d3ca4253e301849f157571d3211b6c1045347befb7c77df3c6ca7bd,
   0xae88f2342c23344590be2014fab4f179fd4bf7c90db14fa4018fcce689d2127b,
   0x93b89385546d71379fe41c39bc602e8b7c8b2f78ee914d1f0af0d437a189a8a4,
   0x1d1e036abeef3f44848cd76ef6baa889fcec56cd7967eb909a464bfc23c72435,
   0xa8e4ede4c5fe5e88d4fb192e0a0821e935ba145bbfc59c2508282755a5df53a5,
   0x8e4e37a3b970f079ae9d22a499a714c875760273f74a9398995d32c05027d810,
   0x61cfa42792f93b9fde36eb163e978709fafa7616ec3c7dad0135806c3d91a21b,
   0xf037c5d91623288b7d0302c1b941b72676a943b372659dcd7d6ef408a11b40c0,
   0x2a306354ca3ea90b0e97eaebcea0a6d7c6522399e885c613de824922c892c490,
   0x3ca6cdd788a5bdc5ef2dceeb16bca31e0a0d2c7e9921b6f71d33e25dd2f3cf53,
   0xf72578721db56bf8f49538b0ae6ea470c2fb1339dd26333f135f7def45376ec0,
   0xe449a03eab359e34095f8b4b55cd7ac7c0ec6510f2c4cc79fa6b1fee6b18c59e,
   0x73bd6978c59f2b219449b36770fb313fbe2da28f6b04275f071a1b193dde2072]

theorem R6_congr (a b : Elems) (h : ∀ i, i < 64 → a i = b i) (i : Nat) (hi : i < 64) :
    R 6 (fun _ => false) a i = R 6 (fun _ => false) b i := by
  unfold R
  rw [P_eq, P_eq]
  have hp : ∀ i, i < 64 → pI 6 i < 64 := by decide
  have := hp i hi
  generalize pI 6 i = k at *
  unfold linear subst
  split
  · rw [h k this, h (k + 1) (by omega)]
  · rw [h k this, h (k - 1) (by omega)]

theorem cTab_step : ∀ r, r < 41 → ∀ i, i < 64 →
    R 6 (fun _ => false) (elems (cTab.getD r 0)) i = elems (cTab.getD (r + 1) 0) i := by decide +kernel

theorem C_eq (r : Nat) (hr : r < 42) (i : Nat) (hi : i < 64) : C r i = elems (cTab.getD r 0) i := by
  induction r generalizing i with
  | zero => rfl
  | succ r ih =>
    rw [← cTab_step r (by omega) i hi]
    exact R6_congr _ _ (fun i hi => ih (by omega) i hi) i hi

/-! ## Positions -/

/-- The position of the elements `2j` and `2j + 1` in round `r`. -/
def tau (r j : Nat) : Nat := ((j <<< (r % 7)) ||| (j >>> (7 - r % 7))) % 128

/-- The bit of a little-endian word that is bit `i` of a string. -/
def bp (i : Nat) : Nat := 8 * (i / 8) + (7 - i % 8)

/-- Bit `b` of the even (`par = 0`) or odd (`par = 1`) element at position `p`. -/
def at_ (H : List (BitVec 64)) (b par p : Nat) : Bool := (H.getD (4 * b + 2 * par + p / 64) 0).getLsbD (bp (p % 64))

theorem bp_lt : ∀ i, i < 64 → bp i < 64 := by decide
theorem tau_lt (r j : Nat) : tau r j < 128 := Nat.mod_lt _ (by decide)
theorem tau_mod (r j : Nat) : tau r j = tau (r % 7) j := by
  unfold tau
  rw [Nat.mod_mod]

theorem const_tab : ∀ r, r < 42 → ∀ j, j < 128 → ∀ par, par < 2 →
    (jh_C.getD (r * 4 + 2 * par + tau r j / 64) 0).getLsbD (bp (tau r j % 64))
      = bit ((2 * j + par) % 4) (elems (cTab.getD r 0) ((2 * j + par) / 4)) := by decide +kernel

theorem const_eq (r : Nat) (hr : r < 42) (j : Nat) (hj : j < 128) (par : Nat) (hp : par < 2) :
    (jh_C.getD (r * 4 + 2 * par + tau r j / 64) 0).getLsbD (bp (tau r j % 64)) = constBits r (2 * j + par) := by
  rw [const_tab r hr j hj par hp]
  unfold constBits
  rw [C_eq r hr _ (by omega)]

/-! ## S-boxes and linear transformation -/

/-- One bit of `Sbitsli`. -/
def sb (x0 x1 x2 x3 c : Bool) : Bool × Bool × Bool × Bool :=
  let x3 := !x3
  let x0 := x0 ^^ (c && !x2)
  let t := c ^^ (x0 && x1)
  let x0 := x0 ^^ (x2 && x3)
  let x3 := x3 ^^ (!x1 && x2)
  let x1 := x1 ^^ (x0 && x2)
  let x2 := x2 ^^ (x0 && !x3)
  let x0 := x0 ^^ (x1 || x3)
  let x3 := x3 ^^ (x1 && x2)
  let x1 := x1 ^^ (t && x0)
  let x2 := x2 ^^ t
  (x0, x1, x2, x3)

theorem sbitsli_bit (x0 x1 x2 x3 c : BitVec 64) (t : Nat) (ht : t < 64) :
    (Model.Jh.sbitsli x0 x1 x2 x3 c).1.getLsbD t = (sb (x0.getLsbD t) (x1.getLsbD t) (x2.getLsbD t) (x3.getLsbD t) (c.getLsbD t)).1 ∧
    (Model.Jh.sbitsli x0 x1 x2 x3 c).2.1.getLsbD t = (sb (x0.getLsbD t) (x1.getLsbD t) (x2.getLsbD t) (x3.getLsbD t) (c.getLsbD t)).2.1 ∧
    (Model.Jh.sbitsli x0 x1 x2 x3 c).2.2.1.getLsbD t = (sb (x0.getLsbD t) (x1.getLsbD t) (x2.getLsbD t) (x3.getLsbD t) (c.getLsbD t)).2.2.1 ∧
    (Model.Jh.sbitsli x0 x1 x2 x3 c).2.2.2.getLsbD t = (sb (x0.getLsbD t) (x1.getLsbD t) (x2.getLsbD t) (x3.getLsbD t) (c.getLsbD t)).2.2.2 := by
  unfold Model.Jh.sbitsli sb
  simp only [BitVec.getLsbD_xor, BitVec.getLsbD_and, BitVec.getLsbD_or, BitVec.getLsbD_not, ht, decide_true, Bool.true_and,
    and_self]

theorem sb_eq : ∀ (x : BitVec 4) (c : Bool),
    sb (bit 0 x) (bit 1 x) (bit 2 x) (bit 3 x) c = (bit 0 (S c x), bit 1 (S c x), bit 2 (S c x), bit 3 (S c x)) := by
  decide

/-- The linear transformation on bits. -/
theorem L_bits : ∀ (x y : BitVec 4), let r := L x y
    (bit 0 r.1 = (bit 0 x ^^ (bit 1 y ^^ bit 2 x)) ∧ bit 1 r.1 = (bit 1 x ^^ (bit 2 y ^^ (bit 3 x ^^ bit 0 x))) ∧
     bit 2 r.1 = (bit 2 x ^^ ((bit 3 y ^^ bit 0 x) ^^ (bit 0 y ^^ bit 1 x))) ∧ bit 3 r.1 = (bit 3 x ^^ (bit 0 y ^^ bit 1 x))) ∧
    (bit 0 r.2 = (bit 0 y ^^ bit 1 x) ∧ bit 1 r.2 = (bit 1 y ^^ bit 2 x) ∧
     bit 2 r.2 = (bit 2 y ^^ (bit 3 x ^^ bit 0 x)) ∧ bit 3 r.2 = (bit 3 y ^^ bit 0 x)) := by decide +kernel

/-- One half of a round before `bitswap`: the elements `x` and `y` at bit `t` of the words `H[q], H[q + 2], …`. -/
theorem half_bits (H : List (BitVec 64)) (r q t : Nat) (ht : t < 64) (x y : BitVec 4) (c0 c1 : Bool)
    (hx : ∀ b, b < 4 → (H.getD (4 * b + q) 0).getLsbD t = bit b x)
    (hy : ∀ b, b < 4 → (H.getD (4 * b + 2 + q) 0).getLsbD t = bit b y)
    (h0 : (jh_C.getD (r * 4 + q) 0).getLsbD t = c0) (h1 : (jh_C.getD (r * 4 + 2 + q) 0).getLsbD t = c1) (b : Nat) (hb : b < 4) :
    ((Model.Jh.half H r q).getD (2 * b) 0).getLsbD t = bit b (L (S c0 x) (S c1 y)).1 ∧
    ((Model.Jh.half H r q).getD (2 * b + 1) 0).getLsbD t = bit b (L (S c0 x) (S c1 y)).2 := by
  have e := sbitsli_bit (H.getD q 0) (H.getD (4 + q) 0) (H.getD (8 + q) 0) (H.getD (12 + q) 0) (jh_C.getD (r * 4 + q) 0) t ht
  have o := sbitsli_bit (H.getD (2 + q) 0) (H.getD (6 + q) 0) (H.getD (10 + q) 0) (H.getD (14 + q) 0)
    (jh_C.getD (r * 4 + 2 + q) 0) t ht
  have x0 := hx 0 (by omega); have x1 := hx 1 (by omega); have x2 := hx 2 (by omega); have x3 := hx 3 (by omega)
  have y0 := hy 0 (by omega); have y1 := hy 1 (by omega); have y2 := hy 2 (by omega); have y3 := hy 3 (by omega)
  simp only [Nat.mul_zero, Nat.zero_add, Nat.mul_one, Nat.reduceMul, Nat.reduceAdd] at x0 x1 x2 x3 y0 y1 y2 y3
  rw [x0, x1, x2, x3, h0, sb_eq] at e
  rw [y0, y1, y2, y3, h1, sb_eq] at o
  have hL := L_bits (S c0 x) (S c1 y)
  unfold Model.Jh.half
  dsimp only at hL ⊢
  generalize Model.Jh.sbitsli (H.getD q 0) _ _ _ _ = E at *
  generalize Model.Jh.sbitsli (H.getD (2 + q) 0) _ _ _ _ = O at *
  obtain ⟨e0, e1, e2, e3⟩ := e
  obtain ⟨o0, o1, o2, o3⟩ := o
  obtain ⟨⟨l0, l1, l2, l3⟩, m0, m1, m2, m3⟩ := hL
  dsimp only at e0 e1 e2 e3 o0 o1 o2 o3
  unfold Model.Jh.lbitsli
  match b, hb with
  | 0, _ =>
    rw [l0, m0]
    refine ⟨?_, ?_⟩ <;> simp [e0, e1, e2, e3, o0, o1, o2, o3]
  | 1, _ =>
    rw [l1, m1]
    refine ⟨?_, ?_⟩ <;> simp [e0, e1, e2, e3, o0, o1, o2, o3]
  | 2, _ =>
    rw [l2, m2]
    refine ⟨?_, ?_⟩ <;> simp [e0, e1, e2, e3, o0, o1, o2, o3]
  | 3, _ =>
    rw [l3, m3]
    refine ⟨?_, ?_⟩ <;> simp [e0, e1, e2, e3, o0, o1, o2, o3]

/-- The code's words hold the elements `a` in the order of round `r`. -/
def Holds (r : Nat) (H : List (BitVec 64)) (a : Elems) : Prop :=
  ∀ j, j < 128 → ∀ par, par < 2 → ∀ b, b < 4 → at_ H b par (tau r j) = bit b (a (2 * j + par))

theorem sl_getD (H : List (BitVec 64)) (r b par q : Nat) (hb : b < 4) (hp : par < 2) (hq : q < 2) :
    (Model.Jh.sl H r).getD (4 * b + 2 * par + q) 0 = (Model.Jh.half H r q).getD (2 * b + par) 0 := by
  unfold Model.Jh.sl
  match b, hb, par, hp, q, hq with
  | 0, _, 0, _, 0, _ => rfl
  | 0, _, 0, _, 1, _ => rfl
  | 0, _, 1, _, 0, _ => rfl
  | 0, _, 1, _, 1, _ => rfl
  | 1, _, 0, _, 0, _ => rfl
  | 1, _, 0, _, 1, _ => rfl
  | 1, _, 1, _, 0, _ => rfl
  | 1, _, 1, _, 1, _ => rfl
  | 2, _, 0, _, 0, _ => rfl
  | 2, _, 0, _, 1, _ => rfl
  | 2, _, 1, _, 0, _ => rfl
  | 2, _, 1, _, 1, _ => rfl
  | 3, _, 0, _, 0, _ => rfl
  | 3, _, 0, _, 1, _ => rfl
  | 3, _, 1, _, 0, _ => rfl
  | 3, _, 1, _, 1, _ => rfl

/-- Both layers, without the permutation. -/
theorem sl_holds (r : Nat) (hr : r < 42) (H : List (BitVec 64)) (a : Elems) (h : Holds r H a) :
    Holds r (Model.Jh.sl H r) (linear (subst (constBits r) a)) := by
  intro j hj par hp b hb
  have hq : tau r j / 64 < 2 := by have := tau_lt r j; omega
  have ht : bp (tau r j % 64) < 64 := bp_lt _ (by omega)
  have c0 := const_eq r hr j hj 0 (by omega)
  have c1 := const_eq r hr j hj 1 (by omega)
  unfold at_
  rw [sl_getD H r b par _ hb hp hq]
  have hh := half_bits H r (tau r j / 64) _ ht (a (2 * j)) (a (2 * j + 1)) _ _
    (fun b hb => h j hj 0 (by omega) b hb) (fun b hb => h j hj 1 (by omega) b hb) c0 c1 b hb
  unfold linear subst
  match par, hp with
  | 0, _ =>
    rw [if_pos (by omega)]
    exact hh.1
  | 1, _ =>
    rw [if_neg (by omega)]
    exact hh.2

/-! ## Swaps -/

/-- The swap of the last step of round `r` on the odd elements. -/
theorem swap_holds (r : Nat) (H H' : List (BitVec 64)) (w : Elems) (h : Holds r H w)
    (h0 : ∀ p, p < 128 → ∀ b, b < 4 → at_ H' b 0 p = at_ H b 0 p)
    (h1 : ∀ p, p < 128 → ∀ b, b < 4 → at_ H' b 1 p = at_ H b 1 (p ^^^ 2 ^ (r % 7))) : Holds (r + 1) H' (P 8 w) := by
  have k0 : ∀ r, r < 7 → ∀ j, j < 128 → pI 8 (2 * j + 0) = 2 * (pI 8 (2 * j) / 2) + 0 ∧ pI 8 (2 * j) / 2 < 128 ∧
    tau (r + 1) j = tau r (pI 8 (2 * j) / 2) := by decide +kernel
  have k1 : ∀ r, r < 7 → ∀ j, j < 128 → pI 8 (2 * j + 1) = 2 * (pI 8 (2 * j + 1) / 2) + 1 ∧ pI 8 (2 * j + 1) / 2 < 128 ∧
    tau (r + 1) j ^^^ 2 ^ r = tau r (pI 8 (2 * j + 1) / 2) := by decide +kernel
  intro j hj par hp b hb
  have hr : r % 7 < 7 := Nat.mod_lt _ (by omega)
  have er : tau (r + 1) j = tau (r % 7 + 1) j := by
    rw [tau_mod (r + 1), tau_mod (r % 7 + 1)]
    congr 1
    omega
  rw [P_eq]
  match par, hp with
  | 0, _ =>
    obtain ⟨e1, e2, e3⟩ := k0 (r % 7) hr j hj
    rw [h0 _ (tau_lt _ _) b hb, er, e3, ← tau_mod, h _ e2 0 (by omega) b hb, e1]
  | 1, _ =>
    obtain ⟨e1, e2, e3⟩ := k1 (r % 7) hr j hj
    rw [h1 _ (tau_lt _ _) b hb, er, e3, ← tau_mod, h _ e2 1 (by omega) b hb, ← e1]

/-- `mask` selects the bits that `shift = 2^k` moves up. -/
def MaskOk (mask : BitVec 64) (shift : Nat) : Prop := ∀ i, i < 64 →
  (i ^^^ shift < i ∧ shift ≤ i ∧ i - shift = i ^^^ shift ∧ mask.getLsbD (i - shift) = true ∧ (i + shift < 64 → mask.getLsbD (i + shift) = true)) ∨
  (i < i ^^^ shift ∧ i + shift = i ^^^ shift ∧ i + shift < 64 ∧ mask.getLsbD (i + shift) = false ∧
    (shift ≤ i → mask.getLsbD (i - shift) = false))

instance (mask : BitVec 64) (shift : Nat) : Decidable (MaskOk mask shift) := by unfold MaskOk; infer_instance

theorem bitswap1_bit (x mask : BitVec 64) (shift : Nat) (h : MaskOk mask shift) (i : Nat) (hi : i < 64) :
    (Model.Jh.bitswap1 x mask shift).getLsbD i = x.getLsbD (i ^^^ shift) := by
  unfold Model.Jh.bitswap1
  rw [BitVec.getLsbD_or, BitVec.getLsbD_shiftLeft, BitVec.getLsbD_ushiftRight, BitVec.getLsbD_and, BitVec.getLsbD_and,
    BitVec.getLsbD_not]
  rcases h i hi with ⟨h1, h2, h3, h4, h5⟩ | ⟨h1, h2, h3, h4, h5⟩
  · rw [h4, ← h3, Nat.add_comm shift i]
    have : ¬ i < shift := by omega
    by_cases h6 : i + shift < 64
    · simp [hi, this, h5 h6]
    · simp [hi, this, h6]
  · rw [Nat.add_comm shift i, h4, ← h2]
    by_cases h6 : shift ≤ i
    · simp [h5 h6, h3]
    · simp [show i < shift by omega, h3]

theorem getD16 (l : List (BitVec 64)) (f : Nat → BitVec 64)
    (h : l = [f 0, f 1, f 2, f 3, f 4, f 5, f 6, f 7, f 8, f 9, f 10, f 11, f 12, f 13, f 14, f 15]) (i : Nat) (hi : i < 16) :
    l.getD i 0 = f i := by
  have : l = (List.range 16).map f := h
  rw [this]
  exact getD_map_range f 0 16 i hi

theorem bitswap_getD (H : List (BitVec 64)) (mask : BitVec 64) (shift i : Nat) (hi : i < 16) :
    (Model.Jh.bitswap H mask shift).getD i 0
      = if i / 2 % 2 = 0 then H.getD i 0 else Model.Jh.bitswap1 (H.getD i 0) mask shift :=
  getD16 _ (fun i => if i / 2 % 2 = 0 then H.getD i 0 else Model.Jh.bitswap1 (H.getD i 0) mask shift) rfl i hi

theorem swapWords_getD (H : List (BitVec 64)) (i : Nat) (hi : i < 16) :
    (Model.Jh.swapWords H).getD i 0 = if i / 2 % 2 = 0 then H.getD i 0 else H.getD (i + 1 - 2 * (i % 2)) 0 :=
  getD16 _ (fun i => if i / 2 % 2 = 0 then H.getD i 0 else H.getD (i + 1 - 2 * (i % 2)) 0)
    (by unfold Model.Jh.swapWords; simp) i hi

theorem word_lt (b par p : Nat) (hb : b < 4) (hp : par < 2) (h : p < 128) : 4 * b + 2 * par + p / 64 < 16 := by omega

theorem round_holds (r k : Nat) (hr : r < 42) (hk : r % 7 = k) (hk' : k < 6) (mask : BitVec 64) (hm : MaskOk mask (2 ^ k))
    (H : List (BitVec 64)) (a : Elems) (h : Holds r H a) :
    Holds (r + 1) (Model.Jh.round H r mask (2 ^ k)) (R 8 (constBits r) a) := by
  have hx : ∀ k, k < 6 → ∀ p, p < 128 → (p ^^^ 2 ^ k) / 64 = p / 64 ∧ bp ((p ^^^ 2 ^ k) % 64) = bp (p % 64) ^^^ 2 ^ k ∧
      2 ^ k ≠ 0 := by decide +kernel
  have e : Model.Jh.round H r mask (2 ^ k) = Model.Jh.bitswap (Model.Jh.sl H r) mask (2 ^ k) := by
    unfold Model.Jh.round
    exact if_pos (hx k hk' 0 (by omega)).2.2
  rw [e]
  refine swap_holds r _ _ _ (sl_holds r hr H a h) ?_ ?_
  · intro p hp b hb
    unfold at_
    rw [bitswap_getD _ _ _ _ (word_lt b 0 p hb (by omega) hp), if_pos (by omega)]
  · intro p hp b hb
    obtain ⟨h1, h2, -⟩ := hx k hk' p hp
    unfold at_
    rw [hk, h1, h2, bitswap_getD _ _ _ _ (word_lt b 1 p hb (by omega) hp), if_neg (by omega),
      bitswap1_bit _ _ _ hm _ (bp_lt _ (by omega))]

theorem last_holds (r : Nat) (hr : r < 42) (hk : r % 7 = 6) (H : List (BitVec 64)) (a : Elems) (h : Holds r H a) :
    Holds (r + 1) (Model.Jh.swapWords (Model.Jh.round H r 0#64 0)) (R 8 (constBits r) a) := by
  have hx : ∀ p, p < 128 → p / 64 < 2 ∧ (p ^^^ 64) % 64 = p % 64 ∧
      (∀ b, b < 4 → (4 * b + 2 * 1 + p / 64) + 1 - 2 * ((4 * b + 2 * 1 + p / 64) % 2) = 4 * b + 2 * 1 + (p ^^^ 64) / 64) := by decide +kernel
  have e : Model.Jh.round H r 0#64 0 = Model.Jh.sl H r := rfl
  rw [e]
  refine swap_holds r _ _ _ (sl_holds r hr H a h) ?_ ?_
  · intro p hp b hb
    unfold at_
    rw [swapWords_getD _ _ (word_lt b 0 p hb (by omega) hp), if_pos (by omega)]
  · intro p hp b hb
    obtain ⟨h1, h2, h3⟩ := hx p hp
    unfold at_
    rw [hk, show 2 ^ 6 = 64 from rfl, h2, ← h3 b hb, swapWords_getD _ _ (word_lt b 1 p hb (by omega) hp), if_neg (by omega)]

theorem seven_holds (r : Nat) (hr : r + 6 < 42) (h7 : r % 7 = 0) (H : List (BitVec 64)) (a : Elems) (h : Holds r H a) :
    Holds (r + 7) (Model.Jh.seven H r) ([r, r + 1, r + 2, r + 3, r + 4, r + 5, r + 6].foldl (fun a r => R 8 (constBits r) a) a) := by
  have h := round_holds r 0 (by omega) (by omega) (by omega) 0x5555555555555555#64 (by decide +kernel) _ _ h
  have h := round_holds (r + 1) 1 (by omega) (by omega) (by omega) 0x3333333333333333#64 (by decide +kernel) _ _ h
  have h := round_holds (r + 2) 2 (by omega) (by omega) (by omega) 0x0f0f0f0f0f0f0f0f#64 (by decide +kernel) _ _ h
  have h := round_holds (r + 3) 3 (by omega) (by omega) (by omega) 0x00ff00ff00ff00ff#64 (by decide +kernel) _ _ h
  have h := round_holds (r + 4) 4 (by omega) (by omega) (by omega) 0x0000ffff0000ffff#64 (by decide +kernel) _ _ h
  have h := round_holds (r + 5) 5 (by omega) (by omega) (by omega) 0x00000000ffffffff#64 (by decide +kernel) _ _ h
  exact last_holds (r + 6) (by omega) (by omega) _ _ h

theorem rounds_holds (H : List (BitVec 64)) (a : Elems) (h : Holds 0 H a) :
    Holds 0 ([0, 7, 14, 21, 28, 35].foldl Model.Jh.seven H) ((List.range 42).foldl (fun a r => R 8 (constBits r) a) a) := by
  have key : ∀ k, k ≤ 6 → Holds (7 * k) ((List.range k).foldl (fun H k => Model.Jh.seven H (7 * k)) H)
      ((List.range (7 * k)).foldl (fun a r => R 8 (constBits r) a) a) := by
    intro k hk
    induction k with
    | zero => exact h
    | succ k ih =>
      have e : List.range (7 * (k + 1)) = List.range (7 * k)
          ++ [7 * k, 7 * k + 1, 7 * k + 2, 7 * k + 3, 7 * k + 4, 7 * k + 5, 7 * k + 6] := by
        rw [show 7 * (k + 1) = 7 * k + 1 + 1 + 1 + 1 + 1 + 1 + 1 by omega]
        simp only [List.range_succ, List.append_assoc, List.cons_append, List.nil_append]
      rw [e, List.range_succ, List.foldl_append, List.foldl_append]
      exact seven_holds (7 * k) (by omega) (by omega) _ _ (ih (by omega))
  have := key 6 (by omega)
  have e : ([0, 7, 14, 21, 28, 35] : List Nat) = (List.range 6).map (7 * ·) := by decide
  rw [e, List.foldl_map]
  intro j hj
  rw [show tau 0 j = tau (7 * 6) j from rfl]
  exact this j hj

end Digestpp.Proofs.Jh
