import Verif.Spec.Gf

/-! The bytes with exclusive or and multiplication modulo a polynomial: laws of a field. -/

namespace Digestpp.Proofs.Wide
open Spec

theorem ite_xor (c : Bool) (a b : Byte) : (if c then a ^^^ b else 0) = (if c then a else 0) ^^^ (if c then b else 0) := by
  cases c <;> simp

theorem ite_bxor (c d : Bool) (a : Byte) : (if (c ^^ d) then a else 0) = (if c then a else 0) ^^^ (if d then a else 0) := by
  cases c <;> cases d <;> simp

theorem xor_swap4 (a b c d : Byte) : (a ^^^ b) ^^^ (c ^^^ d) = (a ^^^ c) ^^^ (b ^^^ d) := by
  rw [BitVec.xor_assoc, BitVec.xor_assoc, ← BitVec.xor_assoc b, ← BitVec.xor_assoc c, BitVec.xor_comm b c]

theorem xtime_xor (p a b : Byte) : xtime p (a ^^^ b) = xtime p a ^^^ xtime p b := by
  unfold xtime
  rw [BitVec.shiftLeft_xor_distrib, BitVec.getLsbD_xor, ite_bxor]
  exact xor_swap4 _ _ _ _

theorem xtime_zero (p : Byte) : xtime p 0 = 0 := by
  unfold xtime
  simp

theorem gmulN_xor_left (p : Byte) : ∀ n a a' b, gmulN p n (a ^^^ a') b = gmulN p n a b ^^^ gmulN p n a' b
  | 0, _, _, _ => (BitVec.xor_self (x := (0 : Byte))).symm
  | n + 1, a, a', b => by
    unfold gmulN
    rw [xtime_xor, gmulN_xor_left p n, ite_xor]
    exact xor_swap4 _ _ _ _

theorem gmulN_xor_right (p : Byte) : ∀ n a b b', gmulN p n a (b ^^^ b') = gmulN p n a b ^^^ gmulN p n a b'
  | 0, _, _, _ => (BitVec.xor_self (x := (0 : Byte))).symm
  | n + 1, a, b, b' => by
    unfold gmulN
    rw [BitVec.ushiftRight_xor_distrib, gmulN_xor_right p n, BitVec.getLsbD_xor, ite_bxor]
    exact xor_swap4 _ _ _ _

theorem gmulN_xtime (p : Byte) : ∀ n a b, gmulN p n (xtime p a) b = xtime p (gmulN p n a b)
  | 0, _, _ => (xtime_zero p).symm
  | n + 1, a, b => by
    unfold gmulN
    rw [gmulN_xtime p n, xtime_xor, gmulN_xtime p n]
    congr 1
    split
    · rfl
    · exact (xtime_zero p).symm

theorem gmul_xor_left (p a a' b : Byte) : gmul p (a ^^^ a') b = gmul p a b ^^^ gmul p a' b := gmulN_xor_left p 8 a a' b

theorem gmul_xor_right (p a b b' : Byte) : gmul p a (b ^^^ b') = gmul p a b ^^^ gmul p a b' := gmulN_xor_right p 8 a b b'

theorem gmul_zero_left (p b : Byte) : gmul p 0 b = 0 := by
  have h := gmul_xor_left p 0 0 b
  rw [BitVec.xor_self] at h
  exact h.trans BitVec.xor_self

theorem gmul_zero_right (p a : Byte) : gmul p a 0 = 0 := by
  have h := gmul_xor_right p a 0 0
  rw [BitVec.xor_self] at h
  exact h.trans BitVec.xor_self

theorem gmul_gmulN (p c : Byte) : ∀ n a b, gmul p (gmulN p n a b) c = gmulN p n (gmul p a c) b
  | 0, _, _ => gmul_zero_left p c
  | n + 1, a, b => by
    unfold gmulN
    rw [gmul_xor_left, gmul_gmulN p c n]
    have : gmul p (xtime p a) c = xtime p (gmul p a c) := gmulN_xtime p 8 a c
    rw [this]
    congr 1
    split
    · rfl
    · exact gmul_zero_left p c

theorem gmul_right_comm (p a b c : Byte) : gmul p (gmul p a b) c = gmul p (gmul p a c) b := gmul_gmulN p c 8 a b

/-- The polynomial `x^8 + p` makes a field: one is neutral, and every other byte than zero has the inverse given by the power 254. -/
structure IsField (p : Byte) : Prop where
  one : ∀ a, gmul p 1 a = a
  inv : ∀ a, a ≠ 0 → ∃ b, gmul p a b = 1

theorem gmul_comm {p : Byte} (hp : IsField p) (a b : Byte) : gmul p a b = gmul p b a := by
  have h := gmul_right_comm p 1 a b
  rwa [hp.one, hp.one] at h

theorem gmul_assoc {p : Byte} (hp : IsField p) (a b c : Byte) : gmul p (gmul p a b) c = gmul p a (gmul p b c) := by
  rw [gmul_comm hp a b, gmul_right_comm p b a c, gmul_comm hp (gmul p b c) a]

theorem gmul_eq_zero {p : Byte} (hp : IsField p) {a b : Byte} (ha : a ≠ 0) (h : gmul p a b = 0) : b = 0 := by
  obtain ⟨i, hi⟩ := hp.inv a ha
  rw [← hp.one b, ← hi, gmul_comm hp a i, gmul_assoc hp, h, gmul_zero_right]

/-- The power 254. -/
def pow254 (p a : Byte) : Byte :=
  let a2 := gmul p a a
  let a4 := gmul p a2 a2
  let a8 := gmul p a4 a4
  let a16 := gmul p a8 a8
  let a32 := gmul p a16 a16
  let a64 := gmul p a32 a32
  let a128 := gmul p a64 a64
  gmul p a2 (gmul p a4 (gmul p a8 (gmul p a16 (gmul p a32 (gmul p a64 a128)))))

theorem forall_byte {P : Byte → Prop} (h : ∀ n, n < 256 → P (BitVec.ofNat 8 n)) (a : Byte) : P a := by
  have := h a.toNat a.isLt
  rwa [BitVec.ofNat_toNat, BitVec.setWidth_eq] at this

theorem field_1b : IsField 0x1b where
  one := forall_byte (by decide +kernel)
  inv := fun a h => ⟨pow254 0x1b a, forall_byte (P := fun a => a ≠ 0 → gmul 0x1b a (pow254 0x1b a) = 1) (by decide +kernel) a h⟩

theorem field_1d : IsField 0x1d where
  one := forall_byte (by decide +kernel)
  inv := fun a h => ⟨pow254 0x1d a, forall_byte (P := fun a => a ≠ 0 → gmul 0x1d a (pow254 0x1d a) = 1) (by decide +kernel) a h⟩

end Digestpp.Proofs.Wide
