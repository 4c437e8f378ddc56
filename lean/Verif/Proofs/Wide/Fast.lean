import Verif.Proofs.Wide.Mds

/-! The checker of `Mds` with multiplication by tables of powers and logarithms, for evaluation in the kernel. -/

namespace Digestpp.Proofs.Wide
open Spec

/-- The logarithm of a byte; 512 or more for zero. -/
def logT (L a : Nat) : Nat := (L >>> (16 * a)) % 65536

/-- Multiplication of bytes by tables: `E` has the powers of the generator, eight bits each, `L` the logarithms, sixteen bits each. -/
def mulT (E L a b : Nat) : Nat := (E >>> (8 * (logT L a + logT L b))) % 256

/-- `reduce` with tables. -/
def reduceT (E L : Nat) : List Nat → List Nat → List Nat
  | a :: r, b :: s => List.zipWith (fun u v => Nat.xor (mulT E L a v) (mulT E L b u)) r s
  | _, _ => []

/-- `good` with tables. -/
def goodT (E L : Nat) : Nat → List (List Nat) → Bool
  | 0 => fun _ => true
  | j + 1 => allTails fun r rs => !Nat.beq (r.headD 0) 0 && goodT E L j (rs.map (reduceT E L r))

/-- `mds` with tables. -/
def mdsT (E L n : Nat) (rows : List (List Nat)) : Bool :=
  (masks n).all fun m => goodT E L (m.count true) (rows.map (pick m))

/-- The entry of the table of powers. -/
def expT (E i : Nat) : Byte := BitVec.ofNat 8 (E >>> (8 * i))

/-- The tables belong to the field: the powers are those of `g`, and the logarithms are right. -/
structure IsTable (p : Byte) (E L : Nat) : Prop where
  bound : E < 2 ^ 4096
  one : expT E 0 = 1
  next : ∀ i, i < 510 → expT E (i + 1) = gmul p (expT E 1) (expT E i)
  log0 : 512 ≤ logT L 0
  log : ∀ n, n < 256 → 0 < n → logT L n < 256 ∧ expT E (logT L n) = BitVec.ofNat 8 n

theorem expT_add (p : Byte) (hp : IsField p) (E L : Nat) (h : IsTable p E L) : ∀ i j, i + j < 511 →
    gmul p (expT E i) (expT E j) = expT E (i + j)
  | 0, j, _ => by rw [h.one, hp.one, Nat.zero_add]
  | i + 1, j, hij => by
    rw [h.next i (by omega), gmul_assoc hp, expT_add p hp E L h i j (by omega), ← h.next (i + j) (by omega)]
    congr 1
    omega

theorem expT_high (p : Byte) (E L : Nat) (h : IsTable p E L) (i : Nat) (hi : 512 ≤ i) : E >>> (8 * i) = 0 := by
  rw [Nat.shiftRight_eq_div_pow]
  apply Nat.div_eq_of_lt
  exact Nat.lt_of_lt_of_le h.bound (Nat.pow_le_pow_right (by decide) (by omega))

theorem mulT_eq (p : Byte) (hp : IsField p) (E L : Nat) (h : IsTable p E L) (a b : Byte) :
    mulT E L a.toNat b.toNat = (gmul p a b).toNat := by
  unfold mulT
  by_cases ha : a = 0
  · subst ha
    rw [gmul_zero_left]
    show E >>> (8 * (logT L 0 + logT L b.toNat)) % 256 = 0
    rw [expT_high p E L h _ (Nat.le_trans h.log0 (Nat.le_add_right _ _))]
  · by_cases hb : b = 0
    · subst hb
      rw [gmul_zero_right]
      show E >>> (8 * (logT L a.toNat + logT L 0)) % 256 = 0
      rw [expT_high p E L h _ (Nat.le_trans h.log0 (Nat.le_add_left _ _))]
    · have pos : ∀ c : Byte, c ≠ 0 → 0 < c.toNat := fun c hc => Nat.pos_of_ne_zero fun e => hc (BitVec.eq_of_toNat_eq e)
      obtain ⟨la, ea⟩ := h.log a.toNat a.isLt (pos a ha)
      obtain ⟨lb, eb⟩ := h.log b.toNat b.isLt (pos b hb)
      rw [BitVec.ofNat_toNat, BitVec.setWidth_eq] at ea eb
      have e := expT_add p hp E L h (logT L a.toNat) (logT L b.toNat)
      by_cases hs : logT L a.toNat + logT L b.toNat < 511
      · rw [ea, eb] at e
        rw [e hs]
        exact (BitVec.toNat_ofNat (E >>> (8 * (logT L a.toNat + logT L b.toNat))) 8).symm
      · omega

theorem reduceT_eq (p : Byte) (hp : IsField p) (E L : Nat) (h : IsTable p E L) (r s : List Byte) :
    reduceT E L (r.map BitVec.toNat) (s.map BitVec.toNat) = (reduce p r s).map BitVec.toNat := by
  match r, s with
  | [], _ => rfl
  | _ :: _, [] => rfl
  | a :: r, b :: s =>
    show List.zipWith _ (r.map BitVec.toNat) (s.map BitVec.toNat) = (List.zipWith _ r s).map BitVec.toNat
    rw [List.zipWith_map, List.map_zipWith]
    congr 1
    funext u v
    rw [mulT_eq p hp E L h, mulT_eq p hp E L h]
    exact (BitVec.toNat_xor _ _).symm

theorem goodT_eq (p : Byte) (hp : IsField p) (E L : Nat) (h : IsTable p E L) : ∀ (j : Nat) (rs : List (List Byte)),
    goodT E L j (rs.map fun r => r.map BitVec.toNat) = good p j rs
  | 0, _ => rfl
  | _ + 1, [] => rfl
  | j + 1, r :: rs => by
    show (!Nat.beq ((r.map BitVec.toNat).headD 0) 0 && goodT E L j ((rs.map fun r => r.map BitVec.toNat).map (reduceT E L (r.map BitVec.toNat)))
      && goodT E L (j + 1) (rs.map fun r => r.map BitVec.toNat)) = _
    rw [goodT_eq p hp E L h (j + 1) rs, List.map_map]
    have e : rs.map (reduceT E L (r.map BitVec.toNat) ∘ fun r => r.map BitVec.toNat) = (rs.map (reduce p r)).map fun r => r.map BitVec.toNat := by
      rw [List.map_map]
      apply List.map_congr_left
      intro s _
      exact reduceT_eq p hp E L h r s
    rw [e, goodT_eq p hp E L h j]
    show _ = (decide (r.headD 0 ≠ 0) && good p j (rs.map (reduce p r)) && good p (j + 1) rs)
    congr 2
    match r with
    | [] => rfl
    | a :: r =>
      show (!Nat.beq a.toNat 0) = decide (a ≠ 0)
      by_cases ha : a = 0
      · subst ha; rfl
      · rw [decide_eq_true ha]
        have : Nat.beq a.toNat 0 = false := by
          cases hb : Nat.beq a.toNat 0
          · rfl
          · exact absurd (BitVec.eq_of_toNat_eq (Nat.eq_of_beq_eq_true hb)) ha
        rw [this]
        rfl

theorem map_pick {α β : Type} (f : α → β) : ∀ (m : List Bool) (l : List α), pick m (l.map f) = (pick m l).map f
  | [], l => by cases l <;> rfl
  | true :: _, [] => rfl
  | false :: _, [] => rfl
  | true :: m, a :: l => by
    show f a :: pick m (l.map f) = f a :: (pick m l).map f
    rw [map_pick f m l]
  | false :: m, a :: l => map_pick f m l

theorem mdsT_eq (p : Byte) (hp : IsField p) (E L : Nat) (h : IsTable p E L) (n : Nat) (rows : List (List Byte)) :
    mdsT E L n (rows.map fun r => r.map BitVec.toNat) = mds p n rows := by
  unfold mdsT mds
  congr 1
  funext m
  rw [← goodT_eq p hp E L h, List.map_map, List.map_map]
  congr 2
  funext r
  exact map_pick _ _ _

end Digestpp.Proofs.Wide
