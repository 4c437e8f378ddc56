import Verif.Spec.Md
import Verif.Model.Functions
import Verif.Spec.Words

/-! The model's word loads, stores, byte swaps and rotations agree with the specification's. -/

namespace Digestpp.Proofs
open Model Spec

theorem rotl_eq {w : Nat} (x : BitVec w) (n : Nat) (h : 0 < n ∧ n < w) : rotl x n h = x.rotateLeft n := by
  unfold rotl BitVec.rotateLeft BitVec.rotateLeftAux
  rw [Nat.mod_eq_of_lt h.2]

theorem rotr_eq {w : Nat} (x : BitVec w) (n : Nat) (h : 0 < n ∧ n < w) : rotr x n h = x.rotateRight n := by
  unfold rotr BitVec.rotateRight BitVec.rotateRightAux
  rw [Nat.mod_eq_of_lt h.2]

theorem rotlChecked_eq {w : Nat} (x : BitVec w) (n : Nat) (h : 0 < n ∧ n < w) :
    rotlChecked x n = .ok (x.rotateLeft n) := by
  unfold rotlChecked
  rw [if_pos h]
  exact congrArg Except.ok (rotl_eq x n h)

theorem toNat_append8 {w : Nat} (x : BitVec w) (y : Byte) : (x ++ y).toNat = 256 * x.toNat + y.toNat := by
  rw [BitVec.toNat_append, ← Nat.shiftLeft_add_eq_or_of_lt y.isLt, Nat.shiftLeft_eq]
  omega

theorem le32_toNat (b0 b1 b2 b3 : Byte) (r : Bytes) :
    (le32 (b0 :: b1 :: b2 :: b3 :: r)).toNat = leNat [b0, b1, b2, b3] := by
  simp only [le32, List.getD_cons_succ, List.getD_cons_zero, leNat]
  rw [toNat_append8, toNat_append8, toNat_append8]
  omega

theorem le64_toNat (b0 b1 b2 b3 b4 b5 b6 b7 : Byte) (r : Bytes) :
    (le64 (b0 :: b1 :: b2 :: b3 :: b4 :: b5 :: b6 :: b7 :: r)).toNat = leNat [b0, b1, b2, b3, b4, b5, b6, b7] := by
  simp only [le64, List.getD_cons_succ, List.getD_cons_zero, leNat]
  rw [toNat_append8, toNat_append8, toNat_append8, toNat_append8, toNat_append8, toNat_append8, toNat_append8]
  omega

theorem getLsbD_app4 (a b c d : Byte) (i : Nat) : BitVec.getLsbD (w := 32) (a ++ b ++ c ++ d) i =
    if i < 8 then d.getLsbD i else if i - 8 < 8 then c.getLsbD (i - 8)
    else if i - 8 - 8 < 8 then b.getLsbD (i - 8 - 8) else a.getLsbD (i - 8 - 8 - 8) := by
  show BitVec.getLsbD (w := 8 + 8 + 8 + 8) (a ++ b ++ c ++ d) i = _
  simp only [BitVec.getLsbD_append]

theorem byteswap32_append (a b c d : Byte) : byteswap32 (a ++ b ++ c ++ d) = d ++ c ++ b ++ a := by
  apply BitVec.eq_of_getLsbD_eq
  have h1 := getLsbD_app4 a b c d
  have h2 := getLsbD_app4 d c b a
  revert h1 h2
  generalize (a ++ b ++ c ++ d : BitVec 32) = x
  generalize (d ++ c ++ b ++ a : BitVec 32) = y
  intro h1 h2
  simp only [byteswap32, Nat.forall_lt_succ_right, BitVec.getLsbD_or, BitVec.getLsbD_ushiftRight,
    BitVec.getLsbD_shiftLeft, BitVec.getLsbD_and, h1, h2]
  simp

theorem getLsbD_app8 (a b c d e f g h : Byte) (i : Nat) :
    BitVec.getLsbD (w := 64) (a ++ b ++ c ++ d ++ e ++ f ++ g ++ h) i =
    if i < 8 then h.getLsbD i else if i - 8 < 8 then g.getLsbD (i - 8)
    else if i - 8 - 8 < 8 then f.getLsbD (i - 8 - 8) else if i - 8 - 8 - 8 < 8 then e.getLsbD (i - 8 - 8 - 8)
    else if i - 8 - 8 - 8 - 8 < 8 then d.getLsbD (i - 8 - 8 - 8 - 8)
    else if i - 8 - 8 - 8 - 8 - 8 < 8 then c.getLsbD (i - 8 - 8 - 8 - 8 - 8)
    else if i - 8 - 8 - 8 - 8 - 8 - 8 < 8 then b.getLsbD (i - 8 - 8 - 8 - 8 - 8 - 8)
    else a.getLsbD (i - 8 - 8 - 8 - 8 - 8 - 8 - 8) := by
  show BitVec.getLsbD (w := 8 + 8 + 8 + 8 + 8 + 8 + 8 + 8) (a ++ b ++ c ++ d ++ e ++ f ++ g ++ h) i = _
  simp only [BitVec.getLsbD_append]

theorem byteswap64_append (a b c d e f g h : Byte) :
    byteswap64 (a ++ b ++ c ++ d ++ e ++ f ++ g ++ h) = h ++ g ++ f ++ e ++ d ++ c ++ b ++ a := by
  apply BitVec.eq_of_getLsbD_eq
  have h1 := getLsbD_app8 a b c d e f g h
  have h2 := getLsbD_app8 h g f e d c b a
  revert h1 h2
  generalize (a ++ b ++ c ++ d ++ e ++ f ++ g ++ h : BitVec 64) = x
  generalize (h ++ g ++ f ++ e ++ d ++ c ++ b ++ a : BitVec 64) = y
  intro h1 h2
  simp only [byteswap64, Nat.forall_lt_succ_right, BitVec.getLsbD_or, BitVec.getLsbD_ushiftRight,
    BitVec.getLsbD_shiftLeft, BitVec.getLsbD_and, h1, h2]
  simp

theorem be32_toNat (b0 b1 b2 b3 : Byte) (r : Bytes) :
    (byteswap32 (le32 (b0 :: b1 :: b2 :: b3 :: r))).toNat = beNat [b0, b1, b2, b3] := by
  simp only [le32, List.getD_cons_succ, List.getD_cons_zero]
  rw [byteswap32_append, toNat_append8, toNat_append8, toNat_append8]
  simp only [beNat, leNat, List.reverse_cons, List.reverse_nil, List.nil_append, List.cons_append]
  omega

theorem be64_toNat (b0 b1 b2 b3 b4 b5 b6 b7 : Byte) (r : Bytes) :
    (byteswap64 (le64 (b0 :: b1 :: b2 :: b3 :: b4 :: b5 :: b6 :: b7 :: r))).toNat
      = beNat [b0, b1, b2, b3, b4, b5, b6, b7] := by
  simp only [le64, List.getD_cons_succ, List.getD_cons_zero]
  rw [byteswap64_append, toNat_append8, toNat_append8, toNat_append8, toNat_append8, toNat_append8, toNat_append8,
    toNat_append8]
  simp only [beNat, leNat, List.reverse_cons, List.reverse_nil, List.nil_append, List.cons_append]
  omega

theorem cons4 {α : Type} (l : List α) (h : 4 ≤ l.length) :
    ∃ a b c d r, l = a :: b :: c :: d :: r := by
  match l, h with
  | a :: b :: c :: d :: r, _ => exact ⟨a, b, c, d, r, rfl⟩

theorem cons8 {α : Type} (l : List α) (h : 8 ≤ l.length) :
    ∃ a b c d e f g k r, l = a :: b :: c :: d :: e :: f :: g :: k :: r := by
  match l, h with
  | a :: b :: c :: d :: e :: f :: g :: k :: r, _ => exact ⟨a, b, c, d, e, f, g, k, r, rfl⟩

theorem ofNat_toNat_eq {w : Nat} (x : BitVec w) (n : Nat) (h : x.toNat = n) : x = BitVec.ofNat w n := by
  rw [← h, BitVec.ofNat_toNat, BitVec.setWidth_eq]

theorem le32_eq (b : Bytes) (h : 4 ≤ b.length) : le32 b = BitVec.ofNat 32 (leNat (b.take 4)) := by
  obtain ⟨b0, b1, b2, b3, r, rfl⟩ := cons4 b h
  exact ofNat_toNat_eq _ _ (le32_toNat b0 b1 b2 b3 r)

theorem le64_eq (b : Bytes) (h : 8 ≤ b.length) : le64 b = BitVec.ofNat 64 (leNat (b.take 8)) := by
  obtain ⟨b0, b1, b2, b3, b4, b5, b6, b7, r, rfl⟩ := cons8 b h
  exact ofNat_toNat_eq _ _ (le64_toNat b0 b1 b2 b3 b4 b5 b6 b7 r)

theorem be32_eq (b : Bytes) (h : 4 ≤ b.length) : byteswap32 (le32 b) = BitVec.ofNat 32 (beNat (b.take 4)) := by
  obtain ⟨b0, b1, b2, b3, r, rfl⟩ := cons4 b h
  exact ofNat_toNat_eq _ _ (be32_toNat b0 b1 b2 b3 r)

theorem be64_eq (b : Bytes) (h : 8 ≤ b.length) : byteswap64 (le64 b) = BitVec.ofNat 64 (beNat (b.take 8)) := by
  obtain ⟨b0, b1, b2, b3, b4, b5, b6, b7, r, rfl⟩ := cons8 b h
  exact ofNat_toNat_eq _ _ (be64_toNat b0 b1 b2 b3 b4 b5 b6 b7 r)

theorem loads32_eq (n : Nat) (b : Bytes) (h : b.length = 4 * n) : loads32 n b = leWords 32 b := by
  unfold loads32 leWords
  rw [show b.length / (32 / 8) = n by rw [h]; omega]
  apply List.map_congr_left
  intro i hi
  rw [List.mem_range] at hi
  rw [le32_eq _ (by simp; omega), Nat.mul_comm 4 i]

theorem loads64_eq (n : Nat) (b : Bytes) (h : b.length = 8 * n) : loads64 n b = leWords 64 b := by
  unfold loads64 leWords
  rw [show b.length / (64 / 8) = n by rw [h]; omega]
  apply List.map_congr_left
  intro i hi
  rw [List.mem_range] at hi
  rw [le64_eq _ (by simp; omega), Nat.mul_comm 8 i]

theorem loads32_be (n : Nat) (b : Bytes) (h : b.length = 4 * n) :
    (loads32 n b).map byteswap32 = beWords 32 b := by
  unfold loads32 beWords
  rw [show b.length / (32 / 8) = n by rw [h]; omega, List.map_map]
  apply List.map_congr_left
  intro i hi
  rw [List.mem_range] at hi
  show byteswap32 (le32 (b.drop (4 * i))) = _
  rw [be32_eq _ (by simp; omega), Nat.mul_comm 4 i]

theorem loads64_be (n : Nat) (b : Bytes) (h : b.length = 8 * n) :
    (loads64 n b).map byteswap64 = beWords 64 b := by
  unfold loads64 beWords
  rw [show b.length / (64 / 8) = n by rw [h]; omega, List.map_map]
  apply List.map_congr_left
  intro i hi
  rw [List.mem_range] at hi
  show byteswap64 (le64 (b.drop (8 * i))) = _
  rw [be64_eq _ (by simp; omega), Nat.mul_comm 8 i]

theorem extract_eq {w : Nat} (x : BitVec w) (i : Nat) :
    x.extractLsb' (8 * i) 8 = BitVec.ofNat 8 (x.toNat / 256 ^ i) := by
  apply BitVec.eq_of_toNat_eq
  rw [BitVec.extractLsb'_toNat, BitVec.toNat_ofNat, Nat.shiftRight_eq_div_pow, Nat.pow_mul]

theorem bytes32_eq (x : BitVec 32) : bytes32 x = leBytes 4 x.toNat := by
  have h : ∀ i, BitVec.ofNat 8 (x.toNat / 256 ^ i) = x.extractLsb' (8 * i) 8 := fun i => (extract_eq x i).symm
  unfold leBytes
  simp only [h]
  rfl

theorem bytes64_eq (x : BitVec 64) : bytes64 x = leBytes 8 x.toNat := by
  have h : ∀ i, BitVec.ofNat 8 (x.toNat / 256 ^ i) = x.extractLsb' (8 * i) 8 := fun i => (extract_eq x i).symm
  unfold leBytes
  simp only [h]
  rfl

theorem leBytes_mod (n x : Nat) : leBytes n (x % 256 ^ n) = leBytes n x := by
  unfold leBytes
  apply List.map_congr_left
  intro i hi
  rw [List.mem_range] at hi
  apply BitVec.eq_of_toNat_eq
  rw [BitVec.toNat_ofNat, BitVec.toNat_ofNat]
  have e : 256 ^ n = 256 ^ i * 256 ^ (n - i) := by rw [← Nat.pow_add]; congr 1; omega
  rw [e, Nat.mod_mul_right_div_self]
  apply Nat.mod_mod_of_dvd
  rw [show n - i = (n - i - 1) + 1 by omega, Nat.pow_succ]
  exact Nat.dvd_mul_left _ _

theorem bytes64_ofNat (x : Nat) : bytes64 (BitVec.ofNat 64 x) = leBytes 8 x := by
  rw [bytes64_eq, BitVec.toNat_ofNat, show 2 ^ 64 = 256 ^ 8 from rfl, leBytes_mod]

theorem bytes32_ofNat (x : Nat) : bytes32 (BitVec.ofNat 32 x) = leBytes 4 x := by
  rw [bytes32_eq, BitVec.toNat_ofNat, show 2 ^ 32 = 256 ^ 4 from rfl, leBytes_mod]

theorem stores32_eq (l : List (BitVec 32)) : stores32 l = ofLeWords l := by
  unfold stores32 ofLeWords
  congr 1; funext x; exact bytes32_eq x

theorem stores64_eq (l : List (BitVec 64)) : stores64 l = ofLeWords l := by
  unfold stores64 ofLeWords
  congr 1; funext x; exact bytes64_eq x

theorem eq_app4 (x : BitVec 32) :
    x = x.extractLsb' 24 8 ++ x.extractLsb' 16 8 ++ x.extractLsb' 8 8 ++ x.extractLsb' 0 8 := by
  apply BitVec.eq_of_getLsbD_eq
  intro i hi
  rw [getLsbD_app4]
  simp only [BitVec.getLsbD_extractLsb']
  split
  · simp [*]
  · split
    · simp only [*, decide_true, Bool.true_and]; congr 1; omega
    · split
      · simp only [*, decide_true, Bool.true_and]; congr 1; omega
      · rw [decide_eq_true (by omega), Bool.true_and]; congr 1; omega

theorem eq_app8 (x : BitVec 64) :
    x = x.extractLsb' 56 8 ++ x.extractLsb' 48 8 ++ x.extractLsb' 40 8 ++ x.extractLsb' 32 8 ++
      x.extractLsb' 24 8 ++ x.extractLsb' 16 8 ++ x.extractLsb' 8 8 ++ x.extractLsb' 0 8 := by
  apply BitVec.eq_of_getLsbD_eq
  intro i hi
  rw [getLsbD_app8]
  simp only [BitVec.getLsbD_extractLsb']
  repeat' split
  all_goals (rw [decide_eq_true (by omega), Bool.true_and]; congr 1; omega)

theorem extract_app4 (a b c d : Byte) : bytes32 (a ++ b ++ c ++ d) = [d, c, b, a] := by
  have h := getLsbD_app4 a b c d
  revert h
  generalize (a ++ b ++ c ++ d : BitVec 32) = x
  intro h
  unfold bytes32
  simp only [List.cons.injEq, and_true]
  refine ⟨?_, ?_, ?_, ?_⟩ <;>
    (apply BitVec.eq_of_getLsbD_eq; intro i hi
     rw [BitVec.getLsbD_extractLsb', decide_eq_true hi, Bool.true_and, h]
     repeat' split
     all_goals first | (exfalso; omega) | (congr 1; omega))

theorem extract_app8 (a b c d e f g h : Byte) :
    bytes64 (a ++ b ++ c ++ d ++ e ++ f ++ g ++ h) = [h, g, f, e, d, c, b, a] := by
  have hh := getLsbD_app8 a b c d e f g h
  revert hh
  generalize (a ++ b ++ c ++ d ++ e ++ f ++ g ++ h : BitVec 64) = x
  intro hh
  unfold bytes64
  simp only [List.cons.injEq, and_true]
  refine ⟨?_, ?_, ?_, ?_, ?_, ?_, ?_, ?_⟩ <;>
    (apply BitVec.eq_of_getLsbD_eq; intro i hi
     rw [BitVec.getLsbD_extractLsb', decide_eq_true hi, Bool.true_and, hh]
     repeat' split
     all_goals first | (exfalso; omega) | (congr 1; omega))

theorem bytes32_byteswap (x : BitVec 32) : bytes32 (byteswap32 x) = beBytes 4 x.toNat := by
  rw [beBytes, ← bytes32_eq]
  conv => lhs; rw [eq_app4 x]
  rw [byteswap32_append, extract_app4]
  rfl

theorem bytes64_byteswap (x : BitVec 64) : bytes64 (byteswap64 x) = beBytes 8 x.toNat := by
  rw [beBytes, ← bytes64_eq]
  conv => lhs; rw [eq_app8 x]
  rw [byteswap64_append, extract_app8]
  rfl

theorem bytes64_byteswap_ofNat (x : Nat) : bytes64 (byteswap64 (BitVec.ofNat 64 x)) = beBytes 8 x := by
  rw [bytes64_byteswap, beBytes, ← bytes64_eq, bytes64_ofNat, ← beBytes]

theorem bytes32_byteswap_ofNat (x : Nat) : bytes32 (byteswap32 (BitVec.ofNat 32 x)) = beBytes 4 x := by
  rw [bytes32_byteswap, beBytes, ← bytes32_eq, bytes32_ofNat, ← beBytes]

theorem byteswap32_byteswap32 (x : BitVec 32) : byteswap32 (byteswap32 x) = x := by
  conv => lhs; rw [eq_app4 x]
  rw [byteswap32_append, byteswap32_append, ← eq_app4 x]

theorem byteswap64_byteswap64 (x : BitVec 64) : byteswap64 (byteswap64 x) = x := by
  conv => lhs; rw [eq_app8 x]
  rw [byteswap64_append, byteswap64_append, ← eq_app8 x]

theorem length_leBytes (n x : Nat) : (leBytes n x).length = n := by simp [leBytes]

theorem length_ofLeWords {w : Nat} (l : List (BitVec w)) : (ofLeWords l).length = w / 8 * l.length := by
  unfold ofLeWords
  induction l with
  | nil => rfl
  | cons x l ih => rw [List.flatMap_cons, List.length_append, ih, length_leBytes, List.length_cons, Nat.mul_add]; omega
theorem length_beBytes (n x : Nat) : (beBytes n x).length = n := by simp [beBytes, leBytes]

/-- Leading zeros of a number that fits. -/
theorem beBytes_pad (k n x : Nat) (h : x < 256 ^ n) : beBytes (k + n) x = List.replicate k 0 ++ beBytes n x := by
  induction k with
  | zero => simp
  | succ k ih =>
    have e : beBytes (k + 1 + n) x = 0 :: beBytes (k + n) x := by
      unfold beBytes leBytes
      rw [show k + 1 + n = (k + n) + 1 by omega, List.range_succ, List.map_append, List.reverse_append]
      simp only [List.map_cons, List.map_nil, List.reverse_cons, List.reverse_nil, List.nil_append, List.cons_append]
      have h0 : x / 256 ^ (k + n) = 0 :=
        Nat.div_eq_of_lt (Nat.lt_of_lt_of_le h (Nat.pow_le_pow_right (by omega) (by omega)))
      rw [h0]; rfl
    rw [e, ih, List.replicate_succ]; rfl

theorem stores32_be (l : List (BitVec 32)) : stores32 (l.map byteswap32) = ofBeWords l := by
  unfold stores32 ofBeWords
  rw [List.flatMap_map]
  congr 1; funext x; exact bytes32_byteswap x

theorem stores64_be (l : List (BitVec 64)) : stores64 (l.map byteswap64) = ofBeWords l := by
  unfold stores64 ofBeWords
  rw [List.flatMap_map]
  congr 1; funext x; exact bytes64_byteswap x

theorem wrap64_lt (n : Nat) : wrap64 n < 256 ^ 8 := Nat.mod_lt _ (by decide)

theorem wrap64_small {n : Nat} (h : n < 2 ^ 64) : wrap64 n = n := Nat.mod_eq_of_lt h

theorem wrap64_bits {n : Nat} (h : n < 2 ^ 61) : wrap64 (8 * n) = 8 * n := wrap64_small (by omega)

theorem leBytes8_wrap64 (n : Nat) : leBytes 8 (wrap64 n) = leBytes 8 n := by
  unfold wrap64
  rw [show (2 : Nat) ^ 64 = 256 ^ 8 from rfl, leBytes_mod]

theorem beBytes8_wrap64 (n : Nat) : beBytes 8 (wrap64 n) = beBytes 8 n := by
  unfold beBytes
  rw [leBytes8_wrap64]

theorem ofNat_wrap64 (n : Nat) : BitVec.ofNat 64 (wrap64 n) = BitVec.ofNat 64 n := by
  apply BitVec.eq_of_toNat_eq
  rw [BitVec.toNat_ofNat, BitVec.toNat_ofNat]
  exact Nat.mod_mod _ _

end Digestpp.Proofs
