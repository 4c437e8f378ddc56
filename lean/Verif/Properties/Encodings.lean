import Verif.Proofs.Numeral

/-! C41: the length encodings of SP 800-185 and KangarooTwelve. -/

namespace Digestpp.Properties
open Model Spec Proofs

/-- `b` is the base-256 numeral of `x`, most significant digit first, of the least length among those with at least `k` digits. -/
structure LeastNumeral (k x : Nat) (b : Bytes) : Prop where
  value : beNat b = x
  atLeast : k ≤ b.length
  least : ∀ b' : Bytes, k ≤ b'.length → beNat b' = x → b.length ≤ b'.length

/-- **C41**, `left_encode`: at most eight digits, their number in front. -/
theorem left_encode_correct (x : Nat) (h : x < 2 ^ 64) :
    ∃ b, LeastNumeral 1 x b ∧ b.length ≤ 8 ∧ Model.Shake.leftEncode x = BitVec.ofNat 8 b.length :: b :=
  ⟨beBytes (Spec.Keccak.byteCount x) x,
    ⟨Encode.beNat_min x, by rw [length_beBytes]; exact Encode.byteCount_pos x,
      fun b' h1 h2 => by rw [length_beBytes]; exact Encode.byteCount_least x b' h1 h2⟩,
    by rw [length_beBytes]; exact Encode.byteCount_le x h, by rw [length_beBytes, Encode.leftEncode_eq x h]; rfl⟩

/-- **C41**, `right_encode` with `k12 = false`: the number of digits comes last. -/
theorem right_encode_correct (x : Nat) (h : x < 2 ^ 64) :
    ∃ b, LeastNumeral 1 x b ∧ b.length ≤ 8 ∧ Model.Shake.rightEncode x false = b ++ [BitVec.ofNat 8 b.length] :=
  ⟨beBytes (Spec.Keccak.byteCount x) x,
    ⟨Encode.beNat_min x, by rw [length_beBytes]; exact Encode.byteCount_pos x,
      fun b' h1 h2 => by rw [length_beBytes]; exact Encode.byteCount_least x b' h1 h2⟩,
    by rw [length_beBytes]; exact Encode.byteCount_le x h, by rw [length_beBytes, Encode.rightEncode_eq x h]; rfl⟩

/-- **C41**, `right_encode` with `k12 = true`: the same, but zero has no digits. -/
theorem length_encode_correct (x : Nat) (h : x < 2 ^ 64) :
    ∃ b, LeastNumeral 0 x b ∧ b.length ≤ 8 ∧ Model.Shake.rightEncode x true = b ++ [BitVec.ofNat 8 b.length] :=
  ⟨beBytes (Encode.k12Count x) x,
    ⟨Encode.beNat_k12 x, Nat.zero_le _, fun b' _ h2 => by rw [length_beBytes]; exact Encode.k12Count_least x b' h2⟩,
    by rw [length_beBytes]; exact Encode.k12Count_le x h, by rw [length_beBytes, K12.lengthEncode_eq x h]; rfl⟩

/-- **C41**: no `left_encode` begins another, so what follows can be told apart too. -/
theorem left_encode_injective (x y : Nat) (hx : x < 2 ^ 64) (hy : y < 2 ^ 64) (a b : Bytes)
    (h : Model.Shake.leftEncode x ++ a = Model.Shake.leftEncode y ++ b) : x = y ∧ a = b := by
  rw [Encode.leftEncode_eq x hx, Encode.leftEncode_eq y hy] at h
  exact Encode.leftEncode_inj hx hy h

/-- **C41**: no `right_encode` ends another, so what precedes can be told apart too. -/
theorem right_encode_injective (k12 : Bool) (x y : Nat) (hx : x < 2 ^ 64) (hy : y < 2 ^ 64) (a b : Bytes)
    (h : a ++ Model.Shake.rightEncode x k12 = b ++ Model.Shake.rightEncode y k12) : x = y ∧ a = b := by
  cases k12 with
  | false =>
    rw [Encode.rightEncode_eq x hx, Encode.rightEncode_eq y hy] at h
    exact Encode.rightEncode_inj hx hy h
  | true =>
    rw [K12.lengthEncode_eq x hx, K12.lengthEncode_eq y hy] at h
    exact Encode.lengthEncode_inj hx hy h

example : Model.Shake.leftEncode 0 = [1, 0] ∧ Model.Shake.leftEncode 65536 = [3, 1, 0, 0] := by decide
example : Model.Shake.rightEncode 0 false = [0, 1] ∧ Model.Shake.rightEncode 0 true = [0] ∧
    Model.Shake.rightEncode (2 ^ 64 - 1) true = List.replicate 8 0xff ++ [8] := by decide
example : ∃ b, LeastNumeral 1 (2 ^ 63) b ∧ b.length ≤ 8 ∧ Model.Shake.leftEncode (2 ^ 63) = BitVec.ofNat 8 b.length :: b :=
  left_encode_correct _ (by decide)
example (a b : Bytes) : Model.Shake.leftEncode 168 ++ a ≠ Model.Shake.leftEncode 136 ++ b :=
  fun h => absurd (left_encode_injective 168 136 (by decide) (by decide) a b h).1 (by decide)

end Digestpp.Properties
