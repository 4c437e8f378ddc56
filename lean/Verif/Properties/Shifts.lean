import Verif.Proofs.Shifts
import Verif.Properties.Safety
import Verif.Properties.Sm3
import Verif.Properties.Lsh
import Verif.Proofs.SafetyShake

/-! C39: shifts by the word size or more. The rotations by constants in the models carry a proof that the count is in range; rotations by
counts computed at run time (MD5, Skein) yield the outcome `.shift` when it is not. -/

namespace Digestpp.Properties
open Model Spec

/-- The classes that do shift too far. -/
def BadShift : HashName → Prop
  | .sm3 | .lsh256 _ _ | .lsh512 _ _ => True
  | _ => False

/-- **C39**, wherever it holds: no history of calls shifts a word by its width or more. Missing: SM3 and LSH, for which it is false
(`sm3_undefined`, `lsh256_undefined`, `lsh512_undefined`). -/
theorem hash_no_undefined_shift_partial (h : HashName) (hs : h.Supported) (_ : ¬ BadShift h) (mem : h.cls.S) (hm : h.cls.Mem mem) :
    ∃ s, h.cls.construct mem = .ok (some s) ∧
      ∀ ops : List (HashOp h.cls.P), (∀ op ∈ ops, op.Valid) → h.cls.pr.run ops s ≠ .error .shift := by
  obtain ⟨s, -, -, e, -⟩ := hash_no_ub h hs mem hm [] nofun
  refine ⟨s, e, fun ops hv he => ?_⟩
  obtain ⟨s1, os, s2, e1, e2⟩ := hash_no_ub h hs mem hm ops hv
  rw [e] at e1
  cases e1
  rw [he] at e2
  cases e2

/-- **C39** for extendable output functions: all of them. -/
theorem xof_no_undefined_shift (x : XofName) (hs : x.Supported) (mem : x.cls.S) (hm : x.cls.Mem mem) :
    ∃ s, x.cls.construct mem = .ok (some s) ∧
      ∀ ops : List (XofOp x.cls.P), (∀ op ∈ ops, op.Valid) → x.cls.pr.run ops s ≠ .error .shift := by
  obtain ⟨s, e, h⟩ := xof_no_ub x hs mem hm
  refine ⟨s, e, fun ops hv he => ?_⟩
  obtain ⟨os, s', e'⟩ | ⟨-, e'⟩ := h ops hv <;> rw [he] at e' <;> cases e'

/-- **C39**, `left_encode` and `right_encode`: byte `i` of a `size_t` is shifted down by `8 * i`, and there are at most eight bytes. -/
theorem encode_shifts (num : Nat) (h : num < 2 ^ 64) (k12 : Bool) :
    (∀ i, i < (Model.Shake.leftEncode num).length - 1 → 8 * i < 64) ∧
    (∀ i, i < (Model.Shake.rightEncode num k12).length - 1 → 8 * i < 64) := by
  have c : ∀ n, n ≤ 1 → Model.Shake.countLoop 8 num n ≤ 8 := by
    intro n hn
    rw [Proofs.Encode.countLoop_eq 8 num n (Nat.lt_trans h (by decide))]
    have : Nat.log2 num < 64 := by
      by_cases h0 : num = 0
      · rw [h0]; decide
      · exact (Nat.log2_lt h0).mpr h
    omega
  constructor
  · intro i hi
    have := c 1 (Nat.le_refl _)
    simp only [Model.Shake.leftEncode, List.length_cons, List.length_map, List.length_range] at hi
    omega
  · intro i hi
    have := c (if k12 then if num ≠ 0 then 1 else 0 else 1) (by split <;> (try split) <;> omega)
    simp only [Model.Shake.rightEncode, List.length_append, List.length_map, List.length_range, List.length_singleton] at hi
    omega

/-! What SM3 and LSH need from the machine, or from the compiler, beyond the language. -/

/-- `rotate_left(x, n)` rotates by `n` modulo the word size, for `n` below `bound`. -/
def RotatesBelow {w : Nat} (bound : Nat) (rot : BitVec w → Nat → M (BitVec w)) : Prop :=
  ∀ x n, n < bound → rot x n = .ok (x.rotateLeft (n % w))

/-- **C21**, more generally: SM3 is computed wherever 32-bit words are rotated correctly for counts below 64. -/
theorem sm3_conforms_rotating (rot : Model.Sm3.Rot) (h : RotatesBelow 64 rot) :
    HashConforms (Model.Sm3.cls rot) Spec.Sm3.sm3 (Cover.all Empty) := by
  have e : Model.Sm3.provider rot = Model.Sm3.provider rotlMasked :=
    Proofs.Shifts.sm3_provider fun x n hn => by rw [h x n hn, Proofs.Sm3.rotlMasked_eq x n (by omega)]
  unfold Model.Sm3.cls
  rw [e]
  exact sm3_all_lengths_masked

private theorem lsh_provider {w : Nat} {T : Model.Lsh.Word w} (rot : Model.Lsh.Rot w) (h : RotatesBelow w rot) (hw : w ∣ 2 ^ 32)
    (hw' : w < 2 ^ 32) (hT : ∀ l, l < 8 → T.G.getD l 0 < w) : Model.Lsh.provider rot T = Model.Lsh.provider rotlMasked T :=
  Proofs.Shifts.lsh_provider hT fun x n hn => by
    rw [Proofs.Lsh.rotlMasked_small x n hw hn hw', h x n hn, Nat.mod_eq_of_lt hn]

/-- **C22**, more generally: LSH-256 is computed wherever words are rotated correctly for counts below the word size, zero included. -/
theorem lsh256_conforms_rotating (rot : Model.Lsh.Rot 32) (h : RotatesBelow 32 rot) (N : Nat) (h0 : 0 < N) (h8 : N % 8 = 0) (hN : N ≤ 256) :
    HashConforms (Model.Lsh.lsh rot Model.Lsh.u32 N) (Spec.Lsh.lsh Spec.Lsh.lsh256 (N / 8)) (Cover.all Empty) ∧
    HashConforms (Model.Lsh.lshStatic rot Model.Lsh.u32 N) (Spec.Lsh.lsh Spec.Lsh.lsh256 (N / 8)) (Cover.all Empty) := by
  unfold Model.Lsh.lsh Model.Lsh.lshStatic
  rw [lsh_provider rot h (by decide) (by decide) (by decide)]
  exact ⟨lsh256_conforms_masked_partial N h0 h8 hN, lsh256_static_conforms_masked_partial N h0 h8 hN⟩

/-- **C22**, more generally, LSH-512. -/
theorem lsh512_conforms_rotating (rot : Model.Lsh.Rot 64) (h : RotatesBelow 64 rot) (N : Nat) (h0 : 0 < N) (h8 : N % 8 = 0) (hN : N ≤ 512) :
    HashConforms (Model.Lsh.lsh rot Model.Lsh.u64 N) (Spec.Lsh.lsh Spec.Lsh.lsh512 (N / 8)) (Cover.all Empty) ∧
    HashConforms (Model.Lsh.lshStatic rot Model.Lsh.u64 N) (Spec.Lsh.lsh Spec.Lsh.lsh512 (N / 8)) (Cover.all Empty) := by
  unfold Model.Lsh.lsh Model.Lsh.lshStatic
  rw [lsh_provider rot h (by decide) (by decide) (by decide)]
  exact ⟨lsh512_conforms_masked_partial N h0 h8 hN, lsh512_static_conforms_masked_partial N h0 h8 hN⟩

/-- What `rotate_left` does where shifts by the word size or more give zero (32-bit ARM; `n` below 256). -/
def rotlZero {w : Nat} (x : BitVec w) (n : Nat) : M (BitVec w) := .ok ((x <<< n) ||| (x >>> ((2 ^ 32 + w - n) % 2 ^ 32)))

private theorem rotlZero_rotates {w : Nat} (hw : 0 < w) (hw' : w < 2 ^ 32) : RotatesBelow w (rotlZero (w := w)) := by
  intro x n hn
  unfold rotlZero BitVec.rotateLeft BitVec.rotateLeftAux
  rw [Nat.mod_eq_of_lt hn, Nat.mod_eq_of_lt hn]
  by_cases hz : n = 0
  · subst hz
    rw [show (2 ^ 32 + w - 0) % 2 ^ 32 = w by omega]
    rfl
  · rw [show (2 ^ 32 + w - n) % 2 ^ 32 = w - n by omega]

/-- Such machines compute LSH. -/
theorem lsh256_conforms_zero (N : Nat) (h0 : 0 < N) (h8 : N % 8 = 0) (hN : N ≤ 256) :
    HashConforms (Model.Lsh.lsh rotlZero Model.Lsh.u32 N) (Spec.Lsh.lsh Spec.Lsh.lsh256 (N / 8)) (Cover.all Empty) :=
  (lsh256_conforms_rotating rotlZero (rotlZero_rotates (by decide) (by decide)) N h0 h8 hN).1

/-- **C21** fails on such machines: they do not compute SM3. -/
theorem sm3_not_conforms_zero : ¬ HashConforms (Model.Sm3.cls rotlZero) Spec.Sm3.sm3 (Cover.all Empty) := by
  intro h
  have h1 := Proofs.hashConforms_trial h sm3Mem rfl [.digest] ⟨trivial, trivial⟩
  have h2 := Proofs.hashConforms_trial sm3_all_lengths_masked sm3Mem rfl [.digest] ⟨trivial, trivial⟩
  have hd : (Model.Sm3.cls rotlZero).trial sm3Mem [.digest] ≠ (Model.Sm3.cls rotlMasked).trial sm3Mem [.digest] := by decide +kernel
  exact hd (h1.trans h2.symm)

/-! Cases that meet the hypotheses. -/

example : RotatesBelow 64 (rotlMasked (w := 32)) := fun x n hn => Proofs.Sm3.rotlMasked_eq x n (by omega)
example : ¬ BadShift (.md5) := id
example : ∀ op ∈ [HashOp.absorb (P := Empty) (.ptr [1, 2, 3]), .digest, .reset true, .hexdigest], op.Valid := by
  intro op h
  simp only [List.mem_cons, List.not_mem_nil, or_false] at h
  obtain rfl | rfl | rfl | rfl := h <;> first | trivial | (show 3 < 2 ^ 63; decide)
example : (Model.Shake.leftEncode (2 ^ 64 - 1)).length - 1 = 8 := by decide

end Digestpp.Properties
