import Verif.Proofs.Perm
import Verif.Proofs.PermRows
import Verif.Proofs.Words
import Verif.Proofs.Sched

/-! C56: sums of table entries determine the indices. -/

namespace Digestpp.Proofs.Perm

/-- The sum of the rows selected by the bits of `x`. -/
def linN : List Nat → Nat → Nat
  | [], _ => 0
  | r :: rs, x => (r * (x % 2)) ^^^ linN rs (x / 2)

theorem linN_xor : ∀ (rows : List Nat) (x y : Nat), linN rows (x ^^^ y) = linN rows x ^^^ linN rows y
  | [], _, _ => (Nat.xor_self 0).symm
  | r :: rs, x, y => by
    unfold linN
    rw [show (x ^^^ y) / 2 = x / 2 ^^^ y / 2 from Nat.xor_div_two, linN_xor rs]
    have h : r * ((x ^^^ y) % 2) = (r * (x % 2)) ^^^ (r * (y % 2)) := by
      have hm : (x ^^^ y) % 2 = (x % 2) ^^^ (y % 2) := Nat.xor_mod_two_pow (n := 1)
      rcases Nat.mod_two_eq_zero_or_one x with hx | hx <;> rcases Nat.mod_two_eq_zero_or_one y with hy | hy
      all_goals
        rw [hm, hx, hy]
        simp
    rw [h]
    ac_rfl

/-- The sum of `f 0`, …, `f (n - 1)`. -/
def sumN (f : Nat → Nat) : Nat → Nat
  | 0 => 0
  | n + 1 => sumN f n ^^^ f n

theorem linN_zero : ∀ rows : List Nat, linN rows 0 = 0
  | [] => rfl
  | r :: rs => by
    unfold linN
    rw [Nat.zero_div, linN_zero rs]
    simp

theorem linN_sumN (rows : List Nat) (f : Nat → Nat) : ∀ n, linN rows (sumN f n) = sumN (fun i => linN rows (f i)) n
  | 0 => linN_zero rows
  | n + 1 => by rw [sumN, linN_xor, linN_sumN rows f n]; rfl

theorem testBit_sumN (s : Nat → Nat) (hs : ∀ i, s i < 256) (j k : Nat) (hk : k < 8) : ∀ n,
    (sumN (fun i => s i * 2 ^ (8 * i)) n).testBit (8 * j + k) = (decide (j < n) && (s j).testBit k)
  | 0 => by simp [sumN]
  | n + 1 => by
    rw [sumN, Nat.testBit_xor, testBit_sumN s hs j k hk n, Nat.testBit_mul_two_pow]
    by_cases h : j < n
    · rw [decide_eq_true h, decide_eq_true (by omega : j < n + 1), decide_eq_false (by omega : ¬ 8 * n ≤ 8 * j + k)]
      simp
    by_cases h' : j = n
    · subst h'
      rw [decide_eq_false h, decide_eq_true (by omega : j < j + 1), decide_eq_true (by omega : 8 * j ≤ 8 * j + k), Nat.add_sub_cancel_left]
      simp
    · rw [decide_eq_false h, decide_eq_false (by omega : ¬ j < n + 1), decide_eq_true (by omega : 8 * n ≤ 8 * j + k)]
      rw [Nat.testBit_lt_two_pow (Nat.lt_of_lt_of_le (hs n) (Nat.pow_le_pow_right (n := 2) (by omega) (by omega : 8 ≤ 8 * j + k - 8 * n)))]
      rfl

theorem bytes_of_sumN (n : Nat) (s t : Nat → Nat) (hs : ∀ i, s i < 256) (ht : ∀ i, t i < 256)
    (h : sumN (fun i => s i * 2 ^ (8 * i)) n = sumN (fun i => t i * 2 ^ (8 * i)) n) (j : Nat) (hj : j < n) : s j = t j := by
  apply Nat.eq_of_testBit_eq
  intro k
  by_cases hk : k < 8
  · have a := testBit_sumN s hs j k hk n
    have b := testBit_sumN t ht j k hk n
    rw [h, b, decide_eq_true hj] at a
    simpa using a.symm
  · have p : 2 ^ 8 ≤ 2 ^ k := Nat.pow_le_pow_right (by omega) (by omega)
    rw [Nat.testBit_lt_two_pow (Nat.lt_of_lt_of_le (hs j) p), Nat.testBit_lt_two_pow (Nat.lt_of_lt_of_le (ht j) p)]

/-- What is checked of the tables: the linear map takes entry `b` of table `i` to a byte in position `i`, given by `box`, and different `b` have different
bytes. -/
structure Checked {w : Nat} (n : Nat) (T : List (List (BitVec w))) (rows : List Nat) (box : List (List Nat)) : Prop where
  lin : ∀ i, i < n → (T.getD i []).map (fun x => linN rows x.toNat) = (box.getD i []).map fun y => y * 2 ^ (8 * i)
  inv : ∀ B ∈ box, ∃ inv : List Nat, B.length = 256 ∧ (B.all fun y => decide (y < 256)) = true ∧ B.map (fun y => inv.getD y 0) = List.range 256
  len : ∀ i, i < n → i < box.length

theorem indices {w n : Nat} {T : List (List (BitVec w))} {rows : List Nat} {box : List (List Nat)} (ck : Checked n T rows box) (a b : Nat → Nat)
    (ha : ∀ i, i < n → a i < 256) (hb : ∀ i, i < n → b i < 256)
    (h : sumN (fun i => ((T.getD i []).getD (a i) 0).toNat) n = sumN (fun i => ((T.getD i []).getD (b i) 0).toNat) n) (i : Nat) (hi : i < n) : a i = b i := by
  have congr : ∀ (f g : Nat → Nat) (m : Nat), (∀ i, i < m → f i = g i) → sumN f m = sumN g m := by
    intro f g m
    induction m with
    | zero => intro _; rfl
    | succ m ih => intro h; rw [sumN, sumN, ih fun i hi => h i (by omega), h m (by omega)]
  have mem : ∀ i, i < n → box.getD i [] ∈ box := fun i hi => by
    rw [List.getD_eq_getElem?_getD, List.getElem?_eq_getElem (ck.len i hi)]
    exact List.getElem_mem _
  have e : ∀ i, i < n → ∀ c, c < 256 → linN rows ((T.getD i []).getD c 0).toNat = (box.getD i []).getD c 0 % 256 * 2 ^ (8 * i) := by
    intro i hi c hc
    obtain ⟨inv, hl, hall, _⟩ := ck.inv _ (mem i hi)
    have hT : (T.getD i []).length = 256 := by
      rw [← hl]
      simpa using congrArg List.length (ck.lin i hi)
    have := congrArg (fun l => l[c]?) (ck.lin i hi)
    rw [List.getElem?_map, List.getElem?_map, List.getElem?_eq_getElem (by omega), List.getElem?_eq_getElem (by omega)] at this
    rw [List.getD_eq_getElem?_getD (l := T.getD i []), List.getD_eq_getElem?_getD (l := box.getD i []), List.getElem?_eq_getElem (show c < (T.getD i []).length by omega),
      List.getElem?_eq_getElem (show c < (box.getD i []).length by omega)]
    simp only [Option.map_some, Option.some.injEq] at this
    rw [List.all_eq_true] at hall
    have hlt := of_decide_eq_true (hall _ (List.getElem_mem (show c < (box.getD i []).length by omega)))
    rw [Option.getD_some, Option.getD_some, Nat.mod_eq_of_lt hlt]
    exact this
  have h := congrArg (linN rows) h
  rw [linN_sumN, linN_sumN, congr _ _ n fun i hi => e i hi (a i) (ha i hi), congr _ _ n fun i hi => e i hi (b i) (hb i hi)] at h
  have := bytes_of_sumN n _ _ (fun _ => Nat.mod_lt _ (by omega)) (fun _ => Nat.mod_lt _ (by omega)) h i hi
  obtain ⟨inv, hl, hall, hinv⟩ := ck.inv _ (mem i hi)
  rw [List.all_eq_true] at hall
  have g : ∀ c, c < 256 → inv.getD ((box.getD i []).getD c 0 % 256) 0 = c := by
    intro c hc
    have := congrArg (fun l => l[c]?) hinv
    rw [List.getElem?_map, List.getElem?_eq_getElem (by omega), List.getElem?_eq_getElem (by simpa using hc)] at this
    simp only [Option.map_some, Option.some.injEq, List.getElem_range] at this
    rw [List.getD_eq_getElem?_getD (l := box.getD i []), List.getElem?_eq_getElem (show c < (box.getD i []).length by omega), Option.getD_some,
      Nat.mod_eq_of_lt (of_decide_eq_true (hall _ (List.getElem_mem (show c < (box.getD i []).length by omega))))]
    exact this
  rw [← g (a i) (ha i hi), ← g (b i) (hb i hi), this]

/-- The entry of table `i` for byte `i` of a word. -/
def entry (T : List (List (BitVec 64))) (i : Nat) (x : BitVec 64) : BitVec 64 := (T.getD i []).getD ((x >>> (8 * i)).setWidth 8).toNat 0

/-- The sum of eight entries. -/
def entries (T : List (List (BitVec 64))) (x : Nat → BitVec 64) : BitVec 64 :=
  entry T 0 (x 0) ^^^ entry T 1 (x 1) ^^^ entry T 2 (x 2) ^^^ entry T 3 (x 3) ^^^ entry T 4 (x 4) ^^^ entry T 5 (x 5) ^^^ entry T 6 (x 6) ^^^ entry T 7 (x 7)

theorem toNat_entries (T : List (List (BitVec 64))) (x : Nat → BitVec 64) :
    (entries T x).toNat = sumN (fun i => ((T.getD i []).getD ((x i >>> (8 * i)).setWidth 8).toNat 0).toNat) 8 := by
  unfold entries
  simp only [BitVec.toNat_xor, sumN, Nat.zero_xor]
  rfl

theorem entries_inj {T : List (List (BitVec 64))} {rows : List Nat} {box : List (List Nat)} (ck : Checked 8 T rows box) (x y : Nat → BitVec 64)
    (h : entries T x = entries T y) (i : Nat) (hi : i < 8) : (x i >>> (8 * i)).setWidth 8 = (y i >>> (8 * i)).setWidth 8 := by
  have h := congrArg BitVec.toNat h
  rw [toNat_entries, toNat_entries] at h
  exact BitVec.eq_of_toNat_eq (indices ck (fun i => ((x i >>> (8 * i)).setWidth 8).toNat) (fun i => ((y i >>> (8 * i)).setWidth 8).toNat)
    (fun _ _ => BitVec.isLt _) (fun _ _ => BitVec.isLt _) h i hi)

theorem eq_of_bytes {x y : BitVec 64} (h : ∀ i, i < 8 → (x >>> (8 * i)).setWidth 8 = (y >>> (8 * i)).setWidth 8) : x = y := by
  apply BitVec.eq_of_getLsbD_eq
  intro k hk
  have := congrArg (fun z : BitVec 8 => z.getLsbD (k % 8)) (h (k / 8) (by omega))
  simp only [BitVec.getLsbD_setWidth, BitVec.getLsbD_ushiftRight, Nat.mod_lt k (show 0 < 8 by omega), decide_true, Bool.true_and, Nat.div_add_mod] at this
  exact this

/-- A layer of lookups: word `c` of the result is made of byte `i` of word `idx c i`, for `i` from 0 to 7. -/
theorem layer_permutes {T : List (List (BitVec 64))} {rows : List Nat} {box : List (List Nat)} (ck : Checked 8 T rows box) (n : Nat) (idx : Nat → Nat → Nat)
    (hs : ∀ d, d < n → ∀ i, i < 8 → ∃ c, c < n ∧ idx c i = d) :
    Spec.Permutes n fun x => (List.range n).map fun c => entries T fun i => x.getD (idx c i) 0 := by
  apply of_inj
  · intro A _
    simp
  intro A B hA hB h
  rw [← map_range_getD A 0 n hA, ← map_range_getD B 0 n hB]
  apply List.map_congr_left
  intro d hd
  apply eq_of_bytes
  intro i hi
  obtain ⟨c, hc, rfl⟩ := hs d (List.mem_range.mp hd) i hi
  have := congrArg (fun l => l.getD c 0) h
  simp only [getD_map_range _ _ _ _ hc] at this
  exact entries_inj ck _ _ this i hi

/-- Adding fixed words. -/
theorem xor_permutes {w n : Nat} (k : Nat → BitVec w) : Spec.Permutes n fun A => (List.range n).map fun i => A.getD i 0 ^^^ k i := by
  apply of_inj
  · intro A _
    simp
  · intro A B hA hB h
    rw [← map_range_getD A 0 n hA, ← map_range_getD B 0 n hB]
    apply List.map_congr_left
    intro i hi
    have := congrArg (fun l => l.getD i 0) h
    simp only [getD_map_range _ _ _ _ (List.mem_range.mp hi)] at this
    exact xor_left_inj rfl this

theorem shifts {R : Nat} (l : List Nat) : ∀ d, d < R → ∀ i, i < 8 → ∃ c, c < R ∧ (c + l.getD i 0) % R = d := by
  intro d hd i _
  have h := Nat.mod_lt (l.getD i 0) (show 0 < R by omega)
  refine ⟨(d + (R - l.getD i 0 % R)) % R, Nat.mod_lt _ (by omega), ?_⟩
  rw [Nat.mod_add_mod, Nat.add_mod, Nat.add_mod d]
  have e : (d % R + (R - l.getD i 0 % R) % R) % R = (d + (R - l.getD i 0 % R)) % R := (Nat.add_mod ..).symm
  rw [e, ← Nat.add_mod_mod, Nat.mod_add_mod, Nat.mod_mod, show d + (R - l.getD i 0 % R) + l.getD i 0 % R = d + R by omega, Nat.add_mod_right, Nat.mod_eq_of_lt hd]

/-- The two components of the loop. -/
theorem pair_foldl {α β γ : Type} (f : α → γ → α) (g : β → γ → β) : ∀ (l : List γ) (p : α × β),
    l.foldl (fun (x : α × β) k => (f x.1 k, g x.2 k)) p = (l.foldl f p.1, l.foldl g p.2)
  | [], _ => rfl
  | _ :: l, _ => pair_foldl f g l _

/-- Rounds with round keys that depend on the previous ones. -/
theorem keyed {w n : Nat} {α κ : Type} (nk : κ → α → κ) (f : κ → List (BitVec w) → List (BitVec w)) (hf : ∀ k, Spec.Permutes n (f k)) :
    ∀ (l : List α) (k : κ), Spec.Permutes n fun s => (l.foldl (fun (p : κ × List (BitVec w)) a => (nk p.1 a, f (nk p.1 a) p.2)) (k, s)).2
  | [], _ => id' n
  | a :: l, k => comp (hf (nk k a)) (keyed nk f hf l (nk k a))

end Digestpp.Proofs.Perm
