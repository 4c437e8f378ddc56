import Verif.Proofs.PermTables
import Verif.Proofs.EchoCore

/-! C56: the rounds of ECHO. -/

namespace Digestpp.Proofs.Perm.Echo
open Spec Model Model.Echo

theorem xtime_xor (p a b : Byte) : xtime p (a ^^^ b) = xtime p a ^^^ xtime p b := by
  unfold xtime
  rw [BitVec.shiftLeft_xor_distrib, BitVec.getLsbD_xor]
  have e : ∀ x y : Bool, (if (x ^^ y) = true then p else 0) = (if x = true then p else 0) ^^^ (if y = true then p else 0) := by
    intro x y
    cases x <;> cases y <;> simp
  rw [e]
  ac_rfl

theorem exists_pack (x : BitVec 64) : ∃ f, pack f = x := by
  refine ⟨fun i => (x >>> (8 * i)).setWidth 8, ?_⟩
  apply BitVec.eq_of_getLsbD_eq
  intro n hn
  rw [getLsbD_pack _ _ hn]
  simp only [BitVec.getLsbD_setWidth, BitVec.getLsbD_ushiftRight, Nat.mod_lt n (show 0 < 8 by omega), decide_true, Bool.true_and, Nat.div_add_mod]

theorem dbl_xor (x y : BitVec 64) : dbl (x ^^^ y) = dbl x ^^^ dbl y := by
  obtain ⟨f, rfl⟩ := exists_pack x
  obtain ⟨g, rfl⟩ := exists_pack y
  rw [pack_xor, Proofs.Echo.dbl_eq, Proofs.Echo.dbl_eq, Proofs.Echo.dbl_eq, pack_xor]
  apply pack_congr
  intro i _
  exact xtime_xor _ _ _

theorem xor_cancel (x y : BitVec 64) : x ^^^ (x ^^^ y) = y := by
  rw [← BitVec.xor_assoc, BitVec.xor_self, BitVec.zero_xor]

theorem xor_left_comm (x y z : BitVec 64) : x ^^^ (y ^^^ z) = y ^^^ (x ^^^ z) := by
  rw [← BitVec.xor_assoc, BitVec.xor_comm x, BitVec.xor_assoc]

/-- One word of `mixStep`. -/
def mix (a b c d : BitVec 64) : BitVec 64 := dbl a ^^^ dbl b ^^^ b ^^^ c ^^^ d

theorem mix_mix (a b c d : BitVec 64) : mix (mix a b c d) (mix b c d a) (mix c d a b) (mix d a b c) = a ^^^ dbl (dbl a) ^^^ dbl (dbl c) := by
  unfold mix
  simp only [dbl_xor]
  generalize dbl (dbl a) = aa
  generalize dbl (dbl b) = bb
  generalize dbl (dbl c) = cc
  generalize dbl (dbl d) = dd
  generalize dbl a = a2
  generalize dbl b = b2
  generalize dbl c = c2
  generalize dbl d = d2
  simp only [BitVec.xor_comm, BitVec.xor_assoc, xor_left_comm, xor_cancel, BitVec.xor_self, BitVec.xor_zero, BitVec.zero_xor]

theorem mix_inj {a b c d a' b' c' d' : BitVec 64} (h0 : mix a b c d = mix a' b' c' d') (h1 : mix b c d a = mix b' c' d' a')
    (h2 : mix c d a b = mix c' d' a' b') (h3 : mix d a b c = mix d' a' b' c') : a = a' ∧ b = b' ∧ c = c' ∧ d = d' := by
  have key : ∀ {x y z w x' y' z' w' : BitVec 64}, mix x y z w = mix x' y' z' w' → mix y z w x = mix y' z' w' x' → mix z w x y = mix z' w' x' y' →
      mix w x y z = mix w' x' y' z' → x ^^^ (dbl (dbl x) ^^^ dbl (dbl z)) = x' ^^^ (dbl (dbl x') ^^^ dbl (dbl z')) := by
    intro x y z w x' y' z' w' e0 e1 e2 e3
    have := mix_mix x y z w
    rw [e0, e1, e2, e3, mix_mix] at this
    rw [← BitVec.xor_assoc, ← BitVec.xor_assoc]
    exact this.symm
  have two : ∀ {x z x' z' : BitVec 64}, x ^^^ (dbl (dbl x) ^^^ dbl (dbl z)) = x' ^^^ (dbl (dbl x') ^^^ dbl (dbl z')) →
      z ^^^ (dbl (dbl z) ^^^ dbl (dbl x)) = z' ^^^ (dbl (dbl z') ^^^ dbl (dbl x')) → x = x' := by
    intro x z x' z' e f
    have s : x ^^^ z = x' ^^^ z' := by
      have l : ∀ p q : BitVec 64, p ^^^ q = (p ^^^ (dbl (dbl p) ^^^ dbl (dbl q))) ^^^ (q ^^^ (dbl (dbl q) ^^^ dbl (dbl p))) := by
        intro p q
        generalize dbl (dbl p) = pp
        generalize dbl (dbl q) = qq
        simp only [BitVec.xor_comm, BitVec.xor_assoc, xor_left_comm, xor_cancel, BitVec.xor_self, BitVec.xor_zero, BitVec.zero_xor]
      rw [l x z, l x' z', e, f]
    refine xor_left_inj ?_ e
    rw [← dbl_xor, ← dbl_xor, ← dbl_xor, ← dbl_xor, s]
  exact ⟨two (key h0 h1 h2 h3) (key h2 h3 h0 h1), two (key h1 h2 h3 h0) (key h3 h0 h1 h2), two (key h2 h3 h0 h1) (key h0 h1 h2 h3),
    two (key h3 h0 h1 h2) (key h1 h2 h3 h0)⟩

theorem getD_set {w : Nat} (l : List (BitVec w)) (i j : Nat) (a : BitVec w) : (l.set i a).getD j 0 = if i = j ∧ j < l.length then a else l.getD j 0 := by
  rw [List.getD_eq_getElem?_getD, List.getElem?_set, List.getD_eq_getElem?_getD]
  by_cases h : i = j
  · subst h
    by_cases h2 : i < l.length
    · simp [h2]
    · simp [h2]
  · simp [h]

theorem ext32 {A B : List (BitVec 64)} (hA : A.length = 32) (hB : B.length = 32) (h : ∀ k, k < 32 → A.getD k 0 = B.getD k 0) : A = B := by
  rw [← map_range_getD A 0 32 hA, ← map_range_getD B 0 32 hB]
  exact List.map_congr_left fun k hk => h k (List.mem_range.mp hk)

theorem length_mixStep (A : List (BitVec 64)) (i : Nat) : (mixStep A i).length = A.length := by
  unfold mixStep
  simp

theorem mixStep_permutes (i : Nat) (hi : i + 6 < 32) : Permutes 32 fun A => mixStep A i := by
  apply of_inj
  · intro A hA
    rw [length_mixStep, hA]
  intro A B hA hB h
  have g : ∀ X : List (BitVec 64), X.length = 32 → ∀ k, k < 32 → (mixStep X i).getD k 0 =
      if k = i + 6 then mix (X.getD (i + 6) 0) (X.getD i 0) (X.getD (i + 2) 0) (X.getD (i + 4) 0) else
      if k = i + 4 then mix (X.getD (i + 4) 0) (X.getD (i + 6) 0) (X.getD i 0) (X.getD (i + 2) 0) else
      if k = i + 2 then mix (X.getD (i + 2) 0) (X.getD (i + 4) 0) (X.getD (i + 6) 0) (X.getD i 0) else
      if k = i then mix (X.getD i 0) (X.getD (i + 2) 0) (X.getD (i + 4) 0) (X.getD (i + 6) 0) else X.getD k 0 := by
    intro X hX k hk
    unfold mixStep mix
    simp only [getD_set, List.length_set, hX, hk, and_true, eq_comm (b := k)]
  have e : ∀ k, k < 32 → (mixStep A i).getD k 0 = (mixStep B i).getD k 0 := fun k _ => congrArg (fun l => l.getD k 0) h
  have e6 := e (i + 6) (by omega)
  have e4 := e (i + 4) (by omega)
  have e2 := e (i + 2) (by omega)
  have e0 := e i (by omega)
  rw [g A hA _ (by omega), g B hB _ (by omega)] at e6 e4 e2 e0
  rw [if_pos rfl, if_pos rfl] at e6
  rw [if_neg (by omega), if_pos rfl, if_neg (by omega), if_pos rfl] at e4
  rw [if_neg (by omega), if_neg (by omega), if_pos rfl, if_neg (by omega), if_neg (by omega), if_pos rfl] at e2
  rw [if_neg (by omega), if_neg (by omega), if_neg (by omega), if_pos rfl, if_neg (by omega), if_neg (by omega), if_neg (by omega), if_pos rfl] at e0
  obtain ⟨c0, c2, c4, c6⟩ := mix_inj e0 e2 e4 e6
  apply ext32 hA hB
  intro k hk
  by_cases k6 : k = i + 6
  · rw [k6]; exact c6
  by_cases k4 : k = i + 4
  · rw [k4]; exact c4
  by_cases k2 : k = i + 2
  · rw [k2]; exact c2
  by_cases k0 : k = i
  · rw [k0]; exact c0
  have := e k hk
  rwa [g A hA k hk, g B hB k hk, if_neg k6, if_neg k4, if_neg k2, if_neg k0, if_neg k6, if_neg k4, if_neg k2, if_neg k0] at this

theorem mixColumns_permutes : Permutes 32 mixColumns := by
  have h := foldl (n := 32) (fun i w => (List.range 2).foldl (fun w j => mixStep w (i * 4 * 2 + j)) w) (List.range 4) fun i hi =>
    foldl (fun j w => mixStep w (i * 4 * 2 + j)) (List.range 2) fun j hj => mixStep_permutes (i * 4 * 2 + j) (by
      have := List.mem_range.mp hi
      have := List.mem_range.mp hj
      omega)
  exact h

theorem swap_permutes (i j : Nat) (hi : i < 32) (hj : j < 32) : Permutes (w := 64) 32 (swap i j) := by
  apply of_inj
  · intro A hA
    unfold swap
    simpa using hA
  intro A B hA hB h
  have e : ∀ k, k < 32 → (swap i j A).getD k 0 = (swap i j B).getD k 0 := fun k _ => congrArg (fun l => l.getD k 0) h
  have g : ∀ X : List (BitVec 64), X.length = 32 → ∀ k, k < 32 → (swap i j X).getD k 0 = if j = k then X.getD i 0 else if i = k then X.getD j 0 else X.getD k 0 := by
    intro X hX k hk
    unfold swap
    simp only [getD_set, List.length_set, hX, hk, and_true]
  apply ext32 hA hB
  intro k hk
  by_cases kj : j = k
  · have := e i hi
    rw [g A hA _ hi, g B hB _ hi] at this
    by_cases ij : j = i
    · rw [if_pos ij, if_pos ij] at this
      rw [← kj, ij]; exact this
    · rw [if_neg ij, if_pos rfl, if_neg ij, if_pos rfl, kj] at this
      exact this
  by_cases ki : i = k
  · have := e j hj
    rw [g A hA _ hj, g B hB _ hj, if_pos rfl, if_pos rfl, ki] at this
    exact this
  have := e k hk
  rwa [g A hA k hk, g B hB k hk, if_neg kj, if_neg ki, if_neg kj, if_neg ki] at this

theorem shiftRows_permutes : Permutes 32 shiftRows := by
  have h := foldl (n := 32) (fun (p : Nat × Nat) w => swap p.1 p.2 w)
    [(2, 10), (3, 11), (4, 20), (5, 21), (6, 30), (7, 31), (12, 28), (13, 29), (22, 14), (23, 15), (30, 14), (31, 15), (26, 18), (27, 19), (26, 10), (27, 11)]
    fun p hp => swap_permutes p.1 p.2 (by revert p; decide) (by revert p; decide)
  simp only [List.foldl_cons, List.foldl_nil] at h
  unfold shiftRows
  exact h

theorem checked : Checked 4 echo_T echoRows echoBox where
  lin := by decide +kernel
  inv := by
    intro B hB
    have : B = echoBox0 := by simpa [echoBox] using hB
    subst this
    exact ⟨echoInv0, by decide +kernel⟩
  len := by decide

theorem col_inj {a b c d a' b' c' d' : Byte} (h : col a b c d = col a' b' c' d') : a = a' ∧ b = b' ∧ c = c' ∧ d = d' := by
  have h := congrArg BitVec.toNat h
  have t : ∀ a b c d : Byte, (col a b c d).toNat = sumN (fun i => ((echo_T.getD i []).getD ([a, b, c, d].getD i 0).toNat 0).toNat) 4 := by
    intro a b c d
    unfold col
    simp only [BitVec.toNat_xor, sumN, Nat.zero_xor]
    rfl
  rw [t, t] at h
  have e := indices checked (fun i => ([a, b, c, d].getD i 0).toNat) (fun i => ([a', b', c', d'].getD i 0).toNat) (fun _ _ => BitVec.isLt _)
    (fun _ _ => BitVec.isLt _) h
  exact ⟨BitVec.eq_of_toNat_eq (e 0 (by omega)), BitVec.eq_of_toNat_eq (e 1 (by omega)), BitVec.eq_of_toNat_eq (e 2 (by omega)),
    BitVec.eq_of_toNat_eq (e 3 (by omega))⟩

theorem eq_of_bytes32 {x y : BitVec 32} (h0 : byteAt x 0 = byteAt y 0) (h1 : byteAt x 8 = byteAt y 8) (h2 : byteAt x 16 = byteAt y 16)
    (h3 : byteAt x 24 = byteAt y 24) : x = y := by
  have h : ∀ i, i < 4 → (x >>> (8 * i)).setWidth 8 = (y >>> (8 * i)).setWidth 8 := by
    intro i hi
    match i, hi with
    | 0, _ => exact h0
    | 1, _ => exact h1
    | 2, _ => exact h2
    | 3, _ => exact h3
  apply BitVec.eq_of_getLsbD_eq
  intro k hk
  have := congrArg (fun z : BitVec 8 => z.getLsbD (k % 8)) (h (k / 8) (by omega))
  simp only [BitVec.getLsbD_setWidth, BitVec.getLsbD_ushiftRight, Nat.mod_lt k (show 0 < 8 by omega), decide_true, Bool.true_and, Nat.div_add_mod] at this
  exact this

theorem join_inj {a b a' b' : BitVec 32} (h : a.setWidth 64 ^^^ (b.setWidth 64 <<< 32) = a'.setWidth 64 ^^^ (b'.setWidth 64 <<< 32)) : a = a' ∧ b = b' := by
  have e : ∀ k, (a.setWidth 64 ^^^ (b.setWidth 64 <<< 32)).getLsbD k = (a'.setWidth 64 ^^^ (b'.setWidth 64 <<< 32)).getLsbD k := fun k => by rw [h]
  constructor
  · apply BitVec.eq_of_getLsbD_eq
    intro k hk
    have := e k
    simp only [BitVec.getLsbD_xor, BitVec.getLsbD_setWidth, BitVec.getLsbD_shiftLeft, hk, show k < 64 by omega, decide_true, Bool.true_and, Bool.not_true,
      Bool.and_false, Bool.false_and, Bool.xor_false] at this
    exact this
  · apply BitVec.eq_of_getLsbD_eq
    intro k hk
    have := e (k + 32)
    simp only [BitVec.getLsbD_xor, BitVec.getLsbD_setWidth, BitVec.getLsbD_shiftLeft, show k + 32 < 64 by omega, show ¬ k + 32 < 32 by omega,
      show k + 32 - 32 = k by omega, show k < 64 by omega, decide_true, decide_false, Bool.true_and, Bool.not_false,
      BitVec.getLsbD_of_ge a (k + 32) (by omega), BitVec.getLsbD_of_ge a' (k + 32) (by omega), Bool.false_xor] at this
    exact this

theorem subWord_inj {x0 x1 y0 y1 c s0 s1 : BitVec 64} (h : subWord x0 x1 c s0 s1 = subWord y0 y1 c s0 s1) : x0 = y0 ∧ x1 = y1 := by
  unfold subWord at h
  dsimp only at h
  obtain ⟨l, r⟩ := Prod.mk.inj h
  obtain ⟨q0, q1⟩ := join_inj (xor_left_inj rfl l)
  obtain ⟨q2, q3⟩ := join_inj (xor_left_inj rfl r)
  obtain ⟨a0, a1, a2, a3⟩ := col_inj q0
  obtain ⟨b1, b2, b3, b0⟩ := col_inj q1
  obtain ⟨c2, c3, c0, c1⟩ := col_inj q2
  obtain ⟨d3, d0, d1, d2⟩ := col_inj q3
  have t0 := eq_of_bytes32 a0 d0 c0 b0
  have t1 := eq_of_bytes32 b1 a1 d1 c1
  have t2 := eq_of_bytes32 c2 b2 a2 d2
  have t3 := eq_of_bytes32 d3 c3 b3 a3
  have t0 := (BitVec.xor_right_inj _).mp t0
  have t1 := (BitVec.xor_right_inj _).mp t1
  obtain ⟨e0, e40, f16, f56⟩ := col_inj t0
  obtain ⟨e32, f8, f48, e24⟩ := col_inj t1
  obtain ⟨f0, f40, e16, e56⟩ := col_inj t2
  obtain ⟨f32, e8, e48, f24⟩ := col_inj t3
  constructor
  · apply eq_of_bytes
    intro i hi
    have : i = 0 ∨ i = 1 ∨ i = 2 ∨ i = 3 ∨ i = 4 ∨ i = 5 ∨ i = 6 ∨ i = 7 := by omega
    rcases this with rfl | rfl | rfl | rfl | rfl | rfl | rfl | rfl
    · exact e0
    · exact e8
    · exact e16
    · exact e24
    · exact e32
    · exact e40
    · exact e48
    · exact e56
  · apply eq_of_bytes
    intro i hi
    have : i = 0 ∨ i = 1 ∨ i = 2 ∨ i = 3 ∨ i = 4 ∨ i = 5 ∨ i = 6 ∨ i = 7 := by omega
    rcases this with rfl | rfl | rfl | rfl | rfl | rfl | rfl | rfl
    · exact f0
    · exact f8
    · exact f16
    · exact f24
    · exact f32
    · exact f40
    · exact f48
    · exact f56

/-- One word of `subWords`. -/
def subStep (salt : List (BitVec 64)) (r : Nat) (counter : BitVec 64) (w : List (BitVec 64)) : List (BitVec 64) :=
  let x := subWord (w.getD (r * 2) 0) (w.getD (r * 2 + 1) 0) counter (salt.getD 0 0) (salt.getD 1 0)
  (w.set (r * 2) x.1).set (r * 2 + 1) x.2

theorem subStep_permutes (salt : List (BitVec 64)) (r : Nat) (hr : r < 16) (counter : BitVec 64) : Permutes 32 (subStep salt r counter) := by
  apply of_inj
  · intro A hA
    unfold subStep
    simpa using hA
  intro A B hA hB h
  have e : ∀ k, k < 32 → (subStep salt r counter A).getD k 0 = (subStep salt r counter B).getD k 0 := fun k _ => congrArg (fun l => l.getD k 0) h
  have g : ∀ X : List (BitVec 64), X.length = 32 → ∀ k, k < 32 → (subStep salt r counter X).getD k 0 =
      if r * 2 + 1 = k then (subWord (X.getD (r * 2) 0) (X.getD (r * 2 + 1) 0) counter (salt.getD 0 0) (salt.getD 1 0)).2 else
      if r * 2 = k then (subWord (X.getD (r * 2) 0) (X.getD (r * 2 + 1) 0) counter (salt.getD 0 0) (salt.getD 1 0)).1 else X.getD k 0 := by
    intro X hX k hk
    unfold subStep
    simp only [getD_set, List.length_set, hX, hk, and_true]
  have e1 := e (r * 2 + 1) (by omega)
  have e0 := e (r * 2) (by omega)
  rw [g A hA _ (by omega), g B hB _ (by omega), if_pos rfl, if_pos rfl] at e1
  rw [g A hA _ (by omega), g B hB _ (by omega), if_neg (by omega), if_pos rfl, if_neg (by omega), if_pos rfl] at e0
  obtain ⟨c0, c1⟩ := subWord_inj (Prod.ext e0 e1)
  apply ext32 hA hB
  intro k hk
  by_cases k1 : r * 2 + 1 = k
  · rw [← k1]; exact c1
  by_cases k0 : r * 2 = k
  · rw [← k0]; exact c0
  have := e k hk
  rwa [g A hA k hk, g B hB k hk, if_neg k1, if_neg k0, if_neg k1, if_neg k0] at this

theorem subWords_snd (salt : List (BitVec 64)) (w w' : List (BitVec 64)) (c : BitVec 64) : (subWords salt (w, c)).2 = (subWords salt (w', c)).2 := by
  unfold subWords
  generalize List.range 16 = l
  induction l generalizing w w' c with
  | nil => rfl
  | cons r l ih => exact ih _ _ _

theorem subWords_permutes (salt : List (BitVec 64)) (c : BitVec 64) : Permutes 32 fun w => (subWords salt (w, c)).1 := by
  have h : ∀ (l : List Nat), (∀ r ∈ l, r < 16) → ∀ c, Permutes 32 fun w => (l.foldl (fun (s : List (BitVec 64) × BitVec 64) r => (subStep salt r s.2 s.1, s.2 + 1)) (w, c)).1 := by
    intro l
    induction l with
    | nil => intro _ _; exact id' 32
    | cons r l ih => intro hl c; exact comp (subStep_permutes salt r (hl r (by simp)) c) (ih (fun r hr => hl r (by simp [hr])) (c + 1))
  exact h (List.range 16) (fun r hr => List.mem_range.mp hr) c

theorem rounds_permutes (n : Nat) (salt : List (BitVec 64)) (counter : BitVec 64) : Permutes 32 fun h => rounds n salt h counter := by
  unfold rounds
  generalize List.range n = l
  induction l generalizing counter with
  | nil => exact id' 32
  | cons r l ih =>
    have h1 := comp (comp (subWords_permutes salt counter) shiftRows_permutes) mixColumns_permutes
    have h2 := comp h1 (ih (subWords salt ([], counter)).2)
    refine Perm.congr h2 fun A _ => ?_
    rw [List.foldl_cons]
    dsimp only
    rw [subWords_snd salt A []]

end Digestpp.Proofs.Perm.Echo
