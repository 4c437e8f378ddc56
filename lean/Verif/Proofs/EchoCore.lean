import Verif.Model.Echo
import Verif.Spec.Echo
import Verif.Proofs.Pack32
import Verif.Proofs.Aes
import Verif.Proofs.Bits

/-! The rounds of ECHO. -/

namespace Digestpp.Proofs.Echo
open Model Spec Spec.Echo

theorem T_eq : ∀ r, r < 4 → echo_T.getD r [] = aesTable.map (fun s => pack32 fun i => aesMul s (mc i r)) := by decide +kernel

theorem look (r : Nat) (hr : r < 4) (x : Byte) :
    (echo_T.getD r []).getD x.toNat 0 = pack32 fun i => aesMul (aesSbox x) (mc i r) := by
  rw [T_eq r hr, aesTable_map, getD_map_range _ _ _ _ x.isLt, BitVec.ofNat_toNat, BitVec.setWidth_eq]

/-- A column of an AES round. -/
theorem col_eq (A : Mat) (j : Nat) (a b c d : Byte) (ha : a = A 0 ((j + 0) % 4)) (hb : b = A 1 ((j + 1) % 4))
    (hc : c = A 2 ((j + 2) % 4)) (hd : d = A 3 ((j + 3) % 4)) :
    Model.Echo.col a b c d = pack32 fun i => mixColumns (shiftRows (subBytes A)) i j := by
  subst ha hb hc hd
  unfold Model.Echo.col
  rw [look 0 (by omega), look 1 (by omega), look 2 (by omega), look 3 (by omega)]
  exact pack32_xor4 fun k i => aesMul (aesSbox (A k ((j + k) % 4))) (mc i k)

/-- The halves of a 128-bit word. -/
def half (A : Mat) (q : Nat) : BitVec 64 := pack fun b => A (b % 4) (2 * q + b / 4)

theorem byteAt_half (A : Mat) (q n : Nat) (h : n % 8 = 0 := by decide) (h' : n / 8 < 8 := by decide) :
    Model.Echo.byteAt (half A q) n = A (n / 8 % 4) (2 * q + n / 8 / 4) := by
  unfold Model.Echo.byteAt half
  rw [show n = 8 * (n / 8) by omega, byte_pack _ _ h']
  rw [Nat.mul_div_cancel_left _ (by omega : 0 < 8)]

theorem byteAt_col (A : Mat) (j n : Nat) (h : n % 8 = 0 := by decide) (h' : n / 8 < 4 := by decide) :
    Model.Echo.byteAt (pack32 fun i => A i j) n = A (n / 8) j := by
  unfold Model.Echo.byteAt
  rw [show n = 8 * (n / 8) by omega, byte_pack32 _ _ h']
  rw [Nat.mul_div_cancel_left _ (by omega : 0 < 8)]

theorem half_cols (A : Mat) (q : Nat) :
    (pack32 fun i => A i (2 * q)).setWidth 64 ^^^ ((pack32 fun i => A i (2 * q + 1)).setWidth 64 <<< 32) = half A q := by
  rw [pack_halves]
  apply pack_congr
  intro i hi
  split
  · rw [Nat.mod_eq_of_lt (by omega), Nat.div_eq_of_lt (by omega), Nat.add_zero]
  · rw [show i % 4 = i - 4 by omega, show i / 4 = 1 by omega]

theorem half_xor (A B : Mat) (q : Nat) : half A q ^^^ half B q = half (matXor A B) q := pack_xor _ _

/-- Two AES rounds. -/
theorem subWord_eq (A K S : Mat) (counter : BitVec 64) (h0 : counter = half K 0) (h1 : half K 1 = 0) :
    Model.Echo.subWord (half A 0) (half A 1) counter (half S 0) (half S 1)
      = (half (aesRound S (aesRound K A)) 0, half (aesRound S (aesRound K A)) 1) := by
  have hk : ∀ b, b < 8 → K (b % 4) (2 + b / 4) = 0 := by
    intro b hb
    have := byteAt_half K 1 (8 * b) (by omega) (by omega)
    rw [h1, show 8 * b / 8 = b by omega] at this
    rw [← this]
    unfold Model.Echo.byteAt
    simp
  have hc : ∀ (j : Nat) (x : BitVec 32), x = (pack32 fun i => K i j) →
      x ^^^ (pack32 fun i => mixColumns (shiftRows (subBytes A)) i j) = pack32 fun i => aesRound K A i j := by
    rintro j x rfl
    rw [pack32_xor]
    apply pack32_congr
    intro i _
    exact BitVec.xor_comm _ _
  have hc0 : ∀ (j : Nat), (∀ i, i < 4 → K i j = 0) →
      (pack32 fun i => mixColumns (shiftRows (subBytes A)) i j) = pack32 fun i => aesRound K A i j := by
    intro j h
    apply pack32_congr
    intro i hi
    show _ = _ ^^^ K i j
    rw [h i hi]
    exact BitVec.xor_zero.symm
  obtain ⟨B, hB⟩ : ∃ B, B = aesRound K A := ⟨_, rfl⟩
  have t0 : counter.setWidth 32 ^^^ Model.Echo.col (Model.Echo.byteAt (half A 0) 0) (Model.Echo.byteAt (half A 0) 40)
      (Model.Echo.byteAt (half A 1) 16) (Model.Echo.byteAt (half A 1) 56) = pack32 fun i => B i 0 := by
    have e : (half K 0).setWidth 32 = pack32 fun i => K i 0 := by
      unfold half
      rw [pack_lo]
      rfl
    rw [hB, ← hc 0 _ e, h0, col_eq A 0]
    all_goals exact byteAt_half _ _ _
  have t1 : (counter >>> 32).setWidth 32 ^^^ Model.Echo.col (Model.Echo.byteAt (half A 0) 32) (Model.Echo.byteAt (half A 1) 8)
      (Model.Echo.byteAt (half A 1) 48) (Model.Echo.byteAt (half A 0) 24) = pack32 fun i => B i 1 := by
    have e : (half K 0 >>> 32).setWidth 32 = pack32 fun i => K i 1 := by
      unfold half
      rw [pack_hi]
      rfl
    rw [hB, ← hc 1 _ e, h0, col_eq A 1]
    all_goals exact byteAt_half _ _ _
  have t2 : Model.Echo.col (Model.Echo.byteAt (half A 1) 0) (Model.Echo.byteAt (half A 1) 40)
      (Model.Echo.byteAt (half A 0) 16) (Model.Echo.byteAt (half A 0) 56) = pack32 fun i => B i 2 := by
    rw [hB, ← hc0 2 (fun i hi => by have := hk i (by omega); rwa [Nat.mod_eq_of_lt hi, Nat.div_eq_of_lt hi] at this), col_eq A 2]
    all_goals exact byteAt_half _ _ _
  have t3 : Model.Echo.col (Model.Echo.byteAt (half A 1) 32) (Model.Echo.byteAt (half A 0) 8)
      (Model.Echo.byteAt (half A 0) 48) (Model.Echo.byteAt (half A 1) 24) = pack32 fun i => B i 3 := by
    rw [hB, ← hc0 3 (fun i hi => by
      have := hk (i + 4) (by omega); rwa [show (i + 4) % 4 = i by omega, show (i + 4) / 4 = 1 by omega] at this), col_eq A 3]
    all_goals exact byteAt_half _ _ _
  unfold Model.Echo.subWord
  rw [t0, t1, t2, t3]
  dsimp only
  rw [← hB]
  have u : ∀ (j : Nat) (a b c d : Byte), a = B 0 ((j + 0) % 4) → b = B 1 ((j + 1) % 4) → c = B 2 ((j + 2) % 4) →
      d = B 3 ((j + 3) % 4) → Model.Echo.col a b c d = pack32 fun i => mixColumns (shiftRows (subBytes B)) i j :=
    fun j a b c d => col_eq B j a b c d
  rw [u 0 _ _ _ _ (byteAt_col _ _ _) (byteAt_col _ _ _) (byteAt_col _ _ _) (byteAt_col _ _ _),
    u 1 _ _ _ _ (byteAt_col _ _ _) (byteAt_col _ _ _) (byteAt_col _ _ _) (byteAt_col _ _ _),
    u 2 _ _ _ _ (byteAt_col _ _ _) (byteAt_col _ _ _) (byteAt_col _ _ _) (byteAt_col _ _ _),
    u 3 _ _ _ _ (byteAt_col _ _ _) (byteAt_col _ _ _) (byteAt_col _ _ _) (byteAt_col _ _ _)]
  have e0 := half_cols (mixColumns (shiftRows (subBytes B))) 0
  have e1 := half_cols (mixColumns (shiftRows (subBytes B))) 1
  rw [show 2 * 0 + 1 = 1 from rfl, show 2 * 0 = 0 from rfl] at e0
  rw [show 2 * 1 + 1 = 3 from rfl, show 2 * 1 = 2 from rfl] at e1
  rw [e0, e1, half_xor, half_xor]
  rfl

/-- The array for the first `n` words of a state. -/
def words (n : Nat) (S : State) : List (BitVec 64) := (List.range (2 * n)).map fun q => half (S (q / 2)) (q % 2)

theorem getD_words (n : Nat) (S : State) (q : Nat) (h : q < 2 * n) : (words n S).getD q 0 = half (S (q / 2)) (q % 2) :=
  getD_map_range _ _ _ _ h

theorem words_congr {n : Nat} {S T : State} (h : ∀ w, w < n → ∀ i, i < 4 → ∀ j, j < 4 → S w i j = T w i j) :
    words n S = words n T := by
  apply List.map_congr_left
  intro q hq
  have := List.mem_range.mp hq
  apply pack_congr
  intro b hb
  exact h _ (by omega) _ (by omega) _ (by omega)

theorem set_map_range {α : Type} (n : Nat) (g : Nat → α) (i : Nat) (v : α) :
    ((List.range n).map g).set i v = (List.range n).map fun q => if q = i then v else g q := by
  apply List.ext_getElem?
  intro k
  rw [List.getElem?_set]
  simp only [List.length_map, List.length_range, List.getElem?_map]
  by_cases h : i = k
  · subst h
    by_cases hi : i < n
    · simp [hi]
    · simp [hi]
  · simp only [h, if_false]
    by_cases hk : k < n
    · simp [hk, Ne.symm h]
    · simp [hk]

/-- The state after the first `n` words have been substituted. -/
def subUpTo (n : Nat) (salt : Mat) (κ : Nat) (S : State) : State := fun w => if w < n then bigSubWords wrap64 salt κ S w else S w

theorem half_leBytes (κ : Nat) : BitVec.ofNat 64 κ = half (state (leBytes 16 (wrap64 κ))) 0 ∧
    half (state (leBytes 16 (wrap64 κ))) 1 = 0 := by
  rw [← ofNat_wrap64]
  have h := wrap64_lt κ
  generalize wrap64 κ = κ at h
  have e : leBytes 16 κ = leBytes 8 κ ++ leBytes 8 0 :=
    (leBytes_append 8 8 κ 0 h).symm
  have hl := length_leBytes 8 κ
  constructor
  · rw [pack_bytes64 _ _ (bytes64_ofNat κ)]
    apply pack_congr
    intro b hb
    unfold state
    rw [e, List.getD_eq_getElem?_getD, List.getD_eq_getElem?_getD, List.getElem?_append_left (by omega)]
    congr 3
    omega
  · rw [← pack_zero]
    apply pack_congr
    intro b hb
    unfold state
    rw [e, List.getD_eq_getElem?_getD, List.getElem?_append_right (by omega), hl]
    rw [show leBytes 8 0 = List.replicate 8 0 from rfl, List.getElem?_replicate]
    split <;> rfl

theorem subWords_eq (S : State) (salt : Mat) (κ : Nat) :
    Model.Echo.subWords [half salt 0, half salt 1] (words 16 S, BitVec.ofNat 64 κ)
      = (words 16 (bigSubWords wrap64 salt κ S), BitVec.ofNat 64 (κ + 16)) := by
  have key : ∀ n, n ≤ 16 → (List.range n).foldl (fun (x : List (BitVec 64) × BitVec 64) r =>
      let y := Model.Echo.subWord (x.1.getD (r * 2) 0) (x.1.getD (r * 2 + 1) 0) x.2 (half salt 0) (half salt 1)
      ((x.1.set (r * 2) y.1).set (r * 2 + 1) y.2, x.2 + 1)) (words 16 S, BitVec.ofNat 64 κ)
      = (words 16 (subUpTo n salt κ S), BitVec.ofNat 64 (κ + n)) := by
    intro n
    induction n with
    | zero =>
      intro _
      rfl
    | succ n ih =>
      intro hn
      rw [List.range_succ, List.foldl_append, ih (by omega)]
      simp only [List.foldl_cons, List.foldl_nil]
      obtain ⟨k0, k1⟩ := half_leBytes (κ + n)
      rw [getD_words _ _ _ (by omega), getD_words _ _ _ (by omega)]
      rw [show n * 2 / 2 = n by omega, show (n * 2 + 1) / 2 = n by omega, show n * 2 % 2 = 0 by omega, show (n * 2 + 1) % 2 = 1 by omega]
      rw [subWord_eq _ _ _ _ k0 k1]
      have e : subUpTo n salt κ S n = S n := if_neg (by omega)
      rw [e]
      refine Prod.ext ?_ ?_
      · show List.set (List.set (words 16 _) _ _) _ _ = _
        unfold words
        rw [set_map_range, set_map_range]
        refine List.map_congr_left (f := fun q => _) (g := fun q => half (subUpTo (n + 1) salt κ S (q / 2)) (q % 2)) ?_
        intro q hq
        show (if q = n * 2 + 1 then _ else if q = n * 2 then _ else _) = _
        unfold subUpTo
        by_cases h1 : q = n * 2 + 1
        · rw [if_pos h1, if_pos (by omega), show q / 2 = n by omega, show q % 2 = 1 by omega]
          rfl
        · rw [if_neg h1]
          by_cases h2 : q = n * 2
          · rw [if_pos h2, if_pos (by omega), show q / 2 = n by omega, show q % 2 = 0 by omega]
            rfl
          · rw [if_neg h2]
            by_cases h3 : q / 2 < n
            · rw [if_pos h3, if_pos (by omega)]
            · rw [if_neg h3, if_neg (by omega)]
      · show BitVec.ofNat 64 (κ + n) + 1 = _
        rw [← Nat.add_assoc]
        exact (BitVec.ofNat_add _ 1).symm
  have := key 16 (by omega)
  unfold Model.Echo.subWords
  refine this.trans ?_
  refine Prod.ext ?_ rfl
  apply words_congr
  intro w hw i _ j _
  unfold subUpTo
  rw [if_pos hw]

/-- A swap in a list of numbers. -/
def swapN (i j : Nat) (l : List Nat) : List Nat := (l.set i (l.getD j 0)).set j (l.getD i 0)

theorem swap_map (i j : Nat) (l : List Nat) (g : Nat → BitVec 64) (hi : i < l.length) (hj : j < l.length) :
    Model.Echo.swap i j (l.map g) = (swapN i j l).map g := by
  unfold Model.Echo.swap swapN
  rw [List.map_set, List.map_set]
  congr 1
  · congr 1
    simp [List.getD_eq_getElem?_getD, hj]
  · simp [List.getD_eq_getElem?_getD, hi]

theorem length_swapN (i j : Nat) (l : List Nat) : (swapN i j l).length = l.length := by simp [swapN]

theorem shiftRows_perm : swapN 27 11 (swapN 26 10 (swapN 27 19 (swapN 26 18 (swapN 31 15 (swapN 30 14 (swapN 23 15 (swapN 22 14
    (swapN 13 29 (swapN 12 28 (swapN 7 31 (swapN 6 30 (swapN 5 21 (swapN 4 20 (swapN 3 11 (swapN 2 10 (List.range 32))))))))))))))))
      = (List.range 32).map fun q => 2 * (q / 2 % 4 + 4 * ((q / 2 / 4 + q / 2 % 4) % 4)) + q % 2 := by
  decide +kernel

theorem shiftRows_eq (S : State) : Model.Echo.shiftRows (words 16 S) = words 16 (bigShiftRows S) := by
  unfold Model.Echo.shiftRows words
  dsimp only
  have hl : ∀ i j l, l.length = 32 → (swapN i j l).length = 32 := fun i j l h => by rw [length_swapN, h]
  have hm : ∀ (i j : Nat) (l : List Nat) (g : Nat → BitVec 64), l.length = 32 → i < 32 → j < 32 →
      Model.Echo.swap i j (l.map g) = (swapN i j l).map g := fun i j l g h hi hj => swap_map i j l g (by omega) (by omega)
  have h0 : (List.range (2 * 16)).length = 32 := rfl
  have h1 := hl 2 10 _ h0
  have h2 := hl 3 11 _ h1
  have h3 := hl 4 20 _ h2
  have h4 := hl 5 21 _ h3
  have h5 := hl 6 30 _ h4
  have h6 := hl 7 31 _ h5
  have h7 := hl 12 28 _ h6
  have h8 := hl 13 29 _ h7
  have h9 := hl 22 14 _ h8
  have h10 := hl 23 15 _ h9
  have h11 := hl 30 14 _ h10
  have h12 := hl 31 15 _ h11
  have h13 := hl 26 18 _ h12
  have h14 := hl 27 19 _ h13
  have h15 := hl 26 10 _ h14
  rw [hm _ _ _ _ h0 (by decide) (by decide), hm _ _ _ _ h1 (by decide) (by decide), hm _ _ _ _ h2 (by decide) (by decide),
    hm _ _ _ _ h3 (by decide) (by decide), hm _ _ _ _ h4 (by decide) (by decide), hm _ _ _ _ h5 (by decide) (by decide),
    hm _ _ _ _ h6 (by decide) (by decide), hm _ _ _ _ h7 (by decide) (by decide), hm _ _ _ _ h8 (by decide) (by decide),
    hm _ _ _ _ h9 (by decide) (by decide), hm _ _ _ _ h10 (by decide) (by decide), hm _ _ _ _ h11 (by decide) (by decide),
    hm _ _ _ _ h12 (by decide) (by decide), hm _ _ _ _ h13 (by decide) (by decide), hm _ _ _ _ h14 (by decide) (by decide),
    hm _ _ _ _ h15 (by decide) (by decide), shiftRows_perm, List.map_map]
  apply List.map_congr_left
  intro q hq
  have hq := List.mem_range.mp hq
  show half (S ((2 * _ + q % 2) / 2)) ((2 * _ + q % 2) % 2) = half (S _) _
  rw [show ∀ x, (2 * x + q % 2) / 2 = x by omega, show ∀ x, (2 * x + q % 2) % 2 = q % 2 by omega]

theorem mask01 : ∀ n, n < 64 → (0x0101010101010101#64).getLsbD n = decide (n % 8 = 0) := by decide
theorem maskfe : ∀ n, n < 64 → (0xfefefefefefefefe#64).getLsbD n = decide (n % 8 ≠ 0) := by decide

theorem mul1b : ∀ c : BitVec 8, (pack fun i => if c.getLsbD i then 1 else 0) * 0x1b#64
    = pack fun i => if c.getLsbD i then 0x1b else 0 := by decide +kernel

theorem dbl_eq (f : Nat → Byte) : Model.Echo.dbl (pack f) = pack fun i => xtime 0x1b (f i) := by
  unfold Model.Echo.dbl
  have e1 : (pack f <<< 1) &&& 0xfefefefefefefefe#64 = pack fun i => f i <<< 1 := by
    apply BitVec.eq_of_getLsbD_eq
    intro n hn
    rw [BitVec.getLsbD_and, BitVec.getLsbD_shiftLeft, maskfe n hn, getLsbD_pack _ _ hn, BitVec.getLsbD_shiftLeft]
    by_cases h : n % 8 = 0
    · simp [h]
    · rw [getLsbD_pack _ _ (by omega), show (n - 1) / 8 = n / 8 by omega, show (n - 1) % 8 = n % 8 - 1 by omega]
      simp [h, hn, Nat.mod_lt n (show 8 > 0 by omega)]
      intro _ h0
      omega
  obtain ⟨c, hc⟩ : ∃ c : BitVec 8, ∀ i, i < 8 → c.getLsbD i = (f i).getLsbD 7 := by
    refine ⟨ofBits 8 fun i => (f i).getLsbD 7, ?_⟩
    intro i hi
    rw [getLsbD_ofBits, decide_eq_true hi, Bool.true_and]
  have e2 : (pack f >>> 7) &&& 0x0101010101010101#64 = pack fun i => if c.getLsbD i then 1 else 0 := by
    apply BitVec.eq_of_getLsbD_eq
    intro n hn
    rw [BitVec.getLsbD_and, BitVec.getLsbD_ushiftRight, mask01 n hn, getLsbD_pack _ n hn, hc _ (by omega)]
    by_cases h : n % 8 = 0
    · rw [getLsbD_pack _ _ (by omega), show (7 + n) / 8 = n / 8 by omega, show (7 + n) % 8 = 7 by omega, h]
      cases (f (n / 8)).getLsbD 7 <;> rfl
    · have : (1#8).getLsbD (n % 8) = false := by
        rw [BitVec.getLsbD_one]; simp [h]
      cases (f (n / 8)).getLsbD 7 <;> simp [h]
  rw [e1, e2, mul1b, pack_xor]
  apply pack_congr
  intro i hi
  unfold xtime
  rw [hc i hi]

theorem mul_cases : ∀ x : Byte, aesMul x 1 = x ∧ aesMul x 2 = xtime 0x1b x ∧ aesMul x 3 = xtime 0x1b x ^^^ x := by decide +kernel

theorem half_dbl (A : Mat) (q : Nat) : Model.Echo.dbl (half A q) = half (fun i j => xtime 0x1b (A i j)) q := dbl_eq _

/-- The array after the first `t` steps of `mix_columns`. -/
def mixed (t : Nat) (S : State) (q : Nat) : BitVec 64 :=
  if q / 8 * 2 + q % 2 < t then half (bigMixColumns S (q / 2)) (q % 2) else half (S (q / 2)) (q % 2)

theorem mc_row (S : State) (c k q : Nat) (hk : k < 4) : half (bigMixColumns S (4 * c + k)) q
    = half (fun i j => xorSum 4 fun l => aesMul (S (4 * c + l) i j) (mc k l)) q := by
  unfold bigMixColumns
  rw [show (4 * c + k) / 4 = c by omega, show (4 * c + k) % 4 = k by omega]

theorem half_congr {A B : Mat} (q : Nat) (h : ∀ i j, A i j = B i j) : half A q = half B q := pack_congr fun _ _ => h _ _

theorem mixStep_eq (S : State) (t : Nat) (ht : t < 8) :
    Model.Echo.mixStep ((List.range 32).map (mixed t S)) (t / 2 * 8 + t % 2) = (List.range 32).map (mixed (t + 1) S) := by
  have hg : ∀ k, k < 4 → ((List.range 32).map (mixed t S)).getD (t / 2 * 8 + t % 2 + 2 * k) 0 = half (S (4 * (t / 2) + k)) (t % 2) := by
    intro k hk
    rw [getD_map_range _ _ _ _ (by omega)]
    unfold mixed
    rw [if_neg (by omega), show (t / 2 * 8 + t % 2 + 2 * k) / 2 = 4 * (t / 2) + k by omega,
      show (t / 2 * 8 + t % 2 + 2 * k) % 2 = t % 2 by omega]
  have g0 := hg 0 (by omega)
  have g1 := hg 1 (by omega)
  have g2 := hg 2 (by omega)
  have g3 := hg 3 (by omega)
  simp only [Nat.mul_zero, Nat.add_zero, Nat.mul_one, Nat.reduceMul] at g0 g1 g2 g3
  unfold Model.Echo.mixStep
  rw [g0, g1, g2, g3]
  dsimp only
  simp only [half_dbl, half_xor]
  rw [set_map_range, set_map_range, set_map_range, set_map_range]
  apply List.map_congr_left
  intro q hq
  have hq := List.mem_range.mp hq
  have hnew : ∀ k, k < 4 → q = t / 2 * 8 + t % 2 + 2 * k → mixed (t + 1) S q
      = half (fun i j => xorSum 4 fun l => aesMul (S (4 * (t / 2) + l) i j) (mc k l)) (t % 2) := by
    intro k hk e
    unfold mixed
    rw [if_pos (by omega), show q / 2 = 4 * (t / 2) + k by omega, show q % 2 = t % 2 by omega, mc_row _ _ _ _ hk]
  by_cases h3 : q = t / 2 * 8 + t % 2 + 6
  · rw [if_pos h3, hnew 3 (by omega) h3]
    apply half_congr
    intro i j
    show _ = ((((0#8 ^^^ aesMul _ 3) ^^^ aesMul _ 1) ^^^ aesMul _ 1) ^^^ aesMul _ 2)
    rw [(mul_cases _).1, (mul_cases _).1, (mul_cases _).2.1, (mul_cases _).2.2, BitVec.zero_xor]
    show xtime _ _ ^^^ xtime _ _ ^^^ _ ^^^ _ ^^^ _ = _
    simp only [Nat.add_zero]
    ac_rfl
  rw [if_neg h3]
  by_cases h2 : q = t / 2 * 8 + t % 2 + 4
  · rw [if_pos h2, hnew 2 (by omega) h2]
    apply half_congr
    intro i j
    show _ = ((((0#8 ^^^ aesMul _ 1) ^^^ aesMul _ 1) ^^^ aesMul _ 2) ^^^ aesMul _ 3)
    rw [(mul_cases _).1, (mul_cases _).1, (mul_cases _).2.1, (mul_cases _).2.2, BitVec.zero_xor]
    show xtime _ _ ^^^ xtime _ _ ^^^ _ ^^^ _ ^^^ _ = _
    simp only [Nat.add_zero]
    ac_rfl
  rw [if_neg h2]
  by_cases h1 : q = t / 2 * 8 + t % 2 + 2
  · rw [if_pos h1, hnew 1 (by omega) h1]
    apply half_congr
    intro i j
    show _ = ((((0#8 ^^^ aesMul _ 1) ^^^ aesMul _ 2) ^^^ aesMul _ 3) ^^^ aesMul _ 1)
    rw [(mul_cases _).1, (mul_cases _).1, (mul_cases _).2.1, (mul_cases _).2.2, BitVec.zero_xor]
    show xtime _ _ ^^^ xtime _ _ ^^^ _ ^^^ _ ^^^ _ = _
    simp only [Nat.add_zero]
    ac_rfl
  rw [if_neg h1]
  by_cases h0 : q = t / 2 * 8 + t % 2
  · rw [if_pos h0, hnew 0 (by omega) h0]
    apply half_congr
    intro i j
    show _ = ((((0#8 ^^^ aesMul _ 2) ^^^ aesMul _ 3) ^^^ aesMul _ 1) ^^^ aesMul _ 1)
    rw [(mul_cases _).1, (mul_cases _).1, (mul_cases _).2.1, (mul_cases _).2.2, BitVec.zero_xor]
    show xtime _ _ ^^^ xtime _ _ ^^^ _ ^^^ _ ^^^ _ = _
    simp only [Nat.add_zero]
    ac_rfl
  rw [if_neg h0]
  unfold mixed
  by_cases hd : q / 8 * 2 + q % 2 < t
  · rw [if_pos hd, if_pos (by omega)]
  · rw [if_neg hd, if_neg (by omega)]

theorem mixColumns_eq (S : State) : Model.Echo.mixColumns (words 16 S) = words 16 (bigMixColumns S) := by
  have key : ∀ n, n ≤ 8 → (List.range n).foldl (fun w t => Model.Echo.mixStep w (t / 2 * 8 + t % 2)) ((List.range 32).map (mixed 0 S))
      = (List.range 32).map (mixed n S) := by
    intro n
    induction n with
    | zero => intro _; rfl
    | succ n ih =>
      intro hn
      rw [List.range_succ (n := n), List.foldl_append, ih (by omega)]
      exact mixStep_eq S n (by omega)
  have h8 := key 8 (by omega)
  have e0 : (List.range 32).map (mixed 0 S) = words 16 S := by
    apply List.map_congr_left
    intro q _
    exact if_neg (by omega)
  have e8 : (List.range 32).map (mixed 8 S) = words 16 (bigMixColumns S) := by
    apply List.map_congr_left
    intro q hq
    have := List.mem_range.mp hq
    exact if_pos (by omega)
  rw [e0, e8] at h8
  have hp := foldl_pairs (fun w t => Model.Echo.mixStep w (t / 2 * 8 + t % 2)) 4 (words 16 S)
  rw [← h8, ← hp]
  unfold Model.Echo.mixColumns
  generalize words 16 S = W
  apply congrFun
  apply congrFun
  apply congrArg
  funext w i
  show Model.Echo.mixStep (Model.Echo.mixStep w (i * 4 * 2 + 0)) (i * 4 * 2 + 1) = _
  rw [show 2 * i / 2 * 8 + 2 * i % 2 = i * 4 * 2 + 0 by omega, show (2 * i + 1) / 2 * 8 + (2 * i + 1) % 2 = i * 4 * 2 + 1 by omega]

theorem rounds_eq (n : Nat) (salt : Mat) (C : Nat) (S : State) :
    Model.Echo.rounds n [half salt 0, half salt 1] (words 16 S) (BitVec.ofNat 64 C)
      = words 16 ((List.range n).foldl (bigRound wrap64 salt C) S) := by
  have key : (List.range n).foldl (fun (s : List (BitVec 64) × BitVec 64) _ =>
      let s := Model.Echo.subWords [half salt 0, half salt 1] s
      (Model.Echo.mixColumns (Model.Echo.shiftRows s.1), s.2)) (words 16 S, BitVec.ofNat 64 C)
      = (words 16 ((List.range n).foldl (bigRound wrap64 salt C) S), BitVec.ofNat 64 (C + 16 * n)) := by
    induction n with
    | zero => rfl
    | succ n ih =>
      rw [List.range_succ, List.foldl_append, List.foldl_append, ih]
      simp only [List.foldl_cons, List.foldl_nil]
      rw [subWords_eq _ _ _, shiftRows_eq, mixColumns_eq]
      rfl
  unfold Model.Echo.rounds
  rw [key]

end Digestpp.Proofs.Echo
