import Verif.Proofs.StreebogTables
import Verif.Proofs.StreebogSum
import Verif.Proofs.MdFinal
import Verif.Proofs.LeWords
import Verif.Proofs.Api
import Verif.Proofs.Sched

/-! The Streebog provider computes Streebog, with the addition that it has. -/

namespace Digestpp.Proofs.Streebog
open Model Spec Spec.Streebog

theorem xorBlocks_eq (A B : Mat) : Model.Streebog.xorBlocks (colWords 8 A) (colWords 8 B) = colWords 8 (matXor A B) := by
  unfold Model.Streebog.xorBlocks
  apply List.map_congr_left
  intro j hj
  have hj := List.mem_range.mp hj
  rw [getD_colWords _ _ _ hj, getD_colWords _ _ _ hj, pack_xor]
  rfl

theorem matXor_comm (A B : Mat) : matXor A B = matXor B A := by
  funext i j
  exact BitVec.xor_comm _ _

theorem e_eq (K : Mat) (m : Bytes) : Model.Streebog.e (colWords 8 K) m = colWords 8 (E K (matOf m) 12) := by
  have h : ∀ n, n ≤ 12 → (List.range n).foldl (fun (p : List (BitVec 64) × List (BitVec 64)) i =>
      (Model.Streebog.xorBlocks (Model.Streebog.lpsBlock p.1)
        (Model.Streebog.lpsBlock (Model.Streebog.xorBlocks p.2 (streebog_RC.getD i []))),
       Model.Streebog.lpsBlock (Model.Streebog.xorBlocks p.2 (streebog_RC.getD i []))))
      (Model.Streebog.xorBlocks (colWords 8 K) (loads64 8 m), colWords 8 K)
      = (colWords 8 (E K (matOf m) n), colWords 8 (key K n)) := by
    intro n hn
    induction n with
    | zero =>
      rw [loads64_mat, xorBlocks_eq]
      rfl
    | succ n ih =>
      rw [List.range_succ, List.foldl_append, ih (by omega), List.foldl_cons, List.foldl_nil]
      dsimp only
      rw [RC_eq n (by omega), xorBlocks_eq, lpsBlock_eq, lpsBlock_eq, xorBlocks_eq, matXor_comm (LPS _)]
      rfl
  exact congrArg Prod.fst (h 12 (by omega))

theorem word_vec (x j : Nat) (hj : j < 8) : (colWords 8 (vec x)).getD j 0 = BitVec.ofNat 64 (x / 2 ^ (64 * j)) := by
  rw [getD_colWords _ _ _ hj, pack_bytes64 (BitVec.ofNat 64 (x / 2 ^ (64 * j))) _ (bytes64_ofNat _)]
  apply pack_congr
  intro i hi
  unfold vec matOf leBytes
  rw [getD_map_range (fun i => BitVec.ofNat 8 (x / 256 ^ i)) 0 64 _ (by omega), getD_map_range (fun i => BitVec.ofNat 8 (x / 2 ^ (64 * j) / 256 ^ i)) 0 8 _ hi, Nat.div_div_eq_div_mul, Nat.pow_add, Nat.pow_mul, Nat.pow_mul]

theorem colWords_vec (x : Nat) : colWords 8 (vec x) = (List.range 8).map fun j => BitVec.ofNat 64 (x / 2 ^ (64 * j)) := by
  apply List.map_congr_left
  intro j hj
  have hj := List.mem_range.mp hj
  rw [← word_vec x j hj, getD_colWords _ _ _ hj]

theorem set_first (A : Mat) (N : BitVec 64) :
    (colWords 8 A).set 0 ((colWords 8 A).getD 0 0 ^^^ N) = colWords 8 (matXor A (vec N.toNat)) := by
  have e := colWords_xor 8 A (vec N.toNat)
  have h0 : ∀ j, j < 8 → j ≠ 0 → (colWords 8 (vec N.toNat)).getD j 0 = 0#64 := by
    intro j hj h
    rw [word_vec _ _ hj, Nat.div_eq_of_lt]
    · exact Nat.lt_of_lt_of_le N.isLt (Nat.pow_le_pow_right (by decide) (by omega))
  apply List.ext_getElem
  · simp [length_colWords]
  · intro j h1 h2
    have hj : j < 8 := by rw [length_colWords] at h2; exact h2
    rw [List.getElem_set]
    have g1 : (colWords 8 (matXor A (vec N.toNat)))[j] = (colWords 8 A).getD j 0 ^^^ (colWords 8 (vec N.toNat)).getD j 0 := by
      rw [getD_colWords _ _ _ hj, getD_colWords _ _ _ hj, pack_xor]
      simp only [colWords, List.getElem_map, List.getElem_range]
      rfl
    refine Eq.trans ?_ g1.symm
    by_cases h : j = 0
    · subst h
      rw [if_pos rfl, word_vec _ 0 hj, Nat.mul_zero, Nat.pow_zero, Nat.div_one, BitVec.ofNat_toNat, BitVec.setWidth_eq]
    · rw [if_neg (fun e => h e.symm), h0 j hj h, BitVec.xor_zero, getD_colWords _ _ _ hj]
      simp only [colWords, List.getElem_map, List.getElem_range]

theorem gN_eq (A : Mat) (m : Bytes) (N : BitVec 64) :
    Model.Streebog.gN (colWords 8 A) m N = colWords 8 (g N.toNat A (matOf m)) := by
  unfold Model.Streebog.gN
  dsimp only
  rw [set_first, lpsBlock_eq, e_eq, xorBlocks_eq, loads64_mat, xorBlocks_eq]
  unfold g
  rw [matXor_comm A]

/-! ### The checksum -/

/-- What a function that adds to the checksum computes. -/
def AddOk (add : Bytes → List (BitVec 64) → List (BitVec 64)) (addN : Nat → Nat → Nat) : Prop :=
  ∀ b x, b.length = 64 → add b (colWords 8 (vec x)) = colWords 8 (vec (addN x (leNat b)))

/-- The carries in `addm`. -/
def carryOut (a b : Nat → BitVec 64) : Nat → Bool
  | 0 => false
  | i + 1 => a i + b i < a i || a i + b i < b i

theorem addm_words (a b : Nat → BitVec 64) :
    ((List.range 8).foldl (fun (p : List (BitVec 64) × Bool) i =>
      (p.1.set i (p.1.getD i 0 + ((List.range 8).map b).getD i 0 + if p.2 then 1 else 0),
        decide (p.1.getD i 0 + ((List.range 8).map b).getD i 0 < p.1.getD i 0) ||
        decide (p.1.getD i 0 + ((List.range 8).map b).getD i 0 < ((List.range 8).map b).getD i 0))) ((List.range 8).map a, false)).1
      = (List.range 8).map fun i => a i + b i + if carryOut a b i then 1 else 0 := rfl

theorem overflow_iff (x y : BitVec 64) : (decide (x + y < x) || decide (x + y < y)) = decide (2 ^ 64 ≤ x.toNat + y.toNat) := by
  have h1 := x.isLt
  have h2 := y.isLt
  simp only [BitVec.lt_def, BitVec.toNat_add]
  generalize x.toNat = a at *
  generalize y.toNat = b at *
  rw [← Bool.decide_or, decide_eq_decide]
  omega

theorem leBytes_leNat (b : Bytes) : leBytes b.length (leNat b) = b := by
  induction b with
  | nil => rfl
  | cons x b ih =>
    have hx := x.isLt
    rw [List.length_cons, leBytes_succ, leNat, Nat.add_mul_div_left _ _ (by decide), Nat.div_eq_of_lt hx, Nat.zero_add, ih]
    congr 1
    apply BitVec.eq_of_toNat_eq
    rw [BitVec.toNat_ofNat]
    omega

theorem vec_leNat (b : Bytes) (hb : b.length = 64) : ∀ i, i < 8 → ∀ j, j < 8 → matOf b i j = vec (leNat b) i j := by
  have e : leBytes 64 (leNat b) = b := by
    rw [← hb]
    exact leBytes_leNat b
  intro i _ j _
  unfold vec
  rw [e]

theorem addm_ok : AddOk Model.Streebog.addm addNoRipple := by
  intro b x hb
  have hm : loads64 8 b = (List.range 8).map fun j => BitVec.ofNat 64 (leNat b / 2 ^ (64 * j)) := by
    rw [loads64_mat, ← colWords_vec]
    exact colWords_congr (fun i hi j hj => vec_leNat b hb i hi j hj)
  unfold Model.Streebog.addm
  dsimp only
  rw [hm, colWords_vec x]
  refine Eq.trans (addm_words _ _) ?_
  rw [colWords_vec]
  apply List.map_congr_left
  intro j hj
  have hj := List.mem_range.mp hj
  have hl : ∀ y i, (BitVec.ofNat 64 (y / 2 ^ (64 * i))) = BitVec.ofNat 64 (limb i y) := by
    intro y i
    apply BitVec.eq_of_toNat_eq
    rw [BitVec.toNat_ofNat, BitVec.toNat_ofNat]
    unfold limb
    rw [Nat.mod_mod]
  have ht : ∀ y i, (BitVec.ofNat 64 (limb i y)).toNat = limb i y := by
    intro y i
    rw [BitVec.toNat_ofNat, Nat.mod_eq_of_lt (limb_lt i y)]
  rw [hl (addNoRipple x (leNat b)), show limb j (addNoRipple x (leNat b)) = _ from
    limb_ofLimbs _ 8 j (fun _ => Nat.mod_lt _ (by decide)) hj, hl, hl]
  have hc : (if carryOut (fun j => BitVec.ofNat 64 (x / 2 ^ (64 * j))) (fun j => BitVec.ofNat 64 (leNat b / 2 ^ (64 * j))) j
      then 1 else 0 : BitVec 64) = BitVec.ofNat 64 (if 0 < j ∧ 2 ^ 64 ≤ limb (j - 1) x + limb (j - 1) (leNat b) then 1 else 0) := by
    cases j with
    | zero => rfl
    | succ j =>
      have e := overflow_iff (BitVec.ofNat 64 (x / 2 ^ (64 * j))) (BitVec.ofNat 64 (leNat b / 2 ^ (64 * j)))
      rw [show carryOut (fun j => BitVec.ofNat 64 (x / 2 ^ (64 * j))) (fun j => BitVec.ofNat 64 (leNat b / 2 ^ (64 * j))) (j + 1) = _
        from e, hl, hl, ht, ht, Nat.add_sub_cancel]
      by_cases h : 2 ^ 64 ≤ limb j x + limb j (leNat b)
      · rw [decide_eq_true h, if_pos rfl, if_pos ⟨by omega, h⟩]
        rfl
      · rw [decide_eq_false h, if_neg (by decide), if_neg (fun hh => h hh.2)]
        rfl
  rw [hc, ← BitVec.ofNat_add, ← BitVec.ofNat_add]
  apply BitVec.eq_of_toNat_eq
  rw [BitVec.toNat_ofNat, BitVec.toNat_ofNat, Nat.mod_mod]

/-- A correct addition. -/
def addRight (b : Bytes) (h : List (BitVec 64)) : List (BitVec 64) := loads64 8 (leBytes 64 (leNat (stores64 h) + leNat b))

theorem matBytes_vec (x : Nat) : matBytes 8 (vec x) = leBytes 64 x := by
  apply List.ext_getElem
  · rw [length_matBytes, length_leBytes]
  · intro i h1 h2
    rw [length_matBytes] at h1
    have := matOf_matBytes 8 (vec x) (i % 8) (i / 8) (by omega) (by omega)
    unfold vec matOf at this
    rw [show 8 * (i / 8) + i % 8 = i by omega] at this
    rw [List.getD_eq_getElem?_getD, List.getD_eq_getElem?_getD, List.getElem?_eq_getElem (by rw [length_matBytes]; exact h1),
      List.getElem?_eq_getElem h2] at this
    exact this

theorem addRight_ok : AddOk addRight add512 := by
  intro b x hb
  unfold addRight
  rw [stores64_mat, matBytes_vec, leNat_leBytes, loads64_mat]
  have : ∀ y, leBytes 64 (y % 256 ^ 64) = leBytes 64 y := leBytes_mod 64
  have e : (2 : Nat) ^ 512 = 256 ^ 64 := by rw [show (256 : Nat) = 2 ^ 8 by decide, ← Nat.pow_mul]
  unfold add512 vec
  rw [e, this, ← this, Nat.mod_add_mod, this]

/-! ### The provider -/

/-- The object's chaining variables. -/
def st (N : Nat) (A : Mat) (x : Nat) : Model.Streebog.St := ⟨colWords 8 A, colWords 8 (vec x), N⟩

/-- The block function in `update`, by block number. -/
def step (add : Bytes → List (BitVec 64) → List (BitVec 64)) (i : Nat) (b : Bytes) (h : Model.Streebog.St) : Model.Streebog.St :=
  { h with h := Model.Streebog.gN h.h b (BitVec.ofNat 64 (i * 512)), S := add b h.S }

variable {add : Bytes → List (BitVec 64) → List (BitVec 64)} {addN : Nat → Nat → Nat}

theorem step_st (ok : AddOk add addN) (N i : Nat) (b : Bytes) (hb : b.length = 64) (A : Mat) (x : Nat) :
    step add i b (st N A x) = st N (g (BitVec.ofNat 64 (i * 512)).toNat A (matOf b)) (addN x (leNat b)) := by
  unfold step st
  dsimp only
  rw [gN_eq, ok b x hb]

/-- The states that occur. -/
def In (N : Nat) (h : Model.Streebog.St) : Prop := ∃ A x, h = st N A x

theorem In.step (ok : AddOk add addN) {N : Nat} (i : Nat) (b : Bytes) (hb : b.length = 64) {h : Model.Streebog.St} (hi : In N h) :
    In N (step add i b h) := by
  obtain ⟨A, x, rfl⟩ := hi
  rw [step_st ok N i b hb]
  exact ⟨_, _, rfl⟩

theorem isTransform (ok : AddOk add addN) (N : Nat) :
    IsTransform 64 64 (In N) (step add) (Model.Streebog.transform add false) := by
  intro s data n i hn hm hi ht
  refine ⟨s.m, hm, ?_⟩
  unfold Model.Streebog.transform
  rw [ht, forBlocks_ok (g := fun j => step add (i + j)) (inv := In N) ?_ data n _ hn hi]
  · rfl
  · intro j b h hb hi
    refine ⟨?_, hi.step ok _ _ hb⟩
    have e : BitVec.ofNat 64 (i * 64 * 8) + BitVec.ofNat 64 (j * 512) = BitVec.ofNat 64 ((i + j) * 512) := by
      rw [← BitVec.ofNat_add, Nat.mul_assoc, ← Nat.add_mul]
    rw [if_neg (by decide), if_neg (by decide), e]
    rfl

/-- One call for a block outside the message. -/
theorem transform_last (s : Blk Model.Streebog.St) (data : Bytes) (hl : data.length = 64) (N : Nat) (A : Mat) (x : Nat)
    (hi : s.h = st N A x) :
    Model.Streebog.transform add true data 1 s = .ok { s with h := st N (g 0 A (matOf data)) x } := by
  have hr : readBytes data (0 * 64) 64 = .ok data := by
    rw [readBytes_ok _ _ _ (by omega), Nat.zero_mul, List.drop_zero, List.take_of_length_le (by omega)]
  unfold Model.Streebog.transform forBlocks
  rw [show List.range 1 = [0] from rfl, List.foldlM_cons, hr, hi]
  unfold st
  simp only [ok_bind, pure_bind, List.foldlM_nil, if_true, gN_eq]
  rfl

/-- `s` has absorbed `msg`. -/
def Abs (add : Bytes → List (BitVec 64) → List (BitVec 64)) (N : Nat) (msg : Bytes) (s : Blk Model.Streebog.St) : Prop :=
  Buffered 64 0 64 (step add) (st N (fun _ _ => if N / 8 = 64 then 0 else 1) 0) msg s

theorem abs_in (ok : AddOk add addN) (N : Nat) (msg : Bytes) (s : Blk Model.Streebog.St) (h : Abs add N msg s) : In N s.h := by
  rw [h.h]
  exact foldBlocks_inv (fun _ _ _ hb hi => hi.step ok _ _ hb) _ _ _ (by
    have := Nat.div_mul_le_self (msg.length - 0) 64; omega) ⟨_, _, rfl⟩

theorem abs_hs (ok : AddOk add addN) (N : Nat) (msg : Bytes) (s : Blk Model.Streebog.St) (h : Abs add N msg s) : s.h.hs = N := by
  obtain ⟨_, _, e⟩ := abs_in ok N msg s h
  rw [e]
  rfl

theorem update_ok (ok : AddOk add addN) (N : Nat) (msg data : Bytes) (s : Blk Model.Streebog.St) (h : Abs add N msg s)
    (hd : data.length < 2 ^ 63) : ∃ s', Model.Streebog.update add data s = .ok s' ∧ Abs add N (msg ++ data) s' :=
  absorbBytes_spec (by omega) (by omega) (by omega) (by omega) (isTransform ok N)
    (fun _ _ _ hb hi => hi.step ok _ _ hb) ⟨_, _, rfl⟩ msg data s h hd

theorem init_ok (N : Nat) (hN : N = 256 ∨ N = 512) (s : Blk Model.Streebog.St) (hm : s.m.length = 64) (hs : s.h.hs = N) :
    ∃ s', Model.Streebog.init s = .ok s' ∧ Abs add N [] s' := by
  refine ⟨_, rfl, Buffered.start _ _ hm rfl rfl ?_⟩
  show (⟨_, _, s.h.hs⟩ : Model.Streebog.St) = _
  have e : ∀ b, loads64 8 (List.replicate 64 b) = colWords 8 (fun _ _ => b) := by
    intro b
    rw [loads64_mat]
    apply colWords_congr
    intro i hi j hj
    unfold matOf
    rw [List.getD_eq_getElem?_getD, List.getElem?_replicate, if_pos (by omega)]
    rfl
  have e2 : List.replicate 8 0 = colWords 8 (vec 0) := by decide
  rw [hs, e, e2]
  unfold st
  rcases hN with rfl | rfl
  · rw [if_neg (by decide), if_neg (by decide)]
  · rw [if_pos rfl, if_pos (by decide)]

/-- The blocks of a padded message. -/
theorem fold_eq (ok : AddOk add addN) (N : Nat) (A : Mat) (M : Bytes) (k : Nat) (hk : k * 64 ≤ M.length) :
    foldBlocks 64 (step add) M k (st N A 0)
      = st N (foldBlocks 64 (fun k b h => g (wrap64 (512 * k)) h (matOf b)) M k A) (foldBlocks 64 (fun _ b x => addN x (leNat b)) M k 0) := by
  induction k with
  | zero => simp only [foldBlocks, List.range_zero, List.foldl_nil]
  | succ k ih =>
    rw [foldBlocks_succ (step := step add), foldBlocks_succ (step := fun k b h => g (wrap64 (512 * k)) h (matOf b)),
      foldBlocks_succ (step := fun _ b x => addN x (leNat b)), ih (by omega),
      step_st ok N _ _ (length_blockAt _ _ _ hk), BitVec.toNat_ofNat, Nat.mul_comm k]
    rfl

theorem final_ok (ok : AddOk add addN) (N : Nat) (hN : N = 256 ∨ N = 512) (msg : Bytes) (s : Blk Model.Streebog.St)
    (h : Abs add N msg s) :
    Model.Streebog.final add s = .ok (hashGen wrap64 addN (N / 8) msg) := by
  obtain ⟨nb, hnb⟩ : ∃ nb, nb = msg.length / 64 := ⟨_, rfl⟩
  obtain ⟨p, hp⟩ : ∃ p, p = msg.length % 64 := ⟨_, rfl⟩
  have hp64 : p < 64 := by omega
  have hlen : msg.length = nb * 64 + p := by omega
  have hpos : s.pos = p := by
    have := h.pos
    omega
  have htot : s.total = BitVec.ofNat 64 (nb * 64 * 8) := by
    have := h.total
    rw [Nat.sub_zero, ← hnb] at this
    exact this
  have hpfx : msg.drop (nb * 64) <+: s.m := by
    have := h.pfx
    rwa [Nat.sub_zero, ← hnb] at this
  have hdl : (msg.drop (nb * 64)).length = p := by simp; omega
  have hml := h.mlen
  -- the padded block
  obtain ⟨m1, e1, p1, l1⟩ := setByte_pfx s.m _ s.pos 0x01 hpfx (by omega) (by omega)
  have hz : ∃ m2, zeroRest 64 m1 (s.pos + 1) = .ok m2 ∧ m2 = msg.drop (nb * 64) ++ [0x01] ++ List.replicate (64 - (p + 1)) 0 := by
    unfold zeroRest
    by_cases h64 : s.pos + 1 = 64
    · rw [if_neg (by omega)]
      refine ⟨m1, rfl, ?_⟩
      rw [show 64 - (p + 1) = 0 by omega, List.replicate_zero, List.append_nil]
      exact eq_of_pfx p1 (by rw [List.length_append, List.length_singleton]; omega)
    · rw [if_pos h64, szSub_eq _ _ (by omega) (by unfold szMod; omega)]
      obtain ⟨m2, e2, p2, l2⟩ := memset_pfx m1 _ (s.pos + 1) 0 (64 - (p + 1)) p1 (by simp; omega) (by simp; omega)
      rw [hpos] at e2 ⊢
      exact ⟨m2, e2, eq_of_pfx p2 (by simp; omega)⟩
  obtain ⟨m2, e2, hm2⟩ := hz
  have hm2l : m2.length = 64 := by rw [hm2]; simp; omega
  have hpad : pad msg = msg ++ ([0x01] ++ List.replicate (64 - (p + 1)) 0) := by
    unfold pad
    rw [toMultiple_lt 64 1 (p + 1) (by omega) (by omega) msg.length (by omega), List.append_assoc]
  have hpl : (pad msg).length = (nb + 1) * 64 := by rw [hpad]; simp; omega
  have hdiv : (pad msg).length / 64 = nb + 1 := by rw [hpl, Nat.mul_div_cancel _ (by decide)]
  obtain ⟨m', hm', ht⟩ := isTransform ok N { s with m := m2, pos := s.pos + 1 } m2 1 nb (by omega) hm2l (abs_in ok N msg s h) htot
  have hstate : foldBlocks 64 (fun j => step add (nb + j)) m2 1 s.h
      = st N (chain wrap64 (fun _ _ => if N / 8 = 64 then 0 else 1) msg) (sumWith addN msg (nb + 1)) := by
    rw [foldBlocks_one _ _ _ hm2l, Nat.add_zero]
    have hsh : s.h = foldBlocks 64 (step add) msg nb (st N (fun _ _ => if N / 8 = 64 then 0 else 1) 0) := by
      rw [h.h, Nat.sub_zero, hnb]
    have := foldBlocks_last1 (step := step add) 64 nb msg ([0x01] ++ List.replicate (64 - (p + 1)) 0)
      (st N (fun _ _ => if N / 8 = 64 then 0 else 1) 0) m2 (by omega) (by rw [hm2, List.append_assoc]) hm2l
    rw [hsh, ← this, ← hpad, fold_eq ok N _ (pad msg) (nb + 1) (by omega)]
    unfold chain sumWith
    rw [hdiv]
  rw [hstate] at ht
  unfold Model.Streebog.final
  rw [e1, ok_bind, e2, ok_bind, ht, ok_bind]
  -- the length block
  have htot' : s.total + BitVec.ofNat 64 ((s.pos + 1 - 1) * 8) = BitVec.ofNat 64 (8 * msg.length) := by
    rw [htot, ← BitVec.ofNat_add, Nat.add_sub_cancel, hpos, hlen]
    rw [show nb * 64 * 8 + p * 8 = 8 * (nb * 64 + p) by omega]
  dsimp only
  rw [htot']
  unfold Model.Streebog.finalTail
  dsimp only
  obtain ⟨m3, e3, p3, l3⟩ := memcpyTo_pfx m' [] (leBytes 8 (wrap64 (8 * msg.length))) 0 (List.nil_prefix) (Nat.le_refl _)
    (by rw [length_leBytes]; omega)
  rw [List.take_nil, List.nil_append] at p3
  obtain ⟨m4, e4, p4, l4⟩ := memset_pfx m3 _ 8 0 (64 - 8) p3 (length_leBytes _ _).symm (by rw [length_leBytes]; omega)
  have h4 : m4 = leBytes 64 (wrap64 (8 * msg.length)) := by
    have := leBytes_append 8 56 (wrap64 (8 * msg.length)) 0 (wrap64_lt _)
    rw [Nat.mul_zero, leBytes_zero] at this
    refine Eq.trans ?_ this
    exact eq_of_pfx p4 (by simp [length_leBytes]; omega)
  rw [bytes64_ofNat, ← leBytes8_wrap64, e3, ok_bind, e4, ok_bind, transform_last _ m4 (by rw [h4, length_leBytes]) N _ _ rfl, ok_bind]
  unfold st
  dsimp only
  rw [stores64_mat, matBytes_vec, transform_last _ _ (length_leBytes _ _) N _ _ rfl, ok_bind]
  unfold st hashGen
  dsimp only
  have hv : ∀ x, matOf (leBytes 64 x) = vec x := fun _ => rfl
  rw [stores64_mat, hdiv, h4, hv, hv]
  generalize g 0 _ _ = X
  have hX := length_matBytes 8 X
  rw [szSub_eq _ _ (by omega) (by decide), readBytes_ok _ _ _ (by omega), show 8 * (8 - N / 64) = 64 - N / 8 by omega,
    List.take_of_length_le (by rw [List.length_drop]; omega)]

theorem clear_ok (ok : AddOk add addN) (N : Nat) (hN : N = 256 ∨ N = 512) (msg : Bytes) (s : Blk Model.Streebog.St) (h : Abs add N msg s) :
    ∃ s1 s2, Model.Streebog.clear s = .ok s1 ∧ Model.Streebog.init s1 = .ok s2 ∧ Abs add N [] s2 := by
  obtain ⟨s2, e, r⟩ := init_ok (add := add) N hN { s with
      h := { s.h with h := List.replicate 8 0, S := List.replicate 8 0 }
      m := zeroBytes s.m } (by rw [zeroBytes]; simpa using h.mlen) (abs_hs ok N msg s h)
  exact ⟨_, s2, rfl, e, r⟩

theorem refines (ok : AddOk add addN) (N : Nat) (hN : N = 256 ∨ N = 512) :
    HashRefines (Model.Streebog.provider add) (plainFn (N / 8) (hashGen wrap64 addN (N / 8))) (Cover.all Empty) (fun _ => Abs add N) where
  init := fun _ msg s h => init_ok N hN s h.mlen (abs_hs ok N msg s h)
  update := fun _ msg s data h hd => update_ok ok N msg data s h hd
  final := fun _ msg s h _ => final_ok ok N hN msg s h
  clear := fun _ _ msg s h => clear_ok ok N hN msg s h
  size := fun _ msg s h => by
    show s.h.hs / 8 = _
    rw [abs_hs ok N msg s h]
    rfl
  size_pos := show 0 < N / 8 by omega
  digest_length := fun _ msg s h _ => by
    show ((matBytes _ _).drop _).length = N / 8
    rw [List.length_drop, length_matBytes]
    omega
  set := fun _ _ _ p => nomatch p

/-- Up to the length limit 64-bit counters make no difference. -/
theorem hashGen_eq (addN : Nat → Nat → Nat) (n : Nat) (msg : Bytes) (hl : msg.length < 2 ^ 61) :
    hashWith addN n msg = hashGen wrap64 addN n msg := by
  unfold hashWith hashGen chain
  dsimp only
  rw [wrap64_bits hl]
  have hpl : (pad msg).length / 64 = msg.length / 64 + 1 := by
    unfold pad toMultiple
    simp only [List.length_append, List.length_singleton, List.length_replicate]
    omega
  rw [foldBlocks_congr (step := fun k b h => g (512 * k) h (matOf b)) (step' := fun k b h => g (wrap64 (512 * k)) h (matOf b))]
  intro i hi b t
  rw [wrap64_small (show 512 * i < 2 ^ 64 by omega)]

end Digestpp.Proofs.Streebog
