import Verif.Proofs.KupynaTables
import Verif.Proofs.PadFinal
import Verif.Proofs.Api
import Verif.Proofs.Blake

/-! The Kupyna provider computes Kupyna. -/

namespace Digestpp.Proofs.Kupyna
open Model Spec Spec.Kupyna

theorem constP : ∀ j, j < 16 → ∀ r, r < 16 → (BitVec.ofNat 64 j <<< 4) ^^^ BitVec.ofNat 64 r
    = pack fun i => if i = 0 then BitVec.ofNat 8 (16 * j) ^^^ BitVec.ofNat 8 r else 0 := by decide +kernel

theorem constQ : ∀ j, j < 16 → ∀ r, r < 16 → ∀ R ∈ [8, 16], j < R →
    (0x00F0F0F0F0F0F0F3 ^^^ (BitVec.ofNat 64 (((R - 1 - j) * 0x10) ^^^ ((BitVec.ofNat 64 r).setWidth 8).toNat) <<< 56))
    = BitVec.ofNat 64 (leNat [0xF3, 0xF0, 0xF0, 0xF0, 0xF0, 0xF0, 0xF0, BitVec.ofNat 8 ((R - 1 - j) * 16) ^^^ BitVec.ofNat 8 r]) := by
  decide +kernel

/-- Addition to a column. -/
theorem pack_add (f : Nat → Byte) (k : Nat) :
    pack f + BitVec.ofNat 64 k = pack fun i => (leBytes 8 (leNat ((List.range 8).map f) + k)).getD i 0 := by
  apply pack_bytes64
  have e : (pack f).toNat = leNat ((List.range 8).map f) := by
    have := bytes64_eq (pack f)
    rw [bytes64_pack] at this
    rw [this, leNat_leBytes, Nat.mod_eq_of_lt (by rw [show (256 : Nat) ^ 8 = 2 ^ 64 by decide]; exact (pack f).isLt)]
  rw [bytes64_eq, BitVec.toNat_add, e, BitVec.toNat_ofNat, Nat.add_mod_mod, show (2 : Nat) ^ 64 = 256 ^ 8 by decide, leBytes_mod]

theorem kappa_eq (R : Nat) (hR : R ≤ 16) (A : Mat) (r : Nat) (hr : r < 16) :
    ((List.range R).map fun idx => (colWords R A).getD idx 0 ^^^ ((BitVec.ofNat 64 idx <<< 4) ^^^ BitVec.ofNat 64 r))
      = colWords R (kappa r A) := by
  apply List.map_congr_left
  intro j hj
  have hj := List.mem_range.mp hj
  rw [getD_colWords _ _ _ hj, constP j (by omega) r hr, pack_xor]
  apply pack_congr
  intro i _
  unfold kappa
  split
  · rfl
  · exact BitVec.xor_zero

theorem eta_eq (R : Nat) (hR : R = 8 ∨ R = 16) (A : Mat) (r : Nat) (hr : r < 16) :
    ((List.range R).map fun j => (colWords R A).getD j 0 +
      (0x00F0F0F0F0F0F0F3 ^^^ (BitVec.ofNat 64 (((R - 1 - j) * 0x10) ^^^ ((BitVec.ofNat 64 r).setWidth 8).toNat) <<< 56)))
      = colWords R (eta R r A) := by
  apply List.map_congr_left
  intro j hj
  have hj := List.mem_range.mp hj
  rw [getD_colWords _ _ _ hj, constQ j (by omega) r hr R (by simpa using hR) hj, pack_add]
  rfl

theorem G_eq (R : Nat) (hR : R = 8 ∨ R = 16) (A : Mat) :
    Model.Kupyna.G R (colWords R A) = colWords R (psi (tau R (sub A))) := by
  unfold Model.Kupyna.G
  apply List.map_congr_left
  intro j _
  have hm : ∀ x, x % R < R := fun x => Nat.mod_lt _ (by omega)
  simp only [getD_colWords _ _ _ (hm _)]
  rw [look_pack 0 (by omega), look_pack 1 (by omega), look_pack 2 (by omega), look_pack 3 (by omega), look_pack 4 (by omega),
    look_pack 5 (by omega), look_pack 6 (by omega), look_pack 7 (by omega)]
  have e := pack_xor8 fun k i => mul (sbox k (A k ((j + R - delta R k) % R))) (B i k)
  rcases hR with rfl | rfl <;> exact e

theorem roundP_eq (R : Nat) (hR : R = 8 ∨ R = 16) (A : Mat) (r : Nat) (hr : r < 16) :
    Model.Kupyna.roundP R (colWords R A) (BitVec.ofNat 64 r) = colWords R (psi (tau R (sub (kappa r A)))) := by
  unfold Model.Kupyna.roundP
  rw [kappa_eq R (by omega) A r hr, G_eq R hR]

theorem roundQ_eq (R : Nat) (hR : R = 8 ∨ R = 16) (A : Mat) (r : Nat) (hr : r < 16) :
    Model.Kupyna.roundQ R (colWords R A) (BitVec.ofNat 64 r) = colWords R (psi (tau R (sub (eta R r A)))) := by
  unfold Model.Kupyna.roundQ
  rw [eta_eq R hR A r hr, G_eq R hR]

theorem ofNat_succ (r : Nat) : BitVec.ofNat 64 r + 1 = BitVec.ofNat 64 (r + 1) :=
  (BitVec.ofNat_add r 1).symm

/-- Two rounds of `P`. -/
theorem twoP (R : Nat) (hR : R = 8 ∨ R = 16) (A : Mat) (k : Nat) (hk : k < 7) :
    Model.Kupyna.roundP R (Model.Kupyna.roundP R (colWords R A) (BitVec.ofNat 64 (2 * k))) (BitVec.ofNat 64 (2 * k) + 1)
      = colWords R (psi (tau R (sub (kappa (2 * k + 1)
          (psi (tau R (sub (kappa (2 * k) A)))))))) := by
  rw [ofNat_succ, roundP_eq R hR _ _ (by omega), roundP_eq R hR _ _ (by omega)]

/-- Two rounds of `Q`. -/
theorem twoQ (R : Nat) (hR : R = 8 ∨ R = 16) (A : Mat) (k : Nat) (hk : k < 7) :
    Model.Kupyna.roundQ R (Model.Kupyna.roundQ R (colWords R A) (BitVec.ofNat 64 (2 * k))) (BitVec.ofNat 64 (2 * k) + 1)
      = colWords R (psi (tau R (sub (eta R (2 * k + 1)
          (psi (tau R (sub (eta R (2 * k) A)))))))) := by
  rw [ofNat_succ, roundQ_eq R hR _ _ (by omega), roundQ_eq R hR _ _ (by omega)]

theorem iterations_le (R : Nat) : Model.Kupyna.iterations R ≤ 7 := by
  unfold Model.Kupyna.iterations
  split <;> decide

theorem rounds_eq (R : Nat) : rounds R = 2 * Model.Kupyna.iterations R := by
  unfold Model.Kupyna.iterations rounds
  split <;> rfl

theorem P_eq (R : Nat) (hR : R = 8 ∨ R = 16) (A : Mat) :
    (List.range (Model.Kupyna.iterations R)).foldl (fun t k =>
      Model.Kupyna.roundP R (Model.Kupyna.roundP R t (BitVec.ofNat 64 (2 * k))) (BitVec.ofNat 64 (2 * k) + 1)) (colWords R A)
      = colWords R (Tx R A) := by
  unfold Tx
  rw [rounds_eq, ← foldl_pairs]
  have hn := iterations_le R
  revert hn
  generalize Model.Kupyna.iterations R = n
  intro hn
  induction n with
  | zero => rfl
  | succ n ih =>
    rw [List.range_succ, List.foldl_append, List.foldl_append, ih (by omega)]
    exact twoP R hR _ n (by omega)

theorem roundsPQ_eq (R : Nat) (hR : R = 8 ∨ R = 16) (A B : Mat) :
    Model.Kupyna.roundsPQ R (colWords R A, colWords R B) = (colWords R (Tx R A), colWords R (Tp R B)) := by
  unfold Model.Kupyna.roundsPQ Tx Tp
  rw [rounds_eq, ← foldl_pairs, ← foldl_pairs]
  have hn := iterations_le R
  revert hn
  generalize Model.Kupyna.iterations R = n
  intro hn
  induction n with
  | zero => rfl
  | succ n ih =>
    rw [List.range_succ, List.foldl_append, List.foldl_append, List.foldl_append, ih (by omega)]
    exact Prod.ext (twoP R hR _ n (by omega)) (twoQ R hR _ n (by omega))

/-- The array `h`: the chaining value, and zeros. -/
def arr (R : Nat) (A : Mat) : List (BitVec 64) := colWords R A ++ List.replicate (16 - R) 0

theorem getD_arr (R : Nat) (A : Mat) (j : Nat) (h : j < R) : (arr R A).getD j 0 = pack fun i => A i j := by
  unfold arr
  rw [List.getD_eq_getElem?_getD, List.getElem?_append_left (by rw [length_colWords]; exact h), ← List.getD_eq_getElem?_getD,
    getD_colWords _ _ _ h]

theorem take_arr (R : Nat) (A : Mat) : (arr R A).take R = colWords R A := by
  unfold arr
  rw [List.take_append_of_le_length (by rw [length_colWords]; exact Nat.le_refl _), List.take_of_length_le (by rw [length_colWords]; exact Nat.le_refl _)]

theorem drop_arr (R : Nat) (A : Mat) : (arr R A).drop R = List.replicate (16 - R) 0 := by
  unfold arr
  exact List.drop_left' (length_colWords _ _)

theorem compress_eq (R : Nat) (hR : R = 8 ∨ R = 16) (A : Mat) (b : Bytes) :
    Model.Kupyna.compress R (arr R A) (loads64 R b) = arr R (f R A (matOf b)) := by
  unfold Model.Kupyna.compress
  rw [loads64_mat, drop_arr]
  have e1 : ((List.range R).map fun c => (arr R A).getD c 0 ^^^ (colWords R (matOf b)).getD c 0)
      = colWords R (matXor A (matOf b)) := by
    rw [← colWords_xor]
    apply List.map_congr_left
    intro j hj
    rw [getD_arr _ _ _ (List.mem_range.mp hj), getD_colWords _ A _ (List.mem_range.mp hj)]
  have e2 : ((List.range R).map fun c => (colWords R (matOf b)).getD c 0) = colWords R (matOf b) :=
    map_range_getD _ _ _ (length_colWords _ _)
  rw [e1, e2, roundsPQ_eq R hR]
  dsimp only
  unfold arr
  congr 1
  apply List.map_congr_left
  intro j hj
  have hj := List.mem_range.mp hj
  show (colWords R _).getD j 0 ^^^ (colWords R _).getD j 0 ^^^ _ = _
  rw [getD_colWords _ _ _ hj, getD_colWords _ _ _ hj]
  have := getD_arr R A j hj
  unfold arr at this
  rw [this, pack_xor, pack_xor]
  rfl

theorem output_eq (R : Nat) (hR : R = 8 ∨ R = 16) (A : Mat) :
    Model.Kupyna.outputTransform R (arr R A) = arr R (matXor (Tx R A) A) := by
  unfold Model.Kupyna.outputTransform
  rw [take_arr, drop_arr]
  dsimp only
  rw [P_eq R hR]
  unfold arr
  congr 1
  apply List.map_congr_left
  intro j hj
  have hj := List.mem_range.mp hj
  have := getD_arr R A j hj
  unfold arr at this
  rw [getD_colWords _ _ _ hj, this, pack_xor]
  apply pack_congr
  intro i _
  exact BitVec.xor_comm _ _

/-- The state of the provider for digest size `N`, from the chaining value. -/
def st (N : Nat) (A : Mat) : Model.Kupyna.St := ⟨arr (Model.Kupyna.cols N) A, N⟩

theorem cols_or (N : Nat) : Model.Kupyna.cols N = 8 ∨ Model.Kupyna.cols N = 16 := by
  unfold Model.Kupyna.cols; split <;> simp

theorem blockBytes_eq (N : Nat) : Model.Kupyna.blockBytes N = 8 * Model.Kupyna.cols N := by
  unfold Model.Kupyna.blockBytes Model.Kupyna.cols; split <;> rfl

/-- The block function. -/
def step (b : Bytes) (h : Model.Kupyna.St) : Model.Kupyna.St :=
  { h with h := Model.Kupyna.compress (Model.Kupyna.cols h.hs) h.h (loads64 (Model.Kupyna.cols h.hs) b) }

theorem step_st (N : Nat) (A : Mat) (b : Bytes) :
    step b (st N A) = st N (f (Model.Kupyna.cols N) A (matOf b)) := by
  unfold step st
  dsimp only
  rw [compress_eq _ (cols_or N)]

theorem isCompress (N : Nat) : IsCompress (Model.Kupyna.blockBytes N) (fun h => ∃ A, h = st N A) step Model.Kupyna.transform := by
  refine ⟨?_, ?_⟩
  · rintro b h hb ⟨A, rfl⟩
    exact ⟨_, step_st N A b⟩
  · rintro ⟨h, m, pos, total⟩ data n hn ⟨A, rfl⟩
    unfold Model.Kupyna.transform
    dsimp only
    have : (st N A).hs = N := rfl
    rw [this, forBlocks_ok (step := fun _ b h => pure { h with h := Model.Kupyna.compress (Model.Kupyna.cols h.hs) h.h (loads64 (Model.Kupyna.cols h.hs) b) })
      (g := fun _ b h => step b h) (inv := fun h => ∃ A, h = st N A) ?_ data n (st N A) hn ⟨A, rfl⟩]
    · rfl
    · rintro i b _ hb ⟨A, rfl⟩
      exact ⟨rfl, _, step_st N A b⟩

/-- `s` has absorbed `msg`. -/
def Abs (N : Nat) (msg : Bytes) (s : Blk Model.Kupyna.St) : Prop :=
  Buffered (Model.Kupyna.blockBytes N) 0 128 (fun _ b h => step b h) (st N (iv (Model.Kupyna.cols N))) msg s

theorem abs_in (N : Nat) (msg : Bytes) (s : Blk Model.Kupyna.St) (h : Abs N msg s) : ∃ A, s.h = st N A := by
  rw [h.h]
  exact foldBlocks_inv (fun _ b h hb hi => (isCompress N).1 b h hb hi) _ _ _ (by
    have := Nat.div_mul_le_self (msg.length - 0) (Model.Kupyna.blockBytes N); omega) ⟨_, rfl⟩

theorem abs_hs (N : Nat) (msg : Bytes) (s : Blk Model.Kupyna.St) (h : Abs N msg s) : s.h.hs = N := by
  obtain ⟨A, e⟩ := abs_in N msg s h
  rw [e]; rfl

theorem update_ok (N : Nat) (msg data : Bytes) (s : Blk Model.Kupyna.St) (h : Abs N msg s) (hd : data.length < 2 ^ 63) :
    ∃ s', Model.Kupyna.update data s = .ok s' ∧ Abs N (msg ++ data) s' := by
  have := cols_or N
  have hb := blockBytes_eq N
  unfold Model.Kupyna.update
  rw [abs_hs N msg s h]
  exact absorbBytes_spec (by omega) (by omega) (by omega) (by omega) (isCompress N).isTransform
    (fun _ b h hb hi => (isCompress N).1 b h hb hi) ⟨_, rfl⟩ msg data s h hd

theorem init_arr (N : Nat) :
    (List.replicate 16 (0 : BitVec 64)).set 0 (BitVec.ofNat 64 (Model.Kupyna.blockBytes N))
      = arr (Model.Kupyna.cols N) (iv (Model.Kupyna.cols N)) := by
  rw [blockBytes_eq]
  rcases cols_or N with e | e <;> (rw [e]; decide)

theorem init_ok (N : Nat) (s : Blk Model.Kupyna.St) (hm : s.m.length = 128) (hs : s.h.hs = N) :
    ∃ s', Model.Kupyna.init s = .ok s' ∧ Abs N [] s' := by
  refine ⟨_, rfl, Buffered.start _ _ hm rfl rfl ?_⟩
  show (⟨_, s.h.hs⟩ : Model.Kupyna.St) = _
  rw [hs, init_arr N]
  rfl

theorem tail_ok (N x : Nat) (q : Bytes) (s1 : Blk Model.Kupyna.St) (hq : q <+: s1.m) (hm : s1.m.length = 128)
    (hp : s1.pos = q.length) (hi : ∃ A, s1.h = st N A) (hl : q.length + 12 ≤ Model.Kupyna.blockBytes N)
    (ht : s1.total = BitVec.ofNat 64 x) (hx : x < 2 ^ 64) :
    ∃ s', Model.Kupyna.finalTail s1 = .ok s' ∧
      s'.h = step (q ++ List.replicate (Model.Kupyna.blockBytes N - 12 - q.length) 0 ++ leBytes 12 x) s1.h ∧
      s'.m.length = 128 := by
  have hhs : s1.h.hs = N := by obtain ⟨A, e⟩ := hi; rw [e]; rfl
  have hb1 := blockBytes_eq N
  have hb2 := cols_or N
  obtain ⟨bs, hbs⟩ : ∃ bs, bs = Model.Kupyna.blockBytes N := ⟨_, rfl⟩
  rw [← hbs] at hl hb1 ⊢
  obtain ⟨m2, e2, p2, l2⟩ := memset_pfx s1.m q s1.pos 0 (bs - q.length) hq hp (by omega)
  obtain ⟨m3, e3, p3, l3⟩ := memcpyTo_pfx m2 _ (leBytes 8 x) (bs - 12) p2 (by simp; omega) (by rw [length_leBytes]; omega)
  obtain ⟨m4, e4, p4, l4⟩ := memset_pfx m3 _ (bs - 4) 0 4 p3 (by simp [length_leBytes]; omega) (by simp [length_leBytes]; omega)
  have e5 : (q ++ List.replicate (bs - q.length) 0).take (bs - 12) ++ leBytes 8 x ++ List.replicate 4 0
      = q ++ List.replicate (bs - 12 - q.length) 0 ++ leBytes 12 x := by
    have := leBytes_append 8 4 x 0 (by rw [show (256 : Nat) ^ 8 = 2 ^ 64 by decide]; exact hx)
    rw [Nat.mul_zero, Nat.add_zero, leBytes_zero] at this
    rw [List.append_assoc _ (leBytes 8 x), this, List.take_append, List.take_of_length_le (by omega), List.take_replicate,
      Nat.min_eq_left (by omega)]
    rfl
  rw [e5] at p4
  refine ⟨{ s1 with
      h := step (q ++ List.replicate (bs - 12 - q.length) 0 ++ leBytes 12 x) s1.h
      m := m4 }, ?_, ?_, ?_⟩
  · unfold Model.Kupyna.finalTail
    dsimp only
    rw [hhs, ← hbs, ht, bytes64_ofNat, szSub_eq _ _ (by omega) (by unfold szMod; omega)]
    rw [show bs - s1.pos = bs - q.length by omega, e2, ok_bind, e3, ok_bind, e4, ok_bind, ← ht]
    exact (hbs ▸ isCompress N).first { s1 with m := m4 } m4 _ p4 (by simp [length_leBytes]; omega) hi
  · rfl
  · show m4.length = _
    omega

theorem finalPad_ok (N : Nat) (msg : Bytes) (s : Blk Model.Kupyna.St) (h : Abs N msg s) :
    ∃ s', Model.Kupyna.finalPad s = .ok s' ∧ s'.h = st N (foldBlocks (8 * Model.Kupyna.cols N)
      (fun _ b h => f (Model.Kupyna.cols N) h (matOf b)) (pad wrap64 (Model.Kupyna.cols N) msg)
      ((pad wrap64 (Model.Kupyna.cols N) msg).length / (8 * Model.Kupyna.cols N)) (iv (Model.Kupyna.cols N))) := by
  have hb1 := blockBytes_eq N
  have hb2 := cols_or N
  have hhs := abs_hs N msg s h
  obtain ⟨bs, hbs⟩ : ∃ bs, bs = Model.Kupyna.blockBytes N := ⟨_, rfl⟩
  have hmod := Nat.mod_lt msg.length (show bs > 0 by omega)
  obtain ⟨p, hpd⟩ : ∃ p, p = msg.length % bs := ⟨_, rfl⟩
  obtain ⟨nb, hnbd⟩ : ∃ nb, nb = msg.length / bs := ⟨_, rfl⟩
  have hlen : msg.length = nb * bs + p := by rw [hpd, hnbd, Nat.mul_comm]; exact (Nat.div_add_mod _ _).symm
  have hpos : s.pos = p := by
    rw [h.pos, Nat.sub_zero, ← hbs, mod_eq_sub_div, hpd]
  have htot : s.total + BitVec.ofNat 64 (s.pos * 8) = BitVec.ofNat 64 (8 * msg.length) := by
    rw [h.total, ← BitVec.ofNat_add, Nat.sub_zero, ← hbs, ← hnbd, hpos, hlen]
    rw [show nb * bs * 8 + p * 8 = 8 * (nb * bs + p) by omega]
  have e : Model.Kupyna.finalPad s = spillPad bs (bs - 12) Model.Kupyna.transform (BitVec.ofNat 64 (8 * msg.length))
      (fun t => t) Model.Kupyna.finalTail s := by
    unfold Model.Kupyna.finalPad spillPad
    rw [hhs, ← hbs]
    dsimp only
    rw [htot]
  rw [e]
  have hs := spillPad_spec (t2 := fun t => t) (tail := Model.Kupyna.finalTail)
    (limit := bs - 12) (lf := 12) (t1 := BitVec.ofNat 64 (8 * msg.length))
    (hbs ▸ isCompress N) (by omega) rfl (by omega) (show bs ≤ 128 by omega)
    (leBytes 12 (wrap64 (8 * msg.length))) (length_leBytes _ _) msg s (by rw [hbs]; exact h) ⟨_, rfl⟩ (by
      intro q s1 hq hm hp hi hc
      have := tail_ok N (wrap64 (8 * msg.length)) q s1 hq hm hp hi (by omega)
        (by rw [ofNat_wrap64]; rcases hc with ⟨_, _, ht⟩ | ⟨_, _, ht⟩ <;> exact ht) (wrap64_lt _)
      rw [← hbs] at this
      exact this)
  obtain ⟨s', e', h', _⟩ := hs
  refine ⟨s', e', ?_⟩
  rw [h']
  have hpe : pad wrap64 (Model.Kupyna.cols N) msg = mdPad bs (leBytes 12 (wrap64 (8 * msg.length))) msg := by
    unfold pad
    rw [← hb1, hbs]
  rw [hpe, ← hb1, ← hbs]
  exact foldBlocks_conj (st N) (fun _ b A => step_st N A b) _ _ _ _

theorem final_ok (N : Nat) (hN' : N ≤ 512) (msg : Bytes) (s : Blk Model.Kupyna.St) (h : Abs N msg s) :
    Model.Kupyna.final s = .ok (Spec.Kupyna.hashWith wrap64 (Model.Kupyna.cols N) (N / 8) msg) := by
  have hb1 := blockBytes_eq N
  have hb2 := cols_or N
  have hc : Model.Kupyna.cols N = if N > 256 then 16 else 8 := rfl
  obtain ⟨s', e, h'⟩ := finalPad_ok N msg s h
  unfold Model.Kupyna.final
  rw [e, ok_bind, h']
  unfold Spec.Kupyna.hashWith
  show readBytes (stores64 (Model.Kupyna.outputTransform (Model.Kupyna.cols N) (arr _ _))) (szSub (Model.Kupyna.blockBytes N) (N / 8)) (N / 8) = _
  have hle : N / 8 ≤ 8 * Model.Kupyna.cols N := by rw [hc]; split <;> omega
  rw [output_eq _ (cols_or N), hb1, szSub_eq _ _ hle (by unfold szMod; omega)]
  unfold arr
  dsimp only
  generalize matXor (Tx (Model.Kupyna.cols N) _) _ = X
  have e3 : stores64 (colWords (Model.Kupyna.cols N) X ++ List.replicate (16 - Model.Kupyna.cols N) 0)
      = matBytes (Model.Kupyna.cols N) X ++ stores64 (List.replicate (16 - Model.Kupyna.cols N) 0) := by
    rw [← stores64_mat]
    simp only [stores64, List.flatMap_append]
  have hml := length_matBytes (Model.Kupyna.cols N) X
  rw [e3, readBytes_ok _ _ _ (by rw [List.length_append]; omega), List.drop_append_of_le_length (by omega),
    List.take_append_of_le_length (by rw [List.length_drop]; omega), List.take_of_length_le (by rw [List.length_drop]; omega)]

theorem clear_ok (N : Nat) (msg : Bytes) (s : Blk Model.Kupyna.St) (h : Abs N msg s) :
    ∃ s1 s2, Model.Kupyna.clear s = .ok s1 ∧ Model.Kupyna.init s1 = .ok s2 ∧ Abs N [] s2 := by
  obtain ⟨s2, e, r⟩ := init_ok N { s with
      h := { s.h with h := List.replicate 16 0 }
      m := zeroBytes s.m } (by rw [zeroBytes]; simpa using h.mlen) (abs_hs N msg s h)
  exact ⟨_, s2, rfl, e, r⟩

theorem refines (N : Nat) (h0 : 0 < N) (h8 : N % 8 = 0) (hN : N ≤ 512) :
    HashRefines Model.Kupyna.provider (kupynaWrap (N / 8)) (Cover.all Empty) (fun _ => Abs N) where
  init := fun _ msg s h => init_ok N s h.mlen (abs_hs N msg s h)
  update := fun _ msg s data h hd => update_ok N msg data s h hd
  final := fun _ msg s h _ => by
    have := final_ok N hN msg s h
    have hc : Model.Kupyna.cols N = if N / 8 ≤ 32 then 8 else 16 := by
      unfold Model.Kupyna.cols
      split <;> split <;> omega
    rw [hc] at this
    exact this
  clear := fun _ _ msg s h => clear_ok N msg s h
  size := fun _ msg s h => by
    show s.h.hs / 8 = _
    rw [abs_hs N msg s h]
    rfl
  size_pos := show 0 < N / 8 by omega
  digest_length := fun _ msg s h _ => by
    show ((matBytes _ _).drop _).length = N / 8
    rw [List.length_drop, length_matBytes]
    split <;> omega
  set := fun _ _ _ p => nomatch p

end Digestpp.Proofs.Kupyna
