import Verif.Proofs.GroestlTables
import Verif.Proofs.PadFinal
import Verif.Proofs.Api
import Verif.Proofs.Blake

/-! The Grøstl provider computes Grøstl. -/

namespace Digestpp.Proofs.Groestl
open Model Spec Spec.Groestl

theorem constP : ∀ j, j < 16 → ∀ r, r < 16 → (BitVec.ofNat 64 j <<< 4) ^^^ BitVec.ofNat 64 r
    = pack fun i => if i = 0 then BitVec.ofNat 8 (16 * j) ^^^ BitVec.ofNat 8 r else 0 := by decide +kernel

theorem constQ : ∀ j, j < 16 → ∀ r, r < 16 → (0xffffffffffffffff - (BitVec.ofNat 64 j <<< 60)) ^^^ (BitVec.ofNat 64 r <<< 56)
    = pack fun i => if i = 7 then 0xff ^^^ BitVec.ofNat 8 (16 * j) ^^^ BitVec.ofNat 8 r else 0xff := by decide +kernel

theorem addP_eq (R : Nat) (hR : R ≤ 16) (A : Mat) (r : Nat) (hr : r < 16) :
    ((List.range R).map fun idx => (colWords R A).getD idx 0 ^^^ ((BitVec.ofNat 64 idx <<< 4) ^^^ BitVec.ofNat 64 r))
      = colWords R (addP r A) := by
  apply List.map_congr_left
  intro j hj
  have hj := List.mem_range.mp hj
  rw [getD_colWords _ _ _ hj, constP j (by omega) r hr, pack_xor]
  apply pack_congr
  intro i _
  unfold addP
  split
  · rfl
  · exact BitVec.xor_zero

theorem addQ_eq (R : Nat) (hR : R ≤ 16) (A : Mat) (r : Nat) (hr : r < 16) :
    ((List.range R).map fun idx => (colWords R A).getD idx 0 ^^^
      ((0xffffffffffffffff - (BitVec.ofNat 64 idx <<< 60)) ^^^ (BitVec.ofNat 64 r <<< 56)))
      = colWords R (addQ r A) := by
  apply List.map_congr_left
  intro j hj
  have hj := List.mem_range.mp hj
  rw [getD_colWords _ _ _ hj, constQ j (by omega) r hr, pack_xor]
  rfl

theorem lookups_eq (R : Nat) (h0 : 0 < R) (s : Nat → Nat) (A : Mat) :
    Model.Groestl.lookups R (s 0) (s 1) (s 2) (s 3) (s 4) (s 5) (s 6) (s 7) (colWords R A)
      = colWords R (mixBytes (shiftBytes R s (subBytes A))) := by
  unfold Model.Groestl.lookups
  apply List.map_congr_left
  intro j _
  have hm : ∀ x, (j + x) % R < R := fun x => Nat.mod_lt _ h0
  simp only [getD_colWords _ _ _ (hm _)]
  rw [look_pack 0 (by omega), look_pack 1 (by omega), look_pack 2 (by omega), look_pack 3 (by omega), look_pack 4 (by omega),
    look_pack 5 (by omega), look_pack 6 (by omega), look_pack 7 (by omega)]
  exact pack_xor8 fun k i => aesMul (aesSbox (A k ((j + s k) % R))) (B i k)

theorem roundP_eq (R : Nat) (hR : R = 8 ∨ R = 16) (A : Mat) (r : Nat) (hr : r < 16) :
    Model.Groestl.roundP R (colWords R A) (BitVec.ofNat 64 r)
      = colWords R (mixBytes (shiftBytes R (sigmaP R) (subBytes (addP r A)))) := by
  unfold Model.Groestl.roundP
  rw [addP_eq R (by omega) A r hr, ← lookups_eq R (by omega)]
  rcases hR with rfl | rfl <;> rfl

theorem roundQ_eq (R : Nat) (hR : R = 8 ∨ R = 16) (A : Mat) (r : Nat) (hr : r < 16) :
    Model.Groestl.roundQ R (colWords R A) (BitVec.ofNat 64 r <<< 56)
      = colWords R (mixBytes (shiftBytes R (sigmaQ R) (subBytes (addQ r A)))) := by
  unfold Model.Groestl.roundQ
  rw [addQ_eq R (by omega) A r hr, ← lookups_eq R (by omega)]
  rcases hR with rfl | rfl <;> rfl

theorem ofNat_succ (r : Nat) : BitVec.ofNat 64 r + 1 = BitVec.ofNat 64 (r + 1) :=
  (BitVec.ofNat_add r 1).symm

/-- Two rounds of `P`. -/
theorem twoP (R : Nat) (hR : R = 8 ∨ R = 16) (A : Mat) (k : Nat) (hk : k < 7) :
    Model.Groestl.roundP R (Model.Groestl.roundP R (colWords R A) (BitVec.ofNat 64 (2 * k))) (BitVec.ofNat 64 (2 * k) + 1)
      = colWords R (mixBytes (shiftBytes R (sigmaP R) (subBytes (addP (2 * k + 1)
          (mixBytes (shiftBytes R (sigmaP R) (subBytes (addP (2 * k) A)))))))) := by
  rw [ofNat_succ, roundP_eq R hR _ _ (by omega), roundP_eq R hR _ _ (by omega)]

/-- Two rounds of `Q`. -/
theorem twoQ (R : Nat) (hR : R = 8 ∨ R = 16) (A : Mat) (k : Nat) (hk : k < 7) :
    Model.Groestl.roundQ R (Model.Groestl.roundQ R (colWords R A) (BitVec.ofNat 64 (2 * k) <<< 56)) ((BitVec.ofNat 64 (2 * k) + 1) <<< 56)
      = colWords R (mixBytes (shiftBytes R (sigmaQ R) (subBytes (addQ (2 * k + 1)
          (mixBytes (shiftBytes R (sigmaQ R) (subBytes (addQ (2 * k) A)))))))) := by
  rw [ofNat_succ, roundQ_eq R hR _ _ (by omega), roundQ_eq R hR _ _ (by omega)]

theorem iterations_le (R : Nat) : Model.Groestl.iterations R ≤ 7 := by
  unfold Model.Groestl.iterations
  split <;> decide

theorem rounds_eq (R : Nat) : rounds R = 2 * Model.Groestl.iterations R := by
  unfold Model.Groestl.iterations rounds
  split <;> rfl

theorem P_eq (R : Nat) (hR : R = 8 ∨ R = 16) (A : Mat) :
    (List.range (Model.Groestl.iterations R)).foldl (fun t k =>
      Model.Groestl.roundP R (Model.Groestl.roundP R t (BitVec.ofNat 64 (2 * k))) (BitVec.ofNat 64 (2 * k) + 1)) (colWords R A)
      = colWords R (P R A) := by
  unfold P
  rw [rounds_eq, ← foldl_pairs]
  have hn := iterations_le R
  revert hn
  generalize Model.Groestl.iterations R = n
  intro hn
  induction n with
  | zero => rfl
  | succ n ih =>
    rw [List.range_succ, List.foldl_append, List.foldl_append, ih (by omega)]
    exact twoP R hR _ n (by omega)

theorem roundsPQ_eq (R : Nat) (hR : R = 8 ∨ R = 16) (A B : Mat) :
    Model.Groestl.roundsPQ R (colWords R A, colWords R B) = (colWords R (P R A), colWords R (Q R B)) := by
  unfold Model.Groestl.roundsPQ P Q
  rw [rounds_eq, ← foldl_pairs, ← foldl_pairs]
  have hn := iterations_le R
  revert hn
  generalize Model.Groestl.iterations R = n
  intro hn
  induction n with
  | zero => rfl
  | succ n ih =>
    rw [List.range_succ, List.foldl_append, List.foldl_append, List.foldl_append, ih (by omega)]
    exact Prod.ext (twoP R hR _ n (by omega)) (twoQ R hR _ n (by omega))

/-- The array `h`: the chaining value, and zeros. -/
def arr (R : Nat) (A : Mat) : List (BitVec 64) := colWords R A ++ List.replicate (16 - R) 0

theorem getD_arr (R : Nat) (A : Mat) (j : Nat) (h : j < R) : (arr R A).getD j 0 = pack fun i => A i j := by
  unfold arr
  rw [List.getD_eq_getElem?_getD, List.getElem?_append_left (by rw [length_colWords]; exact h), ← List.getD_eq_getElem?_getD,
    getD_colWords _ _ _ h]

theorem take_arr (R : Nat) (A : Mat) : (arr R A).take R = colWords R A := by
  unfold arr
  rw [List.take_append_of_le_length (by rw [length_colWords]; exact Nat.le_refl _), List.take_of_length_le (by rw [length_colWords]; exact Nat.le_refl _)]

theorem drop_arr (R : Nat) (A : Mat) : (arr R A).drop R = List.replicate (16 - R) 0 := by
  unfold arr
  exact List.drop_left' (length_colWords _ _)

theorem compress_eq (R : Nat) (hR : R = 8 ∨ R = 16) (A : Mat) (b : Bytes) :
    Model.Groestl.compress R (arr R A) (loads64 R b) = arr R (f R A (matOf b)) := by
  unfold Model.Groestl.compress
  rw [loads64_mat, drop_arr]
  have e1 : ((List.range R).map fun c => (arr R A).getD c 0 ^^^ (colWords R (matOf b)).getD c 0)
      = colWords R (matXor A (matOf b)) := by
    rw [← colWords_xor]
    apply List.map_congr_left
    intro j hj
    rw [getD_arr _ _ _ (List.mem_range.mp hj), getD_colWords _ A _ (List.mem_range.mp hj)]
  have e2 : ((List.range R).map fun c => (colWords R (matOf b)).getD c 0) = colWords R (matOf b) :=
    map_range_getD _ _ _ (length_colWords _ _)
  rw [e1, e2, roundsPQ_eq R hR]
  dsimp only
  unfold arr
  congr 1
  apply List.map_congr_left
  intro j hj
  have hj := List.mem_range.mp hj
  show (colWords R _).getD j 0 ^^^ (colWords R _).getD j 0 ^^^ _ = _
  rw [getD_colWords _ _ _ hj, getD_colWords _ _ _ hj]
  have := getD_arr R A j hj
  unfold arr at this
  rw [this, pack_xor, pack_xor]
  rfl

theorem output_eq (R : Nat) (hR : R = 8 ∨ R = 16) (A : Mat) :
    Model.Groestl.outputTransform R (arr R A) = arr R (matXor (P R A) A) := by
  unfold Model.Groestl.outputTransform
  rw [take_arr, drop_arr]
  dsimp only
  rw [P_eq R hR]
  unfold arr
  congr 1
  apply List.map_congr_left
  intro j hj
  have hj := List.mem_range.mp hj
  have := getD_arr R A j hj
  unfold arr at this
  rw [getD_colWords _ _ _ hj, this, pack_xor]
  apply pack_congr
  intro i _
  exact BitVec.xor_comm _ _

/-- The state of the provider for digest size `N`, from the chaining value. -/
def st (N : Nat) (A : Mat) : Model.Groestl.St := ⟨arr (Model.Groestl.cols N) A, N⟩

theorem cols_or (N : Nat) : Model.Groestl.cols N = 8 ∨ Model.Groestl.cols N = 16 := by
  unfold Model.Groestl.cols; split <;> simp

theorem blockBytes_eq (N : Nat) : Model.Groestl.blockBytes N = 8 * Model.Groestl.cols N := by
  unfold Model.Groestl.blockBytes Model.Groestl.cols; split <;> rfl

/-- The block function. -/
def step (b : Bytes) (h : Model.Groestl.St) : Model.Groestl.St :=
  { h with h := Model.Groestl.compress (Model.Groestl.cols h.hs) h.h (loads64 (Model.Groestl.cols h.hs) b) }

theorem step_st (N : Nat) (A : Mat) (b : Bytes) :
    step b (st N A) = st N (f (Model.Groestl.cols N) A (matOf b)) := by
  unfold step st
  dsimp only
  rw [compress_eq _ (cols_or N)]

theorem isCompress (N : Nat) : IsCompress (Model.Groestl.blockBytes N) (fun h => ∃ A, h = st N A) step Model.Groestl.transform := by
  refine ⟨?_, ?_⟩
  · rintro b h hb ⟨A, rfl⟩
    exact ⟨_, step_st N A b⟩
  · rintro ⟨h, m, pos, total⟩ data n hn ⟨A, rfl⟩
    unfold Model.Groestl.transform
    dsimp only
    have : (st N A).hs = N := rfl
    rw [this, forBlocks_ok (step := fun _ b h => pure { h with h := Model.Groestl.compress (Model.Groestl.cols h.hs) h.h (loads64 (Model.Groestl.cols h.hs) b) })
      (g := fun _ b h => step b h) (inv := fun h => ∃ A, h = st N A) ?_ data n (st N A) hn ⟨A, rfl⟩]
    · rfl
    · rintro i b _ hb ⟨A, rfl⟩
      exact ⟨rfl, _, step_st N A b⟩

/-- The initial value. -/
def iv (N : Nat) : Mat := matOf (beBytes (8 * Model.Groestl.cols N) N)

/-- `s` has absorbed `msg`. -/
def Abs (N : Nat) (msg : Bytes) (s : Blk Model.Groestl.St) : Prop :=
  Buffered (Model.Groestl.blockBytes N) 0 128 (fun _ b h => step b h) (st N (iv N)) msg s

theorem abs_in (N : Nat) (msg : Bytes) (s : Blk Model.Groestl.St) (h : Abs N msg s) : ∃ A, s.h = st N A := by
  rw [h.h]
  exact foldBlocks_inv (fun _ b h hb hi => (isCompress N).1 b h hb hi) _ _ _ (by
    have := Nat.div_mul_le_self (msg.length - 0) (Model.Groestl.blockBytes N); omega) ⟨_, rfl⟩

theorem abs_hs (N : Nat) (msg : Bytes) (s : Blk Model.Groestl.St) (h : Abs N msg s) : s.h.hs = N := by
  obtain ⟨A, e⟩ := abs_in N msg s h
  rw [e]; rfl

theorem update_ok (N : Nat) (msg data : Bytes) (s : Blk Model.Groestl.St) (h : Abs N msg s) (hd : data.length < 2 ^ 63) :
    ∃ s', Model.Groestl.update data s = .ok s' ∧ Abs N (msg ++ data) s' := by
  have := cols_or N
  have hb := blockBytes_eq N
  unfold Model.Groestl.update
  rw [abs_hs N msg s h]
  exact absorbBytes_spec (by omega) (by omega) (by omega) (by omega) (isCompress N).isTransform
    (fun _ b h hb hi => (isCompress N).1 b h hb hi) ⟨_, rfl⟩ msg data s h hd

theorem init_arr (N : Nat) (h : N ≤ 512) :
    (List.replicate 16 (0 : BitVec 64)).set (if N > 256 then 15 else 7) (byteswap64 (BitVec.ofNat 64 N))
      = arr (Model.Groestl.cols N) (iv N) := by
  unfold arr iv Model.Groestl.cols
  generalize hx : byteswap64 (BitVec.ofNat 64 N) = x
  split
  · rw [colWords_be 15 N (by omega), hx]
    rfl
  · rw [colWords_be 7 N (by omega), hx]
    rfl

theorem init_ok (N : Nat) (h : N ≤ 512) (s : Blk Model.Groestl.St) (hm : s.m.length = 128) (hs : s.h.hs = N) :
    ∃ s', Model.Groestl.init s = .ok s' ∧ Abs N [] s' := by
  refine ⟨_, rfl, Buffered.start _ _ hm rfl rfl ?_⟩
  show (⟨_, s.h.hs⟩ : Model.Groestl.St) = _
  rw [hs, init_arr N h]
  rfl

/-- The number of blocks as the code computes it. -/
theorem div_blocks (bs k : Nat) (h : bs ≤ 128) :
    BitVec.ofNat 64 (k * bs * 8) / 8 / BitVec.ofNat 64 bs = BitVec.ofNat 64 (wrap64 (8 * bs * k) / (8 * bs)) := by
  have hw : wrap64 (8 * bs * k) / (8 * bs) < 2 ^ 64 := Nat.lt_of_le_of_lt (Nat.div_le_self _ _) (wrap64_lt _)
  apply BitVec.eq_of_toNat_eq
  rw [BitVec.toNat_udiv, BitVec.toNat_udiv, BitVec.toNat_ofNat, BitVec.toNat_ofNat, BitVec.toNat_ofNat, Nat.mod_eq_of_lt hw,
    Nat.mod_eq_of_lt (show bs < 2 ^ 64 by omega), show k * bs * 8 = 8 * bs * k by ac_rfl]
  exact Nat.div_div_eq_div_mul _ _ _

theorem tail_ok (N : Nat) (q : Bytes) (s1 : Blk Model.Groestl.St) (k : Nat) (hq : q <+: s1.m) (hm : s1.m.length = 128)
    (hp : s1.pos = q.length) (hi : ∃ A, s1.h = st N A) (hl : q.length + 8 ≤ Model.Groestl.blockBytes N)
    (ht : s1.total = BitVec.ofNat 64 (8 * (k * Model.Groestl.blockBytes N + q.length))) :
    ∃ s', Model.Groestl.finalTail s1 = .ok s' ∧
      s'.h = step (q ++ List.replicate (Model.Groestl.blockBytes N - 8 - q.length) 0 ++ beBytes 8 (wrap64 (8 * Model.Groestl.blockBytes N * (k + 1)) / (8 * Model.Groestl.blockBytes N))) s1.h ∧
      s'.m.length = 128 := by
  have hhs : s1.h.hs = N := by obtain ⟨A, e⟩ := hi; rw [e]; rfl
  have hb1 := blockBytes_eq N
  have hb2 := cols_or N
  obtain ⟨bs, hbs⟩ : ∃ bs, bs = Model.Groestl.blockBytes N := ⟨_, rfl⟩
  rw [← hbs] at hl ht hb1 ⊢
  obtain ⟨w, hw⟩ : ∃ w, w = wrap64 (8 * bs * (k + 1)) / (8 * bs) := ⟨_, rfl⟩
  rw [← hw]
  obtain ⟨m2, e2, p2, l2⟩ := memset_pfx s1.m q s1.pos 0 (bs - 8 - q.length) hq hp (by omega)
  obtain ⟨m3, e3, p3, l3⟩ := memcpyTo_pfx m2 _ (beBytes 8 w) (bs - 8) p2 (by simp; omega) (by rw [length_beBytes]; omega)
  rw [List.take_of_length_le (by simp; omega)] at p3
  have htot : s1.total + BitVec.ofNat 64 ((bs - s1.pos) * 8) = BitVec.ofNat 64 ((k + 1) * bs * 8) := by
    rw [ht, ← BitVec.ofNat_add, hp]
    rw [show 8 * (k * bs + q.length) + (bs - q.length) * 8 = (k + 1) * bs * 8 by rw [Nat.add_mul, Nat.one_mul]; omega]
  refine ⟨{ s1 with
      h := step (q ++ List.replicate (bs - 8 - q.length) 0 ++ beBytes 8 w) s1.h
      m := m3
      pos := q.length
      total := BitVec.ofNat 64 ((k + 1) * bs * 8) }, ?_, ?_, ?_⟩
  · unfold Model.Groestl.finalTail
    dsimp only
    rw [hhs, ← hbs, htot, szSub_eq _ _ (by omega) (by unfold szMod; omega), hp]
    rw [hp] at e2
    rw [e2, ok_bind, div_blocks bs (k + 1) (by omega), ← hw, bytes64_byteswap_ofNat, e3, ok_bind]
    exact (hbs ▸ isCompress N).first
      ({ s1 with m := m3
                 pos := q.length
                 total := BitVec.ofNat 64 ((k + 1) * bs * 8) } : Blk Model.Groestl.St) m3 _ p3 (by simp [length_beBytes]; omega) hi
  · rfl
  · show m3.length = _
    omega

theorem ceil_div (bs p nb lf k : Nat) (h0 : 0 < bs) (h1 : nb * bs < p + lf) (h2 : p + lf ≤ (nb + 1) * bs)
    (hk : k = nb + 1) : (p + lf + (bs - 1)) / bs = k := by
  subst hk
  have := Nat.add_mul nb 1 bs
  rw [Nat.div_eq_iff h0]
  constructor <;> omega

theorem finalPad_ok (N : Nat) (msg : Bytes) (s : Blk Model.Groestl.St) (h : Abs N msg s) :
    ∃ s', Model.Groestl.finalPad s = .ok s' ∧ s'.h = st N (foldBlocks (8 * Model.Groestl.cols N)
      (fun _ b h => f (Model.Groestl.cols N) h (matOf b)) (padWrap (Model.Groestl.cols N) msg)
      ((padWrap (Model.Groestl.cols N) msg).length / (8 * Model.Groestl.cols N)) (iv N)) := by
  have hb1 := blockBytes_eq N
  have hb2 := cols_or N
  have hhs := abs_hs N msg s h
  obtain ⟨bs, hbs⟩ : ∃ bs, bs = Model.Groestl.blockBytes N := ⟨_, rfl⟩
  have hmod := Nat.mod_lt msg.length (show bs > 0 by omega)
  obtain ⟨p, hpd⟩ : ∃ p, p = msg.length % bs := ⟨_, rfl⟩
  obtain ⟨nb, hnbd⟩ : ∃ nb, nb = msg.length / bs := ⟨_, rfl⟩
  have hlen : msg.length = nb * bs + p := by rw [hpd, hnbd, Nat.mul_comm]; exact (Nat.div_add_mod _ _).symm
  have hpos : s.pos = p := by
    rw [h.pos, Nat.sub_zero, ← hbs, mod_eq_sub_div, hpd]
  have htot : s.total + BitVec.ofNat 64 ((s.pos + 1) * 8) = BitVec.ofNat 64 (8 * (msg.length + 1)) := by
    rw [h.total, ← BitVec.ofNat_add, Nat.sub_zero, ← hbs, ← hnbd, hpos, hlen]
    rw [show nb * bs * 8 + (p + 1) * 8 = 8 * (nb * bs + p + 1) by omega]
  have e : Model.Groestl.finalPad s = spillPad bs (bs - 8) Model.Groestl.transform (BitVec.ofNat 64 (8 * (msg.length + 1)))
      (fun t => t + BitVec.ofNat 64 ((bs - (s.pos + 1)) * 8)) Model.Groestl.finalTail s := by
    unfold Model.Groestl.finalPad spillPad
    rw [hhs, ← hbs]
    dsimp only
    rw [htot]
  rw [e]
  have hms : (nb + 1) * bs = nb * bs + bs := by rw [Nat.add_mul, Nat.one_mul]
  have hms2 : (nb + 1 + 1) * bs = nb * bs + bs + bs := by rw [Nat.add_mul, hms, Nat.one_mul]
  have hs := spillPad_spec (t2 := fun t => t + BitVec.ofNat 64 ((bs - (s.pos + 1)) * 8)) (tail := Model.Groestl.finalTail)
    (limit := bs - 8) (lf := 8) (t1 := BitVec.ofNat 64 (8 * (msg.length + 1)))
    (hbs ▸ isCompress N) (by omega) rfl (by omega) (show bs ≤ 128 by omega)
    (beBytes 8 (wrap64 (8 * bs * ((msg.length + 9 + (bs - 1)) / bs)) / (8 * bs))) (length_beBytes _ _) msg s (by rw [hbs]; exact h) ⟨_, rfl⟩ (by
      intro q s1 hq hm hp hi hc
      rcases hc with ⟨hc, hql, ht⟩ | ⟨hc, hql, ht⟩
      · have := tail_ok N q s1 nb hq hm hp hi (by omega) (by
          rw [ht, ← hbs, hql, ← hpd, hlen]
          congr 2)
        rw [← hbs] at this
        rw [ceil_div bs msg.length nb 9 (nb + 1) (by omega) (by omega) (by omega) rfl]
        exact this
      · have := tail_ok N q s1 (nb + 1) hq hm hp hi (by omega) (by
          rw [ht, ← hbs, hql, hpos]
          show BitVec.ofNat 64 _ + BitVec.ofNat 64 _ = _
          rw [← BitVec.ofNat_add]
          congr 1
          omega)
        rw [← hbs] at this
        rw [ceil_div bs msg.length (nb + 1) 9 (nb + 1 + 1) (by omega) (by omega) (by omega) rfl]
        exact this)
  obtain ⟨s', e', h', _⟩ := hs
  refine ⟨s', e', ?_⟩
  rw [h']
  have hpe : padWrap (Model.Groestl.cols N) msg =
      mdPad bs (beBytes 8 (wrap64 (8 * bs * ((msg.length + 9 + (bs - 1)) / bs)) / (8 * bs))) msg := by
    unfold padWrap blocks
    rw [show 64 * Model.Groestl.cols N = 8 * (8 * Model.Groestl.cols N) by omega, ← hb1, hbs]
  rw [hpe, ← hb1, ← hbs]
  exact foldBlocks_conj (st N) (fun _ b A => step_st N A b) _ _ _ _

theorem final_ok (N : Nat) (hN : N % 8 = 0) (hN' : N ≤ 512) (msg : Bytes) (s : Blk Model.Groestl.St) (h : Abs N msg s) :
    Model.Groestl.final s = .ok (Spec.Groestl.hashWith padWrap (Model.Groestl.cols N) (N / 8) msg) := by
  have hb1 := blockBytes_eq N
  have hb2 := cols_or N
  have hc : Model.Groestl.cols N = if N > 256 then 16 else 8 := rfl
  obtain ⟨s', e, h'⟩ := finalPad_ok N msg s h
  unfold Model.Groestl.final
  rw [e, ok_bind, h']
  unfold Spec.Groestl.hashWith
  have e8 : 8 * (N / 8) = N := by omega
  rw [e8]
  show readBytes (stores64 (Model.Groestl.outputTransform (Model.Groestl.cols N) (arr _ _))) (szSub (Model.Groestl.blockBytes N) (N / 8)) (N / 8) = _
  have hle : N / 8 ≤ 8 * Model.Groestl.cols N := by rw [hc]; split <;> omega
  rw [output_eq _ (cols_or N), hb1, szSub_eq _ _ hle (by unfold szMod; omega)]
  unfold arr iv
  dsimp only
  generalize matXor (P (Model.Groestl.cols N) _) _ = X
  have e3 : stores64 (colWords (Model.Groestl.cols N) X ++ List.replicate (16 - Model.Groestl.cols N) 0)
      = matBytes (Model.Groestl.cols N) X ++ stores64 (List.replicate (16 - Model.Groestl.cols N) 0) := by
    rw [← stores64_mat]
    simp only [stores64, List.flatMap_append]
  have hml := length_matBytes (Model.Groestl.cols N) X
  rw [e3, readBytes_ok _ _ _ (by rw [List.length_append]; omega), List.drop_append_of_le_length (by omega),
    List.take_append_of_le_length (by rw [List.length_drop]; omega), List.take_of_length_le (by rw [List.length_drop]; omega)]

theorem clear_ok (N : Nat) (hN : N ≤ 512) (msg : Bytes) (s : Blk Model.Groestl.St) (h : Abs N msg s) :
    ∃ s1 s2, Model.Groestl.clear s = .ok s1 ∧ Model.Groestl.init s1 = .ok s2 ∧ Abs N [] s2 := by
  obtain ⟨s2, e, r⟩ := init_ok N hN { s with
      h := { s.h with h := List.replicate 16 0 }
      m := zeroBytes s.m } (by rw [zeroBytes]; simpa using h.mlen) (abs_hs N msg s h)
  exact ⟨_, s2, rfl, e, r⟩

/-- The number of blocks is right when the padded message has fewer than `2^61` bytes. -/
theorem padWrap_eq (c : Nat) (hc : c = 8 ∨ c = 16) (msg : Bytes) (h : msg.length < 2 ^ 61 - 256) : padWrap c msg = pad c msg := by
  unfold padWrap pad
  have hb : 8 * c * blocks c msg.length ≤ msg.length + 9 + (8 * c - 1) := Nat.mul_div_le _ _
  generalize blocks c msg.length = k at hb
  have e : 64 * c * k = 8 * (8 * c * k) := by rw [show 64 * c = 8 * (8 * c) by omega, Nat.mul_assoc 8 (8 * c)]
  rw [wrap64_small (by omega), Nat.mul_div_cancel_left k (by omega)]

theorem hashWith_eq (c n : Nat) (hc : c = 8 ∨ c = 16) (msg : Bytes) (h : msg.length < 2 ^ 61 - 256) :
    Spec.Groestl.hash c n msg = hashWith padWrap c n msg := by
  unfold Spec.Groestl.hash hashWith
  rw [padWrap_eq c hc msg h]

theorem refines (N : Nat) (h0 : 0 < N) (h8 : N % 8 = 0) (hN : N ≤ 512) :
    HashRefines Model.Groestl.provider (groestlWrap (N / 8)) (Cover.all Empty) (fun _ => Abs N) where
  init := fun _ msg s h => init_ok N hN s h.mlen (abs_hs N msg s h)
  update := fun _ msg s data h hd => update_ok N msg data s h hd
  final := fun _ msg s h _ => by
    have := final_ok N h8 hN msg s h
    have hc : Model.Groestl.cols N = if N / 8 ≤ 32 then 8 else 16 := by
      unfold Model.Groestl.cols
      split <;> split <;> omega
    rw [hc] at this
    exact this
  clear := fun _ _ msg s h => clear_ok N hN msg s h
  size := fun _ msg s h => by
    show s.h.hs / 8 = _
    rw [abs_hs N msg s h]
    rfl
  size_pos := show 0 < N / 8 by omega
  digest_length := fun _ msg s h _ => by
    show ((matBytes _ _).drop _).length = N / 8
    rw [List.length_drop, length_matBytes]
    split <;> omega
  set := fun _ _ _ p => nomatch p

end Digestpp.Proofs.Groestl
