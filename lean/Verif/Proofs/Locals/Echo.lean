import Verif.Model.Locals.Echo
import Verif.Proofs.Locals.Skein
import Verif.Proofs.PermStreebog
import Verif.Proofs.SafetyShake

/-! C58, ECHO. -/

namespace Digestpp.Proofs.Locals.Echo
open Model
open Model.Echo

theorem swap_ok (i j : Nat) (w : List (BitVec 64)) (hw : w.length = 32) (hi : i < 32) (hj : j < 32) :
    Locals.Echo.swap i j w = .ok (swap i j w) := by
  unfold Locals.Echo.swap
  rw [rd_ok 0 (by omega), ok_then, rd_ok 0 (by omega), ok_then, wr_ok _ (by omega), ok_then, wr_ok _ (by rw [List.length_set]; omega)]
  rfl

theorem swap_length (i j : Nat) (w : List (BitVec 64)) : (swap i j w).length = w.length := by
  unfold swap
  rw [List.length_set, List.length_set]

theorem shiftRows_ok (w : List (BitVec 64)) (hw : w.length = 32) : Locals.Echo.shiftRows w = .ok (shiftRows w) ∧ (shiftRows w).length = 32 := by
  constructor
  · unfold Locals.Echo.shiftRows
    iterate 15 rw [swap_ok _ _ _ (by simp only [swap_length, hw]) (by decide) (by decide), ok_then]
    rw [swap_ok _ _ _ (by simp only [swap_length, hw]) (by decide) (by decide)]
    rfl
  · simp only [shiftRows, swap_length, hw]

theorem mixStep_ok (idx : Nat) (w : List (BitVec 64)) (hw : w.length = 32) (hi : idx + 6 < 32) :
    Locals.Echo.mixStep idx w = .ok (mixStep w idx) ∧ (mixStep w idx).length = 32 := by
  constructor
  · unfold Locals.Echo.mixStep
    rw [rd_ok 0 (by omega), ok_then, rd_ok 0 (by omega), ok_then, rd_ok 0 (by omega), ok_then, rd_ok 0 (by omega), ok_then, wr_ok _ (by omega), ok_then,
      wr_ok _ (by rw [List.length_set]; omega), ok_then, wr_ok _ (by rw [List.length_set, List.length_set]; omega), ok_then,
      wr_ok _ (by rw [List.length_set, List.length_set, List.length_set]; omega)]
    rfl
  · simp only [mixStep, List.length_set, hw]

theorem mixColumns_ok (w : List (BitVec 64)) (hw : w.length = 32) : Locals.Echo.mixColumns w = .ok (mixColumns w) ∧ (mixColumns w).length = 32 := by
  unfold Locals.Echo.mixColumns mixColumns
  have inner : ∀ i, i < 4 → ∀ w : List (BitVec 64), w.length = 32 →
      loop 0 2 (fun j w => Locals.Echo.mixStep (i * 4 * 2 + j) w) w = .ok ((List.range 2).foldl (fun w j => mixStep w (i * 4 * 2 + j)) w) ∧
        ((List.range 2).foldl (fun w j => mixStep w (i * 4 * 2 + j)) w).length = 32 := by
    intro i hi w hw
    have := loop_eq (fun (w : List (BitVec 64)) j => mixStep w (i * 4 * 2 + j)) (fun _ w => w.length = 32) 0 2 (by omega)
      (fun j w => Locals.Echo.mixStep (i * 4 * 2 + j) w) w hw (fun t w _ ht hl => mixStep_ok _ w hl (by omega))
    rwa [Nat.sub_zero, ← List.range_eq_range'] at this
  have := loop_eq (fun (w : List (BitVec 64)) i => (List.range 2).foldl (fun w j => mixStep w (i * 4 * 2 + j)) w) (fun _ w => w.length = 32) 0 4 (by omega)
    (fun i w => loop 0 2 (fun j w => Locals.Echo.mixStep (i * 4 * 2 + j) w) w) w hw (fun t w _ ht hl => inner t ht w hl)
  rwa [Nat.sub_zero, ← List.range_eq_range'] at this

theorem T_ok : echo_T.length = 4 ∧ ∀ row ∈ echo_T, row.length = 256 := by
  refine ⟨by decide +kernel, ?_⟩
  have : echo_T.all (fun row => row.length == 256) = true := by decide +kernel
  simpa only [List.all_eq_true, beq_iff_eq] using this

theorem look_ok {v : Nat} (i : Nat) (hi : i < 4) (x : BitVec v) (n : Nat) : Locals.Echo.look i x n = .ok ((echo_T.getD i []).getD (byteAt x n).toNat 0) := by
  have hr := T_ok.2 _ (Skein.getD_mem echo_T i [] (by rw [T_ok.1]; exact hi))
  unfold Locals.Echo.look
  rw [rd_ok [] (by rw [T_ok.1]; exact hi), ok_then, rd_ok 0 (by rw [hr]; exact ((x >>> n).setWidth 8).isLt)]
  rfl

theorem four_ok {v : Nat} (x0 : BitVec v) (n0 : Nat) (x1 : BitVec v) (n1 : Nat) (x2 : BitVec v) (n2 : Nat) (x3 : BitVec v) (n3 : Nat) :
    ∃ a b c d, Locals.Echo.four x0 n0 x1 n1 x2 n2 x3 n3 = .ok (a, b, c, d) ∧ a ^^^ b ^^^ c ^^^ d = col (byteAt x0 n0) (byteAt x1 n1) (byteAt x2 n2) (byteAt x3 n3) := by
  refine ⟨_, _, _, _, ?_, rfl⟩
  unfold Locals.Echo.four
  rw [look_ok 0 (by omega), ok_then, look_ok 1 (by omega), ok_then, look_ok 2 (by omega), ok_then, look_ok 3 (by omega), ok_then]
  rfl

theorem first_ok (x0 x1 counter : BitVec 64) : Locals.Echo.first x0 x1 counter =
    .ok (counter.setWidth 32 ^^^ col (byteAt x0 0) (byteAt x0 40) (byteAt x1 16) (byteAt x1 56),
      (counter >>> 32).setWidth 32 ^^^ col (byteAt x0 32) (byteAt x1 8) (byteAt x1 48) (byteAt x0 24),
      col (byteAt x1 0) (byteAt x1 40) (byteAt x0 16) (byteAt x0 56), col (byteAt x1 32) (byteAt x0 8) (byteAt x0 48) (byteAt x1 24)) := by
  obtain ⟨a, b, c, d, e1, r1⟩ := four_ok x0 0 x0 40 x1 16 x1 56
  obtain ⟨a2, b2, c2, d2, e2, r2⟩ := four_ok x0 32 x1 8 x1 48 x0 24
  obtain ⟨a3, b3, c3, d3, e3, r3⟩ := four_ok x1 0 x1 40 x0 16 x0 56
  obtain ⟨a4, b4, c4, d4, e4, r4⟩ := four_ok x1 32 x0 8 x0 48 x1 24
  unfold Locals.Echo.first
  rw [e1, ok_then, e2, ok_then, e3, ok_then, e4, ok_then, ← r1, ← r2, ← r3, ← r4]
  dsimp only
  have t : ∀ x : BitVec 32, (x.setWidth 64).setWidth 32 = x := fun x => by rw [BitVec.setWidth_setWidth_of_le _ (by omega), BitVec.setWidth_eq]
  simp only [BitVec.setWidth_xor, t, BitVec.xor_assoc]
  rfl

theorem second_ok (salt : List (BitVec 64)) (hs : salt.length = 2) (s : Nat) (h2 : s < 2) (a b c d : BitVec 32) : Locals.Echo.second salt s a b c d =
    .ok ((col (byteAt a 0) (byteAt b 8) (byteAt c 16) (byteAt d 24)).setWidth 64 ^^^
      ((col (byteAt b 0) (byteAt c 8) (byteAt d 16) (byteAt a 24)).setWidth 64 <<< 32) ^^^ salt.getD s 0) := by
  obtain ⟨a1, b1, c1, d1, e1, r1⟩ := four_ok a 0 b 8 c 16 d 24
  obtain ⟨a2, b2, c2, d2, e2, r2⟩ := four_ok b 0 c 8 d 16 a 24
  unfold Locals.Echo.second
  rw [e1, ok_then, e2, ok_then, rd_ok 0 (by omega), ok_then, ← r1, ← r2]
  rfl

theorem subWord_ok (salt : List (BitVec 64)) (hs : salt.length = 2) (r : Nat) (hr : r < 16) (s : List (BitVec 64) × BitVec 64) (hw : s.1.length = 32) :
    Locals.Echo.subWord salt r s =
      .ok ((s.1.set (r * 2) (subWord (s.1.getD (r * 2) 0) (s.1.getD (r * 2 + 1) 0) s.2 (salt.getD 0 0) (salt.getD 1 0)).1).set (r * 2 + 1)
        (subWord (s.1.getD (r * 2) 0) (s.1.getD (r * 2 + 1) 0) s.2 (salt.getD 0 0) (salt.getD 1 0)).2, s.2 + 1) := by
  unfold Locals.Echo.subWord
  rw [rd_ok 0 (by omega), ok_then, rd_ok 0 (by omega), ok_then, first_ok, ok_then]
  dsimp only
  rw [second_ok salt hs 0 (by omega), ok_then, wr_ok _ (by omega), ok_then, second_ok salt hs 1 (by omega), ok_then,
    wr_ok _ (by rw [List.length_set]; omega), ok_then]
  rfl

theorem subWords_ok (salt : List (BitVec 64)) (hs : salt.length = 2) (s : List (BitVec 64) × BitVec 64) (hw : s.1.length = 32) :
    Locals.Echo.subWords salt s = .ok (subWords salt s) ∧ (subWords salt s).1.length = 32 := by
  have := loop_eq (fun (s : List (BitVec 64) × BitVec 64) r =>
      let x := subWord (s.1.getD (r * 2) 0) (s.1.getD (r * 2 + 1) 0) s.2 (salt.getD 0 0) (salt.getD 1 0)
      ((s.1.set (r * 2) x.1).set (r * 2 + 1) x.2, s.2 + 1)) (fun _ s => s.1.length = 32) 0 16 (by omega) (Locals.Echo.subWord salt) s hw
    (fun t s _ ht hl => ⟨subWord_ok salt hs t ht s hl, by
      show ((s.1.set _ _).set _ _).length = 32
      rw [List.length_set, List.length_set, hl]⟩)
  exact this

attribute [local irreducible] subWords mixColumns shiftRows in
theorem rounds_ok (n : Nat) (salt : List (BitVec 64)) (hs : salt.length = 2) (h : List (BitVec 64)) (counter : BitVec 64) (hw : h.length = 32) :
    ∃ c, Locals.Echo.rounds n salt (h, counter) = .ok (rounds n salt h counter, c) ∧ (rounds n salt h counter).length = 32 := by
  obtain ⟨e, l⟩ := loop_eq (fun (s : List (BitVec 64) × BitVec 64) _ => (mixColumns (shiftRows (subWords salt s).1), (subWords salt s).2)) (fun _ s => s.1.length = 32) 0 n (by omega) (fun _ s => do
      let s ← Locals.Echo.subWords salt s
      let w ← Locals.Echo.shiftRows s.1
      let w ← Locals.Echo.mixColumns w
      pure (w, s.2)) (h, counter) hw (fun t s _ ht hl => by
      obtain ⟨e1, l1⟩ := subWords_ok salt hs s hl
      obtain ⟨e2, l2⟩ := shiftRows_ok _ l1
      obtain ⟨e3, l3⟩ := mixColumns_ok _ l2
      exact ⟨by rw [e1, ok_then, e2, ok_then, e3, ok_then]; rfl, l3⟩)
  rw [Nat.sub_zero, ← List.range_eq_range'] at e l
  exact ⟨_, e, l⟩

theorem final256_ok (w h : List (BitVec 64)) (hw : w.length = 32) (hh : h.length = 32) : Locals.Echo.final256 w h = .ok (final256 h w ++ h.drop 8) :=
  fill_upd_rest 0 (fun i => h.getD i 0 ^^^ h.getD (i + 8) 0 ^^^ h.getD (i + 16) 0 ^^^ h.getD (i + 24) 0 ^^^
    w.getD i 0 ^^^ w.getD (i + 8) 0 ^^^ w.getD (i + 16) 0 ^^^ w.getD (i + 24) 0) 32 8 (by omega) _ h hh fun t b ht hb hr => by
      rw [rd_ok 0 (by omega), ok_then, rd_ok 0 (by omega), ok_then, rd_ok 0 (by omega), ok_then, rd_ok 0 (by omega), ok_then, rd_ok 0 (by omega), ok_then,
        rd_ok 0 (by omega), ok_then, rd_ok 0 (by omega), ok_then, rd_ok 0 (by omega), ok_then, wr_ok _ (by omega), hr _ (by omega), hr _ (by omega),
        hr _ (by omega), hr _ (by omega)]

theorem final512_ok (w h : List (BitVec 64)) (hw : w.length = 32) (hh : h.length = 32) : Locals.Echo.final512 w h = .ok (final512 h w ++ h.drop 16) :=
  fill_upd_rest 0 (fun i => h.getD i 0 ^^^ h.getD (i + 16) 0 ^^^ w.getD i 0 ^^^ w.getD (i + 16) 0) 32 16 (by omega) _ h hh fun t b ht hb hr => by
      rw [rd_ok 0 (by omega), ok_then, rd_ok 0 (by omega), ok_then, rd_ok 0 (by omega), ok_then, rd_ok 0 (by omega), ok_then, wr_ok _ (by omega),
        hr _ (by omega), hr _ (by omega)]

theorem loads_append (n k : Nat) (c : List (BitVec 64)) (hc : c.length = n) (b : Bytes) : loads64 (n + k) (stores64 c ++ b) = c ++ loads64 k b := by
  have hl : (stores64 c).length = 8 * n := by rw [Safety.length_stores64, hc]
  unfold loads64
  rw [List.range_add, List.map_append]
  congr 1
  · refine Eq.trans ?_ (Perm.Streebog.loads_stores c n hc)
    unfold loads64
    refine List.map_congr_left fun i hi => ?_
    have := List.mem_range.1 hi
    unfold le64
    simp only [List.getD_eq_getElem?_getD, List.getElem?_drop]
    rw [List.getElem?_append_left (by omega), List.getElem?_append_left (by omega), List.getElem?_append_left (by omega), List.getElem?_append_left (by omega),
      List.getElem?_append_left (by omega), List.getElem?_append_left (by omega), List.getElem?_append_left (by omega), List.getElem?_append_left (by omega)]
  · rw [List.map_map]
    refine List.map_congr_left fun i _ => ?_
    show le64 ((stores64 c ++ b).drop (8 * (n + i))) = _
    rw [List.drop_append, List.drop_of_length_le (by omega), List.nil_append, hl]
    congr 2
    omega

/-- The sizes of the members: `h` has 32 words. -/
def Sized (s : Blk St) : Prop := s.h.c.length = 32 - blockBytes s.h.hs / 8 ∧ s.m.length = blockBytes s.h.hs ∧ s.h.salt.length = 2

theorem blockBytes_cases (hs : Nat) : (hs > 256 ∧ blockBytes hs = 128) ∨ (hs ≤ 256 ∧ blockBytes hs = 192) := by
  unfold blockBytes
  split
  · exact .inl ⟨by assumption, rfl⟩
  · exact .inr ⟨by omega, rfl⟩

theorem poke_ok (hs : Nat) (c : List (BitVec 64)) (hc : c.length = 32 - blockBytes hs / 8) (m b : Bytes) (hb : b.length = blockBytes hs) :
    Locals.Echo.poke (c ++ loads64 (blockBytes hs / 8) m) (szSub 256 (blockBytes hs)) b = .ok (c ++ loads64 (blockBytes hs / 8) b) := by
  have hB := blockBytes_cases hs
  have hl : (stores64 c).length = 256 - blockBytes hs := by rw [Safety.length_stores64, hc]; omega
  have hz : szSub 256 (blockBytes hs) = 256 - blockBytes hs := by
    rcases hB with ⟨-, h⟩ | ⟨-, h⟩ <;> rw [h] <;> rfl
  have hr : (stores64 (loads64 (blockBytes hs / 8) m)).length = blockBytes hs := by rw [Safety.length_stores64, loads64_length]; omega
  unfold Locals.Echo.poke memcpyTo
  have e : stores64 (c ++ loads64 (blockBytes hs / 8) m) = stores64 c ++ stores64 (loads64 (blockBytes hs / 8) m) := by
    unfold stores64
    rw [List.flatMap_append]
  rw [e, hz, if_pos (by rw [List.length_append]; omega), ok_then, List.take_left' hl, List.drop_of_length_le (by rw [List.length_append]; omega), List.append_nil,
    List.length_append, hc, loads64_length, loads_append _ _ c hc]
  rfl

/-- From the copying into `w` on. -/
theorem compress_ok (w : List (BitVec 64)) (hw : w.length = 32) (counter : BitVec 64) (m : Bytes) (h : St) (hc : h.c.length = 32 - blockBytes h.hs / 8)
    (hs : h.salt.length = 2) (z : Nat) : (do
      let w ← copyN w (h.c ++ loads64 (blockBytes h.hs / 8) m) 32
      let x ← Locals.Echo.rounds (if h.hs > 256 then 10 else 8) h.salt (w, counter)
      let y ← if h.hs ≤ 256 then Locals.Echo.final256 x.1 (h.c ++ loads64 (blockBytes h.hs / 8) m)
        else Locals.Echo.final512 x.1 (h.c ++ loads64 (blockBytes h.hs / 8) m)
      pure (y, z)) = .ok ((compress counter m h).c ++ loads64 (blockBytes h.hs / 8) m, z) := by
  have hB := blockBytes_cases h.hs
  have hl : (h.c ++ loads64 (blockBytes h.hs / 8) m).length = 32 := by rw [List.length_append, hc, loads64_length]; omega
  rw [copyN_ok hw hl, ok_then]
  obtain ⟨c, e, l⟩ := rounds_ok (if h.hs > 256 then 10 else 8) h.salt hs (h.c ++ loads64 (blockBytes h.hs / 8) m) counter hl
  rw [e, ok_then]
  dsimp only
  unfold compress
  dsimp only
  generalize (if h.hs > 256 then 10 else 8) = nr at e l ⊢
  rcases hB with ⟨h1, h2⟩ | ⟨h1, h2⟩
  · rw [if_neg (by omega : ¬ h.hs ≤ 256), if_neg (by omega : ¬ h.hs ≤ 256), final512_ok _ _ l hl, ok_then, List.drop_left' (by rw [hc, h2])]
    rfl
  · rw [if_pos h1, if_pos h1, final256_ok _ _ l hl, ok_then, List.drop_left' (by rw [hc, h2])]
    rfl

theorem compress_fields (counter : BitVec 64) (m : Bytes) (h : St) : (compress counter m h).hs = h.hs ∧ (compress counter m h).salt = h.salt ∧
    (compress counter m h).c.length = 32 - blockBytes h.hs / 8 := by
  refine ⟨rfl, rfl, ?_⟩
  unfold compress
  dsimp only
  rcases blockBytes_cases h.hs with ⟨h1, h2⟩ | ⟨h1, h2⟩
  · rw [if_neg (by omega), h2]; simp [final512]
  · rw [if_pos (by omega), h2]; simp [final256]

/-- An iteration that copies a whole block into the buffer. -/
theorem block_ok (hsz : Nat) (salt : List (BitVec 64)) (total : BitVec 64) (w : List (BitVec 64)) (hw : w.length = 32) (data b : Bytes) (blk rest : Nat)
    (hr : readBytes data (blk * blockBytes hsz) (blockBytes hsz) = .ok b) (hb : b.length = blockBytes hsz) (y : Blk St) (hy : Sized y) (h1 : y.h.hs = hsz)
    (h2 : y.h.salt = salt) (hrest : blockBytes hsz ≤ rest) :
    Locals.Echo.block hsz salt total w (some data) true blk (Locals.Echo.whole y, rest) =
      .ok (Locals.Echo.whole { y with m := b, h := compress (total + BitVec.ofNat 64 ((blk * blockBytes hsz + blockBytes hsz) * 8)) b y.h }, rest - blockBytes hsz) := by
  subst h1 h2
  obtain ⟨s1, s2, s3⟩ := hy
  unfold Locals.Echo.block Locals.Echo.copyIn
  dsimp only
  rw [Nat.min_eq_right hrest, if_pos rfl, if_pos rfl, if_pos rfl, Nat.mul_comm _ blk, hr, ok_then]
  unfold Locals.Echo.whole
  rw [poke_ok _ _ s1 y.m b hb, ok_then, compress_ok w hw _ b y.h s1 s3]
  rfl

/-- `update` calls `transform` with whole blocks of the caller's data. -/
theorem transform_eq (k : Nat → List (BitVec 64)) (hk : ∀ i, (k i).length = 32) (data : Bytes) (n : Nat) (s : Blk St) (hd : n * blockBytes s.h.hs ≤ data.length)
    (hs : Sized s) :
    Locals.Echo.transform s.h.hs s.h.salt s.total k (some data) n true (blockBytes s.h.hs * n) (Locals.Echo.whole s) =
      (transform data n s >>= fun s' => pure (Locals.Echo.whole s')) := by
  have R := blocks_relI (blockBytes s.h.hs) data n hd (fun t (x : List (BitVec 64) × Nat) (y : Blk St) => x = (Locals.Echo.whole y, blockBytes s.h.hs * (n - t)) ∧
      Sized y ∧ y.h.hs = s.h.hs ∧ y.h.salt = s.h.salt)
    (fun blk x => Locals.Echo.block s.h.hs s.h.salt s.total (k blk) (some data) true blk x)
    (fun blk b x => do
      let counter := s.total + BitVec.ofNat 64 ((blk * blockBytes s.h.hs + blockBytes s.h.hs) * 8)
      let m ← memcpyTo x.m 0 b
      pure { x with m := m, h := compress counter m x.h })
    (by
      rintro blk b x y hblk hr hb ⟨rfl, hy, h1, h2⟩
      have hm : memcpyTo y.m 0 b = .ok b := by
        unfold memcpyTo
        have := hy.2.1
        rw [h1] at this
        rw [if_pos (by omega), List.take_zero, List.nil_append, List.drop_of_length_le (by omega), List.append_nil]
      have hn : blockBytes s.h.hs * (n - blk) = blockBytes s.h.hs * (n - (blk + 1)) + blockBytes s.h.hs := by
        rw [← Nat.mul_succ]
        congr 1
        omega
      rw [block_ok _ _ _ _ (hk blk) data b blk _ hr hb y hy h1 h2 (by rw [hn]; omega), hm, ok_then]
      refine ⟨?_, ⟨?_, ?_, ?_⟩, h1, h2⟩
      · rw [hn, Nat.add_sub_cancel]
      · rw [(compress_fields _ _ _).2.2]
        rfl
      · show b.length = blockBytes y.h.hs
        rw [hb, h1]
      · exact hy.2.2)
    (Locals.Echo.whole s, blockBytes s.h.hs * n) s ⟨rfl, hs, rfl, rfl⟩
  unfold Locals.Echo.transform transform
  revert R
  generalize forBlocks _ _ _ _ _ = u
  generalize loop _ _ _ _ = v
  intro R
  cases u with
  | error e1 =>
    cases v with
    | error e2 => cases R; rfl
    | ok y => exact R.elim
  | ok u =>
    cases v with
    | error e2 => exact R.elim
    | ok v =>
      obtain ⟨e, -⟩ := R
      rw [ok_then, ok_then, e]

/-- `absorb_bytes` calls `transform` with the buffer itself once this is full. -/
theorem transform_buffer (k : Nat → List (BitVec 64)) (hk : ∀ i, (k i).length = 32) (s : Blk St) (hs : Sized s) :
    Locals.Echo.transform s.h.hs s.h.salt s.total k none 1 true (blockBytes s.h.hs * 1) (Locals.Echo.whole s) =
      (transform s.m 1 s >>= fun s' => pure (Locals.Echo.whole s')) := by
  obtain ⟨s1, s2, s3⟩ := hs
  have hr : readBytes s.m (0 * blockBytes s.h.hs) (blockBytes s.h.hs) = .ok s.m := by
    rw [read_ok (by omega), Nat.zero_mul, List.drop_zero, List.take_of_length_le (by omega)]
  have e : transform s.m 1 s = .ok { s with h := compress (s.total + BitVec.ofNat 64 ((0 * blockBytes s.h.hs + blockBytes s.h.hs) * 8)) s.m s.h } := by
    show ((readBytes s.m (0 * blockBytes s.h.hs) (blockBytes s.h.hs) >>= fun b => memcpyTo s.m 0 b >>= fun m => _) >>= fun y => .ok y) = _
    rw [hr, ok_then]
    unfold memcpyTo
    rw [if_pos (by omega), List.take_zero, List.nil_append, List.drop_of_length_le (by omega), List.append_nil]
    rfl
  rw [e]
  show (Locals.Echo.block s.h.hs s.h.salt s.total (k 0) none true 0 (Locals.Echo.whole s, blockBytes s.h.hs * 1) >>= fun y => .ok y) >>= _ = _
  have hb : Locals.Echo.block s.h.hs s.h.salt s.total (k 0) none true 0 (Locals.Echo.whole s, blockBytes s.h.hs * 1) = .ok
      (Locals.Echo.whole { s with h := compress (s.total + BitVec.ofNat 64 ((0 * blockBytes s.h.hs + blockBytes s.h.hs) * 8)) s.m s.h },
        blockBytes s.h.hs * 1 - blockBytes s.h.hs) := by
    unfold Locals.Echo.block Locals.Echo.copyIn
    dsimp only
    rw [Nat.mul_one, Nat.min_self, if_pos rfl, if_pos rfl, if_pos rfl]
    unfold Locals.Echo.whole
    exact compress_ok (k 0) (hk 0) _ s.m s.h s1 s3 _
  rw [hb]
  rfl

/-- `final` calls `transform` with the buffer itself and no bits to add. -/
theorem transformLast_eq (k : Nat → List (BitVec 64)) (hk : ∀ i, (k i).length = 32) (addedbits : Bool) (s : Blk St) (hs : Sized s) :
    Locals.Echo.transform s.h.hs s.h.salt s.total k none 1 addedbits 0 (Locals.Echo.whole s) = .ok (Locals.Echo.whole (transformLast addedbits s)) := by
  obtain ⟨s1, s2, s3⟩ := hs
  show (Locals.Echo.block s.h.hs s.h.salt s.total (k 0) none addedbits 0 (Locals.Echo.whole s, 0) >>= fun y => .ok y) >>= _ = _
  have hb : Locals.Echo.block s.h.hs s.h.salt s.total (k 0) none addedbits 0 (Locals.Echo.whole s, 0) = .ok (Locals.Echo.whole (transformLast addedbits s), 0) := by
    unfold Locals.Echo.block Locals.Echo.copyIn
    dsimp only
    rw [Nat.zero_min]
    unfold Locals.Echo.whole transformLast
    cases addedbits
    · rw [if_neg (by decide)]
      exact compress_ok (k 0) (hk 0) _ s.m s.h s1 s3 _
    · rw [if_pos rfl]
      exact compress_ok (k 0) (hk 0) _ s.m s.h s1 s3 _
  rw [hb]
  rfl

end Digestpp.Proofs.Locals.Echo
