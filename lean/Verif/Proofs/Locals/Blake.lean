import Verif.Model.Locals.Blake
import Verif.Proofs.Locals.Sha1

/-! C58, BLAKE and BLAKE2. -/

namespace Digestpp.Proofs.Locals.Blake
open Model Model.Blake

variable {w : Nat}

theorem atQuad_ok (g : Quad w → M (Quad w)) (g' : Quad w → Quad w) (hg : ∀ q, g q = .ok (g' q)) (ia ib ic id : Nat) (ha : ia < 16) (hb : ib < 16)
    (hc : ic < 16) (hd : id < 16) (v : List (BitVec w)) (hv : v.length = 16) :
    Locals.Blake.atQuad g ia ib ic id v = .ok (Blake.atQuad g' ia ib ic id v) := by
  unfold Locals.Blake.atQuad
  rw [rd_ok 0 (by omega), rd_ok 0 (by omega), rd_ok 0 (by omega), rd_ok 0 (by omega), ok_then, ok_then, ok_then, ok_then, hg, ok_then,
    wr_ok _ (by omega), ok_then, wr_ok _ (by rw [List.length_set]; omega), ok_then, wr_ok _ (by rw [List.length_set, List.length_set]; omega), ok_then,
    wr_ok _ (by rw [List.length_set, List.length_set, List.length_set]; omega)]
  rfl

theorem atQuad_length (g : Quad w → Quad w) (ia ib ic id : Nat) (v : List (BitVec w)) : (Blake.atQuad g ia ib ic id v).length = v.length := by
  unfold Blake.atQuad
  simp only [List.length_set]

theorem round_length (g : Nat → Quad w → Quad w) (v : List (BitVec w)) : (Blake.round g v).length = v.length := by
  unfold Blake.round
  simp only [atQuad_length]

theorem round_ok (g : Nat → Quad w → M (Quad w)) (g' : Nat → Quad w → Quad w) (hg : ∀ i, i < 8 → ∀ q, g i q = .ok (g' i q)) (v : List (BitVec w))
    (hv : v.length = 16) : Locals.Blake.round g v = .ok (Blake.round g' v) := by
  unfold Locals.Blake.round Blake.round
  rw [atQuad_ok _ (g' 0) (hg 0 (by omega)) _ _ _ _ (by omega) (by omega) (by omega) (by omega) _ hv, ok_then,
    atQuad_ok _ (g' 1) (hg 1 (by omega)) _ _ _ _ (by omega) (by omega) (by omega) (by omega) _ (by simp only [atQuad_length, hv]), ok_then,
    atQuad_ok _ (g' 2) (hg 2 (by omega)) _ _ _ _ (by omega) (by omega) (by omega) (by omega) _ (by simp only [atQuad_length, hv]), ok_then,
    atQuad_ok _ (g' 3) (hg 3 (by omega)) _ _ _ _ (by omega) (by omega) (by omega) (by omega) _ (by simp only [atQuad_length, hv]), ok_then,
    atQuad_ok _ (g' 4) (hg 4 (by omega)) _ _ _ _ (by omega) (by omega) (by omega) (by omega) _ (by simp only [atQuad_length, hv]), ok_then,
    atQuad_ok _ (g' 5) (hg 5 (by omega)) _ _ _ _ (by omega) (by omega) (by omega) (by omega) _ (by simp only [atQuad_length, hv]), ok_then,
    atQuad_ok _ (g' 6) (hg 6 (by omega)) _ _ _ _ (by omega) (by omega) (by omega) (by omega) _ (by simp only [atQuad_length, hv]), ok_then,
    atQuad_ok _ (g' 7) (hg 7 (by omega)) _ _ _ _ (by omega) (by omega) (by omega) (by omega) _ (by simp only [atQuad_length, hv])]

theorem rows_ok (S : List (List (BitVec 32))) (h : S.all (fun row => row.length == 16 && row.all fun x => decide (x.toNat < 16)) = true) :
    ∀ row ∈ S, row.length = 16 ∧ ∀ x ∈ row, x.toNat < 16 := by
  simpa only [List.all_eq_true, Bool.and_eq_true, beq_iff_eq, decide_eq_true_eq] using h

theorem perm_ok (S : List (List (BitVec 32))) (n : Nat) (hl : S.length = n) (h : ∀ row ∈ S, row.length = 16 ∧ ∀ x ∈ row, x.toNat < 16) (r j : Nat)
    (hr : r < n) (hj : j < 16) : Locals.Blake.perm S r j = .ok ((S.getD r []).getD j 0).toNat ∧ ((S.getD r []).getD j 0).toNat < 16 := by
  subst hl
  have hm : S.getD r [] ∈ S := by
    rw [List.getD_eq_getElem?_getD, List.getElem?_eq_getElem hr]
    exact List.getElem_mem hr
  obtain ⟨l, b⟩ := h _ hm
  unfold Locals.Blake.perm
  rw [rd_ok [] hr, ok_then, rd_ok 0 (by omega), ok_then]
  refine ⟨rfl, b _ ?_⟩
  rw [List.getD_eq_getElem?_getD (l := S.getD r []), List.getElem?_eq_getElem (by omega)]
  exact List.getElem_mem _

theorem rounds_ok (g : Nat → Nat → Quad w → M (Quad w)) (g' : Nat → Nat → Quad w → Quad w) (n : Nat)
    (hg : ∀ r, r < n → ∀ i, i < 8 → ∀ q, g r i q = .ok (g' r i q)) (v : List (BitVec w)) (hv : v.length = 16) :
    loop 0 n (fun r v => Locals.Blake.round (g r) v) v = .ok ((List.range n).foldl (fun v r => Blake.round (g' r) v) v) ∧
      ((List.range n).foldl (fun v r => Blake.round (g' r) v) v).length = 16 := by
  have h := loop_eq (fun v r => Blake.round (g' r) v) (fun _ v => v.length = 16) 0 n (by omega) (fun r v => Locals.Blake.round (g r) v) v hv
    (fun t v _ ht hv => ⟨round_ok (g t) (g' t) (hg t ht) v hv, by rw [round_length, hv]⟩)
  rw [Nat.sub_zero, ← List.range_eq_range'] at h
  exact h

theorem copy8_ok (h0 h1 h2 h3 h4 h5 h6 h7 v0 v1 v2 v3 v4 v5 v6 v7 v8 v9 v10 v11 v12 v13 v14 v15 : BitVec w) (r : List (BitVec w)) :
    Locals.Blake.copy8 (h0 :: h1 :: h2 :: h3 :: h4 :: h5 :: h6 :: h7 :: r) [v0, v1, v2, v3, v4, v5, v6, v7, v8, v9, v10, v11, v12, v13, v14, v15] =
      .ok [h0, h1, h2, h3, h4, h5, h6, h7, v8, v9, v10, v11, v12, v13, v14, v15] := rfl

theorem G_ok (T : Word w) (hc : T.c.length = 16) (Mw : List (BitVec w)) (hM : Mw.length = 16) (r i : Nat) (hi : i < 8) (q : Quad w) :
    Locals.Blake.G T Mw r i q = .ok (Blake.G T Mw r i q) := by
  have hS : blake_S.length = 10 ∧ ∀ row ∈ blake_S, row.length = 16 ∧ ∀ x ∈ row, x.toNat < 16 := ⟨rfl, rows_ok _ (by decide +kernel)⟩
  obtain ⟨p0, b0⟩ := perm_ok blake_S 10 hS.1 hS.2 (r % 10) (2 * i) (by omega) (by omega)
  obtain ⟨p1, b1⟩ := perm_ok blake_S 10 hS.1 hS.2 (r % 10) (2 * i + 1) (by omega) (by omega)
  unfold Locals.Blake.G
  rw [p0, p1, ok_then, rd_ok 0 (by omega), ok_then, ok_then, rd_ok 0 (by omega), ok_then, ok_then, rd_ok 0 (by omega), ok_then, ok_then,
    rd_ok 0 (by omega), ok_then]
  rfl

theorem mixSalt_ok (T : Word w) (hc : T.c.length = 16) (H : List (BitVec w)) (hH : H.length = 12) (i : Nat) (hi : i < 4) (v : List (BitVec w)) (hv : v.length = 16) :
    Locals.Blake.mixSalt T H i v = .ok (v.set (8 + i) (H.getD (8 + i) 0 ^^^ T.c.getD i 0)) := by
  unfold Locals.Blake.mixSalt
  rw [rd_ok 0 (by omega), ok_then, rd_ok 0 (by omega), ok_then, wr_ok _ (by omega)]

theorem mixT_ok (T : Word w) (hc : T.c.length = 16) (t : BitVec w) (i : Nat) (hi : i < 8) (v : List (BitVec w)) (hv : v.length = 16) :
    Locals.Blake.mixT T t i v = .ok (v.set (8 + i) (t ^^^ T.c.getD i 0)) := by
  unfold Locals.Blake.mixT
  rw [rd_ok 0 (by omega), ok_then, wr_ok _ (by omega)]

theorem start_ok (T : Word w) (hc : T.c.length = 16) (t : BitVec w × BitVec w) (h0 h1 h2 h3 h4 h5 h6 h7 s0 s1 s2 s3 : BitVec w) (v : List (BitVec w))
    (hv : v.length = 16) :
    Locals.Blake.start T t [h0, h1, h2, h3, h4, h5, h6, h7, s0, s1, s2, s3] v =
      .ok [h0, h1, h2, h3, h4, h5, h6, h7, s0 ^^^ T.c.getD 0 0, s1 ^^^ T.c.getD 1 0, s2 ^^^ T.c.getD 2 0, s3 ^^^ T.c.getD 3 0,
        t.1 ^^^ T.c.getD 4 0, t.1 ^^^ T.c.getD 5 0, t.2 ^^^ T.c.getD 6 0, t.2 ^^^ T.c.getD 7 0] := by
  match v, hv with
  | [v0, v1, v2, v3, v4, v5, v6, v7, v8, v9, v10, v11, v12, v13, v14, v15], _ =>
    unfold Locals.Blake.start
    rw [copy8_ok, ok_then, mixSalt_ok T hc _ rfl 0 (by omega) _ rfl, ok_then, mixSalt_ok T hc _ rfl 1 (by omega) _ rfl, ok_then,
      mixSalt_ok T hc _ rfl 2 (by omega) _ rfl, ok_then, mixSalt_ok T hc _ rfl 3 (by omega) _ rfl, ok_then, mixT_ok T hc _ 4 (by omega) _ rfl, ok_then,
      mixT_ok T hc _ 5 (by omega) _ rfl, ok_then, mixT_ok T hc _ 6 (by omega) _ rfl, ok_then, mixT_ok T hc _ 7 (by omega) _ rfl]
    rfl

theorem block_ok (T : Word w) (ld : Bytes → Nat → M (BitVec w)) (bs : Nat) (hc : T.c.length = 16) (hl : ∀ b, (T.loads 16 b).length = 16)
    (padding final : Bool) (total : BitVec 64) (k : Locals.Blake.Stack w) (hk : k.Sized) (data b : Bytes) (blk : Nat)
    (hld : ∀ i, i < 16 → ld data (blk * 16 + i) = .ok ((T.loads 16 b).getD i 0)) (H : List (BitVec w)) (hH : H.length = 12) :
    Locals.Blake.block T ld bs padding final total k data blk H = .ok (compress T (counters T padding (totalbytes bs final total blk)) b H) := by
  obtain ⟨k1, k2⟩ := hk
  have eM : Locals.Blake.loadM T ld data blk k.M = .ok ((T.loads 16 b).map T.byteswap) := by
    rw [map_getD T.byteswap _ 0 16 (hl b)]
    refine fill_all 0 _ 16 0 (by omega) _ _ k1 (by omega) fun t a _ ht ha _ => ?_
    rw [hld t ht, ok_then, wr_ok _ (by omega)]
  have hM : ((T.loads 16 b).map T.byteswap).length = 16 := by rw [List.length_map, hl]
  unfold Locals.Blake.block
  rw [eM, ok_then]
  generalize counters T padding (totalbytes bs final total blk) = t
  match H, hH with
  | [h0, h1, h2, h3, h4, h5, h6, h7, s0, s1, s2, s3], _ =>
    rw [start_ok T hc t _ _ _ _ _ _ _ _ _ _ _ _ k.v k2, ok_then]
    obtain ⟨er, lr⟩ := rounds_ok (Locals.Blake.G T ((T.loads 16 b).map T.byteswap)) (Blake.G T ((T.loads 16 b).map T.byteswap)) T.rounds
      (fun r _ i hi q => G_ok T hc _ hM r i hi q)
      [h0, h1, h2, h3, h4, h5, h6, h7, s0 ^^^ T.c.getD 0 0, s1 ^^^ T.c.getD 1 0, s2 ^^^ T.c.getD 2 0, s3 ^^^ T.c.getD 3 0,
        t.1 ^^^ T.c.getD 4 0, t.1 ^^^ T.c.getD 5 0, t.2 ^^^ T.c.getD 6 0, t.2 ^^^ T.c.getD 7 0] rfl
    rw [er, ok_then]
    unfold compress
    dsimp only
    rw [show List.take 8 [h0, h1, h2, h3, h4, h5, h6, h7, s0, s1, s2, s3] = [h0, h1, h2, h3, h4, h5, h6, h7] from rfl]
    simp only [List.cons_append, List.nil_append]
    simp only [show [h0, h1, h2, h3, h4, h5, h6, h7, s0, s1, s2, s3].getD 8 0 = s0 from rfl, show [h0, h1, h2, h3, h4, h5, h6, h7, s0, s1, s2, s3].getD 9 0 = s1 from rfl,
      show [h0, h1, h2, h3, h4, h5, h6, h7, s0, s1, s2, s3].getD 10 0 = s2 from rfl, show [h0, h1, h2, h3, h4, h5, h6, h7, s0, s1, s2, s3].getD 11 0 = s3 from rfl]
    revert lr
    generalize (List.range T.rounds).foldl _ _ = v
    intro lr
    match v, lr with
    | [v0, v1, v2, v3, v4, v5, v6, v7, v8, v9, v10, v11, v12, v13, v14, v15], _ => rfl

theorem compress_length (T : Word w) (t : BitVec w × BitVec w) (b : Bytes) (H : List (BitVec w)) : (compress T t b H).length = 12 := rfl

theorem transform_eq (k512 : Nat → Locals.Blake.Stack 64) (k256 : Nat → Locals.Blake.Stack 32) (h512 : ∀ i, (k512 i).Sized) (h256 : ∀ i, (k256 i).Sized)
    (padding final : Bool) (data : Bytes) (n : Nat) (s : Blk St) (hd : n * blockBytes s.h.hs ≤ data.length) (hs5 : s.h.H512.length = 12)
    (hs2 : s.h.H256.length = 12) :
    Locals.Blake.transform k512 k256 padding final data n s = Blake.transform padding final data n s := by
  unfold Locals.Blake.transform Blake.transform
  by_cases hh : s.h.hs > 256
  · rw [if_pos hh]
    have hb : blockBytes s.h.hs = 128 := if_pos hh
    rw [hb] at hd ⊢
    rw [blocks_eq 128 data n hd (fun H : List (BitVec 64) => H.length = 12) _
      (fun blk b H => pure (compress u64 (counters u64 padding (totalbytes 128 final s.total blk)) b H)) ?_ _ hs5]
    · rw [forBlocks_lens 128 data n (fun blk b H => pure (compress u64 (counters u64 padding (totalbytes 128 final s.total blk)) b H))
        (fun blk b h => pure (Blake.block padding final s.total blk b h)) (fun H => { s.h with H512 := H }) ?_ s.h.H512]
      · cases forBlocks 128 data n (fun blk b H => pure (compress u64 (counters u64 padding (totalbytes 128 final s.total blk)) b H)) s.h.H512 <;> rfl
      · intro blk b H
        unfold Blake.block
        dsimp only
        rw [if_pos hh]
        rfl
    · intro blk b H _ hr _ hH
      refine ⟨block_ok u64 rd64 128 (by decide +kernel) (loads64_length 16) padding final s.total _ (h512 blk) data b blk
        (fun i hi => rd64_block (n := 16) hr hi) H hH, fun _ h => by cases h; rfl⟩
  · rw [if_neg hh]
    have hb : blockBytes s.h.hs = 64 := if_neg hh
    rw [hb] at hd ⊢
    rw [blocks_eq 64 data n hd (fun H : List (BitVec 32) => H.length = 12) _
      (fun blk b H => pure (compress u32 (counters u32 padding (totalbytes 64 final s.total blk)) b H)) ?_ _ hs2]
    · rw [forBlocks_lens 64 data n (fun blk b H => pure (compress u32 (counters u32 padding (totalbytes 64 final s.total blk)) b H))
        (fun blk b h => pure (Blake.block padding final s.total blk b h)) (fun H => { s.h with H256 := H }) ?_ s.h.H256]
      · cases forBlocks 64 data n (fun blk b H => pure (compress u32 (counters u32 padding (totalbytes 64 final s.total blk)) b H)) s.h.H256 <;> rfl
      · intro blk b H
        unfold Blake.block
        dsimp only
        rw [if_neg hh]
        rfl
    · intro blk b H _ hr _ hH
      refine ⟨block_ok u32 rd32 64 (by decide +kernel) (loads32_length 16) padding final s.total _ (h256 blk) data b blk
        (fun i hi => rd32_block (n := 16) hr hi) H hH, fun _ h => by cases h; rfl⟩

end Digestpp.Proofs.Locals.Blake

namespace Digestpp.Proofs.Locals.Blake2
open Model Model.Blake2
open Model.Blake (Quad)

variable {w : Nat}

theorem G_ok (T : Word w) (Mw : List (BitVec w)) (hM : Mw.length = 16) (r i : Nat) (hr : r < 12) (hi : i < 8) (q : Quad w) :
    Locals.Blake2.G T Mw r i q = .ok (Blake2.G T Mw r i q) := by
  have hS : blake2_S.length = 12 ∧ ∀ row ∈ blake2_S, row.length = 16 ∧ ∀ x ∈ row, x.toNat < 16 := ⟨rfl, Blake.rows_ok _ (by decide +kernel)⟩
  obtain ⟨p0, b0⟩ := Blake.perm_ok blake2_S 12 hS.1 hS.2 r (2 * i) (by omega) (by omega)
  obtain ⟨p1, b1⟩ := Blake.perm_ok blake2_S 12 hS.1 hS.2 r (2 * i + 1) (by omega) (by omega)
  unfold Locals.Blake2.G
  rw [p0, p1, ok_then, rd_ok 0 (by omega), ok_then, ok_then, rd_ok 0 (by omega), ok_then]
  rfl

theorem mixIV_ok (T : Word w) (hc : T.IV.length = 8) (i : Nat) (hi : i < 8) (v : List (BitVec w)) (hv : v.length = 16) :
    Locals.Blake2.mixIV T i v = .ok (v.set (8 + i) (T.IV.getD i 0)) := by
  unfold Locals.Blake2.mixIV
  rw [rd_ok 0 (by omega), ok_then, wr_ok _ (by omega)]

theorem mixT_ok (T : Word w) (hc : T.IV.length = 8) (t : BitVec w) (i : Nat) (hi : i < 8) (v : List (BitVec w)) (hv : v.length = 16) :
    Locals.Blake2.mixT T t i v = .ok (v.set (8 + i) (t ^^^ T.IV.getD i 0)) := by
  unfold Locals.Blake2.mixT
  rw [rd_ok 0 (by omega), ok_then, wr_ok _ (by omega)]

theorem start_ok (T : Word w) (hc : T.IV.length = 8) (tb : BitVec 64) (f0 f1 : BitVec w) (h0 h1 h2 h3 h4 h5 h6 h7 : BitVec w) (v : List (BitVec w))
    (hv : v.length = 16) :
    Locals.Blake2.start T tb f0 f1 [h0, h1, h2, h3, h4, h5, h6, h7] v =
      .ok [h0, h1, h2, h3, h4, h5, h6, h7, T.IV.getD 0 0, T.IV.getD 1 0, T.IV.getD 2 0, T.IV.getD 3 0,
        tb.setWidth w ^^^ T.IV.getD 4 0, T.t1 tb ^^^ T.IV.getD 5 0, f0 ^^^ T.IV.getD 6 0, f1 ^^^ T.IV.getD 7 0] := by
  match v, hv with
  | [v0, v1, v2, v3, v4, v5, v6, v7, v8, v9, v10, v11, v12, v13, v14, v15], _ =>
    unfold Locals.Blake2.start
    rw [Blake.copy8_ok, ok_then, mixIV_ok T hc 0 (by omega) _ rfl, ok_then, mixIV_ok T hc 1 (by omega) _ rfl, ok_then,
      mixIV_ok T hc 2 (by omega) _ rfl, ok_then, mixIV_ok T hc 3 (by omega) _ rfl, ok_then, mixT_ok T hc _ 4 (by omega) _ rfl, ok_then,
      mixT_ok T hc _ 5 (by omega) _ rfl, ok_then, mixT_ok T hc _ 6 (by omega) _ rfl, ok_then, mixT_ok T hc _ 7 (by omega) _ rfl]
    rfl

theorem block_ok (T : Word w) (ld : Bytes → Nat → M (BitVec w)) (hc : T.IV.length = 8) (hn : T.rounds ≤ 12) (hl : ∀ b, (T.loads 16 b).length = 16)
    (padding : Bool) (total : BitVec 64) (k : Locals.Blake.Stack w) (hk : k.Sized) (data b : Bytes) (blk : Nat)
    (hld : ∀ i, i < 16 → ld data (blk * 16 + i) = .ok ((T.loads 16 b).getD i 0)) (h : St w) (hH : h.H.length = 8) :
    Locals.Blake2.block T ld padding total k data blk h = .ok (Blake2.block T padding total blk b h) := by
  obtain ⟨k1, k2⟩ := hk
  have eM : Locals.Blake2.loadM ld data blk k.M = .ok (T.loads 16 b) := by
    rw [← map_range_getD (T.loads 16 b) 0 16 (hl b)]
    refine fill_all 0 _ 16 0 (by omega) _ _ k1 (by omega) fun t a _ ht ha _ => ?_
    rw [hld t ht, ok_then, wr_ok _ (by omega)]
  have hM := hl b
  unfold Locals.Blake2.block Blake2.block
  rw [eM, ok_then]
  generalize totalbytes w padding total blk = tb
  generalize flag0 w padding = f0
  generalize flag1 padding h = f1
  obtain ⟨H, s, p, kk, hs, xo, sq, fo, nd, no⟩ := h
  dsimp only at hH ⊢
  match H, hH with
  | [h0, h1, h2, h3, h4, h5, h6, h7], _ =>
    rw [start_ok T hc tb f0 f1 _ _ _ _ _ _ _ _ k.v k2, ok_then]
    obtain ⟨er, lr⟩ := Blake.rounds_ok (Locals.Blake2.G T (T.loads 16 b)) (Blake2.G T (T.loads 16 b)) T.rounds
      (fun r hr i hi q => G_ok T _ hM r i (by omega) hi q)
      [h0, h1, h2, h3, h4, h5, h6, h7, T.IV.getD 0 0, T.IV.getD 1 0, T.IV.getD 2 0, T.IV.getD 3 0,
        tb.setWidth w ^^^ T.IV.getD 4 0, T.t1 tb ^^^ T.IV.getD 5 0, f0 ^^^ T.IV.getD 6 0, f1 ^^^ T.IV.getD 7 0] rfl
    rw [er, ok_then]
    unfold compress
    dsimp only
    rw [show List.take 8 [h0, h1, h2, h3, h4, h5, h6, h7] = [h0, h1, h2, h3, h4, h5, h6, h7] from rfl]
    simp only [List.cons_append, List.nil_append]
    revert lr
    generalize (List.range T.rounds).foldl _ _ = v
    intro lr
    match v, lr with
    | [v0, v1, v2, v3, v4, v5, v6, v7, v8, v9, v10, v11, v12, v13, v14, v15], _ => rfl

theorem transform_eq (T : Word w) (ld : Bytes → Nat → M (BitVec w)) (hc : T.IV.length = 8) (hn : T.rounds ≤ 12) (hl : ∀ b, (T.loads 16 b).length = 16)
    (hld : ∀ data blk b i, readBytes data (blk * (2 * w)) (2 * w) = .ok b → i < 16 → ld data (blk * 16 + i) = .ok ((T.loads 16 b).getD i 0))
    (k : Nat → Locals.Blake.Stack w) (hk : ∀ i, (k i).Sized)
    (padding : Bool) (data : Bytes) (n : Nat) (hd : n * (2 * w) ≤ data.length) (s : Blk (St w)) (hs : s.h.H.length = 8) :
    Locals.Blake2.transform T ld k padding data n s = Blake2.transform T padding data n s := by
  unfold Locals.Blake2.transform Blake2.transform
  rw [blocks_eq (2 * w) data n hd (fun h : St w => h.H.length = 8) _ (fun blk b h => pure (Blake2.block T padding s.total blk b h)) ?_ s.h hs]
  intro blk b h _ hr _ hH
  exact ⟨block_ok T ld hc hn hl padding s.total _ (hk blk) data b blk (fun i hi => hld data blk b i hr hi) h hH, fun _ h => by cases h; rfl⟩

end Digestpp.Proofs.Locals.Blake2
