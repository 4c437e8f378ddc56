import Verif.Proofs.Blake2
import Verif.Proofs.Shake

/-! BLAKE2X: the output blocks. -/

namespace Digestpp.Proofs
open Model Spec

/-- Reading from block `q / r` gives a slice of the stream made of the blocks. -/
theorem read_blocks (r : Nat) (hr : 0 < r) (blk : Nat → Bytes) (q k : Nat) (hl : (blk (q / r)).length = r) (hk : q % r + k ≤ r) :
    readBytes (blk (q / r)) (q % r) k = .ok (slice (fun j => (blk (j / r)).getD (j % r) 0) q k) := by
  rw [readBytes_ok _ _ _ (by omega), ← Keccak.map_getD_take _ 0 _ (by rw [List.length_drop]; omega)]
  congr 1
  unfold slice
  apply List.map_congr_left
  intro i hi
  rw [List.mem_range] at hi
  have h1 : (q + i) / r = q / r := by
    rw [Nat.div_eq_iff hr]
    have := Nat.div_add_mod q r
    rw [Nat.mul_comm] at this
    omega
  have h2 : (q + i) % r = q % r + i := by
    have e1 := Nat.div_add_mod (q + i) r
    have e2 := Nat.div_add_mod q r
    rw [h1] at e1
    omega
  dsimp only
  rw [h1, h2]
  simp only [List.getD_eq_getElem?_getD, List.getElem?_drop]

/-- The blocks one after the other, the last cut off. -/
theorem flatMap_blocks (r : Nat) (hr : 0 < r) (blk : Nat → Bytes) (hl : ∀ i, (blk i).length = r) (n k : Nat) :
    ((List.range k).flatMap fun i => (blk i).take (min r (n - i * r))) = slice (fun j => (blk (j / r)).getD (j % r) 0) 0 (min (k * r) n) := by
  induction k with
  | zero => simp [slice]
  | succ k ih =>
    rw [List.range_succ, List.flatMap_append, ih, List.flatMap_singleton]
    by_cases h : k * r ≤ n
    · rw [Nat.min_eq_left h]
      have h1 : k * r / r = k := Nat.mul_div_cancel _ hr
      have h2 : k * r % r = 0 := Nat.mul_mod_left _ _
      have e := read_blocks r hr blk (k * r) (min r (n - k * r)) (by rw [hl]) (by rw [h2]; omega)
      rw [h1, h2, readBytes_ok _ _ _ (by rw [hl]; omega), List.drop_zero] at e
      rw [Except.ok.inj e]
      have := slice_append (fun j => (blk (j / r)).getD (j % r) 0) 0 (k * r) (min r (n - k * r))
      rw [Nat.zero_add] at this
      rw [this]
      congr 1
      rw [Nat.add_mul]
      omega
    · rw [show n - k * r = 0 by omega, Nat.min_zero, List.take_zero, List.append_nil, Nat.add_mul]
      congr 1
      omega

namespace Blake2
open Model.Blake2 (Word St Kind)
open Spec.Blake2 (Variant Params Theta)

variable {w : Nat} {T : Word w} {v : Variant w}

/-- The fields while squeezing. -/
def sqz (H : List (BitVec w)) (θ : Theta) (hs : Nat) (x : BitVec 64) : St w :=
  ⟨H, leWords w θ.salt, leWords w θ.personal, θ.key, hs, x, true, 0, 0, 0⟩

/-- Output block `i`. -/
def blk (v : Variant w) (θ : Theta) (lenf : Nat → Nat) (x : Nat) (root : Bytes) (i : Nat) : Bytes :=
  Spec.Blake2.core v (b2Params w θ (lenf i) i x) false root

/-- The output stream. -/
def strm (v : Variant w) (θ : Theta) (lenf : Nat → Nat) (x : Nat) (root : Bytes) (j : Nat) : Byte :=
  (blk v θ lenf x root (j / w)).getD (j % w) 0

/-- The chaining value holding output block `i`. -/
def och (v : Variant w) (θ : Theta) (lenf : Nat → Nat) (x : Nat) (root : Bytes) (i : Nat) : List (BitVec w) :=
  arr (chain v (b2Params w θ (lenf i) i x) false root)

theorem front_root (hw : 0 < w) {root : Bytes} (hr : root.length = w) : front (2 * w) root = 0 := by
  unfold front
  exact Nat.div_eq_of_lt (by omega)

theorem fits_b2 (hw : w = 32 ∨ w = 64) (θ : Theta) (hθ : Valid w θ) (len i x : Nat) (hlen : len ≤ w) (hi : i < 2 ^ 32)
    (hx : x < 2 ^ (w / 2)) : Fits w (b2Params w θ len i x) :=
  ⟨show len < 256 by omega, show 0 < 256 by omega, show 0 < 256 by omega, show 0 < 256 by omega, show w < 2 ^ 32 by omega,
    hi, hx, show 0 < 256 by omega, show w < 256 by omega, hθ.salt, hθ.personal⟩

theorem loop_ok (ok : WordOk T v) (kind : Kind) (θ : Theta) (hθ : Valid w θ) (lenf : Nat → Nat) (x : Nat) (root : Bytes)
    (hroot : root.length = w) (n0 hs : Nat) (rhs : BitVec w) (hrhs : (if kind = .xof then -1 else BitVec.ofNat w hs) = rhs)
    (hx : rhs.toNat % 2 ^ (w / 2) = x) (hxl : x < 2 ^ (w / 2)) (hlenf : ∀ i, lenf i ≤ w)
    (hlen : ∀ p, p < hs → (n0 + p) % w = 0 → (if rhs = -1 then w else min (szSub hs p) w) = lenf ((n0 + p) / w))
    (hout : n0 + hs ≤ 2 ^ 32 * w) (shs : Nat) (fuel : Nat) :
    ∀ (p : Nat) (H : List (BitVec w)) (m : Bytes) (pos : Nat) (t : BitVec 64), hs - p ≤ fuel → p < hs → (n0 + p) % w = 0 →
    m.length = 2 * w → m.take w = root →
    Model.Blake2.squeezeLoop T kind hs fuel (slice (strm v θ lenf x root) n0 p) ⟨sqz H θ shs (BitVec.ofNat 64 ((n0 + p) / w)), m, pos, t⟩
      = .ok (slice (strm v θ lenf x root) n0 hs,
          ⟨sqz (och v θ lenf x root ((n0 + hs - 1) / w)) θ shs (BitVec.ofNat 64 ((n0 + hs - 1) / w + 1)),
            root ++ List.replicate w 0, (n0 + hs - 1) % w + 1, BitVec.ofNat 64 (8 * w)⟩) := by
  have hw := ok.w2
  have hw' : w = 32 ∨ w = 64 := by omega
  have hw0 : 0 < w := by omega
  induction fuel with
  | zero => intro p H m pos t h1 h2; omega
  | succ fuel ih =>
    intro p H m pos t hf hp hq hml hmt
    obtain ⟨i, hi⟩ : ∃ i, i = (n0 + p) / w := ⟨_, rfl⟩
    have hq1 := Nat.div_add_mod (n0 + p) w
    rw [hq, Nat.add_zero, ← hi] at hq1
    have hi32 : i < 2 ^ 32 := by
      rw [hi]
      apply Nat.div_lt_of_lt_mul
      rw [Nat.mul_comm]
      omega
    have hfit := fits_b2 hw' θ hθ (lenf i) i x (hlenf i) hi32 hxl
    have hH := initX_eq ok θ hs p i rhs (lenf i) x (by rw [hi]; exact hlen p hp hq) hx hfit
    have hmem : memset m w 0 (2 * w - w) = .ok (tail w root) := by
      unfold memset tail
      rw [if_pos (by omega), front_root hw0 hroot, hmt, List.drop_of_length_le (by omega), List.append_nil, Nat.zero_mul, List.drop_zero,
        hroot, Nat.sub_zero]
    have htl : tail w root = root ++ List.replicate w 0 := by
      unfold tail
      rw [front_root hw0 hroot, Nat.zero_mul, List.drop_zero, hroot, show 2 * w - (w - 0) = w by omega]
    have hmid : mid v (b2Params w θ (lenf i) i x) root = h0 v (b2Params w θ (lenf i) i x) := by
      unfold mid
      rw [front_root hw0 hroot]
      rfl
    have hx1 : BitVec.ofNat 64 i + 1 = BitVec.ofNat 64 (i + 1) := (BitVec.ofNat_add i 1).symm
    have htr : Model.Blake2.transform T true (tail w root) 1
        ⟨sqz (arr (h0 v (b2Params w θ (lenf i) i x))) θ shs (BitVec.ofNat 64 (i + 1)), tail w root, pos, BitVec.ofNat 64 (8 * w)⟩
        = .ok ⟨sqz (och v θ lenf x root i) θ shs (BitVec.ofNat 64 (i + 1)), tail w root, pos, BitVec.ofNat 64 (8 * w)⟩ := by
      rw [transform_last ok _ (tail w root) (length_tail hw0 root) (h0 v (b2Params w θ (lenf i) i x)) rfl w (by omega) rfl false
        (by unfold Model.Blake2.flag1; rw [if_pos rfl, if_neg (fun h => h.1 rfl)]; rfl)]
      unfold och chain
      rw [hmid, hroot]
      rfl
    unfold Model.Blake2.squeezeLoop
    rw [length_slice, if_pos hp, hrhs, hmem, ok_bind, ← hi]
    have hH' : Model.Blake2.initSalt (sqz H θ shs (BitVec.ofNat 64 i)).s (sqz H θ shs (BitVec.ofNat 64 i)).p
        (Model.Blake2.initX T hs p (sqz H θ shs (BitVec.ofNat 64 i)).xoffset rhs) = arr (h0 v (b2Params w θ (lenf i) i x)) := hH
    rw [hH']
    have hst : ({ sqz H θ shs (BitVec.ofNat 64 i) with
          H := arr (h0 v (b2Params w θ (lenf i) i x))
          xoffset := (sqz H θ shs (BitVec.ofNat 64 i)).xoffset + 1 } : St w)
        = sqz (arr (h0 v (b2Params w θ (lenf i) i x))) θ shs (BitVec.ofNat 64 (i + 1)) := by
      rw [← hx1]; rfl
    dsimp only at hst ⊢
    rw [hst, htr, ok_bind]
    have hsto : T.stores (sqz (och v θ lenf x root i) θ shs (BitVec.ofNat 64 (i + 1))).H = blk v θ lenf x root i := stores_eq ok _ _ _
    dsimp only
    rw [hsto]
    have hrd := read_blocks w hw0 (blk v θ lenf x root) (n0 + p) (min (hs - p) w) (length_core hw' _ _ _) (by rw [hq]; omega)
    rw [hq, ← hi] at hrd
    rw [hrd, ok_bind]
    rw [show slice (fun j => (blk v θ lenf x root (j / w)).getD (j % w) 0) (n0 + p) (min (hs - p) w)
      = slice (strm v θ lenf x root) (n0 + p) (min (hs - p) w) from rfl, slice_append, htl]
    by_cases hle : hs - p ≤ w
    · rw [Nat.min_eq_left hle, show p + (hs - p) = hs by omega]
      have hdone : ∀ s : Blk (St w), Model.Blake2.squeezeLoop T kind hs fuel (slice (strm v θ lenf x root) n0 hs) s
          = .ok (slice (strm v θ lenf x root) n0 hs, s) := by
        intro s
        cases fuel with
        | zero => rfl
        | succ f =>
          unfold Model.Blake2.squeezeLoop
          rw [length_slice, if_neg (by omega)]; rfl
      rw [hdone]
      have e1 : (n0 + hs - 1) / w = i := by
        rw [Nat.div_eq_iff hw0, Nat.mul_comm]
        omega
      have e2 : (n0 + hs - 1) % w + 1 = hs - p := by
        have := Nat.div_add_mod (n0 + hs - 1) w
        rw [e1] at this
        omega
      rw [e1, e2]
    · rw [Nat.min_eq_right (by omega)]
      have hnx : n0 + (p + w) = n0 + p + w := by omega
      have e3 : (n0 + (p + w)) / w = i + 1 := by rw [hnx, Nat.add_div_right _ hw0, hi]
      have := ih (p + w) (och v θ lenf x root i) (root ++ List.replicate w 0) w (BitVec.ofNat 64 (8 * w)) (by omega) (by omega)
        (by rw [hnx, Nat.add_mod_right]; exact hq) (by simp; omega) (by rw [← hroot, List.take_left'  rfl])
      rw [e3] at this
      exact this

/-- The state after the first part of the first `squeeze`. -/
theorem squeezeFirst_ok (ok : WordOk T v) (kind : Kind) {θ : Theta} {hs n : Nat} {p : Params} {data : Bytes} {s : Blk (St w)}
    (h : Abs T v θ hs 0 0 0 p data s) (hl : data.length < 2 ^ 61) (t : BitVec 64)
    (ht : (if kind = .xof then t + BitVec.ofNat 64 (s.pos * 8) else t) = s.total + BitVec.ofNat 64 (s.pos * 8)) :
    ∃ m t', m.length = 2 * w ∧ m.take w = Spec.Blake2.core v p false data ∧
      Model.Blake2.squeezeFirst T kind n { s with total := t }
        = .ok ([], ⟨sqz (arr (chain v p false data)) θ hs 0, m, s.pos, t'⟩) := by
  have hw := ok.w2
  have hw' : w = 32 ∨ w = 64 := by omega
  obtain ⟨hh, htt⟩ := h.last ok hl
  obtain ⟨hb, m, pos, total⟩ := s
  dsimp only at hh htt ht
  subst hh
  have hc := length_core (v := v) hw' p false data
  have hmem : memcpyTo (tail w data) 0 (Spec.Blake2.core v p false data)
      = .ok (Spec.Blake2.core v p false data ++ (tail w data).drop w) := by
    unfold memcpyTo
    rw [if_pos (by rw [length_tail (by omega), hc]; omega), List.take_zero, List.nil_append, hc, Nat.zero_add]
  refine ⟨Spec.Blake2.core v p false data ++ (tail w data).drop w, BitVec.ofNat 64 (8 * data.length), ?_, ?_, ?_⟩
  · rw [List.length_append, List.length_drop, length_tail (by omega), hc]; omega
  · exact List.take_left' hc
  · unfold Model.Blake2.squeezeFirst
    rw [if_pos (show (base (arr (mid v p data)) θ hs 0 0 0 : St w).squeezing = false from rfl)]
    dsimp only
    rw [ht, htt]
    show Model.Blake2.lastBlock T ⟨sqz (arr (mid v p data)) θ hs 0, m, pos, BitVec.ofNat 64 (8 * data.length)⟩ >>= _ = _
    rw [lastBlock_ok ok p false data hl
      ⟨sqz (arr (mid v p data)) θ hs 0, m, pos, BitVec.ofNat 64 (8 * data.length)⟩ h.mlen h.pos h.buf rfl rfl
      (by unfold Model.Blake2.flag1; rw [if_pos rfl, if_neg (fun h => h.1 rfl)]; rfl), ok_bind]
    dsimp only
    rw [stores_eq ok, hmem, ok_bind]
    rfl

/-- **BLAKE2Xb and BLAKE2Xs** with known output size. -/
theorem refines_xhash (ok : WordOk T v) (keep : Bool) (hs : Nat) (hpos : 0 < hs / 8) (hmax : hs / 8 < 2 ^ (w / 2)) :
    HashRefines (Model.Blake2.provider T .xHash) (Spec.Blake2.xfn v keep (hs / 8)) (cover keep) (R T v .xHash hs) := by
  have hw := ok.w2
  have hw' : w = 32 ∨ w = 64 := by omega
  have hw0 : 0 < w := by omega
  have hdig : ∀ θ msg, (Spec.Blake2.xfn v keep (hs / 8)).digest θ msg
      = slice (strm v θ (fun i => min w (hs / 8 - i * w)) (hs / 8) (Spec.Blake2.root v θ (hs / 8) msg)) 0 (hs / 8) := by
    intro θ msg
    have e := flatMap_blocks w hw0 (blk v θ (fun i => min w (hs / 8 - i * w)) (hs / 8) (Spec.Blake2.root v θ (hs / 8) msg))
      (fun i => length_core hw' _ _ _) (hs / 8) ((hs / 8 + w - 1) / w)
    have e1 : min ((hs / 8 + w - 1) / w * w) (hs / 8) = hs / 8 := by
      apply Nat.min_eq_right
      have h1 := Nat.div_add_mod (hs / 8 + w - 1) w
      have h2 := Nat.mod_lt (hs / 8 + w - 1) hw0
      rw [Nat.mul_comm] at h1
      omega
    rw [e1] at e
    exact e
  refine refines ok .xHash keep hs hmax _ rfl hpos rfl rfl ?_ ?_
  · intro θ msg
    rw [hdig, length_slice]
    rfl
  · intro θ msg s h hl
    have hk := length_keyed (2 * w) θ.key msg (by have := h.1.key; omega)
    obtain ⟨m, t, hm1, hm2, e⟩ := squeezeFirst_ok ok .xHash (n := hs / 8) (h.2.2 hl) (by omega) (s.total + BitVec.ofNat 64 (s.pos * 8))
      (if_neg (by decide))
    have hh : s.h.hs = hs := h.2.1.inv.par.hs
    unfold Model.Blake2.final
    dsimp only
    rw [if_neg (by decide), if_neg (by decide), hh]
    unfold Model.Blake2.squeeze
    rw [e, ok_bind]
    have hp32 : 2 ^ (w / 2) ≤ 2 ^ 32 := Nat.pow_le_pow_right (by omega) (by omega)
    have hpw : 2 ^ (w / 2) ≤ 2 ^ w := Nat.pow_le_pow_right (by omega) (by omega)
    obtain ⟨rhs, hrhs⟩ : ∃ rhs, rhs = BitVec.ofNat w (hs / 8) := ⟨_, rfl⟩
    have hrt : rhs.toNat = hs / 8 := by rw [hrhs, BitVec.toNat_ofNat]; exact Nat.mod_eq_of_lt (by omega)
    have hne : rhs ≠ -1 := by
      intro hc
      have : rhs.toNat = 2 ^ w - 1 := by
        rw [hc]
        rcases hw' with rfl | rfl <;> decide
      have h1 : 2 ^ (w / 2) < 2 ^ w := Nat.pow_lt_pow_right (by omega) (by omega)
      omega
    have hloop := loop_ok ok .xHash θ h.1 (fun i => min w (hs / 8 - i * w)) (hs / 8) (Spec.Blake2.root v θ (hs / 8) msg)
      (length_core hw' _ _ _) 0 (hs / 8) rhs (by rw [hrhs]; exact if_neg (by decide)) (by rw [hrt]; exact Nat.mod_eq_of_lt hmax) hmax
      (fun i => Nat.min_le_left _ _)
      (by
        intro p hp hq
        rw [if_neg hne, szSub_eq _ _ (by omega) (by unfold szMod; omega), Nat.min_comm]
        have := Nat.div_add_mod (0 + p) w
        rw [hq, Nat.mul_comm] at this
        rw [show (0 + p) / w * w = p by omega])
      (by have : hs / 8 * 1 ≤ 2 ^ 32 * w := Nat.mul_le_mul (by omega) hw0
          omega) hs (hs / 8) 0 (arr (chain v (seq w .xHash hs θ) false (Spec.Blake2.keyed (2 * w) θ.key msg))) m s.pos t
      (by omega) hpos (by rw [Nat.add_zero]; exact Nat.zero_mod _) hm1 hm2
    rw [slice_nil, Nat.add_zero, Nat.zero_div] at hloop
    have h0 : (0 : BitVec 64) = BitVec.ofNat 64 0 := rfl
    rw [h0]
    dsimp only
    rw [hloop, hdig]
    rfl

/-- The output of `xof` as a stream. -/
theorem xof_stream (ok : WordOk T v) (keep : Bool) (θ : Theta) (msg : Bytes) :
    (Spec.Blake2.xof v keep).stream θ msg
      = strm v θ (fun _ => w) (2 ^ (w / 2) - 1) (Spec.Blake2.root v θ (2 ^ (w / 2) - 1) msg) := by
  have hw := ok.w2
  have hx : 256 ^ v.xlen - 1 = 2 ^ (w / 2) - 1 := by
    rcases hw with ⟨rfl, h⟩ | ⟨rfl, h⟩ <;> rw [h] <;> rfl
  funext j
  show ((Spec.Blake2.core _ _ _ _).take w).getD (j % w) 0 = _
  rw [List.take_of_length_le (by rw [length_core (by omega)]; exact Nat.le_refl _), hx]
  rfl

/-- `s` has given `n > 0` bytes of the output for the root `root`. -/
structure Sq (T : Word w) (v : Variant w) (θ : Theta) (hs x : Nat) (root : Bytes) (n : Nat) (s : Blk (St w)) : Prop where
  h : s.h = sqz (och v θ (fun _ => w) x root ((n - 1) / w)) θ hs (BitVec.ofNat 64 ((n - 1) / w + 1))
  m : s.m = root ++ List.replicate w 0
  pos : s.pos = (n - 1) % w + 1

/-- The loop, from any position at the end of a block. -/
theorem xloop (ok : WordOk T v) (θ : Theta) (hθ : Valid w θ) (root : Bytes) (hroot : root.length = w) (hs n p k : Nat) (hp : p < k)
    (hq : (n + p) % w = 0) (hout : n + k ≤ 2 ^ 32 * w) (H : List (BitVec w)) (m : Bytes) (pos : Nat) (t : BitVec 64)
    (hm1 : m.length = 2 * w) (hm2 : m.take w = root) :
    ∃ s', Model.Blake2.squeezeLoop T .xof k k (slice (strm v θ (fun _ => w) (2 ^ (w / 2) - 1) root) n p)
        ⟨sqz H θ hs (BitVec.ofNat 64 ((n + p) / w)), m, pos, t⟩
      = .ok (slice (strm v θ (fun _ => w) (2 ^ (w / 2) - 1) root) n k, s') ∧ Sq T v θ hs (2 ^ (w / 2) - 1) root (n + k) s' := by
  have hw := ok.w2
  have hlt : 2 ^ (w / 2) - 1 < 2 ^ (w / 2) := Nat.sub_lt (Nat.two_pow_pos _) (by omega)
  have e := loop_ok ok .xof θ hθ (fun _ => w) (2 ^ (w / 2) - 1) root hroot n k (-1) (if_pos rfl)
    (by rcases hw with ⟨h, _⟩ | ⟨h, _⟩ <;> subst h <;> decide) hlt (fun _ => Nat.le_refl _) (fun _ _ _ => if_pos rfl) hout hs k p H m pos t
    (by omega) hp hq hm1 hm2
  exact ⟨_, e, rfl, rfl, rfl⟩

theorem squeeze_next (ok : WordOk T v) (θ : Theta) (hθ : Valid w θ) (root : Bytes) (hroot : root.length = w) (hs n k : Nat) (hn : 0 < n)
    (hk : 0 < k) (hout : n + k ≤ 2 ^ 32 * w) (s : Blk (St w)) (h : Sq T v θ hs (2 ^ (w / 2) - 1) root n s) :
    ∃ s', Model.Blake2.squeeze T .xof k s = .ok (slice (strm v θ (fun _ => w) (2 ^ (w / 2) - 1) root) n k, s') ∧
      Sq T v θ hs (2 ^ (w / 2) - 1) root (n + k) s' := by
  have hw := ok.w2
  have hw' : w = 32 ∨ w = 64 := by omega
  have hw0 : 0 < w := by omega
  obtain ⟨hh, hm, hpos⟩ := h
  obtain ⟨hb, m, pos, t⟩ := s
  dsimp only at hh hm hpos
  subst hh hm hpos
  have hlt := Nat.mod_lt (n - 1) hw0
  have hdm := Nat.div_add_mod (n - 1) w
  have hl1 : (root ++ List.replicate w (0 : Byte)).length = 2 * w := by simp; omega
  have hl2 : (root ++ List.replicate w (0 : Byte)).take w = root := List.take_left' hroot
  obtain ⟨i, hi⟩ : ∃ i, i = (n - 1) / w := ⟨_, rfl⟩
  have hsto : T.stores (sqz (och v θ (fun _ => w) (2 ^ (w / 2) - 1) root i) θ hs (BitVec.ofNat 64 (i + 1))).H
      = blk v θ (fun _ => w) (2 ^ (w / 2) - 1) root i := stores_eq ok _ _ _
  have hsq : ¬(sqz (och v θ (fun _ => w) (2 ^ (w / 2) - 1) root i) θ hs (BitVec.ofNat 64 (i + 1))).squeezing = false := by
    intro h; cases h
  rw [← hi] at hdm ⊢
  unfold Model.Blake2.squeeze Model.Blake2.squeezeFirst
  dsimp only
  rw [if_neg hsq]
  by_cases hc : (n - 1) % w + 1 < w
  · rw [if_pos hc, hsto]
    have e1 : n / w = i := by rw [Nat.div_eq_iff hw0, Nat.mul_comm]; omega
    have e2 : n % w = (n - 1) % w + 1 := by
      have := Nat.div_add_mod n w
      rw [e1] at this
      omega
    have hrd := read_blocks w hw0 (blk v θ (fun _ => w) (2 ^ (w / 2) - 1) root) n (min k (w - ((n - 1) % w + 1)))
      (length_core hw' _ _ _) (by omega)
    rw [e1, e2] at hrd
    rw [hrd, ok_bind]
    show ∃ s', Model.Blake2.squeezeLoop T .xof k k (slice (strm v θ (fun _ => w) (2 ^ (w / 2) - 1) root) n _) _ = _ ∧ _
    by_cases hle : k ≤ w - ((n - 1) % w + 1)
    · rw [Nat.min_eq_left hle]
      have hdone : ∀ s : Blk (St w), Model.Blake2.squeezeLoop T .xof k k (slice (strm v θ (fun _ => w) (2 ^ (w / 2) - 1) root) n k) s
          = .ok (slice (strm v θ (fun _ => w) (2 ^ (w / 2) - 1) root) n k, s) := by
        intro s
        cases k with
        | zero => rfl
        | succ f =>
          unfold Model.Blake2.squeezeLoop
          rw [length_slice, if_neg (by omega)]; rfl
      rw [hdone]
      have e3 : (n + k - 1) / w = i := by rw [Nat.div_eq_iff hw0, Nat.mul_comm]; omega
      have e4 : (n + k - 1) % w = (n - 1) % w + k := by
        have := Nat.div_add_mod (n + k - 1) w
        rw [e3] at this
        omega
      refine ⟨_, rfl, ?_, rfl, ?_⟩
      · rw [e3]
      · rw [e4]; show _ + _ + _ = _; omega
    · rw [Nat.min_eq_right (by omega)]
      have e3 : n + (w - ((n - 1) % w + 1)) = w * (i + 1) := by rw [Nat.mul_add]; omega
      have e4 : (n + (w - ((n - 1) % w + 1))) / w = i + 1 := by rw [e3, Nat.mul_div_cancel_left _ hw0]
      have := xloop ok θ hθ root hroot hs n (w - ((n - 1) % w + 1)) k (by omega) (by rw [e3]; exact Nat.mul_mod_right _ _) hout
        (och v θ (fun _ => w) (2 ^ (w / 2) - 1) root i) (root ++ List.replicate w 0) ((n - 1) % w + 1 + (w - ((n - 1) % w + 1))) t hl1 hl2
      rw [e4] at this
      exact this
  · rw [if_neg hc]
    have e3 : n = w * (i + 1) := by rw [Nat.mul_add]; omega
    have e4 : (n + 0) / w = i + 1 := by rw [Nat.add_zero, Nat.div_eq_iff hw0, Nat.mul_comm]; omega
    have := xloop ok θ hθ root hroot hs n 0 k (by omega) (by rw [Nat.add_zero, e3]; exact Nat.mul_mod_right _ _) hout
      (och v θ (fun _ => w) (2 ^ (w / 2) - 1) root i) (root ++ List.replicate w 0) ((n - 1) % w + 1) t hl1 hl2
    rw [e4] at this
    exact this

/-- The relation for the extendable-output objects. -/
def Rx (T : Word w) (v : Variant w) (θ : Theta) (msg : Bytes) (n : Nat) (s : Blk (St w)) : Prop :=
  (Valid w θ ∧ s.m.length = 2 * w ∧ Par θ (8 * w) 0 0 0 s.h) ∧ (n = 0 → R T v .xof (8 * w) θ msg s) ∧
    (0 < n → Sq T v θ (8 * w) (2 ^ (w / 2) - 1) (Spec.Blake2.root v θ (2 ^ (w / 2) - 1) msg) n s)

theorem R.rx {θ : Theta} {msg : Bytes} {s : Blk (St w)} (h : R T v .xof (8 * w) θ msg s) : Rx T v θ msg 0 s :=
  ⟨⟨h.1, h.2.1.mlen, h.2.1.inv.par⟩, fun _ => h, fun h => absurd h (by omega)⟩

/-- What is covered of the extendable-output functions: also, at most `2^32` output blocks. -/
def xcover (w : Nat) (keep : Bool) : Cover Blake2Param Theta := { cover keep with out := fun n => n ≤ 2 ^ 32 * w }

/-- **BLAKE2Xb and BLAKE2Xs** as extendable-output functions. -/
theorem refines_xof (ok : WordOk T v) (keep : Bool) :
    XofRefines (Model.Blake2.xofProvider T) (Spec.Blake2.xof v keep) (xcover w keep) (Rx T v) := by
  have hw := ok.w2
  have hw' : w = 32 ∨ w = 64 := by omega
  have hw0 : 0 < w := by omega
  constructor
  · intro θ msg n s h
    obtain ⟨s', e, r⟩ := init_ok ok .xof (8 * w) trivial θ h.1.1 s h.1.2.1 h.1.2.2
    exact ⟨s', e, r.rx⟩
  · intro θ msg s data h hd
    obtain ⟨s', e, r⟩ := (h.2.1 rfl).update ok data hd
    exact ⟨s', e, r.rx⟩
  · intro θ msg n s k h hl hk _ hout
    have hout' : n + k ≤ 2 ^ 32 * w := hout
    have hl' : msg.length < 2 ^ 60 := hl
    have hroot : (Spec.Blake2.root v θ (2 ^ (w / 2) - 1) msg).length = w := length_core hw' _ _ _
    rw [xof_stream ok]
    have hkl := length_keyed (2 * w) θ.key msg (by have := h.1.1.key; omega)
    have key : ∃ s', Model.Blake2.squeeze T .xof k s
        = .ok (slice (strm v θ (fun _ => w) (2 ^ (w / 2) - 1) (Spec.Blake2.root v θ (2 ^ (w / 2) - 1) msg)) n k, s') ∧
        Sq T v θ (8 * w) (2 ^ (w / 2) - 1) (Spec.Blake2.root v θ (2 ^ (w / 2) - 1) msg) (n + k) s' := by
      by_cases hn : n = 0
      · subst hn
        obtain ⟨m, t, hm1, hm2, e⟩ := squeezeFirst_ok ok .xof (n := k) ((h.2.1 rfl).2.2 hl') (by omega) s.total (if_pos rfl)
        unfold Model.Blake2.squeeze
        rw [e, ok_bind]
        have := xloop ok θ h.1.1 (Spec.Blake2.root v θ (2 ^ (w / 2) - 1) msg) hroot (8 * w) 0 0 k hk
          (by rw [Nat.add_zero]; exact Nat.zero_mod _) hout'
          (arr (chain v (seq w .xof (8 * w) θ) false (Spec.Blake2.keyed (2 * w) θ.key msg))) m s.pos t hm1 hm2
        rw [slice_nil, Nat.add_zero, Nat.zero_div] at this
        exact this
      · exact squeeze_next ok θ h.1.1 _ hroot (8 * w) n k (by omega) hk hout' s (h.2.2 (by omega))
    obtain ⟨s', e, q⟩ := key
    refine ⟨s', e, ⟨h.1.1, ?_, ?_⟩, fun hc => absurd hc (by omega), fun _ => q⟩
    · rw [q.m]; simp; omega
    · rw [q.h]; exact ⟨rfl, rfl, rfl, rfl, rfl, rfl, rfl⟩
  · intro _ θ msg n s h
    have hz := words_none (w := w) hw'
    obtain ⟨s', e, r⟩ := init_ok ok .xof (8 * w) trivial (Theta.none w) (valid_none w)
      { s with h := { s.h with H := List.replicate 8 0, s := [0, 0], p := [0, 0], k := [], fanout := 0, nodedepth := 0, nodeoffset := 0 }
               m := zeroBytes s.m }
      (by show (List.replicate _ _).length = _; rw [List.length_replicate]; exact h.1.2.1)
      ⟨hz.1.symm, hz.2.symm, rfl, h.1.2.2.hs, rfl, rfl, rfl⟩
    exact ⟨_, s', rfl, e, r.rx⟩
  · intro θ msg n s p h hp
    have := set_ok ok keep p hp θ h.1.1 s h.1.2.2
    have hfs : (Spec.Blake2.xof v keep).set p θ = Spec.Blake2.set w keep p θ := rfl
    rw [hfs]
    revert this
    cases Spec.Blake2.set w keep p θ with
    | none => exact fun e => ⟨s, e, h⟩
    | some θ' =>
      rintro ⟨hθ', h', hp', e⟩
      obtain ⟨s', e', r⟩ := init_ok ok .xof (8 * w) trivial θ' hθ' { s with h := h' } h.1.2.1 hp'
      exact ⟨_, s', e, e', r.rx⟩

end Blake2
end Digestpp.Proofs
