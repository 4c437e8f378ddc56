import Verif.Proofs.Gap
import Verif.Proofs.Blake2X

/-! Squeezes of length zero: BLAKE2X. After a first one, some bytes of the root hash are given out, then the stream. -/

namespace Digestpp.Proofs.Blake2
open Model Spec
open Model.Blake2 (Word St Kind)
open Spec.Blake2 (Variant Params Theta)

variable {w : Nat} {T : Word w} {v : Variant w}

/-- The number of bytes of `data` in its last block of `2 w` bytes. -/
def lastLen (w : Nat) (data : Bytes) : Nat := data.length - front (2 * w) data * (2 * w)

/-- The root hash; as many bytes of it are skipped as the last block of the input has. -/
def gap (v : Variant w) : Gap Theta where
  lead := fun θ msg => Spec.Blake2.root v θ (2 ^ (w / 2) - 1) msg
  start := fun θ msg => min w (lastLen w (Spec.Blake2.keyed (2 * w) θ.key msg))
  skip := id

/-- `initX` of an output of unknown length. -/
theorem initX_xof (hs hs' p p' : Nat) (x : BitVec 64) : Model.Blake2.initX T hs p x (-1) = Model.Blake2.initX T hs' p' x (-1) := by
  unfold Model.Blake2.initX
  rw [if_pos rfl, if_pos rfl]

/-- What is copied first stays in front. -/
theorem loop_prefix (pre : Bytes) (hs fuel : Nat) : ∀ (out : Bytes) (s s' : Blk (St w)) (r : Bytes),
    Model.Blake2.squeezeLoop T .xof hs fuel out s = .ok (r, s') →
    Model.Blake2.squeezeLoop T .xof (pre.length + hs) fuel (pre ++ out) s = .ok (pre ++ r, s') := by
  induction fuel with
  | zero =>
    intro out s s' r h
    unfold Model.Blake2.squeezeLoop at h ⊢
    cases h
    rfl
  | succ fuel ih =>
    intro out s s' r h
    unfold Model.Blake2.squeezeLoop at h ⊢
    rw [List.length_append]
    by_cases hl : out.length < hs
    · rw [if_pos hl, if_pos rfl] at h
      rw [if_pos (by omega), if_pos rfl, show pre.length + hs - (pre.length + out.length) = hs - out.length by omega,
        initX_xof (pre.length + hs) hs (pre.length + out.length) out.length]
      dsimp only at h ⊢
      cases h1 : memset s.m w 0 (2 * w - w) with
      | error e => rw [h1] at h; cases h
      | ok m =>
        rw [h1, ok_bind] at h
        rw [ok_bind]
        revert h
        generalize Model.Blake2.transform T true m 1 _ = x
        cases x with
        | error e => intro h; cases h
        | ok s1 =>
          intro h
          rw [ok_bind] at h ⊢
          revert h
          generalize readBytes _ _ _ = y
          cases y with
          | error e => intro h; cases h
          | ok b =>
            intro h
            rw [ok_bind] at h ⊢
            rw [List.append_assoc]
            exact ih _ _ _ _ h
    · rw [if_neg hl] at h
      rw [if_neg (by omega)]
      cases h
      rfl

/-- Squeezing has begun with a squeeze of length zero, and the object is at position `q` of the root hash. -/
structure Lead (T : Word w) (θ : Theta) (hs : Nat) (root : Bytes) (q : Nat) (s : Blk (St w)) : Prop where
  h : ∃ H, T.stores H = root ∧ s.h = sqz H θ hs 0
  mlen : s.m.length = 2 * w
  m : s.m.take w = root
  pos : min w s.pos = q

theorem read_zero (b : Bytes) (p : Nat) (h : p ≤ b.length) : readBytes b p 0 = .ok [] := by
  rw [readBytes_ok _ _ _ (by omega), List.take_zero]

theorem squeeze_zero {s : Blk (St w)} (hs : s.h.squeezing = true) (hl : (T.stores s.h.H).length = w) :
    Model.Blake2.squeeze T .xof 0 s = .ok ([], s) := by
  unfold Model.Blake2.squeeze Model.Blake2.squeezeFirst
  rw [if_neg (by rw [hs]; decide)]
  by_cases hc : s.pos < w
  · rw [if_pos hc, Nat.zero_min]
    dsimp only
    rw [read_zero (T.stores s.h.H) s.pos (by omega), ok_bind]
    rfl
  · rw [if_neg hc]
    rfl

theorem lead_zero {θ : Theta} {hs q : Nat} {root : Bytes} {s : Blk (St w)} (hroot : root.length = w) (h : Lead T θ hs root q s) :
    Model.Blake2.squeeze T .xof 0 s = .ok ([], s) := by
  obtain ⟨H, hst, hh⟩ := h.h
  apply squeeze_zero
  · rw [hh]; rfl
  · rw [hh]
    show (T.stores H).length = _
    rw [hst, hroot]

theorem sq_zero (ok : WordOk T v) {θ : Theta} {hs x n : Nat} {root : Bytes} {s : Blk (St w)} (h : Sq T v θ hs x root n s) :
    Model.Blake2.squeeze T .xof 0 s = .ok ([], s) := by
  have hw := ok.w2
  apply squeeze_zero
  · rw [h.h]; rfl
  · rw [h.h]
    show (T.stores (och v θ (fun _ => w) x root ((n - 1) / w))).length = _
    unfold och
    rw [stores_eq ok, length_core (by omega)]

/-- Squeezing within the bytes in front. -/
theorem lead_within {θ : Theta} {hs q k : Nat} {root : Bytes} {s : Blk (St w)} (hroot : root.length = w) (h : Lead T θ hs root q s)
    (hk : 0 < k) (hq : q + k ≤ w) :
    ∃ s', Model.Blake2.squeeze T .xof k s = .ok ((root.drop q).take k, s') ∧ Lead T θ hs root (q + k) s' := by
  obtain ⟨⟨H, hst, hh⟩, hml, hm, hpos⟩ := h
  obtain ⟨sh, m, pos, total⟩ := s
  dsimp only at hh hml hm hpos
  have hpos' : pos = q := by omega
  subst hh hpos'
  unfold Model.Blake2.squeeze Model.Blake2.squeezeFirst
  dsimp only
  have hsq : ¬(sqz H θ hs 0 : St w).squeezing = false := by intro h; cases h
  rw [if_neg hsq, if_pos (by omega), Nat.min_eq_left (by omega)]
  show ∃ s', (readBytes (T.stores H) pos k >>= _) >>= _ = _ ∧ _
  rw [hst, readBytes_ok _ _ _ (by omega), ok_bind]
  refine ⟨⟨sqz H θ hs 0, m, pos + k, total⟩, ?_, ⟨H, hst, rfl⟩, hml, hm, Nat.min_eq_right hq⟩
  rw [show (pure ((root.drop pos).take k, (⟨sqz H θ hs 0, m, pos + k, total⟩ : Blk (St w))) : M _)
    = Except.ok ((root.drop pos).take k, ⟨sqz H θ hs 0, m, pos + k, total⟩) from rfl, ok_bind]
  dsimp only
  have hlen : ((root.drop pos).take k).length = k := by
    rw [List.length_take, List.length_drop]
    omega
  cases k with
  | zero => rfl
  | succ f =>
    unfold Model.Blake2.squeezeLoop
    rw [if_neg (by omega)]
    rfl

/-- Squeezing the rest of the bytes in front, and bytes of the stream. -/
theorem lead_cross (ok : WordOk T v) {θ : Theta} (hθ : Valid w θ) {hs q j : Nat} {root : Bytes} {s : Blk (St w)} (hroot : root.length = w)
    (h : Lead T θ hs root q s) (hj : 0 < j) (hout : j ≤ 2 ^ 32 * w) :
    ∃ s', Model.Blake2.squeeze T .xof (w - q + j) s
        = .ok (root.drop q ++ slice (strm v θ (fun _ => w) (2 ^ (w / 2) - 1) root) 0 j, s') ∧
      Sq T v θ hs (2 ^ (w / 2) - 1) root j s' := by
  have hw := ok.w2
  obtain ⟨⟨H, hst, hh⟩, hml, hm, hpos⟩ := h
  obtain ⟨sh, m, pos, total⟩ := s
  dsimp only at hh hml hm hpos
  subst hh
  have hd : (root.drop q).length = w - q := by rw [List.length_drop, hroot]
  have hlt : 2 ^ (w / 2) - 1 < 2 ^ (w / 2) := Nat.sub_lt (Nat.two_pow_pos _) (by omega)
  have key : ∀ pos', ∃ s', Model.Blake2.squeezeLoop T .xof (w - q + j) (w - q + j) (root.drop q)
      ⟨sqz H θ hs 0, m, pos', total⟩
        = .ok (root.drop q ++ slice (strm v θ (fun _ => w) (2 ^ (w / 2) - 1) root) 0 j, s') ∧
      Sq T v θ hs (2 ^ (w / 2) - 1) root j s' := by
    intro pos'
    have e := loop_ok ok .xof θ hθ (fun _ => w) (2 ^ (w / 2) - 1) root hroot 0 j (-1) (if_pos rfl)
      (by rcases hw with ⟨h, _⟩ | ⟨h, _⟩ <;> subst h <;> decide) hlt (fun _ => Nat.le_refl _) (fun _ _ _ => if_pos rfl) (by omega) hs
      (w - q + j) 0 H m pos' total (by omega) hj (by rw [Nat.add_zero]; exact Nat.zero_mod _) hml hm
    rw [Nat.add_zero, Nat.zero_div, Nat.zero_add] at e
    have := loop_prefix (root.drop q) j (w - q + j) _ _ _ _ e
    rw [slice_nil, List.append_nil, hd] at this
    exact ⟨_, this, rfl, rfl, rfl⟩
  unfold Model.Blake2.squeeze Model.Blake2.squeezeFirst
  dsimp only
  have hsq : ¬(sqz H θ hs 0 : St w).squeezing = false := by intro h; cases h
  rw [if_neg hsq]
  by_cases hc : pos < w
  · have hpos' : pos = q := by omega
    subst hpos'
    rw [if_pos hc, Nat.min_eq_right (by omega)]
    show ∃ s', (readBytes (T.stores H) pos (w - pos) >>= _) >>= _ = _ ∧ _
    rw [hst, readBytes_ok _ _ _ (by omega), ok_bind, List.take_of_length_le (by omega)]
    exact key _
  · rw [if_neg hc]
    have := key pos
    rw [show root.drop q = [] from List.drop_of_length_le (by omega)] at this ⊢
    exact this

/-- Squeezing has begun, perhaps with a squeeze of length zero. -/
def Zx (T : Word w) (v : Variant w) (θ : Theta) (msg : Bytes) (q : Nat) (s : Blk (St w)) : Prop :=
  Valid w θ ∧ (q ≤ w → Lead T θ (8 * w) (Spec.Blake2.root v θ (2 ^ (w / 2) - 1) msg) q s) ∧
    (w < q → Sq T v θ (8 * w) (2 ^ (w / 2) - 1) (Spec.Blake2.root v θ (2 ^ (w / 2) - 1) msg) (q - w) s)

theorem Zx.mem (ok : WordOk T v) {θ : Theta} {msg : Bytes} {q : Nat} {s : Blk (St w)} (h : Zx T v θ msg q s) :
    s.m.length = 2 * w ∧ Par θ (8 * w) 0 0 0 s.h := by
  have hw := ok.w2
  have hroot : (Spec.Blake2.root v θ (2 ^ (w / 2) - 1) msg).length = w := length_core (by omega) _ _ _
  by_cases hq : q ≤ w
  · have := h.2.1 hq
    obtain ⟨H, _, hh⟩ := this.h
    refine ⟨this.mlen, ?_⟩
    rw [hh]; exact ⟨rfl, rfl, rfl, rfl, rfl, rfl, rfl⟩
  · have := h.2.2 (by omega)
    refine ⟨?_, ?_⟩
    · rw [this.m]; simp; omega
    · rw [this.h]; exact ⟨rfl, rfl, rfl, rfl, rfl, rfl, rfl⟩

theorem gap_refines (ok : WordOk T v) (keep : Bool) :
    GapRefines (Model.Blake2.xofProvider T) (Spec.Blake2.xof v keep) (xcover w keep) (gap v) (Rx T v) (Zx T v) := by
  have hw := ok.w2
  have hw' : w = 32 ∨ w = 64 := by omega
  have hw0 : 0 < w := by omega
  have hroot : ∀ θ msg, (Spec.Blake2.root v θ (2 ^ (w / 2) - 1) msg).length = w := fun _ _ => length_core hw' _ _ _
  have hll : ∀ θ msg, ((gap v).lead θ msg).length = w := hroot
  constructor
  · exact refines_xof ok keep
  · intro θ msg s k h hl hk h61 hout
    obtain ⟨s', e, r⟩ := (refines_xof ok keep).squeeze θ msg 0 s k h hl hk h61 (by rwa [Nat.zero_add])
    refine ⟨s', e, r.1.1, ?_, ?_⟩
    · rw [hll]
      intro hc
      omega
    · rw [hll, Nat.add_sub_cancel_left]
      have := r.2.2 (by omega)
      rw [Nat.zero_add] at this
      exact fun _ => this
  · intro θ msg s h hl
    have hl' : msg.length < 2 ^ 60 := hl
    have hkl := length_keyed (2 * w) θ.key msg (by have := h.1.1.key; omega)
    have hA := (h.2.1 rfl).2.2 hl'
    have hpos : s.pos = lastLen w (Spec.Blake2.keyed (2 * w) θ.key msg) := hA.pos
    obtain ⟨m, t, hm1, hm2, e⟩ := squeezeFirst_ok ok .xof (n := 0) hA (by omega) s.total (if_pos rfl)
    refine ⟨⟨sqz (arr (chain v (seq w .xof (8 * w) θ) false (Spec.Blake2.keyed (2 * w) θ.key msg))) θ (8 * w) 0, m, s.pos, t⟩,
      ?_, h.1.1, fun _ => ⟨⟨_, stores_eq ok _ _ _, rfl⟩, hm1, hm2, ?_⟩, fun hc => ?_⟩
    · show Model.Blake2.squeeze T .xof 0 s = _
      unfold Model.Blake2.squeeze
      rw [e, ok_bind]
      rfl
    · show min w s.pos = min w _
      rw [hpos]
    · exact absurd hc (Nat.not_lt.mpr (Nat.min_le_left _ _))
  · intro θ msg q s k h _ hk _ hout
    rw [hll] at hout
    have hout' : q + k - w ≤ 2 ^ 32 * w := hout
    by_cases hq : q ≤ w
    · have hL := h.2.1 hq
      by_cases hqk : q + k ≤ w
      · obtain ⟨s', e, r⟩ := lead_within (hroot θ msg) hL hk hqk
        rw [line_lead θ msg q k (by rw [hll]; exact hqk)]
        exact ⟨s', e, h.1, fun _ => r, fun hc => absurd hc (by omega)⟩
      · obtain ⟨j, hj⟩ : ∃ j, k = w - q + j := ⟨k - (w - q), by omega⟩
        obtain ⟨s', e, r⟩ := lead_cross ok h.1 (hroot θ msg) hL (j := j) (by omega) (by omega)
        have hl := line_cross (f := Spec.Blake2.xof v keep) (g := gap v) θ msg q j (by rw [hll]; exact hq)
        rw [hll, ← hj, xof_stream ok] at hl
        rw [hl]
        rw [← hj] at e
        refine ⟨s', e, h.1, fun hc => absurd hc hqk, fun _ => ?_⟩
        rw [show q + k - w = j by omega]
        exact r
    · obtain ⟨s', e, r⟩ := squeeze_next ok θ h.1 _ (hroot θ msg) (8 * w) (q - w) k (by omega) hk (by omega) s (h.2.2 (by omega))
      have hl := line_after (f := Spec.Blake2.xof v keep) (g := gap v) θ msg (q - w) k
      rw [hll, show w + (q - w) = q by omega, xof_stream ok] at hl
      rw [hl]
      refine ⟨s', e, h.1, fun hc => absurd hc (by omega), fun _ => ?_⟩
      rw [show q + k - w = q - w + k by omega]
      exact r
  · intro θ msg q s h _
    refine ⟨s, ?_, h⟩
    by_cases hq : q ≤ w
    · exact lead_zero (hroot θ msg) (h.2.1 hq)
    · exact sq_zero ok (h.2.2 (by omega))
  · intro θ msg q s h
    obtain ⟨hm, hp⟩ := h.mem ok
    obtain ⟨s', e, r⟩ := init_ok ok .xof (8 * w) trivial θ h.1 s hm hp
    exact ⟨s', e, r.rx⟩
  · intro _ θ msg q s h
    obtain ⟨hm, hp⟩ := h.mem ok
    have hz := words_none (w := w) hw'
    obtain ⟨s', e, r⟩ := init_ok ok .xof (8 * w) trivial (Theta.none w) (valid_none w)
      { s with h := { s.h with H := List.replicate 8 0, s := [0, 0], p := [0, 0], k := [], fanout := 0, nodedepth := 0, nodeoffset := 0 }
               m := zeroBytes s.m }
      (by show (List.replicate _ _).length = _; rw [List.length_replicate]; exact hm)
      ⟨hz.1.symm, hz.2.symm, rfl, hp.hs, rfl, rfl, rfl⟩
    exact ⟨_, s', rfl, e, r.rx⟩
  · intro θ msg q s p h hp
    obtain ⟨hm, hpar⟩ := h.mem ok
    have := set_ok ok keep p hp θ h.1 s hpar
    have hfs : (Spec.Blake2.xof v keep).set p θ = Spec.Blake2.set w keep p θ := rfl
    rw [hfs]
    revert this
    cases Spec.Blake2.set w keep p θ with
    | none => exact fun e => ⟨s, e, h⟩
    | some θ' =>
      rintro ⟨hθ', h', hp', e⟩
      obtain ⟨s', e', r⟩ := init_ok ok .xof (8 * w) trivial θ' hθ' { s with h := h' } hm hp'
      exact ⟨_, s', e, e', r.rx⟩

end Digestpp.Proofs.Blake2
