import Verif.Proofs.Gap
import Verif.Proofs.Skein

/-! Squeezes of length zero: Skein. After a first one, the chaining value is given out, then the stream. -/

namespace Digestpp.Proofs.Skein
open Model Spec
open Model.Skein (Fns St)
open Spec.Skein (Threefish Theta)

variable {F : Fns} {T : Threefish}

/-- The chaining value that the output is computed from. -/
def gap (T : Threefish) : Gap Theta where
  lead := fun θ msg => ofLeWords ((List.range T.nw).map (Spec.Skein.chain T (2 ^ 64 - 1) θ msg))
  start := fun _ _ => 0
  skip := id

/-- What is copied first stays in front. -/
theorem loop_prefix (pre : Bytes) (hs fuel : Nat) : ∀ (out : Bytes) (s s' : Blk St) (r : Bytes),
    Model.Skein.squeezeLoop F hs fuel out s = .ok (r, s') →
    Model.Skein.squeezeLoop F (pre.length + hs) fuel (pre ++ out) s = .ok (pre ++ r, s') := by
  induction fuel with
  | zero =>
    intro out s s' r h
    unfold Model.Skein.squeezeLoop at h ⊢
    cases h
    rfl
  | succ fuel ih =>
    intro out s s' r h
    unfold Model.Skein.squeezeLoop at h ⊢
    rw [List.length_append]
    by_cases hl : out.length < hs
    · rw [if_pos hl] at h
      rw [if_pos (by omega), show pre.length + hs - (pre.length + out.length) = hs - out.length by omega]
      cases h1 : memcpyTo s.m 0 (bytes64 s.total) with
      | error e => rw [h1] at h; cases h
      | ok m =>
        rw [h1, ok_bind] at h
        rw [ok_bind]
        dsimp only at h ⊢
        revert h
        generalize Model.Skein.transform F 8 m 1 _ = x
        cases x with
        | error e => intro h; cases h
        | ok s1 =>
          intro h
          rw [ok_bind] at h ⊢
          revert h
          generalize readBytes _ _ _ = y
          cases y with
          | error e => intro h; cases h
          | ok b =>
            intro h
            rw [ok_bind] at h ⊢
            rw [List.append_assoc]
            exact ih _ _ _ _ h
    · rw [if_neg hl] at h
      rw [if_neg (by omega)]
      cases h
      rfl

/-- Squeezing has begun with a squeeze of length zero, and `q` bytes of the chaining value were given. -/
structure Lead (T : Threefish) (θ : Theta) (hs : Nat) (G : Nat → BitVec 64) (q : Nat) (s : Blk St) : Prop where
  h : ∃ fr t0 t1, Par θ hs fr ∧ s.h = upd (sqz fr T.nw G) T.nw G t0 t1
  mlen : s.m.length = 8 * T.nw
  m : s.m.drop 8 = List.replicate (8 * T.nw - 8) 0
  pos : s.pos = q
  total : s.total = 0

/-- The bytes of the chaining value. -/
def gbytes (T : Threefish) (G : Nat → BitVec 64) : Bytes := ofLeWords ((List.range T.nw).map G)

theorem length_gbytes (G : Nat → BitVec 64) : (gbytes T G).length = 8 * T.nw := by
  unfold gbytes
  rw [length_ofLeWords]
  simp

theorem stores_gbytes (G : Nat → BitVec 64) : stores64 (arr T.nw G) = gbytes T G := stores64_eq _

/-- Reading zero bytes. -/
theorem read_zero (b : Bytes) (p : Nat) (h : p ≤ b.length) : readBytes b p 0 = .ok [] := by
  rw [readBytes_ok _ _ _ (by omega), List.take_zero]

theorem squeeze_zero (ok : FOk F T) {s : Blk St} (hs : s.h.squeezing = true) (hl : (stores64 s.h.H).length = 8 * T.nw) :
    Model.Skein.squeeze F 0 s = .ok ([], s) := by
  unfold Model.Skein.squeeze Model.Skein.squeezeFirst
  rw [if_neg (by rw [hs]; decide), ok.nw]
  by_cases hc : s.pos < 8 * T.nw
  · rw [if_pos hc, Nat.zero_min]
    dsimp only
    rw [read_zero (stores64 s.h.H) s.pos (by omega), ok_bind]
    rfl
  · rw [if_neg hc]
    rfl

theorem lead_zero (ok : FOk F T) {θ : Theta} {hs q : Nat} {G : Nat → BitVec 64} {s : Blk St} (h : Lead T θ hs G q s) :
    Model.Skein.squeeze F 0 s = .ok ([], s) := by
  obtain ⟨fr, t0, t1, hp, hh⟩ := h.h
  apply squeeze_zero ok
  · rw [hh]; rfl
  · rw [hh]
    show (stores64 (arr T.nw G)).length = _
    rw [stores_gbytes, length_gbytes]

theorem sq_zero (ok : FOk F T) {θ : Theta} {hs n : Nat} {G : Nat → BitVec 64} {s : Blk St} (h : Sq T θ hs G n s) :
    Model.Skein.squeeze F 0 s = .ok ([], s) := by
  obtain ⟨fr, t1, hp, hh⟩ := h.h
  apply squeeze_zero ok
  · rw [hh]; rfl
  · rw [hh]
    show (stores64 (arr T.nw (outW T G ((n - 1) / (8 * T.nw))))).length = _
    rw [output_eq, length_output]

/-- Squeezing within the bytes in front. -/
theorem lead_within (ok : FOk F T) {θ : Theta} {hs q k : Nat} {G : Nat → BitVec 64} {s : Blk St} (h : Lead T θ hs G q s)
    (hk : 0 < k) (hq : q + k ≤ 8 * T.nw) :
    ∃ s', Model.Skein.squeeze F k s = .ok (((gbytes T G).drop q).take k, s') ∧ Lead T θ hs G (q + k) s' := by
  obtain ⟨⟨fr, t0, t1, hp, hh⟩, hml, hm, hpos, ht⟩ := h
  obtain ⟨sh, m, pos, total⟩ := s
  dsimp only at hh hml hm hpos ht
  subst hh hpos ht
  unfold Model.Skein.squeeze Model.Skein.squeezeFirst
  dsimp only
  have hsq : ¬(upd (sqz fr T.nw G) T.nw G t0 t1).squeezing = false := by intro h; cases h
  rw [if_neg hsq, ok.nw, if_pos (by omega), Nat.min_eq_left (by omega)]
  show ∃ s', (readBytes (stores64 (arr T.nw G)) pos k >>= _) >>= _ = _ ∧ _
  rw [stores_gbytes, readBytes_ok _ _ _ (by rw [length_gbytes]; omega), ok_bind]
  refine ⟨⟨upd (sqz fr T.nw G) T.nw G t0 t1, m, pos + k, 0⟩, ?_, ⟨fr, t0, t1, hp, rfl⟩, hml, hm, rfl, rfl⟩
  rw [show (pure (((gbytes T G).drop pos).take k, (⟨upd (sqz fr T.nw G) T.nw G t0 t1, m, pos + k, 0⟩ : Blk St)) : M _)
    = Except.ok (((gbytes T G).drop pos).take k, ⟨upd (sqz fr T.nw G) T.nw G t0 t1, m, pos + k, 0⟩) from rfl, ok_bind]
  dsimp only
  have hlen : (((gbytes T G).drop pos).take k).length = k := by
    rw [List.length_take, List.length_drop, length_gbytes]
    omega
  cases k with
  | zero => rfl
  | succ f =>
    unfold Model.Skein.squeezeLoop
    rw [if_neg (by omega)]
    rfl

/-- Squeezing the rest of the bytes in front, and bytes of the stream. -/
theorem lead_cross (ok : FOk F T) {θ : Theta} {hs q j : Nat} {G : Nat → BitVec 64} {s : Blk St} (h : Lead T θ hs G q s)
    (hq : q ≤ 8 * T.nw) (hj : 0 < j) :
    ∃ s', Model.Skein.squeeze F (8 * T.nw - q + j) s = .ok ((gbytes T G).drop q ++ slice (strm T G) 0 j, s') ∧ Sq T θ hs G j s' := by
  obtain ⟨⟨fr, t0, t1, hp, hh⟩, hml, hm, hpos, ht⟩ := h
  obtain ⟨sh, m, pos, total⟩ := s
  dsimp only at hh hml hm hpos ht
  subst hh hpos ht
  have hd : ((gbytes T G).drop pos).length = 8 * T.nw - pos := by rw [List.length_drop, length_gbytes]
  have key : ∀ pos', ∃ s', Model.Skein.squeezeLoop F (8 * T.nw - pos + j) (8 * T.nw - pos + j) ((gbytes T G).drop pos)
      ⟨upd (sqz fr T.nw G) T.nw G t0 t1, m, pos', 0⟩ = .ok ((gbytes T G).drop pos ++ slice (strm T G) 0 j, s') ∧ Sq T θ hs G j s' := by
    intro pos'
    obtain ⟨t1', e⟩ := loop_ok ok fr G 0 j (8 * T.nw - pos + j) 0 G t0 t1 m pos' (by omega) hj
      (by rw [Nat.add_zero]; exact Nat.zero_mod _) hml hm
    rw [Nat.add_zero, Nat.zero_div, Nat.zero_add] at e
    have := loop_prefix ((gbytes T G).drop pos) j (8 * T.nw - pos + j) _ _ _ _ e
    rw [slice_nil, List.append_nil, hd] at this
    exact ⟨_, this, ⟨fr, t1', hp, rfl⟩, rfl, rfl, rfl⟩
  unfold Model.Skein.squeeze Model.Skein.squeezeFirst
  dsimp only
  have hsq : ¬(upd (sqz fr T.nw G) T.nw G t0 t1).squeezing = false := by intro h; cases h
  rw [if_neg hsq, ok.nw]
  by_cases hc : pos < 8 * T.nw
  · rw [if_pos hc, Nat.min_eq_right (by omega)]
    show ∃ s', (readBytes (stores64 (arr T.nw G)) pos (8 * T.nw - pos) >>= _) >>= _ = _ ∧ _
    rw [stores_gbytes, readBytes_ok _ _ _ (by rw [length_gbytes]; omega), ok_bind, List.take_of_length_le (by omega)]
    exact key _
  · rw [if_neg hc]
    have := key pos
    rw [show (gbytes T G).drop pos = [] from List.drop_of_length_le (by rw [length_gbytes]; omega)] at this ⊢
    exact this

/-- Squeezing has begun, perhaps with a squeeze of length zero. -/
def Zx (T : Threefish) (hs : Nat) (θ : Theta) (msg : Bytes) (q : Nat) (s : Blk St) : Prop :=
  Valid θ ∧ (q ≤ 8 * T.nw → Lead T θ hs (Spec.Skein.chain T (2 ^ 64 - 1) θ msg) q s) ∧
    (8 * T.nw < q → Sq T θ hs (Spec.Skein.chain T (2 ^ 64 - 1) θ msg) (q - 8 * T.nw) s)

theorem Zx.mem (ok : FOk F T) {hs : Nat} {θ : Theta} {msg : Bytes} {q : Nat} {s : Blk St} (h : Zx T hs θ msg q s) :
    s.m.length = 8 * T.nw ∧ Par θ hs s.h := by
  have hge := ok.ge
  by_cases hq : q ≤ 8 * T.nw
  · have := h.2.1 hq
    obtain ⟨fr, t0, t1, hp, hh⟩ := this.h
    refine ⟨this.mlen, ?_⟩
    rw [hh]
    exact ⟨hp.k, hp.p, hp.n, hp.hs⟩
  · have := h.2.2 (by omega)
    obtain ⟨fr, t1, hp, hh⟩ := this.h
    refine ⟨?_, ?_⟩
    · rw [this.m, List.length_append, length_leBytes, List.length_replicate]
      omega
    · rw [hh]
      exact ⟨hp.k, hp.p, hp.n, hp.hs⟩

theorem gap_refines (ok : FOk F T) (hs : Nat) :
    GapRefines (Model.Skein.xofProvider F) (Spec.Skein.xof T) cover (gap T) (Rx F T hs) (Zx T hs) := by
  have hge := ok.ge
  have hlead : ∀ θ msg, (gap T).lead θ msg = gbytes T (Spec.Skein.chain T (2 ^ 64 - 1) θ msg) := fun _ _ => rfl
  have hll : ∀ θ msg, ((gap T).lead θ msg).length = 8 * T.nw := fun θ msg => length_gbytes _
  constructor
  · exact refines_xof ok hs
  · intro θ msg s k h hl hk _ _
    obtain ⟨s', e, q⟩ := squeeze_first ok (h.2.1 rfl) hl k hk
    refine ⟨s', e, h.1.1, ?_, ?_⟩
    · rw [hll]
      intro hc
      omega
    · rw [hll, Nat.add_sub_cancel_left]
      exact fun _ => q
  · intro θ msg s h hl
    obtain ⟨fr, t1, hp, e⟩ := squeezeFirst_ok ok (h.2.1 rfl) hl 0
    refine ⟨⟨upd (sqz fr T.nw (Spec.Skein.chain T (bits true hs) θ msg)) T.nw
        (Spec.Skein.chain T (bits true hs) θ msg) (BitVec.ofNat 64 msg.length) t1, List.replicate (8 * T.nw) 0, 0, 0⟩,
      ?_, h.1.1, fun _ => ?_, fun hc => ?_⟩
    · show Model.Skein.squeeze F 0 s = _
      unfold Model.Skein.squeeze
      rw [e, ok_bind]
      rfl
    · exact ⟨⟨fr, _, t1, hp, rfl⟩, List.length_replicate, List.drop_replicate, rfl, rfl⟩
    · exact absurd hc (Nat.not_lt_zero _)
  · intro θ msg q s k h _ hk _ _
    by_cases hq : q ≤ 8 * T.nw
    · have hL := h.2.1 hq
      by_cases hqk : q + k ≤ 8 * T.nw
      · obtain ⟨s', e, r⟩ := lead_within ok hL hk hqk
        rw [line_lead θ msg q k (by rw [hll]; exact hqk)]
        exact ⟨s', e, h.1, fun _ => r, fun hc => absurd hc (by omega)⟩
      · obtain ⟨j, hj⟩ : ∃ j, k = 8 * T.nw - q + j := ⟨k - (8 * T.nw - q), by omega⟩
        obtain ⟨s', e, r⟩ := lead_cross ok hL hq (j := j) (by omega)
        have hl := line_cross (f := Spec.Skein.xof T) (g := gap T) θ msg q j (by rw [hll]; exact hq)
        rw [hll, ← hj] at hl
        rw [hl]
        rw [← hj] at e
        refine ⟨s', e, h.1, fun hc => absurd hc hqk, fun _ => ?_⟩
        rw [show q + k - 8 * T.nw = j by omega]
        exact r
    · obtain ⟨s', e, r⟩ := squeeze_next ok θ _ hs (q - 8 * T.nw) k (by omega) hk s (h.2.2 (by omega))
      have hl := line_after (f := Spec.Skein.xof T) (g := gap T) θ msg (q - 8 * T.nw) k
      rw [hll, show 8 * T.nw + (q - 8 * T.nw) = q by omega] at hl
      rw [hl]
      refine ⟨s', e, h.1, fun hc => absurd hc (by omega), fun _ => ?_⟩
      rw [show q + k - 8 * T.nw = q - 8 * T.nw + k by omega]
      exact r
  · intro θ msg q s h _
    refine ⟨s, ?_, h⟩
    by_cases hq : q ≤ 8 * T.nw
    · exact lead_zero ok (h.2.1 hq)
    · exact sq_zero ok (h.2.2 (by omega))
  · intro θ msg q s h
    obtain ⟨hm, hp⟩ := h.mem ok
    obtain ⟨s', e, r⟩ := init_R ok true hs θ h.1 s hm hp
    exact ⟨s', e, r.rx ok⟩
  · intro _ θ msg q s h
    obtain ⟨hm, hp⟩ := h.mem ok
    obtain ⟨s', e, r⟩ := init_R ok true hs ⟨[], [], []⟩ valid_none
      { s with
        m := zeroBytes s.m
        h := { s.h with H := List.replicate F.nw 0, hbk := List.replicate F.nw 0, tweak0 := 0, tweak1 := 0, p := [], n := [], k := [] } }
      (by show (List.replicate _ _).length = _; rw [List.length_replicate]; exact hm) ⟨rfl, rfl, rfl, hp.hs⟩
    exact ⟨_, s', rfl, e, r.rx ok⟩
  · intro θ msg q s p h hp
    obtain ⟨hm, hpar⟩ := h.mem ok
    obtain ⟨θ', h', e1, hθ', hp', e2⟩ := set_ok p hp θ h.1 hs s hpar
    have hfs : (Spec.Skein.xof T).set p θ = Spec.Skein.set p θ := rfl
    rw [hfs, e1]
    obtain ⟨s', e', r⟩ := init_R ok true hs θ' hθ' { s with h := h' } hm hp'
    exact ⟨_, s', e2, e', r.rx ok⟩

end Digestpp.Proofs.Skein
