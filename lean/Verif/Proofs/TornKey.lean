import Verif.Proofs.Blake2p
import Verif.Proofs.Faults

/-! BLAKE2bp and BLAKE2sp objects whose nodes have different parameters: what `set_key` leaves behind when it runs out of memory. -/

namespace Digestpp.Proofs
open Model Spec

namespace Blake2p
open Model.Blake2 (Word St)
open Model.Blake2p (PSt leaves)
open Spec.Blake2 (Theta Variant Params)
open Blake2

variable {w : Nat} {T : Word w} {v : Variant w} {L : Bool}

/-- What is kept while absorbing; leaf `i` has the parameters `τ i`. -/
def InvT (w : Nat) (L : Bool) (τ : Nat → Theta) (hs : Nat) (h : PSt w) : Prop :=
  h.leaf.length = leaves w ∧ AllIdx (fun i l => LeafSafe w L (τ i) hs i l) 0 h.leaf

theorem InvT.step (ok : WordOk T v) {τ : Nat → Theta} {hs : Nat} {h : PSt w} (hi : InvT w L τ hs h) (b : Bytes) :
    InvT w L τ hs (stepP T b h) := by
  refine ⟨?_, ?_⟩
  · show (List.mapIdx _ _).length = _
    rw [List.length_mapIdx, hi.1]
  · exact hi.2.mapIdx (Q' := fun i l => LeafSafe w L (τ i) hs i l) (fun i a _ q => (leafStep_safe ok (τ i) hs i b a q).2)

theorem isTransformT (ok : WordOk T v) (τ : Nat → Theta) (hs : Nat) :
    IsTransform 512 512 (InvT w L τ hs) (fun _ => stepP T) (Model.Blake2p.transform T) := by
  intro s data n i hn hm hi _
  refine ⟨s.m, hm, ?_⟩
  unfold Model.Blake2p.transform
  rw [forLeaves_eq hi.2 (g := fun i l => (List.range n).foldl (fun l blk => leafStep T (blockAt 512 blk data) i l) l)
    (fun i a _ h2 q => (leafBlocks_ok ok (τ i) hs data n hn i (by rw [← hi.1]; omega) a q).1), ok_bind, foldBlocks_stepP]
  simp only [Nat.zero_add]
  rfl

/-- After `init`: nothing absorbed but the key, by the leaves. -/
structure StartT (T : Word w) (v : Variant w) (L : Bool) (θ : Theta) (τ : Nat → Theta) (hs : Nat) (h : PSt w) : Prop where
  len : h.leaf.length = leaves w
  main : Abs T v θ hs (fo w L) (nd L) 0 (pMain w L θ (hs / 8)) (pre w L θ) h.main
  leaf : AllIdx (fun i l => LeafAbs T v L (τ i) hs i [] l) 0 h.leaf
  hs : h.hs = hs

/-- `main` carries the parameters `θ`, leaf `i` carries `τ i`, and the object has absorbed `msg`. -/
def RT (T : Word w) (v : Variant w) (hs : Nat) (L : Bool) (θ : Theta) (τ : Nat → Theta) (msg : Bytes) (s : Blk (PSt w)) : Prop :=
  (Valid w θ ∧ ∀ i, Valid w (τ i)) ∧ ∃ h0, StartT T v L θ τ hs h0 ∧ Buffered 512 0 512 (fun _ => stepP T) h0 msg s

theorem StartT.inv (ok : WordOk T v) {θ : Theta} {τ : Nat → Theta} {hs : Nat} {h : PSt w} (h0 : StartT T v L θ τ hs h) : InvT w L τ hs h :=
  ⟨h0.len, h0.leaf.imp (fun i a q => q.safe (by have := ok.w2; omega))⟩

theorem RT.update (ok : WordOk T v) {hs : Nat} {θ : Theta} {τ : Nat → Theta} {msg : Bytes} {s : Blk (PSt w)} (h : RT T v hs L θ τ msg s)
    (data : Bytes) (hd : data.length < 2 ^ 63) : ∃ s', Model.Blake2p.update T data s = .ok s' ∧ RT T v hs L θ τ (msg ++ data) s' := by
  obtain ⟨hθ, h0, hst, hb⟩ := h
  obtain ⟨s', e, q⟩ := absorbBytes_spec (by omega) (by omega) (by omega) (by omega) (isTransformT ok τ hs)
    (fun _ b h _ hi => hi.step ok b) (hst.inv ok) msg data s hb hd
  exact ⟨s', e, hθ, h0, hst, q⟩

/-- The parameter fields. -/
structure PParT (w : Nat) (L : Bool) (θ : Theta) (τ : Nat → Theta) (hs : Nat) (s : Blk (PSt w)) : Prop where
  mlen : s.m.length = 512
  len : s.h.leaf.length = leaves w
  main : s.h.main.m.length = 2 * w ∧ Par θ hs (fo w L) (nd L) 0 s.h.main.h
  leaf : AllIdx (fun i l => l.m.length = 2 * w ∧ Par (τ i) hs (fo w L) 0 (no L i) l.h) 0 s.h.leaf
  hs : s.h.hs = hs

theorem initT_ok (ok : WordOk T v) (hs : Nat) (hsz : hs / 8 ≤ w) (θ : Theta) (hθ : Valid w θ) (τ : Nat → Theta) (hτ : ∀ i, Valid w (τ i)) (s : Blk (PSt w)) (h : PParT w L θ τ hs s) :
    ∃ s', Model.Blake2p.init T s = .ok s' ∧ RT T v hs L θ τ [] s' := by
  obtain ⟨main, e1, q1⟩ := initMain_ok ok hs hsz θ hθ s.h.main h.main.1 h.main.2
  obtain ⟨leaf, e2, l2, q2⟩ := forLeaves_ok (Q' := fun i l => LeafAbs T v L (τ i) hs i [] l) (f := fun _ l => Model.Blake2.init T .hash l) h.leaf
    (fun i a _ h2 q => initLeaf_ok ok hs hsz (τ i) (hτ i) i (by rw [← h.len]; omega) a q.1 q.2)
  refine ⟨{ s with pos := 0, total := 0, h := { s.h with main := main, leaf := leaf } }, ?_, ⟨hθ, hτ⟩, { s.h with main := main, leaf := leaf }, ?_, ?_⟩
  · unfold Model.Blake2p.init
    rw [e1, ok_bind, e2, ok_bind]
    rfl
  · exact ⟨by show leaf.length = _; rw [l2, h.len], q1, q2, h.hs⟩
  · exact Buffered.start _ _ h.mlen rfl rfl rfl

/-- The leaves after the complete groups. -/
theorem groupsT_ok (ok : WordOk T v) {θ : Theta} {τ : Nat → Theta} (hτ : ∀ i, Valid w (τ i)) {hs : Nat} {h0 : PSt w} (hst : StartT T v L θ τ hs h0) (msg : Bytes)
    (hl : msg.length < 2 ^ 60) (k : Nat) (hk : k * 512 ≤ msg.length) :
    AllIdx (fun i l => LeafAbs T v L (τ i) hs i (groups (2 * w) (leaves w) i k msg) l) 0 (foldBlocks 512 (fun _ => stepP T) msg k h0).leaf := by
  have hw := ok.w2
  have hw' : w = 32 ∨ w = 64 := by omega
  rw [foldBlocks_stepP]
  refine AllIdx.mapIdx (Q' := fun i l => LeafAbs T v L (τ i) hs i (groups (2 * w) (leaves w) i k msg) l) hst.leaf ?_
  intro i l hi q
  have hi' : i < leaves w := by rw [← hst.len]; exact hi
  have hle := leaf_le hw' hi'
  have hm := leaves_mul hw'
  induction k with
  | zero => exact q
  | succ k ih =>
    rw [List.range_succ, List.foldl_append, groups_succ]
    simp only [List.foldl_cons, List.foldl_nil]
    have hg := length_groups (2 * w) (leaves w) i k msg
    have h5 : k * (2 * w) ≤ k * 512 := Nat.mul_le_mul_left _ (by omega)
    have hk' : k * 512 + 512 ≤ msg.length := by rw [Nat.add_mul, Nat.one_mul] at hk; exact hk
    have := leafStep_abs ok (τ i) hs i (blockAt 512 k msg) _ _ (ih (Nat.le_trans (Nat.le_add_right _ _) hk')) (hτ i) (by omega)
    rw [slice_group _ _ _ _ hle] at this
    have e : blockAt (2 * w) (k * leaves w + i) msg = (msg.drop (k * 512 + i * (2 * w))).take (2 * w) := by
      unfold blockAt
      rw [Nat.add_mul, Nat.mul_assoc, hm]
    rw [e]
    exact this

theorem length_digestsT (hw : w = 32 ∨ w = 64) (τ : Nat → Theta) (n : Nat) (msg : Bytes) (k : Nat) :
    ((List.range k).flatMap (fun i => leafDigest v L (τ i) n msg i)).length = k * w := by
  induction k with
  | zero => simp
  | succ k ih =>
    rw [List.range_succ, List.flatMap_append, List.length_append, List.flatMap_singleton, ih, Nat.add_mul, Nat.one_mul]
    congr 1
    exact length_core hw _ _ _

theorem finLeavesT_ok (ok : WordOk T v) {θ : Theta} (hθ : Valid w θ) {τ : Nat → Theta} (hτ : ∀ i, Valid w (τ i)) {hs : Nat} (msg : Bytes) (hl : msg.length < 2 ^ 60)
    (k pos : Nat) (hk : k = msg.length / 512) (hpos : pos = msg.length - k * 512) (m : Bytes) (hm : m.length = 512)
    (hbuf : m.take pos = msg.drop (k * 512)) (ls : List (Blk (St w))) :
    ∀ (i : Nat) (main : Blk (St w)), i + ls.length = leaves w →
    AllIdx (fun i l => LeafAbs T v L (τ i) hs i (groups (2 * w) (leaves w) i k msg) l) i ls →
    Abs T v θ hs (fo w L) (nd L) 0 (pMain w L θ (hs / 8))
      (pre w L θ ++ (List.range i).flatMap (fun i => leafDigest v L (τ i) (hs / 8) msg i)) main →
    ∃ main', Model.Blake2p.finLeaves T m pos i ls main = .ok main' ∧
      Abs T v θ hs (fo w L) (nd L) 0 (pMain w L θ (hs / 8))
        (pre w L θ ++ (List.range (leaves w)).flatMap (fun i => leafDigest v L (τ i) (hs / 8) msg i)) main' := by
  have hw := ok.w2
  have hw' : w = 32 ∨ w = 64 := by omega
  have hlv := leaves_cases hw'
  induction ls with
  | nil =>
    intro i main hi _ h
    rw [List.length_nil, Nat.add_zero] at hi
    subst hi
    exact ⟨main, rfl, h⟩
  | cons l ls ih =>
    intro i main hi ha h
    rw [List.length_cons] at hi
    obtain ⟨l', e, q⟩ := leafRest_ok ok (hτ i) msg hl k pos hk hpos m hm hbuf i (by omega) l ha.head
    have hsl := length_stripe (2 * w) (leaves w) i (by omega) (by omega) msg
    have hkl := length_keyed (2 * w) (τ i).key (Spec.Blake2.stripe (2 * w) (leaves w) i msg) (by have := (hτ i).key; omega)
    have e8 : (if 8 * w ≠ 0 then 8 * w else hs) / 8 = w := by rw [if_pos (by omega)]; omega
    have ef := final_ok ok q (by omega) (!L && decide (i + 1 = leaves w)) (fun H => flag_leaf hw' (τ i) hs i (by omega) H) (8 * w) (by rw [e8]; exact Nat.le_refl _)
    rw [e8, List.take_of_length_le (by rw [length_core hw']; exact Nat.le_refl _)] at ef
    have hdl := length_digestsT (v := v) (L := L) hw' τ (hs / 8) msg i
    have hpre := length_pre (L := L) θ hθ
    have hcl : (leafDigest v L (τ i) (hs / 8) msg i).length = w := length_core hw' _ _ _
    have h6 : i * w ≤ 8 * w := Nat.mul_le_mul_right _ (by omega)
    obtain ⟨main', em, qm⟩ := update_ok ok h (leafDigest v L (τ i) (hs / 8) msg i) (by rw [List.length_append, List.length_append, hdl, hcl]; omega)
    have hr : pre w L θ ++ (List.range i).flatMap (fun i => leafDigest v L (τ i) (hs / 8) msg i) ++ leafDigest v L (τ i) (hs / 8) msg i
        = pre w L θ ++ (List.range (i + 1)).flatMap (fun i => leafDigest v L (τ i) (hs / 8) msg i) := by
      rw [List.range_succ, List.flatMap_append, List.flatMap_singleton, List.append_assoc]
    rw [hr] at qm
    obtain ⟨main'', e'', q''⟩ := ih (i + 1) main' (by omega) ha.tail qm
    refine ⟨main'', ?_, q''⟩
    unfold Model.Blake2p.finLeaves
    rw [e, ok_bind, ef, ok_bind]
    show Model.Blake2.update T (leafDigest v L (τ i) (hs / 8) msg i) main >>= _ = _
    rw [em, ok_bind, e'']

theorem finalT_ok (ok : WordOk T v) {hs : Nat} (hsz : hs / 8 ≤ w) {θ : Theta} {τ : Nat → Theta} {msg : Bytes} {s : Blk (PSt w)}
    (h : RT T v hs L θ τ msg s) (hl : msg.length < 2 ^ 60) :
    Model.Blake2p.final T s = .ok ((Spec.Blake2.core v (pMain w L θ (hs / 8)) (!L)
      (pre w L θ ++ (List.range (leaves w)).flatMap fun i => leafDigest v L (τ i) (hs / 8) msg i)).take (hs / 8)) := by
  have hw := ok.w2
  have hw' : w = 32 ∨ w = 64 := by omega
  obtain ⟨⟨hθ, hτ⟩, h0, hst, hb⟩ := h
  have hk1 := Nat.div_mul_le_self msg.length 512
  have hk2 := Nat.lt_div_mul_add (show 0 < 512 by omega) (a := msg.length)
  have hg := groupsT_ok ok hτ hst msg hl (msg.length / 512) hk1
  obtain ⟨hh, m, pos, total⟩ := s
  have hml : m.length = 512 := hb.mlen
  have hpos : pos = msg.length - msg.length / 512 * 512 := hb.pos
  have hbuf : m.take pos = msg.drop (msg.length / 512 * 512) := hb.buf
  have hhe : hh = foldBlocks 512 (fun _ => stepP T) msg (msg.length / 512) h0 := hb.h
  have hmain : hh.main = h0.main := by rw [hhe, foldBlocks_stepP]
  have hleaf : hh.leaf.length = leaves w := by
    rw [hhe, foldBlocks_stepP]
    show (List.mapIdx _ _).length = _
    rw [List.length_mapIdx, hst.len]
  rw [← hhe] at hg
  have hz : zeroRest 512 m pos = .ok (m.take pos ++ List.replicate (512 - pos) 0) := by
    unfold zeroRest
    rw [if_pos (by omega), szSub_eq _ _ (by omega) (by unfold szMod; omega)]
    unfold memset
    rw [if_pos (by omega), List.drop_of_length_le (by omega), List.append_nil]
  obtain ⟨main', e, q⟩ := finLeavesT_ok ok hθ hτ msg hl (msg.length / 512) pos rfl hpos (m.take pos ++ List.replicate (512 - pos) 0)
    (by simp; omega) (by rw [List.take_left' (by simp; omega)]; exact hbuf) hh.leaf 0 hh.main (by omega) hg
    (by rw [hmain, List.range_zero, List.flatMap_nil, List.append_nil]; exact hst.main)
  unfold Model.Blake2p.final Model.Blake2p.finalize
  dsimp only
  rw [hz, ok_bind, e, ok_bind]
  have hlv := leaves_cases hw'
  have h6 : leaves w * w ≤ 8 * w := Nat.mul_le_mul_right _ (by omega)
  have hpre := length_pre (L := L) θ hθ
  have e' := final_ok ok q (by rw [List.length_append, length_digestsT hw']; omega) (!L) (fun H => flag_main hw' θ hs H) 0 hsz
  rw [e']
  rfl

/-- The parameters with another key. -/
def rekey (θ : Theta) (key : Bytes) : Theta := { θ with key := key }

theorem par_withKey {θ : Theta} {hs : Nat} {fo nd no : BitVec 8} {l : Blk (St w)} (key : Bytes) (h : Par θ hs fo nd no l.h) :
    Par (rekey θ key) hs fo nd no (withKey key l).h := ⟨h.s, h.p, rfl, h.hs, h.fo, h.nd, h.no⟩

/-- The parameters after `set_key` has run out of memory at leaf `j`. -/
theorem PParT.torn {θ : Theta} {hs : Nat} {s : Blk (PSt w)} (h : PPar w L θ hs s) (key : Bytes) (j : Nat) (hj : j < s.h.leaf.length) :
    PParT w L (rekey θ key) (fun i => if i < j then rekey θ key else θ) hs { s with h := { s.h with
      main := withKey key s.h.main, leaf := (s.h.leaf.take j).map (withKey key) ++ s.h.leaf.drop j } } := by
  refine ⟨h.mlen, ?_, ⟨h.main.1, par_withKey key h.main.2⟩, ?_, h.hs⟩
  · show ((s.h.leaf.take j).map (withKey key) ++ s.h.leaf.drop j).length = _
    rw [List.length_append, List.length_map, List.length_take, List.length_drop, ← h.len]
    omega
  · intro i a e
    have hl : ((s.h.leaf.take j).map (withKey key)).length = j := by rw [List.length_map, List.length_take]; omega
    have e : ((s.h.leaf.take j).map (withKey key) ++ s.h.leaf.drop j)[i]? = some a := e
    rw [Nat.zero_add]
    by_cases hi : i < j
    · rw [List.getElem?_append_left (by omega), List.getElem?_map, List.getElem?_take_of_lt hi] at e
      rw [if_pos hi]
      cases hx : s.h.leaf[i]? with
      | none => rw [hx] at e; cases e
      | some b =>
        rw [hx] at e
        cases e
        have := h.leaf i b hx
        rw [Nat.zero_add] at this
        exact ⟨this.1, par_withKey key this.2⟩
    · rw [List.getElem?_append_right (by omega), hl, List.getElem?_drop, show j + (i - j) = i by omega] at e
      rw [if_neg hi]
      have := h.leaf i a e
      rw [Nat.zero_add] at this
      exact this

theorem mixed_eq (n : Nat) (θ : Theta) (τ : Nat → Theta) (m : Bytes) : Spec.Blake2.mixed v (leaves w) n θ τ m =
    (Spec.Blake2.core v (pMain w false θ n) (!false)
      (pre w false θ ++ (List.range (leaves w)).flatMap fun i => leafDigest v false (τ i) n m i)).take n := rfl

/-- `set_key` that runs out of memory at leaf `j`, `reset()`, and a message. -/
theorem torn_ok (ok : WordOk T v) {hs : Nat} (hsz : hs / 8 ≤ w) {θ : Theta} {msg : Bytes} {s : Blk (PSt w)} (h : RP T v hs false θ msg s)
    (key : Bytes) (hkey : key.length ≤ w) (mem : Memory) (j : Nat) (hj : j < leaves w) (ht : ∀ t ≤ j, mem t = true) (hm : mem (j + 1) = false) :
    ∃ s1, Model.Blake2p.setMem T mem (.key key) s = .ok (.noMemory, s1) ∧ ∀ m : Bytes, m.length < 2 ^ 60 →
      ∃ s2 s3, Model.Blake2p.init T s1 = .ok s2 ∧ Model.Blake2p.update T m s2 = .ok s3 ∧ Model.Blake2p.final T s3
        = .ok (Spec.Blake2.mixed v (leaves w) (hs / 8) (rekey θ key) (fun i => if i < j then rekey θ key else θ) m) := by
  have hpar := PPar.of ok h
  refine ⟨_, setMem_torn T key hkey mem j s (by rw [hpar.len]; exact hj) ht hm, ?_⟩
  intro m hlen
  have hv : Valid w (rekey θ key) := ⟨hkey, h.1.salt, h.1.personal⟩
  obtain ⟨s2, e2, r2⟩ := initT_ok ok hs hsz (rekey θ key) hv (fun i => if i < j then rekey θ key else θ)
    (fun i => by show Valid w (if _ then _ else _); by_cases hi : i < j; (rw [if_pos hi]; exact hv); rw [if_neg hi]; exact h.1) _ (PParT.torn hpar key j (by rw [hpar.len]; exact hj))
  obtain ⟨s3, e3, r3⟩ := r2.update ok m (by omega)
  rw [List.nil_append] at r3
  refine ⟨s2, s3, e2, e3, ?_⟩
  rw [mixed_eq]
  exact finalT_ok ok hsz r3 hlen

end Blake2p
end Digestpp.Proofs
