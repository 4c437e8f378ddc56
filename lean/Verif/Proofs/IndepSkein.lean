import Verif.Proofs.Indep
import Verif.Model.Skein

/-! Skein on different memory. -/

namespace Digestpp.Proofs.Indep.Skein
open Model Model.Skein

variable {F : Fns}

/-- The members that `init` does not set. -/
def E0 (s t : Blk St) : Prop :=
  s.h.hs = t.h.hs ∧ s.h.p = t.h.p ∧ s.h.n = t.h.n ∧ s.h.k = t.h.k ∧ s.m.length = t.m.length

/-- Same members, except that `hbk` is not used before squeezing; `c`: including `tweak1`, `d`: including `hbk`. -/
structure HE (c d : Prop) (b : Bool) (x y : St) : Prop where
  H : x.H = y.H
  tweak0 : x.tweak0 = y.tweak0
  tweak1 : c → x.tweak1 = y.tweak1
  hs : x.hs = y.hs
  p : x.p = y.p
  n : x.n = y.n
  k : x.k = y.k
  sq : x.squeezing = b
  sq' : y.squeezing = b
  hbk : d → x.hbk = y.hbk

abbrev At (F : Fns) (b : Bool) : Blk St → Blk St → Prop := BlkE (HE True (b = true) b) (b = true) (8 * F.nw)

def E (F : Fns) (s t : Blk St) : Prop := ∃ b, At F b s t

theorem E.sub {s t : Blk St} (h : E F s t) : E0 s t := by
  obtain ⟨b, h⟩ := h
  exact ⟨h.h.hs, h.h.p, h.h.n, h.h.k, h.m.1⟩

theorem block_agree {e : Prop} {b : Bool} (reallen : Nat) (d : Bytes) {x y : St} (h : HE True e b x y) : Agree (HE True e b) (block F reallen d x) (block F reallen d y) := by
  unfold block
  dsimp only
  rw [← h.H, ← h.tweak0, ← h.tweak1 trivial]
  refine Agree.bind Agree.refl fun _ _ e => ?_
  subst e
  exact Agree.pure ⟨rfl, rfl, fun _ => rfl, h.hs, h.p, h.n, h.k, h.sq, h.sq', h.hbk⟩

theorem transform_agree {d : Prop} {b : Bool} {reallen : Nat} : TrAgree (8 * F.nw) (HE True d b) (transform F reallen) := by
  intro data data' n s t hd hR _
  unfold transform
  exact Agree.bind (forBlocks_agree hd (fun _ d x y h => block_agree reallen d h) _ _ hR) fun a b e =>
    Agree.pure ⟨e, ⟨rfl, rfl, rfl⟩, rfl, rfl, rfl⟩

variable (hF : 8 * F.nw < szMod)

include hF in
theorem update_at (b : Bool) (d : Bytes) {s t : Blk St} (h : At F b s t) : Agree (At F b) (update F d s) (update F d t) :=
  absorbBytes_agree hF transform_agree d h

theorem zeroTail_agree {bs pos : Nat} {m m' : Bytes} (h : Agr pos m m') :
    Agree (fun a b => Agr pos a b ∧ Agr bs a b) (zeroTail bs m pos) (zeroTail bs m' pos) := by
  unfold zeroTail
  split
  · exact (memset_agree (off := pos) h).mono fun a b hab => ⟨hab.1, (hab.2 (Nat.le_refl _)).le (by omega)⟩
  · exact Agree.pure ⟨h, h.le (by omega)⟩

/-- `last`: the whole buffer agrees afterwards. -/
theorem last_agree {d : Prop} {b : Bool} {f : Prop} {s t : Blk St} (h : BlkE (HE True d b) f (8 * F.nw) s t) :
    Agree (BlkE (HE True d b) True (8 * F.nw)) (last F s) (last F t) := by
  unfold last
  rw [← h.pos]
  refine Agree.bind (zeroTail_agree h.m) fun m m' hm => ?_
  refine (transform_agree (d := d) (b := b) m m' 1 _ _ (by rw [Nat.one_mul]; exact hm.2) ?_ ?_).mono fun a b e => ?_
  · have hh := h.h
    exact ⟨hh.H, hh.tweak0, fun _ => by dsimp only; rw [hh.tweak1 trivial], hh.hs, hh.p, hh.n, hh.k, hh.sq, hh.sq', hh.hbk⟩
  · exact h.total
  · obtain ⟨hR, ⟨am, ap, at'⟩, bm, bp, bt⟩ := e
    refine ⟨hR, by rw [ap, bp], by rw [at', bt]; exact h.total, ?_, fun _ => ?_⟩
    · rw [ap, am, bm]; exact hm.1
    · rw [am, bm]; exact hm.2

include hF in
theorem injectParameter_agree {c : Prop} (p : Bytes) (code : BitVec 64) {s t : Blk St} (h : BlkE (HE c False false) False (8 * F.nw) s t) :
    Agree (BlkE (HE c False false) False (8 * F.nw)) (injectParameter F p code s) (injectParameter F p code t) := by
  unfold injectParameter
  split
  · exact Agree.pure h
  · have hh := h.h
    refine Agree.bind (update_at hF false p
      ⟨⟨hh.H, hh.tweak0, fun _ => rfl, hh.hs, hh.p, hh.n, hh.k, hh.sq, hh.sq', nofun⟩, h.pos, h.total, h.m, nofun⟩) fun a b h => ?_
    refine Agree.bind (last_agree h) fun a b h => ?_
    have hh := h.h
    exact Agree.pure ⟨⟨hh.H, rfl, fun _ => rfl, hh.hs, hh.p, hh.n, hh.k, rfl, rfl, nofun⟩, rfl, rfl, h.m.le (Nat.zero_le _), nofun⟩

theorem config_eq (v : BitVec 64) {m m' : Bytes} (h : m.length = m'.length) : config v m = config v m' := by
  unfold config zeroBytes
  rw [h]

include hF in
theorem init_agree (xof : Bool) {s t : Blk St} (h : E0 s t) : Agree (At F false) (init F xof s) (init F xof t) := by
  unfold init
  dsimp only
  obtain ⟨h1, h2, h3, h4, h5⟩ := h
  rw [← h4]
  refine Agree.bind (injectParameter_agree hF (c := False) s.h.k 0
    ⟨⟨rfl, rfl, nofun, h1, h2, h3, rfl, rfl, rfl, nofun⟩, rfl, rfl, Agr.zero h5, nofun⟩) fun a b h => ?_
  rw [← h.h.hs, config_eq _ h.m.1]
  refine Agree.bind Agree.refl fun m _ e => ?_
  subst e
  have hh := h.h
  refine Agree.bind (transform_agree (d := False) (b := false) m m 1 _ _ Agr.refl
    ⟨hh.H, hh.tweak0, fun _ => rfl, rfl, hh.p, hh.n, hh.k, hh.sq, hh.sq', nofun⟩ h.total) fun a b e => ?_
  obtain ⟨hR, ⟨am, ap, at'⟩, bm, bp, bt⟩ := e
  rw [← hR.p]
  refine Agree.bind (injectParameter_agree hF (c := True) a.h.p 8
    ⟨⟨hR.H, rfl, fun _ => rfl, hR.hs, rfl, hR.n, hR.k, hR.sq, hR.sq', nofun⟩, rfl, rfl, by dsimp only; rw [am, bm]; exact Agr.refl, nofun⟩)
    fun a b h => ?_
  rw [← h.h.n]
  exact (injectParameter_agree hF _ _ h).mono fun _ _ h => by
    have hh := h.h
    exact ⟨⟨hh.H, hh.tweak0, hh.tweak1, hh.hs, hh.p, hh.n, hh.k, hh.sq, hh.sq', nofun⟩, h.pos, h.total, h.m, nofun⟩

theorem squeezeFirst_agree (n : Nat) {s t : Blk St} (h : E F s t) :
    Agree (fun a b => a.1 = b.1 ∧ At F true a.2 b.2) (squeezeFirst F n s) (squeezeFirst F n t) := by
  obtain ⟨b, h⟩ := h
  have hh := h.h
  unfold squeezeFirst
  rw [← hh.H, ← h.pos, hh.sq, hh.sq']
  cases b with
  | false =>
    simp only [if_true]
    refine Agree.bind (last_agree (d := False) (b := true) (f := False)
      ⟨⟨hh.H, hh.tweak0, hh.tweak1, hh.hs, hh.p, hh.n, hh.k, rfl, rfl, nofun⟩, rfl, h.total, h.m, nofun⟩) fun a b h => ?_
    have hh := h.h
    rw [← hh.H]
    refine Agree.bind ((memset_agree (h.full trivial)).mono fun a b e => e.1) fun m m' hm => ?_
    exact Agree.pure ⟨rfl, ⟨rfl, hh.tweak0, hh.tweak1, hh.hs, hh.p, hh.n, hh.k, hh.sq, hh.sq', fun _ => rfl⟩, rfl, rfl,
      hm.le (Nat.zero_le _), fun _ => hm⟩
  | true =>
    simp only [Bool.true_eq_false, if_false]
    split
    · refine Agree.bind Agree.refl fun _ _ e => ?_
      subst e
      exact Agree.pure ⟨rfl, hh, rfl, h.total, (h.full rfl).le (by dsimp only; omega), h.full⟩
    · exact Agree.pure ⟨rfl, h⟩

theorem squeezeLoop_agree (n fuel : Nat) (out : Bytes) {s t : Blk St} (h : At F true s t) :
    Agree (fun a b => a.1 = b.1 ∧ At F true a.2 b.2) (squeezeLoop F n fuel out s) (squeezeLoop F n fuel out t) := by
  induction fuel generalizing out s t with
  | zero => exact Agree.pure ⟨rfl, h⟩
  | succ fuel ih =>
    unfold squeezeLoop
    split
    · dsimp only
      have hh := h.h
      rw [← h.total, ← hh.hbk rfl]
      refine Agree.bind ((memcpyTo_agree (h.full rfl)).mono fun a b e => e.1) fun m m' hm => ?_
      refine Agree.bind (transform_agree (d := True) (b := true) m m' 1 _ _ (by rw [Nat.one_mul]; exact hm)
        ⟨rfl, rfl, fun _ => rfl, hh.hs, hh.p, hh.n, hh.k, hh.sq, hh.sq', fun _ => rfl⟩ rfl) fun a b e => ?_
      obtain ⟨hR, ⟨am, ap, at'⟩, bm, bp, bt⟩ := e
      rw [← hR.H]
      refine Agree.bind Agree.refl fun _ _ e => ?_
      subst e
      have hab : Agr (8 * F.nw) a.m b.m := by rw [am, bm]; exact hm
      exact ih _ ⟨⟨hR.H, hR.tweak0, hR.tweak1, hR.hs, hR.p, hR.n, hR.k, hR.sq, hR.sq', fun _ => hR.hbk trivial⟩, by dsimp only; rw [ap, bp],
        by dsimp only; rw [at', bt], hab.le (by dsimp only; rw [ap]; dsimp only; omega), fun _ => hab⟩
    · exact Agree.pure ⟨rfl, h⟩

theorem squeeze_agree (n : Nat) {s t : Blk St} (h : E F s t) :
    Agree (fun a b => a.1 = b.1 ∧ E F a.2 b.2) (squeeze F n s) (squeeze F n t) := by
  unfold squeeze
  refine Agree.bind (squeezeFirst_agree n h) fun a b hab => ?_
  show Agree _ (squeezeLoop F n n a.1 a.2) (squeezeLoop F n n b.1 b.2)
  rw [hab.1]
  exact (squeezeLoop_agree n n _ hab.2).mono fun a b hab => ⟨hab.1, true, hab.2⟩

include hF in
theorem update_agree (d : Bytes) {s t : Blk St} (h : E F s t) : Agree (E F) (update F d s) (update F d t) := by
  obtain ⟨b, h⟩ := h
  exact (update_at hF b d h).mono fun _ _ h => ⟨b, h⟩

theorem clear_agree {s t : Blk St} (h : E0 s t) : Agree E0 (clear F s) (clear F t) :=
  Agree.pure ⟨h.1, rfl, rfl, rfl, by dsimp only [zeroBytes]; rw [List.length_replicate, List.length_replicate]; exact h.2.2.2.2⟩

theorem set0_agree (p : SkeinParam) {s t : Blk St} (h : E0 s t) :
    Agree (fun a b => a.1 = b.1 ∧ E0 a.2 b.2) (Model.Skein.set p s) (Model.Skein.set p t) := by
  obtain ⟨h1, h2, h3, h4, h5⟩ := h
  cases p with
  | personalization v => exact Agree.pure ⟨rfl, h1, rfl, h3, h4, h5⟩
  | nonce v => exact Agree.pure ⟨rfl, h1, h2, rfl, h4, h5⟩
  | key v => exact Agree.pure ⟨rfl, h1, h2, h3, rfl, h5⟩

theorem set_agree (p : SkeinParam) (s t : Blk St) :
    Agree (fun a b => a.1 = true → E F a.2 b.2) (Model.Skein.set p s) (Model.Skein.set p t) := by
  cases p <;> exact Agree.pure nofun

/-- What absorbing and squeezing keep. -/
def Keep (y x : St) : Prop := x.hs = y.hs ∧ x.p = y.p ∧ x.n = y.n ∧ x.k = y.k

theorem E0.of {s t : Blk St} (h : Keep t.h s.h ∧ s.m.length = t.m.length) : E0 s t := ⟨h.1.1, h.1.2.1, h.1.2.2.1, h.1.2.2.2, h.2⟩

theorem E0.to {s t : Blk St} (h : E0 s t) : Keep t.h s.h ∧ s.m.length = t.m.length := ⟨⟨h.1, h.2.1, h.2.2.1, h.2.2.2.1⟩, h.2.2.2.2⟩

theorem transform_keep {reallen : Nat} {y : St} {n : Nat} (data : Bytes) (k : Nat) (s : Blk St) (h : Keep y s.h ∧ s.m.length = n) :
    Post (fun s => Keep y s.h ∧ s.m.length = n) (transform F reallen data k s) := by
  unfold transform
  refine Post.bind (forBlocks_keep (K := Keep y) (fun _ _ x hx => ?_) _ h.1) fun a e => Post.pure ⟨e, h.2⟩
  unfold block
  exact Post.bind Post.any fun _ _ => Post.pure hx

theorem update_keep (d : Bytes) {s t : Blk St} (h : E0 s t) : Post (fun s => E0 s t) (update F d s) :=
  (absorbBytes_keep (K := Keep t.h) transform_keep d h.to).mono fun _ e => E0.of e

theorem last_keep {s t : Blk St} (h : E0 s t) : Post (fun s => E0 s t) (last F s) := by
  unfold last zeroTail
  refine Post.bind (Q := fun m => m.length = s.m.length) ?_ fun m e => ?_
  · split
    · exact memset_length _ _ _ _
    · exact Post.pure rfl
  · refine Post.mono (Q := fun s => Keep t.h s.h ∧ s.m.length = t.m.length) (transform_keep _ _ _ ?_) fun _ e => E0.of e
    exact ⟨h.to.1, e.trans h.to.2⟩

theorem injectParameter_keep (p : Bytes) (code : BitVec 64) {s t : Blk St} (h : E0 s t) : Post (fun s => E0 s t) (injectParameter F p code s) := by
  unfold injectParameter
  split
  · exact Post.pure h
  · exact Post.bind (update_keep (s := { s with h := _ }) p h) fun a e => Post.bind (last_keep e) fun b e => Post.pure e

theorem config_length (v : BitVec 64) (m : Bytes) : Post (fun a => a.length = m.length) (config v m) := by
  unfold config zeroBytes
  have h0 : (List.replicate m.length (0 : Byte)).length = m.length := List.length_replicate
  refine Post.bind (setByte_length _ _ _) fun a ea => ?_
  refine Post.bind (setByte_length _ _ _) fun b eb => ?_
  refine Post.bind (setByte_length _ _ _) fun c ec => ?_
  refine Post.bind (setByte_length _ _ _) fun d ed => ?_
  refine Post.bind (setByte_length _ _ _) fun e ee => ?_
  exact (memcpyTo_length _ _ _).mono fun f ef => by rw [ef, ee, ed, ec, eb, ea, h0]

theorem init_keep (xof : Bool) {s t : Blk St} (h : E0 s t) : Post (fun s => E0 s t) (init F xof s) := by
  unfold init
  refine Post.bind (injectParameter_keep (s := { s with pos := _, total := _, h := _ }) _ _ h) fun s h => ?_
  refine Post.bind (config_length _ _) fun m e => ?_
  refine Post.bind (transform_keep (y := t.h) (n := t.m.length) _ _ _ ⟨h.to.1, e.trans h.to.2⟩) fun s h => ?_
  refine Post.bind (injectParameter_keep (t := t) (s := { s with pos := _, total := _, h := _ }) _ _ (E0.of h)) fun s h => ?_
  exact injectParameter_keep _ _ h

theorem squeeze_keep (n : Nat) {s t : Blk St} (h : E0 s t) : Post (fun a => E0 a.2 t) (squeeze F n s) := by
  unfold squeeze
  refine Post.bind (Q := fun a => E0 a.2 t) ?_ fun a h => ?_
  · unfold squeezeFirst
    split
    · refine Post.bind (last_keep (s := { s with h := _ }) h) fun s h => ?_
      exact Post.bind (memset_length _ _ _ _) fun m e => Post.pure ⟨h.1, h.2.1, h.2.2.1, h.2.2.2.1, e.trans h.2.2.2.2⟩
    · split
      · exact Post.bind Post.any fun _ _ => Post.pure h
      · exact Post.pure h
  · show Post _ (squeezeLoop F n n a.1 a.2)
    obtain ⟨out, s⟩ := a
    dsimp only at h ⊢
    suffices ∀ fuel (out : Bytes) (s : Blk St), E0 s t → Post (fun a => E0 a.2 t) (squeezeLoop F n fuel out s) from this n out s h
    intro fuel
    induction fuel with
    | zero => exact fun _ _ h => Post.pure h
    | succ fuel ih =>
      intro out s h
      unfold squeezeLoop
      split
      · refine Post.bind (memcpyTo_length _ _ _) fun m e => ?_
        refine Post.bind (transform_keep (y := t.h) (n := t.m.length) _ _ _ ⟨h.to.1, e.trans h.to.2⟩) fun a e => ?_
        exact Post.bind Post.any fun _ _ => ih _ _ (E0.of e)
      · exact Post.pure h

include hF in
theorem provider_two : HashTwo (provider F) E0 (E F) where
  sub := fun _ _ h => h.sub
  init := fun _ _ h => (init_agree hF false h).mono fun _ _ h => ⟨_, h⟩
  update := fun d _ _ h => update_agree hF d h
  final := fun s t h => by
    show Agree Eq (final F s) (final F t)
    unfold final
    rw [← h.sub.1]
    exact Agree.bind (squeeze_agree _ h) fun _ _ e => Agree.pure e.1
  clear := fun _ _ h => clear_agree h
  size := fun _ _ h => h.sub.1
  set := fun p s t _ => set_agree p s t
  set0 := fun p _ _ h => set0_agree p h
  keepInit := fun _ _ h => init_keep false h
  keepUpdate := fun d _ _ h => update_keep d h

theorem fields_agree (N : Nat) {s t : Blk St} (h : Mem F s) (h' : Mem F t) : E0 (fields N s) (fields N t) :=
  ⟨rfl, rfl, rfl, rfl, h.trans h'.symm⟩

theorem new_agree (N : Nat) {s t : Blk St} (h : Mem F s) (h' : Mem F t) : Opt E0 (new N s) (new N t) := by
  unfold new
  split
  · exact fields_agree N h h'
  · trivial

include hF in
theorem skein_two (N : Nat) : HashTwin (skein F N) E0 (E F) where
  pr := provider_two hF
  ctor := fun _ _ h h' => Agree.pure (new_agree N h h')

include hF in
theorem skeinStatic_two (N : Nat) : HashTwin (skeinStatic F N) E0 (E F) where
  pr := provider_two hF
  ctor := fun _ _ h h' => Agree.pure (fields_agree N h h')

include hF in
theorem xof_two : XofTwin (skeinXof F) E0 (E F) where
  pr :=
    { sub := fun _ _ h => h.sub
      init := fun _ _ h => (init_agree hF true h).mono fun _ _ h => ⟨_, h⟩
      update := fun d _ _ h => update_agree hF d h
      squeeze := fun n _ _ h => squeeze_agree n h
      clear := fun _ _ h => clear_agree h
      set := fun p s t _ => set_agree p s t
      set0 := fun p _ _ h => set0_agree p h
      keepInit := fun _ _ h => init_keep true h
      keepUpdate := fun d _ _ h => update_keep d h
      keepSqueeze := fun n _ _ h => squeeze_keep n h }
  ctor := fun _ _ h h' => Agree.pure (new_agree _ h h')

end Digestpp.Proofs.Indep.Skein
