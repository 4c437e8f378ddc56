import Verif.Proofs.Indep
import Verif.Proofs.SafetyAscon

/-! The extendable output functions of Esch and Ascon on different memory. -/

namespace Digestpp.Proofs.Indep

namespace Ascon
open Model Model.Ascon

/-- The member that `init` does not set. -/
def E0 (s t : Blk St) : Prop := s.h.Z = t.h.Z ∧ s.m.length = t.m.length

theorem transform_keep {Z : Bytes} {n : Nat} (data : Bytes) (k : Nat) (s : Blk St) (h : s.h.Z = Z ∧ s.m.length = n) :
    Post (fun s => s.h.Z = Z ∧ s.m.length = n) (transform data k s) := by
  unfold transform
  exact Post.bind Post.any fun _ _ => Post.pure h

theorem update_keep (d : Bytes) {s t : Blk St} (h : E0 s t) : Post (fun s => E0 s t) (update d s) :=
  absorbBytes_keep (K := fun x : St => x.Z = t.h.Z) (n := t.m.length) transform_keep d (s := s) h

theorem initFields_eq (k : Kind) {s t : Blk St} (h : E0 s t) : initFields k s = initFields k t := by
  unfold initFields zeroBytes
  dsimp only
  rw [h.1, h.2]

theorem init_eq (k : Kind) {s t : Blk St} (h : E0 s t) : init k s = init k t := by
  unfold init
  rw [initFields_eq k h]

theorem initFields_keep (k : Kind) {s t : Blk St} (h : E0 s t) : E0 (initFields k s) t :=
  ⟨h.1, by unfold initFields zeroBytes; dsimp only; rw [List.length_replicate]; exact h.2⟩

theorem init_keep (k : Kind) {s t : Blk St} (h : E0 s t) : Post (fun s => E0 s t) (init k s) := by
  unfold init
  have h0 := initFields_keep k h
  split
  · unfold initCustom
    refine Post.bind (update_keep _ h0) fun a h => ?_
    refine Post.bind (Q := fun s => E0 s t) ?_ fun a h => Post.bind Post.any fun _ _ => update_keep _ h
    split
    · exact update_keep _ h
    · exact Post.pure h
  · exact Post.pure h0

theorem squeeze_keep (n : Nat) {s t : Blk St} (h : E0 s t) : Post (fun a => E0 a.2 t) (squeeze n s) := by
  unfold squeeze
  refine Post.bind (Q := fun a => E0 a.2 t) ?_ fun a h => ?_
  · unfold squeezeFirst
    split
    · refine Post.bind (setByte_length _ _ _) fun m e => ?_
      refine Post.bind (Q := fun m => m.length = t.m.length) ?_ fun m e => ?_
      · split
        · exact (memset_length _ _ _ _).mono fun a ea => ea.trans (e.trans h.2)
        · exact Post.pure (e.trans h.2)
      · refine Post.bind (transform_keep (Z := t.h.Z) (n := t.m.length) _ _ _ ⟨h.1, e⟩) fun s h => ?_
        exact Post.bind (memset_length _ _ _ _) fun m e => Post.pure ⟨h.1, e.trans h.2⟩
    · split
      · exact Post.bind Post.any fun _ _ => Post.pure h
      · split
        · exact Post.bind (transform_keep (Z := t.h.Z) (n := t.m.length) _ _ _ h) fun _ e => Post.pure e
        · exact Post.pure h
  · show Post _ (squeezeLoop n n a.1 a.2)
    obtain ⟨out, s⟩ := a
    dsimp only at h ⊢
    suffices ∀ fuel (out : Bytes) (s : Blk St), E0 s t → Post (fun a => E0 a.2 t) (squeezeLoop n fuel out s) from this n out s h
    intro fuel
    induction fuel with
    | zero => exact fun _ _ h => Post.pure h
    | succ fuel ih =>
      intro out s h
      unfold squeezeLoop
      split
      · refine Post.bind (Q := fun s => E0 s t) ?_ fun a e => Post.bind Post.any fun _ _ => ih _ _ e
        split
        · exact transform_keep _ _ _ h
        · exact Post.pure h
      · exact Post.pure h

theorem clear_agree {s t : Blk St} (h : E0 s t) : Agree E0 (clear s) (clear t) :=
  Agree.pure ⟨h.1, by dsimp only [zeroBytes]; rw [List.length_replicate, List.length_replicate]; exact h.2⟩

theorem xof : XofTwin asconXof E0 Eq where
  pr := XofTwo.ofEq (fun _ _ h => init_eq .xof h) (fun _ => ⟨rfl, rfl⟩) (fun _ _ h => clear_agree h) (fun p _ _ _ => nomatch p)
    (fun _ _ h => init_keep .xof h) (fun d _ _ h => update_keep d h) (fun n _ _ h => squeeze_keep n h)
  ctor := fun _ _ h h' => Agree.pure ⟨rfl, h.2.trans h'.2.symm⟩

theorem cxof : XofTwin asconCxof E0 Eq where
  pr := XofTwo.ofEq (fun _ _ h => init_eq .cxof h) (fun _ => ⟨rfl, rfl⟩) (fun _ _ h => clear_agree h)
    (fun p _ _ h => by cases p; exact Agree.pure ⟨rfl, rfl, h.2⟩)
    (fun _ _ h => init_keep .cxof h) (fun d _ _ h => update_keep d h) (fun n _ _ h => squeeze_keep n h)
  ctor := fun _ _ h h' => Agree.pure ⟨rfl, h.2.trans h'.2.symm⟩

end Ascon

namespace Esch
open Model Model.Esch

/-- The member that `init` does not set, and the sizes of the arrays. -/
def E0 (s t : Blk St) : Prop := (s.h.hs = t.h.hs ∧ s.h.H.length = t.h.H.length) ∧ s.m.length = t.m.length

theorem transform_keep {hs l : Nat} {n : Nat} (last : Bool) (data : Bytes) (k : Nat) (s : Blk St) (h : (s.h.hs = hs ∧ s.h.H.length = l) ∧ s.m.length = n) :
    Post (fun s => (s.h.hs = hs ∧ s.h.H.length = l) ∧ s.m.length = n) (transform last data k s) := by
  unfold transform
  exact Post.bind (forBlocks_keep (K := fun x : St => x.hs = hs ∧ x.H.length = l) (f := fun _ b h => pure (absorbBlock last b h))
    (fun _ b x hx => Post.pure ⟨hx.1, (Safety.Esch.length_absorbBlock last b x).1.trans hx.2⟩) _ h.1) fun a e => Post.pure ⟨e, h.2⟩

theorem update_keep (d : Bytes) {s t : Blk St} (h : E0 s t) : Post (fun s => E0 s t) (update d s) :=
  absorbBytes_keep (K := fun x : St => x.hs = t.h.hs ∧ x.H.length = t.h.H.length) (n := t.m.length) (transform_keep false) d (s := s) h

theorem init_eq {s t : Blk St} (h : E0 s t) : init s = init t := by
  unfold init zeroBytes
  dsimp only
  rw [List.map_const', List.map_const', h.1.1, h.1.2, h.2]

theorem init_keep {s t : Blk St} (h : E0 s t) : Post (fun s => E0 s t) (init s) :=
  Post.pure ⟨⟨h.1.1, by dsimp only; rw [List.length_map]; exact h.1.2⟩, by dsimp only [zeroBytes]; rw [List.length_replicate]; exact h.2⟩

theorem clear_agree {s t : Blk St} (h : E0 s t) : Agree E0 (clear s) (clear t) :=
  Agree.pure ⟨⟨h.1.1, by dsimp only; rw [List.length_map, List.length_map]; exact h.1.2⟩,
    by dsimp only [zeroBytes]; rw [List.length_replicate, List.length_replicate]; exact h.2⟩

theorem xorConst_keep (v : BitVec 32) (h : St) : Post (fun a => a.hs = h.hs ∧ a.H.length = h.H.length) (xorConst v h) := by
  unfold xorConst
  dsimp only
  split
  · exact Post.pure ⟨rfl, List.length_set ..⟩
  · exact Post.error

theorem squeeze_keep (x : Bool) (n : Nat) {s t : Blk St} (h : E0 s t) : Post (fun a => E0 a.2 t) (squeeze x n s) := by
  unfold squeeze
  refine Post.bind (Q := fun a => E0 a.2 t) ?_ fun a h => ?_
  · unfold squeezeFirst
    split
    · refine Post.bind (Q := fun s => E0 s t) ?_ fun s h => ?_
      · split
        · refine Post.bind (memset_length _ _ _ _) fun m e => ?_
          refine Post.bind (setByte_length _ _ _) fun m' e' => ?_
          refine Post.bind (xorConst_keep _ _) fun y ey => ?_
          exact Post.pure ⟨⟨ey.1.trans h.1.1, ey.2.trans h.1.2⟩, (e'.trans e).trans h.2⟩
        · refine Post.bind (xorConst_keep _ _) fun y ey => ?_
          exact Post.pure ⟨⟨ey.1.trans h.1.1, ey.2.trans h.1.2⟩, h.2⟩
      · exact Post.bind (transform_keep (hs := t.h.hs) (l := t.h.H.length) (n := t.m.length) _ _ _ _ h) fun _ e => Post.pure e
    · split
      · exact Post.bind Post.any fun _ _ => Post.pure h
      · exact Post.pure h
  · show Post _ (squeezeLoop n n a.1 a.2)
    obtain ⟨out, s⟩ := a
    dsimp only at h ⊢
    suffices ∀ fuel (out : Bytes) (s : Blk St), E0 s t → Post (fun a => E0 a.2 t) (squeezeLoop n fuel out s) from this n out s h
    intro fuel
    induction fuel with
    | zero => exact fun _ _ h => Post.pure h
    | succ fuel ih =>
      intro out s h
      unfold squeezeLoop
      split
      · refine Post.bind Post.any fun _ _ => ih _ _ ⟨⟨h.1.1, ?_⟩, h.2⟩
        dsimp only
        split
        · rw [Safety.Esch.length_sparkle]; exact h.1.2
        · exact h.1.2
      · exact Post.pure h

theorem xof (N : Nat) : XofTwin (eschXof N) E0 Eq where
  pr := XofTwo.ofEq (fun _ _ h => init_eq h) (fun _ => ⟨⟨rfl, rfl⟩, rfl⟩) (fun _ _ h => clear_agree h) (fun p _ _ _ => nomatch p)
    (fun _ _ h => init_keep h) (fun d _ _ h => update_keep d h) (fun n _ _ h => squeeze_keep true n h)
  ctor := fun _ _ h h' => Agree.pure ⟨⟨rfl, h.1.trans h'.1.symm⟩, h.2.trans h'.2.symm⟩

end Esch
end Digestpp.Proofs.Indep
