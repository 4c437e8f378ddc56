import Verif.Proofs.Indep
import Verif.Model.Kmac
import Verif.Model.K12

/-! SHAKE, cSHAKE, KMAC and KangarooTwelve on different memory. -/

namespace Digestpp.Proofs.Indep
open Model

namespace Shake
open Model.Shake

/-- Before `init`: the strings are the same. -/
def E0 (s t : Blk St) : Prop := s.h.N = t.h.N ∧ s.h.S = t.h.S ∧ s.m.length = t.m.length

/-- Same members; the buffers agree as far as they are read. -/
abbrev At (r : Nat) (b : Bool) : Blk St → Blk St → Prop := BlkE (fun x y => x = y ∧ x.squeezing = b) (b = true) r

def E (r : Nat) (s t : Blk St) : Prop := ∃ b, At r b s t

theorem E.sub {r : Nat} {s t : Blk St} (h : E r s t) : E0 s t := by
  obtain ⟨b, h⟩ := h
  exact ⟨by rw [h.h.1], by rw [h.h.1], h.m.1⟩

theorem transform_agree {R rate n : Nat} {data data' : Bytes} (h : Agr (n * (rate / 8)) data data') (A : List (BitVec 64)) :
    Agree Eq (Sha3.transform R rate data n A) (Sha3.transform R rate data' n A) := by
  unfold Sha3.transform
  exact forBlocks_agree h (fun i b s t e => Agree.of_eq (by rw [e])) A A rfl

theorem onBlocks_agree {R rate : Nat} {b : Bool} : TrAgree (rate / 8) (fun x y : St => x = y ∧ x.squeezing = b) (onBlocks R rate) := by
  intro data data' n s t hd hR _
  unfold onBlocks
  rw [← hR.1]
  refine Agree.bind (transform_agree hd _) fun a a' e => Agree.pure ⟨⟨by rw [e], hR.2⟩, ⟨rfl, rfl, rfl⟩, rfl, rfl, rfl⟩

variable {R rate : Nat} (hr : rate / 8 < szMod)

include hr in
theorem update_at (b : Bool) (d : Bytes) {s t : Blk St} (h : At (rate / 8) b s t) :
    Agree (At (rate / 8) b) (update R rate d s) (update R rate d t) := absorbBytes_agree hr onBlocks_agree d h

include hr in
theorem update_agree (d : Bytes) {s t : Blk St} (h : E (rate / 8) s t) :
    Agree (E (rate / 8)) (update R rate d s) (update R rate d t) := by
  obtain ⟨b, h⟩ := h
  exact (update_at hr b d h).mono fun _ _ h => ⟨b, h⟩

include hr in
theorem updateString_at (b : Bool) (d : Bytes) {s t : Blk St} (h : At (rate / 8) b s t) :
    Agree (At (rate / 8) b) (updateString R rate d s) (updateString R rate d t) := by
  unfold updateString
  split
  · exact Agree.pure h
  · exact update_at hr b d h

include hr in
theorem init_agree {s t : Blk St} (h : E0 s t) : Agree (At (rate / 8) false) (init R rate s) (init R rate t) := by
  have h0 : At (rate / 8) false (initFields s) (initFields t) := by
    unfold initFields
    exact ⟨⟨by dsimp only; rw [h.1, h.2.1], rfl⟩, rfl, rfl, Agr.zero h.2.2, nofun⟩
  unfold init
  rw [h.1, h.2.1]
  split
  · unfold initPrefix
    dsimp only
    have e1 : (initFields s).h.N = (initFields t).h.N := by rw [h0.h.1]
    have e2 : (initFields s).h.S = (initFields t).h.S := by rw [h0.h.1]
    rw [e1, e2]
    refine Agree.bind (update_at hr _ _ h0) fun a b h => ?_
    refine Agree.bind (update_at hr _ _ h) fun a b h => ?_
    refine Agree.bind (updateString_at hr _ _ h) fun a b h => ?_
    refine Agree.bind (update_at hr _ _ h) fun a b h => ?_
    refine Agree.bind (updateString_at hr _ _ h) fun a b h => ?_
    refine Agree.bind Agree.refl fun _ _ e => ?_
    subst e
    refine Agree.bind Agree.refl fun _ _ e => ?_
    subst e
    exact update_at hr _ _ h
  · exact Agree.pure h0

include hr in
theorem zeroFill_agree {pos : Nat} {m m' : Bytes} (h : Agr pos m m') :
    Agree (fun a b => Agr pos a b ∧ Agr (rate / 8) a b) (Sha3.zeroFill (rate / 8) m pos) (Sha3.zeroFill (rate / 8) m' pos) := by
  unfold Sha3.zeroFill
  split
  · exact (memset_agree (off := pos) h).mono fun a b hab => ⟨hab.1, (hab.2 (Nat.le_refl _)).le (le_szSub _ pos hr)⟩
  · exact Agree.pure ⟨h, h.le (by omega)⟩

include hr in
theorem padLast_agree (h8 : 0 < rate / 8) (d : Byte) {pos : Nat} {m m' : Bytes} (h : Agr pos m m') (A : List (BitVec 64)) :
    Agree (fun a b => a.2 = b.2 ∧ Agr (pos + 1) a.1 b.1 ∧ Agr (rate / 8) a.1 b.1) (Sha3.padLast R rate d m pos A) (Sha3.padLast R rate d m' pos A) := by
  unfold Sha3.padLast
  refine Agree.bind (setByte_agree h) fun m m' h => ?_
  refine Agree.bind (zeroFill_agree hr (h.2 (Nat.le_refl _))) fun m m' h => ?_
  have h1 : szSub (rate / 8) 1 + 1 ≤ rate / 8 := by
    unfold szSub
    have : rate / 8 + szMod - 1 = (rate / 8 - 1) + szMod := by omega
    rw [this, Nat.add_mod_right, Nat.mod_eq_of_lt (by omega)]
    omega
  refine Agree.bind (readBytes_agree h.2 h1) fun _ _ e => ?_
  subst e
  refine Agree.bind (E := fun a b => Agr (pos + 1) a b ∧ Agr (rate / 8) a b) ?_ fun m m' h => ?_
  · intro a b ea eb
    exact ⟨(setByte_agree h.1 a b ea eb).1, (setByte_agree h.2 a b ea eb).1⟩
  refine Agree.bind (transform_agree (by rw [Nat.one_mul]; exact h.2) A) fun _ _ e => ?_
  subst e
  exact Agree.pure ⟨rfl, h⟩

include hr in
theorem squeezeFirst_agree (h8 : 0 < rate / 8) (n : Nat) {s t : Blk St} (h : E (rate / 8) s t) :
    Agree (fun a b => a.1 = b.1 ∧ At (rate / 8) true a.2 b.2) (squeezeFirst R rate n s) (squeezeFirst R rate n t) := by
  obtain ⟨b, h⟩ := h
  unfold squeezeFirst
  dsimp only
  rw [← h.h.1, ← h.pos, h.h.2]
  cases b with
  | false =>
    simp only [Bool.not_false, if_true]
    refine Agree.bind (padLast_agree hr h8 _ h.m _) fun a b hab => ?_
    obtain ⟨m, A⟩ := a
    obtain ⟨m', A'⟩ := b
    obtain ⟨e, hm⟩ := hab
    dsimp only at e hm
    subst e
    exact Agree.pure ⟨rfl, ⟨rfl, rfl⟩, rfl, h.total, hm.1, fun _ => hm.2⟩
  | true =>
    simp only [Bool.not_true, Bool.false_eq_true, if_false]
    have hf := h.full rfl
    split
    · refine Agree.bind Agree.refl fun _ _ e => ?_
      subst e
      exact Agree.pure ⟨rfl, ⟨rfl, h.h.2⟩, rfl, h.total, hf.le (by dsimp only; omega), h.full⟩
    · split
      · exact Agree.pure ⟨rfl, ⟨rfl, rfl⟩, rfl, h.total, h.m, h.full⟩
      · exact Agree.pure ⟨rfl, h⟩

theorem squeezeLoop_agree {r : Nat} (n fuel : Nat) (out : Bytes) {s t : Blk St} (h : At r true s t) :
    Agree (fun a b => a.1 = b.1 ∧ At r true a.2 b.2) (squeezeLoop R r n fuel out s) (squeezeLoop R r n fuel out t) := by
  induction fuel generalizing out s t with
  | zero => exact Agree.pure ⟨rfl, h⟩
  | succ fuel ih =>
    unfold squeezeLoop
    split
    · dsimp only
      rw [← h.h.1]
      refine Agree.bind Agree.refl fun _ _ e => ?_
      subst e
      exact ih _ ⟨⟨rfl, h.h.2⟩, rfl, h.total, (h.full rfl).le (Nat.min_le_right _ _), h.full⟩
    · exact Agree.pure ⟨rfl, h⟩

include hr in
theorem squeeze_agree (h8 : 0 < rate / 8) (n : Nat) {s t : Blk St} (h : E (rate / 8) s t) :
    Agree (fun a b => a.1 = b.1 ∧ E (rate / 8) a.2 b.2) (squeeze R rate n s) (squeeze R rate n t) := by
  unfold squeeze
  refine Agree.bind (squeezeFirst_agree hr h8 n h) fun a b hab => ?_
  show Agree _ (squeezeLoop R (rate / 8) n n a.1 a.2) (squeezeLoop R (rate / 8) n n b.1 b.2)
  rw [hab.1]
  exact (squeezeLoop_agree n n _ hab.2).mono fun a b hab => ⟨hab.1, true, hab.2⟩

theorem clear_agree {s t : Blk St} (h : E0 s t) : Agree E0 (clear s) (clear t) :=
  Agree.pure ⟨rfl, rfl, by dsimp only [zeroBytes]; rw [List.length_replicate, List.length_replicate]; exact h.2.2⟩

theorem rate_lt (B : Nat) : rateOf B / 8 < szMod := by unfold rateOf szMod; split <;> decide
theorem rate_pos (B : Nat) : 0 < rateOf B / 8 := by unfold rateOf; split <;> decide

theorem setSuffix_agree {r : Nat} (v : Byte) {s t : Blk St} (h : E r s t) : E r (setSuffix v s) (setSuffix v t) := by
  obtain ⟨b, h⟩ := h
  exact ⟨b, ⟨by dsimp only [setSuffix]; rw [h.h.1], h.h.2⟩, h.pos, h.total, h.m, h.full⟩

theorem new_agree {s t : Blk St} (h : s.m.length = t.m.length) : E0 (new s) (new t) := ⟨rfl, rfl, h⟩

theorem update_keep (d : Bytes) {s t : Blk St} (h : E0 s t) : Post (fun s => E0 s t) (update R rate d s) := by
  refine (absorbBytes_keep (K := fun x => x.N = t.h.N ∧ x.S = t.h.S) (n := t.m.length) (fun data k s h => ?_) d
    (s := s) ⟨⟨h.1, h.2.1⟩, h.2.2⟩).mono fun a e => ⟨e.1.1, e.1.2, e.2⟩
  unfold onBlocks
  exact Post.bind Post.any fun A _ => Post.pure h

theorem updateString_keep (d : Bytes) {s t : Blk St} (h : E0 s t) : Post (fun s => E0 s t) (updateString R rate d s) := by
  unfold updateString
  split
  · exact Post.pure h
  · exact update_keep d h

theorem init_keep {s t : Blk St} (h : E0 s t) : Post (fun s => E0 s t) (init R rate s) := by
  have h0 : E0 (initFields s) t := h
  unfold init
  split
  · unfold initPrefix
    refine Post.bind (update_keep _ h0) fun a h => ?_
    refine Post.bind (update_keep _ h) fun a h => ?_
    refine Post.bind (updateString_keep _ h) fun a h => ?_
    refine Post.bind (update_keep _ h) fun a h => ?_
    refine Post.bind (updateString_keep _ h) fun a h => ?_
    refine Post.bind Post.any fun _ _ => ?_
    refine Post.bind Post.any fun _ _ => ?_
    exact update_keep _ h
  · exact Post.pure h0

theorem padLast_length (d : Byte) (m : Bytes) (pos : Nat) (A : List (BitVec 64)) :
    Post (fun a => a.1.length = m.length) (Sha3.padLast R rate d m pos A) := by
  unfold Sha3.padLast
  refine Post.bind (setByte_length _ _ _) fun m1 h1 => ?_
  refine Post.bind (Q := fun a => a.length = m1.length) ?_ fun m2 h2 => ?_
  · unfold Sha3.zeroFill
    split
    · exact memset_length _ _ _ _
    · exact Post.pure rfl
  refine Post.bind Post.any fun _ _ => ?_
  refine Post.bind (setByte_length _ _ _) fun m3 h3 => ?_
  refine Post.bind Post.any fun _ _ => ?_
  exact Post.pure (by dsimp only; rw [h3, h2, h1])

theorem squeezeLoop_keep {r : Nat} (n fuel : Nat) (out : Bytes) {s t : Blk St} (h : E0 s t) :
    Post (fun a => E0 a.2 t) (squeezeLoop R r n fuel out s) := by
  induction fuel generalizing out s with
  | zero => exact Post.pure h
  | succ fuel ih =>
    unfold squeezeLoop
    split
    · exact Post.bind Post.any fun b _ => ih _ h
    · exact Post.pure h

theorem squeeze_keep (n : Nat) {s t : Blk St} (h : E0 s t) : Post (fun a => E0 a.2 t) (squeeze R rate n s) := by
  unfold squeeze
  refine Post.bind (Q := fun a => E0 a.2 t) ?_ fun a h => squeezeLoop_keep n n _ h
  unfold squeezeFirst
  dsimp only
  split
  · exact Post.bind (padLast_length _ _ _ _) fun a e => Post.pure ⟨h.1, h.2.1, e.trans h.2.2⟩
  · split
    · exact Post.bind Post.any fun _ _ => Post.pure h
    · split
      · exact Post.pure h
      · exact Post.pure h

theorem shake (B : Nat) : XofTwin (shake B) E0 (E (rateOf B / 8)) where
  pr :=
    { sub := fun _ _ h => h.sub
      init := fun _ _ h => (init_agree (rate_lt B) h).mono fun _ _ h => ⟨_, h⟩
      update := fun d _ _ h => update_agree (rate_lt B) d h
      squeeze := fun n _ _ h => squeeze_agree (rate_lt B) (rate_pos B) n h
      clear := fun _ _ h => clear_agree h
      set := nofun
      set0 := nofun
      keepInit := fun _ _ h => init_keep h
      keepUpdate := fun d _ _ h => update_keep d h
      keepSqueeze := fun n _ _ h => squeeze_keep n h }
  ctor := fun _ _ h h' => Agree.pure (new_agree (h.trans h'.symm))

theorem cshake (B : Nat) : XofTwin (cshake B) E0 (E (rateOf B / 8)) where
  pr :=
    { sub := fun _ _ h => h.sub
      init := fun _ _ h => (init_agree (rate_lt B) h).mono fun _ _ h => ⟨_, h⟩
      update := fun d _ _ h => update_agree (rate_lt B) d h
      squeeze := fun n _ _ h => squeeze_agree (rate_lt B) (rate_pos B) n h
      clear := fun _ _ h => clear_agree h
      set := fun p _ _ _ => by cases p <;> exact Agree.pure nofun
      set0 := fun p _ _ h => by
        cases p with
        | functionName v => exact Agree.pure ⟨rfl, rfl, h.2⟩
        | customization v => exact Agree.pure ⟨rfl, h.1, rfl, h.2.2⟩
      keepInit := fun _ _ h => init_keep h
      keepUpdate := fun d _ _ h => update_keep d h
      keepSqueeze := fun n _ _ h => squeeze_keep n h }
  ctor := fun _ _ h h' => Agree.pure (new_agree (h.trans h'.symm))

end Shake

namespace Kmac
open Model.Kmac
open Model.Shake (rateOf)

/-- `init` sets the function name of the member `shake`. -/
def E0 (s t : St) : Prop := s.K = t.K ∧ s.hs = t.hs ∧ s.shake.h.S = t.shake.h.S ∧ s.shake.m.length = t.shake.m.length

def E (r : Nat) (s t : St) : Prop := s.K = t.K ∧ s.hs = t.hs ∧ s.squeezing = t.squeezing ∧ Shake.E r s.shake t.shake

variable {B : Nat}

theorem update_agree (d : Bytes) {s t : St} (h : E (rateOf B / 8) s t) : Agree (E (rateOf B / 8)) (update B d s) (update B d t) :=
  Agree.bind (Shake.update_agree (Shake.rate_lt B) d h.2.2.2) fun _ _ e => Agree.pure ⟨h.1, h.2.1, h.2.2.1, e⟩

theorem init_agree {s t : St} (h : E0 s t) : Agree (E (rateOf B / 8)) (init B s) (init B t) := by
  unfold init
  refine Agree.bind (Shake.init_agree (R := 24) (Shake.rate_lt B) (s := Model.Shake.setFunctionName (ascii "KMAC") s.shake)
    (t := Model.Shake.setFunctionName (ascii "KMAC") t.shake) ⟨rfl, h.2.2⟩) fun a b e => ?_
  rw [h.1]
  exact update_agree _ ⟨rfl, h.2.1, rfl, false, e⟩

theorem squeeze_agree (xof : Bool) (n : Nat) {s t : St} (h : E (rateOf B / 8) s t) :
    Agree (fun a b => a.1 = b.1 ∧ E (rateOf B / 8) a.2 b.2) (squeeze B xof n s) (squeeze B xof n t) := by
  unfold squeeze
  refine Agree.bind (E := E (rateOf B / 8)) ?_ fun a b e => ?_
  · unfold squeezeFirst
    rw [h.2.2.1]
    split
    · exact Agree.bind (update_agree _ h) fun a b e => Agree.pure ⟨e.1, e.2.1, rfl, e.2.2.2⟩
    · exact Agree.pure h
  · exact Agree.bind (Shake.squeeze_agree (Shake.rate_lt B) (Shake.rate_pos B) n e.2.2.2) fun c d e' =>
      Agree.pure ⟨e'.1, e.1, e.2.1, e.2.2.1, e'.2⟩

/-- The member `shake` with the function name. -/
def named (t : Blk Model.Shake.St) (s : Blk Model.Shake.St) : Blk Model.Shake.St := { t with h := { t.h with N := s.h.N } }

theorem update_keep (d : Bytes) {s t : St} (h : E0 s t) : Post (fun s => E0 s t) (update B d s) :=
  Post.bind (Shake.update_keep (t := named t.shake s.shake) d ⟨rfl, h.2.2⟩) fun _ e => Post.pure ⟨h.1, h.2.1, e.2⟩

theorem init_keep {s t : St} (h : E0 s t) : Post (fun s => E0 s t) (init B s) :=
  Post.bind (Shake.init_keep (t := named t.shake (Model.Shake.setFunctionName (ascii "KMAC") s.shake)) ⟨rfl, h.2.2⟩) fun _ e =>
    update_keep _ ⟨h.1, h.2.1, e.2⟩

theorem squeeze_keep (xof : Bool) (n : Nat) {s t : St} (h : E0 s t) : Post (fun a => E0 a.2 t) (squeeze B xof n s) := by
  unfold squeeze
  refine Post.bind (Q := fun a => E0 a t) ?_ fun a h => ?_
  · unfold squeezeFirst
    split
    · exact Post.bind (update_keep _ h) fun _ e => Post.pure e
    · exact Post.pure h
  · exact Post.bind (Shake.squeeze_keep (t := named t.shake a.shake) n ⟨rfl, h.2.2⟩) fun _ e => Post.pure ⟨h.1, h.2.1, e.2⟩

theorem xof (B : Nat) : XofTwin (kmacXof B) E0 (E (rateOf B / 8)) where
  pr :=
    { sub := fun _ _ h => ⟨h.1, h.2.1, h.2.2.2.sub.2⟩
      init := fun _ _ h => init_agree h
      update := fun d _ _ h => update_agree d h
      squeeze := fun n _ _ h => squeeze_agree true n h
      clear := fun _ _ h => Agree.pure ⟨rfl, h.2.1, rfl, by
        dsimp only [setKey, zeroBytes]; rw [List.length_replicate, List.length_replicate]; exact h.2.2.2⟩
      set := fun p _ _ _ => by cases p <;> exact Agree.pure nofun
      set0 := fun p _ _ h => by
        cases p with
        | key v => exact Agree.pure ⟨rfl, rfl, h.2⟩
        | customization v => exact Agree.pure ⟨rfl, h.1, h.2.1, rfl, h.2.2.2⟩
      keepInit := fun _ _ h => init_keep h
      keepUpdate := fun d _ _ h => update_keep d h
      keepSqueeze := fun n _ _ h => squeeze_keep true n h }
  ctor := fun _ _ h h' => Agree.pure ⟨rfl, rfl, rfl, h.trans h'.symm⟩

end Kmac

namespace K12
open Model.K12
open Model.Shake (rateOf)

variable {B R : Nat}

/-- `child` is read only if there have been chunks. -/
structure HE (r : Nat) (x y : St) : Prop where
  main : Shake.E r x.main y.main
  child0 : Shake.E0 x.child y.child
  child : x.chunk ≠ 0 → Shake.E r x.child y.child
  S : x.S = y.S
  chunk : x.chunk = y.chunk
  squeezing : x.squeezing = y.squeezing

structure E0 (s t : Blk St) : Prop where
  main : Shake.E0 s.h.main t.h.main
  child : Shake.E0 s.h.child t.h.child
  S : s.h.S = t.h.S
  m : s.m.length = t.m.length

abbrev E (r : Nat) : Blk St → Blk St → Prop := BlkE (HE r) False 8192

/-- `main` and `child` after the input. -/
def MC (r : Nat) (a b : Blk Model.Shake.St × Blk Model.Shake.St) : Prop := Shake.E r a.1 b.1 ∧ Shake.E0 a.2 b.2

theorem absorbChunk_agree (d : Bytes) {x y : St} (h : HE (rateOf B / 8) x y) :
    Agree (MC (rateOf B / 8)) (absorbChunk B R (rateOf B) d x) (absorbChunk B R (rateOf B) d y) := by
  unfold absorbChunk
  rw [← h.chunk]
  split
  · unfold first
    refine Agree.bind (Shake.update_agree (Shake.rate_lt B) d h.main) fun a b e => ?_
    refine Agree.bind (Shake.update_agree (Shake.rate_lt B) _ e) fun a b e => ?_
    exact Agree.pure ⟨e, h.child0⟩
  · rename_i hc
    unfold next
    refine Agree.bind (Shake.update_agree (Shake.rate_lt B) d (h.child hc)) fun a b e => ?_
    refine Agree.bind (Shake.squeeze_agree (Shake.rate_lt B) (Shake.rate_pos B) _ e) fun a b e => ?_
    rw [e.1]
    refine Agree.bind (Shake.update_agree (Shake.rate_lt B) _ h.main) fun c d e' => ?_
    exact Agree.pure ⟨e', e.2.sub⟩

theorem transformStep_agree (d : Bytes) {x y : St} (h : HE (rateOf B / 8) x y) :
    Agree (HE (rateOf B / 8)) (transformStep B R d x) (transformStep B R d y) := by
  unfold transformStep
  refine Agree.bind (absorbChunk_agree d h) fun a b e => ?_
  refine Agree.bind (Shake.init_agree (Shake.rate_lt B) e.2) fun c d e' => ?_
  have hc : Shake.E (rateOf B / 8) (Model.Shake.setSuffix 0x0b c) (Model.Shake.setSuffix 0x0b d) := Shake.setSuffix_agree _ ⟨false, e'⟩
  exact Agree.pure ⟨e.1, hc.sub, fun _ => hc, h.S, by dsimp only; rw [h.chunk], h.squeezing⟩

theorem update_agree (d : Bytes) {s t : Blk St} (h : E (rateOf B / 8) s t) : Agree (E (rateOf B / 8)) (update B R d s) (update B R d t) := by
  refine absorbBytes_agree (by decide) ?_ d h
  intro data data' n s t hd hR _
  unfold onBlocks
  exact Agree.bind (forBlocks_agree hd (fun _ b x y h => transformStep_agree b h) _ _ hR) fun a b e =>
    Agree.pure ⟨e, ⟨rfl, rfl, rfl⟩, rfl, rfl, rfl⟩

theorem finish_agree {s t : Blk St} (h : E (rateOf B / 8) s t) :
    Agree (fun a b => MC (rateOf B / 8) a b ∧ (s.h.chunk ≠ 0 → Shake.E (rateOf B / 8) a.2 b.2))
      (finish B R (rateOf B) s) (finish B R (rateOf B) t) := by
  unfold finish
  rw [← h.pos, ← h.h.chunk]
  split
  · split
    · rename_i hc
      unfold finishSingle
      rw [← h.pos]
      refine Agree.bind (readBytes_agree h.m (by omega)) fun a b e => ?_
      subst e
      refine Agree.bind (Shake.update_agree (Shake.rate_lt B) _ h.h.main) fun c d e => ?_
      exact Agree.pure ⟨⟨Shake.setSuffix_agree _ e, h.h.child0⟩, fun hn => absurd hc hn⟩
    · rename_i hc
      unfold finishTree
      rw [← h.pos, ← h.h.chunk]
      refine Agree.bind (readBytes_agree h.m (by omega)) fun a b e => ?_
      subst e
      refine Agree.bind (Shake.update_agree (Shake.rate_lt B) _ (h.h.child hc)) fun a b e => ?_
      refine Agree.bind (Shake.squeeze_agree (Shake.rate_lt B) (Shake.rate_pos B) _ e) fun x y e => ?_
      rw [e.1]
      refine Agree.bind (Shake.update_agree (Shake.rate_lt B) _ h.h.main) fun c d e' => ?_
      refine Agree.bind (Shake.update_agree (Shake.rate_lt B) _ (Shake.setSuffix_agree _ e')) fun c d e' => ?_
      refine Agree.bind (Shake.update_agree (Shake.rate_lt B) _ e') fun c d e' => ?_
      exact Agree.pure ⟨⟨e', e.2.sub⟩, fun _ => e.2⟩
  · exact Agree.pure ⟨⟨Shake.setSuffix_agree _ h.h.main, h.h.child0⟩, h.h.child⟩

theorem squeezeFirst_agree {s t : Blk St} (h : E (rateOf B / 8) s t) :
    Agree (E (rateOf B / 8)) (squeezeFirst B R s) (squeezeFirst B R t) := by
  unfold squeezeFirst
  rw [← h.h.squeezing]
  split
  · rw [← h.h.S]
    dsimp only
    refine Agree.bind (E := E (rateOf B / 8)) ?_ fun a b h => ?_
    · unfold updateS
      rw [← h.h.S]
      split
      · exact Agree.pure h
      · exact update_agree _ h
    refine Agree.bind (update_agree _ h) fun a b h => ?_
    refine Agree.bind (finish_agree h) fun c d e => ?_
    exact Agree.pure ⟨⟨e.1.1, e.1.2, e.2, h.h.S, h.h.chunk, rfl⟩, h.pos, h.total, h.m, nofun⟩
  · exact Agree.pure h

theorem squeeze_agree (n : Nat) {s t : Blk St} (h : E (rateOf B / 8) s t) :
    Agree (fun a b => a.1 = b.1 ∧ E (rateOf B / 8) a.2 b.2) (squeeze B R n s) (squeeze B R n t) := by
  unfold squeeze
  refine Agree.bind (squeezeFirst_agree h) fun a b h => ?_
  refine Agree.bind (Shake.squeeze_agree (Shake.rate_lt B) (Shake.rate_pos B) n h.h.main) fun c d e => ?_
  exact Agree.pure ⟨e.1, ⟨e.2, h.h.child0, h.h.child, h.h.S, h.h.chunk, h.h.squeezing⟩, h.pos, h.total, h.m, nofun⟩

theorem E.sub {r : Nat} {s t : Blk St} (h : E r s t) : E0 s t := ⟨h.h.main.sub, h.h.child0, h.h.S, h.m.1⟩

/-- What absorbing and squeezing keep. -/
def Keep (y x : St) : Prop := Shake.E0 x.main y.main ∧ Shake.E0 x.child y.child ∧ x.S = y.S

theorem transformStep_keep {y : St} (d : Bytes) {x : St} (h : Keep y x) : Post (Keep y) (transformStep B R d x) := by
  unfold transformStep
  refine Post.bind (Q := fun a => Shake.E0 a.1 y.main ∧ Shake.E0 a.2 y.child) ?_ fun a e => ?_
  · unfold absorbChunk
    split
    · unfold first
      refine Post.bind (Shake.update_keep _ h.1) fun a e => ?_
      refine Post.bind (Shake.update_keep _ e) fun a e => ?_
      exact Post.pure ⟨e, h.2.1⟩
    · unfold next
      refine Post.bind (Shake.update_keep _ h.2.1) fun a e => ?_
      refine Post.bind (Shake.squeeze_keep _ e) fun a e => ?_
      refine Post.bind (Shake.update_keep _ h.1) fun b e' => ?_
      exact Post.pure ⟨e', e⟩
  · exact Post.bind (Shake.init_keep e.2) fun c e' => Post.pure ⟨e.1, e', h.2.2⟩

theorem update_keep (d : Bytes) {s t : Blk St} (h : E0 s t) : Post (fun s => E0 s t) (update B R d s) := by
  refine (absorbBytes_keep (K := Keep t.h) (n := t.m.length) (fun data k s h => ?_) d (s := s) ⟨⟨h.main, h.child, h.S⟩, h.m⟩).mono
    fun a e => ⟨e.1.1, e.1.2.1, e.1.2.2, e.2⟩
  unfold onBlocks
  exact Post.bind (forBlocks_keep (fun _ b x hx => transformStep_keep b hx) _ h.1) fun a e => Post.pure ⟨e, h.2⟩

theorem finish_keep {s t : Blk St} (h : E0 s t) :
    Post (fun a => Shake.E0 a.1 t.h.main ∧ Shake.E0 a.2 t.h.child) (finish B R (rateOf B) s) := by
  unfold finish
  split
  · split
    · unfold finishSingle
      refine Post.bind Post.any fun a _ => ?_
      refine Post.bind (Shake.update_keep _ h.main) fun c e => ?_
      exact Post.pure ⟨e, h.child⟩
    · unfold finishTree
      refine Post.bind Post.any fun a _ => ?_
      refine Post.bind (Shake.update_keep _ h.child) fun a e => ?_
      refine Post.bind (Shake.squeeze_keep _ e) fun a e => ?_
      refine Post.bind (Shake.update_keep _ h.main) fun b e' => ?_
      refine Post.bind (Shake.update_keep (s := Model.Shake.setSuffix 0x06 b) _ e') fun b e' => ?_
      refine Post.bind (Shake.update_keep _ e') fun b e' => ?_
      exact Post.pure ⟨e', e⟩
  · exact Post.pure ⟨h.main, h.child⟩

theorem squeeze_keep (n : Nat) {s t : Blk St} (h : E0 s t) : Post (fun a => E0 a.2 t) (squeeze B R n s) := by
  unfold squeeze
  refine Post.bind (Q := fun a => E0 a t) ?_ fun a h => ?_
  · unfold squeezeFirst
    split
    · refine Post.bind (Q := fun a => E0 a t) ?_ fun a h => ?_
      · unfold updateS
        split
        · exact Post.pure h
        · exact update_keep _ h
      refine Post.bind (update_keep _ h) fun a h => ?_
      exact Post.bind (finish_keep h) fun b e => Post.pure ⟨e.1, e.2, h.S, h.m⟩
    · exact Post.pure h
  · exact Post.bind (Shake.squeeze_keep n h.main) fun b e => Post.pure ⟨e, h.child, h.S, h.m⟩

theorem xof (B R : Nat) : XofTwin (k12 B R) E0 (E (rateOf B / 8)) where
  pr :=
    { sub := fun _ _ h => E.sub h
      init := fun _ _ h => Agree.bind (Shake.init_agree (Shake.rate_lt B) h.main) fun _ _ e =>
        Agree.pure ⟨⟨⟨false, e⟩, h.child, nofun, h.S, rfl, rfl⟩, rfl, rfl, Agr.zero h.m, nofun⟩
      update := fun d _ _ h => update_agree d h
      squeeze := fun n _ _ h => squeeze_agree n h
      clear := fun _ _ h => Agree.bind (Shake.clear_agree h.main) fun _ _ e => Agree.bind (Shake.clear_agree h.child) fun _ _ e' =>
        Agree.pure ⟨e, e', rfl, by dsimp only [zeroBytes]; rw [List.length_replicate, List.length_replicate]; exact h.m⟩
      set := fun p _ _ _ => by cases p; exact Agree.pure nofun
      set0 := fun p _ _ h => by
        cases p with
        | customization v => exact Agree.pure ⟨rfl, h.main, h.child, rfl, h.m⟩
      keepInit := fun _ _ h => Post.bind (Shake.init_keep h.main) fun _ e => Post.pure ⟨e, h.child, h.S, h.m⟩
      keepUpdate := fun d _ _ h => update_keep d h
      keepSqueeze := fun n _ _ h => squeeze_keep n h }
  ctor := fun _ _ h h' => Agree.pure ⟨Shake.new_agree (h.2.1.trans h'.2.1.symm), Shake.new_agree (h.2.2.trans h'.2.2.symm), rfl, h.1.trans h'.1.symm⟩

end K12
end Digestpp.Proofs.Indep
