import Verif.Proofs.Indep
import Verif.Model.Blake2p

/-! BLAKE2, BLAKE2X and BLAKE2bp, BLAKE2sp on different memory. -/

namespace Digestpp.Proofs.Indep

namespace Blake2
open Model Model.Blake2

variable {w : Nat} {T : Word w} {kind : Kind}

/-- The members that `init` does not set. -/
def keep (h : St w) : St w := { h with H := [], xoffset := 0, squeezing := false }

def E0 (s t : Blk (St w)) : Prop := keep s.h = keep t.h ∧ s.m.length = t.m.length

/-- Same members; the buffers agree as far as they are read. -/
abbrev At (b : Bool) : Blk (St w) → Blk (St w) → Prop := BlkE (fun x y => x = y ∧ x.squeezing = b) (b = true) (2 * w)

def E (s t : Blk (St w)) : Prop := ∃ b, At b s t

theorem E.sub {s t : Blk (St w)} (h : E s t) : E0 s t := by
  obtain ⟨b, h⟩ := h
  exact ⟨by rw [h.h.1], h.m.1⟩

theorem block_agree {padding : Bool} {n : Nat} {data data' : Bytes} (h : Agr (n * (2 * w)) data data') (total : BitVec 64) (b : Bool) (x : St w)
    (hx : x.squeezing = b) :
    Agree (fun x y => x = y ∧ x.squeezing = b) (forBlocks (2 * w) data n (fun blk b h => pure (block T padding total blk b h)) x)
      (forBlocks (2 * w) data' n (fun blk b h => pure (block T padding total blk b h)) x) :=
  forBlocks_agree h (fun i b s t e => Agree.pure ⟨by rw [e.1], e.2⟩) x x ⟨rfl, hx⟩

theorem transform_agree {padding : Bool} {b : Bool} : TrAgree (2 * w) (fun x y : St w => x = y ∧ x.squeezing = b) (transform T padding) := by
  intro data data' n s t hd hR ht
  unfold transform
  rw [← hR.1, ← ht]
  exact Agree.bind (block_agree hd _ b _ hR.2) fun a a' e => Agree.pure ⟨e, ⟨rfl, rfl, rfl⟩, rfl, rfl, rfl⟩

variable (hw : 2 * w < szMod)

include hw in
theorem update_at (b : Bool) (d : Bytes) {s t : Blk (St w)} (h : At b s t) : Agree (At b) (update T d s) (update T d t) :=
  absorbBytes_agree hw transform_agree d h

include hw in
theorem update_agree (d : Bytes) {s t : Blk (St w)} (h : E s t) : Agree E (update T d s) (update T d t) := by
  obtain ⟨b, h⟩ := h
  exact (update_at hw b d h).mono fun _ _ h => ⟨b, h⟩

theorem keep_inj {x y : St w} (h : keep x = keep y) : x.s = y.s ∧ x.p = y.p ∧ x.k = y.k ∧ x.hs = y.hs ∧ x.fanout = y.fanout ∧
    x.nodedepth = y.nodedepth ∧ x.nodeoffset = y.nodeoffset := by
  unfold keep at h
  injection h with _ h1 h2 h3 h4 _ _ h5 h6 h7
  exact ⟨h1, h2, h3, h4, h5, h6, h7⟩

/-- The object after the assignments in `init`. -/
def start (T : Word w) (kind : Kind) (s : Blk (St w)) : Blk (St w) :=
  { s with pos := 0, total := 0, h := { s.h with H := initial T kind s.h, xoffset := 0, squeezing := false } }

theorem init_eq (s : Blk (St w)) : init T kind s =
    if (start T kind s).h.fanout = 0 ∨ (start T kind s).h.nodedepth = 0 then absorbKey T (start T kind s) else pure (start T kind s) := rfl

include hw in
theorem init_agree {s t : Blk (St w)} (h : E0 s t) : Agree (At false) (init T kind s) (init T kind t) := by
  obtain ⟨hs, hl⟩ := h
  obtain ⟨h1, h2, h3, h4, h5, h6, h7⟩ := keep_inj hs
  have hi : initial T kind s.h = initial T kind t.h := by
    unfold initial initTree
    rw [h1, h2, h3, h4, h5, h6, h7]
  have h0 : At false (start T kind s) (start T kind t) := by
    unfold start
    exact ⟨⟨by dsimp only; rw [hi, h1, h2, h3, h4, h5, h6, h7], rfl⟩, rfl, rfl, Agr.zero hl, nofun⟩
  rw [init_eq, init_eq, ← h0.h.1]
  split
  · unfold absorbKey
    rw [← h0.h.1]
    split
    · exact Agree.pure h0
    · refine Agree.bind Agree.refl fun _ _ e => ?_
      subst e
      exact update_at hw _ _ h0
  · exact Agree.pure h0

theorem clear_agree {s t : Blk (St w)} (h : E0 s t) : Agree E0 (clear s) (clear t) := by
  obtain ⟨h1, h2, h3, h4, h5, h6, h7⟩ := keep_inj h.1
  exact Agree.pure ⟨by unfold keep; dsimp only; rw [h4],
    by dsimp only [zeroBytes]; rw [List.length_replicate, List.length_replicate]; exact h.2⟩

theorem set0_agree (p : Blake2Param) {s t : Blk (St w)} (h : E0 s t) :
    Agree (fun a b => a.1 = b.1 ∧ E0 a.2 b.2) (set T p s) (set T p t) := by
  obtain ⟨h1, h2, h3, h4, h5, h6, h7⟩ := keep_inj h.1
  cases p with
  | key v =>
    show Agree _ (setKey v s) (setKey v t)
    unfold setKey
    dsimp only
    split
    · exact Agree.pure ⟨rfl, h⟩
    · exact Agree.pure ⟨rfl, by unfold keep; dsimp only; rw [h1, h2, h4, h5, h6, h7], h.2⟩
  | salt v =>
    show Agree _ (setSalt T v s) (setSalt T v t)
    unfold setSalt
    dsimp only
    split
    · exact Agree.pure ⟨rfl, h⟩
    · rw [← h1]
      refine Agree.bind Agree.refl fun _ _ e => ?_
      subst e
      exact Agree.pure ⟨rfl, by unfold keep; dsimp only; rw [h2, h3, h4, h5, h6, h7], h.2⟩
  | personalization v =>
    show Agree _ (setPersonalization T v s) (setPersonalization T v t)
    unfold setPersonalization
    dsimp only
    split
    · exact Agree.pure ⟨rfl, h⟩
    · rw [← h2]
      refine Agree.bind Agree.refl fun _ _ e => ?_
      subst e
      exact Agree.pure ⟨rfl, by unfold keep; dsimp only; rw [h1, h3, h4, h5, h6, h7], h.2⟩

/-- `transform` changes `H` only. -/
theorem transform_keep {padding : Bool} {x : St w} {n : Nat} (data : Bytes) (k : Nat) (s : Blk (St w)) (h : keep s.h = keep x ∧ s.m.length = n) :
    Post (fun s => keep s.h = keep x ∧ s.m.length = n) (transform T padding data k s) := by
  unfold transform
  exact Post.bind (forBlocks_keep (K := fun y => keep y = keep x) (f := fun blk b h => pure (block T padding s.total blk b h))
    (fun _ _ y (hy : keep y = keep x) => Post.pure (show keep y = keep x from hy)) _ h.1) fun a e => Post.pure ⟨e, h.2⟩

theorem update_keep (d : Bytes) {s t : Blk (St w)} (h : E0 s t) : Post (fun s => E0 s t) (update T d s) :=
  absorbBytes_keep (K := fun y => keep y = keep t.h) transform_keep d h

theorem init_keep {s t : Blk (St w)} (h : E0 s t) : Post (fun s => E0 s t) (init T kind s) := by
  rw [init_eq]
  split
  · unfold absorbKey
    split
    · exact Post.pure h
    · exact Post.bind Post.any fun _ _ => update_keep _ h
  · exact Post.pure h

theorem zeroRest_length (bs : Nat) (m : Bytes) (pos : Nat) : Post (fun a => a.length = m.length) (zeroRest bs m pos) := by
  unfold zeroRest
  split
  · exact memset_length _ _ _ _
  · exact Post.pure rfl

theorem squeeze_keep (n : Nat) {s t : Blk (St w)} (h : E0 s t) : Post (fun a => E0 a.2 t) (squeeze T kind n s) := by
  unfold squeeze
  refine Post.bind (Q := fun a => E0 a.2 t) ?_ fun a h => ?_
  · unfold squeezeFirst
    split
    · refine Post.bind (Q := fun a => E0 a t) ?_ fun a h => ?_
      · unfold lastBlock
        exact Post.bind (zeroRest_length _ _ _) fun m e => transform_keep _ _ _ ⟨h.1, e.trans h.2⟩
      · exact Post.bind (memcpyTo_length _ _ _) fun m e => Post.pure ⟨h.1, e.trans h.2⟩
    · split
      · exact Post.bind Post.any fun _ _ => Post.pure h
      · exact Post.pure h
  · show Post _ (squeezeLoop T kind n n a.1 a.2)
    obtain ⟨out, s⟩ := a
    dsimp only at h ⊢
    suffices ∀ fuel (out : Bytes) (s : Blk (St w)), E0 s t → Post (fun a => E0 a.2 t) (squeezeLoop T kind n fuel out s) from this n out s h
    intro fuel
    induction fuel with
    | zero => exact fun _ _ h => Post.pure h
    | succ fuel ih =>
      intro out s h
      unfold squeezeLoop
      split
      · refine Post.bind (memset_length _ _ _ _) fun m e => ?_
        refine Post.bind (transform_keep (x := t.h) (n := t.m.length) _ _ _ ⟨h.1, e.trans h.2⟩) fun a e => ?_
        exact Post.bind Post.any fun _ _ => ih _ _ e
      · exact Post.pure h

theorem set_agree (p : Blake2Param) {s t : Blk (St w)} (h : E s t) :
    Agree (fun a b => a.1 = b.1 ∧ E a.2 b.2) (set T p s) (set T p t) := by
  obtain ⟨b, h⟩ := h
  have hh := h.h.1
  cases p with
  | key v =>
    show Agree _ (setKey v s) (setKey v t)
    unfold setKey
    dsimp only
    split
    · exact Agree.pure ⟨rfl, b, h⟩
    · exact Agree.pure ⟨rfl, b, ⟨by dsimp only; rw [hh], h.h.2⟩, h.pos, h.total, h.m, h.full⟩
  | salt v =>
    show Agree _ (setSalt T v s) (setSalt T v t)
    unfold setSalt
    dsimp only
    rw [← hh]
    split
    · exact Agree.pure ⟨rfl, b, h⟩
    · refine Agree.bind Agree.refl fun _ _ e => ?_
      subst e
      exact Agree.pure ⟨rfl, b, ⟨rfl, h.h.2⟩, h.pos, h.total, h.m, h.full⟩
  | personalization v =>
    show Agree _ (setPersonalization T v s) (setPersonalization T v t)
    unfold setPersonalization
    dsimp only
    rw [← hh]
    split
    · exact Agree.pure ⟨rfl, b, h⟩
    · refine Agree.bind Agree.refl fun _ _ e => ?_
      subst e
      exact Agree.pure ⟨rfl, b, ⟨rfl, h.h.2⟩, h.pos, h.total, h.m, h.full⟩

include hw in
theorem lastBlock_agree {f : Prop} (b : Bool) {s t : Blk (St w)} (h : BlkE (fun x y => x = y ∧ x.squeezing = b) f (2 * w) s t) :
    Agree (BlkE (fun x y => x = y ∧ x.squeezing = b) True (2 * w)) (lastBlock T s) (lastBlock T t) := by
  unfold lastBlock
  rw [← h.pos]
  refine Agree.bind (zeroRest_agree hw h.m) fun m m' hm => ?_
  refine (transform_agree m m' 1 { s with m := m } { t with m := m', pos := s.pos } (by rw [Nat.one_mul]; exact hm.2) h.h h.total).mono fun a b e => ?_
  obtain ⟨hR, ⟨am, ap, at'⟩, bm, bp, bt⟩ := e
  refine ⟨hR, by rw [ap, bp], by rw [at', bt]; exact h.total, ?_, fun _ => ?_⟩
  · rw [ap, am, bm]; exact hm.1
  · rw [am, bm]; exact hm.2

include hw in
theorem squeezeFirst_agree (n : Nat) {s t : Blk (St w)} (h : E s t) :
    Agree (fun a b => a.1 = b.1 ∧ At true a.2 b.2) (squeezeFirst T kind n s) (squeezeFirst T kind n t) := by
  obtain ⟨b, h⟩ := h
  unfold squeezeFirst
  rw [← h.h.1, ← h.pos, ← h.total, h.h.2]
  cases b with
  | false =>
    simp only [if_true]
    refine Agree.bind (lastBlock_agree hw true (f := False) ⟨⟨rfl, rfl⟩, rfl, rfl, h.m, nofun⟩) fun a b e => ?_
    rw [← e.h.1]
    intro x y hx hy
    cases ea : memcpyTo a.m 0 (T.stores a.h.H) with
    | error _ => rw [ea] at hx; exact nomatch hx
    | ok m =>
      cases eb : memcpyTo b.m 0 (T.stores a.h.H) with
      | error _ => rw [eb] at hy; exact nomatch hy
      | ok m' =>
        rw [ea] at hx; rw [eb] at hy
        cases hx; cases hy
        exact ⟨rfl, ⟨rfl, e.h.2⟩, e.pos, e.total, (memcpyTo_agree e.m m m' ea eb).1, fun _ => (memcpyTo_agree (e.full trivial) m m' ea eb).1⟩
  | true =>
    simp only [Bool.true_eq_false, if_false]
    split
    · refine Agree.bind Agree.refl fun _ _ e => ?_
      subst e
      exact Agree.pure ⟨rfl, ⟨rfl, h.h.2⟩, rfl, rfl, (h.full rfl).le (by dsimp only; omega), h.full⟩
    · exact Agree.pure ⟨rfl, h⟩

theorem squeezeLoop_agree (n fuel : Nat) (out : Bytes) {s t : Blk (St w)} (h : At true s t) :
    Agree (fun a b => a.1 = b.1 ∧ At true a.2 b.2) (squeezeLoop T kind n fuel out s) (squeezeLoop T kind n fuel out t) := by
  induction fuel generalizing out s t with
  | zero => exact Agree.pure ⟨rfl, h⟩
  | succ fuel ih =>
    unfold squeezeLoop
    split
    · dsimp only
      rw [← h.h.1]
      refine Agree.bind ((memset_agree (h.full rfl)).mono fun a b e => e.1) fun m m' hm => ?_
      refine Agree.bind (transform_agree (b := true) m m' 1 _ _ (by rw [Nat.one_mul]; exact hm) ⟨rfl, h.h.2⟩ rfl) fun a b e => ?_
      obtain ⟨hR, ⟨am, ap, at'⟩, bm, bp, bt⟩ := e
      rw [← hR.1]
      refine Agree.bind Agree.refl fun _ _ e => ?_
      subst e
      have hab : Agr (2 * w) a.m b.m := by rw [am, bm]; exact hm
      exact ih _ ⟨⟨rfl, hR.2⟩, rfl, by dsimp only; rw [at', bt], hab.le (by dsimp only; omega), fun _ => hab⟩
    · exact Agree.pure ⟨rfl, h⟩

include hw in
theorem squeeze_agree (n : Nat) {s t : Blk (St w)} (h : E s t) :
    Agree (fun a b => a.1 = b.1 ∧ E a.2 b.2) (squeeze T kind n s) (squeeze T kind n t) := by
  unfold squeeze
  refine Agree.bind (squeezeFirst_agree hw n h) fun a b hab => ?_
  show Agree _ (squeezeLoop T kind n n a.1 a.2) (squeezeLoop T kind n n b.1 b.2)
  rw [hab.1]
  exact (squeezeLoop_agree n n _ hab.2).mono fun a b hab => ⟨hab.1, true, hab.2⟩

include hw in
theorem final_agree (o : Nat) {s t : Blk (St w)} (h : E s t) : Agree Eq (final T kind o s) (final T kind o t) := by
  unfold final
  dsimp only
  obtain ⟨b, h⟩ := h
  rw [← h.h.1, ← h.pos, ← h.total]
  split
  · refine Agree.bind (lastBlock_agree hw b (f := False) ⟨⟨rfl, h.h.2⟩, rfl, rfl, h.m, nofun⟩) fun a b e => ?_
    rw [e.h.1]
    exact Agree.refl
  · refine Agree.bind (squeeze_agree hw _ ⟨b, ⟨rfl, h.h.2⟩, rfl, rfl, h.m, h.full⟩) fun a b e => ?_
    exact Agree.pure e.1

include hw in
theorem provider_two : HashTwo (provider T kind) E0 E where
  sub := fun _ _ h => h.sub
  init := fun _ _ h => (init_agree hw h).mono fun _ _ h => ⟨_, h⟩
  update := fun d _ _ h => update_agree hw d h
  final := fun _ _ h => final_agree hw 0 h
  clear := fun _ _ h => clear_agree h
  size := fun s t ⟨_, h⟩ => by show s.h.hs = t.h.hs; rw [h.h.1]
  set := fun p _ _ h => (set_agree p h).mono fun _ _ e _ => e.2
  set0 := fun p _ _ h => set0_agree p h
  keepInit := fun _ _ h => init_keep h
  keepUpdate := fun d _ _ h => update_keep d h

theorem fields_agree (N : Nat) {s t : Blk (St w)} (h : Mem s) (h' : Mem t) : E0 (fields N s) (fields N t) := ⟨rfl, h.trans h'.symm⟩

include hw in
theorem blake2_two (N : Nat) : HashTwin (blake2 T kind N) E0 E where
  pr := provider_two hw
  ctor := fun _ _ h h' => Agree.pure (by
    unfold new
    split
    · exact fields_agree N h h'
    · trivial)

include hw in
theorem blake2Static_two (N : Nat) : HashTwin (blake2Static T kind N) E0 E where
  pr := provider_two hw
  ctor := fun _ _ h h' => Agree.pure (fields_agree N h h')

include hw in
theorem xof_two : XofTwin (blake2xof T) E0 E where
  pr :=
    { sub := fun _ _ h => h.sub
      init := fun _ _ h => (init_agree hw h).mono fun _ _ h => ⟨_, h⟩
      update := fun d _ _ h => update_agree hw d h
      squeeze := fun n _ _ h => squeeze_agree hw n h
      clear := fun _ _ h => clear_agree h
      set := fun p _ _ h => (set_agree p h).mono fun _ _ e _ => e.2
      set0 := fun p _ _ h => set0_agree p h
      keepInit := fun _ _ h => init_keep h
      keepUpdate := fun d _ _ h => update_keep d h
      keepSqueeze := fun n _ _ h => squeeze_keep n h }
  ctor := fun _ _ h h' => Agree.pure (fields_agree _ h h')

end Blake2

namespace Blake2p
open Model Model.Blake2p
open Model.Blake2 (St Word)

variable {w : Nat} {T : Word w}

/-- Two lists, element by element. -/
inductive All2 {α : Type} (Q : α → α → Prop) : List α → List α → Prop
  | nil : All2 Q [] []
  | cons {a b : α} {l l' : List α} : Q a b → All2 Q l l' → All2 Q (a :: l) (b :: l')

theorem All2.mono {α : Type} {Q Q' : α → α → Prop} (h : ∀ a b, Q a b → Q' a b) {l l' : List α} (hl : All2 Q l l') : All2 Q' l l' := by
  induction hl with
  | nil => exact .nil
  | cons hab _ ih => exact .cons (h _ _ hab) ih

theorem forLeaves_agree {α : Type} {f : Nat → α → M α} {g : Nat → α → M α} {Q Q' : α → α → Prop} {k : Nat}
    (h : ∀ i a b, i < k → Q a b → Agree Q' (f i a) (g i b)) : ∀ (l l' : List α) (i : Nat), i + l.length ≤ k → All2 Q l l' →
    Agree (fun a b => All2 Q' a b ∧ a.length = l.length) (forLeaves f i l) (forLeaves g i l')
  | [], [], _, _, _ => Agree.pure ⟨.nil, rfl⟩
  | a :: l, b :: l', i, hk, .cons hab hl => by
    rw [List.length_cons] at hk
    unfold forLeaves
    refine Agree.bind (h i a b (by omega) hab) fun a b hab => ?_
    refine Agree.bind (forLeaves_agree h l l' (i + 1) (by omega) hl) fun l l' hl => ?_
    exact Agree.pure ⟨.cons hab hl.1, by rw [List.length_cons, List.length_cons, hl.2]⟩

/-- The blocks of all leaves are within the groups of 512 bytes. -/
def Fits (l : List (Blk (St w))) : Prop := l.length * (2 * w) ≤ 512

structure E0 (s t : Blk (PSt w)) : Prop where
  main : Blake2.E0 s.h.main t.h.main
  leaf : All2 Blake2.E0 s.h.leaf t.h.leaf
  fits : Fits s.h.leaf
  hs : s.h.hs = t.h.hs
  m : s.m.length = t.m.length

structure HE (x y : PSt w) : Prop where
  main : Blake2.E x.main y.main
  leaf : All2 Blake2.E x.leaf y.leaf
  fits : Fits x.leaf
  hs : x.hs = y.hs

abbrev E : Blk (PSt w) → Blk (PSt w) → Prop := BlkE HE False 512

theorem E.sub {s t : Blk (PSt w)} (h : E s t) : E0 s t :=
  ⟨h.h.main.sub, h.h.leaf.mono fun _ _ h => h.sub, h.h.fits, h.h.hs, h.m.1⟩

theorem Fits.of {l l' : List (Blk (St w))} (h : Fits l) (e : l'.length = l.length) : Fits l' := by
  unfold Fits at h ⊢
  rw [e]; exact h

variable (hw : 2 * w < szMod)

include hw in
theorem init_agree {s t : Blk (PSt w)} (h : E0 s t) : Agree E (init T s) (init T t) := by
  unfold init
  refine Agree.bind (Blake2.init_agree hw h.main) fun a b e => ?_
  refine Agree.bind (forLeaves_agree (Q := Blake2.E0) (Q' := Blake2.E) (k := s.h.leaf.length) (f := fun _ l => Blake2.init T .hash l)
    (g := fun _ l => Blake2.init T .hash l) (fun _ _ _ _ h => (Blake2.init_agree hw h).mono fun _ _ h => ⟨_, h⟩) _ _ 0 (by omega) h.leaf) fun l l' el => ?_
  exact Agree.pure ⟨⟨⟨_, e⟩, el.1, h.fits.of el.2, h.hs⟩, rfl, rfl, Agr.zero h.m, nofun⟩

theorem in_group {a b c d x y : Nat} (h1 : a * 512 + 512 ≤ b) (h2 : x + y ≤ c) (h3 : c ≤ 512) (h4 : d = a * 512 + x + y) : d ≤ b := by omega

include hw in
theorem leafBlocks_agree {n i k : Nat} {data data' : Bytes} (hd : Agr (n * 512) data data') (hf : k * (2 * w) ≤ 512) (hi : i < k) {l l' : Blk (St w)}
    (h : Blake2.E l l') : Agree Blake2.E (leafBlocks T data n i l) (leafBlocks T data' n i l') := by
  unfold leafBlocks
  refine Agree.foldlM _ (fun blk hb a b hab => ?_) _ _ h
  have h1 : blk * 512 + 512 ≤ n * 512 := by have := List.mem_range.mp hb; omega
  have h2 : i * (2 * w) + 2 * w ≤ k * (2 * w) := by rw [← Nat.succ_mul]; exact Nat.mul_le_mul_right _ hi
  refine Agree.bind (readBytes_agree hd (in_group h1 h2 hf rfl)) fun c d e => ?_
  subst e
  exact Blake2.update_agree hw c hab

include hw in
theorem transform_agree : TrAgree 512 HE (transform T) := by
  intro data data' n s t hd hR _
  unfold transform
  refine Agree.bind (forLeaves_agree (Q := Blake2.E) (Q' := Blake2.E) (k := s.h.leaf.length) (f := leafBlocks T data n)
    (g := leafBlocks T data' n) (fun i a b hi h => leafBlocks_agree hw hd hR.fits hi h) _ _ 0
    (by rw [Nat.zero_add]; exact Nat.le_refl _) hR.leaf) fun l l' e => ?_
  exact Agree.pure ⟨⟨hR.main, e.1, hR.fits.of e.2, hR.hs⟩, ⟨rfl, rfl, rfl⟩, rfl, rfl, rfl⟩

include hw in
theorem update_agree (d : Bytes) {s t : Blk (PSt w)} (h : E s t) : Agree E (update T d s) (update T d t) :=
  absorbBytes_agree (by decide) (transform_agree hw) d h

theorem setLeaves_agree {Q : Blk (St w) → Blk (St w) → Prop} (p : Blake2Param)
    (hs : ∀ a b, Q a b → Agree (fun a b => a.1 = b.1 ∧ Q a.2 b.2) (Model.Blake2.set T p a) (Model.Blake2.set T p b)) :
    ∀ {l l' : List (Blk (St w))}, All2 Q l l' →
    Agree (fun a b => a.1 = b.1 ∧ All2 Q a.2 b.2 ∧ a.2.length = l.length) (setLeaves T p l) (setLeaves T p l')
  | [], [], _ => Agree.pure ⟨rfl, .nil, rfl⟩
  | a :: l, b :: l', .cons hab hl => by
    unfold setLeaves
    refine Agree.bind (hs a b hab) fun x y e => ?_
    obtain ⟨x1, x2⟩ := x
    obtain ⟨y1, y2⟩ := y
    obtain ⟨e1, e2⟩ := e
    dsimp only at e1 e2 ⊢
    subst e1
    split
    · exact Agree.pure ⟨rfl, .cons e2 hl, rfl⟩
    · refine Agree.bind (setLeaves_agree p hs hl) fun u v e => ?_
      obtain ⟨u1, u2⟩ := u
      obtain ⟨v1, v2⟩ := v
      exact Agree.pure ⟨e.1, .cons e2 e.2.1, by simpa using e.2.2⟩

theorem set_agree (p : Blake2Param) {s t : Blk (PSt w)} (h : E s t) :
    Agree (fun a b => a.1 = b.1 ∧ E a.2 b.2) (Model.Blake2p.set T p s) (Model.Blake2p.set T p t) := by
  unfold Model.Blake2p.set
  refine Agree.bind (Blake2.set_agree p h.h.main) fun x y e => ?_
  obtain ⟨x1, x2⟩ := x
  obtain ⟨y1, y2⟩ := y
  obtain ⟨e1, e2⟩ := e
  dsimp only at e1 e2 ⊢
  subst e1
  split
  · exact Agree.pure ⟨rfl, ⟨e2, h.h.leaf, h.h.fits, h.h.hs⟩, h.pos, h.total, h.m, nofun⟩
  · refine Agree.bind (setLeaves_agree p (fun _ _ h => Blake2.set_agree p h) h.h.leaf) fun u v e => ?_
    obtain ⟨u1, u2⟩ := u
    obtain ⟨v1, v2⟩ := v
    exact Agree.pure ⟨e.1, ⟨e2, e.2.1, h.h.fits.of e.2.2, h.h.hs⟩, h.pos, h.total, h.m, nofun⟩

theorem set0_agree (p : Blake2Param) {s t : Blk (PSt w)} (h : E0 s t) :
    Agree (fun a b => a.1 = b.1 ∧ E0 a.2 b.2) (Model.Blake2p.set T p s) (Model.Blake2p.set T p t) := by
  unfold Model.Blake2p.set
  refine Agree.bind (Blake2.set0_agree p h.main) fun x y e => ?_
  obtain ⟨x1, x2⟩ := x
  obtain ⟨y1, y2⟩ := y
  obtain ⟨e1, e2⟩ := e
  dsimp only at e1 e2 ⊢
  subst e1
  split
  · exact Agree.pure ⟨rfl, e2, h.leaf, h.fits, h.hs, h.m⟩
  · refine Agree.bind (setLeaves_agree p (fun _ _ h => Blake2.set0_agree p h) h.leaf) fun u v e => ?_
    obtain ⟨u1, u2⟩ := u
    obtain ⟨v1, v2⟩ := v
    exact Agree.pure ⟨e.1, e2, e.2.1, h.fits.of e.2.2, h.hs, h.m⟩

theorem forLeaves_keep {α : Type} {f : Nat → α → M α} {Q : α → α → Prop} (h : ∀ i a b, Q a b → Post (fun a => Q a b) (f i a)) :
    ∀ (l l' : List α) (i : Nat), All2 Q l l' → Post (fun a => All2 Q a l' ∧ a.length = l.length) (forLeaves f i l)
  | [], [], _, _ => Post.pure ⟨.nil, rfl⟩
  | a :: l, b :: l', i, .cons hab hl => by
    unfold forLeaves
    refine Post.bind (h i a b hab) fun a hab => ?_
    refine Post.bind (forLeaves_keep h l l' (i + 1) hl) fun l hl => ?_
    exact Post.pure ⟨.cons hab hl.1, by rw [List.length_cons, List.length_cons, hl.2]⟩

theorem init_keep {s t : Blk (PSt w)} (h : E0 s t) : Post (fun s => E0 s t) (init T s) := by
  unfold init
  refine Post.bind (Blake2.init_keep h.main) fun a e => ?_
  refine Post.bind (forLeaves_keep (Q := Blake2.E0) (fun _ _ _ h => Blake2.init_keep h) _ _ 0 h.leaf) fun l el => ?_
  exact Post.pure ⟨e, el.1, h.fits.of el.2, h.hs, h.m⟩

/-- What absorbing keeps. -/
structure Keep (y x : PSt w) : Prop where
  main : Blake2.E0 x.main y.main
  leaf : All2 Blake2.E0 x.leaf y.leaf
  fits : Fits x.leaf
  hs : x.hs = y.hs

theorem transform_keep {y : PSt w} {n : Nat} (data : Bytes) (k : Nat) (s : Blk (PSt w)) (h : Keep y s.h ∧ s.m.length = n) :
    Post (fun s => Keep y s.h ∧ s.m.length = n) (transform T data k s) := by
  unfold transform
  refine Post.bind (forLeaves_keep (Q := Blake2.E0) (fun i a b h => ?_) _ _ 0 h.1.leaf) fun l el => ?_
  · unfold leafBlocks
    exact Post.foldlM _ (fun blk _ a h => Post.bind Post.any fun _ _ => Blake2.update_keep _ h) _ h
  · exact Post.pure ⟨⟨h.1.main, el.1, h.1.fits.of el.2, h.1.hs⟩, h.2⟩

theorem update_keep (d : Bytes) {s t : Blk (PSt w)} (h : E0 s t) : Post (fun s => E0 s t) (update T d s) :=
  (absorbBytes_keep (K := Keep t.h) transform_keep d ⟨⟨h.main, h.leaf, h.fits, h.hs⟩, h.m⟩).mono fun _ e => ⟨e.1.main, e.1.leaf, e.1.fits, e.1.hs, e.2⟩

include hw in
theorem finLeaves_agree {m m' : Bytes} {pos k : Nat} (hm : Agr 512 m m') (hf : k * (2 * w) ≤ 512) : ∀ (i : Nat) {l l' : List (Blk (St w))},
    i + l.length ≤ k → All2 Blake2.E l l' → ∀ {a b : Blk (St w)}, Blake2.E a b →
    Agree Blake2.E (finLeaves T m pos i l a) (finLeaves T m' pos i l' b)
  | _, [], [], _, _, _, _, h => Agree.pure h
  | i, x :: l, y :: l', hi, .cons hxy hl, a, b, h => by
    rw [List.length_cons] at hi
    unfold finLeaves
    refine Agree.bind (E := Blake2.E) ?_ fun x y hxy => ?_
    · unfold leafRest
      split
      · dsimp only
        have h2 : i * (2 * w) + 2 * w ≤ k * (2 * w) := by rw [← Nat.succ_mul]; exact Nat.mul_le_mul_right _ (by omega)
        refine Agree.bind (readBytes_agree hm ?_) fun c d e => ?_
        · split
          · rename_i h3 h4; omega
          · omega
        · subst e
          exact Blake2.update_agree hw c hxy
      · exact Agree.pure hxy
    · refine Agree.bind (Blake2.final_agree hw _ hxy) fun c d e => ?_
      subst e
      refine Agree.bind (Blake2.update_agree hw c h) fun a b h => ?_
      exact finLeaves_agree hm hf (i + 1) (by omega) hl h

include hw in
theorem final_agree {s t : Blk (PSt w)} (h : E s t) : Agree Eq (final T s) (final T t) := by
  unfold final finalize
  dsimp only
  rw [← h.pos]
  refine Agree.bind (E := Blake2.E) ?_ fun a b e => Blake2.final_agree hw 0 e
  refine Agree.bind (zeroRest_agree (by decide) h.m) fun m m' hm => ?_
  exact finLeaves_agree hw hm.2 h.h.fits 0 (by omega) h.h.leaf h.h.main

theorem clear_agree {s t : Blk (PSt w)} (h : E0 s t) : Agree E0 (clear s) (clear t) := by
  unfold clear
  refine Agree.bind (Blake2.clear_agree h.main) fun a b e => ?_
  refine Agree.bind (forLeaves_agree (Q := Blake2.E0) (Q' := Blake2.E0) (k := s.h.leaf.length) (f := fun _ l => Blake2.clear l)
    (g := fun _ l => Blake2.clear l) (fun _ _ _ _ h => Blake2.clear_agree h) _ _ 0 (by omega) h.leaf) fun l l' el => ?_
  exact Agree.pure ⟨e, el.1, h.fits.of el.2, h.hs, by
    dsimp only [zeroBytes]; rw [List.length_replicate, List.length_replicate]; exact h.m⟩

include hw in
theorem provider_two : HashTwo (provider T) E0 E where
  sub := fun _ _ h => E.sub h
  init := fun _ _ h => init_agree hw h
  update := fun d _ _ h => update_agree hw d h
  final := fun _ _ h => final_agree hw h
  clear := fun _ _ h => clear_agree h
  size := fun _ _ h => h.h.hs
  set := fun p _ _ h => (set_agree p h).mono fun _ _ e _ => e.2
  set0 := fun p _ _ h => set0_agree p h
  keepInit := fun _ _ h => init_keep h
  keepUpdate := fun d _ _ h => update_keep d h

theorem all2_mem : ∀ {l l' : List (Blk (St w))}, l.length = l'.length → (∀ x ∈ l, Model.Blake2.Mem x) → (∀ x ∈ l', Model.Blake2.Mem x) →
    All2 (fun a b => Model.Blake2.Mem a ∧ Model.Blake2.Mem b) l l'
  | [], [], _, _, _ => .nil
  | a :: l, b :: l', e, h, h' => .cons ⟨h a (List.mem_cons_self ..), h' b (List.mem_cons_self ..)⟩
      (all2_mem (by simpa using e) (fun x hx => h x (List.mem_cons_of_mem _ hx)) fun x hx => h' x (List.mem_cons_of_mem _ hx))

theorem fields_agree (hl : leaves w * (2 * w) ≤ 512) (N : Nat) {s t : Blk (PSt w)} (h : Mem s) (h' : Mem t) : Agree E0 (fields N s) (fields N t) := by
  unfold fields
  refine Agree.bind (forLeaves_agree (Q' := Blake2.E0) (k := s.h.leaf.length)
    (f := fun p l => pure (setTree (BitVec.ofNat 8 (leaves w)) 0 (BitVec.ofNat 8 p) (Model.Blake2.fields N l)))
    (g := fun p l => pure (setTree (BitVec.ofNat 8 (leaves w)) 0 (BitVec.ofNat 8 p) (Model.Blake2.fields N l)))
    (fun _ _ _ _ h => Agree.pure ⟨rfl, h.1.trans h.2.symm⟩) _ _ 0 (by omega)
    (all2_mem (h.2.2.1.trans h'.2.2.1.symm) h.2.2.2 h'.2.2.2)) fun l l' el => ?_
  refine Agree.pure ⟨⟨rfl, h.2.1.trans h'.2.1.symm⟩, el.1, ?_, rfl, h.1.trans h'.1.symm⟩
  show l.length * (2 * w) ≤ 512
  rw [el.2, h.2.2.1]
  exact hl

include hw in
theorem blake2p_two (hl : leaves w * (2 * w) ≤ 512) (N : Nat) : HashTwin (blake2p T N) E0 E where
  pr := provider_two hw
  ctor := fun _ _ h h' => by
    show Agree _ (new N _) (new N _)
    unfold new
    split
    · exact Agree.bind (fields_agree hl N h h') fun _ _ e => Agree.pure e
    · exact Agree.pure trivial

include hw in
theorem blake2pStatic_two (hl : leaves w * (2 * w) ≤ 512) (N : Nat) : HashTwin (blake2pStatic T N) E0 E where
  pr := provider_two hw
  ctor := fun _ _ h h' => Agree.bind (fields_agree hl N h h') fun _ _ e => Agree.pure e

end Blake2p
end Digestpp.Proofs.Indep
