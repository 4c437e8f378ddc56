import Verif.Proofs.Absorb
import Verif.Model.Hasher
import Verif.Model.MdFinal

/-! Two runs on different memory: the results agree. From provider-level relations to histories of calls. -/

namespace Digestpp.Proofs.Indep
open Model

/-- If both computations succeed, their results are related. (That they do is C38.) -/
def Agree {α β : Type} (E : α → β → Prop) (x : M α) (y : M β) : Prop := ∀ a b, x = .ok a → y = .ok b → E a b

namespace Agree
variable {α β γ δ : Type} {E E' : α → β → Prop} {F : γ → δ → Prop}

theorem pure {a : α} {b : β} (h : E a b) : Agree E (Pure.pure a) (Pure.pure b) := by
  intro a' b' ha hb
  cases ha; cases hb; exact h

theorem ok {a : α} {b : β} (h : E a b) : Agree E (.ok a) (.ok b) := Agree.pure h

theorem errorL {e : UB} {y : M β} : Agree E (.error e) y := fun _ _ h => nomatch h

theorem errorR {e : UB} {x : M α} : Agree E x (.error e) := fun _ _ _ h => nomatch h

theorem bind {x : M α} {y : M β} {f : α → M γ} {g : β → M δ} (h : Agree E x y) (k : ∀ a b, E a b → Agree F (f a) (g b)) :
    Agree F (x >>= f) (y >>= g) := by
  intro c d hc hd
  cases x with
  | error e => exact nomatch hc
  | ok a =>
    cases y with
    | error e => exact nomatch hd
    | ok b => exact k a b (h a b rfl rfl) c d hc hd

theorem mono {x : M α} {y : M β} (h : Agree E x y) (k : ∀ a b, E a b → E' a b) : Agree E' x y :=
  fun a b ha hb => k a b (h a b ha hb)

theorem refl {x : M α} : Agree Eq x x := by
  intro a b ha hb
  rw [ha] at hb
  exact Except.ok.inj hb

theorem of_eq {x y : M α} (h : x = y) : Agree Eq x y := h ▸ refl

theorem foldlM {ι : Type} {f : α → ι → M α} {g : β → ι → M β} (l : List ι)
    (h : ∀ i ∈ l, ∀ a b, E a b → Agree E (f a i) (g b i)) (a : α) (b : β) (hab : E a b) : Agree E (l.foldlM f a) (l.foldlM g b) := by
  induction l generalizing a b with
  | nil => exact Agree.pure hab
  | cons i l ih =>
    rw [List.foldlM_cons, List.foldlM_cons]
    exact bind (h i (List.mem_cons_self ..) a b hab) fun a b hab => ih (fun j hj => h j (List.mem_cons_of_mem _ hj)) a b hab

end Agree

/-- If the computation succeeds, its result satisfies `Q`. -/
def Post {α : Type} (Q : α → Prop) (x : M α) : Prop := ∀ a, x = .ok a → Q a

namespace Post
variable {α β : Type} {Q Q' : α → Prop} {R : β → Prop}

theorem pure {a : α} (h : Q a) : Post Q (Pure.pure a) := by
  intro a' ha
  cases ha; exact h

theorem error {e : UB} : Post Q (.error e) := fun _ h => nomatch h

theorem bind {x : M α} {f : α → M β} (h : Post Q x) (k : ∀ a, Q a → Post R (f a)) : Post R (x >>= f) := by
  intro b hb
  cases x with
  | error e => exact nomatch hb
  | ok a => exact k a (h a rfl) b hb

theorem any {x : M α} : Post (fun _ => True) x := fun _ _ => trivial

theorem mono {x : M α} (h : Post Q x) (k : ∀ a, Q a → Q' a) : Post Q' x := fun a ha => k a (h a ha)

theorem foldlM {ι : Type} {f : α → ι → M α} (l : List ι) (h : ∀ i ∈ l, ∀ a, Q a → Post Q (f a i)) (a : α) (ha : Q a) :
    Post Q (l.foldlM f a) := by
  induction l generalizing a with
  | nil => exact Post.pure ha
  | cons i l ih =>
    rw [List.foldlM_cons]
    exact bind (h i (List.mem_cons_self ..) a ha) fun a ha => ih (fun j hj => h j (List.mem_cons_of_mem _ hj)) a ha

end Post

/-- Two arrays of the same size, with the same first `L` bytes. -/
def Agr (L : Nat) (m m' : Bytes) : Prop := m.length = m'.length ∧ ∀ i, i < L → m[i]? = m'[i]?

theorem Agr.refl {L : Nat} {m : Bytes} : Agr L m m := ⟨rfl, fun _ _ => rfl⟩

theorem Agr.le {L L' : Nat} {m m' : Bytes} (h : Agr L m m') (hl : L' ≤ L) : Agr L' m m' := ⟨h.1, fun i hi => h.2 i (by omega)⟩

theorem Agr.zero {m m' : Bytes} (h : m.length = m'.length) : Agr 0 m m' := ⟨h, fun _ h => by omega⟩

theorem getElem?_put (m src : Bytes) (off i : Nat) (h : off + src.length ≤ m.length) :
    (m.take off ++ src ++ m.drop (off + src.length))[i]? = if i < off then m[i]? else if i < off + src.length then src[i - off]? else m[i]? := by
  have hl : (m.take off).length = off := by rw [List.length_take]; omega
  rw [List.append_assoc]
  split
  · rw [List.getElem?_append_left (by omega), List.getElem?_take_of_lt (by assumption)]
  · rw [List.getElem?_append_right (by omega), hl]
    split
    · rw [List.getElem?_append_left (by omega)]
    · rw [List.getElem?_append_right (by omega), List.getElem?_drop]
      congr 1; omega

theorem memcpyTo_agree {L off : Nat} {m m' src : Bytes} (h : Agr L m m') :
    Agree (fun a b => Agr L a b ∧ (off ≤ L → Agr (off + src.length) a b)) (memcpyTo m off src) (memcpyTo m' off src) := by
  unfold memcpyTo
  split
  · rename_i h1
    rw [← h.1, if_pos h1]
    apply Agree.ok
    have hx : ∀ i, (i < L ∨ (off ≤ L ∧ i < off + src.length)) →
        (m.take off ++ src ++ m.drop (off + src.length))[i]? = (m'.take off ++ src ++ m'.drop (off + src.length))[i]? := by
      intro i hi
      rw [getElem?_put _ _ _ _ h1, getElem?_put _ _ _ _ (h.1 ▸ h1)]
      split
      · exact h.2 i (by omega)
      · split
        · rfl
        · exact h.2 i (by omega)
    have hl : (m.take off ++ src ++ m.drop (off + src.length)).length = (m'.take off ++ src ++ m'.drop (off + src.length)).length := by
      simp only [List.length_append, List.length_take, List.length_drop, h.1]
    exact ⟨⟨hl, fun i hi => hx i (.inl hi)⟩, fun ho => ⟨hl, fun i hi => hx i (.inr ⟨ho, hi⟩)⟩⟩
  · exact Agree.errorL

theorem memset_eq (m : Bytes) (off : Nat) (v : Byte) (n : Nat) : memset m off v n = memcpyTo m off (List.replicate n v) := by
  unfold memset memcpyTo
  rw [List.length_replicate]

theorem memset_agree {L off n : Nat} {m m' : Bytes} {v : Byte} (h : Agr L m m') :
    Agree (fun a b => Agr L a b ∧ (off ≤ L → Agr (off + n) a b)) (memset m off v n) (memset m' off v n) := by
  rw [memset_eq, memset_eq]
  have := memcpyTo_agree (off := off) (src := List.replicate n v) h
  rw [List.length_replicate] at this
  exact this

theorem setByte_agree {L i : Nat} {m m' : Bytes} {v : Byte} (h : Agr L m m') :
    Agree (fun a b => Agr L a b ∧ (i ≤ L → Agr (i + 1) a b)) (setByte m i v) (setByte m' i v) := by
  unfold setByte
  split
  · rename_i h1
    rw [← h.1, if_pos h1]
    apply Agree.ok
    have hl : (m.set i v).length = (m'.set i v).length := by simp only [List.length_set, h.1]
    have hx : ∀ j, (j < L ∨ j = i) → (m.set i v)[j]? = (m'.set i v)[j]? := by
      intro j hj
      rw [List.getElem?_set, List.getElem?_set]
      split
      · rename_i e; subst e; simp only [h1, h.1 ▸ h1, if_true]
      · exact h.2 j (by omega)
    exact ⟨⟨hl, fun j hj => hx j (.inl hj)⟩, fun _ => ⟨hl, fun j hj => hx j (by omega)⟩⟩
  · exact Agree.errorL

theorem readBytes_agree {L off n : Nat} {m m' : Bytes} (h : Agr L m m') (hl : off + n ≤ L) :
    Agree Eq (readBytes m off n) (readBytes m' off n) := by
  unfold readBytes
  split
  · rename_i h1
    rw [← h.1, if_pos h1]
    apply Agree.ok
    apply List.ext_getElem?
    intro i
    rw [List.getElem?_take, List.getElem?_take]
    split
    · rw [List.getElem?_drop, List.getElem?_drop]
      exact h.2 _ (by omega)
    · rfl
  · exact Agree.errorL

theorem memcpyTo_length (m : Bytes) (off : Nat) (src : Bytes) : Post (fun a => a.length = m.length) (memcpyTo m off src) := by
  unfold memcpyTo
  split
  · refine Post.pure ?_
    simp only [List.length_append, List.length_take, List.length_drop]; omega
  · exact Post.error

theorem memset_length (m : Bytes) (off : Nat) (v : Byte) (n : Nat) : Post (fun a => a.length = m.length) (memset m off v n) := by
  rw [memset_eq]
  exact memcpyTo_length _ _ _

theorem setByte_length (m : Bytes) (i : Nat) (v : Byte) : Post (fun a => a.length = m.length) (setByte m i v) := by
  unfold setByte
  split
  · exact Post.pure (List.length_set ..)
  · exact Post.error

theorem forBlocks_keep {σ : Type} {bs n : Nat} {K : σ → Prop} {f : Nat → Bytes → σ → M σ} {data : Bytes}
    (h : ∀ i b s, K s → Post K (f i b s)) (s : σ) (hs : K s) : Post K (forBlocks bs data n f s) := by
  unfold forBlocks
  exact Post.foldlM _ (fun i _ a ha => Post.bind Post.any fun b _ => h i b a ha) s hs

theorem readBytes_self (m : Bytes) (off n : Nat) : Agree (fun a b => a = b ∧ a.length = n) (readBytes m off n) (readBytes m off n) := by
  unfold readBytes
  split
  · refine Agree.ok ⟨rfl, ?_⟩
    rw [List.length_take, List.length_drop]; omega
  · exact Agree.errorL

/-- `pos + (bs - pos)` is at least `bs`, also if the subtraction wraps around. -/
theorem le_szSub (bs pos : Nat) (h : bs < szMod) : bs ≤ pos + szSub bs pos := by
  unfold szSub
  by_cases h1 : bs ≤ pos
  · omega
  · have : bs + szMod - pos = (bs - pos) + szMod := by omega
    rw [this, Nat.add_mod_right, Nat.mod_eq_of_lt (by omega)]
    omega

theorem zeroRest_agree {bs pos : Nat} {m m' : Bytes} (hb : bs < szMod) (h : Agr pos m m') :
    Agree (fun a b => Agr pos a b ∧ Agr bs a b) (zeroRest bs m pos) (zeroRest bs m' pos) := by
  unfold zeroRest
  split
  · exact (memset_agree (off := pos) h).mono fun a b hab => ⟨hab.1, (hab.2 (Nat.le_refl _)).le (le_szSub bs pos hb)⟩
  · exact Agree.pure ⟨h, h.le (by omega)⟩

variable {σ τ : Type}

theorem forBlocks_agree {bs : Nat} {R : σ → τ → Prop} {f : Nat → Bytes → σ → M σ} {g : Nat → Bytes → τ → M τ} {n : Nat} {data data' : Bytes}
    (hd : Agr (n * bs) data data') (h : ∀ i b s t, R s t → Agree R (f i b s) (g i b t)) (s : σ) (t : τ) (hst : R s t) :
    Agree R (forBlocks bs data n f s) (forBlocks bs data' n g t) := by
  unfold forBlocks
  refine Agree.foldlM _ (fun i hi a b hab => ?_) s t hst
  have h1 : (i + 1) * bs ≤ n * bs := Nat.mul_le_mul_right _ (List.mem_range.mp hi)
  rw [Nat.add_mul] at h1
  refine Agree.bind (readBytes_agree hd (by omega)) fun c d hcd => ?_
  subst hcd
  exact h i c a b hab

/-- Two objects with a block buffer of `bs` bytes: the buffers agree up to `pos`, and everywhere if `full`. -/
structure BlkE (R : σ → σ → Prop) (full : Prop) (bs : Nat) (s t : Blk σ) : Prop where
  h : R s.h t.h
  pos : s.pos = t.pos
  total : s.total = t.total
  m : Agr s.pos s.m t.m
  full : full → Agr bs s.m t.m

/-- The transformation depends on the blocks, on `total` and on what `R` relates, and keeps the buffer. -/
def TrAgree (bs : Nat) (R : σ → σ → Prop) (tr : Bytes → Nat → Blk σ → M (Blk σ)) : Prop :=
  ∀ (data data' : Bytes) (n : Nat) (s t : Blk σ), Agr (n * bs) data data' → R s.h t.h → s.total = t.total →
    Agree (fun a b => R a.h b.h ∧ (a.m = s.m ∧ a.pos = s.pos ∧ a.total = s.total) ∧ (b.m = t.m ∧ b.pos = t.pos ∧ b.total = t.total))
      (tr data n s) (tr data' n t)

section Absorb
variable {R : σ → σ → Prop} {full : Prop} {bs bschk : Nat} {tr : Bytes → Nat → Blk σ → M (Blk σ)}

theorem absorbRest_agree (data : Bytes) {s t : Blk σ} (h : BlkE R full bs s t) :
    Agree (BlkE R full bs) (absorbRest data s) (absorbRest data t) := by
  unfold absorbRest
  rw [← h.pos]
  intro a b ha hb
  cases e : memcpyTo s.m s.pos data with
  | error e' => rw [e] at ha; exact nomatch ha
  | ok m =>
    cases e' : memcpyTo t.m s.pos data with
    | error e'' => rw [e'] at hb; exact nomatch hb
    | ok m' =>
      rw [e] at ha; rw [e'] at hb
      cases ha; cases hb
      exact ⟨h.h, rfl, h.total, ((memcpyTo_agree h.m) m m' e e').2 (Nat.le_refl _), fun hf => ((memcpyTo_agree (h.full hf)) m m' e e').1⟩

theorem absorbTail_agree (htr : TrAgree bs R tr) (data : Bytes) {s t : Blk σ} (h : BlkE R full bs s t) :
    Agree (BlkE R full bs) (absorbTail bs bschk tr data s) (absorbTail bs bschk tr data t) := by
  unfold absorbTail
  split
  · split
    · exact Agree.errorL
    · dsimp only
      refine Agree.bind (htr data data _ s t Agr.refl h.h h.total) fun a b hab => ?_
      obtain ⟨hR, ⟨am, ap, at'⟩, bm, bp, bt⟩ := hab
      refine absorbRest_agree _ ⟨hR, ?_, ?_, ?_, ?_⟩
      · show a.pos = b.pos
        rw [ap, bp, h.pos]
      · show a.total + _ = b.total + _
        rw [at', bt, h.total]
      · show Agr a.pos a.m b.m
        rw [ap, am, bm]; exact h.m
      · show _ → Agr bs a.m b.m
        rw [am, bm]; exact h.full
  · exact absorbRest_agree data h

theorem absorbBytes_agree (hbs : bs < szMod) (htr : TrAgree bs R tr) (data : Bytes) {s t : Blk σ} (h : BlkE R full bs s t) :
    Agree (BlkE R full bs) (absorbBytes bs bschk tr data s) (absorbBytes bs bschk tr data t) := by
  unfold absorbBytes
  rw [← h.pos]
  split
  · refine Agree.bind (readBytes_self data 0 (szSub bs s.pos)) fun c d hcd => ?_
    obtain ⟨rfl, hc⟩ := hcd
    refine Agree.bind (E := fun a b => Agr bs a b) ?_ fun m m' hm => ?_
    · exact (memcpyTo_agree h.m).mono fun a b hab => by
        have := hab.2 (Nat.le_refl _)
        rw [hc] at this
        exact this.le (le_szSub bs s.pos hbs)
    · refine Agree.bind (htr m m' 1 { s with m := m } { t with m := m', pos := s.pos } (by rw [Nat.one_mul]; exact hm) h.h h.total)
        fun a b hab => ?_
      obtain ⟨hR, ⟨am, ap, at'⟩, bm, bp, bt⟩ := hab
      have hp : a.pos = b.pos := by rw [ap, bp]
      rw [← hp]
      refine absorbTail_agree htr _ ⟨hR, rfl, ?_, ?_, ?_⟩
      · show a.total + _ = b.total + _
        rw [at', bt]
        show s.total + _ = t.total + _
        rw [h.total]
      · show Agr 0 a.m b.m
        rw [am, bm]; exact hm.le (Nat.zero_le _)
      · intro _
        show Agr bs a.m b.m
        rw [am, bm]; exact hm
  · exact absorbTail_agree htr data h

/-- Absorbing keeps the size of the buffer, and whatever the transformation keeps. -/
theorem absorbRest_keep {K : σ → Prop} {n : Nat} (data : Bytes) {s : Blk σ} (h : K s.h ∧ s.m.length = n) :
    Post (fun s => K s.h ∧ s.m.length = n) (absorbRest data s) := by
  unfold absorbRest
  exact Post.bind (memcpyTo_length s.m s.pos data) fun m e => Post.pure ⟨h.1, e.trans h.2⟩

theorem absorbTail_keep {K : σ → Prop} {n : Nat}
    (htr : ∀ data k s, (K s.h ∧ s.m.length = n) → Post (fun s => K s.h ∧ s.m.length = n) (tr data k s)) (data : Bytes) {s : Blk σ}
    (h : K s.h ∧ s.m.length = n) : Post (fun s => K s.h ∧ s.m.length = n) (absorbTail bs bschk tr data s) := by
  unfold absorbTail
  split
  · split
    · exact Post.error
    · exact Post.bind (htr _ _ s h) fun s h => absorbRest_keep _ h
  · exact absorbRest_keep data h

theorem absorbBytes_keep {K : σ → Prop} {n : Nat}
    (htr : ∀ data k s, (K s.h ∧ s.m.length = n) → Post (fun s => K s.h ∧ s.m.length = n) (tr data k s)) (data : Bytes) {s : Blk σ}
    (h : K s.h ∧ s.m.length = n) : Post (fun s => K s.h ∧ s.m.length = n) (absorbBytes bs bschk tr data s) := by
  unfold absorbBytes
  split
  · refine Post.bind Post.any fun c _ => ?_
    refine Post.bind (memcpyTo_length s.m s.pos c) fun m e => ?_
    exact Post.bind (htr _ _ { s with m := m } ⟨h.1, e.trans h.2⟩) fun s h => absorbTail_keep htr _ h
  · exact absorbTail_keep htr data h

end Absorb

/-- What is to be shown of a provider: `E0` relates objects with the same parameters, `E` objects that behave the same. -/
structure HashTwo {S P : Type} (pr : HashProvider S P) (E0 E : S → S → Prop) : Prop where
  sub : ∀ s t, E s t → E0 s t
  init : ∀ s t, E0 s t → Agree E (pr.init s) (pr.init t)
  update : ∀ d s t, E s t → Agree E (pr.update d s) (pr.update d t)
  final : ∀ s t, E s t → Agree Eq (pr.final s) (pr.final t)
  clear : ∀ s t, E0 s t → Agree E0 (pr.clear s) (pr.clear t)
  size : ∀ s t, E s t → pr.hashSize s = pr.hashSize t
  set : ∀ p s t, E s t → Agree (fun a b => a.1 = true → E a.2 b.2) (pr.set p s) (pr.set p t)
  set0 : ∀ p s t, E0 s t → Agree (fun a b => a.1 = b.1 ∧ E0 a.2 b.2) (pr.set p s) (pr.set p t)
  keepInit : ∀ s t, E0 s t → Post (fun s => E0 s t) (pr.init s)
  keepUpdate : ∀ d s t, E0 s t → Post (fun s => E0 s t) (pr.update d s)

structure XofTwo {S P : Type} (pr : XofProvider S P) (E0 E : S → S → Prop) : Prop where
  sub : ∀ s t, E s t → E0 s t
  init : ∀ s t, E0 s t → Agree E (pr.init s) (pr.init t)
  update : ∀ d s t, E s t → Agree E (pr.update d s) (pr.update d t)
  squeeze : ∀ n s t, E s t → Agree (fun a b => a.1 = b.1 ∧ E a.2 b.2) (pr.squeeze n s) (pr.squeeze n t)
  clear : ∀ s t, E0 s t → Agree E0 (pr.clear s) (pr.clear t)
  set : ∀ p s t, E s t → Agree (fun a b => a.1 = true → E a.2 b.2) (pr.set p s) (pr.set p t)
  set0 : ∀ p s t, E0 s t → Agree (fun a b => a.1 = b.1 ∧ E0 a.2 b.2) (pr.set p s) (pr.set p t)
  keepInit : ∀ s t, E0 s t → Post (fun s => E0 s t) (pr.init s)
  keepUpdate : ∀ d s t, E0 s t → Post (fun s => E0 s t) (pr.update d s)
  keepSqueeze : ∀ n s t, E0 s t → Post (fun a => E0 a.2 t) (pr.squeeze n s)

section Run
variable {S P : Type} {E0 E : S → S → Prop}

theorem absorbStream_agree {update : Bytes → S → M S} (h : ∀ d s t, E s t → Agree E (update d s) (update d t)) (rest : Bytes) (s t : S)
    (hst : E s t) : Agree E (absorbStream update rest s) (absorbStream update rest t) := by
  induction hn : rest.length using Nat.strongRecOn generalizing rest s t with
  | ind n ih =>
    rw [absorbStream, absorbStream]
    split
    · exact Agree.bind (h _ s t hst) fun a b hab => ih (rest.drop 65536).length (by rw [List.length_drop]; omega) _ a b hab rfl
    · split
      · exact h _ s t hst
      · exact Agree.pure hst

theorem absorb_agree {update : Bytes → S → M S} (h : ∀ d s t, E s t → Agree E (update d s) (update d t)) (src : Source) (s t : S)
    (hst : E s t) : Agree E (Model.absorb update src s) (Model.absorb update src t) := by
  cases src with
  | ptr d => exact h d s t hst
  | array d => exact h d s t hst
  | str d =>
    show Agree E (if d.isEmpty then pure s else update d s) (if d.isEmpty then pure t else update d t)
    split
    · exact Agree.pure hst
    · exact h d s t hst
  | stream d => exact absorbStream_agree h d s t hst
  | iter d => exact Agree.foldlM d (fun b _ s t hst => h [b] s t hst) s t hst

/-- Same observation, related objects. -/
abbrev Same (E : S → S → Prop) (a b : Obs × S) : Prop := a.1 = b.1 ∧ E a.2 b.2

theorem HashTwo.setBoth {pr : HashProvider S P} (h : HashTwo pr E0 E) (p : P) (s t : S) (hst : E s t) :
    Agree (fun a b => a.1 = b.1 ∧ (a.1 = true → E a.2 b.2) ∧ E0 a.2 b.2) (pr.set p s) (pr.set p t) := fun a b ha hb =>
  have h0 := h.set0 p s t (h.sub s t hst) a b ha hb
  ⟨h0.1, h.set p s t hst a b ha hb, h0.2⟩

theorem HashTwo.step {pr : HashProvider S P} (h : HashTwo pr E0 E) (op : HashOp P) (s t : S) (hst : E s t) :
    Agree (Same E) (pr.step op s) (pr.step op t) := by
  have hit : Agree Eq (pr.digestIt s) (pr.digestIt t) := by
    unfold HashProvider.digestIt
    rw [← h.size s t hst]
    dsimp only
    split
    · exact Agree.errorL
    · exact Agree.bind (h.final s t hst) fun a b hab => Agree.of_eq (by rw [hab])
  cases op with
  | absorb src => exact Agree.bind (absorb_agree h.update src s t hst) fun a b hab => Agree.pure ⟨rfl, hab⟩
  | digestBuf buf =>
    refine Agree.bind (E := Eq) ?_ fun a b hab => Agree.pure ⟨hab, hst⟩
    unfold HashProvider.digestBuf
    rw [← h.size s t hst]
    split
    · exact Agree.pure rfl
    · exact Agree.bind (h.final s t hst) fun a b hab => Agree.of_eq (by rw [hab])
  | digest => exact Agree.bind hit fun a b hab => Agree.pure ⟨by rw [hab], hst⟩
  | hexdigest => exact Agree.bind hit fun a b hab => Agree.pure ⟨by rw [hab], hst⟩
  | reset b =>
    refine Agree.bind (E := E) ?_ fun a b hab => Agree.pure ⟨rfl, hab⟩
    unfold HashProvider.reset
    cases b
    · exact Agree.bind (E := E) (Agree.pure hst) fun a b hab => h.init a b (h.sub a b hab)
    · exact Agree.bind (h.clear s t (h.sub s t hst)) fun a b hab => h.init a b hab
  | set p =>
    refine Agree.bind (h.setBoth p s t hst) fun a b hab => ?_
    obtain ⟨x, a⟩ := a
    obtain ⟨y, b⟩ := b
    obtain ⟨e, h1, h2⟩ := hab
    dsimp only at e h1 h2
    subst e
    dsimp only
    split
    · rename_i hx; exact Agree.pure ⟨rfl, h1 hx⟩
    · exact Agree.bind (h.init a b h2) fun a b hab => Agree.pure ⟨rfl, hab⟩

theorem HashTwo.run {pr : HashProvider S P} (h : HashTwo pr E0 E) (ops : List (HashOp P)) (s t : S) (hst : E s t) :
    Agree (fun a b => a.1 = b.1 ∧ E a.2 b.2) (pr.run ops s) (pr.run ops t) := by
  induction ops generalizing s t with
  | nil => exact Agree.pure ⟨rfl, hst⟩
  | cons op ops ih =>
    exact Agree.bind (h.step op s t hst) fun a b hab => Agree.bind (ih a.2 b.2 hab.2) fun c d hcd =>
      Agree.pure ⟨by rw [hab.1, hcd.1], hcd.2⟩

theorem XofTwo.setBoth {pr : XofProvider S P} (h : XofTwo pr E0 E) (p : P) (s t : S) (hst : E s t) :
    Agree (fun a b => a.1 = b.1 ∧ (a.1 = true → E a.2 b.2) ∧ E0 a.2 b.2) (pr.set p s) (pr.set p t) := fun a b ha hb =>
  have h0 := h.set0 p s t (h.sub s t hst) a b ha hb
  ⟨h0.1, h.set p s t hst a b ha hb, h0.2⟩

theorem XofTwo.step {pr : XofProvider S P} (h : XofTwo pr E0 E) (op : XofOp P) (s t : S) (hst : E s t) :
    Agree (Same E) (pr.step op s) (pr.step op t) := by
  have hit : ∀ n, Agree (fun a b => a.1 = b.1 ∧ E a.2 b.2) (pr.squeezeIt n s) (pr.squeezeIt n t) := by
    intro n
    unfold XofProvider.squeezeIt
    dsimp only
    split
    · exact Agree.errorL
    · exact Agree.bind (h.squeeze n s t hst) fun a b hab => Agree.bind (E := Eq) (Agree.of_eq (by rw [hab.1])) fun c d hcd =>
        Agree.pure ⟨hcd, hab.2⟩
  cases op with
  | absorb src => exact Agree.bind (absorb_agree h.update src s t hst) fun a b hab => Agree.pure ⟨rfl, hab⟩
  | squeezeBuf buf =>
    exact Agree.bind (h.squeeze buf.length s t hst) fun a b hab => Agree.bind (E := Eq) (Agree.of_eq (by rw [hab.1])) fun c d hcd =>
        Agree.pure ⟨by rw [hcd], hab.2⟩
  | squeeze n => exact Agree.bind (hit n) fun a b hab => Agree.pure ⟨by rw [hab.1], hab.2⟩
  | hexsqueeze n => exact Agree.bind (hit n) fun a b hab => Agree.pure ⟨by rw [hab.1], hab.2⟩
  | reset b =>
    refine Agree.bind (E := E) ?_ fun a b hab => Agree.pure ⟨rfl, hab⟩
    unfold XofProvider.reset
    cases b
    · exact Agree.bind (E := E) (Agree.pure hst) fun a b hab => h.init a b (h.sub a b hab)
    · exact Agree.bind (h.clear s t (h.sub s t hst)) fun a b hab => h.init a b hab
  | set p =>
    refine Agree.bind (h.setBoth p s t hst) fun a b hab => ?_
    obtain ⟨x, a⟩ := a
    obtain ⟨y, b⟩ := b
    obtain ⟨e, h1, h2⟩ := hab
    dsimp only at e h1 h2
    subst e
    dsimp only
    split
    · rename_i hx; exact Agree.pure ⟨rfl, h1 hx⟩
    · exact Agree.bind (h.init a b h2) fun a b hab => Agree.pure ⟨rfl, hab⟩

theorem XofTwo.run {pr : XofProvider S P} (h : XofTwo pr E0 E) (ops : List (XofOp P)) (s t : S) (hst : E s t) :
    Agree (fun a b => a.1 = b.1 ∧ E a.2 b.2) (pr.run ops s) (pr.run ops t) := by
  induction ops generalizing s t with
  | nil => exact Agree.pure ⟨rfl, hst⟩
  | cons op ops ih =>
    exact Agree.bind (h.step op s t hst) fun a b hab => Agree.bind (ih a.2 b.2 hab.2) fun c d hcd =>
      Agree.pure ⟨by rw [hab.1, hcd.1], hcd.2⟩

/-- Providers whose `init` leaves nothing of what was in memory before. -/
theorem XofTwo.ofEq {pr : XofProvider S P} (init : ∀ s t, E0 s t → pr.init s = pr.init t) (refl : ∀ s, E0 s s)
    (clear : ∀ s t, E0 s t → Agree E0 (pr.clear s) (pr.clear t))
    (set0 : ∀ p s t, E0 s t → Agree (fun a b => a.1 = b.1 ∧ E0 a.2 b.2) (pr.set p s) (pr.set p t))
    (keepInit : ∀ s t, E0 s t → Post (fun s => E0 s t) (pr.init s))
    (keepUpdate : ∀ d s t, E0 s t → Post (fun s => E0 s t) (pr.update d s))
    (keepSqueeze : ∀ n s t, E0 s t → Post (fun a => E0 a.2 t) (pr.squeeze n s)) : XofTwo pr E0 Eq where
  sub := fun s t e => e ▸ refl s
  init := fun s t e => Agree.of_eq (init s t e)
  update := fun d s t e => Agree.of_eq (by rw [e])
  squeeze := fun d s t e => by rw [e]; exact Agree.refl.mono fun a b hab => by rw [hab]; exact ⟨rfl, rfl⟩
  clear := clear
  set := fun p s t e => by rw [e]; exact Agree.refl.mono fun a b hab => by rw [hab]; exact fun _ => rfl
  set0 := set0
  keepInit := keepInit
  keepUpdate := keepUpdate
  keepSqueeze := keepSqueeze

/-- Both constructors succeed and give related objects, or both throw. -/
def Opt (E : S → S → Prop) : Option S → Option S → Prop
  | some a, some b => E a b
  | none, none => True
  | _, _ => False

end Run

/-- The class, on two different memory contents. -/
structure HashTwin (c : HashClass) (E0 E : c.S → c.S → Prop) : Prop where
  pr : HashTwo c.pr E0 E
  ctor : ∀ mem mem', c.Mem mem → c.Mem mem' → Agree (Opt E0) (c.ctor mem) (c.ctor mem')

structure XofTwin (c : XofClass) (E0 E : c.S → c.S → Prop) : Prop where
  pr : XofTwo c.pr E0 E
  ctor : ∀ mem mem', c.Mem mem → c.Mem mem' → Agree (Opt E0) (c.ctor mem) (c.ctor mem')

theorem HashTwin.construct {c : HashClass} {E0 E : c.S → c.S → Prop} (h : HashTwin c E0 E) {mem mem' : c.S} (hm : c.Mem mem) (hm' : c.Mem mem') :
    Agree (Opt E) (c.construct mem) (c.construct mem') := by
  unfold HashClass.construct
  refine Agree.bind (h.ctor mem mem' hm hm') fun a b hab => ?_
  match a, b, hab with
  | some a, some b, hab => exact Agree.bind (h.pr.init a b hab) fun a b hab => Agree.pure hab
  | none, none, _ => exact Agree.pure trivial

theorem XofTwin.construct {c : XofClass} {E0 E : c.S → c.S → Prop} (h : XofTwin c E0 E) {mem mem' : c.S} (hm : c.Mem mem) (hm' : c.Mem mem') :
    Agree (Opt E) (c.construct mem) (c.construct mem') := by
  unfold XofClass.construct
  refine Agree.bind (h.ctor mem mem' hm hm') fun a b hab => ?_
  match a, b, hab with
  | some a, some b, hab => exact Agree.bind (h.pr.init a b hab) fun a b hab => Agree.pure hab
  | none, none, _ => exact Agree.pure trivial

end Digestpp.Proofs.Indep
