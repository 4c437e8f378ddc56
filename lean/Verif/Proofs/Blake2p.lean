import Verif.Model.Blake2p
import Verif.Spec.Clear
import Verif.Proofs.Blake2

/-! BLAKE2bp and BLAKE2sp. -/

namespace Digestpp.Proofs.Blake2p
open Model Spec
open Model.Blake2 (Word St Kind)
open Model.Blake2p (PSt leaves forLeaves)
open Spec.Blake2 (Variant Params Theta)
open Proofs.Blake2

/-! ### Loops over the leaves -/

/-- `Q i a` for the element `a` at place `i`, counting from `k`. -/
def AllIdx {α : Type} (Q : Nat → α → Prop) (k : Nat) (l : List α) : Prop := ∀ i a, l[i]? = some a → Q (k + i) a

theorem AllIdx.head {α : Type} {Q : Nat → α → Prop} {k : Nat} {a : α} {l : List α} (h : AllIdx Q k (a :: l)) : Q k a := h 0 a rfl

theorem AllIdx.tail {α : Type} {Q : Nat → α → Prop} {k : Nat} {a : α} {l : List α} (h : AllIdx Q k (a :: l)) : AllIdx Q (k + 1) l := by
  intro i x hx
  have := h (i + 1) x hx
  rwa [show k + (i + 1) = k + 1 + i by omega] at this

theorem AllIdx.nil {α : Type} {Q : Nat → α → Prop} {k : Nat} : AllIdx Q k ([] : List α) := by
  intro i a h; cases h

theorem AllIdx.cons {α : Type} {Q : Nat → α → Prop} {k : Nat} {a : α} {l : List α} (h : Q k a) (t : AllIdx Q (k + 1) l) :
    AllIdx Q k (a :: l) := by
  intro i x hx
  cases i with
  | zero => cases hx; exact h
  | succ i => rw [show k + (i + 1) = k + 1 + i by omega]; exact t i x hx

theorem AllIdx.imp {α : Type} {Q Q' : Nat → α → Prop} {k : Nat} {l : List α} (h : AllIdx Q k l) (hq : ∀ i a, Q i a → Q' i a) :
    AllIdx Q' k l := fun i a e => hq _ _ (h i a e)

theorem forLeaves_ok {α : Type} {Q Q' : Nat → α → Prop} {f : Nat → α → M α} {k : Nat} {l : List α} (h : AllIdx Q k l)
    (hf : ∀ i a, k ≤ i → i < k + l.length → Q i a → ∃ a', f i a = .ok a' ∧ Q' i a') :
    ∃ l', forLeaves f k l = .ok l' ∧ l'.length = l.length ∧ AllIdx Q' k l' := by
  induction l generalizing k with
  | nil => exact ⟨[], rfl, rfl, AllIdx.nil⟩
  | cons a l ih =>
    obtain ⟨a', e, q⟩ := hf k a (Nat.le_refl _) (by simp) h.head
    obtain ⟨l', e', hl, q'⟩ := ih h.tail (fun i x h1 h2 hq => hf i x (by omega) (by simp only [List.length_cons]; omega) hq)
    refine ⟨a' :: l', ?_, by simp [hl], AllIdx.cons q q'⟩
    unfold forLeaves
    rw [e, ok_bind, e', ok_bind]
    rfl

/-- The same with a function that computes the result. -/
theorem forLeaves_eq {α : Type} {Q : Nat → α → Prop} {f : Nat → α → M α} {g : Nat → α → α} {k : Nat} {l : List α} (h : AllIdx Q k l)
    (hf : ∀ i a, k ≤ i → i < k + l.length → Q i a → f i a = .ok (g i a)) :
    forLeaves f k l = .ok (l.mapIdx (fun i a => g (k + i) a)) := by
  induction l generalizing k with
  | nil => rfl
  | cons a l ih =>
    have e := hf k a (Nat.le_refl _) (by simp) h.head
    have e' := ih h.tail (fun i x h1 h2 hq => hf i x (by omega) (by simp only [List.length_cons]; omega) hq)
    unfold forLeaves
    rw [e, ok_bind, e', ok_bind, List.mapIdx_cons]
    have : (fun i a => g (k + 1 + i) a) = (fun i a => g (k + (i + 1)) a) := by
      funext i a; rw [show k + 1 + i = k + (i + 1) by omega]
    rw [this]
    rfl

theorem AllIdx.mapIdx {α : Type} {Q Q' : Nat → α → Prop} {g : Nat → α → α} {l : List α} (h : AllIdx Q 0 l)
    (hg : ∀ i a, i < l.length → Q i a → Q' i (g i a)) : AllIdx Q' 0 (l.mapIdx g) := by
  intro i a e
  rw [List.getElem?_mapIdx] at e
  cases hl : l[i]? with
  | none => rw [hl] at e; cases e
  | some x =>
    rw [hl] at e
    cases e
    rw [Nat.zero_add]
    have := h i x hl
    rw [Nat.zero_add] at this
    exact hg i x (List.getElem?_eq_some_iff.mp hl).1 this

/-! ### The blocks of a leaf -/

/-- The blocks for leaf `i` in the first `k` groups. -/
def groups (bs P i k : Nat) (msg : Bytes) : Bytes := (List.range k).flatMap fun b => blockAt bs (b * P + i) msg

theorem length_blockAt_le (bs j : Nat) (msg : Bytes) : (blockAt bs j msg).length ≤ bs := by
  unfold blockAt; simp; omega

theorem length_groups (bs P i k : Nat) (msg : Bytes) : (groups bs P i k msg).length ≤ k * bs := by
  induction k with
  | zero => simp [groups]
  | succ k ih =>
    unfold groups at ih ⊢
    rw [List.range_succ, List.flatMap_append, List.length_append, List.flatMap_singleton, Nat.add_mul]
    have := length_blockAt_le bs (k * P + i) msg
    omega

theorem groups_succ (bs P i k : Nat) (msg : Bytes) : groups bs P i (k + 1) msg = groups bs P i k msg ++ blockAt bs (k * P + i) msg := by
  unfold groups
  rw [List.range_succ, List.flatMap_append, List.flatMap_singleton]

theorem filter_eq (c i : Nat) : (List.range c).filter (fun x => decide (x = i)) = if i < c then [i] else [] := by
  induction c with
  | zero => rfl
  | succ c ih =>
    rw [List.range_succ, List.filter_append, ih]
    by_cases h : c = i
    · subst h; simp
    · simp only [List.filter_cons, List.filter_nil, decide_eq_true_eq, if_neg h, List.append_nil]
      by_cases h2 : i < c
      · rw [if_pos h2, if_pos (by omega)]
      · rw [if_neg h2, if_neg (by omega)]

theorem filter_mod (P i : Nat) (hi : i < P) (k c : Nat) (hc : c ≤ P) :
    (List.range (k * P + c)).filter (· % P = i) = (List.range k).map (fun b => b * P + i) ++ if i < c then [k * P + i] else [] := by
  have hshift : ∀ k c, c ≤ P → ((List.range c).map (k * P + ·)).filter (· % P = i) = if i < c then [k * P + i] else [] := by
    intro k c hc
    rw [List.filter_map]
    have : (List.range c).filter ((fun x => decide (x % P = i)) ∘ fun x => k * P + x) = (List.range c).filter (fun x => decide (x = i)) := by
      apply List.filter_congr
      intro x hx
      rw [List.mem_range] at hx
      simp only [Function.comp]
      rw [Nat.mul_comm k P, Nat.mul_add_mod]
      by_cases hxp : x = P
      · omega
      · rw [Nat.mod_eq_of_lt (by omega)]
    rw [this, filter_eq]
    split <;> rfl
  have hmain : ∀ k, (List.range (k * P)).filter (· % P = i) = (List.range k).map (fun b => b * P + i) := by
    intro k
    induction k with
    | zero => simp
    | succ k ih =>
      rw [Nat.add_mul, Nat.one_mul, List.range_add, List.filter_append, ih, hshift k P (Nat.le_refl _), if_pos hi, List.range_succ,
        List.map_append]
      rfl
  rw [List.range_add, List.filter_append, hmain, hshift k c hc]

/-- What `stripe` is, group by group. -/
theorem stripe_eq (bs P i : Nat) (hbs : 0 < bs) (hi : i < P) (msg : Bytes) (k : Nat) (hk : k = msg.length / (P * bs)) :
    Spec.Blake2.stripe bs P i msg
      = groups bs P i k msg ++ if i * bs < msg.length - k * (P * bs) then blockAt bs (k * P + i) msg else [] := by
  have hP : 0 < P := by omega
  have hB : 0 < P * bs := Nat.mul_pos hP hbs
  obtain ⟨r, hr⟩ : ∃ r, r = msg.length - k * (P * bs) := ⟨_, rfl⟩
  have h1 := Nat.div_mul_le_self msg.length (P * bs)
  have h2 := Nat.lt_div_mul_add hB (a := msg.length)
  rw [← hk] at h1 h2
  have e : (msg.length + bs - 1) / bs = k * P + (r + bs - 1) / bs := by
    rw [show msg.length + bs - 1 = r + bs - 1 + k * P * bs by rw [Nat.mul_assoc]; omega, Nat.add_mul_div_right _ _ hbs, Nat.add_comm]
  have hc : (r + bs - 1) / bs ≤ P := by
    apply Nat.le_of_lt_succ
    apply Nat.div_lt_of_lt_mul
    rw [Nat.mul_comm, Nat.succ_mul]
    omega
  have hic : i < (r + bs - 1) / bs ↔ i * bs < r := by
    rw [Nat.lt_div_iff_mul_lt hbs]
    omega
  unfold Spec.Blake2.stripe
  rw [e, filter_mod P i hi k _ hc, List.flatMap_append, List.flatMap_map, ← hr]
  congr 1
  by_cases h : i * bs < r
  · rw [if_pos h, if_pos (hic.mpr h), List.flatMap_singleton]
  · rw [if_neg h, if_neg (fun h' => h (hic.mp h'))]
    rfl

/-! ### The provider -/

variable {w : Nat} {T : Word w} {v : Variant w} {L : Bool}

/-! The nodes have the parameters of the tree (`L = false`); after `clear` they have lost them (`L = true`), and are those of sequential
hashing. -/

/-- The member `fanout`. -/
def fo (w : Nat) (L : Bool) : BitVec 8 := if L then 0 else BitVec.ofNat 8 (leaves w)

/-- The member `nodedepth` of `main`. -/
def nd (L : Bool) : BitVec 8 := if L then 0 else 1

/-- The member `nodeoffset` of leaf `i`. -/
def no (L : Bool) (i : Nat) : BitVec 8 := if L then 0 else BitVec.ofNat 8 i

/-- The parameter block of leaf `i`. -/
def pLeaf (w : Nat) (L : Bool) (θ : Theta) (n i : Nat) : Params :=
  if L then Spec.Blake2.seqParams θ n 0 else treeParams w θ n (leaves w) i 0

/-- The parameter block of `main`. -/
def pMain (w : Nat) (L : Bool) (θ : Theta) (n : Nat) : Params :=
  if L then Spec.Blake2.seqParams θ n 0 else treeParams w θ n (leaves w) 0 1

/-- What `main` absorbs before the digests of the leaves. -/
def pre (w : Nat) (L : Bool) (θ : Theta) : Bytes := if L then Spec.Blake2.keyed (2 * w) θ.key [] else []

theorem length_pre (θ : Theta) (hθ : Valid w θ) : (pre w L θ).length ≤ 2 * w := by
  unfold pre
  split
  · have := length_keyed (2 * w) θ.key [] (by have := hθ.key; omega)
    simpa using this
  · simp

/-- The value of a computation that does not fail. -/
def run {α : Type} (x : M α) (d : α) : α :=
  match x with
  | .ok a => a
  | .error _ => d

/-- Leaf `i` taking its part of a group of blocks. -/
def leafStep (T : Word w) (b : Bytes) (i : Nat) (l : Blk (St w)) : Blk (St w) :=
  run (Model.Blake2.update T ((b.drop (i * (2 * w))).take (2 * w)) l) l

/-- All leaves taking a group of blocks. -/
def stepP (T : Word w) (b : Bytes) (h : PSt w) : PSt w := { h with leaf := h.leaf.mapIdx (leafStep T b) }

/-- Leaf `i` may have absorbed anything. -/
def LeafSafe (w : Nat) (L : Bool) (θ : Theta) (hs i : Nat) (l : Blk (St w)) : Prop :=
  Safe (2 * w) 1 (2 * w) (In θ hs (fo w L) 0 (no L i)) l

/-- Leaf `i` has absorbed the key and `data`. -/
def LeafAbs (T : Word w) (v : Variant w) (L : Bool) (θ : Theta) (hs i : Nat) (data : Bytes) (l : Blk (St w)) : Prop :=
  Abs T v θ hs (fo w L) 0 (no L i) (pLeaf w L θ (hs / 8) i)
    (Spec.Blake2.keyed (2 * w) θ.key data) l

theorem leaves_mul (hw : w = 32 ∨ w = 64) : leaves w * (2 * w) = 512 := by
  rcases hw with rfl | rfl <;> rfl

theorem leaf_le (hw : w = 32 ∨ w = 64) {i : Nat} (hi : i < leaves w) : i * (2 * w) + 2 * w ≤ 512 := by
  have h := leaves_mul hw
  have h1 : (i + 1) * (2 * w) ≤ leaves w * (2 * w) := Nat.mul_le_mul_right _ hi
  rw [Nat.add_mul] at h1
  omega

theorem leafStep_safe (ok : WordOk T v) (θ : Theta) (hs i : Nat) (b : Bytes) (l : Blk (St w)) (h : LeafSafe w L θ hs i l) :
    Model.Blake2.update T ((b.drop (i * (2 * w))).take (2 * w)) l = .ok (leafStep T b i l) ∧ LeafSafe w L θ hs i (leafStep T b i l) := by
  have hw := ok.w2
  obtain ⟨s', e, q⟩ := update_safe ok h ((b.drop (i * (2 * w))).take (2 * w)) (by simp; omega)
  unfold leafStep
  rw [e]
  exact ⟨rfl, q⟩

theorem leafStep_abs (ok : WordOk T v) (θ : Theta) (hs i : Nat) (b data : Bytes) (l : Blk (St w)) (h : LeafAbs T v L θ hs i data l)
    (hθ : Valid w θ) (hl : data.length < 2 ^ 60) :
    LeafAbs T v L θ hs i (data ++ (b.drop (i * (2 * w))).take (2 * w)) (leafStep T b i l) := by
  have hw := ok.w2
  have hk := length_keyed (2 * w) θ.key data (by have := hθ.key; omega)
  obtain ⟨s', e, q⟩ := update_ok ok h ((b.drop (i * (2 * w))).take (2 * w)) (by simp; omega)
  unfold leafStep
  rw [e]
  unfold LeafAbs
  rw [keyed_append]
  exact q

/-- What is kept while absorbing. -/
def InvP (w : Nat) (L : Bool) (θ : Theta) (hs : Nat) (h : PSt w) : Prop := h.leaf.length = leaves w ∧ AllIdx (LeafSafe w L θ hs) 0 h.leaf

theorem InvP.step (ok : WordOk T v) {θ : Theta} {hs : Nat} {h : PSt w} (hi : InvP w L θ hs h) (b : Bytes) :
    InvP w L θ hs (stepP T b h) := by
  refine ⟨?_, ?_⟩
  · show (List.mapIdx _ _).length = _
    rw [List.length_mapIdx, hi.1]
  · exact hi.2.mapIdx (fun i a _ q => (leafStep_safe ok θ hs i b a q).2)

theorem foldBlocks_stepP (data : Bytes) (n : Nat) (h : PSt w) :
    foldBlocks 512 (fun _ => stepP T) data n h
      = { h with leaf := h.leaf.mapIdx fun i l => (List.range n).foldl (fun l blk => leafStep T (blockAt 512 blk data) i l) l } := by
  induction n with
  | zero =>
    have : h.leaf.mapIdx (fun _ l => l) = h.leaf := by
      apply List.ext_getElem?
      intro i
      rw [List.getElem?_mapIdx]
      cases h.leaf[i]? <;> rfl
    show h = { h with leaf := h.leaf.mapIdx fun _ l => l }
    rw [this]
  | succ n ih =>
    unfold foldBlocks at ih ⊢
    rw [List.range_succ, List.foldl_append, ih]
    show stepP T _ _ = _
    unfold stepP
    dsimp only
    congr 1
    rw [List.mapIdx_mapIdx]
    apply List.ext_getElem?
    intro i
    rw [List.getElem?_mapIdx, List.getElem?_mapIdx]
    congr 1
    funext l
    simp only [Function.comp, List.foldl_append, List.foldl_cons, List.foldl_nil]

theorem slice_group (data : Bytes) (blk a c : Nat) (h : a + c ≤ 512) :
    ((blockAt 512 blk data).drop a).take c = (data.drop (blk * 512 + a)).take c := by
  unfold blockAt
  rw [List.drop_take, List.take_take, List.drop_drop, Nat.min_eq_left (by omega)]

theorem leafBlocks_ok (ok : WordOk T v) (θ : Theta) (hs : Nat) (data : Bytes) (n : Nat) (hn : n * 512 ≤ data.length) (i : Nat)
    (hi : i < leaves w) (l : Blk (St w)) (h : LeafSafe w L θ hs i l) :
    Model.Blake2p.leafBlocks T data n i l
      = .ok ((List.range n).foldl (fun l blk => leafStep T (blockAt 512 blk data) i l) l) ∧
    LeafSafe w L θ hs i ((List.range n).foldl (fun l blk => leafStep T (blockAt 512 blk data) i l) l) := by
  have hw := ok.w2
  have hle := leaf_le (w := w) (by omega) hi
  induction n with
  | zero => exact ⟨rfl, h⟩
  | succ n ih =>
    have hn' : n * 512 + 512 ≤ data.length := by rw [Nat.add_mul, Nat.one_mul] at hn; exact hn
    obtain ⟨e, q⟩ := ih (Nat.le_trans (Nat.le_add_right _ _) hn')
    unfold Model.Blake2p.leafBlocks at e ⊢
    rw [List.range_succ, List.foldlM_append, e, ok_bind, List.foldl_append]
    simp only [List.foldlM_cons, List.foldlM_nil, List.foldl_cons, List.foldl_nil]
    rw [readBytes_ok _ _ _ (show n * 512 + i * (2 * w) + 2 * w ≤ data.length by
      generalize n * 512 = a at hn'
      omega), ok_bind, ← slice_group _ _ _ _ hle]
    obtain ⟨e', q'⟩ := leafStep_safe ok θ hs i (blockAt 512 n data) _ q
    rw [e']
    exact ⟨rfl, q'⟩

theorem isTransformP (ok : WordOk T v) (θ : Theta) (hs : Nat) :
    IsTransform 512 512 (InvP w L θ hs) (fun _ => stepP T) (Model.Blake2p.transform T) := by
  intro s data n i hn hm hi _
  refine ⟨s.m, hm, ?_⟩
  unfold Model.Blake2p.transform
  rw [forLeaves_eq hi.2 (g := fun i l => (List.range n).foldl (fun l blk => leafStep T (blockAt 512 blk data) i l) l)
    (fun i a _ h2 q => (leafBlocks_ok ok θ hs data n hn i (by rw [← hi.1]; omega) a q).1), ok_bind, foldBlocks_stepP]
  simp only [Nat.zero_add]
  rfl

/-- After `init`: nothing absorbed but the key, by the leaves. -/
structure Start (T : Word w) (v : Variant w) (L : Bool) (θ : Theta) (hs : Nat) (h : PSt w) : Prop where
  len : h.leaf.length = leaves w
  main : Abs T v θ hs (fo w L) (nd L) 0 (pMain w L θ (hs / 8)) (pre w L θ) h.main
  leaf : AllIdx (fun i l => LeafAbs T v L θ hs i [] l) 0 h.leaf
  hs : h.hs = hs

/-- `s` carries the parameters `θ` and has absorbed `msg`. -/
def RP (T : Word w) (v : Variant w) (hs : Nat) (L : Bool) (θ : Theta) (msg : Bytes) (s : Blk (PSt w)) : Prop :=
  Valid w θ ∧ ∃ h0, Start T v L θ hs h0 ∧ Buffered 512 0 512 (fun _ => stepP T) h0 msg s

theorem Start.inv (ok : WordOk T v) {θ : Theta} {hs : Nat} {h : PSt w} (h0 : Start T v L θ hs h) : InvP w L θ hs h :=
  ⟨h0.len, h0.leaf.imp (fun i a q => q.safe (by have := ok.w2; omega))⟩

theorem RP.update (ok : WordOk T v) {hs : Nat} {θ : Theta} {msg : Bytes} {s : Blk (PSt w)} (h : RP T v hs L θ msg s) (data : Bytes)
    (hd : data.length < 2 ^ 63) : ∃ s', Model.Blake2p.update T data s = .ok s' ∧ RP T v hs L θ (msg ++ data) s' := by
  obtain ⟨hθ, h0, hst, hb⟩ := h
  obtain ⟨s', e, q⟩ := absorbBytes_spec (by omega) (by omega) (by omega) (by omega) (isTransformP ok θ hs)
    (fun _ b h _ hi => hi.step ok b) (hst.inv ok) msg data s hb hd
  exact ⟨s', e, hθ, h0, hst, q⟩

/-- The parameter fields. -/
structure PPar (w : Nat) (L : Bool) (θ : Theta) (hs : Nat) (s : Blk (PSt w)) : Prop where
  mlen : s.m.length = 512
  len : s.h.leaf.length = leaves w
  main : s.h.main.m.length = 2 * w ∧ Par θ hs (fo w L) (nd L) 0 s.h.main.h
  leaf : AllIdx (fun i l => l.m.length = 2 * w ∧ Par θ hs (fo w L) 0 (no L i) l.h) 0 s.h.leaf
  hs : s.h.hs = hs

theorem fits_tree (hw : w = 32 ∨ w = 64) (θ : Theta) (hθ : Valid w θ) (n i depth : Nat) (hn : n ≤ w) (hi : i < 256) (hd : depth < 256) :
    Fits w (treeParams w θ n (leaves w) i depth) := by
  have hk := hθ.key
  have hP : leaves w < 256 := by rcases hw with rfl | rfl <;> decide
  exact ⟨show n < 256 by omega, show θ.key.length < 256 by omega, hP, show 2 < 256 by omega, show 0 < 2 ^ 32 by omega,
    show i < 2 ^ 32 by omega, show 0 < 2 ^ (w / 2) from Nat.two_pow_pos _, hd, show w < 256 by omega, hθ.salt, hθ.personal⟩

theorem leaves_cases (hw : w = 32 ∨ w = 64) : leaves w = 4 ∨ leaves w = 8 := by
  rcases hw with rfl | rfl
  · exact .inr rfl
  · exact .inl rfl

theorem fanout_ne (hw : w = 32 ∨ w = 64) : BitVec.ofNat 8 (leaves w) ≠ 0 := by
  rcases leaves_cases hw with h | h <;> rw [h] <;> decide

theorem initLost_ok (ok : WordOk T v) (hs : Nat) (hsz : hs / 8 ≤ w) (θ : Theta) (hθ : Valid w θ) (s : Blk (St w)) (hm : s.m.length = 2 * w)
    (hp : Par θ hs 0 0 0 s.h) :
    ∃ s', Model.Blake2.init T .hash s = .ok s' ∧
      Abs T v θ hs 0 0 0 (Spec.Blake2.seqParams θ (hs / 8) 0) (Spec.Blake2.keyed (2 * w) θ.key []) s' := by
  obtain ⟨s', e, r⟩ := init_ok ok .hash hs hsz θ hθ s hm hp
  exact ⟨s', e, r.2.2 (show (0 : Nat) < 2 ^ 60 by decide)⟩

theorem initMain_ok (ok : WordOk T v) (hs : Nat) (hsz : hs / 8 ≤ w) (θ : Theta) (hθ : Valid w θ) (s : Blk (St w)) (hm : s.m.length = 2 * w)
    (hp : Par θ hs (fo w L) (nd L) 0 s.h) :
    ∃ s', Model.Blake2.init T .hash s = .ok s' ∧ Abs T v θ hs (fo w L) (nd L) 0 (pMain w L θ (hs / 8)) (pre w L θ) s' := by
  have hw := ok.w2
  have hw' : w = 32 ∨ w = 64 := by omega
  cases L with
  | true => exact initLost_ok ok hs hsz θ hθ s hm hp
  | false =>
    have hi := initial_tree ok s.h θ (hs / 8) (leaves w) 0 1 (by rw [hp.hs]) hp.fo hp.no hp.nd (by rcases leaves_cases hw' with h | h <;> omega) hp.k hp.s hp.p
      (by omega) (fits_tree hw' θ hθ (hs / 8) 0 1 hsz (by omega) (by omega))
    unfold Model.Blake2.init
    dsimp only
    rw [hi, if_neg (by
      rintro (h | h)
      · exact fanout_ne hw' (hp.fo.symm.trans h)
      · exact absurd (hp.nd.symm.trans h) (by decide)), hp.reset]
    exact ⟨_, rfl, Buffered.start (bs := 2 * w) (z := 1) (msize := 2 * w) (step := step T) _ _ hm rfl rfl rfl⟩

theorem initLeaf_ok (ok : WordOk T v) (hs : Nat) (hsz : hs / 8 ≤ w) (θ : Theta) (hθ : Valid w θ) (i : Nat) (hi8 : i < leaves w) (s : Blk (St w))
    (hm : s.m.length = 2 * w) (hp : Par θ hs (fo w L) 0 (no L i) s.h) :
    ∃ s', Model.Blake2.init T .hash s = .ok s' ∧ LeafAbs T v L θ hs i [] s' := by
  have hw := ok.w2
  have hw' : w = 32 ∨ w = 64 := by omega
  have hl := leaves_cases hw'
  cases L with
  | true => exact initLost_ok ok hs hsz θ hθ s hm hp
  | false =>
    have hi := initial_tree ok s.h θ (hs / 8) (leaves w) i 0 (by rw [hp.hs]) hp.fo hp.no hp.nd (by omega) hp.k hp.s hp.p
      (by omega) (fits_tree hw' θ hθ (hs / 8) i 0 hsz (by omega) (by omega))
    unfold Model.Blake2.init
    dsimp only
    rw [hi, if_pos (.inr hp.nd), hp.reset]
    exact absorbKey_ok ok hθ (Buffered.start (bs := 2 * w) (z := 1) (msize := 2 * w) (step := step T) _ _ hm rfl rfl rfl)

theorem initP_ok (ok : WordOk T v) (hs : Nat) (hsz : hs / 8 ≤ w) (θ : Theta) (hθ : Valid w θ) (s : Blk (PSt w)) (h : PPar w L θ hs s) :
    ∃ s', Model.Blake2p.init T s = .ok s' ∧ RP T v hs L θ [] s' := by
  obtain ⟨main, e1, q1⟩ := initMain_ok ok hs hsz θ hθ s.h.main h.main.1 h.main.2
  obtain ⟨leaf, e2, l2, q2⟩ := forLeaves_ok (Q' := fun i l => LeafAbs T v L θ hs i [] l) (f := fun _ l => Model.Blake2.init T .hash l) h.leaf
    (fun i a _ h2 q => initLeaf_ok ok hs hsz θ hθ i (by rw [← h.len]; omega) a q.1 q.2)
  refine ⟨{ s with pos := 0, total := 0, h := { s.h with main := main, leaf := leaf } }, ?_, hθ, { s.h with main := main, leaf := leaf }, ?_, ?_⟩
  · unfold Model.Blake2p.init
    rw [e1, ok_bind, e2, ok_bind]
    rfl
  · exact ⟨by show leaf.length = _; rw [l2, h.len], q1, q2, h.hs⟩
  · exact Buffered.start _ _ h.mlen rfl rfl rfl

/-- The leaves after the complete groups. -/
theorem groups_ok (ok : WordOk T v) {θ : Theta} (hθ : Valid w θ) {hs : Nat} {h0 : PSt w} (hst : Start T v L θ hs h0) (msg : Bytes)
    (hl : msg.length < 2 ^ 60) (k : Nat) (hk : k * 512 ≤ msg.length) :
    AllIdx (fun i l => LeafAbs T v L θ hs i (groups (2 * w) (leaves w) i k msg) l) 0 (foldBlocks 512 (fun _ => stepP T) msg k h0).leaf := by
  have hw := ok.w2
  have hw' : w = 32 ∨ w = 64 := by omega
  rw [foldBlocks_stepP]
  refine AllIdx.mapIdx (Q' := fun i l => LeafAbs T v L θ hs i (groups (2 * w) (leaves w) i k msg) l) hst.leaf ?_
  intro i l hi q
  have hi' : i < leaves w := by rw [← hst.len]; exact hi
  have hle := leaf_le hw' hi'
  have hm := leaves_mul hw'
  induction k with
  | zero => exact q
  | succ k ih =>
    rw [List.range_succ, List.foldl_append, groups_succ]
    simp only [List.foldl_cons, List.foldl_nil]
    have hg := length_groups (2 * w) (leaves w) i k msg
    have h5 : k * (2 * w) ≤ k * 512 := Nat.mul_le_mul_left _ (by omega)
    have hk' : k * 512 + 512 ≤ msg.length := by rw [Nat.add_mul, Nat.one_mul] at hk; exact hk
    have := leafStep_abs ok θ hs i (blockAt 512 k msg) _ _ (ih (Nat.le_trans (Nat.le_add_right _ _) hk')) hθ (by omega)
    rw [slice_group _ _ _ _ hle] at this
    have e : blockAt (2 * w) (k * leaves w + i) msg = (msg.drop (k * 512 + i * (2 * w))).take (2 * w) := by
      unfold blockAt
      rw [Nat.add_mul, Nat.mul_assoc, hm]
    rw [e]
    exact this

/-- The digest of leaf `i`. -/
def leafDigest (v : Variant w) (L : Bool) (θ : Theta) (n : Nat) (msg : Bytes) (i : Nat) : Bytes :=
  Spec.Blake2.core v (pLeaf w L θ n i) (!L && decide (i + 1 = leaves w))
    (Spec.Blake2.keyed (2 * w) θ.key (Spec.Blake2.stripe (2 * w) (leaves w) i msg))

theorem flag_leaf (hw : w = 32 ∨ w = 64) (θ : Theta) (hs i : Nat) (hi : i < leaves w) (H : List (BitVec w)) :
    Model.Blake2.flag1 true (base H θ hs (fo w L) 0 (no L i) : St w) = flag w (!L && decide (i + 1 = leaves w)) := by
  cases L with
  | true => exact flag1_seq H θ hs 0 0
  | false =>
    have hl := leaves_cases hw
    have hc : ((BitVec.ofNat 8 i).toNat + 1 = (BitVec.ofNat 8 (leaves w)).toNat) ↔ i + 1 = leaves w := by
      rw [BitVec.toNat_ofNat, BitVec.toNat_ofNat, Nat.mod_eq_of_lt (by omega), Nat.mod_eq_of_lt (by omega)]
    unfold Model.Blake2.flag1
    rw [if_pos rfl]
    by_cases h : i + 1 = leaves w
    · rw [if_pos ⟨fanout_ne hw, .inl (hc.mpr h)⟩, decide_eq_true h]
      exact flag0_true
    · rw [if_neg (by
        rintro ⟨_, h1 | h1⟩
        · exact h (hc.mp h1)
        · exact h1 rfl), decide_eq_false h]
      rfl

theorem flag_main (hw : w = 32 ∨ w = 64) (θ : Theta) (hs : Nat) (H : List (BitVec w)) :
    Model.Blake2.flag1 true (base H θ hs (fo w L) (nd L) 0 : St w) = flag w (!L) := by
  cases L with
  | true => exact flag1_seq H θ hs 0 0
  | false =>
    unfold Model.Blake2.flag1
    rw [if_pos rfl, if_pos ⟨fanout_ne hw, .inr (by show ¬(1 : BitVec 8) = 0; decide)⟩]
    exact flag0_true

theorem leafRest_ok (ok : WordOk T v) {θ : Theta} (hθ : Valid w θ) {hs : Nat} (msg : Bytes) (hl : msg.length < 2 ^ 60) (k pos : Nat)
    (hk : k = msg.length / 512) (hpos : pos = msg.length - k * 512) (m : Bytes) (hm : m.length = 512)
    (hbuf : m.take pos = msg.drop (k * 512)) (i : Nat) (hi : i < leaves w) (l : Blk (St w))
    (h : LeafAbs T v L θ hs i (groups (2 * w) (leaves w) i k msg) l) :
    ∃ l', Model.Blake2p.leafRest T m pos i l = .ok l' ∧
      LeafAbs T v L θ hs i (Spec.Blake2.stripe (2 * w) (leaves w) i msg) l' := by
  have hw := ok.w2
  have hw' : w = 32 ∨ w = 64 := by omega
  have hle := leaf_le hw' hi
  have hmul := leaves_mul hw'
  have hg := length_groups (2 * w) (leaves w) i k msg
  have hk1 := Nat.div_mul_le_self msg.length 512
  have hk2 := Nat.lt_div_mul_add (show 0 < 512 by omega) (a := msg.length)
  rw [← hk] at hk1 hk2
  have h5 : k * (2 * w) ≤ k * 512 := Nat.mul_le_mul_left _ (by omega)
  have e := stripe_eq (2 * w) (leaves w) i (by omega) hi msg k (by rw [hmul]; exact hk)
  rw [hmul, ← hpos] at e
  rw [e]
  unfold Model.Blake2p.leafRest
  by_cases hc : i * (2 * w) < pos
  · rw [if_pos hc, if_pos hc]
    dsimp only
    obtain ⟨len, hlen⟩ : ∃ len, len = (if pos < i * (2 * w) + 2 * w then pos - i * (2 * w) else 2 * w) := ⟨_, rfl⟩
    rw [← hlen]
    have hlen' : len = min (2 * w) (pos - i * (2 * w)) := by
      rw [hlen]
      split <;> omega
    rw [readBytes_ok _ _ _ (by omega), ok_bind]
    have eb : (m.drop (i * (2 * w))).take len = blockAt (2 * w) (k * leaves w + i) msg := by
      unfold blockAt
      rw [Nat.add_mul, Nat.mul_assoc, hmul, ← List.drop_drop, ← hbuf, List.drop_take, List.take_take, ← hlen']
    rw [eb]
    have hb := length_blockAt_le (2 * w) (k * leaves w + i) msg
    have hkl := length_keyed (2 * w) θ.key (groups (2 * w) (leaves w) i k msg) (by have := hθ.key; omega)
    obtain ⟨l', e', q⟩ := update_ok ok h (blockAt (2 * w) (k * leaves w + i) msg) (by simp; omega)
    refine ⟨l', e', ?_⟩
    unfold LeafAbs
    rw [keyed_append]
    exact q
  · rw [if_neg hc, if_neg hc, List.append_nil]
    exact ⟨l, rfl, h⟩

theorem length_stripe (bs P i : Nat) (hbs : 0 < bs) (hi : i < P) (msg : Bytes) : (Spec.Blake2.stripe bs P i msg).length ≤ msg.length + bs := by
  rw [stripe_eq bs P i hbs hi msg _ rfl, List.length_append]
  have h1 := length_groups bs P i (msg.length / (P * bs)) msg
  have h2 := Nat.div_mul_le_self msg.length (P * bs)
  have h3 : msg.length / (P * bs) * bs ≤ msg.length / (P * bs) * (P * bs) := Nat.mul_le_mul_left _ (Nat.le_mul_of_pos_left _ (by omega))
  split
  · have := length_blockAt_le bs (msg.length / (P * bs) * P + i) msg
    omega
  · simp; omega

theorem length_digests (hw : w = 32 ∨ w = 64) (θ : Theta) (n : Nat) (msg : Bytes) (k : Nat) :
    ((List.range k).flatMap (leafDigest v L θ n msg)).length = k * w := by
  induction k with
  | zero => simp
  | succ k ih =>
    rw [List.range_succ, List.flatMap_append, List.length_append, List.flatMap_singleton, ih, Nat.add_mul, Nat.one_mul]
    congr 1
    exact length_core hw _ _ _

theorem finLeaves_ok (ok : WordOk T v) {θ : Theta} (hθ : Valid w θ) {hs : Nat} (msg : Bytes) (hl : msg.length < 2 ^ 60)
    (k pos : Nat) (hk : k = msg.length / 512) (hpos : pos = msg.length - k * 512) (m : Bytes) (hm : m.length = 512)
    (hbuf : m.take pos = msg.drop (k * 512)) (ls : List (Blk (St w))) :
    ∀ (i : Nat) (main : Blk (St w)), i + ls.length = leaves w →
    AllIdx (fun i l => LeafAbs T v L θ hs i (groups (2 * w) (leaves w) i k msg) l) i ls →
    Abs T v θ hs (fo w L) (nd L) 0 (pMain w L θ (hs / 8))
      (pre w L θ ++ (List.range i).flatMap (leafDigest v L θ (hs / 8) msg)) main →
    ∃ main', Model.Blake2p.finLeaves T m pos i ls main = .ok main' ∧
      Abs T v θ hs (fo w L) (nd L) 0 (pMain w L θ (hs / 8))
        (pre w L θ ++ (List.range (leaves w)).flatMap (leafDigest v L θ (hs / 8) msg)) main' := by
  have hw := ok.w2
  have hw' : w = 32 ∨ w = 64 := by omega
  have hlv := leaves_cases hw'
  induction ls with
  | nil =>
    intro i main hi _ h
    rw [List.length_nil, Nat.add_zero] at hi
    subst hi
    exact ⟨main, rfl, h⟩
  | cons l ls ih =>
    intro i main hi ha h
    rw [List.length_cons] at hi
    obtain ⟨l', e, q⟩ := leafRest_ok ok hθ msg hl k pos hk hpos m hm hbuf i (by omega) l ha.head
    have hsl := length_stripe (2 * w) (leaves w) i (by omega) (by omega) msg
    have hkl := length_keyed (2 * w) θ.key (Spec.Blake2.stripe (2 * w) (leaves w) i msg) (by have := hθ.key; omega)
    have e8 : (if 8 * w ≠ 0 then 8 * w else hs) / 8 = w := by rw [if_pos (by omega)]; omega
    have ef := final_ok ok q (by omega) (!L && decide (i + 1 = leaves w)) (fun H => flag_leaf hw' θ hs i (by omega) H) (8 * w) (by rw [e8]; exact Nat.le_refl _)
    rw [e8, List.take_of_length_le (by rw [length_core hw']; exact Nat.le_refl _)] at ef
    have hdl := length_digests (v := v) (L := L) hw' θ (hs / 8) msg i
    have hpre := length_pre (L := L) θ hθ
    have hcl : (leafDigest v L θ (hs / 8) msg i).length = w := length_core hw' _ _ _
    have h6 : i * w ≤ 8 * w := Nat.mul_le_mul_right _ (by omega)
    obtain ⟨main', em, qm⟩ := update_ok ok h (leafDigest v L θ (hs / 8) msg i) (by rw [List.length_append, List.length_append, hdl, hcl]; omega)
    have hr : pre w L θ ++ (List.range i).flatMap (leafDigest v L θ (hs / 8) msg) ++ leafDigest v L θ (hs / 8) msg i
        = pre w L θ ++ (List.range (i + 1)).flatMap (leafDigest v L θ (hs / 8) msg) := by
      rw [List.range_succ, List.flatMap_append, List.flatMap_singleton, List.append_assoc]
    rw [hr] at qm
    obtain ⟨main'', e'', q''⟩ := ih (i + 1) main' (by omega) ha.tail qm
    refine ⟨main'', ?_, q''⟩
    unfold Model.Blake2p.finLeaves
    rw [e, ok_bind, ef, ok_bind]
    show Model.Blake2.update T (leafDigest v L θ (hs / 8) msg i) main >>= _ = _
    rw [em, ok_bind, e'']

theorem finalP_ok (ok : WordOk T v) (keep : Bool) {hs : Nat} (hsz : hs / 8 ≤ w) {θ : Theta} {msg : Bytes} {s : Blk (PSt w)}
    (h : RP T v hs L θ msg s) (hl : msg.length < 2 ^ 60) :
    Model.Blake2p.final T s = .ok ((Spec.Blake2.pfnClr v (leaves w) keep (hs / 8)).digest (L, θ) msg) := by
  have hw := ok.w2
  have hw' : w = 32 ∨ w = 64 := by omega
  obtain ⟨hθ, h0, hst, hb⟩ := h
  have hk1 := Nat.div_mul_le_self msg.length 512
  have hk2 := Nat.lt_div_mul_add (show 0 < 512 by omega) (a := msg.length)
  have hg := groups_ok ok hθ hst msg hl (msg.length / 512) hk1
  obtain ⟨hh, m, pos, total⟩ := s
  have hml : m.length = 512 := hb.mlen
  have hpos : pos = msg.length - msg.length / 512 * 512 := hb.pos
  have hbuf : m.take pos = msg.drop (msg.length / 512 * 512) := hb.buf
  have hhe : hh = foldBlocks 512 (fun _ => stepP T) msg (msg.length / 512) h0 := hb.h
  have hmain : hh.main = h0.main := by rw [hhe, foldBlocks_stepP]
  have hleaf : hh.leaf.length = leaves w := by
    rw [hhe, foldBlocks_stepP]
    show (List.mapIdx _ _).length = _
    rw [List.length_mapIdx, hst.len]
  rw [← hhe] at hg
  have hz : zeroRest 512 m pos = .ok (m.take pos ++ List.replicate (512 - pos) 0) := by
    unfold zeroRest
    rw [if_pos (by omega), szSub_eq _ _ (by omega) (by unfold szMod; omega)]
    unfold memset
    rw [if_pos (by omega), List.drop_of_length_le (by omega), List.append_nil]
  obtain ⟨main', e, q⟩ := finLeaves_ok ok hθ msg hl (msg.length / 512) pos rfl hpos (m.take pos ++ List.replicate (512 - pos) 0)
    (by simp; omega) (by rw [List.take_left' (by simp; omega)]; exact hbuf) hh.leaf 0 hh.main (by omega) hg
    (by rw [hmain, List.range_zero, List.flatMap_nil, List.append_nil]; exact hst.main)
  unfold Model.Blake2p.final Model.Blake2p.finalize
  dsimp only
  rw [hz, ok_bind, e, ok_bind]
  have hlv := leaves_cases hw'
  have h6 : leaves w * w ≤ 8 * w := Nat.mul_le_mul_right _ (by omega)
  have hpre := length_pre (L := L) θ hθ
  have e' := final_ok ok q (by rw [List.length_append, length_digests hw']; omega) (!L) (fun H => flag_main hw' θ hs H) 0 hsz
  rw [e']
  cases L with
  | false => rfl
  | true =>
    show Except.ok (List.take _ (Spec.Blake2.core v _ _ (Spec.Blake2.keyed (2 * w) θ.key [] ++ _))) = _
    rw [← keyed_append, List.nil_append]
    rfl

theorem PPar.of (ok : WordOk T v) {hs : Nat} {θ : Theta} {msg : Bytes} {s : Blk (PSt w)} (h : RP T v hs L θ msg s) : PPar w L θ hs s := by
  have hw := ok.w2
  obtain ⟨hθ, h0, hst, hb⟩ := h
  obtain ⟨hh, m, pos, total⟩ := s
  have hhe : hh = foldBlocks 512 (fun _ => stepP T) msg (msg.length / 512) h0 := hb.h
  have hinv : InvP w L θ hs hh := by
    rw [hhe]
    exact foldBlocks_inv (inv := InvP w L θ hs) (fun _ b h _ hi => hi.step ok b) _ _ _ (Nat.div_mul_le_self _ _) (hst.inv ok)
  have hmain : hh.main = h0.main := by rw [hhe, foldBlocks_stepP]
  have hms := hst.main.safe (by omega)
  have hhs : hh.hs = h0.hs := by rw [hhe, foldBlocks_stepP]
  refine ⟨hb.mlen, hinv.1, ?_, hinv.2.imp (fun i a q => ⟨q.mlen, q.inv.par⟩), by show hh.hs = hs; rw [hhs, hst.hs]⟩
  show hh.main.m.length = _ ∧ Par _ _ _ _ _ hh.main.h
  rw [hmain]
  exact ⟨hms.mlen, hms.inv.par⟩

theorem setLeaves_ok (ok : WordOk T v) (keep : Bool) (p : Blake2Param) (hp : keep = true ∨ p ≠ .salt [] ∧ p ≠ .personalization [])
    (θ θ' : Theta) (hset : Spec.Blake2.set w keep p θ = some θ') (hθ : Valid w θ) {hs : Nat} {fo : BitVec 8} {no : Nat → BitVec 8} (ls : List (Blk (St w))) :
    ∀ k, AllIdx (fun i l => l.m.length = 2 * w ∧ Par θ hs fo 0 (no i) l.h) k ls →
    ∃ ls', Model.Blake2p.setLeaves T p ls = .ok (false, ls') ∧ ls'.length = ls.length ∧
      AllIdx (fun i l => l.m.length = 2 * w ∧ Par θ' hs fo 0 (no i) l.h) k ls' := by
  induction ls with
  | nil => exact fun k _ => ⟨[], rfl, rfl, AllIdx.nil⟩
  | cons l ls ih =>
    intro k h
    have h1 := set_ok ok keep p hp θ hθ l h.head.2
    rw [hset] at h1
    obtain ⟨_, h', hp', e⟩ := h1
    obtain ⟨ls', e', hl, q⟩ := ih (k + 1) h.tail
    refine ⟨{ l with h := h' } :: ls', ?_, by simp [hl], AllIdx.cons ⟨h.head.1, hp'⟩ q⟩
    unfold Model.Blake2p.setLeaves
    rw [e, ok_bind]
    dsimp only
    rw [if_neg (by decide), e', ok_bind]
    rfl

/-- **BLAKE2bp and BLAKE2sp** with the flag that tells whether the tree parameters are lost, as long as `reset(true)` is not called. -/
theorem refinesL (ok : WordOk T v) (keep : Bool) (hs : Nat) (hpos : 0 < hs / 8) (hmax : hs / 8 ≤ w) :
    HashRefines (Model.Blake2p.provider T) (Spec.Blake2.pfnClr v (leaves w) keep (hs / 8))
      ⟨fun _ m => m.length < 2 ^ 60, False, fun p => keep = true ∨ p ≠ .salt [] ∧ p ≠ .personalization [], fun _ => True⟩
      (fun x => RP T v hs x.1 x.2) := by
  have hw := ok.w2
  constructor
  · intro θ msg s h
    exact initP_ok ok hs hmax θ.2 h.1 s (PPar.of ok h)
  · intro θ msg s data h hd
    exact h.update ok data hd
  · intro θ msg s h hl
    exact finalP_ok ok keep hmax h hl
  · exact fun h => h.elim
  · intro θ msg s h
    show s.h.hs / 8 = _
    rw [(PPar.of ok h).hs]
    rfl
  · exact hpos
  · intro θ msg s _ _
    obtain ⟨L, θ⟩ := θ
    cases L <;>
    · show (List.take _ _).length = _
      rw [List.length_take, length_core (by omega)]
      exact Nat.min_eq_left hmax
  · intro θ msg s p h hp
    obtain ⟨L, θ⟩ := θ
    have hpar := PPar.of ok h
    have h1 := set_ok ok keep p hp θ h.1 s.h.main hpar.main.2
    have hfs : (Spec.Blake2.pfnClr v (leaves w) keep (hs / 8)).set p (L, θ) = (Spec.Blake2.set w keep p θ).map fun θ => (L, θ) := rfl
    rw [hfs]
    have hu : (Model.Blake2p.provider T).set = Model.Blake2p.set T := rfl
    rw [hu]
    cases hset : Spec.Blake2.set w keep p θ with
    | none =>
      rw [hset] at h1
      refine ⟨s, ?_, h⟩
      unfold Model.Blake2p.set
      have h1' : Model.Blake2.set T p s.h.main = .ok (true, s.h.main) := h1
      rw [h1', ok_bind]
      rfl
    | some θ' =>
      rw [hset] at h1
      obtain ⟨hθ', h', hp', e⟩ := h1
      obtain ⟨ls', e', hl, q⟩ := setLeaves_ok ok keep p hp θ θ' (no := no L) hset h.1 s.h.leaf 0 hpar.leaf
      have hq : PPar w L θ' hs { s with h := { s.h with main := { s.h.main with h := h' }, leaf := ls' } } :=
        ⟨hpar.mlen, by show ls'.length = _; rw [hl, hpar.len], ⟨hpar.main.1, hp'⟩, q, hpar.hs⟩
      obtain ⟨s', ei, r⟩ := initP_ok ok hs hmax θ' hθ' _ hq
      refine ⟨_, s', ?_, ei, r⟩
      unfold Model.Blake2p.set
      rw [e, ok_bind]
      dsimp only
      rw [if_neg (by decide), e', ok_bind]
      rfl

/-- **BLAKE2bp and BLAKE2sp**, as long as `reset(true)` is not called. -/
theorem refinesP (ok : WordOk T v) (keep : Bool) (hs : Nat) (hpos : 0 < hs / 8) (hmax : hs / 8 ≤ w) :
    HashRefines (Model.Blake2p.provider T) (Spec.Blake2.pfn v (leaves w) keep (hs / 8)) { cover keep with clr := False }
      (RP T v hs false) := by
  have h := refinesL ok keep hs hpos hmax
  constructor
  · exact fun θ msg s => h.init (false, θ) msg s
  · exact fun θ msg s => h.update (false, θ) msg s
  · exact fun θ msg s => h.final (false, θ) msg s
  · exact fun h => h.elim
  · exact fun θ msg s => h.size (false, θ) msg s
  · exact hpos
  · exact fun θ msg s => h.digest_length (false, θ) msg s
  · intro θ msg s p hr hp
    have h1 := h.set (false, θ) msg s p hr hp
    have hfs : (Spec.Blake2.pfnClr v (leaves w) keep (hs / 8)).set p (false, θ)
        = ((Spec.Blake2.pfn v (leaves w) keep (hs / 8)).set p θ).map fun θ => (false, θ) := rfl
    rw [hfs] at h1
    revert h1
    cases (Spec.Blake2.pfn v (leaves w) keep (hs / 8)).set p θ with
    | none => exact fun h => h
    | some θ' => exact fun h => h

/-- `clear` and `init`. -/
theorem clearP_ok (ok : WordOk T v) (hs : Nat) (hmax : hs / 8 ≤ w) {θ : Theta} {msg : Bytes} {s : Blk (PSt w)} (h : RP T v hs L θ msg s) :
    ∃ s1 s2, Model.Blake2p.clear s = .ok s1 ∧ Model.Blake2p.init T s1 = .ok s2 ∧ RP T v hs true (Theta.none w) [] s2 := by
  have hw := ok.w2
  have hz := words_none (w := w) (by omega)
  have hpar := PPar.of ok h
  obtain ⟨leaf, e, hl, q⟩ := forLeaves_ok
    (Q' := fun _ (l : Blk (St w)) => l.m.length = 2 * w ∧ Par (Theta.none w) hs 0 0 0 l.h)
    (f := fun _ l => Model.Blake2.clear l) hpar.leaf
    (fun i a _ _ q => ⟨_, rfl, by show (List.replicate _ _).length = _; rw [List.length_replicate]; exact q.1,
      hz.1.symm, hz.2.symm, rfl, q.2.hs, rfl, rfl, rfl⟩)
  have hq : PPar w true (Theta.none w) hs { s with
      m := zeroBytes s.m,
      h := { s.h with
        main := { s.h.main with
          h := { s.h.main.h with H := List.replicate 8 0, s := [0, 0], p := [0, 0], k := [], fanout := 0, nodedepth := 0, nodeoffset := 0 },
          m := zeroBytes s.h.main.m },
        leaf := leaf } } :=
    ⟨by show (List.replicate _ _).length = _; rw [List.length_replicate]; exact hpar.mlen,
     by show leaf.length = _; rw [hl, hpar.len],
     ⟨by show (List.replicate _ _).length = _; rw [List.length_replicate]; exact hpar.main.1,
       hz.1.symm, hz.2.symm, rfl, hpar.main.2.hs, rfl, rfl, rfl⟩, q, hpar.hs⟩
  obtain ⟨s', ei, r⟩ := initP_ok ok hs hmax _ (valid_none w) _ hq
  refine ⟨_, s', ?_, ei, r⟩
  unfold Model.Blake2p.clear
  show forLeaves _ 0 s.h.leaf >>= _ = _
  rw [e, ok_bind]
  rfl

/-- The constructors. -/
theorem fields_ok (ok : WordOk T v) (hs : Nat) (hmax : hs / 8 ≤ w) (mem : Blk (PSt w)) (hm : Model.Blake2p.Mem mem) :
    ∃ s s', Model.Blake2p.fields hs mem = .ok s ∧ Model.Blake2p.init T s = .ok s' ∧ RP T v hs false (Theta.none w) [] s' := by
  have hw := ok.w2
  have hz := words_none (w := w) (by omega)
  have hall : AllIdx (fun _ l => Model.Blake2.Mem l) 0 mem.h.leaf := fun i a e => hm.2.2.2 a (List.mem_of_getElem? e)
  obtain ⟨leaf, e, hl, q⟩ := forLeaves_ok
    (Q' := fun i (l : Blk (St w)) => l.m.length = 2 * w ∧ Par (Theta.none w) hs (fo w false) 0 (no false i) l.h)
    (f := fun p l => pure (Model.Blake2p.setTree (BitVec.ofNat 8 (leaves w)) 0 (BitVec.ofNat 8 p) (Model.Blake2.fields hs l))) hall
    (fun i a _ _ q => ⟨Model.Blake2p.setTree (fo w false) 0 (no false i) (Model.Blake2.fields hs a), rfl, q, hz.1.symm, hz.2.symm, rfl, rfl, rfl, rfl, rfl⟩)
  have hq : PPar w false (Theta.none w) hs
      { mem with h := ⟨Model.Blake2p.setTree (fo w false) (nd false) 0 (Model.Blake2.fields hs mem.h.main), leaf, hs⟩ } :=
    ⟨hm.1, by show leaf.length = _; rw [hl, hm.2.2.1], ⟨hm.2.1, hz.1.symm, hz.2.symm, rfl, rfl, rfl, rfl, rfl⟩, q, rfl⟩
  obtain ⟨s', ei, r⟩ := initP_ok ok hs hmax _ (valid_none w) _ hq
  refine ⟨_, s', ?_, ei, r⟩
  unfold Model.Blake2p.fields
  dsimp only
  rw [e, ok_bind]
  rfl

/-! ### Other orders -/

/-- In `sched`, every component below `P` has exactly `n` steps, and there are no others. -/
def ValidSchedule (P n : Nat) (sched : List Nat) : Prop := (∀ i ∈ sched, i < P) ∧ ∀ i < P, sched.count i = n

theorem runSchedule_ok {α : Type} (f : Nat → Nat → α → M α) (n : Nat) (b : List α) (sched : List Nat) :
    ∀ (st : List (Nat × α)), st.length = b.length → (∀ i ∈ sched, i < b.length) →
    (∀ i c a r, st[i]? = some (c, a) → b[i]? = some r →
      c + sched.count i = n ∧ (List.range' c (sched.count i)).foldlM (fun a k => f i k a) a = .ok r) →
    Model.Blake2p.runSchedule f sched st = .ok (b.map fun a => (n, a)) := by
  induction sched with
  | nil =>
    intro st hl _ h
    unfold Model.Blake2p.runSchedule
    show Except.ok st = _
    congr 1
    apply List.ext_getElem?
    intro i
    rw [List.getElem?_map]
    cases hb : b[i]? with
    | none =>
      rw [List.getElem?_eq_none_iff] at hb
      exact List.getElem?_eq_none_iff.mpr (by omega)
    | some r =>
      have hi : i < st.length := by rw [hl]; exact (List.getElem?_eq_some_iff.mp hb).1
      have hs : st[i]? = some (st[i].1, st[i].2) := List.getElem?_eq_getElem hi
      obtain ⟨h1, h2⟩ := h i _ _ r hs hb
      rw [List.count_nil] at h1 h2
      rw [hs]
      have h3 : st[i].2 = r := Except.ok.inj h2
      rw [h3, show st[i].1 = n by omega]
      rfl
  | cons i sched ih =>
    intro st hl hm h
    have hib : i < b.length := hm i (List.mem_cons_self)
    have his : i < st.length := by omega
    have hs : st[i]? = some (st[i].1, st[i].2) := List.getElem?_eq_getElem his
    have hb : b[i]? = some b[i] := List.getElem?_eq_getElem hib
    obtain ⟨h1, h2⟩ := h i _ _ _ hs hb
    rw [List.count_cons_self] at h1 h2
    rw [List.range'_succ, List.foldlM_cons] at h2
    unfold Model.Blake2p.runSchedule
    rw [hs]
    dsimp only
    cases hf : f i st[i].1 st[i].2 with
    | error e => rw [hf] at h2; cases h2
    | ok a' =>
      rw [hf, ok_bind] at h2
      rw [ok_bind]
      apply ih
      · rw [List.length_set, hl]
      · exact fun j hj => hm j (List.mem_cons_of_mem _ hj)
      · intro j c a r hj hr
        by_cases hji : i = j
        · subst hji
          rw [List.getElem?_set_self his] at hj
          cases hj
          rw [hb] at hr
          cases hr
          exact ⟨by omega, h2⟩
        · rw [List.getElem?_set_ne hji] at hj
          have := h j c a r hj hr
          rwa [List.count_cons_of_ne hji] at this

theorem forLeaves_inv {α : Type} (f : Nat → α → M α) (l : List α) :
    ∀ (k : Nat) (l' : List α), forLeaves f k l = .ok l' →
    l'.length = l.length ∧ ∀ i a r, l[i]? = some a → l'[i]? = some r → f (k + i) a = .ok r := by
  induction l with
  | nil =>
    intro k l' h
    cases h
    exact ⟨rfl, fun i a r h => by cases h⟩
  | cons x l ih =>
    intro k l' h
    unfold forLeaves at h
    cases hx : f k x with
    | error e => rw [hx] at h; cases h
    | ok x' =>
      rw [hx, ok_bind] at h
      cases hl : forLeaves f (k + 1) l with
      | error e => rw [hl] at h; cases h
      | ok l'' =>
        rw [hl, ok_bind] at h
        cases h
        obtain ⟨h1, h2⟩ := ih (k + 1) l'' hl
        refine ⟨by simp [h1], ?_⟩
        intro i a r ha hr
        cases i with
        | zero => cases ha; cases hr; exact hx
        | succ i =>
          have := h2 i a r ha hr
          rwa [show k + 1 + i = k + (i + 1) by omega] at this

theorem transformSchedule_ok (data : Bytes) (n : Nat) (s s' : Blk (PSt w)) (sched : List Nat)
    (hv : ValidSchedule s.h.leaf.length n sched) (h : Model.Blake2p.transform T data n s = .ok s') :
    Model.Blake2p.transformSchedule T sched data s = .ok s' := by
  unfold Model.Blake2p.transform at h
  cases hl : forLeaves (Model.Blake2p.leafBlocks T data n) 0 s.h.leaf with
  | error e => rw [hl] at h; cases h
  | ok leaf =>
    rw [hl, ok_bind] at h
    cases h
    obtain ⟨h1, h2⟩ := forLeaves_inv _ _ _ _ hl
    have hr := runSchedule_ok (Model.Blake2p.leafBlock T data) n leaf sched (s.h.leaf.map fun l => (0, l)) (by simp [h1])
      (fun i hi => by rw [h1]; exact hv.1 i hi)
      (by
        intro i c a r hi hr
        rw [List.getElem?_map] at hi
        cases hx : s.h.leaf[i]? with
        | none => rw [hx] at hi; cases hi
        | some x =>
          rw [hx] at hi
          cases hi
          have hil := (List.getElem?_eq_some_iff.mp hx).1
          refine ⟨by rw [Nat.zero_add]; exact hv.2 i hil, ?_⟩
          rw [hv.2 i hil]
          have := h2 i a r hx hr
          rw [Nat.zero_add] at this
          rw [← List.range_eq_range']
          exact this)
    unfold Model.Blake2p.transformSchedule
    rw [hr, ok_bind, List.map_map]
    have : (Prod.snd ∘ fun a : Blk (St w) => (n, a)) = id := rfl
    rw [this, List.map_id]
    rfl

theorem update_schedule (ok : WordOk T v) {hs : Nat} (scheduler : Bytes → Nat → Blk (PSt w) → List Nat)
    (hv : ∀ data n s, ValidSchedule (leaves w) n (scheduler data n s)) {θ : Theta} {msg : Bytes} {s : Blk (PSt w)}
    (hr : RP T v hs L θ msg s) (data : Bytes) (hd : data.length < 2 ^ 63) :
    ∃ s', (Model.Blake2p.providerSchedule T scheduler).update data s = .ok s' ∧ RP T v hs L θ (msg ++ data) s' := by
  obtain ⟨hθ, h0, hst, hb⟩ := hr
  have htr : IsTransform 512 512 (InvP w L θ hs) (fun _ => stepP T)
      (fun data n s => Model.Blake2p.transformSchedule T (scheduler data n s) data s) := by
    intro s data n i hn hm hi ht
    obtain ⟨m', hm', e⟩ := isTransformP ok θ hs s data n i hn hm hi ht
    exact ⟨m', hm', transformSchedule_ok data n s _ _ (by rw [hi.1]; exact hv data n s) e⟩
  obtain ⟨s', e, q⟩ := absorbBytes_spec (by omega) (by omega) (by omega) (by omega) htr
    (fun _ b h _ hi => hi.step ok b) (hst.inv ok) msg data s hb hd
  exact ⟨s', e, hθ, h0, hst, q⟩

/-- The providers with schedulers. -/
theorem refinesP_schedule (ok : WordOk T v) (keep : Bool) (hs : Nat) (hpos : 0 < hs / 8) (hmax : hs / 8 ≤ w)
    (scheduler : Bytes → Nat → Blk (PSt w) → List Nat) (hv : ∀ data n s, ValidSchedule (leaves w) n (scheduler data n s)) :
    HashRefines (Model.Blake2p.providerSchedule T scheduler) (Spec.Blake2.pfn v (leaves w) keep (hs / 8))
      { cover keep with clr := False } (RP T v hs false) :=
  have h := refinesP ok keep hs hpos hmax
  { init := h.init
    update := fun _ _ _ data hr hd => update_schedule ok scheduler hv hr data hd
    final := h.final
    clear := h.clear
    size := h.size
    size_pos := h.size_pos
    digest_length := h.digest_length
    set := h.set }

/-- The providers with schedulers, and the flag. -/
theorem refinesL_schedule (ok : WordOk T v) (keep : Bool) (hs : Nat) (hpos : 0 < hs / 8) (hmax : hs / 8 ≤ w)
    (scheduler : Bytes → Nat → Blk (PSt w) → List Nat) (hv : ∀ data n s, ValidSchedule (leaves w) n (scheduler data n s)) :
    HashRefines (Model.Blake2p.providerSchedule T scheduler) (Spec.Blake2.pfnClr v (leaves w) keep (hs / 8))
      ⟨fun _ m => m.length < 2 ^ 60, False, fun p => keep = true ∨ p ≠ .salt [] ∧ p ≠ .personalization [], fun _ => True⟩
      (fun x => RP T v hs x.1 x.2) :=
  have h := refinesL ok keep hs hpos hmax
  { init := h.init
    update := fun _ _ _ data hr hd => update_schedule ok scheduler hv hr data hd
    final := h.final
    clear := h.clear
    size := h.size
    size_pos := h.size_pos
    digest_length := h.digest_length
    set := h.set }

end Digestpp.Proofs.Blake2p
