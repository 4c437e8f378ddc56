import Verif.Proofs.Leak.TreeTwin

/-! BLAKE2sp and BLAKE2bp: the trace of a whole computation. -/

namespace Digestpp.Proofs.Leak
open Model Properties Model.Blake2p
open Model.Blake2 (Word St)
variable {w : Nat} {T : Word w} {ld : Bytes → Nat → L (BitVec w)}

/-- Two lists of the same length, with elements related at each place. -/
inductive Pairs {α β : Type} (R : α → β → Prop) : List α → List β → Prop
  | nil : Pairs R [] []
  | cons {a b l m} : R a b → Pairs R l m → Pairs R (a :: l) (b :: m)

theorem Pairs.of {α : Type} {R : α → α → Prop} {p : α → Prop} (h : ∀ a b, p a → p b → R a b) : ∀ (l m : List α), l.length = m.length → (∀ a ∈ l, p a) → (∀ b ∈ m, p b) → Pairs R l m
  | [], [], _, _, _ => .nil
  | [], _ :: _, e, _, _ => nomatch e
  | _ :: _, [], e, _, _ => nomatch e
  | a :: l, b :: m, e, hl, hm => .cons (h a b (hl a (List.mem_cons_self ..)) (hm b (List.mem_cons_self ..)))
      (Pairs.of h l m (Nat.succ.inj e) (fun x hx => hl x (List.mem_cons_of_mem _ hx)) fun x hx => hm x (List.mem_cons_of_mem _ hx))

theorem forLeaves_twin {α κ : Type} {R R' : α → α → Prop} {sz : κ → Prop} {f g : κ → Nat → α → L α} {f' g' : Nat → α → M α}
    (hf : ∀ k k' i a b, sz k → sz k' → R a b → Twin R' (f k i a) (f' i a) (g k' i b) (g' i b)) : ∀ (l m : List α) (k k' : Nat → κ) (i : Nat), Each sz k → Each sz k' → Pairs R l m →
      Twin (Pairs R') (Leak.Blake2p.forLeaves f k i l) (forLeaves f' i l) (Leak.Blake2p.forLeaves g k' i m) (forLeaves g' i m)
  | _, _, _, _, _, _, _, .nil => Twin.pure .nil
  | _, _, k, k', i, hk, hk', .cons r h =>
    Twin.bind (hf _ _ i _ _ (hk 0) (hk' 0) r) fun _ _ r => Twin.bind (forLeaves_twin hf _ _ _ _ (i + 1) (fun i => hk (i + 1)) (fun i => hk' (i + 1)) h) fun _ _ q => Twin.pure (.cons r q)

/-- The members of two objects that have absorbed the same number of bytes. -/
structure Blake2pRel (hs : Nat) (h h' : PSt w) : Prop where
  main : Blake2Same hs h.main h'.main
  leaf : Pairs (Blake2Same hs) h.leaf h'.leaf
  hs : h.hs = hs ∧ h'.hs = hs

theorem leafBlocks_twin (g : Safety.Blake2.Good T) (tr : Blake2Trace T ld) {hs : Nat} {data data' : Bytes} {n i : Nat} {k k' : Nat → Nat → Leak.Blake2.Stacks w} {l l' : Blk (St w)}
    (hk : Each (Each Blake2Sized) k) (hk' : Each (Each Blake2Sized) k') (h : Blake2Same hs l l') :
    Twin (Blake2Same hs) (Leak.Blake2p.leafBlocks T ld data n k i l) (leafBlocks T data n i l) (Leak.Blake2p.leafBlocks T ld data' n k' i l') (leafBlocks T data' n i l') := by
  have hw := g.w2
  refine Twin.loop (R := Blake2Same hs) (fun j _ a b r => ?_) l l' h
  refine Twin.bind (Twin.readBytes rfl rfl) fun c c' q => ?_
  exact blake2_update_twin g tr (hk j) (hk' j) (q.1.trans q.2.symm) (by rw [q.1]; omega) r

theorem blake2p_twin (g : Safety.Blake2.Good T) (tr : Blake2Trace T ld) (hs : Nat) : TwinTransformRel 512 512 (Blake2pRel hs) (Each (Each (Each Blake2Sized))) (Leak.Blake2p.transform T ld) (transform T) := by
  intro k k' data data' n s s' hk hk' hd hd' h
  have t := forLeaves_twin (R := Blake2Same hs) (R' := Blake2Same hs) (sz := Each (Each Blake2Sized)) (f := Leak.Blake2p.leafBlocks T ld data n) (g := Leak.Blake2p.leafBlocks T ld data' n)
    (f' := leafBlocks T data n) (g' := leafBlocks T data' n) (fun k k' i a b hk hk' r => leafBlocks_twin g tr hk hk' r) s.h.leaf s'.h.leaf k k' 0 hk hk' h.h.leaf
  unfold Leak.Blake2p.transform transform
  exact Twin.bind t fun x y r => Twin.pure ⟨h.pos, h.total, h.m, h.h.main, r, h.h.hs⟩

theorem blake2p_update_twin (g : Safety.Blake2.Good T) (tr : Blake2Trace T ld) {hs : Nat} {k k' : Nat → Nat → Nat → Nat → Leak.Blake2.Stacks w} {d d' : Bytes} {s s' : Blk (PSt w)}
    (hk : Each (Each (Each (Each Blake2Sized))) k) (hk' : Each (Each (Each (Each Blake2Sized))) k') (hd : d.length = d'.length) (hl : d.length < 2 ^ 63) (h : SameRel 512 (Blake2pRel hs) s s') :
    Twin (SameRel 512 (Blake2pRel hs)) (Leak.Blake2p.update T ld k d s) (update T d s) (Leak.Blake2p.update T ld k' d' s') (update T d' s') :=
  absorbBytes_twinRel (blake2p_twin g tr hs) (z := 0) (by decide) (by decide) (by decide) hk hk' hd hl h

/-- What the trace of `init` depends on. `fo`, `nd`: of the leaves; `fo'`, `nd'`: of the root. -/
abbrev _root_.Digestpp.Properties.Blake2pNew (hs kl : Nat) (fo nd fo' nd' : BitVec 8) (s : Blk (PSt w)) : Prop :=
  s.m.length = 512 ∧ Blake2New hs kl fo' nd' s.h.main ∧ (s.h.leaf.length = leaves w ∧ ∀ l ∈ s.h.leaf, Blake2New hs kl fo nd l) ∧ s.h.hs = hs

theorem blake2p_init_twin (g : Safety.Blake2.Good T) (tr : Blake2Trace T ld) {hs kl : Nat} (hkl : kl ≤ w) {fo nd fo' nd' : BitVec 8} {k k' : Nat → (Nat → Leak.Blake2.Stacks w) × Bytes} {s s' : Blk (PSt w)}
    (hk : Each (fun k => Each Blake2Sized k.1 ∧ k.2.length = 2 * w) k) (hk' : Each (fun k => Each Blake2Sized k.1 ∧ k.2.length = 2 * w) k') (h : Blake2pNew hs kl fo nd fo' nd' s) (h' : Blake2pNew hs kl fo nd fo' nd' s') :
    Twin (SameRel 512 (Blake2pRel hs)) (Leak.Blake2p.init T ld k s) (init T s) (Leak.Blake2p.init T ld k' s') (init T s') := by
  refine Twin.bind (blake2_init_twin g tr .hash hkl (hk 0) (hk' 0) h.2.1 h'.2.1) fun a b r => ?_
  refine Twin.bind (forLeaves_twin (R := fun a b => Blake2New hs kl fo nd a ∧ Blake2New hs kl fo nd b) (R' := Blake2Same hs) (sz := fun k : (Nat → Leak.Blake2.Stacks w) × Bytes => Each Blake2Sized k.1 ∧ k.2.length = 2 * w)
    (f := fun k _ l => Leak.Blake2.init T ld .hash k l) (g := fun k _ l => Leak.Blake2.init T ld .hash k l) (f' := fun _ l => Blake2.init T .hash l) (g' := fun _ l => Blake2.init T .hash l)
    (fun k k' i a b hk hk' r => blake2_init_twin g tr .hash hkl hk hk' r.1 r.2) _ _ _ _ 0 (fun i => hk (i + 1)) (fun i => hk' (i + 1))
    (Pairs.of (p := Blake2New hs kl fo nd) (fun _ _ a b => ⟨a, b⟩) _ _ (h.2.2.1.1.trans h'.2.2.1.1.symm) h.2.2.1.2 h'.2.2.1.2)) fun x y q => ?_
  exact Twin.pure ⟨rfl, rfl, ⟨h.1, h'.1⟩, r, q, h.2.2.2, h'.2.2.2⟩

theorem blake2_finalHash_twin (tr : Blake2Trace T ld) (ov : Nat) {hs : Nat} {k k' : Leak.Blake2.Stacks w} {s s' : Blk (St w)} (hk : Blake2Sized k) (hk' : Blake2Sized k') (h : Blake2Same hs s s') :
    Twin (Sz ((if ov ≠ 0 then ov else hs) / 8)) (Leak.Blake2.finalHash T ld ov k s) (Blake2.final T .hash ov s) (Leak.Blake2.finalHash T ld ov k' s') (Blake2.final T .hash ov s') := by
  obtain ⟨q, h⟩ := h
  have r : Same (2 * w) (Blake2St hs q) { s with total := s.total + BitVec.ofNat 64 (s.pos * 8) } { s' with total := s'.total + BitVec.ofNat 64 (s'.pos * 8) } :=
    ⟨h.pos, by show s.total + _ = s'.total + _; rw [h.pos, h.total], h.m, h.h, h.h'⟩
  have e : ∀ s : Blk (St w), Blake2.final T .hash ov s = (Blake2.lastBlock T { s with total := s.total + BitVec.ofNat 64 (s.pos * 8) } >>= fun t =>
      readBytes (T.stores t.h.H) 0 ((if ov ≠ 0 then ov else s.h.hs) / 8)) := fun _ => rfl
  rw [e, e]
  unfold Leak.Blake2.finalHash
  dsimp only
  rw [h.h.1.2.2, h.h'.1.2.2]
  exact Twin.bind (blake2_last_twin tr hk hk' r) fun a b ra => Twin.readBytes rfl rfl

theorem leafRest_twin (g : Safety.Blake2.Good T) (tr : Blake2Trace T ld) {hs : Nat} {k k' : Nat → Leak.Blake2.Stacks w} {m m' : Bytes} {pos i : Nat} {l l' : Blk (St w)} (hk : Each Blake2Sized k)
    (hk' : Each Blake2Sized k') (h : Blake2Same hs l l') :
    Twin (Blake2Same hs) (Leak.Blake2p.leafRest T ld k m pos i l) (leafRest T m pos i l) (Leak.Blake2p.leafRest T ld k' m' pos i l') (leafRest T m' pos i l') := by
  have hw := g.w2
  refine Twin.branch Iff.rfl (fun _ _ => ?_) fun _ _ => Twin.pure h
  refine Twin.skip (R := fun x y => x = y) (a := decide (pos < i * (2 * w) + 2 * w)) (b := decide (pos < i * (2 * w) + 2 * w)) (Twin.op fun _ _ e e' => Except.ok.inj (e.symm.trans e')) fun _ => ?_
  have e : (if decide (pos < i * (2 * w) + 2 * w) = true then pos - i * (2 * w) else 2 * w) = if pos < i * (2 * w) + 2 * w then pos - i * (2 * w) else 2 * w := by
    by_cases c : pos < i * (2 * w) + 2 * w
    · rw [decide_eq_true c, if_pos c]; rfl
    · rw [decide_eq_false c, if_neg c]; rfl
  dsimp only
  rw [e]
  have hl : (if pos < i * (2 * w) + 2 * w then pos - i * (2 * w) else 2 * w) ≤ 2 * w := by split <;> omega
  exact Twin.bind (Twin.readBytes rfl rfl) fun c c' q => blake2_update_twin g tr hk hk' (q.1.trans q.2.symm) (by rw [q.1]; omega) h

theorem finLeaves_twin (g : Safety.Blake2.Good T) (tr : Blake2Trace T ld) {hs : Nat} {m m' : Bytes} {pos : Nat} : ∀ (l l' : List (Blk (St w))) (k k' : Nat → Nat → Nat → Leak.Blake2.Stacks w) (i : Nat)
    (main main' : Blk (St w)), Each (Each (Each Blake2Sized)) k → Each (Each (Each Blake2Sized)) k' → Pairs (Blake2Same hs) l l' → Blake2Same hs main main' →
    Twin (Blake2Same hs) (Leak.Blake2p.finLeaves T ld m pos k i l main) (finLeaves T m pos i l main) (Leak.Blake2p.finLeaves T ld m' pos k' i l' main') (finLeaves T m' pos i l' main')
  | _, _, _, _, _, _, _, _, _, .nil, h => Twin.pure h
  | _, _, k, k', i, _, _, hk, hk', .cons r q, h => by
    have hw := g.w2
    refine Twin.bind (leafRest_twin g tr (hk 0 0) (hk' 0 0) r) fun a b r => ?_
    refine Twin.bind (blake2_finalHash_twin tr (8 * w) (hk 0 1 0) (hk' 0 1 0) r) fun c c' e => ?_
    refine Twin.bind (blake2_update_twin g tr (hk 0 2) (hk' 0 2) (e.1.trans e.2.symm) (by rw [e.1, if_pos (by omega)]; omega) h) fun x y r => ?_
    exact finLeaves_twin g tr _ _ _ _ (i + 1) _ _ (fun j => hk (j + 1)) (fun j => hk' (j + 1)) q r

theorem blake2p_final_twin (g : Safety.Blake2.Good T) (tr : Blake2Trace T ld) {hs : Nat} {k k' : Nat → Nat → Nat → Nat → Leak.Blake2.Stacks w} {s s' : Blk (PSt w)}
    (hk : Each (Each (Each (Each Blake2Sized))) k) (hk' : Each (Each (Each (Each Blake2Sized))) k') (h : SameRel 512 (Blake2pRel hs) s s') :
    Twin Any (Leak.Blake2p.final T ld k s) (final T s) (Leak.Blake2p.final T ld k' s') (final T s') := by
  have e : ∀ s : Blk (PSt w), final T s = (zeroRest 512 s.m s.pos >>= fun m => finLeaves T m s.pos 0 s.h.leaf s.h.main >>= fun main => Blake2.final T .hash 0 main) := by
    intro s
    show ((zeroRest 512 s.m s.pos >>= fun m => finLeaves T m s.pos 0 s.h.leaf s.h.main) >>= fun main => Blake2.final T .hash 0 main) = _
    cases zeroRest 512 s.m s.pos <;> rfl
  rw [e, e]
  refine Twin.bind (zeroRest_twin h.m h.pos) fun m m' rm => ?_
  rw [h.pos]
  refine Twin.bind (finLeaves_twin g tr _ _ _ _ 0 _ _ (hk 0) (hk' 0) h.h.leaf h.h.main) fun x y r => ?_
  exact (blake2_finalHash_twin tr 0 (hk 1 0 0 0) (hk' 1 0 0 0) r).mono fun _ _ _ _ _ => trivial

end Digestpp.Proofs.Leak
