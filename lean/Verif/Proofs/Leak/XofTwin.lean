import Verif.Model.Leak.Xof
import Verif.Proofs.Leak.HashTwin
import Verif.Proofs.Safety

/-! Computations that begin with `init` and end with `final` or with calls of `squeeze`: one trace. -/

namespace Digestpp.Proofs.Leak
open Model Properties Safety

/-- One trace for all, if any two have the same. -/
theorem SameTrace.ofTwin {ι α : Type} {ok : ι → Prop} {run : ι → L α} {model : ι → M α} (ht : ∀ i, ok i → ∃ a, model i = .ok a)
    (h : ∀ i j, ok i → ok j → Twin Any (run i) (model i) (run j) (model j)) : SameTrace ok run model := by
  by_cases hc : ∃ i, ok i
  · obtain ⟨i, hi⟩ := hc
    obtain ⟨a, ea⟩ := ht i hi
    obtain ⟨tr, e, _, _⟩ := h i i hi hi a a ea ea
    refine ⟨tr, fun j hj => ?_⟩
    obtain ⟨b, eb⟩ := ht j hj
    obtain ⟨tr', e1, e2, _⟩ := h i j hi hj a b ea eb
    cases Except.ok.inj (e.symm.trans e1)
    exact ⟨b, eb, e2⟩
  · exact ⟨[], fun i h => absurd ⟨i, h⟩ hc⟩

/-- A branch whose outcome is not used. -/
theorem Twin.seen {α β : Type} {R : α → β → Prop} {p q : Prop} [Decidable p] [Decidable q] {x : L α} {m : M α} {y : L β} {n : M β} (hpq : p ↔ q) (h : Twin R x m y n) :
    Twin R (Leak.branch (decide p) >>= fun _ => x) m (Leak.branch (decide q) >>= fun _ => y) n := by
  intro a b e1 e2
  obtain ⟨t, hx, hy, r⟩ := h a b e1 e2
  refine ⟨.branch (decide p) :: t, bind_ok (a := decide p) (t := [.branch (decide p)]) rfl hx, ?_, r⟩
  rw [show decide p = decide q from decide_eq_decide.2 hpq]
  exact bind_ok (a := decide q) (t := [.branch (decide q)]) rfl hy

end Digestpp.Proofs.Leak

namespace Digestpp.Properties
open Model

/-- A whole computation that begins with `init`: what the local arrays contain, the data of the calls of `absorb`, and the object. -/
structure Run (κ0 κ S : Type) where
  initLocals : κ0
  locals : Nat → κ
  chunks : List Bytes
  obj : S

/-- The bytes given by calls of `squeeze` one after the other. -/
def squeezes {S : Type} (squeeze : Nat → S → M (Bytes × S)) : List Nat → S → M Bytes
  | [], _ => pure []
  | n :: ns, s => do
    let r ← squeeze n s
    let b ← squeezes squeeze ns r.2
    pure (r.1 ++ b)

/-- All calls of a `hash` class, as in the model. -/
def hashRun {S P : Type} (pr : HashProvider S P) (ds : List Bytes) (s : S) : M Bytes := do
  let s ← pr.init s
  let s ← ds.foldlM (fun s d => pr.update d s) s
  pr.final s

/-- All calls of an extendable-output class, as in the model. -/
def xofRun {S P : Type} (pr : XofProvider S P) (ds : List Bytes) (ns : List Nat) (s : S) : M Bytes := do
  let s ← pr.init s
  let s ← ds.foldlM (fun s d => pr.update d s) s
  squeezes pr.squeeze ns s

end Digestpp.Properties

namespace Digestpp.Proofs.Leak
open Model Properties Safety
variable {S P κ κ0 : Type}

theorem foldlM_update_safe {I : S → Prop} {mu : Bytes → S → M S} (su : ∀ s d, I s → d.length < 2 ^ 63 → ∃ s', mu d s = .ok s' ∧ I s') :
    ∀ (ds : List Bytes) (s : S), (∀ d ∈ ds, d.length < 2 ^ 63) → I s → ∃ s', ds.foldlM (fun s d => mu d s) s = .ok s' ∧ I s' := by
  intro ds
  induction ds with
  | nil => exact fun s _ h => ⟨s, rfl, h⟩
  | cons d ds ih =>
    intro s hd h
    obtain ⟨s1, e1, i1⟩ := su s d h (hd d (List.mem_cons_self ..))
    obtain ⟨s2, e2, i2⟩ := ih s1 (fun x hx => hd x (List.mem_cons_of_mem _ hx)) i1
    exact ⟨s2, by rw [List.foldlM_cons, e1]; exact e2, i2⟩

theorem squeezes_safe {I : S → Prop} {mq : Nat → S → M (Bytes × S)} (sq : ∀ s n, I s → n < 2 ^ 61 → ∃ b s', mq n s = .ok (b, s') ∧ b.length = n ∧ I s') :
    ∀ (ns : List Nat) (s : S), (∀ n ∈ ns, n < 2 ^ 61) → I s → ∃ b, squeezes mq ns s = .ok b
  | [], _, _, _ => ⟨[], rfl⟩
  | n :: ns, s, hn, h => by
    obtain ⟨b, s1, e1, _, i1⟩ := sq s n h (hn n (List.mem_cons_self ..))
    obtain ⟨c, e2⟩ := squeezes_safe sq ns s1 (fun x hx => hn x (List.mem_cons_of_mem _ hx)) i1
    exact ⟨b ++ c, by unfold squeezes; rw [e1]; show (squeezes mq ns s1 >>= fun c => pure (b ++ c)) = _; rw [e2]; rfl⟩

theorem outputs_twin {R : S → S → Prop} {sz : κ → Prop} {lq : κ → Nat → S → L (Bytes × S)} {mq : Nat → S → M (Bytes × S)}
    (hq : ∀ k k' n s s', sz k → sz k' → R s s' → Twin (fun x y : Bytes × S => R x.2 y.2) (lq k n s) (mq n s) (lq k' n s') (mq n s')) :
    ∀ (ns : List Nat) (k k' : Nat → κ) (s s' : S), (∀ i, sz (k i)) → (∀ i, sz (k' i)) → R s s' →
      Twin Any (Leak.outputs lq k ns s) (squeezes mq ns s) (Leak.outputs lq k' ns s') (squeezes mq ns s')
  | [], _, _, _, _, _, _, _ => Twin.pure trivial
  | n :: ns, k, k', s, s', hk, hk', h => Twin.bind (hq (k 0) (k' 0) n s s' (hk 0) (hk' 0) h) fun a b r =>
      Twin.bind (outputs_twin hq ns _ _ a.2 b.2 (fun i => hk (i + 1)) (fun i => hk' (i + 1)) r) fun _ _ _ => Twin.pure trivial

theorem hashInit_same_trace {pr : HashProvider S P} {I0 I : S → Prop} (si : ∀ s, I0 s → ∃ s', pr.init s = .ok s' ∧ I s')
    (su : ∀ s d, I s → d.length < 2 ^ 63 → ∃ s', pr.update d s = .ok s' ∧ I s') (sf : ∀ s, I s → ∃ b, pr.final s = .ok b) {R0 R : S → S → Prop} {sz0 : κ0 → Prop} {sz : κ → Prop}
    {li : κ0 → S → L S} {lu : κ → Bytes → S → L S} {lf : κ → S → L Bytes}
    (hi : ∀ k k' s s', sz0 k → sz0 k' → R0 s s' → Twin R (li k s) (pr.init s) (li k' s') (pr.init s'))
    (hu : ∀ k k' d d' s s', sz k → sz k' → d.length = d'.length → d.length < 2 ^ 63 → R s s' → Twin R (lu k d s) (pr.update d s) (lu k' d' s') (pr.update d' s'))
    (hf : ∀ k k' s s', sz k → sz k' → R s s' → Twin Any (lf k s) (pr.final s) (lf k' s') (pr.final s'))
    {ok : S → Prop} (hI : ∀ s, ok s → I0 s) (hR : ∀ s s', ok s → ok s' → R0 s s') (ls : List Nat) (hl : ∀ n ∈ ls, n < 2 ^ 63) :
    SameTrace (fun c : Run κ0 κ S => sz0 c.initLocals ∧ Each sz c.locals ∧ c.chunks.map List.length = ls ∧ ok c.obj)
      (fun c => Leak.hashInit li lu lf c.initLocals c.locals c.chunks c.obj) (fun c => hashRun pr c.chunks c.obj) := by
  have len : ∀ ds : List Bytes, ds.map List.length = ls → ∀ d ∈ ds, d.length < 2 ^ 63 := fun ds e d hd => hl _ (e ▸ List.mem_map_of_mem hd)
  refine SameTrace.ofTwin (fun c ⟨_, _, e, o⟩ => ?_) fun c c' ⟨k0, k, e, o⟩ ⟨k0', k', e', o'⟩ => ?_
  · obtain ⟨s1, e1, i1⟩ := si c.obj (hI _ o)
    obtain ⟨s2, e2, i2⟩ := foldlM_update_safe su c.chunks s1 (len _ e) i1
    obtain ⟨b, e3⟩ := sf s2 i2
    exact ⟨b, by unfold hashRun; rw [e1, ok_bind, e2]; exact e3⟩
  · exact Twin.bind (hi _ _ c.obj c'.obj k0 k0' (hR _ _ o o')) fun s s' r =>
      Twin.bind (updates_twin hu c.chunks c'.chunks _ _ s s' (fun i => k (2 * i)) (fun i => k' (2 * i)) (e.trans e'.symm) (len _ e) r) fun s s' r => hf _ _ s s' (k 1) (k' 1) r

theorem xofInit_same_trace [Param P] {pr : XofProvider S P} {I0 I : S → Prop} (safe : XofSafe pr I0 I) {R0 R : S → S → Prop} {sz0 : κ0 → Prop} {sz : κ → Prop}
    {li : κ0 → S → L S} {lu : κ → Bytes → S → L S} {lq : κ → Nat → S → L (Bytes × S)}
    (hi : ∀ k k' s s', sz0 k → sz0 k' → R0 s s' → Twin R (li k s) (pr.init s) (li k' s') (pr.init s'))
    (hu : ∀ k k' d d' s s', sz k → sz k' → d.length = d'.length → d.length < 2 ^ 63 → R s s' → Twin R (lu k d s) (pr.update d s) (lu k' d' s') (pr.update d' s'))
    (hq : ∀ k k' n s s', sz k → sz k' → R s s' → Twin (fun x y : Bytes × S => R x.2 y.2) (lq k n s) (pr.squeeze n s) (lq k' n s') (pr.squeeze n s'))
    {ok : S → Prop} (hI : ∀ s, ok s → I0 s) (hR : ∀ s s', ok s → ok s' → R0 s s') (ls : List Nat) (hl : ∀ n ∈ ls, n < 2 ^ 63) (ns : List Nat) (hn : ∀ n ∈ ns, n < 2 ^ 61) :
    SameTrace (fun c : Run κ0 κ S => sz0 c.initLocals ∧ Each sz c.locals ∧ c.chunks.map List.length = ls ∧ ok c.obj)
      (fun c => Leak.xofInit li lu lq c.initLocals c.locals c.chunks ns c.obj) (fun c => xofRun pr c.chunks ns c.obj) := by
  have len : ∀ ds : List Bytes, ds.map List.length = ls → ∀ d ∈ ds, d.length < 2 ^ 63 := fun ds e d hd => hl _ (e ▸ List.mem_map_of_mem hd)
  refine SameTrace.ofTwin (fun c ⟨_, _, e, o⟩ => ?_) fun c c' ⟨k0, k, e, o⟩ ⟨k0', k', e', o'⟩ => ?_
  · obtain ⟨s1, e1, i1⟩ := safe.init c.obj (hI _ o)
    obtain ⟨s2, e2, i2⟩ := foldlM_update_safe safe.update c.chunks s1 (len _ e) i1
    obtain ⟨b, e3⟩ := squeezes_safe safe.squeeze ns s2 hn i2
    exact ⟨b, by unfold xofRun; rw [e1, ok_bind, e2]; exact e3⟩
  · exact Twin.bind (hi _ _ c.obj c'.obj k0 k0' (hR _ _ o o')) fun s s' r =>
      Twin.bind (updates_twin hu c.chunks c'.chunks _ _ s s' (fun i => k (2 * i)) (fun i => k' (2 * i)) (e.trans e'.symm) (len _ e) r) fun s s' r =>
        outputs_twin hq ns _ _ s s' (fun i => k (2 * i + 1)) (fun i => k' (2 * i + 1)) r

end Digestpp.Proofs.Leak
