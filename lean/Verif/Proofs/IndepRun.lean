import Verif.Proofs.Indep
import Verif.Proofs.Interface
import Verif.Proofs.GapLaws
import Verif.Spec.Forget

/-! From `HashTwin`, `XofTwin` to what a caller sees. -/

namespace Digestpp.Proofs.Indep
open Model

section
variable {S P : Type} {E0 E : S → S → Prop}

theorem absorbStream_keep {Q : S → Prop} {update : Bytes → S → M S} (h : ∀ d s, Q s → Post Q (update d s)) (rest : Bytes) (s : S)
    (hs : Q s) : Post Q (absorbStream update rest s) := by
  induction hn : rest.length using Nat.strongRecOn generalizing rest s with
  | ind n ih =>
    rw [absorbStream]
    split
    · exact Post.bind (h _ s hs) fun a ha => ih (rest.drop 65536).length (by rw [List.length_drop]; omega) _ a ha rfl
    · split
      · exact h _ s hs
      · exact Post.pure hs

theorem absorb_keep {Q : S → Prop} {update : Bytes → S → M S} (h : ∀ d s, Q s → Post Q (update d s)) (src : Source) (s : S)
    (hs : Q s) : Post Q (Model.absorb update src s) := by
  cases src with
  | ptr d => exact h d s hs
  | array d => exact h d s hs
  | str d =>
    show Post Q (if d.isEmpty then pure s else update d s)
    split
    · exact Post.pure hs
    · exact h d s hs
  | stream d => exact absorbStream_keep h d s hs
  | iter d => exact Post.foldlM d (fun b _ s hs => h [b] s hs) s hs

namespace HashTwo
variable {pr : HashProvider S P}

theorem step_keep (h : HashTwo pr E0 E) (op : HashOp P) (hop : op.isConfig = false) (s t : S) (hst : E0 s t) :
    Post (fun a => E0 a.2 t) (pr.step op s) := by
  cases op with
  | absorb src => exact Post.bind (absorb_keep (Q := fun s => E0 s t) (fun d s hs => h.keepUpdate d s t hs) src s hst) fun _ e => Post.pure e
  | digestBuf buf => exact Post.bind Post.any fun _ _ => Post.pure hst
  | digest => exact Post.bind Post.any fun _ _ => Post.pure hst
  | hexdigest => exact Post.bind Post.any fun _ _ => Post.pure hst
  | reset b =>
    change b = false at hop
    subst hop
    exact Post.bind (Post.bind (Q := fun s => E0 s t) (Post.pure hst) fun s e => h.keepInit s t e) fun _ e => Post.pure e
  | set p => cases hop

theorem step_config (h : HashTwo pr E0 E) (op : HashOp P) (hop : op.isConfig = true) (s t : S) (hst : E0 s t) :
    Agree (fun a b => E0 a.2 b.2) (pr.step op s) (pr.step op t) := by
  cases op with
  | reset b =>
    change b = true at hop
    subst hop
    exact Agree.bind (Agree.bind (h.clear s t hst) fun a b e => (h.init a b e).mono h.sub) fun _ _ e => Agree.pure e
  | set p =>
    refine Agree.bind (h.set0 p s t hst) fun a b hab => ?_
    obtain ⟨x, a⟩ := a
    obtain ⟨y, b⟩ := b
    obtain ⟨e, h2⟩ := hab
    dsimp only at e h2
    subst e
    dsimp only
    split
    · exact Agree.pure h2
    · exact Agree.bind (h.init a b h2) fun a b hab => Agree.pure (h.sub a b hab)
  | absorb src => cases hop
  | digestBuf buf => cases hop
  | digest => cases hop
  | hexdigest => cases hop

theorem run_config (h : HashTwo pr E0 E) (ops : List (HashOp P)) : ∀ s t, E0 s t →
    Agree (fun a b => E0 a.2 b.2) (pr.run ops s) (pr.run (ops.filter HashOp.isConfig) t) := by
  induction ops with
  | nil => exact fun s t hst => Agree.pure hst
  | cons op ops ih =>
    intro s t hst
    cases e : op.isConfig with
    | true =>
      rw [List.filter_cons_of_pos e]
      exact Agree.bind (h.step_config op e s t hst) fun a b hab => Agree.bind (ih a.2 b.2 hab) fun _ _ e => Agree.pure e
    | false =>
      rw [List.filter_cons_of_neg (by rw [e]; decide)]
      intro a b ha hb
      obtain ⟨q, h1, h2⟩ := bind_ok (x := pr.step op s) ha
      obtain ⟨r, h3, h4⟩ := bind_ok (x := pr.run ops q.2) h2
      cases h4
      exact ih q.2 t (h.step_keep op e s t hst q h1) r b h3 hb

theorem reset_agree (h : HashTwo pr E0 E) (c : Bool) (s t : S) (hst : E0 s t) :
    Agree (fun a b => E a.2 b.2) (pr.step (.reset c) s) (pr.step (.reset c) t) := by
  refine Agree.bind (E := E) ?_ fun _ _ e => Agree.pure e
  unfold HashProvider.reset
  cases c
  · exact Agree.bind (E := E0) (Agree.pure hst) h.init
  · exact Agree.bind (h.clear s t hst) h.init

/-- After a reset, only the calls that change the parameters matter. -/
theorem run_reset (h : HashTwo pr E0 E) (ops : List (HashOp P)) (c : Bool) (s t : S) (hst : E0 s t) :
    Agree (fun a b => E a.2 b.2) (pr.run (ops ++ [.reset c]) s) (pr.run (ops.filter HashOp.isConfig ++ [.reset c]) t) := by
  rw [prun_append, prun_append]
  refine Agree.bind (h.run_config ops s t hst) fun a b e => ?_
  refine Agree.bind (E := fun a b => E a.2 b.2) ?_ fun _ _ e => Agree.pure e
  exact Agree.bind (h.reset_agree c a.2 b.2 e) fun _ _ e => Agree.pure e

end HashTwo

namespace XofTwo
variable {pr : XofProvider S P}

theorem step_keep (h : XofTwo pr E0 E) (op : XofOp P) (hop : op.isConfig = false) (s t : S) (hst : E0 s t) :
    Post (fun a => E0 a.2 t) (pr.step op s) := by
  have hit : ∀ n, Post (fun a => E0 a.2 t) (pr.squeezeIt n s) := by
    intro n
    unfold XofProvider.squeezeIt
    dsimp only
    split
    · exact Post.error
    · exact Post.bind (h.keepSqueeze n s t hst) fun _ e => Post.bind Post.any fun _ _ => Post.pure e
  cases op with
  | absorb src => exact Post.bind (absorb_keep (Q := fun s => E0 s t) (fun d s hs => h.keepUpdate d s t hs) src s hst) fun _ e => Post.pure e
  | squeezeBuf buf => exact Post.bind (h.keepSqueeze _ s t hst) fun _ e => Post.bind Post.any fun _ _ => Post.pure e
  | squeeze n => exact Post.bind (hit n) fun _ e => Post.pure e
  | hexsqueeze n => exact Post.bind (hit n) fun _ e => Post.pure e
  | reset b =>
    change b = false at hop
    subst hop
    exact Post.bind (Post.bind (Q := fun s => E0 s t) (Post.pure hst) fun s e => h.keepInit s t e) fun _ e => Post.pure e
  | set p => cases hop

theorem step_config (h : XofTwo pr E0 E) (op : XofOp P) (hop : op.isConfig = true) (s t : S) (hst : E0 s t) :
    Agree (fun a b => E0 a.2 b.2) (pr.step op s) (pr.step op t) := by
  cases op with
  | reset b =>
    change b = true at hop
    subst hop
    exact Agree.bind (Agree.bind (h.clear s t hst) fun a b e => (h.init a b e).mono h.sub) fun _ _ e => Agree.pure e
  | set p =>
    refine Agree.bind (h.set0 p s t hst) fun a b hab => ?_
    obtain ⟨x, a⟩ := a
    obtain ⟨y, b⟩ := b
    obtain ⟨e, h2⟩ := hab
    dsimp only at e h2
    subst e
    dsimp only
    split
    · exact Agree.pure h2
    · exact Agree.bind (h.init a b h2) fun a b hab => Agree.pure (h.sub a b hab)
  | absorb src => cases hop
  | squeezeBuf buf => cases hop
  | squeeze n => cases hop
  | hexsqueeze n => cases hop

theorem run_config (h : XofTwo pr E0 E) (ops : List (XofOp P)) : ∀ s t, E0 s t →
    Agree (fun a b => E0 a.2 b.2) (pr.run ops s) (pr.run (ops.filter XofOp.isConfig) t) := by
  induction ops with
  | nil => exact fun s t hst => Agree.pure hst
  | cons op ops ih =>
    intro s t hst
    cases e : op.isConfig with
    | true =>
      rw [List.filter_cons_of_pos e]
      exact Agree.bind (h.step_config op e s t hst) fun a b hab => Agree.bind (ih a.2 b.2 hab) fun _ _ e => Agree.pure e
    | false =>
      rw [List.filter_cons_of_neg (by rw [e]; decide)]
      intro a b ha hb
      obtain ⟨q, h1, h2⟩ := bind_ok (x := pr.step op s) ha
      obtain ⟨r, h3, h4⟩ := bind_ok (x := pr.run ops q.2) h2
      cases h4
      exact ih q.2 t (h.step_keep op e s t hst q h1) r b h3 hb

theorem reset_agree (h : XofTwo pr E0 E) (c : Bool) (s t : S) (hst : E0 s t) :
    Agree (fun a b => E a.2 b.2) (pr.step (.reset c) s) (pr.step (.reset c) t) := by
  refine Agree.bind (E := E) ?_ fun _ _ e => Agree.pure e
  unfold XofProvider.reset
  cases c
  · exact Agree.bind (E := E0) (Agree.pure hst) h.init
  · exact Agree.bind (h.clear s t hst) h.init

/-- After a reset, only the calls that change the parameters matter. -/
theorem run_reset (h : XofTwo pr E0 E) (ops : List (XofOp P)) (c : Bool) (s t : S) (hst : E0 s t) :
    Agree (fun a b => E a.2 b.2) (pr.run (ops ++ [.reset c]) s) (pr.run (ops.filter XofOp.isConfig ++ [.reset c]) t) := by
  rw [xprun_append, xprun_append]
  refine Agree.bind (h.run_config ops s t hst) fun a b e => ?_
  refine Agree.bind (E := fun a b => E a.2 b.2) ?_ fun _ _ e => Agree.pure e
  exact Agree.bind (h.reset_agree c a.2 b.2 e) fun _ _ e => Agree.pure e

end XofTwo
end

/-- The history runs to the end on every memory. -/
def HashRuns (c : HashClass) (ops : List (HashOp c.P)) : Prop :=
  ∀ mem, c.Mem mem → ∃ s os s', c.construct mem = .ok (some s) ∧ c.pr.run ops s = .ok (os, s')

def XofRuns (c : XofClass) (ops : List (XofOp c.P)) : Prop :=
  ∀ mem, c.Mem mem → ∃ s os s', c.construct mem = .ok (some s) ∧ c.pr.run ops s = .ok (os, s')

theorem HashTwin.same' {c : HashClass} {E0 E : c.S → c.S → Prop} (h : HashTwin c E0 E) {a a' post : List (HashOp c.P)}
    (hA : ∀ mem mem' s t, c.Mem mem → c.Mem mem' → c.construct mem = .ok (some s) → c.construct mem' = .ok (some t) →
      Agree (fun x y => E x.2 y.2) (c.pr.run a s) (c.pr.run a' t)) (h1 : HashRuns c (a ++ post))
    (h2 : HashRuns c (a' ++ post)) : c.Same a a' post := by
  intro mem mem' hm hm'
  obtain ⟨s, os, s', e1, e2⟩ := h1 mem hm
  obtain ⟨t, ot, t', f1, f2⟩ := h2 mem' hm'
  have e3 := e2
  have f3 := f2
  rw [prun_append] at e2 f2
  obtain ⟨x, e4, e5⟩ := bind_ok e2
  obtain ⟨x', e6, e7⟩ := bind_ok e5
  obtain ⟨y, f4, f5⟩ := bind_ok f2
  obtain ⟨y', f6, f7⟩ := bind_ok f5
  have hxy := h.pr.run post x.2 y.2 (hA mem mem' s t hm hm' e1 f1 x y e4 f4) x' y' e6 f6
  have e8 : x.1 ++ x'.1 = os := congrArg Prod.fst (Except.ok.inj e7)
  have f8 : y.1 ++ y'.1 = ot := congrArg Prod.fst (Except.ok.inj f7)
  refine ⟨x'.1, prun_length c.pr _ _ _ e6, ?_, ?_⟩
  · unfold HashClass.after
    rw [trial_of e1 e3, ← e8]
    show some (List.drop _ (x.1 ++ x'.1)) = _
    rw [List.drop_left' (prun_length c.pr _ _ _ e4)]
  · unfold HashClass.after
    rw [trial_of f1 f3, ← f8]
    show some (List.drop _ (y.1 ++ y'.1)) = _
    rw [List.drop_left' (prun_length c.pr _ _ _ f4), hxy.1]

theorem HashTwin.same {c : HashClass} {E0 E : c.S → c.S → Prop} (h : HashTwin c E0 E) {a a' post : List (HashOp c.P)}
    (hA : ∀ s t, E s t → Agree (fun x y => E x.2 y.2) (c.pr.run a s) (c.pr.run a' t)) (h1 : HashRuns c (a ++ post))
    (h2 : HashRuns c (a' ++ post)) : c.Same a a' post :=
  h.same' (fun _ _ s t hm hm' e e' => hA s t (h.construct hm hm' _ _ e e')) h1 h2

theorem HashTwin.same_new {c : HashClass} {E0 E : c.S → c.S → Prop} (h : HashTwin c E0 E) {pre post : List (HashOp c.P)}
    (hn : ∀ op ∈ pre, op.isConfig = false) (h1 : HashRuns c (pre ++ [.reset false] ++ post)) (h2 : HashRuns c ([] ++ post)) :
    c.Same (pre ++ [.reset false]) [] post := by
  refine h.same' (fun mem mem' s t hm hm' e e' => ?_) h1 h2
  obtain ⟨s0, e1, e2⟩ := bind_ok (x := c.ctor mem) e
  obtain ⟨t0, f1, f2⟩ := bind_ok (x := c.ctor mem') e'
  have h0 := h.ctor mem mem' hm hm' _ _ e1 f1
  match s0, t0, h0 with
  | some s0, some t0, h0 =>
    obtain ⟨s1, e3, e4⟩ := bind_ok (x := c.pr.init s0) e2
    obtain ⟨t1, f3, f4⟩ := bind_ok (x := c.pr.init t0) f2
    cases e4
    cases f4
    have h3 : E0 s t0 := h.pr.keepInit s0 t0 h0 s e3
    rw [prun_append]
    intro x y hx hy
    obtain ⟨r, g1, g2⟩ := bind_ok hx
    obtain ⟨r', g3, g4⟩ := bind_ok g2
    cases g4
    cases hy
    have h4 := h.pr.run_config pre s t0 h3 r _ g1 (by
      rw [List.filter_eq_nil_iff.mpr fun op ho => by rw [hn op ho]; decide]
      rfl)
    obtain ⟨q, g5, g6⟩ := bind_ok (x := c.pr.step (.reset false) r.2) g3
    cases g6
    obtain ⟨q', g7, g8⟩ := bind_ok (x := c.pr.reset false r.2) g5
    cases g8
    obtain ⟨q'', g9, g10⟩ := bind_ok (x := (pure r.2 : M c.S)) g7
    cases g9
    exact h.pr.init _ _ h4 _ _ g10 f3

theorem xtrial_of {c : XofClass} {mem : c.S} {ops : List (XofOp c.P)} {s : c.S} {r : List Obs × c.S}
    (h1 : c.construct mem = .ok (some s)) (h2 : c.pr.run ops s = .ok r) : c.trial mem ops = some r.1 := by
  unfold XofClass.trial
  rw [h1]
  show (match ((c.pr.run ops s >>= fun r => pure (some r.1)) : M (Option (List Obs))) with
          | .ok r => r | .error _ => none) = _
  rw [h2]
  rfl

theorem XofTwin.same' {c : XofClass} {E0 E : c.S → c.S → Prop} (h : XofTwin c E0 E) {a a' post : List (XofOp c.P)}
    (hA : ∀ mem mem' s t, c.Mem mem → c.Mem mem' → c.construct mem = .ok (some s) → c.construct mem' = .ok (some t) →
      Agree (fun x y => E x.2 y.2) (c.pr.run a s) (c.pr.run a' t)) (h1 : XofRuns c (a ++ post))
    (h2 : XofRuns c (a' ++ post)) : c.Same a a' post := by
  intro mem mem' hm hm'
  obtain ⟨s, os, s', e1, e2⟩ := h1 mem hm
  obtain ⟨t, ot, t', f1, f2⟩ := h2 mem' hm'
  have e3 := e2
  have f3 := f2
  rw [xprun_append] at e2 f2
  obtain ⟨x, e4, e5⟩ := bind_ok e2
  obtain ⟨x', e6, e7⟩ := bind_ok e5
  obtain ⟨y, f4, f5⟩ := bind_ok f2
  obtain ⟨y', f6, f7⟩ := bind_ok f5
  have hxy := h.pr.run post x.2 y.2 (hA mem mem' s t hm hm' e1 f1 x y e4 f4) x' y' e6 f6
  have e8 : x.1 ++ x'.1 = os := congrArg Prod.fst (Except.ok.inj e7)
  have f8 : y.1 ++ y'.1 = ot := congrArg Prod.fst (Except.ok.inj f7)
  refine ⟨x'.1, xprun_length c.pr _ _ _ e6, ?_, ?_⟩
  · unfold XofClass.after
    rw [xtrial_of e1 e3, ← e8]
    show some (List.drop _ (x.1 ++ x'.1)) = _
    rw [List.drop_left' (xprun_length c.pr _ _ _ e4)]
  · unfold XofClass.after
    rw [xtrial_of f1 f3, ← f8]
    show some (List.drop _ (y.1 ++ y'.1)) = _
    rw [List.drop_left' (xprun_length c.pr _ _ _ f4), hxy.1]

theorem XofTwin.same {c : XofClass} {E0 E : c.S → c.S → Prop} (h : XofTwin c E0 E) {a a' post : List (XofOp c.P)}
    (hA : ∀ s t, E s t → Agree (fun x y => E x.2 y.2) (c.pr.run a s) (c.pr.run a' t)) (h1 : XofRuns c (a ++ post))
    (h2 : XofRuns c (a' ++ post)) : c.Same a a' post :=
  h.same' (fun _ _ s t hm hm' e e' => hA s t (h.construct hm hm' _ _ e e')) h1 h2

theorem XofTwin.same_new {c : XofClass} {E0 E : c.S → c.S → Prop} (h : XofTwin c E0 E) {pre post : List (XofOp c.P)}
    (hn : ∀ op ∈ pre, op.isConfig = false) (h1 : XofRuns c (pre ++ [.reset false] ++ post)) (h2 : XofRuns c ([] ++ post)) :
    c.Same (pre ++ [.reset false]) [] post := by
  refine h.same' (fun mem mem' s t hm hm' e e' => ?_) h1 h2
  obtain ⟨s0, e1, e2⟩ := bind_ok (x := c.ctor mem) e
  obtain ⟨t0, f1, f2⟩ := bind_ok (x := c.ctor mem') e'
  have h0 := h.ctor mem mem' hm hm' _ _ e1 f1
  match s0, t0, h0 with
  | some s0, some t0, h0 =>
    obtain ⟨s1, e3, e4⟩ := bind_ok (x := c.pr.init s0) e2
    obtain ⟨t1, f3, f4⟩ := bind_ok (x := c.pr.init t0) f2
    cases e4
    cases f4
    have h3 : E0 s t0 := h.pr.keepInit s0 t0 h0 s e3
    rw [xprun_append]
    intro x y hx hy
    obtain ⟨r, g1, g2⟩ := bind_ok hx
    obtain ⟨r', g3, g4⟩ := bind_ok g2
    cases g4
    cases hy
    have h4 := h.pr.run_config pre s t0 h3 r _ g1 (by
      rw [List.filter_eq_nil_iff.mpr fun op ho => by rw [hn op ho]; decide]
      rfl)
    obtain ⟨q, g5, g6⟩ := bind_ok (x := c.pr.step (.reset false) r.2) g3
    cases g6
    obtain ⟨q', g7, g8⟩ := bind_ok (x := c.pr.reset false r.2) g5
    cases g8
    obtain ⟨q'', g9, g10⟩ := bind_ok (x := (pure r.2 : M c.S)) g7
    cases g9
    exact h.pr.init _ _ h4 _ _ g10 f3

end Digestpp.Proofs.Indep
