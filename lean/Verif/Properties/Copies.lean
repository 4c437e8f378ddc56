import Verif.Model.Hasher
import Verif.Model.Md5
import Verif.Model.Sha1

/-! C44: two objects do not influence each other, and a copy is an object of its own.

Objects are values in the model. That is what the C++ is: no provider has a pointer, reference or `static` mutable member; all data is in
arrays, integers and `std::string` / `std::vector` / `std::array` members, which copy their contents. -/

namespace Digestpp.Properties
open Model

/-- A history of calls on an object whose calls have the effect `step`. -/
def runWith {Op S : Type} (step : Op → S → M (Obs × S)) : List Op → S → M (List Obs × S)
  | [], s => pure ([], s)
  | op :: ops, s => do
    let (o, s) ← step op s
    let (os, s) ← runWith step ops s
    pure (o :: os, s)

/-- Calls on two objects in any order: `inl` calls on the first, `inr` calls on the second. -/
def runBoth {Op Op' S S' : Type} (step : Op → S → M (Obs × S)) (step' : Op' → S' → M (Obs × S')) :
    List (Op ⊕ Op') → S × S' → M (List (Obs ⊕ Obs) × (S × S'))
  | [], s => pure ([], s)
  | .inl op :: ops, s => do
    let (o, t) ← step op s.1
    let (os, r) ← runBoth step step' ops (t, s.2)
    pure (.inl o :: os, r)
  | .inr op :: ops, s => do
    let (o, t) ← step' op s.2
    let (os, r) ← runBoth step step' ops (s.1, t)
    pure (.inr o :: os, r)

/-- What concerns the first object. -/
def firsts {α β : Type} (l : List (α ⊕ β)) : List α := l.filterMap Sum.getLeft?

/-- What concerns the second object. -/
def seconds {α β : Type} (l : List (α ⊕ β)) : List β := l.filterMap Sum.getRight?

theorem hash_run_eq {S P : Type} (pr : HashProvider S P) : pr.run = runWith pr.step := by
  funext ops
  induction ops with
  | nil => rfl
  | cons op ops ih => funext s; simp only [HashProvider.run, runWith, ih]

theorem xof_run_eq {S P : Type} (pr : XofProvider S P) : pr.run = runWith pr.step := by
  funext ops
  induction ops with
  | nil => rfl
  | cons op ops ih => funext s; simp only [XofProvider.run, runWith, ih]

/-- **C44.** If the calls on two objects, interleaved in any way, are defined, then the separate calls on each are, and each object shows what
it shows on its own. -/
theorem interleave {Op Op' S S' : Type} (step : Op → S → M (Obs × S)) (step' : Op' → S' → M (Obs × S')) (ops : List (Op ⊕ Op')) :
    ∀ (s : S) (s' : S') (os : List (Obs ⊕ Obs)) (t : S) (t' : S'), runBoth step step' ops (s, s') = .ok (os, t, t') →
      runWith step (firsts ops) s = .ok (firsts os, t) ∧ runWith step' (seconds ops) s' = .ok (seconds os, t') ∧
      os.map Sum.isLeft = ops.map Sum.isLeft := by
  induction ops with
  | nil => intro s s' os t t' h; cases h; exact ⟨rfl, rfl, rfl⟩
  | cons op ops ih =>
    intro s s' os t t' h
    cases op with
    | inl op =>
      cases h1 : step op s with
      | error e => simp [runBoth, h1, bind, Except.bind] at h
      | ok r =>
        cases h2 : runBoth step step' ops (r.2, s') with
        | error e => simp [runBoth, h1, h2, bind, Except.bind] at h
        | ok q =>
          obtain ⟨qs, u, u'⟩ := q
          simp only [runBoth, h1, h2, bind, Except.bind, pure, Except.pure, Except.ok.injEq, Prod.mk.injEq] at h
          obtain ⟨h3, h4, h5⟩ := h
          subst h3 h4 h5
          obtain ⟨i1, i2, i3⟩ := ih _ _ _ _ _ h2
          refine ⟨?_, i2, ?_⟩
          · show runWith step (op :: firsts ops) s = .ok (r.1 :: firsts qs, u)
            simp only [runWith, h1, i1, bind, Except.bind, pure, Except.pure]
          · rw [List.map_cons, List.map_cons, i3]; rfl
    | inr op =>
      cases h1 : step' op s' with
      | error e => simp [runBoth, h1, bind, Except.bind] at h
      | ok r =>
        cases h2 : runBoth step step' ops (s, r.2) with
        | error e => simp [runBoth, h1, h2, bind, Except.bind] at h
        | ok q =>
          obtain ⟨qs, u, u'⟩ := q
          simp only [runBoth, h1, h2, bind, Except.bind, pure, Except.pure, Except.ok.injEq, Prod.mk.injEq] at h
          obtain ⟨h3, h4, h5⟩ := h
          subst h3 h4 h5
          obtain ⟨i1, i2, i3⟩ := ih _ _ _ _ _ h2
          refine ⟨i1, ?_, ?_⟩
          · show runWith step' (op :: seconds ops) s' = .ok (r.1 :: seconds qs, u')
            simp only [runWith, h1, i2, bind, Except.bind, pure, Except.pure]
          · rw [List.map_cons, List.map_cons, i3]; rfl

/-- **C44.** And if the separate calls are defined, so are the interleaved ones. -/
theorem interleave_defined {Op Op' S S' : Type} (step : Op → S → M (Obs × S)) (step' : Op' → S' → M (Obs × S'))
    (ops : List (Op ⊕ Op')) : ∀ (s : S) (s' : S') (r : List Obs × S) (r' : List Obs × S'), runWith step (firsts ops) s = .ok r →
      runWith step' (seconds ops) s' = .ok r' → ∃ os, runBoth step step' ops (s, s') = .ok (os, r.2, r'.2) := by
  induction ops with
  | nil => intro s s' r r' h h'; cases h; cases h'; exact ⟨[], rfl⟩
  | cons op ops ih =>
    intro s s' r r' h h'
    cases op with
    | inl op =>
      have h : runWith step (op :: firsts ops) s = .ok r := h
      have h' : runWith step' (seconds ops) s' = .ok r' := h'
      cases h1 : step op s with
      | error e => simp [runWith, h1, bind, Except.bind] at h
      | ok q =>
        cases h2 : runWith step (firsts ops) q.2 with
        | error e => simp [runWith, h1, h2, bind, Except.bind] at h
        | ok p =>
          simp only [runWith, h1, h2, bind, Except.bind, pure, Except.pure, Except.ok.injEq] at h
          subst h
          obtain ⟨os, ho⟩ := ih _ _ _ _ h2 h'
          exact ⟨.inl q.1 :: os, by simp only [runBoth, h1, ho, bind, Except.bind, pure, Except.pure]⟩
    | inr op =>
      have h : runWith step (firsts ops) s = .ok r := h
      have h' : runWith step' (op :: seconds ops) s' = .ok r' := h'
      cases h1 : step' op s' with
      | error e => simp [runWith, h1, bind, Except.bind] at h'
      | ok q =>
        cases h2 : runWith step' (seconds ops) q.2 with
        | error e => simp [runWith, h1, h2, bind, Except.bind] at h'
        | ok p =>
          simp only [runWith, h1, h2, bind, Except.bind, pure, Except.pure, Except.ok.injEq] at h'
          subst h'
          obtain ⟨os, ho⟩ := ih _ _ _ _ h h2
          exact ⟨.inr q.1 :: os, by simp only [runBoth, h1, ho, bind, Except.bind, pure, Except.pure]⟩

/-- Two histories one after the other. -/
theorem runWith_append {Op S : Type} (step : Op → S → M (Obs × S)) (b : List Op) : ∀ (a : List Op) (s : S) (r r' : List Obs × S),
    runWith step a s = .ok r → runWith step b r.2 = .ok r' → runWith step (a ++ b) s = .ok (r.1 ++ r'.1, r'.2) := by
  intro a
  induction a with
  | nil => intro s r r' h h'; cases h; exact h'
  | cons op a ih =>
    intro s r r' h h'
    cases h1 : step op s with
    | error e => simp [runWith, h1, bind, Except.bind] at h
    | ok q =>
      cases h2 : runWith step a q.2 with
      | error e => simp [runWith, h1, h2, bind, Except.bind] at h
      | ok p =>
        simp only [runWith, h1, h2, bind, Except.bind, pure, Except.pure, Except.ok.injEq] at h
        subst h
        show runWith step (op :: (a ++ b)) s = _
        simp only [runWith, h1, ih _ _ _ h2 h', bind, Except.bind, pure, Except.pure]
        rfl

/-- **C44.** An object is copied after the calls `pre`; the calls `ops` are made on the original and the copy in any order. Then the original
shows what an object shows on which `pre` and the calls on the original are made, and the copy what an object shows on which `pre` and the
calls on the copy are made. -/
theorem copies_independent {S P : Type} (pr : HashProvider S P) (pre : List (HashOp P)) (ops : List (HashOp P ⊕ HashOp P)) (s : S)
    (r : List Obs × S) (hr : pr.run pre s = .ok r) (os : List (Obs ⊕ Obs)) (t t' : S)
    (h : runBoth pr.step pr.step ops (r.2, r.2) = .ok (os, t, t')) :
    pr.run (pre ++ firsts ops) s = .ok (r.1 ++ firsts os, t) ∧ pr.run (pre ++ seconds ops) s = .ok (r.1 ++ seconds os, t') := by
  obtain ⟨h1, h2, _⟩ := interleave pr.step pr.step ops _ _ _ _ _ h
  rw [hash_run_eq] at hr ⊢
  exact ⟨runWith_append _ _ _ _ _ _ hr h1, runWith_append _ _ _ _ _ _ hr h2⟩

/-- **C44** for extendable output functions. -/
theorem xof_copies_independent {S P : Type} (pr : XofProvider S P) (pre : List (XofOp P)) (ops : List (XofOp P ⊕ XofOp P)) (s : S)
    (r : List Obs × S) (hr : pr.run pre s = .ok r) (os : List (Obs ⊕ Obs)) (t t' : S)
    (h : runBoth pr.step pr.step ops (r.2, r.2) = .ok (os, t, t')) :
    pr.run (pre ++ firsts ops) s = .ok (r.1 ++ firsts os, t) ∧ pr.run (pre ++ seconds ops) s = .ok (r.1 ++ seconds os, t') := by
  obtain ⟨h1, h2, _⟩ := interleave pr.step pr.step ops _ _ _ _ _ h
  rw [xof_run_eq] at hr ⊢
  exact ⟨runWith_append _ _ _ _ _ _ hr h1, runWith_append _ _ _ _ _ _ hr h2⟩

/-- Calls on an MD5 object and on a SHA-1 object in turn, on objects that have been constructed: what is said of them above. -/
example (s : Model.Md5.cls.S) (s' : Model.Sha1.cls.S) (os : List (Obs ⊕ Obs)) (t : Model.Md5.cls.S) (t' : Model.Sha1.cls.S)
    (h : runBoth Model.Md5.cls.pr.step Model.Sha1.cls.pr.step
      [.inl (.absorb (.ptr (ascii "a"))), .inr (.absorb (.ptr (ascii "b"))), .inl .digest, .inr .digest] (s, s') = .ok (os, t, t')) :
    Model.Md5.cls.pr.run [.absorb (.ptr (ascii "a")), .digest] s = .ok (firsts os, t) := by
  rw [hash_run_eq]
  exact (interleave _ _ _ _ _ _ _ _ h).1

end Digestpp.Properties
