import Verif.StatementsClear
import Verif.Proofs.Api

/-! Objects that keep or lose other parameters in `reset(true)`. -/

namespace Digestpp.Proofs
open Model Spec

section hash
variable {S P Θ : Type} {pr : HashProvider S P} {f : HashFn P Θ} {c : Cover P Θ} {clr : Θ → Θ} {R : Θ → Bytes → S → Prop}

/-- **Simulation of one call.** -/
theorem HashRefines.stepClr (hr : HashRefines pr f { c with clr := False } R)
    (hclr : ∀ θ msg s, R θ msg s → ∃ s1 s2, pr.clear s = .ok s1 ∧ pr.init s1 = .ok s2 ∧ R (clr θ) [] s2)
    (op : HashOp P) (o : HashObj Θ) (s : S) (h : R o.params o.msg s) (hc : c.hashOp op o) :
    ∃ s', pr.step op s = .ok ((f.stepClr clr op o).1, s') ∧ R (f.stepClr clr op o).2.params (f.stepClr clr op o).2.msg s' := by
  cases op with
  | reset b =>
    cases b with
    | true =>
      obtain ⟨s1, s2, e1, e2, r⟩ := hclr _ _ _ h
      exact ⟨s2, by simp [HashProvider.step, HashProvider.reset, e1, e2, HashFn.stepClr, bind, Except.bind, pure, Except.pure], r⟩
    | false => exact hr.step (.reset false) o s h nofun
  | absorb src => exact hr.step (.absorb src) o s h hc
  | digestBuf buf => exact hr.step (.digestBuf buf) o s h hc
  | digest => exact hr.step .digest o s h hc
  | hexdigest => exact hr.step .hexdigest o s h hc
  | set p => exact hr.step (.set p) o s h hc

/-- **Simulation of histories.** -/
theorem HashRefines.runClr (hr : HashRefines pr f { c with clr := False } R)
    (hclr : ∀ θ msg s, R θ msg s → ∃ s1 s2, pr.clear s = .ok s1 ∧ pr.init s1 = .ok s2 ∧ R (clr θ) [] s2)
    (ops : List (HashOp P)) (o : HashObj Θ) (s : S) (h : R o.params o.msg s) (hc : f.CoveredClr clr c ops o) :
    ∃ s', pr.run ops s = .ok ((f.runClr clr ops o).1, s') ∧ R (f.runClr clr ops o).2.params (f.runClr clr ops o).2.msg s' := by
  induction ops generalizing o s with
  | nil => exact ⟨s, rfl, h⟩
  | cons op ops ih =>
    obtain ⟨s1, e1, r1⟩ := hr.stepClr hclr op o s h hc.1
    obtain ⟨s2, e2, r2⟩ := ih (f.stepClr clr op o).2 s1 r1 hc.2
    refine ⟨s2, ?_, r2⟩
    simp only [HashProvider.run, e1, e2, HashFn.runClr, bind, Except.bind, pure, Except.pure]

end hash

section xof
variable {S P Θ : Type} {pr : XofProvider S P} {f : XofFn P Θ} {c : Cover P Θ} {clr : Θ → Θ} {R : Θ → Bytes → Nat → S → Prop}

/-- **Simulation of one call.** -/
theorem XofRefines.stepClr (hr : XofRefines pr f { c with clr := False } R)
    (hclr : ∀ θ msg n s, R θ msg n s → ∃ s1 s2, pr.clear s = .ok s1 ∧ pr.init s1 = .ok s2 ∧ R (clr θ) [] 0 s2)
    (op : XofOp P) (o : XofObj Θ) (s : S) (h : R o.params o.msg o.squeezed s) (hc : c.xofOp op o) :
    ∃ s', pr.step op s = .ok ((f.stepClr clr op o).1, s') ∧
      R (f.stepClr clr op o).2.params (f.stepClr clr op o).2.msg (f.stepClr clr op o).2.squeezed s' := by
  cases op with
  | reset b =>
    cases b with
    | true =>
      obtain ⟨s1, s2, e1, e2, r⟩ := hclr _ _ _ _ h
      exact ⟨s2, by simp [XofProvider.step, XofProvider.reset, e1, e2, XofFn.stepClr, bind, Except.bind, pure, Except.pure], r⟩
    | false => exact hr.step (.reset false) o s h nofun
  | absorb src => exact hr.step (.absorb src) o s h hc
  | squeezeBuf buf => exact hr.step (.squeezeBuf buf) o s h hc
  | squeeze n => exact hr.step (.squeeze n) o s h hc
  | hexsqueeze n => exact hr.step (.hexsqueeze n) o s h hc
  | set p => exact hr.step (.set p) o s h hc

/-- **Simulation of histories.** -/
theorem XofRefines.runClr (hr : XofRefines pr f { c with clr := False } R)
    (hclr : ∀ θ msg n s, R θ msg n s → ∃ s1 s2, pr.clear s = .ok s1 ∧ pr.init s1 = .ok s2 ∧ R (clr θ) [] 0 s2)
    (ops : List (XofOp P)) (o : XofObj Θ) (s : S) (h : R o.params o.msg o.squeezed s) (hc : f.CoveredClr clr c ops o) :
    ∃ s', pr.run ops s = .ok ((f.runClr clr ops o).1, s') ∧
      R (f.runClr clr ops o).2.params (f.runClr clr ops o).2.msg (f.runClr clr ops o).2.squeezed s' := by
  induction ops generalizing o s with
  | nil => exact ⟨s, rfl, h⟩
  | cons op ops ih =>
    obtain ⟨s1, e1, r1⟩ := hr.stepClr hclr op o s h hc.1
    obtain ⟨s2, e2, r2⟩ := ih (f.stepClr clr op o).2 s1 r1 hc.2
    refine ⟨s2, ?_, r2⟩
    simp only [XofProvider.run, e1, e2, XofFn.runClr, bind, Except.bind, pure, Except.pure]

end xof

theorem hashConformsClr {c : HashClass} {Θ : Type} {f : HashFn c.P Θ} {clr : Θ → Θ} {cov : Cover c.P Θ} {R : Θ → Bytes → c.S → Prop}
    (hr : HashRefines c.pr f { cov with clr := False } R)
    (hclr : ∀ θ msg s, R θ msg s → ∃ s1 s2, c.pr.clear s = .ok s1 ∧ c.pr.init s1 = .ok s2 ∧ R (clr θ) [] s2)
    (hn : ∀ mem, c.Mem mem → ∃ s s', c.ctor mem = .ok (some s) ∧ c.pr.init s = .ok s' ∧ R f.dflt [] s') :
    HashConformsClr c f clr cov := by
  intro mem hm
  obtain ⟨s, s', e1, e2, r⟩ := hn mem hm
  refine ⟨s', ?_, ?_⟩
  · unfold HashClass.construct
    rw [e1]
    show (do let s ← c.pr.init s; pure (some s)) = _
    rw [e2]; rfl
  · intro ops hc
    obtain ⟨s2, e, -⟩ := hr.runClr hclr ops f.new s' r hc
    exact ⟨s2, e⟩

theorem xofConformsClr {c : XofClass} {Θ : Type} {f : XofFn c.P Θ} {clr : Θ → Θ} {cov : Cover c.P Θ} {R : Θ → Bytes → Nat → c.S → Prop}
    (hr : XofRefines c.pr f { cov with clr := False } R)
    (hclr : ∀ θ msg n s, R θ msg n s → ∃ s1 s2, c.pr.clear s = .ok s1 ∧ c.pr.init s1 = .ok s2 ∧ R (clr θ) [] 0 s2)
    (hn : ∀ mem, c.Mem mem → ∃ s s', c.ctor mem = .ok (some s) ∧ c.pr.init s = .ok s' ∧ R f.dflt [] 0 s') :
    XofConformsClr c f clr cov := by
  intro mem hm
  obtain ⟨s, s', e1, e2, r⟩ := hn mem hm
  refine ⟨s', ?_, ?_⟩
  · unfold XofClass.construct
    rw [e1]
    show (do let s ← c.pr.init s; pure (some s)) = _
    rw [e2]; rfl
  · intro ops hc
    obtain ⟨s2, e, -⟩ := hr.runClr hclr ops f.new s' r hc
    exact ⟨s2, e⟩

/-- With the default value as constant function nothing is new. -/
theorem hashRunClr_dflt {P Θ : Type} (f : HashFn P Θ) (ops : List (HashOp P)) (o : HashObj Θ) :
    f.runClr (fun _ => f.dflt) ops o = f.run ops o := by
  have hstep : ∀ op o, f.stepClr (fun _ => f.dflt) op o = f.step op o := by
    intro op o
    cases op with
    | reset b => cases b <;> rfl
    | _ => rfl
  induction ops generalizing o with
  | nil => rfl
  | cons op ops ih => simp only [HashFn.runClr, HashFn.run, hstep, ih]

/-- With the default value as constant function nothing is new. -/
theorem xofRunClr_dflt {P Θ : Type} (f : XofFn P Θ) (ops : List (XofOp P)) (o : XofObj Θ) :
    f.runClr (fun _ => f.dflt) ops o = f.run ops o := by
  have hstep : ∀ op o, f.stepClr (fun _ => f.dflt) op o = f.step op o := by
    intro op o
    cases op with
    | reset b => cases b <;> rfl
    | _ => rfl
  induction ops generalizing o with
  | nil => rfl
  | cons op ops ih => simp only [XofFn.runClr, XofFn.run, hstep, ih]

end Digestpp.Proofs
