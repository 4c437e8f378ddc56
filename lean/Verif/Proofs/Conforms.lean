import Verif.Statements
import Verif.Proofs.Api

/-! From refinement to conformance. -/

namespace Digestpp.Proofs
open Model Spec

theorem hashConforms {c : HashClass} {Θ : Type} {f : HashFn c.P Θ} {cov : Cover c.P Θ} {R : Θ → Bytes → c.S → Prop}
    (hr : HashRefines c.pr f cov R)
    (hn : ∀ mem, c.Mem mem → ∃ s s', c.ctor mem = .ok (some s) ∧ c.pr.init s = .ok s' ∧ R f.dflt [] s') :
    HashConforms c f cov := by
  intro mem hm
  obtain ⟨s, s', e1, e2, r⟩ := hn mem hm
  refine ⟨s', ?_, ?_⟩
  · unfold HashClass.construct
    rw [e1]
    show (do let s ← c.pr.init s; pure (some s)) = _
    rw [e2]; rfl
  · intro ops hc
    obtain ⟨s2, e, -⟩ := hr.run ops f.new s' r hc
    exact ⟨s2, e⟩

theorem xofConforms {c : XofClass} {Θ : Type} {f : XofFn c.P Θ} {cov : Cover c.P Θ} {R : Θ → Bytes → Nat → c.S → Prop}
    (hr : XofRefines c.pr f cov R)
    (hn : ∀ mem, c.Mem mem → ∃ s s', c.ctor mem = .ok (some s) ∧ c.pr.init s = .ok s' ∧ R f.dflt [] 0 s') :
    XofConforms c f cov := by
  intro mem hm
  obtain ⟨s, s', e1, e2, r⟩ := hn mem hm
  refine ⟨s', ?_, ?_⟩
  · unfold XofClass.construct
    rw [e1]
    show (do let s ← c.pr.init s; pure (some s)) = _
    rw [e2]; rfl
  · intro ops hc
    obtain ⟨s2, e, -⟩ := hr.run ops f.new s' r hc
    exact ⟨s2, e⟩

/-- What a trial gives. -/
theorem hashConforms_trial {c : HashClass} {Θ : Type} {f : HashFn c.P Θ} {cov : Cover c.P Θ} (h : HashConforms c f cov) (mem : c.S)
    (hm : c.Mem mem) (ops : List (HashOp c.P)) (hc : f.Covered cov ops f.new) : c.trial mem ops = some (f.run ops f.new).1 := by
  obtain ⟨s, e, h⟩ := h mem hm
  obtain ⟨s', e'⟩ := h ops hc
  unfold HashClass.trial
  rw [e]
  simp only [bind, Except.bind, e', pure, Except.pure]

theorem xofConforms_trial {c : XofClass} {Θ : Type} {f : XofFn c.P Θ} {cov : Cover c.P Θ} (h : XofConforms c f cov) (mem : c.S)
    (hm : c.Mem mem) (ops : List (XofOp c.P)) (hc : f.Covered cov ops f.new) : c.trial mem ops = some (f.run ops f.new).1 := by
  obtain ⟨s, e, h⟩ := h mem hm
  obtain ⟨s', e'⟩ := h ops hc
  unfold XofClass.trial
  rw [e]
  simp only [bind, Except.bind, e', pure, Except.pure]

theorem _root_.Digestpp.HashConforms.mono {c : HashClass} {Θ : Type} {f g : HashFn c.P Θ} {cov cov' : Cover c.P Θ} (h : HashConforms c f cov)
    (hd : g.dflt = f.dflt) (hs : g.set = f.set) (hz : g.size = f.size)
    (ha : ∀ θ msg, cov'.adm θ msg → cov.adm θ msg ∧ g.digest θ msg = f.digest θ msg)
    (hc : cov'.clr → cov.clr) (hp : ∀ p, cov'.prm p → cov.prm p) : HashConforms c g cov' := by
  have key : ∀ (ops : List (HashOp c.P)) (o : HashObj Θ), g.Covered cov' ops o →
      f.Covered cov ops o ∧ (g.run ops o).1 = (f.run ops o).1 := by
    intro ops
    induction ops with
    | nil => intro o _; exact ⟨trivial, rfl⟩
    | cons op ops ih =>
      intro o ho
      have e : cov.hashOp op o ∧ g.step op o = f.step op o := by
        have h1 := ho.1
        cases op with
        | absorb src => exact ⟨h1, rfl⟩
        | digestBuf b =>
          refine ⟨(ha _ _ h1).1, ?_⟩
          show (if b.length < g.size then Obs.threw else .buffer (g.digest o.params o.msg ++ b.drop g.size), o) = _
          rw [(ha _ _ h1).2, hz]; rfl
        | digest =>
          refine ⟨(ha _ _ h1).1, ?_⟩
          show (Obs.bytes (g.digest o.params o.msg), o) = _
          rw [(ha _ _ h1).2]; rfl
        | hexdigest =>
          refine ⟨(ha _ _ h1).1, ?_⟩
          show (Obs.text (hex (g.digest o.params o.msg)), o) = _
          rw [(ha _ _ h1).2]; rfl
        | reset b =>
          refine ⟨fun e => hc (h1 e), ?_⟩
          cases b with
          | false => rfl
          | true => show (Obs.done, HashObj.mk g.dflt []) = _; rw [hd]; rfl
        | set p =>
          refine ⟨hp _ h1, ?_⟩
          show (match g.set p o.params with | none => (Obs.threw, o) | some θ => (Obs.done, ⟨θ, []⟩)) = _
          rw [hs]; rfl
      have h2 := ho.2
      rw [e.2] at h2
      obtain ⟨i1, i2⟩ := ih _ h2
      refine ⟨⟨e.1, i1⟩, ?_⟩
      show (g.step op o).1 :: (g.run ops (g.step op o).2).1 = (f.step op o).1 :: (f.run ops (f.step op o).2).1
      rw [e.2, i2]
  intro mem hm
  obtain ⟨s, e, h⟩ := h mem hm
  refine ⟨s, e, fun ops hcov => ?_⟩
  have en : g.new = f.new := by unfold HashFn.new; rw [hd]
  rw [en] at hcov ⊢
  obtain ⟨k1, k2⟩ := key ops _ hcov
  rw [k2]
  exact h ops k1

theorem _root_.Digestpp.XofConforms.mono {c : XofClass} {Θ : Type} {f g : XofFn c.P Θ} {cov cov' : Cover c.P Θ} (h : XofConforms c f cov)
    (hd : g.dflt = f.dflt) (hs : g.set = f.set)
    (ha : ∀ θ msg, cov'.adm θ msg → cov.adm θ msg ∧ g.stream θ msg = f.stream θ msg)
    (hc : cov'.clr → cov.clr) (hp : ∀ p, cov'.prm p → cov.prm p) (ho : ∀ n, cov'.out n → cov.out n) : XofConforms c g cov' := by
  have key : ∀ (ops : List (XofOp c.P)) (o : XofObj Θ), g.Covered cov' ops o →
      f.Covered cov ops o ∧ (g.run ops o).1 = (f.run ops o).1 := by
    intro ops
    induction ops with
    | nil => intro o _; exact ⟨trivial, rfl⟩
    | cons op ops ih =>
      intro o hcov
      have e : cov.xofOp op o ∧ g.step op o = f.step op o := by
        have h1 := hcov.1
        cases op with
        | absorb src => exact ⟨h1, rfl⟩
        | squeezeBuf b =>
          refine ⟨⟨(ha _ _ h1.1).1, h1.2.1, h1.2.2.1, ho _ h1.2.2.2⟩, ?_⟩
          show (Obs.buffer (slice (g.stream o.params o.msg) _ _), _) = _
          rw [(ha _ _ h1.1).2]; rfl
        | squeeze n =>
          refine ⟨⟨(ha _ _ h1.1).1, h1.2.1, h1.2.2.1, ho _ h1.2.2.2⟩, ?_⟩
          show (Obs.bytes (slice (g.stream o.params o.msg) _ _), _) = _
          rw [(ha _ _ h1.1).2]; rfl
        | hexsqueeze n =>
          refine ⟨⟨(ha _ _ h1.1).1, h1.2.1, h1.2.2.1, ho _ h1.2.2.2⟩, ?_⟩
          show (Obs.text (hex (slice (g.stream o.params o.msg) _ _)), _) = _
          rw [(ha _ _ h1.1).2]; rfl
        | reset b =>
          refine ⟨fun e => hc (h1 e), ?_⟩
          cases b with
          | false => rfl
          | true => show (Obs.done, XofObj.mk g.dflt [] 0) = _; rw [hd]; rfl
        | set p =>
          refine ⟨hp _ h1, ?_⟩
          show (match g.set p o.params with | none => (Obs.threw, o) | some θ => (Obs.done, ⟨θ, [], 0⟩)) = _
          rw [hs]; rfl
      have h2 := hcov.2
      rw [e.2] at h2
      obtain ⟨i1, i2⟩ := ih _ h2
      refine ⟨⟨e.1, i1⟩, ?_⟩
      show (g.step op o).1 :: (g.run ops (g.step op o).2).1 = (f.step op o).1 :: (f.run ops (f.step op o).2).1
      rw [e.2, i2]
  intro mem hm
  obtain ⟨s, e, h⟩ := h mem hm
  refine ⟨s, e, fun ops hcov => ?_⟩
  have en : g.new = f.new := by unfold XofFn.new; rw [hd]
  rw [en] at hcov ⊢
  obtain ⟨k1, k2⟩ := key ops _ hcov
  rw [k2]
  exact h ops k1

/-- From all messages to those of the standard. -/
theorem _root_.Digestpp.HashConforms.below {c : HashClass} {Θ : Type} {f : HashFn c.P Θ} (h : HashConforms c f (Cover.all c.P)) (n : Nat)
    (d : Θ → Bytes → Bytes) (ha : ∀ θ msg, msg.length < n → d θ msg = f.digest θ msg) :
    HashConforms c { f with digest := d } (Cover.below c.P n) :=
  h.mono rfl rfl rfl (fun θ msg hl => ⟨trivial, ha θ msg hl⟩) id fun _ _ => trivial

end Digestpp.Proofs
