import Verif.Proofs.Interface

/-! Empty values given to setters. -/

namespace Digestpp.Proofs
open Model Spec

section Hash
variable {Θ : Type} {c : HashClass} [Param c.P] {size : Nat} {L : Limits c.P} {g : HashFn c.P Θ} {cov : Cover c.P Θ}

theorem HashLaws.forget_run (h : HashLaws c size L g cov) {p : c.P} (hv : Param.value p = []) (hg : L.forgets p) (ops : List (HashOp c.P)) :
    ∃ θ, g.set p (g.run ops g.new).2.params = some θ ∧
      (g.run ((HashOp.settings ops).filter (HashOp.otherKind (Param.kind p))) g.new).2 = ⟨θ, []⟩ := by
  obtain ⟨e1, e2⟩ := (h.emp p hv).1 hg
  induction ops using Proofs.snoc_induction with
  | nil => exact ⟨g.dflt, e1, rfl⟩
  | snoc ops x ih =>
    obtain ⟨θ, hθ, ih⟩ := ih
    rw [settings_snoc, run_append]
    show ∃ θ, g.set p (g.step x (g.run ops g.new).2).2.params = some θ ∧ _
    cases x with
    | absorb src => exact ⟨θ, hθ, ih⟩
    | digestBuf b => exact ⟨θ, hθ, ih⟩
    | digest => exact ⟨θ, hθ, ih⟩
    | hexdigest => exact ⟨θ, hθ, ih⟩
    | reset b =>
      cases b with
      | false => exact ⟨θ, hθ, ih⟩
      | true => exact ⟨g.dflt, e1, rfl⟩
    | set q =>
      dsimp only
      rw [List.filter_append]
      by_cases hk : Param.kind q = Param.kind p
      · rw [show [HashOp.set q].filter (HashOp.otherKind (Param.kind p)) = [] by simp [HashOp.otherKind, hk], List.append_nil]
        refine ⟨θ, ?_, ih⟩
        cases ha : L.accepts q with
        | false => rw [h.step_set_none ha]; exact hθ
        | true =>
          obtain ⟨a, ha⟩ := h.set_some ha (g.run ops g.new).2.params
          rw [HashLaws.step_set_some ha]
          show g.set p a = _
          rw [e2 q _ a hk ha]; exact hθ
      · rw [show [HashOp.set q].filter (HashOp.otherKind (Param.kind p)) = [.set q] by simp [HashOp.otherKind, hk], run_append, ih]
        show ∃ θ', _ ∧ (g.step (.set q) ⟨θ, []⟩).2 = _
        cases ha : L.accepts q with
        | false => rw [h.step_set_none ha, h.step_set_none ha]; exact ⟨θ, hθ, rfl⟩
        | true =>
          obtain ⟨b, hb⟩ := h.set_some ha (g.run ops g.new).2.params
          obtain ⟨d, hd⟩ := h.set_some ha θ
          rw [HashLaws.step_set_some hb, HashLaws.step_set_some (o := ⟨θ, []⟩) hd]
          refine ⟨d, ?_, rfl⟩
          show g.set p b = _
          rw [← h.comm p q _ θ b (fun e => hk e.symm) hθ hb]; exact hd

theorem HashLaws.forget (h : HashLaws c size L g cov) {ops post : List (HashOp c.P)} {p : c.P} (hv : Param.value p = [])
    (hg : L.forgets p) (hf : HashFine L (ops ++ [.set p] ++ post) 0) :
    c.Same (ops ++ [.set p]) ((HashOp.settings ops).filter (HashOp.otherKind (Param.kind p))) post := by
  have h1 : HashFine L ops 0 := by rw [List.append_assoc, fine_append] at hf; exact hf.1
  refine h.same hf (fine_sets L _ _ fun op ho => ?_) ?_
  · obtain ⟨hm, p, rfl⟩ := settings_mem ops (List.mem_filter.mp ho).1
    exact ⟨p, rfl, fine_value L ops 0 h1 hm⟩
  · obtain ⟨θ, h2, h3⟩ := h.forget_run hv hg ops
    rw [h3, run_append]
    show (g.step (.set p) _).2 = _
    rw [HashLaws.step_set_some h2]

theorem HashLaws.keep (h : HashLaws c size L g cov) {ops post : List (HashOp c.P)} {p : c.P} (hv : Param.value p = [])
    (hg : ¬L.forgets p) (hf : HashFine L (ops ++ [.set p] ++ post) 0) :
    c.Same (ops ++ [.set p]) (HashOp.settings ops) post := by
  have h1 : HashFine L ops 0 := by rw [List.append_assoc, fine_append] at hf; exact hf.1
  refine h.same hf (fine_settings h1 0) ?_
  rw [settings_run, run_append]
  show (g.step (.set p) _).2 = _
  rw [HashLaws.step_set_some ((h.emp p hv).2 hg _)]

end Hash

section Xof
variable {Θ : Type} {c : XofClass} [Param c.P] {L : Limits c.P} {g : XofFn c.P Θ} {cov : Cover c.P Θ}

theorem XofLaws.forget_run (h : XofLaws c L g cov) {p : c.P} (hv : Param.value p = []) (hg : L.forgets p) (ops : List (XofOp c.P)) :
    ∃ θ, g.set p (g.run ops g.new).2.params = some θ ∧
      (g.run ((XofOp.settings ops).filter (XofOp.otherKind (Param.kind p))) g.new).2 = ⟨θ, [], 0⟩ := by
  obtain ⟨e1, e2⟩ := (h.emp p hv).1 hg
  induction ops using Proofs.snoc_induction with
  | nil => exact ⟨g.dflt, e1, rfl⟩
  | snoc ops x ih =>
    obtain ⟨θ, hθ, ih⟩ := ih
    rw [xsettings_snoc, xrun_append]
    show ∃ θ, g.set p (g.step x (g.run ops g.new).2).2.params = some θ ∧ _
    cases x with
    | absorb src => exact ⟨θ, hθ, ih⟩
    | squeezeBuf b => exact ⟨θ, hθ, ih⟩
    | squeeze n => exact ⟨θ, hθ, ih⟩
    | hexsqueeze n => exact ⟨θ, hθ, ih⟩
    | reset b =>
      cases b with
      | false => exact ⟨θ, hθ, ih⟩
      | true => exact ⟨g.dflt, e1, rfl⟩
    | set q =>
      dsimp only
      rw [List.filter_append]
      by_cases hk : Param.kind q = Param.kind p
      · rw [show [XofOp.set q].filter (XofOp.otherKind (Param.kind p)) = [] by simp [XofOp.otherKind, hk], List.append_nil]
        refine ⟨θ, ?_, ih⟩
        cases ha : L.accepts q with
        | false => rw [h.step_set_none ha]; exact hθ
        | true =>
          obtain ⟨a, ha⟩ := h.set_some ha (g.run ops g.new).2.params
          rw [XofLaws.step_set_some ha]
          show g.set p a = _
          rw [e2 q _ a hk ha]; exact hθ
      · rw [show [XofOp.set q].filter (XofOp.otherKind (Param.kind p)) = [.set q] by simp [XofOp.otherKind, hk], xrun_append, ih]
        show ∃ θ', _ ∧ (g.step (.set q) ⟨θ, [], 0⟩).2 = _
        cases ha : L.accepts q with
        | false => rw [h.step_set_none ha, h.step_set_none ha]; exact ⟨θ, hθ, rfl⟩
        | true =>
          obtain ⟨b, hb⟩ := h.set_some ha (g.run ops g.new).2.params
          obtain ⟨d, hd⟩ := h.set_some ha θ
          rw [XofLaws.step_set_some hb, XofLaws.step_set_some (o := ⟨θ, [], 0⟩) hd]
          refine ⟨d, ?_, rfl⟩
          show g.set p b = _
          rw [← h.comm p q _ θ b (fun e => hk e.symm) hθ hb]; exact hd

theorem XofLaws.forget (h : XofLaws c L g cov) {ops post : List (XofOp c.P)} {p : c.P} (hv : Param.value p = [])
    (hg : L.forgets p) (hf : XofFine L (ops ++ [.set p] ++ post) 0 0) :
    c.Same (ops ++ [.set p]) ((XofOp.settings ops).filter (XofOp.otherKind (Param.kind p))) post := by
  have h1 : XofFine L ops 0 0 := by rw [List.append_assoc, xfine_append] at hf; exact hf.1
  refine h.same hf (xfine_sets L _ _ _ fun op ho => ?_) ?_
  · obtain ⟨hm, p, rfl⟩ := xsettings_mem ops (List.mem_filter.mp ho).1
    exact ⟨p, rfl, xfine_value L ops 0 0 h1 hm⟩
  · obtain ⟨θ, h2, h3⟩ := h.forget_run hv hg ops
    rw [h3, xrun_append]
    show (g.step (.set p) _).2 = _
    rw [XofLaws.step_set_some h2]

theorem XofLaws.keep (h : XofLaws c L g cov) {ops post : List (XofOp c.P)} {p : c.P} (hv : Param.value p = [])
    (hg : ¬L.forgets p) (hf : XofFine L (ops ++ [.set p] ++ post) 0 0) :
    c.Same (ops ++ [.set p]) (XofOp.settings ops) post := by
  have h1 : XofFine L ops 0 0 := by rw [List.append_assoc, xfine_append] at hf; exact hf.1
  refine h.same hf (xfine_settings h1 0 0) ?_
  rw [xsettings_run, xrun_append]
  show (g.step (.set p) _).2 = _
  rw [XofLaws.step_set_some ((h.emp p hv).2 hg _)]

end Xof
end Digestpp.Proofs
