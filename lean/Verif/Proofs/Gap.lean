import Verif.Spec.Gap
import Verif.Proofs.Conforms

/-! Simulation for histories with squeezes of length zero. -/

namespace Digestpp.Proofs
open Model Spec

/-- As `XofRefines`, for objects that may have been squeezed with length zero. `Z θ msg q s`: squeezing has begun and `s` is at
position `q` of the line. -/
structure GapRefines {S P Θ : Type} (pr : XofProvider S P) (f : XofFn P Θ) (c : Cover P Θ) (g : Gap Θ)
    (R : Θ → Bytes → Nat → S → Prop) (Z : Θ → Bytes → Nat → S → Prop) : Prop where
  base : XofRefines pr f c R
  first : ∀ θ msg s k, R θ msg 0 s → c.adm θ msg → 0 < k → k < 2 ^ 61 → c.out k →
    ∃ s', pr.squeeze k s = .ok (slice (f.stream θ msg) 0 k, s') ∧ Z θ msg ((g.lead θ msg).length + k) s'
  empty : ∀ θ msg s, R θ msg 0 s → c.adm θ msg → ∃ s', pr.squeeze 0 s = .ok ([], s') ∧ Z θ msg (g.start θ msg) s'
  more : ∀ θ msg q s k, Z θ msg q s → c.adm θ msg → 0 < k → k < 2 ^ 61 → c.out (q + k - (g.lead θ msg).length) →
    ∃ s', pr.squeeze k s = .ok (slice (g.line f θ msg) q k, s') ∧ Z θ msg (q + k) s'
  again : ∀ θ msg q s, Z θ msg q s → c.adm θ msg → ∃ s', pr.squeeze 0 s = .ok ([], s') ∧ Z θ msg (g.skip q) s'
  init : ∀ θ msg q s, Z θ msg q s → ∃ s', pr.init s = .ok s' ∧ R θ [] 0 s'
  clear : c.clr → ∀ θ msg q s, Z θ msg q s → ∃ s1 s2, pr.clear s = .ok s1 ∧ pr.init s1 = .ok s2 ∧ R f.dflt [] 0 s2
  set : ∀ θ msg q s p, Z θ msg q s → c.prm p →
    match f.set p θ with
    | none => ∃ s', pr.set p s = .ok (true, s') ∧ Z θ msg q s'
    | some θ' => ∃ s1 s2, pr.set p s = .ok (false, s1) ∧ pr.init s1 = .ok s2 ∧ R θ' [] 0 s2

namespace GapRefines
variable {S P Θ : Type} {pr : XofProvider S P} {f : XofFn P Θ} {c : Cover P Θ} {g : Gap Θ} {R Z : Θ → Bytes → Nat → S → Prop}

/-- The relation for all objects. -/
def Rel (R Z : Θ → Bytes → Nat → S → Prop) (o : GapObj Θ) (s : S) : Prop :=
  match o.pos with
  | none => R o.params o.msg 0 s
  | some q => Z o.params o.msg q s

theorem slice_zero (f : Nat → Byte) (a : Nat) : slice f a 0 = [] := rfl

theorem line_stream (θ : Θ) (msg : Bytes) (k : Nat) :
    slice (g.line f θ msg) (g.lead θ msg).length k = slice (f.stream θ msg) 0 k := by
  unfold slice
  apply List.map_congr_left
  intro i _
  unfold Gap.line
  rw [if_neg (by omega), Nat.zero_add, Nat.add_sub_cancel_left]

/-- Squeezing. -/
theorem squeeze (hr : GapRefines pr f c g R Z) (o : GapObj Θ) (s : S) (h : Rel R Z o s) (ha : c.adm o.params o.msg) (k : Nat)
    (h1 : k < 2 ^ 61) (h2 : c.out (g.here o + k - (g.lead o.params o.msg).length)) :
    ∃ s', pr.squeeze k s = .ok (g.next f k o, s') ∧ Z o.params o.msg (g.after k o) s' := by
  obtain ⟨θ, msg, pos⟩ := o
  dsimp only at ha h2
  by_cases hk : k = 0
  · subst hk
    cases pos with
    | none => exact hr.empty θ msg s h ha
    | some q => exact hr.again θ msg q s h ha
  · have hk0 : 0 < k := by omega
    unfold Gap.after
    rw [if_neg hk]
    cases pos with
    | none =>
      obtain ⟨s', e, r⟩ := hr.first θ msg s k h ha hk0 h1 (by
        have : g.here ⟨θ, msg, none⟩ + k - (g.lead θ msg).length = k := Nat.add_sub_cancel_left ..
        rwa [this] at h2)
      refine ⟨s', ?_, r⟩
      rw [e, ← line_stream (g := g)]
      rfl
    | some q => exact hr.more θ msg q s k h ha hk0 h1 h2

theorem squeezeIt (hr : GapRefines pr f c g R Z) (o : GapObj Θ) (s : S) (h : Rel R Z o s) (ha : c.adm o.params o.msg) (k : Nat)
    (h0 : 0 < k) (h1 : k < 2 ^ 61) (h2 : c.out (g.here o + k - (g.lead o.params o.msg).length)) :
    ∃ s', pr.squeezeIt k s = .ok (g.next f k o, s') ∧ Z o.params o.msg (g.after k o) s' := by
  obtain ⟨s', e, r⟩ := hr.squeeze o s h ha k h1 h2
  refine ⟨s', ?_, r⟩
  have hne : (List.replicate k (0 : Byte)).isEmpty = false := by
    cases k with
    | zero => omega
    | succ n => rfl
  have hl : (g.next f k o).length = k := length_slice _ _ _
  unfold XofProvider.squeezeIt
  have hcp := memcpyTo_zero k (g.next f k o) hl
  simp only [hne, Bool.false_eq_true, if_false, bind, Except.bind, pure, Except.pure, e, hcp]

theorem rel_init (hr : GapRefines pr f c g R Z) (o : GapObj Θ) (s : S) (h : Rel R Z o s) :
    ∃ s', pr.init s = .ok s' ∧ R o.params [] 0 s' := by
  obtain ⟨θ, msg, pos⟩ := o
  cases pos with
  | none => exact hr.base.init θ msg 0 s h
  | some q => exact hr.init θ msg q s h

theorem rel_clear (hr : GapRefines pr f c g R Z) (hc : c.clr) (o : GapObj Θ) (s : S) (h : Rel R Z o s) :
    ∃ s1 s2, pr.clear s = .ok s1 ∧ pr.init s1 = .ok s2 ∧ R f.dflt [] 0 s2 := by
  obtain ⟨θ, msg, pos⟩ := o
  cases pos with
  | none => exact hr.base.clear hc θ msg 0 s h
  | some q => exact hr.clear hc θ msg q s h

theorem rel_set (hr : GapRefines pr f c g R Z) (o : GapObj Θ) (s : S) (h : Rel R Z o s) (p : P) (hp : c.prm p) :
    match f.set p o.params with
    | none => ∃ s', pr.set p s = .ok (true, s') ∧ Rel R Z o s'
    | some θ' => ∃ s1 s2, pr.set p s = .ok (false, s1) ∧ pr.init s1 = .ok s2 ∧ R θ' [] 0 s2 := by
  obtain ⟨θ, msg, pos⟩ := o
  cases pos with
  | none => exact hr.base.set θ msg 0 s p h hp
  | some q => exact hr.set θ msg q s p h hp

/-- **Simulation of one call.** -/
theorem step (hr : GapRefines pr f c g R Z) (op : XofOp P) (o : GapObj Θ) (s : S) (h : Rel R Z o s) (hc : g.op c op o) :
    ∃ s', pr.step op s = .ok ((g.step f op o).1, s') ∧ Rel R Z (g.step f op o).2 s' := by
  cases op with
  | absorb src =>
    obtain ⟨hv, h0⟩ := hc
    obtain ⟨θ, msg, pos⟩ := o
    dsimp only at h0
    subst h0
    obtain ⟨s', e, r⟩ := absorb_spec (R := fun msg s => R θ msg 0 s)
      (fun msg s data => hr.base.update θ msg s data) src hv msg s h
    exact ⟨s', by simp [XofProvider.step, e, Gap.step, bind, Except.bind, pure, Except.pure], r⟩
  | squeezeBuf buf =>
    obtain ⟨ha, h1, h2⟩ := hc
    obtain ⟨s', e, r⟩ := hr.squeeze o s h ha buf.length h1 h2
    refine ⟨s', ?_, r⟩
    have hl : (g.next f buf.length o).length = buf.length := length_slice _ _ _
    have hcp : memcpyTo buf 0 (g.next f buf.length o) = .ok (g.next f buf.length o) := by
      simp [memcpyTo, hl]
    simp only [XofProvider.step, XofProvider.squeezeBuf, e, bind, Except.bind, pure, Except.pure, Gap.step, hcp]
  | squeeze k =>
    obtain ⟨ha, h0, h1, h2⟩ := hc
    obtain ⟨s', e, r⟩ := hr.squeezeIt o s h ha k h0 h1 h2
    exact ⟨s', by simp [XofProvider.step, e, Gap.step, bind, Except.bind, pure, Except.pure], r⟩
  | hexsqueeze k =>
    obtain ⟨ha, h0, h1, h2⟩ := hc
    obtain ⟨s', e, r⟩ := hr.squeezeIt o s h ha k h0 h1 h2
    exact ⟨s', by simp [XofProvider.step, e, Gap.step, hexString_eq, bind, Except.bind, pure, Except.pure], r⟩
  | reset b =>
    cases b with
    | false =>
      obtain ⟨s', e, r⟩ := hr.rel_init o s h
      exact ⟨s', by simp [XofProvider.step, XofProvider.reset, e, Gap.step, bind, Except.bind, pure, Except.pure], r⟩
    | true =>
      obtain ⟨s1, s2, e1, e2, r⟩ := hr.rel_clear (hc rfl) o s h
      exact ⟨s2, by simp [XofProvider.step, XofProvider.reset, e1, e2, Gap.step, bind, Except.bind, pure, Except.pure], r⟩
  | set p =>
    have := hr.rel_set o s h p hc
    cases hf : f.set p o.params with
    | none =>
      rw [hf] at this
      obtain ⟨s', e, r⟩ := this
      refine ⟨s', ?_, ?_⟩
      · simp [XofProvider.step, XofProvider.setParam, e, Gap.step, hf, bind, Except.bind, pure, Except.pure]
      · simpa [Gap.step, hf] using r
    | some θ' =>
      rw [hf] at this
      obtain ⟨s1, s2, e1, e2, r⟩ := this
      refine ⟨s2, ?_, ?_⟩
      · simp [XofProvider.step, XofProvider.setParam, e1, e2, Gap.step, hf, bind, Except.bind, pure, Except.pure]
      · have e3 : (g.step f (.set p) o).2 = ⟨θ', [], none⟩ := by simp [Gap.step, hf]
        rw [e3]
        exact r

/-- **Simulation of histories.** -/
theorem run (hr : GapRefines pr f c g R Z) (ops : List (XofOp P)) (o : GapObj Θ) (s : S)
    (h : Rel R Z o s) (hc : g.Covered f c ops o) :
    ∃ s', pr.run ops s = .ok ((g.run f ops o).1, s') ∧ Rel R Z (g.run f ops o).2 s' := by
  induction ops generalizing o s with
  | nil => exact ⟨s, rfl, h⟩
  | cons op ops ih =>
    obtain ⟨s1, e1, r1⟩ := hr.step op o s h hc.1
    obtain ⟨s2, e2, r2⟩ := ih (g.step f op o).2 s1 r1 hc.2
    refine ⟨s2, ?_, r2⟩
    simp only [XofProvider.run, e1, e2, Gap.run, bind, Except.bind, pure, Except.pure]

end GapRefines

theorem gapConforms {c : XofClass} {Θ : Type} {f : XofFn c.P Θ} {cov : Cover c.P Θ} {g : Gap Θ} {R Z : Θ → Bytes → Nat → c.S → Prop}
    (hr : GapRefines c.pr f cov g R Z)
    (hn : ∀ mem, c.Mem mem → ∃ s s', c.ctor mem = .ok (some s) ∧ c.pr.init s = .ok s' ∧ R f.dflt [] 0 s') :
    GapConforms c f cov g := by
  intro mem hm
  obtain ⟨s, s', e1, e2, r⟩ := hn mem hm
  refine ⟨s', ?_, ?_⟩
  · unfold XofClass.construct
    rw [e1]
    show (do let s ← c.pr.init s; pure (some s)) = _
    rw [e2]; rfl
  · intro ops hc
    obtain ⟨s2, e, -⟩ := hr.run ops (Gap.new f) s' r hc
    exact ⟨s2, e⟩

section Line
variable {P Θ : Type} {f : XofFn P Θ} {g : Gap Θ}

/-- The bytes in front. -/
theorem line_lead (θ : Θ) (msg : Bytes) (q k : Nat) (h : q + k ≤ (g.lead θ msg).length) :
    slice (g.line f θ msg) q k = ((g.lead θ msg).drop q).take k := by
  unfold slice
  apply List.ext_getElem
  · rw [List.length_map, List.length_range, List.length_take, List.length_drop]; omega
  · intro i h1 h2
    have h3 := h1
    rw [List.length_map, List.length_range] at h3
    rw [List.getElem_map, List.getElem_range, List.getElem_take, List.getElem_drop]
    unfold Gap.line
    rw [if_pos (by omega), List.getD_eq_getElem?_getD, List.getElem?_eq_getElem (by omega)]
    rfl

/-- The stream. -/
theorem line_after (θ : Θ) (msg : Bytes) (q k : Nat) :
    slice (g.line f θ msg) ((g.lead θ msg).length + q) k = slice (f.stream θ msg) q k := by
  unfold slice
  apply List.map_congr_left
  intro i _
  unfold Gap.line
  rw [if_neg (by omega)]
  congr 1
  omega

/-- Some of the one, some of the other. -/
theorem line_cross (θ : Θ) (msg : Bytes) (q j : Nat) (h : q ≤ (g.lead θ msg).length) :
    slice (g.line f θ msg) q ((g.lead θ msg).length - q + j) = (g.lead θ msg).drop q ++ slice (f.stream θ msg) 0 j := by
  have e : ∀ (F : Nat → Byte) (a n k : Nat), slice F a (n + k) = slice F a n ++ slice F (a + n) k := by
    intro F a n k
    unfold slice
    rw [List.range_add, List.map_append, List.map_map]
    congr 1
    apply List.map_congr_left
    intro i _
    exact congrArg F (Nat.add_assoc ..).symm
  have h1 := line_after (f := f) (g := g) θ msg 0 j
  rw [Nat.add_zero] at h1
  rw [e, line_lead θ msg q _ (by omega), show q + ((g.lead θ msg).length - q) = (g.lead θ msg).length by omega, h1,
    List.take_of_length_le (by rw [List.length_drop]; exact Nat.le_refl _)]

end Line

/-- The case of the sponges: no bytes in front, and every position is one that also squeezes of positive length lead to. -/
theorem GapRefines.ofSponge {S P Θ : Type} {pr : XofProvider S P} {f : XofFn P Θ} {c : Cover P Θ} {R : Θ → Bytes → Nat → S → Prop}
    (start : Θ → Bytes → Nat) (skip : Nat → Nat) (h : XofRefines pr f c R)
    (h0 : ∀ θ msg, 0 < start θ msg) (hs : ∀ n, 0 < n → 0 < skip n)
    (h1 : ∀ θ msg s, R θ msg 0 s → c.adm θ msg → ∃ s', pr.squeeze 0 s = .ok ([], s') ∧ R θ msg (start θ msg) s')
    (h2 : ∀ θ msg n s, 0 < n → R θ msg n s → c.adm θ msg → ∃ s', pr.squeeze 0 s = .ok ([], s') ∧ R θ msg (skip n) s') :
    GapRefines pr f c ⟨fun _ _ => [], start, skip⟩ R (fun θ msg q s => 0 < q ∧ R θ msg q s) where
  base := h
  first := fun θ msg s k hr ha hk h1 ho => by
    obtain ⟨s', e, r⟩ := h.squeeze θ msg 0 s k hr ha hk h1 (by rwa [Nat.zero_add])
    refine ⟨s', e, ?_, r⟩
    show 0 < 0 + k
    omega
  empty := fun θ msg s hr ha => by
    obtain ⟨s', e, r⟩ := h1 θ msg s hr ha
    exact ⟨s', e, h0 θ msg, r⟩
  more := fun θ msg q s k hr ha hk h1 ho => by
    obtain ⟨s', e, r⟩ := h.squeeze θ msg q s k hr.2 ha hk h1 ho
    exact ⟨s', e, by omega, r⟩
  again := fun θ msg q s hr ha => by
    obtain ⟨s', e, r⟩ := h2 θ msg q s hr.1 hr.2 ha
    exact ⟨s', e, hs q hr.1, r⟩
  init := fun θ msg q s hr => h.init θ msg q s hr.2
  clear := fun hc θ msg q s hr => h.clear hc θ msg q s hr.2
  set := fun θ msg q s p hr hp => by
    have := h.set θ msg q s p hr.2 hp
    cases hf : f.set p θ with
    | none =>
      rw [hf] at this
      obtain ⟨s', e, r⟩ := this
      exact ⟨s', e, hr.1, r⟩
    | some θ' =>
      rw [hf] at this
      exact this

end Digestpp.Proofs
