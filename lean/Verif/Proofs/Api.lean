import Verif.Model.Hasher
import Verif.Spec.Api

/-! From provider-level facts to histories of calls on a `hasher`. -/

namespace Digestpp.Proofs
open Model Spec

/-- The model's hexadecimal formatting is two lowercase digits per byte. -/
theorem hexByte_eq : ∀ b : Byte, hexByte b = [hexDigit (b.toNat / 16), hexDigit (b.toNat % 16)] := by
  decide +kernel

theorem hexString_eq (b : Bytes) : hexString b = hex b := by
  unfold hexString hex
  congr 1
  funext x
  exact hexByte_eq x

/-- What is to be shown of a provider: `R θ msg s` says that the object `s` carries the parameters `θ` and has absorbed `msg`. -/
structure HashRefines {S P Θ : Type} (pr : HashProvider S P) (f : HashFn P Θ) (c : Cover P Θ)
    (R : Θ → Bytes → S → Prop) : Prop where
  init : ∀ θ msg s, R θ msg s → ∃ s', pr.init s = .ok s' ∧ R θ [] s'
  update : ∀ θ msg s data, R θ msg s → data.length < 2 ^ 63 → ∃ s', pr.update data s = .ok s' ∧ R θ (msg ++ data) s'
  final : ∀ θ msg s, R θ msg s → c.adm θ msg → pr.final s = .ok (f.digest θ msg)
  clear : c.clr → ∀ θ msg s, R θ msg s → ∃ s1 s2, pr.clear s = .ok s1 ∧ pr.init s1 = .ok s2 ∧ R f.dflt [] s2
  size : ∀ θ msg s, R θ msg s → pr.hashSize s / 8 = f.size
  size_pos : 0 < f.size
  digest_length : ∀ θ msg s, R θ msg s → c.adm θ msg → (f.digest θ msg).length = f.size
  set : ∀ θ msg s p, R θ msg s → c.prm p →
    match f.set p θ with
    | none => ∃ s', pr.set p s = .ok (true, s') ∧ R θ msg s'
    | some θ' => ∃ s1 s2, pr.set p s = .ok (false, s1) ∧ pr.init s1 = .ok s2 ∧ R θ' [] s2

theorem absorbStream_spec {S : Type} {update : Bytes → S → M S} {R : Bytes → S → Prop}
    (hu : ∀ msg s data, R msg s → data.length < 2 ^ 63 → ∃ s', update data s = .ok s' ∧ R (msg ++ data) s')
    (rest : Bytes) (msg : Bytes) (s : S) (h : R msg s) :
    ∃ s', absorbStream update rest s = .ok s' ∧ R (msg ++ rest) s' := by
  induction hn : rest.length using Nat.strongRecOn generalizing rest msg s with
  | _ n ih =>
    unfold absorbStream
    by_cases h1 : rest.length ≥ 65536
    · rw [if_pos h1]
      obtain ⟨s1, e1, r1⟩ := hu msg s (rest.take 65536) h (by simp; omega)
      obtain ⟨s2, e2, r2⟩ := ih (rest.drop 65536).length (by simp; omega) (rest.drop 65536) _ s1 r1 rfl
      refine ⟨s2, ?_, ?_⟩
      · rw [e1]; exact e2
      · rwa [List.append_assoc, List.take_append_drop] at r2
    · rw [if_neg h1]
      by_cases h2 : rest.length ≠ 0
      · rw [if_pos h2]
        exact hu msg s rest h (by omega)
      · rw [if_neg h2]
        have : rest = [] := List.length_eq_zero_iff.mp (by omega)
        subst this
        exact ⟨s, rfl, by simpa using h⟩

theorem absorbIter_spec {S : Type} {update : Bytes → S → M S} {R : Bytes → S → Prop}
    (hu : ∀ msg s data, R msg s → data.length < 2 ^ 63 → ∃ s', update data s = .ok s' ∧ R (msg ++ data) s')
    (rest : Bytes) (msg : Bytes) (s : S) (h : R msg s) :
    ∃ s', rest.foldlM (fun s b => update [b] s) s = .ok s' ∧ R (msg ++ rest) s' := by
  induction rest generalizing msg s with
  | nil => exact ⟨s, rfl, by simpa using h⟩
  | cons b rest ih =>
    obtain ⟨s1, e1, r1⟩ := hu msg s [b] h (by simp)
    obtain ⟨s2, e2, r2⟩ := ih _ s1 r1
    refine ⟨s2, ?_, ?_⟩
    · rw [List.foldlM_cons, e1]; exact e2
    · simpa using r2

theorem absorb_spec {S : Type} {update : Bytes → S → M S} {R : Bytes → S → Prop}
    (hu : ∀ msg s data, R msg s → data.length < 2 ^ 63 → ∃ s', update data s = .ok s' ∧ R (msg ++ data) s')
    (src : Source) (hv : src.Valid) (msg : Bytes) (s : S) (h : R msg s) :
    ∃ s', absorb update src s = .ok s' ∧ R (msg ++ src.contents) s' := by
  cases src with
  | ptr d => exact hu msg s d h hv
  | array d => exact hu msg s d h hv
  | str d =>
    simp only [absorb, Source.contents]
    cases d with
    | nil => exact ⟨s, rfl, by simpa using h⟩
    | cons b d => exact hu msg s _ h hv
  | stream d => exact absorbStream_spec hu d msg s h
  | iter d => exact absorbIter_spec hu d msg s h

theorem memcpyTo_zero (n : Nat) (out : Bytes) (h : out.length = n) :
    memcpyTo (List.replicate n 0) 0 out = .ok out := by
  simp [memcpyTo, h]

/-- **Simulation of one call.** -/
theorem HashRefines.step {S P Θ : Type} {pr : HashProvider S P} {f : HashFn P Θ} {c : Cover P Θ}
    {R : Θ → Bytes → S → Prop} (hr : HashRefines pr f c R) (op : HashOp P) (o : HashObj Θ) (s : S)
    (h : R o.params o.msg s) (hc : c.hashOp op o) :
    ∃ s', pr.step op s = .ok ((f.step op o).1, s') ∧ R (f.step op o).2.params (f.step op o).2.msg s' := by
  have hdig : c.adm o.params o.msg → pr.digestIt s = .ok (f.digest o.params o.msg) := by
    intro ha
    have hl := hr.digest_length _ _ _ h ha
    have hne : (List.replicate f.size (0 : Byte)).isEmpty = false := by
      have := hr.size_pos
      cases hf : f.size with
      | zero => omega
      | succ n => rfl
    unfold HashProvider.digestIt
    rw [hr.size _ _ _ h]
    simp only [hne, bind, Except.bind, hr.final _ _ _ h ha]
    exact memcpyTo_zero _ _ hl
  cases op with
  | absorb src =>
    obtain ⟨s', e, r⟩ := absorb_spec (R := R o.params) (fun msg s data => hr.update o.params msg s data) src hc o.msg s h
    exact ⟨s', by simp [HashProvider.step, e, HashFn.step, bind, Except.bind, pure, Except.pure], r⟩
  | digestBuf buf =>
    refine ⟨s, ?_, h⟩
    have hl := hr.digest_length _ _ _ h hc
    simp only [HashProvider.step, HashFn.step, HashProvider.digestBuf, hr.size _ _ _ h]
    by_cases hb : buf.length < f.size
    · simp [hb, bind, Except.bind, pure, Except.pure]
    · have : memcpyTo buf 0 (f.digest o.params o.msg) = .ok (f.digest o.params o.msg ++ buf.drop f.size) := by
        simp [memcpyTo, hl]; omega
      simp [hb, bind, Except.bind, pure, Except.pure, hr.final _ _ _ h hc, this]
  | digest =>
    refine ⟨s, ?_, h⟩
    simp [HashProvider.step, HashFn.step, hdig hc, bind, Except.bind, pure, Except.pure]
  | hexdigest =>
    refine ⟨s, ?_, h⟩
    simp [HashProvider.step, HashFn.step, hdig hc, hexString_eq, bind, Except.bind, pure, Except.pure]
  | reset b =>
    cases b with
    | false =>
      obtain ⟨s', e, r⟩ := hr.init _ _ _ h
      exact ⟨s', by simp [HashProvider.step, HashProvider.reset, e, HashFn.step, bind, Except.bind, pure, Except.pure], r⟩
    | true =>
      obtain ⟨s1, s2, e1, e2, r⟩ := hr.clear (hc rfl) _ _ _ h
      exact ⟨s2, by simp [HashProvider.step, HashProvider.reset, e1, e2, HashFn.step, bind, Except.bind, pure, Except.pure], r⟩
  | set p =>
    have := hr.set _ _ _ p h hc
    cases hf : f.set p o.params with
    | none =>
      rw [hf] at this
      obtain ⟨s', e, r⟩ := this
      refine ⟨s', ?_, ?_⟩
      · simp [HashProvider.step, HashProvider.setParam, e, HashFn.step, hf, bind, Except.bind, pure, Except.pure]
      · simpa [HashFn.step, hf] using r
    | some θ' =>
      rw [hf] at this
      obtain ⟨s1, s2, e1, e2, r⟩ := this
      refine ⟨s2, ?_, ?_⟩
      · simp [HashProvider.step, HashProvider.setParam, e1, e2, HashFn.step, hf, bind, Except.bind, pure, Except.pure]
      · simpa [HashFn.step, hf] using r

/-- **Simulation of histories.** -/
theorem HashRefines.run {S P Θ : Type} {pr : HashProvider S P} {f : HashFn P Θ} {c : Cover P Θ}
    {R : Θ → Bytes → S → Prop} (hr : HashRefines pr f c R) (ops : List (HashOp P)) (o : HashObj Θ) (s : S)
    (h : R o.params o.msg s) (hc : f.Covered c ops o) :
    ∃ s', pr.run ops s = .ok ((f.run ops o).1, s') ∧ R (f.run ops o).2.params (f.run ops o).2.msg s' := by
  induction ops generalizing o s with
  | nil => exact ⟨s, rfl, h⟩
  | cons op ops ih =>
    obtain ⟨s1, e1, r1⟩ := hr.step op o s h hc.1
    obtain ⟨s2, e2, r2⟩ := ih (f.step op o).2 s1 r1 hc.2
    refine ⟨s2, ?_, r2⟩
    simp only [HashProvider.run, e1, e2, HashFn.run, bind, Except.bind, pure, Except.pure]

/-- What is to be shown of an XOF provider: `R θ msg n s` says that `s` carries the parameters `θ`, has absorbed `msg` and
given `n` bytes of output. -/
structure XofRefines {S P Θ : Type} (pr : XofProvider S P) (f : XofFn P Θ) (c : Cover P Θ)
    (R : Θ → Bytes → Nat → S → Prop) : Prop where
  init : ∀ θ msg n s, R θ msg n s → ∃ s', pr.init s = .ok s' ∧ R θ [] 0 s'
  update : ∀ θ msg s data, R θ msg 0 s → data.length < 2 ^ 63 →
    ∃ s', pr.update data s = .ok s' ∧ R θ (msg ++ data) 0 s'
  squeeze : ∀ θ msg n s k, R θ msg n s → c.adm θ msg → 0 < k → k < 2 ^ 61 → c.out (n + k) →
    ∃ s', pr.squeeze k s = .ok (slice (f.stream θ msg) n k, s') ∧ R θ msg (n + k) s'
  clear : c.clr → ∀ θ msg n s, R θ msg n s → ∃ s1 s2, pr.clear s = .ok s1 ∧ pr.init s1 = .ok s2 ∧ R f.dflt [] 0 s2
  set : ∀ θ msg n s p, R θ msg n s → c.prm p →
    match f.set p θ with
    | none => ∃ s', pr.set p s = .ok (true, s') ∧ R θ msg n s'
    | some θ' => ∃ s1 s2, pr.set p s = .ok (false, s1) ∧ pr.init s1 = .ok s2 ∧ R θ' [] 0 s2

theorem length_slice (f : Nat → Byte) (a n : Nat) : (slice f a n).length = n := by simp [slice]

/-- **Simulation of one call.** -/
theorem XofRefines.step {S P Θ : Type} {pr : XofProvider S P} {f : XofFn P Θ} {c : Cover P Θ}
    {R : Θ → Bytes → Nat → S → Prop} (hr : XofRefines pr f c R) (op : XofOp P) (o : XofObj Θ) (s : S)
    (h : R o.params o.msg o.squeezed s) (hc : c.xofOp op o) :
    ∃ s', pr.step op s = .ok ((f.step op o).1, s') ∧
      R (f.step op o).2.params (f.step op o).2.msg (f.step op o).2.squeezed s' := by
  have hsq : ∀ k, c.adm o.params o.msg → 0 < k → k < 2 ^ 61 → c.out (o.squeezed + k) → ∃ s', pr.squeezeIt k s = .ok (f.next k o, s') ∧
      R o.params o.msg (o.squeezed + k) s' := by
    intro k ha h0 h1 h2
    obtain ⟨s', e, r⟩ := hr.squeeze _ _ _ _ k h ha h0 h1 h2
    refine ⟨s', ?_, r⟩
    have hne : (List.replicate k (0 : Byte)).isEmpty = false := by
      cases k with
      | zero => omega
      | succ n => rfl
    have hl : (f.next k o).length = k := length_slice _ _ _
    unfold XofProvider.squeezeIt
    have hcp := memcpyTo_zero k (f.next k o) hl
    unfold XofFn.next at hcp
    simp only [hne, Bool.false_eq_true, if_false, bind, Except.bind, pure, Except.pure, e, hcp, XofFn.next]
  cases op with
  | absorb src =>
    obtain ⟨hv, h0⟩ := hc
    rw [h0] at h
    obtain ⟨s', e, r⟩ := absorb_spec (R := fun msg s => R o.params msg 0 s)
      (fun msg s data => hr.update o.params msg s data) src hv o.msg s h
    refine ⟨s', by simp [XofProvider.step, e, XofFn.step, bind, Except.bind, pure, Except.pure], ?_⟩
    simp only [XofFn.step, h0]; exact r
  | squeezeBuf buf =>
    obtain ⟨ha, h0, h1, h2⟩ := hc
    obtain ⟨s', e, r⟩ := hr.squeeze _ _ _ _ buf.length h ha h0 h1 h2
    refine ⟨s', ?_, r⟩
    have hl : (f.next buf.length o).length = buf.length := length_slice _ _ _
    have hcp : memcpyTo buf 0 (f.next buf.length o) = .ok (f.next buf.length o) := by
      simp [memcpyTo, hl]
    unfold XofFn.next at hcp
    simp only [XofProvider.step, XofProvider.squeezeBuf, e, bind, Except.bind, pure, Except.pure, XofFn.step, hcp,
      XofFn.next]
  | squeeze k =>
    obtain ⟨ha, h0, h1, h2⟩ := hc
    obtain ⟨s', e, r⟩ := hsq k ha h0 h1 h2
    exact ⟨s', by simp [XofProvider.step, e, XofFn.step, bind, Except.bind, pure, Except.pure], r⟩
  | hexsqueeze k =>
    obtain ⟨ha, h0, h1, h2⟩ := hc
    obtain ⟨s', e, r⟩ := hsq k ha h0 h1 h2
    exact ⟨s', by simp [XofProvider.step, e, XofFn.step, hexString_eq, bind, Except.bind, pure, Except.pure], r⟩
  | reset b =>
    cases b with
    | false =>
      obtain ⟨s', e, r⟩ := hr.init _ _ _ _ h
      exact ⟨s', by simp [XofProvider.step, XofProvider.reset, e, XofFn.step, bind, Except.bind, pure, Except.pure], r⟩
    | true =>
      obtain ⟨s1, s2, e1, e2, r⟩ := hr.clear (hc rfl) _ _ _ _ h
      exact ⟨s2, by simp [XofProvider.step, XofProvider.reset, e1, e2, XofFn.step, bind, Except.bind, pure, Except.pure], r⟩
  | set p =>
    have := hr.set _ _ _ _ p h hc
    cases hf : f.set p o.params with
    | none =>
      rw [hf] at this
      obtain ⟨s', e, r⟩ := this
      refine ⟨s', ?_, ?_⟩
      · simp [XofProvider.step, XofProvider.setParam, e, XofFn.step, hf, bind, Except.bind, pure, Except.pure]
      · simpa [XofFn.step, hf] using r
    | some θ' =>
      rw [hf] at this
      obtain ⟨s1, s2, e1, e2, r⟩ := this
      refine ⟨s2, ?_, ?_⟩
      · simp [XofProvider.step, XofProvider.setParam, e1, e2, XofFn.step, hf, bind, Except.bind, pure, Except.pure]
      · simpa [XofFn.step, hf] using r

/-- **Simulation of histories.** -/
theorem XofRefines.run {S P Θ : Type} {pr : XofProvider S P} {f : XofFn P Θ} {c : Cover P Θ}
    {R : Θ → Bytes → Nat → S → Prop} (hr : XofRefines pr f c R) (ops : List (XofOp P)) (o : XofObj Θ) (s : S)
    (h : R o.params o.msg o.squeezed s) (hc : f.Covered c ops o) :
    ∃ s', pr.run ops s = .ok ((f.run ops o).1, s') ∧
      R (f.run ops o).2.params (f.run ops o).2.msg (f.run ops o).2.squeezed s' := by
  induction ops generalizing o s with
  | nil => exact ⟨s, rfl, h⟩
  | cons op ops ih =>
    obtain ⟨s1, e1, r1⟩ := hr.step op o s h hc.1
    obtain ⟨s2, e2, r2⟩ := ih (f.step op o).2 s1 r1 hc.2
    refine ⟨s2, ?_, r2⟩
    simp only [XofProvider.run, e1, e2, XofFn.run, bind, Except.bind, pure, Except.pure]

/-- A smaller cover, and another function that agrees where it is promised. -/
theorem HashRefines.mono {S P Θ : Type} {pr : HashProvider S P} {f g : HashFn P Θ} {c c' : Cover P Θ} {R : Θ → Bytes → S → Prop}
    (h : HashRefines pr f c R) (hd : g.dflt = f.dflt) (hs : g.set = f.set) (hz : g.size = f.size)
    (ha : ∀ θ msg s, R θ msg s → c'.adm θ msg → c.adm θ msg ∧ g.digest θ msg = f.digest θ msg)
    (hc : c'.clr → c.clr) (hp : ∀ p, c'.prm p → c.prm p) : HashRefines pr g c' R where
  init := h.init
  update := h.update
  final := fun θ msg s hr hadm => by
    rw [(ha θ msg s hr hadm).2]
    exact h.final θ msg s hr (ha θ msg s hr hadm).1
  clear := fun hcl θ msg s hr => by rw [hd]; exact h.clear (hc hcl) θ msg s hr
  size := fun θ msg s hr => by rw [hz]; exact h.size θ msg s hr
  size_pos := by rw [hz]; exact h.size_pos
  digest_length := fun θ msg s hr hadm => by
    rw [hz, (ha θ msg s hr hadm).2]
    exact h.digest_length θ msg s hr (ha θ msg s hr hadm).1
  set := fun θ msg s p hr hpp => by rw [hs]; exact h.set θ msg s p hr (hp p hpp)

/-- A smaller cover, and another function that agrees where it is promised. -/
theorem XofRefines.mono {S P Θ : Type} {pr : XofProvider S P} {f g : XofFn P Θ} {c c' : Cover P Θ} {R : Θ → Bytes → Nat → S → Prop}
    (h : XofRefines pr f c R) (hd : g.dflt = f.dflt) (hs : g.set = f.set)
    (ha : ∀ θ msg n s, R θ msg n s → c'.adm θ msg → c.adm θ msg ∧ g.stream θ msg = f.stream θ msg)
    (hc : c'.clr → c.clr) (hp : ∀ p, c'.prm p → c.prm p) (ho : ∀ n, c'.out n → c.out n := by exact fun _ _ => trivial) : XofRefines pr g c' R where
  init := h.init
  update := h.update
  squeeze := fun θ msg n s k hr hadm h0 h1 h2 => by
    rw [(ha θ msg n s hr hadm).2]
    exact h.squeeze θ msg n s k hr (ha θ msg n s hr hadm).1 h0 h1 (ho _ h2)
  clear := fun hcl θ msg n s hr => by rw [hd]; exact h.clear (hc hcl) θ msg n s hr
  set := fun θ msg n s p hr hpp => by rw [hs]; exact h.set θ msg n s p hr (hp p hpp)

end Digestpp.Proofs
