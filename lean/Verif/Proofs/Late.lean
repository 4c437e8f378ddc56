import Verif.Spec.Late
import Verif.Proofs.Conforms

/-! Simulation for histories with data absorbed after squeezing has begun. -/

namespace Digestpp.Proofs
open Model Spec

section bounded
variable {S : Type} {update : Bytes → S → M S} {R : Nat → S → Prop} {N : Nat}

/-- Absorbing when only `N` bytes may come. -/
theorem absorbStream_bounded (hu : ∀ n s data, R n s → n + data.length ≤ N → data.length < 2 ^ 63 → ∃ s', update data s = .ok s' ∧ R (n + data.length) s')
    (rest : Bytes) (n : Nat) (s : S) (h : R n s) (hn : n + rest.length ≤ N) :
    ∃ s', absorbStream update rest s = .ok s' ∧ R (n + rest.length) s' := by
  induction hl : rest.length using Nat.strongRecOn generalizing rest n s with
  | _ k ih =>
    unfold absorbStream
    by_cases h1 : rest.length ≥ 65536
    · rw [if_pos h1]
      have hlt : (rest.take 65536).length = 65536 := by rw [List.length_take]; omega
      have hld : (rest.drop 65536).length = rest.length - 65536 := by rw [List.length_drop]
      obtain ⟨s1, e1, r1⟩ := hu n s (rest.take 65536) h (by omega) (by omega)
      obtain ⟨s2, e2, r2⟩ := ih (rest.drop 65536).length (by omega) (rest.drop 65536) _ s1 r1 (by omega) rfl
      refine ⟨s2, ?_, ?_⟩
      · rw [e1]; exact e2
      · rwa [show n + (rest.take 65536).length + (rest.drop 65536).length = n + k by omega] at r2
    · rw [if_neg h1]
      by_cases h2 : rest.length ≠ 0
      · rw [if_pos h2, ← hl]
        exact hu n s rest h hn (by omega)
      · rw [if_neg h2]
        exact ⟨s, rfl, by rwa [show n + k = n by omega]⟩

theorem absorbIter_bounded (hu : ∀ n s data, R n s → n + data.length ≤ N → data.length < 2 ^ 63 → ∃ s', update data s = .ok s' ∧ R (n + data.length) s')
    (rest : Bytes) (n : Nat) (s : S) (h : R n s) (hn : n + rest.length ≤ N) :
    ∃ s', rest.foldlM (fun s b => update [b] s) s = .ok s' ∧ R (n + rest.length) s' := by
  induction rest generalizing n s with
  | nil => exact ⟨s, rfl, h⟩
  | cons b rest ih =>
    rw [List.length_cons] at hn
    obtain ⟨s1, e1, r1⟩ := hu n s [b] h (by rw [List.length_singleton]; omega) (by simp)
    obtain ⟨s2, e2, r2⟩ := ih _ s1 r1 (by rw [List.length_singleton]; omega)
    refine ⟨s2, ?_, ?_⟩
    · rw [List.foldlM_cons, e1]; exact e2
    · rwa [List.length_singleton, show n + 1 + rest.length = n + (b :: rest).length by rw [List.length_cons]; omega] at r2

theorem absorb_bounded (hu : ∀ n s data, R n s → n + data.length ≤ N → data.length < 2 ^ 63 → ∃ s', update data s = .ok s' ∧ R (n + data.length) s')
    (src : Source) (hv : src.Valid) (s : S) (h : R 0 s) (hn : src.contents.length ≤ N) :
    ∃ s', absorb update src s = .ok s' ∧ R src.contents.length s' := by
  have h0 : ∀ d : Bytes, 0 + d.length = d.length := fun d => Nat.zero_add _
  cases src with
  | ptr d => rw [← h0]; exact hu 0 s d h (by rw [h0]; exact hn) hv
  | array d => rw [← h0]; exact hu 0 s d h (by rw [h0]; exact hn) hv
  | str d =>
    simp only [absorb, Source.contents]
    cases d with
    | nil => exact ⟨s, rfl, h⟩
    | cons b d => rw [← h0]; exact hu 0 s _ h (by rw [h0]; exact hn) hv
  | stream d => rw [← h0]; exact absorbStream_bounded hu d 0 s h (by rw [h0]; exact hn)
  | iter d => rw [← h0]; exact absorbIter_bounded hu d 0 s h (by rw [h0]; exact hn)

end bounded

/-- Few data are only copied to the buffer. -/
theorem absorbBytes_fits {σ : Type} (bs bschk : Nat) (tr : Bytes → Nat → Blk σ → M (Blk σ)) (data : Bytes) (s : Blk σ)
    (h1 : s.pos + data.length < bschk) (h2 : bschk ≤ s.m.length + 1) (h3 : bschk < 2 ^ 63) :
    ∃ m', m'.length = s.m.length ∧ absorbBytes bs bschk tr data s = .ok { s with m := m', pos := s.pos + data.length } := by
  refine ⟨s.m.take s.pos ++ data ++ s.m.drop (s.pos + data.length), ?_, ?_⟩
  · simp only [List.length_append, List.length_take, List.length_drop]; omega
  · unfold absorbBytes
    rw [if_neg (by rw [Nat.mod_eq_of_lt (by unfold szMod; omega)]; omega)]
    unfold absorbTail
    rw [if_neg (by omega)]
    unfold absorbRest memcpyTo
    rw [if_pos (by omega)]
    rfl

/-- As `XofRefines`, for objects that may have absorbed after squeezing. `Z θ msg n l s`: `n > 0` bytes of output are behind `s`, which has
absorbed `l` bytes since. -/
structure LateRefines {S P Θ : Type} (pr : XofProvider S P) (f : XofFn P Θ) (c : Cover P Θ) (g : Late Θ)
    (R : Θ → Bytes → Nat → S → Prop) (Z : LateObj Θ → S → Prop) : Prop where
  base : XofRefines pr f c R
  first : ∀ θ msg s k, R θ msg 0 s → c.adm θ msg → 0 < k → k < 2 ^ 61 → c.out k →
    ∃ s', pr.squeeze k s = .ok (slice (f.stream θ msg) 0 k, s') ∧ Z ⟨θ, msg, k, 0⟩ s'
  more : ∀ o s k, 0 < o.squeezed → Z o s → c.adm o.params o.msg → 0 < k → k < 2 ^ 61 → c.out (o.squeezed + k) →
    ∃ s', pr.squeeze k s = .ok (slice (f.stream o.params o.msg) o.squeezed k, s') ∧ Z { o with squeezed := o.squeezed + k } s'
  split : ∀ o a b, g.fits o (a + b) → g.fits o a ∧ g.fits (g.lose a o) b
  late : ∀ o s data, 0 < o.squeezed → Z o s → g.fits o data.length →
    ∃ s', pr.update data s = .ok s' ∧ Z (g.lose data.length o) s'
  init : ∀ o s, Z o s → ∃ s', pr.init s = .ok s' ∧ R o.params [] 0 s'
  clear : c.clr → ∀ o s, Z o s → ∃ s1 s2, pr.clear s = .ok s1 ∧ pr.init s1 = .ok s2 ∧ R f.dflt [] 0 s2
  set : ∀ o s p, Z o s → c.prm p →
    match f.set p o.params with
    | none => ∃ s', pr.set p s = .ok (true, s') ∧ Z o s'
    | some θ' => ∃ s1 s2, pr.set p s = .ok (false, s1) ∧ pr.init s1 = .ok s2 ∧ R θ' [] 0 s2

namespace LateRefines
variable {S P Θ : Type} {pr : XofProvider S P} {f : XofFn P Θ} {c : Cover P Θ} {g : Late Θ}
  {R : Θ → Bytes → Nat → S → Prop} {Z : LateObj Θ → S → Prop}

/-- The relation for all objects. -/
def Rel (R : Θ → Bytes → Nat → S → Prop) (Z : LateObj Θ → S → Prop) (o : LateObj Θ) (s : S) : Prop :=
  if o.squeezed = 0 then R o.params o.msg 0 s ∧ o.late = 0 else Z o s

theorem lose_lose (a b : Nat) (o : LateObj Θ) : g.lose b (g.lose a o) = g.lose (a + b) o := by
  unfold Late.lose
  cases g.moves <;> simp [Nat.add_assoc]

theorem lose_zero (o : LateObj Θ) : g.lose 0 o = o := by
  unfold Late.lose
  cases g.moves <;> simp

theorem lose_pos (a : Nat) (o : LateObj Θ) (h : 0 < o.squeezed) : 0 < (g.lose a o).squeezed := by
  unfold Late.lose
  dsimp only
  split <;> omega

theorem squeeze (hr : LateRefines pr f c g R Z) (o : LateObj Θ) (s : S) (h : Rel R Z o s) (ha : c.adm o.params o.msg) (k : Nat)
    (h0 : 0 < k) (h1 : k < 2 ^ 61) (h2 : c.out (o.squeezed + k)) :
    ∃ s', pr.squeeze k s = .ok (Late.next f k o, s') ∧ Rel R Z { o with squeezed := o.squeezed + k } s' := by
  obtain ⟨θ, msg, n, l⟩ := o
  unfold Rel at h ⊢
  dsimp only at h ha h2 ⊢
  simp only [if_neg (show ¬ n + k = 0 by omega)]
  by_cases hn : n = 0
  · subst hn
    rw [if_pos rfl] at h
    obtain ⟨h, rfl⟩ := h
    rw [Nat.zero_add] at h2 ⊢
    exact hr.first θ msg s k h ha h0 h1 h2
  · rw [if_neg hn] at h
    exact hr.more ⟨θ, msg, n, l⟩ s k (by dsimp only; omega) h ha h0 h1 h2

theorem squeezeIt (hr : LateRefines pr f c g R Z) (o : LateObj Θ) (s : S) (h : Rel R Z o s) (ha : c.adm o.params o.msg) (k : Nat)
    (h0 : 0 < k) (h1 : k < 2 ^ 61) (h2 : c.out (o.squeezed + k)) :
    ∃ s', pr.squeezeIt k s = .ok (Late.next f k o, s') ∧ Rel R Z { o with squeezed := o.squeezed + k } s' := by
  obtain ⟨s', e, r⟩ := hr.squeeze o s h ha k h0 h1 h2
  refine ⟨s', ?_, r⟩
  have hne : (List.replicate k (0 : Byte)).isEmpty = false := by
    cases k with
    | zero => omega
    | succ n => rfl
  have hl : (Late.next f k o).length = k := length_slice _ _ _
  unfold XofProvider.squeezeIt
  have hcp := memcpyTo_zero k (Late.next f k o) hl
  simp only [hne, Bool.false_eq_true, if_false, bind, Except.bind, pure, Except.pure, e, hcp]

theorem rel_init (hr : LateRefines pr f c g R Z) (o : LateObj Θ) (s : S) (h : Rel R Z o s) :
    ∃ s', pr.init s = .ok s' ∧ R o.params [] 0 s' := by
  unfold Rel at h
  by_cases hn : o.squeezed = 0
  · rw [if_pos hn] at h
    exact hr.base.init _ _ 0 s h.1
  · rw [if_neg hn] at h
    exact hr.init o s h

theorem rel_clear (hr : LateRefines pr f c g R Z) (hc : c.clr) (o : LateObj Θ) (s : S) (h : Rel R Z o s) :
    ∃ s1 s2, pr.clear s = .ok s1 ∧ pr.init s1 = .ok s2 ∧ R f.dflt [] 0 s2 := by
  unfold Rel at h
  by_cases hn : o.squeezed = 0
  · rw [if_pos hn] at h
    exact hr.base.clear hc _ _ 0 s h.1
  · rw [if_neg hn] at h
    exact hr.clear hc o s h

theorem rel_set (hr : LateRefines pr f c g R Z) (o : LateObj Θ) (s : S) (h : Rel R Z o s) (p : P) (hp : c.prm p) :
    match f.set p o.params with
    | none => ∃ s', pr.set p s = .ok (true, s') ∧ Rel R Z o s'
    | some θ' => ∃ s1 s2, pr.set p s = .ok (false, s1) ∧ pr.init s1 = .ok s2 ∧ R θ' [] 0 s2 := by
  unfold Rel at h ⊢
  by_cases hn : o.squeezed = 0
  · simp only [if_pos hn] at h ⊢
    have := hr.base.set _ _ 0 s p h.1 hp
    split at this
    · next e =>
      rw [e]
      obtain ⟨s', e, r⟩ := this
      exact ⟨s', e, r, h.2⟩
    · next e => rw [e]; exact this
  · simp only [if_neg hn] at h ⊢
    exact hr.set o s p h hp

theorem rel_absorb (hr : LateRefines pr f c g R Z) (o : LateObj Θ) (s : S) (h : Rel R Z o s) (src : Source) (hv : src.Valid)
    (hf : o.squeezed = 0 ∨ g.fits o src.contents.length) :
    ∃ s', absorb pr.update src s = .ok s' ∧ Rel R Z (g.step f (.absorb src) o).2 s' := by
  unfold Late.step
  dsimp only
  by_cases hn : o.squeezed = 0
  · rw [if_pos hn]
    unfold Rel at h ⊢
    rw [if_pos hn] at h
    obtain ⟨s', e, r⟩ := absorb_spec (R := fun msg s => R o.params msg 0 s)
      (fun msg s data => hr.base.update o.params msg s data) src hv o.msg s h.1
    exact ⟨s', e, by rw [if_pos hn]; exact ⟨r, h.2⟩⟩
  · rw [if_neg hn]
    have hf := hf.resolve_left hn
    unfold Rel at h
    rw [if_neg hn] at h
    obtain ⟨s', e, r⟩ := absorb_bounded (N := src.contents.length) (R := fun n s => Z (g.lose n o) s)
      (fun n s data hz hle _ => by
        have h1 : g.fits o (n + data.length + (src.contents.length - (n + data.length))) := by
          rwa [show n + data.length + (src.contents.length - (n + data.length)) = src.contents.length by omega]
        have h2 := (hr.split o n data.length (hr.split o _ _ h1).1).2
        obtain ⟨s', e, r⟩ := hr.late (g.lose n o) s data (lose_pos n o (by omega)) hz h2
        exact ⟨s', e, by rwa [lose_lose] at r⟩) src hv s (by rw [lose_zero]; exact h) (Nat.le_refl _)
    refine ⟨s', e, ?_⟩
    unfold Rel
    rw [if_neg (by have := lose_pos (g := g) src.contents.length o (by omega); omega)]
    exact r

/-- **Simulation of one call.** -/
theorem step (hr : LateRefines pr f c g R Z) (op : XofOp P) (o : LateObj Θ) (s : S) (h : Rel R Z o s) (hc : g.op c op o) :
    ∃ s', pr.step op s = .ok ((g.step f op o).1, s') ∧ Rel R Z (g.step f op o).2 s' := by
  cases op with
  | absorb src =>
    obtain ⟨hv, h0⟩ := hc
    obtain ⟨s', e, r⟩ := hr.rel_absorb o s h src hv h0
    exact ⟨s', by simp [XofProvider.step, e, Late.step, bind, Except.bind, pure, Except.pure], r⟩
  | squeezeBuf buf =>
    obtain ⟨ha, h0, h1, h2⟩ := hc
    obtain ⟨s', e, r⟩ := hr.squeeze o s h ha buf.length h0 h1 h2
    refine ⟨s', ?_, r⟩
    have hl : (Late.next f buf.length o).length = buf.length := length_slice _ _ _
    have hcp : memcpyTo buf 0 (Late.next f buf.length o) = .ok (Late.next f buf.length o) := by
      simp [memcpyTo, hl]
    simp only [XofProvider.step, XofProvider.squeezeBuf, e, bind, Except.bind, pure, Except.pure, Late.step, hcp]
  | squeeze k =>
    obtain ⟨ha, h0, h1, h2⟩ := hc
    obtain ⟨s', e, r⟩ := hr.squeezeIt o s h ha k h0 h1 h2
    exact ⟨s', by simp [XofProvider.step, e, Late.step, bind, Except.bind, pure, Except.pure], r⟩
  | hexsqueeze k =>
    obtain ⟨ha, h0, h1, h2⟩ := hc
    obtain ⟨s', e, r⟩ := hr.squeezeIt o s h ha k h0 h1 h2
    exact ⟨s', by simp [XofProvider.step, e, Late.step, hexString_eq, bind, Except.bind, pure, Except.pure], r⟩
  | reset b =>
    cases b with
    | false =>
      obtain ⟨s', e, r⟩ := hr.rel_init o s h
      exact ⟨s', by simp [XofProvider.step, XofProvider.reset, e, Late.step, bind, Except.bind, pure, Except.pure], r, rfl⟩
    | true =>
      obtain ⟨s1, s2, e1, e2, r⟩ := hr.rel_clear (hc rfl) o s h
      exact ⟨s2, by simp [XofProvider.step, XofProvider.reset, e1, e2, Late.step, bind, Except.bind, pure, Except.pure], r, rfl⟩
  | set p =>
    have := hr.rel_set o s h p hc
    cases hf : f.set p o.params with
    | none =>
      rw [hf] at this
      obtain ⟨s', e, r⟩ := this
      refine ⟨s', ?_, ?_⟩
      · simp [XofProvider.step, XofProvider.setParam, e, Late.step, hf, bind, Except.bind, pure, Except.pure]
      · simpa [Late.step, hf] using r
    | some θ' =>
      rw [hf] at this
      obtain ⟨s1, s2, e1, e2, r⟩ := this
      refine ⟨s2, ?_, ?_⟩
      · simp [XofProvider.step, XofProvider.setParam, e1, e2, Late.step, hf, bind, Except.bind, pure, Except.pure]
      · have e3 : (g.step f (.set p) o).2 = ⟨θ', [], 0, 0⟩ := by simp [Late.step, hf]
        rw [e3]
        exact ⟨r, rfl⟩

/-- **Simulation of histories.** -/
theorem run (hr : LateRefines pr f c g R Z) (ops : List (XofOp P)) (o : LateObj Θ) (s : S)
    (h : Rel R Z o s) (hc : g.Covered f c ops o) :
    ∃ s', pr.run ops s = .ok ((g.run f ops o).1, s') ∧ Rel R Z (g.run f ops o).2 s' := by
  induction ops generalizing o s with
  | nil => exact ⟨s, rfl, h⟩
  | cons op ops ih =>
    obtain ⟨s1, e1, r1⟩ := hr.step op o s h hc.1
    obtain ⟨s2, e2, r2⟩ := ih (g.step f op o).2 s1 r1 hc.2
    refine ⟨s2, ?_, r2⟩
    simp only [XofProvider.run, e1, e2, Late.run, bind, Except.bind, pure, Except.pure]

end LateRefines

theorem lateConforms {c : XofClass} {Θ : Type} {f : XofFn c.P Θ} {cov : Cover c.P Θ} {g : Late Θ} {R : Θ → Bytes → Nat → c.S → Prop}
    {Z : LateObj Θ → c.S → Prop} (hr : LateRefines c.pr f cov g R Z)
    (hn : ∀ mem, c.Mem mem → ∃ s s', c.ctor mem = .ok (some s) ∧ c.pr.init s = .ok s' ∧ R f.dflt [] 0 s') :
    LateConforms c f cov g := by
  intro mem hm
  obtain ⟨s, s', e1, e2, r⟩ := hn mem hm
  refine ⟨s', ?_, ?_⟩
  · unfold XofClass.construct
    rw [e1]
    show (do let s ← c.pr.init s; pure (some s)) = _
    rw [e2]; rfl
  · intro ops hc
    obtain ⟨s2, e, -⟩ := hr.run ops (Late.new f) s' ⟨r, rfl⟩ hc
    exact ⟨s2, e⟩

section laws
variable {P Θ : Type} {f : XofFn P Θ} {g : Late Θ}

theorem late_run_append (a b : List (XofOp P)) (o : LateObj Θ) :
    g.run f (a ++ b) o = ((g.run f a o).1 ++ (g.run f b (g.run f a o).2).1, (g.run f b (g.run f a o).2).2) := by
  induction a generalizing o with
  | nil => rfl
  | cons op a ih => simp only [List.cons_append, Late.run, ih]

theorem late_covered_append {c : Cover P Θ} (a b : List (XofOp P)) (o : LateObj Θ) :
    g.Covered f c (a ++ b) o ↔ g.Covered f c a o ∧ g.Covered f c b (g.run f a o).2 := by
  induction a generalizing o with
  | nil => exact (and_iff_right trivial).symm
  | cons op a ih => simp only [List.cons_append, Late.run, Late.Covered, ih, and_assoc]

end laws

/-- What is absorbed late is lost. -/
theorem lateLost {c : XofClass} {Θ : Type} {f : XofFn c.P Θ} {cov : Cover c.P Θ} {g : Late Θ} (h : LateConforms c f cov g) :
    LateLost c f cov g := by
  intro mem hm
  obtain ⟨s, e, hs⟩ := h mem hm
  refine ⟨s, e, ?_⟩
  intro pre src src' post hc hv hl hn
  have hc' := (late_covered_append pre (.absorb src :: post) (Late.new f)).mp hc
  have hst : g.step f (.absorb src) (g.run f pre (Late.new f)).2 = g.step f (.absorb src') (g.run f pre (Late.new f)).2 := by
    simp only [Late.step, if_neg hn, hl]
  obtain ⟨s1, e1⟩ := hs _ hc
  obtain ⟨s2, e2⟩ := hs (pre ++ .absorb src' :: post) ((late_covered_append pre (.absorb src' :: post) (Late.new f)).mpr
    ⟨hc'.1, ⟨hv, by have := hc'.2.1.2; rwa [hl] at this⟩, by have := hc'.2.2; rwa [hst] at this⟩)
  refine ⟨_, s1, s2, e1, ?_⟩
  rw [e2]
  simp only [late_run_append, Late.run, hst]

end Digestpp.Proofs
