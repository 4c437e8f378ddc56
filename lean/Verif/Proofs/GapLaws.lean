import Verif.Proofs.Gap
import Verif.Proofs.Laws
import Verif.Proofs.Absorb

/-! Squeezes of length zero in histories: consequences of `GapConforms`. -/

namespace Digestpp
open Model Spec

namespace Proofs

section
variable {P Θ : Type} {f : XofFn P Θ} {g : Gap Θ}

theorem gap_run_append (a b : List (XofOp P)) : ∀ o, g.run f (a ++ b) o =
    ((g.run f a o).1 ++ (g.run f b (g.run f a o).2).1, (g.run f b (g.run f a o).2).2) := by
  induction a with
  | nil => intro o; rfl
  | cons x a ih =>
    intro o
    show ((g.step f x o).1 :: (g.run f (a ++ b) (g.step f x o).2).1, (g.run f (a ++ b) (g.step f x o).2).2) = _
    rw [ih]
    rfl

theorem gap_run_length (a : List (XofOp P)) : ∀ o, (g.run f a o).1.length = a.length := by
  induction a with
  | nil => intro o; rfl
  | cons x a ih => intro o; show (_ :: (g.run f a (g.step f x o).2).1).length = _; rw [List.length_cons, ih]; rfl

theorem gap_covered_append {c : Cover P Θ} (a b : List (XofOp P)) : ∀ o, g.Covered f c (a ++ b) o ↔
    g.Covered f c a o ∧ g.Covered f c b (g.run f a o).2 := by
  induction a with
  | nil => intro o; exact ⟨fun h => ⟨trivial, h⟩, fun h => h.2⟩
  | cons x a ih =>
    intro o
    show (_ ∧ g.Covered f c (a ++ b) (g.step f x o).2) ↔ (_ ∧ g.Covered f c a (g.step f x o).2) ∧ _
    rw [ih, and_assoc]
    rfl

end

theorem gapConforms_trial {c : XofClass} {Θ : Type} {f : XofFn c.P Θ} {cov : Cover c.P Θ} {g : Gap Θ} (h : GapConforms c f cov g) (mem : c.S)
    (hm : c.Mem mem) (ops : List (XofOp c.P)) (hc : g.Covered f cov ops (Gap.new f)) : c.trial mem ops = some (g.run f ops (Gap.new f)).1 := by
  obtain ⟨s, e, h⟩ := h mem hm
  obtain ⟨s', e'⟩ := h ops hc
  unfold XofClass.trial
  rw [e]
  simp only [bind, Except.bind, e', pure, Except.pure]

/-- What is known of a class about squeezes of length zero. `idle k`: there is no effect when `k` bytes have been squeezed. -/
structure GapLaws (c : XofClass) [Param c.P] (L : Limits c.P) (idle : Nat → Prop) {Θ : Type} (f : XofFn c.P Θ) (cov : Cover c.P Θ)
    (g : Gap Θ) : Prop where
  conf : GapConforms c f cov g
  adm : ∀ θ m, L.len m.length → cov.adm θ m
  out : ∀ n, L.out n → cov.out n
  clr : L.clr → cov.clr
  prm : ∀ p, (Param.value p).length < 2 ^ 61 → cov.prm p
  acc : ∀ p θ, (f.set p θ).isSome = L.accepts p
  skip : ∀ θ msg k, 0 < k → idle k → g.skip ((g.lead θ msg).length + k) = (g.lead θ msg).length + k

namespace GapLaws
variable {c : XofClass} [Param c.P] {L : Limits c.P} {idle : Nat → Prop} {Θ : Type} {f : XofFn c.P Θ} {cov : Cover c.P Θ} {g : Gap Θ}

/-- The position when `k` bytes have been squeezed, none of the squeezes having length zero. -/
def place (g : Gap Θ) (θ : Θ) (msg : Bytes) (k : Nat) : Option Nat := if k = 0 then none else some ((g.lead θ msg).length + k)

/-- The object after `n` bytes absorbed and `k` squeezed. -/
structure At (L : Limits c.P) (g : Gap Θ) (n k : Nat) (o : GapObj Θ) : Prop where
  msg : o.msg.length = n
  pos : o.pos = place g o.params o.msg k
  ok : 0 < k → L.len n ∧ L.out k

theorem At.here {n k : Nat} {o : GapObj Θ} (h : At L g n k o) : g.here o = (g.lead o.params o.msg).length + k := by
  unfold Gap.here
  rw [h.pos]
  unfold place
  split
  · rename_i e
    rw [e]; rfl
  · rfl

theorem At.squeeze {n k m : Nat} {o : GapObj Θ} (h : At L g n k o) (h1 : L.len n) (h2 : 0 < m) (h3 : L.out (k + m)) :
    At L g n (k + m) { o with pos := some (g.after m o) } := by
  refine ⟨h.msg, ?_, fun _ => ⟨h1, h3⟩⟩
  show some (g.after m o) = _
  unfold Gap.after place
  rw [if_neg (by omega), if_neg (by omega), h.here, Nat.add_assoc]

/-- Histories without squeezes of length zero. -/
theorem at_run (h : GapLaws c L idle f cov g) : ∀ (ops : List (XofOp c.P)) (n k : Nat) (o : GapObj Θ), XofFine L ops n k → At L g n k o →
    g.Covered f cov ops o ∧ At L g (posAfter L ops (n, k)).1 (posAfter L ops (n, k)).2 (g.run f ops o).2 := by
  intro ops
  induction ops with
  | nil => intro n k o _ ha; exact ⟨trivial, ha⟩
  | cons op ops ih =>
    intro n k o hf ha
    have sq : ∀ m, L.len n → 0 < m → m < 2 ^ 61 → L.out (k + m) →
        (cov.adm o.params o.msg ∧ cov.out (g.here o + m - (g.lead o.params o.msg).length)) ∧
          At L g n (k + m) { o with pos := some (g.after m o) } := by
      intro m h1 h2 h3 h4
      refine ⟨⟨h.adm _ _ (by rw [ha.msg]; exact h1), ?_⟩, ha.squeeze h1 h2 h4⟩
      rw [ha.here, Nat.add_assoc, Nat.add_sub_cancel_left]
      exact h.out _ h4
    cases op with
    | absorb src =>
      obtain ⟨h1, h2, h3⟩ := hf
      subst h2
      obtain ⟨i1, i2⟩ := ih (n + src.contents.length) 0 { o with msg := o.msg ++ src.contents } h3
        ⟨by rw [List.length_append, ha.msg], ha.pos, fun hc => absurd hc (by omega)⟩
      exact ⟨⟨⟨h1, ha.pos⟩, i1⟩, i2⟩
    | squeezeBuf b =>
      obtain ⟨h1, h2, h3, h4, h5⟩ := hf
      obtain ⟨⟨s1, s2⟩, s3⟩ := sq b.length h1 h2 h3 h4
      obtain ⟨i1, i2⟩ := ih _ _ _ h5 s3
      exact ⟨⟨⟨s1, h3, s2⟩, i1⟩, i2⟩
    | squeeze m =>
      obtain ⟨h1, h2, h3, h4, h5⟩ := hf
      obtain ⟨⟨s1, s2⟩, s3⟩ := sq m h1 h2 h3 h4
      obtain ⟨i1, i2⟩ := ih _ _ _ h5 s3
      exact ⟨⟨⟨s1, h2, h3, s2⟩, i1⟩, i2⟩
    | hexsqueeze m =>
      obtain ⟨h1, h2, h3, h4, h5⟩ := hf
      obtain ⟨⟨s1, s2⟩, s3⟩ := sq m h1 h2 h3 h4
      obtain ⟨i1, i2⟩ := ih _ _ _ h5 s3
      exact ⟨⟨⟨s1, h2, h3, s2⟩, i1⟩, i2⟩
    | reset b =>
      obtain ⟨h1, h2⟩ := hf
      cases b with
      | false =>
        obtain ⟨i1, i2⟩ := ih 0 0 { o with msg := [], pos := none } h2 ⟨rfl, rfl, fun hc => absurd hc (by omega)⟩
        exact ⟨⟨fun e => absurd e (by decide), i1⟩, i2⟩
      | true =>
        obtain ⟨i1, i2⟩ := ih 0 0 ⟨f.dflt, [], none⟩ h2 ⟨rfl, rfl, fun hc => absurd hc (by omega)⟩
        exact ⟨⟨fun e => h.clr (h1 e), i1⟩, i2⟩
    | set p =>
      obtain ⟨h1, h2⟩ := hf
      have hacc := h.acc p o.params
      cases e : f.set p o.params with
      | none =>
        rw [e] at hacc
        have hL : L.accepts p = false := hacc.symm
        have hst : g.step f (.set p) o = (.threw, o) := by simp [Gap.step, e]
        rw [if_neg (by rw [hL]; decide), if_neg (by rw [hL]; decide)] at h2
        obtain ⟨i1, i2⟩ := ih n k o h2 ha
        refine ⟨⟨h.prm p h1, by rw [hst]; exact i1⟩, ?_⟩
        show At L g (posAfter L ops (if L.accepts p then 0 else n, if L.accepts p then 0 else k)).1
          (posAfter L ops (if L.accepts p then 0 else n, if L.accepts p then 0 else k)).2 (g.run f ops (g.step f (.set p) o).2).2
        rw [hst, if_neg (by rw [hL]; decide), if_neg (by rw [hL]; decide)]
        exact i2
      | some a =>
        rw [e] at hacc
        have hL : L.accepts p = true := hacc.symm
        have hst : g.step f (.set p) o = (.done, ⟨a, [], none⟩) := by simp [Gap.step, e]
        rw [if_pos hL, if_pos hL] at h2
        obtain ⟨i1, i2⟩ := ih 0 0 ⟨a, [], none⟩ h2 ⟨rfl, rfl, fun hc => absurd hc (by omega)⟩
        refine ⟨⟨h.prm p h1, by rw [hst]; exact i1⟩, ?_⟩
        show At L g (posAfter L ops (if L.accepts p then 0 else n, if L.accepts p then 0 else k)).1
          (posAfter L ops (if L.accepts p then 0 else n, if L.accepts p then 0 else k)).2 (g.run f ops (g.step f (.set p) o).2).2
        rw [hst, if_pos hL, if_pos hL]
        exact i2

omit [Param c.P] in
theorem at_new : At L g 0 0 (Gap.new f) := ⟨rfl, rfl, fun hc => absurd hc (by omega)⟩

/-- A squeeze of length zero where there is no effect. -/
theorem idle_step (h : GapLaws c L idle f cov g) {n k : Nat} {o : GapObj Θ} (ha : At L g n k o) (hk : 0 < k) (hi : idle k) :
    g.op cov (.squeezeBuf []) o ∧ g.step f (.squeezeBuf []) o = (.buffer [], o) := by
  obtain ⟨h1, h2⟩ := ha.ok hk
  have hp := ha.pos
  unfold place at hp
  rw [if_neg (by omega)] at hp
  refine ⟨⟨h.adm _ _ (by rw [ha.msg]; exact h1), show 0 < 2 ^ 61 by decide, ?_⟩, ?_⟩
  · rw [ha.here]
    show cov.out (_ + k + 0 - _)
    rw [Nat.add_zero, Nat.add_sub_cancel_left]
    exact h.out _ h2
  · obtain ⟨θ, msg, pos⟩ := o
    dsimp only at hp
    subst hp
    show (Obs.buffer [], (⟨θ, msg, some (g.skip _)⟩ : GapObj Θ)) = _
    rw [h.skip θ msg k hk hi]

/-- Such a squeeze changes nothing of what is seen later. -/
theorem neutral (h : GapLaws c L idle f cov g) (ops post : List (XofOp c.P)) (hf : XofFine L (ops ++ post) 0 0)
    (hk : 0 < (posAfter L ops (0, 0)).2) (hi : idle (posAfter L ops (0, 0)).2) : c.Same (ops ++ [.squeezeBuf []]) ops post := by
  intro mem mem' hm hm'
  obtain ⟨c1, -⟩ := h.at_run (ops ++ post) 0 0 (Gap.new f) hf at_new
  have hf1 := ((xfine_append L post ops 0 0).mp hf).1
  obtain ⟨-, a2⟩ := h.at_run ops 0 0 (Gap.new f) hf1 at_new
  obtain ⟨i1, i2⟩ := h.idle_step a2 hk hi
  have c2 := (gap_covered_append ops post _).mp c1
  have hst : (g.step f (.squeezeBuf []) (g.run f ops (Gap.new f)).2).2 = (g.run f ops (Gap.new f)).2 := by rw [i2]
  have c3 : g.Covered f cov (ops ++ .squeezeBuf [] :: post) (Gap.new f) := by
    rw [gap_covered_append]
    exact ⟨c2.1, i1, by rw [hst]; exact c2.2⟩
  refine ⟨(g.run f post (g.run f ops (Gap.new f)).2).1, gap_run_length _ _, ?_, ?_⟩
  · unfold XofClass.after
    rw [List.append_assoc]
    show Option.map _ (c.trial mem (ops ++ .squeezeBuf [] :: post)) = _
    rw [gapConforms_trial h.conf mem hm _ c3, gap_run_append]
    show some (List.drop _ ((g.run f ops (Gap.new f)).1 ++ (g.step f (.squeezeBuf []) (g.run f ops (Gap.new f)).2).1 ::
      (g.run f post (g.step f (.squeezeBuf []) (g.run f ops (Gap.new f)).2).2).1)) = _
    rw [hst]
    refine congrArg some ?_
    have e : ∀ (l : List Obs) (x : Obs) (m : List Obs) (n : Nat), n = l.length + 1 → List.drop n (l ++ x :: m) = m := by
      intro l x m n hn
      rw [List.append_cons, List.drop_left' (by rw [hn, List.length_append]; rfl)]
    exact e _ _ _ _ (by rw [List.length_append, gap_run_length]; rfl)
  · unfold XofClass.after
    rw [gapConforms_trial h.conf mem' hm' _ c1, gap_run_append]
    show some (List.drop _ _) = _
    rw [List.drop_left' (gap_run_length _ _)]

end GapLaws

private theorem cons_eq {α : Type} {a b : α} {l m : List α} (h : a = b) (h' : l = m) : a :: l = b :: m := by rw [h, h']

/-- Histories without squeezes of length zero are as before. -/
theorem gap_run_eq {P Θ : Type} {f : XofFn P Θ} {g : Gap Θ} {c : Cover P Θ} : ∀ (ops : List (XofOp P)) (o : XofObj Θ) (o' : GapObj Θ),
    o'.params = o.params → o'.msg = o.msg → o'.pos = GapLaws.place g o.params o.msg o.squeezed → f.Covered c ops o →
    (g.run f ops o').1 = (f.run ops o).1 := by
  intro ops
  induction ops with
  | nil => intros; rfl
  | cons op ops ih =>
    intro o o' h1 h2 h3 hc
    obtain ⟨θ, msg, n⟩ := o
    obtain ⟨θ', msg', q⟩ := o'
    dsimp only at h1 h2 h3
    subst h1 h2 h3
    have hh : g.here ⟨θ', msg', GapLaws.place g θ' msg' n⟩ = (g.lead θ' msg').length + n := by
      unfold Gap.here GapLaws.place
      by_cases e : n = 0
      · rw [if_pos e, e]; rfl
      · rw [if_neg e]; rfl
    have hn : ∀ m, g.next f m ⟨θ', msg', GapLaws.place g θ' msg' n⟩ = f.next m ⟨θ', msg', n⟩ := by
      intro m
      unfold Gap.next
      rw [hh]
      exact line_after θ' msg' n m
    have ha : ∀ m, 0 < m → some (g.after m ⟨θ', msg', GapLaws.place g θ' msg' n⟩) = GapLaws.place g θ' msg' (n + m) := by
      intro m hm
      unfold Gap.after
      rw [if_neg (by omega), hh]
      unfold GapLaws.place
      rw [if_neg (by omega), Nat.add_assoc]
    obtain ⟨hop, hc⟩ := hc
    show (g.step f op _).1 :: (g.run f ops (g.step f op _).2).1 = (f.step op _).1 :: (f.run ops (f.step op _).2).1
    cases op with
    | absorb src =>
      have h0 : n = 0 := hop.2
      subst h0
      refine cons_eq rfl (ih _ _ rfl rfl rfl hc)
    | squeezeBuf b =>
      refine cons_eq (congrArg Obs.buffer (hn _)) (ih _ _ rfl rfl (ha _ hop.2.1) hc)
    | squeeze m =>
      refine cons_eq (congrArg Obs.bytes (hn _)) (ih _ _ rfl rfl (ha _ hop.2.1) hc)
    | hexsqueeze m =>
      refine cons_eq (congrArg (fun b => Obs.text (hex b)) (hn _)) (ih _ _ rfl rfl (ha _ hop.2.1) hc)
    | reset b =>
      cases b with
      | false => exact cons_eq rfl (ih _ _ rfl rfl rfl hc)
      | true => exact cons_eq rfl (ih _ _ rfl rfl rfl hc)
    | set p =>
      cases e : f.set p θ' with
      | none =>
        have s1 : g.step f (.set p) ⟨θ', msg', GapLaws.place g θ' msg' n⟩ = (.threw, ⟨θ', msg', GapLaws.place g θ' msg' n⟩) := by
          simp [Gap.step, e]
        have s2 : f.step (.set p) ⟨θ', msg', n⟩ = (.threw, ⟨θ', msg', n⟩) := by simp [XofFn.step, e]
        rw [s1, s2]
        rw [s2] at hc
        exact cons_eq rfl (ih _ _ rfl rfl rfl hc)
      | some a =>
        have s1 : g.step f (.set p) ⟨θ', msg', GapLaws.place g θ' msg' n⟩ = (.done, ⟨a, [], none⟩) := by
          simp [Gap.step, e]
        have s2 : f.step (.set p) ⟨θ', msg', n⟩ = (.done, ⟨a, [], 0⟩) := by simp [XofFn.step, e]
        rw [s1, s2]
        rw [s2] at hc
        exact cons_eq rfl (ih _ _ rfl rfl rfl hc)

theorem xprun_append {S P : Type} (pr : XofProvider S P) (a b : List (XofOp P)) : ∀ s, pr.run (a ++ b) s =
    (pr.run a s >>= fun r => pr.run b r.2 >>= fun r' => pure (r.1 ++ r'.1, r'.2)) := by
  induction a with
  | nil =>
    intro s
    show pr.run b s = (pr.run b s >>= fun r' => pure ([] ++ r'.1, r'.2))
    cases pr.run b s <;> rfl
  | cons x a ih =>
    intro s
    simp only [List.cons_append, XofProvider.run]
    cases pr.step x s with
    | error e => rfl
    | ok r =>
      simp only [ok_bind, ih]
      cases pr.run a r.2 with
      | error e => rfl
      | ok r1 =>
        show ((pr.run b r1.2 >>= fun r' => pure (r1.1 ++ r'.1, r'.2)) >>= fun x => pure (r.1 :: x.1, x.2)) =
          (pr.run b r1.2 >>= fun r' => pure (r.1 :: r1.1 ++ r'.1, r'.2))
        cases pr.run b r1.2 <;> rfl

theorem xprun_length {S P : Type} (pr : XofProvider S P) (a : List (XofOp P)) : ∀ s r, pr.run a s = .ok r → r.1.length = a.length := by
  induction a with
  | nil => intro s r h; cases h; rfl
  | cons x a ih =>
    intro s r h
    simp only [XofProvider.run] at h
    cases h1 : pr.step x s with
    | error e => rw [h1] at h; cases h
    | ok r1 =>
      rw [h1, ok_bind] at h
      cases h2 : pr.run a r1.2 with
      | error e => rw [h2] at h; cases h
      | ok r2 =>
        rw [h2] at h
        cases h
        show r2.1.length + 1 = a.length + 1
        rw [ih _ _ h2]

/-- What a caller sees, in terms of the provider. -/
theorem after_run {c : XofClass} {mem : c.S} {a b : List (XofOp c.P)} {os : List Obs} (h : c.after mem a b = some os) :
    ∃ s r r', c.construct mem = .ok (some s) ∧ c.pr.run a s = .ok r ∧ c.pr.run b r.2 = .ok r' ∧ r'.1 = os := by
  unfold XofClass.after XofClass.trial at h
  cases h1 : c.construct mem with
  | error e => rw [h1] at h; cases h
  | ok o =>
    rw [h1] at h
    cases o with
    | none => cases h
    | some s =>
      simp only [ok_bind, xprun_append] at h
      cases h2 : c.pr.run a s with
      | error e => rw [h2] at h; cases h
      | ok r =>
        rw [h2] at h
        simp only [ok_bind] at h
        cases h3 : c.pr.run b r.2 with
        | error e => rw [h3] at h; cases h
        | ok r' =>
          rw [h3] at h
          refine ⟨s, r, r', rfl, h2, h3, ?_⟩
          have hh : some (List.drop a.length (r.1 ++ r'.1)) = some os := h
          rw [List.drop_left' (xprun_length _ _ _ _ h2)] at hh
          exact Option.some.inj hh

/-- A counterexample. -/
theorem not_neutral {c : XofClass} (mem : c.S) (hm : c.Mem mem) (before later : List (XofOp c.P)) (a b : List Obs)
    (ha : c.after mem before later = some a) (hb : c.after mem (before ++ [.squeezeBuf []]) later = some b) (hne : a ≠ b) :
    ¬ EmptySqueezeNeutral c := by
  intro h
  obtain ⟨s, r, r', h1, h2, h3, h4⟩ := after_run ha
  obtain ⟨s', q, q', g1, g2, g3, g4⟩ := after_run hb
  rw [h1] at g1
  cases g1
  rw [xprun_append, h2, ok_bind] at g2
  cases e : c.pr.step (.squeezeBuf []) r.2 with
  | error x =>
    have : c.pr.run [.squeezeBuf []] r.2 = .error x := by simp only [XofProvider.run, e]; rfl
    rw [this] at g2
    cases g2
  | ok t =>
    have : c.pr.run [.squeezeBuf []] r.2 = .ok ([t.1], t.2) := by simp only [XofProvider.run, e]; rfl
    rw [this, ok_bind] at g2
    cases g2
    obtain ⟨s4, e4⟩ := h mem hm s h1 before r.1 r.2 h2 t.1 t.2 e later r'.1 r'.2 h3
    rw [e4] at g3
    cases g3
    exact hne (h4.symm.trans g4)

end Proofs
end Digestpp
