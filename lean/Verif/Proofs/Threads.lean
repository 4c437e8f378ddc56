import Verif.Model.Threads
import Verif.Spec.Threads

/-! C63: a thread whose objects no other thread modifies makes the same steps as if it were alone. -/

namespace Digestpp.Proofs.Threads
open Model Model.Threads Spec.Threads

variable {ι τ : Type} [DecidableEq ι] [DecidableEq τ] {K : ι → Kind}

/-- The effect of a call, undefined behaviour being `none`. -/
def eff (K : ι → Kind) (o : ι) (op : (K o).Op) (s : (K o).S) : Option (Obs × (K o).S) :=
  match (K o).step op s with
  | .ok r => some (if (K o).const op then (r.1, s) else r)
  | .error _ => none

/-- The `const` functions, by object. -/
def cst (K : ι → Kind) : (o : ι) → (K o).Op → Bool := fun o => (K o).const

theorem put_same {S : ι → Type} (o : ι) (s : S o) (m : ∀ o, S o) : put o s m o = s := by simp [put]

theorem put_other {S : ι → Type} (o o' : ι) (s : S o) (m : ∀ o, S o) (h : o' ≠ o) : put o s m o' = m o' := by simp [put, h]

theorem write_eq (o : ι) (s : (K o).S) (m : ∀ o, (K o).S) : write o s m = put o s m := rfl

theorem put_self {S : ι → Type} (o : ι) (m : ∀ o, S o) : put o (m o) m = m := by
  funext o'
  by_cases h : o' = o
  · subst h; exact put_same _ _ _
  · exact put_other _ _ _ _ h

theorem alone_append {S Op : ι → Type} (step : (o : ι) → Op o → S o → Option (Obs × S o)) (b : List (Sigma Op)) :
    ∀ (a : List (Sigma Op)) (m : ∀ o, S o) (r : List Obs × ∀ o, S o), alone step a m = some r →
      alone step (a ++ b) m = (alone step b r.2).map fun q => (r.1 ++ q.1, q.2)
  | [], m, r, h => by
    cases h
    cases h : alone step b m <;> simp [h]
  | c :: a, m, r, h => by
    simp only [alone, List.cons_append] at h ⊢
    cases h1 : step c.1 c.2 (m c.1) with
    | none => simp [h1] at h
    | some q =>
      simp only [h1] at h ⊢
      cases h2 : alone step a (put c.1 q.2 m) with
      | none => simp [h2] at h
      | some p =>
        simp only [h2, Option.some.injEq] at h
        subst h
        rw [alone_append step b a _ p h2]
        cases h3 : alone step b p.2 <;> simp [h3]

theorem alone_snoc {S Op : ι → Type} (step : (o : ι) → Op o → S o → Option (Obs × S o)) (a : List (Sigma Op)) (c : Sigma Op) (m : ∀ o, S o)
    (rs : List Obs) (m' : ∀ o, S o) (r : Obs) (s : S c.1) (h : alone step a m = some (rs, m')) (hc : step c.1 c.2 (m' c.1) = some (r, s)) :
    alone step (a ++ [c]) m = some (rs ++ [r], put c.1 s m') := by
  rw [alone_append step [c] a m _ h]
  simp [alone, hc]

/-- What is known of a thread with calls `prog`, started with objects `m0`, while the objects are `mem`: which calls it has completed, and what it has seen and done is
what it would have alone. -/
def Along (I : (o : ι) → Impl (K o)) (stack : ∀ o, (K o).S) (prog : List (Sigma fun o => (K o).Op)) (m0 mem : ∀ o, (K o).S) (t : Thread K) : Prop :=
  ∃ past m, alone (eff K) past m0 = some (t.seen, m) ∧
    match t.phase with
    | .idle => prog = past ++ t.calls ∧ ∀ o, Uses prog o → mem o = m o
    | .reading o op todo img => prog = past ++ ⟨o, op⟩ :: t.calls ∧ (∀ o, Uses prog o → mem o = m o) ∧
        ∃ pre, (I o).reads op = pre ++ todo ∧ img = pre.foldl (fun d r => r (m o) d) (stack o)
    | .writing o todo r => ∃ op s, prog = past ++ ⟨o, op⟩ :: t.calls ∧ (K o).const op = false ∧ (K o).step op (m o) = .ok (r, s) ∧
        (∀ o', o' ≠ o → Uses prog o' → mem o' = m o') ∧
        ∃ pre, (I o).writes op (m o) = pre ++ todo ∧ mem o = pre.foldl (fun d w => w d) (m o)
    | .undefined => ∃ o op rest, prog = past ++ ⟨o, op⟩ :: rest ∧ eff K o op (m o) = none

theorem uses_mid (past rest : List (Sigma fun o => (K o).Op)) (o : ι) (op : (K o).Op) : Uses (past ++ ⟨o, op⟩ :: rest) o :=
  ⟨⟨o, op⟩, by simp, rfl⟩

theorem modifies_mid (past rest : List (Sigma fun o => (K o).Op)) (o : ι) (op : (K o).Op) (h : (K o).const op = false) :
    Modifies (cst K) (past ++ ⟨o, op⟩ :: rest) o := ⟨⟨o, op⟩, by simp, rfl, h⟩

/-- The thread's own step. -/
theorem along_tick (I : (o : ι) → Impl (K o)) (stack : ∀ o, (K o).S) (prog : List (Sigma fun o => (K o).Op)) (m0 mem : ∀ o, (K o).S) (t : Thread K)
    (h : Along I stack prog m0 mem t) : Along I stack prog m0 (tick I stack mem t).1 (tick I stack mem t).2 := by
  obtain ⟨calls, phase, seen⟩ := t
  obtain ⟨past, m, ha, h⟩ := h
  cases phase with
  | idle =>
    obtain ⟨hp, hm⟩ := h
    cases calls with
    | nil => exact ⟨past, m, ha, hp, hm⟩
    | cons c cs => exact ⟨past, m, ha, hp, hm, [], rfl, rfl⟩
  | undefined => exact ⟨past, m, ha, h⟩
  | reading o op todo img =>
    obtain ⟨hp, hm, pre, hr, hi⟩ := h
    have hu : Uses prog o := hp ▸ uses_mid past calls o op
    cases todo with
    | cons r rs =>
      refine ⟨past, m, ha, hp, hm, pre ++ [r], by simp [hr], ?_⟩
      show r (mem o) img = _
      rw [hm o hu, hi, List.foldl_append]; rfl
    | nil =>
      have hi : img = m o := by
        have := (I o).reads_all op (m o) (stack o)
        rw [hr, List.append_nil] at this
        rw [hi, this]
      subst hi
      cases hs : (K o).step op (m o) with
      | error e =>
        simp only [tick, hs]
        exact ⟨past, m, ha, o, op, calls, hp, by simp [eff, hs]⟩
      | ok r =>
        obtain ⟨r, s⟩ := r
        simp only [tick, hs]
        cases hc : (K o).const op with
        | true =>
          refine ⟨past ++ [⟨o, op⟩], m, ?_, ?_, hm⟩
          · have := alone_snoc (eff K) past ⟨o, op⟩ m0 seen m r (m o) ha (by simp [eff, hs, hc])
            rw [put_self] at this
            exact this
          · simp [hp]
        | false =>
          exact ⟨past, m, ha, op, s, hp, hc, hs, fun o' _ h' => hm o' h', [], rfl, hm o hu⟩
  | writing o todo r =>
    obtain ⟨op, s, hp, hc, hs, hm, pre, hw, ho⟩ := h
    cases todo with
    | cons w ws =>
      refine ⟨past, m, ha, op, s, hp, hc, hs, ?_, pre ++ [w], by simp [hw], ?_⟩
      · intro o' hn hu
        show write o _ mem o' = m o'
        rw [write_eq, put_other _ _ _ _ hn]
        exact hm o' hn hu
      · show write o _ mem o = _
        rw [write_eq, put_same, ho, List.foldl_append]; rfl
    | nil =>
      rw [List.append_nil] at hw
      have hf : mem o = s := by rw [ho, ← hw]; exact (I o).writes_all op (m o) r s hs hc
      refine ⟨past ++ [⟨o, op⟩], put o s m, ?_, by simp [tick, hp], ?_⟩
      · exact alone_snoc (eff K) past ⟨o, op⟩ m0 seen m r s ha (by simp [eff, hs, hc])
      · intro o' hu
        by_cases hn : o' = o
        · subst hn; rw [put_same]; exact hf
        · rw [put_other _ _ _ _ hn]; exact hm o' hn hu

/-- What the thread does to the objects it does not modify: nothing. -/
theorem tick_mem (I : (o : ι) → Impl (K o)) (stack : ∀ o, (K o).S) (prog : List (Sigma fun o => (K o).Op)) (m0 mem : ∀ o, (K o).S) (t : Thread K)
    (h : Along I stack prog m0 mem t) (o' : ι) (ho : ¬ Modifies (cst K) prog o') : (tick I stack mem t).1 o' = mem o' := by
  obtain ⟨calls, phase, seen⟩ := t
  obtain ⟨past, m, ha, h⟩ := h
  cases phase with
  | idle => cases calls <;> rfl
  | undefined => rfl
  | reading o op todo img =>
    cases todo with
    | cons r rs => rfl
    | nil =>
      cases hs : (K o).step op img with
      | error e => simp [tick, hs]
      | ok r => cases hc : (K o).const op <;> simp [tick, hs, hc]
  | writing o todo r =>
    obtain ⟨op, s, hp, hc, -⟩ := h
    cases todo with
    | nil => rfl
    | cons w ws =>
      show write o _ mem o' = _
      rw [write_eq, put_other]
      rintro rfl
      exact ho (hp ▸ modifies_mid past calls o' op hc)

/-- A step of another thread. -/
theorem along_mem (I : (o : ι) → Impl (K o)) (stack : ∀ o, (K o).S) (prog : List (Sigma fun o => (K o).Op)) (m0 mem mem' : ∀ o, (K o).S) (t : Thread K)
    (h : Along I stack prog m0 mem t) (hm : ∀ o, Uses prog o → mem' o = mem o) : Along I stack prog m0 mem' t := by
  obtain ⟨past, m, ha, h⟩ := h
  refine ⟨past, m, ha, ?_⟩
  cases hp : t.phase with
  | idle =>
    rw [hp] at h
    exact ⟨h.1, fun o hu => (hm o hu).trans (h.2 o hu)⟩
  | undefined => rw [hp] at h; exact h
  | reading o op todo img =>
    rw [hp] at h
    exact ⟨h.1, fun o hu => (hm o hu).trans (h.2.1 o hu), h.2.2⟩
  | writing o todo r =>
    rw [hp] at h
    obtain ⟨op, s, h1, h2, h3, h4, pre, h5, h6⟩ := h
    exact ⟨op, s, h1, h2, h3, fun o' hn hu => (hm o' hu).trans (h4 o' hn hu), pre, h5, (hm o (h1 ▸ uses_mid past t.calls o op)).trans h6⟩

/-- What holds in every configuration threads keeping to the rules can reach. -/
structure Good (I : (o : ι) → Impl (K o)) (stack : τ → ∀ o, (K o).S) (prog : τ → List (Sigma fun o => (K o).Op)) (m0 : ∀ o, (K o).S) (c : Config K τ) : Prop where
  along : ∀ t, Along I (stack t) (prog t) m0 c.mem (c.thread t)
  kept : ∀ o, (∀ t, ¬ Modifies (cst K) (prog t) o) → c.mem o = m0 o

variable {I : (o : ι) → Impl (K o)} {stack : τ → ∀ o, (K o).S} {prog : τ → List (Sigma fun o => (K o).Op)} {m0 : ∀ o, (K o).S}

theorem good_start : Good I stack prog m0 (.start m0 prog) :=
  ⟨fun _ => ⟨[], m0, rfl, rfl, fun _ _ => rfl⟩, fun _ _ => rfl⟩

theorem good_step (hd : Disciplined (cst K) prog) (c : Config K τ) (u : τ) (h : Good I stack prog m0 c) :
    Good I stack prog m0 (c.step I stack u) := by
  refine ⟨fun t => ?_, fun o ho => ?_⟩
  · show Along I (stack t) (prog t) m0 (tick I (stack u) c.mem (c.thread u)).1 (if t = u then (tick I (stack u) c.mem (c.thread u)).2 else c.thread t)
    by_cases ht : t = u
    · subst ht
      rw [if_pos rfl]
      exact along_tick _ _ _ _ _ _ (h.along t)
    · rw [if_neg ht]
      refine along_mem _ _ _ _ _ _ _ (h.along t) fun o hu => ?_
      exact tick_mem _ _ _ _ _ _ (h.along u) o fun hm => hd u t (Ne.symm ht) o hm hu
  · exact (tick_mem _ _ _ _ _ _ (h.along u) o (ho u)).trans (h.kept o ho)

theorem good_run (hd : Disciplined (cst K) prog) (sched : List τ) : ∀ c : Config K τ, Good I stack prog m0 c → Good I stack prog m0 (c.run I stack sched) := by
  induction sched with
  | nil => exact fun _ h => h
  | cons u us ih => exact fun c h => ih _ (good_step hd c u h)

/-- No race. -/
theorem good_race (hd : Disciplined (cst K) prog) (c : Config K τ) (h : Good I stack prog m0 c) : ¬ c.Race := by
  rintro ⟨t, u, o, htu, ⟨w, ws, r, hw⟩, hu⟩
  have hm : Modifies (cst K) (prog t) o := by
    obtain ⟨past, m, -, ha⟩ := h.along t
    rw [hw] at ha
    obtain ⟨op, s, hp, hc, -⟩ := ha
    exact hp ▸ modifies_mid past _ o op hc
  refine hd t u htu o hm ?_
  obtain ⟨past, m, -, ha⟩ := h.along u
  rcases hu with ⟨w, ws, r, hw⟩ | ⟨op, x, rs, img, hw⟩
  · rw [hw] at ha
    obtain ⟨op, s, hp, -⟩ := ha
    exact hp ▸ uses_mid past _ o op
  · rw [hw] at ha
    exact ha.1 ▸ uses_mid past _ o op

/-! Threads that are given enough steps finish. -/

/-- Steps a call takes at most, from the state `m` of the objects, and those of the calls after it. -/
def cost (I : (o : ι) → Impl (K o)) : List (Sigma fun o => (K o).Op) → (∀ o, (K o).S) → Nat
  | [], _ => 0
  | c :: cs, m =>
    match eff K c.1 c.2 (m c.1) with
    | none => 0
    | some r => 3 + ((I c.1).reads c.2).length + ((I c.1).writes c.2 (m c.1)).length + cost I cs (put c.1 r.2 m)

/-- Steps left. -/
def Left (I : (o : ι) → Impl (K o)) (stack : ∀ o, (K o).S) (prog : List (Sigma fun o => (K o).Op)) (m0 mem : ∀ o, (K o).S) (t : Thread K) (n : Nat) : Prop :=
  ∃ past m, alone (eff K) past m0 = some (t.seen, m) ∧
    match t.phase with
    | .idle => prog = past ++ t.calls ∧ (∀ o, Uses prog o → mem o = m o) ∧ cost I t.calls m ≤ n
    | .reading o op todo img => prog = past ++ ⟨o, op⟩ :: t.calls ∧ (∀ o, Uses prog o → mem o = m o) ∧
        (∃ pre, (I o).reads op = pre ++ todo ∧ img = pre.foldl (fun d r => r (m o) d) (stack o)) ∧
        ∃ r, eff K o op (m o) = some r ∧ 2 + todo.length + ((I o).writes op (m o)).length + cost I t.calls (put o r.2 m) ≤ n
    | .writing o todo r => ∃ op s, prog = past ++ ⟨o, op⟩ :: t.calls ∧ (K o).const op = false ∧ (K o).step op (m o) = .ok (r, s) ∧
        (∀ o', o' ≠ o → Uses prog o' → mem o' = m o') ∧
        (∃ pre, (I o).writes op (m o) = pre ++ todo ∧ mem o = pre.foldl (fun d w => w d) (m o)) ∧
        1 + todo.length + cost I t.calls (put o s m) ≤ n
    | .undefined => False

theorem left_tick (I : (o : ι) → Impl (K o)) (stack : ∀ o, (K o).S) (prog : List (Sigma fun o => (K o).Op)) (m0 mem : ∀ o, (K o).S)
    (hd : alone (eff K) prog m0 ≠ none) (t : Thread K) (n : Nat)
    (h : Left I stack prog m0 mem t n) : Left I stack prog m0 (tick I stack mem t).1 (tick I stack mem t).2 (n - 1) := by
  obtain ⟨calls, phase, seen⟩ := t
  obtain ⟨past, m, ha, h⟩ := h
  cases phase with
  | idle =>
    obtain ⟨hp, hm, hn⟩ := h
    cases calls with
    | nil => exact ⟨past, m, ha, hp, hm, Nat.zero_le _⟩
    | cons c cs =>
      rw [hp, alone_append (eff K) (c :: cs) past m0 _ ha] at hd
      simp only [alone, cost] at hd hn
      cases he : eff K c.1 c.2 (m c.1) with
      | none => simp [he] at hd
      | some r =>
        simp only [he] at hn
        refine ⟨past, m, ha, hp, hm, ⟨[], rfl, rfl⟩, r, he, ?_⟩
        show 2 + ((I c.1).reads c.2).length + ((I c.1).writes c.2 (m c.1)).length + cost I cs (put c.1 r.2 m) ≤ n - 1
        omega
  | undefined => exact h.elim
  | reading o op todo img =>
    obtain ⟨hp, hm, ⟨pre, hr, hi⟩, q, hq, hn⟩ := h
    have hu : Uses prog o := hp ▸ uses_mid past calls o op
    cases todo with
    | cons r rs =>
      refine ⟨past, m, ha, hp, hm, ⟨pre ++ [r], by simp [hr], ?_⟩, q, hq, ?_⟩
      · show r (mem o) img = _
        rw [hm o hu, hi, List.foldl_append]; rfl
      · have hn : 2 + (rs.length + 1) + ((I o).writes op (m o)).length + cost I calls (put o q.2 m) ≤ n := hn
        show 2 + rs.length + ((I o).writes op (m o)).length + cost I calls (put o q.2 m) ≤ n - 1
        omega
    | nil =>
      have hi : img = m o := by
        have := (I o).reads_all op (m o) (stack o)
        rw [hr, List.append_nil] at this
        rw [hi, this]
      subst hi
      simp only [List.length_nil] at hn
      cases hs : (K o).step op (m o) with
      | error e => simp [eff, hs] at hq
      | ok r =>
        obtain ⟨r, s⟩ := r
        simp only [tick, hs]
        cases hc : (K o).const op with
        | true =>
          simp only [eff, hs, hc, if_true, Option.some.injEq] at hq
          subst hq
          rw [put_self] at hn
          refine ⟨past ++ [⟨o, op⟩], m, ?_, ?_, hm, ?_⟩
          · have := alone_snoc (eff K) past ⟨o, op⟩ m0 seen m r (m o) ha (by simp [eff, hs, hc])
            rw [put_self] at this
            exact this
          · simp [hp]
          · show cost I calls m ≤ n - 1
            omega
        | false =>
          simp only [eff, hs, hc, Option.some.injEq] at hq
          subst hq
          refine ⟨past, m, ha, op, s, hp, hc, hs, fun o' _ h' => hm o' h', ⟨[], rfl, hm o hu⟩, ?_⟩
          have hn : 2 + 0 + ((I o).writes op (m o)).length + cost I calls (put o s m) ≤ n := hn
          show 1 + ((I o).writes op (m o)).length + cost I calls (put o s m) ≤ n - 1
          omega
  | writing o todo r =>
    obtain ⟨op, s, hp, hc, hs, hm, ⟨pre, hw, ho⟩, hn⟩ := h
    cases todo with
    | cons w ws =>
      refine ⟨past, m, ha, op, s, hp, hc, hs, ?_, ⟨pre ++ [w], by simp [hw], ?_⟩, ?_⟩
      · intro o' hn hu
        show write o _ mem o' = m o'
        rw [write_eq, put_other _ _ _ _ hn]
        exact hm o' hn hu
      · show write o _ mem o = _
        rw [write_eq, put_same, ho, List.foldl_append]; rfl
      · have hn : 1 + (ws.length + 1) + cost I calls (put o s m) ≤ n := hn
        show 1 + ws.length + cost I calls (put o s m) ≤ n - 1
        omega
    | nil =>
      rw [List.append_nil] at hw
      have hf : mem o = s := by rw [ho, ← hw]; exact (I o).writes_all op (m o) r s hs hc
      refine ⟨past ++ [⟨o, op⟩], put o s m, ?_, by simp [tick, hp], ?_, ?_⟩
      · exact alone_snoc (eff K) past ⟨o, op⟩ m0 seen m r s ha (by simp [eff, hs, hc])
      · intro o' hu
        by_cases hn : o' = o
        · subst hn; rw [put_same]; exact hf
        · rw [put_other _ _ _ _ hn]; exact hm o' hn hu
      · have hn : 1 + 0 + cost I calls (put o s m) ≤ n := hn
        show cost I calls (put o s m) ≤ n - 1
        omega

theorem left_mem (I : (o : ι) → Impl (K o)) (stack : ∀ o, (K o).S) (prog : List (Sigma fun o => (K o).Op)) (m0 mem mem' : ∀ o, (K o).S) (t : Thread K) (n : Nat)
    (h : Left I stack prog m0 mem t n) (hm : ∀ o, Uses prog o → mem' o = mem o) : Left I stack prog m0 mem' t n := by
  obtain ⟨past, m, ha, h⟩ := h
  refine ⟨past, m, ha, ?_⟩
  cases hp : t.phase with
  | idle =>
    rw [hp] at h
    exact ⟨h.1, fun o hu => (hm o hu).trans (h.2.1 o hu), h.2.2⟩
  | undefined => rw [hp] at h; exact h
  | reading o op todo img =>
    rw [hp] at h
    exact ⟨h.1, fun o hu => (hm o hu).trans (h.2.1 o hu), h.2.2⟩
  | writing o todo r =>
    rw [hp] at h
    obtain ⟨op, s, h1, h2, h3, h4, ⟨pre, h5, h6⟩, h7⟩ := h
    exact ⟨op, s, h1, h2, h3, fun o' hn hu => (hm o' hu).trans (h4 o' hn hu), ⟨pre, h5, (hm o (h1 ▸ uses_mid past t.calls o op)).trans h6⟩, h7⟩

theorem left_run (hd : Disciplined (cst K) prog) (t : τ) (hdef : alone (eff K) (prog t) m0 ≠ none) (sched : List τ) : ∀ (c : Config K τ) (n : Nat),
    Good I stack prog m0 c → Left I (stack t) (prog t) m0 c.mem (c.thread t) n →
      Left I (stack t) (prog t) m0 (c.run I stack sched).mem ((c.run I stack sched).thread t) (n - sched.count t) := by
  induction sched with
  | nil => exact fun _ _ _ h => h
  | cons u us ih =>
    intro c n hg h
    have hs := good_step hd c u hg
    by_cases ht : t = u
    · subst ht
      rw [List.count_cons_self]
      have := ih (c.step I stack t) (n - 1) hs (by
        show Left I (stack t) (prog t) m0 (tick I (stack t) c.mem (c.thread t)).1 (if t = t then (tick I (stack t) c.mem (c.thread t)).2 else c.thread t) (n - 1)
        rw [if_pos rfl]
        exact left_tick _ _ _ _ _ hdef _ _ h)
      rw [show n - (us.count t + 1) = n - 1 - us.count t by omega]
      exact this
    · rw [List.count_cons_of_ne (Ne.symm ht)]
      refine ih (c.step I stack u) n hs ?_
      show Left I (stack t) (prog t) m0 (tick I (stack u) c.mem (c.thread u)).1 (if t = u then (tick I (stack u) c.mem (c.thread u)).2 else c.thread t) n
      rw [if_neg ht]
      refine left_mem _ _ _ _ _ _ _ _ h fun o hu => ?_
      exact tick_mem _ _ _ _ _ _ (hg.along u) o fun hm => hd u t (Ne.symm ht) o hm hu

theorem cost_zero {I : (o : ι) → Impl (K o)} (cs : List (Sigma fun o => (K o).Op)) (m : ∀ o, (K o).S) (hd : alone (eff K) cs m ≠ none) (h : cost I cs m ≤ 0) : cs = [] := by
  cases cs with
  | nil => rfl
  | cons c cs =>
    simp only [alone, cost] at hd h
    cases he : eff K c.1 c.2 (m c.1) with
    | none => simp [he] at hd
    | some r => simp only [he] at h; omega

/-- Nothing left to do: finished. -/
theorem left_zero (prog : List (Sigma fun o => (K o).Op)) (stack mem : ∀ o, (K o).S) (hdef : alone (eff K) prog m0 ≠ none) (t : Thread K)
    (h : Left I stack prog m0 mem t 0) : t.Finished := by
  obtain ⟨calls, phase, seen⟩ := t
  obtain ⟨past, m, ha, h⟩ := h
  cases phase with
  | idle =>
    obtain ⟨hp, -, hn⟩ := h
    refine ⟨rfl, cost_zero calls m ?_ hn⟩
    intro hnone
    rw [hp, alone_append (eff K) calls past m0 _ ha] at hdef
    exact hdef (by rw [show alone (eff K) calls (seen, m).2 = none from hnone]; rfl)
  | undefined => exact h.elim
  | reading o op todo img => obtain ⟨-, -, -, r, -, hn⟩ := h; omega
  | writing o todo r => obtain ⟨op, s, -, -, -, -, -, hn⟩ := h; omega

end Digestpp.Proofs.Threads
