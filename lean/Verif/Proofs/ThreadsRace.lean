import Verif.Proofs.Threads

/-! C63: two threads calling functions that are not `const` on one object. -/

namespace Digestpp.Proofs.Threads
open Model Model.Threads Spec.Threads

variable {ι τ : Type} [DecidableEq ι] [DecidableEq τ] {K : ι → Kind} {I : (o : ι) → Impl (K o)} {stack : τ → ∀ o, (K o).S}

theorem run_append (a b : List τ) (c : Config K τ) : c.run I stack (a ++ b) = (c.run I stack a).run I stack b := List.foldl_append

theorem run_cons (u : τ) (a : List τ) (c : Config K τ) : c.run I stack (u :: a) = (c.step I stack u).run I stack a := rfl

/-- The thread `u` replaced. -/
def setThread (u : τ) (x : Thread K) (f : τ → Thread K) : τ → Thread K := fun t => if t = u then x else f t

theorem setThread_same (u : τ) (x : Thread K) (f : τ → Thread K) : setThread u x f u = x := if_pos rfl

theorem setThread_other (u t : τ) (x : Thread K) (f : τ → Thread K) (h : t ≠ u) : setThread u x f t = f t := if_neg h

theorem setThread_twice (u : τ) (x y : Thread K) (f : τ → Thread K) : setThread u x (setThread u y f) = setThread u x f := by
  funext t
  by_cases h : t = u <;> simp [setThread, h]

theorem step_eq (u : τ) (m : ∀ o, (K o).S) (x : Thread K) (f : τ → Thread K) :
    (Config.mk m (setThread u x f)).step I stack u = ⟨(tick I (stack u) m x).1, setThread u (tick I (stack u) m x).2 f⟩ := by
  simp only [Config.step, setThread_same]
  congr 1
  funext t
  by_cases h : t = u <;> simp [setThread, h]

/-- All reads of a call. -/
theorem run_reads (u : τ) (m : ∀ o, (K o).S) (f : τ → Thread K) (calls : List (Sigma fun o => (K o).Op)) (seen : List Obs) (o : ι) (op : (K o).Op) :
    ∀ (todo : List ((K o).S → (K o).S → (K o).S)) (img : (K o).S),
      (Config.mk m (setThread u ⟨calls, .reading o op todo img, seen⟩ f)).run I stack (List.replicate todo.length u) =
        ⟨m, setThread u ⟨calls, .reading o op [] (todo.foldl (fun d r => r (m o) d) img), seen⟩ f⟩
  | [], _ => rfl
  | r :: rs, img => by
    rw [List.length_cons, List.replicate_succ, run_cons, step_eq]
    exact run_reads u m f calls seen o op rs (r (m o) img)

/-- All writes of a call. -/
theorem run_writes (u : τ) (f : τ → Thread K) (calls : List (Sigma fun o => (K o).Op)) (seen : List Obs) (o : ι) (r : Obs) :
    ∀ (todo : List ((K o).S → (K o).S)) (m : ∀ o, (K o).S),
      (Config.mk m (setThread u ⟨calls, .writing o todo r, seen⟩ f)).run I stack (List.replicate todo.length u) =
        ⟨put o (todo.foldl (fun d w => w d) (m o)) m, setThread u ⟨calls, .writing o [] r, seen⟩ f⟩
  | [], m => by
    show _ = (⟨put o (m o) m, _⟩ : Config K τ)
    rw [put_self]; rfl
  | w :: ws, m => by
    rw [List.length_cons, List.replicate_succ, run_cons, step_eq]
    refine (run_writes u f calls seen o r ws (write o (w (m o)) m)).trans ?_
    rw [write_eq, put_same]
    congr 1
    funext o'
    by_cases h : o' = o
    · subst h; rw [put_same, put_same]; rfl
    · rw [put_other _ _ _ _ h, put_other _ _ _ _ h, put_other _ _ _ _ h]

/-- A call that is not `const`, up to its first write. -/
theorem run_upto (u : τ) (m : ∀ o, (K o).S) (f : τ → Thread K) (o : ι) (op : (K o).Op) (r : Obs) (s : (K o).S)
    (hs : (K o).step op (m o) = .ok (r, s)) (hc : (K o).const op = false) :
    (Config.mk m (setThread u ⟨[⟨o, op⟩], .idle, []⟩ f)).run I stack (u :: (List.replicate ((I o).reads op).length u ++ [u])) =
      ⟨m, setThread u ⟨[], .writing o ((I o).writes op (m o)) r, []⟩ f⟩ := by
  rw [run_cons, run_append, step_eq]
  have h : (Config.mk (tick I (stack u) m ⟨[⟨o, op⟩], .idle, []⟩).1 (setThread u (tick I (stack u) m ⟨[⟨o, op⟩], .idle, []⟩).2 f)).run I stack
      (List.replicate ((I o).reads op).length u) = ⟨m, setThread u ⟨[], .reading o op [] (m o), []⟩ f⟩ := by
    refine (run_reads u m f [] [] o op ((I o).reads op) (stack u o)).trans ?_
    rw [(I o).reads_all]
  rw [h, run_cons, step_eq]
  simp only [tick, hs, hc]
  rfl

/-- The rest of the call. -/
theorem run_rest (u : τ) (m : ∀ o, (K o).S) (f : τ → Thread K) (o : ι) (ws : List ((K o).S → (K o).S)) (r : Obs) :
    (Config.mk m (setThread u ⟨[], .writing o ws r, []⟩ f)).run I stack (List.replicate ws.length u ++ [u]) =
      ⟨put o (ws.foldl (fun d w => w d) (m o)) m, setThread u ⟨[], .idle, [r]⟩ f⟩ := by
  rw [run_append, run_writes, run_cons, step_eq]
  rfl

theorem setThread_comm (u v : τ) (h : u ≠ v) (x y : Thread K) (f : τ → Thread K) : setThread u x (setThread v y f) = setThread v y (setThread u x f) := by
  funext t
  simp only [setThread]
  by_cases h1 : t = u
  · subst h1; simp [h]
  · simp [h1]

/-- Both calls read before either writes: the first is lost. -/
theorem lost (k : Kind) (parts : List (k.S → k.S → k.S)) (all : ∀ s d, parts.foldl (fun d p => p s d) d = s) (opA opB : k.Op)
    (s sA sB : k.S) (rA rB : Obs) (hA : k.step opA s = .ok (rA, sA)) (hB : k.step opB s = .ok (rB, sB)) (cA : k.const opA = false) (cB : k.const opB = false)
    (stack : Bool → Unit → k.S) :
    ∃ pre post : List Bool,
      (parts ≠ [] → ((Config.start (K := fun _ : Unit => k) (fun _ => s) (fun b => [⟨(), if b then opB else opA⟩])).run
        (fun _ => Impl.plain k parts all) stack pre).Race) ∧
      (Config.start (K := fun _ : Unit => k) (fun _ => s) (fun b => [⟨(), if b then opB else opA⟩])).run (fun _ => Impl.plain k parts all) stack (pre ++ post) =
        ⟨fun _ => sB, fun b => ⟨[], .idle, [if b then rB else rA]⟩⟩ := by
  let K : Unit → Kind := fun _ => k
  let I : (o : Unit) → Impl (K o) := fun _ => Impl.plain k parts all
  have wA : (I ()).writes opA s = parts.map fun p => p sA := by show (match k.step opA s with | .ok (_, s') => _ | .error _ => _) = _; rw [hA]
  have wB : (I ()).writes opB s = parts.map fun p => p sB := by show (match k.step opB s with | .ok (_, s') => _ | .error _ => _) = _; rw [hB]
  have fold : ∀ s' d : k.S, (parts.map fun p => p s').foldl (fun d w => w d) d = s' := fun s' d => by rw [List.foldl_map]; exact all s' d
  have st : Config.start (K := K) (τ := Bool) (fun _ => s) (fun b => [⟨(), if b then opB else opA⟩]) =
      ⟨fun _ => s, setThread false ⟨[⟨(), opA⟩], .idle, []⟩ (setThread true ⟨[⟨(), opB⟩], .idle, []⟩ fun _ => ⟨[], .idle, []⟩)⟩ := by
    unfold Config.start
    congr 1
    funext b
    cases b <;> rfl
  have h1 := run_upto (I := I) (stack := stack) false (fun _ => s) (setThread true ⟨[⟨(), opB⟩], .idle, []⟩ fun _ => ⟨[], .idle, []⟩) () opA rA sA hA cA
  rw [← st] at h1
  have h2 := run_upto (I := I) (stack := stack) true (fun _ => s) (setThread false ⟨[], .writing () ((I ()).writes opA s) rA, []⟩ fun _ => ⟨[], .idle, []⟩) () opB rB sB hB cB
  rw [setThread_comm false true nofun] at h1
  have h12 := (run_append (I := I) (stack := stack) (false :: (List.replicate ((I ()).reads opA).length false ++ [false]))
    (true :: (List.replicate ((I ()).reads opB).length true ++ [true])) (Config.start (K := K) (fun _ => s) (fun b => [⟨(), if b then opB else opA⟩])))
  rw [h1, h2] at h12
  generalize (false :: (List.replicate ((I ()).reads opA).length false ++ [false])) ++
    (true :: (List.replicate ((I ()).reads opB).length true ++ [true])) = pre at h12
  refine ⟨pre, (List.replicate parts.length false ++ [false]) ++ (List.replicate parts.length true ++ [true]), ?_, ?_⟩
  rotate_left
  · refine (run_append (I := I) (stack := stack) _ _ _).trans ?_
    show (Config.run I stack pre _).run I stack _ = _
    rw [h12, setThread_comm true false nofun]
    refine (run_append (I := I) (stack := stack) _ _ _).trans ?_
    have h3 := run_rest (I := I) (stack := stack) false (fun _ => s) (setThread true ⟨[], .writing () ((I ()).writes opB s) rB, []⟩ fun _ => ⟨[], .idle, []⟩) ()
      ((I ()).writes opA s) rA
    rw [wA, List.length_map, fold] at h3
    rw [wA, h3, setThread_comm false true nofun, wB]
    have h4 := run_rest (I := I) (stack := stack) true (put () sA fun _ => s) (setThread false ⟨[], .idle, [rA]⟩ fun _ => ⟨[], .idle, []⟩) ()
      (parts.map fun p => p sB) rB
    rw [List.length_map, fold] at h4
    rw [h4]
    congr 1
    · funext b
      cases b <;> rfl
  · intro hp
    show (Config.run I stack pre _).Race
    rw [h12]
    obtain ⟨p, ps, rfl⟩ := List.exists_cons_of_ne_nil hp
    refine ⟨false, true, (), nofun, ⟨p sA, ps.map fun p => p sA, rA, ?_⟩, .inl ⟨p sB, ps.map fun p => p sB, rB, ?_⟩⟩
    · show Phase.writing () ((I ()).writes opA s) rA = _
      rw [wA]; rfl
    · show Phase.writing () ((I ()).writes opB s) rB = _
      rw [wB]; rfl

end Digestpp.Proofs.Threads
