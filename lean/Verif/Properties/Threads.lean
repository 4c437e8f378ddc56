import Verif.Proofs.ThreadsRace
import Verif.Properties.Md5
import Verif.Catalog

/-! C63: README.md, "Thread Safety" (lines 297-303). Any number of objects of any classes, any number of threads, any order in which the steps of the threads follow each other, any
division of the calls into accesses to parts of the objects (`Impl`). -/

namespace Digestpp.Properties
open Model Model.Threads Spec.Threads
open Proofs.Threads (eff cst Along Good)

/-- A class: hash function or extendable output function. -/
inductive AnyClass where
  | hash (c : HashClass)
  | xof (c : XofClass)

/-- As threads see it. -/
def AnyClass.kind : AnyClass → Kind
  | .hash c => ofHash c
  | .xof c => ofXof c

/-- The classes of the catalog among them. -/
def AnyClass.ofHashName (h : HashName) : AnyClass := .hash h.cls

/-- The classes of the catalog among them. -/
def AnyClass.ofXofName (x : XofName) : AnyClass := .xof x.cls

variable {ι τ : Type} [DecidableEq ι] [DecidableEq τ] (cls : ι → AnyClass)

/-- The effect of a complete call; `none` for undefined behaviour. -/
def effect (o : ι) (op : (cls o).kind.Op) (s : (cls o).kind.S) : Option (Obs × (cls o).kind.S) := ((cls o).kind.step op s).toOption

/-- Which calls are `const`. -/
def isConst (o : ι) (op : (cls o).kind.Op) : Bool := (cls o).kind.const op

/-- The calls of a thread. -/
abbrev Calls := List (Sigma fun o => (cls o).kind.Op)

/-- A `const` call leaves the object as it is. -/
theorem const_keeps (c : AnyClass) (op : c.kind.Op) (s : c.kind.S) (r : Obs × c.kind.S) (hc : c.kind.const op = true) (h : c.kind.step op s = .ok r) : r.2 = s := by
  cases c with
  | xof c => exact absurd hc (by show ¬ false = true; decide)
  | hash c =>
    have h : c.pr.step op s = .ok r := h
    have hc : hashConst (P := c.P) op = true := hc
    cases op with
    | absorb src => cases hc
    | reset b => cases hc
    | set p => cases hc
    | digestBuf b =>
      have h : (c.pr.digestBuf b s >>= fun o => pure (o, s)) = .ok r := h
      cases e : c.pr.digestBuf b s with
      | error _ => rw [e] at h; cases h
      | ok v => rw [e] at h; cases h; rfl
    | digest =>
      have h : (c.pr.digestIt s >>= fun b => pure (.bytes b, s)) = .ok r := h
      cases e : c.pr.digestIt s with
      | error _ => rw [e] at h; cases h
      | ok v => rw [e] at h; cases h; rfl
    | hexdigest =>
      have h : (c.pr.digestIt s >>= fun b => pure (.text (hexString b), s)) = .ok r := h
      cases e : c.pr.digestIt s with
      | error _ => rw [e] at h; cases h
      | ok v => rw [e] at h; cases h; rfl

theorem eff_eq : eff (fun o => (cls o).kind) = effect cls := by
  funext o op s
  unfold eff effect
  cases h : (cls o).kind.step op s with
  | error e => rfl
  | ok r =>
    cases hc : (cls o).kind.const op with
    | false => rfl
    | true =>
      have := const_keeps (cls o) op s r hc h
      show some (r.1, s) = some r
      rw [← this]

variable {cls} {I : (o : ι) → Impl (cls o).kind} {stack : τ → ∀ o, (cls o).kind.S} {prog : τ → Calls cls} {m0 : ∀ o, (cls o).kind.S}

/-- **C63.** If no object that one thread modifies is used by another, a thread whose calls have all returned has seen what it would have seen alone, and the objects it
modifies contain what they would contain. -/
theorem threads_alone (hd : Disciplined (isConst cls) prog) (sched : List τ) (t : τ)
    (hf : (((Config.start m0 prog).run I stack sched).thread t).Finished) :
    ∃ m, alone (effect cls) (prog t) m0 = some ((((Config.start m0 prog).run I stack sched).thread t).seen, m) ∧
      ∀ o, Modifies (isConst cls) (prog t) o → ((Config.start m0 prog).run I stack sched).mem o = m o := by
  have hg : Good I stack prog m0 ((Config.start m0 prog).run I stack sched) := Proofs.Threads.good_run hd sched _ Proofs.Threads.good_start
  obtain ⟨past, m, ha, h⟩ := hg.along t
  rw [hf.1] at h
  obtain ⟨hp, hm⟩ := h
  rw [hf.2, List.append_nil] at hp
  subst past
  rw [eff_eq] at ha
  exact ⟨m, ha, fun o ⟨c, hc, ho, _⟩ => hm o ⟨c, hc, ho⟩⟩

/-- **C63.** At every moment a thread has seen the results of some of its first calls as they are when it is alone. -/
theorem threads_prefix (hd : Disciplined (isConst cls) prog) (sched : List τ) (t : τ) :
    ∃ n m, alone (effect cls) ((prog t).take n) m0 = some ((((Config.start m0 prog).run I stack sched).thread t).seen, m) := by
  have hg : Good I stack prog m0 ((Config.start m0 prog).run I stack sched) := Proofs.Threads.good_run hd sched _ Proofs.Threads.good_start
  obtain ⟨past, m, ha, h⟩ := hg.along t
  rw [eff_eq] at ha
  obtain ⟨rest, hp⟩ : ∃ rest, prog t = past ++ rest := by
    cases hph : (((Config.start m0 prog).run I stack sched).thread t).phase with
    | idle => rw [hph] at h; exact ⟨_, h.1⟩
    | reading o op todo img => rw [hph] at h; exact ⟨_, h.1⟩
    | writing o todo r => rw [hph] at h; obtain ⟨op, s, hp, -⟩ := h; exact ⟨_, hp⟩
    | undefined => rw [hph] at h; obtain ⟨o, op, rest, hp, -⟩ := h; exact ⟨_, hp⟩
  exact ⟨past.length, m, by rw [hp, List.take_left]; exact ha⟩

/-- **C63.** A thread whose calls are defined when it is alone never runs into undefined behaviour, and its calls return once it has been given enough steps, whatever the
others do. -/
theorem threads_finish (hd : Disciplined (isConst cls) prog) (t : τ) (hdef : alone (effect cls) (prog t) m0 ≠ none) :
    ∃ n, ∀ sched : List τ, n ≤ sched.count t → (((Config.start m0 prog).run I stack sched).thread t).Finished := by
  rw [← eff_eq] at hdef
  refine ⟨Proofs.Threads.cost I (prog t) m0, fun sched hn => ?_⟩
  have hl : Proofs.Threads.Left I (stack t) (prog t) m0 m0 ⟨prog t, .idle, []⟩ (Proofs.Threads.cost I (prog t) m0) :=
    ⟨[], m0, rfl, rfl, fun _ _ => rfl, Nat.le_refl _⟩
  have h := Proofs.Threads.left_run hd t hdef sched (Config.start m0 prog) _ (Proofs.Threads.good_start (I := I) (stack := stack)) hl
  rw [Nat.sub_eq_zero_of_le hn] at h
  exact Proofs.Threads.left_zero _ _ _ hdef _ h

/-- **C63.** There is no data race. -/
theorem threads_no_race (hd : Disciplined (isConst cls) prog) (sched : List τ) : ¬ ((Config.start m0 prog).run I stack sched).Race :=
  Proofs.Threads.good_race hd _ (Proofs.Threads.good_run (I := I) (stack := stack) hd sched _ Proofs.Threads.good_start)

/-- **C63.** Objects of which only `const` functions are called keep their contents. -/
theorem threads_const_keep (hd : Disciplined (isConst cls) prog) (sched : List τ) (o : ι) (ho : ∀ t, ¬ Modifies (isConst cls) (prog t) o) :
    ((Config.start m0 prog).run I stack sched).mem o = m0 o :=
  (Proofs.Threads.good_run (I := I) (stack := stack) hd sched _ Proofs.Threads.good_start).kept o ho

/-- Calls on one object, the only one there is. -/
def onlyCalls {c : HashClass} : List (HashOp c.P) → Calls fun _ : Unit => AnyClass.hash c
  | [] => []
  | op :: ops => ⟨(), op⟩ :: onlyCalls ops

theorem mem_onlyCalls {c : HashClass} (x : Sigma fun _ : Unit => (AnyClass.hash c).kind.Op) : ∀ ops : List (HashOp c.P), x ∈ onlyCalls ops → ∃ op ∈ ops, x = ⟨(), op⟩
  | [], h => nomatch h
  | op :: ops, h => by
    rcases List.mem_cons.1 h with h | h
    · exact ⟨op, List.mem_cons_self .., h⟩
    · obtain ⟨op', h1, h2⟩ := mem_onlyCalls x ops h
      exact ⟨op', List.mem_cons_of_mem _ h1, h2⟩

theorem alone_only {c : HashClass} : ∀ (ops : List (HashOp c.P)) (m : Unit → c.S) (os : List Obs) (m' : Unit → c.S),
    alone (effect fun _ : Unit => AnyClass.hash c) (onlyCalls ops) m = some (os, m') → c.pr.run ops (m ()) = .ok (os, m' ())
  | [], m, os, m', h => by cases h; rfl
  | op :: ops, m, os, m', h => by
    simp only [onlyCalls, alone] at h
    have he : effect (fun _ : Unit => AnyClass.hash c) () op (m ()) = (c.pr.step op (m ())).toOption := rfl
    rw [he] at h
    cases hs : c.pr.step op (m ()) with
    | error e => rw [hs] at h; cases h
    | ok r =>
      rw [hs] at h
      dsimp only [Except.toOption] at h
      cases ha : alone (effect fun _ : Unit => AnyClass.hash c) (onlyCalls ops) (put () r.2 m) with
      | none => rw [ha] at h; cases h
      | some q =>
        rw [ha] at h
        have h := Option.some.inj h
        obtain ⟨h1, h2⟩ := Prod.mk.inj h
        have ih : c.pr.run ops r.2 = .ok (q.1, q.2 ()) := alone_only ops (put () r.2 m) q.1 q.2 ha
        simp only [HashProvider.run, hs, bind, Except.bind, ih, pure, Except.pure, ← h1, ← h2]

omit [DecidableEq τ] in
/-- Calls for the digest only: no thread modifies the object. -/
theorem digests_disciplined {c : HashClass} (asks : τ → List (HashOp c.P)) (hconst : ∀ t, ∀ op ∈ asks t, op.IsDigest) :
    Disciplined (isConst fun _ : Unit => AnyClass.hash c) (fun t => onlyCalls (asks t)) := by
  rintro t u - o ⟨x, hx, ho, hx'⟩
  exfalso
  obtain ⟨op, hop, rfl⟩ := mem_onlyCalls x _ hx
  have := hconst t op hop
  cases op with
  | absorb _ => exact this
  | reset _ => exact this
  | set _ => exact this
  | digestBuf _ => exact absurd hx' (by show ¬ true = false; decide)
  | digest => exact absurd hx' (by show ¬ true = false; decide)
  | hexdigest => exact absurd hx' (by show ¬ true = false; decide)

/-- **C63.** Any number of threads ask one object for its digest, the object being of a class that conforms to `f` and having gone through any history: each gets
what the specification says. -/
theorem threads_digest {c : HashClass} {Θ : Type} {f : Spec.HashFn c.P Θ} {cov : Spec.Cover c.P Θ} (hc : HashConforms c f cov) (mem : c.S) (hm : c.Mem mem)
    (past : List (HashOp c.P)) (hpast : f.Covered cov past f.new) (asks : τ → List (HashOp c.P)) (hconst : ∀ t, ∀ op ∈ asks t, op.IsDigest)
    (hcov : ∀ t, f.Covered cov (past ++ asks t) f.new) :
    ∃ s0 s os, c.construct mem = .ok (some s0) ∧ c.pr.run past s0 = .ok (os, s) ∧
      ∀ (I : Unit → Impl (ofHash c)) (stack : τ → Unit → c.S) (sched : List τ) (t : τ),
        (((Config.start (K := fun _ : Unit => ofHash c) (fun _ => s) (fun t => onlyCalls (asks t))).run I stack sched).thread t).Finished →
          os ++ (((Config.start (K := fun _ : Unit => ofHash c) (fun _ => s) (fun t => onlyCalls (asks t))).run I stack sched).thread t).seen =
            (f.run (past ++ asks t) f.new).1 := by
  obtain ⟨s0, h0, hrun⟩ := hc mem hm
  have split : ∀ (a b : List (HashOp c.P)) (s : c.S) (os : List Obs) (s' : c.S), c.pr.run (a ++ b) s = .ok (os, s') →
      ∃ o1 s1 o2, c.pr.run a s = .ok (o1, s1) ∧ c.pr.run b s1 = .ok (o2, s') ∧ os = o1 ++ o2 := by
    intro a
    induction a with
    | nil => intro b s os s' h; exact ⟨[], s, os, rfl, h, rfl⟩
    | cons op a ih =>
      intro b s os s' h
      simp only [List.cons_append, HashProvider.run] at h ⊢
      cases h1 : c.pr.step op s with
      | error e => simp [h1, bind, Except.bind] at h
      | ok r =>
        cases h2 : c.pr.run (a ++ b) r.2 with
        | error e => simp [h1, h2, bind, Except.bind] at h
        | ok q =>
          simp only [h1, h2, bind, Except.bind, pure, Except.pure, Except.ok.injEq, Prod.mk.injEq] at h
          obtain ⟨e1, e2⟩ := h
          obtain ⟨o1, s1, o2, i1, i2, i3⟩ := ih b r.2 q.1 q.2 h2
          exact ⟨r.1 :: o1, s1, o2, by simp only [i1, bind, Except.bind, pure, Except.pure], by rw [i2, e2], by rw [← e1, i3]; rfl⟩
  obtain ⟨s1, h1⟩ := hrun _ hpast
  refine ⟨s0, s1, _, h0, h1, fun I stack sched t hf => ?_⟩
  obtain ⟨m, ha, -⟩ := threads_alone (cls := fun _ : Unit => AnyClass.hash c) (I := I) (stack := stack) (m0 := fun _ => s1)
    (digests_disciplined asks hconst) sched t hf
  have hr := alone_only (asks t) (fun _ => s1) _ m ha
  obtain ⟨s2, hs2⟩ := hrun _ (hcov t)
  obtain ⟨p1, q1, p2, i1, i2, i3⟩ := split _ _ _ _ _ hs2
  rw [h1] at i1
  obtain ⟨e1, e2⟩ := Prod.mk.inj (Except.ok.inj i1)
  rw [← e2] at i2
  have i2 := (Prod.mk.inj (Except.ok.inj (hr.symm.trans i2))).1
  rw [i3, ← i2, ← e1]
  rfl

/-- **C63.** Without external synchronization it goes wrong, for every class and every two calls that are not `const`: there is an order of steps that leads to a data race and after which both
calls have returned normally, but the first has had no effect. -/
theorem threads_lost (k : Kind) (parts : List (k.S → k.S → k.S)) (hne : parts ≠ []) (all : ∀ s d, parts.foldl (fun d p => p s d) d = s) (opA opB : k.Op)
    (s sA sB : k.S) (rA rB : Obs) (hA : k.step opA s = .ok (rA, sA)) (hB : k.step opB s = .ok (rB, sB)) (cA : k.const opA = false) (cB : k.const opB = false)
    (stack : Bool → Unit → k.S) :
    ∃ pre post : List Bool,
      ((Config.start (K := fun _ : Unit => k) (fun _ => s) (fun b => [⟨(), if b then opB else opA⟩])).run (fun _ => Impl.plain k parts all) stack pre).Race ∧
      let r := (Config.start (K := fun _ : Unit => k) (fun _ => s) (fun b => [⟨(), if b then opB else opA⟩])).run (fun _ => Impl.plain k parts all) stack (pre ++ post)
      (r.thread false).Finished ∧ (r.thread true).Finished ∧ (r.thread false).seen = [rA] ∧ (r.thread true).seen = [rB] ∧ r.mem () = sB := by
  obtain ⟨pre, post, h1, h2⟩ := Proofs.Threads.lost k parts all opA opB s sA sB rA rB hA hB cA cB stack
  refine ⟨pre, post, h1 hne, ?_⟩
  rw [h2]
  exact ⟨⟨rfl, rfl⟩, ⟨rfl, rfl⟩, rfl, rfl, rfl⟩

/-! The hypotheses can be met. The members of md5_provider.hpp (lines 188-191): -/

/-- Copies one member. -/
def md5Parts : List (Model.Md5.cls.S → Model.Md5.cls.S → Model.Md5.cls.S) :=
  [fun (s d : Blk (List (BitVec 32))) => { d with h := s.h }, fun (s d : Blk (List (BitVec 32))) => { d with m := s.m },
    fun (s d : Blk (List (BitVec 32))) => { d with pos := s.pos }, fun (s d : Blk (List (BitVec 32))) => { d with total := s.total }]

theorem md5Parts_all (s d : Model.Md5.cls.S) : md5Parts.foldl (fun d p => p s d) d = s := rfl

/-- Three threads: the first fills a SHA-1 object (`false`) and asks for its digest, the other two ask a shared MD5 object (`true`). -/
def someCalls : Fin 3 → Calls (fun o : Bool => AnyClass.hash (if o then Model.Md5.cls else Model.Sha1.cls))
  | 0 => [⟨false, (.absorb (.str [0x61]) : HashOp Empty)⟩, ⟨false, (.hexdigest : HashOp Empty)⟩]
  | 1 => [⟨true, (.hexdigest : HashOp Empty)⟩, ⟨true, (.digest : HashOp Empty)⟩]
  | 2 => [⟨true, (.digest : HashOp Empty)⟩]

/-- They keep to the rules. -/
theorem someCalls_disciplined : Disciplined (isConst _) someCalls := by
  rintro t u htu o ⟨c, hc, rfl, hcst⟩ ⟨d, hd, hdo⟩
  match t, u with
  | 0, 0 => exact htu rfl
  | 0, 1 =>
    simp only [someCalls, List.mem_cons, List.not_mem_nil, or_false] at hc hd
    rcases hc with rfl | rfl <;> rcases hd with rfl | rfl <;> cases hdo
  | 0, 2 =>
    simp only [someCalls, List.mem_cons, List.not_mem_nil, or_false] at hc hd
    rcases hc with rfl | rfl <;> subst hd <;> cases hdo
  | 1, _ =>
    simp only [someCalls, List.mem_cons, List.not_mem_nil, or_false] at hc
    rcases hc with rfl | rfl <;> cases hcst
  | 2, _ =>
    simp only [someCalls, List.mem_cons, List.not_mem_nil, or_false] at hc
    subst hc
    cases hcst

/-- An MD5 object that has absorbed "abc". -/
def md5Shared : Model.Md5.cls.S := ⟨[0x67452301, 0xefcdab89, 0x98badcfe, 0x10325476], [0x61, 0x62, 0x63] ++ List.replicate 61 0, 3, 0⟩

/-- The MD5 object, and a SHA-1 object that has absorbed nothing. -/
def someObjects : ∀ o : Bool, (AnyClass.hash (if o then Model.Md5.cls else Model.Sha1.cls)).kind.S
  | true => md5Shared
  | false => (⟨[0x67452301, 0xefcdab89, 0x98badcfe, 0x10325476, 0xc3d2e1f0], List.replicate 64 0, 0, 0⟩ : Blk (List (BitVec 32)))

example : (alone (effect _) (someCalls 0) someObjects).map Prod.fst =
    some [.done, .text "86f7e437faa5a7fce15d1ddcb9eaeaea377667b8".toList] := by decide +kernel

example : (alone (effect _) (someCalls 1) someObjects).map Prod.fst = some [.text "900150983cd24fb0d6963f7d28e17f72".toList,
    .bytes [0x90, 0x01, 0x50, 0x98, 0x3c, 0xd2, 0x4f, 0xb0, 0xd6, 0x96, 0x3f, 0x7d, 0x28, 0xe1, 0x7f, 0x72]] := by decide +kernel

/-- Two threads ask an MD5 object that has absorbed "abc". -/
example : ∃ s : Model.Md5.cls.S, ∀ (stack : Fin 2 → Unit → Model.Md5.cls.S) (sched : List (Fin 2)) (t : Fin 2),
    let r := (Config.start (K := fun _ : Unit => ofHash Model.Md5.cls) (fun _ => s) (fun _ => onlyCalls [.hexdigest])).run
      (fun _ => Impl.plain (ofHash Model.Md5.cls) md5Parts md5Parts_all) stack sched
    (r.thread t).Finished → (r.thread t).seen = [.text "900150983cd24fb0d6963f7d28e17f72".toList] := by
  obtain ⟨s0, s, os, -, h1, h⟩ := threads_digest (τ := Fin 2) md5_conforms md5Mem rfl [.absorb (.str [0x61, 0x62, 0x63])]
    ⟨show 3 < 2 ^ 63 by decide, trivial⟩ (fun _ => [.hexdigest]) (by intro t op h; rw [List.mem_singleton.1 h]; trivial)
    (fun _ => ⟨show 3 < 2 ^ 63 by decide, trivial, trivial⟩)
  refine ⟨s, fun stack sched t hf => ?_⟩
  have hr := h (fun _ => Impl.plain (ofHash Model.Md5.cls) md5Parts md5Parts_all) stack sched t hf
  have ho : os = [.done] := by
    have : Model.Md5.cls.pr.run [.absorb (.str [0x61, 0x62, 0x63])] s0 = .ok (os, s) := h1
    have e : Model.Md5.cls.pr.run [.absorb (.str [0x61, 0x62, 0x63])] s0 =
        (Model.absorb Model.Md5.cls.pr.update (.str [0x61, 0x62, 0x63]) s0 >>= fun s => pure ([.done], s)) := by
      simp only [HashProvider.run, HashProvider.step]
      cases Model.absorb Model.Md5.cls.pr.update (.str [0x61, 0x62, 0x63]) s0 <;> rfl
    rw [e] at this
    cases hx : Model.absorb Model.Md5.cls.pr.update (.str [0x61, 0x62, 0x63]) s0 with
    | error _ => rw [hx] at this; cases this
    | ok v => rw [hx] at this; exact (Prod.mk.inj (Except.ok.inj this)).1.symm
  rw [ho] at hr
  exact (List.cons.inj (hr.trans (show _ = Obs.done :: [.text "900150983cd24fb0d6963f7d28e17f72".toList] by decide +kernel))).2

/-- Two threads absorb "x" and "y" into it at the same time: the outcome can be the digest of "abcy". -/
example : ∃ sA sB : Model.Md5.cls.S, Model.Md5.cls.pr.step (.absorb (.str [0x78])) md5Shared = .ok (.done, sA) ∧
    Model.Md5.cls.pr.step (.absorb (.str [0x79])) md5Shared = .ok (.done, sB) ∧
    ((Model.Md5.cls.pr.step .hexdigest sB).toOption.map Prod.fst) = some (.text "0661a847d51ea88c745db47885922506".toList) := by
  refine ⟨⟨md5Shared.h, [0x61, 0x62, 0x63, 0x78] ++ List.replicate 60 0, 4, 0⟩, ⟨md5Shared.h, [0x61, 0x62, 0x63, 0x79] ++ List.replicate 60 0, 4, 0⟩, ?_, ?_, ?_⟩
  · rfl
  · rfl
  · decide +kernel

end Digestpp.Properties
