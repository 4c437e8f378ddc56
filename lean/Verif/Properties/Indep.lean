import Verif.Properties.Safety
import Verif.Proofs.IndepRun
import Verif.Proofs.IndepShake
import Verif.Proofs.IndepBlake2
import Verif.Proofs.IndepSkein
import Verif.Proofs.IndepEsch

/-! C53: what was in memory before the constructor ran never matters. C54: `reset` forgets everything but the parameters. Both in all
histories: messages of any length, absorbing after squeezing, wrong parameters. -/

namespace Digestpp.Proofs.Indep
open Model Spec

/-- For every extendable output function there are such relations. -/
theorem xof_two (x : XofName) : ∃ E0 E, XofTwin x.cls E0 E := by
  cases x with
  | shake b => exact ⟨_, _, Shake.shake b⟩
  | cshake b => exact ⟨_, _, Shake.cshake b⟩
  | kmac b => exact ⟨_, _, Kmac.xof b⟩
  | k12 => exact ⟨_, _, K12.xof 128 12⟩
  | kt256 => exact ⟨_, _, K12.xof 256 12⟩
  | m14 => exact ⟨_, _, K12.xof 256 14⟩
  | blake2xb => exact ⟨_, _, Blake2.xof_two (by decide)⟩
  | blake2xs => exact ⟨_, _, Blake2.xof_two (by decide)⟩
  | skein256 => exact ⟨_, _, Skein.xof_two (by decide)⟩
  | skein512 => exact ⟨_, _, Skein.xof_two (by decide)⟩
  | skein1024 => exact ⟨_, _, Skein.xof_two (by decide)⟩
  | esch256 => exact ⟨_, _, Esch.xof 384⟩
  | esch384 => exact ⟨_, _, Esch.xof 512⟩
  | ascon => exact ⟨_, _, Ascon.xof⟩
  | asconCxof => exact ⟨_, _, Ascon.cxof⟩

/-- For every hash function, too, or conformance holds without limits. -/
theorem hash_two (h : HashName) : (∃ E0 E, HashTwin h.cls E0 E) ∨ ((∀ n, h.limits.len n) ∧ h.limits.clr) := by
  cases h with
  | blake2b f N => cases f <;> first | exact .inl ⟨_, _, Blake2.blake2_two (by decide) N⟩ | exact .inl ⟨_, _, Blake2.blake2Static_two (by decide) N⟩
  | blake2s f N => cases f <;> first | exact .inl ⟨_, _, Blake2.blake2_two (by decide) N⟩ | exact .inl ⟨_, _, Blake2.blake2Static_two (by decide) N⟩
  | blake2xb f N => cases f <;> first | exact .inl ⟨_, _, Blake2.blake2_two (by decide) N⟩ | exact .inl ⟨_, _, Blake2.blake2Static_two (by decide) N⟩
  | blake2xs f N => cases f <;> first | exact .inl ⟨_, _, Blake2.blake2_two (by decide) N⟩ | exact .inl ⟨_, _, Blake2.blake2Static_two (by decide) N⟩
  | blake2bp f N =>
    cases f
    · exact .inl ⟨_, _, Blake2p.blake2p_two (by decide) (by decide) N⟩
    · exact .inl ⟨_, _, Blake2p.blake2pStatic_two (by decide) (by decide) N⟩
  | blake2sp f N =>
    cases f
    · exact .inl ⟨_, _, Blake2p.blake2p_two (by decide) (by decide) N⟩
    · exact .inl ⟨_, _, Blake2p.blake2pStatic_two (by decide) (by decide) N⟩
  | skein256 f N =>
    cases f
    · exact .inl ⟨_, _, Skein.skein_two (by decide) N⟩
    · exact .inl ⟨_, _, Skein.skeinStatic_two (by decide) N⟩
  | skein512 f N =>
    cases f
    · exact .inl ⟨_, _, Skein.skein_two (by decide) N⟩
    · exact .inl ⟨_, _, Skein.skeinStatic_two (by decide) N⟩
  | skein1024 f N =>
    cases f
    · exact .inl ⟨_, _, Skein.skein_two (by decide) N⟩
    · exact .inl ⟨_, _, Skein.skeinStatic_two (by decide) N⟩
  | _ => exact .inr ⟨fun _ => trivial, trivial⟩

/-- Without limits, every valid history keeps to them. -/
theorem fine_of_valid {P : Type} [Param P] {L : Limits P} (hl : ∀ n, L.len n) (hc : L.clr) : ∀ (ops : List (HashOp P)) (n : Nat),
    (∀ op ∈ ops, op.Valid) → HashFine L ops n := by
  intro ops
  induction ops with
  | nil => exact fun _ _ => trivial
  | cons op ops ih =>
    intro n hv
    have h1 := hv op (List.mem_cons_self ..)
    have h2 : ∀ q ∈ ops, q.Valid := fun q hq => hv q (List.mem_cons_of_mem _ hq)
    cases op with
    | absorb src => exact ⟨h1, ih _ h2⟩
    | digestBuf b => exact ⟨hl _, ih _ h2⟩
    | digest => exact ⟨hl _, ih _ h2⟩
    | hexdigest => exact ⟨hl _, ih _ h2⟩
    | reset b => exact ⟨fun _ => hc, ih _ h2⟩
    | set p => exact ⟨h1, ih _ h2⟩

theorem spec_config {P Θ : Type} (f : HashFn P Θ) (ops : List (HashOp P)) : ∀ o o' : HashObj Θ, o.params = o'.params →
    (f.run ops o).2.params = (f.run (ops.filter HashOp.isConfig) o').2.params := by
  induction ops with
  | nil => exact fun _ _ h => h
  | cons op ops ih =>
    intro o o' h
    cases op with
    | absorb src => exact ih _ _ h
    | digestBuf b => exact ih _ _ h
    | digest => exact ih _ _ h
    | hexdigest => exact ih _ _ h
    | reset b =>
      cases b
      · exact ih _ _ h
      · exact ih _ _ rfl
    | set p =>
      refine ih _ _ ?_
      show (Prod.snd (match f.set p o.params with
          | none => (Obs.threw, o)
          | some θ => (Obs.done, ⟨θ, []⟩))).params = (Prod.snd (match f.set p o'.params with
          | none => (Obs.threw, o')
          | some θ => (Obs.done, ⟨θ, []⟩))).params
      rw [h]
      cases f.set p o'.params with
      | none => exact h
      | some θ => rfl

theorem spec_reset {P Θ : Type} (f : HashFn P Θ) (ops : List (HashOp P)) (b : Bool) :
    (f.run (ops ++ [.reset b]) f.new).2 = (f.run (ops.filter HashOp.isConfig ++ [.reset b]) f.new).2 := by
  have h := spec_config f ops f.new f.new rfl
  rw [run_append, run_append]
  cases b
  · show HashObj.mk (f.run ops f.new).2.params [] = HashObj.mk (f.run (ops.filter HashOp.isConfig) f.new).2.params []
    rw [h]
  · rfl

theorem spec_fresh {P Θ : Type} (f : HashFn P Θ) (ops : List (HashOp P)) (hn : ∀ op ∈ ops, op.isConfig = false) :
    (f.run (ops ++ [.reset false]) f.new).2 = (f.run [] f.new).2 := by
  rw [spec_reset, List.filter_eq_nil_iff.mpr fun op ho => by rw [hn op ho]; decide]
  rfl

theorem hashRuns (h : HashName) (hs : h.Supported) (ops : List (HashOp h.cls.P)) (hv : ∀ op ∈ ops, op.Valid) : HashRuns h.cls ops :=
  fun mem hm => Properties.hash_no_ub h hs mem hm ops hv

theorem xofRuns (x : XofName) (hs : x.Supported) (ops : List (XofOp x.cls.P)) (hv : ∀ op ∈ ops, op.Valid ∧ ¬ op.EmptyVector) : XofRuns x.cls ops := by
  intro mem hm
  obtain ⟨s, e, h⟩ := Properties.xof_no_ub x hs mem hm
  rcases h ops (fun op ho => (hv op ho).1) with ⟨os, s', e'⟩ | ⟨⟨op, ho, hE⟩, _⟩
  · exact ⟨s, os, s', e, e'⟩
  · exact absurd hE (hv op ho).2

end Digestpp.Proofs.Indep

namespace Digestpp.Properties
open Model Spec Proofs Proofs.Indep

/-- **C53** for hash functions: in every history of calls, what the caller sees does not depend on what was in memory before the object
was constructed. -/
theorem hash_memory_irrelevant (h : HashName) (hs : h.Supported) (ops : List (HashOp h.cls.P)) (hv : ∀ op ∈ ops, op.Valid)
    (mem mem' : h.cls.S) (hm : h.cls.Mem mem) (hm' : h.cls.Mem mem') :
    ∃ os, os.length = ops.length ∧ h.cls.trial mem ops = some os ∧ h.cls.trial mem' ops = some os := by
  have hr := hashRuns h hs ops hv
  suffices hS : h.cls.Same [] [] ops by
    obtain ⟨os, l, e, e'⟩ := hS mem mem' hm hm'
    have key : ∀ m, h.cls.after m [] ops = h.cls.trial m ops := fun m => by
      unfold HashClass.after
      rw [List.nil_append]
      cases h.cls.trial m ops <;> rfl
    rw [key] at e e'
    exact ⟨os, l, e, e'⟩
  rcases hash_two h with ⟨E0, E, hT⟩ | ⟨hl, hc⟩
  · exact hT.same (fun s t e => Agree.pure e) hr hr
  · obtain ⟨Θ, fn, cov, hL⟩ := hash_laws h hs
    exact hL.same (fine_of_valid hl hc _ _ hv) trivial rfl

/-- **C53** for extendable output functions. (A history that squeezes zero bytes into a vector is undefined on all memory, see C38.) -/
theorem xof_memory_irrelevant (x : XofName) (hs : x.Supported) (ops : List (XofOp x.cls.P)) (hv : ∀ op ∈ ops, op.Valid ∧ ¬ op.EmptyVector)
    (mem mem' : x.cls.S) (hm : x.cls.Mem mem) (hm' : x.cls.Mem mem') :
    ∃ os, os.length = ops.length ∧ x.cls.trial mem ops = some os ∧ x.cls.trial mem' ops = some os := by
  have hr := xofRuns x hs ops hv
  obtain ⟨E0, E, hT⟩ := xof_two x
  obtain ⟨os, l, e, e'⟩ := hT.same (a := []) (a' := []) (fun s t e => Agree.pure e) hr hr mem mem' hm hm'
  have key : ∀ m, x.cls.after m [] ops = x.cls.trial m ops := fun m => by
    unfold XofClass.after
    rw [List.nil_append]
    cases x.cls.trial m ops <;> rfl
  rw [key] at e e'
  exact ⟨os, l, e, e'⟩

/-- **C54** for hash functions: after `reset`, in whatever history, the object shows the caller what it would show if only the setters
and the calls `reset(true)` had been called before: nothing of the data is left. -/
theorem hash_reset_forgets (h : HashName) (hs : h.Supported) (pre post : List (HashOp h.cls.P)) (b : Bool)
    (hv : ∀ op ∈ pre, op.Valid) (hv' : ∀ op ∈ post, op.Valid) :
    h.cls.Same (pre ++ [.reset b]) (pre.filter HashOp.isConfig ++ [.reset b]) post := by
  have h1 : ∀ op ∈ pre ++ [.reset b] ++ post, op.Valid := by
    intro op ho
    simp only [List.mem_append, List.mem_singleton] at ho
    rcases ho with (ho | rfl) | ho
    · exact hv op ho
    · trivial
    · exact hv' op ho
  have h2 : ∀ op ∈ pre.filter HashOp.isConfig ++ [.reset b] ++ post, op.Valid := by
    intro op ho
    simp only [List.mem_append, List.mem_singleton, List.mem_filter] at ho
    rcases ho with (ho | rfl) | ho
    · exact hv op ho.1
    · trivial
    · exact hv' op ho
  rcases hash_two h with ⟨E0, E, hT⟩ | ⟨hl, hc⟩
  · exact hT.same (fun s t e => hT.pr.run_reset pre b s t (hT.pr.sub s t e)) (hashRuns h hs _ h1) (hashRuns h hs _ h2)
  · obtain ⟨Θ, fn, cov, hL⟩ := hash_laws h hs
    refine hL.same (fine_of_valid hl hc _ _ h1) (fine_of_valid hl hc _ _ fun op ho => h2 op (List.mem_append_left _ ho)) (spec_reset fn pre b)

/-- **C54** for extendable output functions. -/
theorem xof_reset_forgets (x : XofName) (hs : x.Supported) (pre post : List (XofOp x.cls.P)) (b : Bool)
    (hv : ∀ op ∈ pre, op.Valid ∧ ¬ op.EmptyVector) (hv' : ∀ op ∈ post, op.Valid ∧ ¬ op.EmptyVector) :
    x.cls.Same (pre ++ [.reset b]) (pre.filter XofOp.isConfig ++ [.reset b]) post := by
  obtain ⟨E0, E, hT⟩ := xof_two x
  refine hT.same (fun s t e => hT.pr.run_reset pre b s t (hT.pr.sub s t e)) (xofRuns x hs _ ?_) (xofRuns x hs _ ?_)
  · intro op ho
    simp only [List.mem_append, List.mem_singleton] at ho
    rcases ho with (ho | rfl) | ho
    · exact hv op ho
    · exact ⟨trivial, id⟩
    · exact hv' op ho
  · intro op ho
    simp only [List.mem_append, List.mem_singleton, List.mem_filter] at ho
    rcases ho with (ho | rfl) | ho
    · exact hv op ho.1
    · exact ⟨trivial, id⟩
    · exact hv' op ho

/-- **C54**: if no parameters have been set, an object is like new after `reset()`, in whatever history. -/
theorem hash_reset_like_new (h : HashName) (hs : h.Supported) (pre post : List (HashOp h.cls.P)) (hn : ∀ op ∈ pre, op.isConfig = false)
    (hv : ∀ op ∈ pre, op.Valid) (hv' : ∀ op ∈ post, op.Valid) : h.cls.Same (pre ++ [.reset false]) [] post := by
  have h1 : ∀ op ∈ pre ++ [.reset false] ++ post, op.Valid := by
    intro op ho
    simp only [List.mem_append, List.mem_singleton] at ho
    rcases ho with (ho | rfl) | ho
    · exact hv op ho
    · trivial
    · exact hv' op ho
  rcases hash_two h with ⟨E0, E, hT⟩ | ⟨hl, hc⟩
  · exact hT.same_new hn (hashRuns h hs _ h1) (hashRuns h hs _ hv')
  · obtain ⟨Θ, fn, cov, hL⟩ := hash_laws h hs
    exact hL.same (fine_of_valid hl hc _ _ h1) trivial (spec_fresh fn pre hn)

/-- **C54**: the same for extendable output functions. -/
theorem xof_reset_like_new (x : XofName) (hs : x.Supported) (pre post : List (XofOp x.cls.P)) (hn : ∀ op ∈ pre, op.isConfig = false)
    (hv : ∀ op ∈ pre, op.Valid ∧ ¬ op.EmptyVector) (hv' : ∀ op ∈ post, op.Valid ∧ ¬ op.EmptyVector) :
    x.cls.Same (pre ++ [.reset false]) [] post := by
  obtain ⟨E0, E, hT⟩ := xof_two x
  refine hT.same_new hn (xofRuns x hs _ fun op ho => ?_) (xofRuns x hs _ hv')
  simp only [List.mem_append, List.mem_singleton] at ho
  rcases ho with (ho | rfl) | ho
  · exact hv op ho
  · exact ⟨trivial, id⟩
  · exact hv' op ho

/-- A KangarooTwelve object that has squeezed and absorbed again, on two different memory contents: nothing is left after `reset()`. -/
example : XofName.k12.cls.Same [.absorb (.str [1, 2, 3]), .squeeze 200, .absorb (.str [4]), .reset false] [.reset false]
    [.absorb (.str [5]), .hexsqueeze 7] := by
  have := xof_reset_forgets .k12 trivial [.absorb (.str [1, 2, 3]), .squeeze 200, .absorb (.str [4])] [.absorb (.str [5]), .hexsqueeze 7] false
    (by
      intro op h
      simp only [List.mem_cons, List.not_mem_nil, or_false] at h
      rcases h with rfl | rfl | rfl
      · exact ⟨(by show (_ : Nat) < _; decide), id⟩
      · exact ⟨(by decide : 200 < 2 ^ 61), (by decide : ¬ 200 = 0)⟩
      · exact ⟨(by show (_ : Nat) < _; decide), id⟩)
    (by
      intro op h
      simp only [List.mem_cons, List.not_mem_nil, or_false] at h
      rcases h with rfl | rfl
      · exact ⟨(by show (_ : Nat) < _; decide), id⟩
      · exact ⟨(by decide : 7 < 2 ^ 61), (by decide : ¬ 7 = 0)⟩)
  exact this

/-- `set_key` on a BLAKE2bp object, data, a key that is too long, more data, `reset()`: what is kept is the parameters. -/
example : (HashName.blake2bp .runtime 512).cls.Same
    [.set (Blake2Param.key [1, 2]), .absorb (.iter [3]), .set (Blake2Param.key (List.replicate 65 0)), .digest, .absorb (.str [4]), .reset false]
    [.set (Blake2Param.key [1, 2]), .set (Blake2Param.key (List.replicate 65 0)), .reset false] [.absorb (.str [5]), .digest] := by
  have := hash_reset_forgets (.blake2bp .runtime 512) (by decide)
    [.set (Blake2Param.key [1, 2]), .absorb (.iter [3]), .set (Blake2Param.key (List.replicate 65 0)), .digest, .absorb (.str [4])]
    [.absorb (.str [5]), .digest] false
    (by
      intro op h
      simp only [List.mem_cons, List.not_mem_nil, or_false] at h
      rcases h with rfl | rfl | rfl | rfl | rfl
      · show ([1, 2] : Bytes).length < _; decide
      · trivial
      · show (List.replicate 65 (0 : Byte)).length < _
        rw [List.length_replicate]; decide
      · trivial
      · show (_ : Nat) < _; decide)
    (by
      intro op h
      simp only [List.mem_cons, List.not_mem_nil, or_false] at h
      rcases h with rfl | rfl
      · show (_ : Nat) < _; decide
      · trivial)
  exact this

/-- An ASCON object that has squeezed and absorbed again is like new after `reset()`. -/
example : XofName.ascon.cls.Same [.squeeze 3, .absorb (.str [4]), .squeezeBuf [], .reset false] [] [.absorb (.str [5]), .hexsqueeze 7] :=
  xof_reset_like_new .ascon trivial [.squeeze 3, .absorb (.str [4]), .squeezeBuf []] [.absorb (.str [5]), .hexsqueeze 7]
    (by
      intro op h
      simp only [List.mem_cons, List.not_mem_nil, or_false] at h
      rcases h with rfl | rfl | rfl <;> rfl)
    (by
      intro op h
      simp only [List.mem_cons, List.not_mem_nil, or_false] at h
      rcases h with rfl | rfl | rfl
      · exact ⟨(by decide : 3 < 2 ^ 61), (by decide : ¬ 3 = 0)⟩
      · exact ⟨(by show (_ : Nat) < _; decide), id⟩
      · exact ⟨(by decide : 0 < 2 ^ 61), id⟩)
    (by
      intro op h
      simp only [List.mem_cons, List.not_mem_nil, or_false] at h
      rcases h with rfl | rfl
      · exact ⟨(by show (_ : Nat) < _; decide), id⟩
      · exact ⟨(by decide : 7 < 2 ^ 61), (by decide : ¬ 7 = 0)⟩)

/-- Two different memory contents of a Skein object. -/
example (mem mem' : XofName.skein512.cls.S) (hm : XofName.skein512.cls.Mem mem) (hm' : XofName.skein512.cls.Mem mem') :
    ∃ os, os.length = 3 ∧ XofName.skein512.cls.trial mem [.squeeze 100, .absorb (.str [1]), .squeeze 100] = some os ∧
      XofName.skein512.cls.trial mem' [.squeeze 100, .absorb (.str [1]), .squeeze 100] = some os :=
  xof_memory_irrelevant .skein512 trivial [.squeeze 100, .absorb (.str [1]), .squeeze 100] (by
      intro op h
      simp only [List.mem_cons, List.not_mem_nil, or_false] at h
      rcases h with rfl | rfl | rfl
      · exact ⟨(by decide : 100 < 2 ^ 61), (by decide : ¬ 100 = 0)⟩
      · exact ⟨(by show (_ : Nat) < _; decide), id⟩
      · exact ⟨(by decide : 100 < 2 ^ 61), (by decide : ¬ 100 = 0)⟩) mem mem' hm hm'

end Digestpp.Properties
