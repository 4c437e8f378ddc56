import Verif.History
import Verif.Proofs.Conforms

/-! Laws of the interface that follow from conformance to whatever function. -/

namespace Digestpp.Proofs
open Model Spec

@[elab_as_elim] theorem snoc_induction {α : Type} {motive : List α → Prop} (nil : motive [])
    (snoc : ∀ l x, motive l → motive (l ++ [x])) (l : List α) : motive l := by
  have : ∀ r : List α, motive r.reverse := by
    intro r
    induction r with
    | nil => exact nil
    | cons x r ih => rw [List.reverse_cons]; exact snoc _ _ ih
  rw [← List.reverse_reverse l]
  exact this _

/-- What an empty value does: either it restores the default, whatever was set before, or it does nothing. -/
def EmptyLaw {P Θ : Type} [Param P] (forgets : P → Prop) (set : P → Θ → Option Θ) (dflt : Θ) : Prop :=
  ∀ p, Param.value p = [] →
    (forgets p → set p dflt = some dflt ∧ ∀ q θ a, Param.kind q = Param.kind p → set q θ = some a → set p a = set p θ) ∧
    (¬forgets p → ∀ θ, set p θ = some θ)

/-- The class computes `f` within the limits `L`, and the setters of `f` act on separate parameters. -/
structure HashLaws (c : HashClass) [Param c.P] (size : Nat) (L : Limits c.P) {Θ : Type} (f : HashFn c.P Θ) (cov : Cover c.P Θ) :
    Prop where
  conf : HashConforms c f cov
  size : f.size = size
  adm : ∀ θ m, L.len m.length → cov.adm θ m
  clr : L.clr → cov.clr
  prm : ∀ p, (Param.value p).length < 2 ^ 61 → cov.prm p
  acc : ∀ p θ, (f.set p θ).isSome = L.accepts p
  comm : ∀ p q θ a b, Param.kind p ≠ Param.kind q → f.set p θ = some a → f.set q θ = some b → f.set q a = f.set p b
  over : ∀ p q θ a, Param.kind p = Param.kind q → Param.value q ≠ [] → f.set p θ = some a → f.set q a = f.set q θ
  emp : EmptyLaw L.forgets f.set f.dflt

structure XofLaws (c : XofClass) [Param c.P] (L : Limits c.P) {Θ : Type} (f : XofFn c.P Θ) (cov : Cover c.P Θ) : Prop where
  conf : XofConforms c f cov
  adm : ∀ θ m, L.len m.length → cov.adm θ m
  out : ∀ n, L.out n → cov.out n
  clr : L.clr → cov.clr
  prm : ∀ p, (Param.value p).length < 2 ^ 61 → cov.prm p
  acc : ∀ p θ, (f.set p θ).isSome = L.accepts p
  comm : ∀ p q θ a b, Param.kind p ≠ Param.kind q → f.set p θ = some a → f.set q θ = some b → f.set q a = f.set p b
  over : ∀ p q θ a, Param.kind p = Param.kind q → Param.value q ≠ [] → f.set p θ = some a → f.set q a = f.set q θ
  emp : EmptyLaw L.forgets f.set f.dflt

section Run
variable {P Θ : Type} (f : HashFn P Θ)

theorem run_append (a b : List (HashOp P)) : ∀ o, f.run (a ++ b) o =
    ((f.run a o).1 ++ (f.run b (f.run a o).2).1, (f.run b (f.run a o).2).2) := by
  induction a with
  | nil => intro o; rfl
  | cons x a ih =>
    intro o
    show ((f.step x o).1 :: (f.run (a ++ b) (f.step x o).2).1, (f.run (a ++ b) (f.step x o).2).2) = _
    rw [ih]
    rfl

theorem run_length (a : List (HashOp P)) : ∀ o, (f.run a o).1.length = a.length := by
  induction a with
  | nil => intro o; rfl
  | cons x a ih => intro o; show (_ :: (f.run a (f.step x o).2).1).length = _; rw [List.length_cons, ih]; rfl

end Run

section XRun
variable {P Θ : Type} (f : XofFn P Θ)

theorem xrun_append (a b : List (XofOp P)) : ∀ o, f.run (a ++ b) o =
    ((f.run a o).1 ++ (f.run b (f.run a o).2).1, (f.run b (f.run a o).2).2) := by
  induction a with
  | nil => intro o; rfl
  | cons x a ih =>
    intro o
    show ((f.step x o).1 :: (f.run (a ++ b) (f.step x o).2).1, (f.run (a ++ b) (f.step x o).2).2) = _
    rw [ih]
    rfl

theorem xrun_length (a : List (XofOp P)) : ∀ o, (f.run a o).1.length = a.length := by
  induction a with
  | nil => intro o; rfl
  | cons x a ih => intro o; show (_ :: (f.run a (f.step x o).2).1).length = _; rw [List.length_cons, ih]; rfl

end XRun

namespace HashLaws
variable {c : HashClass} [Param c.P] {size : Nat} {L : Limits c.P} {Θ : Type} {f : HashFn c.P Θ} {cov : Cover c.P Θ}

theorem set_none (h : HashLaws c size L f cov) {p : c.P} (e : L.accepts p = false) (θ : Θ) : f.set p θ = none := by
  have := h.acc p θ
  rw [e] at this
  cases h : f.set p θ with
  | none => rfl
  | some x => rw [h] at this; cases this

theorem set_some (h : HashLaws c size L f cov) {p : c.P} (e : L.accepts p = true) (θ : Θ) : ∃ a, f.set p θ = some a := by
  have := h.acc p θ
  rw [e] at this
  exact Option.isSome_iff_exists.mp this

theorem covered (h : HashLaws c size L f cov) : ∀ (ops : List (HashOp c.P)) (o : HashObj Θ), HashFine L ops o.msg.length →
    f.Covered cov ops o := by
  intro ops
  induction ops with
  | nil => intro o _; trivial
  | cons op ops ih =>
    intro o hf
    cases op with
    | absorb src =>
      refine ⟨hf.1, ih _ ?_⟩
      show HashFine L ops (o.msg ++ src.contents).length
      rw [List.length_append]; exact hf.2
    | digestBuf b => exact ⟨h.adm _ _ hf.1, ih _ hf.2⟩
    | digest => exact ⟨h.adm _ _ hf.1, ih _ hf.2⟩
    | hexdigest => exact ⟨h.adm _ _ hf.1, ih _ hf.2⟩
    | reset b =>
      refine ⟨fun e => h.clr (hf.1 e), ih _ ?_⟩
      cases b <;> exact hf.2
    | set p =>
      refine ⟨h.prm _ hf.1, ih _ ?_⟩
      have h2 := hf.2
      cases e : L.accepts p with
      | false =>
        rw [e] at h2
        show HashFine L ops (HashObj.msg (Prod.snd (match f.set p o.params with
          | none => (Obs.threw, o)
          | some θ => (Obs.done, ⟨θ, []⟩)))).length
        rw [h.set_none e]; exact h2
      | true =>
        rw [e] at h2
        obtain ⟨a, ha⟩ := h.set_some e o.params
        show HashFine L ops (HashObj.msg (Prod.snd (match f.set p o.params with
          | none => (Obs.threw, o)
          | some θ => (Obs.done, ⟨θ, []⟩)))).length
        rw [ha]; exact h2

theorem trial (h : HashLaws c size L f cov) {mem : c.S} (hm : c.Mem mem) {ops : List (HashOp c.P)} (hf : HashFine L ops 0) :
    c.trial mem ops = some (f.run ops f.new).1 :=
  hashConforms_trial h.conf mem hm ops (h.covered ops f.new hf)

theorem after (h : HashLaws c size L f cov) {mem : c.S} (hm : c.Mem mem) {pre post : List (HashOp c.P)}
    (hf : HashFine L (pre ++ post) 0) : c.after mem pre post = some (f.run post (f.run pre f.new).2).1 := by
  unfold HashClass.after
  rw [h.trial hm hf, run_append]
  show some (List.drop _ _) = _
  rw [List.drop_left' (run_length f pre f.new)]

end HashLaws

namespace XofLaws
variable {c : XofClass} [Param c.P] {L : Limits c.P} {Θ : Type} {f : XofFn c.P Θ} {cov : Cover c.P Θ}

theorem set_none (h : XofLaws c L f cov) {p : c.P} (e : L.accepts p = false) (θ : Θ) : f.set p θ = none := by
  have := h.acc p θ
  rw [e] at this
  cases h : f.set p θ with
  | none => rfl
  | some x => rw [h] at this; cases this

theorem set_some (h : XofLaws c L f cov) {p : c.P} (e : L.accepts p = true) (θ : Θ) : ∃ a, f.set p θ = some a := by
  have := h.acc p θ
  rw [e] at this
  exact Option.isSome_iff_exists.mp this

theorem covered (h : XofLaws c L f cov) : ∀ (ops : List (XofOp c.P)) (o : XofObj Θ), XofFine L ops o.msg.length o.squeezed →
    f.Covered cov ops o := by
  intro ops
  induction ops with
  | nil => intro o _; trivial
  | cons op ops ih =>
    intro o hf
    cases op with
    | absorb src =>
      refine ⟨⟨hf.1, hf.2.1⟩, ih _ ?_⟩
      show XofFine L ops (o.msg ++ src.contents).length o.squeezed
      rw [List.length_append]; exact hf.2.2
    | squeezeBuf b => exact ⟨⟨h.adm _ _ hf.1, hf.2.1, hf.2.2.1, h.out _ hf.2.2.2.1⟩, ih _ hf.2.2.2.2⟩
    | squeeze b => exact ⟨⟨h.adm _ _ hf.1, hf.2.1, hf.2.2.1, h.out _ hf.2.2.2.1⟩, ih _ hf.2.2.2.2⟩
    | hexsqueeze b => exact ⟨⟨h.adm _ _ hf.1, hf.2.1, hf.2.2.1, h.out _ hf.2.2.2.1⟩, ih _ hf.2.2.2.2⟩
    | reset b =>
      refine ⟨fun e => h.clr (hf.1 e), ih _ ?_⟩
      cases b <;> exact hf.2
    | set p =>
      refine ⟨h.prm _ hf.1, ih _ ?_⟩
      have h2 := hf.2
      show XofFine L ops (XofObj.msg (Prod.snd (match f.set p o.params with
          | none => (Obs.threw, o)
          | some θ => (Obs.done, ⟨θ, [], 0⟩)))).length (XofObj.squeezed (Prod.snd (match f.set p o.params with
          | none => (Obs.threw, o)
          | some θ => (Obs.done, ⟨θ, [], 0⟩))))
      cases e : L.accepts p with
      | false => rw [e] at h2; rw [h.set_none e]; exact h2
      | true =>
        rw [e] at h2
        obtain ⟨a, ha⟩ := h.set_some e o.params
        rw [ha]; exact h2

theorem trial (h : XofLaws c L f cov) {mem : c.S} (hm : c.Mem mem) {ops : List (XofOp c.P)} (hf : XofFine L ops 0 0) :
    c.trial mem ops = some (f.run ops f.new).1 :=
  xofConforms_trial h.conf mem hm ops (h.covered ops f.new hf)

theorem after (h : XofLaws c L f cov) {mem : c.S} (hm : c.Mem mem) {pre post : List (XofOp c.P)}
    (hf : XofFine L (pre ++ post) 0 0) : c.after mem pre post = some (f.run post (f.run pre f.new).2).1 := by
  unfold XofClass.after
  rw [h.trial hm hf, xrun_append]
  show some (List.drop _ _) = _
  rw [List.drop_left' (xrun_length f pre f.new)]

end XofLaws

end Digestpp.Proofs

namespace Digestpp
open Model Spec

namespace Proofs

section
variable {P : Type} [Param P]

/-- Bytes absorbed since the last restart. -/
def lenAfter (L : Limits P) : List (HashOp P) → Nat → Nat
  | [], n => n
  | .absorb src :: ops, n => lenAfter L ops (n + src.contents.length)
  | .digestBuf _ :: ops, n | .digest :: ops, n | .hexdigest :: ops, n => lenAfter L ops n
  | .reset _ :: ops, _ => lenAfter L ops 0
  | .set p :: ops, n => lenAfter L ops (if L.accepts p then 0 else n)

theorem fine_append (L : Limits P) (b : List (HashOp P)) : ∀ (a : List (HashOp P)) (n : Nat),
    HashFine L (a ++ b) n ↔ HashFine L a n ∧ HashFine L b (lenAfter L a n) := by
  intro a
  induction a with
  | nil => intro n; exact ⟨fun h => ⟨trivial, h⟩, fun h => h.2⟩
  | cons op a ih =>
    intro n
    cases op <;> (simp only [List.cons_append, HashFine, lenAfter, ih, and_assoc])

theorem xfine_append (L : Limits P) (b : List (XofOp P)) : ∀ (a : List (XofOp P)) (n k : Nat),
    XofFine L (a ++ b) n k ↔ XofFine L a n k ∧ XofFine L b (posAfter L a (n, k)).1 (posAfter L a (n, k)).2 := by
  intro a
  induction a with
  | nil => intro n k; exact ⟨fun h => ⟨trivial, h⟩, fun h => h.2⟩
  | cons op a ih =>
    intro n k
    cases op <;> (simp only [List.cons_append, XofFine, posAfter, ih, and_assoc])

end

namespace HashLaws
variable {c : HashClass} [Param c.P] {size : Nat} {L : Limits c.P} {Θ : Type} {f : HashFn c.P Θ} {cov : Cover c.P Θ}

theorem step_set_none (h : HashLaws c size L f cov) {p : c.P} (e : L.accepts p = false) (o : HashObj Θ) :
    f.step (.set p) o = (.threw, o) := by
  show (match f.set p o.params with | none => (Obs.threw, o) | some θ => (Obs.done, ⟨θ, []⟩)) = _
  rw [h.set_none e]

theorem step_set_some {p : c.P} {a : Θ} {o : HashObj Θ} (e : f.set p o.params = some a) :
    f.step (.set p) o = (.done, ⟨a, []⟩) := by
  show (match f.set p o.params with | none => (Obs.threw, o) | some θ => (Obs.done, ⟨θ, []⟩)) = _
  rw [e]

theorem len_run (h : HashLaws c size L f cov) : ∀ (ops : List (HashOp c.P)) (o : HashObj Θ),
    lenAfter L ops o.msg.length = (f.run ops o).2.msg.length := by
  intro ops
  induction ops with
  | nil => intro o; rfl
  | cons op ops ih =>
    intro o
    show _ = (f.run ops (f.step op o).2).2.msg.length
    rw [← ih]
    cases op with
    | absorb src => show _ = lenAfter L ops (o.msg ++ src.contents).length; rw [List.length_append]; rfl
    | digestBuf b => rfl
    | digest => rfl
    | hexdigest => rfl
    | reset b => cases b <;> rfl
    | set p =>
      show lenAfter L ops (if L.accepts p then 0 else o.msg.length) = _
      cases e : L.accepts p with
      | false => rw [h.step_set_none e]; rfl
      | true =>
        obtain ⟨a, ha⟩ := h.set_some e o.params
        rw [step_set_some ha]; rfl

/-- Equal abstract objects show equal things. -/
theorem same (h : HashLaws c size L f cov) {pre pre' post : List (HashOp c.P)} (hf : HashFine L (pre ++ post) 0)
    (hf' : HashFine L pre' 0) (e : (f.run pre f.new).2 = (f.run pre' f.new).2) : c.Same pre pre' post := by
  intro mem mem' hm hm'
  have hf2 : HashFine L (pre' ++ post) 0 := by
    rw [fine_append] at hf ⊢
    refine ⟨hf', ?_⟩
    have h1 := h.len_run pre f.new
    have h2 := h.len_run pre' f.new
    rw [show f.new.msg.length = 0 from rfl] at h1 h2
    rw [h2, ← e, ← h1]
    exact hf.2
  exact ⟨_, run_length f post _, h.after hm hf, by rw [h.after hm' hf2, e]⟩

end HashLaws

namespace XofLaws
variable {c : XofClass} [Param c.P] {L : Limits c.P} {Θ : Type} {f : XofFn c.P Θ} {cov : Cover c.P Θ}

theorem step_set_none (h : XofLaws c L f cov) {p : c.P} (e : L.accepts p = false) (o : XofObj Θ) :
    f.step (.set p) o = (.threw, o) := by
  show (match f.set p o.params with | none => (Obs.threw, o) | some θ => (Obs.done, ⟨θ, [], 0⟩)) = _
  rw [h.set_none e]

theorem step_set_some {p : c.P} {a : Θ} {o : XofObj Θ} (e : f.set p o.params = some a) :
    f.step (.set p) o = (.done, ⟨a, [], 0⟩) := by
  show (match f.set p o.params with | none => (Obs.threw, o) | some θ => (Obs.done, ⟨θ, [], 0⟩)) = _
  rw [e]

theorem len_run (h : XofLaws c L f cov) : ∀ (ops : List (XofOp c.P)) (o : XofObj Θ),
    posAfter L ops (o.msg.length, o.squeezed) = ((f.run ops o).2.msg.length, (f.run ops o).2.squeezed) := by
  intro ops
  induction ops with
  | nil => intro o; rfl
  | cons op ops ih =>
    intro o
    show _ = ((f.run ops (f.step op o).2).2.msg.length, (f.run ops (f.step op o).2).2.squeezed)
    rw [← ih]
    cases op with
    | absorb src => show _ = posAfter L ops ((o.msg ++ src.contents).length, _); rw [List.length_append]; rfl
    | squeezeBuf b => rfl
    | squeeze => rfl
    | hexsqueeze => rfl
    | reset b => cases b <;> rfl
    | set p =>
      show posAfter L ops (if L.accepts p then 0 else o.msg.length, if L.accepts p then 0 else o.squeezed) = _
      cases e : L.accepts p with
      | false => rw [h.step_set_none e]; rfl
      | true =>
        obtain ⟨a, ha⟩ := h.set_some e o.params
        rw [step_set_some ha]; rfl

/-- Equal abstract objects show equal things. -/
theorem same (h : XofLaws c L f cov) {pre pre' post : List (XofOp c.P)} (hf : XofFine L (pre ++ post) 0 0)
    (hf' : XofFine L pre' 0 0) (e : (f.run pre f.new).2 = (f.run pre' f.new).2) : c.Same pre pre' post := by
  intro mem mem' hm hm'
  have hf2 : XofFine L (pre' ++ post) 0 0 := by
    rw [xfine_append] at hf ⊢
    refine ⟨hf', ?_⟩
    have h1 := h.len_run pre f.new
    have h2 := h.len_run pre' f.new
    rw [show (f.new.msg.length, f.new.squeezed) = (0, 0) from rfl] at h1 h2
    rw [h2, ← e, ← h1]
    exact hf.2
  exact ⟨_, xrun_length f post _, h.after hm hf, by rw [h.after hm' hf2, e]⟩

end XofLaws
end Proofs
end Digestpp

namespace Digestpp.Proofs
open Model Spec

section Settings
variable {P : Type}

theorem settings_snoc (ops : List (HashOp P)) (op : HashOp P) : HashOp.settings (ops ++ [op]) =
    match op with
    | .set p => HashOp.settings ops ++ [.set p]
    | .reset true => []
    | _ => HashOp.settings ops := by
  unfold HashOp.settings
  rw [List.foldl_append]
  rfl

theorem settings_mem {op : HashOp P} (ops : List (HashOp P)) : op ∈ HashOp.settings ops → op ∈ ops ∧ ∃ p, op = .set p := by
  induction ops using Proofs.snoc_induction with
  | nil => intro h; cases h
  | snoc ops x ih =>
    rw [settings_snoc]
    intro h
    cases x with
    | set p =>
      rcases List.mem_append.mp h with h | h
      · exact ⟨List.mem_append_left _ (ih h).1, (ih h).2⟩
      · exact ⟨List.mem_append_right _ h, p, List.mem_singleton.mp h⟩
    | reset b =>
      cases b with
      | true => cases h
      | false => exact ⟨List.mem_append_left _ (ih h).1, (ih h).2⟩
    | absorb => exact ⟨List.mem_append_left _ (ih h).1, (ih h).2⟩
    | digestBuf => exact ⟨List.mem_append_left _ (ih h).1, (ih h).2⟩
    | digest => exact ⟨List.mem_append_left _ (ih h).1, (ih h).2⟩
    | hexdigest => exact ⟨List.mem_append_left _ (ih h).1, (ih h).2⟩

theorem settings_run {Θ : Type} (f : HashFn P Θ) (ops : List (HashOp P)) :
    (f.run (HashOp.settings ops) f.new).2 = ⟨(f.run ops f.new).2.params, []⟩ := by
  induction ops using Proofs.snoc_induction with
  | nil => rfl
  | snoc ops x ih =>
    rw [settings_snoc, run_append]
    show _ = HashObj.mk (f.step x (f.run ops f.new).2).2.params []
    cases x with
    | set p =>
      show (f.run (HashOp.settings ops ++ [.set p]) f.new).2 = _
      rw [run_append, ih]
      show (f.step (.set p) _).2 = HashObj.mk (f.step (.set p) _).2.params []
      show Prod.snd (match f.set p (f.run ops f.new).2.params with | none => (Obs.threw, _) | some θ => (Obs.done, ⟨θ, []⟩)) =
        HashObj.mk (HashObj.params (Prod.snd (match f.set p (f.run ops f.new).2.params with
          | none => (Obs.threw, _) | some θ => (Obs.done, ⟨θ, []⟩)))) []
      cases f.set p (f.run ops f.new).2.params <;> rfl
    | reset b => cases b with
      | true => rfl
      | false => exact ih
    | absorb => exact ih
    | digestBuf => exact ih
    | digest => exact ih
    | hexdigest => exact ih

theorem fine_value [Param P] (L : Limits P) {p : P} : ∀ (ops : List (HashOp P)) (n : Nat), HashFine L ops n → .set p ∈ ops →
    (Param.value p).length < 2 ^ 61 := by
  intro ops
  induction ops with
  | nil => intro n _ h; cases h
  | cons op ops ih =>
    intro n hf hm
    cases op with
    | set q =>
      rcases List.mem_cons.mp hm with h | h
      · cases h; exact hf.1
      · exact ih _ hf.2 h
    | _ => exact ih _ hf.2 ((List.mem_cons.mp hm).resolve_left nofun)

theorem fine_sets [Param P] (L : Limits P) : ∀ (ops : List (HashOp P)) (n : Nat),
    (∀ op ∈ ops, ∃ p, op = .set p ∧ (Param.value p).length < 2 ^ 61) → HashFine L ops n := by
  intro ops
  induction ops with
  | nil => intro n _; trivial
  | cons op ops ih =>
    intro n h
    obtain ⟨p, rfl, hp⟩ := h op (List.mem_cons_self ..)
    exact ⟨hp, ih _ fun o ho => h o (List.mem_cons_of_mem _ ho)⟩

theorem fine_settings [Param P] {L : Limits P} {ops : List (HashOp P)} {n : Nat} (h : HashFine L ops n) (k : Nat) :
    HashFine L (HashOp.settings ops) k :=
  fine_sets L _ _ fun op ho => by
    obtain ⟨hm, p, rfl⟩ := settings_mem ops ho
    exact ⟨p, rfl, fine_value L ops n h hm⟩

theorem xsettings_snoc (ops : List (XofOp P)) (op : XofOp P) : XofOp.settings (ops ++ [op]) =
    match op with
    | .set p => XofOp.settings ops ++ [.set p]
    | .reset true => []
    | _ => XofOp.settings ops := by
  unfold XofOp.settings
  rw [List.foldl_append]
  rfl

theorem xsettings_mem {op : XofOp P} (ops : List (XofOp P)) : op ∈ XofOp.settings ops → op ∈ ops ∧ ∃ p, op = .set p := by
  induction ops using Proofs.snoc_induction with
  | nil => intro h; cases h
  | snoc ops x ih =>
    rw [xsettings_snoc]
    intro h
    cases x with
    | set p =>
      rcases List.mem_append.mp h with h | h
      · exact ⟨List.mem_append_left _ (ih h).1, (ih h).2⟩
      · exact ⟨List.mem_append_right _ h, p, List.mem_singleton.mp h⟩
    | reset b =>
      cases b with
      | true => cases h
      | false => exact ⟨List.mem_append_left _ (ih h).1, (ih h).2⟩
    | _ => exact ⟨List.mem_append_left _ (ih h).1, (ih h).2⟩

theorem xsettings_run {Θ : Type} (f : XofFn P Θ) (ops : List (XofOp P)) :
    (f.run (XofOp.settings ops) f.new).2 = ⟨(f.run ops f.new).2.params, [], 0⟩ := by
  induction ops using Proofs.snoc_induction with
  | nil => rfl
  | snoc ops x ih =>
    rw [xsettings_snoc, xrun_append]
    show _ = XofObj.mk (f.step x (f.run ops f.new).2).2.params [] 0
    cases x with
    | set p =>
      show (f.run (XofOp.settings ops ++ [.set p]) f.new).2 = _
      rw [xrun_append, ih]
      show Prod.snd (match f.set p (f.run ops f.new).2.params with | none => (Obs.threw, _) | some θ => (Obs.done, ⟨θ, [], 0⟩)) =
        XofObj.mk (XofObj.params (Prod.snd (match f.set p (f.run ops f.new).2.params with
          | none => (Obs.threw, _) | some θ => (Obs.done, ⟨θ, [], 0⟩)))) [] 0
      cases f.set p (f.run ops f.new).2.params <;> rfl
    | reset b => cases b with
      | true => rfl
      | false => exact ih
    | _ => exact ih

theorem xfine_value [Param P] (L : Limits P) {p : P} : ∀ (ops : List (XofOp P)) (n k : Nat), XofFine L ops n k → .set p ∈ ops →
    (Param.value p).length < 2 ^ 61 := by
  intro ops
  induction ops with
  | nil => intro n k _ h; cases h
  | cons op ops ih =>
    intro n k hf hm
    cases op with
    | set q =>
      rcases List.mem_cons.mp hm with h | h
      · cases h; exact hf.1
      · exact ih _ _ hf.2 h
    | absorb => exact ih _ _ hf.2.2 ((List.mem_cons.mp hm).resolve_left nofun)
    | reset => exact ih _ _ hf.2 ((List.mem_cons.mp hm).resolve_left nofun)
    | _ => exact ih _ _ hf.2.2.2.2 ((List.mem_cons.mp hm).resolve_left nofun)

theorem xfine_sets [Param P] (L : Limits P) : ∀ (ops : List (XofOp P)) (n k : Nat),
    (∀ op ∈ ops, ∃ p, op = .set p ∧ (Param.value p).length < 2 ^ 61) → XofFine L ops n k := by
  intro ops
  induction ops with
  | nil => intro n k _; trivial
  | cons op ops ih =>
    intro n k h
    obtain ⟨p, rfl, hp⟩ := h op (List.mem_cons_self ..)
    exact ⟨hp, ih _ _ fun o ho => h o (List.mem_cons_of_mem _ ho)⟩

theorem xfine_settings [Param P] {L : Limits P} {ops : List (XofOp P)} {n k : Nat} (h : XofFine L ops n k) (n' k' : Nat) :
    XofFine L (XofOp.settings ops) n' k' :=
  xfine_sets L _ _ _ fun op ho => by
    obtain ⟨hm, p, rfl⟩ := xsettings_mem ops ho
    exact ⟨p, rfl, xfine_value L ops n k h hm⟩

end Settings
end Digestpp.Proofs
