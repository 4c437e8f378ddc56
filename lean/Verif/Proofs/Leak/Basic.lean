import Verif.Model.Leak

/-! Lemmas on computations with a trace: what remains without the trace, and when two traces are the same. -/

namespace Digestpp.Proofs.Leak
open Model

section Erase
variable {α β σ τ : Type}

theorem erase_pure (a : α) : L.erase (pure a : L α) = pure a := rfl

theorem erase_bind (x : L α) (f : α → L β) : L.erase (x >>= f) = L.erase x >>= fun a => L.erase (f a) := by
  show L.erase (L.bind x f) = _
  cases x with
  | error e => rfl
  | ok r =>
    obtain ⟨a, t⟩ := r
    show L.erase (match f a with | .error e => .error e | .ok (b, u) => .ok (b, t ++ u)) = L.erase (f a)
    cases f a with
    | error e => rfl
    | ok r => rfl

theorem erase_op (e : Ev) (x : M α) : L.erase (.op e x) = x := by cases x <;> rfl

theorem erase_rd (a : List α) (i : Nat) : L.erase (Leak.rd a i) = Model.rd a i := erase_op ..
theorem erase_wr (a : List α) (i : Nat) (x : α) : L.erase (Leak.wr a i x) = Model.wr a i x := erase_op ..
theorem erase_upd (a : List α) (i : Nat) (f : α → α) : L.erase (Leak.upd a i f) = Model.upd a i f := by
  unfold Leak.upd Model.upd
  simp only [erase_bind, erase_rd, erase_wr]
theorem erase_readBytes (p : Bytes) (off n : Nat) : L.erase (Leak.readBytes p off n) = Model.readBytes p off n := erase_op ..
theorem erase_memcpyTo (d : Bytes) (off : Nat) (s : Bytes) : L.erase (Leak.memcpyTo d off s) = Model.memcpyTo d off s := erase_op ..
theorem erase_rd32 (p : Bytes) (i : Nat) : L.erase (Leak.rd32 p i) = Model.rd32 p i := erase_op ..
theorem erase_rd64 (p : Bytes) (i : Nat) : L.erase (Leak.rd64 p i) = Model.rd64 p i := erase_op ..
theorem erase_copyN (d s : List α) (n : Nat) : L.erase (Leak.copyN d s n) = Model.copyN d s n := erase_op ..
theorem erase_rotBy {w : Nat} (rot : BitVec w → Nat → M (BitVec w)) (x : BitVec w) (n : Nat) : L.erase (Leak.rotBy rot x n) = rot x n := erase_op ..

theorem erase_foldlM (f : σ → τ → L σ) (ts : List τ) : ∀ s, L.erase (ts.foldlM f s) = ts.foldlM (fun s t => L.erase (f s t)) s := by
  induction ts with
  | nil => intro s; rfl
  | cons t ts ih =>
    intro s
    rw [List.foldlM_cons, List.foldlM_cons, erase_bind]
    exact congrArg _ (funext fun s => ih s)

theorem erase_loop (lo hi : Nat) (body : Nat → σ → L σ) (s : σ) :
    L.erase (Leak.loop lo hi body s) = Model.loop lo hi (fun t s => L.erase (body t s)) s := by
  unfold Leak.loop Model.loop
  rw [erase_bind, erase_op]
  exact erase_foldlM _ _ _

theorem erase_loopDown (n : Nat) (body : Nat → σ → L σ) (s : σ) :
    L.erase (Leak.loopDown n body s) = Model.loopDown n (fun t s => L.erase (body t s)) s := by
  unfold Leak.loopDown Model.loopDown
  rw [erase_bind, erase_op]
  exact erase_foldlM _ _ _

theorem erase_branch (c : Bool) (f : Bool → M β) : (L.erase (Leak.branch c) >>= f) = f c := by
  unfold Leak.branch
  rw [erase_op]
  rfl

theorem erase_ite (c : Prop) [Decidable c] (x y : L α) : L.erase (if c then x else y) = if c then L.erase x else L.erase y := by
  by_cases h : c
  · rw [if_pos h, if_pos h]
  · rw [if_neg h, if_neg h]

end Erase

/-- `simp` with the lemmas above, for the functions of `Model/Leak`; the arguments are further lemmas. -/
macro "erase_simp" "[" ls:Lean.Parser.Tactic.simpLemma,* "]" : tactic =>
  `(tactic| simp only [erase_branch, erase_bind, erase_pure, erase_rd, erase_wr, erase_upd, erase_readBytes, erase_memcpyTo, erase_rd32,
      erase_rd64, erase_copyN, erase_rotBy, erase_foldlM, erase_loop, erase_loopDown, erase_ite, decide_eq_true_eq, $ls,*])

/-- If both computations end, the traces are the same, and the results are related by `R`. -/
def Agree {α β : Type} (R : α → β → Prop) (x : L α) (y : L β) : Prop :=
  ∀ a t b u, x = .ok (a, t) → y = .ok (b, u) → t = u ∧ R a b

/-- Any results. -/
abbrev Any {α β : Type} : α → β → Prop := fun _ _ => True

section Agree
variable {α β γ δ σ σ' τ : Type}

theorem Agree.pure {R : α → β → Prop} {a : α} {b : β} (h : R a b) : Agree R (Pure.pure a : L α) (Pure.pure b : L β) := by
  intro a' t b' u e1 e2
  cases e1
  cases e2
  exact ⟨rfl, h⟩

theorem Agree.op {e : Ev} {x : M α} {y : M β} : Agree Any (L.op e x) (L.op e y) := by
  intro a t b u e1 e2
  cases x with
  | error e => cases e1
  | ok x =>
    cases y with
    | error e => cases e2
    | ok y => cases e1; cases e2; exact ⟨rfl, trivial⟩

theorem Agree.refl (x : L α) : Agree Eq x x := by
  intro a t b u e1 e2
  rw [e1] at e2
  have := Except.ok.inj e2
  cases this
  exact ⟨rfl, rfl⟩

theorem bind_eq_ok {x : L α} {f : α → L γ} {c : γ} {t : List Ev} (h : (x >>= f) = .ok (c, t)) :
    ∃ a t1 t2, x = .ok (a, t1) ∧ f a = .ok (c, t2) ∧ t = t1 ++ t2 := by
  have h : L.bind x f = .ok (c, t) := h
  cases x with
  | error e => cases h
  | ok r =>
    obtain ⟨a, t1⟩ := r
    have h : (match f a with | .error e => .error e | .ok (b, u) => .ok (b, t1 ++ u) : L γ) = .ok (c, t) := h
    cases e : f a with
    | error e' => rw [e] at h; cases h
    | ok r =>
      rw [e] at h
      obtain ⟨b, u⟩ := r
      have h := Except.ok.inj h
      cases h
      exact ⟨a, t1, u, rfl, e, rfl⟩

theorem Agree.bind {R : α → β → Prop} {Q : γ → δ → Prop} {x : L α} {y : L β} {f : α → L γ} {g : β → L δ} (h : Agree R x y)
    (hf : ∀ a b, R a b → Agree Q (f a) (g b)) : Agree Q (x >>= f) (y >>= g) := by
  intro c t d u e1 e2
  obtain ⟨a, t1, t2, ea, ec, rfl⟩ := bind_eq_ok e1
  obtain ⟨b, u1, u2, eb, ed, rfl⟩ := bind_eq_ok e2
  obtain ⟨rfl, r⟩ := h a t1 b u1 ea eb
  obtain ⟨rfl, q⟩ := hf a b r c t2 d u2 ec ed
  exact ⟨rfl, q⟩

/-- The same first step: its result is the same. -/
theorem Agree.bind_same {Q : γ → δ → Prop} {x : L α} {f : α → L γ} {g : α → L δ} (hf : ∀ a, Agree Q (f a) (g a)) : Agree Q (x >>= f) (x >>= g) :=
  Agree.bind (Agree.refl x) fun a b h => by cases h; exact hf a

/-- The first step has the same trace. -/
theorem Agree.bind_any {Q : γ → δ → Prop} {x : L α} {y : L β} {f : α → L γ} {g : β → L δ} (h : Agree Any x y)
    (hf : ∀ a b, Agree Q (f a) (g b)) : Agree Q (x >>= f) (y >>= g) :=
  Agree.bind h fun a b _ => hf a b

theorem Agree.mono {R Q : α → β → Prop} {x : L α} {y : L β} (h : Agree R x y) (hq : ∀ a b, R a b → Q a b) : Agree Q x y :=
  fun a t b u e1 e2 => ⟨(h a t b u e1 e2).1, hq a b (h a t b u e1 e2).2⟩

theorem Agree.any {R : α → β → Prop} {x : L α} {y : L β} (h : Agree R x y) : Agree Any x y := h.mono fun _ _ _ => trivial

theorem Agree.rd {a : List α} {b : List β} {i : Nat} : Agree Any (Leak.rd a i) (Leak.rd b i) := Agree.op
theorem Agree.wr {a : List α} {b : List β} {i : Nat} {x : α} {y : β} : Agree Any (Leak.wr a i x) (Leak.wr b i y) := Agree.op
theorem Agree.upd {a : List α} {b : List β} {i : Nat} {f : α → α} {g : β → β} : Agree Any (Leak.upd a i f) (Leak.upd b i g) :=
  Agree.bind_any Agree.rd fun _ _ => Agree.wr
theorem Agree.rd32 {p q : Bytes} {i : Nat} : Agree Any (Leak.rd32 p i) (Leak.rd32 q i) := Agree.op
theorem Agree.rd64 {p q : Bytes} {i : Nat} : Agree Any (Leak.rd64 p i) (Leak.rd64 q i) := Agree.op
theorem Agree.readBytes {p q : Bytes} {o n : Nat} : Agree Any (Leak.readBytes p o n) (Leak.readBytes q o n) := Agree.op
theorem Agree.copyN {a b : List α} {c d : List β} {n : Nat} : Agree Any (Leak.copyN a b n) (Leak.copyN c d n) := Agree.op
theorem Agree.rotBy {w : Nat} {rot rot' : BitVec w → Nat → M (BitVec w)} {x y : BitVec w} {n : Nat} :
    Agree Any (Leak.rotBy rot x n) (Leak.rotBy rot' y n) := Agree.op

theorem Agree.foldlM {R : σ → σ' → Prop} {f : σ → τ → L σ} {g : σ' → τ → L σ'} (ts : List τ)
    (h : ∀ t s s', R s s' → Agree R (f s t) (g s' t)) : ∀ s s', R s s' → Agree R (ts.foldlM f s) (ts.foldlM g s') := by
  induction ts with
  | nil => intro s s' r; exact Agree.pure r
  | cons t ts ih =>
    intro s s' r
    rw [List.foldlM_cons, List.foldlM_cons]
    exact Agree.bind (h t s s' r) fun a b r => ih a b r

theorem Agree.loop {R : σ → σ' → Prop} {lo hi : Nat} {f : Nat → σ → L σ} {g : Nat → σ' → L σ'} {s : σ} {s' : σ'} (r : R s s')
    (h : ∀ t s s', R s s' → Agree R (f t s) (g t s')) : Agree R (Leak.loop lo hi f s) (Leak.loop lo hi g s') :=
  Agree.bind_any Agree.op fun _ _ => Agree.foldlM _ (fun t s s' => h t s s') s s' r

theorem Agree.loop_any {lo hi : Nat} {f : Nat → σ → L σ} {g : Nat → σ' → L σ'} {s : σ} {s' : σ'}
    (h : ∀ t s s', Agree Any (f t s) (g t s')) : Agree Any (Leak.loop lo hi f s) (Leak.loop lo hi g s') :=
  Agree.loop trivial fun t s s' _ => h t s s'

theorem Agree.foldlM_any {f : σ → τ → L σ} {g : σ' → τ → L σ'} {ts : List τ} {s : σ} {s' : σ'}
    (h : ∀ t s s', Agree Any (f s t) (g s' t)) : Agree Any (ts.foldlM f s) (ts.foldlM g s') :=
  Agree.foldlM ts (fun t s s' _ => h t s s') s s' trivial

theorem Agree.ite {R : α → β → Prop} {c : Prop} [Decidable c] {x y : L α} {x' y' : L β} (h : c → Agree R x x') (h' : ¬c → Agree R y y') :
    Agree R (if c then x else y) (if c then x' else y') := by
  by_cases hc : c
  · rw [if_pos hc, if_pos hc]; exact h hc
  · rw [if_neg hc, if_neg hc]; exact h' hc

end Agree

/-- Splits an agreement along the program, with the same public values on both sides; the arguments are lemmas on the functions called. -/
macro "agree" "[" ls:term,* "]" : tactic => do
  let alts ← ls.getElems.mapM fun l => `(tacticSeq| with_reducible exact $l)
  `(tactic| repeat' (with_reducible first
    | exact Agree.pure trivial
    | exact Agree.rd
    | exact Agree.wr
    | exact Agree.upd
    | exact Agree.rd32
    | exact Agree.rd64
    | exact Agree.readBytes
    | exact Agree.copyN
    | exact Agree.rotBy
    $[| $alts]*
    | refine Agree.bind_same fun _ => ?_
    | refine Agree.bind_any ?_ fun _ _ => ?_
    | refine Agree.loop_any fun _ _ _ => ?_
    | refine Agree.foldlM_any fun _ _ _ => ?_
    | refine Agree.ite (fun _ => ?_) fun _ => ?_))

/-- If both computations end, the traces have the same length, and where they are the same the results are related by `R`. -/
def Reveals {α β : Type} (R : α → β → Prop) (x : L α) (y : L β) : Prop :=
  ∀ a t b u, x = .ok (a, t) → y = .ok (b, u) → t.length = u.length ∧ (t = u → R a b)

/-- The traces have the same length. -/
abbrev Len {α β : Type} (x : L α) (y : L β) : Prop := Reveals Any x y

section Reveals
variable {α β γ δ σ σ' τ : Type}

theorem Agree.reveals {R : α → β → Prop} {x : L α} {y : L β} (h : Agree R x y) : Reveals R x y := fun a t b u e1 e2 =>
  ⟨congrArg _ (h a t b u e1 e2).1, fun _ => (h a t b u e1 e2).2⟩

theorem Reveals.mono {R Q : α → β → Prop} {x : L α} {y : L β} (h : Reveals R x y) (hq : ∀ a b, R a b → Q a b) : Reveals Q x y :=
  fun a t b u e1 e2 => ⟨(h a t b u e1 e2).1, fun e => hq a b ((h a t b u e1 e2).2 e)⟩

theorem Reveals.len {R : α → β → Prop} {x : L α} {y : L β} (h : Reveals R x y) : Len x y := h.mono fun _ _ _ => trivial

theorem Reveals.and {R Q : α → β → Prop} {x : L α} {y : L β} (h : Reveals R x y) (h' : Reveals Q x y) : Reveals (fun a b => R a b ∧ Q a b) x y :=
  fun a t b u e1 e2 => ⟨(h a t b u e1 e2).1, fun e => ⟨(h a t b u e1 e2).2 e, (h' a t b u e1 e2).2 e⟩⟩

theorem Reveals.pure {R : α → β → Prop} {a : α} {b : β} (h : R a b) : Reveals R (Pure.pure a : L α) (Pure.pure b : L β) := (Agree.pure h).reveals

theorem Reveals.bind {R : α → β → Prop} {Q : γ → δ → Prop} {x : L α} {y : L β} {f : α → L γ} {g : β → L δ} (h : Reveals R x y)
    (hl : ∀ a b, Len (f a) (g b)) (hf : ∀ a b, R a b → Reveals Q (f a) (g b)) : Reveals Q (x >>= f) (y >>= g) := by
  intro c t d u e1 e2
  obtain ⟨a, t1, t2, ea, ec, rfl⟩ := bind_eq_ok e1
  obtain ⟨b, u1, u2, eb, ed, rfl⟩ := bind_eq_ok e2
  obtain ⟨l1, r1⟩ := h a t1 b u1 ea eb
  obtain ⟨l2, -⟩ := hl a b c t2 d u2 ec ed
  refine ⟨by rw [List.length_append, List.length_append, l1, l2], fun e => ?_⟩
  obtain ⟨rfl, rfl⟩ := List.append_inj e l1
  exact (hf a b (r1 rfl) c t2 d t2 ec ed).2 rfl

/-- What the first step reveals. -/
theorem Reveals.left {P : Prop} {x : L α} {y : L β} {f : α → L γ} {g : β → L δ} (h : Reveals (fun _ _ => P) x y)
    (hl : ∀ a b, Len (f a) (g b)) : Reveals (fun _ _ => P) (x >>= f) (y >>= g) :=
  h.bind hl fun a b p => (hl a b).mono fun _ _ _ => p

theorem Len.bind {x : L α} {y : L β} {f : α → L γ} {g : β → L δ} (h : Len x y) (hf : ∀ a b, Len (f a) (g b)) : Len (x >>= f) (y >>= g) :=
  Reveals.bind h hf fun a b _ => hf a b

theorem Len.op {e e' : Ev} {x : M α} {y : M β} : Len (L.op e x) (L.op e' y) := by
  intro a t b u e1 e2
  cases x with
  | error e => cases e1
  | ok x =>
    cases y with
    | error e => cases e2
    | ok y => cases e1; cases e2; exact ⟨rfl, fun _ => trivial⟩

theorem Reveals.op {e e' : Ev} {x : M α} {y : M β} : Reveals (fun a b => e = e' ∧ x = .ok a ∧ y = .ok b) (L.op e x) (L.op e' y) := by
  intro a t b u e1 e2
  cases x with
  | error e => cases e1
  | ok x =>
    cases y with
    | error e => cases e2
    | ok y => cases e1; cases e2; exact ⟨rfl, fun h => ⟨(List.cons.inj h).1, rfl, rfl⟩⟩

/-- What is known of the results without the traces. -/
theorem Reveals.ofErase {P : α → Prop} {Q : β → Prop} {x : L α} {y : L β} (hl : Len x y) (hx : ∀ a, L.erase x = .ok a → P a)
    (hy : ∀ b, L.erase y = .ok b → Q b) : Reveals (fun a b => P a ∧ Q b) x y := by
  intro a t b u e1 e2
  refine ⟨(hl a t b u e1 e2).1, fun _ => ⟨hx a ?_, hy b ?_⟩⟩
  · rw [e1]; rfl
  · rw [e2]; rfl

theorem Len.rd {a : List α} {b : List β} {i j : Nat} : Len (Leak.rd a i) (Leak.rd b j) := Len.op
theorem Len.wr {a : List α} {b : List β} {i j : Nat} {x : α} {y : β} : Len (Leak.wr a i x) (Leak.wr b j y) := Len.op
theorem Len.upd {a : List α} {b : List β} {i j : Nat} {f : α → α} {g : β → β} : Len (Leak.upd a i f) (Leak.upd b j g) :=
  Len.bind Len.rd fun _ _ => Len.wr
theorem Len.rd32 {p q : Bytes} {i j : Nat} : Len (Leak.rd32 p i) (Leak.rd32 q j) := Len.op
theorem Len.rd64 {p q : Bytes} {i j : Nat} : Len (Leak.rd64 p i) (Leak.rd64 q j) := Len.op
theorem Len.readBytes {p q : Bytes} {o n o' n' : Nat} : Len (Leak.readBytes p o n) (Leak.readBytes q o' n') := Len.op
theorem Len.memcpyTo {p q r s : Bytes} {o o' : Nat} : Len (Leak.memcpyTo p o r) (Leak.memcpyTo q o' s) := Len.op
theorem Len.copyN {a b : List α} {c d : List β} {n m : Nat} : Len (Leak.copyN a b n) (Leak.copyN c d m) := Len.op
theorem Len.branch {c d : Bool} : Len (Leak.branch c) (Leak.branch d) := Len.op
theorem Len.rotBy {w : Nat} {rot rot' : BitVec w → Nat → M (BitVec w)} {x y : BitVec w} {n m : Nat} :
    Len (Leak.rotBy rot x n) (Leak.rotBy rot' y m) := Len.op

theorem Len.foldlM {f : σ → τ → L σ} {g : σ' → τ → L σ'} {ts : List τ}
    (h : ∀ t s s', Len (f s t) (g s' t)) : ∀ {s s'}, Len (ts.foldlM f s) (ts.foldlM g s') := by
  induction ts with
  | nil => intro s s'; exact Reveals.pure trivial
  | cons t ts ih =>
    intro s s'
    rw [List.foldlM_cons, List.foldlM_cons]
    exact Len.bind (h t s s') fun a b => ih

theorem Len.loop {lo hi : Nat} {f : Nat → σ → L σ} {g : Nat → σ' → L σ'} {s : σ} {s' : σ'}
    (h : ∀ t s s', Len (f t s) (g t s')) : Len (Leak.loop lo hi f s) (Leak.loop lo hi g s') :=
  Len.bind Len.op fun _ _ => Len.foldlM fun t s s' => h t s s'

theorem Len.loopDown {n : Nat} {f : Nat → σ → L σ} {g : Nat → σ' → L σ'} {s : σ} {s' : σ'}
    (h : ∀ t s s', Len (f t s) (g t s')) : Len (Leak.loopDown n f s) (Leak.loopDown n g s') :=
  Len.bind Len.op fun _ _ => Len.foldlM fun t s s' => h t s s'

theorem Len.ite {c d : Prop} [Decidable c] [Decidable d] {x y : L α} {x' y' : L β} (h1 : Len x x') (h2 : Len x y') (h3 : Len y x') (h4 : Len y y') :
    Len (if c then x else y) (if d then x' else y') := by
  by_cases hc : c <;> by_cases hd : d
  · rw [if_pos hc, if_pos hd]; exact h1
  · rw [if_pos hc, if_neg hd]; exact h2
  · rw [if_neg hc, if_pos hd]; exact h3
  · rw [if_neg hc, if_neg hd]; exact h4

theorem Len.bind_same {x : L α} {f : α → L γ} {g : α → L δ} (hf : ∀ a, Len (f a) (g a)) : Len (x >>= f) (x >>= g) := by
  intro c t d u e1 e2
  obtain ⟨a, t1, t2, ea, ec, rfl⟩ := bind_eq_ok e1
  obtain ⟨b, u1, u2, eb, ed, rfl⟩ := bind_eq_ok e2
  rw [ea] at eb
  cases Except.ok.inj eb
  exact ⟨by rw [List.length_append, List.length_append, (hf a c t2 d u2 ec ed).1], fun _ => trivial⟩

theorem Len.ite_same {c : Prop} [Decidable c] {x y : L α} {x' y' : L β} (h1 : Len x x') (h4 : Len y y') : Len (if c then x else y) (if c then x' else y') := by
  by_cases hc : c
  · rw [if_pos hc, if_pos hc]; exact h1
  · rw [if_neg hc, if_neg hc]; exact h4

/-- What an iteration reveals, the loop reveals for all. -/
theorem Reveals.foldlM {R : σ → σ' → Prop} {P : τ → Prop} {f : σ → τ → L σ} {g : σ' → τ → L σ'} (ts : List τ)
    (hl : ∀ t s s', Len (f s t) (g s' t)) (h : ∀ t, t ∈ ts → ∀ s s', R s s' → Reveals (fun a b => R a b ∧ P t) (f s t) (g s' t)) :
    ∀ s s', R s s' → Reveals (fun a b => R a b ∧ ∀ t, t ∈ ts → P t) (ts.foldlM f s) (ts.foldlM g s') := by
  induction ts with
  | nil => intro s s' r; exact Reveals.pure ⟨r, fun t h => nomatch h⟩
  | cons t ts ih =>
    intro s s' r
    rw [List.foldlM_cons, List.foldlM_cons]
    refine Reveals.bind (h t (List.mem_cons_self ..) s s' r) (fun a b => Len.foldlM hl) fun a b ⟨r, p⟩ => ?_
    refine (ih (fun t ht => h t (List.mem_cons_of_mem _ ht)) a b r).mono fun a b ⟨r, ps⟩ => ⟨r, fun t' h => ?_⟩
    cases h with
    | head => exact p
    | tail _ h => exact ps t' h

theorem Reveals.loop {R : σ → σ' → Prop} {P : Nat → Prop} {n : Nat} {f : Nat → σ → L σ} {g : Nat → σ' → L σ'} {s : σ} {s' : σ'}
    (hl : ∀ t s s', Len (f t s) (g t s')) (r : R s s') (h : ∀ t, t < n → ∀ s s', R s s' → Reveals (fun a b => R a b ∧ P t) (f t s) (g t s')) :
    Reveals (fun a b => R a b ∧ ∀ t, t < n → P t) (Leak.loop 0 n f s) (Leak.loop 0 n g s') := by
  refine Reveals.bind Len.op (fun _ _ => Len.foldlM fun t s s' => hl t s s') fun _ _ _ => ?_
  refine (Reveals.foldlM (R := R) (P := P) _ (fun t s s' => hl t s s') (fun t ht s s' r => h t ?_ s s' r) s s' r).mono fun a b ⟨r, p⟩ => ⟨r, fun t ht => p t ?_⟩
  · have := List.mem_range'_1.1 ht
    omega
  · exact List.mem_range'_1.2 ⟨by omega, by omega⟩

end Reveals

/-- Splits a comparison of the lengths of traces along the program; the arguments are lemmas on the functions called. -/
macro "len" "[" ls:term,* "]" : tactic => do
  let alts ← ls.getElems.mapM fun l => `(tacticSeq| with_reducible exact $l)
  `(tactic| repeat' (with_reducible first
    | exact Reveals.pure trivial
    | exact Len.rd
    | exact Len.wr
    | exact Len.upd
    | exact Len.rd32
    | exact Len.rd64
    | exact Len.readBytes
    | exact Len.memcpyTo
    | exact Len.copyN
    | exact Len.branch
    | exact Len.rotBy
    $[| $alts]*
    | refine Len.bind_same fun _ => ?_
    | refine Len.bind ?_ fun _ _ => ?_
    | refine Len.loop fun _ _ _ => ?_
    | refine Len.loopDown fun _ _ _ => ?_
    | refine Len.foldlM fun _ _ _ => ?_
    | refine Len.ite_same ?_ ?_
    | refine Len.ite ?_ ?_ ?_ ?_))

end Digestpp.Proofs.Leak
