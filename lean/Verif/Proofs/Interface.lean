import Verif.Proofs.Laws
import Verif.Proofs.Api

/-! The laws of the interface for one class, from conformance to whatever function. -/

namespace Digestpp.Proofs
open Model Spec

section Hash
variable {P Θ : Type} (f : HashFn P Θ)

/-- Absorbing pieces appends them. -/
theorem absorbs_run (srcs : List Source) : ∀ o : HashObj Θ, (f.run (srcs.map (HashOp.absorb (P := P))) o).2 =
    ⟨o.params, o.msg ++ (srcs.map Source.contents).flatten⟩ := by
  induction srcs with
  | nil => intro o; show o = _; simp
  | cons s srcs ih =>
    intro o
    show (f.run (srcs.map HashOp.absorb) (f.step (.absorb s) o).2).2 = _
    rw [ih]
    show HashObj.mk o.params ((o.msg ++ s.contents) ++ _) = _
    rw [List.append_assoc]; rfl

variable {c : HashClass} [Param c.P] {size : Nat} {L : Limits c.P} {g : HashFn c.P Θ} {cov : Cover c.P Θ}

theorem HashLaws.absorbs (h : HashLaws c size L g cov) {ops post : List (HashOp c.P)} {a b : List Source}
    (e : (a.map Source.contents).flatten = (b.map Source.contents).flatten)
    (hf : HashFine L (ops ++ a.map .absorb ++ post) 0) (hf' : HashFine L (ops ++ b.map .absorb) 0) :
    c.Same (ops ++ a.map .absorb) (ops ++ b.map .absorb) post := by
  refine h.same hf hf' ?_
  rw [run_append, run_append]
  show (g.run _ _).2 = (g.run _ _).2
  rw [absorbs_run, absorbs_run, e]

theorem HashLaws.reset (h : HashLaws c size L g cov) {ops post : List (HashOp c.P)}
    (hf : HashFine L (ops ++ [.reset false] ++ post) 0) : c.Same (ops ++ [.reset false]) (HashOp.settings ops) post := by
  have h1 : HashFine L ops 0 := by
    rw [List.append_assoc, fine_append] at hf; exact hf.1
  refine h.same hf (fine_settings h1 0) ?_
  rw [run_append, settings_run]
  rfl

theorem HashLaws.resetTrue (h : HashLaws c size L g cov) {ops post : List (HashOp c.P)}
    (hf : HashFine L (ops ++ [.reset true] ++ post) 0) : c.Same (ops ++ [.reset true]) [] post := by
  refine h.same hf trivial ?_
  rw [run_append]
  rfl

theorem HashLaws.set (h : HashLaws c size L g cov) {ops post : List (HashOp c.P)} {p : c.P} (hp : L.accepts p = true)
    (hf : HashFine L (ops ++ [.set p] ++ post) 0) :
    c.Same (ops ++ [.set p]) (HashOp.settings ops ++ [.set p]) post := by
  have h1 : HashFine L (ops ++ [.set p]) 0 := by rw [fine_append] at hf; exact hf.1
  have h2 := fine_settings h1 0
  rw [settings_snoc] at h2
  refine h.same hf h2 ?_
  rw [run_append, run_append, settings_run]
  show (g.step (.set p) _).2 = (g.step (.set p) _).2
  obtain ⟨a, ha⟩ := h.set_some hp (g.run ops g.new).2.params
  rw [HashLaws.step_set_some ha, HashLaws.step_set_some (o := ⟨_, []⟩) ha]

theorem HashLaws.swap (h : HashLaws c size L g cov) {ops post : List (HashOp c.P)} {p q : c.P} (hp : L.accepts p = true)
    (hq : L.accepts q = true) (hk : Param.kind p ≠ Param.kind q) (hf : HashFine L (ops ++ [.set p, .set q] ++ post) 0) :
    c.Same (ops ++ [.set p, .set q]) (ops ++ [.set q, .set p]) post := by
  have h1 : HashFine L (ops ++ [.set p, .set q]) 0 := by rw [fine_append] at hf; exact hf.1
  have h2 : HashFine L (ops ++ [.set q, .set p]) 0 := by
    rw [fine_append] at h1 ⊢
    exact ⟨h1.1, h1.2.2.1, h1.2.1, trivial⟩
  refine h.same hf h2 ?_
  rw [run_append, run_append]
  generalize (g.run ops g.new).2 = o
  obtain ⟨a, ha⟩ := h.set_some hp o.params
  obtain ⟨b, hb⟩ := h.set_some hq o.params
  show (g.step (.set q) (g.step (.set p) o).2).2 = (g.step (.set p) (g.step (.set q) o).2).2
  rw [HashLaws.step_set_some ha, HashLaws.step_set_some hb]
  obtain ⟨x, hx⟩ := h.set_some hq a
  have hy := hx
  rw [h.comm p q o.params a b hk ha hb] at hy
  rw [HashLaws.step_set_some (o := ⟨a, []⟩) hx, HashLaws.step_set_some (o := ⟨b, []⟩) hy]

theorem HashLaws.overwrite (h : HashLaws c size L g cov) {ops post : List (HashOp c.P)} {p q : c.P} (hp : L.accepts p = true)
    (hq : L.accepts q = true) (hk : Param.kind p = Param.kind q) (hv : Param.value q ≠ [])
    (hf : HashFine L (ops ++ [.set p, .set q] ++ post) 0) : c.Same (ops ++ [.set p, .set q]) (ops ++ [.set q]) post := by
  have h1 : HashFine L (ops ++ [.set p, .set q]) 0 := by rw [fine_append] at hf; exact hf.1
  have h2 : HashFine L (ops ++ [.set q]) 0 := by
    rw [fine_append] at h1 ⊢
    exact ⟨h1.1, h1.2.2.1, trivial⟩
  refine h.same hf h2 ?_
  rw [run_append, run_append]
  generalize (g.run ops g.new).2 = o
  obtain ⟨a, ha⟩ := h.set_some hp o.params
  obtain ⟨b, hb⟩ := h.set_some hq o.params
  show (g.step (.set q) (g.step (.set p) o).2).2 = (g.step (.set q) o).2
  rw [HashLaws.step_set_some ha, HashLaws.step_set_some hb]
  have hx : g.set q a = some b := by rw [h.over p q o.params a hk hv ha, hb]
  rw [HashLaws.step_set_some (o := ⟨a, []⟩) hx]

theorem HashLaws.setDone (h : HashLaws c size L g cov) {ops : List (HashOp c.P)} {p : c.P} (hp : L.accepts p = true)
    (hf : HashFine L (ops ++ [.set p]) 0) {mem : c.S} (hm : c.Mem mem) : c.after mem ops [.set p] = some [.done] := by
  rw [h.after hm hf]
  obtain ⟨a, ha⟩ := h.set_some hp (g.run ops g.new).2.params
  show some [(g.step (.set p) _).1] = _
  rw [HashLaws.step_set_some ha]

theorem HashLaws.setThrew (h : HashLaws c size L g cov) {ops : List (HashOp c.P)} {p : c.P} (hp : L.accepts p = false)
    (hf : HashFine L (ops ++ [.set p]) 0) {mem : c.S} (hm : c.Mem mem) : c.after mem ops [.set p] = some [.threw] := by
  rw [h.after hm hf]
  show some [(g.step (.set p) _).1] = _
  rw [h.step_set_none hp]

theorem HashLaws.setRejected (h : HashLaws c size L g cov) {ops post : List (HashOp c.P)} {p : c.P} (hp : L.accepts p = false)
    (hf : HashFine L (ops ++ [.set p] ++ post) 0) : c.Same (ops ++ [.set p]) ops post := by
  have h1 : HashFine L ops 0 := by
    rw [List.append_assoc, fine_append] at hf; exact hf.1
  refine h.same hf h1 ?_
  rw [run_append]
  show (g.step (.set p) _).2 = _
  rw [h.step_set_none hp]

theorem HashLaws.digestPure (h : HashLaws c size L g cov) {ops post : List (HashOp c.P)} {d : HashOp c.P} (hd : d.IsDigest)
    (hf : HashFine L (ops ++ [d] ++ post) 0) : c.Same (ops ++ [d]) ops post := by
  have h1 : HashFine L ops 0 := by
    rw [List.append_assoc, fine_append] at hf; exact hf.1
  refine h.same hf h1 ?_
  rw [run_append]
  cases d with
  | digestBuf => rfl
  | digest => rfl
  | hexdigest => rfl
  | absorb => exact hd.elim
  | reset => exact hd.elim
  | set => exact hd.elim

end Hash
end Digestpp.Proofs

namespace Digestpp.Proofs
open Model Spec

theorem bind_ok {α β : Type} {x : M α} {g : α → M β} {b : β} (h : (x >>= g) = .ok b) : ∃ a, x = .ok a ∧ g a = .ok b := by
  cases x with
  | error e => cases h
  | ok a => exact ⟨a, rfl, h⟩

section Model
variable {S P : Type} (pr : HashProvider S P)

theorem prun_append (b : List (HashOp P)) : ∀ (a : List (HashOp P)) (s : S), pr.run (a ++ b) s =
    (pr.run a s >>= fun r => pr.run b r.2 >>= fun r' => pure (r.1 ++ r'.1, r'.2)) := by
  intro a
  induction a with
  | nil =>
    intro s
    show pr.run b s = (pr.run b s >>= fun r' => pure ([] ++ r'.1, r'.2))
    cases pr.run b s <;> rfl
  | cons x a ih =>
    intro s
    show (pr.step x s >>= fun r => pr.run (a ++ b) r.2 >>= fun r' => pure (r.1 :: r'.1, r'.2)) =
      ((pr.step x s >>= fun r => pr.run a r.2 >>= fun r' => pure (r.1 :: r'.1, r'.2)) >>= _)
    cases pr.step x s with
    | error e => rfl
    | ok r =>
      show (pr.run (a ++ b) r.2 >>= fun r' => pure (r.1 :: r'.1, r'.2)) = ((pr.run a r.2 >>= fun r' => pure (r.1 :: r'.1, r'.2)) >>= _)
      rw [ih]
      cases pr.run a r.2 with
      | error e => rfl
      | ok q =>
        show ((pr.run b q.2 >>= fun r' => pure (q.1 ++ r'.1, r'.2)) >>= _) = (pr.run b q.2 >>= _)
        cases pr.run b q.2 <;> rfl

theorem prun_length : ∀ (a : List (HashOp P)) (s : S) (r : List Obs × S), pr.run a s = .ok r → r.1.length = a.length := by
  intro a
  induction a with
  | nil => intro s r h; cases h; rfl
  | cons x a ih =>
    intro s r h
    obtain ⟨q, _, h2⟩ := bind_ok (x := pr.step x s) h
    obtain ⟨t, h3, h4⟩ := bind_ok (x := pr.run a q.2) h2
    cases h4
    show (q.1 :: t.1).length = _
    rw [List.length_cons, ih _ _ h3]; rfl

theorem memcpyTo_length {b d r : Bytes} {o : Nat} (h : memcpyTo b o d = .ok r) : r.length = b.length := by
  unfold memcpyTo at h
  split at h
  · cases h
    simp only [List.length_append, List.length_take, List.length_drop]
    omega
  · cases h

/-- Digests are made of a copy. -/
theorem step_digest_state {d : HashOp P} (hd : d.IsDigest) {s : S} {r : Obs × S} (h : pr.step d s = .ok r) : r.2 = s := by
  cases d with
  | digestBuf =>
    obtain ⟨q, _, h2⟩ := bind_ok (x := pr.digestBuf _ s) h
    cases h2; rfl
  | digest =>
    obtain ⟨q, _, h2⟩ := bind_ok (x := pr.digestIt s) h
    cases h2; rfl
  | hexdigest =>
    obtain ⟨q, _, h2⟩ := bind_ok (x := pr.digestIt s) h
    cases h2; rfl
  | absorb => exact hd.elim
  | reset => exact hd.elim
  | set => exact hd.elim

theorem prun_digest {d : HashOp P} (hd : d.IsDigest) (post pre : List (HashOp P)) (s : S) (r : List Obs × S)
    (h : pr.run (pre ++ d :: post) s = .ok r) : pr.run (pre ++ post) s = .ok (r.1.eraseIdx pre.length, r.2) := by
  rw [prun_append] at h ⊢
  obtain ⟨a, h1, h2⟩ := bind_ok h
  obtain ⟨b, h3, h4⟩ := bind_ok h2
  obtain ⟨q, h5, h6⟩ := bind_ok (x := pr.step d a.2) h3
  obtain ⟨t, h7, h8⟩ := bind_ok (x := pr.run post q.2) h6
  rw [step_digest_state pr hd h5] at h7
  cases h8
  cases h4
  rw [h1]
  show (pr.run post a.2 >>= _) = _
  rw [h7]
  show Except.ok (a.1 ++ t.1, t.2) = Except.ok ((a.1 ++ q.1 :: t.1).eraseIdx pre.length, t.2)
  rw [← prun_length pr _ _ _ h1]
  congr 2
  rw [List.eraseIdx_append_of_length_le (Nat.le_refl _), Nat.sub_self]
  rfl

end Model

theorem trial_ok {c : HashClass} {mem : c.S} {ops : List (HashOp c.P)} {os : List Obs} (h : c.trial mem ops = some os) :
    ∃ s s', c.construct mem = .ok (some s) ∧ c.pr.run ops s = .ok (os, s') := by
  unfold HashClass.trial at h
  cases hc : c.construct mem with
  | error e => rw [hc] at h; cases h
  | ok r =>
    rw [hc] at h
    cases r with
    | none => cases h
    | some s =>
      cases hr : c.pr.run ops s with
      | error e =>
        have : (match ((c.pr.run ops s >>= fun r => pure (some r.1)) : M (Option (List Obs))) with
          | .ok r => r | .error _ => none) = some os := h
        rw [hr] at this; cases this
      | ok r =>
        have : (match ((c.pr.run ops s >>= fun r => pure (some r.1)) : M (Option (List Obs))) with
          | .ok r => r | .error _ => none) = some os := h
        rw [hr] at this; cases this
        exact ⟨s, r.2, rfl, hr⟩

theorem trial_of {c : HashClass} {mem : c.S} {ops : List (HashOp c.P)} {s : c.S} {r : List Obs × c.S}
    (h1 : c.construct mem = .ok (some s)) (h2 : c.pr.run ops s = .ok r) : c.trial mem ops = some r.1 := by
  unfold HashClass.trial
  rw [h1]
  show (match ((c.pr.run ops s >>= fun r => pure (some r.1)) : M (Option (List Obs))) with
          | .ok r => r | .error _ => none) = _
  rw [h2]
  rfl

section Digest
variable {Θ : Type} {c : HashClass} [Param c.P] {size : Nat} {L : Limits c.P} {g : HashFn c.P Θ} {cov : Cover c.P Θ}

/-- The length of digests, from the model: the output vector has `hash_size()/8` bytes. -/
theorem HashLaws.digest_length (h : HashLaws c size L g cov) {mem : c.S} (hm : c.Mem mem) {ops : List (HashOp c.P)}
    (hf : HashFine L (ops ++ [.digest]) 0) : (g.digest (g.run ops g.new).2.params (g.run ops g.new).2.msg).length = size := by
  have hfd : ∀ buf, HashFine L (ops ++ [.digestBuf buf]) 0 := by
    intro buf
    rw [fine_append] at hf ⊢
    exact hf
  have key : ∀ d : HashOp c.P, HashFine L (ops ++ [d]) 0 → ∃ s, c.construct mem = .ok (some s) ∧ ∃ a s', c.pr.run ops s = .ok a ∧
      c.pr.step d a.2 = .ok ((g.step d (g.run ops g.new).2).1, s') := by
    intro d hd
    obtain ⟨s, s', h1, h2⟩ := trial_ok (h.trial hm hd)
    refine ⟨s, h1, ?_⟩
    rw [prun_append] at h2
    obtain ⟨a, h3, h4⟩ := bind_ok h2
    obtain ⟨b, h5, h6⟩ := bind_ok h4
    obtain ⟨q, h7, h8⟩ := bind_ok (x := c.pr.step d a.2) h5
    cases h8
    injection h6 with h6
    injection h6 with h6 h9
    refine ⟨a, q.2, h3, ?_⟩
    rw [h7, run_append] at *
    have hl : a.1.length = (g.run ops g.new).1.length := by rw [prun_length _ _ _ _ h3, run_length]
    have := (List.append_inj h6 hl).2
    injection this with this
    rw [← this]
  obtain ⟨s, h1, a, s', h2, h3⟩ := key .digest hf
  have hlen : (g.digest (g.run ops g.new).2.params (g.run ops g.new).2.msg).length = c.pr.hashSize a.2 / 8 := by
    obtain ⟨b, h4, h5⟩ := bind_ok (x := c.pr.digestIt a.2) h3
    injection h5 with h5
    injection h5 with h5 _
    injection h5 with h5
    rw [← h5]
    unfold HashProvider.digestIt at h4
    dsimp only at h4
    split at h4
    · cases h4
    · obtain ⟨out, _, h4⟩ := bind_ok h4
      rw [memcpyTo_length h4, List.length_replicate]
  have hbuf : ∀ buf : Bytes, (buf.length < c.pr.hashSize a.2 / 8 ↔ buf.length < size) := by
    intro buf
    obtain ⟨t, ht, a', t', h4, h5⟩ := key (.digestBuf buf) (hfd buf)
    rw [h1] at ht
    cases ht
    rw [h2] at h4
    cases h4
    obtain ⟨o, h6, h7⟩ := bind_ok (x := c.pr.digestBuf buf a.2) h5
    injection h7 with h7
    injection h7 with h7 _
    rw [h7] at h6
    have e : (g.step (.digestBuf buf) (g.run ops g.new).2).1 = if buf.length < g.size then Obs.threw else
      .buffer (g.digest (g.run ops g.new).2.params (g.run ops g.new).2.msg ++ buf.drop g.size) := rfl
    rw [e, h.size] at h6
    unfold HashProvider.digestBuf at h6
    constructor
    · intro hlt
      rw [if_pos hlt] at h6
      apply Classical.byContradiction
      intro hn
      rw [if_neg hn] at h6
      cases h6
    · intro hlt
      rw [if_pos hlt] at h6
      apply Classical.byContradiction
      intro hn
      rw [if_neg hn] at h6
      obtain ⟨x, _, h6⟩ := bind_ok h6
      obtain ⟨y, _, h6⟩ := bind_ok h6
      cases h6
  rw [hlen]
  have b1 := hbuf (List.replicate (c.pr.hashSize a.2 / 8) 0)
  have b2 := hbuf (List.replicate size 0)
  rw [List.length_replicate] at b1 b2
  omega

theorem HashLaws.digests (h : HashLaws c size L g cov) {mem : c.S} (hm : c.Mem mem) {ops : List (HashOp c.P)}
    (hf : HashFine L (ops ++ [.digest]) 0) : ∃ d : Bytes, d.length = size ∧
      (∀ mem, c.Mem mem → c.after mem ops [.digest] = some [.bytes d]) ∧
      (∀ mem, c.Mem mem → c.after mem ops [.hexdigest] = some [.text (hex d)]) ∧
      ∀ buf, (∀ mem, c.Mem mem → c.after mem ops [.digestBuf buf] = some [if buf.length < size then .threw else .buffer (d ++ buf.drop size)]) := by
  have hfd : ∀ d, d.IsDigest → HashFine L (ops ++ [d]) 0 := by
    intro d hd
    rw [fine_append] at hf ⊢
    cases d with
    | digestBuf => exact hf
    | digest => exact hf
    | hexdigest => exact hf
    | absorb => exact hd.elim
    | reset => exact hd.elim
    | set => exact hd.elim
  refine ⟨_, h.digest_length hm hf, fun mem hm => h.after hm hf, fun mem hm => h.after hm (hfd .hexdigest trivial), fun buf mem hm => ?_⟩
  rw [h.after hm (hfd (.digestBuf buf) trivial)]
  show some [if buf.length < g.size then _ else Obs.buffer (_ ++ buf.drop g.size)] = _
  rw [h.size]

end Digest
end Digestpp.Proofs

namespace Digestpp.Proofs
open Model Spec

section Xof
variable {P Θ : Type} (f : XofFn P Θ)

/-- Absorbing pieces appends them. -/
theorem xabsorbs_run (srcs : List Source) : ∀ o : XofObj Θ, (f.run (srcs.map (XofOp.absorb (P := P))) o).2 =
    ⟨o.params, o.msg ++ (srcs.map Source.contents).flatten, o.squeezed⟩ := by
  induction srcs with
  | nil => intro o; show o = _; simp
  | cons s srcs ih =>
    intro o
    show (f.run (srcs.map XofOp.absorb) (f.step (.absorb s) o).2).2 = _
    rw [ih]
    show XofObj.mk o.params ((o.msg ++ s.contents) ++ _) _ = _
    rw [List.append_assoc]; rfl

variable {c : XofClass} [Param c.P] {L : Limits c.P} {g : XofFn c.P Θ} {cov : Cover c.P Θ}

theorem XofLaws.absorbs (h : XofLaws c L g cov) {ops post : List (XofOp c.P)} {a b : List Source}
    (e : (a.map Source.contents).flatten = (b.map Source.contents).flatten)
    (hf : XofFine L (ops ++ a.map .absorb ++ post) 0 0) (hf' : XofFine L (ops ++ b.map .absorb) 0 0) :
    c.Same (ops ++ a.map .absorb) (ops ++ b.map .absorb) post := by
  refine h.same hf hf' ?_
  rw [xrun_append, xrun_append]
  show (g.run _ _).2 = (g.run _ _).2
  rw [xabsorbs_run, xabsorbs_run, e]

theorem XofLaws.reset (h : XofLaws c L g cov) {ops post : List (XofOp c.P)}
    (hf : XofFine L (ops ++ [.reset false] ++ post) 0 0) : c.Same (ops ++ [.reset false]) (XofOp.settings ops) post := by
  have h1 : XofFine L ops 0 0 := by
    rw [List.append_assoc, xfine_append] at hf; exact hf.1
  refine h.same hf (xfine_settings h1 0 0) ?_
  rw [xrun_append, xsettings_run]
  rfl

theorem XofLaws.resetTrue (h : XofLaws c L g cov) {ops post : List (XofOp c.P)}
    (hf : XofFine L (ops ++ [.reset true] ++ post) 0 0) : c.Same (ops ++ [.reset true]) [] post := by
  refine h.same hf trivial ?_
  rw [xrun_append]
  rfl

theorem XofLaws.set (h : XofLaws c L g cov) {ops post : List (XofOp c.P)} {p : c.P} (hp : L.accepts p = true)
    (hf : XofFine L (ops ++ [.set p] ++ post) 0 0) :
    c.Same (ops ++ [.set p]) (XofOp.settings ops ++ [.set p]) post := by
  have h1 : XofFine L (ops ++ [.set p]) 0 0 := by rw [xfine_append] at hf; exact hf.1
  have h2 := xfine_settings h1 0 0
  rw [xsettings_snoc] at h2
  refine h.same hf h2 ?_
  rw [xrun_append, xrun_append, xsettings_run]
  show (g.step (.set p) _).2 = (g.step (.set p) _).2
  obtain ⟨a, ha⟩ := h.set_some hp (g.run ops g.new).2.params
  rw [XofLaws.step_set_some ha, XofLaws.step_set_some (o := ⟨_, [], 0⟩) ha]

theorem XofLaws.swap (h : XofLaws c L g cov) {ops post : List (XofOp c.P)} {p q : c.P} (hp : L.accepts p = true)
    (hq : L.accepts q = true) (hk : Param.kind p ≠ Param.kind q) (hf : XofFine L (ops ++ [.set p, .set q] ++ post) 0 0) :
    c.Same (ops ++ [.set p, .set q]) (ops ++ [.set q, .set p]) post := by
  have h1 : XofFine L (ops ++ [.set p, .set q]) 0 0 := by rw [xfine_append] at hf; exact hf.1
  have h2 : XofFine L (ops ++ [.set q, .set p]) 0 0 := by
    rw [xfine_append] at h1 ⊢
    exact ⟨h1.1, h1.2.2.1, h1.2.1, trivial⟩
  refine h.same hf h2 ?_
  rw [xrun_append, xrun_append]
  generalize (g.run ops g.new).2 = o
  obtain ⟨a, ha⟩ := h.set_some hp o.params
  obtain ⟨b, hb⟩ := h.set_some hq o.params
  show (g.step (.set q) (g.step (.set p) o).2).2 = (g.step (.set p) (g.step (.set q) o).2).2
  rw [XofLaws.step_set_some ha, XofLaws.step_set_some hb]
  obtain ⟨x, hx⟩ := h.set_some hq a
  have hy := hx
  rw [h.comm p q o.params a b hk ha hb] at hy
  rw [XofLaws.step_set_some (o := ⟨a, [], 0⟩) hx, XofLaws.step_set_some (o := ⟨b, [], 0⟩) hy]

theorem XofLaws.overwrite (h : XofLaws c L g cov) {ops post : List (XofOp c.P)} {p q : c.P} (hp : L.accepts p = true)
    (hq : L.accepts q = true) (hk : Param.kind p = Param.kind q) (hv : Param.value q ≠ [])
    (hf : XofFine L (ops ++ [.set p, .set q] ++ post) 0 0) : c.Same (ops ++ [.set p, .set q]) (ops ++ [.set q]) post := by
  have h1 : XofFine L (ops ++ [.set p, .set q]) 0 0 := by rw [xfine_append] at hf; exact hf.1
  have h2 : XofFine L (ops ++ [.set q]) 0 0 := by
    rw [xfine_append] at h1 ⊢
    exact ⟨h1.1, h1.2.2.1, trivial⟩
  refine h.same hf h2 ?_
  rw [xrun_append, xrun_append]
  generalize (g.run ops g.new).2 = o
  obtain ⟨a, ha⟩ := h.set_some hp o.params
  obtain ⟨b, hb⟩ := h.set_some hq o.params
  show (g.step (.set q) (g.step (.set p) o).2).2 = (g.step (.set q) o).2
  rw [XofLaws.step_set_some ha, XofLaws.step_set_some hb]
  have hx : g.set q a = some b := by rw [h.over p q o.params a hk hv ha, hb]
  rw [XofLaws.step_set_some (o := ⟨a, [], 0⟩) hx]

theorem XofLaws.setDone (h : XofLaws c L g cov) {ops : List (XofOp c.P)} {p : c.P} (hp : L.accepts p = true)
    (hf : XofFine L (ops ++ [.set p]) 0 0) {mem : c.S} (hm : c.Mem mem) : c.after mem ops [.set p] = some [.done] := by
  rw [h.after hm hf]
  obtain ⟨a, ha⟩ := h.set_some hp (g.run ops g.new).2.params
  show some [(g.step (.set p) _).1] = _
  rw [XofLaws.step_set_some ha]

theorem XofLaws.setThrew (h : XofLaws c L g cov) {ops : List (XofOp c.P)} {p : c.P} (hp : L.accepts p = false)
    (hf : XofFine L (ops ++ [.set p]) 0 0) {mem : c.S} (hm : c.Mem mem) : c.after mem ops [.set p] = some [.threw] := by
  rw [h.after hm hf]
  show some [(g.step (.set p) _).1] = _
  rw [h.step_set_none hp]

theorem XofLaws.setRejected (h : XofLaws c L g cov) {ops post : List (XofOp c.P)} {p : c.P} (hp : L.accepts p = false)
    (hf : XofFine L (ops ++ [.set p] ++ post) 0 0) : c.Same (ops ++ [.set p]) ops post := by
  have h1 : XofFine L ops 0 0 := by
    rw [List.append_assoc, xfine_append] at hf; exact hf.1
  refine h.same hf h1 ?_
  rw [xrun_append]
  show (g.step (.set p) _).2 = _
  rw [h.step_set_none hp]


end Xof
end Digestpp.Proofs

namespace Digestpp.Proofs
open Model Spec

theorem slice_split (st : Nat → Byte) (a m n : Nat) : slice st a (m + n) = slice st a m ++ slice st (a + m) n := by
  unfold slice
  rw [List.range_add, List.map_append, List.map_map]
  congr 1
  apply List.map_congr_left
  intro i _
  show st (a + (m + i)) = st (a + m + i)
  rw [Nat.add_assoc]

section Squeeze
variable {P Θ : Type} (f : XofFn P Θ)

theorem squeezes_run (ns : List Nat) : ∀ o : XofObj Θ, ∃ bs : List Bytes, (f.run (ns.map (XofOp.squeeze (P := P))) o).1 = bs.map .bytes ∧
    bs.map List.length = ns ∧ bs.flatten = slice (f.stream o.params o.msg) o.squeezed ns.sum := by
  induction ns with
  | nil => intro o; exact ⟨[], rfl, rfl, rfl⟩
  | cons n ns ih =>
    intro o
    obtain ⟨bs, h1, h2, h3⟩ := ih (f.step (.squeeze n) o).2
    refine ⟨f.next n o :: bs, ?_, ?_, ?_⟩
    · show Obs.bytes _ :: (f.run (ns.map XofOp.squeeze) (f.step (.squeeze n) o).2).1 = _
      rw [h1]; rfl
    · rw [List.map_cons, h2]
      congr 1
      simp [XofFn.next, slice]
    · rw [List.flatten_cons, h3, List.sum_cons, slice_split]
      rfl

variable {c : XofClass} [Param c.P] {L : Limits c.P} {g : XofFn c.P Θ} {cov : Cover c.P Θ}

theorem XofLaws.squeezes (h : XofLaws c L g cov) : ∃ stream : List (XofOp c.P) → Bytes → Nat → Byte,
    ∀ (ops : List (XofOp c.P)) (srcs : List Source) (ns : List Nat) (mem : c.S), c.Mem mem →
      XofFine L (ops ++ [.reset false] ++ srcs.map .absorb ++ ns.map .squeeze) 0 0 →
      ∃ bs : List Bytes, c.after mem (ops ++ [.reset false] ++ srcs.map .absorb) (ns.map .squeeze) = some (bs.map .bytes) ∧
        bs.map List.length = ns ∧
        bs.flatten = slice (stream (XofOp.settings ops) (srcs.map Source.contents).flatten) 0 ns.sum := by
  refine ⟨fun st => g.stream (g.run st g.new).2.params, fun ops srcs ns mem hm hf => ?_⟩
  rw [h.after hm hf]
  obtain ⟨bs, h1, h2, h3⟩ := squeezes_run g ns (g.run (ops ++ [.reset false] ++ srcs.map .absorb) g.new).2
  refine ⟨bs, by rw [h1], h2, ?_⟩
  rw [h3, xrun_append, xrun_append]
  show _ = slice (g.stream (g.run (XofOp.settings ops) g.new).2.params _) 0 _
  rw [xsettings_run]
  show slice (g.stream (XofObj.params (g.run (srcs.map .absorb) _).2) (XofObj.msg (g.run (srcs.map .absorb) _).2))
    (XofObj.squeezed (g.run (srcs.map .absorb) _).2) _ = _
  rw [xabsorbs_run]
  rfl

theorem XofLaws.squeezeForms (h : XofLaws c L g cov) {ops : List (XofOp c.P)} {n : Nat}
    (hf : XofFine L (ops ++ [.squeeze n]) 0 0) : ∃ b : Bytes, b.length = n ∧
      (∀ mem, c.Mem mem → c.after mem ops [.squeeze n] = some [.bytes b]) ∧
      (∀ mem, c.Mem mem → c.after mem ops [.hexsqueeze n] = some [.text (hex b)]) ∧
      ∀ buf : Bytes, buf.length = n → ∀ mem, c.Mem mem → c.after mem ops [.squeezeBuf buf] = some [.buffer b] := by
  have hfd : ∀ d, d.squeezeLen = some n → XofFine L (ops ++ [d]) 0 0 := by
    intro d hd
    rw [xfine_append] at hf ⊢
    cases d with
    | squeezeBuf b => injection hd with hd; subst hd; exact hf
    | squeeze => injection hd with hd; subst hd; exact hf
    | hexsqueeze => injection hd with hd; subst hd; exact hf
    | absorb => cases hd
    | reset => cases hd
    | set => cases hd
  refine ⟨g.next n (g.run ops g.new).2, ?_, fun mem hm => h.after hm hf, fun mem hm => h.after hm (hfd (.hexsqueeze n) rfl),
    fun buf hb mem hm => ?_⟩
  · simp [XofFn.next, slice]
  · rw [h.after hm (hfd (.squeezeBuf buf) (by rw [← hb]; rfl)), ← hb]
    rfl

theorem XofLaws.squeezeSame (h : XofLaws c L g cov) {ops post : List (XofOp c.P)} {a b : XofOp c.P} {n : Nat}
    (ha : a.squeezeLen = some n) (hb : b.squeezeLen = some n) (hf : XofFine L (ops ++ [a] ++ post) 0 0) :
    c.Same (ops ++ [a]) (ops ++ [b]) post := by
  have st : ∀ d : XofOp c.P, d.squeezeLen = some n → ∀ o : XofObj Θ, (g.step d o).2 = { o with squeezed := o.squeezed + n } := by
    intro d hd o
    cases d with
    | squeezeBuf b => injection hd with hd; subst hd; rfl
    | squeeze => injection hd with hd; subst hd; rfl
    | hexsqueeze => injection hd with hd; subst hd; rfl
    | absorb => cases hd
    | reset => cases hd
    | set => cases hd
  have fi : ∀ d : XofOp c.P, d.squeezeLen = some n → ∀ x k, (XofFine L [d] x k ↔ XofFine L [.squeeze n] x k) := by
    intro d hd x k
    cases d with
    | squeezeBuf b => injection hd with hd; subst hd; rfl
    | squeeze => injection hd with hd; subst hd; rfl
    | hexsqueeze => injection hd with hd; subst hd; rfl
    | absorb => cases hd
    | reset => cases hd
    | set => cases hd
  have h1 : XofFine L (ops ++ [b]) 0 0 := by
    rw [xfine_append, xfine_append] at hf
    rw [xfine_append]
    exact ⟨hf.1.1, (fi b hb _ _).mpr ((fi a ha _ _).mp hf.1.2)⟩
  refine h.same hf h1 ?_
  rw [xrun_append, xrun_append]
  show (g.step a _).2 = (g.step b _).2
  rw [st a ha, st b hb]

/-- Squeezing in other portions leaves the same object. -/
theorem XofLaws.squeezeSplit (h : XofLaws c L g cov) {ops post : List (XofOp c.P)} {ns ms : List Nat} (e : ns.sum = ms.sum)
    (hf : XofFine L (ops ++ ns.map .squeeze ++ post) 0 0) (hf' : XofFine L (ops ++ ms.map .squeeze) 0 0) :
    c.Same (ops ++ ns.map .squeeze) (ops ++ ms.map .squeeze) post := by
  have st : ∀ (ns : List Nat) (o : XofObj Θ), (g.run (ns.map .squeeze) o).2 = { o with squeezed := o.squeezed + ns.sum } := by
    intro ns
    induction ns with
    | nil => intro o; rfl
    | cons n ns ih =>
      intro o
      show (g.run (ns.map .squeeze) (g.step (.squeeze n) o).2).2 = _
      rw [ih, List.sum_cons, ← Nat.add_assoc]
      rfl
  refine h.same hf hf' ?_
  rw [xrun_append, xrun_append]
  show (g.run _ _).2 = (g.run _ _).2
  rw [st, st, e]

end Squeeze
end Digestpp.Proofs
