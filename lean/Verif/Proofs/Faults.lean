import Verif.CatalogFaults
import Verif.Proofs.Kmac
import Verif.Proofs.Interface
import Verif.Proofs.GapLaws

/-! Calls that the environment cuts short are calls that are not. -/

namespace Digestpp.Proofs
open Model Spec

section Stream
variable {S : Type} (update : Bytes → S → M S)

theorem absorbStream_nil (s : S) : absorbStream update [] s = pure s := by
  unfold absorbStream; rfl

theorem absorbStream_short (d : Bytes) (s : S) (h : d.length < 65536) (h0 : d.length ≠ 0) : absorbStream update d s = update d s := by
  unfold absorbStream
  rw [if_neg (by omega), if_pos h0]

theorem absorbStream_long (d : Bytes) (s : S) (h : 65536 ≤ d.length) :
    absorbStream update d s = (update (d.take 65536) s >>= absorbStream update (d.drop 65536)) := by
  rw [absorbStream, if_pos h]

/-- What the loop does, with whatever comes after it. -/
def After (fuel : Nat) (st : IStream) (d : Bytes) (t : Bool) : Prop :=
  ∀ s, absorbLoop update fuel st s = (absorbStream update d s >>= fun s => pure (t, s))

theorem after_nil (fuel : Nat) (st : IStream) (t : Bool) (h : ∀ s, absorbLoop update fuel st s = pure (t, s)) : After update fuel st [] t := by
  intro s
  rw [h, absorbStream_nil]
  rfl

theorem after_last (fuel : Nat) (st : IStream) (d : Bytes) (hd : d.length < 65536)
    (h : ∀ s, absorbLoop update fuel st s = if d.length ≠ 0 then (update d s >>= fun s => pure (false, s)) else pure (false, s)) :
    After update fuel st d false := by
  intro s
  rw [h]
  by_cases h0 : d.length = 0
  · rw [if_neg (not_not_intro h0), List.eq_nil_of_length_eq_zero h0, absorbStream_nil]; rfl
  · rw [if_pos h0, absorbStream_short update d s hd h0]

theorem after_block (fuel : Nat) (st : IStream) (d : Bytes) (t : Bool) (hd : 65536 ≤ d.length) (st' : IStream)
    (h : ∀ s, absorbLoop update (fuel + 1) st s = (update (d.take 65536) s >>= absorbLoop update fuel st'))
    (ih : After update fuel st' (d.drop 65536) t) : After update (fuel + 1) st d t := by
  intro s
  rw [h, absorbStream_long update d s hd]
  cases e : update (d.take 65536) s with
  | error e => rfl
  | ok s1 => exact ih s1

theorem loop_succ (fuel : Nat) (st : IStream) (s : S) : absorbLoop update (fuel + 1) st s =
    if (readStream 65536 st).2.1 then pure (true, s)
    else if !((readStream 65536 st).2.2.fail || (readStream 65536 st).2.2.bad) then
      (update (readStream 65536 st).1 s >>= absorbLoop update fuel (readStream 65536 st).2.2)
    else if (readStream 65536 st).1.length ≠ 0 then (update (readStream 65536 st).1 s >>= fun s => pure (false, s))
    else pure (false, s) := rfl

theorem wholeBuffers_long {n : Nat} (h : 65536 ≤ n) : wholeBuffers n = wholeBuffers (n - 65536) + 65536 := by
  unfold wholeBuffers; omega

theorem wholeBuffers_short {n : Nat} (h : n < 65536) : wholeBuffers n = 0 := by
  unfold wholeBuffers; omega

theorem wholeBuffers_le (n : Nat) : wholeBuffers n ≤ n := by unfold wholeBuffers; omega

theorem take_drop_long (d : Bytes) (a b : Nat) (h : b = a + 65536) : (d.take b).drop 65536 = (d.drop 65536).take a := by
  rw [List.drop_take, h, Nat.add_sub_cancel]

theorem take_take_long (d : Bytes) (b : Nat) (h : 65536 ≤ b) : (d.take b).take 65536 = d.take 65536 := by
  rw [List.take_take, Nat.min_eq_left h]

/-- One read from a good stream with 65536 characters before the end and before a fault. -/
theorem read_block (st : IStream) (he : st.eof = false) (hf : st.fail = false) (hb : st.bad = false) (hl : 65536 ≤ st.left.length)
    (hk : ∀ k, st.fault = some k → 65536 ≤ k) :
    readStream 65536 st = (st.left.take 65536, false, { st with left := st.left.drop 65536, fault := st.fault.map (· - 65536) }) := by
  obtain ⟨left, eof, fail, bad, xeof, xfail, xbad, fault, counted⟩ := st
  dsimp only at he hf hb hl hk
  subst he hf hb
  unfold readStream
  cases fault with
  | none => simp [hl]
  | some k =>
    have := hk k rfl
    simp [hl, show ¬(k < 65536) by omega]

/-- The read that meets the fault. -/
theorem read_fault (st : IStream) (he : st.eof = false) (hf : st.fail = false) (hb : st.bad = false) (k : Nat) (hk : st.fault = some k)
    (hk1 : k < 65536) (hk2 : k ≤ st.left.length) : readStream 65536 st =
      (if st.counted then st.left.take k else [], st.xbad, { st with left := st.left.drop k, bad := true, fault := none }) := by
  obtain ⟨left, eof, fail, bad, xeof, xfail, xbad, fault, counted⟩ := st
  dsimp only at he hf hb hk hk2
  subst he hf hb hk
  unfold readStream
  simp [hk1, hk2]

/-- The read that meets the end. -/
theorem read_end (st : IStream) (he : st.eof = false) (hf : st.fail = false) (hb : st.bad = false) (hl : st.left.length < 65536)
    (hk : ∀ k, st.fault = some k → st.left.length < k) : readStream 65536 st =
      (st.left, (st.xeof || st.xfail), { st with left := [], eof := true, fail := true }) := by
  obtain ⟨left, eof, fail, bad, xeof, xfail, xbad, fault, counted⟩ := st
  dsimp only at he hf hb hl hk
  subst he hf hb
  unfold readStream
  cases fault with
  | none => simp [show ¬(65536 ≤ left.length) by omega, setState]
  | some k =>
    have := hk k rfl
    simp [show ¬(65536 ≤ left.length) by omega, show ¬(k ≤ left.length) by omega, setState]

theorem after_fault (fuel : Nat) : ∀ (st : IStream) (k : Nat), st.eof = false → st.fail = false → st.bad = false → st.fault = some k →
    k ≤ st.left.length → k < fuel * 65536 →
    After update fuel st (if st.xbad || !st.counted then st.left.take (wholeBuffers k) else st.left.take k) st.xbad := by
  induction fuel with
  | zero => intro st k _ _ _ _ _ h; omega
  | succ fuel ih =>
    intro st k he hf hb hk hl hfuel
    by_cases h : 65536 ≤ k
    · have hr := read_block st he hf hb (by omega) (fun k' h' => by rw [hk] at h'; cases h'; exact h)
      have := ih { st with left := st.left.drop 65536, fault := st.fault.map (· - 65536) } (k - 65536) he hf hb
        (by show st.fault.map (· - 65536) = _; rw [hk]; rfl) (by show k - 65536 ≤ (st.left.drop 65536).length; rw [List.length_drop]; omega) (by omega)
      have hlen : 65536 ≤ (if st.xbad || !st.counted then st.left.take (wholeBuffers k) else st.left.take k).length := by
        have := wholeBuffers_long h
        have := wholeBuffers_le k
        split <;> rw [List.length_take] <;> omega
      refine after_block update fuel st _ _ hlen { st with left := st.left.drop 65536, fault := st.fault.map (· - 65536) } ?_ ?_
      · intro s
        rw [loop_succ, hr]
        dsimp only
        rw [if_neg (by simp), hf, hb, if_pos (show (!(false || false)) = true from rfl)]
        congr 2
        split
        · rw [take_take_long _ _ (by have := wholeBuffers_long h; omega)]
        · rw [take_take_long _ _ h]
      · dsimp only at this
        split
        · next hx =>
          rw [if_pos hx] at this
          rw [take_drop_long _ _ _ (wholeBuffers_long h)]
          exact this
        · next hx =>
          rw [if_neg hx] at this
          rw [take_drop_long _ (k - 65536) _ (by omega)]
          exact this
    · have hr := read_fault st he hf hb k hk (by omega) hl
      have hw := wholeBuffers_short (show k < 65536 by omega)
      rw [hw, List.take_zero]
      cases hx : st.xbad with
      | true =>
        exact after_nil update _ _ _ fun s => by rw [loop_succ, hr]; dsimp only; rw [if_pos hx]
      | false =>
        cases hc : st.counted with
        | false =>
          refine after_nil update _ _ _ fun s => ?_
          rw [loop_succ, hr]; dsimp only
          rw [hx, hc, hf]; rfl
        | true =>
          refine after_last update _ _ _ (by simp; omega) fun s => ?_
          rw [loop_succ, hr]; dsimp only
          rw [hx, hc, hf]; rfl

theorem after_end (fuel : Nat) : ∀ (st : IStream), st.eof = false → st.fail = false → st.bad = false →
    (∀ k, st.fault = some k → st.left.length < k) → st.left.length < fuel * 65536 →
    After update fuel st (if st.xeof || st.xfail then st.left.take (wholeBuffers st.left.length) else st.left) (st.xeof || st.xfail) := by
  induction fuel with
  | zero => intro st _ _ _ _ h; omega
  | succ fuel ih =>
    intro st he hf hb hk hfuel
    by_cases h : 65536 ≤ st.left.length
    · have hr := read_block st he hf hb h (fun k h' => by have := hk k h'; omega)
      have := ih { st with left := st.left.drop 65536, fault := st.fault.map (· - 65536) } he hf hb
        (by
          intro k hk'
          cases hfa : st.fault with
          | none => rw [show (st.fault.map (· - 65536)) = none by rw [hfa]; rfl] at hk'; cases hk'
          | some k' =>
            have := hk k' hfa
            rw [show (st.fault.map (· - 65536)) = some (k' - 65536) by rw [hfa]; rfl] at hk'
            rw [← Option.some.inj hk']
            dsimp only
            rw [List.length_drop]; omega)
        (by show (st.left.drop 65536).length < _; rw [List.length_drop]; omega)
      have hlen : 65536 ≤ (if st.xeof || st.xfail then st.left.take (wholeBuffers st.left.length) else st.left).length := by
        have := wholeBuffers_long h
        have := wholeBuffers_le st.left.length
        split
        · rw [List.length_take]; omega
        · exact h
      refine after_block update fuel st _ _ hlen { st with left := st.left.drop 65536, fault := st.fault.map (· - 65536) } ?_ ?_
      · intro s
        rw [loop_succ, hr]
        dsimp only
        rw [if_neg (by simp), hf, hb, if_pos (show (!(false || false)) = true from rfl)]
        congr 2
        split
        · rw [take_take_long _ _ (by have := wholeBuffers_long h; omega)]
        · rfl
      · dsimp only at this
        rw [List.length_drop] at this
        split
        · next hx =>
          rw [if_pos hx] at this
          rw [take_drop_long _ _ _ (wholeBuffers_long h)]
          exact this
        · next hx =>
          rw [if_neg hx] at this
          exact this
    · have hr := read_end st he hf hb (by omega) hk
      have hw := wholeBuffers_short (show st.left.length < 65536 by omega)
      rw [hw, List.take_zero]
      cases hx : (st.xeof || st.xfail) with
      | true =>
        exact after_nil update _ _ _ fun s => by rw [loop_succ, hr]; dsimp only; rw [if_pos hx]
      | false =>
        refine after_last update _ _ _ (by rw [if_neg (by decide)]; omega) fun s => ?_
        rw [loop_succ, hr]; dsimp only
        rw [hx]; rfl

/-- **Absorbing a stream** in any state takes `streamTakes` of it. -/
theorem absorbIStream_eq (st : IStream) (s : S) :
    absorbIStream update st s = (absorbStream update (streamTakes st).1 s >>= fun s => pure ((streamTakes st).2, s)) := by
  unfold absorbIStream streamTakes
  by_cases h : (st.eof || st.fail || st.bad) = true
  · rw [if_pos h]
    refine after_nil update _ _ _ (fun s => ?_) s
    have hr : readStream 65536 st = ([], setState false true false st) := by unfold readStream; rw [if_pos h]
    rw [loop_succ, hr]
    unfold setState
    dsimp only
    cases hx : st.xfail <;> cases hy : (st.xeof && st.eof) <;> cases hz : (st.xbad && st.bad) <;>
      simp_all [Bool.and_comm]
    intro h'
    rcases h' with ⟨a, b⟩ | ⟨a, b⟩
    · rw [hy a] at b; cases b
    · rw [hz a] at b; cases b
  · rw [if_neg h]
    have hg : st.eof = false ∧ st.fail = false ∧ st.bad = false := by
      cases he : st.eof <;> cases hf : st.fail <;> cases hb : st.bad <;> simp_all
    dsimp only
    cases hk : st.fault with
    | none =>
      have := after_end update (st.left.length + 1) st hg.1 hg.2.1 hg.2.2 (fun k h' => by rw [hk] at h'; cases h') (by omega) s
      rw [this]
      dsimp only
      split
      · next hx => rw [hx]
      · next hx => rw [Bool.eq_false_iff.mpr hx]
    | some k =>
      dsimp only
      by_cases hl : k ≤ st.left.length
      · rw [if_pos hl, after_fault update (st.left.length + 1) st k hg.1 hg.2.1 hg.2.2 hk hl (by omega) s]
        split
        · rfl
        · next hx => simp only [Bool.or_eq_true, not_or] at hx; rw [Bool.eq_false_iff.mpr hx.1]
      · rw [if_neg hl]
        have := after_end update (st.left.length + 1) st hg.1 hg.2.1 hg.2.2 (fun k' h' => by rw [hk] at h'; cases h'; omega) (by omega) s
        rw [this]
        split
        · next hx => rw [hx]
        · next hx => rw [Bool.eq_false_iff.mpr hx]

theorem absorbItems_eq (d : Bytes) : ∀ s, absorbItems update (d.map some ++ [none]) s
    = (absorb update (.iter d) s >>= fun s => pure (true, s)) := by
  induction d with
  | nil => intro s; rfl
  | cons b d ih =>
    intro s
    show (update [b] s >>= fun s => absorbItems update (d.map some ++ [none]) s) = ((update [b] s >>= fun s => absorb update (.iter d) s) >>= _)
    cases update [b] s with
    | error e => rfl
    | ok s1 => exact ih s1

end Stream

theorem copyOut_eq (n : Nat) (b : Bytes) : copyOut n b = (b.take n, decide (n < b.length)) := by
  induction b generalizing n with
  | nil => cases n <;> rfl
  | cons x b ih =>
    cases n with
    | zero => simp [copyOut]
    | succ n => simp [copyOut, ih]

theorem copyObs_eq (n : Nat) (b : Bytes) : copyObs n b = copied n b := by
  unfold copyObs copied
  rw [copyOut_eq]
  by_cases h : n < b.length
  · simp [h]
  · simp [h, List.take_of_length_le (by omega : b.length ≤ n)]

theorem put_bad (l : List Char) (s : OStr) (h : s.bad = true) : l.foldl OStr.put s = s := by
  induction l with
  | nil => rfl
  | cons c l ih => rw [List.foldl_cons, show s.put c = s by unfold OStr.put; rw [if_pos h], ih]

theorem put_text (l : List Char) : ∀ (t : List Char) (n : Nat), (l.foldl OStr.put ⟨t, n, false⟩).text = t ++ l.take n := by
  induction l with
  | nil => intro t n; simp
  | cons c l ih =>
    intro t n
    cases n with
    | zero =>
      rw [List.foldl_cons]
      show (l.foldl OStr.put ⟨t, 0, true⟩).text = _
      rw [put_bad _ _ rfl]; simp
    | succ n =>
      rw [List.foldl_cons]
      show (l.foldl OStr.put ⟨t ++ [c], n, false⟩).text = _
      rw [ih]; simp

theorem hexRoom_eq (n : Nat) (b : Bytes) : hexRoom n b = (hex b).take n := by
  unfold hexRoom
  rw [put_text, hexString_eq]; rfl

/-- The setter does everything or nothing. -/
def StrongAt {S P : Type} (set : P → S → M (Bool × S)) (setMem : SetMem S P) (need : P → Nat) (mem : Memory) (p : P) : Prop :=
  ∀ s, setMem mem p s = if enough (need p) mem then (set p s >>= fun r => pure (Ended.of r.1, r.2)) else pure (.noMemory, s)

/-- Every setter does. -/
def Strong {S P : Type} (set : P → S → M (Bool × S)) (setMem : SetMem S P) (need : P → Nat) : Prop :=
  ∀ mem p, StrongAt set setMem need mem p

section Hash
variable {S P Θ : Type} (pr : HashProvider S P) (f : HashFn P Θ) (setMem : SetMem S P) (need : P → Nat)

/-- The calls that are not cut short. -/
def plain : HashCall P → List (HashOp P)
  | .call op => [op]
  | .stream st => [.absorb (.stream (streamTakes st).1)]
  | .iterThrows d => [.absorb (.iter d)]
  | .digestStops _ | .hexdigestRoom _ => [.digest]
  | .digestNoMemory => []
  | .set mem p => if enough (need p) mem then [.set p] else []

theorem calls_prun_length (a : List (HashOp P)) : ∀ s r, pr.run a s = .ok r → r.1.length = a.length := by
  induction a with
  | nil => intro s r h; cases h; rfl
  | cons x a ih =>
    intro s r h
    unfold HashProvider.run at h
    obtain ⟨⟨o, s1⟩, _, h⟩ := bind_ok h
    obtain ⟨⟨os, s2⟩, e, h⟩ := bind_ok h
    have h := Except.ok.inj h
    rw [← h]
    show os.length + 1 = _
    rw [ih _ _ e]; rfl

theorem calls_run_length (a : List (HashOp P)) : ∀ o, (f.run a o).1.length = a.length := by
  induction a with
  | nil => intro o; rfl
  | cons x a ih => intro o; show (f.run a (f.step x o).2).1.length + 1 = _; rw [ih]; rfl

theorem run_one {op : HashOp P} {s s' : S} {os : List Obs} (h : pr.run [op] s = .ok (os, s')) :
    ∃ o, os = [o] ∧ pr.step op s = .ok (o, s') := by
  unfold HashProvider.run at h
  cases e : pr.step op s with
  | error e' => rw [e] at h; cases h
  | ok r =>
    rw [e] at h
    cases h
    exact ⟨r.1, rfl, rfl⟩

theorem setParamMem_strong (mem : Memory) (p : P) (hs : StrongAt pr.set setMem need mem p) (s : S) (h : enough (need p) mem = true) :
    pr.setParamMem setMem mem p s = (pr.step (.set p) s >>= fun r => pure (.seen r.1, r.2)) := by
  show pr.setParamMem setMem mem p s = (pr.setParam p s >>= fun r => pure (.seen r.1, r.2))
  unfold HashProvider.setParamMem HashProvider.setParam
  rw [hs s, if_pos h]
  cases e : pr.set p s with
  | error e => rfl
  | ok r =>
    obtain ⟨t, s1⟩ := r
    cases t with
    | true => rfl
    | false =>
      show (pr.init s1 >>= _) = ((pr.init s1 >>= _) >>= _)
      cases pr.init s1 <;> rfl

theorem plain_step (c : HashCall P) (hs : ∀ mem p, c = .set mem p → StrongAt pr.set setMem need mem p) (o : HashObj Θ) (s s' : S)
    (h : pr.run (plain need c) s = .ok ((f.run (plain need c) o).1, s')) :
    pr.stepCall setMem c s = .ok ((f.stepCall need c o).1, s') ∧ (f.run (plain need c) o).2 = (f.stepCall need c o).2 := by
  cases c with
  | call op =>
    obtain ⟨o1, e1, e2⟩ := run_one pr h
    cases e1
    refine ⟨?_, rfl⟩
    simp only [HashProvider.stepCall]
    rw [e2]; rfl
  | stream st =>
    obtain ⟨o1, e1, e2⟩ := run_one pr h
    refine ⟨?_, rfl⟩
    simp only [HashProvider.stepCall]
    simp only [HashProvider.step, absorb] at e2
    cases e : absorbStream pr.update (streamTakes st).1 s with
    | error e' => simp only [e] at e2; cases e2
    | ok s1 =>
      simp only [e] at e2; cases e2
      rw [absorbIStream_eq, e]; rfl
  | iterThrows d =>
    obtain ⟨o1, e1, e2⟩ := run_one pr h
    refine ⟨?_, rfl⟩
    simp only [HashProvider.stepCall]
    simp only [HashProvider.step] at e2
    cases e : absorb pr.update (.iter d) s with
    | error e' => simp only [e] at e2; cases e2
    | ok s1 =>
      simp only [e] at e2; cases e2
      rw [absorbItems_eq, e]; rfl
  | digestStops n =>
    obtain ⟨o1, e1, e2⟩ := run_one pr h
    refine ⟨?_, rfl⟩
    simp only [HashProvider.stepCall]
    simp only [HashProvider.step] at e2
    cases e : pr.digestIt s with
    | error e' => rw [e] at e2; cases e2
    | ok b =>
      rw [e] at e2; cases e2; cases e1
      show Except.ok (copyObs n _, s) = _
      rw [copyObs_eq]; rfl
  | digestNoMemory => cases h; exact ⟨rfl, rfl⟩
  | hexdigestRoom n =>
    obtain ⟨o1, e1, e2⟩ := run_one pr h
    refine ⟨?_, rfl⟩
    simp only [HashProvider.stepCall]
    simp only [HashProvider.step] at e2
    cases e : pr.digestIt s with
    | error e' => rw [e] at e2; cases e2
    | ok b =>
      rw [e] at e2; cases e2; cases e1
      show Except.ok (CallObs.seen (.text (hexRoom n _)), s) = _
      rw [hexRoom_eq]; rfl
  | set mem p =>
    unfold plain at h ⊢
    simp only [HashProvider.stepCall, HashFn.stepCall]
    by_cases hm : enough (need p) mem = true
    · simp only [if_pos hm] at h ⊢
      obtain ⟨o1, e1, e2⟩ := run_one pr h
      rw [setParamMem_strong pr setMem need mem p (hs mem p rfl) s hm, e2]
      cases e1
      exact ⟨rfl, rfl⟩
    · simp only [if_neg hm] at h ⊢
      cases h
      refine ⟨?_, rfl⟩
      unfold HashProvider.setParamMem
      rw [hs mem p rfl s, if_neg hm]; rfl

theorem plain_runs (cs : List (HashCall P)) (hs : ∀ mem p, .set mem p ∈ cs → StrongAt pr.set setMem need mem p) : ∀ (o : HashObj Θ) (s s' : S),
    pr.run (cs.flatMap (plain need)) s = .ok ((f.run (cs.flatMap (plain need)) o).1, s') →
    pr.runCalls setMem cs s = .ok ((f.runCalls need cs o).1, s') := by
  induction cs with
  | nil => intro o s s' h; cases h; rfl
  | cons c cs ih =>
    intro o s s' h
    rw [List.flatMap_cons, prun_append pr, run_append f] at h
    obtain ⟨⟨oa, s1⟩, ea, h⟩ := bind_ok h
    obtain ⟨⟨ob, s2⟩, eb, h⟩ := bind_ok h
    have h := Prod.mk.inj (Except.ok.inj h)
    dsimp only at ea eb h
    have hlen : oa.length = (f.run (plain need c) o).1.length := by
      rw [calls_prun_length pr _ _ _ ea, calls_run_length f]
    obtain ⟨h1, h2⟩ := List.append_inj h.1 hlen
    obtain ⟨c1, c2⟩ := plain_step pr f setMem need c (fun mem p e => hs mem p (e ▸ List.mem_cons_self)) o s s1 (by rw [ea, h1])
    rw [c2] at h2
    have c3 := ih (fun mem p e => hs mem p (List.mem_cons_of_mem _ e)) (f.stepCall need c o).2 s1 s' (by rw [eb, h2, h.2])
    show (pr.stepCall setMem c s >>= _) = _
    rw [c1]
    show (pr.runCalls setMem cs s1 >>= _) = _
    rw [c3]
    rfl

theorem plain_covered {c : Cover P Θ} (cs : List (HashCall P)) : ∀ o, f.CallsCovered need c cs o → f.Covered c (cs.flatMap (plain need)) o := by
  induction cs with
  | nil => intro o _; trivial
  | cons x cs ih =>
    intro o h
    obtain ⟨h1, h2⟩ := h
    have h2 := ih _ h2
    rw [List.flatMap_cons]
    cases x with
    | call op => exact ⟨h1, h2⟩
    | stream st => exact ⟨trivial, h2⟩
    | iterThrows d => exact ⟨trivial, h2⟩
    | digestStops n => exact ⟨h1, h2⟩
    | digestNoMemory => exact h2
    | hexdigestRoom n => exact ⟨h1, h2⟩
    | set mem p =>
      unfold plain
      unfold HashFn.stepCall at h2
      by_cases hm : enough (need p) mem = true
      · simp only [if_pos hm] at h2 ⊢
        exact ⟨h1, h2⟩
      · simp only [if_neg hm] at h2 ⊢
        exact h2

end Hash

section Xof
variable {S P Θ : Type} (pr : XofProvider S P) (f : XofFn P Θ) (setMem : SetMem S P) (need : P → Nat)

/-- The calls that are not cut short. -/
def xplain : XofCall P → List (XofOp P)
  | .call op => [op]
  | .stream st => [.absorb (.stream (streamTakes st).1)]
  | .iterThrows d => [.absorb (.iter d)]
  | .squeezeStops len _ | .hexsqueezeRoom len _ => [.squeeze len]
  | .squeezeNoMemory _ => []
  | .set mem p => if enough (need p) mem then [.set p] else []

theorem xcalls_prun_length (a : List (XofOp P)) : ∀ s r, pr.run a s = .ok r → r.1.length = a.length := by
  induction a with
  | nil => intro s r h; cases h; rfl
  | cons x a ih =>
    intro s r h
    unfold XofProvider.run at h
    obtain ⟨⟨o, s1⟩, _, h⟩ := bind_ok h
    obtain ⟨⟨os, s2⟩, e, h⟩ := bind_ok h
    have h := Except.ok.inj h
    rw [← h]
    show os.length + 1 = _
    rw [ih _ _ e]; rfl

theorem xcalls_run_length (a : List (XofOp P)) : ∀ o, (f.run a o).1.length = a.length := by
  induction a with
  | nil => intro o; rfl
  | cons x a ih => intro o; show (f.run a (f.step x o).2).1.length + 1 = _; rw [ih]; rfl

theorem xrun_one {op : XofOp P} {s s' : S} {os : List Obs} (h : pr.run [op] s = .ok (os, s')) :
    ∃ o, os = [o] ∧ pr.step op s = .ok (o, s') := by
  unfold XofProvider.run at h
  cases e : pr.step op s with
  | error e' => rw [e] at h; cases h
  | ok r =>
    rw [e] at h
    cases h
    exact ⟨r.1, rfl, rfl⟩

theorem xsetParamMem_strong (mem : Memory) (p : P) (hs : StrongAt pr.set setMem need mem p) (s : S) (h : enough (need p) mem = true) :
    pr.setParamMem setMem mem p s = (pr.step (.set p) s >>= fun r => pure (.seen r.1, r.2)) := by
  show pr.setParamMem setMem mem p s = (pr.setParam p s >>= fun r => pure (.seen r.1, r.2))
  unfold XofProvider.setParamMem XofProvider.setParam
  rw [hs s, if_pos h]
  cases e : pr.set p s with
  | error e => rfl
  | ok r =>
    obtain ⟨t, s1⟩ := r
    cases t with
    | true => rfl
    | false =>
      show (pr.init s1 >>= _) = ((pr.init s1 >>= _) >>= _)
      cases pr.init s1 <;> rfl

theorem xplain_step (c : XofCall P) (hs : ∀ mem p, c = .set mem p → StrongAt pr.set setMem need mem p) (o : XofObj Θ) (s s' : S)
    (h : pr.run (xplain need c) s = .ok ((f.run (xplain need c) o).1, s')) :
    pr.stepCall setMem c s = .ok ((f.stepCall need c o).1, s') ∧ (f.run (xplain need c) o).2 = (f.stepCall need c o).2 := by
  cases c with
  | call op =>
    obtain ⟨o1, e1, e2⟩ := xrun_one pr h
    cases e1
    refine ⟨?_, rfl⟩
    simp only [XofProvider.stepCall]
    rw [e2]; rfl
  | stream st =>
    obtain ⟨o1, e1, e2⟩ := xrun_one pr h
    refine ⟨?_, rfl⟩
    simp only [XofProvider.stepCall]
    simp only [XofProvider.step, absorb] at e2
    cases e : absorbStream pr.update (streamTakes st).1 s with
    | error e' => simp only [e] at e2; cases e2
    | ok s1 =>
      simp only [e] at e2; cases e2
      rw [absorbIStream_eq, e]; rfl
  | iterThrows d =>
    obtain ⟨o1, e1, e2⟩ := xrun_one pr h
    refine ⟨?_, rfl⟩
    simp only [XofProvider.stepCall]
    simp only [XofProvider.step] at e2
    cases e : absorb pr.update (.iter d) s with
    | error e' => simp only [e] at e2; cases e2
    | ok s1 =>
      simp only [e] at e2; cases e2
      rw [absorbItems_eq, e]; rfl
  | squeezeStops len n =>
    obtain ⟨o1, e1, e2⟩ := xrun_one pr h
    refine ⟨?_, rfl⟩
    simp only [XofProvider.stepCall]
    simp only [XofProvider.step] at e2
    cases e : pr.squeezeIt len s with
    | error e' => rw [e] at e2; cases e2
    | ok r =>
      obtain ⟨b, s1⟩ := r
      rw [e] at e2; cases e2; cases e1
      show Except.ok (copyObs n _, _) = _
      rw [copyObs_eq]; rfl
  | squeezeNoMemory len => cases h; exact ⟨rfl, rfl⟩
  | hexsqueezeRoom len n =>
    obtain ⟨o1, e1, e2⟩ := xrun_one pr h
    refine ⟨?_, rfl⟩
    simp only [XofProvider.stepCall]
    simp only [XofProvider.step] at e2
    cases e : pr.squeezeIt len s with
    | error e' => rw [e] at e2; cases e2
    | ok r =>
      obtain ⟨b, s1⟩ := r
      rw [e] at e2; cases e2; cases e1
      show Except.ok (CallObs.seen (.text (hexRoom n _)), _) = _
      rw [hexRoom_eq]; rfl
  | set mem p =>
    unfold xplain at h ⊢
    simp only [XofProvider.stepCall, XofFn.stepCall]
    by_cases hm : enough (need p) mem = true
    · simp only [if_pos hm] at h ⊢
      obtain ⟨o1, e1, e2⟩ := xrun_one pr h
      rw [xsetParamMem_strong pr setMem need mem p (hs mem p rfl) s hm, e2]
      cases e1
      exact ⟨rfl, rfl⟩
    · simp only [if_neg hm] at h ⊢
      cases h
      refine ⟨?_, rfl⟩
      unfold XofProvider.setParamMem
      rw [hs mem p rfl s, if_neg hm]; rfl

theorem xplain_runs (cs : List (XofCall P)) (hs : ∀ mem p, .set mem p ∈ cs → StrongAt pr.set setMem need mem p) : ∀ (o : XofObj Θ) (s s' : S),
    pr.run (cs.flatMap (xplain need)) s = .ok ((f.run (cs.flatMap (xplain need)) o).1, s') →
    pr.runCalls setMem cs s = .ok ((f.runCalls need cs o).1, s') := by
  induction cs with
  | nil => intro o s s' h; cases h; rfl
  | cons c cs ih =>
    intro o s s' h
    rw [List.flatMap_cons, xprun_append pr, xrun_append f] at h
    obtain ⟨⟨oa, s1⟩, ea, h⟩ := bind_ok h
    obtain ⟨⟨ob, s2⟩, eb, h⟩ := bind_ok h
    have h := Prod.mk.inj (Except.ok.inj h)
    dsimp only at ea eb h
    have hlen : oa.length = (f.run (xplain need c) o).1.length := by
      rw [xcalls_prun_length pr _ _ _ ea, xcalls_run_length f]
    obtain ⟨h1, h2⟩ := List.append_inj h.1 hlen
    obtain ⟨c1, c2⟩ := xplain_step pr f setMem need c (fun mem p e => hs mem p (e ▸ List.mem_cons_self)) o s s1 (by rw [ea, h1])
    rw [c2] at h2
    have c3 := ih (fun mem p e => hs mem p (List.mem_cons_of_mem _ e)) (f.stepCall need c o).2 s1 s' (by rw [eb, h2, h.2])
    show (pr.stepCall setMem c s >>= _) = _
    rw [c1]
    show (pr.runCalls setMem cs s1 >>= _) = _
    rw [c3]
    rfl

theorem xplain_covered {c : Cover P Θ} (cs : List (XofCall P)) : ∀ o, f.CallsCovered need c cs o → f.Covered c (cs.flatMap (xplain need)) o := by
  induction cs with
  | nil => intro o _; trivial
  | cons x cs ih =>
    intro o h
    obtain ⟨h1, h2⟩ := h
    have h2 := ih _ h2
    rw [List.flatMap_cons]
    cases x with
    | call op => exact ⟨h1, h2⟩
    | stream st => exact ⟨⟨trivial, h1⟩, h2⟩
    | iterThrows d => exact ⟨⟨trivial, h1⟩, h2⟩
    | squeezeStops len n => exact ⟨h1, h2⟩
    | squeezeNoMemory len => exact h2
    | hexsqueezeRoom len n => exact ⟨h1, h2⟩
    | set mem p =>
      unfold xplain
      unfold XofFn.stepCall at h2
      by_cases hm : enough (need p) mem = true
      · simp only [if_pos hm] at h2 ⊢
        exact ⟨h1, h2⟩
      · simp only [if_neg hm] at h2 ⊢
        exact h2

end Xof

/-! The setters. -/

theorem enough_zero (mem : Memory) : enough 0 mem = true := rfl

theorem enough_one (mem : Memory) : enough 1 mem = mem 0 := by simp [enough, List.range_succ]

theorem strong_noString {S P : Type} (set : P → S → M (Bool × S)) : Strong set (setNoString set) noString := fun _ _ _ => rfl

theorem strong_assign {S P : Type} (set : P → S → M (Bool × S)) (setMem : SetMem S P)
    (h : ∀ mem p s, setMem mem p s = if mem 0 then (set p s >>= fun r => pure (Ended.of r.1, r.2)) else pure (.noMemory, s)) :
    Strong set setMem oneString := by
  intro mem p s
  rw [h, show enough (oneString p) mem = mem 0 from enough_one mem]

theorem strong_shake : Strong Model.Shake.set Model.Shake.setMem oneString := by
  refine strong_assign _ _ fun mem p s => ?_
  cases p <;> simp only [Model.Shake.setMem, assign] <;> cases mem 0 <;> rfl

theorem strong_k12 (B R : Nat) : Strong (Model.K12.provider B R).set Model.K12.setMem oneString := by
  refine strong_assign _ _ fun mem p s => ?_
  cases p <;> simp only [Model.K12.setMem, assign] <;> cases mem 0 <;> rfl

theorem strong_ascon : Strong Model.Ascon.asconCxof.pr.set Model.Ascon.setMem oneString := by
  refine strong_assign _ _ fun mem p s => ?_
  cases p
  unfold Model.Ascon.setMem assign
  cases mem 0 <;> rfl

theorem strong_skein : Strong Model.Skein.set Model.Skein.setMem oneString := by
  refine strong_assign _ _ fun mem p s => ?_
  cases p <;> simp only [Model.Skein.setMem, assign] <;> cases mem 0 <;> rfl

theorem strong_blake2 {w : Nat} (T : Model.Blake2.Word w) : Strong (Model.Blake2.set T) (Model.Blake2.setMem T) (blake2Strings w) := by
  intro mem p s
  cases p with
  | salt v => rfl
  | personalization v => rfl
  | key v =>
    unfold Model.Blake2.setMem blake2Strings Model.Blake2.set Model.Blake2.setKey assign
    dsimp only
    by_cases h : v.length ≤ w
    · simp only [if_pos h, if_neg (show ¬v.length > w by omega), enough_one]
      cases mem 0 <;> rfl
    · simp only [if_neg h, if_pos (show v.length > w by omega), enough_zero]
      rfl

theorem enough_three (mem : Memory) : enough 3 mem = (mem 0 && (mem 1 && mem 2)) := by
  simp [enough, List.range_succ, Bool.and_assoc]

theorem enough_four (mem : Memory) : enough 4 mem = (mem 0 && (mem 1 && (mem 2 && mem 3))) := by
  simp [enough, List.range_succ, Bool.and_assoc]

theorem bytepadMem_eq (b r : Nat) (hb : b = 128 ∨ b = 256) (hr : r = 200 - 2 * b / 8) (mem : Memory) (v : Bytes) :
    Model.Kmac.bytepadMem mem b v = if enough (kmacStrings r (.key v)) mem then some (Model.Kmac.bytepad b v) else none := by
  have hpad : (if b = 128 then 168 else 136) = r := by obtain rfl | rfl := hb <;> rw [hr] <;> rfl
  have hr2 : r = 168 ∨ r = 136 := by omega
  unfold Model.Kmac.bytepadMem Model.Kmac.bytepad kmacStrings assign
  dsimp only
  rw [hpad, Encode.leftEncode_eq r (by omega), Encode.leftEncode_eq _ (Nat.mod_lt _ (by decide) : v.length * 8 % szMod < 2 ^ 64)]
  show _ = if enough (if (Spec.Keccak.leftEncode r ++ Spec.Keccak.leftEncode (v.length * 8 % szMod) ++ v).length % r = 0 then 3 else 4) mem then _ else _
  generalize Spec.Keccak.leftEncode r = x
  generalize Spec.Keccak.leftEncode (v.length * 8 % szMod) = y
  have hlt := Nat.mod_lt (x ++ y ++ v).length (show 0 < r by omega)
  by_cases h0 : (x ++ y ++ v).length % r = 0
  · rw [if_pos h0, enough_three]
    have hd : ¬(r - (x ++ y ++ v).length % r ≠ 0 ∧ r - (x ++ y ++ v).length % r ≠ r) := by omega
    rw [if_neg hd]
    cases mem 0
    · rfl
    cases mem 1
    · rfl
    cases mem 2
    · rfl
    exact if_neg hd
  · rw [if_neg h0, enough_four]
    have hd : r - (x ++ y ++ v).length % r ≠ 0 ∧ r - (x ++ y ++ v).length % r ≠ r := by omega
    rw [if_pos hd]
    cases mem 0
    · rfl
    cases mem 1
    · rfl
    cases mem 2
    · rfl
    exact if_pos hd

theorem strong_kmac (b r : Nat) (hb : b = 128 ∨ b = 256) (hr : r = 200 - 2 * b / 8) :
    Strong (Model.Kmac.set b) (Model.Kmac.setMem b) (kmacStrings r) := by
  intro mem p s
  cases p with
  | key v =>
    unfold Model.Kmac.setMem Model.Kmac.set
    dsimp only
    rw [bytepadMem_eq b r hb hr]
    cases enough (kmacStrings r (.key v)) mem <;> rfl
  | customization v =>
    unfold Model.Kmac.setMem Model.Kmac.set Model.Shake.setMem assign
    rw [show enough (kmacStrings r (.customization v)) mem = mem 0 from enough_one mem]
    cases h : mem 0 <;> simp [h] <;> rfl

/-! `reset(true)` of KMAC. -/

theorem kmac_clearMem (b r : Nat) (hb : b = 128 ∨ b = 256) (hr : r = 200 - 2 * b / 8) (mem : Memory) (s : Model.Kmac.St)
    (h : enough 4 mem = false) : Model.Kmac.clearMem b mem s = .ok (.noMemory, { s with
      K := List.replicate s.K.length 0
      shake := { s.shake with h := { s.shake.h with A := List.replicate 25 0, N := [], S := [] }, m := zeroBytes s.shake.m } }) := by
  have h4 : kmacStrings r (.key []) = 4 := by
    unfold kmacStrings
    rw [hr]
    obtain rfl | rfl := hb <;> decide
  show Model.Kmac.setMem b mem (.key []) _ = _
  rw [strong_kmac b r hb hr mem, h4, h]
  rfl

theorem kmac_zero_key (b r hs : Nat) (he : Model.Shake.rateOf b = 8 * r) (h8 : r % 8 = 0) (hr0 : 0 < r) (h168 : r ≤ 168) (h0 : 0 < hs)
    (hs8 : hs % 8 = 0) (hs64 : hs < 2 ^ 64) (n : Nat) (hn : n < 2 ^ 63) (s : Model.Kmac.St) (hm : s.shake.m.length = 168) (hh : s.hs = hs)
    (hK : s.K = List.replicate n 0) (hS : s.shake.h.S = []) (msg : Bytes) (hmsg : msg.length < 2 ^ 63) :
    ∃ s1 s2, (Model.Kmac.provider b).reset false s = .ok s1 ∧ Model.Kmac.update b msg s1 = .ok s2 ∧
      Model.Kmac.final b s2 = .ok (slice (Spec.Keccak.cshakeFullStream r ⟨ascii "KMAC", []⟩
        (List.replicate n 0 ++ msg ++ Spec.Keccak.rightEncode hs)) 0 (hs / 8)) := by
  obtain ⟨K, hs', q, sh⟩ := s
  dsimp only at hm hh hK hS
  subst hh hK
  obtain ⟨a1, e1, r1⟩ := Shake.rel_init r h8 hr0 h168 ⟨ascii "KMAC", []⟩ (Model.Shake.setFunctionName (ascii "KMAC") sh) hm rfl hS
    (show (ascii "KMAC").length < 2 ^ 61 by decide) (by simp)
  obtain ⟨a2, e2, r2⟩ := Shake.rel_update r h8 hr0 h168 _ [] a1 (List.replicate n 0) r1 (by simpa using hn)
  obtain ⟨a3, e3, r3⟩ := Shake.rel_update r h8 hr0 h168 _ _ a2 msg r2 hmsg
  obtain ⟨a4, e4, r4⟩ := Shake.rel_update r h8 hr0 h168 _ _ a3 (Spec.Keccak.rightEncode hs') r3
    (by have := Kmac.length_rightEncode hs' hs64; omega)
  obtain ⟨a5, e5, r5⟩ := Shake.rel_squeeze r h8 hr0 h168 _ _ 0 a4 (hs' / 8) r4 (by omega)
  refine ⟨⟨List.replicate n 0, hs', false, a2⟩, ⟨List.replicate n 0, hs', false, a3⟩, ?_, ?_, ?_⟩
  · show Model.Kmac.init b _ = _
    unfold Model.Kmac.init Model.Kmac.update
    dsimp only
    rw [he, e1, ok_bind]
    rw [e2, ok_bind]; rfl
  · unfold Model.Kmac.update
    dsimp only
    rw [he, e3, ok_bind]; rfl
  · unfold Model.Kmac.final Model.Kmac.squeeze Model.Kmac.squeezeFirst Model.Kmac.update
    dsimp only
    have hL : (if !false then hs' / 8 * 8 % szMod else 0) = hs' := by
      rw [if_pos (by simp), Nat.mod_eq_of_lt (by unfold szMod; omega)]; omega
    rw [if_pos (show (!false) = true from rfl), hL, Encode.rightEncode_eq hs' hs64, he, e4, ok_bind]
    show ((Model.Shake.squeeze 24 (8 * r) (hs' / 8) a4 >>= _) >>= _) = _
    rw [e5]
    rw [List.nil_append]
    rfl

/-! `set_key` of BLAKE2bp and BLAKE2sp. -/

section Blake2p
variable {w : Nat} (T : Model.Blake2.Word w)

/-- The node with the key `v`. -/
def withKey (v : Bytes) (l : Blk (Model.Blake2.St w)) : Blk (Model.Blake2.St w) := { l with h := { l.h with k := v } }

theorem setMem_key (v : Bytes) (hv : v.length ≤ w) (mem : Memory) (l : Blk (Model.Blake2.St w)) :
    Model.Blake2.setMem T mem (.key v) l = if mem 0 then pure (.returned, withKey v l) else pure (.noMemory, l) := by
  unfold Model.Blake2.setMem assign
  dsimp only
  rw [if_neg (by omega)]
  cases mem 0 <;> rfl

theorem setLeavesMem_torn (v : Bytes) (hv : v.length ≤ w) (mem : Memory) (j : Nat) : ∀ (ls : List (Blk (Model.Blake2.St w))) (i : Nat), j < ls.length →
    (∀ t < j, mem (i + t) = true) → mem (i + j) = false →
    Model.Blake2p.setLeavesMem T mem (.key v) i ls = .ok (.noMemory, (ls.take j).map (withKey v) ++ ls.drop j) := by
  induction j with
  | zero =>
    intro ls i hl _ hm
    cases ls with
    | nil => cases hl
    | cons l ls =>
      unfold Model.Blake2p.setLeavesMem
      rw [setMem_key T v hv, hm]
      rfl
  | succ j ih =>
    intro ls i hl ht hm
    cases ls with
    | nil => cases hl
    | cons l ls =>
      unfold Model.Blake2p.setLeavesMem
      rw [setMem_key T v hv, ht 0 (by omega)]
      show (Model.Blake2p.setLeavesMem T mem (.key v) (i + 1) ls >>= _) = _
      rw [ih ls (i + 1) (by simpa using hl) (fun t h => by have := ht (t + 1) (by omega); rwa [show i + 1 + t = i + (t + 1) by omega])
        (by rwa [show i + 1 + j = i + (j + 1) by omega])]
      rfl

theorem setMem_torn (v : Bytes) (hv : v.length ≤ w) (mem : Memory) (j : Nat) (s : Blk (Model.Blake2p.PSt w)) (hj : j < s.h.leaf.length)
    (ht : ∀ t ≤ j, mem t = true) (hm : mem (j + 1) = false) :
    Model.Blake2p.setMem T mem (.key v) s = .ok (.noMemory, { s with h := { s.h with
      main := withKey v s.h.main, leaf := (s.h.leaf.take j).map (withKey v) ++ s.h.leaf.drop j } }) := by
  unfold Model.Blake2p.setMem
  rw [setMem_key T v hv, ht 0 (by omega)]
  show (Model.Blake2p.setLeavesMem T mem (.key v) 1 s.h.leaf >>= _) = _
  rw [setLeavesMem_torn T v hv mem j s.h.leaf 1 hj (fun t h => by rw [Nat.add_comm]; exact ht (t + 1) (by omega))
    (by rwa [Nat.add_comm])]
  rfl

theorem setMem_all (mem : Memory) (hm : ∀ i, mem i = true) (p : Blake2Param) (l : Blk (Model.Blake2.St w)) :
    Model.Blake2.setMem T mem p l = (Model.Blake2.set T p l >>= fun r => pure (Ended.of r.1, r.2)) := by
  rw [strong_blake2 T mem p l, if_pos (by unfold enough; rw [List.all_eq_true]; exact fun i _ => hm i)]

theorem setLeavesMem_all (mem : Memory) (hm : ∀ i, mem i = true) (p : Blake2Param) : ∀ (ls : List (Blk (Model.Blake2.St w))) (i : Nat),
    Model.Blake2p.setLeavesMem T mem p i ls = (Model.Blake2p.setLeaves T p ls >>= fun r => pure (Ended.of r.1, r.2)) := by
  intro ls
  induction ls with
  | nil => intro i; rfl
  | cons l ls ih =>
    intro i
    unfold Model.Blake2p.setLeavesMem Model.Blake2p.setLeaves
    rw [setMem_all T _ (fun j => hm (i + j))]
    cases Model.Blake2.set T p l with
    | error e => rfl
    | ok r =>
      obtain ⟨t, l'⟩ := r
      cases t with
      | true => rfl
      | false =>
        show (Model.Blake2p.setLeavesMem T mem p (i + 1) ls >>= _) = ((Model.Blake2p.setLeaves T p ls >>= _) >>= _)
        rw [ih]
        cases Model.Blake2p.setLeaves T p ls <;> rfl

theorem strong_tree (mem : Memory) (hm : ∀ i, mem i = true) (p : Blake2Param) :
    StrongAt (Model.Blake2p.set T) (Model.Blake2p.setMem T) (blake2Strings w) mem p := by
  intro s
  rw [if_pos (by unfold enough; rw [List.all_eq_true]; exact fun i _ => hm i)]
  unfold Model.Blake2p.setMem Model.Blake2p.set
  rw [setMem_all T mem hm]
  cases Model.Blake2.set T p s.h.main with
  | error e => rfl
  | ok r =>
    obtain ⟨t, l'⟩ := r
    cases t with
    | true => rfl
    | false =>
      show (Model.Blake2p.setLeavesMem T mem p 1 s.h.leaf >>= _) = ((Model.Blake2p.setLeaves T p s.h.leaf >>= _) >>= _)
      rw [setLeavesMem_all T mem hm]
      cases Model.Blake2p.setLeaves T p s.h.leaf <;> rfl

end Blake2p

/-! All classes. -/

theorem strong_hash (h : HashName) (hs : h.Supported) (ht : ¬h.IsTree) : Strong h.cls.pr.set h.setMem h.strings := by
  cases h with
  | kmac f b N => cases f <;> exact strong_kmac b _ hs.1 rfl
  | blake2b f N => cases f <;> exact strong_blake2 Model.Blake2.u64
  | blake2s f N => cases f <;> exact strong_blake2 Model.Blake2.u32
  | blake2xb f N => cases f <;> exact strong_blake2 Model.Blake2.u64
  | blake2xs f N => cases f <;> exact strong_blake2 Model.Blake2.u32
  | blake2bp f N => exact (ht trivial).elim
  | blake2sp f N => exact (ht trivial).elim
  | skein256 f N => cases f <;> exact strong_skein
  | skein512 f N => cases f <;> exact strong_skein
  | skein1024 f N => cases f <;> exact strong_skein
  | _ => exact strong_noString _

theorem strong_hash_tree (h : HashName) (ht : h.IsTree) (mem : Memory) (hm : ∀ i, mem i = true) (p : h.cls.P) :
    StrongAt h.cls.pr.set h.setMem h.strings mem p := by
  cases h with
  | blake2bp f N => cases f <;> exact strong_tree Model.Blake2.u64 mem hm p
  | blake2sp f N => cases f <;> exact strong_tree Model.Blake2.u32 mem hm p
  | _ => exact ht.elim

theorem strong_xof (x : XofName) (hs : x.Supported) : Strong x.cls.pr.set x.setMem x.strings := by
  cases x with
  | kmac b => exact strong_kmac b _ hs rfl
  | cshake b => exact strong_shake
  | k12 => exact strong_k12 128 12
  | kt256 => exact strong_k12 256 12
  | m14 => exact strong_k12 256 14
  | blake2xb => exact strong_blake2 Model.Blake2.u64
  | blake2xs => exact strong_blake2 Model.Blake2.u32
  | skein256 => exact strong_skein
  | skein512 => exact strong_skein
  | skein1024 => exact strong_skein
  | asconCxof => exact strong_ascon
  | _ => exact strong_noString _

end Digestpp.Proofs
