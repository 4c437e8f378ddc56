import Verif.Proofs.Absorb
import Verif.Proofs.Api
import Verif.Spec.Safety

/-! Memory safety: from provider-level invariants to histories of calls. -/

namespace Digestpp.Proofs
open Model Spec

variable {σ : Type}

/-- `absorb_bytes` stays within its arrays, also when the buffer is full (which happens after squeezing). -/
theorem absorbBytes_safe_le {bs z msize : Nat} {inv : σ → Prop} {transform : Bytes → Nat → Blk σ → M (Blk σ)}
    (hbs : 0 < bs) (hz : z ≤ 1) (hm : bs ≤ msize) (hsz : bs < 2 ^ 62) (htr : SafeTransform bs msize inv transform)
    (data : Bytes) (s : Blk σ) (hmlen : s.m.length = msize) (hpos : s.pos ≤ bs) (hinv : inv s.h) (hd : data.length < 2 ^ 63) :
    ∃ s', absorbBytes bs (bs + z) transform data s = .ok s' ∧ Safe bs z msize inv s' := by
  unfold absorbBytes
  have hmod : (s.pos + data.length) % szMod = s.pos + data.length := by
    apply Nat.mod_eq_of_lt; simp only [szMod]; omega
  rw [hmod]
  by_cases hc : s.pos ≠ 0 ∧ s.pos + data.length ≥ bs + z
  · rw [if_pos hc]
    have hsub : szSub bs s.pos = bs - s.pos := by
      rw [szSub_eq _ _ (by omega) (by unfold szMod; omega)]; try omega
    have htl : ((data.drop 0).take (bs - s.pos)).length = bs - s.pos := by simp; omega
    rw [hsub, readBytes_ok _ _ _ (by omega), ok_bind, memcpyTo_ok _ _ _ (by rw [htl]; omega), ok_bind, htl]
    obtain ⟨m1, hm1⟩ : ∃ m1, m1 = s.m.take s.pos ++ (data.drop 0).take (bs - s.pos) ++ s.m.drop (s.pos + (bs - s.pos)) := ⟨_, rfl⟩
    have hm1len : m1.length = msize := by
      rw [hm1, List.length_append, List.length_append, List.length_take, List.length_drop, htl]; omega
    rw [← hm1]
    obtain ⟨h', m', hm', hi', ht⟩ := htr { s with m := m1 } m1 1 (by omega) hm1len hinv
    rw [ht, ok_bind]
    exact absorbTail_safe hbs hz hm hsz htr _ _ hm' hi' (by rw [List.length_drop]; omega) (Or.inl rfl)
  · rw [if_neg hc]
    exact absorbTail_safe hbs hz hm hsz htr data s hmlen hinv hd (by omega)

theorem memset_safe (dst : Bytes) (off : Nat) (v : Byte) (n : Nat) (h : off + n ≤ dst.length) :
    ∃ d, memset dst off v n = .ok d ∧ d.length = dst.length := by
  refine ⟨_, if_pos h, ?_⟩
  simp; omega

theorem memcpyTo_safe (dst : Bytes) (off : Nat) (src : Bytes) (h : off + src.length ≤ dst.length) :
    ∃ d, memcpyTo dst off src = .ok d ∧ d.length = dst.length := by
  refine ⟨_, if_pos h, ?_⟩
  simp; omega

theorem setByte_safe (dst : Bytes) (i : Nat) (v : Byte) (h : i < dst.length) :
    ∃ d, setByte dst i v = .ok d ∧ d.length = dst.length :=
  ⟨_, if_pos h, by simp⟩

theorem readBytes_safe (src : Bytes) (off n : Nat) (h : off + n ≤ src.length) :
    ∃ d, readBytes src off n = .ok d ∧ d.length = n := by
  refine ⟨_, if_pos h, ?_⟩
  simp; omega

theorem forBlocks_safe {bs : Nat} {step : Nat → Bytes → σ → M σ} {inv : σ → Prop}
    (hs : ∀ i b s, b.length = bs → inv s → ∃ s', step i b s = .ok s' ∧ inv s') (data : Bytes) (n : Nat) (s : σ)
    (hn : n * bs ≤ data.length) (h : inv s) : ∃ s', forBlocks bs data n step s = .ok s' ∧ inv s' := by
  unfold forBlocks
  suffices ∀ l : List Nat, (∀ i ∈ l, i < n) → ∀ s, inv s → ∃ s', l.foldlM (fun s blk => do
      let b ← readBytes data (blk * bs) bs
      step blk b s) s = .ok s' ∧ inv s' from this _ (fun i hi => List.mem_range.mp hi) s h
  intro l
  induction l with
  | nil => exact fun _ s h => ⟨s, rfl, h⟩
  | cons i l ih =>
    intro hl s h
    have hi : i < n := hl i (List.mem_cons_self ..)
    have h1 : (i + 1) * bs ≤ n * bs := Nat.mul_le_mul_right _ hi
    rw [Nat.add_mul] at h1
    obtain ⟨b, eb, lb⟩ := readBytes_safe data (i * bs) bs (by omega)
    obtain ⟨s1, e1, i1⟩ := hs i b s lb h
    obtain ⟨s2, e2, i2⟩ := ih (fun j hj => hl j (List.mem_cons_of_mem _ hj)) s1 i1
    refine ⟨s2, ?_, i2⟩
    rw [List.foldlM_cons, eb, ok_bind, e1]
    exact e2

/-- What is to be shown of a provider: `I0` holds of objects that are about to be initialised, `I` of all others. -/
structure HashSafe {S P : Type} [Param P] (pr : HashProvider S P) (I0 I : S → Prop) : Prop where
  sub : ∀ s, I s → I0 s
  init : ∀ s, I0 s → ∃ s', pr.init s = .ok s' ∧ I s'
  update : ∀ s d, I s → d.length < 2 ^ 63 → ∃ s', pr.update d s = .ok s' ∧ I s'
  final : ∀ s, I s → ∃ b, pr.final s = .ok b ∧ b.length = pr.hashSize s / 8
  size : ∀ s, I s → 0 < pr.hashSize s / 8
  clear : ∀ s, I s → ∃ s', pr.clear s = .ok s' ∧ I0 s'
  set : ∀ s p, I s → (Param.value p).length < 2 ^ 61 → ∃ t s', pr.set p s = .ok (t, s') ∧ (if t then I s' else I0 s')

structure XofSafe {S P : Type} [Param P] (pr : XofProvider S P) (I0 I : S → Prop) : Prop where
  sub : ∀ s, I s → I0 s
  init : ∀ s, I0 s → ∃ s', pr.init s = .ok s' ∧ I s'
  update : ∀ s d, I s → d.length < 2 ^ 63 → ∃ s', pr.update d s = .ok s' ∧ I s'
  squeeze : ∀ s n, I s → n < 2 ^ 61 → ∃ b s', pr.squeeze n s = .ok (b, s') ∧ b.length = n ∧ I s'
  clear : ∀ s, I s → ∃ s', pr.clear s = .ok s' ∧ I0 s'
  set : ∀ s p, I s → (Param.value p).length < 2 ^ 61 → ∃ t s', pr.set p s = .ok (t, s') ∧ (if t then I s' else I0 s')

section
variable {S P : Type} [Param P]

theorem absorb_safe {update : Bytes → S → M S} {I : S → Prop}
    (hu : ∀ s d, I s → d.length < 2 ^ 63 → ∃ s', update d s = .ok s' ∧ I s') (src : Source) (hv : src.Valid) (s : S) (h : I s) :
    ∃ s', absorb update src s = .ok s' ∧ I s' :=
  absorb_spec (R := fun _ s => I s) (fun _ s d hi hd => hu s d hi hd) src hv [] s h

theorem HashSafe.step {pr : HashProvider S P} {I0 I : S → Prop} (hs : HashSafe pr I0 I) (op : HashOp P) (hv : op.Valid) (s : S) (h : I s) :
    ∃ o s', pr.step op s = .ok (o, s') ∧ I s' := by
  have hd : ∃ b, pr.digestIt s = .ok b := by
    obtain ⟨b, e, l⟩ := hs.final s h
    have hp := hs.size s h
    unfold HashProvider.digestIt
    dsimp only
    have hne : (List.replicate (pr.hashSize s / 8) (0 : Byte)).isEmpty = false := by
      cases hf : pr.hashSize s / 8 with
      | zero => omega
      | succ n => rfl
    rw [hne]
    simp only [e, bind, Except.bind]
    exact ⟨_, memcpyTo_zero _ _ l⟩
  cases op with
  | absorb src =>
    obtain ⟨s', e, i⟩ := absorb_safe hs.update src hv s h
    exact ⟨.done, s', by simp only [HashProvider.step, e, ok_bind]; rfl, i⟩
  | digestBuf buf =>
    obtain ⟨b, e, l⟩ := hs.final s h
    simp only [HashProvider.step, HashProvider.digestBuf]
    split
    · exact ⟨_, s, rfl, h⟩
    · rw [e, ok_bind]
      obtain ⟨d, e1, _⟩ := memcpyTo_safe buf 0 b (by omega)
      rw [e1]
      exact ⟨_, s, rfl, h⟩
  | digest =>
    obtain ⟨b, e⟩ := hd
    exact ⟨_, s, by simp only [HashProvider.step, e, ok_bind]; rfl, h⟩
  | hexdigest =>
    obtain ⟨b, e⟩ := hd
    exact ⟨_, s, by simp only [HashProvider.step, e, ok_bind]; rfl, h⟩
  | reset b =>
    cases b with
    | false =>
      obtain ⟨s', e, i⟩ := hs.init s (hs.sub s h)
      refine ⟨.done, s', ?_, i⟩
      show (pr.init s >>= fun s => pure (Obs.done, s)) = _
      rw [e]; rfl
    | true =>
      obtain ⟨s1, e1, i1⟩ := hs.clear s h
      obtain ⟨s', e, i⟩ := hs.init s1 i1
      refine ⟨.done, s', ?_, i⟩
      show ((pr.clear s >>= pr.init) >>= fun s => pure (Obs.done, s)) = _
      rw [e1, ok_bind, e]; rfl
  | set p =>
    obtain ⟨t, s1, e1, i1⟩ := hs.set s p h hv
    cases t with
    | true => exact ⟨.threw, s1, by simp only [HashProvider.step, HashProvider.setParam, e1, ok_bind]; rfl, i1⟩
    | false =>
      obtain ⟨s', e, i⟩ := hs.init s1 i1
      refine ⟨.done, s', ?_, i⟩
      simp only [HashProvider.step, HashProvider.setParam, e1, ok_bind]
      show (pr.init s1 >>= fun s => pure (Obs.done, s)) = _
      rw [e]; rfl

theorem HashSafe.run {pr : HashProvider S P} {I0 I : S → Prop} (hs : HashSafe pr I0 I) (ops : List (HashOp P))
    (hv : ∀ op ∈ ops, op.Valid) : ∀ s, I s → ∃ os s', pr.run ops s = .ok (os, s') ∧ I s' := by
  induction ops with
  | nil => exact fun s h => ⟨[], s, rfl, h⟩
  | cons op ops ih =>
    intro s h
    obtain ⟨o, s1, e1, i1⟩ := hs.step op (hv op (List.mem_cons_self ..)) s h
    obtain ⟨os, s2, e2, i2⟩ := ih (fun q hq => hv q (List.mem_cons_of_mem _ hq)) s1 i1
    refine ⟨o :: os, s2, ?_, i2⟩
    unfold HashProvider.run
    rw [e1, ok_bind]
    show (pr.run ops s1 >>= fun r => pure (o :: r.1, r.2)) = _
    rw [e2]; rfl

theorem XofSafe.step {pr : XofProvider S P} {I0 I : S → Prop} (hs : XofSafe pr I0 I) (op : XofOp P) (hv : op.Valid) (s : S) (h : I s) :
    (∃ o s', pr.step op s = .ok (o, s') ∧ I s') ∨ (op.EmptyVector ∧ pr.step op s = .error .emptyVector) := by
  have hd : ∀ n, n < 2 ^ 61 → (∃ b s', pr.squeezeIt n s = .ok (b, s') ∧ I s') ∨ (n = 0 ∧ pr.squeezeIt n s = .error .emptyVector) := by
    intro n hn
    cases n with
    | zero => exact .inr ⟨rfl, rfl⟩
    | succ n =>
      obtain ⟨b, s', e, l, i⟩ := hs.squeeze s (n + 1) h hn
      refine .inl ⟨b, s', ?_, i⟩
      unfold XofProvider.squeezeIt
      dsimp only
      have hne : (List.replicate (n + 1) (0 : Byte)).isEmpty = false := rfl
      rw [hne]
      simp only [e, bind, Except.bind]
      rw [memcpyTo_zero _ _ l]
      rfl
  cases op with
  | absorb src =>
    obtain ⟨s', e, i⟩ := absorb_safe hs.update src hv s h
    exact .inl ⟨.done, s', by simp only [XofProvider.step, e, ok_bind]; rfl, i⟩
  | squeezeBuf buf =>
    obtain ⟨b, s', e, l, i⟩ := hs.squeeze s buf.length h hv
    obtain ⟨d, e1, _⟩ := memcpyTo_safe buf 0 b (by omega)
    refine .inl ⟨.buffer d, s', ?_, i⟩
    simp only [XofProvider.step, XofProvider.squeezeBuf, e, ok_bind, e1]
    rfl
  | squeeze n =>
    rcases hd n hv with ⟨b, s', e, i⟩ | ⟨h0, e⟩
    · exact .inl ⟨.bytes b, s', by simp only [XofProvider.step, e, ok_bind]; rfl, i⟩
    · exact .inr ⟨h0, by simp only [XofProvider.step, e]; rfl⟩
  | hexsqueeze n =>
    rcases hd n hv with ⟨b, s', e, i⟩ | ⟨h0, e⟩
    · exact .inl ⟨.text (hexString b), s', by simp only [XofProvider.step, e, ok_bind]; rfl, i⟩
    · exact .inr ⟨h0, by simp only [XofProvider.step, e]; rfl⟩
  | reset b =>
    cases b with
    | false =>
      obtain ⟨s', e, i⟩ := hs.init s (hs.sub s h)
      refine .inl ⟨.done, s', ?_, i⟩
      show (pr.init s >>= fun s => pure (Obs.done, s)) = _
      rw [e]; rfl
    | true =>
      obtain ⟨s1, e1, i1⟩ := hs.clear s h
      obtain ⟨s', e, i⟩ := hs.init s1 i1
      refine .inl ⟨.done, s', ?_, i⟩
      show ((pr.clear s >>= pr.init) >>= fun s => pure (Obs.done, s)) = _
      rw [e1, ok_bind, e]; rfl
  | set p =>
    obtain ⟨t, s1, e1, i1⟩ := hs.set s p h hv
    cases t with
    | true => exact .inl ⟨.threw, s1, by simp only [XofProvider.step, XofProvider.setParam, e1, ok_bind]; rfl, i1⟩
    | false =>
      obtain ⟨s', e, i⟩ := hs.init s1 i1
      refine .inl ⟨.done, s', ?_, i⟩
      simp only [XofProvider.step, XofProvider.setParam, e1, ok_bind]
      show (pr.init s1 >>= fun s => pure (Obs.done, s)) = _
      rw [e]; rfl

theorem XofSafe.run {pr : XofProvider S P} {I0 I : S → Prop} (hs : XofSafe pr I0 I) (ops : List (XofOp P))
    (hv : ∀ op ∈ ops, op.Valid) : ∀ s, I s → (∃ os s', pr.run ops s = .ok (os, s') ∧ I s') ∨
      ((∃ op ∈ ops, op.EmptyVector) ∧ pr.run ops s = .error .emptyVector) := by
  induction ops with
  | nil => exact fun s h => .inl ⟨[], s, rfl, h⟩
  | cons op ops ih =>
    intro s h
    rcases hs.step op (hv op (List.mem_cons_self ..)) s h with ⟨o, s1, e1, i1⟩ | ⟨h0, e⟩
    · rcases ih (fun q hq => hv q (List.mem_cons_of_mem _ hq)) s1 i1 with ⟨os, s2, e2, i2⟩ | ⟨⟨q, hq, h0⟩, e⟩
      · refine .inl ⟨o :: os, s2, ?_, i2⟩
        unfold XofProvider.run
        rw [e1, ok_bind]
        show (pr.run ops s1 >>= fun r => pure (o :: r.1, r.2)) = _
        rw [e2]; rfl
      · refine .inr ⟨⟨q, List.mem_cons_of_mem _ hq, h0⟩, ?_⟩
        unfold XofProvider.run
        rw [e1, ok_bind]
        show (pr.run ops s1 >>= fun r => pure (o :: r.1, r.2)) = _
        rw [e]; rfl
    · refine .inr ⟨⟨op, List.mem_cons_self .., h0⟩, ?_⟩
      unfold XofProvider.run
      rw [e]; rfl

end
end Digestpp.Proofs
