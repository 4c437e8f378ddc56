import Verif.Spec.Pointers
import Verif.Model.Pointers
import Verif.Proofs.Absorb

namespace Digestpp.Proofs.Pointers
open Model Spec
variable {σ : Type}

theorem lift_bind {α β : Type} (x : M α) (f : α → M β) : MP.lift (x >>= f) = MP.lift x >>= fun a => MP.lift (f a) := by cases x <;> rfl

/-- Fill position after `t` bytes. -/
def posOf (bs z t : Nat) : Nat := t - (t - z) / bs * bs

theorem posOf_cases {bs z : Nat} (hbs : 0 < bs) (hz : z ≤ 1) (t : Nat) :
    (posOf bs z t = 0 ∧ toBoundary bs t = 0) ∨ (0 < posOf bs z t ∧ posOf bs z t < bs + z ∧ posOf bs z t ≤ bs ∧ toBoundary bs t = bs - posOf bs z t) := by
  have hd := Nat.div_add_mod (t - z) bs
  have hm := Nat.mod_lt (t - z) hbs
  rw [Nat.mul_comm] at hd
  unfold posOf toBoundary
  generalize (t - z) / bs = q at *
  generalize (t - z) % bs = r at *
  rcases Nat.lt_or_ge t z with h | h
  · have : t = 0 := by omega
    subst this
    exact .inl ⟨by omega, by simp⟩
  · have ht : t = q * bs + (r + z) := by omega
    have e1 : t - q * bs = r + z := by omega
    have e2 : t % bs = (r + z) % bs := by rw [ht, Nat.add_comm, Nat.add_mul_mod_self_right]
    rw [e1, e2]
    by_cases h0 : r + z = 0
    · exact .inl ⟨h0, by rw [h0]; simp⟩
    · by_cases h1 : r + z = bs
      · exact .inr ⟨by omega, by omega, by omega, by rw [h1, Nat.mod_self]; simp⟩
      · have : (r + z) % bs = r + z := Nat.mod_eq_of_lt (by omega)
        exact .inr ⟨by omega, by omega, by omega, by rw [this, Nat.mod_eq_of_lt (by omega)]⟩

theorem posOf_add_lt {bs z : Nat} (hbs : 0 < bs) (hz : z ≤ 1) (t l : Nat) (h : posOf bs z t + l < bs + z) : posOf bs z (t + l) = posOf bs z t + l := by
  unfold posOf at *
  have h1 := Nat.div_mul_le_self (t - z) bs
  have : (t + l - z) / bs = (t - z) / bs := by
    rcases Nat.lt_or_ge t z with ht | ht
    · have : t = 0 := by omega
      subst this
      rw [Nat.div_eq_of_lt (by simp only [Nat.zero_sub, Nat.zero_div, Nat.zero_mul] at h; omega), Nat.div_eq_of_lt (by omega)]
    · apply Nat.div_eq_of_lt_le
      · omega
      · rw [Nat.add_mul]; omega
  rw [this]; omega

/-- What is known of the position, besides `Safe`. -/
structure At (bs z msize : Nat) (inv : σ → Prop) (t : Nat) (s : Blk σ) : Prop where
  mlen : s.m.length = msize
  inv : inv s.h
  pos : s.pos = posOf bs z t

theorem rest_eq (a : Nat) (data : Bytes) (s : Blk σ) : absorbRestAt (some a) data s = MP.lift (absorbRest data s) := rfl

theorem tail_eq {w bs z : Nat} (hbs : 0 < bs) (tr : Bytes → Nat → Blk σ → M (Blk σ)) (a : Nat) (data : Bytes) (s : Blk σ) :
    absorbTailAt w bs (bs + z) tr (some a) data s =
      if data.length ≥ bs + z ∧ a % w ≠ 0 then .error .misaligned else MP.lift (absorbTail bs (bs + z) tr data s) := by
  unfold absorbTailAt absorbTail
  by_cases h : data.length ≥ bs + z
  · have h0 : ¬ bs = 0 := by omega
    rw [if_pos h, if_neg h0, if_pos h, if_neg h0]
    by_cases ha : a % w = 0
    · rw [if_neg (fun c => c.2 ha)]
      dsimp only [wordsFrom]
      rw [if_pos ha]
      refine Eq.trans ?_ (lift_bind _ _).symm
      refine congrArg (MP.lift (tr data _ s) >>= ·) (funext fun s => ?_)
      exact rest_eq _ _ _
    · rw [if_pos ⟨h, ha⟩]
      dsimp only [wordsFrom]
      rw [if_neg ha]
      rfl
  · rw [if_neg h, if_neg h, if_neg (fun c => h c.1)]
    rfl

/-- **One call.** -/
theorem absorb_eq {w ma bs z msize : Nat} {inv : σ → Prop} {tr : Bytes → Nat → Blk σ → M (Blk σ)} (hbs : 0 < bs) (hz : z ≤ 1) (hm : bs ≤ msize) (hsz : bs < 2 ^ 62)
    (hma : ma % w = 0) (htr : SafeTransform bs msize inv tr) (p : Ptr) (data : Bytes) (t : Nat) (s : Blk σ) (h : At bs z msize inv t s) (hd : data.length < 2 ^ 63)
    (hp : p = none → data = []) : absorbBytesAt w ma bs (bs + z) tr p data s = outcome (fault w bs z t p data.length) (absorbBytes bs (bs + z) tr data s) := by
  obtain ⟨hmlen, hinv, hpos⟩ := h
  have hmod : (s.pos + data.length) % szMod = s.pos + data.length := by
    apply Nat.mod_eq_of_lt
    rcases posOf_cases hbs hz t with ⟨h, -⟩ | ⟨-, -, h, -⟩ <;> simp only [szMod] <;> omega
  unfold absorbBytesAt absorbBytes
  rw [hmod]
  cases p with
  | none =>
    rw [hp rfl]
    rw [if_neg (fun c => by
      rcases posOf_cases hbs hz t with ⟨h, -⟩ | ⟨-, h, -⟩
      · exact c.1 (hpos.trans h)
      · have := c.2; simp only [List.length_nil] at this; omega)]
    unfold absorbTailAt
    rw [if_neg (by simp only [List.length_nil]; omega)]
    rfl
  | some a =>
    by_cases hc : s.pos ≠ 0 ∧ s.pos + data.length ≥ bs + z
    · rw [if_pos hc, if_pos hc]
      rcases posOf_cases hbs hz t with ⟨h, -⟩ | ⟨h0, h1, h2, hb⟩
      · exact absurd (hpos.trans h) hc.1
      have hsub : szSub bs s.pos = bs - s.pos := by
        rw [szSub_eq _ _ (by omega) (by unfold szMod; omega)]; try omega
      have htl : ((data.drop 0).take (bs - s.pos)).length = bs - s.pos := by simp; omega
      rw [hsub, readBytes_ok _ _ _ (by omega)]
      have hcp := memcpyTo_ok s.m ((data.drop 0).take (bs - s.pos)) s.pos (by rw [htl]; omega)
      rw [htl] at hcp
      obtain ⟨m1, hm1⟩ : ∃ m1, m1 = s.m.take s.pos ++ (data.drop 0).take (bs - s.pos) ++ s.m.drop (s.pos + (bs - s.pos)) := ⟨_, rfl⟩
      have hm1len : m1.length = msize := by
        rw [hm1, List.length_append, List.length_append, List.length_take, List.length_drop, htl]; omega
      rw [← hm1] at hcp
      obtain ⟨h', m', hm', hi', ht⟩ := htr { s with m := m1 } m1 1 (by omega) hm1len hinv
      have hw : wordsFrom w (some ma) = .ok () := if_pos hma
      show (MP.lift (memcpyTo s.m s.pos ((data.drop 0).take (bs - s.pos))) >>= _) = outcome _ (memcpyTo s.m s.pos ((data.drop 0).take (bs - s.pos)) >>= _)
      rw [hcp]
      show (wordsFrom w (some ma) >>= fun _ => MP.lift (tr m1 1 { s with m := m1 }) >>= _) = outcome _ (tr m1 1 { s with m := m1 } >>= _)
      rw [hw, ht]
      show absorbTailAt w bs (bs + z) tr (some (a + szSub bs s.pos)) (data.drop (szSub bs s.pos)) { s with h := h', m := m', total := s.total + BitVec.ofNat 64 (bs * 8), pos := 0 } =
        outcome _ (absorbTail bs (bs + z) tr (data.drop (szSub bs s.pos)) { s with h := h', m := m', total := s.total + BitVec.ofNat 64 (bs * 8), pos := 0 })
      rw [hsub, tail_eq hbs]
      rw [List.length_drop]
      unfold fault
      dsimp only
      rw [hb, ← hpos]
      by_cases hx : data.length - (bs - s.pos) ≥ bs + z ∧ (a + (bs - s.pos)) % w ≠ 0
      · rw [if_pos hx, if_pos ⟨by omega, hx.2⟩]; rfl
      · rw [if_neg hx, if_neg (fun c => hx ⟨by omega, c.2⟩)]; rfl
    · rw [if_neg hc, if_neg hc, tail_eq hbs]
      unfold fault
      dsimp only
      rcases posOf_cases hbs hz t with ⟨h, hb⟩ | ⟨h0, h1, h2, hb⟩
      · rw [hb]
        by_cases hx : data.length ≥ bs + z ∧ a % w ≠ 0
        · rw [if_pos hx, if_pos ⟨by omega, hx.2⟩]; rfl
        · rw [if_neg hx, if_neg (fun c => hx ⟨by omega, c.2⟩)]; rfl
      · rw [if_neg (fun c => by omega), if_neg (fun c => by omega)]; rfl

theorem absorbTail_at {bs z msize : Nat} {inv : σ → Prop} {tr : Bytes → Nat → Blk σ → M (Blk σ)} (hbs : 0 < bs) (hz : z ≤ 1) (hm : bs ≤ msize) (hsz : bs < 2 ^ 62)
    (htr : SafeTransform bs msize inv tr) (data : Bytes) (s : Blk σ) (hmlen : s.m.length = msize) (hinv : inv s.h) (hd : data.length < 2 ^ 63)
    (hp : s.pos = 0 ∨ s.pos + data.length < bs + z) :
    ∃ s', absorbTail bs (bs + z) tr data s = .ok s' ∧ s'.m.length = msize ∧ inv s'.h ∧
      s'.pos = if data.length ≥ bs + z then posOf bs z data.length else s.pos + data.length := by
  unfold absorbTail
  by_cases hge : data.length ≥ bs + z
  · have hp0 : s.pos = 0 := by omega
    have hsub : szSub (data.length + bs) (bs + z) = data.length - z := by
      rw [szSub_eq _ _ (by omega) (by unfold szMod; omega)]; try omega
    obtain ⟨j, hj⟩ : ∃ j, j = (data.length - z) / bs := ⟨_, rfl⟩
    have hjle : j * bs ≤ data.length := by
      have := Nat.div_mul_le_self (data.length - z) bs
      rw [hj]; omega
    have hrem : data.length - j * bs < bs + z := by
      have := Nat.lt_div_mul_add hbs (a := data.length - z)
      rw [hj]; omega
    obtain ⟨h', m', hm', hi', ht⟩ := htr s data j hjle hmlen hinv
    have hdl : (data.drop (j * bs)).length = data.length - j * bs := List.length_drop
    rw [if_pos hge, if_neg (by omega), hsub]
    dsimp only
    rw [← hj, ht]
    refine ⟨_, absorbRest_ok _ _ _ (memcpyTo_ok _ _ _ (by rw [hdl]; show s.pos + _ ≤ m'.length; omega)), ?_, hi', ?_⟩
    · show (m'.take s.pos ++ data.drop (j * bs) ++ m'.drop (s.pos + (data.drop (j * bs)).length)).length = _
      rw [List.length_append, List.length_append, List.length_take, hdl, List.length_drop]
      omega
    · rw [if_pos hge]
      show s.pos + (data.drop (j * bs)).length = _
      rw [hdl, hp0, hj]; exact Nat.zero_add _
  · rw [if_neg hge]
    refine ⟨_, absorbRest_ok _ _ _ (memcpyTo_ok _ _ _ (by omega)), ?_, hinv, ?_⟩
    · show (s.m.take s.pos ++ data ++ s.m.drop (s.pos + data.length)).length = _
      rw [List.length_append, List.length_append, List.length_take, List.length_drop]
      omega
    · rw [if_neg hge]

/-- Bytes up to a boundary do not count. -/
theorem posOf_boundary {bs z : Nat} (hbs : 0 < bs) (t l : Nat) (ht : t % bs = 0) (hl : z ≤ l) : posOf bs z (t + l) = posOf bs z l := by
  obtain ⟨q, hq⟩ : ∃ q, t = q * bs := ⟨t / bs, by have := Nat.div_add_mod t bs; rw [Nat.mul_comm]; omega⟩
  unfold posOf
  rw [hq, show q * bs + l - z = l - z + q * bs by omega, Nat.add_mul_div_right _ _ hbs, Nat.add_mul]
  omega

/-- Without pointers the position goes on. -/
theorem absorb_at {bs z msize : Nat} {inv : σ → Prop} {tr : Bytes → Nat → Blk σ → M (Blk σ)} (hbs : 0 < bs) (hz : z ≤ 1) (hm : bs ≤ msize) (hsz : bs < 2 ^ 62)
    (htr : SafeTransform bs msize inv tr) (data : Bytes) (t : Nat) (s : Blk σ) (h : At bs z msize inv t s) (hd : data.length < 2 ^ 63) :
    ∃ s', absorbBytes bs (bs + z) tr data s = .ok s' ∧ At bs z msize inv (t + data.length) s' := by
  obtain ⟨hmlen, hinv, hpos⟩ := h
  have hmod : (s.pos + data.length) % szMod = s.pos + data.length := by
    apply Nat.mod_eq_of_lt
    rcases posOf_cases hbs hz t with ⟨h, -⟩ | ⟨-, -, h, -⟩ <;> simp only [szMod] <;> omega
  unfold absorbBytes
  rw [hmod]
  have small : ∀ l, l < bs + z → posOf bs z l = l := by
    intro l hl
    unfold posOf
    rw [Nat.div_eq_of_lt (by omega)]; omega
  by_cases hc : s.pos ≠ 0 ∧ s.pos + data.length ≥ bs + z
  · rw [if_pos hc]
    rcases posOf_cases hbs hz t with ⟨h, -⟩ | ⟨h0, h1, h2, hb⟩
    · exact absurd (hpos.trans h) hc.1
    have hsub : szSub bs s.pos = bs - s.pos := by
      rw [szSub_eq _ _ (by omega) (by unfold szMod; omega)]; try omega
    have htl : ((data.drop 0).take (bs - s.pos)).length = bs - s.pos := by simp; omega
    rw [hsub, readBytes_ok _ _ _ (by omega), ok_bind, memcpyTo_ok _ _ _ (by rw [htl]; omega), ok_bind, htl]
    obtain ⟨m1, hm1⟩ : ∃ m1, m1 = s.m.take s.pos ++ (data.drop 0).take (bs - s.pos) ++ s.m.drop (s.pos + (bs - s.pos)) := ⟨_, rfl⟩
    have hm1len : m1.length = msize := by
      rw [hm1, List.length_append, List.length_append, List.length_take, List.length_drop, htl]; omega
    rw [← hm1]
    obtain ⟨h', m', hm', hi', ht⟩ := htr { s with m := m1 } m1 1 (by omega) hm1len hinv
    rw [ht, ok_bind]
    dsimp only
    rw [hsub]
    obtain ⟨s', e, l, i, p⟩ := absorbTail_at hbs hz hm hsz htr (data.drop (bs - s.pos)) { s with h := h', m := m', total := s.total + BitVec.ofNat 64 (bs * 8), pos := 0 } hm' hi'
      (by rw [List.length_drop]; omega) (.inl rfl)
    refine ⟨s', e, l, i, p.trans ?_⟩
    have hl : data.length = (bs - s.pos) + (data.drop (bs - s.pos)).length := by rw [List.length_drop]; omega
    have hb0 : (t + (bs - s.pos)) % bs = 0 := by
      have hq : t = (t - z) / bs * bs + s.pos := by
        have := Nat.div_mul_le_self (t - z) bs
        rw [hpos]; unfold posOf; omega
      rw [show t + (bs - s.pos) = 0 + ((t - z) / bs + 1) * bs by rw [Nat.add_mul]; omega, Nat.add_mul_mod_self_right, Nat.zero_mod]
    rw [show t + data.length = t + (bs - s.pos) + (data.drop (bs - s.pos)).length by omega,
      posOf_boundary hbs _ _ hb0 (by rw [List.length_drop]; omega)]
    by_cases hge : (data.drop (bs - s.pos)).length ≥ bs + z
    · rw [if_pos hge]
    · rw [if_neg hge, small _ (by omega)]
      exact Nat.zero_add _
  · rw [if_neg hc]
    obtain ⟨s', e, l, i, p⟩ := absorbTail_at hbs hz hm hsz htr data s hmlen hinv hd (by
      rcases posOf_cases hbs hz t with ⟨h, -⟩ | ⟨h0, h1, h2, hb⟩ <;> omega)
    refine ⟨s', e, l, i, p.trans ?_⟩
    by_cases hge : data.length ≥ bs + z
    · rw [if_pos hge]
      rcases posOf_cases hbs hz t with ⟨h, hb⟩ | ⟨h0, h1, h2, hb⟩
      · have ht : t % bs = 0 := by
          unfold toBoundary at hb
          have := Nat.mod_lt t hbs
          by_cases h' : t % bs = 0
          · exact h'
          · rw [Nat.mod_eq_of_lt (by omega)] at hb; omega
        exact (posOf_boundary hbs _ _ ht (by omega)).symm
      · omega
    · rw [if_neg hge, hpos]
      exact (posOf_add_lt hbs hz t _ (by
        rcases posOf_cases hbs hz t with ⟨h, hb⟩ | ⟨h0, h1, h2, hb⟩ <;> omega)).symm

/-- **Any number of calls.** -/
theorem absorbs_eq {w ma bs z msize : Nat} {inv : σ → Prop} {tr : Bytes → Nat → Blk σ → M (Blk σ)} (hbs : 0 < bs) (hz : z ≤ 1) (hm : bs ≤ msize) (hsz : bs < 2 ^ 62)
    (hma : ma % w = 0) (htr : SafeTransform bs msize inv tr) (calls : List (Ptr × Bytes)) (hd : ∀ c ∈ calls, c.2.length < 2 ^ 63) (hp : ∀ c ∈ calls, c.1 = none → c.2 = []) :
    ∀ t s, At bs z msize inv t s →
      absorbsAt w ma bs (bs + z) tr calls s = outcome (faults w bs z t (calls.map fun c => (c.1, c.2.length))) (absorbs bs (bs + z) tr (calls.map (·.2)) s) := by
  induction calls with
  | nil => exact fun _ _ _ => rfl
  | cons c cs ih =>
    intro t s h
    obtain ⟨s', e, h'⟩ := absorb_at hbs hz hm hsz htr c.2 t s h (hd c (.head _))
    have e1 := absorb_eq hbs hz hm hsz hma htr c.1 c.2 t s h (hd c (.head _)) (hp c (.head _))
    have i := ih (fun x hx => hd x (.tail _ hx)) (fun x hx => hp x (.tail _ hx)) _ s' h'
    have u : absorbs bs (bs + z) tr ((c :: cs).map (·.2)) s = absorbs bs (bs + z) tr (cs.map (·.2)) s' := by
      unfold absorbs
      rw [List.map_cons, List.foldlM_cons, e]; rfl
    rw [u]
    show (absorbBytesAt w ma bs (bs + z) tr c.1 c.2 s >>= fun s => absorbsAt w ma bs (bs + z) tr cs s) = outcome ((fault w bs z t c.1 c.2.length).or _) _
    rw [e1, e]
    cases fault w bs z t c.1 c.2.length with
    | none => exact i
    | some f => cases f <;> rfl

end Digestpp.Proofs.Pointers
