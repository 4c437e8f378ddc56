import Verif.Proofs.MdFinal

/-! `final` functions that append one byte and zeros up to the end of the block. -/

namespace Digestpp.Proofs
open Model Spec

variable {σ : Type}

/-- Two block functions run in step. -/
theorem foldBlocks_rel {τ : Type} (R : σ → τ → Prop) {step : Nat → Bytes → σ → σ} {step' : Nat → Bytes → τ → τ} (bs : Nat)
    (msg : Bytes) (k : Nat) (hk : k * bs ≤ msg.length) (h : ∀ i, i < k → ∀ b s t, b.length = bs → R s t → R (step i b s) (step' i b t))
    (s : σ) (t : τ) (h0 : R s t) : R (foldBlocks bs step msg k s) (foldBlocks bs step' msg k t) := by
  induction k with
  | zero => simpa only [foldBlocks, List.range_zero, List.foldl_nil] using h0
  | succ k ih =>
    rw [foldBlocks_succ (step := step), foldBlocks_succ (step := step')]
    exact h k (by omega) _ _ _ (length_blockAt _ _ _ hk)
      (ih (Nat.le_trans (Nat.mul_le_mul_right _ (Nat.le_succ k)) hk) fun i hi => h i (by omega))

/-- The padded last block `x` at the beginning of the buffer, and what compressing it amounts to. -/
theorem padOne_specM {bs msize : Nat} {step : Nat → Bytes → σ → σ} {h0 : σ} (v : Byte) (hbs : 0 < bs) (hbs' : bs < 2 ^ 62)
    (hms : bs ≤ msize) (msg : Bytes) (s : Blk σ) (hb : Buffered bs 0 msize step h0 msg s) :
    let pad := msg ++ [v] ++ List.replicate (toMultiple bs (msg.length + 1)) 0
    ∃ m1 m2 x, setByte s.m s.pos v = .ok m1 ∧ zeroRest bs m1 (s.pos + 1) = .ok m2 ∧ m2.length = msize ∧ x <+: m2 ∧ x.length = bs ∧
      pad.length = (msg.length / bs + 1) * bs ∧
      step (msg.length / bs) x s.h = foldBlocks bs step pad (pad.length / bs) h0 := by
  intro pad
  obtain ⟨p, hpd⟩ : ∃ p, p = msg.length % bs := ⟨_, rfl⟩
  obtain ⟨nb, hnbd⟩ : ∃ nb, nb = msg.length / bs := ⟨_, rfl⟩
  have hp : p < bs := by rw [hpd]; exact Nat.mod_lt _ hbs
  have hlen : msg.length = nb * bs + p := by rw [hpd, hnbd, Nat.mul_comm]; exact (Nat.div_add_mod _ _).symm
  have hpos : s.pos = p := by rw [hb.pos, Nat.sub_zero, mod_eq_sub_div, hpd]
  have hsh : s.h = foldBlocks bs step msg nb h0 := by rw [hb.h, Nat.sub_zero, hnbd]
  have hpfx : msg.drop (nb * bs) <+: s.m := by
    have := hb.pfx
    rwa [Nat.sub_zero, ← hnbd] at this
  have hdl : (msg.drop (nb * bs)).length = p := by simp; omega
  have hml := hb.mlen
  rw [← hnbd]
  obtain ⟨m1, e1, p1, l1⟩ := setByte_pfx s.m _ s.pos v hpfx (by omega) (by omega)
  obtain ⟨x, hx⟩ : ∃ x, x = msg.drop (nb * bs) ++ [v] ++ List.replicate (bs - (p + 1)) 0 := ⟨_, rfl⟩
  have hz : ∃ m2, zeroRest bs m1 (s.pos + 1) = .ok m2 ∧ m2.length = msize ∧ x <+: m2 := by
    unfold zeroRest
    by_cases h64 : s.pos + 1 = bs
    · rw [if_neg (by omega)]
      refine ⟨m1, rfl, by omega, ?_⟩
      rw [hx, show bs - (p + 1) = 0 by omega, List.replicate_zero, List.append_nil]
      exact p1
    · rw [if_pos h64, szSub_eq _ _ (by omega) (by unfold szMod; omega)]
      obtain ⟨m2, e2, p2, l2⟩ := memset_pfx m1 _ (s.pos + 1) 0 (bs - (p + 1)) p1 (by simp; omega) (by simp; omega)
      rw [hpos] at e2 ⊢
      exact ⟨m2, e2, by omega, by rw [hx]; exact p2⟩
  obtain ⟨m2, e2, hm2, hxm⟩ := hz
  have hxl : x.length = bs := by rw [hx]; simp; omega
  have hpad : pad = msg ++ ([v] ++ List.replicate (bs - (p + 1)) 0) := by
    show msg ++ [v] ++ _ = _
    have e : (bs - (nb * bs + p + 1) % bs) % bs = bs - (p + 1) := by
      rw [Nat.add_assoc, Nat.mul_comm, Nat.mul_add_mod]
      by_cases h : p + 1 = bs
      · rw [h, Nat.mod_self, Nat.sub_zero, Nat.mod_self, Nat.sub_self]
      · rw [Nat.mod_eq_of_lt (show p + 1 < bs by omega), Nat.mod_eq_of_lt (by omega)]
    unfold toMultiple
    rw [hlen, e, List.append_assoc]
  have hpl : pad.length = (nb + 1) * bs := by rw [hpad, Nat.add_mul]; simp; omega
  refine ⟨m1, m2, x, e1, e2, hm2, hxm, hxl, hpl, ?_⟩
  have := foldBlocks_last1 (step := step) bs nb msg ([v] ++ List.replicate (bs - (p + 1)) 0) h0 x (by omega)
    (by rw [hx, List.append_assoc]) hxl
  rw [hpl, Nat.mul_div_cancel _ hbs, hpad, this, hsh]

/-- The same if the buffer is one block. -/
theorem padOne_spec {bs : Nat} {step : Nat → Bytes → σ → σ} {h0 : σ} (v : Byte) (hbs : 0 < bs) (hbs' : bs < 2 ^ 62) (msg : Bytes)
    (s : Blk σ) (hb : Buffered bs 0 bs step h0 msg s) :
    let pad := msg ++ [v] ++ List.replicate (toMultiple bs (msg.length + 1)) 0
    ∃ m1 m2, setByte s.m s.pos v = .ok m1 ∧ zeroRest bs m1 (s.pos + 1) = .ok m2 ∧ m2.length = bs ∧
      pad.length = (msg.length / bs + 1) * bs ∧
      step (msg.length / bs) m2 s.h = foldBlocks bs step pad (pad.length / bs) h0 := by
  intro pad
  obtain ⟨m1, m2, x, e1, e2, hm2, hxm, hxl, hpl, e⟩ := padOne_specM v hbs hbs' (Nat.le_refl _) msg s hb
  rw [← eq_of_pfx hxm (by omega)] at e
  exact ⟨m1, m2, e1, e2, hm2, hpl, e⟩

end Digestpp.Proofs
