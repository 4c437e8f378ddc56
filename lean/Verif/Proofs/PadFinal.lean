import Verif.Proofs.MdFinal

/-! `final` functions that append `0x80`, zeros, and a length field, spilling to a second block if necessary; the buffer may be longer
than a block. -/

namespace Digestpp.Proofs
open Model Spec

variable {σ : Type}

theorem IsCompress.first {bs : Nat} {inv : σ → Prop} {step : Bytes → σ → σ}
    {transform : Bytes → Nat → Blk σ → M (Blk σ)} (h : IsCompress bs inv step transform) (s : Blk σ) (m x : Bytes)
    (hx : x <+: m) (hl : x.length = bs) (hi : inv s.h) : transform m 1 s = .ok { s with h := step x s.h } := by
  have := hx.length_le
  rw [h.2 s m 1 (by omega) hi]
  have e : blockAt bs 0 m = x := by
    obtain ⟨r, rfl⟩ := hx
    simp [blockAt, ← hl]
  simp only [foldBlocks, List.range_one, List.foldl_cons, List.foldl_nil, e]

/-- The common beginning of `final`. -/
def spillPad (bs limit : Nat) (transform : Bytes → Nat → Blk σ → M (Blk σ)) (t1 : BitVec 64) (t2 : BitVec 64 → BitVec 64)
    (tail : Blk σ → M (Blk σ)) (s : Blk σ) : M (Blk σ) := do
  let m ← setByte s.m s.pos 0x80
  if s.pos + 1 > limit then do
    let m ← zeroRest bs m (s.pos + 1)
    let s ← transform m 1 { s with m := m, pos := s.pos + 1, total := t1 }
    tail { s with pos := 0, total := t2 s.total }
  else tail { s with m := m, pos := s.pos + 1, total := t1 }

theorem spillPad_spec {bs msize limit lf : Nat} {inv : σ → Prop} {step : Bytes → σ → σ} {h0 : σ}
    {transform : Bytes → Nat → Blk σ → M (Blk σ)} {t1 : BitVec 64} {t2 : BitVec 64 → BitVec 64} {tail : Blk σ → M (Blk σ)}
    (hc : IsCompress bs inv step transform)
    (hlf : lf < bs) (hlim : limit = bs - lf) (hbs : bs < 2 ^ 62) (hms : bs ≤ msize) (L : Bytes) (hLl : L.length = lf)
    (msg : Bytes) (s : Blk σ) (hb : Buffered bs 0 msize (fun _ b h => step b h) h0 msg s) (hi : inv h0)
    (htail : ∀ (q : Bytes) (s1 : Blk σ), q <+: s1.m → s1.m.length = msize → s1.pos = q.length → inv s1.h →
      (msg.length % bs + 1 + lf ≤ bs ∧ q.length = msg.length % bs + 1 ∧ s1.total = t1 ∨
        ¬ msg.length % bs + 1 + lf ≤ bs ∧ q.length = 0 ∧ s1.total = t2 t1) →
      ∃ s', tail s1 = .ok s' ∧ s'.h = step (q ++ List.replicate (bs - lf - q.length) 0 ++ L) s1.h ∧ s'.m.length = msize) :
    let pad := mdPad bs L msg
    ∃ s', spillPad bs limit transform t1 t2 tail s = .ok s' ∧
      s'.h = foldBlocks bs (fun _ b h => step b h) pad (pad.length / bs) h0 ∧ s'.m.length = msize := by
  intro pad
  obtain ⟨p, hpd⟩ : ∃ p, p = msg.length % bs := ⟨_, rfl⟩
  obtain ⟨nb, hnbd⟩ : ∃ nb, nb = msg.length / bs := ⟨_, rfl⟩
  rw [← hpd] at htail
  have hbs0 : 0 < bs := by omega
  have hp : p < bs := by rw [hpd]; exact Nat.mod_lt _ hbs0
  have hlen : msg.length = nb * bs + p := by rw [hpd, hnbd, Nat.mul_comm]; exact (Nat.div_add_mod _ _).symm
  have hpos : s.pos = p := by
    rw [hb.pos, Nat.sub_zero, mod_eq_sub_div, hpd]
  have hsh : s.h = foldBlocks bs (fun _ b h => step b h) msg nb h0 := by
    rw [hb.h, Nat.sub_zero, hnbd]
  have hinv : inv s.h := by
    rw [hsh]
    exact foldBlocks_inv (fun _ b h => hc.1 b h) msg nb h0 (by omega) hi
  have hpfx : msg.drop (nb * bs) <+: s.m := by
    have := hb.pfx
    rwa [Nat.sub_zero, ← hnbd] at this
  have hdl : (msg.drop (nb * bs)).length = p := by simp; omega
  obtain ⟨tl, htl⟩ : ∃ tl, tl = msg.drop (nb * bs) := ⟨_, rfl⟩
  rw [← htl] at hpfx hdl
  obtain ⟨m1, e1, p1, l1⟩ := setByte_pfx s.m tl s.pos 0x80 hpfx (by omega) (by rw [hb.mlen]; omega)
  have hml := hb.mlen
  have padeq : pad = msg ++ ([0x80] ++ List.replicate (toMultiple bs (msg.length + 1 + lf)) 0 ++ L) := by
    show mdPad _ _ _ = _
    unfold mdPad
    rw [hLl]
    simp only [List.append_assoc]
  have mfe : spillPad bs limit transform t1 t2 tail s
      = (if s.pos + 1 > limit then do
          let m ← zeroRest bs m1 (s.pos + 1)
          let s ← transform m 1 { s with m := m, pos := s.pos + 1, total := t1 }
          tail { s with pos := 0, total := t2 s.total }
        else tail { s with m := m1, pos := s.pos + 1, total := t1 }) := by
    unfold spillPad
    rw [e1]; rfl
  rw [mfe]
  by_cases hcase : p + 1 + lf ≤ bs
  · -- one more block
    rw [if_neg (by omega)]
    obtain ⟨s', e', h', hm'⟩ := htail (tl ++ [0x80])
      { s with m := m1, pos := s.pos + 1, total := t1 } p1 (by rw [← hb.mlen]; exact l1)
      (by simp; omega) hinv (Or.inl ⟨hcase, by simp; omega, rfl⟩)
    refine ⟨s', e', ?_, hm'⟩
    have hmul : toMultiple bs (msg.length + 1 + lf) = bs - lf - (p + 1) := by
      have := toMultiple_lt bs (p + 1 + lf) (p + 1 + lf) (by omega) hcase (nb * bs) (by
        rw [Nat.add_comm, Nat.add_mul_mod_self_right])
      rw [hlen, show nb * bs + p + 1 + lf = nb * bs + (p + 1 + lf) by omega, this]; omega
    have hpl : pad.length / bs = nb + 1 := by
      rw [padeq, hmul]
      simp only [List.length_append, List.length_replicate, List.length_cons, List.length_nil, hLl, hlen]
      rw [show nb * bs + p + (0 + 1 + (bs - lf - (p + 1)) + lf) = bs + nb * bs by omega]
      rw [Nat.add_mul_div_right _ _ hbs0, Nat.div_self hbs0, Nat.add_comm]
    rw [hpl, padeq, h']
    rw [foldBlocks_last1 bs nb msg _ h0 _ (by omega) rfl (by
      rw [← htl]; simp [hmul, hLl]; omega)]
    rw [← hsh, ← htl, hmul]
    simp only [List.append_assoc, List.length_append, List.length_cons, List.length_nil, Nat.zero_add, hdl]
  · -- two more blocks
    rw [if_pos (by omega)]
    have hm2 : ∃ m2, zeroRest bs m1 (s.pos + 1) = Except.ok m2 ∧
        tl ++ [0x80] ++ List.replicate (bs - (p + 1)) 0 <+: m2 ∧ m2.length = msize := by
      by_cases hx : s.pos + 1 = bs
      · refine ⟨m1, ?_, ?_, by omega⟩
        · rw [zeroRest, if_neg (by simp [hx])]; rfl
        · rw [show bs - (p + 1) = 0 by omega]; simpa using p1
      · obtain ⟨m2, e2, p2, l2⟩ := memset_pfx m1 (tl ++ [0x80]) (s.pos + 1) 0 (bs - (s.pos + 1)) p1 (by simp; omega)
          (by simp; rw [l1, hb.mlen]; omega)
        refine ⟨m2, ?_, ?_, by omega⟩
        · rw [zeroRest, if_pos hx, szSub_eq _ _ (by omega) (by unfold szMod; omega), e2]
        · rw [hpos] at p2; exact p2
    obtain ⟨m2, e2, hm2, hm2l⟩ := hm2
    rw [e2]
    have hxl : (tl ++ [0x80#8] ++ List.replicate (bs - (p + 1)) 0#8).length = bs := by simp; omega
    have t1' := hc.first { s with m := m2, pos := s.pos + 1, total := t1 } m2 _ hm2 hxl hinv
    obtain ⟨s', e', h', hm'⟩ := htail []
      { s with h := step (tl ++ [0x80] ++ List.replicate (bs - (p + 1)) 0) s.h, m := m2, pos := 0, total := t2 t1 }
      List.nil_prefix hm2l rfl (hc.1 _ _ hxl hinv) (Or.inr ⟨hcase, rfl, rfl⟩)
    refine ⟨s', ?_, ?_, hm'⟩
    · show (transform m2 1 _ >>= _) = _
      rw [t1', ok_bind]; exact e'
    have hmul : toMultiple bs (msg.length + 1 + lf) = bs - (p + 1 + lf - bs) := by
      have := toMultiple_lt bs (p + 1 + lf) (p + 1 + lf - bs) (by omega) (by omega) (nb * bs) (by
        rw [Nat.add_comm, Nat.add_mul_mod_self_right]
        conv => lhs; rw [show p + 1 + lf = (p + 1 + lf - bs) + bs by omega]
        rw [Nat.add_mod_right])
      rw [hlen, show nb * bs + p + 1 + lf = nb * bs + (p + 1 + lf) by omega, this]
    have hpl : pad.length / bs = nb + 2 := by
      rw [padeq, hmul]
      simp only [List.length_append, List.length_replicate, List.length_cons, List.length_nil, hLl, hlen]
      rw [show nb * bs + p + (0 + 1 + (bs - (p + 1 + lf - bs)) + lf) = (nb + 2) * bs by
        rw [Nat.add_mul]; omega]
      rw [Nat.mul_div_cancel _ hbs0]
    rw [hpl, padeq, h']
    rw [foldBlocks_last2 bs nb msg _ h0 (tl ++ [0x80] ++ List.replicate (bs - (p + 1)) 0)
      (List.replicate (bs - lf) 0 ++ L) (by omega) ?_ hxl (by simp; omega)]
    · rw [← hsh]
      simp
    · rw [← htl, hmul]
      simp only [List.append_assoc]
      rw [← List.append_assoc (List.replicate (bs - (p + 1)) _), List.replicate_append_replicate]
      rw [show bs - (p + 1 + lf - bs) = bs - (p + 1) + (bs - lf) by omega]

end Digestpp.Proofs
