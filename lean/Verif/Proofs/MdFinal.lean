import Verif.Model.MdFinal
import Verif.Spec.Md
import Verif.Proofs.Pad

/-! The common `final` of MD5, SHA-1, SHA-2 and SM3 appends Merkle–Damgård padding. -/

namespace Digestpp.Proofs
open Model Spec

variable {σ : Type}

/-- `transform(data, 1)` of a provider whose compression function does not look at the counters. -/
def IsCompress (bs : Nat) (inv : σ → Prop) (step : Bytes → σ → σ) (transform : Bytes → Nat → Blk σ → M (Blk σ)) : Prop :=
  (∀ b h, b.length = bs → inv h → inv (step b h)) ∧
  ∀ (s : Blk σ) (data : Bytes) (n : Nat), n * bs ≤ data.length → inv s.h →
    transform data n s = .ok { s with h := foldBlocks bs (fun _ b h => step b h) data n s.h }

theorem isCompress_of {bs : Nat} {inv : σ → Prop} {step : Bytes → σ → σ} {compress : Bytes → σ → M σ}
    {transform : Bytes → Nat → Blk σ → M (Blk σ)}
    (hc : ∀ b h, b.length = bs → inv h → compress b h = .ok (step b h) ∧ inv (step b h))
    (ht : ∀ data n s, transform data n s = (do
      let h ← forBlocks bs data n (fun _ b h => compress b h) s.h
      pure { s with h := h })) : IsCompress bs inv step transform := by
  refine ⟨fun b h hb hi => (hc b h hb hi).2, ?_⟩
  intro s data n hn hi
  rw [ht, forBlocks_ok (g := fun _ b h => step b h) (inv := inv) (fun _ b h => hc b h) data n s.h hn hi]
  rfl

theorem IsCompress.isTransform {bs msize : Nat} {inv : σ → Prop} {step : Bytes → σ → σ}
    {transform : Bytes → Nat → Blk σ → M (Blk σ)} (h : IsCompress bs inv step transform) :
    IsTransform bs msize inv (fun _ b h => step b h) transform := by
  intro s data n i hn hm hi _
  exact ⟨s.m, hm, h.2 s data n hn hi⟩

theorem IsCompress.one {bs : Nat} {inv : σ → Prop} {step : Bytes → σ → σ}
    {transform : Bytes → Nat → Blk σ → M (Blk σ)} (h : IsCompress bs inv step transform) (s : Blk σ) (m : Bytes)
    (hm : m.length = bs) (hi : inv s.h) : transform m 1 s = .ok { s with h := step m s.h } := by
  rw [h.2 s m 1 (by omega) hi, foldBlocks_one bs m s.h hm]

/-- Changing the representation of the chaining value. -/
theorem foldBlocks_conj {τ : Type} (f : τ → σ) {step' : Nat → Bytes → σ → σ} {step : Nat → Bytes → τ → τ}
    (h : ∀ i b t, step' i b (f t) = f (step i b t)) (bs : Nat) (msg : Bytes) (k : Nat) (t : τ) :
    foldBlocks bs step' msg k (f t) = f (foldBlocks bs step msg k t) := by
  unfold foldBlocks
  induction k with
  | zero => rfl
  | succ k ih =>
    rw [List.range_succ, List.foldl_append, List.foldl_append, ih]
    exact h _ _ _

theorem mod_eq_sub_div (n bs : Nat) : n - n / bs * bs = n % bs := by
  have := Nat.div_add_mod n bs
  have e : bs * (n / bs) = n / bs * bs := Nat.mul_comm _ _
  omega

theorem toMultiple_lt (bs p x : Nat) (h0 : 0 < x) (h : x ≤ bs) (n : Nat) (hp : (n + p) % bs = x % bs) :
    toMultiple bs (n + p) = bs - x := by
  unfold toMultiple
  rw [hp]
  by_cases hx : x = bs
  · subst hx; simp
  · rw [Nat.mod_eq_of_lt (show x < bs by omega)]
    exact Nat.mod_eq_of_lt (by omega)

theorem mdFinal_spec {bs limit fill lf : Nat} {inv : σ → Prop} {step : Bytes → σ → σ} {h0 : σ}
    {transform : Bytes → Nat → Blk σ → M (Blk σ)} {enc : BitVec 64 → Bytes}
    (hc : IsCompress bs inv step transform)
    (h8 : 8 ≤ lf) (hlf : lf < bs) (hlim : limit = bs - lf) (hfill : bs - 8 ≤ fill) (hfill' : fill ≤ bs)
    (hbs : bs < 2 ^ 62) (henc : ∀ x, (enc x).length = 8)
    (msg : Bytes) (s : Blk σ) (hb : Buffered bs 0 bs (fun _ b h => step b h) h0 msg s) (hi : inv h0) :
    let pad := mdPad bs (List.replicate (lf - 8) 0 ++ enc (BitVec.ofNat 64 (8 * msg.length))) msg
    ∃ s', mdFinal bs limit fill enc transform s = .ok s' ∧
      s'.h = foldBlocks bs (fun _ b h => step b h) pad (pad.length / bs) h0 ∧ s'.m.length = bs := by
  intro pad
  obtain ⟨p, hpd⟩ : ∃ p, p = msg.length % bs := ⟨_, rfl⟩
  obtain ⟨nb, hnbd⟩ : ∃ nb, nb = msg.length / bs := ⟨_, rfl⟩
  have hbs0 : 0 < bs := by omega
  have hp : p < bs := by rw [hpd]; exact Nat.mod_lt _ hbs0
  have hlen : msg.length = nb * bs + p := by rw [hpd, hnbd, Nat.mul_comm]; exact (Nat.div_add_mod _ _).symm
  have hpos : s.pos = p := by
    rw [hb.pos, Nat.sub_zero, mod_eq_sub_div, hpd]
  have htot : s.total + BitVec.ofNat 64 (s.pos * 8) = BitVec.ofNat 64 (8 * msg.length) := by
    rw [hb.total, ← BitVec.ofNat_add, Nat.sub_zero, ← hnbd, hpos, hlen]
    rw [show nb * bs * 8 + p * 8 = 8 * (nb * bs + p) by omega]
  have hsh : s.h = foldBlocks bs (fun _ b h => step b h) msg nb h0 := by
    rw [hb.h, Nat.sub_zero, hnbd]
  have hinv : inv s.h := by
    rw [hsh]
    exact foldBlocks_inv (fun _ b h => hc.1 b h) msg nb h0 (by omega) hi
  have hpfx : msg.drop (nb * bs) <+: s.m := by
    have := hb.pfx
    rwa [Nat.sub_zero, ← hnbd] at this
  have hdl : (msg.drop (nb * bs)).length = p := by simp; omega
  obtain ⟨tail, htl⟩ : ∃ tail, tail = msg.drop (nb * bs) := ⟨_, rfl⟩
  rw [← htl] at hpfx hdl
  obtain ⟨m1, e1, p1, l1⟩ := setByte_pfx s.m tail s.pos 0x80 hpfx (by omega) (by rw [hb.mlen]; omega)
  obtain ⟨L, hL⟩ : ∃ L, L = enc (BitVec.ofNat 64 (8 * msg.length)) := ⟨_, rfl⟩
  have hLl : L.length = 8 := by rw [hL]; exact henc _
  -- the tail of `final`, started with `q` bytes in the buffer
  have tailrun : ∀ (q : Bytes) (s1 : Blk σ), q <+: s1.m → s1.m.length = bs → s1.pos = q.length → q.length ≤ limit →
      inv s1.h → s1.total = BitVec.ofNat 64 (8 * msg.length) →
      ∃ s', mdFinalTail bs fill enc transform s1 = .ok s' ∧
        s'.h = step (q ++ List.replicate (bs - lf - q.length) 0 ++ (List.replicate (lf - 8) 0 ++ L)) s1.h ∧
        s'.m.length = bs := by
    intro q s1 hq hm hps hql hi1 ht1
    obtain ⟨m2, e2, p2, l2⟩ := memset_pfx s1.m q s1.pos 0 (fill - q.length) hq hps (by omega)
    obtain ⟨m3, e3, p3, l3⟩ := memcpyTo_pfx m2 _ L (bs - 8) p2 (by simp; omega) (by omega)
    have e4 : m3 = q ++ List.replicate (bs - lf - q.length) 0 ++ (List.replicate (lf - 8) 0 ++ L) := by
      rw [eq_of_pfx p3 (by simp; omega)]
      rw [List.take_append, List.take_of_length_le (by omega), List.take_replicate]
      rw [List.append_assoc, List.append_assoc, ← List.append_assoc (List.replicate _ _) (List.replicate _ _),
        List.replicate_append_replicate]
      congr 3; omega
    have e5 : mdFinalTail bs fill enc transform s1 = transform m3 1 { s1 with m := m3 } := by
      unfold mdFinalTail
      rw [szSub_eq _ _ (by omega) (by unfold szMod; omega), hps] at *
      rw [e2]
      show (memcpyTo m2 (bs - 8) (enc s1.total) >>= _) = _
      rw [ht1, ← hL, e3]; rfl
    refine ⟨{ s1 with m := m3, h := step m3 s1.h }, ?_, ?_, by show m3.length = bs; omega⟩
    · rw [e5]; exact hc.one { s1 with m := m3 } m3 (by omega) hi1
    · rw [e4]
  have padeq : pad = msg ++ ([0x80] ++ List.replicate (toMultiple bs (msg.length + 1 + lf)) 0 ++
      (List.replicate (lf - 8) 0 ++ L)) := by
    show mdPad _ _ _ = _
    unfold mdPad
    rw [← hL]
    have : (List.replicate (lf - 8) (0 : Byte) ++ L).length = lf := by simp; omega
    rw [this]
    simp only [List.append_assoc]
  have mfe : mdFinal bs limit fill enc transform s
      = (if s.pos + 1 > limit then do
          let m ← zeroRest bs m1 (s.pos + 1)
          let s ← transform m 1 { s with m := m, pos := s.pos + 1, total := BitVec.ofNat 64 (8 * msg.length) }
          mdFinalTail bs fill enc transform { s with pos := 0 }
        else mdFinalTail bs fill enc transform
          { s with m := m1, pos := s.pos + 1, total := BitVec.ofNat 64 (8 * msg.length) }) := by
    unfold mdFinal
    rw [htot, e1]; rfl
  rw [mfe]
  by_cases hcase : p + 1 + lf ≤ bs
  · -- one more block
    rw [if_neg (by omega)]
    obtain ⟨s', e', h', hm'⟩ := tailrun (tail ++ [0x80])
      { s with m := m1, pos := s.pos + 1, total := BitVec.ofNat 64 (8 * msg.length) } p1 (by rw [← hb.mlen]; exact l1)
      (by simp; omega) (by simp; omega) hinv rfl
    refine ⟨s', e', ?_, hm'⟩
    have hmul : toMultiple bs (msg.length + 1 + lf) = bs - lf - (p + 1) := by
      have := toMultiple_lt bs (p + 1 + lf) (p + 1 + lf) (by omega) hcase (nb * bs) (by
        rw [Nat.add_comm, Nat.add_mul_mod_self_right])
      rw [hlen, show nb * bs + p + 1 + lf = nb * bs + (p + 1 + lf) by omega, this]; omega
    have hpl : pad.length / bs = nb + 1 := by
      rw [padeq, hmul]
      simp only [List.length_append, List.length_replicate, List.length_cons, List.length_nil, hLl, hlen]
      rw [show nb * bs + p + (0 + 1 + (bs - lf - (p + 1)) + (lf - 8 + 8)) = bs + nb * bs by omega]
      rw [Nat.add_mul_div_right _ _ hbs0, Nat.div_self hbs0, Nat.add_comm]
    rw [hpl, padeq, h']
    rw [foldBlocks_last1 bs nb msg _ h0 _ (by omega) rfl (by
      rw [← htl]; simp [hmul, hLl]; omega)]
    rw [← hsh, ← htl, hmul]
    simp only [List.append_assoc, List.length_append, List.length_cons, List.length_nil, Nat.zero_add, hdl]
  · -- two more blocks
    rw [if_pos (by omega)]
    have hm2 : ∃ m2, zeroRest bs m1 (s.pos + 1) = Except.ok m2 ∧
        m2 = tail ++ [0x80] ++ List.replicate (bs - (p + 1)) 0 := by
      by_cases hx : s.pos + 1 = bs
      · refine ⟨m1, ?_, ?_⟩
        · rw [zeroRest, if_neg (by simp [hx])]; rfl
        · rw [eq_of_pfx p1 (by simp; rw [l1, hb.mlen]; omega)]
          rw [show bs - (p + 1) = 0 by omega]; simp
      · obtain ⟨m2, e2, p2, l2⟩ := memset_pfx m1 (tail ++ [0x80]) (s.pos + 1) 0 (bs - (s.pos + 1)) p1 (by simp; omega)
          (by simp; rw [l1, hb.mlen]; omega)
        refine ⟨m2, ?_, ?_⟩
        · rw [zeroRest, if_pos hx, szSub_eq _ _ (by omega) (by unfold szMod; omega), e2]
        · rw [eq_of_pfx p2 (by simp; rw [l2, l1, hb.mlen]; omega), hpos]
    obtain ⟨m2, e2, hm2⟩ := hm2
    have hm2l : m2.length = bs := by rw [hm2]; simp; omega
    rw [e2]
    have t1 := hc.one { s with m := m2, pos := s.pos + 1, total := BitVec.ofNat 64 (8 * msg.length) } m2 hm2l hinv
    obtain ⟨s', e', h', hm'⟩ := tailrun []
      { s with h := step m2 s.h, m := m2, pos := 0, total := BitVec.ofNat 64 (8 * msg.length) }
      List.nil_prefix hm2l rfl (Nat.zero_le _) (hc.1 _ _ hm2l hinv) rfl
    refine ⟨s', ?_, ?_, hm'⟩
    · show (transform m2 1 _ >>= _) = _
      rw [t1, ok_bind]; exact e'
    have hmul : toMultiple bs (msg.length + 1 + lf) = bs - (p + 1 + lf - bs) := by
      have := toMultiple_lt bs (p + 1 + lf) (p + 1 + lf - bs) (by omega) (by omega) (nb * bs) (by
        rw [Nat.add_comm, Nat.add_mul_mod_self_right]
        conv => lhs; rw [show p + 1 + lf = (p + 1 + lf - bs) + bs by omega]
        rw [Nat.add_mod_right])
      rw [hlen, show nb * bs + p + 1 + lf = nb * bs + (p + 1 + lf) by omega, this]
    have hpl : pad.length / bs = nb + 2 := by
      rw [padeq, hmul]
      simp only [List.length_append, List.length_replicate, List.length_cons, List.length_nil, hLl, hlen]
      rw [show nb * bs + p + (0 + 1 + (bs - (p + 1 + lf - bs)) + (lf - 8 + 8)) = (nb + 2) * bs by
        rw [Nat.add_mul]; omega]
      rw [Nat.mul_div_cancel _ hbs0]
    rw [hpl, padeq, h']
    rw [foldBlocks_last2 bs nb msg _ h0 (tail ++ [0x80] ++ List.replicate (bs - (p + 1)) 0)
      (List.replicate (bs - lf) 0 ++ (List.replicate (lf - 8) 0 ++ L)) (by omega) ?_ (by simp; omega) (by simp; omega)]
    · rw [← hsh, ← hm2]
      simp
    · rw [← htl, hmul]
      simp only [List.append_assoc]
      rw [← List.append_assoc (List.replicate (bs - (p + 1)) _), List.replicate_append_replicate]
      rw [show bs - (p + 1 + lf - bs) = bs - (p + 1) + (bs - lf) by omega]

end Digestpp.Proofs
