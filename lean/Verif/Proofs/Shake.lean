import Verif.Model.Shake
import Verif.Proofs.KeccakPad
import Verif.Proofs.Sha3
import Verif.Proofs.Api

/-! The SHAKE provider absorbs and squeezes as a sponge. -/

namespace Digestpp.Proofs
open Model Spec

theorem slice_append (f : Nat → Byte) (a n k : Nat) : slice f a n ++ slice f (a + n) k = slice f a (n + k) := by
  unfold slice
  rw [List.range_add, List.map_append, List.map_map]
  congr 1
  apply List.map_congr_left
  intro i _
  simp only [Function.comp, Nat.add_assoc]

theorem slice_nil (f : Nat → Byte) (a : Nat) : slice f a 0 = [] := rfl

theorem iter_succ {α : Type} (f : α → α) (n : Nat) (a : α) : Spec.Keccak.iter f (n + 1) a = f (Spec.Keccak.iter f n a) := by
  induction n generalizing a with
  | zero => rfl
  | succ n ih => exact ih (f a)

namespace Keccak

theorem length_iter (R n : Nat) (A : List (BitVec 64)) (h : A.length = 25) :
    (Spec.Keccak.iter (Spec.Keccak.keccakP R) n A).length = 25 := by
  induction n generalizing A with
  | zero => exact h
  | succ n ih => exact ih _ (length_keccakP R A h)

theorem length_absorb_padD (R r : Nat) (d : Byte) (msg : Bytes) (hr : 0 < r) :
    (Spec.Keccak.absorb R r (Spec.Keccak.padD r d msg)).length = 25 := by
  rw [absorb_padD R r d msg hr]
  exact length_step _ _ _

/-- Reading from the state gives a slice of the output stream. -/
theorem read_state (R r : Nat) (hr0 : 0 < r) (hr : r ≤ 200) (A0 : List (BitVec 64)) (h0 : A0.length = 25) (q k : Nat)
    (hk : q % r + k ≤ r) :
    readBytes (stores64 (Spec.Keccak.iter (Spec.Keccak.keccakP R) (q / r) A0)) (q % r) k
      = .ok (slice (Spec.Keccak.squeeze R r A0) q k) := by
  obtain ⟨B, hB⟩ : ∃ B, B = stores64 (Spec.Keccak.iter (Spec.Keccak.keccakP R) (q / r) A0) := ⟨_, rfl⟩
  have hl : B.length = 200 := by rw [hB, stores64_eq, length_ofLeWords, length_iter R _ A0 h0]
  rw [← hB, readBytes_ok _ _ _ (by omega), ← map_getD_take _ 0 _ (by rw [List.length_drop]; omega)]
  congr 1
  unfold slice
  apply List.map_congr_left
  intro i hi
  rw [List.mem_range] at hi
  unfold Spec.Keccak.squeeze
  have h1 : (q + i) / r = q / r := by
    rw [Nat.div_eq_iff hr0]
    have := Nat.div_add_mod q r
    rw [Nat.mul_comm] at this
    omega
  have h2 : (q + i) % r = q % r + i := by
    have e1 := Nat.div_add_mod (q + i) r
    have e2 := Nat.div_add_mod q r
    rw [h1] at e1
    omega
  rw [h1, h2, ← stores64_eq, ← hB]
  simp only [List.getD_eq_getElem?_getD, List.getElem?_drop]

end Keccak

namespace Shake
open Model.Shake (St)

/-- Absorbing a block, on the provider's fields. -/
def step (R : Nat) (b : Bytes) (h : St) : St := ⟨Keccak.step R b h.A, h.N, h.S, h.squeezing, h.suffix⟩

/-- The fields before anything is absorbed. -/
def h0 (N S : Bytes) (suf : Byte) : St := ⟨List.replicate 25 0, N, S, false, suf⟩

theorem fold_eq (R r : Nat) (msg : Bytes) (k : Nat) (A : List (BitVec 64)) (N S : Bytes) (q : Bool) (suf : Byte) :
    foldBlocks r (fun _ => step R) msg k ⟨A, N, S, q, suf⟩ = ⟨foldBlocks r (fun _ => Keccak.step R) msg k A, N, S, q, suf⟩ :=
  foldBlocks_conj (fun A : List (BitVec 64) => (⟨A, N, S, q, suf⟩ : St)) (step' := fun _ => step R)
    (step := fun _ => Keccak.step R) (fun _ _ _ => rfl) r msg k A

theorem isTransform (R r : Nat) (hR : R ≤ 24) (h8 : r % 8 = 0) (hr : r ≤ 168) :
    IsTransform r 168 (fun h : St => h.A.length = 25) (fun _ => step R) (Model.Shake.onBlocks R (8 * r)) := by
  intro s data n i hn hm hi _
  obtain ⟨⟨A, N, S, q, suf⟩, m, pos, total⟩ := s
  dsimp only at hi hm
  refine ⟨m, hm, ?_⟩
  unfold Model.Shake.onBlocks
  dsimp only
  rw [Keccak.transform_eq R r hR h8 (by omega) data n A hn hi, ok_bind, fold_eq]
  rfl

/-- `s` has strings `N`, `S`, suffix `suf`, and has absorbed `raw`. -/
def Absorbing (R r : Nat) (N S : Bytes) (suf : Byte) (raw : Bytes) (s : Blk St) : Prop :=
  Buffered r 0 168 (fun _ => step R) (h0 N S suf) raw s

/-- `s` has strings `N`, `S` and has given `n > 0` bytes of the output that begins with the state `A0`. -/
structure Squeezing (R r : Nat) (N S : Bytes) (A0 : List (BitVec 64)) (n : Nat) (s : Blk St) : Prop where
  n_pos : 0 < n
  A0len : A0.length = 25
  mlen : s.m.length = 168
  A : s.h.A = Spec.Keccak.iter (Spec.Keccak.keccakP R) ((n - 1) / r) A0
  pos : s.pos = (n - 1) % r + 1
  N : s.h.N = N
  S : s.h.S = S
  sq : s.h.squeezing = true

theorem Absorbing.fields {R r : Nat} {N S raw : Bytes} {suf : Byte} {s : Blk St} (h : Absorbing R r N S suf raw s) :
    s.h = ⟨foldBlocks r (fun _ => Keccak.step R) raw (raw.length / r) (List.replicate 25 0), N, S, false, suf⟩ := by
  have := h.h
  rwa [h0, fold_eq, Nat.sub_zero] at this

theorem update_ok {R r : Nat} (hR : R ≤ 24) (h8 : r % 8 = 0) (hr0 : 0 < r) (hr : r ≤ 168) {N S raw : Bytes} {suf : Byte}
    {s : Blk St} (data : Bytes) (h : Absorbing R r N S suf raw s) (hd : data.length < 2 ^ 63) :
    ∃ s', Model.Shake.update R (8 * r) data s = .ok s' ∧ Absorbing R r N S suf (raw ++ data) s' := by
  unfold Model.Shake.update
  rw [show 8 * r / 8 = r by omega]
  exact absorbBytes_spec hr0 (by omega) hr (by omega) (isTransform R r hR h8 hr)
    (fun _ b h _ hi => Keccak.length_step _ _ _) (by simp [h0]) raw data s h hd

theorem initFields_ok (R r : Nat) (s : Blk St) (hm : s.m.length = 168) :
    Absorbing R r s.h.N s.h.S 0 [] (Model.Shake.initFields s) :=
  Buffered.start _ _ hm rfl rfl rfl

theorem setSuffix_ok {R r : Nat} {N S raw : Bytes} {suf : Byte} {s : Blk St} (v : Byte) (h : Absorbing R r N S suf raw s) :
    Absorbing R r N S v raw (Model.Shake.setSuffix v s) := by
  have hf := h.fields
  obtain ⟨hh, m, pos, total⟩ := s
  dsimp only at hf
  subst hf
  refine ⟨h.mlen, h.pos, ?_, h.total, h.buf⟩
  rw [h0, fold_eq]
  rfl

theorem loop_ok (R r : Nat) (hR : R ≤ 24) (hr0 : 0 < r) (hr : r ≤ 200) (A0 : List (BitVec 64)) (hA0 : A0.length = 25)
    (n0 hs : Nat) (N S : Bytes) (q : Bool) (suf : Byte) (m : Bytes) (t : BitVec 64) (fuel : Nat) :
    ∀ (p : Nat) (A : List (BitVec 64)) (pos : Nat), hs - p ≤ fuel → p < hs → A.length = 25 → (n0 + p) % r = 0 →
    (if p ≠ 0 then Spec.Keccak.keccakP R A else A) = Spec.Keccak.iter (Spec.Keccak.keccakP R) ((n0 + p) / r) A0 →
    ∃ s', Model.Shake.squeezeLoop R r hs fuel (slice (Spec.Keccak.squeeze R r A0) n0 p) ⟨⟨A, N, S, q, suf⟩, m, pos, t⟩
      = .ok (slice (Spec.Keccak.squeeze R r A0) n0 hs, s') ∧
      s' = ⟨⟨Spec.Keccak.iter (Spec.Keccak.keccakP R) ((n0 + hs - 1) / r) A0, N, S, q, suf⟩, m, (n0 + hs - 1) % r + 1, t⟩ := by
  induction fuel with
  | zero => intro p A pos h1 h2; omega
  | succ fuel ih =>
    intro p A pos hf hp hA hq hAi
    have hq1 := Nat.div_add_mod (n0 + p) r
    rw [hq, Nat.add_zero] at hq1
    unfold Model.Shake.squeezeLoop
    rw [length_slice, if_pos hp]
    dsimp only
    have hA' : (if p ≠ 0 then Model.Sha3.permute R A else A) = Spec.Keccak.iter (Spec.Keccak.keccakP R) ((n0 + p) / r) A0 := by
      rw [← hAi]; congr 1; exact Keccak.permute_eq R hR A hA
    rw [hA']
    have hrd := Keccak.read_state R r hr0 hr A0 hA0 (n0 + p) (min (hs - p) r) (by rw [hq]; omega)
    rw [hq] at hrd
    rw [hrd, ok_bind, slice_append]
    by_cases hle : hs - p ≤ r
    · rw [Nat.min_eq_left hle, show p + (hs - p) = hs by omega]
      have hdone : ∀ s : Blk St, Model.Shake.squeezeLoop R r hs fuel (slice (Spec.Keccak.squeeze R r A0) n0 hs) s
          = .ok (slice (Spec.Keccak.squeeze R r A0) n0 hs, s) := by
        intro s
        cases fuel with
        | zero => rfl
        | succ f =>
          unfold Model.Shake.squeezeLoop
          rw [length_slice, if_neg (by omega)]; rfl
      rw [hdone]
      refine ⟨_, rfl, ?_⟩
      have e1 : (n0 + hs - 1) / r = (n0 + p) / r := by
        rw [Nat.div_eq_iff hr0, Nat.mul_comm]
        omega
      have e2 : (n0 + hs - 1) % r + 1 = hs - p := by
        have := Nat.div_add_mod (n0 + hs - 1) r
        rw [e1] at this
        omega
      rw [e1, e2]
    · rw [Nat.min_eq_right (by omega)]
      have hnx : n0 + (p + r) = n0 + p + r := by omega
      obtain ⟨s', e, hs'⟩ := ih (p + r) (Spec.Keccak.iter (Spec.Keccak.keccakP R) ((n0 + p) / r) A0) r (by omega) (by omega)
        (Keccak.length_iter R _ A0 hA0) (by rw [hnx, Nat.add_mod_right]; exact hq)
        (by rw [if_pos (by omega), hnx, Nat.add_div_right _ hr0, iter_succ])
      exact ⟨s', e, hs'⟩

/-- The first padding byte. -/
theorem domain_eq (h : St) : Model.Shake.domain h
    = if h.suffix ≠ 0 then h.suffix else if h.N = [] ∧ h.S = [] then 0x1f else 0x04 := by
  unfold Model.Shake.domain
  simp only [Bool.and_eq_true, List.isEmpty_iff]

/-- The part of the first squeeze before the loop. -/
theorem squeezeFirst_ok {R r : Nat} (hR : R ≤ 24) (h8 : r % 8 = 0) (hr0 : 0 < r) (hr : r ≤ 168) {N S raw : Bytes} {suf d : Byte}
    {s : Blk St} (k : Nat) (hd : d = if suf ≠ 0 then suf else if N = [] ∧ S = [] then 0x1f else 0x04)
    (hdx : d ||| 0x80 = d ^^^ 0x80) (h : Absorbing R r N S suf raw s) :
    ∃ m', m'.length = 168 ∧ Model.Shake.squeezeFirst R (8 * r) k s
      = .ok ([], ⟨⟨Spec.Keccak.absorb R r (Spec.Keccak.padD r d raw), N, S, true, suf⟩, m', raw.length % r + 1, s.total⟩) := by
  have hh := h.fields
  have hpfx := Buffered.pfx h
  have hpos := h.pos
  have hml := h.mlen
  rw [Nat.sub_zero] at hpfx hpos
  obtain ⟨hs, m, pos, total⟩ := s
  dsimp only at hh hpfx hpos hml
  subst hh
  have hlt := Nat.mod_lt raw.length hr0
  have hdiv := mod_eq_sub_div raw.length r
  have hpl : (raw.drop (raw.length / r * r)).length = pos := by rw [hpos, List.length_drop]
  obtain ⟨m', e, hm'⟩ := Keccak.padLast_eq R r hR h8 (by omega) d hdx m _ _ hpfx
    (by rw [hpl, hpos, hdiv]; exact hlt) (by omega) (Sha3.length_foldBlocks R r raw (raw.length / r))
  rw [hpl, ← Keccak.absorb_padD R r d raw hr0] at e
  refine ⟨m', by rw [hm', hml], ?_⟩
  unfold Model.Shake.squeezeFirst
  dsimp only
  rw [if_pos (show (!false) = true from rfl), domain_eq, ← hd, e, ok_bind]
  rw [show raw.length % r = pos by rw [hpos, hdiv]]
  rfl

/-- The first squeeze. -/
theorem squeeze_first {R r : Nat} (hR : R ≤ 24) (h8 : r % 8 = 0) (hr0 : 0 < r) (hr : r ≤ 168) {N S raw : Bytes} {suf d : Byte}
    {s : Blk St} (k : Nat) (hk : 0 < k) (hd : d = if suf ≠ 0 then suf else if N = [] ∧ S = [] then 0x1f else 0x04)
    (hdx : d ||| 0x80 = d ^^^ 0x80) (h : Absorbing R r N S suf raw s) :
    ∃ s', Model.Shake.squeeze R (8 * r) k s
      = .ok (slice (Spec.Keccak.squeeze R r (Spec.Keccak.absorb R r (Spec.Keccak.padD r d raw))) 0 k, s') ∧
      Squeezing R r N S (Spec.Keccak.absorb R r (Spec.Keccak.padD r d raw)) k s' := by
  obtain ⟨m', hm', e⟩ := squeezeFirst_ok hR h8 hr0 hr k hd hdx h
  obtain ⟨A0, hA0⟩ : ∃ A0, A0 = Spec.Keccak.absorb R r (Spec.Keccak.padD r d raw) := ⟨_, rfl⟩
  have hl := Keccak.length_absorb_padD R r d raw hr0
  rw [← hA0] at e hl ⊢
  unfold Model.Shake.squeeze
  rw [e, ok_bind, show 8 * r / 8 = r by omega]
  obtain ⟨s', e', hs'⟩ := loop_ok R r hR hr0 (by omega) A0 hl 0 k N S true suf m' s.total k 0 A0 (raw.length % r + 1)
    (by omega) hk hl (by simp) (by simp [Spec.Keccak.iter])
  refine ⟨s', e', ?_⟩
  subst hs'
  exact ⟨hk, hl, hm', by rw [Nat.zero_add], by rw [Nat.zero_add], rfl, rfl, rfl⟩

/-- A first squeeze of length zero. -/
theorem squeeze_empty {R r : Nat} (hR : R ≤ 24) (h8 : r % 8 = 0) (hr0 : 0 < r) (hr : r ≤ 168) {N S raw : Bytes} {suf d : Byte}
    {s : Blk St} (hd : d = if suf ≠ 0 then suf else if N = [] ∧ S = [] then 0x1f else 0x04)
    (hdx : d ||| 0x80 = d ^^^ 0x80) (h : Absorbing R r N S suf raw s) :
    ∃ s', Model.Shake.squeeze R (8 * r) 0 s = .ok ([], s') ∧
      Squeezing R r N S (Spec.Keccak.absorb R r (Spec.Keccak.padD r d raw)) (raw.length % r + 1) s' := by
  obtain ⟨m', hm', e⟩ := squeezeFirst_ok hR h8 hr0 hr 0 hd hdx h
  unfold Model.Shake.squeeze
  rw [e, ok_bind]
  have hlt := Nat.mod_lt raw.length hr0
  refine ⟨_, rfl, by omega, Keccak.length_absorb_padD R r d raw hr0, hm', ?_, ?_, rfl, rfl, rfl⟩
  · rw [Nat.add_sub_cancel, Nat.div_eq_of_lt hlt]; rfl
  · rw [Nat.add_sub_cancel, Nat.mod_eq_of_lt hlt]

/-- The position after a further squeeze of length zero: at the end of a block, the next block is passed over. -/
def skip (r n : Nat) : Nat := if n % r = 0 then n + r else n

/-- A further squeeze of length zero. -/
theorem squeeze_empty_next {R r : Nat} (hR : R ≤ 24) (hr0 : 0 < r) (hr : r ≤ 168) {N S : Bytes} {A0 : List (BitVec 64)}
    {n : Nat} {s : Blk St} (h : Squeezing R r N S A0 n s) :
    ∃ s', Model.Shake.squeeze R (8 * r) 0 s = .ok ([], s') ∧ Squeezing R r N S A0 (skip r n) s' := by
  obtain ⟨hn, hl, hml, hA, hpos, hN, hS, hsq⟩ := h
  obtain ⟨⟨A, N', S', q, suf⟩, m, pos, total⟩ := s
  dsimp only at hml hA hpos hN hS hsq
  subst hA hpos hN hS hsq
  have hlt := Nat.mod_lt (n - 1) hr0
  have hdm := Nat.div_add_mod (n - 1) r
  unfold Model.Shake.squeeze Model.Shake.squeezeFirst
  dsimp only
  rw [if_neg (by simp), show 8 * r / 8 = r by omega]
  by_cases hc : (n - 1) % r + 1 < r
  · have e1 : n / r = (n - 1) / r := by rw [Nat.div_eq_iff hr0, Nat.mul_comm]; omega
    have e2 : n % r = (n - 1) % r + 1 := by
      have := Nat.div_add_mod n r
      rw [e1] at this
      omega
    have hrd := Keccak.read_state R r hr0 (by omega) A0 hl n 0 (by omega)
    rw [e1, e2] at hrd
    rw [if_pos hc, Nat.zero_min, hrd, ok_bind]
    refine ⟨_, rfl, ?_⟩
    unfold skip
    rw [if_neg (by omega)]
    exact ⟨hn, hl, hml, rfl, rfl, rfl, rfl, rfl⟩
  · have hr' : (n - 1) % r + 1 = r := by omega
    rw [if_neg hc, if_pos hr', Keccak.permute_eq R hR _ (Keccak.length_iter R _ A0 hl), ← iter_succ (Spec.Keccak.keccakP R)]
    have e3 : n = r * ((n - 1) / r + 1) := by rw [Nat.mul_add]; omega
    refine ⟨_, rfl, ?_⟩
    unfold skip
    rw [if_pos (by rw [e3]; exact Nat.mul_mod_right _ _)]
    refine ⟨by omega, hl, hml, ?_, ?_, rfl, rfl, rfl⟩
    · rw [show n + r - 1 = n - 1 + r by omega, Nat.add_div_right _ hr0]
    · rw [show n + r - 1 = n - 1 + r by omega, Nat.add_mod_right]

/-- Further squeezes. -/
theorem squeeze_next {R r : Nat} (hR : R ≤ 24) (hr0 : 0 < r) (hr : r ≤ 168) {N S : Bytes} {A0 : List (BitVec 64)}
    {n : Nat} {s : Blk St} (k : Nat) (hk : 0 < k) (h : Squeezing R r N S A0 n s) :
    ∃ s', Model.Shake.squeeze R (8 * r) k s = .ok (slice (Spec.Keccak.squeeze R r A0) n k, s') ∧
      Squeezing R r N S A0 (n + k) s' := by
  obtain ⟨hn, hl, hml, hA, hpos, hN, hS, hsq⟩ := h
  obtain ⟨⟨A, N', S', q, suf⟩, m, pos, total⟩ := s
  dsimp only at hml hA hpos hN hS hsq
  subst hA hpos hN hS hsq
  have hlt := Nat.mod_lt (n - 1) hr0
  have hdm := Nat.div_add_mod (n - 1) r
  unfold Model.Shake.squeeze Model.Shake.squeezeFirst
  dsimp only
  rw [if_neg (by simp), show 8 * r / 8 = r by omega]
  by_cases hc : (n - 1) % r + 1 < r
  · rw [if_pos hc]
    have e1 : n / r = (n - 1) / r := by rw [Nat.div_eq_iff hr0, Nat.mul_comm]; omega
    have e2 : n % r = (n - 1) % r + 1 := by
      have := Nat.div_add_mod n r
      rw [e1] at this
      omega
    have hrd := Keccak.read_state R r hr0 (by omega) A0 hl n (min k (r - ((n - 1) % r + 1))) (by omega)
    rw [e1, e2] at hrd
    rw [hrd, ok_bind]
    show ∃ s', Model.Shake.squeezeLoop R r k k _ _ = _ ∧ _
    by_cases hle : k ≤ r - ((n - 1) % r + 1)
    · rw [Nat.min_eq_left hle]
      have hdone : ∀ s : Blk St, Model.Shake.squeezeLoop R r k k (slice (Spec.Keccak.squeeze R r A0) n k) s
          = .ok (slice (Spec.Keccak.squeeze R r A0) n k, s) := by
        intro s
        cases k with
        | zero => rfl
        | succ f =>
          unfold Model.Shake.squeezeLoop
          rw [length_slice, if_neg (by omega)]; rfl
      rw [hdone]
      have e3 : (n + k - 1) / r = (n - 1) / r := by rw [Nat.div_eq_iff hr0, Nat.mul_comm]; omega
      have e4 : (n + k - 1) % r = (n - 1) % r + k := by
        have := Nat.div_add_mod (n + k - 1) r
        rw [e3] at this
        omega
      refine ⟨_, rfl, by omega, hl, hml, ?_, ?_, rfl, rfl, rfl⟩
      · rw [e3]
      · rw [e4]; show _ + _ + _ = _; omega
    · rw [Nat.min_eq_right (by omega)]
      have e3 : n + (r - ((n - 1) % r + 1)) = r * ((n - 1) / r + 1) := by rw [Nat.mul_add]; omega
      obtain ⟨s', e', hs'⟩ := loop_ok R r hR hr0 (by omega) A0 hl n k N' S' true suf m total k (r - ((n - 1) % r + 1))
        (Spec.Keccak.iter (Spec.Keccak.keccakP R) ((n - 1) / r) A0) ((n - 1) % r + 1 + (r - ((n - 1) % r + 1)))
        (by omega) (by omega) (Keccak.length_iter R _ A0 hl) (by rw [e3]; exact Nat.mul_mod_right _ _)
        (by rw [if_pos (by omega), e3, Nat.mul_div_cancel_left _ hr0, iter_succ])
      refine ⟨s', e', ?_⟩
      subst hs'
      exact ⟨by omega, hl, hml, rfl, rfl, rfl, rfl, rfl⟩
  · have hr' : (n - 1) % r + 1 = r := by omega
    rw [if_neg hc, if_pos hr', Keccak.permute_eq R hR _ (Keccak.length_iter R _ A0 hl), ← iter_succ (Spec.Keccak.keccakP R)]
    have e3 : n = r * ((n - 1) / r + 1) := by rw [Nat.mul_add]; omega
    obtain ⟨s', e', hs'⟩ := loop_ok R r hR hr0 (by omega) A0 hl n k N' S' true suf m total k 0
      (Spec.Keccak.iter (Spec.Keccak.keccakP R) ((n - 1) / r + 1) A0) ((n - 1) % r + 1)
      (by omega) hk (Keccak.length_iter R _ A0 hl) (by rw [Nat.add_zero, e3]; exact Nat.mul_mod_right _ _)
      (by
        rw [if_neg (by omega), Nat.add_zero]
        congr 1
        conv => rhs; rw [e3]
        exact (Nat.mul_div_cancel_left _ hr0).symm)
    refine ⟨s', e', ?_⟩
    subst hs'
    exact ⟨by omega, hl, hml, rfl, rfl, rfl, rfl, rfl⟩

end Shake
end Digestpp.Proofs
