import Verif.Model.Width
import Verif.Proofs.Api
import Verif.Proofs.Absorb
import Verif.Spec.Width

/-! `size_t` of `z` bits: the `update` functions do the same as with 64 bits when a call is given few enough bytes. -/

namespace Digestpp.Proofs.Width
open Model Spec

variable {σ : Type}

/-- The `size_t` types considered. -/
def Wide (z : Nat) : Prop := 32 ≤ z ∧ z ≤ 64

theorem Wide.pow {z : Nat} (h : Wide z) : ∃ q, 2 ^ z = 8 * q ∧ 2 ^ (z - 3) = q ∧ 2 ^ 29 ≤ q ∧ q ≤ 2 ^ 61 := by
  have h29 : 2 ^ 29 ≤ 2 ^ (z - 3) := Nat.pow_le_pow_right (n := 2) (i := 29) (j := z - 3) (by decide) (by have := h.1; omega)
  have h61 : 2 ^ (z - 3) ≤ 2 ^ 61 := Nat.pow_le_pow_right (n := 2) (i := z - 3) (j := 61) (by decide) (by have := h.2; omega)
  refine ⟨2 ^ (z - 3), ?_, rfl, h29, h61⟩
  rw [show (8 : Nat) = 2 ^ 3 from rfl, ← Nat.pow_add]
  congr 1
  have := h.1
  omega

theorem sub_eq {z a b : Nat} (h : b ≤ a) (ha : a < 2 ^ z) : Width.sub z a b = a - b := by
  unfold Width.sub
  rw [show a + 2 ^ z - b = (a - b) + 2 ^ z by omega, Nat.add_mod_right, Nat.mod_eq_of_lt (by omega)]

/-- The number of blocks `absorb_bytes` processes without copying. -/
theorem blocks_le {len bs bschk : Nat} (hc : bs ≤ bschk) : (len + bs - bschk) / bs * bs ≤ len := by
  have := Nat.div_mul_le_self (len + bs - bschk) bs
  omega

theorem absorbTail_eq {z bs bschk : Nat} (hw : Wide z) (hbs : 0 < bs) (hb2 : bs ≤ 512) (hc : bs ≤ bschk) (hc2 : bschk ≤ bs + 1)
    {trW tr : Bytes → Nat → Blk σ → M (Blk σ)} (data : Bytes) (s : Blk σ) (hd : data.length + 512 < 2 ^ (z - 3))
    (ht : ∀ n, n * bs ≤ data.length → trW data n s = tr data n s) :
    Model.Width.absorbTail z bs bschk trW data s = Model.absorbTail bs bschk tr data s := by
  obtain ⟨q, hq, hq3, h1, h2⟩ := hw.pow
  rw [hq3] at hd
  unfold Model.Width.absorbTail Model.absorbTail
  by_cases hl : data.length ≥ bschk
  · rw [if_pos hl, if_pos hl, if_neg (by omega), if_neg (by omega)]
    have hm : (data.length + bs) % 2 ^ z = data.length + bs := Nat.mod_eq_of_lt (by omega)
    have hb := blocks_le (len := data.length) hc
    rw [hm, sub_eq (by omega) (by omega), szSub_eq _ _ (by omega) (by unfold szMod; omega)]
    dsimp only
    rw [ht _ hb, Nat.mod_eq_of_lt (a := (data.length + bs - bschk) / bs * bs) (by omega), Nat.mod_eq_of_lt (by omega)]
  · rw [if_neg hl, if_neg hl]

theorem err_bind {α β : Type} (e : UB) (f : α → M β) : ((Except.error e : M α) >>= f) = .error e := rfl

/-- **`absorb_bytes` for a narrow `size_t`.** -/
theorem absorbBytes_eq {z bs bschk : Nat} (hw : Wide z) (hbs : 0 < bs) (hb2 : bs ≤ 512) (hc : bs ≤ bschk) (hc2 : bschk ≤ bs + 1)
    {trW tr : Bytes → Nat → Blk σ → M (Blk σ)} (data : Bytes) (s : Blk σ) (hp : s.pos ≤ bs) (hd : data.length + 512 < 2 ^ (z - 3))
    {I : σ → Prop} (hI : I s.h) (ht : ∀ d n x, I x.h → n * bs < 2 ^ (z - 3) → trW d n x = tr d n x)
    (hpos : ∀ d n x y, I x.h → tr d n x = .ok y → y.pos = x.pos ∧ I y.h) :
    Model.Width.absorbBytes z bs bschk trW data s = Model.absorbBytes bs bschk tr data s := by
  obtain ⟨q, hq, hq3, h1, h2⟩ := hw.pow
  have hd' := hd
  rw [hq3] at hd
  have e1 : (s.pos + data.length) % 2 ^ z = s.pos + data.length := Nat.mod_eq_of_lt (by omega)
  have e2 : (s.pos + data.length) % szMod = s.pos + data.length := Nat.mod_eq_of_lt (by unfold szMod; omega)
  have e3 : Model.Width.sub z bs s.pos = bs - s.pos := sub_eq hp (by omega)
  have e4 : szSub bs s.pos = bs - s.pos := szSub_eq _ _ hp (by unfold szMod; omega)
  have e5 : bs * 8 % 2 ^ z = bs * 8 := Nat.mod_eq_of_lt (by omega)
  unfold Model.Width.absorbBytes Model.absorbBytes
  by_cases hc1 : s.pos ≠ 0 ∧ s.pos + data.length ≥ bschk
  · have g1 : s.pos ≠ 0 ∧ (s.pos + data.length) % 2 ^ z ≥ bschk := by rw [e1]; exact hc1
    have g2 : s.pos ≠ 0 ∧ (s.pos + data.length) % szMod ≥ bschk := by rw [e2]; exact hc1
    rw [if_pos g1, if_pos g2, e3, e4]
    cases readBytes data 0 (bs - s.pos) with
    | error e => rw [err_bind, err_bind]
    | ok chunk =>
      rw [ok_bind, ok_bind]
      cases memcpyTo s.m s.pos chunk with
      | error e => rw [err_bind, err_bind]
      | ok m =>
        rw [ok_bind, ok_bind, ht m 1 { s with m := m } hI (by rw [hq3]; omega)]
        cases he : tr m 1 { s with m := m } with
        | error e => rw [err_bind, err_bind]
        | ok s1 =>
          rw [ok_bind, ok_bind]
          obtain ⟨h3, hI1⟩ := hpos m 1 { s with m := m } s1 hI he
          have h3 : s1.pos = s.pos := h3
          rw [h3, e3, e4, e5]
          exact absorbTail_eq hw hbs hb2 hc hc2 _ _ (by rw [List.length_drop]; omega)
            (fun n h => ht _ n _ hI1 (by rw [List.length_drop] at h; omega))
  · have g1 : ¬ (s.pos ≠ 0 ∧ (s.pos + data.length) % 2 ^ z ≥ bschk) := by rw [e1]; exact hc1
    have g2 : ¬ (s.pos ≠ 0 ∧ (s.pos + data.length) % szMod ≥ bschk) := by rw [e2]; exact hc1
    rw [if_neg g1, if_neg g2]
    exact absorbTail_eq hw hbs hb2 hc hc2 _ _ hd' (fun n h => ht _ n s hI (by omega))

/-- The buffer is never more than full. -/
theorem _root_.Digestpp.Proofs.Buffered.pos_le {bs z msize : Nat} {step : Nat → Bytes → σ → σ} {h0 : σ} {msg : Bytes} {s : Blk σ}
    (hb : Buffered bs z msize step h0 msg s) (h : 0 < bs) (hz : z ≤ 1) : s.pos ≤ bs := by
  rw [hb.pos]
  have := Nat.div_add_mod (msg.length - z) bs
  have := Nat.mod_lt (msg.length - z) h
  have : (msg.length - z) / bs * bs = bs * ((msg.length - z) / bs) := Nat.mul_comm ..
  omega

/-- What one iteration keeps, the loop keeps. -/
theorem forBlocks_keep {τ : Type} {P : τ → Prop} {bs : Nat} {data : Bytes} {step : Nat → Bytes → τ → M τ}
    (hstep : ∀ i b x y, P x → step i b x = .ok y → P y) (n : Nat) (x y : τ) (h : P x) (e : forBlocks bs data n step x = .ok y) : P y := by
  unfold forBlocks at e
  revert e
  generalize List.range n = l
  induction l generalizing x with
  | nil => intro e; cases e; exact h
  | cons i l ih =>
    intro e
    rw [List.foldlM_cons] at e
    cases hr : readBytes data (i * bs) bs with
    | error u => rw [hr] at e; exact nomatch e
    | ok b =>
      rw [hr, ok_bind] at e
      cases hs : step i b x with
      | error u => rw [hs] at e; exact nomatch e
      | ok x1 =>
        rw [hs, ok_bind] at e
        exact ih x1 (hstep i b x x1 h hs) e

/-- Loops whose iterations agree. -/
theorem forBlocks_congr {τ : Type} {bs : Nat} {data : Bytes} {f g : Nat → Bytes → τ → M τ} {n : Nat} {P : τ → Prop}
    (he : ∀ i b x, i < n → P x → f i b x = g i b x) (hstep : ∀ i b x y, P x → g i b x = .ok y → P y) (x : τ) (h : P x) :
    forBlocks bs data n f x = forBlocks bs data n g x := by
  unfold forBlocks
  have hm : ∀ i ∈ List.range n, i < n := fun i hi => List.mem_range.1 hi
  revert hm
  generalize List.range n = l
  induction l generalizing x with
  | nil => intro _; rfl
  | cons i l ih =>
    intro hm
    rw [List.foldlM_cons, List.foldlM_cons]
    cases hr : readBytes data (i * bs) bs with
    | error u => simp only [err_bind]
    | ok b =>
      rw [ok_bind, ok_bind, he i b x (hm i (List.mem_cons_self ..)) h]
      cases hs : g i b x with
      | error u => rw [err_bind, err_bind]
      | ok x1 =>
        rw [ok_bind, ok_bind]
        exact ih x1 (hstep i b x x1 h hs) (fun j hj => hm j (List.mem_cons_of_mem _ hj))

/-- A transformation that only sets `h` leaves the fill position. -/
theorem setH {x : M σ} {s y : Blk σ} (e : (do let h ← x; pure { s with h := h }) = (.ok y : M (Blk σ))) : ∃ h, x = .ok h ∧ y = { s with h := h } := by
  cases x with
  | error u => exact nomatch e
  | ok h => exact ⟨h, rfl, (Except.ok.inj e).symm⟩

/-- 2^29 bytes at once, on an object with an empty buffer: the count of bits stays as it is. -/
theorem wraps (tr : Bytes → Nat → Blk σ → M (Blk σ)) (ht : ∀ d n x y, tr d n x = .ok y → y.total = x.total) (data : Bytes) (s a : Blk σ)
    (hl : data.length = 2 ^ 29) (hp : s.pos = 0) (e : Model.absorbBytes 64 64 tr data s = .ok a) :
    Model.Width.absorbBytes 32 64 64 tr data s = .ok { a with total := s.total } := by
  have h0 : ¬ (s.pos ≠ 0 ∧ (s.pos + data.length) % szMod ≥ 64) := fun h => h.1 hp
  have h1 : ¬ (s.pos ≠ 0 ∧ (s.pos + data.length) % 2 ^ 32 ≥ 64) := fun h => h.1 hp
  have hc : data.length ≥ 64 := by rw [hl]; decide
  have b1 : szSub (data.length + 64) 64 / 64 = 2 ^ 23 := by rw [hl]; decide
  have b2 : Width.sub 32 ((data.length + 64) % 2 ^ 32) 64 / 64 = 2 ^ 23 := by rw [hl]; decide
  unfold Model.absorbBytes Model.absorbTail at e
  rw [if_neg h0, if_pos hc, if_neg (by decide)] at e
  dsimp only at e
  rw [b1] at e
  unfold Model.Width.absorbBytes Model.Width.absorbTail
  rw [if_neg h1, if_pos hc, if_neg (by decide)]
  dsimp only
  rw [b2]
  cases hx : tr data (2 ^ 23) s with
  | error u => rw [hx, err_bind] at e; exact nomatch e
  | ok s1 =>
    rw [hx, ok_bind] at e
    rw [ok_bind]
    have hd : data.drop (2 ^ 23 * 64) = [] := List.drop_eq_nil_of_le (by rw [hl]; decide)
    have hd' : data.drop (2 ^ 23 * 64 % 2 ^ 32) = [] := List.drop_eq_nil_of_le (by rw [hl]; decide)
    have hz : BitVec.ofNat 64 (2 ^ 23 * 64 % 2 ^ 32 * 8 % 2 ^ 32) = 0 := by decide
    rw [hd] at e
    rw [hd', hz]
    unfold absorbRest at e ⊢
    dsimp only at e ⊢
    cases hm : memcpyTo s1.m s1.pos [] with
    | error u => rw [hm, err_bind] at e; exact nomatch e
    | ok m =>
      rw [hm, ok_bind] at e
      rw [ok_bind, ← Except.ok.inj e, ← ht _ _ _ _ hx]
      show Except.ok _ = Except.ok _
      rw [show s1.total + 0 = s1.total from BitVec.add_zero _]

section
variable {S P Θ : Type}

theorem absorb_eq {upd update : Bytes → S → M S} {R : Bytes → S → Prop} {lim : Nat} (hlim : 65536 < lim)
    (hu : ∀ msg s data, R msg s → data.length < 2 ^ 63 → ∃ s', update data s = .ok s' ∧ R (msg ++ data) s')
    (he : ∀ msg s data, R msg s → data.length < lim → upd data s = update data s)
    (src : Source) (hs : SmallSource lim src) (msg : Bytes) (s : S) (h : R msg s) :
    absorb upd src s = absorb update src s := by
  cases src with
  | ptr d => exact he msg s d h hs
  | array d => exact he msg s d h hs
  | str d =>
    simp only [absorb]
    split
    · rfl
    · exact he msg s d h hs
  | stream d =>
    show absorbStream upd d s = absorbStream update d s
    clear hs
    induction hn : d.length using Nat.strongRecOn generalizing d msg s with
    | _ n ih =>
      unfold absorbStream
      split
      · rename_i h1
        obtain ⟨s1, e1, r1⟩ := hu msg s (d.take 65536) h (by simp; omega)
        rw [he msg s _ h (by simp; omega), e1, ok_bind, ok_bind]
        exact ih (d.drop 65536).length (by simp; omega) _ s1 r1 _ rfl
      · split
        · exact he msg s d h (by omega)
        · rfl
  | iter d =>
    show d.foldlM (fun s b => upd [b] s) s = d.foldlM (fun s b => update [b] s) s
    clear hs
    induction d generalizing msg s with
    | nil => rfl
    | cons b d ih =>
      obtain ⟨s1, e1, r1⟩ := hu msg s [b] h (by simp)
      rw [List.foldlM_cons, List.foldlM_cons, he msg s [b] h (by simp; omega), e1, ok_bind, ok_bind]
      exact ih _ s1 r1

theorem step_eq {pr : HashProvider S P} {f : HashFn P Θ} {c : Cover P Θ} {R : Θ → Bytes → S → Prop} (hr : HashRefines pr f c R)
    {upd : Bytes → S → M S} {lim : Nat} (hlim : 65536 < lim)
    (he : ∀ θ msg s data, R θ msg s → data.length < lim → upd data s = pr.update data s)
    (op : HashOp P) (hs : SmallOp lim op) (o : HashObj Θ) (s : S) (h : R o.params o.msg s) :
    ({ pr with update := upd } : HashProvider S P).step op s = pr.step op s := by
  cases op with
  | absorb src =>
    simp only [HashProvider.step]
    rw [absorb_eq (R := R o.params) hlim (fun msg s d => hr.update o.params msg s d) (fun msg s d => he o.params msg s d) src hs o.msg s h]
  | digestBuf buf => rfl
  | digest => rfl
  | hexdigest => rfl
  | reset b => rfl
  | set p => rfl

theorem run_eq {pr : HashProvider S P} {f : HashFn P Θ} {c : Cover P Θ} {R : Θ → Bytes → S → Prop} (hr : HashRefines pr f c R)
    {upd : Bytes → S → M S} {lim : Nat} (hlim : 65536 < lim)
    (he : ∀ θ msg s data, R θ msg s → data.length < lim → upd data s = pr.update data s)
    (ops : List (HashOp P)) (hs : ∀ op ∈ ops, SmallOp lim op) (o : HashObj Θ) (s : S) (h : R o.params o.msg s)
    (hc : f.Covered c ops o) : ({ pr with update := upd } : HashProvider S P).run ops s = pr.run ops s := by
  induction ops generalizing o s with
  | nil => rfl
  | cons op ops ih =>
    obtain ⟨s1, e1, r1⟩ := hr.step op o s h hc.1
    have e2 := step_eq hr hlim he op (hs op (List.mem_cons_self ..)) o s h
    unfold HashProvider.run
    rw [e2, e1, ok_bind, ok_bind]
    show (HashProvider.run _ ops s1 >>= fun r => pure (_, r.2)) = (pr.run ops s1 >>= fun r => pure (_, r.2))
    rw [ih (fun q hq => hs q (List.mem_cons_of_mem _ hq)) _ s1 r1 hc.2]

end
end Digestpp.Proofs.Width
