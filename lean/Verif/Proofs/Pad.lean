import Verif.Proofs.Absorb

/-! Writing padding into the block buffer; the last blocks of a padded message. -/

namespace Digestpp.Proofs
open Model Spec

variable {σ : Type}

theorem setByte_pfx (m p : Bytes) (i : Nat) (v : Byte) (hp : p <+: m) (hi : i = p.length) (hl : p.length < m.length) :
    ∃ m', setByte m i v = .ok m' ∧ (p ++ [v]) <+: m' ∧ m'.length = m.length := by
  obtain ⟨r, rfl⟩ := hp
  subst hi
  cases r with
  | nil => simp at hl
  | cons x r =>
    refine ⟨p ++ [v] ++ r, ?_, List.prefix_append _ _, by simp⟩
    rw [setByte, if_pos hl]
    simp

theorem memset_pfx (m p : Bytes) (i : Nat) (v : Byte) (n : Nat) (hp : p <+: m) (hi : i = p.length)
    (hl : p.length + n ≤ m.length) :
    ∃ m', memset m i v n = .ok m' ∧ (p ++ List.replicate n v) <+: m' ∧ m'.length = m.length := by
  obtain ⟨r, rfl⟩ := hp
  subst hi
  refine ⟨p ++ List.replicate n v ++ r.drop n, ?_, List.prefix_append _ _, ?_⟩
  · rw [memset, if_pos hl]
    simp [List.drop_append]
  · simp at hl ⊢; omega

/-- `memcpy` at an offset that lies inside the known prefix. -/
theorem memcpyTo_pfx (m p src : Bytes) (i : Nat) (hp : p <+: m) (hi : i ≤ p.length)
    (hl : i + src.length ≤ m.length) :
    ∃ m', memcpyTo m i src = .ok m' ∧ (p.take i ++ src) <+: m' ∧ m'.length = m.length := by
  obtain ⟨r, rfl⟩ := hp
  refine ⟨_, memcpyTo_ok _ _ _ hl, ?_, ?_⟩
  · rw [List.take_append_of_le_length hi]
    exact List.prefix_append _ _
  · simp at hl ⊢; omega

theorem eq_of_pfx {α : Type} {m p : List α} (hp : p <+: m) (hl : p.length = m.length) : m = p :=
  (hp.eq_of_length hl).symm

theorem readBytes_pfx (m p : Bytes) (n : Nat) (hp : p <+: m) (hn : n = p.length) : readBytes m 0 n = .ok p := by
  obtain ⟨r, rfl⟩ := hp
  subst hn
  rw [readBytes_ok _ _ _ (by simp)]
  simp

theorem Buffered.start {bs z msize : Nat} {step : Nat → Bytes → σ → σ} (s : Blk σ) (h0 : σ)
    (hm : s.m.length = msize) (hp : s.pos = 0) (ht : s.total = 0) (hh : s.h = h0) : Buffered bs z msize step h0 [] s := by
  constructor
  · exact hm
  · simp [hp]
  · simp [foldBlocks, hh]
  · simp [ht]
  · simp [hp]

theorem Buffered.pfx {bs z msize : Nat} {step : Nat → Bytes → σ → σ} {h0 : σ} {msg : Bytes} {s : Blk σ}
    (h : Buffered bs z msize step h0 msg s) : msg.drop ((msg.length - z) / bs * bs) <+: s.m := by
  rw [← h.buf]; exact List.take_prefix _ _

theorem blockAt_zero {α : Type} (n : Nat) (b : List α) (h : b.length = n) : blockAt n 0 b = b := by
  subst h; simp [blockAt]

theorem blockAt_one {α : Type} (n : Nat) (a b : List α) (ha : a.length = n) (hb : b.length = n) :
    blockAt n 1 (a ++ b) = b := by
  subst ha; simp [blockAt, ← hb]

/-- The padded message ends with one more block. -/
theorem foldBlocks_last1 {step : Nat → Bytes → σ → σ} (bs nb : Nat) (msg t : Bytes) (h : σ) (x : Bytes)
    (hn : nb * bs ≤ msg.length) (hx : msg.drop (nb * bs) ++ t = x) (hxl : x.length = bs) :
    foldBlocks bs step (msg ++ t) (nb + 1) h = step nb x (foldBlocks bs step msg nb h) := by
  have e : msg ++ t = msg.take (nb * bs) ++ x := by
    rw [← hx, ← List.append_assoc, List.take_append_drop]
  have e2 : foldBlocks bs step msg nb h = foldBlocks bs step (msg.take (nb * bs)) nb h := by
    conv => lhs; rw [← List.take_append_drop (nb * bs) msg]
    rw [foldBlocks_append]; simp; omega
  rw [e, foldBlocks_add _ _ _ _ _ _ (by simp; omega), e2]
  simp only [foldBlocks, List.range_one, List.foldl_cons, List.foldl_nil, Nat.add_zero]
  rw [blockAt_zero bs x hxl]

/-- The padded message ends with two more blocks. -/
theorem foldBlocks_last2 {step : Nat → Bytes → σ → σ} (bs nb : Nat) (msg t : Bytes) (h : σ) (x y : Bytes)
    (hn : nb * bs ≤ msg.length) (hx : msg.drop (nb * bs) ++ t = x ++ y) (hxl : x.length = bs) (hyl : y.length = bs) :
    foldBlocks bs step (msg ++ t) (nb + 2) h = step (nb + 1) y (step nb x (foldBlocks bs step msg nb h)) := by
  have e : msg ++ t = msg.take (nb * bs) ++ (x ++ y) := by
    rw [← hx, ← List.append_assoc, List.take_append_drop]
  have e2 : foldBlocks bs step msg nb h = foldBlocks bs step (msg.take (nb * bs)) nb h := by
    conv => lhs; rw [← List.take_append_drop (nb * bs) msg]
    rw [foldBlocks_append]; simp; omega
  rw [e, foldBlocks_add _ _ _ _ _ _ (by simp; omega), e2]
  simp only [foldBlocks, show List.range 2 = [0, 1] from rfl, List.foldl_cons, List.foldl_nil, Nat.add_zero]
  rw [blockAt_one bs x y hxl hyl, blockAt_append_left bs 0 x y (by omega), blockAt_zero bs x hxl]

theorem foldl_chunks {α : Type} (n : Nat) (step : α → Bytes → α) (l : Bytes) (h : α) :
    (chunks n l).foldl step h = foldBlocks n (fun _ b s => step s b) l (l.length / n) h := by
  rw [chunks, List.foldl_map]; rfl

theorem foldlM_ok {α β : Type} (f : β → α → M β) (g : β → α → β) (inv : β → Prop) (l : List α) (b : β)
    (hb : inv b) (h : ∀ s, inv s → ∀ i ∈ l, f s i = .ok (g s i) ∧ inv (g s i)) :
    l.foldlM f b = .ok (l.foldl g b) ∧ inv (l.foldl g b) := by
  induction l generalizing b with
  | nil => exact ⟨rfl, hb⟩
  | cons x xs ih =>
    obtain ⟨e, hi⟩ := h b hb x (by simp)
    rw [List.foldlM_cons, e]
    exact ih (g b x) hi (fun s hs i hi => h s hs i (by simp [hi]))

theorem forBlocks_ok {bs : Nat} {step : Nat → Bytes → σ → M σ} {g : Nat → Bytes → σ → σ} {inv : σ → Prop}
    (hstep : ∀ i b s, b.length = bs → inv s → step i b s = .ok (g i b s) ∧ inv (g i b s))
    (data : Bytes) (n : Nat) (s : σ) (hn : n * bs ≤ data.length) (hs : inv s) :
    forBlocks bs data n step s = .ok (foldBlocks bs g data n s) := by
  refine (foldlM_ok _ (fun s i => g i (blockAt bs i data) s) inv (List.range n) s hs ?_).1
  intro s hs i hi
  have h1 : (i + 1) * bs ≤ data.length := by
    have : i + 1 ≤ n := by rw [List.mem_range] at hi; omega
    exact Nat.le_trans (Nat.mul_le_mul_right bs this) hn
  have h2 : i * bs + bs ≤ data.length := by rw [Nat.add_mul] at h1; omega
  rw [readBytes_ok _ _ _ h2]
  exact hstep i _ s (length_blockAt bs i data h1) hs

/-- A single block. -/
theorem foldBlocks_succ {step : Nat → Bytes → σ → σ} (n k : Nat) (a : Bytes) (h : σ) :
    foldBlocks n step a (k + 1) h = step k (blockAt n k a) (foldBlocks n step a k h) := by
  unfold foldBlocks
  rw [List.range_succ, List.foldl_append]
  rfl

theorem foldBlocks_one {step : Nat → Bytes → σ → σ} (bs : Nat) (m : Bytes) (h : σ) (hm : m.length = bs) :
    foldBlocks bs step m 1 h = step 0 m h := by
  simp only [foldBlocks, List.range_one, List.foldl_cons, List.foldl_nil]
  rw [blockAt_zero bs m hm]

theorem foldBlocks_congr {step step' : Nat → Bytes → σ → σ} (bs : Nat) (m : Bytes) (k : Nat) (h : σ)
    (e : ∀ i, i < k → ∀ b t, step i b t = step' i b t) : foldBlocks bs step m k h = foldBlocks bs step' m k h := by
  induction k with
  | zero => simp only [foldBlocks, List.range_zero, List.foldl_nil]
  | succ k ih =>
    rw [foldBlocks_succ (step := step), foldBlocks_succ (step := step'), ih fun i hi => e i (by omega), e k (by omega)]

end Digestpp.Proofs
