import Verif.Model.Absorb
import Verif.Spec.Blocks

/-! Refinement of `absorb_bytes`: whatever the partition into calls, the object holds the message so far. -/

namespace Digestpp.Proofs
open Model Spec

variable {σ : Type}

theorem ok_bind {α β : Type} (a : α) (f : α → M β) : ((Except.ok a : M α) >>= f) = f a := rfl

theorem foldl_ext' {α β : Type} (f g : β → α → β) (l : List α) (b : β)
    (h : ∀ acc, ∀ i ∈ l, f acc i = g acc i) : l.foldl f b = l.foldl g b := by
  induction l generalizing b with
  | nil => rfl
  | cons x xs ih =>
    simp only [List.foldl_cons]
    rw [h b x (by simp), ih]
    intro acc i hi; exact h acc i (by simp [hi])

theorem blockAt_append_left {α : Type} (n i : Nat) (a b : List α) (h : (i + 1) * n ≤ a.length) :
    blockAt n i (a ++ b) = blockAt n i a := by
  have h' : i * n + n ≤ a.length := by rw [Nat.add_mul] at h; omega
  unfold blockAt
  rw [List.drop_append_of_le_length (by omega), List.take_append_of_le_length]
  simp; omega

theorem blockAt_append_right {α : Type} (n k j : Nat) (a b : List α) (h : a.length = k * n) :
    blockAt n (k + j) (a ++ b) = blockAt n j b := by
  unfold blockAt
  rw [List.drop_append, List.drop_eq_nil_of_le (by rw [h, Nat.add_mul]; omega), List.nil_append, h, Nat.add_mul]
  congr 2; omega

theorem length_blockAt {α : Type} (n i : Nat) (a : List α) (h : (i + 1) * n ≤ a.length) :
    (blockAt n i a).length = n := by
  have h' : i * n + n ≤ a.length := by rw [Nat.add_mul] at h; omega
  simp [blockAt]; omega

theorem foldBlocks_append {step : Nat → Bytes → σ → σ} (n k : Nat) (a b : Bytes) (h : σ)
    (hk : k * n ≤ a.length) : foldBlocks n step (a ++ b) k h = foldBlocks n step a k h := by
  unfold foldBlocks
  apply foldl_ext'
  intro acc i hi
  rw [blockAt_append_left]
  have : i + 1 ≤ k := by rw [List.mem_range] at hi; omega
  exact Nat.le_trans (Nat.mul_le_mul_right n this) hk

theorem foldBlocks_add {step : Nat → Bytes → σ → σ} (n k j : Nat) (a b : Bytes) (h : σ)
    (ha : a.length = k * n) :
    foldBlocks n step (a ++ b) (k + j) h
      = foldBlocks n (fun i => step (k + i)) b j (foldBlocks n step a k h) := by
  unfold foldBlocks
  rw [List.range_add, List.foldl_append, List.foldl_map]
  have h1 : (List.range k).foldl (fun h i => step i (blockAt n i (a ++ b)) h) h
      = (List.range k).foldl (fun h i => step i (blockAt n i a) h) h :=
    foldBlocks_append n k a b h (by omega)
  rw [h1]
  apply foldl_ext'
  intro acc i _
  rw [blockAt_append_right n k i a b ha]

theorem foldBlocks_inv {step : Nat → Bytes → σ → σ} {inv : σ → Prop} {n : Nat}
    (hstep : ∀ i b h, b.length = n → inv h → inv (step i b h)) (a : Bytes) (k : Nat) (h : σ)
    (hk : k * n ≤ a.length) (h0 : inv h) : inv (foldBlocks n step a k h) := by
  induction k with
  | zero => simpa [foldBlocks] using h0
  | succ k ih =>
    have := ih (by rw [Nat.add_mul] at hk; omega)
    unfold foldBlocks at this ⊢
    rw [List.range_succ, List.foldl_append]
    exact hstep _ _ _ (length_blockAt _ _ _ hk) this

/-- The effect a `transform(data, num_blks)` callback must have on the object: it applies `step` to each block, where block numbers
count from the beginning of the message and the `total` field says how many have been done; it may use the buffer `m` as scratch
space but keeps its size. `inv` is an invariant of the remaining fields. -/
def IsTransform (bs msize : Nat) (inv : σ → Prop) (step : Nat → Bytes → σ → σ)
    (transform : Bytes → Nat → Blk σ → M (Blk σ)) : Prop :=
  ∀ (s : Blk σ) (data : Bytes) (n i : Nat), n * bs ≤ data.length → s.m.length = msize → inv s.h →
    s.total = BitVec.ofNat 64 (i * bs * 8) →
    ∃ m', m'.length = msize ∧
      transform data n s = .ok { s with h := foldBlocks bs (fun j => step (i + j)) data n s.h, m := m' }

/-- The same as long as the number of bytes processed satisfies `lim`. -/
def IsTransformIn (lim : Nat → Prop) (bs msize : Nat) (inv : σ → Prop) (step : Nat → Bytes → σ → σ)
    (transform : Bytes → Nat → Blk σ → M (Blk σ)) : Prop :=
  ∀ (s : Blk σ) (data : Bytes) (n i : Nat), lim ((i + n) * bs) → n * bs ≤ data.length → s.m.length = msize → inv s.h →
    s.total = BitVec.ofNat 64 (i * bs * 8) →
    ∃ m', m'.length = msize ∧
      transform data n s = .ok { s with h := foldBlocks bs (fun j => step (i + j)) data n s.h, m := m' }

theorem IsTransform.isIn {bs msize : Nat} {inv : σ → Prop} {step : Nat → Bytes → σ → σ}
    {transform : Bytes → Nat → Blk σ → M (Blk σ)} (h : IsTransform bs msize inv step transform) :
    IsTransformIn (fun _ => True) bs msize inv step transform := fun s data n i _ => h s data n i

/-- The object `s` has absorbed exactly `msg`, starting from `h0`. `z = 0`: blocks are compressed as soon as they are
full; `z = 1`: only when a further byte arrives. -/
structure Buffered (bs z msize : Nat) (step : Nat → Bytes → σ → σ) (h0 : σ) (msg : Bytes) (s : Blk σ) : Prop where
  mlen : s.m.length = msize
  pos : s.pos = msg.length - (msg.length - z) / bs * bs
  h : s.h = foldBlocks bs step msg ((msg.length - z) / bs) h0
  total : s.total = BitVec.ofNat 64 ((msg.length - z) / bs * bs * 8)
  buf : s.m.take s.pos = msg.drop ((msg.length - z) / bs * bs)

theorem memcpyTo_ok (dst src : Bytes) (off : Nat) (h : off + src.length ≤ dst.length) :
    memcpyTo dst off src = .ok (dst.take off ++ src ++ dst.drop (off + src.length)) := by
  simp [memcpyTo, h]

theorem readBytes_ok (src : Bytes) (off n : Nat) (h : off + n ≤ src.length) :
    readBytes src off n = .ok ((src.drop off).take n) := by
  simp [readBytes, h]

theorem szSub_eq (a b : Nat) (h : b ≤ a) (ha : a < szMod) : szSub a b = a - b := by
  unfold szSub
  rw [show a + szMod - b = (a - b) + szMod by omega, Nat.add_mod_right, Nat.mod_eq_of_lt (by omega)]

theorem absorbRest_ok (data : Bytes) (s : Blk σ) (m' : Bytes) (h : memcpyTo s.m s.pos data = .ok m') :
    absorbRest data s = .ok { s with m := m', pos := s.pos + data.length } := by
  unfold absorbRest
  rw [h]; rfl

theorem absorbTail_zero {lim : Nat → Prop} {bs z msize : Nat} {step : Nat → Bytes → σ → σ} {inv : σ → Prop} {h0 : σ}
    {transform : Bytes → Nat → Blk σ → M (Blk σ)}
    (hbs : 0 < bs) (hz : z ≤ 1) (hm : bs ≤ msize) (hsz : bs < 2 ^ 62)
    (htr : IsTransformIn lim bs msize inv step transform)
    (msg data : Bytes) (k : Nat) (s : Blk σ) (hlen : msg.length = k * bs) (hk : k = 0 ∨ z ≤ data.length)
    (hmlen : s.m.length = msize) (hpos : s.pos = 0) (hh : s.h = foldBlocks bs step msg k h0) (hinv : inv s.h)
    (htot : s.total = BitVec.ofNat 64 (k * bs * 8)) (hdata : data.length < 2 ^ 63)
    (hlim : ∀ n, n ≤ (msg ++ data).length → lim n) :
    ∃ s', absorbTail bs (bs + z) transform data s = .ok s' ∧ Buffered bs z msize step h0 (msg ++ data) s' := by
  have hnb : (msg ++ data).length - z = k * bs + (data.length - z) := by
    rcases hk with rfl | h
    · simp at hlen; simp [hlen]
    · simp [hlen]; omega
  have hnb' : ((msg ++ data).length - z) / bs = k + (data.length - z) / bs := by
    rw [hnb, Nat.mul_comm k bs, Nat.mul_add_div hbs]
  unfold absorbTail
  by_cases hge : data.length ≥ bs + z
  · have hsub : szSub (data.length + bs) (bs + z) = data.length - z := by
      rw [szSub_eq _ _ (by omega) (by unfold szMod; omega)]; try omega
    have hne : ¬ bs = 0 := by omega
    obtain ⟨j, hj⟩ : ∃ j, j = (data.length - z) / bs := ⟨_, rfl⟩
    have hjle : j * bs ≤ data.length := by
      have := Nat.div_mul_le_self (data.length - z) bs
      rw [hj]; omega
    obtain ⟨m', hm', ht⟩ := htr s data j k (hlim _ (by rw [Nat.add_mul, List.length_append]; omega)) hjle hmlen hinv htot
    have hrem : data.length - j * bs ≤ bs := by
      have := Nat.lt_div_mul_add hbs (a := data.length - z)
      rw [hj]; omega
    have hcopy : memcpyTo m' 0 (data.drop (j * bs))
        = .ok (data.drop (j * bs) ++ m'.drop (data.length - j * bs)) := by
      rw [memcpyTo_ok]
      · simp
      · simp; omega
    refine ⟨{ h := foldBlocks bs (fun j => step (k + j)) data j s.h,
              m := data.drop (j * bs) ++ m'.drop (data.length - j * bs),
              pos := data.length - j * bs,
              total := s.total + BitVec.ofNat 64 (j * bs * 8) }, ?_, ?_⟩
    · rw [if_pos hge, if_neg hne]
      rw [hsub]
      dsimp only
      rw [← hj, ht]
      have := absorbRest_ok (data.drop (j * bs))
        { h := foldBlocks bs (fun j => step (k + j)) data j s.h, m := m', pos := s.pos,
          total := s.total + BitVec.ofNat 64 (j * bs * 8) } _ (by rw [hpos]; exact hcopy)
      rw [hpos, Nat.zero_add, List.length_drop] at this
      exact hpos ▸ this
    · constructor
      · simp; omega
      · simp only [hnb', ← hj]
        simp [hlen, Nat.add_mul]; omega
      · simp only [hnb', ← hj]
        rw [foldBlocks_add _ _ _ _ _ _ hlen, ← hh]
      · simp only [hnb', ← hj, htot]
        rw [← BitVec.ofNat_add, Nat.add_mul, Nat.add_mul]
      · simp only [hnb', ← hj]
        rw [Nat.add_mul, ← hlen, List.drop_length_add_append]
        simp
  · have hj : (data.length - z) / bs = 0 := by
      apply Nat.div_eq_of_lt; omega
    have hcopy : memcpyTo s.m 0 data = .ok (data ++ s.m.drop data.length) := by
      rw [memcpyTo_ok]
      · simp
      · omega
    refine ⟨{ s with m := data ++ s.m.drop data.length, pos := data.length }, ?_, ?_⟩
    · rw [if_neg hge]
      have := absorbRest_ok data s _ (by rw [hpos]; exact hcopy)
      rw [hpos, Nat.zero_add] at this
      exact this
    · constructor
      · simp; omega
      · simp only [hnb', hj]
        simp [hlen]
      · simp only [hnb', hj]
        rw [hh, Nat.add_zero, foldBlocks_append]
        omega
      · simp only [hnb', hj, htot, Nat.add_zero]
      · simp only [hnb', hj]
        rw [Nat.add_zero, ← hlen, List.drop_left]
        simp

/-- **Refinement of `absorb_bytes`**: if the object holds `msg`, then after the call it holds `msg ++ data`. -/
theorem absorbBytes_specIn {lim : Nat → Prop} {bs z msize : Nat} {step : Nat → Bytes → σ → σ} {inv : σ → Prop} {h0 : σ}
    {transform : Bytes → Nat → Blk σ → M (Blk σ)}
    (hbs : 0 < bs) (hz : z ≤ 1) (hm : bs ≤ msize) (hsz : bs < 2 ^ 62)
    (htr : IsTransformIn lim bs msize inv step transform)
    (hstep : ∀ i b h, b.length = bs → inv h → inv (step i b h)) (hinv0 : inv h0)
    (msg data : Bytes) (s : Blk σ) (hs : Buffered bs z msize step h0 msg s) (hdata : data.length < 2 ^ 63)
    (hlim : ∀ n, n ≤ (msg ++ data).length → lim n) :
    ∃ s', absorbBytes bs (bs + z) transform data s = .ok s' ∧ Buffered bs z msize step h0 (msg ++ data) s' := by
  obtain ⟨k, hk⟩ : ∃ k, k = (msg.length - z) / bs := ⟨_, rfl⟩
  have hle : k * bs ≤ msg.length := by
    have := Nat.div_mul_le_self (msg.length - z) bs
    rw [hk]; omega
  have hlt : msg.length - z < k * bs + bs := by
    have := Nat.lt_div_mul_add hbs (a := msg.length - z)
    rw [hk]; omega
  obtain ⟨hmlen, hpos, hh, htot, hbuf⟩ := hs
  rw [← hk] at hpos hh htot hbuf
  have hinv : inv s.h := hh ▸ foldBlocks_inv hstep _ _ _ hle hinv0
  unfold absorbBytes
  have hmod : (s.pos + data.length) % szMod = s.pos + data.length := by
    apply Nat.mod_eq_of_lt; simp only [szMod]; omega
  rw [hmod]
  by_cases hc : s.pos ≠ 0 ∧ s.pos + data.length ≥ bs + z
  · rw [if_pos hc]
    have hsub : szSub bs s.pos = bs - s.pos := by
      rw [szSub_eq _ _ (by omega) (by unfold szMod; omega)]; try omega
    have hple : s.pos ≤ bs := by omega
    have hread : readBytes data 0 (bs - s.pos) = .ok (data.take (bs - s.pos)) := by
      rw [readBytes_ok]
      · simp
      · omega
    have htl : (data.take (bs - s.pos)).length = bs - s.pos := by simp; omega
    have hcopy : memcpyTo s.m s.pos (data.take (bs - s.pos))
        = .ok (s.m.take s.pos ++ data.take (bs - s.pos) ++ s.m.drop bs) := by
      rw [memcpyTo_ok]
      · rw [htl]; congr 3; omega
      · rw [htl]; omega
    obtain ⟨m1, hm1⟩ : ∃ m1, m1 = s.m.take s.pos ++ data.take (bs - s.pos) ++ s.m.drop bs := ⟨_, rfl⟩
    have hm1len : m1.length = msize := by
      rw [hm1]; simp; omega
    obtain ⟨m', hm', ht⟩ := htr { s with m := m1 } m1 1 k (hlim _ (by rw [Nat.add_mul, List.length_append]; omega)) (by omega) hm1len hinv htot
    have hblock : blockAt bs 0 m1 = blockAt bs k (msg ++ data.take (bs - s.pos)) := by
      unfold blockAt
      rw [List.drop_append_of_le_length hle, hm1, ← hbuf]
      have hl : (s.m.take s.pos ++ data.take (bs - s.pos)).length = bs := by
        simp; omega
      simp only [Nat.zero_mul, List.drop_zero]
      rw [List.take_append_of_le_length (by omega)]
    have hl1 : (msg ++ data.take (bs - s.pos)).length = (k + 1) * bs := by
      rw [List.length_append, htl, Nat.add_mul]; omega
    have hfold : foldBlocks bs (fun j => step (k + j)) m1 1 s.h
        = foldBlocks bs step (msg ++ data.take (bs - s.pos)) (k + 1) h0 := by
      have e : foldBlocks bs step (msg ++ data.take (bs - s.pos)) (k + 1) h0
          = step k (blockAt bs k (msg ++ data.take (bs - s.pos)))
              (foldBlocks bs step (msg ++ data.take (bs - s.pos)) k h0) := by
        unfold foldBlocks
        rw [List.range_succ, List.foldl_append]; rfl
      rw [e, foldBlocks_append _ _ _ _ _ hle, ← hh, ← hblock]
      simp [foldBlocks, List.range_succ]
    rw [hsub, hread]
    simp only [bind, Except.bind]
    rw [hcopy]
    simp only
    rw [← hm1, ht]
    simp only [hsub]
    have hrec := absorbTail_zero (h0 := h0) hbs hz hm hsz htr (msg ++ data.take (bs - s.pos))
      (data.drop (bs - s.pos)) (k + 1)
      { h := foldBlocks bs (fun j => step (k + j)) m1 1 s.h, m := m', pos := 0,
        total := s.total + BitVec.ofNat 64 (bs * 8) }
      hl1 (Or.inr (by simp; omega)) hm' rfl hfold
      (by
        show inv (foldBlocks bs (fun j => step (k + j)) m1 1 s.h)
        exact foldBlocks_inv (fun i b h hb hh => hstep _ _ _ hb hh) _ _ _ (by omega) hinv)
      (by
        show s.total + BitVec.ofNat 64 (bs * 8) = _
        rw [htot, ← BitVec.ofNat_add, Nat.add_mul k 1 bs, Nat.one_mul, Nat.add_mul])
      (by simp; omega) (by rw [List.append_assoc, List.take_append_drop]; exact hlim)
    rw [List.append_assoc, List.take_append_drop] at hrec
    exact hrec
  · rw [if_neg hc]
    by_cases hp0 : s.pos = 0
    · have hlen : msg.length = k * bs := by omega
      have hk0 : k = 0 ∨ z ≤ data.length := by
        by_cases hk0 : k = 0
        · exact Or.inl hk0
        · right
          rcases Nat.lt_or_ge 0 z with h | h
          · exfalso
            have hz1 : z = 1 := by omega
            have : k * bs ≥ 1 * bs := Nat.mul_le_mul_right bs (by omega)
            have h2 := Nat.div_mul_le_self (msg.length - z) bs
            rw [← hk] at h2
            omega
          · omega
      exact absorbTail_zero hbs hz hm hsz htr msg data k s hlen hk0 hmlen hp0 hh hinv htot hdata hlim
    · have hlt2 : s.pos + data.length < bs + z := by
        have := not_and.mp hc hp0; omega
      have hdl : ¬ bs + z ≤ data.length := by omega
      have hnb' : ((msg ++ data).length - z) / bs = k := by
        have : (msg ++ data).length - z = (s.pos + data.length - z) + k * bs := by
          simp; omega
        rw [this, Nat.add_mul_div_right _ _ hbs, Nat.div_eq_of_lt (by omega)]; omega
      unfold absorbTail
      have hcopy : memcpyTo s.m s.pos data
          = .ok (s.m.take s.pos ++ data ++ s.m.drop (s.pos + data.length)) := by
        rw [memcpyTo_ok]; omega
      refine ⟨{ s with m := s.m.take s.pos ++ data ++ s.m.drop (s.pos + data.length),
                       pos := s.pos + data.length }, ?_, ?_⟩
      · rw [if_neg hdl]
        exact absorbRest_ok data s _ hcopy
      · constructor
        · simp; omega
        · simp only [hnb']; simp; omega
        · simp only [hnb']; rw [hh, foldBlocks_append _ _ _ _ _ hle]
        · simp only [hnb', htot]
        · simp only [hnb']
          have hl : s.pos + data.length = (s.m.take s.pos ++ data).length := by simp; omega
          rw [hl, List.take_left, List.drop_append_of_le_length hle, hbuf]

/-- The same without a limit. -/
theorem absorbBytes_spec {bs z msize : Nat} {step : Nat → Bytes → σ → σ} {inv : σ → Prop} {h0 : σ}
    {transform : Bytes → Nat → Blk σ → M (Blk σ)}
    (hbs : 0 < bs) (hz : z ≤ 1) (hm : bs ≤ msize) (hsz : bs < 2 ^ 62)
    (htr : IsTransform bs msize inv step transform)
    (hstep : ∀ i b h, b.length = bs → inv h → inv (step i b h)) (hinv0 : inv h0)
    (msg data : Bytes) (s : Blk σ) (hs : Buffered bs z msize step h0 msg s) (hdata : data.length < 2 ^ 63) :
    ∃ s', absorbBytes bs (bs + z) transform data s = .ok s' ∧ Buffered bs z msize step h0 (msg ++ data) s' :=
  absorbBytes_specIn hbs hz hm hsz htr.isIn hstep hinv0 msg data s hs hdata (fun _ _ => trivial)

/-- What is known of an object that may have absorbed anything: the buffer has its size, the fill position is in range. -/
structure Safe (bs z msize : Nat) (inv : σ → Prop) (s : Blk σ) : Prop where
  mlen : s.m.length = msize
  pos : s.pos < bs + z
  inv : inv s.h

/-- A `transform` callback that runs without undefined behaviour and keeps the invariant. -/
def SafeTransform (bs msize : Nat) (inv : σ → Prop) (transform : Bytes → Nat → Blk σ → M (Blk σ)) : Prop :=
  ∀ (s : Blk σ) (data : Bytes) (n : Nat), n * bs ≤ data.length → s.m.length = msize → inv s.h →
    ∃ h' m', m'.length = msize ∧ inv h' ∧ transform data n s = .ok { s with h := h', m := m' }

theorem absorbTail_safe {bs z msize : Nat} {inv : σ → Prop} {transform : Bytes → Nat → Blk σ → M (Blk σ)}
    (hbs : 0 < bs) (hz : z ≤ 1) (hm : bs ≤ msize) (hsz : bs < 2 ^ 62) (htr : SafeTransform bs msize inv transform)
    (data : Bytes) (s : Blk σ) (hmlen : s.m.length = msize) (hinv : inv s.h) (hd : data.length < 2 ^ 63)
    (hp : s.pos = 0 ∨ s.pos + data.length < bs + z) :
    ∃ s', absorbTail bs (bs + z) transform data s = .ok s' ∧ Safe bs z msize inv s' := by
  unfold absorbTail
  by_cases hge : data.length ≥ bs + z
  · have hp0 : s.pos = 0 := by omega
    have hsub : szSub (data.length + bs) (bs + z) = data.length - z := by
      rw [szSub_eq _ _ (by omega) (by unfold szMod; omega)]; try omega
    obtain ⟨j, hj⟩ : ∃ j, j = (data.length - z) / bs := ⟨_, rfl⟩
    have hjle : j * bs ≤ data.length := by
      have := Nat.div_mul_le_self (data.length - z) bs
      rw [hj]; omega
    have hrem : data.length - j * bs < bs + z := by
      have := Nat.lt_div_mul_add hbs (a := data.length - z)
      rw [hj]; omega
    obtain ⟨h', m', hm', hi', ht⟩ := htr s data j hjle hmlen hinv
    have hdl : (data.drop (j * bs)).length = data.length - j * bs := List.length_drop
    rw [if_pos hge, if_neg (by omega), hsub]
    dsimp only
    rw [← hj, ht]
    refine ⟨_, absorbRest_ok _ _ _ (memcpyTo_ok _ _ _ (by rw [hdl]; show s.pos + _ ≤ m'.length; omega)), ?_, ?_, hi'⟩
    · show (m'.take s.pos ++ data.drop (j * bs) ++ m'.drop (s.pos + (data.drop (j * bs)).length)).length = _
      rw [List.length_append, List.length_append, List.length_take, hdl, List.length_drop]
      omega
    · show s.pos + (data.drop (j * bs)).length < _
      rw [hdl]; omega
  · rw [if_neg hge]
    refine ⟨_, absorbRest_ok _ _ _ (memcpyTo_ok _ _ _ (by omega)), ?_, ?_, hinv⟩
    · show (s.m.take s.pos ++ data ++ s.m.drop (s.pos + data.length)).length = _
      rw [List.length_append, List.length_append, List.length_take, List.length_drop]
      omega
    · show s.pos + data.length < _
      omega

/-- **`absorb_bytes` stays within its arrays**, whatever the object has absorbed before. -/
theorem absorbBytes_safe {bs z msize : Nat} {inv : σ → Prop} {transform : Bytes → Nat → Blk σ → M (Blk σ)}
    (hbs : 0 < bs) (hz : z ≤ 1) (hm : bs ≤ msize) (hsz : bs < 2 ^ 62) (htr : SafeTransform bs msize inv transform)
    (data : Bytes) (s : Blk σ) (h : Safe bs z msize inv s) (hd : data.length < 2 ^ 63) :
    ∃ s', absorbBytes bs (bs + z) transform data s = .ok s' ∧ Safe bs z msize inv s' := by
  obtain ⟨hmlen, hpos, hinv⟩ := h
  unfold absorbBytes
  have hmod : (s.pos + data.length) % szMod = s.pos + data.length := by
    apply Nat.mod_eq_of_lt; simp only [szMod]; omega
  rw [hmod]
  by_cases hc : s.pos ≠ 0 ∧ s.pos + data.length ≥ bs + z
  · rw [if_pos hc]
    have hsub : szSub bs s.pos = bs - s.pos := by
      rw [szSub_eq _ _ (by omega) (by unfold szMod; omega)]; try omega
    have htl : ((data.drop 0).take (bs - s.pos)).length = bs - s.pos := by simp; omega
    rw [hsub, readBytes_ok _ _ _ (by omega), ok_bind, memcpyTo_ok _ _ _ (by rw [htl]; omega), ok_bind, htl]
    obtain ⟨m1, hm1⟩ : ∃ m1, m1 = s.m.take s.pos ++ (data.drop 0).take (bs - s.pos) ++ s.m.drop (s.pos + (bs - s.pos)) := ⟨_, rfl⟩
    have hm1len : m1.length = msize := by
      rw [hm1, List.length_append, List.length_append, List.length_take, List.length_drop, htl]; omega
    rw [← hm1]
    obtain ⟨h', m', hm', hi', ht⟩ := htr { s with m := m1 } m1 1 (by omega) hm1len hinv
    rw [ht, ok_bind]
    exact absorbTail_safe hbs hz hm hsz htr _ _ hm' hi' (by rw [List.length_drop]; omega) (Or.inl rfl)
  · rw [if_neg hc]
    exact absorbTail_safe hbs hz hm hsz htr data s hmlen hinv hd (by omega)

end Digestpp.Proofs
