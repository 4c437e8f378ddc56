import Verif.Proofs.Jh
import Verif.Proofs.Leak.Groestl
import Verif.Proofs.Locals.Groestl

/-! What the indices into tables tell: Grøstl and Kupyna. -/

namespace Digestpp.Proofs.Leak
open Model

section
variable {α β γ δ σ σ' τ : Type}

/-- Nothing from the first step. -/
theorem Reveals.skip {Q : γ → δ → Prop} {x : L α} {y : L β} {f : α → L γ} {g : β → L δ} (h : Len x y)
    (hf : ∀ a b, Reveals Q (f a) (g b)) : Reveals Q (x >>= f) (y >>= g) :=
  Reveals.bind h (fun a b => (hf a b).len) fun a b _ => hf a b

/-- Something from both steps. -/
theorem Reveals.also {P Q : Prop} {x : L α} {y : L β} {f : α → L γ} {g : β → L δ} (h : Reveals (fun _ _ => P) x y)
    (hf : ∀ a b, Reveals (fun _ _ => Q) (f a) (g b)) : Reveals (fun _ _ => P ∧ Q) (x >>= f) (y >>= g) :=
  Reveals.bind h (fun a b => (hf a b).len) fun a b p => (hf a b).mono fun _ _ q => ⟨p, q⟩

/-- A loop reveals what its iterations do. -/
theorem Reveals.loop_each {P : Nat → Prop} {n : Nat} {f : Nat → σ → L σ} {g : Nat → σ' → L σ'} {s : σ} {s' : σ'}
    (h : ∀ t s s', Reveals (fun _ _ => P t) (f t s) (g t s')) : Reveals (fun _ _ => ∀ t, t < n → P t) (Leak.loop 0 n f s) (Leak.loop 0 n g s') :=
  (Reveals.loop (R := Any) (P := P) (fun t s s' => (h t s s').len) trivial fun t _ s s' _ => (h t s s').mono fun _ _ p => ⟨trivial, p⟩).mono fun _ _ p => p.2

theorem Reveals.loopDown_each {P : Nat → Prop} {n : Nat} {f : Nat → σ → L σ} {g : Nat → σ' → L σ'} {s : σ} {s' : σ'}
    (h : ∀ t s s', Reveals (fun _ _ => P t) (f t s) (g t s')) : Reveals (fun _ _ => ∀ t, t < n → P t) (Leak.loopDown n f s) (Leak.loopDown n g s') := by
  refine Reveals.skip Len.op fun _ _ => ?_
  refine (Reveals.foldlM (R := Any) (P := P) _ (fun t s s' => (h t s s').len) (fun t _ s s' _ => (h t s s').mono fun _ _ p => ⟨trivial, p⟩) s s' trivial).mono
    fun _ _ ⟨_, p⟩ t ht => p t (List.mem_reverse.2 (List.mem_range.2 ht))

/-- The first iteration. -/
theorem Reveals.loop_first {P : Prop} {n : Nat} {f : Nat → σ → L σ} {g : Nat → σ' → L σ'} {s : σ} {s' : σ'} (hn : 0 < n)
    (hl : ∀ t s s', Len (f t s) (g t s')) (h : Reveals (fun _ _ => P) (f 0 s) (g 0 s')) : Reveals (fun _ _ => P) (Leak.loop 0 n f s) (Leak.loop 0 n g s') := by
  obtain ⟨m, rfl⟩ : ∃ m, n = m + 1 := ⟨n - 1, by omega⟩
  refine Reveals.skip Len.op fun _ _ => ?_
  show Reveals _ ((List.range' 0 (m + 1)).foldlM _ _) ((List.range' 0 (m + 1)).foldlM _ _)
  rw [List.range'_succ, List.foldlM_cons, List.foldlM_cons]
  exact h.left fun a b => Len.foldlM fun t s s' => hl t s s'

theorem rd_val {a : List α} {i : Nat} {x d : α} (h : rd a i = .ok x) : x = a.getD i d := by
  by_cases hi : i < a.length
  · rw [rd_ok d hi] at h; exact (Except.ok.inj h).symm
  · unfold rd at h
    rw [List.getElem?_eq_none (by omega)] at h
    cases h

end

/-- Byte `i` of a word, as in `T[i][static_cast<unsigned char>(x >> (8 * i))]`. -/
def byteOf {w : Nat} (x : BitVec w) (n : Nat) : BitVec 8 := (x >>> n).setWidth 8

theorem eq_of_bytes {x y : BitVec 64} (h : ∀ i, i < 8 → byteOf x (8 * i) = byteOf y (8 * i)) : x = y := by
  refine BitVec.eq_of_getLsbD_eq fun k hk => ?_
  have e := congrArg (fun b : BitVec 8 => b.getLsbD (k % 8)) (h (k / 8) (by omega))
  have hk8 : decide (k % 8 < 8) = true := decide_eq_true (by omega)
  simp only [byteOf, BitVec.getLsbD_setWidth, BitVec.getLsbD_ushiftRight, hk8, Bool.true_and] at e
  rwa [show 8 * (k / 8) + k % 8 = k by omega] at e

theorem list_ext {α : Type} {R : Nat} {x y : List α} (d : α) (hx : x.length = R) (hy : y.length = R) (h : ∀ j, j < R → x.getD j d = y.getD j d) : x = y := by
  refine List.ext_getElem (by omega) fun j h1 h2 => ?_
  have := h j (by omega)
  rwa [List.getD_eq_getElem?_getD, List.getD_eq_getElem?_getD, List.getElem?_eq_getElem h1, List.getElem?_eq_getElem h2] at this

/-- The words at `j` have the same byte `i`. -/
abbrev SameByte (i : Nat) (x x' : List (BitVec 64)) (j : Nat) : Prop := byteOf (x.getD j 0) (8 * i) = byteOf (x'.getD j 0) (8 * i)

/-- A read shows its index; the result is the element. -/
theorem Reveals.rd {α β : Type} {a : List α} {b : List β} {i j : Nat} (d : α) (e : β) :
    Reveals (fun x y => i = j ∧ x = a.getD i d ∧ y = b.getD j e) (Leak.rd a i) (Leak.rd b j) := by
  refine Reveals.op.mono fun x y ⟨h, h1, h2⟩ => ⟨?_, rd_val h1, rd_val h2⟩
  cases h
  rfl

theorem look_reveals (T : List (List (BitVec 64))) (x x' : List (BitVec 64)) (i j : Nat) :
    Reveals (fun _ _ => SameByte i x x' j) (Model.Leak.look T x i j) (Model.Leak.look T x' i j) := by
  unfold Model.Leak.look
  refine Reveals.skip Len.rd fun r r' => ?_
  refine Reveals.bind (Reveals.rd 0 0) (fun _ _ => Len.rd) fun v v' ⟨_, h1, h2⟩ => ?_
  refine (Reveals.rd 0 0).mono fun _ _ ⟨e, _, _⟩ => ?_
  rw [h1, h2] at e
  exact BitVec.eq_of_toNat_eq e

theorem cell_reveals (T : List (List (BitVec 64))) (x x' : List (BitVec 64)) (j0 j1 j2 j3 j4 j5 j6 j7 : Nat) :
    Reveals (fun _ _ => SameByte 0 x x' j0 ∧ SameByte 1 x x' j1 ∧ SameByte 2 x x' j2 ∧ SameByte 3 x x' j3 ∧ SameByte 4 x x' j4 ∧ SameByte 5 x x' j5 ∧
      SameByte 6 x x' j6 ∧ SameByte 7 x x' j7 ∧ True) (Model.Leak.cell T x j0 j1 j2 j3 j4 j5 j6 j7) (Model.Leak.cell T x' j0 j1 j2 j3 j4 j5 j6 j7) := by
  unfold Model.Leak.cell
  exact (look_reveals _ _ _ _ _).also fun _ _ => (look_reveals _ _ _ _ _).also fun _ _ => (look_reveals _ _ _ _ _).also fun _ _ => (look_reveals _ _ _ _ _).also fun _ _ =>
    (look_reveals _ _ _ _ _).also fun _ _ => (look_reveals _ _ _ _ _).also fun _ _ => (look_reveals _ _ _ _ _).also fun _ _ => (look_reveals _ _ _ _ _).also fun _ _ => Reveals.pure trivial

/-- Every byte of every word is used once as an index. -/
theorem words_of_cells {R : Nat} {x x' : List (BitVec 64)} (hx : x.length = R) (hx' : x'.length = R) {i0 i1 i2 i3 i4 i5 i6 i7 : Nat → Nat}
    (s : ∀ j, j < R → (∃ c, c < R ∧ i0 c = j) ∧ (∃ c, c < R ∧ i1 c = j) ∧ (∃ c, c < R ∧ i2 c = j) ∧ (∃ c, c < R ∧ i3 c = j) ∧
      (∃ c, c < R ∧ i4 c = j) ∧ (∃ c, c < R ∧ i5 c = j) ∧ (∃ c, c < R ∧ i6 c = j) ∧ ∃ c, c < R ∧ i7 c = j)
    (h : ∀ c, c < R → SameByte 0 x x' (i0 c) ∧ SameByte 1 x x' (i1 c) ∧ SameByte 2 x x' (i2 c) ∧ SameByte 3 x x' (i3 c) ∧ SameByte 4 x x' (i4 c) ∧
      SameByte 5 x x' (i5 c) ∧ SameByte 6 x x' (i6 c) ∧ SameByte 7 x x' (i7 c) ∧ True) : x = x' := by
  refine list_ext 0 hx hx' fun j hj => eq_of_bytes fun i hi => ?_
  obtain ⟨⟨c0, l0, e0⟩, ⟨c1, l1, e1⟩, ⟨c2, l2, e2⟩, ⟨c3, l3, e3⟩, ⟨c4, l4, e4⟩, ⟨c5, l5, e5⟩, ⟨c6, l6, e6⟩, c7, l7, e7⟩ := s j hj
  match i, hi with
  | 0, _ => exact e0 ▸ (h c0 l0).1
  | 1, _ => exact e1 ▸ (h c1 l1).2.1
  | 2, _ => exact e2 ▸ (h c2 l2).2.2.1
  | 3, _ => exact e3 ▸ (h c3 l3).2.2.2.1
  | 4, _ => exact e4 ▸ (h c4 l4).2.2.2.2.1
  | 5, _ => exact e5 ▸ (h c5 l5).2.2.2.2.2.1
  | 6, _ => exact e6 ▸ (h c6 l6).2.2.2.2.2.2.1
  | 7, _ => exact e7 ▸ (h c7 l7).2.2.2.2.2.2.2.1
  | n + 8, h => omega

/-- A round shows its first argument. -/
def RReveals (R : Nat) (P : Model.Leak.PRound) : Prop :=
  ∀ x y i x' y', x.length = R → x'.length = R → Reveals (fun _ _ => x = x') (P x y i) (P x' y' i)

theorem mix_reveals {R : Nat} {f : Nat → BitVec 64 → BitVec 64} (hf : ∀ i a b, f i a = f i b → a = b) {x x' : List (BitVec 64)} (hx : x.length = R) (hx' : x'.length = R)
    {γ δ : Type} {g : List (BitVec 64) → L γ} {g' : List (BitVec 64) → L δ}
    (h : ∀ z z', z.length = R → z'.length = R → Reveals (fun _ _ => z = z') (g z) (g' z')) (hl : ∀ z z', Len (g z) (g' z')) :
    Reveals (fun _ _ => x = x') (Model.Leak.mix R f x >>= g) (Model.Leak.mix R f x' >>= g') := by
  refine Reveals.bind (R := fun a b => a = ((List.range R).map fun idx => f idx (x.getD idx 0)) ∧ b = ((List.range R).map fun idx => f idx (x'.getD idx 0)))
    (Reveals.ofErase (mix_len _ _ _ _ _) (fun a e => ?_) fun a e => ?_) hl fun z z' ⟨e, e'⟩ => ?_
  · rw [mix_erase, Proofs.Locals.mix_ok R f x hx] at e
    exact (Except.ok.inj e).symm
  · rw [mix_erase, Proofs.Locals.mix_ok R f x' hx'] at e
    exact (Except.ok.inj e).symm
  · refine (h z z' (by rw [e]; simp) (by rw [e']; simp)).mono fun _ _ ez => ?_
    refine list_ext 0 hx hx' fun j hj => hf j _ _ ?_
    rw [e, e'] at ez
    have := congrArg (fun l => l.getD j 0) ez
    simpa [List.getD_eq_getElem?_getD, hj] using this

/-- The first double round shows both arrays. -/
theorem stepPQ_reveals {R : Nat} {P Q : Model.Leak.PRound} (hP : RReveals R P) (hQ : RReveals R Q) (lP : RLen P) (lQ : RLen Q) (qarg : BitVec 64 → BitVec 64) (r : BitVec 64)
    (k k' : Locals.PQ) (hk : k.Sized R) (hk' : k'.Sized R) :
    Reveals (fun _ _ => k.AP1 = k'.AP1 ∧ k.AQ1 = k'.AQ1) (Model.Leak.stepPQ P Q qarg r k) (Model.Leak.stepPQ P Q qarg r k') := by
  unfold Model.Leak.stepPQ
  refine (hP _ _ _ _ _ hk.2.2.1 hk'.2.2.1).also fun _ _ => ?_
  refine Reveals.skip (lP _ _ _ _ _ _) fun _ _ => ?_
  refine (hQ _ _ _ _ _ hk.1 hk'.1).left fun _ _ => ?_
  len [(lQ _ _ _ _ _ _)]

theorem add_right_inj {w : Nat} {a b c : BitVec w} (h : a + c = b + c) : a = b := by
  have := congrArg (· - c) h
  simpa using this

theorem xor_left_inj {a b c : BitVec 64} (h : a ^^^ b = a ^^^ c) : b = c := by
  have := congrArg (a ^^^ ·) h
  simpa [← BitVec.xor_assoc] using this

theorem xor_right_inj {a b c : BitVec 64} (h : b ^^^ a = c ^^^ a) : b = c := by
  rw [BitVec.xor_comm b, BitVec.xor_comm c] at h
  exact xor_left_inj h

theorem loads64_inj {n : Nat} {b b' : Bytes} (hb : b.length = 8 * n) (hb' : b'.length = 8 * n) (h : ∀ c, c < n → (loads64 n b).getD c 0 = (loads64 n b').getD c 0) : b = b' := by
  refine list_ext 0 hb hb' fun k hk => BitVec.eq_of_getLsbD_eq fun t ht => ?_
  have e := h (k / 8) (by omega)
  unfold loads64 at e
  rw [getD_map_range _ _ _ _ (by omega), getD_map_range _ _ _ _ (by omega)] at e
  have e := congrArg (fun x : BitVec 64 => x.getLsbD (8 * (k % 8) + t)) e
  rw [Jh.le64_bit _ _ (by omega), Jh.le64_bit _ _ (by omega)] at e
  simp only [List.getD_eq_getElem?_getD, List.getElem?_drop] at e ⊢
  rwa [show (8 * (k % 8) + t) / 8 = k % 8 by omega, show (8 * (k % 8) + t) % 8 = t by omega, show 8 * (k / 8) + k % 8 = k by omega] at e

/-- A block shows the chaining value and the data. -/
theorem compress_reveals {R its : Nat} (hits : 0 < its) {P Q : Model.Leak.PRound} (hP : RReveals R P) (hQ : RReveals R Q) (lP : RLen P) (lQ : RLen Q)
    (qarg : BitVec 64 → BitVec 64) (k k' : Locals.PQ) (hk : k.Sized R) (hk' : k'.Sized R) (h h' : List (BitVec 64)) (hh : R ≤ h.length) (hh' : R ≤ h'.length)
    (mp b mp' b' : Bytes) (hb : b.length = 8 * R) (hb' : b'.length = 8 * R) (hm : ∀ c, c < R → rd64 mp c = .ok ((loads64 R b).getD c 0))
    (hm' : ∀ c, c < R → rd64 mp' c = .ok ((loads64 R b').getD c 0)) :
    Reveals (fun _ _ => h.take R = h'.take R ∧ b = b') (Model.Leak.compress R its P Q qarg k h mp) (Model.Leak.compress R its P Q qarg k' h' mp') := by
  unfold Model.Leak.compress
  refine Reveals.bind (Reveals.ofErase
    (P := fun a => a = { k with AP1 := (List.range R).map fun c => h.getD c 0 ^^^ (loads64 R b).getD c 0, AQ1 := (List.range R).map fun c => (loads64 R b).getD c 0 })
    (Q := fun a => a = { k' with AP1 := (List.range R).map fun c => h'.getD c 0 ^^^ (loads64 R b').getD c 0, AQ1 := (List.range R).map fun c => (loads64 R b').getD c 0 })
    (fillPQ_len _ _ _ _ _ _ _) (fun a e => ?_) fun a e => ?_) (fun _ _ => ?_) fun a a' ⟨e, e'⟩ => ?_
  · rw [fillPQ_erase, Proofs.Locals.fillPQ_ok R h hh mp b hm k hk] at e
    exact (Except.ok.inj e).symm
  · rw [fillPQ_erase, Proofs.Locals.fillPQ_ok R h' hh' mp' b' hm' k' hk'] at e
    exact (Except.ok.inj e).symm
  · len [(stepPQ_len lP lQ _ _ _ _)]
  · have sa : a.Sized R := by rw [e]; exact ⟨by simp, hk.2.1, by simp, hk.2.2.2⟩
    have sa' : a'.Sized R := by rw [e']; exact ⟨by simp, hk'.2.1, by simp, hk'.2.2.2⟩
    have main := (Reveals.loop_first hits (fun t s s' => stepPQ_len lP lQ qarg (BitVec.ofNat 64 (2 * t)) s s')
      (stepPQ_reveals hP hQ lP lQ qarg (BitVec.ofNat 64 (2 * 0)) a a' sa sa')).mono (Q := fun _ _ => h.take R = h'.take R ∧ b = b') (by
      rintro - - ⟨e1, e2⟩
      rw [e, e'] at e1 e2
      have q : ∀ c, c < R → (loads64 R b).getD c 0 = (loads64 R b').getD c 0 := fun c hc => by
        have := congrArg (fun l => l.getD c 0) e2
        dsimp only at this
        rwa [getD_map_range _ _ _ _ hc, getD_map_range _ _ _ _ hc] at this
      refine ⟨list_ext (R := R) 0 (by rw [List.length_take]; omega) (by rw [List.length_take]; omega) fun c hc => ?_, loads64_inj hb hb' q⟩
      have := congrArg (fun l => l.getD c 0) e1
      dsimp only at this
      rw [getD_map_range _ _ _ _ hc, getD_map_range _ _ _ _ hc, q c hc] at this
      have := xor_right_inj this
      simpa [List.getD_eq_getElem?_getD, List.getElem?_take, hc] using this)
    exact main.left fun _ _ => by len []

/-- The blocks at `t` are the same. -/
def SameBlock (bs : Nat) (data data' : Bytes) (t : Nat) : Prop := (data.drop (bs * t)).take bs = (data'.drop (bs * t)).take bs

theorem take_of_blocks {bs n : Nat} {data data' : Bytes} (h : ∀ t, t < n → SameBlock bs data data' t) : data.take (n * bs) = data'.take (n * bs) := by
  induction n with
  | zero => simp
  | succ n ih =>
    have e := h n (by omega)
    unfold SameBlock at e
    rw [Nat.add_mul, Nat.one_mul, List.take_add, List.take_add, ih fun t ht => h t (by omega), Nat.mul_comm n bs, e]

theorem block_length {bs n t : Nat} {data : Bytes} (hd : n * bs ≤ data.length) (ht : t < n) : ((data.drop (bs * t)).take bs).length = bs := by
  have : bs * t + bs ≤ n * bs := by
    have := Nat.mul_le_mul_left bs (show t + 1 ≤ n by omega)
    rwa [Nat.mul_add, Nat.mul_one, Nat.mul_comm bs n] at this
  rw [List.length_take, List.length_drop]
  omega

theorem block_words {bs R n t : Nat} {data : Bytes} (hbs : bs = 8 * R) (hd : n * bs ≤ data.length) (ht : t < n) (c : Nat) (hc : c < R) :
    rd64 (data.drop (bs * t)) c = .ok ((loads64 R ((data.drop (bs * t)).take bs)).getD c 0) := by
  have hl := block_length hd ht
  refine Proofs.rd64_drop (m := bs) ?_ (by omega) R hc
  unfold readBytes
  rw [List.length_take, List.length_drop] at hl
  by_cases h0 : bs = 0
  · omega
  · rw [if_pos (by omega)]

namespace Groestl
open Model.Groestl

theorem index (R s : Nat) (hR : R = 8 ∨ R = 16) (hs : s < R) (j : Nat) (hj : j < R) : ∃ c, c < R ∧ (c + s) % R = j := by
  rcases hR with rfl | rfl
  · exact ⟨(j + (8 - s)) % 8, by omega, by omega⟩
  · exact ⟨(j + (16 - s)) % 16, by omega, by omega⟩

theorem lookups_reveals {R : Nat} (hR : R = 8 ∨ R = 16) (s0 s1 s2 s3 s4 s5 s6 s7 : Nat) (hs : s0 < R ∧ s1 < R ∧ s2 < R ∧ s3 < R ∧ s4 < R ∧ s5 < R ∧ s6 < R ∧ s7 < R)
    (x y x' y' : List (BitVec 64)) (hx : x.length = R) (hx' : x'.length = R) :
    Reveals (fun _ _ => x = x') (Model.Leak.Groestl.lookups R s0 s1 s2 s3 s4 s5 s6 s7 x y) (Model.Leak.Groestl.lookups R s0 s1 s2 s3 s4 s5 s6 s7 x' y') := by
  obtain ⟨h0, h1, h2, h3, h4, h5, h6, h7⟩ := hs
  unfold Model.Leak.Groestl.lookups
  refine (Reveals.loopDown_each fun c s s' => (cell_reveals groestl_T x x' _ _ _ _ _ _ _ _).left fun _ _ => Len.wr).mono fun _ _ h => ?_
  exact words_of_cells hx hx' (fun j hj => ⟨index R s0 hR h0 j hj, index R s1 hR h1 j hj, index R s2 hR h2 j hj, index R s3 hR h3 j hj,
    index R s4 hR h4 j hj, index R s5 hR h5 j hj, index R s6 hR h6 j hj, index R s7 hR h7 j hj⟩) h

theorem roundP_reveals {R : Nat} (hR : R = 8 ∨ R = 16) : RReveals R (Model.Leak.Groestl.roundP R) := by
  intro x y i x' y' hx hx'
  unfold Model.Leak.Groestl.roundP
  refine mix_reveals ?_ hx hx' (fun z z' hz hz' => ?_) fun _ _ => ?_
  · intro _ _ _ h
    exact xor_right_inj h
  · exact (lookups_reveals hR _ _ _ _ _ _ _ _ (by rcases hR with rfl | rfl <;> decide) z y z' y' hz hz').left fun _ _ => Reveals.pure trivial
  · len [(lookups_len _ _ _ _ _ _ _ _ _ _ _ _ _)]

theorem roundQ_reveals {R : Nat} (hR : R = 8 ∨ R = 16) : RReveals R (Model.Leak.Groestl.roundQ R) := by
  intro x y i x' y' hx hx'
  unfold Model.Leak.Groestl.roundQ
  refine mix_reveals ?_ hx hx' (fun z z' hz hz' => ?_) fun _ _ => ?_
  · intro _ _ _ h
    exact xor_right_inj h
  · exact (lookups_reveals hR _ _ _ _ _ _ _ _ (by rcases hR with rfl | rfl <;> decide) z y z' y' hz hz').left fun _ _ => Reveals.pure trivial
  · len [(lookups_len _ _ _ _ _ _ _ _ _ _ _ _ _)]

end Groestl

namespace Kupyna
open Model.Kupyna

theorem index (R s : Nat) (hR : R = 8 ∨ R = 16) (hs : s < R) (j : Nat) (hj : j < R) : ∃ c, c < R ∧ (c + R - s) % R = j := by
  rcases hR with rfl | rfl
  · exact ⟨(j + s) % 8, by omega, by omega⟩
  · exact ⟨(j + s) % 16, by omega, by omega⟩

theorem G_reveals {R : Nat} (hR : R = 8 ∨ R = 16) (x y x' y' : List (BitVec 64)) (hx : x.length = R) (hx' : x'.length = R) :
    Reveals (fun _ _ => x = x') (Model.Leak.Kupyna.G R x y) (Model.Leak.Kupyna.G R x' y') := by
  unfold Model.Leak.Kupyna.G
  refine (Reveals.loop_each fun c s s' => (cell_reveals kupyna_T x x' _ _ _ _ _ _ _ _).left fun _ _ => Len.wr).mono fun _ _ h => ?_
  have h7 : (if R = 16 then 11 else 7) < R := by rcases hR with rfl | rfl <;> decide
  exact words_of_cells hx hx' (fun j hj => ⟨index R 0 hR (by omega) j hj, index R 1 hR (by omega) j hj, index R 2 hR (by omega) j hj, index R 3 hR (by omega) j hj,
    index R 4 hR (by omega) j hj, index R 5 hR (by omega) j hj, index R 6 hR (by omega) j hj, index R _ hR h7 j hj⟩) h

theorem roundP_reveals {R : Nat} (hR : R = 8 ∨ R = 16) : RReveals R (Model.Leak.Kupyna.roundP R) := by
  intro x y i x' y' hx hx'
  unfold Model.Leak.Kupyna.roundP
  refine mix_reveals ?_ hx hx' (fun z z' hz hz' => ?_) fun _ _ => ?_
  · intro _ _ _ h
    exact xor_right_inj h
  · exact (G_reveals hR z y z' y' hz hz').left fun _ _ => Reveals.pure trivial
  · len [(G_len _ _ _ _ _)]

theorem roundQ_reveals {R : Nat} (hR : R = 8 ∨ R = 16) : RReveals R (Model.Leak.Kupyna.roundQ R) := by
  intro x y i x' y' hx hx'
  unfold Model.Leak.Kupyna.roundQ
  refine mix_reveals ?_ hx hx' (fun z z' hz hz' => ?_) fun _ _ => ?_
  · intro _ _ _ h
    exact add_right_inj h
  · exact (G_reveals hR z y z' y' hz hz').left fun _ _ => Reveals.pure trivial
  · len [(G_len _ _ _ _ _)]

end Kupyna

/-- The loop over the blocks shows the chaining value and all the data. -/
theorem blocks_reveal {R bs its n : Nat} (hn : 0 < n) (hbs : bs = 8 * R) (hits : 0 < its) (hR : R ≤ 16) {P Q : Model.Leak.PRound} {P' Q' : Model.Locals.PRound}
    {fP fQ : List (BitVec 64) → BitVec 64 → List (BitVec 64)} (eP : RErase P P') (eQ : RErase Q Q') (oP : Locals.Rounds R P' fP) (oQ : Locals.Rounds R Q' fQ)
    (hP : RReveals R P) (hQ : RReveals R Q) (lP : RLen P) (lQ : RLen Q) (qarg : BitVec 64 → BitVec 64) (k k' : Nat → Locals.PQ) (hk : ∀ i, (k i).Sized R)
    (hk' : ∀ i, (k' i).Sized R) (h h' : List (BitVec 64)) (hh : h.length = 16) (hh' : h'.length = 16) (data data' : Bytes) (hd : n * bs ≤ data.length)
    (hd' : n * bs ≤ data'.length) :
    Reveals (fun _ _ => h.take R = h'.take R ∧ data.take (n * bs) = data'.take (n * bs))
      (Leak.loop 0 n (fun blk h => Model.Leak.compress R its P Q qarg (k blk) h (data.drop (bs * blk))) h)
      (Leak.loop 0 n (fun blk h => Model.Leak.compress R its P Q qarg (k' blk) h (data'.drop (bs * blk))) h') := by
  have ln : ∀ t (s s' : List (BitVec 64)), Len (Model.Leak.compress R its P Q qarg (k t) s (data.drop (bs * t)))
      (Model.Leak.compress R its P Q qarg (k' t) s' (data'.drop (bs * t))) := fun t s s' => compress_len lP lQ R its qarg (k t) (k' t) s s' _ _
  have step : ∀ t, t < n → ∀ s s' : List (BitVec 64), s.length = 16 → s'.length = 16 →
      Reveals (fun _ _ => s.take R = s'.take R ∧ SameBlock bs data data' t) (Model.Leak.compress R its P Q qarg (k t) s (data.drop (bs * t)))
        (Model.Leak.compress R its P Q qarg (k' t) s' (data'.drop (bs * t))) := by
    intro t ht s s' hs hs'
    exact compress_reveals hits hP hQ lP lQ qarg (k t) (k' t) (hk t) (hk' t) s s' (by omega) (by omega) _ ((data.drop (bs * t)).take bs) _
      ((data'.drop (bs * t)).take bs) ((block_length hd ht).trans hbs) ((block_length hd' ht).trans hbs) (block_words hbs hd ht) (block_words hbs hd' ht)
  have size : ∀ (k : Locals.PQ) (s : List (BitVec 64)) (data : Bytes) t a, t < n → n * bs ≤ data.length → k.Sized R → s.length = 16 →
      L.erase (Model.Leak.compress R its P Q qarg k s (data.drop (bs * t))) = .ok a → a.length = 16 := by
    intro k s data t a ht hd hk hs e
    rw [compress_erase eP eQ, Locals.compress_ok its oP oQ qarg k hk s hs hR _ _ (block_words hbs hd ht) _ rfl] at e
    rw [← Except.ok.inj e, List.length_append, List.length_map, List.length_range, List.length_drop]
    omega
  refine ((Reveals.loop_first hn ln ((step 0 hn h h' hh hh').mono fun _ _ e => e.1)).and
    (Reveals.loop (R := fun s s' => s.length = 16 ∧ s'.length = 16) (P := SameBlock bs data data') ln ⟨hh, hh'⟩ fun t ht s s' ⟨hs, hs'⟩ => ?_)).mono
      fun _ _ ⟨e1, _, e2⟩ => ⟨e1, take_of_blocks e2⟩
  exact (Reveals.ofErase (ln t s s') (fun a e => size _ _ _ t a ht hd (hk t) hs e) fun a e => size _ _ _ t a ht hd' (hk' t) hs' e).and
    ((step t ht s s' hs hs').mono fun _ _ e => e.2)

theorem Groestl.transform_reveals (n : Nat) (hn : 0 < n) (k k' : Nat → Locals.PQ) (data data' : Bytes) (s s' : Blk Model.Groestl.St) (hs : s.h.hs = s'.h.hs)
    (hk : ∀ i, (k i).Sized (Model.Groestl.cols s.h.hs)) (hk' : ∀ i, (k' i).Sized (Model.Groestl.cols s.h.hs)) (hh : s.h.h.length = 16) (hh' : s'.h.h.length = 16)
    (hd : n * Model.Groestl.blockBytes s.h.hs ≤ data.length) (hd' : n * Model.Groestl.blockBytes s.h.hs ≤ data'.length) :
    Reveals (fun _ _ => s.h.h.take (Model.Groestl.cols s.h.hs) = s'.h.h.take (Model.Groestl.cols s.h.hs) ∧
      data.take (n * Model.Groestl.blockBytes s.h.hs) = data'.take (n * Model.Groestl.blockBytes s.h.hs))
      (Model.Leak.Groestl.transform k data n s) (Model.Leak.Groestl.transform k' data' n s') := by
  obtain ⟨hc, hb⟩ := Locals.Groestl.cols_cases s.h.hs
  have hR : Model.Groestl.cols s.h.hs = 8 ∨ Model.Groestl.cols s.h.hs = 16 := hc.symm
  unfold Model.Leak.Groestl.transform
  rw [← hs]
  exact (blocks_reveal hn hb (by unfold Model.Groestl.iterations; split <;> decide) (by omega) (Groestl.roundP_erase _) (Groestl.roundQ_erase _)
    (Locals.Groestl.roundP_ok _ (by omega)) (Locals.Groestl.roundQ_ok _ (by omega)) (Groestl.roundP_reveals hR) (Groestl.roundQ_reveals hR) (Groestl.roundP_len _)
    (Groestl.roundQ_len _) _ k k' hk hk' s.h.h s'.h.h hh hh' data data' hd hd').left fun _ _ => Reveals.pure trivial

theorem Kupyna.transform_reveals (n : Nat) (hn : 0 < n) (k k' : Nat → Locals.PQ) (data data' : Bytes) (s s' : Blk Model.Kupyna.St) (hs : s.h.hs = s'.h.hs)
    (hk : ∀ i, (k i).Sized (Model.Kupyna.cols s.h.hs)) (hk' : ∀ i, (k' i).Sized (Model.Kupyna.cols s.h.hs)) (hh : s.h.h.length = 16) (hh' : s'.h.h.length = 16)
    (hd : n * Model.Kupyna.blockBytes s.h.hs ≤ data.length) (hd' : n * Model.Kupyna.blockBytes s.h.hs ≤ data'.length) :
    Reveals (fun _ _ => s.h.h.take (Model.Kupyna.cols s.h.hs) = s'.h.h.take (Model.Kupyna.cols s.h.hs) ∧
      data.take (n * Model.Kupyna.blockBytes s.h.hs) = data'.take (n * Model.Kupyna.blockBytes s.h.hs))
      (Model.Leak.Kupyna.transform k data n s) (Model.Leak.Kupyna.transform k' data' n s') := by
  obtain ⟨hc, hb⟩ := Locals.Kupyna.cols_cases s.h.hs
  have hR : Model.Kupyna.cols s.h.hs = 8 ∨ Model.Kupyna.cols s.h.hs = 16 := hc.symm
  unfold Model.Leak.Kupyna.transform
  rw [← hs]
  exact (blocks_reveal hn hb (by unfold Model.Kupyna.iterations; split <;> decide) (by omega) (Kupyna.roundP_erase _) (Kupyna.roundQ_erase _)
    (Locals.Kupyna.roundP_ok _ (by omega)) (Locals.Kupyna.roundQ_ok _ (by omega)) (Kupyna.roundP_reveals hR) (Kupyna.roundQ_reveals hR) (Kupyna.roundP_len _)
    (Kupyna.roundQ_len _) _ k k' hk hk' s.h.h s'.h.h hh hh' data data' hd hd').left fun _ _ => Reveals.pure trivial

end Digestpp.Proofs.Leak
