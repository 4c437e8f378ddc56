import Verif.Proofs.Leak.Echo
import Verif.Proofs.Leak.Reveal
import Verif.Proofs.Leak.Streebog
import Verif.Proofs.Leak.Whirlpool
import Verif.Proofs.Locals.Echo
import Verif.Proofs.Locals.Whirlpool
import Verif.Proofs.PermStreebog

/-! What the indices into tables tell: Whirlpool, Streebog and ECHO. -/

namespace Digestpp.Proofs.Leak
open Model

section
variable {α β γ δ σ σ' : Type}

/-- A step whose results are known. -/
theorem Reveals.step {Q : γ → δ → Prop} {x : L α} {y : L β} {f : α → L γ} {g : β → L δ} {a : α} {b : β} (h : Len x y) (ex : L.erase x = .ok a)
    (ey : L.erase y = .ok b) (hl : ∀ a b, Len (f a) (g b)) (hf : Reveals Q (f a) (g b)) : Reveals Q (x >>= f) (y >>= g) := by
  refine Reveals.bind (Reveals.ofErase (P := fun v => v = a) (Q := fun v => v = b) h (fun v e => ?_) fun v e => ?_) hl ?_
  · rw [ex] at e
    exact (Except.ok.inj e).symm
  · rw [ey] at e
    exact (Except.ok.inj e).symm
  · rintro _ _ ⟨rfl, rfl⟩
    exact hf

/-- A loop with an invariant that depends on the index. -/
theorem Reveals.loopI {R : Nat → σ → σ' → Prop} {P : Nat → Prop} {n : Nat} {f : Nat → σ → L σ} {g : Nat → σ' → L σ'} {s : σ} {s' : σ'}
    (hl : ∀ t s s', Len (f t s) (g t s')) (r : R 0 s s') (h : ∀ t, t < n → ∀ s s', R t s s' → Reveals (fun a b => R (t + 1) a b ∧ P t) (f t s) (g t s')) :
    Reveals (fun _ _ => ∀ t, t < n → P t) (Leak.loop 0 n f s) (Leak.loop 0 n g s') := by
  refine Reveals.skip Len.op fun _ _ => ?_
  have : ∀ m k, k + m = n → ∀ s s', R k s s' → Reveals (fun _ _ => ∀ t, k ≤ t → t < n → P t) ((List.range' k m).foldlM (fun s i => f i s) s)
      ((List.range' k m).foldlM (fun s i => g i s) s') := by
    intro m
    induction m with
    | zero =>
      intro k hk s s' _
      exact Reveals.pure fun t h1 h2 => absurd h1 (by omega)
    | succ m ih =>
      intro k hk s s' r
      rw [List.range'_succ, List.foldlM_cons, List.foldlM_cons]
      refine Reveals.bind (h k (by omega) s s' r) (fun a b => Len.foldlM fun t s s' => hl t s s') fun a b ⟨r, p⟩ => ?_
      refine (ih (k + 1) (by omega) a b r).mono fun _ _ q t h1 h2 => ?_
      rcases Nat.lt_or_ge k t with h | h
      · exact q t h h2
      · rw [show t = k by omega]; exact p
  exact (this n 0 (by omega) s s' r).mono fun _ _ p t ht => p t (by omega) ht

/-- A loop over the blocks of the data that shows the state at the beginning of an iteration and the block shows the first state and all the data. -/
theorem Reveals.blocks {bs n : Nat} (hn : 0 < n) {data data' : Bytes} {f : Nat → σ → L σ} {g : Nat → σ' → L σ'} {s : σ} {s' : σ'} (ln : ∀ t s s', Len (f t s) (g t s'))
    (I : Nat → σ → Prop) (I' : Nat → σ' → Prop) (P : σ → σ' → Prop) (hs : I 0 s) (hs' : I' 0 s')
    (step : ∀ t, t < n → ∀ s s', I t s → I' t s' → Reveals (fun _ _ => P s s' ∧ SameBlock bs data data' t) (f t s) (g t s'))
    (next : ∀ t, t < n → ∀ s a, I t s → L.erase (f t s) = .ok a → I (t + 1) a) (next' : ∀ t, t < n → ∀ s a, I' t s → L.erase (g t s) = .ok a → I' (t + 1) a) :
    Reveals (fun _ _ => P s s' ∧ data.take (n * bs) = data'.take (n * bs)) (Leak.loop 0 n f s) (Leak.loop 0 n g s') := by
  refine ((Reveals.loop_first hn ln ((step 0 hn s s' hs hs').mono fun _ _ e => e.1)).and
    (Reveals.loopI (R := fun t s s' => I t s ∧ I' t s') (P := SameBlock bs data data') ln ⟨hs, hs'⟩ fun t ht s s' ⟨i, i'⟩ => ?_)).mono
      fun _ _ ⟨e1, e2⟩ => ⟨e1, take_of_blocks e2⟩
  exact (Reveals.ofErase (P := I (t + 1)) (Q := I' (t + 1)) (ln t s s') (fun a e => next t ht s a i e) fun a e => next' t ht s' a i' e).and ((step t ht s s' i i').mono fun _ _ e => e.2)

/-- The same branch. -/
theorem Reveals.branch {Q : γ → δ → Prop} {c : Bool} {f : Bool → L γ} {g : Bool → L δ} (h : Reveals Q (f c) (g c)) : Reveals Q (Leak.branch c >>= f) (Leak.branch c >>= g) := by
  intro x t y u e1 e2
  obtain ⟨a, t1, t2, ea, ec, rfl⟩ := bind_eq_ok e1
  obtain ⟨b, u1, u2, eb, ed, rfl⟩ := bind_eq_ok e2
  have hb : Leak.branch c = .ok (c, [Ev.branch c]) := rfl
  rw [hb] at ea eb
  cases Except.ok.inj ea
  cases Except.ok.inj eb
  obtain ⟨hl, hq⟩ := h x t2 y u2 ec ed
  exact ⟨by rw [List.length_append, List.length_append, hl], fun e => hq (List.append_cancel_left e)⟩

theorem copyN_erase_ok {a b : List α} {n : Nat} (ha : a.length = n) (hb : b.length = n) : L.erase (Leak.copyN a b n) = .ok b := by
  rw [erase_copyN, copyN_ok ha hb]

end

namespace Whirlpool
open Model.Whirlpool

/-- The bytes that `G<a>` uses are the same. -/
def Same (x x' : List (BitVec 64)) (a : Nat) : Prop :=
  SameByte 0 x x' (a % 8) ∧ SameByte 1 x x' ((a - 1) % 8) ∧ SameByte 2 x x' ((a - 2) % 8) ∧ SameByte 3 x x' ((a - 3) % 8) ∧ SameByte 4 x x' ((a - 4) % 8) ∧
    SameByte 5 x x' ((a - 5) % 8) ∧ SameByte 6 x x' ((a - 6) % 8) ∧ SameByte 7 x x' ((a - 7) % 8) ∧ True

theorem G_reveals (a : Nat) (x x' : List (BitVec 64)) : Reveals (fun _ _ => Same x x' a) (Model.Leak.Whirlpool.G a x) (Model.Leak.Whirlpool.G a x') :=
  cell_reveals _ _ _ _ _ _ _ _ _ _ _

theorem words {x x' : List (BitVec 64)} (hx : x.length = 8) (hx' : x'.length = 8)
    (h : Same x x' (0 + 8) ∧ Same x x' (1 + 8) ∧ Same x x' (2 + 8) ∧ Same x x' (3 + 8) ∧ Same x x' (4 + 8) ∧ Same x x' (5 + 8) ∧ Same x x' (6 + 8) ∧ Same x x' (7 + 8)) : x = x' := by
  have ix : ∀ s, s < 8 → ∀ j, j < 8 → ∃ c, c < 8 ∧ (c + 8 - s) % 8 = j := fun s hs j hj => ⟨(j + s) % 8, by omega, by omega⟩
  refine words_of_cells hx hx' (i0 := fun c => (c + 8) % 8) (i1 := fun c => (c + 8 - 1) % 8) (i2 := fun c => (c + 8 - 2) % 8) (i3 := fun c => (c + 8 - 3) % 8)
    (i4 := fun c => (c + 8 - 4) % 8) (i5 := fun c => (c + 8 - 5) % 8) (i6 := fun c => (c + 8 - 6) % 8) (i7 := fun c => (c + 8 - 7) % 8)
    (fun j hj => ⟨ix 0 (by omega) j hj, ix 1 (by omega) j hj, ix 2 (by omega) j hj, ix 3 (by omega) j hj, ix 4 (by omega) j hj, ix 5 (by omega) j hj,
      ix 6 (by omega) j hj, ix 7 (by omega) j hj⟩) fun c hc => ?_
  obtain ⟨h0, h1, h2, h3, h4, h5, h6, h7⟩ := h
  match c, hc with
  | 0, _ => exact h0
  | 1, _ => exact h1
  | 2, _ => exact h2
  | 3, _ => exact h3
  | 4, _ => exact h4
  | 5, _ => exact h5
  | 6, _ => exact h6
  | 7, _ => exact h7
  | n + 8, h => omega

theorem key_reveals (r : Nat) (K l K' l' : List (BitVec 64)) (hK : K.length = 8) (hK' : K'.length = 8) :
    Reveals (fun _ _ => K = K') (Model.Leak.Whirlpool.key r K l) (Model.Leak.Whirlpool.key r K' l') := by
  unfold Model.Leak.Whirlpool.key
  refine Reveals.mono ?_ fun _ _ h => words hK hK' h
  refine (G_reveals _ _ _).also fun _ _ => Reveals.skip Len.rd fun _ _ => Reveals.skip Len.wr fun _ _ => ?_
  refine (G_reveals _ _ _).also fun _ _ => Reveals.skip Len.wr fun _ _ => ?_
  refine (G_reveals _ _ _).also fun _ _ => Reveals.skip Len.wr fun _ _ => ?_
  refine (G_reveals _ _ _).also fun _ _ => Reveals.skip Len.wr fun _ _ => ?_
  refine (G_reveals _ _ _).also fun _ _ => Reveals.skip Len.wr fun _ _ => ?_
  refine (G_reveals _ _ _).also fun _ _ => Reveals.skip Len.wr fun _ _ => ?_
  refine (G_reveals _ _ _).also fun _ _ => Reveals.skip Len.wr fun _ _ => ?_
  exact (G_reveals _ _ _).left fun _ _ => Len.wr

theorem add_reveals (x l x' l' : List (BitVec 64)) (hx : x.length = 8) (hx' : x'.length = 8) :
    Reveals (fun _ _ => x = x') (Model.Leak.Whirlpool.add x l) (Model.Leak.Whirlpool.add x' l') := by
  unfold Model.Leak.Whirlpool.add
  refine Reveals.mono ?_ fun _ _ h => words hx hx' h
  refine (G_reveals _ _ _).also fun _ _ => Reveals.skip Len.upd fun _ _ => ?_
  refine (G_reveals _ _ _).also fun _ _ => Reveals.skip Len.upd fun _ _ => ?_
  refine (G_reveals _ _ _).also fun _ _ => Reveals.skip Len.upd fun _ _ => ?_
  refine (G_reveals _ _ _).also fun _ _ => Reveals.skip Len.upd fun _ _ => ?_
  refine (G_reveals _ _ _).also fun _ _ => Reveals.skip Len.upd fun _ _ => ?_
  refine (G_reveals _ _ _).also fun _ _ => Reveals.skip Len.upd fun _ _ => ?_
  refine (G_reveals _ _ _).also fun _ _ => Reveals.skip Len.upd fun _ _ => ?_
  exact (G_reveals _ _ _).left fun _ _ => Len.upd

theorem round_reveals (l l' : Nat → List (BitVec 64)) (r : Nat) (ks ks' : List (BitVec 64) × List (BitVec 64)) (h1 : ks.1.length = 8) (h2 : ks.2.length = 8)
    (h1' : ks'.1.length = 8) (h2' : ks'.2.length = 8) :
    Reveals (fun _ _ => ks.1 = ks'.1 ∧ ks.2 = ks'.2) (Model.Leak.Whirlpool.round l r ks) (Model.Leak.Whirlpool.round l' r ks') := by
  unfold Model.Leak.Whirlpool.round
  refine (key_reveals r _ _ _ _ h1 h1').also fun _ _ => Reveals.skip Len.copyN fun _ _ => ?_
  exact (add_reveals _ _ _ _ h2 h2').left fun _ _ => by len []

theorem fill_erase (k : Locals.Whirlpool.Stack) (hk : k.Sized) (mp b : Bytes) (h : List (BitVec 64)) (hh : h.length = 8)
    (hm : ∀ c, c < 8 → rd64 mp c = .ok ((loads64 8 b).getD c 0)) :
    L.erase (Leak.loop 0 8 (fun i state => do
      let x ← Leak.rd h i
      let y ← Leak.rd64 mp i
      Leak.wr state i (x ^^^ y)) k.state) = .ok ((List.range 8).map fun i => h.getD i 0 ^^^ (loads64 8 b).getD i 0) := by
  erase_simp []
  exact fill_all 0 (fun i => h.getD i 0 ^^^ (loads64 8 b).getD i 0) 8 0 (by omega) _ k.state hk.2.1 (by omega) (fun t a _ ht ha _ => by
    rw [rd_ok 0 (by omega), ok_then, hm t ht, ok_then, wr_ok _ (by omega)])

theorem block_reveals (k k' : Locals.Whirlpool.Stack) (hk : k.Sized) (hk' : k'.Sized) (mp b mp' b' : Bytes) (hb : b.length = 64) (hb' : b'.length = 64)
    (h h' : List (BitVec 64)) (hh : h.length = 8) (hh' : h'.length = 8) (hm : ∀ c, c < 8 → rd64 mp c = .ok ((loads64 8 b).getD c 0))
    (hm' : ∀ c, c < 8 → rd64 mp' c = .ok ((loads64 8 b').getD c 0)) :
    Reveals (fun _ _ => h = h' ∧ b = b') (Model.Leak.Whirlpool.block k mp h) (Model.Leak.Whirlpool.block k' mp' h') := by
  unfold Model.Leak.Whirlpool.block
  refine Reveals.step Len.copyN (copyN_erase_ok hk.1 hh) (copyN_erase_ok hk'.1 hh') (fun _ _ => by len [(round_len _ _ _ _ _)]) ?_
  refine Reveals.step (by len []) (fill_erase k hk mp b h hh hm) (fill_erase k' hk' mp' b' h' hh' hm') (fun _ _ => by len [(round_len _ _ _ _ _)]) ?_
  refine Reveals.left ?_ fun _ _ => by len []
  refine Reveals.loop_first (by omega) (fun t s s' => round_len _ _ _ _ _) ((round_reveals _ _ 0 _ _ hh (by simp) hh' (by simp)).mono fun _ _ ⟨e1, e2⟩ => ?_)
  dsimp only at e1 e2
  subst e1
  refine ⟨rfl, loads64_inj (n := 8) hb hb' fun c hc => ?_⟩
  have := congrArg (fun l => l.getD c 0) e2
  rw [getD_map_range _ _ _ _ hc, getD_map_range _ _ _ _ hc] at this
  exact xor_left_inj this

theorem transform_reveals (n : Nat) (hn : 0 < n) (k k' : Nat → Locals.Whirlpool.Stack) (hk : ∀ i, (k i).Sized) (hk' : ∀ i, (k' i).Sized) (data data' : Bytes)
    (hd : n * 64 ≤ data.length) (hd' : n * 64 ≤ data'.length) (s s' : Blk (List (BitVec 64))) (hs : s.h.length = 8) (hs' : s'.h.length = 8) :
    Reveals (fun _ _ => s.h = s'.h ∧ data.take (n * 64) = data'.take (n * 64)) (Model.Leak.Whirlpool.transform k data n s)
      (Model.Leak.Whirlpool.transform k' data' n s') := by
  have next : ∀ (k : Nat → Locals.Whirlpool.Stack) (data : Bytes), (∀ i, (k i).Sized) → n * 64 ≤ data.length → ∀ t, t < n → ∀ h a : List (BitVec 64), h.length = 8 →
      L.erase (Model.Leak.Whirlpool.block (k t) (data.drop (t * 64)) h) = .ok a → a.length = 8 := by
    intro k data hk hd t ht h a hh e
    rw [block_erase, Locals.Whirlpool.block_ok (k t) (hk t) _ _ h hh (fun c hc => by rw [Nat.mul_comm]; exact block_words (R := 8) rfl hd ht c hc)] at e
    rw [← Except.ok.inj e]
    simp [compress]
  unfold Model.Leak.Whirlpool.transform
  refine Reveals.left ?_ fun _ _ => by len []
  refine Reveals.blocks hn (fun t h h' => block_len _ _ _ _ _ _) (fun _ h => h.length = 8) (fun _ h => h.length = 8) (fun h h' => h = h') hs hs' (fun t ht h h' hh hh' => ?_)
    (next k data hk hd) (next k' data' hk' hd')
  exact block_reveals (k t) (k' t) (hk t) (hk' t) _ ((data.drop (64 * t)).take 64) _ ((data'.drop (64 * t)).take 64) (block_length hd ht) (block_length hd' ht) h h' hh hh'
    (fun c hc => by rw [Nat.mul_comm]; exact block_words (R := 8) rfl hd ht c hc) (fun c hc => by rw [Nat.mul_comm]; exact block_words (R := 8) rfl hd' ht c hc)

end Whirlpool

namespace Streebog
open Model.Streebog

/-- The bytes at `i`. -/
abbrev SameCh (x x' : Bytes) (i : Nat) : Prop := x.getD i 0 = x'.getD i 0

theorem look_reveals (x x' : Bytes) (j i : Nat) : Reveals (fun _ _ => SameCh x x' i) (Model.Leak.Streebog.look x j i) (Model.Leak.Streebog.look x' j i) := by
  unfold Model.Leak.Streebog.look
  refine Reveals.skip Len.rd fun r r' => ?_
  refine Reveals.bind (Reveals.rd 0 0) (fun _ _ => Len.rd) fun v v' ⟨_, h1, h2⟩ => ?_
  refine (Reveals.rd 0 0).mono fun _ _ ⟨e, _, _⟩ => ?_
  rw [h1, h2] at e
  exact BitVec.eq_of_toNat_eq e

/-- The bytes that `lps<I>` uses. -/
def Same (x x' : Bytes) (I : Nat) : Prop :=
  SameCh x x' I ∧ SameCh x x' (8 + I) ∧ SameCh x x' (16 + I) ∧ SameCh x x' (24 + I) ∧ SameCh x x' (32 + I) ∧ SameCh x x' (40 + I) ∧ SameCh x x' (48 + I) ∧ SameCh x x' (56 + I) ∧ True

theorem lps_reveals (I : Nat) (x x' : Bytes) : Reveals (fun _ _ => Same x x' I) (Model.Leak.Streebog.lps I x) (Model.Leak.Streebog.lps I x') := by
  unfold Model.Leak.Streebog.lps
  exact (look_reveals _ _ _ _).also fun _ _ => (look_reveals _ _ _ _).also fun _ _ => (look_reveals _ _ _ _).also fun _ _ => (look_reveals _ _ _ _).also fun _ _ =>
    (look_reveals _ _ _ _).also fun _ _ => (look_reveals _ _ _ _).also fun _ _ => (look_reveals _ _ _ _).also fun _ _ => (look_reveals _ _ _ _).also fun _ _ => Reveals.pure trivial

theorem bytes {x x' : Bytes} (hx : x.length = 64) (hx' : x'.length = 64)
    (h : Same x x' 0 ∧ Same x x' 1 ∧ Same x x' 2 ∧ Same x x' 3 ∧ Same x x' 4 ∧ Same x x' 5 ∧ Same x x' 6 ∧ Same x x' 7) : x = x' := by
  have all : ∀ I, I < 8 → Same x x' I := by
    obtain ⟨h0, h1, h2, h3, h4, h5, h6, h7⟩ := h
    intro I hI
    match I, hI with
    | 0, _ => exact h0
    | 1, _ => exact h1
    | 2, _ => exact h2
    | 3, _ => exact h3
    | 4, _ => exact h4
    | 5, _ => exact h5
    | 6, _ => exact h6
    | 7, _ => exact h7
    | n + 8, h => omega
  refine list_ext 0 hx hx' fun j hj => ?_
  obtain ⟨h0, h1, h2, h3, h4, h5, h6, h7, _⟩ := all (j % 8) (by omega)
  have : j / 8 < 8 := by omega
  match e : j / 8, this with
  | 0, _ => rwa [SameCh, show j % 8 = j by omega] at h0
  | 1, _ => rwa [SameCh, show 8 + j % 8 = j by omega] at h1
  | 2, _ => rwa [SameCh, show 16 + j % 8 = j by omega] at h2
  | 3, _ => rwa [SameCh, show 24 + j % 8 = j by omega] at h3
  | 4, _ => rwa [SameCh, show 32 + j % 8 = j by omega] at h4
  | 5, _ => rwa [SameCh, show 40 + j % 8 = j by omega] at h5
  | 6, _ => rwa [SameCh, show 48 + j % 8 = j by omega] at h6
  | 7, _ => rwa [SameCh, show 56 + j % 8 = j by omega] at h7
  | n + 8, h => omega

theorem stores_inj {a b : List (BitVec 64)} (ha : a.length = 8) (hb : b.length = 8) (h : stores64 a = stores64 b) : a = b := by
  rw [← Perm.Streebog.loads_stores a 8 ha, ← Perm.Streebog.loads_stores b 8 hb, h]

theorem lpsBlock_reveals (ch ch' : Bytes) (hc : ch.length = 64) (hc' : ch'.length = 64) (a b : List (BitVec 64)) (ha : a.length = 8) (hb : b.length = 8) :
    Reveals (fun _ _ => a = b) (Model.Leak.Streebog.lpsBlock ch a) (Model.Leak.Streebog.lpsBlock ch' b) := by
  have la : (stores64 a).length = 64 := by rw [Safety.length_stores64, ha]
  have lb : (stores64 b).length = 64 := by rw [Safety.length_stores64, hb]
  unfold Model.Leak.Streebog.lpsBlock
  refine Reveals.step Len.copyN (copyN_erase_ok hc la) (copyN_erase_ok hc' lb) (fun _ _ => by len [(lps_len _ _ _)]) ?_
  refine Reveals.mono ?_ fun _ _ h => stores_inj ha hb (bytes la lb h)
  refine (lps_reveals _ _ _).also fun _ _ => Reveals.skip Len.wr fun _ _ => ?_
  refine (lps_reveals _ _ _).also fun _ _ => Reveals.skip Len.wr fun _ _ => ?_
  refine (lps_reveals _ _ _).also fun _ _ => Reveals.skip Len.wr fun _ _ => ?_
  refine (lps_reveals _ _ _).also fun _ _ => Reveals.skip Len.wr fun _ _ => ?_
  refine (lps_reveals _ _ _).also fun _ _ => Reveals.skip Len.wr fun _ _ => ?_
  refine (lps_reveals _ _ _).also fun _ _ => Reveals.skip Len.wr fun _ _ => ?_
  refine (lps_reveals _ _ _).also fun _ _ => Reveals.skip Len.wr fun _ _ => ?_
  exact (lps_reveals _ _ _).left fun _ _ => Len.wr

theorem xor_inj {K w w' : List (BitVec 64)} (h : xorBlocks K w = xorBlocks K w') (c : Nat) (hc : c < 8) : w.getD c 0 = w'.getD c 0 := by
  have := congrArg (fun l => l.getD c 0) h
  unfold xorBlocks at this
  rw [getD_map_range _ _ _ _ hc, getD_map_range _ _ _ _ hc] at this
  exact xor_left_inj this

/-- With the same key, `e` shows the data. -/
theorem e_reveals (ch ch' : Nat → Bytes) (hc : ∀ j, (ch j).length = 64) (hc' : ∀ j, (ch' j).length = 64) (tmp tmp' K : List (BitVec 64)) (ht : tmp.length = 8)
    (ht' : tmp'.length = 8) (hK : K.length = 8) (m b m' b' : Bytes) (hb : b.length = 64) (hb' : b'.length = 64) (hm : ∀ c, c < 8 → rd64 m c = .ok ((loads64 8 b).getD c 0))
    (hm' : ∀ c, c < 8 → rd64 m' c = .ok ((loads64 8 b').getD c 0)) :
    Reveals (fun _ _ => b = b') (Model.Leak.Streebog.e ch tmp K m) (Model.Leak.Streebog.e ch' tmp' K m') := by
  unfold Model.Leak.Streebog.e
  refine Reveals.step Len.copyN (copyN_erase_ok ht hK) (copyN_erase_ok ht' hK) (fun _ _ => by len [(xorBlocks_len (fun _ => Len.rd64) _ _), (round_len _ _ _ _ _)]) ?_
  refine Reveals.step (xorBlocks_len (fun _ => Len.rd64) _ _)
    ((xorBlocks_erase _ (rd64 _) _ (erase_rd64 _)).trans (Locals.Streebog.xorBlocks_ok _ _ _ hK hm))
    ((xorBlocks_erase _ (rd64 _) _ (erase_rd64 _)).trans (Locals.Streebog.xorBlocks_ok _ _ _ hK hm')) (fun _ _ => by len [(round_len _ _ _ _ _)]) ?_
  refine Reveals.left ?_ fun _ _ => by len []
  refine Reveals.loop_first (by omega) (fun t s s' => round_len _ _ _ _ _) ?_
  unfold Model.Leak.Streebog.round
  refine Reveals.left ((lpsBlock_reveals _ _ (hc _) (hc' _) _ _ (Locals.Streebog.xorBlocks_length _ _) (Locals.Streebog.xorBlocks_length _ _)).mono fun _ _ e =>
    loads64_inj (n := 8) hb hb' fun c hc => xor_inj e c hc) fun _ _ => ?_
  len [(lpsBlock_len _ _ _ _), (xorBlocks_len (fun _ => Len.rd) _ _), (xorBlocks_len (fun _ => Len.rd64) _ _)]

theorem gN_reveals (k k' : Locals.Streebog.Stack) (hk : k.Sized) (hk' : k'.Sized) (h h' : List (BitVec 64)) (hh : h.length = 8) (hh' : h'.length = 8) (m b m' b' : Bytes)
    (hb : b.length = 64) (hb' : b'.length = 64) (N : BitVec 64) (hm : ∀ c, c < 8 → rd64 m c = .ok ((loads64 8 b).getD c 0))
    (hm' : ∀ c, c < 8 → rd64 m' c = .ok ((loads64 8 b').getD c 0)) :
    Reveals (fun _ _ => h = h' ∧ b = b') (Model.Leak.Streebog.gN k h m N) (Model.Leak.Streebog.gN k' h' m' N) := by
  obtain ⟨k1, k2, k3⟩ := hk
  obtain ⟨k1', k2', k3'⟩ := hk'
  unfold Model.Leak.Streebog.gN
  refine Reveals.step Len.copyN (copyN_erase_ok k3 hh) (copyN_erase_ok k3' hh')
    (fun _ _ => by len [(lpsBlock_len _ _ _ _), (xorBlocks_len (fun _ => Len.rd) _ _), (xorBlocks_len (fun _ => Len.rd64) _ _), (e_len _ _ _ _ _ _ _ _)]) ?_
  refine Reveals.step Len.upd ((erase_upd _ _ _).trans (upd_ok _ 0 (by omega))) ((erase_upd _ _ _).trans (upd_ok _ 0 (by omega)))
    (fun _ _ => by len [(lpsBlock_len _ _ _ _), (xorBlocks_len (fun _ => Len.rd) _ _), (xorBlocks_len (fun _ => Len.rd64) _ _), (e_len _ _ _ _ _ _ _ _)]) ?_
  have hl : (h.set 0 (h.getD 0 0 ^^^ N)).length = 8 := by rw [List.length_set, hh]
  have hl' : (h'.set 0 (h'.getD 0 0 ^^^ N)).length = 8 := by rw [List.length_set, hh']
  refine Reveals.bind ((lpsBlock_reveals _ _ (k1 0) (k1' 0) _ _ hl hl').and (Reveals.ofErase (P := fun a => a = lpsBlock (h.set 0 (h.getD 0 0 ^^^ N)))
    (Q := fun a => a = lpsBlock (h'.set 0 (h'.getD 0 0 ^^^ N))) (lpsBlock_len _ _ _ _) (fun a e => ?_) fun a e => ?_))
    (fun _ _ => by len [(lpsBlock_len _ _ _ _), (xorBlocks_len (fun _ => Len.rd) _ _), (xorBlocks_len (fun _ => Len.rd64) _ _), (e_len _ _ _ _ _ _ _ _)]) ?_
  · rw [lpsBlock_erase, Locals.Streebog.lpsBlock_ok _ (k1 0) _ hl] at e
    exact (Except.ok.inj e).symm
  · rw [lpsBlock_erase, Locals.Streebog.lpsBlock_ok _ (k1' 0) _ hl'] at e
    exact (Except.ok.inj e).symm
  · rintro _ _ ⟨e, rfl, rfl⟩
    rw [← e]
    refine Reveals.left ((e_reveals k.ch k'.ch k1 k1' _ _ _ k2 k2' (Locals.Streebog.lpsBlock_length _) m b m' b' hb hb' hm hm').mono fun _ _ eb => ⟨?_, eb⟩)
      (fun _ _ => by len [(xorBlocks_len (fun _ => Len.rd) _ _), (xorBlocks_len (fun _ => Len.rd64) _ _)])
    refine list_ext 0 hh hh' fun j hj => ?_
    have := congrArg (fun l => l.getD j 0) e
    rcases Nat.eq_zero_or_pos j with rfl | h0
    · rw [Proofs.getD_set, Proofs.getD_set, if_pos ⟨rfl, by omega⟩, if_pos ⟨rfl, by omega⟩] at this
      exact xor_right_inj this
    · rwa [Proofs.getD_set, Proofs.getD_set, if_neg (by omega), if_neg (by omega)] at this

/-- An iteration of the loop in `transform`. -/
def body (k : Nat → Locals.Streebog.Stack) (final : Bool) (data : Bytes) (total : BitVec 64) (blk : Nat) (st : St) : L St := do
  let h ← Model.Leak.Streebog.gN (k blk) st.h (data.drop (blk * 64)) (if final then 0 else total + BitVec.ofNat 64 (blk * 512))
  let S ← if ← Leak.branch final then pure st.S else Model.Leak.Streebog.addm (data.drop (blk * 64)) st.S
  pure { st with h := h, S := S }

theorem transform_reveals (n : Nat) (hn : 0 < n) (final : Bool) (k k' : Nat → Locals.Streebog.Stack) (hk : ∀ i, (k i).Sized) (hk' : ∀ i, (k' i).Sized) (data data' : Bytes)
    (hd : n * 64 ≤ data.length) (hd' : n * 64 ≤ data'.length) (s s' : Blk St) (ht : s.total = s'.total) (hs : s.h.h.length = 8 ∧ s.h.S.length = 8)
    (hs' : s'.h.h.length = 8 ∧ s'.h.S.length = 8) :
    Reveals (fun _ _ => s.h.h = s'.h.h ∧ data.take (n * 64) = data'.take (n * 64)) (Model.Leak.Streebog.transform k final data n s)
      (Model.Leak.Streebog.transform k' final data' n s') := by
  have be : ∀ (k : Nat → Locals.Streebog.Stack) (data : Bytes) (t : Nat) (st : St), L.erase (body k final data s.total t st) = (do
      let h ← Model.Locals.Streebog.gN (k t) st.h (data.drop (t * 64)) (if final then 0 else s.total + BitVec.ofNat 64 (t * 512))
      let S ← if final then pure st.S else Model.Locals.Streebog.addm (data.drop (t * 64)) st.S
      pure { st with h := h, S := S }) := by
    intro k data t st
    unfold body
    erase_simp [Streebog.gN_erase, Streebog.addm_erase]
  have next : ∀ (k : Nat → Locals.Streebog.Stack) (data : Bytes), (∀ i, (k i).Sized) → n * 64 ≤ data.length → ∀ t, t < n → ∀ h a : St, h.h.length = 8 ∧ h.S.length = 8 →
      L.erase (body k final data s.total t h) = .ok a → a.h.length = 8 ∧ a.S.length = 8 := by
    intro k data hk hd t ht h a ⟨h1, h2⟩ e
    have hm : ∀ c, c < 8 → rd64 (data.drop (t * 64)) c = .ok ((loads64 8 ((data.drop (64 * t)).take 64)).getD c 0) := fun c hc => by
      rw [Nat.mul_comm]; exact block_words (R := 8) rfl hd ht c hc
    rw [be, Locals.Streebog.gN_ok _ (hk t) h.h h1 _ _ _ hm, ok_then] at e
    cases final
    · simp only [Bool.false_eq_true, if_false] at e
      rw [(Locals.Streebog.addm_ok _ _ h.S h2 hm).1, ok_then] at e
      rw [← Except.ok.inj e]
      exact ⟨Locals.Streebog.xorBlocks_length _ _, (Locals.Streebog.addm_ok _ _ h.S h2 hm).2⟩
    · rw [← Except.ok.inj e]
      exact ⟨Locals.Streebog.xorBlocks_length _ _, h2⟩
  show Reveals _ (Leak.loop 0 n (body k final data s.total) s.h >>= _) (Leak.loop 0 n (body k' final data' s'.total) s'.h >>= _)
  rw [← ht]
  refine Reveals.left ?_ fun _ _ => by len []
  refine Reveals.blocks hn (fun t h h' => ?_) (fun _ (h : St) => h.h.length = 8 ∧ h.S.length = 8) (fun _ (h : St) => h.h.length = 8 ∧ h.S.length = 8) (fun (h h' : St) => h.h = h'.h) hs hs'
    (fun t ht h h' hh hh' => ?_) (next k data hk hd) (next k' data' hk' hd')
  · unfold body
    len [(Streebog.gN_len _ _ _ _ _ _ _ _), (Streebog.addm_len _ _ _ _)]
  · unfold body
    refine Reveals.left (gN_reveals (k t) (k' t) (hk t) (hk' t) h.h h'.h hh.1 hh'.1 _ ((data.drop (64 * t)).take 64) _ ((data'.drop (64 * t)).take 64) (block_length hd ht)
      (block_length hd' ht) _ (fun c hc => by rw [Nat.mul_comm]; exact block_words (R := 8) rfl hd ht c hc)
      (fun c hc => by rw [Nat.mul_comm]; exact block_words (R := 8) rfl hd' ht c hc)) fun _ _ => ?_
    len [(Streebog.addm_len _ _ _ _)]

end Streebog

namespace Echo
open Model.Echo

theorem look_reveals {v : Nat} (i : Nat) (x x' : BitVec v) (n : Nat) :
    Reveals (fun _ _ => byteOf x n = byteOf x' n) (Model.Leak.Echo.look i x n) (Model.Leak.Echo.look i x' n) := by
  unfold Model.Leak.Echo.look
  refine Reveals.skip Len.rd fun r r' => ?_
  refine (Reveals.rd 0 0).mono fun _ _ ⟨e, _, _⟩ => ?_
  exact BitVec.eq_of_toNat_eq e

theorem four_reveals {v : Nat} (x0 x0' : BitVec v) (n0 : Nat) (x1 x1' : BitVec v) (n1 : Nat) (x2 x2' : BitVec v) (n2 : Nat) (x3 x3' : BitVec v) (n3 : Nat) :
    Reveals (fun _ _ => byteOf x0 n0 = byteOf x0' n0 ∧ byteOf x1 n1 = byteOf x1' n1 ∧ byteOf x2 n2 = byteOf x2' n2 ∧ byteOf x3 n3 = byteOf x3' n3 ∧ True)
      (Model.Leak.Echo.four x0 n0 x1 n1 x2 n2 x3 n3) (Model.Leak.Echo.four x0' n0 x1' n1 x2' n2 x3' n3) := by
  unfold Model.Leak.Echo.four
  exact (look_reveals _ _ _ _).also fun _ _ => (look_reveals _ _ _ _).also fun _ _ => (look_reveals _ _ _ _).also fun _ _ => (look_reveals _ _ _ _).also fun _ _ =>
    Reveals.pure trivial

theorem eq_of_eight {x y : BitVec 64} (h0 : byteOf x 0 = byteOf y 0) (h1 : byteOf x 8 = byteOf y 8) (h2 : byteOf x 16 = byteOf y 16) (h3 : byteOf x 24 = byteOf y 24)
    (h4 : byteOf x 32 = byteOf y 32) (h5 : byteOf x 40 = byteOf y 40) (h6 : byteOf x 48 = byteOf y 48) (h7 : byteOf x 56 = byteOf y 56) : x = y := by
  refine eq_of_bytes fun i hi => ?_
  match i, hi with
  | 0, _ => exact h0
  | 1, _ => exact h1
  | 2, _ => exact h2
  | 3, _ => exact h3
  | 4, _ => exact h4
  | 5, _ => exact h5
  | 6, _ => exact h6
  | 7, _ => exact h7
  | n + 8, h => omega

theorem first_reveals (x0 x0' x1 x1' c c' : BitVec 64) :
    Reveals (fun _ _ => x0 = x0' ∧ x1 = x1') (Model.Leak.Echo.first x0 x1 c) (Model.Leak.Echo.first x0' x1' c') := by
  unfold Model.Leak.Echo.first
  refine Reveals.mono ((four_reveals _ _ _ _ _ _ _ _ _ _ _ _).also fun _ _ => (four_reveals _ _ _ _ _ _ _ _ _ _ _ _).also fun _ _ =>
    (four_reveals _ _ _ _ _ _ _ _ _ _ _ _).also fun _ _ => (four_reveals _ _ _ _ _ _ _ _ _ _ _ _).left fun _ _ => Reveals.pure trivial) ?_
  rintro _ _ ⟨⟨a0, a1, a2, a3, -⟩, ⟨b0, b1, b2, b3, -⟩, ⟨c0, c1, c2, c3, -⟩, d0, d1, d2, d3, -⟩
  exact ⟨eq_of_eight a0 d1 c2 b3 b0 a1 d2 c3, eq_of_eight c0 b1 a2 d3 d0 c1 b2 a3⟩

theorem subWord_reveals (salt salt' : List (BitVec 64)) (r : Nat) (s s' : List (BitVec 64) × BitVec 64) :
    Reveals (fun _ _ => s.1.getD (r * 2) 0 = s'.1.getD (r * 2) 0 ∧ s.1.getD (r * 2 + 1) 0 = s'.1.getD (r * 2 + 1) 0)
      (Model.Leak.Echo.subWord salt r s) (Model.Leak.Echo.subWord salt' r s') := by
  unfold Model.Leak.Echo.subWord
  refine Reveals.bind (Reveals.rd 0 0) (fun _ _ => by len [(Echo.first_len _ _ _ _ _ _), (Echo.second_len _ _ _ _ _ _ _ _ _ _ _)]) ?_
  rintro _ _ ⟨-, rfl, rfl⟩
  refine Reveals.bind (Reveals.rd 0 0) (fun _ _ => by len [(Echo.first_len _ _ _ _ _ _), (Echo.second_len _ _ _ _ _ _ _ _ _ _ _)]) ?_
  rintro _ _ ⟨-, rfl, rfl⟩
  refine (first_reveals _ _ _ _ _ _).left fun _ _ => ?_
  len [(Echo.second_len _ _ _ _ _ _ _ _ _ _ _)]

theorem subWords_reveals (salt salt' : List (BitVec 64)) (hs : salt.length = 2) (hs' : salt'.length = 2) (s s' : List (BitVec 64) × BitVec 64) (hw : s.1.length = 32)
    (hw' : s'.1.length = 32) : Reveals (fun _ _ => s.1 = s'.1) (Model.Leak.Echo.subWords salt s) (Model.Leak.Echo.subWords salt' s') := by
  unfold Model.Leak.Echo.subWords
  have next : ∀ (salt : List (BitVec 64)) (s x a : List (BitVec 64) × BitVec 64) (t : Nat), salt.length = 2 → t < 16 →
      (x.1.length = 32 ∧ ∀ j, t * 2 ≤ j → x.1.getD j 0 = s.1.getD j 0) → L.erase (Model.Leak.Echo.subWord salt t x) = .ok a →
      a.1.length = 32 ∧ ∀ j, (t + 1) * 2 ≤ j → a.1.getD j 0 = s.1.getD j 0 := by
    intro salt s x a t hs ht ⟨h1, h2⟩ e
    rw [subWord_erase, Locals.Echo.subWord_ok salt hs t ht x h1] at e
    rw [← Except.ok.inj e]
    refine ⟨by simp [h1], fun j hj => ?_⟩
    show ((x.1.set _ _).set _ _).getD j 0 = _
    rw [Proofs.getD_set, if_neg (by omega), Proofs.getD_set, if_neg (by omega), h2 j (by omega)]
  refine (Reveals.loopI (R := fun t x x' => (x.1.length = 32 ∧ ∀ j, t * 2 ≤ j → x.1.getD j 0 = s.1.getD j 0) ∧ (x'.1.length = 32 ∧ ∀ j, t * 2 ≤ j → x'.1.getD j 0 = s'.1.getD j 0))
    (P := fun t => s.1.getD (t * 2) 0 = s'.1.getD (t * 2) 0 ∧ s.1.getD (t * 2 + 1) 0 = s'.1.getD (t * 2 + 1) 0)
    (fun t x x' => subWord_len salt salt' t x x') ⟨⟨hw, fun _ _ => rfl⟩, hw', fun _ _ => rfl⟩ fun t ht x x' ⟨i, i'⟩ => ?_).mono fun _ _ h => ?_
  · refine (Reveals.ofErase (P := fun a => a.1.length = 32 ∧ ∀ j, (t + 1) * 2 ≤ j → a.1.getD j 0 = s.1.getD j 0)
      (Q := fun a => a.1.length = 32 ∧ ∀ j, (t + 1) * 2 ≤ j → a.1.getD j 0 = s'.1.getD j 0) (subWord_len _ _ _ _ _) (fun a e => next salt s x a t hs ht i e)
      fun a e => next salt' s' x' a t hs' ht i' e).and ((subWord_reveals salt salt' t x x').mono fun _ _ ⟨e1, e2⟩ => ?_)
    rw [i.2 _ (by omega), i'.2 _ (by omega)] at e1
    rw [i.2 _ (by omega), i'.2 _ (by omega)] at e2
    exact ⟨e1, e2⟩
  · refine list_ext 0 hw hw' fun j hj => ?_
    obtain ⟨h0, h1⟩ := h (j / 2) (by omega)
    rcases Nat.mod_two_eq_zero_or_one j with e | e
    · rwa [show j / 2 * 2 = j by omega] at h0
    · rwa [show j / 2 * 2 + 1 = j by omega] at h1

theorem rounds_reveals (n : Nat) (hn : 0 < n) (salt salt' : List (BitVec 64)) (hs : salt.length = 2) (hs' : salt'.length = 2) (s s' : List (BitVec 64) × BitVec 64)
    (hw : s.1.length = 32) (hw' : s'.1.length = 32) : Reveals (fun _ _ => s.1 = s'.1) (Model.Leak.Echo.rounds n salt s) (Model.Leak.Echo.rounds n salt' s') := by
  unfold Model.Leak.Echo.rounds
  refine Reveals.loop_first hn (fun t s s' => ?_) ((subWords_reveals salt salt' hs hs' s s' hw hw').left fun _ _ => ?_)
  · len [(Echo.shiftRows_len _ _), (Echo.mixColumns_len _ _), (Echo.subWords_len _ _ _ _)]
  · len [(Echo.shiftRows_len _ _), (Echo.mixColumns_len _ _)]

theorem copyIn_ok (hsz : Nat) (data b : Bytes) (blk : Nat) (hr : readBytes data (blk * blockBytes hsz) (blockBytes hsz) = .ok b) (hb : b.length = blockBytes hsz) (y : Blk St)
    (hy : Locals.Echo.Sized y) (h1 : y.h.hs = hsz) :
    L.erase (Model.Leak.Echo.copyIn hsz (some data) blk (blockBytes hsz) (Model.Locals.Echo.whole y)) = .ok (y.h.c ++ loads64 (blockBytes hsz / 8) b) := by
  subst h1
  rw [copyIn_erase]
  unfold Model.Locals.Echo.copyIn
  dsimp only
  rw [Nat.mul_comm, hr, ok_then]
  unfold Model.Locals.Echo.whole
  rw [Locals.Echo.poke_ok _ _ hy.1 y.m b hb]

theorem block_reveals (hsz : Nat) (total total' : BitVec 64) (w w' : List (BitVec 64)) (hw : w.length = 32) (hw' : w'.length = 32) (data b data' b' : Bytes) (blk rest : Nat)
    (hr : readBytes data (blk * blockBytes hsz) (blockBytes hsz) = .ok b) (hr' : readBytes data' (blk * blockBytes hsz) (blockBytes hsz) = .ok b')
    (hb : b.length = blockBytes hsz) (hb' : b'.length = blockBytes hsz) (y y' : Blk St) (hy : Locals.Echo.Sized y) (hy' : Locals.Echo.Sized y') (h1 : y.h.hs = hsz)
    (h1' : y'.h.hs = hsz) (hrest : blockBytes hsz ≤ rest) :
    Reveals (fun _ _ => y.h.c = y'.h.c ∧ b = b') (Model.Leak.Echo.block hsz y.h.salt total w (some data) true blk (Model.Locals.Echo.whole y, rest))
      (Model.Leak.Echo.block hsz y'.h.salt total' w' (some data') true blk (Model.Locals.Echo.whole y', rest)) := by
  have hB := Locals.Echo.blockBytes_cases hsz
  have lc : y.h.c.length = 32 - blockBytes hsz / 8 := by rw [← h1]; exact hy.1
  have lc' : y'.h.c.length = 32 - blockBytes hsz / 8 := by rw [← h1']; exact hy'.1
  have l : (y.h.c ++ loads64 (blockBytes hsz / 8) b).length = 32 := by rw [List.length_append, lc, Locals.loads64_length]; omega
  have l' : (y'.h.c ++ loads64 (blockBytes hsz / 8) b').length = 32 := by rw [List.length_append, lc', Locals.loads64_length]; omega
  unfold Model.Leak.Echo.block
  dsimp only
  rw [Nat.min_eq_right hrest]
  refine Reveals.branch ?_
  rw [if_pos rfl, if_pos rfl, if_pos rfl, if_pos rfl]
  refine Reveals.step (copyIn_len _ _ _ _ _ _ _ _) (copyIn_ok hsz data b blk hr hb y hy h1) (copyIn_ok hsz data' b' blk hr' hb' y' hy' h1')
    (fun _ _ => by len [(Echo.rounds_len _ _ _ _ _), (Echo.final256_len _ _ _ _), (Echo.final512_len _ _ _ _)]) ?_
  refine Reveals.step Len.copyN (copyN_erase_ok hw l) (copyN_erase_ok hw' l')
    (fun _ _ => by len [(Echo.rounds_len _ _ _ _ _), (Echo.final256_len _ _ _ _), (Echo.final512_len _ _ _ _)]) ?_
  refine Reveals.branch ?_
  refine Reveals.left ((rounds_reveals _ (by split <;> omega) _ _ hy.2.2 hy'.2.2 _ _ l l').mono fun _ _ e => ?_) fun _ _ => by
    len [(Echo.final256_len _ _ _ _), (Echo.final512_len _ _ _ _)]
  obtain ⟨e1, e2⟩ := List.append_inj e (by rw [lc, lc'])
  have h8 : 8 * (blockBytes hsz / 8) = blockBytes hsz := by omega
  exact ⟨e1, loads64_inj (n := blockBytes hsz / 8) (by omega) (by omega) fun c _ => by rw [e2]⟩

/-- The state at the beginning of iteration `t` of `n`: `h` as a whole and the number of bytes that are left. -/
def At (n hsz : Nat) (salt : List (BitVec 64)) (t : Nat) (x : List (BitVec 64) × Nat) : Prop :=
  ∃ y, x = (Model.Locals.Echo.whole y, blockBytes hsz * (n - t)) ∧ Locals.Echo.Sized y ∧ y.h.hs = hsz ∧ y.h.salt = salt

theorem rest_succ (B : Nat) {n t : Nat} (ht : t < n) : B * (n - t) = B * (n - (t + 1)) + B := by
  rw [← Nat.mul_succ]
  congr 1
  omega

theorem read_block {n B t : Nat} {data : Bytes} (hB : 0 < B) (hd : n * B ≤ data.length) (ht : t < n) : readBytes data (t * B) B = .ok ((data.drop (B * t)).take B) := by
  have := block_length hd ht
  rw [List.length_take, List.length_drop] at this
  rw [Nat.mul_comm t, read_ok (by omega)]

theorem block_next (hsz : Nat) (salt : List (BitVec 64)) (total : BitVec 64) (n : Nat) (w : List (BitVec 64)) (hw : w.length = 32) (data : Bytes)
    (hd : n * blockBytes hsz ≤ data.length) (t : Nat) (ht : t < n) (x a : List (BitVec 64) × Nat) (hx : At n hsz salt t x)
    (e : L.erase (Model.Leak.Echo.block hsz salt total w (some data) true t x) = .ok a) : At n hsz salt (t + 1) a := by
  have hB := Locals.Echo.blockBytes_cases hsz
  obtain ⟨y, rfl, hy, y1, y2⟩ := hx
  have hl := block_length hd ht
  have hr := read_block (by omega) hd ht
  generalize (data.drop (blockBytes hsz * t)).take (blockBytes hsz) = b at hl hr
  rw [block_erase, Locals.Echo.block_ok _ _ _ _ hw data b t _ hr hl y hy y1 y2 (by rw [rest_succ _ ht]; omega)] at e
  rw [← Except.ok.inj e]
  obtain ⟨f1, f2, f3⟩ := Locals.Echo.compress_fields (total + BitVec.ofNat 64 ((t * blockBytes hsz + blockBytes hsz) * 8)) b y.h
  generalize compress (total + BitVec.ofNat 64 ((t * blockBytes hsz + blockBytes hsz) * 8)) b y.h = h at f1 f2 f3 ⊢
  refine ⟨{ y with m := b, h := h }, by rw [rest_succ _ ht, Nat.add_sub_cancel], ⟨?_, ?_, ?_⟩, f1.trans y1, f2.trans y2⟩
  · show h.c.length = 32 - blockBytes h.hs / 8
    rw [f1]
    exact f3
  · show b.length = blockBytes h.hs
    rw [f1, y1]
    exact hl
  · show h.salt.length = 2
    rw [f2]
    exact hy.2.2

theorem block_at (hsz : Nat) (salt salt' : List (BitVec 64)) (total total' : BitVec 64) (n : Nat) (w w' : List (BitVec 64)) (hw : w.length = 32) (hw' : w'.length = 32)
    (data data' : Bytes) (hd : n * blockBytes hsz ≤ data.length) (hd' : n * blockBytes hsz ≤ data'.length) (t : Nat) (ht : t < n) (x x' : List (BitVec 64) × Nat)
    (hx : At n hsz salt t x) (hx' : At n hsz salt' t x') :
    Reveals (fun _ _ => x.1.take (32 - blockBytes hsz / 8) = x'.1.take (32 - blockBytes hsz / 8) ∧ SameBlock (blockBytes hsz) data data' t)
      (Model.Leak.Echo.block hsz salt total w (some data) true t x) (Model.Leak.Echo.block hsz salt' total' w' (some data') true t x') := by
  have hB := Locals.Echo.blockBytes_cases hsz
  obtain ⟨y, rfl, hy, y1, rfl⟩ := hx
  obtain ⟨y', rfl, hy', y1', rfl⟩ := hx'
  refine (block_reveals hsz total total' w w' hw hw' data _ data' _ t _ (read_block (by omega) hd ht) (read_block (by omega) hd' ht) (block_length hd ht)
    (block_length hd' ht) y y' hy hy' y1 y1' (by rw [rest_succ _ ht]; omega)).mono fun _ _ ⟨e1, e2⟩ => ⟨?_, e2⟩
  have l1 := hy.1
  have l2 := hy'.1
  rw [y1] at l1
  rw [y1'] at l2
  unfold Model.Locals.Echo.whole
  dsimp only
  rw [List.take_left' l1, List.take_left' l2, e1]

theorem transform_reveals (n : Nat) (hn : 0 < n) (k k' : Nat → List (BitVec 64)) (hk : ∀ i, (k i).length = 32) (hk' : ∀ i, (k' i).length = 32) (data data' : Bytes)
    (s s' : Blk St) (hsz : s.h.hs = s'.h.hs) (hd : n * blockBytes s.h.hs ≤ data.length) (hd' : n * blockBytes s.h.hs ≤ data'.length) (hs : Locals.Echo.Sized s)
    (hs' : Locals.Echo.Sized s') :
    Reveals (fun _ _ => s.h.c = s'.h.c ∧ data.take (n * blockBytes s.h.hs) = data'.take (n * blockBytes s.h.hs))
      (Model.Leak.Echo.transform s.h.hs s.h.salt s.total k (some data) n true (blockBytes s.h.hs * n) (Model.Locals.Echo.whole s))
      (Model.Leak.Echo.transform s'.h.hs s'.h.salt s'.total k' (some data') n true (blockBytes s'.h.hs * n) (Model.Locals.Echo.whole s')) := by
  unfold Model.Leak.Echo.transform
  rw [← hsz]
  refine Reveals.left ?_ fun _ _ => by len []
  refine (Reveals.blocks hn (fun t x x' => block_len s.h.hs s.h.salt s'.h.salt s.total s'.total (k t) (k' t) data data' true t x x') (At n s.h.hs s.h.salt) (At n s.h.hs s'.h.salt)
    (fun x x' => x.1.take (32 - blockBytes s.h.hs / 8) = x'.1.take (32 - blockBytes s.h.hs / 8)) ⟨s, rfl, hs, rfl, rfl⟩ ⟨s', rfl, hs', hsz.symm, rfl⟩
    (fun t ht x x' hx hx' => block_at s.h.hs s.h.salt s'.h.salt s.total s'.total n (k t) (k' t) (hk t) (hk' t) data data' hd hd' t ht x x' hx hx')
    (fun t ht x a hx e => block_next s.h.hs s.h.salt s.total n (k t) (hk t) data hd t ht x a hx e)
    (fun t ht x a hx e => block_next s.h.hs s'.h.salt s'.total n (k' t) (hk' t) data' hd' t ht x a hx e)).mono fun _ _ ⟨e1, e2⟩ => ⟨?_, e2⟩
  have l1 := hs.1
  have l2 := hs'.1
  rw [← hsz] at l2
  unfold Model.Locals.Echo.whole at e1
  dsimp only at e1
  rwa [List.take_left' l1, List.take_left' l2] at e1

end Echo

end Digestpp.Proofs.Leak
