import Verif.Proofs.SafetyAscon
import Verif.Model.Blake2p

/-! Memory safety of BLAKE2 and BLAKE2X objects. -/

namespace Digestpp.Proofs.Safety
open Model

theorem zeroRest_safe (bs : Nat) (m : Bytes) (pos : Nat) (hp : pos ≤ bs) (hm : bs ≤ m.length) (hb : bs < szMod) :
    ∃ m', zeroRest bs m pos = .ok m' ∧ m'.length = m.length := by
  unfold zeroRest
  split
  · rw [szSub_eq _ _ hp hb]
    exact memset_safe m pos 0 (bs - pos) (by omega)
  · exact ⟨m, rfl, rfl⟩

namespace Blake2
open Model.Blake2

variable {w : Nat} {T : Word w}

/-- What is used about the word type. -/
structure Good (T : Word w) : Prop where
  w2 : w = 32 ∨ w = 64
  stores : ∀ l : List (BitVec w), l.length = 8 → (T.stores l).length = w
  IV : T.IV.length = 8

theorem good32 : Good u32 := ⟨.inl rfl, fun l h => by show (stores32 l).length = _; rw [length_stores32, h], rfl⟩
theorem good64 : Good u64 := ⟨.inr rfl, fun l h => by show (stores64 l).length = _; rw [length_stores64, h], rfl⟩

structure I0 (hs : Nat) (s : Blk (St w)) : Prop where
  m : s.m.length = 2 * w
  k : s.h.k.length ≤ w
  hs : s.h.hs = hs

structure I (hs : Nat) (s : Blk (St w)) : Prop extends I0 hs s where
  H : s.h.H.length = 8
  pos : s.pos ≤ 2 * w

def Keep (hs : Nat) (h : St w) : Prop := h.H.length = 8 ∧ h.k.length ≤ w ∧ h.hs = hs

theorem I.keep {hs : Nat} {s : Blk (St w)} (h : I hs s) : Keep hs s.h := ⟨h.H, h.k, h.hs⟩

theorem transform_safe (p : Bool) (hs : Nat) : SafeTransform (2 * w) (2 * w) (Keep hs) (transform T p) := by
  intro s data n hn hm hi
  obtain ⟨h', e, i⟩ := forBlocks_safe (inv := Keep hs) (step := fun blk b h => pure (block T p s.total blk b h))
    (fun _ b h _ hi => ⟨_, rfl, rfl, hi.2⟩) data n s.h hn hi
  exact ⟨h', s.m, hm, i, by unfold transform; rw [e]; rfl⟩

theorem update_safe (g : Good T) {hs : Nat} (s : Blk (St w)) (d : Bytes) (h : I hs s) (hd : d.length < 2 ^ 63) :
    ∃ s', update T d s = .ok s' ∧ I hs s' := by
  have hw := g.w2
  obtain ⟨s', e, a, b, c⟩ := absorbBytes_safe_le (z := 1) (by omega) (by omega) (by omega) (by omega)
    (transform_safe (T := T) false hs) d s h.m h.pos h.keep hd
  exact ⟨s', e, ⟨a, c.2.1, c.2.2⟩, c.1, by omega⟩

theorem length_initial (g : Good T) (kind : Kind) (h : St w) : (initial T kind h).length = 8 := by
  have hx : ∀ (H : List (BitVec w)) i x, (xorAt H i x).length = H.length := fun H i x => List.length_set ..
  have h1 : (initH T h.fanout).length = 8 := by
    unfold initH; split
    · rw [hx, g.IV]
    · exact g.IV
  have h2 : (initLen kind h.hs (initH T h.fanout)).length = 8 := by
    unfold initLen
    split
    · rw [hx, h1]
    · dsimp only; split <;> rw [hx, hx, h1]
  have h3 : ∀ H : List (BitVec w), H.length = 8 → (initSalt h.s h.p H).length = 8 := by
    intro H hH; unfold initSalt; rw [hx, hx, hx, hx, hH]
  unfold initial initTree
  split
  · dsimp only
    split <;> (rw [hx, hx, hx, h3]; rw [hx, h2])
  · rw [h3]; rw [hx, h2]

theorem init_safe (g : Good T) (kind : Kind) {hs : Nat} (s : Blk (St w)) (h : I0 hs s) : ∃ s', init T kind s = .ok s' ∧ I hs s' := by
  have hw := g.w2
  unfold init
  dsimp only
  have hb : I hs { s with pos := 0, total := 0, h := { s.h with H := initial T kind s.h, xoffset := 0, squeezing := false } } :=
    ⟨⟨h.m, h.k, h.hs⟩, length_initial g kind s.h, Nat.zero_le _⟩
  split
  · unfold absorbKey
    split
    · exact ⟨_, rfl, hb⟩
    · have hk := h.k
      unfold keyBlock
      dsimp only
      rw [if_pos (by omega)]
      exact update_safe g _ _ hb (by rw [List.length_append, List.length_replicate]; omega)
  · exact ⟨_, rfl, hb⟩

theorem lastBlock_safe (g : Good T) {hs : Nat} (s : Blk (St w)) (h : I hs s) : ∃ s', lastBlock T s = .ok s' ∧ I hs s' := by
  obtain ⟨m, e, l⟩ := zeroRest_safe (2 * w) s.m s.pos h.pos (by have := h.m; omega)
    (by have := g.w2; unfold szMod; omega)
  have hm := h.m
  obtain ⟨h', m', hm', hi', e'⟩ := transform_safe (T := T) true hs { s with m := m } m 1 (by omega) (l.trans h.m) h.keep
  refine ⟨_, (by unfold lastBlock; rw [e, ok_bind, e']), ?_⟩
  exact ⟨⟨hm', hi'.2.1, hi'.2.2⟩, hi'.1, h.pos⟩

theorem squeezeFirst_safe (g : Good T) (kind : Kind) {hs : Nat} (n : Nat) (s : Blk (St w)) (h : I hs s) :
    ∃ b s', squeezeFirst T kind n s = .ok (b, s') ∧ b.length ≤ n ∧ I hs s' := by
  unfold squeezeFirst
  split
  · dsimp only
    obtain ⟨s1, e1, i1⟩ := lastBlock_safe g { s with
      total := if kind = .xof then s.total + BitVec.ofNat 64 (s.pos * 8) else s.total, h := { s.h with squeezing := true, xoffset := 0 } }
      (hs := hs) ⟨⟨h.m, h.k, h.hs⟩, h.H, h.pos⟩
    obtain ⟨m, e2, l2⟩ := memcpyTo_safe s1.m 0 (T.stores s1.h.H) (by rw [g.stores _ i1.H, i1.m]; omega)
    rw [e1, ok_bind, e2, ok_bind]
    exact ⟨[], _, rfl, Nat.zero_le _, ⟨l2.trans i1.m, i1.k, i1.hs⟩, i1.H, i1.pos⟩
  · split
    · obtain ⟨b, e, l⟩ := readBytes_safe (T.stores s.h.H) s.pos (min n (w - s.pos)) (by rw [g.stores _ h.H]; omega)
      dsimp only
      rw [e, ok_bind]
      exact ⟨b, _, rfl, by omega, ⟨h.m, h.k, h.hs⟩, h.H, by show s.pos + min n (w - s.pos) ≤ _; omega⟩
    · exact ⟨[], s, rfl, Nat.zero_le _, h⟩

theorem length_initX (g : Good T) (hs p : Nat) (x : BitVec 64) (r : BitVec w) (a b : List (BitVec w)) :
    (initSalt a b (initX T hs p x r)).length = 8 := by
  have hx : ∀ (H : List (BitVec w)) i x, (xorAt H i x).length = H.length := fun H i x => List.length_set ..
  unfold initSalt
  rw [hx, hx, hx, hx]
  unfold initX
  dsimp only
  split <;> rw [hx, hx, hx, hx, hx, g.IV]

theorem squeezeLoop_safe (g : Good T) (kind : Kind) {hs : Nat} (n : Nat) : ∀ fuel (out : Bytes) (s : Blk (St w)), out.length ≤ n →
    n ≤ out.length + fuel → I hs s → ∃ b s', squeezeLoop T kind n fuel out s = .ok (b, s') ∧ b.length = n ∧ I hs s' := by
  have hw := g.w2
  intro fuel
  induction fuel with
  | zero => exact fun out s h1 h2 hq => ⟨out, s, rfl, by omega, hq⟩
  | succ fuel ih =>
    intro out s hl hf hq
    unfold squeezeLoop
    split
    · dsimp only
      obtain ⟨m, e, l⟩ := memset_safe s.m w 0 (2 * w - w) (by rw [hq.m]; omega)
      rw [e, ok_bind]
      obtain ⟨h', m', hm', hi', e'⟩ := transform_safe (T := T) true hs
        { s with
          h := { s.h with
            H := initSalt s.h.s s.h.p (initX T n out.length s.h.xoffset (if kind = .xof then -1 else BitVec.ofNat w n))
            xoffset := s.h.xoffset + 1 }
          total := BitVec.ofNat 64 (8 * w), m := m } m 1 (by rw [l, hq.m]; omega) (l.trans hq.m)
        ⟨length_initX g .., hq.k, hq.hs⟩
      rw [e', ok_bind]
      obtain ⟨b, e2, l2⟩ := readBytes_safe (T.stores h'.H) 0 (min (n - out.length) w) (by rw [g.stores _ hi'.1]; omega)
      dsimp only
      rw [e2, ok_bind]
      exact ih _ _ (by rw [List.length_append]; omega) (by rw [List.length_append]; omega)
        ⟨⟨hm', hi'.2.1, hi'.2.2⟩, hi'.1, by show min _ _ ≤ _; omega⟩
    · exact ⟨out, s, rfl, by omega, hq⟩

theorem squeeze_safe (g : Good T) (kind : Kind) {hs : Nat} (n : Nat) (s : Blk (St w)) (h : I hs s) :
    ∃ b s', squeeze T kind n s = .ok (b, s') ∧ b.length = n ∧ I hs s' := by
  obtain ⟨b, s1, e1, l1, q1⟩ := squeezeFirst_safe g kind n s h
  obtain ⟨b2, s2, e2, l2, q2⟩ := squeezeLoop_safe g kind n n b s1 l1 (by omega) q1
  exact ⟨b2, s2, by unfold squeeze; rw [e1]; exact e2, l2, q2⟩

theorem final_safe (g : Good T) (kind : Kind) {hs : Nat} (over : Nat) (s : Blk (St w)) (h : I hs s)
    (hk : kind = .hash → (if over ≠ 0 then over else hs) / 8 ≤ w) :
    ∃ b, final T kind over s = .ok b ∧ b.length = (if over ≠ 0 then over else hs) / 8 := by
  unfold final
  dsimp only
  rw [h.hs]
  have hi : I hs { s with total := s.total + BitVec.ofNat 64 (s.pos * 8) } := ⟨⟨h.m, h.k, h.hs⟩, h.H, h.pos⟩
  split
  · rename_i hh
    obtain ⟨s1, e1, i1⟩ := lastBlock_safe g _ hi
    rw [e1, ok_bind]
    exact readBytes_safe _ _ _ (by rw [g.stores _ i1.H]; have := hk hh; omega)
  · obtain ⟨b, s1, e1, l1, _⟩ := squeeze_safe g kind ((if over ≠ 0 then over else hs) / 8) _ hi
    rw [e1]
    exact ⟨b, rfl, l1⟩

theorem clear_safe {hs : Nat} (s : Blk (St w)) (h : I hs s) : ∃ s', clear s = .ok s' ∧ I0 hs s' :=
  ⟨_, rfl, by show (zeroBytes s.m).length = _; rw [length_zeroBytes, h.m], Nat.zero_le _, h.hs⟩

theorem copyWords_safe (dst : List (BitVec w)) (v : Bytes) (h : ¬ (v.length ≠ 0 ∧ v.length ≠ w / 4)) : ∃ x, copyWords T dst v = .ok x := by
  unfold copyWords
  split
  · exact ⟨_, rfl⟩
  · rw [if_pos (by omega)]; exact ⟨_, rfl⟩

theorem set_safe {hs : Nat} (s : Blk (St w)) (p : Blake2Param) (h : I hs s) :
    ∃ t s', set T p s = .ok (t, s') ∧ I hs s' := by
  cases p with
  | salt v =>
    show ∃ t s', setSalt T v s = .ok (t, s') ∧ I hs s'
    unfold setSalt
    split
    · exact ⟨true, s, rfl, h⟩
    · rename_i hv
      obtain ⟨x, e⟩ := copyWords_safe (T := T) s.h.s v hv
      rw [e]
      exact ⟨false, _, rfl, ⟨h.m, h.k, h.hs⟩, h.H, h.pos⟩
  | personalization v =>
    show ∃ t s', setPersonalization T v s = .ok (t, s') ∧ I hs s'
    unfold setPersonalization
    split
    · exact ⟨true, s, rfl, h⟩
    · rename_i hv
      obtain ⟨x, e⟩ := copyWords_safe (T := T) s.h.p v hv
      rw [e]
      exact ⟨false, _, rfl, ⟨h.m, h.k, h.hs⟩, h.H, h.pos⟩
  | key v =>
    show ∃ t s', setKey v s = .ok (t, s') ∧ I hs s'
    unfold setKey
    split
    · exact ⟨true, s, rfl, h⟩
    · exact ⟨false, _, rfl, ⟨h.m, by show v.length ≤ w; omega, h.hs⟩, h.H, h.pos⟩

theorem hash (g : Good T) (kind : Kind) (hs : Nat) (h0 : 0 < hs / 8) (hk : kind = .hash → hs / 8 ≤ w) :
    HashSafe (provider T kind) (I0 hs) (I hs) where
  sub := fun _ h => h.toI0
  init := fun s h => init_safe g kind s h
  update := fun s d h hd => update_safe g s d h hd
  final := fun s h => by
    obtain ⟨b, e, l⟩ := final_safe g kind 0 s h hk
    exact ⟨b, e, by show b.length = s.h.hs / 8; rw [h.hs]; exact l⟩
  size := fun s h => by show 0 < s.h.hs / 8; rw [h.hs]; exact h0
  clear := clear_safe
  set := fun s p h _ => by
    obtain ⟨t, s', e, i⟩ := set_safe (T := T) s p h
    exact ⟨t, s', e, by cases t; exact i.toI0; exact i⟩

theorem xof (g : Good T) (hs : Nat) : XofSafe (xofProvider T) (I0 hs) (I hs) where
  sub := fun _ h => h.toI0
  init := fun s h => init_safe g .xof s h
  update := fun s d h hd => update_safe g s d h hd
  squeeze := fun s n h _ => squeeze_safe g .xof n s h
  clear := clear_safe
  set := fun s p h _ => by
    obtain ⟨t, s', e, i⟩ := set_safe (T := T) s p h
    exact ⟨t, s', e, by cases t; exact i.toI0; exact i⟩

end Blake2

namespace Blake2p
open Model.Blake2p
open Model.Blake2 (Word St)
open Blake2 (Good)

variable {w : Nat} {T : Word w}

/-- A property of all leaves. -/
def All (Q : Blk (St w) → Prop) (l : List (Blk (St w))) : Prop := l.length = leaves w ∧ ∀ x ∈ l, Q x

theorem forLeaves_safe {Q Q' : Blk (St w) → Prop} {f : Nat → Blk (St w) → M (Blk (St w))} {n : Nat}
    (hf : ∀ i a, i < n → Q a → ∃ a', f i a = .ok a' ∧ Q' a') : ∀ (l : List (Blk (St w))) (i : Nat), i + l.length ≤ n → (∀ x ∈ l, Q x) →
      ∃ l', forLeaves f i l = .ok l' ∧ l'.length = l.length ∧ ∀ x ∈ l', Q' x := by
  intro l
  induction l with
  | nil => exact fun i _ _ => ⟨[], rfl, rfl, nofun⟩
  | cons a l ih =>
    intro i hi h
    rw [List.length_cons] at hi
    obtain ⟨a', e, q⟩ := hf i a (by omega) (h a (List.mem_cons_self ..))
    obtain ⟨l', e', n', q'⟩ := ih (i + 1) (by omega) (fun x hx => h x (List.mem_cons_of_mem _ hx))
    refine ⟨a' :: l', ?_, by rw [List.length_cons, List.length_cons, n'], ?_⟩
    · unfold forLeaves
      rw [e, ok_bind, e']; rfl
    · intro x hx
      rcases List.mem_cons.mp hx with rfl | hx
      · exact q
      · exact q' x hx

structure I0 (hs : Nat) (s : Blk (PSt w)) : Prop where
  m : s.m.length = 512
  main : Blake2.I0 hs s.h.main
  leaf : All (Blake2.I0 hs) s.h.leaf
  hs : s.h.hs = hs

/-- The part of the invariant about the trees. -/
def H (hs : Nat) (h : PSt w) : Prop := Blake2.I hs h.main ∧ All (Blake2.I hs) h.leaf ∧ h.hs = hs

structure I (hs : Nat) (s : Blk (PSt w)) : Prop where
  m : s.m.length = 512
  h : H hs s.h
  pos : s.pos < 512

theorem leaves_w (g : Good T) : leaves w * (2 * w) = 512 := by
  rcases g.w2 with rfl | rfl <;> rfl

theorem le_512 (g : Good T) {i : Nat} (hi : i < leaves w) : i * (2 * w) + 2 * w ≤ 512 := by
  have h1 := leaves_w g
  have h2 : (i + 1) * (2 * w) ≤ leaves w * (2 * w) := Nat.mul_le_mul_right _ hi
  rw [Nat.add_mul, Nat.one_mul] at h2
  omega

theorem block_bound {j n x u d k : Nat} (hj : j < n) (h1 : x + u ≤ k) (hn : n * k ≤ d) : j * k + x + u ≤ d := by
  have := Nat.mul_le_mul_right k (show j + 1 ≤ n from hj)
  rw [Nat.add_mul, Nat.one_mul] at this
  omega

theorem leafBlocks_safe (g : Good T) {hs : Nat} (data : Bytes) (n : Nat) (hn : n * 512 ≤ data.length) (i : Nat) (a : Blk (St w))
    (hi : i < leaves w) (ha : Blake2.I hs a) : ∃ a', leafBlocks T data n i a = .ok a' ∧ Blake2.I hs a' := by
  unfold leafBlocks
  suffices ∀ l : List Nat, (∀ j ∈ l, j < n) → ∀ a, Blake2.I hs a → ∃ a', l.foldlM (fun l blk => do
      let b ← readBytes data (blk * 512 + i * (2 * w)) (2 * w)
      Blake2.update T b l) a = .ok a' ∧ Blake2.I hs a' from this _ (fun j hj => List.mem_range.mp hj) a ha
  intro l
  induction l with
  | nil => exact fun _ a h => ⟨a, rfl, h⟩
  | cons j l ih =>
    intro hl a ha
    have hj : j < n := hl j (List.mem_cons_self ..)
    have h1 := le_512 g hi
    have hw := g.w2
    have h3 := block_bound hj h1 hn
    obtain ⟨b, eb, lb⟩ := readBytes_safe data (j * 512 + i * (2 * w)) (2 * w) h3
    obtain ⟨a1, e1, i1⟩ := Blake2.update_safe g a b ha (by omega)
    obtain ⟨a2, e2, i2⟩ := ih (fun k hk => hl k (List.mem_cons_of_mem _ hk)) a1 i1
    refine ⟨a2, ?_, i2⟩
    rw [List.foldlM_cons, eb, ok_bind, e1]
    exact e2

theorem transform_safe (g : Good T) (hs : Nat) : SafeTransform 512 512 (H hs) (transform T) := by
  intro s data n hn hm hi
  obtain ⟨l, e, n', q⟩ := forLeaves_safe (Q := Blake2.I hs) (Q' := Blake2.I hs) (f := leafBlocks T data n) (n := leaves w)
    (fun i a hi ha => leafBlocks_safe g data n hn i a hi ha) s.h.leaf 0 (by rw [hi.2.1.1]; omega) hi.2.1.2
  refine ⟨{ s.h with leaf := l }, s.m, hm, ⟨hi.1, ⟨n'.trans hi.2.1.1, q⟩, hi.2.2⟩, ?_⟩
  unfold transform
  rw [e]; rfl

theorem update_safe (g : Good T) {hs : Nat} (s : Blk (PSt w)) (d : Bytes) (h : I hs s) (hd : d.length < 2 ^ 63) :
    ∃ s', update T d s = .ok s' ∧ I hs s' := by
  obtain ⟨s', e, a, b, c⟩ := absorbBytes_safe_le (z := 0) (by omega) (by omega) (by omega) (by omega)
    (transform_safe g hs) d s h.m (by have := h.pos; omega) h.h hd
  exact ⟨s', e, a, c, by omega⟩

theorem init_safe (g : Good T) {hs : Nat} (s : Blk (PSt w)) (h : I0 hs s) : ∃ s', init T s = .ok s' ∧ I hs s' := by
  obtain ⟨m, e, i⟩ := Blake2.init_safe g .hash s.h.main h.main
  obtain ⟨l, e', n', q⟩ := forLeaves_safe (Q := Blake2.I0 hs) (Q' := Blake2.I hs) (f := fun _ l => Blake2.init T .hash l) (n := leaves w)
    (fun i a _ ha => Blake2.init_safe g .hash a ha) s.h.leaf 0 (by rw [h.leaf.1]; omega) h.leaf.2
  refine ⟨_, (by unfold init; rw [e, ok_bind, e']; rfl), ?_⟩
  exact ⟨h.m, ⟨i, ⟨n'.trans h.leaf.1, q⟩, h.hs⟩, Nat.zero_lt_succ 511⟩

theorem finLeaves_safe (g : Good T) {hs : Nat} (m : Bytes) (pos : Nat) (hm : m.length = 512) : ∀ (l : List (Blk (St w))) (i : Nat)
    (main : Blk (St w)), i + l.length ≤ leaves w → (∀ x ∈ l, Blake2.I hs x) → Blake2.I hs main →
      ∃ main', finLeaves T m pos i l main = .ok main' ∧ Blake2.I hs main' := by
  have hw := g.w2
  intro l
  induction l with
  | nil => exact fun i main _ _ h => ⟨main, rfl, h⟩
  | cons a l ih =>
    intro i main hi h hmain
    rw [List.length_cons] at hi
    have hle := le_512 g (i := i) (by omega)
    have ha := h a (List.mem_cons_self ..)
    have h1 : ∃ a', leafRest T m pos i a = .ok a' ∧ Blake2.I hs a' := by
      unfold leafRest
      split
      · dsimp only
        have hl : (if pos < i * (2 * w) + 2 * w then pos - i * (2 * w) else 2 * w) ≤ 2 * w := by split <;> omega
        generalize (if pos < i * (2 * w) + 2 * w then pos - i * (2 * w) else 2 * w) = len at hl ⊢
        obtain ⟨b, e, lb⟩ := readBytes_safe m (i * (2 * w)) len (by omega)
        rw [e, ok_bind]
        exact Blake2.update_safe g a b ha (by omega)
      · exact ⟨a, rfl, ha⟩
    obtain ⟨a', e1, i1⟩ := h1
    obtain ⟨b, e2, l2⟩ := Blake2.final_safe g .hash (8 * w) a' i1 (fun _ => by rw [if_pos (by omega)]; omega)
    obtain ⟨main1, e3, i3⟩ := Blake2.update_safe g main b hmain (by rw [l2, if_pos (by omega)]; omega)
    unfold finLeaves
    rw [e1, ok_bind, e2, ok_bind, e3, ok_bind]
    exact ih (i + 1) main1 (by omega) (fun x hx => h x (List.mem_cons_of_mem _ hx)) i3

theorem final_safe (g : Good T) {hs : Nat} (hk : hs / 8 ≤ w) (s : Blk (PSt w)) (h : I hs s) :
    ∃ b, final T s = .ok b ∧ b.length = hs / 8 := by
  have hp := h.pos
  obtain ⟨m, e, l⟩ := zeroRest_safe 512 s.m s.pos (by omega) (by rw [h.m]; exact Nat.le_refl _)
    (by decide)
  obtain ⟨main, e1, i1⟩ := finLeaves_safe g (hs := hs) m s.pos (l.trans h.m) s.h.leaf 0 s.h.main (by rw [h.h.2.1.1]; omega) h.h.2.1.2 h.h.1
  obtain ⟨b, e2, l2⟩ := Blake2.final_safe g .hash 0 main i1 (fun _ => hk)
  refine ⟨b, ?_, l2⟩
  unfold final finalize
  dsimp only
  rw [e, ok_bind, e1, ok_bind, e2]

theorem clear_safe {hs : Nat} (s : Blk (PSt w)) (h : I hs s) : ∃ s', clear s = .ok s' ∧ I0 hs s' := by
  obtain ⟨m, e, i⟩ := Blake2.clear_safe s.h.main h.h.1
  obtain ⟨l, e', n', q⟩ := forLeaves_safe (Q := Blake2.I hs) (Q' := Blake2.I0 hs) (f := fun _ l => Blake2.clear l) (n := leaves w)
    (fun i a _ ha => Blake2.clear_safe a ha) s.h.leaf 0 (by rw [h.h.2.1.1]; omega) h.h.2.1.2
  refine ⟨_, (by unfold clear; rw [e, ok_bind, e']; rfl), ?_⟩
  exact ⟨by show (zeroBytes s.m).length = _; rw [length_zeroBytes, h.m], i, ⟨n'.trans h.h.2.1.1, q⟩, h.h.2.2⟩

theorem setLeaves_safe {hs : Nat} (p : Blake2Param) : ∀ l : List (Blk (St w)), (∀ x ∈ l, Blake2.I hs x) →
    ∃ t l', setLeaves T p l = .ok (t, l') ∧ l'.length = l.length ∧ ∀ x ∈ l', Blake2.I hs x := by
  intro l
  induction l with
  | nil => exact fun _ => ⟨false, [], rfl, rfl, nofun⟩
  | cons a l ih =>
    intro h
    obtain ⟨t, a', e, i⟩ := Blake2.set_safe (T := T) a p (h a (List.mem_cons_self ..))
    obtain ⟨t', l', e', n', q'⟩ := ih (fun x hx => h x (List.mem_cons_of_mem _ hx))
    unfold setLeaves
    rw [e, ok_bind]
    dsimp only
    cases t with
    | true =>
      refine ⟨true, a' :: l, rfl, rfl, fun x hx => ?_⟩
      rcases List.mem_cons.mp hx with rfl | hx
      · exact i
      · exact h x (List.mem_cons_of_mem _ hx)
    | false =>
      refine ⟨t', a' :: l', by rw [e']; rfl, by rw [List.length_cons, List.length_cons, n'], fun x hx => ?_⟩
      rcases List.mem_cons.mp hx with rfl | hx
      · exact i
      · exact q' x hx

theorem set_safe {hs : Nat} (s : Blk (PSt w)) (p : Blake2Param) (h : I hs s) : ∃ t s', set T p s = .ok (t, s') ∧ I hs s' := by
  obtain ⟨t, m, e, i⟩ := Blake2.set_safe (T := T) s.h.main p h.h.1
  obtain ⟨t', l', e', n', q'⟩ := setLeaves_safe (T := T) p s.h.leaf h.h.2.1.2
  unfold Model.Blake2p.set
  rw [e, ok_bind]
  dsimp only
  cases t with
  | true => exact ⟨true, _, rfl, h.m, ⟨i, h.h.2⟩, h.pos⟩
  | false =>
    refine ⟨t', _, by rw [e']; rfl, ?_⟩
    exact ⟨h.m, ⟨i, ⟨n'.trans h.h.2.1.1, q'⟩, h.h.2.2⟩, h.pos⟩

theorem I.toI0 {hs : Nat} {s : Blk (PSt w)} (h : I hs s) : I0 hs s :=
  ⟨h.m, h.h.1.toI0, ⟨h.h.2.1.1, fun x hx => (h.h.2.1.2 x hx).toI0⟩, h.h.2.2⟩

theorem hash (g : Good T) (hs : Nat) (h0 : 0 < hs / 8) (hk : hs / 8 ≤ w) : HashSafe (provider T) (I0 hs) (I hs) where
  sub := fun _ h => h.toI0
  init := fun s h => init_safe g s h
  update := fun s d h hd => update_safe g s d h hd
  final := fun s h => by
    obtain ⟨b, e, l⟩ := final_safe g hk s h
    exact ⟨b, e, by show b.length = s.h.hs / 8; rw [h.h.2.2]; exact l⟩
  size := fun s h => by show 0 < s.h.hs / 8; rw [h.h.2.2]; exact h0
  clear := clear_safe
  set := fun s p h _ => by
    obtain ⟨t, s', e, i⟩ := set_safe (T := T) s p h
    exact ⟨t, s', e, by cases t; exact i.toI0; exact i⟩

end Blake2p
end Digestpp.Proofs.Safety
