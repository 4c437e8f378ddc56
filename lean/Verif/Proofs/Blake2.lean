import Verif.Proofs.Blake2Core
import Verif.Proofs.MdFinal
import Verif.Proofs.MdFinal
import Verif.Proofs.Blake
import Verif.Proofs.Api

/-! Absorbing and the last block in the BLAKE2 provider; conformance of BLAKE2b and BLAKE2s. -/

namespace Digestpp.Proofs.Blake2
open Model Spec
open Model.Blake2 (Word St Kind)
open Spec.Blake2 (Variant Params Theta)

variable {w : Nat} {T : Word w} {v : Variant w}

/-- The object without its block buffer, while it absorbs: parameters `θ`, size, tree position. -/
def base (H : List (BitVec w)) (θ : Theta) (hs : Nat) (fo nd no : BitVec 8) : St w :=
  ⟨H, leWords w θ.salt, leWords w θ.personal, θ.key, hs, 0, false, fo, nd, no⟩

/-- The states that occur while absorbing. -/
def In (θ : Theta) (hs : Nat) (fo nd no : BitVec 8) (st : St w) : Prop := ∃ H, st = base H θ hs fo nd no

/-- The block function in `update`, by block number. -/
def step (T : Word w) (i : Nat) (b : Bytes) (h : St w) : St w :=
  Model.Blake2.block T false (BitVec.ofNat 64 (i * (2 * w) * 8)) 0 b h

theorem ofNat_div (a n : Nat) (h : a < 2 ^ 64) (hn : n < 2 ^ 64) : BitVec.ofNat 64 a / BitVec.ofNat 64 n = BitVec.ofNat 64 (a / n) := by
  apply BitVec.eq_of_toNat_eq
  rw [BitVec.toNat_udiv, BitVec.toNat_ofNat, BitVec.toNat_ofNat, BitVec.toNat_ofNat, Nat.mod_eq_of_lt h, Nat.mod_eq_of_lt hn,
    Nat.mod_eq_of_lt (Nat.lt_of_le_of_lt (Nat.div_le_self _ _) h)]

theorem totalbytes_eq (i j : Nat) (h : (i + j + 1) * (2 * w) < 2 ^ 61) :
    Model.Blake2.totalbytes w false (BitVec.ofNat 64 (i * (2 * w) * 8)) j = BitVec.ofNat 64 ((i + j + 1) * (2 * w)) := by
  have e : (i + j + 1) * (2 * w) = i * (2 * w) + (j + 1) * (2 * w) := by rw [← Nat.add_mul]; rfl
  have e2 : (j + 1) * (8 * w) = (j + 1) * (2 * w) * 4 := by
    rw [Nat.mul_assoc]; congr 1; omega
  unfold Model.Blake2.totalbytes
  rw [if_neg (by decide), e2]
  have d1 := ofNat_div (i * (2 * w) * 8) 8 (by omega) (by omega)
  have d2 := ofNat_div ((j + 1) * (2 * w) * 4) 4 (by omega) (by omega)
  rw [Nat.mul_div_cancel _ (by omega)] at d1 d2
  have d1' : BitVec.ofNat 64 (i * (2 * w) * 8) / 8 = BitVec.ofNat 64 (i * (2 * w)) := d1
  have d2' : BitVec.ofNat 64 ((j + 1) * (2 * w) * 4) / 4 = BitVec.ofNat 64 ((j + 1) * (2 * w)) := d2
  rw [d1', d2', ← BitVec.ofNat_add, e]

theorem flag1_false (h : St w) : Model.Blake2.flag1 false h = flag w false := rfl
theorem flag0_false : Model.Blake2.flag0 w false = flag w false := rfl
theorem flag0_true : Model.Blake2.flag0 w true = flag w true := by
  show (-1 : BitVec w) = BitVec.allOnes w
  exact BitVec.neg_one_eq_allOnes

theorem step_arr (ok : WordOk T v) (i : Nat) (b : Bytes) (st : St w) (h : Nat → BitVec w) (hb : b.length = 2 * w)
    (hi : (i + 1) * (2 * w) < 2 ^ 61) :
    step T i b { st with H := arr h } = { st with H := arr (Spec.Blake2.F v ((i + 1) * (2 * w)) false false b h) } := by
  unfold step Model.Blake2.block
  rw [totalbytes_eq i 0 (by simpa using hi), flag1_false, flag0_false, Nat.add_zero, compress_eq ok _ _ (by omega) _ _ b hb]

theorem In.step {θ : Theta} {hs : Nat} {fo nd no : BitVec 8} {st : St w} (h : In θ hs fo nd no st) (i : Nat) (b : Bytes) :
    In θ hs fo nd no (step T i b st) := by
  obtain ⟨H, rfl⟩ := h
  exact ⟨_, rfl⟩

theorem In.block {θ : Theta} {hs : Nat} {fo nd no : BitVec 8} {st : St w} (h : In θ hs fo nd no st) (p : Bool) (t : BitVec 64) (j : Nat)
    (b : Bytes) : In θ hs fo nd no (Model.Blake2.block T p t j b st) := by
  obtain ⟨H, rfl⟩ := h
  exact ⟨_, rfl⟩

theorem transform_ok (p : Bool) (s : Blk (St w)) (data : Bytes) (n : Nat) (hn : n * (2 * w) ≤ data.length) :
    Model.Blake2.transform T p data n s
      = .ok { s with h := foldBlocks (2 * w) (fun j b h => Model.Blake2.block T p s.total j b h) data n s.h } := by
  unfold Model.Blake2.transform
  have := forBlocks_ok (step := fun blk b h => pure (Model.Blake2.block T p s.total blk b h))
    (g := fun j b h => Model.Blake2.block T p s.total j b h) (inv := fun _ => True) (fun _ _ _ _ _ => ⟨rfl, trivial⟩)
    data n s.h hn trivial
  rw [this]
  rfl

theorem isTransform (θ : Theta) (hs : Nat) (fo nd no : BitVec 8) :
    IsTransformIn (· < 2 ^ 61) (2 * w) (2 * w) (In θ hs fo nd no) (step T) (Model.Blake2.transform T false) := by
  intro s data n i hl hn hm hi ht
  refine ⟨s.m, hm, ?_⟩
  rw [transform_ok false s data n hn]
  congr 2
  unfold foldBlocks
  apply foldl_ext'
  intro acc j hj
  rw [List.mem_range] at hj
  have h1 : (i + j + 1) * (2 * w) ≤ (i + n) * (2 * w) := Nat.mul_le_mul_right _ (by omega)
  unfold step Model.Blake2.block
  dsimp only
  rw [ht, totalbytes_eq i j (by omega), totalbytes_eq (i + j) 0 (by simpa using (by omega : (i + j + 1) * (2 * w) < 2 ^ 61))]

theorem safeTransform (θ : Theta) (hs : Nat) (fo nd no : BitVec 8) :
    SafeTransform (2 * w) (2 * w) (In θ hs fo nd no) (Model.Blake2.transform T false) := by
  intro s data n hn hm hi
  refine ⟨_, s.m, hm, ?_, transform_ok false s data n hn⟩
  exact foldBlocks_inv (fun j b h _ hi => hi.block _ _ _ _) _ _ _ hn hi

/-- `s` has absorbed `data`, as the node of the tree with parameters `p`. -/
def Abs (T : Word w) (v : Variant w) (θ : Theta) (hs : Nat) (fo nd no : BitVec 8) (p : Params) (data : Bytes) (s : Blk (St w)) : Prop :=
  Buffered (2 * w) 1 (2 * w) (step T) (base (arr (h0 v p)) θ hs fo nd no) data s

theorem Abs.safe {θ : Theta} {hs : Nat} {fo nd no : BitVec 8} {p : Params} {data : Bytes} {s : Blk (St w)} (hw : 0 < w)
    (h : Abs T v θ hs fo nd no p data s) : Safe (2 * w) 1 (2 * w) (In θ hs fo nd no) s := by
  refine ⟨h.mlen, ?_, ?_⟩
  · rw [h.pos]
    have := Nat.lt_div_mul_add (show 0 < 2 * w by omega) (a := data.length - 1)
    omega
  · rw [h.h]
    exact foldBlocks_inv (fun i b h _ hi => hi.step _ _) _ _ _ (by
      have := Nat.div_mul_le_self (data.length - 1) (2 * w); omega) ⟨_, rfl⟩

theorem update_ok (ok : WordOk T v) {θ : Theta} {hs : Nat} {fo nd no : BitVec 8} {p : Params} {data : Bytes} {s : Blk (St w)}
    (h : Abs T v θ hs fo nd no p data s) (x : Bytes) (hx : (data ++ x).length < 2 ^ 61) :
    ∃ s', Model.Blake2.update T x s = .ok s' ∧ Abs T v θ hs fo nd no p (data ++ x) s' := by
  have hw := ok.w2
  have hxl : x.length < 2 ^ 63 := by rw [List.length_append] at hx; omega
  exact absorbBytes_specIn (by omega) (by omega) (by omega) (by omega) (isTransform θ hs fo nd no) (fun i b h _ hi => hi.step _ _)
    ⟨_, rfl⟩ data x s h hxl (fun n hn => Nat.lt_of_le_of_lt hn hx)

theorem update_safe (ok : WordOk T v) {θ : Theta} {hs : Nat} {fo nd no : BitVec 8} {s : Blk (St w)}
    (h : Safe (2 * w) 1 (2 * w) (In θ hs fo nd no) s) (x : Bytes) (hx : x.length < 2 ^ 63) :
    ∃ s', Model.Blake2.update T x s = .ok s' ∧ Safe (2 * w) 1 (2 * w) (In θ hs fo nd no) s' := by
  have hw := ok.w2
  exact absorbBytes_safe (by omega) (by omega) (by omega) (by omega) (safeTransform θ hs fo nd no) x s h hx

/-- The number of blocks before the last one. -/
def front (bs : Nat) (data : Bytes) : Nat := (data.length - 1) / bs

/-- The chaining value after all blocks but the last. -/
def mid (v : Variant w) (p : Params) (data : Bytes) : Nat → BitVec w :=
  foldBlocks (2 * w) (fun i b h => Spec.Blake2.F v ((i + 1) * (2 * w)) false false b h) data (front (2 * w) data) (h0 v p)

/-- The last block. -/
def tail (w : Nat) (data : Bytes) : Bytes :=
  data.drop (front (2 * w) data * (2 * w)) ++
    List.replicate (2 * w - (data.length - front (2 * w) data * (2 * w))) 0

/-- The last chaining value. -/
def chain (v : Variant w) (p : Params) (last : Bool) (data : Bytes) : Nat → BitVec w :=
  Spec.Blake2.F v data.length true last (tail w data) (mid v p data)

theorem front_le (bs : Nat) (data : Bytes) : front bs data * bs ≤ data.length := by
  have := Nat.div_mul_le_self (data.length - 1) bs
  unfold front
  omega

theorem front_lt (bs : Nat) (hbs : 0 < bs) (data : Bytes) : data.length ≤ front bs data * bs + bs := by
  have := Nat.lt_div_mul_add hbs (a := data.length - 1)
  unfold front
  omega

theorem length_tail (hw : 0 < w) (data : Bytes) : (tail w data).length = 2 * w := by
  have h1 := front_le (2 * w) data
  have h2 := front_lt (2 * w) (by omega) data
  unfold tail
  rw [List.length_append, List.length_drop, List.length_replicate]
  omega

theorem core_eq (hw : 0 < w) (p : Params) (last : Bool) (data : Bytes) :
    Spec.Blake2.core v p last data = ofLeWords (arr (chain v p last data)) := by
  obtain ⟨bs, hbs⟩ : ∃ bs, bs = 2 * w := ⟨_, rfl⟩
  have hb0 : 0 < bs := by omega
  have h1 := front_le bs data
  have h2 := front_lt bs hb0 data
  have hk : max 1 ((data.length + bs - 1) / bs) = front bs data + 1 := by
    unfold front
    by_cases hd : data.length = 0
    · rw [hd, show 0 + bs - 1 = bs - 1 by omega, Nat.div_eq_of_lt (by omega), show 0 - 1 = 0 from rfl, Nat.zero_div]
      rfl
    · rw [show data.length + bs - 1 = data.length - 1 + bs by omega, Nat.add_div_right _ hb0]
      exact Nat.max_eq_right (Nat.succ_pos _)
  unfold Spec.Blake2.core
  dsimp only
  rw [← hbs, hk]
  have hx : data.drop (front bs data * bs) ++ List.replicate ((front bs data + 1) * bs - data.length) 0 = tail w data := by
    unfold tail
    rw [← hbs, show (front bs data + 1) * bs - data.length = bs - (data.length - front bs data * bs) by
      rw [Nat.add_mul]; omega]
  rw [foldBlocks_last1 bs (front bs data) data _ _ (tail w data) h1 hx (by rw [length_tail hw, hbs])]
  show _ = ofLeWords ((List.range 8).map (chain v p last data))
  have e : foldBlocks bs (fun i b h => Spec.Blake2.F v (min ((i + 1) * bs) data.length) (i + 1 = front bs data + 1)
      (i + 1 = front bs data + 1 ∧ last) b h) data (front bs data) (fun i => v.IV i ^^^ (leWords w (p.bytes v)).getD i 0)
      = mid v p data := by
    unfold mid
    rw [← hbs]
    apply foldl_ext'
    intro acc i hi
    rw [List.mem_range] at hi
    have h3 : (i + 1) * bs ≤ front bs data * bs := Nat.mul_le_mul_right _ hi
    dsimp only
    rw [Nat.min_eq_left (by omega), decide_eq_false (by omega), decide_eq_false (by omega)]
  rw [e]
  unfold chain
  rw [Nat.min_eq_right (by rw [Nat.add_mul]; omega), decide_eq_true rfl]
  have : decide (front bs data + 1 = front bs data + 1 ∧ last = true) = last := by cases last <;> simp
  rw [this]

theorem length_core (hw : w = 32 ∨ w = 64) (p : Params) (last : Bool) (data : Bytes) : (Spec.Blake2.core v p last data).length = w := by
  rw [core_eq (by omega), length_ofLeWords]
  show w / 8 * 8 = w
  omega

/-- One compression with `padding`, of exactly the buffer. -/
theorem transform_last (ok : WordOk T v) (s : Blk (St w)) (m : Bytes) (hm : m.length = 2 * w) (h : Nat → BitVec w)
    (hH : s.h.H = arr h) (n : Nat) (hn : 8 * n < 2 ^ 64) (htot : s.total = BitVec.ofNat 64 (8 * n)) (last : Bool)
    (hf : Model.Blake2.flag1 true s.h = flag w last) :
    Model.Blake2.transform T true m 1 s = .ok { s with h := { s.h with H := arr (Spec.Blake2.F v n true last m h) } } := by
  rw [transform_ok true s m 1 (by omega), foldBlocks_one _ _ _ hm]
  unfold Model.Blake2.block Model.Blake2.totalbytes
  rw [if_pos rfl, htot, hf, flag0_true, hH]
  have d := ofNat_div (8 * n) 8 hn (by omega)
  rw [Nat.mul_div_cancel_left _ (by omega)] at d
  have d' : BitVec.ofNat 64 (8 * n) / 8 + 0 / 4 = BitVec.ofNat 64 n := by
    rw [show (0 / 4 : BitVec 64) = 0 from by decide]
    exact (BitVec.add_zero _).trans d
  rw [d', compress_eq ok _ n (by omega) true last m hm]

theorem lastBlock_ok (ok : WordOk T v) (p : Params) (last : Bool) (data : Bytes) (hl : data.length < 2 ^ 61) (s : Blk (St w))
    (hm : s.m.length = 2 * w) (hpos : s.pos = data.length - front (2 * w) data * (2 * w))
    (hbuf : s.m.take s.pos = data.drop (front (2 * w) data * (2 * w))) (hH : s.h.H = arr (mid v p data))
    (htot : s.total = BitVec.ofNat 64 (8 * data.length)) (hf : Model.Blake2.flag1 true s.h = flag w last) :
    Model.Blake2.lastBlock T s = .ok { s with m := tail w data, h := { s.h with H := arr (chain v p last data) } } := by
  have hw := ok.w2
  have h1 := front_le (2 * w) data
  have h2 := front_lt (2 * w) (by omega) data
  have hz : zeroRest (2 * w) s.m s.pos = .ok (tail w data) := by
    unfold zeroRest tail
    by_cases hx : s.pos = 2 * w
    · rw [if_neg (by simpa using hx), ← hbuf, ← hpos, hx, Nat.sub_self, List.take_of_length_le (by omega)]
      simp; rfl
    · rw [if_pos hx, szSub_eq _ _ (by omega) (by unfold szMod; omega), ← hpos]
      unfold memset
      rw [if_pos (by omega), List.drop_of_length_le (by omega), List.append_nil, hbuf]
  unfold Model.Blake2.lastBlock
  rw [hz, ok_bind]
  have := transform_last ok { s with m := tail w data } (tail w data) (length_tail (by omega) data) (mid v p data) hH data.length
    (by omega) htot last hf
  rw [this]
  rfl

/-- The facts `lastBlock_ok` needs, after `total` has been brought up to date. -/
theorem Abs.last (ok : WordOk T v) {θ : Theta} {hs : Nat} {fo nd no : BitVec 8} {p : Params} {data : Bytes} {s : Blk (St w)}
    (h : Abs T v θ hs fo nd no p data s) (hl : data.length < 2 ^ 61) :
    s.h = base (arr (mid v p data)) θ hs fo nd no ∧ s.total + BitVec.ofNat 64 (s.pos * 8) = BitVec.ofNat 64 (8 * data.length) := by
  have h1 := front_le (2 * w) data
  constructor
  · have e := h.h
    rw [e]
    show foldBlocks (2 * w) (step T) data (front (2 * w) data) ((fun H => base (arr H) θ hs fo nd no) (h0 v p)) = _
    rw [foldBlocks_conj' (fun H => base (arr H) θ hs fo nd no) (step := fun i b h => Spec.Blake2.F v ((i + 1) * (2 * w)) false false b h)
      (2 * w) data (front (2 * w) data) (h0 v p) h1]
    · rfl
    · intro i hi b t hb
      have h3 : (i + 1) * (2 * w) ≤ front (2 * w) data * (2 * w) := Nat.mul_le_mul_right _ hi
      exact step_arr ok i b (base [] θ hs fo nd no) t hb (by omega)
  · have e := h.pos
    have e' : s.pos = data.length - front (2 * w) data * (2 * w) := e
    have et : s.total = BitVec.ofNat 64 (front (2 * w) data * (2 * w) * 8) := h.total
    rw [et, ← BitVec.ofNat_add, e']
    congr 1
    omega

theorem stores_eq (ok : WordOk T v) (p : Params) (last : Bool) (data : Bytes) :
    T.stores (arr (chain v p last data)) = Spec.Blake2.core v p last data := by
  have := ok.w2
  rw [ok.stores, core_eq (by omega)]

/-- `final` for the kind `hash`. -/
theorem final_ok (ok : WordOk T v) {θ : Theta} {hs : Nat} {fo nd no : BitVec 8} {p : Params} {data : Bytes} {s : Blk (St w)}
    (h : Abs T v θ hs fo nd no p data s) (hl : data.length < 2 ^ 61) (last : Bool)
    (hf : ∀ H, Model.Blake2.flag1 true (base H θ hs fo nd no : St w) = flag w last) (over : Nat)
    (hn : (if over ≠ 0 then over else hs) / 8 ≤ w) :
    Model.Blake2.final T .hash over s
      = .ok ((Spec.Blake2.core v p last data).take ((if over ≠ 0 then over else hs) / 8)) := by
  have hw := ok.w2
  obtain ⟨hh, ht⟩ := h.last ok hl
  obtain ⟨hb, m, pos, total⟩ := s
  dsimp only at hh ht
  subst hh
  unfold Model.Blake2.final
  rw [if_pos rfl]
  dsimp only
  rw [ht]
  rw [lastBlock_ok ok p last data hl ⟨base (arr (mid v p data)) θ hs fo nd no, m, pos, BitVec.ofNat 64 (8 * data.length)⟩ h.mlen h.pos h.buf rfl rfl (hf _), ok_bind]
  dsimp only
  rw [stores_eq ok]
  rw [readBytes_ok _ _ _ (by rw [length_core (by omega)]; show 0 + (if over ≠ 0 then over else hs) / 8 ≤ w; omega)]
  rfl


/-- The parameter fields of the object. -/
structure Par (θ : Theta) (hs : Nat) (fo nd no : BitVec 8) (st : St w) : Prop where
  s : st.s = leWords w θ.salt
  p : st.p = leWords w θ.personal
  k : st.k = θ.key
  hs : st.hs = hs
  fo : st.fanout = fo
  nd : st.nodedepth = nd
  no : st.nodeoffset = no

theorem In.par {θ : Theta} {hs : Nat} {fo nd no : BitVec 8} {st : St w} (h : In θ hs fo nd no st) : Par θ hs fo nd no st := by
  obtain ⟨H, rfl⟩ := h
  exact ⟨rfl, rfl, rfl, rfl, rfl, rfl, rfl⟩

/-- The object after the assignments in `init`. -/
theorem Par.reset {θ : Theta} {hs : Nat} {fo nd no : BitVec 8} {st : St w} (h : Par θ hs fo nd no st) (H : List (BitVec w)) :
    { st with H := H, xoffset := 0, squeezing := false } = base H θ hs fo nd no := by
  obtain ⟨h1, h2, h3, h4, h5, h6, h7⟩ := h
  unfold base
  rw [← h1, ← h2, ← h3, ← h4, ← h5, ← h6, ← h7]

/-- Parameters the setters accept. -/
structure Valid (w : Nat) (θ : Theta) : Prop where
  key : θ.key.length ≤ w
  salt : θ.salt.length = w / 4
  personal : θ.personal.length = w / 4

theorem length_keyed (bs : Nat) (key msg : Bytes) (h : key.length ≤ bs) : (Spec.Blake2.keyed bs key msg).length ≤ bs + msg.length := by
  unfold Spec.Blake2.keyed
  split
  · omega
  · simp; omega

theorem keyed_append (bs : Nat) (key msg data : Bytes) :
    Spec.Blake2.keyed bs key (msg ++ data) = Spec.Blake2.keyed bs key msg ++ data := by
  unfold Spec.Blake2.keyed
  split <;> simp

/-- From the chaining value for parameters `p` and no data, `absorb_key` gives the key block as first data. -/
theorem absorbKey_ok (ok : WordOk T v) {θ : Theta} {hs : Nat} {fo nd no : BitVec 8} {p : Params} {s : Blk (St w)} (hθ : Valid w θ)
    (h : Abs T v θ hs fo nd no p [] s) :
    ∃ s', Model.Blake2.absorbKey T s = .ok s' ∧ Abs T v θ hs fo nd no p (Spec.Blake2.keyed (2 * w) θ.key []) s' := by
  have hw := ok.w2
  have hk := hθ.key
  have hk' : s.h.k = θ.key := (h.safe (by omega)).inv.par.k
  unfold Model.Blake2.absorbKey Spec.Blake2.keyed
  rw [hk']
  by_cases h0 : θ.key = []
  · rw [if_pos h0, if_pos h0]
    exact ⟨s, rfl, h⟩
  · rw [if_neg h0, if_neg h0]
    have hkb : Model.Blake2.keyBlock w θ.key = .ok (θ.key ++ List.replicate (2 * w - θ.key.length) 0) := by
      unfold Model.Blake2.keyBlock
      rw [if_pos (by omega)]; rfl
    rw [hkb, ok_bind, List.append_nil]
    exact update_ok ok h _ (by simp; omega)

/-- Limits on the digest size. -/
def SizeOk (w : Nat) (kind : Kind) (hs : Nat) : Prop :=
  match kind with
  | .hash => hs / 8 ≤ w
  | .xHash => hs / 8 < 2 ^ (w / 2)
  | .xof => True

theorem fits_seq (hw : w = 32 ∨ w = 64) (kind : Kind) (hs : Nat) (h : SizeOk w kind hs) (θ : Theta) (hθ : Valid w θ) :
    Fits w (Spec.Blake2.seqParams θ (lens w kind hs).1 (lens w kind hs).2) := by
  have hk := hθ.key
  have hl : (lens w kind hs).1 < 256 ∧ (lens w kind hs).2 < 2 ^ (w / 2) := by
    cases kind with
    | hash =>
      have h' : hs / 8 ≤ w := h
      exact ⟨show hs / 8 < 256 by omega, show 0 < 2 ^ (w / 2) from Nat.two_pow_pos _⟩
    | xHash => exact ⟨show w < 256 by omega, h⟩
    | xof => exact ⟨show w < 256 by omega, show 2 ^ (w / 2) - 1 < _ from Nat.sub_lt (Nat.two_pow_pos _) (by omega)⟩
  refine ⟨hl.1, show θ.key.length < 256 by omega, show 1 < 256 by omega, show 1 < 256 by omega, show 0 < 2 ^ 32 by omega,
    show 0 < 2 ^ 32 by omega, hl.2, show 0 < 256 by omega, show 0 < 256 by omega, hθ.salt, hθ.personal⟩

/-- The parameter block of the sequential functions. -/
def seq (w : Nat) (kind : Kind) (hs : Nat) (θ : Theta) : Params := Spec.Blake2.seqParams θ (lens w kind hs).1 (lens w kind hs).2

/-- `s` carries the parameters `θ` and has absorbed `msg`. -/
def R (T : Word w) (v : Variant w) (kind : Kind) (hs : Nat) (θ : Theta) (msg : Bytes) (s : Blk (St w)) : Prop :=
  Valid w θ ∧ Safe (2 * w) 1 (2 * w) (In θ hs 0 0 0) s ∧
    (msg.length < 2 ^ 60 → Abs T v θ hs 0 0 0 (seq w kind hs θ) (Spec.Blake2.keyed (2 * w) θ.key msg) s)

theorem init_ok (ok : WordOk T v) (kind : Kind) (hs : Nat) (hsz : SizeOk w kind hs) (θ : Theta) (hθ : Valid w θ) (s : Blk (St w))
    (hm : s.m.length = 2 * w) (hp : Par θ hs 0 0 0 s.h) :
    ∃ s', Model.Blake2.init T kind s = .ok s' ∧ R T v kind hs θ [] s' := by
  have hw := ok.w2
  have hi : Model.Blake2.initial T kind s.h = arr (h0 v (seq w kind hs θ)) := by
    have hf := fits_seq (by omega) kind hs hsz θ hθ
    unfold seq
    have hh := hp.hs
    rw [← hh] at hf ⊢
    exact initial_seq ok kind s.h θ hp.fo hp.k hp.s hp.p hf
  unfold Model.Blake2.init
  dsimp only
  rw [hi, if_pos (.inl hp.fo), hp.reset]
  obtain ⟨s', e, a⟩ := absorbKey_ok ok hθ (Buffered.start (bs := 2 * w) (z := 1) (msize := 2 * w) (step := step T)
    (⟨base (arr (h0 v (seq w kind hs θ))) θ hs 0 0 0, s.m, 0, 0⟩ : Blk (St w)) _ hm rfl rfl rfl)
  exact ⟨s', e, hθ, a.safe (by omega), fun _ => a⟩

theorem R.update (ok : WordOk T v) {kind : Kind} {hs : Nat} {θ : Theta} {msg : Bytes} {s : Blk (St w)} (h : R T v kind hs θ msg s)
    (data : Bytes) (hd : data.length < 2 ^ 63) :
    ∃ s', Model.Blake2.update T data s = .ok s' ∧ R T v kind hs θ (msg ++ data) s' := by
  have hw := ok.w2
  obtain ⟨hθ, hsafe, ha⟩ := h
  by_cases hl : (msg ++ data).length < 2 ^ 60
  · have hl' : msg.length + data.length < 2 ^ 60 := by rwa [List.length_append] at hl
    have hk := length_keyed (2 * w) θ.key (msg ++ data) (by have := hθ.key; omega)
    rw [keyed_append] at hk
    obtain ⟨s', e, a⟩ := update_ok ok (ha (by omega)) data (by omega)
    rw [← keyed_append] at a
    exact ⟨s', e, hθ, a.safe (by omega), fun _ => a⟩
  · obtain ⟨s', e, a⟩ := update_safe ok hsafe data hd
    exact ⟨s', e, hθ, a, fun h => absurd h hl⟩

theorem flag1_seq (H : List (BitVec w)) (θ : Theta) (hs : Nat) (nd no : BitVec 8) :
    Model.Blake2.flag1 true (base H θ hs 0 nd no : St w) = flag w false := by
  unfold Model.Blake2.flag1
  rw [if_pos rfl, if_neg (fun h => h.1 rfl)]
  rfl

theorem valid_none (w : Nat) : Valid w (Theta.none w) := ⟨Nat.zero_le _, List.length_replicate, List.length_replicate⟩

theorem words_none (hw : w = 32 ∨ w = 64) : leWords w (Theta.none w).salt = [0, 0] ∧ leWords w (Theta.none w).personal = [0, 0] := by
  rcases hw with rfl | rfl <;> exact ⟨by decide +kernel, by decide +kernel⟩

/-- What the setters do with the arguments they accept. -/
theorem set_ok (ok : WordOk T v) (keep : Bool) (p : Blake2Param) (hp : keep = true ∨ p ≠ .salt [] ∧ p ≠ .personalization [])
    (θ : Theta) (hθ : Valid w θ) {hs : Nat} {fo nd no : BitVec 8} (s : Blk (St w)) (h : Par θ hs fo nd no s.h) :
    match Spec.Blake2.set w keep p θ with
    | none => Model.Blake2.set T p s = .ok (true, s)
    | some θ' => Valid w θ' ∧ ∃ h', Par θ' hs fo nd no h' ∧ Model.Blake2.set T p s = .ok (false, { s with h := h' }) := by
  have hw := ok.w2
  obtain ⟨h1, h2, h3, h4, h5, h6, h7⟩ := h
  cases p with
  | key x =>
    have e : Spec.Blake2.set w keep (.key x) θ = if x.length ≤ w then some { θ with key := x } else none := rfl
    have e' : Model.Blake2.set T (.key x) s = if x.length > w then pure (true, s) else pure (false, { s with h := { s.h with k := x } }) := rfl
    rw [e, e']
    by_cases hx : x.length ≤ w
    · rw [if_pos hx, if_neg (by omega)]
      exact ⟨⟨hx, hθ.salt, hθ.personal⟩, { s.h with k := x }, ⟨h1, h2, rfl, h4, h5, h6, h7⟩, rfl⟩
    · rw [if_neg hx, if_pos (by omega)]
      rfl
  | salt x =>
    have e : Spec.Blake2.set w keep (.salt x) θ = if x.length = w / 4 then some { θ with salt := x }
        else if x.length = 0 then some (if keep then θ else { θ with salt := List.replicate (w / 4) 0 }) else none := rfl
    rw [e]
    show match _ with | none => Model.Blake2.setSalt T x s = _ | some θ' => Valid w θ' ∧ ∃ h', _ ∧ Model.Blake2.setSalt T x s = _
    unfold Model.Blake2.setSalt Model.Blake2.copyWords
    by_cases hx : x.length = w / 4
    · rw [if_pos hx, if_neg (by omega), if_neg (by omega), if_pos hx]
      exact ⟨⟨hθ.key, hx, hθ.personal⟩, { s.h with s := T.loads 2 x }, ⟨ok.loads 2 x (by omega), h2, h3, h4, h5, h6, h7⟩, rfl⟩
    · rw [if_neg hx]
      by_cases h0 : x.length = 0
      · have hk : keep = true := by
          rcases hp with hk | hk
          · exact hk
          · exact absurd (congrArg _ (List.length_eq_zero_iff.mp h0)) hk.1
        rw [if_pos h0, if_pos hk, if_neg (by omega), if_pos h0]
        exact ⟨hθ, s.h, ⟨h1, h2, h3, h4, h5, h6, h7⟩, rfl⟩
      · rw [if_neg h0, if_pos ⟨h0, hx⟩]
        rfl
  | personalization x =>
    have e : Spec.Blake2.set w keep (.personalization x) θ = if x.length = w / 4 then some { θ with personal := x }
        else if x.length = 0 then some (if keep then θ else { θ with personal := List.replicate (w / 4) 0 }) else none := rfl
    rw [e]
    show match _ with | none => Model.Blake2.setPersonalization T x s = _ | some θ' => Valid w θ' ∧ ∃ h', _ ∧ Model.Blake2.setPersonalization T x s = _
    unfold Model.Blake2.setPersonalization Model.Blake2.copyWords
    by_cases hx : x.length = w / 4
    · rw [if_pos hx, if_neg (by omega), if_neg (by omega), if_pos hx]
      exact ⟨⟨hθ.key, hθ.salt, hx⟩, { s.h with p := T.loads 2 x }, ⟨h1, ok.loads 2 x (by omega), h3, h4, h5, h6, h7⟩, rfl⟩
    · rw [if_neg hx]
      by_cases h0 : x.length = 0
      · have hk : keep = true := by
          rcases hp with hk | hk
          · exact hk
          · exact absurd (congrArg _ (List.length_eq_zero_iff.mp h0)) hk.2
        rw [if_pos h0, if_pos hk, if_neg (by omega), if_pos h0]
        exact ⟨hθ, s.h, ⟨h1, h2, h3, h4, h5, h6, h7⟩, rfl⟩
      · rw [if_neg h0, if_pos ⟨h0, hx⟩]
        rfl

/-- What is covered: messages of fewer than `2^60` bytes; with `keep = false`, empty salts and personalizations are not set. -/
def cover (keep : Bool) : Cover Blake2Param Theta :=
  ⟨fun _ m => m.length < 2 ^ 60, True, fun p => keep = true ∨ p ≠ .salt [] ∧ p ≠ .personalization [], fun _ => True⟩

/-- **The hash objects**, given what `final` does. -/
theorem refines (ok : WordOk T v) (kind : Kind) (keep : Bool) (hs : Nat) (hsz : SizeOk w kind hs) (f : HashFn Blake2Param Theta)
    (hsize : f.size = hs / 8) (hpos : 0 < hs / 8) (hdflt : f.dflt = Theta.none w) (hset : f.set = Spec.Blake2.set w keep)
    (hlen : ∀ θ msg, (f.digest θ msg).length = f.size)
    (hfin : ∀ θ msg s, R T v kind hs θ msg s → msg.length < 2 ^ 60 → Model.Blake2.final T kind 0 s = .ok (f.digest θ msg)) :
    HashRefines (Model.Blake2.provider T kind) f (cover keep) (R T v kind hs) := by
  have hw := ok.w2
  constructor
  · intro θ msg s h
    exact init_ok ok kind hs hsz θ h.1 s h.2.1.mlen h.2.1.inv.par
  · intro θ msg s data h hd
    exact h.update ok data hd
  · intro θ msg s h hl
    exact hfin θ msg s h hl
  · intro _ θ msg s h
    have hp := h.2.1.inv.par
    have hz := words_none (w := w) (by omega)
    obtain ⟨s', e, r⟩ := init_ok ok kind hs hsz (Theta.none w) (valid_none w)
      { s with h := { s.h with H := List.replicate 8 0, s := [0, 0], p := [0, 0], k := [], fanout := 0, nodedepth := 0, nodeoffset := 0 }
               m := zeroBytes s.m }
      (by show (List.replicate _ _).length = _; rw [List.length_replicate]; exact h.2.1.mlen)
      ⟨hz.1.symm, hz.2.symm, rfl, hp.hs, rfl, rfl, rfl⟩
    rw [hdflt]
    exact ⟨_, s', rfl, e, r⟩
  · intro θ msg s h
    show s.h.hs / 8 = _
    rw [h.2.1.inv.par.hs, hsize]
  · rw [hsize]; exact hpos
  · intro θ msg s _ _
    exact hlen θ msg
  · intro θ msg s p h hp
    have := set_ok ok keep p hp θ h.1 s h.2.1.inv.par
    rw [hset]
    revert this
    cases Spec.Blake2.set w keep p θ with
    | none => exact fun e => ⟨s, e, h⟩
    | some θ' =>
      rintro ⟨hθ', h', hp', e⟩
      obtain ⟨s', e', r⟩ := init_ok ok kind hs hsz θ' hθ' { s with h := h' } h.2.1.mlen hp'
      exact ⟨_, s', e, e', r⟩

/-- **BLAKE2b and BLAKE2s.** -/
theorem refines_hash (ok : WordOk T v) (keep : Bool) (hs : Nat) (hpos : 0 < hs / 8) (hmax : hs / 8 ≤ w) :
    HashRefines (Model.Blake2.provider T .hash) (Spec.Blake2.fn v keep (hs / 8)) (cover keep) (R T v .hash hs) := by
  have hw := ok.w2
  refine refines ok .hash keep hs hmax _ rfl hpos rfl rfl ?_ ?_
  · intro θ msg
    show (List.take _ _).length = _
    rw [List.length_take, length_core (by omega)]
    exact Nat.min_eq_left hmax
  · intro θ msg s h hl
    have hk := length_keyed (2 * w) θ.key msg (by have := h.1.key; omega)
    exact final_ok ok (h.2.2 hl) (by omega) false (fun H => flag1_seq H θ hs 0 0) 0 hmax

end Digestpp.Proofs.Blake2
