import Verif.Model.Blake2
import Verif.Spec.Blake2
import Verif.Proofs.BlakeRound
import Verif.Proofs.LeWords
import Verif.Proofs.Sha2
import Verif.Proofs.Sched

/-! The BLAKE2 compression function and the initial chaining value. -/

namespace Digestpp.Proofs.Blake2
open Model Spec
open Model.Blake2 (Word St Kind xorAt)
open Spec.Blake2 (Variant Params Theta)
open Digestpp.Proofs.Blake (toCol round_eq)

variable {w : Nat}

/-- The array `H`. -/
def arr (h : Nat → BitVec w) : List (BitVec w) := (List.range 8).map h

/-- What the conformance proof needs to know about the word type. -/
structure WordOk (T : Word w) (v : Variant w) : Prop where
  w2 : (w = 32 ∧ v.xlen = 2) ∨ (w = 64 ∧ v.xlen = 4)
  rounds : T.rounds = v.rounds
  r12 : v.rounds ≤ 12
  R1 : ∀ x, T.R1 x = x.rotateRight v.r1
  R2 : ∀ x, T.R2 x = x.rotateRight v.r2
  R3 : ∀ x, T.R3 x = x.rotateRight v.r3
  R4 : ∀ x, T.R4 x = x.rotateRight v.r4
  iv : T.IV = arr v.IV
  t1 : ∀ t, t < 2 ^ 64 → T.t1 (BitVec.ofNat 64 t) = BitVec.ofNat w (t / 2 ^ w)
  loads : ∀ (n : Nat) (b : Bytes), b.length = w / 8 * n → T.loads n b = leWords w b
  stores : ∀ l, T.stores l = ofLeWords l

theorem iv32 : blake2s_IV = arr Spec.Blake2.v2s.IV := by
  have h := Sha2.iv256_eq
  have e : arr Spec.Blake2.v2s.IV = Sha2.arr Spec.Sha2.iv256 := rfl
  rw [e, h]
  decide +kernel

theorem iv64 : blake2b_IV = arr Spec.Blake2.v2b.IV := by
  have h := Sha2.iv512_eq
  have e : arr Spec.Blake2.v2b.IV = Sha2.arr Spec.Sha2.iv512 := rfl
  rw [e, h]
  decide +kernel

theorem u32_ok : WordOk Model.Blake2.u32 Spec.Blake2.v2s where
  w2 := Or.inl ⟨rfl, rfl⟩
  rounds := rfl
  r12 := by decide
  R1 := fun x => rotr_eq _ _ (by decide)
  R2 := fun x => rotr_eq _ _ (by decide)
  R3 := fun x => rotr_eq _ _ (by decide)
  R4 := fun x => rotr_eq _ _ (by decide)
  iv := iv32
  t1 := fun t ht => by
    apply BitVec.eq_of_toNat_eq
    show (BitVec.setWidth 32 (BitVec.ofNat 64 t >>> 32)).toNat = _
    rw [BitVec.toNat_setWidth, BitVec.toNat_ushiftRight, BitVec.toNat_ofNat, BitVec.toNat_ofNat, Nat.mod_eq_of_lt ht,
      Nat.shiftRight_eq_div_pow]
  loads := fun n b h => loads32_eq n b (by omega)
  stores := fun l => stores32_eq l

theorem u64_ok : WordOk Model.Blake2.u64 Spec.Blake2.v2b where
  w2 := Or.inr ⟨rfl, rfl⟩
  rounds := rfl
  r12 := by decide
  R1 := fun x => rotr_eq _ _ (by decide)
  R2 := fun x => rotr_eq _ _ (by decide)
  R3 := fun x => rotr_eq _ _ (by decide)
  R4 := fun x => rotr_eq _ _ (by decide)
  iv := iv64
  t1 := fun t ht => by
    rw [Nat.div_eq_of_lt ht]; rfl
  loads := fun n b h => loads64_eq n b (by omega)
  stores := fun l => stores64_eq l

theorem S_perm : ∀ r, r < 12 → ∀ j, j < 16 → Model.Blake2.S r j = Spec.Blake.perm r j := by
  decide +kernel

variable {T : Word w} {v : Variant w}

theorem G_eq (ok : WordOk T v) (M : List (BitVec w)) (r i : Nat) (hr : r < 12) (hi : i < 8)
    (q : Model.Blake.Quad w) : toCol (Model.Blake2.G T M r i q) = Spec.Blake2.G v M r i (toCol q) := by
  have h1 := S_perm r hr (2 * i) (by omega)
  have h2 := S_perm r hr (2 * i + 1) (by omega)
  unfold Model.Blake2.G Spec.Blake2.G
  simp only [ok.R1, ok.R2, ok.R3, ok.R4, h1, h2]
  rfl

/-- The finalization words. -/
def flag (w : Nat) (f : Bool) : BitVec w := if f then BitVec.allOnes w else 0

theorem compress_eq (ok : WordOk T v) (h : Nat → BitVec w) (t : Nat) (ht : t < 2 ^ 64) (f0 f1 : Bool)
    (b : Bytes) (hb : b.length = 2 * w) :
    Model.Blake2.compress T (BitVec.ofNat 64 t) (flag w f0) (flag w f1) b (arr h) = arr (Spec.Blake2.F v t f0 f1 b h) := by
  have hw : w / 8 * 8 = w ∧ w ≤ 64 := by have := ok.w2; omega
  have hl := ok.loads 16 b (by omega)
  have hset : (BitVec.ofNat 64 t).setWidth w = BitVec.ofNat w t := by
    apply BitVec.eq_of_toNat_eq
    rw [BitVec.toNat_setWidth, BitVec.toNat_ofNat, BitVec.toNat_ofNat, Nat.mod_eq_of_lt ht]
  unfold Model.Blake2.compress
  rw [hl, hset, ok.t1 t ht, ok.rounds, ok.iv]
  have := foldl_range_sim (fun x r => Model.Blake.round (Model.Blake2.G T (leWords w b) r) x)
    (fun x r => Spec.Blake.round (Spec.Blake2.G v (leWords w b) r) x)
    (fun _ x y => x = (List.range 16).map y) v.rounds
    ((List.range 16).map fun k => if k < 8 then h k
      else v.IV (k - 8) ^^^
        (if k = 12 then BitVec.ofNat w t else if k = 13 then BitVec.ofNat w (t / 2 ^ w)
         else if k = 14 ∧ f0 then BitVec.allOnes w else if k = 15 ∧ f1 then BitVec.allOnes w else 0))
    (fun k => if k < 8 then h k
      else v.IV (k - 8) ^^^
        (if k = 12 then BitVec.ofNat w t else if k = 13 then BitVec.ofNat w (t / 2 ^ w)
         else if k = 14 ∧ f0 then BitVec.allOnes w else if k = 15 ∧ f1 then BitVec.allOnes w else 0))
    rfl (by
      intro r x y hr hx
      subst hx
      exact round_eq _ _ (fun i hi q => G_eq ok _ r i (by have := ok.r12; omega) hi q) y)
  dsimp only
  unfold Spec.Blake2.F
  dsimp only
  revert this
  generalize (List.range v.rounds).foldl (fun x r => Spec.Blake.round (Spec.Blake2.G v (leWords w b) r) x) _ = y
  intro this
  generalize BitVec.ofNat w t = t0 at *
  generalize BitVec.ofNat w (t / 2 ^ w) = t1 at *
  have e : List.take 8 (arr h) ++ [(arr v.IV).getD 0 0, (arr v.IV).getD 1 0, (arr v.IV).getD 2 0, (arr v.IV).getD 3 0,
      t0 ^^^ (arr v.IV).getD 4 0, t1 ^^^ (arr v.IV).getD 5 0, flag w f0 ^^^ (arr v.IV).getD 6 0, flag w f1 ^^^ (arr v.IV).getD 7 0]
      = ((List.range 16).map fun k => if k < 8 then h k
      else v.IV (k - 8) ^^^
        (if k = 12 then t0 else if k = 13 then t1
         else if k = 14 ∧ f0 then BitVec.allOnes w else if k = 15 ∧ f1 then BitVec.allOnes w else 0)) := by
    show [h 0, h 1, h 2, h 3, h 4, h 5, h 6, h 7, v.IV 0, v.IV 1, v.IV 2, v.IV 3, t0 ^^^ v.IV 4, t1 ^^^ v.IV 5,
        flag w f0 ^^^ v.IV 6, flag w f1 ^^^ v.IV 7]
      = [h 0, h 1, h 2, h 3, h 4, h 5, h 6, h 7, v.IV 0 ^^^ _, v.IV 1 ^^^ _, v.IV 2 ^^^ _, v.IV 3 ^^^ _, v.IV 4 ^^^ t0, v.IV 5 ^^^ t1,
        v.IV 6 ^^^ _, v.IV 7 ^^^ _]
    have x0 : ∀ x : BitVec w, x ^^^ 0 = x := fun x => BitVec.xor_zero
    simp only [x0, Nat.reduceEqDiff, false_and, if_false, true_and, BitVec.xor_comm t0, BitVec.xor_comm t1,
      BitVec.xor_comm (flag w _)]
    rfl
  rw [e, this]
  rfl

/-- The words of a parameter block, before salt and personalization. -/
def top (w : Nat) (p : Params) : List (BitVec w) :=
  if w = 64 then
    [BitVec.ofNat w (p.digestLen + 256 * p.keyLen + 2 ^ 16 * p.fanout + 2 ^ 24 * p.depth + 2 ^ 32 * p.leafLen),
     BitVec.ofNat w (p.nodeOffset + 2 ^ 32 * p.xofLen), BitVec.ofNat w (p.nodeDepth + 256 * p.innerLen), 0]
  else
    [BitVec.ofNat w (p.digestLen + 256 * p.keyLen + 2 ^ 16 * p.fanout + 2 ^ 24 * p.depth), BitVec.ofNat w p.leafLen,
     BitVec.ofNat w p.nodeOffset, BitVec.ofNat w (p.xofLen + 2 ^ 16 * p.nodeDepth + 2 ^ 24 * p.innerLen)]

/-- The values fit into their fields. -/
structure Fits (w : Nat) (p : Params) : Prop where
  digestLen : p.digestLen < 256
  keyLen : p.keyLen < 256
  fanout : p.fanout < 256
  depth : p.depth < 256
  leafLen : p.leafLen < 2 ^ 32
  nodeOffset : p.nodeOffset < 2 ^ 32
  xofLen : p.xofLen < 2 ^ (w / 2)
  nodeDepth : p.nodeDepth < 256
  innerLen : p.innerLen < 256
  salt : p.salt.length = w / 4
  personal : p.personal.length = w / 4

theorem words64 {v : Variant 64} (hx : v.xlen = 4) (p : Params) (f : Fits 64 p) :
    leWords 64 (p.bytes v) = top 64 p ++ (leWords 64 p.salt ++ leWords 64 p.personal) := by
  obtain ⟨dl, kl, fo, de, ll, no, xl, nd, il, salt, pers⟩ := p
  obtain ⟨h1, h2, h3, h4, h5, h6, h7, h8, h9, h10, h11⟩ := f
  dsimp only at *
  have e : (⟨dl, kl, fo, de, ll, no, xl, nd, il, salt, pers⟩ : Params).bytes v
      = leBytes 8 (dl + 256 * kl + 2 ^ 16 * fo + 2 ^ 24 * de + 2 ^ 32 * ll) ++ (leBytes 8 (no + 2 ^ 32 * xl) ++
        (leBytes 8 (nd + 256 * il) ++ (leBytes 8 0 ++ (salt ++ pers)))) := by
    unfold Params.bytes
    dsimp only
    rw [hx, leBytes_append 1 1 _ _ (by omega), leBytes_append (1 + 1) 1 _ _ (by omega), leBytes_append (1 + 1 + 1) 1 _ _ (by omega),
      leBytes_append (1 + 1 + 1 + 1) 4 _ _ (by omega)]
    rw [List.append_assoc _ (leBytes 4 no), leBytes_append 4 4 _ _ (by omega)]
    rw [List.append_assoc _ (leBytes 1 nd), leBytes_append 1 1 _ _ (by omega)]
    simp only [List.length_append, length_leBytes]
    have z : ∀ x, x < 65536 → leBytes (1 + 1) x ++ List.replicate (64 / 2 - (1 + 1 + 1 + 1 + 4 + (4 + 4) + (1 + 1))) (0 : Byte) = leBytes 8 x ++ leBytes 8 0 := by
      intro x hx
      rw [← leBytes_zero, leBytes_append _ _ _ _ (by omega), leBytes_append _ _ _ _ (by omega)]
    rw [List.append_assoc _ (leBytes (1 + 1) _), z _ (by omega)]
    simp only [List.append_assoc, Nat.reducePow, Nat.reduceAdd, Nat.pow_one]
  rw [e]
  have l1 := fun x r => leWords_one (w := 64) (by decide) (by decide) x r
  simp only [show 64 / 8 = 8 from rfl] at l1
  rw [l1, l1, l1, l1, leWords_append (by decide) 2 _ _ (by omega)]
  rfl

theorem words32 {v : Variant 32} (hx : v.xlen = 2) (p : Params) (f : Fits 32 p) :
    leWords 32 (p.bytes v) = top 32 p ++ (leWords 32 p.salt ++ leWords 32 p.personal) := by
  obtain ⟨dl, kl, fo, de, ll, no, xl, nd, il, salt, pers⟩ := p
  obtain ⟨h1, h2, h3, h4, h5, h6, h7, h8, h9, h10, h11⟩ := f
  dsimp only at *
  have e : (⟨dl, kl, fo, de, ll, no, xl, nd, il, salt, pers⟩ : Params).bytes v
      = leBytes 4 (dl + 256 * kl + 2 ^ 16 * fo + 2 ^ 24 * de) ++ (leBytes 4 ll ++ (leBytes 4 no ++
        (leBytes 4 (xl + 2 ^ 16 * nd + 2 ^ 24 * il) ++ (salt ++ pers)))) := by
    unfold Params.bytes
    dsimp only
    rw [hx, leBytes_append 1 1 _ _ (by omega), leBytes_append (1 + 1) 1 _ _ (by omega), leBytes_append (1 + 1 + 1) 1 _ _ (by omega)]
    rw [List.append_assoc _ (leBytes 2 xl), leBytes_append 2 1 _ _ (by omega)]
    rw [List.append_assoc _ (leBytes (2 + 1) _), leBytes_append (2 + 1) 1 _ _ (by omega)]
    simp only [List.length_append, length_leBytes]
    simp only [List.append_assoc, Nat.reducePow, Nat.reduceAdd, Nat.pow_one, Nat.reduceDiv, Nat.reduceSub, List.replicate_zero,
      List.nil_append]
  rw [e]
  have l1 := fun x r => leWords_one (w := 32) (by decide) (by decide) x r
  simp only [show 32 / 8 = 4 from rfl] at l1
  rw [l1, l1, l1, l1, leWords_append (by decide) 2 _ _ (by omega)]
  rfl

/-- The chaining value before the first block. -/
def h0 (v : Variant w) (p : Params) (i : Nat) : BitVec w := v.IV i ^^^ (leWords w (p.bytes v)).getD i 0

theorem two (w : Nat) (hw : w = 32 ∨ w = 64) (b : Bytes) (hb : b.length = w / 4) : ∃ x y, leWords w b = [x, y] := by
  have h : (leWords w b).length = 2 := by rw [length_leWords, hb]; rcases hw with rfl | rfl <;> rfl
  generalize leWords w b = l at h
  match l, h with
  | [x, y], _ => exact ⟨x, y, rfl⟩

theorem xorAt0 (a0 a1 a2 a3 a4 a5 a6 a7 x : BitVec w) :
    xorAt [a0, a1, a2, a3, a4, a5, a6, a7] 0 x = [a0 ^^^ x, a1, a2, a3, a4, a5, a6, a7] := rfl
theorem xorAt1 (a0 a1 a2 a3 a4 a5 a6 a7 x : BitVec w) :
    xorAt [a0, a1, a2, a3, a4, a5, a6, a7] 1 x = [a0, a1 ^^^ x, a2, a3, a4, a5, a6, a7] := rfl
theorem xorAt2 (a0 a1 a2 a3 a4 a5 a6 a7 x : BitVec w) :
    xorAt [a0, a1, a2, a3, a4, a5, a6, a7] 2 x = [a0, a1, a2 ^^^ x, a3, a4, a5, a6, a7] := rfl
theorem xorAt3 (a0 a1 a2 a3 a4 a5 a6 a7 x : BitVec w) :
    xorAt [a0, a1, a2, a3, a4, a5, a6, a7] 3 x = [a0, a1, a2, a3 ^^^ x, a4, a5, a6, a7] := rfl
theorem initSalt_eq (a0 a1 a2 a3 a4 a5 a6 a7 s0 s1 p0 p1 : BitVec w) :
    Model.Blake2.initSalt [s0, s1] [p0, p1] [a0, a1, a2, a3, a4, a5, a6, a7]
      = [a0, a1, a2, a3, a4 ^^^ s0, a5 ^^^ s1, a6 ^^^ p0, a7 ^^^ p1] := rfl

theorem arr_eq (h : Nat → BitVec w) : arr h = [h 0, h 1, h 2, h 3, h 4, h 5, h 6, h 7] := rfl

/-- The initial chaining value, once the words of the parameter block are known. -/
theorem h0_eq (ok : WordOk T v) (p : Params) (f : Fits w p) {t0 t1 t2 t3 s0 s1 p0 p1 : BitVec w} (ht : top w p = [t0, t1, t2, t3])
    (hs : leWords w p.salt = [s0, s1]) (hp : leWords w p.personal = [p0, p1]) :
    arr (h0 v p) = [v.IV 0 ^^^ t0, v.IV 1 ^^^ t1, v.IV 2 ^^^ t2, v.IV 3 ^^^ t3, v.IV 4 ^^^ s0, v.IV 5 ^^^ s1,
      v.IV 6 ^^^ p0, v.IV 7 ^^^ p1] := by
  have e : leWords w (p.bytes v) = top w p ++ (leWords w p.salt ++ leWords w p.personal) := by
    rcases ok.w2 with ⟨rfl, hx⟩ | ⟨rfl, hx⟩
    · exact words32 hx p f
    · exact words64 hx p f
  unfold h0
  rw [e, ht, hs, hp]
  rfl

/-- Word 0 in pieces. -/
theorem word0 (a b c d e : Nat) (ha : a < 256) (hb : b < 256) (hc : c < 256) (hd : d < 256) :
    BitVec.ofNat w (a + 256 * b + 2 ^ 16 * c + 2 ^ 24 * d + 2 ^ 32 * e)
      = BitVec.ofNat w a ^^^ BitVec.ofNat w (256 * b) ^^^ BitVec.ofNat w (2 ^ 16 * c) ^^^ BitVec.ofNat w (2 ^ 24 * d) ^^^
        BitVec.ofNat w (2 ^ 32 * e) := by
  rw [ofNat_add_xor 32 _ e (by omega), ofNat_add_xor 24 _ d (by omega), ofNat_add_xor 16 _ c (by omega)]
  rw [ofNat_add_xor 8 a b (by omega)]

theorem word0' (a b c d : Nat) (ha : a < 256) (hb : b < 256) (hc : c < 256) :
    BitVec.ofNat w (a + 256 * b + 2 ^ 16 * c + 2 ^ 24 * d)
      = BitVec.ofNat w a ^^^ BitVec.ofNat w (256 * b) ^^^ BitVec.ofNat w (2 ^ 16 * c) ^^^ BitVec.ofNat w (2 ^ 24 * d) := by
  rw [ofNat_add_xor 24 _ d (by omega), ofNat_add_xor 16 _ c (by omega)]
  rw [ofNat_add_xor 8 a b (by omega)]

theorem word3 (a b c : Nat) (ha : a < 2 ^ 16) (hb : b < 256) :
    BitVec.ofNat w (a + 2 ^ 16 * b + 2 ^ 24 * c)
      = BitVec.ofNat w a ^^^ BitVec.ofNat w (2 ^ 16 * b) ^^^ BitVec.ofNat w (2 ^ 24 * c) := by
  rw [ofNat_add_xor 24 _ c (by omega), ofNat_add_xor 16 _ b (by omega)]

theorem list8 {a0 a1 a2 a3 a4 a5 a6 a7 b0 b1 b2 b3 : BitVec w} (h0 : a0 = b0) (h1 : a1 = b1) (h2 : a2 = b2) (h3 : a3 = b3) :
    [a0, a1, a2, a3, a4, a5, a6, a7] = [b0, b1, b2, b3, a4, a5, a6, a7] := by
  rw [h0, h1, h2, h3]

theorem xor0 (x : BitVec w) : x ^^^ BitVec.ofNat w 0 = x := BitVec.xor_zero

/-- The lengths in the parameter block. -/
def lens (w : Nat) (kind : Kind) (hs : Nat) : Nat × Nat :=
  match kind with
  | .hash => (hs / 8, 0)
  | .xHash => (w, hs / 8)
  | .xof => (w, 2 ^ (w / 2) - 1)

theorem initial_seq (ok : WordOk T v) (kind : Kind) (st : St w) (θ : Theta) (hf : st.fanout = 0) (hk : st.k = θ.key)
    (hs : st.s = leWords w θ.salt) (hp : st.p = leWords w θ.personal)
    (f : Fits w (Spec.Blake2.seqParams θ (lens w kind st.hs).1 (lens w kind st.hs).2)) :
    Model.Blake2.initial T kind st
      = arr (h0 v (Spec.Blake2.seqParams θ (lens w kind st.hs).1 (lens w kind st.hs).2)) := by
  have hw : w = 32 ∨ w = 64 := by have := ok.w2; omega
  obtain ⟨s0, s1, es⟩ := two w hw _ f.salt
  obtain ⟨p0, p1, ep⟩ := two w hw _ f.personal
  have es' : leWords w θ.salt = [s0, s1] := es
  have ep' : leWords w θ.personal = [p0, p1] := ep
  unfold Model.Blake2.initial Model.Blake2.initTree Model.Blake2.initH Model.Blake2.initLen
  rw [if_neg (by simp [hf]), hs, hp, es', ep', if_pos hf, hk, ok.iv, arr_eq]
  have hkl : θ.key.length < 256 := f.keyLen
  have hdl : (lens w kind st.hs).1 < 256 := f.digestLen
  have hxl : (lens w kind st.hs).2 < 2 ^ (w / 2) := f.xofLen
  have x0 := fun x : BitVec w => xor0 x
  rcases ok.w2 with ⟨rfl, hx⟩ | ⟨rfl, hx⟩
  · have ht : top 32 (Spec.Blake2.seqParams θ (lens 32 kind st.hs).1 (lens 32 kind st.hs).2)
        = [BitVec.ofNat 32 ((lens 32 kind st.hs).1 + 256 * θ.key.length + 2 ^ 16 * 1 + 2 ^ 24 * 1), BitVec.ofNat 32 0, BitVec.ofNat 32 0,
          BitVec.ofNat 32 ((lens 32 kind st.hs).2 + 2 ^ 16 * 0 + 2 ^ 24 * 0)] := rfl
    rw [word0' _ _ _ _ hdl hkl (by decide), word3 _ _ _ hxl (by decide)] at ht
    rw [h0_eq ok _ f ht es ep]
    clear es ep ht
    have ec : (0x01010000 : BitVec 32) = BitVec.ofNat 32 (2 ^ 16 * 1) ^^^ BitVec.ofNat 32 (2 ^ 24 * 1) := by decide
    rw [ec, Nat.mul_comm 256]
    simp only [Nat.mul_zero, x0]
    cases kind with
    | hash =>
      rw [if_pos rfl, xorAt0, xorAt0, xorAt0, initSalt_eq]
      exact list8 (by dsimp only [lens]; ac_rfl) rfl rfl (x0 _).symm
    | xHash =>
      rw [if_neg (by decide), if_neg (by decide), if_pos rfl, xorAt0, xorAt0, xorAt3, xorAt0, initSalt_eq]
      exact list8 (by dsimp only [lens]; ac_rfl) rfl rfl rfl
    | xof =>
      rw [if_neg (by decide), if_neg (by decide), if_neg (by decide), xorAt0, xorAt0, xorAt3, xorAt0, initSalt_eq]
      have e1 : (-1 : BitVec 32) >>> (32 / 2) = BitVec.ofNat 32 (2 ^ (32 / 2) - 1) := by decide
      rw [e1]
      exact list8 (by dsimp only [lens]; ac_rfl) rfl rfl rfl
  · have ht : top 64 (Spec.Blake2.seqParams θ (lens 64 kind st.hs).1 (lens 64 kind st.hs).2)
        = [BitVec.ofNat 64 ((lens 64 kind st.hs).1 + 256 * θ.key.length + 2 ^ 16 * 1 + 2 ^ 24 * 1 + 2 ^ 32 * 0),
          BitVec.ofNat 64 (0 + 2 ^ 32 * (lens 64 kind st.hs).2), BitVec.ofNat 64 0, BitVec.ofNat 64 0] := rfl
    rw [word0 _ _ _ _ _ hdl hkl (by decide) (by decide), Nat.zero_add] at ht
    rw [h0_eq ok _ f ht es ep]
    clear es ep ht
    have ec : (0x01010000 : BitVec 64) = BitVec.ofNat 64 (2 ^ 16 * 1) ^^^ BitVec.ofNat 64 (2 ^ 24 * 1) := by decide
    have hsh : ∀ n, BitVec.ofNat 64 n <<< (64 / 2) = BitVec.ofNat 64 (2 ^ 32 * n) := by
      intro n
      apply BitVec.eq_of_toNat_eq
      rw [BitVec.toNat_shiftLeft, BitVec.toNat_ofNat, BitVec.toNat_ofNat, Nat.shiftLeft_eq, Nat.mod_mul_mod, Nat.mul_comm]
    rw [ec, Nat.mul_comm 256]
    simp only [Nat.mul_zero, x0]
    cases kind with
    | hash =>
      rw [if_pos rfl, xorAt0, xorAt0, xorAt0, initSalt_eq]
      exact list8 (by dsimp only [lens]; ac_rfl) (x0 _).symm rfl rfl
    | xHash =>
      rw [if_neg (by decide), if_pos rfl, if_pos trivial, xorAt0, xorAt0, xorAt1, xorAt0, initSalt_eq, hsh]
      exact list8 (by dsimp only [lens]; ac_rfl) rfl rfl rfl
    | xof =>
      rw [if_neg (by decide), if_pos trivial, if_neg (by decide), xorAt0, xorAt0, xorAt1, xorAt0, initSalt_eq]
      have e1 : (-1 : BitVec 64) >>> (64 / 2) = BitVec.ofNat 64 (2 ^ (64 / 2) - 1) := by decide
      rw [e1, hsh]
      exact list8 (by dsimp only [lens]; ac_rfl) rfl rfl rfl

/-- Parameters of the output blocks of BLAKE2X. -/
def b2Params (w : Nat) (θ : Theta) (len i xofLen : Nat) : Params := ⟨len, 0, 0, 0, w, i, xofLen, 0, w, θ.salt, θ.personal⟩

theorem initX_eq (ok : WordOk T v) (θ : Theta) (hs processed i : Nat) (rhs : BitVec w) (len xofLen : Nat)
    (hlen : (if rhs = -1 then w else min (szSub hs processed) w) = len) (hr : rhs.toNat % 2 ^ (w / 2) = xofLen)
    (f : Fits w (b2Params w θ len i xofLen)) :
    Model.Blake2.initSalt (leWords w θ.salt) (leWords w θ.personal) (Model.Blake2.initX T hs processed (BitVec.ofNat 64 i) rhs)
      = arr (h0 v (b2Params w θ len i xofLen)) := by
  have hw : w = 32 ∨ w = 64 := by have := ok.w2; omega
  obtain ⟨s0, s1, es⟩ := two w hw _ f.salt
  obtain ⟨p0, p1, ep⟩ := two w hw _ f.personal
  have es' : leWords w θ.salt = [s0, s1] := es
  have ep' : leWords w θ.personal = [p0, p1] := ep
  have x0 := fun x : BitVec w => xor0 x
  have hdl : len < 256 := f.digestLen
  have hxl : xofLen < 2 ^ (w / 2) := f.xofLen
  have hno : i < 2 ^ 32 := f.nodeOffset
  unfold Model.Blake2.initX
  dsimp only
  rw [hlen, es', ep', ok.iv, arr_eq]
  have hset : (BitVec.ofNat 64 i).setWidth w = BitVec.ofNat w i := by
    apply BitVec.eq_of_toNat_eq
    rw [BitVec.toNat_setWidth, BitVec.toNat_ofNat, BitVec.toNat_ofNat, Nat.mod_eq_of_lt (show i < 2 ^ 64 by omega)]
  rw [hset]
  rcases ok.w2 with ⟨rfl, hx⟩ | ⟨rfl, hx⟩
  · have ht : top 32 (b2Params 32 θ len i xofLen)
        = [BitVec.ofNat 32 (len + 256 * 0 + 2 ^ 16 * 0 + 2 ^ 24 * 0), BitVec.ofNat 32 32, BitVec.ofNat 32 i,
          BitVec.ofNat 32 (xofLen + 2 ^ 16 * 0 + 2 ^ 24 * 32)] := rfl
    rw [word0' _ _ _ _ hdl (by decide) (by decide), word3 _ _ _ hxl (by decide)] at ht
    rw [h0_eq ok _ f ht es ep, if_neg (by decide), xorAt0, xorAt1, xorAt2, xorAt3, xorAt3, initSalt_eq]
    have e : (rhs.setWidth 16).setWidth 32 = BitVec.ofNat 32 xofLen := by
      apply BitVec.eq_of_toNat_eq
      rw [BitVec.toNat_setWidth, BitVec.toNat_setWidth, BitVec.toNat_ofNat, ← hr]
    rw [e]
    simp only [Nat.mul_zero, x0]
    exact list8 rfl rfl rfl (by
      have : (0x20000000 : BitVec 32) = BitVec.ofNat 32 (2 ^ 24 * 32) := by decide
      rw [this]; ac_rfl)
  · have ht : top 64 (b2Params 64 θ len i xofLen)
        = [BitVec.ofNat 64 (len + 256 * 0 + 2 ^ 16 * 0 + 2 ^ 24 * 0 + 2 ^ 32 * 64), BitVec.ofNat 64 (i + 2 ^ 32 * xofLen),
          BitVec.ofNat 64 (0 + 256 * 64), BitVec.ofNat 64 0] := rfl
    have e3 : BitVec.ofNat 64 (0 + 256 * 64) = (0x0000000000004000 : BitVec 64) := by decide
    rw [e3] at ht
    rw [word0 _ _ _ _ _ hdl (by decide) (by decide) (by decide), ofNat_add_xor 32 _ _ hno] at ht
    rw [h0_eq ok _ f ht es ep, if_pos rfl, xorAt0, xorAt0, xorAt1, xorAt1, xorAt2, initSalt_eq]
    have e : rhs <<< 32 = BitVec.ofNat 64 (2 ^ 32 * xofLen) := by
      apply BitVec.eq_of_toNat_eq
      rw [BitVec.toNat_shiftLeft, BitVec.toNat_ofNat, ← hr, Nat.shiftLeft_eq, Nat.mul_comm]
      rw [show 64 / 2 = 32 from rfl, show (2 : Nat) ^ 64 = 2 ^ 32 * 2 ^ 32 from rfl, Nat.mul_mod_mul_left, Nat.mul_mod_mul_left, Nat.mod_mod]
    rw [e]
    simp only [Nat.mul_zero, x0]
    exact list8 (by
      have : (0x0000004000000000 : BitVec 64) = BitVec.ofNat 64 (2 ^ 32 * 64) := by decide
      rw [this]; ac_rfl) (by ac_rfl) rfl rfl

/-- Parameters of the nodes of BLAKE2bp and BLAKE2sp. -/
def treeParams (w : Nat) (θ : Theta) (n P i depth : Nat) : Params := ⟨n, θ.key.length, P, 2, 0, i, 0, depth, w, θ.salt, θ.personal⟩

theorem shl_ofNat (a n : Nat) : BitVec.ofNat w a <<< n = BitVec.ofNat w (2 ^ n * a) := by
  apply BitVec.eq_of_toNat_eq
  rw [BitVec.toNat_shiftLeft, BitVec.toNat_ofNat, BitVec.toNat_ofNat, Nat.shiftLeft_eq, Nat.mod_mul_mod, Nat.mul_comm]

theorem ofNat_or (n a b : Nat) (h : a < 2 ^ n) : BitVec.ofNat w (2 ^ n * b) ||| BitVec.ofNat w a = BitVec.ofNat w (a + 2 ^ n * b) := by
  rw [Nat.add_comm, Nat.two_pow_add_eq_or_of_lt h]
  apply BitVec.eq_of_toNat_eq
  rw [BitVec.toNat_or, BitVec.toNat_ofNat, BitVec.toNat_ofNat, BitVec.toNat_ofNat, Nat.or_mod_two_pow]

theorem initial_tree (ok : WordOk T v) (st : St w) (θ : Theta) (n P i depth : Nat) (hn : st.hs / 8 = n)
    (hP : st.fanout = BitVec.ofNat 8 P) (hi : st.nodeoffset = BitVec.ofNat 8 i) (hd : st.nodedepth = BitVec.ofNat 8 depth)
    (hP0 : 0 < P) (hk : st.k = θ.key)
    (hs : st.s = leWords w θ.salt) (hp : st.p = leWords w θ.personal) (hi' : i < 256)
    (f : Fits w (treeParams w θ n P i depth)) :
    Model.Blake2.initial T .hash st = arr (h0 v (treeParams w θ n P i depth)) := by
  have hw : w = 32 ∨ w = 64 := by have := ok.w2; omega
  obtain ⟨s0, s1, es⟩ := two w hw _ f.salt
  obtain ⟨p0, p1, ep⟩ := two w hw _ f.personal
  have es' : leWords w θ.salt = [s0, s1] := es
  have ep' : leWords w θ.personal = [p0, p1] := ep
  have x0 := fun x : BitVec w => xor0 x
  have hP1 : P < 256 := f.fanout
  have hd1 : depth < 256 := f.nodeDepth
  have hkl : θ.key.length < 256 := f.keyLen
  have hdl : n < 256 := f.digestLen
  have hf : ¬ st.fanout = 0 := by
    rw [hP]
    intro h
    have := congrArg BitVec.toNat h
    rw [BitVec.toNat_ofNat, Nat.mod_eq_of_lt (by omega)] at this
    simp at this
    omega
  have hset : ∀ a, a < 256 → (BitVec.ofNat 8 a).setWidth w = BitVec.ofNat w a := by
    intro a ha
    apply BitVec.eq_of_toNat_eq
    rw [BitVec.toNat_setWidth, BitVec.toNat_ofNat, BitVec.toNat_ofNat, Nat.mod_eq_of_lt (show a < 2 ^ 8 by omega)]
  unfold Model.Blake2.initial Model.Blake2.initTree Model.Blake2.initH Model.Blake2.initLen
  rw [if_pos hf, if_neg hf, if_pos rfl, hs, hp, es', ep', hk, ok.iv, arr_eq, hP, hi, hd, hset _ hP1, hset _ hi', hset _ hd1, hn]
  have h2 : (2 : BitVec w) = BitVec.ofNat w 2 := rfl
  rw [h2, shl_ofNat, shl_ofNat, shl_ofNat, shl_ofNat, shl_ofNat, BitVec.or_comm (BitVec.ofNat w (2 ^ 16 * P)), ofNat_or _ _ _ (by omega),
    ofNat_add_xor _ _ _ (by omega)]
  rcases ok.w2 with ⟨rfl, hx⟩ | ⟨rfl, hx⟩
  · have ht : top 32 (treeParams 32 θ n P i depth)
        = [BitVec.ofNat 32 (n + 256 * θ.key.length + 2 ^ 16 * P + 2 ^ 24 * 2), BitVec.ofNat 32 0, BitVec.ofNat 32 i,
          BitVec.ofNat 32 (0 + 2 ^ 16 * depth + 2 ^ 24 * 32)] := rfl
    rw [word0' _ _ _ _ hdl hkl hP1, Nat.zero_add] at ht
    rw [h0_eq ok _ f ht es ep, Nat.mul_comm 256, x0]
    rw [BitVec.or_comm (BitVec.ofNat 32 (2 ^ 16 * depth)), ofNat_or 24 _ _ (by omega)]
    dsimp only
    rw [if_neg (by decide), if_neg (by decide), xorAt0, xorAt0, initSalt_eq, xorAt0, xorAt2, xorAt3]
    exact list8 (by ac_rfl) rfl rfl rfl
  · have ht : top 64 (treeParams 64 θ n P i depth)
        = [BitVec.ofNat 64 (n + 256 * θ.key.length + 2 ^ 16 * P + 2 ^ 24 * 2 + 2 ^ 32 * 0), BitVec.ofNat 64 (i + 2 ^ 32 * 0),
          BitVec.ofNat 64 (depth + 2 ^ 8 * 64), BitVec.ofNat 64 0] := rfl
    rw [word0 _ _ _ _ _ hdl hkl hP1 (by decide)] at ht
    rw [h0_eq ok _ f ht es ep, Nat.mul_comm 256 θ.key.length, x0, Nat.mul_zero, x0, Nat.add_zero]
    rw [BitVec.or_comm (BitVec.ofNat 64 depth), ofNat_or 8 _ _ (by omega)]
    dsimp only
    rw [if_pos rfl, if_pos rfl, xorAt0, xorAt0, initSalt_eq, xorAt0, xorAt1, xorAt2]
    exact list8 (by ac_rfl) rfl rfl rfl

end Digestpp.Proofs.Blake2
