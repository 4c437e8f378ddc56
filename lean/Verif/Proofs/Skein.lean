import Verif.Proofs.SkeinCore
import Verif.Proofs.Blake2X

/-! Skein: UBI, the chaining values, output; conformance of the providers. -/

namespace Digestpp.Proofs.Skein
open Model Spec
open Model.Skein (Fns St)
open Spec.Skein (Threefish Theta)
open Blake2 (front front_le front_lt)

variable {F : Fns} {T : Threefish}

/-- The second tweak word. -/
def T1 (ty : Nat) (first final : Bool) : BitVec 64 :=
  BitVec.ofNat 64 (ty * 2 ^ 56 + (if first then 2 ^ 62 else 0) + (if final then 2 ^ 63 else 0))

/-- The types in use. -/
def codes : List Nat := [0, 4, 8, 20, 48, 63]

theorem T1_clear : ∀ ty ∈ codes, ∀ f l, T1 ty f l &&& ~~~((64 : BitVec 64) <<< 56) = T1 ty false l := by decide
theorem T1_final : ∀ ty ∈ codes, ∀ f, T1 ty f false ||| (1 : BitVec 64) <<< 63 = T1 ty f true := by decide
theorem T1_code : ∀ ty ∈ codes, Model.Skein.code1 (BitVec.ofNat 64 ty) = T1 ty true false := by decide

theorem tweak_div (ty : Nat) (x : Nat) (f l : Bool) :
    Spec.Skein.tweak ty x f l = x + 2 ^ 64 * (ty * 2 ^ 56 + (if f then 2 ^ 62 else 0) + (if l then 2 ^ 63 else 0)) := by
  unfold Spec.Skein.tweak
  cases f <;> cases l <;> simp only [if_true, Bool.false_eq_true, if_false] <;> omega

theorem stepH_tweak (ty x : Nat) (hx : x < 2 ^ 64) (f l : Bool) (b : Bytes) (h : Nat → BitVec 64) :
    stepH T (BitVec.ofNat 64 x) (T1 ty f l) b h
      = fun j => Spec.Skein.encrypt T h (Spec.Skein.tweakWords (Spec.Skein.tweak ty x f l)) (fun j => (leWords 64 b).getD j 0) j
          ^^^ (leWords 64 b).getD j 0 := by
  have e : Spec.Skein.tweakWords (Spec.Skein.tweak ty x f l)
      = fun i => if i = 0 then BitVec.ofNat 64 x else if i = 1 then T1 ty f l else BitVec.ofNat 64 x ^^^ T1 ty f l := by
    unfold T1
    rw [tweak_div ty x]
    generalize ty * 2 ^ 56 + (if f then 2 ^ 62 else 0) + (if l then 2 ^ 63 else 0) = y
    have h1 : BitVec.ofNat 64 (x + 2 ^ 64 * y) = BitVec.ofNat 64 x := by
      apply BitVec.eq_of_toNat_eq
      rw [BitVec.toNat_ofNat, BitVec.toNat_ofNat, Nat.add_mul_mod_self_left]
    have h2 : (x + 2 ^ 64 * y) / 2 ^ 64 = y := by
      rw [Nat.add_mul_div_left _ _ (Nat.two_pow_pos 64), Nat.div_eq_of_lt hx, Nat.zero_add]
    funext i
    unfold Spec.Skein.tweakWords
    rw [h1, h2]
  rw [e]
  rfl

/-- The chaining value after all blocks but the last. -/
def mid (T : Threefish) (g : Nat → BitVec 64) (data : Bytes) (ty k : Nat) : Nat → BitVec 64 :=
  foldBlocks (8 * T.nw) (fun i b h => stepH T (BitVec.ofNat 64 ((i + 1) * (8 * T.nw))) (T1 ty (decide (i = 0)) false) b h) data k g

/-- The last block. -/
def tail (bs : Nat) (data : Bytes) : Bytes :=
  data.drop (front bs data * bs) ++ List.replicate (bs - (data.length - front bs data * bs)) 0

theorem length_tail (bs : Nat) (hbs : 0 < bs) (data : Bytes) : (tail bs data).length = bs := by
  have h1 := front_le bs data
  have h2 := front_lt bs hbs data
  unfold tail
  rw [List.length_append, List.length_drop, List.length_replicate]
  omega

/-- UBI, the last block apart. -/
theorem ubi_eq (hnw : 0 < T.nw) (g : Nat → BitVec 64) (data : Bytes) (ty : Nat) (hl : data.length < 2 ^ 64) :
    Spec.Skein.ubi T g data ty
      = stepH T (BitVec.ofNat 64 data.length) (T1 ty (decide (front (8 * T.nw) data = 0)) true) (tail (8 * T.nw) data)
          (mid T g data ty (front (8 * T.nw) data)) := by
  obtain ⟨bs, hbs⟩ : ∃ bs, bs = 8 * T.nw := ⟨_, rfl⟩
  have hb0 : 0 < bs := by omega
  have h1 := front_le bs data
  have h2 := front_lt bs hb0 data
  have hk : max 1 ((data.length + bs - 1) / bs) = front bs data + 1 := by
    unfold front
    by_cases hd : data.length = 0
    · rw [hd, show 0 + bs - 1 = bs - 1 by omega, Nat.div_eq_of_lt (by omega), show 0 - 1 = 0 from rfl, Nat.zero_div]
      rfl
    · rw [show data.length + bs - 1 = data.length - 1 + bs by omega, Nat.add_div_right _ hb0]
      exact Nat.max_eq_right (Nat.succ_pos _)
  unfold Spec.Skein.ubi mid
  dsimp only
  rw [← hbs, hk]
  have hx : data.drop (front bs data * bs) ++ List.replicate ((front bs data + 1) * bs - data.length) 0 = tail bs data := by
    unfold tail
    rw [show (front bs data + 1) * bs - data.length = bs - (data.length - front bs data * bs) by rw [Nat.add_mul]; omega]
  rw [foldBlocks_last1 bs (front bs data) data _ _ (tail bs data) h1 hx (length_tail bs hb0 data)]
  rw [stepH_tweak _ _ hl]
  have e : ∀ g', foldBlocks bs (fun i b h => fun j => Spec.Skein.encrypt T h (Spec.Skein.tweakWords (Spec.Skein.tweak ty
        (min ((i + 1) * bs) data.length) (decide (i = 0)) (decide (i + 1 = front bs data + 1)))) (fun j => (leWords 64 b).getD j 0) j
          ^^^ (leWords 64 b).getD j 0) data (front bs data) g'
      = foldBlocks bs (fun i b h => stepH T (BitVec.ofNat 64 ((i + 1) * bs)) (T1 ty (decide (i = 0)) false) b h) data (front bs data) g' := by
    intro g'
    apply foldl_ext'
    intro acc i hi
    rw [List.mem_range] at hi
    have h3 : (i + 1) * bs ≤ front bs data * bs := Nat.mul_le_mul_right _ hi
    dsimp only
    rw [stepH_tweak _ _ (by omega), Nat.min_eq_left (by omega), decide_eq_false (by omega : ¬ i + 1 = front bs data + 1)]
  rw [e, Nat.min_eq_right (by rw [Nat.add_mul]; omega), decide_eq_true (rfl : front bs data + 1 = front bs data + 1)]

/-- The iteration as a function. -/
def stepSt (F : Fns) (b : Bytes) (h : St) : St :=
  match Model.Skein.block F (8 * F.nw) b h with
  | .ok h' => h'
  | .error _ => h

/-- The states that occur. -/
def In (T : Threefish) (fr : St) (h : St) : Prop := ∃ v t0 t1, h = upd fr T.nw v t0 t1

theorem block_in (ok : FOk F T) (fr : St) (b : Bytes) (h : St) (hb : b.length = 8 * T.nw) (hi : In T fr h) :
    Model.Skein.block F (8 * F.nw) b h = .ok (stepSt F b h) ∧ In T fr (stepSt F b h) := by
  obtain ⟨v, t0, t1, rfl⟩ := hi
  unfold stepSt
  rw [ok.nw, block_ok ok (8 * T.nw) b hb]
  exact ⟨rfl, _, _, _, rfl⟩

theorem isTransform (ok : FOk F T) (fr : St) :
    IsTransform (8 * T.nw) (8 * T.nw) (In T fr) (fun _ => stepSt F) (Model.Skein.transform F (8 * T.nw)) := by
  intro s data n i hn hm hi _
  refine ⟨s.m, hm, ?_⟩
  unfold Model.Skein.transform
  rw [ok.nw]
  have := forBlocks_ok (step := fun _ b h => Model.Skein.block F (8 * T.nw) b h) (g := fun _ b h => stepSt F b h) (inv := In T fr)
    (fun i b s hb hi => by have := block_in ok fr b s hb hi; rw [ok.nw] at this; exact this) data n s.h hn hi
  rw [this]
  rfl

/-- `s` has absorbed `data`, starting with chaining value `g` and type `ty`. -/
def Abs (F : Fns) (T : Threefish) (fr : St) (g : Nat → BitVec 64) (ty : Nat) (data : Bytes) (s : Blk St) : Prop :=
  Buffered (8 * T.nw) 1 (8 * T.nw) (fun _ => stepSt F) (upd fr T.nw g 0 (T1 ty true false)) data s

theorem update_ok (ok : FOk F T) {fr : St} {g : Nat → BitVec 64} {ty : Nat} {data : Bytes} {s : Blk St} (h : Abs F T fr g ty data s)
    (x : Bytes) (hx : x.length < 2 ^ 63) :
    ∃ s', Model.Skein.update F x s = .ok s' ∧ Abs F T fr g ty (data ++ x) s' := by
  have h1 := ok.ge
  have h2 := ok.le
  unfold Model.Skein.update
  rw [ok.nw]
  exact absorbBytes_spec (by omega) (by omega) (by omega) (by omega) (isTransform ok fr) (fun _ b h hb hi => (block_in ok fr b h hb hi).2)
    ⟨_, _, _, rfl⟩ data x s h hx

theorem mid_state (ok : FOk F T) (fr : St) (g : Nat → BitVec 64) (ty : Nat) (hty : ty ∈ codes) (data : Bytes) (k : Nat)
    (hk : k * (8 * T.nw) ≤ data.length) :
    foldBlocks (8 * T.nw) (fun _ => stepSt F) data k (upd fr T.nw g 0 (T1 ty true false))
      = upd fr T.nw (mid T g data ty k) (BitVec.ofNat 64 (k * (8 * T.nw))) (T1 ty (decide (k = 0)) false) := by
  induction k with
  | zero => rw [Nat.zero_mul]; rfl
  | succ k ih =>
    have hk' : k * (8 * T.nw) ≤ data.length := by rw [Nat.add_mul] at hk; omega
    have hm : mid T g data ty (k + 1) = stepH T (BitVec.ofNat 64 ((k + 1) * (8 * T.nw))) (T1 ty (decide (k = 0)) false)
        (blockAt (8 * T.nw) k data) (mid T g data ty k) := by
      unfold mid
      rw [foldBlocks_succ]
    rw [foldBlocks_succ, ih hk', hm]
    unfold stepSt
    rw [ok.nw, block_ok ok (8 * T.nw) _ (length_blockAt _ _ _ hk), ← BitVec.ofNat_add,
      show k * (8 * T.nw) + 8 * T.nw = (k + 1) * (8 * T.nw) by rw [Nat.add_mul, Nat.one_mul], T1_clear ty hty,
      decide_eq_false (Nat.succ_ne_zero k)]

theorem transform_one (ok : FOk F T) (len : Nat) (b m : Bytes) (hb : b.length = 8 * T.nw) (pos : Nat) (t : BitVec 64) (fr : St)
    (v : Nat → BitVec 64) (t0 t1 : BitVec 64) :
    Model.Skein.transform F len b 1 ⟨upd fr T.nw v t0 t1, m, pos, t⟩
      = .ok ⟨upd fr T.nw (stepH T (t0 + BitVec.ofNat 64 len) t1 b v) (t0 + BitVec.ofNat 64 len) (t1 &&& ~~~((64 : BitVec 64) <<< 56)),
          m, pos, t⟩ := by
  unfold Model.Skein.transform forBlocks
  rw [ok.nw, show List.range 1 = [0] from rfl, List.foldlM_cons, readBytes_ok _ _ _ (by omega), Nat.zero_mul, List.drop_zero,
    List.take_of_length_le (by omega)]
  rw [show ∀ (f : Bytes → M St), ((Except.ok b : M Bytes) >>= f) = f b from fun _ => rfl]
  dsimp only
  rw [block_ok ok len b hb]
  rfl

/-- The last block of a UBI. -/
theorem last_ok (ok : FOk F T) (fr : St) (g : Nat → BitVec 64) (ty : Nat) (hty : ty ∈ codes) (data : Bytes) (hl : data.length < 2 ^ 64)
    (s : Blk St) (hm : s.m.length = 8 * T.nw) (hpos : s.pos = data.length - front (8 * T.nw) data * (8 * T.nw))
    (hbuf : s.m.take s.pos = data.drop (front (8 * T.nw) data * (8 * T.nw)))
    (hh : s.h = upd fr T.nw (mid T g data ty (front (8 * T.nw) data)) (BitVec.ofNat 64 (front (8 * T.nw) data * (8 * T.nw)))
      (T1 ty (decide (front (8 * T.nw) data = 0)) false)) :
    ∃ t1, Model.Skein.last F s = .ok { s with
      m := tail (8 * T.nw) data
      h := upd fr T.nw (Spec.Skein.ubi T g data ty) (BitVec.ofNat 64 data.length) t1 } := by
  have hge := ok.ge
  obtain ⟨bs, hbs⟩ : ∃ bs, bs = 8 * T.nw := ⟨_, rfl⟩
  have hb0 : 0 < bs := by omega
  have h1 := front_le bs data
  have h2 := front_lt bs hb0 data
  obtain ⟨h, m, pos, t⟩ := s
  dsimp only at hm hpos hbuf hh
  subst hh
  have hz : Model.Skein.zeroTail bs m pos = .ok (tail bs data) := by
    rw [← hbs] at hpos hbuf hm
    unfold tail Model.Skein.zeroTail
    by_cases hx : pos < bs
    · rw [if_pos hx, ← hpos]
      unfold memset
      rw [if_pos (by omega), List.drop_of_length_le (by omega), List.append_nil, hbuf]
    · rw [if_neg hx, ← hbuf, ← hpos, List.take_of_length_le (by omega), show bs - pos = 0 by omega]
      simp; rfl
  refine ⟨T1 ty (decide (front (8 * T.nw) data = 0)) true &&& ~~~((64 : BitVec 64) <<< 56), ?_⟩
  unfold Model.Skein.last
  dsimp only
  rw [ok.nw, ← hbs, hz, ok_bind]
  have hu : ∀ v t0 t1 t1', ({ upd fr T.nw v t0 t1 with tweak1 := t1' } : St) = upd fr T.nw v t0 t1' := fun _ _ _ _ => rfl
  have ht1 : ∀ v t0 t1, (upd fr T.nw v t0 t1).tweak1 = t1 := fun _ _ _ => rfl
  rw [ht1, hu, T1_final ty hty, transform_one ok pos _ _ (by rw [length_tail bs hb0, hbs]), ← BitVec.ofNat_add, ubi_eq (by omega) g data ty hl,
    ← hbs, hpos, ← hbs, show front bs data * bs + (data.length - front bs data * bs) = data.length by omega]

theorem Abs.last (ok : FOk F T) {fr : St} {g : Nat → BitVec 64} {ty : Nat} (hty : ty ∈ codes) {data : Bytes} {s : Blk St}
    (h : Abs F T fr g ty data s) :
    s.h = upd fr T.nw (mid T g data ty (front (8 * T.nw) data)) (BitVec.ofNat 64 (front (8 * T.nw) data * (8 * T.nw)))
      (T1 ty (decide (front (8 * T.nw) data = 0)) false) := by
  rw [h.h]
  exact mid_state ok fr g ty hty data _ (front_le _ _)

theorem inject_ok (ok : FOk F T) (fr : St) (hsq : fr.squeezing = false) (g : Nat → BitVec 64) (ty : Nat) (hty : ty ∈ codes) (p : Bytes)
    (hp : p.length < 2 ^ 63) (m : Bytes) (hm : m.length = 8 * T.nw) (t1 : BitVec 64) :
    ∃ m' t1', m'.length = 8 * T.nw ∧ (t1 = T1 48 true false → t1' = T1 48 true false) ∧
      Model.Skein.injectParameter F p (BitVec.ofNat 64 ty) ⟨upd fr T.nw g 0 t1, m, 0, 0⟩
        = .ok ⟨upd fr T.nw (Spec.Skein.opt T g p ty) 0 t1', m', 0, 0⟩ := by
  have hge := ok.ge
  unfold Model.Skein.injectParameter Spec.Skein.opt
  by_cases h0 : p = []
  · rw [if_pos h0, if_pos h0]
    exact ⟨m, t1, hm, id, rfl⟩
  · rw [if_neg h0, if_neg h0, T1_code ty hty]
    have a0 : Abs F T fr g ty [] ⟨upd fr T.nw g 0 (T1 ty true false), m, 0, 0⟩ := Buffered.start _ _ hm rfl rfl rfl
    obtain ⟨s1, e1, a1⟩ := update_ok ok a0 p hp
    rw [List.nil_append] at a1
    obtain ⟨t, e2⟩ := last_ok ok fr g ty hty p (by omega) s1 a1.mlen a1.pos a1.buf (a1.last ok hty)
    refine ⟨tail (8 * T.nw) p, T1 48 true false, length_tail _ (by omega) _, fun _ => rfl, ?_⟩
    have e1' : Model.Skein.update F p ⟨{ upd fr T.nw g 0 t1 with tweak1 := T1 ty true false }, m, 0, 0⟩ = .ok s1 := e1
    dsimp only at e1' ⊢
    rw [e1', ok_bind, e2, ok_bind]
    dsimp only
    have hc : Model.Skein.code1 48 = T1 48 true false := by decide
    rw [hc]
    congr 2
    unfold upd
    dsimp only
    rw [hsq]

theorem config_ok (bits : Nat) (m : Bytes) (k : Nat) (hm : m.length = 32 + k) :
    Model.Skein.config (BitVec.ofNat 64 bits) m = .ok (Spec.Skein.config bits ++ List.replicate k 0) := by
  have hz : zeroBytes m = [0, 0, 0, 0, 0, 0, 0, 0] ++ (List.replicate 24 0 ++ List.replicate k 0) := by
    unfold zeroBytes
    rw [hm, show (32 + k) = 8 + (24 + k) by omega, ← List.replicate_append_replicate, ← List.replicate_append_replicate]
    rfl
  have hs : ∀ (l : Bytes) (i : Nat) (v : Byte), i < l.length → setByte l i v = .ok (l.set i v) := fun l i v h => if_pos h
  unfold Model.Skein.config Spec.Skein.config
  rw [hz, bytes64_ofNat]
  generalize hr : (List.replicate 24 (0 : Byte) ++ List.replicate k 0) = r
  dsimp only
  rw [hs _ 0 _ (by simp), ok_bind, hs _ 1 _ (by simp), ok_bind, hs _ 2 _ (by simp), ok_bind, hs _ 3 _ (by simp), ok_bind,
    hs _ 4 _ (by simp), ok_bind]
  show memcpyTo ([0x53, 0x48, 0x41, 0x33, 1, 0, 0, 0] ++ r) 8 (leBytes 8 bits) = _
  have hrl : r.length = 24 + k := by rw [← hr, List.length_append, List.length_replicate, List.length_replicate]
  rw [memcpyTo_ok _ _ _ (by rw [length_leBytes, List.length_append, hrl]; show 8 + 8 ≤ 8 + (24 + k); omega)]
  congr 1
  have hd : ([0x53, 0x48, 0x41, 0x33, 1, 0, 0, 0] ++ r : Bytes).drop (8 + 8) = List.replicate 16 0 ++ List.replicate k 0 := by
    rw [← hr]
    rfl
  rw [length_leBytes, hd, List.take_left' (by rfl), List.append_assoc, List.append_assoc, List.append_assoc]

/-- The chaining value before the message. -/
def pre (T : Threefish) (bits : Nat) (θ : Theta) : Nat → BitVec 64 :=
  Spec.Skein.opt T (Spec.Skein.opt T (Spec.Skein.ubi T (Spec.Skein.opt T (fun _ => 0) θ.key 0) (Spec.Skein.config bits) 4)
    θ.personal 8) θ.nonce 20

/-- Parameter strings of sizes that exist. -/
structure Valid (θ : Theta) : Prop where
  key : θ.key.length < 2 ^ 63
  personal : θ.personal.length < 2 ^ 63
  nonce : θ.nonce.length < 2 ^ 63

/-- The parameter members of the object. -/
structure Par (θ : Theta) (hs : Nat) (st : St) : Prop where
  k : st.k = θ.key
  p : st.p = θ.personal
  n : st.n = θ.nonce
  hs : st.hs = hs

/-- The size in the configuration block. -/
def bits (xof : Bool) (hs : Nat) : Nat := if xof then 2 ^ 64 - 1 else hs

theorem front_small (bs : Nat) (data : Bytes) (h : data.length ≤ bs) (hb : 0 < bs) : front bs data = 0 := by
  unfold front
  exact Nat.div_eq_of_lt (by omega)

/-- UBI of at most one block. -/
theorem ubi_small (ok : FOk F T) (g : Nat → BitVec 64) (data : Bytes) (ty : Nat) (h : data.length ≤ 8 * T.nw) :
    Spec.Skein.ubi T g data ty
      = stepH T (BitVec.ofNat 64 data.length) (T1 ty true true) (data ++ List.replicate (8 * T.nw - data.length) 0) g := by
  have hge := ok.ge
  have hle := ok.le
  rw [ubi_eq (by omega) g data ty (by omega)]
  unfold tail
  rw [front_small _ _ h (by omega), Nat.zero_mul, List.drop_zero, Nat.sub_zero]
  rfl

theorem init_ok (ok : FOk F T) (xof : Bool) (hs : Nat) (θ : Theta) (hθ : Valid θ) (s : Blk St) (hm : s.m.length = 8 * T.nw)
    (hp : Par θ hs s.h) :
    ∃ fr m', Par θ hs fr ∧ fr.squeezing = false ∧ m'.length = 8 * T.nw ∧
      Model.Skein.init F xof s = .ok ⟨upd fr T.nw (pre T (bits xof hs) θ) 0 (T1 48 true false), m', 0, 0⟩ := by
  have hge := ok.ge
  have hle := ok.le
  obtain ⟨⟨H, hbk, t0, t1, hs', sq, p, n, k⟩, m, pos, t⟩ := s
  obtain ⟨h1, h2, h3, h4⟩ := hp
  dsimp only at h1 h2 h3 h4 hm
  subst h1 h2 h3 h4
  obtain ⟨m1, u1, hm1, _, e1⟩ := inject_ok ok ⟨H, hbk, t0, t1, hs', false, θ.personal, θ.nonce, θ.key⟩ rfl (fun _ => 0) 0 (by decide)
    θ.key hθ.key m hm t1
  have hc := config_ok (bits xof hs') m1 (8 * T.nw - 32) (by omega)
  have hcl : (Spec.Skein.config (bits xof hs') ++ List.replicate (8 * T.nw - 32) 0).length = 8 * T.nw := by
    unfold Spec.Skein.config
    simp [length_leBytes]
    omega
  have hcl' : (Spec.Skein.config (bits xof hs')).length = 32 := by
    unfold Spec.Skein.config
    simp [length_leBytes]
  have hub := ubi_small ok (Spec.Skein.opt T (fun _ => 0) θ.key 0) (Spec.Skein.config (bits xof hs')) 4 (by omega)
  rw [hcl'] at hub
  obtain ⟨m2, u2, hm2, hu2, e2⟩ := inject_ok ok ⟨H, hbk, t0, t1, hs', false, θ.personal, θ.nonce, θ.key⟩ rfl
    (Spec.Skein.ubi T (Spec.Skein.opt T (fun _ => 0) θ.key 0) (Spec.Skein.config (bits xof hs')) 4) 8 (by decide)
    θ.personal hθ.personal _ hcl (T1 48 true false)
  obtain ⟨m3, u3, hm3, hu3, e3⟩ := inject_ok ok ⟨H, hbk, t0, t1, hs', false, θ.personal, θ.nonce, θ.key⟩ rfl
    (Spec.Skein.opt T (Spec.Skein.ubi T (Spec.Skein.opt T (fun _ => 0) θ.key 0) (Spec.Skein.config (bits xof hs')) 4) θ.personal 8)
    20 (by decide) θ.nonce hθ.nonce m2 hm2 u2
  refine ⟨⟨H, hbk, t0, t1, hs', false, θ.personal, θ.nonce, θ.key⟩, m3, ⟨rfl, rfl, rfl, rfl⟩, rfl, hm3, ?_⟩
  unfold Model.Skein.init
  dsimp only
  have hz : List.replicate F.nw (0 : BitVec 64) = arr T.nw (fun _ => 0) := by
    rw [ok.nw]
    unfold arr
    rw [List.map_const', List.length_range]
  rw [hz]
  have e1' : Model.Skein.injectParameter F θ.key 0 ⟨⟨arr T.nw (fun _ => 0), hbk, 0, t1, hs', false, θ.personal, θ.nonce, θ.key⟩, m, 0, 0⟩ = _ := e1
  rw [e1', ok_bind]
  dsimp only
  have hsz : (if xof = true then (-1 : BitVec 64) else BitVec.ofNat 64 (upd ⟨H, hbk, t0, t1, hs', false, θ.personal, θ.nonce, θ.key⟩ T.nw
      (Spec.Skein.opt T (fun _ => 0) θ.key 0) 0 u1).hs) = BitVec.ofNat 64 (bits xof hs') := by
    unfold bits
    cases xof
    · rfl
    · show (-1 : BitVec 64) = BitVec.ofNat 64 (2 ^ 64 - 1)
      decide
  rw [hsz, hc, ok_bind]
  have ht : (1 : BitVec 64) <<< 62 ||| (4 : BitVec 64) <<< 56 ||| (1 : BitVec 64) <<< 63 = T1 4 true true := by decide
  rw [ht]
  have htr := transform_one ok 32 (Spec.Skein.config (bits xof hs') ++ List.replicate (8 * T.nw - 32) 0)
    (Spec.Skein.config (bits xof hs') ++ List.replicate (8 * T.nw - 32) 0) hcl 0 0 ⟨H, hbk, t0, t1, hs', false, θ.personal, θ.nonce, θ.key⟩
    (Spec.Skein.opt T (fun _ => 0) θ.key 0) 0 (T1 4 true true)
  rw [show (0 : BitVec 64) + BitVec.ofNat 64 32 = BitVec.ofNat 64 32 from by decide, ← hub] at htr
  have htr' := htr
  unfold upd at htr'
  unfold upd
  dsimp only at htr' ⊢
  rw [htr', ok_bind]
  dsimp only
  have hcode : Model.Skein.code1 48 = T1 48 true false := by decide
  rw [hcode]
  have e2' : Model.Skein.injectParameter F θ.personal 8 ⟨⟨arr T.nw (Spec.Skein.ubi T (Spec.Skein.opt T (fun _ => 0) θ.key 0)
    (Spec.Skein.config (bits xof hs')) 4), hbk, 0, T1 48 true false, hs', false, θ.personal, θ.nonce, θ.key⟩, _, 0, 0⟩ = _ := e2
  rw [e2', ok_bind]
  have e3' := e3
  rw [hu3 (hu2 rfl)] at e3'
  exact e3'

/-- Output block `i` as words. -/
def outW (T : Threefish) (G : Nat → BitVec 64) (i : Nat) : Nat → BitVec 64 := Spec.Skein.ubi T G (leBytes 8 i) 63

theorem output_eq (G : Nat → BitVec 64) (i : Nat) : stores64 (arr T.nw (outW T G i)) = Spec.Skein.output T G i := stores64_eq _

theorem length_output (G : Nat → BitVec 64) (i : Nat) : (Spec.Skein.output T G i).length = 8 * T.nw := by
  unfold Spec.Skein.output
  rw [length_ofLeWords]
  simp

/-- The output stream. -/
def strm (T : Threefish) (G : Nat → BitVec 64) (j : Nat) : Byte :=
  (Spec.Skein.output T G (j / (8 * T.nw))).getD (j % (8 * T.nw)) 0

/-- The members while squeezing. -/
def sqz (fr : St) (n : Nat) (G : Nat → BitVec 64) : St := { fr with hbk := arr n G, squeezing := true }

theorem loop_ok (ok : FOk F T) (fr : St) (G : Nat → BitVec 64) (n0 hs : Nat) (fuel : Nat) :
    ∀ (p : Nat) (v : Nat → BitVec 64) (t0 t1 : BitVec 64) (m : Bytes) (pos : Nat), hs - p ≤ fuel → p < hs →
    (n0 + p) % (8 * T.nw) = 0 → m.length = 8 * T.nw → m.drop 8 = List.replicate (8 * T.nw - 8) 0 →
    ∃ t1', Model.Skein.squeezeLoop F hs fuel (slice (strm T G) n0 p)
        ⟨upd (sqz fr T.nw G) T.nw v t0 t1, m, pos, BitVec.ofNat 64 ((n0 + p) / (8 * T.nw))⟩
      = .ok (slice (strm T G) n0 hs,
          ⟨upd (sqz fr T.nw G) T.nw (outW T G ((n0 + hs - 1) / (8 * T.nw))) 8 t1',
            leBytes 8 ((n0 + hs - 1) / (8 * T.nw)) ++ List.replicate (8 * T.nw - 8) 0, (n0 + hs - 1) % (8 * T.nw) + 1,
            BitVec.ofNat 64 ((n0 + hs - 1) / (8 * T.nw) + 1)⟩) := by
  have hge := ok.ge
  have hle := ok.le
  have hr0 : 0 < 8 * T.nw := by omega
  induction fuel with
  | zero => intro p v t0 t1 m pos h1 h2; omega
  | succ fuel ih =>
    intro p v t0 t1 m pos hf hp hq hml hmd
    obtain ⟨i, hi⟩ : ∃ i, i = (n0 + p) / (8 * T.nw) := ⟨_, rfl⟩
    have hq1 := Nat.div_add_mod (n0 + p) (8 * T.nw)
    rw [hq, Nat.add_zero, ← hi] at hq1
    have hmem : memcpyTo m 0 (bytes64 (BitVec.ofNat 64 i)) = .ok (leBytes 8 i ++ List.replicate (8 * T.nw - 8) 0) := by
      rw [bytes64_ofNat, memcpyTo_ok _ _ _ (by rw [length_leBytes]; omega), length_leBytes, Nat.zero_add, hmd, List.take_zero,
        List.nil_append]
    have hml' : (leBytes 8 i ++ List.replicate (8 * T.nw - 8) 0).length = 8 * T.nw := by
      rw [List.length_append, length_leBytes, List.length_replicate]
      omega
    have hmd' : (leBytes 8 i ++ List.replicate (8 * T.nw - 8) 0).drop 8 = List.replicate (8 * T.nw - 8) 0 :=
      List.drop_left' (length_leBytes _ _)
    have hub := ubi_small ok G (leBytes 8 i) 63 (by rw [length_leBytes]; omega)
    rw [length_leBytes] at hub
    have htr := fun pos => transform_one ok 8 _ (leBytes 8 i ++ List.replicate (8 * T.nw - 8) 0) hml' pos (BitVec.ofNat 64 i) (sqz fr T.nw G)
      G 0 (T1 63 true true)
    rw [show (0 : BitVec 64) + BitVec.ofNat 64 8 = BitVec.ofNat 64 8 from by decide, ← hub] at htr
    have hx1 : BitVec.ofNat 64 i + 1 = BitVec.ofNat 64 (i + 1) := (BitVec.ofNat_add i 1).symm
    unfold Model.Skein.squeezeLoop
    rw [length_slice, if_pos hp]
    dsimp only
    rw [← hi, hmem, ok_bind]
    have ht1 : (255 : BitVec 64) <<< 56 = T1 63 true true := by decide
    have hst : ({ upd (sqz fr T.nw G) T.nw v t0 t1 with
          tweak0 := 0
          tweak1 := (255 : BitVec 64) <<< 56
          H := (upd (sqz fr T.nw G) T.nw v t0 t1).hbk } : St) = upd (sqz fr T.nw G) T.nw G 0 (T1 63 true true) := by
      rw [ht1]
      rfl
    dsimp only at hst ⊢
    rw [hst, htr, ok_bind, ok.nw]
    have hsto : ∀ t0 t1, stores64 (upd (sqz fr T.nw G) T.nw (Spec.Skein.ubi T G (leBytes 8 i) 63) t0 t1).H = Spec.Skein.output T G i :=
      fun _ _ => output_eq G i
    dsimp only
    rw [hsto]
    have hrd := read_blocks (8 * T.nw) hr0 (Spec.Skein.output T G) (n0 + p) (min (hs - p) (8 * T.nw)) (length_output _ _) (by rw [hq]; omega)
    rw [hq, ← hi] at hrd
    rw [hrd, ok_bind, hx1]
    rw [show slice (fun j => (Spec.Skein.output T G (j / (8 * T.nw))).getD (j % (8 * T.nw)) 0) (n0 + p) (min (hs - p) (8 * T.nw))
      = slice (strm T G) (n0 + p) (min (hs - p) (8 * T.nw)) from rfl, slice_append]
    by_cases hle : hs - p ≤ 8 * T.nw
    · rw [Nat.min_eq_left hle, show p + (hs - p) = hs by omega]
      have hdone : ∀ s : Blk St, Model.Skein.squeezeLoop F hs fuel (slice (strm T G) n0 hs) s = .ok (slice (strm T G) n0 hs, s) := by
        intro s
        cases fuel with
        | zero => rfl
        | succ f =>
          unfold Model.Skein.squeezeLoop
          rw [length_slice, if_neg (by omega)]; rfl
      rw [hdone]
      have e1 : (n0 + hs - 1) / (8 * T.nw) = i := by
        rw [Nat.div_eq_iff hr0, Nat.mul_comm]
        omega
      have e2 : (n0 + hs - 1) % (8 * T.nw) + 1 = hs - p := by
        have := Nat.div_add_mod (n0 + hs - 1) (8 * T.nw)
        rw [e1] at this
        omega
      rw [e1, e2]
      exact ⟨_, rfl⟩
    · rw [Nat.min_eq_right (by omega)]
      have hnx : n0 + (p + 8 * T.nw) = n0 + p + 8 * T.nw := by omega
      have e3 : (n0 + (p + 8 * T.nw)) / (8 * T.nw) = i + 1 := by rw [hnx, Nat.add_div_right _ hr0, hi]
      have := ih (p + 8 * T.nw) (outW T G i) (BitVec.ofNat 64 8) (T1 63 true true &&& ~~~((64 : BitVec 64) <<< 56))
        (leBytes 8 i ++ List.replicate (8 * T.nw - 8) 0) (8 * T.nw) (by omega) (by omega)
        (by rw [hnx, Nat.add_mod_right]; exact hq) hml' hmd'
      rw [e3] at this
      exact this

/-- `s` carries the parameters `θ` and has absorbed `msg`. -/
def R (F : Fns) (T : Threefish) (xof : Bool) (hs : Nat) (θ : Theta) (msg : Bytes) (s : Blk St) : Prop :=
  Valid θ ∧ ∃ fr, Par θ hs fr ∧ fr.squeezing = false ∧ Abs F T fr (pre T (bits xof hs) θ) 48 msg s

theorem R.mem {xof : Bool} {hs : Nat} {θ : Theta} {msg : Bytes} {s : Blk St} (ok : FOk F T) (h : R F T xof hs θ msg s) :
    s.m.length = 8 * T.nw ∧ Par θ hs s.h := by
  obtain ⟨_, fr, hp, _, a⟩ := h
  refine ⟨a.mlen, ?_⟩
  rw [a.last ok (by decide)]
  exact ⟨hp.k, hp.p, hp.n, hp.hs⟩

theorem init_R (ok : FOk F T) (xof : Bool) (hs : Nat) (θ : Theta) (hθ : Valid θ) (s : Blk St) (hm : s.m.length = 8 * T.nw)
    (hp : Par θ hs s.h) : ∃ s', Model.Skein.init F xof s = .ok s' ∧ R F T xof hs θ [] s' := by
  obtain ⟨fr, m', hf, hsq, hm', e⟩ := init_ok ok xof hs θ hθ s hm hp
  exact ⟨_, e, hθ, fr, hf, hsq, Buffered.start _ _ hm' rfl rfl rfl⟩

theorem R.update (ok : FOk F T) {xof : Bool} {hs : Nat} {θ : Theta} {msg : Bytes} {s : Blk St} (h : R F T xof hs θ msg s)
    (data : Bytes) (hd : data.length < 2 ^ 63) :
    ∃ s', Model.Skein.update F data s = .ok s' ∧ R F T xof hs θ (msg ++ data) s' := by
  obtain ⟨hθ, fr, hp, hsq, a⟩ := h
  obtain ⟨s', e, a'⟩ := update_ok ok a data hd
  exact ⟨s', e, hθ, fr, hp, hsq, a'⟩

/-- The first part of the first `squeeze`. -/
theorem squeezeFirst_ok (ok : FOk F T) {xof : Bool} {hs : Nat} {θ : Theta} {msg : Bytes} {s : Blk St} (h : R F T xof hs θ msg s)
    (hl : msg.length < 2 ^ 64) (k : Nat) :
    ∃ fr t1, Par θ hs fr ∧ Model.Skein.squeezeFirst F k s
      = .ok ([], ⟨upd (sqz fr T.nw (Spec.Skein.chain T (bits xof hs) θ msg)) T.nw (Spec.Skein.chain T (bits xof hs) θ msg)
          (BitVec.ofNat 64 msg.length) t1, List.replicate (8 * T.nw) 0, 0, 0⟩) := by
  have hge := ok.ge
  obtain ⟨hθ, fr, hp, hsq, a⟩ := h
  have hh := a.last ok (by decide)
  obtain ⟨h, m, pos, t⟩ := s
  dsimp only at hh
  subst hh
  obtain ⟨t1, e⟩ := last_ok ok { fr with squeezing := true } (pre T (bits xof hs) θ) 48 (by decide) msg hl
    ⟨upd { fr with squeezing := true } T.nw (mid T (pre T (bits xof hs) θ) msg 48 (front (8 * T.nw) msg))
      (BitVec.ofNat 64 (front (8 * T.nw) msg * (8 * T.nw))) (T1 48 (decide (front (8 * T.nw) msg = 0)) false), m, pos, t⟩
    a.mlen a.pos a.buf rfl
  refine ⟨fr, t1, hp, ?_⟩
  unfold Model.Skein.squeezeFirst
  have hsq' : ∀ v t0 t1, (upd fr T.nw v t0 t1).squeezing = false := fun _ _ _ => hsq
  rw [if_pos (hsq' _ _ _)]
  show Model.Skein.last F ⟨upd { fr with squeezing := true } T.nw (mid T (pre T (bits xof hs) θ) msg 48 (front (8 * T.nw) msg))
      (BitVec.ofNat 64 (front (8 * T.nw) msg * (8 * T.nw))) (T1 48 (decide (front (8 * T.nw) msg = 0)) false), m, pos, t⟩ >>= _ = _
  rw [e, ok_bind]
  dsimp only
  have hms : memset (tail (8 * T.nw) msg) 0 0 (8 * F.nw) = .ok (List.replicate (8 * T.nw) 0) := by
    have := length_tail (8 * T.nw) (by omega) msg
    unfold memset
    rw [ok.nw, if_pos (by omega), List.take_zero, List.nil_append, List.drop_of_length_le (by omega), List.append_nil]
  rw [hms, ok_bind]
  rfl

theorem digest_slice (ok : FOk F T) (G : Nat → BitVec 64) (n : Nat) :
    ((List.range ((n + 8 * T.nw - 1) / (8 * T.nw))).flatMap (Spec.Skein.output T G)).take n = slice (strm T G) 0 n := by
  have hge := ok.ge
  have hr0 : 0 < 8 * T.nw := by omega
  obtain ⟨k, hk⟩ : ∃ k, k = (n + 8 * T.nw - 1) / (8 * T.nw) := ⟨_, rfl⟩
  have e := flatMap_blocks (8 * T.nw) hr0 (Spec.Skein.output T G) (length_output G) (k * (8 * T.nw)) k
  rw [Nat.min_self] at e
  have e2 : ((List.range k).flatMap fun i => (Spec.Skein.output T G i).take (min (8 * T.nw) (k * (8 * T.nw) - i * (8 * T.nw))))
      = (List.range k).flatMap (Spec.Skein.output T G) := by
    rw [List.flatMap_def, List.flatMap_def]
    congr 1
    apply List.map_congr_left
    intro i hi
    rw [List.mem_range] at hi
    have : (i + 1) * (8 * T.nw) ≤ k * (8 * T.nw) := Nat.mul_le_mul_right _ hi
    rw [Nat.add_mul] at this
    rw [List.take_of_length_le]
    rw [length_output]
    omega
  rw [e2] at e
  rw [← hk, e]
  have hle : n ≤ k * (8 * T.nw) := by
    have h1 := Nat.div_add_mod (n + 8 * T.nw - 1) (8 * T.nw)
    have h2 := Nat.mod_lt (n + 8 * T.nw - 1) hr0
    rw [Nat.mul_comm, ← hk] at h1
    omega
  have := slice_append (fun j => (Spec.Skein.output T G (j / (8 * T.nw))).getD (j % (8 * T.nw)) 0) 0 n (k * (8 * T.nw) - n)
  rw [Nat.add_sub_cancel' hle] at this
  rw [← this]
  exact List.take_left' (length_slice _ _ _)

/-- `s` has given `n > 0` bytes of the output for the chaining value `G`. -/
structure Sq (T : Threefish) (θ : Theta) (hs : Nat) (G : Nat → BitVec 64) (n : Nat) (s : Blk St) : Prop where
  h : ∃ fr t1, Par θ hs fr ∧ s.h = upd (sqz fr T.nw G) T.nw (outW T G ((n - 1) / (8 * T.nw))) 8 t1
  m : s.m = leBytes 8 ((n - 1) / (8 * T.nw)) ++ List.replicate (8 * T.nw - 8) 0
  pos : s.pos = (n - 1) % (8 * T.nw) + 1
  total : s.total = BitVec.ofNat 64 ((n - 1) / (8 * T.nw) + 1)

theorem xloop (ok : FOk F T) (θ : Theta) (hs : Nat) (G : Nat → BitVec 64) (n p k : Nat) (hp : p < k) (hq : (n + p) % (8 * T.nw) = 0)
    (fr : St) (hpar : Par θ hs fr) (v : Nat → BitVec 64) (t0 t1 : BitVec 64) (m : Bytes) (pos : Nat) (hm1 : m.length = 8 * T.nw)
    (hm2 : m.drop 8 = List.replicate (8 * T.nw - 8) 0) :
    ∃ s', Model.Skein.squeezeLoop F k k (slice (strm T G) n p)
        ⟨upd (sqz fr T.nw G) T.nw v t0 t1, m, pos, BitVec.ofNat 64 ((n + p) / (8 * T.nw))⟩
      = .ok (slice (strm T G) n k, s') ∧ Sq T θ hs G (n + k) s' := by
  obtain ⟨t1', e⟩ := loop_ok ok fr G n k k p v t0 t1 m pos (by omega) hp hq hm1 hm2
  exact ⟨_, e, ⟨fr, t1', hpar, rfl⟩, rfl, rfl, rfl⟩

theorem squeeze_first (ok : FOk F T) {xof : Bool} {hs : Nat} {θ : Theta} {msg : Bytes} {s : Blk St} (h : R F T xof hs θ msg s)
    (hl : msg.length < 2 ^ 64) (k : Nat) (hk : 0 < k) :
    ∃ s', Model.Skein.squeeze F k s = .ok (slice (strm T (Spec.Skein.chain T (bits xof hs) θ msg)) 0 k, s') ∧
      Sq T θ hs (Spec.Skein.chain T (bits xof hs) θ msg) k s' := by
  obtain ⟨fr, t1, hp, e⟩ := squeezeFirst_ok ok h hl k
  unfold Model.Skein.squeeze
  rw [e, ok_bind]
  have := xloop ok θ hs (Spec.Skein.chain T (bits xof hs) θ msg) 0 0 k hk (by rw [Nat.add_zero]; exact Nat.zero_mod _) fr hp
    (Spec.Skein.chain T (bits xof hs) θ msg) (BitVec.ofNat 64 msg.length) t1 (List.replicate (8 * T.nw) 0) 0 List.length_replicate
    (by rw [List.drop_replicate])
  rw [slice_nil, Nat.add_zero, Nat.zero_div, Nat.zero_add] at this
  exact this

theorem squeeze_next (ok : FOk F T) (θ : Theta) (G : Nat → BitVec 64) (hs n k : Nat) (hn : 0 < n) (hk : 0 < k) (s : Blk St)
    (h : Sq T θ hs G n s) :
    ∃ s', Model.Skein.squeeze F k s = .ok (slice (strm T G) n k, s') ∧ Sq T θ hs G (n + k) s' := by
  have hge := ok.ge
  obtain ⟨w, hw⟩ : ∃ w, w = 8 * T.nw := ⟨_, rfl⟩
  have hw0 : 0 < w := by omega
  obtain ⟨⟨fr, t1, hpar, hh⟩, hm, hpos, htot⟩ := h
  obtain ⟨hb, m, pos, t⟩ := s
  dsimp only at hh hm hpos htot
  subst hh hm hpos htot
  have hlt := Nat.mod_lt (n - 1) hw0
  have hdm := Nat.div_add_mod (n - 1) w
  obtain ⟨i, hi⟩ : ∃ i, i = (n - 1) / w := ⟨_, rfl⟩
  have hl1 : (leBytes 8 i ++ List.replicate (8 * T.nw - 8) 0).length = 8 * T.nw := by
    rw [List.length_append, length_leBytes, List.length_replicate]
    omega
  have hl2 : (leBytes 8 i ++ List.replicate (8 * T.nw - 8) 0).drop 8 = List.replicate (8 * T.nw - 8) 0 :=
    List.drop_left' (length_leBytes _ _)
  have hsto : stores64 (upd (sqz fr T.nw G) T.nw (outW T G i) 8 t1).H = Spec.Skein.output T G i := output_eq G i
  have hsq : ¬(upd (sqz fr T.nw G) T.nw (outW T G i) 8 t1).squeezing = false := by
    intro h; cases h
  rw [← hi] at hdm
  rw [← hw, ← hi]
  unfold Model.Skein.squeeze Model.Skein.squeezeFirst
  dsimp only
  rw [if_neg hsq, ok.nw, ← hw]
  by_cases hc : (n - 1) % w + 1 < w
  · rw [if_pos hc, hsto]
    have e1 : n / w = i := by rw [Nat.div_eq_iff hw0, Nat.mul_comm]; omega
    have e2 : n % w = (n - 1) % w + 1 := by
      have := Nat.div_add_mod n w
      rw [e1] at this
      omega
    have hrd := read_blocks w hw0 (Spec.Skein.output T G) n (min k (w - ((n - 1) % w + 1))) (by rw [length_output, hw]) (by omega)
    rw [e1, e2] at hrd
    rw [hrd, ok_bind]
    have hstr : (fun j => (Spec.Skein.output T G (j / w)).getD (j % w) 0) = strm T G := by
      rw [hw]; rfl
    rw [hstr]
    show ∃ s', Model.Skein.squeezeLoop F k k (slice (strm T G) n _) _ = _ ∧ _
    by_cases hle : k ≤ w - ((n - 1) % w + 1)
    · rw [Nat.min_eq_left hle]
      have hdone : ∀ s : Blk St, Model.Skein.squeezeLoop F k k (slice (strm T G) n k) s = .ok (slice (strm T G) n k, s) := by
        intro s
        cases k with
        | zero => rfl
        | succ f =>
          unfold Model.Skein.squeezeLoop
          rw [length_slice, if_neg (by omega)]; rfl
      rw [hdone]
      have e3 : (n + k - 1) / w = i := by rw [Nat.div_eq_iff hw0, Nat.mul_comm]; omega
      have e4 : (n + k - 1) % w = (n - 1) % w + k := by
        have := Nat.div_add_mod (n + k - 1) w
        rw [e3] at this
        omega
      refine ⟨_, rfl, ⟨fr, t1, hpar, ?_⟩, ?_, ?_, ?_⟩
      · rw [← hw, e3]
      · rw [← hw, e3]
      · rw [← hw, e4]; show _ + _ + _ = _; omega
      · rw [← hw, e3]
    · rw [Nat.min_eq_right (by omega)]
      have e3 : n + (w - ((n - 1) % w + 1)) = w * (i + 1) := by rw [Nat.mul_add]; omega
      have e4 : (n + (w - ((n - 1) % w + 1))) / w = i + 1 := by rw [e3, Nat.mul_div_cancel_left _ hw0]
      have := xloop ok θ hs G n (w - ((n - 1) % w + 1)) k (by omega) (by rw [← hw, e3]; exact Nat.mul_mod_right _ _) fr hpar
        (outW T G i) 8 t1 (leBytes 8 i ++ List.replicate (8 * T.nw - 8) 0) ((n - 1) % w + 1 + (w - ((n - 1) % w + 1))) hl1 hl2
      rw [← hw, e4] at this
      exact this
  · rw [if_neg hc]
    have e3 : n = w * (i + 1) := by rw [Nat.mul_add]; omega
    have e4 : (n + 0) / w = i + 1 := by rw [Nat.add_zero, Nat.div_eq_iff hw0, Nat.mul_comm]; omega
    have := xloop ok θ hs G n 0 k (by omega) (by rw [← hw, Nat.add_zero, e3]; exact Nat.mul_mod_right _ _) fr hpar
      (outW T G i) 8 t1 (leBytes 8 i ++ List.replicate (8 * T.nw - 8) 0) ((n - 1) % w + 1) hl1 hl2
    rw [← hw, e4] at this
    exact this

/-- What is covered: messages of fewer than `2^64` bytes, parameter strings of sizes that exist. -/
def cover : Cover SkeinParam Theta := ⟨fun _ m => m.length < 2 ^ 64, True, fun p => p.value.length < 2 ^ 63, fun _ => True⟩

theorem set_ok (p : SkeinParam) (hp : p.value.length < 2 ^ 63) (θ : Theta) (hθ : Valid θ) (hs : Nat) (s : Blk St) (h : Par θ hs s.h) :
    ∃ θ' h', Spec.Skein.set p θ = some θ' ∧ Valid θ' ∧ Par θ' hs h' ∧ Model.Skein.set p s = .ok (false, { s with h := h' }) := by
  obtain ⟨h1, h2, h3, h4⟩ := h
  cases p with
  | personalization v => exact ⟨_, { s.h with p := v }, rfl, ⟨hθ.key, hp, hθ.nonce⟩, ⟨h1, rfl, h3, h4⟩, rfl⟩
  | nonce v => exact ⟨_, { s.h with n := v }, rfl, ⟨hθ.key, hθ.personal, hp⟩, ⟨h1, h2, rfl, h4⟩, rfl⟩
  | key v => exact ⟨_, { s.h with k := v }, rfl, ⟨hp, hθ.personal, hθ.nonce⟩, ⟨rfl, h2, h3, h4⟩, rfl⟩

theorem valid_none : Valid ⟨[], [], []⟩ := ⟨Nat.two_pow_pos _, Nat.two_pow_pos _, Nat.two_pow_pos _⟩

/-- **Skein** with known output size. -/
theorem refines (ok : FOk F T) (hs : Nat) (h0 : 0 < hs / 8) (h8 : hs % 8 = 0) :
    HashRefines (Model.Skein.provider F) (Spec.Skein.fn T (hs / 8)) cover (R F T false hs) := by
  have hdig : ∀ θ msg, (Spec.Skein.fn T (hs / 8)).digest θ msg = slice (strm T (Spec.Skein.chain T (bits false hs) θ msg)) 0 (hs / 8) := by
    intro θ msg
    rw [← digest_slice ok]
    show ((List.range _).flatMap (Spec.Skein.output T (Spec.Skein.chain T (8 * (hs / 8)) θ msg))).take _ = _
    rw [show 8 * (hs / 8) = bits false hs from (by unfold bits; rw [if_neg (by decide)]; omega)]
  constructor
  · intro θ msg s h
    obtain ⟨hm, hp⟩ := h.mem ok
    exact init_R ok false hs θ h.1 s hm hp
  · intro θ msg s data h hd
    exact h.update ok data hd
  · intro θ msg s h hl
    obtain ⟨s', e, _⟩ := squeeze_first ok h hl (hs / 8) h0
    show Model.Skein.final F s = _
    unfold Model.Skein.final
    rw [(h.mem ok).2.hs, e, ok_bind, hdig]
    rfl
  · intro _ θ msg s h
    obtain ⟨hm, hp⟩ := h.mem ok
    obtain ⟨s', e, r⟩ := init_R ok false hs ⟨[], [], []⟩ valid_none
      { s with
        m := zeroBytes s.m
        h := { s.h with H := List.replicate F.nw 0, hbk := List.replicate F.nw 0, tweak0 := 0, tweak1 := 0, p := [], n := [], k := [] } }
      (by show (List.replicate _ _).length = _; rw [List.length_replicate]; exact hm) ⟨rfl, rfl, rfl, hp.hs⟩
    exact ⟨_, s', rfl, e, r⟩
  · intro θ msg s h
    show s.h.hs / 8 = _
    rw [(h.mem ok).2.hs]
    rfl
  · exact h0
  · intro θ msg s _ _
    rw [hdig, length_slice]
    rfl
  · intro θ msg s p h hp
    obtain ⟨hm, hpar⟩ := h.mem ok
    obtain ⟨θ', h', e1, hθ', hp', e2⟩ := set_ok p hp θ h.1 hs s hpar
    have hfs : (Spec.Skein.fn T (hs / 8)).set p θ = Spec.Skein.set p θ := rfl
    rw [hfs, e1]
    obtain ⟨s', e', r⟩ := init_R ok false hs θ' hθ' { s with h := h' } hm hp'
    exact ⟨_, s', e2, e', r⟩

/-- The relation for the extendable-output objects. -/
def Rx (F : Fns) (T : Threefish) (hs : Nat) (θ : Theta) (msg : Bytes) (n : Nat) (s : Blk St) : Prop :=
  (Valid θ ∧ s.m.length = 8 * T.nw ∧ Par θ hs s.h) ∧ (n = 0 → R F T true hs θ msg s) ∧
    (0 < n → Sq T θ hs (Spec.Skein.chain T (2 ^ 64 - 1) θ msg) n s)

theorem R.rx (ok : FOk F T) {hs : Nat} {θ : Theta} {msg : Bytes} {s : Blk St} (h : R F T true hs θ msg s) : Rx F T hs θ msg 0 s :=
  ⟨⟨h.1, h.mem ok⟩, fun _ => h, fun h => absurd h (by omega)⟩

/-- **Skein** as an extendable-output function. -/
theorem refines_xof (ok : FOk F T) (hs : Nat) : XofRefines (Model.Skein.xofProvider F) (Spec.Skein.xof T) cover (Rx F T hs) := by
  have hge := ok.ge
  constructor
  · intro θ msg n s h
    obtain ⟨s', e, r⟩ := init_R ok true hs θ h.1.1 s h.1.2.1 h.1.2.2
    exact ⟨s', e, r.rx ok⟩
  · intro θ msg s data h hd
    obtain ⟨s', e, r⟩ := (h.2.1 rfl).update ok data hd
    exact ⟨s', e, r.rx ok⟩
  · intro θ msg n s k h hl hk _ _
    have key : ∃ s', Model.Skein.squeeze F k s = .ok (slice (strm T (Spec.Skein.chain T (2 ^ 64 - 1) θ msg)) n k, s') ∧
        Sq T θ hs (Spec.Skein.chain T (2 ^ 64 - 1) θ msg) (n + k) s' := by
      by_cases hn : n = 0
      · subst hn
        rw [Nat.zero_add]
        exact squeeze_first ok (h.2.1 rfl) hl k hk
      · exact squeeze_next ok θ _ hs n k (by omega) hk s (h.2.2 (by omega))
    obtain ⟨s', e, q⟩ := key
    refine ⟨s', e, ⟨h.1.1, ?_, ?_⟩, fun hc => absurd hc (by omega), fun _ => q⟩
    · rw [q.m, List.length_append, length_leBytes, List.length_replicate]
      omega
    · obtain ⟨fr, t1, hp, hh⟩ := q.h
      rw [hh]
      exact ⟨hp.k, hp.p, hp.n, hp.hs⟩
  · intro _ θ msg n s h
    obtain ⟨_, hm, hp⟩ := h.1
    obtain ⟨s', e, r⟩ := init_R ok true hs ⟨[], [], []⟩ valid_none
      { s with
        m := zeroBytes s.m
        h := { s.h with H := List.replicate F.nw 0, hbk := List.replicate F.nw 0, tweak0 := 0, tweak1 := 0, p := [], n := [], k := [] } }
      (by show (List.replicate _ _).length = _; rw [List.length_replicate]; exact hm) ⟨rfl, rfl, rfl, hp.hs⟩
    exact ⟨_, s', rfl, e, r.rx ok⟩
  · intro θ msg n s p h hp
    obtain ⟨hθ, hm, hpar⟩ := h.1
    obtain ⟨θ', h', e1, hθ', hp', e2⟩ := set_ok p hp θ hθ hs s hpar
    have hfs : (Spec.Skein.xof T).set p θ = Spec.Skein.set p θ := rfl
    rw [hfs, e1]
    obtain ⟨s', e', r⟩ := init_R ok true hs θ' hθ' { s with h := h' } hm hp'
    exact ⟨_, s', e2, e', r.rx ok⟩

end Digestpp.Proofs.Skein
