import Verif.Model.Blake
import Verif.Spec.Blake
import Verif.Proofs.BlakeRound
import Verif.Proofs.Words
import Verif.Proofs.MdFinal
import Verif.Proofs.Api
import Verif.Proofs.Sha2

/-! The BLAKE provider computes BLAKE-224, BLAKE-256, BLAKE-384 and BLAKE-512. -/

namespace Digestpp.Proofs
open Model Spec

/-- Changing the representation of the chaining value, knowing the block numbers and lengths. -/
theorem foldBlocks_conj' {σ τ : Type} (f : τ → σ) {step' : Nat → Bytes → σ → σ} {step : Nat → Bytes → τ → τ} (n : Nat) (msg : Bytes)
    (k : Nat) (t : τ) (hk : k * n ≤ msg.length)
    (h : ∀ i, i < k → ∀ b t, b.length = n → step' i b (f t) = f (step i b t)) :
    foldBlocks n step' msg k (f t) = f (foldBlocks n step msg k t) := by
  unfold foldBlocks
  induction k with
  | zero => rfl
  | succ k ih =>
    rw [List.range_succ, List.foldl_append, List.foldl_append,
      ih (Nat.le_trans (Nat.mul_le_mul_right _ (Nat.le_succ k)) hk) (fun i hi => h i (by omega))]
    exact h k (by omega) _ _ (length_blockAt _ _ _ hk)

namespace Blake

variable {w : Nat}

/-- What the conformance proof needs to know about the word type. -/
structure WordOk (T : Model.Blake.Word w) (v : Spec.Blake.Variant w) : Prop where
  w8 : w / 8 * 8 = w
  w32 : 32 ≤ w
  wmax : w ≤ 64
  w2 : w = 32 ∨ w = 64
  rounds : T.rounds = v.rounds
  R1 : ∀ x, T.R1 x = x.rotateRight v.r1
  R2 : ∀ x, T.R2 x = x.rotateRight v.r2
  R3 : ∀ x, T.R3 x = x.rotateRight v.r3
  R4 : ∀ x, T.R4 x = x.rotateRight v.r4
  c : ∀ i, i < 16 → T.c.getD i 0 = Spec.Blake.c w i
  t1 : ∀ t, t < 2 ^ 64 → T.t1 (BitVec.ofNat 64 t) = BitVec.ofNat w (t / 2 ^ w)
  loads : ∀ (n : Nat) (b : Bytes), b.length = w / 8 * n → (T.loads n b).map T.byteswap = beWords w b
  stores : ∀ l r, T.stores (l.map T.byteswap ++ r) = ofBeWords l ++ T.stores r

theorem c32 : ∀ i, i < 16 → blake_c.getD i 0 = Spec.Blake.c 32 i := by
  decide +kernel

theorem c64 : ∀ i, i < 16 → blake_c512.getD i 0 = Spec.Blake.c 64 i := by
  decide +kernel

theorem u32_ok : WordOk Model.Blake.u32 Spec.Blake.v256 where
  w8 := rfl
  w32 := by decide
  wmax := by decide
  w2 := by decide
  rounds := rfl
  R1 := fun x => rotr_eq _ _ (by decide)
  R2 := fun x => rotr_eq _ _ (by decide)
  R3 := fun x => rotr_eq _ _ (by decide)
  R4 := fun x => rotr_eq _ _ (by decide)
  c := c32
  t1 := fun t ht => by
    apply BitVec.eq_of_toNat_eq
    show (BitVec.setWidth 32 (BitVec.ofNat 64 t >>> 32)).toNat = _
    rw [BitVec.toNat_setWidth, BitVec.toNat_ushiftRight, BitVec.toNat_ofNat, BitVec.toNat_ofNat, Nat.mod_eq_of_lt ht,
      Nat.shiftRight_eq_div_pow]
  loads := fun n b h => loads32_be n b (by omega)
  stores := fun l r => by
    show stores32 (l.map byteswap32 ++ r) = _
    rw [← stores32_be]
    simp only [stores32, List.flatMap_append]
    rfl

theorem u64_ok : WordOk Model.Blake.u64 Spec.Blake.v512 where
  w8 := rfl
  w32 := by decide
  wmax := by decide
  w2 := by decide
  rounds := rfl
  R1 := fun x => rotr_eq _ _ (by decide)
  R2 := fun x => rotr_eq _ _ (by decide)
  R3 := fun x => rotr_eq _ _ (by decide)
  R4 := fun x => rotr_eq _ _ (by decide)
  c := c64
  t1 := fun t ht => by
    rw [Nat.div_eq_of_lt ht]; rfl
  loads := fun n b h => loads64_be n b (by omega)
  stores := fun l r => by
    show stores64 (l.map byteswap64 ++ r) = _
    rw [← stores64_be]
    simp only [stores64, List.flatMap_append]
    rfl

theorem S_eq : ∀ r, r < 10 → ∀ j, j < 16 →
    ((blake_S.getD r []).getD j 0).toNat = (Spec.Blake.sigma.getD r []).getD j 0 ∧
      (Spec.Blake.sigma.getD r []).getD j 0 < 16 := by
  decide +kernel

theorem S_perm (r j : Nat) (h : j < 16) : Model.Blake.S r j = Spec.Blake.perm r j ∧ Spec.Blake.perm r j < 16 :=
  S_eq (r % 10) (Nat.mod_lt _ (by omega)) j h

theorem G_eq {T : Model.Blake.Word w} {v : Spec.Blake.Variant w} (ok : WordOk T v) (M : List (BitVec w)) (r i : Nat) (hi : i < 8)
    (q : Model.Blake.Quad w) : toCol (Model.Blake.G T M r i q) = Spec.Blake.G v M r i (toCol q) := by
  have h1 := S_perm r (2 * i) (by omega)
  have h2 := S_perm r (2 * i + 1) (by omega)
  unfold Model.Blake.G Spec.Blake.G
  simp only [ok.R1, ok.R2, ok.R3, ok.R4, h1.1, h2.1, ok.c _ h1.2, ok.c _ h2.2]
  rfl

/-- The array `H`: chaining value and salt. -/
def arr (s h : Nat → BitVec w) : List (BitVec w) := (List.range 8).map h ++ (List.range 4).map s

theorem compress_eq {T : Model.Blake.Word w} {v : Spec.Blake.Variant w} (ok : WordOk T v) (s h : Nat → BitVec w) (t : Nat)
    (b : Bytes) (hb : b.length = 2 * w) :
    Model.Blake.compress T (BitVec.ofNat w t, BitVec.ofNat w (t / 2 ^ w)) b (arr s h) = arr s (Spec.Blake.compress v s t b h) := by
  have hl := ok.loads 16 b (by have := ok.w8; omega)
  unfold Model.Blake.compress
  rw [hl, ok.c 0 (by omega), ok.c 1 (by omega), ok.c 2 (by omega), ok.c 3 (by omega), ok.c 4 (by omega), ok.c 5 (by omega),
    ok.c 6 (by omega), ok.c 7 (by omega), ok.rounds]
  have := foldl_range_sim (fun x r => Model.Blake.round (Model.Blake.G T (beWords w b) r) x)
    (fun x r => Spec.Blake.round (Spec.Blake.G v (beWords w b) r) x)
    (fun _ x y => x = (List.range 16).map y) v.rounds
    ((List.range 16).map fun k =>
      if k < 8 then h k
      else (if k < 12 then s (k - 8) else if k < 14 then BitVec.ofNat w t else BitVec.ofNat w (t / 2 ^ w)) ^^^ Spec.Blake.c w (k - 8))
    (fun k => if k < 8 then h k
      else (if k < 12 then s (k - 8) else if k < 14 then BitVec.ofNat w t else BitVec.ofNat w (t / 2 ^ w)) ^^^ Spec.Blake.c w (k - 8))
    rfl (by
      intro r x y hr hx
      subst hx
      exact round_eq _ _ (fun i hi q => G_eq ok _ r i hi q) y)
  dsimp only
  unfold Spec.Blake.compress
  dsimp only
  revert this
  generalize (List.range v.rounds).foldl (fun x r => Spec.Blake.round (Spec.Blake.G v (beWords w b) r) x) _ = y
  intro this
  have e : List.take 8 (arr s h) ++ [(arr s h).getD 8 0 ^^^ Spec.Blake.c w 0, (arr s h).getD 9 0 ^^^ Spec.Blake.c w 1,
      (arr s h).getD 10 0 ^^^ Spec.Blake.c w 2, (arr s h).getD 11 0 ^^^ Spec.Blake.c w 3, BitVec.ofNat w t ^^^ Spec.Blake.c w 4,
      BitVec.ofNat w t ^^^ Spec.Blake.c w 5, BitVec.ofNat w (t / 2 ^ w) ^^^ Spec.Blake.c w 6,
      BitVec.ofNat w (t / 2 ^ w) ^^^ Spec.Blake.c w 7] = ((List.range 16).map fun k =>
      if k < 8 then h k
      else (if k < 12 then s (k - 8) else if k < 14 then BitVec.ofNat w t else BitVec.ofNat w (t / 2 ^ w)) ^^^
        Spec.Blake.c w (k - 8)) := rfl
  rw [e, this]
  rfl

/-- Where the array in use lies in the object. -/
structure Put (T : Model.Blake.Word w) (v : Spec.Blake.Variant w) (hs : Nat) (put : List (BitVec w) → Model.Blake.St) : Prop where
  ok : WordOk T v
  getHs : ∀ H, (put H).hs = hs
  block : ∀ padding final total blk b H, Model.Blake.block padding final total blk b (put H)
    = put (Model.Blake.compress T (Model.Blake.counters T padding (Model.Blake.totalbytes (2 * w) final total blk)) b H)
  output : ∀ H, Model.Blake.output (put H) = readBytes (T.stores ((H.take 8).map T.byteswap ++ H.drop 8)) 0 (hs / 8)
  bs : Model.Blake.blockBytes hs = 2 * w
  me : Model.Blake.messageend hs = 2 * w - w / 4 - 1
  size : hs / 8 ≤ w

theorem put512 (J : List (BitVec 32)) (hs : Nat) (h : 256 < hs) (h' : hs ≤ 512) :
    Put Model.Blake.u64 Spec.Blake.v512 hs (fun H => ⟨H, J, hs⟩) where
  ok := u64_ok
  getHs := fun _ => rfl
  block := fun _ _ _ _ _ _ => by
    unfold Model.Blake.block
    rw [if_pos h]
  output := fun _ => by
    unfold Model.Blake.output
    rw [if_pos h]
    rfl
  bs := if_pos h
  me := if_pos h
  size := by omega

theorem put256 (J : List (BitVec 64)) (hs : Nat) (h : hs ≤ 256) :
    Put Model.Blake.u32 Spec.Blake.v256 hs (fun H => ⟨J, H, hs⟩) where
  ok := u32_ok
  getHs := fun _ => rfl
  block := fun _ _ _ _ _ _ => by
    unfold Model.Blake.block
    rw [if_neg (show ¬ hs > 256 by omega)]
  output := fun _ => by
    unfold Model.Blake.output
    rw [if_neg (show ¬ hs > 256 by omega)]
    rfl
  bs := if_neg (by omega)
  me := if_neg (by omega)
  size := by omega

/-- One compression with the counter words determined by `padding` and `tot`. -/
def stepC (padding : Bool) (tot : BitVec 64) (b : Bytes) (h : Model.Blake.St) : Model.Blake.St :=
  Model.Blake.block padding true tot 0 b h

theorem totalbytes_shift (bs : Nat) (i j : Nat) :
    Model.Blake.totalbytes bs false (BitVec.ofNat 64 (i * bs * 8)) j = BitVec.ofNat 64 ((i + j + 1) * bs * 8) := by
  unfold Model.Blake.totalbytes
  rw [if_neg (by decide), ← BitVec.ofNat_add]
  congr 1
  rw [← Nat.add_mul, ← Nat.add_mul, Nat.add_assoc]

theorem totalbytes_final (bs : Nat) (t : BitVec 64) (j : Nat) : Model.Blake.totalbytes bs true t j = t := by
  unfold Model.Blake.totalbytes
  rw [if_pos rfl]
  exact BitVec.add_zero t

variable {T : Model.Blake.Word w} {v : Spec.Blake.Variant w} {hs : Nat} {put : List (BitVec w) → Model.Blake.St}

/-- The block function in `update`, by block number. -/
def step (w : Nat) (i : Nat) (b : Bytes) (h : Model.Blake.St) : Model.Blake.St :=
  stepC false (BitVec.ofNat 64 ((i + 1) * (2 * w) * 8)) b h

/-- Agreement of the counter words. -/
theorem stepC_eq (P : Put T v hs put) (padding : Bool) (t : Nat) (ht : t < 2 ^ 64) (b : Bytes) (hb : b.length = 2 * w)
    (s h : Nat → BitVec w) :
    stepC padding (BitVec.ofNat 64 t) b (put (arr s h))
      = put (arr s (Spec.Blake.compress v s (if padding then 0 else t) b h)) := by
  unfold stepC
  rw [P.block, totalbytes_final, ← compress_eq P.ok _ _ _ _ hb]
  congr 2
  unfold Model.Blake.counters
  have hw := P.ok.w2
  cases padding with
  | true => simp
  | false =>
    rw [if_neg (by decide), if_neg (by decide), P.ok.t1 t ht]
    congr 1
    apply BitVec.eq_of_toNat_eq
    rw [BitVec.toNat_setWidth, BitVec.toNat_ofNat, BitVec.toNat_ofNat]
    rw [Nat.mod_eq_of_lt ht]

/-- The same for counters of any size. -/
theorem stepW_eq (P : Put T v hs put) (padding : Bool) (t : Nat) (b : Bytes) (hb : b.length = 2 * w) (s h : Nat → BitVec w) :
    stepC padding (BitVec.ofNat 64 t) b (put (arr s h)) = put (arr s (Spec.Blake.compress v s (wrap64 (if padding then 0 else t)) b h)) := by
  rw [← ofNat_wrap64, stepC_eq P padding (wrap64 t) (wrap64_lt t) b hb]
  cases padding <;> rfl

/-- The states that occur, with salt `s`. -/
def In (put : List (BitVec w) → Model.Blake.St) (s : Nat → BitVec w) (x : Model.Blake.St) : Prop := ∃ h, x = put (arr s h)

theorem In.stepC (P : Put T v hs put) (padding : Bool) (tot : BitVec 64) (b : Bytes) (hb : b.length = 2 * w) {s : Nat → BitVec w}
    {x : Model.Blake.St} (hi : In put s x) : In put s (stepC padding tot b x) := by
  obtain ⟨h, rfl⟩ := hi
  have := stepC_eq P padding tot.toNat tot.isLt b hb s h
  rw [BitVec.ofNat_toNat, BitVec.setWidth_eq] at this
  exact ⟨_, this⟩

theorem isTransform (P : Put T v hs put) (sw : Nat → BitVec w) :
    IsTransform (2 * w) 128 (In put sw) (step w) (Model.Blake.transform false false) := by
  intro s data n i hn hm hi ht
  refine ⟨s.m, hm, ?_⟩
  obtain ⟨H, hH⟩ := hi
  unfold Model.Blake.transform
  rw [hH, P.getHs, P.bs, ht, forBlocks_ok (g := fun j => step w (i + j)) (inv := In put sw) ?_ data n _ hn ⟨H, rfl⟩]
  · rfl
  · intro j b h hb hi
    refine ⟨?_, hi.stepC P _ _ _ hb⟩
    obtain ⟨H, rfl⟩ := hi
    unfold step stepC
    rw [P.block, P.block, totalbytes_shift, totalbytes_final]
    rfl

theorem transform_one (P : Put T v hs put) (padding : Bool) (s : Blk Model.Blake.St) {sw : Nat → BitVec w} (hi : In put sw s.h) (m p : Bytes) (hp : p <+: m)
    (hl : p.length = 2 * w) :
    Model.Blake.transform padding true m 1 s = .ok { s with h := stepC padding s.total p s.h } := by
  have hhs : s.h.hs = hs := by obtain ⟨H, hH⟩ := hi; rw [hH, P.getHs]
  unfold Model.Blake.transform
  rw [hhs, P.bs]
  have hr : readBytes m (0 * (2 * w)) (2 * w) = .ok p := by
    rw [Nat.zero_mul]; exact readBytes_pfx m p _ hp hl.symm
  have : forBlocks (2 * w) m 1 (fun blk b h => pure (Model.Blake.block padding true s.total blk b h)) s.h
      = .ok (stepC padding s.total p s.h) := by
    unfold forBlocks
    rw [show List.range 1 = [0] from rfl, List.foldlM_cons, hr]
    rfl
  rw [this]
  rfl

/-- The bytes after the message part in the last block. -/
def lastBytes (me : Nat) (one : Byte) (q : Bytes) : Bytes :=
  if q.length ≤ me then q ++ List.replicate (me - q.length) 0 ++ [one] else q

theorem length_lastBytes (me : Nat) (one : Byte) (q : Bytes) (h : q.length ≤ me + 1) : (lastBytes me one q).length = me + 1 := by
  unfold lastBytes
  split
  · simp; omega
  · omega

theorem padEnd_ok (hs : Nat) (m q : Bytes) (hm : m.length = 128) (hq : q <+: m)
    (hme : Model.Blake.messageend hs < 128) :
    ∃ m', Model.Blake.padEnd hs m q.length = .ok m' ∧ m'.length = 128 ∧
      lastBytes (Model.Blake.messageend hs) (if Model.Blake.truncated hs then 0x00 else 0x01) q <+: m' := by
  unfold Model.Blake.padEnd lastBytes
  by_cases h : q.length ≤ Model.Blake.messageend hs
  · rw [if_pos h, if_pos h, szSub_eq _ _ h (by unfold szMod; omega)]
    obtain ⟨m1, e1, p1, l1⟩ := memset_pfx m q q.length 0 (Model.Blake.messageend hs - q.length) hq rfl (by omega)
    obtain ⟨m2, e2, p2, l2⟩ := setByte_pfx m1 _ (Model.Blake.messageend hs)
      (if Model.Blake.truncated hs then 0x00 else 0x01) p1 (by simp; omega) (by simp; omega)
    exact ⟨m2, by rw [e1]; exact e2, by omega, p2⟩
  · rw [if_neg h, if_neg h]
    exact ⟨m, rfl, hm, hq⟩

theorem padLen_ok (P : Put T v hs put) (m q : Bytes) (hm : m.length = 128) (hq : q <+: m) (hl : q.length = 2 * w - w / 4) :
    ∃ m', Model.Blake.padLen hs m = .ok m' ∧ m'.length = 128 ∧ q ++ List.replicate (w / 4 - 8) 0 <+: m' := by
  unfold Model.Blake.padLen
  rw [P.bs]
  obtain h | h := P.ok.w2
  · subst h
    exact ⟨m, rfl, hm, by simpa using hq⟩
  · subst h
    obtain ⟨m1, e1, p1, l1⟩ := memset_pfx m q 112 0 8 hq (by omega) (by omega)
    exact ⟨m1, e1, by omega, p1⟩

theorem finalTail_ok (P : Put T v hs put) (padding : Bool) (s : Blk Model.Blake.St) {sw : Nat → BitVec w} (hi : In put sw s.h) (hm : s.m.length = 128)
    (q : Bytes) (hq : q <+: s.m) (hpos : s.pos = q.length) (hl : q.length ≤ 2 * w - w / 4) :
    Model.Blake.finalTail padding s = Model.Blake.output (stepC padding s.total
      (lastBytes (2 * w - w / 4 - 1) (if Model.Blake.truncated hs then 0x00 else 0x01) q ++ List.replicate (w / 4 - 8) 0 ++
        bytes64 (byteswap64 s.total)) s.h) := by
  have hhs : s.h.hs = hs := by obtain ⟨H, hH⟩ := hi; rw [hH, P.getHs]
  have hw := P.ok.w2
  have hme := P.me
  obtain ⟨m1, e1, l1, p1⟩ := padEnd_ok hs s.m q hm hq (by omega)
  rw [P.me] at p1
  have hlb := length_lastBytes (2 * w - w / 4 - 1) (if Model.Blake.truncated hs then 0x00 else 0x01) q (by omega)
  revert p1 hlb
  generalize lastBytes (2 * w - w / 4 - 1) (if Model.Blake.truncated hs then 0x00 else 0x01) q = q1
  intro p1 hlb
  obtain ⟨m2, e2, l2, p2⟩ := padLen_ok P m1 q1 l1 p1 (by omega)
  have hb8 : (bytes64 (byteswap64 s.total)).length = 8 := rfl
  obtain ⟨m3, e3, p3, l3⟩ := memcpyTo_pfx m2 _ (bytes64 (byteswap64 s.total)) (2 * w - 8) p2 (by simp; omega) (by omega)
  rw [List.take_of_length_le (by simp; omega)] at p3
  unfold Model.Blake.finalTail
  rw [← hpos] at e1
  rw [hhs, e1, ok_bind, e2, ok_bind, P.bs, e3, ok_bind,
    transform_one P padding { s with m := m3 } hi m3 _ p3 (by simp [hb8]; omega), ok_bind]

theorem output_eq (P : Put T v hs put) (s h : Nat → BitVec w) :
    Model.Blake.output (put (arr s h)) = .ok ((ofBeWords ((List.range 8).map h)).take (hs / 8)) := by
  have hl : (ofBeWords ((List.range 8).map h)).length = w := by
    have := P.ok.w8
    simp only [ofBeWords, List.length_flatMap, length_beBytes, List.map_map]
    simp [List.range_succ]
    omega
  have := P.size
  rw [P.output]
  have e1 : (arr s h).take 8 = (List.range 8).map h := rfl
  have e2 : (arr s h).drop 8 = (List.range 4).map s := rfl
  rw [e1, e2, P.ok.stores, readBytes_ok _ _ _ (by simp; omega)]
  rw [List.drop_zero, List.take_append_of_le_length (by omega)]

/-- `s` has absorbed `msg` with the given salt. -/
def Abs (put : List (BitVec w) → Model.Blake.St) (iv : Nat → BitVec w) (salt msg : Bytes) (st : Blk Model.Blake.St) : Prop :=
  Buffered (2 * w) 0 128 (step w) (put (arr (fun i => (beWords w salt).getD i 0) iv)) msg st

theorem abs_in (P : Put T v hs put) (iv : Nat → BitVec w) (salt msg : Bytes) (st : Blk Model.Blake.St)
    (h : Abs put iv salt msg st) : In put (fun i => (beWords w salt).getD i 0) st.h := by
  rw [h.h]
  exact foldBlocks_inv (fun _ _ _ hb hi => hi.stepC P _ _ _ hb) _ _ _ (by
    have := Nat.div_mul_le_self (msg.length - 0) (2 * w); omega) ⟨_, rfl⟩

theorem abs_hs (P : Put T v hs put) (iv : Nat → BitVec w) (salt msg : Bytes) (st : Blk Model.Blake.St)
    (h : Abs put iv salt msg st) : st.h.hs = hs := by
  obtain ⟨_, e⟩ := abs_in P iv salt msg st h
  rw [e, P.getHs]

theorem update_ok (P : Put T v hs put) (iv : Nat → BitVec w) (salt msg data : Bytes) (st : Blk Model.Blake.St)
    (h : Abs put iv salt msg st) (hd : data.length < 2 ^ 63) :
    ∃ s', Model.Blake.update data st = .ok s' ∧ Abs put iv salt (msg ++ data) s' := by
  have hw := P.ok.w2
  unfold Model.Blake.update
  rw [abs_hs P iv salt msg st h, P.bs]
  exact absorbBytes_spec (by omega) (by omega) (by omega) (by omega) (isTransform P (fun i => (beWords w salt).getD i 0))
    (fun _ _ _ hb hi => hi.stepC P _ _ _ hb) ⟨_, rfl⟩ msg data st h hd

/-- The state after the full blocks, in terms of the specification. -/
theorem fold_eq (P : Put T v hs put) (s iv : Nat → BitVec w) (msg : Bytes) (k : Nat)
    (hk : k * (2 * w) ≤ msg.length) :
    foldBlocks (2 * w) (step w) msg k (put (arr s iv)) = put (arr s (foldBlocks (2 * w)
      (fun i b h => Spec.Blake.compress v s (wrap64 (Spec.Blake.counter (2 * w) msg.length i)) b h) msg k iv)) := by
  apply foldBlocks_conj' (fun h => put (arr s h)) (2 * w) msg k iv hk
  intro i hi b h hb
  have h1 : (i + 1) * (2 * w) ≤ msg.length := Nat.le_trans (Nat.mul_le_mul_right _ (by omega)) hk
  have h2 : i * (2 * w) < msg.length := by
    have := P.ok.w2
    rw [Nat.add_mul] at h1; omega
  unfold step
  rw [stepW_eq P false _ b hb]
  rw [if_neg (by decide)]
  unfold Spec.Blake.counter
  rw [if_pos h2, Nat.min_eq_right h1, Nat.mul_comm 8]

/-- The one bits and the zeros. -/
theorem body_zero (o : Byte) : ([0x80#8] ++ List.replicate 0 0).dropLast ++ [([0x80#8] ++ List.replicate 0 0).getLastD 0 ||| o]
    = [0x80 ||| o] := rfl

theorem body_succ (z : Nat) (o : Byte) :
    ([0x80#8] ++ List.replicate (z + 1) 0).dropLast ++ [([0x80#8] ++ List.replicate (z + 1) 0).getLastD 0 ||| o]
      = [0x80] ++ List.replicate z 0 ++ [o] := by
  rw [List.replicate_succ', ← List.append_assoc, List.dropLast_concat]
  congr 2
  rw [List.getLastD_concat]
  exact BitVec.zero_or

theorem final_ok (P : Put T v hs put) (iv : Nat → BitVec w) (salt msg : Bytes) (st : Blk Model.Blake.St)
    (h : Abs put iv salt msg st) :
    Model.Blake.final st
      = .ok ((Spec.Blake.coreWith wrap64 v iv (!Model.Blake.truncated hs) salt msg).take (hs / 8)) := by
  have hw := P.ok.w2
  have hi := abs_in P iv salt msg st h
  have hhs := abs_hs P iv salt msg st h
  obtain ⟨bs, hbs⟩ : ∃ bs, bs = 2 * w := ⟨_, rfl⟩
  obtain ⟨lf, hlf⟩ : ∃ lf, lf = w / 4 := ⟨_, rfl⟩
  obtain ⟨p, hpd⟩ : ∃ p, p = msg.length % bs := ⟨_, rfl⟩
  obtain ⟨nb, hnbd⟩ : ∃ nb, nb = msg.length / bs := ⟨_, rfl⟩
  have hbs0 : 0 < bs := by omega
  have hp : p < bs := by rw [hpd]; exact Nat.mod_lt _ hbs0
  have hlen : msg.length = nb * bs + p := by rw [hpd, hnbd, Nat.mul_comm]; exact (Nat.div_add_mod _ _).symm
  have hpos : st.pos = p := by
    rw [h.pos, Nat.sub_zero, ← hbs, mod_eq_sub_div, hpd]
  have htot : st.total + BitVec.ofNat 64 (8 * st.pos) = BitVec.ofNat 64 (8 * msg.length) := by
    rw [h.total, ← BitVec.ofNat_add, Nat.sub_zero, ← hbs, ← hnbd, hpos, hlen]
    rw [show nb * bs * 8 + 8 * p = 8 * (nb * bs + p) by omega]
  obtain ⟨s, hs'⟩ : ∃ s, s = (fun i => (beWords w salt).getD i 0) := ⟨_, rfl⟩
  obtain ⟨f, hf⟩ : ∃ f, f = fun (i : Nat) (b : Bytes) (h : Nat → BitVec w) =>
    Spec.Blake.compress v s (wrap64 (Spec.Blake.counter bs msg.length i)) b h := ⟨_, rfl⟩
  have hsh : st.h = put (arr s (foldBlocks bs f msg nb iv)) := by
    rw [h.h, Nat.sub_zero, ← hbs, ← hnbd, ← hs', hf]
    have := fold_eq P s iv msg nb (by rw [← hbs]; omega)
    rwa [← hbs] at this
  have hpfx : msg.drop (nb * bs) <+: st.m := by
    have := h.pfx
    rwa [Nat.sub_zero, ← hbs, ← hnbd] at this
  have hdl : (msg.drop (nb * bs)).length = p := by simp; omega
  obtain ⟨tail, htl⟩ : ∃ tail, tail = msg.drop (nb * bs) := ⟨_, rfl⟩
  rw [← htl] at hpfx hdl
  obtain ⟨o, ho⟩ : ∃ o : Byte, o = if Model.Blake.truncated hs then 0x00 else 0x01 := ⟨_, rfl⟩
  have ho' : (if !Model.Blake.truncated hs then 0x01 else 0x00) = o := by
    rw [ho]; cases Model.Blake.truncated hs <;> rfl
  obtain ⟨me, hme⟩ : ∃ me, me = bs - lf - 1 := ⟨_, rfl⟩
  have hme' : Model.Blake.messageend hs = me := by rw [P.me, hme, hbs, hlf]
  have hL : List.replicate (lf - 8) (0 : Byte) ++ bytes64 (byteswap64 (BitVec.ofNat 64 (8 * msg.length)))
      = beBytes lf (wrap64 (8 * msg.length)) := by
    rw [bytes64_byteswap_ofNat, ← beBytes8_wrap64, ← beBytes_pad _ _ _ (wrap64_lt _), Nat.sub_add_cancel (by omega)]
  obtain ⟨L, hLd⟩ : ∃ L, L = beBytes lf (wrap64 (8 * msg.length)) := ⟨_, rfl⟩
  have hLl : L.length = lf := by rw [hLd, length_beBytes]
  have hcore : Spec.Blake.coreWith wrap64 v iv (!Model.Blake.truncated hs) salt msg = ofBeWords ((List.range 8).map
      (foldBlocks bs f (Spec.Blake.pad bs lf (!Model.Blake.truncated hs) (wrap64 (8 * msg.length)) msg)
        ((Spec.Blake.pad bs lf (!Model.Blake.truncated hs) (wrap64 (8 * msg.length)) msg).length / bs) iv)) := by
    unfold Spec.Blake.coreWith
    rw [← hbs, ← hlf, ← hs', hf]
  have hpad : Spec.Blake.pad bs lf (!Model.Blake.truncated hs) (wrap64 (8 * msg.length)) msg = msg ++ (
      (([0x80#8] ++ List.replicate (toMultiple bs (msg.length + 1 + lf)) 0).dropLast ++
        [([0x80#8] ++ List.replicate (toMultiple bs (msg.length + 1 + lf)) 0).getLastD 0 ||| o]) ++ L) := by
    unfold Spec.Blake.pad
    rw [ho', ← hLd]
    simp only [List.append_assoc]
    rfl
  rw [hcore, hpad]
  obtain ⟨m1, e1, p1, l1⟩ := setByte_pfx st.m tail st.pos
    (if st.pos = Model.Blake.messageend hs ∧ Model.Blake.truncated hs = false then 0x81 else 0x80) hpfx (by omega)
    (by rw [h.mlen]; omega)
  unfold Model.Blake.final
  rw [hhs, htot, e1, ok_bind]
  have hm1 : m1.length = 128 := by rw [l1, h.mlen]
  by_cases hcase : p ≤ me
  · rw [if_neg (by omega)]
    rw [finalTail_ok P _ { st with m := m1, pos := st.pos + 1, total := BitVec.ofNat 64 (8 * msg.length) } hi hm1 _ p1
      (by simp; omega) (by simp; omega)]
    rw [← hbs, ← hlf, ← hme, ← ho, List.append_assoc, hL, ← hLd]
    have hmul : toMultiple bs (msg.length + 1 + lf) = bs - lf - (p + 1) := by
      have := toMultiple_lt bs (p + 1 + lf) (p + 1 + lf) (by omega) (by omega) (nb * bs) (by
        rw [Nat.add_comm, Nat.add_mul_mod_self_right])
      rw [hlen, show nb * bs + p + 1 + lf = nb * bs + (p + 1 + lf) by omega, this]; omega
    rw [hmul]
    -- the bytes of the last block
    have hblk : lastBytes me o (tail ++ [if st.pos = Model.Blake.messageend hs ∧ Model.Blake.truncated hs = false then 0x81 else 0x80])
        ++ L = tail ++ ((([0x80#8] ++ List.replicate (bs - lf - (p + 1)) 0).dropLast ++
        [([0x80#8] ++ List.replicate (bs - lf - (p + 1)) 0).getLastD 0 ||| o]) ++ L) := by
      rw [hpos, hme', ← List.append_assoc tail]
      congr 1
      unfold lastBytes
      by_cases hx : p = me
      · rw [if_neg (by simp; omega), show bs - lf - (p + 1) = 0 by omega, body_zero, ho]
        congr 2
        cases Model.Blake.truncated hs <;> simp [hx]
      · rw [if_pos (by simp; omega), show bs - lf - (p + 1) = (me - p - 1) + 1 by omega, body_succ]
        rw [if_neg (fun h => hx h.1)]
        simp only [List.append_assoc, List.length_append, List.length_cons, List.length_nil, hdl]
        rw [show me - (p + (0 + 1)) = me - p - 1 by omega]
    have hll : (lastBytes me o (tail ++ [if st.pos = Model.Blake.messageend hs ∧ Model.Blake.truncated hs = false then 0x81 else 0x80])
        ++ L).length = bs := by
      rw [List.length_append, length_lastBytes _ _ _ (by simp; omega), hLl]; omega
    have hpl : (msg ++ ((([0x80#8] ++ List.replicate (bs - lf - (p + 1)) 0).dropLast ++
        [([0x80#8] ++ List.replicate (bs - lf - (p + 1)) 0).getLastD 0 ||| o]) ++ L)).length / bs = nb + 1 := by
      have e : msg.take (nb * bs) ++ tail = msg := by rw [htl, List.take_append_drop]
      conv => lhs; rw [← e, List.append_assoc, ← hblk]
      rw [List.length_append, hll, List.length_take, Nat.min_eq_left (by omega), Nat.add_comm, Nat.add_mul_div_right _ _ hbs0,
        Nat.div_self hbs0, Nat.add_comm]
    rw [hpl, foldBlocks_last1 bs nb msg _ iv _ (by omega) (by rw [← htl]; exact hblk.symm) hll]
    show Model.Blake.output (stepC _ _ _ st.h) = _
    rw [hsh, stepW_eq P _ _ _ (by rw [hll, hbs]), output_eq P]
    congr 5
    rw [hf]
    dsimp only
    congr 1
    unfold Spec.Blake.counter
    rw [hpos, hlen]
    by_cases hp0 : p = 0
    · rw [if_pos (by simpa using hp0), if_neg (by omega)]
    · rw [if_neg (by simpa using hp0), if_pos (by omega), Nat.min_eq_left (by rw [Nat.add_mul]; omega)]
  · rw [if_pos (by omega)]
    have hx81 : (if st.pos = Model.Blake.messageend hs ∧ Model.Blake.truncated hs = false then (0x81 : Byte) else 0x80) = 0x80 :=
      if_neg (fun h => by omega)
    rw [hx81] at p1
    have hz : ∃ m2, zeroRest (Model.Blake.blockBytes hs) m1 (st.pos + 1) = .ok m2 ∧ m2.length = 128 ∧
        tail ++ [0x80] ++ List.replicate (bs - (p + 1)) 0 <+: m2 := by
      rw [P.bs, ← hbs]
      unfold zeroRest
      by_cases hx : st.pos + 1 = bs
      · rw [if_neg (by simp [hx])]
        refine ⟨m1, rfl, hm1, ?_⟩
        rw [show bs - (p + 1) = 0 by omega]
        simpa using p1
      · rw [if_pos hx, szSub_eq _ _ (by omega) (by unfold szMod; omega)]
        obtain ⟨m2, e2, p2, l2⟩ := memset_pfx m1 (tail ++ [0x80]) (st.pos + 1) 0 (bs - (st.pos + 1)) p1 (by simp; omega)
          (by simp; omega)
        rw [hpos] at p2
        exact ⟨m2, e2, by omega, p2⟩
    obtain ⟨m2, e2, l2, p2⟩ := hz
    have hl2 : (tail ++ [0x80] ++ List.replicate (bs - (p + 1)) (0 : Byte)).length = 2 * w := by simp; omega
    rw [e2, ok_bind, transform_one P false { st with m := m2, pos := st.pos + 1, total := BitVec.ofNat 64 (8 * msg.length) } hi m2 _ p2
      hl2, ok_bind]
    dsimp only
    rw [hsh, stepW_eq P _ _ _ hl2]
    rw [finalTail_ok P true _ (sw := s) ⟨_, rfl⟩ l2 [] List.nil_prefix rfl (Nat.zero_le _)]
    dsimp only
    rw [← hbs, ← hlf, ← hme, ← ho, List.append_assoc (lastBytes me o []), hL, ← hLd]
    have hmul : toMultiple bs (msg.length + 1 + lf) = bs - (p + 1 + lf - bs) := by
      have := toMultiple_lt bs (p + 1 + lf) (p + 1 + lf - bs) (by omega) (by omega) (nb * bs) (by
        rw [Nat.add_comm, Nat.add_mul_mod_self_right]
        conv => lhs; rw [show p + 1 + lf = (p + 1 + lf - bs) + bs by omega]
        rw [Nat.add_mod_right])
      rw [hlen, show nb * bs + p + 1 + lf = nb * bs + (p + 1 + lf) by omega, this]
    have hlb : lastBytes me o [] = List.replicate me 0 ++ [o] := by
      unfold lastBytes
      rw [if_pos (show [].length ≤ me from Nat.zero_le _)]; simp
    rw [hmul, show bs - (p + 1 + lf - bs) = (bs - (p + 1) + me) + 1 by omega, body_succ, hlb]
    have hl3 : (List.replicate me (0 : Byte) ++ [o] ++ L).length = bs := by simp [hLl]; omega
    have hsplit : msg.drop (nb * bs) ++ ([0x80] ++ List.replicate (bs - (p + 1) + me) 0 ++ [o] ++ L)
        = (tail ++ [0x80] ++ List.replicate (bs - (p + 1)) 0) ++ (List.replicate me 0 ++ [o] ++ L) := by
      rw [← htl, ← List.replicate_append_replicate]
      simp only [List.append_assoc]
    have hpl : (msg ++ ([0x80] ++ List.replicate (bs - (p + 1) + me) 0 ++ [o] ++ L)).length / bs = nb + 2 := by
      simp only [List.length_append, List.length_replicate, List.length_cons, List.length_nil, hLl, hlen]
      rw [show nb * bs + p + (0 + 1 + (bs - (p + 1) + me) + (0 + 1) + lf) = (nb + 2) * bs by
        rw [Nat.add_mul]; omega]
      rw [Nat.mul_div_cancel _ hbs0]
    rw [hpl, foldBlocks_last2 bs nb msg _ iv _ _ (by omega) hsplit (by rw [hl2, hbs]) hl3]
    show Model.Blake.output (stepC _ _ _ (put _)) = _
    rw [stepW_eq P _ _ _ (by rw [hl3, hbs]), output_eq P]
    congr 5
    rw [hf]
    dsimp only
    have c1 : Spec.Blake.counter bs msg.length nb = 8 * msg.length := by
      unfold Spec.Blake.counter
      rw [if_pos (by omega), Nat.min_eq_left (by rw [Nat.add_mul]; omega)]
    have c2 : Spec.Blake.counter bs msg.length (nb + 1) = 0 := by
      unfold Spec.Blake.counter
      rw [if_neg (by rw [Nat.add_mul]; omega)]
    rw [c1, c2]
    rfl

theorem words_zero (w : Nat) (hw : w = 32 ∨ w = 64) (i : Nat) : (beWords w (List.replicate (w / 2) 0)).getD i 0 = 0 := by
  have h : beWords w (List.replicate (w / 2) 0) = List.replicate 4 0 := by
    obtain rfl | rfl := hw <;> decide +kernel
  rw [h]
  match i with
  | 0 | 1 | 2 | 3 => rfl
  | i + 4 => rfl

theorem arr_zero (w : Nat) (hw : w = 32 ∨ w = 64) (iv : Nat → BitVec w) :
    arr (fun i => (beWords w (List.replicate (w / 2) 0)).getD i 0) iv = (List.range 8).map iv ++ List.replicate 4 0 := by
  unfold arr
  simp only [words_zero w hw]
  rfl

theorem arr_salt (w : Nat) (hw : w = 32 ∨ w = 64) (iv : Nat → BitVec w) (salt : Bytes) (h : salt.length = w / 2) :
    arr (fun i => (beWords w salt).getD i 0) iv = (List.range 8).map iv ++ beWords w salt := by
  unfold arr
  rw [map_range_getD _ _ 4]
  simp only [beWords, List.length_map, List.length_range, h]
  obtain rfl | rfl := hw <;> rfl

/-- Setting the salt. -/
theorem saltWords_ok (ok : WordOk T v) (s : Nat → BitVec w) (iv : Nat → BitVec w) (salt : Bytes) (h : salt.length = w / 2 ∨ salt.length = 0) :
    Model.Blake.saltWords T (arr s iv) salt = .ok (arr (fun i =>
      (beWords w (if salt.length = w / 2 then salt else List.replicate (w / 2) 0)).getD i 0) iv) := by
  have hw := ok.w2
  unfold Model.Blake.saltWords
  have e1 : (arr s iv).take 8 = (List.range 8).map iv := rfl
  by_cases h0 : salt.length = 0
  · rw [if_neg (by simpa using h0), if_neg (by omega), arr_zero w hw, e1]
    rfl
  · have hl : salt.length = w / 2 := by omega
    rw [if_pos h0, if_pos hl, arr_salt w hw _ _ hl, readBytes_ok _ _ _ (by omega), ok_bind, e1,
      List.drop_zero, List.take_of_length_le (by omega), ok.loads 4 salt (by omega)]
    rfl

/-- Refinement. `J` is what the unused array holds. -/
theorem refines {T : Model.Blake.Word w} {v : Spec.Blake.Variant w} {hs : Nat} {J : Type}
    (put : J → List (BitVec w) → Model.Blake.St) (P : ∀ j, Put T v hs (put j)) (iv : Sha2.H8 w)
    (hpos : 0 < hs / 8) (hw : w = 32 ∨ w = 64) (hsz : hs / 8 ≤ w)
    (hiv : ∀ j s h, Model.Blake.setIV (put j (arr s h)) = put j (arr s (Spec.Blake.ivOf iv)))
    (hclear : ∀ j H, ∃ j', ({ (put j H) with H512 := List.replicate 12 0, H256 := List.replicate 12 0 } : Model.Blake.St)
      = put j' (List.replicate 12 0))
    (hset : ∀ j s h x (m : Bytes) pos total, Model.Blake.setSalt x ⟨put j (arr s h), m, pos, total⟩ =
      if x.length ≠ 0 ∧ x.length ≠ w / 2 then pure (true, ⟨put j (arr s h), m, pos, total⟩)
      else do
        let H ← Model.Blake.saltWords T (arr s h) x
        pure (false, ⟨put j H, m, pos, total⟩)) :
    HashRefines Model.Blake.provider (Spec.Blake.fnWith wrap64 v iv (!Model.Blake.truncated hs) (hs / 8)) (Cover.all SaltParam)
      (fun salt msg s => ∃ j, Abs (put j) (Spec.Blake.ivOf iv) salt msg s) := by
  have start : ∀ j salt H (m : Bytes), m.length = 128 →
      H = arr (fun i => (beWords w salt).getD i 0) (Spec.Blake.ivOf iv) →
      Abs (put j) (Spec.Blake.ivOf iv) salt [] ⟨put j H, m, 0, 0⟩ := by
    intro j salt H m hm hH
    exact Buffered.start _ _ hm rfl rfl (by rw [hH])
  have init : ∀ j salt h (m : Bytes) pos total, m.length = 128 →
      ∃ s', Model.Blake.init ⟨put j (arr (fun i => (beWords w salt).getD i 0) h), m, pos, total⟩ = .ok s' ∧
        ∃ j, Abs (put j) (Spec.Blake.ivOf iv) salt [] s' := by
    intro j salt h m pos total hm
    refine ⟨_, rfl, j, ?_⟩
    dsimp only
    rw [hiv]
    exact start j salt _ m hm rfl
  constructor
  · rintro salt msg ⟨x, m, pos, total⟩ ⟨j, h⟩
    obtain ⟨h', e⟩ := abs_in (P j) _ _ _ _ h
    dsimp only at e
    subst e
    exact init j salt h' m pos total h.mlen
  · rintro salt msg s data ⟨j, h⟩ hd
    obtain ⟨s', e, a⟩ := update_ok (P j) _ salt msg data s h hd
    exact ⟨s', e, j, a⟩
  · rintro salt msg s ⟨j, h⟩ _
    exact final_ok (P j) _ salt msg s h
  · rintro _ salt msg ⟨x, m, pos, total⟩ ⟨j, h⟩
    obtain ⟨h', e⟩ := abs_in (P j) _ _ _ _ h
    dsimp only at e
    subst e
    obtain ⟨j', e'⟩ := hclear j (arr (fun i => (beWords w salt).getD i 0) h')
    obtain ⟨s', e2, a⟩ := init j' (List.replicate (w / 2) 0) (fun _ => 0) (zeroBytes m) pos total (by
      rw [zeroBytes, List.length_replicate]; exact h.mlen)
    refine ⟨⟨put j' (List.replicate 12 0), zeroBytes m, pos, total⟩, s', ?_, ?_, a⟩
    · show (pure _ : M _) = _
      rw [← e']; rfl
    · rw [← e2, arr_zero w hw]; rfl
  · rintro salt msg s ⟨j, h⟩
    show s.h.hs / 8 = hs / 8
    rw [abs_hs (P j) _ _ _ _ h]
  · exact hpos
  · rintro salt msg s _ _
    show ((Spec.Blake.coreWith wrap64 v _ _ salt msg).take (hs / 8)).length = hs / 8
    rw [List.length_take]
    have : (Spec.Blake.coreWith wrap64 v (Spec.Blake.ivOf iv) (!Model.Blake.truncated hs) salt msg).length = w := by
      unfold Spec.Blake.coreWith
      simp only [ofBeWords, List.length_flatMap, length_beBytes, List.map_map]
      simp [List.range_succ]
      omega
    omega
  · rintro salt msg ⟨x, m, pos, total⟩ ⟨y⟩ ⟨j, h⟩ _
    obtain ⟨h', e⟩ := abs_in (P j) _ _ _ _ h
    dsimp only at e
    subst e
    have hs1 := hset j (fun i => (beWords w salt).getD i 0) h' y m pos total
    have key : y.length = w / 2 ∨ y.length = 0 → ∃ s1 s2,
        Model.Blake.setSalt y ⟨put j (arr (fun i => (beWords w salt).getD i 0) h'), m, pos, total⟩ = .ok (false, s1) ∧
        Model.Blake.init s1 = .ok s2 ∧ ∃ j, Abs (put j) (Spec.Blake.ivOf iv)
          (if y.length = w / 2 then y else List.replicate (w / 2) 0) [] s2 := by
      intro hy
      rw [if_neg (by omega), saltWords_ok (P j).ok _ _ _ hy] at hs1
      obtain ⟨s', e2, a⟩ := init j (if y.length = w / 2 then y else List.replicate (w / 2) 0) h' m pos total h.mlen
      exact ⟨_, s', hs1, e2, a⟩
    have hfs : (Spec.Blake.fnWith wrap64 v iv (!Model.Blake.truncated hs) (hs / 8)).set (SaltParam.salt y) salt =
      (if y.length = w / 2 then some y else if y.length = 0 then some (List.replicate (w / 2) 0) else none) := rfl
    rw [hfs]
    by_cases h1 : y.length = w / 2
    · rw [if_pos h1]
      have := key (.inl h1)
      rwa [if_pos h1] at this
    · rw [if_neg h1]
      by_cases h2 : y.length = 0
      · rw [if_pos h2]
        have := key (.inr h2)
        rwa [if_neg h1] at this
      · rw [if_neg h2]
        rw [if_pos ⟨h2, h1⟩] at hs1
        exact ⟨_, hs1, j, h⟩

/-! The four members. -/

theorem ivOf_eq {iv : Sha2.H8 w} {l : List (BitVec w)} (h : Sha2.arr iv = l) (s h' : Nat → BitVec w) :
    l ++ (arr s h').drop 8 = arr s (Spec.Blake.ivOf iv) := by
  rw [← h]; rfl

/-- The relation with the specification for the members with 64-bit words. -/
def R512 (hs : Nat) (iv : Sha2.H8 64) (salt msg : Bytes) (s : Blk Model.Blake.St) : Prop :=
  ∃ J : List (BitVec 32), Abs (fun H => ⟨H, J, hs⟩) (Spec.Blake.ivOf iv) salt msg s

/-- The relation with the specification for the members with 32-bit words. -/
def R256 (hs : Nat) (iv : Sha2.H8 32) (salt msg : Bytes) (s : Blk Model.Blake.St) : Prop :=
  ∃ J : List (BitVec 64), Abs (fun H => ⟨J, H, hs⟩) (Spec.Blake.ivOf iv) salt msg s

theorem refines64 (hs : Nat) (iv : Sha2.H8 64) (h : 256 < hs) (h' : hs ≤ 512)
    (hiv : ∀ J s h, Model.Blake.setIV ⟨arr s h, J, hs⟩ = ⟨arr s (Spec.Blake.ivOf iv), J, hs⟩) :
    HashRefines Model.Blake.provider (Spec.Blake.fnWith wrap64 Spec.Blake.v512 iv (!Model.Blake.truncated hs) (hs / 8))
      (Cover.all SaltParam) (R512 hs iv) := by
  refine refines (T := Model.Blake.u64) (J := List (BitVec 32)) (fun J H => ⟨H, J, hs⟩) (fun J => put512 J hs h h') iv
    (by omega) (.inr rfl) (by omega) hiv (fun J H => ⟨_, rfl⟩) ?_
  intro J s h'' x m pos total
  unfold Model.Blake.setSalt
  dsimp only
  by_cases hx : x.length ≠ 0 ∧ x.length ≠ 64 / 2
  · rw [if_pos hx, if_pos (by omega)]
  · rw [if_neg hx, if_neg (by omega), if_pos h]

theorem refines32 (hs : Nat) (iv : Sha2.H8 32) (h : hs ≤ 256) (h8 : 8 ≤ hs)
    (hiv : ∀ J s h, Model.Blake.setIV ⟨J, arr s h, hs⟩ = ⟨J, arr s (Spec.Blake.ivOf iv), hs⟩) :
    HashRefines Model.Blake.provider (Spec.Blake.fnWith wrap64 Spec.Blake.v256 iv (!Model.Blake.truncated hs) (hs / 8))
      (Cover.all SaltParam) (R256 hs iv) := by
  refine refines (T := Model.Blake.u32) (J := List (BitVec 64)) (fun J H => ⟨J, H, hs⟩) (fun J => put256 J hs h) iv
    (by omega) (.inl rfl) (by omega) hiv (fun J H => ⟨_, rfl⟩) ?_
  intro J s h'' x m pos total
  unfold Model.Blake.setSalt
  dsimp only
  by_cases hx : x.length ≠ 0 ∧ x.length ≠ 32 / 2
  · rw [if_pos hx, if_pos (by omega)]
  · rw [if_neg hx, if_neg (by omega), if_neg (show ¬ hs > 256 by omega)]

theorem init64 (hs : Nat) (iv : Sha2.H8 64)
    (hiv : ∀ J s h, Model.Blake.setIV ⟨arr s h, J, hs⟩ = ⟨arr s (Spec.Blake.ivOf iv), J, hs⟩)
    (m : Bytes) (hm : m.length = 128) (pos : Nat) (total : BitVec 64) :
    ∃ s', Model.Blake.init ⟨⟨List.replicate 12 0, List.replicate 12 0, hs⟩, m, pos, total⟩ = .ok s' ∧
      R512 hs iv (List.replicate (64 / 2) 0) [] s' := by
  refine ⟨_, rfl, List.replicate 12 0, Buffered.start _ _ hm rfl rfl ?_⟩
  dsimp only
  have e : (List.replicate 12 0 : List (BitVec 64)) =
      arr (fun i => (beWords 64 (List.replicate (64 / 2) 0)).getD i 0) (fun _ => 0) := by rw [arr_zero 64 (.inr rfl)]; rfl
  rw [e, hiv]

theorem init32 (hs : Nat) (iv : Sha2.H8 32)
    (hiv : ∀ J s h, Model.Blake.setIV ⟨J, arr s h, hs⟩ = ⟨J, arr s (Spec.Blake.ivOf iv), hs⟩)
    (m : Bytes) (hm : m.length = 128) (pos : Nat) (total : BitVec 64) :
    ∃ s', Model.Blake.init ⟨⟨List.replicate 12 0, List.replicate 12 0, hs⟩, m, pos, total⟩ = .ok s' ∧
      R256 hs iv (List.replicate (32 / 2) 0) [] s' := by
  refine ⟨_, rfl, List.replicate 12 0, Buffered.start _ _ hm rfl rfl ?_⟩
  dsimp only
  have e : (List.replicate 12 0 : List (BitVec 32)) =
      arr (fun i => (beWords 32 (List.replicate (32 / 2) 0)).getD i 0) (fun _ => 0) := by rw [arr_zero 32 (.inl rfl)]; rfl
  rw [e, hiv]

theorem setIV512 (J s h) : Model.Blake.setIV ⟨arr s h, J, 512⟩ = ⟨arr s (Spec.Blake.ivOf Sha2.iv512), J, 512⟩ := by
  rw [← ivOf_eq Sha2.iv512_eq s h]; rfl

theorem setIV384 (J s h) : Model.Blake.setIV ⟨arr s h, J, 384⟩ = ⟨arr s (Spec.Blake.ivOf Sha2.iv384), J, 384⟩ := by
  rw [← ivOf_eq Sha2.iv384_eq s h]; rfl

theorem setIV256 (J s h) : Model.Blake.setIV ⟨J, arr s h, 256⟩ = ⟨J, arr s (Spec.Blake.ivOf Sha2.iv256), 256⟩ := by
  rw [← ivOf_eq Sha2.iv256_eq s h]; rfl

theorem setIV224 (J s h) : Model.Blake.setIV ⟨J, arr s h, 224⟩ = ⟨J, arr s (Spec.Blake.ivOf Sha2.iv224), 224⟩ := by
  rw [← ivOf_eq Sha2.iv224_eq s h]; rfl

/-- Up to `2^61` bytes nothing is lost. -/
theorem coreWith_eq (v : Spec.Blake.Variant w) (iv : Nat → BitVec w) (one : Bool) (salt msg : Bytes) (h : msg.length < 2 ^ 61) :
    Spec.Blake.core v iv one salt msg = Spec.Blake.coreWith wrap64 v iv one salt msg := by
  unfold Spec.Blake.core Spec.Blake.coreWith
  dsimp only
  rw [wrap64_bits h]
  congr 2
  have : ∀ i, wrap64 (Spec.Blake.counter (2 * w) msg.length i) = Spec.Blake.counter (2 * w) msg.length i := by
    intro i
    apply wrap64_small
    unfold Spec.Blake.counter
    split
    · have := Nat.min_le_left msg.length ((i + 1) * (2 * w)); omega
    · decide
  simp only [this]

end Blake
end Digestpp.Proofs
