import Verif.Model.Sha2
import Verif.Spec.Sha2
import Verif.Proofs.Words
import Verif.Proofs.MdFinal
import Verif.Proofs.Sched
import Verif.Proofs.Api

/-! The SHA-2 provider computes SHA-224, SHA-256, SHA-384, SHA-512 and SHA-512/t. -/

namespace Digestpp.Proofs
open Model Spec

namespace Sha2

theorem primes_eq : primes = [2, 3, 5, 7, 11, 13, 17, 19, 23, 29, 31, 37, 41, 43, 47, 53, 59, 61, 67, 71, 73, 79, 83, 89, 97,
    101, 103, 107, 109, 113, 127, 131, 137, 139, 149, 151, 157, 163, 167, 173, 179, 181, 191, 193, 197, 199, 211, 223, 227,
    229, 233, 239, 241, 251, 257, 263, 269, 271, 277, 281, 283, 293, 307, 311, 313, 317, 331, 337, 347, 349, 353, 359, 367,
    373, 379, 383, 389, 397, 401, 409] := by decide +kernel

theorem K32 : ∀ t, t < 64 → sha256_K.getD t 0 = Spec.Sha2.K 32 t := by
  unfold Spec.Sha2.K; rw [primes_eq]; decide +kernel
theorem K64 : ∀ t, t < 80 → sha512_K.getD t 0 = Spec.Sha2.K 64 t := by
  unfold Spec.Sha2.K; rw [primes_eq]; decide +kernel

variable {w : Nat}

/-- What the conformance proof needs to know about the word type. -/
structure WordOk (T : Model.Sha2.Word w) (v : Spec.Sha2.Variant w) : Prop where
  w8 : w / 8 * 8 = w
  w32 : 32 ≤ w
  wmax : w ≤ 64
  N : T.N / 4 = 2 * w
  rounds : T.rounds = v.rounds
  r16 : 16 ≤ v.rounds
  sum0 : T.sum0 = v.bsum0
  sum1 : T.sum1 = v.bsum1
  sigma0 : T.sigma0 = v.ssig0
  sigma1 : T.sigma1 = v.ssig1
  K : ∀ t, t < v.rounds → T.K.getD t 0 = Spec.Sha2.K w t
  loads : ∀ b : Bytes, b.length = 2 * w → (T.loads 16 b).map T.byteswap = beWords w b
  stores : ∀ l, T.stores (l.map T.byteswap) = ofBeWords l

theorem u32_ok : WordOk Model.Sha2.u32 Spec.Sha2.v256 where
  w8 := rfl
  w32 := by decide
  wmax := by decide
  N := rfl
  rounds := rfl
  r16 := by decide
  sum0 := by funext x; simp only [Model.Sha2.u32, rotr_eq]; rfl
  sum1 := by funext x; simp only [Model.Sha2.u32, rotr_eq]; rfl
  sigma0 := by funext x; simp only [Model.Sha2.u32, rotr_eq]; rfl
  sigma1 := by funext x; simp only [Model.Sha2.u32, rotr_eq]; rfl
  K := K32
  loads := fun b h => loads32_be 16 b h
  stores := stores32_be

theorem u64_ok : WordOk Model.Sha2.u64 Spec.Sha2.v512 where
  w8 := rfl
  w32 := by decide
  wmax := by decide
  N := rfl
  rounds := rfl
  r16 := by decide
  sum0 := by funext x; simp only [Model.Sha2.u64, rotr_eq]; rfl
  sum1 := by funext x; simp only [Model.Sha2.u64, rotr_eq]; rfl
  sigma0 := by funext x; simp only [Model.Sha2.u64, rotr_eq]; rfl
  sigma1 := by funext x; simp only [Model.Sha2.u64, rotr_eq]; rfl
  K := K64
  loads := fun b h => loads64_be 16 b h
  stores := stores64_be

theorem schedule_eq {T : Model.Sha2.Word w} {v : Spec.Sha2.Variant w} (ok : WordOk T v) (Mw : List (BitVec w))
    (h : Mw.length = 16) : Model.Sha2.schedule T Mw = (List.range v.rounds).map (Spec.Sha2.sched v Mw) := by
  have hr := ok.r16
  have := expand_spec (fun (W : List (BitVec w)) t => T.sigma1 (W.getD (t - 2) 0) + W.getD (t - 7) 0 +
      T.sigma0 (W.getD (t - 15) 0) + W.getD (t - 16) 0) (Spec.Sha2.sched v Mw) 16 (v.rounds - 16) Mw ?_ ?_
  · rw [show 16 + (v.rounds - 16) = v.rounds by omega] at this
    unfold Model.Sha2.schedule
    rw [ok.rounds]; exact this
  · rw [← map_range_getD Mw 0 16 h]
    apply List.map_congr_left
    intro i hi
    rw [List.mem_range] at hi
    rw [map_range_getD Mw 0 16 h, Spec.Sha2.sched, if_pos hi]
  · intro t h1 h2
    rw [getD_map_range _ _ _ _ (by omega), getD_map_range _ _ _ _ (by omega), getD_map_range _ _ _ _ (by omega),
      getD_map_range _ _ _ _ (by omega), ok.sigma0, ok.sigma1]
    conv => rhs; rw [Spec.Sha2.sched, if_neg (by omega)]

/-- The chaining value as an array. -/
def arr (h : Spec.Sha2.H8 w) : List (BitVec w) := [h.a, h.b, h.c, h.d, h.e, h.f, h.g, h.h]
def unarr (l : List (BitVec w)) : Spec.Sha2.H8 w :=
  ⟨l.getD 0 0, l.getD 1 0, l.getD 2 0, l.getD 3 0, l.getD 4 0, l.getD 5 0, l.getD 6 0, l.getD 7 0⟩

theorem compress_eq {T : Model.Sha2.Word w} {v : Spec.Sha2.Variant w} (ok : WordOk T v) (b : Bytes) (h : List (BitVec w))
    (hb : b.length = 2 * w) : Model.Sha2.compress T b h = arr (Spec.Sha2.compress v (unarr h) b) := by
  unfold Model.Sha2.compress
  rw [ok.loads b hb]
  dsimp only
  have hlen : (beWords w b).length = 16 := by
    have := ok.w8
    have := ok.w32
    simp only [beWords, List.length_map, List.length_range, hb]
    rw [show 2 * w = 16 * (w / 8) by omega, Nat.mul_div_cancel _ (by omega)]
  rw [schedule_eq ok _ hlen, ok.rounds]
  have := foldl_range_sim (Model.Sha2.round T ((List.range v.rounds).map (Spec.Sha2.sched v (beWords w b))))
    (Spec.Sha2.round v (beWords w b)) (fun _ (x : Model.Sha2.Vars w) y => y = ⟨x.a, x.b, x.c, x.d, x.e, x.f, x.g, x.h⟩) v.rounds
    ⟨h.getD 0 0, h.getD 1 0, h.getD 2 0, h.getD 3 0, h.getD 4 0, h.getD 5 0, h.getD 6 0, h.getD 7 0⟩ (unarr h) rfl (by
      intro t x y ht hs
      subst hs
      unfold Model.Sha2.round
      rw [getD_map_range _ _ _ _ ht, ok.K t ht, ok.sum0, ok.sum1]
      rfl)
  unfold Spec.Sha2.compress
  rw [this]
  rfl

/-- The specification's compression function on the provider's state. -/
def step (v : Spec.Sha2.Variant w) (b : Bytes) (h : Model.Sha2.St w) : Model.Sha2.St w :=
  { h with H := arr (Spec.Sha2.compress v (unarr h.H) b) }

theorem isCompress {T : Model.Sha2.Word w} {v : Spec.Sha2.Variant w} (ok : WordOk T v) :
    IsCompress (2 * w) (fun _ => True) (step v) (Model.Sha2.transform T) :=
  isCompress_of (compress := fun b h => pure { h with H := Model.Sha2.compress T b h.H })
    (fun b h hb _ => ⟨by rw [compress_eq ok b h.H hb]; rfl, trivial⟩) (fun _ _ _ => by
      unfold Model.Sha2.transform; rw [ok.N])

/-- `s` has absorbed `msg` from the initial value `iv`. -/
def Abs (v : Spec.Sha2.Variant w) (iv : Spec.Sha2.H8 w) (hs : Nat) (msg : Bytes) (s : Blk (Model.Sha2.St w)) : Prop :=
  Buffered (2 * w) 0 (2 * w) (fun _ b h => step v b h) ⟨arr iv, hs⟩ msg s

theorem update_ok {T : Model.Sha2.Word w} {v : Spec.Sha2.Variant w} (ok : WordOk T v) (iv : Spec.Sha2.H8 w) (hs : Nat)
    (msg data : Bytes) (s : Blk (Model.Sha2.St w)) (h : Abs v iv hs msg s) (hd : data.length < 2 ^ 63) :
    ∃ s', Model.Sha2.update T data s = .ok s' ∧ Abs v iv hs (msg ++ data) s' := by
  have := ok.w32
  have := ok.wmax
  unfold Model.Sha2.update
  rw [ok.N]
  exact absorbBytes_spec (by omega) (by omega) (by omega) (by omega) (isCompress ok).isTransform
    (fun _ _ _ _ _ => trivial) trivial msg data s h hd

theorem buffered_mlen {σ : Type} {bs z msize : Nat} {st : Nat → Bytes → σ → σ} {h0 : σ} {msg : Bytes} {s s' : Blk σ}
    (h : Buffered bs z msize st h0 msg s) (e : s'.m.length = s.m.length) : s'.m.length = msize := by
  rw [e]; exact h.mlen

theorem fold_hs (v : Spec.Sha2.Variant w) (iv : Spec.Sha2.H8 w) (hs : Nat) (n : Nat) (msg : Bytes) (k : Nat) :
    foldBlocks n (fun _ b h => step v b h) msg k (⟨arr iv, hs⟩ : Model.Sha2.St w)
      = ⟨arr (foldBlocks n (fun _ b s => Spec.Sha2.compress v s b) msg k iv), hs⟩ :=
  foldBlocks_conj (fun h => (⟨arr h, hs⟩ : Model.Sha2.St w)) (fun _ _ _ => rfl) n msg k iv

theorem bits64_lt (n : Nat) : bits64 n < 256 ^ 8 := Nat.mod_lt _ (by decide)

theorem bits64_eq (n : Nat) (h : n < 2 ^ 61) : bits64 n = 8 * n := Nat.mod_eq_of_lt (by omega)

theorem beBytes8_bits64 (n : Nat) : beBytes 8 (bits64 n) = beBytes 8 (8 * n) := by
  unfold bits64 beBytes
  rw [show (2 : Nat) ^ 64 = 256 ^ 8 from rfl, leBytes_mod]

theorem coreWith_eq (v : Spec.Sha2.Variant w) (iv : Spec.Sha2.H8 w) (msg : Bytes) (h : msg.length < 2 ^ 61) :
    Spec.Sha2.coreWith (bits64 msg.length) v iv msg = Spec.Sha2.core v iv msg := by
  rw [bits64_eq _ h]; rfl

theorem finalState_ok {T : Model.Sha2.Word w} {v : Spec.Sha2.Variant w} (ok : WordOk T v) (iv : Spec.Sha2.H8 w) (hs : Nat)
    (msg : Bytes) (s : Blk (Model.Sha2.St w)) (h : Abs v iv hs msg s) :
    ∃ s', Model.Sha2.finalState T s = .ok s' ∧
      s'.h = ⟨(arr (Spec.Sha2.coreWith (bits64 msg.length) v iv msg)).map T.byteswap, hs⟩ ∧
      s'.m.length = 2 * w := by
  have h1 := ok.w32
  have h2 := ok.w8
  have h3 := ok.wmax
  obtain ⟨s', e, hh, hm⟩ := mdFinal_spec (lf := w / 4) (limit := 2 * w - w / 8 * 2) (fill := 2 * w)
    (enc := fun total => bytes64 (byteswap64 total))
    (isCompress ok) (by omega) (by omega) (by omega) (by omega) (by omega) (by omega) (fun _ => rfl) msg s h trivial
  refine ⟨{ s' with h := { s'.h with H := s'.h.H.map T.byteswap } }, ?_, ?_, ?_⟩
  · unfold Model.Sha2.finalState
    rw [ok.N, e]; rfl
  · have hpad : List.replicate (w / 4 - 8) (0 : Byte) ++ bytes64 (byteswap64 (BitVec.ofNat 64 (8 * msg.length)))
        = beBytes (w / 4) (bits64 msg.length) := by
      rw [bytes64_byteswap_ofNat, ← beBytes8_bits64, ← beBytes_pad _ _ _ (bits64_lt _), Nat.sub_add_cancel (by omega)]
    dsimp only at hh ⊢
    rw [hh, hpad, fold_hs]
    unfold Spec.Sha2.coreWith
    rw [foldl_chunks]
  · exact hm

theorem output_ok {T : Model.Sha2.Word w} {v : Spec.Sha2.Variant w} (ok : WordOk T v) (r : Spec.Sha2.H8 w) (hs : Nat)
    (s : Blk (Model.Sha2.St w)) (h : s.h = ⟨(arr r).map T.byteswap, hs⟩) (hhs : hs ≤ 8 * w) :
    Model.Sha2.output T s = .ok (r.bytes.take (hs / 8)) := by
  have h1 := ok.w8
  unfold Model.Sha2.output
  rw [h]
  dsimp only
  rw [ok.stores, readBytes_ok]
  · rfl
  · simp only [arr, ofBeWords, List.flatMap_cons, List.flatMap_nil, List.length_append, length_beBytes, List.length_nil]
    omega

theorem final_ok {T : Model.Sha2.Word w} {v : Spec.Sha2.Variant w} (ok : WordOk T v) (iv : Spec.Sha2.H8 w) (hs : Nat)
    (msg : Bytes) (s : Blk (Model.Sha2.St w)) (h : Abs v iv hs msg s) (hhs : hs ≤ 8 * w) :
    Model.Sha2.final T s = .ok ((Spec.Sha2.coreWith (bits64 msg.length) v iv msg).bytes.take (hs / 8)) := by
  obtain ⟨s', e, hh, -⟩ := finalState_ok ok iv hs msg s h
  unfold Model.Sha2.final
  rw [e, ok_bind, output_ok ok _ hs s' hh hhs]

theorem length_bytes (h8 : w / 8 * 8 = w) (r : Spec.Sha2.H8 w) : r.bytes.length = w := by
  simp only [Spec.Sha2.H8.bytes, ofBeWords, List.flatMap_cons, List.flatMap_nil, List.length_append, length_beBytes,
    List.length_nil]
  omega

/-- Refinement, given what `init` does. -/
theorem refines {T : Model.Sha2.Word w} {v : Spec.Sha2.Variant w} (ok : WordOk T v) (iv : Spec.Sha2.H8 w) (hs : Nat)
    (hhs : hs ≤ 8 * w) (hpos : 0 < hs / 8) (pr : HashProvider (Blk (Model.Sha2.St w)) Empty)
    (hu : pr.update = Model.Sha2.update T) (hf : pr.final = Model.Sha2.final T) (hc : pr.clear = Model.Sha2.clear)
    (hz : pr.hashSize = fun s => s.h.hs)
    (hinit : ∀ s : Blk (Model.Sha2.St w), s.m.length = 2 * w → s.h.hs = hs → ∃ s', pr.init s = .ok s' ∧ Abs v iv hs [] s') :
    HashRefines pr
      (plainFn (hs / 8) fun msg => (Spec.Sha2.coreWith (bits64 msg.length) v iv msg).bytes.take (hs / 8)) (Cover.all Empty)
      (fun _ msg s => Abs v iv hs msg s) := by
  have hhsEq : ∀ msg s, Abs v iv hs msg s → s.h.hs = hs := by
    intro msg s h
    rw [h.h, fold_hs]
  constructor
  · intro _ msg s h
    exact hinit s h.mlen (hhsEq _ _ h)
  · intro _ msg s data h hd
    rw [hu]; exact update_ok ok iv hs msg data s h hd
  · intro _ msg s h _
    rw [hf]; exact final_ok ok iv hs msg s h hhs
  · intro _ _ msg s h
    obtain ⟨s', e, r⟩ := hinit { s with h := { s.h with H := List.replicate 8 0 }, m := zeroBytes s.m }
      (by simp [zeroBytes, h.mlen]) (show s.h.hs = hs from hhsEq _ _ h)
    rw [hc]; exact ⟨_, s', rfl, e, r⟩
  · intro _ msg s h
    rw [hz]
    show s.h.hs / 8 = hs / 8
    rw [hhsEq _ _ h]
  · exact hpos
  · intro _ msg _ _ _
    show ((Spec.Sha2.coreWith (bits64 msg.length) v iv msg).bytes.take (hs / 8)).length = hs / 8
    rw [List.length_take, length_bytes ok.w8]
    have := ok.w8
    omega
  · nofun

theorem iv256_eq : arr Spec.Sha2.iv256
    = [0x6a09e667, 0xbb67ae85, 0x3c6ef372, 0xa54ff53a, 0x510e527f, 0x9b05688c, 0x1f83d9ab, 0x5be0cd19] := by
  unfold Spec.Sha2.iv256 Spec.Sha2.H8.ofPrimes; rw [primes_eq]; decide +kernel

theorem iv224_eq : arr Spec.Sha2.iv224
    = [0xc1059ed8, 0x367cd507, 0x3070dd17, 0xf70e5939, 0xffc00b31, 0x68581511, 0x64f98fa7, 0xbefa4fa4] := by
  unfold Spec.Sha2.iv224 Spec.Sha2.H8.ofPrimes; rw [primes_eq]; decide +kernel

theorem iv512_eq : arr Spec.Sha2.iv512 = Model.Sha2.iv512 := by
  unfold Spec.Sha2.iv512 Spec.Sha2.H8.ofPrimes; rw [primes_eq]; decide +kernel

theorem iv384_eq : arr Spec.Sha2.iv384 = Model.Sha2.iv384 := by
  unfold Spec.Sha2.iv384 Spec.Sha2.H8.ofPrimes; rw [primes_eq]; decide +kernel

/-- For the short length field of SHA-256 there is no difference. -/
theorem coreWith32 (iv : Spec.Sha2.H8 32) (msg : Bytes) :
    Spec.Sha2.coreWith (bits64 msg.length) Spec.Sha2.v256 iv msg = Spec.Sha2.core Spec.Sha2.v256 iv msg := by
  unfold Spec.Sha2.coreWith Spec.Sha2.core
  rw [show 32 / 4 = 8 from rfl, beBytes8_bits64]

theorem refines256 : HashRefines Model.Sha2.provider256 Spec.Sha2.sha256 (Cover.all Empty)
    (fun _ msg s => Abs Spec.Sha2.v256 Spec.Sha2.iv256 256 msg s) := by
  have := refines u32_ok Spec.Sha2.iv256 256 (by decide) (by decide) Model.Sha2.provider256 rfl rfl rfl rfl (by
    intro s hm hh
    refine ⟨_, rfl, Buffered.start _ _ hm rfl rfl ?_⟩
    rw [iv256_eq, ← hh])
  have e : Spec.Sha2.sha256 = (plainFn (256 / 8) fun msg =>
      (Spec.Sha2.core Spec.Sha2.v256 Spec.Sha2.iv256 msg).bytes.take (256 / 8)) := by
    unfold Spec.Sha2.sha256
    congr 1
  rw [e]; simp only [coreWith32] at this; exact this

theorem refines224 : HashRefines Model.Sha2.provider224 Spec.Sha2.sha224 (Cover.all Empty)
    (fun _ msg s => Abs Spec.Sha2.v256 Spec.Sha2.iv224 224 msg s) := by
  have := refines u32_ok Spec.Sha2.iv224 224 (by decide) (by decide) Model.Sha2.provider224 rfl rfl rfl rfl (by
    intro s hm hh
    refine ⟨_, rfl, Buffered.start _ _ hm rfl rfl ?_⟩
    rw [iv224_eq, ← hh])
  simp only [coreWith32] at this
  exact this

/-- The initial value of SHA-512/t for `t` bits. -/
def xiv : Spec.Sha2.H8 64 :=
  let x := fun (a : BitVec 64) => a ^^^ 0xa5a5a5a5a5a5a5a5
  let h := Spec.Sha2.iv512
  ⟨x h.a, x h.b, x h.c, x h.d, x h.e, x h.f, x h.g, x h.h⟩

theorem ivName_eq (t : Nat) :
    Model.Sha2.ivName t = ("SHA-512/" ++ toString t).toList.map fun c => BitVec.ofNat 8 c.toNat := by
  rw [String.toList_append, List.map_append]
  unfold Model.Sha2.ivName
  have h1 : (toString t).toList = Nat.toDigits 10 t := by simp [Nat.repr, toString]
  have h2 : ("SHA-512/".toList.map fun c => BitVec.ofNat 8 c.toNat) = [0x53, 0x48, 0x41, 0x2d, 0x35, 0x31, 0x32, 0x2f] := by
    decide +kernel
  rw [h1, h2]

theorem ivGen_def (t : Nat) : Spec.Sha2.ivGen t = Spec.Sha2.core Spec.Sha2.v512 xiv (Model.Sha2.ivName t) := by
  rw [ivName_eq]; rfl

theorem xiv_eq : arr xiv = Model.Sha2.iv512.map (· ^^^ 0xa5a5a5a5a5a5a5a5) := by
  rw [← iv512_eq]; rfl

/-- Evaluating the IV generation function with the model's compression function. -/
theorem ivGen_eval (t : Nat)
    (h : (mdPad 128 (beBytes 16 (8 * (Model.Sha2.ivName t).length)) (Model.Sha2.ivName t)).length = 128) :
    arr (Spec.Sha2.ivGen t) = Model.Sha2.compress Model.Sha2.u64
      (mdPad 128 (beBytes 16 (8 * (Model.Sha2.ivName t).length)) (Model.Sha2.ivName t))
      (Model.Sha2.iv512.map (· ^^^ 0xa5a5a5a5a5a5a5a5)) := by
  rw [compress_eq u64_ok _ _ h, ivGen_def, ← xiv_eq]
  unfold Spec.Sha2.core
  rw [foldl_chunks, show 2 * 64 = 128 from rfl, show 64 / 4 = 16 from rfl, h, show 128 / 128 = 1 from rfl,
    foldBlocks_one _ _ _ h]
  rfl

theorem iv512_224_eq : arr (Spec.Sha2.ivGen 224) = Model.Sha2.iv512_224 := by
  rw [ivGen_eval 224 (by decide +kernel)]; decide +kernel

theorem iv512_256_eq : arr (Spec.Sha2.ivGen 256) = Model.Sha2.iv512_256 := by
  rw [ivGen_eval 256 (by decide +kernel)]; decide +kernel

theorem length_ivName (t : Nat) (h : t ≤ 512) : (Model.Sha2.ivName t).length < 2 ^ 61 := by
  have : ∀ t, t ≤ 512 → (Model.Sha2.ivName t).length < 2 ^ 61 := by decide +kernel
  exact this t h

theorem initGen_ok (s : Blk (Model.Sha2.St 64)) (hs : Nat) (hm : s.m.length = 128) (hh : s.h = ⟨Model.Sha2.iv512, hs⟩)
    (hp : s.pos = 0) (ht : s.total = 0) (hhs : hs ≤ 512) :
    ∃ s', Model.Sha2.initGen s = .ok s' ∧ Abs Spec.Sha2.v512 (Spec.Sha2.ivGen hs) hs [] s' := by
  have hlen := length_ivName hs hhs
  obtain ⟨s1, e1, a1⟩ := update_ok u64_ok xiv hs [] (Model.Sha2.ivName hs)
    { s with h := { H := s.h.H.map (· ^^^ 0xa5a5a5a5a5a5a5a5), hs := hs } }
    (Buffered.start _ _ hm hp ht (by rw [hh, xiv_eq])) (by omega)
  rw [List.nil_append] at a1
  obtain ⟨s2, e2, h2, m2⟩ := finalState_ok u64_ok xiv hs _ s1 a1
  rw [coreWith_eq _ _ _ hlen] at h2
  have e3 := output_ok u64_ok _ hs s2 h2 hhs
  have e4 := memcpyTo_ok (List.replicate 64 0) (((Spec.Sha2.core Spec.Sha2.v512 xiv (Model.Sha2.ivName hs)).bytes).take (hs / 8))
    0 (by rw [List.length_take, length_bytes rfl, List.length_replicate]; omega)
  refine ⟨{ s2 with h := { s2.h with H := s2.h.H.map byteswap64 }, pos := 0, total := 0 }, ?_, ?_⟩
  · unfold Model.Sha2.initGen
    dsimp only
    rw [show s.h.hs = hs by rw [hh], e1, ok_bind, e2, ok_bind, e3, ok_bind, e4]
    rfl
  · refine Buffered.start _ _ m2 rfl rfl ?_
    dsimp only
    rw [h2]
    dsimp only
    rw [List.map_map, ivGen_def]
    congr 1
    conv => rhs; rw [← List.map_id (arr (Spec.Sha2.core Spec.Sha2.v512 xiv (Model.Sha2.ivName hs)))]
    apply List.map_congr_left
    intro x _
    exact byteswap64_byteswap64 x

/-- Initial value by digest size. -/
def ivOf (hs : Nat) : Spec.Sha2.H8 64 :=
  if hs = 512 then Spec.Sha2.iv512 else if hs = 384 then Spec.Sha2.iv384 else Spec.Sha2.ivGen hs

theorem init512_ok (hs : Nat) (hhs : hs ≤ 512) (s : Blk (Model.Sha2.St 64)) (hm : s.m.length = 2 * 64) (hh : s.h.hs = hs) :
    ∃ s', Model.Sha2.init512 s = .ok s' ∧ Abs Spec.Sha2.v512 (ivOf hs) hs [] s' := by
  obtain ⟨⟨H, hs'⟩, m, pos, total⟩ := s
  dsimp only at hh
  subst hh
  unfold Model.Sha2.init512 ivOf
  dsimp only
  by_cases h1 : hs' = 224
  · subst h1
    rw [if_neg (by decide), if_neg (by decide)]
    exact ⟨_, rfl, Buffered.start _ _ hm rfl rfl (by rw [iv512_224_eq])⟩
  by_cases h2 : hs' = 256
  · subst h2
    rw [if_neg (by decide), if_neg (by decide)]
    exact ⟨_, rfl, Buffered.start _ _ hm rfl rfl (by rw [iv512_256_eq])⟩
  by_cases h3 : hs' = 384
  · subst h3
    rw [if_neg (by decide), if_pos rfl]
    exact ⟨_, rfl, Buffered.start _ _ hm rfl rfl (by rw [iv384_eq])⟩
  rw [if_neg h3]
  split
  · omega
  · omega
  · omega
  · by_cases h4 : hs' = 512
    · rw [if_pos h4, if_pos h4]
      exact ⟨_, rfl, Buffered.start _ _ hm rfl rfl (by rw [iv512_eq])⟩
    · rw [if_neg h4, if_neg h4]
      exact initGen_ok _ hs' hm rfl rfl rfl hhs

theorem refines512t (hs : Nat) (hhs : hs ≤ 512) (hpos : 0 < hs / 8) :
    HashRefines Model.Sha2.provider512
      (plainFn (hs / 8) fun msg => (Spec.Sha2.coreWith (bits64 msg.length) Spec.Sha2.v512 (ivOf hs) msg).bytes.take (hs / 8))
      (Cover.all Empty) (fun _ msg s => Abs Spec.Sha2.v512 (ivOf hs) hs msg s) :=
  refines u64_ok (ivOf hs) hs hhs hpos Model.Sha2.provider512 rfl rfl rfl rfl (init512_ok hs hhs)

end Sha2
end Digestpp.Proofs
