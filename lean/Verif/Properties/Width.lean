import Verif.Proofs.Width
import Verif.Proofs.Conforms
import Verif.Proofs.Validate
import Verif.Properties.Md5
import Verif.Properties.Sha1
import Verif.Properties.Sha2
import Verif.Properties.Sm3
import Verif.Properties.Whirlpool
import Verif.Properties.Groestl
import Verif.Properties.Jh
import Verif.Properties.Kupyna
import Verif.Properties.Echo
import Verif.Properties.Blake
import Verif.Properties.Blake2
import Verif.Properties.Streebog

/-! C62: machines whose `size_t` has fewer than 64 bits. -/

namespace Digestpp.Properties.Width
open Model Spec
open Proofs.Width (Wide)

/-- The class `c` with the `update` function `upd` computes `f`, if no call is given `lim` bytes or more at once. -/
def ConformsNarrow (c : HashClass) (upd : Bytes → c.S → M c.S) (lim : Nat) {Θ : Type} (f : HashFn c.P Θ) (cov : Cover c.P Θ) : Prop :=
  ∀ mem, c.Mem mem → ∃ s, c.construct mem = .ok (some s) ∧
    ∀ ops, f.Covered cov ops f.new → (∀ op ∈ ops, SmallOp lim op) →
      ∃ s', ({ c.pr with update := upd } : HashProvider c.S c.P).run ops s = .ok ((f.run ops f.new).1, s')

/-- The number of bytes one call may be given: an eighth of the `size_t` range, less 512. -/
def limit (z : Nat) : Nat := 2 ^ (z - 3) - 512

theorem limit_32 : limit 32 = 512 * 1024 * 1024 - 512 := by decide

private theorem limit_lt {z : Nat} (h : Wide z) : 65536 < limit z := by
  obtain ⟨q, _, h1, h2, _⟩ := h.pow
  unfold limit
  rw [h1]; omega

private theorem lt_limit {z n : Nat} (h : n < limit z) : n + 512 < 2 ^ (z - 3) := by
  unfold limit at h; omega

private theorem narrow {c : HashClass} {Θ : Type} {f : HashFn c.P Θ} {cov : Cover c.P Θ} {R : Θ → Bytes → c.S → Prop} {z : Nat} (hw : Wide z)
    (hr : Proofs.HashRefines c.pr f cov R)
    (hn : ∀ mem, c.Mem mem → ∃ s s', c.ctor mem = .ok (some s) ∧ c.pr.init s = .ok s' ∧ R f.dflt [] s')
    {upd : Bytes → c.S → M c.S} (he : ∀ θ msg s data, R θ msg s → data.length < limit z → upd data s = c.pr.update data s) :
    ConformsNarrow c upd (limit z) f cov := by
  intro mem hm
  obtain ⟨s, s', e1, e2, r⟩ := hn mem hm
  refine ⟨s', ?_, ?_⟩
  · unfold HashClass.construct
    rw [e1]
    show (do let s ← c.pr.init s; pure (some s)) = _
    rw [e2]; rfl
  · intro ops hc hs
    rw [Proofs.Width.run_eq hr (limit_lt hw) he ops hs f.new s' r hc]
    obtain ⟨s2, e, -⟩ := hr.run ops f.new s' r hc
    exact ⟨s2, e⟩

/-- **C62.** `md5`. -/
theorem md5_narrow {z : Nat} (hw : Wide z) : ConformsNarrow Model.Md5.cls (Model.Width.md5 z) (limit z) Spec.Md5.md5 (Cover.all Empty) :=
  narrow (c := Model.Md5.cls) hw Proofs.Md5.refines
    (fun mem h => have ⟨s', e, r⟩ := Proofs.Md5.init_ok mem h; ⟨mem, s', rfl, e, r⟩)
    fun _ _ s data h hd => Proofs.Width.absorbBytes_eq hw (by decide) (by decide) (by decide) (by decide) data s
      (Proofs.Buffered.pos_le h (by decide) (by decide)) (lt_limit hd) (I := fun _ => True) trivial (fun _ _ _ _ _ => rfl)
      (fun _ _ _ _ _ e => have ⟨_, _, e⟩ := Proofs.Width.setH e; ⟨by rw [e], trivial⟩)

/-- **C62.** `sha1`. -/
theorem sha1_narrow {z : Nat} (hw : Wide z) : ConformsNarrow Model.Sha1.cls (Model.Width.sha1 z) (limit z) Spec.Sha1.sha1 (Cover.all Empty) :=
  narrow (c := Model.Sha1.cls) hw Proofs.Sha1.refines
    (fun mem h => have ⟨s', e, r⟩ := Proofs.Sha1.init_ok mem h; ⟨mem, s', rfl, e, r⟩)
    fun _ _ s data h hd => Proofs.Width.absorbBytes_eq hw (by decide) (by decide) (by decide) (by decide) data s
      (Proofs.Buffered.pos_le h (by decide) (by decide)) (lt_limit hd) (I := fun _ => True) trivial (fun _ _ _ _ _ => rfl)
      (fun _ _ _ _ _ e => have ⟨_, _, e⟩ := Proofs.Width.setH e; ⟨by rw [e], trivial⟩)

/-- **C62.** `sm3`, with shift counts reduced modulo the word size (compare C21). -/
theorem sm3_narrow {z : Nat} (hw : Wide z) :
    ConformsNarrow (Model.Sm3.cls rotlMasked) (Model.Width.sm3 z rotlMasked) (limit z) Spec.Sm3.sm3 (Cover.all Empty) :=
  narrow (c := Model.Sm3.cls rotlMasked) hw Proofs.Sm3.refines
    (fun mem h => have ⟨s', e, r⟩ := Proofs.Sm3.init_ok mem h; ⟨mem, s', rfl, e, r⟩)
    fun _ _ s data h hd => Proofs.Width.absorbBytes_eq hw (by decide) (by decide) (by decide) (by decide) data s
      (Proofs.Buffered.pos_le h (by decide) (by decide)) (lt_limit hd) (I := fun _ => True) trivial (fun _ _ _ _ _ => rfl)
      (fun _ _ _ _ _ e => have ⟨_, _, e⟩ := Proofs.Width.setH e; ⟨by rw [e], trivial⟩)

/-- **C62.** `whirlpool`. -/
theorem whirlpool_narrow {z : Nat} (hw : Wide z) :
    ConformsNarrow Model.Whirlpool.cls (Model.Width.whirlpool z) (limit z) Spec.Whirlpool.whirlpoolWrap (Cover.all Empty) :=
  narrow (c := Model.Whirlpool.cls) hw Proofs.Whirlpool.refines
    (fun mem h => have ⟨s', e, r⟩ := Proofs.Whirlpool.init_ok mem h; ⟨mem, s', rfl, e, r⟩)
    fun _ _ s data h hd => Proofs.Width.absorbBytes_eq hw (by decide) (by decide) (by decide) (by decide) data s
      (Proofs.Buffered.pos_le h (by decide) (by decide)) (lt_limit hd) (I := fun _ => True) trivial (fun _ _ _ _ _ => rfl)
      (fun _ _ _ _ _ e => have ⟨_, _, e⟩ := Proofs.Width.setH e; ⟨by rw [e], trivial⟩)

private theorem sha2_update {z w : Nat} (hw : Wide z) {T : Model.Sha2.Word w} {v : Spec.Sha2.Variant w} (ok : Proofs.Sha2.WordOk T v)
    (h0 : 0 < T.N / 4) (h1 : T.N / 4 ≤ 512) (data : Bytes) (s : Blk (Model.Sha2.St w)) (hp : s.pos ≤ T.N / 4)
    (hd : data.length < limit z) : Model.Width.sha2 z T data s = Model.Sha2.update T data s :=
  Proofs.Width.absorbBytes_eq hw h0 h1 (Nat.le_refl _) (Nat.le_succ _) data s hp (lt_limit hd) (I := fun _ => True) trivial
    (fun _ _ _ _ _ => rfl) (fun _ _ _ _ _ e => have ⟨_, _, e⟩ := Proofs.Width.setH e; ⟨by rw [e], trivial⟩)

/-- **C62.** `sha256`. -/
theorem sha256_narrow {z : Nat} (hw : Wide z) :
    ConformsNarrow Model.Sha2.sha256 (Model.Width.sha2 z Model.Sha2.u32) (limit z) Spec.Sha2.sha256 (Cover.all Empty) :=
  narrow (c := Model.Sha2.sha256) hw Proofs.Sha2.refines256
    (fun mem h => ⟨_, _, rfl, rfl, Proofs.Buffered.start _ _ h rfl rfl (by rw [Proofs.Sha2.iv256_eq]; rfl)⟩)
    fun _ _ s data h hd => sha2_update hw Proofs.Sha2.u32_ok (by decide) (by decide) data s
      (Proofs.Buffered.pos_le h (by decide) (by decide)) hd

/-- **C62.** `sha224`. -/
theorem sha224_narrow {z : Nat} (hw : Wide z) :
    ConformsNarrow Model.Sha2.sha224 (Model.Width.sha2 z Model.Sha2.u32) (limit z) Spec.Sha2.sha224 (Cover.all Empty) :=
  narrow (c := Model.Sha2.sha224) hw Proofs.Sha2.refines224
    (fun mem h => ⟨_, _, rfl, rfl, Proofs.Buffered.start _ _ h rfl rfl (by rw [Proofs.Sha2.iv224_eq]; rfl)⟩)
    fun _ _ s data h hd => sha2_update hw Proofs.Sha2.u32_ok (by decide) (by decide) data s
      (Proofs.Buffered.pos_le h (by decide) (by decide)) hd

/-- **C62.** `sha512(t)`, `sha384`. -/
theorem sha512_narrow {z : Nat} (hw : Wide z) (t : Nat) (h0 : 0 < t) (h8 : t % 8 = 0) (ht : t ≤ 512) :
    ConformsNarrow (Model.Sha2.sha512 t) (Model.Width.sha2 z Model.Sha2.u64) (limit z) (sha512Wrap t) (Cover.all Empty) := by
  refine narrow (c := Model.Sha2.sha512 t) hw (Proofs.Sha2.refines512t t ht (by omega)) ?_ ?_
  · intro mem hm
    obtain ⟨s', e, r⟩ := Proofs.Sha2.init512_ok t ht { mem with h := { mem.h with hs := t } } hm rfl
    refine ⟨_, s', ?_, e, r⟩
    show (pure (Model.Sha2.new512 t mem) : M _) = _
    unfold Model.Sha2.new512
    rw [if_pos ((Proofs.validateMax_iff t 512).mpr ⟨h0, h8, ht⟩)]
    rfl
  · exact fun _ _ s data h hd => sha2_update hw Proofs.Sha2.u64_ok (by decide) (by decide) data s
      (Proofs.Buffered.pos_le h (by decide) (by decide)) hd

/-- `init` of `sha512(t)` calls `update` itself (sha2_provider.hpp 173), with the 9 to 11 bytes of the name; that call is not affected
either. -/
theorem sha512_init_narrow {z : Nat} (hw : Wide z) (hs : Nat) (h : hs ≤ 512) (s : Blk (Model.Sha2.St 64)) (hp : s.pos = 0) :
    Model.Width.sha2 z Model.Sha2.u64 (Model.Sha2.ivName hs) s = Model.Sha2.update Model.Sha2.u64 (Model.Sha2.ivName hs) s := by
  refine sha2_update hw Proofs.Sha2.u64_ok (by decide) (by decide) _ s (by omega) ?_
  have h1 : (Model.Sha2.ivName hs).length ≤ 11 := by
    have : ∀ hs, hs < 513 → (Model.Sha2.ivName hs).length ≤ 11 := by decide +kernel
    exact this hs (by omega)
  have := limit_lt hw
  omega

/-- **C62.** `groestl(N)`. -/
theorem groestl_narrow {z : Nat} (hw : Wide z) (N : Nat) (h0 : 0 < N) (h8 : N % 8 = 0) (hN : N ≤ 512) :
    ConformsNarrow (Model.Groestl.groestl N) (Model.Width.groestl z) (limit z) (Spec.Groestl.groestlWrap (N / 8)) (Cover.all Empty) := by
  refine narrow (c := Model.Groestl.groestl N) hw (Proofs.Groestl.refines N h0 h8 hN) ?_ ?_
  · intro mem hm
    obtain ⟨s', e, r⟩ := Proofs.Groestl.init_ok N hN { mem with h := { mem.h with hs := N } } hm.2 rfl
    refine ⟨_, s', ?_, e, r⟩
    show (pure (Model.Groestl.new N mem) : M _) = _
    unfold Model.Groestl.new
    rw [if_pos ((Proofs.validateMax_iff N 512).mpr ⟨h0, h8, hN⟩)]
    rfl
  · intro _ msg s data h hd
    have hs := Proofs.Groestl.abs_hs N msg s h
    have h1 : 0 < Model.Groestl.blockBytes N ∧ Model.Groestl.blockBytes N ≤ 512 := by unfold Model.Groestl.blockBytes; split <;> decide
    have hp := Proofs.Buffered.pos_le h h1.1 (by decide)
    rw [← hs] at hp h1
    exact Proofs.Width.absorbBytes_eq hw h1.1 h1.2 (Nat.le_refl _) (Nat.le_succ _) data s hp (lt_limit hd) (I := fun _ => True) trivial
      (fun _ _ _ _ _ => rfl) (fun _ _ _ _ _ e => have ⟨_, _, e⟩ := Proofs.Width.setH e; ⟨by rw [e], trivial⟩)

/-- **C62.** `jh(N)`. -/
theorem jh_narrow {z : Nat} (hw : Wide z) (N : Nat) (h0 : 0 < N) (h8 : N % 8 = 0) (hN : N ≤ 512) :
    ConformsNarrow (Model.Jh.jh N) (Model.Width.jh z) (limit z) (Spec.Jh.jhWrap (N / 8)) (Cover.all Empty) := by
  refine narrow (c := Model.Jh.jh N) hw (Proofs.Jh.refines N h0 h8 hN) ?_ ?_
  · intro mem hm
    obtain ⟨s', e, r⟩ := Proofs.Jh.init_ok N hN { mem with h := { mem.h with hs := N } } hm.2 rfl
    refine ⟨_, s', ?_, e, r⟩
    show (pure (Model.Jh.new N mem) : M _) = _
    unfold Model.Jh.new
    rw [if_pos ((Proofs.validateMax_iff N 512).mpr ⟨h0, h8, hN⟩)]
    rfl
  · exact fun _ msg s data h hd => Proofs.Width.absorbBytes_eq hw (by decide) (by decide) (by decide) (by decide) data s
      (Proofs.Buffered.pos_le h (by decide) (by decide)) (lt_limit hd) (I := fun _ => True) trivial
      (fun _ _ _ _ _ => rfl) (fun _ _ _ _ _ e => have ⟨_, _, e⟩ := Proofs.Width.setH e; ⟨by rw [e], trivial⟩)

/-- **C62.** `kupyna(N)`. -/
theorem kupyna_narrow {z : Nat} (hw : Wide z) (N : Nat) (h0 : 0 < N) (h8 : N % 8 = 0) (hN : N ≤ 512) :
    ConformsNarrow (Model.Kupyna.kupyna N) (Model.Width.kupyna z) (limit z) (Spec.Kupyna.kupynaWrap (N / 8)) (Cover.all Empty) := by
  refine narrow (c := Model.Kupyna.kupyna N) hw (Proofs.Kupyna.refines N h0 h8 hN) ?_ ?_
  · intro mem hm
    obtain ⟨s', e, r⟩ := Proofs.Kupyna.init_ok N { mem with h := { mem.h with hs := N } } hm.2 rfl
    refine ⟨_, s', ?_, e, r⟩
    show (pure (Model.Kupyna.new N mem) : M _) = _
    unfold Model.Kupyna.new
    rw [if_pos ((Proofs.validateList_iff N _).mpr (by omega))]
    rfl
  · intro _ msg s data h hd
    have hs := Proofs.Kupyna.abs_hs N msg s h
    have h1 : 0 < Model.Kupyna.blockBytes N ∧ Model.Kupyna.blockBytes N ≤ 512 := by unfold Model.Kupyna.blockBytes; split <;> decide
    have hp := Proofs.Buffered.pos_le h h1.1 (by decide)
    rw [← hs] at hp h1
    exact Proofs.Width.absorbBytes_eq hw h1.1 h1.2 (Nat.le_refl _) (Nat.le_succ _) data s hp (lt_limit hd) (I := fun _ => True) trivial
      (fun _ _ _ _ _ => rfl) (fun _ _ _ _ _ e => have ⟨_, _, e⟩ := Proofs.Width.setH e; ⟨by rw [e], trivial⟩)

private theorem echo_pos (d : Bytes) (n : Nat) (x y : Blk Model.Echo.St) (e : Model.Echo.transform d n x = .ok y) : y.pos = x.pos := by
  refine Proofs.Width.forBlocks_keep (P := fun v : Blk Model.Echo.St => v.pos = x.pos) ?_ n x y rfl e
  intro i b u v hu e
  cases hm : memcpyTo u.m 0 b with
  | error err => simp only [hm] at e; exact nomatch e
  | ok m =>
    simp only [hm, Proofs.ok_bind] at e
    rw [← Except.ok.inj e]
    exact hu

/-- **C62.** `echo(N)`. -/
theorem echo_narrow {z : Nat} (hw : Wide z) (N : Nat) (h0 : 0 < N) (h8 : N % 8 = 0) (hN : N ≤ 512) :
    ConformsNarrow (Model.Echo.echo N) (Model.Width.echo z) (limit z) (Spec.Echo.echoWith wrap64 (N / 8)) (Cover.all SaltParam) := by
  refine narrow (c := Model.Echo.echo N) hw (Proofs.Echo.refines N h0 h8 hN) ?_ ?_
  · intro mem hm
    obtain ⟨s', e, r⟩ : ∃ s', Model.Echo.init { mem with h := { mem.h with salt := [0, 0], hs := N } } = .ok s' ∧
        Proofs.Echo.Abs N (Spec.Echo.echoWith wrap64 (N / 8)).dflt [] s' :=
      Proofs.Echo.init_ok N h8 hN (List.replicate 16 0) _ hm.2 ⟨rfl, Proofs.Echo.salt_zero.symm⟩
    refine ⟨_, s', ?_, e, r⟩
    show (pure (Model.Echo.new N mem) : M _) = _
    unfold Model.Echo.new
    rw [if_pos ((Proofs.validateMax_iff N 512).mpr (by omega))]
    rfl
  · intro salt msg s data h hd
    have hs : s.h.hs = N := (Proofs.Echo.abs_inv N salt msg s h).1
    have h1 : 0 < Model.Echo.blockBytes N ∧ Model.Echo.blockBytes N ≤ 512 := by unfold Model.Echo.blockBytes; split <;> decide
    have hp := Proofs.Buffered.pos_le h h1.1 (by decide)
    rw [← hs] at hp h1
    exact Proofs.Width.absorbBytes_eq hw h1.1 h1.2 (Nat.le_refl _) (Nat.le_succ _) data s hp (lt_limit hd) (I := fun _ => True) trivial
      (fun _ _ _ _ _ => rfl) (fun _ _ _ _ _ e => ⟨echo_pos _ _ _ _ e, trivial⟩)

/-- **C62.** `streebog(N)`; the specification is that of the code's addition (compare C20). -/
theorem streebog_narrow {z : Nat} (hw : Wide z) (N : Nat) (hN : N = 256 ∨ N = 512) :
    ConformsNarrow (Model.Streebog.streebog N) (Model.Width.streebog z Model.Streebog.addm) (limit z)
      (plainFn (N / 8) (Spec.Streebog.hashGen wrap64 Spec.Streebog.addNoRipple (N / 8))) (Cover.all Empty) := by
  refine narrow (c := Model.Streebog.streebog N) hw (Proofs.Streebog.refines Proofs.Streebog.addm_ok N hN) ?_ ?_
  · intro mem hm
    obtain ⟨s', e, r⟩ := Proofs.Streebog.init_ok (add := Model.Streebog.addm) N hN { mem with h := { mem.h with hs := N } } hm.2.2 rfl
    refine ⟨_, s', ?_, e, r⟩
    show (pure (Model.Streebog.new N mem) : M _) = _
    unfold Model.Streebog.new
    rw [if_pos ((Proofs.validateList_iff N _).mpr (by omega))]
    rfl
  · intro _ msg s data h hd
    refine Proofs.Width.absorbBytes_eq hw (by decide) (by decide) (by decide) (by decide) data s
      (Proofs.Buffered.pos_le h (by decide) (by decide)) (lt_limit hd) (I := fun _ => True) trivial ?_
      (fun _ _ _ _ _ e => have ⟨_, _, e⟩ := Proofs.Width.setH e; ⟨by rw [e], trivial⟩)
    intro d n x _ hn
    obtain ⟨q, hq, hq3, _, _⟩ := hw.pow
    rw [hq3] at hn
    unfold Model.Width.streebogTransform Model.Streebog.transform
    refine congrArg (· >>= _) (Proofs.Width.forBlocks_congr (P := fun _ => True) ?_ (fun _ _ _ _ _ _ => trivial) x.h trivial)
    intro i b h hi _
    rw [Nat.mod_eq_of_lt (a := i * 512) (by omega)]
    rfl

private theorem blake2_narrow {z w : Nat} (hw : Wide z) {T : Model.Blake2.Word w} {v : Spec.Blake2.Variant w}
    (ok : Proofs.Blake2.WordOk T v) (hb : w ≤ 64) {θ : Spec.Blake2.Theta} {msg : Bytes} {hs : Nat} {s : Blk (Model.Blake2.St w)} (data : Bytes)
    (h : Proofs.Blake2.R T v .hash hs θ msg s) (hd : data.length < limit z) :
    Model.Width.blake2 z T data s = Model.Blake2.update T data s := by
  have h2 := ok.w2
  have hp : s.pos ≤ 2 * w := by have := h.2.1.pos; omega
  refine Proofs.Width.absorbBytes_eq hw (by omega) (by omega) (Nat.le_succ _) (Nat.le_refl _) data s hp (lt_limit hd)
    (I := fun _ => True) trivial ?_ (fun _ _ _ _ _ e => have ⟨_, _, e⟩ := Proofs.Width.setH e; ⟨by rw [e], trivial⟩)
  intro d n x _ hn
  obtain ⟨q, hq, hq3, _, _⟩ := hw.pow
  rw [hq3] at hn
  unfold Model.Width.blake2Transform Model.Blake2.transform
  refine congrArg (· >>= _) (Proofs.Width.forBlocks_congr (P := fun _ => True) ?_ (fun _ _ _ _ _ _ => trivial) x.h trivial)
  intro i b h hi _
  have h4 : (i + 1) * (2 * w) ≤ n * (2 * w) := Nat.mul_le_mul_right _ hi
  have h5 : (i + 1) * (8 * w) = 4 * ((i + 1) * (2 * w)) := by
    rw [Nat.mul_left_comm 4, ← Nat.mul_assoc 4]
  unfold Model.Width.blake2Total
  rw [Nat.mod_eq_of_lt (a := (i + 1) * (8 * w)) (by omega)]
  rfl

/-- **C62.** `blake2b(N)`. -/
theorem blake2b_narrow {z : Nat} (hw : Wide z) (N : Nat) (h0 : 0 < N) (h8 : N % 8 = 0) (hm : N ≤ 512) :
    ConformsNarrow (Model.Blake2.blake2 Model.Blake2.u64 .hash N) (Model.Width.blake2 z Model.Blake2.u64) (limit z)
      (Spec.Blake2.fn Spec.Blake2.v2b true (N / 8)) blake2CoverFull := by
  have hr : Proofs.HashRefines (Model.Blake2.provider Model.Blake2.u64 .hash) (Spec.Blake2.fn Spec.Blake2.v2b true (N / 8)) blake2CoverFull
      (Proofs.Blake2.R Model.Blake2.u64 Spec.Blake2.v2b .hash N) :=
    (Proofs.Blake2.refines_hash Proofs.Blake2.u64_ok true N (by omega) (by omega)).mono rfl rfl rfl (fun _ _ _ _ h => ⟨h, rfl⟩)
      (fun h => h) (fun _ _ => .inl rfl)
  refine narrow (c := Model.Blake2.blake2 Model.Blake2.u64 .hash N) hw hr ?_
    (fun _ _ _ data h hd => blake2_narrow hw Proofs.Blake2.u64_ok (by decide) data h hd)
  intro mem hmem
  obtain ⟨s', e, r⟩ := blake2_fields_ok Proofs.Blake2.u64_ok .hash N (show N / 8 ≤ 64 by omega) mem hmem
  refine ⟨Model.Blake2.fields N mem, s', ?_, e, r⟩
  show (pure (Model.Blake2.new .hash N mem) : M _) = _
  unfold Model.Blake2.new
  rw [if_pos (show validateMax N (Model.Blake2.limit 64 .hash) = true from (Proofs.validateMax_iff N 512).mpr ⟨h0, h8, hm⟩)]
  rfl

/-- **C62.** `blake2s(N)`. -/
theorem blake2s_narrow {z : Nat} (hw : Wide z) (N : Nat) (h0 : 0 < N) (h8 : N % 8 = 0) (hm : N ≤ 256) :
    ConformsNarrow (Model.Blake2.blake2 Model.Blake2.u32 .hash N) (Model.Width.blake2 z Model.Blake2.u32) (limit z)
      (Spec.Blake2.fn Spec.Blake2.v2s true (N / 8)) blake2CoverFull := by
  have hr : Proofs.HashRefines (Model.Blake2.provider Model.Blake2.u32 .hash) (Spec.Blake2.fn Spec.Blake2.v2s true (N / 8)) blake2CoverFull
      (Proofs.Blake2.R Model.Blake2.u32 Spec.Blake2.v2s .hash N) :=
    (Proofs.Blake2.refines_hash Proofs.Blake2.u32_ok true N (by omega) (by omega)).mono rfl rfl rfl (fun _ _ _ _ h => ⟨h, rfl⟩)
      (fun h => h) (fun _ _ => .inl rfl)
  refine narrow (c := Model.Blake2.blake2 Model.Blake2.u32 .hash N) hw hr ?_
    (fun _ _ _ data h hd => blake2_narrow hw Proofs.Blake2.u32_ok (by decide) data h hd)
  intro mem hmem
  obtain ⟨s', e, r⟩ := blake2_fields_ok Proofs.Blake2.u32_ok .hash N (show N / 8 ≤ 32 by omega) mem hmem
  refine ⟨Model.Blake2.fields N mem, s', ?_, e, r⟩
  show (pure (Model.Blake2.new .hash N mem) : M _) = _
  unfold Model.Blake2.new
  rw [if_pos (show validateMax N (Model.Blake2.limit 32 .hash) = true from (Proofs.validateMax_iff N 256).mpr ⟨h0, h8, hm⟩)]
  rfl

private theorem blake_update {z : Nat} (hw : Wide z) (s : Blk Model.Blake.St) (data : Bytes) (hp : s.pos ≤ Model.Blake.blockBytes s.h.hs)
    (hd : data.length < limit z) : Model.Width.blake z data s = Model.Blake.update data s := by
  have h1 : 0 < Model.Blake.blockBytes s.h.hs ∧ Model.Blake.blockBytes s.h.hs ≤ 512 := by
    unfold Model.Blake.blockBytes; split <;> decide
  refine Proofs.Width.absorbBytes_eq hw h1.1 h1.2 (Nat.le_refl _) (Nat.le_succ _) data s hp (lt_limit hd)
    (I := fun h => h.hs = s.h.hs) rfl ?_ ?_
  · intro d n x hx hn
    obtain ⟨q, hq, hq3, _, _⟩ := hw.pow
    rw [hq3] at hn
    unfold Model.Width.blakeTransform Model.Blake.transform
    refine congrArg (· >>= _) (Proofs.Width.forBlocks_congr (P := fun h => h.hs = s.h.hs) ?_ ?_ x.h hx)
    · intro i b h hi hh
      unfold Model.Blake.block Model.Width.blakeTotal Model.Blake.totalbytes
      unfold Model.Blake.blockBytes at hn
      rw [hh]
      by_cases hc : s.h.hs > 256
      · rw [if_pos hc] at hn
        rw [if_pos hc, if_pos hc, Nat.mod_eq_of_lt (a := (i + 1) * 128 * 8) (by omega)]
        rfl
      · rw [if_neg hc] at hn
        rw [if_neg hc, if_neg hc, Nat.mod_eq_of_lt (a := (i + 1) * 64 * 8) (by omega)]
        rfl
    · intro i b x y hx e
      rw [← Except.ok.inj e]
      unfold Model.Blake.block
      split <;> exact hx
  · intro d n x y hx e
    obtain ⟨h, e1, e2⟩ := Proofs.Width.setH e
    subst e2
    refine ⟨rfl, Proofs.Width.forBlocks_keep (P := fun h : Model.Blake.St => h.hs = s.h.hs) ?_ n x.h h hx e1⟩
    intro i b x y hx e
    rw [← Except.ok.inj e]
    unfold Model.Blake.block
    split <;> exact hx

private theorem blake_init (N : Nat) (hN : N = 224 ∨ N = 256 ∨ N = 384 ∨ N = 512) :
    ∃ R, Proofs.HashRefines Model.Blake.provider (blakeWrap N) (Cover.all SaltParam) R ∧
      (∀ θ msg s, R θ msg s → s.pos ≤ Model.Blake.blockBytes s.h.hs) ∧
      ∀ m : Bytes, m.length = 128 → ∀ pos total,
        ∃ s', Model.Blake.init ⟨⟨List.replicate 12 0, List.replicate 12 0, N⟩, m, pos, total⟩ = .ok s' ∧ R (blakeWrap N).dflt [] s' := by
  have h32 : ∀ hs iv, hs ≤ 256 → ∀ θ msg s, Proofs.Blake.R256 hs iv θ msg s → s.pos ≤ Model.Blake.blockBytes s.h.hs := by
    intro hs iv hh θ msg s ⟨J, h⟩
    obtain ⟨g, hg⟩ := Proofs.Blake.abs_in (Proofs.Blake.put256 J hs hh) _ θ msg s h
    have hp := Proofs.Buffered.pos_le h (by decide) (by decide)
    have h3 : s.h.hs = hs := by rw [hg]
    unfold Model.Blake.blockBytes
    split <;> omega
  have h64 : ∀ hs iv, 256 < hs → hs ≤ 512 → ∀ θ msg s, Proofs.Blake.R512 hs iv θ msg s → s.pos ≤ Model.Blake.blockBytes s.h.hs := by
    intro hs iv hh hl θ msg s ⟨J, h⟩
    obtain ⟨g, hg⟩ := Proofs.Blake.abs_in (Proofs.Blake.put512 J hs hh hl) _ θ msg s h
    have hp := Proofs.Buffered.pos_le h (by decide) (by decide)
    have h3 : s.h.hs = hs := by rw [hg]
    unfold Model.Blake.blockBytes
    split <;> omega
  rcases hN with rfl | rfl | rfl | rfl
  · exact ⟨_, Proofs.Blake.refines32 224 _ (by decide) (by decide) Proofs.Blake.setIV224, h32 224 _ (by decide),
      Proofs.Blake.init32 224 _ Proofs.Blake.setIV224⟩
  · exact ⟨_, Proofs.Blake.refines32 256 _ (by decide) (by decide) Proofs.Blake.setIV256, h32 256 _ (by decide),
      Proofs.Blake.init32 256 _ Proofs.Blake.setIV256⟩
  · exact ⟨_, Proofs.Blake.refines64 384 _ (by decide) (by decide) Proofs.Blake.setIV384, h64 384 _ (by decide) (by decide),
      Proofs.Blake.init64 384 _ Proofs.Blake.setIV384⟩
  · exact ⟨_, Proofs.Blake.refines64 512 _ (by decide) (by decide) Proofs.Blake.setIV512, h64 512 _ (by decide) (by decide),
      Proofs.Blake.init64 512 _ Proofs.Blake.setIV512⟩

/-- **C62.** `blake(N)`. -/
theorem blake_narrow {z : Nat} (hw : Wide z) (N : Nat) (hN : N = 224 ∨ N = 256 ∨ N = 384 ∨ N = 512) :
    ConformsNarrow (Model.Blake.blake N) (Model.Width.blake z) (limit z) (blakeWrap N) (Cover.all SaltParam) := by
  obtain ⟨R, hR, hp, hi⟩ := blake_init N hN
  refine narrow (c := Model.Blake.blake N) hw hR ?_ (fun θ msg s data h hd => blake_update hw s data (hp θ msg s h) hd)
  intro mem hm
  obtain ⟨s', e, r⟩ := hi mem.m hm mem.pos mem.total
  refine ⟨_, s', ?_, e, r⟩
  show (pure (Model.Blake.new N mem) : M _) = _
  unfold Model.Blake.new
  rw [if_pos ((Proofs.validateList_iff N _).mpr (by omega))]
  rfl

/-! The bound cannot be dropped. With a `size_t` of 32 bits, 2^29 bytes given at once count for nothing. -/

/-- **C62 fails beyond the limit.** `md5` on a machine with 32-bit `size_t`: an object that was given 2^29 bytes in one call has counted no
bits, one that was given the same bytes in two calls has counted 2^32; the chaining values and fill positions are equal. `final` appends
the count, so that the first object gives the digest for a wrong length. -/
theorem md5_wraps (data : Bytes) (hl : data.length = 2 ^ 29) (mem : Blk (List (BitVec 32))) (hm : mem.m.length = 64) :
    ∃ s a b c, Model.Md5.init mem = .ok s ∧ Model.Width.md5 32 data s = .ok a ∧
      Model.Width.md5 32 (data.take (2 ^ 28)) s = .ok b ∧ Model.Width.md5 32 (data.drop (2 ^ 28)) b = .ok c ∧
      Model.Md5.final c = .ok (Spec.Md5.hash data) ∧ a.h = c.h ∧ a.pos = 0 ∧ c.pos = 0 ∧ a.total = 0 ∧ c.total = 2 ^ 32 := by
  obtain ⟨s, e0, r0⟩ := Proofs.Md5.init_ok mem hm
  have hw : Wide 32 := ⟨by decide, by decide⟩
  have h28 : (data.take (2 ^ 28)).length = 2 ^ 28 := by rw [List.length_take, hl]; decide
  have h28' : (data.drop (2 ^ 28)).length = 2 ^ 28 := by rw [List.length_drop, hl]
  have same : ∀ msg x d, Proofs.Md5.R () msg x → d.length = 2 ^ 28 → Model.Width.md5 32 d x = Model.Md5.update d x := fun msg x d h hd =>
    Proofs.Width.absorbBytes_eq hw (by decide) (by decide) (by decide) (by decide) d x
      (Proofs.Buffered.pos_le h (by decide) (by decide)) (by rw [hd]; decide) (I := fun _ => True) trivial (fun _ _ _ _ _ => rfl)
      (fun _ _ _ _ _ e => have ⟨_, _, e⟩ := Proofs.Width.setH e; ⟨by rw [e], trivial⟩)
  obtain ⟨b, e1, r1⟩ := Proofs.Md5.refines.update () [] s (data.take (2 ^ 28)) r0 (by rw [h28]; decide)
  obtain ⟨c, e2, r2⟩ := Proofs.Md5.refines.update () _ b (data.drop (2 ^ 28)) r1 (by rw [h28']; decide)
  obtain ⟨a, e3, r3⟩ := Proofs.Md5.refines.update () [] s data r0 (by rw [hl]; decide)
  rw [List.nil_append] at r1 r3
  rw [List.nil_append, List.take_append_drop] at r2
  have hs0 : s.pos = 0 := by rw [r0.pos]; rfl
  have hz : s.total = 0 := by rw [r0.total]; rfl
  have e4 : Model.Width.md5 32 data s = .ok { a with total := 0 } := by
    rw [← hz]
    exact Proofs.Width.wraps Model.Md5.transform (fun _ _ _ _ e => have ⟨_, _, e⟩ := Proofs.Width.setH e; by rw [e]) data s a hl hs0 e3
  refine ⟨s, _, b, c, e0, e4, by rw [same _ _ _ r0 h28]; exact e1, by rw [same _ _ _ r1 h28']; exact e2,
    Proofs.Md5.final_ok data c r2, ?_, ?_, ?_, rfl, ?_⟩
  · show a.h = c.h
    rw [r3.h, r2.h]
  · show a.pos = 0
    rw [r3.pos, hl]
  · rw [r2.pos, hl]
  · rw [r2.total, hl]; rfl

/-! The hypotheses can be met. -/

example : Wide 32 := ⟨by decide, by decide⟩
example : (List.replicate (2 ^ 29) (0 : Byte)).length = 2 ^ 29 := List.length_replicate ..
example : ∀ op ∈ md5Ops, SmallOp (limit 32) op := by
  intro op h
  simp only [md5Ops, List.mem_cons, List.not_mem_nil, or_false] at h
  rcases h with rfl | rfl | rfl | rfl | rfl <;> first | trivial | (show _ < _; rw [limit_32]; decide)
example : ∀ op ∈ ([.absorb (.stream (List.replicate (2 ^ 40) 0)), .digest] : List (HashOp Empty)), SmallOp (limit 32) op := by
  intro op h
  simp only [List.mem_cons, List.not_mem_nil, or_false] at h
  rcases h with rfl | rfl <;> trivial

end Digestpp.Properties.Width
