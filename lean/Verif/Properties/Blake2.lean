import Verif.Proofs.Blake2X
import Verif.Proofs.Conforms
import Verif.Proofs.Validate

/-! C12 and C13: BLAKE2 and BLAKE2X. -/

namespace Digestpp.Properties
open Model Spec
open Model.Blake2 (u32 u64 Kind)
open Spec.Blake2 (v2s v2b Theta)

/-- Messages of fewer than `2^60` bytes; no empty salt and no empty personalization is set (what the code does then is the subject of
C50). -/
def blake2Cover : Cover Blake2Param Theta :=
  ⟨fun _ m => m.length < 2 ^ 60, True, fun p => p ≠ .salt [] ∧ p ≠ .personalization [], fun _ => True⟩

/-- Messages of fewer than `2^60` bytes; all parameters. -/
def blake2CoverFull : Cover Blake2Param Theta := ⟨fun _ m => m.length < 2 ^ 60, True, fun _ => True, fun _ => True⟩

/-- In addition, at most `2^32` output blocks of `w` bytes. -/
def blake2xCover (w : Nat) : Cover Blake2Param Theta := { blake2Cover with out := fun n => n ≤ 2 ^ 32 * w }
def blake2xCoverFull (w : Nat) : Cover Blake2Param Theta := { blake2CoverFull with out := fun n => n ≤ 2 ^ 32 * w }

section
variable {w : Nat} {T : Model.Blake2.Word w} {v : Spec.Blake2.Variant w}

theorem blake2_fields_ok (ok : Proofs.Blake2.WordOk T v) (kind : Kind) (hs : Nat) (hsz : Proofs.Blake2.SizeOk w kind hs)
    (mem : Blk (Model.Blake2.St w)) (hm : mem.m.length = 2 * w) :
    ∃ s', Model.Blake2.init T kind (Model.Blake2.fields hs mem) = .ok s' ∧ Proofs.Blake2.R T v kind hs (Theta.none w) [] s' := by
  have hz := Proofs.Blake2.words_none (w := w) (by have := ok.w2; omega)
  exact Proofs.Blake2.init_ok ok kind hs hsz _ (Proofs.Blake2.valid_none w) _ hm ⟨hz.1.symm, hz.2.symm, rfl, rfl, rfl, rfl, rfl⟩

private theorem mono_none {f : HashFn Blake2Param Theta} {pr : HashProvider (Blk (Model.Blake2.St w)) Blake2Param}
    {R : Theta → Bytes → Blk (Model.Blake2.St w) → Prop} (h : Proofs.HashRefines pr f (Proofs.Blake2.cover false) R) :
    Proofs.HashRefines pr f blake2Cover R :=
  h.mono rfl rfl rfl (fun _ _ _ _ h => ⟨h, rfl⟩) (fun h => h) (fun _ h => .inr h)

private theorem mono_full {f : HashFn Blake2Param Theta} {pr : HashProvider (Blk (Model.Blake2.St w)) Blake2Param}
    {R : Theta → Bytes → Blk (Model.Blake2.St w) → Prop} (h : Proofs.HashRefines pr f (Proofs.Blake2.cover true) R) :
    Proofs.HashRefines pr f blake2CoverFull R :=
  h.mono rfl rfl rfl (fun _ _ _ _ h => ⟨h, rfl⟩) (fun h => h) (fun _ _ => .inl rfl)

private theorem conforms (ok : Proofs.Blake2.WordOk T v) (kind : Kind) (hs : Nat) (hsz : Proofs.Blake2.SizeOk w kind hs) (h0 : 0 < hs)
    (h8 : hs % 8 = 0) (hlim : hs ≤ Model.Blake2.limit w kind) {f : HashFn Blake2Param Theta} (hd : f.dflt = Theta.none w)
    {c : Cover Blake2Param Theta}
    (h : Proofs.HashRefines (Model.Blake2.provider T kind) f c (Proofs.Blake2.R T v kind hs)) :
    HashConforms (Model.Blake2.blake2 T kind hs) f c := by
  refine Proofs.hashConforms (c := Model.Blake2.blake2 T kind hs) h ?_
  intro mem hm
  obtain ⟨s', e, r⟩ := blake2_fields_ok ok kind hs hsz mem hm
  refine ⟨Model.Blake2.fields hs mem, s', ?_, e, by rw [hd]; exact r⟩
  show (pure (Model.Blake2.new kind hs mem) : M _) = _
  unfold Model.Blake2.new
  rw [if_pos ((Proofs.validateMax_iff _ _).mpr (by omega))]
  rfl

private theorem conforms_static (ok : Proofs.Blake2.WordOk T v) (kind : Kind) (hs : Nat) (hsz : Proofs.Blake2.SizeOk w kind hs)
    {f : HashFn Blake2Param Theta} (hd : f.dflt = Theta.none w) {c : Cover Blake2Param Theta}
    (h : Proofs.HashRefines (Model.Blake2.provider T kind) f c (Proofs.Blake2.R T v kind hs)) :
    HashConforms (Model.Blake2.blake2Static T kind hs) f c := by
  refine Proofs.hashConforms (c := Model.Blake2.blake2Static T kind hs) h ?_
  intro mem hm
  obtain ⟨s', e, r⟩ := blake2_fields_ok ok kind hs hsz mem hm
  exact ⟨Model.Blake2.fields hs mem, s', rfl, e, by rw [hd]; exact r⟩

private theorem conforms_xof (ok : Proofs.Blake2.WordOk T v) {f : XofFn Blake2Param Theta} (hd : f.dflt = Theta.none w)
    {c : Cover Blake2Param Theta} (h : Proofs.XofRefines (Model.Blake2.xofProvider T) f c (Proofs.Blake2.Rx T v)) :
    XofConforms (Model.Blake2.blake2xof T) f c := by
  refine Proofs.xofConforms (c := Model.Blake2.blake2xof T) h ?_
  intro mem hm
  obtain ⟨s', e, r⟩ := blake2_fields_ok ok .xof (8 * w) trivial mem hm
  exact ⟨Model.Blake2.fields (8 * w) mem, s', rfl, e, by rw [hd]; exact r.rx⟩

end

/-- **C12.** `blake2b(N)` is BLAKE2b with digests of `N/8` bytes, with any key, salt and personalization that the setters accept. -/
theorem blake2b_conforms (N : Nat) (h0 : 0 < N) (h8 : N % 8 = 0) (hm : N ≤ 512) :
    HashConforms (Model.Blake2.blake2 u64 .hash N) (Spec.Blake2.fn v2b false (N / 8)) blake2Cover :=
  conforms Proofs.Blake2.u64_ok .hash N (show N / 8 ≤ 64 by omega) h0 h8 hm rfl
    (mono_none (Proofs.Blake2.refines_hash Proofs.Blake2.u64_ok false N (by omega) (by omega)))

/-- **C12.** The same with the code's reading of empty salts and personalizations: they leave the old value in place. -/
theorem blake2b_conforms_full (N : Nat) (h0 : 0 < N) (h8 : N % 8 = 0) (hm : N ≤ 512) :
    HashConforms (Model.Blake2.blake2 u64 .hash N) (Spec.Blake2.fn v2b true (N / 8)) blake2CoverFull :=
  conforms Proofs.Blake2.u64_ok .hash N (show N / 8 ≤ 64 by omega) h0 h8 hm rfl
    (mono_full (Proofs.Blake2.refines_hash Proofs.Blake2.u64_ok true N (by omega) (by omega)))

/-- **C12.** `static_size::blake2b<N>`. -/
theorem blake2b_static_conforms (N : Nat) (h0 : 0 < N) (h8 : N % 8 = 0) (hm : N ≤ 512) :
    HashConforms (Model.Blake2.blake2Static u64 .hash N) (Spec.Blake2.fn v2b false (N / 8)) blake2Cover :=
  conforms_static Proofs.Blake2.u64_ok .hash N (show N / 8 ≤ 64 by omega) rfl
    (mono_none (Proofs.Blake2.refines_hash Proofs.Blake2.u64_ok false N (by omega) (by omega)))

/-- The same with the code's reading of empty salts and personalizations. -/
theorem blake2b_static_conforms_full (N : Nat) (h0 : 0 < N) (h8 : N % 8 = 0) (hm : N ≤ 512) :
    HashConforms (Model.Blake2.blake2Static u64 .hash N) (Spec.Blake2.fn v2b true (N / 8)) blake2CoverFull :=
  conforms_static Proofs.Blake2.u64_ok .hash N (show N / 8 ≤ 64 by omega) rfl
    (mono_full (Proofs.Blake2.refines_hash Proofs.Blake2.u64_ok true N (by omega) (by omega)))

/-- **C12.** `blake2s(N)` is BLAKE2s with digests of `N/8` bytes. -/
theorem blake2s_conforms (N : Nat) (h0 : 0 < N) (h8 : N % 8 = 0) (hm : N ≤ 256) :
    HashConforms (Model.Blake2.blake2 u32 .hash N) (Spec.Blake2.fn v2s false (N / 8)) blake2Cover :=
  conforms Proofs.Blake2.u32_ok .hash N (show N / 8 ≤ 32 by omega) h0 h8 hm rfl
    (mono_none (Proofs.Blake2.refines_hash Proofs.Blake2.u32_ok false N (by omega) (by omega)))

/-- **C12.** The same with the code's reading of empty salts and personalizations. -/
theorem blake2s_conforms_full (N : Nat) (h0 : 0 < N) (h8 : N % 8 = 0) (hm : N ≤ 256) :
    HashConforms (Model.Blake2.blake2 u32 .hash N) (Spec.Blake2.fn v2s true (N / 8)) blake2CoverFull :=
  conforms Proofs.Blake2.u32_ok .hash N (show N / 8 ≤ 32 by omega) h0 h8 hm rfl
    (mono_full (Proofs.Blake2.refines_hash Proofs.Blake2.u32_ok true N (by omega) (by omega)))

/-- **C12.** `static_size::blake2s<N>`. -/
theorem blake2s_static_conforms (N : Nat) (h0 : 0 < N) (h8 : N % 8 = 0) (hm : N ≤ 256) :
    HashConforms (Model.Blake2.blake2Static u32 .hash N) (Spec.Blake2.fn v2s false (N / 8)) blake2Cover :=
  conforms_static Proofs.Blake2.u32_ok .hash N (show N / 8 ≤ 32 by omega) rfl
    (mono_none (Proofs.Blake2.refines_hash Proofs.Blake2.u32_ok false N (by omega) (by omega)))

/-- The same with the code's reading of empty salts and personalizations. -/
theorem blake2s_static_conforms_full (N : Nat) (h0 : 0 < N) (h8 : N % 8 = 0) (hm : N ≤ 256) :
    HashConforms (Model.Blake2.blake2Static u32 .hash N) (Spec.Blake2.fn v2s true (N / 8)) blake2CoverFull :=
  conforms_static Proofs.Blake2.u32_ok .hash N (show N / 8 ≤ 32 by omega) rfl
    (mono_full (Proofs.Blake2.refines_hash Proofs.Blake2.u32_ok true N (by omega) (by omega)))

/-- **C13.** `blake2xb(N)` is BLAKE2Xb with output of `N/8` bytes, for the sizes the constructor accepts. -/
theorem blake2xb_conforms (N : Nat) (h0 : 0 < N) (h8 : N % 8 = 0) (hm : N ≤ 16368) :
    HashConforms (Model.Blake2.blake2 u64 .xHash N) (Spec.Blake2.xfn v2b false (N / 8)) blake2Cover :=
  conforms Proofs.Blake2.u64_ok .xHash N (show N / 8 < 2 ^ 32 by omega) h0 h8 hm rfl
    (mono_none (Proofs.Blake2.refines_xhash Proofs.Blake2.u64_ok false N (by omega) (show N / 8 < 2 ^ 32 by omega)))

/-- **C13.** The same with the code's reading of empty salts and personalizations. -/
theorem blake2xb_conforms_full (N : Nat) (h0 : 0 < N) (h8 : N % 8 = 0) (hm : N ≤ 16368) :
    HashConforms (Model.Blake2.blake2 u64 .xHash N) (Spec.Blake2.xfn v2b true (N / 8)) blake2CoverFull :=
  conforms Proofs.Blake2.u64_ok .xHash N (show N / 8 < 2 ^ 32 by omega) h0 h8 hm rfl
    (mono_full (Proofs.Blake2.refines_xhash Proofs.Blake2.u64_ok true N (by omega) (show N / 8 < 2 ^ 32 by omega)))

/-- **C13.** `static_size::blake2xb<N>`, for all sizes that BLAKE2Xb has. -/
theorem blake2xb_static_conforms (N : Nat) (h0 : 0 < N) (h8 : N % 8 = 0) (hm : N / 8 < 2 ^ 32 - 1) :
    HashConforms (Model.Blake2.blake2Static u64 .xHash N) (Spec.Blake2.xfn v2b false (N / 8)) blake2Cover :=
  conforms_static Proofs.Blake2.u64_ok .xHash N (show N / 8 < 2 ^ 32 by omega) rfl
    (mono_none (Proofs.Blake2.refines_xhash Proofs.Blake2.u64_ok false N (by omega) (show N / 8 < 2 ^ 32 by omega)))

/-- The same with the code's reading of empty salts and personalizations. -/
theorem blake2xb_static_conforms_full (N : Nat) (h0 : 0 < N) (h8 : N % 8 = 0) (hm : N / 8 < 2 ^ 32 - 1) :
    HashConforms (Model.Blake2.blake2Static u64 .xHash N) (Spec.Blake2.xfn v2b true (N / 8)) blake2CoverFull :=
  conforms_static Proofs.Blake2.u64_ok .xHash N (show N / 8 < 2 ^ 32 by omega) rfl
    (mono_full (Proofs.Blake2.refines_xhash Proofs.Blake2.u64_ok true N (by omega) (show N / 8 < 2 ^ 32 by omega)))

/-- **C13.** `blake2xs(N)` is BLAKE2Xs with output of `N/8` bytes, for the sizes the constructor accepts. -/
theorem blake2xs_conforms (N : Nat) (h0 : 0 < N) (h8 : N % 8 = 0) (hm : N ≤ 4080) :
    HashConforms (Model.Blake2.blake2 u32 .xHash N) (Spec.Blake2.xfn v2s false (N / 8)) blake2Cover :=
  conforms Proofs.Blake2.u32_ok .xHash N (show N / 8 < 2 ^ 16 by omega) h0 h8 hm rfl
    (mono_none (Proofs.Blake2.refines_xhash Proofs.Blake2.u32_ok false N (by omega) (show N / 8 < 2 ^ 16 by omega)))

/-- **C13.** The same with the code's reading of empty salts and personalizations. -/
theorem blake2xs_conforms_full (N : Nat) (h0 : 0 < N) (h8 : N % 8 = 0) (hm : N ≤ 4080) :
    HashConforms (Model.Blake2.blake2 u32 .xHash N) (Spec.Blake2.xfn v2s true (N / 8)) blake2CoverFull :=
  conforms Proofs.Blake2.u32_ok .xHash N (show N / 8 < 2 ^ 16 by omega) h0 h8 hm rfl
    (mono_full (Proofs.Blake2.refines_xhash Proofs.Blake2.u32_ok true N (by omega) (show N / 8 < 2 ^ 16 by omega)))

/-- **C13.** `static_size::blake2xs<N>`, for all sizes that BLAKE2Xs has. -/
theorem blake2xs_static_conforms (N : Nat) (h0 : 0 < N) (h8 : N % 8 = 0) (hm : N / 8 < 2 ^ 16 - 1) :
    HashConforms (Model.Blake2.blake2Static u32 .xHash N) (Spec.Blake2.xfn v2s false (N / 8)) blake2Cover :=
  conforms_static Proofs.Blake2.u32_ok .xHash N (show N / 8 < 2 ^ 16 by omega) rfl
    (mono_none (Proofs.Blake2.refines_xhash Proofs.Blake2.u32_ok false N (by omega) (show N / 8 < 2 ^ 16 by omega)))

/-- The same with the code's reading of empty salts and personalizations. -/
theorem blake2xs_static_conforms_full (N : Nat) (h0 : 0 < N) (h8 : N % 8 = 0) (hm : N / 8 < 2 ^ 16 - 1) :
    HashConforms (Model.Blake2.blake2Static u32 .xHash N) (Spec.Blake2.xfn v2s true (N / 8)) blake2CoverFull :=
  conforms_static Proofs.Blake2.u32_ok .xHash N (show N / 8 < 2 ^ 16 by omega) rfl
    (mono_full (Proofs.Blake2.refines_xhash Proofs.Blake2.u32_ok true N (by omega) (show N / 8 < 2 ^ 16 by omega)))

/-- **C13.** `blake2xb_xof` is BLAKE2Xb with unknown output length, for all `2^32` output blocks. -/
theorem blake2xb_xof_conforms :
    XofConforms (Model.Blake2.blake2xof u64) (Spec.Blake2.xof v2b false) (blake2xCover 64) :=
  conforms_xof Proofs.Blake2.u64_ok rfl ((Proofs.Blake2.refines_xof Proofs.Blake2.u64_ok false).mono rfl rfl
    (fun _ _ _ _ _ h => ⟨h, rfl⟩) (fun h => h) (fun _ h => .inr h) (fun _ h => h))

/-- **C13.** The same with the code's reading of empty salts and personalizations. -/
theorem blake2xb_xof_conforms_full :
    XofConforms (Model.Blake2.blake2xof u64) (Spec.Blake2.xof v2b true) (blake2xCoverFull 64) :=
  conforms_xof Proofs.Blake2.u64_ok rfl ((Proofs.Blake2.refines_xof Proofs.Blake2.u64_ok true).mono rfl rfl
    (fun _ _ _ _ _ h => ⟨h, rfl⟩) (fun h => h) (fun _ _ => .inl rfl) (fun _ h => h))

/-- **C13.** `blake2xs_xof` is BLAKE2Xs with unknown output length. -/
theorem blake2xs_xof_conforms :
    XofConforms (Model.Blake2.blake2xof u32) (Spec.Blake2.xof v2s false) (blake2xCover 32) :=
  conforms_xof Proofs.Blake2.u32_ok rfl ((Proofs.Blake2.refines_xof Proofs.Blake2.u32_ok false).mono rfl rfl
    (fun _ _ _ _ _ h => ⟨h, rfl⟩) (fun h => h) (fun _ h => .inr h) (fun _ h => h))

/-- **C13.** The same with the code's reading of empty salts and personalizations. -/
theorem blake2xs_xof_conforms_full :
    XofConforms (Model.Blake2.blake2xof u32) (Spec.Blake2.xof v2s true) (blake2xCoverFull 32) :=
  conforms_xof Proofs.Blake2.u32_ok rfl ((Proofs.Blake2.refines_xof Proofs.Blake2.u32_ok true).mono rfl rfl
    (fun _ _ _ _ _ h => ⟨h, rfl⟩) (fun h => h) (fun _ _ => .inl rfl) (fun _ h => h))

/-! The hypotheses can be met; the first values are those of RFC 7693. -/

def blake2Mem (w : Nat) : Blk (Model.Blake2.St w) := ⟨⟨[], [], [], [1], 5, 6, true, 1, 2, 3⟩, List.replicate (2 * w) 0xaa, 17, 99⟩
def blake2Ops : List (HashOp Blake2Param) :=
  [.set (.salt [1, 2]), .set (.key (List.replicate 65 1)), .set (.key [1]), .set (.key []), .absorb (.ptr (ascii "abc")), .hexdigest]

example : (Model.Blake2.blake2 u64 .hash 512).Mem (blake2Mem 64) := rfl
example : (Spec.Blake2.fn v2b false 64).Covered blake2Cover blake2Ops (Spec.Blake2.fn v2b false 64).new :=
  ⟨⟨nofun, nofun⟩, ⟨nofun, nofun⟩, ⟨nofun, nofun⟩, ⟨nofun, nofun⟩, show 3 < 2 ^ 63 by decide,
    show 3 < 2 ^ 60 by decide, trivial⟩
example : (Model.Blake2.blake2 u64 .hash 512).trial (blake2Mem 64) blake2Ops = some [.threw, .threw, .done, .done, .done,
    .text ("ba80a53f981c4d0d6a2797b69f12f6e94c212f14685ac4b74b12bb6fdbffa2d1" ++
      "7d87c5392aab792dc252d5de4533cc9518d38aa8dbf1925ab92386edd4009923").toList] := by decide +kernel
example : (Model.Blake2.blake2 u32 .hash 256).trial (blake2Mem 32) blake2Ops = some [.threw, .threw, .done, .done, .done,
    .text "508c5e8c327c14e2e1a72ba34eeb452f37458b209ed63a294d999b4c86675982".toList] := by decide +kernel

def blake2xOps : List (XofOp Blake2Param) := [.set (.key [1]), .absorb (.ptr (ascii "abc")), .squeeze 5, .squeeze 40]

example : (Spec.Blake2.xof v2s false).Covered (blake2xCover 32) blake2xOps (Spec.Blake2.xof v2s false).new :=
  ⟨⟨nofun, nofun⟩, ⟨show 3 < 2 ^ 63 by decide, rfl⟩, ⟨show 3 < 2 ^ 60 by decide, by decide, by decide, show 5 ≤ 2 ^ 32 * 32 by decide⟩,
    ⟨show 3 < 2 ^ 60 by decide, by decide, by decide, show 45 ≤ 2 ^ 32 * 32 by decide⟩, trivial⟩

end Digestpp.Properties
