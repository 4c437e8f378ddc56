import Verif.Proofs.Sha2
import Verif.Proofs.Conforms
import Verif.Proofs.Validate

/-! C04, C05: SHA-2. -/

namespace Digestpp.Properties
open Model Spec

/-- **C46.** `sha256` for all messages; the length field is the low 64 bits of the length. -/
theorem sha256_all_lengths : HashConforms Model.Sha2.sha256 Spec.Sha2.sha256 (Cover.all Empty) :=
  Proofs.hashConforms (c := Model.Sha2.sha256) Proofs.Sha2.refines256 fun mem h =>
    ⟨_, _, rfl, rfl, Proofs.Buffered.start _ _ h rfl rfl (by rw [Proofs.Sha2.iv256_eq]; rfl)⟩

/-- **C04.** `sha256` computes SHA-256. -/
theorem sha256_conforms : HashConforms Model.Sha2.sha256 Spec.Sha2.sha256 (Cover.below Empty (2 ^ 61)) :=
  sha256_all_lengths.below _ _ fun _ _ _ => rfl

/-- **C46.** `sha224` for all messages; the length field is the low 64 bits of the length. -/
theorem sha224_all_lengths : HashConforms Model.Sha2.sha224 Spec.Sha2.sha224 (Cover.all Empty) :=
  Proofs.hashConforms (c := Model.Sha2.sha224) Proofs.Sha2.refines224 fun mem h =>
    ⟨_, _, rfl, rfl, Proofs.Buffered.start _ _ h rfl rfl (by rw [Proofs.Sha2.iv224_eq]; rfl)⟩

/-- **C04.** `sha224` computes SHA-224. -/
theorem sha224_conforms : HashConforms Model.Sha2.sha224 Spec.Sha2.sha224 (Cover.below Empty (2 ^ 61)) :=
  sha224_all_lengths.below _ _ fun _ _ _ => rfl

/-- FIPS 180-4: the function that has digest size `t` among SHA-512, SHA-384 and SHA-512/t. -/
def sha512Of (t : Nat) : HashFn Empty Unit :=
  if t = 512 then Spec.Sha2.sha512 else if t = 384 then Spec.Sha2.sha384 else Spec.Sha2.sha512t t

/-- The same with the length counted in 64 bits only; the upper half of the length field is zero. -/
def sha512Wrap (t : Nat) : HashFn Empty Unit :=
  let iv := if t = 512 then Spec.Sha2.iv512 else if t = 384 then Spec.Sha2.iv384 else Spec.Sha2.ivGen t
  plainFn (t / 8) fun msg => (Spec.Sha2.coreWith (bits64 msg.length) Spec.Sha2.v512 iv msg).bytes.take (t / 8)

/-- `sha512Of` with one case distinction. -/
theorem sha512Of_eq (t : Nat) : sha512Of t =
    plainFn (t / 8) fun msg => (Spec.Sha2.core Spec.Sha2.v512 (Proofs.Sha2.ivOf t) msg).bytes.take (t / 8) := by
  unfold sha512Of Proofs.Sha2.ivOf
  by_cases h1 : t = 512
  · subst h1
    rw [if_pos rfl, if_pos rfl]
    unfold Spec.Sha2.sha512
    congr 1
  · rw [if_neg h1, if_neg h1]
    by_cases h2 : t = 384
    · subst h2
      rw [if_pos rfl, if_pos rfl]
      rfl
    · rw [if_neg h2, if_neg h2]
      rfl

private theorem wrap_eq (t : Nat) (msg : Bytes) (h : msg.length < 2 ^ 61) :
    (Spec.Sha2.core Spec.Sha2.v512 (Proofs.Sha2.ivOf t) msg).bytes.take (t / 8) =
    (Spec.Sha2.coreWith (bits64 msg.length) Spec.Sha2.v512 (Proofs.Sha2.ivOf t) msg).bytes.take (t / 8) := by
  rw [Proofs.Sha2.coreWith_eq _ _ _ h]

/-- **C46.** `sha512(t)` for all messages. -/
theorem sha512_all_lengths (t : Nat) (h0 : 0 < t) (h8 : t % 8 = 0) (ht : t ≤ 512) :
    HashConforms (Model.Sha2.sha512 t) (sha512Wrap t) (Cover.all Empty) := by
  refine Proofs.hashConforms (c := Model.Sha2.sha512 t) (Proofs.Sha2.refines512t t ht (by omega)) ?_
  intro mem hm
  obtain ⟨s', e, r⟩ := Proofs.Sha2.init512_ok t ht { mem with h := { mem.h with hs := t } } hm rfl
  refine ⟨_, s', ?_, e, r⟩
  show (pure (Model.Sha2.new512 t mem) : M _) = _
  unfold Model.Sha2.new512
  rw [if_pos ((Proofs.validateMax_iff t 512).mpr ⟨h0, h8, ht⟩)]
  rfl

/-- **C46.** `static_size::sha512<t>` for all messages. -/
theorem sha512_static_all_lengths (t : Nat) (h0 : 0 < t) (h8 : t % 8 = 0) (ht : t ≤ 512) :
    HashConforms (Model.Sha2.sha512Static t) (sha512Wrap t) (Cover.all Empty) := by
  refine Proofs.hashConforms (c := Model.Sha2.sha512Static t) (Proofs.Sha2.refines512t t ht (by omega)) ?_
  intro mem hm
  obtain ⟨s', e, r⟩ := Proofs.Sha2.init512_ok t ht { mem with h := { mem.h with hs := t } } hm rfl
  exact ⟨_, s', rfl, e, r⟩

/-- **C05.** `sha512(t)` computes SHA-512, SHA-384 or SHA-512/t, for every `t` a multiple of 8 from 8 to 512. -/
theorem sha512_conforms (t : Nat) (h0 : 0 < t) (h8 : t % 8 = 0) (ht : t ≤ 512) :
    HashConforms (Model.Sha2.sha512 t) (sha512Of t) (Cover.below Empty (2 ^ 61)) := by
  rw [sha512Of_eq]
  exact (sha512_all_lengths t h0 h8 ht).below _ _ fun _ => wrap_eq t

/-- **C05.** `static_size::sha512<t>` computes the same functions. -/
theorem sha512_static_conforms (t : Nat) (h0 : 0 < t) (h8 : t % 8 = 0) (ht : t ≤ 512) :
    HashConforms (Model.Sha2.sha512Static t) (sha512Of t) (Cover.below Empty (2 ^ 61)) := by
  rw [sha512Of_eq]
  exact (sha512_static_all_lengths t h0 h8 ht).below _ _ fun _ => wrap_eq t

/-- **C05.** `sha384`. -/
theorem sha384_conforms : HashConforms (Model.Sha2.sha512Static 384) Spec.Sha2.sha384 (Cover.below Empty (2 ^ 61)) :=
  sha512_static_conforms 384 (by decide) (by decide) (by decide)

/-! The hypotheses can be met; the values are those of "abc". -/

def sha2Mem {w : Nat} : Blk (Model.Sha2.St w) := ⟨⟨[], 5⟩, List.replicate (2 * w) 0xaa, 17, 99⟩
def sha2Ops : List (HashOp Empty) := [.absorb (.str [0x61]), .absorb (.ptr [0x62, 0x63]), .hexdigest]

example : Model.Sha2.sha256.Mem sha2Mem := rfl
example : (Model.Sha2.sha512 256).Mem sha2Mem := rfl
example : Spec.Sha2.sha256.Covered (Cover.below Empty (2 ^ 61)) sha2Ops Spec.Sha2.sha256.new :=
  ⟨show 1 < 2 ^ 63 by decide, show 2 < 2 ^ 63 by decide, show 3 < 2 ^ 61 by decide, trivial⟩
example : Model.Sha2.sha256.trial sha2Mem sha2Ops = some [.done, .done,
    .text "ba7816bf8f01cfea414140de5dae2223b00361a396177a9cb410ff61f20015ad".toList] := by decide +kernel
example : Model.Sha2.sha224.trial sha2Mem sha2Ops = some [.done, .done,
    .text "23097d223405d8228642a477bda255b32aadbce4bda0b3f7e36c9da7".toList] := by decide +kernel
example : (Model.Sha2.sha512 256).trial sha2Mem sha2Ops = some [.done, .done,
    .text "53048e2681941ef99b2e29b76b4c7dabe4c2d0c634fc6d46e0e2f13107e7af23".toList] := by decide +kernel
example : (Model.Sha2.sha512Static 384).trial sha2Mem sha2Ops = some [.done, .done,
    .text "cb00753f45a35e8bb5a03d699ac65007272c32ab0eded1631a8b605a43ff5bed8086072ba1e7cc2358baeca134c825a7".toList] := by
  decide +kernel

end Digestpp.Properties
