import Verif.Proofs.Kupyna
import Verif.Proofs.Conforms
import Verif.Proofs.Validate

/-! C19: Kupyna. -/

namespace Digestpp.Properties
open Model Spec

/-- **C46.** `kupyna(N)` for all messages: the length field has the low 64 bits of the length. -/
theorem kupyna_all_lengths (N : Nat) (h0 : 0 < N) (h8 : N % 8 = 0) (hN : N ≤ 512) :
    HashConforms (Model.Kupyna.kupyna N) (Spec.Kupyna.kupynaWrap (N / 8)) (Cover.all Empty) := by
  refine Proofs.hashConforms (c := Model.Kupyna.kupyna N) (Proofs.Kupyna.refines N h0 h8 hN) ?_
  intro mem hm
  obtain ⟨s', e, r⟩ := Proofs.Kupyna.init_ok N { mem with h := { mem.h with hs := N } } hm.2 rfl
  refine ⟨_, s', ?_, e, r⟩
  show (pure (Model.Kupyna.new N mem) : M _) = _
  unfold Model.Kupyna.new
  rw [if_pos ((Proofs.validateList_iff N _).mpr (by omega))]
  rfl

/-- **C46.** The same for `static_size::kupyna<N>`. -/
theorem kupyna_static_all_lengths (N : Nat) (h0 : 0 < N) (h8 : N % 8 = 0) (hN : N ≤ 512) :
    HashConforms (Model.Kupyna.kupynaStatic N) (Spec.Kupyna.kupynaWrap (N / 8)) (Cover.all Empty) := by
  refine Proofs.hashConforms (c := Model.Kupyna.kupynaStatic N) (Proofs.Kupyna.refines N h0 h8 hN) ?_
  intro mem hm
  obtain ⟨s', e, r⟩ := Proofs.Kupyna.init_ok N { mem with h := { mem.h with hs := N } } hm.2 rfl
  exact ⟨_, s', rfl, e, r⟩

private theorem kupyna_eq (n : Nat) (msg : Bytes) (h : msg.length < 2 ^ 61) :
    Spec.Kupyna.hashWith (fun l => l) (if n ≤ 32 then 8 else 16) n msg = Spec.Kupyna.hashWith wrap64 (if n ≤ 32 then 8 else 16) n msg := by
  unfold Spec.Kupyna.hashWith Spec.Kupyna.pad
  rw [Proofs.wrap64_bits h]

/-- **C19.** `kupyna(N)` computes Kupyna-N, for every whole number of bytes up to 512 bits and every message of fewer than
`2^61` bytes. -/
theorem kupyna_conforms (N : Nat) (h0 : 0 < N) (h8 : N % 8 = 0) (hN : N ≤ 512) :
    HashConforms (Model.Kupyna.kupyna N) (Spec.Kupyna.kupyna (N / 8)) (Cover.below Empty (2 ^ 61)) :=
  (kupyna_all_lengths N h0 h8 hN).below _ (fun _ => Spec.Kupyna.hashWith (fun l => l) _ _) fun _ => kupyna_eq _

/-- **C19.** `static_size::kupyna<N>` computes the same functions. -/
theorem kupyna_static_conforms (N : Nat) (h0 : 0 < N) (h8 : N % 8 = 0) (hN : N ≤ 512) :
    HashConforms (Model.Kupyna.kupynaStatic N) (Spec.Kupyna.kupyna (N / 8)) (Cover.below Empty (2 ^ 61)) :=
  (kupyna_static_all_lengths N h0 h8 hN).below _ (fun _ => Spec.Kupyna.hashWith (fun l => l) _ _) fun _ => kupyna_eq _

/-! The hypotheses can be met; the value is that of test/testvectors/kupyna256.txt for the message FF. -/

def kupynaMem : Blk Model.Kupyna.St := ⟨⟨List.replicate 16 7, 5⟩, List.replicate 128 0xaa, 17, 99⟩
def kupynaOps : List (HashOp Empty) := [.absorb (.ptr [0xff]), .hexdigest]

example : (Model.Kupyna.kupyna 256).Mem kupynaMem := ⟨rfl, rfl⟩
example : (Spec.Kupyna.kupyna (256 / 8)).Covered (Cover.below Empty (2 ^ 61)) kupynaOps (Spec.Kupyna.kupyna (256 / 8)).new :=
  ⟨show 1 < 2 ^ 63 by decide, show 1 < 2 ^ 61 by decide, trivial⟩
example : (Model.Kupyna.kupyna 256).trial kupynaMem kupynaOps = some [.done,
    .text "ea7677ca4526555680441c117982ea14059ea6d0d7124d6ecdb3deec49e890f4".toList] := by decide +kernel

end Digestpp.Properties
