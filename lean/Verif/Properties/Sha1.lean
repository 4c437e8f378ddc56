import Verif.Proofs.Sha1
import Verif.Proofs.Conforms

/-! C03: SHA-1. -/

namespace Digestpp.Properties
open Model Spec

/-- **C46.** Longer messages: the length field is the low 64 bits of the length. -/
theorem sha1_all_lengths : HashConforms Model.Sha1.cls Spec.Sha1.sha1 (Cover.all Empty) :=
  Proofs.hashConforms (c := Model.Sha1.cls) Proofs.Sha1.refines fun mem h =>
    have ⟨s', e, r⟩ := Proofs.Sha1.init_ok mem h
    ⟨mem, s', rfl, e, r⟩

/-- **C03.** `sha1` computes FIPS 180-4 SHA-1 for messages of fewer than `2^61` bytes (`2^64` bits). -/
theorem sha1_conforms : HashConforms Model.Sha1.cls Spec.Sha1.sha1 (Cover.below Empty (2 ^ 61)) :=
  sha1_all_lengths.below _ _ fun _ _ _ => rfl

/-! The hypotheses can be met; the value is that of "abc". -/

def sha1Mem : Model.Sha1.cls.S := ⟨[], List.replicate 64 0xaa, 17, 99⟩
def sha1Ops : List (HashOp Empty) := [.absorb (.str [0x61]), .hexdigest, .absorb (.stream [0x62, 0x63]), .hexdigest]

example : Model.Sha1.cls.Mem sha1Mem := rfl
example : Spec.Sha1.sha1.Covered (Cover.below Empty (2 ^ 61)) sha1Ops Spec.Sha1.sha1.new :=
  ⟨show 1 < 2 ^ 63 by decide, show 1 < 2 ^ 61 by decide, trivial, show 3 < 2 ^ 61 by decide, trivial⟩
example : Model.Sha1.cls.trial sha1Mem sha1Ops =
    some [.done, .text "86f7e437faa5a7fce15d1ddcb9eaeaea377667b8".toList, .done,
      .text "a9993e364706816aba3e25717850c26c9cd0d89d".toList] := by decide +kernel

end Digestpp.Properties
