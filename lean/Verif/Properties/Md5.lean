import Verif.Proofs.Md5
import Verif.Proofs.Conforms

/-! C02: MD5. -/

namespace Digestpp.Properties
open Model Spec

/-- **C02.** `md5` computes RFC 1321 MD5 for messages of any length and any history of calls. -/
theorem md5_conforms : HashConforms Model.Md5.cls Spec.Md5.md5 (Cover.all Empty) :=
  Proofs.hashConforms (c := Model.Md5.cls) Proofs.Md5.refines fun mem h =>
    have ⟨s', e, r⟩ := Proofs.Md5.init_ok mem h
    ⟨mem, s', rfl, e, r⟩

/-! The hypotheses can be met: some memory, and a history with a string, a reset, an iterator range. The value is that of "abc". -/

/-- Uninitialised memory. -/
def md5Mem : Model.Md5.cls.S := ⟨[], List.replicate 64 0xaa, 17, 99⟩
/-- A history. -/
def md5Ops : List (HashOp Empty) :=
  [.absorb (.str [0x78]), .reset false, .absorb (.str [0x61]), .absorb (.iter [0x62, 0x63]), .hexdigest]

example : Model.Md5.cls.Mem md5Mem := rfl
example : Spec.Md5.md5.Covered (Cover.all Empty) md5Ops Spec.Md5.md5.new :=
  ⟨show 1 < 2 ^ 63 by decide, fun _ => trivial, show 1 < 2 ^ 63 by decide, trivial, trivial, trivial⟩
example : Model.Md5.cls.trial md5Mem md5Ops =
    some [.done, .done, .done, .done, .text "900150983cd24fb0d6963f7d28e17f72".toList] := by decide +kernel

end Digestpp.Properties
