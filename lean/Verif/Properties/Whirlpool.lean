import Verif.Proofs.Whirlpool
import Verif.Proofs.Conforms

/-! C18: WHIRLPOOL. -/

namespace Digestpp.Properties
open Model Spec

/-- **C46.** `whirlpool` for all messages: the length field has the low 64 bits of the length. -/
theorem whirlpool_all_lengths : HashConforms Model.Whirlpool.cls Spec.Whirlpool.whirlpoolWrap (Cover.all Empty) :=
  Proofs.hashConforms (c := Model.Whirlpool.cls) Proofs.Whirlpool.refines fun mem h =>
    have ⟨s', e, r⟩ := Proofs.Whirlpool.init_ok mem h
    ⟨mem, s', rfl, e, r⟩

/-- **C18.** `whirlpool` computes WHIRLPOOL for every message of fewer than `2^61` bytes and any history of calls. -/
theorem whirlpool_conforms : HashConforms Model.Whirlpool.cls Spec.Whirlpool.whirlpool (Cover.below Empty (2 ^ 61)) :=
  whirlpool_all_lengths.below _ (fun _ => Spec.Whirlpool.hashWith fun n => n) fun _ msg h => by
    show Spec.Whirlpool.hashWith _ msg = Spec.Whirlpool.hashWith wrap64 msg
    unfold Spec.Whirlpool.hashWith
    rw [Proofs.wrap64_bits h]

/-! The hypotheses can be met; the value is that of "abc" in ISO/IEC 10118-3. -/

def whirlpoolMem : Blk (List (BitVec 64)) := ⟨[], List.replicate 64 0xaa, 17, 99⟩
def whirlpoolOps : List (HashOp Empty) :=
  [.absorb (.str [0x78]), .reset true, .absorb (.str [0x61]), .absorb (.iter [0x62, 0x63]), .hexdigest]

example : Model.Whirlpool.cls.Mem whirlpoolMem := rfl
example : Spec.Whirlpool.whirlpool.Covered (Cover.below Empty (2 ^ 61)) whirlpoolOps Spec.Whirlpool.whirlpool.new :=
  ⟨show 1 < 2 ^ 63 by decide, fun _ => trivial, show 1 < 2 ^ 63 by decide, trivial, show 3 < 2 ^ 61 by decide, trivial⟩
example : Model.Whirlpool.cls.trial whirlpoolMem whirlpoolOps = some [.done, .done, .done, .done,
    .text ("4e2448a4c6f486bb16b6562c73b4020bf3043e3a731bce721ae1b303d97e6d4c" ++
      "7181eebdb6c57e277d0e34957114cbd6c797fc9d95d8b582d225292076d4eef5").toList] := by decide +kernel

end Digestpp.Properties
