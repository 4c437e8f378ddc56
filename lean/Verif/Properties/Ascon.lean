import Verif.Proofs.Ascon
import Verif.Proofs.Conforms

/-! C25: Ascon. -/

namespace Digestpp.Properties
open Model Spec

/-- **C25.** `ascon_hash` computes Ascon-Hash256, for messages of any length. -/
theorem ascon_hash_conforms : HashConforms Model.Ascon.asconHash Spec.Ascon.hash256 (Cover.all Empty) := by
  refine Proofs.hashConforms (c := Model.Ascon.asconHash) Proofs.Ascon.refines_hash ?_
  intro mem hm
  obtain ⟨s', e, r⟩ := Proofs.Ascon.init_ok .hash [] (Model.Ascon.new mem) hm.2 rfl (by decide)
  exact ⟨_, s', rfl, e, r⟩

/-- **C25.** `ascon_xof` computes Ascon-XOF128, for messages and outputs of any length. -/
theorem ascon_xof_conforms : XofConforms Model.Ascon.asconXof Spec.Ascon.xof128 (Cover.all Empty) := by
  refine Proofs.xofConforms (c := Model.Ascon.asconXof) Proofs.Ascon.refines_xof ?_
  intro mem hm
  obtain ⟨s', e, r⟩ := Proofs.Ascon.rx_init .xof [] (Model.Ascon.new mem) hm.2 rfl (by decide)
  exact ⟨_, s', rfl, e, r⟩

/-- Customizations of fewer than `2^61` bytes; `reset(true)` is not called. -/
def asconCover : Cover CustomizationParam Bytes :=
  ⟨fun _ _ => True, False, fun | .customization v => v.length < 2 ^ 61, fun _ => True⟩

/-- **C25.** `ascon_cxof` computes Ascon-CXOF128 with any customization (also longer ones than the standard allows), as long as
`reset(true)` is not called (see `ascon_cxof_reset_true_wrong`). -/
theorem ascon_cxof_conforms : XofConforms Model.Ascon.asconCxof Spec.Ascon.cxof128 asconCover := by
  refine Proofs.xofConforms (c := Model.Ascon.asconCxof) (Proofs.Ascon.refines_cxof) ?_
  intro mem hm
  obtain ⟨s', e, r⟩ := Proofs.Ascon.rx_init .cxof [] (Model.Ascon.new mem) hm.2 rfl (by decide)
  exact ⟨_, s', rfl, e, r⟩

/-! The hypotheses can be met; the values are from the published test vectors. -/

def asconMem : Blk Model.Ascon.St := ⟨⟨List.replicate 5 7, [1], true⟩, List.replicate 64 0xaa, 17, 99⟩
def asconOps : List (HashOp Empty) := [.absorb (.str [0]), .absorb (.iter [1, 2, 3, 4, 5, 6, 7]), .hexdigest]

example : Model.Ascon.asconHash.Mem asconMem := ⟨rfl, rfl⟩
example : Spec.Ascon.hash256.Covered (Cover.all Empty) asconOps Spec.Ascon.hash256.new :=
  ⟨show 1 < 2 ^ 63 by decide, trivial, trivial, trivial⟩
example : Model.Ascon.asconHash.trial asconMem asconOps = some [.done, .done,
    .text "b88e497ae8e6fb641b87ef622eb8f2fca0ed95383f7ffebe167acf1099ba764f".toList] := by decide +kernel

def asconXofOps : List (XofOp Empty) := [.absorb (.str [0]), .absorb (.iter [1]), .hexsqueeze 5, .hexsqueeze 27]
example : Spec.Ascon.xof128.Covered (Cover.all Empty) asconXofOps Spec.Ascon.xof128.new :=
  ⟨⟨show 1 < 2 ^ 63 by decide, rfl⟩, ⟨trivial, rfl⟩, ⟨trivial, show 0 < 5 by decide, show 5 < 2 ^ 61 by decide, trivial⟩,
    ⟨trivial, show 0 < 27 by decide, show 27 < 2 ^ 61 by decide, trivial⟩, trivial⟩
example : Model.Ascon.asconXof.trial asconMem asconXofOps = some [.done, .done, .text "a05383077a".toList,
    .text "f971d3830bd37e7b981497a773d441db077c6494cc73125953846e".toList] := by decide +kernel

def asconCxofOps : List (XofOp CustomizationParam) := [.set (.customization [0x10, 0x11]), .hexsqueeze 16]
example : Spec.Ascon.cxof128.Covered asconCover asconCxofOps Spec.Ascon.cxof128.new :=
  ⟨show 2 < 2 ^ 61 by decide, ⟨trivial, show 0 < 16 by decide, show 16 < 2 ^ 61 by decide, trivial⟩, trivial⟩
example : Model.Ascon.asconCxof.trial asconMem asconCxofOps
    = some [.done, .text "d1106c7622e79fe955bd9d79e03b918e".toList] := by decide +kernel

/-- **C28 is false** for `ascon_cxof`: `reset(true)` keeps the customization, so the output is not that of a new object. -/
theorem ascon_cxof_reset_true_wrong :
    Model.Ascon.asconCxof.trial asconMem [.set (.customization [0x10]), .reset true, .hexsqueeze 8]
      = some [.done, .done, .text "0c93a483e7d574d4".toList] ∧
    Model.Ascon.asconCxof.trial asconMem [.hexsqueeze 8] = some [.text "4f50159ef70bb3da".toList] := by decide +kernel

end Digestpp.Properties
