import Verif.Proofs.K12
import Verif.Proofs.Conforms

/-! C10: KangarooTwelve (KT128), KT256, MarsupilamiFourteen. -/

namespace Digestpp.Properties
open Model Spec

/-- Customizations shorter than `2^61` bytes. -/
def k12Short : CustomizationParam → Prop
  | .customization v => v.length < 2 ^ 61

private theorem k12_general (b R : Nat) (hb : b = 128 ∨ b = 256) (hR : R ≤ 24) :
    XofConforms (Model.K12.k12 b R) (Spec.k12 b R) ⟨fun _ m => m.length < 2 ^ 64, True, k12Short, fun _ => True⟩ := by
  refine Proofs.xofConforms (c := Model.K12.k12 b R) ((Proofs.K12.refines b R hb hR).mono rfl rfl
    (fun _ _ _ _ _ h => ⟨h, rfl⟩) id fun p h => by cases p; exact h) ?_
  intro mem hm
  obtain ⟨s', e, r⟩ := Proofs.K12.init_ok (Proofs.K12.par b R hb hR) [] (by simp) (Model.K12.new mem)
    ⟨hm.1, rfl, hm.2.1, rfl, rfl, hm.2.2, rfl, rfl⟩
  exact ⟨_, s', rfl, e, r⟩

/-- **C10.** `k12` (= `kt128`) computes KT128, for messages of fewer than `2^64` bytes. -/
theorem k12_conforms : XofConforms (Model.K12.k12 128 12) (Spec.k12 128 12) ⟨fun _ m => m.length < 2 ^ 64, True, k12Short, fun _ => True⟩ :=
  k12_general 128 12 (.inl rfl) (by decide)

/-- **C10.** `kt256` computes KT256. -/
theorem kt256_conforms : XofConforms (Model.K12.k12 256 12) (Spec.k12 256 12) ⟨fun _ m => m.length < 2 ^ 64, True, k12Short, fun _ => True⟩ :=
  k12_general 256 12 (.inr rfl) (by decide)

/-- **C10.** `m14` computes MarsupilamiFourteen. -/
theorem m14_conforms : XofConforms (Model.K12.k12 256 14) (Spec.k12 256 14) ⟨fun _ m => m.length < 2 ^ 64, True, k12Short, fun _ => True⟩ :=
  k12_general 256 14 (.inr rfl) (by decide)

/-! The hypotheses can be met; the value is that of RFC 9861 for the message ptn(1) = 00 and no customization (the one set first is
removed by `reset(true)`). -/

def k12Mem : Blk Model.K12.St :=
  ⟨⟨⟨⟨[], [1], [2], true, 3⟩, List.replicate 168 0xaa, 17, 99⟩, ⟨⟨[], [1], [2], true, 3⟩, List.replicate 168 0xaa, 17, 99⟩, [5], 8, true⟩,
    List.replicate 8192 0xbb, 17, 99⟩
def k12Ops : List (XofOp CustomizationParam) := [.set (.customization [0]), .reset true, .absorb (.ptr [0]), .hexsqueeze 5, .hexsqueeze 27]

example : (Model.K12.k12 128 12).Mem k12Mem := ⟨List.length_replicate, rfl, rfl⟩
example : (Spec.k12 128 12).Covered ⟨fun _ m => m.length < 2 ^ 64, True, k12Short, fun _ => True⟩ k12Ops (Spec.k12 128 12).new :=
  ⟨show 1 < 2 ^ 61 by decide, fun _ => trivial, ⟨show 1 < 2 ^ 63 by decide, rfl⟩,
    ⟨show 1 < 2 ^ 64 by decide, show 0 < 5 by decide, show 5 < 2 ^ 61 by decide, trivial⟩,
    ⟨show 1 < 2 ^ 64 by decide, show 0 < 27 by decide, show 27 < 2 ^ 61 by decide, trivial⟩, trivial⟩
example : (Model.K12.k12 128 12).trial k12Mem k12Ops = some [.done, .done, .done, .text "2bda92450e".toList,
    .text "8b147f8a7cb629e784a058efca7cf7d8218e02d345dfaa65244a1f".toList] := by decide +kernel

end Digestpp.Properties
