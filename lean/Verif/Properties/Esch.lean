import Verif.Model.Esch
import Verif.Spec.Esch
import Verif.Proofs.Esch
import Verif.Proofs.Conforms
import Verif.Proofs.Validate

/-! C24: Esch. -/

namespace Digestpp.Properties
open Model Spec
open Spec.Esch (f256 f384)

private theorem sized256 : Proofs.Esch.Sized f256 6 256 := .inl ⟨rfl, rfl, rfl⟩
private theorem sized384 : Proofs.Esch.Sized f384 8 384 := .inr ⟨rfl, rfl, rfl⟩

private theorem esch_ctor {F : Spec.Esch.Family} {nb hs rl : Nat} (hF : Proofs.Esch.Sized F nb hs) (hl : 2 * nb + rl = 16)
    (mem : Blk Model.Esch.St) (hm : Model.Esch.Mem 512 mem) :
    ∃ s', Model.Esch.init { mem with h := { mem.h with hs := hs, squeezing := false } } = .ok s' ∧ Proofs.Esch.Absorbing nb hs rl [] s' :=
  Proofs.Esch.init_ok hF rl _ hm.2 (by rw [hl]; exact hm.1) rfl

private theorem esch_hash {F : Spec.Esch.Family} {nb hs rl : Nat} (hF : Proofs.Esch.Sized F nb hs) (hl : 2 * nb + rl = 16) :
    HashConforms (Model.Esch.esch hs) (Spec.Esch.esch F (hs / 8)) (Cover.all Empty) := by
  refine Proofs.hashConforms (c := Model.Esch.esch hs) (Proofs.Esch.refines hF rl) ?_
  intro mem hm
  obtain ⟨s', e, r⟩ := esch_ctor hF hl mem hm
  refine ⟨_, s', ?_, e, r⟩
  show (pure (Model.Esch.new hs mem) : M _) = _
  unfold Model.Esch.new
  rw [if_pos (by obtain ⟨_, _, rfl⟩ | ⟨_, _, rfl⟩ := hF <;> rfl)]
  rfl

private theorem esch_static {F : Spec.Esch.Family} {nb hs rl : Nat} (hF : Proofs.Esch.Sized F nb hs) (hl : 2 * nb + rl = 16) :
    HashConforms (Model.Esch.eschStatic hs) (Spec.Esch.esch F (hs / 8)) (Cover.all Empty) := by
  refine Proofs.hashConforms (c := Model.Esch.eschStatic hs) (Proofs.Esch.refines hF rl) ?_
  intro mem hm
  obtain ⟨s', e, r⟩ := esch_ctor hF hl mem hm
  exact ⟨_, s', rfl, e, r⟩

/-- **C24.** `esch(256)` computes Esch256, for messages of any length. -/
theorem esch256_conforms : HashConforms (Model.Esch.esch 256) (Spec.Esch.esch f256 32) (Cover.all Empty) :=
  esch_hash (rl := 4) sized256 rfl

/-- **C24.** `esch(384)` computes Esch384. -/
theorem esch384_conforms : HashConforms (Model.Esch.esch 384) (Spec.Esch.esch f384 48) (Cover.all Empty) :=
  esch_hash (rl := 0) sized384 rfl

/-- **C24.** `static_size::esch<256>` computes Esch256. -/
theorem esch256_static_conforms : HashConforms (Model.Esch.eschStatic 256) (Spec.Esch.esch f256 32) (Cover.all Empty) :=
  esch_static (rl := 4) sized256 rfl

/-- **C24.** `static_size::esch<384>` computes Esch384. -/
theorem esch384_static_conforms : HashConforms (Model.Esch.eschStatic 384) (Spec.Esch.esch f384 48) (Cover.all Empty) :=
  esch_static (rl := 0) sized384 rfl

/-- **C24.** `esch256_xof` computes XOEsch256, for messages and outputs of any length. -/
theorem esch256_xof_conforms : XofConforms (Model.Esch.eschXof 384) (Spec.Esch.eschXof f256) (Cover.all Empty) := by
  refine Proofs.xofConforms (c := Model.Esch.eschXof 384) (Proofs.Esch.refines_xof sized256 0) ?_
  intro mem hm
  obtain ⟨s', e, r⟩ := Proofs.Esch.init_ok sized256 0 { mem with h := { mem.h with hs := 384 - 128, squeezing := false } } hm.2 hm.1 rfl
  exact ⟨_, s', rfl, e, r.rx⟩

/-- **C24.** `esch384_xof` computes XOEsch384. -/
theorem esch384_xof_conforms : XofConforms (Model.Esch.eschXof 512) (Spec.Esch.eschXof f384) (Cover.all Empty) := by
  refine Proofs.xofConforms (c := Model.Esch.eschXof 512) (Proofs.Esch.refines_xof sized384 0) ?_
  intro mem hm
  obtain ⟨s', e, r⟩ := Proofs.Esch.init_ok sized384 0 { mem with h := { mem.h with hs := 512 - 128, squeezing := false } } hm.2 hm.1 rfl
  exact ⟨_, s', rfl, e, r.rx⟩

/-! The hypotheses can be met; the values are from the published test vectors: messages 00 … 0f (a whole block) and 00 … 11. -/

def eschMem : Blk Model.Esch.St := ⟨⟨List.replicate 16 7, 5, true⟩, List.replicate 128 0xaa, 17, 99⟩
def eschMsg (n : Nat) : Bytes := (List.range n).map (BitVec.ofNat 8)
def eschOps (n : Nat) : List (HashOp Empty) := [.absorb (.str [0]), .absorb (.iter ((eschMsg n).drop 1)), .hexdigest]

example : (Model.Esch.esch 256).Mem eschMem := ⟨rfl, rfl⟩
example : (Spec.Esch.esch f256 32).Covered (Cover.all Empty) (eschOps 18) (Spec.Esch.esch f256 32).new :=
  ⟨show 1 < 2 ^ 63 by decide, trivial, trivial, trivial⟩
example : (Model.Esch.esch 256).trial eschMem (eschOps 16) = some [.done, .done,
    .text "acff841e2a526d83d6e94ab5564d6d64c98f5e8016bb1c2950386ed156c6c174".toList] := by decide +kernel
example : (Model.Esch.eschStatic 256).trial eschMem (eschOps 17) = some [.done, .done,
    .text "e6bf73941a7417fefd2dd5882ffcbfaea22b4c131ef155943fc817f61ad05b85".toList] := by decide +kernel
example : (Model.Esch.esch 384).trial eschMem (eschOps 18) = some [.done, .done,
    .text "f9588ab0afc2b4f4c32a73db6fdd6a496b05e609e18f19797ddaccaae4a8c3035b129686020ae3b583d4e1a2629c08f9".toList] := by
  decide +kernel

def eschXofMem : Blk Model.Esch.St := ⟨⟨List.replicate 12 7, 5, true⟩, List.replicate 128 0xaa, 17, 99⟩
def eschXofOps : List (XofOp Empty) := [.absorb (.str [0]), .hexsqueeze 5, .hexsqueeze 30]
example : (Model.Esch.eschXof 384).Mem eschXofMem := ⟨rfl, rfl⟩
example : (Spec.Esch.eschXof f256).Covered (Cover.all Empty) eschXofOps (Spec.Esch.eschXof f256).new :=
  ⟨⟨show 1 < 2 ^ 63 by decide, rfl⟩, ⟨trivial, show 0 < 5 by decide, show 5 < 2 ^ 61 by decide, trivial⟩,
    ⟨trivial, show 0 < 30 by decide, show 30 < 2 ^ 61 by decide, trivial⟩, trivial⟩
example : (Model.Esch.eschXof 384).trial eschXofMem eschXofOps = some [.done, .text "d5534743eb".toList,
    .text "af76122d21e5bc5b0ff410d1d41bb05a4cc0b64185beb092286f356e0769".toList] := by decide +kernel

end Digestpp.Properties
