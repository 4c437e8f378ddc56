import Verif.Properties.Source
import Verif.Proofs.Cpp.AsconRun

/-! C71 for Ascon. -/

namespace Digestpp.Properties
open Cpp

/-- **C71**, ascon_provider.hpp for Ascon-Hash256: `final` leaves the digest in the buffer. -/
theorem ascon_hash_source {N : Nat} {parts : List Bytes} (h : Parts N parts) {out : Bytes} (ho : out.length = 32) (pos total z0 : BitVec 64) (squeezing : Bool) (m : Bytes) (H : List (BitVec 64))
    (hm : m.length = 64) (hH : H.length = 5) :
    AsconCalls.run 0 N [] z0 parts [out] ⟨[.u64 pos, .u64 total, .bool squeezing], [.a8 m, .a64 H]⟩ = some [Spec.Ascon.hash256.digest () parts.flatten] := by
  have hr := h.rounds
  refine (Ascon.run_source .hash hr h.short h.steps ?_ (by show 0 < _; omega) (by show 0 < _; omega) hm hH).trans ?_
  · intro o h
    obtain rfl := List.mem_singleton.1 h
    omega
  · show some [Spec.slice _ 0 out.length] = some [Spec.slice _ 0 32]
    rw [ho]
    rfl

/-- **C71** for Ascon-XOF128: any number of `squeeze` calls with buffers that are not empty get consecutive pieces of the output. -/
theorem ascon_xof_source {N : Nat} {parts outs : List Bytes} (h : Parts N parts) (ho : ∀ o ∈ outs, o ≠ [] ∧ o.length < N ∧ o.length < 2 ^ 64) (pos total z0 : BitVec 64) (squeezing : Bool) (m : Bytes)
    (H : List (BitVec 64)) (hm : m.length = 64) (hH : H.length = 5) :
    AsconCalls.run 1 N [] z0 parts outs ⟨[.u64 pos, .u64 total, .bool squeezing], [.a8 m, .a64 H]⟩ =
      some (Spec.pieces (Spec.Ascon.xof128.stream () parts.flatten) 0 (outs.map List.length)) := by
  have hr := h.rounds
  rw [Proofs.Ascon.stream_xof]
  exact Ascon.run_source .xof hr h.short h.steps (fun o h => ⟨List.length_pos_iff.2 (ho o h).1, (ho o h).2⟩) (by show 0 < _; omega) (by show 0 < _; omega) hm hH

/-- **C71** for Ascon-CXOF128 with any customization string below 2^61 bytes, the empty one included. -/
theorem ascon_cxof_source {N : Nat} {parts outs : List Bytes} (h : Parts N parts) (ho : ∀ o ∈ outs, o ≠ [] ∧ o.length < N ∧ o.length < 2 ^ 64) {Z : Bytes} (hZ : Z.length < 2 ^ 61 ∧ Z.length < N)
    (pos total z0 : BitVec 64) (squeezing : Bool) (m : Bytes) (H : List (BitVec 64)) (hm : m.length = 64) (hH : H.length = 5) :
    AsconCalls.run 2 N Z z0 parts outs ⟨[.u64 pos, .u64 total, .bool squeezing], [.a8 m, .a64 H]⟩ =
      some (Spec.pieces (Spec.Ascon.cxof128.stream Z parts.flatten) 0 (outs.map List.length)) := by
  rw [Proofs.Ascon.stream_cxof]
  exact Ascon.run_source .cxof h.rounds h.short h.steps (fun o h => ⟨List.length_pos_iff.2 (ho o h).1, (ho o h).2⟩) hZ.1 hZ.2 hm hH

/-- An object and a stack with any contents. -/
private def used : Env := ⟨[.u64 7, .u64 9, .bool true], [.a8 (List.replicate 64 3), .a64 (List.replicate 5 1)]⟩

/-- The first known answer for Ascon-Hash256: the empty message. -/
example : (AsconCalls.run 0 100 [] 4 [] [List.replicate 32 0] used).map (·.map (·.take 8)) = some [[0x0b, 0x3b, 0xe5, 0x85, 0x0f, 0x2f, 0x6b, 0x98]] := by decide +kernel

/-- The first known answer for Ascon-XOF128, in two pieces. -/
example : AsconCalls.run 1 100 [] 4 [[]] [List.replicate 3 0, List.replicate 5 0] used = some [[0x47, 0x3d, 0x5e], [0x61, 0x64, 0xf5, 0x8b, 0x39]] := by decide +kernel

/-- The first known answer for Ascon-CXOF128. -/
example : AsconCalls.run 2 100 [] 4 [] [List.replicate 8 0] used = some [[0x4f, 0x50, 0x15, 0x9e, 0xf7, 0x0b, 0xb3, 0xda]] := by decide +kernel

/-- With a customization string and a message in three calls, nine and two bytes taken: the hypotheses hold. -/
example : AsconCalls.run 2 100 (ascii "custom") 4 [[1, 2, 3], [], [4, 5, 6, 7, 8, 9, 10]] [List.replicate 9 0, List.replicate 2 0] used =
    some (Spec.pieces (Spec.Ascon.cxof128.stream (ascii "custom") [1, 2, 3, 4, 5, 6, 7, 8, 9, 10]) 0 [9, 2]) :=
  ascon_cxof_source ⟨by decide, by decide, by decide⟩ (by decide) (by decide +kernel) 7 9 4 true _ _ rfl rfl

/-- With four words in `H` the text has no meaning. -/
example : AsconCalls.run 0 100 [] 4 [] [List.replicate 32 0] ⟨[.u64 7, .u64 9, .bool true], [.a8 (List.replicate 64 3), .a64 (List.replicate 4 1)]⟩ = none := by decide +kernel

end Digestpp.Properties
