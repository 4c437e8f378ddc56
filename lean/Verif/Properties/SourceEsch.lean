import Verif.Properties.Source
import Verif.Proofs.Cpp.EschRun

/-! C71 for Esch. -/

namespace Digestpp.Properties
open Cpp

/-- **C71**, esch_provider.hpp for Esch256: `final` leaves the digest in the buffer. -/
theorem esch256_source {N : Nat} {parts : List Bytes} (h : Parts N parts) {out : Bytes} (ho : out.length = 32) (pos total : BitVec 64) (squeezing : Bool) (m : Bytes) (H M : List (BitVec 32))
    (hm : m.length = 128) (hH : H.length = 16) (hM : M.length = 4) :
    EschCalls.run 512 256 false N parts [out] ⟨[.u64 pos, .u64 total, .bool squeezing], [.a8 m, .a32 H, .a32 M]⟩ = some [(Spec.Esch.esch Spec.Esch.f256 32).digest () parts.flatten] := by
  have hr := h.rounds
  refine (Esch.run_source (rl := 4) (.inl ⟨rfl, rfl, rfl⟩) false (.inr rfl) rfl hr h.short h.steps ?_ hm hH hM).trans ?_
  · intro o h
    obtain rfl := List.mem_singleton.1 h
    omega
  · show some [Spec.slice _ 0 out.length] = some [Spec.slice _ 0 32]
    rw [ho]
    rfl

/-- **C71** for Esch384. -/
theorem esch384_source {N : Nat} {parts : List Bytes} (h : Parts N parts) {out : Bytes} (ho : out.length = 48) (pos total : BitVec 64) (squeezing : Bool) (m : Bytes) (H M : List (BitVec 32))
    (hm : m.length = 128) (hH : H.length = 16) (hM : M.length = 4) :
    EschCalls.run 512 384 false N parts [out] ⟨[.u64 pos, .u64 total, .bool squeezing], [.a8 m, .a32 H, .a32 M]⟩ = some [(Spec.Esch.esch Spec.Esch.f384 48).digest () parts.flatten] := by
  have hr := h.rounds
  refine (Esch.run_source (rl := 0) (.inr ⟨rfl, rfl, rfl⟩) false (.inr rfl) rfl hr h.short h.steps ?_ hm hH hM).trans ?_
  · intro o h
    obtain rfl := List.mem_singleton.1 h
    omega
  · show some [Spec.slice _ 0 out.length] = some [Spec.slice _ 0 48]
    rw [ho]
    rfl

/-- **C71** for XOEsch256: any number of `squeeze` calls with buffers that are not empty get consecutive pieces of the output. -/
theorem esch256_xof_source {N : Nat} {parts outs : List Bytes} (h : Parts N parts) (ho : ∀ o ∈ outs, o ≠ [] ∧ o.length < N ∧ o.length < 2 ^ 64) (pos total : BitVec 64) (squeezing : Bool) (m : Bytes)
    (H M : List (BitVec 32)) (hm : m.length = 128) (hH : H.length = 12) (hM : M.length = 4) :
    EschCalls.run 384 256 true N parts outs ⟨[.u64 pos, .u64 total, .bool squeezing], [.a8 m, .a32 H, .a32 M]⟩ =
      some (Spec.pieces ((Spec.Esch.eschXof Spec.Esch.f256).stream () parts.flatten) 0 (outs.map List.length)) :=
  Esch.run_source (rl := 0) (.inl ⟨rfl, rfl, rfl⟩) true (.inl rfl) rfl h.rounds h.short h.steps (fun o h => ⟨List.length_pos_iff.2 (ho o h).1, (ho o h).2⟩) hm hH hM

/-- **C71** for XOEsch384. -/
theorem esch384_xof_source {N : Nat} {parts outs : List Bytes} (h : Parts N parts) (ho : ∀ o ∈ outs, o ≠ [] ∧ o.length < N ∧ o.length < 2 ^ 64) (pos total : BitVec 64) (squeezing : Bool) (m : Bytes)
    (H M : List (BitVec 32)) (hm : m.length = 128) (hH : H.length = 16) (hM : M.length = 4) :
    EschCalls.run 512 384 true N parts outs ⟨[.u64 pos, .u64 total, .bool squeezing], [.a8 m, .a32 H, .a32 M]⟩ =
      some (Spec.pieces ((Spec.Esch.eschXof Spec.Esch.f384).stream () parts.flatten) 0 (outs.map List.length)) :=
  Esch.run_source (rl := 0) (.inr ⟨rfl, rfl, rfl⟩) true (.inr rfl) rfl h.rounds h.short h.steps (fun o h => ⟨List.length_pos_iff.2 (ho o h).1, (ho o h).2⟩) hm hH hM

/-- An object and a stack with any contents. -/
private def used (n : Nat) : Env := ⟨[.u64 7, .u64 9, .bool true], [.a8 (List.replicate 128 3), .a32 (List.replicate (n / 32) 1), .a32 (List.replicate 4 1)]⟩

/-- The first known answer for Esch256: the empty message. -/
example : (EschCalls.run 512 256 false 100 [] [List.replicate 32 0] (used 512)).map (·.map (·.take 8)) = some [[0xc0, 0xe8, 0x15, 0xd7, 0x8b, 0x87, 0x5d, 0xc7]] := by decide +kernel

/-- A message of nineteen bytes in three calls, seventeen and two bytes taken: the hypotheses hold. -/
example : EschCalls.run 512 384 true 100 [List.replicate 16 5, [], [1, 2, 3]] [List.replicate 17 0, List.replicate 2 0] (used 512) =
    some (Spec.pieces ((Spec.Esch.eschXof Spec.Esch.f384).stream () (List.replicate 16 5 ++ [1, 2, 3])) 0 [17, 2]) :=
  esch384_xof_source ⟨by decide, by decide, by decide⟩ (by decide) 7 9 true _ _ _ rfl rfl rfl

/-- With twelve words in `H` the text for 384 bits has no meaning. -/
example : EschCalls.run 384 384 false 100 [] [List.replicate 48 0] (used 384) = none := by decide +kernel

end Digestpp.Properties
