import Verif.Properties.Source
import Verif.Proofs.Cpp.Kmac

/-! C71 for KMAC. -/

namespace Digestpp.Properties
open Cpp

/-- The key as `set_key` leaves it in the member `K` (kmac_provider.hpp 18-32, 71-74). -/
def keyOf (B : Nat) (key : Bytes) : Bytes := Spec.Keccak.bytepad (Spec.Keccak.encodeString key) (200 - 2 * B / 8)

/-- **C71**, kmac_provider.hpp and shake_provider.hpp for KMAC128 and KMAC256 with `8 * k` bits of output: `final` leaves the code of the message in the buffer, with the same blocks of
zeros as in C08. -/
theorem kmac_source {B : Nat} (hB : B = 128 ∨ B = 256) {N : Nat} (hN : 168 < N) {parts : List Bytes} (h : Parts N parts) {out : Bytes} (h0 : out ≠ []) (hout : out.length < 2 ^ 61 ∧ out.length < N)
    (θ : Spec.KmacParams) (hk : θ.K.length < 2 ^ 61 ∧ (keyOf B θ.K).length < N) (hs : θ.S.length < 2 ^ 61 ∧ θ.S.length < N) (pos total : BitVec 64) (squeezing : Bool) (suffix : BitVec 8)
    (big buf m : Bytes) (A C D : List (BitVec 64)) (hbig : big.length = 1024) (hbuf : buf.length = 32) (hm : m.length = 168) (hA : A.length = 25) (hC : C.length = 5) (hD : D.length = 5) :
    Mac.run (1600 - 2 * B) N false ⟨ascii "KMAC", θ.S, big⟩ (keyOf B θ.K) buf parts [out]
        ⟨[.u64 pos, .u64 total, .bool squeezing, .u8 suffix, .bool false, .bool θ.S.isEmpty], [.a8 m, .a64 A, .a64 C, .a64 D]⟩ =
      some [(Spec.kmacFull B (8 * out.length)).digest θ parts.flatten] := by
  have hl : out.length = 8 * out.length / 8 := by omega
  refine (Kmac.run_source (L := 8 * out.length) hB hN h.short h.steps ?_ ?_ hk.1 hs.1 hk.2 hs.2 hbig hbuf hm hA hC hD).trans ?_
  · intro o ho
    obtain rfl := List.mem_singleton.1 ho
    exact ⟨List.length_pos_iff.2 h0, hout.2, hout.1⟩
  · intro o ho
    obtain rfl := Option.mem_some.1 ho
    rfl
  · show some [Spec.slice _ 0 out.length] = some [Spec.slice _ 0 (8 * out.length / 8)]
    rw [← hl]

/-- **C71** for KMACXOF128 and KMACXOF256: any number of `squeeze` calls with buffers that are not empty get consecutive pieces of the output. -/
theorem kmac_xof_source {B : Nat} (hB : B = 128 ∨ B = 256) {N : Nat} (hN : 168 < N) {parts outs : List Bytes} (h : Parts N parts) (ho : ∀ o ∈ outs, o ≠ [] ∧ o.length < 2 ^ 61 ∧ o.length < N)
    (θ : Spec.KmacParams) (hk : θ.K.length < 2 ^ 61 ∧ (keyOf B θ.K).length < N) (hs : θ.S.length < 2 ^ 61 ∧ θ.S.length < N) (pos total : BitVec 64) (squeezing : Bool) (suffix : BitVec 8)
    (big buf m : Bytes) (A C D : List (BitVec 64)) (hbig : big.length = 1024) (hbuf : buf.length = 32) (hm : m.length = 168) (hA : A.length = 25) (hC : C.length = 5) (hD : D.length = 5) :
    Mac.run (1600 - 2 * B) N true ⟨ascii "KMAC", θ.S, big⟩ (keyOf B θ.K) buf parts outs
        ⟨[.u64 pos, .u64 total, .bool squeezing, .u8 suffix, .bool false, .bool θ.S.isEmpty], [.a8 m, .a64 A, .a64 C, .a64 D]⟩ =
      some (Spec.pieces ((Spec.kmacXofFull B).stream θ parts.flatten) 0 (outs.map List.length)) :=
  Kmac.run_source (L := 0) hB hN h.short h.steps (fun o h => ⟨List.length_pos_iff.2 (ho o h).1, (ho o h).2.2, (ho o h).2.1⟩) (fun _ _ => rfl) hk.1 hs.1 hk.2 hs.2 hbig hbuf hm hA hC hD

private theorem kmac_regular {B : Nat} (hB : B = 128 ∨ B = 256) (L : Nat) (θ : Spec.KmacParams) (hr : Spec.Keccak.cshakeRegular (200 - 2 * B / 8) ⟨ascii "KMAC", θ.S⟩) (msg : Bytes) :
    (Spec.kmacFull B L).digest θ msg = (Spec.kmac B L).digest θ msg ∧ (Spec.kmacXofFull B).stream θ msg = (Spec.kmacXof B).stream θ msg := by
  have e : ∀ L, Spec.kmacStream (Spec.Keccak.cshakeFullStream (200 - 2 * B / 8)) (200 - 2 * B / 8) L θ msg = Spec.kmacStream (Spec.Keccak.cshakeStream (200 - 2 * B / 8)) (200 - 2 * B / 8) L θ msg := by
    intro L
    unfold Spec.kmacStream
    rw [Proofs.Shake.stream_regular _ (by omega) _ hr]
  exact ⟨congrArg (Spec.slice · 0 (L / 8)) (e L), e 0⟩

/-- Hence the KMAC of SP 800-185 if the encoding of "KMAC" and the customization does not end with a block. -/
theorem kmac_source_regular {B : Nat} (hB : B = 128 ∨ B = 256) {N : Nat} (hN : 168 < N) {parts : List Bytes} (h : Parts N parts) {out : Bytes} (h0 : out ≠ []) (hout : out.length < 2 ^ 61 ∧ out.length < N)
    (θ : Spec.KmacParams) (hr : Spec.Keccak.cshakeRegular (200 - 2 * B / 8) ⟨ascii "KMAC", θ.S⟩) (hk : θ.K.length < 2 ^ 61 ∧ (keyOf B θ.K).length < N) (hs : θ.S.length < 2 ^ 61 ∧ θ.S.length < N)
    (pos total : BitVec 64) (squeezing : Bool) (suffix : BitVec 8) (big buf m : Bytes) (A C D : List (BitVec 64)) (hbig : big.length = 1024) (hbuf : buf.length = 32) (hm : m.length = 168)
    (hA : A.length = 25) (hC : C.length = 5) (hD : D.length = 5) :
    Mac.run (1600 - 2 * B) N false ⟨ascii "KMAC", θ.S, big⟩ (keyOf B θ.K) buf parts [out]
        ⟨[.u64 pos, .u64 total, .bool squeezing, .u8 suffix, .bool false, .bool θ.S.isEmpty], [.a8 m, .a64 A, .a64 C, .a64 D]⟩ =
      some [(Spec.kmac B (8 * out.length)).digest θ parts.flatten] := by
  rw [← (kmac_regular hB _ θ hr _).1]
  exact kmac_source hB hN h h0 hout θ hk hs pos total squeezing suffix big buf m A C D hbig hbuf hm hA hC hD

/-- And the KMACXOF. -/
theorem kmac_xof_source_regular {B : Nat} (hB : B = 128 ∨ B = 256) {N : Nat} (hN : 168 < N) {parts outs : List Bytes} (h : Parts N parts)
    (ho : ∀ o ∈ outs, o ≠ [] ∧ o.length < 2 ^ 61 ∧ o.length < N)
    (θ : Spec.KmacParams) (hr : Spec.Keccak.cshakeRegular (200 - 2 * B / 8) ⟨ascii "KMAC", θ.S⟩) (hk : θ.K.length < 2 ^ 61 ∧ (keyOf B θ.K).length < N) (hs : θ.S.length < 2 ^ 61 ∧ θ.S.length < N)
    (pos total : BitVec 64) (squeezing : Bool) (suffix : BitVec 8) (big buf m : Bytes) (A C D : List (BitVec 64)) (hbig : big.length = 1024) (hbuf : buf.length = 32) (hm : m.length = 168)
    (hA : A.length = 25) (hC : C.length = 5) (hD : D.length = 5) :
    Mac.run (1600 - 2 * B) N true ⟨ascii "KMAC", θ.S, big⟩ (keyOf B θ.K) buf parts outs
        ⟨[.u64 pos, .u64 total, .bool squeezing, .u8 suffix, .bool false, .bool θ.S.isEmpty], [.a8 m, .a64 A, .a64 C, .a64 D]⟩ =
      some (Spec.pieces ((Spec.kmacXof B).stream θ parts.flatten) 0 (outs.map List.length)) := by
  rw [← (kmac_regular hB 0 θ hr _).2]
  exact kmac_xof_source hB hN h ho θ hk hs pos total squeezing suffix big buf m A C D hbig hbuf hm hA hC hD

/-- The first sample of NIST for KMAC128: the key 0x40 to 0x5f, the bytes 0 to 3, no customization, 32 bytes. -/
example : (Mac.run 1344 400 false ⟨ascii "KMAC", [], List.replicate 1024 7⟩ (keyOf 128 ((List.range 32).map fun i => BitVec.ofNat 8 (0x40 + i))) (List.replicate 32 5) [[0, 1], [2, 3]]
    [List.replicate 32 0]
    ⟨[.u64 7, .u64 9, .bool true, .u8 3, .bool false, .bool true],
      [.a8 (List.replicate 168 3), .a64 (List.replicate 25 1), .a64 (List.replicate 5 2), .a64 (List.replicate 5 3)]⟩).map (·.map (·.take 8)) =
    some [[0xe5, 0x78, 0x0b, 0x0d, 0x3e, 0xa6, 0xf7, 0xd3]] := by decide +kernel

/-- Its parameters are regular. -/
example : Spec.Keccak.cshakeRegular (200 - 2 * 128 / 8) ⟨ascii "KMAC", []⟩ := by unfold Spec.Keccak.cshakeRegular; decide +kernel

/-- A local array `buf` with one byte is too short. -/
example : Mac.squeeze 1344 400 false [5] false
    ⟨[.u64 7, .u64 9, .bool false, .u8 0, .bool false, .bool true],
      [.a8 (List.replicate 168 3), .a64 (List.replicate 25 1), .a64 (List.replicate 5 2), .a64 (List.replicate 5 3)]⟩ (List.replicate 32 0) = none := by decide +kernel

end Digestpp.Properties
