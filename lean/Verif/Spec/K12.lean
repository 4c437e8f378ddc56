import Verif.Spec.Sp800185

/-! TurboSHAKE, KT128 (KangarooTwelve), KT256 from RFC 9861, and MarsupilamiFourteen, which differs from KT256 only in the number
of rounds. -/

namespace Digestpp.Spec
namespace K12
open Keccak

/-- Section 2: TurboSHAKE with `r` bytes of rate; `R = 12`. -/
def turbo (R r : Nat) (D : Byte) (msg : Bytes) : Nat → Byte := squeeze R r (absorb R r (padD r D msg))

/-- Section 3.3: length_encode. -/
def lengthEncode (x : Nat) : Bytes :=
  let n := if x = 0 then 0 else byteCount x
  beBytes n x ++ [BitVec.ofNat 8 n]

/-- Section 3.2: chunk number `i` of 8192 bytes (the last may be shorter). -/
def piece (i : Nat) (S : Bytes) : Bytes := blockAt 8192 i S

/-- Section 3.2: the number of chunks. -/
def count (S : Bytes) : Nat := (S.length + 8191) / 8192

/-- Section 3.2: CV_i, of `c` bytes. -/
def cv (R r c : Nat) (S : Bytes) (i : Nat) : Bytes := slice (turbo R r 0x0b (piece i S)) 0 c

/-- Section 3.2: FinalNode for more than one chunk. -/
def finalNode (R r c : Nat) (S : Bytes) : Bytes :=
  piece 0 S ++ [3, 0, 0, 0, 0, 0, 0, 0] ++ ((List.range (count S - 1)).map fun i => cv R r c S (i + 1)).flatten ++
    lengthEncode (count S - 1) ++ [0xff, 0xff]

/-- Section 3.2: the output for the string `S`. -/
def tree (R r c : Nat) (S : Bytes) : Nat → Byte :=
  if S.length ≤ 8192 then turbo R r 0x07 S else turbo R r 0x06 (finalNode R r c S)

/-- Section 3.2: message and customization. -/
def stream (R r c : Nat) (C msg : Bytes) : Nat → Byte := tree R r c (msg ++ C ++ lengthEncode C.length)

end K12

/-- KT128 (`b = 128`, `R = 12`), KT256 (256, 12), MarsupilamiFourteen (256, 14). The parameter is the customization. -/
def k12 (b R : Nat) : XofFn CustomizationParam Bytes where
  dflt := []
  set := fun p _ => match p with
    | .customization v => some v
  stream := K12.stream R (200 - 2 * b / 8) (b / 4)

end Digestpp.Spec
