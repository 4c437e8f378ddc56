import Verif.Spec.K12

/-! The strings that cSHAKE and KMAC, as the code has them, give to the sponge: padded, so that they are cut into blocks of `r` bytes
without a remainder. -/

namespace Digestpp.Spec
open Keccak

/-- The output of the sponge of 24 rounds for a padded string. -/
def spongeStream (r : Nat) (P : Bytes) : Nat → Byte := squeeze 24 r (absorb 24 r P)

/-- cSHAKE: an encoding of function name and customization, if there is one, and the message. -/
def cshakeInput (r : Nat) (θ : CShakeParams) (msg : Bytes) : Bytes :=
  if θ.N = [] ∧ θ.S = [] then padded r [true, true, true, true] msg
  else padded r [false, false] (bytepadFull (encodeString θ.N ++ encodeString θ.S) r ++ msg)

/-- KMAC with `L` bits of output, or `L = 0` for KMACXOF: an encoding of the customization, one of the key, the message, an encoding of
the length. -/
def kmacInput (r L : Nat) (θ : KmacParams) (msg : Bytes) : Bytes :=
  padded r [false, false] (bytepadFull (encodeString (ascii "KMAC") ++ encodeString θ.S) r ++
    (bytepad (encodeString θ.K) r ++ msg ++ rightEncode L))

end Digestpp.Spec
