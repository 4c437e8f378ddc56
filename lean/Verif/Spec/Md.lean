import Verif.Spec.Blocks
import Verif.Spec.Words
import Verif.Spec.Api

/-! Merkle–Damgård padding. -/

namespace Digestpp.Spec

/-- The least number of bytes that completes `n` bytes to a multiple of `bs`. -/
def toMultiple (bs n : Nat) : Nat := (bs - n % bs) % bs

/-- Message, a one bit, the least number of zeros so that all of it is a multiple of the block size, length field. -/
def mdPad (bs : Nat) (lenField : Bytes) (msg : Bytes) : Bytes :=
  msg ++ [0x80] ++ List.replicate (toMultiple bs (msg.length + 1 + lenField.length)) 0 ++ lenField

/-- What a 64-bit counter says after `n` bytes, if it counts bits. -/
def bits64 (n : Nat) : Nat := 8 * n % 2 ^ 64

/-- The low 64 bits of a bit count. -/
def wrap64 (n : Nat) : Nat := n % 2 ^ 64

/-- A hash function without parameters. -/
def plainFn (size : Nat) (digest : Bytes → Bytes) : HashFn Empty Unit where
  size := size
  dflt := ()
  set := nofun
  digest := fun _ => digest

end Digestpp.Spec
