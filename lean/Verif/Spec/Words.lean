import Verif.Vocab

/-! Integers as byte strings. -/

namespace Digestpp.Spec

/-- The number a byte string denotes, least significant byte first. -/
def leNat : Bytes → Nat
  | [] => 0
  | b :: bs => b.toNat + 256 * leNat bs

/-- The number a byte string denotes, most significant byte first. -/
def beNat (b : Bytes) : Nat := leNat b.reverse

/-- The `n`-byte little-endian representation of `x` (modulo `256^n`). -/
def leBytes (n x : Nat) : Bytes := (List.range n).map fun i => BitVec.ofNat 8 (x / 256 ^ i)

/-- The `n`-byte big-endian representation of `x` (modulo `256^n`). -/
def beBytes (n x : Nat) : Bytes := (leBytes n x).reverse

/-- The consecutive `w`-bit little-endian words of a byte string. -/
def leWords (w : Nat) (b : Bytes) : List (BitVec w) :=
  (List.range (b.length / (w / 8))).map fun i => BitVec.ofNat w (leNat ((b.drop (i * (w / 8))).take (w / 8)))

/-- The consecutive `w`-bit big-endian words of a byte string. -/
def beWords (w : Nat) (b : Bytes) : List (BitVec w) :=
  (List.range (b.length / (w / 8))).map fun i => BitVec.ofNat w (beNat ((b.drop (i * (w / 8))).take (w / 8)))

/-- Words to bytes, each least significant byte first. -/
def ofLeWords {w : Nat} (l : List (BitVec w)) : Bytes := l.flatMap fun x => leBytes (w / 8) x.toNat

/-- Words to bytes, each most significant byte first. -/
def ofBeWords {w : Nat} (l : List (BitVec w)) : Bytes := l.flatMap fun x => beBytes (w / 8) x.toNat

end Digestpp.Spec
