import Verif.Spec.Md5
import Verif.Spec.Sha1
import Verif.Spec.Sha2
import Verif.Spec.Sm3
import Verif.Spec.Whirlpool

/-! Length extension, for C55: computing the digest of a longer message from a digest, without the message. -/

namespace Digestpp.Spec.Extension

/-- The padding a message of `n` bytes gets; `field` is the length field for a number of bytes. -/
def glue (bs : Nat) (field : Nat → Bytes) (n : Nat) : Bytes :=
  [0x80] ++ List.replicate (toMultiple bs (n + 1 + (field n).length)) 0 ++ field n

/-- Take a digest of a message of `n` bytes for a chaining value, and go on with `x` and its padding. -/
def resume {V : Type} (bs : Nat) (field : Nat → Bytes) (f : V → Bytes → V) (value : Bytes → V) (bytes : V → Bytes) (d : Bytes) (n : Nat)
    (x : Bytes) : Bytes :=
  let before := n + (glue bs field n).length
  bytes ((chunks bs (x ++ glue bs field (before + x.length))).foldl f (value d))

/-- The length fields. -/
def le64 (n : Nat) : Bytes := leBytes 8 (8 * n)
def be64 (n : Nat) : Bytes := beBytes 8 (8 * n)
/-- With a counter of only 64 bits, as in the code (C46). -/
def be128 (n : Nat) : Bytes := beBytes 16 (bits64 n)
def be256 (n : Nat) : Bytes := beBytes 32 (bits64 n)

/-- From the digest of a message of `n` bytes: the digest of that message, its padding, and `x`. -/
def md5 : Bytes → Nat → Bytes → Bytes :=
  resume 64 le64 Md5.compress (fun d => let w := fun i => (leWords 32 d).getD i 0; (w 0, w 1, w 2, w 3))
    fun h => ofLeWords [h.1, h.2.1, h.2.2.1, h.2.2.2]

def sha1 : Bytes → Nat → Bytes → Bytes :=
  resume 64 be64 Sha1.compress (fun d => let w := fun i => (beWords 32 d).getD i 0; (w 0, w 1, w 2, w 3, w 4))
    fun h => ofBeWords [h.1, h.2.1, h.2.2.1, h.2.2.2.1, h.2.2.2.2]

/-- The eight words of a digest. -/
def h8 (w : Nat) (d : Bytes) : Sha2.H8 w :=
  let x := fun i => (beWords w d).getD i 0
  ⟨x 0, x 1, x 2, x 3, x 4, x 5, x 6, x 7⟩

def sha256 : Bytes → Nat → Bytes → Bytes := resume 64 be64 (Sha2.compress Sha2.v256) (h8 32) Sha2.H8.bytes
def sha512 : Bytes → Nat → Bytes → Bytes := resume 128 be128 (Sha2.compress Sha2.v512) (h8 64) Sha2.H8.bytes

def sm3 : Bytes → Nat → Bytes → Bytes :=
  resume 64 be64 Sm3.compress (fun d => let h := h8 32 d; ⟨h.a, h.b, h.c, h.d, h.e, h.f, h.g, h.h⟩)
    fun h => ofBeWords [h.a, h.b, h.c, h.d, h.e, h.f, h.g, h.h]

def whirlpool : Bytes → Nat → Bytes → Bytes :=
  resume 64 be256 (fun h b => Whirlpool.compress h (Whirlpool.mu b)) Whirlpool.mu
    fun h => (List.range 8).flatMap fun i => (List.range 8).map fun j => h i j

end Digestpp.Spec.Extension
