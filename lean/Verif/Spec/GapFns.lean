import Verif.Spec.Gap
import Verif.Spec.K12
import Verif.Spec.Blake2
import Verif.Spec.Skein
import Verif.Spec.Ascon
import Verif.Spec.Esch

/-! What squeezes of length zero do in the classes of the library. -/

namespace Digestpp.Spec
namespace Gap

/-- Sponges with `r` bytes of rate: a first squeeze of length zero skips one byte more than the last block has before the padding; a
further one skips a whole block if the position is at the end of a block. -/
def sponge {Θ : Type} (r : Nat) (len : Θ → Bytes → Nat) : Gap Θ where
  lead := fun _ _ => []
  start := fun θ msg => len θ msg % r + 1
  skip := fun n => if n % r = 0 then n + r else n

/-- KangarooTwelve: the last block is that of the last node. -/
def k12 (b R : Nat) : Gap Bytes := sponge (200 - 2 * b / 8) fun C msg =>
  let S := msg ++ C ++ K12.lengthEncode C.length
  if S.length ≤ 8192 then S.length else (K12.finalNode R (200 - 2 * b / 8) (b / 4) S).length

/-- Esch: a first squeeze of length zero skips as many bytes as the last block has. -/
def esch : Gap Unit where
  lead := fun _ _ => []
  start := fun _ msg => msg.length % 16
  skip := id

/-- Skein: after a first squeeze of length zero, the chaining value is given out, then the stream. -/
def skein (T : Skein.Threefish) : Gap Skein.Theta where
  lead := fun θ msg => ofLeWords ((List.range T.nw).map (Skein.chain T (2 ^ 64 - 1) θ msg))
  start := fun _ _ => 0
  skip := id

/-- BLAKE2X: after a first squeeze of length zero, the root hash is given out, without as many bytes as the last block of the input has,
then the stream. -/
def blake2x {w : Nat} (v : Blake2.Variant w) : Gap Blake2.Theta where
  lead := fun θ msg => Blake2.root v θ (2 ^ (w / 2) - 1) msg
  start := fun θ msg =>
    let n := (Blake2.keyed (2 * w) θ.key msg).length
    min w (n - (n - 1) / (2 * w) * (2 * w))
  skip := id

end Gap
end Digestpp.Spec
