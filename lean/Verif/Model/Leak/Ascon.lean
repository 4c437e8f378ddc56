import Verif.Model.Leak
import Verif.Model.Locals.Ascon
import Verif.Model.Ascon

/-! `transform` of algorithm/detail/ascon_provider.hpp with checked indices of `H[5]` and `RC`. Traced; see `Model/Leak`. -/

namespace Digestpp.Model.Leak.Ascon
open Model.Ascon

/-- `H[a] ^= H[b]`, as in ascon_provider.hpp 151-153. -/
def xorHH (a b : Nat) (H : List (BitVec 64)) : L (List (BitVec 64)) := do
  let x ← rd H b
  upd H a (· ^^^ x)

/-- `H[a] ^ (~H[b] & H[c])`, as in ascon_provider.hpp 155-159. -/
def chi (a b c : Nat) (H : List (BitVec 64)) : L (BitVec 64) := do
  let x ← rd H a
  let y ← rd H b
  let z ← rd H c
  pure (x ^^^ (~~~y &&& z))

/-- ascon_provider.hpp 149-170: the body of the loop over `i`. -/
def round (i : Nat) (H : List (BitVec 64)) : L (List (BitVec 64)) := do
  let c ← rd ascon_RC i
  let H ← upd H 2 (· ^^^ c)
  let H ← xorHH 0 4 H
  let H ← xorHH 4 3 H
  let H ← xorHH 2 1 H
  let t0 ← chi 0 1 2 H
  let t1 ← chi 1 2 3 H
  let t2 ← chi 2 3 4 H
  let t3 ← chi 3 4 0 H
  let t4 ← chi 4 0 1 H
  let t1 := t1 ^^^ t0
  let t0 := t0 ^^^ t4
  let t3 := t3 ^^^ t2
  let t2 := ~~~t2
  let H ← wr H 0 (t0 ^^^ rotr t0 19 ^^^ rotr t0 28)
  let H ← wr H 1 (t1 ^^^ rotr t1 61 ^^^ rotr t1 39)
  let H ← wr H 2 (t2 ^^^ rotr t2 1 ^^^ rotr t2 6)
  let H ← wr H 3 (t3 ^^^ rotr t3 10 ^^^ rotr t3 17)
  wr H 4 (t4 ^^^ rotr t4 7 ^^^ rotr t4 41)

/-- ascon_provider.hpp 145-171: one iteration of the loop over `blk`. -/
def block (data : Bytes) (blk : Nat) (H : List (BitVec 64)) : L (List (BitVec 64)) := do
  let x ← rd64 data blk
  let H ← upd H 0 (· ^^^ x)
  loop 0 12 round H

/-- ascon_provider.hpp 141-173: `transform(data, num_blks)`. -/
def transform (data : Bytes) (n : Nat) (s : Blk St) : L (Blk St) := do
  let H ← loop 0 n (block data) s.h.H
  pure { s with h := { s.h with H := H } }

end Digestpp.Model.Leak.Ascon
