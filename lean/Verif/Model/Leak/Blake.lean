import Verif.Model.Leak
import Verif.Model.Locals.Blake
import Verif.Model.Blake
import Verif.Model.Blake2

/-! `transform` of algorithm/detail/blake_provider.hpp and blake2_provider.hpp with their local arrays. Traced; see `Model/Leak`. -/

namespace Digestpp.Model.Leak.Blake
open Model.Blake
open Locals.Blake (Stack)

variable {w : Nat}

/-- The call `G(r, i, v[ia], v[ib], v[ic], v[id], M)` (blake_provider.hpp 53-60; blake2_provider.hpp 50-57). -/
def atQuad (g : Quad w → L (Quad w)) (ia ib ic id : Nat) (v : List (BitVec w)) : L (List (BitVec w)) := do
  let a ← rd v ia
  let b ← rd v ib
  let c ← rd v ic
  let d ← rd v id
  let q ← g ⟨a, b, c, d⟩
  let v ← wr v ia q.a
  let v ← wr v ib q.b
  let v ← wr v ic q.c
  wr v id q.d

/-- blake_provider.hpp 50-61, blake2_provider.hpp 49-60: `round(r, M, v)`. -/
def round (g : Nat → Quad w → L (Quad w)) (v : List (BitVec w)) : L (List (BitVec w)) := do
  let v ← atQuad (g 0) 0 4 8 12 v
  let v ← atQuad (g 1) 1 5 9 13 v
  let v ← atQuad (g 2) 2 6 10 14 v
  let v ← atQuad (g 3) 3 7 11 15 v
  let v ← atQuad (g 4) 0 5 10 15 v
  let v ← atQuad (g 5) 1 6 11 12 v
  let v ← atQuad (g 6) 2 7 8 13 v
  atQuad (g 7) 3 4 9 14 v

/-- blake_provider.hpp 94, blake2_provider.hpp 336: `memcpy(v, H.data(), sizeof(T) * 8)`, word by word. -/
def copy8 (H v : List (BitVec w)) : L (List (BitVec w)) :=
  loop 0 8 (fun i v => do
    let x ← rd H i
    wr v i x) v

/-- blake_provider.hpp 24: `S[r % 10][j]`; blake2_provider.hpp 25: `S[r][j]`. -/
def perm (S : List (List (BitVec 32))) (r j : Nat) : L Nat := do
  let row ← rd S r
  let x ← rd row j
  pure x.toNat

/-- blake_provider.hpp 22-48: `G(r, i, a, b, c, d, M)`. -/
def G (T : Word w) (Mw : List (BitVec w)) (r i : Nat) (q : Quad w) : L (Quad w) := do
  let m ← rd Mw (← perm blake_S (r % 10) (2 * i))
  let k ← rd T.c (← perm blake_S (r % 10) (2 * i + 1))
  let a := q.a + q.b + (m ^^^ k)
  let d := T.R1 (q.d ^^^ a)
  let c := q.c + d
  let b := T.R2 (q.b ^^^ c)
  let m ← rd Mw (← perm blake_S (r % 10) (2 * i + 1))
  let k ← rd T.c (← perm blake_S (r % 10) (2 * i))
  let a := a + b + (m ^^^ k)
  let d := T.R3 (d ^^^ a)
  let c := c + d
  let b := T.R4 (b ^^^ c)
  pure ⟨a, b, c, d⟩

/-- blake_provider.hpp 84-85; `ld p i` is `reinterpret_cast<const T*>(p)[i]`. -/
def loadM (T : Word w) (ld : Bytes → Nat → L (BitVec w)) (data : Bytes) (blk : Nat) (Mw : List (BitVec w)) : L (List (BitVec w)) :=
  loop 0 16 (fun i Mw => do
    let x ← ld data (blk * 16 + i)
    wr Mw i (T.byteswap x)) Mw

/-- blake_provider.hpp 95 (and likewise 96-98). -/
def mixSalt (T : Word w) (H : List (BitVec w)) (i : Nat) (v : List (BitVec w)) : L (List (BitVec w)) := do
  let s ← rd H (8 + i)
  let c ← rd T.c i
  wr v (8 + i) (s ^^^ c)

/-- blake_provider.hpp 99 (and likewise 100-102). -/
def mixT (T : Word w) (t : BitVec w) (i : Nat) (v : List (BitVec w)) : L (List (BitVec w)) := do
  let c ← rd T.c i
  wr v (8 + i) (t ^^^ c)

/-- blake_provider.hpp 94-102. -/
def start (T : Word w) (t : BitVec w × BitVec w) (H v : List (BitVec w)) : L (List (BitVec w)) := do
  let v ← copy8 H v
  let v ← mixSalt T H 0 v
  let v ← mixSalt T H 1 v
  let v ← mixSalt T H 2 v
  let v ← mixSalt T H 3 v
  let v ← mixT T t.1 4 v
  let v ← mixT T t.1 5 v
  let v ← mixT T t.2 6 v
  mixT T t.2 7 v

/-- blake_provider.hpp 125 (and likewise 126-132): `H[i] = H[i] ^ H[8 + i % 4] ^ v[i] ^ v[i + 8]`. -/
def fold (v : List (BitVec w)) (i : Nat) (H : List (BitVec w)) : L (List (BitVec w)) := do
  let h ← rd H i
  let s ← rd H (8 + i % 4)
  let x ← rd v i
  let y ← rd v (i + 8)
  wr H i (h ^^^ s ^^^ x ^^^ y)

/-- blake_provider.hpp 83-132: one iteration. -/
def block (T : Word w) (ld : Bytes → Nat → L (BitVec w)) (bs : Nat) (padding final : Bool) (total : BitVec 64) (k : Stack w) (data : Bytes) (blk : Nat)
    (H : List (BitVec w)) : L (List (BitVec w)) := do
  let Mw ← loadM T ld data blk k.M
  let v ← start T (counters T padding (totalbytes bs final total blk)) H k.v
  let v ← loop 0 T.rounds (fun r v => round (G T Mw r) v) v
  let H ← fold v 0 H
  let H ← fold v 4 H
  let H ← fold v 1 H
  let H ← fold v 5 H
  let H ← fold v 2 H
  let H ← fold v 6 H
  let H ← fold v 3 H
  fold v 7 H

/-- blake_provider.hpp 291-297, 78-134: `transform`. -/
def transform (k512 : Nat → Stack 64) (k256 : Nat → Stack 32) (padding final : Bool) (data : Bytes) (n : Nat) (s : Blk St) : L (Blk St) := do
  if ← branch (s.h.hs > 256) then
    let H ← loop 0 n (fun blk H => block u64 rd64 128 padding final s.total (k512 blk) data blk H) s.h.H512
    pure { s with h := { s.h with H512 := H } }
  else
    let H ← loop 0 n (fun blk H => block u32 rd32 64 padding final s.total (k256 blk) data blk H) s.h.H256
    pure { s with h := { s.h with H256 := H } }

end Digestpp.Model.Leak.Blake

namespace Digestpp.Model.Leak.Blake2
open Model.Blake (Quad)
open Model.Blake2 Leak.Blake
open Locals.Blake (Stack)

variable {w : Nat}

/-- blake2_provider.hpp 23-45: `G(r, i, a, b, c, d, M)`. -/
def G (T : Word w) (Mw : List (BitVec w)) (r i : Nat) (q : Quad w) : L (Quad w) := do
  let m ← rd Mw (← perm blake2_S r (2 * i))
  let a := q.a + q.b + m
  let d := T.R1 (q.d ^^^ a)
  let c := q.c + d
  let b := T.R2 (q.b ^^^ c)
  let m ← rd Mw (← perm blake2_S r (2 * i + 1))
  let a := a + b + m
  let d := T.R3 (d ^^^ a)
  let c := c + d
  let b := T.R4 (b ^^^ c)
  pure ⟨a, b, c, d⟩

/-- blake2_provider.hpp 322-323. -/
def loadM (ld : Bytes → Nat → L (BitVec w)) (data : Bytes) (blk : Nat) (Mw : List (BitVec w)) : L (List (BitVec w)) :=
  loop 0 16 (fun i Mw => do
    let x ← ld data (blk * 16 + i)
    wr Mw i x) Mw

/-- blake2_provider.hpp 337 (and likewise 338-340). -/
def mixIV (T : Word w) (i : Nat) (v : List (BitVec w)) : L (List (BitVec w)) := do
  let c ← rd T.IV i
  wr v (8 + i) c

/-- blake2_provider.hpp 341 (and likewise 342-344). -/
def mixT (T : Word w) (t : BitVec w) (i : Nat) (v : List (BitVec w)) : L (List (BitVec w)) := do
  let c ← rd T.IV i
  wr v (8 + i) (t ^^^ c)

/-- blake2_provider.hpp 336-344. -/
def start (T : Word w) (totalbytes : BitVec 64) (f0 f1 : BitVec w) (H v : List (BitVec w)) : L (List (BitVec w)) := do
  let v ← copy8 H v
  let v ← mixIV T 0 v
  let v ← mixIV T 1 v
  let v ← mixIV T 2 v
  let v ← mixIV T 3 v
  let v ← mixT T (totalbytes.setWidth w) 4 v
  let v ← mixT T (T.t1 totalbytes) 5 v
  let v ← mixT T f0 6 v
  mixT T f1 7 v

/-- blake2_provider.hpp 362 (and likewise 363-369): `H[i] = H[i] ^ v[i] ^ v[i + 8]`. -/
def fold (v : List (BitVec w)) (i : Nat) (H : List (BitVec w)) : L (List (BitVec w)) := do
  let h ← rd H i
  let x ← rd v i
  let y ← rd v (i + 8)
  wr H i (h ^^^ x ^^^ y)

/-- blake2_provider.hpp 321-369: one iteration. -/
def block (T : Word w) (ld : Bytes → Nat → L (BitVec w)) (padding : Bool) (total : BitVec 64) (k : Stack w) (data : Bytes) (blk : Nat) (h : St w) : L (St w) := do
  let Mw ← loadM ld data blk k.M
  let v ← start T (totalbytes w padding total blk) (flag0 w padding) (flag1 padding h) h.H k.v
  let v ← loop 0 T.rounds (fun r v => round (G T Mw r) v) v
  let H ← fold v 0 h.H
  let H ← fold v 4 H
  let H ← fold v 1 H
  let H ← fold v 5 H
  let H ← fold v 2 H
  let H ← fold v 6 H
  let H ← fold v 3 H
  let H ← fold v 7 H
  pure { h with H := H }

/-- blake2_provider.hpp 317-372: `transform`. -/
def transform (T : Word w) (ld : Bytes → Nat → L (BitVec w)) (k : Nat → Stack w) (padding : Bool) (data : Bytes) (n : Nat) (s : Blk (St w)) : L (Blk (St w)) := do
  let h ← loop 0 n (fun blk h => block T ld padding s.total (k blk) data blk h) s.h
  pure { s with h := h }

end Digestpp.Model.Leak.Blake2
