import Verif.Model.Leak
import Verif.Model.Locals.Streebog
import Verif.Model.Streebog

/-! `transform` of algorithm/detail/streebog_provider.hpp with its local arrays. Traced; see `Model/Leak`. -/

namespace Digestpp.Model.Leak.Streebog
open Model.Streebog
open Locals.Streebog (Stack)

/-- `streebog_constants<void>::T[j][(ch[i])]`, as in streebog_provider.hpp 25-32. -/
def look (ch : Bytes) (j i : Nat) : L (BitVec 64) := do
  let row ← rd streebog_T j
  let b ← rd ch i
  rd row b.toNat

/-- streebog_provider.hpp 22-33: `lps<I>`. -/
def lps (I : Nat) (ch : Bytes) : L (BitVec 64) := do
  let v0 ← look ch 0 I
  let v1 ← look ch 1 (8 + I)
  let v2 ← look ch 2 (16 + I)
  let v3 ← look ch 3 (24 + I)
  let v4 ← look ch 4 (32 + I)
  let v5 ← look ch 5 (40 + I)
  let v6 ← look ch 6 (48 + I)
  let v7 ← look ch 7 (56 + I)
  pure (v0 ^^^ v1 ^^^ v2 ^^^ v3 ^^^ v4 ^^^ v5 ^^^ v6 ^^^ v7)

/-- streebog_provider.hpp 35-48: `lps_block`; `ch` is the contents of the local array of 64 bytes at the beginning. -/
def lpsBlock (ch : Bytes) (block : List (BitVec 64)) : L (List (BitVec 64)) := do
  let ch ← copyN ch (stores64 block) 64
  let v ← lps 0 ch
  let block ← wr block 0 v
  let v ← lps 1 ch
  let block ← wr block 1 v
  let v ← lps 2 ch
  let block ← wr block 2 v
  let v ← lps 3 ch
  let block ← wr block 3 v
  let v ← lps 4 ch
  let block ← wr block 4 v
  let v ← lps 5 ch
  let block ← wr block 5 v
  let v ← lps 6 ch
  let block ← wr block 6 v
  let v ← lps 7 ch
  wr block 7 v

/-- streebog_provider.hpp 50-60: `xor_blocks`; the element `toxor[i]` is read by `toxor i`. -/
def xorBlocks (toxor : Nat → L (BitVec 64)) (block : List (BitVec 64)) : L (List (BitVec 64)) := do
  let v ← toxor 0
  let block ← upd block 0 (· ^^^ v)
  let v ← toxor 1
  let block ← upd block 1 (· ^^^ v)
  let v ← toxor 2
  let block ← upd block 2 (· ^^^ v)
  let v ← toxor 3
  let block ← upd block 3 (· ^^^ v)
  let v ← toxor 4
  let block ← upd block 4 (· ^^^ v)
  let v ← toxor 5
  let block ← upd block 5 (· ^^^ v)
  let v ← toxor 6
  let block ← upd block 6 (· ^^^ v)
  let v ← toxor 7
  upd block 7 (· ^^^ v)

/-- streebog_provider.hpp 69-72, on the pair `K`, `tmp`. -/
def round (ch : Nat → Bytes) (i : Nat) (kt : List (BitVec 64) × List (BitVec 64)) : L (List (BitVec 64) × List (BitVec 64)) := do
  let K ← lpsBlock (ch (2 * i + 1)) kt.1
  let row ← rd streebog_RC i
  let tmp ← xorBlocks (rd row) kt.2
  let tmp ← lpsBlock (ch (2 * i + 2)) tmp
  let K ← xorBlocks (rd tmp) K
  pure (K, tmp)

/-- streebog_provider.hpp 62-74: `e`. -/
def e (ch : Nat → Bytes) (tmp K : List (BitVec 64)) (m : Bytes) : L (List (BitVec 64)) := do
  let tmp ← copyN tmp K 8
  let K ← xorBlocks (rd64 m) K
  let kt ← loop 0 12 (round ch) (K, tmp)
  pure kt.1

/-- streebog_provider.hpp 76-85: `gN`. -/
def gN (k : Stack) (h : List (BitVec 64)) (m : Bytes) (N : BitVec 64) : L (List (BitVec 64)) := do
  let hN ← copyN k.hN h 8
  let hN ← upd hN 0 (· ^^^ N)
  let hN ← lpsBlock (k.ch 0) hN
  let hN ← e k.ch k.tmp hN m
  let h ← xorBlocks (rd hN) h
  xorBlocks (rd64 m) h

/-- streebog_provider.hpp 94: `t < h[i] || t < m[i]`, the second comparison only if the first one fails. -/
def overflow (t x y : BitVec 64) : L Bool := do
  if ← branch (t < x) then pure true else pure (decide (t < y))

/-- streebog_provider.hpp 87-98: `addm`. -/
def addm (m : Bytes) (h : List (BitVec 64)) : L (List (BitVec 64)) := do
  let hc ← loop 0 8 (fun i (hc : List (BitVec 64) × Bool) => do
    let x ← rd hc.1 i
    let y ← rd64 m i
    let t := x + y
    let x ← rd hc.1 i
    let y ← rd64 m i
    let overflow ← overflow t x y
    let h ← wr hc.1 i (t + if hc.2 then 1 else 0)
    pure (h, overflow)) (h, false)
  pure hc.1

/-- streebog_provider.hpp 167-176: `transform`. -/
def transform (k : Nat → Stack) (final : Bool) (data : Bytes) (n : Nat) (s : Blk St) : L (Blk St) := do
  let h ← loop 0 n (fun blk (st : St) => do
    let h ← gN (k blk) st.h (data.drop (blk * 64)) (if final then 0 else s.total + BitVec.ofNat 64 (blk * 512))
    let S ← if ← branch final then pure st.S else addm (data.drop (blk * 64)) st.S
    pure { st with h := h, S := S }) s.h
  pure { s with h := h }

end Digestpp.Model.Leak.Streebog
