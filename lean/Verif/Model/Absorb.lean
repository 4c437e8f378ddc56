import Verif.Model.Functions

/-! Model of detail/absorb_data.hpp. -/

namespace Digestpp.Model

/-- The fields every block-buffering provider has (e.g. md5_provider.hpp 188-191, sha2_provider.hpp 268-271; passed by reference to
absorb_data.hpp 16-39): the block buffer `m`, the fill position `pos`, the bit counter `total`;
`h` is everything else (chaining value, parameters, flags). -/
structure Blk (σ : Type) where
  h : σ
  m : Bytes
  pos : Nat
  total : BitVec 64

/-- detail/absorb_data.hpp 36-37: the end of `absorb_bytes`, buffering what is left. -/
def absorbRest {σ : Type} (data : Bytes) (s : Blk σ) : M (Blk σ) := do
  let m ← memcpyTo s.m s.pos data                           -- memcpy(m + pos, data, len)
  pure { s with m := m, pos := s.pos + data.length }        -- pos += len

/-- detail/absorb_data.hpp 28-37: `absorb_bytes` from the second `if` on. -/
def absorbTail {σ : Type} (bs bschk : Nat) (transform : Bytes → Nat → Blk σ → M (Blk σ))
    (data : Bytes) (s : Blk σ) : M (Blk σ) :=
  if data.length ≥ bschk then                               -- if (len >= bschk)
    if bs = 0 then .error .divByZero else do
      let blocks := (szSub (data.length + bs) bschk) / bs   -- (len + bs - bschk) / bs
      let bytes := blocks * bs
      let s ← transform data blocks s                       -- transform(data, blocks)
      absorbRest (data.drop bytes)                          -- len -= bytes; data += bytes
        { s with total := s.total + BitVec.ofNat 64 (bytes * 8) }
  else absorbRest data s

/-- detail/absorb_data.hpp 16-38: `absorb_bytes(data, len, bs, bschk, m, pos, total, transform)`.
`transform` is the callback `[this](data, num_blks)`; it sees the whole object, so it gets and returns all of it. -/
def absorbBytes {σ : Type} (bs bschk : Nat) (transform : Bytes → Nat → Blk σ → M (Blk σ))
    (data : Bytes) (s : Blk σ) : M (Blk σ) :=
  if s.pos ≠ 0 ∧ (s.pos + data.length) % szMod ≥ bschk then do   -- if (pos && pos + len >= bschk)
    let chunk ← readBytes data 0 (szSub bs s.pos)                -- memcpy(m + pos, data, bs - pos)
    let m ← memcpyTo s.m s.pos chunk
    let s ← transform m 1 { s with m := m }                      -- transform(m, 1)
    absorbTail bs bschk transform (data.drop (szSub bs s.pos))   -- len -= bs - pos; data += bs - pos
      { s with total := s.total + BitVec.ofNat 64 (bs * 8), pos := 0 }
  else absorbTail bs bschk transform data s

end Digestpp.Model
