import Verif.Model.Leak
import Verif.Model.MdFinal

/-! `absorb_bytes` and the common parts of the `final` functions, with a trace (see `Model/Leak`). The callback `transform` has a further argument: what is in
the memory of its local arrays; it may be different for each call. -/

namespace Digestpp.Model.Leak

/-- `memset`, as `Model.memset` (e.g. md5_provider.hpp 84). -/
def memset (dst : Bytes) (off : Nat) (v : Byte) (n : Nat) : L Bytes := .op (.store off n) (Model.memset dst off v n)

/-- `dst[i] = v`, as `Model.setByte` (e.g. md5_provider.hpp 80). -/
def setByte (dst : Bytes) (i : Nat) (v : Byte) : L Bytes := .op (.write i) (Model.setByte dst i v)

variable {σ κ : Type}

/-- detail/absorb_data.hpp 36-37, as `Model.absorbRest`. -/
def absorbRest (data : Bytes) (s : Blk σ) : L (Blk σ) := do
  let m ← memcpyTo s.m s.pos data
  pure { s with m := m, pos := s.pos + data.length }

/-- detail/absorb_data.hpp 28-37, as `Model.absorbTail`. -/
def absorbTail (bs bschk : Nat) (transform : κ → Bytes → Nat → Blk σ → L (Blk σ)) (k : κ) (data : Bytes) (s : Blk σ) : L (Blk σ) := do
  if ← branch (data.length ≥ bschk) then
    if bs = 0 then Except.error .divByZero else do
      let blocks := (szSub (data.length + bs) bschk) / bs
      let bytes := blocks * bs
      let s ← transform k data blocks s
      absorbRest (data.drop bytes) { s with total := s.total + BitVec.ofNat 64 (bytes * 8) }
  else absorbRest data s

/-- detail/absorb_data.hpp 16-38: `absorb_bytes`, as `Model.absorbBytes`. The second operand of `&&` (18) is evaluated only if `pos` is not zero. -/
def absorbBytes (bs bschk : Nat) (transform : κ → Bytes → Nat → Blk σ → L (Blk σ)) (k : Nat → κ) (data : Bytes) (s : Blk σ) : L (Blk σ) := do
  if ← branch (s.pos ≠ 0) then
    if ← branch ((s.pos + data.length) % szMod ≥ bschk) then
      let chunk ← readBytes data 0 (szSub bs s.pos)
      let m ← memcpyTo s.m s.pos chunk
      let s ← transform (k 0) m 1 { s with m := m }
      absorbTail bs bschk transform (k 1) (data.drop (szSub bs s.pos)) { s with total := s.total + BitVec.ofNat 64 (bs * 8), pos := 0 }
    else absorbTail bs bschk transform (k 1) data s
  else absorbTail bs bschk transform (k 1) data s

/-- Calls of `update` one after the other (hasher.hpp 86-190). -/
def updates (update : κ → Bytes → σ → L σ) : (Nat → κ) → List Bytes → σ → L σ
  | _, [], s => pure s
  | k, d :: ds, s => do
    let s ← update (k 0) d s
    updates update (fun i => k (i + 1)) ds s

/-- Several calls of `absorb`, then `digest` (hasher.hpp 86-190, 321-377). -/
def hash (update : κ → Bytes → σ → L σ) (final : κ → σ → L Bytes) (k : Nat → κ) (ds : List Bytes) (s : σ) : L Bytes := do
  let s ← updates update (fun i => k (i + 1)) ds s
  final (k 0) s

/-- md5_provider.hpp 83-84, sha1_provider.hpp 73-74, sha2_provider.hpp 194-195, sm3_provider.hpp 86-87, as `Model.zeroRest`. -/
def zeroRest (bs : Nat) (m : Bytes) (pos : Nat) : L Bytes := do
  if ← branch (pos ≠ bs) then memset m pos 0 (szSub bs pos) else pure m

/-- md5_provider.hpp 88-91, sha1_provider.hpp 78-84, sha2_provider.hpp 199-205, sm3_provider.hpp 91-97, as `Model.mdFinalTail`. -/
def mdFinalTail (bs fill : Nat) (enc : BitVec 64 → Bytes) (transform : κ → Bytes → Nat → Blk σ → L (Blk σ)) (k : κ) (s : Blk σ) : L (Blk σ) := do
  let m ← memset s.m s.pos 0 (szSub fill s.pos)
  let m ← memcpyTo m (bs - 8) (enc s.total)
  transform k m 1 { s with m := m }

/-- md5_provider.hpp 79-90, sha1_provider.hpp 70-81, sha2_provider.hpp 191-202, sm3_provider.hpp 82-94, jh_provider.hpp 144-156, as `Model.mdFinal`. -/
def mdFinal (bs limit fill : Nat) (enc : BitVec 64 → Bytes) (transform : κ → Bytes → Nat → Blk σ → L (Blk σ)) (k : Nat → κ) (s : Blk σ) : L (Blk σ) := do
  let total := s.total + BitVec.ofNat 64 (s.pos * 8)
  let m ← setByte s.m s.pos 0x80
  let pos := s.pos + 1
  if ← branch (pos > limit) then
    let m ← zeroRest bs m pos
    let s ← transform (k 0) m 1 { s with m := m, pos := pos, total := total }
    mdFinalTail bs fill enc transform (k 1) { s with pos := 0 }
  else mdFinalTail bs fill enc transform (k 1) { s with m := m, pos := pos, total := total }

/-- `for (int i = 0; i < n; i++) H[i] = byteswap(H[i])` (sha1_provider.hpp 82-83, sha2_provider.hpp 203-204, sm3_provider.hpp 95-96). -/
def swapWords {α : Type} (n : Nat) (swap : α → α) (H : List α) : L (List α) := loop 0 n (fun i H => upd H i swap) H

end Digestpp.Model.Leak
