import Verif.Model.Absorb

/-! The `final` functions of the MD5, SHA-1, SHA-2 and SM3 providers, which are the same code up to constants. -/

namespace Digestpp.Model

variable {σ : Type}

/-- md5_provider.hpp 83-84, sha1_provider.hpp 73-74, sha2_provider.hpp 194-195, sm3_provider.hpp 86-87:
`if (pos != bs) memset(&m[pos], 0, bs - pos)`. -/
def zeroRest (bs : Nat) (m : Bytes) (pos : Nat) : M Bytes :=
  if pos ≠ bs then memset m pos 0 (szSub bs pos) else pure m

/-- md5_provider.hpp 88-91, sha1_provider.hpp 78-84, sha2_provider.hpp 199-205, sm3_provider.hpp 91-97: `final`, after the
`if (pos > limit)` statement. `fill` is where the second `memset` ends, `enc` the bytes of the length field as copied, `out`
what is copied to `hash` from the chaining value. -/
def mdFinalTail (bs fill : Nat) (enc : BitVec 64 → Bytes) (transform : Bytes → Nat → Blk σ → M (Blk σ)) (s : Blk σ) :
    M (Blk σ) := do
  let m ← memset s.m s.pos 0 (szSub fill s.pos)       -- memset(&m[pos], 0, fill - pos)
  let m ← memcpyTo m (bs - 8) (enc s.total)           -- memcpy(&m[bs - 8], &mlen, 64 / 8)
  transform m 1 { s with m := m }                     -- transform(m, 1)

/-- md5_provider.hpp 79-90, sha1_provider.hpp 70-81, sha2_provider.hpp 191-202, sm3_provider.hpp 82-94: `final` up to the
output. -/
def mdFinal (bs limit fill : Nat) (enc : BitVec 64 → Bytes) (transform : Bytes → Nat → Blk σ → M (Blk σ)) (s : Blk σ) :
    M (Blk σ) := do
  let total := s.total + BitVec.ofNat 64 (s.pos * 8)  -- total += pos * 8
  let m ← setByte s.m s.pos 0x80                      -- m[pos++] = 0x80
  let pos := s.pos + 1
  if pos > limit then do                              -- if (pos > limit)
    let m ← zeroRest bs m pos
    let s ← transform m 1 { s with m := m, pos := pos, total := total }
    mdFinalTail bs fill enc transform { s with pos := 0 }
  else mdFinalTail bs fill enc transform { s with m := m, pos := pos, total := total }

end Digestpp.Model
