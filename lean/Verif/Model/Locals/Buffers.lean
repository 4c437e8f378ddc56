import Verif.Model.Arrays
import Verif.Model.Kmac
import Verif.Model.K12
import Verif.Model.Blake2
import Verif.Model.Lsh
import Verif.Model.Jh
import Verif.Model.Sha2

/-! Functions of the providers that use a local array outside `transform`. In each of them the local array has its declared size and arbitrary contents at first. -/

namespace Digestpp.Model.Locals

namespace Shake
open Model.Shake

/-- shake_provider.hpp 21-34: `left_encode(num, buf)`; the new contents of `buf` and the value returned. In iteration `i` of the loop, `n` has been decreased `i` times. -/
def leftEncode (num : Nat) (buf : Bytes) : M (Bytes × Nat) := do
  let n := countLoop 8 num 1
  let buf ← wr buf 0 (BitVec.ofNat 8 n)
  let buf ← loop 0 n (fun i buf => wr buf (n - i) (BitVec.ofNat 8 (num >>> (8 * i)))) buf
  pure (buf, n + 1)

/-- shake_provider.hpp 36-49: `right_encode(num, buf, k12)`. -/
def rightEncode (num : Nat) (k12 : Bool) (buf : Bytes) : M (Bytes × Nat) := do
  let n := countLoop 8 num (if k12 then if num ≠ 0 then 1 else 0 else 1)
  let buf ← wr buf n (BitVec.ofNat 8 n)
  let buf ← loop 0 n (fun i buf => wr buf (n - (i + 1)) (BitVec.ofNat 8 (num >>> (8 * i)))) buf
  pure (buf, n + 1)

/-- shake_provider.hpp 90-109: the prefix absorbed by `init`; `buf` is the local array `buf[1024]`. -/
def initPrefix (buf : Bytes) (R rate : Nat) (s : Blk St) : M (Blk St) := do
  let r := rate / 8
  let N := s.h.N
  let S := s.h.S
  let e ← leftEncode r buf
  let total := e.2
  let b ← readBytes e.1 0 e.2
  let s ← update R rate b s
  let e ← leftEncode (N.length * 8 % szMod) e.1
  let total := total + e.2
  let b ← readBytes e.1 0 e.2
  let s ← update R rate b s
  let s ← updateString R rate N s
  let e ← leftEncode (S.length * 8 % szMod) e.1
  let b ← readBytes e.1 0 e.2
  let s ← update R rate b s
  let total := total + e.2
  let s ← updateString R rate S s
  let total := (total + S.length + N.length) % szMod
  let len := r - total % r
  let buf ← memset e.1 0 0 len
  let z ← readBytes buf 0 len
  update R rate z s

end Shake

namespace Kmac
open Model.Kmac

/-- kmac_provider.hpp 19-33: `bytepad`; `buf` is the local array `buf[32]`. -/
def bytepad (buf : Bytes) (B : Nat) (str : Bytes) : M Bytes := do
  let pad := if B = 128 then 168 else 136
  let e ← Shake.leftEncode pad buf
  let res ← readBytes e.1 0 e.2
  let e ← Shake.leftEncode (str.length * 8 % szMod) e.1
  let b ← readBytes e.1 0 e.2
  let res := res ++ b ++ str
  let delta := pad - res.length % pad
  pure (if delta ≠ 0 ∧ delta ≠ pad then res ++ List.replicate delta 0 else res)

/-- kmac_provider.hpp 96-102: the first part of `squeeze`; `buf` is the local array `buf[32]`. -/
def squeezeFirst (buf : Bytes) (B : Nat) (xof : Bool) (hs : Nat) (s : St) : M St :=
  if !s.squeezing then do
    let e ← Shake.rightEncode (if !xof then hs * 8 % szMod else 0) false buf
    let b ← readBytes e.1 0 e.2
    let s ← update B b s
    pure { s with squeezing := true }
  else pure s

end Kmac

namespace K12
open Model.K12

/-- k12m14_provider.hpp 108-111: the body of the loop of `transform` for a chunk other than the first; `buf` is the local array `buf[B / 4]`. -/
def next (buf : Bytes) (B R rate : Nat) (b : Bytes) (h : St) : M (Blk Model.Shake.St × Blk Model.Shake.St) := do
  let child ← Model.Shake.update R rate b h.child
  let r ← Model.Shake.squeeze R rate (B / 4) child
  let buf ← memcpyTo buf 0 r.1
  let x ← readBytes buf 0 (B / 4)
  let main ← Model.Shake.update R rate x h.main
  pure (main, r.2)

/-- k12m14_provider.hpp 79-85: the end of a message of several chunks. -/
def finishTree (buf : Bytes) (B R rate : Nat) (s : Blk St) : M (Blk Model.Shake.St × Blk Model.Shake.St) := do
  let b ← readBytes s.m 0 s.pos
  let child ← Model.Shake.update R rate b s.h.child
  let r ← Model.Shake.squeeze R rate (B / 4) child
  let buf ← memcpyTo buf 0 r.1
  let x ← readBytes buf 0 (B / 4)
  let main ← Model.Shake.update R rate x s.h.main
  let main := Model.Shake.setSuffix 0x06 main
  let e ← Shake.rightEncode s.h.chunk true buf
  let x ← readBytes e.1 0 e.2
  let main ← Model.Shake.update R rate x main
  let main ← Model.Shake.update R rate [0xff, 0xff] main
  pure (main, r.2)

/-- k12m14_provider.hpp 70-89: the end of the message. -/
def finish (buf : Bytes) (B R rate : Nat) (s : Blk St) : M (Blk Model.Shake.St × Blk Model.Shake.St) :=
  if s.pos ≠ 0 then
    if s.h.chunk = 0 then finishSingle R rate s else finishTree buf B R rate s
  else pure (Model.Shake.setSuffix 0x07 s.h.main, s.h.child)

/-- k12m14_provider.hpp 63-91: the first part of `squeeze`; `buf` is the local array `buf[B / 4]`. -/
def squeezeFirst (buf : Bytes) (B R : Nat) (s : Blk St) : M (Blk St) :=
  if !s.h.squeezing then do
    let e ← Shake.rightEncode s.h.S.length true buf
    let s ← updateS B R s
    let b ← readBytes e.1 0 e.2
    let s ← update B R b s
    let mc ← finish e.1 B R (Model.Shake.rateOf B) s
    pure { s with h := { main := mc.1, child := mc.2, S := s.h.S, chunk := s.h.chunk, squeezing := true } }
  else pure s

end K12

/-- blake2_provider.hpp 305-315: `absorb_key`; `key` is the local array `key[N / 4]` and `w` is `N / 8`. -/
def Blake2.absorbKey {w : Nat} (key : Bytes) (T : Model.Blake2.Word w) (s : Blk (Model.Blake2.St w)) : M (Blk (Model.Blake2.St w)) :=
  if s.h.k = [] then pure s
  else do
    let key ← memcpyTo key 0 s.h.k
    let key ← (if s.h.k.length ≠ 2 * w then memset key s.h.k.length 0 (szSub (2 * w) s.h.k.length) else pure key)
    Model.Blake2.update T key s

/-- lsh_provider.hpp 101-110: `init`; `msg` is the local array `msg[N / 2]`. -/
def Lsh.init {w : Nat} (msg : Bytes) (rot : Model.Lsh.Rot w) (T : Model.Lsh.Word w) (s : Blk (Model.Lsh.St w)) : M (Blk (Model.Lsh.St w)) := do
  let msg ← memset msg 0 0 (4 * w)
  let s ← Model.Lsh.transform rot T msg 1 { s with
    h := { s.h with cv := [BitVec.ofNat w w, BitVec.ofNat w s.h.hs] ++ List.replicate 14 0 }, pos := 0, total := 0 }
  pure { s with h := { s.h with t := List.replicate 16 0, msgexp := List.replicate (T.NS + 1) (List.replicate 16 0) } }

/-- lsh_provider.hpp 120-129: `final`; `h` is the local array `h[N / 2]`. -/
def Lsh.final {w : Nat} (h : List (BitVec w)) (rot : Model.Lsh.Rot w) (T : Model.Lsh.Word w) (s : Blk (Model.Lsh.St w)) : M Bytes := do
  let m ← setByte s.m s.pos 0x80
  let m ← zeroRest (Model.Lsh.blockBytes w) m (s.pos + 1)
  let s ← Model.Lsh.transform rot T m 1 { s with m := m, pos := s.pos + 1, total := s.total + BitVec.ofNat 64 ((s.pos + 1) * 8) }
  let h ← loop 0 8 (fun i h => do
    let a ← rd s.h.cv i
    let b ← rd s.h.cv (i + 8)
    wr h i (a ^^^ b)) h
  readBytes (T.stores h) 0 (s.h.hs / 8)

/-- jh_provider.hpp 123-134: `init`; `msg` is the local array `msg[64]`. -/
def Jh.init (msg : Bytes) (s : Blk Model.Jh.St) : M (Blk Model.Jh.St) := do
  let msg ← memset msg 0 0 64
  Model.Jh.transform msg 1
    { s with
      h := { s.h with H := (List.replicate 16 0).set 0 (BitVec.setWidth 64 (byteswap16 (BitVec.ofNat 16 s.h.hs))) }
      pos := 0
      total := 0 }

/-- sha2_provider.hpp 170-180: the initial values of SHA-512/t; `buf` is the local array `buf[512 / 8]`. -/
def Sha2.initGen (buf : Bytes) (s : Blk (Model.Sha2.St 64)) : M (Blk (Model.Sha2.St 64)) := do
  let s := { s with h := { s.h with H := s.h.H.map (· ^^^ 0xa5a5a5a5a5a5a5a5) } }
  let s ← Model.Sha2.update Model.Sha2.u64 (Model.Sha2.ivName s.h.hs) s
  let s ← Model.Sha2.finalState Model.Sha2.u64 s
  let out ← Model.Sha2.output Model.Sha2.u64 s
  let _ ← memcpyTo buf 0 out
  pure { s with h := { s.h with H := s.h.H.map byteswap64 }, pos := 0, total := 0 }

end Digestpp.Model.Locals
