import Verif.Model.Leak.Run
import Verif.Model.Leak.Blake
import Verif.Model.Leak.Jh
import Verif.Model.Leak.Lsh
import Verif.Model.Leak.Md5
import Verif.Model.Leak.Sha1
import Verif.Model.Leak.Sha2
import Verif.Model.Leak.Sha3
import Verif.Model.Sha3
import Verif.Model.Blake

/-! `update` and `final` of the hash functions MD5, SHA-1, SHA-2, SM3, JH, LSH, SHA-3 and BLAKE, with a trace (see `Model/Leak`). The first argument is what is in the memory
of the local arrays, for each call of `transform`. -/

namespace Digestpp.Model.Leak

namespace Md5

/-- The callback of md5_provider.hpp 71-75. -/
def callback (_ : Unit) (data : Bytes) (n : Nat) (s : Blk (List (BitVec 32))) : L (Blk (List (BitVec 32))) := transform data n s

/-- md5_provider.hpp 71-75: `update`. -/
def update (k : Nat → Unit) (data : Bytes) (s : Blk (List (BitVec 32))) : L (Blk (List (BitVec 32))) := absorbBytes 64 64 callback k data s

/-- md5_provider.hpp 77-92: `final`. -/
def final (k : Nat → Unit) (s : Blk (List (BitVec 32))) : L Bytes := do
  let s ← mdFinal 64 56 56 bytes64 callback k s
  readBytes (stores32 s.h) 0 16

end Md5

namespace Sha1

/-- sha1_provider.hpp 62-66: `update`. -/
def update (k : Nat → Nat → Locals.Sha1.Stack) (data : Bytes) (s : Blk (List (BitVec 32))) : L (Blk (List (BitVec 32))) := absorbBytes 64 64 transform k data s

/-- sha1_provider.hpp 68-85: `final`. -/
def final (k : Nat → Nat → Locals.Sha1.Stack) (s : Blk (List (BitVec 32))) : L Bytes := do
  let s ← mdFinal 64 56 56 (fun total => bytes64 (byteswap64 total)) transform k s
  let H ← swapWords 5 byteswap32 s.h
  readBytes (stores32 H) 0 (160 / 8)

end Sha1

namespace Sha2
variable {w : Nat}

/-- sha2_provider.hpp 183-187: `update`. -/
def update (T : Model.Sha2.Word w) (ld : Bytes → Nat → L (BitVec w)) (k : Nat → Nat → Locals.Sha2.Stack w) (data : Bytes) (s : Blk (Model.Sha2.St w)) : L (Blk (Model.Sha2.St w)) :=
  absorbBytes (T.N / 4) (T.N / 4) (transform T ld) k data s

/-- sha2_provider.hpp 189-206: `final`. -/
def final (T : Model.Sha2.Word w) (ld : Bytes → Nat → L (BitVec w)) (k : Nat → Nat → Locals.Sha2.Stack w) (s : Blk (Model.Sha2.St w)) : L Bytes := do
  let s ← mdFinal (T.N / 4) (T.N / 4 - w / 8 * 2) (T.N / 4) (fun total => bytes64 (byteswap64 total)) (transform T ld) k s
  let H ← swapWords 8 T.byteswap s.h.H
  readBytes (T.stores H) 0 (s.h.hs / 8)

end Sha2

namespace Sm3

/-- sm3_provider.hpp 74-78: `update`. -/
def update (rot : Model.Sm3.Rot) (k : Nat → Nat → Locals.Sm3.Stack) (data : Bytes) (s : Blk (List (BitVec 32))) : L (Blk (List (BitVec 32))) := absorbBytes 64 64 (transform rot) k data s

/-- sm3_provider.hpp 80-98: `final`. -/
def final (rot : Model.Sm3.Rot) (k : Nat → Nat → Locals.Sm3.Stack) (s : Blk (List (BitVec 32))) : L Bytes := do
  let s ← mdFinal 64 56 56 (fun total => bytes64 (byteswap64 total)) (transform rot) k s
  let H ← swapWords 8 byteswap32 s.h
  readBytes (stores32 H) 0 32

end Sm3

namespace Jh

/-- The callback of jh_provider.hpp 136-140. -/
def callback (_ : Unit) (data : Bytes) (n : Nat) (s : Blk Model.Jh.St) : L (Blk Model.Jh.St) := transform data n s

/-- jh_provider.hpp 136-140: `update`. -/
def update (k : Nat → Unit) (data : Bytes) (s : Blk Model.Jh.St) : L (Blk Model.Jh.St) := absorbBytes 64 64 callback k data s

/-- jh_provider.hpp 142-159: `final`. -/
def final (k : Nat → Unit) (s : Blk Model.Jh.St) : L Bytes := do
  let s ← mdFinal 64 1 56 (fun t => bytes64 (byteswap64 t)) callback k s
  readBytes (stores64 s.h.H) (szSub 128 (s.h.hs / 8)) (s.h.hs / 8)

end Jh

namespace Lsh
variable {w : Nat}

/-- The callback of lsh_provider.hpp 112-116. -/
def callback (rot : Model.Lsh.Rot w) (T : Model.Lsh.Word w) (_ : List (BitVec w)) (data : Bytes) (n : Nat) (s : Blk (Model.Lsh.St w)) : L (Blk (Model.Lsh.St w)) := transform rot T data n s

/-- lsh_provider.hpp 112-116: `update`. -/
def update (rot : Model.Lsh.Rot w) (T : Model.Lsh.Word w) (k : Nat → List (BitVec w)) (data : Bytes) (s : Blk (Model.Lsh.St w)) : L (Blk (Model.Lsh.St w)) :=
  absorbBytes (Model.Lsh.blockBytes w) (Model.Lsh.blockBytes w) (callback rot T) k data s

/-- lsh_provider.hpp 118-130: `final`. `k 1`: what is in the local array `h`, whose size is `N / 2`; only its elements below 8 are used. -/
def final (rot : Model.Lsh.Rot w) (T : Model.Lsh.Word w) (k : Nat → List (BitVec w)) (s : Blk (Model.Lsh.St w)) : L Bytes := do
  let m ← setByte s.m s.pos 0x80
  let m ← zeroRest (Model.Lsh.blockBytes w) m (s.pos + 1)
  let s ← transform rot T m 1 { s with m := m, pos := s.pos + 1, total := s.total + BitVec.ofNat 64 ((s.pos + 1) * 8) }
  let h ← loop 0 8 (fun i h => do
    let x ← rd s.h.cv i
    let y ← rd s.h.cv (i + 8)
    wr h i (x ^^^ y)) (k 1)
  readBytes (T.stores h) 0 (s.h.hs / 8)

end Lsh

namespace Sha3

/-- sha3_provider.hpp 158: the callback. -/
def onBlocks (k : Nat → Nat → Locals.Sha3.Stack) (data : Bytes) (n : Nat) (s : Blk Model.Sha3.St) : L (Blk Model.Sha3.St) := do
  let A ← transform k 24 s.h.rate data n s.h.A
  pure { s with h := { s.h with A := A } }

/-- sha3_provider.hpp 155-159: `update`. -/
def update (k : Nat → Nat → Nat → Locals.Sha3.Stack) (data : Bytes) (s : Blk Model.Sha3.St) : L (Blk Model.Sha3.St) :=
  absorbBytes (s.h.rate / 8) (s.h.rate / 8) onBlocks k data s

/-- sha3_provider.hpp 165-166, shake_provider.hpp 131-132. -/
def zeroFill (r : Nat) (m : Bytes) (pos : Nat) : L Bytes := do
  if ← branch (r ≠ pos) then memset m pos 0 (szSub r pos) else pure m

/-- sha3_provider.hpp 163-168, shake_provider.hpp 130-134: padding the last block and processing it. -/
def padLast (k : Nat → Nat → Locals.Sha3.Stack) (R rate : Nat) (d : Byte) (m : Bytes) (pos : Nat) (A : List (BitVec 64)) : L (Bytes × List (BitVec 64)) := do
  let r := rate / 8
  let m ← setByte m pos d
  let m ← zeroFill r m (pos + 1)
  let b ← readBytes m (szSub r 1) 1
  let m ← setByte m (szSub r 1) (b.getD 0 0 ||| 0x80)
  let A ← transform k R rate m 1 A
  pure (m, A)

/-- sha3_provider.hpp 161-170: `final`. -/
def final (k : Nat → Nat → Nat → Locals.Sha3.Stack) (s : Blk Model.Sha3.St) : L Bytes := do
  let (_, A) ← padLast (k 0) 24 s.h.rate 0x06 s.m s.pos s.h.A
  readBytes (stores64 A) 0 (s.h.hs / 8)

end Sha3

namespace Blake
open Model.Blake (blockBytes messageend truncated)

/-- What is in the local arrays of `transform`, for both word sizes (blake_provider.hpp 82-84). -/
abbrev Stacks := (Nat → Locals.Blake.Stack 64) × (Nat → Locals.Blake.Stack 32)

/-- The callback of blake_provider.hpp 224-228 and the calls of `transform` in 241-265. -/
def callback (padding final : Bool) (k : Stacks) (data : Bytes) (n : Nat) (s : Blk Model.Blake.St) : L (Blk Model.Blake.St) := transform k.1 k.2 padding final data n s

/-- blake_provider.hpp 224-228: `update`. -/
def update (k : Nat → Stacks) (data : Bytes) (s : Blk Model.Blake.St) : L (Blk Model.Blake.St) :=
  absorbBytes (blockBytes s.h.hs) (blockBytes s.h.hs) (callback false false) k data s

/-- blake_provider.hpp 256-260: the `if (pos <= messageend)` statement. The conditional expressions in 243, 244 and 259, whose conditions are made of the hash size, are left out. -/
def padEnd (hs : Nat) (m : Bytes) (pos : Nat) : L Bytes := do
  if ← branch (pos ≤ messageend hs) then
    let m ← memset m pos 0 (szSub (messageend hs) pos)
    setByte m (messageend hs) (if truncated hs then 0x00 else 0x01)
  else pure m

/-- blake_provider.hpp 262-263. -/
def padLen (hs : Nat) (m : Bytes) : L Bytes := do
  if ← branch (blockBytes hs = 128) then memset m (128 - 16) 0 8 else pure m

/-- blake_provider.hpp 266-277: the output. -/
def output (h : Model.Blake.St) : L Bytes := do
  if ← branch (h.hs > 256) then
    let H ← swapWords 8 byteswap64 h.H512
    readBytes (stores64 H) 0 (h.hs / 8)
  else
    let H ← swapWords 8 byteswap32 h.H256
    readBytes (stores32 H) 0 (h.hs / 8)

/-- blake_provider.hpp 256-277: `final` after the first `if`. -/
def finalTail (padding : Bool) (k : Stacks) (s : Blk Model.Blake.St) : L Bytes := do
  let m ← padEnd s.h.hs s.m s.pos
  let m ← padLen s.h.hs m
  let m ← memcpyTo m (blockBytes s.h.hs - 8) (bytes64 (byteswap64 s.total))
  let s ← callback padding true k m 1 { s with m := m }
  output s.h

/-- blake_provider.hpp 241-278: `final`. The condition of the conditional expression in 247 is one event. -/
def final (k : Nat → Stacks) (s : Blk Model.Blake.St) : L Bytes := do
  let total := s.total + BitVec.ofNat 64 (8 * s.pos)
  let c ← branch (s.pos = messageend s.h.hs ∧ truncated s.h.hs = false)
  let m ← setByte s.m s.pos (if c then 0x81 else 0x80)
  if ← branch (s.pos > messageend s.h.hs) then
    let m ← zeroRest (blockBytes s.h.hs) m (s.pos + 1)
    let s ← callback false true (k 0) m 1 { s with m := m, pos := s.pos + 1, total := total }
    finalTail true (k 1) { s with pos := 0 }
  else finalTail (s.pos = 0) (k 1) { s with m := m, pos := s.pos + 1, total := total }

end Blake

end Digestpp.Model.Leak
