import Verif.Model.Leak.Hash
import Verif.Model.Leak.Ascon
import Verif.Model.Leak.Esch
import Verif.Model.Leak.Skein
import Verif.Model.Kmac

/-! `init`, `update`, `squeeze` and `final` of BLAKE2, Skein, SHAKE, cSHAKE, KMAC, Esch and Ascon, with a trace (see `Model/Leak`). The first argument is what is in the
memory of the local arrays. Conditions that are made of template arguments only are known to the compiler and leave no event. Whole arrays set to zero or to constants
(`zero_memory`, `memcpy` from a table to an array of the same size) and accesses at indices that are literals leave no event here either. -/

namespace Digestpp.Model.Leak
variable {σ κ κ0 : Type}

/-- Calls of `squeeze` one after the other (hasher.hpp 206-243); the bytes of all of them. -/
def outputs (squeeze : κ → Nat → σ → L (Bytes × σ)) : (Nat → κ) → List Nat → σ → L Bytes
  | _, [], _ => pure []
  | k, n :: ns, s => do
    let r ← squeeze (k 0) n s
    let b ← outputs squeeze (fun i => k (i + 1)) ns r.2
    pure (r.1 ++ b)

/-- `init` (called by the constructor and when a parameter has been set, hasher.hpp 60-84 and the mixins), several calls of `absorb`, then `digest`. -/
def hashInit (init : κ0 → σ → L σ) (update : κ → Bytes → σ → L σ) (final : κ → σ → L Bytes) (k0 : κ0) (k : Nat → κ) (ds : List Bytes) (s : σ) : L Bytes := do
  let s ← init k0 s
  let s ← updates update (fun i => k (2 * i)) ds s
  final (k 1) s

/-- `init`, several calls of `absorb`, then several calls of `squeeze`. -/
def xofInit (init : κ0 → σ → L σ) (update : κ → Bytes → σ → L σ) (squeeze : κ → Nat → σ → L (Bytes × σ)) (k0 : κ0) (k : Nat → κ) (ds : List Bytes) (ns : List Nat) (s : σ) : L Bytes := do
  let s ← init k0 s
  let s ← updates update (fun i => k (2 * i)) ds s
  outputs squeeze (fun i => k (2 * i + 1)) ns s

namespace Blake2
open Model.Blake2
variable {w : Nat}

/-- What is in the local arrays of `transform`, for each block (blake2_provider.hpp 321-335). -/
abbrev Stacks (w : Nat) := Nat → Locals.Blake.Stack w

/-- blake2_provider.hpp 200-204: `update`. -/
def update (T : Word w) (ld : Bytes → Nat → L (BitVec w)) (k : Nat → Stacks w) (data : Bytes) (s : Blk (St w)) : L (Blk (St w)) :=
  absorbBytes (2 * w) (2 * w + 1) (fun k => transform T ld k false) k data s

/-- blake2_provider.hpp 246-248, 280-282. -/
def lastBlock (T : Word w) (ld : Bytes → Nat → L (BitVec w)) (k : Stacks w) (s : Blk (St w)) : L (Blk (St w)) := do
  let m ← zeroRest (2 * w) s.m s.pos
  transform T ld k true m 1 { s with m := m }

/-- blake2_provider.hpp 310-313: the contents of the local array `key`, at first `key`. -/
def keyBlock (w : Nat) (key k : Bytes) : L Bytes := do
  let key ← memcpyTo key 0 k
  if ← branch (k.length ≠ 2 * w) then memset key k.length 0 (2 * w - k.length) else pure key

/-- blake2_provider.hpp 305-315: `absorb_key`. -/
def absorbKey (T : Word w) (ld : Bytes → Nat → L (BitVec w)) (k : (Nat → Stacks w) × Bytes) (s : Blk (St w)) : L (Blk (St w)) := do
  if ← branch (s.h.k = []) then pure s
  else do
    let key ← keyBlock w k.2 s.h.k
    update T ld k.1 key s

/-- blake2_provider.hpp 159-198: `init`. The branches on `fanout` and `nodedepth` in 75-87 and 185-194 are left out. -/
def init (T : Word w) (ld : Bytes → Nat → L (BitVec w)) (kind : Kind) (k : (Nat → Stacks w) × Bytes) (s : Blk (St w)) : L (Blk (St w)) := do
  let s := { s with pos := 0, total := 0, h := { s.h with H := initial T kind s.h, xoffset := 0, squeezing := false } }
  if ← branch (s.h.fanout = 0 ∨ s.h.nodedepth = 0) then absorbKey T ld k s else pure s

/-- blake2_provider.hpp 240-257: `squeeze` before the loop. -/
def squeezeFirst (T : Word w) (ld : Bytes → Nat → L (BitVec w)) (kind : Kind) (k : Stacks w) (hs : Nat) (s : Blk (St w)) : L (Bytes × Blk (St w)) := do
  if ← branch (s.h.squeezing = false) then do
    let total := if kind = .xof then s.total + BitVec.ofNat 64 (s.pos * 8) else s.total
    let s ← lastBlock T ld k { s with total := total, h := { s.h with squeezing := true, xoffset := 0 } }
    let m ← memcpyTo s.m 0 (T.stores s.h.H)
    pure ([], { s with m := m })
  else if ← branch (s.pos < w) then do
    let toCopy := min hs (w - s.pos)
    let b ← readBytes (T.stores s.h.H) s.pos toCopy
    pure (b, { s with pos := s.pos + toCopy })
  else pure ([], s)

/-- blake2_provider.hpp 258-271: `while (processed < hs)`. The conditional expression and `std::min` in 92, 101 are left out. -/
def squeezeLoop (T : Word w) (ld : Bytes → Nat → L (BitVec w)) (kind : Kind) (hs : Nat) : Nat → (Nat → Stacks w) → Bytes → Blk (St w) → L (Bytes × Blk (St w))
  | 0, _, out, s => do
    let _ ← branch (out.length < hs)
    pure (out, s)
  | fuel + 1, k, out, s => do
    if ← branch (out.length < hs) then do
      let H := initSalt s.h.s s.h.p (initX T hs out.length s.h.xoffset (if kind = .xof then -1 else BitVec.ofNat w hs))
      let m ← memset s.m w 0 (2 * w - w)
      let s ← transform T ld (k 0) true m 1 { s with h := { s.h with H := H, xoffset := s.h.xoffset + 1 }, total := BitVec.ofNat 64 (8 * w), m := m }
      let pos := min (hs - out.length) w
      let b ← readBytes (T.stores s.h.H) 0 pos
      squeezeLoop T ld kind hs fuel (fun i => k (i + 1)) (out ++ b) { s with pos := pos }
    else pure (out, s)

/-- blake2_provider.hpp 237-272: `squeeze`. -/
def squeeze (T : Word w) (ld : Bytes → Nat → L (BitVec w)) (kind : Kind) (k : Nat → Stacks w) (hs : Nat) (s : Blk (St w)) : L (Bytes × Blk (St w)) := do
  let r ← squeezeFirst T ld kind (k 0) hs s
  squeezeLoop T ld kind hs hs (fun i => k (i + 1)) r.1 r.2

/-- blake2_provider.hpp 274-287: `final(hash)`. -/
def final (T : Word w) (ld : Bytes → Nat → L (BitVec w)) (kind : Kind) (k : Nat → Stacks w) (s : Blk (St w)) : L Bytes :=
  let s := { s with total := s.total + BitVec.ofNat 64 (s.pos * 8) }
  if kind = .hash then do
    let s ← lastBlock T ld (k 0) s
    readBytes (T.stores s.h.H) 0 (s.h.hs / 8)
  else do
    let r ← squeeze T ld kind k (s.h.hs / 8) s
    pure r.1

end Blake2

namespace Skein
open Model.Skein

/-- What is in the local arrays of `transform` (skein_provider.hpp 317-321). -/
abbrev Stacks := (Nat → Locals.Skein.Stack) × List (BitVec 64) × List (BitVec 64)

/-- The calls of `transform` (skein_provider.hpp 237, 250, 263, 283, 372). -/
def call (F : Fns) (reallen : Nat) (k : Stacks) (mp : Bytes) (n : Nat) (s : Blk St) : L (Blk St) := transform F k.1 k.2.1 k.2.2 reallen mp n s

/-- skein_provider.hpp 247-251: `update`. -/
def update (F : Fns) (k : Nat → Stacks) (data : Bytes) (s : Blk St) : L (Blk St) := absorbBytes (8 * F.nw) (8 * F.nw + 1) (call F (8 * F.nw)) k data s

/-- skein_provider.hpp 260-261, 370-371. -/
def zeroTail (bs : Nat) (m : Bytes) (pos : Nat) : L Bytes := do
  if ← branch (pos < bs) then memset m pos 0 (bs - pos) else pure m

/-- skein_provider.hpp 259-263, 369-372. -/
def last (F : Fns) (k : Stacks) (s : Blk St) : L (Blk St) := do
  let m ← zeroTail (8 * F.nw) s.m s.pos
  call F s.pos k m 1 { s with m := m, h := { s.h with tweak1 := s.h.tweak1 ||| (1 : BitVec 64) <<< 63 } }

/-- skein_provider.hpp 362-378: `inject_parameter(p, code)`. -/
def injectParameter (F : Fns) (k : (Nat → Stacks) × Stacks) (p : Bytes) (code : BitVec 64) (s : Blk St) : L (Blk St) := do
  if ← branch (p = []) then pure s
  else do
    let s ← update F k.1 p { s with h := { s.h with tweak1 := code1 code } }
    let s ← last F k.2 s
    pure { s with pos := 0, total := 0, h := { s.h with squeezing := false, tweak0 := 0, tweak1 := code1 48 } }

/-- skein_provider.hpp 229-236. -/
def config (size64 : BitVec 64) (m : Bytes) : L Bytes := do
  let m := zeroBytes m
  let m ← setByte m 0 0x53
  let m ← setByte m 1 0x48
  let m ← setByte m 2 0x41
  let m ← setByte m 3 0x33
  let m ← setByte m 4 0x01
  memcpyTo m 8 (bytes64 size64)

/-- skein_provider.hpp 220-245: `init`. `k 0`, `k 2`, `k 3`: for the calls of `inject_parameter`; `k 1`: for the other call of `transform`. -/
def init (F : Fns) (xof : Bool) (k : Nat → (Nat → Stacks) × Stacks) (s : Blk St) : L (Blk St) := do
  let s := { s with pos := 0, total := 0, h := { s.h with squeezing := false, tweak0 := 0, H := List.replicate F.nw 0 } }
  let s ← injectParameter F (k 0) s.h.k 0 s
  let size64 := if xof then (-1 : BitVec 64) else BitVec.ofNat 64 s.h.hs
  let m ← config size64 s.m
  let s ← call F 32 (k 1).2 m 1
    { s with m := m, h := { s.h with tweak1 := (1 : BitVec 64) <<< 62 ||| (4 : BitVec 64) <<< 56 ||| (1 : BitVec 64) <<< 63 } }
  let s := { s with pos := 0, total := 0, h := { s.h with tweak0 := 0, tweak1 := code1 48 } }
  let s ← injectParameter F (k 2) s.h.p 8 s
  injectParameter F (k 3) s.h.n 20 s

/-- skein_provider.hpp 255-275: `squeeze` before the loop. -/
def squeezeFirst (F : Fns) (k : Stacks) (hs : Nat) (s : Blk St) : L (Bytes × Blk St) := do
  if ← branch (s.h.squeezing = false) then do
    let s ← last F k { s with h := { s.h with squeezing := true } }
    let m ← memset s.m 0 0 (8 * F.nw)
    pure ([], { s with m := m, pos := 0, total := 0, h := { s.h with hbk := s.h.H } })
  else if ← branch (s.pos < 8 * F.nw) then do
    let toCopy := min hs (8 * F.nw - s.pos)
    let b ← readBytes (stores64 s.h.H) s.pos toCopy
    pure (b, { s with pos := s.pos + toCopy })
  else pure ([], s)

/-- skein_provider.hpp 276-287: `while (processed < hs)`. -/
def squeezeLoop (F : Fns) (hs : Nat) : Nat → (Nat → Stacks) → Bytes → Blk St → L (Bytes × Blk St)
  | 0, _, out, s => do
    let _ ← branch (out.length < hs)
    pure (out, s)
  | fuel + 1, k, out, s => do
    if ← branch (out.length < hs) then do
      let pos := min (hs - out.length) (8 * F.nw)
      let m ← memcpyTo s.m 0 (bytes64 s.total)
      let s ← call F 8 (k 0) m 1 { s with m := m, pos := pos, h := { s.h with tweak0 := 0, tweak1 := (255 : BitVec 64) <<< 56, H := s.h.hbk } }
      let b ← readBytes (stores64 s.h.H) 0 pos
      squeezeLoop F hs fuel (fun i => k (i + 1)) (out ++ b) { s with total := s.total + 1 }
    else pure (out, s)

/-- skein_provider.hpp 253-288: `squeeze`. -/
def squeeze (F : Fns) (k : Nat → Stacks) (hs : Nat) (s : Blk St) : L (Bytes × Blk St) := do
  let r ← squeezeFirst F (k 0) hs s
  squeezeLoop F hs hs (fun i => k (i + 1)) r.1 r.2

/-- skein_provider.hpp 290-293: `final`. -/
def final (F : Fns) (k : Nat → Stacks) (s : Blk St) : L Bytes := do
  let r ← squeeze F k (s.h.hs / 8) s
  pure r.1

end Skein

namespace Shake
open Model.Shake

/-- What is in the local arrays of `sha3_functions::transform`, for each block (sha3_provider.hpp 30-60). -/
abbrev Stacks := Nat → Nat → Locals.Sha3.Stack

/-- shake_provider.hpp 116: the callback. -/
def onBlocks (R rate : Nat) (k : Stacks) (data : Bytes) (n : Nat) (s : Blk St) : L (Blk St) := do
  let A ← Sha3.transform k R rate data n s.h.A
  pure { s with h := { s.h with A := A } }

/-- shake_provider.hpp 113-117: `update`. -/
def update (R rate : Nat) (k : Nat → Stacks) (data : Bytes) (s : Blk St) : L (Blk St) := absorbBytes (rate / 8) (rate / 8) (onBlocks R rate) k data s

/-- shake_provider.hpp 98-99, 103-104. -/
def updateString (R rate : Nat) (k : Nat → Stacks) (x : Bytes) (s : Blk St) : L (Blk St) := do
  if ← branch (x.isEmpty = true) then pure s else update R rate k x s

/-- shake_provider.hpp 90-109. `left_encode`, whose arguments are lengths, is not traced. -/
def initPrefix (R rate : Nat) (k : Nat → Nat → Stacks) (s : Blk St) : L (Blk St) := do
  let r := rate / 8
  let N := s.h.N
  let S := s.h.S
  let b1 := leftEncode r
  let s ← update R rate (k 0) b1 s
  let b2 := leftEncode (N.length * 8 % szMod)
  let s ← update R rate (k 1) b2 s
  let s ← updateString R rate (k 2) N s
  let b3 := leftEncode (S.length * 8 % szMod)
  let s ← update R rate (k 3) b3 s
  let s ← updateString R rate (k 4) S s
  let total := (b1.length + b2.length + b3.length + S.length + N.length) % szMod
  let len := r - total % r
  let buf ← memset (List.replicate 1024 0) 0 0 len
  let z ← readBytes buf 0 len
  update R rate (k 5) z s

/-- shake_provider.hpp 80-111: `init`. The condition is one event. -/
def init (R rate : Nat) (k : Nat → Nat → Stacks) (s : Blk St) : L (Blk St) := do
  if ← branch ((!s.h.N.isEmpty || !s.h.S.isEmpty) = true) then initPrefix R rate k (initFields s) else pure (initFields s)

/-- shake_provider.hpp 128-147: the first part of `squeeze`. The conditional expressions in 130, whose conditions are made of `suffix` and of the lengths of the strings, are left out. -/
def squeezeFirst (R rate : Nat) (k : Stacks) (hs : Nat) (s : Blk St) : L (Bytes × Blk St) := do
  let r := rate / 8
  if ← branch ((!s.h.squeezing) = true) then do
    let x ← Sha3.padLast k R rate (domain s.h) s.m s.pos s.h.A
    pure ([], { h := { s.h with A := x.2, squeezing := true }, m := x.1, pos := s.pos + 1, total := s.total })
  else if ← branch (s.pos < r) then do
    let toCopy := min hs (r - s.pos)
    let out ← readBytes (stores64 s.h.A) s.pos toCopy
    pure (out, { s with pos := s.pos + toCopy })
  else if ← branch (s.pos = r) then do
    let A ← Sha3.permute (k 0) R s.h.A
    pure ([], { s with h := { s.h with A := A } })
  else pure ([], s)

/-- shake_provider.hpp 150-151. -/
def next (R : Nat) (k : Nat → Locals.Sha3.Stack) (processed : Nat) (A : List (BitVec 64)) : L (List (BitVec 64)) := do
  if ← branch (processed ≠ 0) then Sha3.permute k R A else pure A

/-- shake_provider.hpp 148-155: `while (processed < hs)`. -/
def squeezeLoop (R r hs : Nat) : Nat → (Nat → Stacks) → Bytes → Blk St → L (Bytes × Blk St)
  | 0, _, out, s => do
    let _ ← branch (out.length < hs)
    pure (out, s)
  | fuel + 1, k, out, s => do
    if ← branch (out.length < hs) then do
      let A ← next R (k 0 0) out.length s.h.A
      let pos := min (hs - out.length) r
      let b ← readBytes (stores64 A) 0 pos
      squeezeLoop R r hs fuel (fun i => k (i + 1)) (out ++ b) { s with h := { s.h with A := A }, pos := pos }
    else pure (out, s)

/-- shake_provider.hpp 124-156: `squeeze`. -/
def squeeze (R rate : Nat) (k : Nat → Stacks) (hs : Nat) (s : Blk St) : L (Bytes × Blk St) := do
  let r ← squeezeFirst R rate (k 0) hs s
  squeezeLoop R (rate / 8) hs hs (fun i => k (i + 1)) r.1 r.2

end Shake

namespace Kmac
open Model.Kmac

/-- kmac_provider.hpp 89-92: `update`. -/
def update (B : Nat) (k : Nat → Shake.Stacks) (data : Bytes) (s : St) : L St := do
  let sh ← Shake.update 24 (Model.Shake.rateOf B) k data s.shake
  pure { s with shake := sh }

/-- kmac_provider.hpp 81-87: `init`. `k 6`: for the key. -/
def init (B : Nat) (k : Nat → Nat → Shake.Stacks) (s : St) : L St := do
  let sh ← Shake.init 24 (Model.Shake.rateOf B) k (Model.Shake.setFunctionName (ascii "KMAC") s.shake)
  update B (k 6) s.K { s with squeezing := false, shake := sh }

/-- kmac_provider.hpp 96-102: the first part of `squeeze`. `right_encode`, whose argument is a length, is not traced. -/
def squeezeFirst (B : Nat) (xof : Bool) (k : Nat → Shake.Stacks) (hs : Nat) (s : St) : L St := do
  if ← branch ((!s.squeezing) = true) then do
    let s ← update B k (Model.Shake.rightEncode (if !xof then hs * 8 % szMod else 0) false) s
    pure { s with squeezing := true }
  else pure s

/-- kmac_provider.hpp 94-104: `squeeze`. -/
def squeeze (B : Nat) (xof : Bool) (k : (Nat → Shake.Stacks) × (Nat → Shake.Stacks)) (hs : Nat) (s : St) : L (Bytes × St) := do
  let s ← squeezeFirst B xof k.1 hs s
  let r ← Shake.squeeze 24 (Model.Shake.rateOf B) k.2 hs s.shake
  pure (r.1, { s with shake := r.2 })

/-- kmac_provider.hpp 106-109: `final`. -/
def final (B : Nat) (k : (Nat → Shake.Stacks) × (Nat → Shake.Stacks)) (s : St) : L Bytes := do
  let r ← squeeze B false k (s.hs / 8) s
  pure r.1

end Kmac

namespace Esch
open Model.Esch

/-- What is in the local array `M` of `transform`, for each block (esch_provider.hpp 181). -/
abbrev Stacks := Nat → List (BitVec 32)

/-- esch_provider.hpp 118-122: `update`. -/
def update (k : Nat → Stacks) (data : Bytes) (s : Blk St) : L (Blk St) := absorbBytes 16 (16 + 1) (fun k => transform k false) k data s

/-- esch_provider.hpp 135, 138: `H[(hs+128)/64 - 1] ^= v`. -/
def xorConst (v : BitVec 32) (h : St) : L St := do
  let H ← upd h.H ((h.hs + 128) / 64 - 1) (· ^^^ v)
  pure { h with H := H }

/-- esch_provider.hpp 131-138: the statements before the last call of `transform`. -/
def padLast (xof : Bool) (s : Blk St) : L (Blk St) := do
  if ← branch (s.pos < 16) then do
    let m ← memset s.m s.pos 0 (16 - s.pos)
    let m ← setByte m s.pos 0x80
    let h ← xorConst (if xof then 0x5000000 else 0x1000000) s.h
    pure { s with m := m, h := h }
  else do
    let h ← xorConst (if xof then 0x6000000 else 0x2000000) s.h
    pure { s with h := h }

/-- esch_provider.hpp 127-149: the first part of `squeeze`. -/
def squeezeFirst (xof : Bool) (k : Stacks) (hss : Nat) (s : Blk St) : L (Bytes × Blk St) := do
  if ← branch ((!s.h.squeezing) = true) then do
    let s ← padLast xof { s with total := 1, h := { s.h with squeezing := true } }
    let s ← transform k true s.m 1 s
    pure ([], s)
  else if ← branch (s.pos < 16) then do
    let toCopy := min hss (16 - s.pos)
    let out ← readBytes (stores32 s.h.H) s.pos toCopy
    pure (out, { s with pos := s.pos + toCopy, total := 0 })
  else pure ([], s)

/-- esch_provider.hpp 153-154. The conditional expressions, whose condition is made of the hash size, are left out. -/
def next (total : BitVec 64) (hs : Nat) (H : List (BitVec 32)) : L (List (BitVec 32)) := do
  if ← branch (total = 0) then sparkle (if hs > 256 then 8 else 6) (if hs > 256 then 8 else 7) H else pure H

/-- esch_provider.hpp 151-159: `while (processed < hss)`. -/
def squeezeLoop (hss : Nat) : Nat → Bytes → Blk St → L (Bytes × Blk St)
  | 0, out, s => do
    let _ ← branch (out.length < hss)
    pure (out, s)
  | fuel + 1, out, s => do
    if ← branch (out.length < hss) then do
      let H ← next s.total s.h.hs s.h.H
      let pos := min (hss - out.length) 16
      let b ← readBytes (stores32 H) 0 pos
      squeezeLoop hss fuel (out ++ b) { s with h := { s.h with H := H }, pos := pos, total := 0 }
    else pure (out, s)

/-- esch_provider.hpp 124-160: `squeeze`. -/
def squeeze (xof : Bool) (k : Nat → Stacks) (hss : Nat) (s : Blk St) : L (Bytes × Blk St) := do
  let r ← squeezeFirst xof (k 0) hss s
  squeezeLoop hss hss r.1 r.2

/-- esch_provider.hpp 162-165: `final`. -/
def final (k : Nat → Stacks) (s : Blk St) : L Bytes := do
  let r ← squeeze false k (s.h.hs / 8) s
  pure r.1

/-- esch_provider.hpp 109-116: `init`. -/
def init (_ : Unit) (s : Blk St) : L (Blk St) :=
  pure { h := { s.h with squeezing := false, H := s.h.H.map fun _ => 0 }, m := zeroBytes s.m, pos := 0, total := 0 }

end Esch

namespace Ascon
open Model.Ascon

/-- The callback of ascon_provider.hpp 85-89. -/
def callback (_ : Unit) (data : Bytes) (n : Nat) (s : Blk St) : L (Blk St) := transform data n s

/-- ascon_provider.hpp 85-89: `update`. -/
def update (k : Nat → Unit) (data : Bytes) (s : Blk St) : L (Blk St) := absorbBytes 8 8 callback k data s

/-- ascon_provider.hpp 71-72. -/
def updateCustom (Z : Bytes) (s : Blk St) : L (Blk St) := do
  if ← branch ((!Z.isEmpty) = true) then update (fun _ => ()) Z s else pure s

/-- ascon_provider.hpp 66-76. -/
def initCustom (s : Blk St) : L (Blk St) := do
  let Z := s.h.Z
  let s ← update (fun _ => ()) (bytes64 (BitVec.ofNat 64 (Z.length * 8))) s
  let s ← updateCustom Z s
  let pad := Z.length % 8
  let z ← readBytes (bytes64 1) 0 (8 - pad)
  update (fun _ => ()) z s

/-- ascon_provider.hpp 36-77: `init`. -/
def init (kind : Kind) (_ : Unit) (s : Blk St) : L (Blk St) :=
  match kind with
  | .cxof => initCustom (initFields kind s)
  | _ => pure (initFields kind s)

/-- ascon_provider.hpp 97-98. -/
def zeroPad (m : Bytes) (pos : Nat) : L Bytes := do
  if ← branch (8 ≠ pos) then memset m pos 0 (szSub 8 pos) else pure m

/-- ascon_provider.hpp 93-114: the first part of `squeeze`. -/
def squeezeFirst (hs : Nat) (s : Blk St) : L (Bytes × Blk St) := do
  if ← branch ((!s.h.squeezing) = true) then do
    let m ← setByte s.m s.pos 1
    let pos := s.pos + 1
    let m ← zeroPad m pos
    let s ← transform m 1 { s with m := m, pos := pos }
    let m ← memset s.m 0 0 8
    pure ([], { s with m := m, h := { s.h with squeezing := true } })
  else if ← branch (s.pos < 8) then do
    let toCopy := min hs (8 - s.pos)
    let out ← readBytes (stores64 s.h.H) s.pos toCopy
    pure (out, { s with pos := s.pos + toCopy })
  else if ← branch (s.pos = 8) then do
    let s ← transform s.m 1 s
    pure ([], s)
  else pure ([], s)

/-- ascon_provider.hpp 118-119. -/
def next (processed : Nat) (s : Blk St) : L (Blk St) := do
  if ← branch (processed ≠ 0) then transform s.m 1 s else pure s

/-- ascon_provider.hpp 116-123: `while (processed < hs)`. -/
def squeezeLoop (hs : Nat) : Nat → Bytes → Blk St → L (Bytes × Blk St)
  | 0, out, s => do
    let _ ← branch (out.length < hs)
    pure (out, s)
  | fuel + 1, out, s => do
    if ← branch (out.length < hs) then do
      let s ← next out.length s
      let pos := min (hs - out.length) 8
      let b ← readBytes (stores64 s.h.H) 0 pos
      squeezeLoop hs fuel (out ++ b) { s with pos := pos }
    else pure (out, s)

/-- ascon_provider.hpp 91-124: `squeeze`. -/
def squeeze (_ : Nat → Unit) (hs : Nat) (s : Blk St) : L (Bytes × Blk St) := do
  let r ← squeezeFirst hs s
  squeezeLoop hs hs r.1 r.2

/-- ascon_provider.hpp 126-129: `final`. -/
def final (k : Nat → Unit) (s : Blk St) : L Bytes := do
  let r ← squeeze k (256 / 8) s
  pure r.1

end Ascon

end Digestpp.Model.Leak
