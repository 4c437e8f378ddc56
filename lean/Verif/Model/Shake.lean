import Verif.Model.Sha3

/-! Model of algorithm/detail/shake_provider.hpp. -/

namespace Digestpp.Model.Shake

/-- shake_provider.hpp 24-27, 39-42: `while (tmp >>= 8) ++n;`. A `size_t` becomes zero after at most 8 shifts, so 8 iterations are
enough. -/
def countLoop : Nat → Nat → Nat → Nat
  | 0, _, n => n
  | fuel + 1, tmp, n => if tmp / 256 = 0 then n else countLoop fuel (tmp / 256) (n + 1)

/-- shake_provider.hpp 21-34: `left_encode(num, buf)`; the bytes written to `buf` (the return value is their number). The value of
`buf[1 + j]` is `num >> (8 * (n - 1 - j))`. -/
def leftEncode (num : Nat) : Bytes :=
  let n := countLoop 8 num 1
  BitVec.ofNat 8 n :: (List.range n).map fun j => BitVec.ofNat 8 (num >>> (8 * (n - 1 - j)))

/-- shake_provider.hpp 36-49: `right_encode(num, buf, k12)`. -/
def rightEncode (num : Nat) (k12 : Bool) : Bytes :=
  let n := countLoop 8 num (if k12 then if num ≠ 0 then 1 else 0 else 1)
  (List.range n).map (fun j => BitVec.ofNat 8 (num >>> (8 * (n - 1 - j)))) ++ [BitVec.ofNat 8 n]

/-- The members besides `m`, `pos`, `total` (shake_provider.hpp 168-177). The constant member `rate` is a parameter of the
functions below. -/
structure St where
  A : List (BitVec 64)
  N : Bytes
  S : Bytes
  squeezing : Bool
  suffix : Byte

/-- shake_provider.hpp 116: the callback. -/
def onBlocks (R rate : Nat) (data : Bytes) (n : Nat) (s : Blk St) : M (Blk St) := do
  let A ← Sha3.transform R rate data n s.h.A
  pure { s with h := { s.h with A := A } }

/-- shake_provider.hpp 113-117: `update`. -/
def update (R rate : Nat) (data : Bytes) (s : Blk St) : M (Blk St) :=
  absorbBytes (rate / 8) (rate / 8) (onBlocks R rate) data s

/-- shake_provider.hpp 98-99, 103-104: `if (!X.empty()) update(X.data(), X.length())`. -/
def updateString (R rate : Nat) (x : Bytes) (s : Blk St) : M (Blk St) :=
  if x.isEmpty then pure s else update R rate x s

/-- shake_provider.hpp 90-109: the prefix absorbed when there is a function name or customization. -/
def initPrefix (R rate : Nat) (s : Blk St) : M (Blk St) := do
  let r := rate / 8
  let N := s.h.N
  let S := s.h.S
  let b1 := leftEncode r
  let s ← update R rate b1 s
  let b2 := leftEncode (N.length * 8 % szMod)
  let s ← update R rate b2 s
  let s ← updateString R rate N s
  let b3 := leftEncode (S.length * 8 % szMod)
  let s ← update R rate b3 s
  let s ← updateString R rate S s
  let total := (b1.length + b2.length + b3.length + S.length + N.length) % szMod
  let len := r - total % r                                  -- 107
  let buf ← memset (List.replicate 1024 0) 0 0 len          -- 108
  let z ← readBytes buf 0 len
  update R rate z s

/-- shake_provider.hpp 82-86: the fields `init` sets. -/
def initFields (s : Blk St) : Blk St :=
  { h := { A := List.replicate 25 0, N := s.h.N, S := s.h.S, squeezing := false, suffix := 0 }, m := s.m, pos := 0, total := 0 }

/-- shake_provider.hpp 80-111: `init`. -/
def init (R rate : Nat) (s : Blk St) : M (Blk St) :=
  if !s.h.N.isEmpty || !s.h.S.isEmpty then initPrefix R rate (initFields s) else pure (initFields s)

/-- shake_provider.hpp 119-122: `set_suffix`. -/
def setSuffix (v : Byte) (s : Blk St) : Blk St := { s with h := { s.h with suffix := v } }

/-- shake_provider.hpp 130: the first padding byte. -/
def domain (h : St) : Byte := if h.suffix ≠ 0 then h.suffix else if h.N.isEmpty && h.S.isEmpty then 0x1F else 0x04

/-- shake_provider.hpp 128-147: the first part of `squeeze`; gives the bytes copied. -/
def squeezeFirst (R rate hs : Nat) (s : Blk St) : M (Bytes × Blk St) :=
  let r := rate / 8
  if !s.h.squeezing then do
    let (m, A) ← Sha3.padLast R rate (domain s.h) s.m s.pos s.h.A
    pure ([], { h := { s.h with A := A, squeezing := true }, m := m, pos := s.pos + 1, total := s.total })
  else if s.pos < r then do
    let toCopy := min hs (r - s.pos)
    let out ← readBytes (stores64 s.h.A) s.pos toCopy
    pure (out, { s with pos := s.pos + toCopy })
  else if s.pos = r then
    pure ([], { s with h := { s.h with A := Sha3.permute R s.h.A } })
  else pure ([], s)

/-- shake_provider.hpp 148-155: `while (processed < hs)`. Every iteration copies at least one byte, so `hs` of them are enough.
`out` holds the bytes copied so far. -/
def squeezeLoop (R r hs : Nat) : Nat → Bytes → Blk St → M (Bytes × Blk St)
  | 0, out, s => pure (out, s)
  | fuel + 1, out, s =>
    if out.length < hs then do
      let A := if out.length ≠ 0 then Sha3.permute R s.h.A else s.h.A
      let pos := min (hs - out.length) r
      let b ← readBytes (stores64 A) 0 pos
      squeezeLoop R r hs fuel (out ++ b) { s with h := { s.h with A := A }, pos := pos }
    else pure (out, s)

/-- shake_provider.hpp 124-156: `squeeze`. -/
def squeeze (R rate hs : Nat) (s : Blk St) : M (Bytes × Blk St) := do
  let (out, s) ← squeezeFirst R rate hs s
  squeezeLoop R (rate / 8) hs hs out s

/-- shake_provider.hpp 158-166: `clear`. -/
def clear (s : Blk St) : M (Blk St) :=
  pure { s with h := { s.h with A := List.replicate 25 0, N := [], S := [] }, m := zeroBytes s.m }

/-- shake_provider.hpp 70-73: `set_function_name`. -/
def setFunctionName (v : Bytes) (s : Blk St) : Blk St := { s with h := { s.h with N := v } }

/-- shake_provider.hpp 75-78: `set_customization`. -/
def setCustomization (v : Bytes) (s : Blk St) : Blk St := { s with h := { s.h with S := v } }

/-- algorithm/mixin/cshake_mixin.hpp with 70-78. -/
def set (p : CShakeParam) (s : Blk St) : M (Bool × Blk St) :=
  match p with
  | .functionName v => pure (false, setFunctionName v s)
  | .customization v => pure (false, setCustomization v s)

/-- shake_provider.hpp 172: the constant member `rate`. -/
def rateOf (B : Nat) : Nat := if B = 128 then 1344 else 1088

/-- shake_provider.hpp 60-63, 171-172: the constructor; the strings are default-constructed, hence empty. -/
def new (s : Blk St) : Blk St := { s with h := { s.h with N := [], S := [] } }

/-- algorithm/shake.hpp: `shake128`, `shake256` (`hasher<shake_provider<B, 24>>`). -/
def shake (B : Nat) : XofClass where
  S := Blk St
  P := Empty
  pr := { init := init 24 (rateOf B), update := update 24 (rateOf B), squeeze := squeeze 24 (rateOf B), clear := clear, set := nofun }
  Mem := fun s => s.m.length = 168
  ctor := fun s => pure (some (new s))

/-- algorithm/shake.hpp: `cshake128`, `cshake256` (`hasher<shake_provider<B, 24>, cshake_mixin>`). -/
def cshake (B : Nat) : XofClass where
  S := Blk St
  P := CShakeParam
  pr := { init := init 24 (rateOf B), update := update 24 (rateOf B), squeeze := squeeze 24 (rateOf B), clear := clear, set := set }
  Mem := fun s => s.m.length = 168
  ctor := fun s => pure (some (new s))

end Digestpp.Model.Shake
