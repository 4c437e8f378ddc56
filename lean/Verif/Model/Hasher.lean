import Verif.Model.Absorb

/-!
# Model of hasher.hpp

The class template `hasher<HashProvider, Mixin>` as operations on a provider object, and histories of calls.
-/

namespace Digestpp

namespace Model

/-- hasher.hpp 86-390: the members `hasher` uses of a (non-XOF) `HashProvider` class with object state `S`. `final` returns the bytes it writes
to its output pointer; `set` is `provider.set_X(...)`: it returns whether it threw, and the object as it is then. -/
structure HashProvider (S P : Type) where
  init : S → M S
  update : Bytes → S → M S
  final : S → M Bytes
  clear : S → M S
  hashSize : S → Nat
  set : P → S → M (Bool × S)

/-- hasher.hpp 86-302, 385-390: the members `hasher` uses of an XOF provider class. `squeeze n` returns the `n` bytes written. -/
structure XofProvider (S P : Type) where
  init : S → M S
  update : Bytes → S → M S
  squeeze : Nat → S → M (Bytes × S)
  clear : S → M S
  set : P → S → M (Bool × S)

/-- hasher.hpp 152-166: the read loop over a stream with a 65536 byte buffer. `read` succeeds iff 65536 bytes are left;
otherwise `gcount()` is the number of bytes left. -/
def absorbStream {S : Type} (update : Bytes → S → M S) (rest : Bytes) (s : S) : M S :=
  if rest.length ≥ 65536 then do
    let s ← update (rest.take 65536) s
    absorbStream update (rest.drop 65536) s
  else if rest.length ≠ 0 then update rest s
  else pure s
termination_by rest.length
decreasing_by simp; omega

/-- hasher.hpp 86-190: the `absorb` overloads. -/
def absorb {S : Type} (update : Bytes → S → M S) : Source → S → M S
  | .ptr d, s => update d s
  | .array d, s => update d s
  | .str d, s => if d.isEmpty then pure s else update d s
  | .stream d, s => absorbStream update d s
  | .iter d, s => d.foldlM (fun s b => update [b] s) s

/-- detail/stream_width_fixer.hpp 14-24 with hasher.hpp 298-300, 374-376: `ostr << setw(2) << v` on a stream with
`setfill('0')` and `hex`. -/
def hexByte (b : Byte) : List Char :=
  let d := Nat.toDigits 16 b.toNat
  List.replicate (2 - d.length) '0' ++ d

/-- hasher.hpp 296-302, 372-378: the string built from the bytes sent to the output iterator. -/
def hexString (b : Bytes) : List Char := b.flatMap hexByte

namespace HashProvider
variable {S P : Type} (pr : HashProvider S P)

/-- hasher.hpp 324-331: `digest(T* buf, size_t len) const`. Works on a copy of the provider. -/
def digestBuf (buf : Bytes) (s : S) : M Obs := do
  if buf.length < pr.hashSize s / 8 then pure .threw
  else do
    let out ← pr.final s
    let b ← memcpyTo buf 0 out
    pure (.buffer b)

/-- hasher.hpp 349-355: `digest(OI it) const`. -/
def digestIt (s : S) : M Bytes := do
  let hash := List.replicate (pr.hashSize s / 8) (0 : Byte)
  if hash.isEmpty then throw .emptyVector
  let out ← pr.final s
  memcpyTo hash 0 out

/-- hasher.hpp 385-390: `reset(bool)`. -/
def reset (b : Bool) (s : S) : M S := do
  let s ← if b then pr.clear s else pure s
  pr.init s

/-- algorithm/mixin/*.hpp: `set_X` calls `provider.set_X` and then `provider.init()`; if the former throws, the latter is not
reached. -/
def setParam (p : P) (s : S) : M (Obs × S) := do
  let (threw, s) ← pr.set p s
  if threw then pure (.threw, s)
  else do
    let s ← pr.init s
    pure (.done, s)

/-- One call of a member function of hasher.hpp 86-390 or of a mixin. -/
def step : HashOp P → S → M (Obs × S)
  | .absorb src, s => do
    let s ← Model.absorb pr.update src s
    pure (.done, s)
  | .digestBuf buf, s => do
    let o ← pr.digestBuf buf s
    pure (o, s)
  | .digest, s => do
    let b ← pr.digestIt s
    pure (.bytes b, s)
  | .hexdigest, s => do
    let b ← pr.digestIt s
    pure (.text (hexString b), s)
  | .reset b, s => do
    let s ← pr.reset b s
    pure (.done, s)
  | .set p, s => pr.setParam p s

/-- A history of calls of the member functions of hasher.hpp 86-390 and of the mixin: what the caller sees, and the object afterwards. -/
def run : List (HashOp P) → S → M (List Obs × S)
  | [], s => pure ([], s)
  | op :: ops, s => do
    let (o, s) ← pr.step op s
    let (os, s) ← run ops s
    pure (o :: os, s)

end HashProvider

namespace XofProvider
variable {S P : Type} (pr : XofProvider S P)

/-- hasher.hpp 206-209, 224-227, 242-245: `squeeze(T* buf, size_t len)` and the array overloads. -/
def squeezeBuf (buf : Bytes) (s : S) : M (Obs × S) := do
  let (out, s) ← pr.squeeze buf.length s
  let b ← memcpyTo buf 0 out
  pure (.buffer b, s)

/-- hasher.hpp 270-275: `squeeze(size_t len, OI it)`. -/
def squeezeIt (len : Nat) (s : S) : M (Bytes × S) := do
  let hash := List.replicate len (0 : Byte)
  if hash.isEmpty then throw .emptyVector
  let (out, s) ← pr.squeeze len s
  let b ← memcpyTo hash 0 out
  pure (b, s)

/-- hasher.hpp 385-390: `reset(bool)`. -/
def reset (b : Bool) (s : S) : M S := do
  let s ← if b then pr.clear s else pure s
  pr.init s

/-- algorithm/mixin/*.hpp, as for hash functions. -/
def setParam (p : P) (s : S) : M (Obs × S) := do
  let (threw, s) ← pr.set p s
  if threw then pure (.threw, s)
  else do
    let s ← pr.init s
    pure (.done, s)

/-- One call of a member function of hasher.hpp 86-390 or of a mixin. -/
def step : XofOp P → S → M (Obs × S)
  | .absorb src, s => do
    let s ← Model.absorb pr.update src s
    pure (.done, s)
  | .squeezeBuf buf, s => pr.squeezeBuf buf s
  | .squeeze len, s => do
    let (b, s) ← pr.squeezeIt len s
    pure (.bytes b, s)
  | .hexsqueeze len, s => do
    let (b, s) ← pr.squeezeIt len s
    pure (.text (hexString b), s)
  | .reset b, s => do
    let s ← pr.reset b s
    pure (.done, s)
  | .set p, s => pr.setParam p s

/-- A history of calls of the member functions of hasher.hpp 86-390 and of the mixin. -/
def run : List (XofOp P) → S → M (List Obs × S)
  | [], s => pure ([], s)
  | op :: ops, s => do
    let (o, s) ← pr.step op s
    let (os, s) ← run ops s
    pure (o :: os, s)

end XofProvider

/-- A hash function class of the library: `hasher<Provider, Mixin>` (hasher.hpp 36-37). `Mem` says which memory contents an object may have before
its constructor has run: arrays of the declared sizes with arbitrary contents. `ctor` is the provider's constructor for the
arguments of this class; `none`: it throws `std::runtime_error`. -/
structure HashClass where
  S : Type
  P : Type
  pr : HashProvider S P
  Mem : S → Prop
  ctor : S → M (Option S)

/-- hasher.hpp 49-53, 67-71: the constructors of `hasher`. -/
def HashClass.construct (c : HashClass) (mem : c.S) : M (Option c.S) := do
  match ← c.ctor mem with
  | none => pure none
  | some s => do
    let s ← c.pr.init s
    pure (some s)

/-- Construct an object (hasher.hpp 49-53, 67-71) on the given memory and make the calls: what the caller sees, `none` for undefined behaviour or a throwing
constructor. -/
def HashClass.trial (c : HashClass) (mem : c.S) (ops : List (HashOp c.P)) : Option (List Obs) :=
  match (do
    match ← c.construct mem with
    | none => pure none
    | some s => do
      let r ← c.pr.run ops s
      pure (some r.1) : M (Option (List Obs))) with
  | .ok r => r
  | .error _ => none

/-- An XOF class of the library, `hasher<Provider, Mixin>` (hasher.hpp 36-37) with `is_xof` of the provider true (traits.hpp). -/
structure XofClass where
  S : Type
  P : Type
  pr : XofProvider S P
  Mem : S → Prop
  ctor : S → M (Option S)

/-- hasher.hpp 49-53, 67-71: the constructors of `hasher`. -/
def XofClass.construct (c : XofClass) (mem : c.S) : M (Option c.S) := do
  match ← c.ctor mem with
  | none => pure none
  | some s => do
    let s ← c.pr.init s
    pure (some s)

/-- As for hash functions: construction (hasher.hpp 49-53, 67-71) and calls. -/
def XofClass.trial (c : XofClass) (mem : c.S) (ops : List (XofOp c.P)) : Option (List Obs) :=
  match (do
    match ← c.construct mem with
    | none => pure none
    | some s => do
      let r ← c.pr.run ops s
      pure (some r.1) : M (Option (List Obs))) with
  | .ok r => r
  | .error _ => none

end Model
end Digestpp
