import Verif.Vocab

/-!
# What a hasher is, to its user

A hash function object is a pair of parameter values and the bytes absorbed since the last (re)start; an XOF object
additionally knows how many bytes have been squeezed.
-/

namespace Digestpp

/-- The bytes a caller passes to `absorb`. -/
def Source.contents : Source → Bytes
  | .ptr d | .array d | .str d | .stream d | .iter d => d

namespace Spec

/-- Lowercase hexadecimal digit. -/
def hexDigit (n : Nat) : Char :=
  if n < 10 then Char.ofNat (48 + n) else Char.ofNat (87 + n)

/-- Two digits per byte, most significant first. -/
def hex (b : Bytes) : List Char :=
  b.flatMap fun x => [hexDigit (x.toNat / 16), hexDigit (x.toNat % 16)]

/-- A hash function: digest size in bytes, parameters `Θ` with a default, the effect of a setter (`none`: rejected), and the digest of
a message. -/
structure HashFn (P Θ : Type) where
  size : Nat
  dflt : Θ
  set : P → Θ → Option Θ
  digest : Θ → Bytes → Bytes

/-- An extendable output function: byte `n` of the output stream for given parameters and message. -/
structure XofFn (P Θ : Type) where
  dflt : Θ
  set : P → Θ → Option Θ
  stream : Θ → Bytes → Nat → Byte

/-- The `n` output bytes from position `from` of a stream. -/
def slice (stream : Nat → Byte) (start n : Nat) : Bytes :=
  (List.range n).map fun i => stream (start + i)

/-- Abstract hash function object. -/
structure HashObj (Θ : Type) where
  params : Θ
  msg : Bytes

/-- Abstract XOF object. -/
structure XofObj (Θ : Type) where
  params : Θ
  msg : Bytes
  squeezed : Nat

namespace HashFn
variable {P Θ : Type} (f : HashFn P Θ)

/-- A newly constructed object. -/
def new : HashObj Θ := ⟨f.dflt, []⟩

/-- The effect of one call. -/
def step : HashOp P → HashObj Θ → Obs × HashObj Θ
  | .absorb src, o => (.done, { o with msg := o.msg ++ src.contents })
  | .digestBuf buf, o =>
    (if buf.length < f.size then .threw else .buffer (f.digest o.params o.msg ++ buf.drop f.size), o)
  | .digest, o => (.bytes (f.digest o.params o.msg), o)
  | .hexdigest, o => (.text (hex (f.digest o.params o.msg)), o)
  | .reset false, o => (.done, { o with msg := [] })
  | .reset true, _ => (.done, ⟨f.dflt, []⟩)
  | .set p, o =>
    match f.set p o.params with
    | none => (.threw, o)
    | some θ => (.done, ⟨θ, []⟩)

/-- The effect of a history of calls. -/
def run : List (HashOp P) → HashObj Θ → List Obs × HashObj Θ
  | [], o => ([], o)
  | op :: ops, o =>
    let r := f.step op o
    let rs := run ops r.2
    (r.1 :: rs.1, rs.2)

end HashFn

namespace XofFn
variable {P Θ : Type} (f : XofFn P Θ)

/-- A newly constructed object. -/
def new : XofObj Θ := ⟨f.dflt, [], 0⟩

/-- The bytes the next `n`-byte squeeze gives. -/
def next (n : Nat) (o : XofObj Θ) : Bytes := slice (f.stream o.params o.msg) o.squeezed n

/-- The effect of one call. -/
def step : XofOp P → XofObj Θ → Obs × XofObj Θ
  | .absorb src, o => (.done, { o with msg := o.msg ++ src.contents })
  | .squeezeBuf buf, o => (.buffer (f.next buf.length o), { o with squeezed := o.squeezed + buf.length })
  | .squeeze n, o => (.bytes (f.next n o), { o with squeezed := o.squeezed + n })
  | .hexsqueeze n, o => (.text (hex (f.next n o)), { o with squeezed := o.squeezed + n })
  | .reset false, o => (.done, { o with msg := [], squeezed := 0 })
  | .reset true, _ => (.done, ⟨f.dflt, [], 0⟩)
  | .set p, o =>
    match f.set p o.params with
    | none => (.threw, o)
    | some θ => (.done, ⟨θ, [], 0⟩)

/-- The effect of a history of calls. -/
def run : List (XofOp P) → XofObj Θ → List Obs × XofObj Θ
  | [], o => ([], o)
  | op :: ops, o =>
    let r := f.step op o
    let rs := run ops r.2
    (r.1 :: rs.1, rs.2)

end XofFn
end Spec

/-- A range the caller passes by pointer and length is a valid memory object, hence shorter than `2^63` bytes (`PTRDIFF_MAX`).
Iterator ranges and streams may be longer. -/
def Source.Valid : Source → Prop
  | .ptr d | .array d | .str d => d.length < 2 ^ 63
  | .stream _ | .iter _ => True

namespace Spec

/-- What a conformance statement covers: parameters and messages for which the digest is promised (`adm`), whether
`reset(true)` is covered (`clr`), which setter calls are (`prm`), and up to which positions the output stream is (`out`, for XOFs). -/
structure Cover (P Θ : Type) where
  adm : Θ → Bytes → Prop
  clr : Prop
  prm : P → Prop
  out : Nat → Prop

/-- Everything is covered. -/
def Cover.all (P : Type) {Θ : Type} : Cover P Θ := ⟨fun _ _ => True, True, fun _ => True, fun _ => True⟩

/-- Everything is covered, for messages of fewer than `n` bytes. -/
def Cover.below (P : Type) {Θ : Type} (n : Nat) : Cover P Θ := ⟨fun _ m => m.length < n, True, fun _ => True, fun _ => True⟩

/-- The call `op` is covered in the situation `o`. -/
def Cover.hashOp {P Θ : Type} (c : Cover P Θ) : HashOp P → HashObj Θ → Prop
  | .absorb src, _ => src.Valid
  | .digestBuf _, o | .digest, o | .hexdigest, o => c.adm o.params o.msg
  | .reset b, _ => b = true → c.clr
  | .set p, _ => c.prm p

/-- The call `op` is covered in the situation `o`: in particular nothing is absorbed after squeezing has begun and nothing of
length zero is squeezed. -/
def Cover.xofOp {P Θ : Type} (c : Cover P Θ) : XofOp P → XofObj Θ → Prop
  | .absorb src, o => src.Valid ∧ o.squeezed = 0
  | .squeezeBuf buf, o => c.adm o.params o.msg ∧ 0 < buf.length ∧ buf.length < 2 ^ 61 ∧ c.out (o.squeezed + buf.length)
  | .squeeze n, o | .hexsqueeze n, o => c.adm o.params o.msg ∧ 0 < n ∧ n < 2 ^ 61 ∧ c.out (o.squeezed + n)
  | .reset b, _ => b = true → c.clr
  | .set p, _ => c.prm p

/-- Every call of the history is covered. -/
def HashFn.Covered {P Θ : Type} (f : HashFn P Θ) (c : Cover P Θ) : List (HashOp P) → HashObj Θ → Prop
  | [], _ => True
  | op :: ops, o => c.hashOp op o ∧ f.Covered c ops (f.step op o).2

/-- Every call of the history is covered. -/
def XofFn.Covered {P Θ : Type} (f : XofFn P Θ) (c : Cover P Θ) : List (XofOp P) → XofObj Θ → Prop
  | [], _ => True
  | op :: ops, o => c.xofOp op o ∧ f.Covered c ops (f.step op o).2

end Spec
end Digestpp
