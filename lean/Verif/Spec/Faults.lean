import Verif.FaultVocab
import Verif.Spec.Sp800185
import Verif.Spec.Blake2

/-!
# What a call does that the environment cuts short

An object that a call was cut short on is as if another call had been made on it, one that was not cut short.
-/

namespace Digestpp.Spec

/-- The bytes of whole buffers of 65536 bytes among the first `n`. -/
def wholeBuffers (n : Nat) : Nat := n / 65536 * 65536

/-- What `absorb(istr)` takes from a stream, and whether an exception leaves it. -/
def streamTakes (st : IStream) : Bytes × Bool :=
  if st.eof || st.fail || st.bad then ([], st.xfail || (st.xeof && st.eof) || (st.xbad && st.bad))
  else
    let whole := st.left.take (wholeBuffers st.left.length)
    match st.fault with
    | some k =>
      if k ≤ st.left.length then
        if st.xbad || !st.counted then (st.left.take (wholeBuffers k), st.xbad) else (st.left.take k, false)
      else if st.xeof || st.xfail then (whole, true) else (st.left, false)
    | none => if st.xeof || st.xfail then (whole, true) else (st.left, false)

/-- There is memory for `n` string operations. -/
def enough (n : Nat) (mem : Memory) : Bool := (List.range n).all mem

/-- The result of copying `b` to an output iterator that takes `n` bytes. -/
def copied (n : Nat) (b : Bytes) : CallObs := if n < b.length then .exception (b.take n) else .seen (.bytes b)

/-- The observation of `absorb`. -/
def absorbed (threw : Bool) : CallObs := if threw then .exception [] else .seen .done

namespace HashFn
variable {P Θ : Type} (f : HashFn P Θ) (need : P → Nat)

/-- The effect of one call; `need`: how many string operations a setter takes. -/
def stepCall : HashCall P → HashObj Θ → CallObs × HashObj Θ
  | .call op, o => (.seen (f.step op o).1, (f.step op o).2)
  | .stream st, o => (absorbed (streamTakes st).2, { o with msg := o.msg ++ (streamTakes st).1 })
  | .iterThrows d, o => (.exception [], { o with msg := o.msg ++ d })
  | .digestStops n, o => (copied n (f.digest o.params o.msg), o)
  | .digestNoMemory, o => (.exception [], o)
  | .hexdigestRoom n, o => (.seen (.text ((hex (f.digest o.params o.msg)).take n)), o)
  | .set mem p, o => if enough (need p) mem then (.seen (f.step (.set p) o).1, (f.step (.set p) o).2) else (.exception [], o)

/-- The effect of a history of calls. -/
def runCalls : List (HashCall P) → HashObj Θ → List CallObs × HashObj Θ
  | [], o => ([], o)
  | c :: cs, o =>
    let r := f.stepCall need c o
    let rs := runCalls cs r.2
    (r.1 :: rs.1, rs.2)

end HashFn

namespace XofFn
variable {P Θ : Type} (f : XofFn P Θ) (need : P → Nat)

/-- The effect of one call. An output iterator that throws loses the bytes it did not take. -/
def stepCall : XofCall P → XofObj Θ → CallObs × XofObj Θ
  | .call op, o => (.seen (f.step op o).1, (f.step op o).2)
  | .stream st, o => (absorbed (streamTakes st).2, { o with msg := o.msg ++ (streamTakes st).1 })
  | .iterThrows d, o => (.exception [], { o with msg := o.msg ++ d })
  | .squeezeStops len n, o => (copied n (f.next len o), { o with squeezed := o.squeezed + len })
  | .squeezeNoMemory _, o => (.exception [], o)
  | .hexsqueezeRoom len n, o => (.seen (.text ((hex (f.next len o)).take n)), { o with squeezed := o.squeezed + len })
  | .set mem p, o => if enough (need p) mem then (.seen (f.step (.set p) o).1, (f.step (.set p) o).2) else (.exception [], o)

/-- The effect of a history of calls. -/
def runCalls : List (XofCall P) → XofObj Θ → List CallObs × XofObj Θ
  | [], o => ([], o)
  | c :: cs, o =>
    let r := f.stepCall need c o
    let rs := runCalls cs r.2
    (r.1 :: rs.1, rs.2)

end XofFn

/-- The call is covered in the situation `o`. -/
def Cover.hashCall {P Θ : Type} (c : Cover P Θ) : HashCall P → HashObj Θ → Prop
  | .call op, o => c.hashOp op o
  | .stream _, _ | .iterThrows _, _ | .digestNoMemory, _ => True
  | .digestStops _, o | .hexdigestRoom _, o => c.adm o.params o.msg
  | .set _ p, _ => c.prm p

/-- The call is covered in the situation `o`. -/
def Cover.xofCall {P Θ : Type} (c : Cover P Θ) : XofCall P → XofObj Θ → Prop
  | .call op, o => c.xofOp op o
  | .stream _, o | .iterThrows _, o => o.squeezed = 0
  | .squeezeNoMemory _, _ => True
  | .squeezeStops n _, o | .hexsqueezeRoom n _, o => c.adm o.params o.msg ∧ 0 < n ∧ n < 2 ^ 61 ∧ c.out (o.squeezed + n)
  | .set _ p, _ => c.prm p

/-- Every call of the history is covered. -/
def HashFn.CallsCovered {P Θ : Type} (f : HashFn P Θ) (need : P → Nat) (c : Cover P Θ) : List (HashCall P) → HashObj Θ → Prop
  | [], _ => True
  | x :: xs, o => c.hashCall x o ∧ f.CallsCovered need c xs (f.stepCall need x o).2

/-- Every call of the history is covered. -/
def XofFn.CallsCovered {P Θ : Type} (f : XofFn P Θ) (need : P → Nat) (c : Cover P Θ) : List (XofCall P) → XofObj Θ → Prop
  | [], _ => True
  | x :: xs, o => c.xofCall x o ∧ f.CallsCovered need c xs (f.stepCall need x o).2

/-! How many string operations the setters take. -/

/-- One string is copied. -/
def oneString {P : Type} : P → Nat := fun _ => 1

/-- No string is copied. -/
def noString {P : Type} : P → Nat := fun _ => 0

/-- BLAKE2 with `w`-bit words: a key that is not too long is copied. -/
def blake2Strings (w : Nat) : Blake2Param → Nat
  | .key v => if v.length ≤ w then 1 else 0
  | _ => 0

/-- KMAC: the padded key is put together from the encoded rate, the encoded length (a number of 64 bits), the key, and the padding, if any is
needed. `r` is the rate in bytes. -/
def kmacStrings (r : Nat) : KmacParam → Nat
  | .customization _ => 1
  | .key v => if (Keccak.leftEncode r ++ Keccak.leftEncode (v.length * 8 % 2 ^ 64) ++ v).length % r = 0 then 3 else 4

/-- BLAKE2bp (`P = 4`) and BLAKE2sp (`P = 8`), section 2.10, but the root with the parameters `θ` and leaf `i` with the parameters `τ i`. -/
def Blake2.mixed {w : Nat} (v : Blake2.Variant w) (P n : Nat) (θ : Blake2.Theta) (τ : Nat → Blake2.Theta) (msg : Bytes) : Bytes :=
  let node := fun (θ : Blake2.Theta) depth i => (⟨n, θ.key.length, P, 2, 0, i, 0, depth, w, θ.salt, θ.personal⟩ : Blake2.Params)
  let leaf := fun i => Blake2.core v (node (τ i) 0 i) (i + 1 = P) (Blake2.keyed (2 * w) (τ i).key (Blake2.stripe (2 * w) P i msg))
  (Blake2.core v (node θ 1 0) true ((List.range P).flatMap leaf)).take n

end Digestpp.Spec
