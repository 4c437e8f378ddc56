import Verif.FaultVocab
import Verif.Model.Kmac
import Verif.Model.K12
import Verif.Model.Ascon
import Verif.Model.Skein
import Verif.Model.Blake2p

/-!
# Model of hasher.hpp and of the setters in an environment that may fail

Streams in any state, iterators that throw, and memory that runs out. (What the library does in its own code does not throw except where the
providers' models say so.)
-/

namespace Digestpp.Model

/-- `std::basic_istream::setstate` as called in hasher.hpp 157: sets bits of `rdstate()`; whether it throws `std::ios_base::failure`. -/
def setState (eof fail bad : Bool) (st : IStream) : Bool × IStream :=
  let st := { st with eof := st.eof || eof, fail := st.fail || fail, bad := st.bad || bad }
  ((st.eof && st.xeof) || (st.fail && st.xfail) || (st.bad && st.xbad), st)

/-- hasher.hpp 157: `istr.read(buffer, n)`: the `gcount()` characters read, whether an exception leaves it, and the stream. An exception of the stream buffer
sets `badbit` and is rethrown if `exceptions()` has this bit. -/
def readStream (n : Nat) (st : IStream) : Bytes × Bool × IStream :=
  if st.eof || st.fail || st.bad then ([], setState false true false st)
  else
    let interrupted := match st.fault with
      | some k => if k < n ∧ k ≤ st.left.length then some k else none
      | none => none
    match interrupted with
    | some k =>
      (if st.counted then st.left.take k else [], st.xbad, { st with left := st.left.drop k, bad := true, fault := none })
    | none =>
      if n ≤ st.left.length then (st.left.take n, false, { st with left := st.left.drop n, fault := st.fault.map (· - n) })
      else (st.left, setState true true false { st with left := [] })

/-- hasher.hpp 152-166: the loop, run at most `fuel` times; `absorbIStream` gives it more than it can use. -/
def absorbLoop {S : Type} (update : Bytes → S → M S) : Nat → IStream → S → M (Bool × S)
  | 0, _, s => pure (false, s)
  | fuel + 1, st, s => do
    let (data, threw, st) := readStream 65536 st
    if threw then pure (true, s)
    else if !(st.fail || st.bad) then do
      let s ← update data s
      absorbLoop update fuel st s
    else if data.length ≠ 0 then do
      let s ← update data s
      pure (false, s)
    else pure (false, s)

/-- hasher.hpp 152-166: `absorb(std::basic_istream<T>&)`: whether an exception leaves it, and the object. -/
def absorbIStream {S : Type} (update : Bytes → S → M S) (st : IStream) (s : S) : M (Bool × S) :=
  absorbLoop update (st.left.length + 1) st s

/-- hasher.hpp 182-190: `absorb(IT, IT)` over a sequence of reads; `none`: an operation of the iterator throws. -/
def absorbItems {S : Type} (update : Bytes → S → M S) : List (Option Byte) → S → M (Bool × S)
  | [], s => pure (false, s)
  | none :: _, s => pure (true, s)
  | some b :: bs, s => do
    let s ← update [b] s
    absorbItems update bs s

/-- hasher.hpp 274, 354: `std::copy` to an output iterator that takes `n` bytes: the bytes taken, and whether it throws. -/
def copyOut : Nat → Bytes → Bytes × Bool
  | _, [] => ([], false)
  | 0, _ :: _ => ([], true)
  | n + 1, b :: bs => (b :: (copyOut n bs).1, (copyOut n bs).2)

/-- What the caller sees of `copyOut` (hasher.hpp 274, 354). -/
def copyObs (n : Nat) (b : Bytes) : CallObs :=
  if (copyOut n b).2 then .exception (copyOut n b).1 else .seen (.bytes (copyOut n b).1)

/-- The `std::ostringstream` of hasher.hpp 298, 374: its text, the room left in its buffer, and `badbit`. -/
structure OStr where
  text : List Char
  room : Nat
  bad : Bool

/-- Output of a character to the stream (hasher.hpp 300, 376 with stream_width_fixer.hpp 23). When the buffer gets no memory, `operator<<` catches the
exception, sets `badbit` and does not rethrow, as `exceptions()` is zero; a bad stream takes nothing. -/
def OStr.put (s : OStr) (c : Char) : OStr :=
  if s.bad then s
  else match s.room with
    | 0 => { s with bad := true }
    | n + 1 => { s with text := s.text ++ [c], room := n }

/-- hasher.hpp 298-301, 374-377: the string returned when the stream has room for `n` characters. -/
def hexRoom (n : Nat) (b : Bytes) : List Char := ((hexString b).foldl OStr.put ⟨[], n, false⟩).text

/-- How a setter of a provider ends. -/
inductive Ended where
  | returned
  /-- `std::runtime_error`: the value is not allowed -/
  | rejected
  /-- `std::bad_alloc` -/
  | noMemory
  deriving DecidableEq

/-- As the outcome of a setter where memory does not run out (algorithm/mixin/*.hpp). -/
def Ended.of (threw : Bool) : Ended := if threw then .rejected else .returned

/-- A setter whose string operation number `i` fails if `mem i` is false. -/
abbrev SetMem (S P : Type) := Memory → P → S → M (Ended × S)

namespace HashProvider
variable {S P : Type} (pr : HashProvider S P) (setMem : SetMem S P)

/-- algorithm/mixin/*.hpp: `set_X` calls `provider.set_X` and then, unless that throws, `provider.init()`. -/
def setParamMem (mem : Memory) (p : P) (s : S) : M (CallObs × S) := do
  let (e, s) ← setMem mem p s
  match e with
  | .noMemory => pure (.exception [], s)
  | .rejected => pure (.seen .threw, s)
  | .returned => do
    let s ← pr.init s
    pure (.seen .done, s)

/-- One call of a member function of hasher.hpp 86-390 or of a mixin in an environment that may fail. -/
def stepCall : HashCall P → S → M (CallObs × S)
  | .call op, s => do
    let (o, s) ← pr.step op s
    pure (.seen o, s)
  | .stream st, s => do
    let (t, s) ← absorbIStream pr.update st s
    pure (if t then .exception [] else .seen .done, s)
  | .iterThrows d, s => do
    let (t, s) ← absorbItems pr.update (d.map some ++ [none]) s
    pure (if t then .exception [] else .seen .done, s)
  | .digestStops n, s => do
    let b ← pr.digestIt s
    pure (copyObs n b, s)
  | .digestNoMemory, s => pure (.exception [], s)
  | .hexdigestRoom n, s => do
    let b ← pr.digestIt s
    pure (.seen (.text (hexRoom n b)), s)
  | .set mem p, s => pr.setParamMem setMem mem p s

/-- A history of such calls (hasher.hpp 86-390). -/
def runCalls : List (HashCall P) → S → M (List CallObs × S)
  | [], s => pure ([], s)
  | c :: cs, s => do
    let (o, s) ← pr.stepCall setMem c s
    let (os, s) ← runCalls cs s
    pure (o :: os, s)

end HashProvider

namespace XofProvider
variable {S P : Type} (pr : XofProvider S P) (setMem : SetMem S P)

/-- algorithm/mixin/*.hpp, as for hash functions. -/
def setParamMem (mem : Memory) (p : P) (s : S) : M (CallObs × S) := do
  let (e, s) ← setMem mem p s
  match e with
  | .noMemory => pure (.exception [], s)
  | .rejected => pure (.seen .threw, s)
  | .returned => do
    let s ← pr.init s
    pure (.seen .done, s)

/-- One call of a member function of hasher.hpp 86-390 or of a mixin in an environment that may fail. The vector of hasher.hpp 272 is
allocated before `provider.squeeze`. -/
def stepCall : XofCall P → S → M (CallObs × S)
  | .call op, s => do
    let (o, s) ← pr.step op s
    pure (.seen o, s)
  | .stream st, s => do
    let (t, s) ← absorbIStream pr.update st s
    pure (if t then .exception [] else .seen .done, s)
  | .iterThrows d, s => do
    let (t, s) ← absorbItems pr.update (d.map some ++ [none]) s
    pure (if t then .exception [] else .seen .done, s)
  | .squeezeStops len n, s => do
    let (b, s) ← pr.squeezeIt len s
    pure (copyObs n b, s)
  | .squeezeNoMemory _, s => pure (.exception [], s)
  | .hexsqueezeRoom len n, s => do
    let (b, s) ← pr.squeezeIt len s
    pure (.seen (.text (hexRoom n b)), s)
  | .set mem p, s => pr.setParamMem setMem mem p s

/-- A history of such calls (hasher.hpp 86-390). -/
def runCalls : List (XofCall P) → S → M (List CallObs × S)
  | [], s => pure ([], s)
  | c :: cs, s => do
    let (o, s) ← pr.stepCall setMem c s
    let (os, s) ← runCalls cs s
    pure (o :: os, s)

end XofProvider

/-! The setters. String assignment (`std::string::operator=`) leaves its target unchanged when it throws. -/

/-- A setter without string operations, as those of blake_provider.hpp and echo_provider.hpp (which copy to arrays). -/
def setNoString {S P : Type} (set : P → S → M (Bool × S)) : SetMem S P := fun _ p s => do
  let (t, s) ← set p s
  pure (Ended.of t, s)

/-- `std::string::operator=` (shake_provider.hpp 72, 77 and others): the new contents, `none` if it throws. -/
def assign (mem : Memory) (i : Nat) (src : Bytes) : Option Bytes := if mem i then some src else none

/-- shake_provider.hpp 70-78: the setters. -/
def Shake.setMem : SetMem (Blk Shake.St) CShakeParam := fun mem p s =>
  match p with
  | .functionName v =>
    match assign mem 0 v with
    | none => pure (.noMemory, s)
    | some v => pure (.returned, Shake.setFunctionName v s)
  | .customization v =>
    match assign mem 0 v with
    | none => pure (.noMemory, s)
    | some v => pure (.returned, Shake.setCustomization v s)

/-- k12m14_provider.hpp 41-44: `set_customization`. -/
def K12.setMem : SetMem (Blk K12.St) CustomizationParam := fun mem p s =>
  match p with
  | .customization v =>
    match assign mem 0 v with
    | none => pure (.noMemory, s)
    | some v => pure (.returned, { s with h := { s.h with S := v } })

/-- ascon_provider.hpp 80-83: `set_customization`. -/
def Ascon.setMem : SetMem (Blk Ascon.St) CustomizationParam := fun mem p s =>
  match p with
  | .customization v =>
    match assign mem 0 v with
    | none => pure (.noMemory, s)
    | some v => pure (.returned, Ascon.setCustomization v s)

/-- skein_provider.hpp 205-218: the setters. -/
def Skein.setMem : SetMem (Blk Skein.St) SkeinParam := fun mem p s =>
  match p with
  | .personalization v =>
    match assign mem 0 v with
    | none => pure (.noMemory, s)
    | some v => pure (.returned, { s with h := { s.h with p := v } })
  | .nonce v =>
    match assign mem 0 v with
    | none => pure (.noMemory, s)
    | some v => pure (.returned, { s with h := { s.h with n := v } })
  | .key v =>
    match assign mem 0 v with
    | none => pure (.noMemory, s)
    | some v => pure (.returned, { s with h := { s.h with k := v } })

/-- blake2_provider.hpp 206-228: the setters; the length of a key is checked before it is copied. -/
def Blake2.setMem {w : Nat} (T : Blake2.Word w) : SetMem (Blk (Blake2.St w)) Blake2Param := fun mem p s =>
  match p with
  | .salt v => setNoString (Blake2.set T) mem (.salt v) s
  | .personalization v => setNoString (Blake2.set T) mem (.personalization v) s
  | .key v =>
    if v.length > w then pure (.rejected, s)
    else match assign mem 0 v with
      | none => pure (.noMemory, s)
      | some v => pure (.returned, { s with h := { s.h with k := v } })

/-- kmac_provider.hpp 18-32: `bytepad`, `none` if one of the four string operations throws. -/
def Kmac.bytepadMem (mem : Memory) (B : Nat) (str : Bytes) : Option Bytes := do
  let pad := if B = 128 then 168 else 136
  let res ← assign mem 0 (Shake.leftEncode pad)
  let res ← assign mem 1 (res ++ Shake.leftEncode (str.length * 8 % szMod))
  let res ← assign mem 2 (res ++ str)
  let delta := pad - res.length % pad
  if delta ≠ 0 ∧ delta ≠ pad then assign mem 3 (res ++ List.replicate delta 0) else pure res

/-- kmac_provider.hpp 71-79: the setters; the padded key is moved to its place, without allocation. -/
def Kmac.setMem (B : Nat) : SetMem Kmac.St KmacParam := fun mem p s =>
  match p with
  | .key v =>
    match Kmac.bytepadMem mem B v with
    | none => pure (.noMemory, s)
    | some K => pure (.returned, { s with K := K })
  | .customization v => do
    let (e, sh) ← Shake.setMem mem (.customization v) s.shake
    pure (e, { s with shake := sh })

/-- kmac_provider.hpp 111-116: `clear` with memory that may run out: `zero_memory(K)` (functions.hpp 100-104) writes zeros over the padded key,
`set_key("")` replaces it. -/
def Kmac.clearMem (B : Nat) (mem : Memory) (s : Kmac.St) : M (Ended × Kmac.St) := do
  let sh ← Shake.clear s.shake
  Kmac.setMem B mem (.key []) { s with shake := sh, K := zeroBytes s.K }

/-- hasher.hpp 385-390: `reset(true)` for KMAC with memory that may run out. -/
def Kmac.resetMem (B : Nat) (mem : Memory) (s : Kmac.St) : M (CallObs × Kmac.St) := do
  let (e, s) ← Kmac.clearMem B mem s
  match e with
  | .noMemory => pure (.exception [], s)
  | .rejected => pure (.seen .threw, s)
  | .returned => do
    let s ← Kmac.init B s
    pure (.seen .done, s)

/-- blake2p_provider.hpp 91-92: the loop of `set_key` over the leaves, from string operation `i` on. -/
def Blake2p.setLeavesMem {w : Nat} (T : Blake2.Word w) (mem : Memory) (p : Blake2Param) :
    Nat → List (Blk (Blake2.St w)) → M (Ended × List (Blk (Blake2.St w)))
  | _, [] => pure (.returned, [])
  | i, l :: ls => do
    let (e, l) ← Blake2.setMem T (fun j => mem (i + j)) p l
    match e with
    | .returned => do
      let (e, ls) ← setLeavesMem T mem p (i + 1) ls
      pure (e, l :: ls)
    | e => pure (e, l :: ls)

/-- blake2p_provider.hpp 88-107: the setters. -/
def Blake2p.setMem {w : Nat} (T : Blake2.Word w) : SetMem (Blk (Blake2p.PSt w)) Blake2Param := fun mem p s => do
  let (e, main) ← Blake2.setMem T mem p s.h.main
  match e with
  | .returned => do
    let (e, leaf) ← Blake2p.setLeavesMem T mem p 1 s.h.leaf
    pure (e, { s with h := { s.h with main := main, leaf := leaf } })
  | e => pure (e, { s with h := { s.h with main := main } })

end Digestpp.Model
