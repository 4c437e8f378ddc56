import Verif.Vocab

/-! Vocabulary for calls that may end with an exception: streams in any state, iterators that throw, and memory that runs out. -/

namespace Digestpp

/-- A `std::basic_istream`: the characters left in its buffer, the bits of `rdstate()` and of `exceptions()`. `fault = some k`: the stream
buffer throws when it is asked for more after `k` further characters; `counted`: whether `gcount()` then counts the characters of the
interrupted read (with libstdc++ and libc++ it does not). -/
structure IStream where
  left : Bytes
  eof : Bool := false
  fail : Bool := false
  bad : Bool := false
  xeof : Bool := false
  xfail : Bool := false
  xbad : Bool := false
  fault : Option Nat := none
  counted : Bool := false
  deriving DecidableEq

/-- Which of the string operations of a call find the memory they need. -/
abbrev Memory := Nat → Bool

/-- Calls on a hash function object, in an environment that may fail. -/
inductive HashCall (P : Type) where
  /-- a call where nothing fails -/
  | call (op : HashOp P)
  /-- `absorb(istr)` -/
  | stream (st : IStream)
  /-- `absorb(begin, end)` where an operation of the iterator throws after these bytes were read -/
  | iterThrows (given : Bytes)
  /-- `digest(it)` where the output iterator takes `n` bytes and throws at the next -/
  | digestStops (n : Nat)
  /-- `digest(it)` or `hexdigest()` where the vector cannot be allocated -/
  | digestNoMemory
  /-- `hexdigest()` where the string stream has room for `n` characters and gets no more memory -/
  | hexdigestRoom (n : Nat)
  /-- a setter -/
  | set (mem : Memory) (p : P)

/-- Calls on an extendable output function object, in an environment that may fail. -/
inductive XofCall (P : Type) where
  | call (op : XofOp P)
  | stream (st : IStream)
  | iterThrows (given : Bytes)
  /-- `squeeze(len, it)` where the output iterator takes `n` bytes and throws at the next -/
  | squeezeStops (len n : Nat)
  /-- `squeeze(len, it)` or `hexsqueeze(len)` where the vector cannot be allocated -/
  | squeezeNoMemory (len : Nat)
  /-- `hexsqueeze(len)` where the string stream has room for `n` characters and gets no more memory -/
  | hexsqueezeRoom (len n : Nat)
  | set (mem : Memory) (p : P)

/-- What the caller sees of such a call. -/
inductive CallObs where
  /-- as of any call -/
  | seen (o : Obs)
  /-- an exception of the environment left the call; the output iterator had got these bytes -/
  | exception (given : Bytes)
  deriving DecidableEq

end Digestpp
