import Verif.Spec.Cpp

/-! Overload resolution for the members of `hasher` (hasher.hpp), of the mixins and for the constructors: which function a call with given argument types selects, and whether
the body of that function compiles. Deduction of template arguments, `enable_if` conditions and conversions are as in the standard, for the types of `Spec/Cpp.lean`. -/

namespace Digestpp.Model.Overloads
open Spec.Cpp

/-- detail/traits.hpp 21-30: `is_byte<T>`. -/
def isByte (v : Version) : Ty → Bool
  | .char | .schar | .uchar => true
  | .byte => v.hasByte
  | _ => false

/-- Arrays become pointers when passed by value. Of the language, not in /repo; used by hasher.hpp 181-190, 269-275, 348-355. -/
def decay : Ty → Ty
  | .arr c t _ => .ptr c t
  | t => t

/-- Rank of an implicit conversion sequence: smaller is better. Of the language, not in /repo. -/
inductive Rank where
  | exact | conversion | user
  deriving DecidableEq

/-- Of the language: order of the ranks. -/
def Rank.num : Rank → Nat
  | exact => 0
  | conversion => 1
  | user => 2

/-- Of the language: conversion of an argument to a parameter `size_t`. -/
def toSize (a : Arg) : Option Rank :=
  match a.ty with
  | .size => some .exact
  | .char | .schar | .uchar | .bool | .arith _ => some .conversion
  | _ => none

/-- Of the language and its library: conversion to a parameter `const std::string&`. -/
def convString (v : Version) (a : Arg) : Option Rank :=
  match a.ty with
  | .string .char => some .exact
  | .ptr _ .char | .arr _ .char _ => some .user
  | .null => if v.noNullString then none else some .user
  | .char | .schar | .uchar | .bool | .size | .arith _ => if a.zero && !v.noNullString then some .user else none
  | _ => none

/-- Of the language: `T` deduced from an argument for a parameter `const T*`. -/
def deduceConstPtr (a : Arg) : Option Ty :=
  match decay a.ty with
  | .ptr _ t => some t
  | _ => none

/-- Of the language: `T` deduced for a parameter `T*`; the first component tells that `T` is a `const` type, which `is_byte` does not accept. -/
def deducePtr (a : Arg) : Option (Bool × Ty) :=
  match decay a.ty with
  | .ptr c t => some (c, t)
  | _ => none

/-- A function of an overload set. -/
structure Candidate (α : Type) where
  name : α
  /-- a template -/
  template : Bool
  /-- the conversions of the arguments, if they can be converted, template arguments can be deduced and the conditions hold -/
  viable : List Arg → Option (List Rank)

/-- Of the language: no conversion is worse. -/
def noWorse : List Rank → List Rank → Bool
  | r :: rs, q :: qs => decide (r.num ≤ q.num) && noWorse rs qs
  | _, _ => true

/-- Of the language: a function with conversions `p.2` is better than one with `q.2`. -/
def better {α : Type} (p q : Candidate α × List Rank) : Bool :=
  noWorse p.2 q.2 && (!noWorse q.2 p.2 || !p.1.template && q.1.template)

/-- Of the language: viable functions, with their positions. -/
def viables {α : Type} (cs : List (Candidate α)) (args : List Arg) : List (Candidate α × List Rank) :=
  cs.filterMap fun c => (c.viable args).map fun r => (c, r)

/-- Of the language: the rest of the viable functions, without the `i`-th. -/
def others {α : Type} (vs : List (Candidate α × List Rank)) (i : Nat) : List (Candidate α × List Rank) := vs.take i ++ vs.drop (i + 1)

/-- Of the language: the call of an overloaded function. `compiles` tells if the body of the selected function compiles. -/
def call {α : Type} (cs : List (Candidate α)) (compiles : α → List Arg → Bool) (args : List Arg) : Outcome α :=
  let vs := viables cs args
  match vs with
  | [] => .noMatch
  | _ =>
    match (List.range vs.length).filterMap (fun i => (vs[i]?).bind fun p => if (others vs i).all (better p) then some p.1.name else none) with
    | f :: _ => if compiles f args then .calls f else .error f
    | [] => .ambiguous

/-- The functions `absorb`. -/
inductive Absorb where
  | pointer | array | basicString | string | stream | iterators
  deriving DecidableEq

/-- hasher.hpp 85-90: `template<T> absorb(const T* data, size_t len)` if `is_byte<T>`. -/
def absorbPointer (v : Version) : Candidate Absorb where
  name := .pointer
  template := true
  viable
    | [a, b] => do
      let t ← deduceConstPtr a
      if isByte v t then
        let r ← toSize b
        some [.exact, r]
      else none
    | _ => none

/-- hasher.hpp 104-108: `template<T, N> absorb(const std::array<T, N>& arr)` if `is_byte<T>`. -/
def absorbArray (v : Version) : Candidate Absorb where
  name := .array
  template := true
  viable
    | [a] => match a.ty with
      | .stdArray t _ => if isByte v t then some [.exact] else none
      | _ => none
    | _ => none

/-- hasher.hpp 115-122: `template<T> absorb(const std::basic_string<T>& str)` if `is_byte<T>` and `T` is not `char`. -/
def absorbBasicString (v : Version) : Candidate Absorb where
  name := .basicString
  template := true
  viable
    | [a] => match a.ty with
      | .string t => if isByte v t && decide (t ≠ .char) then some [.exact] else none
      | _ => none
    | _ => none

/-- hasher.hpp 134-139: `absorb(const std::string& str)`. -/
def absorbString (v : Version) : Candidate Absorb where
  name := .string
  template := false
  viable
    | [a] => (convString v a).map fun r => [r]
    | _ => none

/-- hasher.hpp 151-166: `template<T> absorb(std::basic_istream<T>& istr)` if `is_byte<T>`. -/
def absorbStream (v : Version) : Candidate Absorb where
  name := .stream
  template := true
  viable
    | [a] => match a.ty with
      | .istream t => if isByte v t && a.lvalue && !a.const then some [.exact] else none
      | _ => none
    | _ => none

/-- hasher.hpp 181-190: `template<IT> absorb(IT begin, IT end)`. -/
def absorbIterators : Candidate Absorb where
  name := .iterators
  template := true
  viable
    | [a, b] => if decay a.ty = decay b.ty then some [.exact, .exact] else none
    | _ => none

/-- Of the language: a value of the type converts to an arithmetic type without a cast. -/
def converts : Ty → Bool
  | .char | .schar | .uchar | .bool | .size | .arith _ => true
  | _ => false

/-- hasher.hpp 186: `unsigned char byte = *begin++` compiles. -/
def readsBytes (a : Arg) : Bool :=
  match decay a.ty with
  | .ptr _ t | .iter t => converts t
  | _ => false

/-- Which of the bodies of hasher.hpp 85-190 compile. -/
def absorbCompiles : Absorb → List Arg → Bool
  | .iterators, a :: _ => readsBytes a
  | _, _ => true

/-- hasher.hpp 85-190: a call `absorb(args)`. -/
def absorb (v : Version) (args : List Arg) : Outcome Absorb :=
  call [absorbPointer v, absorbArray v, absorbBasicString v, absorbString v, absorbStream v, absorbIterators] absorbCompiles args

/-- The functions `squeeze`. -/
inductive Squeeze where
  | pointer | rawArray | array | iterator
  deriving DecidableEq

/-- hasher.hpp 204-209: `template<T> squeeze(T* buf, size_t len)` if `is_byte<T>` and `is_xof`. -/
def squeezePointer (v : Version) (isXof : Bool) : Candidate Squeeze where
  name := .pointer
  template := true
  viable
    | [a, b] => do
      let (c, t) ← deducePtr a
      if !c && isByte v t && isXof then
        let r ← toSize b
        some [.exact, r]
      else none
    | _ => none

/-- hasher.hpp 222-227: `template<T, N> squeeze(T(&arr)[N])`. -/
def squeezeRawArray (v : Version) (isXof : Bool) : Candidate Squeeze where
  name := .rawArray
  template := true
  viable
    | [a] => match a.ty with
      | .arr c t _ => if !c && a.lvalue && isByte v t && isXof then some [.exact] else none
      | _ => none
    | _ => none

/-- hasher.hpp 240-245: `template<T, N> squeeze(std::array<T, N>& arr)`. -/
def squeezeArray (v : Version) (isXof : Bool) : Candidate Squeeze where
  name := .array
  template := true
  viable
    | [a] => match a.ty with
      | .stdArray t _ => if isByte v t && a.lvalue && !a.const && isXof then some [.exact] else none
      | _ => none
    | _ => none

/-- hasher.hpp 269-275: `template<OI> squeeze(size_t len, OI it)` if `is_xof`. -/
def squeezeIterator (isXof : Bool) : Candidate Squeeze where
  name := .iterator
  template := true
  viable
    | [a, _] => if isXof then (toSize a).map fun r => [r, .exact] else none
    | _ => none

/-- hasher.hpp 274, 354: `std::copy(hash.begin(), hash.end(), it)` compiles. -/
def writesBytes (a : Arg) : Bool :=
  match decay a.ty with
  | .ptr false t | .iter t | .sink t => converts t
  | _ => false

/-- Which of the bodies of hasher.hpp 204-275 compile: that of line 208 has a cast. -/
def squeezeCompiles : Squeeze → List Arg → Bool
  | .iterator, [_, b] => writesBytes b
  | _, _ => true

/-- hasher.hpp 204-275: a call `squeeze(args)`. -/
def squeeze (v : Version) (isXof : Bool) (args : List Arg) : Outcome Squeeze :=
  call [squeezePointer v isXof, squeezeRawArray v isXof, squeezeArray v isXof, squeezeIterator isXof] squeezeCompiles args

/-- The functions `digest`. -/
inductive Digest where
  | pointer | iterator
  deriving DecidableEq

/-- hasher.hpp 322-331: `template<T> digest(T* buf, size_t len)` if `is_byte<T>` and not `is_xof`. -/
def digestPointer (v : Version) (isXof : Bool) : Candidate Digest where
  name := .pointer
  template := true
  viable
    | [a, b] => do
      let (c, t) ← deducePtr a
      if !c && isByte v t && !isXof then
        let r ← toSize b
        some [.exact, r]
      else none
    | _ => none

/-- hasher.hpp 348-355: `template<OI> digest(OI it)` if not `is_xof`. -/
def digestIterator (isXof : Bool) : Candidate Digest where
  name := .iterator
  template := true
  viable
    | [_] => if !isXof then some [.exact] else none
    | _ => none

/-- Which of the bodies compile. hasher.hpp 330: `copy.final(buf)`, where `final` takes `unsigned char*` and no pointer converts to that but `unsigned char*` itself. -/
def digestCompiles : Digest → List Arg → Bool
  | .pointer, a :: _ => decide (deducePtr a = some (false, .uchar))
  | .iterator, a :: _ => writesBytes a
  | _, _ => true

/-- hasher.hpp 322-355: a call `digest(args)`. -/
def digest (v : Version) (isXof : Bool) (args : List Arg) : Outcome Digest :=
  call [digestPointer v isXof, digestIterator isXof] digestCompiles args

/-- The functions `set_salt` and the like of a mixin. -/
inductive Setter where
  | string | pointer
  deriving DecidableEq

/-- algorithm/mixin/blake_mixin.hpp 32-35 and the other mixins: `set_x(const std::string&)`. -/
def setterString (v : Version) : Candidate Setter where
  name := .string
  template := false
  viable
    | [a] => (convString v a).map fun r => [r]
    | _ => none

/-- algorithm/mixin/blake_mixin.hpp 47-54 and the other mixins: `template<C> set_x(const C*, size_t)` if `is_byte<C>`. -/
def setterPointer (v : Version) : Candidate Setter where
  name := .pointer
  template := true
  viable
    | [a, b] => do
      let t ← deduceConstPtr a
      if isByte v t then
        let r ← toSize b
        some [.exact, r]
      else none
    | _ => none

/-- algorithm/mixin/*.hpp: a call `set_x(args)`; all bodies compile, the pointer being cast. -/
def setter (v : Version) (args : List Arg) : Outcome Setter := call [setterString v, setterPointer v] (fun _ _ => true) args

end Digestpp.Model.Overloads
