/-! Types and arguments of C++, as far as calls of the members of `hasher` can tell them apart, and the calls that the documentation promises. Not in the code. -/

namespace Digestpp.Spec.Cpp

/-- Types of expressions, without references and without `const` at the top. -/
inductive Ty where
  | char | schar | uchar
  /-- `std::byte` -/
  | byte
  | bool
  /-- `size_t` -/
  | size
  /-- the other arithmetic types, numbered: `short`, `int`, `char16_t`, `double`, ... -/
  | arith (n : Nat)
  /-- `std::nullptr_t` -/
  | null
  /-- `t*`, or `const t*` -/
  | ptr (const : Bool) (t : Ty)
  /-- `t[n]`, or `const t[n]`; string literals are `const char[n]` -/
  | arr (const : Bool) (t : Ty) (n : Nat)
  /-- `std::array<t, n>` -/
  | stdArray (t : Ty) (n : Nat)
  /-- `std::basic_string<t>` -/
  | string (t : Ty)
  /-- `std::basic_istream<t>` and classes derived from it -/
  | istream (t : Ty)
  /-- a class of iterators whose elements have type `t` and can be read and written, such as `std::vector<t>::iterator` -/
  | iter (t : Ty)
  /-- a class of output iterators to which values of type `t` are assigned, such as `std::back_insert_iterator<std::vector<t>>` -/
  | sink (t : Ty)
  /-- any other class, without conversions to the types above -/
  | cls (n : Nat)
  deriving DecidableEq

/-- An argument. -/
structure Arg where
  ty : Ty
  const : Bool := false
  lvalue : Bool := true
  /-- a null pointer constant, such as the literal `0` -/
  zero : Bool := false

/-- What differs between versions of C++ and of its library. -/
structure Version where
  /-- `std::byte` exists (C++17) -/
  hasByte : Bool
  /-- `std::string(nullptr_t)` is deleted (C++23) -/
  noNullString : Bool

/-- Outcome of a compilation of a call. -/
inductive Outcome (α : Type) where
  /-- no function can be called with these arguments -/
  | noMatch
  /-- several can, and none is better than the others -/
  | ambiguous
  /-- the function has been selected, but its body does not compile with these types -/
  | error (f : α)
  /-- the function is called -/
  | calls (f : α)
  deriving DecidableEq

/-- "must be of byte type (char, unsigned char or signed char)" (hasher.hpp, description of `squeeze` and `digest`), and `std::byte` where there is one. -/
def ByteType (v : Version) (t : Ty) : Prop := t = .char ∨ t = .schar ∨ t = .uchar ∨ t = .byte ∧ v.hasByte = true

/-- The arguments that are pointers to `t` or `const t`; arrays decay. -/
def PointerTo (t : Ty) (a : Arg) : Prop := (∃ c, a.ty = .ptr c t) ∨ ∃ c n, a.ty = .arr c t n

/-- The same, with elements that can be changed. -/
def PointerToMutable (t : Ty) (a : Arg) : Prop := a.ty = .ptr false t ∨ ∃ n, a.ty = .arr false t n

/-- Arithmetic types, which convert to one another without a cast. -/
def Arithmetic (t : Ty) : Prop := t = .char ∨ t = .schar ∨ t = .uchar ∨ t = .bool ∨ t = .size ∨ ∃ n, t = .arith n

/-- An iterator over elements of type `t`. -/
def IteratorOf (t : Ty) (a : Arg) : Prop := a.ty = .iter t ∨ PointerTo t a

/-- Two arguments that give the same type when passed by value. -/
def SameWhenPassed (a b : Arg) : Prop :=
  a.ty = b.ty ∨ (∃ c t n m, a.ty = .arr c t n ∧ b.ty = .arr c t m) ∨ (∃ c t n, a.ty = .arr c t n ∧ b.ty = .ptr c t) ∨ ∃ c t n, a.ty = .ptr c t ∧ b.ty = .arr c t n

/-- An output iterator to which bytes can be written. -/
def TakesBytes (a : Arg) : Prop := ∃ t, Arithmetic t ∧ (a.ty = .iter t ∨ a.ty = .sink t ∨ PointerToMutable t a)

/-- What converts to `std::string`: strings, and what can be a pointer to a string of C. -/
def StringLike (v : Version) (a : Arg) : Prop := a.ty = .string .char ∨ PointerTo .char a ∨ v.noNullString = false ∧ (a.ty = .null ∨ Arithmetic a.ty ∧ a.zero = true)

end Digestpp.Spec.Cpp
