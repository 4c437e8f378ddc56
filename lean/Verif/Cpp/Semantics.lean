import Verif.Vocab

/-! C71. A subset of C++ as data, and its meaning. The bodies of functions of the library, translated by tools/cpp2lean.py, are programs of this language (Verif/Cpp/Src); the theorems of C71 are about running them. Nothing here is taken from the transcription in Verif/Model: the types, the promotions, the conversions, the wrap-around and the cases without a meaning are those of the C++ standard for a platform with 8-bit bytes, 32-bit `int`, 64-bit `size_t` and little-endian words, where an `unsigned char` array may be read through a `const uint32_t*`. -/

namespace Digestpp.Cpp

/-- The types of the values in the programs of Verif/Cpp/Src (e.g. `int`, `uint32_t`, `size_t` in md5_provider.hpp 21, 105). -/
inductive Ty | bool | u8 | u32 | u64 | i32

/-- A value. A pointer has an array, a position in bytes and the size of what it points to. A variable declared without a value holds `undef`. -/
inductive Val
  | bool (x : Bool)
  | u8 (x : BitVec 8)
  | u32 (x : BitVec 32)
  | u64 (x : BitVec 64)
  | i32 (x : Int)
  | ptr (arr off size : Nat)
  | undef (t : Ty)

/-- An array of `unsigned char`, of `uint32_t` or of `uint64_t`. -/
inductive Arr
  | a8 (xs : List (BitVec 8))
  | a32 (xs : List (BitVec 32))
  | a64 (xs : List (BitVec 64))

/-- The variables and the arrays, by number. -/
structure Env where
  vars : List Val
  arrs : List Arr

/-- The binary operators. -/
inductive Bin | add | sub | mul | div | mod | and | or | xor | shl | shr | lt | le | gt | ge | eq | ne

/-- Expressions. `arg` is a parameter of the function being called: `enter f (push a (push b nil))` is `f(a, b)`. `over` chooses between the overloads of a function for 32-bit and for 64-bit words, by the type of the first argument. `tab` is a constant array, `recast` a `reinterpret_cast` of a pointer to one with another size. -/
inductive Expr
  | lit (v : Val)
  | var (k : Nat)
  | arg (k : Nat)
  | idx (a : Nat) (i : Expr)
  | tab (t : Arr) (i : Expr)
  | at (p i : Expr)
  | addr (a : Nat) (i : Expr)
  | recast (size : Nat) (p : Expr)
  | bin (o : Bin) (x y : Expr)
  | bnot (x : Expr)
  | lnot (x : Expr)
  | land (x y : Expr)
  | lor (x y : Expr)
  | cond (c x y : Expr)
  | cast (t : Ty) (x : Expr)
  | ret (body args : Expr)
  | over (f g : Expr)
  | push (x rest : Expr)
  | nil

/-- Statements. `decl` makes a new variable with the next number, `declare` one without a value, `declp` a pointer; `scope` removes those made inside. `store` assigns to an element of an array, `storep` through a pointer. `memcpyv` copies from a variable. `call` is a call of a function given from outside. -/
inductive Stmt
  | skip
  | seq (s t : Stmt)
  | decl (t : Ty) (e : Expr)
  | declare (t : Ty)
  | declp (e : Expr)
  | set (k : Nat) (e : Expr)
  | store (a : Nat) (i e : Expr)
  | storep (p i e : Expr)
  | ite (c : Expr) (s t : Stmt)
  | while (c : Expr) (s : Stmt)
  | scope (s : Stmt)
  | memcpy (d s n : Expr)
  | memcpyv (d : Expr) (k : Nat) (n : Expr)
  | memset (d v n : Expr)
  | call (f : Nat) (x y : Expr)

/-- Statements one after the other. -/
def block : List Stmt → Stmt
  | [] => .skip
  | [s] => s
  | s :: t :: ss => .seq s (block (t :: ss))

/-- `for (init; c; step) s`. -/
def for' (init : Stmt) (c : Expr) (step s : Stmt) : Stmt := .scope (.seq init (.while c (.seq (.scope s) step)))

/-- The value as an element of `int`, if it is in range: overflow has no meaning. -/
def chk (x : Int) : Option Val :=
  if -2147483648 ≤ x ∧ x < 2147483648 then some (.i32 x) else none

/-- The integral promotions. -/
def promote : Val → Val
  | .bool x => .i32 (if x then 1 else 0)
  | .u8 x => .i32 x.toNat
  | v => v

/-- Conversion to a type. A value not representable in `int` has no meaning here, though compilers give it one. -/
def conv : Ty → Val → Option Val
  | .bool, .bool x => some (.bool x)
  | .bool, .u8 x => some (.bool (x != 0))
  | .bool, .u32 x => some (.bool (x != 0))
  | .bool, .u64 x => some (.bool (x != 0))
  | .bool, .i32 x => some (.bool (x != 0))
  | .u8, .bool x => some (.u8 (if x then 1 else 0))
  | .u8, .u8 x => some (.u8 x)
  | .u8, .u32 x => some (.u8 (x.setWidth 8))
  | .u8, .u64 x => some (.u8 (x.setWidth 8))
  | .u8, .i32 x => some (.u8 (BitVec.ofInt 8 x))
  | .u32, .bool x => some (.u32 (if x then 1 else 0))
  | .u32, .u8 x => some (.u32 (x.setWidth 32))
  | .u32, .u32 x => some (.u32 x)
  | .u32, .u64 x => some (.u32 (x.setWidth 32))
  | .u32, .i32 x => some (.u32 (BitVec.ofInt 32 x))
  | .u64, .bool x => some (.u64 (if x then 1 else 0))
  | .u64, .u8 x => some (.u64 (x.setWidth 64))
  | .u64, .u32 x => some (.u64 (x.setWidth 64))
  | .u64, .u64 x => some (.u64 x)
  | .u64, .i32 x => some (.u64 (BitVec.ofInt 64 x))
  | .i32, .bool x => some (.i32 (if x then 1 else 0))
  | .i32, .u8 x => some (.i32 x.toNat)
  | .i32, .u32 x => chk x.toNat
  | .i32, .u64 x => chk x.toNat
  | .i32, .i32 x => some (.i32 x)
  | _, .ptr _ _ _ => none
  | _, .undef _ => none

/-- The operators on unsigned words of one width. -/
def unsigned {w : Nat} (mk : BitVec w → Val) : Bin → BitVec w → BitVec w → Option Val
  | .add, x, y => some (mk (x + y))
  | .sub, x, y => some (mk (x - y))
  | .mul, x, y => some (mk (x * y))
  | .div, x, y => if y = 0#w then none else some (mk (x / y))
  | .mod, x, y => if y = 0#w then none else some (mk (x % y))
  | .and, x, y => some (mk (x &&& y))
  | .or, x, y => some (mk (x ||| y))
  | .xor, x, y => some (mk (x ^^^ y))
  | .lt, x, y => some (.bool (decide (x.toNat < y.toNat)))
  | .le, x, y => some (.bool (decide (x.toNat ≤ y.toNat)))
  | .gt, x, y => some (.bool (decide (y.toNat < x.toNat)))
  | .ge, x, y => some (.bool (decide (y.toNat ≤ x.toNat)))
  | .eq, x, y => some (.bool (decide (x = y)))
  | .ne, x, y => some (.bool (!decide (x = y)))
  | .shl, _, _ => none
  | .shr, _, _ => none

/-- The operators on `int`: overflow and division by zero have no meaning, and the bit operations are on the two's complement. -/
def signed : Bin → Int → Int → Option Val
  | .add, x, y => chk (x + y)
  | .sub, x, y => chk (x - y)
  | .mul, x, y => chk (x * y)
  | .div, x, y => if y = 0 then none else chk (x.tdiv y)
  | .mod, x, y => if y = 0 then none else chk (x.tmod y)
  | .lt, x, y => some (.bool (decide (x < y)))
  | .le, x, y => some (.bool (decide (x ≤ y)))
  | .gt, x, y => some (.bool (decide (y < x)))
  | .ge, x, y => some (.bool (decide (y ≤ x)))
  | .eq, x, y => some (.bool (decide (x = y)))
  | .ne, x, y => some (.bool (!decide (x = y)))
  | .and, x, y => some (.i32 (BitVec.ofInt 32 x &&& BitVec.ofInt 32 y).toInt)
  | .or, x, y => some (.i32 (BitVec.ofInt 32 x ||| BitVec.ofInt 32 y).toInt)
  | .xor, x, y => some (.i32 (BitVec.ofInt 32 x ^^^ BitVec.ofInt 32 y).toInt)
  | .shl, _, _ => none
  | .shr, _, _ => none

/-- A value as a number of bits or elements: a negative one has no meaning. -/
def count : Val → Option Nat
  | .bool x => some (if x then 1 else 0)
  | .u8 x => some x.toNat
  | .u32 x => some x.toNat
  | .u64 x => some x.toNat
  | .i32 x => if 0 ≤ x then some x.toNat else none
  | _ => none

/-- A shift to the left: the type is that of the left operand, and the number of bits is below its width. On `int` the result has to be representable. -/
def shiftLeft : Val → Nat → Option Val
  | .u32 x, n => if n < 32 then some (.u32 (x <<< n)) else none
  | .u64 x, n => if n < 64 then some (.u64 (x <<< n)) else none
  | .i32 x, n => if n < 32 ∧ 0 ≤ x then chk (x * 2 ^ n) else none
  | _, _ => none

/-- A shift to the right. -/
def shiftRight : Val → Nat → Option Val
  | .u32 x, n => if n < 32 then some (.u32 (x >>> n)) else none
  | .u64 x, n => if n < 64 then some (.u64 (x >>> n)) else none
  | .i32 x, n => if n < 32 ∧ 0 ≤ x then some (.i32 (x / 2 ^ n)) else none
  | _, _ => none

/-- The operators after the promotions: the usual arithmetic conversions take both operands to the wider type, and from `int` to the unsigned one. -/
def usual : Bin → Val → Val → Option Val
  | o, .u32 x, .u32 y => unsigned .u32 o x y
  | o, .u32 x, .u64 y => unsigned .u64 o (x.setWidth 64) y
  | o, .u32 x, .i32 y => unsigned .u32 o x (BitVec.ofInt 32 y)
  | o, .u64 x, .u32 y => unsigned .u64 o x (y.setWidth 64)
  | o, .u64 x, .u64 y => unsigned .u64 o x y
  | o, .u64 x, .i32 y => unsigned .u64 o x (BitVec.ofInt 64 y)
  | o, .i32 x, .u32 y => unsigned .u32 o (BitVec.ofInt 32 x) y
  | o, .i32 x, .u64 y => unsigned .u64 o (BitVec.ofInt 64 x) y
  | o, .i32 x, .i32 y => signed o x y
  | _, _, _ => none

/-- A binary operator. A pointer plus a number moves by that many elements. -/
def binary : Bin → Val → Val → Option Val
  | .shl, x, y => (count y).bind (shiftLeft (promote x))
  | .shr, x, y => (count y).bind (shiftRight (promote x))
  | .add, .ptr a o s, y => (count y).bind fun n => some (.ptr a (o + s * n) s)
  | o, x, y => usual o (promote x) (promote y)

/-- The operator `~`. On `int` it is not used. -/
def complement : Val → Option Val
  | .u32 x => some (.u32 (~~~x))
  | .u64 x => some (.u64 (~~~x))
  | _ => none

/-- A condition. -/
def truth (v : Val) : Option Bool :=
  match conv .bool v with
  | some (.bool b) => some b
  | _ => none

/-- An element of an array, if the index is below its size. -/
def Arr.get : Arr → Nat → Option Val
  | .a8 xs, i => xs[i]?.map .u8
  | .a32 xs, i => xs[i]?.map .u32
  | .a64 xs, i => xs[i]?.map .u64

/-- The array after an assignment to an element; the value is converted to the type of the elements. -/
def Arr.put : Arr → Nat → Val → Option Arr
  | .a8 xs, i, v => match conv .u8 v with
    | some (.u8 x) => if i < xs.length then some (.a8 (xs.set i x)) else none
    | _ => none
  | .a32 xs, i, v => match conv .u32 v with
    | some (.u32 x) => if i < xs.length then some (.a32 (xs.set i x)) else none
    | _ => none
  | .a64 xs, i, v => match conv .u64 v with
    | some (.u64 x) => if i < xs.length then some (.a64 (xs.set i x)) else none
    | _ => none

/-- The size of an element in bytes. -/
def Arr.size : Arr → Nat
  | .a8 _ => 1
  | .a32 _ => 4
  | .a64 _ => 8

/-- The number with the given bytes, the least significant first. -/
def number : List (BitVec 8) → Nat
  | [] => 0
  | b :: bs => b.toNat + 256 * number bs

/-- The `n` bytes of a number, the least significant first. -/
def digits : Nat → Nat → List (BitVec 8)
  | 0, _ => []
  | n + 1, x => BitVec.ofNat 8 x :: digits n (x / 256)

/-- The bytes of an array in memory. -/
def Arr.bytes : Arr → List (BitVec 8)
  | .a8 xs => xs
  | .a32 xs => xs.flatMap fun x => digits 4 x.toNat
  | .a64 xs => xs.flatMap fun x => digits 8 x.toNat

/-- `n` words of `w` bits from memory. -/
def words (w : Nat) : Nat → List (BitVec 8) → List (BitVec w)
  | 0, _ => []
  | n + 1, bs => BitVec.ofNat w (number (bs.take (w / 8))) :: words w n (bs.drop (w / 8))

/-- The array with other bytes in its memory. -/
def Arr.refill : Arr → List (BitVec 8) → Arr
  | .a8 _, bs => .a8 bs
  | .a32 xs, bs => .a32 (words 32 xs.length bs)
  | .a64 xs, bs => .a64 (words 64 xs.length bs)

/-- What is read through a pointer to elements of `size` bytes at position `off`. An array of bytes may be read as words; an array of words only as such. -/
def load : Arr → Nat → Nat → Option Val
  | .a8 xs, 1, off => xs[off]?.map .u8
  | .a8 xs, 4, off => if off + 4 ≤ xs.length then some (.u32 (BitVec.ofNat 32 (number ((xs.drop off).take 4)))) else none
  | .a8 xs, 8, off => if off + 8 ≤ xs.length then some (.u64 (BitVec.ofNat 64 (number ((xs.drop off).take 8)))) else none
  | .a32 xs, 4, off => if off % 4 = 0 then xs[off / 4]?.map .u32 else none
  | .a64 xs, 8, off => if off % 8 = 0 then xs[off / 8]?.map .u64 else none
  | _, _, _ => none

/-- The value of an expression. `none`: the program has no meaning, or is not well-typed. `args` are the arguments of the function being evaluated. -/
def eval (E : Env) : Expr → List Val → Option (List Val)
  | .lit v, _ => some [v]
  | .var k, _ => match E.vars[k]? with
    | some (.undef _) => none
    | some v => some [v]
    | none => none
  | .arg k, as => as[k]?.map fun v => [v]
  | .idx a i, as => match E.arrs[a]?, eval E i as with
    | some xs, some [i] => (count i).bind fun n => (xs.get n).map fun v => [v]
    | _, _ => none
  | .tab t i, as => match eval E i as with
    | some [i] => (count i).bind fun n => (t.get n).map fun v => [v]
    | _ => none
  | .at p i, as => match eval E p as, eval E i as with
    | some [.ptr a o s], some [i] => match E.arrs[a]? with
      | some xs => (count i).bind fun n => (load xs s (o + s * n)).map fun v => [v]
      | none => none
    | _, _ => none
  | .addr a i, as => match E.arrs[a]?, eval E i as with
    | some xs, some [i] => (count i).bind fun n => (xs.get n).map fun _ => [.ptr a (xs.size * n) xs.size]
    | _, _ => none
  | .recast s p, as => match eval E p as with
    | some [.ptr a o _] => some [.ptr a o s]
    | _ => none
  | .bin o x y, as => match eval E x as, eval E y as with
    | some [x], some [y] => (binary o x y).map fun v => [v]
    | _, _ => none
  | .bnot x, as => match eval E x as with
    | some [x] => (complement (promote x)).map fun v => [v]
    | _ => none
  | .lnot x, as => match eval E x as with
    | some [x] => (truth x).map fun b => [.bool !b]
    | _ => none
  | .land x y, as => match eval E x as with
    | some [x] => match truth x with
      | some true => match eval E y as with
        | some [y] => (truth y).map fun b => [.bool b]
        | _ => none
      | some false => some [.bool false]
      | none => none
    | _ => none
  | .lor x y, as => match eval E x as with
    | some [x] => match truth x with
      | some false => match eval E y as with
        | some [y] => (truth y).map fun b => [.bool b]
        | _ => none
      | some true => some [.bool true]
      | none => none
    | _ => none
  | .cond c x y, as => match eval E c as with
    | some [c] => match truth c with
      | some true => eval E x as
      | some false => eval E y as
      | none => none
    | _ => none
  | .cast t x, as => match eval E x as with
    | some [x] => (conv t x).map fun v => [v]
    | _ => none
  | .ret body args, as => match eval E args as with
    | some vs => eval E body vs
    | none => none
  | .over f g, as => match as with
    | .u32 _ :: _ => eval E f as
    | .u64 _ :: _ => eval E g as
    | _ => none
  | .push x rest, as => match eval E x as, eval E rest as with
    | some [v], some vs => some (v :: vs)
    | _, _ => none
  | .nil, _ => some []

/-- The value of an expression outside of functions. -/
def value (E : Env) (e : Expr) : Option Val :=
  match eval E e [] with
  | some [v] => some v
  | _ => none

/-- A condition of a statement. -/
def test (E : Env) (e : Expr) : Option Bool := (value E e).bind truth

/-- The type of a variable, to which assigned values are converted; an assignment to a pointer keeps its type. -/
def assign : Val → Val → Option Val
  | .bool _, v => conv .bool v
  | .u8 _, v => conv .u8 v
  | .u32 _, v => conv .u32 v
  | .u64 _, v => conv .u64 v
  | .i32 _, v => conv .i32 v
  | .undef t, v => conv t v
  | .ptr _ _ _, .ptr a o s => some (.ptr a o s)
  | .ptr _ _ _, _ => none

/-- `n` bytes of an array from a position. -/
def Arr.part (xs : Arr) (off n : Nat) : Option (List (BitVec 8)) :=
  if off + n ≤ xs.bytes.length then some ((xs.bytes.drop off).take n) else none

/-- The array with other bytes from a position. -/
def Arr.patch (xs : Arr) (off : Nat) (bs : List (BitVec 8)) : Option Arr :=
  if off + bs.length ≤ xs.bytes.length then some (xs.refill (xs.bytes.take off ++ bs ++ xs.bytes.drop (off + bs.length))) else none

/-- The bytes of a variable in memory. -/
def memory : Val → Option (List (BitVec 8))
  | .u8 x => some [x]
  | .u32 x => some (digits 4 x.toNat)
  | .u64 x => some (digits 8 x.toNat)
  | _ => none

/-- The first loop iterations, at most `N` of them: `none` if the condition still holds after those. -/
def iterate (c : Env → Option Bool) (f : Env → Option Env) : Nat → Env → Option Env
  | 0, _ => none
  | N + 1, E => match c E with
    | some true => (f E).bind (iterate c f N)
    | some false => some E
    | none => none

/-- The run of a statement. `none`: the program has no meaning, is not well-typed, or a loop has `N` iterations or more. -/
def exec (N : Nat) (ext : Nat → Val → Val → Env → Option Env) : Stmt → Env → Option Env
  | .skip, E => some E
  | .seq s t, E => (exec N ext s E).bind (exec N ext t)
  | .decl t e, E => (value E e).bind fun v => (conv t v).bind fun v => some { E with vars := E.vars ++ [v] }
  | .declare t, E => some { E with vars := E.vars ++ [.undef t] }
  | .declp e, E => (value E e).bind fun v => some { E with vars := E.vars ++ [v] }
  | .set k e, E => (value E e).bind fun v => E.vars[k]?.bind fun old => (assign old v).bind fun v => some { E with vars := E.vars.set k v }
  | .store a i e, E => (value E i).bind fun i => (count i).bind fun i => (value E e).bind fun v => E.arrs[a]?.bind fun xs =>
      (xs.put i v).bind fun xs => some { E with arrs := E.arrs.set a xs }
  | .storep p i e, E => match value E p with
    | some (.ptr a o s) => (value E i).bind fun i => (count i).bind fun i => (value E e).bind fun v => E.arrs[a]?.bind fun xs =>
        if s = xs.size ∧ o % s = 0 then (xs.put (o / s + i) v).bind fun xs => some { E with arrs := E.arrs.set a xs } else none
    | _ => none
  | .ite c s t, E => (test E c).bind fun b => match b with
      | true => exec N ext s E
      | false => exec N ext t E
  | .while c s, E => iterate (fun E => test E c) (exec N ext s) N E
  | .scope s, E => (exec N ext s E).bind fun E' => some { E' with vars := E'.vars.take E.vars.length }
  | .memcpy d s n, E => match value E d, value E s, value E n with
    | some (.ptr a o _), some (.ptr b p _), some n => (count n).bind fun n => E.arrs[a]?.bind fun xs => E.arrs[b]?.bind fun ys =>
        if a = b ∧ o < p + n ∧ p < o + n then none else
        (ys.part p n).bind fun bs => (xs.patch o bs).bind fun xs => some { E with arrs := E.arrs.set a xs }
    | _, _, _ => none
  | .memcpyv d k n, E => match value E d, E.vars[k]?, value E n with
    | some (.ptr a o _), some v, some n => (count n).bind fun n => E.arrs[a]?.bind fun xs => (memory v).bind fun bs =>
        if n ≤ bs.length then (xs.patch o (bs.take n)).bind fun xs => some { E with arrs := E.arrs.set a xs } else none
    | _, _, _ => none
  | .memset d v n, E => match value E d, value E v, value E n with
    | some (.ptr a o _), some v, some n => (count n).bind fun n => (conv .u8 v).bind fun v => E.arrs[a]?.bind fun xs => match v with
        | .u8 v => (xs.patch o (List.replicate n v)).bind fun xs => some { E with arrs := E.arrs.set a xs }
        | _ => none
    | _, _, _ => none
  | .call f x y, E => (value E x).bind fun x => (value E y).bind fun y => ext f x y E

/-- A call of a member function with a pointer and a number as parameters: its body runs with variables of its own and with the arrays of the object. -/
def invoke (N : Nat) (body : Stmt) (_ : Nat) (x y : Val) (E : Env) : Option Env :=
  (conv .u64 y).bind fun y => (exec N (fun _ _ _ _ => none) body ⟨[x, y], E.arrs⟩).map fun E' => { E with arrs := E'.arrs }

end Digestpp.Cpp
