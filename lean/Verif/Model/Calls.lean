import Verif.Model.Hasher

/-! What the functions selected in `Model/Overloads` do with arguments that the model of `hasher` (`Model/Hasher`) does not have: arrays given as C strings or as iterators, and sequences of integers. -/

namespace Digestpp.Model

/-- Of the library: `std::string(const char*)`, used by hasher.hpp 134 if `absorb` is called with an array of `char`: the characters before the first zero. `mem`: from the pointer to the end of the array. -/
def cString (mem : Bytes) : M Bytes :=
  if mem.all (· != 0) then .error .outOfBounds else .ok (mem.takeWhile (· != 0))

/-- hasher.hpp 134-139: `absorb(array)` for an array of `char`. -/
def absorbCharArray {S : Type} (update : Bytes → S → M S) (mem : Bytes) (s : S) : M S := do
  let d ← cString mem
  absorb update (.str d) s

/-- hasher.hpp 186: `unsigned char byte = *begin++` for elements of an integer type. -/
def elementByte (x : Int) : Byte := BitVec.ofInt 8 x

/-- hasher.hpp 182-190: `absorb(begin, end)` on a sequence of integers. -/
def absorbIntegers {S : Type} (update : Bytes → S → M S) (xs : List Int) (s : S) : M S := absorb update (.iter (xs.map elementByte)) s

/-- hasher.hpp 349-355: `digest(buf)` for an array, which becomes a pointer and is used as an output iterator. -/
def HashProvider.digestArray {S P : Type} (pr : HashProvider S P) (buf : Bytes) (s : S) : M Bytes := do
  let hash ← pr.digestIt s
  memcpyTo buf 0 hash

end Digestpp.Model
