/-! Vocabulary shared by the model and the specifications: bytes, API calls and what a caller sees of them. -/

namespace Digestpp

/-- `unsigned char`. -/
abbrev Byte := BitVec 8

/-- A contiguous memory range (or the contents of a `std::string`, `std::vector`, `std::array<unsigned char, N>`). -/
abbrev Bytes := List Byte

/-- The `absorb` overloads, each with the bytes the caller passes. -/
inductive Source where
  /-- hasher.hpp 86-90: `absorb(const T* data, size_t len)` -/
  | ptr (data : Bytes)
  /-- hasher.hpp 105-108: `absorb(const std::array<T, N>&)` -/
  | array (data : Bytes)
  /-- hasher.hpp 117-122, 134-139: `absorb(const std::basic_string<T>&)`, `absorb(const std::string&)` -/
  | str (data : Bytes)
  /-- hasher.hpp 152-166: `absorb(std::basic_istream<T>&)`; the bytes left in the stream -/
  | stream (data : Bytes)
  /-- hasher.hpp 182-190: `absorb(IT begin, IT end)` -/
  | iter (data : Bytes)

/-- Calls on a hash function object (`P`: the parameter setters the mixin adds). -/
inductive HashOp (P : Type) where
  | absorb (src : Source)
  /-- `digest(buf, len)` on a caller's buffer with the given initial contents -/
  | digestBuf (buf : Bytes)
  /-- `digest(it)` -/
  | digest
  | hexdigest
  | reset (resetParameters : Bool)
  | set (p : P)

/-- Calls on an extendable output function object. -/
inductive XofOp (P : Type) where
  | absorb (src : Source)
  /-- `squeeze(buf, len)` on a caller's buffer with the given initial contents -/
  | squeezeBuf (buf : Bytes)
  /-- `squeeze(len, it)` -/
  | squeeze (len : Nat)
  | hexsqueeze (len : Nat)
  | reset (resetParameters : Bool)
  | set (p : P)

/-- What the caller sees of a call. -/
inductive Obs where
  /-- returned without a value -/
  | done
  /-- threw `std::runtime_error` -/
  | threw
  /-- bytes written to an output iterator -/
  | bytes (b : Bytes)
  /-- final contents of the caller's buffer -/
  | buffer (b : Bytes)
  /-- returned string -/
  | text (s : List Char)
  deriving DecidableEq

/-- The bytes of a text, for examples. -/
def ascii (s : String) : Bytes := s.toList.map fun c => BitVec.ofNat 8 c.toNat

/-- algorithm/mixin/cshake_mixin.hpp: `set_function_name`, `set_customization`. -/
inductive CShakeParam where
  | functionName (value : Bytes)
  | customization (value : Bytes)

/-- algorithm/mixin/kmac_mixin.hpp: `set_customization`, `set_key`. -/
inductive KmacParam where
  | customization (value : Bytes)
  | key (value : Bytes)

/-- algorithm/mixin/k12m14_mixin.hpp, ascon_cxof_mixin.hpp: `set_customization`. -/
inductive CustomizationParam where
  | customization (value : Bytes)

/-- algorithm/mixin/blake_mixin.hpp, echo_mixin.hpp: `set_salt`. -/
inductive SaltParam where
  | salt (value : Bytes)

/-- algorithm/mixin/blake2_mixin.hpp: `set_salt`, `set_personalization`, `set_key`. -/
inductive Blake2Param where
  | salt (value : Bytes)
  | personalization (value : Bytes)
  | key (value : Bytes)

/-- algorithm/mixin/skein_mixin.hpp: `set_personalization`, `set_nonce`, `set_key`. -/
inductive SkeinParam where
  | personalization (value : Bytes)
  | nonce (value : Bytes)
  | key (value : Bytes)

/-- The string passed to the setter. -/
def SkeinParam.value : SkeinParam → Bytes
  | .personalization v | .nonce v | .key v => v

end Digestpp
