import Verif.Catalog
import Verif.Model.Faults
import Verif.Spec.Faults

/-! The setters of all classes when memory may run out. -/

namespace Digestpp
open Model Spec

namespace HashName

/-- The setters (mixins of the typedefs given at `HashName`) when memory may run out. -/
def setMem : (h : HashName) → SetMem h.cls.S h.cls.P
  | kmac .runtime b _ => Kmac.setMem b
  | kmac .static b _ => Kmac.setMem b
  | blake2b .runtime _ => Blake2.setMem Blake2.u64
  | blake2b .static _ => Blake2.setMem Blake2.u64
  | blake2s .runtime _ => Blake2.setMem Blake2.u32
  | blake2s .static _ => Blake2.setMem Blake2.u32
  | blake2xb .runtime _ => Blake2.setMem Blake2.u64
  | blake2xb .static _ => Blake2.setMem Blake2.u64
  | blake2xs .runtime _ => Blake2.setMem Blake2.u32
  | blake2xs .static _ => Blake2.setMem Blake2.u32
  | blake2bp .runtime _ => Blake2p.setMem Blake2.u64
  | blake2bp .static _ => Blake2p.setMem Blake2.u64
  | blake2sp .runtime _ => Blake2p.setMem Blake2.u32
  | blake2sp .static _ => Blake2p.setMem Blake2.u32
  | skein256 .runtime _ => Skein.setMem
  | skein256 .static _ => Skein.setMem
  | skein512 .runtime _ => Skein.setMem
  | skein512 .static _ => Skein.setMem
  | skein1024 .runtime _ => Skein.setMem
  | skein1024 .static _ => Skein.setMem
  | md5 => setNoString md5.cls.pr.set
  | sha1 => setNoString sha1.cls.pr.set
  | sha224 => setNoString sha224.cls.pr.set
  | sha256 => setNoString sha256.cls.pr.set
  | sha512 f N => setNoString (sha512 f N).cls.pr.set
  | sm3 => setNoString sm3.cls.pr.set
  | sha3 f N => setNoString (sha3 f N).cls.pr.set
  | blake f N => setNoString (blake f N).cls.pr.set
  | groestl f N => setNoString (groestl f N).cls.pr.set
  | whirlpool => setNoString whirlpool.cls.pr.set
  | kupyna f N => setNoString (kupyna f N).cls.pr.set
  | streebog f N => setNoString (streebog f N).cls.pr.set
  | lsh256 f N => setNoString (lsh256 f N).cls.pr.set
  | lsh512 f N => setNoString (lsh512 f N).cls.pr.set
  | esch f N => setNoString (esch f N).cls.pr.set
  | ascon => setNoString ascon.cls.pr.set
  | echo f N => setNoString (echo f N).cls.pr.set
  | jh f N => setNoString (jh f N).cls.pr.set

/-- How many string operations a setter takes (mixins of the typedefs given at `HashName`); for BLAKE2bp and BLAKE2sp those of the
root only. -/
def strings : (h : HashName) → h.cls.P → Nat
  | kmac .runtime b _ => kmacStrings (200 - 2 * b / 8)
  | kmac .static b _ => kmacStrings (200 - 2 * b / 8)
  | blake2b .runtime _ => blake2Strings 64
  | blake2b .static _ => blake2Strings 64
  | blake2s .runtime _ => blake2Strings 32
  | blake2s .static _ => blake2Strings 32
  | blake2xb .runtime _ => blake2Strings 64
  | blake2xb .static _ => blake2Strings 64
  | blake2xs .runtime _ => blake2Strings 32
  | blake2xs .static _ => blake2Strings 32
  | blake2bp .runtime _ => blake2Strings 64
  | blake2bp .static _ => blake2Strings 64
  | blake2sp .runtime _ => blake2Strings 32
  | blake2sp .static _ => blake2Strings 32
  | skein256 _ _ | skein512 _ _ | skein1024 _ _ => oneString
  | _ => noString

/-- The classes whose objects consist of several objects with parameters of their own (blake2p.hpp 58, 96, 140, 174). -/
def IsTree : HashName → Prop
  | blake2bp _ _ | blake2sp _ _ => True
  | _ => False

end HashName

namespace XofName

/-- The setters (mixins of the typedefs given at `XofName`) when memory may run out. -/
def setMem : (x : XofName) → SetMem x.cls.S x.cls.P
  | cshake _ => Shake.setMem
  | kmac b => Kmac.setMem b
  | k12 | kt256 | m14 => K12.setMem
  | blake2xb => Blake2.setMem Blake2.u64
  | blake2xs => Blake2.setMem Blake2.u32
  | skein256 | skein512 | skein1024 => Skein.setMem
  | asconCxof => Ascon.setMem
  | shake b => setNoString (shake b).cls.pr.set
  | esch256 => setNoString esch256.cls.pr.set
  | esch384 => setNoString esch384.cls.pr.set
  | ascon => setNoString ascon.cls.pr.set

/-- How many string operations a setter takes (mixins of the typedefs given at `XofName`). -/
def strings : (x : XofName) → x.cls.P → Nat
  | kmac b => kmacStrings (200 - 2 * b / 8)
  | blake2xb => blake2Strings 64
  | blake2xs => blake2Strings 32
  | cshake _ | k12 | kt256 | m14 | skein256 | skein512 | skein1024 | asconCxof => oneString
  | shake _ | esch256 | esch384 | ascon => noString

end XofName
end Digestpp
