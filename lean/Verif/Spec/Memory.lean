import Verif.Catalog

/-! What the objects of the library hold in their arrays and strings, for C45: the non-static data members of the provider classes other
than sizes, positions, counters and flags. Words are given as numbers. -/

namespace Digestpp
namespace Spec.Memory
open Model

def words {w : Nat} (l : List (BitVec w)) : List Nat := l.map BitVec.toNat

/-- md5_provider.hpp 188-189, sha1_provider.hpp 152-153, sm3_provider.hpp 178-179, whirlpool_provider.hpp 132-133: `H` (or `h`) and `m`. -/
def plain {w : Nat} (s : Blk (List (BitVec w))) : List Nat := words s.h ++ words s.m

/-- sha2_provider.hpp 268-269: `H`, `m`. -/
def sha2 {w : Nat} (s : Blk (Sha2.St w)) : List Nat := words s.h.H ++ words s.m

/-- sha3_provider.hpp 184-185: `A`, `m`. -/
def sha3 (s : Blk Sha3.St) : List Nat := words s.h.A ++ words s.m

/-- shake_provider.hpp 169-172: `A`, `m`, `N`, `S`. -/
def shake (s : Blk Shake.St) : List Nat := words s.h.A ++ words s.m ++ words s.h.N ++ words s.h.S

/-- k12m14_provider.hpp 133-136: `main`, `child`, `m`, `S`. -/
def k12 (s : Blk K12.St) : List Nat := shake s.h.main ++ shake s.h.child ++ words s.m ++ words s.h.S

/-- kmac_provider.hpp 124-127: `shake`. The string `K` is treated separately. -/
def kmac (s : Kmac.St) : List Nat := shake s.shake

/-- blake_provider.hpp 299-300: the union `u`, and `m`. -/
def blake (s : Blk Blake.St) : List Nat := words s.h.H512 ++ words s.h.H256 ++ words s.m

/-- blake2_provider.hpp 377-381: `H`, `s`, `p`, `k`, `m`. -/
def blake2 {w : Nat} (s : Blk (Blake2.St w)) : List Nat :=
  words s.h.H ++ words s.h.s ++ words s.h.p ++ words s.h.k ++ words s.m

/-- blake2p_provider.hpp 179-181: `main`, `leaf`, `m`. -/
def blake2p {w : Nat} (s : Blk (Blake2p.PSt w)) : List Nat := blake2 s.h.main ++ s.h.leaf.flatMap blake2 ++ words s.m

/-- skein_provider.hpp 380-387: `H`, `hbk`, `m`, `tweak`, `p`, `n`, `k`. -/
def skein (s : Blk Skein.St) : List Nat :=
  words s.h.H ++ words s.h.hbk ++ words s.m ++ [s.h.tweak0.toNat, s.h.tweak1.toNat] ++ words s.h.p ++ words s.h.n ++ words s.h.k

/-- groestl_provider.hpp 199-200: `h`, `m`. -/
def groestl (s : Blk Groestl.St) : List Nat := words s.h.h ++ words s.m

/-- kupyna_provider.hpp 193-194: `h`, `m`. -/
def kupyna (s : Blk Kupyna.St) : List Nat := words s.h.h ++ words s.m

/-- streebog_provider.hpp 178-180: `h`, `S`, `m`. -/
def streebog (s : Blk Streebog.St) : List Nat := words s.h.h ++ words s.h.S ++ words s.m

/-- lsh_provider.hpp 225-228: `cv`, `t`, `msgexp`, `m`. -/
def lsh {w : Nat} (s : Blk (Lsh.St w)) : List Nat := words s.h.cv ++ words s.h.t ++ s.h.msgexp.flatMap words ++ words s.m

/-- esch_provider.hpp 207-208: `H`, `m`. -/
def esch (s : Blk Esch.St) : List Nat := words s.h.H ++ words s.m

/-- ascon_provider.hpp 176-178: `H`, `m`, `Z`. -/
def ascon (s : Blk Ascon.St) : List Nat := words s.h.H ++ words s.m ++ words s.h.Z

/-- echo_provider.hpp 280-281: `h`, which the model keeps in two parts, and `salt`. -/
def echo (s : Blk Echo.St) : List Nat := words s.h.c ++ words s.m ++ words s.h.salt

/-- jh_provider.hpp 212-213: `H`, `m`. -/
def jh (s : Blk Jh.St) : List Nat := words s.h.H ++ words s.m

end Spec.Memory

/-- Everything an object of the class holds. -/
def HashName.memory : (h : HashName) → h.cls.S → List Nat
  | .md5 | .sha1 | .sm3 | .whirlpool => Spec.Memory.plain
  | .sha224 | .sha256 | .sha512 .runtime _ | .sha512 .static _ => Spec.Memory.sha2
  | .sha3 .runtime _ | .sha3 .static _ => Spec.Memory.sha3
  | .kmac .runtime _ _ | .kmac .static _ _ => Spec.Memory.kmac
  | .blake .runtime _ | .blake .static _ => Spec.Memory.blake
  | .blake2b .runtime _ | .blake2b .static _ | .blake2s .runtime _ | .blake2s .static _ | .blake2xb .runtime _ | .blake2xb .static _
  | .blake2xs .runtime _ | .blake2xs .static _ => Spec.Memory.blake2
  | .blake2bp .runtime _ | .blake2bp .static _ | .blake2sp .runtime _ | .blake2sp .static _ => Spec.Memory.blake2p
  | .skein256 .runtime _ | .skein256 .static _ | .skein512 .runtime _ | .skein512 .static _ | .skein1024 .runtime _
  | .skein1024 .static _ => Spec.Memory.skein
  | .groestl .runtime _ | .groestl .static _ => Spec.Memory.groestl
  | .kupyna .runtime _ | .kupyna .static _ => Spec.Memory.kupyna
  | .streebog .runtime _ | .streebog .static _ => Spec.Memory.streebog
  | .lsh256 .runtime _ | .lsh256 .static _ | .lsh512 .runtime _ | .lsh512 .static _ => Spec.Memory.lsh
  | .esch .runtime _ | .esch .static _ => Spec.Memory.esch
  | .ascon => Spec.Memory.ascon
  | .echo .runtime _ | .echo .static _ => Spec.Memory.echo
  | .jh .runtime _ | .jh .static _ => Spec.Memory.jh

/-- Everything an object of the class holds. -/
def XofName.memory : (x : XofName) → x.cls.S → List Nat
  | .shake _ | .cshake _ => Spec.Memory.shake
  | .kmac _ => Spec.Memory.kmac
  | .k12 | .kt256 | .m14 => Spec.Memory.k12
  | .blake2xb | .blake2xs => Spec.Memory.blake2
  | .skein256 | .skein512 | .skein1024 => Spec.Memory.skein
  | .esch256 | .esch384 => Spec.Memory.esch
  | .ascon | .asconCxof => Spec.Memory.ascon

end Digestpp
