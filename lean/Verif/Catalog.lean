import Verif.History
import Verif.Model.Md5
import Verif.Model.Sha1
import Verif.Model.Sha2
import Verif.Model.Sm3
import Verif.Model.Sha3
import Verif.Model.Shake
import Verif.Model.Kmac
import Verif.Model.K12
import Verif.Model.Blake
import Verif.Model.Blake2
import Verif.Model.Blake2p
import Verif.Model.Skein
import Verif.Model.Groestl
import Verif.Model.Whirlpool
import Verif.Model.Kupyna
import Verif.Model.Streebog
import Verif.Model.Lsh
import Verif.Model.Esch
import Verif.Model.Ascon
import Verif.Model.Echo
import Verif.Model.Jh

/-! All classes of the library, for statements about all of them. -/

namespace Digestpp
open Model

/-- `X(N)` or `static_size::X<N>()`, e.g. algorithm/blake.hpp 58 and 101-102. -/
inductive Form where
  | runtime
  | static

/-- The hash functions: the typedefs and alias templates of the headers algorithm/*.hpp (ascon.hpp 53; blake.hpp 58, 102; blake2.hpp 68, 117,
161, 204, 318, 352, 386, 420; blake2p.hpp 58, 96, 140, 174; echo.hpp 62, 104; esch.hpp 56, 144; groestl.hpp 53, 88; jh.hpp 54, 89; kmac.hpp 72,
125, 258, 296; kupyna.hpp 58, 94; lsh.hpp 61, 99, 134, 159; md5.hpp 56; sha1.hpp 49; sha2.hpp 59-197; sha3.hpp 55, 90; skein.hpp 70, 118, 166,
315, 349, 383; sm3.hpp 56; streebog.hpp 80, 138; whirlpool.hpp 54). `N` is the digest size in bits. -/
inductive HashName where
  | md5 | sha1 | sha224 | sha256
  /-- algorithm/sha2.hpp: `sha512(N)`; `sha384` is `static_size::sha512<384>` there -/
  | sha512 (f : Form) (N : Nat)
  /-- with shift counts taken modulo 32, see C39 -/
  | sm3
  | sha3 (f : Form) (N : Nat)
  /-- algorithm/kmac.hpp: `kmac128(N)` and `kmac256(N)`, the first argument being 128 or 256 -/
  | kmac (f : Form) (b N : Nat)
  | blake (f : Form) (N : Nat)
  | blake2b (f : Form) (N : Nat)
  | blake2s (f : Form) (N : Nat)
  | blake2xb (f : Form) (N : Nat)
  | blake2xs (f : Form) (N : Nat)
  | blake2bp (f : Form) (N : Nat)
  | blake2sp (f : Form) (N : Nat)
  | skein256 (f : Form) (N : Nat)
  | skein512 (f : Form) (N : Nat)
  | skein1024 (f : Form) (N : Nat)
  | groestl (f : Form) (N : Nat)
  | whirlpool
  | kupyna (f : Form) (N : Nat)
  | streebog (f : Form) (N : Nat)
  /-- with shift counts taken modulo the word size, see C39 -/
  | lsh256 (f : Form) (N : Nat)
  /-- with shift counts taken modulo the word size, see C39 -/
  | lsh512 (f : Form) (N : Nat)
  | esch (f : Form) (N : Nat)
  | ascon
  | echo (f : Form) (N : Nat)
  | jh (f : Form) (N : Nat)

/-- The extendable output functions: the typedefs of the headers algorithm/*.hpp (ascon.hpp 82, 121; blake2.hpp 239, 274; esch.hpp 84, 107;
k12m14.hpp 56, 68, 103, 140; kmac.hpp 167, 210; shake.hpp 51, 82, 122, 161; skein.hpp 201, 236, 271). -/
inductive XofName where
  /-- `shake128`, `shake256` -/
  | shake (b : Nat)
  /-- `cshake128`, `cshake256` -/
  | cshake (b : Nat)
  /-- `kmac128_xof`, `kmac256_xof` -/
  | kmac (b : Nat)
  | k12 | kt256 | m14
  | blake2xb | blake2xs
  | skein256 | skein512 | skein1024
  | esch256 | esch384
  | ascon | asconCxof

namespace HashName

/-- The model of the class: what the typedef or alias template (lines at `HashName`) names. -/
def cls : HashName → HashClass
  | md5 => Md5.cls
  | sha1 => Sha1.cls
  | sha224 => Sha2.sha224
  | sha256 => Sha2.sha256
  | sha512 .runtime N => Sha2.sha512 N
  | sha512 .static N => Sha2.sha512Static N
  | sm3 => Sm3.cls rotlMasked
  | sha3 .runtime N => Sha3.sha3 N
  | sha3 .static N => Sha3.sha3Static N
  | kmac .runtime b N => Kmac.kmac b N
  | kmac .static b N => Kmac.kmacStatic b N
  | blake .runtime N => Blake.blake N
  | blake .static N => Blake.blakeStatic N
  | blake2b .runtime N => Blake2.blake2 Blake2.u64 .hash N
  | blake2b .static N => Blake2.blake2Static Blake2.u64 .hash N
  | blake2s .runtime N => Blake2.blake2 Blake2.u32 .hash N
  | blake2s .static N => Blake2.blake2Static Blake2.u32 .hash N
  | blake2xb .runtime N => Blake2.blake2 Blake2.u64 .xHash N
  | blake2xb .static N => Blake2.blake2Static Blake2.u64 .xHash N
  | blake2xs .runtime N => Blake2.blake2 Blake2.u32 .xHash N
  | blake2xs .static N => Blake2.blake2Static Blake2.u32 .xHash N
  | blake2bp .runtime N => Blake2p.blake2p Blake2.u64 N
  | blake2bp .static N => Blake2p.blake2pStatic Blake2.u64 N
  | blake2sp .runtime N => Blake2p.blake2p Blake2.u32 N
  | blake2sp .static N => Blake2p.blake2pStatic Blake2.u32 N
  | skein256 .runtime N => Skein.skein Skein.f4 N
  | skein256 .static N => Skein.skeinStatic Skein.f4 N
  | skein512 .runtime N => Skein.skein Skein.f8 N
  | skein512 .static N => Skein.skeinStatic Skein.f8 N
  | skein1024 .runtime N => Skein.skein Skein.f16 N
  | skein1024 .static N => Skein.skeinStatic Skein.f16 N
  | groestl .runtime N => Groestl.groestl N
  | groestl .static N => Groestl.groestlStatic N
  | whirlpool => Whirlpool.cls
  | kupyna .runtime N => Kupyna.kupyna N
  | kupyna .static N => Kupyna.kupynaStatic N
  | streebog .runtime N => Streebog.streebog N
  | streebog .static N => Streebog.streebogStatic N
  | lsh256 .runtime N => Lsh.lsh rotlMasked Lsh.u32 N
  | lsh256 .static N => Lsh.lshStatic rotlMasked Lsh.u32 N
  | lsh512 .runtime N => Lsh.lsh rotlMasked Lsh.u64 N
  | lsh512 .static N => Lsh.lshStatic rotlMasked Lsh.u64 N
  | esch .runtime N => Esch.esch N
  | esch .static N => Esch.eschStatic N
  | ascon => Ascon.asconHash
  | echo .runtime N => Echo.echo N
  | echo .static N => Echo.echoStatic N
  | jh .runtime N => Jh.jh N
  | jh .static N => Jh.jhStatic N

/-- Digest size in bits, as documented in the headers at the lines given at `HashName`. -/
def size : HashName → Nat
  | md5 => 128
  | sha1 => 160
  | sha224 => 224
  | sha256 | sm3 | ascon => 256
  | whirlpool => 512
  | sha512 _ N | sha3 _ N | kmac _ _ N | blake _ N | blake2b _ N | blake2s _ N | blake2xb _ N | blake2xs _ N | blake2bp _ N
  | blake2sp _ N | skein256 _ N | skein512 _ N | skein1024 _ N | groestl _ N | kupyna _ N | streebog _ N | lsh256 _ N | lsh512 _ N
  | esch _ N | echo _ N | jh _ N => N

/-- The sizes README.md and the headers document. (BLAKE2X: those its constructors accept; see C49.) -/
def Supported : HashName → Prop
  | md5 | sha1 | sha224 | sha256 | sm3 | whirlpool | ascon => True
  | sha512 _ N | blake2b _ N | blake2bp _ N | groestl _ N | kupyna _ N | lsh512 _ N | echo _ N | jh _ N =>
    0 < N ∧ N % 8 = 0 ∧ N ≤ 512
  | blake2s _ N | blake2sp _ N | lsh256 _ N => 0 < N ∧ N % 8 = 0 ∧ N ≤ 256
  | sha3 _ N | blake _ N => N = 224 ∨ N = 256 ∨ N = 384 ∨ N = 512
  | kmac _ b N => (b = 128 ∨ b = 256) ∧ 0 < N ∧ N % 8 = 0 ∧ N < 2 ^ 64
  | blake2xb .runtime N => 0 < N ∧ N % 8 = 0 ∧ N ≤ 16368
  | blake2xb .static N => 0 < N ∧ N % 8 = 0 ∧ N / 8 < 2 ^ 32 - 1
  | blake2xs .runtime N => 0 < N ∧ N % 8 = 0 ∧ N ≤ 4080
  | blake2xs .static N => 0 < N ∧ N % 8 = 0 ∧ N / 8 < 2 ^ 16 - 1
  | skein256 _ N | skein512 _ N | skein1024 _ N => 0 < N ∧ N % 8 = 0 ∧ N < 2 ^ 64
  | streebog _ N => N = 256 ∨ N = 512
  | esch _ N => N = 256 ∨ N = 384

instance (h : HashName) : Decidable h.Supported := by
  cases h <;> (try (rename_i f _; cases f)) <;> unfold Supported <;> infer_instance

/-- The parameters of the mixins named in the typedefs (lines at `HashName`; algorithm/mixin/*.hpp). -/
instance : (h : HashName) → Param h.cls.P
  | md5 | sha1 | sha224 | sha256 | sha512 .runtime _ | sha512 .static _ | sm3 | sha3 .runtime _ | sha3 .static _
  | groestl .runtime _ | groestl .static _ | whirlpool | kupyna .runtime _ | kupyna .static _ | streebog .runtime _
  | streebog .static _ | lsh256 .runtime _ | lsh256 .static _ | lsh512 .runtime _ | lsh512 .static _ | esch .runtime _
  | esch .static _ | ascon | jh .runtime _ | jh .static _ => inferInstanceAs (Param Empty)
  | kmac .runtime _ _ | kmac .static _ _ => inferInstanceAs (Param KmacParam)
  | blake .runtime _ | blake .static _ | echo .runtime _ | echo .static _ => inferInstanceAs (Param SaltParam)
  | blake2b .runtime _ | blake2b .static _ | blake2s .runtime _ | blake2s .static _ | blake2xb .runtime _ | blake2xb .static _
  | blake2xs .runtime _ | blake2xs .static _ | blake2bp .runtime _ | blake2bp .static _ | blake2sp .runtime _
  | blake2sp .static _ => inferInstanceAs (Param Blake2Param)
  | skein256 .runtime _ | skein256 .static _ | skein512 .runtime _ | skein512 .static _ | skein1024 .runtime _
  | skein1024 .static _ => inferInstanceAs (Param SkeinParam)

/-- Lengths that setter arguments may have, by kind of parameter: BLAKE salts have a fixed size or are empty; BLAKE2 keys a largest size,
salts and personalizations a fixed size or are empty; everything else is free. -/
def acceptsLen : HashName → (kind len : Nat) → Bool
  | blake _ N, _, n => n = 0 || n = (if N ≤ 256 then 16 else 32)
  | echo _ _, _, n => n = 0 || n = 16
  | blake2b _ _, k, n | blake2xb _ _, k, n | blake2bp _ _, k, n => if k = 2 then n ≤ 64 else n = 0 || n = 16
  | blake2s _ _, k, n | blake2xs _ _, k, n | blake2sp _ _, k, n => if k = 2 then n ≤ 32 else n = 0 || n = 8
  | _, _, _ => true

/-- BLAKE2bp and BLAKE2sp do not survive `reset(true)`, see C28. -/
def ResetTrue : HashName → Prop
  | blake2bp _ _ | blake2sp _ _ => False
  | _ => True

/-- In the BLAKE2 classes empty salts and personalizations change nothing, see C50. -/
def Forgets : HashName → (kind : Nat) → Prop
  | blake2b _ _, k | blake2s _ _, k | blake2xb _ _, k | blake2xs _ _, k | blake2bp _ _, k | blake2sp _ _, k => k = 2
  | _, _ => True

/-- The message lengths for which the digest is known. -/
def LenOk : HashName → Nat → Prop
  | md5, _ | sha1, _ | sha224, _ | sha256, _ | sha512 _ _, _ | sm3, _ | sha3 _ _, _ | kmac _ _ _, _ | esch _ _, _ | ascon, _
  | whirlpool, _ | kupyna _ _, _ | streebog _ _, _ | lsh256 _ _, _ | lsh512 _ _, _ | jh _ _, _ | blake _ _, _ | groestl _ _, _ | echo _ _, _ => True
  | skein256 _ _, n | skein512 _ _, n | skein1024 _ _, n => n < 2 ^ 64
  | blake2b _ _, n | blake2s _ _, n | blake2xb _ _, n | blake2xs _ _, n | blake2bp _ _, n | blake2sp _ _, n => n < 2 ^ 60

/-- What is promised of the class, in one structure. Not in the code. -/
def limits (h : HashName) : Limits h.cls.P :=
  ⟨h.LenOk, fun _ => True, h.ResetTrue, fun p => h.acceptsLen (Param.kind p) (Param.value p).length, fun p => h.Forgets (Param.kind p)⟩

end HashName

namespace XofName

/-- The model of the class: what the typedef (lines at `XofName`) names. -/
def cls : XofName → XofClass
  | shake b => Shake.shake b
  | cshake b => Shake.cshake b
  | kmac b => Kmac.kmacXof b
  | k12 => K12.k12 128 12
  | kt256 => K12.k12 256 12
  | m14 => K12.k12 256 14
  | blake2xb => Blake2.blake2xof Blake2.u64
  | blake2xs => Blake2.blake2xof Blake2.u32
  | skein256 => Skein.skeinXof Skein.f4
  | skein512 => Skein.skeinXof Skein.f8
  | skein1024 => Skein.skeinXof Skein.f16
  | esch256 => Esch.eschXof 384
  | esch384 => Esch.eschXof 512
  | ascon => Ascon.asconXof
  | asconCxof => Ascon.asconCxof

/-- The variants there are. -/
def Supported : XofName → Prop
  | shake b | cshake b | kmac b => b = 128 ∨ b = 256
  | _ => True

instance (x : XofName) : Decidable x.Supported := by
  cases x <;> unfold Supported <;> infer_instance

/-- The parameters of the mixins named in the typedefs (lines at `XofName`; algorithm/mixin/*.hpp). -/
instance : (x : XofName) → Param x.cls.P
  | shake _ | esch256 | esch384 | ascon => inferInstanceAs (Param Empty)
  | cshake _ => inferInstanceAs (Param CShakeParam)
  | kmac _ => inferInstanceAs (Param KmacParam)
  | k12 | kt256 | m14 | asconCxof => inferInstanceAs (Param CustomizationParam)
  | blake2xb | blake2xs => inferInstanceAs (Param Blake2Param)
  | skein256 | skein512 | skein1024 => inferInstanceAs (Param SkeinParam)

/-- As for hash functions. -/
def acceptsLen : XofName → (kind len : Nat) → Bool
  | blake2xb, k, n => if k = 2 then n ≤ 64 else n = 0 || n = 16
  | blake2xs, k, n => if k = 2 then n ≤ 32 else n = 0 || n = 8
  | _, _, _ => true

/-- `ascon_cxof` keeps its customization in `reset(true)`, see C28. -/
def ResetTrue : XofName → Prop
  | asconCxof => False
  | _ => True

/-- In the BLAKE2 classes empty salts and personalizations change nothing, see C50. -/
def Forgets : XofName → (kind : Nat) → Prop
  | blake2xb, k | blake2xs, k => k = 2
  | _, _ => True

/-- The message lengths for which the output is known. -/
def LenOk : XofName → Nat → Prop
  | k12, n | kt256, n | m14, n | skein256, n | skein512, n | skein1024, n => n < 2 ^ 64
  | blake2xb, n | blake2xs, n => n < 2 ^ 60
  | _, _ => True

/-- BLAKE2X has `2^32` output blocks. -/
def OutOk : XofName → Nat → Prop
  | blake2xb, n => n ≤ 2 ^ 32 * 64
  | blake2xs, n => n ≤ 2 ^ 32 * 32
  | _, _ => True

/-- What is promised of the class, in one structure. Not in the code. -/
def limits (x : XofName) : Limits x.cls.P :=
  ⟨x.LenOk, x.OutOk, x.ResetTrue, fun p => x.acceptsLen (Param.kind p) (Param.value p).length, fun p => x.Forgets (Param.kind p)⟩

end XofName
end Digestpp
