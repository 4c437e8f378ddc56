import Verif.Catalog
import Verif.Spec.Cpp

/-! The constructors: which of them exist, and which digest size they choose. -/

namespace Digestpp.Model.Ctors
open Spec.Cpp

deriving instance DecidableEq for Ascon.Kind

/-- The class templates of algorithm/detail/*_provider.hpp with their arguments. `big` tells that the word type is `uint64_t`; `HS` is the last template argument, 0 if none is given. -/
inductive Provider where
  | md5 | sha1 | sm3 | whirlpool
  | sha2 (big : Bool) (O : Nat)
  | sha3 (HS : Nat) | blake (HS : Nat) | echo (HS : Nat) | groestl (HS : Nat) | jh (HS : Nat) | kupyna (HS : Nat) | streebog (HS : Nat)
  | lsh (big : Bool) (HS : Nat)
  | blake2 (big : Bool) (kind : Blake2.Kind) (HS : Nat) | blake2p (big : Bool) (kind : Blake2.Kind) (HS : Nat)
  | kmac (B : Nat) (xof : Bool) (HS : Nat) | esch (N : Nat) (xof : Bool) (HS : Nat) | skein (N : Nat) (xof : Bool) (HS : Nat)
  | shake (B : Nat) | k12m14 (B : Nat) (m14 : Bool) | ascon (kind : Ascon.Kind)
  deriving DecidableEq

/-- `is_xof`: ascon_provider.hpp 24, blake2_provider.hpp 118, blake2p_provider.hpp 25, esch_provider.hpp 80, kmac_provider.hpp 41, skein_provider.hpp 184, k12m14_provider.hpp 29,
shake_provider.hpp 58, and `false` in the others. -/
def isXof : Provider → Bool
  | .ascon k => decide (k ≠ .hash)
  | .blake2 _ k _ | .blake2p _ k _ => decide (k = .xof)
  | .esch _ x _ | .kmac _ x _ | .skein _ x _ => x
  | .k12m14 _ _ | .shake _ => true
  | _ => false

/-- A constructor: its `enable_if` condition, whether it has a parameter `size_t hashsize` and with which default, and the value of the member `hs` after it. -/
structure Ctor where
  enabled : Bool
  takesSize : Bool
  default : Option Nat
  hs : Nat → Nat

/-- A constructor without parameters. -/
def noArgs (enabled : Bool) (hs : Nat) : Ctor := ⟨enabled, false, none, fun _ => hs⟩

/-- A constructor with a size. -/
def sized (enabled : Bool) (default : Option Nat) (hs : Nat → Nat) : Ctor := ⟨enabled, true, default, hs⟩

/-- blake2_provider.hpp 376, blake2p_provider.hpp 177, sha2_provider.hpp 267: `N`. -/
def bits (big : Bool) : Nat := if big then 512 else 256

/-- The constructors: blake_provider.hpp 153-167, echo_provider.hpp 162-176, groestl_provider.hpp 109-121, jh_provider.hpp 104-116, kupyna_provider.hpp 108-120, lsh_provider.hpp 75-89,
sha3_provider.hpp 127-141, streebog_provider.hpp 108-120, blake2_provider.hpp 120-152, blake2p_provider.hpp 27-62, esch_provider.hpp 82-102, kmac_provider.hpp 43-64, skein_provider.hpp 186-198,
sha2_provider.hpp 98-111, and those without parameters of md5_provider.hpp 52, sha1_provider.hpp 42, sm3_provider.hpp 51, whirlpool_provider.hpp 40, shake_provider.hpp 60, k12m14_provider.hpp 31,
ascon_provider.hpp 26. Digest sizes that are not a member are those that `hash_size` returns. -/
def ctors : Provider → List Ctor
  | .md5 => [noArgs true 128]
  | .sha1 => [noArgs true 160]
  | .sm3 => [noArgs true 256]
  | .whirlpool => [noArgs true 512]
  | .sha2 big O => [noArgs (decide (O ≠ 0)) O, sized (big && decide (O = 0)) (some (bits big)) id]
  | .sha3 HS | .blake HS | .echo HS | .groestl HS | .kupyna HS | .streebog HS | .lsh _ HS => [sized (decide (HS = 0)) none id, noArgs (decide (HS ≠ 0)) HS]
  | .jh HS => [sized (decide (HS = 0)) (some 512) id, noArgs (decide (HS ≠ 0)) HS]
  | .blake2 big _ HS | .blake2p big _ HS => [sized (decide (HS = 0)) (some (bits big)) id, noArgs (decide (HS ≠ 0)) HS]
  | .kmac _ xof HS => [sized (!xof && decide (HS = 0)) none id, noArgs (!xof && decide (HS ≠ 0)) HS, noArgs xof 0]
  | .esch N xof HS => [sized (!xof && decide (HS = 0)) none id, noArgs (!xof && decide (HS ≠ 0)) HS, noArgs xof (N - 128)]
  | .skein N _ HS => [sized (decide (HS = 0)) (some N) id, sized (decide (HS ≠ 0)) (some N) fun _ => HS]
  | .shake _ | .k12m14 _ _ => [noArgs true 0]
  | .ascon _ => [noArgs true 256]

/-- Of the language: the digest sizes that the constructors choose which can be called without arguments. -/
def withoutArgs (p : Provider) : List Nat :=
  (ctors p).filterMap fun c => if c.enabled then if c.takesSize then c.default.map c.hs else some (c.hs 0) else none

/-- Of the language: the same for an argument `n`. -/
def withSize (p : Provider) (n : Nat) : List Nat :=
  (ctors p).filterMap fun c => if c.enabled && c.takesSize then some (c.hs n) else none

/-- hasher.hpp 49-53: `hasher()`, if `std::is_default_constructible<H>`. -/
def hasherDefault (p : Provider) : Outcome Nat :=
  match withoutArgs p with
  | [n] => .calls n
  | _ => .noMatch

/-- hasher.hpp 66-70: `hasher(size_t hashsize)`, if not `is_xof`; `provider(hashsize)` in its body must compile. The number is the digest size, or the argument where the body does not compile. -/
def hasherSized (p : Provider) (n : Nat) : Outcome Nat :=
  if isXof p then .noMatch else
  match withSize p n with
  | [m] => .calls m
  | [] => .error n
  | _ => .ambiguous

/-- The last template argument that an alias of the headers gives. -/
def hsArg : Form → Nat → Nat
  | .runtime, _ => 0
  | .static, N => N

/-- The typedefs and alias templates (lines at `HashName`). -/
def ofHash : HashName → Provider
  | .md5 => .md5
  | .sha1 => .sha1
  | .sha224 => .sha2 false 224
  | .sha256 => .sha2 false 256
  | .sha512 f N => .sha2 true (hsArg f N)
  | .sm3 => .sm3
  | .sha3 f N => .sha3 (hsArg f N)
  | .kmac f b N => .kmac b false (hsArg f N)
  | .blake f N => .blake (hsArg f N)
  | .blake2b f N => .blake2 true .hash (hsArg f N)
  | .blake2s f N => .blake2 false .hash (hsArg f N)
  | .blake2xb f N => .blake2 true .xHash (hsArg f N)
  | .blake2xs f N => .blake2 false .xHash (hsArg f N)
  | .blake2bp f N => .blake2p true .hash (hsArg f N)
  | .blake2sp f N => .blake2p false .hash (hsArg f N)
  | .skein256 f N => .skein 256 false (hsArg f N)
  | .skein512 f N => .skein 512 false (hsArg f N)
  | .skein1024 f N => .skein 1024 false (hsArg f N)
  | .groestl f N => .groestl (hsArg f N)
  | .whirlpool => .whirlpool
  | .kupyna f N => .kupyna (hsArg f N)
  | .streebog f N => .streebog (hsArg f N)
  | .lsh256 f N => .lsh false (hsArg f N)
  | .lsh512 f N => .lsh true (hsArg f N)
  | .esch f N => .esch 512 false (hsArg f N)
  | .ascon => .ascon .hash
  | .echo f N => .echo (hsArg f N)
  | .jh f N => .jh (hsArg f N)

/-- The typedefs (lines at `XofName`). -/
def ofXof : XofName → Provider
  | .shake b | .cshake b => .shake b
  | .kmac b => .kmac b true 0
  | .k12 => .k12m14 128 false
  | .kt256 => .k12m14 256 false
  | .m14 => .k12m14 256 true
  | .blake2xb => .blake2 true .xof 0
  | .blake2xs => .blake2 false .xof 0
  | .skein256 => .skein 256 true 0
  | .skein512 => .skein 512 true 0
  | .skein1024 => .skein 1024 true 0
  | .esch256 => .esch 384 true 0
  | .esch384 => .esch 512 true 0
  | .ascon => .ascon .xof
  | .asconCxof => .ascon .cxof

end Digestpp.Model.Ctors
