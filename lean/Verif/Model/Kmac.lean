import Verif.Model.Shake

/-! Model of algorithm/detail/kmac_provider.hpp. -/

namespace Digestpp.Model.Kmac

/-- kmac_provider.hpp 18-32: `bytepad<B>(str)`. -/
def bytepad (B : Nat) (str : Bytes) : Bytes :=
  let pad := if B = 128 then 168 else 136
  let res := Shake.leftEncode pad ++ Shake.leftEncode (str.length * 8 % szMod) ++ str
  let delta := pad - res.length % pad
  if delta ≠ 0 ∧ delta ≠ pad then res ++ List.replicate delta 0 else res

/-- The data members (kmac_provider.hpp 123-127). -/
structure St where
  K : Bytes
  hs : Nat
  squeezing : Bool
  shake : Blk Shake.St

/-- kmac_provider.hpp 71-74: `set_key`. -/
def setKey (B : Nat) (key : Bytes) (s : St) : St := { s with K := bytepad B key }

/-- kmac_provider.hpp 76-79: `set_customization`. -/
def setCustomization (v : Bytes) (s : St) : St := { s with shake := Shake.setCustomization v s.shake }

/-- kmac_provider.hpp 89-92: `update`. -/
def update (B : Nat) (data : Bytes) (s : St) : M St := do
  let sh ← Shake.update 24 (Shake.rateOf B) data s.shake
  pure { s with shake := sh }

/-- kmac_provider.hpp 81-87: `init`. -/
def init (B : Nat) (s : St) : M St := do
  let sh ← Shake.init 24 (Shake.rateOf B) (Shake.setFunctionName (ascii "KMAC") s.shake)
  update B s.K { s with squeezing := false, shake := sh }

/-- kmac_provider.hpp 96-102: the first part of `squeeze`. -/
def squeezeFirst (B : Nat) (xof : Bool) (hs : Nat) (s : St) : M St :=
  if !s.squeezing then do
    let s ← update B (Shake.rightEncode (if !xof then hs * 8 % szMod else 0) false) s
    pure { s with squeezing := true }
  else pure s

/-- kmac_provider.hpp 94-104: `squeeze`. -/
def squeeze (B : Nat) (xof : Bool) (hs : Nat) (s : St) : M (Bytes × St) := do
  let s ← squeezeFirst B xof hs s
  let r ← Shake.squeeze 24 (Shake.rateOf B) hs s.shake
  pure (r.1, { s with shake := r.2 })

/-- kmac_provider.hpp 106-109: `final`. -/
def final (B : Nat) (s : St) : M Bytes := do
  let r ← squeeze B false (s.hs / 8) s
  pure r.1

/-- kmac_provider.hpp 111-116: `clear`. -/
def clear (B : Nat) (s : St) : M St := do
  let sh ← Shake.clear s.shake
  pure (setKey B [] { s with shake := sh })

/-- algorithm/mixin/kmac_mixin.hpp with 71-79. -/
def set (B : Nat) (p : KmacParam) (s : St) : M (Bool × St) :=
  match p with
  | .key v => pure (false, setKey B v s)
  | .customization v => pure (false, setCustomization v s)

/-- kmac_provider.hpp 34-128 for `XOF = false`. -/
def provider (B : Nat) : HashProvider St KmacParam where
  init := init B
  update := update B
  final := final B
  clear := clear B
  hashSize := fun s => s.hs
  set := set B

/-- kmac_provider.hpp 34-128 for `XOF = true`. -/
def xofProvider (B : Nat) : XofProvider St KmacParam where
  init := init B
  update := update B
  squeeze := squeeze B true
  clear := clear B
  set := set B

/-- kmac_provider.hpp 49-64: the constructors; the string members and the member `shake` are default-constructed. -/
def new (B hs : Nat) (mem : St) : St := setKey B [] { mem with hs := hs, shake := Shake.new mem.shake }

/-- algorithm/kmac.hpp: `kmac128(hashsize)`, `kmac256(hashsize)`; kmac_provider.hpp 40-47. -/
def kmac (B hashsize : Nat) : HashClass where
  S := St
  P := KmacParam
  pr := provider B
  Mem := fun s => s.shake.m.length = 168
  ctor := fun s => pure (if validateMax hashsize (szMod - 1) then some (new B hashsize s) else none)

/-- algorithm/kmac.hpp: `static_size::kmac128<N>`, `static_size::kmac256<N>`. -/
def kmacStatic (B N : Nat) : HashClass where
  S := St
  P := KmacParam
  pr := provider B
  Mem := fun s => s.shake.m.length = 168
  ctor := fun s => pure (some (new B N s))

/-- algorithm/kmac.hpp: `kmac128_xof`, `kmac256_xof`. -/
def kmacXof (B : Nat) : XofClass where
  S := St
  P := KmacParam
  pr := xofProvider B
  Mem := fun s => s.shake.m.length = 168
  ctor := fun s => pure (some (new B 0 s))

end Digestpp.Model.Kmac
