import Verif.Model.Ctors
import Verif.Properties.Overloads

/-! C68: which constructors the classes have, which digest size they choose, and which of `squeeze` and `digest` there are. -/

namespace Digestpp.Properties
open Spec.Cpp Model.Ctors

/-- `@defaultsize` in the headers: ascon.hpp 38 (fixed), blake2.hpp 41, 90, 135, 178, blake2p.hpp 31, 69, md5.hpp 41, sha1.hpp 34, sha2.hpp 41, 79, 111, 147, skein.hpp 44, 92, 140, sm3.hpp 41,
whirlpool.hpp 39; "none" in blake.hpp, echo.hpp, esch.hpp, groestl.hpp, jh.hpp, kmac.hpp, kupyna.hpp, lsh.hpp, sha3.hpp, streebog.hpp. The classes of `static_size` have the size of their name. -/
def docDefault : HashName → Option Nat
  | .md5 => some 128
  | .sha1 => some 160
  | .sha224 => some 224
  | .sha256 | .sm3 | .ascon => some 256
  | .whirlpool => some 512
  | .sha512 .runtime _ | .blake2b .runtime _ | .blake2xb .runtime _ | .blake2bp .runtime _ | .skein512 .runtime _ => some 512
  | .blake2s .runtime _ | .blake2xs .runtime _ | .blake2sp .runtime _ | .skein256 .runtime _ => some 256
  | .skein1024 .runtime _ => some 1024
  | .sha3 .runtime _ | .blake .runtime _ | .echo .runtime _ | .esch .runtime _ | .groestl .runtime _ | .jh .runtime _ | .kmac .runtime _ _ | .kupyna .runtime _
  | .lsh256 .runtime _ | .lsh512 .runtime _ | .streebog .runtime _ => none
  | .sha512 .static N | .blake2b .static N | .blake2xb .static N | .blake2bp .static N | .skein512 .static N | .blake2s .static N | .blake2xs .static N | .blake2sp .static N
  | .skein256 .static N | .skein1024 .static N | .sha3 .static N | .blake .static N | .echo .static N | .esch .static N | .groestl .static N | .jh .static N | .kmac .static _ N
  | .kupyna .static N | .lsh256 .static N | .lsh512 .static N | .streebog .static N => some N

/-- The form of a name; fixed sizes count as `static`. -/
def formOf : HashName → Form
  | .md5 | .sha1 | .sha224 | .sha256 | .sm3 | .whirlpool | .ascon => .static
  | .sha512 f _ | .blake2b f _ | .blake2xb f _ | .blake2bp f _ | .skein512 f _ | .blake2s f _ | .blake2xs f _ | .blake2sp f _
  | .skein256 f _ | .skein1024 f _ | .sha3 f _ | .blake f _ | .echo f _ | .esch f _ | .groestl f _ | .jh f _ | .kmac f _ _
  | .kupyna f _ | .lsh256 f _ | .lsh512 f _ | .streebog f _ => f

/-- Skein. -/
def IsSkein : HashName → Prop
  | .skein256 _ _ | .skein512 _ _ | .skein1024 _ _ => True
  | _ => False

/-- JH. -/
def IsJh : HashName → Prop
  | .jh _ _ => True
  | _ => False

/-- **C68**, `hasher()`: there is a default constructor exactly for the classes with a documented default size, and it chooses that size. Partial: JH with run-time size is excluded
(`jh_default_constructor`), and `static_size::X<0>` is `X` (`static_zero`). -/
theorem default_constructor_partial (h : HashName) (h0 : formOf h = .static → h.size ≠ 0) (hj : IsJh h → formOf h = .static) :
    hasherDefault (ofHash h) = match docDefault h with | some n => .calls n | none => .noMatch := by
  cases h with
  | jh f N =>
    cases f with
    | runtime => exact absurd (hj trivial) (by simp [formOf])
    | static =>
      have : N ≠ 0 := h0 rfl
      simp [hasherDefault, withoutArgs, ofHash, ctors, hsArg, noArgs, sized, docDefault, this]
  | md5 | sha1 | sha224 | sha256 | sm3 | whirlpool | ascon => rfl
  | kmac f b N =>
    cases f with
    | runtime => rfl
    | static =>
      have : N ≠ 0 := h0 rfl
      simp [hasherDefault, withoutArgs, ofHash, ctors, hsArg, noArgs, sized, docDefault, this]
  | _ f N =>
    cases f with
    | runtime => rfl
    | static =>
      have : N ≠ 0 := h0 rfl
      simp [hasherDefault, withoutArgs, ofHash, ctors, hsArg, noArgs, sized, docDefault, this]

/-- **C68 is false for JH**: `jh h;` compiles and has 512 bits, though the documentation says that there is no default size. -/
theorem jh_default_constructor (N : Nat) : hasherDefault (ofHash (.jh .runtime N)) = .calls 512 ∧ docDefault (.jh .runtime N) = none := ⟨rfl, rfl⟩

/-- **C68**, `hasher(n)`: it compiles exactly for the classes with several sizes ("HashProvider supports multiple output sizes"), and has the size asked for. Partial: not for the classes
`static_size::skein…<N>`, see `static_skein_ignores_size`. -/
theorem size_constructor_partial (h : HashName) (n : Nat) (h0 : formOf h = .static → h.size ≠ 0) (hk : IsSkein h → formOf h = .runtime) :
    hasherSized (ofHash h) n = match formOf h with | .runtime => .calls n | .static => .error n := by
  cases h with
  | skein256 f N | skein512 f N | skein1024 f N =>
    cases f with
    | runtime => rfl
    | static => exact absurd (hk trivial) (by simp [formOf])
  | md5 | sha1 | sha224 | sha256 | sm3 | whirlpool | ascon => rfl
  | kmac f b N =>
    cases f with
    | runtime => rfl
    | static =>
      have : N ≠ 0 := h0 rfl
      simp [hasherSized, isXof, withSize, ofHash, ctors, hsArg, noArgs, sized, formOf, this]
  | _ f N =>
    cases f with
    | runtime => rfl
    | static =>
      have : N ≠ 0 := h0 rfl
      simp [hasherSized, isXof, withSize, ofHash, ctors, hsArg, noArgs, sized, formOf, this]

/-- **C68 is false for static Skein**: `static_size::skein512<N> h(n)` compiles, and has `N` bits whatever `n` is. -/
theorem static_skein_ignores_size (h : HashName) (hk : IsSkein h) (hf : formOf h = .static) (h0 : h.size ≠ 0) (n : Nat) : hasherSized (ofHash h) n = .calls h.size := by
  cases h with
  | skein256 f N | skein512 f N | skein1024 f N =>
    cases f with
    | runtime => simp [formOf] at hf
    | static =>
      have : N ≠ 0 := h0
      simp [hasherSized, isXof, withSize, ofHash, ctors, hsArg, sized, HashName.size, this]
  | _ => exact absurd hk (by simp [IsSkein])

/-- A witness: 512 bits asked for, 256 given. -/
example : hasherSized (ofHash (.skein512 .static 256)) 512 = .calls 256 := static_skein_ignores_size (.skein512 .static 256) trivial rfl (by decide) 512

/-- **C68**: `static_size::X<0>` is the class `X` itself, which takes its size from the constructor's argument or a default. -/
theorem static_zero (N : Nat) :
    ofHash (.sha512 .static 0) = ofHash (.sha512 .runtime N) ∧ ofHash (.blake2b .static 0) = ofHash (.blake2b .runtime N) ∧ ofHash (.sha3 .static 0) = ofHash (.sha3 .runtime N) ∧
    hasherDefault (ofHash (.blake2b .static 0)) = .calls 512 ∧ hasherDefault (ofHash (.sha3 .static 0)) = .noMatch := ⟨rfl, rfl, rfl, rfl, rfl⟩

/-- **C68**: extendable output functions have a default constructor and none with a size. -/
theorem xof_constructors (x : XofName) : (∃ n, hasherDefault (ofXof x) = .calls n) ∧ ∀ n, hasherSized (ofXof x) n = .noMatch := by
  cases x <;> exact ⟨⟨_, rfl⟩, fun _ => rfl⟩

/-- **C68**: the classes with `digest` are the hash functions, those with `squeeze` the extendable output functions; no class has both. -/
theorem digest_or_squeeze (v : Version) (args : List Arg) : (∀ h, Model.Overloads.squeeze v (isXof (ofHash h)) args = .noMatch) ∧ (∀ x f, Model.Overloads.digest v (isXof (ofXof x)) args ≠ .calls f) := by
  constructor
  · intro h
    have e : isXof (ofHash h) = false := by cases h <;> rfl
    rw [e]
    rcases squeeze_outcomes v false args with h | ⟨h, _⟩
    · exact h
    · exact absurd h (by decide)
  · intro x f h
    have e : isXof (ofXof x) = true := by cases x <;> rfl
    rw [e] at h
    have := (((digest_outcomes v true args).1 f).1 h).1
    exact absurd this (by decide)

/-- **C68**: and both can be called: `sha3(256)` on a buffer of 32 bytes and on an iterator, `shake128` in four ways. -/
example (v : Version) : Model.Overloads.digest v (isXof (ofHash (.sha3 .runtime 256))) [{ ty := .arr false .uchar 32 }, { ty := .size, lvalue := false }] = .calls .pointer ∧
    Model.Overloads.digest v (isXof (ofHash (.sha3 .runtime 256))) [{ ty := .sink .uchar, lvalue := false }] = .calls .iterator ∧
    Model.Overloads.squeeze v (isXof (ofXof (.shake 128))) [{ ty := .arr false .char 32 }, { ty := .arith 0, lvalue := false }] = .calls .pointer ∧
    Model.Overloads.squeeze v (isXof (ofXof (.shake 128))) [{ ty := .arr false .schar 32 }] = .calls .rawArray ∧
    Model.Overloads.squeeze v (isXof (ofXof (.shake 128))) [{ ty := .stdArray .uchar 32 }] = .calls .array ∧
    Model.Overloads.squeeze v (isXof (ofXof (.shake 128))) [{ ty := .arith 0, lvalue := false }, { ty := .sink .uchar, lvalue := false }] = .calls .iterator :=
  ⟨((digest_outcomes v false _).1 _).2 ⟨rfl, .pointer (.inr (.inr (.inl rfl))) (.inr ⟨32, rfl⟩) (.inr (.inr (.inr (.inr (.inl rfl))))), fun _ => ⟨_, _, rfl, .inr ⟨32, rfl⟩⟩⟩,
   ((digest_outcomes v false _).1 _).2 ⟨rfl, .iterator ⟨.uchar, .inr (.inr (.inl rfl)), .inr (.inl rfl)⟩, fun e => by simp at e⟩,
   (squeeze_selects v true _ _).2 ⟨rfl, .pointer (.inl rfl) (.inr ⟨32, rfl⟩) (.inr (.inr (.inr (.inr (.inr ⟨0, rfl⟩)))))⟩,
   (squeeze_selects v true _ _).2 ⟨rfl, .rawArray (.inr (.inl rfl)) rfl rfl⟩,
   (squeeze_selects v true _ _).2 ⟨rfl, .array (.inr (.inr (.inl rfl))) rfl rfl rfl⟩,
   (squeeze_selects v true _ _).2 ⟨rfl, .iterator (.inr (.inr (.inr (.inr (.inr ⟨0, rfl⟩))))) ⟨.uchar, .inr (.inr (.inl rfl)), .inr (.inl rfl)⟩⟩⟩

end Digestpp.Properties
