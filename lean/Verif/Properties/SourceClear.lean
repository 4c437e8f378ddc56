import Verif.Proofs.Cpp.Clear

/-! C72: the text of `clear` erases the arrays of the object. -/

namespace Digestpp.Properties
open Cpp

/-- Whatever bytes the arrays of the object hold, `body` runs to its end, and then every byte of every array is zero; the arrays keep their types and lengths, and the variables their values. -/
def Erases (body : Stmt) (sizes : List Nat) : Prop :=
  ∀ (N : Nat) (ext : Nat → Val → Val → Env → Option Env) (vs : List Val) (A : List Arr), A.map (fun x => x.bytes.length) = sizes →
    ∃ A', exec N ext body ⟨vs, A⟩ = some ⟨vs, A'⟩ ∧ A'.map Arr.size = A.map Arr.size ∧ A'.map Arr.bytes = sizes.map fun n => List.replicate n 0

/-- **C72**, md5_provider.hpp 94-98. -/
theorem md5_clear_source : Erases Src.Clear.md5 [16, 64] := fun _ _ vs _ h => Clear.clear_all [(0, 16), (1, 64)] (by decide) (by decide) vs h

/-- **C72**, sha1_provider.hpp 87-91. -/
theorem sha1_clear_source : Erases Src.Clear.sha1 [20, 64] := fun _ _ vs _ h => Clear.clear_all [(0, 20), (1, 64)] (by decide) (by decide) vs h

/-- **C72**, sha2_provider.hpp 208-212. -/
theorem sha256_clear_source : Erases Src.Clear.sha256 [32, 64] := fun _ _ vs _ h => Clear.clear_all [(0, 32), (1, 64)] (by decide) (by decide) vs h

/-- **C72**, sha2_provider.hpp 208-212. -/
theorem sha512_clear_source : Erases Src.Clear.sha512 [64, 128] := fun _ _ vs _ h => Clear.clear_all [(0, 64), (1, 128)] (by decide) (by decide) vs h

/-- **C72**, sha3_provider.hpp 177-181. -/
theorem sha3_clear_source : Erases Src.Clear.sha3 [200, 144] := fun _ _ vs _ h => Clear.clear_all [(0, 200), (1, 144)] (by decide) (by decide) vs h

/-- **C72**, whirlpool_provider.hpp 80-84. -/
theorem whirlpool_clear_source : Erases Src.Clear.whirlpool [64, 64] := fun _ _ vs _ h => Clear.clear_all [(0, 64), (1, 64)] (by decide) (by decide) vs h

/-- **C72**, ascon_provider.hpp 131-135. -/
theorem ascon_clear_source : Erases Src.Clear.ascon [40, 64] := fun _ _ vs _ h => Clear.clear_all [(0, 40), (1, 64)] (by decide) (by decide) vs h

/-- **C72**, esch_provider.hpp 167-171. -/
theorem esch256_clear_source : Erases Src.Clear.esch256 [48, 128] := fun _ _ vs _ h => Clear.clear_all [(0, 48), (1, 128)] (by decide) (by decide) vs h

/-- **C72**, esch_provider.hpp 167-171. -/
theorem esch384_clear_source : Erases Src.Clear.esch384 [64, 128] := fun _ _ vs _ h => Clear.clear_all [(0, 64), (1, 128)] (by decide) (by decide) vs h

/-- **C72**, sm3_provider.hpp 100-104. -/
theorem sm3_clear_source : Erases Src.Clear.sm3 [32, 64] := fun _ _ vs _ h => Clear.clear_all [(0, 32), (1, 64)] (by decide) (by decide) vs h

/-- **C72**, jh_provider.hpp 161-165. -/
theorem jh_clear_source : Erases Src.Clear.jh [128, 64] := fun _ _ vs _ h => Clear.clear_all [(0, 128), (1, 64)] (by decide) (by decide) vs h

/-- **C72**, groestl_provider.hpp 169-173. -/
theorem groestl_clear_source : Erases Src.Clear.groestl [128, 128] := fun _ _ vs _ h => Clear.clear_all [(0, 128), (1, 128)] (by decide) (by decide) vs h

/-- **C72**, kupyna_provider.hpp 163-167. -/
theorem kupyna_clear_source : Erases Src.Clear.kupyna [128, 128] := fun _ _ vs _ h => Clear.clear_all [(0, 128), (1, 128)] (by decide) (by decide) vs h

/-- **C72**, streebog_provider.hpp 157-162. -/
theorem streebog_clear_source : Erases Src.Clear.streebog [64, 64, 64] := fun _ _ vs _ h => Clear.clear_all [(0, 64), (1, 64), (2, 64)] (by decide) (by decide) vs h

/-- **C72**, echo_provider.hpp 236-240. -/
theorem echo_clear_source : Erases Src.Clear.echo [256, 16] := fun _ _ vs _ h => Clear.clear_all [(0, 256), (1, 16)] (by decide) (by decide) vs h

/-- **C72**, lsh_provider.hpp 132-138. -/
theorem lsh256_clear_source : Erases Src.Clear.lsh256 [64, 64, 1728, 128] := fun _ _ vs _ h => Clear.clear_all [(0, 64), (1, 64), (3, 128), (2, 1728)] (by decide) (by decide) vs h

/-- **C72**, lsh_provider.hpp 132-138. -/
theorem lsh512_clear_source : Erases Src.Clear.lsh512 [128, 128, 3712, 256] := fun _ _ vs _ h => Clear.clear_all [(0, 128), (1, 128), (3, 256), (2, 3712)] (by decide) (by decide) vs h

/-- **C72**, blake_provider.hpp 280-284: the first array is the union. -/
theorem blake_clear_source : Erases Src.Clear.blake [96, 128] := fun _ _ vs _ h => Clear.clear_all [(0, 96), (1, 128)] (by decide) (by decide) vs h

/-- As `Erases`, for an object with strings and with members of one byte too: the characters the strings had are zero, the strings are empty, and the other members are zero. -/
def ErasesStrings (body : Stmt) (sizes : List Nat) (strings more : Nat) : Prop :=
  ∀ (N : Nat) (ext : Nat → Val → Val → Env → Option Env) (A : List Arr) (ss : List Bytes) (xs : List (BitVec 8)), A.map (fun x => x.bytes.length) = sizes → ss.length = strings → xs.length = more →
    (∀ s ∈ ss, s.length < 2 ^ 64) →
    ∃ A', exec N ext body ⟨ss.map (fun s => .u64 (BitVec.ofNat 64 s.length)) ++ xs.map .u8, A ++ ss.map Arr.a8⟩ = some ⟨List.replicate strings (.u64 0) ++ List.replicate more (.u8 0), A'⟩ ∧
      A'.map Arr.size = (A ++ ss.map Arr.a8).map Arr.size ∧ A'.map Arr.bytes = (A ++ ss.map Arr.a8).map fun x => List.replicate x.bytes.length 0

/-- **C72**, shake_provider.hpp 158-166. -/
theorem shake_clear_source : ErasesStrings Src.Clear.shake [200, 168] 2 0 := by
  intro N ext A ss xs hA hs hx hl
  obtain ⟨x, y, rfl, h1, h2⟩ := Clear.two hA
  obtain ⟨s, t, rfl⟩ := List.length_eq_two.1 hs
  obtain rfl := List.eq_nil_of_length_eq_zero hx
  exact ⟨_, Clear.shake_run h1 h2 (hl s (by simp)) (hl t (by simp)), Clear.zeros [x, y, .a8 s, .a8 t]⟩

/-- **C72**, blake2_provider.hpp 289-300. -/
theorem blake2b_clear_source : ErasesStrings Src.Clear.blake2b [64, 16, 16, 128] 1 3 := by
  intro N ext A ss xs hA hs hx hl
  obtain ⟨x, y, z, u, rfl, h1, h2, h3, h4⟩ := Clear.four hA
  obtain ⟨s, rfl⟩ := List.length_eq_one_iff.1 hs
  obtain ⟨f, g, h, rfl⟩ := List.length_eq_three.1 hx
  exact ⟨_, Clear.blake2_run (a := 64) (b := 16) (c := 128) (by decide) (by decide) (by decide) h1 h2 h3 h4 (hl s (by simp)), Clear.zeros [x, y, z, u, .a8 s]⟩

/-- **C72**, blake2_provider.hpp 289-300. -/
theorem blake2s_clear_source : ErasesStrings Src.Clear.blake2s [32, 8, 8, 64] 1 3 := by
  intro N ext A ss xs hA hs hx hl
  obtain ⟨x, y, z, u, rfl, h1, h2, h3, h4⟩ := Clear.four hA
  obtain ⟨s, rfl⟩ := List.length_eq_one_iff.1 hs
  obtain ⟨f, g, h, rfl⟩ := List.length_eq_three.1 hx
  exact ⟨_, Clear.blake2_run (a := 32) (b := 8) (c := 64) (by decide) (by decide) (by decide) h1 h2 h3 h4 (hl s (by simp)), Clear.zeros [x, y, z, u, .a8 s]⟩

/-- **C72**, skein_provider.hpp 300-312 with `N` equal to 256. -/
theorem skein256_clear_source : ErasesStrings Src.Clear.skein256 [32, 32, 32, 16] 3 0 := by
  intro N ext A ss xs hA hs hx hl
  obtain ⟨x, y, z, u, rfl, h1, h2, h3, h4⟩ := Clear.four hA
  obtain ⟨s, t, r, rfl⟩ := List.length_eq_three.1 hs
  obtain rfl := List.eq_nil_of_length_eq_zero hx
  exact ⟨_, Clear.skein_run (a := 32) (by decide) h1 h2 h3 h4 (hl s (by simp)) (hl t (by simp)) (hl r (by simp)), Clear.zeros [x, y, z, u, .a8 s, .a8 t, .a8 r]⟩

/-- **C72**, skein_provider.hpp 300-312 with `N` equal to 512. -/
theorem skein512_clear_source : ErasesStrings Src.Clear.skein512 [64, 64, 64, 16] 3 0 := by
  intro N ext A ss xs hA hs hx hl
  obtain ⟨x, y, z, u, rfl, h1, h2, h3, h4⟩ := Clear.four hA
  obtain ⟨s, t, r, rfl⟩ := List.length_eq_three.1 hs
  obtain rfl := List.eq_nil_of_length_eq_zero hx
  exact ⟨_, Clear.skein_run (a := 64) (by decide) h1 h2 h3 h4 (hl s (by simp)) (hl t (by simp)) (hl r (by simp)), Clear.zeros [x, y, z, u, .a8 s, .a8 t, .a8 r]⟩

/-- **C72**, skein_provider.hpp 300-312 with `N` equal to 1024. -/
theorem skein1024_clear_source : ErasesStrings Src.Clear.skein1024 [128, 128, 128, 16] 3 0 := by
  intro N ext A ss xs hA hs hx hl
  obtain ⟨x, y, z, u, rfl, h1, h2, h3, h4⟩ := Clear.four hA
  obtain ⟨s, t, r, rfl⟩ := List.length_eq_three.1 hs
  obtain rfl := List.eq_nil_of_length_eq_zero hx
  exact ⟨_, Clear.skein_run (a := 128) (by decide) h1 h2 h3 h4 (hl s (by simp)) (hl t (by simp)) (hl r (by simp)), Clear.zeros [x, y, z, u, .a8 s, .a8 t, .a8 r]⟩

/-- An object with something in it, of the dimensions of MD5. -/
example : [Arr.a32 [0x67452301, 0xefcdab89, 0x98badcfe, 0x10325476], .a8 (List.replicate 64 0x80)].map (fun x => x.bytes.length) = Src.Clear.md5_bytes := by decide

/-- Leaving the buffer out is not enough. -/
example : ¬ Erases (.memset (.addr 0 (.lit (.i32 0))) (.lit (.i32 0)) (.lit (.u64 4))) [4, 1] := by
  intro h
  obtain ⟨A', e, -, b⟩ := h 0 (fun _ _ _ _ => none) [] [.a32 [1], .a8 [1]] rfl
  have e' : exec 0 (fun _ _ _ _ => none) (.memset (.addr 0 (.lit (.i32 0))) (.lit (.i32 0)) (.lit (.u64 4))) ⟨[], [.a32 [1], .a8 [1]]⟩ = some ⟨[], [.a32 [0], .a8 [1]]⟩ := by
    simp [exec, value, eval, count, conv, Arr.get, Arr.size, Arr.patch, Arr.bytes, Arr.refill, digits, words, number, List.replicate]
  rw [e] at e'
  have : A' = [.a32 [0], .a8 [1]] := congrArg Env.arrs (Option.some.inj e')
  rw [this] at b
  exact absurd b (by decide)

/-- A cSHAKE object with a name of one character and no customization, run. -/
example : ∃ A', exec 0 (fun _ _ _ _ => none) Src.Clear.shake ⟨[.u64 1, .u64 0], [.a64 (List.replicate 25 7), .a8 (List.replicate 168 9), .a8 [0x4b], .a8 []]⟩ = some ⟨[.u64 0, .u64 0], A'⟩ ∧
    A'.map Arr.bytes = [List.replicate 200 0, List.replicate 168 0, [0], []] := by
  obtain ⟨A', e, -, b⟩ := shake_clear_source 0 (fun _ _ _ _ => none) [.a64 (List.replicate 25 7), .a8 (List.replicate 168 9)] [[0x4b], []] [] (by decide +kernel) rfl rfl (by decide)
  exact ⟨A', e, b.trans (by decide +kernel)⟩

end Digestpp.Properties
