import Verif.Proofs.Skein
import Verif.Proofs.Conforms
import Verif.Proofs.Validate

/-! C15: Skein. -/

namespace Digestpp.Properties
open Model Spec
open Model.Skein (Fns f4 f8 f16)
open Spec.Skein (Threefish Theta threefish256 threefish512 threefish1024)

/-- Messages of fewer than `2^64` bytes; parameter strings of fewer than `2^63` bytes. -/
def skeinCover : Cover SkeinParam Theta := ⟨fun _ m => m.length < 2 ^ 64, True, fun p => p.value.length < 2 ^ 63, fun _ => True⟩

section
variable {F : Fns} {T : Threefish}

private theorem conforms (ok : Proofs.Skein.FOk F T) (hs : Nat) (h0 : 0 < hs) (h8 : hs % 8 = 0) (hm : hs < 2 ^ 64) :
    HashConforms (Model.Skein.skein F hs) (Spec.Skein.fn T (hs / 8)) skeinCover := by
  refine Proofs.hashConforms (c := Model.Skein.skein F hs) (Proofs.Skein.refines ok hs (by omega) h8) ?_
  intro mem hmem
  have hmem' : mem.m.length = 8 * F.nw := hmem
  obtain ⟨s', e, r⟩ := Proofs.Skein.init_R ok false hs ⟨[], [], []⟩ Proofs.Skein.valid_none (Model.Skein.fields hs mem)
    (by rw [← ok.nw]; exact hmem') ⟨rfl, rfl, rfl, rfl⟩
  refine ⟨Model.Skein.fields hs mem, s', ?_, e, r⟩
  show (pure (Model.Skein.new hs mem) : M _) = _
  unfold Model.Skein.new
  rw [if_pos ((Proofs.validateMax_iff _ _).mpr (by unfold szMod; omega))]
  rfl

private theorem conforms_static (ok : Proofs.Skein.FOk F T) (hs : Nat) (h0 : 0 < hs) (h8 : hs % 8 = 0) :
    HashConforms (Model.Skein.skeinStatic F hs) (Spec.Skein.fn T (hs / 8)) skeinCover := by
  refine Proofs.hashConforms (c := Model.Skein.skeinStatic F hs) (Proofs.Skein.refines ok hs (by omega) h8) ?_
  intro mem hmem
  have hmem' : mem.m.length = 8 * F.nw := hmem
  obtain ⟨s', e, r⟩ := Proofs.Skein.init_R ok false hs ⟨[], [], []⟩ Proofs.Skein.valid_none (Model.Skein.fields hs mem)
    (by rw [← ok.nw]; exact hmem') ⟨rfl, rfl, rfl, rfl⟩
  exact ⟨Model.Skein.fields hs mem, s', rfl, e, r⟩

private theorem conforms_xof (ok : Proofs.Skein.FOk F T) : XofConforms (Model.Skein.skeinXof F) (Spec.Skein.xof T) skeinCover := by
  have hge := ok.ge
  have hle := ok.le
  have hnw := ok.nw
  refine Proofs.xofConforms (c := Model.Skein.skeinXof F) (Proofs.Skein.refines_xof ok (64 * F.nw)) ?_
  intro mem hmem
  have hmem' : mem.m.length = 8 * F.nw := hmem
  obtain ⟨s', e, r⟩ := Proofs.Skein.init_R ok true (64 * F.nw) ⟨[], [], []⟩ Proofs.Skein.valid_none (Model.Skein.fields (64 * F.nw) mem)
    (by rw [← ok.nw]; exact hmem') ⟨rfl, rfl, rfl, rfl⟩
  refine ⟨Model.Skein.fields (64 * F.nw) mem, s', ?_, e, r.rx ok⟩
  show (pure (Model.Skein.new (64 * F.nw) mem) : M _) = _
  unfold Model.Skein.new
  rw [if_pos ((Proofs.validateMax_iff _ _).mpr (by unfold szMod; omega))]
  rfl

end

/-- **C15.** `skein256(N)` is Skein-256 with `N`-bit output, keyed or not, for every `N` the constructor accepts. -/
theorem skein256_conforms (N : Nat) (h0 : 0 < N) (h8 : N % 8 = 0) (hm : N < 2 ^ 64) :
    HashConforms (Model.Skein.skein f4 N) (Spec.Skein.fn threefish256 (N / 8)) skeinCover := conforms Proofs.Skein.f4_ok N h0 h8 hm

/-- **C15.** `skein512(N)`. -/
theorem skein512_conforms (N : Nat) (h0 : 0 < N) (h8 : N % 8 = 0) (hm : N < 2 ^ 64) :
    HashConforms (Model.Skein.skein f8 N) (Spec.Skein.fn threefish512 (N / 8)) skeinCover := conforms Proofs.Skein.f8_ok N h0 h8 hm

/-- **C15.** `skein1024(N)`. -/
theorem skein1024_conforms (N : Nat) (h0 : 0 < N) (h8 : N % 8 = 0) (hm : N < 2 ^ 64) :
    HashConforms (Model.Skein.skein f16 N) (Spec.Skein.fn threefish1024 (N / 8)) skeinCover := conforms Proofs.Skein.f16_ok N h0 h8 hm

/-- **C15.** `static_size::skein256<N>`. -/
theorem skein256_static_conforms (N : Nat) (h0 : 0 < N) (h8 : N % 8 = 0) :
    HashConforms (Model.Skein.skeinStatic f4 N) (Spec.Skein.fn threefish256 (N / 8)) skeinCover := conforms_static Proofs.Skein.f4_ok N h0 h8

/-- **C15.** `static_size::skein512<N>`. -/
theorem skein512_static_conforms (N : Nat) (h0 : 0 < N) (h8 : N % 8 = 0) :
    HashConforms (Model.Skein.skeinStatic f8 N) (Spec.Skein.fn threefish512 (N / 8)) skeinCover := conforms_static Proofs.Skein.f8_ok N h0 h8

/-- **C15.** `static_size::skein1024<N>`. -/
theorem skein1024_static_conforms (N : Nat) (h0 : 0 < N) (h8 : N % 8 = 0) :
    HashConforms (Model.Skein.skeinStatic f16 N) (Spec.Skein.fn threefish1024 (N / 8)) skeinCover := conforms_static Proofs.Skein.f16_ok N h0 h8

/-- **C15.** `skein256_xof`. -/
theorem skein256_xof_conforms : XofConforms (Model.Skein.skeinXof f4) (Spec.Skein.xof threefish256) skeinCover :=
  conforms_xof Proofs.Skein.f4_ok

/-- **C15.** `skein512_xof`. -/
theorem skein512_xof_conforms : XofConforms (Model.Skein.skeinXof f8) (Spec.Skein.xof threefish512) skeinCover :=
  conforms_xof Proofs.Skein.f8_ok

/-- **C15.** `skein1024_xof`. -/
theorem skein1024_xof_conforms : XofConforms (Model.Skein.skeinXof f16) (Spec.Skein.xof threefish1024) skeinCover :=
  conforms_xof Proofs.Skein.f16_ok

/-! The hypotheses can be met; the values are test vectors of the Skein submission. -/

def skeinMem (n : Nat) : Blk Model.Skein.St := ⟨⟨[1], [], 5, 6, 7, true, [1], [2], [3]⟩, List.replicate n 0xaa, 17, 99⟩
def skeinOps : List (HashOp SkeinParam) :=
  [.absorb (.ptr [1, 2]), .set (.key [1]), .set (.nonce [7]), .reset true, .absorb (.ptr [0xcc]), .hexdigest]

example : (Model.Skein.skein f8 128).Mem (skeinMem 64) := rfl
example : (Spec.Skein.fn threefish512 16).Covered skeinCover skeinOps (Spec.Skein.fn threefish512 16).new :=
  ⟨show 2 < 2 ^ 63 by decide, show 1 < 2 ^ 63 by decide, show 1 < 2 ^ 63 by decide, fun _ => trivial, show 1 < 2 ^ 63 by decide,
    show 1 < 2 ^ 64 by decide, trivial⟩
example : (Model.Skein.skein f8 128).trial (skeinMem 64) skeinOps
    = some [.done, .done, .done, .done, .done, .text "2d35aacb6770490585ea4ba681a3ae09".toList] := by decide +kernel

def skeinXofOps : List (XofOp SkeinParam) := [.set (.key [1]), .reset true, .absorb (.ptr [0xcc]), .squeeze 5, .squeeze 27]

example : (Spec.Skein.xof threefish512).Covered skeinCover skeinXofOps (Spec.Skein.xof threefish512).new :=
  ⟨show 1 < 2 ^ 63 by decide, fun _ => trivial, ⟨show 1 < 2 ^ 63 by decide, rfl⟩, ⟨show 1 < 2 ^ 64 by decide, by decide, by decide, trivial⟩,
    ⟨show 1 < 2 ^ 64 by decide, by decide, by decide, trivial⟩, trivial⟩
example : (Model.Skein.skeinXof f8).trial (skeinMem 64) skeinXofOps
    = some [.done, .done, .done, .bytes [0x98, 0xA7, 0x4C, 0x0D, 0xA8],
        .bytes [0x9C, 0xEB, 0x7B, 0x7E, 0xED, 0xDB, 0x4C, 0xD3, 0xB3, 0x4D, 0xBB, 0xF8, 0x9B, 0x29, 0x46, 0x58, 0x10, 0x13, 0xB5, 0x1A,
          0xE8, 0xC9, 0x83, 0xB3, 0x37, 0x59, 0x56]] := by decide +kernel

end Digestpp.Properties
