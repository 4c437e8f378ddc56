import Verif.Proofs.Clear
import Verif.Properties.Blake2p
import Verif.Properties.Ascon

/-! C14, C25, C28, C42: what the three classes do that `reset(true)` does not bring back to the state of a new object, in all histories. -/

namespace Digestpp.Properties
open Model Spec
open Model.Blake2 (u32 u64)
open Model.Blake2p (PSt)
open Spec.Blake2 (v2s v2b Theta pfnClr pfnCleared)

/-- Messages of fewer than `2^60` bytes. -/
def blake2pCoverClr : Cover Blake2Param (Bool × Theta) := .below _ (2 ^ 60)

section
variable {w : Nat} {T : Model.Blake2.Word w} {v : Spec.Blake2.Variant w}

/-- The provider without the restriction on parameters. -/
private theorem all_params {pr : HashProvider (Blk (PSt w)) Blake2Param} {f : HashFn Blake2Param (Bool × Theta)}
    {R : Bool × Theta → Bytes → Blk (PSt w) → Prop}
    (hr : Proofs.HashRefines pr f
      ⟨fun _ m => m.length < 2 ^ 60, False, fun p => true = true ∨ p ≠ .salt [] ∧ p ≠ .personalization [], fun _ => True⟩ R) :
    Proofs.HashRefines pr f { blake2pCoverClr with clr := False } R :=
  hr.mono rfl rfl rfl (fun _ _ _ _ h => ⟨h, rfl⟩) (fun h => h) (fun _ _ => .inl rfl)

private theorem conforms_clr (ok : Proofs.Blake2.WordOk T v) (N : Nat) (h0 : 0 < N) (h8 : N % 8 = 0) (hm : N / 8 ≤ w) :
    HashConformsClr (Model.Blake2p.blake2p T N) (pfnClr v (Model.Blake2p.leaves w) true (N / 8)) (pfnCleared w) blake2pCoverClr := by
  refine Proofs.hashConformsClr (c := Model.Blake2p.blake2p T N) (all_params (Proofs.Blake2p.refinesL ok true N (by omega) hm)) ?_ ?_
  · exact fun θ msg s h => Proofs.Blake2p.clearP_ok ok N hm h
  · exact fun mem hmem => blake2p_ctor_ok ok N h0 h8 hm mem hmem

private theorem conforms_static_clr (ok : Proofs.Blake2.WordOk T v) (N : Nat) (h0 : 0 < N / 8) (hm : N / 8 ≤ w) :
    HashConformsClr (Model.Blake2p.blake2pStatic T N) (pfnClr v (Model.Blake2p.leaves w) true (N / 8)) (pfnCleared w) blake2pCoverClr := by
  refine Proofs.hashConformsClr (c := Model.Blake2p.blake2pStatic T N) (all_params (Proofs.Blake2p.refinesL ok true N h0 hm)) ?_ ?_
  · exact fun θ msg s h => Proofs.Blake2p.clearP_ok ok N hm h
  · intro mem hmem
    obtain ⟨s, s', e1, e2, r⟩ := Proofs.Blake2p.fields_ok ok N hm mem hmem
    refine ⟨s, s', ?_, e2, r⟩
    show (Model.Blake2p.fields N mem >>= fun s => pure (some s)) = _
    rw [e1]
    rfl

private theorem conforms_schedule_clr (ok : Proofs.Blake2.WordOk T v) (scheduler : Bytes → Nat → Blk (PSt w) → List Nat)
    (hv : ∀ data n s, ScheduleOf (Model.Blake2p.leaves w) n (scheduler data n s)) (N : Nat) (h0 : 0 < N) (h8 : N % 8 = 0) (hm : N / 8 ≤ w) :
    HashConformsClr (Model.Blake2p.blake2pSchedule T scheduler N) (pfnClr v (Model.Blake2p.leaves w) true (N / 8)) (pfnCleared w)
      blake2pCoverClr := by
  refine Proofs.hashConformsClr (c := Model.Blake2p.blake2pSchedule T scheduler N)
    (all_params (Proofs.Blake2p.refinesL_schedule ok true N (by omega) hm scheduler hv)) ?_ ?_
  · exact fun θ msg s h => Proofs.Blake2p.clearP_ok ok N hm h
  · exact fun mem hmem => blake2p_ctor_ok ok N h0 h8 hm mem hmem

end

/-- **C14, C28.** `blake2bp(N)` in all histories of calls, with `reset(true)`: up to the first one it is BLAKE2bp, from then on all nodes
are sequential BLAKE2b, the one at the top too. (Empty salts and personalizations leave the old value in place.) -/
theorem blake2bp_conforms_clr (N : Nat) (h0 : 0 < N) (h8 : N % 8 = 0) (hm : N ≤ 512) :
    HashConformsClr (Model.Blake2p.blake2p u64 N) (pfnClr v2b 4 true (N / 8)) (pfnCleared 64) blake2pCoverClr :=
  conforms_clr Proofs.Blake2.u64_ok N h0 h8 (by omega)

/-- **C14, C28.** `blake2sp(N)` in all histories of calls. -/
theorem blake2sp_conforms_clr (N : Nat) (h0 : 0 < N) (h8 : N % 8 = 0) (hm : N ≤ 256) :
    HashConformsClr (Model.Blake2p.blake2p u32 N) (pfnClr v2s 8 true (N / 8)) (pfnCleared 32) blake2pCoverClr :=
  conforms_clr Proofs.Blake2.u32_ok N h0 h8 (by omega)

/-- **C14, C28.** `static_size::blake2bp<N>` in all histories of calls. -/
theorem blake2bp_static_conforms_clr (N : Nat) (h0 : 0 < N) (h8 : N % 8 = 0) (hm : N ≤ 512) :
    HashConformsClr (Model.Blake2p.blake2pStatic u64 N) (pfnClr v2b 4 true (N / 8)) (pfnCleared 64) blake2pCoverClr :=
  conforms_static_clr Proofs.Blake2.u64_ok N (by omega) (by omega)

/-- **C14, C28.** `static_size::blake2sp<N>` in all histories of calls. -/
theorem blake2sp_static_conforms_clr (N : Nat) (h0 : 0 < N) (h8 : N % 8 = 0) (hm : N ≤ 256) :
    HashConformsClr (Model.Blake2p.blake2pStatic u32 N) (pfnClr v2s 8 true (N / 8)) (pfnCleared 32) blake2pCoverClr :=
  conforms_static_clr Proofs.Blake2.u32_ok N (by omega) (by omega)

/-- **C42.** `blake2bp` with any scheduler, in all histories of calls. -/
theorem blake2bp_schedule_conforms_clr (scheduler : Bytes → Nat → Blk (PSt 64) → List Nat)
    (hv : ∀ data n s, ScheduleOf 4 n (scheduler data n s)) (N : Nat) (h0 : 0 < N) (h8 : N % 8 = 0) (hm : N ≤ 512) :
    HashConformsClr (Model.Blake2p.blake2pSchedule u64 scheduler N) (pfnClr v2b 4 true (N / 8)) (pfnCleared 64) blake2pCoverClr :=
  conforms_schedule_clr Proofs.Blake2.u64_ok scheduler hv N h0 h8 (by omega)

/-- **C42.** `blake2sp` with any scheduler, in all histories of calls. -/
theorem blake2sp_schedule_conforms_clr (scheduler : Bytes → Nat → Blk (PSt 32) → List Nat)
    (hv : ∀ data n s, ScheduleOf 8 n (scheduler data n s)) (N : Nat) (h0 : 0 < N) (h8 : N % 8 = 0) (hm : N ≤ 256) :
    HashConformsClr (Model.Blake2p.blake2pSchedule u32 scheduler N) (pfnClr v2s 8 true (N / 8)) (pfnCleared 32) blake2pCoverClr :=
  conforms_schedule_clr Proofs.Blake2.u32_ok scheduler hv N h0 h8 (by omega)

/-- Customizations of fewer than `2^61` bytes. -/
def asconCoverClr : Cover CustomizationParam Bytes := { asconCover with clr := True }

/-- **C25, C28.** `ascon_cxof` in all histories of calls: `reset(true)` does what `reset(false)` does. -/
theorem ascon_cxof_conforms_clr : XofConformsClr Model.Ascon.asconCxof Spec.Ascon.cxof128 id asconCoverClr := by
  refine Proofs.xofConformsClr (c := Model.Ascon.asconCxof) (cov := asconCoverClr) (Proofs.Ascon.refines_cxof) ?_ ?_
  · intro Z msg n s h
    obtain ⟨s1, s2, e1, e2, r⟩ := Proofs.Ascon.clear_ok .cxof Z h.1 s h.mem
    exact ⟨s1, s2, e1, e2, Proofs.Ascon.Absorbing.rx h.1 (by rw [List.append_nil]; exact r)⟩
  · intro mem hm
    obtain ⟨s', e, r⟩ := Proofs.Ascon.rx_init .cxof [] (Model.Ascon.new mem) hm.2 rfl (by decide)
    exact ⟨_, s', rfl, e, r⟩

/-! The hypotheses can be met, by histories with `reset(true)`. -/

def blake2pClrOps : List (HashOp Blake2Param) := [.set (.key [1]), .reset true, .absorb (.ptr (ascii "abc")), .hexdigest]

example : (pfnClr v2b 4 true 64).CoveredClr (pfnCleared 64) blake2pCoverClr blake2pClrOps (pfnClr v2b 4 true 64).new :=
  ⟨trivial, fun _ => trivial, show 3 < 2 ^ 63 by decide, show 3 < 2 ^ 60 by decide, trivial⟩

/-- The value is that of five uses of BLAKE2b with the key, as other implementations give it. -/
example : (Model.Blake2p.blake2p u64 512).trial (blake2pMem 64) [.reset true, .set (.key [1]), .absorb (.ptr [0]), .hexdigest]
    = some [.done, .done, .done, .text ("4c4bddcd55d59bc66e205b29eb2c9ecc8ef23be86f713e8ed329db6887a34914" ++
        "c8bbb0254ea9b99fa72b13ce137ff81306f19091674bac7bd395dfb4aed959b6").toList] := by decide +kernel

example : Spec.Ascon.cxof128.CoveredClr id asconCoverClr [.set (.customization [0x10]), .reset true, .hexsqueeze 8] Spec.Ascon.cxof128.new :=
  ⟨show 1 < 2 ^ 61 by decide, fun _ => trivial, ⟨trivial, show 0 < 8 by decide, show 8 < 2 ^ 61 by decide, trivial⟩, trivial⟩

end Digestpp.Properties
