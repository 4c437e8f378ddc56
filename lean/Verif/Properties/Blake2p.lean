import Verif.Proofs.Blake2p
import Verif.Proofs.Conforms
import Verif.Proofs.Validate
import Verif.Properties.Blake2

/-! C14 and C42: BLAKE2bp and BLAKE2sp; the part of C28 that is false for them. -/

namespace Digestpp.Properties
open Model Spec
open Model.Blake2 (u32 u64 St)
open Model.Blake2p (PSt leaves)
open Spec.Blake2 (v2s v2b Theta)

/-- Messages of fewer than `2^60` bytes; no empty salt, no empty personalization; `reset(true)` is not called. -/
def blake2pCover : Cover Blake2Param Theta := { blake2Cover with clr := False }

/-- The same with all parameters. -/
def blake2pCoverFull : Cover Blake2Param Theta := { blake2CoverFull with clr := False }

section
variable {w : Nat} {T : Model.Blake2.Word w} {v : Spec.Blake2.Variant w}

theorem blake2p_ctor_ok (ok : Proofs.Blake2.WordOk T v) (hs : Nat) (h0 : 0 < hs) (h8 : hs % 8 = 0) (hm : hs / 8 ≤ w)
    (mem : Blk (PSt w)) (hmem : Model.Blake2p.Mem mem) :
    ∃ s s', Model.Blake2p.new hs mem = .ok (some s) ∧ Model.Blake2p.init T s = .ok s' ∧
      Proofs.Blake2p.RP T v hs false (Theta.none w) [] s' := by
  obtain ⟨s, s', e1, e2, r⟩ := Proofs.Blake2p.fields_ok ok hs hm mem hmem
  refine ⟨s, s', ?_, e2, r⟩
  unfold Model.Blake2p.new
  rw [if_pos ((Proofs.validateMax_iff _ _).mpr (by omega)), e1]
  rfl

private theorem conforms (ok : Proofs.Blake2.WordOk T v) (hs : Nat) (h0 : 0 < hs) (h8 : hs % 8 = 0) (hm : hs / 8 ≤ w)
    {f : HashFn Blake2Param Theta} (hd : f.dflt = Theta.none w) {c : Cover Blake2Param Theta}
    (h : Proofs.HashRefines (Model.Blake2p.provider T) f c (Proofs.Blake2p.RP T v hs false)) :
    HashConforms (Model.Blake2p.blake2p T hs) f c := by
  refine Proofs.hashConforms (c := Model.Blake2p.blake2p T hs) h ?_
  intro mem hmem
  rw [hd]
  exact blake2p_ctor_ok ok hs h0 h8 hm mem hmem

private theorem conforms_static (ok : Proofs.Blake2.WordOk T v) (hs : Nat) (hm : hs / 8 ≤ w)
    {f : HashFn Blake2Param Theta} (hd : f.dflt = Theta.none w) {c : Cover Blake2Param Theta}
    (h : Proofs.HashRefines (Model.Blake2p.provider T) f c (Proofs.Blake2p.RP T v hs false)) :
    HashConforms (Model.Blake2p.blake2pStatic T hs) f c := by
  refine Proofs.hashConforms (c := Model.Blake2p.blake2pStatic T hs) h ?_
  intro mem hmem
  obtain ⟨s, s', e1, e2, r⟩ := Proofs.Blake2p.fields_ok ok hs hm mem hmem
  refine ⟨s, s', ?_, e2, by rw [hd]; exact r⟩
  show (Model.Blake2p.fields hs mem >>= fun s => pure (some s)) = _
  rw [e1]
  rfl

private theorem mono_none {f : HashFn Blake2Param Theta} {pr : HashProvider (Blk (PSt w)) Blake2Param}
    {R : Theta → Bytes → Blk (PSt w) → Prop} (h : Proofs.HashRefines pr f { Proofs.Blake2.cover false with clr := False } R) :
    Proofs.HashRefines pr f blake2pCover R :=
  h.mono rfl rfl rfl (fun _ _ _ _ h => ⟨h, rfl⟩) (fun h => h) (fun _ h => .inr h)

private theorem mono_full {f : HashFn Blake2Param Theta} {pr : HashProvider (Blk (PSt w)) Blake2Param}
    {R : Theta → Bytes → Blk (PSt w) → Prop} (h : Proofs.HashRefines pr f { Proofs.Blake2.cover true with clr := False } R) :
    Proofs.HashRefines pr f blake2pCoverFull R :=
  h.mono rfl rfl rfl (fun _ _ _ _ h => ⟨h, rfl⟩) (fun h => h) (fun _ _ => .inl rfl)

end

/-- **C14.** `blake2bp(N)` is BLAKE2bp with digests of `N/8` bytes, with any key, salt and personalization that the setters accept, as long
as `reset(true)` is not called (see `blake2bp_reset_true_wrong`). -/
theorem blake2bp_conforms_partial (N : Nat) (h0 : 0 < N) (h8 : N % 8 = 0) (hm : N ≤ 512) :
    HashConforms (Model.Blake2p.blake2p u64 N) (Spec.Blake2.pfn v2b 4 false (N / 8)) blake2pCover :=
  conforms Proofs.Blake2.u64_ok N h0 h8 (by omega) rfl
    (mono_none (Proofs.Blake2p.refinesP Proofs.Blake2.u64_ok false N (by omega) (by omega)))

/-- **C14.** The same with the code's reading of empty salts and personalizations: they leave the old value in place. -/
theorem blake2bp_conforms_full_partial (N : Nat) (h0 : 0 < N) (h8 : N % 8 = 0) (hm : N ≤ 512) :
    HashConforms (Model.Blake2p.blake2p u64 N) (Spec.Blake2.pfn v2b 4 true (N / 8)) blake2pCoverFull :=
  conforms Proofs.Blake2.u64_ok N h0 h8 (by omega) rfl
    (mono_full (Proofs.Blake2p.refinesP Proofs.Blake2.u64_ok true N (by omega) (by omega)))

/-- **C14.** `static_size::blake2bp<N>`. -/
theorem blake2bp_static_conforms_partial (N : Nat) (h0 : 0 < N) (h8 : N % 8 = 0) (hm : N ≤ 512) :
    HashConforms (Model.Blake2p.blake2pStatic u64 N) (Spec.Blake2.pfn v2b 4 false (N / 8)) blake2pCover :=
  conforms_static Proofs.Blake2.u64_ok N (by omega) rfl
    (mono_none (Proofs.Blake2p.refinesP Proofs.Blake2.u64_ok false N (by omega) (by omega)))

/-- The same with the code's reading of empty salts and personalizations. -/
theorem blake2bp_static_conforms_full_partial (N : Nat) (h0 : 0 < N) (h8 : N % 8 = 0) (hm : N ≤ 512) :
    HashConforms (Model.Blake2p.blake2pStatic u64 N) (Spec.Blake2.pfn v2b 4 true (N / 8)) blake2pCoverFull :=
  conforms_static Proofs.Blake2.u64_ok N (by omega) rfl
    (mono_full (Proofs.Blake2p.refinesP Proofs.Blake2.u64_ok true N (by omega) (by omega)))

/-- **C14.** `blake2sp(N)` is BLAKE2sp with digests of `N/8` bytes, as long as `reset(true)` is not called. -/
theorem blake2sp_conforms_partial (N : Nat) (h0 : 0 < N) (h8 : N % 8 = 0) (hm : N ≤ 256) :
    HashConforms (Model.Blake2p.blake2p u32 N) (Spec.Blake2.pfn v2s 8 false (N / 8)) blake2pCover :=
  conforms Proofs.Blake2.u32_ok N h0 h8 (by omega) rfl
    (mono_none (Proofs.Blake2p.refinesP Proofs.Blake2.u32_ok false N (by omega) (by omega)))

/-- **C14.** The same with the code's reading of empty salts and personalizations. -/
theorem blake2sp_conforms_full_partial (N : Nat) (h0 : 0 < N) (h8 : N % 8 = 0) (hm : N ≤ 256) :
    HashConforms (Model.Blake2p.blake2p u32 N) (Spec.Blake2.pfn v2s 8 true (N / 8)) blake2pCoverFull :=
  conforms Proofs.Blake2.u32_ok N h0 h8 (by omega) rfl
    (mono_full (Proofs.Blake2p.refinesP Proofs.Blake2.u32_ok true N (by omega) (by omega)))

/-- **C14.** `static_size::blake2sp<N>`. -/
theorem blake2sp_static_conforms_partial (N : Nat) (h0 : 0 < N) (h8 : N % 8 = 0) (hm : N ≤ 256) :
    HashConforms (Model.Blake2p.blake2pStatic u32 N) (Spec.Blake2.pfn v2s 8 false (N / 8)) blake2pCover :=
  conforms_static Proofs.Blake2.u32_ok N (by omega) rfl
    (mono_none (Proofs.Blake2p.refinesP Proofs.Blake2.u32_ok false N (by omega) (by omega)))

/-- The same with the code's reading of empty salts and personalizations. -/
theorem blake2sp_static_conforms_full_partial (N : Nat) (h0 : 0 < N) (h8 : N % 8 = 0) (hm : N ≤ 256) :
    HashConforms (Model.Blake2p.blake2pStatic u32 N) (Spec.Blake2.pfn v2s 8 true (N / 8)) blake2pCoverFull :=
  conforms_static Proofs.Blake2.u32_ok N (by omega) rfl
    (mono_full (Proofs.Blake2p.refinesP Proofs.Blake2.u32_ok true N (by omega) (by omega)))

/-- In the order `sched` of updates, every one of the `P` leaves has exactly `n` of them. (That the updates of one leaf come in
their own order is part of what `transformSchedule` does.) -/
def ScheduleOf (P n : Nat) (sched : List Nat) : Prop := (∀ i ∈ sched, i < P) ∧ ∀ i < P, sched.count i = n

/-- **C42.** Whatever the order in which the iterations of the parallel loop interleave, the leaves are the same afterwards. -/
theorem blake2p_schedule_independent {w : Nat} (T : Model.Blake2.Word w) (data : Bytes) (n : Nat) (s s' : Blk (PSt w)) (sched : List Nat)
    (hv : ScheduleOf s.h.leaf.length n sched) (h : Model.Blake2p.transform T data n s = .ok s') :
    Model.Blake2p.transformSchedule T sched data s = .ok s' :=
  Proofs.Blake2p.transformSchedule_ok data n s s' sched hv h

/-- **C42.** `blake2bp` with any scheduler computes the same function. -/
theorem blake2bp_schedule_conforms_partial (scheduler : Bytes → Nat → Blk (PSt 64) → List Nat)
    (hv : ∀ data n s, ScheduleOf 4 n (scheduler data n s)) (N : Nat) (h0 : 0 < N) (h8 : N % 8 = 0) (hm : N ≤ 512) :
    HashConforms (Model.Blake2p.blake2pSchedule u64 scheduler N) (Spec.Blake2.pfn v2b 4 false (N / 8)) blake2pCover := by
  refine Proofs.hashConforms (c := Model.Blake2p.blake2pSchedule u64 scheduler N)
    (mono_none (Proofs.Blake2p.refinesP_schedule Proofs.Blake2.u64_ok false N (by omega) (by omega) scheduler hv)) ?_
  intro mem hmem
  exact blake2p_ctor_ok Proofs.Blake2.u64_ok N h0 h8 (by omega) mem hmem

/-- **C42.** `blake2sp` with any scheduler computes the same function. -/
theorem blake2sp_schedule_conforms_partial (scheduler : Bytes → Nat → Blk (PSt 32) → List Nat)
    (hv : ∀ data n s, ScheduleOf 8 n (scheduler data n s)) (N : Nat) (h0 : 0 < N) (h8 : N % 8 = 0) (hm : N ≤ 256) :
    HashConforms (Model.Blake2p.blake2pSchedule u32 scheduler N) (Spec.Blake2.pfn v2s 8 false (N / 8)) blake2pCover := by
  refine Proofs.hashConforms (c := Model.Blake2p.blake2pSchedule u32 scheduler N)
    (mono_none (Proofs.Blake2p.refinesP_schedule Proofs.Blake2.u32_ok false N (by omega) (by omega) scheduler hv)) ?_
  intro mem hmem
  exact blake2p_ctor_ok Proofs.Blake2.u32_ok N h0 h8 (by omega) mem hmem

/-! The hypotheses can be met; the value is the one in test/testvectors/blake2bp_512.txt. -/

def blake2pMem (w : Nat) : Blk (PSt w) := ⟨⟨blake2Mem w, List.replicate (leaves w) (blake2Mem w), 3⟩, List.replicate 512 0xaa, 17, 99⟩

example : (Model.Blake2p.blake2p u64 512).Mem (blake2pMem 64) :=
  ⟨List.length_replicate, rfl, rfl, fun l h => by rw [List.eq_of_mem_replicate h]; rfl⟩

/-- Schedules exist: leaf after leaf, or block after block. -/
example : ScheduleOf 4 2 [0, 0, 1, 1, 2, 2, 3, 3] ∧ ScheduleOf 4 2 [3, 2, 1, 0, 0, 1, 2, 3] := by
  unfold ScheduleOf; decide

example : (Model.Blake2p.blake2p u64 512).trial (blake2pMem 64) [.absorb (.ptr [0]), .hexdigest]
    = some [.done, .text ("a139280e72757b723e6473d5be59f36e9d50fc5cd7d4585cbc09804895a36c521242fb2789f85cb9e35491f31d4a6952" ++
        "f9d8e097aef94fa1ca0b12525721f03d").toList] := by decide +kernel

def blake2pOps : List (HashOp Blake2Param) := [.absorb (.ptr (ascii "abc")), .hexdigest]

example : (Spec.Blake2.pfn v2b 4 false 64).Covered blake2pCover blake2pOps (Spec.Blake2.pfn v2b 4 false 64).new :=
  ⟨show 3 < 2 ^ 63 by decide, show 3 < 2 ^ 60 by decide, trivial⟩

/-! The false part of C14 and C28. -/

/-- **C28 is false** for BLAKE2bp: after `reset(true)` the tree parameters are gone, and the digests are others than those of a new
object. (Both histories are those of newly constructed objects without undefined behaviour.) -/
theorem blake2bp_reset_true_wrong :
    (Model.Blake2p.blake2p u64 512).trial (blake2pMem 64) [.reset true, .hexdigest]
      ≠ (Model.Blake2p.blake2p u64 512).trial (blake2pMem 64) [.reset false, .hexdigest] ∧
    (Model.Blake2p.blake2p u64 512).trial (blake2pMem 64) [.reset true, .hexdigest] ≠ none := by decide +kernel

/-- **C28 is false** for BLAKE2sp. -/
theorem blake2sp_reset_true_wrong :
    (Model.Blake2p.blake2p u32 256).trial (blake2pMem 32) [.reset true, .hexdigest]
      ≠ (Model.Blake2p.blake2p u32 256).trial (blake2pMem 32) [.reset false, .hexdigest] ∧
    (Model.Blake2p.blake2p u32 256).trial (blake2pMem 32) [.reset true, .hexdigest] ≠ none := by decide +kernel

end Digestpp.Properties
