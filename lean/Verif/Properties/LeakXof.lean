import Verif.Properties.LeakRun
import Verif.Proofs.Leak.XofSkein
import Verif.Proofs.Leak.XofShake
import Verif.Proofs.Leak.XofAscon

/-! C67 for the classes whose `init` absorbs a key or another string, and for those with `squeeze`: the trace of `init`, of the calls of `absorb`, and of `digest` or of any
number of calls of `squeeze` depends on the lengths of the strings and of the data and on the sizes asked for. It depends neither on the key nor on the data nor on what the memory contained. -/

namespace Digestpp.Properties
open Model Proofs.Leak

/-- **C67**, BLAKE2 and BLAKE2X with `w`-bit words. -/
theorem blake2_run {w : Nat} {T : Blake2.Word w} {ld : Bytes → Nat → L (BitVec w)} (g : Proofs.Safety.Blake2.Good T) (tr : Blake2Trace T ld) (kind : Blake2.Kind) (hs kl : Nat) (h0 : 0 < hs / 8)
    (hh : kind = .hash → hs / 8 ≤ w) (hk : kl ≤ w) (fanout nodedepth : BitVec 8) (ls : List Nat) (hl : ∀ n ∈ ls, n < 2 ^ 63) :
    SameTrace (fun c : Run ((Nat → Leak.Blake2.Stacks w) × Bytes) (Nat → Leak.Blake2.Stacks w) (Blk (Blake2.St w)) => (Each Blake2Sized c.initLocals.1 ∧ c.initLocals.2.length = 2 * w) ∧
        Each (Each Blake2Sized) c.locals ∧ c.chunks.map List.length = ls ∧ Blake2New hs kl fanout nodedepth c.obj)
      (fun c => Leak.hashInit (Leak.Blake2.init T ld kind) (Leak.Blake2.update T ld) (Leak.Blake2.final T ld kind) c.initLocals c.locals c.chunks c.obj)
      (fun c => hashRun (Blake2.provider T kind) c.chunks c.obj) :=
  hashInit_same_trace (pr := Blake2.provider T kind) (I0 := Proofs.Safety.Blake2.I0 hs) (I := Proofs.Safety.Blake2.I hs) (Proofs.Safety.Blake2.hash g kind hs h0 hh).init
    (Proofs.Safety.Blake2.hash g kind hs h0 hh).update (fun s h => let ⟨b, e, _⟩ := (Proofs.Safety.Blake2.hash g kind hs h0 hh).final s h; ⟨b, e⟩)
    (R0 := fun s s' => Blake2New hs kl fanout nodedepth s ∧ Blake2New hs kl fanout nodedepth s') (R := Blake2Same hs)
    (sz0 := fun k : (Nat → Leak.Blake2.Stacks w) × Bytes => Each Blake2Sized k.1 ∧ k.2.length = 2 * w) (sz := Each Blake2Sized)
    (li := Leak.Blake2.init T ld kind) (lu := Leak.Blake2.update T ld) (lf := Leak.Blake2.final T ld kind)
    (fun _ _ _ _ k k' h => blake2_init_twin g tr kind hk k k' h.1 h.2) (fun _ _ _ _ _ _ k k' hd hl h => blake2_update_twin g tr k k' hd hl h)
    (fun _ _ _ _ k k' h => blake2_final_twin g tr kind k k' h)
    (fun s h => ⟨h.1, by rw [h.2.2.1]; exact hk, h.2.1⟩) (fun _ _ h h' => ⟨h, h'⟩) ls hl

/-- **C67**, BLAKE2s and BLAKE2Xs: with any key of `kl` bytes, salt and personalization. -/
theorem blake2s_run_trace (kind : Blake2.Kind) (hs kl : Nat) (h0 : 0 < hs / 8) (hh : kind = .hash → hs / 8 ≤ 32) (hk : kl ≤ 32) (fanout nodedepth : BitVec 8) (ls : List Nat) (hl : ∀ n ∈ ls, n < 2 ^ 63) :
    SameTrace (fun c : Run ((Nat → Leak.Blake2.Stacks 32) × Bytes) (Nat → Leak.Blake2.Stacks 32) (Blk (Blake2.St 32)) => (Each Blake2Sized c.initLocals.1 ∧ c.initLocals.2.length = 64) ∧
        Each (Each Blake2Sized) c.locals ∧ c.chunks.map List.length = ls ∧ Blake2New hs kl fanout nodedepth c.obj)
      (fun c => Leak.hashInit (Leak.Blake2.init Blake2.u32 Leak.rd32 kind) (Leak.Blake2.update Blake2.u32 Leak.rd32) (Leak.Blake2.final Blake2.u32 Leak.rd32 kind) c.initLocals c.locals c.chunks c.obj)
      (fun c => hashRun (Blake2.provider Blake2.u32 kind) c.chunks c.obj) :=
  blake2_run Proofs.Safety.Blake2.good32 blake2s_trace kind hs kl h0 hh hk fanout nodedepth ls hl

/-- **C67**, BLAKE2b and BLAKE2Xb. -/
theorem blake2b_run_trace (kind : Blake2.Kind) (hs kl : Nat) (h0 : 0 < hs / 8) (hh : kind = .hash → hs / 8 ≤ 64) (hk : kl ≤ 64) (fanout nodedepth : BitVec 8) (ls : List Nat) (hl : ∀ n ∈ ls, n < 2 ^ 63) :
    SameTrace (fun c : Run ((Nat → Leak.Blake2.Stacks 64) × Bytes) (Nat → Leak.Blake2.Stacks 64) (Blk (Blake2.St 64)) => (Each Blake2Sized c.initLocals.1 ∧ c.initLocals.2.length = 128) ∧
        Each (Each Blake2Sized) c.locals ∧ c.chunks.map List.length = ls ∧ Blake2New hs kl fanout nodedepth c.obj)
      (fun c => Leak.hashInit (Leak.Blake2.init Blake2.u64 Leak.rd64 kind) (Leak.Blake2.update Blake2.u64 Leak.rd64) (Leak.Blake2.final Blake2.u64 Leak.rd64 kind) c.initLocals c.locals c.chunks c.obj)
      (fun c => hashRun (Blake2.provider Blake2.u64 kind) c.chunks c.obj) :=
  blake2_run Proofs.Safety.Blake2.good64 blake2b_trace kind hs kl h0 hh hk fanout nodedepth ls hl

/-- **C67**, BLAKE2X with unknown output length, `w`-bit words. -/
theorem blake2x_run {w : Nat} {T : Blake2.Word w} {ld : Bytes → Nat → L (BitVec w)} (g : Proofs.Safety.Blake2.Good T) (tr : Blake2Trace T ld) (hs kl : Nat) (hk : kl ≤ w) (fanout nodedepth : BitVec 8)
    (ls : List Nat) (hl : ∀ n ∈ ls, n < 2 ^ 63) (ns : List Nat) (hn : ∀ n ∈ ns, n < 2 ^ 61) :
    SameTrace (fun c : Run ((Nat → Leak.Blake2.Stacks w) × Bytes) (Nat → Leak.Blake2.Stacks w) (Blk (Blake2.St w)) => (Each Blake2Sized c.initLocals.1 ∧ c.initLocals.2.length = 2 * w) ∧
        Each (Each Blake2Sized) c.locals ∧ c.chunks.map List.length = ls ∧ Blake2New hs kl fanout nodedepth c.obj)
      (fun c => Leak.xofInit (Leak.Blake2.init T ld .xof) (Leak.Blake2.update T ld) (Leak.Blake2.squeeze T ld .xof) c.initLocals c.locals c.chunks ns c.obj)
      (fun c => xofRun (Blake2.xofProvider T) c.chunks ns c.obj) :=
  xofInit_same_trace (Proofs.Safety.Blake2.xof g hs)
    (R0 := fun s s' => Blake2New hs kl fanout nodedepth s ∧ Blake2New hs kl fanout nodedepth s') (R := Blake2Same hs)
    (sz0 := fun k : (Nat → Leak.Blake2.Stacks w) × Bytes => Each Blake2Sized k.1 ∧ k.2.length = 2 * w) (sz := Each Blake2Sized)
    (li := Leak.Blake2.init T ld .xof) (lu := Leak.Blake2.update T ld) (lq := Leak.Blake2.squeeze T ld .xof)
    (fun _ _ _ _ k k' h => blake2_init_twin g tr .xof hk k k' h.1 h.2) (fun _ _ _ _ _ _ k k' hd hl h => blake2_update_twin g tr k k' hd hl h)
    (fun _ _ _ _ _ k k' h => blake2_squeeze_twin g tr .xof k k' h)
    (fun s h => ⟨h.1, by rw [h.2.2.1]; exact hk, h.2.1⟩) (fun _ _ h h' => ⟨h, h'⟩) ls hl ns hn

/-- **C67**, BLAKE2Xs of unknown length. -/
theorem blake2xs_xof_run_trace (hs kl : Nat) (hk : kl ≤ 32) (fanout nodedepth : BitVec 8) (ls : List Nat) (hl : ∀ n ∈ ls, n < 2 ^ 63) (ns : List Nat) (hn : ∀ n ∈ ns, n < 2 ^ 61) :
    SameTrace (fun c : Run ((Nat → Leak.Blake2.Stacks 32) × Bytes) (Nat → Leak.Blake2.Stacks 32) (Blk (Blake2.St 32)) => (Each Blake2Sized c.initLocals.1 ∧ c.initLocals.2.length = 64) ∧
        Each (Each Blake2Sized) c.locals ∧ c.chunks.map List.length = ls ∧ Blake2New hs kl fanout nodedepth c.obj)
      (fun c => Leak.xofInit (Leak.Blake2.init Blake2.u32 Leak.rd32 .xof) (Leak.Blake2.update Blake2.u32 Leak.rd32) (Leak.Blake2.squeeze Blake2.u32 Leak.rd32 .xof) c.initLocals c.locals c.chunks ns c.obj)
      (fun c => xofRun (Blake2.xofProvider Blake2.u32) c.chunks ns c.obj) :=
  blake2x_run Proofs.Safety.Blake2.good32 blake2s_trace hs kl hk fanout nodedepth ls hl ns hn

/-- **C67**, BLAKE2Xb of unknown length. -/
theorem blake2xb_xof_run_trace (hs kl : Nat) (hk : kl ≤ 64) (fanout nodedepth : BitVec 8) (ls : List Nat) (hl : ∀ n ∈ ls, n < 2 ^ 63) (ns : List Nat) (hn : ∀ n ∈ ns, n < 2 ^ 61) :
    SameTrace (fun c : Run ((Nat → Leak.Blake2.Stacks 64) × Bytes) (Nat → Leak.Blake2.Stacks 64) (Blk (Blake2.St 64)) => (Each Blake2Sized c.initLocals.1 ∧ c.initLocals.2.length = 128) ∧
        Each (Each Blake2Sized) c.locals ∧ c.chunks.map List.length = ls ∧ Blake2New hs kl fanout nodedepth c.obj)
      (fun c => Leak.xofInit (Leak.Blake2.init Blake2.u64 Leak.rd64 .xof) (Leak.Blake2.update Blake2.u64 Leak.rd64) (Leak.Blake2.squeeze Blake2.u64 Leak.rd64 .xof) c.initLocals c.locals c.chunks ns c.obj)
      (fun c => xofRun (Blake2.xofProvider Blake2.u64) c.chunks ns c.obj) :=
  blake2x_run Proofs.Safety.Blake2.good64 blake2b_trace hs kl hk fanout nodedepth ls hl ns hn

/-- Two keys of 32 bytes and two messages: BLAKE2b has the same trace. -/
example (k0 : (Nat → Leak.Blake2.Stacks 64) × Bytes) (hk0 : Each Blake2Sized k0.1 ∧ k0.2.length = 128) (k : Nat → Nat → Leak.Blake2.Stacks 64) (hk : Each (Each Blake2Sized) k) (s : Blk (Blake2.St 64))
    (hs : Blake2New 512 0 1 1 s) (x y : BitVec 8) : ∃ tr a b,
      Leak.hashInit (Leak.Blake2.init Blake2.u64 Leak.rd64 .hash) (Leak.Blake2.update Blake2.u64 Leak.rd64) (Leak.Blake2.final Blake2.u64 Leak.rd64 .hash) k0 k [[x], List.replicate 300 x]
        { s with h := { s.h with k := List.replicate 32 x } } = .ok (a, tr) ∧
      Leak.hashInit (Leak.Blake2.init Blake2.u64 Leak.rd64 .hash) (Leak.Blake2.update Blake2.u64 Leak.rd64) (Leak.Blake2.final Blake2.u64 Leak.rd64 .hash) k0 k [[y], List.replicate 300 y]
        { s with h := { s.h with k := List.replicate 32 y } } = .ok (b, tr) := by
  obtain ⟨tr, h⟩ := blake2b_run_trace .hash 512 32 (by decide) (by decide) (by decide) 1 1 [1, 300] (by decide)
  obtain ⟨a, _, ha⟩ := h ⟨k0, k, [[x], List.replicate 300 x], { s with h := { s.h with k := List.replicate 32 x } }⟩ ⟨hk0, hk, by show [1, (List.replicate 300 x).length] = _; rw [List.length_replicate], hs.1, hs.2.1, List.length_replicate, hs.2.2.2⟩
  obtain ⟨b, _, hb⟩ := h ⟨k0, k, [[y], List.replicate 300 y], { s with h := { s.h with k := List.replicate 32 y } }⟩ ⟨hk0, hk, by show [1, (List.replicate 300 y).length] = _; rw [List.length_replicate], hs.1, hs.2.1, List.length_replicate, hs.2.2.2⟩
  exact ⟨tr, a, b, ha, hb⟩

/-- **C67**, Skein: with any key, nonce and personalization of the given lengths. -/
theorem skein_run {F : Skein.Fns} {T : Spec.Skein.Threefish} (hF : F = Skein.f4 ∨ F = Skein.f8 ∨ F = Skein.f16) (ok : Proofs.Skein.FOk F T) (z : SkeinSizes) (hz : z.k < 2 ^ 61 ∧ z.p < 2 ^ 61 ∧ z.n < 2 ^ 61)
    (ls : List Nat) (hl : ∀ n ∈ ls, n < 2 ^ 63) :
    SameTrace (fun c : Run (Nat → (Nat → Leak.Skein.Stacks) × Leak.Skein.Stacks) (Nat → Leak.Skein.Stacks) (Blk Skein.St) => (∀ i, Each (SkeinSized F) (c.initLocals i).1 ∧ SkeinSized F (c.initLocals i).2) ∧
        Each (Each (SkeinSized F)) c.locals ∧ c.chunks.map List.length = ls ∧ c.obj.m.length = 8 * F.nw ∧ SkeinNew z c.obj.h)
      (fun c => Leak.hashInit (Leak.Skein.init F false) (Leak.Skein.update F) (Leak.Skein.final F) c.initLocals c.locals c.chunks c.obj)
      (fun c => hashRun (Skein.provider F) c.chunks c.obj) := by
  rw [show F.nw = T.nw from ok.nw]
  exact hashInit_same_trace (pr := Skein.provider F) (I0 := Proofs.Safety.Skein.I0 T.nw z.hs) (I := Proofs.Safety.Skein.I T.nw z.hs) (Proofs.Safety.Skein.xof ok z.hs |>.init |> fun _ s h => Proofs.Safety.Skein.init_safe ok false s h)
    (fun s d h hd => let ⟨s', e, i, _⟩ := Proofs.Safety.Skein.update_safe ok s d h hd; ⟨s', e, i⟩)
    (fun s h => let ⟨b, s', e, _⟩ := Proofs.Safety.Skein.squeeze_safe ok (s.h.hs / 8) s h; ⟨b, by
      show Skein.final F s = _
      unfold Skein.final
      rw [e]; rfl⟩)
    (R0 := fun s s' => (s.m.length = 8 * T.nw ∧ SkeinNew z s.h) ∧ s'.m.length = 8 * T.nw ∧ SkeinNew z s'.h) (R := SkeinSame T.nw z)
    (sz0 := fun k : Nat → (Nat → Leak.Skein.Stacks) × Leak.Skein.Stacks => ∀ i, Each (SkeinSized F) (k i).1 ∧ SkeinSized F (k i).2) (sz := Each (SkeinSized F))
    (li := Leak.Skein.init F false) (lu := Leak.Skein.update F) (lf := Leak.Skein.final F)
    (fun _ _ _ _ k k' h => (skein_init_twin hF ok false (by omega) k k' ⟨h.1.1, h.2.1⟩ h.1.2 h.2.2).mono fun _ _ _ _ r => ⟨false, r⟩)
    (fun _ _ _ _ _ _ k k' hd hl ⟨q, h⟩ => (skein_update_twin hF ok k k' hd hl h).mono fun _ _ _ _ r => ⟨q, r⟩)
    (fun _ _ _ _ k k' h => skein_final_twin hF ok k k' h)
    (fun s ⟨hm, e, p, n, k⟩ => ⟨hm, by omega, by omega, by omega, e⟩) (fun _ _ h h' => ⟨h, h'⟩) ls hl

/-- **C67**, Skein with output of any length. -/
theorem skeinx_run {F : Skein.Fns} {T : Spec.Skein.Threefish} (hF : F = Skein.f4 ∨ F = Skein.f8 ∨ F = Skein.f16) (ok : Proofs.Skein.FOk F T) (z : SkeinSizes) (hz : z.k < 2 ^ 61 ∧ z.p < 2 ^ 61 ∧ z.n < 2 ^ 61)
    (ls : List Nat) (hl : ∀ n ∈ ls, n < 2 ^ 63) (ns : List Nat) (hn : ∀ n ∈ ns, n < 2 ^ 61) :
    SameTrace (fun c : Run (Nat → (Nat → Leak.Skein.Stacks) × Leak.Skein.Stacks) (Nat → Leak.Skein.Stacks) (Blk Skein.St) => (∀ i, Each (SkeinSized F) (c.initLocals i).1 ∧ SkeinSized F (c.initLocals i).2) ∧
        Each (Each (SkeinSized F)) c.locals ∧ c.chunks.map List.length = ls ∧ c.obj.m.length = 8 * F.nw ∧ SkeinNew z c.obj.h)
      (fun c => Leak.xofInit (Leak.Skein.init F true) (Leak.Skein.update F) (Leak.Skein.squeeze F) c.initLocals c.locals c.chunks ns c.obj)
      (fun c => xofRun (Skein.xofProvider F) c.chunks ns c.obj) := by
  rw [show F.nw = T.nw from ok.nw]
  exact xofInit_same_trace (Proofs.Safety.Skein.xof ok z.hs)
    (R0 := fun s s' => (s.m.length = 8 * T.nw ∧ SkeinNew z s.h) ∧ s'.m.length = 8 * T.nw ∧ SkeinNew z s'.h) (R := SkeinSame T.nw z)
    (sz0 := fun k : Nat → (Nat → Leak.Skein.Stacks) × Leak.Skein.Stacks => ∀ i, Each (SkeinSized F) (k i).1 ∧ SkeinSized F (k i).2) (sz := Each (SkeinSized F))
    (li := Leak.Skein.init F true) (lu := Leak.Skein.update F) (lq := Leak.Skein.squeeze F)
    (fun _ _ _ _ k k' h => (skein_init_twin hF ok true (by omega) k k' ⟨h.1.1, h.2.1⟩ h.1.2 h.2.2).mono fun _ _ _ _ r => ⟨false, r⟩)
    (fun _ _ _ _ _ _ k k' hd hl ⟨q, h⟩ => (skein_update_twin hF ok k k' hd hl h).mono fun _ _ _ _ r => ⟨q, r⟩)
    (fun _ _ _ _ _ k k' h => skein_squeeze_twin hF ok k k' h)
    (fun s ⟨hm, e, p, n, k⟩ => ⟨hm, by omega, by omega, by omega, e⟩) (fun _ _ h h' => ⟨h, h'⟩) ls hl ns hn

/-- **C67**, Skein-256, Skein-512 and Skein-1024. -/
theorem skein_run_trace (F : Skein.Fns) (hF : F = Skein.f4 ∨ F = Skein.f8 ∨ F = Skein.f16) (z : SkeinSizes) (hz : z.k < 2 ^ 61 ∧ z.p < 2 ^ 61 ∧ z.n < 2 ^ 61) (ls : List Nat) (hl : ∀ n ∈ ls, n < 2 ^ 63) :
    SameTrace (fun c : Run (Nat → (Nat → Leak.Skein.Stacks) × Leak.Skein.Stacks) (Nat → Leak.Skein.Stacks) (Blk Skein.St) => (∀ i, Each (SkeinSized F) (c.initLocals i).1 ∧ SkeinSized F (c.initLocals i).2) ∧
        Each (Each (SkeinSized F)) c.locals ∧ c.chunks.map List.length = ls ∧ c.obj.m.length = 8 * F.nw ∧ SkeinNew z c.obj.h)
      (fun c => Leak.hashInit (Leak.Skein.init F false) (Leak.Skein.update F) (Leak.Skein.final F) c.initLocals c.locals c.chunks c.obj)
      (fun c => hashRun (Skein.provider F) c.chunks c.obj) := by
  rcases hF with rfl | rfl | rfl
  · exact skein_run (.inl rfl) Proofs.Skein.f4_ok z hz ls hl
  · exact skein_run (.inr (.inl rfl)) Proofs.Skein.f8_ok z hz ls hl
  · exact skein_run (.inr (.inr rfl)) Proofs.Skein.f16_ok z hz ls hl

/-- **C67**, `skein256_xof`, `skein512_xof` and `skein1024_xof`. -/
theorem skein_xof_run_trace (F : Skein.Fns) (hF : F = Skein.f4 ∨ F = Skein.f8 ∨ F = Skein.f16) (z : SkeinSizes) (hz : z.k < 2 ^ 61 ∧ z.p < 2 ^ 61 ∧ z.n < 2 ^ 61) (ls : List Nat) (hl : ∀ n ∈ ls, n < 2 ^ 63)
    (ns : List Nat) (hn : ∀ n ∈ ns, n < 2 ^ 61) :
    SameTrace (fun c : Run (Nat → (Nat → Leak.Skein.Stacks) × Leak.Skein.Stacks) (Nat → Leak.Skein.Stacks) (Blk Skein.St) => (∀ i, Each (SkeinSized F) (c.initLocals i).1 ∧ SkeinSized F (c.initLocals i).2) ∧
        Each (Each (SkeinSized F)) c.locals ∧ c.chunks.map List.length = ls ∧ c.obj.m.length = 8 * F.nw ∧ SkeinNew z c.obj.h)
      (fun c => Leak.xofInit (Leak.Skein.init F true) (Leak.Skein.update F) (Leak.Skein.squeeze F) c.initLocals c.locals c.chunks ns c.obj)
      (fun c => xofRun (Skein.xofProvider F) c.chunks ns c.obj) := by
  rcases hF with rfl | rfl | rfl
  · exact skeinx_run (.inl rfl) Proofs.Skein.f4_ok z hz ls hl ns hn
  · exact skeinx_run (.inr (.inl rfl)) Proofs.Skein.f8_ok z hz ls hl ns hn
  · exact skeinx_run (.inr (.inr rfl)) Proofs.Skein.f16_ok z hz ls hl ns hn

/-- Two keys of 50 bytes: Skein-512 has the same trace. -/
example (k0 : Nat → (Nat → Leak.Skein.Stacks) × Leak.Skein.Stacks) (hk0 : ∀ i, Each (SkeinSized Skein.f8) (k0 i).1 ∧ SkeinSized Skein.f8 (k0 i).2) (k : Nat → Nat → Leak.Skein.Stacks)
    (hk : Each (Each (SkeinSized Skein.f8)) k) (s : Blk Skein.St) (hm : s.m.length = 64) (hs : SkeinNew ⟨512, 3, 0, 0⟩ s.h) (x y : BitVec 8) : ∃ tr a b,
      Leak.hashInit (Leak.Skein.init Skein.f8 false) (Leak.Skein.update Skein.f8) (Leak.Skein.final Skein.f8) k0 k [List.replicate 100 x] { s with h := { s.h with k := List.replicate 50 x } } = .ok (a, tr) ∧
      Leak.hashInit (Leak.Skein.init Skein.f8 false) (Leak.Skein.update Skein.f8) (Leak.Skein.final Skein.f8) k0 k [List.replicate 100 y] { s with h := { s.h with k := List.replicate 50 y } } = .ok (b, tr) := by
  obtain ⟨tr, h⟩ := skein_run_trace Skein.f8 (.inr (.inl rfl)) ⟨512, 3, 0, 50⟩ (by decide) [100] (by decide)
  obtain ⟨a, _, ha⟩ := h ⟨k0, k, [List.replicate 100 x], { s with h := { s.h with k := List.replicate 50 x } }⟩ ⟨hk0, hk, by simp, hm, hs.1, hs.2.1, hs.2.2.1, List.length_replicate⟩
  obtain ⟨b, _, hb⟩ := h ⟨k0, k, [List.replicate 100 y], { s with h := { s.h with k := List.replicate 50 y } }⟩ ⟨hk0, hk, by simp, hm, hs.1, hs.2.1, hs.2.2.1, List.length_replicate⟩
  exact ⟨tr, a, b, ha, hb⟩

/-- **C67**, SHAKE and cSHAKE: `B` is 128 or 256; with any function name and customization of the given lengths, which for SHAKE are 0. -/
theorem cshake_run_trace (B nl sl : Nat) (hnl : nl < 2 ^ 61) (hsl : sl < 2 ^ 61) (ls : List Nat) (hl : ∀ n ∈ ls, n < 2 ^ 63) (ns : List Nat) (hn : ∀ n ∈ ns, n < 2 ^ 61) :
    SameTrace (fun c : Run (Nat → Nat → Leak.Shake.Stacks) (Nat → Leak.Shake.Stacks) (Blk Shake.St) => Each (Each KeccakSized) c.initLocals ∧ Each (Each KeccakSized) c.locals ∧
        c.chunks.map List.length = ls ∧ c.obj.m.length = 168 ∧ c.obj.h.N.length = nl ∧ c.obj.h.S.length = sl)
      (fun c => Leak.xofInit (Leak.Shake.init 24 (Shake.rateOf B)) (Leak.Shake.update 24 (Shake.rateOf B)) (Leak.Shake.squeeze 24 (Shake.rateOf B)) c.initLocals c.locals c.chunks ns c.obj)
      (fun c => xofRun (P := CShakeParam) (Shake.cshake B).pr c.chunks ns c.obj) :=
  xofInit_same_trace (P := CShakeParam) (Proofs.Safety.Shake.cshake B)
    (R0 := fun s s' => (s.m.length = 168 ∧ s.h.N.length = nl ∧ s.h.S.length = sl) ∧ s'.m.length = 168 ∧ s'.h.N.length = nl ∧ s'.h.S.length = sl) (R := ShakeSame nl sl)
    (sz0 := Each (Each KeccakSized)) (sz := Each KeccakSized)
    (li := Leak.Shake.init 24 (Shake.rateOf B)) (lu := Leak.Shake.update 24 (Shake.rateOf B)) (lq := Leak.Shake.squeeze 24 (Shake.rateOf B))
    (fun _ _ _ _ k k' h => (shake_init_twin (by decide) (Proofs.Safety.Shake.rateOf_ok B) (by omega) (by omega) k k' ⟨h.1.1, h.2.1⟩ h.1.2 h.2.2).mono fun _ _ _ _ r => ⟨false, r⟩)
    (fun _ _ _ _ _ _ k k' hd hl ⟨q, h⟩ => (shake_update_twin (by decide) (Proofs.Safety.Shake.rateOf_ok B) k k' hd hl h).mono fun _ _ _ _ r => ⟨q, r⟩)
    (fun _ _ _ _ _ k k' h => shake_squeeze_twin (by decide) (Proofs.Safety.Shake.rateOf_ok B) k k' h)
    (fun s ⟨hm, n, s'⟩ => ⟨hm, by omega, by omega⟩) (fun _ _ h h' => ⟨h, h'⟩) ls hl ns hn

/-- **C67**, the length of the key KMAC stores is a function of the length of the key given. -/
theorem kmac_key_length (B : Nat) (k k' : Bytes) (h : k.length = k'.length) : (Kmac.bytepad B k).length = (Kmac.bytepad B k').length := by
  unfold Kmac.bytepad
  dsimp only
  generalize (if B = 128 then 168 else 136) = pad
  simp only [List.length_append, h]
  split <;> simp only [List.length_append, h]

/-- **C67**, KMAC: with any key and customization. `kl`: the length of the padded key, which is a function of the length of the key. -/
theorem kmac_run_trace (B hs kl sl : Nat) (hkl : kl < 2 ^ 62) (hsl : sl < 2 ^ 61) (ls : List Nat) (hl : ∀ n ∈ ls, n < 2 ^ 63) :
    SameTrace (fun c : Run (Nat → Nat → Leak.Shake.Stacks) ((Nat → Leak.Shake.Stacks) × (Nat → Leak.Shake.Stacks)) Kmac.St => Each (Each KeccakSized) c.initLocals ∧
        Each (fun k : (Nat → Leak.Shake.Stacks) × (Nat → Leak.Shake.Stacks) => Each KeccakSized k.1 ∧ Each KeccakSized k.2) c.locals ∧ c.chunks.map List.length = ls ∧ KmacNew hs kl sl c.obj ∧ c.obj.shake.h.N.length < 2 ^ 61)
      (fun c => Leak.hashInit (Leak.Kmac.init B) (fun k => Leak.Kmac.update B k.1) (Leak.Kmac.final B) c.initLocals c.locals c.chunks c.obj) (fun c => hashRun (Kmac.provider B) c.chunks c.obj) :=
  hashInit_same_trace (pr := Kmac.provider B) (I0 := Proofs.Safety.Kmac.I0) (I := Proofs.Safety.Kmac.I B) Proofs.Safety.Kmac.init_safe Proofs.Safety.Kmac.update_safe
    (fun s h => let ⟨b, s', e, _⟩ := Proofs.Safety.Kmac.squeeze_safe false (s.hs / 8) s h; ⟨b, by
      show Kmac.final B s = _
      unfold Kmac.final
      rw [e]; rfl⟩)
    (R0 := fun s s' => KmacNew hs kl sl s ∧ KmacNew hs kl sl s') (R := KmacSame hs kl sl)
    (sz0 := Each (Each KeccakSized)) (sz := fun k : (Nat → Leak.Shake.Stacks) × (Nat → Leak.Shake.Stacks) => Each KeccakSized k.1 ∧ Each KeccakSized k.2)
    (ok := fun s : Kmac.St => KmacNew hs kl sl s ∧ s.shake.h.N.length < 2 ^ 61) (li := Leak.Kmac.init B) (lu := fun k => Leak.Kmac.update B k.1) (lf := Leak.Kmac.final B)
    (fun _ _ _ _ k k' h => kmac_init_twin B (by omega) (by omega) k k' h.1 h.2) (fun _ _ _ _ _ _ k k' hd hl h => kmac_update_twin B k.1 k'.1 hd hl h)
    (fun _ _ _ _ k k' h => kmac_final_twin B k k' h)
    (fun s ⟨h, n⟩ => ⟨⟨h.1, n, by rw [h.2.2.2]; exact hsl⟩, by rw [h.2.2.1]; exact hkl⟩) (fun _ _ h h' => ⟨h.1, h'.1⟩) ls hl

/-- **C67**, KMACXOF. -/
theorem kmac_xof_run_trace (B hs kl sl : Nat) (hkl : kl < 2 ^ 62) (hsl : sl < 2 ^ 61) (ls : List Nat) (hl : ∀ n ∈ ls, n < 2 ^ 63) (ns : List Nat) (hn : ∀ n ∈ ns, n < 2 ^ 61) :
    SameTrace (fun c : Run (Nat → Nat → Leak.Shake.Stacks) ((Nat → Leak.Shake.Stacks) × (Nat → Leak.Shake.Stacks)) Kmac.St => Each (Each KeccakSized) c.initLocals ∧
        Each (fun k : (Nat → Leak.Shake.Stacks) × (Nat → Leak.Shake.Stacks) => Each KeccakSized k.1 ∧ Each KeccakSized k.2) c.locals ∧ c.chunks.map List.length = ls ∧ KmacNew hs kl sl c.obj ∧ c.obj.shake.h.N.length < 2 ^ 61)
      (fun c => Leak.xofInit (Leak.Kmac.init B) (fun k => Leak.Kmac.update B k.1) (Leak.Kmac.squeeze B true) c.initLocals c.locals c.chunks ns c.obj) (fun c => xofRun (Kmac.xofProvider B) c.chunks ns c.obj) :=
  xofInit_same_trace (Proofs.Safety.Kmac.xof B)
    (R0 := fun s s' => KmacNew hs kl sl s ∧ KmacNew hs kl sl s') (R := KmacSame hs kl sl)
    (sz0 := Each (Each KeccakSized)) (sz := fun k : (Nat → Leak.Shake.Stacks) × (Nat → Leak.Shake.Stacks) => Each KeccakSized k.1 ∧ Each KeccakSized k.2)
    (ok := fun s : Kmac.St => KmacNew hs kl sl s ∧ s.shake.h.N.length < 2 ^ 61) (li := Leak.Kmac.init B) (lu := fun k => Leak.Kmac.update B k.1) (lq := Leak.Kmac.squeeze B true)
    (fun _ _ _ _ k k' h => kmac_init_twin B (by omega) (by omega) k k' h.1 h.2) (fun _ _ _ _ _ _ k k' hd hl h => kmac_update_twin B k.1 k'.1 hd hl h)
    (fun _ _ _ _ _ k k' h => kmac_squeeze_twin B true k k' h)
    (fun s ⟨h, n⟩ => ⟨⟨h.1, n, by rw [h.2.2.2]; exact hsl⟩, by rw [h.2.2.1]; exact hkl⟩) (fun _ _ h h' => ⟨h.1, h'.1⟩) ls hl ns hn

/-- Two keys of 32 bytes: KMACXOF128 has the same trace, with output in two pieces. -/
example (k0 : Nat → Nat → Leak.Shake.Stacks) (hk0 : Each (Each KeccakSized) k0) (k : Nat → (Nat → Leak.Shake.Stacks) × (Nat → Leak.Shake.Stacks)) (hk : ∀ i, Each KeccakSized (k i).1 ∧ Each KeccakSized (k i).2)
    (s : Kmac.St) (hm : s.shake.m.length = 168) (hN : s.shake.h.N = []) (hS : s.shake.h.S = []) (x y : BitVec 8) : ∃ tr a b,
      Leak.xofInit (Leak.Kmac.init 128) (fun k => Leak.Kmac.update 128 k.1) (Leak.Kmac.squeeze 128 true) k0 k [[x, x]] [10, 200] (Kmac.setKey 128 (List.replicate 32 x) s) = .ok (a, tr) ∧
      Leak.xofInit (Leak.Kmac.init 128) (fun k => Leak.Kmac.update 128 k.1) (Leak.Kmac.squeeze 128 true) k0 k [[y, y]] [10, 200] (Kmac.setKey 128 (List.replicate 32 y) s) = .ok (b, tr) := by
  obtain ⟨tr, h⟩ := kmac_xof_run_trace 128 s.hs (Kmac.bytepad 128 (List.replicate 32 0)).length 0 (by decide +kernel) (by decide) [2] (by decide) [10, 200] (by decide)
  obtain ⟨a, _, ha⟩ := h ⟨k0, k, [[x, x]], Kmac.setKey 128 (List.replicate 32 x) s⟩ ⟨hk0, hk, rfl, ⟨hm, rfl, kmac_key_length 128 _ _ (by rw [List.length_replicate, List.length_replicate]), congrArg List.length hS⟩, by show s.shake.h.N.length < _; rw [hN]; decide⟩
  obtain ⟨b, _, hb⟩ := h ⟨k0, k, [[y, y]], Kmac.setKey 128 (List.replicate 32 y) s⟩ ⟨hk0, hk, rfl, ⟨hm, rfl, kmac_key_length 128 _ _ (by rw [List.length_replicate, List.length_replicate]), congrArg List.length hS⟩, by show s.shake.h.N.length < _; rw [hN]; decide⟩
  exact ⟨tr, a, b, ha, hb⟩

/-- **C67**, Esch256 and Esch384: `N` is 512 for these classes. -/
theorem esch_run_trace (N hs : Nat) (hN : EschSizes N hs) (ls : List Nat) (hl : ∀ n ∈ ls, n < 2 ^ 63) :
    SameTrace (fun c : Run Unit (Nat → Leak.Esch.Stacks) (Blk Esch.St) => True ∧ Each (Each EschSized) c.locals ∧ c.chunks.map List.length = ls ∧ c.obj.m.length = 128 ∧ c.obj.h.H.length = N / 32 ∧ c.obj.h.hs = hs)
      (fun c => Leak.hashInit Leak.Esch.init Leak.Esch.update Leak.Esch.final c.initLocals c.locals c.chunks c.obj) (fun c => hashRun Esch.provider c.chunks c.obj) :=
  hashInit_same_trace (pr := Esch.provider) (I0 := Proofs.Safety.Esch.I0 N hs) (I := Proofs.Safety.Esch.I N hs) Proofs.Safety.Esch.init_safe Proofs.Safety.Esch.update_safe
    (fun s h => let ⟨b, s', e, _⟩ := Proofs.Safety.Esch.squeeze_safe (show Proofs.Safety.Esch.Sizes N hs from ⟨by omega, by omega⟩) false (s.h.hs / 8) s h; ⟨b, by
      show Esch.final s = _
      unfold Esch.final
      rw [e]; rfl⟩)
    (R0 := fun s s' => (s.m.length = 128 ∧ s.h.H.length = N / 32 ∧ s.h.hs = hs) ∧ s'.m.length = 128 ∧ s'.h.H.length = N / 32 ∧ s'.h.hs = hs) (R := EschSame N hs)
    (sz0 := fun _ : Unit => True) (sz := Each EschSized) (li := Leak.Esch.init) (lu := Leak.Esch.update) (lf := Leak.Esch.final)
    (fun _ _ _ _ _ _ h => (esch_init_twin ⟨h.1.1, h.2.1⟩ h.1.2 h.2.2).mono fun _ _ _ _ r => ⟨false, r⟩)
    (fun _ _ _ _ _ _ k k' hd hl ⟨q, h⟩ => (esch_update_twin hN k k' hd hl h).mono fun _ _ _ _ r => ⟨q, r⟩)
    (fun _ _ _ _ k k' h => esch_final_twin hN k k' h)
    (fun s h => ⟨h.1, h.2.1, h.2.2⟩) (fun _ _ h h' => ⟨h, h'⟩) ls hl

/-- **C67**, XOEsch256 (`N` is 384) and XOEsch384 (`N` is 512). -/
theorem esch_xof_run_trace (N hs : Nat) (hN : EschSizes N hs) (ls : List Nat) (hl : ∀ n ∈ ls, n < 2 ^ 63) (ns : List Nat) (hn : ∀ n ∈ ns, n < 2 ^ 61) :
    SameTrace (fun c : Run Unit (Nat → Leak.Esch.Stacks) (Blk Esch.St) => True ∧ Each (Each EschSized) c.locals ∧ c.chunks.map List.length = ls ∧ c.obj.m.length = 128 ∧ c.obj.h.H.length = N / 32 ∧ c.obj.h.hs = hs)
      (fun c => Leak.xofInit Leak.Esch.init Leak.Esch.update (Leak.Esch.squeeze true) c.initLocals c.locals c.chunks ns c.obj) (fun c => xofRun Esch.xofProvider c.chunks ns c.obj) :=
  xofInit_same_trace (Proofs.Safety.Esch.xof (show Proofs.Safety.Esch.Sizes N hs from ⟨by omega, by omega⟩))
    (R0 := fun s s' => (s.m.length = 128 ∧ s.h.H.length = N / 32 ∧ s.h.hs = hs) ∧ s'.m.length = 128 ∧ s'.h.H.length = N / 32 ∧ s'.h.hs = hs) (R := EschSame N hs)
    (sz0 := fun _ : Unit => True) (sz := Each EschSized) (li := Leak.Esch.init) (lu := Leak.Esch.update) (lq := Leak.Esch.squeeze true)
    (fun _ _ _ _ _ _ h => (esch_init_twin ⟨h.1.1, h.2.1⟩ h.1.2 h.2.2).mono fun _ _ _ _ r => ⟨false, r⟩)
    (fun _ _ _ _ _ _ k k' hd hl ⟨q, h⟩ => (esch_update_twin hN k k' hd hl h).mono fun _ _ _ _ r => ⟨q, r⟩)
    (fun _ _ _ _ _ k k' h => esch_squeeze_twin true hN k k' h)
    (fun s h => ⟨h.1, h.2.1, h.2.2⟩) (fun _ _ h h' => ⟨h, h'⟩) ls hl ns hn

/-- **C67**, Ascon-Hash256. -/
theorem ascon_run_trace (ls : List Nat) (hl : ∀ n ∈ ls, n < 2 ^ 63) :
    SameTrace (fun c : Run Unit (Nat → Unit) (Blk Ascon.St) => c.chunks.map List.length = ls ∧ c.obj.m.length = 64 ∧ c.obj.h.H.length = 5 ∧ c.obj.h.Z = [])
      (fun c => Leak.hashInit (Leak.Ascon.init .hash) Leak.Ascon.update Leak.Ascon.final c.initLocals c.locals c.chunks c.obj) (fun c => hashRun (P := Empty) Ascon.asconHash.pr c.chunks c.obj) := by
  obtain ⟨tr, h⟩ := hashInit_same_trace (P := Empty) (pr := Ascon.asconHash.pr) (I0 := Proofs.Safety.Ascon.J0) (I := Proofs.Safety.Ascon.J) Proofs.Safety.Ascon.hash.init Proofs.Safety.Ascon.hash.update
    (fun s h => let ⟨b, e, _⟩ := Proofs.Safety.Ascon.hash.final s h; ⟨b, e⟩)
    (R0 := fun s s' => (s.m.length = 64 ∧ s.h.H.length = 5 ∧ s.h.Z = []) ∧ s'.m.length = 64 ∧ s'.h.H.length = 5 ∧ s'.h.Z = []) (R := AsconSame 0)
    (sz0 := fun _ : Unit => True) (sz := fun _ : Nat → Unit => True) (li := Leak.Ascon.init .hash) (lu := Leak.Ascon.update) (lf := Leak.Ascon.final)
    (fun _ _ _ _ _ _ h => (ascon_init_twin .hash (by decide) ⟨h.1.1, h.2.1⟩ (congrArg List.length h.1.2.2) (congrArg List.length h.2.2.2)).mono fun _ _ _ _ r => ⟨false, r⟩)
    (fun _ _ _ _ _ _ _ _ hd hl ⟨q, h⟩ => (ascon_update_twin hd hl h).mono fun _ _ _ _ r => ⟨q, r⟩)
    (fun _ _ _ _ _ _ h => ascon_final_twin h)
    (fun s h => ⟨⟨h.1, h.2.1, by rw [h.2.2]; decide⟩, h.2.2⟩) (fun _ _ h h' => ⟨h, h'⟩) ls hl
  exact ⟨tr, fun c hc => h c ⟨trivial, fun _ => trivial, hc⟩⟩

/-- **C67**, Ascon-XOF128. -/
theorem ascon_xof_run_trace (ls : List Nat) (hl : ∀ n ∈ ls, n < 2 ^ 63) (ns : List Nat) (hn : ∀ n ∈ ns, n < 2 ^ 61) :
    SameTrace (fun c : Run Unit (Nat → Unit) (Blk Ascon.St) => c.chunks.map List.length = ls ∧ c.obj.m.length = 64 ∧ c.obj.h.H.length = 5 ∧ c.obj.h.Z = [])
      (fun c => Leak.xofInit (Leak.Ascon.init .xof) Leak.Ascon.update Leak.Ascon.squeeze c.initLocals c.locals c.chunks ns c.obj) (fun c => xofRun (P := Empty) Ascon.asconXof.pr c.chunks ns c.obj) := by
  obtain ⟨tr, h⟩ := xofInit_same_trace (P := Empty) Proofs.Safety.Ascon.xof
    (R0 := fun s s' => (s.m.length = 64 ∧ s.h.H.length = 5 ∧ s.h.Z = []) ∧ s'.m.length = 64 ∧ s'.h.H.length = 5 ∧ s'.h.Z = []) (R := AsconSame 0)
    (sz0 := fun _ : Unit => True) (sz := fun _ : Nat → Unit => True) (li := Leak.Ascon.init .xof) (lu := Leak.Ascon.update) (lq := Leak.Ascon.squeeze)
    (fun _ _ _ _ _ _ h => (ascon_init_twin .xof (by decide) ⟨h.1.1, h.2.1⟩ (congrArg List.length h.1.2.2) (congrArg List.length h.2.2.2)).mono fun _ _ _ _ r => ⟨false, r⟩)
    (fun _ _ _ _ _ _ _ _ hd hl ⟨q, h⟩ => (ascon_update_twin hd hl h).mono fun _ _ _ _ r => ⟨q, r⟩)
    (fun _ _ _ _ _ _ _ h => ascon_squeeze_twin h)
    (fun s h => ⟨⟨h.1, h.2.1, by rw [h.2.2]; decide⟩, h.2.2⟩) (fun _ _ h h' => ⟨h, h'⟩) ls hl ns hn
  exact ⟨tr, fun c hc => h c ⟨trivial, fun _ => trivial, hc⟩⟩

/-- **C67**, Ascon-CXOF128: with any customization of the given length. -/
theorem ascon_cxof_run_trace (zl : Nat) (hz : zl < 2 ^ 61) (ls : List Nat) (hl : ∀ n ∈ ls, n < 2 ^ 63) (ns : List Nat) (hn : ∀ n ∈ ns, n < 2 ^ 61) :
    SameTrace (fun c : Run Unit (Nat → Unit) (Blk Ascon.St) => c.chunks.map List.length = ls ∧ c.obj.m.length = 64 ∧ c.obj.h.H.length = 5 ∧ c.obj.h.Z.length = zl)
      (fun c => Leak.xofInit (Leak.Ascon.init .cxof) Leak.Ascon.update Leak.Ascon.squeeze c.initLocals c.locals c.chunks ns c.obj) (fun c => xofRun (P := CustomizationParam) Ascon.asconCxof.pr c.chunks ns c.obj) := by
  obtain ⟨tr, h⟩ := xofInit_same_trace (P := CustomizationParam) Proofs.Safety.Ascon.cxof
    (R0 := fun s s' => (s.m.length = 64 ∧ s.h.H.length = 5 ∧ s.h.Z.length = zl) ∧ s'.m.length = 64 ∧ s'.h.H.length = 5 ∧ s'.h.Z.length = zl) (R := AsconSame zl)
    (sz0 := fun _ : Unit => True) (sz := fun _ : Nat → Unit => True) (li := Leak.Ascon.init .cxof) (lu := Leak.Ascon.update) (lq := Leak.Ascon.squeeze)
    (fun _ _ _ _ _ _ h => (ascon_init_twin .cxof (by omega) ⟨h.1.1, h.2.1⟩ h.1.2.2 h.2.2.2).mono fun _ _ _ _ r => ⟨false, r⟩)
    (fun _ _ _ _ _ _ _ _ hd hl ⟨q, h⟩ => (ascon_update_twin hd hl h).mono fun _ _ _ _ r => ⟨q, r⟩)
    (fun _ _ _ _ _ _ _ h => ascon_squeeze_twin h)
    (fun s h => ⟨h.1, h.2.1, by rw [h.2.2]; exact hz⟩) (fun _ _ h h' => ⟨h, h'⟩) ls hl ns hn
  exact ⟨tr, fun c hc => h c ⟨trivial, fun _ => trivial, hc⟩⟩

/-- The trace of Ascon-XOF128 is not empty: one byte given makes at least the branch of `while (processed < hs)`. -/
example : ∃ a e tr, Leak.xofInit (Leak.Ascon.init .xof) Leak.Ascon.update Leak.Ascon.squeeze () (fun _ _ => ()) [] [1] ⟨⟨List.replicate 5 0, [], false⟩, List.replicate 64 0, 0, 0⟩ = .ok (a, e :: tr) ∧ a.length = 1 :=
  ⟨_, _, _, rfl, rfl⟩

end Digestpp.Properties
