import Verif.Properties.LeakXof
import Verif.Proofs.Leak.TreeK12
import Verif.Proofs.Leak.TreeBlake2p

/-! C67 for the classes that contain objects of other classes. -/

namespace Digestpp.Properties
open Model Proofs.Leak

/-- The contents of the memory of all local arrays while BLAKE2sp or BLAKE2bp runs. -/
abbrev Blake2pLocals (w : Nat) := Nat → Nat → Nat → Nat → Leak.Blake2.Stacks w

/-- **C67**, the parallel BLAKE2 with `w`-bit words. -/
theorem blake2p_run {w : Nat} {T : Blake2.Word w} {ld : Bytes → Nat → L (BitVec w)} (g : Proofs.Safety.Blake2.Good T) (tr : Blake2Trace T ld) (hs kl : Nat) (h0 : 0 < hs / 8) (hh : hs / 8 ≤ w) (hk : kl ≤ w)
    (fo nd fo' nd' : BitVec 8) (ls : List Nat) (hl : ∀ n ∈ ls, n < 2 ^ 63) :
    SameTrace (fun c : Run (Nat → (Nat → Leak.Blake2.Stacks w) × Bytes) (Blake2pLocals w) (Blk (Blake2p.PSt w)) => (∀ i, Each Blake2Sized (c.initLocals i).1 ∧ (c.initLocals i).2.length = 2 * w) ∧
        Each (Each (Each (Each (Each Blake2Sized)))) c.locals ∧ c.chunks.map List.length = ls ∧ Blake2pNew hs kl fo nd fo' nd' c.obj)
      (fun c => Leak.hashInit (Leak.Blake2p.init T ld) (Leak.Blake2p.update T ld) (Leak.Blake2p.final T ld) c.initLocals c.locals c.chunks c.obj)
      (fun c => hashRun (Blake2p.provider T) c.chunks c.obj) :=
  hashInit_same_trace (pr := Blake2p.provider T) (I0 := Proofs.Safety.Blake2p.I0 hs) (I := Proofs.Safety.Blake2p.I hs) (Proofs.Safety.Blake2p.hash g hs h0 hh).init
    (Proofs.Safety.Blake2p.hash g hs h0 hh).update (fun s h => let ⟨b, e, _⟩ := (Proofs.Safety.Blake2p.hash g hs h0 hh).final s h; ⟨b, e⟩)
    (R0 := fun s s' => Blake2pNew hs kl fo nd fo' nd' s ∧ Blake2pNew hs kl fo nd fo' nd' s') (R := SameRel 512 (Blake2pRel hs))
    (sz0 := fun k : Nat → (Nat → Leak.Blake2.Stacks w) × Bytes => ∀ i, Each Blake2Sized (k i).1 ∧ (k i).2.length = 2 * w) (sz := Each (Each (Each (Each Blake2Sized))))
    (li := Leak.Blake2p.init T ld) (lu := Leak.Blake2p.update T ld) (lf := Leak.Blake2p.final T ld)
    (fun _ _ _ _ k k' h => blake2p_init_twin g tr hk k k' h.1 h.2) (fun _ _ _ _ _ _ k k' hd hl h => blake2p_update_twin g tr k k' hd hl h)
    (fun _ _ _ _ k k' h => blake2p_final_twin g tr k k' h)
    (fun s h => ⟨h.1, ⟨h.2.1.1, by rw [h.2.1.2.2.1]; exact hk, h.2.1.2.1⟩, ⟨h.2.2.1.1, fun x hx => have q := h.2.2.1.2 x hx; ⟨q.1, by rw [q.2.2.1]; exact hk, q.2.1⟩⟩, h.2.2.2⟩) (fun _ _ h h' => ⟨h, h'⟩) ls hl

/-- **C67**, BLAKE2sp: with any key of `kl` bytes, salt and personalization. -/
theorem blake2sp_run_trace (hs kl : Nat) (h0 : 0 < hs / 8) (hh : hs / 8 ≤ 32) (hk : kl ≤ 32) (fo nd fo' nd' : BitVec 8) (ls : List Nat) (hl : ∀ n ∈ ls, n < 2 ^ 63) :
    SameTrace (fun c : Run (Nat → (Nat → Leak.Blake2.Stacks 32) × Bytes) (Blake2pLocals 32) (Blk (Blake2p.PSt 32)) => (∀ i, Each Blake2Sized (c.initLocals i).1 ∧ (c.initLocals i).2.length = 64) ∧
        Each (Each (Each (Each (Each Blake2Sized)))) c.locals ∧ c.chunks.map List.length = ls ∧ Blake2pNew hs kl fo nd fo' nd' c.obj)
      (fun c => Leak.hashInit (Leak.Blake2p.init Blake2.u32 Leak.rd32) (Leak.Blake2p.update Blake2.u32 Leak.rd32) (Leak.Blake2p.final Blake2.u32 Leak.rd32) c.initLocals c.locals c.chunks c.obj)
      (fun c => hashRun (Blake2p.provider Blake2.u32) c.chunks c.obj) :=
  blake2p_run Proofs.Safety.Blake2.good32 blake2s_trace hs kl h0 hh hk fo nd fo' nd' ls hl

/-- **C67**, BLAKE2bp. -/
theorem blake2bp_run_trace (hs kl : Nat) (h0 : 0 < hs / 8) (hh : hs / 8 ≤ 64) (hk : kl ≤ 64) (fo nd fo' nd' : BitVec 8) (ls : List Nat) (hl : ∀ n ∈ ls, n < 2 ^ 63) :
    SameTrace (fun c : Run (Nat → (Nat → Leak.Blake2.Stacks 64) × Bytes) (Blake2pLocals 64) (Blk (Blake2p.PSt 64)) => (∀ i, Each Blake2Sized (c.initLocals i).1 ∧ (c.initLocals i).2.length = 128) ∧
        Each (Each (Each (Each (Each Blake2Sized)))) c.locals ∧ c.chunks.map List.length = ls ∧ Blake2pNew hs kl fo nd fo' nd' c.obj)
      (fun c => Leak.hashInit (Leak.Blake2p.init Blake2.u64 Leak.rd64) (Leak.Blake2p.update Blake2.u64 Leak.rd64) (Leak.Blake2p.final Blake2.u64 Leak.rd64) c.initLocals c.locals c.chunks c.obj)
      (fun c => hashRun (Blake2p.provider Blake2.u64) c.chunks c.obj) :=
  blake2p_run Proofs.Safety.Blake2.good64 blake2b_trace hs kl h0 hh hk fo nd fo' nd' ls hl

/-- Two messages of 1000 bytes: BLAKE2bp has the same trace. The objects are those that the constructor makes, with keys of 20 bytes. -/
example (k0 : Nat → (Nat → Leak.Blake2.Stacks 64) × Bytes) (hk0 : ∀ i, Each Blake2Sized (k0 i).1 ∧ (k0 i).2.length = 128) (k : Nat → Blake2pLocals 64) (hk : Each (Each (Each (Each (Each Blake2Sized)))) k)
    (s : Blk (Blake2p.PSt 64)) (hs : Blake2pNew 512 20 4 0 4 1 s) (x y : BitVec 8) : ∃ tr a b,
      Leak.hashInit (Leak.Blake2p.init Blake2.u64 Leak.rd64) (Leak.Blake2p.update Blake2.u64 Leak.rd64) (Leak.Blake2p.final Blake2.u64 Leak.rd64) k0 k [List.replicate 1000 x] s = .ok (a, tr) ∧
      Leak.hashInit (Leak.Blake2p.init Blake2.u64 Leak.rd64) (Leak.Blake2p.update Blake2.u64 Leak.rd64) (Leak.Blake2p.final Blake2.u64 Leak.rd64) k0 k [List.replicate 1000 y] s = .ok (b, tr) := by
  obtain ⟨tr, h⟩ := blake2bp_run_trace 512 20 (by decide) (by decide) (by decide) 4 0 4 1 [1000] (by decide)
  obtain ⟨a, _, ha⟩ := h ⟨k0, k, [List.replicate 1000 x], s⟩ ⟨hk0, hk, by rw [List.map_cons, List.length_replicate]; rfl, hs⟩
  obtain ⟨b, _, hb⟩ := h ⟨k0, k, [List.replicate 1000 y], s⟩ ⟨hk0, hk, by rw [List.map_cons, List.length_replicate]; rfl, hs⟩
  exact ⟨tr, a, b, ha, hb⟩

/-- Such objects exist. -/
example : ∃ s : Blk (Blake2p.PSt 64), Blake2pNew 512 20 4 0 4 1 s :=
  let h (nd : BitVec 8) : Blake2.St 64 := { H := [], s := [], p := [], k := List.replicate 20 7, hs := 512, xoffset := 0, squeezing := false, fanout := 4, nodedepth := nd, nodeoffset := 0 }
  ⟨⟨⟨⟨h 1, List.replicate 128 0, 0, 0⟩, List.replicate 4 ⟨h 0, List.replicate 128 0, 0, 0⟩, 512⟩, List.replicate 512 0, 0, 0⟩,
    List.length_replicate, ⟨List.length_replicate, rfl, List.length_replicate, rfl, rfl⟩,
    ⟨rfl, fun l hl => by
      rw [List.eq_of_mem_replicate hl]
      exact ⟨List.length_replicate, rfl, List.length_replicate, rfl, rfl⟩⟩, rfl⟩

/-- The contents of the memory of all local arrays while K12 or M14 runs. -/
abbrev K12Locals := Nat → Nat → Nat → Leak.K12.Stacks

/-- **C67**, KangarooTwelve (`B` = 128, `R` = 12), KT256 (256, 12) and MarsupilamiFourteen (256, 14): with any customization of `sl` bytes. -/
theorem k12_run_trace (B R sl : Nat) (hR : R ≤ 24) (hB : B ≤ 1024) (hsl : sl < 2 ^ 61) (ls : List Nat) (hl : ∀ n ∈ ls, n < 2 ^ 63) (ns : List Nat) (hn : ∀ n ∈ ns, n < 2 ^ 61) :
    SameTrace (fun c : Run (Nat → Nat → Leak.Shake.Stacks) K12Locals (Blk K12.St) => Each (Each KeccakSized) c.initLocals ∧ Each (Each (Each (Each K12Sized))) c.locals ∧ c.chunks.map List.length = ls ∧ K12New sl c.obj)
      (fun c => Leak.xofInit (Leak.K12.init B R) (fun k => Leak.K12.update B R (k 0)) (Leak.K12.squeeze B R) c.initLocals c.locals c.chunks ns c.obj)
      (fun c => xofRun (K12.provider B R) c.chunks ns c.obj) :=
  xofInit_same_trace (Proofs.Safety.K12.xof hB)
    (R0 := fun s s' => K12New sl s ∧ K12New sl s') (R := SameRel 8192 (K12Rel sl)) (sz0 := Each (Each KeccakSized)) (sz := Each (Each (Each K12Sized)))
    (li := Leak.K12.init B R) (lu := fun k : K12Locals => Leak.K12.update B R (k 0)) (lq := Leak.K12.squeeze B R)
    (fun _ _ _ _ k k' h => k12_init_twin hR k k' h.1 h.2) (fun _ _ _ _ _ _ k k' hd hl h => k12_update_twin hR hB (k 0) (k' 0) hd hl h)
    (fun _ _ _ _ _ k k' h => k12_squeeze_twin hR hB (by omega) k k' h)
    (fun s h => ⟨h.1, ⟨h.2.2.1.1, by rw [h.2.2.1.2.1]; decide, by rw [h.2.2.1.2.2]; decide⟩, ⟨h.2.2.2.1, by rw [h.2.2.2.2.1]; decide, by rw [h.2.2.2.2.2]; decide⟩, by rw [h.2.1]; exact hsl⟩) (fun _ _ h h' => ⟨h, h'⟩) ls hl ns hn

/-- Two messages of 30000 bytes in two pieces, and two customizations of 9 bytes: K12 has the same trace, with output in two pieces. -/
example (k0 : Nat → Nat → Leak.Shake.Stacks) (hk0 : Each (Each KeccakSized) k0) (k : Nat → K12Locals) (hk : Each (Each (Each (Each K12Sized))) k) (s : Blk K12.St) (hs : K12New 0 s) (x y : BitVec 8) : ∃ tr a b,
      Leak.xofInit (Leak.K12.init 128 12) (fun k : K12Locals => Leak.K12.update 128 12 (k 0)) (Leak.K12.squeeze 128 12) k0 k [List.replicate 10000 x, List.replicate 20000 y] [32, 500]
        { s with h := { s.h with S := List.replicate 9 x } } = .ok (a, tr) ∧
      Leak.xofInit (Leak.K12.init 128 12) (fun k : K12Locals => Leak.K12.update 128 12 (k 0)) (Leak.K12.squeeze 128 12) k0 k [List.replicate 10000 y, List.replicate 20000 x] [32, 500]
        { s with h := { s.h with S := List.replicate 9 y } } = .ok (b, tr) := by
  obtain ⟨tr, h⟩ := k12_run_trace 128 12 9 (by decide) (by decide) (by decide) [10000, 20000] (by decide) [32, 500] (by decide)
  have e : ∀ x y : BitVec 8, [List.replicate 10000 x, List.replicate 20000 y].map List.length = [10000, 20000] := fun x y => by
    rw [List.map_cons, List.map_cons, List.length_replicate, List.length_replicate]; rfl
  obtain ⟨a, _, ha⟩ := h ⟨k0, k, [List.replicate 10000 x, List.replicate 20000 y], { s with h := { s.h with S := List.replicate 9 x } }⟩ ⟨hk0, hk, e x y, hs.1, List.length_replicate, hs.2.2⟩
  obtain ⟨b, _, hb⟩ := h ⟨k0, k, [List.replicate 10000 y, List.replicate 20000 x], { s with h := { s.h with S := List.replicate 9 y } }⟩ ⟨hk0, hk, e y x, hs.1, List.length_replicate, hs.2.2⟩
  exact ⟨tr, a, b, ha, hb⟩

/-- Such objects exist. -/
example : ∃ s : Blk K12.St, K12New 0 s :=
  let c : Blk Shake.St := ⟨{ A := List.replicate 25 0, N := [], S := [], squeezing := false, suffix := 0 }, List.replicate 168 0, 0, 0⟩
  ⟨⟨⟨c, c, [], 0, false⟩, List.replicate 8192 0, 0, 0⟩, List.length_replicate, rfl, ⟨List.length_replicate, rfl, rfl⟩, List.length_replicate, rfl, rfl⟩

end Digestpp.Properties
