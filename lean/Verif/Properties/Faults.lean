import Verif.Proofs.TornKey
import Verif.Proofs.Conforms
import Verif.Properties.Kmac
import Verif.Properties.Blake2p

/-! C65: calls that the environment cuts short: streams in any state, iterators that throw, memory that runs out. -/

namespace Digestpp.Properties
open Model Spec
open Model.Blake2 (u32 u64)
open Model.Blake2p (PSt leaves)
open Spec.Blake2 (v2s v2b Theta)

/-- **C65.** `absorb(istr)`, for every provider and every stream: what is absorbed, and whether an exception leaves the call. -/
theorem absorb_stream_any_state {S : Type} (update : Bytes → S → M S) (st : IStream) (s : S) :
    absorbIStream update st s = (absorbStream update (streamTakes st).1 s >>= fun s => pure ((streamTakes st).2, s)) :=
  Proofs.absorbIStream_eq update st s

/-- **C65.** A stream in a good state, whose buffer does not fail, without exceptions switched on: all of it is absorbed. -/
theorem good_stream_absorbed {S : Type} (update : Bytes → S → M S) (d : Bytes) (s : S) :
    absorbIStream update { left := d } s = (absorbStream update d s >>= fun s => pure (false, s)) :=
  absorb_stream_any_state update { left := d } s

/-- **C65**, where the code loses data: with `exceptions(failbit)` or `exceptions(eofbit)` on the stream, `absorb` always ends with an
exception, and what comes after the last whole buffer of 65536 characters has been read from the stream but is not absorbed. -/
theorem stream_exceptions_lose_tail {S : Type} (update : Bytes → S → M S) (d : Bytes) (xeof xfail : Bool) (h : (xeof || xfail) = true) (s : S) :
    absorbIStream update { left := d, xeof := xeof, xfail := xfail } s
      = (absorbStream update (d.take (d.length / 65536 * 65536)) s >>= fun s => pure (true, s)) := by
  rw [absorb_stream_any_state]
  have : streamTakes { left := d, xeof := xeof, xfail := xfail } = (d.take (d.length / 65536 * 65536), true) := by
    simp only [streamTakes, wholeBuffers, Bool.or_self, Bool.false_eq_true, if_false]
    rw [if_pos h]
  rw [this]

/-- **C65**, the same for streams shorter than a buffer: nothing is absorbed. -/
theorem stream_exceptions_lose_all {S : Type} (update : Bytes → S → M S) (d : Bytes) (hd : d.length < 65536) (xeof xfail : Bool)
    (h : (xeof || xfail) = true) (s : S) :
    absorbIStream update { left := d, xeof := xeof, xfail := xfail } s = .ok (true, s) := by
  rw [stream_exceptions_lose_tail update d xeof xfail h, show d.length / 65536 * 65536 = 0 by omega, List.take_zero,
    Proofs.absorbStream_nil]
  rfl

/-- The histories of a hash class whose calls may be cut short. -/
def HashCalls (h : HashName) {Θ : Type} (f : HashFn h.cls.P Θ) (cov : Cover h.cls.P Θ) (ok : List (HashCall h.cls.P) → Prop) : Prop :=
  ∀ mem, h.cls.Mem mem → ∃ s, h.cls.construct mem = .ok (some s) ∧ ∀ calls, ok calls → f.CallsCovered h.strings cov calls f.new →
    ∃ s', h.cls.pr.runCalls h.setMem calls s = .ok ((f.runCalls h.strings calls f.new).1, s')

/-- **C65.** Every hash class but BLAKE2bp and BLAKE2sp: in a history where any calls are cut short, every call shows what it should, if a
call that is cut short is taken as `HashFn.stepCall` says: a failed setter or `digest` changes nothing, `absorb` has absorbed what was read. -/
theorem hash_calls (h : HashName) (hs : h.Supported) (ht : ¬h.IsTree) {Θ : Type} (f : HashFn h.cls.P Θ) (cov : Cover h.cls.P Θ)
    (hc : HashConforms h.cls f cov) : HashCalls h f cov fun _ => True := by
  intro mem hm
  obtain ⟨s, e, hr⟩ := hc mem hm
  refine ⟨s, e, fun calls _ hcov => ?_⟩
  obtain ⟨s', e'⟩ := hr _ (Proofs.plain_covered f h.strings calls f.new hcov)
  exact ⟨s', Proofs.plain_runs h.cls.pr f h.setMem h.strings calls (fun mem p _ => Proofs.strong_hash h hs ht mem p) f.new s s' e'⟩

/-- **C65.** BLAKE2bp and BLAKE2sp: the same if no setter runs out of memory (see `blake2bp_torn_key`). -/
theorem hash_calls_tree (h : HashName) (ht : h.IsTree) {Θ : Type} (f : HashFn h.cls.P Θ) (cov : Cover h.cls.P Θ)
    (hc : HashConforms h.cls f cov) : HashCalls h f cov fun calls => ∀ mem p, .set mem p ∈ calls → ∀ i, mem i = true := by
  intro mem hm
  obtain ⟨s, e, hr⟩ := hc mem hm
  refine ⟨s, e, fun calls hok hcov => ?_⟩
  obtain ⟨s', e'⟩ := hr _ (Proofs.plain_covered f h.strings calls f.new hcov)
  exact ⟨s', Proofs.plain_runs h.cls.pr f h.setMem h.strings calls
    (fun mem p hp => Proofs.strong_hash_tree h ht mem (hok mem p hp) p) f.new s s' e'⟩

/-- **C65.** Every extendable output class. -/
theorem xof_calls (x : XofName) (hs : x.Supported) {Θ : Type} (f : XofFn x.cls.P Θ) (cov : Cover x.cls.P Θ)
    (hc : XofConforms x.cls f cov) : ∀ mem, x.cls.Mem mem → ∃ s, x.cls.construct mem = .ok (some s) ∧
      ∀ calls, f.CallsCovered x.strings cov calls f.new →
        ∃ s', x.cls.pr.runCalls x.setMem calls s = .ok ((f.runCalls x.strings calls f.new).1, s') := by
  intro mem hm
  obtain ⟨s, e, hr⟩ := hc mem hm
  refine ⟨s, e, fun calls hcov => ?_⟩
  obtain ⟨s', e'⟩ := hr _ (Proofs.xplain_covered f x.strings calls f.new hcov)
  exact ⟨s', Proofs.xplain_runs x.cls.pr f x.setMem x.strings calls (fun mem p _ => Proofs.strong_xof x hs mem p) f.new s s' e'⟩

/-- **C65**, where the code hides a failure: `hexdigest()` and `hexsqueeze(len)` whose string stream runs out of memory after `n`
characters return the first `n` characters, without an exception. -/
theorem hexdigest_truncated (n : Nat) (b : Bytes) : hexRoom n b = (hex b).take n := Proofs.hexRoom_eq n b

/-- **C65**, where the code leaves a key of zeros: `reset(true)` of a KMAC object, after any history, that runs out of memory. The
exception leaves the object with as many zero bytes as the padded key had in its place; `reset()` makes it usable, and it computes a
function that depends on nothing secret. -/
theorem kmac_failed_reset (b hs : Nat) (hb : b = 128 ∨ b = 256) (h0 : 0 < hs) (hs8 : hs % 8 = 0) (hs64 : hs < 2 ^ 64) :
    ∀ mem0, (Model.Kmac.kmac b hs).Mem mem0 → ∃ s, (Model.Kmac.kmac b hs).construct mem0 = .ok (some s) ∧
      ∀ ops, (Spec.kmacFull b hs).Covered ⟨fun _ _ => True, True, kmacShort, fun _ => True⟩ ops (Spec.kmacFull b hs).new →
        ∃ s', (Model.Kmac.kmac b hs).pr.run ops s = .ok (((Spec.kmacFull b hs).run ops (Spec.kmacFull b hs).new).1, s') ∧
        ∀ mem, enough 4 mem = false → ∃ s1, Model.Kmac.resetMem b mem s' = .ok (.exception [], s1) ∧
          ∀ msg : Bytes, msg.length < 2 ^ 63 → ∃ s2 s3, (Model.Kmac.kmac b hs).pr.reset false s1 = .ok s2 ∧
            (Model.Kmac.kmac b hs).pr.update msg s2 = .ok s3 ∧ (Model.Kmac.kmac b hs).pr.final s3
              = .ok (slice (Spec.Keccak.cshakeFullStream (200 - 2 * b / 8) ⟨ascii "KMAC", []⟩
                (List.replicate (Spec.Keccak.bytepad (Spec.Keccak.encodeString
                  ((Spec.kmacFull b hs).run ops (Spec.kmacFull b hs).new).2.params.K) (200 - 2 * b / 8)).length 0
                  ++ msg ++ Spec.Keccak.rightEncode hs)) 0 (hs / 8)) := by
  intro mem0 hm0
  obtain ⟨s, e1, r⟩ := kmac_init b hs hs hb mem0 hm0
  have hr := (Proofs.Kmac.refinesFull b hs hb h0 hs8 hs64).mono (c' := ⟨fun _ _ => True, True, kmacShort, fun _ => True⟩) rfl rfl rfl
    (fun _ _ _ _ _ => ⟨trivial, rfl⟩) id fun p h => by cases p <;> exact h
  refine ⟨s, ?_, ?_⟩
  · have hv := (Proofs.validateMax_iff hs (szMod - 1)).mpr ⟨h0, hs8, by unfold szMod; omega⟩
    unfold HashClass.construct
    show (do let r ← (pure (if validateMax hs (szMod - 1) then some (Model.Kmac.new b hs mem0) else none) : M _); _) = _
    rw [if_pos hv]
    show (do let s ← Model.Kmac.init b (Model.Kmac.new b hs mem0); pure (some s)) = _
    rw [e1]; rfl
  · intro ops hc
    obtain ⟨s', e, r⟩ := hr.run ops (Spec.kmacFull b hs).new s r hc
    refine ⟨s', e, ?_⟩
    intro mem hmem
    obtain ⟨r', hr', he, h8, hr0, h168⟩ := Proofs.Shake.rateOf_eq b hb
    have ec : ∃ s1, Model.Kmac.clearMem b mem s' = .ok (.noMemory, s1) ∧ s1.K = List.replicate s'.K.length 0 ∧ s1.hs = s'.hs ∧
        s1.shake.h.S = [] ∧ s1.shake.m = zeroBytes s'.shake.m :=
      ⟨_, Proofs.kmac_clearMem b _ hb rfl mem s' hmem, rfl, rfl, rfl, rfl⟩
    obtain ⟨s1, ec, hK, hh, hS, hm⟩ := ec
    refine ⟨s1, by unfold Model.Kmac.resetMem; rw [ec]; rfl, ?_⟩
    intro msg hmsg
    rw [← hr'] at r ⊢
    have hl : s'.K.length = (Spec.Keccak.bytepad (Spec.Keccak.encodeString
        ((Spec.kmacFull b hs).run ops (Spec.kmacFull b hs).new).2.params.K) r').length := by rw [r.K]; rfl
    rw [← hl]
    exact Proofs.kmac_zero_key b r' hs he h8 hr0 h168 h0 hs8 hs64 s'.K.length
      (by rw [r.K]; exact Proofs.Kmac.length_keyBytes r' hr0 h168 _ r.Kl) s1
      (by rw [hm, zeroBytes, List.length_replicate]; exact r.sh.fields.1) (hh.trans r.hs) hK hS msg hmsg

/-- **C65**, where the code ends the program: `clear`, which the destructor of every KMAC object calls (kmac_provider.hpp 66-69) and
therefore also the destructor of the copy that each `digest` makes, throws whatever the state if there is no memory for four string
operations. A destructor that throws calls `std::terminate`. -/
theorem kmac_destructor_needs_memory (b : Nat) (hb : b = 128 ∨ b = 256) (mem : Memory) (h : enough 4 mem = false) (s : Model.Kmac.St) :
    ∃ s', Model.Kmac.clearMem b mem s = .ok (.noMemory, s') ∧ s'.K = List.replicate s.K.length 0 :=
  ⟨_, Proofs.kmac_clearMem b _ hb rfl mem s h, rfl⟩

/-- `set_key` of a tree object that gets memory for the root and the first `j` leaves, but not for leaf `j`: the exception leaves an object
that after `reset()` computes BLAKE2bp or BLAKE2sp with the new key in the root and these leaves and the old key in the others. -/
def TornKey {w : Nat} (T : Model.Blake2.Word w) (v : Spec.Blake2.Variant w) (P hs : Nat) : Prop :=
  ∀ mem0, (Model.Blake2p.blake2p T hs).Mem mem0 → ∃ s, (Model.Blake2p.blake2p T hs).construct mem0 = .ok (some s) ∧
    ∀ ops, (Spec.Blake2.pfn v P true (hs / 8)).Covered blake2pCoverFull ops (Spec.Blake2.pfn v P true (hs / 8)).new →
      ∃ s', (Model.Blake2p.blake2p T hs).pr.run ops s
        = .ok (((Spec.Blake2.pfn v P true (hs / 8)).run ops (Spec.Blake2.pfn v P true (hs / 8)).new).1, s') ∧
      ∀ key : Bytes, key.length ≤ w → ∀ (mem : Memory) (j : Nat), j < P → (∀ t ≤ j, mem t = true) → mem (j + 1) = false →
        ∃ s1, (Model.Blake2p.blake2p T hs).pr.setParamMem (Model.Blake2p.setMem T) mem (.key key) s' = .ok (.exception [], s1) ∧
        ∀ m : Bytes, m.length < 2 ^ 60 → ∃ s2 s3, (Model.Blake2p.blake2p T hs).pr.reset false s1 = .ok s2 ∧
          (Model.Blake2p.blake2p T hs).pr.update m s2 = .ok s3 ∧ (Model.Blake2p.blake2p T hs).pr.final s3
            = .ok (let θ := ((Spec.Blake2.pfn v P true (hs / 8)).run ops (Spec.Blake2.pfn v P true (hs / 8)).new).2.params
                   Spec.Blake2.mixed v P (hs / 8) { θ with key := key } (fun i => if i < j then { θ with key := key } else θ) m)

private theorem torn {w : Nat} {T : Model.Blake2.Word w} {v : Spec.Blake2.Variant w} (ok : Proofs.Blake2.WordOk T v) (hs : Nat) (h0 : 0 < hs)
    (h8 : hs % 8 = 0) (hm : hs / 8 ≤ w)
    (hr : Proofs.HashRefines (Model.Blake2p.provider T) (Spec.Blake2.pfn v (leaves w) true (hs / 8))
      { Proofs.Blake2.cover true with clr := False } (Proofs.Blake2p.RP T v hs false)) : TornKey T v (leaves w) hs := by
  intro mem0 hmem0
  obtain ⟨s, s', e1, e2, r⟩ := blake2p_ctor_ok ok hs h0 h8 hm mem0 hmem0
  have hr : Proofs.HashRefines (Model.Blake2p.provider T) (Spec.Blake2.pfn v (leaves w) true (hs / 8)) blake2pCoverFull
      (Proofs.Blake2p.RP T v hs false) := hr.mono rfl rfl rfl (fun _ _ _ _ h => ⟨h, rfl⟩) (fun h => h) (fun _ _ => .inl rfl)
  refine ⟨s', ?_, ?_⟩
  · unfold HashClass.construct
    show (do let r ← Model.Blake2p.new hs mem0; _) = _
    rw [e1]
    show (do let s ← Model.Blake2p.init T s; pure (some s)) = _
    rw [e2]; rfl
  · intro ops hc
    obtain ⟨s2, e, r⟩ := hr.run ops _ s' r hc
    refine ⟨s2, e, ?_⟩
    intro key hkey mem j hj ht hm'
    obtain ⟨s3, e3, h3⟩ := Proofs.Blake2p.torn_ok ok hm r key hkey mem j hj ht hm'
    refine ⟨s3, ?_, ?_⟩
    · show (do let (e, s) ← Model.Blake2p.setMem T mem (.key key) s2; _) = _
      rw [e3]; rfl
    · intro m hlen
      obtain ⟨s4, s5, e4, e5, e6⟩ := h3 m hlen
      exact ⟨s4, s5, e4, e5, e6⟩

/-- **C65**, where a failed setter changes the object: BLAKE2bp. -/
theorem blake2bp_torn_key (N : Nat) (h0 : 0 < N) (h8 : N % 8 = 0) (hm : N ≤ 512) : TornKey u64 v2b 4 N :=
  torn Proofs.Blake2.u64_ok N h0 h8 (by omega) (Proofs.Blake2p.refinesP Proofs.Blake2.u64_ok true N (by omega) (by omega))

/-- **C65**, where a failed setter changes the object: BLAKE2sp. -/
theorem blake2sp_torn_key (N : Nat) (h0 : 0 < N) (h8 : N % 8 = 0) (hm : N ≤ 256) : TornKey u32 v2s 8 N :=
  torn Proofs.Blake2.u32_ok N h0 h8 (by omega) (Proofs.Blake2p.refinesP Proofs.Blake2.u32_ok true N (by omega) (by omega))

/-- The function `TornKey` speaks of is BLAKE2bp or BLAKE2sp if all keys are the same. -/
theorem mixed_same {w : Nat} (v : Spec.Blake2.Variant w) (P n : Nat) (θ : Theta) (msg : Bytes) :
    Spec.Blake2.mixed v P n θ (fun _ => θ) msg = (Spec.Blake2.pfn v P true n).digest θ msg := rfl

/-! Cases the theorems speak of. -/

/-- A stream of three characters with `exceptions(failbit)`, a stream whose buffer fails after 70000 characters, and one that has failed
before. -/
example : streamTakes { left := ascii "abc", xfail := true } = ([], true) ∧
    streamTakes { left := ascii "abc", bad := true } = ([], false) ∧
    ∀ d : Bytes, 70000 ≤ d.length → streamTakes { left := d, fault := some 70000 } = (d.take 65536, false) :=
  ⟨rfl, rfl, fun d h => by unfold streamTakes; dsimp only; rw [if_neg (by decide), if_pos h]; rfl⟩

/-- Memory for three string operations. -/
def threeStrings : Memory := fun i => i < 3

example : enough 3 threeStrings = true ∧ enough 4 threeStrings = false := by decide

/-- The padding of a KMAC key takes the fourth string operation, unless it needs no padding. -/
example : kmacStrings 168 (.key (ascii "key")) = 4 ∧ kmacStrings 168 (.key (List.replicate 163 1)) = 3 := by decide +kernel

/-- A history with calls cut short, and what it shows. -/
def cutShort : List (HashCall KmacParam) :=
  [.set threeStrings (.key (ascii "key")), .iterThrows (ascii "ab"), .stream { left := ascii "xyz", xeof := true }, .digestNoMemory,
    .call (.absorb (.ptr (ascii "c"))), .digestStops 1, .hexdigestRoom 3]

example : (Spec.kmacFull 128 32).CallsCovered (kmacStrings 168) ⟨fun _ _ => True, True, kmacShort, fun _ => True⟩ cutShort
    (Spec.kmacFull 128 32).new :=
  ⟨show 3 < 2 ^ 61 by decide, trivial, trivial, trivial, show 1 < 2 ^ 63 by decide, trivial, trivial, trivial⟩

example : ((Spec.kmacFull 128 32).runCalls (kmacStrings 168) cutShort (Spec.kmacFull 128 32).new).2 = ⟨⟨[], []⟩, ascii "abc"⟩ := by
  rfl

/-- The theorem about all classes covers it. -/
example : HashCalls (.kmac .runtime 128 32) (Spec.kmacFull 128 32) ⟨fun _ _ => True, True, kmacShort, fun _ => True⟩ fun _ => True :=
  hash_calls (.kmac .runtime 128 32) (by decide) (fun h => h) _ _ (kmac_conforms_full 128 32 (.inl rfl) (by decide) (by decide) (by decide))

/-- Memory for the root and two of the four leaves of BLAKE2bp. -/
example : (∀ t ≤ 2, threeStrings t = true) ∧ threeStrings 3 = false := by
  refine ⟨fun t h => ?_, rfl⟩
  unfold threeStrings
  exact decide_eq_true (by omega)

/-- The four characters of a digest that fit. -/
example : hexRoom 4 [0xab, 0xcd, 0xef] = "abcd".toList := by decide

end Digestpp.Properties
