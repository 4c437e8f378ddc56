import Verif.Proofs.Leak.HashBlake
import Verif.Proofs.Leak.HashSponge

/-! C67: what someone learns from the indices of array accesses, the offsets and lengths of the calls of `memcpy` and `memset`, and the outcomes of branches in a whole computation:
several calls of `absorb`, then `digest`. For the algorithms that C66 finds to leave the same trace for all data, this is still so for `update` and `final` around the transformation:
the trace depends on the number and the lengths of the pieces and on the values of `pos` and `total` before (which in turn depend on lengths only), not on what the pieces contain, not
on the chaining value, and not on what is left in the memory of local arrays. -/

namespace Digestpp.Properties
open Model Proofs.Leak

/-- **C67**, MD5. -/
theorem md5_hash_trace (pos : Nat) (hp : pos < 64) (total : BitVec 64) (ls : List Nat) (hl : ∀ n ∈ ls, n < 2 ^ 63) :
    SameTrace (fun c : Computation (Nat → Unit) (Blk (List (BitVec 32))) => c.chunks.map List.length = ls ∧ ObjectAt 64 (fun h : List (BitVec 32) => h.length = 4) pos total c.obj)
      (fun c => Leak.hash Leak.Md5.update Leak.Md5.final c.locals c.chunks c.obj) (fun c => c.chunks.foldlM (fun s d => Md5.update d s) c.obj >>= Md5.final) := by
  obtain ⟨tr, h⟩ := md_same_trace (limit := 56) (fill := 56) (enc := bytes64) (lo := fun s => Leak.readBytes (stores32 s.h) 0 16) (mo := fun s => readBytes (stores32 s.h) 0 16)
    md5_keeps md5_twin (by decide) (by decide) (by decide) (by decide) (fun _ => rfl) (fun s s' _ => (Twin.readBytes rfl rfl).mono fun _ _ _ _ _ => trivial)
    (fun s (hi : s.h.length = 4) => readBytes_total (by rw [length_stores32, hi])) pos total hp ls hl
  exact ⟨tr, fun c hc => h c ⟨fun _ _ => trivial, hc⟩⟩

/-- **C67**, SHA-1. -/
theorem sha1_hash_trace (pos : Nat) (hp : pos < 64) (total : BitVec 64) (ls : List Nat) (hl : ∀ n ∈ ls, n < 2 ^ 63) :
    SameTrace (fun c : Computation (Nat → Nat → Locals.Sha1.Stack) (Blk (List (BitVec 32))) => Each (Each (Each Locals.Sha1.Stack.Sized)) c.locals ∧ c.chunks.map List.length = ls ∧
        ObjectAt 64 (fun h : List (BitVec 32) => h.length = 5) pos total c.obj)
      (fun c => Leak.hash Leak.Sha1.update Leak.Sha1.final c.locals c.chunks c.obj) (fun c => c.chunks.foldlM (fun s d => Sha1.update d s) c.obj >>= Sha1.final) :=
  md_same_trace (limit := 56) (fill := 56) (lo := fun s => Leak.swapWords 5 byteswap32 s.h >>= fun H => Leak.readBytes (stores32 H) 0 (160 / 8))
    (mo := fun s => readBytes (stores32 (s.h.map byteswap32)) 0 (160 / 8))
    sha1_keeps sha1_twin (by decide) (by decide) (by decide) (by decide) (fun _ => rfl)
    (fun s s' h => Twin.skip (swapWords_twin h.h h.h') fun _ => (Twin.readBytes rfl rfl).mono fun _ _ _ _ _ => trivial)
    (fun s (hi : s.h.length = 5) => readBytes_total (by rw [length_stores32, List.length_map, hi])) pos total hp ls hl

/-- **C67**, SM3. -/
theorem sm3_hash_trace (pos : Nat) (hp : pos < 64) (total : BitVec 64) (ls : List Nat) (hl : ∀ n ∈ ls, n < 2 ^ 63) :
    SameTrace (fun c : Computation (Nat → Nat → Locals.Sm3.Stack) (Blk (List (BitVec 32))) => Each (Each (Each Locals.Sm3.Stack.Sized)) c.locals ∧ c.chunks.map List.length = ls ∧
        ObjectAt 64 (fun h : List (BitVec 32) => h.length = 8) pos total c.obj)
      (fun c => Leak.hash (Leak.Sm3.update rotlMasked) (Leak.Sm3.final rotlMasked) c.locals c.chunks c.obj)
      (fun c => c.chunks.foldlM (fun s d => Sm3.update rotlMasked d s) c.obj >>= Sm3.final rotlMasked) :=
  md_same_trace (limit := 56) (fill := 56) (lo := fun s => Leak.swapWords 8 byteswap32 s.h >>= fun H => Leak.readBytes (stores32 H) 0 32)
    (mo := fun s => readBytes (stores32 (s.h.map byteswap32)) 0 32)
    sm3_keeps sm3_twin (by decide) (by decide) (by decide) (by decide) (fun _ => rfl)
    (fun s s' h => Twin.skip (swapWords_twin h.h h.h') fun _ => (Twin.readBytes rfl rfl).mono fun _ _ _ _ _ => trivial)
    (fun s (hi : s.h.length = 8) => readBytes_total (by rw [length_stores32, List.length_map, hi])) pos total hp ls hl

/-- **C67**, SHA-224 and SHA-256. -/
theorem sha256_hash_trace (hs : Nat) (hhs : hs ≤ 256) (pos : Nat) (hp : pos < 64) (total : BitVec 64) (ls : List Nat) (hl : ∀ n ∈ ls, n < 2 ^ 63) :
    SameTrace (fun c : Computation (Nat → Nat → Locals.Sha2.Stack 32) (Blk (Sha2.St 32)) => Each (Each (Each (Locals.Sha2.Stack.Sized Sha2.u32))) c.locals ∧ c.chunks.map List.length = ls ∧
        ObjectAt 64 (fun h : Sha2.St 32 => h.H.length = 8 ∧ h.hs = hs) pos total c.obj)
      (fun c => Leak.hash (Leak.Sha2.update Sha2.u32 Leak.rd32) (Leak.Sha2.final Sha2.u32 Leak.rd32) c.locals c.chunks c.obj)
      (fun c => c.chunks.foldlM (fun s d => Sha2.update Sha2.u32 d s) c.obj >>= Sha2.final Sha2.u32) := by
  have h := md_same_trace (limit := 64 - 32 / 8 * 2) (fill := 64) (lo := fun s => Leak.swapWords 8 byteswap32 s.h.H >>= fun H => Leak.readBytes (stores32 H) 0 (s.h.hs / 8))
    (mo := fun s => readBytes (stores32 (s.h.H.map byteswap32)) 0 (s.h.hs / 8))
    (sha2_keeps Sha2.u32 hs 64) (sha256_twin hs) (by decide) (by decide) (by decide) (by decide) (enc := fun total => bytes64 (byteswap64 total)) (fun _ => rfl)
    (fun s s' h => Twin.skip (swapWords_twin h.h.1 h.h'.1) fun _ => (Twin.readBytes rfl (by rw [h.h.2, h.h'.2])).mono fun _ _ _ _ _ => trivial)
    (fun s hi => readBytes_total (by rw [length_stores32, List.length_map, hi.1, hi.2]; omega)) pos total hp ls hl
  have e : Sha2.final Sha2.u32 = fun s => mdFinal 64 (64 - 32 / 8 * 2) 64 (fun total => bytes64 (byteswap64 total)) (Sha2.transform Sha2.u32) s >>= fun s =>
      readBytes (stores32 (s.h.H.map byteswap32)) 0 (s.h.hs / 8) := by
    funext s
    exact bind_assoc _ _ _
  rw [e]
  exact h

/-- Two messages in pieces of 13 and 187 bytes: SHA-256 leaves the same trace, which begins with the outcome of `pos != 0`. -/
example (k : Nat → Nat → Nat → Locals.Sha2.Stack 32) (hk : Each (Each (Each (Locals.Sha2.Stack.Sized Sha2.u32))) k) (H H' : List (BitVec 32)) (hH : H.length = 8) (hH' : H'.length = 8)
    (m : Bytes) (hm : m.length = 64) (x y : BitVec 8) :
    let run := fun (H : List (BitVec 32)) (v : BitVec 8) => Leak.hash (Leak.Sha2.update Sha2.u32 Leak.rd32) (Leak.Sha2.final Sha2.u32 Leak.rd32) k
      [List.replicate 13 v, List.replicate 187 v] { h := { H := H, hs := 256 }, m := m, pos := 0, total := 0 }
    ∃ tr a b, run H x = .ok (a, .branch false :: tr) ∧ run H' y = .ok (b, .branch false :: tr) := by
  intro run
  obtain ⟨tr, h⟩ := sha256_hash_trace 256 (by decide) 0 (by decide) 0 [13, 187] (by decide)
  obtain ⟨a, _, ha⟩ := h ⟨k, [List.replicate 13 x, List.replicate 187 x], { h := { H := H, hs := 256 }, m := m, pos := 0, total := 0 }⟩ ⟨hk, rfl, rfl, rfl, hm, hH, rfl⟩
  obtain ⟨b, _, hb⟩ := h ⟨k, [List.replicate 13 y, List.replicate 187 y], { h := { H := H', hs := 256 }, m := m, pos := 0, total := 0 }⟩ ⟨hk, rfl, rfl, rfl, hm, hH', rfl⟩
  obtain ⟨_, t1, t2, e, _, rfl⟩ := Proofs.Leak.bind_eq_ok ha
  obtain ⟨_, u1, u2, e', _, rfl⟩ := Proofs.Leak.bind_eq_ok e
  obtain ⟨_, v1, v2, e'', _, rfl⟩ := Proofs.Leak.bind_eq_ok e'
  cases Except.ok.inj e''
  exact ⟨_, a, b, ha, hb⟩

/-- **C67**, SHA-384, SHA-512 and SHA-512/t. -/
theorem sha512_hash_trace (hs : Nat) (hhs : hs ≤ 512) (pos : Nat) (hp : pos < 128) (total : BitVec 64) (ls : List Nat) (hl : ∀ n ∈ ls, n < 2 ^ 63) :
    SameTrace (fun c : Computation (Nat → Nat → Locals.Sha2.Stack 64) (Blk (Sha2.St 64)) => Each (Each (Each (Locals.Sha2.Stack.Sized Sha2.u64))) c.locals ∧ c.chunks.map List.length = ls ∧
        ObjectAt 128 (fun h : Sha2.St 64 => h.H.length = 8 ∧ h.hs = hs) pos total c.obj)
      (fun c => Leak.hash (Leak.Sha2.update Sha2.u64 Leak.rd64) (Leak.Sha2.final Sha2.u64 Leak.rd64) c.locals c.chunks c.obj)
      (fun c => c.chunks.foldlM (fun s d => Sha2.update Sha2.u64 d s) c.obj >>= Sha2.final Sha2.u64) := by
  have h := md_same_trace (limit := 128 - 64 / 8 * 2) (fill := 128) (lo := fun s => Leak.swapWords 8 byteswap64 s.h.H >>= fun H => Leak.readBytes (stores64 H) 0 (s.h.hs / 8))
    (mo := fun s => readBytes (stores64 (s.h.H.map byteswap64)) 0 (s.h.hs / 8))
    (sha2_keeps Sha2.u64 hs 128) (sha512_twin hs) (by decide) (by decide) (by decide) (by decide) (enc := fun total => bytes64 (byteswap64 total)) (fun _ => rfl)
    (fun s s' h => Twin.skip (swapWords_twin h.h.1 h.h'.1) fun _ => (Twin.readBytes rfl (by rw [h.h.2, h.h'.2])).mono fun _ _ _ _ _ => trivial)
    (fun s hi => readBytes_total (by rw [length_stores64, List.length_map, hi.1, hi.2]; omega)) pos total hp ls hl
  have e : Sha2.final Sha2.u64 = fun s => mdFinal 128 (128 - 64 / 8 * 2) 128 (fun total => bytes64 (byteswap64 total)) (Sha2.transform Sha2.u64) s >>= fun s =>
      readBytes (stores64 (s.h.H.map byteswap64)) 0 (s.h.hs / 8) := by
    funext s
    exact bind_assoc _ _ _
  rw [e]
  exact h

/-- **C67**, JH. -/
theorem jh_hash_trace (hs : Nat) (hhs : hs ≤ 512) (pos : Nat) (hp : pos < 64) (total : BitVec 64) (ls : List Nat) (hl : ∀ n ∈ ls, n < 2 ^ 63) :
    SameTrace (fun c : Computation (Nat → Unit) (Blk Jh.St) => c.chunks.map List.length = ls ∧ ObjectAt 64 (fun h : Jh.St => h.H.length = 16 ∧ h.hs = hs) pos total c.obj)
      (fun c => Leak.hash Leak.Jh.update Leak.Jh.final c.locals c.chunks c.obj) (fun c => c.chunks.foldlM (fun s d => Jh.update d s) c.obj >>= Jh.final) := by
  obtain ⟨tr, h⟩ := md_same_trace (limit := 1) (fill := 56) (enc := fun t => bytes64 (byteswap64 t))
    (lo := fun s => Leak.readBytes (stores64 s.h.H) (szSub 128 (s.h.hs / 8)) (s.h.hs / 8)) (mo := fun s => readBytes (stores64 s.h.H) (szSub 128 (s.h.hs / 8)) (s.h.hs / 8))
    (jh_keeps hs) (jh_twin hs) (by decide) (by decide) (by decide) (by decide) (fun _ => rfl)
    (fun s s' h => (Twin.readBytes (by rw [h.h.2, h.h'.2]) (by rw [h.h.2, h.h'.2])).mono fun _ _ _ _ _ => trivial)
    (fun s hi => readBytes_total (by rw [length_stores64, hi.1, hi.2, Proofs.szSub_eq _ _ (by omega) (by unfold szMod; omega)]; omega)) pos total hp ls hl
  exact ⟨tr, fun c hc => h c ⟨fun _ _ => trivial, hc⟩⟩

theorem lsh_callback_twin {w : Nat} {T : Lsh.Word w} {hs ms : Nat} (ok : Proofs.Locals.Lsh.Good T)
    (ht : ∀ n, SameTrace (fun c : Call Unit (Blk (Lsh.St w)) => n * Lsh.blockBytes w ≤ c.data.length ∧ Locals.Lsh.Sized T c.obj.h)
      (fun c => Leak.Lsh.transform rotlMasked T c.data n c.obj) (fun c => Lsh.transform rotlMasked T c.data n c.obj)) :
    TwinTransform (Lsh.blockBytes w) ms (LshSt T hs) (fun h : List (BitVec w) => h.length = 4 * w) (Leak.Lsh.callback rotlMasked T) (Lsh.transform rotlMasked T) :=
  .of (lsh_keeps ok hs ms) fun n => by
    obtain ⟨tr, h⟩ := ht n
    exact ⟨tr, fun _ d s _ hd hi => h ⟨(), d, s⟩ ⟨hd, hi.1⟩⟩

/-- **C67**, LSH-256. -/
theorem lsh256_hash_trace (hs : Nat) (hhs : hs ≤ 256) (pos : Nat) (hp : pos < 128) (total : BitVec 64) (ls : List Nat) (hl : ∀ n ∈ ls, n < 2 ^ 63) :
    SameTrace (fun c : Computation (Nat → List (BitVec 32)) (Blk (Lsh.St 32)) => (Each (Each fun h : List (BitVec 32) => h.length = 128)) c.locals ∧ c.chunks.map List.length = ls ∧
        ObjectAt 128 (LshSt Lsh.u32 hs) pos total c.obj)
      (fun c => Leak.hash (Leak.Lsh.update rotlMasked Lsh.u32) (Leak.Lsh.final rotlMasked Lsh.u32) c.locals c.chunks c.obj)
      (fun c => c.chunks.foldlM (fun s d => Lsh.update rotlMasked Lsh.u32 d s) c.obj >>= Lsh.final rotlMasked Lsh.u32) :=
  blk_same_trace (bs := 128) (z := 0) (ms := 128) (inv := LshSt Lsh.u32 hs) (sz := Each fun h : List (BitVec 32) => h.length = 128)
    (lu := Leak.Lsh.update rotlMasked Lsh.u32) (mu := Lsh.update rotlMasked Lsh.u32) (lf := Leak.Lsh.final rotlMasked Lsh.u32) (mf := Lsh.final rotlMasked Lsh.u32)
    (fun _ _ _ _ _ _ hk hk' hd hl h => absorbBytes_twin (lsh_callback_twin Proofs.Locals.Lsh.good32 lsh256_trace) (z := 0) (by decide) (by decide) (by decide) hk hk' hd hl h)
    (fun k k' s s' hk hk' h => lsh_final_twin (lsh_callback_twin Proofs.Locals.Lsh.good32 lsh256_trace) (fun _ h => h) (by decide) (fun _ _ => List.flatMap_append ..)
      (fun a => (length_stores32 a).trans (Nat.mul_comm ..)) hhs rfl k k' s s' hk hk' h)
    (fun s d h hd => Proofs.absorbBytes_safe_le (z := 0) (by decide) (by decide) (by decide) (by decide) (lsh_keeps Proofs.Locals.Lsh.good32 hs 128) d s h.mlen (Nat.le_of_lt h.pos) h.inv hd)
    (fun s h => lsh_final_safe Proofs.Locals.Lsh.good32 hs (by decide) (by decide) (fun a => (length_stores32 a).trans (Nat.mul_comm ..)) hhs rfl s h) pos total hp ls hl

/-- **C67**, LSH-512. -/
theorem lsh512_hash_trace (hs : Nat) (hhs : hs ≤ 512) (pos : Nat) (hp : pos < 256) (total : BitVec 64) (ls : List Nat) (hl : ∀ n ∈ ls, n < 2 ^ 63) :
    SameTrace (fun c : Computation (Nat → List (BitVec 64)) (Blk (Lsh.St 64)) => (Each (Each fun h : List (BitVec 64) => h.length = 256)) c.locals ∧ c.chunks.map List.length = ls ∧
        ObjectAt 256 (LshSt Lsh.u64 hs) pos total c.obj)
      (fun c => Leak.hash (Leak.Lsh.update rotlMasked Lsh.u64) (Leak.Lsh.final rotlMasked Lsh.u64) c.locals c.chunks c.obj)
      (fun c => c.chunks.foldlM (fun s d => Lsh.update rotlMasked Lsh.u64 d s) c.obj >>= Lsh.final rotlMasked Lsh.u64) :=
  blk_same_trace (bs := 256) (z := 0) (ms := 256) (inv := LshSt Lsh.u64 hs) (sz := Each fun h : List (BitVec 64) => h.length = 256)
    (lu := Leak.Lsh.update rotlMasked Lsh.u64) (mu := Lsh.update rotlMasked Lsh.u64) (lf := Leak.Lsh.final rotlMasked Lsh.u64) (mf := Lsh.final rotlMasked Lsh.u64)
    (fun _ _ _ _ _ _ hk hk' hd hl h => absorbBytes_twin (lsh_callback_twin Proofs.Locals.Lsh.good64 lsh512_trace) (z := 0) (by decide) (by decide) (by decide) hk hk' hd hl h)
    (fun k k' s s' hk hk' h => lsh_final_twin (lsh_callback_twin Proofs.Locals.Lsh.good64 lsh512_trace) (fun _ h => h) (by decide) (fun _ _ => List.flatMap_append ..)
      (fun a => (length_stores64 a).trans (Nat.mul_comm ..)) hhs rfl k k' s s' hk hk' h)
    (fun s d h hd => Proofs.absorbBytes_safe_le (z := 0) (by decide) (by decide) (by decide) (by decide) (lsh_keeps Proofs.Locals.Lsh.good64 hs 256) d s h.mlen (Nat.le_of_lt h.pos) h.inv hd)
    (fun s h => lsh_final_safe Proofs.Locals.Lsh.good64 hs (by decide) (by decide) (fun a => (length_stores64 a).trans (Nat.mul_comm ..)) hhs rfl s h) pos total hp ls hl

/-- **C67**, SHA-3: for each hash size and each rate that fits into the buffer. -/
theorem sha3_hash_trace (hs rate : Nat) (hhs : hs ≤ 1600) (hr0 : 8 ≤ rate) (hr : rate ≤ 1152) (pos : Nat) (hp : pos < rate / 8) (total : BitVec 64) (ls : List Nat) (hl : ∀ n ∈ ls, n < 2 ^ 63) :
    SameTrace (fun c : Computation (Nat → Nat → Nat → Locals.Sha3.Stack) (Blk Sha3.St) => Each (Each (Each (Each Locals.Sha3.Stack.Sized))) c.locals ∧ c.chunks.map List.length = ls ∧
        ObjectAt 144 (Sha3St hs rate) pos total c.obj)
      (fun c => Leak.hash Leak.Sha3.update Leak.Sha3.final c.locals c.chunks c.obj) (fun c => c.chunks.foldlM (fun s d => Sha3.update d s) c.obj >>= Sha3.final) :=
  blk_same_trace (bs := rate / 8) (z := 0) (ms := 144) (inv := Sha3St hs rate) (sz := Each (Each (Each Locals.Sha3.Stack.Sized)))
    (lu := Leak.Sha3.update) (mu := Sha3.update) (lf := Leak.Sha3.final) (mf := Sha3.final)
    (fun _ _ _ _ _ _ hk hk' hd hl h => by
      unfold Leak.Sha3.update Sha3.update
      rw [h.h.2.2, h.h'.2.2]
      exact absorbBytes_twin (sha3_twin hs rate (by omega) 144) (z := 0) (by decide) (by omega) (by omega) hk hk' hd hl h)
    (fun _ _ _ _ hk hk' h => sha3_final_twin (by omega) hk hk' (by omega) h)
    (fun s d h hd => by
      unfold Sha3.update
      rw [h.inv.2.2]
      exact Proofs.absorbBytes_safe_le (z := 0) (by omega) (by decide) (by omega) (by omega) (sha3_keeps hs rate (by omega) 144) d s h.mlen (Nat.le_of_lt h.pos) h.inv hd)
    (fun s h => sha3_final_safe hr0 (by omega) hhs (by omega) s h) pos total hp ls hl

/-- **C67**, BLAKE: for each hash size. -/
theorem blake_hash_trace (hs : Nat) (hhs : hs ≤ 512) (pos : Nat) (hp : pos < Blake.blockBytes hs) (total : BitVec 64) (ls : List Nat) (hl : ∀ n ∈ ls, n < 2 ^ 63) :
    SameTrace (fun c : Computation (Nat → Leak.Blake.Stacks) (Blk Blake.St) => Each (Each BlakeSized) c.locals ∧ c.chunks.map List.length = ls ∧ ObjectAt 128 (BlakeSt hs) pos total c.obj)
      (fun c => Leak.hash Leak.Blake.update Leak.Blake.final c.locals c.chunks c.obj) (fun c => c.chunks.foldlM (fun s d => Blake.update d s) c.obj >>= Blake.final) := by
  have hb := blockBytes_le hs
  refine blk_same_trace (bs := Blake.blockBytes hs) (z := 0) (ms := 128) (inv := BlakeSt hs) (sz := Each BlakeSized)
    (lu := Leak.Blake.update) (mu := Blake.update) (lf := Leak.Blake.final) (mf := Blake.final) ?_ ?_ ?_ ?_ pos total hp ls hl
  · intro k k' d d' s s' hk hk' hd hl h
    unfold Leak.Blake.update Blake.update
    rw [h.h.1, h.h'.1]
    exact absorbBytes_twin (blake_twin hs false false) (z := 0) (by decide) (by omega) (by omega) hk hk' hd hl h
  · exact fun k k' s s' hk hk' h => blake_final_twin hk hk' h
  · intro s d h hd
    unfold Blake.update
    rw [h.inv.1]
    exact Proofs.absorbBytes_safe_le (z := 0) (by omega) (by decide) (by omega) (by omega) (blake_keeps hs false false) d s h.mlen (Nat.le_of_lt h.pos) h.inv hd
  · exact fun s h => blake_final_safe hhs s h

/-- BLAKE-512 of two messages of 112 bytes, where the padding needs a second block: the same trace. -/
example (k : Nat → Nat → Leak.Blake.Stacks) (hk : Each (Each BlakeSized) k) (s : Blk Blake.St) (hs : ObjectAt 128 (BlakeSt 512) 0 0 s) (x y : BitVec 8) :
    ∃ tr a b, Leak.hash Leak.Blake.update Leak.Blake.final k [List.replicate 112 x] s = .ok (a, tr) ∧ Leak.hash Leak.Blake.update Leak.Blake.final k [List.replicate 112 y] s = .ok (b, tr) := by
  obtain ⟨tr, h⟩ := blake_hash_trace 512 (by decide) 0 (by decide) 0 [112] (by decide)
  obtain ⟨a, _, ha⟩ := h ⟨k, [List.replicate 112 x], s⟩ ⟨hk, rfl, hs⟩
  obtain ⟨b, _, hb⟩ := h ⟨k, [List.replicate 112 y], s⟩ ⟨hk, rfl, hs⟩
  exact ⟨tr, a, b, ha, hb⟩

end Digestpp.Properties
