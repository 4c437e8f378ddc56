import Verif.Proofs.PointersSafe

/-! C59: what `absorb(ptr, len)` demands of the pointer. The full statement, "for every pointer to `len` readable bytes, and for a null pointer with `len = 0`, the behaviour is defined", is
false of the code: blocks are read in place through pointers to words, and `memcpy` gets the null pointer. Proved is exactly when that happens. -/

namespace Digestpp.Properties
open Model Spec Proofs.Pointers

/-- The calls are valid: the ranges are shorter than 2^63, and the range at a null pointer is empty. -/
def ValidCalls (calls : List (Ptr × Bytes)) : Prop := ∀ c ∈ calls, c.2.length < 2 ^ 63 ∧ (c.1 = none → c.2 = [])

/-- An object that has absorbed `t` bytes: its buffer has the declared size, the position is the number of bytes that wait in the buffer. -/
def Absorbed {σ : Type} (bs z msize : Nat) (inv : σ → Prop) (t : Nat) (s : Blk σ) : Prop := s.m.length = msize ∧ inv s.h ∧ s.pos = t - (t - z) / bs * bs

/-- Whatever calls of `update` follow, the result is decided by `Spec.faults`: the fault of the first call with a bad pointer, or else what happens without regard to addresses.
`w`: size of the words; `bs`: size of the blocks; `z = 1`: the last block is kept back. The buffer of the object is supposed to be aligned (`buffers_aligned`). -/
def PointersDecide {σ : Type} (w bs z msize : Nat) (inv : σ → Prop) (transform : Bytes → Nat → Blk σ → M (Blk σ)) : Prop :=
  ∀ (ma : Nat) (calls : List (Ptr × Bytes)) (t : Nat) (s : Blk σ), ma % w = 0 → ValidCalls calls → Absorbed bs z msize inv t s →
    absorbsAt w ma bs (bs + z) transform calls s =
      outcome (faults w bs z t (calls.map fun c => (c.1, c.2.length))) (absorbs bs (bs + z) transform (calls.map (·.2)) s)

theorem PointersDecide.intro {σ : Type} {w bs z msize : Nat} {inv : σ → Prop} {transform : Bytes → Nat → Blk σ → M (Blk σ)} (h : Proofs.SafeTransform bs msize inv transform)
    (hbs : 0 < bs) (hz : z ≤ 1) (hm : bs ≤ msize) (hsz : bs < 2 ^ 62) : PointersDecide w bs z msize inv transform :=
  fun _ calls t s hma hv ha => absorbs_eq hbs hz hm hsz hma h calls (fun c hc => (hv c hc).1) (fun c hc => (hv c hc).2) t s ⟨ha.1, ha.2.1, ha.2.2⟩

/-- **C59**, MD5. -/
theorem md5_pointers_partial : PointersDecide 4 64 0 64 anySt Md5.transform := .intro md5_safe (by decide) (by decide) (by decide) (by decide)

/-- One byte, then at an address that is a multiple of 16 enough bytes for two blocks: the second block would be read at the address 16 + 63. -/
example (ma : Nat) (hma : ma % 4 = 0) (d : Bytes) (hd : d.length = 127) (s : Blk (List (BitVec 32))) (hs : s.m.length = 64) (hp : s.pos = 0) :
    absorbsAt 4 ma 64 64 Md5.transform [(some 0, [7]), (some 16, d)] s = .error .misaligned := by
  refine (md5_pointers_partial ma [(some 0, [7]), (some 16, d)] 0 s hma (fun c hc => ?_) ⟨hs, trivial, hp⟩).trans ?_
  · rcases List.mem_cons.1 hc with rfl | hc
    · exact ⟨by decide, nofun⟩
    · rw [List.mem_singleton.1 hc]
      exact ⟨by show d.length < _; omega, nofun⟩
  · have e : faults 4 64 0 0 [(some 0, 1), (some 16, d.length)] = some .misaligned := by rw [hd]; decide
    exact congrArg (outcome · _) e

/-- A byte less, and no block is read in place. -/
example : faults 4 64 0 0 [(some 0, 1), (some 16, 126)] = none ∧ faults 4 64 0 0 [(some 0, 1), (some 17, 127)] = none := by decide

/-- **C59**, the null pointer: `absorb(v.data(), v.size())` for an empty vector, in any state. -/
theorem null_pointer {σ : Type} (w ma bs z : Nat) (hbs : 0 < bs) (transform : Bytes → Nat → Blk σ → M (Blk σ)) (s : Blk σ) (hp : s.pos < bs + z ∧ s.pos < 2 ^ 63) :
    absorbBytesAt w ma bs (bs + z) transform none [] s = .error .nullCopy := by
  unfold absorbBytesAt
  have e : (s.pos + ([] : Bytes).length) % szMod = s.pos := by
    rw [List.length_nil, Nat.add_zero]
    exact Nat.mod_eq_of_lt (by unfold szMod; omega)
  rw [e, if_neg (by omega)]
  unfold absorbTailAt
  rw [if_neg (by rw [List.length_nil]; omega)]
  rfl

example (s : Blk (List (BitVec 32))) (hp : s.pos = 3) : absorbBytesAt 4 0 64 64 Md5.transform none [] s = .error .nullCopy :=
  null_pointer 4 0 64 0 (by decide) _ s (by omega)

/-- **C59**: a single call at an aligned address is in order, if the bytes absorbed before end at an aligned distance from a block boundary. -/
theorem aligned_fault (w bs z t a l : Nat) (ha : a % w = 0) (hb : bs % w = 0) (ht : t % w = 0) : fault w bs z t (some a) l = none := by
  unfold fault toBoundary
  refine if_neg fun h => h.2 ?_
  have hd : ∀ x, x % w = 0 → w ∣ x := fun x h => Nat.dvd_of_mod_eq_zero h
  refine Nat.mod_eq_zero_of_dvd (Nat.dvd_add (hd _ ha) ?_)
  have h1 : w ∣ t % bs := (Nat.dvd_mod_iff (hd _ hb)).2 (hd _ ht)
  exact (Nat.dvd_mod_iff (hd _ hb)).2 (Nat.dvd_sub (hd _ hb) h1)

/-- **C59**: calls at aligned addresses with lengths that are multiples of the word size are in order, and then a last call of any length. -/
theorem aligned_faults (w bs z : Nat) (hb : bs % w = 0) (calls : List (Nat × Nat)) (last : Nat × Nat) (ha : ∀ c ∈ calls, c.1 % w = 0 ∧ c.2 % w = 0) (hl : last.1 % w = 0) :
    ∀ t, t % w = 0 → faults w bs z t ((calls ++ [last]).map fun c => (some c.1, c.2)) = none := by
  induction calls with
  | nil =>
    intro t ht
    show (fault w bs z t (some last.1) last.2).or none = none
    rw [aligned_fault w bs z t last.1 last.2 hl hb ht]; rfl
  | cons c cs ih =>
    intro t ht
    have hc := ha c (.head _)
    show (fault w bs z t (some c.1) c.2).or (faults w bs z (t + c.2) _) = none
    rw [aligned_fault w bs z t c.1 c.2 hc.1 hb ht]
    exact ih (fun x hx => ha x (.tail _ hx)) (t + c.2) (by rw [Nat.add_mod, ht, hc.2]; simp)

example : faults 8 128 0 0 ([(16, 24), (64, 1000), (8, 13)].map fun c => (some c.1, c.2)) = none :=
  aligned_faults 8 128 0 rfl [(16, 24), (64, 1000)] (8, 13) (by decide) rfl 0 rfl

/-- The same lengths elsewhere are not. -/
example : faults 8 128 0 0 ([(16, 24), (68, 1000), (8, 13)].map fun c => (some c.1, c.2)) = some .misaligned := by decide

/-- **C59**: with the usual layout of classes the buffers of the providers are aligned if the objects are. -/
theorem buffers_aligned (x : Nat × List (Nat × Nat)) (hx : x ∈ buffers) (object : Nat) (ho : object % 8 = 0) : (object + offsetAfter x.2) % x.1 = 0 := by
  have h : buffers.all (fun x => (8 % x.1 == 0) && (offsetAfter x.2 % x.1 == 0)) = true := by decide
  have := List.all_eq_true.1 h x hx
  rw [Bool.and_eq_true, beq_iff_eq, beq_iff_eq] at this
  refine Nat.mod_eq_zero_of_dvd (Nat.dvd_add ?_ (Nat.dvd_of_mod_eq_zero this.2))
  exact Nat.dvd_trans (Nat.dvd_of_mod_eq_zero this.1) (Nat.dvd_of_mod_eq_zero ho)

/-- A flag between `H` and `m` would shift the buffer to an odd address. -/
example : offsetAfter [(64, 8), (1, 1)] % 8 = 1 := by decide

/-- **C59**, SHA-1. -/
theorem sha1_pointers_partial : PointersDecide 4 64 0 64 anySt Sha1.transform := .intro sha1_safe (by decide) (by decide) (by decide) (by decide)

/-- **C59**, SM3. -/
theorem sm3_pointers_partial : PointersDecide 4 64 0 64 anySt (Sm3.transform rotlMasked) := .intro sm3_safe (by decide) (by decide) (by decide) (by decide)

/-- **C59**, SHA-2. -/
theorem sha2_pointers_partial : PointersDecide 4 64 0 64 anySt (Sha2.transform Sha2.u32) ∧ PointersDecide 8 128 0 128 anySt (Sha2.transform Sha2.u64) :=
  ⟨.intro (sha2_safe Sha2.u32 64) (by decide) (by decide) (by decide) (by decide), .intro (sha2_safe Sha2.u64 128) (by decide) (by decide) (by decide) (by decide)⟩

example (ma : Nat) (hma : ma % 8 = 0) (d : Bytes) (hd : d.length = 128) (s : Blk (Sha2.St 64)) (hs : s.m.length = 128) (hp : s.pos = 0) :
    absorbsAt 8 ma 128 128 (Sha2.transform Sha2.u64) [(some 4, d)] s = .error .misaligned := by
  refine (sha2_pointers_partial.2 ma [(some 4, d)] 0 s hma (fun c hc => ?_) ⟨hs, trivial, hp⟩).trans ?_
  · rw [List.mem_singleton.1 hc]
    exact ⟨by show d.length < _; omega, nofun⟩
  · have e : faults 8 128 0 0 [(some 4, d.length)] = some .misaligned := by rw [hd]; decide
    exact congrArg (outcome · _) e

/-- **C59**, SHA-3. -/
theorem sha3_pointers_partial (rate : Nat) (hr : rate = 1152 ∨ rate = 1088 ∨ rate = 832 ∨ rate = 576) :
    PointersDecide 8 (rate / 8) 0 144 (fun h : Sha3.St => h.rate = rate) Sha3.onBlocks :=
  .intro (sha3_safe rate (by omega)) (by omega) (by decide) (by omega) (by omega)

example : faults 8 136 0 0 [(some 8, 300)] = none ∧ faults 8 136 0 0 [(some 9, 300)] = some .misaligned := by decide

/-- **C59**, SHAKE and cSHAKE, and the sponge in KMAC and the k12 family. -/
theorem shake_pointers_partial (R rate : Nat) (hr : rate = 1344 ∨ rate = 1088) : PointersDecide 8 (rate / 8) 0 168 anySt (Shake.onBlocks R rate) :=
  .intro (shake_safe R rate (by omega)) (by omega) (by decide) (by omega) (by omega)

/-- **C59**, BLAKE. -/
theorem blake_pointers_partial (hs : Nat) : PointersDecide (if hs > 256 then 8 else 4) (Blake.blockBytes hs) 0 128 (fun h : Blake.St => h.hs = hs) (Blake.transform false false) := by
  have h : Blake.blockBytes hs = 128 ∨ Blake.blockBytes hs = 64 := by
    unfold Blake.blockBytes
    split <;> simp
  exact .intro (blake_safe hs) (by omega) (by decide) (by omega) (by omega)

/-- **C59**, BLAKE: the salt is read in place too. -/
theorem blake_salt_pointer_partial (a : Nat) (salt : Bytes) (s : Blk Blake.St) :
    Blake.setSaltAt (some a) salt s =
      outcome (if salt.length = (if s.h.hs > 256 then 32 else 16) ∧ a % (if s.h.hs > 256 then 8 else 4) ≠ 0 then some .misaligned else none) (Blake.setSalt salt s) := by
  unfold Blake.setSaltAt
  by_cases h : s.h.hs > 256
  · rw [if_pos h, if_pos h]
    by_cases h1 : salt.length = 32
    · rw [if_neg (by omega), if_pos (by omega)]
      dsimp only [wordsFrom]
      by_cases h2 : a % 8 = 0
      · rw [if_pos h2, if_neg (by omega)]; rfl
      · rw [if_neg h2, if_pos ⟨h1, h2⟩]; rfl
    · rw [if_neg (c := salt.length = 32 ∧ _) (by omega)]
      by_cases h0 : salt.length = 0
      · rw [if_neg (by omega), if_neg (by omega)]; rfl
      · rw [if_pos (by omega)]
        unfold Blake.setSalt
        rw [if_pos (by omega)]; rfl
  · rw [if_neg h, if_neg h]
    by_cases h1 : salt.length = 16
    · rw [if_neg (by omega), if_pos (by omega)]
      dsimp only [wordsFrom]
      by_cases h2 : a % 4 = 0
      · rw [if_pos h2, if_neg (by omega)]; rfl
      · rw [if_neg h2, if_pos ⟨h1, h2⟩]; rfl
    · rw [if_neg (c := salt.length = 16 ∧ _) (by omega)]
      by_cases h0 : salt.length = 0
      · rw [if_neg (by omega), if_neg (by omega)]; rfl
      · rw [if_pos (by omega)]
        unfold Blake.setSalt
        rw [if_pos (by omega)]; rfl

example (s : Blk Blake.St) (hs : s.h.hs = 256) : Blake.setSaltAt (some 6) (List.replicate 16 1) s = .error .misaligned := by
  rw [blake_salt_pointer_partial, hs]; rfl

/-- **C59**, BLAKE2 and BLAKE2X. -/
theorem blake2_pointers_partial :
    PointersDecide 4 64 1 64 anySt (Blake2.transform Blake2.u32 false) ∧ PointersDecide 8 128 1 128 anySt (Blake2.transform Blake2.u64 false) :=
  ⟨.intro (blake2_safe Blake2.u32) (by decide) (by decide) (by decide) (by decide), .intro (blake2_safe Blake2.u64) (by decide) (by decide) (by decide) (by decide)⟩

/-- A block that may be the last one waits in the buffer, so one byte more makes the difference. -/
example : faults 8 128 1 0 [(some 1, 128)] = none ∧ faults 8 128 1 0 [(some 1, 129)] = some .misaligned := by decide

/-- **C59**, Skein. -/
theorem skein_pointers_partial (F : Skein.Fns) (hF : F = Skein.f4 ∨ F = Skein.f8 ∨ F = Skein.f16) :
    PointersDecide 8 (8 * F.nw) 1 (8 * F.nw) anySt (Skein.transform F (8 * F.nw)) := by
  rcases hF with rfl | rfl | rfl
  · exact .intro (skein_safe Skein.f4 (by decide +kernel) _ _) (by decide) (by decide) (by decide) (by decide)
  · exact .intro (skein_safe Skein.f8 (by decide +kernel) _ _) (by decide) (by decide) (by decide) (by decide)
  · exact .intro (skein_safe Skein.f16 (by decide +kernel) _ _) (by decide) (by decide) (by decide) (by decide)

/-- **C59**, Grøstl. -/
theorem groestl_pointers_partial (hs : Nat) : PointersDecide 8 (Groestl.blockBytes hs) 0 128 (fun h : Groestl.St => h.hs = hs) Groestl.transform := by
  have h : Groestl.blockBytes hs = 128 ∨ Groestl.blockBytes hs = 64 := by
    unfold Groestl.blockBytes
    split <;> simp
  exact .intro (groestl_safe hs _) (by omega) (by decide) (by omega) (by omega)

/-- **C59**, Kupyna. -/
theorem kupyna_pointers_partial (hs : Nat) : PointersDecide 8 (Kupyna.blockBytes hs) 0 128 (fun h : Kupyna.St => h.hs = hs) Kupyna.transform := by
  have h : Kupyna.blockBytes hs = 128 ∨ Kupyna.blockBytes hs = 64 := by
    unfold Kupyna.blockBytes
    split <;> simp
  exact .intro (kupyna_safe hs _) (by omega) (by decide) (by omega) (by omega)

/-- **C59**, Whirlpool. -/
theorem whirlpool_pointers_partial : PointersDecide 8 64 0 64 anySt Whirlpool.transform := .intro whirlpool_safe (by decide) (by decide) (by decide) (by decide)

/-- **C59**, Streebog. -/
theorem streebog_pointers_partial : PointersDecide 8 64 0 64 anySt (Streebog.transform Streebog.addm false) :=
  .intro streebog_safe (by decide) (by decide) (by decide) (by decide)

/-- **C59**, JH. -/
theorem jh_pointers_partial : PointersDecide 8 64 0 64 anySt Jh.transform := .intro jh_safe (by decide) (by decide) (by decide) (by decide)

/-- **C59**, Esch. -/
theorem esch_pointers_partial : PointersDecide 4 16 1 128 anySt (Esch.transform false) := .intro esch_safe (by decide) (by decide) (by decide) (by decide)

/-- **C59**, Ascon. -/
theorem ascon_pointers_partial : PointersDecide 8 8 0 64 anySt Ascon.transform := .intro ascon_safe (by decide) (by decide) (by decide) (by decide)

/-- The blocks of Ascon have eight bytes, so that short messages in two parts are affected too. -/
example : faults 8 8 0 0 [(some 0, 5), (some 8, 11)] = some .misaligned ∧ faults 8 8 0 0 [(some 0, 5), (some 8, 10)] = none := by decide

/-- **C59**, LSH and ECHO copy each block: bytes have no alignment, and only the null pointer is a fault. -/
theorem copying_pointers_partial (hs : Nat) :
    PointersDecide 1 128 0 128 anySt (Lsh.transform rotlMasked Lsh.u32) ∧ PointersDecide 1 256 0 256 anySt (Lsh.transform rotlMasked Lsh.u64) ∧
      PointersDecide 1 (Echo.blockBytes hs) 0 (Echo.blockBytes hs) (fun h : Echo.St => h.hs = hs) Echo.transform := by
  have h : Echo.blockBytes hs = 128 ∨ Echo.blockBytes hs = 192 := by
    unfold Echo.blockBytes
    split <;> simp
  exact ⟨.intro (lsh_safe Lsh.u32 128) (by decide) (by decide) (by decide) (by decide), .intro (lsh_safe Lsh.u64 256) (by decide) (by decide) (by decide) (by decide),
    .intro (echo_safe hs) (by omega) (by decide) (by omega) (by omega)⟩

/-- **C59**: with words of one byte nothing is misaligned. -/
theorem bytes_faults (bs z : Nat) (calls : List (Nat × Nat)) : ∀ t, faults 1 bs z t (calls.map fun c => (some c.1, c.2)) = none := by
  induction calls with
  | nil => exact fun _ => rfl
  | cons c cs ih =>
    intro t
    show (fault 1 bs z t (some c.1) c.2).or (faults 1 bs z (t + c.2) _) = none
    have : fault 1 bs z t (some c.1) c.2 = none := if_neg fun h => h.2 (Nat.mod_one _)
    rw [this]
    exact ih _

example : faults 1 128 0 0 ([(3, 1), (17, 1000)].map fun c => (some c.1, c.2)) = none := bytes_faults 128 0 [(3, 1), (17, 1000)] 0

end Digestpp.Properties
