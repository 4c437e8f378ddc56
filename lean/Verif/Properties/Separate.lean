import Verif.Proofs.Separate
import Verif.Proofs.Validate
import Verif.Proofs.Jh
import Verif.Proofs.Lsh
import Verif.Properties.Permutes
import Verif.Properties.SpongeInputs
import Verif.Properties.Kupyna
import Verif.Model.Groestl
import Verif.Model.Echo
import Verif.Model.Streebog
import Verif.Model.Blake
import Verif.Model.Ascon
import Verif.Model.Blake2
import Verif.Spec.K12

/-! C61: the variants of a hash function start from different states. -/

namespace Digestpp

/-- `s` is what constructing an object of the class gives, on some memory. -/
def Fresh (c : Model.HashClass) (s : c.S) : Prop := ∃ mem, c.Mem mem ∧ c.construct mem = .ok (some s)

/-- As for hash functions. -/
def FreshXof (c : Model.XofClass) (s : c.S) : Prop := ∃ mem, c.Mem mem ∧ c.construct mem = .ok (some s)

/-- `s` is the object after construction and one call absorbing `msg`. -/
def Absorbed (c : Model.HashClass) (msg : Bytes) (s : c.S) : Prop := ∃ s0, Fresh c s0 ∧ c.pr.update msg s0 = .ok s

/-- As for hash functions. -/
def AbsorbedXof (c : Model.XofClass) (msg : Bytes) (s : c.S) : Prop := ∃ s0, FreshXof c s0 ∧ c.pr.update msg s0 = .ok s

namespace Properties
open Model Spec

private theorem construct_mk {c : HashClass} {mem s0 s : c.S} (hc : c.ctor mem = .ok (some s0)) (hi : c.pr.init s0 = .ok s) :
    c.construct mem = .ok (some s) := by
  unfold HashClass.construct
  rw [hc]
  change (c.pr.init s0).bind (fun s => Except.ok (some s)) = _
  rw [hi]
  rfl

private theorem construct_of {c : HashClass} {o : Option c.S} {mem s : c.S} (hc : c.ctor mem = .ok o) (h : c.construct mem = .ok (some s)) :
    ∃ s0, o = some s0 ∧ c.pr.init s0 = .ok s := by
  unfold HashClass.construct at h
  rw [hc] at h
  cases o with
  | none => exact absurd h (by intro h; cases h)
  | some s0 =>
    refine ⟨s0, rfl, ?_⟩
    change (c.pr.init s0).bind (fun s => Except.ok (some s)) = _ at h
    cases e : c.pr.init s0 with
    | error x => rw [e] at h; cases h
    | ok x => rw [e] at h; cases h; rfl

private theorem constructXof_of {c : XofClass} {s1 : c.S} {mem s : c.S} (hc : c.ctor mem = .ok (some s1)) (h : c.construct mem = .ok (some s)) :
    c.pr.init s1 = .ok s := by
  unfold XofClass.construct at h
  rw [hc] at h
  change (c.pr.init s1).bind (fun s => Except.ok (some s)) = _ at h
  cases e : c.pr.init s1 with
  | error x => rw [e] at h; cases h
  | ok x => rw [e] at h; cases h; rfl

private theorem of_if {α : Type} {p : Bool} {x y : α} (h : (if p = true then some x else none) = some y) : p = true ∧ y = x := by
  cases p
  · exact absurd h (by simp)
  · exact ⟨rfl, by simpa using h.symm⟩

/-! ### SHA-2 -/

/-- **C61**, SHA-224 and SHA-256. -/
theorem sha224_sha256_differ (s s' : Blk (Sha2.St 32)) (h : Fresh Sha2.sha224 s) (h' : Fresh Sha2.sha256 s') : s.h.H ≠ s'.h.H := by
  obtain ⟨mem, _, e⟩ := h
  obtain ⟨mem', _, e'⟩ := h'
  obtain ⟨s0, e0, e⟩ := construct_of (c := Sha2.sha224) rfl e
  obtain ⟨s0', e0', e'⟩ := construct_of (c := Sha2.sha256) rfl e'
  cases e0
  cases e0'
  cases e
  cases e'
  show ([0xc1059ed8, 0x367cd507, 0x3070dd17, 0xf70e5939, 0xffc00b31, 0x68581511, 0x64f98fa7, 0xbefa4fa4] : List (BitVec 32)) ≠
    [0x6a09e667, 0xbb67ae85, 0x3c6ef372, 0xa54ff53a, 0x510e527f, 0x9b05688c, 0x1f83d9ab, 0x5be0cd19]
  decide

example : ∃ s s', Fresh Sha2.sha224 s ∧ Fresh Sha2.sha256 s' :=
  ⟨_, _, ⟨⟨⟨[], 0⟩, List.replicate 64 9, 3, 4⟩, List.length_replicate, rfl⟩, ⟨⟨⟨[], 0⟩, List.replicate 64 9, 3, 4⟩, List.length_replicate, rfl⟩⟩

private theorem sha512_fresh {n : Nat} {s : Blk (Sha2.St 64)} (h : Fresh (Sha2.sha512 n) s) :
    (0 < n ∧ n % 8 = 0 ∧ n ≤ 512) ∧ s.h.H = Proofs.Sha2.arr (Proofs.Sha2.ivOf n) := by
  obtain ⟨mem, hm, e⟩ := h
  obtain ⟨s0, e0, e⟩ := construct_of (c := Sha2.sha512 n) rfl e
  obtain ⟨hv, rfl⟩ := of_if e0
  have hv := (Proofs.validateMax_iff _ _).1 hv
  refine ⟨hv, ?_⟩
  obtain ⟨s1, e1, a⟩ := Proofs.Sha2.init512_ok n hv.2.2 { mem with h := { mem.h with hs := n } } hm rfl
  have := e1.symm.trans e
  cases this
  rw [a.h]; rfl

/-- **C61**, SHA-512/t: different digest sizes start from different chaining values. -/
theorem sha512_differ (n n' : Nat) (hne : n ≠ n') (s s' : Blk (Sha2.St 64)) (h : Fresh (Sha2.sha512 n) s) (h' : Fresh (Sha2.sha512 n') s') :
    s.h.H ≠ s'.h.H := by
  obtain ⟨v, e⟩ := sha512_fresh h
  obtain ⟨v', e'⟩ := sha512_fresh h'
  rw [e, e']
  exact Proofs.Separate.ivOf_ne n n' v.2.1 v'.2.1 v.1 v'.1 v.2.2 v'.2.2 hne

example : ∃ s s', Fresh (Sha2.sha512 384) s ∧ Fresh (Sha2.sha512 512) s' ∧ s.h.H ≠ s'.h.H :=
  have a : Fresh (Sha2.sha512 384) (⟨⟨Sha2.iv384, 384⟩, List.replicate 128 9, 0, 0⟩ : Blk (Sha2.St 64)) :=
    ⟨⟨⟨[], 0⟩, List.replicate 128 9, 3, 4⟩, List.length_replicate, rfl⟩
  have b : Fresh (Sha2.sha512 512) (⟨⟨Sha2.iv512, 512⟩, List.replicate 128 9, 0, 0⟩ : Blk (Sha2.St 64)) :=
    ⟨⟨⟨[], 0⟩, List.replicate 128 9, 3, 4⟩, List.length_replicate, rfl⟩
  ⟨_, _, a, b, sha512_differ 384 512 (by decide) _ _ a b⟩

/-! ### Grøstl, ECHO, Streebog, BLAKE -/

/-- **C61**, Grøstl. -/
theorem groestl_differ (n n' : Nat) (hne : n ≠ n') (s s' : Blk Groestl.St) (h : Fresh (Groestl.groestl n) s) (h' : Fresh (Groestl.groestl n') s') :
    s.h.h ≠ s'.h.h := by
  obtain ⟨mem, _, e⟩ := h
  obtain ⟨mem', _, e'⟩ := h'
  obtain ⟨s0, e0, e⟩ := construct_of (c := Groestl.groestl n) rfl e
  obtain ⟨s0', e0', e'⟩ := construct_of (c := Groestl.groestl n') rfl e'
  obtain ⟨hv, rfl⟩ := of_if e0
  obtain ⟨hv', rfl⟩ := of_if e0'
  have hv := (Proofs.validateMax_iff _ _).1 hv
  have hv' := (Proofs.validateMax_iff _ _).1 hv'
  cases e
  cases e'
  have swap : ∀ x y : BitVec 64, byteswap64 x = byteswap64 y → x = y := fun x y h => by
    rw [← Proofs.byteswap64_byteswap64 x, h, Proofs.byteswap64_byteswap64]
  have at' : ∀ N i, i < 16 → ((List.replicate 16 (0 : BitVec 64)).set (if N > 256 then 15 else 7) (byteswap64 (BitVec.ofNat 64 N))).getD i 0 =
      if i = (if N > 256 then 15 else 7) then byteswap64 (BitVec.ofNat 64 N) else 0 := by
    intro N i hi
    rw [List.getD_eq_getElem?_getD, List.getElem?_set, List.length_replicate]
    by_cases h : (if N > 256 then 15 else 7) = i
    · rw [if_pos h, if_pos h.symm, if_pos (by rw [h]; exact hi)]; rfl
    · rw [if_neg h, if_neg (Ne.symm h), List.getElem?_replicate, if_pos hi]; rfl
  intro k
  have k := congrArg (fun x : List (BitVec 64) => x.getD (if n > 256 then 15 else 7) 0) k
  have k := (at' n _ (by split <;> omega)).symm.trans (k.trans (at' n' _ (by split <;> omega)))
  rw [if_pos rfl] at k
  have inj : ∀ m, m ≤ 512 → byteswap64 (BitVec.ofNat 64 n) = byteswap64 (BitVec.ofNat 64 m) → n = m := by
    intro m hm h
    have := congrArg BitVec.toNat (swap _ _ h)
    rw [BitVec.toNat_ofNat, BitVec.toNat_ofNat] at this
    omega
  by_cases h2 : (if n > 256 then 15 else 7) = (if n' > 256 then 15 else 7)
  · rw [if_pos h2] at k
    exact hne (inj n' hv'.2.2 k)
  · rw [if_neg h2] at k
    have := inj 0 (by omega) (k.trans (by decide))
    omega

example : ∃ s s', Fresh (Groestl.groestl 224) s ∧ Fresh (Groestl.groestl 256) s' :=
  ⟨_, _, ⟨⟨⟨List.replicate 16 1, 0⟩, List.replicate 128 9, 3, 4⟩, ⟨rfl, List.length_replicate⟩, rfl⟩,
    ⟨⟨⟨List.replicate 16 1, 0⟩, List.replicate 128 9, 3, 4⟩, ⟨rfl, List.length_replicate⟩, rfl⟩⟩

/-- **C61**, ECHO. -/
theorem echo_differ (n n' : Nat) (hne : n ≠ n') (s s' : Blk Echo.St) (h : Fresh (Echo.echo n) s) (h' : Fresh (Echo.echo n') s') :
    s.h.c ≠ s'.h.c := by
  obtain ⟨mem, _, e⟩ := h
  obtain ⟨mem', _, e'⟩ := h'
  obtain ⟨s0, e0, e⟩ := construct_of (c := Echo.echo n) rfl e
  obtain ⟨s0', e0', e'⟩ := construct_of (c := Echo.echo n') rfl e'
  obtain ⟨hv, rfl⟩ := of_if e0
  obtain ⟨hv', rfl⟩ := of_if e0'
  have hv := (Proofs.validateMax_iff _ _).1 hv
  have hv' := (Proofs.validateMax_iff _ _).1 hv'
  cases e
  cases e'
  have head : ∀ N, ((List.range (if N > 256 then 8 else 4)).flatMap fun _ => [BitVec.ofNat 64 N, (0 : BitVec 64)]).getD 0 0 = BitVec.ofNat 64 N := by
    intro N
    split <;> rfl
  intro k
  have k := congrArg (fun x : List (BitVec 64) => x.getD 0 0) k
  have k := (head n).symm.trans (k.trans (head n'))
  have := congrArg BitVec.toNat k
  rw [BitVec.toNat_ofNat, BitVec.toNat_ofNat] at this
  omega

example : ∃ s s', Fresh (Echo.echo 224) s ∧ Fresh (Echo.echo 256) s' :=
  ⟨_, _, ⟨⟨⟨List.replicate 8 1, [], 0⟩, List.replicate 192 9, 3, 4⟩, ⟨rfl, List.length_replicate⟩, rfl⟩,
    ⟨⟨⟨List.replicate 8 1, [], 0⟩, List.replicate 192 9, 3, 4⟩, ⟨rfl, List.length_replicate⟩, rfl⟩⟩

/-- **C61**, Streebog: 512 bits, against any other size. -/
theorem streebog_differ (n : Nat) (hne : n ≠ 512) (s s' : Blk Streebog.St) (h : Fresh (Streebog.streebog n) s) (h' : Fresh (Streebog.streebog 512) s') :
    s.h.h ≠ s'.h.h := by
  obtain ⟨mem, _, e⟩ := h
  obtain ⟨mem', _, e'⟩ := h'
  obtain ⟨s0, e0, e⟩ := construct_of (c := Streebog.streebog n) rfl e
  obtain ⟨s0', e0', e'⟩ := construct_of (c := Streebog.streebog 512) rfl e'
  obtain ⟨hv, rfl⟩ := of_if e0
  obtain ⟨hv', rfl⟩ := of_if e0'
  cases e
  cases e'
  show loads64 8 (List.replicate 64 (if n = 512 then 0 else 1)) ≠ loads64 8 (List.replicate 64 0)
  rw [if_neg hne]
  decide +kernel

example : ∃ s s', Fresh (Streebog.streebog 256) s ∧ Fresh (Streebog.streebog 512) s' :=
  ⟨_, _, ⟨⟨⟨List.replicate 8 1, List.replicate 8 2, 0⟩, List.replicate 64 9, 3, 4⟩, ⟨rfl, rfl, List.length_replicate⟩, rfl⟩,
    ⟨⟨⟨List.replicate 8 1, List.replicate 8 2, 0⟩, List.replicate 64 9, 3, 4⟩, ⟨rfl, rfl, List.length_replicate⟩, rfl⟩⟩

/-- **C61**, BLAKE: the pairs of sizes sharing a compression function. -/
theorem blake_differ (s s' : Blk Blake.St) :
    (Fresh (Blake.blake 224) s → Fresh (Blake.blake 256) s' → s.h.H256.take 8 ≠ s'.h.H256.take 8) ∧
    (Fresh (Blake.blake 384) s → Fresh (Blake.blake 512) s' → s.h.H512.take 8 ≠ s'.h.H512.take 8) := by
  constructor <;> intro h h'
  · obtain ⟨mem, _, e⟩ := h
    obtain ⟨mem', _, e'⟩ := h'
    obtain ⟨s0, e0, e⟩ := construct_of (c := Blake.blake 224) rfl e
    obtain ⟨s0', e0', e'⟩ := construct_of (c := Blake.blake 256) rfl e'
    obtain ⟨hv, rfl⟩ := of_if e0
    obtain ⟨hv', rfl⟩ := of_if e0'
    cases e
    cases e'
    show ([0xC1059ED8, 0x367CD507, 0x3070DD17, 0xF70E5939, 0xFFC00B31, 0x68581511, 0x64F98FA7, 0xBEFA4FA4] : List (BitVec 32)) ≠ [0x6a09e667, 0xbb67ae85, 0x3c6ef372, 0xa54ff53a, 0x510e527f, 0x9b05688c, 0x1f83d9ab, 0x5be0cd19]
    decide
  · obtain ⟨mem, _, e⟩ := h
    obtain ⟨mem', _, e'⟩ := h'
    obtain ⟨s0, e0, e⟩ := construct_of (c := Blake.blake 384) rfl e
    obtain ⟨s0', e0', e'⟩ := construct_of (c := Blake.blake 512) rfl e'
    obtain ⟨hv, rfl⟩ := of_if e0
    obtain ⟨hv', rfl⟩ := of_if e0'
    cases e
    cases e'
    show ([0xcbbb9d5dc1059ed8, 0x629a292a367cd507, 0x9159015a3070dd17, 0x152fecd8f70e5939, 0x67332667ffc00b31, 0x8eb44a8768581511, 0xdb0c2e0d64f98fa7, 0x47b5481dbefa4fa4] : List (BitVec 64)) ≠ [0x6A09E667F3BCC908, 0xBB67AE8584CAA73B, 0x3C6EF372FE94F82B, 0xA54FF53A5F1D36F1, 0x510E527FADE682D1, 0x9B05688C2B3E6C1F, 0x1F83D9ABFB41BD6B, 0x5BE0CD19137E2179]
    decide

example : ∃ s s', Fresh (Blake.blake 384) s ∧ Fresh (Blake.blake 512) s' :=
  ⟨_, _, ⟨⟨⟨[], [], 0⟩, List.replicate 128 9, 3, 4⟩, List.length_replicate, rfl⟩, ⟨⟨⟨[], [], 0⟩, List.replicate 128 9, 3, 4⟩, List.length_replicate, rfl⟩⟩

/-! ### JH and LSH: the states stay different -/

private theorem jh_fresh {n : Nat} {s : Blk Jh.St} (h : Fresh (Jh.jh n) s) : (0 < n ∧ n % 8 = 0 ∧ n ≤ 512) ∧ Proofs.Jh.Abs n [] s := by
  obtain ⟨mem, hm, e⟩ := h
  obtain ⟨s0, e0, e⟩ := construct_of (c := Jh.jh n) rfl e
  obtain ⟨hv, rfl⟩ := of_if e0
  have hv := (Proofs.validateMax_iff _ _).1 hv
  refine ⟨hv, ?_⟩
  obtain ⟨s1, e1, a⟩ := Proofs.Jh.init_ok n hv.2.2 { mem with h := { mem.h with hs := n } } hm.2 rfl
  have := e1.symm.trans e
  cases this
  exact a

private theorem jh_absorbed {n : Nat} {s : Blk Jh.St} {msg : Bytes} (hl : msg.length < 2 ^ 63) (h : Absorbed (Jh.jh n) msg s) :
    (0 < n ∧ n % 8 = 0 ∧ n ≤ 512) ∧ Proofs.Jh.Abs n msg s := by
  obtain ⟨s0, h0, e⟩ := h
  obtain ⟨v, a⟩ := jh_fresh h0
  refine ⟨v, ?_⟩
  obtain ⟨s1, e1, a1⟩ := Proofs.Jh.update_ok n [] msg s0 a hl
  have := e1.symm.trans e
  cases this
  exact a1

/-- The bits that distinguish the initial blocks of JH. -/
private theorem jh_start (n n' : Nat) (hn : n ≤ 512) (hn' : n' ≤ 512) (hne : n ≠ n') :
    Proofs.Jh.arr (Spec.Jh.bitsOf (beBytes 2 n)) ≠ Proofs.Jh.arr (Spec.Jh.bitsOf (beBytes 2 n')) := by
  rw [← Proofs.Jh.init_arr n hn, ← Proofs.Jh.init_arr n' hn']
  intro e
  have back : ∀ N, N ≤ 512 → (byteswap16 (BitVec.setWidth 16 (BitVec.setWidth 64 (byteswap16 (BitVec.ofNat 16 N))))).toNat = N := by decide +kernel
  have e : BitVec.setWidth 64 (byteswap16 (BitVec.ofNat 16 n)) = BitVec.setWidth 64 (byteswap16 (BitVec.ofNat 16 n')) :=
    congrArg (fun x : List (BitVec 64) => x.getD 0 0) e
  exact hne (by rw [← back n hn, e, back n' hn'])

private theorem jh_fold (n n' : Nat) (msg : Bytes) (k : Nat) (A A' : Spec.Jh.Bits) (h : Proofs.Jh.arr A ≠ Proofs.Jh.arr A') :
    (foldBlocks 64 (fun _ b h => Proofs.Jh.step b h) msg k (Proofs.Jh.st n A)).H ≠ (foldBlocks 64 (fun _ b h => Proofs.Jh.step b h) msg k (Proofs.Jh.st n' A')).H := by
  unfold foldBlocks
  generalize List.range k = l
  induction l generalizing A A' with
  | nil => exact h
  | cons i l ih =>
    rw [List.foldl_cons, List.foldl_cons]
    dsimp only
    rw [Proofs.Jh.step_st, Proofs.Jh.step_st]
    refine ih _ _ ?_
    rw [← Proofs.Jh.compress_eq, ← Proofs.Jh.compress_eq]
    intro e
    exact h ((jh_permutes _).2.inj _ _ (by simp [Proofs.Jh.arr]) (by simp [Proofs.Jh.arr]) e)

/-- **C61**, JH: after any common message the chaining values are different. -/
theorem jh_differ (n n' : Nat) (hne : n ≠ n') (msg : Bytes) (hl : msg.length < 2 ^ 63) (s s' : Blk Jh.St) (h : Absorbed (Jh.jh n) msg s)
    (h' : Absorbed (Jh.jh n') msg s') : s.h.H ≠ s'.h.H := by
  obtain ⟨v, a⟩ := jh_absorbed hl h
  obtain ⟨v', a'⟩ := jh_absorbed hl h'
  rw [a.h, a'.h]
  refine jh_fold n n' msg _ _ _ ?_
  unfold Proofs.Jh.ivN
  rw [← Proofs.Jh.bitsOf_zero 64, ← Proofs.Jh.compress_eq, ← Proofs.Jh.compress_eq]
  intro e
  exact jh_start n n' v.2.2 v'.2.2 hne ((jh_permutes _).2.inj _ _ (by simp [Proofs.Jh.arr]) (by simp [Proofs.Jh.arr]) e)

example : ∃ s s', Absorbed (Jh.jh 224) (List.replicate 100 7) s ∧ Absorbed (Jh.jh 256) (List.replicate 100 7) s' ∧ s.h.H ≠ s'.h.H := by
  have a : ∀ n, 0 < n → n % 8 = 0 → n ≤ 512 → ∃ s, Absorbed (Jh.jh n) (List.replicate 100 7) s := by
    intro n h1 h2 h3
    obtain ⟨s, e, b⟩ := Proofs.Jh.init_ok n h3 ⟨⟨List.replicate 16 1, n⟩, List.replicate 64 9, 3, 4⟩ List.length_replicate rfl
    obtain ⟨t, e', _⟩ := Proofs.Jh.update_ok n [] (List.replicate 100 7) s b (by rw [List.length_replicate]; decide)
    refine ⟨t, s, ⟨⟨⟨List.replicate 16 1, 0⟩, List.replicate 64 9, 3, 4⟩, ⟨rfl, List.length_replicate⟩, ?_⟩, e'⟩
    exact construct_mk (c := Jh.jh n) (congrArg Except.ok (if_pos ((Proofs.validateMax_iff _ _).2 ⟨h1, h2, h3⟩))) e
  obtain ⟨s, h⟩ := a 224 (by decide) (by decide) (by decide)
  obtain ⟨s', h'⟩ := a 256 (by decide) (by decide) (by decide)
  exact ⟨s, s', h, h', jh_differ 224 256 (by decide) _ (by rw [List.length_replicate]; decide) s s' h h'⟩

private theorem lsh_fresh {w : Nat} {T : Lsh.Word w} {F : Spec.Lsh.Family w} (ok : Proofs.Lsh.Ok T F) {n : Nat} {s : Blk (Lsh.St w)}
    (h : Fresh (Lsh.lsh rotlMasked T n) s) : (0 < n ∧ n % 8 = 0 ∧ n ≤ 8 * w) ∧ Proofs.Lsh.Abs T F n [] s := by
  obtain ⟨mem, hm, e⟩ := h
  obtain ⟨s0, e0, e⟩ := construct_of (c := Lsh.lsh rotlMasked T n) rfl e
  obtain ⟨hv, rfl⟩ := of_if e0
  have hv := (Proofs.validateMax_iff _ _).1 hv
  refine ⟨hv, ?_⟩
  obtain ⟨s1, e1, a⟩ := Proofs.Lsh.init_ok ok n { mem with h := { mem.h with hs := n } } hm.2 rfl
  have := e1.symm.trans e
  cases this
  exact a

private theorem lsh_fold {w : Nat} {T : Lsh.Word w} {F : Spec.Lsh.Family w} (ok : Proofs.Lsh.Ok T F) (n n' : Nat) (msg : Bytes) (k : Nat)
    (hk : k * (4 * w) ≤ msg.length) (h h' : Lsh.St w) (f f' : Nat → BitVec w) (hf : Proofs.Lsh.Holds n h f) (hf' : Proofs.Lsh.Holds n' h' f')
    (hne : ¬ ∀ l, l < 16 → f l = f' l) :
    (foldBlocks (4 * w) (fun _ b h => Proofs.Lsh.stp T b h) msg k h).cv ≠ (foldBlocks (4 * w) (fun _ b h => Proofs.Lsh.stp T b h) msg k h').cv := by
  have main : ∃ g g', Proofs.Lsh.Holds n (foldBlocks (4 * w) (fun _ b h => Proofs.Lsh.stp T b h) msg k h) g ∧
      Proofs.Lsh.Holds n' (foldBlocks (4 * w) (fun _ b h => Proofs.Lsh.stp T b h) msg k h') g' ∧ ¬ ∀ l, l < 16 → g l = g' l := by
    unfold foldBlocks
    induction k with
    | zero => exact ⟨f, f', hf, hf', hne⟩
    | succ k ih =>
      obtain ⟨g, g', hg, hg', hd⟩ := ih (by rw [Nat.succ_mul] at hk; omega)
      rw [List.range_succ, List.foldl_append, List.foldl_append]
      have hb : (blockAt (4 * w) k msg).length = 4 * w := by
        unfold blockAt
        rw [Nat.succ_mul] at hk
        rw [List.length_take, List.length_drop]
        omega
      refine ⟨_, _, (Proofs.Lsh.stp_eq ok n _ hb _ g hg).2, (Proofs.Lsh.stp_eq ok n' _ hb _ g' hg').2, fun e => ?_⟩
      exact hd (Proofs.Perm.Lsh.CF_inj F _ g g' e)
  obtain ⟨g, g', hg, hg', hd⟩ := main
  rw [hg.1, hg'.1]
  intro e
  apply hd
  intro l hl
  have := congrArg (fun x : List (BitVec w) => x.getD l 0) e
  unfold Proofs.Lsh.arr at this
  simpa only [Proofs.getD_map_range _ _ _ _ hl] using this

private theorem lsh_differ_of {w : Nat} {T : Lsh.Word w} {F : Spec.Lsh.Family w} (ok : Proofs.Lsh.Ok T F) (hw : 8 * w < 2 ^ w) (n n' : Nat) (hne : n ≠ n')
    (msg : Bytes) (hl : msg.length < 2 ^ 63) (s s' : Blk (Lsh.St w)) (h : Absorbed (Lsh.lsh rotlMasked T n) msg s)
    (h' : Absorbed (Lsh.lsh rotlMasked T n') msg s') : s.h.cv ≠ s'.h.cv := by
  obtain ⟨s0, h0, e⟩ := h
  obtain ⟨s0', h0', e'⟩ := h'
  obtain ⟨v, a⟩ := lsh_fresh ok h0
  obtain ⟨v', a'⟩ := lsh_fresh ok h0'
  obtain ⟨s1, e1, g, hg, b⟩ := Proofs.Lsh.update_ok ok n [] msg s0 a hl
  obtain ⟨s1', e1', g', hg', b'⟩ := Proofs.Lsh.update_ok ok n' [] msg s0' a' hl
  have := e1.symm.trans e
  cases this
  have := e1'.symm.trans e'
  cases this
  rw [b.h, b'.h]
  refine lsh_fold ok n n' _ _ ?_ _ _ _ _ hg hg' fun e => ?_
  · have := Nat.div_mul_le_self (([] ++ msg).length - 0) (4 * w)
    omega
  · have := Proofs.Perm.Lsh.CF_inj F _ _ _ e 1 (by omega)
    have : BitVec.ofNat w n = BitVec.ofNat w n' := this
    have := congrArg BitVec.toNat this
    rw [BitVec.toNat_ofNat, BitVec.toNat_ofNat, Nat.mod_eq_of_lt (by omega), Nat.mod_eq_of_lt (by omega)] at this
    exact hne this

/-- **C61**, LSH (on machines that reduce shift counts, as for C22): after any common message the chaining values are different. -/
theorem lsh_differ (n n' : Nat) (hne : n ≠ n') (msg : Bytes) (hl : msg.length < 2 ^ 63) :
    (∀ s s' : Blk (Lsh.St 32), Absorbed (Lsh.lsh rotlMasked Lsh.u32 n) msg s → Absorbed (Lsh.lsh rotlMasked Lsh.u32 n') msg s' → s.h.cv ≠ s'.h.cv) ∧
    ∀ s s' : Blk (Lsh.St 64), Absorbed (Lsh.lsh rotlMasked Lsh.u64 n) msg s → Absorbed (Lsh.lsh rotlMasked Lsh.u64 n') msg s' → s.h.cv ≠ s'.h.cv :=
  ⟨fun s s' => lsh_differ_of Proofs.Lsh.ok32 (by decide) n n' hne msg hl s s', fun s s' => lsh_differ_of Proofs.Lsh.ok64 (by decide) n n' hne msg hl s s'⟩

example : ∃ s s', Absorbed (Lsh.lsh rotlMasked Lsh.u64 384) (List.replicate 300 7) s ∧ Absorbed (Lsh.lsh rotlMasked Lsh.u64 512) (List.replicate 300 7) s' ∧
    s.h.cv ≠ s'.h.cv := by
  have a : ∀ n, 0 < n → n % 8 = 0 → n ≤ 512 → ∃ s, Absorbed (Lsh.lsh rotlMasked Lsh.u64 n) (List.replicate 300 7) s := by
    intro n h1 h2 h3
    obtain ⟨s, e, b⟩ := Proofs.Lsh.init_ok Proofs.Lsh.ok64 n ⟨⟨List.replicate 16 1, [], [], n⟩, List.replicate 256 9, 3, 4⟩ List.length_replicate rfl
    obtain ⟨t, e', _⟩ := Proofs.Lsh.update_ok Proofs.Lsh.ok64 n [] (List.replicate 300 7) s b (by rw [List.length_replicate]; decide)
    refine ⟨t, s, ⟨⟨⟨List.replicate 16 1, [], [], 0⟩, List.replicate 256 9, 3, 4⟩, ⟨rfl, List.length_replicate⟩, ?_⟩, e'⟩
    exact construct_mk (c := Lsh.lsh rotlMasked Lsh.u64 n) (congrArg Except.ok (if_pos ((Proofs.validateMax_iff _ _).2 ⟨h1, h2, h3⟩))) e
  obtain ⟨s, h⟩ := a 384 (by decide) (by decide) (by decide)
  obtain ⟨s', h'⟩ := a 512 (by decide) (by decide) (by decide)
  exact ⟨s, s', h, h', (lsh_differ 384 512 (by decide) _ (by rw [List.length_replicate]; decide)).2 s s' h h'⟩

/-! ### BLAKE2 -/

private theorem blake2_init {w : Nat} (T : Blake2.Word w) (kind : Blake2.Kind) (n : Nat) (mem s : Blk (Blake2.St w))
    (h : Blake2.init T kind (Blake2.fields n mem) = .ok s) :
    s.h.H = Blake2.initSalt [0, 0] [0, 0] (Blake2.xorAt (Blake2.initLen kind n (Blake2.initH T 0)) 0 (BitVec.ofNat w 0)) := by
  unfold Blake2.init at h
  dsimp only at h
  rw [if_pos (Or.inl (show (Blake2.fields n mem).h.fanout = 0 from rfl))] at h
  unfold Blake2.absorbKey at h
  rw [if_pos (show (Blake2.fields n mem).h.k = [] from rfl)] at h
  have h := Except.ok.inj h
  rw [← h]
  show Blake2.initial T kind (Blake2.fields n mem).h = _
  unfold Blake2.initial Blake2.initTree
  rw [if_neg (fun h => h (show (Blake2.fields n mem).h.fanout = 0 from rfl))]
  show Blake2.initSalt [0, 0] [0, 0] (Blake2.xorAt (Blake2.initLen kind n (Blake2.initH T 0)) 0 (BitVec.ofNat w (0 * 256))) = _
  rw [Nat.zero_mul]

private theorem blake2_fresh {w : Nat} {T : Blake2.Word w} {kind : Blake2.Kind} {n : Nat} {s : Blk (Blake2.St w)} (h : Fresh (Blake2.blake2 T kind n) s) :
    (0 < n ∧ n % 8 = 0 ∧ n ≤ Blake2.limit w kind) ∧
      s.h.H = Blake2.initSalt [0, 0] [0, 0] (Blake2.xorAt (Blake2.initLen kind n (Blake2.initH T 0)) 0 (BitVec.ofNat w 0)) := by
  obtain ⟨mem, hm, e⟩ := h
  obtain ⟨s0, e0, e⟩ := construct_of (c := Blake2.blake2 T kind n) rfl e
  obtain ⟨hv, rfl⟩ := of_if e0
  have hv := (Proofs.validateMax_iff _ _).1 hv
  exact ⟨hv, blake2_init T kind n mem s e⟩

private theorem blake2xof_fresh {w : Nat} {T : Blake2.Word w} {s : Blk (Blake2.St w)} (h : FreshXof (Blake2.blake2xof T) s) :
    s.h.H = Blake2.initSalt [0, 0] [0, 0] (Blake2.xorAt (Blake2.initLen .xof (8 * w) (Blake2.initH T 0)) 0 (BitVec.ofNat w 0)) := by
  obtain ⟨mem, hm, e⟩ := h
  exact blake2_init T .xof (8 * w) mem s (constructXof_of (c := Blake2.blake2xof T) rfl e)

/-- The first words of the chaining value of BLAKE2b and BLAKE2Xb. -/
private theorem b_words (kind : Blake2.Kind) (n : Nat) (H : List (BitVec 64))
    (h : H = Blake2.initSalt [0, 0] [0, 0] (Blake2.xorAt (Blake2.initLen kind n (Blake2.initH Blake2.u64 0)) 0 (BitVec.ofNat 64 0))) :
    H.getD 0 0 = 0x6A09E667F3BCC908#64 ^^^ 0x01010000 ^^^ BitVec.ofNat 64 (if kind = .hash then n / 8 else 64) ^^^ 0 ∧
    H.getD 1 0 = 0xBB67AE8584CAA73B#64 ^^^ BitVec.ofNat 64 (if kind = .hash then 0 else if kind = .xHash then n / 8 else 0xffffffff) <<< 32 := by
  subst h
  cases kind
  · exact ⟨rfl, show (0xBB67AE8584CAA73B#64) = 0xBB67AE8584CAA73B#64 ^^^ BitVec.ofNat 64 0 <<< 32 by decide⟩
  · exact ⟨rfl, rfl⟩
  · exact ⟨rfl, rfl⟩

/-- The same of BLAKE2s and BLAKE2Xs. -/
private theorem s_words (kind : Blake2.Kind) (n : Nat) (H : List (BitVec 32))
    (h : H = Blake2.initSalt [0, 0] [0, 0] (Blake2.xorAt (Blake2.initLen kind n (Blake2.initH Blake2.u32 0)) 0 (BitVec.ofNat 32 0))) :
    H.getD 0 0 = 0x6A09E667#32 ^^^ 0x01010000 ^^^ BitVec.ofNat 32 (if kind = .hash then n / 8 else 32) ^^^ 0 ∧
    H.getD 3 0 = 0xA54FF53A#32 ^^^ BitVec.ofNat 32 (if kind = .hash then 0 else if kind = .xHash then n / 8 else 0xffff) := by
  subst h
  cases kind
  · exact ⟨rfl, show (0xA54FF53A#32) = 0xA54FF53A#32 ^^^ BitVec.ofNat 32 0 by decide⟩
  · exact ⟨rfl, rfl⟩
  · exact ⟨rfl, rfl⟩

private theorem ofNat_inj {w a b : Nat} (ha : a < 2 ^ w) (hb : b < 2 ^ w) (h : BitVec.ofNat w a = BitVec.ofNat w b) : a = b := by
  have := congrArg BitVec.toNat h
  rwa [BitVec.toNat_ofNat, BitVec.toNat_ofNat, Nat.mod_eq_of_lt ha, Nat.mod_eq_of_lt hb] at this

private theorem first_inj {w a b : Nat} (x y z : BitVec w) (ha : a < 2 ^ w) (hb : b < 2 ^ w)
    (h : x ^^^ y ^^^ BitVec.ofNat w a ^^^ z = x ^^^ y ^^^ BitVec.ofNat w b ^^^ z) : a = b :=
  ofNat_inj ha hb ((BitVec.xor_right_inj _).1 ((BitVec.xor_left_inj _).1 h))

/-- The digest length of a fixed-length kind, or the output length of an extendable one, in bytes. -/
private def lenOf (unknown : Nat) (kind : Blake2.Kind) (n : Nat) : Nat := if kind = .hash then 0 else if kind = .xHash then n / 8 else unknown

private theorem b_differ (kind kind' : Blake2.Kind) (n n' : Nat) (H : List (BitVec 64))
    (h : H = Blake2.initSalt [0, 0] [0, 0] (Blake2.xorAt (Blake2.initLen kind n (Blake2.initH Blake2.u64 0)) 0 (BitVec.ofNat 64 0)))
    (h' : H = Blake2.initSalt [0, 0] [0, 0] (Blake2.xorAt (Blake2.initLen kind' n' (Blake2.initH Blake2.u64 0)) 0 (BitVec.ofNat 64 0)))
    (v : n < 2 ^ 30) (v' : n' < 2 ^ 30) :
    (if kind = .hash then n / 8 else 64) = (if kind' = .hash then n' / 8 else 64) ∧ lenOf 0xffffffff kind n = lenOf 0xffffffff kind' n' := by
  have k := b_words kind n H h
  have k' := b_words kind' n' H h'
  constructor
  · refine first_inj _ _ _ ?_ ?_ (k.1.symm.trans k'.1)
    · split <;> omega
    · split <;> omega
  · have e := (BitVec.xor_right_inj _).1 (k.2.symm.trans k'.2)
    change BitVec.ofNat 64 (lenOf 0xffffffff kind n) <<< 32 = BitVec.ofNat 64 (lenOf 0xffffffff kind' n') <<< 32 at e
    have b : lenOf 0xffffffff kind n < 2 ^ 32 := by unfold lenOf; split <;> [omega; (split <;> omega)]
    have b' : lenOf 0xffffffff kind' n' < 2 ^ 32 := by unfold lenOf; split <;> [omega; (split <;> omega)]
    generalize lenOf 0xffffffff kind n = a at *
    generalize lenOf 0xffffffff kind' n' = a' at *
    have e := congrArg BitVec.toNat e
    rw [BitVec.toNat_shiftLeft, BitVec.toNat_shiftLeft, BitVec.toNat_ofNat, BitVec.toNat_ofNat, Nat.shiftLeft_eq, Nat.shiftLeft_eq] at e
    omega

private theorem s_differ (kind kind' : Blake2.Kind) (n n' : Nat) (H : List (BitVec 32))
    (h : H = Blake2.initSalt [0, 0] [0, 0] (Blake2.xorAt (Blake2.initLen kind n (Blake2.initH Blake2.u32 0)) 0 (BitVec.ofNat 32 0)))
    (h' : H = Blake2.initSalt [0, 0] [0, 0] (Blake2.xorAt (Blake2.initLen kind' n' (Blake2.initH Blake2.u32 0)) 0 (BitVec.ofNat 32 0)))
    (v : n < 2 ^ 16) (v' : n' < 2 ^ 16) :
    (if kind = .hash then n / 8 else 32) = (if kind' = .hash then n' / 8 else 32) ∧ lenOf 0xffff kind n = lenOf 0xffff kind' n' := by
  have k := s_words kind n H h
  have k' := s_words kind' n' H h'
  constructor
  · refine first_inj _ _ _ ?_ ?_ (k.1.symm.trans k'.1)
    · split <;> omega
    · split <;> omega
  · refine ofNat_inj ?_ ?_ ((BitVec.xor_right_inj _).1 (k.2.symm.trans k'.2))
    · unfold lenOf; split <;> [omega; (split <;> omega)]
    · unfold lenOf; split <;> [omega; (split <;> omega)]

private theorem limit64 (kind : Blake2.Kind) : Blake2.limit 64 kind ≤ 16368 := by cases kind <;> decide
private theorem limit32 (kind : Blake2.Kind) : Blake2.limit 32 kind ≤ 4080 := by cases kind <;> decide

/-- **C61**, BLAKE2b and BLAKE2Xb: different kinds, and different sizes of a kind, start from different chaining values. -/
theorem blake2b_differ (kind kind' : Blake2.Kind) (hk : kind ≠ .xof) (hk' : kind' ≠ .xof) (n n' : Nat) (hne : (kind, n) ≠ (kind', n'))
    (s s' s'' : Blk (Blake2.St 64)) (h : Fresh (Blake2.blake2 Blake2.u64 kind n) s) (h' : Fresh (Blake2.blake2 Blake2.u64 kind' n') s')
    (h'' : FreshXof (Blake2.blake2xof Blake2.u64) s'') : s.h.H ≠ s'.h.H ∧ s.h.H ≠ s''.h.H := by
  obtain ⟨v, e⟩ := blake2_fresh h
  obtain ⟨v', e'⟩ := blake2_fresh h'
  have e'' := blake2xof_fresh h''
  have l := limit64 kind
  have l' := limit64 kind'
  constructor
  · intro k
    obtain ⟨a, b⟩ := b_differ kind kind' n n' s.h.H e (k.trans e') (by omega) (by omega)
    apply hne
    unfold lenOf at b
    cases kind <;> cases kind' <;> simp at a b hk hk' ⊢ <;> omega
  · intro k
    obtain ⟨a, b⟩ := b_differ kind .xof n _ s.h.H e (k.trans e'') (by omega) (by omega)
    unfold lenOf at b
    cases kind <;> simp at a b hk <;> omega

example : ∃ s s', Fresh (Blake2.blake2 Blake2.u64 .hash 512) s ∧ Fresh (Blake2.blake2 Blake2.u64 .xHash 512) s' := by
  refine ⟨_, _, ⟨⟨⟨[], [], [], [], 0, 0, true, 1, 2, 3⟩, List.replicate 128 9, 3, 4⟩, List.length_replicate, rfl⟩,
    ⟨⟨⟨[], [], [], [], 0, 0, true, 1, 2, 3⟩, List.replicate 128 9, 3, 4⟩, List.length_replicate, rfl⟩⟩

/-- **C61**, BLAKE2s and BLAKE2Xs. -/
theorem blake2s_differ (kind kind' : Blake2.Kind) (hk : kind ≠ .xof) (hk' : kind' ≠ .xof) (n n' : Nat) (hne : (kind, n) ≠ (kind', n'))
    (s s' s'' : Blk (Blake2.St 32)) (h : Fresh (Blake2.blake2 Blake2.u32 kind n) s) (h' : Fresh (Blake2.blake2 Blake2.u32 kind' n') s')
    (h'' : FreshXof (Blake2.blake2xof Blake2.u32) s'') : s.h.H ≠ s'.h.H ∧ s.h.H ≠ s''.h.H := by
  obtain ⟨v, e⟩ := blake2_fresh h
  obtain ⟨v', e'⟩ := blake2_fresh h'
  have e'' := blake2xof_fresh h''
  have l := limit32 kind
  have l' := limit32 kind'
  constructor
  · intro k
    obtain ⟨a, b⟩ := s_differ kind kind' n n' s.h.H e (k.trans e') (by omega) (by omega)
    apply hne
    unfold lenOf at b
    cases kind <;> cases kind' <;> simp at a b hk hk' ⊢ <;> omega
  · intro k
    obtain ⟨a, b⟩ := s_differ kind .xof n _ s.h.H e (k.trans e'') (by omega) (by omega)
    unfold lenOf at b
    cases kind <;> simp at a b hk <;> omega

example : ∃ s s', Fresh (Blake2.blake2 Blake2.u32 .hash 256) s ∧ Fresh (Blake2.blake2 Blake2.u32 .hash 128) s' := by
  refine ⟨_, _, ⟨⟨⟨[], [], [], [], 0, 0, true, 1, 2, 3⟩, List.replicate 64 9, 3, 4⟩, List.length_replicate, rfl⟩,
    ⟨⟨⟨[], [], [], [], 0, 0, true, 1, 2, 3⟩, List.replicate 64 9, 3, 4⟩, List.length_replicate, rfl⟩⟩

/-! ### Ascon -/

private theorem ascon_block (b : Bytes) (A B : Spec.Ascon.State) (h : Spec.Ascon.absorbBlock b A = Spec.Ascon.absorbBlock b B) : A = B := by
  have := Proofs.Perm.Ascon.p12_inj _ _ h
  obtain ⟨a0, a1, a2, a3, a4⟩ := A
  obtain ⟨b0, b1, b2, b3, b4⟩ := B
  simpa using this

private theorem ascon_fold (msg : Bytes) (k : Nat) (A B : Spec.Ascon.State) (h : A ≠ B) :
    foldBlocks 8 (fun _ => Spec.Ascon.absorbBlock) msg k A ≠ foldBlocks 8 (fun _ => Spec.Ascon.absorbBlock) msg k B := by
  unfold foldBlocks
  generalize List.range k = l
  induction l generalizing A B with
  | nil => exact h
  | cons i l ih =>
    rw [List.foldl_cons, List.foldl_cons]
    exact ih _ _ fun e => h (ascon_block _ _ _ e)

/-- The state of a constructed object that has absorbed no message. -/
private def asconStart (k : Ascon.Kind) : Spec.Ascon.State := Spec.Ascon.absorb (Proofs.Ascon.s0 k) (Proofs.Ascon.prefixOf k [])

private theorem ascon_raw (k : Ascon.Kind) (msg : Bytes) (s : Blk Ascon.St)
    (h : Proofs.Ascon.Absorbing (Proofs.Ascon.s0 k) [] (Proofs.Ascon.prefixOf k [] ++ msg) s) :
    s.h.H = Proofs.Ascon.arr (foldBlocks 8 (fun _ => Spec.Ascon.absorbBlock) msg (msg.length / 8) (asconStart k)) := by
  have hp : (Proofs.Ascon.prefixOf k []).length % 8 = 0 := by
    cases k
    · rfl
    · rfl
    · exact Proofs.Ascon.length_pre []
  rw [h.h, Proofs.Ascon.fold_eq _ _ _ _ _ (by omega)]
  show Proofs.Ascon.arr _ = _
  rw [List.length_append, show ((Proofs.Ascon.prefixOf k []).length + msg.length - 0) / 8 = (Proofs.Ascon.prefixOf k []).length / 8 + msg.length / 8 by omega,
    Proofs.foldBlocks_add 8 _ _ _ _ _ (by omega)]
  rfl

private theorem arr_inj {A B : Spec.Ascon.State} (h : Proofs.Ascon.arr A = Proofs.Ascon.arr B) : A = B := by
  obtain ⟨a0, a1, a2, a3, a4⟩ := A
  obtain ⟨b0, b1, b2, b3, b4⟩ := B
  simpa [Proofs.Ascon.arr] using h

private theorem ascon_starts : (asconStart .hash).s0 ≠ (asconStart .xof).s0 ∧ (asconStart .hash).s0 ≠ (asconStart .cxof).s0 ∧
    (asconStart .xof).s0 ≠ (asconStart .cxof).s0 := by
  decide +kernel

private theorem ascon_pair {k k' : Ascon.Kind} (hne : (asconStart k).s0 ≠ (asconStart k').s0) {msg : Bytes} {s s' : Blk Ascon.St}
    (h : Proofs.Ascon.Absorbing (Proofs.Ascon.s0 k) [] (Proofs.Ascon.prefixOf k [] ++ msg) s)
    (h' : Proofs.Ascon.Absorbing (Proofs.Ascon.s0 k') [] (Proofs.Ascon.prefixOf k' [] ++ msg) s') : s.h.H ≠ s'.h.H := by
  rw [ascon_raw k msg s h, ascon_raw k' msg s' h']
  exact fun e => ascon_fold msg _ _ _ (fun e => hne (by rw [e])) (arr_inj e)

private theorem ascon_state {k : Ascon.Kind} {msg : Bytes} (hl : msg.length < 2 ^ 63) {mem s0 s : Blk Ascon.St} (hm : Ascon.Mem mem)
    (e : Ascon.init k (Ascon.new mem) = .ok s0) (e' : Ascon.update msg s0 = .ok s) :
    Proofs.Ascon.Absorbing (Proofs.Ascon.s0 k) [] (Proofs.Ascon.prefixOf k [] ++ msg) s := by
  obtain ⟨s1, e1, a⟩ := Proofs.Ascon.init_ok k [] (Ascon.new mem) hm.2 rfl (by decide)
  have := e1.symm.trans e
  cases this
  obtain ⟨s2, e2, a2⟩ := Proofs.Ascon.update_ok msg a hl
  have := e2.symm.trans e'
  cases this
  exact a2

/-- **C61**, Ascon-Hash256, Ascon-XOF128 and Ascon-CXOF128 without customization: after any common message the states are different. -/
theorem ascon_differ (msg : Bytes) (hl : msg.length < 2 ^ 63) (s s' s'' : Blk Ascon.St) (h : Absorbed Ascon.asconHash msg s)
    (h' : AbsorbedXof Ascon.asconXof msg s') (h'' : AbsorbedXof Ascon.asconCxof msg s'') :
    s.h.H ≠ s'.h.H ∧ s.h.H ≠ s''.h.H ∧ s'.h.H ≠ s''.h.H := by
  obtain ⟨s0, ⟨mem, hm, e⟩, u⟩ := h
  obtain ⟨s0', ⟨mem', hm', e'⟩, u'⟩ := h'
  obtain ⟨s0'', ⟨mem'', hm'', e''⟩, u''⟩ := h''
  obtain ⟨x, e0, e⟩ := construct_of (c := Ascon.asconHash) rfl e
  cases e0
  have a := ascon_state (k := .hash) hl hm e u
  have a' := ascon_state (k := .xof) hl hm' (constructXof_of (c := Ascon.asconXof) rfl e') u'
  have a'' := ascon_state (k := .cxof) hl hm'' (constructXof_of (c := Ascon.asconCxof) rfl e'') u''
  exact ⟨ascon_pair ascon_starts.1 a a', ascon_pair ascon_starts.2.1 a a'', ascon_pair ascon_starts.2.2 a' a''⟩

example : ∃ s : Blk Ascon.St, Absorbed Ascon.asconHash [1, 2, 3] s := by
  obtain ⟨s, e, b⟩ := Proofs.Ascon.init_ok .hash [] (Ascon.new ⟨⟨List.replicate 5 1, [], true⟩, List.replicate 64 9, 3, 4⟩) List.length_replicate rfl (by decide)
  obtain ⟨t, e', _⟩ := Proofs.Ascon.update_ok [1, 2, 3] b (by decide)
  exact ⟨t, s, ⟨⟨⟨List.replicate 5 1, [], true⟩, List.replicate 64 9, 3, 4⟩, ⟨rfl, List.length_replicate⟩, construct_mk (c := Ascon.asconHash) rfl e⟩, e'⟩

/-! ### Keccak: the suffixes -/

/-- **C61**, SHA-3, SHAKE, cSHAKE: whatever the messages, the strings given to the sponge are different. -/
theorem keccak_suffixes (r : Nat) (hr : 0 < r) (m m' : Bytes) :
    Keccak.padded r [false, true] m ≠ Keccak.padded r [true, true, true, true] m' ∧
    Keccak.padded r [false, true] m ≠ Keccak.padded r [false, false] m' ∧
    Keccak.padded r [true, true, true, true] m ≠ Keccak.padded r [false, false] m' := by
  rw [Proofs.Keccak.padded_sha3 r _ hr, Proofs.Keccak.padded_shake r _ hr, Proofs.Keccak.padded_shake r _ hr, Proofs.Keccak.padded_cshake r _ hr]
  refine ⟨fun e => ?_, fun e => ?_, fun e => ?_⟩
  · exact absurd (Proofs.Keccak.padD_inj (by decide) (by decide) e).2 (by decide)
  · exact absurd (Proofs.Keccak.padD_inj (by decide) (by decide) e).2 (by decide)
  · exact absurd (Proofs.Keccak.padD_inj (by decide) (by decide) e).2 (by decide)

example : Keccak.padded 136 [false, true] [] ≠ Keccak.padded 136 [true, true, true, true] [5] := (keccak_suffixes 136 (by decide) [] [5]).1

/-- **C61**, KangarooTwelve and MarsupilamiFourteen: short messages, inner nodes and final nodes give the sponge different strings. -/
theorem k12_suffixes (r : Nat) (m m' : Bytes) :
    Keccak.padD r 0x07 m ≠ Keccak.padD r 0x0b m' ∧ Keccak.padD r 0x07 m ≠ Keccak.padD r 0x06 m' ∧ Keccak.padD r 0x0b m ≠ Keccak.padD r 0x06 m' := by
  refine ⟨fun e => ?_, fun e => ?_, fun e => ?_⟩
  · exact absurd (Proofs.Keccak.padD_inj (by decide) (by decide) e).2 (by decide)
  · exact absurd (Proofs.Keccak.padD_inj (by decide) (by decide) e).2 (by decide)
  · exact absurd (Proofs.Keccak.padD_inj (by decide) (by decide) e).2 (by decide)

example : Keccak.padD 168 0x07 [1, 2] ≠ Keccak.padD 168 0x0b [1, 2] := (k12_suffixes 168 [1, 2] [1, 2]).1

/-- **C61**, cSHAKE with a function name other than KMAC, against KMAC and KMACXOF; SHAKE and SHA-3 against both. -/
theorem kmac_separate (b : Nat) (hb : b = 128 ∨ b = 256) (L : Nat) (θ : Keccak.CShakeParams) (κ : KmacParams) (m m' : Bytes)
    (hN : θ.N ≠ ascii "KMAC") (h1 : θ.N.length < 2 ^ 61) (h2 : θ.S.length < 2 ^ 61) (h3 : κ.S.length < 2 ^ 61) :
    cshakeInput (200 - 2 * b / 8) θ m ≠ kmacInput (200 - 2 * b / 8) L κ m' := by
  intro e
  have hk : kmacInput (200 - 2 * b / 8) L κ m' = cshakeInput (200 - 2 * b / 8) ⟨ascii "KMAC", κ.S⟩
      (Keccak.bytepad (Keccak.encodeString κ.K) (200 - 2 * b / 8) ++ m' ++ Keccak.rightEncode L) := by
    unfold kmacInput cshakeInput
    rw [if_neg (fun h => absurd (show ascii "KMAC" = [] from h.1) (by decide))]
  rw [hk] at e
  have := (cshake_input_injective b hb θ ⟨ascii "KMAC", κ.S⟩ m _ h1 h2 (show (ascii "KMAC").length < 2 ^ 61 by decide) h3 (by rw [e])).1
  exact hN (congrArg Keccak.CShakeParams.N this)

example : cshakeInput 168 ⟨[], [1]⟩ [2] ≠ kmacInput 168 256 ⟨[3], [1]⟩ [2] :=
  kmac_separate 128 (.inl rfl) 256 ⟨[], [1]⟩ ⟨[3], [1]⟩ [2] [2] (by decide) (by decide) (by decide) (by decide)

/-- **C61**, KMAC with a digest size, against KMACXOF. -/
theorem kmac_sizes (b : Nat) (hb : b = 128 ∨ b = 256) (L L' : Nat) (hne : L ≠ L') (hL : L < 2 ^ 64) (hL' : L' < 2 ^ 64) (κ κ' : KmacParams) (m m' : Bytes)
    (hK : κ.K.length < 2 ^ 61) (hS : κ.S.length < 2 ^ 61) (hK' : κ'.K.length < 2 ^ 61) (hS' : κ'.S.length < 2 ^ 61) :
    kmacInput (200 - 2 * b / 8) L κ m ≠ kmacInput (200 - 2 * b / 8) L' κ' m' := fun e =>
  hne (kmac_input_injective b hb L L' κ κ' m m' hL hL' hK hS hK' hS' (by rw [e])).2.2

example : kmacInput 168 256 ⟨[3], [1]⟩ [2] ≠ kmacInput 168 0 ⟨[3], [1]⟩ [2] :=
  kmac_sizes 128 (.inl rfl) 256 0 (by decide) (by decide) (by decide) ⟨[3], [1]⟩ ⟨[3], [1]⟩ [2] [2] (by decide) (by decide) (by decide) (by decide)

/-! ### Kupyna -/

/-- **C61** does not hold for Kupyna: within 8 to 256 bits, and within 264 to 512 bits, the digest of a smaller size is the end of the digest of a larger one. -/
theorem kupyna_truncates (n n' : Nat) (hn : n ≤ n') (hn' : n' ≤ 64) (hc : n' ≤ 32 ∨ 32 < n) (msg : Bytes) :
    (Spec.Kupyna.kupyna n).digest () msg = ((Spec.Kupyna.kupyna n').digest () msg).drop (n' - n) := by
  have hs : (if n ≤ 32 then 8 else 16) = (if n' ≤ 32 then 8 else 16) := by
    rcases hc with h | h
    · rw [if_pos (by omega), if_pos h]
    · rw [if_neg (by omega), if_neg (by omega)]
  show Spec.Kupyna.hashWith _ (if n ≤ 32 then 8 else 16) n msg = (Spec.Kupyna.hashWith _ (if n' ≤ 32 then 8 else 16) n' msg).drop (n' - n)
  rw [hs]
  unfold Spec.Kupyna.hashWith
  dsimp only
  rw [List.drop_drop]
  congr 1
  split <;> omega

example (msg : Bytes) : (Spec.Kupyna.kupyna 32).digest () msg = (Spec.Kupyna.kupyna 32).digest () msg ∧
    (Spec.Kupyna.kupyna 48).digest () msg = ((Spec.Kupyna.kupyna 64).digest () msg).drop 16 :=
  ⟨rfl, kupyna_truncates 48 64 (by decide) (by decide) (.inr (by decide)) msg⟩

end Properties
end Digestpp
