import Verif.Spec.Memory
import Verif.Properties.Safety

/-! C45: after `clear`, which `reset(true)` and the destructors call, an object holds zeros only. -/

namespace Digestpp.Proofs.Wipe
open Model Spec Spec.Memory

/-- All entries are zero. -/
def Z (l : List Nat) : Prop := ∀ x ∈ l, x = 0

theorem Z.nil : Z [] := nofun
theorem Z.append {a b : List Nat} (ha : Z a) (hb : Z b) : Z (a ++ b) := fun x h => (List.mem_append.1 h).elim (ha x) (hb x)
theorem Z.flatMap {α : Type} {l : List α} {f : α → List Nat} (h : ∀ a ∈ l, Z (f a)) : Z (l.flatMap f) := fun x hx => by
  obtain ⟨a, ha, hx⟩ := List.mem_flatMap.1 hx
  exact h a ha x hx

theorem words_replicate {w : Nat} (n : Nat) : Z (words (List.replicate n (0 : BitVec w))) := by
  intro x h
  obtain ⟨a, ha, rfl⟩ := List.mem_map.1 h
  rw [List.eq_of_mem_replicate ha]; rfl

theorem words_zeroBytes (b : Bytes) : Z (words (zeroBytes b)) := words_replicate _

theorem words_map {w : Nat} (l : List (BitVec w)) : Z (words (l.map fun _ => (0 : BitVec w))) := by
  intro x h
  obtain ⟨a, ha, rfl⟩ := List.mem_map.1 h
  obtain ⟨_, _, rfl⟩ := List.mem_map.1 ha
  rfl

theorem words_two {w : Nat} : Z (words [(0 : BitVec w), 0]) := words_replicate 2

/-- `clear` gives a state in which everything is zero. -/
def Clears {S : Type} (clear : S → M S) (mem : S → List Nat) (s : S) : Prop := ∃ s', clear s = .ok s' ∧ Z (mem s')

theorem shake (s : Blk Model.Shake.St) : Clears Model.Shake.clear Memory.shake s :=
  ⟨_, rfl, .append (.append (.append (words_replicate _) (words_zeroBytes _)) .nil) .nil⟩

theorem kmac (B : Nat) (s : Model.Kmac.St) : Clears (Model.Kmac.clear B) Memory.kmac s :=
  ⟨_, rfl, .append (.append (.append (words_replicate _) (words_zeroBytes _)) .nil) .nil⟩

theorem k12 (s : Blk Model.K12.St) : Clears Model.K12.clear Memory.k12 s := by
  obtain ⟨a, ea, za⟩ := shake s.h.main
  obtain ⟨b, eb, zb⟩ := shake s.h.child
  refine ⟨{ s with h := { main := a, child := b, S := [], chunk := s.h.chunk, squeezing := s.h.squeezing }, m := zeroBytes s.m }, ?_,
    .append (.append (.append za zb) (words_zeroBytes _)) .nil⟩
  unfold Model.K12.clear
  rw [ea, ok_bind, eb]
  rfl

theorem blake2 {w : Nat} (s : Blk (Model.Blake2.St w)) : Clears Model.Blake2.clear Memory.blake2 s :=
  ⟨_, rfl, .append (.append (.append (.append (words_replicate _) words_two) words_two) .nil) (words_zeroBytes _)⟩

theorem blake2p {w : Nat} (s : Blk (Model.Blake2p.PSt w)) : Clears Model.Blake2p.clear Memory.blake2p s := by
  obtain ⟨a, ea, za⟩ := blake2 s.h.main
  obtain ⟨l, el, _, zl⟩ := Safety.Blake2p.forLeaves_safe (w := w) (Q := fun _ => True) (Q' := fun x => Z (Memory.blake2 x))
    (n := s.h.leaf.length) (f := fun _ l => Model.Blake2.clear l) (fun _ a _ _ => blake2 a) s.h.leaf 0 (by omega) (fun _ _ => trivial)
  refine ⟨{ s with m := zeroBytes s.m, h := { s.h with main := a, leaf := l } }, ?_,
    .append (.append za (.flatMap zl)) (words_zeroBytes _)⟩
  unfold Model.Blake2p.clear
  rw [ea, ok_bind, el]
  rfl

theorem skein (F : Model.Skein.Fns) (s : Blk Model.Skein.St) : Clears (Model.Skein.clear F) Memory.skein s :=
  ⟨_, rfl, .append (.append (.append (.append (.append (.append (words_replicate _) (words_replicate _)) (words_zeroBytes _))
    (by intro x h; simp at h; exact h)) .nil) .nil) .nil⟩

theorem esch (s : Blk Model.Esch.St) : Clears Model.Esch.clear Memory.esch s :=
  ⟨_, rfl, .append (words_map _) (words_zeroBytes _)⟩

theorem ascon (s : Blk Model.Ascon.St) (h : s.h.Z = []) : Clears Model.Ascon.clear Memory.ascon s :=
  ⟨_, rfl, .append (.append (words_map _) (words_zeroBytes _)) (by show Z (words s.h.Z); rw [h]; exact .nil)⟩

/-- Every hash function except `ascon_hash`, whose string `Z` is not touched by `clear`. -/
theorem hash (h : HashName) (hne : h ≠ .ascon) (s : h.cls.S) : Clears h.cls.pr.clear h.memory s := by
  cases h with
  | md5 => exact ⟨_, rfl, .append (words_replicate _) (words_zeroBytes _)⟩
  | sha1 => exact ⟨_, rfl, .append (words_replicate _) (words_zeroBytes _)⟩
  | sm3 => exact ⟨_, rfl, .append (words_replicate _) (words_zeroBytes _)⟩
  | whirlpool => exact ⟨_, rfl, .append (words_replicate _) (words_zeroBytes _)⟩
  | sha224 => exact ⟨_, rfl, .append (words_replicate _) (words_zeroBytes _)⟩
  | sha256 => exact ⟨_, rfl, .append (words_replicate _) (words_zeroBytes _)⟩
  | sha512 f N => cases f <;> exact ⟨_, rfl, .append (words_replicate _) (words_zeroBytes _)⟩
  | sha3 f N => cases f <;> exact ⟨_, rfl, .append (words_replicate _) (words_zeroBytes _)⟩
  | kmac f B N => cases f <;> exact kmac _ s
  | blake f N => cases f <;> exact ⟨_, rfl, .append (.append (words_replicate _) (words_replicate _)) (words_zeroBytes _)⟩
  | blake2b f N => cases f <;> exact blake2 s
  | blake2s f N => cases f <;> exact blake2 s
  | blake2xb f N => cases f <;> exact blake2 s
  | blake2xs f N => cases f <;> exact blake2 s
  | blake2bp f N => cases f <;> exact blake2p s
  | blake2sp f N => cases f <;> exact blake2p s
  | skein256 f N => cases f <;> exact skein _ s
  | skein512 f N => cases f <;> exact skein _ s
  | skein1024 f N => cases f <;> exact skein _ s
  | groestl f N => cases f <;> exact ⟨_, rfl, .append (words_replicate _) (words_zeroBytes _)⟩
  | kupyna f N => cases f <;> exact ⟨_, rfl, .append (words_replicate _) (words_zeroBytes _)⟩
  | streebog f N => cases f <;> exact ⟨_, rfl, .append (.append (words_replicate _) (words_replicate _)) (words_zeroBytes _)⟩
  | lsh256 f N => cases f <;> exact ⟨_, rfl, .append (.append (.append (words_replicate _) (words_replicate _))
      (.flatMap fun a ha => by rw [List.eq_of_mem_replicate ha]; exact words_replicate _)) (words_zeroBytes _)⟩
  | lsh512 f N => cases f <;> exact ⟨_, rfl, .append (.append (.append (words_replicate _) (words_replicate _))
      (.flatMap fun a ha => by rw [List.eq_of_mem_replicate ha]; exact words_replicate _)) (words_zeroBytes _)⟩
  | esch f N => cases f <;> exact esch s
  | ascon => exact absurd rfl hne
  | echo f N => cases f <;> exact ⟨_, rfl, .append (.append (words_replicate _) (words_zeroBytes _)) words_two⟩
  | jh f N => cases f <;> exact ⟨_, rfl, .append (words_replicate _) (words_zeroBytes _)⟩

theorem xof (x : XofName) (h1 : x ≠ .ascon) (h2 : x ≠ .asconCxof) (s : x.cls.S) : Clears x.cls.pr.clear x.memory s := by
  cases x with
  | shake b => exact shake s
  | cshake b => exact shake s
  | kmac b => exact kmac _ s
  | k12 => exact k12 s
  | kt256 => exact k12 s
  | m14 => exact k12 s
  | blake2xb => exact blake2 s
  | blake2xs => exact blake2 s
  | skein256 => exact skein _ s
  | skein512 => exact skein _ s
  | skein1024 => exact skein _ s
  | esch256 => exact esch s
  | esch384 => exact esch s
  | ascon => exact absurd rfl h1
  | asconCxof => exact absurd rfl h2

end Digestpp.Proofs.Wipe

namespace Digestpp.Properties
open Model Spec Proofs Proofs.Safety

/-- **C45** for hash functions: whatever was done with an object, `clear` leaves only zeros in its arrays and strings. -/
theorem hash_clear_wipes (h : HashName) (hs : h.Supported) (mem : h.cls.S) (hm : h.cls.Mem mem) (ops : List (HashOp h.cls.P))
    (hv : ∀ op ∈ ops, op.Valid) : ∃ s os s' s'', h.cls.construct mem = .ok (some s) ∧ h.cls.pr.run ops s = .ok (os, s') ∧
      h.cls.pr.clear s' = .ok s'' ∧ ∀ x ∈ h.memory s'', x = 0 := by
  by_cases ha : h = .ascon
  · subst ha
    have hI : HashInv HashName.ascon.cls Ascon.J0 Ascon.J := ascon_inv
    obtain ⟨s, os, s', e, e', i⟩ := hI.run mem hm ops hv
    obtain ⟨s'', e'', z⟩ := Wipe.ascon s' i.2
    exact ⟨s, os, s', s'', e, e', e'', z⟩
  · obtain ⟨s, os, s', e, e'⟩ := hash_no_ub h hs mem hm ops hv
    obtain ⟨s'', e'', z⟩ := Wipe.hash h ha s'
    exact ⟨s, os, s', s'', e, e', e'', z⟩

/-- **C45** for extendable output functions other than `ascon_cxof128`, for every history that does not end in undefined behaviour (see
`xof_no_ub`). -/
theorem xof_clear_wipes_partial (x : XofName) (hne : x ≠ .asconCxof) (mem s : x.cls.S) (hm : x.cls.Mem mem)
    (hc : x.cls.construct mem = .ok (some s)) (ops : List (XofOp x.cls.P)) (hv : ∀ op ∈ ops, op.Valid) (os : List Obs) (s' : x.cls.S)
    (hr : x.cls.pr.run ops s = .ok (os, s')) : ∃ s'', x.cls.pr.clear s' = .ok s'' ∧ ∀ y ∈ x.memory s'', y = 0 := by
  by_cases ha : x = .ascon
  · subst ha
    have hI : XofInv XofName.ascon.cls Ascon.J0 Ascon.J :=
      ⟨Ascon.xof, fun _ hm => ⟨_, rfl, ⟨hm.2, hm.1, (by decide : 0 < 2 ^ 61)⟩, rfl⟩⟩
    obtain ⟨t, e, i⟩ := hI.construct mem hm
    cases Option.some.inj (Except.ok.inj (e.symm.trans hc))
    rcases hI.pr.run ops hv s i with ⟨os1, s1, e1, i1⟩ | h
    · cases congrArg Prod.snd (Except.ok.inj (e1.symm.trans hr))
      exact Wipe.ascon _ i1.2
    · exact nomatch hr.symm.trans h.2
  · exact Wipe.xof x ha hne s'

/-- The customization string of `ascon_cxof128` stays in the object, byte for byte: `clear` does not touch `Z`. -/
theorem asconCxof_clear_keeps (mem : XofName.asconCxof.cls.S) (hm : XofName.asconCxof.cls.Mem mem) (v : Bytes) (hv : v.length < 2 ^ 61) :
    ∃ s os s' s'', XofName.asconCxof.cls.construct mem = .ok (some s) ∧
      XofName.asconCxof.cls.pr.run [.set (.customization v)] s = .ok (os, s') ∧
      XofName.asconCxof.cls.pr.clear s' = .ok s'' ∧ ∀ b ∈ v, b.toNat ∈ XofName.asconCxof.memory s'' := by
  have hI : XofInv XofName.asconCxof.cls Ascon.I0 Ascon.I := ⟨Ascon.cxof, fun _ hm => ⟨_, rfl, hm.2, hm.1, (by decide : 0 < 2 ^ 61)⟩⟩
  obtain ⟨s, e, i⟩ := hI.construct mem hm
  obtain ⟨s', e', i', z⟩ := Ascon.init_safe .cxof (Model.Ascon.setCustomization v s) ⟨i.m, i.H, hv⟩
  refine ⟨s, [.done], s', _, e, ?_, rfl, fun b hb => ?_⟩
  · show ((Model.Ascon.init .cxof (Model.Ascon.setCustomization v s) >>= fun s => pure (Obs.done, s)) >>= _) = _
    rw [e']
    rfl
  · refine List.mem_append_right _ (List.mem_map_of_mem ?_)
    show b ∈ s'.h.Z
    rw [z]
    exact hb

/-- The key string of KMAC: after `clear` it is that of an object for which no key was set. -/
theorem kmac_clear_key (b : Nat) (mem t s s' : Kmac.St) :
    (∀ N, (HashName.kmac .runtime b N).cls.ctor mem = .ok (some t) → (HashName.kmac .runtime b N).cls.pr.clear s = .ok s' → s'.K = t.K) ∧
    (∀ N, (HashName.kmac .static b N).cls.ctor mem = .ok (some t) → (HashName.kmac .static b N).cls.pr.clear s = .ok s' → s'.K = t.K) ∧
    ((XofName.kmac b).cls.ctor mem = .ok (some t) → (XofName.kmac b).cls.pr.clear s = .ok s' → s'.K = t.K) := by
  have hk : Model.Kmac.clear b s = .ok s' → s'.K = Model.Kmac.bytepad b [] := fun h => by cases Except.ok.inj h; rfl
  refine ⟨fun N hc h => ?_, fun N hc h => ?_, fun hc h => ?_⟩
  · rw [hk h]
    have hc : (if validateMax N (szMod - 1) then some (Model.Kmac.new b N mem) else none) = some t := Except.ok.inj hc
    split at hc
    · cases hc; rfl
    · exact nomatch hc
  · rw [hk h]; cases Option.some.inj (Except.ok.inj hc); rfl
  · rw [hk h]; cases Option.some.inj (Except.ok.inj hc); rfl

/-- A keyed BLAKE2b object that has absorbed part of a block. -/
example (mem : (HashName.blake2b .runtime 512).cls.S) (hm : (HashName.blake2b .runtime 512).cls.Mem mem) : ∃ s os s' s'',
    (HashName.blake2b .runtime 512).cls.construct mem = .ok (some s) ∧
    (HashName.blake2b .runtime 512).cls.pr.run [.set (Blake2Param.key [1, 2, 3]), .absorb (.stream [4, 5])] s = .ok (os, s') ∧
    (HashName.blake2b .runtime 512).cls.pr.clear s' = .ok s'' ∧ ∀ x ∈ (HashName.blake2b .runtime 512).memory s'', x = 0 :=
  hash_clear_wipes (.blake2b .runtime 512) (by decide) mem hm _ (by
    intro op h
    simp only [List.mem_cons, List.not_mem_nil, or_false] at h
    rcases h with rfl | rfl
    · show (_ : Nat) < _; decide
    · trivial)

/-- The memory of an object is not always zero: the IV of MD5. -/
example (mem : HashName.md5.cls.S) : ∃ s, HashName.md5.cls.construct mem = .ok (some s) ∧ ¬ ∀ x ∈ HashName.md5.memory s, x = 0 :=
  ⟨_, rfl, fun h => absurd (h 0x67452301 (List.mem_append_left _ (List.mem_cons_self ..))) (by decide)⟩

end Digestpp.Properties
