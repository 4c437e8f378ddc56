import Verif.Spec.Inner
import Verif.Proofs.Collision
import Verif.Proofs.Extension
import Verif.Proofs.PermKeccak
import Verif.Proofs.PermAscon
import Verif.Proofs.PermEsch

/-! Inner collisions, for C60. -/

namespace Digestpp.Proofs.Inner
open Spec
variable {Θ V I O : Type}

/-- Equal final states: the states before the last input agree in the inner part. -/
theorem reduces {it : Iter Θ V I O} {bytes : V → Bytes} {inner : V → V → Prop} {ok : Θ → Bytes → Prop} (det : it.Determines ok) (hne : ∀ θ msg, it.inputs θ msg ≠ [])
    (h : ∀ θ θ' msg msg' X X' i i', it.inputs θ msg = X ++ [i] → it.inputs θ' msg' = X' ++ [i'] →
      bytes (it.f (X.foldl it.f it.iv) i) = bytes (it.f (X'.foldl it.f it.iv) i') → inner (X.foldl it.f it.iv) (X'.foldl it.f it.iv) ∧ (X = X' → i = i')) :
    it.ReducesToInner bytes inner ok := by
  intro θ θ' msg msg' h1 h2 hn hr
  by_cases hc : bytes (it.chain θ msg) = bytes (it.chain θ' msg')
  · left
    have last : ∀ {l : List I}, l ≠ [] → ∃ X i, l = X ++ [i] := fun {l} h => ⟨l.dropLast, l.getLast h, (List.dropLast_append_getLast h).symm⟩
    obtain ⟨X, i, e⟩ := last (hne θ msg)
    obtain ⟨X', i', e'⟩ := last (hne θ' msg')
    have hc0 := hc
    unfold Iter.chain at hc
    rw [e, e', List.foldl_append, List.foldl_append] at hc
    obtain ⟨k1, k2⟩ := h θ θ' msg msg' X X' i i' e e' hc
    refine ⟨X, X', ⟨[i], e.symm⟩, ⟨[i'], e'.symm⟩, by rw [e]; simp, by rw [e']; simp, fun hx => ?_, k1⟩
    exact hn (det _ _ _ _ h1 h2 (by rw [e, e', hx, k2 hx]))
  · exact .inr ⟨hc, hr⟩

theorem length_chunk {α : Type} {n : Nat} {l b : List α} (h : b ∈ chunks n l) : b.length = n := by
  obtain ⟨i, hi, rfl⟩ := List.mem_map.1 h
  have hi := List.mem_range.1 hi
  unfold blockAt
  rw [List.length_take, List.length_drop]
  rcases Nat.eq_zero_or_pos n with h0 | h0
  · omega
  · have h1 : (i + 1) * n ≤ l.length / n * n := Nat.mul_le_mul_right _ hi
    have := Nat.div_mul_le_self l.length n
    rw [Nat.add_mul, Nat.one_mul] at h1
    omega

theorem ofLeWords_leWords {w : Nat} (hw : w % 8 = 0) (b : Bytes) (hb : b.length % (w / 8) = 0) : ofLeWords (leWords w b) = b := by
  have hp : 2 ^ w = 256 ^ (w / 8) := by rw [show 256 = 2 ^ 8 from rfl, ← Nat.pow_mul, show 8 * (w / 8) = w by omega]
  have h : leWords w b = (chunks (w / 8) b).map fun b => BitVec.ofNat w (leNat b) := by
    unfold leWords chunks blockAt
    rw [List.map_map]
    rfl
  unfold ofLeWords
  rw [h, List.flatMap_map]
  refine Eq.trans ?_ (flatten_chunks (w / 8) b hb)
  rw [← List.flatMap_id]
  have : ∀ L : List Bytes, (∀ c ∈ L, c.length = w / 8) → (L.flatMap fun c => leBytes (w / 8) (BitVec.ofNat w (leNat c)).toNat) = L.flatMap id := by
    intro L hL
    induction L with
    | nil => rfl
    | cons c L ih =>
      rw [List.flatMap_cons, List.flatMap_cons, ih fun c hc => hL c (.tail _ hc)]
      congr 1
      have hc := hL c (.head _)
      have hlt := leNat_lt c
      rw [hc] at hlt
      rw [BitVec.toNat_ofNat, Nat.mod_eq_of_lt (by omega), ← hc]
      exact Streebog.leBytes_leNat c
  exact this _ fun c hc => length_chunk hc

/-! ## Keccak -/
section Keccak
open Spec.Keccak

theorem length_ofLeWords (A : List (BitVec 64)) : (ofLeWords A).length = 8 * A.length := by
  induction A with
  | nil => rfl
  | cons x A ih =>
    unfold ofLeWords at *
    rw [List.flatMap_cons, List.length_append, ih, length_leBytes, List.length_cons]; omega

theorem drop_ofLeWords (k : Nat) (A : List (BitVec 64)) : (ofLeWords A).drop (8 * k) = ofLeWords (A.drop k) := by
  induction k generalizing A with
  | zero => rfl
  | succ k ih =>
    cases A with
    | nil => simp [ofLeWords]
    | cons x A =>
      unfold ofLeWords at *
      rw [List.flatMap_cons, List.drop_succ_cons, ← ih, List.drop_append, List.drop_of_length_le (by rw [length_leBytes]; omega), List.nil_append, length_leBytes,
        show 8 * (k + 1) - 64 / 8 = 8 * k by omega]

theorem inner_iff {r : Nat} (hr : r % 8 = 0) {A A' : State} (hA : A.length = 25) (hA' : A'.length = 25) :
    Inner r A A' ↔ ∀ i, r / 8 ≤ i → i < 25 → A.getD i 0 = A'.getD i 0 := by
  unfold Inner
  rw [show r = 8 * (r / 8) by omega, drop_ofLeWords, drop_ofLeWords, show 8 * (r / 8) / 8 = r / 8 by omega]
  generalize r / 8 = k
  constructor
  · intro h i hk hi
    have h := Collision.ofLeWords_inj (by decide) (by rw [List.length_drop, List.length_drop, hA, hA']) h
    have := congrArg (fun l : List (BitVec 64) => l.getD (i - k) 0) h
    simp only [List.getD_eq_getElem?_getD, List.getElem?_drop, show k + (i - k) = i by omega] at this
    simpa only [List.getD_eq_getElem?_getD] using this
  · intro h
    congr 1
    apply List.ext_getElem?
    intro i
    rw [List.getElem?_drop, List.getElem?_drop]
    by_cases hi : k + i < 25
    · have := h (k + i) (by omega) hi
      rw [List.getD_eq_getElem?_getD, List.getD_eq_getElem?_getD, List.getElem?_eq_getElem (by omega), List.getElem?_eq_getElem (by omega)] at this
      rw [List.getElem?_eq_getElem (by omega), List.getElem?_eq_getElem (by omega)]
      exact congrArg some this
    · rw [List.getElem?_eq_none (by omega), List.getElem?_eq_none (by omega)]

theorem xor0 {w : Nat} (x : BitVec w) : x ^^^ 0 = x := BitVec.xor_zero

theorem getD_xorInto (A : State) (b : Bytes) (i : Nat) (hi : i < 25) : (xorInto A b).getD i 0 = A.getD i 0 ^^^ (leWords 64 b).getD i 0 := by
  unfold xorInto
  rw [List.getD_eq_getElem?_getD, List.getElem?_map, List.getElem?_range hi]
  rfl

theorem word_beyond {r : Nat} {b : Bytes} (hb : b.length = r) (i : Nat) (hi : r / 8 ≤ i) : (leWords 64 b).getD i 0 = 0 := by
  rw [List.getD_eq_getElem?_getD, List.getElem?_eq_none (by rw [length_leWords, hb]; exact hi)]
  rfl

theorem keccakStep_inj {R : Nat} {A A' : State} {b b' : Bytes} (h : Inputs.keccakStep R A b = Inputs.keccakStep R A' b') : xorInto A b = xorInto A' b' :=
  (Perm.Keccak.keccakP_permutes R).inj _ _ (Keccak.length_xorInto _ _) (Keccak.length_xorInto _ _) h

theorem length_step {R : Nat} (A : State) (b : Bytes) : (Inputs.keccakStep R A b).length = 25 := Keccak.length_step R b A

theorem length_fold {R : Nat} (l : List Bytes) : (l.foldl (Inputs.keccakStep R) (List.replicate 25 0)).length = 25 := by
  have : ∀ A : State, A.length = 25 → (l.foldl (Inputs.keccakStep R) A).length = 25 := by
    induction l with
    | nil => exact fun _ h => h
    | cons b l ih => exact fun A _ => ih _ (length_step A b)
  exact this _ rfl

theorem xorInto_inner {r : Nat} (hr : r % 8 = 0) {A A' : State} (hA : A.length = 25) (hA' : A'.length = 25) {b b' : Bytes} (hb : b.length = r) (hb' : b'.length = r)
    (h : xorInto A b = xorInto A' b') : Inner r A A' := by
  refine (inner_iff hr hA hA').2 fun i h1 h2 => ?_
  have := congrArg (fun l : State => l.getD i 0) h
  rwa [getD_xorInto _ _ _ h2, getD_xorInto _ _ _ h2, word_beyond hb i h1, word_beyond hb' i h1, xor0, xor0] at this

theorem xorInto_inj {r : Nat} (hr : r % 8 = 0) (h200 : r ≤ 200) {A : State} {b b' : Bytes} (hb : b.length = r) (hb' : b'.length = r)
    (h : xorInto A b = xorInto A b') : b = b' := by
  rw [← ofLeWords_leWords (w := 64) (by decide) b (by omega), ← ofLeWords_leWords (w := 64) (by decide) b' (by omega)]
  congr 1
  apply List.ext_getElem?
  intro i
  by_cases hi : i < r / 8
  · have := congrArg (fun l : State => l.getD i 0) h
    rw [getD_xorInto _ _ _ (by omega), getD_xorInto _ _ _ (by omega), BitVec.xor_right_inj] at this
    rw [List.getD_eq_getElem?_getD, List.getD_eq_getElem?_getD, List.getElem?_eq_getElem (by rw [length_leWords, hb]; exact hi),
      List.getElem?_eq_getElem (by rw [length_leWords, hb']; exact hi)] at this
    rw [List.getElem?_eq_getElem (by rw [length_leWords, hb]; exact hi), List.getElem?_eq_getElem (by rw [length_leWords, hb']; exact hi)]
    exact congrArg some this
  · rw [List.getElem?_eq_none (by rw [length_leWords, hb]; show r / 8 ≤ i; omega), List.getElem?_eq_none (by rw [length_leWords, hb']; show r / 8 ≤ i; omega)]

/-- Sponge functions of `R` rounds. -/
theorem keccak_reduces {R : Nat} {it : Iter Θ State Bytes O} {ok : Θ → Bytes → Prop} (r : Nat) (h0 : 0 < r) (hr : r % 8 = 0) (h200 : r ≤ 200) (P : Θ → Bytes → Bytes)
    (hi : ∀ θ msg, it.inputs θ msg = chunks r (P θ msg)) (hP : ∀ θ msg, 0 < (P θ msg).length ∧ (P θ msg).length % r = 0) (hv : it.iv = List.replicate 25 0)
    (hf : it.f = Inputs.keccakStep R) (det : it.Determines ok) : it.ReducesToInner ofLeWords (Inner r) ok := by
  refine reduces det (fun θ msg => ?_) fun θ θ' msg msg' X X' i i' e e' h => ?_
  · rw [hi]
    exact Collision.chunks_ne h0 (hP θ msg).2 (hP θ msg).1
  · rw [hf, hv] at *
    have h := keccakStep_inj (Collision.ofLeWords_inj (by decide) (by rw [length_step, length_step]) h)
    have hb : i.length = r := length_chunk (by rw [← hi θ msg, e]; simp)
    have hb' : i'.length = r := length_chunk (by rw [← hi θ' msg', e']; simp)
    exact ⟨xorInto_inner hr (length_fold _) (length_fold _) hb hb' h, fun hx => xorInto_inj hr h200 hb hb' (by rw [hx] at h; exact h)⟩

/-- An inner collision is made a collision of states by the choice of the next block. -/
theorem keccak_complete {r : Nat} (hr : r % 8 = 0) {A A' : State} (hA : A.length = 25) (hA' : A'.length = 25) (h : Inner r A A') (b : Bytes) (hb : b.length = r) :
    ∃ b', b'.length = r ∧ Inputs.keccakStep 24 A b = Inputs.keccakStep 24 A' b' := by
  have h := (inner_iff hr hA hA').1 h
  let W := (List.range (r / 8)).map fun i => A.getD i 0 ^^^ (leWords 64 b).getD i 0 ^^^ A'.getD i 0
  have hW : (ofLeWords W).length = r := by rw [length_ofLeWords, List.length_map, List.length_range]; omega
  refine ⟨ofLeWords W, hW, congrArg (keccakP 24) ?_⟩
  apply List.ext_getElem?
  intro i
  by_cases hi : i < 25
  · have : (xorInto A b).getD i 0 = (xorInto A' (ofLeWords W)).getD i 0 := by
      rw [getD_xorInto _ _ _ hi, getD_xorInto _ _ _ hi]
      by_cases hk : i < r / 8
      · rw [Extension.leWords_ofLeWords (by decide) (by decide)]
        have : W.getD i 0 = A.getD i 0 ^^^ (leWords 64 b).getD i 0 ^^^ A'.getD i 0 := by
          rw [List.getD_eq_getElem?_getD, List.getElem?_map, List.getElem?_range hk]; rfl
        rw [this, BitVec.xor_comm (A'.getD i 0), BitVec.xor_assoc _ (A'.getD i 0), BitVec.xor_self, BitVec.xor_zero]
      · rw [word_beyond hb i (by omega), word_beyond hW i (by omega), h i (by omega) hi]
    rw [List.getD_eq_getElem?_getD, List.getD_eq_getElem?_getD, List.getElem?_eq_getElem (by rw [Keccak.length_xorInto]; exact hi),
      List.getElem?_eq_getElem (by rw [Keccak.length_xorInto]; exact hi)] at this
    rw [List.getElem?_eq_getElem (by rw [Keccak.length_xorInto]; exact hi), List.getElem?_eq_getElem (by rw [Keccak.length_xorInto]; exact hi)]
    exact congrArg some this
  · rw [List.getElem?_eq_none (by rw [Keccak.length_xorInto]; omega), List.getElem?_eq_none (by rw [Keccak.length_xorInto]; omega)]

theorem padD_append {r : Nat} (d : Byte) (B t : Bytes) (hB : B.length % r = 0) : padD r d (B ++ t) = B ++ padD r d t := by
  unfold padD
  have e : (r - ((B ++ t).length + 1) % r) % r = (r - (t.length + 1) % r) % r := by
    rw [List.length_append, Nat.add_assoc, Nat.add_mod, hB, Nat.zero_add, Nat.mod_mod]
  rw [e, List.append_assoc B, List.append_assoc B, Keccak.xorLast_append B _ (by simp; omega)]

theorem length_padD_pos (r : Nat) (d : Byte) (msg : Bytes) : 0 < (padD r d msg).length := by
  unfold padD xorLast
  simp; omega

theorem absorb_append {r : Nat} (h0 : 0 < r) (X P : Bytes) (hX : X.length % r = 0) :
    absorb 24 r (X ++ P) = (chunks r P).foldl (Inputs.keccakStep 24) (absorb 24 r X) := by
  unfold absorb
  rw [Extension.chunks_append h0 hX, List.foldl_append]
  rfl

theorem length_absorb (r : Nat) (X : Bytes) : (absorb 24 r X).length = 25 := length_fold _

theorem absorb_complete {r : Nat} (h0 : 0 < r) (hr : r % 8 = 0) {X X' : Bytes} (hX : X.length % r = 0) (hX' : X'.length % r = 0)
    (h : Inner r (absorb 24 r X) (absorb 24 r X')) (b : Bytes) (hb : b.length = r) :
    ∃ b', b'.length = r ∧ ∀ (d : Byte) (t : Bytes), absorb 24 r (padD r d (X ++ b ++ t)) = absorb 24 r (padD r d (X' ++ b' ++ t)) := by
  obtain ⟨b', hb', e⟩ := keccak_complete hr (length_absorb r X) (length_absorb r X') h b hb
  refine ⟨b', hb', fun d t => ?_⟩
  have one : ∀ b : Bytes, b.length = r → chunks r b = [b] := fun b hb => by
    have := Keccak.chunks_cons r h0 b [] hb
    rw [List.append_nil] at this
    rw [this]; simp [chunks]
  have hl : ∀ (X b : Bytes), X.length % r = 0 → b.length = r → (X ++ b).length % r = 0 := fun X b h1 h2 => by
    rw [List.length_append, h2, Nat.add_mod_right, h1]
  rw [padD_append d _ t (hl X b hX hb), padD_append d _ t (hl X' b' hX' hb'), absorb_append h0 _ _ (hl X b hX hb), absorb_append h0 _ _ (hl X' b' hX' hb'),
    absorb_append h0 X b hX, absorb_append h0 X' b' hX', one b hb, one b' hb']
  rw [List.foldl_cons, List.foldl_nil, List.foldl_cons, List.foldl_nil, e]

end Keccak
/-! ## Ascon -/
section Ascon
open Spec.Ascon

theorem stateBytes_inj {s t : State} (h : stateBytes s = stateBytes t) : s = t := by
  have := Collision.ofLeWords_inj (w := 64) (l := [s.s0, s.s1, s.s2, s.s3, s.s4]) (l' := [t.s0, t.s1, t.s2, t.s3, t.s4]) (by decide) rfl h
  cases s; cases t
  simp only [List.cons.injEq, and_true] at this
  obtain ⟨rfl, rfl, rfl, rfl, rfl⟩ := this
  rfl

theorem word_inj {b b' : Bytes} (hb : b.length = 8) (hb' : b'.length = 8) (h : (leWords 64 b).getD 0 0 = (leWords 64 b').getD 0 0) : b = b' := by
  rw [← ofLeWords_leWords (w := 64) (by decide) b (by rw [hb]), ← ofLeWords_leWords (w := 64) (by decide) b' (by rw [hb'])]
  have one : ∀ b : Bytes, b.length = 8 → leWords 64 b = [(leWords 64 b).getD 0 0] := fun b hb => by
    have hl : (leWords 64 b).length = 1 := by rw [length_leWords, hb]
    match h : leWords 64 b, hl with
    | [x], _ => rfl
  rw [one b hb, one b' hb', h]

theorem absorbBlock_inner {s t : State} {b b' : Bytes} (h : absorbBlock b s = absorbBlock b' t) : Inner s t ∧ s.s0 ^^^ (leWords 64 b).getD 0 0 = t.s0 ^^^ (leWords 64 b').getD 0 0 := by
  have := Perm.Ascon.p12_inj _ _ h
  injection this with h0 h1 h2 h3 h4
  exact ⟨⟨h1, h2, h3, h4⟩, h0⟩

theorem ascon_reduces {it : Iter Θ State Bytes O} {ok : Θ → Bytes → Prop} (P : Θ → Bytes → Bytes) (hi : ∀ θ msg, it.inputs θ msg = chunks 8 (P θ msg))
    (hP : ∀ θ msg, 0 < (P θ msg).length ∧ (P θ msg).length % 8 = 0) (hf : it.f = fun s b => absorbBlock b s) (det : it.Determines ok) :
    it.ReducesToInner stateBytes Inner ok := by
  refine reduces det (fun θ msg => ?_) fun θ θ' msg msg' X X' i i' e e' h => ?_
  · rw [hi]
    exact Collision.chunks_ne (by decide) (hP θ msg).2 (hP θ msg).1
  · rw [hf] at *
    have h := absorbBlock_inner (stateBytes_inj h)
    have hb : i.length = 8 := length_chunk (by rw [← hi θ msg, e]; simp)
    have hb' : i'.length = 8 := length_chunk (by rw [← hi θ' msg', e']; simp)
    exact ⟨h.1, fun hx => word_inj hb hb' (by rw [hx] at h; exact (BitVec.xor_right_inj _).1 h.2)⟩

theorem ascon_complete {s t : State} (h : Inner s t) (b : Bytes) : ∃ b', b'.length = 8 ∧ absorbBlock b s = absorbBlock b' t := by
  refine ⟨ofLeWords [s.s0 ^^^ (leWords 64 b).getD 0 0 ^^^ t.s0], rfl, ?_⟩
  unfold absorbBlock
  rw [Extension.leWords_ofLeWords (by decide) (by decide)]
  congr 1
  obtain ⟨s0, s1, s2, s3, s4⟩ := s
  obtain ⟨t0, t1, t2, t3, t4⟩ := t
  obtain ⟨rfl, rfl, rfl, rfl⟩ := h
  show State.mk _ _ _ _ _ = State.mk (t0 ^^^ (s0 ^^^ (leWords 64 b).getD 0 0 ^^^ t0)) _ _ _ _
  rw [BitVec.xor_comm t0, BitVec.xor_assoc _ t0, BitVec.xor_self, BitVec.xor_zero]

theorem pad_append (B t : Bytes) (hB : B.length % 8 = 0) : pad (B ++ t) = B ++ pad t := by
  unfold pad
  have e : toMultiple 8 ((B ++ t).length + 1) = toMultiple 8 (t.length + 1) := by
    unfold toMultiple
    rw [List.length_append]; omega
  rw [e, List.append_assoc B, List.append_assoc B]

theorem length_pad (msg : Bytes) : 0 < (pad msg).length ∧ (pad msg).length % 8 = 0 := by
  unfold pad toMultiple
  simp only [List.length_append, List.length_singleton, List.length_replicate]
  omega

theorem absorb_eq (s : State) (x : Bytes) : absorb s x = (chunks 8 x).foldl (fun s b => absorbBlock b s) s := by
  unfold absorb
  rw [Inputs.foldBlocks_chunks 8 (fun s b => absorbBlock b s) x s]

theorem ascon_absorb_complete (s : State) {X X' : Bytes} (hX : X.length % 8 = 0) (hX' : X'.length % 8 = 0) (h : Inner (absorb s X) (absorb s X')) (b : Bytes) (hb : b.length = 8) :
    ∃ b', b'.length = 8 ∧ ∀ t : Bytes, absorb s (pad (X ++ b ++ t)) = absorb s (pad (X' ++ b' ++ t)) := by
  obtain ⟨b', hb', e⟩ := ascon_complete h b
  refine ⟨b', hb', fun t => ?_⟩
  have one : ∀ b : Bytes, b.length = 8 → chunks 8 b = [b] := fun b hb => by
    have := Keccak.chunks_cons 8 (by decide) b [] hb
    rw [List.append_nil] at this
    rw [this]; simp [chunks]
  have hl : ∀ (X b : Bytes), X.length % 8 = 0 → b.length = 8 → (X ++ b).length % 8 = 0 := fun X b h1 h2 => by rw [List.length_append]; omega
  rw [absorb_eq, absorb_eq] at e
  rw [pad_append _ t (hl X b hX hb), pad_append _ t (hl X' b' hX' hb'), absorb_eq, absorb_eq, Extension.chunks_append (by decide) (hl X b hX hb),
    Extension.chunks_append (by decide) (hl X' b' hX' hb'), Extension.chunks_append (by decide) hX, Extension.chunks_append (by decide) hX', one b hb, one b' hb']
  simp only [List.foldl_append, List.foldl_cons, List.foldl_nil]
  exact congrArg (fun A => (chunks 8 (pad t)).foldl (fun s b => absorbBlock b s) A) e

end Ascon

/-! ## Esch -/
section Esch
open Spec.Esch
open Perm.Esch (Same)

theorem sparkle_inj (h : Nat) (h2 : 2 ≤ h) (ns : Nat) (B C : Branches) (e : Same (2 * h) (sparkle h ns B) (sparkle h ns C)) : Same (2 * h) B C := by
  have : ∀ (l : List Nat) (B C : Branches), Same (2 * h) (l.foldl (step h) B) (l.foldl (step h) C) → Same (2 * h) B C := by
    intro l
    induction l with
    | nil => exact fun _ _ e => e
    | cons s l ih => exact fun B C e => Perm.Esch.step_inj h h2 s B C (ih _ _ e)
  exact this _ B C e

theorem esch_bytes_inj (h : Nat) {B C : Branches} (e : stateBytes h B = stateBytes h C) : Same (2 * h) B C :=
  Perm.Esch.flat_inj (2 * h) B C (Collision.ofLeWords_inj (w := 32) (by decide)
    (by rw [Perm.Esch.length_flat, Perm.Esch.length_flat]) e)

theorem z0 (x : BitVec 32) : 0 ^^^ x = x := BitVec.zero_xor

theorem feistel_block {h : Nat} (hh : h = 3 ∨ h = 4) (b : Bytes) (i : Nat) :
    feistel h (blockBranches b) i = ((blockBranches b i).1 ^^^ ell ((blockBranches b 0).2 ^^^ (blockBranches b 1).2),
      (blockBranches b i).2 ^^^ ell ((blockBranches b 0).1 ^^^ (blockBranches b 1).1)) := by
  rcases hh with rfl | rfl
  · show (_ ^^^ ell (0 ^^^ (blockBranches b 0).2 ^^^ (blockBranches b 1).2 ^^^ 0), _ ^^^ ell (0 ^^^ (blockBranches b 0).1 ^^^ (blockBranches b 1).1 ^^^ 0)) = _
    rw [z0, z0, xor0, xor0]
  · show (_ ^^^ ell (0 ^^^ (blockBranches b 0).2 ^^^ (blockBranches b 1).2 ^^^ 0 ^^^ 0), _ ^^^ ell (0 ^^^ (blockBranches b 0).1 ^^^ (blockBranches b 1).1 ^^^ 0 ^^^ 0)) = _
    rw [z0, z0, xor0, xor0, xor0, xor0]

theorem ell_xor (x y : BitVec 32) : ell (x ^^^ y) = ell x ^^^ ell y := by
  unfold ell
  have : (x ^^^ y) &&& 0xffff = (x &&& 0xffff) ^^^ (y &&& 0xffff) := by
    apply BitVec.eq_of_getLsbD_eq
    intro i _
    simp only [BitVec.getLsbD_and, BitVec.getLsbD_xor]
    cases x.getLsbD i <;> cases y.getLsbD i <;> cases (0xffff : BitVec 32).getLsbD i <;> rfl
  rw [Perm.rotl_xor, this]
  ac_rfl

/-- The sum of two blocks. -/
def sum (b b' : Bytes) : Bytes := ofLeWords ((List.range 4).map fun i => (leWords 32 b).getD i 0 ^^^ (leWords 32 b').getD i 0)

theorem length_sum (b b' : Bytes) : (sum b b').length = 16 := rfl

theorem branches_sum (b b' : Bytes) (i : Nat) :
    blockBranches (sum b b') i = ((blockBranches b i).1 ^^^ (blockBranches b' i).1, (blockBranches b i).2 ^^^ (blockBranches b' i).2) := by
  unfold blockBranches sum
  rw [Extension.leWords_ofLeWords (by decide) (by decide)]
  match i with
  | 0 => rfl
  | 1 => rfl
  | i + 2 => rw [if_neg (by omega), if_neg (by omega), if_neg (by omega)]; rfl

theorem feistel_sum {h : Nat} (hh : h = 3 ∨ h = 4) (b b' : Bytes) (i : Nat) :
    feistel h (blockBranches (sum b b')) i =
      ((feistel h (blockBranches b) i).1 ^^^ (feistel h (blockBranches b') i).1, (feistel h (blockBranches b) i).2 ^^^ (feistel h (blockBranches b') i).2) := by
  rw [feistel_block hh, feistel_block hh, feistel_block hh, branches_sum, branches_sum, branches_sum]
  dsimp only
  simp only [ell_xor]
  congr 1 <;> ac_rfl

theorem xor_move {a b c d : BitVec 32} (h : a ^^^ b = c ^^^ d) : c = a ^^^ (b ^^^ d) := by
  rw [← BitVec.xor_assoc, h, BitVec.xor_assoc, BitVec.xor_self]
  exact (xor0 c).symm

theorem inject_inner {h : Nat} (hh : h = 3 ∨ h = 4) {k k' : BitVec 32} {B B' : Branches} {b b' : Bytes}
    (e : Same (2 * h) (inject h (addConst h k B) b) (inject h (addConst h k' B') b')) :
    ∀ i, i < 2 * h → B' i = inject h (addConst h (k ^^^ k') B) (sum b b') i := by
  intro i hi
  have e := e i hi
  unfold inject at e ⊢
  by_cases hl : i < h
  · rw [if_pos hl, if_pos hl] at e
    rw [if_pos hl, feistel_sum hh]
    have e1 := xor_move (congrArg Prod.fst e)
    have e2 := xor_move (congrArg Prod.snd e)
    unfold addConst at e1 e2 ⊢
    by_cases hc : i = h - 1
    · rw [if_pos hc, if_pos hc] at e1 e2
      rw [if_pos hc]
      refine Prod.ext e1 ?_
      dsimp only at e2 ⊢
      have e3 : ∀ x y z u v w : BitVec 32, x ^^^ y = z ^^^ u ^^^ (v ^^^ w) → x = z ^^^ (u ^^^ y) ^^^ (v ^^^ w) := by
        intro x y z u v w h
        have : x = x ^^^ y ^^^ y := by rw [BitVec.xor_assoc, BitVec.xor_self]; exact (xor0 x).symm
        rw [this, h]; ac_rfl
      exact e3 _ _ _ _ _ _ e2
    · rw [if_neg hc, if_neg hc] at e1 e2
      rw [if_neg hc]
      exact Prod.ext e1 e2
  · rw [if_neg hl, if_neg hl] at e
    rw [if_neg hl]
    unfold addConst at e ⊢
    rw [if_neg (by omega), if_neg (by omega)] at e
    rw [if_neg (by omega)]
    exact e.symm

theorem block_inj {b b' : Bytes} (hb : b.length = 16) (hb' : b'.length = 16) (h0 : blockBranches b 0 = blockBranches b' 0) (h1 : blockBranches b 1 = blockBranches b' 1) :
    b = b' := by
  rw [← ofLeWords_leWords (w := 32) (by decide) b (by rw [hb]), ← ofLeWords_leWords (w := 32) (by decide) b' (by rw [hb'])]
  have four : ∀ b : Bytes, b.length = 16 → leWords 32 b = [(blockBranches b 0).1, (blockBranches b 0).2, (blockBranches b 1).1, (blockBranches b 1).2] := fun b hb => by
    have hl : (leWords 32 b).length = 4 := by rw [length_leWords, hb]
    unfold blockBranches
    match h : leWords 32 b, hl with
    | [x, y, z, u], _ => rfl
  rw [four b hb, four b' hb', h0, h1]

theorem inject_inj {h : Nat} (hh : h = 3 ∨ h = 4) {k k' : BitVec 32} {B : Branches} {b b' : Bytes} (hb : b.length = 16) (hb' : b'.length = 16)
    (e : Same (2 * h) (inject h (addConst h k B) b) (inject h (addConst h k' B) b')) : k = k' ∧ b = b' := by
  have get : ∀ i, i < h - 1 → feistel h (blockBranches b) i = feistel h (blockBranches b') i := fun i hi => by
    have e := e i (by omega)
    have h1 : i < h := by omega
    have h2 : ¬ i = h - 1 := by omega
    unfold inject addConst at e
    rw [if_pos h1, if_pos h1, if_neg h2, if_neg h2] at e
    exact Prod.ext ((BitVec.xor_right_inj _).1 (congrArg Prod.fst e)) ((BitVec.xor_right_inj _).1 (congrArg Prod.snd e))
  have g0 := get 0 (by omega)
  have g1 := get 1 (by omega)
  have gl := e (h - 1) (by omega)
  have h1 : h - 1 < h := by omega
  unfold inject addConst at gl
  rw [if_pos h1, if_pos h1, if_pos rfl, if_pos rfl] at gl
  rw [feistel_block hh, feistel_block hh] at g0 g1 gl
  have xx : ∀ {a b c d t u : BitVec 32}, a ^^^ t = b ^^^ u → c ^^^ t = d ^^^ u → a ^^^ c = b ^^^ d := fun {a b c d t u} h1 h2 => by
    have : a ^^^ c = (a ^^^ t) ^^^ (c ^^^ t) := by
      rw [show (a ^^^ t) ^^^ (c ^^^ t) = (a ^^^ c) ^^^ (t ^^^ t) by ac_rfl, BitVec.xor_self]; exact (xor0 _).symm
    rw [this, h1, h2, show (b ^^^ u) ^^^ (d ^^^ u) = (b ^^^ d) ^^^ (u ^^^ u) by ac_rfl, BitVec.xor_self]; exact xor0 _
  have ex := xx (congrArg Prod.fst g0) (congrArg Prod.fst g1)
  have ey := xx (congrArg Prod.snd g0) (congrArg Prod.snd g1)
  rw [ex, ey] at g0 g1 gl
  have c0 : blockBranches b 0 = blockBranches b' 0 := Prod.ext (Perm.xor_left_inj rfl (congrArg Prod.fst g0)) (Perm.xor_left_inj rfl (congrArg Prod.snd g0))
  have c1 : blockBranches b 1 = blockBranches b' 1 := Prod.ext (Perm.xor_left_inj rfl (congrArg Prod.fst g1)) (Perm.xor_left_inj rfl (congrArg Prod.snd g1))
  refine ⟨?_, block_inj hb hb' c0 c1⟩
  have z : ∀ b : Bytes, blockBranches b (h - 1) = (0, 0) := fun b => by unfold blockBranches; rw [if_neg (by omega)]
  rw [z, z] at gl
  exact (BitVec.xor_right_inj _).1 (Perm.xor_left_inj rfl (congrArg Prod.snd gl))

theorem esch_last {dom : BitVec 32} {msg : Bytes} {X : List (Option (BitVec 32) × Bytes)} {i : Option (BitVec 32) × Bytes} (h : Inputs.eschInputs dom msg = X ++ [i]) :
    ∃ c b, i = (some (c ^^^ dom), b) ∧ (c = 1 ∨ c = 2) ∧ b.length = 16 := by
  unfold Inputs.eschInputs at h
  obtain ⟨_, h⟩ := List.append_inj' h rfl
  injection h with h _
  rw [← h]
  split
  · rename_i hl
    exact ⟨1, _, rfl, .inl rfl, by simp only [List.length_append, List.length_singleton, List.length_replicate]; omega⟩
  · rename_i hl
    refine ⟨2, _, rfl, .inr rfl, ?_⟩
    rw [List.length_drop] at hl ⊢
    omega

theorem shift_xor (a b : BitVec 32) (n : Nat) : (a <<< n) ^^^ (b <<< n) = (a ^^^ b) <<< n := (BitVec.shiftLeft_xor_distrib ..).symm

theorem esch_reduces {it : Iter Unit Branches (Option (BitVec 32) × Bytes) O} {ok : Unit → Bytes → Prop} (F : Family) (hF : F = f256 ∨ F = f384) (dom : BitVec 32) (hdom : dom = 0 ∨ dom = 4)
    (hi : it.inputs = fun _ => Inputs.eschInputs dom) (hf : it.f = Inputs.eschStep F) (det : it.Determines ok) : it.ReducesToInner (stateBytes F.h) (Inner F.h) ok := by
  have hh : F.h = 3 ∨ F.h = 4 := by rcases hF with rfl | rfl; exacts [.inl rfl, .inr rfl]
  refine reduces det (fun θ msg => ?_) fun θ θ' msg msg' X X' i i' e e' h => ?_
  · rw [hi]
    unfold Inputs.eschInputs
    exact List.append_ne_nil_of_right_ne_nil _ (by simp)
  · rw [hi] at e e'
    obtain ⟨c, b, rfl, hc, hb⟩ := esch_last e
    obtain ⟨c', b', rfl, hc', hb'⟩ := esch_last e'
    rw [hf] at *
    have h := sparkle_inj F.h (by omega) _ _ _ (esch_bytes_inj F.h h)
    refine ⟨⟨sum b b', rfl, c ^^^ c', ?_, ?_⟩, fun hx => ?_⟩
    · rcases hc with rfl | rfl <;> rcases hc' with rfl | rfl <;> decide
    · have := inject_inner hh h
      rw [shift_xor, show c ^^^ dom ^^^ (c' ^^^ dom) = c ^^^ c' ^^^ (dom ^^^ dom) by ac_rfl, BitVec.xor_self] at this
      rw [show c ^^^ c' ^^^ 0#32 = c ^^^ c' from xor0 _] at this
      exact this
    · rw [hx] at h
      obtain ⟨k1, k2⟩ := inject_inj hh hb hb' h
      have : c = c' := by
        revert k1
        rcases hc with rfl | rfl <;> rcases hc' with rfl | rfl <;> rcases hdom with rfl | rfl <;> decide
      rw [this, k2]

theorem feistel_congr {h : Nat} {B C : Branches} (e : Same (2 * h) B C) (i : Nat) (hi : i < h) : feistel h B i = feistel h C i := by
  have : ∀ (p : BitVec 32 × BitVec 32 → BitVec 32), (List.range h).foldl (fun a i => a ^^^ p (B i)) 0 = (List.range h).foldl (fun a i => a ^^^ p (C i)) 0 := by
    intro p
    have : ∀ (l : List Nat) (a : BitVec 32), (∀ i ∈ l, i < h) → l.foldl (fun a i => a ^^^ p (B i)) a = l.foldl (fun a i => a ^^^ p (C i)) a := by
      intro l
      induction l with
      | nil => exact fun _ _ => rfl
      | cons i l ih =>
        intro a hl
        have hi := hl i (.head _)
        rw [List.foldl_cons, List.foldl_cons, e i (by omega)]
        exact ih _ fun j hj => hl j (.tail _ hj)
    exact this _ _ fun i hi => List.mem_range.1 hi
  unfold feistel
  rw [this Prod.fst, this Prod.snd, e i (by omega)]

theorem step_congr {h : Nat} (h0 : 0 < h) (s : Nat) {B C : Branches} (e : Same (2 * h) B C) : Same (2 * h) (step h B s) (step h C s) := by
  intro i hi
  let f (B : Branches) : Branches := fun i => alzette (c i) (if i = 0 then ((B 0).1, (B 0).2 ^^^ c (s % 8)) else if i = 1 then ((B 1).1, (B 1).2 ^^^ BitVec.ofNat 32 s) else B i)
  have ef : Same (2 * h) (f B) (f C) := by
    intro i hi
    show alzette _ (if i = 0 then _ else if i = 1 then _ else _) = alzette _ (if i = 0 then _ else if i = 1 then _ else _)
    by_cases i0 : i = 0
    · rw [if_pos i0, if_pos i0, e 0 (by omega)]
    · rw [if_neg i0, if_neg i0]
      by_cases i1 : i = 1
      · rw [if_pos i1, if_pos i1, e 1 (by omega)]
      · rw [if_neg i1, if_neg i1, e i hi]
  show linear h (f B) i = linear h (f C) i
  unfold linear
  dsimp only
  by_cases hl : i < h
  · have hj := Nat.mod_lt (i + 1) h0
    rw [if_pos hl, if_pos hl, ef _ (by omega), feistel_congr ef _ hj]
  · rw [if_neg hl, if_neg hl, ef _ (by omega)]

theorem sparkle_congr {h : Nat} (h0 : 0 < h) (ns : Nat) {B C : Branches} (e : Same (2 * h) B C) : Same (2 * h) (sparkle h ns B) (sparkle h ns C) := by
  have : ∀ (l : List Nat) (B C : Branches), Same (2 * h) B C → Same (2 * h) (l.foldl (step h) B) (l.foldl (step h) C) := by
    intro l
    induction l with
    | nil => exact fun _ _ e => e
    | cons s l ih => exact fun B C e => ih _ _ (step_congr h0 s e)
  exact this _ B C e

theorem inject_congr {h : Nat} {B C : Branches} (e : Same (2 * h) B C) (b : Bytes) : Same (2 * h) (inject h B b) (inject h C b) := by
  intro i hi
  unfold inject
  rw [e i hi]

theorem addConst_congr {h : Nat} {B C : Branches} (e : Same (2 * h) B C) (k : BitVec 32) : Same (2 * h) (addConst h k B) (addConst h k C) := by
  intro i hi
  unfold addConst
  rw [e i hi]

theorem eschStep_congr {F : Family} (h0 : 0 < F.h) {B C : Branches} (e : Same (2 * F.h) B C) (x : Option (BitVec 32) × Bytes) :
    Same (2 * F.h) (Inputs.eschStep F B x) (Inputs.eschStep F C x) := by
  obtain ⟨k | k, b⟩ := x
  · exact sparkle_congr h0 _ (inject_congr e b)
  · exact sparkle_congr h0 _ (inject_congr (addConst_congr e _) b)

theorem eschFold_congr {F : Family} (h0 : 0 < F.h) : ∀ (l : List (Option (BitVec 32) × Bytes)) {B C : Branches}, Same (2 * F.h) B C →
    Same (2 * F.h) (l.foldl (Inputs.eschStep F) B) (l.foldl (Inputs.eschStep F) C)
  | [], _, _, e => e
  | x :: l, _, _, e => eschFold_congr h0 l (eschStep_congr h0 e x)

theorem squeeze_congr {F : Family} (h1 : 1 ≤ F.h) {B C : Branches} (e : Same (2 * F.h) B C) : squeeze F B = squeeze F C := by
  funext n
  unfold squeeze
  have : ∀ k, Same (2 * F.h) (iter (sparkle F.h F.slim) k B) (iter (sparkle F.h F.slim) k C) := by
    intro k
    induction k with
    | zero => exact e
    | succ k ih => exact sparkle_congr (by omega) _ ih
  have h := this (n / 16)
  unfold outBytes
  rw [h 0 (by omega), h 1 (by omega)]

theorem addConst_zero (h : Nat) (B : Branches) : addConst h (0 <<< 24) B = B := by
  funext i
  unfold addConst
  split
  · exact Prod.ext rfl (xor0 _)
  · rfl

/-- The next block can be chosen so that the states agree. -/
theorem esch_complete {F : Family} (hh : F.h = 3 ∨ F.h = 4) {B B' : Branches} {d : Bytes} (h : ∀ i, i < 2 * F.h → B' i = inject F.h B d i) (b : Bytes) :
    ∃ b', b'.length = 16 ∧ Same (2 * F.h) (Inputs.eschStep F B (none, b)) (Inputs.eschStep F B' (none, b')) := by
  refine ⟨sum b d, rfl, sparkle_congr (by omega) _ fun i hi => ?_⟩
  unfold inject
  rw [h i hi]
  unfold inject
  by_cases hl : i < F.h
  · rw [if_pos hl, if_pos hl, if_pos hl, feistel_sum hh]
    have : ∀ x y z : BitVec 32, x ^^^ y = x ^^^ z ^^^ (y ^^^ z) := fun x y z => by
      rw [show x ^^^ z ^^^ (y ^^^ z) = x ^^^ y ^^^ (z ^^^ z) by ac_rfl, BitVec.xor_self]; exact (xor0 _).symm
    exact Prod.ext (this _ _ _) (this _ _ _)
  · rw [if_neg hl, if_neg hl, if_neg hl]

theorem eschInputs_append (dom : BitVec 32) (X t : Bytes) (hX : X.length % 16 = 0) (ht : t ≠ []) :
    Inputs.eschInputs dom (X ++ t) = (chunks 16 X).map (fun b => (none, b)) ++ Inputs.eschInputs dom t := by
  have hp : 0 < t.length := List.length_pos_iff.2 ht
  obtain ⟨k, hk⟩ : ∃ k, X.length = 16 * k := ⟨X.length / 16, by omega⟩
  unfold Inputs.eschInputs
  dsimp only
  have en : ((X ++ t).length - 1) / 16 = k + (t.length - 1) / 16 := by rw [List.length_append]; omega
  have ed : (X ++ t).drop (16 * (k + (t.length - 1) / 16)) = t.drop (16 * ((t.length - 1) / 16)) := by
    rw [List.drop_append, List.drop_of_length_le (by omega), List.nil_append, show 16 * (k + (t.length - 1) / 16) - X.length = 16 * ((t.length - 1) / 16) by omega]
  rw [en, ed, ← List.append_assoc]
  congr 1
  have hk' : X.length / 16 = k := by omega
  unfold chunks
  rw [hk', List.range_add, List.map_append, List.map_map, List.map_map]
  congr 1
  · apply List.map_congr_left
    intro i hi
    have hi := List.mem_range.1 hi
    show ((none : Option (BitVec 32)), _) = (none, _)
    congr 1
    unfold blockAt
    rw [List.drop_append_of_le_length (by omega), List.take_append_of_le_length (by rw [List.length_drop]; omega)]
  · apply List.map_congr_left
    intro i _
    show ((none : Option (BitVec 32)), _) = (none, _)
    congr 1
    show ((X ++ t).drop ((k + i) * 16)).take 16 = _
    unfold blockAt
    rw [List.drop_append, List.drop_of_length_le (by omega), List.nil_append, show (k + i) * 16 - X.length = i * 16 by omega]

end Esch
end Digestpp.Proofs.Inner
