import Verif.Spec.Collision
import Verif.Proofs.Inputs
import Verif.Proofs.Streebog

/-! Lemmas for C51. -/

namespace Digestpp.Proofs.Collision
open Spec Spec.Inputs

/-- Two computations with the same result are followed back until they differ. -/
theorem walk {V I : Type} (f : V → I → V) (iv : V) (bytes : V → Bytes) : ∀ n (a b : List I), a.length = n → a ≠ b →
    bytes (a.foldl f iv) = bytes (b.foldl f iv) →
    (∃ k k' i i', a[k]? = some i ∧ b[k']? = some i' ∧ a.drop (k + 1) = b.drop (k' + 1) ∧
      (bytes ((a.take k).foldl f iv), i) ≠ (bytes ((b.take k').foldl f iv), i') ∧
      bytes (f ((a.take k).foldl f iv) i) = bytes (f ((b.take k').foldl f iv) i')) ∨
    (∃ k, 0 < k ∧ k ≤ a.length ∧ a.drop k = b ∧ bytes ((a.take k).foldl f iv) = bytes iv) ∨
    (∃ k, 0 < k ∧ k ≤ b.length ∧ b.drop k = a ∧ bytes ((b.take k).foldl f iv) = bytes iv) := by
  intro n
  induction n with
  | zero =>
    intro a b ha hne h
    obtain rfl := List.length_eq_zero_iff.1 ha
    have hb : 0 < b.length := List.length_pos_iff.2 (Ne.symm hne)
    refine .inr (.inr ⟨b.length, hb, Nat.le_refl _, List.drop_length, ?_⟩)
    rw [List.take_length]
    exact h.symm
  | succ n ih =>
    intro a b ha hne h
    rcases List.eq_nil_or_concat b with rfl | ⟨b0, y, rfl⟩
    · refine .inr (.inl ⟨a.length, by omega, Nat.le_refl _, List.drop_length, ?_⟩)
      rw [List.take_length]
      exact h
    · rcases List.eq_nil_or_concat a with rfl | ⟨a0, x, rfl⟩
      · exact absurd ha (by simp)
      simp only [List.concat_eq_append] at ha hne h ⊢
      rw [List.foldl_append, List.foldl_append] at h
      simp only [List.foldl_cons, List.foldl_nil] at h
      by_cases hc : (bytes (a0.foldl f iv), x) = (bytes (b0.foldl f iv), y)
      · injection hc with h1 h2
        subst h2
        have hne0 : a0 ≠ b0 := fun e => hne (by rw [e])
        have la : a0.length = n := by simpa using ha
        rcases ih a0 b0 la hne0 h1 with ⟨k, k', i, i', e1, e2, e3, e4, e5⟩ | ⟨k, e1, e2, e3, e4⟩ | ⟨k, e1, e2, e3, e4⟩
        · have l1 : k < a0.length := (List.getElem?_eq_some_iff.1 e1).1
          have l2 : k' < b0.length := (List.getElem?_eq_some_iff.1 e2).1
          refine .inl ⟨k, k', i, i', ?_, ?_, ?_, ?_⟩
          · rw [List.getElem?_append_left l1, e1]
          · rw [List.getElem?_append_left l2, e2]
          · rw [List.drop_append_of_le_length (by omega), List.drop_append_of_le_length (by omega), e3]
          · rw [List.take_append_of_le_length (by omega), List.take_append_of_le_length (by omega)]
            exact ⟨e4, e5⟩
        · refine .inr (.inl ⟨k, e1, ?_, ?_, ?_⟩)
          · simp only [List.length_append]; omega
          · rw [List.drop_append_of_le_length e2, e3]
          · rw [List.take_append_of_le_length e2, e4]
        · refine .inr (.inr ⟨k, e1, ?_, ?_, ?_⟩)
          · simp only [List.length_append]; omega
          · rw [List.drop_append_of_le_length e2, e3]
          · rw [List.take_append_of_le_length e2, e4]
      · refine .inl ⟨a0.length, b0.length, x, y, ?_, ?_, ?_, ?_⟩
        · simp
        · simp
        · simp
        · rw [List.take_append_of_le_length (Nat.le_refl _), List.take_append_of_le_length (Nat.le_refl _), List.take_length, List.take_length]
          exact ⟨hc, h⟩

variable {Θ V I O : Type}

/-- No input list is the end of a longer one. -/
def SuffixFree (it : Iter Θ V I O) (ok : Θ → Bytes → Prop) : Prop :=
  ∀ θ θ' msg msg' k, ok θ msg → ok θ' msg' → k ≤ (it.inputs θ msg).length → (it.inputs θ msg).drop k = it.inputs θ' msg' → k = 0

theorem reduces_or_returns {it : Iter Θ V I O} {ok : Θ → Bytes → Prop} (bytes : V → Bytes) (hd : it.Determines ok)
    {θ θ' : Θ} {msg msg' : Bytes} (h1 : ok θ msg) (h2 : ok θ' msg') (hne : ¬ (θ = θ' ∧ msg = msg')) (h : it.result θ msg = it.result θ' msg') :
    it.StepCollision bytes θ θ' msg msg' ∨ it.OutCollision bytes θ θ' msg msg' ∨
      it.Returns bytes θ msg ∨ it.Returns bytes θ' msg' := by
  by_cases hb : bytes (it.chain θ msg) = bytes (it.chain θ' msg')
  · rcases walk it.f it.iv bytes _ _ _ rfl (fun e => hne (hd _ _ _ _ h1 h2 e)) hb with
      ⟨k, k', i, i', e1, e2, _, e4, e5⟩ | ⟨k, e1, e2, _, e4⟩ | ⟨k, e1, e2, _, e4⟩
    · exact .inl ⟨k, k', i, i', e1, e2, e4, e5⟩
    · exact .inr (.inr (.inl ⟨k, e1, e2, e4⟩))
    · exact .inr (.inr (.inr ⟨k, e1, e2, e4⟩))
  · exact .inr (.inl ⟨hb, h⟩)

theorem reduces {it : Iter Θ V I O} {ok : Θ → Bytes → Prop} (bytes : V → Bytes) (hd : it.Determines ok) (hs : SuffixFree it ok) :
    it.Reduces bytes ok := by
  intro θ θ' msg msg' h1 h2 hne h
  by_cases hb : bytes (it.chain θ msg) = bytes (it.chain θ' msg')
  · rcases walk it.f it.iv bytes _ _ _ rfl (fun e => hne (hd _ _ _ _ h1 h2 e)) hb with
      ⟨k, k', i, i', e1, e2, _, e4, e5⟩ | ⟨k, e1, e2, e3, e4⟩ | ⟨k, e1, e2, e3, e4⟩
    · exact .inl ⟨k, k', i, i', e1, e2, e4, e5⟩
    · have := hs _ _ _ _ k h1 h2 e2 e3; omega
    · have := hs _ _ _ _ k h2 h1 e2 e3; omega
  · exact .inr ⟨hb, h⟩

theorem reducesToStep {it : Iter Θ V I O} {ok : Θ → Bytes → Prop} {bytes : V → Bytes} (h : it.Reduces bytes ok)
    (ho : ∀ θ θ' v v', it.out θ v = it.out θ' v' → bytes v = bytes v') : it.ReducesToStep bytes ok := by
  intro θ θ' msg msg' h1 h2 hne he
  rcases h θ θ' msg msg' h1 h2 hne he with h | h
  · exact h
  · exact absurd (ho _ _ _ _ h.2) h.1

/-! The last input has the length of the message. -/

theorem suffixFree_of_last {it : Iter Θ V I O} {ok : Θ → Bytes → Prop} (hne : ∀ θ msg, it.inputs θ msg ≠ [])
    (h : ∀ θ θ' msg msg', ok θ msg → ok θ' msg' → (it.inputs θ msg).getLast? = (it.inputs θ' msg').getLast? →
      (it.inputs θ msg).length = (it.inputs θ' msg').length) : SuffixFree it ok := by
  intro θ θ' msg msg' k h1 h2 hk e
  have hl := congrArg List.length e
  rw [List.length_drop] at hl
  have hp : 0 < (it.inputs θ' msg').length := List.length_pos_iff.2 (hne _ _)
  have := h θ θ' msg msg' h1 h2 (by rw [← e, List.getLast?_drop, if_neg (by omega)])
  omega

theorem chunks_last {α : Type} {n : Nat} (hn : 0 < n) {l : List α} (hl : l.length % n = 0) (h0 : 0 < l.length) :
    (chunks n l).getLast? = some (l.drop (l.length - n)) := by
  have hp := Inputs.div_pos_of_mod hn h0 hl
  obtain ⟨k, hk⟩ : ∃ k, l.length / n = k + 1 := ⟨l.length / n - 1, by omega⟩
  have hd := Nat.div_add_mod l.length n
  rw [hl, hk, Nat.add_zero, Nat.mul_comm, Nat.add_mul, Nat.one_mul] at hd
  unfold chunks
  rw [hk, List.range_succ, List.map_append, List.map_cons, List.map_nil, List.getLast?_concat]
  unfold blockAt
  rw [show l.length - n = k * n by omega, List.take_of_length_le (by rw [List.length_drop]; omega)]

theorem chunks_ne {α : Type} {n : Nat} (hn : 0 < n) {l : List α} (hl : l.length % n = 0) (h0 : 0 < l.length) : chunks n l ≠ [] := fun e => by
  have := chunks_last hn hl h0
  rw [e] at this
  exact nomatch this

/-- Strings ending with fields of the same length, as the last blocks of which are the same. -/
theorem last_field {bs lf : Nat} (hb : 0 < bs) (hlf : lf ≤ bs) {a a' f f' : Bytes} (hf : f.length = lf) (hf' : f'.length = lf)
    (h0 : 0 < (a ++ f).length) (h0' : 0 < (a' ++ f').length)
    (hm : (a ++ f).length % bs = 0) (hm' : (a' ++ f').length % bs = 0)
    (h : (chunks bs (a ++ f)).getLast? = (chunks bs (a' ++ f')).getLast?) : f = f' := by
  rw [chunks_last hb hm h0, chunks_last hb hm' h0'] at h
  injection h with h
  have h := congrArg (List.drop (bs - lf)) h
  have g : ∀ {a f : Bytes}, f.length = lf → 0 < (a ++ f).length → (a ++ f).length % bs = 0 →
      ((a ++ f).drop ((a ++ f).length - bs)).drop (bs - lf) = f := by
    intro a f hf h0 hm
    have h1 : bs ≤ (a ++ f).length := Nat.le_of_dvd h0 (Nat.dvd_of_mod_eq_zero hm)
    rw [List.drop_drop]
    rw [List.length_append] at h1 ⊢
    rw [show a.length + f.length - bs + (bs - lf) = a.length by omega, List.drop_left]
  rwa [g hf h0 hm, g hf' h0' hm'] at h

theorem length_chunks {α : Type} (n : Nat) (l : List α) : (chunks n l).length = l.length / n := by
  unfold chunks
  rw [List.length_map, List.length_range]

theorem mdPad_pos (bs : Nat) (f msg : Bytes) : 0 < (mdPad bs f msg).length := by
  unfold mdPad; simp only [List.length_append, List.length_singleton]; omega

theorem md_last {bs lf : Nat} (hb : 0 < bs) (hlf : lf ≤ bs) {f f' msg msg' : Bytes} (hf : f.length = lf) (hf' : f'.length = lf)
    (h : (chunks bs (mdPad bs f msg)).getLast? = (chunks bs (mdPad bs f' msg')).getLast?) : f = f' :=
  last_field hb hlf hf hf' (mdPad_pos _ _ _) (mdPad_pos _ _ _) (Inputs.length_mdPad _ hb _ _) (Inputs.length_mdPad _ hb _ _) h

theorem md_length {bs lf : Nat} {f f' msg msg' : Bytes} (hf : f.length = lf) (hf' : f'.length = lf) (h : msg.length = msg'.length) :
    (chunks bs (mdPad bs f msg)).length = (chunks bs (mdPad bs f' msg')).length := by
  rw [length_chunks, length_chunks]
  unfold mdPad
  simp only [List.length_append, List.length_singleton, List.length_replicate, hf, hf', h]

theorem beBytes_inj {n a b : Nat} (ha : a < 256 ^ n) (hb : b < 256 ^ n) (h : beBytes n a = beBytes n b) : a = b := by
  have h := congrArg beNat h
  rwa [beNat_beBytes, beNat_beBytes, Nat.mod_eq_of_lt ha, Nat.mod_eq_of_lt hb] at h

theorem leBytes_inj {n a b : Nat} (ha : a < 256 ^ n) (hb : b < 256 ^ n) (h : leBytes n a = leBytes n b) : a = b := by
  have h := congrArg leNat h
  rwa [leNat_leBytes, leNat_leBytes, Nat.mod_eq_of_lt ha, Nat.mod_eq_of_lt hb] at h

/-- Messages of fewer than `2^61` bytes. -/
abbrev Short {Θ : Type} : Θ → Bytes → Prop := fun _ msg => msg.length < 2 ^ 61

theorem Determines.mono {it : Iter Θ V I O} {ok ok' : Θ → Bytes → Prop} (h : it.Determines ok) (hi : ∀ θ msg, ok' θ msg → ok θ msg) :
    it.Determines ok' := fun _ _ _ _ a b e => h _ _ _ _ (hi _ _ a) (hi _ _ b) e

/-- Iterations over the blocks of a message padded with a field from which its length can be found. -/
theorem md_suffixFree {V O : Type} {it : Iter Unit V Bytes O} {ok : Unit → Bytes → Prop} {bs lf : Nat} (hb : 0 < bs) (hlf : lf ≤ bs) (fld : Bytes → Bytes)
    (hl : ∀ msg, (fld msg).length = lf) (hi : it.inputs = fun _ msg => chunks bs (mdPad bs (fld msg) msg))
    (hf : ∀ msg msg', ok () msg → ok () msg' → fld msg = fld msg' → msg.length = msg'.length) : SuffixFree it ok := by
  apply suffixFree_of_last
  · intro θ msg
    rw [hi]
    exact chunks_ne hb (Inputs.length_mdPad _ hb _ _) (mdPad_pos _ _ _)
  · intro θ θ' msg msg' h1 h2 h
    rw [hi] at h ⊢
    exact md_length (hl _) (hl _) (hf _ _ h1 h2 (md_last hb hlf (hl _) (hl _) h))

theorem md5_free : SuffixFree Inputs.md5 Short :=
  md_suffixFree (bs := 64) (lf := 8) (by decide) (by decide) (fun msg => leBytes 8 (8 * msg.length)) (fun _ => length_leBytes _ _) rfl
    fun msg msg' h h' e => by
      have := leBytes_inj (n := 8) (by show 8 * msg.length < _; omega) (by omega) e
      omega

theorem sha1_free : SuffixFree Inputs.sha1 Short :=
  md_suffixFree (bs := 64) (lf := 8) (by decide) (by decide) (fun msg => beBytes 8 (8 * msg.length)) (fun _ => length_beBytes _ _) rfl
    fun msg msg' h h' e => by
      have := beBytes_inj (n := 8) (by omega) (by omega) e
      omega

theorem sm3_free : SuffixFree Inputs.sm3 Short :=
  md_suffixFree (bs := 64) (lf := 8) (by decide) (by decide) (fun msg => beBytes 8 (8 * msg.length)) (fun _ => length_beBytes _ _) rfl
    fun msg msg' h h' e => by
      have := beBytes_inj (n := 8) (by omega) (by omega) e
      omega

theorem pow256 {n a : Nat} (hn : 8 ≤ n) (h : a < 2 ^ 64) : a < 256 ^ n :=
  Nat.lt_of_lt_of_le h (Nat.le_trans (by decide : 2 ^ 64 ≤ 256 ^ 8) (Nat.pow_le_pow_right (by decide) hn))

theorem wrap64_short {msg : Bytes} (h : msg.length < 2 ^ 61) : wrap64 (8 * msg.length) = 8 * msg.length := by
  unfold wrap64
  exact Nat.mod_eq_of_lt (by omega)

theorem sha2_free {w : Nat} (hw : 32 ≤ w) (v : Spec.Sha2.Variant w) (iv : Spec.Sha2.H8 w) (n : Nat) : SuffixFree (Inputs.sha2 v iv n) Short :=
  md_suffixFree (bs := 2 * w) (lf := w / 4) (by omega) (by omega) (fun msg => beBytes (w / 4) (bits64 msg.length)) (fun _ => length_beBytes _ _) rfl
    fun msg msg' h h' e => by
      have e1 : bits64 msg.length = 8 * msg.length := Nat.mod_eq_of_lt (by show 8 * msg.length < _; omega)
      have e2 : bits64 msg'.length = 8 * msg'.length := Nat.mod_eq_of_lt (by show 8 * msg'.length < _; omega)
      rw [e1, e2] at e
      have := beBytes_inj (pow256 (by omega) (by omega)) (pow256 (by omega) (by omega)) e
      omega

theorem whirlpool_free : SuffixFree Inputs.whirlpool Short :=
  md_suffixFree (bs := 64) (lf := 32) (by decide) (by decide) (fun msg => beBytes 32 (wrap64 (8 * msg.length))) (fun _ => length_beBytes _ _) rfl
    fun msg msg' h h' e => by
      rw [wrap64_short h, wrap64_short h'] at e
      have := beBytes_inj (pow256 (by decide) (by omega)) (pow256 (by decide) (by omega)) e
      omega

theorem kupyna_free (c n : Nat) (hc : 2 ≤ c) : SuffixFree (Inputs.kupyna c n) Short :=
  md_suffixFree (bs := 8 * c) (lf := 12) (by omega) (by omega) (fun msg => leBytes 12 (wrap64 (8 * msg.length))) (fun _ => length_leBytes _ _) rfl
    fun msg msg' h h' e => by
      rw [wrap64_short h, wrap64_short h'] at e
      have := leBytes_inj (pow256 (by decide) (by omega)) (pow256 (by decide) (by omega)) e
      omega

theorem blocks_eq (c : Nat) (f msg : Bytes) (hf : f.length = 8) (hc : 0 < c) :
    (chunks (8 * c) (mdPad (8 * c) f msg)).length = Spec.Groestl.blocks c msg.length := by
  rw [length_chunks]
  unfold mdPad Spec.Groestl.blocks
  simp only [List.length_append, List.length_singleton, List.length_replicate, hf]
  generalize hB : 8 * c = B
  have hB0 : 0 < B := by omega
  have h1 := Inputs.length_toMultiple B (msg.length + 1 + 8) hB0
  have h2 : toMultiple B (msg.length + 1 + 8) < B := Nat.mod_lt _ hB0
  generalize toMultiple B (msg.length + 1 + 8) = z at h1 h2 ⊢
  have h3 := Nat.div_add_mod (msg.length + 1 + 8 + z) B
  rw [h1] at h3
  rw [show msg.length + 1 + z + 8 = msg.length + 1 + 8 + z by omega]
  generalize (msg.length + 1 + 8 + z) / B = q at h3 ⊢
  symm
  apply Nat.div_eq_of_lt_le
  · rw [Nat.mul_comm]; omega
  · rw [Nat.add_mul, Nat.mul_comm]; omega

theorem groestl_free (c n : Nat) (hc : 0 < c) (hc' : c ≤ 16) : SuffixFree (Inputs.groestl c n) fun _ msg => msg.length < 2 ^ 61 - 256 := by
  have hb : 0 < 8 * c := by omega
  apply suffixFree_of_last
  · intro θ msg
    exact chunks_ne hb (Inputs.length_mdPad _ hb _ _) (mdPad_pos _ _ _)
  · intro θ θ' msg msg' h1 h2 h
    have h := md_last hb (by omega) (length_beBytes _ _) (length_beBytes _ _) h
    have e : ∀ {msg : Bytes}, msg.length < 2 ^ 61 - 256 → wrap64 (64 * c * Spec.Groestl.blocks c msg.length) / (64 * c) = Spec.Groestl.blocks c msg.length := by
      intro msg hl
      have h3 := Nat.div_mul_le_self (msg.length + 9 + (8 * c - 1)) (8 * c)
      unfold wrap64
      rw [Nat.mod_eq_of_lt, Nat.mul_div_cancel_left _ (by omega)]
      unfold Spec.Groestl.blocks
      rw [Nat.mul_comm] at h3
      generalize (msg.length + 9 + (8 * c - 1)) / (8 * c) = q at h3 ⊢
      rw [show 64 * c * q = 8 * (8 * c * q) by rw [← Nat.mul_assoc, ← Nat.mul_assoc]]
      omega
    have b : ∀ {msg : Bytes}, msg.length < 2 ^ 61 - 256 → Spec.Groestl.blocks c msg.length < 256 ^ 8 := by
      intro msg hl
      unfold Spec.Groestl.blocks
      have := Nat.div_le_self (msg.length + 9 + (8 * c - 1)) (8 * c)
      omega
    rw [e h1, e h2] at h
    have h := beBytes_inj (b h1) (b h2) h
    show (chunks _ _).length = (chunks _ _).length
    unfold Spec.Groestl.padWrap
    rw [blocks_eq _ _ _ (length_beBytes _ _) hc, blocks_eq _ _ _ (length_beBytes _ _) hc, h]

/-- Iterations over blocks, of which the last ends with a field from which the length of the message can be found. -/
theorem field_suffixFree {Θ V I O : Type} {it : Iter Θ V I O} {ok : Θ → Bytes → Prop} (g : I → Bytes) {bs lf : Nat} (hb : 0 < bs) (hlf : lf ≤ bs)
    (pre : Bytes → Bytes) (fld : Bytes → Bytes) (hl : ∀ msg, (fld msg).length = lf)
    (hi : ∀ θ msg, (it.inputs θ msg).map g = chunks bs (pre msg ++ fld msg))
    (hm : ∀ msg, (pre msg ++ fld msg).length % bs = 0) (h0 : ∀ msg, 0 < (pre msg ++ fld msg).length)
    (hp : ∀ msg msg' : Bytes, msg.length = msg'.length → (pre msg).length = (pre msg').length)
    (hf : ∀ θ θ' msg msg', ok θ msg → ok θ' msg' → fld msg = fld msg' → msg.length = msg'.length) : SuffixFree it ok := by
  apply suffixFree_of_last
  · intro θ msg e
    have := hi θ msg
    rw [e] at this
    exact chunks_ne hb (hm msg) (h0 msg) this.symm
  · intro θ θ' msg msg' h1 h2 h
    have h := congrArg (Option.map g) h
    rw [← List.getLast?_map, ← List.getLast?_map, hi, hi] at h
    have h := hf _ _ _ _ h1 h2 (last_field hb hlf (hl _) (hl _) (h0 _) (h0 _) (hm _) (hm _) h)
    have e := fun θ msg => congrArg List.length (hi θ msg)
    simp only [List.length_map] at e
    rw [e, e, length_chunks, length_chunks, List.length_append, List.length_append, hl, hl, hp _ _ h]

theorem jh_free (n : Nat) : SuffixFree (Inputs.jh n) Short :=
  field_suffixFree id (bs := 64) (lf := 16) (by decide) (by decide)
    (fun msg => msg ++ [0x80] ++ List.replicate (47 + toMultiple 64 msg.length) 0) (fun msg => beBytes 16 (wrap64 (8 * msg.length)))
    (fun _ => length_beBytes _ _) (fun _ _ => List.map_id _) (fun msg => Inputs.length_jhPad wrap64 msg)
    (fun msg => by simp only [List.length_append, List.length_singleton]; omega)
    (fun msg msg' h => by simp only [List.length_append, List.length_singleton, List.length_replicate, h])
    fun _ _ msg msg' h h' e => by
      rw [wrap64_short h, wrap64_short h'] at e
      have := beBytes_inj (pow256 (by decide) (by omega)) (pow256 (by decide) (by omega)) e
      omega

theorem echo_free (cw n : Nat) (hc : cw ≤ 8) : SuffixFree (Inputs.echo cw n) Short :=
  field_suffixFree Prod.snd (bs := 16 * (16 - cw)) (lf := 18) (by omega) (by omega)
    (fun msg => msg ++ [0x80] ++ List.replicate (toMultiple (16 * (16 - cw)) (msg.length + 1 + 18)) 0)
    (fun msg => leBytes 2 (8 * n) ++ leBytes 16 (wrap64 (8 * msg.length)))
    (fun _ => by rw [List.length_append, length_leBytes, length_leBytes])
    (fun θ msg => by
      have := Inputs.numbered_snd (16 * (16 - cw)) (fun i => (θ, Spec.Echo.counter (16 * (16 - cw)) msg.length i))
        (Spec.Echo.pad wrap64 (16 * (16 - cw)) n msg)
      refine this.trans ?_
      unfold Spec.Echo.pad mdPad
      rw [List.length_append, length_leBytes, length_leBytes])
    (fun msg => by
      have := Inputs.length_mdPad (16 * (16 - cw)) (by omega) (leBytes 2 (8 * n) ++ leBytes 16 (wrap64 (8 * msg.length))) msg
      unfold mdPad at this
      rwa [show (leBytes 2 (8 * n) ++ leBytes 16 (wrap64 (8 * msg.length))).length = 18 by rw [List.length_append, length_leBytes, length_leBytes]]
        at this)
    (fun msg => by simp only [List.length_append, List.length_singleton]; omega)
    (fun msg msg' h => by simp only [List.length_append, List.length_singleton, List.length_replicate, h])
    fun _ _ msg msg' h h' e => by
      have e := (List.append_inj e rfl).2
      rw [wrap64_short h, wrap64_short h'] at e
      have := leBytes_inj (pow256 (by decide) (by omega)) (pow256 (by decide) (by omega)) e
      omega

theorem blake_free {w : Nat} (hw : 32 ≤ w) (v : Spec.Blake.Variant w) (iv : Spec.Sha2.H8 w) (one : Bool) (n : Nat) :
    SuffixFree (Inputs.blake v iv one n) Short :=
  field_suffixFree Prod.snd (bs := 2 * w) (lf := w / 4) (by omega) (by omega)
    (fun msg => msg ++ (0x80 :: List.replicate (toMultiple (2 * w) (msg.length + 1 + w / 4)) (0 : Byte)).dropLast ++
      [(0x80 :: List.replicate (toMultiple (2 * w) (msg.length + 1 + w / 4)) (0 : Byte)).getLastD 0 ||| (if one then 0x01 else 0x00)])
    (fun msg => beBytes (w / 4) (wrap64 (8 * msg.length)))
    (fun _ => length_beBytes _ _)
    (fun θ msg => Inputs.numbered_snd _ _ _)
    (fun msg => Inputs.length_blakePad (2 * w) (w / 4) one (wrap64 (8 * msg.length)) msg (by omega))
    (fun msg => by simp only [List.length_append, List.length_singleton]; omega)
    (fun msg msg' h => by simp only [List.length_append, List.length_singleton, List.length_replicate, List.length_dropLast, List.length_cons, h])
    fun _ _ msg msg' h h' e => by
      rw [wrap64_short h, wrap64_short h'] at e
      have := beBytes_inj (pow256 (by omega) (by omega)) (pow256 (by omega) (by omega)) e
      omega

theorem streebog_free (n : Nat) : SuffixFree (Inputs.streebog n) Short := by
  intro θ θ' msg msg' k h1 h2 hk e
  have hl : ∀ {m m' : Bytes}, m.length = m'.length → ((Inputs.streebog n).inputs θ m).length = ((Inputs.streebog n).inputs θ' m').length := by
    intro m m' h
    unfold Inputs.streebog numbered Spec.Streebog.pad
    simp only [List.length_append, List.length_map, List.length_range, List.length_cons, List.length_nil, List.length_replicate, h]
  have hlen := congrArg List.length e
  rw [List.length_drop] at hlen
  suffices h : msg.length = msg'.length by
    have := hl h
    omega
  unfold Inputs.streebog at e hlen hk
  dsimp only at e hlen hk
  have hA : k ≤ (numbered 64 (fun k => wrap64 (512 * k)) (Spec.Streebog.pad msg)).length := by
    simp only [List.length_append, List.length_cons, List.length_nil] at hlen
    omega
  rw [List.drop_append_of_le_length hA] at e
  have e := (List.append_inj' e (by simp only [List.length_cons, List.length_nil])).2
  injection e with e _
  injection e with _ e
  rw [wrap64_short h1, wrap64_short h2] at e
  have := leBytes_inj (pow256 (by decide) (by omega)) (pow256 (by decide) (by omega)) e
  omega

/-! BLAKE2 -/

theorem ofLeWords_inj {w : Nat} (hw : w % 8 = 0) : ∀ {l l' : List (BitVec w)}, l.length = l'.length → ofLeWords l = ofLeWords l' → l = l' := by
  intro l
  induction l with
  | nil => intro l' h _; exact (List.length_eq_zero_iff.1 h.symm).symm
  | cons x l ih =>
    intro l' hl h
    cases l' with
    | nil => exact absurd hl (by simp)
    | cons y l' =>
      unfold ofLeWords at h
      rw [List.flatMap_cons, List.flatMap_cons] at h
      obtain ⟨h1, h2⟩ := List.append_inj h (by rw [length_leBytes, length_leBytes])
      have hp : 2 ^ w = 256 ^ (w / 8) := by rw [show 256 = 2 ^ 8 from rfl, ← Nat.pow_mul, show 8 * (w / 8) = w by omega]
      have h1 := leBytes_inj (hp ▸ x.isLt) (hp ▸ y.isLt) h1
      rw [BitVec.eq_of_toNat_eq h1, ih (by simpa using hl) h2]

theorem leNat_inj {a b : Bytes} (hl : a.length = b.length) (h : leNat a = leNat b) : a = b := by
  rw [← Streebog.leBytes_leNat a, ← Streebog.leBytes_leNat b, h, hl]

theorem leWords_inj {w : Nat} (hw : w % 8 = 0) (h0 : 0 < w) {b b' : Bytes} (hb : b.length = w) (hb' : b'.length = w)
    (h : ∀ i, i < 8 → (leWords w b).getD i 0 = (leWords w b').getD i 0) : b = b' := by
  have hp : 2 ^ w = 256 ^ (w / 8) := by rw [show 256 = 2 ^ 8 from rfl, ← Nat.pow_mul, show 8 * (w / 8) = w by omega]
  have hm : w / (w / 8) = 8 := by
    rw [show w / (w / 8) = (8 * (w / 8)) / (w / 8) by rw [show 8 * (w / 8) = w by omega], Nat.mul_div_cancel _ (by omega)]
  apply chunks_inj (n := w / 8)
  · rw [hb, show w = 8 * (w / 8) by omega]; exact Nat.mod_eq_zero_of_dvd ⟨8, by rw [Nat.mul_div_cancel_left _ (by decide), Nat.mul_comm]⟩
  · rw [hb', show w = 8 * (w / 8) by omega]; exact Nat.mod_eq_zero_of_dvd ⟨8, by rw [Nat.mul_div_cancel_left _ (by decide), Nat.mul_comm]⟩
  · unfold chunks
    rw [hb, hb', hm]
    apply List.map_congr_left
    intro i hi
    have hi := List.mem_range.1 hi
    have h := h i hi
    unfold leWords at h
    rw [hb, hb', hm, List.getD_eq_getElem?_getD, List.getD_eq_getElem?_getD, List.getElem?_map, List.getElem?_map,
      List.getElem?_range hi, Option.map_some, Option.map_some, Option.getD_some, Option.getD_some] at h
    have hlen : ∀ {b : Bytes}, b.length = w → ((b.drop (i * (w / 8))).take (w / 8)).length = w / 8 := by
      intro b hb
      have h1 : (i + 1) * (w / 8) ≤ 8 * (w / 8) := Nat.mul_le_mul_right _ hi
      rw [Nat.add_mul, Nat.one_mul] at h1
      rw [List.length_take, List.length_drop, hb]
      omega
    have h := congrArg BitVec.toNat h
    rw [BitVec.toNat_ofNat, BitVec.toNat_ofNat, Nat.mod_eq_of_lt, Nat.mod_eq_of_lt] at h
    · exact leNat_inj ((hlen hb).trans (hlen hb').symm) h
    · have := leNat_lt ((b'.drop (i * (w / 8))).take (w / 8)); rwa [hlen hb', ← hp] at this
    · have := leNat_lt ((b.drop (i * (w / 8))).take (w / 8)); rwa [hlen hb, ← hp] at this

theorem bytes8_inj {w : Nat} (hw : w % 8 = 0) {h h' : Nat → BitVec w} (e : bytes8 h = bytes8 h') (i : Nat) (hi : i < 8) : h i = h' i := by
  have e := ofLeWords_inj hw (by simp) e
  have e := congrArg (fun l => l[i]?) e
  simpa [hi] using e

theorem xor_left_inj {w : Nat} {a b c : BitVec w} (h : a ^^^ b = a ^^^ c) : b = c := by
  have h := congrArg (a ^^^ ·) h
  simpa [← BitVec.xor_assoc] using h

theorem length_params {w : Nat} {v : Spec.Blake2.Variant w} {p : Spec.Blake2.Params} (hw : w % 8 = 0) (hx : 14 + v.xlen ≤ w / 2)
    (hs : p.salt.length = w / 4) (hp : p.personal.length = w / 4) : (p.bytes v).length = w := by
  unfold Spec.Blake2.Params.bytes
  simp only [List.length_append, List.length_replicate, length_leBytes, hs, hp]
  omega

theorem items_last {w : Nat} (v : Spec.Blake2.Variant w) (p : Spec.Blake2.Params) (l : Bool) (data : Bytes) (hw : 0 < w) :
    ((blake2Items v p l data).getLast?.map Inputs.itemBlock).map Prod.fst = some data.length := by
  unfold blake2Items
  dsimp only
  generalize hk : max 1 ((data.length + 2 * w - 1) / (2 * w)) = k
  obtain ⟨j, rfl⟩ : ∃ j, k = j + 1 := ⟨k - 1, by omega⟩
  rw [List.range_succ, List.map_append, List.map_cons, List.map_nil, ← List.cons_append, List.getLast?_concat, Option.map_some, Option.map_some]
  show some (min _ _) = _
  rw [Nat.min_eq_right]
  have h1 : (data.length + 2 * w - 1) / (2 * w) ≤ j + 1 := by omega
  have h2 := Nat.mul_le_mul_right (2 * w) h1
  have h3 := Nat.div_add_mod (data.length + 2 * w - 1) (2 * w)
  have h4 := Nat.mod_lt (data.length + 2 * w - 1) (show 0 < 2 * w by omega)
  rw [Nat.mul_comm] at h3
  omega

theorem length_items {w : Nat} (v : Spec.Blake2.Variant w) (p : Spec.Blake2.Params) (l : Bool) (data : Bytes) :
    (blake2Items v p l data).length = 1 + max 1 ((data.length + 2 * w - 1) / (2 * w)) := by
  unfold blake2Items
  simp only [List.length_cons, List.length_map, List.length_range]
  omega

theorem items_zero {w : Nat} (v : Spec.Blake2.Variant w) (p : Spec.Blake2.Params) (l : Bool) (data : Bytes) :
    (blake2Items v p l data)[0]? = some (.params (p.bytes v)) := rfl

theorem items_succ {w : Nat} {v : Spec.Blake2.Variant w} {p : Spec.Blake2.Params} {l : Bool} {data : Bytes} {k : Nat} {i : Blake2Item}
    (h : (blake2Items v p l data)[k + 1]? = some i) : ∃ t f0 f1 b, i = .block t f0 f1 b := by
  unfold blake2Items at h
  dsimp only at h
  rw [List.getElem?_cons_succ, List.getElem?_map] at h
  cases hk : (List.range (max 1 ((data.length + 2 * w - 1) / (2 * w))))[k]? with
  | none => rw [hk] at h; exact nomatch h
  | some j => rw [hk] at h; cases h; exact ⟨_, _, _, _, rfl⟩

theorem blake2_reduces {w : Nat} (hw : w % 8 = 0) (h0 : 0 < w) (hw' : w < 256) (v : Spec.Blake2.Variant w) (hx : 14 + v.xlen ≤ w / 2) (n : Nat)
    {θ θ' : Spec.Blake2.Theta} {msg msg' : Bytes} (ok : BlakeOk w θ) (ok' : BlakeOk w θ') (hne : ¬ (θ = θ' ∧ msg = msg'))
    (h : (Inputs.blake2 v n).result θ msg = (Inputs.blake2 v n).result θ' msg') :
    BlockCollision v (Inputs.blake2 v n) θ θ' msg msg' ∨ (Inputs.blake2 v n).OutCollision bytes8 θ θ' msg msg' := by
  by_cases hb : bytes8 ((Inputs.blake2 v n).chain θ msg) = bytes8 ((Inputs.blake2 v n).chain θ' msg')
  · left
    have hlast : ∀ {θ θ' : Spec.Blake2.Theta} {msg msg' : Bytes},
        ((Inputs.blake2 v n).inputs θ msg).getLast? = ((Inputs.blake2 v n).inputs θ' msg').getLast? →
        ((Inputs.blake2 v n).inputs θ msg).length = ((Inputs.blake2 v n).inputs θ' msg').length := by
      intro θ θ' msg msg' e
      have e1 : _ = some _ := items_last v (Spec.Blake2.seqParams θ n 0) false (Spec.Blake2.keyed (2 * w) θ.key msg) h0
      have e2 : _ = some _ := items_last v (Spec.Blake2.seqParams θ' n 0) false (Spec.Blake2.keyed (2 * w) θ'.key msg') h0
      have e3 := (congrArg (fun x => (x.map Inputs.itemBlock).map Prod.fst) e)
      have e3 := Option.some.inj (e1.symm.trans (e3.trans e2))
      have l1 : ((Inputs.blake2 v n).inputs θ msg).length = _ := length_items ..
      have l2 : ((Inputs.blake2 v n).inputs θ' msg').length = _ := length_items ..
      rw [e3] at l1
      omega
    have hl : ∀ {θ θ' : Spec.Blake2.Theta} {msg msg' : Bytes} {k : Nat}, k ≤ ((Inputs.blake2 v n).inputs θ msg).length →
        ((Inputs.blake2 v n).inputs θ msg).drop k = (Inputs.blake2 v n).inputs θ' msg' → k = 0 := by
      intro θ θ' msg msg' k hk e
      have hlen := congrArg List.length e
      rw [List.length_drop] at hlen
      have e : (((Inputs.blake2 v n).inputs θ msg)).getLast? = ((Inputs.blake2 v n).inputs θ' msg').getLast? := by
        rw [← e, List.getLast?_drop, if_neg]
        intro h
        have : ((Inputs.blake2 v n).inputs θ' msg').length = _ := length_items ..
        omega
      have := hlast e
      omega
    have hlen : ∀ θ msg, 2 ≤ ((Inputs.blake2 v n).inputs θ msg).length := by
      intro θ msg
      have : ((Inputs.blake2 v n).inputs θ msg).length = _ := length_items ..
      omega
    have hz : ∀ {θ θ' : Spec.Blake2.Theta} {msg msg' : Bytes} {k : Nat},
        ((Inputs.blake2 v n).inputs θ msg).drop 1 = ((Inputs.blake2 v n).inputs θ' msg').drop (k + 1) → k = 0 := by
      intro θ θ' msg msg' k e
      have e1 := congrArg List.length e
      rw [List.length_drop, List.length_drop] at e1
      have l1 := hlen θ msg
      have l2 := hlen θ' msg'
      have := hlast (θ := θ) (θ' := θ') (msg := msg) (msg' := msg') (by
        have e := congrArg List.getLast? e
        rwa [List.getLast?_drop, List.getLast?_drop, if_neg (by omega), if_neg (by omega)] at e)
      omega
    rcases walk (Inputs.blake2 v n).f (Inputs.blake2 v n).iv bytes8 _ _ _ rfl
        (fun e => hne (Inputs.blake2_det h0 hw' v n _ _ _ _ ok ok' e)) hb with
      ⟨k, k', i, i', e1, e2, e3, e4, e5⟩ | ⟨k, e1, e2, e3, e4⟩ | ⟨k, e1, e2, e3, e4⟩
    · cases k with
      | zero =>
        obtain rfl := hz e3
        have q1 : some (Blake2Item.params ((Spec.Blake2.seqParams θ n 0).bytes v)) = some i := e1
        have q2 : some (Blake2Item.params ((Spec.Blake2.seqParams θ' n 0).bytes v)) = some i' := e2
        cases q1
        cases q2
        refine absurd ?_ e4
        have hp := leWords_inj hw h0 (length_params (p := Spec.Blake2.seqParams θ n 0) hw hx ok.2.1 ok.2.2)
          (length_params (p := Spec.Blake2.seqParams θ' n 0) hw hx ok'.2.1 ok'.2.2)
          fun j hj => xor_left_inj (bytes8_inj hw e5 j hj)
        rw [hp]
        rfl
      | succ k =>
        cases k' with
        | zero => exact absurd (hz e3.symm) (by omega)
        | succ k' =>
          obtain ⟨t, f0, f1, b, rfl⟩ := items_succ e1
          obtain ⟨t', f0', f1', b', rfl⟩ := items_succ e2
          refine ⟨k + 1, k' + 1, t, f0, f1, b, t', f0', f1', b', e1, e2, ?_, e5⟩
          intro e
          injection e with q1 e
          injection e with q2 e
          injection e with q3 e
          injection e with q4 q5
          subst q2 q3 q4 q5
          exact e4 (by show (bytes8 _, _) = (bytes8 _, _); exact congrArg (·, _) q1)
    · have := hl e2 e3; omega
    · have := hl e2 e3; omega
  · exact .inr ⟨hb, h⟩

/-! Skein -/

theorem ubi_last (nw : Nat) (hn : 0 < nw) (data : Bytes) (hd : data.length < 2 ^ 64) (type : Nat) :
    (Inputs.ubi nw data type).getLast?.map (fun x => x.1 % 2 ^ 120) = some data.length := by
  unfold Inputs.ubi
  dsimp only
  generalize hk : max 1 ((data.length + 8 * nw - 1) / (8 * nw)) = k
  obtain ⟨j, rfl⟩ : ∃ j, k = j + 1 := ⟨k - 1, by omega⟩
  rw [List.range_succ, List.map_append, List.map_cons, List.map_nil, List.getLast?_concat, Option.map_some]
  show some (Spec.Skein.tweak _ _ _ _ % _) = _
  rw [Inputs.tweak_pos _ _ _ _ (by omega), Nat.min_eq_right]
  have h1 : (data.length + 8 * nw - 1) / (8 * nw) ≤ j + 1 := by omega
  have h2 := Nat.mul_le_mul_right (8 * nw) h1
  have h3 := Nat.div_add_mod (data.length + 8 * nw - 1) (8 * nw)
  have h4 := Nat.mod_lt (data.length + 8 * nw - 1) (show 0 < 8 * nw by omega)
  rw [Nat.mul_comm] at h3
  omega

theorem length_ubi (nw : Nat) (data : Bytes) (type : Nat) : (Inputs.ubi nw data type).length = max 1 ((data.length + 8 * nw - 1) / (8 * nw)) := by
  unfold Inputs.ubi
  simp only [List.length_map, List.length_range]

theorem last_append {α : Type} {a b : List α} (hb : b ≠ []) : (a ++ b).getLast? = b.getLast? := by
  rw [List.getLast?_append, List.getLast?_eq_some_getLast hb, Option.some_or]

theorem skein_free (T : Spec.Skein.Threefish) (hn : 0 < T.nw) (n : Nat) (θ : Spec.Skein.Theta) :
    SuffixFree (Inputs.skein T n) fun θ' msg => θ' = θ ∧ SkeinOk θ' msg := by
  have hne : ∀ {msg : Bytes}, Inputs.ubi T.nw msg 48 ≠ [] := by
    intro msg e
    have := congrArg List.length e
    rw [length_ubi] at this
    simp only [List.length_nil] at this
    omega
  apply suffixFree_of_last
  · intro θ msg e
    exact hne (List.append_eq_nil_iff.1 e).2
  · intro θ' θ'' msg msg' h1 h2 h
    obtain ⟨rfl, _, _, _, h1⟩ := h1
    obtain ⟨rfl, _, _, _, h2⟩ := h2
    unfold Inputs.skein skeinInputs at h ⊢
    dsimp only at h ⊢
    rw [last_append hne, last_append hne] at h
    have h := congrArg (Option.map (fun x => x.1 % 2 ^ 120)) h
    rw [ubi_last _ hn _ h1, ubi_last _ hn _ h2] at h
    simp only [List.length_append, length_ubi, Option.some.inj h]

end Digestpp.Proofs.Collision
