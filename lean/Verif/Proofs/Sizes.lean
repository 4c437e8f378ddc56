import Verif.Model.Blake
import Verif.Model.Sha3
import Verif.Model.Esch
import Verif.Model.Kupyna
import Verif.Model.Streebog
import Verif.Proofs.Validate

/-! The digests of objects with sizes that the constructors accept by mistake. -/

namespace Digestpp.Proofs
open Model

theorem bind_err {α β : Type} {x : M α} {f : α → M β} (h : ∀ a, x = .ok a → ∃ e, f a = .error e) : ∃ e, (x >>= f) = .error e := by
  cases x with
  | error e => exact ⟨e, rfl⟩
  | ok a => exact h a rfl

theorem forBlocks_inv {σ : Type} {P : σ → Prop} {bs : Nat} {data : Bytes} {n : Nat} {step : Nat → Bytes → σ → M σ} {s s' : σ}
    (h : ∀ k b s s', P s → step k b s = .ok s' → P s') (hs : P s) (e : forBlocks bs data n step s = .ok s') : P s' := by
  unfold forBlocks at e
  generalize List.range n = l at e
  induction l generalizing s with
  | nil =>
    have : s = s' := by simpa [pure, Except.pure] using e
    exact this ▸ hs
  | cons k l ih =>
    rw [List.foldlM_cons] at e
    cases hr : readBytes data (k * bs) bs with
    | error x => rw [hr] at e; simp [bind, Except.bind] at e
    | ok b =>
      rw [hr] at e
      cases ht : step k b s with
      | error x => simp [bind, Except.bind, ht] at e
      | ok s1 =>
        refine ih (s := s1) (h _ _ _ _ hs ht) ?_
        simpa [bind, Except.bind, ht] using e

theorem step_digest_empty {S P : Type} {pr : HashProvider S P} {s : S} (h : pr.hashSize s / 8 = 0) :
    ∃ e, pr.step .digest s = .error e := by
  refine ⟨.emptyVector, ?_⟩
  simp [HashProvider.step, HashProvider.digestIt, h, bind, Except.bind, throw, throwThe, MonadExceptOf.throw]

theorem step_digest_err {S P : Type} {pr : HashProvider S P} {s : S} (h : ∃ e, pr.final s = .error e) :
    ∃ e, pr.step .digest s = .error e := by
  by_cases h0 : pr.hashSize s / 8 = 0
  · exact step_digest_empty h0
  obtain ⟨e, h⟩ := h
  refine ⟨e, ?_⟩
  have : (List.replicate (pr.hashSize s / 8) (0 : Byte)).isEmpty = false := by
    cases hn : pr.hashSize s / 8 with
    | zero => exact absurd hn h0
    | succ n => rfl
  simp only [HashProvider.step, HashProvider.digestIt, this, h, bind, Except.bind, Bool.false_eq_true, if_false, pure, Except.pure]

theorem readBytes_err {b : Bytes} {o n : Nat} (h : b.length < o + n) : ∃ e, readBytes b o n = .error e :=
  ⟨.outOfBounds, by unfold readBytes; rw [if_neg (by omega)]⟩

theorem memset_err {b : Bytes} {o n : Nat} {v : Byte} (h : b.length < o + n) : ∃ e, memset b o v n = .error e :=
  ⟨.outOfBounds, by unfold memset; rw [if_neg (by omega)]⟩

theorem setByte_len {b b' : Bytes} {i : Nat} {v : Byte} (h : setByte b i v = .ok b') : b'.length = b.length := by
  unfold setByte at h
  split at h
  · simp only [Except.ok.injEq] at h; subst h; simp
  · simp at h

theorem flatMap_const_length {α : Type} {f : α → Bytes} {n : Nat} (h : ∀ a, (f a).length = n) (l : List α) :
    (l.flatMap f).length = n * l.length := by
  induction l with
  | nil => rfl
  | cons a l ih => simp only [List.flatMap_cons, List.length_append, ih, h, List.length_cons, Nat.mul_add]; omega

theorem stores64_len (l : List (BitVec 64)) : (stores64 l).length = 8 * l.length :=
  flatMap_const_length (f := bytes64) (fun _ => rfl) l

theorem stores32_len (l : List (BitVec 32)) : (stores32 l).length = 4 * l.length :=
  flatMap_const_length (f := bytes32) (fun _ => rfl) l

theorem sha3_final_err (s : Blk Sha3.St) (hm : s.m.length = 144) (hp : s.pos = 0) (hr : 144 < s.h.rate / 8 ∨ s.h.rate / 8 = 0)
    (h64 : s.h.rate / 8 < 2 ^ 64) : ∃ e, Sha3.final s = .error e := by
  unfold Sha3.final
  refine bind_err fun a ha => ?_
  exfalso
  unfold Sha3.padLast at ha
  dsimp only at ha
  rw [hp] at ha
  have : ∃ e, (do
      let m ← setByte s.m 0 (6 : Byte)
      let m ← Sha3.zeroFill (s.h.rate / 8) m (0 + 1)
      let b ← readBytes m (szSub (s.h.rate / 8) 1) 1
      let m ← setByte m (szSub (s.h.rate / 8) 1) (b.getD 0 0 ||| 0x80)
      let A ← Sha3.transform 24 s.h.rate m 1 s.h.A
      pure (m, A) : M (Bytes × List (BitVec 64))) = .error e := by
    refine bind_err fun m1 h1 => ?_
    have l1 := setByte_len h1
    refine bind_err fun m2 h2 => ?_
    exfalso
    unfold Sha3.zeroFill at h2
    rw [if_pos (by omega)] at h2
    obtain ⟨e, he⟩ := memset_err (b := m1) (o := 0 + 1) (n := szSub (s.h.rate / 8) 1) (v := 0) (by
      unfold szSub szMod
      rcases hr with h | h
      · generalize s.h.rate / 8 = r at *
        have : (r + 2 ^ 64 - 1) % 2 ^ 64 = r - 1 := by omega
        omega
      · rw [h]; omega)
    rw [he] at h2
    cases h2
  obtain ⟨e, he⟩ := this
  rw [he] at ha
  cases ha

theorem esch_final_err (s : Blk Esch.St) (hH : s.h.H.length = 16) (hm : s.m.length = 128) (hp : s.pos = 0) (hq : s.h.squeezing = false)
    (hs : 960 ≤ s.h.hs) : ∃ e, Esch.final s = .error e := by
  unfold Esch.final
  refine bind_err fun a ha => ?_
  exfalso
  unfold Esch.squeeze at ha
  have : ∃ e, Esch.squeezeFirst false (s.h.hs / 8) s = .error e := by
    unfold Esch.squeezeFirst
    rw [hq]
    simp only [Bool.not_false, if_true]
    refine bind_err fun b hb => ?_
    exfalso
    rw [if_pos (by show s.pos < 16; omega)] at hb
    have : ∃ e, (do
        let m ← memset s.m s.pos 0 (16 - s.pos)
        let m ← setByte m s.pos 0x80
        let h ← Esch.xorConst 0x1000000 { s.h with squeezing := true }
        pure { s with total := 1, m := m, h := h } : M (Blk Esch.St)) = .error e := by
      refine bind_err fun _ _ => bind_err fun _ _ => bind_err fun c hc => ?_
      exfalso
      unfold Esch.xorConst at hc
      dsimp only at hc
      rw [if_neg (by omega)] at hc
      cases hc
    obtain ⟨e, he⟩ := this
    exact absurd (hb.symm.trans he) (by simp)
  obtain ⟨e, he⟩ := this
  rw [he] at ha
  cases ha

theorem blake_transform_inv {p f : Bool} {data : Bytes} {n : Nat} {s s' : Blk Blake.St} (h : s.h.H512.length = 12)
    (e : Blake.transform p f data n s = .ok s') : s'.h.H512.length = 12 ∧ s'.h.hs = s.h.hs := by
  unfold Blake.transform at e
  cases hf : forBlocks (Blake.blockBytes s.h.hs) data n (fun blk b h => pure (Blake.block p f s.total blk b h)) s.h with
  | error x => rw [hf] at e; cases e
  | ok h1 =>
    rw [hf] at e
    have := forBlocks_inv (P := fun h : Blake.St => h.H512.length = 12 ∧ h.hs = s.h.hs) (by
      intro k b u u' hu hstep
      simp only [pure, Except.pure, Except.ok.injEq] at hstep
      subst hstep
      unfold Blake.block
      split
      · exact ⟨rfl, hu.2⟩
      · exact hu) ⟨h, rfl⟩ hf
    simp only [bind, Except.bind, pure, Except.pure, Except.ok.injEq] at e
    subst e
    exact this

theorem blake_tail_err (p : Bool) (s : Blk Blake.St) (hH : s.h.H512.length = 12) (hs : 776 ≤ s.h.hs) :
    ∃ e, Blake.finalTail p s = .error e := by
  unfold Blake.finalTail
  refine bind_err fun m1 _ => bind_err fun m2 _ => bind_err fun m3 _ => bind_err fun s4 h4 => ?_
  obtain ⟨l, e⟩ := blake_transform_inv (s := { s with m := m3 }) hH h4
  have e : s4.h.hs = s.h.hs := e
  unfold Blake.output
  rw [if_pos (by omega)]
  refine readBytes_err ?_
  rw [stores64_len]
  simp only [List.length_append, List.length_map, List.length_take, List.length_drop, l]
  omega

theorem blake_final_err (s : Blk Blake.St) (hH : s.h.H512.length = 12) (hs : 776 ≤ s.h.hs) : ∃ e, Blake.final s = .error e := by
  unfold Blake.final
  refine bind_err fun m1 _ => ?_
  split
  · refine bind_err fun m2 _ => bind_err fun s3 h3 => ?_
    obtain ⟨l, e⟩ := blake_transform_inv (s := { s with m := m2, pos := s.pos + 1, total := s.total + BitVec.ofNat 64 (8 * s.pos) }) hH h3
    have e : s3.h.hs = s.h.hs := e
    exact blake_tail_err true _ l (by show 776 ≤ s3.h.hs; omega)
  · exact blake_tail_err _ _ hH hs

theorem kupyna_compress_len {R : Nat} {h m : List (BitVec 64)} (hl : h.length = 16) (hR : R ≤ 16) :
    (Kupyna.compress R h m).length = 16 := by
  unfold Kupyna.compress
  simp [hl]; omega

theorem kupyna_cols (hs : Nat) : Kupyna.cols hs ≤ 16 := by unfold Kupyna.cols; split <;> omega

theorem kupyna_transform_inv {data : Bytes} {n : Nat} {s s' : Blk Kupyna.St} (h : s.h.h.length = 16)
    (e : Kupyna.transform data n s = .ok s') : s'.h.h.length = 16 ∧ s'.h.hs = s.h.hs := by
  unfold Kupyna.transform at e
  cases hf : forBlocks (Kupyna.blockBytes s.h.hs) data n (fun _ b h =>
    pure { h with h := Kupyna.compress (Kupyna.cols h.hs) h.h (loads64 (Kupyna.cols h.hs) b) }) s.h with
  | error x => rw [hf] at e; cases e
  | ok h1 =>
    rw [hf] at e
    have := forBlocks_inv (P := fun h : Kupyna.St => h.h.length = 16 ∧ h.hs = s.h.hs) (by
      intro k b u u' hu hstep
      simp only [pure, Except.pure, Except.ok.injEq] at hstep
      subst hstep
      exact ⟨kupyna_compress_len hu.1 (kupyna_cols _), hu.2⟩) ⟨h, rfl⟩ hf
    simp only [bind, Except.bind, pure, Except.pure, Except.ok.injEq] at e
    subst e
    exact this

theorem bind_ok' {α β : Type} {x : M α} {g : α → M β} {b : β} (h : (x >>= g) = .ok b) : ∃ a, x = .ok a ∧ g a = .ok b := by
  cases x with
  | error e => cases h
  | ok a => exact ⟨a, rfl, h⟩

theorem kupyna_tail_inv {s s' : Blk Kupyna.St} (h : s.h.h.length = 16) (e : Kupyna.finalTail s = .ok s') :
    s'.h.h.length = 16 ∧ s'.h.hs = s.h.hs := by
  unfold Kupyna.finalTail at e
  obtain ⟨m1, -, e⟩ := bind_ok' e
  obtain ⟨m2, -, e⟩ := bind_ok' e
  obtain ⟨m3, -, e⟩ := bind_ok' e
  exact kupyna_transform_inv (s := { s with m := m3 }) h e

theorem kupyna_pad_inv {s s' : Blk Kupyna.St} (h : s.h.h.length = 16) (e : Kupyna.finalPad s = .ok s') :
    s'.h.h.length = 16 ∧ s'.h.hs = s.h.hs := by
  unfold Kupyna.finalPad at e
  dsimp only at e
  obtain ⟨m1, -, e⟩ := bind_ok' e
  split at e
  · obtain ⟨m2, -, e⟩ := bind_ok' e
    obtain ⟨s3, h3, e⟩ := bind_ok' e
    obtain ⟨l, q⟩ := kupyna_transform_inv (by exact h) h3
    obtain ⟨l2, q2⟩ := kupyna_tail_inv (by exact l) e
    exact ⟨l2, q2.trans q⟩
  · exact kupyna_tail_inv (s := { s with m := m1, pos := s.pos + 1, total := s.total + BitVec.ofNat 64 (s.pos * 8) }) h e

theorem kupyna_final_err (s : Blk Kupyna.St) (hH : s.h.h.length = 16) (hs : 1032 ≤ s.h.hs) (h64 : s.h.hs < 2 ^ 64) :
    ∃ e, Kupyna.final s = .error e := by
  unfold Kupyna.final
  refine bind_err fun s1 h1 => ?_
  obtain ⟨l, q⟩ := kupyna_pad_inv hH h1
  refine readBytes_err ?_
  rw [stores64_len]
  have : (Kupyna.outputTransform (Kupyna.cols s1.h.hs) s1.h.h).length ≤ 16 := by
    have := kupyna_cols s1.h.hs
    unfold Kupyna.outputTransform
    simp [l]; omega
  have hb : Kupyna.blockBytes s1.h.hs = 128 := by unfold Kupyna.blockBytes; rw [if_pos (by omega)]
  have q : s1.h.hs = s.h.hs := q
  generalize (Kupyna.outputTransform (Kupyna.cols s1.h.hs) s1.h.h).length = len at *
  rw [hb, q]
  unfold szSub szMod
  generalize s.h.hs = N at *
  omega

theorem streebog_transform_inv {add : Bytes → List (BitVec 64) → List (BitVec 64)} {f : Bool} {data : Bytes} {n : Nat}
    {s s' : Blk Streebog.St} (h : s.h.h.length = 8) (e : Streebog.transform add f data n s = .ok s') :
    s'.h.h.length = 8 ∧ s'.h.hs = s.h.hs := by
  unfold Streebog.transform at e
  obtain ⟨h1, hf, e⟩ := bind_ok' e
  have := forBlocks_inv (P := fun h : Streebog.St => h.h.length = 8 ∧ h.hs = s.h.hs) (by
    intro k b u u' hu hstep
    simp only [pure, Except.pure, Except.ok.injEq] at hstep
    subst hstep
    refine ⟨?_, hu.2⟩
    show (Streebog.gN _ _ _).length = 8
    unfold Streebog.gN Streebog.xorBlocks
    simp) ⟨h, rfl⟩ hf
  simp only [pure, Except.pure, Except.ok.injEq] at e
  subst e
  exact this

theorem streebog_final_err (add : Bytes → List (BitVec 64) → List (BitVec 64)) (s : Blk Streebog.St) (hH : s.h.h.length = 8)
    (hs : 8 ≤ s.h.hs % 64 ∨ 576 ≤ s.h.hs) (h64 : s.h.hs < 2 ^ 64) : ∃ e, Streebog.final add s = .error e := by
  unfold Streebog.final
  refine bind_err fun m1 _ => bind_err fun m2 _ => bind_err fun s3 h3 => ?_
  obtain ⟨l, q⟩ := streebog_transform_inv (by exact hH) h3
  unfold Streebog.finalTail
  refine bind_err fun m4 _ => bind_err fun m5 _ => bind_err fun s6 h6 => bind_err fun s7 h7 => ?_
  obtain ⟨l6, q6⟩ := streebog_transform_inv (by exact l) h6
  obtain ⟨l7, q7⟩ := streebog_transform_inv l6 h7
  refine readBytes_err ?_
  have q6 : s6.h.hs = s3.h.hs := q6
  have q : s3.h.hs = s.h.hs := q
  rw [stores64_len, l7, q7, q6, q]
  unfold szSub szMod
  generalize s.h.hs = N at *
  omega

end Digestpp.Proofs
