import Verif.Proofs.Leak.HashMd
import Verif.Proofs.PermKeccak

/-! LSH, SHA-3, BLAKE: the trace of a whole computation. -/

namespace Digestpp.Proofs.Leak
open Model Properties Proofs.Pointers Proofs.Locals
variable {σ κ : Type}

/-- A `transform` that is a loop over the blocks on the state only. -/
theorem keeps_blocks {bs msize : Nat} {inv : σ → Prop} {tr : Bytes → Nat → Blk σ → M (Blk σ)} (step : BitVec 64 → Nat → Bytes → σ → M σ)
    (hs : ∀ t i b h, b.length = bs → inv h → ∃ h', step t i b h = .ok h' ∧ inv h')
    (ht : ∀ data n s, inv s.h → tr data n s = (forBlocks bs data n (step s.total) s.h >>= fun h => pure { s with h := h })) : SafeTransform bs msize inv tr := by
  intro s data n hn hm hi
  obtain ⟨h', e, i⟩ := forBlocks_safe (step := step s.total) (inv := inv) (fun i b h hb hi => hs s.total i b h hb hi) data n s.h hn hi
  exact ⟨h', s.m, hm, i, by rw [ht data n s hi, e]; rfl⟩

theorem readBytes_append {p q : Bytes} {n : Nat} (h : n ≤ p.length) : Model.readBytes (p ++ q) 0 n = Model.readBytes p 0 n := by
  unfold Model.readBytes
  rw [if_pos (by rw [List.length_append]; omega), if_pos (by omega), List.drop_zero, List.drop_zero, List.take_append_of_le_length h]

theorem zeroRest_safe {bs pos : Nat} {m : Bytes} (hm : bs ≤ m.length) (hp : pos ≤ bs) (hb : bs < 2 ^ 62) : ∃ q, Model.zeroRest bs m pos = .ok q ∧ q.length = m.length := by
  unfold Model.zeroRest
  by_cases d : pos ≠ bs
  · rw [if_pos d, szSub_eq _ _ hp (by unfold szMod; omega)]
    exact memset_safe m pos 0 (bs - pos) (by omega)
  · rw [if_neg d]
    exact ⟨m, rfl, rfl⟩

/-! ### LSH -/

section Lsh
variable {w : Nat} {T : Lsh.Word w}

theorem lsh_step_hs {i : Nat} {ra rb : BitVec w → BitVec w} {h h' : Lsh.St w} (e : Lsh.step rotlMasked T i ra rb h = .ok h') : h'.hs = h.hs := by
  obtain ⟨_, _, e⟩ := M.bind_eq_ok e
  cases Except.ok.inj e
  rfl

theorem lsh_compress_hs {b : Bytes} {h h' : Lsh.St w} (e : Lsh.compress rotlMasked T b h = .ok h') : h'.hs = h.hs := by
  obtain ⟨z, ez, e⟩ := M.bind_eq_ok e
  cases Except.ok.inj e
  have step : ∀ k (x x' : Lsh.St w), (Lsh.step rotlMasked T (2 * k) T.rot0 T.rot1 x >>= fun h => Lsh.step rotlMasked T (2 * k + 1) T.rot2 T.rot3 h) = .ok x' → x'.hs = x.hs := by
    intro k x x' e
    obtain ⟨y, ey, e⟩ := M.bind_eq_ok e
    exact (lsh_step_hs e).trans (lsh_step_hs ey)
  refine Locals.Skein.foldlM_pres (fun (h : Lsh.St w) k => do
    let h ← Lsh.step rotlMasked T (2 * k) T.rot0 T.rot1 h
    Lsh.step rotlMasked T (2 * k + 1) T.rot2 T.rot3 h) (fun x : Lsh.St w => x.hs = h.hs) (List.range (T.NS / 2)) ?_ _ ?_ z ez
  · exact fun k _ x hx x' e => (step k x x' e).trans hx
  · rfl

/-- What is known of the members of an LSH object. -/
abbrev _root_.Digestpp.Properties.LshSt (T : Lsh.Word w) (hs : Nat) (h : Lsh.St w) : Prop := Model.Locals.Lsh.Sized T h ∧ h.hs = hs

theorem lsh_keeps (ok : Locals.Lsh.Good T) (hs ms : Nat) : SafeTransform (Lsh.blockBytes w) ms (LshSt T hs) (Lsh.transform rotlMasked T) := by
  have st : ∀ i ra rb h, Total (Lsh.step rotlMasked T i ra rb h) := fun i ra rb h =>
    (Total.mapM (fun l => Total.bind ⟨_, rfl⟩ fun _ => .pure _) _).bind fun _ => .pure _
  refine keeps_blocks (fun _ _ b h => Lsh.compress rotlMasked T b h) (fun _ _ b h hb hi => ?_) fun _ _ _ _ => rfl
  have t : Total (Lsh.compress rotlMasked T b h) := (Total.foldlM _ (fun _ _ _ => (st _ _ _ _).bind fun _ => st _ _ _ _) _).bind fun _ => .pure _
  obtain ⟨h', e⟩ := t
  refine ⟨h', e, (Locals.Lsh.block_eq ok rotlMasked b b ?_ h hi.1).2 h' e, (lsh_compress_hs e).trans hi.2⟩
  unfold Model.readBytes
  rw [if_pos (by omega), List.drop_zero, ← hb, List.take_length]

theorem lsh_final_twin (ht : TwinTransform (Lsh.blockBytes w) (4 * w) (LshSt T hs) sized (Leak.Lsh.callback rotlMasked T) (Lsh.transform rotlMasked T))
    (hsz : ∀ k, sized k → k.length = 4 * w) (hw : 2 ≤ w) (app : ∀ a b, T.stores (a ++ b) = T.stores a ++ T.stores b) (len : ∀ a, (T.stores a).length = a.length * (w / 8)) (hhs : hs ≤ 8 * w) (h8 : w % 8 = 0)
    (k k' : Nat → List (BitVec w)) (s s' : Blk (Lsh.St w)) (hk : Each sized k) (hk' : Each sized k') (h : Same (4 * w) (LshSt T hs) s s') :
    Twin Any (Leak.Lsh.final rotlMasked T k s) (Lsh.final rotlMasked T s) (Leak.Lsh.final rotlMasked T k' s') (Lsh.final rotlMasked T s') := by
  have hp : s.pos + 1 = s'.pos + 1 := by rw [h.pos]
  refine Twin.bind (Twin.setByte h.m h.pos) fun m m' rm => ?_
  refine Twin.bind (zeroRest_twin rm hp) fun m m' rm => ?_
  refine Twin.bind (ht (k 0) (k' 0) m m' 1 _ _ (hk 0) (hk' 0) (by rw [rm.1]; unfold Lsh.blockBytes; omega) (by rw [rm.2]; unfold Lsh.blockBytes; omega)
    ⟨hp, by show s.total + _ = s'.total + _; rw [h.total, h.pos], rm, h.h, h.h'⟩) fun a b r => ?_
  have e : ∀ (a : Blk (Lsh.St w)) (q : List (BitVec w)), a.h.cv.length = 16 → q.length = 4 * w → L.erase (Leak.loop 0 8 (fun i h => do
      let x ← Leak.rd a.h.cv i
      let y ← Leak.rd a.h.cv (i + 8)
      Leak.wr h i (x ^^^ y)) q) = .ok (((List.range 8).map fun i => a.h.cv.getD i 0 ^^^ a.h.cv.getD (i + 8) 0) ++ q.drop 8) := by
    intro a q ha hq
    rw [erase_loop]
    refine fill_upd_drop 0 (fun i => a.h.cv.getD i 0 ^^^ a.h.cv.getD (i + 8) 0) (4 * w) 8 (by omega) _ q hq fun t b h1 h2 _ => ?_
    rw [erase_bind, erase_rd, rd_ok 0 (by omega), ok_then, erase_bind, erase_rd, rd_ok 0 (by omega), ok_then, erase_wr, wr_ok _ (by omega)]
  have fin : ∀ a q : List (BitVec w), a.length = 8 → Model.readBytes (T.stores (a ++ q)) 0 (hs / 8) = Model.readBytes (T.stores a) 0 (hs / 8) := fun a q ha => by
    rw [app, readBytes_append]
    rw [len, ha]
    omega
  refine Twin.skip (Twin.ofAgree (R := Any) (Agree.loop_any fun i _ _ => Agree.bind Agree.rd fun _ _ _ => Agree.bind Agree.rd fun _ _ _ => Agree.wr) (e a (k 1) r.h.1.1 (hsz _ (hk 1)))
    (e b (k' 1) r.h'.1.1 (hsz _ (hk' 1)))) fun _ => ?_
  unfold Leak.readBytes
  rw [r.h.2, r.h'.2, fin _ _ (by simp), fin _ _ (by simp)]
  exact Twin.op fun _ _ _ _ => trivial

theorem lsh_final_safe (ok : Locals.Lsh.Good T) (hs : Nat) (hw : 2 ≤ w) (hw' : w < 2 ^ 60) (len : ∀ a, (T.stores a).length = a.length * (w / 8)) (hhs : hs ≤ 8 * w) (h8 : w % 8 = 0)
    (s : Blk (Lsh.St w)) (h : Safe (Lsh.blockBytes w) 0 (4 * w) (LshSt T hs) s) : ∃ b, Lsh.final rotlMasked T s = .ok b := by
  have hp := h.pos
  have hm := h.mlen
  unfold Lsh.blockBytes at hp
  unfold Lsh.final
  obtain ⟨m, e, lm⟩ := setByte_safe s.m s.pos 0x80 (by omega)
  obtain ⟨q, eq, lq⟩ := zeroRest_safe (bs := Lsh.blockBytes w) (m := m) (pos := s.pos + 1) (by unfold Lsh.blockBytes; omega) (by unfold Lsh.blockBytes; omega) (by unfold Lsh.blockBytes; omega)
  rw [e, ok_bind, eq, ok_bind]
  obtain ⟨h', p, lp, i', et⟩ := lsh_keeps ok hs (4 * w) { s with m := q, pos := s.pos + 1, total := s.total + BitVec.ofNat 64 ((s.pos + 1) * 8) } q 1
    (by unfold Lsh.blockBytes; omega) (by show q.length = _; omega) h.inv
  rw [et, ok_bind]
  refine readBytes_total ?_
  show 0 + h'.hs / 8 ≤ _
  rw [len, i'.2, List.length_map, List.length_range]
  omega

end Lsh

/-! ### SHA-3 -/

theorem length_xorBlock {r64 : Nat} {b : Bytes} {A A' : List (BitVec 64)} (e : Sha3.xorBlock r64 b A = .ok A') : A'.length = A.length := by
  unfold Sha3.xorBlock at e
  split at e
  · cases Except.ok.inj e
    generalize loads64 r64 b = W
    suffices ∀ (l : List Nat) (A : List (BitVec 64)), (l.foldl (fun A i => A.set i (A.getD i 0 ^^^ W.getD i 0)) A).length = A.length from this _ A
    intro l
    induction l with
    | nil => exact fun _ => rfl
    | cons i l ih => exact fun A => (ih _).trans List.length_set
  · cases e

theorem length_permute (R : Nat) (A : List (BitVec 64)) (h : A.length = 25) : (Sha3.permute R A).length = 25 := by
  unfold Sha3.permute
  suffices ∀ (l : List Nat) (A : List (BitVec 64)), A.length = 25 → (l.foldl (fun A r => Sha3.round A (sha3_RC.getD r 0)) A).length = 25 from this _ A h
  intro l
  induction l with
  | nil => exact fun _ h => h
  | cons i l ih => exact fun A _ => ih _ rfl

theorem keccak_length {R rate n : Nat} {data : Bytes} {A A' : List (BitVec 64)} (hr : rate ≤ 1600) (hn : n * (rate / 8) ≤ data.length) (hA : A.length = 25)
    (e : Sha3.transform R rate data n A = .ok A') : A'.length = 25 := by
  obtain ⟨B, eB, lB⟩ := forBlocks_safe (bs := rate / 8) (step := fun _ b A => Sha3.xorBlock (rate / 64) b A >>= fun A => pure (Sha3.permute R A)) (inv := fun A => A.length = 25)
    (fun i b A _ hA => by
      obtain ⟨B, eB⟩ : Total (Sha3.xorBlock (rate / 64) b A) := by
        unfold Sha3.xorBlock
        rw [if_pos (by omega)]
        exact ⟨_, rfl⟩
      exact ⟨Sha3.permute R B, by rw [eB]; rfl, length_permute R B ((length_xorBlock eB).trans hA)⟩) data n A hn hA
  cases Except.ok.inj (e.symm.trans eB)
  exact lB

/-- What is known of the members of a SHA-3 object. -/
abbrev _root_.Digestpp.Properties.Sha3St (hs rate : Nat) (h : Sha3.St) : Prop := h.A.length = 25 ∧ h.hs = hs ∧ h.rate = rate

theorem sha3_keeps (hs rate : Nat) (hr : rate ≤ 1600) (ms : Nat) : SafeTransform (rate / 8) ms (Sha3St hs rate) Sha3.onBlocks := by
  intro s data n hn hm hi
  obtain ⟨A, e⟩ := Sha3.transform_total 24 rate hr data n hn s.h.A
  exact ⟨{ s.h with A := A }, s.m, hm, ⟨keccak_length hr hn hi.1 e, hi.2⟩, by unfold Sha3.onBlocks; rw [hi.2.2, e]; rfl⟩

theorem sha3_twin (hs rate : Nat) (hr : rate ≤ 1600) (ms : Nat) : TwinTransform (rate / 8) ms (Sha3St hs rate) (Each (Each Locals.Sha3.Stack.Sized)) Leak.Sha3.onBlocks Sha3.onBlocks :=
  .of (sha3_keeps hs rate hr ms) fun n => by
    obtain ⟨tr, h⟩ := keccak_trace 24 rate n (by decide) hr
    refine ⟨tr ++ [], fun k d s hk hd hi => ?_⟩
    obtain ⟨A, e, e'⟩ := h ⟨k, d, s.h.A⟩ ⟨hk, hd, hi.1⟩
    refine ⟨{ s with h := { s.h with A := A } }, ?_, ?_⟩
    · unfold Sha3.onBlocks
      rw [hi.2.2]
      exact congrArg (· >>= fun A => pure { s with h := { s.h with A := A } }) e
    · unfold Leak.Sha3.onBlocks
      rw [hi.2.2]
      exact bind_ok e' rfl

theorem zeroFill_twin {ms r : Nat} {p q : Bytes} {pos pos' : Nat} (hm : Sz ms p q) (hp : pos = pos') :
    Twin (Sz ms) (Leak.Sha3.zeroFill r p pos) (Sha3.zeroFill r p pos) (Leak.Sha3.zeroFill r q pos') (Sha3.zeroFill r q pos') := by
  unfold Leak.Sha3.zeroFill Sha3.zeroFill
  exact Twin.branch (by rw [hp]) (fun _ _ => Twin.memset hm hp (by rw [hp])) fun _ _ => Twin.pure hm

theorem padLast_twin {ms R rate : Nat} (hR : R ≤ 24) (hr : rate ≤ 1600) (hms : rate / 8 ≤ ms) {d d' : Byte} {m m' : Bytes} {pos pos' : Nat} {A A' : List (BitVec 64)} {k k' : Nat → Nat → Locals.Sha3.Stack}
    (hk : Each (Each Locals.Sha3.Stack.Sized) k) (hk' : Each (Each Locals.Sha3.Stack.Sized) k') (hm : Sz ms m m') (hp : pos = pos') (hA : A.length = 25) (hA' : A'.length = 25) :
    Twin (fun x y : Bytes × List (BitVec 64) => Sz ms x.1 y.1 ∧ x.2.length = 25 ∧ y.2.length = 25) (Leak.Sha3.padLast k R rate d m pos A) (Sha3.padLast R rate d m pos A)
      (Leak.Sha3.padLast k' R rate d' m' pos' A') (Sha3.padLast R rate d' m' pos' A') := by
  refine Twin.bind (Twin.setByte hm hp) fun m m' rm => ?_
  refine Twin.bind (zeroFill_twin rm (by rw [hp])) fun m m' rm => ?_
  refine Twin.bind (Twin.readBytes rfl rfl) fun b b' _ => ?_
  refine Twin.bind (Twin.setByte rm rfl) fun m m' rm => ?_
  have h1 : 1 * (rate / 8) ≤ m.length := by rw [rm.1]; omega
  have h2 : 1 * (rate / 8) ≤ m'.length := by rw [rm.2]; omega
  refine Twin.bind (R := fun x y : List (BitVec 64) => x.length = 25 ∧ y.length = 25) ?_ fun B B' r => Twin.pure ⟨rm, r⟩
  exact SameTrace.twin (keccak_trace R rate 1 hR hr) (i := ⟨k, m, A⟩) (j := ⟨k', m', A'⟩) ⟨hk, h1, hA⟩ ⟨hk', h2, hA'⟩ fun B B' e e' =>
    ⟨keccak_length hr h1 hA e, keccak_length hr h2 hA' e'⟩

theorem padLast_safe {ms R rate : Nat} (hr0 : 8 ≤ rate) (hr : rate ≤ 1600) (hms : rate / 8 ≤ ms) (d : Byte) (m : Bytes) (pos : Nat) (A : List (BitVec 64)) (hm : m.length = ms) (hp : pos < rate / 8)
    (hA : A.length = 25) : ∃ x : Bytes × List (BitVec 64), Sha3.padLast R rate d m pos A = .ok x ∧ x.1.length = ms ∧ x.2.length = 25 := by
  unfold Sha3.padLast
  obtain ⟨m1, e1, l1⟩ := setByte_safe m pos d (by omega)
  have hz : ∃ m2, Sha3.zeroFill (rate / 8) m1 (pos + 1) = .ok m2 ∧ m2.length = ms := by
    unfold Sha3.zeroFill
    by_cases c : rate / 8 ≠ pos + 1
    · rw [if_pos c, szSub_eq _ _ (by omega) (by unfold szMod; omega)]
      obtain ⟨q, e, lq⟩ := memset_safe m1 (pos + 1) 0 (rate / 8 - (pos + 1)) (by omega)
      exact ⟨q, e, by omega⟩
    · rw [if_neg c]
      exact ⟨m1, rfl, by omega⟩
  obtain ⟨m2, e2, l2⟩ := hz
  obtain ⟨b, e3, _⟩ := readBytes_safe m2 (rate / 8 - 1) 1 (by omega)
  obtain ⟨m3, e4, l3⟩ := setByte_safe m2 (rate / 8 - 1) (b.getD 0 0 ||| 0x80) (by omega)
  obtain ⟨B, e5⟩ := Sha3.transform_total R rate hr m3 1 (by omega) A
  dsimp only
  rw [e1, ok_bind, e2, ok_bind, szSub_eq _ _ (by omega) (by unfold szMod; omega), e3, ok_bind, e4, ok_bind, e5, ok_bind]
  exact ⟨_, rfl, by show m3.length = ms; omega, keccak_length hr (by omega) hA e5⟩

theorem sha3_final_twin {hs rate : Nat} (hr : rate ≤ 1600) {k k' : Nat → Nat → Nat → Locals.Sha3.Stack} (hk : Each (Each (Each Locals.Sha3.Stack.Sized)) k)
    (hk' : Each (Each (Each Locals.Sha3.Stack.Sized)) k') (hms : rate / 8 ≤ ms) {s s' : Blk Sha3.St} (h : Same ms (Sha3St hs rate) s s') :
    Twin Any (Leak.Sha3.final k s) (Sha3.final s) (Leak.Sha3.final k' s') (Sha3.final s') := by
  unfold Leak.Sha3.final Sha3.final
  rw [h.h.2.2, h.h'.2.2]
  refine Twin.bind (padLast_twin (by decide) hr hms (hk 0) (hk' 0) h.m h.pos h.h.1 h.h'.1) fun x y _ => ?_
  exact (Twin.readBytes rfl (by rw [h.h.2.1, h.h'.2.1])).mono fun _ _ _ _ _ => trivial

theorem sha3_final_safe {ms hs rate : Nat} (hr0 : 8 ≤ rate) (hr : rate ≤ 1600) (hhs : hs ≤ 1600) (hms : rate / 8 ≤ ms) (s : Blk Sha3.St) (h : Safe (rate / 8) 0 ms (Sha3St hs rate) s) :
    ∃ b, Sha3.final s = .ok b := by
  obtain ⟨x, e, _, l⟩ := padLast_safe (R := 24) hr0 hr hms 0x06 s.m s.pos s.h.A h.mlen h.pos h.inv.1
  obtain ⟨b, eb⟩ := readBytes_total (src := stores64 x.2) (off := 0) (n := s.h.hs / 8) (by rw [length_stores64, l, h.inv.2.1]; omega)
  refine ⟨b, ?_⟩
  unfold Sha3.final
  rw [h.inv.2.2, e]
  exact eb

end Digestpp.Proofs.Leak
