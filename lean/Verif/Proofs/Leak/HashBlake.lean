import Verif.Proofs.Leak.HashSponge

/-! BLAKE: the trace of a whole computation. -/

namespace Digestpp.Proofs.Leak
open Model Properties Proofs.Pointers Proofs.Locals
open Model.Blake (blockBytes messageend truncated)

/-- What is known of the members of a BLAKE object. -/
abbrev _root_.Digestpp.Properties.BlakeSt (hs : Nat) (h : Blake.St) : Prop := h.hs = hs ∧ h.H512.length = 12 ∧ h.H256.length = 12

theorem blake_keeps (hs : Nat) (p f : Bool) : SafeTransform (blockBytes hs) 128 (BlakeSt hs) (Blake.transform p f) :=
  safe_blocks (fun t i b h => pure (Blake.block p f t i b h)) (fun t i b h hi => ⟨_, rfl, (blake_block_hs ..).trans hi.1, by
      unfold Blake.block
      split
      · exact ⟨rfl, hi.2.2⟩
      · exact ⟨hi.2.1, rfl⟩⟩) fun _ _ s hi => by
    unfold Blake.transform; rw [hi.1]

/-- The sizes of the local arrays, for both word sizes. -/
abbrev _root_.Digestpp.Properties.BlakeSized (k : Leak.Blake.Stacks) : Prop := Each Locals.Blake.Stack.Sized k.1 ∧ Each Locals.Blake.Stack.Sized k.2

theorem blake_twin (hs : Nat) (p f : Bool) : TwinTransform (blockBytes hs) 128 (BlakeSt hs) BlakeSized (Leak.Blake.callback p f) (Blake.transform p f) :=
  .of (blake_keeps hs p f) fun n =>
    let ⟨tr, h⟩ := blake_trace hs n p f
    ⟨tr, fun k d s hk hd hi => h ⟨k, d, s⟩ ⟨hk, hd, hi⟩⟩

theorem blockBytes_le (hs : Nat) : 64 ≤ blockBytes hs ∧ blockBytes hs ≤ 128 := by
  unfold blockBytes
  split <;> omega

theorem messageend_lt (hs : Nat) : messageend hs + 9 ≤ blockBytes hs := by
  unfold messageend blockBytes
  split <;> omega

/-- The first elements are swapped, the others stay. -/
theorem swapWords_rest_twin {α : Type} [Inhabited α] {n k : Nat} (hk : k ≤ n) {swap : α → α} {H H' : List α} (h : H.length = n) (h' : H'.length = n) :
    Twin Any (Leak.swapWords k swap H) (.ok ((H.take k).map swap ++ H.drop k)) (Leak.swapWords k swap H') (.ok ((H'.take k).map swap ++ H'.drop k)) := by
  have e : ∀ H : List α, H.length = n → L.erase (Leak.swapWords k swap H) = .ok ((H.take k).map swap ++ H.drop k) := by
    intro H h
    unfold Leak.swapWords
    rw [erase_loop]
    refine (fill_upd_drop default (fun i => swap (H.getD i default)) n k hk _ H h ?_).trans ?_
    · intro t b ht hb e
      rw [erase_upd, upd_ok swap default (by omega), e]
    · congr 2
      show (List.range k).map (swap ∘ fun i => H.getD i default) = _
      rw [← List.map_map (f := fun i => H.getD i default) (g := swap)]
      congr 1
      refine Eq.trans ?_ (map_range_getD (H.take k) default k (by rw [List.length_take]; omega))
      refine List.map_congr_left fun i hi => ?_
      rw [List.getD_eq_getElem?_getD, List.getD_eq_getElem?_getD, List.getElem?_take_of_lt (List.mem_range.1 hi)]
  refine Twin.ofAgree ?_ (e H h) (e H' h')
  unfold Leak.swapWords
  exact Agree.loop_any fun _ _ _ => Agree.upd

theorem blake_output_twin {hs : Nat} {h h' : Blake.St} (i : BlakeSt hs h) (i' : BlakeSt hs h') : Twin Any (Leak.Blake.output h) (Blake.output h) (Leak.Blake.output h') (Blake.output h') := by
  unfold Leak.Blake.output Blake.output
  rw [i.1, i'.1]
  refine Twin.branch Iff.rfl (fun _ _ => ?_) fun _ _ => ?_
  · exact Twin.skip (swapWords_rest_twin (n := 12) (by decide) i.2.1 i'.2.1) fun _ => (Twin.readBytes rfl rfl).mono fun _ _ _ _ _ => trivial
  · exact Twin.skip (swapWords_rest_twin (n := 12) (by decide) i.2.2 i'.2.2) fun _ => (Twin.readBytes rfl rfl).mono fun _ _ _ _ _ => trivial

theorem blake_finalTail_twin {hs : Nat} (p : Bool) {k k' : Leak.Blake.Stacks} (hk : BlakeSized k) (hk' : BlakeSized k') {s s' : Blk Blake.St} (h : Same 128 (BlakeSt hs) s s') :
    Twin Any (Leak.Blake.finalTail p k s) (Blake.finalTail p s) (Leak.Blake.finalTail p k' s') (Blake.finalTail p s') := by
  have hb := blockBytes_le hs
  unfold Leak.Blake.finalTail Blake.finalTail
  rw [h.h.1, h.h'.1]
  refine Twin.bind (R := Sz 128) ?_ fun m m' rm => ?_
  · unfold Leak.Blake.padEnd Blake.padEnd
    exact Twin.branch (by rw [h.pos]) (fun _ _ => Twin.bind (Twin.memset h.m h.pos (by rw [h.pos])) fun _ _ r => Twin.setByte r rfl) fun _ _ => Twin.pure h.m
  refine Twin.bind (R := Sz 128) ?_ fun m m' rm => ?_
  · unfold Leak.Blake.padLen Blake.padLen
    exact Twin.branch Iff.rfl (fun _ _ => Twin.memset rm rfl rfl) fun _ _ => Twin.pure rm
  refine Twin.bind (Twin.memcpyTo rm rfl rfl) fun m m' rm => ?_
  refine Twin.bind (blake_twin hs p true k k' m m' 1 _ _ hk hk' (by rw [rm.1]; omega) (by rw [rm.2]; omega) ⟨h.pos, h.total, rm, h.h, h.h'⟩) fun a b r => ?_
  exact blake_output_twin r.h r.h'

theorem blake_final_twin {hs : Nat} {k k' : Nat → Leak.Blake.Stacks} (hk : Each BlakeSized k) (hk' : Each BlakeSized k') {s s' : Blk Blake.St} (h : Same 128 (BlakeSt hs) s s') :
    Twin Any (Leak.Blake.final k s) (Blake.final s) (Leak.Blake.final k' s') (Blake.final s') := by
  have hb := blockBytes_le hs
  have hp : s.pos + 1 = s'.pos + 1 := by rw [h.pos]
  have ht : s.total + BitVec.ofNat 64 (8 * s.pos) = s'.total + BitVec.ofNat 64 (8 * s'.pos) := by rw [h.total, h.pos]
  unfold Leak.Blake.final Blake.final
  rw [h.h.1, h.h'.1]
  have step : ∀ (c c' : Bool) (b b' : Byte) (f : Bool → L Bytes) (g : Bool → L Bytes) (x y : M Bytes), c = c' → Twin Any (f c) x (g c') y →
      Twin Any (Leak.branch c >>= f) x (Leak.branch c' >>= g) y := by
    intro c c' b b' f g x y e h a d ea ed
    subst e
    obtain ⟨t, h1, h2, r⟩ := h a d ea ed
    exact ⟨.branch c :: t, bind_ok (a := c) (t := [.branch c]) rfl h1, bind_ok (a := c) (t := [.branch c]) rfl h2, r⟩
  refine step _ _ 0 0 _ _ _ _ (by rw [h.pos]) ?_
  dsimp only
  have hc : ∀ s : Blk Blake.St, (if decide (s.pos = messageend hs ∧ truncated hs = false) = true then (0x81 : Byte) else 0x80) =
      if s.pos = messageend hs ∧ truncated hs = false then 0x81 else 0x80 := by
    intro s
    by_cases c : s.pos = messageend hs ∧ truncated hs = false
    · rw [if_pos c, decide_eq_true c, if_pos rfl]
    · rw [if_neg c, decide_eq_false c, if_neg (by decide)]
  rw [hc, hc]
  refine Twin.bind (Twin.setByte h.m h.pos) fun m m' rm => ?_
  refine Twin.branch (by rw [h.pos]) (fun _ _ => ?_) fun _ _ => ?_
  · refine Twin.bind (zeroRest_twin rm hp) fun m m' rm => ?_
    refine Twin.bind (blake_twin hs false true (k 0) (k' 0) m m' 1 _ _ (hk 0) (hk' 0) (by rw [rm.1]; omega) (by rw [rm.2]; omega) ⟨hp, ht, rm, h.h, h.h'⟩) fun a b r => ?_
    exact blake_finalTail_twin true (hk 1) (hk' 1) ⟨rfl, r.total, r.m, r.h, r.h'⟩
  · rw [← h.pos]
    exact blake_finalTail_twin _ (hk 1) (hk' 1) ⟨rfl, (congrArg (fun p => s.total + BitVec.ofNat 64 (8 * p)) rfl).trans (by rw [h.total]), rm, h.h, h.h'⟩

theorem blake_finalTail_safe {hs : Nat} (hhs : hs ≤ 512) (p : Bool) (s : Blk Blake.St) (hm : s.m.length = 128) (i : BlakeSt hs s.h) : ∃ b, Blake.finalTail p s = .ok b := by
  have hb := blockBytes_le hs
  have he := messageend_lt hs
  have h1 : ∃ m, Blake.padEnd s.h.hs s.m s.pos = .ok m ∧ m.length = 128 := by
    unfold Blake.padEnd
    rw [i.1]
    by_cases c : s.pos ≤ messageend hs
    · rw [if_pos c, szSub_eq _ _ c (by unfold szMod; omega)]
      obtain ⟨m, e, l⟩ := memset_safe s.m s.pos 0 (messageend hs - s.pos) (by omega)
      obtain ⟨m', e', l'⟩ := setByte_safe m (messageend hs) (if truncated hs then 0x00 else 0x01) (by omega)
      exact ⟨m', by rw [e]; exact e', by omega⟩
    · rw [if_neg c]
      exact ⟨s.m, rfl, hm⟩
  obtain ⟨m1, e1, l1⟩ := h1
  have h2 : ∃ m, Blake.padLen s.h.hs m1 = .ok m ∧ m.length = 128 := by
    unfold Blake.padLen
    by_cases c : blockBytes s.h.hs = 128
    · rw [if_pos c]
      obtain ⟨m, e, l⟩ := memset_safe m1 (128 - 16) 0 8 (by omega)
      exact ⟨m, e, by omega⟩
    · rw [if_neg c]
      exact ⟨m1, rfl, l1⟩
  obtain ⟨m2, e2, l2⟩ := h2
  have h8 : (bytes64 (byteswap64 s.total)).length = 8 := rfl
  obtain ⟨m3, e3, l3⟩ := memcpyTo_safe m2 (blockBytes s.h.hs - 8) (bytes64 (byteswap64 s.total)) (by rw [h8, i.1]; omega)
  obtain ⟨h', q, lq, i', et⟩ := blake_keeps hs p true { s with m := m3 } m3 1 (by omega) (by show m3.length = 128; omega) i
  unfold Blake.finalTail
  rw [e1, ok_bind, e2, ok_bind, e3, ok_bind, et, ok_bind]
  unfold Blake.output
  show ∃ b, (if h'.hs > 256 then _ else _) = Except.ok b
  rw [i'.1]
  have lt : ∀ {α : Type} (f : α → α) (l : List α), l.length = 12 → ((l.take 8).map f ++ l.drop 8).length = 12 := by
    intro α f l hl
    rw [List.length_append, List.length_map, List.length_take, List.length_drop]
    omega
  by_cases c : hs > 256
  · rw [if_pos c]
    exact readBytes_total (by rw [length_stores64, lt _ _ i'.2.1]; omega)
  · rw [if_neg c]
    exact readBytes_total (by rw [length_stores32, lt _ _ i'.2.2]; omega)

theorem blake_final_safe {hs : Nat} (hhs : hs ≤ 512) (s : Blk Blake.St) (h : Safe (blockBytes hs) 0 128 (BlakeSt hs) s) : ∃ b, Blake.final s = .ok b := by
  have hb := blockBytes_le hs
  have hp := h.pos
  have hm := h.mlen
  unfold Blake.final
  rw [h.inv.1]
  dsimp only
  obtain ⟨m, e, l⟩ := setByte_safe s.m s.pos (if s.pos = messageend hs ∧ truncated hs = false then 0x81 else 0x80) (by omega)
  rw [e, ok_bind]
  by_cases c : s.pos > messageend hs
  · rw [if_pos c]
    obtain ⟨q, eq, lq⟩ := zeroRest_safe (bs := blockBytes hs) (m := m) (pos := s.pos + 1) (by omega) (by omega) (by omega)
    obtain ⟨h', p, lp, i', et⟩ := blake_keeps hs false true { s with m := q, pos := s.pos + 1, total := s.total + BitVec.ofNat 64 (8 * s.pos) } q 1 (by omega)
      (by show q.length = 128; omega) h.inv
    rw [eq, ok_bind, et, ok_bind]
    exact blake_finalTail_safe hhs true _ lp i'
  · rw [if_neg c]
    exact blake_finalTail_safe hhs _ _ (by show m.length = 128; omega) h.inv

end Digestpp.Proofs.Leak
