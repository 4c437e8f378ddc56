import Verif.Model.Leak.Tree
import Verif.Proofs.Leak.XofShake

/-! Objects that contain other objects: `absorb_bytes` and loops, with the same trace. As `Proofs/Leak/Twin`, but what is known of two chaining values is a relation. -/

namespace Digestpp.Proofs.Leak
open Model

section Loops
variable {α β : Type}

theorem Twin.foldlM {ι : Type} {R : α → β → Prop} {f : α → ι → L α} {f' : α → ι → M α} {g : β → ι → L β} {g' : β → ι → M β} : ∀ (l : List ι),
    (∀ i ∈ l, ∀ a b, R a b → Twin R (f a i) (f' a i) (g b i) (g' b i)) → ∀ a b, R a b → Twin R (l.foldlM f a) (l.foldlM f' a) (l.foldlM g b) (l.foldlM g' b)
  | [], _, _, _, r => Twin.pure r
  | i :: l, h, a, b, r => by
    rw [List.foldlM_cons, List.foldlM_cons, List.foldlM_cons, List.foldlM_cons]
    exact Twin.bind (h i (List.mem_cons_self ..) a b r) fun a b r => Twin.foldlM l (fun j hj => h j (List.mem_cons_of_mem _ hj)) a b r

theorem Twin.loop {R : α → β → Prop} {n : Nat} {f : Nat → α → L α} {f' : Nat → α → M α} {g : Nat → β → L β} {g' : Nat → β → M β}
    (h : ∀ i, i < n → ∀ a b, R a b → Twin R (f i a) (f' i a) (g i b) (g' i b)) (a : α) (b : β) (r : R a b) :
    Twin R (Leak.loop 0 n f a) ((List.range n).foldlM (fun s i => f' i s) a) (Leak.loop 0 n g b) ((List.range n).foldlM (fun s i => g' i s) b) := by
  unfold Leak.loop
  rw [List.range_eq_range']
  refine Twin.skip (R := fun _ _ => True) (a := ()) (b := ()) (Twin.op fun _ _ _ _ => trivial) fun _ => ?_
  exact Twin.foldlM _ (fun i hi a b r => h i (by have := List.mem_range'_1.1 hi; omega) a b r) a b r

end Loops

section Absorb
variable {σ κ : Type}

/-- As `Same`, with a relation. -/
structure SameRel (ms : Nat) (Q : σ → σ → Prop) (s s' : Blk σ) : Prop where
  pos : s.pos = s'.pos
  total : s.total = s'.total
  m : Sz ms s.m s'.m
  h : Q s.h s'.h

/-- As `TwinTransform`, with a relation. -/
def TwinTransformRel (bs ms : Nat) (Q : σ → σ → Prop) (sized : κ → Prop) (lt : κ → Bytes → Nat → Blk σ → L (Blk σ)) (mt : Bytes → Nat → Blk σ → M (Blk σ)) : Prop :=
  ∀ k k' data data' n s s', sized k → sized k' → n * bs ≤ data.length → n * bs ≤ data'.length → SameRel ms Q s s' →
    Twin (SameRel ms Q) (lt k data n s) (mt data n s) (lt k' data' n s') (mt data' n s')

variable {bs ms : Nat} {Q : σ → σ → Prop} {sized : κ → Prop} {lt : κ → Bytes → Nat → Blk σ → L (Blk σ)} {mt : Bytes → Nat → Blk σ → M (Blk σ)}

theorem absorbRest_twinRel {data data' : Bytes} {s s' : Blk σ} (hd : data.length = data'.length) (h : SameRel ms Q s s') :
    Twin (SameRel ms Q) (Leak.absorbRest data s) (Model.absorbRest data s) (Leak.absorbRest data' s') (Model.absorbRest data' s') := by
  refine Twin.bind (Twin.memcpyTo h.m h.pos hd) fun a b r => Twin.pure ⟨?_, h.total, r, h.h⟩
  show s.pos + data.length = s'.pos + data'.length
  rw [h.pos, hd]

theorem absorbTail_twinRel (ht : TwinTransformRel bs ms Q sized lt mt) {z : Nat} (hz : z ≤ 1) (hbs : bs < 2 ^ 62) {k k' : κ} (hk : sized k) (hk' : sized k')
    {data data' : Bytes} {s s' : Blk σ} (hd : data.length = data'.length) (hl : data.length < 2 ^ 63) (h : SameRel ms Q s s') :
    Twin (SameRel ms Q) (Leak.absorbTail bs (bs + z) lt k data s) (Model.absorbTail bs (bs + z) mt data s)
      (Leak.absorbTail bs (bs + z) lt k' data' s') (Model.absorbTail bs (bs + z) mt data' s') := by
  unfold Leak.absorbTail Model.absorbTail
  refine Twin.branch (by rw [hd]) (fun hp _ => ?_) fun _ _ => absorbRest_twinRel hd h
  refine Twin.ite Iff.rfl (fun _ _ => Twin.error) fun _ _ => ?_
  rw [← hd]
  have e : szSub (data.length + bs) (bs + z) = data.length - z := by
    rw [szSub_eq _ _ (by omega) (by unfold szMod; omega)]
    omega
  have hb : szSub (data.length + bs) (bs + z) / bs * bs ≤ data.length := by
    rw [e]
    exact Nat.le_trans (Nat.div_mul_le_self _ _) (Nat.sub_le _ _)
  refine Twin.bind (ht k k' data data' _ s s' hk hk' hb (hd ▸ hb) h) fun a b r => ?_
  refine absorbRest_twinRel (by rw [List.length_drop, List.length_drop, hd]) ⟨r.pos, ?_, r.m, r.h⟩
  show a.total + _ = b.total + _
  rw [r.total]

theorem absorbBytes_twinRel (ht : TwinTransformRel bs ms Q sized lt mt) {z : Nat} (hz : z ≤ 1) (hbs : bs < 2 ^ 62) (hms : bs ≤ ms) {k k' : Nat → κ}
    (hk : ∀ i, sized (k i)) (hk' : ∀ i, sized (k' i)) {data data' : Bytes} {s s' : Blk σ} (hd : data.length = data'.length) (hl : data.length < 2 ^ 63)
    (h : SameRel ms Q s s') :
    Twin (SameRel ms Q) (Leak.absorbBytes bs (bs + z) lt k data s) (Model.absorbBytes bs (bs + z) mt data s)
      (Leak.absorbBytes bs (bs + z) lt k' data' s') (Model.absorbBytes bs (bs + z) mt data' s') := by
  have e : ∀ (tr : Bytes → Nat → Blk σ → M (Blk σ)) (d : Bytes) (s : Blk σ), Model.absorbBytes bs (bs + z) tr d s =
      if s.pos ≠ 0 then if (s.pos + d.length) % szMod ≥ bs + z then do
          let chunk ← Model.readBytes d 0 (szSub bs s.pos)
          let m ← Model.memcpyTo s.m s.pos chunk
          let s ← tr m 1 { s with m := m }
          Model.absorbTail bs (bs + z) tr (d.drop (szSub bs s.pos)) { s with total := s.total + BitVec.ofNat 64 (bs * 8), pos := 0 }
        else Model.absorbTail bs (bs + z) tr d s
      else Model.absorbTail bs (bs + z) tr d s := by
    intro tr d s
    unfold Model.absorbBytes
    by_cases h1 : s.pos ≠ 0
    · by_cases h2 : (s.pos + d.length) % szMod ≥ bs + z
      · rw [if_pos ⟨h1, h2⟩, if_pos h1, if_pos h2]
      · rw [if_neg fun h => h2 h.2, if_pos h1, if_neg h2]
    · rw [if_neg fun h => h1 h.1, if_neg h1]
  rw [e, e]
  unfold Leak.absorbBytes
  refine Twin.branch (by rw [h.pos]) (fun _ _ => ?_) fun _ _ => absorbTail_twinRel ht hz hbs (hk 1) (hk' 1) hd hl h
  refine Twin.branch (by rw [h.pos, hd]) (fun _ _ => ?_) fun _ _ => absorbTail_twinRel ht hz hbs (hk 1) (hk' 1) hd hl h
  refine Twin.bind (Twin.readBytes rfl (by rw [h.pos])) fun c c' rc => ?_
  refine Twin.bind (Twin.memcpyTo h.m h.pos (rc.1.trans rc.2.symm)) fun m m' rm => ?_
  refine Twin.bind (ht (k 0) (k' 0) m m' 1 _ _ (hk 0) (hk' 0) (by rw [rm.1]; omega) (by rw [rm.2]; omega) ⟨h.pos, h.total, rm, h.h⟩) fun a b r => ?_
  refine absorbTail_twinRel ht hz hbs (hk 1) (hk' 1) (by rw [List.length_drop, List.length_drop, hd, r.pos])
    (Nat.lt_of_le_of_lt (by rw [List.length_drop]; exact Nat.sub_le _ _) hl) ⟨rfl, ?_, r.m, r.h⟩
  show a.total + _ = b.total + _
  rw [r.total]

end Absorb
end Digestpp.Proofs.Leak
