import Verif.Model.Leak.Run
import Verif.Proofs.Leak.Basic
import Verif.Proofs.Absorb
import Verif.Proofs.Arrays

/-! Two computations with the same trace, each giving the result of its model: `absorb_bytes` and the `final` functions. -/

namespace Digestpp.Proofs.Leak
open Model

/-- If both models end, so do the traced computations, with the same results and one trace for both, and the results are related by `R`. -/
def Twin {α β : Type} (R : α → β → Prop) (x : L α) (m : M α) (y : L β) (n : M β) : Prop :=
  ∀ a b, m = .ok a → n = .ok b → ∃ t, x = .ok (a, t) ∧ y = .ok (b, t) ∧ R a b

section Twin
variable {α β γ δ : Type}

theorem Twin.pure {R : α → β → Prop} {a : α} {b : β} (h : R a b) : Twin R (Pure.pure a) (Pure.pure a) (Pure.pure b) (Pure.pure b) := by
  intro a' b' e1 e2
  cases e1
  cases e2
  exact ⟨[], rfl, rfl, h⟩

theorem Twin.op {R : α → β → Prop} {e : Ev} {x : M α} {y : M β} (h : ∀ a b, x = .ok a → y = .ok b → R a b) : Twin R (L.op e x) x (L.op e y) y := by
  intro a b e1 e2
  subst e1
  subst e2
  exact ⟨[e], rfl, rfl, h a b rfl rfl⟩

theorem M.bind_eq_ok {x : M α} {f : α → M γ} {c : γ} (h : (x >>= f) = .ok c) : ∃ a, x = .ok a ∧ f a = .ok c := by
  cases x with
  | error e => cases h
  | ok a => exact ⟨a, rfl, h⟩

theorem bind_ok {x : L α} {f : α → L γ} {a : α} {c : γ} {t u : List Ev} (h : x = .ok (a, t)) (h' : f a = .ok (c, u)) : (x >>= f) = .ok (c, t ++ u) := by
  show L.bind x f = _
  rw [h]
  show (match f a with | .error e => .error e | .ok (b, u) => .ok (b, t ++ u) : L γ) = _
  rw [h']

theorem Twin.bind {R : α → β → Prop} {Q : γ → δ → Prop} {x : L α} {m : M α} {y : L β} {n : M β} {f : α → L γ} {f' : α → M γ} {g : β → L δ} {g' : β → M δ}
    (h : Twin R x m y n) (hf : ∀ a b, R a b → Twin Q (f a) (f' a) (g b) (g' b)) : Twin Q (x >>= f) (m >>= f') (y >>= g) (n >>= g') := by
  intro c d e1 e2
  obtain ⟨a, ea, ec⟩ := M.bind_eq_ok e1
  obtain ⟨b, eb, ed⟩ := M.bind_eq_ok e2
  obtain ⟨t, hx, hy, r⟩ := h a b ea eb
  obtain ⟨u, hx', hy', q⟩ := hf a b r c d ec ed
  exact ⟨t ++ u, bind_ok hx hx', bind_ok hy hy', q⟩

/-- A traced step that the model does not have as a step of its own. -/
theorem Twin.skip {R : α → β → Prop} {Q : γ → δ → Prop} {x : L α} {a : α} {y : L β} {b : β} {f : α → L γ} {c : M γ} {g : β → L δ} {d : M δ}
    (h : Twin R x (.ok a) y (.ok b)) (hf : R a b → Twin Q (f a) c (g b) d) : Twin Q (x >>= f) c (y >>= g) d := by
  intro c d e1 e2
  obtain ⟨t, hx, hy, r⟩ := h a b rfl rfl
  obtain ⟨u, hx', hy', q⟩ := hf r c d e1 e2
  exact ⟨t ++ u, bind_ok hx hx', bind_ok hy hy', q⟩

theorem Twin.mono {R Q : α → β → Prop} {x : L α} {m : M α} {y : L β} {n : M β} (h : Twin R x m y n) (hq : ∀ a b, m = .ok a → n = .ok b → R a b → Q a b) : Twin Q x m y n :=
  fun a b e1 e2 => let ⟨t, h1, h2, r⟩ := h a b e1 e2; ⟨t, h1, h2, hq a b e1 e2 r⟩

theorem Twin.branch {R : α → β → Prop} {p q : Prop} [Decidable p] [Decidable q] {x1 x2 : L α} {m1 m2 : M α} {y1 y2 : L β} {n1 n2 : M β} (hpq : p ↔ q)
    (h1 : p → q → Twin R x1 m1 y1 n1) (h2 : ¬p → ¬q → Twin R x2 m2 y2 n2) :
    Twin R (Leak.branch (decide p) >>= fun c => if c = true then x1 else x2) (if p then m1 else m2)
      (Leak.branch (decide q) >>= fun c => if c = true then y1 else y2) (if q then n1 else n2) := by
  by_cases hp : p
  · have hq := hpq.1 hp
    rw [if_pos hp, if_pos hq, decide_eq_true hp, decide_eq_true hq]
    intro a b e1 e2
    obtain ⟨t, hx, hy, r⟩ := h1 hp hq a b e1 e2
    exact ⟨.branch true :: t, bind_ok (a := true) (t := [.branch true]) rfl hx, bind_ok (a := true) (t := [.branch true]) rfl hy, r⟩
  · have hq : ¬q := fun h => hp (hpq.2 h)
    rw [if_neg hp, if_neg hq, decide_eq_false hp, decide_eq_false hq]
    intro a b e1 e2
    obtain ⟨t, hx, hy, r⟩ := h2 hp hq a b e1 e2
    exact ⟨.branch false :: t, bind_ok (a := false) (t := [.branch false]) rfl hx, bind_ok (a := false) (t := [.branch false]) rfl hy, r⟩

theorem Twin.ite {R : α → β → Prop} {p q : Prop} [Decidable p] [Decidable q] {x1 x2 : L α} {m1 m2 : M α} {y1 y2 : L β} {n1 n2 : M β} (hpq : p ↔ q)
    (h1 : p → q → Twin R x1 m1 y1 n1) (h2 : ¬p → ¬q → Twin R x2 m2 y2 n2) :
    Twin R (if p then x1 else x2) (if p then m1 else m2) (if q then y1 else y2) (if q then n1 else n2) := by
  by_cases hp : p
  · have hq := hpq.1 hp
    rw [if_pos hp, if_pos hp, if_pos hq, if_pos hq]
    exact h1 hp hq
  · have hq : ¬q := fun h => hp (hpq.2 h)
    rw [if_neg hp, if_neg hp, if_neg hq, if_neg hq]
    exact h2 hp hq

theorem Twin.error {R : α → β → Prop} {x : L α} {y : L β} {n : M β} {e : UB} : Twin R x (.error e) y n := nofun

/-- From agreement, and results equal to the model's. -/
theorem Twin.ofAgree {R : α → β → Prop} {x : L α} {m : M α} {y : L β} {n : M β} (h : Agree R x y) (hx : L.erase x = m) (hy : L.erase y = n) : Twin R x m y n := by
  intro a b e1 e2
  subst hx
  subst hy
  cases x with
  | error e => cases e1
  | ok v =>
    cases y with
    | error e => cases e2
    | ok w =>
      obtain ⟨a', t⟩ := v
      obtain ⟨b', u⟩ := w
      cases e1
      cases e2
      obtain ⟨rfl, r⟩ := h a t b u rfl rfl
      exact ⟨t, rfl, rfl, r⟩

end Twin

theorem length_memcpyTo {dst src a : Bytes} {off : Nat} (h : Model.memcpyTo dst off src = .ok a) : a.length = dst.length := by
  unfold Model.memcpyTo at h
  split at h
  · cases h
    simp only [List.length_append, List.length_take, List.length_drop]
    omega
  · cases h

theorem length_memset {dst a : Bytes} {off n : Nat} {v : Byte} (h : Model.memset dst off v n = .ok a) : a.length = dst.length := by
  unfold Model.memset at h
  split at h
  · cases h
    simp only [List.length_append, List.length_take, List.length_drop, List.length_replicate]
    omega
  · cases h

theorem length_setByte {dst a : Bytes} {i : Nat} {v : Byte} (h : Model.setByte dst i v = .ok a) : a.length = dst.length := by
  unfold Model.setByte at h
  split at h
  · cases h
    exact List.length_set
  · cases h

theorem length_readBytes {src a : Bytes} {off n : Nat} (h : Model.readBytes src off n = .ok a) : a.length = n := by
  unfold Model.readBytes at h
  split at h
  · cases h
    rw [List.length_take, List.length_drop]
    omega
  · cases h

/-- Byte arrays of a given length. -/
abbrev Sz (n : Nat) (a b : Bytes) : Prop := a.length = n ∧ b.length = n

theorem Twin.readBytes {p q : Bytes} {off n off' n' : Nat} (ho : off = off') (hn : n = n') :
    Twin (Sz n) (Leak.readBytes p off n) (Model.readBytes p off n) (Leak.readBytes q off' n') (Model.readBytes q off' n') := by
  subst ho
  subst hn
  exact Twin.op fun a b e1 e2 => ⟨length_readBytes e1, length_readBytes e2⟩

theorem Twin.memcpyTo {ms : Nat} {p q src src' : Bytes} {off off' : Nat} (hm : Sz ms p q) (ho : off = off') (hl : src.length = src'.length) :
    Twin (Sz ms) (Leak.memcpyTo p off src) (Model.memcpyTo p off src) (Leak.memcpyTo q off' src') (Model.memcpyTo q off' src') := by
  subst ho
  unfold Leak.memcpyTo
  rw [hl]
  exact Twin.op fun a b e1 e2 => ⟨(length_memcpyTo e1).trans hm.1, (length_memcpyTo e2).trans hm.2⟩

theorem Twin.memset {ms : Nat} {p q : Bytes} {off off' n n' : Nat} {v v' : Byte} (hm : Sz ms p q) (ho : off = off') (hn : n = n') :
    Twin (Sz ms) (Leak.memset p off v n) (Model.memset p off v n) (Leak.memset q off' v' n') (Model.memset q off' v' n') := by
  subst ho
  subst hn
  exact Twin.op fun a b e1 e2 => ⟨(length_memset e1).trans hm.1, (length_memset e2).trans hm.2⟩

theorem Twin.setByte {ms : Nat} {p q : Bytes} {i i' : Nat} {v v' : Byte} (hm : Sz ms p q) (hi : i = i') :
    Twin (Sz ms) (Leak.setByte p i v) (Model.setByte p i v) (Leak.setByte q i' v') (Model.setByte q i' v') := by
  subst hi
  exact Twin.op fun a b e1 e2 => ⟨(length_setByte e1).trans hm.1, (length_setByte e2).trans hm.2⟩

section Absorb
variable {σ κ : Type}

/-- What two objects have in common for someone who does not know what they have absorbed. -/
structure Same (ms : Nat) (inv : σ → Prop) (s s' : Blk σ) : Prop where
  pos : s.pos = s'.pos
  total : s.total = s'.total
  m : Sz ms s.m s'.m
  h : inv s.h
  h' : inv s'.h

/-- Calls of `transform` that leave the same trace. -/
def TwinTransform (bs ms : Nat) (inv : σ → Prop) (sized : κ → Prop) (lt : κ → Bytes → Nat → Blk σ → L (Blk σ)) (mt : Bytes → Nat → Blk σ → M (Blk σ)) : Prop :=
  ∀ k k' data data' n s s', sized k → sized k' → n * bs ≤ data.length → n * bs ≤ data'.length → Same ms inv s s' →
    Twin (Same ms inv) (lt k data n s) (mt data n s) (lt k' data' n s') (mt data' n s')

variable {bs ms : Nat} {inv : σ → Prop} {sized : κ → Prop} {lt : κ → Bytes → Nat → Blk σ → L (Blk σ)} {mt : Bytes → Nat → Blk σ → M (Blk σ)}

theorem absorbRest_twin {data data' : Bytes} {s s' : Blk σ} (hd : data.length = data'.length) (h : Same ms inv s s') :
    Twin (Same ms inv) (Leak.absorbRest data s) (Model.absorbRest data s) (Leak.absorbRest data' s') (Model.absorbRest data' s') := by
  refine Twin.bind (Twin.memcpyTo h.m h.pos hd) fun a b r => Twin.pure ⟨?_, h.total, r, h.h, h.h'⟩
  show s.pos + data.length = s'.pos + data'.length
  rw [h.pos, hd]

theorem absorbTail_twin (ht : TwinTransform bs ms inv sized lt mt) {z : Nat} (hz : z ≤ 1) (hbs : bs < 2 ^ 62) {k k' : κ} (hk : sized k) (hk' : sized k')
    {data data' : Bytes} {s s' : Blk σ} (hd : data.length = data'.length) (hl : data.length < 2 ^ 63) (h : Same ms inv s s') :
    Twin (Same ms inv) (Leak.absorbTail bs (bs + z) lt k data s) (Model.absorbTail bs (bs + z) mt data s)
      (Leak.absorbTail bs (bs + z) lt k' data' s') (Model.absorbTail bs (bs + z) mt data' s') := by
  unfold Leak.absorbTail Model.absorbTail
  refine Twin.branch (by rw [hd]) (fun hp _ => ?_) fun _ _ => absorbRest_twin hd h
  refine Twin.ite Iff.rfl (fun _ _ => Twin.error) fun _ _ => ?_
  rw [← hd]
  have e : szSub (data.length + bs) (bs + z) = data.length - z := by
    rw [szSub_eq _ _ (by omega) (by unfold szMod; omega)]
    omega
  have hb : szSub (data.length + bs) (bs + z) / bs * bs ≤ data.length := by
    rw [e]
    exact Nat.le_trans (Nat.div_mul_le_self _ _) (Nat.sub_le _ _)
  refine Twin.bind (ht k k' data data' _ s s' hk hk' hb (hd ▸ hb) h) fun a b r => ?_
  refine absorbRest_twin (by rw [List.length_drop, List.length_drop, hd]) ⟨r.pos, ?_, r.m, r.h, r.h'⟩
  show a.total + _ = b.total + _
  rw [r.total]

theorem absorbBytes_twin (ht : TwinTransform bs ms inv sized lt mt) {z : Nat} (hz : z ≤ 1) (hbs : bs < 2 ^ 62) (hms : bs ≤ ms) {k k' : Nat → κ}
    (hk : ∀ i, sized (k i)) (hk' : ∀ i, sized (k' i)) {data data' : Bytes} {s s' : Blk σ} (hd : data.length = data'.length) (hl : data.length < 2 ^ 63)
    (h : Same ms inv s s') :
    Twin (Same ms inv) (Leak.absorbBytes bs (bs + z) lt k data s) (Model.absorbBytes bs (bs + z) mt data s)
      (Leak.absorbBytes bs (bs + z) lt k' data' s') (Model.absorbBytes bs (bs + z) mt data' s') := by
  have e : ∀ (tr : Bytes → Nat → Blk σ → M (Blk σ)) (d : Bytes) (s : Blk σ), Model.absorbBytes bs (bs + z) tr d s =
      if s.pos ≠ 0 then if (s.pos + d.length) % szMod ≥ bs + z then do
          let chunk ← Model.readBytes d 0 (szSub bs s.pos)
          let m ← Model.memcpyTo s.m s.pos chunk
          let s ← tr m 1 { s with m := m }
          Model.absorbTail bs (bs + z) tr (d.drop (szSub bs s.pos)) { s with total := s.total + BitVec.ofNat 64 (bs * 8), pos := 0 }
        else Model.absorbTail bs (bs + z) tr d s
      else Model.absorbTail bs (bs + z) tr d s := by
    intro tr d s
    unfold Model.absorbBytes
    by_cases h1 : s.pos ≠ 0
    · by_cases h2 : (s.pos + d.length) % szMod ≥ bs + z
      · rw [if_pos ⟨h1, h2⟩, if_pos h1, if_pos h2]
      · rw [if_neg fun h => h2 h.2, if_pos h1, if_neg h2]
    · rw [if_neg fun h => h1 h.1, if_neg h1]
  rw [e, e]
  unfold Leak.absorbBytes
  refine Twin.branch (by rw [h.pos]) (fun _ _ => ?_) fun _ _ => absorbTail_twin ht hz hbs (hk 1) (hk' 1) hd hl h
  refine Twin.branch (by rw [h.pos, hd]) (fun _ _ => ?_) fun _ _ => absorbTail_twin ht hz hbs (hk 1) (hk' 1) hd hl h
  refine Twin.bind (Twin.readBytes rfl (by rw [h.pos])) fun c c' rc => ?_
  refine Twin.bind (Twin.memcpyTo h.m h.pos (rc.1.trans rc.2.symm)) fun m m' rm => ?_
  refine Twin.bind (ht (k 0) (k' 0) m m' 1 _ _ (hk 0) (hk' 0) (by rw [rm.1]; omega) (by rw [rm.2]; omega) ⟨h.pos, h.total, rm, h.h, h.h'⟩) fun a b r => ?_
  refine absorbTail_twin ht hz hbs (hk 1) (hk' 1) (by rw [List.length_drop, List.length_drop, hd, r.pos])
    (Nat.lt_of_le_of_lt (by rw [List.length_drop]; exact Nat.sub_le _ _) hl) ⟨rfl, ?_, r.m, r.h, r.h'⟩
  show a.total + _ = b.total + _
  rw [r.total]

theorem zeroRest_twin {p q : Bytes} {pos pos' : Nat} (hm : Sz ms p q) (hp : pos = pos') :
    Twin (Sz ms) (Leak.zeroRest bs p pos) (Model.zeroRest bs p pos) (Leak.zeroRest bs q pos') (Model.zeroRest bs q pos') := by
  unfold Leak.zeroRest Model.zeroRest
  exact Twin.branch (by rw [hp]) (fun _ _ => Twin.memset hm hp (by rw [hp])) fun _ _ => Twin.pure hm

theorem mdFinalTail_twin (ht : TwinTransform bs ms inv sized lt mt) (hms : bs ≤ ms) {fill : Nat} {enc : BitVec 64 → Bytes} {k k' : κ} (hk : sized k) (hk' : sized k') {s s' : Blk σ}
    (h : Same ms inv s s') :
    Twin (Same ms inv) (Leak.mdFinalTail bs fill enc lt k s) (Model.mdFinalTail bs fill enc mt s) (Leak.mdFinalTail bs fill enc lt k' s') (Model.mdFinalTail bs fill enc mt s') := by
  refine Twin.bind (Twin.memset h.m h.pos (by rw [h.pos])) fun m m' rm => ?_
  refine Twin.bind (Twin.memcpyTo rm rfl (by rw [h.total])) fun m m' rm => ?_
  exact ht k k' m m' 1 _ _ hk hk' (by rw [rm.1]; omega) (by rw [rm.2]; omega) ⟨h.pos, h.total, rm, h.h, h.h'⟩

theorem mdFinal_twin (ht : TwinTransform bs ms inv sized lt mt) (hms : bs ≤ ms) {limit fill : Nat} {enc : BitVec 64 → Bytes} {k k' : Nat → κ}
    (hk : ∀ i, sized (k i)) (hk' : ∀ i, sized (k' i)) {s s' : Blk σ} (h : Same ms inv s s') :
    Twin (Same ms inv) (Leak.mdFinal bs limit fill enc lt k s) (Model.mdFinal bs limit fill enc mt s)
      (Leak.mdFinal bs limit fill enc lt k' s') (Model.mdFinal bs limit fill enc mt s') := by
  have ht' : s.total + BitVec.ofNat 64 (s.pos * 8) = s'.total + BitVec.ofNat 64 (s'.pos * 8) := by rw [h.total, h.pos]
  have hp : s.pos + 1 = s'.pos + 1 := by rw [h.pos]
  refine Twin.bind (Twin.setByte h.m h.pos) fun m m' rm => ?_
  refine Twin.branch (by rw [h.pos]) (fun _ _ => ?_) fun _ _ => mdFinalTail_twin ht hms (hk 1) (hk' 1) ⟨hp, ht', rm, h.h, h.h'⟩
  refine Twin.bind (zeroRest_twin rm hp) fun m m' rm => ?_
  refine Twin.bind (ht (k 0) (k' 0) m m' 1 _ _ (hk 0) (hk' 0) (by rw [rm.1]; omega) (by rw [rm.2]; omega) ⟨hp, ht', rm, h.h, h.h'⟩) fun a b r => ?_
  exact mdFinalTail_twin ht hms (hk 1) (hk' 1) ⟨rfl, r.total, r.m, r.h, r.h'⟩

theorem updates_twin {S : Type} {R : S → S → Prop} {sz : κ → Prop} {lu : κ → Bytes → S → L S} {mu : Bytes → S → M S}
    (hu : ∀ k k' d d' s s', sz k → sz k' → d.length = d'.length → d.length < 2 ^ 63 → R s s' → Twin R (lu k d s) (mu d s) (lu k' d' s') (mu d' s')) :
    ∀ (ds ds' : List Bytes) (k k' : Nat → κ) (s s' : S), (∀ i, sz (k i)) → (∀ i, sz (k' i)) → ds.map List.length = ds'.map List.length → (∀ d ∈ ds, d.length < 2 ^ 63) → R s s' →
      Twin R (Leak.updates lu k ds s) (ds.foldlM (fun s d => mu d s) s) (Leak.updates lu k' ds' s') (ds'.foldlM (fun s d => mu d s) s')
  | [], [], _, _, _, _, _, _, _, _, h => Twin.pure h
  | [], _ :: _, _, _, _, _, _, _, e, _, _ => nomatch e
  | _ :: _, [], _, _, _, _, _, _, e, _, _ => nomatch e
  | d :: ds, d' :: ds', k, k', s, s', hk, hk', e, hl, h => by
    rw [List.foldlM_cons, List.foldlM_cons]
    have e := List.cons.inj e
    exact Twin.bind (hu (k 0) (k' 0) d d' s s' (hk 0) (hk' 0) e.1 (hl d (List.mem_cons_self ..)) h) fun a b r =>
      updates_twin hu ds ds' _ _ a b (fun i => hk (i + 1)) (fun i => hk' (i + 1)) e.2 (fun x hx => hl x (List.mem_cons_of_mem _ hx)) r

/-- `H[i] = byteswap(H[i])` for all elements. -/
theorem swapWords_twin {α : Type} [Inhabited α] {n : Nat} {swap : α → α} {H H' : List α} (h : H.length = n) (h' : H'.length = n) :
    Twin Any (Leak.swapWords n swap H) (.ok (H.map swap)) (Leak.swapWords n swap H') (.ok (H'.map swap)) := by
  have e : ∀ H : List α, H.length = n → L.erase (Leak.swapWords n swap H) = .ok (H.map swap) := by
    intro H h
    unfold Leak.swapWords
    rw [erase_loop]
    refine (fill_upd_all default (fun i => swap (H.getD i default)) n _ H h ?_).trans ?_
    · intro t b ht hb e
      rw [erase_upd, upd_ok swap default (by omega), e]
    · congr 1
      show (List.range n).map (swap ∘ fun i => H.getD i default) = _
      rw [← List.map_map (f := fun i => H.getD i default) (g := swap), map_range_getD H default n h]
  refine Twin.ofAgree ?_ (e H h) (e H' h')
  unfold Leak.swapWords
  exact Agree.loop_any fun _ _ _ => Agree.upd

end Absorb
end Digestpp.Proofs.Leak
