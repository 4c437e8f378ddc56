import Verif.Model.Leak.Hash
import Verif.Proofs.Leak.Twin
import Verif.Proofs.PointersSafe
import Verif.Properties.Leak

/-! Hash functions of the Merkle-Damgård kind: the trace of a whole computation. -/

namespace Digestpp.Proofs.Leak
open Model Properties
variable {σ κ : Type}

theorem SameTrace.twin {ι α : Type} {ok : ι → Prop} {run : ι → L α} {model : ι → M α} (h : SameTrace ok run model) {i j : ι} (hi : ok i) (hj : ok j) {R : α → α → Prop}
    (hR : ∀ a b, model i = .ok a → model j = .ok b → R a b) : Twin R (run i) (model i) (run j) (model j) := by
  intro a b ea eb
  obtain ⟨tr, h⟩ := h
  obtain ⟨a', m, r⟩ := h i hi
  obtain ⟨b', m', r'⟩ := h j hj
  cases Except.ok.inj (m.symm.trans ea)
  cases Except.ok.inj (m'.symm.trans eb)
  exact ⟨tr, r, r', hR a b ea eb⟩

theorem TwinTransform.of {bs ms : Nat} {inv : σ → Prop} {sized : κ → Prop} {lt : κ → Bytes → Nat → Blk σ → L (Blk σ)} {mt : Bytes → Nat → Blk σ → M (Blk σ)}
    (hs : SafeTransform bs ms inv mt) (ht : ∀ n, ∃ tr, ∀ k data s, sized k → n * bs ≤ data.length → inv s.h → ∃ a, mt data n s = .ok a ∧ lt k data n s = .ok (a, tr)) :
    TwinTransform bs ms inv sized lt mt := by
  intro k k' data data' n s s' hk hk' hd hd' h a b ea eb
  obtain ⟨tr, ht⟩ := ht n
  obtain ⟨a', m, r⟩ := ht k data s hk hd h.h
  obtain ⟨b', m', r'⟩ := ht k' data' s' hk' hd' h.h'
  cases Except.ok.inj (m.symm.trans ea)
  cases Except.ok.inj (m'.symm.trans eb)
  refine ⟨tr, r, r', ?_⟩
  obtain ⟨x, p, lp, ix, e⟩ := hs s data n hd h.m.1 h.h
  obtain ⟨y, q, lq, iy, e'⟩ := hs s' data' n hd' h.m.2 h.h'
  cases Except.ok.inj (e.symm.trans ea)
  cases Except.ok.inj (e'.symm.trans eb)
  exact ⟨h.pos, h.total, ⟨lp, lq⟩, ix, iy⟩

/-- From a statement of C66 with other hypotheses in the same place. -/
theorem trace_of {S : Type} {ok : Call κ S → Prop} {run : Call κ S → L S} {model : Call κ S → M S} (h : SameTrace ok run model) {p : κ → Bytes → S → Prop}
    (hp : ∀ k d s, p k d s → ok ⟨k, d, s⟩) : ∃ tr, ∀ k d s, p k d s → ∃ a, model ⟨k, d, s⟩ = .ok a ∧ run ⟨k, d, s⟩ = .ok (a, tr) :=
  let ⟨tr, h⟩ := h
  ⟨tr, fun k d s hs => h ⟨k, d, s⟩ (hp k d s hs)⟩

/-- A whole computation: what the local arrays contain, the data of the calls of `absorb`, and the object. -/
structure _root_.Digestpp.Properties.Computation (κ S : Type) where
  locals : Nat → κ
  chunks : List Bytes
  obj : S

/-- What has to be known of the functions of a class. -/
theorem hash_same_trace {S : Type} {R : S → S → Prop} {I : S → Prop} {sz : κ → Prop} {lu : κ → Bytes → S → L S} {mu : Bytes → S → M S} {lf : κ → S → L Bytes} {mf : S → M Bytes}
    (hu : ∀ k k' d d' s s', sz k → sz k' → d.length = d'.length → d.length < 2 ^ 63 → R s s' → Twin R (lu k d s) (mu d s) (lu k' d' s') (mu d' s'))
    (hf : ∀ k k' s s', sz k → sz k' → R s s' → Twin Any (lf k s) (mf s) (lf k' s') (mf s'))
    (su : ∀ s d, I s → d.length < 2 ^ 63 → ∃ s', mu d s = .ok s' ∧ I s') (sf : ∀ s, I s → ∃ b, mf s = .ok b)
    {ok : S → Prop} (hI : ∀ s, ok s → I s) (hR : ∀ s s', ok s → ok s' → R s s') (ls : List Nat) (hl : ∀ n ∈ ls, n < 2 ^ 63) :
    SameTrace (fun c : Computation κ S => Each sz c.locals ∧ c.chunks.map List.length = ls ∧ ok c.obj) (fun c => Leak.hash lu lf c.locals c.chunks c.obj)
      (fun c => c.chunks.foldlM (fun s d => mu d s) c.obj >>= mf) := by
  have total : ∀ (ds : List Bytes) (s : S), (∀ d ∈ ds, d.length < 2 ^ 63) → I s → ∃ s', ds.foldlM (fun s d => mu d s) s = .ok s' ∧ I s' := by
    intro ds
    induction ds with
    | nil => exact fun s _ h => ⟨s, rfl, h⟩
    | cons d ds ih =>
      intro s hd h
      obtain ⟨s1, e1, i1⟩ := su s d h (hd d (List.mem_cons_self ..))
      obtain ⟨s2, e2, i2⟩ := ih s1 (fun x hx => hd x (List.mem_cons_of_mem _ hx)) i1
      exact ⟨s2, by rw [List.foldlM_cons, e1]; exact e2, i2⟩
  have len : ∀ ds : List Bytes, ds.map List.length = ls → ∀ d ∈ ds, d.length < 2 ^ 63 := fun ds e d hd => hl _ (e ▸ List.mem_map_of_mem hd)
  have res : ∀ (ds : List Bytes) (s : S), ds.map List.length = ls → ok s → ∃ b, (ds.foldlM (fun s d => mu d s) s >>= mf) = .ok b := by
    intro ds s e h
    obtain ⟨s1, e1, i1⟩ := total ds s (len ds e) (hI s h)
    obtain ⟨b, e2⟩ := sf s1 i1
    exact ⟨b, by rw [e1]; exact e2⟩
  have twin : ∀ c c' : Computation κ S, (Each sz c.locals ∧ c.chunks.map List.length = ls ∧ ok c.obj) → (Each sz c'.locals ∧ c'.chunks.map List.length = ls ∧ ok c'.obj) →
      Twin Any (Leak.hash lu lf c.locals c.chunks c.obj) (c.chunks.foldlM (fun s d => mu d s) c.obj >>= mf)
        (Leak.hash lu lf c'.locals c'.chunks c'.obj) (c'.chunks.foldlM (fun s d => mu d s) c'.obj >>= mf) := by
    intro c c' ⟨k, e, o⟩ ⟨k', e', o'⟩
    exact Twin.bind (updates_twin hu c.chunks c'.chunks _ _ c.obj c'.obj (fun i => k (i + 1)) (fun i => k' (i + 1)) (e.trans e'.symm) (len _ e) (hR _ _ o o'))
      fun s s' r => hf _ _ s s' (k 0) (k' 0) r
  by_cases hc : ∃ c : Computation κ S, Each sz c.locals ∧ c.chunks.map List.length = ls ∧ ok c.obj
  · obtain ⟨c, hc⟩ := hc
    obtain ⟨a, ea⟩ := res c.chunks c.obj hc.2.1 hc.2.2
    obtain ⟨tr, e, _, _⟩ := twin c c hc hc a a ea ea
    refine ⟨tr, fun c' hc' => ?_⟩
    obtain ⟨b, eb⟩ := res c'.chunks c'.obj hc'.2.1 hc'.2.2
    obtain ⟨tr', e1, e2, _⟩ := twin c c' hc hc' a b ea eb
    cases Except.ok.inj (e.symm.trans e1)
    exact ⟨b, eb, e2⟩
  · exact ⟨[], fun c h => absurd ⟨c, h⟩ hc⟩

/-- What is known about an object with the public values `pos` and `total`. -/
abbrev _root_.Digestpp.Properties.ObjectAt (ms : Nat) (inv : σ → Prop) (pos : Nat) (total : BitVec 64) (s : Blk σ) : Prop := s.pos = pos ∧ s.total = total ∧ s.m.length = ms ∧ inv s.h

/-- The classes whose object is a buffer, a position, a counter and a chaining value. -/
theorem blk_same_trace {bs z ms : Nat} {inv : σ → Prop} {sz : κ → Prop} {lu : κ → Bytes → Blk σ → L (Blk σ)} {mu : Bytes → Blk σ → M (Blk σ)} {lf : κ → Blk σ → L Bytes}
    {mf : Blk σ → M Bytes} (hu : ∀ k k' d d' s s', sz k → sz k' → d.length = d'.length → d.length < 2 ^ 63 → Same ms inv s s' → Twin (Same ms inv) (lu k d s) (mu d s) (lu k' d' s') (mu d' s'))
    (hf : ∀ k k' s s', sz k → sz k' → Same ms inv s s' → Twin Any (lf k s) (mf s) (lf k' s') (mf s'))
    (su : ∀ s d, Safe bs z ms inv s → d.length < 2 ^ 63 → ∃ s', mu d s = .ok s' ∧ Safe bs z ms inv s') (sf : ∀ s, Safe bs z ms inv s → ∃ b, mf s = .ok b)
    (pos : Nat) (total : BitVec 64) (hp : pos < bs + z) (ls : List Nat) (hl : ∀ n ∈ ls, n < 2 ^ 63) :
    SameTrace (fun c : Computation κ (Blk σ) => Each sz c.locals ∧ c.chunks.map List.length = ls ∧ ObjectAt ms inv pos total c.obj) (fun c => Leak.hash lu lf c.locals c.chunks c.obj)
      (fun c => c.chunks.foldlM (fun s d => mu d s) c.obj >>= mf) :=
  hash_same_trace (R := Same ms inv) (I := Safe bs z ms inv) hu hf su sf (fun s h => ⟨h.2.2.1, by rw [h.1]; exact hp, h.2.2.2⟩)
    (fun s s' h h' => ⟨h.1.trans h'.1.symm, h.2.1.trans h'.2.1.symm, ⟨h.2.2.1, h'.2.2.1⟩, h.2.2.2, h'.2.2.2⟩) ls hl

theorem mdFinalTail_safe {bs ms fill : Nat} {inv : σ → Prop} {enc : BitVec 64 → Bytes} {mt : Bytes → Nat → Blk σ → M (Blk σ)} (hs : SafeTransform bs ms inv mt)
    (hms : bs ≤ ms) (h8 : 8 ≤ bs) (hfill : fill ≤ bs) (hb : bs < 2 ^ 62) (henc : ∀ t, (enc t).length = 8) (s : Blk σ) (hm : s.m.length = ms) (hp : s.pos ≤ fill) (hi : inv s.h) :
    ∃ s', Model.mdFinalTail bs fill enc mt s = .ok s' ∧ inv s'.h := by
  unfold Model.mdFinalTail
  rw [szSub_eq _ _ hp (by unfold szMod; omega)]
  obtain ⟨m, e, lm⟩ := memset_safe s.m s.pos 0 (fill - s.pos) (by omega)
  obtain ⟨m', e', lm'⟩ := memcpyTo_safe m (bs - 8) (enc s.total) (by rw [henc]; omega)
  rw [e, ok_bind, e', ok_bind]
  obtain ⟨h', p, _, i', et⟩ := hs { s with m := m' } m' 1 (by omega) (by show m'.length = ms; omega) hi
  exact ⟨_, et, i'⟩

theorem mdFinal_safe {bs ms limit fill : Nat} {inv : σ → Prop} {enc : BitVec 64 → Bytes} {mt : Bytes → Nat → Blk σ → M (Blk σ)} (hs : SafeTransform bs ms inv mt)
    (hms : bs ≤ ms) (h8 : 8 ≤ bs) (hlim : limit ≤ fill) (hfill : fill ≤ bs) (hb : bs < 2 ^ 62) (henc : ∀ t, (enc t).length = 8) (s : Blk σ) (h : Safe bs 0 ms inv s) :
    ∃ s', Model.mdFinal bs limit fill enc mt s = .ok s' ∧ inv s'.h := by
  have hp := h.pos
  have hm := h.mlen
  unfold Model.mdFinal
  obtain ⟨m, e, lm⟩ := setByte_safe s.m s.pos 0x80 (by omega)
  dsimp only
  rw [e, ok_bind]
  by_cases c : s.pos + 1 > limit
  · rw [if_pos c]
    have hz : ∃ q, Model.zeroRest bs m (s.pos + 1) = .ok q ∧ q.length = ms := by
      unfold Model.zeroRest
      by_cases d : s.pos + 1 ≠ bs
      · rw [if_pos d, szSub_eq _ _ (by omega) (by unfold szMod; omega)]
        obtain ⟨q, e, lq⟩ := memset_safe m (s.pos + 1) 0 (bs - (s.pos + 1)) (by omega)
        exact ⟨q, e, by omega⟩
      · rw [if_neg d]
        exact ⟨m, rfl, by omega⟩
    obtain ⟨q, eq, lq⟩ := hz
    rw [eq, ok_bind]
    obtain ⟨h', p, lp, i', et⟩ := hs { s with m := q, pos := s.pos + 1, total := s.total + BitVec.ofNat 64 (s.pos * 8) } q 1 (by omega) lq h.inv
    rw [et, ok_bind]
    exact mdFinalTail_safe hs hms h8 hfill hb henc _ lp (Nat.zero_le _) i'
  · rw [if_neg c]
    exact mdFinalTail_safe hs hms h8 hfill hb henc _ (by show m.length = ms; omega) (by show s.pos + 1 ≤ fill; omega) h.inv

/-- The classes with the padding of MD5. -/
theorem md_same_trace {bs limit fill : Nat} {inv : σ → Prop} {sized : κ → Prop} {enc : BitVec 64 → Bytes} {lt : κ → Bytes → Nat → Blk σ → L (Blk σ)} {mt : Bytes → Nat → Blk σ → M (Blk σ)}
    {lo : Blk σ → L Bytes} {mo : Blk σ → M Bytes} (hs : SafeTransform bs bs inv mt) (ht : TwinTransform bs bs inv sized lt mt)
    (h8 : 8 ≤ bs) (hlim : limit ≤ fill) (hfill : fill ≤ bs) (hb : bs < 2 ^ 62) (henc : ∀ t, (enc t).length = 8)
    (ho : ∀ s s', Same bs inv s s' → Twin Any (lo s) (mo s) (lo s') (mo s')) (so : ∀ s, inv s.h → ∃ b, mo s = .ok b)
    (pos : Nat) (total : BitVec 64) (hp : pos < bs) (ls : List Nat) (hl : ∀ n ∈ ls, n < 2 ^ 63) :
    SameTrace (fun c : Computation (Nat → κ) (Blk σ) => Each (Each sized) c.locals ∧ c.chunks.map List.length = ls ∧ ObjectAt bs inv pos total c.obj)
      (fun c => Leak.hash (Leak.absorbBytes bs bs lt) (fun k s => Leak.mdFinal bs limit fill enc lt k s >>= lo) c.locals c.chunks c.obj)
      (fun c => c.chunks.foldlM (fun s d => absorbBytes bs bs mt d s) c.obj >>= fun s => mdFinal bs limit fill enc mt s >>= mo) :=
  blk_same_trace (bs := bs) (z := 0) (ms := bs) (inv := inv) (sz := Each sized) (lu := Leak.absorbBytes bs bs lt) (mu := absorbBytes bs bs mt)
    (lf := fun k s => Leak.mdFinal bs limit fill enc lt k s >>= lo) (mf := fun s => mdFinal bs limit fill enc mt s >>= mo) (fun _ _ _ _ _ _ hk hk' hd hl h => absorbBytes_twin ht (z := 0) (Nat.zero_le _) hb (Nat.le_refl _) hk hk' hd hl h)
    (fun _ _ _ _ hk hk' h => Twin.bind (mdFinal_twin ht (Nat.le_refl _) hk hk' h) fun a b r => ho a b r)
    (fun s d h hd => absorbBytes_safe_le (z := 0) (by omega) (Nat.zero_le _) (Nat.le_refl _) hb hs d s h.mlen (Nat.le_of_lt h.pos) h.inv hd)
    (fun s h => by
      obtain ⟨s', e, i⟩ := mdFinal_safe (enc := enc) hs (Nat.le_refl _) h8 hlim hfill hb henc s h
      obtain ⟨b, eb⟩ := so s' i
      exact ⟨b, by rw [e]; exact eb⟩) pos total hp ls hl

end Digestpp.Proofs.Leak
