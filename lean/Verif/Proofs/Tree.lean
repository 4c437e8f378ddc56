import Verif.Spec.Tree
import Verif.Proofs.Inner
import Verif.Proofs.Blake2

/-! Collisions of tree hashes, for C64. -/

namespace Digestpp.Proofs.Tree
open Spec Spec.Inputs

/-! ## KangarooTwelve -/

/-- The domain bytes in use are not zero. -/
theorem turbo_det (R r : Nat) (h0 : 0 < r) : (Inputs.turbo R r).Determines fun D _ => D ≠ 0 := by
  intro D D' X X' h1 h2 h
  have := Keccak.padD_inj h1 h2 (chunks_inj (Keccak.length_padD _ h0 _ _) (Keccak.length_padD _ h0 _ _) h)
  exact ⟨this.2, this.1⟩

theorem turbo_result (R r : Nat) (D : Byte) (X : Bytes) : (Inputs.turbo R r).result D X = K12.turbo R r D X := by
  unfold Iter.result Iter.chain K12.turbo Keccak.absorb
  rfl

theorem turbo_reduces (R r n : Nat) (h0 : 0 < r) (hr : r % 8 = 0) (h200 : r ≤ 200) :
    (firstBytes n (Inputs.turbo R r)).ReducesToInner ofLeWords (Keccak.Inner r) fun D _ => D ≠ 0 :=
  Inner.keccak_reduces (R := R) r h0 hr h200 (fun D X => Keccak.padD r D X) (fun _ _ => rfl)
    (fun _ _ => ⟨Inner.length_padD_pos _ _ _, Keccak.length_padD _ h0 _ _⟩) rfl rfl (turbo_det R r h0)

theorem length_piece0 {S : Bytes} (h : 8192 < S.length) : (K12.piece 0 S).length = 8192 := by
  unfold K12.piece blockAt
  rw [List.length_take, List.length_drop]
  omega

theorem length_cvs (R r c : Nat) (S : Bytes) (m : Nat) : (((List.range m).map fun i => K12.cv R r c S (i + 1)).flatten).length = m * c := by
  induction m with
  | zero => simp
  | succ m ih =>
    rw [List.range_succ, List.map_append, List.flatten_append, List.length_append, ih, Nat.add_mul]
    simp [K12.cv, slice]

theorem cvs_inj (R r c : Nat) (S S' : Bytes) (m : Nat)
    (h : ((List.range m).map fun i => K12.cv R r c S (i + 1)).flatten = ((List.range m).map fun i => K12.cv R r c S' (i + 1)).flatten) :
    ∀ i, i < m → K12.cv R r c S (i + 1) = K12.cv R r c S' (i + 1) := by
  induction m with
  | zero => exact fun i hi => absurd hi (by omega)
  | succ m ih =>
    rw [List.range_succ, List.map_append, List.map_append, List.flatten_append, List.flatten_append] at h
    obtain ⟨h1, h2⟩ := List.append_inj h (by rw [length_cvs, length_cvs])
    intro i hi
    by_cases e : i = m
    · subst e; simpa using h2
    · exact ih h1 i (by omega)

/-- Equal final nodes. -/
theorem finalNode_inj (R r c : Nat) {S S' : Bytes} (hs : 8192 < S.length) (hs' : 8192 < S'.length) (hn : K12.count S - 1 < 2 ^ 64) (hn' : K12.count S' - 1 < 2 ^ 64)
    (h : K12.finalNode R r c S = K12.finalNode R r c S') :
    K12.piece 0 S = K12.piece 0 S' ∧ K12.count S = K12.count S' ∧ ∀ i, 0 < i → i < K12.count S → K12.cv R r c S i = K12.cv R r c S' i := by
  unfold K12.finalNode at h
  have h := (List.append_inj' h rfl).1
  obtain ⟨h1, h2⟩ := Encode.lengthEncode_inj hn hn' h
  rw [h1] at h2
  obtain ⟨h3, h4⟩ := List.append_inj' h2 (by rw [length_cvs, length_cvs])
  have h3 := (List.append_inj' h3 rfl).1
  have hc : ∀ {S : Bytes}, 8192 < S.length → 2 ≤ K12.count S := fun h => by unfold K12.count; omega
  have hc1 := hc hs
  have hc2 := hc hs'
  refine ⟨h3, by omega, fun i hi hi' => ?_⟩
  have := cvs_inj R r c S S' _ h4 (i - 1) (by omega)
  rwa [show i - 1 + 1 = i by omega] at this

theorem k12_collision (R r c n : Nat) (h0 : 0 < r) (hr : r % 8 = 0) (h200 : r ≤ 200) (S S' : Bytes) (hS : S.length < 2 ^ 64) (hS' : S'.length < 2 ^ 64)
    (hne : S ≠ S') (h : slice (K12.tree R r c S) 0 n = slice (K12.tree R r c S') 0 n) : K12Collision R r c S S' n := by
  have nz : ∀ {S : Bytes} {D : Byte} {X : Bytes} {k : Nat}, K12Node R r c S n D X k → D ≠ 0 := fun h => by cases h <;> decide
  have key : ∀ D X D' X' k, K12Node R r c S n D X k → K12Node R r c S' n D' X' k → ¬ (D = D' ∧ X = X') →
      slice (K12.turbo R r D X) 0 k = slice (K12.turbo R r D' X') 0 k → K12Collision R r c S S' n := by
    intro D X D' X' k a a' hd e
    refine ⟨D, X, D', X', k, a, a', hd, e, ?_⟩
    rcases turbo_reduces R r k h0 hr h200 D D' X X' (nz a) (nz a') hd (by
      show slice ((Inputs.turbo R r).result D X) 0 k = slice ((Inputs.turbo R r).result D' X') 0 k
      rw [turbo_result, turbo_result, e]) with q | q
    · exact .inl q
    · exact .inr fun z => q.1 (congrArg ofLeWords z)
  unfold K12.tree at h
  split at h <;> split at h
  · rename_i hs hs'
    exact key _ _ _ _ _ (.single hs) (.single hs') (fun z => hne z.2) h
  · rename_i hs hs'
    exact key _ _ _ _ _ (.single hs) (.final (by omega)) (fun z => absurd z.1 (by decide)) h
  · rename_i hs hs'
    exact key _ _ _ _ _ (.final (by omega)) (.single hs') (fun z => absurd z.1 (by decide)) h
  · rename_i hs hs'
    have hs : 8192 < S.length := by omega
    have hs' : 8192 < S'.length := by omega
    by_cases hf : K12.finalNode R r c S = K12.finalNode R r c S'
    · obtain ⟨p0, hc, hcv⟩ := finalNode_inj R r c hs hs' (by unfold K12.count; omega) (by unfold K12.count; omega) hf
      have : ∃ i, 0 < i ∧ i < K12.count S ∧ K12.piece i S ≠ K12.piece i S' := by
        by_contra hno
        apply hne
        apply Inputs.ext_blocks (bs := 8192) (by decide)
        intro j
        by_cases hj : j = 0
        · subst hj; exact p0
        · by_cases hj' : j < K12.count S
          · by_contra hj2
            exact hno ⟨j, by omega, hj', hj2⟩
          · have e : ∀ {S : Bytes}, ¬ j < K12.count S → blockAt 8192 j S = [] := by
              intro S hj
              unfold K12.count at hj
              unfold blockAt
              rw [List.drop_of_length_le (by omega), List.take_nil]
            rw [e hj', e (hc ▸ hj')]
      obtain ⟨i, h1, h2, h3⟩ := this
      exact key _ _ _ _ _ (.leaf i hs h1 h2) (.leaf i hs' h1 (hc ▸ h2)) (fun z => h3 z.2) (hcv i h1 h2)
    · exact key _ _ _ _ _ (.final hs) (.final hs') (fun z => hf z.2) h

theorem blockAt_mid (A B X : Bytes) (hA : A.length % 8192 = 0) (hX : X.length = 8192) (i : Nat) :
    blockAt 8192 i (A ++ X ++ B) = if i * 8192 < A.length then blockAt 8192 i A else if i * 8192 = A.length then X else blockAt 8192 (i - A.length / 8192 - 1) B := by
  unfold blockAt
  obtain ⟨k, hk⟩ : ∃ k, A.length = k * 8192 := ⟨A.length / 8192, by omega⟩
  rw [hk]
  split
  · rw [List.append_assoc, List.drop_append_of_le_length (by omega), List.take_append_of_le_length (by rw [List.length_drop]; omega)]
  · split
    · rw [List.append_assoc, List.drop_append, List.drop_of_length_le (by omega), List.nil_append, show i * 8192 - A.length = 0 by omega, List.drop_zero,
        List.take_append_of_le_length (by omega), List.take_of_length_le (by omega)]
    · rw [List.drop_append, List.drop_of_length_le (by rw [List.length_append]; omega), List.nil_append, List.length_append]
      congr 2
      omega

theorem leaf_converse (R r c : Nat) (A B X X' : Bytes) (hA : A.length % 8192 = 0) (hA0 : 8192 ≤ A.length) (hX : X.length = 8192) (hX' : X'.length = 8192)
    (h : slice (K12.turbo R r 0x0b X) 0 c = slice (K12.turbo R r 0x0b X') 0 c) : K12.tree R r c (A ++ X ++ B) = K12.tree R r c (A ++ X' ++ B) := by
  have hl : (A ++ X ++ B).length = (A ++ X' ++ B).length := by simp only [List.length_append, hX, hX']
  have hc : K12.count (A ++ X ++ B) = K12.count (A ++ X' ++ B) := by unfold K12.count; rw [hl]
  have hg : ¬ (A ++ X' ++ B).length ≤ 8192 := by simp only [List.length_append]; omega
  unfold K12.tree
  rw [hl, if_neg hg, if_neg hg]
  congr 1
  unfold K12.finalNode
  have h0 : K12.piece 0 (A ++ X ++ B) = K12.piece 0 (A ++ X' ++ B) := by
    unfold K12.piece
    rw [blockAt_mid A B X hA hX, blockAt_mid A B X' hA hX', if_pos (by omega), if_pos (by omega)]
  have hcv : ∀ i, K12.cv R r c (A ++ X ++ B) i = K12.cv R r c (A ++ X' ++ B) i := by
    intro i
    unfold K12.cv K12.piece
    rw [blockAt_mid A B X hA hX, blockAt_mid A B X' hA hX']
    split
    · rfl
    · split
      · exact h
      · rfl
  rw [h0, hc]
  simp only [hcv]

/-! ## BLAKE2 -/

theorem core_chain {w : Nat} (v : Blake2.Variant w) (p : Blake2.Params) (l : Bool) (data : Bytes) :
    Blake2.core v p l data = bytes8 ((blake2Items v p l data).foldl (blake2Step v) v.IV) := Inputs.blake2_core v p l data

/-- Nodes with different inputs and the same result. -/
theorem node_collision {w : Nat} (hw : w % 8 = 0) (h0 : 0 < w) (v : Blake2.Variant w) (hx : 14 + v.xlen ≤ w / 2) {p p' : Blake2.Params} {l l' : Bool} {data data' : Bytes}
    (ok : p.salt.length = w / 4 ∧ p.personal.length = w / 4) (ok' : p'.salt.length = w / 4 ∧ p'.personal.length = w / 4)
    (hne : blake2Items v p l data ≠ blake2Items v p' l' data') (h : Blake2.core v p l data = Blake2.core v p' l' data') : NodeCollision v p p' l l' data data' := by
  rw [core_chain, core_chain] at h
  have hlast : ∀ {p p' : Blake2.Params} {l l' : Bool} {data data' : Bytes}, (blake2Items v p l data).getLast? = (blake2Items v p' l' data').getLast? →
      (blake2Items v p l data).length = (blake2Items v p' l' data').length := by
    intro p p' l l' data data' e
    have e1 := Collision.items_last v p l data h0
    have e2 := Collision.items_last v p' l' data' h0
    have e3 := Option.some.inj (e1.symm.trans ((congrArg (fun x => (x.map Proofs.Inputs.itemBlock).map Prod.fst) e).trans e2))
    rw [Collision.length_items, Collision.length_items, e3]
  have hlen : ∀ p l data, 2 ≤ (blake2Items v p l data).length := by
    intro p l data
    rw [Collision.length_items]
    omega
  have hl : ∀ {p p' : Blake2.Params} {l l' : Bool} {data data' : Bytes} {k : Nat}, k ≤ (blake2Items v p l data).length →
      (blake2Items v p l data).drop k = blake2Items v p' l' data' → k = 0 := by
    intro p p' l l' data data' k hk e
    have hd := congrArg List.length e
    rw [List.length_drop] at hd
    have h2 := hlen p' l' data'
    have := hlast (p := p) (p' := p') (l := l) (l' := l') (data := data) (data' := data') (by rw [← e, List.getLast?_drop, if_neg (by omega)])
    omega
  have hz : ∀ {p p' : Blake2.Params} {l l' : Bool} {data data' : Bytes} {k : Nat},
      (blake2Items v p l data).drop 1 = (blake2Items v p' l' data').drop (k + 1) → k = 0 := by
    intro p p' l l' data data' k e
    have e1 := congrArg List.length e
    rw [List.length_drop, List.length_drop] at e1
    have l1 := hlen p l data
    have l2 := hlen p' l' data'
    have := hlast (p := p) (p' := p') (l := l) (l' := l') (data := data) (data' := data') (by
      have e := congrArg List.getLast? e
      rwa [List.getLast?_drop, List.getLast?_drop, if_neg (by omega), if_neg (by omega)] at e)
    omega
  rcases Collision.walk (blake2Step v) v.IV bytes8 _ _ _ rfl hne h with
    ⟨k, k', i, i', e1, e2, e3, e4, e5⟩ | ⟨k, e1, e2, e3, e4⟩ | ⟨k, e1, e2, e3, e4⟩
  · cases k with
    | zero =>
      obtain rfl := hz e3
      have q1 : some (Blake2Item.params (p.bytes v)) = some i := e1
      have q2 : some (Blake2Item.params (p'.bytes v)) = some i' := e2
      cases q1
      cases q2
      refine absurd ?_ e4
      have hp := Collision.leWords_inj hw h0 (Collision.length_params hw hx ok.1 ok.2) (Collision.length_params hw hx ok'.1 ok'.2)
        fun j hj => Collision.xor_left_inj (Collision.bytes8_inj hw e5 j hj)
      rw [hp]
      rfl
    | succ k =>
      cases k' with
      | zero => exact absurd (hz e3.symm) (by omega)
      | succ k' =>
        obtain ⟨t, f0, f1, b, rfl⟩ := Collision.items_succ e1
        obtain ⟨t', f0', f1', b', rfl⟩ := Collision.items_succ e2
        refine ⟨k + 1, k' + 1, t, f0, f1, b, t', f0', f1', b', e1, e2, ?_, e5⟩
        intro e
        injection e with q1 e
        injection e with q2 e
        injection e with q3 e
        injection e with q4 q5
        subst q2 q3 q4 q5
        exact e4 (by show (bytes8 _, _) = (bytes8 _, _); exact congrArg (·, _) q1)
  · have := hl e2 e3; omega
  · have := hl e2 e3; omega

/-- The same for results that agree in `n` bytes. -/
theorem node_take {w : Nat} (hw : w % 8 = 0) (h0 : 0 < w) (v : Blake2.Variant w) (hx : 14 + v.xlen ≤ w / 2) {p p' : Blake2.Params} {l l' : Bool} {data data' : Bytes} {n : Nat}
    (ok : p.salt.length = w / 4 ∧ p.personal.length = w / 4) (ok' : p'.salt.length = w / 4 ∧ p'.personal.length = w / 4)
    (hne : blake2Items v p l data ≠ blake2Items v p' l' data') (h : (Blake2.core v p l data).take n = (Blake2.core v p' l' data').take n) :
    NodeCollision v p p' l l' data data' ∨ NodeTruncation v p p' l l' data data' n := by
  by_cases e : Blake2.core v p l data = Blake2.core v p' l' data'
  · exact .inl (node_collision hw h0 v hx ok ok' hne e)
  · exact .inr ⟨e, h⟩

theorem flatMap_inj {L L' : Nat → Bytes} {m : Nat} (hl : ∀ i, i < m → (L i).length = (L' i).length) (h : (List.range m).flatMap L = (List.range m).flatMap L') :
    ∀ i, i < m → L i = L' i := by
  induction m with
  | zero => exact fun i hi => absurd hi (by omega)
  | succ m ih =>
    rw [List.range_succ, List.flatMap_append, List.flatMap_append] at h
    obtain ⟨h1, h2⟩ := List.append_inj' h (by simpa using hl m (by omega))
    intro i hi
    by_cases e : i = m
    · subst e; simpa using h2
    · exact ih (fun i hi => hl i (by omega)) h1 i (by omega)

theorem blake2p_collision {w : Nat} (hw : w = 32 ∨ w = 64) (v : Blake2.Variant w) (hx : 14 + v.xlen ≤ w / 2) (P n : Nat) (keep : Bool) (hP : 0 < P)
    {θ θ' : Blake2.Theta} {msg msg' : Bytes} (ok : BlakeOk w θ) (ok' : BlakeOk w θ') (hne : ¬ (θ = θ' ∧ msg = msg'))
    (h : (Blake2.pfn v P keep n).digest θ msg = (Blake2.pfn v P keep n).digest θ' msg') :
    NodeCollision v (blake2pNode w P n θ 1 0) (blake2pNode w P n θ' 1 0) true true (rootData v P n θ msg) (rootData v P n θ' msg') ∨
    NodeTruncation v (blake2pNode w P n θ 1 0) (blake2pNode w P n θ' 1 0) true true (rootData v P n θ msg) (rootData v P n θ' msg') n ∨
    ∃ i, i < P ∧ NodeCollision v (blake2pNode w P n θ 0 i) (blake2pNode w P n θ' 0 i) (i + 1 = P) (i + 1 = P) (leafData w P i θ msg) (leafData w P i θ' msg') := by
  have w8 : w % 8 = 0 := by omega
  have w0 : 0 < w := by omega
  by_cases hr : blake2Items v (blake2pNode w P n θ 1 0) true (rootData v P n θ msg) = blake2Items v (blake2pNode w P n θ' 1 0) true (rootData v P n θ' msg')
  · right; right
    have hd := (Inputs.blake2Items_inj w0 hr).2
    have hleaf := flatMap_inj (fun i _ => by rw [Proofs.Blake2.length_core hw, Proofs.Blake2.length_core hw]) hd
    have : ∃ i, i < P ∧ blake2Items v (blake2pNode w P n θ 0 i) (i + 1 = P) (leafData w P i θ msg) ≠
        blake2Items v (blake2pNode w P n θ' 0 i) (i + 1 = P) (leafData w P i θ' msg') := by
      by_contra hno
      apply hne
      refine Inputs.blake2p_det w0 (by omega) v P n hP θ θ' msg msg' ok ok' ?_
      have e : ∀ i ∈ List.range P, (blake2Items v (blake2pNode w P n θ 0 i) (i + 1 = P) (leafData w P i θ msg)).map (i, ·) =
          (blake2Items v (blake2pNode w P n θ' 0 i) (i + 1 = P) (leafData w P i θ' msg')).map (i, ·) := by
        intro i hi
        by_contra hq
        exact hno ⟨i, List.mem_range.1 hi, fun z => hq (by rw [z])⟩
      show (List.range P).flatMap (fun i => (blake2Items v (blake2pNode w P n θ 0 i) (i + 1 = P) (leafData w P i θ msg)).map (i, ·)) =
        (List.range P).flatMap (fun i => (blake2Items v (blake2pNode w P n θ' 0 i) (i + 1 = P) (leafData w P i θ' msg')).map (i, ·))
      rw [List.flatMap_def, List.flatMap_def, List.map_congr_left e]
    obtain ⟨i, hi, q⟩ := this
    exact ⟨i, hi, node_collision w8 w0 v hx ok.2 ok'.2 q (hleaf i hi)⟩
  · rcases node_take (n := n) w8 w0 v hx (p := blake2pNode w P n θ 1 0) (p' := blake2pNode w P n θ' 1 0) ok.2 ok'.2 hr h with q | q
    · exact .inl q
    · exact .inr (.inl q)

/-- The root hashes of BLAKE2X are equal. -/
theorem root_collision {w : Nat} (hw : w = 32 ∨ w = 64) (v : Blake2.Variant w) (hx : 14 + v.xlen ≤ w / 2) (N : Nat)
    {θ θ' : Blake2.Theta} {msg msg' : Bytes} (ok : BlakeOk w θ) (ok' : BlakeOk w θ') (hne : ¬ (θ = θ' ∧ msg = msg')) (h : Blake2.root v θ N msg = Blake2.root v θ' N msg') :
    NodeCollision v (Blake2.seqParams θ w N) (Blake2.seqParams θ' w N) false false (Blake2.keyed (2 * w) θ.key msg) (Blake2.keyed (2 * w) θ'.key msg') :=
  node_collision (by omega) (by omega) v hx ok.2 ok'.2
    (fun e => hne (Inputs.blake2Node_inj (by omega) (by omega) (fun θ => Blake2.seqParams θ w N) (fun _ => ⟨rfl, rfl, rfl⟩) ok ok' e)) h

/-- Output block `i` is the same for different root hashes. -/
theorem out_collision {w : Nat} (hw : w = 32 ∨ w = 64) (v : Blake2.Variant w) (hx : 14 + v.xlen ≤ w / 2) (N i d n : Nat)
    {θ θ' : Blake2.Theta} {H H' : Bytes} (ok : BlakeOk w θ) (ok' : BlakeOk w θ') (hne : H ≠ H')
    (h : (Blake2.core v (xNode w θ N i d) false H).take n = (Blake2.core v (xNode w θ' N i d) false H').take n) :
    NodeCollision v (xNode w θ N i d) (xNode w θ' N i d) false false H H' ∨ NodeTruncation v (xNode w θ N i d) (xNode w θ' N i d) false false H H' n :=
  node_take (by omega) (by omega) v hx ok.2 ok'.2 (fun e => hne (Inputs.blake2Items_inj (by omega) e).2) h

theorem length_b2 {w : Nat} (hw : w = 32 ∨ w = 64) (v : Blake2.Variant w) (θ : Blake2.Theta) (N : Nat) (H : Bytes) (i d : Nat) :
    (Blake2.b2 v θ N H i d).length = min d w := by
  unfold Blake2.b2
  rw [List.length_take, Proofs.Blake2.length_core hw]

theorem xfn_blocks {w : Nat} (hw : w = 32 ∨ w = 64) (v : Blake2.Variant w) (keep : Bool) (n : Nat) {θ θ' : Blake2.Theta} {msg msg' : Bytes}
    (h : (Blake2.xfn v keep n).digest θ msg = (Blake2.xfn v keep n).digest θ' msg') (i : Nat) (hi : i * w < n) :
    Blake2.b2 v θ n (Blake2.root v θ n msg) i (min w (n - i * w)) = Blake2.b2 v θ' n (Blake2.root v θ' n msg') i (min w (n - i * w)) := by
  refine flatMap_inj (fun i _ => by rw [length_b2 hw, length_b2 hw]) h i ?_
  have := Nat.lt_div_mul_add (a := n + w - 1) (b := w) (by omega)
  rw [← Nat.not_le]
  intro hq
  have := Nat.mul_le_mul_right w hq
  omega

theorem xof_blocks {w : Nat} (hw : w = 32 ∨ w = 64) (v : Blake2.Variant w) (keep : Bool) (n : Nat) {θ θ' : Blake2.Theta} {msg msg' : Bytes}
    (h : slice ((Blake2.xof v keep).stream θ msg) 0 n = slice ((Blake2.xof v keep).stream θ' msg') 0 n) (i : Nat) :
    (Blake2.b2 v θ (256 ^ v.xlen - 1) (Blake2.root v θ (256 ^ v.xlen - 1) msg) i w).take (n - i * w) =
      (Blake2.b2 v θ' (256 ^ v.xlen - 1) (Blake2.root v θ' (256 ^ v.xlen - 1) msg') i w).take (n - i * w) := by
  apply List.ext_getElem?
  intro j
  by_cases hj : j < n - i * w
  · rw [List.getElem?_take_of_lt hj, List.getElem?_take_of_lt hj]
    by_cases hjw : j < w
    · have h := congrArg (fun l => l[i * w + j]?) h
      unfold slice at h
      simp only [List.getElem?_map, List.getElem?_range (show i * w + j < n by omega), Option.map_some, Option.some.injEq, Nat.zero_add] at h
      have hd : (i * w + j) / w = i := by
        rw [Nat.mul_comm, Nat.mul_add_div (by omega), Nat.div_eq_of_lt hjw, Nat.add_zero]
      have hm : (i * w + j) % w = j := by rw [Nat.mul_comm, Nat.mul_add_mod, Nat.mod_eq_of_lt hjw]
      simp only [Blake2.xof, hd, hm, List.getD_eq_getElem?_getD] at h
      rw [List.getElem?_eq_getElem (by rw [length_b2 hw]; omega), List.getElem?_eq_getElem (by rw [length_b2 hw]; omega)] at h ⊢
      exact congrArg some h
    · rw [List.getElem?_eq_none (by rw [length_b2 hw]; omega), List.getElem?_eq_none (by rw [length_b2 hw]; omega)]
  · rw [List.getElem?_eq_none (by rw [List.length_take]; omega), List.getElem?_eq_none (by rw [List.length_take]; omega)]

end Digestpp.Proofs.Tree
