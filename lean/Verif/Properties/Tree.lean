import Verif.Proofs.Tree

/-! C64: two inputs with the same output of KangarooTwelve, its relatives, the parallel BLAKE2 and BLAKE2X contain a collision in one of the calls of the simpler function these are made of. That the
objects compute the functions is C10, C13, C14 and C40. -/

namespace Digestpp.Properties
open Spec Proofs Spec.Inputs

/-- **C64**, `k12` (`b = 128`, `R = 12`), `k12_256` (256, 12) and `m14` (256, 14): different messages or customizations with the same `n` bytes of output contain two different nodes with the same output;
in those there is an inner collision, or different final states give the same output. -/
theorem k12_tree_collision (b R n : Nat) (hb : b = 128 ∨ b = 256) (C C' msg msg' : Bytes)
    (hS : (msg ++ C ++ K12.lengthEncode C.length).length < 2 ^ 64) (hS' : (msg' ++ C' ++ K12.lengthEncode C'.length).length < 2 ^ 64)
    (hne : ¬ (C = C' ∧ msg = msg')) (h : slice ((Spec.k12 b R).stream C msg) 0 n = slice ((Spec.k12 b R).stream C' msg') 0 n) :
    K12Collision R (200 - 2 * b / 8) (b / 4) (msg ++ C ++ K12.lengthEncode C.length) (msg' ++ C' ++ K12.lengthEncode C'.length) n := by
  refine Tree.k12_collision R _ _ n (by omega) (by omega) (by omega) _ _ hS hS' (fun e => hne ?_) h
  obtain ⟨hl, e⟩ := Encode.lengthEncode_inj (by simp only [List.length_append] at hS; omega) (by simp only [List.length_append] at hS'; omega) e
  obtain ⟨h1, h2⟩ := List.append_inj' e hl
  exact ⟨h2, h1⟩

/-- **C64**, the converse for leaves: two chunks with the same chaining value give as many pairs of strings with the same output as there are strings around them. -/
theorem k12_leaf_collision (R r c : Nat) (A B X X' : Bytes) (hA : A.length % 8192 = 0) (hA0 : A ≠ []) (hX : X.length = 8192) (hX' : X'.length = 8192)
    (h : slice (K12.turbo R r 0x0b X) 0 c = slice (K12.turbo R r 0x0b X') 0 c) : K12.tree R r c (A ++ X ++ B) = K12.tree R r c (A ++ X' ++ B) := by
  have hA1 : 8192 ≤ A.length := by
    have := List.length_pos_iff.2 hA0
    omega
  exact Tree.leaf_converse R r c A B X X' hA hA1 hX hX' h

/-- **C64**, `blake2bp` (`w = 64`, `P = 4`) and `blake2sp` (`w = 32`, `P = 8`), with any keys, salts and personalizations: a collision of the compression function in the computation of the roots or of
the leaves with the same number, or the roots are different and agree in the first `n` bytes. -/
theorem blake2p_tree_collision {w : Nat} (hw : w = 32 ∨ w = 64) (v : Spec.Blake2.Variant w) (hx : 14 + v.xlen ≤ w / 2) (P n : Nat) (keep : Bool) (hP : 0 < P)
    (θ θ' : Spec.Blake2.Theta) (msg msg' : Bytes) (ok : BlakeOk w θ) (ok' : BlakeOk w θ') (hne : ¬ (θ = θ' ∧ msg = msg'))
    (h : (Spec.Blake2.pfn v P keep n).digest θ msg = (Spec.Blake2.pfn v P keep n).digest θ' msg') :
    NodeCollision v (blake2pNode w P n θ 1 0) (blake2pNode w P n θ' 1 0) true true (rootData v P n θ msg) (rootData v P n θ' msg') ∨
    NodeTruncation v (blake2pNode w P n θ 1 0) (blake2pNode w P n θ' 1 0) true true (rootData v P n θ msg) (rootData v P n θ' msg') n ∨
    ∃ i, i < P ∧ NodeCollision v (blake2pNode w P n θ 0 i) (blake2pNode w P n θ' 0 i) (i + 1 = P) (i + 1 = P) (leafData w P i θ msg) (leafData w P i θ' msg') :=
  Tree.blake2p_collision hw v hx P n keep hP ok ok' hne h

/-- **C64**, the digests of `blake2bp` and `blake2sp` of full size: a collision of the compression function. -/
theorem blake2p_full_collision {w : Nat} (hw : w = 32 ∨ w = 64) (v : Spec.Blake2.Variant w) (hx : 14 + v.xlen ≤ w / 2) (P : Nat) (keep : Bool) (hP : 0 < P)
    (θ θ' : Spec.Blake2.Theta) (msg msg' : Bytes) (ok : BlakeOk w θ) (ok' : BlakeOk w θ') (hne : ¬ (θ = θ' ∧ msg = msg'))
    (h : (Spec.Blake2.pfn v P keep w).digest θ msg = (Spec.Blake2.pfn v P keep w).digest θ' msg') :
    NodeCollision v (blake2pNode w P w θ 1 0) (blake2pNode w P w θ' 1 0) true true (rootData v P w θ msg) (rootData v P w θ' msg') ∨
    ∃ i, i < P ∧ NodeCollision v (blake2pNode w P w θ 0 i) (blake2pNode w P w θ' 0 i) (i + 1 = P) (i + 1 = P) (leafData w P i θ msg) (leafData w P i θ' msg') := by
  rcases blake2p_tree_collision hw v hx P w keep hP θ θ' msg msg' ok ok' hne h with q | q | q
  · exact .inl q
  · refine absurd ?_ q.1
    have e := q.2
    rwa [List.take_of_length_le (by rw [Blake2.length_core hw]), List.take_of_length_le (by rw [Blake2.length_core hw])] at e
  · exact .inr q

/-- **C64**, `blake2xb` and `blake2xs` with digests of `n` bytes: a collision of the compression function in the computation of the root hashes; or these are different, and then in every output block there
is a collision of the compression function, or the results, cut to the size of the block, agree. -/
theorem blake2x_tree_collision {w : Nat} (hw : w = 32 ∨ w = 64) (v : Spec.Blake2.Variant w) (hx : 14 + v.xlen ≤ w / 2) (keep : Bool) (n : Nat)
    (θ θ' : Spec.Blake2.Theta) (msg msg' : Bytes) (ok : BlakeOk w θ) (ok' : BlakeOk w θ') (hne : ¬ (θ = θ' ∧ msg = msg'))
    (h : (Spec.Blake2.xfn v keep n).digest θ msg = (Spec.Blake2.xfn v keep n).digest θ' msg') :
    let H := Spec.Blake2.root v θ n msg
    let H' := Spec.Blake2.root v θ' n msg'
    NodeCollision v (Spec.Blake2.seqParams θ w n) (Spec.Blake2.seqParams θ' w n) false false (Spec.Blake2.keyed (2 * w) θ.key msg) (Spec.Blake2.keyed (2 * w) θ'.key msg') ∨
    H ≠ H' ∧ ∀ i, i * w < n → let d := min w (n - i * w)
      NodeCollision v (xNode w θ n i d) (xNode w θ' n i d) false false H H' ∨ NodeTruncation v (xNode w θ n i d) (xNode w θ' n i d) false false H H' d := by
  intro H H'
  by_cases e : H = H'
  · exact .inl (Tree.root_collision hw v hx n ok ok' hne e)
  · exact .inr ⟨e, fun i hi => Tree.out_collision hw v hx n i _ _ ok ok' e (Tree.xfn_blocks hw v keep n h i hi)⟩

/-- **C64**, `blake2xb_xof` and `blake2xs_xof`: the same for the first `n` bytes of output. -/
theorem blake2xof_tree_collision {w : Nat} (hw : w = 32 ∨ w = 64) (v : Spec.Blake2.Variant w) (hx : 14 + v.xlen ≤ w / 2) (keep : Bool) (n : Nat)
    (θ θ' : Spec.Blake2.Theta) (msg msg' : Bytes) (ok : BlakeOk w θ) (ok' : BlakeOk w θ') (hne : ¬ (θ = θ' ∧ msg = msg'))
    (h : slice ((Spec.Blake2.xof v keep).stream θ msg) 0 n = slice ((Spec.Blake2.xof v keep).stream θ' msg') 0 n) :
    let N := 256 ^ v.xlen - 1
    let H := Spec.Blake2.root v θ N msg
    let H' := Spec.Blake2.root v θ' N msg'
    NodeCollision v (Spec.Blake2.seqParams θ w N) (Spec.Blake2.seqParams θ' w N) false false (Spec.Blake2.keyed (2 * w) θ.key msg) (Spec.Blake2.keyed (2 * w) θ'.key msg') ∨
    H ≠ H' ∧ ∀ i, i * w < n →
      NodeCollision v (xNode w θ N i w) (xNode w θ' N i w) false false H H' ∨ NodeTruncation v (xNode w θ N i w) (xNode w θ' N i w) false false H H' (min w (n - i * w)) := by
  intro N H H'
  by_cases e : H = H'
  · exact .inl (Tree.root_collision hw v hx N ok ok' hne e)
  · refine .inr ⟨e, fun i hi => Tree.out_collision hw v hx N i _ _ ok ok' e ?_⟩
    have := Tree.xof_blocks hw v keep n h i
    unfold Spec.Blake2.b2 at this
    rwa [List.take_take, List.take_take, Nat.min_comm] at this

/-! The statements apply to the variants in use, and their hypotheses can be met: without rounds, there are collisions. -/

example : 14 + Spec.Blake2.v2b.xlen ≤ 64 / 2 ∧ 14 + Spec.Blake2.v2s.xlen ≤ 32 / 2 := by decide

/-- A string of two chunks has a leaf. -/
example (R r c n : Nat) : K12Node R r c (List.replicate 8193 7) n 0x0b [7] c := by
  have h : K12.piece 1 (List.replicate 8193 7) = [7] := by
    unfold K12.piece blockAt
    rw [List.drop_replicate, List.take_replicate]
    rfl
  rw [← h]
  exact .leaf 1 (by rw [List.length_replicate]; decide) (by decide) (by unfold K12.count; rw [List.length_replicate]; decide)

/-- Without rounds, the blocks may be exchanged. -/
example : K12Collision 0 168 32 (List.replicate 168 1 ++ List.replicate 168 2 ++ [] ++ K12.lengthEncode 0) (List.replicate 168 2 ++ List.replicate 168 1 ++ [] ++ K12.lengthEncode 0) 32 :=
  k12_tree_collision 128 0 32 (.inl rfl) [] [] _ _ (by decide +kernel) (by decide +kernel) (by decide +kernel) (by decide +kernel)

/-- BLAKE2s without rounds. -/
def blake2sNone : Spec.Blake2.Variant 32 := { Spec.Blake2.v2s with rounds := 0 }

theorem blake2sNone_ok : BlakeOk 32 (.none 32) := ⟨by decide, by decide, by decide⟩

/-- Two messages with the same digest, so there is a collision in a node. -/
example : NodeCollision blake2sNone (blake2pNode 32 8 32 (.none 32) 1 0) (blake2pNode 32 8 32 (.none 32) 1 0) true true
      (rootData blake2sNone 8 32 (.none 32) [1]) (rootData blake2sNone 8 32 (.none 32) [2]) ∨
    ∃ i, i < 8 ∧ NodeCollision blake2sNone (blake2pNode 32 8 32 (.none 32) 0 i) (blake2pNode 32 8 32 (.none 32) 0 i) (i + 1 = 8) (i + 1 = 8)
      (leafData 32 8 i (.none 32) [1]) (leafData 32 8 i (.none 32) [2]) :=
  blake2p_full_collision (.inl rfl) blake2sNone (by decide) 8 true (by decide) (.none 32) (.none 32) [1] [2] blake2sNone_ok blake2sNone_ok (fun h => absurd h.2 (by decide)) (by decide +kernel)

/-- Here it is one of the root hashes, which are equal. -/
example : NodeCollision blake2sNone (Spec.Blake2.seqParams (.none 32) 32 40) (Spec.Blake2.seqParams (.none 32) 32 40) false false [1] [2] :=
  (blake2x_tree_collision (.inl rfl) blake2sNone (by decide) true 40 (.none 32) (.none 32) [1] [2] blake2sNone_ok blake2sNone_ok (fun h => absurd h.2 (by decide)) (by decide +kernel)).elim id
    fun h => absurd (by decide +kernel) h.1

end Digestpp.Properties
