import Verif.Spec.Extension
import Verif.Proofs.Inputs
import Verif.Proofs.Collision
import Verif.Proofs.Whirlpool

/-! C55: length extension. -/

namespace Digestpp.Proofs.Extension
open Spec Spec.Extension

theorem mdPad_glue (bs : Nat) (field : Nat → Bytes) (msg : Bytes) :
    mdPad bs (field msg.length) msg = msg ++ glue bs field msg.length := by
  unfold mdPad glue
  simp only [List.append_assoc]

theorem blockAt_append_left {α : Type} {n i : Nat} {a b : List α} (h : (i + 1) * n ≤ a.length) : blockAt n i (a ++ b) = blockAt n i a := by
  unfold blockAt
  have : i * n + n ≤ a.length := by rw [← Nat.succ_mul]; exact h
  rw [List.drop_append_of_le_length (by omega), List.take_append_of_le_length (by rw [List.length_drop]; omega)]

theorem chunks_append {α : Type} {n : Nat} (hn : 0 < n) {a b : List α} (h : a.length % n = 0) : chunks n (a ++ b) = chunks n a ++ chunks n b := by
  unfold chunks
  have ha : a.length = n * (a.length / n) := by have := Nat.div_add_mod a.length n; omega
  have hl : (a ++ b).length / n = a.length / n + b.length / n := by
    rw [List.length_append, ha, Nat.add_comm, Nat.add_mul_div_left _ _ hn, Nat.mul_div_cancel_left _ hn, Nat.add_comm]
  rw [hl, List.range_add, List.map_append, List.map_map]
  congr 1
  · refine List.map_congr_left fun i hi => blockAt_append_left ?_
    have := List.mem_range.1 hi
    have := Nat.mul_le_mul_right n (Nat.succ_le_of_lt this)
    rw [ha, Nat.mul_comm n]
    exact this
  · refine List.map_congr_left fun i _ => ?_
    show blockAt n (a.length / n + i) (a ++ b) = blockAt n i b
    unfold blockAt
    rw [Nat.add_mul, Nat.mul_comm _ n, ← ha, ← List.drop_drop, List.drop_left]

/-- An iterated hash function with the length in its padding. -/
theorem extend {V : Type} {bs : Nat} (hbs : 0 < bs) (field : Nat → Bytes) (f : V → Bytes → V) (value : Bytes → V) (bytes : V → Bytes)
    (hv : ∀ v w b, bytes v = bytes w → bytes (f v b) = bytes (f w b)) (hb : ∀ v, bytes (value (bytes v)) = bytes v)
    (iv : V) (hash : Bytes → Bytes) (hh : ∀ msg, hash msg = bytes ((chunks bs (mdPad bs (field msg.length) msg)).foldl f iv)) (msg x : Bytes) :
    hash (msg ++ glue bs field msg.length ++ x) = resume bs field f value bytes (hash msg) msg.length x := by
  rw [hh, hh, mdPad_glue, List.append_assoc _ x, chunks_append hbs, List.foldl_append]
  · unfold resume
    dsimp only
    rw [← mdPad_glue bs field msg]
    generalize he : (mdPad bs (field msg.length) msg ++ x).length = L
    have hL : msg.length + (glue bs field msg.length).length + x.length = L := by
      rw [← he, mdPad_glue]; simp only [List.length_append]
    rw [hL]
    generalize (chunks bs (mdPad bs (field msg.length) msg)).foldl f iv = v
    have : ∀ (l : List Bytes) v w, bytes v = bytes w → bytes (l.foldl f v) = bytes (l.foldl f w) := by
      intro l
      induction l with
      | nil => exact fun _ _ h => h
      | cons b l ih => exact fun v w h => ih _ _ (hv v w b h)
    exact this _ _ _ (hb v).symm
  · rw [← mdPad_glue]
    exact Inputs.length_mdPad bs hbs _ _

theorem chunks_flatMap {α β : Type} {n : Nat} (hn : 0 < n) (f : α → List β) (hf : ∀ x, (f x).length = n) :
    ∀ l : List α, chunks n (l.flatMap f) = l.map f
  | [] => by simp [chunks]
  | x :: l => by
    rw [List.flatMap_cons, Keccak.chunks_cons n hn _ _ (hf x), chunks_flatMap hn f hf l, List.map_cons]

private theorem word {w : Nat} (hw : w % 8 = 0) (x : BitVec w) : BitVec.ofNat w (x.toNat % 256 ^ (w / 8)) = x := by
  have hp : 256 ^ (w / 8) = 2 ^ w := by rw [show 256 = 2 ^ 8 from rfl, ← Nat.pow_mul, show 8 * (w / 8) = w by omega]
  rw [hp, Nat.mod_eq_of_lt x.isLt, BitVec.ofNat_toNat, BitVec.setWidth_eq]

theorem leWords_ofLeWords {w : Nat} (hw : w % 8 = 0) (h0 : 0 < w) (l : List (BitVec w)) : leWords w (ofLeWords l) = l := by
  have h : leWords w (ofLeWords l) = (chunks (w / 8) (ofLeWords l)).map fun b => BitVec.ofNat w (leNat b) := by
    unfold leWords chunks blockAt
    rw [List.map_map]
    rfl
  unfold ofLeWords at h ⊢
  rw [h, chunks_flatMap (by omega) _ (fun x => length_leBytes _ _), List.map_map]
  refine (List.map_congr_left fun x _ => ?_).trans (List.map_id l)
  show BitVec.ofNat w (leNat (leBytes (w / 8) x.toNat)) = x
  rw [leNat_leBytes, word hw]

theorem beWords_ofBeWords {w : Nat} (hw : w % 8 = 0) (h0 : 0 < w) (l : List (BitVec w)) : beWords w (ofBeWords l) = l := by
  have h : beWords w (ofBeWords l) = (chunks (w / 8) (ofBeWords l)).map fun b => BitVec.ofNat w (beNat b) := by
    unfold beWords chunks blockAt
    rw [List.map_map]
    rfl
  unfold ofBeWords at h ⊢
  rw [h, chunks_flatMap (by omega) _ (fun x => length_beBytes _ _), List.map_map]
  refine (List.map_congr_left fun x _ => ?_).trans (List.map_id l)
  show BitVec.ofNat w (beNat (beBytes (w / 8) x.toNat)) = x
  rw [beNat_beBytes, word hw]

/-- The case that the digest determines the chaining value. -/
theorem extend_inj {V : Type} {bs : Nat} (hbs : 0 < bs) (field : Nat → Bytes) (f : V → Bytes → V) (value : Bytes → V) (bytes : V → Bytes)
    (hb : ∀ v, value (bytes v) = v)
    (iv : V) (hash : Bytes → Bytes) (hh : ∀ msg, hash msg = bytes ((chunks bs (mdPad bs (field msg.length) msg)).foldl f iv)) (msg x : Bytes) :
    hash (msg ++ glue bs field msg.length ++ x) = resume bs field f value bytes (hash msg) msg.length x :=
  extend hbs field f value bytes (fun v w b h => by rw [← hb v, h, hb w]) (fun v => by rw [hb]) iv hash hh msg x

theorem md5_extend (msg x : Bytes) : Spec.Md5.hash (msg ++ glue 64 le64 msg.length ++ x) = Extension.md5 (Spec.Md5.hash msg) msg.length x :=
  extend_inj (bs := 64) (by decide) le64 Spec.Md5.compress _ _ (fun v => by rw [leWords_ofLeWords (by decide) (by decide)]; rfl) _ Spec.Md5.hash
    (fun _ => rfl) msg x

theorem sha1_extend (msg x : Bytes) : Spec.Sha1.hash (msg ++ glue 64 be64 msg.length ++ x) = Extension.sha1 (Spec.Sha1.hash msg) msg.length x :=
  extend_inj (bs := 64) (by decide) be64 Spec.Sha1.compress _ _ (fun v => by rw [beWords_ofBeWords (by decide) (by decide)]; rfl) _ Spec.Sha1.hash
    (fun _ => rfl) msg x

theorem h8_bytes {w : Nat} (hw : w % 8 = 0) (h0 : 0 < w) (v : Spec.Sha2.H8 w) : h8 w v.bytes = v := by
  unfold h8 Spec.Sha2.H8.bytes
  dsimp only
  rw [beWords_ofBeWords hw h0]
  rfl

theorem sha256_extend (msg x : Bytes) : (Spec.Sha2.core Spec.Sha2.v256 Spec.Sha2.iv256 (msg ++ glue 64 be64 msg.length ++ x)).bytes
    = Extension.sha256 (Spec.Sha2.core Spec.Sha2.v256 Spec.Sha2.iv256 msg).bytes msg.length x :=
  extend_inj (by decide) be64 _ _ _ (h8_bytes (by decide) (by decide)) Spec.Sha2.iv256
    (fun msg => (Spec.Sha2.core Spec.Sha2.v256 Spec.Sha2.iv256 msg).bytes) (fun _ => rfl) msg x

theorem sha512_extend (msg x : Bytes) :
    let hash := fun msg : Bytes => (Spec.Sha2.coreWith (bits64 msg.length) Spec.Sha2.v512 Spec.Sha2.iv512 msg).bytes
    hash (msg ++ glue 128 be128 msg.length ++ x) = Extension.sha512 (hash msg) msg.length x :=
  extend_inj (by decide) be128 _ _ _ (h8_bytes (by decide) (by decide)) Spec.Sha2.iv512 _ (fun _ => rfl) msg x

theorem sm3_extend (msg x : Bytes) : Spec.Sm3.hash (msg ++ glue 64 be64 msg.length ++ x) = Extension.sm3 (Spec.Sm3.hash msg) msg.length x :=
  extend_inj (bs := 64) (by decide) be64 Spec.Sm3.compress _ _
    (fun v => by unfold h8; dsimp only; rw [beWords_ofBeWords (by decide) (by decide)]; rfl) _ Spec.Sm3.hash (fun _ => rfl) msg x

/-- The digest of a chaining value of Whirlpool. -/
private def wbytes (h : Mat) : Bytes := (List.range 8).flatMap fun i => (List.range 8).map fun j => h i j

private theorem wbytes_eq (h : Mat) : wbytes h = Model.stores64 (Whirlpool.rowWords h) := (stores64_mat 8 _).symm

private theorem mu_wbytes (h : Mat) : Whirlpool.rowWords (Spec.Whirlpool.mu (wbytes h)) = Whirlpool.rowWords h :=
  colWords_congr fun i hi j hj => Streebog.matOf_matBytes 8 (fun j i => h i j) i j hi hj

theorem whirlpool_extend (msg x : Bytes) :
    let hash := Spec.Whirlpool.hashWith wrap64
    hash (msg ++ glue 64 be256 msg.length ++ x) = Extension.whirlpool (hash msg) msg.length x := by
  refine extend (bs := 64) (by decide) be256 (fun h b => Spec.Whirlpool.compress h (Spec.Whirlpool.mu b)) Spec.Whirlpool.mu wbytes ?_ ?_
    (fun _ _ => 0) (Spec.Whirlpool.hashWith wrap64) ?_ msg x
  · intro v w b h
    have e : Whirlpool.rowWords v = Whirlpool.rowWords w := by rw [← mu_wbytes v, h, mu_wbytes w]
    rw [wbytes_eq, wbytes_eq, ← Whirlpool.compress_eq, ← Whirlpool.compress_eq, e]
  · intro v
    rw [wbytes_eq, mu_wbytes, ← wbytes_eq]
  · intro msg
    exact congrFun (congrArg HashFn.digest Inputs.whirlpool_eq |> fun h => congrFun h ()) msg

end Digestpp.Proofs.Extension
