import Verif.Model.Md5
import Verif.Spec.Md5
import Verif.Proofs.Words
import Verif.Proofs.MdFinal
import Verif.Proofs.Api

/-! The MD5 provider computes MD5. -/

namespace Digestpp.Proofs
open Model Spec

namespace Md5

theorem K_eq : ∀ r, r < 64 → md5_K.getD r 0 = BitVec.ofNat 32 (Spec.Md5.T.getD r 0) := by decide +kernel
theorem S_eq : ∀ r, r < 64 → md5_S.getD r 0 = Spec.Md5.s r ∧ 0 < Spec.Md5.s r ∧ Spec.Md5.s r < 32 := by decide +kernel

theorem F_eq (b c d : BitVec 32) : d ^^^ (b &&& (c ^^^ d)) = Spec.Md5.F b c d := by
  apply BitVec.eq_of_getLsbD_eq
  intro i hi
  simp only [Spec.Md5.F, BitVec.getLsbD_xor, BitVec.getLsbD_and, BitVec.getLsbD_or, BitVec.getLsbD_not, hi, decide_true]
  cases b.getLsbD i <;> cases c.getLsbD i <;> cases d.getLsbD i <;> rfl

theorem G_eq (b c d : BitVec 32) : c ^^^ (d &&& (b ^^^ c)) = Spec.Md5.G b c d := by
  apply BitVec.eq_of_getLsbD_eq
  intro i hi
  simp only [Spec.Md5.G, BitVec.getLsbD_xor, BitVec.getLsbD_and, BitVec.getLsbD_or, BitVec.getLsbD_not, hi, decide_true]
  cases b.getLsbD i <;> cases c.getLsbD i <;> cases d.getLsbD i <;> rfl

/-- The value assigned in step `r`. -/
def val (X : List (BitVec 32)) (r : Nat) (a b c d : BitVec 32) : BitVec 32 :=
  b + (a + Spec.Md5.f r b c d + X.getD (Spec.Md5.k r) 0 + BitVec.ofNat 32 (Spec.Md5.T.getD r 0)).rotateLeft (Spec.Md5.s r)

theorem roundf_eq (X : List (BitVec 32)) (r : Nat) (h : r < 16) (a b c d : BitVec 32) :
    Model.Md5.roundf r a b c d X = .ok (val X r a b c d) := by
  obtain ⟨h1, h2, h3⟩ := S_eq r (by omega)
  have hf : Spec.Md5.f r = Spec.Md5.F := by unfold Spec.Md5.f; rw [if_pos h]
  have hk : Spec.Md5.k r = r := by unfold Spec.Md5.k; rw [if_pos h]
  unfold Model.Md5.roundf val
  rw [h1, rotlChecked_eq _ _ ⟨h2, h3⟩, F_eq, K_eq r (by omega), hf, hk, ok_bind, BitVec.add_assoc (_ + _),
    BitVec.add_comm (BitVec.ofNat _ _), ← BitVec.add_assoc (_ + _)]
  rfl

theorem roundg_eq (X : List (BitVec 32)) (r : Nat) (h : 16 ≤ r) (h' : r < 32) (a b c d : BitVec 32) :
    Model.Md5.roundg r a b c d X = .ok (val X r a b c d) := by
  obtain ⟨h1, h2, h3⟩ := S_eq r (by omega)
  have hf : Spec.Md5.f r = Spec.Md5.G := by unfold Spec.Md5.f; rw [if_neg (by omega), if_pos h']
  have hk : Spec.Md5.k r = (5 * r + 1) % 16 := by unfold Spec.Md5.k; rw [if_neg (by omega), if_pos h']; omega
  unfold Model.Md5.roundg val
  rw [h1, rotlChecked_eq _ _ ⟨h2, h3⟩, G_eq, K_eq r (by omega), hf, hk, ok_bind, BitVec.add_assoc (_ + _),
    BitVec.add_comm (BitVec.ofNat _ _), ← BitVec.add_assoc (_ + _)]
  rfl

theorem roundh_eq (X : List (BitVec 32)) (r : Nat) (h : 32 ≤ r) (h' : r < 48) (a b c d : BitVec 32) :
    Model.Md5.roundh r a b c d X = .ok (val X r a b c d) := by
  obtain ⟨h1, h2, h3⟩ := S_eq r (by omega)
  have hf : Spec.Md5.f r = Spec.Md5.H := by unfold Spec.Md5.f; rw [if_neg (by omega), if_neg (by omega), if_pos h']
  have hk : Spec.Md5.k r = (3 * r + 5) % 16 := by
    unfold Spec.Md5.k; rw [if_neg (by omega), if_neg (by omega), if_pos h']; omega
  unfold Model.Md5.roundh val
  rw [h1, rotlChecked_eq _ _ ⟨h2, h3⟩, K_eq r (by omega), hf, hk, ok_bind, BitVec.add_assoc (_ + _),
    BitVec.add_comm (BitVec.ofNat _ _), ← BitVec.add_assoc (_ + _)]
  rfl

theorem roundi_eq (X : List (BitVec 32)) (r : Nat) (h : 48 ≤ r) (h' : r < 64) (a b c d : BitVec 32) :
    Model.Md5.roundi r a b c d X = .ok (val X r a b c d) := by
  obtain ⟨h1, h2, h3⟩ := S_eq r (by omega)
  have hf : Spec.Md5.f r = Spec.Md5.I := by
    unfold Spec.Md5.f; rw [if_neg (by omega), if_neg (by omega), if_neg (by omega)]
  have hk : Spec.Md5.k r = (7 * r) % 16 := by
    unfold Spec.Md5.k; rw [if_neg (by omega), if_neg (by omega), if_neg (by omega)]; omega
  unfold Model.Md5.roundi val
  rw [h1, rotlChecked_eq _ _ ⟨h2, h3⟩, K_eq r (by omega), hf, hk, ok_bind, BitVec.add_assoc (_ + _),
    BitVec.add_comm (BitVec.ofNat _ _), ← BitVec.add_assoc (_ + _)]
  rfl

theorem four_eq {f : Model.Md5.Round} (X : List (BitVec 32)) (r : Nat)
    (h : ∀ r', r ≤ r' → r' < r + 4 → ∀ a b c d, f r' a b c d X = .ok (val X r' a b c d)) (v : Model.Md5.Vars) :
    Model.Md5.four f X v r = .ok ([r, r + 1, r + 2, r + 3].foldl (Spec.Md5.step X) v) := by
  obtain ⟨a, b, c, d⟩ := v
  unfold Model.Md5.four
  simp only [h r (by omega) (by omega), h (r + 1) (by omega) (by omega), h (r + 2) (by omega) (by omega),
    h (r + 3) (by omega) (by omega), ok_bind]
  rfl

theorem fours_eq {f : Model.Md5.Round} (X : List (BitVec 32)) (l : List Nat) (v : Model.Md5.Vars)
    (h : ∀ r ∈ l, ∀ r', r ≤ r' → r' < r + 4 → ∀ a b c d, f r' a b c d X = .ok (val X r' a b c d)) :
    l.foldlM (Model.Md5.four f X) v
      = .ok ((l.flatMap fun r => [r, r + 1, r + 2, r + 3]).foldl (Spec.Md5.step X) v) := by
  induction l generalizing v with
  | nil => rfl
  | cons r l ih =>
    rw [List.foldlM_cons, four_eq X r (h r (by simp)), ok_bind, ih _ (fun r hr => h r (by simp [hr])),
      List.flatMap_cons, List.foldl_append]

/-- The chaining value as an array. -/
def arr (h : BitVec 32 × BitVec 32 × BitVec 32 × BitVec 32) : List (BitVec 32) := [h.1, h.2.1, h.2.2.1, h.2.2.2]
def unarr (l : List (BitVec 32)) : BitVec 32 × BitVec 32 × BitVec 32 × BitVec 32 :=
  (l.getD 0 0, l.getD 1 0, l.getD 2 0, l.getD 3 0)

/-- The specification's compression function on arrays. -/
def step (b : Bytes) (h : List (BitVec 32)) : List (BitVec 32) := arr (Spec.Md5.compress (unarr h) b)

theorem compress_eq (b : Bytes) (h : List (BitVec 32)) (hb : b.length = 64) :
    Model.Md5.compress b h = .ok (step b h) := by
  unfold Model.Md5.compress
  rw [loads32_eq 16 b hb]
  dsimp only
  rw [fours_eq _ _ _ (fun r hr r' h1 h2 => roundf_eq _ r' (by simp at hr; omega)), ok_bind]
  rw [fours_eq _ _ _ (fun r hr r' h1 h2 => roundg_eq _ r' (by simp at hr; omega) (by simp at hr; omega)), ok_bind]
  rw [fours_eq _ _ _ (fun r hr r' h1 h2 => roundh_eq _ r' (by simp at hr; omega) (by simp at hr; omega)), ok_bind]
  rw [fours_eq _ _ _ (fun r hr r' h1 h2 => roundi_eq _ r' (by simp at hr; omega) (by simp at hr; omega)), ok_bind]
  rw [← List.foldl_append, ← List.foldl_append, ← List.foldl_append]
  have hl : ([0, 4, 8, 12].flatMap fun r => [r, r + 1, r + 2, r + 3]) ++
      (([16, 20, 24, 28].flatMap fun r => [r, r + 1, r + 2, r + 3]) ++
      (([32, 36, 40, 44].flatMap fun r => [r, r + 1, r + 2, r + 3]) ++
      ([48, 52, 56, 60].flatMap fun r => [r, r + 1, r + 2, r + 3]))) = List.range 64 := by decide
  rw [hl]
  rfl

theorem isCompress : IsCompress 64 (fun _ => True) step Model.Md5.transform :=
  isCompress_of (compress := Model.Md5.compress) (fun b h hb _ => ⟨compress_eq b h hb, trivial⟩) (fun _ _ _ => rfl)

/-- `s` has absorbed `msg`. -/
def R (_ : Unit) (msg : Bytes) (s : Blk (List (BitVec 32))) : Prop :=
  Buffered 64 0 64 (fun _ b h => step b h) [0x67452301, 0xefcdab89, 0x98badcfe, 0x10325476] msg s

theorem init_ok (s : Blk (List (BitVec 32))) (hm : s.m.length = 64) :
    ∃ s', Model.Md5.init s = .ok s' ∧ R () [] s' :=
  ⟨_, rfl, by unfold R; exact Buffered.start _ _ hm rfl rfl rfl⟩

theorem final_ok (msg : Bytes) (s : Blk (List (BitVec 32))) (hR : R () msg s) :
    Model.Md5.final s = .ok (Spec.Md5.hash msg) := by
  obtain ⟨s', e, h, -⟩ := mdFinal_spec (lf := 8) (limit := 56) (fill := 56) (enc := bytes64) isCompress (by omega) (by omega)
    rfl (by omega) (by omega) (by omega) (fun _ => rfl) msg s hR trivial
  unfold Model.Md5.final
  rw [e, ok_bind, h]
  have hpad : List.replicate (8 - 8) (0 : Byte) ++ bytes64 (BitVec.ofNat 64 (8 * msg.length))
      = leBytes 8 (8 * msg.length) := by
    rw [bytes64_ofNat, Nat.sub_self, List.replicate_zero, List.nil_append]
  rw [hpad]
  unfold Spec.Md5.hash
  rw [foldl_chunks, ← stores32_eq]
  have := foldBlocks_conj arr (step' := fun _ b h => step b h) (step := fun _ b s => Spec.Md5.compress s b)
    (fun _ _ _ => rfl) 64 (mdPad 64 (leBytes 8 (8 * msg.length)) msg)
    ((mdPad 64 (leBytes 8 (8 * msg.length)) msg).length / 64) (0x67452301, 0xefcdab89, 0x98badcfe, 0x10325476)
  rw [show ([0x67452301, 0xefcdab89, 0x98badcfe, 0x10325476] : List (BitVec 32))
    = arr (0x67452301, 0xefcdab89, 0x98badcfe, 0x10325476) from rfl, this]
  rfl

theorem refines : HashRefines Model.Md5.provider Spec.Md5.md5 (Cover.all Empty) R where
  init := fun _ _ s h => init_ok s h.mlen
  update := fun _ msg s data h hd =>
    absorbBytes_spec (by omega) (by omega) (by omega) (by omega) isCompress.isTransform (fun _ _ _ _ _ => trivial)
      trivial msg data s h hd
  final := fun _ msg s h _ => final_ok msg s h
  clear := fun _ _ _ s h =>
    have ⟨s', e, r⟩ := init_ok { s with h := List.replicate 4 0, m := zeroBytes s.m } (by simp [zeroBytes, h.mlen])
    ⟨_, s', rfl, e, r⟩
  size := fun _ _ _ _ => by show 128 / 8 = 16; rfl
  size_pos := by decide
  digest_length := fun _ msg _ _ _ => by
    show (Spec.Md5.hash msg).length = 16
    simp [Spec.Md5.hash, ofLeWords, leBytes]
  set := nofun

end Md5
end Digestpp.Proofs
