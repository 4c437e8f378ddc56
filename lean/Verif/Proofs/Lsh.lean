import Verif.Model.Lsh
import Verif.Spec.Lsh
import Verif.Proofs.Words
import Verif.Proofs.Sched
import Verif.Proofs.PadOne
import Verif.Proofs.Api

/-! The LSH provider computes LSH, on machines that reduce shift counts; by the language rules it is undefined. -/

namespace Digestpp.Proofs.Lsh
open Model Spec Spec.Lsh

variable {w : Nat}

/-- An array of sixteen words. -/
def arr (f : Nat → BitVec w) : List (BitVec w) := (List.range 16).map f

theorem arr_getD (l : List (BitVec w)) (h : l.length = 16) : l = arr (l.getD · 0) := (map_range_getD l 0 16 h).symm

theorem mapM_ok {α β : Type} (f : α → M β) (p : α → β) (l : List α) (h : ∀ x ∈ l, f x = .ok (p x)) : l.mapM f = .ok (l.map p) := by
  induction l with
  | nil => rfl
  | cons x l ih =>
    rw [List.mapM_cons, h x (by simp), ok_bind, ih (fun y hy => h y (by simp [hy])), ok_bind]
    rfl

/-- The model's word type `T` belongs to the family `F`. -/
structure Ok (T : Model.Lsh.Word w) (F : Family w) : Prop where
  ns : T.NS = F.Ns
  even : ∃ k, F.Ns = 2 * k
  two : 2 ≤ F.Ns
  r0 : ∀ x, T.rot0 x = x.rotateLeft F.αeven
  r1 : ∀ x, T.rot1 x = x.rotateLeft F.βeven
  r2 : ∀ x, T.rot2 x = x.rotateLeft F.αodd
  r3 : ∀ x, T.rot3 x = x.rotateLeft F.βodd
  sc : ∀ j, j < F.Ns → ∀ l, l < 8 → (T.SC.getD j []).getD l 0 = Spec.Lsh.SC F j l
  g : ∀ l, l < 8 → T.G.getD l 0 = F.γ l
  rot : ∀ l, l < 8 → ∀ x : BitVec w, rotlMasked x (F.γ l) = .ok (x.rotateLeft (F.γ l))
  loads : ∀ b, b.length = 4 * w → T.loads 32 b = (List.range 32).map (words w b)
  stores : ∀ l, T.stores l = ofLeWords l
  pos : 0 < w
  small : w < 2 ^ 60
  out : ∀ l : List (BitVec w), (ofLeWords l).length = l.length * (w / 8)
  bytes : 8 * (w / 8) = w

theorem msgexpand_eq {T : Model.Lsh.Word w} {F : Family w} (ok : Ok T F) (b : Bytes) (hb : b.length = 4 * w) :
    Model.Lsh.msgexpand T b = (List.range (F.Ns + 1)).map fun j => arr (expand (words w b) j) := by
  have h2 := ok.two
  unfold Model.Lsh.msgexpand
  rw [show F.Ns + 1 = 2 + (T.NS - 1) by rw [ok.ns]; omega]
  refine expand_spec (fun W i => (List.range 16).map fun l =>
    (W.getD (i - 1) []).getD l 0 + (W.getD (i - 2) []).getD (Model.Lsh.tauIdx.getD l 0) 0)
    (fun j => arr (expand (words w b) j)) 2 (T.NS - 1) _ ?_ ?_
  · rw [ok.loads b hb]
    generalize words w b = m
    rfl
  · intro t h1 h2
    obtain ⟨t, rfl⟩ : ∃ k, t = k + 2 := ⟨t - 2, by omega⟩
    rw [getD_map_range _ _ _ _ (by omega), getD_map_range _ _ _ _ (by omega)]
    apply List.map_congr_left
    intro l hl
    rw [List.mem_range] at hl
    have ht : ∀ l, l < 16 → Model.Lsh.tauIdx.getD l 0 < 16 := by decide
    have := ht l hl
    unfold arr
    rw [getD_map_range _ _ _ _ hl, getD_map_range _ _ _ _ this]
    rfl

theorem addmix_eq {T : Model.Lsh.Word w} {F : Family w} (ok : Ok T F) (f g : Nat → BitVec w) (j l : Nat) (hj : j < F.Ns) (hl : l < 8)
    (ra rb : BitVec w → BitVec w)
    (hra : ∀ x, ra x = x.rotateLeft (if j % 2 = 0 then F.αeven else F.αodd))
    (hrb : ∀ x, rb x = x.rotateLeft (if j % 2 = 0 then F.βeven else F.βodd)) :
    Model.Lsh.addmix rotlMasked (arr f) (arr g) ((T.SC.getD j []).getD l 0) ra rb (T.G.getD l 0) l
      = .ok (mix F j (msgAdd f g) l, mix F j (msgAdd f g) (l + 8)) := by
  unfold Model.Lsh.addmix arr
  dsimp only
  rw [ok.sc j hj l hl, ok.g l hl, ok.rot l hl, ok_bind, getD_map_range _ _ _ _ (by omega), getD_map_range _ _ _ _ (by omega),
    getD_map_range _ _ _ _ (by omega), getD_map_range _ _ _ _ (by omega), hra, hrb]
  have lo : mix F j (msgAdd f g) l = (mixWords F j l (msgAdd f g l) (msgAdd f g (l + 8))).1 := if_pos hl
  have hi : mix F j (msgAdd f g) (l + 8) = (mixWords F j l (msgAdd f g l) (msgAdd f g (l + 8))).2 := by
    unfold mix
    rw [if_neg (show ¬ l + 8 < 8 by omega), Nat.add_sub_cancel]
  rw [lo, hi]
  rfl

theorem step_eq {T : Model.Lsh.Word w} {F : Family w} (ok : Ok T F) (f g : Nat → BitVec w) (j : Nat) (hj : j < F.Ns)
    (ra rb : BitVec w → BitVec w) (h : Model.Lsh.St w) (hcv : h.cv = arr f) (hm : h.msgexp.getD j [] = arr g)
    (hra : ∀ x, ra x = x.rotateLeft (if j % 2 = 0 then F.αeven else F.αodd))
    (hrb : ∀ x, rb x = x.rotateLeft (if j % 2 = 0 then F.βeven else F.βodd)) :
    Model.Lsh.step rotlMasked T j ra rb h
      = .ok { h with t := arr (mix F j (msgAdd f g)), cv := arr (wordPerm (mix F j (msgAdd f g))) } := by
  unfold Model.Lsh.step
  rw [mapM_ok _ (fun l => (mix F j (msgAdd f g) l, mix F j (msgAdd f g) (l + 8))), ok_bind]
  · generalize mix F j (msgAdd f g) = X
    rfl
  · intro l hl
    rw [List.mem_range] at hl
    rw [hcv, hm]
    exact addmix_eq ok f g j l hj hl ra rb hra hrb

theorem rounds_eq {T : Model.Lsh.Word w} {F : Family w} (ok : Ok T F) (m f : Nat → BitVec w) (h : Model.Lsh.St w) (hcv : h.cv = arr f)
    (hm : h.msgexp = (List.range (F.Ns + 1)).map fun j => arr (expand m j)) (k : Nat) (hk : 2 * k ≤ F.Ns) :
    ∃ t, (List.range k).foldlM (fun h k => do
        let h ← Model.Lsh.step rotlMasked T (2 * k) T.rot0 T.rot1 h
        Model.Lsh.step rotlMasked T (2 * k + 1) T.rot2 T.rot3 h) h
      = .ok { h with t := t, cv := arr ((List.range (2 * k)).foldl (Spec.Lsh.step F (expand m)) f) } := by
  induction k with
  | zero => exact ⟨h.t, by
      rw [Nat.mul_zero, List.range_zero, List.foldlM_nil, List.foldl_nil, ← hcv]
      rfl⟩
  | succ k ih =>
    obtain ⟨t, e⟩ := ih (by omega)
    rw [List.range_succ, List.foldlM_append, e, ok_bind, List.foldlM_cons,
      show 2 * (k + 1) = 2 * k + 1 + 1 by omega, List.range_succ, List.range_succ, List.foldl_append, List.foldl_append]
    simp only [List.foldlM_nil, bind_pure, List.foldl_cons, List.foldl_nil]
    generalize (List.range (2 * k)).foldl (Spec.Lsh.step F (expand m)) f = X
    rw [step_eq ok X (expand m (2 * k)) (2 * k) (by omega) _ _ _ rfl (by dsimp only; rw [hm, getD_map_range _ _ _ _ (by omega)])
      (fun x => by rw [if_pos (by omega)]; exact ok.r0 x) (fun x => by rw [if_pos (by omega)]; exact ok.r1 x), ok_bind,
      step_eq ok (wordPerm (mix F (2 * k) (msgAdd X (expand m (2 * k))))) (expand m (2 * k + 1)) (2 * k + 1) (by omega) _ _ _ rfl
        (by dsimp only; rw [hm, getD_map_range _ _ _ _ (by omega)])
      (fun x => by rw [if_neg (by omega)]; exact ok.r2 x) (fun x => by rw [if_neg (by omega)]; exact ok.r3 x)]
    exact ⟨_, rfl⟩

theorem compress_eq {T : Model.Lsh.Word w} {F : Family w} (ok : Ok T F) (b : Bytes) (hb : b.length = 4 * w) (f : Nat → BitVec w)
    (h : Model.Lsh.St w) (hcv : h.cv = arr f) :
    ∃ t, Model.Lsh.compress rotlMasked T b h
      = .ok { h with t := t, msgexp := (List.range (F.Ns + 1)).map fun j => arr (expand (words w b) j),
                     cv := arr (CF F f (words w b)) } := by
  obtain ⟨k, hk⟩ := ok.even
  unfold Model.Lsh.compress
  rw [msgexpand_eq ok b hb]
  obtain ⟨t, e⟩ := rounds_eq ok (words w b) f
    { h with msgexp := (List.range (F.Ns + 1)).map fun j => arr (expand (words w b) j) } hcv rfl k (by omega)
  refine ⟨t, ?_⟩
  dsimp only
  rw [ok.ns, hk, Nat.mul_div_cancel_left _ (by omega : 0 < 2)]
  rw [hk] at e
  rw [e, ok_bind]
  dsimp only
  rw [getD_map_range _ _ _ _ (by omega)]
  unfold CF
  rw [hk]
  generalize (List.range (2 * k)).foldl (Spec.Lsh.step F (expand (words w b))) f = X
  rfl

/-- The effect of a block. -/
def stp (T : Model.Lsh.Word w) (b : Bytes) (h : Model.Lsh.St w) : Model.Lsh.St w :=
  match Model.Lsh.compress rotlMasked T b h with
  | .ok h' => h'
  | .error _ => h

/-- The object holds the chaining variable `f`. -/
def Holds (N : Nat) (h : Model.Lsh.St w) (f : Nat → BitVec w) : Prop := h.cv = arr f ∧ h.hs = N

theorem stp_eq {T : Model.Lsh.Word w} {F : Family w} (ok : Ok T F) (N : Nat) (b : Bytes) (hb : b.length = 4 * w) (h : Model.Lsh.St w)
    (f : Nat → BitVec w) (hh : Holds N h f) :
    Model.Lsh.compress rotlMasked T b h = .ok (stp T b h) ∧ Holds N (stp T b h) (CF F f (words w b)) := by
  obtain ⟨t, e⟩ := compress_eq ok b hb f h hh.1
  unfold stp
  rw [e]
  exact ⟨rfl, rfl, hh.2⟩

theorem isCompress {T : Model.Lsh.Word w} {F : Family w} (ok : Ok T F) (N : Nat) :
    IsCompress (4 * w) (fun h => ∃ f, Holds N h f) (stp T) (Model.Lsh.transform rotlMasked T) :=
  isCompress_of (compress := Model.Lsh.compress rotlMasked T)
    (fun b h hb ⟨f, hf⟩ => ⟨(stp_eq ok N b hb h f hf).1, _, (stp_eq ok N b hb h f hf).2⟩) (fun _ _ _ => rfl)

/-- `s` has absorbed `msg`. -/
def Abs (T : Model.Lsh.Word w) (F : Family w) (N : Nat) (msg : Bytes) (s : Blk (Model.Lsh.St w)) : Prop :=
  ∃ h0, Holds N h0 (IV F N) ∧ Buffered (4 * w) 0 (4 * w) (fun _ b h => stp T b h) h0 msg s

theorem abs_holds {T : Model.Lsh.Word w} {F : Family w} (ok : Ok T F) (N : Nat) (msg : Bytes) (s : Blk (Model.Lsh.St w))
    (h : Abs T F N msg s) : s.h.hs = N ∧ s.m.length = 4 * w := by
  obtain ⟨h0, hh, hb⟩ := h
  refine ⟨?_, hb.mlen⟩
  rw [hb.h]
  have := foldBlocks_inv (step := fun _ b h => stp T b h) (inv := fun h => ∃ f, Holds N h f)
    (fun _ b h => (isCompress ok N).1 b h) msg ((msg.length - 0) / (4 * w)) h0 (by
    have := Nat.div_mul_le_self (msg.length - 0) (4 * w); omega) ⟨_, hh⟩
  obtain ⟨f, hf⟩ := this
  exact hf.2

theorem update_ok {T : Model.Lsh.Word w} {F : Family w} (ok : Ok T F) (N : Nat) (msg data : Bytes) (s : Blk (Model.Lsh.St w))
    (h : Abs T F N msg s) (hd : data.length < 2 ^ 63) :
    ∃ s', Model.Lsh.update rotlMasked T data s = .ok s' ∧ Abs T F N (msg ++ data) s' := by
  obtain ⟨h0, hh, hb⟩ := h
  have := ok.pos
  have := ok.small
  obtain ⟨s', e, r⟩ := absorbBytes_spec (bs := 4 * w) (z := 0) (by omega) (by omega) (by omega) (by omega) (isCompress ok N).isTransform
    (fun _ b h => (isCompress ok N).1 b h) ⟨_, hh⟩ msg data s hb hd
  exact ⟨s', e, h0, hh, r⟩

theorem init_ok {T : Model.Lsh.Word w} {F : Family w} (ok : Ok T F) (N : Nat) (s : Blk (Model.Lsh.St w)) (hm : s.m.length = 4 * w)
    (hs : s.h.hs = N) : ∃ s', Model.Lsh.init rotlMasked T s = .ok s' ∧ Abs T F N [] s' := by
  have hz : words w (List.replicate (4 * w) 0) = fun _ => (0 : BitVec w) := by
    funext l
    unfold words leWords
    rw [List.getD_eq_getElem?_getD, List.getElem?_map]
    cases (List.range ((List.replicate (4 * w) (0 : Byte)).length / (w / 8)))[l]? with
    | none => rfl
    | some i =>
      have hz : ∀ n, leNat (List.replicate n 0) = 0 := fun n => by
        induction n with
        | zero => rfl
        | succ n ih => rw [List.replicate_succ, leNat, ih]; rfl
      simp only [Option.map_some, Option.getD_some, List.drop_replicate, List.take_replicate, hz]
      rfl
  have h0 : Holds N { s.h with cv := [BitVec.ofNat w w, BitVec.ofNat w s.h.hs] ++ List.replicate 14 0 }
      (fun l => if l = 0 then BitVec.ofNat w w else if l = 1 then BitVec.ofNat w N else 0) := by
    refine ⟨?_, hs⟩
    show [BitVec.ofNat w w, BitVec.ofNat w s.h.hs] ++ List.replicate 14 0 = _
    rw [hs]
    generalize BitVec.ofNat w w = a
    generalize BitVec.ofNat w N = b
    rfl
  have hc := (isCompress ok N).one { s with
    h := { s.h with cv := [BitVec.ofNat w w, BitVec.ofNat w s.h.hs] ++ List.replicate 14 0 }, pos := 0, total := 0 }
    (List.replicate (4 * w) 0) (by simp) ⟨_, h0⟩
  have h1 := (stp_eq ok N (List.replicate (4 * w) 0) (by simp) _ _ h0).2
  unfold Model.Lsh.init
  rw [hc, ok_bind]
  refine ⟨_, rfl, _, ?_, Buffered.start _ _ hm rfl rfl rfl⟩
  rw [hz] at h1
  exact h1

theorem final_ok {T : Model.Lsh.Word w} {F : Family w} (ok : Ok T F) (N : Nat) (hN : N ≤ 8 * w ∧ N % 8 = 0) (msg : Bytes) (s : Blk (Model.Lsh.St w))
    (h : Abs T F N msg s) : Model.Lsh.final rotlMasked T s = .ok (Spec.Lsh.hash F (N / 8) msg) := by
  have hm := abs_holds ok N msg s h
  obtain ⟨h0, hh, hb⟩ := h
  have hw := ok.pos
  have := ok.small
  obtain ⟨m1, m2, e1, e2, l2, lp, hp⟩ := padOne_spec 0x80 (by omega) (by omega) msg s hb
  have hinv : ∃ f, Holds N s.h f := by
    rw [hb.h]
    exact foldBlocks_inv (step := fun _ b h => stp T b h) (inv := fun h => ∃ f, Holds N h f)
      (fun _ b h => (isCompress ok N).1 b h) msg ((msg.length - 0) / (4 * w)) h0 (by
      have := Nat.div_mul_le_self (msg.length - 0) (4 * w); omega) ⟨_, hh⟩
  have hsim := foldBlocks_rel (Holds N) (step := fun _ b h => stp T b h) (step' := fun _ b t => CF F t (words w b)) (4 * w)
    (pad w msg) ((pad w msg).length / (4 * w)) (Nat.div_mul_le_self _ _)
    (fun i _ b s t hb hst => (stp_eq ok N b hb s t hst).2) h0 (IV F N) hh
  unfold Model.Lsh.final Model.Lsh.blockBytes
  rw [e1, ok_bind, e2, ok_bind]
  have hc := (isCompress ok N).one { s with m := m2, pos := s.pos + 1, total := s.total + BitVec.ofNat 64 ((s.pos + 1) * 8) } m2 l2 hinv
  rw [hc, ok_bind]
  dsimp only at hp ⊢
  rw [hp]
  change Holds N (foldBlocks (4 * w) (fun _ b h => stp T b h) (msg ++ [128] ++ List.replicate (toMultiple (4 * w) (msg.length + 1)) 0)
    ((msg ++ [128] ++ List.replicate (toMultiple (4 * w) (msg.length + 1)) 0).length / (4 * w)) h0) _ at hsim
  rw [hsim.2, hsim.1, ok.stores, readBytes_ok _ _ _ (by
    have := ok.out ((List.range 8).map fun i => (arr (foldBlocks (4 * w) (fun _ b t => CF F t (words w b)) (pad w msg)
      ((pad w msg).length / (4 * w)) (IV F N))).getD i 0 ^^^ (arr (foldBlocks (4 * w) (fun _ b t => CF F t (words w b)) (pad w msg)
      ((pad w msg).length / (4 * w)) (IV F N))).getD (i + 8) 0)
    have h8 := ok.bytes
    rw [List.length_map, List.length_range, h8] at this
    omega)]
  unfold Spec.Lsh.hash
  rw [foldl_chunks, List.drop_zero, show 8 * (N / 8) = N by omega]
  unfold FIN
  congr 3

theorem clear_ok {T : Model.Lsh.Word w} {F : Family w} (ok : Ok T F) (N : Nat) (msg : Bytes) (s : Blk (Model.Lsh.St w)) (h : Abs T F N msg s) :
    ∃ s1 s2, Model.Lsh.clear T s = .ok s1 ∧ Model.Lsh.init rotlMasked T s1 = .ok s2 ∧ Abs T F N [] s2 := by
  have hm := abs_holds ok N msg s h
  obtain ⟨s2, e, r⟩ := init_ok ok N { s with
    h := { s.h with
      cv := List.replicate 16 0, t := List.replicate 16 0, msgexp := List.replicate (T.NS + 1) (List.replicate 16 0) }
    m := zeroBytes s.m } (by rw [zeroBytes]; simpa using hm.2) hm.1
  exact ⟨_, s2, rfl, e, r⟩

theorem refines {T : Model.Lsh.Word w} {F : Family w} (ok : Ok T F) (N : Nat) (hN : 0 < N ∧ N ≤ 8 * w ∧ N % 8 = 0) :
    HashRefines (Model.Lsh.provider rotlMasked T) (lsh F (N / 8)) (Cover.all Empty) (fun _ => Abs T F N) where
  init := fun _ msg s h => init_ok ok N s (abs_holds ok N msg s h).2 (abs_holds ok N msg s h).1
  update := fun _ msg s data h hd => update_ok ok N msg data s h hd
  final := fun _ msg s h _ => final_ok ok N hN.2 msg s h
  clear := fun _ _ msg s h => clear_ok ok N msg s h
  size := fun _ msg s h => by
    show s.h.hs / 8 = _
    rw [(abs_holds ok N msg s h).1]
    rfl
  size_pos := show 0 < N / 8 by omega
  digest_length := fun _ msg s h _ => by
    show (Spec.Lsh.hash F (N / 8) msg).length = N / 8
    unfold Spec.Lsh.hash FIN
    have h8 := ok.bytes
    rw [List.length_take, ok.out, List.length_map, List.length_range, h8]
    omega
  set := fun _ _ _ p => nomatch p

/-! ### The two families -/

theorem rotlMasked_small {w : Nat} (x : BitVec w) (n : Nat) (hw : w ∣ 2 ^ 32) (h : n < w) (hw2 : w < 2 ^ 32) :
    rotlMasked x n = .ok (x.rotateLeft n) := by
  unfold rotlMasked BitVec.rotateLeft BitVec.rotateLeftAux
  rw [Nat.mod_eq_of_lt h]
  by_cases h0 : n = 0
  · subst h0
    rw [Nat.sub_zero, Nat.add_mod_left, Nat.mod_eq_of_lt hw2, Nat.mod_self]
    congr 1
    apply BitVec.eq_of_getLsbD_eq
    intro i hi
    simp
  · have e : (2 ^ 32 + w - n) % 2 ^ 32 % w = w - n := by
      rw [Nat.add_sub_assoc (by omega), Nat.add_mod_left, Nat.mod_eq_of_lt (a := w - n) (by omega), Nat.mod_eq_of_lt (by omega)]
    rw [e]

theorem SC_step (F : Family w) (tab : List (List (BitVec w))) (n : Nat)
    (h0 : ∀ l, l < 8 → (tab.getD 0 []).getD l 0 = F.SC0 l)
    (hs : ∀ j, j < n → ∀ l, l < 8 → (tab.getD (j + 1) []).getD l 0
      = (tab.getD j []).getD l 0 + ((tab.getD j []).getD l 0).rotateLeft 8) :
    ∀ j, j < n + 1 → ∀ l, l < 8 → (tab.getD j []).getD l 0 = Spec.Lsh.SC F j l := by
  intro j
  induction j with
  | zero => exact fun _ l hl => h0 l hl
  | succ j ih =>
    intro hj l hl
    rw [hs j (by omega) l hl, ih (by omega) l hl]
    rfl

theorem length_ofLeWords' (l : List (BitVec w)) : (ofLeWords l).length = l.length * (w / 8) := by
  unfold ofLeWords
  induction l with
  | nil => simp
  | cons x l ih => rw [List.flatMap_cons, List.length_append, ih, length_leBytes, List.length_cons, Nat.add_mul, Nat.one_mul, Nat.add_comm]

theorem ok32 : Ok Model.Lsh.u32 lsh256 where
  ns := rfl
  even := ⟨13, rfl⟩
  two := by decide
  r0 := fun x => rotl_eq x 29 (by decide)
  r1 := fun x => rotl_eq x 1 (by decide)
  r2 := fun x => rotl_eq x 5 (by decide)
  r3 := fun x => rotl_eq x 17 (by decide)
  sc := SC_step lsh256 lsh_SC256 25 (by decide +kernel) (by decide +kernel)
  g := by decide
  rot := fun l hl x => rotlMasked_small x _ (by decide) (by revert l; decide) (by decide)
  loads := fun b hb => by
    show loads32 32 b = _
    rw [loads32_eq 32 b hb]
    exact (map_range_getD _ 0 32 (by unfold leWords; rw [List.length_map, List.length_range, hb])).symm
  stores := stores32_eq
  pos := by decide
  small := by decide
  out := length_ofLeWords'
  bytes := rfl

theorem ok64 : Ok Model.Lsh.u64 lsh512 where
  ns := rfl
  even := ⟨14, rfl⟩
  two := by decide
  r0 := fun x => rotl_eq x 23 (by decide)
  r1 := fun x => rotl_eq x 59 (by decide)
  r2 := fun x => rotl_eq x 7 (by decide)
  r3 := fun x => rotl_eq x 3 (by decide)
  sc := SC_step lsh512 lsh_SC512 27 (by decide +kernel) (by decide +kernel)
  g := by decide
  rot := fun l hl x => rotlMasked_small x _ (by decide) (by revert l; decide) (by decide)
  loads := fun b hb => by
    show loads64 32 b = _
    rw [loads64_eq 32 b hb]
    exact (map_range_getD _ 0 32 (by unfold leWords; rw [List.length_map, List.length_range, hb])).symm
  stores := stores64_eq
  pos := by decide
  small := by decide
  out := length_ofLeWords'
  bytes := rfl

/-! ### Undefined behaviour -/

/-- By the rules of the language the first step is already undefined: it shifts a word by its full width. -/
theorem compress_ub (T : Model.Lsh.Word w) (hT : T.G.getD 0 0 = 0) (hn : 0 < T.NS / 2) (b : Bytes) (h : Model.Lsh.St w) :
    Model.Lsh.compress rotlChecked T b h = .error .shift := by
  unfold Model.Lsh.compress
  dsimp only
  obtain ⟨n, hn⟩ : ∃ n, T.NS / 2 = n + 1 := ⟨T.NS / 2 - 1, by omega⟩
  rw [hn, List.range_succ_eq_map, List.foldlM_cons]
  unfold Model.Lsh.step
  rw [show List.range 8 = 0 :: (List.range 7).map Nat.succ from rfl, List.mapM_cons, hT]
  rfl

end Digestpp.Proofs.Lsh
