import Verif.Proofs.Cpp.EschSqueeze
import Verif.Proofs.Cpp.AsconInit
import Verif.Spec.Pieces

/-! C71, Esch: the member functions together. -/

namespace Digestpp.Cpp.Esch
open Src.Esch
open Model (Blk stores32)
open Spec (pieces slice)
open Spec.Esch (Family)
open Proofs.Esch (Sized Absorbing Squeezing dom)
attribute [local irreducible] eval exec block

variable {N : Nat}

/-- What an object has absorbed and given. -/
def Rd (F : Family) (nb hs rl : Nat) (xof : Bool) (msg : Bytes) (n : Nat) (s : Blk Model.Esch.St) : Prop :=
  (n = 0 → Absorbing nb hs rl msg s) ∧ (0 < n → Squeezing F nb hs rl (Spec.Esch.absorb F (dom xof) msg) n s)

/-- The object of the model, as it is in memory. -/
def Obj (hs L : Nat) (s : Blk Model.Esch.St) (o : Env) : Prop := ∃ rest, R hs L s.h rest ∧ o = ⟨own s.pos s.total s.h.squeezing, .a8 s.m :: rest⟩

/-- The bytes of the output. -/
def stream (F : Family) (xof : Bool) (msg : Bytes) : Nat → Byte := Spec.Esch.squeeze F (Spec.Esch.absorb F (dom xof) msg)

theorem dim {F : Family} {nb hs rl : Nat} (h : Sized F nb hs) : Dim hs (2 * nb + rl) := by
  obtain ⟨-, rfl, rfl⟩ | ⟨-, rfl, rfl⟩ := h
  · exact .inl ⟨rfl, by omega⟩
  · exact .inr ⟨rfl, by omega⟩

theorem absorbing_fields {F : Family} {nb hs rl : Nat} (hF : Sized F nb hs) {msg : Bytes} {s : Blk Model.Esch.St} (h : Absorbing nb hs rl msg s) :
    s.m.length = 128 ∧ s.pos ≤ 16 ∧ s.h.squeezing = false := by
  have hp := h.pos
  refine ⟨h.mlen, by omega, by rw [h.fields hF]⟩

/-- The members of an object in use. -/
theorem bounds {F : Family} {nb hs rl n : Nat} {xof : Bool} (hF : Sized F nb hs) {msg : Bytes} {s : Blk Model.Esch.St} (h : Rd F nb hs rl xof msg n s) : s.m.length = 128 ∧ s.pos ≤ 16 := by
  by_cases hn : n = 0
  · obtain ⟨f1, f2, -⟩ := absorbing_fields hF (h.1 hn)
    exact ⟨f1, f2⟩
  · have h' := h.2 (by omega)
    have := h'.pos
    exact ⟨h'.mlen, by omega⟩

theorem squeeze_source {F : Family} {nb hs rl n : Nat} {xof : Bool} (hF : Sized F nb hs) (hN1 : 80 < N) {msg out : Bytes} {s : Blk Model.Esch.St} {o : Env} (k0 : 0 < out.length) (k1 : out.length < N)
    (k2 : out.length < 2 ^ 64) (h : Rd F nb hs rl xof msg n s) (hO : Obj hs (2 * nb + rl) s o) :
    ∃ s' o', Rd F nb hs rl xof msg (n + out.length) s' ∧ Obj hs (2 * nb + rl) s' o' ∧ EschCalls.squeeze hs xof N o out = some (slice (stream F xof msg) n out.length, o') := by
  obtain ⟨rest, hR, rfl⟩ := hO
  obtain ⟨b1, b2⟩ := bounds hF h
  obtain ⟨s', e, q⟩ : ∃ s', Model.Esch.squeeze xof out.length s = .ok (slice (stream F xof msg) n out.length, s') ∧ Squeezing F nb hs rl (Spec.Esch.absorb F (dom xof) msg) (n + out.length) s' := by
    by_cases hn : n = 0
    · subst hn
      rw [Nat.zero_add]
      exact Proofs.Esch.squeeze_first hF xof _ k0 (h.1 rfl)
    · exact Proofs.Esch.squeeze_next hF xof _ k0 (h.2 (by omega))
  obtain ⟨rest', hR', x⟩ := squeeze_run (N := N) (dim hF) hN1 k1 k2 b1 b2 hR e
  exact ⟨s', _, ⟨fun hc => absurd hc (by omega), fun _ => q⟩, ⟨rest', hR', rfl⟩, x⟩

theorem squeezes_source {F : Family} {nb hs rl : Nat} {xof : Bool} (hF : Sized F nb hs) (hN1 : 80 < N) {msg : Bytes} : ∀ (outs : List Bytes) (n : Nat) (s : Blk Model.Esch.St) (o : Env),
    (∀ o ∈ outs, 0 < o.length ∧ o.length < N ∧ o.length < 2 ^ 64) → Rd F nb hs rl xof msg n s → Obj hs (2 * nb + rl) s o →
    EschCalls.squeezes hs xof N outs o = some (pieces (stream F xof msg) n (outs.map List.length)) := by
  intro outs
  induction outs with
  | nil => intro n s o _ _ _; rfl
  | cons out outs ih =>
    intro n s o ho h hO
    obtain ⟨k0, k1, k2⟩ := ho out List.mem_cons_self
    obtain ⟨s', o', h', hO', x⟩ := squeeze_source (N := N) hF hN1 k0 k1 k2 h hO
    have := ih (n + out.length) s' o' (fun o h => ho o (List.mem_cons_of_mem _ h)) h' hO'
    unfold EschCalls.squeezes
    rw [x]
    show Option.map _ (EschCalls.squeezes hs xof N outs o') = _
    rw [this]
    rfl

theorem update_source {F : Family} {nb hs rl : Nat} (hF : Sized F nb hs) (hN1 : 80 < N) {msg d : Bytes} {s : Blk Model.Esch.St} {o : Env} (hd : d.length < 2 ^ 63) (hN : d.length < N)
    (h : Absorbing nb hs rl msg s) (hO : Obj hs (2 * nb + rl) s o) : ∃ s' o', Absorbing nb hs rl (msg ++ d) s' ∧ Obj hs (2 * nb + rl) s' o' ∧ EschCalls.update hs N o d = some o' := by
  obtain ⟨rest, hR, rfl⟩ := hO
  obtain ⟨s', e, h'⟩ := Proofs.Esch.update_ok d h hd
  obtain ⟨b1, b2, q1⟩ := absorbing_fields hF h
  obtain ⟨-, -, q2⟩ := absorbing_fields hF h'
  obtain ⟨x, e1, rest', hR', rfl⟩ := update_run (N := N) (dim hF) (by omega) hN hN1 b1 b2 hR e
  refine ⟨s', _, h', ⟨rest', hR', rfl⟩, ?_⟩
  show (match exec N (EschCalls.calls N hs) Src.Esch.update ⟨[.ptr 0 0 1, .u64 (BitVec.ofNat 64 d.length), .u64 (BitVec.ofNat 64 s.pos), .u64 s.total], .a8 d :: .a8 s.m :: rest⟩ with
    | some ⟨[_, _, p, t], _ :: A⟩ => some (Env.mk (p :: t :: [.bool s.h.squeezing]) A)
    | _ => none) = _
  rw [e1, q1, q2]

theorem updates_source {F : Family} {nb hs rl : Nat} (hF : Sized F nb hs) (hN1 : 80 < N) : ∀ (parts : List Bytes) (msg : Bytes) (s : Blk Model.Esch.St) (o : Env), (∀ d ∈ parts, d.length < 2 ^ 63) →
    (∀ d ∈ parts, d.length < N) → Absorbing nb hs rl msg s → Obj hs (2 * nb + rl) s o →
    ∃ s' o', Absorbing nb hs rl (msg ++ parts.flatten) s' ∧ Obj hs (2 * nb + rl) s' o' ∧ parts.foldlM (EschCalls.update hs N) o = some o' := by
  intro parts
  induction parts with
  | nil =>
    intro msg s o _ _ h hO
    exact ⟨s, o, by rw [List.flatten_nil, List.append_nil]; exact h, hO, rfl⟩
  | cons d parts ih =>
    intro msg s o hp hN h hO
    obtain ⟨s', o', h', hO', e3⟩ := update_source (N := N) hF hN1 (hp d List.mem_cons_self) (hN d List.mem_cons_self) h hO
    obtain ⟨s2, o2, h2, hO2, e2⟩ := ih _ s' o' (fun d h => hp d (List.mem_cons_of_mem _ h)) (fun d h => hN d (List.mem_cons_of_mem _ h)) h' hO'
    refine ⟨s2, o2, by rw [List.flatten_cons, ← List.append_assoc]; exact h2, hO2, ?_⟩
    rw [List.foldlM_cons, e3]
    exact e2

theorem stores32_length (xs : List (BitVec 32)) : (stores32 xs).length = 4 * xs.length := by
  rw [← Final.bytes_a32]
  show (xs.flatMap fun x => digits 4 x.toNat).length = _
  induction xs with
  | nil => rfl
  | cons x xs ih => rw [List.flatMap_cons, List.length_append, ih, List.length_cons]; show 4 + _ = _; omega

/-- `zero_memory(H)`, for the two values of the template argument. -/
theorem patch_zero {n : Nat} {H : List (BitVec 32)} (hn : n = 384 ∨ n = 512) (hH : H.length = n / 32) : (Arr.a32 H).patch 0 (List.replicate (n / 8) 0) = some (.a32 (List.replicate (n / 32) 0)) := by
  have hl : (stores32 H).length = n / 8 := by rw [stores32_length, hH]; obtain rfl | rfl := hn <;> rfl
  unfold Arr.patch
  rw [Final.bytes_a32, List.length_replicate, if_pos (by omega), List.take_zero, List.nil_append, List.drop_of_length_le (by omega), List.append_nil]
  show some (Arr.a32 (words 32 H.length (List.replicate (n / 8) 0))) = _
  rw [hH]
  obtain rfl | rfl := hn
  · exact congrArg (fun x => some (Arr.a32 x)) (by decide)
  · exact congrArg (fun x => some (Arr.a32 x)) (by decide)

theorem patch_m {m : Bytes} (hm : m.length = 128) : (Arr.a8 m).patch 0 (List.replicate 128 0) = some (.a8 (List.replicate 128 0)) := by
  unfold Arr.patch
  show (if 0 + (List.replicate 128 (0 : BitVec 8)).length ≤ m.length then some (Arr.a8 (m.take 0 ++ List.replicate 128 0 ++ m.drop (0 + (List.replicate 128 (0 : BitVec 8)).length))) else none) = _
  rw [List.length_replicate, if_pos (by omega), List.take_zero, List.nil_append, List.drop_of_length_le (by omega), List.append_nil]

theorem init_source {F : Family} {nb hs rl n : Nat} (hF : Sized F nb hs) (hn : n = 384 ∨ n = 512) (hL : n / 32 = 2 * nb + rl) {m : Bytes} {p t : BitVec 64} {q : Bool} {H M : List (BitVec 32)}
    (hm : m.length = 128) (hH : H.length = n / 32) (hM : M.length = 4) :
    ∃ s o, Absorbing nb hs rl [] s ∧ Obj hs (2 * nb + rl) s o ∧ EschCalls.init n N ⟨[.u64 p, .u64 t, .bool q], [.a8 m, .a32 H, .a32 M]⟩ = some o := by
  obtain ⟨s, e, h⟩ := Proofs.Esch.init_ok hF rl ⟨⟨H, hs, q⟩, m, 0, 0⟩ hm (hH.trans hL) rfl
  have hs' := (Except.ok.inj e).symm
  refine ⟨s, ⟨own s.pos s.total s.h.squeezing, .a8 s.m :: [.a32 s.h.H, .a32 M]⟩, h, ⟨_, ⟨(h.mem hF).2.2, (h.mem hF).2.1, M, hM, rfl⟩, rfl⟩, ?_⟩
  have g0 : s.m = List.replicate 128 0 := by rw [hs']; show List.replicate m.length 0 = _; rw [hm]
  have g1 : s.pos = 0 := by rw [hs']
  have g2 : s.total = 0 := by rw [hs']
  have g3 : s.h.H = List.replicate (n / 32) 0 := by rw [hs', ← hH]; exact List.map_const'
  have g4 : s.h.squeezing = false := by rw [hs']
  have hl : 0 < H.length := by rw [hH]; obtain rfl | rfl := hn <;> decide
  have hc : count (.u64 (BitVec.ofNat 64 (n / 8))) = some (n / 8) := count_u64 (by omega)
  have x : exec N (fun _ _ _ _ => none) (Src.Esch.init n) ⟨[.u64 p, .u64 t, .bool q], [.a8 [], .a8 m, .a32 H, .a32 M]⟩ =
      some ⟨[.u64 0, .u64 0, .bool false], [.a8 [], .a8 (List.replicate 128 0), .a32 (List.replicate (n / 32) 0), .a32 M]⟩ := by
    refine st_cons (E1 := ⟨[.u64 0, .u64 t, .bool q], [.a8 [], .a8 m, .a32 H, .a32 M]⟩) (st_set ev_lit rfl rfl rfl) ?_
    refine st_cons (E1 := ⟨[.u64 0, .u64 0, .bool q], [.a8 [], .a8 m, .a32 H, .a32 M]⟩) (st_set ev_lit rfl rfl rfl) ?_
    refine st_cons (E1 := ⟨[.u64 0, .u64 0, .bool false], [.a8 [], .a8 m, .a32 H, .a32 M]⟩) (st_set ev_lit rfl rfl rfl) ?_
    refine st_cons (E1 := ⟨[.u64 0, .u64 0, .bool false], [.a8 [], .a8 m, .a32 (List.replicate (n / 32) 0), .a32 M]⟩)
      (st_memset (a := 2) (o := 0) (z := 4) (ev_addr (xs := .a32 H) rfl ev_lit (n := 0) rfl (get32 hl)) ev_lit ev_lit (k := n / 8) (x := 0) hc rfl rfl (patch_zero hn hH) rfl) ?_
    exact st_one (st_memset (a := 1) (o := 0) (z := 1) (ev_addr (xs := .a8 m) rfl ev_lit (n := 0) rfl (get8 (by omega))) ev_lit ev_lit (k := 128) (x := 0) rfl rfl rfl (patch_m hm) rfl)
  show (match exec N (fun _ _ _ _ => none) (Src.Esch.init n) ⟨[.u64 p, .u64 t, .bool q], [.a8 [], .a8 m, .a32 H, .a32 M]⟩ with
    | some ⟨vs, _ :: A⟩ => some (Env.mk vs A)
    | _ => none) = _
  rw [x, g0, g1, g2, g3, g4]
  rfl

theorem run_source {F : Family} {nb hs rl n : Nat} (hF : Sized F nb hs) (xof : Bool) (hn : n = 384 ∨ n = 512) (hL : n / 32 = 2 * nb + rl) (hN1 : 80 < N) {parts outs : List Bytes}
    (hp : ∀ d ∈ parts, d.length < 2 ^ 63) (hN : ∀ d ∈ parts, d.length < N)
    (ho : ∀ o ∈ outs, 0 < o.length ∧ o.length < N ∧ o.length < 2 ^ 64) {m : Bytes} {p t : BitVec 64} {q : Bool} {H M : List (BitVec 32)} (hm : m.length = 128) (hH : H.length = n / 32) (hM : M.length = 4) :
    EschCalls.run n hs xof N parts outs ⟨[.u64 p, .u64 t, .bool q], [.a8 m, .a32 H, .a32 M]⟩ = some (pieces (stream F xof parts.flatten) 0 (outs.map List.length)) := by
  obtain ⟨s, o, h, hO, z⟩ := init_source (N := N) hF hn hL (p := p) (t := t) (q := q) hm hH hM
  obtain ⟨s', o', h', hO', x⟩ := updates_source (N := N) hF hN1 parts [] s o hp hN h hO
  rw [List.nil_append] at h'
  have y := squeezes_source (N := N) (xof := xof) hF hN1 outs 0 s' o' ho ⟨fun _ => h', fun h => absurd h (by omega)⟩ hO'
  unfold EschCalls.run
  rw [z]
  show Option.bind (parts.foldlM (EschCalls.update hs N) o) _ = _
  rw [x]
  exact y

end Digestpp.Cpp.Esch
