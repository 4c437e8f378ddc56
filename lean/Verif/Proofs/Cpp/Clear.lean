import Verif.Proofs.Cpp.Final
import Verif.Cpp.Src.Clear

/-! C72: `clear` sets every byte of the arrays to zero. -/

namespace Digestpp.Cpp.Clear
attribute [local irreducible] eval exec block

variable {N : Nat} {ext : Nat → Val → Val → Env → Option Env}

theorem digits_zero : ∀ n, digits n 0 = List.replicate n 0
  | 0 => rfl
  | n + 1 => by
    show BitVec.ofNat 8 0 :: digits n 0 = _
    rw [digits_zero n]
    rfl

theorem number_zero : ∀ n, number (List.replicate n 0) = 0
  | 0 => rfl
  | n + 1 => by
    show (0 : BitVec 8).toNat + 256 * number (List.replicate n 0) = 0
    rw [number_zero n]
    rfl

theorem words_zero (w : Nat) : ∀ n, words w n (List.replicate (w / 8 * n) 0) = List.replicate n 0
  | 0 => rfl
  | n + 1 => by
    show BitVec.ofNat w (number ((List.replicate (w / 8 * (n + 1)) 0).take (w / 8))) :: words w n ((List.replicate (w / 8 * (n + 1)) 0).drop (w / 8)) = _
    rw [List.take_replicate, List.drop_replicate, number_zero, show w / 8 * (n + 1) - w / 8 = w / 8 * n by rw [Nat.mul_succ]; omega, words_zero w n]
    rfl

theorem flat_length {w : Nat} (k : Nat) : ∀ xs : List (BitVec w), (xs.flatMap fun x => digits k x.toNat).length = k * xs.length
  | [] => rfl
  | x :: xs => by
    have hd : ∀ k x, (digits k x).length = k := by
      intro k
      induction k with
      | zero => intro _; rfl
      | succ k ih => intro x; show (digits k (x / 256)).length + 1 = _; rw [ih]
    rw [List.flatMap_cons, List.length_append, flat_length k xs, hd, List.length_cons, Nat.mul_succ, Nat.add_comm]

theorem flat_zero {w : Nat} (k : Nat) : ∀ n, ((List.replicate n (0 : BitVec w)).flatMap fun x => digits k x.toNat) = List.replicate (k * n) 0
  | 0 => rfl
  | n + 1 => by
    rw [List.replicate_succ, List.flatMap_cons, flat_zero k n, show (0 : BitVec w).toNat = 0 by simp, digits_zero, List.replicate_append_replicate, Nat.mul_succ, Nat.add_comm]

/-- The array with zeros in its memory. -/
theorem refill_zero (xs : Arr) : (xs.refill (List.replicate xs.bytes.length 0)).bytes = List.replicate xs.bytes.length 0 ∧ (xs.refill (List.replicate xs.bytes.length 0)).size = xs.size := by
  cases xs with
  | a8 xs => exact ⟨rfl, rfl⟩
  | a32 xs =>
    refine ⟨?_, rfl⟩
    show ((words 32 xs.length (List.replicate (xs.flatMap fun x => digits 4 x.toNat).length 0)).flatMap fun x => digits 4 x.toNat) = List.replicate (xs.flatMap fun x => digits 4 x.toNat).length 0
    rw [flat_length, words_zero 32, flat_zero]
  | a64 xs =>
    refine ⟨?_, rfl⟩
    show ((words 64 xs.length (List.replicate (xs.flatMap fun x => digits 8 x.toNat).length 0)).flatMap fun x => digits 8 x.toNat) = List.replicate (xs.flatMap fun x => digits 8 x.toNat).length 0
    rw [flat_length, words_zero 64, flat_zero]

theorem patch_zero (xs : Arr) : xs.patch 0 (List.replicate xs.bytes.length 0) = some (xs.refill (List.replicate xs.bytes.length 0)) := by
  unfold Arr.patch
  rw [List.length_replicate, if_pos (by omega), List.take_zero, List.nil_append, List.drop_of_length_le (by omega), List.append_nil]

theorem get_zero {xs : Arr} (h : 0 < xs.bytes.length) : ∃ v, xs.get 0 = some v := by
  cases xs with
  | a8 xs => exact ⟨_, get8 h⟩
  | a32 xs =>
    refine ⟨_, get32 ?_⟩
    have h' : 0 < (xs.flatMap fun x => digits 4 x.toNat).length := h
    rw [flat_length] at h'
    omega
  | a64 xs =>
    refine ⟨_, get64 ?_⟩
    have h' : 0 < (xs.flatMap fun x => digits 8 x.toNat).length := h
    rw [flat_length] at h'
    omega

/-- `zero_memory` of array `p.1` with `p.2` bytes, functions.hpp 85-97. -/
def wipe (p : Nat × Nat) : Stmt := .memset (.addr p.1 (.lit (.i32 0))) (.lit (.i32 0)) (.lit (.u64 (BitVec.ofNat 64 p.2)))

theorem wipe_run {a n : Nat} {vs : List Val} {A : List Arr} {xs : Arr} (ha : A[a]? = some xs) (hl : xs.bytes.length = n) (h0 : 0 < n) (hn : n < 2 ^ 64) :
    exec N ext (wipe (a, n)) ⟨vs, A⟩ = some ⟨vs, A.set a (xs.refill (List.replicate xs.bytes.length 0))⟩ := by
  subst hl
  obtain ⟨v, hv⟩ := get_zero h0
  exact st_memset (a := a) (o := xs.size * 0) (z := xs.size) (ev_addr ha ev_lit (n := 0) rfl hv) ev_lit ev_lit (count_u64 hn) (x := 0) rfl ha (by rw [Nat.mul_zero]; exact patch_zero xs) rfl

theorem run_all (vs : List Val) : ∀ (L : List (Nat × Nat)) (A : List Arr), (∀ p ∈ L, ∃ xs, A[p.1]? = some xs ∧ xs.bytes.length = p.2 ∧ 0 < p.2 ∧ p.2 < 2 ^ 64) →
    ∃ A', exec N ext (block (L.map wipe)) ⟨vs, A⟩ = some ⟨vs, A'⟩ ∧ (∀ i : Nat, A'[i]?.map Arr.size = A[i]?.map Arr.size) ∧
      ∀ i : Nat, A'[i]?.map Arr.bytes = A[i]?.map fun x => if i ∈ L.map Prod.fst then List.replicate x.bytes.length 0 else x.bytes
  | [], A, _ => by
    refine ⟨A, ?_, fun i => rfl, fun i => ?_⟩
    · show exec N ext (block []) _ = _
      unfold block exec
      rfl
    · rw [List.map_nil]
      simp only [List.not_mem_nil, if_false]
  | (a, n) :: L, A, h => by
    obtain ⟨xs, ha, hl, h0, hn⟩ := h (a, n) (List.mem_cons_self ..)
    obtain ⟨hz, hs⟩ := refill_zero xs
    obtain ⟨ys, hy⟩ : ∃ ys, ys = xs.refill (List.replicate xs.bytes.length 0) := ⟨_, rfl⟩
    have r := wipe_run (N := N) (ext := ext) (vs := vs) ha hl h0 hn
    rw [← hy] at hz hs r
    have hlt : a < A.length := (List.getElem?_eq_some_iff.1 ha).1
    have key : ∀ i : Nat, (i = a ∧ (A.set a ys)[i]? = some ys ∧ A[i]? = some xs) ∨ (i ≠ a ∧ (A.set a ys)[i]? = A[i]?) := by
      intro i
      by_cases e : i = a
      · subst e
        exact .inl ⟨rfl, by rw [List.getElem?_set_self hlt], ha⟩
      · exact .inr ⟨e, List.getElem?_set_ne (Ne.symm e)⟩
    obtain ⟨A', e, s, b⟩ := run_all vs L (A.set a ys) (by
      intro p hp
      obtain ⟨zs, c1, c2, c3⟩ := h p (List.mem_cons_of_mem _ hp)
      obtain ⟨k1, k2, k3⟩ | ⟨k1, k2⟩ := key p.1
      · refine ⟨ys, k2, ?_, c3⟩
        rw [k3] at c1
        rw [hz, List.length_replicate, Option.some.inj c1, c2]
      · exact ⟨zs, k2.trans c1, c2, c3⟩)
    refine ⟨A', ?_, fun i => ?_, fun i => ?_⟩
    · cases L with
      | nil =>
        have e' : exec N ext (block []) ⟨vs, A.set a ys⟩ = some ⟨vs, A'⟩ := e
        unfold block exec at e'
        rw [← Option.some.inj e']
        exact st_one r
      | cons q L => exact st_cons r e
    · rw [s i]
      obtain ⟨k1, k2, k3⟩ | ⟨k1, k2⟩ := key i
      · rw [k2, k3, Option.map_some, Option.map_some, hs]
      · rw [k2]
    · rw [b i]
      obtain ⟨k1, k2, k3⟩ | ⟨k1, k2⟩ := key i
      · rw [k2, k3, Option.map_some, Option.map_some, hz, List.length_replicate, if_pos (show i ∈ List.map Prod.fst ((a, n) :: L) from k1 ▸ List.mem_cons_self ..)]
        split <;> rfl
      · rw [k2]
        have m : (i ∈ List.map Prod.fst ((a, n) :: L)) = (i ∈ L.map Prod.fst) := by
          rw [List.map_cons, List.mem_cons]
          exact propext ⟨fun h => h.resolve_left k1, .inr⟩
        simp only [m]

/-- All arrays named: nothing of any of them is left. -/
theorem clear_all {sizes : List Nat} (L : List (Nat × Nat)) (h1 : ∀ p ∈ L, sizes[p.1]? = some p.2 ∧ 0 < p.2 ∧ p.2 < 2 ^ 64) (h2 : ∀ i < sizes.length, i ∈ L.map Prod.fst)
    (vs : List Val) {A : List Arr} (hA : A.map (fun x => x.bytes.length) = sizes) :
    ∃ A', exec N ext (block (L.map wipe)) ⟨vs, A⟩ = some ⟨vs, A'⟩ ∧ A'.map Arr.size = A.map Arr.size ∧ A'.map Arr.bytes = sizes.map fun n => List.replicate n 0 := by
  subst hA
  obtain ⟨A', e, s, b⟩ := run_all (N := N) (ext := ext) vs L A (by
    intro p hp
    obtain ⟨c1, c2⟩ := h1 p hp
    rw [List.getElem?_map] at c1
    obtain ⟨xs, d1, d2⟩ := Option.map_eq_some_iff.1 c1
    exact ⟨xs, d1, d2, c2⟩)
  refine ⟨A', e, List.ext_getElem? fun i => ?_, List.ext_getElem? fun i => ?_⟩
  · rw [List.getElem?_map, List.getElem?_map, s i]
  · rw [List.getElem?_map, b i, List.getElem?_map, List.getElem?_map, Option.map_map]
    by_cases hi : i < A.length
    · rw [List.getElem?_eq_getElem hi, Option.map_some, Option.map_some, if_pos (h2 i (by rw [List.length_map]; exact hi))]
      rfl
    · rw [List.getElem?_eq_none (by omega)]
      rfl

/-- An array with zeros in its memory. -/
def zero (xs : Arr) : Arr := xs.refill (List.replicate xs.bytes.length 0)

theorem zero_bytes (xs : Arr) : (zero xs).bytes = List.replicate xs.bytes.length 0 := (refill_zero xs).1

theorem zero_size (xs : Arr) : (zero xs).size = xs.size := (refill_zero xs).2

theorem st_wipe {a n : Nat} {vs : List Val} {A A' : List Arr} {xs : Arr} (ha : A[a]? = some xs) (hl : xs.bytes.length = n) (h0 : 0 < n) (hn : n < 2 ^ 64) (hA : A.set a (zero xs) = A') :
    exec N ext (wipe (a, n)) ⟨vs, A⟩ = some ⟨vs, A'⟩ := hA ▸ wipe_run ha hl h0 hn

/-- `zero_memory` of a string, functions.hpp 99-104: variable `k` is its length, array `a` its characters. -/
def wipeString (k a : Nat) : Stmt := .ite (.bin .ne (.var k) (.lit (.i32 0))) (.memset (.addr a (.lit (.i32 0))) (.lit (.i32 0)) (.var k)) .skip

/-- The length of a string. -/
def len (s : Bytes) : Val := .u64 (BitVec.ofNat 64 s.length)

theorem st_string {k a : Nat} {vs : List Val} {A A' : List Arr} {s : Bytes} (hk : vs[k]? = some (len s)) (ha : A[a]? = some (.a8 s)) (hs : s.length < 2 ^ 64)
    (hA : A.set a (zero (.a8 s)) = A') : exec N ext (wipeString k a) ⟨vs, A⟩ = some ⟨vs, A'⟩ := by
  have hv : ∀ as, eval ⟨vs, A⟩ (.var k) as = some [len s] := fun as => ev_var hk rfl
  have hc : eval ⟨vs, A⟩ (.bin .ne (.var k) (.lit (.i32 0))) [] = some [.bool (BitVec.ofNat 64 s.length != 0)] := ev_bin (hv _) ev_lit rfl
  refine st_ite hc rfl ?_
  by_cases h0 : s.length = 0
  · obtain rfl := List.eq_nil_of_length_eq_zero h0
    show exec N ext .skip _ = _
    unfold exec
    rw [← hA]
    congr 2
    refine (List.ext_getElem? fun i => ?_)
    by_cases e : a = i
    · subst e
      rw [List.getElem?_set_self (List.getElem?_eq_some_iff.1 ha).1, ha]
      rfl
    · rw [List.getElem?_set_ne e]
  · have hb : (BitVec.ofNat 64 s.length != 0) = true := by
      rw [bne_iff_ne]
      intro h
      have := congrArg BitVec.toNat h
      rw [BitVec.toNat_ofNat, Nat.mod_eq_of_lt hs] at this
      exact h0 this
    rw [hb]
    exact st_memset (a := a) (o := 1 * 0) (z := 1) (ev_addr ha ev_lit (n := 0) rfl (get8 (by omega))) ev_lit (hv _) (count_u64 hs) (x := 0) rfl ha (patch_zero (.a8 s)) hA

theorem two {α : Type} {f : α → Nat} {A : List α} {a b : Nat} (h : A.map f = [a, b]) : ∃ x y, A = [x, y] ∧ f x = a ∧ f y = b := by
  match A, h with
  | [x, y], h =>
    rw [List.map_cons, List.map_cons, List.map_nil] at h
    injection h with h1 h
    injection h with h2 h
    exact ⟨x, y, rfl, h1, h2⟩

theorem four {α : Type} {f : α → Nat} {A : List α} {a b c d : Nat} (h : A.map f = [a, b, c, d]) : ∃ x y z u, A = [x, y, z, u] ∧ f x = a ∧ f y = b ∧ f z = c ∧ f u = d := by
  match A, h with
  | [x, y, z, u], h =>
    rw [List.map_cons, List.map_cons, List.map_cons, List.map_cons, List.map_nil] at h
    injection h with h1 h
    injection h with h2 h
    injection h with h3 h
    injection h with h4 h
    exact ⟨x, y, z, u, rfl, h1, h2, h3, h4⟩

theorem shake_run {x y : Arr} {s t : Bytes} (hx : x.bytes.length = 200) (hy : y.bytes.length = 168) (hs : s.length < 2 ^ 64) (ht : t.length < 2 ^ 64) :
    exec N ext Src.Clear.shake ⟨[len s, len t], [x, y, .a8 s, .a8 t]⟩ = some ⟨[.u64 0, .u64 0], [zero x, zero y, zero (.a8 s), zero (.a8 t)]⟩ := by
  show exec N ext (block [wipe (0, 200), wipe (1, 168), wipeString 0 2, wipeString 1 3, .set 0 (.lit (.i32 0)), .set 1 (.lit (.i32 0))]) _ = _
  refine st_cons (st_wipe rfl hx (by decide) (by decide) rfl) ?_
  refine st_cons (st_wipe rfl hy (by decide) (by decide) rfl) ?_
  refine st_cons (st_string rfl rfl hs rfl) ?_
  refine st_cons (st_string rfl rfl ht rfl) ?_
  refine st_cons (st_set (v' := .u64 0) ev_lit rfl rfl rfl) ?_
  exact st_one (st_set (v' := .u64 0) ev_lit rfl rfl rfl)

/-- The text of `clear` of BLAKE2 with arrays of `a`, `b`, `b` and `c` bytes. -/
theorem blake2_run {a b c : Nat} (ha : 0 < a ∧ a < 2 ^ 64) (hb : 0 < b ∧ b < 2 ^ 64) (hc : 0 < c ∧ c < 2 ^ 64) {x y z u : Arr} {s : Bytes} {f g h : BitVec 8}
    (hx : x.bytes.length = a) (hy : y.bytes.length = b) (hz : z.bytes.length = b) (hu : u.bytes.length = c) (hs : s.length < 2 ^ 64) :
    exec N ext (block [wipe (0, a), wipe (3, c), wipe (1, b), wipe (2, b), wipeString 0 4, .set 0 (.lit (.i32 0)), .set 1 (.lit (.i32 0)), .set 2 (.lit (.i32 0)), .set 3 (.lit (.i32 0))])
      ⟨[len s, .u8 f, .u8 g, .u8 h], [x, y, z, u, .a8 s]⟩ = some ⟨[.u64 0, .u8 0, .u8 0, .u8 0], [zero x, zero y, zero z, zero u, zero (.a8 s)]⟩ := by
  refine st_cons (st_wipe rfl hx ha.1 ha.2 rfl) ?_
  refine st_cons (st_wipe rfl hu hc.1 hc.2 rfl) ?_
  refine st_cons (st_wipe rfl hy hb.1 hb.2 rfl) ?_
  refine st_cons (st_wipe rfl hz hb.1 hb.2 rfl) ?_
  refine st_cons (st_string rfl rfl hs rfl) ?_
  refine st_cons (st_set (v' := .u64 0) ev_lit rfl rfl rfl) ?_
  refine st_cons (st_set (v' := .u8 0) ev_lit rfl rfl rfl) ?_
  refine st_cons (st_set (v' := .u8 0) ev_lit rfl rfl rfl) ?_
  exact st_one (st_set (v' := .u8 0) ev_lit rfl rfl rfl)

/-- The text of `clear` of Skein with arrays of `a`, `a`, `a` and 16 bytes. -/
theorem skein_run {a : Nat} (ha : 0 < a ∧ a < 2 ^ 64) {x y z u : Arr} {s t r : Bytes}
    (hx : x.bytes.length = a) (hy : y.bytes.length = a) (hz : z.bytes.length = a) (hu : u.bytes.length = 16) (hs : s.length < 2 ^ 64) (ht : t.length < 2 ^ 64) (hr : r.length < 2 ^ 64) :
    exec N ext (block [wipe (0, a), wipe (1, a), wipe (2, a), wipe (3, 16), wipeString 0 4, wipeString 1 5, wipeString 2 6, .set 0 (.lit (.i32 0)), .set 1 (.lit (.i32 0)), .set 2 (.lit (.i32 0))])
      ⟨[len s, len t, len r], [x, y, z, u, .a8 s, .a8 t, .a8 r]⟩ =
      some ⟨[.u64 0, .u64 0, .u64 0], [zero x, zero y, zero z, zero u, zero (.a8 s), zero (.a8 t), zero (.a8 r)]⟩ := by
  refine st_cons (st_wipe rfl hx ha.1 ha.2 rfl) ?_
  refine st_cons (st_wipe rfl hy ha.1 ha.2 rfl) ?_
  refine st_cons (st_wipe rfl hz ha.1 ha.2 rfl) ?_
  refine st_cons (st_wipe rfl hu (by decide) (by decide) rfl) ?_
  refine st_cons (st_string rfl rfl hs rfl) ?_
  refine st_cons (st_string rfl rfl ht rfl) ?_
  refine st_cons (st_string rfl rfl hr rfl) ?_
  refine st_cons (st_set (v' := .u64 0) ev_lit rfl rfl rfl) ?_
  refine st_cons (st_set (v' := .u64 0) ev_lit rfl rfl rfl) ?_
  exact st_one (st_set (v' := .u64 0) ev_lit rfl rfl rfl)

theorem zeros (A : List Arr) : (A.map zero).map Arr.size = A.map Arr.size ∧ (A.map zero).map Arr.bytes = A.map fun x => List.replicate x.bytes.length 0 := by
  rw [List.map_map, List.map_map]
  exact ⟨List.map_congr_left fun x _ => zero_size x, List.map_congr_left fun x _ => zero_bytes x⟩

end Digestpp.Cpp.Clear
