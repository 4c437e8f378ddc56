import Verif.Cpp.Semantics

/-! C71: what has no meaning in the interpreter. -/

namespace Digestpp.Cpp

theorem digits_length (n x : Nat) : (digits n x).length = n := by
  induction n generalizing x with
  | zero => rfl
  | succ n ih => rw [digits, List.length_cons, ih]

theorem flat_length {α : Type} {n : Nat} (f : α → List (BitVec 8)) (hf : ∀ x, (f x).length = n) (xs : List α) : (xs.flatMap f).length = xs.length * n := by
  induction xs with
  | nil => rw [List.flatMap_nil, List.length_nil, List.length_nil, Nat.zero_mul]
  | cons x xs ih => rw [List.flatMap_cons, List.length_append, ih, hf, List.length_cons, Nat.succ_mul, Nat.add_comm]

theorem bytes_length8 (xs : List (BitVec 8)) : (Arr.a8 xs).bytes.length = xs.length := rfl
theorem bytes_length32 (xs : List (BitVec 32)) : (Arr.a32 xs).bytes.length = xs.length * 4 := flat_length _ (fun _ => digits_length ..) xs
theorem bytes_length64 (xs : List (BitVec 64)) : (Arr.a64 xs).bytes.length = xs.length * 8 := flat_length _ (fun _ => digits_length ..) xs

theorem some_below {α : Type} {f : α → Val} {xs : List α} {i : Nat} {v : Val} (h : xs[i]?.map f = some v) : i < xs.length := by
  obtain ⟨x, hx, _⟩ := Option.map_eq_some_iff.1 h
  exact (List.getElem?_eq_some_iff.1 hx).1

theorem load_inside {xs : Arr} {size off : Nat} {v : Val} (h : load xs size off = some v) : off + size ≤ xs.bytes.length := by
  unfold load at h
  split at h
  · exact some_below h
  · split at h
    · assumption
    · cases h
  · split at h
    · assumption
    · cases h
  · split at h
    · have := some_below h
      rw [bytes_length32]
      omega
    · cases h
  · split at h
    · have := some_below h
      rw [bytes_length64]
      omega
    · cases h
  · cases h

theorem get_inside {xs : Arr} {i : Nat} {v : Val} (h : xs.get i = some v) : i * xs.size < xs.bytes.length := by
  unfold Arr.get at h
  split at h
  · have := some_below h
    rw [bytes_length8]
    simp only [Arr.size]
    omega
  · have := some_below h
    rw [bytes_length32]
    simp only [Arr.size]
    omega
  · have := some_below h
    rw [bytes_length64]
    simp only [Arr.size]
    omega

theorem put_inside {xs ys : Arr} {i : Nat} {v : Val} (h : xs.put i v = some ys) : i * xs.size < xs.bytes.length := by
  unfold Arr.put at h
  split at h <;> split at h
  · split at h
    · rw [bytes_length8]
      simp only [Arr.size]
      omega
    · cases h
  · cases h
  · split at h
    · rw [bytes_length32]
      simp only [Arr.size]
      omega
    · cases h
  · cases h
  · split at h
    · rw [bytes_length64]
      simp only [Arr.size]
      omega
    · cases h
  · cases h

theorem part_inside {xs : Arr} {off n : Nat} {bs : List (BitVec 8)} (h : xs.part off n = some bs) : off + n ≤ xs.bytes.length := by
  unfold Arr.part at h
  split at h
  · assumption
  · cases h

theorem patch_inside {xs ys : Arr} {off : Nat} {bs : List (BitVec 8)} (h : xs.patch off bs = some ys) : off + bs.length ≤ xs.bytes.length := by
  unfold Arr.patch at h
  split at h
  · assumption
  · cases h

theorem ite_inv {c : Prop} [Decidable c] {x : Option Val} {v : Val} (h : (if c then x else none) = some v) : c := by
  split at h
  · assumption
  · cases h

theorem shift_meaning {n : Nat} {v : Val} :
    (∀ x, shiftLeft (.u32 x) n = some v ∨ shiftRight (.u32 x) n = some v → n < 32) ∧ (∀ x, shiftLeft (.u64 x) n = some v ∨ shiftRight (.u64 x) n = some v → n < 64) ∧
    (∀ x, shiftLeft (.i32 x) n = some v ∨ shiftRight (.i32 x) n = some v → n < 32 ∧ 0 ≤ x) := by
  refine ⟨fun x h => ?_, fun x h => ?_, fun x h => ?_⟩ <;> rcases h with h | h <;> exact ite_inv h

theorem chk_inv {x : Int} {v : Val} (h : chk x = some v) : -2 ^ 31 ≤ x ∧ x < 2 ^ 31 := ite_inv h

theorem int_meaning {o : Bin} {x y : Int} {r : Val} (h : usual o (.i32 x) (.i32 y) = some r) :
    (o = .add → -2 ^ 31 ≤ x + y ∧ x + y < 2 ^ 31) ∧ (o = .sub → -2 ^ 31 ≤ x - y ∧ x - y < 2 ^ 31) ∧ (o = .mul → -2 ^ 31 ≤ x * y ∧ x * y < 2 ^ 31) ∧ (o = .div ∨ o = .mod → y ≠ 0) := by
  refine ⟨?_, ?_, ?_, ?_⟩
  · rintro rfl
    exact chk_inv h
  · rintro rfl
    exact chk_inv h
  · rintro rfl
    exact chk_inv h
  · rintro (rfl | rfl) rfl
    · cases h
    · cases h

theorem word_meaning (x y : BitVec 32) (v w : BitVec 64) : usual .add (.u32 x) (.u32 y) = some (.u32 (BitVec.ofNat 32 (x.toNat + y.toNat))) ∧
    usual .add (.u64 v) (.u32 y) = some (.u64 (BitVec.ofNat 64 (v.toNat + y.toNat))) ∧ usual .mul (.u64 v) (.u64 w) = some (.u64 (BitVec.ofNat 64 (v.toNat * w.toNat))) ∧
    usual .div (.u64 v) (.u64 0) = none ∧ usual .mod (.u32 x) (.u32 0) = none := by
  refine ⟨?_, ?_, ?_, rfl, rfl⟩
  · refine congrArg (fun a => some (Val.u32 a)) (BitVec.eq_of_toNat_eq ?_)
    rw [BitVec.toNat_add, BitVec.toNat_ofNat]
  · refine congrArg (fun a => some (Val.u64 a)) (BitVec.eq_of_toNat_eq ?_)
    rw [BitVec.toNat_add, BitVec.toNat_ofNat, BitVec.toNat_setWidth]
    omega
  · refine congrArg (fun a => some (Val.u64 a)) (BitVec.eq_of_toNat_eq ?_)
    rw [BitVec.toNat_mul, BitVec.toNat_ofNat]

theorem read_meaning {E : Env} {k : Nat} {t : Ty} (h : E.vars[k]? = some (.undef t)) (as : List Val) : eval E (.var k) as = none := by
  rw [eval, h]

theorem memcpy_meaning {N : Nat} {ext : Nat → Val → Val → Env → Option Env} {d s n : Expr} {E E' : Env} {a o z p z' k : Nat} {nv : Val} (hd : value E d = some (.ptr a o z))
    (hs : value E s = some (.ptr a p z')) (hn : value E n = some nv) (hk : count nv = some k) (h : exec N ext (.memcpy d s n) E = some E') : o + k ≤ p ∨ p + k ≤ o := by
  rw [exec, hd, hs, hn] at h
  dsimp only at h
  rw [hk] at h
  obtain ⟨_, e, h⟩ := Option.bind_eq_some_iff.1 h
  obtain rfl := Option.some.inj e
  obtain ⟨xs, _, h⟩ := Option.bind_eq_some_iff.1 h
  obtain ⟨ys, _, h⟩ := Option.bind_eq_some_iff.1 h
  split at h
  · cases h
  · omega

end Digestpp.Cpp
