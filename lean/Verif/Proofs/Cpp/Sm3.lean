import Verif.Cpp.Program

/-! The text of SM3 has no meaning: in the first round of every block, `rotate_left(0x79cc4519U, t)` shifts a 32-bit word by 32 bits. -/

namespace Digestpp.Cpp.Sm3
open Digestpp.Cpp.Src Digestpp.Cpp.Src.Sm3 Digestpp.Cpp.Src.Absorb

/-- How many variables a statement leaves behind, if that does not depend on the run. -/
def made : Stmt → Option Nat
  | .skip => some 0
  | .seq s t => match made s, made t with
    | some a, some b => some (a + b)
    | _, _ => none
  | .decl _ _ => some 1
  | .declare _ => some 1
  | .declp _ => some 1
  | .set _ _ => some 0
  | .store _ _ _ => some 0
  | .while _ s => if made s = some 0 then some 0 else none
  | .scope s => (made s).map fun _ => 0
  | _ => none

theorem iterate_length {c : Env → Option Bool} {f : Env → Option Env} (hf : ∀ E E', f E = some E' → E'.vars.length = E.vars.length) :
    ∀ N E E', iterate c f N E = some E' → E'.vars.length = E.vars.length
  | 0, E, E', h => by simp [iterate] at h
  | N + 1, E, E', h => by
    rw [iterate] at h
    split at h
    · cases e : f E with
      | none => rw [e] at h; cases h
      | some E1 =>
        rw [e] at h
        rw [iterate_length hf N E1 E' h, hf E E1 e]
    · cases h; rfl
    · cases h

theorem made_length {N : Nat} {ext : Nat → Val → Val → Env → Option Env} :
    ∀ (s : Stmt) (k : Nat), made s = some k → ∀ E E', exec N ext s E = some E' → E'.vars.length = E.vars.length + k := by
  intro s
  induction s with
  | skip => intro k hk E E' h; cases hk; cases h; rfl
  | seq s t hs ht =>
    intro k hk E E' h
    rw [made] at hk
    split at hk
    · rename_i a b ea eb
      cases hk
      rw [exec] at h
      cases e : exec N ext s E with
      | none => rw [e] at h; cases h
      | some E1 =>
        rw [e] at h
        rw [ht b eb E1 E' h, hs a ea E E1 e, Nat.add_assoc]
    · cases hk
  | decl t e =>
    intro k hk E E' h; cases hk
    simp only [exec, Option.bind_eq_some_iff] at h
    obtain ⟨v, _, w, _, h⟩ := h
    cases h; simp
  | declare t => intro k hk E E' h; cases hk; cases h; simp
  | declp e =>
    intro k hk E E' h; cases hk
    simp only [exec, Option.bind_eq_some_iff] at h
    obtain ⟨v, _, h⟩ := h
    cases h; simp
  | set i e =>
    intro k hk E E' h; cases hk
    simp only [exec, Option.bind_eq_some_iff] at h
    obtain ⟨v, _, w, _, x, _, h⟩ := h
    cases h; simp
  | store a i e =>
    intro k hk E E' h; cases hk
    simp only [exec, Option.bind_eq_some_iff] at h
    obtain ⟨_, _, _, _, _, _, _, _, _, _, h⟩ := h
    cases h; rfl
  | «while» c s hs =>
    intro k hk E E' h
    rw [made] at hk
    split at hk
    · rename_i e; cases hk
      exact iterate_length (fun E E' h => hs 0 e E E' h) N E E' h
    · cases hk
  | scope s hs =>
    intro k hk E E' h
    rw [made] at hk
    cases e : made s with
    | none => rw [e] at hk; cases hk
    | some a =>
      rw [e] at hk; cases hk
      simp only [exec, Option.bind_eq_some_iff] at h
      obtain ⟨E1, h1, h⟩ := h
      cases h
      have := hs a e E E1 h1
      simp; omega
  | ite => intro k hk; cases hk
  | storep => intro k hk; cases hk
  | memcpy => intro k hk; cases hk
  | memcpyv => intro k hk; cases hk
  | memset => intro k hk; cases hk
  | call => intro k hk; cases hk

theorem seq_none {N : Nat} {ext : Nat → Val → Val → Env → Option Env} {s t : Stmt} {n k : Nat} (hk : made s = some k)
    (ht : ∀ E : Env, E.vars.length = n + k → exec N ext t E = none) : ∀ E : Env, E.vars.length = n → exec N ext (.seq s t) E = none := by
  intro E hE
  rw [exec]
  cases e : exec N ext s E with
  | none => rfl
  | some E1 => exact ht E1 (by rw [made_length s k hk E E1 e, hE])

theorem then_none {N : Nat} {ext : Nat → Val → Val → Env → Option Env} {s t : Stmt}
    (ht : ∀ E : Env, exec N ext t E = none) : ∀ E : Env, exec N ext (.seq s t) E = none := by
  intro E
  rw [exec]
  cases e : exec N ext s E with
  | none => rfl
  | some E1 => exact ht E1

theorem first_none {N : Nat} {ext : Nat → Val → Val → Env → Option Env} {s t : Stmt} {E : Env}
    (hs : exec N ext s E = none) : exec N ext (.seq s t) E = none := by
  rw [exec, hs]; rfl

theorem scope_none {N : Nat} {ext : Nat → Val → Val → Env → Option Env} {s : Stmt} {E : Env}
    (hs : exec N ext s E = none) : exec N ext (.scope s) E = none := by
  rw [exec, hs]; rfl

theorem bin_none {E : Env} {o : Bin} {x y : Expr} {as : List Val} (h : eval E y as = none) : eval E (.bin o x y) as = none := by
  rw [eval, h]; cases eval E x as with
  | none => rfl
  | some l => rcases l with _ | ⟨v, _ | _⟩ <;> rfl

theorem push_none {E : Env} {x r : Expr} {as : List Val} (h : eval E x as = none) : eval E (.push x r) as = none := by
  rw [eval, h]

theorem ret_none {E : Env} {b a : Expr} {as : List Val} (h : eval E a as = none) : eval E (.ret b a) as = none := by
  rw [eval, h]

/-- sm3_provider.hpp 137: a rotation by no bits. -/
theorem rotate_none {E : Env} (w : BitVec 32) (h : E.vars[11]? = some (.i32 0)) :
    eval E (.ret rotate_left (.push (.lit (.u32 w)) (.push (.cast .u32 (.var 11)) .nil))) [] = none := by
  simp [eval, h, conv, rotate_left, rotate_left32, binary, usual, promote, unsigned, count, shiftLeft, shiftRight]

theorem step_none {N : Nat} {ext : Nat → Val → Val → Env → Option Env} : ∀ E : Env, E.vars.length = 11 → exec N ext for135 E = none := by
  intro E hE
  rw [for135, for']
  apply scope_none
  rw [exec]
  have e : exec N ext (.decl .i32 (.lit (.i32 0))) E = some { E with vars := E.vars ++ [.i32 0] } := rfl
  rw [e, Option.bind_some, exec]
  have hv : (E.vars ++ [Val.i32 0])[11]? = some (.i32 0) := by
    rw [List.getElem?_append_right (by omega), hE]; rfl
  cases N with
  | zero => rfl
  | succ N =>
    rw [iterate]
    have ht : test { E with vars := E.vars ++ [Val.i32 0] } (.bin .le (.var 11) (.lit (.i32 15))) = some true := by
      simp [test, value, eval, hE, binary, usual, promote, signed, truth, conv]
    rw [ht]
    show Option.bind (exec _ _ (.seq (.scope (block (_ :: _ :: _))) _) _) _ = none
    rw [first_none]; · rfl
    apply scope_none
    apply first_none
    rw [exec, value, ret_none]; · rfl
    apply push_none
    apply bin_none
    exact rotate_none _ hv

theorem block_none {N : Nat} {ext : Nat → Val → Val → Env → Option Env} (x : Val) (A : List Arr) :
    exec N ext transform ⟨[x, .u64 1], A⟩ = none := by
  rw [transform]
  show exec N ext for111 _ = none
  rw [for111, for']
  apply scope_none
  rw [exec]
  have e : exec N ext (.decl .u64 (.lit (.i32 0))) ⟨[x, .u64 1], A⟩ = some ⟨[x, .u64 1, .u64 0], A⟩ := rfl
  rw [e, Option.bind_some, exec]
  cases N with
  | zero => rfl
  | succ N =>
    rw [iterate]
    have ht : test ⟨[x, .u64 1, .u64 0], A⟩ (.bin .lt (.var 2) (.var 1)) = some true := by
      simp [test, value, eval, binary, usual, promote, unsigned, truth, conv]
    rw [ht]
    show Option.bind (exec _ _ (.seq (.scope (block (_ :: _ :: _))) _) _) _ = none
    rw [first_none]; · rfl
    apply scope_none
    refine seq_none (n := 3) (k := 0) (by decide) ?_ _ rfl
    refine seq_none (k := 0) (by decide) ?_
    refine seq_none (k := 0) (by decide) ?_
    refine seq_none (k := 0) (by decide) ?_
    refine seq_none (k := 1) (by decide) ?_
    refine seq_none (k := 1) (by decide) ?_
    refine seq_none (k := 1) (by decide) ?_
    refine seq_none (k := 1) (by decide) ?_
    refine seq_none (k := 1) (by decide) ?_
    refine seq_none (k := 1) (by decide) ?_
    refine seq_none (k := 1) (by decide) ?_
    refine seq_none (k := 1) (by decide) ?_
    exact fun E hE => first_none (step_none E hE)

theorem call_none {N : Nat} : ∀ E : Env, exec N (invoke N transform) (.call 0 (.addr 1 (.lit (.i32 0))) (.lit (.i32 1))) E = none := by
  intro E
  rw [exec]
  cases value E (.addr 1 (.lit (.i32 0))) with
  | none => rfl
  | some x =>
    show invoke N transform 0 x (.i32 1) E = none
    have e : conv .u64 (.i32 1) = some (.u64 1) := rfl
    rw [invoke, e, Option.bind_some, block_none]
    rfl

theorem final_none {N : Nat} : ∀ E : Env, exec N (invoke N transform) final E = none := by
  rw [final]
  refine then_none (then_none (then_none (then_none (then_none (then_none (then_none ?_))))))
  exact fun E => first_none (call_none E)

theorem hash_none (N : Nat) (parts : List (List (BitVec 8))) (out : List (BitVec 8)) (o : Object) : sm3.hash N parts out o = none := by
  have h : ∀ o, sm3.runFinal N o out = none := by
    intro o
    show (match exec N (invoke N transform) final _ with
      | some ⟨_, .a8 b :: _⟩ => some b
      | _ => none) = none
    rw [final_none]
  rw [Class.hash]
  cases sm3.runInit N o with
  | none => rfl
  | some o =>
    rw [Option.bind_some, Class.absorb]
    cases parts.foldlM (sm3.runUpdate N) o with
    | none => rfl
    | some o => exact h o

end Digestpp.Cpp.Sm3
