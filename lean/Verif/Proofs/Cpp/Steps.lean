import Verif.Cpp.Src.Functions
import Verif.Proofs.Arrays

/-! C71: running programs of Verif/Cpp one step at a time. -/

namespace Digestpp.Cpp
open Src

section
variable {E : Env} {as : List Val}

theorem ev_lit {v : Val} : eval E (.lit v) as = some [v] := rfl

/-- The values other than `undef`. -/
def Val.defined : Val → Bool
  | .undef _ => false
  | _ => true

theorem ev_var {k : Nat} {v : Val} (h : E.vars[k]? = some v) (hv : v.defined = true) : eval E (.var k) as = some [v] := by
  unfold eval
  rw [h]
  cases v <;> first | rfl | cases hv

theorem ev_arg {k : Nat} {v : Val} (h : as[k]? = some v) : eval E (.arg k) as = some [v] := by
  unfold eval
  rw [h]
  rfl

theorem ev_idx {a : Nat} {i : Expr} {xs : Arr} {iv v : Val} {n : Nat} (ha : E.arrs[a]? = some xs) (hi : eval E i as = some [iv])
    (hc : count iv = some n) (hg : xs.get n = some v) : eval E (.idx a i) as = some [v] := by
  unfold eval
  rw [ha, hi]
  show Option.bind _ _ = _
  rw [hc]
  show Option.map _ (xs.get n) = _
  rw [hg]
  rfl

theorem ev_tab {t : Arr} {i : Expr} {iv v : Val} {n : Nat} (hi : eval E i as = some [iv])
    (hc : count iv = some n) (hg : t.get n = some v) : eval E (.tab t i) as = some [v] := by
  unfold eval
  rw [hi]
  show Option.bind _ _ = _
  rw [hc]
  show Option.map _ (t.get n) = _
  rw [hg]
  rfl

theorem ev_at {p i : Expr} {a o s : Nat} {xs : Arr} {iv v : Val} {n : Nat} (hp : eval E p as = some [.ptr a o s]) (hi : eval E i as = some [iv])
    (ha : E.arrs[a]? = some xs) (hc : count iv = some n) (hg : load xs s (o + s * n) = some v) : eval E (.at p i) as = some [v] := by
  unfold eval
  rw [hp, hi]
  show (match E.arrs[a]? with
    | some xs => (count iv).bind fun n => (load xs s (o + s * n)).map fun v => [v]
    | none => none) = _
  rw [ha]
  show Option.bind _ _ = _
  rw [hc]
  show Option.map _ (load xs s _) = _
  rw [hg]
  rfl

theorem ev_addr {a : Nat} {i : Expr} {xs : Arr} {iv : Val} {n : Nat} (ha : E.arrs[a]? = some xs) (hi : eval E i as = some [iv])
    (hc : count iv = some n) {v : Val} (hg : xs.get n = some v) : eval E (.addr a i) as = some [.ptr a (xs.size * n) xs.size] := by
  unfold eval
  rw [ha, hi]
  show Option.bind _ _ = _
  rw [hc]
  show Option.map _ (xs.get n) = _
  rw [hg]
  rfl

theorem ev_recast {s : Nat} {p : Expr} {a o s' : Nat} (hp : eval E p as = some [.ptr a o s']) : eval E (.recast s p) as = some [.ptr a o s] := by
  unfold eval
  rw [hp]

theorem ev_bin {o : Bin} {x y : Expr} {v w r : Val} (hx : eval E x as = some [v]) (hy : eval E y as = some [w]) (h : binary o v w = some r) :
    eval E (.bin o x y) as = some [r] := by
  unfold eval
  rw [hx, hy]
  show Option.map _ (binary o v w) = _
  rw [h]
  rfl

theorem ev_bnot {x : Expr} {v r : Val} (hx : eval E x as = some [v]) (h : complement (promote v) = some r) : eval E (.bnot x) as = some [r] := by
  unfold eval
  rw [hx]
  show Option.map _ (complement (promote v)) = _
  rw [h]
  rfl

theorem ev_land_true {x y : Expr} {v w : Val} {b : Bool} (hx : eval E x as = some [v]) (h : truth v = some true) (hy : eval E y as = some [w])
    (hw : truth w = some b) : eval E (.land x y) as = some [.bool b] := by
  unfold eval
  rw [hx]
  show (match truth v with
    | some true => match eval E y as with
      | some [y] => (truth y).map fun b => [Val.bool b]
      | _ => none
    | some false => some [Val.bool false]
    | none => none) = _
  rw [h, hy]
  show Option.map _ (truth w) = _
  rw [hw]
  rfl

theorem ev_land_false {x y : Expr} {v : Val} (hx : eval E x as = some [v]) (h : truth v = some false) : eval E (.land x y) as = some [.bool false] := by
  unfold eval
  rw [hx]
  show (match truth v with
    | some true => match eval E y as with
      | some [y] => (truth y).map fun b => [Val.bool b]
      | _ => none
    | some false => some [Val.bool false]
    | none => none) = _
  rw [h]

theorem ev_lnot {x : Expr} {v : Val} {b : Bool} (hx : eval E x as = some [v]) (h : truth v = some b) : eval E (.lnot x) as = some [.bool !b] := by
  unfold eval
  rw [hx]
  show Option.map _ (truth v) = _
  rw [h]
  rfl

theorem ev_cond {c x y : Expr} {v : Val} {b : Bool} {r : List Val} (hc : eval E c as = some [v]) (h : truth v = some b)
    (hr : eval E (if b then x else y) as = some r) : eval E (.cond c x y) as = some r := by
  rw [eval, hc]
  cases b
  all_goals
    dsimp only
    rw [h]
    exact hr

theorem ev_then {c x y : Expr} {v : Val} {r : List Val} (hc : eval E c as = some [v]) (h : truth v = some true)
    (hr : eval E x as = some r) : eval E (.cond c x y) as = some r := ev_cond hc h hr

theorem ev_else {c x y : Expr} {v : Val} {r : List Val} (hc : eval E c as = some [v]) (h : truth v = some false)
    (hr : eval E y as = some r) : eval E (.cond c x y) as = some r := ev_cond hc h hr

theorem ev_cast {t : Ty} {x : Expr} {v r : Val} (hx : eval E x as = some [v]) (h : conv t v = some r) : eval E (.cast t x) as = some [r] := by
  unfold eval
  rw [hx]
  show Option.map _ (conv t v) = _
  rw [h]
  rfl

theorem ev_ret {body args : Expr} {vs r : List Val} (ha : eval E args as = some vs) (hb : eval E body vs = some r) : eval E (.ret body args) as = some r := by
  unfold eval
  rw [ha]
  exact hb

theorem ev_push {x rest : Expr} {v : Val} {vs : List Val} (hx : eval E x as = some [v]) (hr : eval E rest as = some vs) :
    eval E (.push x rest) as = some (v :: vs) := by
  unfold eval
  rw [hx, hr]

theorem ev_nil : eval E .nil as = some [] := rfl

theorem ev_over32 {f g : Expr} {x : BitVec 32} {vs r : List Val} (h : eval E f (.u32 x :: vs) = some r) : eval E (.over f g) (.u32 x :: vs) = some r := by
  unfold eval
  exact h

theorem ev_over64 {f g : Expr} {x : BitVec 64} {vs r : List Val} (h : eval E g (.u64 x :: vs) = some r) : eval E (.over f g) (.u64 x :: vs) = some r := by
  unfold eval
  exact h

theorem ev_rotr32 {x n : BitVec 32} (h : 0 < n.toNat ∧ n.toNat < 32) :
    eval E rotate_right [.u32 x, .u32 n] = some [.u32 (x >>> n.toNat ||| x <<< (32 - n.toNat))] := by
  have e2 : (32#32 - n).toNat = 32 - n.toNat := by
    rw [BitVec.toNat_sub]
    show (2 ^ 32 - n.toNat + 32) % 2 ^ 32 = _
    omega
  refine ev_over32 (ev_cast (ev_bin (ev_bin (ev_arg rfl) (ev_arg rfl) (r := .u32 (x >>> n.toNat)) (if_pos h.2))
    (ev_bin (ev_arg rfl) (ev_bin ev_lit (ev_arg rfl) (r := .u32 (32#32 - n)) rfl) (r := .u32 (x <<< (32 - n.toNat))) ?_) rfl) rfl)
  show (if (32#32 - n).toNat < 32 then some (Val.u32 (x <<< (32#32 - n).toNat)) else none) = _
  rw [e2]
  exact if_pos (by omega)

theorem ev_rotl32 {x n : BitVec 32} (h : 0 < n.toNat ∧ n.toNat < 32) :
    eval E rotate_left [.u32 x, .u32 n] = some [.u32 (x <<< n.toNat ||| x >>> (32 - n.toNat))] := by
  have e2 : (32#32 - n).toNat = 32 - n.toNat := by
    rw [BitVec.toNat_sub]
    show (2 ^ 32 - n.toNat + 32) % 2 ^ 32 = _
    omega
  refine ev_over32 (ev_cast (ev_bin (ev_bin (ev_arg rfl) (ev_arg rfl) (r := .u32 (x <<< n.toNat)) (if_pos h.2))
    (ev_bin (ev_arg rfl) (ev_bin ev_lit (ev_arg rfl) (r := .u32 (32#32 - n)) rfl) (r := .u32 (x >>> (32 - n.toNat))) ?_) rfl) rfl)
  show (if (32#32 - n).toNat < 32 then some (Val.u32 (x >>> (32#32 - n).toNat)) else none) = _
  rw [e2]
  exact if_pos (by omega)

theorem ev_rotr64 {x : BitVec 64} {n : BitVec 32} (h : 0 < n.toNat ∧ n.toNat < 64) :
    eval E rotate_right [.u64 x, .u32 n] = some [.u64 (x >>> n.toNat ||| x <<< (64 - n.toNat))] := by
  have e2 : (64#32 - n).toNat = 64 - n.toNat := by
    rw [BitVec.toNat_sub]
    show (2 ^ 32 - n.toNat + 64) % 2 ^ 32 = _
    omega
  refine ev_over64 (ev_cast (ev_bin (ev_bin (ev_arg rfl) (ev_arg rfl) (r := .u64 (x >>> n.toNat)) (if_pos h.2))
    (ev_bin (ev_arg rfl) (ev_bin ev_lit (ev_arg rfl) (r := .u32 (64#32 - n)) rfl) (r := .u64 (x <<< (64 - n.toNat))) ?_) rfl) rfl)
  show (if (64#32 - n).toNat < 64 then some (Val.u64 (x <<< (64#32 - n).toNat)) else none) = _
  rw [e2]
  exact if_pos (by omega)

theorem ev_rotl64 {x : BitVec 64} {n : BitVec 32} (h : 0 < n.toNat ∧ n.toNat < 64) :
    eval E rotate_left [.u64 x, .u32 n] = some [.u64 (x <<< n.toNat ||| x >>> (64 - n.toNat))] := by
  have e2 : (64#32 - n).toNat = 64 - n.toNat := by
    rw [BitVec.toNat_sub]
    show (2 ^ 32 - n.toNat + 64) % 2 ^ 32 = _
    omega
  refine ev_over64 (ev_cast (ev_bin (ev_bin (ev_arg rfl) (ev_arg rfl) (r := .u64 (x <<< n.toNat)) (if_pos h.2))
    (ev_bin (ev_arg rfl) (ev_bin ev_lit (ev_arg rfl) (r := .u32 (64#32 - n)) rfl) (r := .u64 (x >>> (64 - n.toNat))) ?_) rfl) rfl)
  show (if (64#32 - n).toNat < 64 then some (Val.u64 (x >>> (64#32 - n).toNat)) else none) = _
  rw [e2]
  exact if_pos (by omega)

theorem ev_byteswap32 {x : BitVec 32} : eval E byteswap [.u32 x] = some [.u32 (Model.byteswap32 x)] := rfl

theorem ev_byteswap64 {x : BitVec 64} : eval E byteswap [.u64 x] = some [.u64 (Model.byteswap64 x)] := rfl

end

theorem chk_ok {x : Int} (h : -2147483648 ≤ x ∧ x < 2147483648) : chk x = some (.i32 x) := if_pos h

theorem count_int {x : Int} (h : 0 ≤ x) : count (.i32 x) = some x.toNat := if_pos h

theorem get8 {xs : List (BitVec 8)} {i : Nat} (h : i < xs.length) : (Arr.a8 xs).get i = some (.u8 (xs.getD i 0)) := by
  show xs[i]?.map _ = _
  rw [List.getD_eq_getElem?_getD, List.getElem?_eq_getElem h]
  rfl

theorem get32 {xs : List (BitVec 32)} {i : Nat} (h : i < xs.length) : (Arr.a32 xs).get i = some (.u32 (xs.getD i 0)) := by
  show xs[i]?.map _ = _
  rw [List.getD_eq_getElem?_getD, List.getElem?_eq_getElem h]
  rfl

theorem get64 {xs : List (BitVec 64)} {i : Nat} (h : i < xs.length) : (Arr.a64 xs).get i = some (.u64 (xs.getD i 0)) := by
  show xs[i]?.map _ = _
  rw [List.getD_eq_getElem?_getD, List.getElem?_eq_getElem h]
  rfl

theorem put8 {xs : List (BitVec 8)} {i : Nat} {v : Val} {x : BitVec 8} (hv : conv .u8 v = some (.u8 x)) (h : i < xs.length) :
    (Arr.a8 xs).put i v = some (.a8 (xs.set i x)) := by
  rw [Arr.put, hv]
  exact if_pos h

theorem put32 {xs : List (BitVec 32)} {i : Nat} {v : Val} {x : BitVec 32} (hv : conv .u32 v = some (.u32 x)) (h : i < xs.length) :
    (Arr.a32 xs).put i v = some (.a32 (xs.set i x)) := by
  rw [Arr.put, hv]
  exact if_pos h

theorem put64 {xs : List (BitVec 64)} {i : Nat} {v : Val} {x : BitVec 64} (hv : conv .u64 v = some (.u64 x)) (h : i < xs.length) :
    (Arr.a64 xs).put i v = some (.a64 (xs.set i x)) := by
  rw [Arr.put, hv]
  exact if_pos h

theorem int_add {x y : Int} (h : -2147483648 ≤ x + y ∧ x + y < 2147483648) : binary .add (.i32 x) (.i32 y) = some (.i32 (x + y)) := chk_ok h
theorem int_sub {x y : Int} (h : -2147483648 ≤ x - y ∧ x - y < 2147483648) : binary .sub (.i32 x) (.i32 y) = some (.i32 (x - y)) := chk_ok h
theorem int_mul {x y : Int} (h : -2147483648 ≤ x * y ∧ x * y < 2147483648) : binary .mul (.i32 x) (.i32 y) = some (.i32 (x * y)) := chk_ok h

theorem int_mod {x y : Int} (hx : 0 ≤ x) (hy : 0 < y ∧ y < 2147483648) : binary .mod (.i32 x) (.i32 y) = some (.i32 (x % y)) := by
  show (if y = 0 then none else chk (x.tmod y)) = _
  rw [if_neg (by omega), Int.tmod_eq_emod_of_nonneg hx]
  have h1 := Int.emod_nonneg x (show y ≠ 0 by omega)
  have h2 := Int.emod_lt_of_pos x hy.1
  exact chk_ok ⟨by omega, by omega⟩

variable {N : Nat} {ext : Nat → Val → Val → Env → Option Env} {E E1 E2 : Env}

theorem val_of {e : Expr} {v : Val} (h : eval E e [] = some [v]) : value E e = some v := by
  unfold value
  rw [h]

theorem test_of {e : Expr} {v : Val} {b : Bool} (h : eval E e [] = some [v]) (hb : truth v = some b) : test E e = some b := by
  unfold test
  rw [val_of h]
  exact hb

theorem st_seq {s t : Stmt} (h1 : exec N ext s E = some E1) (h2 : exec N ext t E1 = some E2) : exec N ext (.seq s t) E = some E2 := by
  rw [exec, h1]
  exact h2

theorem st_cons {s t : Stmt} {ss : List Stmt} (h1 : exec N ext s E = some E1) (h2 : exec N ext (block (t :: ss)) E1 = some E2) :
    exec N ext (block (s :: t :: ss)) E = some E2 := st_seq h1 h2

theorem st_one {s : Stmt} (h : exec N ext s E = some E1) : exec N ext (block [s]) E = some E1 := h

theorem st_decl {vs : List Val} {A : List Arr} {t : Ty} {e : Expr} {v v' : Val} {vs' : List Val} (h : eval ⟨vs, A⟩ e [] = some [v]) (hc : conv t v = some v')
    (hv : vs ++ [v'] = vs') : exec N ext (.decl t e) ⟨vs, A⟩ = some ⟨vs', A⟩ := by
  rw [exec, val_of h, ← hv]
  show Option.bind (conv t v) _ = _
  rw [hc]
  rfl

theorem st_declp {vs : List Val} {A : List Arr} {e : Expr} {v : Val} {vs' : List Val} (h : eval ⟨vs, A⟩ e [] = some [v])
    (hv : vs ++ [v] = vs') : exec N ext (.declp e) ⟨vs, A⟩ = some ⟨vs', A⟩ := by
  rw [exec, val_of h, ← hv]
  rfl

theorem st_declare {vs : List Val} {A : List Arr} {t : Ty} {vs' : List Val}
    (hv : vs ++ [.undef t] = vs') : exec N ext (.declare t) ⟨vs, A⟩ = some ⟨vs', A⟩ := by
  rw [exec, ← hv]

theorem st_set {vs : List Val} {A : List Arr} {k : Nat} {e : Expr} {v old v' : Val} {vs' : List Val} (h : eval ⟨vs, A⟩ e [] = some [v]) (ho : vs[k]? = some old)
    (hc : assign old v = some v') (hv : vs.set k v' = vs') : exec N ext (.set k e) ⟨vs, A⟩ = some ⟨vs', A⟩ := by
  rw [exec, val_of h, ← hv]
  show Option.bind (vs[k]?) _ = _
  rw [ho]
  show Option.bind (assign old v) _ = _
  rw [hc]
  rfl

theorem st_store {vs : List Val} {A : List Arr} {a n : Nat} {i e : Expr} {iv v : Val} {xs xs' : Arr} {A' : List Arr} (hi : eval ⟨vs, A⟩ i [] = some [iv])
    (hn : count iv = some n) (h : eval ⟨vs, A⟩ e [] = some [v]) (ha : A[a]? = some xs) (hp : xs.put n v = some xs') (hA : A.set a xs' = A') :
    exec N ext (.store a i e) ⟨vs, A⟩ = some ⟨vs, A'⟩ := by
  rw [exec, val_of hi, ← hA]
  show Option.bind (count iv) _ = _
  rw [hn]
  show Option.bind (value _ e) _ = _
  rw [val_of h]
  show Option.bind (A[a]?) _ = _
  rw [ha]
  show Option.bind (xs.put n v) _ = _
  rw [hp]
  rfl

theorem st_storep {vs : List Val} {A : List Arr} {a o s n : Nat} {p i e : Expr} {iv v : Val} {xs xs' : Arr} {A' : List Arr} (hp' : eval ⟨vs, A⟩ p [] = some [.ptr a o s])
    (hi : eval ⟨vs, A⟩ i [] = some [iv]) (hn : count iv = some n) (h : eval ⟨vs, A⟩ e [] = some [v]) (ha : A[a]? = some xs) (hs : s = xs.size ∧ o % s = 0)
    (hp : xs.put (o / s + n) v = some xs') (hA : A.set a xs' = A') : exec N ext (.storep p i e) ⟨vs, A⟩ = some ⟨vs, A'⟩ := by
  rw [exec, val_of hp', ← hA]
  dsimp only
  rw [val_of hi]
  show Option.bind (count iv) _ = _
  rw [hn]
  show Option.bind (value _ e) _ = _
  rw [val_of h]
  show Option.bind (A[a]?) _ = _
  rw [ha]
  show (if s = xs.size ∧ o % s = 0 then Option.bind (xs.put (o / s + n) v) _ else none) = _
  rw [if_pos hs, hp]
  rfl

theorem st_ite {c : Expr} {s t : Stmt} {v : Val} {b : Bool} (hc : eval E c [] = some [v]) (hb : truth v = some b)
    (h : exec N ext (if b then s else t) E = some E1) : exec N ext (.ite c s t) E = some E1 := by
  rw [exec, test_of hc hb]
  cases b
  · exact h
  · exact h

theorem st_scope {s : Stmt} {vs vs' : List Val} {A A' : List Arr} {vs'' : List Val} (h : exec N ext s ⟨vs, A⟩ = some ⟨vs', A'⟩) (hv : vs'.take vs.length = vs'') :
    exec N ext (.scope s) ⟨vs, A⟩ = some ⟨vs'', A'⟩ := by
  rw [exec, h, ← hv]
  rfl

/-- A `for` loop: `R` relates the state before each iteration to a value computed along with it. -/
theorem while_rel {σ : Type} (R : Nat → σ → Env → Prop) {c : Expr} {b : Stmt} (lo hi : Nat) (f : Nat → σ → M σ)
    (hc : ∀ t s e, lo ≤ t → t ≤ hi → R t s e → test e c = some (decide (t < hi)))
    (hb : ∀ t s e s', lo ≤ t → t < hi → R t s e → f t s = .ok s' → ∃ e', exec N ext b e = some e' ∧ R (t + 1) s' e')
    (hN : hi - lo < N) (hlh : lo ≤ hi) {s s' : σ} (h0 : R lo s E) (hl : Model.loop lo hi f s = .ok s') :
    ∃ E', exec N ext (.while c b) E = some E' ∧ R hi s' E' := by
  have key : ∀ k n lo s E, hi - lo = k → k < n → lo ≤ hi →
      (∀ t s e, lo ≤ t → t ≤ hi → R t s e → test e c = some (decide (t < hi))) →
      (∀ t s e s', lo ≤ t → t < hi → R t s e → f t s = .ok s' → ∃ e', exec N ext b e = some e' ∧ R (t + 1) s' e') →
      R lo s E → (List.range' lo k).foldlM (fun s t => f t s) s = .ok s' → ∃ E', iterate (fun E => test E c) (exec N ext b) n E = some E' ∧ R hi s' E' := by
    intro k
    induction k with
    | zero =>
      intro n lo s E hk hn hle hc hb h0 hl
      obtain ⟨m, rfl⟩ : ∃ m, n = m + 1 := ⟨n - 1, by omega⟩
      cases hl
      obtain rfl : lo = hi := by omega
      refine ⟨E, ?_, h0⟩
      rw [iterate, hc lo _ E (Nat.le_refl _) hle h0, decide_eq_false (Nat.lt_irrefl _)]
    | succ k ih =>
      intro n lo s E hk hn hle hc hb h0 hl
      obtain ⟨m, rfl⟩ : ∃ m, n = m + 1 := ⟨n - 1, by omega⟩
      rw [List.range'_succ, List.foldlM_cons] at hl
      cases hf : f lo s with
      | error e => rw [hf] at hl; cases hl
      | ok s1 =>
        rw [hf] at hl
        obtain ⟨e1, x1, r1⟩ := hb lo s E s1 (Nat.le_refl _) (by omega) h0 hf
        obtain ⟨E', x2, r2⟩ := ih m (lo + 1) s1 e1 (by omega) (by omega) (by omega) (fun t s e h => hc t s e (by omega)) (fun t s e s' h => hb t s e s' (by omega)) r1 hl
        refine ⟨E', ?_, r2⟩
        rw [iterate, hc lo s E (Nat.le_refl _) hle h0, decide_eq_true (by omega)]
        show Option.bind (exec N ext b E) _ = _
        rw [x1]
        exact x2
  exact key (hi - lo) N lo s E rfl hN hlh hc hb h0 hl

theorem st_for {i s : Stmt} {c : Expr} {st : Stmt} {vs vs' : List Val} {A A' : List Arr} {E0 : Env} {vs'' : List Val} (hi : exec N ext i ⟨vs, A⟩ = some E0)
    (hw : exec N ext (.while c (.seq (.scope s) st)) E0 = some ⟨vs', A'⟩) (hv : vs'.take vs.length = vs'') : exec N ext (for' i c st s) ⟨vs, A⟩ = some ⟨vs'', A'⟩ :=
  st_scope (st_seq hi hw) hv

/-- A `for` loop whose states are a function of the counter and of a value computed along with it. -/
theorem for_fun {σ : Type} (F : Nat → σ → Env) (P : Nat → σ → Prop) {i b st : Stmt} {c : Expr} {vs vs' : List Val} {A A' : List Arr} {lo hi : Nat} {f : Nat → σ → M σ}
    {s s' : σ} (hl : Model.loop lo hi f s = .ok s') (hi' : exec N ext i ⟨vs, A⟩ = some (F lo s)) (h0 : P lo s)
    (hc : ∀ t s, lo ≤ t → t ≤ hi → P t s → test (F t s) c = some (decide (t < hi)))
    (hb : ∀ t s s', lo ≤ t → t < hi → P t s → f t s = .ok s' → exec N ext (.seq (.scope b) st) (F t s) = some (F (t + 1) s') ∧ P (t + 1) s')
    (hN : hi - lo < N) (hlh : lo ≤ hi) (hv : (F hi s').vars.take vs.length = vs') (hA : (F hi s').arrs = A') :
    exec N ext (for' i c st b) ⟨vs, A⟩ = some ⟨vs', A'⟩ ∧ P hi s' := by
  obtain ⟨E', x, r1, r2⟩ := while_rel (N := N) (ext := ext) (fun t s e => e = F t s ∧ P t s) (c := c) (b := .seq (.scope b) st) lo hi f
    (fun t s e h1 h2 h => by rw [h.1]; exact hc t s h1 h2 h.2)
    (fun t s e s' h1 h2 h hf => ⟨_, by rw [h.1]; exact (hb t s s' h1 h2 h.2 hf).1, rfl, (hb t s s' h1 h2 h.2 hf).2⟩) hN hlh ⟨rfl, h0⟩ hl
  subst r1 hv hA
  exact ⟨st_for hi' x rfl, r2⟩

/-- A `for` loop in general. -/
theorem for_rel {σ : Type} (R : Nat → σ → Env → Prop) {Q : Env → Prop} {i b st : Stmt} {c : Expr} {vs : List Val} {A : List Arr} {E0 : Env} {lo hi : Nat} {f : Nat → σ → M σ}
    {s s' : σ} (hl : Model.loop lo hi f s = .ok s') (hi' : exec N ext i ⟨vs, A⟩ = some E0) (h0 : R lo s E0)
    (hc : ∀ t s e, lo ≤ t → t ≤ hi → R t s e → test e c = some (decide (t < hi)))
    (hb : ∀ t s e s', lo ≤ t → t < hi → R t s e → f t s = .ok s' → ∃ e', exec N ext (.seq (.scope b) st) e = some e' ∧ R (t + 1) s' e')
    (hN : hi - lo < N) (hlh : lo ≤ hi) (hQ : ∀ e, R hi s' e → Q ⟨e.vars.take vs.length, e.arrs⟩) :
    ∃ e, exec N ext (for' i c st b) ⟨vs, A⟩ = some e ∧ Q e := by
  obtain ⟨E', x, r⟩ := while_rel (N := N) (ext := ext) R (c := c) (b := .seq (.scope b) st) lo hi f hc hb hN hlh h0 hl
  exact ⟨_, st_for hi' x rfl, hQ E' r⟩

theorem ex_seq {s t : Stmt} {P : Env → Prop} (h1 : exec N ext s E = some E1) (h2 : ∃ e, exec N ext t E1 = some e ∧ P e) : ∃ e, exec N ext (.seq s t) E = some e ∧ P e := by
  obtain ⟨e, x, p⟩ := h2
  exact ⟨e, st_seq h1 x, p⟩

theorem ex_cons {s t : Stmt} {ss : List Stmt} {P : Env → Prop} (h1 : exec N ext s E = some E1) (h2 : ∃ e, exec N ext (block (t :: ss)) E1 = some e ∧ P e) :
    ∃ e, exec N ext (block (s :: t :: ss)) E = some e ∧ P e := ex_seq h1 h2

theorem ex_scope {s : Stmt} {vs : List Val} {A : List Arr} {P : Env → Prop} (h : ∃ e, exec N ext s ⟨vs, A⟩ = some e ∧ P ⟨e.vars.take vs.length, e.arrs⟩) :
    ∃ e, exec N ext (.scope s) ⟨vs, A⟩ = some e ∧ P e := by
  obtain ⟨e, x, p⟩ := h
  exact ⟨_, st_scope x rfl, p⟩

theorem ex_one {s : Stmt} {P : Env → Prop} (h : ∃ e, exec N ext s E = some e ∧ P e) : ∃ e, exec N ext (block [s]) E = some e ∧ P e := h

theorem test_nat {e : Expr} {v : Val} {b b' : Bool} (h : eval E e [] = some [v]) (hb : truth v = some b) (hb' : b = b') : test E e = some b' := by
  rw [test_of h hb, hb']

theorem ex_of {α : Type} {x : Option α} {P : α → Prop} {e : α} (h : x = some e) (hP : P e) : ∃ e, x = some e ∧ P e := ⟨e, h, hP⟩

theorem count_u32 {n : Nat} (h : n < 2 ^ 32) : count (.u32 (BitVec.ofNat 32 n)) = some n := by
  show some (BitVec.ofNat 32 n).toNat = _
  rw [BitVec.toNat_ofNat, Nat.mod_eq_of_lt h]

theorem count_u64 {n : Nat} (h : n < 2 ^ 64) : count (.u64 (BitVec.ofNat 64 n)) = some n := by
  show some (BitVec.ofNat 64 n).toNat = _
  rw [BitVec.toNat_ofNat, Nat.mod_eq_of_lt h]

theorem count_nat {n : Nat} : count (.i32 (n : Int)) = some n := count_int (Int.natCast_nonneg n)

theorem truth_true {p : Prop} [Decidable p] (h : p) : truth (.bool (decide p)) = some true := by
  rw [decide_eq_true h]
  rfl

theorem truth_false {p : Prop} [Decidable p] (h : ¬p) : truth (.bool (decide p)) = some false := by
  rw [decide_eq_false h]
  rfl

theorem st_memcpy {vs : List Val} {A A' : List Arr} {d s n : Expr} {a o z b p z' k : Nat} {nv : Val} {xs ys xs' : Arr} {bs : List (BitVec 8)}
    (hd : eval ⟨vs, A⟩ d [] = some [.ptr a o z]) (hs : eval ⟨vs, A⟩ s [] = some [.ptr b p z']) (hn : eval ⟨vs, A⟩ n [] = some [nv]) (hc : count nv = some k)
    (ha : A[a]? = some xs) (hb : A[b]? = some ys) (hab : ¬(a = b ∧ o < p + k ∧ p < o + k)) (hp : ys.part p k = some bs) (hq : xs.patch o bs = some xs')
    (hA : A.set a xs' = A') : exec N ext (.memcpy d s n) ⟨vs, A⟩ = some ⟨vs, A'⟩ := by
  rw [exec, val_of hd, val_of hs, val_of hn, ← hA]
  show Option.bind (count nv) _ = _
  rw [hc]
  show Option.bind (A[a]?) _ = _
  rw [ha]
  show Option.bind (A[b]?) _ = _
  rw [hb]
  show (if a = b ∧ o < p + k ∧ p < o + k then none else Option.bind (ys.part p k) _) = _
  rw [if_neg hab, hp]
  show Option.bind (xs.patch o bs) _ = _
  rw [hq]
  rfl

theorem st_memcpyv {vs : List Val} {A A' : List Arr} {d n : Expr} {a o z k c : Nat} {nv v : Val} {xs xs' : Arr} {bs : List (BitVec 8)}
    (hd : eval ⟨vs, A⟩ d [] = some [.ptr a o z]) (hv : vs[k]? = some v) (hn : eval ⟨vs, A⟩ n [] = some [nv]) (hc : count nv = some c)
    (ha : A[a]? = some xs) (hm : memory v = some bs) (hl : c ≤ bs.length) (hq : xs.patch o (bs.take c) = some xs')
    (hA : A.set a xs' = A') : exec N ext (.memcpyv d k n) ⟨vs, A⟩ = some ⟨vs, A'⟩ := by
  rw [exec, val_of hd, hv, val_of hn, ← hA]
  show Option.bind (count nv) _ = _
  rw [hc]
  show Option.bind (A[a]?) _ = _
  rw [ha]
  show Option.bind (memory v) _ = _
  rw [hm]
  show (if c ≤ bs.length then Option.bind (xs.patch o (bs.take c)) _ else none) = _
  rw [if_pos hl, hq]
  rfl

theorem st_memset {vs : List Val} {A A' : List Arr} {d v n : Expr} {a o z k : Nat} {nv vv : Val} {xs xs' : Arr} {x : BitVec 8}
    (hd : eval ⟨vs, A⟩ d [] = some [.ptr a o z]) (hv : eval ⟨vs, A⟩ v [] = some [vv]) (hn : eval ⟨vs, A⟩ n [] = some [nv]) (hc : count nv = some k)
    (hx : conv .u8 vv = some (.u8 x)) (ha : A[a]? = some xs) (hq : xs.patch o (List.replicate k x) = some xs')
    (hA : A.set a xs' = A') : exec N ext (.memset d v n) ⟨vs, A⟩ = some ⟨vs, A'⟩ := by
  rw [exec, val_of hd, val_of hv, val_of hn, ← hA]
  show Option.bind (count nv) _ = _
  rw [hc]
  show Option.bind (conv .u8 vv) _ = _
  rw [hx]
  show Option.bind (A[a]?) _ = _
  rw [ha]
  show Option.bind (xs.patch o (List.replicate k x)) _ = _
  rw [hq]
  rfl

theorem st_call {f : Nat} {x y : Expr} {xv yv : Val} (hx : eval E x [] = some [xv]) (hy : eval E y [] = some [yv]) (h : ext f xv yv E = some E1) :
    exec N ext (.call f x y) E = some E1 := by
  rw [exec, val_of hx, ← h]
  show Option.bind (value E y) _ = _
  rw [val_of hy]
  rfl

theorem ev_as {e : Expr} {v w : Val} (h : eval E e [] = some [v]) (hv : v = w) : eval E e [] = some [w] := hv ▸ h

theorem part_of {xs b : Bytes} {off n : Nat} (h : Model.readBytes xs off n = .ok b) : (Arr.a8 xs).part off n = some b := by
  unfold Model.readBytes at h
  split at h
  · rw [← Except.ok.inj h]
    exact if_pos (by assumption)
  · cases h

theorem patch_of {xs xs' b : Bytes} {off : Nat} (h : Model.memcpyTo xs off b = .ok xs') : (Arr.a8 xs).patch off b = some (.a8 xs') := by
  unfold Model.memcpyTo at h
  split at h
  · rw [← Except.ok.inj h]
    exact if_pos (by assumption)
  · cases h

theorem patch_of_memset {xs xs' : Bytes} {off n : Nat} {v : BitVec 8} (h : Model.memset xs off v n = .ok xs') :
    (Arr.a8 xs).patch off (List.replicate n v) = some (.a8 xs') := by
  unfold Model.memset at h
  split at h
  · rw [← Except.ok.inj h]
    rename_i hl
    show (if off + (List.replicate n v).length ≤ xs.length then some (Arr.a8 (xs.take off ++ List.replicate n v ++ xs.drop (off + (List.replicate n v).length))) else none) = _
    rw [List.length_replicate, if_pos hl]
  · cases h

theorem st_skip : exec N ext .skip E = some E := by rw [exec]

theorem st_then {c : Expr} {s t : Stmt} {v : Val} (hc : eval E c [] = some [v]) (hb : truth v = some true) (h : exec N ext s E = some E1) :
    exec N ext (.ite c s t) E = some E1 := st_ite hc hb h

theorem st_else {c : Expr} {s t : Stmt} {v : Val} (hc : eval E c [] = some [v]) (hb : truth v = some false) (h : exec N ext t E = some E1) :
    exec N ext (.ite c s t) E = some E1 := st_ite hc hb h

/-- Conditions. -/
macro "tr" : tactic => `(tactic| first | exact rfl | exact truth_true (by omega) | exact truth_false (by omega))

/-- Bounds and counts. -/
macro "bd" : tactic => `(tactic| first | exact Nat.le_of_ble_eq_true rfl | decide | omega | (simp only [List.length_set, List.length_map]; omega))

/-- The numbers of elements. -/
macro "cnt" : tactic => `(tactic| first | with_reducible exact count_u32 (by omega) | with_reducible exact count_u64 (by omega) | with_reducible exact count_nat | with_reducible exact count_int (by omega) | exact rfl)

/-- An element of an array. -/
macro "elm" : tactic => `(tactic| first
  | exact get32 (by bd)
  | exact get64 (by bd)
  | exact get8 (by bd))

/-- An operator. -/
macro "opr" : tactic => `(tactic| first
  | with_reducible exact int_add (by omega)
  | with_reducible exact int_sub (by omega)
  | with_reducible exact int_mul (by omega)
  | with_reducible exact int_mod (by omega) (by omega)
  | exact rfl)

/-- The value of an expression. -/
syntax "ev" : tactic
macro_rules
  | `(tactic| ev) => `(tactic| first
    | exact ev_lit
    | (apply ev_var; · first | rfl | assumption
       · rfl)
    | (apply ev_arg <;> rfl)
    | exact ev_nil
    | (apply ev_push; · ev
       · ev)
    | exact ev_byteswap32
    | exact ev_byteswap64
    | exact ev_rotr32 (by decide)
    | exact ev_rotl32 (by decide)
    | exact ev_rotr64 (by decide)
    | exact ev_rotl64 (by decide)
    | (apply ev_bin; · ev
       · ev
       · opr)
    | (apply ev_ret; · ev
       · ev)
    | (apply ev_cast; · ev
       · rfl)
    | (apply ev_idx; · rfl
       · ev
       · cnt
       · elm)
    | (apply ev_tab; · ev
       · cnt
       · elm)
    | (apply ev_at; · ev
       · ev
       · first | rfl | assumption
       · cnt
       · assumption)
    | (apply ev_recast; ev)
    | (apply ev_then; · ev
       · tr
       · ev)
    | (apply ev_else; · ev
       · tr
       · ev)
    | (apply ev_bnot; · ev
       · rfl)
    | (apply ev_addr; · rfl
       · ev
       · cnt
       · elm)
    | (apply ev_over32; ev)
    | (apply ev_over64; ev)
    | (apply_assumption; done))

/-- The array after an assignment. -/
macro "pt" : tactic => `(tactic| first
  | exact put32 rfl (by bd)
  | exact put64 rfl (by bd)
  | exact put8 rfl (by bd))

/-- Lists after appending, assigning and dropping. -/
macro "ls" : tactic => `(tactic| first
  | exact rfl)

/-- One simple statement. -/
macro "st" : tactic => `(tactic| first
  | (apply st_set; · ev
     · first | rfl | assumption
     · rfl
     · ls)
  | (apply st_decl; · ev
     · rfl
     · ls)
  | (apply st_store; · ev
     · cnt
     · ev
     · rfl
     · pt
     · ls)
  | (apply st_declp; · ev
     · ls))

/-- A sequence of simple statements. -/
syntax "run" : tactic
macro_rules
  | `(tactic| run) => `(tactic| first
    | assumption
    | st
    | (apply st_cons; · run
       · run)
    | (apply st_one; run)
    | (apply st_seq; · run
       · run)
    | (apply st_scope; · run
       · ls)
    | exact st_skip
    | (apply st_then; · ev
       · tr
       · run)
    | (apply st_else; · ev
       · tr
       · run))

theorem number_append (b : BitVec 8) (n : Nat) : n * 2 ^ 8 ||| b.toNat = b.toNat + 256 * n := by
  rw [← Nat.shiftLeft_eq, ← Nat.shiftLeft_add_eq_or_of_lt b.isLt, Nat.shiftLeft_eq]
  omega

theorem number4 (b : List (BitVec 8)) (h : b.length = 4) : BitVec.ofNat 32 (number b) = Model.le32 b := by
  match b, h with
  | [x0, x1, x2, x3], _ =>
    apply BitVec.eq_of_toNat_eq
    have h0 := x0.isLt
    have h1 := x1.isLt
    have h2 := x2.isLt
    have h3 := x3.isLt
    show (x0.toNat + 256 * (x1.toNat + 256 * (x2.toNat + 256 * (x3.toNat + 256 * 0)))) % 2 ^ 32 = (x3 ++ x2 ++ x1 ++ x0).toNat
    simp only [BitVec.toNat_append, Nat.shiftLeft_eq, number_append]
    omega

theorem number8 (b : List (BitVec 8)) (h : b.length = 8) : BitVec.ofNat 64 (number b) = Model.le64 b := by
  match b, h with
  | [x0, x1, x2, x3, x4, x5, x6, x7], _ =>
    apply BitVec.eq_of_toNat_eq
    have h0 := x0.isLt
    have h1 := x1.isLt
    have h2 := x2.isLt
    have h3 := x3.isLt
    have h4 := x4.isLt
    have h5 := x5.isLt
    have h6 := x6.isLt
    have h7 := x7.isLt
    show (x0.toNat + 256 * (x1.toNat + 256 * (x2.toNat + 256 * (x3.toNat + 256 * (x4.toNat + 256 * (x5.toNat + 256 * (x6.toNat + 256 * (x7.toNat + 256 * 0)))))))) % 2 ^ 64
      = (x7 ++ x6 ++ x5 ++ x4 ++ x3 ++ x2 ++ x1 ++ x0).toNat
    simp only [BitVec.toNat_append, Nat.shiftLeft_eq, number_append]
    omega

theorem load_of_rd32 {p : List (BitVec 8)} {k q o : Nat} {x : BitVec 32} (h : Model.rd32 (p.drop q) k = .ok x) (ho : o = q + 4 * k) : load (.a8 p) 4 o = some (.u32 x) := by
  subst ho
  unfold Model.rd32 Model.readBytes at h
  split at h
  · rename_i hl
    cases h
    rw [List.length_drop] at hl
    show (if _ then _ else _) = _
    rw [if_pos (by omega), number4 _ (by rw [List.length_take, List.length_drop]; omega), List.drop_drop]
  · cases h

theorem load_of_rd64 {p : List (BitVec 8)} {k q o : Nat} {x : BitVec 64} (h : Model.rd64 (p.drop q) k = .ok x) (ho : o = q + 8 * k) : load (.a8 p) 8 o = some (.u64 x) := by
  subst ho
  unfold Model.rd64 Model.readBytes at h
  split at h
  · rename_i hl
    cases h
    rw [List.length_drop] at hl
    show (if _ then _ else _) = _
    rw [if_pos (by omega), number8 _ (by rw [List.length_take, List.length_drop]; omega), List.drop_drop]
  · cases h

/-- The array a pointer of a transformation function points to: the data given to `update`, or the buffer. -/
def Src (data m : Bytes) (p : Nat) (src : Bytes) : Prop := (p = 0 ∧ src = data) ∨ (p = 1 ∧ src = m)

theorem Src.get {data m : Bytes} {p : Nat} {src : Bytes} (h : Src data m p src) (rest : List Arr) : (Arr.a8 data :: .a8 m :: rest)[p]? = some (.a8 src) := by
  rcases h with ⟨rfl, rfl⟩ | ⟨rfl, rfl⟩ <;> rfl

/-- A sequence in the model that ends well. -/
theorem then_ok {α β : Type} {x : M α} {g : α → M β} {b : β} (h : (x >>= g) = .ok b) : ∃ a, x = .ok a ∧ g a = .ok b := by
  cases x with
  | error e => cases h
  | ok a => exact ⟨a, rfl, h⟩

theorem rd_inv {α : Type} {a : List α} {i : Nat} {x : α} (d : α) (h : Model.rd a i = .ok x) : i < a.length ∧ x = a.getD i d := by
  unfold Model.rd at h
  by_cases hi : i < a.length
  · rw [List.getElem?_eq_getElem hi] at h
    refine ⟨hi, ?_⟩
    rw [List.getD_eq_getElem?_getD, List.getElem?_eq_getElem hi]
    exact (Except.ok.inj h).symm
  · rw [List.getElem?_eq_none (by omega)] at h
    cases h

theorem wr_inv {α : Type} {a a' : List α} {i : Nat} {x : α} (h : Model.wr a i x = .ok a') : i < a.length ∧ a' = a.set i x := by
  unfold Model.wr at h
  split at h
  · exact ⟨by assumption, (Except.ok.inj h).symm⟩
  · cases h

theorem loop_inv {σ : Type} {P : σ → Prop} {lo hi : Nat} {f : Nat → σ → M σ} {s s' : σ} (hl : Model.loop lo hi f s = .ok s') (h0 : P s)
    (hb : ∀ t s s', P s → f t s = .ok s' → P s') : P s' := by
  unfold Model.loop at hl
  generalize List.range' lo (hi - lo) = l at hl
  induction l generalizing s with
  | nil => cases hl; exact h0
  | cons t l ih =>
    rw [List.foldlM_cons] at hl
    obtain ⟨s1, e1, e2⟩ := then_ok hl
    exact ih (hb t s s1 h0 e1) e2

end Digestpp.Cpp
