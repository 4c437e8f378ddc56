import Verif.Proofs.Perm
import Verif.Proofs.Keccak

/-! C56: Keccak-p is a permutation. -/

namespace Digestpp.Proofs.Perm.Keccak
open Spec Spec.Keccak

theorem lane_ofLanes (f : Nat → Nat → Lane) (x y : Nat) : lane (ofLanes f) x y = f (x % 5) (y % 5) := by
  unfold lane ofLanes
  rw [Proofs.getD_map_range _ _ _ _ (by omega), show (5 * (y % 5) + x % 5) % 5 = x % 5 by omega, show (5 * (y % 5) + x % 5) / 5 = y % 5 by omega]

theorem lane_mod (A : State) (x y : Nat) : lane A (x % 5) (y % 5) = lane A x y := by
  unfold lane
  rw [Nat.mod_mod, Nat.mod_mod]

theorem ext {A B : State} (hA : A.length = 25) (hB : B.length = 25) (h : ∀ x y, x < 5 → y < 5 → lane A x y = lane B x y) : A = B := by
  apply List.ext_getElem (by omega)
  intro i h1 h2
  have := h (i % 5) (i / 5) (by omega) (by omega)
  unfold lane at this
  rw [show 5 * (i / 5 % 5) + i % 5 % 5 = i by omega, List.getD_eq_getElem?_getD, List.getD_eq_getElem?_getD,
    List.getElem?_eq_getElem h1, List.getElem?_eq_getElem h2] at this
  exact this

theorem lanes {A B : State} (h : A = B) (x y : Nat) : lane A x y = lane B x y := by rw [h]

theorem length_ofLanes (f : Nat → Nat → Lane) : (ofLanes f).length = 25 := by simp [ofLanes]

theorem lane_add (A : State) (x y : Nat) : lane A (x % 5) (y % 5) = lane A x y := lane_mod A x y

/-! ## ι -/

theorem iota_inj (ir : Nat) (A B : State) (hA : A.length = 25) (hB : B.length = 25) (h : iota ir A = iota ir B) : A = B := by
  refine ext hA hB fun x y hx hy => ?_
  have := lanes h x y
  unfold iota at this
  rw [lane_ofLanes, lane_ofLanes, Nat.mod_eq_of_lt hx, Nat.mod_eq_of_lt hy] at this
  split at this
  · rename_i e
    rw [e.1, e.2]
    exact xor_left_inj rfl this
  · exact this

/-! ## χ -/

theorem chi_bits : ∀ a0 a1 a2 a3 a4 b0 b1 b2 b3 b4 : Bool,
    (a0 ^^ (!a1 && a2)) = (b0 ^^ (!b1 && b2)) → (a1 ^^ (!a2 && a3)) = (b1 ^^ (!b2 && b3)) →
    (a2 ^^ (!a3 && a4)) = (b2 ^^ (!b3 && b4)) → (a3 ^^ (!a4 && a0)) = (b3 ^^ (!b4 && b0)) →
    (a4 ^^ (!a0 && a1)) = (b4 ^^ (!b0 && b1)) → a0 = b0 ∧ a1 = b1 ∧ a2 = b2 ∧ a3 = b3 ∧ a4 = b4 := by decide +kernel

theorem chi_row {w : Nat} (a b : Nat → BitVec w) (h : ∀ x, x < 5 →
    a x ^^^ (~~~a ((x + 1) % 5) &&& a ((x + 2) % 5)) = b x ^^^ (~~~b ((x + 1) % 5) &&& b ((x + 2) % 5))) : ∀ x, x < 5 → a x = b x := by
  have bit : ∀ i, i < w → (a 0).getLsbD i = (b 0).getLsbD i ∧ (a 1).getLsbD i = (b 1).getLsbD i ∧ (a 2).getLsbD i = (b 2).getLsbD i ∧
      (a 3).getLsbD i = (b 3).getLsbD i ∧ (a 4).getLsbD i = (b 4).getLsbD i := by
    intro i hi
    have e : ∀ x, x < 5 → ((a x).getLsbD i ^^ (!(a ((x + 1) % 5)).getLsbD i && (a ((x + 2) % 5)).getLsbD i)) =
        ((b x).getLsbD i ^^ (!(b ((x + 1) % 5)).getLsbD i && (b ((x + 2) % 5)).getLsbD i)) := by
      intro x hx
      have := congrArg (fun z => z.getLsbD i) (h x hx)
      simpa only [BitVec.getLsbD_xor, BitVec.getLsbD_and, BitVec.getLsbD_not, decide_eq_true hi, Bool.true_and] using this
    exact chi_bits _ _ _ _ _ _ _ _ _ _ (e 0 (by decide)) (e 1 (by decide)) (e 2 (by decide)) (e 3 (by decide)) (e 4 (by decide))
  intro x hx
  apply BitVec.eq_of_getLsbD_eq
  intro i hi
  obtain ⟨h0, h1, h2, h3, h4⟩ := bit i hi
  match x, hx with
  | 0, _ => exact h0
  | 1, _ => exact h1
  | 2, _ => exact h2
  | 3, _ => exact h3
  | 4, _ => exact h4

theorem chi_inj (A B : State) (hA : A.length = 25) (hB : B.length = 25) (h : chi A = chi B) : A = B := by
  refine ext hA hB fun x y hx hy => chi_row (fun x => lane A x y) (fun x => lane B x y) (fun x hx => ?_) x hx
  have := lanes h x y
  unfold chi at this
  rw [lane_ofLanes, lane_ofLanes, Nat.mod_eq_of_lt hx, Nat.mod_eq_of_lt hy] at this
  have m : ∀ (C : State) z, lane C (z % 5) y = lane C z y := fun C z => by unfold lane; rw [Nat.mod_mod]
  rw [m, m, m, m]
  exact this

/-! ## π -/

theorem pi_inj (A B : State) (hA : A.length = 25) (hB : B.length = 25) (h : pi A = pi B) : A = B := by
  refine ext hA hB fun x y hx hy => ?_
  have := lanes h y ((2 * x + 3 * y) % 5)
  unfold pi at this
  rw [lane_ofLanes, lane_ofLanes] at this
  have e : ∀ C : State, lane C (y % 5 + 3 * ((2 * x + 3 * y) % 5 % 5)) (y % 5) = lane C x y := by
    intro C
    unfold lane
    rw [Nat.mod_mod, Nat.mod_mod, show (y % 5 + 3 * ((2 * x + 3 * y) % 5)) % 5 = x % 5 by omega]
  rw [e, e] at this
  exact this

/-! ## ρ -/

theorem rho_inj (A B : State) (hA : A.length = 25) (hB : B.length = 25) (h : rho A = rho B) : A = B := by
  refine ext hA hB fun x y hx hy => ?_
  have := lanes h x y
  unfold rho at this
  rw [lane_ofLanes, lane_ofLanes, Nat.mod_eq_of_lt hx, Nat.mod_eq_of_lt hy] at this
  exact rotl_inj this

/-! ## θ -/

/-- What θ does to the parities of the columns; its powers have the same form. -/
def U (k : Nat) (P : Nat → Lane) (x : Nat) : Lane := P x ^^^ P (x + 4 * 2 ^ k) ^^^ (P (x + 2 ^ k)).rotateLeft (2 ^ k)

private theorem cancel {w : Nat} (p a b r s t : BitVec w) : p ^^^ a ^^^ b ^^^ (a ^^^ r ^^^ s) ^^^ (b ^^^ s ^^^ t) = p ^^^ r ^^^ t := by
  apply BitVec.eq_of_getLsbD_eq
  intro i _
  simp only [BitVec.getLsbD_xor]
  generalize p.getLsbD i = p
  generalize a.getLsbD i = a
  generalize b.getLsbD i = b
  generalize r.getLsbD i = r
  generalize s.getLsbD i = s
  generalize t.getLsbD i = t
  revert p a b r s t
  decide

theorem U_U (k : Nat) (P : Nat → Lane) : U k (U k P) = U (k + 1) P := by
  funext x
  unfold U
  rw [rotl_xor, rotl_xor, rotl_rotl, show 2 ^ (k + 1) = 2 ^ k + 2 ^ k by rw [Nat.pow_succ]; omega]
  generalize 2 ^ k = q
  rw [show x + 4 * q + 4 * q = x + 4 * (q + q) by omega, show x + 4 * q + q = x + 5 * q by omega, show x + q + 4 * q = x + 5 * q by omega,
    show x + q + q = x + (q + q) by omega]
  exact cancel ..

theorem U_six {P Q : Nat → Lane} (h : U 0 P = U 0 Q) : U 6 P = U 6 Q := by
  have s : ∀ k, U k P = U k Q → U (k + 1) P = U (k + 1) Q := fun k h => by
    rw [← U_U, ← U_U, h]
  exact s 5 (s 4 (s 3 (s 2 (s 1 (s 0 h)))))

/-- The last of them has order three. -/
theorem parity_inj {P Q : Nat → Lane} (hP : ∀ x, P (x + 5) = P x) (hQ : ∀ x, Q (x + 5) = Q x) (h : U 0 P = U 0 Q) : P = Q := by
  have per : ∀ R : Nat → Lane, (∀ x, R (x + 5) = R x) → ∀ k x, R (x + 5 * k) = R x := by
    intro R hR k
    induction k with
    | zero => exact fun _ => rfl
    | succ k ih => intro x; rw [show x + 5 * (k + 1) = x + 5 * k + 5 by omega, hR, ih]
  have six : ∀ R : Nat → Lane, (∀ x, R (x + 5) = R x) → U 6 R = fun x => R x ^^^ R (x + 1) ^^^ R (x + 4) := by
    intro R hR
    funext x
    unfold U
    rw [rotl_mod _ _ (by decide), show x + 4 * 2 ^ 6 = x + 1 + 5 * 51 by omega, per R hR, show x + 2 ^ 6 = x + 4 + 5 * 12 by omega, per R hR]
  have cube : ∀ R : Nat → Lane, (∀ x, R (x + 5) = R x) → ∀ x,
      R x = (let V := fun (R : Nat → Lane) (x : Nat) => R x ^^^ R (x + 1) ^^^ R (x + 4); V (V (V R)) x) := by
    intro R hR x
    dsimp only
    simp only [Nat.add_assoc, Nat.reduceAdd]
    rw [show x + 5 = x + 5 * 1 by omega, show x + 6 = x + 1 + 5 * 1 by omega, show x + 8 = x + 3 + 5 * 1 by omega,
      show x + 9 = x + 4 + 5 * 1 by omega, show x + 12 = x + 2 + 5 * 2 by omega]
    simp only [per R hR]
    apply BitVec.eq_of_getLsbD_eq
    intro i _
    simp only [BitVec.getLsbD_xor]
    generalize (R x).getLsbD i = a0
    generalize (R (x + 1)).getLsbD i = a1
    generalize (R (x + 2)).getLsbD i = a2
    generalize (R (x + 3)).getLsbD i = a3
    generalize (R (x + 4)).getLsbD i = a4
    revert a0 a1 a2 a3 a4
    decide
  have e := U_six h
  rw [six P hP, six Q hQ] at e
  funext x
  rw [cube P hP x, cube Q hQ x]
  dsimp only
  have e' : ∀ x, P x ^^^ P (x + 1) ^^^ P (x + 4) = Q x ^^^ Q (x + 1) ^^^ Q (x + 4) := congrFun e
  simp only [e']

/-- The parities. -/
def par (A : State) (x : Nat) : Lane := lane A x 0 ^^^ lane A x 1 ^^^ lane A x 2 ^^^ lane A x 3 ^^^ lane A x 4

theorem par_period (A : State) (x : Nat) : par A (x + 5) = par A x := by
  unfold par lane
  rw [Nat.add_mod_right]

theorem lane_theta (A : State) (x y : Nat) : lane (theta A) x y = lane A x y ^^^ (par A (x + 4) ^^^ (par A (x + 1)).rotateLeft 1) := by
  unfold theta
  dsimp only
  rw [lane_ofLanes, lane_mod]
  have m : ∀ k, par A (x % 5 + k) = par A (x + k) := fun k => by unfold par lane; rw [Nat.mod_add_mod]
  show _ ^^^ (par A (x % 5 + 4) ^^^ (par A (x % 5 + 1)).rotateLeft 1) = _
  rw [m, m]

theorem par_theta (A : State) : par (theta A) = U 0 (par A) := by
  funext x
  unfold U
  rw [show par (theta A) x = lane (theta A) x 0 ^^^ lane (theta A) x 1 ^^^ lane (theta A) x 2 ^^^ lane (theta A) x 3 ^^^ lane (theta A) x 4 from rfl]
  simp only [lane_theta]
  rw [Nat.pow_zero]
  generalize hC : par A (x + 4) = c
  generalize hD : (par A (x + 1)).rotateLeft 1 = d
  unfold par
  apply BitVec.eq_of_getLsbD_eq
  intro i _
  simp only [BitVec.getLsbD_xor]
  generalize (lane A x 0).getLsbD i = a0
  generalize (lane A x 1).getLsbD i = a1
  generalize (lane A x 2).getLsbD i = a2
  generalize (lane A x 3).getLsbD i = a3
  generalize (lane A x 4).getLsbD i = a4
  generalize c.getLsbD i = c
  generalize d.getLsbD i = d
  revert a0 a1 a2 a3 a4 c d
  decide

theorem theta_inj (A B : State) (hA : A.length = 25) (hB : B.length = 25) (h : theta A = theta B) : A = B := by
  have hp : par A = par B := parity_inj (par_period A) (par_period B) (by rw [← par_theta, ← par_theta, h])
  refine ext hA hB fun x y _ _ => ?_
  have := lanes h x y
  rw [lane_theta, lane_theta, hp] at this
  exact xor_left_inj rfl this

/-! ## Rounds -/

theorem round_permutes (ir : Nat) : Permutes 25 (round ir) := by
  have p : ∀ f : State → State, (∀ A, (f A).length = 25) → (∀ A B, A.length = 25 → B.length = 25 → f A = f B → A = B) → Permutes 25 f :=
    fun f hl hi => of_inj (fun A _ => hl A) hi
  have h : Permutes 25 fun A => iota ir (chi (pi (rho (theta A)))) := comp (comp (comp (comp (p theta (fun _ => by unfold theta; exact length_ofLanes _) theta_inj) (p rho (fun _ => length_ofLanes _) rho_inj))
    (p pi (fun _ => length_ofLanes _) pi_inj)) (p chi (fun _ => length_ofLanes _) chi_inj)) (p (iota ir) (fun _ => length_ofLanes _) (iota_inj ir))
  exact h

theorem keccakP_permutes (nr : Nat) : Permutes 25 (keccakP nr) :=
  Perm.foldl (fun i A => round (24 - nr + i) A) (List.range nr) fun _ _ => round_permutes _

theorem permute_permutes (R : Nat) (hR : R ≤ 24) : Permutes 25 (Model.Sha3.permute R) :=
  Perm.congr (keccakP_permutes R) fun A h => Proofs.Keccak.permute_eq R hR A h

end Digestpp.Proofs.Perm.Keccak
