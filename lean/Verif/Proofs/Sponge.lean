import Verif.Proofs.Shake

/-! Reading the output of a sponge block by block. -/

namespace Digestpp.Proofs
open Model Spec

/-- Output block `j` is the beginning of `rd j`: reading from it gives a slice of the output. -/
theorem read_stream (rd : Nat → Bytes) (r : Nat) (hr0 : 0 < r) (hl : ∀ j, r ≤ (rd j).length) (q k : Nat) (hk : q % r + k ≤ r) :
    readBytes (rd (q / r)) (q % r) k = .ok (slice (fun n => (rd (n / r)).getD (n % r) 0) q k) := by
  have hl' := hl (q / r)
  rw [readBytes_ok _ _ _ (by omega), ← Keccak.map_getD_take _ 0 _ (by rw [List.length_drop]; omega)]
  congr 1
  unfold slice
  apply List.map_congr_left
  intro i hi
  rw [List.mem_range] at hi
  have h1 : (q + i) / r = q / r := by
    rw [Nat.div_eq_iff hr0]
    have := Nat.div_add_mod q r
    rw [Nat.mul_comm] at this
    omega
  have h2 : (q + i) % r = q % r + i := by
    have e1 := Nat.div_add_mod (q + i) r
    have e2 := Nat.div_add_mod q r
    rw [h1] at e1
    omega
  dsimp only
  rw [h1, h2]
  simp only [List.getD_eq_getElem?_getD, List.getElem?_drop]

theorem slice_congr (f g : Nat → Byte) (a n : Nat) (h : ∀ i, f i = g i) : slice f a n = slice g a n := by
  unfold slice
  exact List.map_congr_left fun i _ => h _

end Digestpp.Proofs
