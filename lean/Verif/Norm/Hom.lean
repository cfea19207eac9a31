import Mathlib.Data.Nat.Factorization.Basic
import Mathlib.Data.Real.Basic
import Mathlib.Algebra.Order.BigOperators.Ring.Finset
import Mathlib.Tactic.Ring
import Mathlib.Tactic.FieldSimp
import Mathlib.Tactic.Positivity
import Mathlib.Tactic.Linarith
/-!
# The multiplicative map determined by values on primes
-/
namespace Verif.Norm
open Function

noncomputable section

/-- The product of `v p ^ e` over the prime factorisation of `n`; `0` at `0`. -/
def H (v : Nat → ℝ) (n : Nat) : ℝ := if n = 0 then 0 else n.factorization.prod fun p e => v p ^ e

@[simp] theorem H_zero (v) : H v 0 = 0 := by simp [H]
@[simp] theorem H_one (v) : H v 1 = 1 := by simp [H]

@[simp] theorem H_mul (v) (m n : Nat) : H v (m * n) = H v m * H v n := by
  by_cases hm : m = 0
  · simp [hm]
  by_cases hn : n = 0
  · simp [hn]
  have : m * n ≠ 0 := Nat.mul_ne_zero hm hn
  simp only [H, hm, hn, this, if_false]
  rw [Nat.factorization_mul hm hn, Finsupp.prod_add_index']
  · intro a; exact pow_zero _
  · intro a b c; exact pow_add _ _ _

@[simp] theorem H_pow (v) (m n : Nat) : H v (m ^ n) = H v m ^ n := by
  induction n with
  | zero => simp
  | succ n ih => rw [pow_succ, pow_succ, H_mul, ih]

theorem H_prime (v) {p : Nat} (hp : p.Prime) : H v p = v p := by
  simp only [H, hp.ne_zero, if_false]
  rw [hp.factorization]
  rw [Finsupp.prod_single_index] <;> simp

theorem H_pos {v : Nat → ℝ} (hv : ∀ p, 0 < v p) {n : Nat} (hn : n ≠ 0) : 0 < H v n := by
  simp only [H, hn, if_false]
  exact Finset.prod_pos fun p _ => pow_pos (hv p) _

theorem H_nonneg {v : Nat → ℝ} {n : Nat} (hv : ∀ p, p.Prime → p ∣ n → 0 ≤ v p) : 0 ≤ H v n := by
  unfold H
  split
  · exact le_rfl
  · refine Finset.prod_nonneg fun p hp => pow_nonneg (hv p ?_ ?_) _
    · exact Nat.prime_of_mem_primeFactors hp
    · exact Nat.dvd_of_mem_primeFactors hp

theorem H_congr {v w : Nat → ℝ} {n : Nat} (h : ∀ p, p.Prime → p ∣ n → v p = w p) : H v n = H w n := by
  unfold H
  split
  · rfl
  · refine Finset.prod_congr rfl fun p hp => ?_
    simp only [h p (Nat.prime_of_mem_primeFactors hp) (Nat.dvd_of_mem_primeFactors hp)]

/-- Dividing exactly. -/
theorem H_div {v} {a g : Nat} (h : g ∣ a) : H v a = H v g * H v (a / g) := by
  rw [← H_mul, Nat.mul_div_cancel' h]

/-- Reducing a fraction of positive quantities. -/
theorem H_red {v : Nat → ℝ} (hv : ∀ p, 0 < v p) (a b : Nat) :
    H v (a / Nat.gcd a b) / H v (b / Nat.gcd a b) = H v a / H v b := by
  by_cases hg : Nat.gcd a b = 0
  · rw [Nat.gcd_eq_zero_iff] at hg
    simp [hg.1]
  have h1 := H_div (v := v) (Nat.gcd_dvd_left a b)
  have h2 := H_div (v := v) (Nat.gcd_dvd_right a b)
  have hp := H_pos hv hg
  rw [h1, h2, mul_div_mul_left _ _ hp.ne']

end

end Verif.Norm
