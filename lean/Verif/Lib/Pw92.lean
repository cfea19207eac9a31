import Verif.Lib.ClosedForm
import Mathlib.Analysis.SpecialFunctions.Pow.NNReal
import Mathlib.Analysis.Convex.SpecificFunctions.Basic
import Mathlib.Tactic.Linarith
import Mathlib.Tactic.NormNum
import Mathlib.Tactic.Positivity
/-!
# The sign of the Perdew–Wang interpolation

Proof machinery for C49.  The correlation energy of the uniform gas, interpolated between its values for zero and full spin polarization as in Perdew and Wang (1992),
is negative.  Everything is stated for numbers; the link to the shipped text is in `Verif.Props.Pw92`.
-/
namespace Verif.Lib
open Verif.Py
open Real (log exp pi sqrt)
noncomputable section

theorem log_one_add_le {u v k : ℝ} (hk : 1 ≤ k) (hv : 0 ≤ v) (hu : 0 ≤ u) (h : u ≤ k * v) : log (1 + u) ≤ k * log (1 + v) := by
  rw [← Real.log_rpow (by linarith)]
  refine Real.log_le_log (by linarith) ?_
  have := one_add_mul_self_le_rpow_one_add (s := v) (by linarith) hk
  linarith

/-- Comparing two functions `c (1 + a x) log (1 + d / Q)`. -/
theorem pw_cmp {c1 c2 a1 a2 d1 d2 k m s t x Q1 Q2 : ℝ} (hx : 0 < x) (hQ1 : 0 < Q1) (hQ2 : 0 < Q2) (hc2 : 0 < c2) (ha1 : 0 < a1)
    (hd1 : 0 < d1) (hd2 : 0 < d2) (hQ : Q1 ≤ m * Q2) (hd : d2 * m ≤ k * d1) (hk : 1 ≤ k) (ht : 1 ≤ t) (hat : a2 ≤ t * a1) (hc : c2 * k * t ≤ s * c1) :
    c2 * (1 + a2 * x) * log (1 + d2 / Q2) ≤ s * (c1 * (1 + a1 * x) * log (1 + d1 / Q1)) := by
  have h1 : d2 / Q2 ≤ k * (d1 / Q1) := by
    rw [div_le_iff₀ hQ2, mul_assoc, div_mul_eq_mul_div, ← mul_div_assoc, le_div_iff₀ hQ1]
    nlinarith [mul_le_mul_of_nonneg_left hQ hd2.le, mul_le_mul_of_nonneg_right hd hQ2.le]
  have h2 := log_one_add_le hk (by positivity : 0 ≤ d1 / Q1) (by positivity) h1
  have h3 : 0 ≤ log (1 + d1 / Q1) := Real.log_nonneg (by have : 0 < d1 / Q1 := by positivity
                                                         linarith)
  have h5 : 0 ≤ log (1 + d2 / Q2) := Real.log_nonneg (by have : 0 < d2 / Q2 := by positivity
                                                         linarith)
  have h4 : 1 + a2 * x ≤ t * (1 + a1 * x) := by nlinarith
  calc c2 * (1 + a2 * x) * log (1 + d2 / Q2) ≤ c2 * (t * (1 + a1 * x)) * (k * log (1 + d1 / Q1)) := by gcongr
    _ = (c2 * k * t) * ((1 + a1 * x) * log (1 + d1 / Q1)) := by ring
    _ ≤ (s * c1) * ((1 + a1 * x) * log (1 + d1 / Q1)) := by gcongr
    _ = _ := by ring

/-- The interpolation is negative if the three functions are comparable and the interpolating function is at most a little above 1. -/
theorem pw_mix_neg {A B C Z F : ℝ} (hA : 0 < A) (hC : C ≤ 17 / 20 * A) (hC0 : 0 ≤ C) (hB : A ≤ 10 * B) (hZ0 : 0 ≤ Z) (hZ1 : Z ≤ 1) (hF0 : 0 ≤ F) (hF1 : F ≤ 11 / 10) :
    -A + Z * F * (-B + A - C) + F * C < 0 := by
  have h1 : F * C ≤ 11 / 10 * (17 / 20 * A) := mul_le_mul hF1 hC hC0 (by norm_num)
  have h2 : F * (A - B) ≤ 11 / 10 * (9 / 10 * A) := by
    have : F * (A - B) ≤ F * (9 / 10 * A) := mul_le_mul_of_nonneg_left (by linarith) hF0
    have : F * (9 / 10 * A) ≤ 11 / 10 * (9 / 10 * A) := mul_le_mul_of_nonneg_right hF1 (by positivity)
    linarith
  have h3 : Z * (F * (A - B)) ≤ Z * (99 / 100 * A) := mul_le_mul_of_nonneg_left (by linarith) hZ0
  have h4 : (1 - Z) * (F * C) ≤ (1 - Z) * (99 / 100 * A) := mul_le_mul_of_nonneg_left (by linarith) (by linarith)
  nlinarith

/-- `x^{4/3}` on `[0,2]`, and the value for screened spins. -/
theorem cbrt43_le {x : ℝ} (h0 : 0 ≤ x) (h2 : x ≤ 2) : cbrtR x * x ≤ cbrtR 2 * x := mul_le_mul_of_nonneg_right (cbrtR_le h0 h2) h0

theorem cbrt43_ge {x : ℝ} (h0 : 0 ≤ x) : 1 + 4 / 3 * (x - 1) ≤ cbrtR x * x := by
  have hu : 0 ≤ cbrtR x := by rw [cbrtR_of_nonneg h0]; positivity
  have h3 : cbrtR x ^ 3 = x := cbrtR_pow3 h0
  set u := cbrtR x
  rw [← h3]
  nlinarith [sq_nonneg (u ^ 2 - 1), sq_nonneg (u - 1), mul_nonneg hu (sq_nonneg (u - 1)), sq_nonneg (u ^ 2 - u), mul_nonneg (sq_nonneg u) (sq_nonneg (u - 1))]

theorem cbrt2_bounds : 1.2599 < cbrtR 2 ∧ cbrtR 2 < 1.26 := by
  have h := cbrtR_pow3 (x := 2) (by norm_num)
  have hp := cbrtR_pos (x := 2) (by norm_num)
  constructor
  · by_contra hc
    push Not at hc
    have := pow_le_pow_left₀ hp.le hc 3
    norm_num at this; linarith
  · by_contra hc
    push Not at hc
    have := pow_le_pow_left₀ (by norm_num) hc 3
    norm_num at this; linarith

/-- The interpolating function with both screening branches: at least 0, at most 1.1 for thresholds up to 1/10. -/
theorem fzeta_bounds {x y zt f g : ℝ} (hx : 0 ≤ x) (hy : 0 ≤ y) (hxy : x + y = 2) (h0 : 0 < zt) (h1 : zt ≤ 1 / 10)
    (hf : f = cnd (x ≤ zt) (cbrtR zt * zt) (cbrtR x * x)) (hg : g = cnd (y ≤ zt) (cbrtR zt * zt) (cbrtR y * y)) :
    0 ≤ (f + g - 2) / (2 * cbrtR 2 - 2) ∧ (f + g - 2) / (2 * cbrtR 2 - 2) ≤ 11 / 10 := by
  obtain ⟨c1, c2⟩ := cbrt2_bounds
  have hz : cbrtR zt * zt ≤ 5 / 100 := by
    have : cbrtR zt ≤ 1 / 2 := by
      have := cbrtR_le h0.le (h1.trans (by norm_num : (1 / 10 : ℝ) ≤ (1 / 2) ^ 3))
      rwa [cbrtR_cube (by norm_num)] at this
    have := cbrtR_pos h0
    nlinarith
  have mono : ∀ {u}, 0 ≤ u → u ≤ zt → cbrtR u * u ≤ cbrtR zt * zt := fun {u} hu huz =>
    mul_le_mul (cbrtR_le hu huz) huz hu (cbrtR_pos h0).le
  have fx : cbrtR x * x ≤ f := by
    rw [hf, cnd]; split_ifs with h
    · exact mono hx h
    · rfl
  have gy : cbrtR y * y ≤ g := by
    rw [hg, cnd]; split_ifs with h
    · exact mono hy h
    · rfl
  have fx' : f ≤ cbrtR x * x + 5 / 100 := by
    rw [hf, cnd]; split_ifs with h
    · have : 0 ≤ cbrtR x * x := mul_nonneg (by rw [cbrtR_of_nonneg hx]; positivity) hx
      linarith
    · linarith
  have gy' : g ≤ cbrtR y * y + 5 / 100 := by
    rw [hg, cnd]; split_ifs with h
    · have : 0 ≤ cbrtR y * y := mul_nonneg (by rw [cbrtR_of_nonneg hy]; positivity) hy
      linarith
    · linarith
  have gy1 : y ≤ zt ∨ g ≤ cbrtR y * y := by
    by_cases h : y ≤ zt
    · exact .inl h
    · right; rw [hg, cnd, if_neg h]
  have fx1 : x ≤ zt ∨ f ≤ cbrtR x * x := by
    by_cases h : x ≤ zt
    · exact .inl h
    · right; rw [hf, cnd, if_neg h]
  have ax := cbrt43_ge hx
  have ay := cbrt43_ge hy
  have bx := cbrt43_le hx (by linarith)
  have by' := cbrt43_le hy (by linarith)
  have hd : 0 < 2 * cbrtR 2 - 2 := by linarith
  constructor
  · exact div_nonneg (by linarith) hd.le
  · rw [div_le_iff₀ hd]
    have hsum : cbrtR x * x + cbrtR y * y ≤ 2 * cbrtR 2 := by
      calc _ ≤ cbrtR 2 * x + cbrtR 2 * y := add_le_add bx by'
        _ = cbrtR 2 * (x + y) := by ring
        _ = _ := by rw [hxy]; ring
    rcases fx1 with h | h
    · rcases gy1 with h' | h'
      · linarith
      · nlinarith
    · nlinarith
end
end Verif.Lib
