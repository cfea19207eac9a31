import Verif.Py.Sem
import Mathlib.Analysis.SpecialFunctions.Pow.NNReal
import Mathlib.Tactic.FieldSimp
/-!
# Vocabulary for writing shipped files as real expressions, and rules for cube roots
-/
namespace Verif.Lib
open Verif.Py
noncomputable section
open Classical

/-- The literal `m * 10^e`. -/
abbrev N (m : Nat) (e : Int) : ℝ := (m : ℝ) * (10 : ℝ) ^ e
/-- `lax_cond`. -/
abbrev cnd (c : Prop) (a b : ℝ) : ℝ := if c then a else b

theorem cbrtR_eight : cbrtR 8 = 2 := by
  rw [cbrtR, if_pos (by norm_num), show (8 : ℝ) = 2 ^ (3 : ℝ) by norm_num, ← Real.rpow_mul (by norm_num)]; norm_num

theorem cbrtR_one : cbrtR 1 = 1 := by
  rw [cbrtR, if_pos (by norm_num)]; norm_num

theorem cbrtR_pos {x : ℝ} (h : 0 < x) : 0 < cbrtR x := by
  rw [cbrtR, if_pos h.le]; positivity

theorem cbrtR_of_nonneg {x : ℝ} (h : 0 ≤ x) : cbrtR x = x ^ (1 / 3 : ℝ) := by rw [cbrtR, if_pos h]

theorem cbrtR_pow3 {x : ℝ} (h : 0 ≤ x) : cbrtR x ^ 3 = x := by
  rw [cbrtR_of_nonneg h, ← Real.rpow_natCast, ← Real.rpow_mul h]; norm_num

theorem cbrtR_cube {x : ℝ} (h : 0 ≤ x) : cbrtR (x ^ 3) = x := by
  rw [cbrtR_of_nonneg (by positivity), ← Real.rpow_natCast, ← Real.rpow_mul h]; norm_num

theorem cbrtR_mul {x y : ℝ} (hx : 0 ≤ x) (hy : 0 ≤ y) : cbrtR (x * y) = cbrtR x * cbrtR y := by
  rw [cbrtR_of_nonneg hx, cbrtR_of_nonneg hy, cbrtR_of_nonneg (mul_nonneg hx hy), Real.mul_rpow hx hy]

theorem cbrtR_div {x y : ℝ} (hx : 0 ≤ x) (hy : 0 ≤ y) : cbrtR (x / y) = cbrtR x / cbrtR y := by
  rw [cbrtR_of_nonneg hx, cbrtR_of_nonneg hy, cbrtR_of_nonneg (div_nonneg hx hy), Real.div_rpow hx hy]

theorem cbrtR_sq {x : ℝ} (hx : 0 ≤ x) : cbrtR (x ^ 2) = cbrtR x ^ 2 := by
  rw [pow_two, pow_two, cbrtR_mul hx hx]

/-- `x^(k/3)` is the `k`-th power of the cube root. -/
theorem rpow_third {x : ℝ} (hx : 0 ≤ x) (k : ℕ) : x ^ ((k : ℝ) / 3) = cbrtR x ^ k := by
  rw [cbrtR_of_nonneg hx, ← Real.rpow_natCast, ← Real.rpow_mul hx]; congr 1; ring

theorem cbrtR_lt {x y : ℝ} (hx : 0 ≤ x) (h : x < y) : cbrtR x < cbrtR y := by
  rw [cbrtR, cbrtR, if_pos hx, if_pos (hx.trans h.le)]
  exact Real.rpow_lt_rpow hx h (by norm_num)

theorem cbrtR_le {x y : ℝ} (hx : 0 ≤ x) (h : x ≤ y) : cbrtR x ≤ cbrtR y := by
  rw [cbrtR, cbrtR, if_pos hx, if_pos (hx.trans h)]
  exact Real.rpow_le_rpow hx h (by norm_num)

end
end Verif.Lib
