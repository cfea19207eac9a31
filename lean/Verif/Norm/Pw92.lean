import Verif.Lib.Pw92
import Verif.Norm.Hints
/-!
# The sign of the Perdew–Wang interpolation in the shipped text

Proof machinery for C49.  `pwExpr` repeats the assignments `t1` to `t91` of `gen_repo/impl/prebuilt/pol/gga_c_pbe.py` (lines 1-41); the same text is part of many files.
-/
namespace Verif.Norm
open Verif.Py Verif.Spec Verif.Model Verif.Lib
noncomputable section
open Classical

/-- The interpolated correlation energy, for two sets of numbers. -/
def pwExpr (P : Prims) (zt cA cB cC dA dB dC r0 r1 : ℝ) : ℝ :=
  let t1 := (fn1Val P .cbrt (N 3 (0)))
  let t3 := (fn1Val P .cbrt ((N 1 (0)) / Real.pi))
  let t5 := (fn1Val P .cbrt (N 4 (0)))
  let t6 := (t5 ^ (N 2 (0)))
  let t7 := (r0 + r1)
  let t8 := (fn1Val P .cbrt t7)
  let t11 := (((t1 * t3) * t6) / t8)
  let t14 := (fn1Val P .sqrt t11)
  let t17 := (t11 ^ (N 15 (-1)))
  let t19 := (t1 ^ (N 2 (0)))
  let t20 := (t3 ^ (N 2 (0)))
  let t22 := (t8 ^ (N 2 (0)))
  let t25 := (((t19 * t20) * t5) / t22)
  let t31 := (fn1Val P .log ((N 1 (0)) + (dA / (((((N 379785 (-5)) * t14) + ((N 8969 (-4)) * t11)) + ((N 204775 (-6)) * t17)) + ((N 123235 (-6)) * t25)))))
  let t33 := ((cA * ((N 1 (0)) + ((N 53425 (-6)) * t11))) * t31)
  let t34 := (r0 - r1)
  let t35 := (t34 ^ (N 2 (0)))
  let t36 := (t35 ^ (N 2 (0)))
  let t37 := (t7 ^ (N 2 (0)))
  let t38 := (t37 ^ (N 2 (0)))
  let t42 := (t34 / t7)
  let t43 := ((N 1 (0)) + t42)
  let t44 := (t43 ≤ zt)
  let t45 := (fn1Val P .cbrt zt)
  let t46 := (t45 * zt)
  let t47 := (fn1Val P .cbrt t43)
  let t49 := (cnd t44 t46 (t47 * t43))
  let t50 := ((N 1 (0)) - t42)
  let t51 := (t50 ≤ zt)
  let t52 := (fn1Val P .cbrt t50)
  let t54 := (cnd t51 t46 (t52 * t50))
  let t56 := (fn1Val P .cbrt (N 2 (0)))
  let t60 := (((t49 + t54) - (N 2 (0))) / (((N 2 (0)) * t56) - (N 2 (0))))
  let t71 := (fn1Val P .log ((N 1 (0)) + (dB / (((((N 705945 (-5)) * t14) + ((N 1549425 (-6)) * t11)) + ((N 420775 (-6)) * t17)) + ((N 1562925 (-7)) * t25)))))
  let t84 := (fn1Val P .log ((N 1 (0)) + (dC / (((((N 51785 (-4)) * t14) + ((N 905775 (-6)) * t11)) + ((N 1100325 (-7)) * t17)) + ((N 1241775 (-7)) * t25)))))
  let t85 := (((N 1 (0)) + ((N 278125 (-7)) * t11)) * t84)
  let t89 := (((t36 / t38) * t60) * (((((-cB) * ((N 1 (0)) + ((N 5137 (-5)) * t11))) * t71) + t33) - (cC * t85)))
  let t91 := ((cC * t60) * t85)
  (-t33 + t89) + t91

theorem rpow_two' (x : ℝ) : x ^ (N 2 0) = x ^ 2 := by rw [show N 2 0 = ((2 : ℕ) : ℝ) by norm_num, Real.rpow_natCast]

/-- The same with names for the parts. -/
theorem pw_parts {cA cB cC dA dB dC x a w v Z F : ℝ} (hx : 0 < x) (ha : 0 < a) (hw : 0 < w) (hv : 0 < v) (hrel : w ≤ 2 * x + v / 2)
    (hZ0 : 0 ≤ Z) (hZ1 : Z ≤ 1) (hF0 : 0 ≤ F) (hF1 : F ≤ 11 / 10)
    (hcA : 0 < cA) (hcC : 0 < cC) (hdA : 0 < dA) (hdB : 0 < dB) (hdC : 0 < dC)
    (hd1 : dC * (13 / 10) ≤ 12 / 5 * dA) (hd2 : dA * (21 / 10) ≤ 11 / 10 * dB) (hc1 : cC * (12 / 5) ≤ 17 / 20 * cA) (hc2 : cA * (11 / 10) * 2 ≤ 10 * cB) :
    (-(cA * (N 1 0 + N 53425 (-6) * x) * Real.log (N 1 0 + dA / (N 379785 (-5) * a + N 8969 (-4) * x + N 204775 (-6) * w + N 123235 (-6) * v))) +
      Z * F * (-cB * (N 1 0 + N 5137 (-5) * x) * Real.log (N 1 0 + dB / (N 705945 (-5) * a + N 1549425 (-6) * x + N 420775 (-6) * w + N 1562925 (-7) * v)) +
        cA * (N 1 0 + N 53425 (-6) * x) * Real.log (N 1 0 + dA / (N 379785 (-5) * a + N 8969 (-4) * x + N 204775 (-6) * w + N 123235 (-6) * v)) -
        cC * ((N 1 0 + N 278125 (-7) * x) * Real.log (N 1 0 + dC / (N 51785 (-4) * a + N 905775 (-6) * x + N 1100325 (-7) * w + N 1241775 (-7) * v))))) +
      cC * F * ((N 1 0 + N 278125 (-7) * x) * Real.log (N 1 0 + dC / (N 51785 (-4) * a + N 905775 (-6) * x + N 1100325 (-7) * w + N 1241775 (-7) * v))) < 0 := by
  have one : N 1 0 = 1 := by norm_num
  rw [one]
  have lA : 0 < Real.log (1 + dA / (N 379785 (-5) * a + N 8969 (-4) * x + N 204775 (-6) * w + N 123235 (-6) * v)) :=
    Real.log_pos (lt_add_of_pos_right _ (by positivity))
  have lC : 0 < Real.log (1 + dC / (N 51785 (-4) * a + N 905775 (-6) * x + N 1100325 (-7) * w + N 1241775 (-7) * v)) :=
    Real.log_pos (lt_add_of_pos_right _ (by positivity))
  have hCA := pw_cmp (c1 := cA) (k := 12 / 5) (m := 13 / 10) (t := 1) (s := 17 / 20) (a1 := N 53425 (-6)) (a2 := N 278125 (-7)) (Q1 := N 379785 (-5) * a + N 8969 (-4) * x + N 204775 (-6) * w + N 123235 (-6) * v)
      (Q2 := N 51785 (-4) * a + N 905775 (-6) * x + N 1100325 (-7) * w + N 1241775 (-7) * v) hx (by positivity) (by positivity) hcC (by norm_num) hdA hdC
      (by norm_num; nlinarith) hd1 (by norm_num) le_rfl (by norm_num) (by linarith)
  have hAB := pw_cmp (c1 := cB) (k := 11 / 10) (m := 21 / 10) (t := 2) (s := 10) (a1 := N 5137 (-5)) (a2 := N 53425 (-6)) (Q1 := N 705945 (-5) * a + N 1549425 (-6) * x + N 420775 (-6) * w + N 1562925 (-7) * v)
      (Q2 := N 379785 (-5) * a + N 8969 (-4) * x + N 204775 (-6) * w + N 123235 (-6) * v) hx (by positivity) (by positivity) hcA (by norm_num) hdB hdA
      (by norm_num; nlinarith) hd2 (by norm_num) (by norm_num) (by norm_num) (by linarith)
  have hA1 : 0 < 1 + N 53425 (-6) * x := by positivity
  have hC1 : 0 < 1 + N 278125 (-7) * x := by positivity
  generalize Real.log (1 + dA / (N 379785 (-5) * a + N 8969 (-4) * x + N 204775 (-6) * w + N 123235 (-6) * v)) = A at *
  generalize Real.log (1 + dB / (N 705945 (-5) * a + N 1549425 (-6) * x + N 420775 (-6) * w + N 1562925 (-7) * v)) = B at *
  generalize Real.log (1 + dC / (N 51785 (-4) * a + N 905775 (-6) * x + N 1100325 (-7) * w + N 1241775 (-7) * v)) = C at *
  have key := pw_mix_neg (by positivity) hCA (by positivity) hAB hZ0 hZ1 hF0 hF1
  refine lt_of_eq_of_lt ?_ key
  ring

theorem pwExpr_neg (P : Prims) {zt cA cB cC dA dB dC r0 r1 : ℝ} (hz : 0 < zt) (hz1 : zt ≤ 1 / 10) (h0 : 0 < r0) (h1 : 0 ≤ r1)
    (hcA : 0 < cA) (hcC : 0 < cC) (hdA : 0 < dA) (hdB : 0 < dB) (hdC : 0 < dC)
    (hd1 : dC * (13 / 10) ≤ 12 / 5 * dA) (hd2 : dA * (21 / 10) ≤ 11 / 10 * dB) (hc1 : cC * (12 / 5) ≤ 17 / 20 * cA) (hc2 : cA * (11 / 10) * 2 ≤ 10 * cB) :
    pwExpr P zt cA cB cC dA dB dC r0 r1 < 0 := by
  unfold pwExpr
  extract_lets t1 t3 t5 t6 t7 t8 t11 t14 t17 t19 t20 t22 t25 t31 t33 t34 t35 t36 t37 t38 t42 t43 t44 t45 t46 t47 t49 t50 t51 t52 t54 t56 t60 t71 t84 t85 t89 t91
  have e1 : 0 < t1 := cbrtR_pos (by norm_num)
  have e3 : 0 < t3 := cbrtR_pos (by positivity)
  have e5 : 0 < t5 := cbrtR_pos (by norm_num)
  have e6 : t6 = t5 ^ 2 := rpow_two' _
  have e7 : 0 < t7 := add_pos_of_pos_of_nonneg h0 h1
  have e8 : 0 < t8 := cbrtR_pos e7
  have e11 : 0 < t11 := by show 0 < t1 * t3 * t6 / t8; rw [e6]; positivity
  have e14 : 0 < t14 := Real.sqrt_pos.mpr e11
  have e14' : t14 ^ 2 = t11 := Real.sq_sqrt e11.le
  have e17 : t17 = t14 ^ 3 := by
    show t11 ^ (N 15 (-1)) = Real.sqrt t11 ^ 3
    rw [Real.sqrt_eq_rpow, ← Real.rpow_natCast, ← Real.rpow_mul e11.le]; norm_num
  have e25 : t25 = t11 ^ 2 / 4 := by
    have h5 : t5 ^ 3 = 4 := by
      have := cbrtR_pow3 (x := N 4 0) (by norm_num)
      rw [show N 4 0 = 4 by norm_num] at this
      show cbrtR (N 4 0) ^ 3 = 4
      rw [show N 4 0 = 4 by norm_num, this]
    show t1 ^ (N 2 0) * t3 ^ (N 2 0) * t5 / t8 ^ (N 2 0) = (t1 * t3 * t6 / t8) ^ 2 / 4
    rw [rpow_two', rpow_two', rpow_two', e6, div_pow, mul_pow, mul_pow, ← pow_mul, show t5 ^ (2 * 2) = t5 ^ 3 * t5 by ring, h5]
    ring
  have h17 : 0 < t17 := by rw [e17]; positivity
  have h25 : 0 < t25 := by rw [e25]; positivity
  have hrel : t17 ≤ 2 * t11 + t25 / 2 := by
    rw [e17, e25, ← e14']
    nlinarith [mul_nonneg (sq_nonneg t14) (sq_nonneg (t14 - 4))]
  have e60 := fzeta_bounds (x := t43) (y := t50) (zt := zt) (f := t49) (g := t54)
    (by show 0 ≤ N 1 0 + (r0 - r1) / (r0 + r1)
        rw [show N 1 0 + (r0 - r1) / (r0 + r1) = 2 * r0 / (r0 + r1) by norm_num; field_simp; ring]; positivity)
    (by show 0 ≤ N 1 0 - (r0 - r1) / (r0 + r1)
        rw [show N 1 0 - (r0 - r1) / (r0 + r1) = 2 * r1 / (r0 + r1) by norm_num; field_simp; ring]; positivity)
    (by show N 1 0 + t42 + (N 1 0 - t42) = 2
        norm_num) hz hz1 rfl rfl
  have f60 : t60 = (t49 + t54 - 2) / (2 * cbrtR 2 - 2) := by
    show (t49 + t54 - N 2 0) / (N 2 0 * cbrtR (N 2 0) - N 2 0) = _
    rw [show N 2 0 = 2 by norm_num]
  rw [← f60] at e60
  have hZ0 : 0 ≤ t36 / t38 := by
    show 0 ≤ t35 ^ (N 2 0) / t37 ^ (N 2 0)
    rw [rpow_two', rpow_two']; positivity
  have hZ1 : t36 / t38 ≤ 1 := by
    show t35 ^ (N 2 0) / t37 ^ (N 2 0) ≤ 1
    rw [rpow_two', rpow_two']
    have h37 : 0 < t37 := by show 0 < t7 ^ (N 2 0); rw [rpow_two']; positivity
    have h35 : 0 ≤ t35 := by show 0 ≤ t34 ^ (N 2 0); rw [rpow_two']; positivity
    rw [div_le_one (by positivity)]
    refine pow_le_pow_left₀ h35 ?_ 2
    show (r0 - r1) ^ (N 2 0) ≤ (r0 + r1) ^ (N 2 0)
    rw [rpow_two', rpow_two']
    nlinarith
  exact pw_parts e11 e14 h17 h25 hrel hZ0 hZ1 e60.1 e60.2 hcA hcC hdA hdB hdC hd1 hd2 hc1 hc2

end
end Verif.Norm
