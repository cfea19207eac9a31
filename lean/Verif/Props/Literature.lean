import Verif.Props.LitForms
import Verif.Spec.Literature
/-!
# C39, C40, C47: shipped files against the formulas of the literature
-/
namespace Verif.Props
open Verif.Py Verif.Model Verif.Spec Verif.Data Verif.Lib Real
noncomputable section
open Classical

theorem cbrt4 : cbrtR 4 = cbrtR 2 ^ 2 := by rw [← cbrtR_sq (by norm_num)]; norm_num
theorem cbrt6 : cbrtR 6 = cbrtR 2 * cbrtR 3 := by rw [← cbrtR_mul (by norm_num) (by norm_num)]; norm_num
theorem cbrtPiSq : cbrtR (π ^ 2) = cbrtR π ^ 2 := cbrtR_sq pi_pos.le
theorem cbrtPiInv : cbrtR (1 / π) = 1 / cbrtR π := by rw [cbrtR_div (by norm_num) pi_pos.le, cbrtR_one]

theorem cbrtPiInv' : cbrtR π⁻¹ = (cbrtR π)⁻¹ := by rw [← one_div, cbrtPiInv, one_div]

theorem c2p : 0 < cbrtR 2 := cbrtR_pos (by norm_num)
theorem c3p : 0 < cbrtR 3 := cbrtR_pos (by norm_num)
theorem cpp : 0 < cbrtR π := cbrtR_pos pi_pos
theorem c2c : cbrtR 2 ^ 3 = 2 := cbrtR_pow3 (by norm_num)
theorem c3c : cbrtR 3 ^ 3 = 3 := cbrtR_pow3 (by norm_num)
theorem cpc : cbrtR π ^ 3 = π := cbrtR_pow3 pi_pos.le

theorem dirac_eq {n : ℝ} (h : 0 < n) : diracExchange n = -(3 / 4) * (cbrtR 3 / cbrtR π) * cbrtR n := by
  rw [diracExchange, ← cbrtR_of_nonneg (by positivity), ← cbrtR_of_nonneg h.le, cbrtR_div (by norm_num) pi_pos.le]

theorem fermiK_eq {n : ℝ} (h : 0 < n) : fermiK n = cbrtR 3 * cbrtR π ^ 2 * cbrtR n := by
  rw [fermiK, ← cbrtR_of_nonneg (by positivity), cbrtR_mul (by positivity) h.le, cbrtR_mul (by norm_num) (by positivity), cbrtPiSq]

theorem s_sq {n g : ℝ} (h : 0 < n) (hg : 0 ≤ g) : reducedGradient n g ^ 2 = g / (4 * cbrtR 3 ^ 2 * cbrtR π ^ 4 * cbrtR n ^ 8) := by
  rw [reducedGradient, fermiK_eq h, div_pow, Real.sq_sqrt hg]
  congr 1
  nth_rw 2 [← cbrtR_pow3 h.le]
  ring

theorem x_eq {n g : ℝ} (h : 0 < n) : beckeX n g = √g * cbrtR 2 / cbrtR n ^ 4 := by
  have : √(g / 4) = √g / 2 := by
    rw [Real.sqrt_div' _ (by norm_num), show (4 : ℝ) = 2 ^ 2 by norm_num, Real.sqrt_sq (by norm_num)]
  rw [beckeX, this, show (4 / 3 : ℝ) = ((4 : ℕ) : ℝ) / 3 by norm_num, rpow_third (by positivity), cbrtR_div h.le (by norm_num)]
  have := c2p
  have := cbrtR_pos h
  field_simp
  linear_combination √g * c2c

theorem ws_eq {n : ℝ} (h : 0 < n) : wsRadius n = cbrtR 3 / (cbrtR 2 ^ 2 * cbrtR π * cbrtR n) := by
  rw [wsRadius, ← cbrtR_of_nonneg (by positivity), cbrtR_div (by norm_num) (by positivity), cbrtR_mul (by positivity) h.le,
    cbrtR_mul (by norm_num) pi_pos.le, cbrt4]

theorem coeff_eq : spinExchangeCoeff = 3 / 2 * (cbrtR 3 / (cbrtR 2 ^ 2 * cbrtR π)) := by
  rw [spinExchangeCoeff, ← cbrtR_of_nonneg (by positivity), cbrtR_div (by norm_num) (by positivity), cbrtR_mul (by norm_num) pi_pos.le, cbrt4]

/-- Rewrites a goal `f.unpol … = .ok (spec)` into an equation between cube roots of 2, 3, π and the density. -/
local macro "unfold_code " e:ident ", " d:ident h:ident : tactic => `(tactic| (
  rw [$e:ident]
  have h2 := ($h).dens.not_ge
  have h1 := ($h).zeta.not_ge
  have hn0 := ($h).pos
  simp only [$d:ident, fn1Val, N, cnd, h1, h2, nameCode, nameCodeChars]
  simp [h1, h2, par, nameCode, nameCodeChars]
  try simp only [cbrtR_one, cbrt6, cbrt4, cbrtPiSq, cbrtPiInv, cbrtPiInv']
  have cp := cpp
  have c2 := c2p
  have c3 := c3p
  have hq := cbrtR_pos hn0))

/-- C39: `lda_x` is Slater exchange. -/
theorem lda_x_is : IsLDA lda_x fun p n => par p "alpha" * diracExchange n := by
  intro P p n h
  unfold_code lda_x_unpolExpr_eq, lda_x_unpolExpr h
  rw [dirac_eq h.pos]
  field_simp
  ring

theorem s2_code (a g n : ℝ) (h : 0 < n) (hg : 0 ≤ g) : a * (cbrtR 2 * cbrtR 3) / (cbrtR π ^ 2) ^ 2 * g * cbrtR 2 ^ 2 / cbrtR n ^ 2 / n ^ 2 / 24 =
    a * reducedGradient n g ^ 2 := by
  rw [s_sq h hg]
  have cp := cpp
  have c2 := c2p
  have c3 := c3p
  have hq := cbrtR_pos h
  have hn := cbrtR_pow3 h.le
  generalize cbrtR n = q at *
  subst hn
  field_simp
  rw [c2c, c3c]
  ring

/-- C40: `gga_x_pbe` is PBE exchange. -/
theorem gga_x_pbe_is : IsExchangeGGA gga_x_pbe fun p n g => pbeFactor (par p "kappa") (par p "mu") (reducedGradient n g) := by
  intro P p n g h hg
  unfold_code gga_x_pbe_unpolExpr_eq, gga_x_pbe_unpolExpr h
  rw [s2_code _ _ _ h.pos hg, dirac_eq h.pos, pbeFactor]
  field_simp
  ring


theorem s4_code (a g n : ℝ) (h : 0 < n) (hg : 0 ≤ g) : a * (cbrtR 2 * cbrtR 3) ^ 2 / cbrtR π ^ 2 / π ^ 2 * g ^ 2 * cbrtR 2 / cbrtR n / (n ^ 2) ^ 2 / n / 288 =
    a * reducedGradient n g ^ 4 := by
  rw [show reducedGradient n g ^ 4 = (reducedGradient n g ^ 2) ^ 2 by ring, s_sq h hg]
  have cp := cpp
  have c2 := c2p
  have c3 := c3p
  have hq := cbrtR_pos h
  have hn := cbrtR_pow3 h.le
  have hp := cpc
  have hpp := pi_pos
  generalize cbrtR n = q at *
  generalize cbrtR π = r at *
  generalize π = s at *
  subst hn hp
  field_simp
  rw [show cbrtR 3 ^ 6 = (cbrtR 3 ^ 3) ^ 2 by ring, c2c, c3c]
  ring

theorem s6_code (a g n : ℝ) (h : 0 < n) (hg : 0 ≤ g) : a / (π ^ 2) ^ 2 * g ^ 2 * g / ((n ^ 2) ^ 2) ^ 2 / 576 = a * reducedGradient n g ^ 6 := by
  rw [show reducedGradient n g ^ 6 = (reducedGradient n g ^ 2) ^ 3 by ring, s_sq h hg]
  have cp := cpp
  have c2 := c2p
  have c3 := c3p
  have hq := cbrtR_pos h
  have hn := cbrtR_pow3 h.le
  have hp := cpc
  have hpp := pi_pos
  generalize cbrtR n = q at *
  generalize cbrtR π = r at *
  generalize π = s at *
  subst hn hp
  field_simp
  rw [show cbrtR 3 ^ 6 = (cbrtR 3 ^ 3) ^ 2 by ring, c3c]
  ring

/-- C47: `gga_x_rpbe` is RPBE exchange. -/
theorem gga_x_rpbe_is : IsExchangeGGA gga_x_rpbe fun p n g => rpbeFactor (par p "rpbe_kappa") (par p "rpbe_mu") (reducedGradient n g) := by
  intro P p n g h hg
  unfold_code gga_x_rpbe_unpolExpr_eq, gga_x_rpbe_unpolExpr h
  have e : ∀ a b, -(a * (cbrtR 2 * cbrtR 3)) / (cbrtR π ^ 2) ^ 2 * g * cbrtR 2 ^ 2 / cbrtR n ^ 2 / n ^ 2 / b / 24 = -(a * reducedGradient n g ^ 2 / b) := by
    intro a b; rw [← s2_code _ _ _ h.pos hg]; ring
  rw [dirac_eq h.pos, rpbeFactor, e]
  ring

theorem x2_code (a g n : ℝ) (h : 0 < n) (hg : 0 ≤ g) : a * g * (cbrtR 2 ^ 2 / cbrtR n ^ 2 / n ^ 2) = a * (√g * cbrtR 2 / cbrtR n ^ 4) ^ 2 := by
  have hq := cbrtR_pos h
  have hn := cbrtR_pow3 h.le
  have := Real.sq_sqrt hg
  generalize cbrtR n = q at *
  generalize √g = v at *
  subst hn this
  field_simp

/-- C47: `gga_x_b86` is Becke's 1986 exchange. -/
theorem gga_x_b86_is : IsExchangeGGA gga_x_b86 fun p n g => b86Factor (par p "beta") (par p "gamma") (par p "omega") (beckeX n g) := by
  intro P p n g h hg
  unfold_code gga_x_b86_unpolExpr_eq, gga_x_b86_unpolExpr h
  rw [dirac_eq h.pos, b86Factor, x_eq h.pos, x2_code _ _ _ h.pos hg, x2_code _ _ _ h.pos hg, add_comm _ (1 : ℝ)]
  ring

theorem x1_code (n g : ℝ) (h : 0 < n) : √g * cbrtR 2 * ((cbrtR n)⁻¹ / n) = √g * cbrtR 2 / cbrtR n ^ 4 := by
  have hq := cbrtR_pos h
  have hn := cbrtR_pow3 h.le
  generalize cbrtR n = q at *
  subst hn
  field_simp

/-- C47: `gga_x_b88` is Becke's 1988 exchange. -/
theorem gga_x_b88_is : IsExchangeGGA gga_x_b88 fun p n g => b88Factor (par p "beta") (par p "gamma") (beckeX n g) := by
  intro P p n g h hg
  unfold_code gga_x_b88_unpolExpr_eq, gga_x_b88_unpolExpr h
  rw [dirac_eq h.pos, b88Factor, x_eq h.pos, x1_code _ _ h.pos, coeff_eq]
  have e : ∀ a b Y : ℝ, a * b * √g * cbrtR 2 * ((cbrtR n)⁻¹ / n) * Y = a * b * (√g * cbrtR 2 / cbrtR n ^ 4) * Y := by
    intro a b Y; rw [← x1_code _ _ h.pos]; ring
  rw [e, add_comm _ (1 : ℝ)]
  have e2 := x2_code (p.param 1650816097) g n h.pos hg
  have e3 : ∀ Z, 2 / 9 * p.param 1650816097 * cbrtR 3 ^ 2 / (cbrtR π)⁻¹ * cbrtR 2 ^ 2 * g * cbrtR 2 ^ 2 / cbrtR n ^ 2 / n ^ 2 / Z =
    2 / 9 * cbrtR 3 ^ 2 * cbrtR π * cbrtR 2 ^ 2 * (p.param 1650816097 * g * (cbrtR 2 ^ 2 / cbrtR n ^ 2 / n ^ 2)) / Z := by
    intro Z; field_simp
  rw [e3, e2]
  generalize (√g * cbrtR 2 / cbrtR n ^ 4) = x
  generalize (1 : ℝ) + _ * x * _ = Z
  have := c3c
  rw [div_eq_mul_inv _ Z, div_eq_mul_inv _ Z]
  field_simp
  linear_combination (-48 * (p.param 1650816097) * x ^ 2 * cbrtR π * cbrtR 2 ^ 2 * Z⁻¹) * this

/-- C47: `gga_x_g96`. -/
theorem gga_x_g96_is : IsExchangeGGA gga_x_g96 fun _ n g => g96Factor (beckeX n g) := by
  intro P p n g h hg
  unfold_code gga_x_g96_unpolExpr_eq, gga_x_g96_unpolExpr h
  have e : √g * cbrtR 2 / cbrtR n / n = √g * cbrtR 2 / cbrtR n ^ 4 := by rw [← x1_code _ _ h.pos]; ring
  rw [dirac_eq h.pos, g96Factor, x_eq h.pos, e, coeff_eq]
  have hx : 0 ≤ √g * cbrtR 2 / cbrtR n ^ 4 := by have := Real.sqrt_nonneg g; positivity
  generalize √g * cbrtR 2 / cbrtR n ^ 4 = x at *
  have e2 : x ^ (3 / 2 : ℝ) = √x * x := by
    rw [Real.sqrt_eq_rpow]
    nth_rw 3 [← Real.rpow_one x]
    rw [← Real.rpow_add_of_nonneg hx (by norm_num) (by norm_num)]
    norm_num
  rw [e2]
  have := c3c
  field_simp
  linear_combination (-6576 * √x * x * cbrtR π * cbrtR 2 ^ 2) * this

/-- C47: `gga_x_optx`. -/
theorem gga_x_optx_is : IsExchangeGGA gga_x_optx fun p n g => optxFactor (par p "a") (par p "b") (par p "gamma") (beckeX n g) := by
  intro P p n g h hg
  unfold_code gga_x_optx_unpolExpr_eq, gga_x_optx_unpolExpr h
  have e := x2_code (p.param 444016192865) g n h.pos hg
  rw [← mul_div_assoc, ← mul_div_assoc] at e
  rw [dirac_eq h.pos, optxFactor, x_eq h.pos, e]
  have e2 : 2 * p.param 98 * p.param 444016192865 ^ 2 * g ^ 2 * cbrtR 2 / cbrtR n / (n ^ 2) ^ 2 / n = p.param 98 * (p.param 444016192865 * (√g * cbrtR 2 / cbrtR n ^ 4) ^ 2) ^ 2 := by
    rw [← e]
    have hn := cbrtR_pow3 h.pos.le
    have := c2c
    generalize cbrtR n = q at *
    subst hn
    field_simp
    rw [c2c]
    ring
  rw [e2]
  generalize √g * cbrtR 2 / cbrtR n ^ 4 = x
  rw [div_pow]
  ring

/-- C47: `gga_x_pw86`. -/
theorem gga_x_pw86_is : IsExchangeGGA gga_x_pw86 fun p n g => pw86Factor (par p "aa") (par p "bb") (par p "cc") (reducedGradient n g) := by
  intro P p n g h hg
  unfold_code gga_x_pw86_unpolExpr_eq, gga_x_pw86_unpolExpr h
  rw [dirac_eq h.pos, pw86Factor, s2_code _ _ _ h.pos hg, s4_code _ _ _ h.pos hg, s6_code _ _ _ h.pos hg, one_div]
  ring

/-- C47: `gga_x_ev93`. -/
theorem gga_x_ev93_is : IsExchangeGGA gga_x_ev93 fun p n g =>
    ev93Factor (par p "a1") (par p "a2") (par p "a3") (par p "b1") (par p "b2") (par p "b3") (reducedGradient n g) := by
  intro P p n g h hg
  unfold_code gga_x_ev93_unpolExpr_eq, gga_x_ev93_unpolExpr h
  have e1 : ∀ a, a * (cbrtR 2 * cbrtR 3) * ((cbrtR π ^ 2) ^ 2)⁻¹ * (g * cbrtR 2 ^ 2 / cbrtR n ^ 2 / n ^ 2) / 24 = a * reducedGradient n g ^ 2 := by
    intro a; rw [← s2_code _ _ _ h.pos hg]; ring
  have e2 : ∀ a, a * (cbrtR 2 * cbrtR 3) ^ 2 * ((cbrtR π ^ 2)⁻¹ / π ^ 2) * (g ^ 2 * cbrtR 2 / cbrtR n / (n ^ 2) ^ 2 / n) / 288 = a * reducedGradient n g ^ 4 := by
    intro a; rw [← s4_code _ _ _ h.pos hg]; ring
  have e3 : ∀ a, a * ((π ^ 2) ^ 2)⁻¹ * (g ^ 2 * g / ((n ^ 2) ^ 2) ^ 2) / 576 = a * reducedGradient n g ^ 6 := by
    intro a; rw [← s6_code _ _ _ h.pos hg]; ring
  rw [dirac_eq h.pos, ev93Factor, e1, e2, e3, e1, e2, e3]
  ring

/-- C47: `gga_k_tflw` is Thomas–Fermi plus von Weizsäcker. -/
theorem gga_k_tflw_is (P : Prims) (p : Rec) (n g : ℝ) (h : Above p n) : gga_k_tflw.unpol P p n (some g) none none =
    .ok (par p "gamma" * thomasFermi n + par p "lambda_" * weizsaecker n g) := by
  unfold_code gga_k_tflw_unpolExpr_eq, gga_k_tflw_unpolExpr h
  have e : thomasFermi n = 3 / 10 * (cbrtR 3 ^ 2 * cbrtR π ^ 4) * cbrtR n ^ 2 := by
    rw [thomasFermi, show (2 / 3 : ℝ) = ((2 : ℕ) : ℝ) / 3 by norm_num, rpow_third (by positivity), rpow_third h.pos.le, cbrtR_mul (by norm_num) (by positivity), cbrtPiSq]
    ring
  rw [e, weizsaecker]
  have hn := cbrtR_pow3 h.pos.le
  have hp := cpc
  generalize cbrtR n = q at *
  generalize cbrtR π = r at *
  subst hn
  rw [← hp]
  have e2 := c2c
  have e3 := c3c
  field_simp
  rw [e2]
  linear_combination 240 * p.param 30506419914826079 * g * e3

/-- C47: `lda_k_tf`. -/
theorem lda_k_tf_is : IsLDA lda_k_tf fun p n => par p "ax" / wsRadius n ^ 2 := by
  intro P p n h
  unfold_code lda_k_tf_unpolExpr_eq, lda_k_tf_unpolExpr h
  rw [ws_eq h.pos]
  field_simp
  rw [c3c]

/-- C47: `lda_x_2d`. -/
theorem lda_x_2d_is : IsLDA lda_x_2d fun _ n => -(4 / 3) * √(2 / π) * √n := by
  intro P p n h
  unfold_code lda_x_2d_unpolExpr_eq, lda_x_2d_unpolExpr h
  ring

theorem rs_code (n : ℝ) (h : 0 < n) : cbrtR 3 * (cbrtR π)⁻¹ * (cbrtR 2 ^ 2) ^ 2 / cbrtR n = 4 * wsRadius n := by
  rw [ws_eq h]
  have cp := cpp
  have c2 := c2p
  have c3 := c3p
  have hq := cbrtR_pos h
  have := c2c
  field_simp
  rw [show cbrtR 2 ^ 6 = (cbrtR 2 ^ 3) ^ 2 by ring, this]
  norm_num

/-- C47: `lda_c_wigner`. -/
theorem lda_c_wigner_is : IsLDA lda_c_wigner fun p n => wignerCorr (par p "a") (par p "b") (wsRadius n) := by
  intro P p n h
  unfold_code lda_c_wigner_unpolExpr_eq, lda_c_wigner_unpolExpr h
  rw [rs_code _ h.pos, wignerCorr, mul_div_cancel_left₀ _ (by norm_num)]

/-- C47: `lda_c_rpa`. -/
theorem lda_c_rpa_is : IsLDA lda_c_rpa fun _ n => rpaCorr (wsRadius n) := by
  intro P p n h
  unfold_code lda_c_rpa_unpolExpr_eq, lda_c_rpa_unpolExpr h
  have e : cbrtR 3 * (cbrtR π)⁻¹ * ((cbrtR 2 ^ 2) ^ 2 / cbrtR n) = 4 * wsRadius n := by rw [← rs_code _ h.pos]; ring
  rw [mul_assoc (225 * _) _ ((cbrtR 2 ^ 2) ^ 2 / cbrtR n), e, mul_div_cancel_left₀ _ (by norm_num), rpaCorr]
  norm_num
  ring

/-- C47: `lda_c_pz`. -/
theorem lda_c_pz_is : IsLDA lda_c_pz fun p n => pzCorr (par p "gamma[0]") (par p "beta1[0]") (par p "beta2[0]") (par p "a[0]") (par p "b[0]") (par p "c[0]")
    (par p "d[0]") (wsRadius n) := by
  intro P p n h
  unfold_code lda_c_pz_unpolExpr_eq, lda_c_pz_unpolExpr h
  have e : cbrtR 3 * (cbrtR π)⁻¹ * ((cbrtR 2 ^ 2) ^ 2 * (cbrtR n)⁻¹) = 4 * wsRadius n := by rw [← rs_code _ h.pos]; ring
  have e2 : ∀ a, a * cbrtR 3 * ((cbrtR π)⁻¹ * (cbrtR 2 ^ 2) ^ 2 * (cbrtR n)⁻¹) / 4 = a * wsRadius n := by
    intro a; linear_combination a / 4 * e
  have e3 : ∀ a b, a * cbrtR 3 * (cbrtR π)⁻¹ * ((cbrtR 2 ^ 2) ^ 2 * (cbrtR n)⁻¹ * b) / 4 = a * (wsRadius n * b) := by
    intro a b; linear_combination a * b / 4 * e
  have e4 : ∀ a, a * √(4 * wsRadius n) / 2 = a * √(wsRadius n) := by
    intro a
    rw [Real.sqrt_mul (by norm_num), show (4 : ℝ) = 2 ^ 2 by norm_num, Real.sqrt_sq (by norm_num)]
    ring
  rw [e, e2, e2, e3, e4, mul_div_cancel_left₀ _ (by norm_num), pzCorr]

/-- C47: `lda_c_pw`. -/
theorem lda_c_pw_is : IsLDA lda_c_pw fun p n => pw92G (par p "a[0]") (par p "alpha1[0]") (par p "beta1[0]") (par p "beta2[0]") (par p "beta3[0]") (par p "beta4[0]")
    (par p "pp[0]") (wsRadius n) := by
  intro P p n h
  unfold_code lda_c_pw_unpolExpr_eq, lda_c_pw_unpolExpr h
  have e : cbrtR 3 * (cbrtR π)⁻¹ * (cbrtR 2 ^ 2) ^ 2 * (cbrtR n)⁻¹ = 4 * wsRadius n := by rw [← rs_code _ h.pos]; ring
  have e2 : ∀ a, a * cbrtR 3 * ((cbrtR π)⁻¹ * (cbrtR 2 ^ 2) ^ 2 * (cbrtR n)⁻¹) / 4 = a * wsRadius n := by
    intro a; linear_combination a / 4 * e
  have hw : 0 ≤ wsRadius n := by rw [wsRadius]; positivity
  have e4 : ∀ a, a * √(4 * wsRadius n) / 2 = a * wsRadius n ^ (1 / 2 : ℝ) := by
    intro a
    rw [← Real.sqrt_eq_rpow, Real.sqrt_mul (by norm_num), show (4 : ℝ) = 2 ^ 2 by norm_num, Real.sqrt_sq (by norm_num)]
    ring
  have e5 : ∀ a, 125 * (10 ^ 3)⁻¹ * a * (4 * wsRadius n) ^ (15 * 10⁻¹ : ℝ) = a * wsRadius n ^ (3 / 2 : ℝ) := by
    intro a
    rw [Real.mul_rpow (by norm_num) hw, show (15 * 10⁻¹ : ℝ) = 3 / 2 by norm_num,
      show (4 : ℝ) ^ (3 / 2 : ℝ) = 8 by
        rw [show (4 : ℝ) = 2 ^ (2 : ℝ) by norm_num, ← Real.rpow_mul (by norm_num), show (2 * (3 / 2) : ℝ) = (3 : ℕ) by norm_num, Real.rpow_natCast]; norm_num]
    ring
  rw [e, e2, e2, e4, e5, mul_div_cancel_left₀ _ (by norm_num), pw92G]
  have e6 : ∀ a b : ℝ, a⁻¹ / b / 2 = 1 / (2 * a * b) := by intro a b; rw [one_div, mul_inv, mul_inv]; ring
  rw [e6]
  ring

/-- C47: `lda_c_hl`. -/
theorem lda_c_hl_is : IsLDA lda_c_hl fun p n => hlCorr (par p "hl_c[0]") (wsRadius n / par p "hl_r[0]") := by
  intro P p n h
  unfold_code lda_c_hl_unpolExpr_eq, lda_c_hl_unpolExpr h
  have e3 := c3c
  have e : (wsRadius n)⁻¹ = cbrtR 3 ^ 2 / (cbrtR π)⁻¹ * (cbrtR 2 ^ 2 * cbrtR n) / 3 := by
    rw [ws_eq h.pos]
    field_simp
    exact e3.symm
  have e1 : wsRadius n ^ 3 = 3 / 4 * (π⁻¹ / n) := by
    rw [wsRadius, ← cbrtR_of_nonneg (by positivity), cbrtR_pow3 (by positivity)]
    have := pi_pos
    field_simp
  have e2 : wsRadius n ^ 2 = cbrtR 3 ^ 2 * (cbrtR π)⁻¹ ^ 2 * (cbrtR 2 ^ 2 / cbrtR n ^ 2) / 4 := by
    rw [ws_eq h.pos]
    have := c2c
    field_simp
    rw [show cbrtR 2 ^ 6 = (cbrtR 2 ^ 3) ^ 2 by ring, this]
    norm_num
  have e4 : cbrtR 3 * (cbrtR π)⁻¹ * ((cbrtR 2 ^ 2) ^ 2 / cbrtR n) = 4 * wsRadius n := by rw [← rs_code _ h.pos]; ring
  rw [hlCorr, e4, div_pow, e1, div_pow, e2, one_div_div, div_eq_mul_inv _ (wsRadius n), e]
  have e5 : ∀ a : ℝ, a * (cbrtR 3 ^ 2 / (cbrtR π)⁻¹ * (cbrtR 2 ^ 2 * cbrtR n) / 3) = cbrtR 3 ^ 2 / (cbrtR π)⁻¹ * (cbrtR 2 ^ 2 * cbrtR n) * a / 3 := by intro a; ring
  rw [e5]
  ring

/-- C47: `lda_c_chachiyo`. -/
theorem lda_c_chachiyo_is : IsLDA lda_c_chachiyo fun p n => chachiyoCorr (par p "ap") (par p "bp") (par p "cp") (wsRadius n) := by
  intro P p n h
  unfold_code lda_c_chachiyo_unpolExpr_eq, lda_c_chachiyo_unpolExpr h
  have e : (wsRadius n)⁻¹ = cbrtR 3 ^ 2 * cbrtR π * cbrtR 2 ^ 2 * cbrtR n / 3 := by
    rw [ws_eq h.pos]
    have e3 := c3c
    field_simp
    exact e3.symm
  rw [chachiyoCorr, div_eq_mul_inv _ (wsRadius n), div_eq_mul_inv _ (wsRadius n ^ 2), ← inv_pow (wsRadius n), e]
  have e3 := c3c
  congr 3
  · field_simp
  · field_simp
    linear_combination -(p.param 25456) * e3

end
end Verif.Props
