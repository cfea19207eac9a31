import Verif.Props.Literature
import Verif.Props.Exchange2
import Verif.Props.Exchange3
/-!
# C39, C40, C48: signs, bounds and monotonicity that follow from the closed forms
-/
namespace Verif.Props
open Verif.Py Verif.Model Verif.Spec Verif.Data Verif.Lib Real
noncomputable section
open Classical

theorem dirac_neg {n : ℝ} (h : 0 < n) : diracExchange n < 0 := by
  have : 0 < (3 / π) ^ (1 / 3 : ℝ) * n ^ (1 / 3 : ℝ) := by positivity
  rw [diracExchange]; nlinarith

theorem dirac_anti {n m : ℝ} (h : 0 < n) (hm : n < m) : diracExchange m < diracExchange n := by
  have h1 : 0 < (3 / π) ^ (1 / 3 : ℝ) := by positivity
  have h2 : n ^ (1 / 3 : ℝ) < m ^ (1 / 3 : ℝ) := rpow_lt_rpow h.le hm (by norm_num)
  rw [diracExchange, diracExchange]; nlinarith

/-- C39: at or below the threshold `lda_x` returns zero. -/
theorem lda_x_screened (P : Prims) (p : Rec) (n : ℝ) (h : n / 2 ≤ p.fld .densThreshold) : lda_x.unpol P p n none none none = .ok 0 := by
  rw [lda_x_unpolExpr_eq]
  simp [lda_x_unpolExpr, N, h]

/-- C39: `lda_x` is never positive for `alpha ≥ 0`. -/
theorem lda_x_nonpos (P : Prims) (p : Rec) (n : ℝ) (hz : p.fld .zetaThreshold < 1) (hn : 0 < n) (ha : 0 ≤ par p "alpha") :
    ∃ e, lda_x.unpol P p n none none none = .ok e ∧ e ≤ 0 := by
  by_cases h : n / 2 ≤ p.fld .densThreshold
  · exact ⟨_, lda_x_screened P p n h, le_rfl⟩
  · exact ⟨_, lda_x_is P p n ⟨hn, hz, not_le.mp h⟩, mul_nonpos_of_nonneg_of_nonpos ha (dirac_neg hn).le⟩

/-- C39: `lda_x` decreases with the density: strictly above the threshold if `alpha > 0`, and nowhere increases if `alpha ≥ 0`. -/
theorem lda_x_decreasing (P : Prims) (p : Rec) (n m : ℝ) (hz : p.fld .zetaThreshold < 1) (hn : 0 < n) (hm : n < m) (ha : 0 ≤ par p "alpha") :
    ∃ e e', lda_x.unpol P p n none none none = .ok e ∧ lda_x.unpol P p m none none none = .ok e' ∧ e' ≤ e ∧
      (p.fld .densThreshold < n / 2 → 0 < par p "alpha" → e' < e) := by
  by_cases h : n / 2 ≤ p.fld .densThreshold
  · obtain ⟨e', h1, h2⟩ := lda_x_nonpos P p m hz (hn.trans hm) ha
    exact ⟨_, e', lda_x_screened P p n h, h1, h2, fun h' => absurd h (not_le.mpr h')⟩
  · have h := not_le.mp h
    refine ⟨_, _, lda_x_is P p n ⟨hn, hz, h⟩, lda_x_is P p m ⟨hn.trans hm, hz, by linarith⟩, mul_le_mul_of_nonneg_left (dirac_anti hn hm).le ha,
      fun _ ha => mul_lt_mul_of_pos_left (dirac_anti hn hm) ha⟩

/-- C39, both spins: the exchange energy per volume is `-(3/4) (6/π)^(1/3) alpha (r0^(4/3) + r1^(4/3))`. -/
theorem lda_x_pol_is (P : Prims) (p : Rec) (r0 r1 : ℝ) (hp : Thresholds p) (h0 : 0 < r0) (h1 : 0 < r1) (hu : Unscreened p r0 r1) :
    ∃ e, lda_x.pol P p (r0, r1) none none none = .ok e ∧
      (r0 + r1) * e = par p "alpha" * (-(3 / 4) * (6 / π) ^ (1 / 3 : ℝ) * (r0 ^ (4 / 3 : ℝ) + r1 ^ (4 / 3 : ℝ))) := by
  obtain ⟨e, e0, e1, h, a, b, hs⟩ := lda_x_spinScaling P p r0 r1 0 0 0 0 0 0 0 hp h0 h1 le_rfl le_rfl le_rfl le_rfl hu
  refine ⟨e, h, ?_⟩
  have a' := lda_x_is P p (2 * r0) ⟨by linarith, hu.zeta, by linarith [hu.dens0]⟩
  have b' := lda_x_is P p (2 * r1) ⟨by linarith, hu.zeta, by linarith [hu.dens1]⟩
  have a'' := a.symm.trans a'
  have b'' := b.symm.trans b'
  injection a'' with a''
  injection b'' with b''
  have key : ∀ r : ℝ, 0 < r → r * diracExchange (2 * r) = -(3 / 4) * (6 / π) ^ (1 / 3 : ℝ) * r ^ (4 / 3 : ℝ) := by
    intro r hr
    have e1 : (6 / π : ℝ) = 2 * (3 / π) := by ring
    have e2 : r ^ (4 / 3 : ℝ) = r * r ^ (1 / 3 : ℝ) := by
      rw [show (4 / 3 : ℝ) = 1 + 1 / 3 by norm_num, rpow_add hr, rpow_one]
    rw [diracExchange, mul_rpow (by norm_num) hr.le, e1, mul_rpow (by norm_num) (by positivity), e2]
    ring
  rw [hs, a'', b'']
  linear_combination par p "alpha" * key r0 h0 + par p "alpha" * key r1 h1

theorem pbeFactor_bounds {κ μ s : ℝ} (hκ : 0 < κ) (hμ : 0 ≤ μ) : 1 ≤ pbeFactor κ μ s ∧ pbeFactor κ μ s < 1 + κ := by
  have h : 0 < κ + μ * s ^ 2 := by positivity
  have h1 : κ / (κ + μ * s ^ 2) ≤ 1 := by rw [div_le_one h]; nlinarith [sq_nonneg s]
  have h2 : 0 < κ / (κ + μ * s ^ 2) := by positivity
  rw [pbeFactor]
  constructor <;> nlinarith

theorem rpbeFactor_bounds {κ μ s : ℝ} (hκ : 0 < κ) (hμ : 0 ≤ μ) : 1 ≤ rpbeFactor κ μ s ∧ rpbeFactor κ μ s < 1 + κ := by
  have h0 : 0 ≤ μ * s ^ 2 / κ := by positivity
  have h1 : exp (-(μ * s ^ 2 / κ)) ≤ 1 := exp_le_one_iff.mpr (by linarith)
  have h2 := exp_pos (-(μ * s ^ 2 / κ))
  rw [rpbeFactor]
  constructor <;> nlinarith

/-- RPBE lies above PBE with the same parameters. -/
theorem pbe_le_rpbe {κ μ s : ℝ} (hκ : 0 < κ) (hμ : 0 ≤ μ) : pbeFactor κ μ s ≤ rpbeFactor κ μ s := by
  have h : 0 < κ + μ * s ^ 2 := by positivity
  rw [pbeFactor, rpbeFactor, exp_neg]
  have h3 : 1 + μ * s ^ 2 / κ ≤ exp (μ * s ^ 2 / κ) := by have := add_one_le_exp (μ * s ^ 2 / κ); linarith
  have h4 : (exp (μ * s ^ 2 / κ))⁻¹ ≤ κ / (κ + μ * s ^ 2) := by
    rw [show κ / (κ + μ * s ^ 2) = (1 + μ * s ^ 2 / κ)⁻¹ by field_simp]
    exact inv_anti₀ (by positivity) h3
  have := mul_le_mul_of_nonneg_left h4 hκ.le
  linarith

/-- C40: at zero gradient `gga_x_pbe` is `lda_x` with `alpha = 1`. -/
theorem gga_x_pbe_uniform (P : Prims) (p : Rec) (n : ℝ) (h : Above p n) (hk : par p "kappa" ≠ 0) :
    gga_x_pbe.unpol P p n (some 0) none none = .ok (diracExchange n) ∧ ∀ q : Rec, Above q n → par q "alpha" = 1 →
      lda_x.unpol P q n none none none = .ok (diracExchange n) := by
  refine ⟨?_, fun q hq ha => ?_⟩
  · rw [gga_x_pbe_is P p n 0 h le_rfl]
    simp [pbeFactor, reducedGradient, div_self hk]
  · rw [lda_x_is P q n hq]
    simp only [ha, one_mul]

/-- C40: `gga_x_pbe` lies between `(1 + kappa)` times and once the local exchange energy (local Lieb–Oxford bound). -/
theorem gga_x_pbe_bounds (P : Prims) (p : Rec) (n g : ℝ) (h : Above p n) (hg : 0 ≤ g) (hk : 0 < par p "kappa") (hm : 0 ≤ par p "mu") :
    ∃ e, gga_x_pbe.unpol P p n (some g) none none = .ok e ∧ (1 + par p "kappa") * diracExchange n < e ∧ e ≤ diracExchange n := by
  have hb := pbeFactor_bounds (s := reducedGradient n g) hk hm
  have hd := dirac_neg h.pos
  exact ⟨_, gga_x_pbe_is P p n g h hg, by nlinarith, by nlinarith⟩

/-- C40 for both spins, relative to the spin-scaled local exchange energy. -/
theorem gga_x_pbe_pol_bounds (P : Prims) (p : Rec) (r0 r1 s0 s1 s2 : ℝ) (hp : Thresholds p) (h0 : 0 < r0) (h1 : 0 < r1) (hs0 : 0 ≤ s0) (hs2 : 0 ≤ s2)
    (hu : Unscreened p r0 r1) (hk : 0 < par p "kappa") (hm : 0 ≤ par p "mu") :
    ∃ e, gga_x_pbe.pol P p (r0, r1) (some (s0, s1, s2)) none none = .ok e ∧
      (1 + par p "kappa") * (r0 * diracExchange (2 * r0) + r1 * diracExchange (2 * r1)) < (r0 + r1) * e ∧
      (r0 + r1) * e ≤ r0 * diracExchange (2 * r0) + r1 * diracExchange (2 * r1) := by
  obtain ⟨e, e0, e1, h, a, b, hs⟩ := gga_x_pbe_spinScaling P p r0 r1 s0 s1 s2 0 0 0 0 hp h0 h1 hs0 hs2 le_rfl le_rfl hu
  refine ⟨e, h, ?_⟩
  obtain ⟨x, hx, ha, ha'⟩ := gga_x_pbe_bounds P p (2 * r0) (4 * s0) ⟨by linarith, hu.zeta, by linarith [hu.dens0]⟩ (by linarith) hk hm
  obtain ⟨y, hy, hb, hb'⟩ := gga_x_pbe_bounds P p (2 * r1) (4 * s2) ⟨by linarith, hu.zeta, by linarith [hu.dens1]⟩ (by linarith) hk hm
  have ex := a.symm.trans hx
  have ey := b.symm.trans hy
  injection ex with ex
  injection ey with ey
  subst ex ey
  rw [hs]
  constructor <;> nlinarith

/-- C48: `gga_x_rpbe` satisfies the same bounds, and lies at or below `gga_x_pbe` with the same parameters. -/
theorem gga_x_rpbe_bounds (P : Prims) (p : Rec) (n g : ℝ) (h : Above p n) (hg : 0 ≤ g) (hk : 0 < par p "rpbe_kappa") (hm : 0 ≤ par p "rpbe_mu") :
    ∃ e, gga_x_rpbe.unpol P p n (some g) none none = .ok e ∧ (1 + par p "rpbe_kappa") * diracExchange n < e ∧ e ≤ diracExchange n ∧
      ∀ q : Rec, Above q n → par q "kappa" = par p "rpbe_kappa" → par q "mu" = par p "rpbe_mu" →
        ∃ e', gga_x_pbe.unpol P q n (some g) none none = .ok e' ∧ e ≤ e' := by
  have hb := rpbeFactor_bounds (s := reducedGradient n g) hk hm
  have hd := dirac_neg h.pos
  refine ⟨_, gga_x_rpbe_is P p n g h hg, by nlinarith, by nlinarith, fun q hq h1 h2 => ⟨_, gga_x_pbe_is P q n g hq hg, ?_⟩⟩
  have := pbe_le_rpbe (s := reducedGradient n g) hk hm
  beta_reduce
  rw [h1, h2]
  nlinarith

/-- C48: gradients lower the energy in `gga_x_b88` (for `beta, gamma ≥ 0`). -/
theorem gga_x_b88_le (P : Prims) (p : Rec) (n g : ℝ) (h : Above p n) (hg : 0 ≤ g) (hb : 0 ≤ par p "beta") (hc : 0 ≤ par p "gamma") :
    ∃ e, gga_x_b88.unpol P p n (some g) none none = .ok e ∧ e ≤ diracExchange n := by
  refine ⟨_, gga_x_b88_is P p n g h hg, ?_⟩
  have hd := dirac_neg h.pos
  have hx : 0 ≤ beckeX n g := by have := h.pos; rw [beckeX]; positivity
  have ha : 0 ≤ arsinh (beckeX n g) := arsinh_nonneg_iff.mpr hx
  have hs : 0 < spinExchangeCoeff := by rw [spinExchangeCoeff]; positivity
  have : 1 ≤ b88Factor (par p "beta") (par p "gamma") (beckeX n g) := by
    rw [b88Factor]
    have : 0 ≤ par p "beta" * beckeX n g ^ 2 / (1 + par p "gamma" * par p "beta" * beckeX n g * arsinh (beckeX n g)) / spinExchangeCoeff := by positivity
    linarith
  nlinarith

/-- C48: Wigner correlation with `a < 0 ≤ b` is negative and increases towards zero as the density falls. -/
theorem lda_c_wigner_neg (P : Prims) (p : Rec) (n m : ℝ) (hn : Above p n) (hm : Above p m) (ha : par p "a" < 0) (hb : 0 ≤ par p "b") (h : n < m) :
    ∃ e e', lda_c_wigner.unpol P p n none none none = .ok e ∧ lda_c_wigner.unpol P p m none none none = .ok e' ∧ e' < e ∧ e < 0 := by
  have hw : 0 < wsRadius m := by have := hm.pos; rw [wsRadius]; positivity
  have hlt : wsRadius m < wsRadius n := by
    have := hn.pos
    have := hm.pos
    rw [wsRadius, wsRadius]
    exact rpow_lt_rpow (by positivity) (div_lt_div_of_pos_left (by norm_num) (by positivity) (by have := pi_pos; nlinarith)) (by norm_num)
  refine ⟨_, _, lda_c_wigner_is P p n hn, lda_c_wigner_is P p m hm, ?_, ?_⟩
  · show _ / (_ + _) < _ / (_ + _)
    rw [div_lt_div_iff₀ (by positivity) (by linarith)]
    nlinarith
  · exact div_neg_of_neg_of_pos ha (by linarith)

theorem pw92G_neg {A α₁ β₁ β₂ β₃ β₄ q r : ℝ} (ha : 0 < A) (h1 : 0 ≤ α₁) (b1 : 0 < β₁) (b2 : 0 ≤ β₂) (b3 : 0 ≤ β₃) (b4 : 0 ≤ β₄) (hr : 0 < r) :
    pw92G A α₁ β₁ β₂ β₃ β₄ q r < 0 := by
  rw [pw92G]
  have h2 : 0 < 1 / (2 * A * (β₁ * r ^ (1 / 2 : ℝ) + β₂ * r + β₃ * r ^ (3 / 2 : ℝ) + β₄ * r ^ (q + 1))) := by positivity
  have hl := log_pos (by linarith : 1 < 1 + 1 / (2 * A * (β₁ * r ^ (1 / 2 : ℝ) + β₂ * r + β₃ * r ^ (3 / 2 : ℝ) + β₄ * r ^ (q + 1))))
  have : 0 < 2 * A * (1 + α₁ * r) := by positivity
  nlinarith

/-- C48: Perdew–Wang correlation is negative for `a > 0` and non-negative other parameters (one of the `beta` positive). -/
theorem lda_c_pw_neg (P : Prims) (p : Rec) (n : ℝ) (hn : Above p n) (ha : 0 < par p "a[0]") (h1 : 0 ≤ par p "alpha1[0]") (b1 : 0 < par p "beta1[0]")
    (b2 : 0 ≤ par p "beta2[0]") (b3 : 0 ≤ par p "beta3[0]") (b4 : 0 ≤ par p "beta4[0]") :
    ∃ e, lda_c_pw.unpol P p n none none none = .ok e ∧ e < 0 := by
  refine ⟨_, lda_c_pw_is P p n hn, ?_⟩
  have hw : 0 < wsRadius n := by have := hn.pos; rw [wsRadius]; positivity
  exact pw92G_neg ha h1 b1 b2 b3 b4 hw

/-- C48: Chachiyo correlation is negative for `a < 0 < b` and `c ≥ 0`. -/
theorem lda_c_chachiyo_neg (P : Prims) (p : Rec) (n : ℝ) (hn : Above p n) (ha : par p "ap" < 0) (hb : 0 < par p "bp") (hc : 0 ≤ par p "cp") :
    ∃ e, lda_c_chachiyo.unpol P p n none none none = .ok e ∧ e < 0 := by
  refine ⟨_, lda_c_chachiyo_is P p n hn, ?_⟩
  have hw : 0 < wsRadius n := by have := hn.pos; rw [wsRadius]; positivity
  have h1 : 0 < par p "bp" / wsRadius n := by positivity
  have h2 : 0 ≤ par p "cp" / wsRadius n ^ 2 := by positivity
  exact mul_neg_of_neg_of_pos ha (log_pos (by linarith))

/-- C48: for `gamma, lambda ≥ 1` the kinetic energy `gga_k_tflw` is at least Thomas–Fermi plus von Weizsäcker. -/
theorem gga_k_tflw_ge (P : Prims) (p : Rec) (n g : ℝ) (h : Above p n) (hg : 0 ≤ g) (h1 : 1 ≤ par p "gamma") (h2 : 1 ≤ par p "lambda_") :
    ∃ e, gga_k_tflw.unpol P p n (some g) none none = .ok e ∧ thomasFermi n + weizsaecker n g ≤ e := by
  refine ⟨_, gga_k_tflw_is P p n g h, ?_⟩
  have := h.pos
  have t : 0 ≤ thomasFermi n := by rw [thomasFermi]; positivity
  have w : 0 ≤ weizsaecker n g := by rw [weizsaecker]; positivity
  nlinarith

/-- The hypotheses are met, for instance, by the following record. -/
def litRec : Rec := ⟨fun _ => 1 / 1000, fun _ => 1⟩

example : Above litRec 1 := ⟨by norm_num, by norm_num [litRec], by norm_num [litRec]⟩
example : Thresholds litRec := ⟨by norm_num [litRec], by norm_num [litRec]⟩
example : Unscreened litRec 1 (1 / 2) := ⟨by norm_num [litRec], by norm_num [litRec], by norm_num [litRec], by norm_num [litRec], by norm_num [litRec]⟩
example : 0 < par litRec "kappa" ∧ 0 ≤ par litRec "mu" := ⟨by norm_num [litRec, par], by norm_num [litRec, par]⟩

end
end Verif.Props
