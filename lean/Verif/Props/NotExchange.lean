import Verif.Props.NotExchangeForms
import Verif.Props.LitForms
import Verif.Props.Asymmetric
import Verif.Props.Exchange3
import Verif.Spec.Scaling
import Mathlib.Analysis.Complex.ExponentialBounds
/-!
# C37 and C42 refuted for the formulas that do not have them
-/
namespace Verif.Props
open Verif.Py Verif.Model Verif.Spec Verif.Data Verif.Lib
noncomputable section
open Classical

/-- The same record with another `dens_threshold`. -/
def withDens (p : Rec) (d : ℝ) : Rec := ⟨fun x => match x with | .densThreshold => d | x => p.fld x, p.param⟩

/-- The code of an LDA formula never looks at `dens_threshold`. -/
structure DensFree (f : Formula) : Prop where
  onPol : ∀ P p d r0 r1, f.pol P (withDens p d) (r0, r1) none none none = f.pol P p (r0, r1) none none none
  onUnpol : ∀ P p d r, f.unpol P (withDens p d) r none none none = f.unpol P p r none none none

/-- An LDA formula that has C37, does not look at `dens_threshold` and is not zero has no screening at all. -/
theorem not_screened {f : Formula} (hd : DensFree f) (hs : SpinScaling .lda f) (P : Prims) (p : Rec) (hz : p.fld .zetaThreshold = 1 / 10) (e : ℝ)
    (he : f.unpol P p 1 none none none = .ok e) (hne : e ≠ 0) : ¬ ScreenedBoth .lda f ∧ ¬ ScreenedRest .lda f := by
  constructor
  · intro h
    have h1 := h P (withDens p 1) (1 / 2) (1 / 2) 0 0 0 0 0 0 0 ⟨by norm_num [withDens], by norm_num [withDens, hz]⟩ (by norm_num) (by norm_num) le_rfl le_rfl le_rfl
      le_rfl (by norm_num [withDens]) (by norm_num [withDens])
    obtain ⟨e', e0, e1, k1, k2, k3, k4⟩ := hs P (withDens p (1 / 4)) (1 / 2) (1 / 2) 0 0 0 0 0 0 0 ⟨by norm_num [withDens], by norm_num [withDens, hz]⟩
      (by norm_num) (by norm_num) le_rfl le_rfl le_rfl le_rfl
      ⟨by norm_num [withDens, hz], by norm_num [withDens], by norm_num [withDens], by norm_num [withDens, hz], by norm_num [withDens, hz]⟩
    simp only [Fam.grad, Fam.meta, hd.onPol, hd.onUnpol] at h1 k1 k2 k3
    norm_num at k2 k3
    rw [he] at k2 k3
    rw [h1] at k1
    injection k1 with k1
    injection k2 with k2
    injection k3 with k3
    subst k1 k2 k3
    exact hne (by linarith)
  · intro h
    obtain ⟨e', e0, h1, h2, h3⟩ := (h P (withDens p (3 / 4)) 1 (1 / 2) 0 0 0 0 0 0 0 ⟨by norm_num [withDens], by norm_num [withDens, hz]⟩ (by norm_num) (by norm_num)
      le_rfl le_rfl le_rfl le_rfl (by norm_num [withDens, hz]) (by norm_num [withDens, hz]) (by norm_num [withDens, hz])).1
      (by norm_num [withDens]) (by norm_num [withDens])
    obtain ⟨e'', e0', e1, k1, k2, k3, k4⟩ := hs P (withDens p (1 / 4)) 1 (1 / 2) 0 0 0 0 0 0 0 ⟨by norm_num [withDens], by norm_num [withDens, hz]⟩
      (by norm_num) (by norm_num) le_rfl le_rfl le_rfl le_rfl
      ⟨by norm_num [withDens, hz], by norm_num [withDens], by norm_num [withDens], by norm_num [withDens, hz], by norm_num [withDens, hz]⟩
    simp only [Fam.grad, Fam.meta, hd.onPol, hd.onUnpol] at h1 h2 k1 k2 k3
    norm_num at k3
    rw [he] at k3
    rw [h1] at k1
    rw [h2] at k2
    injection k1 with k1
    injection k2 with k2
    injection k3 with k3
    subst k1 k2 k3
    exact hne (by linarith)

/-- Interpretation of the special functions that the witnesses below do not use. -/
def noPrims : Prims := ⟨id, id, id, id, id, fun _ => id⟩

/-- A record with all parameters one, all thresholds 1/10 and no range separation. -/
def oneRec : Rec := ⟨fun | .camOmega => 0 | _ => 1 / 10, fun _ => 1⟩

theorem lda_k_tf_densFree : DensFree lda_k_tf :=
  ⟨fun P p d r0 r1 => by rw [lda_k_tf_polExpr_eq, lda_k_tf_polExpr_eq]; rfl, fun P p d r => by rw [lda_k_tf_unpolExpr_eq, lda_k_tf_unpolExpr_eq]; rfl⟩
theorem lda_x_2d_densFree : DensFree lda_x_2d :=
  ⟨fun P p d r0 r1 => by rw [lda_x_2d_polExpr_eq, lda_x_2d_polExpr_eq]; rfl, fun P p d r => by rw [lda_x_2d_unpolExpr_eq, lda_x_2d_unpolExpr_eq]; rfl⟩
theorem lda_x_sloc_densFree : DensFree lda_x_sloc :=
  ⟨fun P p d r0 r1 => by rw [lda_x_sloc_polExpr_eq, lda_x_sloc_polExpr_eq]; rfl, fun P p d r => by rw [lda_x_sloc_unpolExpr_eq, lda_x_sloc_unpolExpr_eq]; rfl⟩
theorem lda_x_erf_densFree : DensFree lda_x_erf :=
  ⟨fun P p d r0 r1 => by rw [lda_x_erf_polExpr_eq, lda_x_erf_polExpr_eq]; rfl, fun P p d r => by rw [lda_x_erf_unpolExpr_eq, lda_x_erf_unpolExpr_eq]; rfl⟩
theorem lda_x_yukawa_densFree : DensFree lda_x_yukawa :=
  ⟨fun P p d r0 r1 => by rw [lda_x_yukawa_polExpr_eq, lda_x_yukawa_polExpr_eq]; rfl, fun P p d r => by rw [lda_x_yukawa_unpolExpr_eq, lda_x_yukawa_unpolExpr_eq]; rfl⟩
theorem lda_k_zlp_densFree : DensFree lda_k_zlp :=
  ⟨fun P p d r0 r1 => by rw [lda_k_zlp_polExpr_eq, lda_k_zlp_polExpr_eq]; rfl, fun P p d r => by rw [lda_k_zlp_unpolExpr_eq, lda_k_zlp_unpolExpr_eq]; rfl⟩

/-- C37 holds for `lda_x_sloc`, whose exponent is a parameter. -/
theorem lda_x_sloc_spinScaling : SpinScaling .lda lda_x_sloc := by
  intro P p r0 r1 s0 s1 s2 l0 l1 t0 t1 hp h0 h1 _ _ _ _ hu
  refine ⟨_, _, _, lda_x_sloc_polExpr_eq P p r0 r1, lda_x_sloc_unpolExpr_eq P p _, lda_x_sloc_unpolExpr_eq P p _, ?_⟩
  have hn : 0 < r0 + r1 := by linarith
  have hz := hu.zeta
  have e0 : 1 + (r0 - r1) / (r0 + r1) = 2 * r0 / (r0 + r1) := by field_simp; ring
  have e1 : 1 - (r0 - r1) / (r0 + r1) = 2 * r1 / (r0 + r1) := by field_simp; ring
  have c0 : ¬ 2 * r0 / (r0 + r1) ≤ p.fld .zetaThreshold := by rw [not_le, lt_div_iff₀ hn]; exact hu.share0
  have c1 : ¬ 2 * r1 / (r0 + r1) ≤ p.fld .zetaThreshold := by rw [not_le, lt_div_iff₀ hn]; exact hu.share1
  simp only [lda_x_sloc_polExpr, lda_x_sloc_unpolExpr, N, cnd]
  norm_num only [zpow_zero, mul_one, Nat.cast_one, Nat.cast_ofNat]
  simp only [e0, e1, c0, c1, hz.not_ge, if_false]
  have hp0 : (2 * r0 / (r0 + r1)) ^ (p.param 98 + 1) = (2 * r0) ^ p.param 98 * (2 * r0) / ((r0 + r1) ^ p.param 98 * (r0 + r1)) := by
    rw [Real.div_rpow (by positivity) hn.le, Real.rpow_add_one (by positivity), Real.rpow_add_one (by positivity)]
  have hp1 : (2 * r1 / (r0 + r1)) ^ (p.param 98 + 1) = (2 * r1) ^ p.param 98 * (2 * r1) / ((r0 + r1) ^ p.param 98 * (r0 + r1)) := by
    rw [Real.div_rpow (by positivity) hn.le, Real.rpow_add_one (by positivity), Real.rpow_add_one (by positivity)]
  rw [hp0, hp1]
  have : 0 < (r0 + r1) ^ p.param 98 := by positivity
  generalize (-p.param 97 / (p.param 98 + 1)) = c
  field_simp

theorem lda_k_tf_one : lda_k_tf_unpolExpr noPrims oneRec 1 ≠ 0 := by
  have := cbrtR_pos (x := 3) (by norm_num)
  have := cbrtR_pos (x := 4) (by norm_num)
  have := cbrtR_pos (x := Real.pi⁻¹) (by positivity)
  simp [lda_k_tf_unpolExpr, fn1Val, oneRec, cbrtR_one]
  norm_num
  refine ⟨⟨?_, ?_⟩, ?_⟩ <;> positivity

theorem lda_x_2d_one : lda_x_2d_unpolExpr noPrims oneRec 1 ≠ 0 := by
  simp [lda_x_2d_unpolExpr, fn1Val, oneRec]
  norm_num
  positivity

theorem lda_x_sloc_one : lda_x_sloc_unpolExpr noPrims oneRec 1 ≠ 0 := by
  simp [lda_x_sloc_unpolExpr, oneRec]
  norm_num

theorem lda_x_erf_one : lda_x_erf_unpolExpr noPrims oneRec 1 ≠ 0 := by
  have := cbrtR_pos (x := 3) (by norm_num)
  have := cbrtR_pos (x := 4) (by norm_num)
  have := cbrtR_pos (x := 2) (by norm_num)
  have := cbrtR_pos (x := Real.pi⁻¹) (by positivity)
  simp [lda_x_erf_unpolExpr, fn1Val, oneRec, cbrtR_one]
  norm_num
  refine ⟨⟨⟨?_, ?_⟩, ?_⟩, ?_⟩ <;> positivity

theorem lda_x_yukawa_one : lda_x_yukawa_unpolExpr noPrims oneRec 1 ≠ 0 := by
  have := cbrtR_pos (x := 3) (by norm_num)
  have := cbrtR_pos (x := 4) (by norm_num)
  have := cbrtR_pos (x := 2) (by norm_num)
  have := cbrtR_pos (x := Real.pi⁻¹) (by positivity)
  simp [lda_x_yukawa_unpolExpr, fn1Val, fn2Val, oneRec, cbrtR_one]
  norm_num
  refine ⟨⟨⟨?_, ?_⟩, ?_⟩, ?_⟩ <;> positivity

theorem lda_k_tf_not_screened : ¬ ScreenedBoth .lda lda_k_tf ∧ ¬ ScreenedRest .lda lda_k_tf :=
  not_screened lda_k_tf_densFree lda_k_tf_spinScaling noPrims oneRec rfl _ (lda_k_tf_unpolExpr_eq _ _ _) lda_k_tf_one
theorem lda_x_2d_not_screened : ¬ ScreenedBoth .lda lda_x_2d ∧ ¬ ScreenedRest .lda lda_x_2d :=
  not_screened lda_x_2d_densFree lda_x_2d_spinScaling noPrims oneRec rfl _ (lda_x_2d_unpolExpr_eq _ _ _) lda_x_2d_one
theorem lda_x_sloc_not_screened : ¬ ScreenedBoth .lda lda_x_sloc ∧ ¬ ScreenedRest .lda lda_x_sloc :=
  not_screened lda_x_sloc_densFree lda_x_sloc_spinScaling noPrims oneRec rfl _ (lda_x_sloc_unpolExpr_eq _ _ _) lda_x_sloc_one
theorem lda_x_erf_not_screened : ¬ ScreenedBoth .lda lda_x_erf ∧ ¬ ScreenedRest .lda lda_x_erf :=
  not_screened lda_x_erf_densFree lda_x_erf_spinScaling noPrims oneRec rfl _ (lda_x_erf_unpolExpr_eq _ _ _) lda_x_erf_one
theorem lda_x_yukawa_not_screened : ¬ ScreenedBoth .lda lda_x_yukawa ∧ ¬ ScreenedRest .lda lda_x_yukawa :=
  not_screened lda_x_yukawa_densFree lda_x_yukawa_spinScaling noPrims oneRec rfl _ (lda_x_yukawa_unpolExpr_eq _ _ _) lda_x_yukawa_one

/-! ### `gga_x_lb`: the code only looks at the first spin -/

theorem gga_x_lb_unpol_zero (P : Prims) (p : Rec) (r0 : ℝ) : gga_x_lb_unpolExpr P p r0 0 =
    -(p.param (nameCode "alpha") * cbrtR 3 * cbrtR (1 / Real.pi) * cbrtR 4 ^ (2 : ℝ) / 2) * cbrtR 2 ^ (2 : ℝ) * cbrtR r0 / 2 := by
  simp [gga_x_lb_unpolExpr, fn1Val, N, cnd, nameCode, nameCodeChars]
  ring

/-- The factor of `gga_x_lb` at zero gradient. -/
theorem lbC_pos : 0 < (someRec 1).param (nameCode "alpha") * cbrtR 3 * cbrtR (1 / Real.pi) * cbrtR 4 ^ (2 : ℝ) / 2 := by
  have a1 := cbrtR_pos (x := 3) (by norm_num)
  have a2 := cbrtR_pos (x := 1 / Real.pi) (by positivity)
  have a3 := cbrtR_pos (x := 4) (by norm_num)
  have a4 : 0 < (someRec 1).param (nameCode "alpha") := by norm_num [someRec]
  positivity

theorem lb_half (x : ℝ) (hx : 0 ≤ x) : cbrtR 2 ^ (2 : ℝ) * cbrtR (2 * x) / 2 = cbrtR x := by
  rw [cbrtR_mul (by norm_num) hx, Real.rpow_ofNat]
  have := cbrtR_pow3 (x := 2) (by norm_num)
  linear_combination (cbrtR x / 2) * this

theorem gga_x_lb_not_spinScaling : ¬ SpinScaling .gga gga_x_lb := by
  intro h
  obtain ⟨e, e0, e1, k1, k2, k3, k4⟩ := h noPrims (someRec 1) 8 1 0 0 0 0 0 0 0 ⟨by norm_num [someRec], by norm_num [someRec]⟩ (by norm_num) (by norm_num)
    le_rfl le_rfl le_rfl le_rfl ⟨by norm_num [someRec], by norm_num [someRec], by norm_num [someRec], by norm_num [someRec], by norm_num [someRec]⟩
  have h1 := (lbPol_eq _ _ _ _ _ _ _).symm.trans k1
  have h2 := (gga_x_lb_unpolExpr_eq _ _ _ _).symm.trans k2
  have h3 := (gga_x_lb_unpolExpr_eq _ _ _ _).symm.trans k3
  rw [mul_zero] at h2 h3
  rw [lbPol_zero, cbrtR_eight] at h1
  rw [gga_x_lb_unpol_zero, mul_assoc, mul_div_assoc, lb_half _ (by norm_num), cbrtR_eight] at h2
  rw [gga_x_lb_unpol_zero, mul_assoc, mul_div_assoc, lb_half _ (by norm_num), cbrtR_one] at h3
  injection h1 with h1
  injection h2 with h2
  injection h3 with h3
  have := lbC_pos
  generalize (someRec 1).param (nameCode "alpha") * cbrtR 3 * cbrtR (1 / Real.pi) * cbrtR 4 ^ (2 : ℝ) / 2 = c at *
  subst h1 h2 h3
  linarith

theorem gga_x_lb_not_screenedBoth : ¬ ScreenedBoth .gga gga_x_lb := by
  intro h
  have k1 := h noPrims (someRec 1) (1 / 10) (1 / 10) 0 0 0 0 0 0 0 ⟨by norm_num [someRec], by norm_num [someRec]⟩ (by norm_num) (by norm_num)
    le_rfl le_rfl le_rfl le_rfl (by norm_num [someRec]) (by norm_num [someRec])
  have h1 := (lbPol_eq _ _ _ _ _ _ _).symm.trans k1
  rw [lbPol_zero] at h1
  injection h1 with h1
  have := lbC_pos
  have a := cbrtR_pos (x := 1 / 10) (by norm_num)
  nlinarith [mul_pos this a]

theorem gga_x_lb_not_screenedRest : ¬ ScreenedRest .gga gga_x_lb := by
  intro h
  obtain ⟨e, e1, k1, k2, k4⟩ := (h noPrims (someRec 1) (1 / 10) 1 0 0 0 0 0 0 0 ⟨by norm_num [someRec], by norm_num [someRec]⟩ (by norm_num) (by norm_num)
    le_rfl le_rfl le_rfl le_rfl (by norm_num [someRec]) (by norm_num [someRec]) (by norm_num [someRec])).2 (by norm_num [someRec]) (by norm_num [someRec])
  have h1 := (lbPol_eq _ _ _ _ _ _ _).symm.trans k1
  have h2 := (gga_x_lb_unpolExpr_eq _ _ _ _).symm.trans k2
  rw [mul_zero] at h2
  rw [lbPol_zero] at h1
  rw [gga_x_lb_unpol_zero, mul_assoc, mul_div_assoc, lb_half _ (by norm_num), cbrtR_one] at h2
  injection h1 with h1
  injection h2 with h2
  have a : cbrtR (1 / 10) < 1 / 2 := by
    rw [show (1 / 2 : ℝ) = cbrtR ((1 / 2) ^ 3) from (cbrtR_cube (by norm_num)).symm]
    exact cbrtR_lt (by norm_num) (by norm_num)
  have := lbC_pos
  generalize (someRec 1).param (nameCode "alpha") * cbrtR 3 * cbrtR (1 / Real.pi) * cbrtR 4 ^ (2 : ℝ) / 2 = c at *
  subst h1 h2
  nlinarith [mul_pos this (sub_pos.2 a)]

/-- Thresholds one, parameter `beta` one, the other parameters zero. -/
def betaRec : Rec := ⟨fun _ => 1, fun n => if n = nameCode "beta" then 1 else 0⟩

theorem gga_x_lb_not_screenedOne : ¬ ScreenedOne .gga gga_x_lb := by
  intro h
  obtain ⟨e, k1, k2⟩ := (h noPrims betaRec 1 1 0 0 0 0 0 0 0 ⟨by norm_num [betaRec], by norm_num [betaRec]⟩ (by norm_num) (by norm_num)
    le_rfl le_rfl le_rfl le_rfl).2 (by norm_num [betaRec]) 1 0 0 0 zero_le_one le_rfl
  have h1 := (lbPol_eq _ _ _ _ _ _ _).symm.trans k1
  have h2 := (lbPol_eq _ _ _ _ _ _ _).symm.trans k2
  have a1 : lbPol noPrims betaRec 1 0 = 0 := by rw [lbPol_zero]; simp [betaRec, nameCode, nameCodeChars]
  have a2 : lbPol noPrims betaRec 1 1 = -1 := by
    simp [lbPol, fn1Val, betaRec, cbrtR_one, nameCode, nameCodeChars]
    norm_num [N]
  rw [a1] at h1
  rw [a2] at h2
  injection h1 with h1
  injection h2 with h2
  linarith

/-! ### `mgga_x_2d_prp10`: the code only looks at the first spin -/

/-- The polarized code of `mgga_x_2d_prp10` on special inputs of the first spin. -/
theorem prp_val (P : Prims) (p : Rec) (x a r1 s1 s2 l1 t1 : ℝ) (hx : 0 < x) (ha : 1 ≤ a) :
    mgga_x_2d_prp10.pol P p (x ^ 2, r1) (some (0, s1, s2)) (some (4 * (x ^ 4 * a), l1)) (some (x ^ 4 * a, t1)) =
      .ok (-(Real.pi * P.i0 (P.lambertw 0 / 2 + 1 / 2) - 4 / 3 * (1 / Real.pi) * Real.sqrt a) * x) := by
  rw [prpPol_eq, prpPol_special P x a hx ha]

/-- The values for `a = 1` and `a = 4` differ. -/
theorem prp_ne (c x : ℝ) (hx : 0 < x) : -(c - 4 / 3 * (1 / Real.pi) * Real.sqrt 1) * x ≠ -(c - 4 / 3 * (1 / Real.pi) * Real.sqrt 4) * x := by
  rw [show (4 : ℝ).sqrt = 2 by rw [show (4 : ℝ) = 2 ^ 2 by norm_num, Real.sqrt_sq (by norm_num)], Real.sqrt_one]
  intro h
  have h := mul_right_cancel₀ hx.ne' h
  have : 0 < 1 / Real.pi := by positivity
  linarith

theorem mgga_x_2d_prp10_not_spinScaling : ¬ SpinScaling .mgga mgga_x_2d_prp10 := by
  intro h
  have hp : Thresholds (someRec 1) := ⟨by norm_num [someRec], by norm_num [someRec]⟩
  have hu : Unscreened (someRec 1) (1 ^ 2) (1 ^ 2) :=
    ⟨by norm_num [someRec], by norm_num [someRec], by norm_num [someRec], by norm_num [someRec], by norm_num [someRec]⟩
  obtain ⟨e, e0, e1, k1, k2, k3, k4⟩ := h noPrims (someRec 1) (1 ^ 2) (1 ^ 2) 0 0 0 (4 * (1 ^ 4 * 1)) (4 * (1 ^ 4 * 1)) (1 ^ 4 * 1) (1 ^ 4 * 1) hp
    (by norm_num) (by norm_num) le_rfl le_rfl (by norm_num) (by norm_num) hu
  obtain ⟨e', e0', e1', m1, m2, m3, m4⟩ := h noPrims (someRec 1) (1 ^ 2) (1 ^ 2) 0 0 0 (4 * (1 ^ 4 * 1)) (4 * (1 ^ 4 * 4)) (1 ^ 4 * 1) (1 ^ 4 * 4) hp
    (by norm_num) (by norm_num) le_rfl le_rfl (by norm_num) (by norm_num) hu
  obtain ⟨e'', e0'', e1'', n1, n2, n3, n4⟩ := h noPrims (someRec 1) (1 ^ 2) (1 ^ 2) 0 0 0 (4 * (1 ^ 4 * 4)) (4 * (1 ^ 4 * 4)) (1 ^ 4 * 4) (1 ^ 4 * 4) hp
    (by norm_num) (by norm_num) le_rfl le_rfl (by norm_num) (by norm_num) hu
  have q1 := (prp_val noPrims (someRec 1) 1 1 _ _ _ _ _ one_pos le_rfl).symm.trans k1
  have q2 := (prp_val noPrims (someRec 1) 1 1 _ _ _ _ _ one_pos le_rfl).symm.trans m1
  have q3 := (prp_val noPrims (someRec 1) 1 4 _ _ _ _ _ one_pos (by norm_num)).symm.trans n1
  injection q1 with q1
  injection q2 with q2
  injection q3 with q3
  have w1 := k2.symm.trans k3
  have w2 := k2.symm.trans m2
  have w3 := m3.symm.trans n3
  have w4 := n2.symm.trans n3
  injection w1 with w1
  injection w2 with w2
  injection w3 with w3
  injection w4 with w4
  refine prp_ne (Real.pi * noPrims.i0 (noPrims.lambertw 0 / 2 + 1 / 2)) 1 one_pos ?_
  rw [q1, q3]
  linarith

theorem mgga_x_2d_prp10_not_screenedBoth : ¬ ScreenedBoth .mgga mgga_x_2d_prp10 := by
  intro h
  have k (a : ℝ) (ha : 1 ≤ a) := h noPrims (someRec 1) ((1 / 10) ^ 2) ((1 / 10) ^ 2) 0 0 0 (4 * ((1 / 10) ^ 4 * a)) 0 ((1 / 10) ^ 4 * a) 0
    ⟨by norm_num [someRec], by norm_num [someRec]⟩ (by norm_num) (by norm_num) le_rfl le_rfl (by positivity) le_rfl (by norm_num [someRec]) (by norm_num [someRec])
  have q1 := (prp_val noPrims (someRec 1) (1 / 10) 1 _ _ _ _ _ (by norm_num) le_rfl).symm.trans (k 1 le_rfl)
  have q2 := (prp_val noPrims (someRec 1) (1 / 10) 4 _ _ _ _ _ (by norm_num) (by norm_num)).symm.trans (k 4 (by norm_num))
  injection q1 with q1
  injection q2 with q2
  exact prp_ne _ (1 / 10) (by norm_num) (q1.trans q2.symm)

theorem mgga_x_2d_prp10_not_screenedOne : ¬ ScreenedOne .mgga mgga_x_2d_prp10 := by
  intro h
  obtain ⟨e, k1, k2⟩ := (h noPrims (someRec 1) ((1 / 10) ^ 2) ((1 / 10) ^ 2) 0 0 0 (4 * ((1 / 10) ^ 4 * 1)) 0 ((1 / 10) ^ 4 * 1) 0
    ⟨by norm_num [someRec], by norm_num [someRec]⟩ (by norm_num) (by norm_num) le_rfl le_rfl (by positivity) le_rfl).2 (by norm_num [someRec])
    0 0 (4 * ((1 / 10) ^ 4 * 4)) ((1 / 10) ^ 4 * 4) le_rfl (by positivity)
  have q1 := (prp_val noPrims (someRec 1) (1 / 10) 1 _ _ _ _ _ (by norm_num) le_rfl).symm.trans k1
  have q2 := (prp_val noPrims (someRec 1) (1 / 10) 4 _ _ _ _ _ (by norm_num) (by norm_num)).symm.trans k2
  injection q1 with q1
  injection q2 with q2
  exact prp_ne _ (1 / 10) (by norm_num) (q1.trans q2.symm)

theorem mgga_x_2d_prp10_not_screenedRest : ¬ ScreenedRest .mgga mgga_x_2d_prp10 := by
  intro h
  have k (a : ℝ) (ha : 1 ≤ a) := (h noPrims (someRec 1) ((3 / 10) ^ 2) (11 / 100) 0 0 0 (4 * ((3 / 10) ^ 4 * a)) 0 ((3 / 10) ^ 4 * a) 0
    ⟨by norm_num [someRec], by norm_num [someRec]⟩ (by norm_num) (by norm_num) le_rfl le_rfl (by positivity) le_rfl (by norm_num [someRec])
    (by norm_num [someRec]) (by norm_num [someRec])).2 (by norm_num [someRec]) (by norm_num [someRec])
  obtain ⟨e, e1, k1, k2, k3⟩ := k 1 le_rfl
  obtain ⟨e', e1', m1, m2, m3⟩ := k 4 (by norm_num)
  have q1 := (prp_val noPrims (someRec 1) (3 / 10) 1 _ _ _ _ _ (by norm_num) le_rfl).symm.trans k1
  have q2 := (prp_val noPrims (someRec 1) (3 / 10) 4 _ _ _ _ _ (by norm_num) (by norm_num)).symm.trans m1
  have w := k2.symm.trans m2
  injection q1 with q1
  injection q2 with q2
  injection w with w
  refine prp_ne (Real.pi * noPrims.i0 (noPrims.lambertw 0 / 2 + 1 / 2)) (3 / 10) (by norm_num) ?_
  rw [q1, q2]
  subst w
  linarith

/-! ### `lda_k_zlp`: the correction factor is a function of the total density -/

/-- The density dependent factor of `lda_k_zlp`, as a function of the cube root of the density. -/
def zlpH (c : ℝ) : ℝ := 1 - 196 / 100000 * c * Real.log (1 + 5102040816326530612 / 10 ^ 16 / c)

/-- The constant factor of `lda_k_zlp`. -/
def zlpK : ℝ := 10790666666666666667 / 10 ^ 19 * cbrtR 3 ^ 2 / cbrtR (1 / Real.pi) * cbrtR 4

theorem zlpK_pos : 0 < zlpK := by
  have a1 := cbrtR_pos (x := 3) (by norm_num)
  have a2 := cbrtR_pos (x := 1 / Real.pi) (by positivity)
  have a3 := cbrtR_pos (x := 4) (by norm_num)
  unfold zlpK
  positivity

theorem zlp_unpol (P : Prims) (p : Rec) (x : ℝ) (hx : 0 < x) (hz : p.fld .zetaThreshold < 1) :
    lda_k_zlp_unpolExpr P p (x ^ 3) = zlpK * x ^ 2 * zlpH x := by
  simp only [lda_k_zlp_unpolExpr, fn1Val, N, cnd, cbrtR_cube hx.le]
  norm_num [hz.not_ge, zlpK, zlpH]

theorem zlp_pol (P : Prims) (p : Rec) (x y : ℝ) (hx : 0 < x) (hy : 0 < y)
    (h0 : p.fld .zetaThreshold * (x ^ 3 / 2 + y ^ 3 / 2) < 2 * (x ^ 3 / 2)) (h1 : p.fld .zetaThreshold * (x ^ 3 / 2 + y ^ 3 / 2) < 2 * (y ^ 3 / 2)) :
    (x ^ 3 / 2 + y ^ 3 / 2) * lda_k_zlp_polExpr P p (x ^ 3 / 2) (y ^ 3 / 2) =
      zlpK * ((x ^ 5 + y ^ 5) / 2) * zlpH (cbrtR (x ^ 3 / 2 + y ^ 3 / 2)) := by
  have hn : 0 < x ^ 3 / 2 + y ^ 3 / 2 := by positivity
  obtain ⟨c, hc, hcn⟩ : ∃ c, 0 < c ∧ x ^ 3 / 2 + y ^ 3 / 2 = c ^ 3 := ⟨_, cbrtR_pos hn, (cbrtR_pow3 hn.le).symm⟩
  have e0 : 1 + (x ^ 3 / 2 - y ^ 3 / 2) / c ^ 3 = (x / c) ^ 3 := by field_simp; linarith
  have e1 : 1 - (x ^ 3 / 2 - y ^ 3 / 2) / c ^ 3 = (y / c) ^ 3 := by field_simp; linarith
  have c0 : ¬ (x / c) ^ 3 ≤ p.fld .zetaThreshold := by
    rw [not_le, div_pow, lt_div_iff₀ (by positivity), ← hcn]; linarith
  have c1 : ¬ (y / c) ^ 3 ≤ p.fld .zetaThreshold := by
    rw [not_le, div_pow, lt_div_iff₀ (by positivity), ← hcn]; linarith
  have q : lda_k_zlp_polExpr P p (x ^ 3 / 2) (y ^ 3 / 2) = zlpK * (((x / c) ^ 5 + (y / c) ^ 5) / 2) * c ^ 2 * zlpH c := by
    simp only [lda_k_zlp_polExpr, fn1Val, N, cnd, hcn, cbrtR_cube hc.le]
    norm_num only [zpow_zero, mul_one, Nat.cast_one, Nat.cast_ofNat]
    simp only [e0, e1, c0, c1, if_false, cbrtR_cube (div_pos hx hc).le, cbrtR_cube (div_pos hy hc).le, zlpK, zlpH, Real.rpow_ofNat]
    norm_num [-mul_eq_mul_left_iff, -mul_eq_mul_right_iff]
    ring
  rw [q, hcn, cbrtR_cube hc.le]
  field_simp

theorem zlpH_bounds {c a b l u : ℝ} (ha : 0 < a) (h1 : a ≤ c) (h2 : c ≤ b) (hl : Real.exp l ≤ 1 + 5102040816326530612 / 10 ^ 16 / b) (hl0 : 0 ≤ l)
    (hu : 1 + 5102040816326530612 / 10 ^ 16 / a ≤ Real.exp u) : 1 - 196 / 100000 * b * u ≤ zlpH c ∧ zlpH c ≤ 1 - 196 / 100000 * a * l := by
  have hc : 0 < c := ha.trans_le h1
  have hb : 0 < b := hc.trans_le h2
  have m1 : Real.log (1 + 5102040816326530612 / 10 ^ 16 / c) ≤ u := by
    rw [Real.log_le_iff_le_exp (by positivity)]
    refine le_trans ?_ hu
    gcongr
  have m2 : l ≤ Real.log (1 + 5102040816326530612 / 10 ^ 16 / c) := by
    rw [Real.le_log_iff_exp_le (by positivity)]
    refine hl.trans ?_
    gcongr
  have hu0 : 0 ≤ u := hl0.trans (m2.trans m1)
  unfold zlpH
  constructor
  · have : c * Real.log (1 + 5102040816326530612 / 10 ^ 16 / c) ≤ b * u := mul_le_mul h2 m1 (hl0.trans m2) hb.le
    nlinarith
  · have : a * l ≤ c * Real.log (1 + 5102040816326530612 / 10 ^ 16 / c) := mul_le_mul h1 m2 hl0 hc.le
    nlinarith

theorem le_cbrtR {a z : ℝ} (ha : 0 ≤ a) (h : a ^ 3 ≤ z) : a ≤ cbrtR z := by
  calc a = cbrtR (a ^ 3) := (cbrtR_cube ha).symm
    _ ≤ cbrtR z := cbrtR_le (by positivity) h

theorem cbrtR_le' {a z : ℝ} (ha : 0 ≤ a) (h : 0 ≤ z ∧ z ≤ a ^ 3) : cbrtR z ≤ a := by
  calc cbrtR z ≤ cbrtR (a ^ 3) := cbrtR_le h.1 h.2
    _ = a := cbrtR_cube ha

theorem exp6 : Real.exp 6 ≤ 420 := by
  have h : Real.exp 6 = Real.exp 1 ^ 6 := by rw [← Real.exp_nat_mul]; norm_num
  rw [h]
  calc Real.exp 1 ^ 6 ≤ (2.7182818286 : ℝ) ^ 6 := by gcongr; exact le_of_lt Real.exp_one_lt_d9
    _ ≤ 420 := by norm_num

theorem exp7 : 1000 ≤ Real.exp 7 := by
  have h : Real.exp 7 = Real.exp 1 ^ 7 := by rw [← Real.exp_nat_mul]; norm_num
  rw [h]
  calc (1000 : ℝ) ≤ (2.7182818283 : ℝ) ^ 7 := by norm_num
    _ ≤ Real.exp 1 ^ 7 := by gcongr; exact le_of_lt Real.exp_one_gt_d9

/-- Tiny thresholds. -/
def tinyRec : Rec := ⟨fun _ => 1 / 10 ^ 6, fun _ => 1⟩

theorem lda_k_zlp_not_spinScaling : ¬ SpinScaling .lda lda_k_zlp := by
  intro h
  obtain ⟨e, e0, e1, k1, k2, k3, k4⟩ := h noPrims tinyRec (1 ^ 3 / 2) ((1 / 10) ^ 3 / 2) 0 0 0 0 0 0 0 ⟨by norm_num [tinyRec], by norm_num [tinyRec]⟩
    (by norm_num) (by norm_num) le_rfl le_rfl le_rfl le_rfl
    ⟨by norm_num [tinyRec], by norm_num [tinyRec], by norm_num [tinyRec], by norm_num [tinyRec], by norm_num [tinyRec]⟩
  have h1 := (lda_k_zlp_polExpr_eq _ _ _ _).symm.trans k1
  have h2 := (lda_k_zlp_unpolExpr_eq _ _ _).symm.trans k2
  have h3 := (lda_k_zlp_unpolExpr_eq _ _ _).symm.trans k3
  injection h1 with h1
  injection h2 with h2
  injection h3 with h3
  rw [mul_div_cancel₀ _ (by norm_num), zlp_unpol _ _ _ (by norm_num) (by norm_num [tinyRec])] at h2 h3
  have w := zlp_pol noPrims tinyRec 1 (1 / 10) one_pos (by norm_num) (by norm_num [tinyRec]) (by norm_num [tinyRec])
  rw [h1, k4, ← h2, ← h3] at w
  have hK := zlpK_pos
  have b1 : zlpH 1 ≤ 1 - 196 / 100000 * 1 * 6 := (zlpH_bounds (u := 7) one_pos le_rfl le_rfl (exp6.trans (by norm_num)) (by norm_num) (le_trans (by norm_num) exp7)).2
  have b2 : zlpH (1 / 10) ≤ 1 := by
    have hl : 0 ≤ Real.log (1 + 5102040816326530612 / 10 ^ 16 / (1 / 10)) := Real.log_nonneg (by norm_num)
    unfold zlpH
    nlinarith
  have b3 : 1 - 196 / 100000 * (8 / 10) * 7 ≤ zlpH (cbrtR (1 ^ 3 / 2 + (1 / 10) ^ 3 / 2)) := by
    refine (zlpH_bounds (a := 79 / 100) (l := 0) (by norm_num) ?_ ?_ (by rw [Real.exp_zero]; norm_num) le_rfl (le_trans (by norm_num) exp7)).1
    · exact le_cbrtR (by norm_num) (by norm_num)
    · exact cbrtR_le' (by norm_num) (by norm_num)
  generalize zlpH (cbrtR (1 ^ 3 / 2 + (1 / 10) ^ 3 / 2)) = c at *
  generalize zlpH (1 / 10) = b at *
  generalize zlpH 1 = a at *
  have w' : (1 ^ 5 + (1 / 10) ^ 5) / 2 * c = 1 ^ 3 / 2 * a + (1 / 10) ^ 3 / 2 * ((1 / 10) ^ 2 * b) := by
    refine mul_left_cancel₀ hK.ne' ?_
    linear_combination -w
  norm_num at w'
  linarith

theorem lda_k_zlp_not_screenedBoth : ¬ ScreenedBoth .lda lda_k_zlp := by
  intro h
  have k := h noPrims ⟨fun _ => 1 / 2, fun _ => 1⟩ (1 ^ 3 / 2) (1 ^ 3 / 2) 0 0 0 0 0 0 0 ⟨by norm_num, by norm_num⟩ (by norm_num) (by norm_num)
    le_rfl le_rfl le_rfl le_rfl (by norm_num) (by norm_num)
  have h1 := (lda_k_zlp_polExpr_eq _ _ _ _).symm.trans k
  injection h1 with h1
  have w := zlp_pol noPrims ⟨fun _ => 1 / 2, fun _ => 1⟩ 1 1 one_pos one_pos (by norm_num) (by norm_num)
  rw [h1, mul_zero, show (1 ^ 3 / 2 + 1 ^ 3 / 2 : ℝ) = 1 by norm_num, cbrtR_one] at w
  have b1 : 1 - 196 / 100000 * 1 * 7 ≤ zlpH 1 := (zlpH_bounds (u := 7) (l := 6) one_pos le_rfl le_rfl (exp6.trans (by norm_num)) (by norm_num) (le_trans (by norm_num) exp7)).1
  have hK := zlpK_pos
  have : 0 < zlpH 1 := by linarith [show (0 : ℝ) < 1 - 196 / 100000 * 1 * 7 by norm_num]
  have : 0 < zlpK * ((1 ^ 5 + 1 ^ 5) / 2) * zlpH 1 := by positivity
  linarith

theorem lda_k_zlp_not_screenedRest : ¬ ScreenedRest .lda lda_k_zlp := by
  intro h
  let p : Rec := ⟨fun | .densThreshold => 1 / 2 | _ => 1 / 10, fun _ => 1⟩
  obtain ⟨e, e0, k1, k2, k3⟩ := (h noPrims p ((11 / 10) ^ 3 / 2) (1 ^ 3 / 2) 0 0 0 0 0 0 0 ⟨by norm_num [p], by norm_num [p]⟩ (by norm_num) (by norm_num)
    le_rfl le_rfl le_rfl le_rfl (by norm_num [p]) (by norm_num [p]) (by norm_num [p])).1 (by norm_num [p]) (by norm_num [p])
  have h1 := (lda_k_zlp_polExpr_eq _ _ _ _).symm.trans k1
  have h2 := (lda_k_zlp_unpolExpr_eq _ _ _).symm.trans k2
  injection h1 with h1
  injection h2 with h2
  rw [mul_div_cancel₀ _ (by norm_num), zlp_unpol _ _ _ (by norm_num) (by norm_num [p])] at h2
  have w := zlp_pol noPrims p (11 / 10) 1 (by norm_num) one_pos (by norm_num [p]) (by norm_num [p])
  rw [h1, k3, ← h2] at w
  have hK := zlpK_pos
  have b1 : zlpH (11 / 10) ≤ 1 := by
    have hl : 0 ≤ Real.log (1 + 5102040816326530612 / 10 ^ 16 / (11 / 10)) := Real.log_nonneg (by norm_num)
    unfold zlpH
    nlinarith
  have b3 : 1 - 196 / 100000 * (11 / 10) * 7 ≤ zlpH (cbrtR ((11 / 10) ^ 3 / 2 + 1 ^ 3 / 2)) := by
    refine (zlpH_bounds (a := 1) (l := 0) (by norm_num) ?_ ?_ (by rw [Real.exp_zero]; norm_num) le_rfl (le_trans (by norm_num) exp7)).1
    · exact le_cbrtR (by norm_num) (by norm_num)
    · exact cbrtR_le' (by norm_num) (by norm_num)
  generalize zlpH (cbrtR ((11 / 10) ^ 3 / 2 + 1 ^ 3 / 2)) = c at *
  generalize zlpH (11 / 10) = a at *
  have w' : ((11 / 10) ^ 5 + 1 ^ 5) / 2 * c = (11 / 10) ^ 3 / 2 * ((11 / 10) ^ 2 * a) := by
    refine mul_left_cancel₀ hK.ne' ?_
    linear_combination -w
  norm_num at w'
  linarith

end
end Verif.Props
