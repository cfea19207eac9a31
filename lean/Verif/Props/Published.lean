import Verif.Spec.Published
import Verif.Props.PublishedForms
import Verif.Props.ApiLiterature
import Verif.Props.ExchangeAll
/-!
# C58: spin-polarized correlation, meta-GGA exchange and kinetic functionals against the formulas of the literature
-/
set_option linter.unusedSimpArgs false
namespace Verif.Props
open Verif.Py Verif.Model Verif.Spec Verif.Data Verif.Lib Verif.Norm Real
noncomputable section
open Classical

theorem N_zero (m : ℕ) : N m 0 = m := by simp [N]

/-- Unfolds a program written after a formula. -/
local macro "unfold_q " e:ident : tactic => `(tactic| (
  congr 1
  simp only [$e:ident, N_zero, cnd, fn1Val, Nat.cast_one, Nat.cast_zero, Nat.cast_ofNat, Real.rpow_ofNat]))

/-- C58: `gga_x_pw91` is the exchange of Perdew and Wang 1991. -/
theorem gga_x_pw91_is : IsExchange gga_x_pw91 fun p n g =>
    pw91Factor (par p "a") (par p "b") (par p "c") (par p "d") (par p "f") (par p "alpha") (par p "expo") (reducedGradient n g) := by
  intro P p n g ht h hg
  rw [gga_x_pw91_eq P p n g ht h hg]
  unfold_q gga_x_pw91_qE
  simp only [diracExchange, pw91Factor, reducedGradient, fermiK]

/-- C58: `lda_c_pw` is the correlation energy of Perdew and Wang 1992. -/
theorem lda_c_pw_is_spin : IsSpinLDA lda_c_pw pw92Spin := by
  intro P p a b ht h0 h1 hu
  rw [lda_c_pw_eq P p a b ht h0 h1 hu]
  unfold_q lda_c_pw_qE
  simp only [pw92Spin, String.reduceAppend, spinInterpolation, fZeta, polarization, pw92G, wsRadius, Real.sqrt_eq_rpow, div_div]

/-- C58: `lda_c_pz` is the correlation energy of Perdew and Zunger 1981. -/
theorem lda_c_pz_is_spin : IsSpinLDA lda_c_pz pzSpin := by
  intro P p a b ht h0 h1 hu
  rw [lda_c_pz_eq P p a b ht h0 h1 hu]
  unfold_q lda_c_pz_qE
  simp only [pzSpin, String.reduceAppend, fZeta, polarization, pzCorr, wsRadius]
  by_cases hr : (1 : ℝ) ≤ (3 / (4 * π * (a + b))) ^ (1 / 3 : ℝ) <;> simp only [hr, if_true, if_false]

/-- C58: `gga_c_lyp` is the correlation energy of Lee, Yang and Parr. -/
theorem gga_c_lyp_is_spin : IsSpinGGA gga_c_lyp fun p => lypCorr (par p "a") (par p "b") (par p "c") (par p "d") := by
  intro P p a b s0 s1 s2 ht h0 h1 hs0 hs2 hu
  rw [gga_c_lyp_eq P p a b s0 s1 s2 ht h0 h1 hs0 hs2 hu]
  unfold_q gga_c_lyp_qE
  have hn : 0 < a + b := add_pos h0 h1
  have e : (1 - (a - b) ^ 2 / (a + b) ^ 2) / 4 * (a + b) ^ 2 = a * b := by field_simp; ring
  simp only [e]
  simp only [lypCorr, totalGrad, rpow_neg hn.le, div_eq_mul_inv]
  ring_nf

/-- C58: `gga_c_p86` is the correlation energy of Perdew 1986. -/
theorem gga_c_p86_is_spin : IsSpinGGA gga_c_p86 p86Corr := by
  intro P p a b s0 s1 s2 ht h0 h1 hs0 hs2 hu
  rw [gga_c_p86_eq P p a b s0 s1 s2 ht h0 h1 hs0 hs2 hu]
  unfold_q gga_c_p86_qE
  simp only [p86Corr, p86C, fZeta, polarization, pzCorr, wsRadius, totalGrad]
  by_cases hr : (1 : ℝ) ≤ (3 / (4 * π * (a + b))) ^ (1 / 3 : ℝ) <;> simp only [hr, if_true, if_false] <;> norm_num

theorem redGrad_sq {n g : ℝ} (h : 0 < n) (hg : 0 ≤ g) : reducedGradient n g ^ 2 = g / (4 * (3 * π ^ 2) ^ (2 / 3 : ℝ) * n ^ (8 / 3 : ℝ)) := by
  have hp : 0 < 3 * π ^ 2 := by positivity
  rw [reducedGradient, fermiK, div_pow, Real.sq_sqrt hg, mul_pow, mul_pow, ← Real.rpow_natCast (_ ^ _), ← Real.rpow_mul (by positivity),
    Real.mul_rpow hp.le h.le, show (8 / 3 : ℝ) = 2 / 3 + 2 by norm_num, Real.rpow_add h]
  norm_num
  ring_nf

theorem tf_eq {n : ℝ} (h : 0 < n) : n * thomasFermi n = 3 / 10 * (3 * π ^ 2) ^ (2 / 3 : ℝ) * n ^ (5 / 3 : ℝ) := by
  rw [thomasFermi, show (5 / 3 : ℝ) = 1 + 2 / 3 by norm_num, Real.rpow_add h, Real.rpow_one]
  ring

/-- C58: `mgga_x_tpss` is the exchange of Tao, Perdew, Staroverov and Scuseria. -/
theorem mgga_x_tpss_is : IsExchangeMeta mgga_x_tpss fun p => tpssFactor (par p "b") (par p "c") (par p "e") (par p "kappa") (par p "mu") (par p "BLOC_a") (par p "BLOC_b") := by
  intro P p n g l t ht h hg hτ
  rw [mgga_x_tpss_eq P p n g l t ht h hg.le hτ.le]
  unfold_q mgga_x_tpss_qE
  simp only [tpssFactor, tpssX, tpssQ, isoAlpha, redGrad_sq h.pos hg.le, tf_eq h.pos, diracExchange]

/-- The number that replaces `DBL_EPSILON` (C33). -/
def dblEps : ℝ := 2220446049250313 * (10 : ℝ) ^ (-31 : ℤ)

/-- The switch of the code: cut off where it is below `dblEps`. -/
def scanCut (c₁ c₂ d α : ℝ) : ℝ :=
  if α ≤ 1 then if -(log dblEps / (-log dblEps + c₁)) < α then 0 else exp (-c₁ * α / (1 - α))
  else if α < -((-log (dblEps / |d|) + c₂) / log (dblEps / |d|)) then 0 else -d * exp (c₂ / (1 - α))

theorem scanCut_near {c₁ c₂ d α : ℝ} (h1 : 0 < c₁) (hd : dblEps < |d|) : |scanCut c₁ c₂ d α - scanSwitch c₁ c₂ d α| ≤ dblEps := by
  have he : 0 < dblEps := by unfold dblEps; positivity
  have he1 : dblEps < 1 := by unfold dblEps; norm_num
  have hl : log dblEps < 0 := log_neg he he1
  have hd0 : 0 < |d| := he.trans hd
  have hl' : log (dblEps / |d|) < 0 := log_neg (by positivity) ((div_lt_one hd0).2 hd)
  by_cases a : α ≤ 1
  · rw [scanCut, if_pos a]
    rcases a.lt_or_eq with a' | a'
    · rw [scanSwitch, if_pos a']
      by_cases b : -(log dblEps / (-log dblEps + c₁)) < α
      · rw [if_pos b, zero_sub, abs_neg, abs_of_pos (exp_pos _)]
        refine (exp_le_exp.2 ?_).trans (exp_log he).le
        have hp : 0 < -log dblEps + c₁ := by linarith
        rw [div_le_iff₀ (by linarith)]
        rw [← neg_div, div_lt_iff₀ hp] at b
        nlinarith
      · rw [if_neg b, sub_self, abs_zero]; exact he.le
    · subst a'
      have b : -(log dblEps / (-log dblEps + c₁)) < 1 := by
        rw [← neg_div, div_lt_one (by linarith)]; linarith
      rw [if_pos b, scanSwitch, if_neg (lt_irrefl _), if_pos rfl, sub_self, abs_zero]; exact he.le
  · have a' : 1 < α := not_le.1 a
    rw [scanCut, if_neg a, scanSwitch, if_neg a'.le.not_gt, if_neg a'.ne']
    by_cases b : α < -((-log (dblEps / |d|) + c₂) / log (dblEps / |d|))
    · rw [if_pos b, zero_sub, abs_neg, abs_mul, abs_neg, abs_of_pos (exp_pos _)]
      have e : exp (c₂ / (1 - α)) ≤ dblEps / |d| := by
        refine (exp_le_exp.2 ?_).trans (exp_log (by positivity)).le
        rw [div_le_iff_of_neg (by linarith)]
        rw [← neg_div, lt_div_iff_of_neg hl'] at b
        nlinarith
      calc |d| * exp (c₂ / (1 - α)) ≤ |d| * (dblEps / |d|) := mul_le_mul_of_nonneg_left e hd0.le
        _ = dblEps := by field_simp
    · rw [if_neg b, sub_self, abs_zero]; exact he.le

theorem mgga_x_scan_eq' (P : Prims) (p : Rec) (n g l t : ℝ) (ht : Thresholds p) (h : Above p n) (hg : 0 < g) (hτ : 0 < t) :
    mgga_x_scan.unpol P p n (some g) (some l) (some t) = .ok (diracExchange n * scanFactor (par p "k1") (scanCut (par p "c1") (par p "c2") (par p "d") (isoAlpha n g t))
      (reducedGradient n g) (isoAlpha n g t)) := by
  rw [mgga_x_scan_eq P p n g l t ht h hg.le hτ.le]
  unfold_q mgga_x_scan_qE
  have hs : 0 ≤ reducedGradient n g := by
    have := h.pos
    unfold reducedGradient fermiK; positivity
  have e0 : √(146 : ℝ) ^ 2 = 146 := Real.sq_sqrt (by norm_num)
  have e00 : 0 < √(146 : ℝ) := Real.sqrt_pos.2 (by norm_num)
  have e1 : (511 / 13500 / (2 * (√146 / 100)) : ℝ) = 7 / 540 * √146 := by
    field_simp; rw [e0]; norm_num
  have e2 : √(5913 / 405000 : ℝ) = √146 / 100 := by
    rw [show (5913 / 405000 : ℝ) = 146 / 100 ^ 2 by norm_num, Real.sqrt_div' _ (by norm_num), Real.sqrt_sq (by norm_num)]
  have e3 : ∀ x : ℝ, x - 1606 / 18225 - (7 / 540 * √146) ^ 2 = x - 73 / 648 := fun x => by rw [mul_pow, e0]; ring
  have e4 : N 2220446049250313 (-31) = dblEps := by unfold dblEps N; norm_num
  simp only [← redGrad_sq h.pos hg.le, ← tf_eq h.pos, diracExchange, Real.sqrt_sq hs]
  simp only [scanFactor, e1, e2, e3, e4]
  rw [← isoAlpha]
  generalize isoAlpha n g t = α
  generalize reducedGradient n g = s
  have e5 : (1.174 : ℝ) = 1174 / 1000 := by norm_num
  have e6 : (-4.9479 : ℝ) = -(49479 / 10000) := by norm_num
  rw [e5, e6]
  congr 4
  rw [scanCut]
  by_cases a : α ≤ 1
  · simp only [if_pos a]
    by_cases b : -(log dblEps / (-log dblEps + par p "c1")) < α
    · simp only [if_pos b]
    · have b' := not_lt.1 b
      simp only [if_neg b]
      rcases b'.lt_or_eq with c | c
      · simp only [if_pos c]
      · simp only [← c, lt_irrefl, if_false]
  · simp only [if_neg a]
    by_cases b : α < -((-log (dblEps / |par p "d"|) + par p "c2") / log (dblEps / |par p "d"|))
    · simp only [if_pos b]
    · simp only [if_neg b]

/-- C58: `mgga_x_scan` is SCAN exchange, up to `2⁻⁵²` in the value of the switch. -/
theorem mgga_x_scan_is (P : Prims) (p : Rec) (n g l t : ℝ) (ht : Thresholds p) (h : Above p n) (hg : 0 < g) (hτ : 0 < t) (hc : 0 < par p "c1")
    (hd : 1 / 10 ^ 15 < |par p "d"|) : ∃ f, |f - scanSwitch (par p "c1") (par p "c2") (par p "d") (isoAlpha n g t)| ≤ 2.3 / 10 ^ 16 ∧
    mgga_x_scan.unpol P p n (some g) (some l) (some t) = .ok (diracExchange n * scanFactor (par p "k1") f (reducedGradient n g) (isoAlpha n g t)) := by
  have he : dblEps ≤ 2.3 / 10 ^ 16 := by unfold dblEps; norm_num
  exact ⟨_, (scanCut_near hc (he.trans_lt ((by norm_num : (2.3 / 10 ^ 16 : ℝ) < 1 / 10 ^ 15).trans hd))).trans he, mgga_x_scan_eq' P p n g l t ht h hg hτ⟩

theorem pw92Table_lit (r z : ℝ) : -(621814 / 10000000) * (1 + 2137 / 10000 * r) * log (1 + 16081979498692535067 / 1000000000000000000 / (75957 / 10000 * r ^ (1 / 2 : ℝ) + 35876 / 10000 * r + 16382 / 10000 * r ^ (3 / 2 : ℝ) + 49294 / 100000 * r ^ 2)) +
        19751673498613801407 / 1000000000000000000000 * (1 + 11125 / 100000 * r) * log (1 + 29608749977793437516 / 1000000000000000000 / (10357 / 1000 * r ^ (1 / 2 : ℝ) + 36231 / 10000 * r + 88026 / 100000 * r ^ (3 / 2 : ℝ) + 49671 / 100000 * r ^ 2)) * fZeta z * (1 - z ^ 4) +
      (-(310907 / 10000000) * (1 + 20548 / 100000 * r) * log (1 + 32163958997385070134 / 1000000000000000000 / (141189 / 10000 * r ^ (1 / 2 : ℝ) + 61977 / 10000 * r + 33662 / 10000 * r ^ (3 / 2 : ℝ) + 62517 / 100000 * r ^ 2)) -
        -(621814 / 10000000) * (1 + 2137 / 10000 * r) * log (1 + 16081979498692535067 / 1000000000000000000 / (75957 / 10000 * r ^ (1 / 2 : ℝ) + 35876 / 10000 * r + 16382 / 10000 * r ^ (3 / 2 : ℝ) + 49294 / 100000 * r ^ 2))) * fZeta z * z ^ 4 =
    pw92Table (16081979498692535067 / 1000000000000000000) (32163958997385070134 / 1000000000000000000) (29608749977793437516 / 1000000000000000000)
      (19751673498613801407 / 1000000000000000000000) r z := by
  rw [pw92Table, spinInterpolation]
  simp only [pw92GNum]
  norm_num

/-- C58: `gga_c_pbe` is PBE correlation, with the numbers of Perdew and Wang printed to 20 digits. -/
theorem gga_c_pbe_is_spin : ∃ k₀ k₁ k₂ c₂, Digits 19 k₀ (1 / (2 * 0.0310907)) ∧ Digits 19 k₁ (1 / (2 * 0.01554535)) ∧ Digits 19 k₂ (1 / (2 * 0.0168869)) ∧
    Digits 19 c₂ (2 * 0.0168869 / fZeta'') ∧ IsSpinGGA gga_c_pbe (pbeCorr k₀ k₁ k₂ c₂) := by
  refine ⟨16081979498692535067 / 1000000000000000000, 32163958997385070134 / 1000000000000000000, 29608749977793437516 / 1000000000000000000,
    19751673498613801407 / 1000000000000000000000, ?_, ?_, ?_, ?_, ?_⟩
  · unfold Digits; norm_num [abs_le]
  · unfold Digits; norm_num [abs_le]
  · unfold Digits; norm_num [abs_le]
  · have h : ∀ c : ℝ, 1.25992104989487316476 ≤ c → c ≤ 1.25992104989487316477 → Digits 19 (19751673498613801407 / 1000000000000000000000) (2 * 0.0168869 / (4 / (9 * (c - 1)))) := by
      intro c h1 h2
      have e : 2 * 0.0168869 / (4 / (9 * (c - 1))) = 0.07599105 * (c - 1) := by
        field_simp; norm_num; ring
      rw [e]
      unfold Digits
      rw [abs_of_pos (by linarith : 0 < 0.07599105 * (c - 1)), abs_le]
      constructor <;> norm_num <;> linarith
    have c3 : ((2 : ℝ) ^ (1 / 3 : ℝ)) ^ 3 = 2 := by rw [← Real.rpow_natCast, ← Real.rpow_mul (by norm_num)]; norm_num
    have c0 : (0 : ℝ) ≤ 2 ^ (1 / 3 : ℝ) := by positivity
    refine h _ ?_ ?_
    · exact le_of_pow_le_pow_left₀ three_ne_zero c0 (by rw [c3]; norm_num)
    · exact le_of_pow_le_pow_left₀ three_ne_zero (by norm_num) (by rw [c3]; norm_num)
  intro P p a b s0 s1 s2 ht h0 h1 hs0 hs2 hu
  rw [gga_c_pbe_eq P p a b s0 s1 s2 ht h0 h1 hs0 hs2 hu]
  unfold_q gga_c_pbe_qE
  have hn : 0 < a + b := add_pos h0 h1
  have hK : 0 < fermiK (a + b) := by unfold fermiK; positivity
  have ef : ((1 + (a - b) / (a + b)) ^ (4 / 3 : ℝ) + (1 - (a - b) / (a + b)) ^ (4 / 3 : ℝ) - 2) / (2 ^ (4 / 3 : ℝ) - 2) = fZeta (polarization a b) := rfl
  have ep : ((1 + (a - b) / (a + b)) ^ (2 / 3 : ℝ) + (1 - (a - b) / (a + b)) ^ (2 / 3 : ℝ)) / 2 = phiZeta (polarization a b) := rfl
  have er : (3 / (4 * π * (a + b))) ^ (1 / 3 : ℝ) = wsRadius (a + b) := rfl
  have ez : (a - b) / (a + b) = polarization a b := rfl
  have ek : (3 * π ^ 2 * (a + b)) ^ (1 / 3 : ℝ) = fermiK (a + b) := rfl
  have eg : s0 + 2 * s1 + s2 = totalGrad s0 s1 s2 := rfl
  simp only [ef, ep, er]
  simp only [ez, ek, eg]
  simp only [pw92Table_lit]
  have ht2 : ∀ φ g, pbeT2 (a + b) φ g = g / φ ^ 2 / (16 * fermiK (a + b) / π * (a + b) ^ 2) := by
    intro φ g
    rw [pbeT2, mul_pow, mul_pow, mul_pow, Real.sq_sqrt (by positivity), div_div]
    congr 1
    ring
  have ht4 : ∀ φ g, g ^ 2 / φ ^ 4 / (16 * fermiK (a + b) / π * (a + b) ^ 2) ^ 2 = pbeT2 (a + b) φ g ^ 2 := by
    intro φ g
    rw [ht2, div_pow, div_pow, ← pow_mul]
  simp only [pbeCorr, ht4, ← ht2, pbeH, ← div_div, pbeA]
  simp only [div_div]
  ring_nf

theorem vwn_digits {A b c x₀ q ca cl δ : ℝ} (hδ : 0 ≤ δ) (hq : δ < q) (h1 : (q - δ) ^ 2 ≤ 4 * c - b ^ 2) (h2 : 4 * c - b ^ 2 ≤ (q + δ) ^ 2)
    (h3 : δ ≤ 1 / 10 ^ 19 * (q - δ))
    (h4 : |ca * q - A * (2 * b - b * x₀ / vwnX b c x₀ * (2 * (b + 2 * x₀)))| + |ca| * δ ≤ 1 / 10 ^ 19 * |A * (2 * b - b * x₀ / vwnX b c x₀ * (2 * (b + 2 * x₀)))|)
    (h5 : |cl - A * vwnLog b c x₀| ≤ 1 / 10 ^ 19 * |A * vwnLog b c x₀|) : VwnDigits A b c x₀ q ca cl := by
  have hQ1 : q - δ ≤ vwnQ b c := Real.le_sqrt_of_sq_le h1
  have hQ2 : vwnQ b c ≤ q + δ := Real.sqrt_le_iff.2 ⟨by linarith, h2⟩
  have hQ : 0 < vwnQ b c := by linarith
  refine ⟨?_, ?_, h5⟩
  · unfold Digits
    rw [abs_of_pos hQ]
    refine (abs_le.2 ⟨by linarith, by linarith⟩ : |q - vwnQ b c| ≤ δ).trans (h3.trans ?_)
    exact mul_le_mul_of_nonneg_left hQ1 (by positivity)
  · generalize hK : A * (2 * b - b * x₀ / vwnX b c x₀ * (2 * (b + 2 * x₀))) = K at h4
    have e : A * vwnAtan b c x₀ = K / vwnQ b c := by
      rw [← hK, vwnAtan]; field_simp
    unfold Digits
    rw [e, abs_div, abs_of_pos hQ, ← mul_div_assoc, le_div_iff₀ hQ]
    calc |ca - K / vwnQ b c| * vwnQ b c = |(ca - K / vwnQ b c) * vwnQ b c| := by rw [abs_mul, abs_of_pos hQ]
      _ = |(ca * q - K) + ca * (vwnQ b c - q)| := by congr 1; field_simp; ring
      _ ≤ |ca * q - K| + |ca| * |vwnQ b c - q| := (abs_add_le _ _).trans_eq (by rw [abs_mul])
      _ ≤ |ca * q - K| + |ca| * δ := by
        gcongr
        exact abs_le.2 ⟨by linarith, by linarith⟩
      _ ≤ _ := h4

/-- C58: `lda_c_vwn` is the correlation energy of Vosko, Wilk and Nusair, with derived numbers printed to 20 digits. -/
theorem lda_c_vwn_is_spin : ∃ q₀ ca₀ cl₀ q₁ ca₁ cl₁ q₂ ca₂ cl₂, VwnDigits 0.0310907 3.72744 12.9352 (-0.10498) q₀ ca₀ cl₀ ∧
    VwnDigits 0.01554535 7.06042 18.0578 (-0.32500) q₁ ca₁ cl₁ ∧ VwnDigits 1 1.13107 13.0045 (-0.0047584) q₂ ca₂ cl₂ ∧
    IsSpinLDA lda_c_vwn fun _ => vwnSpin q₀ ca₀ cl₀ q₁ ca₁ cl₁ q₂ ca₂ cl₂ := by
  refine ⟨61519908197590802322 / 10000000000000000000, 38783294878113014393 / 1000000000000000000000, 96902277115443742139 / 100000000000000000000000,
    47309269095601128300 / 10000000000000000000, 52491393169780936218 / 1000000000000000000000, 22478670955426118383 / 10000000000000000000000,
    71231089178181179908 / 10000000000000000000, 31770800474394146400 / 100000000000000000000, 41403379428206274608 / 100000000000000000000000, ?_, ?_, ?_, ?_⟩
  iterate 3
    refine vwn_digits (δ := 1 / 10 ^ 19) ?_ ?_ ?_ ?_ ?_ ?_ ?_ <;> norm_num [vwnX, vwnLog, abs_le, abs_of_pos, abs_of_neg]
  intro P p a b ht h0 h1 hu
  rw [lda_c_vwn_eq P p a b ht h0 h1 hu]
  unfold_q lda_c_vwn_qE
  have ef : ((1 + (a - b) / (a + b)) ^ (4 / 3 : ℝ) + (1 - (a - b) / (a + b)) ^ (4 / 3 : ℝ) - 2) / (2 ^ (4 / 3 : ℝ) - 2) = fZeta (polarization a b) := rfl
  have er : (3 / (4 * π * (a + b))) ^ (1 / 3 : ℝ) = wsRadius (a + b) := rfl
  have ez : (a - b) / (a + b) = polarization a b := rfl
  simp only [ef, er]
  simp only [ez]
  rw [vwnSpin, spinInterpolation, fZeta'']
  simp only [vwnCorr, vwnX, div_div_eq_mul_div, sub_neg_eq_add]
  norm_num
  ring_nf

/-- C58. -/
theorem gga_x_ak13_is : IsExchange gga_x_ak13 fun p n g => ak13Factor (par p "B1") (par p "B2") (reducedGradient n g) := by
  intro P p n g ht h hg
  rw [gga_x_ak13_eq P p n g ht h hg]
  unfold_q gga_x_ak13_qE
  simp only [diracExchange, ak13Factor, reducedGradient, beckeX, fermiK]

/-- C58. -/
theorem gga_x_vmt_is : IsExchange gga_x_vmt fun p n g => vmtFactor (par p "mu") (par p "alpha") (reducedGradient n g) := by
  intro P p n g ht h hg
  rw [gga_x_vmt_eq P p n g ht h hg]
  unfold_q gga_x_vmt_qE
  simp only [diracExchange, vmtFactor, reducedGradient, beckeX, fermiK]

/-- C58. -/
theorem gga_x_dk87_is : IsExchange gga_x_dk87 fun p n g => dk87Factor (par p "a1") (par p "b1") (par p "alpha") (beckeX n g) := by
  intro P p n g ht h hg
  rw [gga_x_dk87_eq P p n g ht h hg]
  unfold_q gga_x_dk87_qE
  simp only [diracExchange, dk87Factor, spinExchangeCoeff, reducedGradient, beckeX, fermiK]

/-- C58. -/
theorem gga_x_ssb_sw_is : IsExchange gga_x_ssb_sw fun p n g => ssbFactor (par p "A") (par p "B") (par p "C") (par p "D") (par p "E") (reducedGradient n g) := by
  intro P p n g ht h hg
  rw [gga_x_ssb_sw_eq P p n g ht h hg]
  unfold_q gga_x_ssb_sw_qE
  simp only [diracExchange, ssbFactor, reducedGradient, beckeX, fermiK]

theorem mpbe_form (a c₁ c₂ c₃ s : ℝ) : mpbeFactor a c₁ c₂ c₃ s =
    1 + c₁ * s ^ 2 / (1 + a * s ^ 2) + c₂ * s ^ 4 / (1 + a * s ^ 2) ^ 2 + c₃ * s ^ 6 / (1 + a * s ^ 2) ^ 2 / (1 + a * s ^ 2) := by
  rw [mpbeFactor]
  generalize 1 + a * s ^ 2 = d
  ring

/-- C58. -/
theorem gga_x_mpbe_is : IsExchange gga_x_mpbe fun p n g => mpbeFactor (par p "a") (par p "c1") (par p "c2") (par p "c3") (reducedGradient n g) := by
  intro P p n g ht h hg
  rw [gga_x_mpbe_eq P p n g ht h hg]
  unfold_q gga_x_mpbe_qE
  simp only [diracExchange, mpbe_form, reducedGradient, beckeX, fermiK]

/-- C58. -/
theorem gga_x_cap_is : IsExchange gga_x_cap fun p n g => capFactor (par p "alphaoAx") (par p "c") (reducedGradient n g) := by
  intro P p n g ht h hg
  rw [gga_x_cap_eq P p n g ht h hg]
  unfold_q gga_x_cap_qE
  simp only [diracExchange, capFactor, reducedGradient, beckeX, fermiK]

/-- C58. -/
theorem gga_x_lspbe_is : IsExchange gga_x_lspbe fun p n g => lsFactor (par p "kappa") (par p "alpha") (pbeFactor (par p "kappa") (par p "mu") (reducedGradient n g)) (reducedGradient n g) := by
  intro P p n g ht h hg
  rw [gga_x_lspbe_eq P p n g ht h hg]
  unfold_q gga_x_lspbe_qE
  simp only [diracExchange, lsFactor, pbeFactor, reducedGradient, beckeX, fermiK]

/-- C58. -/
theorem gga_x_lsrpbe_is : IsExchange gga_x_lsrpbe fun p n g => lsFactor (par p "kappa") (par p "alpha") (rpbeFactor (par p "kappa") (par p "mu") (reducedGradient n g)) (reducedGradient n g) := by
  intro P p n g ht h hg
  rw [gga_x_lsrpbe_eq P p n g ht h hg]
  unfold_q gga_x_lsrpbe_qE
  simp only [diracExchange, lsFactor, rpbeFactor, reducedGradient, beckeX, fermiK]
  ring_nf

/-- C58. -/
theorem gga_x_pbeint_is : IsExchange gga_x_pbeint fun p n g => pbeintFactor (par p "kappa") (par p "alpha") (par p "muGE") (par p "muPBE") (reducedGradient n g) := by
  intro P p n g ht h hg
  rw [gga_x_pbeint_eq P p n g ht h hg]
  unfold_q gga_x_pbeint_qE
  simp only [diracExchange, pbeintFactor, pbeFactor, reducedGradient, beckeX, fermiK]

/-- C58. -/
theorem gga_x_s12_is : IsExchange gga_x_s12 fun p n g => s12Factor (par p "bx") (par p "A") (par p "B") (par p "C") (par p "D") (par p "E") (beckeX n g) := by
  intro P p n g ht h hg
  rw [gga_x_s12_eq P p n g ht h hg]
  unfold_q gga_x_s12_qE
  simp only [diracExchange, s12Factor, reducedGradient, beckeX, fermiK]

/-- C58. -/
theorem gga_x_ncap_is : IsExchange gga_x_ncap fun p n g => ncapFactor (par p "alpha") (par p "beta") (par p "mu") (par p "zeta") (reducedGradient n g) := by
  intro P p n g ht h hg
  rw [gga_x_ncap_eq P p n g ht h hg]
  unfold_q gga_x_ncap_qE
  simp only [diracExchange, ncapFactor, reducedGradient, beckeX, fermiK]

/-- C58 (the formula is not defined at `g = 0`). -/
theorem gga_x_vmt84_is (P : Prims) (p : Rec) (n g : ℝ) (ht : Thresholds p) (h : Above p n) (hg : 0 < g) :
    gga_x_vmt84.unpol P p n (some g) none none = .ok (diracExchange n * vmt84Factor (par p "mu") (par p "alpha") (reducedGradient n g)) := by
  rw [gga_x_vmt84_eq P p n g ht h hg.le]
  unfold_q gga_x_vmt84_qE
  simp only [diracExchange, vmt84Factor, vmtFactor, reducedGradient, fermiK]

/-- C58 (the formula is not defined at `g = 0`). -/
theorem gga_x_chachiyo_is (P : Prims) (p : Rec) (n g : ℝ) (ht : Thresholds p) (h : Above p n) (hg : 0 < g) :
    gga_x_chachiyo.unpol P p n (some g) none none = .ok (diracExchange n * chachiyoFactor (4 * π / 9 * reducedGradient n g)) := by
  rw [gga_x_chachiyo_eq P p n g ht h hg.le]
  unfold_q gga_x_chachiyo_qE
  simp only [diracExchange, chachiyoFactor, div_div, reducedGradient, fermiK]

/-- C58. -/
theorem gga_k_apbe_is : IsKinetic gga_k_apbe fun p n g => pbeFactor (par p "kappa") (par p "mu") (reducedGradient n g) := by
  intro P p n g ht h hg
  rw [gga_k_apbe_eq P p n g ht h hg]
  unfold_q gga_k_apbe_qE
  simp only [thomasFermi, pbeFactor, reducedGradient, beckeX, fermiK]

/-- C58. -/
theorem gga_k_apbeint_is : IsKinetic gga_k_apbeint fun p n g => pbeintFactor (par p "kappa") (par p "alpha") (par p "muGE") (par p "muPBE") (reducedGradient n g) := by
  intro P p n g ht h hg
  rw [gga_k_apbeint_eq P p n g ht h hg]
  unfold_q gga_k_apbeint_qE
  simp only [thomasFermi, pbeintFactor, pbeFactor, reducedGradient, beckeX, fermiK]

/-- C58. -/
theorem gga_k_lc94_is : IsKinetic gga_k_lc94 fun p n g => pw91Factor (par p "a") (par p "b") (par p "c") (par p "d") (par p "f") (par p "alpha") (par p "expo") (reducedGradient n g) := by
  intro P p n g ht h hg
  rw [gga_k_lc94_eq P p n g ht h hg]
  unfold_q gga_k_lc94_qE
  simp only [thomasFermi, pw91Factor, reducedGradient, beckeX, fermiK]

/-- C58. -/
theorem gga_k_mpbe_is : IsKinetic gga_k_mpbe fun p n g => mpbeFactor (par p "a") (par p "c1") (par p "c2") (par p "c3") (reducedGradient n g) := by
  intro P p n g ht h hg
  rw [gga_k_mpbe_eq P p n g ht h hg]
  unfold_q gga_k_mpbe_qE
  simp only [thomasFermi, mpbe_form, reducedGradient, beckeX, fermiK]

/-- C58. -/
theorem gga_k_llp_is : IsKinetic gga_k_llp fun p n g => b88Factor (par p "beta") (par p "gamma") (beckeX n g) := by
  intro P p n g ht h hg
  rw [gga_k_llp_eq P p n g ht h hg]
  unfold_q gga_k_llp_qE
  simp only [thomasFermi, b88Factor, spinExchangeCoeff, reducedGradient, beckeX, fermiK]

/-- C58. -/
theorem gga_k_pearson_is : IsKinetic gga_k_pearson fun _ n g => pearsonFactor (reducedGradient n g) := by
  intro P p n g ht h hg
  rw [gga_k_pearson_eq P p n g ht h hg]
  unfold_q gga_k_pearson_qE
  simp only [thomasFermi, pearsonFactor, reducedGradient, beckeX, fermiK]

/-- C58. -/
theorem gga_k_pg_is : IsKinetic gga_k_pg fun p n g => pgFactor (par p "pg_mu") (reducedGradient n g) := by
  intro P p n g ht h hg
  rw [gga_k_pg_eq P p n g ht h hg]
  unfold_q gga_k_pg_qE
  simp only [thomasFermi, pgFactor, reducedGradient, beckeX, fermiK]

/-- C58. -/
theorem gga_k_rational_p_is : IsKinetic gga_k_rational_p fun p n g => rationalFactor (par p "C2") (par p "p") (reducedGradient n g) := by
  intro P p n g ht h hg
  rw [gga_k_rational_p_eq P p n g ht h hg]
  unfold_q gga_k_rational_p_qE
  simp only [thomasFermi, rationalFactor, reducedGradient, beckeX, fermiK]

/-- C58. -/
theorem gga_k_dk_is : IsKinetic gga_k_dk fun p n g => dkFactor (par p "aa[0]") (par p "aa[1]") (par p "aa[2]") (par p "aa[3]") (par p "aa[4]") (par p "bb[0]") (par p "bb[1]") (par p "bb[2]") (par p "bb[3]") (par p "bb[4]") (beckeX n g) := by
  intro P p n g ht h hg
  rw [gga_k_dk_eq P p n g ht h hg]
  unfold_q gga_k_dk_qE
  simp only [thomasFermi, dkFactor, reducedGradient, beckeX, fermiK]

/-- C58. -/
theorem gga_k_thakkar_is : IsKinetic gga_k_thakkar fun _ n g => thakkarFactor (beckeX n g) := by
  intro P p n g ht h hg
  rw [gga_k_thakkar_eq P p n g ht h hg]
  unfold_q gga_k_thakkar_qE
  simp only [thomasFermi, thakkarFactor, reducedGradient, beckeX, fermiK]
  norm_num

/-- C58. -/
theorem mgga_x_lta_is : IsExchangeMeta mgga_x_lta fun p n _ t => ltaFactor (par p "ltafrac") n t := by
  intro P p n g l t ht h hg hτ
  rw [mgga_x_lta_eq P p n g l t ht h hg.le hτ.le]
  unfold_q mgga_x_lta_qE
  simp only [← redGrad_sq h.pos hg.le, ← tf_eq h.pos, diracExchange, ltaFactor, isoAlpha]

/-- C58. -/
theorem mgga_x_th_is : IsExchangeMeta mgga_x_th fun _ n g t => thFactor n g t := by
  intro P p n g l t ht h hg hτ
  rw [mgga_x_th_eq P p n g l t ht h hg.le hτ.le]
  unfold_q mgga_x_th_qE
  simp only [← redGrad_sq h.pos hg.le, ← tf_eq h.pos, diracExchange, thFactor, isoAlpha]

/-- C58. -/
theorem mgga_x_ms_is : IsExchangeMeta mgga_x_ms fun p n g t => msFactor (par p "kappa") (par p "c") (par p "b") (reducedGradient n g) (isoAlpha n g t) := by
  intro P p n g l t ht h hg hτ
  rw [mgga_x_ms_eq P p n g l t ht h hg.le hτ.le]
  unfold_q mgga_x_ms_qE
  simp only [← redGrad_sq h.pos hg.le, ← tf_eq h.pos, diracExchange, msFactor, isoAlpha]

/-- C58. -/
theorem mgga_x_mvs_is : IsExchangeMeta mgga_x_mvs fun p n g t => mvsFactor (par p "k0") (par p "e1") (par p "c1") (par p "b") (reducedGradient n g) (isoAlpha n g t) := by
  intro P p n g l t ht h hg hτ
  rw [mgga_x_mvs_eq P p n g l t ht h hg.le hτ.le]
  unfold_q mgga_x_mvs_qE
  simp only [← redGrad_sq h.pos hg.le, ← tf_eq h.pos, diracExchange, mvsFactor, ← pow_mul, Nat.reduceMul, isoAlpha]

/-- C58. -/
theorem mgga_x_tau_hcth_is : IsExchangeMeta mgga_x_tau_hcth fun p n g t => tauHcthFactor p (beckeX n g) ((n * thomasFermi n - t) / (n * thomasFermi n + t)) := by
  intro P p n g l t ht h hg hτ
  rw [mgga_x_tau_hcth_eq P p n g l t ht h hg.le hτ.le]
  unfold_q mgga_x_tau_hcth_qE
  have hx : g / 4 / (n / 2) ^ (8 / 3 : ℝ) = beckeX n g ^ 2 := by
    have := h.pos
    rw [beckeX, div_pow, Real.sq_sqrt (by positivity), ← Real.rpow_natCast ((n / 2) ^ _), ← Real.rpow_mul (by positivity)]
    norm_num
  simp only [← tf_eq h.pos, diracExchange, tauHcthFactor, String.reduceAppend, hx, Real.rpow_one]
  have e4 : (0.004 : ℝ) = 4 / 1000 := by norm_num
  rw [e4]
  generalize 4 / 1000 * beckeX n g ^ 2 = X
  generalize 1 + X = D
  generalize n * thomasFermi n - t = A
  generalize n * thomasFermi n + t = B
  ring

/-- C58. -/
theorem lda_c_chachiyo_is_spin : IsSpinLDA lda_c_chachiyo chachiyoSpin := by
  intro P p a b ht h0 h1 hu
  rw [lda_c_chachiyo_eq P p a b ht h0 h1 hu]
  unfold_q lda_c_chachiyo_qE
  simp only [chachiyoSpin, chachiyoCorr, fZeta, polarization, wsRadius]

/-- C58. -/
theorem lda_c_hl_is_spin : IsSpinLDA lda_c_hl hlSpin := by
  intro P p a b ht h0 h1 hu
  rw [lda_c_hl_eq P p a b ht h0 h1 hu]
  unfold_q lda_c_hl_qE
  simp only [hlSpin, hlCorr, fZeta, one_div_div, neg_mul, polarization, wsRadius]

/-- C58. -/
theorem lda_c_wigner_is_spin : IsSpinLDA lda_c_wigner fun p a b => (1 - polarization a b ^ 2) * wignerCorr (par p "a") (par p "b") (wsRadius (a + b)) := by
  intro P p a b ht h0 h1 hu
  rw [lda_c_wigner_eq P p a b ht h0 h1 hu]
  unfold_q lda_c_wigner_qE
  simp only [wignerCorr, mul_div_assoc, polarization, wsRadius]

/-- C58. -/
theorem lda_c_gombas_is_spin : IsSpinLDA lda_c_gombas fun _ a b => gombasCorr (a + b) := by
  intro P p a b ht h0 h1 hu
  rw [lda_c_gombas_eq P p a b ht h0 h1 hu]
  unfold_q lda_c_gombas_qE
  simp only [gombasCorr, rpow_neg (add_pos h0 h1).le, one_div, polarization, wsRadius]
  norm_num

/-- C58. -/
theorem lda_c_rc04_is_spin : IsSpinLDA lda_c_rc04 fun _ => rc04Corr := by
  intro P p a b ht h0 h1 hu
  rw [lda_c_rc04_eq P p a b ht h0 h1 hu]
  unfold_q lda_c_rc04_qE
  simp only [rc04Corr, phiZeta, polarization, wsRadius]
  norm_num

/-- C58. -/
theorem lda_xc_teter93_is_spin : IsSpinLDA lda_xc_teter93 fun _ => teterXC := by
  intro P p a b ht h0 h1 hu
  rw [lda_xc_teter93_eq P p a b ht h0 h1 hu]
  unfold_q lda_xc_teter93_qE
  simp only [teterXC, fZeta, polarization, wsRadius]
  norm_num

/-- C58. -/
theorem gga_c_wl_is_spin : IsSpinGGA gga_c_wl fun _ => wlCorr := by
  intro P p a b s0 s1 s2 ht h0 h1 hs0 hs2 hu
  rw [gga_c_wl_eq P p a b s0 s1 s2 ht h0 h1 hs0 hs2 hu]
  unfold_q gga_c_wl_qE
  simp only [wlCorr, totalGrad, polarization, wsRadius]
  norm_num

/-- C58. -/
theorem gga_c_chachiyo_is_spin : IsSpinGGA gga_c_chachiyo chachiyoGrad := by
  intro P p a b s0 s1 s2 ht h0 h1 hs0 hs2 hu
  rw [gga_c_chachiyo_eq P p a b s0 s1 s2 ht h0 h1 hs0 hs2 hu]
  unfold_q gga_c_chachiyo_qE
  simp only [chachiyoGrad, chachiyoCorr, totalGrad, phiZeta, polarization, wsRadius]

/-- C58. -/
theorem gga_c_wi_is_spin (P : Prims) (p : Rec) (a b saa sab sbb : ℝ) (ht : Thresholds p) (h0 : 0 < a) (h1 : 0 < b) (hs0 : 0 ≤ saa) (hs2 : 0 ≤ sbb)
    (hu : Unscreened p a b) (hg : 0 ≤ totalGrad saa sab sbb) : gga_c_wi.pol P p (a, b) (some (saa, sab, sbb)) none none =
      .ok (wiCorr (par p "a") (par p "b") (par p "c") (par p "d") (par p "k") (a + b) (totalGrad saa sab sbb)) := by
  rw [gga_c_wi_eq P p a b saa sab sbb ht h0 h1 hs0 hs2 hu]
  unfold_q gga_c_wi_qE
  have eg : saa + 2 * sab + sbb = totalGrad saa sab sbb := rfl
  have er : (3 / (4 * π * (a + b))) ^ (1 / 3 : ℝ) = wsRadius (a + b) := rfl
  simp only [er, eg]
  generalize totalGrad saa sab sbb = g at hg ⊢
  have hn : 0 < a + b := add_pos h0 h1
  have e2 : g / (a + b) ^ (8 / 3 : ℝ) = (√g / (a + b) ^ (4 / 3 : ℝ)) ^ 2 := by
    rw [div_pow, Real.sq_sqrt hg, ← Real.rpow_natCast ((a + b) ^ _), ← Real.rpow_mul hn.le]
    norm_num
  have e7 : √(√g / (a + b) ^ (4 / 3 : ℝ)) * (√g * g / (a + b) ^ 4) = (√g / (a + b) ^ (4 / 3 : ℝ)) ^ (7 / 2 : ℝ) := by
    have hx : 0 ≤ √g / (a + b) ^ (4 / 3 : ℝ) := by positivity
    have e3 : √g * g / (a + b) ^ 4 = (√g / (a + b) ^ (4 / 3 : ℝ)) ^ 3 := by
      rw [div_pow, ← Real.rpow_natCast ((a + b) ^ _) 3, ← Real.rpow_mul hn.le, pow_succ' √g 2, Real.sq_sqrt hg, ← Real.rpow_natCast (a + b) 4]
      norm_num
    rw [e3]
    generalize √g / (a + b) ^ (4 / 3 : ℝ) = x at hx ⊢
    rw [Real.sqrt_eq_rpow, ← Real.rpow_natCast x 3, ← Real.rpow_add_of_nonneg hx (by norm_num) (by norm_num)]
    norm_num
  simp only [e2, e7, wiCorr]

/-! ## Through the interface -/

section
variable {n : ℕ} {P : Prims} {I : Impls} {g : GenInfo} {p : PTree} {eps : EpsFn} {f : Formula} {rho : ArrFn n ℝ} {mo : Option (Callable n ℂ)} {r : Coord n}

/-- C58, local functionals of two spin densities. -/
theorem c58_lda {e : Rec → ℝ → ℝ → ℝ} (hf : IsSpinLDA f e) (hc : Created P I g true p eps) (hs : Single I p .lda f) (hp : Thresholds p.info.vals)
    (hsh : rho.shape = [2]) (hu : Unscreened p.info.vals (rho.ent r [0]) (rho.ent r [1])) :
    eps.call (.ok rho) r mo = .ok (e p.info.vals (rho.ent r [0]) (rho.ent r [1])) := by
  have ht : 0 < thr p := hp.dens
  have u0 : thr p < rho.ent r [0] := hu.dens0
  have u1 : thr p < rho.ent r [1] := hu.dens1
  rw [c10_above_polarized hc hs rho hsh r mo 0 (fun _ _ _ => 0) (fun h => nomatch h) (by linarith)]
  exact hf P _ _ _ hp (ht.trans u0) (ht.trans u1) hu

/-- C58, gradient-corrected functionals of two spin densities: the three variables are the scalar products of the gradients at `r`. -/
theorem c58_gga {e : Rec → ℝ → ℝ → ℝ → ℝ → ℝ → ℝ} (hf : IsSpinGGA f e) (hc : Created P I g true p eps) (hs : Single I p .gga f) (hp : Thresholds p.info.vals)
    (hsh : rho.shape = [2]) (hu : Unscreened p.info.vals (rho.ent r [0]) (rho.ent r [1])) :
    eps.call (.ok rho) r mo = .ok (e p.info.vals (rho.ent r [0]) (rho.ent r [1]) (‖gradient (rho.ent · [0]) r‖ ^ 2)
      (inner ℝ (gradient (rho.ent · [0]) r) (gradient (rho.ent · [1]) r)) (‖gradient (rho.ent · [1]) r‖ ^ 2)) := by
  have ht : 0 < thr p := hp.dens
  have u0 : thr p < rho.ent r [0] := hu.dens0
  have u1 : thr p < rho.ent r [1] := hu.dens1
  rw [c10_above_polarized hc hs rho hsh r mo 0 (fun _ _ _ => 0) (fun h => nomatch h) (by linarith)]
  exact hf P _ _ _ _ _ _ hp (ht.trans u0) (ht.trans u1) (c06_nonneg _ _) (c06_nonneg _ _) hu

/-- What `totalGrad` is: the squared length of the gradient of the total density. -/
theorem totalGrad_eq {u v : Coord n → ℝ} (hu : DifferentiableAt ℝ u r) (hv : DifferentiableAt ℝ v r) :
    totalGrad (‖gradient u r‖ ^ 2) (inner ℝ (gradient u r) (gradient v r)) (‖gradient v r‖ ^ 2) = ‖gradient (fun x => u x + v x) r‖ ^ 2 := by
  have e : gradient (fun x => u x + v x) r = gradient u r + gradient v r := by
    rw [gradient, gradient, gradient, fderiv_fun_add hu hv, map_add]
  rw [e, norm_add_sq_real, totalGrad]

/-- C58, exchange of a closed shell. -/
theorem c58_exchange {F : Rec → ℝ → ℝ → ℝ} (hf : IsExchange f F) (hc : Created P I g false p eps) (hs : Single I p .gga f) (hp : Thresholds p.info.vals)
    (hz : p.info.vals.fld .zetaThreshold < 1) (hsh : rho.shape = []) (ht : 2 * thr p < rho.ent r []) :
    eps.call (.ok rho) r mo = .ok (diracExchange (rho.ent r []) * F p.info.vals (rho.ent r []) (‖gradient (rho.ent · []) r‖ ^ 2)) := by
  have h0 : 0 < thr p := hp.dens
  rw [c10_above_unpolarized hc hs rho hsh r mo 0 (fun _ _ => 0) (fun h => nomatch h) (by linarith)]
  exact hf P _ _ _ hp (above_of hp hz ht) (c06_nonneg _ _)

/-- C58, kinetic energy of a closed shell. -/
theorem c58_kinetic {F : Rec → ℝ → ℝ → ℝ} (hf : IsKinetic f F) (hc : Created P I g false p eps) (hs : Single I p .gga f) (hp : Thresholds p.info.vals)
    (hz : p.info.vals.fld .zetaThreshold < 1) (hsh : rho.shape = []) (ht : 2 * thr p < rho.ent r []) :
    eps.call (.ok rho) r mo = .ok (thomasFermi (rho.ent r []) * F p.info.vals (rho.ent r []) (‖gradient (rho.ent · []) r‖ ^ 2)) := by
  have h0 : 0 < thr p := hp.dens
  rw [c10_above_unpolarized hc hs rho hsh r mo 0 (fun _ _ => 0) (fun h => nomatch h) (by linarith)]
  exact hf P _ _ _ hp (above_of hp hz ht) (c06_nonneg _ _)

/-- C58, meta-GGA exchange of a closed shell with orbitals `φ`: `τ = ½ Σ |∇φᵢ|²`. -/
theorem c58_meta {F : Rec → ℝ → ℝ → ℝ → ℝ} (hf : IsExchangeMeta f F) (hc : Created P I g false p eps) (hs : Single I p .mgga f) (hp : Thresholds p.info.vals)
    (hz : p.info.vals.fld .zetaThreshold < 1) (hsh : rho.shape = []) (ht : 2 * thr p < rho.ent r []) (N : ℕ) (m : ArrFn n ℂ) (hm : m.shape = [N])
    (h2 : Twice (rho.ent · []) r) (hg : gradient (rho.ent · []) r ≠ 0) (hk : 0 < kinetic (orb m N) r) :
    eps.call (.ok rho) r (some (.ok m)) = .ok (diracExchange (rho.ent r []) *
      F p.info.vals (rho.ent r []) (‖gradient (rho.ent · []) r‖ ^ 2) (kinetic (orb m N) r)) := by
  have h0 : 0 < thr p := hp.dens
  rw [c10_above_unpolarized hc hs rho hsh r _ N (orb m N) (fun _ => ⟨h2, m, rfl, hm, rfl⟩) (by linarith)]
  exact hf P _ _ _ _ _ hp (above_of hp hz ht) (pow_pos (norm_pos_iff.2 hg) 2) hk

/-- C58, exchange of two spin densities, for a functional that obeys the spin-scaling relation (C37). -/
theorem c58_exchange_pol {F : Rec → ℝ → ℝ → ℝ} (hf : IsExchange f F) (hsc : SpinScaling .gga f) (hc : Created P I g true p eps) (hs : Single I p .gga f)
    (hp : Thresholds p.info.vals) (hz : p.info.vals.fld .zetaThreshold < 1) (hsh : rho.shape = [2]) (hu : Unscreened p.info.vals (rho.ent r [0]) (rho.ent r [1])) :
    ∃ e, eps.call (.ok rho) r mo = .ok e ∧ (rho.ent r [0] + rho.ent r [1]) * e =
      rho.ent r [0] * (diracExchange (2 * rho.ent r [0]) * F p.info.vals (2 * rho.ent r [0]) (4 * ‖gradient (rho.ent · [0]) r‖ ^ 2)) +
      rho.ent r [1] * (diracExchange (2 * rho.ent r [1]) * F p.info.vals (2 * rho.ent r [1]) (4 * ‖gradient (rho.ent · [1]) r‖ ^ 2)) := by
  have ht : 0 < thr p := hp.dens
  have u0 : thr p < rho.ent r [0] := hu.dens0
  have u1 : thr p < rho.ent r [1] := hu.dens1
  obtain ⟨e, e0, e1, h, h0, h1, hsum⟩ := hsc P p.info.vals (rho.ent r [0]) (rho.ent r [1]) (gradSq (rho.ent · [0]) r) (gradDot (rho.ent · [0]) (rho.ent · [1]) r)
    (gradSq (rho.ent · [1]) r) 0 0 0 0 hp (by linarith) (by linarith) (c06_nonneg _ _) (c06_nonneg _ _) le_rfl le_rfl hu
  refine ⟨e, ?_, ?_⟩
  · rw [c10_above_polarized hc hs rho hsh r mo 0 (fun _ _ _ => 0) (fun h => nomatch h) (by linarith)]
    exact h
  · have a0 := hf P p.info.vals (2 * rho.ent r [0]) (4 * gradSq (rho.ent · [0]) r) hp (above_of hp hz (by linarith)) (mul_nonneg (by norm_num) (c06_nonneg _ _))
    have a1 := hf P p.info.vals (2 * rho.ent r [1]) (4 * gradSq (rho.ent · [1]) r) hp (above_of hp hz (by linarith)) (mul_nonneg (by norm_num) (c06_nonneg _ _))
    rw [hsum, Except.ok.inj (h0.symm.trans a0), Except.ok.inj (h1.symm.trans a1)]
    rfl

end

/-! ## Instances -/

theorem quad2_unscreened (r : Coord 3) : Unscreened soloRec ((Demo.quad2 3 5).ent r [0]) ((Demo.quad2 3 5).ent r [1]) := by
  have h : 0 ≤ ‖r‖ ^ 2 := by positivity
  change Unscreened soloRec (‖r‖ ^ 2 + 5) (‖r‖ ^ 2 + 5 + 1)
  constructor <;> norm_num [soloRec] <;> linarith

/-- Perdew–Zunger correlation of the spin densities `|x|² + 5`, `|x|² + 6`. -/
example (P : Prims) (r : Coord 3) : (soloEps P .lda lda_c_pz true soloRec).call (.ok (Demo.quad2 3 5)) r none = .ok (pzSpin soloRec (‖r‖ ^ 2 + 5) (‖r‖ ^ 2 + 5 + 1)) :=
  c58_lda lda_c_pz_is_spin (solo_created P .lda lda_c_pz true soloRec) (solo_single .lda lda_c_pz true soloRec) soloRec_ok (rho := Demo.quad2 3 5) rfl (quad2_unscreened r)

/-- Lee–Yang–Parr correlation of these. -/
example (P : Prims) (r : Coord 3) : ∃ e, (soloEps P .gga gga_c_lyp true soloRec).call (.ok (Demo.quad2 3 5)) r none = .ok e :=
  ⟨_, c58_gga gga_c_lyp_is_spin (solo_created P .gga gga_c_lyp true soloRec) (solo_single .gga gga_c_lyp true soloRec) soloRec_ok (rho := Demo.quad2 3 5) rfl (quad2_unscreened r)⟩

/-- AK13 exchange of these. -/
example (P : Prims) (r : Coord 3) : ∃ e, (soloEps P .gga gga_x_ak13 true soloRec).call (.ok (Demo.quad2 3 5)) r none = .ok e :=
  let ⟨e, h, _⟩ := c58_exchange_pol (mo := none) gga_x_ak13_is gga_x_ak13_spinScaling (solo_created P .gga gga_x_ak13 true soloRec) (solo_single .gga gga_x_ak13 true soloRec)
    soloRec_ok soloRec_zeta (rho := Demo.quad2 3 5) rfl (quad2_unscreened r)
  ⟨e, h⟩

theorem quad_above (r : Coord 3) (fam : Fam) : 2 * thr (soloTree fam false soloRec) < (Demo.quad 3 5).ent r [] := by
  have ht : thr (soloTree fam false soloRec) = 1 / 10 ^ 15 := rfl
  have : 0 ≤ ‖r‖ ^ 2 := by positivity
  rw [ht]
  change _ < ‖r‖ ^ 2 + 5
  norm_num
  linarith

/-- AK13 exchange and the kinetic energy of Pearson for `|x|² + 5`. -/
example (P : Prims) (r : Coord 3) : ∃ e k, (soloEps P .gga gga_x_ak13 false soloRec).call (.ok (Demo.quad 3 5)) r none = .ok e ∧
    (soloEps P .gga gga_k_pearson false soloRec).call (.ok (Demo.quad 3 5)) r none = .ok k :=
  ⟨_, _, c58_exchange gga_x_ak13_is (solo_created P .gga gga_x_ak13 false soloRec) (solo_single .gga gga_x_ak13 false soloRec) soloRec_ok soloRec_zeta
    (rho := Demo.quad 3 5) rfl (quad_above r .gga), c58_kinetic gga_k_pearson_is (solo_created P .gga gga_k_pearson false soloRec)
    (solo_single .gga gga_k_pearson false soloRec) soloRec_ok soloRec_zeta (rho := Demo.quad 3 5) rfl (quad_above r .gga)⟩

/-- TPSS and SCAN exchange at density 1, squared gradient 2, kinetic energy density 3; all parameters 1. -/
example (P : Prims) : ∃ e e', mgga_x_tpss.unpol P soloRec 1 (some 2) (some 0) (some 3) = .ok e ∧ mgga_x_scan.unpol P soloRec 1 (some 2) (some 0) (some 3) = .ok e' := by
  have ha : Above soloRec 1 := ⟨one_pos, soloRec_zeta, by norm_num [soloRec]⟩
  obtain ⟨f, _, h⟩ := mgga_x_scan_is P soloRec 1 2 0 3 soloRec_ok ha two_pos three_pos one_pos (by change (1 / 10 ^ 15 : ℝ) < |1|; norm_num)
  exact ⟨_, _, mgga_x_tpss_is P soloRec 1 2 0 3 soloRec_ok ha two_pos three_pos, h⟩

/-! ### The pieces of the specification -/

theorem fZeta_zero : fZeta 0 = 0 := by norm_num [fZeta]
theorem fZeta_one : fZeta 1 = 1 := by
  have : (1 : ℝ) < 2 ^ (1 / 3 : ℝ) := Real.one_lt_rpow (by norm_num) (by norm_num)
  have e : (2 : ℝ) ^ (4 / 3 : ℝ) = 2 * 2 ^ (1 / 3 : ℝ) := by
    rw [show (4 / 3 : ℝ) = 1 + 1 / 3 by norm_num, Real.rpow_add two_pos, Real.rpow_one]
  rw [fZeta, sub_self, Real.zero_rpow (by norm_num), add_zero, show (1 + 1 : ℝ) = 2 by norm_num]
  exact div_self (by rw [e]; linarith)
theorem phiZeta_zero : phiZeta 0 = 1 := by norm_num [phiZeta]

/-- The numbers at the ends of the interpolations: unpolarized and fully polarized gas. -/
theorem spinInterpolation_ends (ε₀ ε₁ α f₂ : ℝ) : spinInterpolation ε₀ ε₁ α f₂ 0 = ε₀ ∧ spinInterpolation ε₀ ε₁ α f₂ 1 = ε₁ := by
  rw [spinInterpolation, spinInterpolation, fZeta_zero, fZeta_one]
  norm_num

/-- SCAN's switch at one orbital and at the uniform gas. -/
theorem scanSwitch_ends (c₁ c₂ d : ℝ) : scanSwitch c₁ c₂ d 0 = 1 ∧ scanSwitch c₁ c₂ d 1 = 0 := by
  constructor <;> norm_num [scanSwitch]

/-- All factors of GGA exchange are 1 without gradient (the local density approximation), and so are those of kinetic energy except where
the parameters decide. -/
theorem factors_zero (a b c d e f : ℝ) (hd : d ≠ 0) : pw91Factor a b c d e f 4 0 = 1 ∧ ak13Factor a b 0 = 1 ∧ vmtFactor a b 0 = 1 ∧ dk87Factor a b d 0 = 1 ∧
    mpbeFactor a b c d 0 = 1 ∧ capFactor a b 0 = 1 ∧ lsFactor d a (pbeFactor d b 0) 0 = 1 ∧ lsFactor d a (rpbeFactor d b 0) 0 = 1 ∧
    pbeintFactor d a b c 0 = 1 ∧ ncapFactor a b c d 0 = 1 ∧ pearsonFactor 0 = 1 ∧ pgFactor a 0 = 1 ∧ rationalFactor a b 0 = 1 ∧ thakkarFactor 0 = 1 := by
  refine ⟨?_, ?_, ?_, ?_, ?_, ?_, ?_, ?_, ?_, ?_, ?_, ?_, ?_, ?_⟩ <;>
    norm_num [pw91Factor, ak13Factor, vmtFactor, dk87Factor, mpbeFactor, capFactor, lsFactor, pbeFactor, rpbeFactor, pbeintFactor, ncapFactor, pearsonFactor, pgFactor,
      rationalFactor, thakkarFactor, hd]

end
end Verif.Props
