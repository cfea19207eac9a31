import Verif.Props.Published
import Verif.Props.Kinetic
import Verif.Lib.Pw92
/-!
# C59: exact constraints that follow from the published forms
-/
namespace Verif.Props
open Verif.Py Verif.Model Verif.Spec Verif.Data Verif.Lib Verif.Norm Real
noncomputable section
open Classical

/-! ## Correlation -/

theorem rpow43 {x : ℝ} (h : 0 ≤ x) : x ^ (4 / 3 : ℝ) = cbrtR x * x := by
  rw [Lib.cbrtR_of_nonneg h, show (4 / 3 : ℝ) = 1 / 3 + 1 by norm_num, Real.rpow_add_of_nonneg h (by norm_num) (by norm_num), Real.rpow_one]

/-- The interpolation function lies between 0 and 1. -/
theorem fZeta_mem {z : ℝ} (h : |z| ≤ 1) : 0 ≤ fZeta z ∧ fZeta z ≤ 1 := by
  obtain ⟨h1, h2⟩ := abs_le.1 h
  obtain ⟨c1, _⟩ := cbrt2_bounds
  rw [fZeta, rpow43 (by linarith), rpow43 (by linarith), rpow43 (by norm_num)]
  have ax := cbrt43_ge (x := 1 + z) (by linarith)
  have ay := cbrt43_ge (x := 1 - z) (by linarith)
  have bx := cbrt43_le (x := 1 + z) (by linarith) (by linarith)
  have b2 := cbrt43_le (x := 1 - z) (by linarith) (by linarith)
  have hd : 0 < cbrtR 2 * 2 - 2 := by linarith
  exact ⟨div_nonneg (by linarith) hd.le, by rw [div_le_one hd]; linarith⟩

theorem polarization_abs {a b : ℝ} (ha : 0 < a) (hb : 0 < b) : |polarization a b| < 1 := by
  rw [polarization, abs_div, abs_of_pos (add_pos ha hb), div_lt_one (add_pos ha hb), abs_lt]
  constructor <;> linarith

theorem phiZeta_pos {z : ℝ} (h : |z| < 1) : 0 < phiZeta z := by
  obtain ⟨h1, h2⟩ := abs_lt.1 h
  have : 0 < (1 + z) ^ (2 / 3 : ℝ) := Real.rpow_pos_of_pos (by linarith) _
  have : 0 < (1 - z) ^ (2 / 3 : ℝ) := Real.rpow_pos_of_pos (by linarith) _
  rw [phiZeta]; linarith

/-- C59: the correlation energy of Perdew and Wang is negative at every density and polarization. -/
theorem pw92Table_neg {k₀ k₁ k₂ c₂ r z : ℝ} (h0 : 16.08 ≤ k₀) (h1 : 32.16 ≤ k₁) (h0' : k₀ ≤ 16.09) (h2 : 0 < k₂) (h2' : k₂ ≤ 29.61) (h3 : 0 < c₂) (h3' : c₂ ≤ 0.02)
    (hr : 0 < r) (hz : |z| ≤ 1) : pw92Table k₀ k₁ k₂ c₂ r z < 0 := by
  obtain ⟨f0, f1⟩ := fZeta_mem hz
  have z0 : 0 ≤ z ^ 4 := by positivity
  have z1 : z ^ 4 ≤ 1 := by
    have := pow_le_one₀ (n := 4) (abs_nonneg z) hz
    rwa [Even.pow_abs ⟨2, rfl⟩] at this
  rw [pw92Table, spinInterpolation]
  simp only [pw92GNum]
  have ha : 0 < r ^ (1 / 2 : ℝ) := by positivity
  have hw : 0 < r ^ (3 / 2 : ℝ) := by positivity
  have hv : 0 < r ^ 2 := by positivity
  have ew : r ^ (3 / 2 : ℝ) = r ^ (1 / 2 : ℝ) * r := by
    rw [show (3 / 2 : ℝ) = 1 / 2 + 1 by norm_num, Real.rpow_add hr, Real.rpow_one]
  have ev : r ^ 2 = (r ^ (1 / 2 : ℝ)) ^ 2 * r := by
    rw [← Real.sqrt_eq_rpow, Real.sq_sqrt hr.le, sq]
  generalize r ^ (1 / 2 : ℝ) = a at *
  generalize r ^ (3 / 2 : ℝ) = w at *
  generalize r ^ 2 = v at *
  have k1p : 0 < k₁ := by linarith
  have k0p : 0 < k₀ := by linarith
  have hCA := pw_cmp (c1 := 2 * 0.0310907) (c2 := c₂) (k := 12 / 5) (m := 13 / 10) (t := 1) (s := 17 / 20) (a1 := 0.21370) (a2 := 0.11125) (d1 := k₀) (d2 := k₂)
    (Q1 := 7.5957 * a + 3.5876 * r + 1.6382 * w + 0.49294 * v) (Q2 := 10.357 * a + 3.6231 * r + 0.88026 * w + 0.49671 * v) hr
    (by positivity) (by positivity) h3 (by norm_num) (by positivity) h2 ?_ (by linarith) (by norm_num) le_rfl (by norm_num) (by linarith)
  · have hAB := pw_cmp (c1 := 2 * 0.01554535) (c2 := 2 * 0.0310907) (k := 11 / 10) (m := 21 / 10) (t := 2) (s := 10) (a1 := 0.20548) (a2 := 0.21370) (d1 := k₁) (d2 := k₀)
      (Q1 := 14.1189 * a + 6.1977 * r + 3.3662 * w + 0.62517 * v) (Q2 := 7.5957 * a + 3.5876 * r + 1.6382 * w + 0.49294 * v) hr
      (by positivity) (by positivity) (by norm_num) (by norm_num) (by positivity) (by positivity) ?_ (by linarith) (by norm_num) (by norm_num) (by norm_num) (by norm_num)
    · have lA : 0 < log (1 + k₀ / (7.5957 * a + 3.5876 * r + 1.6382 * w + 0.49294 * v)) := Real.log_pos (lt_add_of_pos_right _ (by positivity))
      have lC : 0 < log (1 + k₂ / (10.357 * a + 3.6231 * r + 0.88026 * w + 0.49671 * v)) := Real.log_pos (lt_add_of_pos_right _ (by positivity))
      have key := pw_mix_neg (Z := z ^ 4) (F := fZeta z) (by positivity) hCA (by positivity) hAB z0 z1 f0 (by linarith)
      refine lt_of_eq_of_lt ?_ key
      ring
    · linarith
  · have : w ≤ 1.36 * r + 0.186 * v := by
      rw [ew, ev]
      nlinarith [mul_nonneg (sq_nonneg (a - 2.7)) hr.le]
    linarith

/-- C59, PBE correlation at the level of numbers: with a local part `ε < 0` the correction keeps the energy between `ε` and 0. -/
theorem pbeH_bounds {β γ B ε φ t2 : ℝ} (hβ : 0 < β) (hγ : 0 < γ) (hB : 0 ≤ B) (hε : ε < 0) (hφ : 0 < φ) (ht : 0 ≤ t2) :
    0 ≤ pbeH β γ B (pbeA β γ ε φ) φ t2 ∧ pbeH β γ B (pbeA β γ ε φ) φ t2 < -ε := by
  have hx : 0 < -ε / (γ * φ ^ 3) := by
    have : 0 < -ε := by linarith
    positivity
  have hE : 0 < exp (-ε / (γ * φ ^ 3)) - 1 := by linarith [Real.one_lt_exp_iff.2 hx]
  have hA : 0 < pbeA β γ ε φ := by rw [pbeA]; positivity
  have eA : β / γ = pbeA β γ ε φ * (exp (-ε / (γ * φ ^ 3)) - 1) := by
    rw [pbeA, div_mul_eq_mul_div, mul_div_assoc, div_self hE.ne', mul_one]
  rw [pbeH]
  generalize hAA : pbeA β γ ε φ = A at *
  have hq : 0 ≤ β / γ * t2 * (1 + B * A * t2) / (1 + A * t2 + B * A ^ 2 * t2 ^ 2) := by positivity
  constructor
  · have := Real.log_nonneg (by linarith : 1 ≤ 1 + β / γ * t2 * (1 + B * A * t2) / (1 + A * t2 + B * A ^ 2 * t2 ^ 2))
    positivity
  · have hd : 0 < 1 + A * t2 + B * A ^ 2 * t2 ^ 2 := by positivity
    have hlt : 1 + β / γ * t2 * (1 + B * A * t2) / (1 + A * t2 + B * A ^ 2 * t2 ^ 2) < exp (-ε / (γ * φ ^ 3)) := by
      have : β / γ * t2 * (1 + B * A * t2) / (1 + A * t2 + B * A ^ 2 * t2 ^ 2) < exp (-ε / (γ * φ ^ 3)) - 1 := by
        rw [div_lt_iff₀ hd, eA]
        nlinarith
      linarith
    have hl := Real.log_lt_log (by linarith) hlt
    rw [Real.log_exp] at hl
    have hg : 0 < γ * φ ^ 3 := by positivity
    calc _ < γ * φ ^ 3 * (-ε / (γ * φ ^ 3)) := mul_lt_mul_of_pos_left hl hg
      _ = -ε := by field_simp

theorem digits_pos {d : ℕ} {x y : ℝ} (h : Digits d x y) (hy : 0 < y) : y - 1 / 10 ^ d * y ≤ x ∧ x ≤ y + 1 / 10 ^ d * y := by
  rw [Digits, abs_of_pos hy, abs_le] at h
  constructor <;> linarith [h.1, h.2]

theorem pw92_neg_of_digits {k₀ k₁ k₂ c₂ a b : ℝ} (d0 : Digits 19 k₀ (1 / (2 * 0.0310907))) (d1 : Digits 19 k₁ (1 / (2 * 0.01554535))) (d2 : Digits 19 k₂ (1 / (2 * 0.0168869)))
    (d3 : Digits 19 c₂ (2 * 0.0168869 / fZeta'')) (ha : 0 < a) (hb : 0 < b) : pw92Table k₀ k₁ k₂ c₂ (wsRadius (a + b)) (polarization a b) < 0 := by
  have b0 := digits_pos d0 (by norm_num)
  have b1 := digits_pos d1 (by norm_num)
  have b2 := digits_pos d2 (by norm_num)
  have hc : 0 < 2 * 0.0168869 / fZeta'' ∧ 2 * 0.0168869 / fZeta'' ≤ 0.0198 := by
    obtain ⟨h1, h2⟩ := cbrt2_bounds
    rw [Lib.cbrtR_of_nonneg (by norm_num)] at h1 h2
    have : 0 < (2 : ℝ) ^ (1 / 3 : ℝ) - 1 := by linarith
    rw [fZeta'']
    constructor
    · positivity
    · rw [div_div_eq_mul_div, div_le_iff₀ (by norm_num)]
      linarith
  have b3 := digits_pos d3 hc.1
  refine pw92Table_neg ?_ ?_ ?_ ?_ ?_ ?_ ?_ ?_ (polarization_abs ha hb).le
  · refine le_trans ?_ b0.1; norm_num
  · refine le_trans ?_ b1.1; norm_num
  · refine b0.2.trans ?_; norm_num
  · refine lt_of_lt_of_le ?_ b2.1; norm_num
  · refine b2.2.trans ?_; norm_num
  · refine lt_of_lt_of_le ?_ b3.1
    have : (1 : ℝ) / 10 ^ 19 ≤ 1 / 2 := by norm_num
    nlinarith
  · refine b3.2.trans ?_
    have : (1 : ℝ) / 10 ^ 19 ≤ 1 / 1000 := by norm_num
    nlinarith
  · have := add_pos ha hb
    unfold wsRadius; positivity

/-- C59: PBE correlation lies between the local correlation energy of Perdew and Wang and 0, for `β, γ > 0` and `BB ≥ 0`, at all spin polarizations
and gradients; without gradient it is the local one. -/
theorem gga_c_pbe_bounds : ∃ εPW : ℝ → ℝ → ℝ, (∀ a b, 0 < a → 0 < b → εPW a b < 0) ∧
    ∀ (P : Prims) (p : Rec) (a b saa sab sbb : ℝ), Thresholds p → 0 < a → 0 < b → 0 ≤ saa → 0 ≤ sbb → Unscreened p a b →
      0 < par p "beta" → 0 < par p "gamma" → 0 ≤ par p "BB" → 0 ≤ totalGrad saa sab sbb →
      ∃ e, gga_c_pbe.pol P p (a, b) (some (saa, sab, sbb)) none none = .ok e ∧ εPW a b ≤ e ∧ e < 0 ∧ (totalGrad saa sab sbb = 0 → e = εPW a b) := by
  obtain ⟨k₀, k₁, k₂, c₂, d0, d1, d2, d3, h⟩ := gga_c_pbe_is_spin
  have hneg : ∀ a b, 0 < a → 0 < b → pw92Table k₀ k₁ k₂ c₂ (wsRadius (a + b)) (polarization a b) < 0 := fun a b => pw92_neg_of_digits d0 d1 d2 d3
  refine ⟨fun a b => pw92Table k₀ k₁ k₂ c₂ (wsRadius (a + b)) (polarization a b), hneg, ?_⟩
  intro P p a b saa sab sbb ht ha hb hs0 hs2 hu hβ hγ hB hg
  refine ⟨_, h P p a b saa sab sbb ht ha hb hs0 hs2 hu, ?_⟩
  have hφ := phiZeta_pos (polarization_abs ha hb)
  have t0 : 0 ≤ pbeT2 (a + b) (phiZeta (polarization a b)) (totalGrad saa sab sbb) := div_nonneg hg (sq_nonneg _)
  obtain ⟨h1, h2⟩ := pbeH_bounds hβ hγ hB (hneg a b ha hb) hφ t0
  simp only [pbeCorr]
  refine ⟨by linarith, by linarith, fun e => ?_⟩
  have : pbeT2 (a + b) (phiZeta (polarization a b)) (totalGrad saa sab sbb) = 0 := by rw [pbeT2, e, zero_div]
  rw [this, pbeH]
  simp

/-! ## Exchange with the kinetic energy density -/

theorem isoAlpha_nonneg {n g t : ℝ} (hn : 0 < n) (h : g ≤ 8 * n * t) : 0 ≤ isoAlpha n g t := by
  have hT : 0 < n * thomasFermi n := by unfold thomasFermi; positivity
  refine div_nonneg ?_ hT.le
  rw [sub_nonneg, div_le_iff₀ (by positivity)]
  linarith

theorem scanCut_mem {c₁ c₂ d α : ℝ} (h1 : 0 < c₁) (h2 : 0 ≤ c₂) (hd : 0 ≤ d) (ha : 0 ≤ α) : -d ≤ scanCut c₁ c₂ d α ∧ scanCut c₁ c₂ d α ≤ 1 := by
  rw [scanCut]
  split_ifs with h3 h4 h5
  · exact ⟨by linarith, zero_le_one⟩
  · have : -c₁ * α / (1 - α) ≤ 0 := div_nonpos_of_nonpos_of_nonneg (by nlinarith) (by linarith)
    exact ⟨by linarith [exp_pos (-c₁ * α / (1 - α))], exp_le_one_iff.2 this⟩
  · exact ⟨by linarith, zero_le_one⟩
  · have hneg : c₂ / (1 - α) ≤ 0 := div_nonpos_of_nonneg_of_nonpos h2 (by linarith)
    have e1 := exp_le_one_iff.2 hneg
    have e0 := exp_pos (c₂ / (1 - α))
    constructor <;> nlinarith

theorem scanFactor_mem {k₁ f d s α : ℝ} (hk : 0 < k₁) (hk' : k₁ ≤ 1 / 10) (hf : -d ≤ f) (hf' : f ≤ 1) (hd' : d ≤ 5) (hs : 0 < s) :
    0 < scanFactor k₁ f s α ∧ scanFactor k₁ f s α < 1.174 := by
  have hg : 0 < exp (-4.9479 / √s) := exp_pos _
  have hg' : exp (-4.9479 / √s) < 1 := by
    rw [Real.exp_lt_one_iff]
    exact div_neg_of_neg_of_pos (by norm_num) (Real.sqrt_pos.2 hs)
  have hb2 : 0 < √(5913 / 405000 : ℝ) := Real.sqrt_pos.2 (by norm_num)
  have hb4 : 0 ≤ (10 / 81 : ℝ) ^ 2 / k₁ - 1606 / 18225 - (511 / 13500 / (2 * √(5913 / 405000))) ^ 2 := by
    have e : (511 / 13500 / (2 * √(5913 / 405000 : ℝ))) ^ 2 = (511 / 13500) ^ 2 / (4 * (5913 / 405000)) := by
      rw [div_pow, mul_pow, Real.sq_sqrt (by norm_num)]; norm_num
    rw [e]
    have : (10 / 81 : ℝ) ^ 2 / (1 / 10) ≤ (10 / 81 : ℝ) ^ 2 / k₁ := div_le_div_of_nonneg_left (by norm_num) hk hk'
    norm_num at this ⊢
    linarith
  simp only [scanFactor]
  generalize (10 / 81 : ℝ) ^ 2 / k₁ - 1606 / 18225 - (511 / 13500 / (2 * √(5913 / 405000))) ^ 2 = b₄ at *
  have hx : 0 ≤ 10 / 81 * s ^ 2 * (1 + b₄ * s ^ 2 / (10 / 81) * exp (-(b₄ * s ^ 2 / (10 / 81)))) +
      (511 / 13500 / (2 * √(5913 / 405000)) * s ^ 2 + √(5913 / 405000) * (1 - α) * exp (-(1 / 2) * (1 - α) ^ 2)) ^ 2 := by positivity
  generalize 10 / 81 * s ^ 2 * (1 + b₄ * s ^ 2 / (10 / 81) * exp (-(b₄ * s ^ 2 / (10 / 81)))) +
      (511 / 13500 / (2 * √(5913 / 405000)) * s ^ 2 + √(5913 / 405000) * (1 - α) * exp (-(1 / 2) * (1 - α) ^ 2)) ^ 2 = x at *
  have q0 : 0 < k₁ / (k₁ + x) := by positivity
  have q1 : k₁ / (k₁ + x) ≤ 1 := by rw [div_le_one (by positivity)]; linarith
  generalize k₁ / (k₁ + x) = q at *
  have hh : 1 ≤ 1 + k₁ * (1 - q) ∧ 1 + k₁ * (1 - q) < 1.1 := by constructor <;> nlinarith
  generalize 1 + k₁ * (1 - q) = h at *
  have m0 : 0 < h + f * (1.174 - h) := by nlinarith
  have m1 : h + f * (1.174 - h) ≤ 1.174 := by nlinarith
  generalize h + f * (1.174 - h) = m at *
  constructor
  · exact mul_pos m0 (by linarith)
  · nlinarith

/-- C59: SCAN exchange is negative and lies above 1.174 times the local exchange (the "strongly tightened" bound), for every density, gradient and
kinetic energy density with `|∇n|² ≤ 8 n τ`; `k1 ≤ 0.1`, `d ≤ 5`: the shipped values are 0.065 and 1.24. -/
theorem mgga_x_scan_bounds (P : Prims) (p : Rec) (n g l t : ℝ) (ht : Thresholds p) (h : Above p n) (hg : 0 < g) (hτ : 0 < t) (hw : g ≤ 8 * n * t)
    (hc : 0 < par p "c1") (hc2 : 0 ≤ par p "c2") (hd : 0 ≤ par p "d") (hd' : par p "d" ≤ 5) (hk : 0 < par p "k1") (hk' : par p "k1" ≤ 1 / 10) :
    ∃ e, mgga_x_scan.unpol P p n (some g) (some l) (some t) = .ok e ∧ 1.174 * diracExchange n < e ∧ e < 0 := by
  have hf := scanCut_mem hc hc2 hd (isoAlpha_nonneg h.pos hw)
  have hs : 0 < reducedGradient n g := by
    have := h.pos
    unfold reducedGradient fermiK; positivity
  obtain ⟨h1, h2⟩ := scanFactor_mem (α := isoAlpha n g t) hk hk' hf.1 hf.2 hd' hs
  have := dirac_neg h.pos
  exact ⟨_, mgga_x_scan_eq' P p n g l t ht h hg hτ, by nlinarith, by nlinarith⟩

theorem tpssX_nonneg {b c e κ μ ea eb α p z : ℝ} (hc : 0 ≤ c) (hκ : 0 < κ) (he : 1 / 10 ≤ e) (hμ : 1 / 100 ≤ e * μ) (hp : 0 ≤ p) (hz : 0 ≤ z) :
    0 ≤ tpssX b c e κ μ ea eb α p z := by
  simp only [tpssX]
  refine div_nonneg ?_ (sq_nonneg _)
  generalize tpssQ b α p = q
  have hzp : 0 ≤ c * z ^ (ea + eb * z) / (1 + z ^ 2) ^ 2 := div_nonneg (mul_nonneg hc (Real.rpow_nonneg hz _)) (sq_nonneg _)
  have hse : 3 / 10 ≤ √e := Real.le_sqrt_of_sq_le (by norm_num; linarith)
  have hw0 : 0 ≤ √(1 / 2 * (3 / 5 * z) ^ 2 + 1 / 2 * p ^ 2) := Real.sqrt_nonneg _
  have hw2 : √(1 / 2 * (3 / 5 * z) ^ 2 + 1 / 2 * p ^ 2) ^ 2 = 1 / 2 * (3 / 5 * z) ^ 2 + 1 / 2 * p ^ 2 := Real.sq_sqrt (by positivity)
  generalize √(1 / 2 * (3 / 5 * z) ^ 2 + 1 / 2 * p ^ 2) = w at *
  generalize c * z ^ (ea + eb * z) / (1 + z ^ 2) ^ 2 = u at *
  have hq : -(73 / 648) * w ^ 2 ≤ 146 / 2025 * q ^ 2 - 73 / 405 * q * w := by
    nlinarith [sq_nonneg (q - 5 / 4 * w)]
  have hk : 0 ≤ 1 / κ * (10 / 81) ^ 2 * p ^ 2 := by positivity
  have hz2 : 73 / 1296 * (3 / 5 * z) ^ 2 ≤ 2 * √e * (10 / 81) * (3 / 5 * z) ^ 2 := mul_le_mul_of_nonneg_right (by linarith) (sq_nonneg _)
  have hp3 : 73 / 1296 * p ^ 2 ≤ 10 / 81 * p + e * μ * p ^ 3 := by
    have : 1 / 100 * p ^ 3 ≤ e * μ * p ^ 3 := mul_le_mul_of_nonneg_right hμ (by positivity)
    have : 73 / 1296 * p ^ 2 ≤ 10 / 81 * p + 1 / 100 * p ^ 3 := by
      nlinarith [mul_nonneg hp (sq_nonneg (p - 3))]
    linarith
  have hu : 0 ≤ u * p := mul_nonneg hzp hp
  nlinarith

/-- C59: TPSS exchange lies between the local exchange and `1 + κ` times it (local Lieb–Oxford bound); `e ≥ 0.1`, `e μ ≥ 0.01`: the shipped
values are 1.537 and 0.337. -/
theorem mgga_x_tpss_bounds (P : Prims) (p : Rec) (n g l t : ℝ) (ht : Thresholds p) (h : Above p n) (hg : 0 < g) (hτ : 0 < t)
    (hc : 0 ≤ par p "c") (hκ : 0 < par p "kappa") (he : 1 / 10 ≤ par p "e") (hμ : 1 / 100 ≤ par p "e" * par p "mu") :
    ∃ e, mgga_x_tpss.unpol P p n (some g) (some l) (some t) = .ok e ∧ (1 + par p "kappa") * diracExchange n < e ∧ e ≤ diracExchange n := by
  refine ⟨_, mgga_x_tpss_is P p n g l t ht h hg hτ, ?_⟩
  have hz : 0 ≤ g / (8 * n) / t := by have := h.pos; positivity
  have hx := tpssX_nonneg (b := par p "b") (ea := par p "BLOC_a") (eb := par p "BLOC_b") (α := isoAlpha n g t) (p := reducedGradient n g ^ 2) (z := g / (8 * n) / t)
    hc hκ he hμ (sq_nonneg _) hz
  have hd := dirac_neg h.pos
  beta_reduce
  rw [tpssFactor]
  generalize tpssX _ _ _ _ _ _ _ _ _ _ = x at *
  have q0 : 0 < par p "kappa" / (par p "kappa" + x) := by positivity
  have q1 : par p "kappa" / (par p "kappa" + x) ≤ 1 := by rw [div_le_one (by positivity)]; linarith
  constructor <;> nlinarith [mul_pos hκ q0, mul_le_mul_of_nonneg_left q1 hκ.le]

/-! ## Kinetic energy -/

/-- C59: the Pauli–Gaussian functional is at least the von Weizsäcker energy, Pearson's at least the Thomas–Fermi energy. -/
theorem gga_k_bounds (P : Prims) (p : Rec) (n g : ℝ) (ht : Thresholds p) (h : Above p n) (hg : 0 ≤ g) :
    (∃ e, gga_k_pg.unpol P p n (some g) none none = .ok e ∧ weizsaecker n g < e) ∧ ∃ e, gga_k_pearson.unpol P p n (some g) none none = .ok e ∧ thomasFermi n ≤ e := by
  have hn := h.pos
  have hT : 0 < thomasFermi n := by unfold thomasFermi; positivity
  refine ⟨⟨_, gga_k_pg_is P p n g ht h hg, ?_⟩, ⟨_, gga_k_pearson_is P p n g ht h hg, ?_⟩⟩
  · have e : weizsaecker n g = thomasFermi n * (5 / 3 * reducedGradient n g ^ 2) := by
      have hp : 0 < (3 * π ^ 2) ^ (2 / 3 : ℝ) := by positivity
      rw [redGrad_sq hn hg, weizsaecker, thomasFermi, show (8 / 3 : ℝ) = 2 / 3 + 2 by norm_num, Real.rpow_add hn]
      have : 0 < n ^ (2 / 3 : ℝ) := by positivity
      have e2 : n ^ (2 : ℝ) = n ^ 2 := Real.rpow_two n
      rw [e2]
      field_simp
      ring
    beta_reduce
    rw [e, pgFactor]
    exact mul_lt_mul_of_pos_left (by linarith [exp_pos (-par p "pg_mu" * reducedGradient n g ^ 2)]) hT
  · have : 0 ≤ 5 / 27 * reducedGradient n g ^ 2 / (1 + reducedGradient n g ^ 6) := by positivity
    beta_reduce
    rw [pearsonFactor]
    nlinarith

/-! ## The rapidly varying limit -/

/-- C59: the gradient correction of PBE cancels the local correlation energy in the limit of large gradients (Perdew, Burke, Ernzerhof 1996, condition (b)). -/
theorem pbeH_limit {β γ B ε φ : ℝ} (hβ : 0 < β) (hγ : 0 < γ) (hB : 0 < B) (hε : ε < 0) (hφ : 0 < φ) :
    Filter.Tendsto (fun t2 => ε + pbeH β γ B (pbeA β γ ε φ) φ t2) Filter.atTop (nhds 0) := by
  have hx : 0 < -ε / (γ * φ ^ 3) := by
    have : 0 < -ε := by linarith
    positivity
  have hE : 0 < exp (-ε / (γ * φ ^ 3)) - 1 := by linarith [Real.one_lt_exp_iff.2 hx]
  have hA : 0 < pbeA β γ ε φ := by rw [pbeA]; positivity
  have eA : β / γ = pbeA β γ ε φ * (exp (-ε / (γ * φ ^ 3)) - 1) := by
    rw [pbeA, div_mul_eq_mul_div, mul_div_assoc, div_self hE.ne', mul_one]
  simp only [pbeH]
  generalize pbeA β γ ε φ = A at *
  have hq : Filter.Tendsto (fun t2 : ℝ => 1 + β / γ * t2 * (1 + B * A * t2) / (1 + A * t2 + B * A ^ 2 * t2 ^ 2)) Filter.atTop (nhds (exp (-ε / (γ * φ ^ 3)))) := by
    have hi : Filter.Tendsto (fun t : ℝ => t⁻¹) Filter.atTop (nhds 0) := tendsto_inv_atTop_zero
    have h1 : Filter.Tendsto (fun t : ℝ => 1 + β / γ * (t⁻¹ + B * A) / ((t⁻¹) ^ 2 + A * t⁻¹ + B * A ^ 2)) Filter.atTop
        (nhds (1 + β / γ * (0 + B * A) / (0 ^ 2 + A * 0 + B * A ^ 2))) :=
      tendsto_const_nhds.add ((tendsto_const_nhds.mul (hi.add tendsto_const_nhds)).div
        (((hi.pow 2).add (tendsto_const_nhds.mul hi)).add tendsto_const_nhds) (by positivity))
    have e : 1 + β / γ * (0 + B * A) / (0 ^ 2 + A * 0 + B * A ^ 2) = exp (-ε / (γ * φ ^ 3)) := by
      rw [eA]; field_simp; ring
    rw [e] at h1
    refine h1.congr' ?_
    filter_upwards [Filter.eventually_gt_atTop 0] with t ht
    have : 0 < 1 + A * t + B * A ^ 2 * t ^ 2 := by positivity
    have : 0 < t⁻¹ ^ 2 + A * t⁻¹ + B * A ^ 2 := by positivity
    field_simp
  have hl := ((Real.continuousAt_log (exp_pos _).ne').tendsto.comp hq).const_mul (γ * φ ^ 3)
  have h2 := hl.const_add ε
  rw [Real.log_exp, show ε + γ * φ ^ 3 * (-ε / (γ * φ ^ 3)) = 0 by field_simp; ring] at h2
  exact h2

/-- C59: PBE correlation of fixed densities tends to 0 as the gradient grows. -/
theorem gga_c_pbe_rapid (P : Prims) (p : Rec) (a b : ℝ) (ht : Thresholds p) (ha : 0 < a) (hb : 0 < b) (hu : Unscreened p a b)
    (hβ : 0 < par p "beta") (hγ : 0 < par p "gamma") (hB : 0 < par p "BB") :
    ∃ e : ℝ → ℝ, (∀ s, 0 ≤ s → gga_c_pbe.pol P p (a, b) (some (s, s, s)) none none = .ok (e s)) ∧ Filter.Tendsto e Filter.atTop (nhds 0) := by
  obtain ⟨k₀, k₁, k₂, c₂, d0, d1, d2, d3, h⟩ := gga_c_pbe_is_spin
  refine ⟨fun s => pbeCorr k₀ k₁ k₂ c₂ p a b s s s, fun s hs => h P p a b s s s ht ha hb hs hs hu, ?_⟩
  have hneg := pw92_neg_of_digits d0 d1 d2 d3 ha hb
  have hφ := phiZeta_pos (polarization_abs ha hb)
  have hn := add_pos ha hb
  have hc : 0 < (2 * phiZeta (polarization a b) * √(4 * fermiK (a + b) / π) * (a + b)) ^ 2 := by
    have : 0 < fermiK (a + b) := by unfold fermiK; positivity
    positivity
  have hT : Filter.Tendsto (fun s : ℝ => pbeT2 (a + b) (phiZeta (polarization a b)) (totalGrad s s s)) Filter.atTop Filter.atTop := by
    have : (fun s : ℝ => pbeT2 (a + b) (phiZeta (polarization a b)) (totalGrad s s s)) =
        fun s => s * (4 / (2 * phiZeta (polarization a b) * √(4 * fermiK (a + b) / π) * (a + b)) ^ 2) := by
      funext s
      rw [pbeT2, totalGrad]
      ring
    rw [this]
    exact Filter.tendsto_id.atTop_mul_const (by positivity)
  exact (pbeH_limit hβ hγ hB hneg hφ).comp hT

/-! ## Local correlation -/

/-- C59: the interpolated correlation energy of Chachiyo is negative at all spin polarizations if both ends are. -/
theorem lda_c_chachiyo_spin_neg (P : Prims) (p : Rec) (a b : ℝ) (ht : Thresholds p) (ha : 0 < a) (hb : 0 < b) (hu : Unscreened p a b)
    (h0 : par p "ap" < 0 ∧ 0 < par p "bp" ∧ 0 < par p "cp") (h1 : par p "af" < 0 ∧ 0 < par p "bf" ∧ 0 < par p "cf") :
    ∃ e, lda_c_chachiyo.pol P p (a, b) none none none = .ok e ∧ e < 0 := by
  refine ⟨_, lda_c_chachiyo_is_spin P p a b ht ha hb hu, ?_⟩
  have hr : 0 < wsRadius (a + b) := by
    have := add_pos ha hb
    unfold wsRadius; positivity
  have hf := fZeta_mem (polarization_abs ha hb).le
  have key : ∀ {A B C : ℝ}, A < 0 → 0 < B → 0 < C → chachiyoCorr A B C (wsRadius (a + b)) < 0 := fun hA hB hC => by
    rw [chachiyoCorr]
    refine mul_neg_of_neg_of_pos hA (Real.log_pos ?_)
    have : 0 < _ / wsRadius (a + b) := div_pos hB hr
    have : 0 < _ / wsRadius (a + b) ^ 2 := div_pos hC (by positivity)
    linarith
  have k0 := key h0.1 h0.2.1 h0.2.2
  have k1 := key h1.1 h1.2.1 h1.2.2
  simp only [chachiyoSpin]
  nlinarith [mul_nonneg hf.1 (neg_nonneg.2 k1.le), mul_nonneg (sub_nonneg.2 hf.2) (neg_nonneg.2 k0.le)]

/-- C59: Wigner's correlation energy is negative for `a < 0 < b`, with two spins; the code interpolates with `1 - ζ²`. -/
theorem lda_c_wigner_spin_neg (P : Prims) (p : Rec) (a b : ℝ) (ht : Thresholds p) (ha : 0 < a) (hb : 0 < b) (hu : Unscreened p a b) (h0 : par p "a" < 0) (h1 : 0 < par p "b") :
    ∃ e, lda_c_wigner.pol P p (a, b) none none none = .ok e ∧ e < 0 := by
  refine ⟨_, lda_c_wigner_is_spin P p a b ht ha hb hu, ?_⟩
  have hr : 0 < wsRadius (a + b) := by
    have := add_pos ha hb
    unfold wsRadius; positivity
  have hz := polarization_abs ha hb
  have : polarization a b ^ 2 < 1 := by rwa [sq_lt_one_iff_abs_lt_one]
  exact mul_neg_of_pos_of_neg (by linarith) (by rw [wignerCorr]; exact div_neg_of_neg_of_pos h0 (by positivity))

/-! ## Through `epsilon_xc` -/

variable {n : ℕ} {P : Prims} {I : Impls} {g : GenInfo} {p : PTree} {eps : EpsFn} {rho : ArrFn n ℝ} {mo : Option (Callable n ℂ)} {r : Coord n}

/-- C59: SCAN exchange of a density made of orbitals, `n = Σ |φᵢ|²`: between 1.174 times the local exchange energy and 0. -/
theorem c59_scan (hc : Created P I g false p eps) (hs : Single I p .mgga mgga_x_scan) (hp : Thresholds p.info.vals)
    (hz : p.info.vals.fld .zetaThreshold < 1) (hsh : rho.shape = []) (ht : 2 * thr p < rho.ent r []) (N : ℕ) (m : ArrFn n ℂ) (hm : m.shape = [N])
    (h2 : Twice (rho.ent · []) r) (hg : gradient (rho.ent · []) r ≠ 0)
    (hd : ∀ k, DifferentiableAt ℝ (orb m N k) r) (hrho : ∀ x, rho.ent x [] = ∑ k, ‖orb m N k x‖ ^ 2)
    (c1 : 0 < par p.info.vals "c1") (c2 : 0 ≤ par p.info.vals "c2") (d0 : 0 ≤ par p.info.vals "d") (d1 : par p.info.vals "d" ≤ 5)
    (k0 : 0 < par p.info.vals "k1") (k1 : par p.info.vals "k1" ≤ 1 / 10) :
    ∃ e, eps.call (.ok rho) r (some (.ok m)) = .ok e ∧ 1.174 * diracExchange (rho.ent r []) < e ∧ e < 0 := by
  have h0 : 0 < thr p := hp.dens
  have hw := c09_von_weizsaecker (orb m N) r hd
  simp only [← hrho] at hw
  have hg2 : 0 < gradSq (rho.ent · []) r := pow_pos (norm_pos_iff.2 hg) 2
  have hn : 0 < rho.ent r [] := by linarith
  have hk : 0 < kinetic (orb m N) r := by
    by_contra hk
    nlinarith [mul_nonneg hn.le (not_lt.1 hk |> neg_nonneg.2)]
  rw [c10_above_unpolarized hc hs rho hsh r _ N (orb m N) (fun _ => ⟨h2, m, rfl, hm, rfl⟩) (by linarith)]
  exact mgga_x_scan_bounds P _ _ _ _ _ hp (above_of hp hz ht) hg2 hk hw c1 c2 d0 d1 k0 k1

/-- C59: TPSS exchange of a closed shell: between `1 + κ` times the local exchange energy and the local exchange energy. -/
theorem c59_tpss (hc : Created P I g false p eps) (hs : Single I p .mgga mgga_x_tpss) (hp : Thresholds p.info.vals)
    (hz : p.info.vals.fld .zetaThreshold < 1) (hsh : rho.shape = []) (ht : 2 * thr p < rho.ent r []) (N : ℕ) (m : ArrFn n ℂ) (hm : m.shape = [N])
    (h2 : Twice (rho.ent · []) r) (hg : gradient (rho.ent · []) r ≠ 0) (hk : 0 < kinetic (orb m N) r)
    (c0 : 0 ≤ par p.info.vals "c") (hκ : 0 < par p.info.vals "kappa") (he : 1 / 10 ≤ par p.info.vals "e") (hμ : 1 / 100 ≤ par p.info.vals "e" * par p.info.vals "mu") :
    ∃ e, eps.call (.ok rho) r (some (.ok m)) = .ok e ∧ (1 + par p.info.vals "kappa") * diracExchange (rho.ent r []) < e ∧ e ≤ diracExchange (rho.ent r []) := by
  have h0 : 0 < thr p := hp.dens
  rw [c10_above_unpolarized hc hs rho hsh r _ N (orb m N) (fun _ => ⟨h2, m, rfl, hm, rfl⟩) (by linarith)]
  exact mgga_x_tpss_bounds P _ _ _ _ _ hp (above_of hp hz ht) (pow_pos (norm_pos_iff.2 hg) 2) hk c0 hκ he hμ

/-- C59: PBE correlation of two spin densities: negative, and not below the value at zero gradient. -/
theorem c59_pbe (hc : Created P I g true p eps) (hs : Single I p .gga gga_c_pbe) (hp : Thresholds p.info.vals) (hsh : rho.shape = [2])
    (hu : Unscreened p.info.vals (rho.ent r [0]) (rho.ent r [1])) (hd : ∀ i < 2, DifferentiableAt ℝ (rho.ent · [i]) r)
    (hβ : 0 < par p.info.vals "beta") (hγ : 0 < par p.info.vals "gamma") (hB : 0 ≤ par p.info.vals "BB") :
    ∃ e e₀, eps.call (.ok rho) r mo = .ok e ∧ gga_c_pbe.pol P p.info.vals (rho.ent r [0], rho.ent r [1]) (some (0, 0, 0)) none none = .ok e₀ ∧ e₀ ≤ e ∧ e < 0 := by
  have ht : 0 < thr p := hp.dens
  have u0 : thr p < rho.ent r [0] := hu.dens0
  have u1 : thr p < rho.ent r [1] := hu.dens1
  rw [c10_above_polarized hc hs rho hsh r mo 0 (fun _ _ _ => 0) (fun h => nomatch h) (by linarith)]
  obtain ⟨F, _, h⟩ := gga_c_pbe_bounds
  have hT := totalGrad_eq (hd 0 (by norm_num)) (hd 1 (by norm_num))
  obtain ⟨e, e1, e2, e3, _⟩ := h P p.info.vals _ _ _ _ _ hp (ht.trans u0) (ht.trans u1) (c06_nonneg _ _) (c06_nonneg _ _) hu hβ hγ hB (hT ▸ sq_nonneg _)
  obtain ⟨e', e1', _, _, e4'⟩ := h P p.info.vals _ _ 0 0 0 hp (ht.trans u0) (ht.trans u1) le_rfl le_rfl hu hβ hγ hB (by norm_num [totalGrad])
  have := e4' (by norm_num [totalGrad])
  exact ⟨e, e', e1, e1', by linarith, e3⟩

/-! ### Instances -/

/-- Parameters all 1: the hypotheses of the theorems on TPSS and PBE. -/
example (P : Prims) : ∃ e, mgga_x_tpss.unpol P soloRec 1 (some 2) (some 0) (some 3) = .ok e ∧ (1 + par soloRec "kappa") * diracExchange 1 < e ∧ e ≤ diracExchange 1 :=
  mgga_x_tpss_bounds P soloRec 1 2 0 3 soloRec_ok ⟨one_pos, soloRec_zeta, by norm_num [soloRec]⟩ two_pos three_pos zero_le_one one_pos
    (by change (1 / 10 : ℝ) ≤ 1; norm_num) (by change (1 / 100 : ℝ) ≤ 1 * 1; norm_num)


/-- Thresholds as in libxc, all parameters 1/10. -/
def tenthsRec : Rec := ⟨soloRec.fld, fun _ => 1 / 10⟩

theorem tenthsRec_ok : Thresholds tenthsRec := ⟨soloRec_ok.dens, soloRec_ok.zeta⟩

/-- The density `2 x₀²` of the orbitals `x₀` and `i x₀`. -/
def pairDensity : ArrFn 3 ℝ := ⟨[], fun x _ => 2 * x 0 ^ 2⟩

theorem orbs_differentiable (r : Coord 3) (k : Fin 2) : DifferentiableAt ℝ (orb (Demo.orbs [2] 2) 2 k) r := by
  have h : DifferentiableAt ℝ (fun x : Coord 3 => ((x 0 : ℝ) : ℂ)) r :=
    Complex.ofRealCLM.differentiableAt.comp r (EuclideanSpace.proj (𝕜 := ℝ) (0 : Fin 3)).differentiableAt
  fin_cases k
  · exact h
  · exact h.const_mul Complex.I

/-- SCAN exchange of this density where `x₀ = 1`. -/
example (P : Prims) (r : Coord 3) (hr : r 0 = 1) : ∃ e, (soloEps P .mgga mgga_x_scan false tenthsRec).call (.ok pairDensity) r (some (.ok (Demo.orbs [2] 2))) = .ok e ∧
    1.174 * diracExchange 2 < e ∧ e < 0 := by
  have hv : pairDensity.ent r [] = 2 := by change 2 * r 0 ^ 2 = 2; rw [hr]; norm_num
  have hp : HasFDerivAt (fun x : Coord 3 => x 0) (EuclideanSpace.proj (𝕜 := ℝ) (0 : Fin 3)) r := (EuclideanSpace.proj (𝕜 := ℝ) (0 : Fin 3)).hasFDerivAt
  have hd : HasFDerivAt (pairDensity.ent · []) ((4 : ℝ) • EuclideanSpace.proj (𝕜 := ℝ) (0 : Fin 3)) r := by
    have := (hp.pow 2).const_mul 2
    refine this.congr_fderiv ?_
    rw [hr]
    ext v
    simp
    ring
  have := c59_scan (rho := pairDensity) (solo_created P .mgga mgga_x_scan false tenthsRec) (solo_single .mgga mgga_x_scan false tenthsRec) tenthsRec_ok soloRec_zeta rfl
    (r := r) (by rw [hv]; change 2 * (1 / 10 ^ 15 : ℝ) < 2; norm_num) 2 (Demo.orbs [2] 2) rfl
    (by
      change ContDiffAt ℝ 2 (fun x : Coord 3 => 2 * x 0 ^ 2) r
      exact contDiffAt_const.mul ((EuclideanSpace.proj (𝕜 := ℝ) (0 : Fin 3)).contDiff.contDiffAt.pow 2))
    (fun h => by
      have e : fderiv ℝ (pairDensity.ent · []) r (EuclideanSpace.single 0 1) = inner ℝ (gradient (pairDensity.ent · []) r) (EuclideanSpace.single 0 1) := fderiv_eq_inner ..
      rw [h, inner_zero_left, hd.fderiv] at e
      simp at e)
    (orbs_differentiable r)
    (fun x => by
      simp [pairDensity, orb, Demo.orbs, Fin.sum_univ_two]
      ring)
    (by change (0 : ℝ) < 1 / 10; norm_num) (by change (0 : ℝ) ≤ 1 / 10; norm_num) (by change (0 : ℝ) ≤ 1 / 10; norm_num)
    (by change (1 / 10 : ℝ) ≤ 5; norm_num) (by change (0 : ℝ) < 1 / 10; norm_num) le_rfl
  rwa [hv] at this

/-- PBE correlation of the spin densities `|x|² + 5`, `|x|² + 6`. -/
example (P : Prims) (r : Coord 3) : ∃ e, (soloEps P .gga gga_c_pbe true soloRec).call (.ok (Demo.quad2 3 5)) r none = .ok e ∧ e < 0 :=
  let ⟨e, _, h, _, _, h'⟩ := c59_pbe (mo := none) (solo_created P .gga gga_c_pbe true soloRec) (solo_single .gga gga_c_pbe true soloRec) soloRec_ok (rho := Demo.quad2 3 5) rfl
    (quad2_unscreened r) (fun i _ => (Demo.quad2_twice 3 5 r [i]).differentiableAt (by norm_num)) one_pos one_pos zero_le_one
  ⟨e, h, h'⟩

/-- The other hypotheses: at densities 1 and 2, all parameters 1. -/
example (P : Prims) : ∃ e : ℝ → ℝ, (∀ s, 0 ≤ s → gga_c_pbe.pol P soloRec (1, 2) (some (s, s, s)) none none = .ok (e s)) ∧ Filter.Tendsto e Filter.atTop (nhds 0) :=
  gga_c_pbe_rapid P soloRec 1 2 soloRec_ok one_pos two_pos (by constructor <;> norm_num [soloRec]) one_pos one_pos one_pos

example (P : Prims) : ∃ e, gga_k_pg.unpol P soloRec 1 (some 2) none none = .ok e ∧ weizsaecker 1 2 < e :=
  (gga_k_bounds P soloRec 1 2 soloRec_ok ⟨one_pos, soloRec_zeta, by norm_num [soloRec]⟩ two_pos.le).1

/-- Record with `a`, `ap`, `af` equal to -1, other parameters 1. -/
def minusRec : Rec := ⟨soloRec.fld, fun i => if i = nameCode "a" ∨ i = nameCode "ap" ∨ i = nameCode "af" then -1 else 1⟩

example (P : Prims) : ∃ e, lda_c_wigner.pol P minusRec (1, 2) none none none = .ok e ∧ e < 0 :=
  lda_c_wigner_spin_neg P minusRec 1 2 ⟨soloRec_ok.dens, soloRec_ok.zeta⟩ one_pos two_pos (by constructor <;> norm_num [minusRec, soloRec])
    (by norm_num [par, minusRec, nameCode, nameCodeChars]) (by simp only [par, minusRec]; rw [if_neg (by decide)]; norm_num)

example (P : Prims) : ∃ e, lda_c_chachiyo.pol P minusRec (1, 2) none none none = .ok e ∧ e < 0 :=
  lda_c_chachiyo_spin_neg P minusRec 1 2 ⟨soloRec_ok.dens, soloRec_ok.zeta⟩ one_pos two_pos (by constructor <;> norm_num [minusRec, soloRec])
    ⟨by norm_num [par, minusRec, nameCode, nameCodeChars], by simp only [par, minusRec]; rw [if_neg (by decide)]; norm_num,
      by simp only [par, minusRec]; rw [if_neg (by decide)]; norm_num⟩
    ⟨by norm_num [par, minusRec, nameCode, nameCodeChars], by simp only [par, minusRec]; rw [if_neg (by decide)]; norm_num,
      by simp only [par, minusRec]; rw [if_neg (by decide)]; norm_num⟩

end
end Verif.Props
