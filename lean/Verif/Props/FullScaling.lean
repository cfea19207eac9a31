import Verif.Props.Clamp1
import Verif.Props.Clamp2
import Verif.Props.Clamp3
import Verif.Props.Clamp4
import Verif.Data.All
/-!
# C62: the spin-scaling relation on the whole domain

C37 and C42 describe the formulas of exchange type away from the polarization threshold.  The theorems here have no such condition: they say what
the polarized code returns at every pair of positive densities.
-/
set_option maxRecDepth 100000
namespace Verif.Props
open Verif.Py Verif.Model Verif.Spec Verif.Data

/-- The formulas, the way in which they keep `ζ` away from `±1`, and the power of `1 ± ζ`. -/
noncomputable def fullScaled : List (Shipped × (ℝ → ℝ → ℝ → ℝ) × ℝ) := [
  (⟨"gga_k_apbe", .gga, gga_k_apbe⟩, keptShare, 5 / 3),
  (⟨"gga_k_apbeint", .gga, gga_k_apbeint⟩, keptShare, 5 / 3),
  (⟨"gga_k_dk", .gga, gga_k_dk⟩, keptShare, 5 / 3),
  (⟨"gga_k_lc94", .gga, gga_k_lc94⟩, keptShare, 5 / 3),
  (⟨"gga_k_lgap", .gga, gga_k_lgap⟩, keptShare, 5 / 3),
  (⟨"gga_k_lgap_ge", .gga, gga_k_lgap_ge⟩, keptShare, 5 / 3),
  (⟨"gga_k_lkt", .gga, gga_k_lkt⟩, keptShare, 5 / 3),
  (⟨"gga_k_llp", .gga, gga_k_llp⟩, keptShare, 5 / 3),
  (⟨"gga_k_meyer", .gga, gga_k_meyer⟩, keptShare, 5 / 3),
  (⟨"gga_k_mpbe", .gga, gga_k_mpbe⟩, keptShare, 5 / 3),
  (⟨"gga_k_ol1", .gga, gga_k_ol1⟩, keptShare, 5 / 3),
  (⟨"gga_k_ol2", .gga, gga_k_ol2⟩, keptShare, 5 / 3),
  (⟨"gga_k_pearson", .gga, gga_k_pearson⟩, keptShare, 5 / 3),
  (⟨"gga_k_pg", .gga, gga_k_pg⟩, keptShare, 5 / 3),
  (⟨"gga_k_pw86", .gga, gga_k_pw86⟩, keptShare, 5 / 3),
  (⟨"gga_k_rational_p", .gga, gga_k_rational_p⟩, keptShare, 5 / 3),
  (⟨"gga_k_tflw", .gga, gga_k_tflw⟩, keptShare, 5 / 3),
  (⟨"gga_k_thakkar", .gga, gga_k_thakkar⟩, keptShare, 5 / 3),
  (⟨"gga_k_vt84f", .gga, gga_k_vt84f⟩, keptShare, 5 / 3),
  (⟨"gga_x_2d_b86", .gga, gga_x_2d_b86⟩, keptShare, 3 / 2),
  (⟨"gga_x_2d_b86_mgc", .gga, gga_x_2d_b86_mgc⟩, keptShare, 3 / 2),
  (⟨"gga_x_2d_b88", .gga, gga_x_2d_b88⟩, keptShare, 3 / 2),
  (⟨"gga_x_2d_pbe", .gga, gga_x_2d_pbe⟩, keptShare, 3 / 2),
  (⟨"gga_x_airy", .gga, gga_x_airy⟩, keptShare, 4 / 3),
  (⟨"gga_x_ak13", .gga, gga_x_ak13⟩, keptShare, 4 / 3),
  (⟨"gga_x_am05", .gga, gga_x_am05⟩, keptShare, 4 / 3),
  (⟨"gga_x_b86", .gga, gga_x_b86⟩, keptShare, 4 / 3),
  (⟨"gga_x_b88", .gga, gga_x_b88⟩, keptShare, 4 / 3),
  (⟨"gga_x_bayesian", .gga, gga_x_bayesian⟩, keptShare, 4 / 3),
  (⟨"gga_x_beefvdw", .gga, gga_x_beefvdw⟩, keptShare, 4 / 3),
  (⟨"gga_x_c09x", .gga, gga_x_c09x⟩, keptShare, 4 / 3),
  (⟨"gga_x_cap", .gga, gga_x_cap⟩, keptShare, 4 / 3),
  (⟨"gga_x_chachiyo", .gga, gga_x_chachiyo⟩, keptShare, 4 / 3),
  (⟨"gga_x_dk87", .gga, gga_x_dk87⟩, keptShare, 4 / 3),
  (⟨"gga_x_ev93", .gga, gga_x_ev93⟩, keptShare, 4 / 3),
  (⟨"gga_x_g96", .gga, gga_x_g96⟩, keptShare, 4 / 3),
  (⟨"gga_x_hcth_a", .gga, gga_x_hcth_a⟩, keptShare, 4 / 3),
  (⟨"gga_x_herman", .gga, gga_x_herman⟩, keptShare, 4 / 3),
  (⟨"gga_x_lag", .gga, gga_x_lag⟩, keptShare, 4 / 3),
  (⟨"gga_x_lspbe", .gga, gga_x_lspbe⟩, keptShare, 4 / 3),
  (⟨"gga_x_lsrpbe", .gga, gga_x_lsrpbe⟩, keptShare, 4 / 3),
  (⟨"gga_x_mpbe", .gga, gga_x_mpbe⟩, keptShare, 4 / 3),
  (⟨"gga_x_ncap", .gga, gga_x_ncap⟩, keptShare, 4 / 3),
  (⟨"gga_x_ol2", .gga, gga_x_ol2⟩, keptShare, 4 / 3),
  (⟨"gga_x_optx", .gga, gga_x_optx⟩, keptShare, 4 / 3),
  (⟨"gga_x_pbe", .gga, gga_x_pbe⟩, keptShare, 4 / 3),
  (⟨"gga_x_pbea", .gga, gga_x_pbea⟩, keptShare, 4 / 3),
  (⟨"gga_x_pbeint", .gga, gga_x_pbeint⟩, keptShare, 4 / 3),
  (⟨"gga_x_pbepow", .gga, gga_x_pbepow⟩, keptShare, 4 / 3),
  (⟨"gga_x_pbetrans", .gga, gga_x_pbetrans⟩, keptShare, 4 / 3),
  (⟨"gga_x_pw86", .gga, gga_x_pw86⟩, keptShare, 4 / 3),
  (⟨"gga_x_pw91", .gga, gga_x_pw91⟩, keptShare, 4 / 3),
  (⟨"gga_x_q1d", .gga, gga_x_q1d⟩, keptShare, 4 / 3),
  (⟨"gga_x_q2d", .gga, gga_x_q2d⟩, keptShare, 4 / 3),
  (⟨"gga_x_rpbe", .gga, gga_x_rpbe⟩, keptShare, 4 / 3),
  (⟨"gga_x_s12", .gga, gga_x_s12⟩, keptShare, 4 / 3),
  (⟨"gga_x_sogga11", .gga, gga_x_sogga11⟩, keptShare, 4 / 3),
  (⟨"gga_x_ssb_sw", .gga, gga_x_ssb_sw⟩, keptShare, 4 / 3),
  (⟨"gga_x_vmt", .gga, gga_x_vmt⟩, keptShare, 4 / 3),
  (⟨"gga_x_vmt84", .gga, gga_x_vmt84⟩, keptShare, 4 / 3),
  (⟨"gga_x_wc", .gga, gga_x_wc⟩, keptShare, 4 / 3),
  (⟨"hyb_mgga_x_dldf", .mgga, hyb_mgga_x_dldf⟩, keptShare, 4 / 3),
  (⟨"hyb_mgga_x_m05", .mgga, hyb_mgga_x_m05⟩, keptShare, 4 / 3),
  (⟨"lda_k_tf", .lda, lda_k_tf⟩, keptBelow, 5 / 3),
  (⟨"lda_x", .lda, lda_x⟩, keptBelow, 4 / 3),
  (⟨"lda_x_2d", .lda, lda_x_2d⟩, keptBelow, 3 / 2),
  (⟨"mgga_k_csk", .mgga, mgga_k_csk⟩, keptShare, 5 / 3),
  (⟨"mgga_k_csk_loc", .mgga, mgga_k_csk_loc⟩, keptShare, 5 / 3),
  (⟨"mgga_k_gea2", .mgga, mgga_k_gea2⟩, keptShare, 5 / 3),
  (⟨"mgga_k_gea4", .mgga, mgga_k_gea4⟩, keptShare, 5 / 3),
  (⟨"mgga_k_lk", .mgga, mgga_k_lk⟩, keptShare, 5 / 3),
  (⟨"mgga_k_pc07", .mgga, mgga_k_pc07⟩, keptShare, 5 / 3),
  (⟨"mgga_k_pgslb", .mgga, mgga_k_pgslb⟩, keptShare, 5 / 3),
  (⟨"mgga_k_rda", .mgga, mgga_k_rda⟩, keptShare, 5 / 3),
  (⟨"mgga_x_2d_prhg07", .mgga, mgga_x_2d_prhg07⟩, keptShare, 3 / 2),
  (⟨"mgga_x_br89_explicit", .mgga, mgga_x_br89_explicit⟩, keptShare, 4 / 3),
  (⟨"mgga_x_edmgga", .mgga, mgga_x_edmgga⟩, keptShare, 4 / 3),
  (⟨"mgga_x_ft98", .mgga, mgga_x_ft98⟩, keptShare, 4 / 3),
  (⟨"mgga_x_gdme", .mgga, mgga_x_gdme⟩, keptShare, 4 / 3),
  (⟨"mgga_x_gvt4", .mgga, mgga_x_gvt4⟩, keptShare, 4 / 3),
  (⟨"mgga_x_gx", .mgga, mgga_x_gx⟩, keptShare, 4 / 3),
  (⟨"mgga_x_jk", .mgga, mgga_x_jk⟩, keptShare, 4 / 3),
  (⟨"mgga_x_lta", .mgga, mgga_x_lta⟩, keptShare, 4 / 3),
  (⟨"mgga_x_m06l", .mgga, mgga_x_m06l⟩, keptShare, 4 / 3),
  (⟨"mgga_x_m08", .mgga, mgga_x_m08⟩, keptShare, 4 / 3),
  (⟨"mgga_x_mbeef", .mgga, mgga_x_mbeef⟩, keptShare, 4 / 3),
  (⟨"mgga_x_mbeefvdw", .mgga, mgga_x_mbeefvdw⟩, keptShare, 4 / 3),
  (⟨"mgga_x_mcml", .mgga, mgga_x_mcml⟩, keptShare, 4 / 3),
  (⟨"mgga_x_ms", .mgga, mgga_x_ms⟩, keptShare, 4 / 3),
  (⟨"mgga_x_msb", .mgga, mgga_x_msb⟩, keptShare, 4 / 3),
  (⟨"mgga_x_mvs", .mgga, mgga_x_mvs⟩, keptShare, 4 / 3),
  (⟨"mgga_x_mvsb", .mgga, mgga_x_mvsb⟩, keptShare, 4 / 3),
  (⟨"mgga_x_pbe_gx", .mgga, mgga_x_pbe_gx⟩, keptShare, 4 / 3),
  (⟨"mgga_x_pkzb", .mgga, mgga_x_pkzb⟩, keptShare, 4 / 3),
  (⟨"mgga_x_r2scan", .mgga, mgga_x_r2scan⟩, keptShare, 4 / 3),
  (⟨"mgga_x_r4scan", .mgga, mgga_x_r4scan⟩, keptShare, 4 / 3),
  (⟨"mgga_x_regtm", .mgga, mgga_x_regtm⟩, keptShare, 4 / 3),
  (⟨"mgga_x_regtpss", .mgga, mgga_x_regtpss⟩, keptShare, 4 / 3),
  (⟨"mgga_x_revtm", .mgga, mgga_x_revtm⟩, keptShare, 4 / 3),
  (⟨"mgga_x_rlda", .mgga, mgga_x_rlda⟩, keptShare, 4 / 3),
  (⟨"mgga_x_rppscan", .mgga, mgga_x_rppscan⟩, keptShare, 4 / 3),
  (⟨"mgga_x_rtpss", .mgga, mgga_x_rtpss⟩, keptShare, 4 / 3),
  (⟨"mgga_x_sa_tpss", .mgga, mgga_x_sa_tpss⟩, keptShare, 4 / 3),
  (⟨"mgga_x_scan", .mgga, mgga_x_scan⟩, keptShare, 4 / 3),
  (⟨"mgga_x_tau_hcth", .mgga, mgga_x_tau_hcth⟩, keptShare, 4 / 3),
  (⟨"mgga_x_th", .mgga, mgga_x_th⟩, keptShare, 4 / 3),
  (⟨"mgga_x_tm", .mgga, mgga_x_tm⟩, keptShare, 4 / 3),
  (⟨"mgga_x_tpss", .mgga, mgga_x_tpss⟩, keptShare, 4 / 3),
  (⟨"mgga_x_vcml", .mgga, mgga_x_vcml⟩, keptShare, 4 / 3),
  (⟨"mgga_x_vt84", .mgga, mgga_x_vt84⟩, keptShare, 4 / 3)]

/-- C62. -/
theorem c62_fullSpinScaling : ∀ x ∈ fullScaled, FullSpinScaling x.2.1 x.2.2 x.1.fam x.1.code := by
  unfold fullScaled
  simp only [List.forall_mem_cons, List.not_mem_nil, false_implies, implies_true, and_true]
  exact ⟨gga_k_apbe_fullSpinScaling,
    gga_k_apbeint_fullSpinScaling,
    gga_k_dk_fullSpinScaling,
    gga_k_lc94_fullSpinScaling,
    gga_k_lgap_fullSpinScaling,
    gga_k_lgap_ge_fullSpinScaling,
    gga_k_lkt_fullSpinScaling,
    gga_k_llp_fullSpinScaling,
    gga_k_meyer_fullSpinScaling,
    gga_k_mpbe_fullSpinScaling,
    gga_k_ol1_fullSpinScaling,
    gga_k_ol2_fullSpinScaling,
    gga_k_pearson_fullSpinScaling,
    gga_k_pg_fullSpinScaling,
    gga_k_pw86_fullSpinScaling,
    gga_k_rational_p_fullSpinScaling,
    gga_k_tflw_fullSpinScaling,
    gga_k_thakkar_fullSpinScaling,
    gga_k_vt84f_fullSpinScaling,
    gga_x_2d_b86_fullSpinScaling,
    gga_x_2d_b86_mgc_fullSpinScaling,
    gga_x_2d_b88_fullSpinScaling,
    gga_x_2d_pbe_fullSpinScaling,
    gga_x_airy_fullSpinScaling,
    gga_x_ak13_fullSpinScaling,
    gga_x_am05_fullSpinScaling,
    gga_x_b86_fullSpinScaling,
    gga_x_b88_fullSpinScaling,
    gga_x_bayesian_fullSpinScaling,
    gga_x_beefvdw_fullSpinScaling,
    gga_x_c09x_fullSpinScaling,
    gga_x_cap_fullSpinScaling,
    gga_x_chachiyo_fullSpinScaling,
    gga_x_dk87_fullSpinScaling,
    gga_x_ev93_fullSpinScaling,
    gga_x_g96_fullSpinScaling,
    gga_x_hcth_a_fullSpinScaling,
    gga_x_herman_fullSpinScaling,
    gga_x_lag_fullSpinScaling,
    gga_x_lspbe_fullSpinScaling,
    gga_x_lsrpbe_fullSpinScaling,
    gga_x_mpbe_fullSpinScaling,
    gga_x_ncap_fullSpinScaling,
    gga_x_ol2_fullSpinScaling,
    gga_x_optx_fullSpinScaling,
    gga_x_pbe_fullSpinScaling,
    gga_x_pbea_fullSpinScaling,
    gga_x_pbeint_fullSpinScaling,
    gga_x_pbepow_fullSpinScaling,
    gga_x_pbetrans_fullSpinScaling,
    gga_x_pw86_fullSpinScaling,
    gga_x_pw91_fullSpinScaling,
    gga_x_q1d_fullSpinScaling,
    gga_x_q2d_fullSpinScaling,
    gga_x_rpbe_fullSpinScaling,
    gga_x_s12_fullSpinScaling,
    gga_x_sogga11_fullSpinScaling,
    gga_x_ssb_sw_fullSpinScaling,
    gga_x_vmt_fullSpinScaling,
    gga_x_vmt84_fullSpinScaling,
    gga_x_wc_fullSpinScaling,
    hyb_mgga_x_dldf_fullSpinScaling,
    hyb_mgga_x_m05_fullSpinScaling,
    lda_k_tf_fullSpinScaling,
    lda_x_fullSpinScaling,
    lda_x_2d_fullSpinScaling,
    mgga_k_csk_fullSpinScaling,
    mgga_k_csk_loc_fullSpinScaling,
    mgga_k_gea2_fullSpinScaling,
    mgga_k_gea4_fullSpinScaling,
    mgga_k_lk_fullSpinScaling,
    mgga_k_pc07_fullSpinScaling,
    mgga_k_pgslb_fullSpinScaling,
    mgga_k_rda_fullSpinScaling,
    mgga_x_2d_prhg07_fullSpinScaling,
    mgga_x_br89_explicit_fullSpinScaling,
    mgga_x_edmgga_fullSpinScaling,
    mgga_x_ft98_fullSpinScaling,
    mgga_x_gdme_fullSpinScaling,
    mgga_x_gvt4_fullSpinScaling,
    mgga_x_gx_fullSpinScaling,
    mgga_x_jk_fullSpinScaling,
    mgga_x_lta_fullSpinScaling,
    mgga_x_m06l_fullSpinScaling,
    mgga_x_m08_fullSpinScaling,
    mgga_x_mbeef_fullSpinScaling,
    mgga_x_mbeefvdw_fullSpinScaling,
    mgga_x_mcml_fullSpinScaling,
    mgga_x_ms_fullSpinScaling,
    mgga_x_msb_fullSpinScaling,
    mgga_x_mvs_fullSpinScaling,
    mgga_x_mvsb_fullSpinScaling,
    mgga_x_pbe_gx_fullSpinScaling,
    mgga_x_pkzb_fullSpinScaling,
    mgga_x_r2scan_fullSpinScaling,
    mgga_x_r4scan_fullSpinScaling,
    mgga_x_regtm_fullSpinScaling,
    mgga_x_regtpss_fullSpinScaling,
    mgga_x_revtm_fullSpinScaling,
    mgga_x_rlda_fullSpinScaling,
    mgga_x_rppscan_fullSpinScaling,
    mgga_x_rtpss_fullSpinScaling,
    mgga_x_sa_tpss_fullSpinScaling,
    mgga_x_scan_fullSpinScaling,
    mgga_x_tau_hcth_fullSpinScaling,
    mgga_x_th_fullSpinScaling,
    mgga_x_tm_fullSpinScaling,
    mgga_x_tpss_fullSpinScaling,
    mgga_x_vcml_fullSpinScaling,
    mgga_x_vt84_fullSpinScaling⟩

/-- For a density of one spin at or below both thresholds the energy is the one of the other spin with `1 + ζ` replaced by `2 - zeta_threshold`. -/
theorem c62_oneSpin {α : ℝ} {fam : Fam} {f : Formula} (h : FullSpinScaling keptShare α fam f) (hB : ScreenedBoth fam f) (hC : ClosedShellZ fam f)
    (P : Prims) (p : Rec) (r0 r1 s0 s1 s2 l0 l1 t0 t1 : ℝ) (ht : Thresholds p) (hz : p.fld .zetaThreshold < 1) (h0 : 0 < r0) (h1 : 0 < r1) (hs0 : 0 ≤ s0) (hs2 : 0 ≤ s2)
    (ht0 : 0 ≤ t0) (ht1 : 0 ≤ t1) (hl : 2 * r1 ≤ p.fld .zetaThreshold * (r0 + r1)) (hd : r1 ≤ p.fld .densThreshold) :
    ∃ e e0, f.pol P p (r0, r1) (fam.grad (s0, s1, s2)) (fam.meta (l0, l1)) (fam.meta (t0, t1)) = .ok e ∧
      f.unpol P p (2 * r0) (fam.grad (4 * s0)) (fam.meta (2 * l0)) (fam.meta (2 * t0)) = .ok e0 ∧
      (r0 + r1) * e = r0 * ((2 - p.fld .zetaThreshold) / (2 * r0 / (r0 + r1))) ^ α * e0 := by
  obtain ⟨e, e0, e1, a, b, c, d⟩ := h P p r0 r1 s0 s1 s2 l0 l1 t0 t1 ht hz h0 h1 hs0 hs2 ht0 ht1
  obtain rfl : 0 = e1 := Except.ok.inj ((Verif.Norm.unpol_zero hC hB ht hz h1 hs2 ht1 hd).symm.trans c)
  have hk : keptShare (p.fld .zetaThreshold) r0 r1 = 2 - p.fld .zetaThreshold := Verif.Norm.high_share h0 h1 hz hl true
  exact ⟨e, e0, a, b, by rw [d, keptFactor, hk, mul_zero, add_zero]⟩

/-- The factor of the spin with the smaller density is at least one, the other at most one. -/
theorem keptFactor_bounds {α zt r r' : ℝ} (hα : 0 ≤ α) (hz0 : 0 < zt) (hz : zt < 1) (h0 : 0 < r) (h1 : 0 < r') (h : r ≤ r') :
    1 ≤ keptFactor keptShare α zt r r' ∧ keptFactor keptShare α zt r' r ≤ 1 := by
  have hs : 0 < 2 * r / (r + r') := by positivity
  have hs' : 0 < 2 * r' / (r' + r) := by positivity
  have l1 : 2 * r / (r + r') ≤ 1 := by rw [div_le_one (by positivity)]; linarith
  have l2 : 1 ≤ 2 * r' / (r' + r) := by rw [le_div_iff₀ (by positivity)]; linarith
  constructor
  · refine Real.one_le_rpow ?_ hα
    rw [le_div_iff₀ hs, one_mul, keptShare, min_eq_right (by linarith)]
    exact le_max_right _ _
  · have hp : 0 ≤ keptShare zt r' r := hz0.le.trans (le_max_left _ _)
    refine Real.rpow_le_one (div_nonneg hp hs'.le) ?_ hα
    rw [div_le_one hs', keptShare]
    exact max_le (by linarith) (min_le_right _ _)

/-- Thresholds `1/10` (polarization) and `1/1000` (density). -/
noncomputable def clampRec : Rec := { fld := fun f => match f with | .zetaThreshold => 1 / 10 | .densThreshold => 1 / 1000 | _ => 0, param := fun _ => 1 }

/-- A case of C62 in which `ζ` is replaced: the densities `1` and `1/100`. -/
theorem c62_case (P : Prims) : ∃ e e0 e1, gga_x_b88.pol P clampRec (1, 1 / 100) (some (1, 1, 1)) none none = .ok e ∧
    gga_x_b88.unpol P clampRec (2 * 1) (some (4 * 1)) none none = .ok e0 ∧ gga_x_b88.unpol P clampRec (2 * (1 / 100)) (some (4 * 1)) none none = .ok e1 ∧
    (1 + 1 / 100) * e = 1 * (1919 / 2000) ^ (4 / 3 : ℝ) * e0 + 1 / 100 * (101 / 20) ^ (4 / 3 : ℝ) * e1 := by
  obtain ⟨e, e0, e1, a, b, c, d⟩ := gga_x_b88_fullSpinScaling P clampRec 1 (1 / 100) 1 1 1 0 0 0 0 ⟨by norm_num [clampRec], by norm_num [clampRec]⟩ (by norm_num [clampRec])
    one_pos (by norm_num) one_pos.le one_pos.le le_rfl le_rfl
  refine ⟨e, e0, e1, a, b, c, ?_⟩
  rw [d, keptFactor, keptFactor, keptShare, keptShare, show clampRec.fld .zetaThreshold = 1 / 10 from rfl]
  norm_num

end Verif.Props
