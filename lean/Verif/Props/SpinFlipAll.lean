import Verif.Data.All
import Verif.Props.SpinFlip1
import Verif.Props.SpinFlip2
import Verif.Props.SpinFlip3
import Verif.Props.SpinFlip4
/-!
# C22 for the whole table of shipped formulas
-/
namespace Verif.Props
open Verif.Model Verif.Spec Verif.Data

/-- Shipped formulas for which C22 is not proved. -/
def spinFlipOpen : List String := [
  "gga_c_op_b88",
  "gga_c_op_g96",
  "gga_c_op_pbe",
  "gga_c_op_pw91",
  "gga_c_op_xalpha",
  "gga_c_w94",
  "gga_x_fd_lb94",
  "gga_x_gg99",
  "gga_x_lb",
  "hyb_gga_xc_case21",
  "lda_c_ml1",
  "lda_x_1d_exponential",
  "lda_x_1d_soft",
  "lda_xc_ksdt",
  "mgga_c_b94",
  "mgga_c_revtpss",
  "mgga_c_tpss",
  "mgga_c_tpssloc",
  "mgga_x_2d_prp10",
  "mgga_x_br89",
  "mgga_x_mbr",
  "mgga_x_mbrxc_bg",
  "mgga_x_mbrxh_bg",
  "mgga_x_mggac",
  "mgga_x_tb09"]

theorem spinFlip_01 : ∀ x ∈ shipped01, x.name ∉ spinFlipOpen → SpinFlip x.fam x.code := by
  unfold shipped01
  simp only [List.forall_mem_cons, List.not_mem_nil, false_implies, implies_true, and_true]
  exact ⟨fun _ => gga_c_acgga_spinFlip,
    fun _ => gga_c_acggap_spinFlip,
    fun _ => gga_c_am05_spinFlip,
    fun _ => gga_c_bmk_spinFlip,
    fun _ => gga_c_ccdf_spinFlip,
    fun _ => gga_c_chachiyo_spinFlip,
    fun _ => gga_c_cs1_spinFlip,
    fun _ => gga_c_ft97_spinFlip,
    fun _ => gga_c_gapc_spinFlip,
    fun _ => gga_c_gaploc_spinFlip,
    fun _ => gga_c_hcth_a_spinFlip,
    fun _ => gga_c_lm_spinFlip,
    fun _ => gga_c_lyp_spinFlip,
    fun _ => gga_c_lypr_spinFlip,
    fun h => absurd (by simp [spinFlipOpen]) h⟩

theorem spinFlip_02 : ∀ x ∈ shipped02, x.name ∉ spinFlipOpen → SpinFlip x.fam x.code := by
  unfold shipped02
  simp only [List.forall_mem_cons, List.not_mem_nil, false_implies, implies_true, and_true]
  exact ⟨fun h => absurd (by simp [spinFlipOpen]) h,
    fun h => absurd (by simp [spinFlipOpen]) h,
    fun h => absurd (by simp [spinFlipOpen]) h,
    fun h => absurd (by simp [spinFlipOpen]) h,
    fun _ => gga_c_optc_spinFlip,
    fun _ => gga_c_p86_spinFlip,
    fun _ => gga_c_p86vwn_spinFlip,
    fun _ => gga_c_pbe_spinFlip,
    fun _ => gga_c_pbe_vwn_spinFlip,
    fun _ => gga_c_pbeloc_spinFlip,
    fun _ => gga_c_pw91_spinFlip,
    fun _ => gga_c_q2d_spinFlip,
    fun _ => gga_c_regtpss_spinFlip,
    fun _ => gga_c_revtca_spinFlip,
    fun _ => gga_c_scan_e0_spinFlip,
    fun _ => gga_c_sg4_spinFlip⟩

theorem spinFlip_03 : ∀ x ∈ shipped03, x.name ∉ spinFlipOpen → SpinFlip x.fam x.code := by
  unfold shipped03
  simp only [List.forall_mem_cons, List.not_mem_nil, false_implies, implies_true, and_true]
  exact ⟨fun _ => gga_c_sogga11_spinFlip,
    fun _ => gga_c_tca_spinFlip,
    fun h => absurd (by simp [spinFlipOpen]) h,
    fun _ => gga_c_wi_spinFlip,
    fun _ => gga_c_wl_spinFlip,
    fun _ => gga_c_zpbeint_spinFlip,
    fun _ => gga_c_zvpbeint_spinFlip,
    fun _ => gga_c_zvpbeloc_spinFlip,
    fun _ => gga_k_apbe_spinFlip,
    fun _ => gga_k_apbeint_spinFlip,
    fun _ => gga_k_dk_spinFlip,
    fun _ => gga_k_exp4_spinFlip,
    fun _ => gga_k_lc94_spinFlip,
    fun _ => gga_k_lgap_spinFlip,
    fun _ => gga_k_lgap_ge_spinFlip,
    fun _ => gga_k_lkt_spinFlip,
    fun _ => gga_k_llp_spinFlip,
    fun _ => gga_k_meyer_spinFlip,
    fun _ => gga_k_mpbe_spinFlip,
    fun _ => gga_k_ol1_spinFlip,
    fun _ => gga_k_ol2_spinFlip,
    fun _ => gga_k_pearson_spinFlip,
    fun _ => gga_k_pg_spinFlip,
    fun _ => gga_k_pw86_spinFlip,
    fun _ => gga_k_rational_p_spinFlip,
    fun _ => gga_k_tflw_spinFlip,
    fun _ => gga_k_thakkar_spinFlip⟩

theorem spinFlip_04 : ∀ x ∈ shipped04, x.name ∉ spinFlipOpen → SpinFlip x.fam x.code := by
  unfold shipped04
  simp only [List.forall_mem_cons, List.not_mem_nil, false_implies, implies_true, and_true]
  exact ⟨fun _ => gga_k_vt84f_spinFlip,
    fun _ => gga_x_2d_b86_spinFlip,
    fun _ => gga_x_2d_b86_mgc_spinFlip,
    fun _ => gga_x_2d_b88_spinFlip,
    fun _ => gga_x_2d_pbe_spinFlip,
    fun _ => gga_x_airy_spinFlip,
    fun _ => gga_x_ak13_spinFlip,
    fun _ => gga_x_am05_spinFlip,
    fun _ => gga_x_b86_spinFlip,
    fun _ => gga_x_b88_spinFlip,
    fun _ => gga_x_bayesian_spinFlip,
    fun _ => gga_x_beefvdw_spinFlip,
    fun _ => gga_x_bpccac_spinFlip,
    fun _ => gga_x_c09x_spinFlip,
    fun _ => gga_x_cap_spinFlip,
    fun _ => gga_x_chachiyo_spinFlip,
    fun _ => gga_x_dk87_spinFlip,
    fun _ => gga_x_ev93_spinFlip,
    fun h => absurd (by simp [spinFlipOpen]) h,
    fun _ => gga_x_ft97_spinFlip,
    fun _ => gga_x_g96_spinFlip,
    fun h => absurd (by simp [spinFlipOpen]) h,
    fun _ => gga_x_hcth_a_spinFlip,
    fun _ => gga_x_herman_spinFlip,
    fun _ => gga_x_hjs_spinFlip⟩

theorem spinFlip_05 : ∀ x ∈ shipped05, x.name ∉ spinFlipOpen → SpinFlip x.fam x.code := by
  unfold shipped05
  simp only [List.forall_mem_cons, List.not_mem_nil, false_implies, implies_true, and_true]
  exact ⟨fun _ => gga_x_hjs_b88_v2_spinFlip,
    fun _ => gga_x_htbs_spinFlip,
    fun _ => gga_x_ityh_spinFlip,
    fun _ => gga_x_ityh_optx_spinFlip,
    fun _ => gga_x_ityh_pbe_spinFlip,
    fun _ => gga_x_kt_spinFlip,
    fun _ => gga_x_lag_spinFlip,
    fun h => absurd (by simp [spinFlipOpen]) h,
    fun _ => gga_x_lg93_spinFlip,
    fun _ => gga_x_lspbe_spinFlip,
    fun _ => gga_x_lsrpbe_spinFlip,
    fun _ => gga_x_lv_rpw86_spinFlip,
    fun _ => gga_x_mpbe_spinFlip,
    fun _ => gga_x_n12_spinFlip,
    fun _ => gga_x_ncap_spinFlip,
    fun _ => gga_x_ol2_spinFlip,
    fun _ => gga_x_optx_spinFlip,
    fun _ => gga_x_pbe_spinFlip,
    fun _ => gga_x_pbea_spinFlip,
    fun _ => gga_x_pbeint_spinFlip,
    fun _ => gga_x_pbepow_spinFlip⟩

theorem spinFlip_06 : ∀ x ∈ shipped06, x.name ∉ spinFlipOpen → SpinFlip x.fam x.code := by
  unfold shipped06
  simp only [List.forall_mem_cons, List.not_mem_nil, false_implies, implies_true, and_true]
  exact ⟨fun _ => gga_x_pbetrans_spinFlip,
    fun _ => gga_x_pw86_spinFlip,
    fun _ => gga_x_pw91_spinFlip,
    fun _ => gga_x_q1d_spinFlip,
    fun _ => gga_x_q2d_spinFlip,
    fun _ => gga_x_rge2_spinFlip,
    fun _ => gga_x_rpbe_spinFlip,
    fun _ => gga_x_s12_spinFlip,
    fun _ => gga_x_sfat_spinFlip,
    fun _ => gga_x_sfat_pbe_spinFlip,
    fun _ => gga_x_sg4_spinFlip,
    fun _ => gga_x_sogga11_spinFlip,
    fun _ => gga_x_ssb_sw_spinFlip,
    fun _ => gga_x_vmt_spinFlip,
    fun _ => gga_x_vmt84_spinFlip,
    fun _ => gga_x_wc_spinFlip,
    fun _ => gga_x_wpbeh_spinFlip,
    fun _ => gga_xc_b97_spinFlip⟩

theorem spinFlip_07 : ∀ x ∈ shipped07, x.name ∉ spinFlipOpen → SpinFlip x.fam x.code := by
  unfold shipped07
  simp only [List.forall_mem_cons, List.not_mem_nil, false_implies, implies_true, and_true]
  exact ⟨fun _ => gga_xc_th1_spinFlip,
    fun _ => gga_xc_th2_spinFlip,
    fun _ => gga_xc_th3_spinFlip,
    fun _ => hyb_gga_x_cam_s12_spinFlip,
    fun h => absurd (by simp [spinFlipOpen]) h,
    fun _ => hyb_gga_xc_wb97_spinFlip,
    fun _ => hyb_lda_xc_bn05_spinFlip,
    fun _ => hyb_mgga_x_dldf_spinFlip,
    fun _ => hyb_mgga_x_js18_spinFlip,
    fun _ => hyb_mgga_x_m05_spinFlip⟩

theorem spinFlip_08 : ∀ x ∈ shipped08, x.name ∉ spinFlipOpen → SpinFlip x.fam x.code := by
  unfold shipped08
  simp only [List.forall_mem_cons, List.not_mem_nil, false_implies, implies_true, and_true]
  exact ⟨fun _ => hyb_mgga_x_pjs18_spinFlip,
    fun _ => hyb_mgga_xc_wb97mv_spinFlip,
    fun _ => lda_c_1d_csc_spinFlip,
    fun _ => lda_c_1d_loos_spinFlip,
    fun _ => lda_c_2d_amgb_spinFlip,
    fun _ => lda_c_2d_prm_spinFlip,
    fun _ => lda_c_chachiyo_spinFlip,
    fun _ => lda_c_chachiyo_mod_spinFlip,
    fun _ => lda_c_gk72_spinFlip,
    fun _ => lda_c_gombas_spinFlip,
    fun _ => lda_c_hl_spinFlip,
    fun _ => lda_c_lp96_spinFlip,
    fun h => absurd (by simp [spinFlipOpen]) h,
    fun _ => lda_c_pk09_spinFlip,
    fun _ => lda_c_pmgb06_spinFlip,
    fun _ => lda_c_pw_spinFlip⟩

theorem spinFlip_09 : ∀ x ∈ shipped09, x.name ∉ spinFlipOpen → SpinFlip x.fam x.code := by
  unfold shipped09
  simp only [List.forall_mem_cons, List.not_mem_nil, false_implies, implies_true, and_true]
  exact ⟨fun _ => lda_c_pz_spinFlip,
    fun _ => lda_c_rc04_spinFlip,
    fun _ => lda_c_rpa_spinFlip,
    fun _ => lda_c_vwn_spinFlip,
    fun _ => lda_c_vwn_1_spinFlip,
    fun _ => lda_c_vwn_2_spinFlip,
    fun _ => lda_c_vwn_3_spinFlip,
    fun _ => lda_c_vwn_4_spinFlip,
    fun _ => lda_c_vwn_rpa_spinFlip,
    fun _ => lda_c_w20_spinFlip,
    fun _ => lda_c_wigner_spinFlip,
    fun _ => lda_k_gds08_worker_spinFlip,
    fun _ => lda_k_tf_spinFlip,
    fun _ => lda_k_zlp_spinFlip,
    fun _ => lda_x_spinFlip,
    fun h => absurd (by simp [spinFlipOpen]) h,
    fun h => absurd (by simp [spinFlipOpen]) h,
    fun _ => lda_x_2d_spinFlip,
    fun _ => lda_x_erf_spinFlip,
    fun _ => lda_x_rel_spinFlip,
    fun _ => lda_x_sloc_spinFlip,
    fun _ => lda_x_yukawa_spinFlip,
    fun _ => lda_xc_1d_ehwlrg_spinFlip,
    fun h => absurd (by simp [spinFlipOpen]) h,
    fun _ => lda_xc_teter93_spinFlip,
    fun _ => lda_xc_tih_spinFlip,
    fun _ => lda_xc_zlp_spinFlip,
    fun _ => mgga_c_b88_spinFlip,
    fun h => absurd (by simp [spinFlipOpen]) h,
    fun _ => mgga_c_bc95_spinFlip⟩

theorem spinFlip_10 : ∀ x ∈ shipped10, x.name ∉ spinFlipOpen → SpinFlip x.fam x.code := by
  unfold shipped10
  simp only [List.forall_mem_cons, List.not_mem_nil, false_implies, implies_true, and_true]
  exact ⟨fun _ => mgga_c_cc_spinFlip,
    fun _ => mgga_c_ccalda_spinFlip,
    fun _ => mgga_c_cs_spinFlip,
    fun _ => mgga_c_kcis_spinFlip,
    fun _ => mgga_c_kcisk_spinFlip,
    fun _ => mgga_c_ltapw_spinFlip,
    fun _ => mgga_c_m05_spinFlip,
    fun _ => mgga_c_m06l_spinFlip,
    fun _ => mgga_c_m08_spinFlip⟩

theorem spinFlip_11 : ∀ x ∈ shipped11, x.name ∉ spinFlipOpen → SpinFlip x.fam x.code := by
  unfold shipped11
  simp only [List.forall_mem_cons, List.not_mem_nil, false_implies, implies_true, and_true]
  exact ⟨fun _ => mgga_c_pkzb_spinFlip,
    fun _ => mgga_c_r2scan_spinFlip,
    fun _ => mgga_c_revscan_spinFlip,
    fun h => absurd (by simp [spinFlipOpen]) h,
    fun _ => mgga_c_rmggac_spinFlip,
    fun _ => mgga_c_rppscan_spinFlip,
    fun _ => mgga_c_rregtm_spinFlip,
    fun _ => mgga_c_rscan_spinFlip⟩

theorem spinFlip_12 : ∀ x ∈ shipped12, x.name ∉ spinFlipOpen → SpinFlip x.fam x.code := by
  unfold shipped12
  simp only [List.forall_mem_cons, List.not_mem_nil, false_implies, implies_true, and_true]
  exact ⟨fun _ => mgga_c_scan_spinFlip,
    fun h => absurd (by simp [spinFlipOpen]) h,
    fun h => absurd (by simp [spinFlipOpen]) h,
    fun _ => mgga_c_vsxc_spinFlip,
    fun _ => mgga_k_csk_spinFlip,
    fun _ => mgga_k_csk_loc_spinFlip,
    fun _ => mgga_k_gea2_spinFlip,
    fun _ => mgga_k_gea4_spinFlip,
    fun _ => mgga_k_lk_spinFlip,
    fun _ => mgga_k_pc07_spinFlip⟩

theorem spinFlip_13 : ∀ x ∈ shipped13, x.name ∉ spinFlipOpen → SpinFlip x.fam x.code := by
  unfold shipped13
  simp only [List.forall_mem_cons, List.not_mem_nil, false_implies, implies_true, and_true]
  exact ⟨fun _ => mgga_k_pgslb_spinFlip,
    fun _ => mgga_k_rda_spinFlip,
    fun _ => mgga_x_2d_js17_spinFlip,
    fun _ => mgga_x_2d_prhg07_spinFlip,
    fun h => absurd (by simp [spinFlipOpen]) h,
    fun h => absurd (by simp [spinFlipOpen]) h,
    fun _ => mgga_x_br89_explicit_spinFlip,
    fun _ => mgga_x_edmgga_spinFlip,
    fun _ => mgga_x_ft98_spinFlip,
    fun _ => mgga_x_gdme_spinFlip,
    fun _ => mgga_x_gvt4_spinFlip,
    fun _ => mgga_x_gx_spinFlip,
    fun _ => mgga_x_jk_spinFlip,
    fun _ => mgga_x_lta_spinFlip,
    fun _ => mgga_x_m06l_spinFlip,
    fun _ => mgga_x_m08_spinFlip,
    fun _ => mgga_x_m11_spinFlip,
    fun _ => mgga_x_m11_l_spinFlip⟩

theorem spinFlip_14 : ∀ x ∈ shipped14, x.name ∉ spinFlipOpen → SpinFlip x.fam x.code := by
  unfold shipped14
  simp only [List.forall_mem_cons, List.not_mem_nil, false_implies, implies_true, and_true]
  exact ⟨fun _ => mgga_x_mbeef_spinFlip,
    fun _ => mgga_x_mbeefvdw_spinFlip,
    fun h => absurd (by simp [spinFlipOpen]) h,
    fun h => absurd (by simp [spinFlipOpen]) h,
    fun h => absurd (by simp [spinFlipOpen]) h,
    fun _ => mgga_x_mcml_spinFlip,
    fun h => absurd (by simp [spinFlipOpen]) h,
    fun _ => mgga_x_mn12_spinFlip,
    fun _ => mgga_x_ms_spinFlip,
    fun _ => mgga_x_msb_spinFlip,
    fun _ => mgga_x_mvs_spinFlip⟩

theorem spinFlip_15 : ∀ x ∈ shipped15, x.name ∉ spinFlipOpen → SpinFlip x.fam x.code := by
  unfold shipped15
  simp only [List.forall_mem_cons, List.not_mem_nil, false_implies, implies_true, and_true]
  exact ⟨fun _ => mgga_x_mvsb_spinFlip,
    fun _ => mgga_x_pbe_gx_spinFlip,
    fun _ => mgga_x_pkzb_spinFlip,
    fun _ => mgga_x_r2scan_spinFlip,
    fun _ => mgga_x_r4scan_spinFlip,
    fun _ => mgga_x_regtm_spinFlip,
    fun _ => mgga_x_regtpss_spinFlip,
    fun _ => mgga_x_revtm_spinFlip,
    fun _ => mgga_x_rlda_spinFlip,
    fun _ => mgga_x_rppscan_spinFlip,
    fun _ => mgga_x_rscan_spinFlip,
    fun _ => mgga_x_rtpss_spinFlip,
    fun _ => mgga_x_sa_tpss_spinFlip,
    fun _ => mgga_x_scan_spinFlip,
    fun _ => mgga_x_task_spinFlip⟩

theorem spinFlip_16 : ∀ x ∈ shipped16, x.name ∉ spinFlipOpen → SpinFlip x.fam x.code := by
  unfold shipped16
  simp only [List.forall_mem_cons, List.not_mem_nil, false_implies, implies_true, and_true]
  exact ⟨fun _ => mgga_x_tau_hcth_spinFlip,
    fun h => absurd (by simp [spinFlipOpen]) h,
    fun _ => mgga_x_th_spinFlip,
    fun _ => mgga_x_tm_spinFlip,
    fun _ => mgga_x_tpss_spinFlip,
    fun _ => mgga_x_vcml_spinFlip,
    fun _ => mgga_x_vt84_spinFlip,
    fun _ => mgga_xc_b97mv_spinFlip,
    fun _ => mgga_xc_b98_spinFlip,
    fun _ => mgga_xc_cc06_spinFlip,
    fun _ => mgga_xc_lp90_spinFlip,
    fun _ => mgga_xc_zlp_spinFlip⟩

/-- C22. Missing: the formulas in `spinFlipOpen`. -/
theorem spinFlip_shipped_partial : ∀ x ∈ shipped, x.name ∉ spinFlipOpen → SpinFlip x.fam x.code := by
  intro x hx
  simp only [shipped, List.mem_append] at hx
  rcases hx with (((((((((((((((h | h) | h) | h) | h) | h) | h) | h) | h) | h) | h) | h) | h) | h) | h) | h)
  · exact spinFlip_01 x h
  · exact spinFlip_02 x h
  · exact spinFlip_03 x h
  · exact spinFlip_04 x h
  · exact spinFlip_05 x h
  · exact spinFlip_06 x h
  · exact spinFlip_07 x h
  · exact spinFlip_08 x h
  · exact spinFlip_09 x h
  · exact spinFlip_10 x h
  · exact spinFlip_11 x h
  · exact spinFlip_12 x h
  · exact spinFlip_13 x h
  · exact spinFlip_14 x h
  · exact spinFlip_15 x h
  · exact spinFlip_16 x h

end Verif.Props
