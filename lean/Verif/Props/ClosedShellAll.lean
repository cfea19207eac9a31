import Verif.Data.All
import Verif.Props.ClosedShell1
import Verif.Props.ClosedShell2
import Verif.Props.ClosedShell3
import Verif.Props.ClosedShell4
/-!
# C21 for the whole table of shipped formulas
-/
namespace Verif.Props
open Verif.Model Verif.Spec Verif.Data

/-- Shipped formulas for which C21 is not proved. -/
def closedShellOpen : List String := [
  "gga_c_ft97",
  "gga_c_op_pw91",
  "gga_c_optc",
  "gga_c_p86vwn",
  "gga_c_pbe_vwn",
  "gga_k_exp4",
  "gga_x_bpccac",
  "gga_x_fd_lb94",
  "gga_x_gg99",
  "gga_x_htbs",
  "gga_x_lg93",
  "gga_x_lv_rpw86",
  "gga_x_rge2",
  "gga_x_sg4",
  "gga_xc_th3",
  "hyb_gga_xc_case21",
  "lda_c_ml1",
  "lda_c_pk09",
  "lda_c_vwn",
  "lda_c_vwn_3",
  "lda_c_vwn_4",
  "lda_x_1d_exponential",
  "lda_x_1d_soft",
  "mgga_c_b94",
  "mgga_c_kcisk",
  "mgga_c_tpssloc",
  "mgga_x_2d_js17",
  "mgga_x_br89",
  "mgga_x_mbr",
  "mgga_x_mbrxc_bg",
  "mgga_x_mbrxh_bg",
  "mgga_x_mggac",
  "mgga_x_task",
  "mgga_x_tb09"]

theorem closedShell_01 : ∀ x ∈ shipped01, x.name ∉ closedShellOpen → ClosedShell x.fam x.code := by
  unfold shipped01
  simp only [List.forall_mem_cons, List.not_mem_nil, false_implies, implies_true, and_true]
  exact ⟨fun _ => gga_c_acgga_closedShell,
    fun _ => gga_c_acggap_closedShell,
    fun _ => gga_c_am05_closedShell,
    fun _ => gga_c_bmk_closedShell,
    fun _ => gga_c_ccdf_closedShell,
    fun _ => gga_c_chachiyo_closedShell,
    fun _ => gga_c_cs1_closedShell,
    fun h => absurd (by simp [closedShellOpen]) h,
    fun _ => gga_c_gapc_closedShell,
    fun _ => gga_c_gaploc_closedShell,
    fun _ => gga_c_hcth_a_closedShell,
    fun _ => gga_c_lm_closedShell,
    fun _ => gga_c_lyp_closedShell,
    fun _ => gga_c_lypr_closedShell,
    fun _ => gga_c_op_b88_closedShell⟩

theorem closedShell_02 : ∀ x ∈ shipped02, x.name ∉ closedShellOpen → ClosedShell x.fam x.code := by
  unfold shipped02
  simp only [List.forall_mem_cons, List.not_mem_nil, false_implies, implies_true, and_true]
  exact ⟨fun _ => gga_c_op_g96_closedShell,
    fun _ => gga_c_op_pbe_closedShell,
    fun h => absurd (by simp [closedShellOpen]) h,
    fun _ => gga_c_op_xalpha_closedShell,
    fun h => absurd (by simp [closedShellOpen]) h,
    fun _ => gga_c_p86_closedShell,
    fun h => absurd (by simp [closedShellOpen]) h,
    fun _ => gga_c_pbe_closedShell,
    fun h => absurd (by simp [closedShellOpen]) h,
    fun _ => gga_c_pbeloc_closedShell,
    fun _ => gga_c_pw91_closedShell,
    fun _ => gga_c_q2d_closedShell,
    fun _ => gga_c_regtpss_closedShell,
    fun _ => gga_c_revtca_closedShell,
    fun _ => gga_c_scan_e0_closedShell,
    fun _ => gga_c_sg4_closedShell⟩

theorem closedShell_03 : ∀ x ∈ shipped03, x.name ∉ closedShellOpen → ClosedShell x.fam x.code := by
  unfold shipped03
  simp only [List.forall_mem_cons, List.not_mem_nil, false_implies, implies_true, and_true]
  exact ⟨fun _ => gga_c_sogga11_closedShell,
    fun _ => gga_c_tca_closedShell,
    fun _ => gga_c_w94_closedShell,
    fun _ => gga_c_wi_closedShell,
    fun _ => gga_c_wl_closedShell,
    fun _ => gga_c_zpbeint_closedShell,
    fun _ => gga_c_zvpbeint_closedShell,
    fun _ => gga_c_zvpbeloc_closedShell,
    fun _ => gga_k_apbe_closedShell,
    fun _ => gga_k_apbeint_closedShell,
    fun _ => gga_k_dk_closedShell,
    fun h => absurd (by simp [closedShellOpen]) h,
    fun _ => gga_k_lc94_closedShell,
    fun _ => gga_k_lgap_closedShell,
    fun _ => gga_k_lgap_ge_closedShell,
    fun _ => gga_k_lkt_closedShell,
    fun _ => gga_k_llp_closedShell,
    fun _ => gga_k_meyer_closedShell,
    fun _ => gga_k_mpbe_closedShell,
    fun _ => gga_k_ol1_closedShell,
    fun _ => gga_k_ol2_closedShell,
    fun _ => gga_k_pearson_closedShell,
    fun _ => gga_k_pg_closedShell,
    fun _ => gga_k_pw86_closedShell,
    fun _ => gga_k_rational_p_closedShell,
    fun _ => gga_k_tflw_closedShell,
    fun _ => gga_k_thakkar_closedShell⟩

theorem closedShell_04 : ∀ x ∈ shipped04, x.name ∉ closedShellOpen → ClosedShell x.fam x.code := by
  unfold shipped04
  simp only [List.forall_mem_cons, List.not_mem_nil, false_implies, implies_true, and_true]
  exact ⟨fun _ => gga_k_vt84f_closedShell,
    fun _ => gga_x_2d_b86_closedShell,
    fun _ => gga_x_2d_b86_mgc_closedShell,
    fun _ => gga_x_2d_b88_closedShell,
    fun _ => gga_x_2d_pbe_closedShell,
    fun _ => gga_x_airy_closedShell,
    fun _ => gga_x_ak13_closedShell,
    fun _ => gga_x_am05_closedShell,
    fun _ => gga_x_b86_closedShell,
    fun _ => gga_x_b88_closedShell,
    fun _ => gga_x_bayesian_closedShell,
    fun _ => gga_x_beefvdw_closedShell,
    fun h => absurd (by simp [closedShellOpen]) h,
    fun _ => gga_x_c09x_closedShell,
    fun _ => gga_x_cap_closedShell,
    fun _ => gga_x_chachiyo_closedShell,
    fun _ => gga_x_dk87_closedShell,
    fun _ => gga_x_ev93_closedShell,
    fun h => absurd (by simp [closedShellOpen]) h,
    fun _ => gga_x_ft97_closedShell,
    fun _ => gga_x_g96_closedShell,
    fun h => absurd (by simp [closedShellOpen]) h,
    fun _ => gga_x_hcth_a_closedShell,
    fun _ => gga_x_herman_closedShell,
    fun _ => gga_x_hjs_closedShell⟩

theorem closedShell_05 : ∀ x ∈ shipped05, x.name ∉ closedShellOpen → ClosedShell x.fam x.code := by
  unfold shipped05
  simp only [List.forall_mem_cons, List.not_mem_nil, false_implies, implies_true, and_true]
  exact ⟨fun _ => gga_x_hjs_b88_v2_closedShell,
    fun h => absurd (by simp [closedShellOpen]) h,
    fun _ => gga_x_ityh_closedShell,
    fun _ => gga_x_ityh_optx_closedShell,
    fun _ => gga_x_ityh_pbe_closedShell,
    fun _ => gga_x_kt_closedShell,
    fun _ => gga_x_lag_closedShell,
    fun _ => gga_x_lb_closedShell,
    fun h => absurd (by simp [closedShellOpen]) h,
    fun _ => gga_x_lspbe_closedShell,
    fun _ => gga_x_lsrpbe_closedShell,
    fun h => absurd (by simp [closedShellOpen]) h,
    fun _ => gga_x_mpbe_closedShell,
    fun _ => gga_x_n12_closedShell,
    fun _ => gga_x_ncap_closedShell,
    fun _ => gga_x_ol2_closedShell,
    fun _ => gga_x_optx_closedShell,
    fun _ => gga_x_pbe_closedShell,
    fun _ => gga_x_pbea_closedShell,
    fun _ => gga_x_pbeint_closedShell,
    fun _ => gga_x_pbepow_closedShell⟩

theorem closedShell_06 : ∀ x ∈ shipped06, x.name ∉ closedShellOpen → ClosedShell x.fam x.code := by
  unfold shipped06
  simp only [List.forall_mem_cons, List.not_mem_nil, false_implies, implies_true, and_true]
  exact ⟨fun _ => gga_x_pbetrans_closedShell,
    fun _ => gga_x_pw86_closedShell,
    fun _ => gga_x_pw91_closedShell,
    fun _ => gga_x_q1d_closedShell,
    fun _ => gga_x_q2d_closedShell,
    fun h => absurd (by simp [closedShellOpen]) h,
    fun _ => gga_x_rpbe_closedShell,
    fun _ => gga_x_s12_closedShell,
    fun _ => gga_x_sfat_closedShell,
    fun _ => gga_x_sfat_pbe_closedShell,
    fun h => absurd (by simp [closedShellOpen]) h,
    fun _ => gga_x_sogga11_closedShell,
    fun _ => gga_x_ssb_sw_closedShell,
    fun _ => gga_x_vmt_closedShell,
    fun _ => gga_x_vmt84_closedShell,
    fun _ => gga_x_wc_closedShell,
    fun _ => gga_x_wpbeh_closedShell,
    fun _ => gga_xc_b97_closedShell⟩

theorem closedShell_07 : ∀ x ∈ shipped07, x.name ∉ closedShellOpen → ClosedShell x.fam x.code := by
  unfold shipped07
  simp only [List.forall_mem_cons, List.not_mem_nil, false_implies, implies_true, and_true]
  exact ⟨fun _ => gga_xc_th1_closedShell,
    fun _ => gga_xc_th2_closedShell,
    fun h => absurd (by simp [closedShellOpen]) h,
    fun _ => hyb_gga_x_cam_s12_closedShell,
    fun h => absurd (by simp [closedShellOpen]) h,
    fun _ => hyb_gga_xc_wb97_closedShell,
    fun _ => hyb_lda_xc_bn05_closedShell,
    fun _ => hyb_mgga_x_dldf_closedShell,
    fun _ => hyb_mgga_x_js18_closedShell,
    fun _ => hyb_mgga_x_m05_closedShell⟩

theorem closedShell_08 : ∀ x ∈ shipped08, x.name ∉ closedShellOpen → ClosedShell x.fam x.code := by
  unfold shipped08
  simp only [List.forall_mem_cons, List.not_mem_nil, false_implies, implies_true, and_true]
  exact ⟨fun _ => hyb_mgga_x_pjs18_closedShell,
    fun _ => hyb_mgga_xc_wb97mv_closedShell,
    fun _ => lda_c_1d_csc_closedShell,
    fun _ => lda_c_1d_loos_closedShell,
    fun _ => lda_c_2d_amgb_closedShell,
    fun _ => lda_c_2d_prm_closedShell,
    fun _ => lda_c_chachiyo_closedShell,
    fun _ => lda_c_chachiyo_mod_closedShell,
    fun _ => lda_c_gk72_closedShell,
    fun _ => lda_c_gombas_closedShell,
    fun _ => lda_c_hl_closedShell,
    fun _ => lda_c_lp96_closedShell,
    fun h => absurd (by simp [closedShellOpen]) h,
    fun h => absurd (by simp [closedShellOpen]) h,
    fun _ => lda_c_pmgb06_closedShell,
    fun _ => lda_c_pw_closedShell⟩

theorem closedShell_09 : ∀ x ∈ shipped09, x.name ∉ closedShellOpen → ClosedShell x.fam x.code := by
  unfold shipped09
  simp only [List.forall_mem_cons, List.not_mem_nil, false_implies, implies_true, and_true]
  exact ⟨fun _ => lda_c_pz_closedShell,
    fun _ => lda_c_rc04_closedShell,
    fun _ => lda_c_rpa_closedShell,
    fun h => absurd (by simp [closedShellOpen]) h,
    fun _ => lda_c_vwn_1_closedShell,
    fun _ => lda_c_vwn_2_closedShell,
    fun h => absurd (by simp [closedShellOpen]) h,
    fun h => absurd (by simp [closedShellOpen]) h,
    fun _ => lda_c_vwn_rpa_closedShell,
    fun _ => lda_c_w20_closedShell,
    fun _ => lda_c_wigner_closedShell,
    fun _ => lda_k_gds08_worker_closedShell,
    fun _ => lda_k_tf_closedShell,
    fun _ => lda_k_zlp_closedShell,
    fun _ => lda_x_closedShell,
    fun h => absurd (by simp [closedShellOpen]) h,
    fun h => absurd (by simp [closedShellOpen]) h,
    fun _ => lda_x_2d_closedShell,
    fun _ => lda_x_erf_closedShell,
    fun _ => lda_x_rel_closedShell,
    fun _ => lda_x_sloc_closedShell,
    fun _ => lda_x_yukawa_closedShell,
    fun _ => lda_xc_1d_ehwlrg_closedShell,
    fun _ => lda_xc_ksdt_closedShell,
    fun _ => lda_xc_teter93_closedShell,
    fun _ => lda_xc_tih_closedShell,
    fun _ => lda_xc_zlp_closedShell,
    fun _ => mgga_c_b88_closedShell,
    fun h => absurd (by simp [closedShellOpen]) h,
    fun _ => mgga_c_bc95_closedShell⟩

theorem closedShell_10 : ∀ x ∈ shipped10, x.name ∉ closedShellOpen → ClosedShell x.fam x.code := by
  unfold shipped10
  simp only [List.forall_mem_cons, List.not_mem_nil, false_implies, implies_true, and_true]
  exact ⟨fun _ => mgga_c_cc_closedShell,
    fun _ => mgga_c_ccalda_closedShell,
    fun _ => mgga_c_cs_closedShell,
    fun _ => mgga_c_kcis_closedShell,
    fun h => absurd (by simp [closedShellOpen]) h,
    fun _ => mgga_c_ltapw_closedShell,
    fun _ => mgga_c_m05_closedShell,
    fun _ => mgga_c_m06l_closedShell,
    fun _ => mgga_c_m08_closedShell⟩

theorem closedShell_11 : ∀ x ∈ shipped11, x.name ∉ closedShellOpen → ClosedShell x.fam x.code := by
  unfold shipped11
  simp only [List.forall_mem_cons, List.not_mem_nil, false_implies, implies_true, and_true]
  exact ⟨fun _ => mgga_c_pkzb_closedShell,
    fun _ => mgga_c_r2scan_closedShell,
    fun _ => mgga_c_revscan_closedShell,
    fun _ => mgga_c_revtpss_closedShell,
    fun _ => mgga_c_rmggac_closedShell,
    fun _ => mgga_c_rppscan_closedShell,
    fun _ => mgga_c_rregtm_closedShell,
    fun _ => mgga_c_rscan_closedShell⟩

theorem closedShell_12 : ∀ x ∈ shipped12, x.name ∉ closedShellOpen → ClosedShell x.fam x.code := by
  unfold shipped12
  simp only [List.forall_mem_cons, List.not_mem_nil, false_implies, implies_true, and_true]
  exact ⟨fun _ => mgga_c_scan_closedShell,
    fun _ => mgga_c_tpss_closedShell,
    fun h => absurd (by simp [closedShellOpen]) h,
    fun _ => mgga_c_vsxc_closedShell,
    fun _ => mgga_k_csk_closedShell,
    fun _ => mgga_k_csk_loc_closedShell,
    fun _ => mgga_k_gea2_closedShell,
    fun _ => mgga_k_gea4_closedShell,
    fun _ => mgga_k_lk_closedShell,
    fun _ => mgga_k_pc07_closedShell⟩

theorem closedShell_13 : ∀ x ∈ shipped13, x.name ∉ closedShellOpen → ClosedShell x.fam x.code := by
  unfold shipped13
  simp only [List.forall_mem_cons, List.not_mem_nil, false_implies, implies_true, and_true]
  exact ⟨fun _ => mgga_k_pgslb_closedShell,
    fun _ => mgga_k_rda_closedShell,
    fun h => absurd (by simp [closedShellOpen]) h,
    fun _ => mgga_x_2d_prhg07_closedShell,
    fun _ => mgga_x_2d_prp10_closedShell,
    fun h => absurd (by simp [closedShellOpen]) h,
    fun _ => mgga_x_br89_explicit_closedShell,
    fun _ => mgga_x_edmgga_closedShell,
    fun _ => mgga_x_ft98_closedShell,
    fun _ => mgga_x_gdme_closedShell,
    fun _ => mgga_x_gvt4_closedShell,
    fun _ => mgga_x_gx_closedShell,
    fun _ => mgga_x_jk_closedShell,
    fun _ => mgga_x_lta_closedShell,
    fun _ => mgga_x_m06l_closedShell,
    fun _ => mgga_x_m08_closedShell,
    fun _ => mgga_x_m11_closedShell,
    fun _ => mgga_x_m11_l_closedShell⟩

theorem closedShell_14 : ∀ x ∈ shipped14, x.name ∉ closedShellOpen → ClosedShell x.fam x.code := by
  unfold shipped14
  simp only [List.forall_mem_cons, List.not_mem_nil, false_implies, implies_true, and_true]
  exact ⟨fun _ => mgga_x_mbeef_closedShell,
    fun _ => mgga_x_mbeefvdw_closedShell,
    fun h => absurd (by simp [closedShellOpen]) h,
    fun h => absurd (by simp [closedShellOpen]) h,
    fun h => absurd (by simp [closedShellOpen]) h,
    fun _ => mgga_x_mcml_closedShell,
    fun h => absurd (by simp [closedShellOpen]) h,
    fun _ => mgga_x_mn12_closedShell,
    fun _ => mgga_x_ms_closedShell,
    fun _ => mgga_x_msb_closedShell,
    fun _ => mgga_x_mvs_closedShell⟩

theorem closedShell_15 : ∀ x ∈ shipped15, x.name ∉ closedShellOpen → ClosedShell x.fam x.code := by
  unfold shipped15
  simp only [List.forall_mem_cons, List.not_mem_nil, false_implies, implies_true, and_true]
  exact ⟨fun _ => mgga_x_mvsb_closedShell,
    fun _ => mgga_x_pbe_gx_closedShell,
    fun _ => mgga_x_pkzb_closedShell,
    fun _ => mgga_x_r2scan_closedShell,
    fun _ => mgga_x_r4scan_closedShell,
    fun _ => mgga_x_regtm_closedShell,
    fun _ => mgga_x_regtpss_closedShell,
    fun _ => mgga_x_revtm_closedShell,
    fun _ => mgga_x_rlda_closedShell,
    fun _ => mgga_x_rppscan_closedShell,
    fun _ => mgga_x_rscan_closedShell,
    fun _ => mgga_x_rtpss_closedShell,
    fun _ => mgga_x_sa_tpss_closedShell,
    fun _ => mgga_x_scan_closedShell,
    fun h => absurd (by simp [closedShellOpen]) h⟩

theorem closedShell_16 : ∀ x ∈ shipped16, x.name ∉ closedShellOpen → ClosedShell x.fam x.code := by
  unfold shipped16
  simp only [List.forall_mem_cons, List.not_mem_nil, false_implies, implies_true, and_true]
  exact ⟨fun _ => mgga_x_tau_hcth_closedShell,
    fun h => absurd (by simp [closedShellOpen]) h,
    fun _ => mgga_x_th_closedShell,
    fun _ => mgga_x_tm_closedShell,
    fun _ => mgga_x_tpss_closedShell,
    fun _ => mgga_x_vcml_closedShell,
    fun _ => mgga_x_vt84_closedShell,
    fun _ => mgga_xc_b97mv_closedShell,
    fun _ => mgga_xc_b98_closedShell,
    fun _ => mgga_xc_cc06_closedShell,
    fun _ => mgga_xc_lp90_closedShell,
    fun _ => mgga_xc_zlp_closedShell⟩

/-- C21. Missing: the formulas in `closedShellOpen`. -/
theorem closedShell_shipped_partial : ∀ x ∈ shipped, x.name ∉ closedShellOpen → ClosedShell x.fam x.code := by
  intro x hx
  simp only [shipped, List.mem_append] at hx
  rcases hx with (((((((((((((((h | h) | h) | h) | h) | h) | h) | h) | h) | h) | h) | h) | h) | h) | h) | h)
  · exact closedShell_01 x h
  · exact closedShell_02 x h
  · exact closedShell_03 x h
  · exact closedShell_04 x h
  · exact closedShell_05 x h
  · exact closedShell_06 x h
  · exact closedShell_07 x h
  · exact closedShell_08 x h
  · exact closedShell_09 x h
  · exact closedShell_10 x h
  · exact closedShell_11 x h
  · exact closedShell_12 x h
  · exact closedShell_13 x h
  · exact closedShell_14 x h
  · exact closedShell_15 x h
  · exact closedShell_16 x h

end Verif.Props
