import Verif.Norm.Untied
import Verif.Data.All
/-!
# C63: formulas whose only comparisons are those with the thresholds, polarized code
-/
set_option Elab.async false
set_option maxRecDepth 100000
namespace Verif.Props
open Verif.Py Verif.Model Verif.Spec Verif.Norm Verif.Data

theorem gga_c_am05_untiedPol : UntiedPol .gga gga_c_am05 := untiedPol_of (cap := 4) (by decide +kernel)
theorem gga_c_bmk_untiedPol : UntiedPol .gga gga_c_bmk := untiedPol_of (cap := 4) (by decide +kernel)
theorem gga_c_ccdf_untiedPol : UntiedPol .gga gga_c_ccdf := untiedPol_of (cap := 1) (by decide +kernel)
theorem gga_c_cs1_untiedPol : UntiedPol .gga gga_c_cs1 := untiedPol_of (cap := 4) (by decide +kernel)
theorem gga_c_hcth_a_untiedPol : UntiedPol .gga gga_c_hcth_a := untiedPol_of (cap := 4) (by decide +kernel)
theorem gga_c_lm_untiedPol : UntiedPol .gga gga_c_lm := untiedPol_of (cap := 4) (by decide +kernel)
theorem gga_c_lyp_untiedPol : UntiedPol .gga gga_c_lyp := untiedPol_of (cap := 4) (by decide +kernel)
theorem gga_c_lypr_untiedPol : UntiedPol .gga gga_c_lypr := untiedPol_of (cap := 4) (by decide +kernel)
theorem gga_c_p86vwn_untiedPol : UntiedPol .gga gga_c_p86vwn := untiedPol_of (cap := 4) (by decide +kernel)
theorem gga_c_tca_untiedPol : UntiedPol .gga gga_c_tca := untiedPol_of (cap := 4) (by decide +kernel)
theorem gga_c_wi_untiedPol : UntiedPol .gga gga_c_wi := untiedPol_of (cap := 1) (by decide +kernel)
theorem gga_c_wl_untiedPol : UntiedPol .gga gga_c_wl := untiedPol_of (cap := 1) (by decide +kernel)
theorem gga_k_apbe_untiedPol : UntiedPol .gga gga_k_apbe := untiedPol_of (cap := 4) (by decide +kernel)
theorem gga_k_dk_untiedPol : UntiedPol .gga gga_k_dk := untiedPol_of (cap := 4) (by decide +kernel)
theorem gga_k_exp4_untiedPol : UntiedPol .gga gga_k_exp4 := untiedPol_of (cap := 4) (by decide +kernel)
theorem gga_k_lc94_untiedPol : UntiedPol .gga gga_k_lc94 := untiedPol_of (cap := 4) (by decide +kernel)
theorem gga_k_lgap_untiedPol : UntiedPol .gga gga_k_lgap := untiedPol_of (cap := 4) (by decide +kernel)
theorem gga_k_lgap_ge_untiedPol : UntiedPol .gga gga_k_lgap_ge := untiedPol_of (cap := 4) (by decide +kernel)
theorem gga_k_llp_untiedPol : UntiedPol .gga gga_k_llp := untiedPol_of (cap := 4) (by decide +kernel)
theorem gga_k_mpbe_untiedPol : UntiedPol .gga gga_k_mpbe := untiedPol_of (cap := 4) (by decide +kernel)
theorem gga_k_ol1_untiedPol : UntiedPol .gga gga_k_ol1 := untiedPol_of (cap := 4) (by decide +kernel)
theorem gga_k_ol2_untiedPol : UntiedPol .gga gga_k_ol2 := untiedPol_of (cap := 4) (by decide +kernel)
theorem gga_k_pearson_untiedPol : UntiedPol .gga gga_k_pearson := untiedPol_of (cap := 4) (by decide +kernel)
theorem gga_k_pg_untiedPol : UntiedPol .gga gga_k_pg := untiedPol_of (cap := 4) (by decide +kernel)
theorem gga_k_pw86_untiedPol : UntiedPol .gga gga_k_pw86 := untiedPol_of (cap := 4) (by decide +kernel)
theorem gga_k_rational_p_untiedPol : UntiedPol .gga gga_k_rational_p := untiedPol_of (cap := 4) (by decide +kernel)
theorem gga_k_tflw_untiedPol : UntiedPol .gga gga_k_tflw := untiedPol_of (cap := 4) (by decide +kernel)
theorem gga_k_thakkar_untiedPol : UntiedPol .gga gga_k_thakkar := untiedPol_of (cap := 4) (by decide +kernel)
theorem gga_x_2d_b86_untiedPol : UntiedPol .gga gga_x_2d_b86 := untiedPol_of (cap := 4) (by decide +kernel)
theorem gga_x_2d_b86_mgc_untiedPol : UntiedPol .gga gga_x_2d_b86_mgc := untiedPol_of (cap := 4) (by decide +kernel)
theorem gga_x_2d_b88_untiedPol : UntiedPol .gga gga_x_2d_b88 := untiedPol_of (cap := 4) (by decide +kernel)
theorem gga_x_2d_pbe_untiedPol : UntiedPol .gga gga_x_2d_pbe := untiedPol_of (cap := 4) (by decide +kernel)
theorem gga_x_airy_untiedPol : UntiedPol .gga gga_x_airy := untiedPol_of (cap := 4) (by decide +kernel)
theorem gga_x_ak13_untiedPol : UntiedPol .gga gga_x_ak13 := untiedPol_of (cap := 4) (by decide +kernel)
theorem gga_x_b86_untiedPol : UntiedPol .gga gga_x_b86 := untiedPol_of (cap := 4) (by decide +kernel)
theorem gga_x_b88_untiedPol : UntiedPol .gga gga_x_b88 := untiedPol_of (cap := 4) (by decide +kernel)
theorem gga_x_bayesian_untiedPol : UntiedPol .gga gga_x_bayesian := untiedPol_of (cap := 4) (by decide +kernel)
theorem gga_x_beefvdw_untiedPol : UntiedPol .gga gga_x_beefvdw := untiedPol_of (cap := 4) (by decide +kernel)
theorem gga_x_bpccac_untiedPol : UntiedPol .gga gga_x_bpccac := untiedPol_of (cap := 4) (by decide +kernel)
theorem gga_x_c09x_untiedPol : UntiedPol .gga gga_x_c09x := untiedPol_of (cap := 4) (by decide +kernel)
theorem gga_x_cap_untiedPol : UntiedPol .gga gga_x_cap := untiedPol_of (cap := 4) (by decide +kernel)
theorem gga_x_chachiyo_untiedPol : UntiedPol .gga gga_x_chachiyo := untiedPol_of (cap := 4) (by decide +kernel)
theorem gga_x_dk87_untiedPol : UntiedPol .gga gga_x_dk87 := untiedPol_of (cap := 4) (by decide +kernel)
theorem gga_x_ev93_untiedPol : UntiedPol .gga gga_x_ev93 := untiedPol_of (cap := 4) (by decide +kernel)
theorem gga_x_ft97_untiedPol : UntiedPol .gga gga_x_ft97 := untiedPol_of (cap := 4) (by decide +kernel)
theorem gga_x_g96_untiedPol : UntiedPol .gga gga_x_g96 := untiedPol_of (cap := 4) (by decide +kernel)
theorem gga_x_hcth_a_untiedPol : UntiedPol .gga gga_x_hcth_a := untiedPol_of (cap := 4) (by decide +kernel)
theorem gga_x_herman_untiedPol : UntiedPol .gga gga_x_herman := untiedPol_of (cap := 4) (by decide +kernel)
theorem gga_x_kt_untiedPol : UntiedPol .gga gga_x_kt := untiedPol_of (cap := 4) (by decide +kernel)
theorem gga_x_lag_untiedPol : UntiedPol .gga gga_x_lag := untiedPol_of (cap := 4) (by decide +kernel)
theorem gga_x_lg93_untiedPol : UntiedPol .gga gga_x_lg93 := untiedPol_of (cap := 4) (by decide +kernel)
theorem gga_x_lspbe_untiedPol : UntiedPol .gga gga_x_lspbe := untiedPol_of (cap := 4) (by decide +kernel)
theorem gga_x_lsrpbe_untiedPol : UntiedPol .gga gga_x_lsrpbe := untiedPol_of (cap := 4) (by decide +kernel)
theorem gga_x_lv_rpw86_untiedPol : UntiedPol .gga gga_x_lv_rpw86 := untiedPol_of (cap := 4) (by decide +kernel)
theorem gga_x_mpbe_untiedPol : UntiedPol .gga gga_x_mpbe := untiedPol_of (cap := 4) (by decide +kernel)
theorem gga_x_n12_untiedPol : UntiedPol .gga gga_x_n12 := untiedPol_of (cap := 4) (by decide +kernel)
theorem gga_x_ncap_untiedPol : UntiedPol .gga gga_x_ncap := untiedPol_of (cap := 4) (by decide +kernel)
theorem gga_x_ol2_untiedPol : UntiedPol .gga gga_x_ol2 := untiedPol_of (cap := 4) (by decide +kernel)
theorem gga_x_optx_untiedPol : UntiedPol .gga gga_x_optx := untiedPol_of (cap := 4) (by decide +kernel)
theorem gga_x_pbe_untiedPol : UntiedPol .gga gga_x_pbe := untiedPol_of (cap := 4) (by decide +kernel)
theorem gga_x_pbea_untiedPol : UntiedPol .gga gga_x_pbea := untiedPol_of (cap := 4) (by decide +kernel)
theorem gga_x_pbepow_untiedPol : UntiedPol .gga gga_x_pbepow := untiedPol_of (cap := 4) (by decide +kernel)
theorem gga_x_pbetrans_untiedPol : UntiedPol .gga gga_x_pbetrans := untiedPol_of (cap := 4) (by decide +kernel)
theorem gga_x_pw86_untiedPol : UntiedPol .gga gga_x_pw86 := untiedPol_of (cap := 4) (by decide +kernel)
theorem gga_x_pw91_untiedPol : UntiedPol .gga gga_x_pw91 := untiedPol_of (cap := 4) (by decide +kernel)
theorem gga_x_q1d_untiedPol : UntiedPol .gga gga_x_q1d := untiedPol_of (cap := 4) (by decide +kernel)
theorem gga_x_q2d_untiedPol : UntiedPol .gga gga_x_q2d := untiedPol_of (cap := 4) (by decide +kernel)
theorem gga_x_rge2_untiedPol : UntiedPol .gga gga_x_rge2 := untiedPol_of (cap := 4) (by decide +kernel)
theorem gga_x_rpbe_untiedPol : UntiedPol .gga gga_x_rpbe := untiedPol_of (cap := 4) (by decide +kernel)
theorem gga_x_s12_untiedPol : UntiedPol .gga gga_x_s12 := untiedPol_of (cap := 4) (by decide +kernel)
theorem gga_x_sogga11_untiedPol : UntiedPol .gga gga_x_sogga11 := untiedPol_of (cap := 4) (by decide +kernel)
theorem gga_x_ssb_sw_untiedPol : UntiedPol .gga gga_x_ssb_sw := untiedPol_of (cap := 4) (by decide +kernel)
theorem gga_x_vmt_untiedPol : UntiedPol .gga gga_x_vmt := untiedPol_of (cap := 4) (by decide +kernel)
theorem gga_x_vmt84_untiedPol : UntiedPol .gga gga_x_vmt84 := untiedPol_of (cap := 4) (by decide +kernel)
theorem gga_x_wc_untiedPol : UntiedPol .gga gga_x_wc := untiedPol_of (cap := 4) (by decide +kernel)
theorem gga_xc_b97_untiedPol : UntiedPol .gga gga_xc_b97 := untiedPol_of (cap := 4) (by decide +kernel)
theorem gga_xc_th1_untiedPol : UntiedPol .gga gga_xc_th1 := untiedPol_of (cap := 4) (by decide +kernel)
theorem gga_xc_th2_untiedPol : UntiedPol .gga gga_xc_th2 := untiedPol_of (cap := 4) (by decide +kernel)
theorem gga_xc_th3_untiedPol : UntiedPol .gga gga_xc_th3 := untiedPol_of (cap := 4) (by decide +kernel)
theorem hyb_mgga_x_dldf_untiedPol : UntiedPol .mgga hyb_mgga_x_dldf := untiedPol_of (cap := 4) (by decide +kernel)
theorem hyb_mgga_x_m05_untiedPol : UntiedPol .mgga hyb_mgga_x_m05 := untiedPol_of (cap := 4) (by decide +kernel)
theorem lda_c_1d_csc_untiedPol : UntiedPol .lda lda_c_1d_csc := untiedPol_of (cap := 1) (by decide +kernel)
theorem lda_c_1d_loos_untiedPol : UntiedPol .lda lda_c_1d_loos := untiedPol_of (cap := 1) (by decide +kernel)
theorem lda_c_2d_prm_untiedPol : UntiedPol .lda lda_c_2d_prm := untiedPol_of (cap := 1) (by decide +kernel)
theorem lda_c_chachiyo_untiedPol : UntiedPol .lda lda_c_chachiyo := untiedPol_of (cap := 4) (by decide +kernel)
theorem lda_c_chachiyo_mod_untiedPol : UntiedPol .lda lda_c_chachiyo_mod := untiedPol_of (cap := 4) (by decide +kernel)
theorem lda_c_gombas_untiedPol : UntiedPol .lda lda_c_gombas := untiedPol_of (cap := 1) (by decide +kernel)
theorem lda_c_hl_untiedPol : UntiedPol .lda lda_c_hl := untiedPol_of (cap := 4) (by decide +kernel)
theorem lda_c_lp96_untiedPol : UntiedPol .lda lda_c_lp96 := untiedPol_of (cap := 1) (by decide +kernel)
theorem lda_c_pmgb06_untiedPol : UntiedPol .lda lda_c_pmgb06 := untiedPol_of (cap := 4) (by decide +kernel)
theorem lda_c_pw_untiedPol : UntiedPol .lda lda_c_pw := untiedPol_of (cap := 4) (by decide +kernel)
theorem lda_c_rc04_untiedPol : UntiedPol .lda lda_c_rc04 := untiedPol_of (cap := 4) (by decide +kernel)
theorem lda_c_rpa_untiedPol : UntiedPol .lda lda_c_rpa := untiedPol_of (cap := 1) (by decide +kernel)
theorem lda_c_vwn_untiedPol : UntiedPol .lda lda_c_vwn := untiedPol_of (cap := 4) (by decide +kernel)
theorem lda_c_vwn_1_untiedPol : UntiedPol .lda lda_c_vwn_1 := untiedPol_of (cap := 4) (by decide +kernel)
theorem lda_c_vwn_2_untiedPol : UntiedPol .lda lda_c_vwn_2 := untiedPol_of (cap := 4) (by decide +kernel)
theorem lda_c_vwn_4_untiedPol : UntiedPol .lda lda_c_vwn_4 := untiedPol_of (cap := 4) (by decide +kernel)
theorem lda_c_vwn_rpa_untiedPol : UntiedPol .lda lda_c_vwn_rpa := untiedPol_of (cap := 4) (by decide +kernel)
theorem lda_c_wigner_untiedPol : UntiedPol .lda lda_c_wigner := untiedPol_of (cap := 1) (by decide +kernel)
theorem lda_k_gds08_worker_untiedPol : UntiedPol .lda lda_k_gds08_worker := untiedPol_of (cap := 4) (by decide +kernel)
theorem lda_k_tf_untiedPol : UntiedPol .lda lda_k_tf := untiedPol_of (cap := 4) (by decide +kernel)
theorem lda_k_zlp_untiedPol : UntiedPol .lda lda_k_zlp := untiedPol_of (cap := 4) (by decide +kernel)
theorem lda_x_untiedPol : UntiedPol .lda lda_x := untiedPol_of (cap := 1) (by decide +kernel)
theorem lda_x_2d_untiedPol : UntiedPol .lda lda_x_2d := untiedPol_of (cap := 4) (by decide +kernel)
theorem lda_x_rel_untiedPol : UntiedPol .lda lda_x_rel := untiedPol_of (cap := 1) (by decide +kernel)
theorem lda_x_sloc_untiedPol : UntiedPol .lda lda_x_sloc := untiedPol_of (cap := 4) (by decide +kernel)
theorem lda_xc_1d_ehwlrg_untiedPol : UntiedPol .lda lda_xc_1d_ehwlrg := untiedPol_of (cap := 1) (by decide +kernel)
theorem lda_xc_tih_untiedPol : UntiedPol .lda lda_xc_tih := untiedPol_of (cap := 1) (by decide +kernel)
theorem lda_xc_zlp_untiedPol : UntiedPol .lda lda_xc_zlp := untiedPol_of (cap := 1) (by decide +kernel)
theorem mgga_c_b88_untiedPol : UntiedPol .mgga mgga_c_b88 := untiedPol_of (cap := 4) (by decide +kernel)
theorem mgga_c_bc95_untiedPol : UntiedPol .mgga mgga_c_bc95 := untiedPol_of (cap := 4) (by decide +kernel)
theorem mgga_c_cc_untiedPol : UntiedPol .mgga mgga_c_cc := untiedPol_of (cap := 4) (by decide +kernel)
theorem mgga_c_cs_untiedPol : UntiedPol .mgga mgga_c_cs := untiedPol_of (cap := 4) (by decide +kernel)
theorem mgga_c_m05_untiedPol : UntiedPol .mgga mgga_c_m05 := untiedPol_of (cap := 4) (by decide +kernel)
theorem mgga_k_gea2_untiedPol : UntiedPol .mgga mgga_k_gea2 := untiedPol_of (cap := 4) (by decide +kernel)
theorem mgga_k_gea4_untiedPol : UntiedPol .mgga mgga_k_gea4 := untiedPol_of (cap := 4) (by decide +kernel)
theorem mgga_k_pgslb_untiedPol : UntiedPol .mgga mgga_k_pgslb := untiedPol_of (cap := 4) (by decide +kernel)
theorem mgga_x_2d_js17_untiedPol : UntiedPol .mgga mgga_x_2d_js17 := untiedPol_of (cap := 4) (by decide +kernel)
theorem mgga_x_gdme_untiedPol : UntiedPol .mgga mgga_x_gdme := untiedPol_of (cap := 4) (by decide +kernel)
theorem mgga_x_gvt4_untiedPol : UntiedPol .mgga mgga_x_gvt4 := untiedPol_of (cap := 4) (by decide +kernel)
theorem mgga_x_lta_untiedPol : UntiedPol .mgga mgga_x_lta := untiedPol_of (cap := 4) (by decide +kernel)
theorem mgga_x_m06l_untiedPol : UntiedPol .mgga mgga_x_m06l := untiedPol_of (cap := 4) (by decide +kernel)
theorem mgga_x_m08_untiedPol : UntiedPol .mgga mgga_x_m08 := untiedPol_of (cap := 4) (by decide +kernel)
theorem mgga_x_mn12_untiedPol : UntiedPol .mgga mgga_x_mn12 := untiedPol_of (cap := 4) (by decide +kernel)
theorem mgga_x_mvs_untiedPol : UntiedPol .mgga mgga_x_mvs := untiedPol_of (cap := 4) (by decide +kernel)
theorem mgga_x_tau_hcth_untiedPol : UntiedPol .mgga mgga_x_tau_hcth := untiedPol_of (cap := 4) (by decide +kernel)
theorem mgga_x_th_untiedPol : UntiedPol .mgga mgga_x_th := untiedPol_of (cap := 4) (by decide +kernel)
theorem mgga_xc_b97mv_untiedPol : UntiedPol .mgga mgga_xc_b97mv := untiedPol_of (cap := 4) (by decide +kernel)
theorem mgga_xc_b98_untiedPol : UntiedPol .mgga mgga_xc_b98 := untiedPol_of (cap := 4) (by decide +kernel)
theorem gga_c_acgga_untiedPol : UntiedPol .gga gga_c_acgga := untiedPol_of (cap := 4) (by decide +kernel)
theorem gga_c_acggap_untiedPol : UntiedPol .gga gga_c_acggap := untiedPol_of (cap := 4) (by decide +kernel)
theorem gga_c_pbe_untiedPol : UntiedPol .gga gga_c_pbe := untiedPol_of (cap := 4) (by decide +kernel)
theorem gga_c_pbeloc_untiedPol : UntiedPol .gga gga_c_pbeloc := untiedPol_of (cap := 4) (by decide +kernel)
theorem gga_c_pw91_untiedPol : UntiedPol .gga gga_c_pw91 := untiedPol_of (cap := 4) (by decide +kernel)
theorem gga_c_regtpss_untiedPol : UntiedPol .gga gga_c_regtpss := untiedPol_of (cap := 4) (by decide +kernel)
theorem gga_c_scan_e0_untiedPol : UntiedPol .gga gga_c_scan_e0 := untiedPol_of (cap := 4) (by decide +kernel)
theorem gga_c_sg4_untiedPol : UntiedPol .gga gga_c_sg4 := untiedPol_of (cap := 4) (by decide +kernel)
theorem gga_c_sogga11_untiedPol : UntiedPol .gga gga_c_sogga11 := untiedPol_of (cap := 4) (by decide +kernel)
theorem gga_c_zpbeint_untiedPol : UntiedPol .gga gga_c_zpbeint := untiedPol_of (cap := 4) (by decide +kernel)
theorem gga_k_apbeint_untiedPol : UntiedPol .gga gga_k_apbeint := untiedPol_of (cap := 4) (by decide +kernel)
theorem gga_x_pbeint_untiedPol : UntiedPol .gga gga_x_pbeint := untiedPol_of (cap := 4) (by decide +kernel)
theorem mgga_c_m06l_untiedPol : UntiedPol .mgga mgga_c_m06l := untiedPol_of (cap := 4) (by decide +kernel)
theorem mgga_c_m08_untiedPol : UntiedPol .mgga mgga_c_m08 := untiedPol_of (cap := 4) (by decide +kernel)
theorem mgga_c_vsxc_untiedPol : UntiedPol .mgga mgga_c_vsxc := untiedPol_of (cap := 4) (by decide +kernel)
theorem mgga_x_ms_untiedPol : UntiedPol .mgga mgga_x_ms := untiedPol_of (cap := 4) (by decide +kernel)
theorem mgga_x_msb_untiedPol : UntiedPol .mgga mgga_x_msb := untiedPol_of (cap := 4) (by decide +kernel)
theorem mgga_x_pkzb_untiedPol : UntiedPol .mgga mgga_x_pkzb := untiedPol_of (cap := 4) (by decide +kernel)
theorem mgga_x_regtpss_untiedPol : UntiedPol .mgga mgga_x_regtpss := untiedPol_of (cap := 4) (by decide +kernel)
theorem mgga_x_rtpss_untiedPol : UntiedPol .mgga mgga_x_rtpss := untiedPol_of (cap := 4) (by decide +kernel)
theorem mgga_x_tpss_untiedPol : UntiedPol .mgga mgga_x_tpss := untiedPol_of (cap := 4) (by decide +kernel)
theorem mgga_x_vt84_untiedPol : UntiedPol .mgga mgga_x_vt84 := untiedPol_of (cap := 4) (by decide +kernel)

end Verif.Props
