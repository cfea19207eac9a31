import Verif.Norm.Untied
import Verif.Data.All
/-!
# C63: formulas whose only comparisons are those with the thresholds, unpolarized code
-/
set_option Elab.async false
set_option maxRecDepth 100000
namespace Verif.Props
open Verif.Py Verif.Model Verif.Spec Verif.Norm Verif.Data

theorem gga_c_acgga_untiedUnpol : UntiedUnpol .gga gga_c_acgga := untiedUnpol_of (cap := 1) (by decide +kernel) (by decide +kernel)
theorem gga_c_acggap_untiedUnpol : UntiedUnpol .gga gga_c_acggap := untiedUnpol_of (cap := 1) (by decide +kernel) (by decide +kernel)
theorem gga_c_am05_untiedUnpol : UntiedUnpol .gga gga_c_am05 := untiedUnpol_of (cap := 1) (by decide +kernel) (by decide +kernel)
theorem gga_c_bmk_untiedUnpol : UntiedUnpol .gga gga_c_bmk := untiedUnpol_of (cap := 1) (by decide +kernel) (by decide +kernel)
theorem gga_c_ccdf_untiedUnpol : UntiedUnpol .gga gga_c_ccdf := untiedUnpol_of (cap := 1) (by decide +kernel) (by decide +kernel)
theorem gga_c_chachiyo_untiedUnpol : UntiedUnpol .gga gga_c_chachiyo := untiedUnpol_of (cap := 1) (by decide +kernel) (by decide +kernel)
theorem gga_c_cs1_untiedUnpol : UntiedUnpol .gga gga_c_cs1 := untiedUnpol_of (cap := 1) (by decide +kernel) (by decide +kernel)
theorem gga_c_hcth_a_untiedUnpol : UntiedUnpol .gga gga_c_hcth_a := untiedUnpol_of (cap := 1) (by decide +kernel) (by decide +kernel)
theorem gga_c_lm_untiedUnpol : UntiedUnpol .gga gga_c_lm := untiedUnpol_of (cap := 1) (by decide +kernel) (by decide +kernel)
theorem gga_c_lyp_untiedUnpol : UntiedUnpol .gga gga_c_lyp := untiedUnpol_of (cap := 1) (by decide +kernel) (by decide +kernel)
theorem gga_c_lypr_untiedUnpol : UntiedUnpol .gga gga_c_lypr := untiedUnpol_of (cap := 1) (by decide +kernel) (by decide +kernel)
theorem gga_c_p86vwn_untiedUnpol : UntiedUnpol .gga gga_c_p86vwn := untiedUnpol_of (cap := 1) (by decide +kernel) (by decide +kernel)
theorem gga_c_pbe_untiedUnpol : UntiedUnpol .gga gga_c_pbe := untiedUnpol_of (cap := 1) (by decide +kernel) (by decide +kernel)
theorem gga_c_pbeloc_untiedUnpol : UntiedUnpol .gga gga_c_pbeloc := untiedUnpol_of (cap := 1) (by decide +kernel) (by decide +kernel)
theorem gga_c_pw91_untiedUnpol : UntiedUnpol .gga gga_c_pw91 := untiedUnpol_of (cap := 1) (by decide +kernel) (by decide +kernel)
theorem gga_c_regtpss_untiedUnpol : UntiedUnpol .gga gga_c_regtpss := untiedUnpol_of (cap := 1) (by decide +kernel) (by decide +kernel)
theorem gga_c_revtca_untiedUnpol : UntiedUnpol .gga gga_c_revtca := untiedUnpol_of (cap := 1) (by decide +kernel) (by decide +kernel)
theorem gga_c_scan_e0_untiedUnpol : UntiedUnpol .gga gga_c_scan_e0 := untiedUnpol_of (cap := 1) (by decide +kernel) (by decide +kernel)
theorem gga_c_sg4_untiedUnpol : UntiedUnpol .gga gga_c_sg4 := untiedUnpol_of (cap := 1) (by decide +kernel) (by decide +kernel)
theorem gga_c_sogga11_untiedUnpol : UntiedUnpol .gga gga_c_sogga11 := untiedUnpol_of (cap := 1) (by decide +kernel) (by decide +kernel)
theorem gga_c_tca_untiedUnpol : UntiedUnpol .gga gga_c_tca := untiedUnpol_of (cap := 1) (by decide +kernel) (by decide +kernel)
theorem gga_c_w94_untiedUnpol : UntiedUnpol .gga gga_c_w94 := untiedUnpol_of (cap := 1) (by decide +kernel) (by decide +kernel)
theorem gga_c_wi_untiedUnpol : UntiedUnpol .gga gga_c_wi := untiedUnpol_of (cap := 1) (by decide +kernel) (by decide +kernel)
theorem gga_c_wl_untiedUnpol : UntiedUnpol .gga gga_c_wl := untiedUnpol_of (cap := 1) (by decide +kernel) (by decide +kernel)
theorem gga_c_zpbeint_untiedUnpol : UntiedUnpol .gga gga_c_zpbeint := untiedUnpol_of (cap := 1) (by decide +kernel) (by decide +kernel)
theorem gga_c_zvpbeint_untiedUnpol : UntiedUnpol .gga gga_c_zvpbeint := untiedUnpol_of (cap := 1) (by decide +kernel) (by decide +kernel)
theorem gga_c_zvpbeloc_untiedUnpol : UntiedUnpol .gga gga_c_zvpbeloc := untiedUnpol_of (cap := 1) (by decide +kernel) (by decide +kernel)
theorem gga_k_apbe_untiedUnpol : UntiedUnpol .gga gga_k_apbe := untiedUnpol_of (cap := 1) (by decide +kernel) (by decide +kernel)
theorem gga_k_dk_untiedUnpol : UntiedUnpol .gga gga_k_dk := untiedUnpol_of (cap := 1) (by decide +kernel) (by decide +kernel)
theorem gga_k_exp4_untiedUnpol : UntiedUnpol .gga gga_k_exp4 := untiedUnpol_of (cap := 1) (by decide +kernel) (by decide +kernel)
theorem gga_k_lc94_untiedUnpol : UntiedUnpol .gga gga_k_lc94 := untiedUnpol_of (cap := 1) (by decide +kernel) (by decide +kernel)
theorem gga_k_lgap_untiedUnpol : UntiedUnpol .gga gga_k_lgap := untiedUnpol_of (cap := 1) (by decide +kernel) (by decide +kernel)
theorem gga_k_lgap_ge_untiedUnpol : UntiedUnpol .gga gga_k_lgap_ge := untiedUnpol_of (cap := 1) (by decide +kernel) (by decide +kernel)
theorem gga_k_llp_untiedUnpol : UntiedUnpol .gga gga_k_llp := untiedUnpol_of (cap := 1) (by decide +kernel) (by decide +kernel)
theorem gga_k_mpbe_untiedUnpol : UntiedUnpol .gga gga_k_mpbe := untiedUnpol_of (cap := 1) (by decide +kernel) (by decide +kernel)
theorem gga_k_ol1_untiedUnpol : UntiedUnpol .gga gga_k_ol1 := untiedUnpol_of (cap := 1) (by decide +kernel) (by decide +kernel)
theorem gga_k_ol2_untiedUnpol : UntiedUnpol .gga gga_k_ol2 := untiedUnpol_of (cap := 1) (by decide +kernel) (by decide +kernel)
theorem gga_k_pearson_untiedUnpol : UntiedUnpol .gga gga_k_pearson := untiedUnpol_of (cap := 1) (by decide +kernel) (by decide +kernel)
theorem gga_k_pg_untiedUnpol : UntiedUnpol .gga gga_k_pg := untiedUnpol_of (cap := 1) (by decide +kernel) (by decide +kernel)
theorem gga_k_pw86_untiedUnpol : UntiedUnpol .gga gga_k_pw86 := untiedUnpol_of (cap := 1) (by decide +kernel) (by decide +kernel)
theorem gga_k_rational_p_untiedUnpol : UntiedUnpol .gga gga_k_rational_p := untiedUnpol_of (cap := 1) (by decide +kernel) (by decide +kernel)
theorem gga_k_tflw_untiedUnpol : UntiedUnpol .gga gga_k_tflw := untiedUnpol_of (cap := 1) (by decide +kernel) (by decide +kernel)
theorem gga_k_thakkar_untiedUnpol : UntiedUnpol .gga gga_k_thakkar := untiedUnpol_of (cap := 1) (by decide +kernel) (by decide +kernel)
theorem gga_x_2d_b86_untiedUnpol : UntiedUnpol .gga gga_x_2d_b86 := untiedUnpol_of (cap := 1) (by decide +kernel) (by decide +kernel)
theorem gga_x_2d_b86_mgc_untiedUnpol : UntiedUnpol .gga gga_x_2d_b86_mgc := untiedUnpol_of (cap := 1) (by decide +kernel) (by decide +kernel)
theorem gga_x_2d_b88_untiedUnpol : UntiedUnpol .gga gga_x_2d_b88 := untiedUnpol_of (cap := 1) (by decide +kernel) (by decide +kernel)
theorem gga_x_2d_pbe_untiedUnpol : UntiedUnpol .gga gga_x_2d_pbe := untiedUnpol_of (cap := 1) (by decide +kernel) (by decide +kernel)
theorem gga_x_airy_untiedUnpol : UntiedUnpol .gga gga_x_airy := untiedUnpol_of (cap := 1) (by decide +kernel) (by decide +kernel)
theorem gga_x_ak13_untiedUnpol : UntiedUnpol .gga gga_x_ak13 := untiedUnpol_of (cap := 1) (by decide +kernel) (by decide +kernel)
theorem gga_x_b86_untiedUnpol : UntiedUnpol .gga gga_x_b86 := untiedUnpol_of (cap := 1) (by decide +kernel) (by decide +kernel)
theorem gga_x_b88_untiedUnpol : UntiedUnpol .gga gga_x_b88 := untiedUnpol_of (cap := 1) (by decide +kernel) (by decide +kernel)
theorem gga_x_bayesian_untiedUnpol : UntiedUnpol .gga gga_x_bayesian := untiedUnpol_of (cap := 1) (by decide +kernel) (by decide +kernel)
theorem gga_x_beefvdw_untiedUnpol : UntiedUnpol .gga gga_x_beefvdw := untiedUnpol_of (cap := 1) (by decide +kernel) (by decide +kernel)
theorem gga_x_bpccac_untiedUnpol : UntiedUnpol .gga gga_x_bpccac := untiedUnpol_of (cap := 1) (by decide +kernel) (by decide +kernel)
theorem gga_x_c09x_untiedUnpol : UntiedUnpol .gga gga_x_c09x := untiedUnpol_of (cap := 1) (by decide +kernel) (by decide +kernel)
theorem gga_x_cap_untiedUnpol : UntiedUnpol .gga gga_x_cap := untiedUnpol_of (cap := 1) (by decide +kernel) (by decide +kernel)
theorem gga_x_chachiyo_untiedUnpol : UntiedUnpol .gga gga_x_chachiyo := untiedUnpol_of (cap := 1) (by decide +kernel) (by decide +kernel)
theorem gga_x_dk87_untiedUnpol : UntiedUnpol .gga gga_x_dk87 := untiedUnpol_of (cap := 1) (by decide +kernel) (by decide +kernel)
theorem gga_x_ev93_untiedUnpol : UntiedUnpol .gga gga_x_ev93 := untiedUnpol_of (cap := 1) (by decide +kernel) (by decide +kernel)
theorem gga_x_ft97_untiedUnpol : UntiedUnpol .gga gga_x_ft97 := untiedUnpol_of (cap := 1) (by decide +kernel) (by decide +kernel)
theorem gga_x_g96_untiedUnpol : UntiedUnpol .gga gga_x_g96 := untiedUnpol_of (cap := 1) (by decide +kernel) (by decide +kernel)
theorem gga_x_hcth_a_untiedUnpol : UntiedUnpol .gga gga_x_hcth_a := untiedUnpol_of (cap := 1) (by decide +kernel) (by decide +kernel)
theorem gga_x_herman_untiedUnpol : UntiedUnpol .gga gga_x_herman := untiedUnpol_of (cap := 1) (by decide +kernel) (by decide +kernel)
theorem gga_x_kt_untiedUnpol : UntiedUnpol .gga gga_x_kt := untiedUnpol_of (cap := 1) (by decide +kernel) (by decide +kernel)
theorem gga_x_lag_untiedUnpol : UntiedUnpol .gga gga_x_lag := untiedUnpol_of (cap := 1) (by decide +kernel) (by decide +kernel)
theorem gga_x_lg93_untiedUnpol : UntiedUnpol .gga gga_x_lg93 := untiedUnpol_of (cap := 1) (by decide +kernel) (by decide +kernel)
theorem gga_x_lspbe_untiedUnpol : UntiedUnpol .gga gga_x_lspbe := untiedUnpol_of (cap := 1) (by decide +kernel) (by decide +kernel)
theorem gga_x_lsrpbe_untiedUnpol : UntiedUnpol .gga gga_x_lsrpbe := untiedUnpol_of (cap := 1) (by decide +kernel) (by decide +kernel)
theorem gga_x_lv_rpw86_untiedUnpol : UntiedUnpol .gga gga_x_lv_rpw86 := untiedUnpol_of (cap := 1) (by decide +kernel) (by decide +kernel)
theorem gga_x_mpbe_untiedUnpol : UntiedUnpol .gga gga_x_mpbe := untiedUnpol_of (cap := 1) (by decide +kernel) (by decide +kernel)
theorem gga_x_n12_untiedUnpol : UntiedUnpol .gga gga_x_n12 := untiedUnpol_of (cap := 1) (by decide +kernel) (by decide +kernel)
theorem gga_x_ncap_untiedUnpol : UntiedUnpol .gga gga_x_ncap := untiedUnpol_of (cap := 1) (by decide +kernel) (by decide +kernel)
theorem gga_x_ol2_untiedUnpol : UntiedUnpol .gga gga_x_ol2 := untiedUnpol_of (cap := 1) (by decide +kernel) (by decide +kernel)
theorem gga_x_optx_untiedUnpol : UntiedUnpol .gga gga_x_optx := untiedUnpol_of (cap := 1) (by decide +kernel) (by decide +kernel)
theorem gga_x_pbe_untiedUnpol : UntiedUnpol .gga gga_x_pbe := untiedUnpol_of (cap := 1) (by decide +kernel) (by decide +kernel)
theorem gga_x_pbea_untiedUnpol : UntiedUnpol .gga gga_x_pbea := untiedUnpol_of (cap := 1) (by decide +kernel) (by decide +kernel)
theorem gga_x_pbepow_untiedUnpol : UntiedUnpol .gga gga_x_pbepow := untiedUnpol_of (cap := 1) (by decide +kernel) (by decide +kernel)
theorem gga_x_pbetrans_untiedUnpol : UntiedUnpol .gga gga_x_pbetrans := untiedUnpol_of (cap := 1) (by decide +kernel) (by decide +kernel)
theorem gga_x_pw86_untiedUnpol : UntiedUnpol .gga gga_x_pw86 := untiedUnpol_of (cap := 1) (by decide +kernel) (by decide +kernel)
theorem gga_x_pw91_untiedUnpol : UntiedUnpol .gga gga_x_pw91 := untiedUnpol_of (cap := 1) (by decide +kernel) (by decide +kernel)
theorem gga_x_q1d_untiedUnpol : UntiedUnpol .gga gga_x_q1d := untiedUnpol_of (cap := 1) (by decide +kernel) (by decide +kernel)
theorem gga_x_q2d_untiedUnpol : UntiedUnpol .gga gga_x_q2d := untiedUnpol_of (cap := 1) (by decide +kernel) (by decide +kernel)
theorem gga_x_rge2_untiedUnpol : UntiedUnpol .gga gga_x_rge2 := untiedUnpol_of (cap := 1) (by decide +kernel) (by decide +kernel)
theorem gga_x_rpbe_untiedUnpol : UntiedUnpol .gga gga_x_rpbe := untiedUnpol_of (cap := 1) (by decide +kernel) (by decide +kernel)
theorem gga_x_s12_untiedUnpol : UntiedUnpol .gga gga_x_s12 := untiedUnpol_of (cap := 1) (by decide +kernel) (by decide +kernel)
theorem gga_x_sogga11_untiedUnpol : UntiedUnpol .gga gga_x_sogga11 := untiedUnpol_of (cap := 1) (by decide +kernel) (by decide +kernel)
theorem gga_x_ssb_sw_untiedUnpol : UntiedUnpol .gga gga_x_ssb_sw := untiedUnpol_of (cap := 1) (by decide +kernel) (by decide +kernel)
theorem gga_x_vmt_untiedUnpol : UntiedUnpol .gga gga_x_vmt := untiedUnpol_of (cap := 1) (by decide +kernel) (by decide +kernel)
theorem gga_x_vmt84_untiedUnpol : UntiedUnpol .gga gga_x_vmt84 := untiedUnpol_of (cap := 1) (by decide +kernel) (by decide +kernel)
theorem gga_x_wc_untiedUnpol : UntiedUnpol .gga gga_x_wc := untiedUnpol_of (cap := 1) (by decide +kernel) (by decide +kernel)
theorem gga_xc_b97_untiedUnpol : UntiedUnpol .gga gga_xc_b97 := untiedUnpol_of (cap := 1) (by decide +kernel) (by decide +kernel)
theorem gga_xc_th1_untiedUnpol : UntiedUnpol .gga gga_xc_th1 := untiedUnpol_of (cap := 1) (by decide +kernel) (by decide +kernel)
theorem gga_xc_th2_untiedUnpol : UntiedUnpol .gga gga_xc_th2 := untiedUnpol_of (cap := 1) (by decide +kernel) (by decide +kernel)
theorem gga_xc_th3_untiedUnpol : UntiedUnpol .gga gga_xc_th3 := untiedUnpol_of (cap := 1) (by decide +kernel) (by decide +kernel)
theorem hyb_mgga_x_dldf_untiedUnpol : UntiedUnpol .mgga hyb_mgga_x_dldf := untiedUnpol_of (cap := 1) (by decide +kernel) (by decide +kernel)
theorem hyb_mgga_x_m05_untiedUnpol : UntiedUnpol .mgga hyb_mgga_x_m05 := untiedUnpol_of (cap := 1) (by decide +kernel) (by decide +kernel)
theorem lda_c_1d_csc_untiedUnpol : UntiedUnpol .lda lda_c_1d_csc := untiedUnpol_of (cap := 1) (by decide +kernel) (by decide +kernel)
theorem lda_c_1d_loos_untiedUnpol : UntiedUnpol .lda lda_c_1d_loos := untiedUnpol_of (cap := 1) (by decide +kernel) (by decide +kernel)
theorem lda_c_2d_prm_untiedUnpol : UntiedUnpol .lda lda_c_2d_prm := untiedUnpol_of (cap := 1) (by decide +kernel) (by decide +kernel)
theorem lda_c_chachiyo_untiedUnpol : UntiedUnpol .lda lda_c_chachiyo := untiedUnpol_of (cap := 1) (by decide +kernel) (by decide +kernel)
theorem lda_c_chachiyo_mod_untiedUnpol : UntiedUnpol .lda lda_c_chachiyo_mod := untiedUnpol_of (cap := 1) (by decide +kernel) (by decide +kernel)
theorem lda_c_gombas_untiedUnpol : UntiedUnpol .lda lda_c_gombas := untiedUnpol_of (cap := 1) (by decide +kernel) (by decide +kernel)
theorem lda_c_hl_untiedUnpol : UntiedUnpol .lda lda_c_hl := untiedUnpol_of (cap := 1) (by decide +kernel) (by decide +kernel)
theorem lda_c_lp96_untiedUnpol : UntiedUnpol .lda lda_c_lp96 := untiedUnpol_of (cap := 1) (by decide +kernel) (by decide +kernel)
theorem lda_c_ml1_untiedUnpol : UntiedUnpol .lda lda_c_ml1 := untiedUnpol_of (cap := 1) (by decide +kernel) (by decide +kernel)
theorem lda_c_pmgb06_untiedUnpol : UntiedUnpol .lda lda_c_pmgb06 := untiedUnpol_of (cap := 1) (by decide +kernel) (by decide +kernel)
theorem lda_c_pw_untiedUnpol : UntiedUnpol .lda lda_c_pw := untiedUnpol_of (cap := 1) (by decide +kernel) (by decide +kernel)
theorem lda_c_rc04_untiedUnpol : UntiedUnpol .lda lda_c_rc04 := untiedUnpol_of (cap := 1) (by decide +kernel) (by decide +kernel)
theorem lda_c_rpa_untiedUnpol : UntiedUnpol .lda lda_c_rpa := untiedUnpol_of (cap := 1) (by decide +kernel) (by decide +kernel)
theorem lda_c_vwn_untiedUnpol : UntiedUnpol .lda lda_c_vwn := untiedUnpol_of (cap := 1) (by decide +kernel) (by decide +kernel)
theorem lda_c_vwn_1_untiedUnpol : UntiedUnpol .lda lda_c_vwn_1 := untiedUnpol_of (cap := 1) (by decide +kernel) (by decide +kernel)
theorem lda_c_vwn_2_untiedUnpol : UntiedUnpol .lda lda_c_vwn_2 := untiedUnpol_of (cap := 1) (by decide +kernel) (by decide +kernel)
theorem lda_c_vwn_4_untiedUnpol : UntiedUnpol .lda lda_c_vwn_4 := untiedUnpol_of (cap := 1) (by decide +kernel) (by decide +kernel)
theorem lda_c_vwn_rpa_untiedUnpol : UntiedUnpol .lda lda_c_vwn_rpa := untiedUnpol_of (cap := 1) (by decide +kernel) (by decide +kernel)
theorem lda_c_wigner_untiedUnpol : UntiedUnpol .lda lda_c_wigner := untiedUnpol_of (cap := 1) (by decide +kernel) (by decide +kernel)
theorem lda_k_gds08_worker_untiedUnpol : UntiedUnpol .lda lda_k_gds08_worker := untiedUnpol_of (cap := 1) (by decide +kernel) (by decide +kernel)
theorem lda_k_tf_untiedUnpol : UntiedUnpol .lda lda_k_tf := untiedUnpol_of (cap := 1) (by decide +kernel) (by decide +kernel)
theorem lda_k_zlp_untiedUnpol : UntiedUnpol .lda lda_k_zlp := untiedUnpol_of (cap := 1) (by decide +kernel) (by decide +kernel)
theorem lda_x_untiedUnpol : UntiedUnpol .lda lda_x := untiedUnpol_of (cap := 1) (by decide +kernel) (by decide +kernel)
theorem lda_x_2d_untiedUnpol : UntiedUnpol .lda lda_x_2d := untiedUnpol_of (cap := 1) (by decide +kernel) (by decide +kernel)
theorem lda_x_rel_untiedUnpol : UntiedUnpol .lda lda_x_rel := untiedUnpol_of (cap := 1) (by decide +kernel) (by decide +kernel)
theorem lda_x_sloc_untiedUnpol : UntiedUnpol .lda lda_x_sloc := untiedUnpol_of (cap := 1) (by decide +kernel) (by decide +kernel)
theorem lda_xc_1d_ehwlrg_untiedUnpol : UntiedUnpol .lda lda_xc_1d_ehwlrg := untiedUnpol_of (cap := 1) (by decide +kernel) (by decide +kernel)
theorem lda_xc_teter93_untiedUnpol : UntiedUnpol .lda lda_xc_teter93 := untiedUnpol_of (cap := 1) (by decide +kernel) (by decide +kernel)
theorem lda_xc_tih_untiedUnpol : UntiedUnpol .lda lda_xc_tih := untiedUnpol_of (cap := 1) (by decide +kernel) (by decide +kernel)
theorem lda_xc_zlp_untiedUnpol : UntiedUnpol .lda lda_xc_zlp := untiedUnpol_of (cap := 1) (by decide +kernel) (by decide +kernel)
theorem mgga_c_b88_untiedUnpol : UntiedUnpol .mgga mgga_c_b88 := untiedUnpol_of (cap := 1) (by decide +kernel) (by decide +kernel)
theorem mgga_c_bc95_untiedUnpol : UntiedUnpol .mgga mgga_c_bc95 := untiedUnpol_of (cap := 1) (by decide +kernel) (by decide +kernel)
theorem mgga_c_cc_untiedUnpol : UntiedUnpol .mgga mgga_c_cc := untiedUnpol_of (cap := 1) (by decide +kernel) (by decide +kernel)
theorem mgga_c_cs_untiedUnpol : UntiedUnpol .mgga mgga_c_cs := untiedUnpol_of (cap := 1) (by decide +kernel) (by decide +kernel)
theorem mgga_c_ltapw_untiedUnpol : UntiedUnpol .mgga mgga_c_ltapw := untiedUnpol_of (cap := 1) (by decide +kernel) (by decide +kernel)
theorem mgga_c_m05_untiedUnpol : UntiedUnpol .mgga mgga_c_m05 := untiedUnpol_of (cap := 1) (by decide +kernel) (by decide +kernel)
theorem mgga_c_m08_untiedUnpol : UntiedUnpol .mgga mgga_c_m08 := untiedUnpol_of (cap := 1) (by decide +kernel) (by decide +kernel)
theorem mgga_k_gea2_untiedUnpol : UntiedUnpol .mgga mgga_k_gea2 := untiedUnpol_of (cap := 1) (by decide +kernel) (by decide +kernel)
theorem mgga_k_gea4_untiedUnpol : UntiedUnpol .mgga mgga_k_gea4 := untiedUnpol_of (cap := 1) (by decide +kernel) (by decide +kernel)
theorem mgga_k_pgslb_untiedUnpol : UntiedUnpol .mgga mgga_k_pgslb := untiedUnpol_of (cap := 1) (by decide +kernel) (by decide +kernel)
theorem mgga_x_2d_js17_untiedUnpol : UntiedUnpol .mgga mgga_x_2d_js17 := untiedUnpol_of (cap := 1) (by decide +kernel) (by decide +kernel)
theorem mgga_x_gdme_untiedUnpol : UntiedUnpol .mgga mgga_x_gdme := untiedUnpol_of (cap := 1) (by decide +kernel) (by decide +kernel)
theorem mgga_x_gvt4_untiedUnpol : UntiedUnpol .mgga mgga_x_gvt4 := untiedUnpol_of (cap := 1) (by decide +kernel) (by decide +kernel)
theorem mgga_x_lta_untiedUnpol : UntiedUnpol .mgga mgga_x_lta := untiedUnpol_of (cap := 1) (by decide +kernel) (by decide +kernel)
theorem mgga_x_m06l_untiedUnpol : UntiedUnpol .mgga mgga_x_m06l := untiedUnpol_of (cap := 1) (by decide +kernel) (by decide +kernel)
theorem mgga_x_m08_untiedUnpol : UntiedUnpol .mgga mgga_x_m08 := untiedUnpol_of (cap := 1) (by decide +kernel) (by decide +kernel)
theorem mgga_x_mn12_untiedUnpol : UntiedUnpol .mgga mgga_x_mn12 := untiedUnpol_of (cap := 1) (by decide +kernel) (by decide +kernel)
theorem mgga_x_mvs_untiedUnpol : UntiedUnpol .mgga mgga_x_mvs := untiedUnpol_of (cap := 1) (by decide +kernel) (by decide +kernel)
theorem mgga_x_tau_hcth_untiedUnpol : UntiedUnpol .mgga mgga_x_tau_hcth := untiedUnpol_of (cap := 1) (by decide +kernel) (by decide +kernel)
theorem mgga_x_th_untiedUnpol : UntiedUnpol .mgga mgga_x_th := untiedUnpol_of (cap := 1) (by decide +kernel) (by decide +kernel)
theorem mgga_xc_b97mv_untiedUnpol : UntiedUnpol .mgga mgga_xc_b97mv := untiedUnpol_of (cap := 1) (by decide +kernel) (by decide +kernel)
theorem mgga_xc_b98_untiedUnpol : UntiedUnpol .mgga mgga_xc_b98 := untiedUnpol_of (cap := 1) (by decide +kernel) (by decide +kernel)
theorem mgga_xc_lp90_untiedUnpol : UntiedUnpol .mgga mgga_xc_lp90 := untiedUnpol_of (cap := 1) (by decide +kernel) (by decide +kernel)
theorem mgga_xc_zlp_untiedUnpol : UntiedUnpol .mgga mgga_xc_zlp := untiedUnpol_of (cap := 1) (by decide +kernel) (by decide +kernel)
theorem gga_k_apbeint_untiedUnpol : UntiedUnpol .gga gga_k_apbeint := untiedUnpol_of (cap := 1) (by decide +kernel) (by decide +kernel)
theorem gga_x_pbeint_untiedUnpol : UntiedUnpol .gga gga_x_pbeint := untiedUnpol_of (cap := 1) (by decide +kernel) (by decide +kernel)
theorem lda_c_2d_amgb_untiedUnpol : UntiedUnpol .lda lda_c_2d_amgb := untiedUnpol_of (cap := 1) (by decide +kernel) (by decide +kernel)
theorem mgga_c_m06l_untiedUnpol : UntiedUnpol .mgga mgga_c_m06l := untiedUnpol_of (cap := 1) (by decide +kernel) (by decide +kernel)
theorem mgga_c_pkzb_untiedUnpol : UntiedUnpol .mgga mgga_c_pkzb := untiedUnpol_of (cap := 1) (by decide +kernel) (by decide +kernel)
theorem mgga_c_vsxc_untiedUnpol : UntiedUnpol .mgga mgga_c_vsxc := untiedUnpol_of (cap := 1) (by decide +kernel) (by decide +kernel)
theorem mgga_x_ms_untiedUnpol : UntiedUnpol .mgga mgga_x_ms := untiedUnpol_of (cap := 1) (by decide +kernel) (by decide +kernel)
theorem mgga_x_msb_untiedUnpol : UntiedUnpol .mgga mgga_x_msb := untiedUnpol_of (cap := 1) (by decide +kernel) (by decide +kernel)
theorem mgga_x_pkzb_untiedUnpol : UntiedUnpol .mgga mgga_x_pkzb := untiedUnpol_of (cap := 1) (by decide +kernel) (by decide +kernel)
theorem mgga_x_regtpss_untiedUnpol : UntiedUnpol .mgga mgga_x_regtpss := untiedUnpol_of (cap := 1) (by decide +kernel) (by decide +kernel)
theorem mgga_x_rtpss_untiedUnpol : UntiedUnpol .mgga mgga_x_rtpss := untiedUnpol_of (cap := 1) (by decide +kernel) (by decide +kernel)
theorem mgga_x_tpss_untiedUnpol : UntiedUnpol .mgga mgga_x_tpss := untiedUnpol_of (cap := 1) (by decide +kernel) (by decide +kernel)
theorem mgga_x_vt84_untiedUnpol : UntiedUnpol .mgga mgga_x_vt84 := untiedUnpol_of (cap := 1) (by decide +kernel) (by decide +kernel)

end Verif.Props
