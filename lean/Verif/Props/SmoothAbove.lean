import Verif.Props.Regular
import Verif.Props.Untied1
import Verif.Props.Untied2
/-!
# C63: formulas that are smooth above the thresholds

C52 without the condition that no comparison is between equal numbers.
-/
set_option maxRecDepth 100000
namespace Verif.Props
open Verif.Py Verif.Model Verif.Spec Verif.Lib Verif.Norm Verif.Data Topology Filter
open scoped ContDiff

/-- Formulas of C52 (unpolarized code) whose only comparisons are those with the thresholds. -/
noncomputable def untiedUnpol : List (Shipped × Assume) := [
  (⟨"gga_c_acgga", .gga, gga_c_acgga⟩, {sPos := true}),
  (⟨"gga_c_acggap", .gga, gga_c_acggap⟩, {sPos := true}),
  (⟨"gga_c_am05", .gga, gga_c_am05⟩, {params := ["alpha"]}),
  (⟨"gga_c_bmk", .gga, gga_c_bmk⟩, {}),
  (⟨"gga_c_ccdf", .gga, gga_c_ccdf⟩, {sPos := true, params := ["c2"]}),
  (⟨"gga_c_chachiyo", .gga, gga_c_chachiyo⟩, {params := ["bf", "bp", "cf", "cp"], neg := ["ap"]}),
  (⟨"gga_c_cs1", .gga, gga_c_cs1⟩, {}),
  (⟨"gga_c_hcth_a", .gga, gga_c_hcth_a⟩, {}),
  (⟨"gga_c_lm", .gga, gga_c_lm⟩, {sPos := true}),
  (⟨"gga_c_lyp", .gga, gga_c_lyp⟩, {params := ["d"]}),
  (⟨"gga_c_lypr", .gga, gga_c_lypr⟩, {params := ["d"]}),
  (⟨"gga_c_p86vwn", .gga, gga_c_p86vwn⟩, {sPos := true, params := ["aa", "bb", "malpha", "mbeta", "mdelta", "mgamma"]}),
  (⟨"gga_c_pbe", .gga, gga_c_pbe⟩, {params := ["BB", "beta", "gamma"]}),
  (⟨"gga_c_pbeloc", .gga, gga_c_pbeloc⟩, {}),
  (⟨"gga_c_pw91", .gga, gga_c_pw91⟩, {}),
  (⟨"gga_c_regtpss", .gga, gga_c_regtpss⟩, {}),
  (⟨"gga_c_revtca", .gga, gga_c_revtca⟩, {sPos := true}),
  (⟨"gga_c_scan_e0", .gga, gga_c_scan_e0⟩, {}),
  (⟨"gga_c_sg4", .gga, gga_c_sg4⟩, {sPos := true}),
  (⟨"gga_c_sogga11", .gga, gga_c_sogga11⟩, {}),
  (⟨"gga_c_tca", .gga, gga_c_tca⟩, {sPos := true}),
  (⟨"gga_c_w94", .gga, gga_c_w94⟩, {sPos := true}),
  (⟨"gga_c_wi", .gga, gga_c_wi⟩, {sPos := true, params := ["c", "d"]}),
  (⟨"gga_c_wl", .gga, gga_c_wl⟩, {sPos := true}),
  (⟨"gga_c_zpbeint", .gga, gga_c_zpbeint⟩, {sPos := true, params := ["beta"]}),
  (⟨"gga_c_zvpbeint", .gga, gga_c_zvpbeint⟩, {sPos := true, params := ["beta", "omega"]}),
  (⟨"gga_c_zvpbeloc", .gga, gga_c_zvpbeloc⟩, {}),
  (⟨"gga_k_apbe", .gga, gga_k_apbe⟩, {params := ["kappa", "mu"]}),
  (⟨"gga_k_dk", .gga, gga_k_dk⟩, {params := ["bb[0]", "bb[1]", "bb[2]", "bb[3]", "bb[4]"]}),
  (⟨"gga_k_exp4", .gga, gga_k_exp4⟩, {}),
  (⟨"gga_k_lc94", .gga, gga_k_lc94⟩, {sPos := true, params := ["a", "b", "expo", "f"]}),
  (⟨"gga_k_lgap", .gga, gga_k_lgap⟩, {sPos := true}),
  (⟨"gga_k_lgap_ge", .gga, gga_k_lgap_ge⟩, {sPos := true}),
  (⟨"gga_k_llp", .gga, gga_k_llp⟩, {sPos := true, params := ["beta", "gamma"]}),
  (⟨"gga_k_mpbe", .gga, gga_k_mpbe⟩, {params := ["a"]}),
  (⟨"gga_k_ol1", .gga, gga_k_ol1⟩, {sPos := true}),
  (⟨"gga_k_ol2", .gga, gga_k_ol2⟩, {sPos := true}),
  (⟨"gga_k_pearson", .gga, gga_k_pearson⟩, {}),
  (⟨"gga_k_pg", .gga, gga_k_pg⟩, {}),
  (⟨"gga_k_pw86", .gga, gga_k_pw86⟩, {}),
  (⟨"gga_k_rational_p", .gga, gga_k_rational_p⟩, {params := ["C2", "p"]}),
  (⟨"gga_k_tflw", .gga, gga_k_tflw⟩, {}),
  (⟨"gga_k_thakkar", .gga, gga_k_thakkar⟩, {sPos := true}),
  (⟨"gga_x_2d_b86", .gga, gga_x_2d_b86⟩, {}),
  (⟨"gga_x_2d_b86_mgc", .gga, gga_x_2d_b86_mgc⟩, {}),
  (⟨"gga_x_2d_b88", .gga, gga_x_2d_b88⟩, {sPos := true}),
  (⟨"gga_x_2d_pbe", .gga, gga_x_2d_pbe⟩, {}),
  (⟨"gga_x_airy", .gga, gga_x_airy⟩, {sPos := true}),
  (⟨"gga_x_ak13", .gga, gga_x_ak13⟩, {sPos := true}),
  (⟨"gga_x_b86", .gga, gga_x_b86⟩, {params := ["gamma"]}),
  (⟨"gga_x_b88", .gga, gga_x_b88⟩, {sPos := true, params := ["beta", "gamma"]}),
  (⟨"gga_x_bayesian", .gga, gga_x_bayesian⟩, {sPos := true}),
  (⟨"gga_x_beefvdw", .gga, gga_x_beefvdw⟩, {}),
  (⟨"gga_x_bpccac", .gga, gga_x_bpccac⟩, {sPos := true}),
  (⟨"gga_x_c09x", .gga, gga_x_c09x⟩, {}),
  (⟨"gga_x_cap", .gga, gga_x_cap⟩, {sPos := true, params := ["c"]}),
  (⟨"gga_x_chachiyo", .gga, gga_x_chachiyo⟩, {sPos := true}),
  (⟨"gga_x_dk87", .gga, gga_x_dk87⟩, {sPos := true, params := ["alpha", "b1"]}),
  (⟨"gga_x_ev93", .gga, gga_x_ev93⟩, {params := ["b1", "b2", "b3"]}),
  (⟨"gga_x_ft97", .gga, gga_x_ft97⟩, {params := ["beta2"]}),
  (⟨"gga_x_g96", .gga, gga_x_g96⟩, {sPos := true}),
  (⟨"gga_x_hcth_a", .gga, gga_x_hcth_a⟩, {sPos := true}),
  (⟨"gga_x_herman", .gga, gga_x_herman⟩, {}),
  (⟨"gga_x_kt", .gga, gga_x_kt⟩, {params := ["delta"]}),
  (⟨"gga_x_lag", .gga, gga_x_lag⟩, {sPos := true}),
  (⟨"gga_x_lg93", .gga, gga_x_lg93⟩, {}),
  (⟨"gga_x_lspbe", .gga, gga_x_lspbe⟩, {params := ["kappa", "mu"]}),
  (⟨"gga_x_lsrpbe", .gga, gga_x_lsrpbe⟩, {params := ["kappa"]}),
  (⟨"gga_x_lv_rpw86", .gga, gga_x_lv_rpw86⟩, {}),
  (⟨"gga_x_mpbe", .gga, gga_x_mpbe⟩, {params := ["a"]}),
  (⟨"gga_x_n12", .gga, gga_x_n12⟩, {}),
  (⟨"gga_x_ncap", .gga, gga_x_ncap⟩, {sPos := true, params := ["beta"]}),
  (⟨"gga_x_ol2", .gga, gga_x_ol2⟩, {sPos := true}),
  (⟨"gga_x_optx", .gga, gga_x_optx⟩, {params := ["gamma"]}),
  (⟨"gga_x_pbe", .gga, gga_x_pbe⟩, {params := ["kappa", "mu"]}),
  (⟨"gga_x_pbea", .gga, gga_x_pbea⟩, {}),
  (⟨"gga_x_pbepow", .gga, gga_x_pbepow⟩, {}),
  (⟨"gga_x_pbetrans", .gga, gga_x_pbetrans⟩, {sPos := true}),
  (⟨"gga_x_pw86", .gga, gga_x_pw86⟩, {params := ["aa", "bb", "cc"]}),
  (⟨"gga_x_pw91", .gga, gga_x_pw91⟩, {sPos := true, params := ["a", "b", "expo", "f"]}),
  (⟨"gga_x_q1d", .gga, gga_x_q1d⟩, {}),
  (⟨"gga_x_q2d", .gga, gga_x_q2d⟩, {sPos := true}),
  (⟨"gga_x_rge2", .gga, gga_x_rge2⟩, {}),
  (⟨"gga_x_rpbe", .gga, gga_x_rpbe⟩, {params := ["rpbe_kappa"]}),
  (⟨"gga_x_s12", .gga, gga_x_s12⟩, {params := ["C", "D", "E"]}),
  (⟨"gga_x_sogga11", .gga, gga_x_sogga11⟩, {params := ["kappa", "mu"]}),
  (⟨"gga_x_ssb_sw", .gga, gga_x_ssb_sw⟩, {params := ["C", "E"]}),
  (⟨"gga_x_vmt", .gga, gga_x_vmt⟩, {params := ["mu"]}),
  (⟨"gga_x_vmt84", .gga, gga_x_vmt84⟩, {sPos := true, params := ["mu"]}),
  (⟨"gga_x_wc", .gga, gga_x_wc⟩, {}),
  (⟨"gga_xc_b97", .gga, gga_xc_b97⟩, {}),
  (⟨"gga_xc_th1", .gga, gga_xc_th1⟩, {sPos := true}),
  (⟨"gga_xc_th2", .gga, gga_xc_th2⟩, {sPos := true}),
  (⟨"gga_xc_th3", .gga, gga_xc_th3⟩, {sPos := true}),
  (⟨"hyb_mgga_x_dldf", .mgga, hyb_mgga_x_dldf⟩, {}),
  (⟨"hyb_mgga_x_m05", .mgga, hyb_mgga_x_m05⟩, {}),
  (⟨"lda_c_1d_csc", .lda, lda_c_1d_csc⟩, {params := ["para[0]", "para[1]", "para[2]", "para[3]", "para[7]", "para[8]"]}),
  (⟨"lda_c_1d_loos", .lda, lda_c_1d_loos⟩, {}),
  (⟨"lda_c_2d_prm", .lda, lda_c_2d_prm⟩, {params := ["c"]}),
  (⟨"lda_c_chachiyo", .lda, lda_c_chachiyo⟩, {params := ["bf", "bp", "cf", "cp"]}),
  (⟨"lda_c_chachiyo_mod", .lda, lda_c_chachiyo_mod⟩, {params := ["bf", "bp", "cf", "cp"]}),
  (⟨"lda_c_gombas", .lda, lda_c_gombas⟩, {}),
  (⟨"lda_c_hl", .lda, lda_c_hl⟩, {params := ["hl_r[0]", "hl_r[1]"]}),
  (⟨"lda_c_lp96", .lda, lda_c_lp96⟩, {}),
  (⟨"lda_c_ml1", .lda, lda_c_ml1⟩, {params := ["fc"]}),
  (⟨"lda_c_pmgb06", .lda, lda_c_pmgb06⟩, {flds := [.camOmega]}),
  (⟨"lda_c_pw", .lda, lda_c_pw⟩, {params := ["a[0]", "a[2]", "beta1[0]", "beta1[2]", "beta2[0]", "beta2[2]", "beta3[0]", "beta3[2]", "beta4[0]", "beta4[2]", "fz20"]}),
  (⟨"lda_c_rc04", .lda, lda_c_rc04⟩, {}),
  (⟨"lda_c_rpa", .lda, lda_c_rpa⟩, {}),
  (⟨"lda_c_vwn", .lda, lda_c_vwn⟩, {}),
  (⟨"lda_c_vwn_1", .lda, lda_c_vwn_1⟩, {}),
  (⟨"lda_c_vwn_2", .lda, lda_c_vwn_2⟩, {}),
  (⟨"lda_c_vwn_4", .lda, lda_c_vwn_4⟩, {}),
  (⟨"lda_c_vwn_rpa", .lda, lda_c_vwn_rpa⟩, {}),
  (⟨"lda_c_wigner", .lda, lda_c_wigner⟩, {params := ["b"]}),
  (⟨"lda_k_gds08_worker", .lda, lda_k_gds08_worker⟩, {}),
  (⟨"lda_k_tf", .lda, lda_k_tf⟩, {}),
  (⟨"lda_k_zlp", .lda, lda_k_zlp⟩, {}),
  (⟨"lda_x", .lda, lda_x⟩, {}),
  (⟨"lda_x_2d", .lda, lda_x_2d⟩, {}),
  (⟨"lda_x_rel", .lda, lda_x_rel⟩, {}),
  (⟨"lda_x_sloc", .lda, lda_x_sloc⟩, {params := ["b"]}),
  (⟨"lda_xc_1d_ehwlrg", .lda, lda_xc_1d_ehwlrg⟩, {}),
  (⟨"lda_xc_teter93", .lda, lda_xc_teter93⟩, {}),
  (⟨"lda_xc_tih", .lda, lda_xc_tih⟩, {}),
  (⟨"lda_xc_zlp", .lda, lda_xc_zlp⟩, {}),
  (⟨"mgga_c_b88", .mgga, mgga_c_b88⟩, {}),
  (⟨"mgga_c_bc95", .mgga, mgga_c_bc95⟩, {tPos := true, params := ["copp", "css"]}),
  (⟨"mgga_c_cc", .mgga, mgga_c_cc⟩, {}),
  (⟨"mgga_c_cs", .mgga, mgga_c_cs⟩, {}),
  (⟨"mgga_c_ltapw", .mgga, mgga_c_ltapw⟩, {tPos := true}),
  (⟨"mgga_c_m05", .mgga, mgga_c_m05⟩, {tPos := true, params := ["Fermi_D_cnst", "gamma_ab", "gamma_ss"]}),
  (⟨"mgga_c_m08", .mgga, mgga_c_m08⟩, {}),
  (⟨"mgga_k_gea2", .mgga, mgga_k_gea2⟩, {}),
  (⟨"mgga_k_gea4", .mgga, mgga_k_gea4⟩, {}),
  (⟨"mgga_k_pgslb", .mgga, mgga_k_pgslb⟩, {}),
  (⟨"mgga_x_2d_js17", .mgga, mgga_x_2d_js17⟩, {}),
  (⟨"mgga_x_gdme", .mgga, mgga_x_gdme⟩, {}),
  (⟨"mgga_x_gvt4", .mgga, mgga_x_gvt4⟩, {}),
  (⟨"mgga_x_lta", .mgga, mgga_x_lta⟩, {tPos := true}),
  (⟨"mgga_x_m06l", .mgga, mgga_x_m06l⟩, {}),
  (⟨"mgga_x_m08", .mgga, mgga_x_m08⟩, {}),
  (⟨"mgga_x_mn12", .mgga, mgga_x_mn12⟩, {}),
  (⟨"mgga_x_mvs", .mgga, mgga_x_mvs⟩, {params := ["b", "c1", "e1"]}),
  (⟨"mgga_x_tau_hcth", .mgga, mgga_x_tau_hcth⟩, {}),
  (⟨"mgga_x_th", .mgga, mgga_x_th⟩, {tPos := true}),
  (⟨"mgga_xc_b97mv", .mgga, mgga_xc_b97mv⟩, {tPos := true}),
  (⟨"mgga_xc_b98", .mgga, mgga_xc_b98⟩, {tPos := true}),
  (⟨"mgga_xc_lp90", .mgga, mgga_xc_lp90⟩, {}),
  (⟨"mgga_xc_zlp", .mgga, mgga_xc_zlp⟩, {}),
  (⟨"gga_k_apbeint", .gga, gga_k_apbeint⟩, {params := ["alpha", "kappa", "muGE", "muPBE"]}),
  (⟨"gga_x_pbeint", .gga, gga_x_pbeint⟩, {params := ["alpha", "kappa", "muGE", "muPBE"]}),
  (⟨"lda_c_2d_amgb", .lda, lda_c_2d_amgb⟩, {}),
  (⟨"mgga_c_m06l", .mgga, mgga_c_m06l⟩, {tPos := true, params := ["Fermi_D_cnst", "alpha_ab", "alpha_ss", "gamma_ab", "gamma_ss"], le := [("alpha_ss", 1/20), ("alpha_ab", 1/20)]}),
  (⟨"mgga_c_pkzb", .mgga, mgga_c_pkzb⟩, {tPos := true, zetaSmall := true}),
  (⟨"mgga_c_vsxc", .mgga, mgga_c_vsxc⟩, {tPos := true, params := ["alpha_ab", "alpha_ss"], le := [("alpha_ss", 1/20), ("alpha_ab", 1/20)]}),
  (⟨"mgga_x_ms", .mgga, mgga_x_ms⟩, {params := ["c", "kappa"], ge := [("b", 1/2)]}),
  (⟨"mgga_x_msb", .mgga, mgga_x_msb⟩, {params := ["c", "kappa"], ge := [("b", 1/2)]}),
  (⟨"mgga_x_pkzb", .mgga, mgga_x_pkzb⟩, {}),
  (⟨"mgga_x_regtpss", .mgga, mgga_x_regtpss⟩, {sPos := true, tPos := true}),
  (⟨"mgga_x_rtpss", .mgga, mgga_x_rtpss⟩, {sPos := true, tPos := true, params := ["b", "e", "kappa"], le := [("b", 3)]}),
  (⟨"mgga_x_tpss", .mgga, mgga_x_tpss⟩, {sPos := true, tPos := true, params := ["b", "c", "e", "kappa", "mu"], le := [("b", 3)], ge := [("e", 1), ("kappa", 1/10)]}),
  (⟨"mgga_x_vt84", .mgga, mgga_x_vt84⟩, {sPos := true, tPos := true})]

theorem untiedUnpol_ok : ∀ x ∈ untiedUnpol, NeverRaises x.1.fam x.1.code ∧ RegularUnpol x.2 x.1.fam x.1.code ∧ UntiedUnpol x.1.fam x.1.code :=
  fc (⟨gga_c_acgga_neverRaises, gga_c_acgga_regularUnpol, gga_c_acgga_untiedUnpol⟩) <|
  fc (⟨gga_c_acggap_neverRaises, gga_c_acggap_regularUnpol, gga_c_acggap_untiedUnpol⟩) <|
  fc (⟨gga_c_am05_neverRaises, gga_c_am05_regularUnpol, gga_c_am05_untiedUnpol⟩) <|
  fc (⟨gga_c_bmk_neverRaises, gga_c_bmk_regularUnpol, gga_c_bmk_untiedUnpol⟩) <|
  fc (⟨gga_c_ccdf_neverRaises, gga_c_ccdf_regularUnpol, gga_c_ccdf_untiedUnpol⟩) <|
  fc (⟨gga_c_chachiyo_neverRaises, gga_c_chachiyo_regularUnpol, gga_c_chachiyo_untiedUnpol⟩) <|
  fc (⟨gga_c_cs1_neverRaises, gga_c_cs1_regularUnpol, gga_c_cs1_untiedUnpol⟩) <|
  fc (⟨gga_c_hcth_a_neverRaises, gga_c_hcth_a_regularUnpol, gga_c_hcth_a_untiedUnpol⟩) <|
  fc (⟨gga_c_lm_neverRaises, gga_c_lm_regularUnpol, gga_c_lm_untiedUnpol⟩) <|
  fc (⟨gga_c_lyp_neverRaises, gga_c_lyp_regularUnpol, gga_c_lyp_untiedUnpol⟩) <|
  fc (⟨gga_c_lypr_neverRaises, gga_c_lypr_regularUnpol, gga_c_lypr_untiedUnpol⟩) <|
  fc (⟨gga_c_p86vwn_neverRaises, gga_c_p86vwn_regularUnpol, gga_c_p86vwn_untiedUnpol⟩) <|
  fc (⟨gga_c_pbe_neverRaises, gga_c_pbe_regularUnpol, gga_c_pbe_untiedUnpol⟩) <|
  fc (⟨gga_c_pbeloc_neverRaises, gga_c_pbeloc_regularUnpol, gga_c_pbeloc_untiedUnpol⟩) <|
  fc (⟨gga_c_pw91_neverRaises, gga_c_pw91_regularUnpol, gga_c_pw91_untiedUnpol⟩) <|
  fc (⟨gga_c_regtpss_neverRaises, gga_c_regtpss_regularUnpol, gga_c_regtpss_untiedUnpol⟩) <|
  fc (⟨gga_c_revtca_neverRaises, gga_c_revtca_regularUnpol, gga_c_revtca_untiedUnpol⟩) <|
  fc (⟨gga_c_scan_e0_neverRaises, gga_c_scan_e0_regularUnpol, gga_c_scan_e0_untiedUnpol⟩) <|
  fc (⟨gga_c_sg4_neverRaises, gga_c_sg4_regularUnpol, gga_c_sg4_untiedUnpol⟩) <|
  fc (⟨gga_c_sogga11_neverRaises, gga_c_sogga11_regularUnpol, gga_c_sogga11_untiedUnpol⟩) <|
  fc (⟨gga_c_tca_neverRaises, gga_c_tca_regularUnpol, gga_c_tca_untiedUnpol⟩) <|
  fc (⟨gga_c_w94_neverRaises, gga_c_w94_regularUnpol, gga_c_w94_untiedUnpol⟩) <|
  fc (⟨gga_c_wi_neverRaises, gga_c_wi_regularUnpol, gga_c_wi_untiedUnpol⟩) <|
  fc (⟨gga_c_wl_neverRaises, gga_c_wl_regularUnpol, gga_c_wl_untiedUnpol⟩) <|
  fc (⟨gga_c_zpbeint_neverRaises, gga_c_zpbeint_regularUnpol, gga_c_zpbeint_untiedUnpol⟩) <|
  fc (⟨gga_c_zvpbeint_neverRaises, gga_c_zvpbeint_regularUnpol, gga_c_zvpbeint_untiedUnpol⟩) <|
  fc (⟨gga_c_zvpbeloc_neverRaises, gga_c_zvpbeloc_regularUnpol, gga_c_zvpbeloc_untiedUnpol⟩) <|
  fc (⟨gga_k_apbe_neverRaises, gga_k_apbe_regularUnpol, gga_k_apbe_untiedUnpol⟩) <|
  fc (⟨gga_k_dk_neverRaises, gga_k_dk_regularUnpol, gga_k_dk_untiedUnpol⟩) <|
  fc (⟨gga_k_exp4_neverRaises, gga_k_exp4_regularUnpol, gga_k_exp4_untiedUnpol⟩) <|
  fc (⟨gga_k_lc94_neverRaises, gga_k_lc94_regularUnpol, gga_k_lc94_untiedUnpol⟩) <|
  fc (⟨gga_k_lgap_neverRaises, gga_k_lgap_regularUnpol, gga_k_lgap_untiedUnpol⟩) <|
  fc (⟨gga_k_lgap_ge_neverRaises, gga_k_lgap_ge_regularUnpol, gga_k_lgap_ge_untiedUnpol⟩) <|
  fc (⟨gga_k_llp_neverRaises, gga_k_llp_regularUnpol, gga_k_llp_untiedUnpol⟩) <|
  fc (⟨gga_k_mpbe_neverRaises, gga_k_mpbe_regularUnpol, gga_k_mpbe_untiedUnpol⟩) <|
  fc (⟨gga_k_ol1_neverRaises, gga_k_ol1_regularUnpol, gga_k_ol1_untiedUnpol⟩) <|
  fc (⟨gga_k_ol2_neverRaises, gga_k_ol2_regularUnpol, gga_k_ol2_untiedUnpol⟩) <|
  fc (⟨gga_k_pearson_neverRaises, gga_k_pearson_regularUnpol, gga_k_pearson_untiedUnpol⟩) <|
  fc (⟨gga_k_pg_neverRaises, gga_k_pg_regularUnpol, gga_k_pg_untiedUnpol⟩) <|
  fc (⟨gga_k_pw86_neverRaises, gga_k_pw86_regularUnpol, gga_k_pw86_untiedUnpol⟩) <|
  fc (⟨gga_k_rational_p_neverRaises, gga_k_rational_p_regularUnpol, gga_k_rational_p_untiedUnpol⟩) <|
  fc (⟨gga_k_tflw_neverRaises, gga_k_tflw_regularUnpol, gga_k_tflw_untiedUnpol⟩) <|
  fc (⟨gga_k_thakkar_neverRaises, gga_k_thakkar_regularUnpol, gga_k_thakkar_untiedUnpol⟩) <|
  fc (⟨gga_x_2d_b86_neverRaises, gga_x_2d_b86_regularUnpol, gga_x_2d_b86_untiedUnpol⟩) <|
  fc (⟨gga_x_2d_b86_mgc_neverRaises, gga_x_2d_b86_mgc_regularUnpol, gga_x_2d_b86_mgc_untiedUnpol⟩) <|
  fc (⟨gga_x_2d_b88_neverRaises, gga_x_2d_b88_regularUnpol, gga_x_2d_b88_untiedUnpol⟩) <|
  fc (⟨gga_x_2d_pbe_neverRaises, gga_x_2d_pbe_regularUnpol, gga_x_2d_pbe_untiedUnpol⟩) <|
  fc (⟨gga_x_airy_neverRaises, gga_x_airy_regularUnpol, gga_x_airy_untiedUnpol⟩) <|
  fc (⟨gga_x_ak13_neverRaises, gga_x_ak13_regularUnpol, gga_x_ak13_untiedUnpol⟩) <|
  fc (⟨gga_x_b86_neverRaises, gga_x_b86_regularUnpol, gga_x_b86_untiedUnpol⟩) <|
  fc (⟨gga_x_b88_neverRaises, gga_x_b88_regularUnpol, gga_x_b88_untiedUnpol⟩) <|
  fc (⟨gga_x_bayesian_neverRaises, gga_x_bayesian_regularUnpol, gga_x_bayesian_untiedUnpol⟩) <|
  fc (⟨gga_x_beefvdw_neverRaises, gga_x_beefvdw_regularUnpol, gga_x_beefvdw_untiedUnpol⟩) <|
  fc (⟨gga_x_bpccac_neverRaises, gga_x_bpccac_regularUnpol, gga_x_bpccac_untiedUnpol⟩) <|
  fc (⟨gga_x_c09x_neverRaises, gga_x_c09x_regularUnpol, gga_x_c09x_untiedUnpol⟩) <|
  fc (⟨gga_x_cap_neverRaises, gga_x_cap_regularUnpol, gga_x_cap_untiedUnpol⟩) <|
  fc (⟨gga_x_chachiyo_neverRaises, gga_x_chachiyo_regularUnpol, gga_x_chachiyo_untiedUnpol⟩) <|
  fc (⟨gga_x_dk87_neverRaises, gga_x_dk87_regularUnpol, gga_x_dk87_untiedUnpol⟩) <|
  fc (⟨gga_x_ev93_neverRaises, gga_x_ev93_regularUnpol, gga_x_ev93_untiedUnpol⟩) <|
  fc (⟨gga_x_ft97_neverRaises, gga_x_ft97_regularUnpol, gga_x_ft97_untiedUnpol⟩) <|
  fc (⟨gga_x_g96_neverRaises, gga_x_g96_regularUnpol, gga_x_g96_untiedUnpol⟩) <|
  fc (⟨gga_x_hcth_a_neverRaises, gga_x_hcth_a_regularUnpol, gga_x_hcth_a_untiedUnpol⟩) <|
  fc (⟨gga_x_herman_neverRaises, gga_x_herman_regularUnpol, gga_x_herman_untiedUnpol⟩) <|
  fc (⟨gga_x_kt_neverRaises, gga_x_kt_regularUnpol, gga_x_kt_untiedUnpol⟩) <|
  fc (⟨gga_x_lag_neverRaises, gga_x_lag_regularUnpol, gga_x_lag_untiedUnpol⟩) <|
  fc (⟨gga_x_lg93_neverRaises, gga_x_lg93_regularUnpol, gga_x_lg93_untiedUnpol⟩) <|
  fc (⟨gga_x_lspbe_neverRaises, gga_x_lspbe_regularUnpol, gga_x_lspbe_untiedUnpol⟩) <|
  fc (⟨gga_x_lsrpbe_neverRaises, gga_x_lsrpbe_regularUnpol, gga_x_lsrpbe_untiedUnpol⟩) <|
  fc (⟨gga_x_lv_rpw86_neverRaises, gga_x_lv_rpw86_regularUnpol, gga_x_lv_rpw86_untiedUnpol⟩) <|
  fc (⟨gga_x_mpbe_neverRaises, gga_x_mpbe_regularUnpol, gga_x_mpbe_untiedUnpol⟩) <|
  fc (⟨gga_x_n12_neverRaises, gga_x_n12_regularUnpol, gga_x_n12_untiedUnpol⟩) <|
  fc (⟨gga_x_ncap_neverRaises, gga_x_ncap_regularUnpol, gga_x_ncap_untiedUnpol⟩) <|
  fc (⟨gga_x_ol2_neverRaises, gga_x_ol2_regularUnpol, gga_x_ol2_untiedUnpol⟩) <|
  fc (⟨gga_x_optx_neverRaises, gga_x_optx_regularUnpol, gga_x_optx_untiedUnpol⟩) <|
  fc (⟨gga_x_pbe_neverRaises, gga_x_pbe_regularUnpol, gga_x_pbe_untiedUnpol⟩) <|
  fc (⟨gga_x_pbea_neverRaises, gga_x_pbea_regularUnpol, gga_x_pbea_untiedUnpol⟩) <|
  fc (⟨gga_x_pbepow_neverRaises, gga_x_pbepow_regularUnpol, gga_x_pbepow_untiedUnpol⟩) <|
  fc (⟨gga_x_pbetrans_neverRaises, gga_x_pbetrans_regularUnpol, gga_x_pbetrans_untiedUnpol⟩) <|
  fc (⟨gga_x_pw86_neverRaises, gga_x_pw86_regularUnpol, gga_x_pw86_untiedUnpol⟩) <|
  fc (⟨gga_x_pw91_neverRaises, gga_x_pw91_regularUnpol, gga_x_pw91_untiedUnpol⟩) <|
  fc (⟨gga_x_q1d_neverRaises, gga_x_q1d_regularUnpol, gga_x_q1d_untiedUnpol⟩) <|
  fc (⟨gga_x_q2d_neverRaises, gga_x_q2d_regularUnpol, gga_x_q2d_untiedUnpol⟩) <|
  fc (⟨gga_x_rge2_neverRaises, gga_x_rge2_regularUnpol, gga_x_rge2_untiedUnpol⟩) <|
  fc (⟨gga_x_rpbe_neverRaises, gga_x_rpbe_regularUnpol, gga_x_rpbe_untiedUnpol⟩) <|
  fc (⟨gga_x_s12_neverRaises, gga_x_s12_regularUnpol, gga_x_s12_untiedUnpol⟩) <|
  fc (⟨gga_x_sogga11_neverRaises, gga_x_sogga11_regularUnpol, gga_x_sogga11_untiedUnpol⟩) <|
  fc (⟨gga_x_ssb_sw_neverRaises, gga_x_ssb_sw_regularUnpol, gga_x_ssb_sw_untiedUnpol⟩) <|
  fc (⟨gga_x_vmt_neverRaises, gga_x_vmt_regularUnpol, gga_x_vmt_untiedUnpol⟩) <|
  fc (⟨gga_x_vmt84_neverRaises, gga_x_vmt84_regularUnpol, gga_x_vmt84_untiedUnpol⟩) <|
  fc (⟨gga_x_wc_neverRaises, gga_x_wc_regularUnpol, gga_x_wc_untiedUnpol⟩) <|
  fc (⟨gga_xc_b97_neverRaises, gga_xc_b97_regularUnpol, gga_xc_b97_untiedUnpol⟩) <|
  fc (⟨gga_xc_th1_neverRaises, gga_xc_th1_regularUnpol, gga_xc_th1_untiedUnpol⟩) <|
  fc (⟨gga_xc_th2_neverRaises, gga_xc_th2_regularUnpol, gga_xc_th2_untiedUnpol⟩) <|
  fc (⟨gga_xc_th3_neverRaises, gga_xc_th3_regularUnpol, gga_xc_th3_untiedUnpol⟩) <|
  fc (⟨hyb_mgga_x_dldf_neverRaises, hyb_mgga_x_dldf_regularUnpol, hyb_mgga_x_dldf_untiedUnpol⟩) <|
  fc (⟨hyb_mgga_x_m05_neverRaises, hyb_mgga_x_m05_regularUnpol, hyb_mgga_x_m05_untiedUnpol⟩) <|
  fc (⟨lda_c_1d_csc_neverRaises, lda_c_1d_csc_regularUnpol, lda_c_1d_csc_untiedUnpol⟩) <|
  fc (⟨lda_c_1d_loos_neverRaises, lda_c_1d_loos_regularUnpol, lda_c_1d_loos_untiedUnpol⟩) <|
  fc (⟨lda_c_2d_prm_neverRaises, lda_c_2d_prm_regularUnpol, lda_c_2d_prm_untiedUnpol⟩) <|
  fc (⟨lda_c_chachiyo_neverRaises, lda_c_chachiyo_regularUnpol, lda_c_chachiyo_untiedUnpol⟩) <|
  fc (⟨lda_c_chachiyo_mod_neverRaises, lda_c_chachiyo_mod_regularUnpol, lda_c_chachiyo_mod_untiedUnpol⟩) <|
  fc (⟨lda_c_gombas_neverRaises, lda_c_gombas_regularUnpol, lda_c_gombas_untiedUnpol⟩) <|
  fc (⟨lda_c_hl_neverRaises, lda_c_hl_regularUnpol, lda_c_hl_untiedUnpol⟩) <|
  fc (⟨lda_c_lp96_neverRaises, lda_c_lp96_regularUnpol, lda_c_lp96_untiedUnpol⟩) <|
  fc (⟨lda_c_ml1_neverRaises, lda_c_ml1_regularUnpol, lda_c_ml1_untiedUnpol⟩) <|
  fc (⟨lda_c_pmgb06_neverRaises, lda_c_pmgb06_regularUnpol, lda_c_pmgb06_untiedUnpol⟩) <|
  fc (⟨lda_c_pw_neverRaises, lda_c_pw_regularUnpol, lda_c_pw_untiedUnpol⟩) <|
  fc (⟨lda_c_rc04_neverRaises, lda_c_rc04_regularUnpol, lda_c_rc04_untiedUnpol⟩) <|
  fc (⟨lda_c_rpa_neverRaises, lda_c_rpa_regularUnpol, lda_c_rpa_untiedUnpol⟩) <|
  fc (⟨lda_c_vwn_neverRaises, lda_c_vwn_regularUnpol, lda_c_vwn_untiedUnpol⟩) <|
  fc (⟨lda_c_vwn_1_neverRaises, lda_c_vwn_1_regularUnpol, lda_c_vwn_1_untiedUnpol⟩) <|
  fc (⟨lda_c_vwn_2_neverRaises, lda_c_vwn_2_regularUnpol, lda_c_vwn_2_untiedUnpol⟩) <|
  fc (⟨lda_c_vwn_4_neverRaises, lda_c_vwn_4_regularUnpol, lda_c_vwn_4_untiedUnpol⟩) <|
  fc (⟨lda_c_vwn_rpa_neverRaises, lda_c_vwn_rpa_regularUnpol, lda_c_vwn_rpa_untiedUnpol⟩) <|
  fc (⟨lda_c_wigner_neverRaises, lda_c_wigner_regularUnpol, lda_c_wigner_untiedUnpol⟩) <|
  fc (⟨lda_k_gds08_worker_neverRaises, lda_k_gds08_worker_regularUnpol, lda_k_gds08_worker_untiedUnpol⟩) <|
  fc (⟨lda_k_tf_neverRaises, lda_k_tf_regularUnpol, lda_k_tf_untiedUnpol⟩) <|
  fc (⟨lda_k_zlp_neverRaises, lda_k_zlp_regularUnpol, lda_k_zlp_untiedUnpol⟩) <|
  fc (⟨lda_x_neverRaises, lda_x_regularUnpol, lda_x_untiedUnpol⟩) <|
  fc (⟨lda_x_2d_neverRaises, lda_x_2d_regularUnpol, lda_x_2d_untiedUnpol⟩) <|
  fc (⟨lda_x_rel_neverRaises, lda_x_rel_regularUnpol, lda_x_rel_untiedUnpol⟩) <|
  fc (⟨lda_x_sloc_neverRaises, lda_x_sloc_regularUnpol, lda_x_sloc_untiedUnpol⟩) <|
  fc (⟨lda_xc_1d_ehwlrg_neverRaises, lda_xc_1d_ehwlrg_regularUnpol, lda_xc_1d_ehwlrg_untiedUnpol⟩) <|
  fc (⟨lda_xc_teter93_neverRaises, lda_xc_teter93_regularUnpol, lda_xc_teter93_untiedUnpol⟩) <|
  fc (⟨lda_xc_tih_neverRaises, lda_xc_tih_regularUnpol, lda_xc_tih_untiedUnpol⟩) <|
  fc (⟨lda_xc_zlp_neverRaises, lda_xc_zlp_regularUnpol, lda_xc_zlp_untiedUnpol⟩) <|
  fc (⟨mgga_c_b88_neverRaises, mgga_c_b88_regularUnpol, mgga_c_b88_untiedUnpol⟩) <|
  fc (⟨mgga_c_bc95_neverRaises, mgga_c_bc95_regularUnpol, mgga_c_bc95_untiedUnpol⟩) <|
  fc (⟨mgga_c_cc_neverRaises, mgga_c_cc_regularUnpol, mgga_c_cc_untiedUnpol⟩) <|
  fc (⟨mgga_c_cs_neverRaises, mgga_c_cs_regularUnpol, mgga_c_cs_untiedUnpol⟩) <|
  fc (⟨mgga_c_ltapw_neverRaises, mgga_c_ltapw_regularUnpol, mgga_c_ltapw_untiedUnpol⟩) <|
  fc (⟨mgga_c_m05_neverRaises, mgga_c_m05_regularUnpol, mgga_c_m05_untiedUnpol⟩) <|
  fc (⟨mgga_c_m08_neverRaises, mgga_c_m08_regularUnpol, mgga_c_m08_untiedUnpol⟩) <|
  fc (⟨mgga_k_gea2_neverRaises, mgga_k_gea2_regularUnpol, mgga_k_gea2_untiedUnpol⟩) <|
  fc (⟨mgga_k_gea4_neverRaises, mgga_k_gea4_regularUnpol, mgga_k_gea4_untiedUnpol⟩) <|
  fc (⟨mgga_k_pgslb_neverRaises, mgga_k_pgslb_regularUnpol, mgga_k_pgslb_untiedUnpol⟩) <|
  fc (⟨mgga_x_2d_js17_neverRaises, mgga_x_2d_js17_regularUnpol, mgga_x_2d_js17_untiedUnpol⟩) <|
  fc (⟨mgga_x_gdme_neverRaises, mgga_x_gdme_regularUnpol, mgga_x_gdme_untiedUnpol⟩) <|
  fc (⟨mgga_x_gvt4_neverRaises, mgga_x_gvt4_regularUnpol, mgga_x_gvt4_untiedUnpol⟩) <|
  fc (⟨mgga_x_lta_neverRaises, mgga_x_lta_regularUnpol, mgga_x_lta_untiedUnpol⟩) <|
  fc (⟨mgga_x_m06l_neverRaises, mgga_x_m06l_regularUnpol, mgga_x_m06l_untiedUnpol⟩) <|
  fc (⟨mgga_x_m08_neverRaises, mgga_x_m08_regularUnpol, mgga_x_m08_untiedUnpol⟩) <|
  fc (⟨mgga_x_mn12_neverRaises, mgga_x_mn12_regularUnpol, mgga_x_mn12_untiedUnpol⟩) <|
  fc (⟨mgga_x_mvs_neverRaises, mgga_x_mvs_regularUnpol, mgga_x_mvs_untiedUnpol⟩) <|
  fc (⟨mgga_x_tau_hcth_neverRaises, mgga_x_tau_hcth_regularUnpol, mgga_x_tau_hcth_untiedUnpol⟩) <|
  fc (⟨mgga_x_th_neverRaises, mgga_x_th_regularUnpol, mgga_x_th_untiedUnpol⟩) <|
  fc (⟨mgga_xc_b97mv_neverRaises, mgga_xc_b97mv_regularUnpol, mgga_xc_b97mv_untiedUnpol⟩) <|
  fc (⟨mgga_xc_b98_neverRaises, mgga_xc_b98_regularUnpol, mgga_xc_b98_untiedUnpol⟩) <|
  fc (⟨mgga_xc_lp90_neverRaises, mgga_xc_lp90_regularUnpol, mgga_xc_lp90_untiedUnpol⟩) <|
  fc (⟨mgga_xc_zlp_neverRaises, mgga_xc_zlp_regularUnpol, mgga_xc_zlp_untiedUnpol⟩) <|
  fc (⟨gga_k_apbeint_neverRaises, gga_k_apbeint_regularUnpol, gga_k_apbeint_untiedUnpol⟩) <|
  fc (⟨gga_x_pbeint_neverRaises, gga_x_pbeint_regularUnpol, gga_x_pbeint_untiedUnpol⟩) <|
  fc (⟨lda_c_2d_amgb_neverRaises, lda_c_2d_amgb_regularUnpol, lda_c_2d_amgb_untiedUnpol⟩) <|
  fc (⟨mgga_c_m06l_neverRaises, mgga_c_m06l_regularUnpol, mgga_c_m06l_untiedUnpol⟩) <|
  fc (⟨mgga_c_pkzb_neverRaises, mgga_c_pkzb_regularUnpol, mgga_c_pkzb_untiedUnpol⟩) <|
  fc (⟨mgga_c_vsxc_neverRaises, mgga_c_vsxc_regularUnpol, mgga_c_vsxc_untiedUnpol⟩) <|
  fc (⟨mgga_x_ms_neverRaises, mgga_x_ms_regularUnpol, mgga_x_ms_untiedUnpol⟩) <|
  fc (⟨mgga_x_msb_neverRaises, mgga_x_msb_regularUnpol, mgga_x_msb_untiedUnpol⟩) <|
  fc (⟨mgga_x_pkzb_neverRaises, mgga_x_pkzb_regularUnpol, mgga_x_pkzb_untiedUnpol⟩) <|
  fc (⟨mgga_x_regtpss_neverRaises, mgga_x_regtpss_regularUnpol, mgga_x_regtpss_untiedUnpol⟩) <|
  fc (⟨mgga_x_rtpss_neverRaises, mgga_x_rtpss_regularUnpol, mgga_x_rtpss_untiedUnpol⟩) <|
  fc (⟨mgga_x_tpss_neverRaises, mgga_x_tpss_regularUnpol, mgga_x_tpss_untiedUnpol⟩) <|
  fc (⟨mgga_x_vt84_neverRaises, mgga_x_vt84_regularUnpol, mgga_x_vt84_untiedUnpol⟩) <|
  fn

theorem untiedUnpol_length : untiedUnpol.length = 163 := rfl

/-- Formulas of C52 (polarized code) whose only comparisons are those with the thresholds. -/
noncomputable def untiedPol : List (Shipped × Assume) := [
  (⟨"gga_c_am05", .gga, gga_c_am05⟩, {params := ["alpha"]}),
  (⟨"gga_c_bmk", .gga, gga_c_bmk⟩, {}),
  (⟨"gga_c_ccdf", .gga, gga_c_ccdf⟩, {sPos := true, params := ["c2"]}),
  (⟨"gga_c_cs1", .gga, gga_c_cs1⟩, {}),
  (⟨"gga_c_hcth_a", .gga, gga_c_hcth_a⟩, {}),
  (⟨"gga_c_lm", .gga, gga_c_lm⟩, {sPos := true}),
  (⟨"gga_c_lyp", .gga, gga_c_lyp⟩, {params := ["d"]}),
  (⟨"gga_c_lypr", .gga, gga_c_lypr⟩, {params := ["d"]}),
  (⟨"gga_c_p86vwn", .gga, gga_c_p86vwn⟩, {sPos := true, params := ["aa", "bb", "malpha", "mbeta", "mdelta", "mgamma"]}),
  (⟨"gga_c_tca", .gga, gga_c_tca⟩, {sPos := true}),
  (⟨"gga_c_wi", .gga, gga_c_wi⟩, {sPos := true, params := ["c", "d"]}),
  (⟨"gga_c_wl", .gga, gga_c_wl⟩, {sPos := true}),
  (⟨"gga_k_apbe", .gga, gga_k_apbe⟩, {params := ["kappa", "mu"]}),
  (⟨"gga_k_dk", .gga, gga_k_dk⟩, {params := ["bb[0]", "bb[1]", "bb[2]", "bb[3]", "bb[4]"]}),
  (⟨"gga_k_exp4", .gga, gga_k_exp4⟩, {}),
  (⟨"gga_k_lc94", .gga, gga_k_lc94⟩, {sPos := true, params := ["a", "b", "expo", "f"]}),
  (⟨"gga_k_lgap", .gga, gga_k_lgap⟩, {sPos := true}),
  (⟨"gga_k_lgap_ge", .gga, gga_k_lgap_ge⟩, {sPos := true}),
  (⟨"gga_k_llp", .gga, gga_k_llp⟩, {sPos := true, params := ["beta", "gamma"]}),
  (⟨"gga_k_mpbe", .gga, gga_k_mpbe⟩, {params := ["a"]}),
  (⟨"gga_k_ol1", .gga, gga_k_ol1⟩, {sPos := true}),
  (⟨"gga_k_ol2", .gga, gga_k_ol2⟩, {sPos := true}),
  (⟨"gga_k_pearson", .gga, gga_k_pearson⟩, {}),
  (⟨"gga_k_pg", .gga, gga_k_pg⟩, {}),
  (⟨"gga_k_pw86", .gga, gga_k_pw86⟩, {}),
  (⟨"gga_k_rational_p", .gga, gga_k_rational_p⟩, {params := ["C2", "p"]}),
  (⟨"gga_k_tflw", .gga, gga_k_tflw⟩, {}),
  (⟨"gga_k_thakkar", .gga, gga_k_thakkar⟩, {sPos := true}),
  (⟨"gga_x_2d_b86", .gga, gga_x_2d_b86⟩, {}),
  (⟨"gga_x_2d_b86_mgc", .gga, gga_x_2d_b86_mgc⟩, {}),
  (⟨"gga_x_2d_b88", .gga, gga_x_2d_b88⟩, {sPos := true}),
  (⟨"gga_x_2d_pbe", .gga, gga_x_2d_pbe⟩, {}),
  (⟨"gga_x_airy", .gga, gga_x_airy⟩, {sPos := true}),
  (⟨"gga_x_ak13", .gga, gga_x_ak13⟩, {sPos := true}),
  (⟨"gga_x_b86", .gga, gga_x_b86⟩, {params := ["gamma"]}),
  (⟨"gga_x_b88", .gga, gga_x_b88⟩, {sPos := true, params := ["beta", "gamma"]}),
  (⟨"gga_x_bayesian", .gga, gga_x_bayesian⟩, {sPos := true}),
  (⟨"gga_x_beefvdw", .gga, gga_x_beefvdw⟩, {}),
  (⟨"gga_x_bpccac", .gga, gga_x_bpccac⟩, {sPos := true}),
  (⟨"gga_x_c09x", .gga, gga_x_c09x⟩, {}),
  (⟨"gga_x_cap", .gga, gga_x_cap⟩, {sPos := true, params := ["c"]}),
  (⟨"gga_x_chachiyo", .gga, gga_x_chachiyo⟩, {sPos := true}),
  (⟨"gga_x_dk87", .gga, gga_x_dk87⟩, {sPos := true, params := ["alpha", "b1"]}),
  (⟨"gga_x_ev93", .gga, gga_x_ev93⟩, {params := ["b1", "b2", "b3"]}),
  (⟨"gga_x_ft97", .gga, gga_x_ft97⟩, {params := ["beta2"]}),
  (⟨"gga_x_g96", .gga, gga_x_g96⟩, {sPos := true}),
  (⟨"gga_x_hcth_a", .gga, gga_x_hcth_a⟩, {sPos := true}),
  (⟨"gga_x_herman", .gga, gga_x_herman⟩, {}),
  (⟨"gga_x_kt", .gga, gga_x_kt⟩, {params := ["delta"]}),
  (⟨"gga_x_lag", .gga, gga_x_lag⟩, {sPos := true}),
  (⟨"gga_x_lg93", .gga, gga_x_lg93⟩, {}),
  (⟨"gga_x_lspbe", .gga, gga_x_lspbe⟩, {params := ["kappa", "mu"]}),
  (⟨"gga_x_lsrpbe", .gga, gga_x_lsrpbe⟩, {params := ["kappa"]}),
  (⟨"gga_x_lv_rpw86", .gga, gga_x_lv_rpw86⟩, {}),
  (⟨"gga_x_mpbe", .gga, gga_x_mpbe⟩, {params := ["a"]}),
  (⟨"gga_x_n12", .gga, gga_x_n12⟩, {}),
  (⟨"gga_x_ncap", .gga, gga_x_ncap⟩, {sPos := true, params := ["beta"]}),
  (⟨"gga_x_ol2", .gga, gga_x_ol2⟩, {sPos := true}),
  (⟨"gga_x_optx", .gga, gga_x_optx⟩, {params := ["gamma"]}),
  (⟨"gga_x_pbe", .gga, gga_x_pbe⟩, {params := ["kappa", "mu"]}),
  (⟨"gga_x_pbea", .gga, gga_x_pbea⟩, {}),
  (⟨"gga_x_pbepow", .gga, gga_x_pbepow⟩, {}),
  (⟨"gga_x_pbetrans", .gga, gga_x_pbetrans⟩, {sPos := true}),
  (⟨"gga_x_pw86", .gga, gga_x_pw86⟩, {params := ["aa", "bb", "cc"]}),
  (⟨"gga_x_pw91", .gga, gga_x_pw91⟩, {sPos := true, params := ["a", "b", "expo", "f"]}),
  (⟨"gga_x_q1d", .gga, gga_x_q1d⟩, {}),
  (⟨"gga_x_q2d", .gga, gga_x_q2d⟩, {sPos := true}),
  (⟨"gga_x_rge2", .gga, gga_x_rge2⟩, {}),
  (⟨"gga_x_rpbe", .gga, gga_x_rpbe⟩, {params := ["rpbe_kappa"]}),
  (⟨"gga_x_s12", .gga, gga_x_s12⟩, {params := ["C", "D", "E"]}),
  (⟨"gga_x_sogga11", .gga, gga_x_sogga11⟩, {params := ["kappa", "mu"]}),
  (⟨"gga_x_ssb_sw", .gga, gga_x_ssb_sw⟩, {params := ["C", "E"]}),
  (⟨"gga_x_vmt", .gga, gga_x_vmt⟩, {params := ["mu"]}),
  (⟨"gga_x_vmt84", .gga, gga_x_vmt84⟩, {sPos := true, params := ["mu"]}),
  (⟨"gga_x_wc", .gga, gga_x_wc⟩, {}),
  (⟨"gga_xc_b97", .gga, gga_xc_b97⟩, {}),
  (⟨"gga_xc_th1", .gga, gga_xc_th1⟩, {sPos := true}),
  (⟨"gga_xc_th2", .gga, gga_xc_th2⟩, {sPos := true}),
  (⟨"gga_xc_th3", .gga, gga_xc_th3⟩, {sPos := true}),
  (⟨"hyb_mgga_x_dldf", .mgga, hyb_mgga_x_dldf⟩, {}),
  (⟨"hyb_mgga_x_m05", .mgga, hyb_mgga_x_m05⟩, {}),
  (⟨"lda_c_1d_csc", .lda, lda_c_1d_csc⟩, {params := ["ferro[0]", "ferro[1]", "ferro[2]", "ferro[3]", "ferro[7]", "ferro[8]", "para[0]", "para[1]", "para[2]", "para[3]", "para[7]", "para[8]"]}),
  (⟨"lda_c_1d_loos", .lda, lda_c_1d_loos⟩, {}),
  (⟨"lda_c_2d_prm", .lda, lda_c_2d_prm⟩, {params := ["c"]}),
  (⟨"lda_c_chachiyo", .lda, lda_c_chachiyo⟩, {params := ["bf", "bp", "cf", "cp"]}),
  (⟨"lda_c_chachiyo_mod", .lda, lda_c_chachiyo_mod⟩, {params := ["bf", "bp", "cf", "cp"]}),
  (⟨"lda_c_gombas", .lda, lda_c_gombas⟩, {}),
  (⟨"lda_c_hl", .lda, lda_c_hl⟩, {params := ["hl_r[0]", "hl_r[1]"]}),
  (⟨"lda_c_lp96", .lda, lda_c_lp96⟩, {}),
  (⟨"lda_c_pmgb06", .lda, lda_c_pmgb06⟩, {flds := [.camOmega]}),
  (⟨"lda_c_pw", .lda, lda_c_pw⟩, {params := ["a[0]", "a[1]", "a[2]", "beta1[0]", "beta1[1]", "beta1[2]", "beta2[0]", "beta2[1]", "beta2[2]", "beta3[0]", "beta3[1]", "beta3[2]", "beta4[0]", "beta4[1]", "beta4[2]", "fz20"]}),
  (⟨"lda_c_rc04", .lda, lda_c_rc04⟩, {}),
  (⟨"lda_c_rpa", .lda, lda_c_rpa⟩, {}),
  (⟨"lda_c_vwn", .lda, lda_c_vwn⟩, {}),
  (⟨"lda_c_vwn_1", .lda, lda_c_vwn_1⟩, {}),
  (⟨"lda_c_vwn_2", .lda, lda_c_vwn_2⟩, {}),
  (⟨"lda_c_vwn_4", .lda, lda_c_vwn_4⟩, {}),
  (⟨"lda_c_vwn_rpa", .lda, lda_c_vwn_rpa⟩, {}),
  (⟨"lda_c_wigner", .lda, lda_c_wigner⟩, {params := ["b"]}),
  (⟨"lda_k_gds08_worker", .lda, lda_k_gds08_worker⟩, {}),
  (⟨"lda_k_tf", .lda, lda_k_tf⟩, {}),
  (⟨"lda_k_zlp", .lda, lda_k_zlp⟩, {}),
  (⟨"lda_x", .lda, lda_x⟩, {}),
  (⟨"lda_x_2d", .lda, lda_x_2d⟩, {}),
  (⟨"lda_x_rel", .lda, lda_x_rel⟩, {}),
  (⟨"lda_x_sloc", .lda, lda_x_sloc⟩, {params := ["b"]}),
  (⟨"lda_xc_1d_ehwlrg", .lda, lda_xc_1d_ehwlrg⟩, {}),
  (⟨"lda_xc_tih", .lda, lda_xc_tih⟩, {}),
  (⟨"lda_xc_zlp", .lda, lda_xc_zlp⟩, {}),
  (⟨"mgga_c_b88", .mgga, mgga_c_b88⟩, {}),
  (⟨"mgga_c_bc95", .mgga, mgga_c_bc95⟩, {tPos := true, params := ["copp", "css"]}),
  (⟨"mgga_c_cc", .mgga, mgga_c_cc⟩, {tPos := true}),
  (⟨"mgga_c_cs", .mgga, mgga_c_cs⟩, {}),
  (⟨"mgga_c_m05", .mgga, mgga_c_m05⟩, {tPos := true, params := ["Fermi_D_cnst", "gamma_ab", "gamma_ss"]}),
  (⟨"mgga_k_gea2", .mgga, mgga_k_gea2⟩, {}),
  (⟨"mgga_k_gea4", .mgga, mgga_k_gea4⟩, {}),
  (⟨"mgga_k_pgslb", .mgga, mgga_k_pgslb⟩, {}),
  (⟨"mgga_x_2d_js17", .mgga, mgga_x_2d_js17⟩, {}),
  (⟨"mgga_x_gdme", .mgga, mgga_x_gdme⟩, {}),
  (⟨"mgga_x_gvt4", .mgga, mgga_x_gvt4⟩, {}),
  (⟨"mgga_x_lta", .mgga, mgga_x_lta⟩, {tPos := true}),
  (⟨"mgga_x_m06l", .mgga, mgga_x_m06l⟩, {}),
  (⟨"mgga_x_m08", .mgga, mgga_x_m08⟩, {}),
  (⟨"mgga_x_mn12", .mgga, mgga_x_mn12⟩, {}),
  (⟨"mgga_x_mvs", .mgga, mgga_x_mvs⟩, {params := ["b", "c1", "e1"]}),
  (⟨"mgga_x_tau_hcth", .mgga, mgga_x_tau_hcth⟩, {}),
  (⟨"mgga_x_th", .mgga, mgga_x_th⟩, {tPos := true}),
  (⟨"mgga_xc_b97mv", .mgga, mgga_xc_b97mv⟩, {tPos := true}),
  (⟨"mgga_xc_b98", .mgga, mgga_xc_b98⟩, {tPos := true}),
  (⟨"gga_c_acgga", .gga, gga_c_acgga⟩, {sPos := true, zetaSmall := true}),
  (⟨"gga_c_acggap", .gga, gga_c_acggap⟩, {sPos := true, zetaSmall := true}),
  (⟨"gga_c_pbe", .gga, gga_c_pbe⟩, {params := ["BB", "beta", "gamma"], zetaSmall := true}),
  (⟨"gga_c_pbeloc", .gga, gga_c_pbeloc⟩, {zetaSmall := true}),
  (⟨"gga_c_pw91", .gga, gga_c_pw91⟩, {zetaSmall := true}),
  (⟨"gga_c_regtpss", .gga, gga_c_regtpss⟩, {zetaSmall := true}),
  (⟨"gga_c_scan_e0", .gga, gga_c_scan_e0⟩, {zetaSmall := true}),
  (⟨"gga_c_sg4", .gga, gga_c_sg4⟩, {sPos := true, zetaSmall := true}),
  (⟨"gga_c_sogga11", .gga, gga_c_sogga11⟩, {zetaSmall := true}),
  (⟨"gga_c_zpbeint", .gga, gga_c_zpbeint⟩, {sPos := true, params := ["beta"], zetaSmall := true}),
  (⟨"gga_k_apbeint", .gga, gga_k_apbeint⟩, {params := ["alpha", "kappa", "muGE", "muPBE"]}),
  (⟨"gga_x_pbeint", .gga, gga_x_pbeint⟩, {params := ["alpha", "kappa", "muGE", "muPBE"]}),
  (⟨"mgga_c_m06l", .mgga, mgga_c_m06l⟩, {tPos := true, params := ["Fermi_D_cnst", "alpha_ab", "alpha_ss", "gamma_ab", "gamma_ss"], le := [("alpha_ss", 1/20), ("alpha_ab", 1/20)]}),
  (⟨"mgga_c_m08", .mgga, mgga_c_m08⟩, {zetaSmall := true}),
  (⟨"mgga_c_vsxc", .mgga, mgga_c_vsxc⟩, {tPos := true, params := ["alpha_ab", "alpha_ss"], le := [("alpha_ss", 1/20), ("alpha_ab", 1/20)]}),
  (⟨"mgga_x_ms", .mgga, mgga_x_ms⟩, {params := ["c", "kappa"], ge := [("b", 1/2)]}),
  (⟨"mgga_x_msb", .mgga, mgga_x_msb⟩, {params := ["c", "kappa"], ge := [("b", 1/2)]}),
  (⟨"mgga_x_pkzb", .mgga, mgga_x_pkzb⟩, {}),
  (⟨"mgga_x_regtpss", .mgga, mgga_x_regtpss⟩, {sPos := true, tPos := true}),
  (⟨"mgga_x_rtpss", .mgga, mgga_x_rtpss⟩, {sPos := true, tPos := true, params := ["b", "e", "kappa"], le := [("b", 3)]}),
  (⟨"mgga_x_tpss", .mgga, mgga_x_tpss⟩, {sPos := true, tPos := true, params := ["b", "c", "e", "kappa", "mu"], le := [("b", 3)], ge := [("e", 1), ("kappa", 1/10)]}),
  (⟨"mgga_x_vt84", .mgga, mgga_x_vt84⟩, {sPos := true, tPos := true})]

theorem untiedPol_ok : ∀ x ∈ untiedPol, NeverRaises x.1.fam x.1.code ∧ RegularPol x.2 x.1.fam x.1.code ∧ UntiedPol x.1.fam x.1.code :=
  fc (⟨gga_c_am05_neverRaises, gga_c_am05_regularPol, gga_c_am05_untiedPol⟩) <|
  fc (⟨gga_c_bmk_neverRaises, gga_c_bmk_regularPol, gga_c_bmk_untiedPol⟩) <|
  fc (⟨gga_c_ccdf_neverRaises, gga_c_ccdf_regularPol, gga_c_ccdf_untiedPol⟩) <|
  fc (⟨gga_c_cs1_neverRaises, gga_c_cs1_regularPol, gga_c_cs1_untiedPol⟩) <|
  fc (⟨gga_c_hcth_a_neverRaises, gga_c_hcth_a_regularPol, gga_c_hcth_a_untiedPol⟩) <|
  fc (⟨gga_c_lm_neverRaises, gga_c_lm_regularPol, gga_c_lm_untiedPol⟩) <|
  fc (⟨gga_c_lyp_neverRaises, gga_c_lyp_regularPol, gga_c_lyp_untiedPol⟩) <|
  fc (⟨gga_c_lypr_neverRaises, gga_c_lypr_regularPol, gga_c_lypr_untiedPol⟩) <|
  fc (⟨gga_c_p86vwn_neverRaises, gga_c_p86vwn_regularPol, gga_c_p86vwn_untiedPol⟩) <|
  fc (⟨gga_c_tca_neverRaises, gga_c_tca_regularPol, gga_c_tca_untiedPol⟩) <|
  fc (⟨gga_c_wi_neverRaises, gga_c_wi_regularPol, gga_c_wi_untiedPol⟩) <|
  fc (⟨gga_c_wl_neverRaises, gga_c_wl_regularPol, gga_c_wl_untiedPol⟩) <|
  fc (⟨gga_k_apbe_neverRaises, gga_k_apbe_regularPol, gga_k_apbe_untiedPol⟩) <|
  fc (⟨gga_k_dk_neverRaises, gga_k_dk_regularPol, gga_k_dk_untiedPol⟩) <|
  fc (⟨gga_k_exp4_neverRaises, gga_k_exp4_regularPol, gga_k_exp4_untiedPol⟩) <|
  fc (⟨gga_k_lc94_neverRaises, gga_k_lc94_regularPol, gga_k_lc94_untiedPol⟩) <|
  fc (⟨gga_k_lgap_neverRaises, gga_k_lgap_regularPol, gga_k_lgap_untiedPol⟩) <|
  fc (⟨gga_k_lgap_ge_neverRaises, gga_k_lgap_ge_regularPol, gga_k_lgap_ge_untiedPol⟩) <|
  fc (⟨gga_k_llp_neverRaises, gga_k_llp_regularPol, gga_k_llp_untiedPol⟩) <|
  fc (⟨gga_k_mpbe_neverRaises, gga_k_mpbe_regularPol, gga_k_mpbe_untiedPol⟩) <|
  fc (⟨gga_k_ol1_neverRaises, gga_k_ol1_regularPol, gga_k_ol1_untiedPol⟩) <|
  fc (⟨gga_k_ol2_neverRaises, gga_k_ol2_regularPol, gga_k_ol2_untiedPol⟩) <|
  fc (⟨gga_k_pearson_neverRaises, gga_k_pearson_regularPol, gga_k_pearson_untiedPol⟩) <|
  fc (⟨gga_k_pg_neverRaises, gga_k_pg_regularPol, gga_k_pg_untiedPol⟩) <|
  fc (⟨gga_k_pw86_neverRaises, gga_k_pw86_regularPol, gga_k_pw86_untiedPol⟩) <|
  fc (⟨gga_k_rational_p_neverRaises, gga_k_rational_p_regularPol, gga_k_rational_p_untiedPol⟩) <|
  fc (⟨gga_k_tflw_neverRaises, gga_k_tflw_regularPol, gga_k_tflw_untiedPol⟩) <|
  fc (⟨gga_k_thakkar_neverRaises, gga_k_thakkar_regularPol, gga_k_thakkar_untiedPol⟩) <|
  fc (⟨gga_x_2d_b86_neverRaises, gga_x_2d_b86_regularPol, gga_x_2d_b86_untiedPol⟩) <|
  fc (⟨gga_x_2d_b86_mgc_neverRaises, gga_x_2d_b86_mgc_regularPol, gga_x_2d_b86_mgc_untiedPol⟩) <|
  fc (⟨gga_x_2d_b88_neverRaises, gga_x_2d_b88_regularPol, gga_x_2d_b88_untiedPol⟩) <|
  fc (⟨gga_x_2d_pbe_neverRaises, gga_x_2d_pbe_regularPol, gga_x_2d_pbe_untiedPol⟩) <|
  fc (⟨gga_x_airy_neverRaises, gga_x_airy_regularPol, gga_x_airy_untiedPol⟩) <|
  fc (⟨gga_x_ak13_neverRaises, gga_x_ak13_regularPol, gga_x_ak13_untiedPol⟩) <|
  fc (⟨gga_x_b86_neverRaises, gga_x_b86_regularPol, gga_x_b86_untiedPol⟩) <|
  fc (⟨gga_x_b88_neverRaises, gga_x_b88_regularPol, gga_x_b88_untiedPol⟩) <|
  fc (⟨gga_x_bayesian_neverRaises, gga_x_bayesian_regularPol, gga_x_bayesian_untiedPol⟩) <|
  fc (⟨gga_x_beefvdw_neverRaises, gga_x_beefvdw_regularPol, gga_x_beefvdw_untiedPol⟩) <|
  fc (⟨gga_x_bpccac_neverRaises, gga_x_bpccac_regularPol, gga_x_bpccac_untiedPol⟩) <|
  fc (⟨gga_x_c09x_neverRaises, gga_x_c09x_regularPol, gga_x_c09x_untiedPol⟩) <|
  fc (⟨gga_x_cap_neverRaises, gga_x_cap_regularPol, gga_x_cap_untiedPol⟩) <|
  fc (⟨gga_x_chachiyo_neverRaises, gga_x_chachiyo_regularPol, gga_x_chachiyo_untiedPol⟩) <|
  fc (⟨gga_x_dk87_neverRaises, gga_x_dk87_regularPol, gga_x_dk87_untiedPol⟩) <|
  fc (⟨gga_x_ev93_neverRaises, gga_x_ev93_regularPol, gga_x_ev93_untiedPol⟩) <|
  fc (⟨gga_x_ft97_neverRaises, gga_x_ft97_regularPol, gga_x_ft97_untiedPol⟩) <|
  fc (⟨gga_x_g96_neverRaises, gga_x_g96_regularPol, gga_x_g96_untiedPol⟩) <|
  fc (⟨gga_x_hcth_a_neverRaises, gga_x_hcth_a_regularPol, gga_x_hcth_a_untiedPol⟩) <|
  fc (⟨gga_x_herman_neverRaises, gga_x_herman_regularPol, gga_x_herman_untiedPol⟩) <|
  fc (⟨gga_x_kt_neverRaises, gga_x_kt_regularPol, gga_x_kt_untiedPol⟩) <|
  fc (⟨gga_x_lag_neverRaises, gga_x_lag_regularPol, gga_x_lag_untiedPol⟩) <|
  fc (⟨gga_x_lg93_neverRaises, gga_x_lg93_regularPol, gga_x_lg93_untiedPol⟩) <|
  fc (⟨gga_x_lspbe_neverRaises, gga_x_lspbe_regularPol, gga_x_lspbe_untiedPol⟩) <|
  fc (⟨gga_x_lsrpbe_neverRaises, gga_x_lsrpbe_regularPol, gga_x_lsrpbe_untiedPol⟩) <|
  fc (⟨gga_x_lv_rpw86_neverRaises, gga_x_lv_rpw86_regularPol, gga_x_lv_rpw86_untiedPol⟩) <|
  fc (⟨gga_x_mpbe_neverRaises, gga_x_mpbe_regularPol, gga_x_mpbe_untiedPol⟩) <|
  fc (⟨gga_x_n12_neverRaises, gga_x_n12_regularPol, gga_x_n12_untiedPol⟩) <|
  fc (⟨gga_x_ncap_neverRaises, gga_x_ncap_regularPol, gga_x_ncap_untiedPol⟩) <|
  fc (⟨gga_x_ol2_neverRaises, gga_x_ol2_regularPol, gga_x_ol2_untiedPol⟩) <|
  fc (⟨gga_x_optx_neverRaises, gga_x_optx_regularPol, gga_x_optx_untiedPol⟩) <|
  fc (⟨gga_x_pbe_neverRaises, gga_x_pbe_regularPol, gga_x_pbe_untiedPol⟩) <|
  fc (⟨gga_x_pbea_neverRaises, gga_x_pbea_regularPol, gga_x_pbea_untiedPol⟩) <|
  fc (⟨gga_x_pbepow_neverRaises, gga_x_pbepow_regularPol, gga_x_pbepow_untiedPol⟩) <|
  fc (⟨gga_x_pbetrans_neverRaises, gga_x_pbetrans_regularPol, gga_x_pbetrans_untiedPol⟩) <|
  fc (⟨gga_x_pw86_neverRaises, gga_x_pw86_regularPol, gga_x_pw86_untiedPol⟩) <|
  fc (⟨gga_x_pw91_neverRaises, gga_x_pw91_regularPol, gga_x_pw91_untiedPol⟩) <|
  fc (⟨gga_x_q1d_neverRaises, gga_x_q1d_regularPol, gga_x_q1d_untiedPol⟩) <|
  fc (⟨gga_x_q2d_neverRaises, gga_x_q2d_regularPol, gga_x_q2d_untiedPol⟩) <|
  fc (⟨gga_x_rge2_neverRaises, gga_x_rge2_regularPol, gga_x_rge2_untiedPol⟩) <|
  fc (⟨gga_x_rpbe_neverRaises, gga_x_rpbe_regularPol, gga_x_rpbe_untiedPol⟩) <|
  fc (⟨gga_x_s12_neverRaises, gga_x_s12_regularPol, gga_x_s12_untiedPol⟩) <|
  fc (⟨gga_x_sogga11_neverRaises, gga_x_sogga11_regularPol, gga_x_sogga11_untiedPol⟩) <|
  fc (⟨gga_x_ssb_sw_neverRaises, gga_x_ssb_sw_regularPol, gga_x_ssb_sw_untiedPol⟩) <|
  fc (⟨gga_x_vmt_neverRaises, gga_x_vmt_regularPol, gga_x_vmt_untiedPol⟩) <|
  fc (⟨gga_x_vmt84_neverRaises, gga_x_vmt84_regularPol, gga_x_vmt84_untiedPol⟩) <|
  fc (⟨gga_x_wc_neverRaises, gga_x_wc_regularPol, gga_x_wc_untiedPol⟩) <|
  fc (⟨gga_xc_b97_neverRaises, gga_xc_b97_regularPol, gga_xc_b97_untiedPol⟩) <|
  fc (⟨gga_xc_th1_neverRaises, gga_xc_th1_regularPol, gga_xc_th1_untiedPol⟩) <|
  fc (⟨gga_xc_th2_neverRaises, gga_xc_th2_regularPol, gga_xc_th2_untiedPol⟩) <|
  fc (⟨gga_xc_th3_neverRaises, gga_xc_th3_regularPol, gga_xc_th3_untiedPol⟩) <|
  fc (⟨hyb_mgga_x_dldf_neverRaises, hyb_mgga_x_dldf_regularPol, hyb_mgga_x_dldf_untiedPol⟩) <|
  fc (⟨hyb_mgga_x_m05_neverRaises, hyb_mgga_x_m05_regularPol, hyb_mgga_x_m05_untiedPol⟩) <|
  fc (⟨lda_c_1d_csc_neverRaises, lda_c_1d_csc_regularPol, lda_c_1d_csc_untiedPol⟩) <|
  fc (⟨lda_c_1d_loos_neverRaises, lda_c_1d_loos_regularPol, lda_c_1d_loos_untiedPol⟩) <|
  fc (⟨lda_c_2d_prm_neverRaises, lda_c_2d_prm_regularPol, lda_c_2d_prm_untiedPol⟩) <|
  fc (⟨lda_c_chachiyo_neverRaises, lda_c_chachiyo_regularPol, lda_c_chachiyo_untiedPol⟩) <|
  fc (⟨lda_c_chachiyo_mod_neverRaises, lda_c_chachiyo_mod_regularPol, lda_c_chachiyo_mod_untiedPol⟩) <|
  fc (⟨lda_c_gombas_neverRaises, lda_c_gombas_regularPol, lda_c_gombas_untiedPol⟩) <|
  fc (⟨lda_c_hl_neverRaises, lda_c_hl_regularPol, lda_c_hl_untiedPol⟩) <|
  fc (⟨lda_c_lp96_neverRaises, lda_c_lp96_regularPol, lda_c_lp96_untiedPol⟩) <|
  fc (⟨lda_c_pmgb06_neverRaises, lda_c_pmgb06_regularPol, lda_c_pmgb06_untiedPol⟩) <|
  fc (⟨lda_c_pw_neverRaises, lda_c_pw_regularPol, lda_c_pw_untiedPol⟩) <|
  fc (⟨lda_c_rc04_neverRaises, lda_c_rc04_regularPol, lda_c_rc04_untiedPol⟩) <|
  fc (⟨lda_c_rpa_neverRaises, lda_c_rpa_regularPol, lda_c_rpa_untiedPol⟩) <|
  fc (⟨lda_c_vwn_neverRaises, lda_c_vwn_regularPol, lda_c_vwn_untiedPol⟩) <|
  fc (⟨lda_c_vwn_1_neverRaises, lda_c_vwn_1_regularPol, lda_c_vwn_1_untiedPol⟩) <|
  fc (⟨lda_c_vwn_2_neverRaises, lda_c_vwn_2_regularPol, lda_c_vwn_2_untiedPol⟩) <|
  fc (⟨lda_c_vwn_4_neverRaises, lda_c_vwn_4_regularPol, lda_c_vwn_4_untiedPol⟩) <|
  fc (⟨lda_c_vwn_rpa_neverRaises, lda_c_vwn_rpa_regularPol, lda_c_vwn_rpa_untiedPol⟩) <|
  fc (⟨lda_c_wigner_neverRaises, lda_c_wigner_regularPol, lda_c_wigner_untiedPol⟩) <|
  fc (⟨lda_k_gds08_worker_neverRaises, lda_k_gds08_worker_regularPol, lda_k_gds08_worker_untiedPol⟩) <|
  fc (⟨lda_k_tf_neverRaises, lda_k_tf_regularPol, lda_k_tf_untiedPol⟩) <|
  fc (⟨lda_k_zlp_neverRaises, lda_k_zlp_regularPol, lda_k_zlp_untiedPol⟩) <|
  fc (⟨lda_x_neverRaises, lda_x_regularPol, lda_x_untiedPol⟩) <|
  fc (⟨lda_x_2d_neverRaises, lda_x_2d_regularPol, lda_x_2d_untiedPol⟩) <|
  fc (⟨lda_x_rel_neverRaises, lda_x_rel_regularPol, lda_x_rel_untiedPol⟩) <|
  fc (⟨lda_x_sloc_neverRaises, lda_x_sloc_regularPol, lda_x_sloc_untiedPol⟩) <|
  fc (⟨lda_xc_1d_ehwlrg_neverRaises, lda_xc_1d_ehwlrg_regularPol, lda_xc_1d_ehwlrg_untiedPol⟩) <|
  fc (⟨lda_xc_tih_neverRaises, lda_xc_tih_regularPol, lda_xc_tih_untiedPol⟩) <|
  fc (⟨lda_xc_zlp_neverRaises, lda_xc_zlp_regularPol, lda_xc_zlp_untiedPol⟩) <|
  fc (⟨mgga_c_b88_neverRaises, mgga_c_b88_regularPol, mgga_c_b88_untiedPol⟩) <|
  fc (⟨mgga_c_bc95_neverRaises, mgga_c_bc95_regularPol, mgga_c_bc95_untiedPol⟩) <|
  fc (⟨mgga_c_cc_neverRaises, mgga_c_cc_regularPol, mgga_c_cc_untiedPol⟩) <|
  fc (⟨mgga_c_cs_neverRaises, mgga_c_cs_regularPol, mgga_c_cs_untiedPol⟩) <|
  fc (⟨mgga_c_m05_neverRaises, mgga_c_m05_regularPol, mgga_c_m05_untiedPol⟩) <|
  fc (⟨mgga_k_gea2_neverRaises, mgga_k_gea2_regularPol, mgga_k_gea2_untiedPol⟩) <|
  fc (⟨mgga_k_gea4_neverRaises, mgga_k_gea4_regularPol, mgga_k_gea4_untiedPol⟩) <|
  fc (⟨mgga_k_pgslb_neverRaises, mgga_k_pgslb_regularPol, mgga_k_pgslb_untiedPol⟩) <|
  fc (⟨mgga_x_2d_js17_neverRaises, mgga_x_2d_js17_regularPol, mgga_x_2d_js17_untiedPol⟩) <|
  fc (⟨mgga_x_gdme_neverRaises, mgga_x_gdme_regularPol, mgga_x_gdme_untiedPol⟩) <|
  fc (⟨mgga_x_gvt4_neverRaises, mgga_x_gvt4_regularPol, mgga_x_gvt4_untiedPol⟩) <|
  fc (⟨mgga_x_lta_neverRaises, mgga_x_lta_regularPol, mgga_x_lta_untiedPol⟩) <|
  fc (⟨mgga_x_m06l_neverRaises, mgga_x_m06l_regularPol, mgga_x_m06l_untiedPol⟩) <|
  fc (⟨mgga_x_m08_neverRaises, mgga_x_m08_regularPol, mgga_x_m08_untiedPol⟩) <|
  fc (⟨mgga_x_mn12_neverRaises, mgga_x_mn12_regularPol, mgga_x_mn12_untiedPol⟩) <|
  fc (⟨mgga_x_mvs_neverRaises, mgga_x_mvs_regularPol, mgga_x_mvs_untiedPol⟩) <|
  fc (⟨mgga_x_tau_hcth_neverRaises, mgga_x_tau_hcth_regularPol, mgga_x_tau_hcth_untiedPol⟩) <|
  fc (⟨mgga_x_th_neverRaises, mgga_x_th_regularPol, mgga_x_th_untiedPol⟩) <|
  fc (⟨mgga_xc_b97mv_neverRaises, mgga_xc_b97mv_regularPol, mgga_xc_b97mv_untiedPol⟩) <|
  fc (⟨mgga_xc_b98_neverRaises, mgga_xc_b98_regularPol, mgga_xc_b98_untiedPol⟩) <|
  fc (⟨gga_c_acgga_neverRaises, gga_c_acgga_regularPol, gga_c_acgga_untiedPol⟩) <|
  fc (⟨gga_c_acggap_neverRaises, gga_c_acggap_regularPol, gga_c_acggap_untiedPol⟩) <|
  fc (⟨gga_c_pbe_neverRaises, gga_c_pbe_regularPol, gga_c_pbe_untiedPol⟩) <|
  fc (⟨gga_c_pbeloc_neverRaises, gga_c_pbeloc_regularPol, gga_c_pbeloc_untiedPol⟩) <|
  fc (⟨gga_c_pw91_neverRaises, gga_c_pw91_regularPol, gga_c_pw91_untiedPol⟩) <|
  fc (⟨gga_c_regtpss_neverRaises, gga_c_regtpss_regularPol, gga_c_regtpss_untiedPol⟩) <|
  fc (⟨gga_c_scan_e0_neverRaises, gga_c_scan_e0_regularPol, gga_c_scan_e0_untiedPol⟩) <|
  fc (⟨gga_c_sg4_neverRaises, gga_c_sg4_regularPol, gga_c_sg4_untiedPol⟩) <|
  fc (⟨gga_c_sogga11_neverRaises, gga_c_sogga11_regularPol, gga_c_sogga11_untiedPol⟩) <|
  fc (⟨gga_c_zpbeint_neverRaises, gga_c_zpbeint_regularPol, gga_c_zpbeint_untiedPol⟩) <|
  fc (⟨gga_k_apbeint_neverRaises, gga_k_apbeint_regularPol, gga_k_apbeint_untiedPol⟩) <|
  fc (⟨gga_x_pbeint_neverRaises, gga_x_pbeint_regularPol, gga_x_pbeint_untiedPol⟩) <|
  fc (⟨mgga_c_m06l_neverRaises, mgga_c_m06l_regularPol, mgga_c_m06l_untiedPol⟩) <|
  fc (⟨mgga_c_m08_neverRaises, mgga_c_m08_regularPol, mgga_c_m08_untiedPol⟩) <|
  fc (⟨mgga_c_vsxc_neverRaises, mgga_c_vsxc_regularPol, mgga_c_vsxc_untiedPol⟩) <|
  fc (⟨mgga_x_ms_neverRaises, mgga_x_ms_regularPol, mgga_x_ms_untiedPol⟩) <|
  fc (⟨mgga_x_msb_neverRaises, mgga_x_msb_regularPol, mgga_x_msb_untiedPol⟩) <|
  fc (⟨mgga_x_pkzb_neverRaises, mgga_x_pkzb_regularPol, mgga_x_pkzb_untiedPol⟩) <|
  fc (⟨mgga_x_regtpss_neverRaises, mgga_x_regtpss_regularPol, mgga_x_regtpss_untiedPol⟩) <|
  fc (⟨mgga_x_rtpss_neverRaises, mgga_x_rtpss_regularPol, mgga_x_rtpss_untiedPol⟩) <|
  fc (⟨mgga_x_tpss_neverRaises, mgga_x_tpss_regularPol, mgga_x_tpss_untiedPol⟩) <|
  fc (⟨mgga_x_vt84_neverRaises, mgga_x_vt84_regularPol, mgga_x_vt84_untiedPol⟩) <|
  fn

theorem untiedPol_length : untiedPol.length = 151 := rfl

/-- A function that is given near every point by a smooth one is given by a smooth one. -/
theorem glue {n : ℕ} {F : Coord n → Except PyErr ℝ} (h : ∀ r, ∃ e : Coord n → ℝ, ContDiffAt ℝ ∞ e r ∧ ∀ᶠ x in 𝓝 r, F x = .ok (e x)) :
    ∃ e : Coord n → ℝ, ContDiff ℝ ∞ e ∧ ∀ x, F x = .ok (e x) := by
  choose e hs he using h
  refine ⟨fun x => e x x, contDiff_iff_contDiffAt.2 fun r => (hs r).congr_of_eventuallyEq ?_, fun x => (he x).self_of_nhds⟩
  filter_upwards [he r] with x hx
  exact Except.ok.inj ((he x).self_of_nhds.symm.trans hx)

section
variable {n : ℕ} {P : Prims} {I : Impls} {g : GenInfo} {p : PTree} {eps : EpsFn} {rho : ArrFn n ℝ} {mo : Option (Callable n ℂ)} {r : Coord n}

/-- C63, unpolarized: the energy density is infinitely differentiable wherever the density and the orbitals are, the density is neither `dens_threshold` nor twice that
(and, where the list asks for it, the gradient and the kinetic energy density do not vanish). -/
theorem c63_smooth_unpol (hP : SmoothPrims P) {d : Shipped × Assume} (hd : d ∈ untiedUnpol) (hc : Created P I g false p eps) (hs : Single I p d.1.fam d.1.code)
    (ha : d.2.Rec p.info.vals) (hsh : rho.shape = []) (hρ : ContDiffAt ℝ ∞ (rho.ent · []) r) {m : ArrFn n ℂ} {N : ℕ}
    (hm : d.1.fam = .mgga → mo = some (.ok m) ∧ m.shape = [N] ∧ ∀ k, ContDiffAt ℝ ∞ (orb m N k) r) (h1 : rho.ent r [] ≠ thr p) (h2 : rho.ent r [] ≠ 2 * thr p)
    (hsp : d.2.sPos = true → gradient (rho.ent · []) r ≠ 0) (htp : d.2.tPos = true → 0 < kinetic (orb m N) r) :
    ∃ e : Coord n → ℝ, ContDiffAt ℝ ∞ e r ∧ ∀ᶠ x in 𝓝 r, eps.call (.ok rho) x mo = .ok (e x) := by
  obtain ⟨g1, g2, g3⟩ := untiedUnpol_ok d hd
  refine c52_smooth_unpol hP hc hs g1 hsh hρ hm ((lt_or_gt_of_ne h1).imp_right fun hthr => ⟨hthr, ?_⟩)
  have hρ0 : 0 < rho.ent r [] := lt_trans ha.dens hthr
  have hσ : 0 ≤ gradSq (rho.ent · []) r := by unfold gradSq; positivity
  refine g2 P _ _ _ _ _ ha hρ0 hσ (kinetic_nonneg' _ _) (fun e => by have := norm_pos_iff.2 (hsp e); unfold gradSq; positivity) htp ?_
  exact g3 P _ _ _ _ _ ⟨ha.dens, ha.zeta⟩ hρ0 hσ (kinetic_nonneg' _ _) ha.zeta1 fun e => h2 (by unfold thr; linarith)

/-- C63, polarized: the energy density is infinitely differentiable wherever the spin densities and the orbitals are and the spin densities are above the thresholds
(and, where the list asks for it, the gradients and the kinetic energy densities do not vanish). -/
theorem c63_smooth_pol (hP : SmoothPrims P) {d : Shipped × Assume} (hd : d ∈ untiedPol) (hc : Created P I g true p eps) (hs : Single I p d.1.fam d.1.code)
    (ha : d.2.Rec p.info.vals) (hsh : rho.shape = [2]) (hρ : ∀ s < 2, ContDiffAt ℝ ∞ (rho.ent · [s]) r) {m : ArrFn n ℂ} {N : ℕ}
    (hm : d.1.fam = .mgga → mo = some (.ok m) ∧ m.shape = [2, N] ∧ ∀ s < 2, ∀ k, ContDiffAt ℝ ∞ (spinOrb m N s k) r)
    (hu : Unscreened p.info.vals (rho.ent r [0]) (rho.ent r [1]))
    (hsp : d.2.sPos = true → gradient (rho.ent · [0]) r ≠ 0 ∧ gradient (rho.ent · [1]) r ≠ 0 ∧ gradient (rho.ent · [0]) r + gradient (rho.ent · [1]) r ≠ 0)
    (htp : d.2.tPos = true → 0 < kinetic (spinOrb m N 0) r ∧ 0 < kinetic (spinOrb m N 1) r) :
    ∃ e : Coord n → ℝ, ContDiffAt ℝ ∞ e r ∧ ∀ᶠ x in 𝓝 r, eps.call (.ok rho) x mo = .ok (e x) := by
  obtain ⟨g1, g2, g3⟩ := untiedPol_ok d hd
  have p0 := lt_trans ha.dens hu.dens0
  have p1 := lt_trans ha.dens hu.dens1
  have q0 : 0 ≤ gradSq (rho.ent · [0]) r := by unfold gradSq; positivity
  have q1 : 0 ≤ gradSq (rho.ent · [1]) r := by unfold gradSq; positivity
  have e : gradSq (rho.ent · [0]) r + 2 * gradDot (rho.ent · [0]) (rho.ent · [1]) r + gradSq (rho.ent · [1]) r =
      ‖gradient (rho.ent · [0]) r + gradient (rho.ent · [1]) r‖ ^ 2 := by
    unfold gradSq gradDot
    rw [norm_add_sq_real]
  refine c52_smooth_pol hP hc hs g1 hsh hρ hm (.inr ⟨by have := hu.dens0; unfold thr; linarith, ?_⟩)
  refine g2 P _ _ _ _ _ _ _ _ _ _ ha p0 p1 q0 q1 (by rw [e]; positivity) (kinetic_nonneg' _ _) (kinetic_nonneg' _ _) (fun h => ?_) htp ?_
  · obtain ⟨g0, g1, g2⟩ := hsp h
    have g0 := norm_pos_iff.2 g0
    have g1 := norm_pos_iff.2 g1
    have g2 := norm_pos_iff.2 g2
    rw [e]
    unfold gradSq
    exact ⟨by positivity, by positivity, by positivity⟩
  · exact g3 P _ _ _ _ _ _ _ _ _ _ ⟨ha.dens, ha.zeta⟩ p0 p1 q0 q1 (kinetic_nonneg' _ _) (kinetic_nonneg' _ _) hu

/-- C63: a smooth density that is everywhere above twice the threshold has a smooth energy density (formulas that do not ask for a gradient). -/
theorem c63_smooth_everywhere (hP : SmoothPrims P) {d : Shipped × Assume} (hd : d ∈ untiedUnpol) (hc : Created P I g false p eps) (hs : Single I p d.1.fam d.1.code)
    (ha : d.2.Rec p.info.vals) (hn : d.2.sPos = false) (hsh : rho.shape = []) (hρ : ContDiff ℝ ∞ (rho.ent · [])) {m : ArrFn n ℂ} {N : ℕ}
    (hm : d.1.fam = .mgga → mo = some (.ok m) ∧ m.shape = [N] ∧ ∀ k, ContDiff ℝ ∞ (orb m N k)) (hthr : ∀ r, 2 * thr p < rho.ent r [])
    (htp : d.2.tPos = true → ∀ r, 0 < kinetic (orb m N) r) :
    ∃ e : Coord n → ℝ, ContDiff ℝ ∞ e ∧ ∀ x, eps.call (.ok rho) x mo = .ok (e x) := by
  refine glue fun r => c63_smooth_unpol hP hd hc hs ha hsh hρ.contDiffAt (m := m) (N := N) (fun h => ?_) (fun h => ?_) (hthr r).ne' (fun h => ?_) fun h => htp h r
  · obtain ⟨h1, h2, h3⟩ := hm h
    exact ⟨h1, h2, fun k => (h3 k).contDiffAt⟩
  · have h1 := hthr r
    have h2 : 0 < thr p := ha.dens
    linarith
  · rw [hn] at h; cases h

/-- C63, polarized: smooth spin densities that are everywhere above the thresholds have a smooth energy density (formulas that do not ask for a gradient). -/
theorem c63_smooth_everywhere_pol (hP : SmoothPrims P) {d : Shipped × Assume} (hd : d ∈ untiedPol) (hc : Created P I g true p eps) (hs : Single I p d.1.fam d.1.code)
    (ha : d.2.Rec p.info.vals) (hn : d.2.sPos = false) (hsh : rho.shape = [2]) (hρ : ∀ s < 2, ContDiff ℝ ∞ (rho.ent · [s])) {m : ArrFn n ℂ} {N : ℕ}
    (hm : d.1.fam = .mgga → mo = some (.ok m) ∧ m.shape = [2, N] ∧ ∀ s < 2, ∀ k, ContDiff ℝ ∞ (spinOrb m N s k))
    (hu : ∀ r, Unscreened p.info.vals (rho.ent r [0]) (rho.ent r [1]))
    (htp : d.2.tPos = true → ∀ r, 0 < kinetic (spinOrb m N 0) r ∧ 0 < kinetic (spinOrb m N 1) r) :
    ∃ e : Coord n → ℝ, ContDiff ℝ ∞ e ∧ ∀ x, eps.call (.ok rho) x mo = .ok (e x) := by
  refine glue fun r => c63_smooth_pol hP hd hc hs ha hsh (fun s h => (hρ s h).contDiffAt) (m := m) (N := N) (fun h => ?_) (hu r) (fun h => ?_) fun h => htp h r
  · obtain ⟨h1, h2, h3⟩ := hm h
    exact ⟨h1, h2, fun s hs k => (h3 s hs k).contDiffAt⟩
  · rw [hn] at h; cases h

end

/-! ## The hypotheses can be met -/

/-- PBE exchange of the density `|x|² + 5`, with the thresholds of libxc, is a smooth function of the position. -/
example : ∃ e : Coord 3 → ℝ, ContDiff ℝ ∞ e ∧ ∀ x, (soloEps Demo.prims .gga gga_x_pbe false sampleRec).call (.ok (Demo.quad 3 5)) x none = .ok (e x) := by
  have hmem : ((⟨"gga_x_pbe", .gga, gga_x_pbe⟩, {params := ["kappa", "mu"]}) : Shipped × Assume) ∈ untiedUnpol := by simp [untiedUnpol]
  refine c63_smooth_everywhere demo_smoothPrims hmem (solo_created _ _ _ _ _) (solo_single _ _ _ _) (sampleRec_ok _ rfl fn fn) rfl rfl
    ((contDiff_norm_sq ℝ).add contDiff_const) (m := ⟨[0], fun _ _ => 0⟩) (N := 0) (fun h => nomatch h) (fun r => ?_) (fun h => nomatch h)
  have h0 : 0 ≤ ‖r‖ ^ 2 := by positivity
  norm_num [thr, soloTree, PTree.info, sampleRec, Demo.quad]; linarith

/-- The same for two spin densities `|x|² + 5` and `|x|² + 6`. -/
example : ∃ e : Coord 3 → ℝ, ContDiff ℝ ∞ e ∧ ∀ x, (soloEps Demo.prims .gga gga_x_pbe true sampleRec).call
    (.ok ⟨[2], fun x i => ‖x‖ ^ 2 + (if i = [0] then 5 else 6)⟩) x none = .ok (e x) := by
  have hmem : ((⟨"gga_x_pbe", .gga, gga_x_pbe⟩, {params := ["kappa", "mu"]}) : Shipped × Assume) ∈ untiedPol := by simp [untiedPol]
  refine c63_smooth_everywhere_pol demo_smoothPrims hmem (solo_created _ _ _ _ _) (solo_single _ _ _ _) (sampleRec_ok _ rfl fn fn) rfl rfl
    (fun s _ => (contDiff_norm_sq ℝ).add contDiff_const) (m := ⟨[2, 0], fun _ _ => 0⟩) (N := 0) (fun h => nomatch h) (fun r => ?_) (fun h => nomatch h)
  have h0 : 0 ≤ ‖r‖ ^ 2 := by positivity
  constructor <;> norm_num [soloTree, PTree.info, sampleRec] <;> linarith

/-- The condition `ρ ≠ 2 * dens_threshold` is needed: there, Slater exchange compares equal numbers. -/
theorem lda_x_tied (P : Prims) (p : Rec) (ρ : ℝ) (h : ρ / 2 = p.fld .densThreshold) : Tied P (unpolEnv p ρ none none none) lda_x.unpolBody := by
  unfold Tied
  simp only [lda_x.unpolBody, tiedBody, tied, literals, not_false_eq_true, true_and, false_or, or_false]
  right
  refine ⟨ρ / 2, ?_, ?_⟩
  · simp [seval, unpolEnv, sNum]
  · simp [seval, unpolEnv, h]

end Verif.Props
