import Verif.Props.Smooth
import Verif.Props.Domains
import Verif.Props.RegularHinted
import Verif.Lib.Solo
/-!
# C52: shipped formulas are smooth

The lists name the formulas that the analysis of `Verif.Norm.Regular` settles.
-/
set_option maxRecDepth 100000
namespace Verif.Props
open Verif.Py Verif.Model Verif.Spec Verif.Lib Verif.Norm Verif.Data Topology Filter
open scoped ContDiff

/-- Formulas whose unpolarized code is regular off ties, and under which assumptions. -/
noncomputable def regularUnpol : List (Shipped × Assume) := [
  (⟨"gga_c_acgga", .gga, gga_c_acgga⟩, {sPos := true}),
  (⟨"gga_c_acggap", .gga, gga_c_acggap⟩, {sPos := true}),
  (⟨"gga_c_am05", .gga, gga_c_am05⟩, {params := ["alpha"]}),
  (⟨"gga_c_bmk", .gga, gga_c_bmk⟩, {}),
  (⟨"gga_c_ccdf", .gga, gga_c_ccdf⟩, {sPos := true, params := ["c2"]}),
  (⟨"gga_c_chachiyo", .gga, gga_c_chachiyo⟩, {params := ["bf", "bp", "cf", "cp"], neg := ["ap"]}),
  (⟨"gga_c_cs1", .gga, gga_c_cs1⟩, {}),
  (⟨"gga_c_ft97", .gga, gga_c_ft97⟩, {}),
  (⟨"gga_c_hcth_a", .gga, gga_c_hcth_a⟩, {}),
  (⟨"gga_c_lm", .gga, gga_c_lm⟩, {sPos := true}),
  (⟨"gga_c_lyp", .gga, gga_c_lyp⟩, {params := ["d"]}),
  (⟨"gga_c_lypr", .gga, gga_c_lypr⟩, {params := ["d"]}),
  (⟨"gga_c_op_b88", .gga, gga_c_op_b88⟩, {sPos := true}),
  (⟨"gga_c_op_g96", .gga, gga_c_op_g96⟩, {sPos := true}),
  (⟨"gga_c_op_pbe", .gga, gga_c_op_pbe⟩, {}),
  (⟨"gga_c_op_xalpha", .gga, gga_c_op_xalpha⟩, {}),
  (⟨"gga_c_p86", .gga, gga_c_p86⟩, {sPos := true, params := ["aa", "bb", "malpha", "mbeta", "mdelta", "mgamma"]}),
  (⟨"gga_c_p86vwn", .gga, gga_c_p86vwn⟩, {sPos := true, params := ["aa", "bb", "malpha", "mbeta", "mdelta", "mgamma"]}),
  (⟨"gga_c_pbe", .gga, gga_c_pbe⟩, {params := ["BB", "beta", "gamma"]}),
  (⟨"gga_c_pbeloc", .gga, gga_c_pbeloc⟩, {}),
  (⟨"gga_c_pw91", .gga, gga_c_pw91⟩, {}),
  (⟨"gga_c_regtpss", .gga, gga_c_regtpss⟩, {}),
  (⟨"gga_c_revtca", .gga, gga_c_revtca⟩, {sPos := true}),
  (⟨"gga_c_scan_e0", .gga, gga_c_scan_e0⟩, {}),
  (⟨"gga_c_sg4", .gga, gga_c_sg4⟩, {sPos := true}),
  (⟨"gga_c_sogga11", .gga, gga_c_sogga11⟩, {}),
  (⟨"gga_c_tca", .gga, gga_c_tca⟩, {sPos := true}),
  (⟨"gga_c_w94", .gga, gga_c_w94⟩, {sPos := true}),
  (⟨"gga_c_wi", .gga, gga_c_wi⟩, {sPos := true, params := ["c", "d"]}),
  (⟨"gga_c_wl", .gga, gga_c_wl⟩, {sPos := true}),
  (⟨"gga_c_zpbeint", .gga, gga_c_zpbeint⟩, {sPos := true, params := ["beta"]}),
  (⟨"gga_c_zvpbeint", .gga, gga_c_zvpbeint⟩, {sPos := true, params := ["beta", "omega"]}),
  (⟨"gga_c_zvpbeloc", .gga, gga_c_zvpbeloc⟩, {}),
  (⟨"gga_k_apbe", .gga, gga_k_apbe⟩, {params := ["kappa", "mu"]}),
  (⟨"gga_k_dk", .gga, gga_k_dk⟩, {params := ["bb[0]", "bb[1]", "bb[2]", "bb[3]", "bb[4]"]}),
  (⟨"gga_k_exp4", .gga, gga_k_exp4⟩, {}),
  (⟨"gga_k_lc94", .gga, gga_k_lc94⟩, {sPos := true, params := ["a", "b", "expo", "f"]}),
  (⟨"gga_k_lgap", .gga, gga_k_lgap⟩, {sPos := true}),
  (⟨"gga_k_lgap_ge", .gga, gga_k_lgap_ge⟩, {sPos := true}),
  (⟨"gga_k_lkt", .gga, gga_k_lkt⟩, {sPos := true}),
  (⟨"gga_k_llp", .gga, gga_k_llp⟩, {sPos := true, params := ["beta", "gamma"]}),
  (⟨"gga_k_mpbe", .gga, gga_k_mpbe⟩, {params := ["a"]}),
  (⟨"gga_k_ol1", .gga, gga_k_ol1⟩, {sPos := true}),
  (⟨"gga_k_ol2", .gga, gga_k_ol2⟩, {sPos := true}),
  (⟨"gga_k_pearson", .gga, gga_k_pearson⟩, {}),
  (⟨"gga_k_pg", .gga, gga_k_pg⟩, {}),
  (⟨"gga_k_pw86", .gga, gga_k_pw86⟩, {}),
  (⟨"gga_k_rational_p", .gga, gga_k_rational_p⟩, {params := ["C2", "p"]}),
  (⟨"gga_k_tflw", .gga, gga_k_tflw⟩, {}),
  (⟨"gga_k_thakkar", .gga, gga_k_thakkar⟩, {sPos := true}),
  (⟨"gga_k_vt84f", .gga, gga_k_vt84f⟩, {sPos := true, params := ["mu"]}),
  (⟨"gga_x_2d_b86", .gga, gga_x_2d_b86⟩, {}),
  (⟨"gga_x_2d_b86_mgc", .gga, gga_x_2d_b86_mgc⟩, {}),
  (⟨"gga_x_2d_b88", .gga, gga_x_2d_b88⟩, {sPos := true}),
  (⟨"gga_x_2d_pbe", .gga, gga_x_2d_pbe⟩, {}),
  (⟨"gga_x_airy", .gga, gga_x_airy⟩, {sPos := true}),
  (⟨"gga_x_ak13", .gga, gga_x_ak13⟩, {sPos := true}),
  (⟨"gga_x_b86", .gga, gga_x_b86⟩, {params := ["gamma"]}),
  (⟨"gga_x_b88", .gga, gga_x_b88⟩, {sPos := true, params := ["beta", "gamma"]}),
  (⟨"gga_x_bayesian", .gga, gga_x_bayesian⟩, {sPos := true}),
  (⟨"gga_x_beefvdw", .gga, gga_x_beefvdw⟩, {}),
  (⟨"gga_x_bpccac", .gga, gga_x_bpccac⟩, {sPos := true}),
  (⟨"gga_x_c09x", .gga, gga_x_c09x⟩, {}),
  (⟨"gga_x_cap", .gga, gga_x_cap⟩, {sPos := true, params := ["c"]}),
  (⟨"gga_x_chachiyo", .gga, gga_x_chachiyo⟩, {sPos := true}),
  (⟨"gga_x_dk87", .gga, gga_x_dk87⟩, {sPos := true, params := ["alpha", "b1"]}),
  (⟨"gga_x_ev93", .gga, gga_x_ev93⟩, {params := ["b1", "b2", "b3"]}),
  (⟨"gga_x_ft97", .gga, gga_x_ft97⟩, {params := ["beta2"]}),
  (⟨"gga_x_g96", .gga, gga_x_g96⟩, {sPos := true}),
  (⟨"gga_x_hcth_a", .gga, gga_x_hcth_a⟩, {sPos := true}),
  (⟨"gga_x_herman", .gga, gga_x_herman⟩, {}),
  (⟨"gga_x_hjs", .gga, gga_x_hjs⟩, {sPos := true, params := ["b[0]", "b[1]", "b[2]", "b[3]", "b[4]", "b[5]", "b[6]", "b[7]", "b[8]"], flds := [.camOmega]}),
  (⟨"gga_x_htbs", .gga, gga_x_htbs⟩, {sPos := true}),
  (⟨"gga_x_ityh", .gga, gga_x_ityh⟩, {sPos := true, flds := [.camOmega]}),
  (⟨"gga_x_ityh_optx", .gga, gga_x_ityh_optx⟩, {params := ["a", "b"], flds := [.camOmega]}),
  (⟨"gga_x_kt", .gga, gga_x_kt⟩, {params := ["delta"]}),
  (⟨"gga_x_lag", .gga, gga_x_lag⟩, {sPos := true}),
  (⟨"gga_x_lg93", .gga, gga_x_lg93⟩, {}),
  (⟨"gga_x_lspbe", .gga, gga_x_lspbe⟩, {params := ["kappa", "mu"]}),
  (⟨"gga_x_lsrpbe", .gga, gga_x_lsrpbe⟩, {params := ["kappa"]}),
  (⟨"gga_x_lv_rpw86", .gga, gga_x_lv_rpw86⟩, {}),
  (⟨"gga_x_mpbe", .gga, gga_x_mpbe⟩, {params := ["a"]}),
  (⟨"gga_x_n12", .gga, gga_x_n12⟩, {}),
  (⟨"gga_x_ncap", .gga, gga_x_ncap⟩, {sPos := true, params := ["beta"]}),
  (⟨"gga_x_ol2", .gga, gga_x_ol2⟩, {sPos := true}),
  (⟨"gga_x_optx", .gga, gga_x_optx⟩, {params := ["gamma"]}),
  (⟨"gga_x_pbe", .gga, gga_x_pbe⟩, {params := ["kappa", "mu"]}),
  (⟨"gga_x_pbea", .gga, gga_x_pbea⟩, {}),
  (⟨"gga_x_pbepow", .gga, gga_x_pbepow⟩, {}),
  (⟨"gga_x_pbetrans", .gga, gga_x_pbetrans⟩, {sPos := true}),
  (⟨"gga_x_pw86", .gga, gga_x_pw86⟩, {params := ["aa", "bb", "cc"]}),
  (⟨"gga_x_pw91", .gga, gga_x_pw91⟩, {sPos := true, params := ["a", "b", "expo", "f"]}),
  (⟨"gga_x_q1d", .gga, gga_x_q1d⟩, {}),
  (⟨"gga_x_q2d", .gga, gga_x_q2d⟩, {sPos := true}),
  (⟨"gga_x_rge2", .gga, gga_x_rge2⟩, {}),
  (⟨"gga_x_rpbe", .gga, gga_x_rpbe⟩, {params := ["rpbe_kappa"]}),
  (⟨"gga_x_s12", .gga, gga_x_s12⟩, {params := ["C", "D", "E"]}),
  (⟨"gga_x_sfat", .gga, gga_x_sfat⟩, {sPos := true, flds := [.camOmega]}),
  (⟨"gga_x_sfat_pbe", .gga, gga_x_sfat_pbe⟩, {flds := [.camOmega]}),
  (⟨"gga_x_sogga11", .gga, gga_x_sogga11⟩, {params := ["kappa", "mu"]}),
  (⟨"gga_x_ssb_sw", .gga, gga_x_ssb_sw⟩, {params := ["C", "E"]}),
  (⟨"gga_x_vmt", .gga, gga_x_vmt⟩, {params := ["mu"]}),
  (⟨"gga_x_vmt84", .gga, gga_x_vmt84⟩, {sPos := true, params := ["mu"]}),
  (⟨"gga_x_wc", .gga, gga_x_wc⟩, {}),
  (⟨"gga_x_wpbeh", .gga, gga_x_wpbeh⟩, {sPos := true}),
  (⟨"gga_xc_b97", .gga, gga_xc_b97⟩, {}),
  (⟨"gga_xc_th1", .gga, gga_xc_th1⟩, {sPos := true}),
  (⟨"gga_xc_th2", .gga, gga_xc_th2⟩, {sPos := true}),
  (⟨"gga_xc_th3", .gga, gga_xc_th3⟩, {sPos := true}),
  (⟨"hyb_gga_x_cam_s12", .gga, hyb_gga_x_cam_s12⟩, {params := ["A", "B", "C", "D", "E"], flds := [.camOmega]}),
  (⟨"hyb_gga_xc_wb97", .gga, hyb_gga_xc_wb97⟩, {flds := [.camOmega]}),
  (⟨"hyb_mgga_x_dldf", .mgga, hyb_mgga_x_dldf⟩, {}),
  (⟨"hyb_mgga_x_m05", .mgga, hyb_mgga_x_m05⟩, {}),
  (⟨"hyb_mgga_x_pjs18", .mgga, hyb_mgga_x_pjs18⟩, {}),
  (⟨"hyb_mgga_xc_wb97mv", .mgga, hyb_mgga_xc_wb97mv⟩, {tPos := true, flds := [.camOmega]}),
  (⟨"lda_c_1d_csc", .lda, lda_c_1d_csc⟩, {params := ["para[0]", "para[1]", "para[2]", "para[3]", "para[7]", "para[8]"]}),
  (⟨"lda_c_1d_loos", .lda, lda_c_1d_loos⟩, {}),
  (⟨"lda_c_2d_prm", .lda, lda_c_2d_prm⟩, {params := ["c"]}),
  (⟨"lda_c_chachiyo", .lda, lda_c_chachiyo⟩, {params := ["bf", "bp", "cf", "cp"]}),
  (⟨"lda_c_chachiyo_mod", .lda, lda_c_chachiyo_mod⟩, {params := ["bf", "bp", "cf", "cp"]}),
  (⟨"lda_c_gk72", .lda, lda_c_gk72⟩, {}),
  (⟨"lda_c_gombas", .lda, lda_c_gombas⟩, {}),
  (⟨"lda_c_hl", .lda, lda_c_hl⟩, {params := ["hl_r[0]", "hl_r[1]"]}),
  (⟨"lda_c_lp96", .lda, lda_c_lp96⟩, {}),
  (⟨"lda_c_ml1", .lda, lda_c_ml1⟩, {params := ["fc"]}),
  (⟨"lda_c_pmgb06", .lda, lda_c_pmgb06⟩, {flds := [.camOmega]}),
  (⟨"lda_c_pw", .lda, lda_c_pw⟩, {params := ["a[0]", "a[2]", "beta1[0]", "beta1[2]", "beta2[0]", "beta2[2]", "beta3[0]", "beta3[2]", "beta4[0]", "beta4[2]", "fz20"]}),
  (⟨"lda_c_pz", .lda, lda_c_pz⟩, {params := ["beta1[0]", "beta1[1]", "beta2[0]", "beta2[1]"]}),
  (⟨"lda_c_rc04", .lda, lda_c_rc04⟩, {}),
  (⟨"lda_c_rpa", .lda, lda_c_rpa⟩, {}),
  (⟨"lda_c_vwn", .lda, lda_c_vwn⟩, {}),
  (⟨"lda_c_vwn_1", .lda, lda_c_vwn_1⟩, {}),
  (⟨"lda_c_vwn_2", .lda, lda_c_vwn_2⟩, {}),
  (⟨"lda_c_vwn_4", .lda, lda_c_vwn_4⟩, {}),
  (⟨"lda_c_vwn_rpa", .lda, lda_c_vwn_rpa⟩, {}),
  (⟨"lda_c_wigner", .lda, lda_c_wigner⟩, {params := ["b"]}),
  (⟨"lda_k_gds08_worker", .lda, lda_k_gds08_worker⟩, {}),
  (⟨"lda_k_tf", .lda, lda_k_tf⟩, {}),
  (⟨"lda_k_zlp", .lda, lda_k_zlp⟩, {}),
  (⟨"lda_x", .lda, lda_x⟩, {}),
  (⟨"lda_x_2d", .lda, lda_x_2d⟩, {}),
  (⟨"lda_x_erf", .lda, lda_x_erf⟩, {flds := [.camOmega]}),
  (⟨"lda_x_rel", .lda, lda_x_rel⟩, {}),
  (⟨"lda_x_sloc", .lda, lda_x_sloc⟩, {params := ["b"]}),
  (⟨"lda_x_yukawa", .lda, lda_x_yukawa⟩, {flds := [.camOmega]}),
  (⟨"lda_xc_1d_ehwlrg", .lda, lda_xc_1d_ehwlrg⟩, {}),
  (⟨"lda_xc_teter93", .lda, lda_xc_teter93⟩, {}),
  (⟨"lda_xc_tih", .lda, lda_xc_tih⟩, {}),
  (⟨"lda_xc_zlp", .lda, lda_xc_zlp⟩, {}),
  (⟨"mgga_c_b88", .mgga, mgga_c_b88⟩, {}),
  (⟨"mgga_c_bc95", .mgga, mgga_c_bc95⟩, {tPos := true, params := ["copp", "css"]}),
  (⟨"mgga_c_cc", .mgga, mgga_c_cc⟩, {}),
  (⟨"mgga_c_cs", .mgga, mgga_c_cs⟩, {}),
  (⟨"mgga_c_ltapw", .mgga, mgga_c_ltapw⟩, {tPos := true}),
  (⟨"mgga_c_m05", .mgga, mgga_c_m05⟩, {tPos := true, params := ["Fermi_D_cnst", "gamma_ab", "gamma_ss"]}),
  (⟨"mgga_c_m08", .mgga, mgga_c_m08⟩, {}),
  (⟨"mgga_c_rppscan", .mgga, mgga_c_rppscan⟩, {params := ["eta"]}),
  (⟨"mgga_c_rscan", .mgga, mgga_c_rscan⟩, {}),
  (⟨"mgga_k_csk", .mgga, mgga_k_csk⟩, {params := ["csk_a"]}),
  (⟨"mgga_k_csk_loc", .mgga, mgga_k_csk_loc⟩, {params := ["csk_a"]}),
  (⟨"mgga_k_gea2", .mgga, mgga_k_gea2⟩, {}),
  (⟨"mgga_k_gea4", .mgga, mgga_k_gea4⟩, {}),
  (⟨"mgga_k_pgslb", .mgga, mgga_k_pgslb⟩, {}),
  (⟨"mgga_x_2d_js17", .mgga, mgga_x_2d_js17⟩, {}),
  (⟨"mgga_x_gdme", .mgga, mgga_x_gdme⟩, {}),
  (⟨"mgga_x_gvt4", .mgga, mgga_x_gvt4⟩, {}),
  (⟨"mgga_x_lta", .mgga, mgga_x_lta⟩, {tPos := true}),
  (⟨"mgga_x_m06l", .mgga, mgga_x_m06l⟩, {}),
  (⟨"mgga_x_m08", .mgga, mgga_x_m08⟩, {}),
  (⟨"mgga_x_m11", .mgga, mgga_x_m11⟩, {flds := [.camOmega]}),
  (⟨"mgga_x_m11_l", .mgga, mgga_x_m11_l⟩, {flds := [.camOmega]}),
  (⟨"mgga_x_mn12", .mgga, mgga_x_mn12⟩, {}),
  (⟨"mgga_x_mvs", .mgga, mgga_x_mvs⟩, {params := ["b", "c1", "e1"]}),
  (⟨"mgga_x_tau_hcth", .mgga, mgga_x_tau_hcth⟩, {}),
  (⟨"mgga_x_th", .mgga, mgga_x_th⟩, {tPos := true}),
  (⟨"mgga_xc_b97mv", .mgga, mgga_xc_b97mv⟩, {tPos := true}),
  (⟨"mgga_xc_b98", .mgga, mgga_xc_b98⟩, {tPos := true}),
  (⟨"mgga_xc_lp90", .mgga, mgga_xc_lp90⟩, {}),
  (⟨"mgga_xc_zlp", .mgga, mgga_xc_zlp⟩, {}),
  (⟨"gga_c_op_pw91", .gga, gga_c_op_pw91⟩, {sPos := true}),
  (⟨"gga_k_apbeint", .gga, gga_k_apbeint⟩, {params := ["alpha", "kappa", "muGE", "muPBE"]}),
  (⟨"gga_x_ityh_pbe", .gga, gga_x_ityh_pbe⟩, {params := ["kappa", "mu"], flds := [.camOmega]}),
  (⟨"gga_x_pbeint", .gga, gga_x_pbeint⟩, {params := ["alpha", "kappa", "muGE", "muPBE"]}),
  (⟨"hyb_lda_xc_bn05", .lda, hyb_lda_xc_bn05⟩, {flds := [.camOmega]}),
  (⟨"hyb_mgga_x_js18", .mgga, hyb_mgga_x_js18⟩, {tPos := true, flds := [.camOmega]}),
  (⟨"lda_c_2d_amgb", .lda, lda_c_2d_amgb⟩, {}),
  (⟨"mgga_c_m06l", .mgga, mgga_c_m06l⟩, {tPos := true, params := ["Fermi_D_cnst", "alpha_ab", "alpha_ss", "gamma_ab", "gamma_ss"], le := [("alpha_ss", 1/20), ("alpha_ab", 1/20)]}),
  (⟨"mgga_c_pkzb", .mgga, mgga_c_pkzb⟩, {tPos := true, zetaSmall := true}),
  (⟨"mgga_c_revtpss", .mgga, mgga_c_revtpss⟩, {tPos := true, zetaSmall := true}),
  (⟨"mgga_c_rregtm", .mgga, mgga_c_rregtm⟩, {}),
  (⟨"mgga_c_scan", .mgga, mgga_c_scan⟩, {}),
  (⟨"mgga_c_tpss", .mgga, mgga_c_tpss⟩, {tPos := true, params := ["beta"], zetaSmall := true}),
  (⟨"mgga_c_tpssloc", .mgga, mgga_c_tpssloc⟩, {tPos := true, zetaSmall := true}),
  (⟨"mgga_c_vsxc", .mgga, mgga_c_vsxc⟩, {tPos := true, params := ["alpha_ab", "alpha_ss"], le := [("alpha_ss", 1/20), ("alpha_ab", 1/20)]}),
  (⟨"mgga_k_pc07", .mgga, mgga_k_pc07⟩, {params := ["a"]}),
  (⟨"mgga_x_mbeef", .mgga, mgga_x_mbeef⟩, {}),
  (⟨"mgga_x_mbeefvdw", .mgga, mgga_x_mbeefvdw⟩, {}),
  (⟨"mgga_x_mcml", .mgga, mgga_x_mcml⟩, {}),
  (⟨"mgga_x_ms", .mgga, mgga_x_ms⟩, {params := ["c", "kappa"], ge := [("b", 1/2)]}),
  (⟨"mgga_x_msb", .mgga, mgga_x_msb⟩, {params := ["c", "kappa"], ge := [("b", 1/2)]}),
  (⟨"mgga_x_pkzb", .mgga, mgga_x_pkzb⟩, {}),
  (⟨"mgga_x_r2scan", .mgga, mgga_x_r2scan⟩, {sPos := true, params := ["dp2", "eta", "k1"], le := [("eta", 1/100)]}),
  (⟨"mgga_x_r4scan", .mgga, mgga_x_r4scan⟩, {sPos := true, params := ["da4", "dp2", "dp4", "eta", "k1"], le := [("eta", 1/100)]}),
  (⟨"mgga_x_regtpss", .mgga, mgga_x_regtpss⟩, {sPos := true, tPos := true}),
  (⟨"mgga_x_revtm", .mgga, mgga_x_revtm⟩, {tPos := true}),
  (⟨"mgga_x_rppscan", .mgga, mgga_x_rppscan⟩, {sPos := true, params := ["eta", "k1"], le := [("k1", 1/10)]}),
  (⟨"mgga_x_rscan", .mgga, mgga_x_rscan⟩, {sPos := true, params := ["alphar", "k1", "taur"], le := [("k1", 1/10)]}),
  (⟨"mgga_x_rtpss", .mgga, mgga_x_rtpss⟩, {sPos := true, tPos := true, params := ["b", "e", "kappa"], le := [("b", 3)]}),
  (⟨"mgga_x_scan", .mgga, mgga_x_scan⟩, {sPos := true, params := ["c1", "c2", "k1"], le := [("k1", 1/10), ("d", 10)], ge := [("d", 1/10)]}),
  (⟨"mgga_x_tm", .mgga, mgga_x_tm⟩, {tPos := true}),
  (⟨"mgga_x_tpss", .mgga, mgga_x_tpss⟩, {sPos := true, tPos := true, params := ["b", "c", "e", "kappa", "mu"], le := [("b", 3)], ge := [("e", 1), ("kappa", 1/10)]}),
  (⟨"mgga_x_vcml", .mgga, mgga_x_vcml⟩, {}),
  (⟨"mgga_x_vt84", .mgga, mgga_x_vt84⟩, {sPos := true, tPos := true})]

theorem regularUnpol_ok : ∀ d ∈ regularUnpol, NeverRaises d.1.fam d.1.code ∧ RegularUnpol d.2 d.1.fam d.1.code :=
  fc (⟨gga_c_acgga_neverRaises, gga_c_acgga_regularUnpol⟩) <|
  fc (⟨gga_c_acggap_neverRaises, gga_c_acggap_regularUnpol⟩) <|
  fc (⟨gga_c_am05_neverRaises, gga_c_am05_regularUnpol⟩) <|
  fc (⟨gga_c_bmk_neverRaises, gga_c_bmk_regularUnpol⟩) <|
  fc (⟨gga_c_ccdf_neverRaises, gga_c_ccdf_regularUnpol⟩) <|
  fc (⟨gga_c_chachiyo_neverRaises, gga_c_chachiyo_regularUnpol⟩) <|
  fc (⟨gga_c_cs1_neverRaises, gga_c_cs1_regularUnpol⟩) <|
  fc (⟨gga_c_ft97_neverRaises, gga_c_ft97_regularUnpol⟩) <|
  fc (⟨gga_c_hcth_a_neverRaises, gga_c_hcth_a_regularUnpol⟩) <|
  fc (⟨gga_c_lm_neverRaises, gga_c_lm_regularUnpol⟩) <|
  fc (⟨gga_c_lyp_neverRaises, gga_c_lyp_regularUnpol⟩) <|
  fc (⟨gga_c_lypr_neverRaises, gga_c_lypr_regularUnpol⟩) <|
  fc (⟨gga_c_op_b88_neverRaises, gga_c_op_b88_regularUnpol⟩) <|
  fc (⟨gga_c_op_g96_neverRaises, gga_c_op_g96_regularUnpol⟩) <|
  fc (⟨gga_c_op_pbe_neverRaises, gga_c_op_pbe_regularUnpol⟩) <|
  fc (⟨gga_c_op_xalpha_neverRaises, gga_c_op_xalpha_regularUnpol⟩) <|
  fc (⟨gga_c_p86_neverRaises, gga_c_p86_regularUnpol⟩) <|
  fc (⟨gga_c_p86vwn_neverRaises, gga_c_p86vwn_regularUnpol⟩) <|
  fc (⟨gga_c_pbe_neverRaises, gga_c_pbe_regularUnpol⟩) <|
  fc (⟨gga_c_pbeloc_neverRaises, gga_c_pbeloc_regularUnpol⟩) <|
  fc (⟨gga_c_pw91_neverRaises, gga_c_pw91_regularUnpol⟩) <|
  fc (⟨gga_c_regtpss_neverRaises, gga_c_regtpss_regularUnpol⟩) <|
  fc (⟨gga_c_revtca_neverRaises, gga_c_revtca_regularUnpol⟩) <|
  fc (⟨gga_c_scan_e0_neverRaises, gga_c_scan_e0_regularUnpol⟩) <|
  fc (⟨gga_c_sg4_neverRaises, gga_c_sg4_regularUnpol⟩) <|
  fc (⟨gga_c_sogga11_neverRaises, gga_c_sogga11_regularUnpol⟩) <|
  fc (⟨gga_c_tca_neverRaises, gga_c_tca_regularUnpol⟩) <|
  fc (⟨gga_c_w94_neverRaises, gga_c_w94_regularUnpol⟩) <|
  fc (⟨gga_c_wi_neverRaises, gga_c_wi_regularUnpol⟩) <|
  fc (⟨gga_c_wl_neverRaises, gga_c_wl_regularUnpol⟩) <|
  fc (⟨gga_c_zpbeint_neverRaises, gga_c_zpbeint_regularUnpol⟩) <|
  fc (⟨gga_c_zvpbeint_neverRaises, gga_c_zvpbeint_regularUnpol⟩) <|
  fc (⟨gga_c_zvpbeloc_neverRaises, gga_c_zvpbeloc_regularUnpol⟩) <|
  fc (⟨gga_k_apbe_neverRaises, gga_k_apbe_regularUnpol⟩) <|
  fc (⟨gga_k_dk_neverRaises, gga_k_dk_regularUnpol⟩) <|
  fc (⟨gga_k_exp4_neverRaises, gga_k_exp4_regularUnpol⟩) <|
  fc (⟨gga_k_lc94_neverRaises, gga_k_lc94_regularUnpol⟩) <|
  fc (⟨gga_k_lgap_neverRaises, gga_k_lgap_regularUnpol⟩) <|
  fc (⟨gga_k_lgap_ge_neverRaises, gga_k_lgap_ge_regularUnpol⟩) <|
  fc (⟨gga_k_lkt_neverRaises, gga_k_lkt_regularUnpol⟩) <|
  fc (⟨gga_k_llp_neverRaises, gga_k_llp_regularUnpol⟩) <|
  fc (⟨gga_k_mpbe_neverRaises, gga_k_mpbe_regularUnpol⟩) <|
  fc (⟨gga_k_ol1_neverRaises, gga_k_ol1_regularUnpol⟩) <|
  fc (⟨gga_k_ol2_neverRaises, gga_k_ol2_regularUnpol⟩) <|
  fc (⟨gga_k_pearson_neverRaises, gga_k_pearson_regularUnpol⟩) <|
  fc (⟨gga_k_pg_neverRaises, gga_k_pg_regularUnpol⟩) <|
  fc (⟨gga_k_pw86_neverRaises, gga_k_pw86_regularUnpol⟩) <|
  fc (⟨gga_k_rational_p_neverRaises, gga_k_rational_p_regularUnpol⟩) <|
  fc (⟨gga_k_tflw_neverRaises, gga_k_tflw_regularUnpol⟩) <|
  fc (⟨gga_k_thakkar_neverRaises, gga_k_thakkar_regularUnpol⟩) <|
  fc (⟨gga_k_vt84f_neverRaises, gga_k_vt84f_regularUnpol⟩) <|
  fc (⟨gga_x_2d_b86_neverRaises, gga_x_2d_b86_regularUnpol⟩) <|
  fc (⟨gga_x_2d_b86_mgc_neverRaises, gga_x_2d_b86_mgc_regularUnpol⟩) <|
  fc (⟨gga_x_2d_b88_neverRaises, gga_x_2d_b88_regularUnpol⟩) <|
  fc (⟨gga_x_2d_pbe_neverRaises, gga_x_2d_pbe_regularUnpol⟩) <|
  fc (⟨gga_x_airy_neverRaises, gga_x_airy_regularUnpol⟩) <|
  fc (⟨gga_x_ak13_neverRaises, gga_x_ak13_regularUnpol⟩) <|
  fc (⟨gga_x_b86_neverRaises, gga_x_b86_regularUnpol⟩) <|
  fc (⟨gga_x_b88_neverRaises, gga_x_b88_regularUnpol⟩) <|
  fc (⟨gga_x_bayesian_neverRaises, gga_x_bayesian_regularUnpol⟩) <|
  fc (⟨gga_x_beefvdw_neverRaises, gga_x_beefvdw_regularUnpol⟩) <|
  fc (⟨gga_x_bpccac_neverRaises, gga_x_bpccac_regularUnpol⟩) <|
  fc (⟨gga_x_c09x_neverRaises, gga_x_c09x_regularUnpol⟩) <|
  fc (⟨gga_x_cap_neverRaises, gga_x_cap_regularUnpol⟩) <|
  fc (⟨gga_x_chachiyo_neverRaises, gga_x_chachiyo_regularUnpol⟩) <|
  fc (⟨gga_x_dk87_neverRaises, gga_x_dk87_regularUnpol⟩) <|
  fc (⟨gga_x_ev93_neverRaises, gga_x_ev93_regularUnpol⟩) <|
  fc (⟨gga_x_ft97_neverRaises, gga_x_ft97_regularUnpol⟩) <|
  fc (⟨gga_x_g96_neverRaises, gga_x_g96_regularUnpol⟩) <|
  fc (⟨gga_x_hcth_a_neverRaises, gga_x_hcth_a_regularUnpol⟩) <|
  fc (⟨gga_x_herman_neverRaises, gga_x_herman_regularUnpol⟩) <|
  fc (⟨gga_x_hjs_neverRaises, gga_x_hjs_regularUnpol⟩) <|
  fc (⟨gga_x_htbs_neverRaises, gga_x_htbs_regularUnpol⟩) <|
  fc (⟨gga_x_ityh_neverRaises, gga_x_ityh_regularUnpol⟩) <|
  fc (⟨gga_x_ityh_optx_neverRaises, gga_x_ityh_optx_regularUnpol⟩) <|
  fc (⟨gga_x_kt_neverRaises, gga_x_kt_regularUnpol⟩) <|
  fc (⟨gga_x_lag_neverRaises, gga_x_lag_regularUnpol⟩) <|
  fc (⟨gga_x_lg93_neverRaises, gga_x_lg93_regularUnpol⟩) <|
  fc (⟨gga_x_lspbe_neverRaises, gga_x_lspbe_regularUnpol⟩) <|
  fc (⟨gga_x_lsrpbe_neverRaises, gga_x_lsrpbe_regularUnpol⟩) <|
  fc (⟨gga_x_lv_rpw86_neverRaises, gga_x_lv_rpw86_regularUnpol⟩) <|
  fc (⟨gga_x_mpbe_neverRaises, gga_x_mpbe_regularUnpol⟩) <|
  fc (⟨gga_x_n12_neverRaises, gga_x_n12_regularUnpol⟩) <|
  fc (⟨gga_x_ncap_neverRaises, gga_x_ncap_regularUnpol⟩) <|
  fc (⟨gga_x_ol2_neverRaises, gga_x_ol2_regularUnpol⟩) <|
  fc (⟨gga_x_optx_neverRaises, gga_x_optx_regularUnpol⟩) <|
  fc (⟨gga_x_pbe_neverRaises, gga_x_pbe_regularUnpol⟩) <|
  fc (⟨gga_x_pbea_neverRaises, gga_x_pbea_regularUnpol⟩) <|
  fc (⟨gga_x_pbepow_neverRaises, gga_x_pbepow_regularUnpol⟩) <|
  fc (⟨gga_x_pbetrans_neverRaises, gga_x_pbetrans_regularUnpol⟩) <|
  fc (⟨gga_x_pw86_neverRaises, gga_x_pw86_regularUnpol⟩) <|
  fc (⟨gga_x_pw91_neverRaises, gga_x_pw91_regularUnpol⟩) <|
  fc (⟨gga_x_q1d_neverRaises, gga_x_q1d_regularUnpol⟩) <|
  fc (⟨gga_x_q2d_neverRaises, gga_x_q2d_regularUnpol⟩) <|
  fc (⟨gga_x_rge2_neverRaises, gga_x_rge2_regularUnpol⟩) <|
  fc (⟨gga_x_rpbe_neverRaises, gga_x_rpbe_regularUnpol⟩) <|
  fc (⟨gga_x_s12_neverRaises, gga_x_s12_regularUnpol⟩) <|
  fc (⟨gga_x_sfat_neverRaises, gga_x_sfat_regularUnpol⟩) <|
  fc (⟨gga_x_sfat_pbe_neverRaises, gga_x_sfat_pbe_regularUnpol⟩) <|
  fc (⟨gga_x_sogga11_neverRaises, gga_x_sogga11_regularUnpol⟩) <|
  fc (⟨gga_x_ssb_sw_neverRaises, gga_x_ssb_sw_regularUnpol⟩) <|
  fc (⟨gga_x_vmt_neverRaises, gga_x_vmt_regularUnpol⟩) <|
  fc (⟨gga_x_vmt84_neverRaises, gga_x_vmt84_regularUnpol⟩) <|
  fc (⟨gga_x_wc_neverRaises, gga_x_wc_regularUnpol⟩) <|
  fc (⟨gga_x_wpbeh_neverRaises, gga_x_wpbeh_regularUnpol⟩) <|
  fc (⟨gga_xc_b97_neverRaises, gga_xc_b97_regularUnpol⟩) <|
  fc (⟨gga_xc_th1_neverRaises, gga_xc_th1_regularUnpol⟩) <|
  fc (⟨gga_xc_th2_neverRaises, gga_xc_th2_regularUnpol⟩) <|
  fc (⟨gga_xc_th3_neverRaises, gga_xc_th3_regularUnpol⟩) <|
  fc (⟨hyb_gga_x_cam_s12_neverRaises, hyb_gga_x_cam_s12_regularUnpol⟩) <|
  fc (⟨hyb_gga_xc_wb97_neverRaises, hyb_gga_xc_wb97_regularUnpol⟩) <|
  fc (⟨hyb_mgga_x_dldf_neverRaises, hyb_mgga_x_dldf_regularUnpol⟩) <|
  fc (⟨hyb_mgga_x_m05_neverRaises, hyb_mgga_x_m05_regularUnpol⟩) <|
  fc (⟨hyb_mgga_x_pjs18_neverRaises, hyb_mgga_x_pjs18_regularUnpol⟩) <|
  fc (⟨hyb_mgga_xc_wb97mv_neverRaises, hyb_mgga_xc_wb97mv_regularUnpol⟩) <|
  fc (⟨lda_c_1d_csc_neverRaises, lda_c_1d_csc_regularUnpol⟩) <|
  fc (⟨lda_c_1d_loos_neverRaises, lda_c_1d_loos_regularUnpol⟩) <|
  fc (⟨lda_c_2d_prm_neverRaises, lda_c_2d_prm_regularUnpol⟩) <|
  fc (⟨lda_c_chachiyo_neverRaises, lda_c_chachiyo_regularUnpol⟩) <|
  fc (⟨lda_c_chachiyo_mod_neverRaises, lda_c_chachiyo_mod_regularUnpol⟩) <|
  fc (⟨lda_c_gk72_neverRaises, lda_c_gk72_regularUnpol⟩) <|
  fc (⟨lda_c_gombas_neverRaises, lda_c_gombas_regularUnpol⟩) <|
  fc (⟨lda_c_hl_neverRaises, lda_c_hl_regularUnpol⟩) <|
  fc (⟨lda_c_lp96_neverRaises, lda_c_lp96_regularUnpol⟩) <|
  fc (⟨lda_c_ml1_neverRaises, lda_c_ml1_regularUnpol⟩) <|
  fc (⟨lda_c_pmgb06_neverRaises, lda_c_pmgb06_regularUnpol⟩) <|
  fc (⟨lda_c_pw_neverRaises, lda_c_pw_regularUnpol⟩) <|
  fc (⟨lda_c_pz_neverRaises, lda_c_pz_regularUnpol⟩) <|
  fc (⟨lda_c_rc04_neverRaises, lda_c_rc04_regularUnpol⟩) <|
  fc (⟨lda_c_rpa_neverRaises, lda_c_rpa_regularUnpol⟩) <|
  fc (⟨lda_c_vwn_neverRaises, lda_c_vwn_regularUnpol⟩) <|
  fc (⟨lda_c_vwn_1_neverRaises, lda_c_vwn_1_regularUnpol⟩) <|
  fc (⟨lda_c_vwn_2_neverRaises, lda_c_vwn_2_regularUnpol⟩) <|
  fc (⟨lda_c_vwn_4_neverRaises, lda_c_vwn_4_regularUnpol⟩) <|
  fc (⟨lda_c_vwn_rpa_neverRaises, lda_c_vwn_rpa_regularUnpol⟩) <|
  fc (⟨lda_c_wigner_neverRaises, lda_c_wigner_regularUnpol⟩) <|
  fc (⟨lda_k_gds08_worker_neverRaises, lda_k_gds08_worker_regularUnpol⟩) <|
  fc (⟨lda_k_tf_neverRaises, lda_k_tf_regularUnpol⟩) <|
  fc (⟨lda_k_zlp_neverRaises, lda_k_zlp_regularUnpol⟩) <|
  fc (⟨lda_x_neverRaises, lda_x_regularUnpol⟩) <|
  fc (⟨lda_x_2d_neverRaises, lda_x_2d_regularUnpol⟩) <|
  fc (⟨lda_x_erf_neverRaises, lda_x_erf_regularUnpol⟩) <|
  fc (⟨lda_x_rel_neverRaises, lda_x_rel_regularUnpol⟩) <|
  fc (⟨lda_x_sloc_neverRaises, lda_x_sloc_regularUnpol⟩) <|
  fc (⟨lda_x_yukawa_neverRaises, lda_x_yukawa_regularUnpol⟩) <|
  fc (⟨lda_xc_1d_ehwlrg_neverRaises, lda_xc_1d_ehwlrg_regularUnpol⟩) <|
  fc (⟨lda_xc_teter93_neverRaises, lda_xc_teter93_regularUnpol⟩) <|
  fc (⟨lda_xc_tih_neverRaises, lda_xc_tih_regularUnpol⟩) <|
  fc (⟨lda_xc_zlp_neverRaises, lda_xc_zlp_regularUnpol⟩) <|
  fc (⟨mgga_c_b88_neverRaises, mgga_c_b88_regularUnpol⟩) <|
  fc (⟨mgga_c_bc95_neverRaises, mgga_c_bc95_regularUnpol⟩) <|
  fc (⟨mgga_c_cc_neverRaises, mgga_c_cc_regularUnpol⟩) <|
  fc (⟨mgga_c_cs_neverRaises, mgga_c_cs_regularUnpol⟩) <|
  fc (⟨mgga_c_ltapw_neverRaises, mgga_c_ltapw_regularUnpol⟩) <|
  fc (⟨mgga_c_m05_neverRaises, mgga_c_m05_regularUnpol⟩) <|
  fc (⟨mgga_c_m08_neverRaises, mgga_c_m08_regularUnpol⟩) <|
  fc (⟨mgga_c_rppscan_neverRaises, mgga_c_rppscan_regularUnpol⟩) <|
  fc (⟨mgga_c_rscan_neverRaises, mgga_c_rscan_regularUnpol⟩) <|
  fc (⟨mgga_k_csk_neverRaises, mgga_k_csk_regularUnpol⟩) <|
  fc (⟨mgga_k_csk_loc_neverRaises, mgga_k_csk_loc_regularUnpol⟩) <|
  fc (⟨mgga_k_gea2_neverRaises, mgga_k_gea2_regularUnpol⟩) <|
  fc (⟨mgga_k_gea4_neverRaises, mgga_k_gea4_regularUnpol⟩) <|
  fc (⟨mgga_k_pgslb_neverRaises, mgga_k_pgslb_regularUnpol⟩) <|
  fc (⟨mgga_x_2d_js17_neverRaises, mgga_x_2d_js17_regularUnpol⟩) <|
  fc (⟨mgga_x_gdme_neverRaises, mgga_x_gdme_regularUnpol⟩) <|
  fc (⟨mgga_x_gvt4_neverRaises, mgga_x_gvt4_regularUnpol⟩) <|
  fc (⟨mgga_x_lta_neverRaises, mgga_x_lta_regularUnpol⟩) <|
  fc (⟨mgga_x_m06l_neverRaises, mgga_x_m06l_regularUnpol⟩) <|
  fc (⟨mgga_x_m08_neverRaises, mgga_x_m08_regularUnpol⟩) <|
  fc (⟨mgga_x_m11_neverRaises, mgga_x_m11_regularUnpol⟩) <|
  fc (⟨mgga_x_m11_l_neverRaises, mgga_x_m11_l_regularUnpol⟩) <|
  fc (⟨mgga_x_mn12_neverRaises, mgga_x_mn12_regularUnpol⟩) <|
  fc (⟨mgga_x_mvs_neverRaises, mgga_x_mvs_regularUnpol⟩) <|
  fc (⟨mgga_x_tau_hcth_neverRaises, mgga_x_tau_hcth_regularUnpol⟩) <|
  fc (⟨mgga_x_th_neverRaises, mgga_x_th_regularUnpol⟩) <|
  fc (⟨mgga_xc_b97mv_neverRaises, mgga_xc_b97mv_regularUnpol⟩) <|
  fc (⟨mgga_xc_b98_neverRaises, mgga_xc_b98_regularUnpol⟩) <|
  fc (⟨mgga_xc_lp90_neverRaises, mgga_xc_lp90_regularUnpol⟩) <|
  fc (⟨mgga_xc_zlp_neverRaises, mgga_xc_zlp_regularUnpol⟩) <|
  fc (⟨gga_c_op_pw91_neverRaises, gga_c_op_pw91_regularUnpol⟩) <|
  fc (⟨gga_k_apbeint_neverRaises, gga_k_apbeint_regularUnpol⟩) <|
  fc (⟨gga_x_ityh_pbe_neverRaises, gga_x_ityh_pbe_regularUnpol⟩) <|
  fc (⟨gga_x_pbeint_neverRaises, gga_x_pbeint_regularUnpol⟩) <|
  fc (⟨hyb_lda_xc_bn05_neverRaises, hyb_lda_xc_bn05_regularUnpol⟩) <|
  fc (⟨hyb_mgga_x_js18_neverRaises, hyb_mgga_x_js18_regularUnpol⟩) <|
  fc (⟨lda_c_2d_amgb_neverRaises, lda_c_2d_amgb_regularUnpol⟩) <|
  fc (⟨mgga_c_m06l_neverRaises, mgga_c_m06l_regularUnpol⟩) <|
  fc (⟨mgga_c_pkzb_neverRaises, mgga_c_pkzb_regularUnpol⟩) <|
  fc (⟨mgga_c_revtpss_neverRaises, mgga_c_revtpss_regularUnpol⟩) <|
  fc (⟨mgga_c_rregtm_neverRaises, mgga_c_rregtm_regularUnpol⟩) <|
  fc (⟨mgga_c_scan_neverRaises, mgga_c_scan_regularUnpol⟩) <|
  fc (⟨mgga_c_tpss_neverRaises, mgga_c_tpss_regularUnpol⟩) <|
  fc (⟨mgga_c_tpssloc_neverRaises, mgga_c_tpssloc_regularUnpol⟩) <|
  fc (⟨mgga_c_vsxc_neverRaises, mgga_c_vsxc_regularUnpol⟩) <|
  fc (⟨mgga_k_pc07_neverRaises, mgga_k_pc07_regularUnpol⟩) <|
  fc (⟨mgga_x_mbeef_neverRaises, mgga_x_mbeef_regularUnpol⟩) <|
  fc (⟨mgga_x_mbeefvdw_neverRaises, mgga_x_mbeefvdw_regularUnpol⟩) <|
  fc (⟨mgga_x_mcml_neverRaises, mgga_x_mcml_regularUnpol⟩) <|
  fc (⟨mgga_x_ms_neverRaises, mgga_x_ms_regularUnpol⟩) <|
  fc (⟨mgga_x_msb_neverRaises, mgga_x_msb_regularUnpol⟩) <|
  fc (⟨mgga_x_pkzb_neverRaises, mgga_x_pkzb_regularUnpol⟩) <|
  fc (⟨mgga_x_r2scan_neverRaises, mgga_x_r2scan_regularUnpol⟩) <|
  fc (⟨mgga_x_r4scan_neverRaises, mgga_x_r4scan_regularUnpol⟩) <|
  fc (⟨mgga_x_regtpss_neverRaises, mgga_x_regtpss_regularUnpol⟩) <|
  fc (⟨mgga_x_revtm_neverRaises, mgga_x_revtm_regularUnpol⟩) <|
  fc (⟨mgga_x_rppscan_neverRaises, mgga_x_rppscan_regularUnpol⟩) <|
  fc (⟨mgga_x_rscan_neverRaises, mgga_x_rscan_regularUnpol⟩) <|
  fc (⟨mgga_x_rtpss_neverRaises, mgga_x_rtpss_regularUnpol⟩) <|
  fc (⟨mgga_x_scan_neverRaises, mgga_x_scan_regularUnpol⟩) <|
  fc (⟨mgga_x_tm_neverRaises, mgga_x_tm_regularUnpol⟩) <|
  fc (⟨mgga_x_tpss_neverRaises, mgga_x_tpss_regularUnpol⟩) <|
  fc (⟨mgga_x_vcml_neverRaises, mgga_x_vcml_regularUnpol⟩) <|
  fc (⟨mgga_x_vt84_neverRaises, mgga_x_vt84_regularUnpol⟩) <|
  fn

theorem regularUnpol_length : regularUnpol.length = 213 := rfl

/-- Formulas whose polarized code is regular off ties, and under which assumptions. -/
noncomputable def regularPol : List (Shipped × Assume) := [
  (⟨"gga_c_am05", .gga, gga_c_am05⟩, {params := ["alpha"]}),
  (⟨"gga_c_bmk", .gga, gga_c_bmk⟩, {}),
  (⟨"gga_c_ccdf", .gga, gga_c_ccdf⟩, {sPos := true, params := ["c2"]}),
  (⟨"gga_c_cs1", .gga, gga_c_cs1⟩, {}),
  (⟨"gga_c_ft97", .gga, gga_c_ft97⟩, {}),
  (⟨"gga_c_hcth_a", .gga, gga_c_hcth_a⟩, {}),
  (⟨"gga_c_lm", .gga, gga_c_lm⟩, {sPos := true}),
  (⟨"gga_c_lyp", .gga, gga_c_lyp⟩, {params := ["d"]}),
  (⟨"gga_c_lypr", .gga, gga_c_lypr⟩, {params := ["d"]}),
  (⟨"gga_c_p86", .gga, gga_c_p86⟩, {sPos := true, params := ["aa", "bb", "malpha", "mbeta", "mdelta", "mgamma"]}),
  (⟨"gga_c_p86vwn", .gga, gga_c_p86vwn⟩, {sPos := true, params := ["aa", "bb", "malpha", "mbeta", "mdelta", "mgamma"]}),
  (⟨"gga_c_revtca", .gga, gga_c_revtca⟩, {sPos := true}),
  (⟨"gga_c_tca", .gga, gga_c_tca⟩, {sPos := true}),
  (⟨"gga_c_wi", .gga, gga_c_wi⟩, {sPos := true, params := ["c", "d"]}),
  (⟨"gga_c_wl", .gga, gga_c_wl⟩, {sPos := true}),
  (⟨"gga_k_apbe", .gga, gga_k_apbe⟩, {params := ["kappa", "mu"]}),
  (⟨"gga_k_dk", .gga, gga_k_dk⟩, {params := ["bb[0]", "bb[1]", "bb[2]", "bb[3]", "bb[4]"]}),
  (⟨"gga_k_exp4", .gga, gga_k_exp4⟩, {}),
  (⟨"gga_k_lc94", .gga, gga_k_lc94⟩, {sPos := true, params := ["a", "b", "expo", "f"]}),
  (⟨"gga_k_lgap", .gga, gga_k_lgap⟩, {sPos := true}),
  (⟨"gga_k_lgap_ge", .gga, gga_k_lgap_ge⟩, {sPos := true}),
  (⟨"gga_k_lkt", .gga, gga_k_lkt⟩, {sPos := true}),
  (⟨"gga_k_llp", .gga, gga_k_llp⟩, {sPos := true, params := ["beta", "gamma"]}),
  (⟨"gga_k_mpbe", .gga, gga_k_mpbe⟩, {params := ["a"]}),
  (⟨"gga_k_ol1", .gga, gga_k_ol1⟩, {sPos := true}),
  (⟨"gga_k_ol2", .gga, gga_k_ol2⟩, {sPos := true}),
  (⟨"gga_k_pearson", .gga, gga_k_pearson⟩, {}),
  (⟨"gga_k_pg", .gga, gga_k_pg⟩, {}),
  (⟨"gga_k_pw86", .gga, gga_k_pw86⟩, {}),
  (⟨"gga_k_rational_p", .gga, gga_k_rational_p⟩, {params := ["C2", "p"]}),
  (⟨"gga_k_tflw", .gga, gga_k_tflw⟩, {}),
  (⟨"gga_k_thakkar", .gga, gga_k_thakkar⟩, {sPos := true}),
  (⟨"gga_k_vt84f", .gga, gga_k_vt84f⟩, {sPos := true, params := ["mu"]}),
  (⟨"gga_x_2d_b86", .gga, gga_x_2d_b86⟩, {}),
  (⟨"gga_x_2d_b86_mgc", .gga, gga_x_2d_b86_mgc⟩, {}),
  (⟨"gga_x_2d_b88", .gga, gga_x_2d_b88⟩, {sPos := true}),
  (⟨"gga_x_2d_pbe", .gga, gga_x_2d_pbe⟩, {}),
  (⟨"gga_x_airy", .gga, gga_x_airy⟩, {sPos := true}),
  (⟨"gga_x_ak13", .gga, gga_x_ak13⟩, {sPos := true}),
  (⟨"gga_x_b86", .gga, gga_x_b86⟩, {params := ["gamma"]}),
  (⟨"gga_x_b88", .gga, gga_x_b88⟩, {sPos := true, params := ["beta", "gamma"]}),
  (⟨"gga_x_bayesian", .gga, gga_x_bayesian⟩, {sPos := true}),
  (⟨"gga_x_beefvdw", .gga, gga_x_beefvdw⟩, {}),
  (⟨"gga_x_bpccac", .gga, gga_x_bpccac⟩, {sPos := true}),
  (⟨"gga_x_c09x", .gga, gga_x_c09x⟩, {}),
  (⟨"gga_x_cap", .gga, gga_x_cap⟩, {sPos := true, params := ["c"]}),
  (⟨"gga_x_chachiyo", .gga, gga_x_chachiyo⟩, {sPos := true}),
  (⟨"gga_x_dk87", .gga, gga_x_dk87⟩, {sPos := true, params := ["alpha", "b1"]}),
  (⟨"gga_x_ev93", .gga, gga_x_ev93⟩, {params := ["b1", "b2", "b3"]}),
  (⟨"gga_x_ft97", .gga, gga_x_ft97⟩, {params := ["beta2"]}),
  (⟨"gga_x_g96", .gga, gga_x_g96⟩, {sPos := true}),
  (⟨"gga_x_hcth_a", .gga, gga_x_hcth_a⟩, {sPos := true}),
  (⟨"gga_x_herman", .gga, gga_x_herman⟩, {}),
  (⟨"gga_x_hjs", .gga, gga_x_hjs⟩, {sPos := true, params := ["b[0]", "b[1]", "b[2]", "b[3]", "b[4]", "b[5]", "b[6]", "b[7]", "b[8]"], flds := [.camOmega]}),
  (⟨"gga_x_htbs", .gga, gga_x_htbs⟩, {sPos := true}),
  (⟨"gga_x_ityh", .gga, gga_x_ityh⟩, {sPos := true, flds := [.camOmega]}),
  (⟨"gga_x_ityh_optx", .gga, gga_x_ityh_optx⟩, {params := ["a", "b"], flds := [.camOmega]}),
  (⟨"gga_x_kt", .gga, gga_x_kt⟩, {params := ["delta"]}),
  (⟨"gga_x_lag", .gga, gga_x_lag⟩, {sPos := true}),
  (⟨"gga_x_lg93", .gga, gga_x_lg93⟩, {}),
  (⟨"gga_x_lspbe", .gga, gga_x_lspbe⟩, {params := ["kappa", "mu"]}),
  (⟨"gga_x_lsrpbe", .gga, gga_x_lsrpbe⟩, {params := ["kappa"]}),
  (⟨"gga_x_lv_rpw86", .gga, gga_x_lv_rpw86⟩, {}),
  (⟨"gga_x_mpbe", .gga, gga_x_mpbe⟩, {params := ["a"]}),
  (⟨"gga_x_n12", .gga, gga_x_n12⟩, {}),
  (⟨"gga_x_ncap", .gga, gga_x_ncap⟩, {sPos := true, params := ["beta"]}),
  (⟨"gga_x_ol2", .gga, gga_x_ol2⟩, {sPos := true}),
  (⟨"gga_x_optx", .gga, gga_x_optx⟩, {params := ["gamma"]}),
  (⟨"gga_x_pbe", .gga, gga_x_pbe⟩, {params := ["kappa", "mu"]}),
  (⟨"gga_x_pbea", .gga, gga_x_pbea⟩, {}),
  (⟨"gga_x_pbepow", .gga, gga_x_pbepow⟩, {}),
  (⟨"gga_x_pbetrans", .gga, gga_x_pbetrans⟩, {sPos := true}),
  (⟨"gga_x_pw86", .gga, gga_x_pw86⟩, {params := ["aa", "bb", "cc"]}),
  (⟨"gga_x_pw91", .gga, gga_x_pw91⟩, {sPos := true, params := ["a", "b", "expo", "f"]}),
  (⟨"gga_x_q1d", .gga, gga_x_q1d⟩, {}),
  (⟨"gga_x_q2d", .gga, gga_x_q2d⟩, {sPos := true}),
  (⟨"gga_x_rge2", .gga, gga_x_rge2⟩, {}),
  (⟨"gga_x_rpbe", .gga, gga_x_rpbe⟩, {params := ["rpbe_kappa"]}),
  (⟨"gga_x_s12", .gga, gga_x_s12⟩, {params := ["C", "D", "E"]}),
  (⟨"gga_x_sfat", .gga, gga_x_sfat⟩, {sPos := true, flds := [.camOmega]}),
  (⟨"gga_x_sfat_pbe", .gga, gga_x_sfat_pbe⟩, {flds := [.camOmega]}),
  (⟨"gga_x_sogga11", .gga, gga_x_sogga11⟩, {params := ["kappa", "mu"]}),
  (⟨"gga_x_ssb_sw", .gga, gga_x_ssb_sw⟩, {params := ["C", "E"]}),
  (⟨"gga_x_vmt", .gga, gga_x_vmt⟩, {params := ["mu"]}),
  (⟨"gga_x_vmt84", .gga, gga_x_vmt84⟩, {sPos := true, params := ["mu"]}),
  (⟨"gga_x_wc", .gga, gga_x_wc⟩, {}),
  (⟨"gga_x_wpbeh", .gga, gga_x_wpbeh⟩, {sPos := true}),
  (⟨"gga_xc_b97", .gga, gga_xc_b97⟩, {}),
  (⟨"gga_xc_th1", .gga, gga_xc_th1⟩, {sPos := true}),
  (⟨"gga_xc_th2", .gga, gga_xc_th2⟩, {sPos := true}),
  (⟨"gga_xc_th3", .gga, gga_xc_th3⟩, {sPos := true}),
  (⟨"hyb_gga_x_cam_s12", .gga, hyb_gga_x_cam_s12⟩, {params := ["A", "B", "C", "D", "E"], flds := [.camOmega]}),
  (⟨"hyb_gga_xc_wb97", .gga, hyb_gga_xc_wb97⟩, {flds := [.camOmega]}),
  (⟨"hyb_mgga_x_dldf", .mgga, hyb_mgga_x_dldf⟩, {}),
  (⟨"hyb_mgga_x_m05", .mgga, hyb_mgga_x_m05⟩, {}),
  (⟨"hyb_mgga_x_pjs18", .mgga, hyb_mgga_x_pjs18⟩, {}),
  (⟨"hyb_mgga_xc_wb97mv", .mgga, hyb_mgga_xc_wb97mv⟩, {tPos := true, flds := [.camOmega]}),
  (⟨"lda_c_1d_csc", .lda, lda_c_1d_csc⟩, {params := ["ferro[0]", "ferro[1]", "ferro[2]", "ferro[3]", "ferro[7]", "ferro[8]", "para[0]", "para[1]", "para[2]", "para[3]", "para[7]", "para[8]"]}),
  (⟨"lda_c_1d_loos", .lda, lda_c_1d_loos⟩, {}),
  (⟨"lda_c_2d_prm", .lda, lda_c_2d_prm⟩, {params := ["c"]}),
  (⟨"lda_c_chachiyo", .lda, lda_c_chachiyo⟩, {params := ["bf", "bp", "cf", "cp"]}),
  (⟨"lda_c_chachiyo_mod", .lda, lda_c_chachiyo_mod⟩, {params := ["bf", "bp", "cf", "cp"]}),
  (⟨"lda_c_gk72", .lda, lda_c_gk72⟩, {}),
  (⟨"lda_c_gombas", .lda, lda_c_gombas⟩, {}),
  (⟨"lda_c_hl", .lda, lda_c_hl⟩, {params := ["hl_r[0]", "hl_r[1]"]}),
  (⟨"lda_c_lp96", .lda, lda_c_lp96⟩, {}),
  (⟨"lda_c_pmgb06", .lda, lda_c_pmgb06⟩, {flds := [.camOmega]}),
  (⟨"lda_c_pw", .lda, lda_c_pw⟩, {params := ["a[0]", "a[1]", "a[2]", "beta1[0]", "beta1[1]", "beta1[2]", "beta2[0]", "beta2[1]", "beta2[2]", "beta3[0]", "beta3[1]", "beta3[2]", "beta4[0]", "beta4[1]", "beta4[2]", "fz20"]}),
  (⟨"lda_c_pz", .lda, lda_c_pz⟩, {params := ["beta1[0]", "beta1[1]", "beta2[0]", "beta2[1]"]}),
  (⟨"lda_c_rc04", .lda, lda_c_rc04⟩, {}),
  (⟨"lda_c_rpa", .lda, lda_c_rpa⟩, {}),
  (⟨"lda_c_vwn", .lda, lda_c_vwn⟩, {}),
  (⟨"lda_c_vwn_1", .lda, lda_c_vwn_1⟩, {}),
  (⟨"lda_c_vwn_2", .lda, lda_c_vwn_2⟩, {}),
  (⟨"lda_c_vwn_4", .lda, lda_c_vwn_4⟩, {}),
  (⟨"lda_c_vwn_rpa", .lda, lda_c_vwn_rpa⟩, {}),
  (⟨"lda_c_wigner", .lda, lda_c_wigner⟩, {params := ["b"]}),
  (⟨"lda_k_gds08_worker", .lda, lda_k_gds08_worker⟩, {}),
  (⟨"lda_k_tf", .lda, lda_k_tf⟩, {}),
  (⟨"lda_k_zlp", .lda, lda_k_zlp⟩, {}),
  (⟨"lda_x", .lda, lda_x⟩, {}),
  (⟨"lda_x_2d", .lda, lda_x_2d⟩, {}),
  (⟨"lda_x_erf", .lda, lda_x_erf⟩, {flds := [.camOmega]}),
  (⟨"lda_x_rel", .lda, lda_x_rel⟩, {}),
  (⟨"lda_x_sloc", .lda, lda_x_sloc⟩, {params := ["b"]}),
  (⟨"lda_x_yukawa", .lda, lda_x_yukawa⟩, {flds := [.camOmega]}),
  (⟨"lda_xc_1d_ehwlrg", .lda, lda_xc_1d_ehwlrg⟩, {}),
  (⟨"lda_xc_tih", .lda, lda_xc_tih⟩, {}),
  (⟨"lda_xc_zlp", .lda, lda_xc_zlp⟩, {}),
  (⟨"mgga_c_b88", .mgga, mgga_c_b88⟩, {}),
  (⟨"mgga_c_bc95", .mgga, mgga_c_bc95⟩, {tPos := true, params := ["copp", "css"]}),
  (⟨"mgga_c_cc", .mgga, mgga_c_cc⟩, {tPos := true}),
  (⟨"mgga_c_cs", .mgga, mgga_c_cs⟩, {}),
  (⟨"mgga_c_m05", .mgga, mgga_c_m05⟩, {tPos := true, params := ["Fermi_D_cnst", "gamma_ab", "gamma_ss"]}),
  (⟨"mgga_k_csk", .mgga, mgga_k_csk⟩, {params := ["csk_a"]}),
  (⟨"mgga_k_csk_loc", .mgga, mgga_k_csk_loc⟩, {params := ["csk_a"]}),
  (⟨"mgga_k_gea2", .mgga, mgga_k_gea2⟩, {}),
  (⟨"mgga_k_gea4", .mgga, mgga_k_gea4⟩, {}),
  (⟨"mgga_k_pgslb", .mgga, mgga_k_pgslb⟩, {}),
  (⟨"mgga_x_2d_js17", .mgga, mgga_x_2d_js17⟩, {}),
  (⟨"mgga_x_gdme", .mgga, mgga_x_gdme⟩, {}),
  (⟨"mgga_x_gvt4", .mgga, mgga_x_gvt4⟩, {}),
  (⟨"mgga_x_lta", .mgga, mgga_x_lta⟩, {tPos := true}),
  (⟨"mgga_x_m06l", .mgga, mgga_x_m06l⟩, {}),
  (⟨"mgga_x_m08", .mgga, mgga_x_m08⟩, {}),
  (⟨"mgga_x_m11", .mgga, mgga_x_m11⟩, {flds := [.camOmega]}),
  (⟨"mgga_x_m11_l", .mgga, mgga_x_m11_l⟩, {flds := [.camOmega]}),
  (⟨"mgga_x_mn12", .mgga, mgga_x_mn12⟩, {}),
  (⟨"mgga_x_mvs", .mgga, mgga_x_mvs⟩, {params := ["b", "c1", "e1"]}),
  (⟨"mgga_x_tau_hcth", .mgga, mgga_x_tau_hcth⟩, {}),
  (⟨"mgga_x_th", .mgga, mgga_x_th⟩, {tPos := true}),
  (⟨"mgga_xc_b97mv", .mgga, mgga_xc_b97mv⟩, {tPos := true}),
  (⟨"mgga_xc_b98", .mgga, mgga_xc_b98⟩, {tPos := true}),
  (⟨"gga_c_acgga", .gga, gga_c_acgga⟩, {sPos := true, zetaSmall := true}),
  (⟨"gga_c_acggap", .gga, gga_c_acggap⟩, {sPos := true, zetaSmall := true}),
  (⟨"gga_c_pbe", .gga, gga_c_pbe⟩, {params := ["BB", "beta", "gamma"], zetaSmall := true}),
  (⟨"gga_c_pbeloc", .gga, gga_c_pbeloc⟩, {zetaSmall := true}),
  (⟨"gga_c_pw91", .gga, gga_c_pw91⟩, {zetaSmall := true}),
  (⟨"gga_c_regtpss", .gga, gga_c_regtpss⟩, {zetaSmall := true}),
  (⟨"gga_c_scan_e0", .gga, gga_c_scan_e0⟩, {zetaSmall := true}),
  (⟨"gga_c_sg4", .gga, gga_c_sg4⟩, {sPos := true, zetaSmall := true}),
  (⟨"gga_c_sogga11", .gga, gga_c_sogga11⟩, {zetaSmall := true}),
  (⟨"gga_c_zpbeint", .gga, gga_c_zpbeint⟩, {sPos := true, params := ["beta"], zetaSmall := true}),
  (⟨"gga_c_zvpbeint", .gga, gga_c_zvpbeint⟩, {sPos := true, params := ["beta"], zetaSmall := true}),
  (⟨"gga_c_zvpbeloc", .gga, gga_c_zvpbeloc⟩, {zetaSmall := true}),
  (⟨"gga_k_apbeint", .gga, gga_k_apbeint⟩, {params := ["alpha", "kappa", "muGE", "muPBE"]}),
  (⟨"gga_x_ityh_pbe", .gga, gga_x_ityh_pbe⟩, {params := ["kappa", "mu"], flds := [.camOmega]}),
  (⟨"gga_x_pbeint", .gga, gga_x_pbeint⟩, {params := ["alpha", "kappa", "muGE", "muPBE"]}),
  (⟨"hyb_lda_xc_bn05", .lda, hyb_lda_xc_bn05⟩, {flds := [.camOmega]}),
  (⟨"hyb_mgga_x_js18", .mgga, hyb_mgga_x_js18⟩, {tPos := true, flds := [.camOmega]}),
  (⟨"mgga_c_m06l", .mgga, mgga_c_m06l⟩, {tPos := true, params := ["Fermi_D_cnst", "alpha_ab", "alpha_ss", "gamma_ab", "gamma_ss"], le := [("alpha_ss", 1/20), ("alpha_ab", 1/20)]}),
  (⟨"mgga_c_m08", .mgga, mgga_c_m08⟩, {zetaSmall := true}),
  (⟨"mgga_c_rppscan", .mgga, mgga_c_rppscan⟩, {params := ["eta"], zetaSmall := true}),
  (⟨"mgga_c_rregtm", .mgga, mgga_c_rregtm⟩, {zetaSmall := true}),
  (⟨"mgga_c_rscan", .mgga, mgga_c_rscan⟩, {zetaSmall := true}),
  (⟨"mgga_c_scan", .mgga, mgga_c_scan⟩, {zetaSmall := true}),
  (⟨"mgga_c_vsxc", .mgga, mgga_c_vsxc⟩, {tPos := true, params := ["alpha_ab", "alpha_ss"], le := [("alpha_ss", 1/20), ("alpha_ab", 1/20)]}),
  (⟨"mgga_k_pc07", .mgga, mgga_k_pc07⟩, {params := ["a"]}),
  (⟨"mgga_x_mbeef", .mgga, mgga_x_mbeef⟩, {}),
  (⟨"mgga_x_mbeefvdw", .mgga, mgga_x_mbeefvdw⟩, {}),
  (⟨"mgga_x_mcml", .mgga, mgga_x_mcml⟩, {}),
  (⟨"mgga_x_ms", .mgga, mgga_x_ms⟩, {params := ["c", "kappa"], ge := [("b", 1/2)]}),
  (⟨"mgga_x_msb", .mgga, mgga_x_msb⟩, {params := ["c", "kappa"], ge := [("b", 1/2)]}),
  (⟨"mgga_x_pkzb", .mgga, mgga_x_pkzb⟩, {}),
  (⟨"mgga_x_r2scan", .mgga, mgga_x_r2scan⟩, {sPos := true, params := ["dp2", "eta", "k1"], le := [("eta", 1/100)]}),
  (⟨"mgga_x_r4scan", .mgga, mgga_x_r4scan⟩, {sPos := true, params := ["da4", "dp2", "dp4", "eta", "k1"], le := [("eta", 1/100)]}),
  (⟨"mgga_x_regtpss", .mgga, mgga_x_regtpss⟩, {sPos := true, tPos := true}),
  (⟨"mgga_x_revtm", .mgga, mgga_x_revtm⟩, {tPos := true}),
  (⟨"mgga_x_rppscan", .mgga, mgga_x_rppscan⟩, {sPos := true, params := ["eta", "k1"], le := [("k1", 1/10)]}),
  (⟨"mgga_x_rscan", .mgga, mgga_x_rscan⟩, {sPos := true, params := ["alphar", "k1", "taur"], le := [("k1", 1/10)]}),
  (⟨"mgga_x_rtpss", .mgga, mgga_x_rtpss⟩, {sPos := true, tPos := true, params := ["b", "e", "kappa"], le := [("b", 3)]}),
  (⟨"mgga_x_scan", .mgga, mgga_x_scan⟩, {sPos := true, params := ["c1", "c2", "k1"], le := [("k1", 1/10), ("d", 10)], ge := [("d", 1/10)]}),
  (⟨"mgga_x_tm", .mgga, mgga_x_tm⟩, {tPos := true}),
  (⟨"mgga_x_tpss", .mgga, mgga_x_tpss⟩, {sPos := true, tPos := true, params := ["b", "c", "e", "kappa", "mu"], le := [("b", 3)], ge := [("e", 1), ("kappa", 1/10)]}),
  (⟨"mgga_x_vcml", .mgga, mgga_x_vcml⟩, {}),
  (⟨"mgga_x_vt84", .mgga, mgga_x_vt84⟩, {sPos := true, tPos := true})]

theorem regularPol_ok : ∀ d ∈ regularPol, NeverRaises d.1.fam d.1.code ∧ RegularPol d.2 d.1.fam d.1.code :=
  fc (⟨gga_c_am05_neverRaises, gga_c_am05_regularPol⟩) <|
  fc (⟨gga_c_bmk_neverRaises, gga_c_bmk_regularPol⟩) <|
  fc (⟨gga_c_ccdf_neverRaises, gga_c_ccdf_regularPol⟩) <|
  fc (⟨gga_c_cs1_neverRaises, gga_c_cs1_regularPol⟩) <|
  fc (⟨gga_c_ft97_neverRaises, gga_c_ft97_regularPol⟩) <|
  fc (⟨gga_c_hcth_a_neverRaises, gga_c_hcth_a_regularPol⟩) <|
  fc (⟨gga_c_lm_neverRaises, gga_c_lm_regularPol⟩) <|
  fc (⟨gga_c_lyp_neverRaises, gga_c_lyp_regularPol⟩) <|
  fc (⟨gga_c_lypr_neverRaises, gga_c_lypr_regularPol⟩) <|
  fc (⟨gga_c_p86_neverRaises, gga_c_p86_regularPol⟩) <|
  fc (⟨gga_c_p86vwn_neverRaises, gga_c_p86vwn_regularPol⟩) <|
  fc (⟨gga_c_revtca_neverRaises, gga_c_revtca_regularPol⟩) <|
  fc (⟨gga_c_tca_neverRaises, gga_c_tca_regularPol⟩) <|
  fc (⟨gga_c_wi_neverRaises, gga_c_wi_regularPol⟩) <|
  fc (⟨gga_c_wl_neverRaises, gga_c_wl_regularPol⟩) <|
  fc (⟨gga_k_apbe_neverRaises, gga_k_apbe_regularPol⟩) <|
  fc (⟨gga_k_dk_neverRaises, gga_k_dk_regularPol⟩) <|
  fc (⟨gga_k_exp4_neverRaises, gga_k_exp4_regularPol⟩) <|
  fc (⟨gga_k_lc94_neverRaises, gga_k_lc94_regularPol⟩) <|
  fc (⟨gga_k_lgap_neverRaises, gga_k_lgap_regularPol⟩) <|
  fc (⟨gga_k_lgap_ge_neverRaises, gga_k_lgap_ge_regularPol⟩) <|
  fc (⟨gga_k_lkt_neverRaises, gga_k_lkt_regularPol⟩) <|
  fc (⟨gga_k_llp_neverRaises, gga_k_llp_regularPol⟩) <|
  fc (⟨gga_k_mpbe_neverRaises, gga_k_mpbe_regularPol⟩) <|
  fc (⟨gga_k_ol1_neverRaises, gga_k_ol1_regularPol⟩) <|
  fc (⟨gga_k_ol2_neverRaises, gga_k_ol2_regularPol⟩) <|
  fc (⟨gga_k_pearson_neverRaises, gga_k_pearson_regularPol⟩) <|
  fc (⟨gga_k_pg_neverRaises, gga_k_pg_regularPol⟩) <|
  fc (⟨gga_k_pw86_neverRaises, gga_k_pw86_regularPol⟩) <|
  fc (⟨gga_k_rational_p_neverRaises, gga_k_rational_p_regularPol⟩) <|
  fc (⟨gga_k_tflw_neverRaises, gga_k_tflw_regularPol⟩) <|
  fc (⟨gga_k_thakkar_neverRaises, gga_k_thakkar_regularPol⟩) <|
  fc (⟨gga_k_vt84f_neverRaises, gga_k_vt84f_regularPol⟩) <|
  fc (⟨gga_x_2d_b86_neverRaises, gga_x_2d_b86_regularPol⟩) <|
  fc (⟨gga_x_2d_b86_mgc_neverRaises, gga_x_2d_b86_mgc_regularPol⟩) <|
  fc (⟨gga_x_2d_b88_neverRaises, gga_x_2d_b88_regularPol⟩) <|
  fc (⟨gga_x_2d_pbe_neverRaises, gga_x_2d_pbe_regularPol⟩) <|
  fc (⟨gga_x_airy_neverRaises, gga_x_airy_regularPol⟩) <|
  fc (⟨gga_x_ak13_neverRaises, gga_x_ak13_regularPol⟩) <|
  fc (⟨gga_x_b86_neverRaises, gga_x_b86_regularPol⟩) <|
  fc (⟨gga_x_b88_neverRaises, gga_x_b88_regularPol⟩) <|
  fc (⟨gga_x_bayesian_neverRaises, gga_x_bayesian_regularPol⟩) <|
  fc (⟨gga_x_beefvdw_neverRaises, gga_x_beefvdw_regularPol⟩) <|
  fc (⟨gga_x_bpccac_neverRaises, gga_x_bpccac_regularPol⟩) <|
  fc (⟨gga_x_c09x_neverRaises, gga_x_c09x_regularPol⟩) <|
  fc (⟨gga_x_cap_neverRaises, gga_x_cap_regularPol⟩) <|
  fc (⟨gga_x_chachiyo_neverRaises, gga_x_chachiyo_regularPol⟩) <|
  fc (⟨gga_x_dk87_neverRaises, gga_x_dk87_regularPol⟩) <|
  fc (⟨gga_x_ev93_neverRaises, gga_x_ev93_regularPol⟩) <|
  fc (⟨gga_x_ft97_neverRaises, gga_x_ft97_regularPol⟩) <|
  fc (⟨gga_x_g96_neverRaises, gga_x_g96_regularPol⟩) <|
  fc (⟨gga_x_hcth_a_neverRaises, gga_x_hcth_a_regularPol⟩) <|
  fc (⟨gga_x_herman_neverRaises, gga_x_herman_regularPol⟩) <|
  fc (⟨gga_x_hjs_neverRaises, gga_x_hjs_regularPol⟩) <|
  fc (⟨gga_x_htbs_neverRaises, gga_x_htbs_regularPol⟩) <|
  fc (⟨gga_x_ityh_neverRaises, gga_x_ityh_regularPol⟩) <|
  fc (⟨gga_x_ityh_optx_neverRaises, gga_x_ityh_optx_regularPol⟩) <|
  fc (⟨gga_x_kt_neverRaises, gga_x_kt_regularPol⟩) <|
  fc (⟨gga_x_lag_neverRaises, gga_x_lag_regularPol⟩) <|
  fc (⟨gga_x_lg93_neverRaises, gga_x_lg93_regularPol⟩) <|
  fc (⟨gga_x_lspbe_neverRaises, gga_x_lspbe_regularPol⟩) <|
  fc (⟨gga_x_lsrpbe_neverRaises, gga_x_lsrpbe_regularPol⟩) <|
  fc (⟨gga_x_lv_rpw86_neverRaises, gga_x_lv_rpw86_regularPol⟩) <|
  fc (⟨gga_x_mpbe_neverRaises, gga_x_mpbe_regularPol⟩) <|
  fc (⟨gga_x_n12_neverRaises, gga_x_n12_regularPol⟩) <|
  fc (⟨gga_x_ncap_neverRaises, gga_x_ncap_regularPol⟩) <|
  fc (⟨gga_x_ol2_neverRaises, gga_x_ol2_regularPol⟩) <|
  fc (⟨gga_x_optx_neverRaises, gga_x_optx_regularPol⟩) <|
  fc (⟨gga_x_pbe_neverRaises, gga_x_pbe_regularPol⟩) <|
  fc (⟨gga_x_pbea_neverRaises, gga_x_pbea_regularPol⟩) <|
  fc (⟨gga_x_pbepow_neverRaises, gga_x_pbepow_regularPol⟩) <|
  fc (⟨gga_x_pbetrans_neverRaises, gga_x_pbetrans_regularPol⟩) <|
  fc (⟨gga_x_pw86_neverRaises, gga_x_pw86_regularPol⟩) <|
  fc (⟨gga_x_pw91_neverRaises, gga_x_pw91_regularPol⟩) <|
  fc (⟨gga_x_q1d_neverRaises, gga_x_q1d_regularPol⟩) <|
  fc (⟨gga_x_q2d_neverRaises, gga_x_q2d_regularPol⟩) <|
  fc (⟨gga_x_rge2_neverRaises, gga_x_rge2_regularPol⟩) <|
  fc (⟨gga_x_rpbe_neverRaises, gga_x_rpbe_regularPol⟩) <|
  fc (⟨gga_x_s12_neverRaises, gga_x_s12_regularPol⟩) <|
  fc (⟨gga_x_sfat_neverRaises, gga_x_sfat_regularPol⟩) <|
  fc (⟨gga_x_sfat_pbe_neverRaises, gga_x_sfat_pbe_regularPol⟩) <|
  fc (⟨gga_x_sogga11_neverRaises, gga_x_sogga11_regularPol⟩) <|
  fc (⟨gga_x_ssb_sw_neverRaises, gga_x_ssb_sw_regularPol⟩) <|
  fc (⟨gga_x_vmt_neverRaises, gga_x_vmt_regularPol⟩) <|
  fc (⟨gga_x_vmt84_neverRaises, gga_x_vmt84_regularPol⟩) <|
  fc (⟨gga_x_wc_neverRaises, gga_x_wc_regularPol⟩) <|
  fc (⟨gga_x_wpbeh_neverRaises, gga_x_wpbeh_regularPol⟩) <|
  fc (⟨gga_xc_b97_neverRaises, gga_xc_b97_regularPol⟩) <|
  fc (⟨gga_xc_th1_neverRaises, gga_xc_th1_regularPol⟩) <|
  fc (⟨gga_xc_th2_neverRaises, gga_xc_th2_regularPol⟩) <|
  fc (⟨gga_xc_th3_neverRaises, gga_xc_th3_regularPol⟩) <|
  fc (⟨hyb_gga_x_cam_s12_neverRaises, hyb_gga_x_cam_s12_regularPol⟩) <|
  fc (⟨hyb_gga_xc_wb97_neverRaises, hyb_gga_xc_wb97_regularPol⟩) <|
  fc (⟨hyb_mgga_x_dldf_neverRaises, hyb_mgga_x_dldf_regularPol⟩) <|
  fc (⟨hyb_mgga_x_m05_neverRaises, hyb_mgga_x_m05_regularPol⟩) <|
  fc (⟨hyb_mgga_x_pjs18_neverRaises, hyb_mgga_x_pjs18_regularPol⟩) <|
  fc (⟨hyb_mgga_xc_wb97mv_neverRaises, hyb_mgga_xc_wb97mv_regularPol⟩) <|
  fc (⟨lda_c_1d_csc_neverRaises, lda_c_1d_csc_regularPol⟩) <|
  fc (⟨lda_c_1d_loos_neverRaises, lda_c_1d_loos_regularPol⟩) <|
  fc (⟨lda_c_2d_prm_neverRaises, lda_c_2d_prm_regularPol⟩) <|
  fc (⟨lda_c_chachiyo_neverRaises, lda_c_chachiyo_regularPol⟩) <|
  fc (⟨lda_c_chachiyo_mod_neverRaises, lda_c_chachiyo_mod_regularPol⟩) <|
  fc (⟨lda_c_gk72_neverRaises, lda_c_gk72_regularPol⟩) <|
  fc (⟨lda_c_gombas_neverRaises, lda_c_gombas_regularPol⟩) <|
  fc (⟨lda_c_hl_neverRaises, lda_c_hl_regularPol⟩) <|
  fc (⟨lda_c_lp96_neverRaises, lda_c_lp96_regularPol⟩) <|
  fc (⟨lda_c_pmgb06_neverRaises, lda_c_pmgb06_regularPol⟩) <|
  fc (⟨lda_c_pw_neverRaises, lda_c_pw_regularPol⟩) <|
  fc (⟨lda_c_pz_neverRaises, lda_c_pz_regularPol⟩) <|
  fc (⟨lda_c_rc04_neverRaises, lda_c_rc04_regularPol⟩) <|
  fc (⟨lda_c_rpa_neverRaises, lda_c_rpa_regularPol⟩) <|
  fc (⟨lda_c_vwn_neverRaises, lda_c_vwn_regularPol⟩) <|
  fc (⟨lda_c_vwn_1_neverRaises, lda_c_vwn_1_regularPol⟩) <|
  fc (⟨lda_c_vwn_2_neverRaises, lda_c_vwn_2_regularPol⟩) <|
  fc (⟨lda_c_vwn_4_neverRaises, lda_c_vwn_4_regularPol⟩) <|
  fc (⟨lda_c_vwn_rpa_neverRaises, lda_c_vwn_rpa_regularPol⟩) <|
  fc (⟨lda_c_wigner_neverRaises, lda_c_wigner_regularPol⟩) <|
  fc (⟨lda_k_gds08_worker_neverRaises, lda_k_gds08_worker_regularPol⟩) <|
  fc (⟨lda_k_tf_neverRaises, lda_k_tf_regularPol⟩) <|
  fc (⟨lda_k_zlp_neverRaises, lda_k_zlp_regularPol⟩) <|
  fc (⟨lda_x_neverRaises, lda_x_regularPol⟩) <|
  fc (⟨lda_x_2d_neverRaises, lda_x_2d_regularPol⟩) <|
  fc (⟨lda_x_erf_neverRaises, lda_x_erf_regularPol⟩) <|
  fc (⟨lda_x_rel_neverRaises, lda_x_rel_regularPol⟩) <|
  fc (⟨lda_x_sloc_neverRaises, lda_x_sloc_regularPol⟩) <|
  fc (⟨lda_x_yukawa_neverRaises, lda_x_yukawa_regularPol⟩) <|
  fc (⟨lda_xc_1d_ehwlrg_neverRaises, lda_xc_1d_ehwlrg_regularPol⟩) <|
  fc (⟨lda_xc_tih_neverRaises, lda_xc_tih_regularPol⟩) <|
  fc (⟨lda_xc_zlp_neverRaises, lda_xc_zlp_regularPol⟩) <|
  fc (⟨mgga_c_b88_neverRaises, mgga_c_b88_regularPol⟩) <|
  fc (⟨mgga_c_bc95_neverRaises, mgga_c_bc95_regularPol⟩) <|
  fc (⟨mgga_c_cc_neverRaises, mgga_c_cc_regularPol⟩) <|
  fc (⟨mgga_c_cs_neverRaises, mgga_c_cs_regularPol⟩) <|
  fc (⟨mgga_c_m05_neverRaises, mgga_c_m05_regularPol⟩) <|
  fc (⟨mgga_k_csk_neverRaises, mgga_k_csk_regularPol⟩) <|
  fc (⟨mgga_k_csk_loc_neverRaises, mgga_k_csk_loc_regularPol⟩) <|
  fc (⟨mgga_k_gea2_neverRaises, mgga_k_gea2_regularPol⟩) <|
  fc (⟨mgga_k_gea4_neverRaises, mgga_k_gea4_regularPol⟩) <|
  fc (⟨mgga_k_pgslb_neverRaises, mgga_k_pgslb_regularPol⟩) <|
  fc (⟨mgga_x_2d_js17_neverRaises, mgga_x_2d_js17_regularPol⟩) <|
  fc (⟨mgga_x_gdme_neverRaises, mgga_x_gdme_regularPol⟩) <|
  fc (⟨mgga_x_gvt4_neverRaises, mgga_x_gvt4_regularPol⟩) <|
  fc (⟨mgga_x_lta_neverRaises, mgga_x_lta_regularPol⟩) <|
  fc (⟨mgga_x_m06l_neverRaises, mgga_x_m06l_regularPol⟩) <|
  fc (⟨mgga_x_m08_neverRaises, mgga_x_m08_regularPol⟩) <|
  fc (⟨mgga_x_m11_neverRaises, mgga_x_m11_regularPol⟩) <|
  fc (⟨mgga_x_m11_l_neverRaises, mgga_x_m11_l_regularPol⟩) <|
  fc (⟨mgga_x_mn12_neverRaises, mgga_x_mn12_regularPol⟩) <|
  fc (⟨mgga_x_mvs_neverRaises, mgga_x_mvs_regularPol⟩) <|
  fc (⟨mgga_x_tau_hcth_neverRaises, mgga_x_tau_hcth_regularPol⟩) <|
  fc (⟨mgga_x_th_neverRaises, mgga_x_th_regularPol⟩) <|
  fc (⟨mgga_xc_b97mv_neverRaises, mgga_xc_b97mv_regularPol⟩) <|
  fc (⟨mgga_xc_b98_neverRaises, mgga_xc_b98_regularPol⟩) <|
  fc (⟨gga_c_acgga_neverRaises, gga_c_acgga_regularPol⟩) <|
  fc (⟨gga_c_acggap_neverRaises, gga_c_acggap_regularPol⟩) <|
  fc (⟨gga_c_pbe_neverRaises, gga_c_pbe_regularPol⟩) <|
  fc (⟨gga_c_pbeloc_neverRaises, gga_c_pbeloc_regularPol⟩) <|
  fc (⟨gga_c_pw91_neverRaises, gga_c_pw91_regularPol⟩) <|
  fc (⟨gga_c_regtpss_neverRaises, gga_c_regtpss_regularPol⟩) <|
  fc (⟨gga_c_scan_e0_neverRaises, gga_c_scan_e0_regularPol⟩) <|
  fc (⟨gga_c_sg4_neverRaises, gga_c_sg4_regularPol⟩) <|
  fc (⟨gga_c_sogga11_neverRaises, gga_c_sogga11_regularPol⟩) <|
  fc (⟨gga_c_zpbeint_neverRaises, gga_c_zpbeint_regularPol⟩) <|
  fc (⟨gga_c_zvpbeint_neverRaises, gga_c_zvpbeint_regularPol⟩) <|
  fc (⟨gga_c_zvpbeloc_neverRaises, gga_c_zvpbeloc_regularPol⟩) <|
  fc (⟨gga_k_apbeint_neverRaises, gga_k_apbeint_regularPol⟩) <|
  fc (⟨gga_x_ityh_pbe_neverRaises, gga_x_ityh_pbe_regularPol⟩) <|
  fc (⟨gga_x_pbeint_neverRaises, gga_x_pbeint_regularPol⟩) <|
  fc (⟨hyb_lda_xc_bn05_neverRaises, hyb_lda_xc_bn05_regularPol⟩) <|
  fc (⟨hyb_mgga_x_js18_neverRaises, hyb_mgga_x_js18_regularPol⟩) <|
  fc (⟨mgga_c_m06l_neverRaises, mgga_c_m06l_regularPol⟩) <|
  fc (⟨mgga_c_m08_neverRaises, mgga_c_m08_regularPol⟩) <|
  fc (⟨mgga_c_rppscan_neverRaises, mgga_c_rppscan_regularPol⟩) <|
  fc (⟨mgga_c_rregtm_neverRaises, mgga_c_rregtm_regularPol⟩) <|
  fc (⟨mgga_c_rscan_neverRaises, mgga_c_rscan_regularPol⟩) <|
  fc (⟨mgga_c_scan_neverRaises, mgga_c_scan_regularPol⟩) <|
  fc (⟨mgga_c_vsxc_neverRaises, mgga_c_vsxc_regularPol⟩) <|
  fc (⟨mgga_k_pc07_neverRaises, mgga_k_pc07_regularPol⟩) <|
  fc (⟨mgga_x_mbeef_neverRaises, mgga_x_mbeef_regularPol⟩) <|
  fc (⟨mgga_x_mbeefvdw_neverRaises, mgga_x_mbeefvdw_regularPol⟩) <|
  fc (⟨mgga_x_mcml_neverRaises, mgga_x_mcml_regularPol⟩) <|
  fc (⟨mgga_x_ms_neverRaises, mgga_x_ms_regularPol⟩) <|
  fc (⟨mgga_x_msb_neverRaises, mgga_x_msb_regularPol⟩) <|
  fc (⟨mgga_x_pkzb_neverRaises, mgga_x_pkzb_regularPol⟩) <|
  fc (⟨mgga_x_r2scan_neverRaises, mgga_x_r2scan_regularPol⟩) <|
  fc (⟨mgga_x_r4scan_neverRaises, mgga_x_r4scan_regularPol⟩) <|
  fc (⟨mgga_x_regtpss_neverRaises, mgga_x_regtpss_regularPol⟩) <|
  fc (⟨mgga_x_revtm_neverRaises, mgga_x_revtm_regularPol⟩) <|
  fc (⟨mgga_x_rppscan_neverRaises, mgga_x_rppscan_regularPol⟩) <|
  fc (⟨mgga_x_rscan_neverRaises, mgga_x_rscan_regularPol⟩) <|
  fc (⟨mgga_x_rtpss_neverRaises, mgga_x_rtpss_regularPol⟩) <|
  fc (⟨mgga_x_scan_neverRaises, mgga_x_scan_regularPol⟩) <|
  fc (⟨mgga_x_tm_neverRaises, mgga_x_tm_regularPol⟩) <|
  fc (⟨mgga_x_tpss_neverRaises, mgga_x_tpss_regularPol⟩) <|
  fc (⟨mgga_x_vcml_neverRaises, mgga_x_vcml_regularPol⟩) <|
  fc (⟨mgga_x_vt84_neverRaises, mgga_x_vt84_regularPol⟩) <|
  fn

theorem regularPol_length : regularPol.length = 196 := rfl

theorem kinetic_nonneg' {n : ℕ} {ι : Type} [Fintype ι] (φ : ι → Coord n → ℂ) (r : Coord n) : 0 ≤ kinetic φ r := by
  unfold kinetic
  exact mul_nonneg (by norm_num) (Finset.sum_nonneg fun _ _ => Finset.sum_nonneg fun _ _ => by positivity)

section
variable {n : ℕ} {P : Prims} {I : Impls} {g : GenInfo} {p : PTree} {eps : EpsFn} {rho : ArrFn n ℝ} {mo : Option (Callable n ℂ)} {r : Coord n}

/-- C52 for 213 of the 249 formulas that run, unpolarized: above the threshold, the energy density is infinitely differentiable wherever the density and the orbitals are, the
gradient and the kinetic energy density do not vanish (where the list asks for it), and no comparison in the formula is between equal numbers.
Partial: nothing is said of the other formulas. -/
theorem c52_shipped_unpol_partial (hP : SmoothPrims P) {d : Shipped × Assume} (hd : d ∈ regularUnpol) (hc : Created P I g false p eps) (hs : Single I p d.1.fam d.1.code)
    (ha : d.2.Rec p.info.vals) (hsh : rho.shape = []) (hρ : ContDiffAt ℝ ∞ (rho.ent · []) r) {m : ArrFn n ℂ} {N : ℕ}
    (hm : d.1.fam = .mgga → mo = some (.ok m) ∧ m.shape = [N] ∧ ∀ k, ContDiffAt ℝ ∞ (orb m N k) r) (hthr : thr p < rho.ent r [])
    (hsp : d.2.sPos = true → gradient (rho.ent · []) r ≠ 0) (htp : d.2.tPos = true → 0 < kinetic (orb m N) r)
    (ht : ¬Tied P (unpolEnv p.info.vals (rho.ent r []) (d.1.fam.grad (gradSq (rho.ent · []) r)) (d.1.fam.meta (lapl (rho.ent · []) r)) (d.1.fam.meta (kinetic (orb m N) r)))
      d.1.code.unpolBody) :
    ∃ e : Coord n → ℝ, ContDiffAt ℝ ∞ e r ∧ ∀ᶠ x in 𝓝 r, eps.call (.ok rho) x mo = .ok (e x) := by
  obtain ⟨h1, h2⟩ := regularUnpol_ok d hd
  refine c52_smooth_unpol hP hc hs h1 hsh hρ hm (.inr ⟨hthr, ?_⟩)
  exact h2 P _ _ _ _ _ ha (lt_trans ha.dens hthr) (by unfold gradSq; positivity) (kinetic_nonneg' _ _)
    (fun e => by have := norm_pos_iff.2 (hsp e); unfold gradSq; positivity) htp ht

/-- C52 for 196 of the 249 formulas that run, polarized.  Partial: nothing is said of the other formulas. -/
theorem c52_shipped_pol_partial (hP : SmoothPrims P) {d : Shipped × Assume} (hd : d ∈ regularPol) (hc : Created P I g true p eps) (hs : Single I p d.1.fam d.1.code)
    (ha : d.2.Rec p.info.vals) (hsh : rho.shape = [2]) (hρ : ∀ s < 2, ContDiffAt ℝ ∞ (rho.ent · [s]) r) {m : ArrFn n ℂ} {N : ℕ}
    (hm : d.1.fam = .mgga → mo = some (.ok m) ∧ m.shape = [2, N] ∧ ∀ s < 2, ∀ k, ContDiffAt ℝ ∞ (spinOrb m N s k) r)
    (h0 : 0 < rho.ent r [0]) (h1 : 0 < rho.ent r [1]) (hthr : thr p < rho.ent r [0] + rho.ent r [1])
    (hsp : d.2.sPos = true → gradient (rho.ent · [0]) r ≠ 0 ∧ gradient (rho.ent · [1]) r ≠ 0 ∧ gradient (rho.ent · [0]) r + gradient (rho.ent · [1]) r ≠ 0)
    (htp : d.2.tPos = true → 0 < kinetic (spinOrb m N 0) r ∧ 0 < kinetic (spinOrb m N 1) r)
    (ht : ¬Tied P (polEnv p.info.vals (rho.ent r [0], rho.ent r [1])
      (d.1.fam.grad (gradSq (rho.ent · [0]) r, gradDot (rho.ent · [0]) (rho.ent · [1]) r, gradSq (rho.ent · [1]) r))
      (d.1.fam.meta (lapl (rho.ent · [0]) r, lapl (rho.ent · [1]) r)) (d.1.fam.meta (kinetic (spinOrb m N 0) r, kinetic (spinOrb m N 1) r))) d.1.code.polBody) :
    ∃ e : Coord n → ℝ, ContDiffAt ℝ ∞ e r ∧ ∀ᶠ x in 𝓝 r, eps.call (.ok rho) x mo = .ok (e x) := by
  obtain ⟨h2, h3⟩ := regularPol_ok d hd
  have e : gradSq (rho.ent · [0]) r + 2 * gradDot (rho.ent · [0]) (rho.ent · [1]) r + gradSq (rho.ent · [1]) r =
      ‖gradient (rho.ent · [0]) r + gradient (rho.ent · [1]) r‖ ^ 2 := by
    unfold gradSq gradDot
    rw [norm_add_sq_real]
  refine c52_smooth_pol hP hc hs h2 hsh hρ hm (.inr ⟨hthr, ?_⟩)
  refine h3 P _ _ _ _ _ _ _ _ _ _ ha h0 h1 (by unfold gradSq; positivity) (by unfold gradSq; positivity) ?_ (kinetic_nonneg' _ _) (kinetic_nonneg' _ _) (fun h => ?_) htp ht
  · rw [e]; positivity
  · obtain ⟨g0, g1, g2⟩ := hsp h
    have g0 := norm_pos_iff.2 g0
    have g1 := norm_pos_iff.2 g1
    have g2 := norm_pos_iff.2 g2
    rw [e]
    unfold gradSq
    exact ⟨by positivity, by positivity, by positivity⟩

end

/-! ## The hypotheses can be met -/

/-- Special functions that are smooth (not the real ones: these are not defined in Mathlib). -/
theorem demo_smoothPrims : SmoothPrims Demo.prims :=
  ⟨contDiff_const, contDiff_const, contDiff_const, fun _ _ => contDiffAt_const, fun _ _ => contDiffAt_const, fun _ _ _ => contDiffAt_const⟩

/-- `lda_x`, unpolarized: the only ties are `ρ / 2 = dens_threshold` and `1 = zeta_threshold`. -/
theorem lda_x_untied (P : Prims) (p : Rec) (ρ : ℝ) (h1 : ρ / 2 ≠ p.fld .densThreshold) (h2 : 1 ≠ p.fld .zetaThreshold) :
    ¬Tied P (unpolEnv p ρ none none none) lda_x.unpolBody := by
  unfold Tied
  simp only [lda_x.unpolBody, tiedBody, tied, literals, not_false_eq_true, true_and, false_or, or_false]
  rintro (⟨x, hx, hy⟩ | ⟨x, hx, hy⟩)
  · simp only [seval, Option.some.injEq, Val.num.injEq] at hx hy
    exact h2 ((by rw [← hx]; norm_num : (1 : ℝ) = x).trans hy.symm)
  · simp only [seval, unpolEnv, sNum, Option.bind_eq_bind, Option.bind_some, Option.some.injEq, Val.num.injEq] at hx hy
    norm_num at hx
    exact h1 (hx.trans hy.symm)

/-- Slater exchange of the density `|x|² + 5`, with the thresholds of libxc, is smooth everywhere. -/
example (r : Coord 3) : ∃ e : Coord 3 → ℝ, ContDiffAt ℝ ∞ e r ∧ ∀ᶠ x in 𝓝 r, (soloEps Demo.prims .lda lda_x false sampleRec).call (.ok (Demo.quad 3 5)) x none = .ok (e x) := by
  have hmem : ((⟨"lda_x", .lda, lda_x⟩, {}) : Shipped × Assume) ∈ regularUnpol := by simp [regularUnpol]
  have h0 : 0 ≤ ‖r‖ ^ 2 := by positivity
  refine c52_shipped_unpol_partial demo_smoothPrims hmem (solo_created _ _ _ _ _) (solo_single _ _ _ _) (sampleRec_ok _ rfl fn fn) rfl
    ((contDiff_norm_sq ℝ).add contDiff_const).contDiffAt (m := ⟨[0], fun _ _ => 0⟩) (N := 0) (fun h => nomatch h) ?_ (fun h => nomatch h) (fun h => nomatch h)
    (lda_x_untied _ _ _ (ne_of_gt ?_) (by norm_num [soloTree, PTree.info, sampleRec]))
  · norm_num [thr, soloTree, PTree.info, sampleRec, Demo.quad]; linarith
  · norm_num [soloTree, PTree.info, sampleRec, Demo.quad]; linarith

/-- The density `|x|²` is below the threshold `1` of the demo functional near the origin: all derivatives of `ε` vanish there. -/
example (e : Coord 3 → ℝ) (h : ∀ x, (Demo.eps .gga false).call (.ok (Demo.quad 3 0)) x none = .ok (e x)) (k : ℕ) : iteratedFDeriv ℝ k e 0 = 0 :=
  (c52_vacuum (Demo.created .gga false) (Demo.single .gga false) (Demo.neverRaises .gga) rfl ((contDiff_norm_sq ℝ).add contDiff_const (n := ∞)).continuous.continuousAt
    (m := ⟨[0], fun _ _ => 0⟩) (N := 0) (fun h => nomatch h) (by norm_num [Demo.quad, thr, Demo.tree, Demo.info, PTree.info, Demo.vals])).2 e h k

/-- On the sphere `|x| = 1` the density of the demo functional is at its threshold, and `ε` jumps from `0` to `1`. -/
example (r : Coord 3) (hr : ‖r‖ = 1) (e : Coord 3 → ℝ) (h : ∀ x, (Demo.eps .gga false).call (.ok (Demo.quad 3 0)) x none = .ok (e x)) : ¬ContinuousAt e r := by
  refine c52_jump (Demo.created .gga false) (Demo.single .gga false) (Demo.neverRaises .gga) rfl (m := ⟨[0], fun _ _ => 0⟩) (N := 0) (fun h => nomatch h) ?_ e h ?_
  · have h1 : Tendsto (fun t : ℝ => t • r) (𝓝[<] 1) (𝓝 r) := by
      have : Tendsto (fun t : ℝ => t • r) (𝓝 1) (𝓝 ((1 : ℝ) • r)) := (continuous_id.smul continuous_const).tendsto _
      rw [one_smul] at this
      exact this.mono_left nhdsWithin_le_nhds
    refine h1.frequently (Eventually.frequently ?_)
    filter_upwards [Ioo_mem_nhdsLT (zero_lt_one (α := ℝ))] with t ht
    have e1 : (Demo.quad 3 0).ent (t • r) [] = t ^ 2 := by simp [Demo.quad, norm_smul, hr]
    rw [e1]
    norm_num [thr, Demo.tree, Demo.info, PTree.info, Demo.vals]
    rw [abs_lt]
    constructor <;> linarith [ht.1, ht.2]
  · have h2 := h r
    rw [call_single (Demo.created .gga false) (Demo.single .gga false), invoke_unpol Demo.prims Demo.code (fam := .gga) rfl rfl rfl 0 (fun h => nomatch h)] at h2
    · have h3 : (if (Demo.quad 3 0).ent r [] < 1 then (0 : ℝ) else (Demo.quad 3 0).ent r [] * (Demo.quad 3 0).ent r []) = e r := Except.ok.inj h2
      simp [Demo.quad, hr] at h3
      rw [← h3]
      norm_num

end Verif.Props
