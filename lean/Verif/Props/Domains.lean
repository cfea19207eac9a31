import Verif.Props.Defined1
import Verif.Props.Defined2
import Verif.Props.Defined3
import Verif.Props.Defined4
import Verif.Props.DefinedHints1
import Verif.Props.DefinedHints2
import Verif.Props.DefinedHints3
import Verif.Props.DefinedHints4
import Verif.Props.OneSpin1
import Verif.Props.OneSpin2
import Verif.Props.OneSpinHinted
import Verif.Props.Flat
import Verif.Data.All
/-!
# C49, C50, C51: where formulas are defined

The lists name the formulas that the analysis of `Verif.Norm.Interval` settles, alone or with the hints of `Verif.Norm.Hints`.  It is not complete: a formula that is on none of the lists may or may not be defined.
-/
set_option maxRecDepth 100000
namespace Verif.Props
open Verif.Py Verif.Model Verif.Spec Verif.Norm Verif.Data

/-- Formulas whose unpolarized code is defined, and under which assumptions. -/
noncomputable def definedUnpol : List (Shipped × Assume) := [
  (⟨"gga_c_acgga", .gga, gga_c_acgga⟩, {}),
  (⟨"gga_c_acggap", .gga, gga_c_acggap⟩, {}),
  (⟨"gga_c_am05", .gga, gga_c_am05⟩, {params := ["alpha"]}),
  (⟨"gga_c_bmk", .gga, gga_c_bmk⟩, {}),
  (⟨"gga_c_ccdf", .gga, gga_c_ccdf⟩, {params := ["c2"]}),
  (⟨"gga_c_chachiyo", .gga, gga_c_chachiyo⟩, {params := ["bf", "bp", "cf", "cp"], neg := ["ap"]}),
  (⟨"gga_c_cs1", .gga, gga_c_cs1⟩, {}),
  (⟨"gga_c_ft97", .gga, gga_c_ft97⟩, {}),
  (⟨"gga_c_hcth_a", .gga, gga_c_hcth_a⟩, {}),
  (⟨"gga_c_lm", .gga, gga_c_lm⟩, {}),
  (⟨"gga_c_lyp", .gga, gga_c_lyp⟩, {params := ["d"]}),
  (⟨"gga_c_lypr", .gga, gga_c_lypr⟩, {params := ["d"]}),
  (⟨"gga_c_op_b88", .gga, gga_c_op_b88⟩, {}),
  (⟨"gga_c_op_g96", .gga, gga_c_op_g96⟩, {}),
  (⟨"gga_c_op_pbe", .gga, gga_c_op_pbe⟩, {}),
  (⟨"gga_c_op_pw91", .gga, gga_c_op_pw91⟩, {}),
  (⟨"gga_c_op_xalpha", .gga, gga_c_op_xalpha⟩, {}),
  (⟨"gga_c_p86", .gga, gga_c_p86⟩, {params := ["aa", "bb", "malpha", "mbeta", "mdelta", "mgamma"]}),
  (⟨"gga_c_p86vwn", .gga, gga_c_p86vwn⟩, {params := ["aa", "bb", "malpha", "mbeta", "mdelta", "mgamma"]}),
  (⟨"gga_c_pbe", .gga, gga_c_pbe⟩, {params := ["BB", "beta", "gamma"]}),
  (⟨"gga_c_pbeloc", .gga, gga_c_pbeloc⟩, {}),
  (⟨"gga_c_pw91", .gga, gga_c_pw91⟩, {}),
  (⟨"gga_c_regtpss", .gga, gga_c_regtpss⟩, {}),
  (⟨"gga_c_revtca", .gga, gga_c_revtca⟩, {}),
  (⟨"gga_c_scan_e0", .gga, gga_c_scan_e0⟩, {}),
  (⟨"gga_c_sg4", .gga, gga_c_sg4⟩, {}),
  (⟨"gga_c_sogga11", .gga, gga_c_sogga11⟩, {}),
  (⟨"gga_c_tca", .gga, gga_c_tca⟩, {}),
  (⟨"gga_c_w94", .gga, gga_c_w94⟩, {}),
  (⟨"gga_c_wi", .gga, gga_c_wi⟩, {params := ["c", "d"]}),
  (⟨"gga_c_wl", .gga, gga_c_wl⟩, {}),
  (⟨"gga_c_zpbeint", .gga, gga_c_zpbeint⟩, {params := ["beta"]}),
  (⟨"gga_c_zvpbeint", .gga, gga_c_zvpbeint⟩, {params := ["beta", "omega"]}),
  (⟨"gga_c_zvpbeloc", .gga, gga_c_zvpbeloc⟩, {}),
  (⟨"gga_k_apbe", .gga, gga_k_apbe⟩, {params := ["kappa", "mu"]}),
  (⟨"gga_k_apbeint", .gga, gga_k_apbeint⟩, {params := ["alpha", "kappa", "muGE", "muPBE"]}),
  (⟨"gga_k_dk", .gga, gga_k_dk⟩, {params := ["bb[0]", "bb[1]", "bb[2]", "bb[3]", "bb[4]"]}),
  (⟨"gga_k_exp4", .gga, gga_k_exp4⟩, {}),
  (⟨"gga_k_lc94", .gga, gga_k_lc94⟩, {params := ["a", "b", "expo", "f"]}),
  (⟨"gga_k_lgap", .gga, gga_k_lgap⟩, {}),
  (⟨"gga_k_lgap_ge", .gga, gga_k_lgap_ge⟩, {}),
  (⟨"gga_k_lkt", .gga, gga_k_lkt⟩, {}),
  (⟨"gga_k_llp", .gga, gga_k_llp⟩, {params := ["beta", "gamma"]}),
  (⟨"gga_k_mpbe", .gga, gga_k_mpbe⟩, {params := ["a"]}),
  (⟨"gga_k_ol1", .gga, gga_k_ol1⟩, {}),
  (⟨"gga_k_ol2", .gga, gga_k_ol2⟩, {}),
  (⟨"gga_k_pearson", .gga, gga_k_pearson⟩, {}),
  (⟨"gga_k_pg", .gga, gga_k_pg⟩, {}),
  (⟨"gga_k_pw86", .gga, gga_k_pw86⟩, {}),
  (⟨"gga_k_rational_p", .gga, gga_k_rational_p⟩, {params := ["C2", "p"]}),
  (⟨"gga_k_tflw", .gga, gga_k_tflw⟩, {}),
  (⟨"gga_k_thakkar", .gga, gga_k_thakkar⟩, {}),
  (⟨"gga_k_vt84f", .gga, gga_k_vt84f⟩, {params := ["mu"]}),
  (⟨"gga_x_2d_b86", .gga, gga_x_2d_b86⟩, {}),
  (⟨"gga_x_2d_b86_mgc", .gga, gga_x_2d_b86_mgc⟩, {}),
  (⟨"gga_x_2d_b88", .gga, gga_x_2d_b88⟩, {}),
  (⟨"gga_x_2d_pbe", .gga, gga_x_2d_pbe⟩, {}),
  (⟨"gga_x_airy", .gga, gga_x_airy⟩, {}),
  (⟨"gga_x_ak13", .gga, gga_x_ak13⟩, {}),
  (⟨"gga_x_b86", .gga, gga_x_b86⟩, {params := ["gamma"]}),
  (⟨"gga_x_b88", .gga, gga_x_b88⟩, {params := ["beta", "gamma"]}),
  (⟨"gga_x_bayesian", .gga, gga_x_bayesian⟩, {}),
  (⟨"gga_x_beefvdw", .gga, gga_x_beefvdw⟩, {}),
  (⟨"gga_x_bpccac", .gga, gga_x_bpccac⟩, {}),
  (⟨"gga_x_c09x", .gga, gga_x_c09x⟩, {}),
  (⟨"gga_x_cap", .gga, gga_x_cap⟩, {params := ["c"]}),
  (⟨"gga_x_chachiyo", .gga, gga_x_chachiyo⟩, {sPos := true}),
  (⟨"gga_x_dk87", .gga, gga_x_dk87⟩, {params := ["alpha", "b1"]}),
  (⟨"gga_x_ev93", .gga, gga_x_ev93⟩, {params := ["b1", "b2", "b3"]}),
  (⟨"gga_x_ft97", .gga, gga_x_ft97⟩, {params := ["beta2"]}),
  (⟨"gga_x_g96", .gga, gga_x_g96⟩, {}),
  (⟨"gga_x_hcth_a", .gga, gga_x_hcth_a⟩, {}),
  (⟨"gga_x_herman", .gga, gga_x_herman⟩, {}),
  (⟨"gga_x_hjs", .gga, gga_x_hjs⟩, {params := ["b[0]", "b[1]", "b[2]", "b[3]", "b[4]", "b[5]", "b[6]", "b[7]", "b[8]"], flds := [.camOmega]}),
  (⟨"gga_x_htbs", .gga, gga_x_htbs⟩, {}),
  (⟨"gga_x_ityh", .gga, gga_x_ityh⟩, {flds := [.camOmega]}),
  (⟨"gga_x_ityh_optx", .gga, gga_x_ityh_optx⟩, {params := ["a", "b"], flds := [.camOmega]}),
  (⟨"gga_x_ityh_pbe", .gga, gga_x_ityh_pbe⟩, {params := ["kappa", "mu"], flds := [.camOmega]}),
  (⟨"gga_x_kt", .gga, gga_x_kt⟩, {params := ["delta"]}),
  (⟨"gga_x_lag", .gga, gga_x_lag⟩, {}),
  (⟨"gga_x_lg93", .gga, gga_x_lg93⟩, {}),
  (⟨"gga_x_lspbe", .gga, gga_x_lspbe⟩, {params := ["kappa", "mu"]}),
  (⟨"gga_x_lsrpbe", .gga, gga_x_lsrpbe⟩, {params := ["kappa"]}),
  (⟨"gga_x_lv_rpw86", .gga, gga_x_lv_rpw86⟩, {}),
  (⟨"gga_x_mpbe", .gga, gga_x_mpbe⟩, {params := ["a"]}),
  (⟨"gga_x_n12", .gga, gga_x_n12⟩, {}),
  (⟨"gga_x_ncap", .gga, gga_x_ncap⟩, {params := ["beta"]}),
  (⟨"gga_x_ol2", .gga, gga_x_ol2⟩, {}),
  (⟨"gga_x_optx", .gga, gga_x_optx⟩, {params := ["gamma"]}),
  (⟨"gga_x_pbe", .gga, gga_x_pbe⟩, {params := ["kappa", "mu"]}),
  (⟨"gga_x_pbea", .gga, gga_x_pbea⟩, {}),
  (⟨"gga_x_pbeint", .gga, gga_x_pbeint⟩, {params := ["alpha", "kappa", "muGE", "muPBE"]}),
  (⟨"gga_x_pbepow", .gga, gga_x_pbepow⟩, {}),
  (⟨"gga_x_pbetrans", .gga, gga_x_pbetrans⟩, {}),
  (⟨"gga_x_pw86", .gga, gga_x_pw86⟩, {params := ["aa", "bb", "cc"]}),
  (⟨"gga_x_pw91", .gga, gga_x_pw91⟩, {params := ["a", "b", "expo", "f"]}),
  (⟨"gga_x_q1d", .gga, gga_x_q1d⟩, {}),
  (⟨"gga_x_q2d", .gga, gga_x_q2d⟩, {}),
  (⟨"gga_x_rge2", .gga, gga_x_rge2⟩, {}),
  (⟨"gga_x_rpbe", .gga, gga_x_rpbe⟩, {params := ["rpbe_kappa"]}),
  (⟨"gga_x_s12", .gga, gga_x_s12⟩, {params := ["C", "D", "E"]}),
  (⟨"gga_x_sfat", .gga, gga_x_sfat⟩, {flds := [.camOmega]}),
  (⟨"gga_x_sfat_pbe", .gga, gga_x_sfat_pbe⟩, {flds := [.camOmega]}),
  (⟨"gga_x_sogga11", .gga, gga_x_sogga11⟩, {params := ["kappa", "mu"]}),
  (⟨"gga_x_ssb_sw", .gga, gga_x_ssb_sw⟩, {params := ["C", "E"]}),
  (⟨"gga_x_vmt", .gga, gga_x_vmt⟩, {params := ["mu"]}),
  (⟨"gga_x_vmt84", .gga, gga_x_vmt84⟩, {sPos := true, params := ["mu"]}),
  (⟨"gga_x_wc", .gga, gga_x_wc⟩, {}),
  (⟨"gga_x_wpbeh", .gga, gga_x_wpbeh⟩, {}),
  (⟨"gga_xc_b97", .gga, gga_xc_b97⟩, {}),
  (⟨"gga_xc_th1", .gga, gga_xc_th1⟩, {}),
  (⟨"gga_xc_th2", .gga, gga_xc_th2⟩, {}),
  (⟨"gga_xc_th3", .gga, gga_xc_th3⟩, {}),
  (⟨"hyb_gga_x_cam_s12", .gga, hyb_gga_x_cam_s12⟩, {params := ["A", "B", "C", "D", "E"], flds := [.camOmega]}),
  (⟨"hyb_gga_xc_wb97", .gga, hyb_gga_xc_wb97⟩, {flds := [.camOmega]}),
  (⟨"hyb_lda_xc_bn05", .lda, hyb_lda_xc_bn05⟩, {flds := [.camOmega]}),
  (⟨"hyb_mgga_x_dldf", .mgga, hyb_mgga_x_dldf⟩, {}),
  (⟨"hyb_mgga_x_js18", .mgga, hyb_mgga_x_js18⟩, {tPos := true, flds := [.camOmega]}),
  (⟨"hyb_mgga_x_m05", .mgga, hyb_mgga_x_m05⟩, {}),
  (⟨"hyb_mgga_x_pjs18", .mgga, hyb_mgga_x_pjs18⟩, {}),
  (⟨"hyb_mgga_xc_wb97mv", .mgga, hyb_mgga_xc_wb97mv⟩, {tPos := true, flds := [.camOmega]}),
  (⟨"lda_c_1d_csc", .lda, lda_c_1d_csc⟩, {params := ["para[0]", "para[1]", "para[2]", "para[3]", "para[7]", "para[8]"]}),
  (⟨"lda_c_1d_loos", .lda, lda_c_1d_loos⟩, {}),
  (⟨"lda_c_2d_amgb", .lda, lda_c_2d_amgb⟩, {}),
  (⟨"lda_c_2d_prm", .lda, lda_c_2d_prm⟩, {params := ["c"]}),
  (⟨"lda_c_chachiyo", .lda, lda_c_chachiyo⟩, {params := ["bf", "bp", "cf", "cp"]}),
  (⟨"lda_c_chachiyo_mod", .lda, lda_c_chachiyo_mod⟩, {params := ["bf", "bp", "cf", "cp"]}),
  (⟨"lda_c_gk72", .lda, lda_c_gk72⟩, {}),
  (⟨"lda_c_gombas", .lda, lda_c_gombas⟩, {}),
  (⟨"lda_c_hl", .lda, lda_c_hl⟩, {params := ["hl_r[0]", "hl_r[1]"]}),
  (⟨"lda_c_lp96", .lda, lda_c_lp96⟩, {}),
  (⟨"lda_c_ml1", .lda, lda_c_ml1⟩, {params := ["fc"]}),
  (⟨"lda_c_pmgb06", .lda, lda_c_pmgb06⟩, {flds := [.camOmega]}),
  (⟨"lda_c_pw", .lda, lda_c_pw⟩, {params := ["a[0]", "a[2]", "beta1[0]", "beta1[2]", "beta2[0]", "beta2[2]", "beta3[0]", "beta3[2]", "beta4[0]", "beta4[2]", "fz20"]}),
  (⟨"lda_c_pz", .lda, lda_c_pz⟩, {params := ["beta1[0]", "beta1[1]", "beta2[0]", "beta2[1]"]}),
  (⟨"lda_c_rc04", .lda, lda_c_rc04⟩, {}),
  (⟨"lda_c_rpa", .lda, lda_c_rpa⟩, {}),
  (⟨"lda_c_vwn", .lda, lda_c_vwn⟩, {}),
  (⟨"lda_c_vwn_1", .lda, lda_c_vwn_1⟩, {}),
  (⟨"lda_c_vwn_2", .lda, lda_c_vwn_2⟩, {}),
  (⟨"lda_c_vwn_4", .lda, lda_c_vwn_4⟩, {}),
  (⟨"lda_c_vwn_rpa", .lda, lda_c_vwn_rpa⟩, {}),
  (⟨"lda_c_wigner", .lda, lda_c_wigner⟩, {params := ["b"]}),
  (⟨"lda_k_gds08_worker", .lda, lda_k_gds08_worker⟩, {}),
  (⟨"lda_k_tf", .lda, lda_k_tf⟩, {}),
  (⟨"lda_k_zlp", .lda, lda_k_zlp⟩, {}),
  (⟨"lda_x", .lda, lda_x⟩, {}),
  (⟨"lda_x_2d", .lda, lda_x_2d⟩, {}),
  (⟨"lda_x_erf", .lda, lda_x_erf⟩, {flds := [.camOmega]}),
  (⟨"lda_x_rel", .lda, lda_x_rel⟩, {}),
  (⟨"lda_x_sloc", .lda, lda_x_sloc⟩, {params := ["b"]}),
  (⟨"lda_x_yukawa", .lda, lda_x_yukawa⟩, {flds := [.camOmega]}),
  (⟨"lda_xc_1d_ehwlrg", .lda, lda_xc_1d_ehwlrg⟩, {}),
  (⟨"lda_xc_teter93", .lda, lda_xc_teter93⟩, {}),
  (⟨"lda_xc_tih", .lda, lda_xc_tih⟩, {}),
  (⟨"lda_xc_zlp", .lda, lda_xc_zlp⟩, {}),
  (⟨"mgga_c_b88", .mgga, mgga_c_b88⟩, {}),
  (⟨"mgga_c_bc95", .mgga, mgga_c_bc95⟩, {tPos := true, params := ["copp", "css"]}),
  (⟨"mgga_c_cc", .mgga, mgga_c_cc⟩, {}),
  (⟨"mgga_c_ccalda", .mgga, mgga_c_ccalda⟩, {params := ["c"], vw := true}),
  (⟨"mgga_c_cs", .mgga, mgga_c_cs⟩, {}),
  (⟨"mgga_c_ltapw", .mgga, mgga_c_ltapw⟩, {tPos := true}),
  (⟨"mgga_c_m05", .mgga, mgga_c_m05⟩, {tPos := true, params := ["Fermi_D_cnst", "gamma_ab", "gamma_ss"]}),
  (⟨"mgga_c_m06l", .mgga, mgga_c_m06l⟩, {tPos := true, params := ["Fermi_D_cnst", "alpha_ab", "alpha_ss", "gamma_ab", "gamma_ss"], le := [("alpha_ss", 1/20), ("alpha_ab", 1/20)]}),
  (⟨"mgga_c_m08", .mgga, mgga_c_m08⟩, {}),
  (⟨"mgga_c_pkzb", .mgga, mgga_c_pkzb⟩, {tPos := true, zetaSmall := true}),
  (⟨"mgga_c_revtpss", .mgga, mgga_c_revtpss⟩, {tPos := true, zetaSmall := true}),
  (⟨"mgga_c_rmggac", .mgga, mgga_c_rmggac⟩, {vw := true}),
  (⟨"mgga_c_rppscan", .mgga, mgga_c_rppscan⟩, {params := ["eta"]}),
  (⟨"mgga_c_rregtm", .mgga, mgga_c_rregtm⟩, {}),
  (⟨"mgga_c_rscan", .mgga, mgga_c_rscan⟩, {}),
  (⟨"mgga_c_scan", .mgga, mgga_c_scan⟩, {}),
  (⟨"mgga_c_tpss", .mgga, mgga_c_tpss⟩, {tPos := true, params := ["beta"], zetaSmall := true}),
  (⟨"mgga_c_tpssloc", .mgga, mgga_c_tpssloc⟩, {tPos := true, zetaSmall := true}),
  (⟨"mgga_c_vsxc", .mgga, mgga_c_vsxc⟩, {tPos := true, params := ["alpha_ab", "alpha_ss"], le := [("alpha_ss", 1/20), ("alpha_ab", 1/20)]}),
  (⟨"mgga_k_csk", .mgga, mgga_k_csk⟩, {params := ["csk_a"]}),
  (⟨"mgga_k_csk_loc", .mgga, mgga_k_csk_loc⟩, {params := ["csk_a"]}),
  (⟨"mgga_k_gea2", .mgga, mgga_k_gea2⟩, {}),
  (⟨"mgga_k_gea4", .mgga, mgga_k_gea4⟩, {}),
  (⟨"mgga_k_pc07", .mgga, mgga_k_pc07⟩, {params := ["a"]}),
  (⟨"mgga_k_pgslb", .mgga, mgga_k_pgslb⟩, {}),
  (⟨"mgga_x_2d_js17", .mgga, mgga_x_2d_js17⟩, {}),
  (⟨"mgga_x_gdme", .mgga, mgga_x_gdme⟩, {}),
  (⟨"mgga_x_gvt4", .mgga, mgga_x_gvt4⟩, {}),
  (⟨"mgga_x_lta", .mgga, mgga_x_lta⟩, {tPos := true}),
  (⟨"mgga_x_m06l", .mgga, mgga_x_m06l⟩, {}),
  (⟨"mgga_x_m08", .mgga, mgga_x_m08⟩, {}),
  (⟨"mgga_x_m11", .mgga, mgga_x_m11⟩, {flds := [.camOmega]}),
  (⟨"mgga_x_m11_l", .mgga, mgga_x_m11_l⟩, {flds := [.camOmega]}),
  (⟨"mgga_x_mbeef", .mgga, mgga_x_mbeef⟩, {}),
  (⟨"mgga_x_mbeefvdw", .mgga, mgga_x_mbeefvdw⟩, {}),
  (⟨"mgga_x_mcml", .mgga, mgga_x_mcml⟩, {}),
  (⟨"mgga_x_mn12", .mgga, mgga_x_mn12⟩, {}),
  (⟨"mgga_x_ms", .mgga, mgga_x_ms⟩, {params := ["c", "kappa"], ge := [("b", 1/2)]}),
  (⟨"mgga_x_msb", .mgga, mgga_x_msb⟩, {params := ["c", "kappa"], ge := [("b", 1/2)]}),
  (⟨"mgga_x_mvs", .mgga, mgga_x_mvs⟩, {params := ["b", "c1", "e1"]}),
  (⟨"mgga_x_pkzb", .mgga, mgga_x_pkzb⟩, {}),
  (⟨"mgga_x_r2scan", .mgga, mgga_x_r2scan⟩, {sPos := true, params := ["dp2", "eta", "k1"], le := [("eta", 1/100)]}),
  (⟨"mgga_x_r4scan", .mgga, mgga_x_r4scan⟩, {sPos := true, params := ["da4", "dp2", "dp4", "eta", "k1"], le := [("eta", 1/100)]}),
  (⟨"mgga_x_regtpss", .mgga, mgga_x_regtpss⟩, {tPos := true}),
  (⟨"mgga_x_revtm", .mgga, mgga_x_revtm⟩, {tPos := true}),
  (⟨"mgga_x_rppscan", .mgga, mgga_x_rppscan⟩, {sPos := true, params := ["eta", "k1"], le := [("k1", 1/10)]}),
  (⟨"mgga_x_rscan", .mgga, mgga_x_rscan⟩, {sPos := true, params := ["alphar", "k1", "taur"], le := [("k1", 1/10)]}),
  (⟨"mgga_x_rtpss", .mgga, mgga_x_rtpss⟩, {tPos := true, params := ["b", "e", "kappa"], le := [("b", 3)]}),
  (⟨"mgga_x_scan", .mgga, mgga_x_scan⟩, {sPos := true, params := ["c1", "c2", "k1"], le := [("k1", 1/10), ("d", 10)], ge := [("d", 1/10)]}),
  (⟨"mgga_x_task", .mgga, mgga_x_task⟩, {sPos := true, tPos := true, params := ["task_c"]}),
  (⟨"mgga_x_tau_hcth", .mgga, mgga_x_tau_hcth⟩, {}),
  (⟨"mgga_x_th", .mgga, mgga_x_th⟩, {tPos := true}),
  (⟨"mgga_x_tm", .mgga, mgga_x_tm⟩, {tPos := true}),
  (⟨"mgga_x_tpss", .mgga, mgga_x_tpss⟩, {sPos := true, tPos := true, params := ["b", "c", "e", "kappa", "mu"], le := [("b", 3)], ge := [("e", 1), ("kappa", 1/10)]}),
  (⟨"mgga_x_vcml", .mgga, mgga_x_vcml⟩, {}),
  (⟨"mgga_x_vt84", .mgga, mgga_x_vt84⟩, {sPos := true, tPos := true}),
  (⟨"mgga_xc_b97mv", .mgga, mgga_xc_b97mv⟩, {tPos := true}),
  (⟨"mgga_xc_b98", .mgga, mgga_xc_b98⟩, {tPos := true}),
  (⟨"mgga_xc_lp90", .mgga, mgga_xc_lp90⟩, {}),
  (⟨"mgga_xc_zlp", .mgga, mgga_xc_zlp⟩, {})]

/-- C49 (unpolarized code): 216 of the 249 formulas that run.  Partial: nothing is said of the other ones. -/
theorem c49_unpol_partial : ∀ d ∈ definedUnpol, DefinedUnpol d.2 d.1.fam d.1.code :=
  fc (gga_c_acgga_definedUnpol) <|
  fc (gga_c_acggap_definedUnpol) <|
  fc (gga_c_am05_definedUnpol) <|
  fc (gga_c_bmk_definedUnpol) <|
  fc (gga_c_ccdf_definedUnpol) <|
  fc (gga_c_chachiyo_definedUnpol) <|
  fc (gga_c_cs1_definedUnpol) <|
  fc (gga_c_ft97_definedUnpol) <|
  fc (gga_c_hcth_a_definedUnpol) <|
  fc (gga_c_lm_definedUnpol) <|
  fc (gga_c_lyp_definedUnpol) <|
  fc (gga_c_lypr_definedUnpol) <|
  fc (gga_c_op_b88_definedUnpol) <|
  fc (gga_c_op_g96_definedUnpol) <|
  fc (gga_c_op_pbe_definedUnpol) <|
  fc (gga_c_op_pw91_definedUnpol) <|
  fc (gga_c_op_xalpha_definedUnpol) <|
  fc (gga_c_p86_definedUnpol) <|
  fc (gga_c_p86vwn_definedUnpol) <|
  fc (gga_c_pbe_definedUnpol) <|
  fc (gga_c_pbeloc_definedUnpol) <|
  fc (gga_c_pw91_definedUnpol) <|
  fc (gga_c_regtpss_definedUnpol) <|
  fc (gga_c_revtca_definedUnpol) <|
  fc (gga_c_scan_e0_definedUnpol) <|
  fc (gga_c_sg4_definedUnpol) <|
  fc (gga_c_sogga11_definedUnpol) <|
  fc (gga_c_tca_definedUnpol) <|
  fc (gga_c_w94_definedUnpol) <|
  fc (gga_c_wi_definedUnpol) <|
  fc (gga_c_wl_definedUnpol) <|
  fc (gga_c_zpbeint_definedUnpol) <|
  fc (gga_c_zvpbeint_definedUnpol) <|
  fc (gga_c_zvpbeloc_definedUnpol) <|
  fc (gga_k_apbe_definedUnpol) <|
  fc (gga_k_apbeint_definedUnpol) <|
  fc (gga_k_dk_definedUnpol) <|
  fc (gga_k_exp4_definedUnpol) <|
  fc (gga_k_lc94_definedUnpol) <|
  fc (gga_k_lgap_definedUnpol) <|
  fc (gga_k_lgap_ge_definedUnpol) <|
  fc (gga_k_lkt_definedUnpol) <|
  fc (gga_k_llp_definedUnpol) <|
  fc (gga_k_mpbe_definedUnpol) <|
  fc (gga_k_ol1_definedUnpol) <|
  fc (gga_k_ol2_definedUnpol) <|
  fc (gga_k_pearson_definedUnpol) <|
  fc (gga_k_pg_definedUnpol) <|
  fc (gga_k_pw86_definedUnpol) <|
  fc (gga_k_rational_p_definedUnpol) <|
  fc (gga_k_tflw_definedUnpol) <|
  fc (gga_k_thakkar_definedUnpol) <|
  fc (gga_k_vt84f_definedUnpol) <|
  fc (gga_x_2d_b86_definedUnpol) <|
  fc (gga_x_2d_b86_mgc_definedUnpol) <|
  fc (gga_x_2d_b88_definedUnpol) <|
  fc (gga_x_2d_pbe_definedUnpol) <|
  fc (gga_x_airy_definedUnpol) <|
  fc (gga_x_ak13_definedUnpol) <|
  fc (gga_x_b86_definedUnpol) <|
  fc (gga_x_b88_definedUnpol) <|
  fc (gga_x_bayesian_definedUnpol) <|
  fc (gga_x_beefvdw_definedUnpol) <|
  fc (gga_x_bpccac_definedUnpol) <|
  fc (gga_x_c09x_definedUnpol) <|
  fc (gga_x_cap_definedUnpol) <|
  fc (gga_x_chachiyo_definedUnpol) <|
  fc (gga_x_dk87_definedUnpol) <|
  fc (gga_x_ev93_definedUnpol) <|
  fc (gga_x_ft97_definedUnpol) <|
  fc (gga_x_g96_definedUnpol) <|
  fc (gga_x_hcth_a_definedUnpol) <|
  fc (gga_x_herman_definedUnpol) <|
  fc (gga_x_hjs_definedUnpol) <|
  fc (gga_x_htbs_definedUnpol) <|
  fc (gga_x_ityh_definedUnpol) <|
  fc (gga_x_ityh_optx_definedUnpol) <|
  fc (gga_x_ityh_pbe_definedUnpol) <|
  fc (gga_x_kt_definedUnpol) <|
  fc (gga_x_lag_definedUnpol) <|
  fc (gga_x_lg93_definedUnpol) <|
  fc (gga_x_lspbe_definedUnpol) <|
  fc (gga_x_lsrpbe_definedUnpol) <|
  fc (gga_x_lv_rpw86_definedUnpol) <|
  fc (gga_x_mpbe_definedUnpol) <|
  fc (gga_x_n12_definedUnpol) <|
  fc (gga_x_ncap_definedUnpol) <|
  fc (gga_x_ol2_definedUnpol) <|
  fc (gga_x_optx_definedUnpol) <|
  fc (gga_x_pbe_definedUnpol) <|
  fc (gga_x_pbea_definedUnpol) <|
  fc (gga_x_pbeint_definedUnpol) <|
  fc (gga_x_pbepow_definedUnpol) <|
  fc (gga_x_pbetrans_definedUnpol) <|
  fc (gga_x_pw86_definedUnpol) <|
  fc (gga_x_pw91_definedUnpol) <|
  fc (gga_x_q1d_definedUnpol) <|
  fc (gga_x_q2d_definedUnpol) <|
  fc (gga_x_rge2_definedUnpol) <|
  fc (gga_x_rpbe_definedUnpol) <|
  fc (gga_x_s12_definedUnpol) <|
  fc (gga_x_sfat_definedUnpol) <|
  fc (gga_x_sfat_pbe_definedUnpol) <|
  fc (gga_x_sogga11_definedUnpol) <|
  fc (gga_x_ssb_sw_definedUnpol) <|
  fc (gga_x_vmt_definedUnpol) <|
  fc (gga_x_vmt84_definedUnpol) <|
  fc (gga_x_wc_definedUnpol) <|
  fc (gga_x_wpbeh_definedUnpol) <|
  fc (gga_xc_b97_definedUnpol) <|
  fc (gga_xc_th1_definedUnpol) <|
  fc (gga_xc_th2_definedUnpol) <|
  fc (gga_xc_th3_definedUnpol) <|
  fc (hyb_gga_x_cam_s12_definedUnpol) <|
  fc (hyb_gga_xc_wb97_definedUnpol) <|
  fc (hyb_lda_xc_bn05_definedUnpol) <|
  fc (hyb_mgga_x_dldf_definedUnpol) <|
  fc (hyb_mgga_x_js18_definedUnpol) <|
  fc (hyb_mgga_x_m05_definedUnpol) <|
  fc (hyb_mgga_x_pjs18_definedUnpol) <|
  fc (hyb_mgga_xc_wb97mv_definedUnpol) <|
  fc (lda_c_1d_csc_definedUnpol) <|
  fc (lda_c_1d_loos_definedUnpol) <|
  fc (lda_c_2d_amgb_definedUnpol) <|
  fc (lda_c_2d_prm_definedUnpol) <|
  fc (lda_c_chachiyo_definedUnpol) <|
  fc (lda_c_chachiyo_mod_definedUnpol) <|
  fc (lda_c_gk72_definedUnpol) <|
  fc (lda_c_gombas_definedUnpol) <|
  fc (lda_c_hl_definedUnpol) <|
  fc (lda_c_lp96_definedUnpol) <|
  fc (lda_c_ml1_definedUnpol) <|
  fc (lda_c_pmgb06_definedUnpol) <|
  fc (lda_c_pw_definedUnpol) <|
  fc (lda_c_pz_definedUnpol) <|
  fc (lda_c_rc04_definedUnpol) <|
  fc (lda_c_rpa_definedUnpol) <|
  fc (lda_c_vwn_definedUnpol) <|
  fc (lda_c_vwn_1_definedUnpol) <|
  fc (lda_c_vwn_2_definedUnpol) <|
  fc (lda_c_vwn_4_definedUnpol) <|
  fc (lda_c_vwn_rpa_definedUnpol) <|
  fc (lda_c_wigner_definedUnpol) <|
  fc (lda_k_gds08_worker_definedUnpol) <|
  fc (lda_k_tf_definedUnpol) <|
  fc (lda_k_zlp_definedUnpol) <|
  fc (lda_x_definedUnpol) <|
  fc (lda_x_2d_definedUnpol) <|
  fc (lda_x_erf_definedUnpol) <|
  fc (lda_x_rel_definedUnpol) <|
  fc (lda_x_sloc_definedUnpol) <|
  fc (lda_x_yukawa_definedUnpol) <|
  fc (lda_xc_1d_ehwlrg_definedUnpol) <|
  fc (lda_xc_teter93_definedUnpol) <|
  fc (lda_xc_tih_definedUnpol) <|
  fc (lda_xc_zlp_definedUnpol) <|
  fc (mgga_c_b88_definedUnpol) <|
  fc (mgga_c_bc95_definedUnpol) <|
  fc (mgga_c_cc_definedUnpol) <|
  fc (mgga_c_ccalda_definedUnpol) <|
  fc (mgga_c_cs_definedUnpol) <|
  fc (mgga_c_ltapw_definedUnpol) <|
  fc (mgga_c_m05_definedUnpol) <|
  fc (mgga_c_m06l_definedUnpol) <|
  fc (mgga_c_m08_definedUnpol) <|
  fc (mgga_c_pkzb_definedUnpol) <|
  fc (mgga_c_revtpss_definedUnpol) <|
  fc (mgga_c_rmggac_definedUnpol) <|
  fc (mgga_c_rppscan_definedUnpol) <|
  fc (mgga_c_rregtm_definedUnpol) <|
  fc (mgga_c_rscan_definedUnpol) <|
  fc (mgga_c_scan_definedUnpol) <|
  fc (mgga_c_tpss_definedUnpol) <|
  fc (mgga_c_tpssloc_definedUnpol) <|
  fc (mgga_c_vsxc_definedUnpol) <|
  fc (mgga_k_csk_definedUnpol) <|
  fc (mgga_k_csk_loc_definedUnpol) <|
  fc (mgga_k_gea2_definedUnpol) <|
  fc (mgga_k_gea4_definedUnpol) <|
  fc (mgga_k_pc07_definedUnpol) <|
  fc (mgga_k_pgslb_definedUnpol) <|
  fc (mgga_x_2d_js17_definedUnpol) <|
  fc (mgga_x_gdme_definedUnpol) <|
  fc (mgga_x_gvt4_definedUnpol) <|
  fc (mgga_x_lta_definedUnpol) <|
  fc (mgga_x_m06l_definedUnpol) <|
  fc (mgga_x_m08_definedUnpol) <|
  fc (mgga_x_m11_definedUnpol) <|
  fc (mgga_x_m11_l_definedUnpol) <|
  fc (mgga_x_mbeef_definedUnpol) <|
  fc (mgga_x_mbeefvdw_definedUnpol) <|
  fc (mgga_x_mcml_definedUnpol) <|
  fc (mgga_x_mn12_definedUnpol) <|
  fc (mgga_x_ms_definedUnpol) <|
  fc (mgga_x_msb_definedUnpol) <|
  fc (mgga_x_mvs_definedUnpol) <|
  fc (mgga_x_pkzb_definedUnpol) <|
  fc (mgga_x_r2scan_definedUnpol) <|
  fc (mgga_x_r4scan_definedUnpol) <|
  fc (mgga_x_regtpss_definedUnpol) <|
  fc (mgga_x_revtm_definedUnpol) <|
  fc (mgga_x_rppscan_definedUnpol) <|
  fc (mgga_x_rscan_definedUnpol) <|
  fc (mgga_x_rtpss_definedUnpol) <|
  fc (mgga_x_scan_definedUnpol) <|
  fc (mgga_x_task_definedUnpol) <|
  fc (mgga_x_tau_hcth_definedUnpol) <|
  fc (mgga_x_th_definedUnpol) <|
  fc (mgga_x_tm_definedUnpol) <|
  fc (mgga_x_tpss_definedUnpol) <|
  fc (mgga_x_vcml_definedUnpol) <|
  fc (mgga_x_vt84_definedUnpol) <|
  fc (mgga_xc_b97mv_definedUnpol) <|
  fc (mgga_xc_b98_definedUnpol) <|
  fc (mgga_xc_lp90_definedUnpol) <|
  fc (mgga_xc_zlp_definedUnpol) <|
  fn

theorem definedUnpol_length : definedUnpol.length = 216 := rfl

/-- Formulas whose polarized code is defined, and under which assumptions. -/
noncomputable def definedPol : List (Shipped × Assume) := [
  (⟨"gga_c_acgga", .gga, gga_c_acgga⟩, {zetaSmall := true}),
  (⟨"gga_c_acggap", .gga, gga_c_acggap⟩, {zetaSmall := true}),
  (⟨"gga_c_am05", .gga, gga_c_am05⟩, {params := ["alpha"]}),
  (⟨"gga_c_bmk", .gga, gga_c_bmk⟩, {}),
  (⟨"gga_c_ccdf", .gga, gga_c_ccdf⟩, {params := ["c2"]}),
  (⟨"gga_c_cs1", .gga, gga_c_cs1⟩, {}),
  (⟨"gga_c_ft97", .gga, gga_c_ft97⟩, {}),
  (⟨"gga_c_hcth_a", .gga, gga_c_hcth_a⟩, {}),
  (⟨"gga_c_lm", .gga, gga_c_lm⟩, {}),
  (⟨"gga_c_lyp", .gga, gga_c_lyp⟩, {params := ["d"]}),
  (⟨"gga_c_lypr", .gga, gga_c_lypr⟩, {params := ["d"]}),
  (⟨"gga_c_op_b88", .gga, gga_c_op_b88⟩, {}),
  (⟨"gga_c_op_g96", .gga, gga_c_op_g96⟩, {}),
  (⟨"gga_c_op_pbe", .gga, gga_c_op_pbe⟩, {}),
  (⟨"gga_c_op_pw91", .gga, gga_c_op_pw91⟩, {}),
  (⟨"gga_c_op_xalpha", .gga, gga_c_op_xalpha⟩, {}),
  (⟨"gga_c_p86", .gga, gga_c_p86⟩, {params := ["aa", "bb", "malpha", "mbeta", "mdelta", "mgamma"]}),
  (⟨"gga_c_p86vwn", .gga, gga_c_p86vwn⟩, {params := ["aa", "bb", "malpha", "mbeta", "mdelta", "mgamma"]}),
  (⟨"gga_c_pbe", .gga, gga_c_pbe⟩, {params := ["BB", "beta", "gamma"], zetaSmall := true}),
  (⟨"gga_c_pbeloc", .gga, gga_c_pbeloc⟩, {zetaSmall := true}),
  (⟨"gga_c_pw91", .gga, gga_c_pw91⟩, {zetaSmall := true}),
  (⟨"gga_c_regtpss", .gga, gga_c_regtpss⟩, {zetaSmall := true}),
  (⟨"gga_c_revtca", .gga, gga_c_revtca⟩, {}),
  (⟨"gga_c_scan_e0", .gga, gga_c_scan_e0⟩, {zetaSmall := true}),
  (⟨"gga_c_sg4", .gga, gga_c_sg4⟩, {zetaSmall := true}),
  (⟨"gga_c_sogga11", .gga, gga_c_sogga11⟩, {zetaSmall := true}),
  (⟨"gga_c_tca", .gga, gga_c_tca⟩, {}),
  (⟨"gga_c_wi", .gga, gga_c_wi⟩, {params := ["c", "d"]}),
  (⟨"gga_c_wl", .gga, gga_c_wl⟩, {}),
  (⟨"gga_c_zpbeint", .gga, gga_c_zpbeint⟩, {params := ["beta"], zetaSmall := true}),
  (⟨"gga_c_zvpbeint", .gga, gga_c_zvpbeint⟩, {params := ["beta"], zetaSmall := true}),
  (⟨"gga_c_zvpbeloc", .gga, gga_c_zvpbeloc⟩, {zetaSmall := true}),
  (⟨"gga_k_apbe", .gga, gga_k_apbe⟩, {params := ["kappa", "mu"]}),
  (⟨"gga_k_apbeint", .gga, gga_k_apbeint⟩, {params := ["alpha", "kappa", "muGE", "muPBE"]}),
  (⟨"gga_k_dk", .gga, gga_k_dk⟩, {params := ["bb[0]", "bb[1]", "bb[2]", "bb[3]", "bb[4]"]}),
  (⟨"gga_k_exp4", .gga, gga_k_exp4⟩, {}),
  (⟨"gga_k_lc94", .gga, gga_k_lc94⟩, {params := ["a", "b", "expo", "f"]}),
  (⟨"gga_k_lgap", .gga, gga_k_lgap⟩, {}),
  (⟨"gga_k_lgap_ge", .gga, gga_k_lgap_ge⟩, {}),
  (⟨"gga_k_lkt", .gga, gga_k_lkt⟩, {}),
  (⟨"gga_k_llp", .gga, gga_k_llp⟩, {params := ["beta", "gamma"]}),
  (⟨"gga_k_mpbe", .gga, gga_k_mpbe⟩, {params := ["a"]}),
  (⟨"gga_k_ol1", .gga, gga_k_ol1⟩, {}),
  (⟨"gga_k_ol2", .gga, gga_k_ol2⟩, {}),
  (⟨"gga_k_pearson", .gga, gga_k_pearson⟩, {}),
  (⟨"gga_k_pg", .gga, gga_k_pg⟩, {}),
  (⟨"gga_k_pw86", .gga, gga_k_pw86⟩, {}),
  (⟨"gga_k_rational_p", .gga, gga_k_rational_p⟩, {params := ["C2", "p"]}),
  (⟨"gga_k_tflw", .gga, gga_k_tflw⟩, {}),
  (⟨"gga_k_thakkar", .gga, gga_k_thakkar⟩, {}),
  (⟨"gga_k_vt84f", .gga, gga_k_vt84f⟩, {params := ["mu"]}),
  (⟨"gga_x_2d_b86", .gga, gga_x_2d_b86⟩, {}),
  (⟨"gga_x_2d_b86_mgc", .gga, gga_x_2d_b86_mgc⟩, {}),
  (⟨"gga_x_2d_b88", .gga, gga_x_2d_b88⟩, {}),
  (⟨"gga_x_2d_pbe", .gga, gga_x_2d_pbe⟩, {}),
  (⟨"gga_x_airy", .gga, gga_x_airy⟩, {}),
  (⟨"gga_x_ak13", .gga, gga_x_ak13⟩, {}),
  (⟨"gga_x_b86", .gga, gga_x_b86⟩, {params := ["gamma"]}),
  (⟨"gga_x_b88", .gga, gga_x_b88⟩, {params := ["beta", "gamma"]}),
  (⟨"gga_x_bayesian", .gga, gga_x_bayesian⟩, {}),
  (⟨"gga_x_beefvdw", .gga, gga_x_beefvdw⟩, {}),
  (⟨"gga_x_bpccac", .gga, gga_x_bpccac⟩, {}),
  (⟨"gga_x_c09x", .gga, gga_x_c09x⟩, {}),
  (⟨"gga_x_cap", .gga, gga_x_cap⟩, {params := ["c"]}),
  (⟨"gga_x_chachiyo", .gga, gga_x_chachiyo⟩, {sPos := true}),
  (⟨"gga_x_dk87", .gga, gga_x_dk87⟩, {params := ["alpha", "b1"]}),
  (⟨"gga_x_ev93", .gga, gga_x_ev93⟩, {params := ["b1", "b2", "b3"]}),
  (⟨"gga_x_ft97", .gga, gga_x_ft97⟩, {params := ["beta2"]}),
  (⟨"gga_x_g96", .gga, gga_x_g96⟩, {}),
  (⟨"gga_x_hcth_a", .gga, gga_x_hcth_a⟩, {}),
  (⟨"gga_x_herman", .gga, gga_x_herman⟩, {}),
  (⟨"gga_x_hjs", .gga, gga_x_hjs⟩, {params := ["b[0]", "b[1]", "b[2]", "b[3]", "b[4]", "b[5]", "b[6]", "b[7]", "b[8]"], flds := [.camOmega]}),
  (⟨"gga_x_htbs", .gga, gga_x_htbs⟩, {}),
  (⟨"gga_x_ityh", .gga, gga_x_ityh⟩, {flds := [.camOmega]}),
  (⟨"gga_x_ityh_optx", .gga, gga_x_ityh_optx⟩, {params := ["a", "b"], flds := [.camOmega]}),
  (⟨"gga_x_ityh_pbe", .gga, gga_x_ityh_pbe⟩, {params := ["kappa", "mu"], flds := [.camOmega]}),
  (⟨"gga_x_kt", .gga, gga_x_kt⟩, {params := ["delta"]}),
  (⟨"gga_x_lag", .gga, gga_x_lag⟩, {}),
  (⟨"gga_x_lg93", .gga, gga_x_lg93⟩, {}),
  (⟨"gga_x_lspbe", .gga, gga_x_lspbe⟩, {params := ["kappa", "mu"]}),
  (⟨"gga_x_lsrpbe", .gga, gga_x_lsrpbe⟩, {params := ["kappa"]}),
  (⟨"gga_x_lv_rpw86", .gga, gga_x_lv_rpw86⟩, {}),
  (⟨"gga_x_mpbe", .gga, gga_x_mpbe⟩, {params := ["a"]}),
  (⟨"gga_x_n12", .gga, gga_x_n12⟩, {}),
  (⟨"gga_x_ncap", .gga, gga_x_ncap⟩, {params := ["beta"]}),
  (⟨"gga_x_ol2", .gga, gga_x_ol2⟩, {}),
  (⟨"gga_x_optx", .gga, gga_x_optx⟩, {params := ["gamma"]}),
  (⟨"gga_x_pbe", .gga, gga_x_pbe⟩, {params := ["kappa", "mu"]}),
  (⟨"gga_x_pbea", .gga, gga_x_pbea⟩, {}),
  (⟨"gga_x_pbeint", .gga, gga_x_pbeint⟩, {params := ["alpha", "kappa", "muGE", "muPBE"]}),
  (⟨"gga_x_pbepow", .gga, gga_x_pbepow⟩, {}),
  (⟨"gga_x_pbetrans", .gga, gga_x_pbetrans⟩, {}),
  (⟨"gga_x_pw86", .gga, gga_x_pw86⟩, {params := ["aa", "bb", "cc"]}),
  (⟨"gga_x_pw91", .gga, gga_x_pw91⟩, {params := ["a", "b", "expo", "f"]}),
  (⟨"gga_x_q1d", .gga, gga_x_q1d⟩, {}),
  (⟨"gga_x_q2d", .gga, gga_x_q2d⟩, {}),
  (⟨"gga_x_rge2", .gga, gga_x_rge2⟩, {}),
  (⟨"gga_x_rpbe", .gga, gga_x_rpbe⟩, {params := ["rpbe_kappa"]}),
  (⟨"gga_x_s12", .gga, gga_x_s12⟩, {params := ["C", "D", "E"]}),
  (⟨"gga_x_sfat", .gga, gga_x_sfat⟩, {flds := [.camOmega]}),
  (⟨"gga_x_sfat_pbe", .gga, gga_x_sfat_pbe⟩, {flds := [.camOmega]}),
  (⟨"gga_x_sogga11", .gga, gga_x_sogga11⟩, {params := ["kappa", "mu"]}),
  (⟨"gga_x_ssb_sw", .gga, gga_x_ssb_sw⟩, {params := ["C", "E"]}),
  (⟨"gga_x_vmt", .gga, gga_x_vmt⟩, {params := ["mu"]}),
  (⟨"gga_x_vmt84", .gga, gga_x_vmt84⟩, {sPos := true, params := ["mu"]}),
  (⟨"gga_x_wc", .gga, gga_x_wc⟩, {}),
  (⟨"gga_x_wpbeh", .gga, gga_x_wpbeh⟩, {}),
  (⟨"gga_xc_b97", .gga, gga_xc_b97⟩, {}),
  (⟨"gga_xc_th1", .gga, gga_xc_th1⟩, {}),
  (⟨"gga_xc_th2", .gga, gga_xc_th2⟩, {}),
  (⟨"gga_xc_th3", .gga, gga_xc_th3⟩, {}),
  (⟨"hyb_gga_x_cam_s12", .gga, hyb_gga_x_cam_s12⟩, {params := ["A", "B", "C", "D", "E"], flds := [.camOmega]}),
  (⟨"hyb_gga_xc_wb97", .gga, hyb_gga_xc_wb97⟩, {flds := [.camOmega]}),
  (⟨"hyb_lda_xc_bn05", .lda, hyb_lda_xc_bn05⟩, {flds := [.camOmega]}),
  (⟨"hyb_mgga_x_dldf", .mgga, hyb_mgga_x_dldf⟩, {}),
  (⟨"hyb_mgga_x_js18", .mgga, hyb_mgga_x_js18⟩, {tPos := true, flds := [.camOmega]}),
  (⟨"hyb_mgga_x_m05", .mgga, hyb_mgga_x_m05⟩, {}),
  (⟨"hyb_mgga_x_pjs18", .mgga, hyb_mgga_x_pjs18⟩, {}),
  (⟨"hyb_mgga_xc_wb97mv", .mgga, hyb_mgga_xc_wb97mv⟩, {tPos := true, flds := [.camOmega]}),
  (⟨"lda_c_1d_csc", .lda, lda_c_1d_csc⟩, {params := ["ferro[0]", "ferro[1]", "ferro[2]", "ferro[3]", "ferro[7]", "ferro[8]", "para[0]", "para[1]", "para[2]", "para[3]", "para[7]", "para[8]"]}),
  (⟨"lda_c_1d_loos", .lda, lda_c_1d_loos⟩, {}),
  (⟨"lda_c_2d_prm", .lda, lda_c_2d_prm⟩, {params := ["c"]}),
  (⟨"lda_c_chachiyo", .lda, lda_c_chachiyo⟩, {params := ["bf", "bp", "cf", "cp"]}),
  (⟨"lda_c_chachiyo_mod", .lda, lda_c_chachiyo_mod⟩, {params := ["bf", "bp", "cf", "cp"]}),
  (⟨"lda_c_gk72", .lda, lda_c_gk72⟩, {}),
  (⟨"lda_c_gombas", .lda, lda_c_gombas⟩, {}),
  (⟨"lda_c_hl", .lda, lda_c_hl⟩, {params := ["hl_r[0]", "hl_r[1]"]}),
  (⟨"lda_c_lp96", .lda, lda_c_lp96⟩, {}),
  (⟨"lda_c_ml1", .lda, lda_c_ml1⟩, {params := ["fc"]}),
  (⟨"lda_c_pmgb06", .lda, lda_c_pmgb06⟩, {flds := [.camOmega]}),
  (⟨"lda_c_pw", .lda, lda_c_pw⟩, {params := ["a[0]", "a[1]", "a[2]", "beta1[0]", "beta1[1]", "beta1[2]", "beta2[0]", "beta2[1]", "beta2[2]", "beta3[0]", "beta3[1]", "beta3[2]", "beta4[0]", "beta4[1]", "beta4[2]", "fz20"]}),
  (⟨"lda_c_pz", .lda, lda_c_pz⟩, {params := ["beta1[0]", "beta1[1]", "beta2[0]", "beta2[1]"]}),
  (⟨"lda_c_rc04", .lda, lda_c_rc04⟩, {}),
  (⟨"lda_c_rpa", .lda, lda_c_rpa⟩, {}),
  (⟨"lda_c_vwn", .lda, lda_c_vwn⟩, {}),
  (⟨"lda_c_vwn_1", .lda, lda_c_vwn_1⟩, {}),
  (⟨"lda_c_vwn_2", .lda, lda_c_vwn_2⟩, {}),
  (⟨"lda_c_vwn_4", .lda, lda_c_vwn_4⟩, {}),
  (⟨"lda_c_vwn_rpa", .lda, lda_c_vwn_rpa⟩, {}),
  (⟨"lda_c_wigner", .lda, lda_c_wigner⟩, {params := ["b"]}),
  (⟨"lda_k_gds08_worker", .lda, lda_k_gds08_worker⟩, {}),
  (⟨"lda_k_tf", .lda, lda_k_tf⟩, {}),
  (⟨"lda_k_zlp", .lda, lda_k_zlp⟩, {}),
  (⟨"lda_x", .lda, lda_x⟩, {}),
  (⟨"lda_x_2d", .lda, lda_x_2d⟩, {}),
  (⟨"lda_x_erf", .lda, lda_x_erf⟩, {flds := [.camOmega]}),
  (⟨"lda_x_rel", .lda, lda_x_rel⟩, {}),
  (⟨"lda_x_sloc", .lda, lda_x_sloc⟩, {params := ["b"]}),
  (⟨"lda_x_yukawa", .lda, lda_x_yukawa⟩, {flds := [.camOmega]}),
  (⟨"lda_xc_1d_ehwlrg", .lda, lda_xc_1d_ehwlrg⟩, {}),
  (⟨"lda_xc_tih", .lda, lda_xc_tih⟩, {}),
  (⟨"lda_xc_zlp", .lda, lda_xc_zlp⟩, {}),
  (⟨"mgga_c_b88", .mgga, mgga_c_b88⟩, {}),
  (⟨"mgga_c_bc95", .mgga, mgga_c_bc95⟩, {tPos := true, params := ["copp", "css"]}),
  (⟨"mgga_c_cc", .mgga, mgga_c_cc⟩, {tPos := true}),
  (⟨"mgga_c_cs", .mgga, mgga_c_cs⟩, {}),
  (⟨"mgga_c_ltapw", .mgga, mgga_c_ltapw⟩, {tPos := true}),
  (⟨"mgga_c_m05", .mgga, mgga_c_m05⟩, {tPos := true, params := ["Fermi_D_cnst", "gamma_ab", "gamma_ss"]}),
  (⟨"mgga_c_m06l", .mgga, mgga_c_m06l⟩, {tPos := true, params := ["Fermi_D_cnst", "alpha_ab", "alpha_ss", "gamma_ab", "gamma_ss"], le := [("alpha_ss", 1/20), ("alpha_ab", 1/20)]}),
  (⟨"mgga_c_m08", .mgga, mgga_c_m08⟩, {zetaSmall := true}),
  (⟨"mgga_c_rppscan", .mgga, mgga_c_rppscan⟩, {params := ["eta"], zetaSmall := true}),
  (⟨"mgga_c_rregtm", .mgga, mgga_c_rregtm⟩, {zetaSmall := true}),
  (⟨"mgga_c_rscan", .mgga, mgga_c_rscan⟩, {zetaSmall := true}),
  (⟨"mgga_c_scan", .mgga, mgga_c_scan⟩, {zetaSmall := true}),
  (⟨"mgga_c_vsxc", .mgga, mgga_c_vsxc⟩, {tPos := true, params := ["alpha_ab", "alpha_ss"], le := [("alpha_ss", 1/20), ("alpha_ab", 1/20)]}),
  (⟨"mgga_k_csk", .mgga, mgga_k_csk⟩, {params := ["csk_a"]}),
  (⟨"mgga_k_csk_loc", .mgga, mgga_k_csk_loc⟩, {params := ["csk_a"]}),
  (⟨"mgga_k_gea2", .mgga, mgga_k_gea2⟩, {}),
  (⟨"mgga_k_gea4", .mgga, mgga_k_gea4⟩, {}),
  (⟨"mgga_k_pc07", .mgga, mgga_k_pc07⟩, {params := ["a"]}),
  (⟨"mgga_k_pgslb", .mgga, mgga_k_pgslb⟩, {}),
  (⟨"mgga_x_2d_js17", .mgga, mgga_x_2d_js17⟩, {}),
  (⟨"mgga_x_gdme", .mgga, mgga_x_gdme⟩, {}),
  (⟨"mgga_x_gvt4", .mgga, mgga_x_gvt4⟩, {}),
  (⟨"mgga_x_lta", .mgga, mgga_x_lta⟩, {tPos := true}),
  (⟨"mgga_x_m06l", .mgga, mgga_x_m06l⟩, {}),
  (⟨"mgga_x_m08", .mgga, mgga_x_m08⟩, {}),
  (⟨"mgga_x_m11", .mgga, mgga_x_m11⟩, {flds := [.camOmega]}),
  (⟨"mgga_x_m11_l", .mgga, mgga_x_m11_l⟩, {flds := [.camOmega]}),
  (⟨"mgga_x_mbeef", .mgga, mgga_x_mbeef⟩, {}),
  (⟨"mgga_x_mbeefvdw", .mgga, mgga_x_mbeefvdw⟩, {}),
  (⟨"mgga_x_mcml", .mgga, mgga_x_mcml⟩, {}),
  (⟨"mgga_x_mn12", .mgga, mgga_x_mn12⟩, {}),
  (⟨"mgga_x_ms", .mgga, mgga_x_ms⟩, {params := ["c", "kappa"], ge := [("b", 1/2)]}),
  (⟨"mgga_x_msb", .mgga, mgga_x_msb⟩, {params := ["c", "kappa"], ge := [("b", 1/2)]}),
  (⟨"mgga_x_mvs", .mgga, mgga_x_mvs⟩, {params := ["b", "c1", "e1"]}),
  (⟨"mgga_x_pkzb", .mgga, mgga_x_pkzb⟩, {}),
  (⟨"mgga_x_r2scan", .mgga, mgga_x_r2scan⟩, {sPos := true, params := ["dp2", "eta", "k1"], le := [("eta", 1/100)]}),
  (⟨"mgga_x_r4scan", .mgga, mgga_x_r4scan⟩, {sPos := true, params := ["da4", "dp2", "dp4", "eta", "k1"], le := [("eta", 1/100)]}),
  (⟨"mgga_x_regtpss", .mgga, mgga_x_regtpss⟩, {tPos := true}),
  (⟨"mgga_x_revtm", .mgga, mgga_x_revtm⟩, {tPos := true}),
  (⟨"mgga_x_rppscan", .mgga, mgga_x_rppscan⟩, {sPos := true, params := ["eta", "k1"], le := [("k1", 1/10)]}),
  (⟨"mgga_x_rscan", .mgga, mgga_x_rscan⟩, {sPos := true, params := ["alphar", "k1", "taur"], le := [("k1", 1/10)]}),
  (⟨"mgga_x_rtpss", .mgga, mgga_x_rtpss⟩, {tPos := true, params := ["b", "e", "kappa"], le := [("b", 3)]}),
  (⟨"mgga_x_scan", .mgga, mgga_x_scan⟩, {sPos := true, params := ["c1", "c2", "k1"], le := [("k1", 1/10), ("d", 10)], ge := [("d", 1/10)]}),
  (⟨"mgga_x_task", .mgga, mgga_x_task⟩, {sPos := true, tPos := true, params := ["task_c"]}),
  (⟨"mgga_x_tau_hcth", .mgga, mgga_x_tau_hcth⟩, {}),
  (⟨"mgga_x_th", .mgga, mgga_x_th⟩, {tPos := true}),
  (⟨"mgga_x_tm", .mgga, mgga_x_tm⟩, {tPos := true}),
  (⟨"mgga_x_tpss", .mgga, mgga_x_tpss⟩, {sPos := true, tPos := true, params := ["b", "c", "e", "kappa", "mu"], le := [("b", 3)], ge := [("e", 1), ("kappa", 1/10)]}),
  (⟨"mgga_x_vcml", .mgga, mgga_x_vcml⟩, {}),
  (⟨"mgga_x_vt84", .mgga, mgga_x_vt84⟩, {sPos := true, tPos := true}),
  (⟨"mgga_xc_b97mv", .mgga, mgga_xc_b97mv⟩, {tPos := true}),
  (⟨"mgga_xc_b98", .mgga, mgga_xc_b98⟩, {tPos := true}),
  (⟨"mgga_xc_lp90", .mgga, mgga_xc_lp90⟩, {}),
  (⟨"mgga_xc_zlp", .mgga, mgga_xc_zlp⟩, {})]

/-- C49 (polarized code): 206 of the 249 formulas that run.  Partial: nothing is said of the other ones. -/
theorem c49_pol_partial : ∀ d ∈ definedPol, DefinedPol d.2 d.1.fam d.1.code :=
  fc (gga_c_acgga_definedPol) <|
  fc (gga_c_acggap_definedPol) <|
  fc (gga_c_am05_definedPol) <|
  fc (gga_c_bmk_definedPol) <|
  fc (gga_c_ccdf_definedPol) <|
  fc (gga_c_cs1_definedPol) <|
  fc (gga_c_ft97_definedPol) <|
  fc (gga_c_hcth_a_definedPol) <|
  fc (gga_c_lm_definedPol) <|
  fc (gga_c_lyp_definedPol) <|
  fc (gga_c_lypr_definedPol) <|
  fc (gga_c_op_b88_definedPol) <|
  fc (gga_c_op_g96_definedPol) <|
  fc (gga_c_op_pbe_definedPol) <|
  fc (gga_c_op_pw91_definedPol) <|
  fc (gga_c_op_xalpha_definedPol) <|
  fc (gga_c_p86_definedPol) <|
  fc (gga_c_p86vwn_definedPol) <|
  fc (gga_c_pbe_definedPol) <|
  fc (gga_c_pbeloc_definedPol) <|
  fc (gga_c_pw91_definedPol) <|
  fc (gga_c_regtpss_definedPol) <|
  fc (gga_c_revtca_definedPol) <|
  fc (gga_c_scan_e0_definedPol) <|
  fc (gga_c_sg4_definedPol) <|
  fc (gga_c_sogga11_definedPol) <|
  fc (gga_c_tca_definedPol) <|
  fc (gga_c_wi_definedPol) <|
  fc (gga_c_wl_definedPol) <|
  fc (gga_c_zpbeint_definedPol) <|
  fc (gga_c_zvpbeint_definedPol) <|
  fc (gga_c_zvpbeloc_definedPol) <|
  fc (gga_k_apbe_definedPol) <|
  fc (gga_k_apbeint_definedPol) <|
  fc (gga_k_dk_definedPol) <|
  fc (gga_k_exp4_definedPol) <|
  fc (gga_k_lc94_definedPol) <|
  fc (gga_k_lgap_definedPol) <|
  fc (gga_k_lgap_ge_definedPol) <|
  fc (gga_k_lkt_definedPol) <|
  fc (gga_k_llp_definedPol) <|
  fc (gga_k_mpbe_definedPol) <|
  fc (gga_k_ol1_definedPol) <|
  fc (gga_k_ol2_definedPol) <|
  fc (gga_k_pearson_definedPol) <|
  fc (gga_k_pg_definedPol) <|
  fc (gga_k_pw86_definedPol) <|
  fc (gga_k_rational_p_definedPol) <|
  fc (gga_k_tflw_definedPol) <|
  fc (gga_k_thakkar_definedPol) <|
  fc (gga_k_vt84f_definedPol) <|
  fc (gga_x_2d_b86_definedPol) <|
  fc (gga_x_2d_b86_mgc_definedPol) <|
  fc (gga_x_2d_b88_definedPol) <|
  fc (gga_x_2d_pbe_definedPol) <|
  fc (gga_x_airy_definedPol) <|
  fc (gga_x_ak13_definedPol) <|
  fc (gga_x_b86_definedPol) <|
  fc (gga_x_b88_definedPol) <|
  fc (gga_x_bayesian_definedPol) <|
  fc (gga_x_beefvdw_definedPol) <|
  fc (gga_x_bpccac_definedPol) <|
  fc (gga_x_c09x_definedPol) <|
  fc (gga_x_cap_definedPol) <|
  fc (gga_x_chachiyo_definedPol) <|
  fc (gga_x_dk87_definedPol) <|
  fc (gga_x_ev93_definedPol) <|
  fc (gga_x_ft97_definedPol) <|
  fc (gga_x_g96_definedPol) <|
  fc (gga_x_hcth_a_definedPol) <|
  fc (gga_x_herman_definedPol) <|
  fc (gga_x_hjs_definedPol) <|
  fc (gga_x_htbs_definedPol) <|
  fc (gga_x_ityh_definedPol) <|
  fc (gga_x_ityh_optx_definedPol) <|
  fc (gga_x_ityh_pbe_definedPol) <|
  fc (gga_x_kt_definedPol) <|
  fc (gga_x_lag_definedPol) <|
  fc (gga_x_lg93_definedPol) <|
  fc (gga_x_lspbe_definedPol) <|
  fc (gga_x_lsrpbe_definedPol) <|
  fc (gga_x_lv_rpw86_definedPol) <|
  fc (gga_x_mpbe_definedPol) <|
  fc (gga_x_n12_definedPol) <|
  fc (gga_x_ncap_definedPol) <|
  fc (gga_x_ol2_definedPol) <|
  fc (gga_x_optx_definedPol) <|
  fc (gga_x_pbe_definedPol) <|
  fc (gga_x_pbea_definedPol) <|
  fc (gga_x_pbeint_definedPol) <|
  fc (gga_x_pbepow_definedPol) <|
  fc (gga_x_pbetrans_definedPol) <|
  fc (gga_x_pw86_definedPol) <|
  fc (gga_x_pw91_definedPol) <|
  fc (gga_x_q1d_definedPol) <|
  fc (gga_x_q2d_definedPol) <|
  fc (gga_x_rge2_definedPol) <|
  fc (gga_x_rpbe_definedPol) <|
  fc (gga_x_s12_definedPol) <|
  fc (gga_x_sfat_definedPol) <|
  fc (gga_x_sfat_pbe_definedPol) <|
  fc (gga_x_sogga11_definedPol) <|
  fc (gga_x_ssb_sw_definedPol) <|
  fc (gga_x_vmt_definedPol) <|
  fc (gga_x_vmt84_definedPol) <|
  fc (gga_x_wc_definedPol) <|
  fc (gga_x_wpbeh_definedPol) <|
  fc (gga_xc_b97_definedPol) <|
  fc (gga_xc_th1_definedPol) <|
  fc (gga_xc_th2_definedPol) <|
  fc (gga_xc_th3_definedPol) <|
  fc (hyb_gga_x_cam_s12_definedPol) <|
  fc (hyb_gga_xc_wb97_definedPol) <|
  fc (hyb_lda_xc_bn05_definedPol) <|
  fc (hyb_mgga_x_dldf_definedPol) <|
  fc (hyb_mgga_x_js18_definedPol) <|
  fc (hyb_mgga_x_m05_definedPol) <|
  fc (hyb_mgga_x_pjs18_definedPol) <|
  fc (hyb_mgga_xc_wb97mv_definedPol) <|
  fc (lda_c_1d_csc_definedPol) <|
  fc (lda_c_1d_loos_definedPol) <|
  fc (lda_c_2d_prm_definedPol) <|
  fc (lda_c_chachiyo_definedPol) <|
  fc (lda_c_chachiyo_mod_definedPol) <|
  fc (lda_c_gk72_definedPol) <|
  fc (lda_c_gombas_definedPol) <|
  fc (lda_c_hl_definedPol) <|
  fc (lda_c_lp96_definedPol) <|
  fc (lda_c_ml1_definedPol) <|
  fc (lda_c_pmgb06_definedPol) <|
  fc (lda_c_pw_definedPol) <|
  fc (lda_c_pz_definedPol) <|
  fc (lda_c_rc04_definedPol) <|
  fc (lda_c_rpa_definedPol) <|
  fc (lda_c_vwn_definedPol) <|
  fc (lda_c_vwn_1_definedPol) <|
  fc (lda_c_vwn_2_definedPol) <|
  fc (lda_c_vwn_4_definedPol) <|
  fc (lda_c_vwn_rpa_definedPol) <|
  fc (lda_c_wigner_definedPol) <|
  fc (lda_k_gds08_worker_definedPol) <|
  fc (lda_k_tf_definedPol) <|
  fc (lda_k_zlp_definedPol) <|
  fc (lda_x_definedPol) <|
  fc (lda_x_2d_definedPol) <|
  fc (lda_x_erf_definedPol) <|
  fc (lda_x_rel_definedPol) <|
  fc (lda_x_sloc_definedPol) <|
  fc (lda_x_yukawa_definedPol) <|
  fc (lda_xc_1d_ehwlrg_definedPol) <|
  fc (lda_xc_tih_definedPol) <|
  fc (lda_xc_zlp_definedPol) <|
  fc (mgga_c_b88_definedPol) <|
  fc (mgga_c_bc95_definedPol) <|
  fc (mgga_c_cc_definedPol) <|
  fc (mgga_c_cs_definedPol) <|
  fc (mgga_c_ltapw_definedPol) <|
  fc (mgga_c_m05_definedPol) <|
  fc (mgga_c_m06l_definedPol) <|
  fc (mgga_c_m08_definedPol) <|
  fc (mgga_c_rppscan_definedPol) <|
  fc (mgga_c_rregtm_definedPol) <|
  fc (mgga_c_rscan_definedPol) <|
  fc (mgga_c_scan_definedPol) <|
  fc (mgga_c_vsxc_definedPol) <|
  fc (mgga_k_csk_definedPol) <|
  fc (mgga_k_csk_loc_definedPol) <|
  fc (mgga_k_gea2_definedPol) <|
  fc (mgga_k_gea4_definedPol) <|
  fc (mgga_k_pc07_definedPol) <|
  fc (mgga_k_pgslb_definedPol) <|
  fc (mgga_x_2d_js17_definedPol) <|
  fc (mgga_x_gdme_definedPol) <|
  fc (mgga_x_gvt4_definedPol) <|
  fc (mgga_x_lta_definedPol) <|
  fc (mgga_x_m06l_definedPol) <|
  fc (mgga_x_m08_definedPol) <|
  fc (mgga_x_m11_definedPol) <|
  fc (mgga_x_m11_l_definedPol) <|
  fc (mgga_x_mbeef_definedPol) <|
  fc (mgga_x_mbeefvdw_definedPol) <|
  fc (mgga_x_mcml_definedPol) <|
  fc (mgga_x_mn12_definedPol) <|
  fc (mgga_x_ms_definedPol) <|
  fc (mgga_x_msb_definedPol) <|
  fc (mgga_x_mvs_definedPol) <|
  fc (mgga_x_pkzb_definedPol) <|
  fc (mgga_x_r2scan_definedPol) <|
  fc (mgga_x_r4scan_definedPol) <|
  fc (mgga_x_regtpss_definedPol) <|
  fc (mgga_x_revtm_definedPol) <|
  fc (mgga_x_rppscan_definedPol) <|
  fc (mgga_x_rscan_definedPol) <|
  fc (mgga_x_rtpss_definedPol) <|
  fc (mgga_x_scan_definedPol) <|
  fc (mgga_x_task_definedPol) <|
  fc (mgga_x_tau_hcth_definedPol) <|
  fc (mgga_x_th_definedPol) <|
  fc (mgga_x_tm_definedPol) <|
  fc (mgga_x_tpss_definedPol) <|
  fc (mgga_x_vcml_definedPol) <|
  fc (mgga_x_vt84_definedPol) <|
  fc (mgga_xc_b97mv_definedPol) <|
  fc (mgga_xc_b98_definedPol) <|
  fc (mgga_xc_lp90_definedPol) <|
  fc (mgga_xc_zlp_definedPol) <|
  fn

theorem definedPol_length : definedPol.length = 206 := rfl

/-- Formulas whose polarized code is defined where there are electrons of one spin only. -/
noncomputable def definedOneSpin : List (Shipped × Assume) := [
  (⟨"gga_c_ccdf", .gga, gga_c_ccdf⟩, {params := ["c2"]}),
  (⟨"gga_c_op_b88", .gga, gga_c_op_b88⟩, {}),
  (⟨"gga_c_op_g96", .gga, gga_c_op_g96⟩, {}),
  (⟨"gga_c_op_pbe", .gga, gga_c_op_pbe⟩, {}),
  (⟨"gga_c_op_pw91", .gga, gga_c_op_pw91⟩, {}),
  (⟨"gga_c_op_xalpha", .gga, gga_c_op_xalpha⟩, {}),
  (⟨"gga_c_p86", .gga, gga_c_p86⟩, {params := ["bb", "aa", "mbeta", "mdelta", "mgamma", "malpha"]}),
  (⟨"gga_c_p86vwn", .gga, gga_c_p86vwn⟩, {params := ["bb", "aa", "mbeta", "mdelta", "mgamma", "malpha"]}),
  (⟨"gga_c_revtca", .gga, gga_c_revtca⟩, {}),
  (⟨"gga_c_tca", .gga, gga_c_tca⟩, {}),
  (⟨"gga_c_wi", .gga, gga_c_wi⟩, {params := ["d", "c"]}),
  (⟨"gga_k_apbe", .gga, gga_k_apbe⟩, {params := ["kappa", "mu"]}),
  (⟨"gga_k_dk", .gga, gga_k_dk⟩, {params := ["bb[4]", "bb[3]", "bb[2]", "bb[1]", "bb[0]"]}),
  (⟨"gga_k_exp4", .gga, gga_k_exp4⟩, {}),
  (⟨"gga_k_lc94", .gga, gga_k_lc94⟩, {params := ["a", "f", "b"]}),
  (⟨"gga_k_lgap", .gga, gga_k_lgap⟩, {}),
  (⟨"gga_k_lgap_ge", .gga, gga_k_lgap_ge⟩, {}),
  (⟨"gga_k_lkt", .gga, gga_k_lkt⟩, {}),
  (⟨"gga_k_llp", .gga, gga_k_llp⟩, {params := ["beta", "gamma"]}),
  (⟨"gga_k_mpbe", .gga, gga_k_mpbe⟩, {params := ["a"]}),
  (⟨"gga_k_ol1", .gga, gga_k_ol1⟩, {}),
  (⟨"gga_k_ol2", .gga, gga_k_ol2⟩, {}),
  (⟨"gga_k_pearson", .gga, gga_k_pearson⟩, {}),
  (⟨"gga_k_pg", .gga, gga_k_pg⟩, {}),
  (⟨"gga_k_pw86", .gga, gga_k_pw86⟩, {}),
  (⟨"gga_k_rational_p", .gga, gga_k_rational_p⟩, {params := ["p", "C2"]}),
  (⟨"gga_k_tflw", .gga, gga_k_tflw⟩, {}),
  (⟨"gga_k_thakkar", .gga, gga_k_thakkar⟩, {}),
  (⟨"gga_k_vt84f", .gga, gga_k_vt84f⟩, {params := ["mu"]}),
  (⟨"gga_x_2d_b86", .gga, gga_x_2d_b86⟩, {}),
  (⟨"gga_x_2d_b86_mgc", .gga, gga_x_2d_b86_mgc⟩, {}),
  (⟨"gga_x_2d_b88", .gga, gga_x_2d_b88⟩, {}),
  (⟨"gga_x_2d_pbe", .gga, gga_x_2d_pbe⟩, {}),
  (⟨"gga_x_airy", .gga, gga_x_airy⟩, {}),
  (⟨"gga_x_ak13", .gga, gga_x_ak13⟩, {}),
  (⟨"gga_x_b86", .gga, gga_x_b86⟩, {params := ["gamma"]}),
  (⟨"gga_x_b88", .gga, gga_x_b88⟩, {params := ["beta", "gamma"]}),
  (⟨"gga_x_bayesian", .gga, gga_x_bayesian⟩, {}),
  (⟨"gga_x_beefvdw", .gga, gga_x_beefvdw⟩, {}),
  (⟨"gga_x_bpccac", .gga, gga_x_bpccac⟩, {}),
  (⟨"gga_x_c09x", .gga, gga_x_c09x⟩, {}),
  (⟨"gga_x_cap", .gga, gga_x_cap⟩, {params := ["c"]}),
  (⟨"gga_x_chachiyo", .gga, gga_x_chachiyo⟩, {}),
  (⟨"gga_x_dk87", .gga, gga_x_dk87⟩, {params := ["b1"]}),
  (⟨"gga_x_ev93", .gga, gga_x_ev93⟩, {params := ["b3", "b2", "b1"]}),
  (⟨"gga_x_ft97", .gga, gga_x_ft97⟩, {params := ["beta2"]}),
  (⟨"gga_x_g96", .gga, gga_x_g96⟩, {}),
  (⟨"gga_x_hcth_a", .gga, gga_x_hcth_a⟩, {}),
  (⟨"gga_x_herman", .gga, gga_x_herman⟩, {}),
  (⟨"gga_x_hjs", .gga, gga_x_hjs⟩, {params := ["b[8]", "b[7]", "b[6]", "b[5]", "b[4]", "b[3]", "b[2]", "b[1]", "b[0]"], flds := [.camOmega]}),
  (⟨"gga_x_htbs", .gga, gga_x_htbs⟩, {}),
  (⟨"gga_x_ityh", .gga, gga_x_ityh⟩, {flds := [.camOmega]}),
  (⟨"gga_x_ityh_optx", .gga, gga_x_ityh_optx⟩, {params := ["b", "a"], flds := [.camOmega]}),
  (⟨"gga_x_kt", .gga, gga_x_kt⟩, {params := ["delta"]}),
  (⟨"gga_x_lag", .gga, gga_x_lag⟩, {}),
  (⟨"gga_x_lg93", .gga, gga_x_lg93⟩, {}),
  (⟨"gga_x_lspbe", .gga, gga_x_lspbe⟩, {params := ["kappa", "mu"]}),
  (⟨"gga_x_lsrpbe", .gga, gga_x_lsrpbe⟩, {params := ["kappa"]}),
  (⟨"gga_x_lv_rpw86", .gga, gga_x_lv_rpw86⟩, {}),
  (⟨"gga_x_mpbe", .gga, gga_x_mpbe⟩, {params := ["a"]}),
  (⟨"gga_x_n12", .gga, gga_x_n12⟩, {}),
  (⟨"gga_x_ncap", .gga, gga_x_ncap⟩, {params := ["beta"]}),
  (⟨"gga_x_ol2", .gga, gga_x_ol2⟩, {}),
  (⟨"gga_x_optx", .gga, gga_x_optx⟩, {params := ["gamma"]}),
  (⟨"gga_x_pbe", .gga, gga_x_pbe⟩, {params := ["kappa", "mu"]}),
  (⟨"gga_x_pbea", .gga, gga_x_pbea⟩, {}),
  (⟨"gga_x_pbepow", .gga, gga_x_pbepow⟩, {}),
  (⟨"gga_x_pbetrans", .gga, gga_x_pbetrans⟩, {}),
  (⟨"gga_x_pw86", .gga, gga_x_pw86⟩, {params := ["cc", "bb", "aa"]}),
  (⟨"gga_x_pw91", .gga, gga_x_pw91⟩, {params := ["a", "f", "b"]}),
  (⟨"gga_x_q1d", .gga, gga_x_q1d⟩, {}),
  (⟨"gga_x_q2d", .gga, gga_x_q2d⟩, {}),
  (⟨"gga_x_rge2", .gga, gga_x_rge2⟩, {}),
  (⟨"gga_x_rpbe", .gga, gga_x_rpbe⟩, {params := ["rpbe_kappa"]}),
  (⟨"gga_x_s12", .gga, gga_x_s12⟩, {params := ["E", "D", "C"]}),
  (⟨"gga_x_sfat", .gga, gga_x_sfat⟩, {flds := [.camOmega]}),
  (⟨"gga_x_sfat_pbe", .gga, gga_x_sfat_pbe⟩, {flds := [.camOmega]}),
  (⟨"gga_x_sogga11", .gga, gga_x_sogga11⟩, {params := ["kappa", "mu"]}),
  (⟨"gga_x_ssb_sw", .gga, gga_x_ssb_sw⟩, {params := ["E", "C"]}),
  (⟨"gga_x_vmt", .gga, gga_x_vmt⟩, {params := ["mu"]}),
  (⟨"gga_x_vmt84", .gga, gga_x_vmt84⟩, {params := ["mu"]}),
  (⟨"gga_x_wc", .gga, gga_x_wc⟩, {}),
  (⟨"gga_x_wpbeh", .gga, gga_x_wpbeh⟩, {}),
  (⟨"hyb_gga_x_cam_s12", .gga, hyb_gga_x_cam_s12⟩, {params := ["E", "D", "C", "B", "A"], flds := [.camOmega]}),
  (⟨"hyb_mgga_x_dldf", .mgga, hyb_mgga_x_dldf⟩, {}),
  (⟨"hyb_mgga_x_m05", .mgga, hyb_mgga_x_m05⟩, {}),
  (⟨"hyb_mgga_x_pjs18", .mgga, hyb_mgga_x_pjs18⟩, {}),
  (⟨"lda_c_1d_csc", .lda, lda_c_1d_csc⟩, {params := ["ferro[0]", "ferro[3]", "ferro[2]", "ferro[1]", "ferro[8]", "ferro[7]", "para[0]", "para[3]", "para[2]", "para[1]", "para[8]", "para[7]"]}),
  (⟨"lda_c_1d_loos", .lda, lda_c_1d_loos⟩, {}),
  (⟨"lda_c_2d_prm", .lda, lda_c_2d_prm⟩, {params := ["c"]}),
  (⟨"lda_c_chachiyo", .lda, lda_c_chachiyo⟩, {params := ["cf", "bf", "cp", "bp"]}),
  (⟨"lda_c_chachiyo_mod", .lda, lda_c_chachiyo_mod⟩, {params := ["cf", "bf", "cp", "bp"]}),
  (⟨"lda_c_gk72", .lda, lda_c_gk72⟩, {}),
  (⟨"lda_c_gombas", .lda, lda_c_gombas⟩, {}),
  (⟨"lda_c_hl", .lda, lda_c_hl⟩, {params := ["hl_r[1]", "hl_r[0]"]}),
  (⟨"lda_c_lp96", .lda, lda_c_lp96⟩, {}),
  (⟨"lda_c_ml1", .lda, lda_c_ml1⟩, {}),
  (⟨"lda_c_pw", .lda, lda_c_pw⟩, {params := ["fz20", "beta4[2]", "beta3[2]", "beta2[2]", "beta1[2]", "a[2]", "beta4[1]", "beta3[1]", "beta2[1]", "beta1[1]", "a[1]", "beta4[0]", "beta3[0]", "beta2[0]", "beta1[0]", "a[0]"]}),
  (⟨"lda_c_pz", .lda, lda_c_pz⟩, {params := ["beta2[1]", "beta1[1]", "beta2[0]", "beta1[0]"]}),
  (⟨"lda_c_rc04", .lda, lda_c_rc04⟩, {}),
  (⟨"lda_c_rpa", .lda, lda_c_rpa⟩, {}),
  (⟨"lda_c_vwn", .lda, lda_c_vwn⟩, {}),
  (⟨"lda_c_vwn_1", .lda, lda_c_vwn_1⟩, {}),
  (⟨"lda_c_vwn_2", .lda, lda_c_vwn_2⟩, {}),
  (⟨"lda_c_vwn_4", .lda, lda_c_vwn_4⟩, {}),
  (⟨"lda_c_vwn_rpa", .lda, lda_c_vwn_rpa⟩, {}),
  (⟨"lda_c_wigner", .lda, lda_c_wigner⟩, {params := ["b"]}),
  (⟨"lda_k_gds08_worker", .lda, lda_k_gds08_worker⟩, {}),
  (⟨"lda_k_tf", .lda, lda_k_tf⟩, {}),
  (⟨"lda_k_zlp", .lda, lda_k_zlp⟩, {}),
  (⟨"lda_x", .lda, lda_x⟩, {}),
  (⟨"lda_x_2d", .lda, lda_x_2d⟩, {}),
  (⟨"lda_x_erf", .lda, lda_x_erf⟩, {flds := [.camOmega]}),
  (⟨"lda_x_rel", .lda, lda_x_rel⟩, {}),
  (⟨"lda_x_sloc", .lda, lda_x_sloc⟩, {params := ["b"]}),
  (⟨"lda_x_yukawa", .lda, lda_x_yukawa⟩, {flds := [.camOmega]}),
  (⟨"lda_xc_1d_ehwlrg", .lda, lda_xc_1d_ehwlrg⟩, {}),
  (⟨"lda_xc_teter93", .lda, lda_xc_teter93⟩, {}),
  (⟨"lda_xc_tih", .lda, lda_xc_tih⟩, {}),
  (⟨"lda_xc_zlp", .lda, lda_xc_zlp⟩, {}),
  (⟨"mgga_c_b88", .mgga, mgga_c_b88⟩, {}),
  (⟨"mgga_k_csk", .mgga, mgga_k_csk⟩, {params := ["csk_a"]}),
  (⟨"mgga_k_csk_loc", .mgga, mgga_k_csk_loc⟩, {params := ["csk_a"]}),
  (⟨"mgga_k_gea2", .mgga, mgga_k_gea2⟩, {}),
  (⟨"mgga_k_gea4", .mgga, mgga_k_gea4⟩, {}),
  (⟨"mgga_k_pgslb", .mgga, mgga_k_pgslb⟩, {}),
  (⟨"mgga_x_2d_js17", .mgga, mgga_x_2d_js17⟩, {}),
  (⟨"mgga_x_gdme", .mgga, mgga_x_gdme⟩, {}),
  (⟨"mgga_x_gvt4", .mgga, mgga_x_gvt4⟩, {}),
  (⟨"mgga_x_lta", .mgga, mgga_x_lta⟩, {}),
  (⟨"mgga_x_m06l", .mgga, mgga_x_m06l⟩, {}),
  (⟨"mgga_x_m08", .mgga, mgga_x_m08⟩, {}),
  (⟨"mgga_x_m11", .mgga, mgga_x_m11⟩, {flds := [.camOmega]}),
  (⟨"mgga_x_m11_l", .mgga, mgga_x_m11_l⟩, {flds := [.camOmega]}),
  (⟨"mgga_x_mn12", .mgga, mgga_x_mn12⟩, {}),
  (⟨"mgga_x_mvs", .mgga, mgga_x_mvs⟩, {params := ["c1", "e1", "b"]}),
  (⟨"mgga_x_tau_hcth", .mgga, mgga_x_tau_hcth⟩, {}),
  (⟨"mgga_x_th", .mgga, mgga_x_th⟩, {}),
  (⟨"gga_c_acgga", .gga, gga_c_acgga⟩, {zetaSmall := true}),
  (⟨"gga_c_pbe", .gga, gga_c_pbe⟩, {params := ["BB", "beta", "gamma"], zetaSmall := true}),
  (⟨"gga_c_pbeloc", .gga, gga_c_pbeloc⟩, {zetaSmall := true}),
  (⟨"gga_c_pw91", .gga, gga_c_pw91⟩, {zetaSmall := true}),
  (⟨"gga_c_regtpss", .gga, gga_c_regtpss⟩, {zetaSmall := true}),
  (⟨"gga_c_scan_e0", .gga, gga_c_scan_e0⟩, {zetaSmall := true}),
  (⟨"gga_c_sogga11", .gga, gga_c_sogga11⟩, {zetaSmall := true}),
  (⟨"hyb_mgga_x_js18", .mgga, hyb_mgga_x_js18⟩, {tPos := true, flds := [.camOmega]}),
  (⟨"mgga_x_pkzb", .mgga, mgga_x_pkzb⟩, {}),
  (⟨"mgga_x_regtpss", .mgga, mgga_x_regtpss⟩, {tPos := true}),
  (⟨"mgga_x_revtm", .mgga, mgga_x_revtm⟩, {tPos := true}),
  (⟨"mgga_x_rtpss", .mgga, mgga_x_rtpss⟩, {tPos := true, params := ["b", "e", "kappa"], le := [("b", 3)]}),
  (⟨"mgga_x_tm", .mgga, mgga_x_tm⟩, {tPos := true}),
  (⟨"mgga_x_tpss", .mgga, mgga_x_tpss⟩, {sPos := true, tPos := true, params := ["b", "c", "e", "kappa", "mu"], le := [("b", 3)], ge := [("e", 1), ("kappa", 1/10)]}),
  (⟨"mgga_x_vt84", .mgga, mgga_x_vt84⟩, {sPos := true, tPos := true}),
  (⟨"mgga_x_r2scan", .mgga, mgga_x_r2scan⟩, {sPos := true, params := ["dp2", "eta", "k1"], le := [("eta", 1/100)]}),
  (⟨"mgga_x_r4scan", .mgga, mgga_x_r4scan⟩, {sPos := true, params := ["da4", "dp2", "dp4", "eta", "k1"], le := [("eta", 1/100)]}),
  (⟨"mgga_x_rppscan", .mgga, mgga_x_rppscan⟩, {sPos := true, params := ["eta", "k1"], le := [("k1", 1/10)]}),
  (⟨"mgga_x_rscan", .mgga, mgga_x_rscan⟩, {sPos := true, params := ["alphar", "k1", "taur"], le := [("k1", 1/10)]}),
  (⟨"mgga_x_scan", .mgga, mgga_x_scan⟩, {sPos := true, params := ["c1", "c2", "k1"], le := [("k1", 1/10), ("d", 10)], ge := [("d", 1/10)]}),
  (⟨"gga_k_apbeint", .gga, gga_k_apbeint⟩, {params := ["alpha", "kappa", "muGE", "muPBE"]}),
  (⟨"gga_x_ityh_pbe", .gga, gga_x_ityh_pbe⟩, {params := ["kappa", "mu"], flds := [.camOmega]}),
  (⟨"gga_x_pbeint", .gga, gga_x_pbeint⟩, {params := ["alpha", "kappa", "muGE", "muPBE"]}),
  (⟨"mgga_k_pc07", .mgga, mgga_k_pc07⟩, {params := ["a"]}),
  (⟨"mgga_x_mbeef", .mgga, mgga_x_mbeef⟩, {}),
  (⟨"mgga_x_mbeefvdw", .mgga, mgga_x_mbeefvdw⟩, {}),
  (⟨"mgga_x_mcml", .mgga, mgga_x_mcml⟩, {}),
  (⟨"mgga_x_ms", .mgga, mgga_x_ms⟩, {params := ["c", "kappa"], ge := [("b", 1/2)]}),
  (⟨"mgga_x_msb", .mgga, mgga_x_msb⟩, {params := ["c", "kappa"], ge := [("b", 1/2)]}),
  (⟨"mgga_x_task", .mgga, mgga_x_task⟩, {sPos := true, tPos := true, params := ["task_c"]}),
  (⟨"mgga_x_vcml", .mgga, mgga_x_vcml⟩, {})]

/-- C51 (defined): 169 of the 249 formulas that run.  Partial: besides these and the 35 of `c51_nan` nothing is said. -/
theorem c51_defined_partial : ∀ d ∈ definedOneSpin, DefinedFull d.2 d.1.fam d.1.code :=
  fc (gga_c_ccdf_definedFull) <|
  fc (gga_c_op_b88_definedFull) <|
  fc (gga_c_op_g96_definedFull) <|
  fc (gga_c_op_pbe_definedFull) <|
  fc (gga_c_op_pw91_definedFull) <|
  fc (gga_c_op_xalpha_definedFull) <|
  fc (gga_c_p86_definedFull) <|
  fc (gga_c_p86vwn_definedFull) <|
  fc (gga_c_revtca_definedFull) <|
  fc (gga_c_tca_definedFull) <|
  fc (gga_c_wi_definedFull) <|
  fc (gga_k_apbe_definedFull) <|
  fc (gga_k_dk_definedFull) <|
  fc (gga_k_exp4_definedFull) <|
  fc (gga_k_lc94_definedFull) <|
  fc (gga_k_lgap_definedFull) <|
  fc (gga_k_lgap_ge_definedFull) <|
  fc (gga_k_lkt_definedFull) <|
  fc (gga_k_llp_definedFull) <|
  fc (gga_k_mpbe_definedFull) <|
  fc (gga_k_ol1_definedFull) <|
  fc (gga_k_ol2_definedFull) <|
  fc (gga_k_pearson_definedFull) <|
  fc (gga_k_pg_definedFull) <|
  fc (gga_k_pw86_definedFull) <|
  fc (gga_k_rational_p_definedFull) <|
  fc (gga_k_tflw_definedFull) <|
  fc (gga_k_thakkar_definedFull) <|
  fc (gga_k_vt84f_definedFull) <|
  fc (gga_x_2d_b86_definedFull) <|
  fc (gga_x_2d_b86_mgc_definedFull) <|
  fc (gga_x_2d_b88_definedFull) <|
  fc (gga_x_2d_pbe_definedFull) <|
  fc (gga_x_airy_definedFull) <|
  fc (gga_x_ak13_definedFull) <|
  fc (gga_x_b86_definedFull) <|
  fc (gga_x_b88_definedFull) <|
  fc (gga_x_bayesian_definedFull) <|
  fc (gga_x_beefvdw_definedFull) <|
  fc (gga_x_bpccac_definedFull) <|
  fc (gga_x_c09x_definedFull) <|
  fc (gga_x_cap_definedFull) <|
  fc (gga_x_chachiyo_definedFull) <|
  fc (gga_x_dk87_definedFull) <|
  fc (gga_x_ev93_definedFull) <|
  fc (gga_x_ft97_definedFull) <|
  fc (gga_x_g96_definedFull) <|
  fc (gga_x_hcth_a_definedFull) <|
  fc (gga_x_herman_definedFull) <|
  fc (gga_x_hjs_definedFull) <|
  fc (gga_x_htbs_definedFull) <|
  fc (gga_x_ityh_definedFull) <|
  fc (gga_x_ityh_optx_definedFull) <|
  fc (gga_x_kt_definedFull) <|
  fc (gga_x_lag_definedFull) <|
  fc (gga_x_lg93_definedFull) <|
  fc (gga_x_lspbe_definedFull) <|
  fc (gga_x_lsrpbe_definedFull) <|
  fc (gga_x_lv_rpw86_definedFull) <|
  fc (gga_x_mpbe_definedFull) <|
  fc (gga_x_n12_definedFull) <|
  fc (gga_x_ncap_definedFull) <|
  fc (gga_x_ol2_definedFull) <|
  fc (gga_x_optx_definedFull) <|
  fc (gga_x_pbe_definedFull) <|
  fc (gga_x_pbea_definedFull) <|
  fc (gga_x_pbepow_definedFull) <|
  fc (gga_x_pbetrans_definedFull) <|
  fc (gga_x_pw86_definedFull) <|
  fc (gga_x_pw91_definedFull) <|
  fc (gga_x_q1d_definedFull) <|
  fc (gga_x_q2d_definedFull) <|
  fc (gga_x_rge2_definedFull) <|
  fc (gga_x_rpbe_definedFull) <|
  fc (gga_x_s12_definedFull) <|
  fc (gga_x_sfat_definedFull) <|
  fc (gga_x_sfat_pbe_definedFull) <|
  fc (gga_x_sogga11_definedFull) <|
  fc (gga_x_ssb_sw_definedFull) <|
  fc (gga_x_vmt_definedFull) <|
  fc (gga_x_vmt84_definedFull) <|
  fc (gga_x_wc_definedFull) <|
  fc (gga_x_wpbeh_definedFull) <|
  fc (hyb_gga_x_cam_s12_definedFull) <|
  fc (hyb_mgga_x_dldf_definedFull) <|
  fc (hyb_mgga_x_m05_definedFull) <|
  fc (hyb_mgga_x_pjs18_definedFull) <|
  fc (lda_c_1d_csc_definedFull) <|
  fc (lda_c_1d_loos_definedFull) <|
  fc (lda_c_2d_prm_definedFull) <|
  fc (lda_c_chachiyo_definedFull) <|
  fc (lda_c_chachiyo_mod_definedFull) <|
  fc (lda_c_gk72_definedFull) <|
  fc (lda_c_gombas_definedFull) <|
  fc (lda_c_hl_definedFull) <|
  fc (lda_c_lp96_definedFull) <|
  fc (lda_c_ml1_definedFull) <|
  fc (lda_c_pw_definedFull) <|
  fc (lda_c_pz_definedFull) <|
  fc (lda_c_rc04_definedFull) <|
  fc (lda_c_rpa_definedFull) <|
  fc (lda_c_vwn_definedFull) <|
  fc (lda_c_vwn_1_definedFull) <|
  fc (lda_c_vwn_2_definedFull) <|
  fc (lda_c_vwn_4_definedFull) <|
  fc (lda_c_vwn_rpa_definedFull) <|
  fc (lda_c_wigner_definedFull) <|
  fc (lda_k_gds08_worker_definedFull) <|
  fc (lda_k_tf_definedFull) <|
  fc (lda_k_zlp_definedFull) <|
  fc (lda_x_definedFull) <|
  fc (lda_x_2d_definedFull) <|
  fc (lda_x_erf_definedFull) <|
  fc (lda_x_rel_definedFull) <|
  fc (lda_x_sloc_definedFull) <|
  fc (lda_x_yukawa_definedFull) <|
  fc (lda_xc_1d_ehwlrg_definedFull) <|
  fc (lda_xc_teter93_definedFull) <|
  fc (lda_xc_tih_definedFull) <|
  fc (lda_xc_zlp_definedFull) <|
  fc (mgga_c_b88_definedFull) <|
  fc (mgga_k_csk_definedFull) <|
  fc (mgga_k_csk_loc_definedFull) <|
  fc (mgga_k_gea2_definedFull) <|
  fc (mgga_k_gea4_definedFull) <|
  fc (mgga_k_pgslb_definedFull) <|
  fc (mgga_x_2d_js17_definedFull) <|
  fc (mgga_x_gdme_definedFull) <|
  fc (mgga_x_gvt4_definedFull) <|
  fc (mgga_x_lta_definedFull) <|
  fc (mgga_x_m06l_definedFull) <|
  fc (mgga_x_m08_definedFull) <|
  fc (mgga_x_m11_definedFull) <|
  fc (mgga_x_m11_l_definedFull) <|
  fc (mgga_x_mn12_definedFull) <|
  fc (mgga_x_mvs_definedFull) <|
  fc (mgga_x_tau_hcth_definedFull) <|
  fc (mgga_x_th_definedFull) <|
  fc (gga_c_acgga_definedFull) <|
  fc (gga_c_pbe_definedFull) <|
  fc (gga_c_pbeloc_definedFull) <|
  fc (gga_c_pw91_definedFull) <|
  fc (gga_c_regtpss_definedFull) <|
  fc (gga_c_scan_e0_definedFull) <|
  fc (gga_c_sogga11_definedFull) <|
  fc (hyb_mgga_x_js18_definedFull) <|
  fc (mgga_x_pkzb_definedFull) <|
  fc (mgga_x_regtpss_definedFull) <|
  fc (mgga_x_revtm_definedFull) <|
  fc (mgga_x_rtpss_definedFull) <|
  fc (mgga_x_tm_definedFull) <|
  fc (mgga_x_tpss_definedFull) <|
  fc (mgga_x_vt84_definedFull) <|
  fc (mgga_x_r2scan_definedFull) <|
  fc (mgga_x_r4scan_definedFull) <|
  fc (mgga_x_rppscan_definedFull) <|
  fc (mgga_x_rscan_definedFull) <|
  fc (mgga_x_scan_definedFull) <|
  fc (gga_k_apbeint_definedFull) <|
  fc (gga_x_ityh_pbe_definedFull) <|
  fc (gga_x_pbeint_definedFull) <|
  fc (mgga_k_pc07_definedFull) <|
  fc (mgga_x_mbeef_definedFull) <|
  fc (mgga_x_mbeefvdw_definedFull) <|
  fc (mgga_x_mcml_definedFull) <|
  fc (mgga_x_ms_definedFull) <|
  fc (mgga_x_msb_definedFull) <|
  fc (mgga_x_task_definedFull) <|
  fc (mgga_x_vcml_definedFull) <|
  fn

theorem definedOneSpin_length : definedOneSpin.length = 169 := rfl

/-- Formulas whose polarized code gives `nan` where there are electrons of one spin only. -/
noncomputable def nanOneSpin : List Shipped := [
  ⟨"gga_c_am05", .gga, gga_c_am05⟩,
  ⟨"gga_c_bmk", .gga, gga_c_bmk⟩,
  ⟨"gga_c_cs1", .gga, gga_c_cs1⟩,
  ⟨"gga_c_hcth_a", .gga, gga_c_hcth_a⟩,
  ⟨"gga_c_lm", .gga, gga_c_lm⟩,
  ⟨"gga_c_lyp", .gga, gga_c_lyp⟩,
  ⟨"gga_c_lypr", .gga, gga_c_lypr⟩,
  ⟨"gga_c_optc", .gga, gga_c_optc⟩,
  ⟨"gga_c_wl", .gga, gga_c_wl⟩,
  ⟨"gga_xc_b97", .gga, gga_xc_b97⟩,
  ⟨"gga_xc_th1", .gga, gga_xc_th1⟩,
  ⟨"gga_xc_th2", .gga, gga_xc_th2⟩,
  ⟨"gga_xc_th3", .gga, gga_xc_th3⟩,
  ⟨"hyb_gga_xc_wb97", .gga, hyb_gga_xc_wb97⟩,
  ⟨"hyb_mgga_xc_wb97mv", .mgga, hyb_mgga_xc_wb97mv⟩,
  ⟨"mgga_c_bc95", .mgga, mgga_c_bc95⟩,
  ⟨"mgga_c_cc", .mgga, mgga_c_cc⟩,
  ⟨"mgga_c_ccalda", .mgga, mgga_c_ccalda⟩,
  ⟨"mgga_c_cs", .mgga, mgga_c_cs⟩,
  ⟨"mgga_c_kcis", .mgga, mgga_c_kcis⟩,
  ⟨"mgga_c_kcisk", .mgga, mgga_c_kcisk⟩,
  ⟨"mgga_c_m05", .mgga, mgga_c_m05⟩,
  ⟨"mgga_c_m06l", .mgga, mgga_c_m06l⟩,
  ⟨"mgga_c_m08", .mgga, mgga_c_m08⟩,
  ⟨"mgga_c_pkzb", .mgga, mgga_c_pkzb⟩,
  ⟨"mgga_c_revscan", .mgga, mgga_c_revscan⟩,
  ⟨"mgga_c_revtpss", .mgga, mgga_c_revtpss⟩,
  ⟨"mgga_c_rmggac", .mgga, mgga_c_rmggac⟩,
  ⟨"mgga_c_rregtm", .mgga, mgga_c_rregtm⟩,
  ⟨"mgga_c_scan", .mgga, mgga_c_scan⟩,
  ⟨"mgga_c_tpss", .mgga, mgga_c_tpss⟩,
  ⟨"mgga_c_tpssloc", .mgga, mgga_c_tpssloc⟩,
  ⟨"mgga_c_vsxc", .mgga, mgga_c_vsxc⟩,
  ⟨"mgga_xc_b97mv", .mgga, mgga_xc_b97mv⟩,
  ⟨"mgga_xc_b98", .mgga, mgga_xc_b98⟩]

/-- C51 is false of these: the code gives `nan` for every density of one spin. -/
theorem c51_nan : ∀ d ∈ nanOneSpin, NanFull d.fam d.code :=
  fc (gga_c_am05_nanFull) <|
  fc (gga_c_bmk_nanFull) <|
  fc (gga_c_cs1_nanFull) <|
  fc (gga_c_hcth_a_nanFull) <|
  fc (gga_c_lm_nanFull) <|
  fc (gga_c_lyp_nanFull) <|
  fc (gga_c_lypr_nanFull) <|
  fc (gga_c_optc_nanFull) <|
  fc (gga_c_wl_nanFull) <|
  fc (gga_xc_b97_nanFull) <|
  fc (gga_xc_th1_nanFull) <|
  fc (gga_xc_th2_nanFull) <|
  fc (gga_xc_th3_nanFull) <|
  fc (hyb_gga_xc_wb97_nanFull) <|
  fc (hyb_mgga_xc_wb97mv_nanFull) <|
  fc (mgga_c_bc95_nanFull) <|
  fc (mgga_c_cc_nanFull) <|
  fc (mgga_c_ccalda_nanFull) <|
  fc (mgga_c_cs_nanFull) <|
  fc (mgga_c_kcis_nanFull) <|
  fc (mgga_c_kcisk_nanFull) <|
  fc (mgga_c_m05_nanFull) <|
  fc (mgga_c_m06l_nanFull) <|
  fc (mgga_c_m08_nanFull) <|
  fc (mgga_c_pkzb_nanFull) <|
  fc (mgga_c_revscan_nanFull) <|
  fc (mgga_c_revtpss_nanFull) <|
  fc (mgga_c_rmggac_nanFull) <|
  fc (mgga_c_rregtm_nanFull) <|
  fc (mgga_c_scan_nanFull) <|
  fc (mgga_c_tpss_nanFull) <|
  fc (mgga_c_tpssloc_nanFull) <|
  fc (mgga_c_vsxc_nanFull) <|
  fc (mgga_xc_b97mv_nanFull) <|
  fc (mgga_xc_b98_nanFull) <|
  fn

theorem nanOneSpin_length : nanOneSpin.length = 35 := rfl

/-- Formulas whose unpolarized code gives `nan` where the gradient vanishes. -/
noncomputable def nanFlatUnpol : List Shipped := [
  ⟨"gga_c_q2d", .gga, gga_c_q2d⟩,
  ⟨"gga_k_meyer", .gga, gga_k_meyer⟩,
  ⟨"gga_x_chachiyo", .gga, gga_x_chachiyo⟩,
  ⟨"gga_x_vmt84", .gga, gga_x_vmt84⟩]

/-- C50 at a vanishing gradient and a positive kinetic energy density. -/
theorem c50_flat_unpol : ∀ d ∈ nanFlatUnpol, NanUnpol false d.fam d.code :=
  fc (gga_c_q2d_nanUnpol false) <|
  fc (gga_k_meyer_nanUnpol false) <|
  fc (gga_x_chachiyo_nanUnpol false) <|
  fc (gga_x_vmt84_nanUnpol false) <|
  fn

theorem nanFlatUnpol_length : nanFlatUnpol.length = 4 := rfl

/-- Formulas whose polarized code gives `nan` where the gradients vanish. -/
noncomputable def nanFlatPol : List Shipped := [
  ⟨"gga_c_q2d", .gga, gga_c_q2d⟩,
  ⟨"gga_k_meyer", .gga, gga_k_meyer⟩,
  ⟨"gga_x_chachiyo", .gga, gga_x_chachiyo⟩,
  ⟨"gga_x_vmt84", .gga, gga_x_vmt84⟩]

/-- C50 at vanishing gradients and positive kinetic energy densities. -/
theorem c50_flat_pol : ∀ d ∈ nanFlatPol, NanPol false d.fam d.code :=
  fc (gga_c_q2d_nanPol false) <|
  fc (gga_k_meyer_nanPol false) <|
  fc (gga_x_chachiyo_nanPol false) <|
  fc (gga_x_vmt84_nanPol false) <|
  fn

theorem nanFlatPol_length : nanFlatPol.length = 4 := rfl

/-- Formulas whose unpolarized code gives `nan` where the gradient and the kinetic energy density vanish. -/
noncomputable def nanRestUnpol : List Shipped := [
  ⟨"gga_c_q2d", .gga, gga_c_q2d⟩,
  ⟨"gga_k_meyer", .gga, gga_k_meyer⟩,
  ⟨"gga_x_chachiyo", .gga, gga_x_chachiyo⟩,
  ⟨"gga_x_vmt84", .gga, gga_x_vmt84⟩,
  ⟨"hyb_mgga_xc_wb97mv", .mgga, hyb_mgga_xc_wb97mv⟩,
  ⟨"mgga_c_bc95", .mgga, mgga_c_bc95⟩,
  ⟨"mgga_c_kcis", .mgga, mgga_c_kcis⟩,
  ⟨"mgga_c_kcisk", .mgga, mgga_c_kcisk⟩,
  ⟨"mgga_c_m05", .mgga, mgga_c_m05⟩,
  ⟨"mgga_c_m06l", .mgga, mgga_c_m06l⟩,
  ⟨"mgga_c_pkzb", .mgga, mgga_c_pkzb⟩,
  ⟨"mgga_c_revtpss", .mgga, mgga_c_revtpss⟩,
  ⟨"mgga_c_tpss", .mgga, mgga_c_tpss⟩,
  ⟨"mgga_c_tpssloc", .mgga, mgga_c_tpssloc⟩,
  ⟨"mgga_c_vsxc", .mgga, mgga_c_vsxc⟩,
  ⟨"mgga_x_regtpss", .mgga, mgga_x_regtpss⟩,
  ⟨"mgga_x_rtpss", .mgga, mgga_x_rtpss⟩,
  ⟨"mgga_x_sa_tpss", .mgga, mgga_x_sa_tpss⟩,
  ⟨"mgga_x_th", .mgga, mgga_x_th⟩,
  ⟨"mgga_x_tpss", .mgga, mgga_x_tpss⟩,
  ⟨"mgga_x_vt84", .mgga, mgga_x_vt84⟩,
  ⟨"mgga_xc_b97mv", .mgga, mgga_xc_b97mv⟩,
  ⟨"mgga_xc_b98", .mgga, mgga_xc_b98⟩]

/-- C50 where both vanish, as at the maximum of a Gaussian orbital. -/
theorem c50_rest_unpol : ∀ d ∈ nanRestUnpol, NanUnpol true d.fam d.code :=
  fc (gga_c_q2d_nanUnpol true) <|
  fc (gga_k_meyer_nanUnpol true) <|
  fc (gga_x_chachiyo_nanUnpol true) <|
  fc (gga_x_vmt84_nanUnpol true) <|
  fc (hyb_mgga_xc_wb97mv_nanUnpol) <|
  fc (mgga_c_bc95_nanUnpol) <|
  fc (mgga_c_kcis_nanUnpol) <|
  fc (mgga_c_kcisk_nanUnpol) <|
  fc (mgga_c_m05_nanUnpol) <|
  fc (mgga_c_m06l_nanUnpol) <|
  fc (mgga_c_pkzb_nanUnpol) <|
  fc (mgga_c_revtpss_nanUnpol) <|
  fc (mgga_c_tpss_nanUnpol) <|
  fc (mgga_c_tpssloc_nanUnpol) <|
  fc (mgga_c_vsxc_nanUnpol) <|
  fc (mgga_x_regtpss_nanUnpol) <|
  fc (mgga_x_rtpss_nanUnpol) <|
  fc (mgga_x_sa_tpss_nanUnpol) <|
  fc (mgga_x_th_nanUnpol) <|
  fc (mgga_x_tpss_nanUnpol) <|
  fc (mgga_x_vt84_nanUnpol) <|
  fc (mgga_xc_b97mv_nanUnpol) <|
  fc (mgga_xc_b98_nanUnpol) <|
  fn

theorem nanRestUnpol_length : nanRestUnpol.length = 23 := rfl

/-- Formulas whose polarized code gives `nan` where the gradients and the kinetic energy densities vanish. -/
noncomputable def nanRestPol : List Shipped := [
  ⟨"gga_c_q2d", .gga, gga_c_q2d⟩,
  ⟨"gga_k_meyer", .gga, gga_k_meyer⟩,
  ⟨"gga_x_chachiyo", .gga, gga_x_chachiyo⟩,
  ⟨"gga_x_vmt84", .gga, gga_x_vmt84⟩,
  ⟨"hyb_mgga_xc_wb97mv", .mgga, hyb_mgga_xc_wb97mv⟩,
  ⟨"mgga_c_bc95", .mgga, mgga_c_bc95⟩,
  ⟨"mgga_c_cc", .mgga, mgga_c_cc⟩,
  ⟨"mgga_c_ccalda", .mgga, mgga_c_ccalda⟩,
  ⟨"mgga_c_kcis", .mgga, mgga_c_kcis⟩,
  ⟨"mgga_c_kcisk", .mgga, mgga_c_kcisk⟩,
  ⟨"mgga_c_m05", .mgga, mgga_c_m05⟩,
  ⟨"mgga_c_m06l", .mgga, mgga_c_m06l⟩,
  ⟨"mgga_c_pkzb", .mgga, mgga_c_pkzb⟩,
  ⟨"mgga_c_revtpss", .mgga, mgga_c_revtpss⟩,
  ⟨"mgga_c_tpss", .mgga, mgga_c_tpss⟩,
  ⟨"mgga_c_tpssloc", .mgga, mgga_c_tpssloc⟩,
  ⟨"mgga_c_vsxc", .mgga, mgga_c_vsxc⟩,
  ⟨"mgga_x_regtpss", .mgga, mgga_x_regtpss⟩,
  ⟨"mgga_x_rtpss", .mgga, mgga_x_rtpss⟩,
  ⟨"mgga_x_sa_tpss", .mgga, mgga_x_sa_tpss⟩,
  ⟨"mgga_x_th", .mgga, mgga_x_th⟩,
  ⟨"mgga_x_tpss", .mgga, mgga_x_tpss⟩,
  ⟨"mgga_x_vt84", .mgga, mgga_x_vt84⟩,
  ⟨"mgga_xc_b97mv", .mgga, mgga_xc_b97mv⟩,
  ⟨"mgga_xc_b98", .mgga, mgga_xc_b98⟩]

/-- C50 where both vanish, as at the maximum of Gaussian orbitals. -/
theorem c50_rest_pol : ∀ d ∈ nanRestPol, NanPol true d.fam d.code :=
  fc (gga_c_q2d_nanPol true) <|
  fc (gga_k_meyer_nanPol true) <|
  fc (gga_x_chachiyo_nanPol true) <|
  fc (gga_x_vmt84_nanPol true) <|
  fc (hyb_mgga_xc_wb97mv_nanPol) <|
  fc (mgga_c_bc95_nanPol) <|
  fc (mgga_c_cc_nanPol) <|
  fc (mgga_c_ccalda_nanPol) <|
  fc (mgga_c_kcis_nanPol) <|
  fc (mgga_c_kcisk_nanPol) <|
  fc (mgga_c_m05_nanPol) <|
  fc (mgga_c_m06l_nanPol) <|
  fc (mgga_c_pkzb_nanPol) <|
  fc (mgga_c_revtpss_nanPol) <|
  fc (mgga_c_tpss_nanPol) <|
  fc (mgga_c_tpssloc_nanPol) <|
  fc (mgga_c_vsxc_nanPol) <|
  fc (mgga_x_regtpss_nanPol) <|
  fc (mgga_x_rtpss_nanPol) <|
  fc (mgga_x_sa_tpss_nanPol) <|
  fc (mgga_x_th_nanPol) <|
  fc (mgga_x_tpss_nanPol) <|
  fc (mgga_x_vt84_nanPol) <|
  fc (mgga_xc_b97mv_nanPol) <|
  fc (mgga_xc_b98_nanPol) <|
  fn

theorem nanRestPol_length : nanRestPol.length = 25 := rfl

/-! ## The two semantics -/

/-- Where the strict value exists, the value with `nan` is the same number. -/
theorem nrun_strict {P : Prims} {E : Env} {p : Prog} {x : ℝ} (h : srun P E p = some x) : nrun P E p = .val (.num x) := by
  refine neval_agree (S := sexec P E p.body fun _ => none) ?_ p.res _ (sNum_some h)
  have key : ∀ (b : List (Nat × Py.Expr)) (S : Nat → Option Val) (N : Nat → NVal), NExt S N → NExt (sexec P E b S) (nexec P E b N) := by
    intro b
    induction b with
    | nil => exact fun S N h => h
    | cons ne r ih =>
      obtain ⟨n, e⟩ := ne
      intro S N hN
      refine ih _ _ fun m v hm => ?_
      by_cases hmn : m = n
      · subst hmn
        rw [Function.update_self] at hm ⊢
        exact neval_agree hN e v hm
      · rw [Function.update_of_ne hmn] at hm ⊢
        exact hN m v hm
  exact key p.body _ _ fun n v h => nomatch h

/-- A formula that gives `nan` has no strict value. -/
theorem strict_of_nan {P : Prims} {E : Env} {p : Prog} (h : nrun P E p = .nan) : srun P E p = none := by
  cases e : srun P E p with
  | none => rfl
  | some x => rw [nrun_strict e] at h; cases h

/-! ## The hypotheses can be met, and some are needed -/

/-- A record with the thresholds of libxc, all parameters `1`. -/
noncomputable def sampleRec : Model.Rec where
  fld f := match f with
    | .zetaThreshold => 2 ^ (-52 : ℤ)
    | .densThreshold => 1 / 10 ^ 15
    | _ => 1
  param _ := 1

theorem sampleRec_ok (a : Assume) (h : a.neg = []) (hle : ∀ x ∈ a.le, (1 : ℚ) ≤ x.2) (hge : ∀ x ∈ a.ge, x.2 ≤ (1 : ℚ)) : a.Rec sampleRec := by
  refine ⟨by norm_num [sampleRec], by norm_num [sampleRec], by norm_num [sampleRec], fun _ _ => one_pos, fun n hn => ?_, fun f _ => ?_,
    fun _ => by norm_num [sampleRec], fun x hx => ?_, fun x hx => ?_⟩
  · rw [h] at hn; cases hn
  · cases f <;> norm_num [sampleRec]
  · show (1 : ℝ) ≤ x.2; exact_mod_cast hle x hx
  · show (x.2 : ℝ) ≤ 1; exact_mod_cast hge x hx

/-- PBE exchange at `ρ = 1`, `|∇ρ|² = 1`. -/
example (P : Prims) : ∃ e, unpolStrict P gga_x_pbe sampleRec 1 (some 1) none none = some e :=
  let ⟨e, h, _⟩ := gga_x_pbe_definedUnpol P sampleRec 1 1 0 0 (sampleRec_ok _ rfl fn fn) one_pos zero_le_one le_rfl (fun h => nomatch h) (fun h => nomatch h) (fun h => nomatch h)
  ⟨e, h⟩

/-- A record with the parameters of SCAN exchange. -/
noncomputable def scanRec : Model.Rec where
  fld := sampleRec.fld
  param n := if n = nameCode "c1" then 667 / 1000 else if n = nameCode "c2" then 8 / 10 else if n = nameCode "d" then 124 / 100 else 65 / 1000

theorem scanRec_ok : Assume.Rec {sPos := true, params := ["c1", "c2", "k1"], le := [("k1", 1/10), ("d", 10)], ge := [("d", 1/10)]} scanRec := by
  have e1 : ¬ nameCode "d" = nameCode "c1" := by decide +kernel
  have e2 : ¬ nameCode "d" = nameCode "c2" := by decide +kernel
  have e3 : ¬ nameCode "k1" = nameCode "c1" := by decide +kernel
  have e4 : ¬ nameCode "k1" = nameCode "c2" := by decide +kernel
  have e5 : ¬ nameCode "k1" = nameCode "d" := by decide +kernel
  refine ⟨by norm_num [scanRec, sampleRec], by norm_num [scanRec, sampleRec], by norm_num [scanRec, sampleRec], fun n _ => ?_, fn, fn, (fun h => nomatch h),
    fc ?_ (fc ?_ fn), fc ?_ fn⟩
  · simp only [scanRec]
    split_ifs <;> norm_num
  all_goals norm_num [scanRec, e1, e2, e3, e4, e5]

/-- SCAN exchange at `ρ = 1`, `|∇ρ|² = 1`, `τ = 1`. -/
example (P : Prims) : ∃ e, unpolStrict P mgga_x_scan scanRec 1 (some 1) (some 0) (some 1) = some e :=
  let ⟨e, h, _⟩ := mgga_x_scan_definedUnpol P scanRec 1 1 0 1 scanRec_ok one_pos zero_le_one zero_le_one (fun _ => one_pos) (fun h => nomatch h) (fun h => nomatch h)
  ⟨e, h⟩

/-- PBE correlation where the densities are 1 and 2, `|∇ρ↑|² = |∇ρ↓|² = 1`, `∇ρ↑ · ∇ρ↓ = - 1`. -/
example (P : Prims) : ∃ e, polStrict P gga_c_pbe sampleRec (1, 2) (some (1, -1, 1)) none none = some e :=
  let ⟨e, h, _⟩ := gga_c_pbe_definedPol P sampleRec 1 2 1 (-1) 1 0 0 0 0 (sampleRec_ok _ rfl fn fn) one_pos two_pos zero_le_one zero_le_one (by norm_num) le_rfl le_rfl
    (fun h => nomatch h) (fun h => nomatch h) (fun h => nomatch h)
  ⟨e, h⟩

/-- Chachiyo exchange is defined wherever the gradient does not vanish (`gga_x_chachiyo_definedUnpol`), and only there. -/
theorem gga_x_chachiyo_needs (P : Prims) : unpolStrict P gga_x_chachiyo sampleRec 1 (some 0) none none = none :=
  strict_of_nan (gga_x_chachiyo_nanUnpol false P sampleRec 1 0 1 (sampleRec_ok _ rfl fn fn) (by norm_num [sampleRec]) (by norm_num))

/-- TPSS correlation at the maximum of a Gaussian orbital. -/
example (P : Prims) : nrun P (unpolEnv sampleRec 1 (some 0) (some (-1)) (some 0)) mgga_c_tpss.unpolBody = .nan :=
  mgga_c_tpss_nanUnpol P sampleRec 1 (-1) 0 (sampleRec_ok _ rfl fn fn) (by norm_num [sampleRec]) rfl

/-- LYP correlation in a hydrogen atom, where `ρ = 1 / 8` and `|∇ρ|² = 1 / 16`, say. -/
example (P : Prims) : nrun P (polEnv sampleRec (1 / 8, 0) (some (1 / 16, 0, 0)) none none) gga_c_lyp.polBody = .nan :=
  gga_c_lyp_nanFull P sampleRec (1 / 8) (1 / 16) 0 1 (sampleRec_ok _ rfl fn fn) ⟨by norm_num [sampleRec], by norm_num⟩ one_pos

/-- PBE exchange in a hydrogen atom. -/
example (P : Prims) : ∃ e, polStrict P gga_x_pbe sampleRec (1 / 8, 0) (some (1 / 16, 0, 0)) none none = some e :=
  let ⟨e, h, _⟩ := gga_x_pbe_definedFull P sampleRec (1 / 8) (1 / 16) 0 1 (sampleRec_ok _ rfl fn fn) (by norm_num [sampleRec]) (by norm_num) one_pos
  ⟨e, h⟩

end Verif.Props
