import Verif.Data.F01
import Verif.Data.F05
import Verif.Data.F09
import Verif.Data.F13
/-!
# The table of shipped formulas

One entry for each file name in `gen_repo/impl/prebuilt/{pol,unpol}/`.
-/
namespace Verif.Data
open Verif.Model

/-- A shipped module: the stem of its file name, its family (`gen_repo/impl/gen_py.py:55-60`) and its code. -/
structure Shipped where
  name : String
  fam : Fam
  code : Formula

/-- Entries of `gen_repo/impl/prebuilt/{pol,unpol}/` from `gga_c_acgga.py` to `gga_c_op_b88.py`. -/
noncomputable def shipped01 : List Shipped := [
  ⟨"gga_c_acgga", .gga, gga_c_acgga⟩,
  ⟨"gga_c_acggap", .gga, gga_c_acggap⟩,
  ⟨"gga_c_am05", .gga, gga_c_am05⟩,
  ⟨"gga_c_bmk", .gga, gga_c_bmk⟩,
  ⟨"gga_c_ccdf", .gga, gga_c_ccdf⟩,
  ⟨"gga_c_chachiyo", .gga, gga_c_chachiyo⟩,
  ⟨"gga_c_cs1", .gga, gga_c_cs1⟩,
  ⟨"gga_c_ft97", .gga, gga_c_ft97⟩,
  ⟨"gga_c_gapc", .gga, gga_c_gapc⟩,
  ⟨"gga_c_gaploc", .gga, gga_c_gaploc⟩,
  ⟨"gga_c_hcth_a", .gga, gga_c_hcth_a⟩,
  ⟨"gga_c_lm", .gga, gga_c_lm⟩,
  ⟨"gga_c_lyp", .gga, gga_c_lyp⟩,
  ⟨"gga_c_lypr", .gga, gga_c_lypr⟩,
  ⟨"gga_c_op_b88", .gga, gga_c_op_b88⟩]

/-- Entries of `gen_repo/impl/prebuilt/{pol,unpol}/` from `gga_c_op_g96.py` to `gga_c_sg4.py`. -/
noncomputable def shipped02 : List Shipped := [
  ⟨"gga_c_op_g96", .gga, gga_c_op_g96⟩,
  ⟨"gga_c_op_pbe", .gga, gga_c_op_pbe⟩,
  ⟨"gga_c_op_pw91", .gga, gga_c_op_pw91⟩,
  ⟨"gga_c_op_xalpha", .gga, gga_c_op_xalpha⟩,
  ⟨"gga_c_optc", .gga, gga_c_optc⟩,
  ⟨"gga_c_p86", .gga, gga_c_p86⟩,
  ⟨"gga_c_p86vwn", .gga, gga_c_p86vwn⟩,
  ⟨"gga_c_pbe", .gga, gga_c_pbe⟩,
  ⟨"gga_c_pbe_vwn", .gga, gga_c_pbe_vwn⟩,
  ⟨"gga_c_pbeloc", .gga, gga_c_pbeloc⟩,
  ⟨"gga_c_pw91", .gga, gga_c_pw91⟩,
  ⟨"gga_c_q2d", .gga, gga_c_q2d⟩,
  ⟨"gga_c_regtpss", .gga, gga_c_regtpss⟩,
  ⟨"gga_c_revtca", .gga, gga_c_revtca⟩,
  ⟨"gga_c_scan_e0", .gga, gga_c_scan_e0⟩,
  ⟨"gga_c_sg4", .gga, gga_c_sg4⟩]

/-- Entries of `gen_repo/impl/prebuilt/{pol,unpol}/` from `gga_c_sogga11.py` to `gga_k_thakkar.py`. -/
noncomputable def shipped03 : List Shipped := [
  ⟨"gga_c_sogga11", .gga, gga_c_sogga11⟩,
  ⟨"gga_c_tca", .gga, gga_c_tca⟩,
  ⟨"gga_c_w94", .gga, gga_c_w94⟩,
  ⟨"gga_c_wi", .gga, gga_c_wi⟩,
  ⟨"gga_c_wl", .gga, gga_c_wl⟩,
  ⟨"gga_c_zpbeint", .gga, gga_c_zpbeint⟩,
  ⟨"gga_c_zvpbeint", .gga, gga_c_zvpbeint⟩,
  ⟨"gga_c_zvpbeloc", .gga, gga_c_zvpbeloc⟩,
  ⟨"gga_k_apbe", .gga, gga_k_apbe⟩,
  ⟨"gga_k_apbeint", .gga, gga_k_apbeint⟩,
  ⟨"gga_k_dk", .gga, gga_k_dk⟩,
  ⟨"gga_k_exp4", .gga, gga_k_exp4⟩,
  ⟨"gga_k_lc94", .gga, gga_k_lc94⟩,
  ⟨"gga_k_lgap", .gga, gga_k_lgap⟩,
  ⟨"gga_k_lgap_ge", .gga, gga_k_lgap_ge⟩,
  ⟨"gga_k_lkt", .gga, gga_k_lkt⟩,
  ⟨"gga_k_llp", .gga, gga_k_llp⟩,
  ⟨"gga_k_meyer", .gga, gga_k_meyer⟩,
  ⟨"gga_k_mpbe", .gga, gga_k_mpbe⟩,
  ⟨"gga_k_ol1", .gga, gga_k_ol1⟩,
  ⟨"gga_k_ol2", .gga, gga_k_ol2⟩,
  ⟨"gga_k_pearson", .gga, gga_k_pearson⟩,
  ⟨"gga_k_pg", .gga, gga_k_pg⟩,
  ⟨"gga_k_pw86", .gga, gga_k_pw86⟩,
  ⟨"gga_k_rational_p", .gga, gga_k_rational_p⟩,
  ⟨"gga_k_tflw", .gga, gga_k_tflw⟩,
  ⟨"gga_k_thakkar", .gga, gga_k_thakkar⟩]

/-- Entries of `gen_repo/impl/prebuilt/{pol,unpol}/` from `gga_k_vt84f.py` to `gga_x_hjs.py`. -/
noncomputable def shipped04 : List Shipped := [
  ⟨"gga_k_vt84f", .gga, gga_k_vt84f⟩,
  ⟨"gga_x_2d_b86", .gga, gga_x_2d_b86⟩,
  ⟨"gga_x_2d_b86_mgc", .gga, gga_x_2d_b86_mgc⟩,
  ⟨"gga_x_2d_b88", .gga, gga_x_2d_b88⟩,
  ⟨"gga_x_2d_pbe", .gga, gga_x_2d_pbe⟩,
  ⟨"gga_x_airy", .gga, gga_x_airy⟩,
  ⟨"gga_x_ak13", .gga, gga_x_ak13⟩,
  ⟨"gga_x_am05", .gga, gga_x_am05⟩,
  ⟨"gga_x_b86", .gga, gga_x_b86⟩,
  ⟨"gga_x_b88", .gga, gga_x_b88⟩,
  ⟨"gga_x_bayesian", .gga, gga_x_bayesian⟩,
  ⟨"gga_x_beefvdw", .gga, gga_x_beefvdw⟩,
  ⟨"gga_x_bpccac", .gga, gga_x_bpccac⟩,
  ⟨"gga_x_c09x", .gga, gga_x_c09x⟩,
  ⟨"gga_x_cap", .gga, gga_x_cap⟩,
  ⟨"gga_x_chachiyo", .gga, gga_x_chachiyo⟩,
  ⟨"gga_x_dk87", .gga, gga_x_dk87⟩,
  ⟨"gga_x_ev93", .gga, gga_x_ev93⟩,
  ⟨"gga_x_fd_lb94", .gga, gga_x_fd_lb94⟩,
  ⟨"gga_x_ft97", .gga, gga_x_ft97⟩,
  ⟨"gga_x_g96", .gga, gga_x_g96⟩,
  ⟨"gga_x_gg99", .gga, gga_x_gg99⟩,
  ⟨"gga_x_hcth_a", .gga, gga_x_hcth_a⟩,
  ⟨"gga_x_herman", .gga, gga_x_herman⟩,
  ⟨"gga_x_hjs", .gga, gga_x_hjs⟩]

/-- Entries of `gen_repo/impl/prebuilt/{pol,unpol}/` from `gga_x_hjs_b88_v2.py` to `gga_x_pbepow.py`. -/
noncomputable def shipped05 : List Shipped := [
  ⟨"gga_x_hjs_b88_v2", .gga, gga_x_hjs_b88_v2⟩,
  ⟨"gga_x_htbs", .gga, gga_x_htbs⟩,
  ⟨"gga_x_ityh", .gga, gga_x_ityh⟩,
  ⟨"gga_x_ityh_optx", .gga, gga_x_ityh_optx⟩,
  ⟨"gga_x_ityh_pbe", .gga, gga_x_ityh_pbe⟩,
  ⟨"gga_x_kt", .gga, gga_x_kt⟩,
  ⟨"gga_x_lag", .gga, gga_x_lag⟩,
  ⟨"gga_x_lb", .gga, gga_x_lb⟩,
  ⟨"gga_x_lg93", .gga, gga_x_lg93⟩,
  ⟨"gga_x_lspbe", .gga, gga_x_lspbe⟩,
  ⟨"gga_x_lsrpbe", .gga, gga_x_lsrpbe⟩,
  ⟨"gga_x_lv_rpw86", .gga, gga_x_lv_rpw86⟩,
  ⟨"gga_x_mpbe", .gga, gga_x_mpbe⟩,
  ⟨"gga_x_n12", .gga, gga_x_n12⟩,
  ⟨"gga_x_ncap", .gga, gga_x_ncap⟩,
  ⟨"gga_x_ol2", .gga, gga_x_ol2⟩,
  ⟨"gga_x_optx", .gga, gga_x_optx⟩,
  ⟨"gga_x_pbe", .gga, gga_x_pbe⟩,
  ⟨"gga_x_pbea", .gga, gga_x_pbea⟩,
  ⟨"gga_x_pbeint", .gga, gga_x_pbeint⟩,
  ⟨"gga_x_pbepow", .gga, gga_x_pbepow⟩]

/-- Entries of `gen_repo/impl/prebuilt/{pol,unpol}/` from `gga_x_pbetrans.py` to `gga_xc_b97.py`. -/
noncomputable def shipped06 : List Shipped := [
  ⟨"gga_x_pbetrans", .gga, gga_x_pbetrans⟩,
  ⟨"gga_x_pw86", .gga, gga_x_pw86⟩,
  ⟨"gga_x_pw91", .gga, gga_x_pw91⟩,
  ⟨"gga_x_q1d", .gga, gga_x_q1d⟩,
  ⟨"gga_x_q2d", .gga, gga_x_q2d⟩,
  ⟨"gga_x_rge2", .gga, gga_x_rge2⟩,
  ⟨"gga_x_rpbe", .gga, gga_x_rpbe⟩,
  ⟨"gga_x_s12", .gga, gga_x_s12⟩,
  ⟨"gga_x_sfat", .gga, gga_x_sfat⟩,
  ⟨"gga_x_sfat_pbe", .gga, gga_x_sfat_pbe⟩,
  ⟨"gga_x_sg4", .gga, gga_x_sg4⟩,
  ⟨"gga_x_sogga11", .gga, gga_x_sogga11⟩,
  ⟨"gga_x_ssb_sw", .gga, gga_x_ssb_sw⟩,
  ⟨"gga_x_vmt", .gga, gga_x_vmt⟩,
  ⟨"gga_x_vmt84", .gga, gga_x_vmt84⟩,
  ⟨"gga_x_wc", .gga, gga_x_wc⟩,
  ⟨"gga_x_wpbeh", .gga, gga_x_wpbeh⟩,
  ⟨"gga_xc_b97", .gga, gga_xc_b97⟩]

/-- Entries of `gen_repo/impl/prebuilt/{pol,unpol}/` from `gga_xc_th1.py` to `hyb_mgga_x_m05.py`. -/
noncomputable def shipped07 : List Shipped := [
  ⟨"gga_xc_th1", .gga, gga_xc_th1⟩,
  ⟨"gga_xc_th2", .gga, gga_xc_th2⟩,
  ⟨"gga_xc_th3", .gga, gga_xc_th3⟩,
  ⟨"hyb_gga_x_cam_s12", .gga, hyb_gga_x_cam_s12⟩,
  ⟨"hyb_gga_xc_case21", .gga, hyb_gga_xc_case21⟩,
  ⟨"hyb_gga_xc_wb97", .gga, hyb_gga_xc_wb97⟩,
  ⟨"hyb_lda_xc_bn05", .lda, hyb_lda_xc_bn05⟩,
  ⟨"hyb_mgga_x_dldf", .mgga, hyb_mgga_x_dldf⟩,
  ⟨"hyb_mgga_x_js18", .mgga, hyb_mgga_x_js18⟩,
  ⟨"hyb_mgga_x_m05", .mgga, hyb_mgga_x_m05⟩]

/-- Entries of `gen_repo/impl/prebuilt/{pol,unpol}/` from `hyb_mgga_x_pjs18.py` to `lda_c_pw.py`. -/
noncomputable def shipped08 : List Shipped := [
  ⟨"hyb_mgga_x_pjs18", .mgga, hyb_mgga_x_pjs18⟩,
  ⟨"hyb_mgga_xc_wb97mv", .mgga, hyb_mgga_xc_wb97mv⟩,
  ⟨"lda_c_1d_csc", .lda, lda_c_1d_csc⟩,
  ⟨"lda_c_1d_loos", .lda, lda_c_1d_loos⟩,
  ⟨"lda_c_2d_amgb", .lda, lda_c_2d_amgb⟩,
  ⟨"lda_c_2d_prm", .lda, lda_c_2d_prm⟩,
  ⟨"lda_c_chachiyo", .lda, lda_c_chachiyo⟩,
  ⟨"lda_c_chachiyo_mod", .lda, lda_c_chachiyo_mod⟩,
  ⟨"lda_c_gk72", .lda, lda_c_gk72⟩,
  ⟨"lda_c_gombas", .lda, lda_c_gombas⟩,
  ⟨"lda_c_hl", .lda, lda_c_hl⟩,
  ⟨"lda_c_lp96", .lda, lda_c_lp96⟩,
  ⟨"lda_c_ml1", .lda, lda_c_ml1⟩,
  ⟨"lda_c_pk09", .lda, lda_c_pk09⟩,
  ⟨"lda_c_pmgb06", .lda, lda_c_pmgb06⟩,
  ⟨"lda_c_pw", .lda, lda_c_pw⟩]

/-- Entries of `gen_repo/impl/prebuilt/{pol,unpol}/` from `lda_c_pz.py` to `mgga_c_bc95.py`. -/
noncomputable def shipped09 : List Shipped := [
  ⟨"lda_c_pz", .lda, lda_c_pz⟩,
  ⟨"lda_c_rc04", .lda, lda_c_rc04⟩,
  ⟨"lda_c_rpa", .lda, lda_c_rpa⟩,
  ⟨"lda_c_vwn", .lda, lda_c_vwn⟩,
  ⟨"lda_c_vwn_1", .lda, lda_c_vwn_1⟩,
  ⟨"lda_c_vwn_2", .lda, lda_c_vwn_2⟩,
  ⟨"lda_c_vwn_3", .lda, lda_c_vwn_3⟩,
  ⟨"lda_c_vwn_4", .lda, lda_c_vwn_4⟩,
  ⟨"lda_c_vwn_rpa", .lda, lda_c_vwn_rpa⟩,
  ⟨"lda_c_w20", .lda, lda_c_w20⟩,
  ⟨"lda_c_wigner", .lda, lda_c_wigner⟩,
  ⟨"lda_k_gds08_worker", .lda, lda_k_gds08_worker⟩,
  ⟨"lda_k_tf", .lda, lda_k_tf⟩,
  ⟨"lda_k_zlp", .lda, lda_k_zlp⟩,
  ⟨"lda_x", .lda, lda_x⟩,
  ⟨"lda_x_1d_exponential", .lda, lda_x_1d_exponential⟩,
  ⟨"lda_x_1d_soft", .lda, lda_x_1d_soft⟩,
  ⟨"lda_x_2d", .lda, lda_x_2d⟩,
  ⟨"lda_x_erf", .lda, lda_x_erf⟩,
  ⟨"lda_x_rel", .lda, lda_x_rel⟩,
  ⟨"lda_x_sloc", .lda, lda_x_sloc⟩,
  ⟨"lda_x_yukawa", .lda, lda_x_yukawa⟩,
  ⟨"lda_xc_1d_ehwlrg", .lda, lda_xc_1d_ehwlrg⟩,
  ⟨"lda_xc_ksdt", .lda, lda_xc_ksdt⟩,
  ⟨"lda_xc_teter93", .lda, lda_xc_teter93⟩,
  ⟨"lda_xc_tih", .lda, lda_xc_tih⟩,
  ⟨"lda_xc_zlp", .lda, lda_xc_zlp⟩,
  ⟨"mgga_c_b88", .mgga, mgga_c_b88⟩,
  ⟨"mgga_c_b94", .mgga, mgga_c_b94⟩,
  ⟨"mgga_c_bc95", .mgga, mgga_c_bc95⟩]

/-- Entries of `gen_repo/impl/prebuilt/{pol,unpol}/` from `mgga_c_cc.py` to `mgga_c_m08.py`. -/
noncomputable def shipped10 : List Shipped := [
  ⟨"mgga_c_cc", .mgga, mgga_c_cc⟩,
  ⟨"mgga_c_ccalda", .mgga, mgga_c_ccalda⟩,
  ⟨"mgga_c_cs", .mgga, mgga_c_cs⟩,
  ⟨"mgga_c_kcis", .mgga, mgga_c_kcis⟩,
  ⟨"mgga_c_kcisk", .mgga, mgga_c_kcisk⟩,
  ⟨"mgga_c_ltapw", .mgga, mgga_c_ltapw⟩,
  ⟨"mgga_c_m05", .mgga, mgga_c_m05⟩,
  ⟨"mgga_c_m06l", .mgga, mgga_c_m06l⟩,
  ⟨"mgga_c_m08", .mgga, mgga_c_m08⟩]

/-- Entries of `gen_repo/impl/prebuilt/{pol,unpol}/` from `mgga_c_pkzb.py` to `mgga_c_rscan.py`. -/
noncomputable def shipped11 : List Shipped := [
  ⟨"mgga_c_pkzb", .mgga, mgga_c_pkzb⟩,
  ⟨"mgga_c_r2scan", .mgga, mgga_c_r2scan⟩,
  ⟨"mgga_c_revscan", .mgga, mgga_c_revscan⟩,
  ⟨"mgga_c_revtpss", .mgga, mgga_c_revtpss⟩,
  ⟨"mgga_c_rmggac", .mgga, mgga_c_rmggac⟩,
  ⟨"mgga_c_rppscan", .mgga, mgga_c_rppscan⟩,
  ⟨"mgga_c_rregtm", .mgga, mgga_c_rregtm⟩,
  ⟨"mgga_c_rscan", .mgga, mgga_c_rscan⟩]

/-- Entries of `gen_repo/impl/prebuilt/{pol,unpol}/` from `mgga_c_scan.py` to `mgga_k_pc07.py`. -/
noncomputable def shipped12 : List Shipped := [
  ⟨"mgga_c_scan", .mgga, mgga_c_scan⟩,
  ⟨"mgga_c_tpss", .mgga, mgga_c_tpss⟩,
  ⟨"mgga_c_tpssloc", .mgga, mgga_c_tpssloc⟩,
  ⟨"mgga_c_vsxc", .mgga, mgga_c_vsxc⟩,
  ⟨"mgga_k_csk", .mgga, mgga_k_csk⟩,
  ⟨"mgga_k_csk_loc", .mgga, mgga_k_csk_loc⟩,
  ⟨"mgga_k_gea2", .mgga, mgga_k_gea2⟩,
  ⟨"mgga_k_gea4", .mgga, mgga_k_gea4⟩,
  ⟨"mgga_k_lk", .mgga, mgga_k_lk⟩,
  ⟨"mgga_k_pc07", .mgga, mgga_k_pc07⟩]

/-- Entries of `gen_repo/impl/prebuilt/{pol,unpol}/` from `mgga_k_pgslb.py` to `mgga_x_m11_l.py`. -/
noncomputable def shipped13 : List Shipped := [
  ⟨"mgga_k_pgslb", .mgga, mgga_k_pgslb⟩,
  ⟨"mgga_k_rda", .mgga, mgga_k_rda⟩,
  ⟨"mgga_x_2d_js17", .mgga, mgga_x_2d_js17⟩,
  ⟨"mgga_x_2d_prhg07", .mgga, mgga_x_2d_prhg07⟩,
  ⟨"mgga_x_2d_prp10", .mgga, mgga_x_2d_prp10⟩,
  ⟨"mgga_x_br89", .mgga, mgga_x_br89⟩,
  ⟨"mgga_x_br89_explicit", .mgga, mgga_x_br89_explicit⟩,
  ⟨"mgga_x_edmgga", .mgga, mgga_x_edmgga⟩,
  ⟨"mgga_x_ft98", .mgga, mgga_x_ft98⟩,
  ⟨"mgga_x_gdme", .mgga, mgga_x_gdme⟩,
  ⟨"mgga_x_gvt4", .mgga, mgga_x_gvt4⟩,
  ⟨"mgga_x_gx", .mgga, mgga_x_gx⟩,
  ⟨"mgga_x_jk", .mgga, mgga_x_jk⟩,
  ⟨"mgga_x_lta", .mgga, mgga_x_lta⟩,
  ⟨"mgga_x_m06l", .mgga, mgga_x_m06l⟩,
  ⟨"mgga_x_m08", .mgga, mgga_x_m08⟩,
  ⟨"mgga_x_m11", .mgga, mgga_x_m11⟩,
  ⟨"mgga_x_m11_l", .mgga, mgga_x_m11_l⟩]

/-- Entries of `gen_repo/impl/prebuilt/{pol,unpol}/` from `mgga_x_mbeef.py` to `mgga_x_mvs.py`. -/
noncomputable def shipped14 : List Shipped := [
  ⟨"mgga_x_mbeef", .mgga, mgga_x_mbeef⟩,
  ⟨"mgga_x_mbeefvdw", .mgga, mgga_x_mbeefvdw⟩,
  ⟨"mgga_x_mbr", .mgga, mgga_x_mbr⟩,
  ⟨"mgga_x_mbrxc_bg", .mgga, mgga_x_mbrxc_bg⟩,
  ⟨"mgga_x_mbrxh_bg", .mgga, mgga_x_mbrxh_bg⟩,
  ⟨"mgga_x_mcml", .mgga, mgga_x_mcml⟩,
  ⟨"mgga_x_mggac", .mgga, mgga_x_mggac⟩,
  ⟨"mgga_x_mn12", .mgga, mgga_x_mn12⟩,
  ⟨"mgga_x_ms", .mgga, mgga_x_ms⟩,
  ⟨"mgga_x_msb", .mgga, mgga_x_msb⟩,
  ⟨"mgga_x_mvs", .mgga, mgga_x_mvs⟩]

/-- Entries of `gen_repo/impl/prebuilt/{pol,unpol}/` from `mgga_x_mvsb.py` to `mgga_x_task.py`. -/
noncomputable def shipped15 : List Shipped := [
  ⟨"mgga_x_mvsb", .mgga, mgga_x_mvsb⟩,
  ⟨"mgga_x_pbe_gx", .mgga, mgga_x_pbe_gx⟩,
  ⟨"mgga_x_pkzb", .mgga, mgga_x_pkzb⟩,
  ⟨"mgga_x_r2scan", .mgga, mgga_x_r2scan⟩,
  ⟨"mgga_x_r4scan", .mgga, mgga_x_r4scan⟩,
  ⟨"mgga_x_regtm", .mgga, mgga_x_regtm⟩,
  ⟨"mgga_x_regtpss", .mgga, mgga_x_regtpss⟩,
  ⟨"mgga_x_revtm", .mgga, mgga_x_revtm⟩,
  ⟨"mgga_x_rlda", .mgga, mgga_x_rlda⟩,
  ⟨"mgga_x_rppscan", .mgga, mgga_x_rppscan⟩,
  ⟨"mgga_x_rscan", .mgga, mgga_x_rscan⟩,
  ⟨"mgga_x_rtpss", .mgga, mgga_x_rtpss⟩,
  ⟨"mgga_x_sa_tpss", .mgga, mgga_x_sa_tpss⟩,
  ⟨"mgga_x_scan", .mgga, mgga_x_scan⟩,
  ⟨"mgga_x_task", .mgga, mgga_x_task⟩]

/-- Entries of `gen_repo/impl/prebuilt/{pol,unpol}/` from `mgga_x_tau_hcth.py` to `mgga_xc_zlp.py`. -/
noncomputable def shipped16 : List Shipped := [
  ⟨"mgga_x_tau_hcth", .mgga, mgga_x_tau_hcth⟩,
  ⟨"mgga_x_tb09", .mgga, mgga_x_tb09⟩,
  ⟨"mgga_x_th", .mgga, mgga_x_th⟩,
  ⟨"mgga_x_tm", .mgga, mgga_x_tm⟩,
  ⟨"mgga_x_tpss", .mgga, mgga_x_tpss⟩,
  ⟨"mgga_x_vcml", .mgga, mgga_x_vcml⟩,
  ⟨"mgga_x_vt84", .mgga, mgga_x_vt84⟩,
  ⟨"mgga_xc_b97mv", .mgga, mgga_xc_b97mv⟩,
  ⟨"mgga_xc_b98", .mgga, mgga_xc_b98⟩,
  ⟨"mgga_xc_cc06", .mgga, mgga_xc_cc06⟩,
  ⟨"mgga_xc_lp90", .mgga, mgga_xc_lp90⟩,
  ⟨"mgga_xc_zlp", .mgga, mgga_xc_zlp⟩]

/-- All shipped modules. -/
noncomputable def shipped : List Shipped :=
  shipped01 ++ shipped02 ++ shipped03 ++ shipped04 ++ shipped05 ++ shipped06 ++ shipped07 ++ shipped08 ++ shipped09 ++ shipped10 ++ shipped11 ++ shipped12 ++ shipped13 ++ shipped14 ++ shipped15 ++ shipped16

end Verif.Data
