import Verif.Props.Float1
import Verif.Props.Float2
import Verif.Props.Float3
import Verif.Props.Float4
import Verif.Props.Float5
import Verif.Props.Float6
import Verif.Data.All
import Verif.Lib.ClosedForm
/-!
# C61: floating-point evaluation is accurate

`u` is the relative error of one operation.  Four lists name the formulas that the error analysis of `Verif.Norm.Float` settles: for all positive densities with a
relative error (unpolarized, polarized), and for bounded inputs with a relative or an absolute error (unpolarized, polarized).
-/
set_option maxRecDepth 100000
namespace Verif.Props
open Verif.Py Verif.Model Verif.Spec Verif.Data

/-- Formulas whose unpolarized code has relative error at most `K u` at all densities: `K` and the assumptions. -/
noncomputable def accurateUnpol : List (Shipped × ℕ × Assume) := [
  (⟨"gga_c_op_b88", .gga, gga_c_op_b88⟩, 653, {}),
  (⟨"gga_c_op_g96", .gga, gga_c_op_g96⟩, 483, {}),
  (⟨"gga_c_op_pbe", .gga, gga_c_op_pbe⟩, 443, {}),
  (⟨"gga_c_op_xalpha", .gga, gga_c_op_xalpha⟩, 193, {}),
  (⟨"gga_c_w94", .gga, gga_c_w94⟩, 183, {sPos := true}),
  (⟨"gga_c_wi", .gga, gga_c_wi⟩, 12206, {params := ["a", "b", "c", "d"]}),
  (⟨"gga_k_llp", .gga, gga_k_llp⟩, 124, {params := ["beta", "gamma"]}),
  (⟨"gga_k_mpbe", .gga, gga_k_mpbe⟩, 231, {params := ["a", "c1", "c2", "c3"]}),
  (⟨"gga_k_ol1", .gga, gga_k_ol1⟩, 82, {}),
  (⟨"gga_k_ol2", .gga, gga_k_ol2⟩, 72, {params := ["aa", "bb", "cc"]}),
  (⟨"gga_k_pearson", .gga, gga_k_pearson⟩, 119, {}),
  (⟨"gga_k_pg", .gga, gga_k_pg⟩, 32790, {}),
  (⟨"gga_k_pw86", .gga, gga_k_pw86⟩, 86, {}),
  (⟨"gga_x_2d_b86", .gga, gga_x_2d_b86⟩, 52, {}),
  (⟨"gga_x_2d_b86_mgc", .gga, gga_x_2d_b86_mgc⟩, 608, {}),
  (⟨"gga_x_2d_b88", .gga, gga_x_2d_b88⟩, 83, {}),
  (⟨"gga_x_2d_pbe", .gga, gga_x_2d_pbe⟩, 37, {}),
  (⟨"gga_x_b88", .gga, gga_x_b88⟩, 117, {params := ["beta", "gamma"]}),
  (⟨"gga_x_bayesian", .gga, gga_x_bayesian⟩, 268, {}),
  (⟨"gga_x_ev93", .gga, gga_x_ev93⟩, 141, {params := ["a1", "a2", "a3", "b1", "b2", "b3"]}),
  (⟨"gga_x_ft97", .gga, gga_x_ft97⟩, 409, {params := ["beta0", "beta1", "beta2"]}),
  (⟨"gga_x_g96", .gga, gga_x_g96⟩, 77, {}),
  (⟨"gga_x_herman", .gga, gga_x_herman⟩, 68, {}),
  (⟨"gga_x_lag", .gga, gga_x_lag⟩, 3731, {sPos := true}),
  (⟨"gga_x_lg93", .gga, gga_x_lg93⟩, 98, {}),
  (⟨"gga_x_lv_rpw86", .gga, gga_x_lv_rpw86⟩, 170, {}),
  (⟨"gga_x_mpbe", .gga, gga_x_mpbe⟩, 224, {params := ["a", "c1", "c2", "c3"]}),
  (⟨"gga_x_ol2", .gga, gga_x_ol2⟩, 65, {params := ["aa", "bb", "cc"]}),
  (⟨"gga_x_optx", .gga, gga_x_optx⟩, 111, {params := ["a", "b", "gamma"]}),
  (⟨"gga_x_pbea", .gga, gga_x_pbea⟩, 341, {}),
  (⟨"gga_x_pw86", .gga, gga_x_pw86⟩, 80, {params := ["aa", "bb", "cc"]}),
  (⟨"gga_x_rge2", .gga, gga_x_rge2⟩, 73, {}),
  (⟨"gga_x_vmt", .gga, gga_x_vmt⟩, 34312, {params := ["mu"]}),
  (⟨"lda_c_lp96", .lda, lda_c_lp96⟩, 10, {params := ["C1", "C2", "C3"]}),
  (⟨"lda_c_wigner", .lda, lda_c_wigner⟩, 24, {params := ["b"]}),
  (⟨"lda_k_tf", .lda, lda_k_tf⟩, 38, {}),
  (⟨"lda_x", .lda, lda_x⟩, 20, {}),
  (⟨"lda_x_2d", .lda, lda_x_2d⟩, 16, {}),
  (⟨"lda_xc_teter93", .lda, lda_xc_teter93⟩, 85, {}),
  (⟨"mgga_k_pgslb", .mgga, mgga_k_pgslb⟩, 32792, {params := ["pgslb_beta"]}),
  (⟨"mgga_x_th", .mgga, mgga_x_th⟩, 55, {tPos := true})]

/-- The same for the polarized code. -/
noncomputable def accuratePol : List (Shipped × ℕ × Assume) := [
  (⟨"lda_c_lp96", .lda, lda_c_lp96⟩, 14, {params := ["C1", "C2", "C3"]}),
  (⟨"lda_x", .lda, lda_x⟩, 46, {params := ["alpha"]})]

/-- Formulas whose unpolarized code is accurate for bounded inputs: whether the error is relative, exponents of the bounds of inputs and parameters, `K`, assumptions. -/
noncomputable def accurateUnpolBox : List (Shipped × (Bool × ℕ × ℕ × ℕ) × Assume) := [
  (⟨"gga_c_acgga", .gga, gga_c_acgga⟩, (false, 4, 6, 20554), {}),
  (⟨"gga_c_acggap", .gga, gga_c_acggap⟩, (false, 4, 6, 20745), {}),
  (⟨"gga_c_am05", .gga, gga_c_am05⟩, (false, 10, 6, 12054), {params := ["alpha"]}),
  (⟨"gga_c_bmk", .gga, gga_c_bmk⟩, (false, 2, 3, 12641503759), {}),
  (⟨"gga_c_ccdf", .gga, gga_c_ccdf⟩, (false, 4, 6, 237134508), {params := ["c2"]}),
  (⟨"gga_c_cs1", .gga, gga_c_cs1⟩, (false, 4, 6, 6663617), {}),
  (⟨"gga_c_hcth_a", .gga, gga_c_hcth_a⟩, (false, 2, 3, 9674838), {}),
  (⟨"gga_c_lm", .gga, gga_c_lm⟩, (false, 4, 6, 104853222), {params := ["lm_f"]}),
  (⟨"gga_c_lyp", .gga, gga_c_lyp⟩, (false, 4, 3, 963331530), {params := ["c", "d"]}),
  (⟨"gga_c_p86", .gga, gga_c_p86⟩, (false, 4, 3, 16159718227), {params := ["aa", "bb", "ftilde", "malpha", "mbeta", "mdelta", "mgamma"]}),
  (⟨"gga_c_p86vwn", .gga, gga_c_p86vwn⟩, (false, 4, 3, 16159718227), {params := ["aa", "bb", "ftilde", "malpha", "mbeta", "mdelta", "mgamma"]}),
  (⟨"gga_c_pbe", .gga, gga_c_pbe⟩, (false, 4, 3, 18947292), {params := ["BB", "beta", "gamma"]}),
  (⟨"gga_c_pbeloc", .gga, gga_c_pbeloc⟩, (false, 4, 6, 20715), {}),
  (⟨"gga_c_pw91", .gga, gga_c_pw91⟩, (false, 4, 6, 6479202), {}),
  (⟨"gga_c_regtpss", .gga, gga_c_regtpss⟩, (false, 4, 6, 20536), {}),
  (⟨"gga_c_revtca", .gga, gga_c_revtca⟩, (false, 10, 6, 105791), {sPos := true}),
  (⟨"gga_c_scan_e0", .gga, gga_c_scan_e0⟩, (false, 4, 6, 149489), {}),
  (⟨"gga_c_sg4", .gga, gga_c_sg4⟩, (false, 2, 3, 691184), {}),
  (⟨"gga_c_sogga11", .gga, gga_c_sogga11⟩, (false, 10, 6, 4282007716), {}),
  (⟨"gga_c_tca", .gga, gga_c_tca⟩, (false, 10, 6, 105791), {sPos := true}),
  (⟨"gga_c_wl", .gga, gga_c_wl⟩, (false, 10, 6, 351770), {}),
  (⟨"gga_c_zvpbeint", .gga, gga_c_zvpbeint⟩, (false, 4, 6, 39041383), {params := ["alpha", "beta"]}),
  (⟨"gga_c_zvpbeloc", .gga, gga_c_zvpbeloc⟩, (false, 4, 6, 20818), {}),
  (⟨"gga_k_apbe", .gga, gga_k_apbe⟩, (false, 10, 6, 5734542820), {params := ["kappa", "mu"]}),
  (⟨"gga_k_exp4", .gga, gga_k_exp4⟩, (false, 10, 6, 19858020), {}),
  (⟨"gga_k_lgap_ge", .gga, gga_k_lgap_ge⟩, (false, 4, 6, 1048200899), {}),
  (⟨"gga_k_meyer", .gga, gga_k_meyer⟩, (false, 2, 3, 427567529), {sPos := true}),
  (⟨"gga_k_rational_p", .gga, gga_k_rational_p⟩, (true, 10, 6, 3172), {params := ["C2", "p"]}),
  (⟨"gga_k_tflw", .gga, gga_k_tflw⟩, (false, 4, 6, 92507783), {}),
  (⟨"gga_k_thakkar", .gga, gga_k_thakkar⟩, (false, 4, 6, 392798), {}),
  (⟨"gga_k_vt84f", .gga, gga_k_vt84f⟩, (false, 2, 3, 791150876), {sPos := true, params := ["alpha", "mu"]}),
  (⟨"gga_x_airy", .gga, gga_x_airy⟩, (false, 2, 3, 76563110), {sPos := true}),
  (⟨"gga_x_ak13", .gga, gga_x_ak13⟩, (false, 10, 6, 38622337678), {}),
  (⟨"gga_x_b86", .gga, gga_x_b86⟩, (true, 10, 6, 1657), {params := ["beta", "gamma"]}),
  (⟨"gga_x_bpccac", .gga, gga_x_bpccac⟩, (false, 4, 6, 31827259), {}),
  (⟨"gga_x_c09x", .gga, gga_x_c09x⟩, (true, 4, 6, 51995), {}),
  (⟨"gga_x_cap", .gga, gga_x_cap⟩, (false, 4, 6, 125140593), {params := ["c"]}),
  (⟨"gga_x_chachiyo", .gga, gga_x_chachiyo⟩, (true, 4, 6, 35830), {sPos := true}),
  (⟨"gga_x_dk87", .gga, gga_x_dk87⟩, (true, 10, 6, 961), {sPos := true, params := ["a1", "b1"]}),
  (⟨"gga_x_hcth_a", .gga, gga_x_hcth_a⟩, (false, 4, 6, 227132), {}),
  (⟨"gga_x_htbs", .gga, gga_x_htbs⟩, (false, 2, 3, 25676), {}),
  (⟨"gga_x_kt", .gga, gga_x_kt⟩, (false, 4, 3, 7916364406), {params := ["delta"]}),
  (⟨"gga_x_lspbe", .gga, gga_x_lspbe⟩, (false, 10, 6, 158305439), {params := ["alpha", "kappa", "mu"]}),
  (⟨"gga_x_lsrpbe", .gga, gga_x_lsrpbe⟩, (false, 10, 6, 33513183), {params := ["alpha", "kappa", "mu"]}),
  (⟨"gga_x_n12", .gga, gga_x_n12⟩, (false, 4, 3, 66697670885), {}),
  (⟨"gga_x_pbe", .gga, gga_x_pbe⟩, (false, 10, 6, 136591442), {params := ["kappa", "mu"]}),
  (⟨"gga_x_pbetrans", .gga, gga_x_pbetrans⟩, (false, 10, 6, 225193761), {}),
  (⟨"gga_x_q1d", .gga, gga_x_q1d⟩, (false, 2, 3, 28535), {}),
  (⟨"gga_x_q2d", .gga, gga_x_q2d⟩, (true, 2, 3, 2704), {sPos := true}),
  (⟨"gga_x_rpbe", .gga, gga_x_rpbe⟩, (true, 10, 6, 2096476), {params := ["rpbe_kappa", "rpbe_mu"]}),
  (⟨"gga_x_s12", .gga, gga_x_s12⟩, (false, 10, 6, 3079639), {params := ["C", "D", "E"]}),
  (⟨"gga_x_sg4", .gga, gga_x_sg4⟩, (true, 2, 3, 59), {}),
  (⟨"gga_x_sogga11", .gga, gga_x_sogga11⟩, (false, 10, 6, 234612786), {params := ["kappa", "mu"]}),
  (⟨"gga_x_ssb_sw", .gga, gga_x_ssb_sw⟩, (false, 4, 6, 19827070), {params := ["C", "E"]}),
  (⟨"gga_x_vmt84", .gga, gga_x_vmt84⟩, (false, 2, 3, 101293841), {sPos := true, params := ["alpha", "mu"]}),
  (⟨"gga_x_wc", .gga, gga_x_wc⟩, (true, 4, 6, 1912277), {}),
  (⟨"gga_xc_b97", .gga, gga_xc_b97⟩, (false, 2, 3, 12648240441), {}),
  (⟨"gga_xc_th1", .gga, gga_xc_th1⟩, (false, 2, 3, 66905669), {}),
  (⟨"gga_xc_th2", .gga, gga_xc_th2⟩, (false, 4, 6, 2693235185), {}),
  (⟨"gga_xc_th3", .gga, gga_xc_th3⟩, (false, 2, 3, 64852989), {}),
  (⟨"hyb_mgga_x_dldf", .mgga, hyb_mgga_x_dldf⟩, (false, 2, 3, 619585), {}),
  (⟨"lda_c_1d_csc", .lda, lda_c_1d_csc⟩, (false, 4, 3, 25148956), {params := ["para[0]", "para[1]", "para[2]", "para[3]", "para[7]", "para[8]"]}),
  (⟨"lda_c_1d_loos", .lda, lda_c_1d_loos⟩, (false, 2, 3, 39389003), {}),
  (⟨"lda_c_2d_amgb", .lda, lda_c_2d_amgb⟩, (false, 2, 3, 205), {}),
  (⟨"lda_c_2d_prm", .lda, lda_c_2d_prm⟩, (false, 10, 6, 264823), {params := ["c"]}),
  (⟨"lda_c_chachiyo", .lda, lda_c_chachiyo⟩, (false, 10, 6, 18333), {params := ["bf", "bp", "cf", "cp"]}),
  (⟨"lda_c_chachiyo_mod", .lda, lda_c_chachiyo_mod⟩, (false, 10, 6, 15403), {params := ["bf", "bp", "cf", "cp"]}),
  (⟨"lda_c_gk72", .lda, lda_c_gk72⟩, (false, 10, 6, 9), {}),
  (⟨"lda_c_gombas", .lda, lda_c_gombas⟩, (false, 10, 6, 2), {}),
  (⟨"lda_c_hl", .lda, lda_c_hl⟩, (false, 4, 6, 18678777152), {params := ["hl_r[0]", "hl_r[1]"]}),
  (⟨"lda_c_lp96", .lda, lda_c_lp96⟩, (false, 10, 6, 55370), {}),
  (⟨"lda_c_ml1", .lda, lda_c_ml1⟩, (false, 10, 6, 1654303139), {params := ["fc"]}),
  (⟨"lda_c_pmgb06", .lda, lda_c_pmgb06⟩, (false, 4, 3, 19792303215), {flds := [.camOmega]}),
  (⟨"lda_c_pw", .lda, lda_c_pw⟩, (false, 10, 6, 3055145141), {params := ["a[0]", "a[2]", "beta1[0]", "beta1[2]", "beta2[0]", "beta2[2]", "beta3[0]", "beta3[2]", "beta4[0]", "beta4[2]", "fz20"]}),
  (⟨"lda_c_pz", .lda, lda_c_pz⟩, (false, 10, 6, 111089), {params := ["beta1[0]", "beta1[1]", "beta2[0]", "beta2[1]"]}),
  (⟨"lda_c_rc04", .lda, lda_c_rc04⟩, (false, 10, 6, 3082), {}),
  (⟨"lda_c_rpa", .lda, lda_c_rpa⟩, (false, 10, 6, 9), {}),
  (⟨"lda_c_vwn", .lda, lda_c_vwn⟩, (false, 10, 6, 6), {}),
  (⟨"lda_c_vwn_1", .lda, lda_c_vwn_1⟩, (false, 10, 6, 8), {}),
  (⟨"lda_c_vwn_2", .lda, lda_c_vwn_2⟩, (false, 10, 6, 166), {}),
  (⟨"lda_c_vwn_4", .lda, lda_c_vwn_4⟩, (false, 10, 6, 6), {}),
  (⟨"lda_c_vwn_rpa", .lda, lda_c_vwn_rpa⟩, (false, 10, 6, 495), {}),
  (⟨"lda_c_w20", .lda, lda_c_w20⟩, (true, 4, 6, 3964), {}),
  (⟨"lda_k_gds08_worker", .lda, lda_k_gds08_worker⟩, (false, 10, 6, 104383), {}),
  (⟨"lda_k_zlp", .lda, lda_k_zlp⟩, (true, 10, 6, 33), {}),
  (⟨"lda_x_sloc", .lda, lda_x_sloc⟩, (true, 10, 6, 77), {params := ["b"]}),
  (⟨"lda_xc_1d_ehwlrg", .lda, lda_xc_1d_ehwlrg⟩, (true, 10, 6, 78), {params := ["a1", "a2", "a3"]}),
  (⟨"lda_xc_zlp", .lda, lda_xc_zlp⟩, (true, 10, 6, 41), {}),
  (⟨"mgga_c_b88", .mgga, mgga_c_b88⟩, (false, 2, 3, 1741850), {}),
  (⟨"mgga_c_bc95", .mgga, mgga_c_bc95⟩, (false, 4, 6, 2654044612), {tPos := true, params := ["copp", "css"]}),
  (⟨"mgga_c_cc", .mgga, mgga_c_cc⟩, (true, 10, 6, 18624), {}),
  (⟨"mgga_c_cs", .mgga, mgga_c_cs⟩, (false, 10, 6, 8405710608), {}),
  (⟨"mgga_c_ltapw", .mgga, mgga_c_ltapw⟩, (false, 2, 3, 6410277), {tPos := true}),
  (⟨"mgga_c_rppscan", .mgga, mgga_c_rppscan⟩, (false, 2, 3, 36841668509), {params := ["eta"]}),
  (⟨"mgga_k_gea2", .mgga, mgga_k_gea2⟩, (false, 4, 6, 262520), {}),
  (⟨"mgga_k_gea4", .mgga, mgga_k_gea4⟩, (false, 4, 6, 24595346), {}),
  (⟨"mgga_x_2d_js17", .mgga, mgga_x_2d_js17⟩, (false, 4, 6, 2247460), {}),
  (⟨"mgga_x_gdme", .mgga, mgga_x_gdme⟩, (false, 4, 6, 1750722438), {}),
  (⟨"mgga_x_gvt4", .mgga, mgga_x_gvt4⟩, (false, 4, 6, 10550855721), {}),
  (⟨"mgga_x_lta", .mgga, mgga_x_lta⟩, (true, 10, 6, 74883), {tPos := true}),
  (⟨"mgga_x_mn12", .mgga, mgga_x_mn12⟩, (false, 2, 3, 3161813899), {}),
  (⟨"mgga_x_tau_hcth", .mgga, mgga_x_tau_hcth⟩, (false, 2, 3, 13087038212), {}),
  (⟨"mgga_xc_b98", .mgga, mgga_xc_b98⟩, (false, 2, 3, 200904949), {tPos := true}),
  (⟨"mgga_xc_cc06", .mgga, mgga_xc_cc06⟩, (true, 2, 3, 123), {}),
  (⟨"mgga_xc_lp90", .mgga, mgga_xc_lp90⟩, (false, 10, 6, 19502705891), {}),
  (⟨"mgga_xc_zlp", .mgga, mgga_xc_zlp⟩, (false, 4, 6, 33772), {})]

/-- The same for the polarized code. -/
noncomputable def accuratePolBox : List (Shipped × (Bool × ℕ × ℕ × ℕ) × Assume) := [
  (⟨"gga_c_am05", .gga, gga_c_am05⟩, (false, 2, 3, 19358857), {params := ["alpha"]}),
  (⟨"gga_c_bmk", .gga, gga_c_bmk⟩, (false, 2, 3, 13729627207), {}),
  (⟨"gga_c_ccdf", .gga, gga_c_ccdf⟩, (false, 4, 6, 7151486109), {sPos := true, params := ["c2"]}),
  (⟨"gga_c_cs1", .gga, gga_c_cs1⟩, (false, 4, 6, 24963923), {}),
  (⟨"gga_c_hcth_a", .gga, gga_c_hcth_a⟩, (false, 2, 3, 20550748), {}),
  (⟨"gga_c_lm", .gga, gga_c_lm⟩, (false, 4, 6, 33223030085), {sPos := true, params := ["lm_f"]}),
  (⟨"gga_c_lyp", .gga, gga_c_lyp⟩, (false, 2, 3, 57828982), {params := ["c", "d"]}),
  (⟨"gga_c_op_b88", .gga, gga_c_op_b88⟩, (true, 4, 6, 394352), {}),
  (⟨"gga_c_op_g96", .gga, gga_c_op_g96⟩, (true, 4, 6, 394237), {}),
  (⟨"gga_c_op_pbe", .gga, gga_c_op_pbe⟩, (true, 4, 6, 394202), {}),
  (⟨"gga_c_op_pw91", .gga, gga_c_op_pw91⟩, (true, 2, 3, 255297), {}),
  (⟨"gga_c_op_xalpha", .gga, gga_c_op_xalpha⟩, (true, 4, 6, 393997), {}),
  (⟨"gga_c_p86", .gga, gga_c_p86⟩, (false, 2, 3, 38540211308), {sPos := true, params := ["aa", "bb", "ftilde", "malpha", "mbeta"]}),
  (⟨"gga_c_p86vwn", .gga, gga_c_p86vwn⟩, (false, 2, 3, 38542419514), {sPos := true, params := ["aa", "bb", "ftilde", "malpha", "mbeta"]}),
  (⟨"gga_c_tca", .gga, gga_c_tca⟩, (false, 4, 6, 29374556), {sPos := true}),
  (⟨"gga_c_wi", .gga, gga_c_wi⟩, (true, 4, 6, 937269), {sPos := true, params := ["a", "b", "c", "d"]}),
  (⟨"gga_c_wl", .gga, gga_c_wl⟩, (false, 4, 6, 45655122), {sPos := true}),
  (⟨"gga_k_apbe", .gga, gga_k_apbe⟩, (false, 4, 3, 6069211365), {params := ["kappa", "mu"]}),
  (⟨"gga_k_exp4", .gga, gga_k_exp4⟩, (false, 4, 6, 30422449), {}),
  (⟨"gga_k_lgap_ge", .gga, gga_k_lgap_ge⟩, (false, 2, 3, 1382702), {}),
  (⟨"gga_k_llp", .gga, gga_k_llp⟩, (true, 4, 6, 197109), {params := ["beta", "gamma"]}),
  (⟨"gga_k_meyer", .gga, gga_k_meyer⟩, (false, 2, 3, 1858954273), {sPos := true}),
  (⟨"gga_k_mpbe", .gga, gga_k_mpbe⟩, (true, 4, 6, 197214), {params := ["a", "c1", "c2", "c3"]}),
  (⟨"gga_k_ol1", .gga, gga_k_ol1⟩, (true, 4, 6, 197081), {}),
  (⟨"gga_k_ol2", .gga, gga_k_ol2⟩, (true, 4, 6, 197068), {params := ["aa", "bb", "cc"]}),
  (⟨"gga_k_pearson", .gga, gga_k_pearson⟩, (true, 4, 6, 197115), {}),
  (⟨"gga_k_pg", .gga, gga_k_pg⟩, (true, 4, 6, 226234), {}),
  (⟨"gga_k_pw86", .gga, gga_k_pw86⟩, (true, 4, 6, 197090), {}),
  (⟨"gga_k_rational_p", .gga, gga_k_rational_p⟩, (true, 4, 6, 199856), {params := ["C2", "p"]}),
  (⟨"gga_k_tflw", .gga, gga_k_tflw⟩, (false, 4, 3, 68669768555), {}),
  (⟨"gga_k_thakkar", .gga, gga_k_thakkar⟩, (false, 4, 6, 1731270711), {}),
  (⟨"gga_k_vt84f", .gga, gga_k_vt84f⟩, (false, 2, 3, 2172120039), {sPos := true, params := ["alpha", "mu"]}),
  (⟨"gga_x_2d_b86", .gga, gga_x_2d_b86⟩, (true, 4, 6, 131389), {}),
  (⟨"gga_x_2d_b86_mgc", .gga, gga_x_2d_b86_mgc⟩, (true, 4, 6, 131945), {}),
  (⟨"gga_x_2d_b88", .gga, gga_x_2d_b88⟩, (true, 4, 6, 131408), {}),
  (⟨"gga_x_2d_pbe", .gga, gga_x_2d_pbe⟩, (true, 4, 6, 131374), {}),
  (⟨"gga_x_airy", .gga, gga_x_airy⟩, (false, 2, 3, 91291647), {sPos := true}),
  (⟨"gga_x_ak13", .gga, gga_x_ak13⟩, (false, 4, 6, 2539777986), {}),
  (⟨"gga_x_b86", .gga, gga_x_b86⟩, (true, 4, 6, 132666), {params := ["beta", "gamma"]}),
  (⟨"gga_x_b88", .gga, gga_x_b88⟩, (true, 4, 6, 131432), {params := ["beta", "gamma"]}),
  (⟨"gga_x_bayesian", .gga, gga_x_bayesian⟩, (true, 4, 6, 131574), {}),
  (⟨"gga_x_beefvdw", .gga, gga_x_beefvdw⟩, (false, 2, 3, 13092744939), {}),
  (⟨"gga_x_bpccac", .gga, gga_x_bpccac⟩, (false, 4, 6, 333904264), {}),
  (⟨"gga_x_c09x", .gga, gga_x_c09x⟩, (true, 4, 6, 149621), {}),
  (⟨"gga_x_cap", .gga, gga_x_cap⟩, (false, 4, 6, 1986836747), {params := ["c"]}),
  (⟨"gga_x_chachiyo", .gga, gga_x_chachiyo⟩, (true, 4, 6, 180056), {sPos := true}),
  (⟨"gga_x_dk87", .gga, gga_x_dk87⟩, (true, 4, 6, 132025), {sPos := true, params := ["a1", "b1"]}),
  (⟨"gga_x_ev93", .gga, gga_x_ev93⟩, (true, 4, 6, 131467), {params := ["a1", "a2", "a3", "b1", "b2", "b3"]}),
  (⟨"gga_x_ft97", .gga, gga_x_ft97⟩, (true, 4, 6, 1707783), {params := ["beta0", "beta1", "beta2"]}),
  (⟨"gga_x_g96", .gga, gga_x_g96⟩, (true, 4, 6, 131403), {}),
  (⟨"gga_x_hcth_a", .gga, gga_x_hcth_a⟩, (false, 4, 6, 169972892), {}),
  (⟨"gga_x_herman", .gga, gga_x_herman⟩, (true, 4, 6, 131395), {}),
  (⟨"gga_x_htbs", .gga, gga_x_htbs⟩, (false, 2, 3, 90880), {}),
  (⟨"gga_x_kt", .gga, gga_x_kt⟩, (false, 2, 3, 758828534), {params := ["delta"]}),
  (⟨"gga_x_lag", .gga, gga_x_lag⟩, (true, 4, 6, 135049), {sPos := true}),
  (⟨"gga_x_lg93", .gga, gga_x_lg93⟩, (true, 4, 6, 131388), {}),
  (⟨"gga_x_lspbe", .gga, gga_x_lspbe⟩, (false, 4, 3, 200052331), {params := ["alpha", "kappa", "mu"]}),
  (⟨"gga_x_lsrpbe", .gga, gga_x_lsrpbe⟩, (false, 4, 6, 48403673), {params := ["alpha", "kappa", "mu"]}),
  (⟨"gga_x_lv_rpw86", .gga, gga_x_lv_rpw86⟩, (true, 4, 6, 131504), {}),
  (⟨"gga_x_mpbe", .gga, gga_x_mpbe⟩, (true, 4, 6, 131537), {params := ["a", "c1", "c2", "c3"]}),
  (⟨"gga_x_n12", .gga, gga_x_n12⟩, (false, 2, 3, 259728), {}),
  (⟨"gga_x_ol2", .gga, gga_x_ol2⟩, (false, 4, 6, 12164225902), {}),
  (⟨"gga_x_optx", .gga, gga_x_optx⟩, (true, 4, 6, 131425), {params := ["a", "b", "gamma"]}),
  (⟨"gga_x_pbe", .gga, gga_x_pbe⟩, (false, 4, 3, 195866991), {params := ["kappa", "mu"]}),
  (⟨"gga_x_pbea", .gga, gga_x_pbea⟩, (true, 4, 6, 131672), {}),
  (⟨"gga_x_pbetrans", .gga, gga_x_pbetrans⟩, (false, 4, 6, 918795), {}),
  (⟨"gga_x_pw86", .gga, gga_x_pw86⟩, (true, 4, 6, 131413), {params := ["aa", "bb", "cc"]}),
  (⟨"gga_x_q1d", .gga, gga_x_q1d⟩, (false, 2, 3, 50392), {}),
  (⟨"gga_x_q2d", .gga, gga_x_q2d⟩, (true, 2, 3, 1481), {sPos := true}),
  (⟨"gga_x_rge2", .gga, gga_x_rge2⟩, (true, 4, 6, 131403), {}),
  (⟨"gga_x_rpbe", .gga, gga_x_rpbe⟩, (true, 4, 6, 1999970), {params := ["rpbe_kappa", "rpbe_mu"]}),
  (⟨"gga_x_s12", .gga, gga_x_s12⟩, (false, 4, 6, 3176319173), {params := ["C", "D", "E"]}),
  (⟨"gga_x_sg4", .gga, gga_x_sg4⟩, (true, 2, 3, 585), {}),
  (⟨"gga_x_sogga11", .gga, gga_x_sogga11⟩, (false, 4, 6, 462707190), {params := ["kappa", "mu"]}),
  (⟨"gga_x_ssb_sw", .gga, gga_x_ssb_sw⟩, (false, 4, 6, 21286174801), {params := ["C", "E"]}),
  (⟨"gga_x_vmt", .gga, gga_x_vmt⟩, (true, 4, 6, 160648), {params := ["mu"]}),
  (⟨"gga_x_vmt84", .gga, gga_x_vmt84⟩, (false, 2, 3, 190009451), {sPos := true, params := ["alpha", "mu"]}),
  (⟨"gga_x_wc", .gga, gga_x_wc⟩, (true, 4, 6, 732800), {}),
  (⟨"gga_xc_b97", .gga, gga_xc_b97⟩, (false, 2, 3, 16060303698), {}),
  (⟨"gga_xc_th1", .gga, gga_xc_th1⟩, (false, 2, 3, 1360921093), {}),
  (⟨"gga_xc_th2", .gga, gga_xc_th2⟩, (false, 2, 3, 9134814), {}),
  (⟨"gga_xc_th3", .gga, gga_xc_th3⟩, (false, 2, 3, 1164456857), {}),
  (⟨"hyb_mgga_x_dldf", .mgga, hyb_mgga_x_dldf⟩, (false, 2, 3, 435859), {}),
  (⟨"lda_c_1d_csc", .lda, lda_c_1d_csc⟩, (false, 2, 3, 48137119), {params := ["ferro[0]", "ferro[1]", "ferro[2]", "ferro[3]", "ferro[7]", "ferro[8]", "para[0]", "para[1]", "para[2]", "para[3]", "para[7]", "para[8]"]}),
  (⟨"lda_c_1d_loos", .lda, lda_c_1d_loos⟩, (false, 2, 3, 141630741), {}),
  (⟨"lda_c_2d_amgb", .lda, lda_c_2d_amgb⟩, (false, 2, 3, 31665), {}),
  (⟨"lda_c_2d_prm", .lda, lda_c_2d_prm⟩, (false, 10, 6, 593476), {params := ["c"]}),
  (⟨"lda_c_chachiyo", .lda, lda_c_chachiyo⟩, (false, 4, 6, 800243217), {params := ["bf", "bp", "cf", "cp"]}),
  (⟨"lda_c_chachiyo_mod", .lda, lda_c_chachiyo_mod⟩, (false, 4, 6, 1967619601), {params := ["bf", "bp", "cf", "cp"]}),
  (⟨"lda_c_gk72", .lda, lda_c_gk72⟩, (false, 10, 6, 9), {}),
  (⟨"lda_c_gombas", .lda, lda_c_gombas⟩, (false, 10, 6, 2), {}),
  (⟨"lda_c_hl", .lda, lda_c_hl⟩, (false, 2, 3, 78525092), {params := ["hl_r[0]", "hl_r[1]"]}),
  (⟨"lda_c_lp96", .lda, lda_c_lp96⟩, (false, 10, 6, 52865), {}),
  (⟨"lda_c_pz", .lda, lda_c_pz⟩, (false, 4, 6, 501177629), {params := ["beta1[0]", "beta1[1]", "beta2[0]", "beta2[1]"]}),
  (⟨"lda_c_rc04", .lda, lda_c_rc04⟩, (false, 4, 6, 14516854), {}),
  (⟨"lda_c_rpa", .lda, lda_c_rpa⟩, (false, 10, 6, 9), {}),
  (⟨"lda_c_vwn", .lda, lda_c_vwn⟩, (false, 2, 3, 1389120), {}),
  (⟨"lda_c_vwn_1", .lda, lda_c_vwn_1⟩, (false, 4, 6, 85905), {}),
  (⟨"lda_c_vwn_2", .lda, lda_c_vwn_2⟩, (false, 2, 3, 235251924), {}),
  (⟨"lda_c_vwn_4", .lda, lda_c_vwn_4⟩, (false, 2, 3, 1385502), {}),
  (⟨"lda_c_vwn_rpa", .lda, lda_c_vwn_rpa⟩, (false, 4, 6, 13520635), {}),
  (⟨"lda_c_w20", .lda, lda_c_w20⟩, (false, 4, 6, 90930), {}),
  (⟨"lda_c_wigner", .lda, lda_c_wigner⟩, (true, 4, 6, 12535003), {params := ["b"]}),
  (⟨"lda_k_gds08_worker", .lda, lda_k_gds08_worker⟩, (false, 4, 6, 313257144), {}),
  (⟨"lda_k_tf", .lda, lda_k_tf⟩, (true, 4, 6, 99516), {}),
  (⟨"lda_k_zlp", .lda, lda_k_zlp⟩, (true, 4, 6, 99511), {}),
  (⟨"lda_x_2d", .lda, lda_x_2d⟩, (true, 4, 6, 66335), {}),
  (⟨"lda_x_sloc", .lda, lda_x_sloc⟩, (true, 4, 6, 2201310), {params := ["b"]}),
  (⟨"lda_xc_1d_ehwlrg", .lda, lda_xc_1d_ehwlrg⟩, (true, 10, 6, 146), {params := ["a1", "a2", "a3"]}),
  (⟨"lda_xc_teter93", .lda, lda_xc_teter93⟩, (false, 2, 3, 99392), {}),
  (⟨"lda_xc_zlp", .lda, lda_xc_zlp⟩, (false, 10, 6, 159), {}),
  (⟨"mgga_c_b88", .mgga, mgga_c_b88⟩, (false, 2, 3, 385076574), {}),
  (⟨"mgga_c_bc95", .mgga, mgga_c_bc95⟩, (false, 2, 3, 2515893), {tPos := true, params := ["copp", "css"]}),
  (⟨"mgga_c_cs", .mgga, mgga_c_cs⟩, (false, 4, 6, 18446709), {}),
  (⟨"mgga_k_gea2", .mgga, mgga_k_gea2⟩, (false, 4, 6, 1678713270), {}),
  (⟨"mgga_k_gea4", .mgga, mgga_k_gea4⟩, (false, 2, 3, 67779), {}),
  (⟨"mgga_k_pgslb", .mgga, mgga_k_pgslb⟩, (true, 4, 6, 226236), {params := ["pgslb_beta"]}),
  (⟨"mgga_x_2d_js17", .mgga, mgga_x_2d_js17⟩, (false, 4, 6, 822633183), {}),
  (⟨"mgga_x_gdme", .mgga, mgga_x_gdme⟩, (false, 4, 3, 3502558993), {}),
  (⟨"mgga_x_gvt4", .mgga, mgga_x_gvt4⟩, (false, 4, 6, 26678069478), {}),
  (⟨"mgga_x_lta", .mgga, mgga_x_lta⟩, (true, 4, 6, 205859), {tPos := true}),
  (⟨"mgga_x_mn12", .mgga, mgga_x_mn12⟩, (false, 2, 3, 1002656119), {}),
  (⟨"mgga_x_tau_hcth", .mgga, mgga_x_tau_hcth⟩, (false, 2, 3, 1969449851), {}),
  (⟨"mgga_x_th", .mgga, mgga_x_th⟩, (true, 4, 6, 131396), {tPos := true}),
  (⟨"mgga_xc_b98", .mgga, mgga_xc_b98⟩, (false, 2, 3, 66551527), {tPos := true}),
  (⟨"mgga_xc_cc06", .mgga, mgga_xc_cc06⟩, (false, 2, 3, 5688209), {}),
  (⟨"mgga_xc_lp90", .mgga, mgga_xc_lp90⟩, (false, 4, 6, 1020154), {}),
  (⟨"mgga_xc_zlp", .mgga, mgga_xc_zlp⟩, (false, 4, 6, 22055843), {})]

/-- C61: relative accuracy of the unpolarized code at all densities. -/
theorem c61_unpol : ∀ x ∈ accurateUnpol, AccurateUnpol x.2.1 x.2.2 x.1.fam x.1.code := by
  rw [accurateUnpol]
  simp only [List.forall_mem_cons]
  exact ⟨gga_c_op_b88_accurateUnpol,
    gga_c_op_g96_accurateUnpol,
    gga_c_op_pbe_accurateUnpol,
    gga_c_op_xalpha_accurateUnpol,
    gga_c_w94_accurateUnpol,
    gga_c_wi_accurateUnpol,
    gga_k_llp_accurateUnpol,
    gga_k_mpbe_accurateUnpol,
    gga_k_ol1_accurateUnpol,
    gga_k_ol2_accurateUnpol,
    gga_k_pearson_accurateUnpol,
    gga_k_pg_accurateUnpol,
    gga_k_pw86_accurateUnpol,
    gga_x_2d_b86_accurateUnpol,
    gga_x_2d_b86_mgc_accurateUnpol,
    gga_x_2d_b88_accurateUnpol,
    gga_x_2d_pbe_accurateUnpol,
    gga_x_b88_accurateUnpol,
    gga_x_bayesian_accurateUnpol,
    gga_x_ev93_accurateUnpol,
    gga_x_ft97_accurateUnpol,
    gga_x_g96_accurateUnpol,
    gga_x_herman_accurateUnpol,
    gga_x_lag_accurateUnpol,
    gga_x_lg93_accurateUnpol,
    gga_x_lv_rpw86_accurateUnpol,
    gga_x_mpbe_accurateUnpol,
    gga_x_ol2_accurateUnpol,
    gga_x_optx_accurateUnpol,
    gga_x_pbea_accurateUnpol,
    gga_x_pw86_accurateUnpol,
    gga_x_rge2_accurateUnpol,
    gga_x_vmt_accurateUnpol,
    lda_c_lp96_accurateUnpol,
    lda_c_wigner_accurateUnpol,
    lda_k_tf_accurateUnpol,
    lda_x_accurateUnpol,
    lda_x_2d_accurateUnpol,
    lda_xc_teter93_accurateUnpol,
    mgga_k_pgslb_accurateUnpol,
    mgga_x_th_accurateUnpol,
    fun _ h => absurd h List.not_mem_nil⟩

/-- C61: relative accuracy of the polarized code at all densities. -/
theorem c61_pol : ∀ x ∈ accuratePol, AccuratePol x.2.1 x.2.2 x.1.fam x.1.code := by
  rw [accuratePol]
  simp only [List.forall_mem_cons]
  exact ⟨lda_c_lp96_accuratePol,
    lda_x_accuratePol,
    fun _ h => absurd h List.not_mem_nil⟩

/-- C61: accuracy of the unpolarized code for bounded inputs. -/
theorem c61_unpolBox : ∀ x ∈ accurateUnpolBox, AccurateUnpolBox x.2.1.1 x.2.1.2.1 x.2.1.2.2.1 x.2.1.2.2.2 x.2.2 x.1.fam x.1.code := by
  rw [accurateUnpolBox]
  simp only [List.forall_mem_cons]
  exact ⟨gga_c_acgga_accurateUnpolBox,
    gga_c_acggap_accurateUnpolBox,
    gga_c_am05_accurateUnpolBox,
    gga_c_bmk_accurateUnpolBox,
    gga_c_ccdf_accurateUnpolBox,
    gga_c_cs1_accurateUnpolBox,
    gga_c_hcth_a_accurateUnpolBox,
    gga_c_lm_accurateUnpolBox,
    gga_c_lyp_accurateUnpolBox,
    gga_c_p86_accurateUnpolBox,
    gga_c_p86vwn_accurateUnpolBox,
    gga_c_pbe_accurateUnpolBox,
    gga_c_pbeloc_accurateUnpolBox,
    gga_c_pw91_accurateUnpolBox,
    gga_c_regtpss_accurateUnpolBox,
    gga_c_revtca_accurateUnpolBox,
    gga_c_scan_e0_accurateUnpolBox,
    gga_c_sg4_accurateUnpolBox,
    gga_c_sogga11_accurateUnpolBox,
    gga_c_tca_accurateUnpolBox,
    gga_c_wl_accurateUnpolBox,
    gga_c_zvpbeint_accurateUnpolBox,
    gga_c_zvpbeloc_accurateUnpolBox,
    gga_k_apbe_accurateUnpolBox,
    gga_k_exp4_accurateUnpolBox,
    gga_k_lgap_ge_accurateUnpolBox,
    gga_k_meyer_accurateUnpolBox,
    gga_k_rational_p_accurateUnpolBox,
    gga_k_tflw_accurateUnpolBox,
    gga_k_thakkar_accurateUnpolBox,
    gga_k_vt84f_accurateUnpolBox,
    gga_x_airy_accurateUnpolBox,
    gga_x_ak13_accurateUnpolBox,
    gga_x_b86_accurateUnpolBox,
    gga_x_bpccac_accurateUnpolBox,
    gga_x_c09x_accurateUnpolBox,
    gga_x_cap_accurateUnpolBox,
    gga_x_chachiyo_accurateUnpolBox,
    gga_x_dk87_accurateUnpolBox,
    gga_x_hcth_a_accurateUnpolBox,
    gga_x_htbs_accurateUnpolBox,
    gga_x_kt_accurateUnpolBox,
    gga_x_lspbe_accurateUnpolBox,
    gga_x_lsrpbe_accurateUnpolBox,
    gga_x_n12_accurateUnpolBox,
    gga_x_pbe_accurateUnpolBox,
    gga_x_pbetrans_accurateUnpolBox,
    gga_x_q1d_accurateUnpolBox,
    gga_x_q2d_accurateUnpolBox,
    gga_x_rpbe_accurateUnpolBox,
    gga_x_s12_accurateUnpolBox,
    gga_x_sg4_accurateUnpolBox,
    gga_x_sogga11_accurateUnpolBox,
    gga_x_ssb_sw_accurateUnpolBox,
    gga_x_vmt84_accurateUnpolBox,
    gga_x_wc_accurateUnpolBox,
    gga_xc_b97_accurateUnpolBox,
    gga_xc_th1_accurateUnpolBox,
    gga_xc_th2_accurateUnpolBox,
    gga_xc_th3_accurateUnpolBox,
    hyb_mgga_x_dldf_accurateUnpolBox,
    lda_c_1d_csc_accurateUnpolBox,
    lda_c_1d_loos_accurateUnpolBox,
    lda_c_2d_amgb_accurateUnpolBox,
    lda_c_2d_prm_accurateUnpolBox,
    lda_c_chachiyo_accurateUnpolBox,
    lda_c_chachiyo_mod_accurateUnpolBox,
    lda_c_gk72_accurateUnpolBox,
    lda_c_gombas_accurateUnpolBox,
    lda_c_hl_accurateUnpolBox,
    lda_c_lp96_accurateUnpolBox,
    lda_c_ml1_accurateUnpolBox,
    lda_c_pmgb06_accurateUnpolBox,
    lda_c_pw_accurateUnpolBox,
    lda_c_pz_accurateUnpolBox,
    lda_c_rc04_accurateUnpolBox,
    lda_c_rpa_accurateUnpolBox,
    lda_c_vwn_accurateUnpolBox,
    lda_c_vwn_1_accurateUnpolBox,
    lda_c_vwn_2_accurateUnpolBox,
    lda_c_vwn_4_accurateUnpolBox,
    lda_c_vwn_rpa_accurateUnpolBox,
    lda_c_w20_accurateUnpolBox,
    lda_k_gds08_worker_accurateUnpolBox,
    lda_k_zlp_accurateUnpolBox,
    lda_x_sloc_accurateUnpolBox,
    lda_xc_1d_ehwlrg_accurateUnpolBox,
    lda_xc_zlp_accurateUnpolBox,
    mgga_c_b88_accurateUnpolBox,
    mgga_c_bc95_accurateUnpolBox,
    mgga_c_cc_accurateUnpolBox,
    mgga_c_cs_accurateUnpolBox,
    mgga_c_ltapw_accurateUnpolBox,
    mgga_c_rppscan_accurateUnpolBox,
    mgga_k_gea2_accurateUnpolBox,
    mgga_k_gea4_accurateUnpolBox,
    mgga_x_2d_js17_accurateUnpolBox,
    mgga_x_gdme_accurateUnpolBox,
    mgga_x_gvt4_accurateUnpolBox,
    mgga_x_lta_accurateUnpolBox,
    mgga_x_mn12_accurateUnpolBox,
    mgga_x_tau_hcth_accurateUnpolBox,
    mgga_xc_b98_accurateUnpolBox,
    mgga_xc_cc06_accurateUnpolBox,
    mgga_xc_lp90_accurateUnpolBox,
    mgga_xc_zlp_accurateUnpolBox,
    fun _ h => absurd h List.not_mem_nil⟩

/-- C61: accuracy of the polarized code for bounded inputs. -/
theorem c61_polBox : ∀ x ∈ accuratePolBox, AccuratePolBox x.2.1.1 x.2.1.2.1 x.2.1.2.2.1 x.2.1.2.2.2 x.2.2 x.1.fam x.1.code := by
  rw [accuratePolBox]
  simp only [List.forall_mem_cons]
  exact ⟨gga_c_am05_accuratePolBox,
    gga_c_bmk_accuratePolBox,
    gga_c_ccdf_accuratePolBox,
    gga_c_cs1_accuratePolBox,
    gga_c_hcth_a_accuratePolBox,
    gga_c_lm_accuratePolBox,
    gga_c_lyp_accuratePolBox,
    gga_c_op_b88_accuratePolBox,
    gga_c_op_g96_accuratePolBox,
    gga_c_op_pbe_accuratePolBox,
    gga_c_op_pw91_accuratePolBox,
    gga_c_op_xalpha_accuratePolBox,
    gga_c_p86_accuratePolBox,
    gga_c_p86vwn_accuratePolBox,
    gga_c_tca_accuratePolBox,
    gga_c_wi_accuratePolBox,
    gga_c_wl_accuratePolBox,
    gga_k_apbe_accuratePolBox,
    gga_k_exp4_accuratePolBox,
    gga_k_lgap_ge_accuratePolBox,
    gga_k_llp_accuratePolBox,
    gga_k_meyer_accuratePolBox,
    gga_k_mpbe_accuratePolBox,
    gga_k_ol1_accuratePolBox,
    gga_k_ol2_accuratePolBox,
    gga_k_pearson_accuratePolBox,
    gga_k_pg_accuratePolBox,
    gga_k_pw86_accuratePolBox,
    gga_k_rational_p_accuratePolBox,
    gga_k_tflw_accuratePolBox,
    gga_k_thakkar_accuratePolBox,
    gga_k_vt84f_accuratePolBox,
    gga_x_2d_b86_accuratePolBox,
    gga_x_2d_b86_mgc_accuratePolBox,
    gga_x_2d_b88_accuratePolBox,
    gga_x_2d_pbe_accuratePolBox,
    gga_x_airy_accuratePolBox,
    gga_x_ak13_accuratePolBox,
    gga_x_b86_accuratePolBox,
    gga_x_b88_accuratePolBox,
    gga_x_bayesian_accuratePolBox,
    gga_x_beefvdw_accuratePolBox,
    gga_x_bpccac_accuratePolBox,
    gga_x_c09x_accuratePolBox,
    gga_x_cap_accuratePolBox,
    gga_x_chachiyo_accuratePolBox,
    gga_x_dk87_accuratePolBox,
    gga_x_ev93_accuratePolBox,
    gga_x_ft97_accuratePolBox,
    gga_x_g96_accuratePolBox,
    gga_x_hcth_a_accuratePolBox,
    gga_x_herman_accuratePolBox,
    gga_x_htbs_accuratePolBox,
    gga_x_kt_accuratePolBox,
    gga_x_lag_accuratePolBox,
    gga_x_lg93_accuratePolBox,
    gga_x_lspbe_accuratePolBox,
    gga_x_lsrpbe_accuratePolBox,
    gga_x_lv_rpw86_accuratePolBox,
    gga_x_mpbe_accuratePolBox,
    gga_x_n12_accuratePolBox,
    gga_x_ol2_accuratePolBox,
    gga_x_optx_accuratePolBox,
    gga_x_pbe_accuratePolBox,
    gga_x_pbea_accuratePolBox,
    gga_x_pbetrans_accuratePolBox,
    gga_x_pw86_accuratePolBox,
    gga_x_q1d_accuratePolBox,
    gga_x_q2d_accuratePolBox,
    gga_x_rge2_accuratePolBox,
    gga_x_rpbe_accuratePolBox,
    gga_x_s12_accuratePolBox,
    gga_x_sg4_accuratePolBox,
    gga_x_sogga11_accuratePolBox,
    gga_x_ssb_sw_accuratePolBox,
    gga_x_vmt_accuratePolBox,
    gga_x_vmt84_accuratePolBox,
    gga_x_wc_accuratePolBox,
    gga_xc_b97_accuratePolBox,
    gga_xc_th1_accuratePolBox,
    gga_xc_th2_accuratePolBox,
    gga_xc_th3_accuratePolBox,
    hyb_mgga_x_dldf_accuratePolBox,
    lda_c_1d_csc_accuratePolBox,
    lda_c_1d_loos_accuratePolBox,
    lda_c_2d_amgb_accuratePolBox,
    lda_c_2d_prm_accuratePolBox,
    lda_c_chachiyo_accuratePolBox,
    lda_c_chachiyo_mod_accuratePolBox,
    lda_c_gk72_accuratePolBox,
    lda_c_gombas_accuratePolBox,
    lda_c_hl_accuratePolBox,
    lda_c_lp96_accuratePolBox,
    lda_c_pz_accuratePolBox,
    lda_c_rc04_accuratePolBox,
    lda_c_rpa_accuratePolBox,
    lda_c_vwn_accuratePolBox,
    lda_c_vwn_1_accuratePolBox,
    lda_c_vwn_2_accuratePolBox,
    lda_c_vwn_4_accuratePolBox,
    lda_c_vwn_rpa_accuratePolBox,
    lda_c_w20_accuratePolBox,
    lda_c_wigner_accuratePolBox,
    lda_k_gds08_worker_accuratePolBox,
    lda_k_tf_accuratePolBox,
    lda_k_zlp_accuratePolBox,
    lda_x_2d_accuratePolBox,
    lda_x_sloc_accuratePolBox,
    lda_xc_1d_ehwlrg_accuratePolBox,
    lda_xc_teter93_accuratePolBox,
    lda_xc_zlp_accuratePolBox,
    mgga_c_b88_accuratePolBox,
    mgga_c_bc95_accuratePolBox,
    mgga_c_cs_accuratePolBox,
    mgga_k_gea2_accuratePolBox,
    mgga_k_gea4_accuratePolBox,
    mgga_k_pgslb_accuratePolBox,
    mgga_x_2d_js17_accuratePolBox,
    mgga_x_gdme_accuratePolBox,
    mgga_x_gvt4_accuratePolBox,
    mgga_x_lta_accuratePolBox,
    mgga_x_mn12_accuratePolBox,
    mgga_x_tau_hcth_accuratePolBox,
    mgga_x_th_accuratePolBox,
    mgga_xc_b98_accuratePolBox,
    mgga_xc_cc06_accuratePolBox,
    mgga_xc_lp90_accuratePolBox,
    mgga_xc_zlp_accuratePolBox,
    fun _ h => absurd h List.not_mem_nil⟩

/-! ## A case -/

theorem normal_of {x : ℝ} (h0 : 1 / 1000 ≤ x) (h1 : x ≤ 1000) : Normal x := by
  right
  rw [abs_of_pos (by linarith)]
  constructor
  · refine le_trans ?_ h0
    rw [zpow_neg, ← one_div]
    refine one_div_le_one_div_of_le (by norm_num) ?_
    have : (2:ℝ) ^ (10:ℤ) ≤ 2 ^ (1022:ℤ) := zpow_le_zpow_right₀ (by norm_num) (by norm_num)
    refine le_trans ?_ this
    norm_num
  · refine h1.trans ?_
    have : (2:ℝ) ^ (10:ℤ) ≤ 2 ^ (1024:ℤ) := zpow_le_zpow_right₀ (by norm_num) (by norm_num)
    refine le_trans ?_ this
    norm_num

theorem rnd_self {u x : ℝ} (hu : 0 ≤ u) (h : Normal x) : Rnd u x x := ⟨by rw [sub_self, abs_zero]; positivity, h⟩

/-- A record: both parameters are 1, the thresholds are 1/100. -/
noncomputable def unitRec : Model.Rec := ⟨fun _ => 1 / 100, fun _ => 1⟩

/-- The value of `lda_c_wigner` at density 1 for these parameters. -/
noncomputable def wignerAt1 : ℝ := 1 / (1 + cbrtR 3 * cbrtR (1 / Real.pi) * cbrtR 4 ^ 2 / 1 / 4)

/-- Floating-point evaluations exist, and need not be exact: rounding up in the last division is one. -/
theorem wigner_run (u : ℝ) (P : Prims) (hu : 0 ≤ u) (h1 : u ≤ 1) :
    FloatRun u P (unpolEnv unitRec 1 none none none) lda_c_wigner.unpolBody (wignerAt1 * (1 + u)) := by
  have hpi := Real.pi_pos
  have hpi3 := Real.pi_gt_three
  have hpi4 := Real.pi_lt_four
  have b3 : 1 ≤ cbrtR 3 := by rw [← Verif.Lib.cbrtR_one]; exact Verif.Lib.cbrtR_le (by norm_num) (by norm_num)
  have c3 : cbrtR 3 ≤ 2 := by rw [← Verif.Lib.cbrtR_eight]; exact Verif.Lib.cbrtR_le (by norm_num) (by norm_num)
  have b4 : 1 ≤ cbrtR 4 := by rw [← Verif.Lib.cbrtR_one]; exact Verif.Lib.cbrtR_le (by norm_num) (by norm_num)
  have c4 : cbrtR 4 ≤ 2 := by rw [← Verif.Lib.cbrtR_eight]; exact Verif.Lib.cbrtR_le (by norm_num) (by norm_num)
  have e8 : cbrtR (1 / 8) = 1 / 2 := by rw [show (1 / 8 : ℝ) = (1 / 2) ^ 3 by norm_num, Verif.Lib.cbrtR_cube (by norm_num)]
  have ip : 1 / 8 ≤ 1 / Real.pi := one_div_le_one_div_of_le hpi (by linarith)
  have ip1 : 1 / Real.pi ≤ 1 := by rw [div_le_one hpi]; linarith
  have bp : 1 / 2 ≤ cbrtR (1 / Real.pi) := by rw [← e8]; exact Verif.Lib.cbrtR_le (by norm_num) ip
  have cp : cbrtR (1 / Real.pi) ≤ 1 := (Verif.Lib.cbrtR_le (by positivity) ip1).trans Verif.Lib.cbrtR_one.le
  have b16 : 1 ≤ cbrtR 4 ^ 2 := by nlinarith
  have c16 : cbrtR 4 ^ 2 ≤ 4 := by nlinarith
  have bm : 1 / 2 ≤ cbrtR 3 * cbrtR (1 / Real.pi) := by nlinarith
  have cm : cbrtR 3 * cbrtR (1 / Real.pi) ≤ 2 := by nlinarith
  have bn : 1 / 2 ≤ cbrtR 3 * cbrtR (1 / Real.pi) * cbrtR 4 ^ 2 := by nlinarith
  have cn : cbrtR 3 * cbrtR (1 / Real.pi) * cbrtR 4 ^ 2 ≤ 8 := by nlinarith
  have num : ∀ (T F : Nat → Option Val) (n : ℕ), 1 ≤ n → n ≤ 1000 → fl u P (unpolEnv unitRec 1 none none none) T F (.num n 0) (.num (n : ℝ)) := by
    intro T F n h0 h1
    have e : ((n : ℕ) : ℝ) * (10 : ℝ) ^ (0 : ℤ) = n := by simp
    have g0 : (1 : ℝ) ≤ n := by exact_mod_cast h0
    have g1 : (n : ℝ) ≤ 1000 := by exact_mod_cast h1
    refine ⟨n, rfl, ?_, fun _ => ?_⟩
    · rw [e]; exact rnd_self hu (normal_of (by linarith) g1)
    · rw [e]
  have one := fun T F => num T F 1 (by norm_num) (by norm_num)
  simp only [Nat.cast_one] at one
  refine ⟨some (.num (cbrtR 3)), fun v hv => ?_, some (.num (cbrtR (1 / Real.pi))), fun v hv => ?_, some (.num (cbrtR 4)), fun v hv => ?_, some (.num (cbrtR 4 ^ 2)), fun v hv => ?_,
    some (.num 1), fun v hv => ?_, ?_⟩
  · cases hv; exact ⟨3, _, num _ _ 3 (by norm_num) (by norm_num), trivial, rnd_self hu (normal_of (by change _ ≤ cbrtR 3; linarith) (by change cbrtR 3 ≤ _; linarith)), rfl⟩
  · cases hv
    refine ⟨1 / Real.pi, _, ⟨1, Real.pi, _, one _ _, ⟨_, rfl, rnd_self hu (normal_of (by linarith) (by linarith))⟩, hpi.ne', rnd_self hu (normal_of (by linarith) (by linarith)), rfl⟩, trivial,
      rnd_self hu (normal_of (by change _ ≤ cbrtR _; linarith) (by change cbrtR _ ≤ _; linarith)), rfl⟩
  · cases hv; exact ⟨4, _, num _ _ 4 (by norm_num) (by norm_num), trivial, rnd_self hu (normal_of (by change _ ≤ cbrtR 4; linarith) (by change cbrtR 4 ≤ _; linarith)), rfl⟩
  · cases hv
    refine ⟨cbrtR 4, 2, _, rfl, num _ _ 2 (by norm_num) (by norm_num), ?_, ?_, rfl⟩
    · exact .inl (by linarith)
    · rw [Real.rpow_two]; exact rnd_self hu (normal_of (by linarith) (by linarith))
  · cases hv
    refine ⟨1, _, ⟨1, rfl, normal_of (by norm_num) (by norm_num), rfl⟩, trivial, ?_, rfl⟩
    change Rnd u (cbrtR 1) 1
    rw [Verif.Lib.cbrtR_one]; exact rnd_self hu (normal_of (by norm_num) (by norm_num))
  · have d4 : cbrtR 3 * cbrtR (1 / Real.pi) * cbrtR 4 ^ 2 / 1 / 4 ≤ 2 := by rw [div_one]; linarith
    have d3 : 1 / 8 ≤ cbrtR 3 * cbrtR (1 / Real.pi) * cbrtR 4 ^ 2 / 1 / 4 := by rw [div_one]; linarith
    have w0 : 1 / 3 ≤ wignerAt1 := by
      rw [wignerAt1]; exact one_div_le_one_div_of_le (by linarith) (by linarith)
    have w1 : wignerAt1 ≤ 1 := by
      rw [wignerAt1, div_le_one (by linarith)]; linarith
    refine ⟨1, _, _, ⟨normal_of (by norm_num [unpolEnv, unitRec]) (by norm_num [unpolEnv, unitRec]), rfl⟩,
      ⟨1, _, 1 + cbrtR 3 * cbrtR (1 / Real.pi) * cbrtR 4 ^ 2 / 1 / 4, ⟨normal_of (by norm_num [unpolEnv, unitRec]) (by norm_num [unpolEnv, unitRec]), rfl⟩,
        ⟨_, 4, _, ⟨_, 1, _, ⟨_, _, _, ⟨_, _, _, rfl, rfl, rnd_self hu (normal_of (by linarith) (by linarith)), rfl⟩, rfl, rnd_self hu (normal_of (by linarith) (by linarith)), rfl⟩, rfl, one_ne_zero,
          rnd_self hu (normal_of (by rw [div_one]; linarith) (by rw [div_one]; linarith)), rfl⟩, num _ _ 4 (by norm_num) (by norm_num), by norm_num, rnd_self hu (normal_of (by linarith) (by linarith)), rfl⟩,
        rnd_self hu (normal_of (by linarith) (by linarith)), rfl⟩, by linarith, ⟨?_, normal_of (by nlinarith) (by nlinarith)⟩, rfl⟩
    change |wignerAt1 * (1 + u) - wignerAt1| ≤ u * |wignerAt1|
    rw [show wignerAt1 * (1 + u) - wignerAt1 = u * wignerAt1 by ring, abs_mul, abs_of_nonneg hu]

/-- C61 for this case: the value returned is off by at most `24 u`, relatively. -/
theorem wigner_case (P : Prims) : ∃ e, unpolStrict P lda_c_wigner unitRec 1 none none none = some e ∧ |wignerAt1 * (1 + 1 / 2 ^ 53) - e| ≤ 24 * (1 / 2 ^ 53) * |e| := by
  obtain ⟨e, h, hz⟩ := lda_c_wigner_accurateUnpol (1 / 2 ^ 53) P unitRec 1 0 0 0 (by norm_num) (by norm_num)
    ⟨by norm_num [unitRec], by norm_num [unitRec], by norm_num [unitRec], fun _ _ => by norm_num [unitRec], fun _ h => absurd h List.not_mem_nil, fun _ h => absurd h List.not_mem_nil,
      fun h => (nomatch h), fun _ h => absurd h List.not_mem_nil, fun _ h => absurd h List.not_mem_nil⟩ one_pos le_rfl le_rfl (fun h => nomatch h) (fun h => nomatch h)
  exact ⟨e, h, hz _ (wigner_run _ P (by norm_num) (by norm_num))⟩

end Verif.Props
