import Verif.Norm.RegularHints
import Verif.Props.DefinedHints1
import Verif.Props.DefinedHints2
import Verif.Props.DefinedHints3
import Verif.Props.DefinedHints4
/-!
# C52: regular formulas for which the analysis of intervals needs hints
-/
set_option Elab.async false
set_option maxRecDepth 100000
namespace Verif.Props
open Verif.Py Verif.Model Verif.Spec Verif.Norm Verif.Data Verif.Lib

theorem gga_c_acgga_regularPol : RegularPol {sPos := true, zetaSmall := true} .gga gga_c_acgga :=
  regularPolH_of _ rfl (hs := [⟨57, gga_c_acgga_polHint0_e.res, pos.neg⟩]) (fc (gga_c_acgga_polHint0.strong) fn) (par := []) (npar := []) (flds := []) rfl rfl rfl (by decide +kernel)

theorem gga_c_acggap_regularPol : RegularPol {sPos := true, zetaSmall := true} .gga gga_c_acggap :=
  regularPolH_of _ rfl (hs := [⟨60, gga_c_acggap_polHint0_e.res, pos.neg⟩]) (fc (gga_c_acggap_polHint0.strong) fn) (par := []) (npar := []) (flds := []) rfl rfl rfl (by decide +kernel)

theorem gga_c_op_pw91_regularUnpol : RegularUnpol {sPos := true} .gga gga_c_op_pw91 :=
  regularUnpolH_of _ rfl (hs := [⟨41, gga_c_op_pw91_unpolHint0_e.res, sgI true⟩]) (fc (gga_c_op_pw91_unpolHint0.strong) fn) (par := []) (npar := []) (flds := []) rfl rfl rfl (by decide +kernel)

theorem gga_c_pbe_regularPol : RegularPol {params := ["BB", "beta", "gamma"], zetaSmall := true} .gga gga_c_pbe :=
  regularPolH_of _ rfl (hs := [⟨48, gga_c_pbe_polHint0_e.res, pos.neg⟩]) (fc gga_c_pbe_polHint0 fn) (par := [16962, 1650816097, 444016192865]) (npar := []) (flds := []) (by simp [nameCode, nameCodeChars]) rfl rfl (by decide +kernel)

theorem gga_c_pbeloc_regularPol : RegularPol {zetaSmall := true} .gga gga_c_pbeloc :=
  regularPolH_of _ rfl (hs := [⟨57, gga_c_pbeloc_polHint0_e.res, pos.neg⟩]) (fc gga_c_pbeloc_polHint0 fn) (par := []) (npar := []) (flds := []) rfl rfl rfl (by decide +kernel)

theorem gga_c_pw91_regularPol : RegularPol {zetaSmall := true} .gga gga_c_pw91 :=
  regularPolH_of _ rfl (hs := [⟨57, gga_c_pw91_polHint0_e.res, pos.neg⟩]) (fc gga_c_pw91_polHint0 fn) (par := []) (npar := []) (flds := []) rfl rfl rfl (by decide +kernel)

theorem gga_c_regtpss_regularPol : RegularPol {zetaSmall := true} .gga gga_c_regtpss :=
  regularPolH_of _ rfl (hs := [⟨53, gga_c_regtpss_polHint0_e.res, pos.neg⟩]) (fc gga_c_regtpss_polHint0 fn) (par := []) (npar := []) (flds := []) rfl rfl rfl (by decide +kernel)

theorem gga_c_scan_e0_regularPol : RegularPol {zetaSmall := true} .gga gga_c_scan_e0 :=
  regularPolH_of _ rfl (hs := [⟨50, gga_c_scan_e0_polHint0_e.res, pos.neg⟩]) (fc gga_c_scan_e0_polHint0 fn) (par := []) (npar := []) (flds := []) rfl rfl rfl (by decide +kernel)

theorem gga_c_sg4_regularPol : RegularPol {sPos := true, zetaSmall := true} .gga gga_c_sg4 :=
  regularPolH_of _ rfl (hs := [⟨60, gga_c_sg4_polHint0_e.res, pos.neg⟩]) (fc (gga_c_sg4_polHint0.strong) fn) (par := []) (npar := []) (flds := []) rfl rfl rfl (by decide +kernel)

theorem gga_c_sogga11_regularPol : RegularPol {zetaSmall := true} .gga gga_c_sogga11 :=
  regularPolH_of _ rfl (hs := [⟨36, gga_c_sogga11_polHint0_e.res, pos.neg⟩]) (fc gga_c_sogga11_polHint0 fn) (par := []) (npar := []) (flds := []) rfl rfl rfl (by decide +kernel)

theorem gga_c_zpbeint_regularPol : RegularPol {sPos := true, params := ["beta"], zetaSmall := true} .gga gga_c_zpbeint :=
  regularPolH_of _ rfl (hs := [⟨56, gga_c_zpbeint_polHint0_e.res, pos.neg⟩]) (fc (gga_c_zpbeint_polHint0.strong) fn) (par := [1650816097]) (npar := []) (flds := []) (by simp [nameCode, nameCodeChars]) rfl rfl (by decide +kernel)

theorem gga_c_zvpbeint_regularPol : RegularPol {sPos := true, params := ["beta"], zetaSmall := true} .gga gga_c_zvpbeint :=
  regularPolH_of _ rfl (hs := [⟨60, gga_c_zvpbeint_polHint0_e.res, pos.neg⟩]) (fc (gga_c_zvpbeint_polHint0.strong) fn) (par := [1650816097]) (npar := []) (flds := []) (by simp [nameCode, nameCodeChars]) rfl rfl (by decide +kernel)

theorem gga_c_zvpbeloc_regularPol : RegularPol {zetaSmall := true} .gga gga_c_zvpbeloc :=
  regularPolH_of _ rfl (hs := [⟨67, gga_c_zvpbeloc_polHint0_e.res, pos.neg⟩]) (fc gga_c_zvpbeloc_polHint0 fn) (par := []) (npar := []) (flds := []) rfl rfl rfl (by decide +kernel)

theorem gga_k_apbeint_regularPol : RegularPol {params := ["alpha", "kappa", "muGE", "muPBE"]} .gga gga_k_apbeint :=
  regularPolH_of _ rfl (hs := [⟨35, gga_k_apbeint_polHint0_e.res, sgI true⟩, ⟨48, gga_k_apbeint_polHint1_e.res, sgI true⟩]) (fc gga_k_apbeint_polHint0 (fc gga_k_apbeint_polHint1 fn)) (par := [418431133793, 461196259425, 1836402501, 470119629381]) (npar := []) (flds := []) (by simp [nameCode, nameCodeChars]) rfl rfl (by decide +kernel)

theorem gga_k_apbeint_regularUnpol : RegularUnpol {params := ["alpha", "kappa", "muGE", "muPBE"]} .gga gga_k_apbeint :=
  regularUnpolH_of _ rfl (hs := [⟨26, gga_k_apbeint_unpolHint0_e.res, sgI true⟩]) (fc gga_k_apbeint_unpolHint0 fn) (par := [418431133793, 461196259425, 1836402501, 470119629381]) (npar := []) (flds := []) (by simp [nameCode, nameCodeChars]) rfl rfl (by decide +kernel)

theorem gga_x_ityh_pbe_regularPol : RegularPol {params := ["kappa", "mu"], flds := [.camOmega]} .gga gga_x_ityh_pbe :=
  regularPolH_of _ rfl (hs := [⟨32, gga_x_ityh_pbe_polHint0_e.res, sgI false⟩, ⟨59, gga_x_ityh_pbe_polHint1_e.res, sgI false⟩]) (fc gga_x_ityh_pbe_polHint0 (fc gga_x_ityh_pbe_polHint1 fn)) (par := [461196259425, 28021]) (npar := []) (flds := [2]) (by simp [nameCode, nameCodeChars]) rfl rfl (by decide +kernel)

theorem gga_x_ityh_pbe_regularUnpol : RegularUnpol {params := ["kappa", "mu"], flds := [.camOmega]} .gga gga_x_ityh_pbe :=
  regularUnpolH_of _ rfl (hs := [⟨22, gga_x_ityh_pbe_unpolHint0_e.res, sgI false⟩]) (fc gga_x_ityh_pbe_unpolHint0 fn) (par := [461196259425, 28021]) (npar := []) (flds := [2]) (by simp [nameCode, nameCodeChars]) rfl rfl (by decide +kernel)

theorem gga_x_pbeint_regularPol : RegularPol {params := ["alpha", "kappa", "muGE", "muPBE"]} .gga gga_x_pbeint :=
  regularPolH_of _ rfl (hs := [⟨31, gga_x_pbeint_polHint0_e.res, sgI true⟩, ⟨43, gga_x_pbeint_polHint1_e.res, sgI true⟩]) (fc gga_x_pbeint_polHint0 (fc gga_x_pbeint_polHint1 fn)) (par := [418431133793, 461196259425, 1836402501, 470119629381]) (npar := []) (flds := []) (by simp [nameCode, nameCodeChars]) rfl rfl (by decide +kernel)

theorem gga_x_pbeint_regularUnpol : RegularUnpol {params := ["alpha", "kappa", "muGE", "muPBE"]} .gga gga_x_pbeint :=
  regularUnpolH_of _ rfl (hs := [⟨23, gga_x_pbeint_unpolHint0_e.res, sgI true⟩]) (fc gga_x_pbeint_unpolHint0 fn) (par := [418431133793, 461196259425, 1836402501, 470119629381]) (npar := []) (flds := []) (by simp [nameCode, nameCodeChars]) rfl rfl (by decide +kernel)

theorem hyb_lda_xc_bn05_regularPol : RegularPol {flds := [.camOmega]} .lda hyb_lda_xc_bn05 :=
  regularPolH_of _ rfl (hs := [⟨82, hyb_lda_xc_bn05_polHint0_e.res, pos⟩]) (fc hyb_lda_xc_bn05_polHint0 fn) (par := []) (npar := []) (flds := [2]) rfl rfl rfl (by decide +kernel)

theorem hyb_lda_xc_bn05_regularUnpol : RegularUnpol {flds := [.camOmega]} .lda hyb_lda_xc_bn05 :=
  regularUnpolH_of _ rfl (hs := [⟨42, hyb_lda_xc_bn05_unpolHint0_e.res, pos⟩]) (fc hyb_lda_xc_bn05_unpolHint0 fn) (par := []) (npar := []) (flds := [2]) rfl rfl rfl (by decide +kernel)

theorem hyb_mgga_x_js18_regularPol : RegularPol {tPos := true, flds := [.camOmega]} .mgga hyb_mgga_x_js18 :=
  regularPolH_of _ rfl (hs := [⟨135, hyb_mgga_x_js18_polHint0_e.res, pos⟩, ⟨241, hyb_mgga_x_js18_polHint1_e.res, pos⟩]) (fc hyb_mgga_x_js18_polHint0 (fc hyb_mgga_x_js18_polHint1 fn)) (par := []) (npar := []) (flds := [2]) rfl rfl rfl (by decide +kernel)

theorem hyb_mgga_x_js18_regularUnpol : RegularUnpol {tPos := true, flds := [.camOmega]} .mgga hyb_mgga_x_js18 :=
  regularUnpolH_of _ rfl (hs := [⟨123, hyb_mgga_x_js18_unpolHint0_e.res, pos⟩]) (fc hyb_mgga_x_js18_unpolHint0 fn) (par := []) (npar := []) (flds := [2]) rfl rfl rfl (by decide +kernel)

theorem lda_c_2d_amgb_regularUnpol : RegularUnpol {} .lda lda_c_2d_amgb :=
  regularUnpolH_of _ rfl (hs := [⟨7, lda_c_2d_amgb_unpolHint0_e.res, pos⟩]) (fc lda_c_2d_amgb_unpolHint0 fn) (par := []) (npar := []) (flds := []) rfl rfl rfl (by decide +kernel)

theorem mgga_c_m06l_regularPol : RegularPol {tPos := true, params := ["Fermi_D_cnst", "alpha_ab", "alpha_ss", "gamma_ab", "gamma_ss"], le := [("alpha_ss", 1/20), ("alpha_ab", 1/20)]} .mgga mgga_c_m06l :=
  regularPolH_of _ rfl (hs := [⟨137, mgga_c_m06l_polHint0_e.res, pos⟩, ⟨147, mgga_c_m06l_polHint1_e.res, pos⟩, ⟨152, mgga_c_m06l_polHint2_e.res, pos⟩]) (fc mgga_c_m06l_polHint0 (fc mgga_c_m06l_polHint1 (fc mgga_c_m06l_polHint2 fn))) (par := [21786592563342246204526195572, 7020109512776311138, 7020109512776315763, 7449355575200014690, 7449355575200019315]) (npar := []) (flds := []) (by simp [nameCode, nameCodeChars]) rfl rfl (by decide +kernel)

theorem mgga_c_m06l_regularUnpol : RegularUnpol {tPos := true, params := ["Fermi_D_cnst", "alpha_ab", "alpha_ss", "gamma_ab", "gamma_ss"], le := [("alpha_ss", 1/20), ("alpha_ab", 1/20)]} .mgga mgga_c_m06l :=
  regularUnpolH_of _ rfl (hs := [⟨77, mgga_c_m06l_unpolHint0_e.res, pos⟩, ⟨83, mgga_c_m06l_unpolHint1_e.res, pos⟩]) (fc mgga_c_m06l_unpolHint0 (fc mgga_c_m06l_unpolHint1 fn)) (par := [21786592563342246204526195572, 7020109512776311138, 7020109512776315763, 7449355575200014690, 7449355575200019315]) (npar := []) (flds := []) (by simp [nameCode, nameCodeChars]) rfl rfl (by decide +kernel)

theorem mgga_c_m08_regularPol : RegularPol {zetaSmall := true} .mgga mgga_c_m08 :=
  regularPolH_of _ rfl (hs := [⟨82, mgga_c_m08_polHint0_e.res, pos.neg⟩]) (fc mgga_c_m08_polHint0 fn) (par := []) (npar := []) (flds := []) rfl rfl rfl (by decide +kernel)

theorem mgga_c_pkzb_regularUnpol : RegularUnpol {tPos := true, zetaSmall := true} .mgga mgga_c_pkzb :=
  regularUnpolH_of _ rfl (hs := [⟨43, mgga_c_pkzb_unpolHint0_e.res, pos.neg⟩, ⟨76, mgga_c_pkzb_unpolHint1_e.res, pos.neg⟩]) (fc mgga_c_pkzb_unpolHint0 (fc mgga_c_pkzb_unpolHint1 fn)) (par := []) (npar := []) (flds := []) rfl rfl rfl (by decide +kernel)

theorem mgga_c_revtpss_regularUnpol : RegularUnpol {tPos := true, zetaSmall := true} .mgga mgga_c_revtpss :=
  regularUnpolH_of _ rfl (hs := [⟨30, mgga_c_revtpss_unpolHint0_e.res, pos⟩, ⟨85, mgga_c_revtpss_unpolHint1_e.res, pos.neg⟩, ⟨131, mgga_c_revtpss_unpolHint2_e.res, pos.neg⟩, ⟨156, mgga_c_revtpss_unpolHint3_e.res, pos.neg⟩, ⟨168, mgga_c_revtpss_unpolHint4_e.res, pos.neg⟩]) (fc mgga_c_revtpss_unpolHint0 (fc mgga_c_revtpss_unpolHint1 (fc mgga_c_revtpss_unpolHint2 (fc mgga_c_revtpss_unpolHint3 (fc mgga_c_revtpss_unpolHint4 fn))))) (par := []) (npar := []) (flds := []) rfl rfl rfl (by decide +kernel)

theorem mgga_c_rppscan_regularPol : RegularPol {params := ["eta"], zetaSmall := true} .mgga mgga_c_rppscan :=
  regularPolH_of _ rfl (hs := [⟨53, mgga_c_rppscan_polHint0_e.res, pos.neg⟩]) (fc mgga_c_rppscan_polHint0 fn) (par := [6648929]) (npar := []) (flds := []) (by simp [nameCode, nameCodeChars]) rfl rfl (by decide +kernel)

theorem mgga_c_rregtm_regularPol : RegularPol {zetaSmall := true} .mgga mgga_c_rregtm :=
  regularPolH_of _ rfl (hs := [⟨53, mgga_c_rregtm_polHint0_e.res, pos.neg⟩, ⟨79, mgga_c_rregtm_polHint1_e.res, ⟨.inf, .fin (Int.negOfNat 18446744073709551616) true⟩⟩, ⟨85, mgga_c_rregtm_polHint2_e.res, ⟨.fin (Int.ofNat 18446744073709551616) true, .inf⟩⟩]) (fc mgga_c_rregtm_polHint0 (fc mgga_c_rregtm_polHint1 (fc mgga_c_rregtm_polHint2 fn))) (par := []) (npar := []) (flds := []) rfl rfl rfl (by decide +kernel)

theorem mgga_c_rregtm_regularUnpol : RegularUnpol {} .mgga mgga_c_rregtm :=
  regularUnpolH_of _ rfl (hs := [⟨46, mgga_c_rregtm_unpolHint0_e.res, ⟨.inf, .fin (Int.negOfNat 18446744073709551616) true⟩⟩, ⟨52, mgga_c_rregtm_unpolHint1_e.res, ⟨.fin (Int.ofNat 18446744073709551616) true, .inf⟩⟩]) (fc mgga_c_rregtm_unpolHint0 (fc mgga_c_rregtm_unpolHint1 fn)) (par := []) (npar := []) (flds := []) rfl rfl rfl (by decide +kernel)

theorem mgga_c_rscan_regularPol : RegularPol {zetaSmall := true} .mgga mgga_c_rscan :=
  regularPolH_of _ rfl (hs := [⟨53, mgga_c_rscan_polHint0_e.res, pos.neg⟩]) (fc mgga_c_rscan_polHint0 fn) (par := []) (npar := []) (flds := []) rfl rfl rfl (by decide +kernel)

theorem mgga_c_scan_regularPol : RegularPol {zetaSmall := true} .mgga mgga_c_scan :=
  regularPolH_of _ rfl (hs := [⟨53, mgga_c_scan_polHint0_e.res, pos.neg⟩, ⟨79, mgga_c_scan_polHint1_e.res, ⟨.inf, .fin (Int.negOfNat 18446744073709551616) true⟩⟩, ⟨85, mgga_c_scan_polHint2_e.res, ⟨.fin (Int.ofNat 18446744073709551616) true, .inf⟩⟩]) (fc mgga_c_scan_polHint0 (fc mgga_c_scan_polHint1 (fc mgga_c_scan_polHint2 fn))) (par := []) (npar := []) (flds := []) rfl rfl rfl (by decide +kernel)

theorem mgga_c_scan_regularUnpol : RegularUnpol {} .mgga mgga_c_scan :=
  regularUnpolH_of _ rfl (hs := [⟨46, mgga_c_scan_unpolHint0_e.res, ⟨.inf, .fin (Int.negOfNat 18446744073709551616) true⟩⟩, ⟨52, mgga_c_scan_unpolHint1_e.res, ⟨.fin (Int.ofNat 18446744073709551616) true, .inf⟩⟩]) (fc mgga_c_scan_unpolHint0 (fc mgga_c_scan_unpolHint1 fn)) (par := []) (npar := []) (flds := []) rfl rfl rfl (by decide +kernel)

theorem mgga_c_tpss_regularUnpol : RegularUnpol {tPos := true, params := ["beta"], zetaSmall := true} .mgga mgga_c_tpss :=
  regularUnpolH_of _ rfl (hs := [⟨30, mgga_c_tpss_unpolHint0_e.res, pos⟩, ⟨84, mgga_c_tpss_unpolHint1_e.res, pos.neg⟩, ⟨129, mgga_c_tpss_unpolHint2_e.res, pos.neg⟩, ⟨152, mgga_c_tpss_unpolHint3_e.res, pos.neg⟩, ⟨164, mgga_c_tpss_unpolHint4_e.res, pos.neg⟩]) (fc mgga_c_tpss_unpolHint0 (fc mgga_c_tpss_unpolHint1 (fc mgga_c_tpss_unpolHint2 (fc mgga_c_tpss_unpolHint3 (fc mgga_c_tpss_unpolHint4 fn))))) (par := [1650816097]) (npar := []) (flds := []) (by simp [nameCode, nameCodeChars]) rfl rfl (by decide +kernel)

theorem mgga_c_tpssloc_regularUnpol : RegularUnpol {tPos := true, zetaSmall := true} .mgga mgga_c_tpssloc :=
  regularUnpolH_of _ rfl (hs := [⟨29, mgga_c_tpssloc_unpolHint0_e.res, pos⟩, ⟨88, mgga_c_tpssloc_unpolHint1_e.res, pos.neg⟩, ⟨136, mgga_c_tpssloc_unpolHint2_e.res, pos.neg⟩, ⟨163, mgga_c_tpssloc_unpolHint3_e.res, pos.neg⟩, ⟨178, mgga_c_tpssloc_unpolHint4_e.res, pos.neg⟩]) (fc mgga_c_tpssloc_unpolHint0 (fc mgga_c_tpssloc_unpolHint1 (fc mgga_c_tpssloc_unpolHint2 (fc mgga_c_tpssloc_unpolHint3 (fc mgga_c_tpssloc_unpolHint4 fn))))) (par := []) (npar := []) (flds := []) rfl rfl rfl (by decide +kernel)

theorem mgga_c_vsxc_regularPol : RegularPol {tPos := true, params := ["alpha_ab", "alpha_ss"], le := [("alpha_ss", 1/20), ("alpha_ab", 1/20)]} .mgga mgga_c_vsxc :=
  regularPolH_of _ rfl (hs := [⟨59, mgga_c_vsxc_polHint0_e.res, pos⟩, ⟨93, mgga_c_vsxc_polHint1_e.res, pos⟩, ⟨116, mgga_c_vsxc_polHint2_e.res, pos⟩]) (fc mgga_c_vsxc_polHint0 (fc mgga_c_vsxc_polHint1 (fc mgga_c_vsxc_polHint2 fn))) (par := [7020109512776311138, 7020109512776315763]) (npar := []) (flds := []) (by simp [nameCode, nameCodeChars]) rfl rfl (by decide +kernel)

theorem mgga_c_vsxc_regularUnpol : RegularUnpol {tPos := true, params := ["alpha_ab", "alpha_ss"], le := [("alpha_ss", 1/20), ("alpha_ab", 1/20)]} .mgga mgga_c_vsxc :=
  regularUnpolH_of _ rfl (hs := [⟨47, mgga_c_vsxc_unpolHint0_e.res, pos⟩, ⟨64, mgga_c_vsxc_unpolHint1_e.res, pos⟩]) (fc mgga_c_vsxc_unpolHint0 (fc mgga_c_vsxc_unpolHint1 fn)) (par := [7020109512776311138, 7020109512776315763]) (npar := []) (flds := []) (by simp [nameCode, nameCodeChars]) rfl rfl (by decide +kernel)

theorem mgga_k_pc07_regularPol : RegularPol {params := ["a"]} .mgga mgga_k_pc07 :=
  regularPolH_of _ rfl (hs := [⟨51, mgga_k_pc07_polHint0_e.res, pos⟩, ⟨83, mgga_k_pc07_polHint1_e.res, pos⟩]) (fc mgga_k_pc07_polHint0 (fc mgga_k_pc07_polHint1 fn)) (par := [97]) (npar := []) (flds := []) (by simp [nameCode, nameCodeChars]) rfl rfl (by decide +kernel)

theorem mgga_k_pc07_regularUnpol : RegularUnpol {params := ["a"]} .mgga mgga_k_pc07 :=
  regularUnpolH_of _ rfl (hs := [⟨43, mgga_k_pc07_unpolHint0_e.res, pos⟩]) (fc mgga_k_pc07_unpolHint0 fn) (par := [97]) (npar := []) (flds := []) (by simp [nameCode, nameCodeChars]) rfl rfl (by decide +kernel)

theorem mgga_x_mbeef_regularPol : RegularPol {} .mgga mgga_x_mbeef :=
  regularPolH_of _ rfl (hs := [⟨40, mgga_x_mbeef_polHint0_e.res, pos⟩, ⟨93, mgga_x_mbeef_polHint1_e.res, pos⟩]) (fc mgga_x_mbeef_polHint0 (fc mgga_x_mbeef_polHint1 fn)) (par := []) (npar := []) (flds := []) rfl rfl rfl (by decide +kernel)

theorem mgga_x_mbeef_regularUnpol : RegularUnpol {} .mgga mgga_x_mbeef :=
  regularUnpolH_of _ rfl (hs := [⟨38, mgga_x_mbeef_unpolHint0_e.res, pos⟩]) (fc mgga_x_mbeef_unpolHint0 fn) (par := []) (npar := []) (flds := []) rfl rfl rfl (by decide +kernel)

theorem mgga_x_mbeefvdw_regularPol : RegularPol {} .mgga mgga_x_mbeefvdw :=
  regularPolH_of _ rfl (hs := [⟨37, mgga_x_mbeefvdw_polHint0_e.res, pos⟩, ⟨79, mgga_x_mbeefvdw_polHint1_e.res, pos⟩]) (fc mgga_x_mbeefvdw_polHint0 (fc mgga_x_mbeefvdw_polHint1 fn)) (par := []) (npar := []) (flds := []) rfl rfl rfl (by decide +kernel)

theorem mgga_x_mbeefvdw_regularUnpol : RegularUnpol {} .mgga mgga_x_mbeefvdw :=
  regularUnpolH_of _ rfl (hs := [⟨32, mgga_x_mbeefvdw_unpolHint0_e.res, pos⟩]) (fc mgga_x_mbeefvdw_unpolHint0 fn) (par := []) (npar := []) (flds := []) rfl rfl rfl (by decide +kernel)

theorem mgga_x_mcml_regularPol : RegularPol {} .mgga mgga_x_mcml :=
  regularPolH_of _ rfl (hs := [⟨43, mgga_x_mcml_polHint0_e.res, pos⟩, ⟨94, mgga_x_mcml_polHint1_e.res, pos⟩]) (fc mgga_x_mcml_polHint0 (fc mgga_x_mcml_polHint1 fn)) (par := []) (npar := []) (flds := []) rfl rfl rfl (by decide +kernel)

theorem mgga_x_mcml_regularUnpol : RegularUnpol {} .mgga mgga_x_mcml :=
  regularUnpolH_of _ rfl (hs := [⟨38, mgga_x_mcml_unpolHint0_e.res, pos⟩]) (fc mgga_x_mcml_unpolHint0 fn) (par := []) (npar := []) (flds := []) rfl rfl rfl (by decide +kernel)

theorem mgga_x_ms_regularPol : RegularPol {params := ["c", "kappa"], ge := [("b", 1/2)]} .mgga mgga_x_ms :=
  regularPolH_of _ rfl (hs := [⟨40, mgga_x_ms_polHint0_e.res, pos⟩, ⟨57, mgga_x_ms_polHint1_e.res, pos⟩]) (fc mgga_x_ms_polHint0 (fc mgga_x_ms_polHint1 fn)) (par := [99, 461196259425]) (npar := []) (flds := []) (by simp [nameCode, nameCodeChars]) rfl rfl (by decide +kernel)

theorem mgga_x_ms_regularUnpol : RegularUnpol {params := ["c", "kappa"], ge := [("b", 1/2)]} .mgga mgga_x_ms :=
  regularUnpolH_of _ rfl (hs := [⟨30, mgga_x_ms_unpolHint0_e.res, pos⟩]) (fc mgga_x_ms_unpolHint0 fn) (par := [99, 461196259425]) (npar := []) (flds := []) (by simp [nameCode, nameCodeChars]) rfl rfl (by decide +kernel)

theorem mgga_x_msb_regularPol : RegularPol {params := ["c", "kappa"], ge := [("b", 1/2)]} .mgga mgga_x_msb :=
  regularPolH_of _ rfl (hs := [⟨40, mgga_x_msb_polHint0_e.res, pos⟩, ⟨61, mgga_x_msb_polHint1_e.res, pos⟩]) (fc mgga_x_msb_polHint0 (fc mgga_x_msb_polHint1 fn)) (par := [99, 461196259425]) (npar := []) (flds := []) (by simp [nameCode, nameCodeChars]) rfl rfl (by decide +kernel)

theorem mgga_x_msb_regularUnpol : RegularUnpol {params := ["c", "kappa"], ge := [("b", 1/2)]} .mgga mgga_x_msb :=
  regularUnpolH_of _ rfl (hs := [⟨32, mgga_x_msb_unpolHint0_e.res, pos⟩]) (fc mgga_x_msb_unpolHint0 fn) (par := [99, 461196259425]) (npar := []) (flds := []) (by simp [nameCode, nameCodeChars]) rfl rfl (by decide +kernel)

theorem mgga_x_pkzb_regularPol : RegularPol {} .mgga mgga_x_pkzb :=
  regularPolH_of _ rfl (hs := [⟨35, mgga_x_pkzb_polHint0_e.res, pos⟩, ⟨50, mgga_x_pkzb_polHint1_e.res, pos⟩]) (fc mgga_x_pkzb_polHint0 (fc mgga_x_pkzb_polHint1 fn)) (par := []) (npar := []) (flds := []) rfl rfl rfl (by decide +kernel)

theorem mgga_x_pkzb_regularUnpol : RegularUnpol {} .mgga mgga_x_pkzb :=
  regularUnpolH_of _ rfl (hs := [⟨28, mgga_x_pkzb_unpolHint0_e.res, pos⟩]) (fc mgga_x_pkzb_unpolHint0 fn) (par := []) (npar := []) (flds := []) rfl rfl rfl (by decide +kernel)

theorem mgga_x_r2scan_regularPol : RegularPol {sPos := true, params := ["dp2", "eta", "k1"], le := [("eta", 1/100)]} .mgga mgga_x_r2scan :=
  regularPolH_of _ rfl (hs := [⟨18, .param 6648929, ⟨.inf, .fin (Int.negOfNat 184467440737095517) false⟩⟩, ⟨38, .param 6648929, ⟨.inf, .fin (Int.negOfNat 184467440737095517) false⟩⟩, ⟨69, .param 6648929, ⟨.inf, .fin (Int.negOfNat 184467440737095517) false⟩⟩]) (fc mgga_x_r2scan_polHint0 (fc mgga_x_r2scan_polHint1 (fc mgga_x_r2scan_polHint2 fn))) (par := [6582322, 6648929, 27441]) (npar := []) (flds := []) (by simp [nameCode, nameCodeChars]) rfl rfl (by decide +kernel)

theorem mgga_x_r2scan_regularUnpol : RegularUnpol {sPos := true, params := ["dp2", "eta", "k1"], le := [("eta", 1/100)]} .mgga mgga_x_r2scan :=
  regularUnpolH_of _ rfl (hs := [⟨27, .param 6648929, ⟨.inf, .fin (Int.negOfNat 184467440737095517) false⟩⟩, ⟨28, .param 6648929, ⟨.inf, .fin (Int.negOfNat 184467440737095517) false⟩⟩]) (fc mgga_x_r2scan_unpolHint0 (fc mgga_x_r2scan_unpolHint1 fn)) (par := [6582322, 6648929, 27441]) (npar := []) (flds := []) (by simp [nameCode, nameCodeChars]) rfl rfl (by decide +kernel)

theorem mgga_x_r4scan_regularPol : RegularPol {sPos := true, params := ["da4", "dp2", "dp4", "eta", "k1"], le := [("eta", 1/100)]} .mgga mgga_x_r4scan :=
  regularPolH_of _ rfl (hs := [⟨18, .param 6648929, ⟨.inf, .fin (Int.negOfNat 184467440737095517) false⟩⟩, ⟨44, .param 6648929, ⟨.inf, .fin (Int.negOfNat 184467440737095517) false⟩⟩, ⟨60, .param 6648929, ⟨.inf, .fin (Int.negOfNat 184467440737095517) false⟩⟩, ⟨61, .param 6648929, ⟨.inf, .fin (Int.negOfNat 184467440737095517) false⟩⟩, ⟨62, .param 6648929, ⟨.inf, .fin (Int.negOfNat 184467440737095517) false⟩⟩, ⟨63, .param 6648929, ⟨.inf, .fin (Int.negOfNat 184467440737095517) false⟩⟩, ⟨98, .param 6648929, ⟨.inf, .fin (Int.negOfNat 184467440737095517) false⟩⟩]) (fc mgga_x_r4scan_polHint0 (fc mgga_x_r4scan_polHint1 (fc mgga_x_r4scan_polHint2 (fc mgga_x_r4scan_polHint3 (fc mgga_x_r4scan_polHint4 (fc mgga_x_r4scan_polHint5 (fc mgga_x_r4scan_polHint6 fn))))))) (par := [6578484, 6582322, 6582324, 6648929, 27441]) (npar := []) (flds := []) (by simp [nameCode, nameCodeChars]) rfl rfl (by decide +kernel)

theorem mgga_x_r4scan_regularUnpol : RegularUnpol {sPos := true, params := ["da4", "dp2", "dp4", "eta", "k1"], le := [("eta", 1/100)]} .mgga mgga_x_r4scan :=
  regularUnpolH_of _ rfl (hs := [⟨11, .param 6648929, ⟨.inf, .fin (Int.negOfNat 184467440737095517) false⟩⟩, ⟨36, .param 6648929, ⟨.inf, .fin (Int.negOfNat 184467440737095517) false⟩⟩, ⟨51, .param 6648929, ⟨.inf, .fin (Int.negOfNat 184467440737095517) false⟩⟩, ⟨52, .param 6648929, ⟨.inf, .fin (Int.negOfNat 184467440737095517) false⟩⟩, ⟨65, .param 6648929, ⟨.inf, .fin (Int.negOfNat 184467440737095517) false⟩⟩]) (fc mgga_x_r4scan_unpolHint0 (fc mgga_x_r4scan_unpolHint1 (fc mgga_x_r4scan_unpolHint2 (fc mgga_x_r4scan_unpolHint3 (fc mgga_x_r4scan_unpolHint4 fn))))) (par := [6578484, 6582322, 6582324, 6648929, 27441]) (npar := []) (flds := []) (by simp [nameCode, nameCodeChars]) rfl rfl (by decide +kernel)

theorem mgga_x_regtpss_regularPol : RegularPol {sPos := true, tPos := true} .mgga mgga_x_regtpss :=
  regularPolH_of _ rfl (hs := [⟨36, mgga_x_regtpss_polHint0_e.res, pos⟩, ⟨56, mgga_x_regtpss_polHint1_e.res, sgI true⟩, ⟨66, mgga_x_regtpss_polHint2_e.res, sgI true⟩, ⟨85, mgga_x_regtpss_polHint3_e.res, pos⟩, ⟨99, mgga_x_regtpss_polHint4_e.res, sgI true⟩, ⟨109, mgga_x_regtpss_polHint5_e.res, sgI true⟩]) (fc (mgga_x_regtpss_polHint0.strong) (fc (mgga_x_regtpss_polHint1.strong) (fc (mgga_x_regtpss_polHint2.strong) (fc (mgga_x_regtpss_polHint3.strong) (fc (mgga_x_regtpss_polHint4.strong) (fc (mgga_x_regtpss_polHint5.strong) fn)))))) (par := []) (npar := []) (flds := []) rfl rfl rfl (by decide +kernel)

theorem mgga_x_regtpss_regularUnpol : RegularUnpol {sPos := true, tPos := true} .mgga mgga_x_regtpss :=
  regularUnpolH_of _ rfl (hs := [⟨29, mgga_x_regtpss_unpolHint0_e.res, pos⟩, ⟨45, mgga_x_regtpss_unpolHint1_e.res, sgI true⟩, ⟨55, mgga_x_regtpss_unpolHint2_e.res, sgI true⟩]) (fc (mgga_x_regtpss_unpolHint0.strong) (fc (mgga_x_regtpss_unpolHint1.strong) (fc (mgga_x_regtpss_unpolHint2.strong) fn))) (par := []) (npar := []) (flds := []) rfl rfl rfl (by decide +kernel)

theorem mgga_x_revtm_regularPol : RegularPol {tPos := true} .mgga mgga_x_revtm :=
  regularPolH_of _ rfl (hs := [⟨46, mgga_x_revtm_polHint0_e.res, pos⟩, ⟨49, mgga_x_revtm_polHint1_e.res, pos⟩, ⟨75, mgga_x_revtm_polHint2_e.res, pos⟩, ⟨78, mgga_x_revtm_polHint3_e.res, pos⟩]) (fc mgga_x_revtm_polHint0 (fc mgga_x_revtm_polHint1 (fc mgga_x_revtm_polHint2 (fc mgga_x_revtm_polHint3 fn)))) (par := []) (npar := []) (flds := []) rfl rfl rfl (by decide +kernel)

theorem mgga_x_revtm_regularUnpol : RegularUnpol {tPos := true} .mgga mgga_x_revtm :=
  regularUnpolH_of _ rfl (hs := [⟨36, mgga_x_revtm_unpolHint0_e.res, pos⟩, ⟨39, mgga_x_revtm_unpolHint1_e.res, pos⟩]) (fc mgga_x_revtm_unpolHint0 (fc mgga_x_revtm_unpolHint1 fn)) (par := []) (npar := []) (flds := []) rfl rfl rfl (by decide +kernel)

theorem mgga_x_rppscan_regularPol : RegularPol {sPos := true, params := ["eta", "k1"], le := [("k1", 1/10)]} .mgga mgga_x_rppscan :=
  regularPolH_of _ rfl (hs := [⟨29, .param 27441, ⟨.inf, .fin (Int.negOfNat 1844674407370955162) false⟩⟩]) (fc mgga_x_rppscan_polHint0 fn) (par := [6648929, 27441]) (npar := []) (flds := []) (by simp [nameCode, nameCodeChars]) rfl rfl (by decide +kernel)

theorem mgga_x_rppscan_regularUnpol : RegularUnpol {sPos := true, params := ["eta", "k1"], le := [("k1", 1/10)]} .mgga mgga_x_rppscan :=
  regularUnpolH_of _ rfl (hs := [⟨22, .param 27441, ⟨.inf, .fin (Int.negOfNat 1844674407370955162) false⟩⟩]) (fc mgga_x_rppscan_unpolHint0 fn) (par := [6648929, 27441]) (npar := []) (flds := []) (by simp [nameCode, nameCodeChars]) rfl rfl (by decide +kernel)

theorem mgga_x_rscan_regularPol : RegularPol {sPos := true, params := ["alphar", "k1", "taur"], le := [("k1", 1/10)]} .mgga mgga_x_rscan :=
  regularPolH_of _ rfl (hs := [⟨29, .param 27441, ⟨.inf, .fin (Int.negOfNat 1844674407370955162) false⟩⟩]) (fc mgga_x_rscan_polHint0 fn) (par := [107118370251122, 27441, 1952544114]) (npar := []) (flds := []) (by simp [nameCode, nameCodeChars]) rfl rfl (by decide +kernel)

theorem mgga_x_rscan_regularUnpol : RegularUnpol {sPos := true, params := ["alphar", "k1", "taur"], le := [("k1", 1/10)]} .mgga mgga_x_rscan :=
  regularUnpolH_of _ rfl (hs := [⟨21, .param 27441, ⟨.inf, .fin (Int.negOfNat 1844674407370955162) false⟩⟩]) (fc mgga_x_rscan_unpolHint0 fn) (par := [107118370251122, 27441, 1952544114]) (npar := []) (flds := []) (by simp [nameCode, nameCodeChars]) rfl rfl (by decide +kernel)

theorem mgga_x_rtpss_regularPol : RegularPol {sPos := true, tPos := true, params := ["b", "e", "kappa"], le := [("b", 3)]} .mgga mgga_x_rtpss :=
  regularPolH_of _ rfl (hs := [⟨39, mgga_x_rtpss_polHint0_e.res, pos⟩, ⟨79, mgga_x_rtpss_polHint1_e.res, pos⟩]) (fc (mgga_x_rtpss_polHint0.strong) (fc (mgga_x_rtpss_polHint1.strong) fn)) (par := [98, 101, 461196259425]) (npar := []) (flds := []) (by simp [nameCode, nameCodeChars]) rfl rfl (by decide +kernel)

theorem mgga_x_rtpss_regularUnpol : RegularUnpol {sPos := true, tPos := true, params := ["b", "e", "kappa"], le := [("b", 3)]} .mgga mgga_x_rtpss :=
  regularUnpolH_of _ rfl (hs := [⟨31, mgga_x_rtpss_unpolHint0_e.res, pos⟩]) (fc (mgga_x_rtpss_unpolHint0.strong) fn) (par := [98, 101, 461196259425]) (npar := []) (flds := []) (by simp [nameCode, nameCodeChars]) rfl rfl (by decide +kernel)

theorem mgga_x_scan_regularPol : RegularPol {sPos := true, params := ["c1", "c2", "k1"], le := [("k1", 1/10), ("d", 10)], ge := [("d", 1/10)]} .mgga mgga_x_scan :=
  regularPolH_of _ rfl (hs := [⟨46, mgga_x_scan_polHint0_e.res, ⟨.inf, .fin (Int.negOfNat 18446744073709551616) true⟩⟩, ⟨82, mgga_x_scan_polHint1_e.res, ⟨.inf, .fin (Int.negOfNat 18446744073709551616) true⟩⟩, ⟨53, mgga_x_scan_polHint2_e.res, ⟨.fin (Int.ofNat 18446744073709551616) true, .inf⟩⟩, ⟨86, mgga_x_scan_polHint3_e.res, ⟨.fin (Int.ofNat 18446744073709551616) true, .inf⟩⟩, ⟨29, .param 27441, ⟨.inf, .fin (Int.negOfNat 1844674407370955162) false⟩⟩, ⟨49, .param 100, ⟨.fin (Int.ofNat 1844674407370955161) false, .fin (Int.negOfNat 184467440737095516160) false⟩⟩]) (fc mgga_x_scan_polHint0 (fc mgga_x_scan_polHint1 (fc mgga_x_scan_polHint2 (fc mgga_x_scan_polHint3 (fc mgga_x_scan_polHint4 (fc mgga_x_scan_polHint5 fn)))))) (par := [25393, 25394, 27441]) (npar := []) (flds := []) (by simp [nameCode, nameCodeChars]) rfl rfl (by decide +kernel)

theorem mgga_x_scan_regularUnpol : RegularUnpol {sPos := true, params := ["c1", "c2", "k1"], le := [("k1", 1/10), ("d", 10)], ge := [("d", 1/10)]} .mgga mgga_x_scan :=
  regularUnpolH_of _ rfl (hs := [⟨34, mgga_x_scan_unpolHint0_e.res, ⟨.inf, .fin (Int.negOfNat 18446744073709551616) true⟩⟩, ⟨41, mgga_x_scan_unpolHint1_e.res, ⟨.fin (Int.ofNat 18446744073709551616) true, .inf⟩⟩, ⟨21, .param 27441, ⟨.inf, .fin (Int.negOfNat 1844674407370955162) false⟩⟩, ⟨37, .param 100, ⟨.fin (Int.ofNat 1844674407370955161) false, .fin (Int.negOfNat 184467440737095516160) false⟩⟩]) (fc mgga_x_scan_unpolHint0 (fc mgga_x_scan_unpolHint1 (fc mgga_x_scan_unpolHint2 (fc mgga_x_scan_unpolHint3 fn)))) (par := [25393, 25394, 27441]) (npar := []) (flds := []) (by simp [nameCode, nameCodeChars]) rfl rfl (by decide +kernel)

theorem mgga_x_tm_regularPol : RegularPol {tPos := true} .mgga mgga_x_tm :=
  regularPolH_of _ rfl (hs := [⟨46, mgga_x_tm_polHint0_e.res, pos⟩, ⟨72, mgga_x_tm_polHint1_e.res, pos⟩]) (fc mgga_x_tm_polHint0 (fc mgga_x_tm_polHint1 fn)) (par := []) (npar := []) (flds := []) rfl rfl rfl (by decide +kernel)

theorem mgga_x_tm_regularUnpol : RegularUnpol {tPos := true} .mgga mgga_x_tm :=
  regularUnpolH_of _ rfl (hs := [⟨36, mgga_x_tm_unpolHint0_e.res, pos⟩]) (fc mgga_x_tm_unpolHint0 fn) (par := []) (npar := []) (flds := []) rfl rfl rfl (by decide +kernel)

theorem mgga_x_tpss_regularPol : RegularPol {sPos := true, tPos := true, params := ["b", "c", "e", "kappa", "mu"], le := [("b", 3)], ge := [("e", 1), ("kappa", 1/10)]} .mgga mgga_x_tpss :=
  regularPolH_of _ rfl (hs := [⟨41, mgga_x_tpss_polHint0_e.res, pos⟩, ⟨51, .param 101, ⟨.fin (Int.ofNat 18446744073709551616) false, .inf⟩⟩, ⟨58, mgga_x_tpss_polHint2_e.res, sgI true⟩, ⟨81, mgga_x_tpss_polHint3_e.res, pos⟩, ⟨89, mgga_x_tpss_polHint4_e.res, sgI true⟩]) (fc mgga_x_tpss_polHint0 (fc mgga_x_tpss_polHint1 (fc mgga_x_tpss_polHint2 (fc mgga_x_tpss_polHint3 (fc mgga_x_tpss_polHint4 fn))))) (par := [98, 99, 101, 461196259425, 28021]) (npar := []) (flds := []) (by simp [nameCode, nameCodeChars]) rfl rfl (by decide +kernel)

theorem mgga_x_tpss_regularUnpol : RegularUnpol {sPos := true, tPos := true, params := ["b", "c", "e", "kappa", "mu"], le := [("b", 3)], ge := [("e", 1), ("kappa", 1/10)]} .mgga mgga_x_tpss :=
  regularUnpolH_of _ rfl (hs := [⟨33, mgga_x_tpss_unpolHint0_e.res, pos⟩, ⟨41, .param 101, ⟨.fin (Int.ofNat 18446744073709551616) false, .inf⟩⟩, ⟨45, mgga_x_tpss_unpolHint2_e.res, sgI true⟩]) (fc mgga_x_tpss_unpolHint0 (fc mgga_x_tpss_unpolHint1 (fc mgga_x_tpss_unpolHint2 fn))) (par := [98, 99, 101, 461196259425, 28021]) (npar := []) (flds := []) (by simp [nameCode, nameCodeChars]) rfl rfl (by decide +kernel)

theorem mgga_x_vcml_regularPol : RegularPol {} .mgga mgga_x_vcml :=
  regularPolH_of _ rfl (hs := [⟨43, mgga_x_vcml_polHint0_e.res, pos⟩, ⟨94, mgga_x_vcml_polHint1_e.res, pos⟩]) (fc mgga_x_vcml_polHint0 (fc mgga_x_vcml_polHint1 fn)) (par := []) (npar := []) (flds := []) rfl rfl rfl (by decide +kernel)

theorem mgga_x_vcml_regularUnpol : RegularUnpol {} .mgga mgga_x_vcml :=
  regularUnpolH_of _ rfl (hs := [⟨38, mgga_x_vcml_unpolHint0_e.res, pos⟩]) (fc mgga_x_vcml_unpolHint0 fn) (par := []) (npar := []) (flds := []) rfl rfl rfl (by decide +kernel)

theorem mgga_x_vt84_regularPol : RegularPol {sPos := true, tPos := true} .mgga mgga_x_vt84 :=
  regularPolH_of _ rfl (hs := [⟨35, mgga_x_vt84_polHint0_e.res, pos⟩, ⟨48, mgga_x_vt84_polHint1_e.res, pos⟩, ⟨73, mgga_x_vt84_polHint2_e.res, pos⟩, ⟨81, mgga_x_vt84_polHint3_e.res, pos⟩]) (fc mgga_x_vt84_polHint0 (fc mgga_x_vt84_polHint1 (fc mgga_x_vt84_polHint2 (fc mgga_x_vt84_polHint3 fn)))) (par := []) (npar := []) (flds := []) rfl rfl rfl (by decide +kernel)

theorem mgga_x_vt84_regularUnpol : RegularUnpol {sPos := true, tPos := true} .mgga mgga_x_vt84 :=
  regularUnpolH_of _ rfl (hs := [⟨28, mgga_x_vt84_unpolHint0_e.res, pos⟩, ⟨38, mgga_x_vt84_unpolHint1_e.res, pos⟩]) (fc mgga_x_vt84_unpolHint0 (fc mgga_x_vt84_unpolHint1 fn)) (par := []) (npar := []) (flds := []) rfl rfl rfl (by decide +kernel)

end Verif.Props
