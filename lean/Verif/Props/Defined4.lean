import Verif.Norm.Regular
import Verif.Props.Static4
/-!
# C49, C52: formulas that are defined, and smooth, on their domain
-/
set_option Elab.async false
set_option maxRecDepth 100000
namespace Verif.Props
open Verif.Py Verif.Model Verif.Spec Verif.Norm Verif.Data

theorem mgga_k_pgslb_checkUnpol : rcheck (acfg false .mgga false false [] [] []) mgga_k_pgslb.unpolBody = true := by decide +kernel
theorem mgga_k_pgslb_definedUnpol : DefinedUnpol {} .mgga mgga_k_pgslb :=
  definedUnpol_of _ mgga_k_pgslb_neverRaises (par := []) (npar := []) (flds := []) rfl rfl rfl (acheck_of_rcheck mgga_k_pgslb_checkUnpol)
theorem mgga_k_pgslb_regularUnpol : RegularUnpol {} .mgga mgga_k_pgslb :=
  regularUnpol_of _ (par := []) (npar := []) (flds := []) rfl rfl rfl mgga_k_pgslb_checkUnpol
theorem mgga_k_pgslb_checkPol : rcheck (acfg true .mgga false false [] [] []) mgga_k_pgslb.polBody = true := by decide +kernel
theorem mgga_k_pgslb_definedPol : DefinedPol {} .mgga mgga_k_pgslb :=
  definedPol_of _ mgga_k_pgslb_neverRaises (par := []) (npar := []) (flds := []) rfl rfl rfl (acheck_of_rcheck mgga_k_pgslb_checkPol)
theorem mgga_k_pgslb_regularPol : RegularPol {} .mgga mgga_k_pgslb :=
  regularPol_of _ (par := []) (npar := []) (flds := []) rfl rfl rfl mgga_k_pgslb_checkPol
theorem mgga_x_2d_js17_checkUnpol : rcheck (acfg false .mgga false false [] [] []) mgga_x_2d_js17.unpolBody = true := by decide +kernel
theorem mgga_x_2d_js17_definedUnpol : DefinedUnpol {} .mgga mgga_x_2d_js17 :=
  definedUnpol_of _ mgga_x_2d_js17_neverRaises (par := []) (npar := []) (flds := []) rfl rfl rfl (acheck_of_rcheck mgga_x_2d_js17_checkUnpol)
theorem mgga_x_2d_js17_regularUnpol : RegularUnpol {} .mgga mgga_x_2d_js17 :=
  regularUnpol_of _ (par := []) (npar := []) (flds := []) rfl rfl rfl mgga_x_2d_js17_checkUnpol
theorem mgga_x_2d_js17_checkPol : rcheck (acfg true .mgga false false [] [] []) mgga_x_2d_js17.polBody = true := by decide +kernel
theorem mgga_x_2d_js17_definedPol : DefinedPol {} .mgga mgga_x_2d_js17 :=
  definedPol_of _ mgga_x_2d_js17_neverRaises (par := []) (npar := []) (flds := []) rfl rfl rfl (acheck_of_rcheck mgga_x_2d_js17_checkPol)
theorem mgga_x_2d_js17_regularPol : RegularPol {} .mgga mgga_x_2d_js17 :=
  regularPol_of _ (par := []) (npar := []) (flds := []) rfl rfl rfl mgga_x_2d_js17_checkPol
theorem mgga_x_gdme_checkUnpol : rcheck (acfg false .mgga false false [] [] []) mgga_x_gdme.unpolBody = true := by decide +kernel
theorem mgga_x_gdme_definedUnpol : DefinedUnpol {} .mgga mgga_x_gdme :=
  definedUnpol_of _ mgga_x_gdme_neverRaises (par := []) (npar := []) (flds := []) rfl rfl rfl (acheck_of_rcheck mgga_x_gdme_checkUnpol)
theorem mgga_x_gdme_regularUnpol : RegularUnpol {} .mgga mgga_x_gdme :=
  regularUnpol_of _ (par := []) (npar := []) (flds := []) rfl rfl rfl mgga_x_gdme_checkUnpol
theorem mgga_x_gdme_checkPol : rcheck (acfg true .mgga false false [] [] []) mgga_x_gdme.polBody = true := by decide +kernel
theorem mgga_x_gdme_definedPol : DefinedPol {} .mgga mgga_x_gdme :=
  definedPol_of _ mgga_x_gdme_neverRaises (par := []) (npar := []) (flds := []) rfl rfl rfl (acheck_of_rcheck mgga_x_gdme_checkPol)
theorem mgga_x_gdme_regularPol : RegularPol {} .mgga mgga_x_gdme :=
  regularPol_of _ (par := []) (npar := []) (flds := []) rfl rfl rfl mgga_x_gdme_checkPol
theorem mgga_x_gvt4_checkUnpol : rcheck (acfg false .mgga false false [] [] []) mgga_x_gvt4.unpolBody = true := by decide +kernel
theorem mgga_x_gvt4_definedUnpol : DefinedUnpol {} .mgga mgga_x_gvt4 :=
  definedUnpol_of _ mgga_x_gvt4_neverRaises (par := []) (npar := []) (flds := []) rfl rfl rfl (acheck_of_rcheck mgga_x_gvt4_checkUnpol)
theorem mgga_x_gvt4_regularUnpol : RegularUnpol {} .mgga mgga_x_gvt4 :=
  regularUnpol_of _ (par := []) (npar := []) (flds := []) rfl rfl rfl mgga_x_gvt4_checkUnpol
theorem mgga_x_gvt4_checkPol : rcheck (acfg true .mgga false false [] [] []) mgga_x_gvt4.polBody = true := by decide +kernel
theorem mgga_x_gvt4_definedPol : DefinedPol {} .mgga mgga_x_gvt4 :=
  definedPol_of _ mgga_x_gvt4_neverRaises (par := []) (npar := []) (flds := []) rfl rfl rfl (acheck_of_rcheck mgga_x_gvt4_checkPol)
theorem mgga_x_gvt4_regularPol : RegularPol {} .mgga mgga_x_gvt4 :=
  regularPol_of _ (par := []) (npar := []) (flds := []) rfl rfl rfl mgga_x_gvt4_checkPol
theorem mgga_x_lta_checkUnpol : rcheck (acfg false .mgga false true [] [] []) mgga_x_lta.unpolBody = true := by decide +kernel
theorem mgga_x_lta_definedUnpol : DefinedUnpol {tPos := true} .mgga mgga_x_lta :=
  definedUnpol_of _ mgga_x_lta_neverRaises (par := []) (npar := []) (flds := []) rfl rfl rfl (acheck_of_rcheck mgga_x_lta_checkUnpol)
theorem mgga_x_lta_regularUnpol : RegularUnpol {tPos := true} .mgga mgga_x_lta :=
  regularUnpol_of _ (par := []) (npar := []) (flds := []) rfl rfl rfl mgga_x_lta_checkUnpol
theorem mgga_x_lta_checkPol : rcheck (acfg true .mgga false true [] [] []) mgga_x_lta.polBody = true := by decide +kernel
theorem mgga_x_lta_definedPol : DefinedPol {tPos := true} .mgga mgga_x_lta :=
  definedPol_of _ mgga_x_lta_neverRaises (par := []) (npar := []) (flds := []) rfl rfl rfl (acheck_of_rcheck mgga_x_lta_checkPol)
theorem mgga_x_lta_regularPol : RegularPol {tPos := true} .mgga mgga_x_lta :=
  regularPol_of _ (par := []) (npar := []) (flds := []) rfl rfl rfl mgga_x_lta_checkPol
theorem mgga_x_m06l_checkUnpol : rcheck (acfg false .mgga false false [] [] []) mgga_x_m06l.unpolBody = true := by decide +kernel
theorem mgga_x_m06l_definedUnpol : DefinedUnpol {} .mgga mgga_x_m06l :=
  definedUnpol_of _ mgga_x_m06l_neverRaises (par := []) (npar := []) (flds := []) rfl rfl rfl (acheck_of_rcheck mgga_x_m06l_checkUnpol)
theorem mgga_x_m06l_regularUnpol : RegularUnpol {} .mgga mgga_x_m06l :=
  regularUnpol_of _ (par := []) (npar := []) (flds := []) rfl rfl rfl mgga_x_m06l_checkUnpol
theorem mgga_x_m06l_checkPol : rcheck (acfg true .mgga false false [] [] []) mgga_x_m06l.polBody = true := by decide +kernel
theorem mgga_x_m06l_definedPol : DefinedPol {} .mgga mgga_x_m06l :=
  definedPol_of _ mgga_x_m06l_neverRaises (par := []) (npar := []) (flds := []) rfl rfl rfl (acheck_of_rcheck mgga_x_m06l_checkPol)
theorem mgga_x_m06l_regularPol : RegularPol {} .mgga mgga_x_m06l :=
  regularPol_of _ (par := []) (npar := []) (flds := []) rfl rfl rfl mgga_x_m06l_checkPol
theorem mgga_x_m08_checkUnpol : rcheck (acfg false .mgga false false [] [] []) mgga_x_m08.unpolBody = true := by decide +kernel
theorem mgga_x_m08_definedUnpol : DefinedUnpol {} .mgga mgga_x_m08 :=
  definedUnpol_of _ mgga_x_m08_neverRaises (par := []) (npar := []) (flds := []) rfl rfl rfl (acheck_of_rcheck mgga_x_m08_checkUnpol)
theorem mgga_x_m08_regularUnpol : RegularUnpol {} .mgga mgga_x_m08 :=
  regularUnpol_of _ (par := []) (npar := []) (flds := []) rfl rfl rfl mgga_x_m08_checkUnpol
theorem mgga_x_m08_checkPol : rcheck (acfg true .mgga false false [] [] []) mgga_x_m08.polBody = true := by decide +kernel
theorem mgga_x_m08_definedPol : DefinedPol {} .mgga mgga_x_m08 :=
  definedPol_of _ mgga_x_m08_neverRaises (par := []) (npar := []) (flds := []) rfl rfl rfl (acheck_of_rcheck mgga_x_m08_checkPol)
theorem mgga_x_m08_regularPol : RegularPol {} .mgga mgga_x_m08 :=
  regularPol_of _ (par := []) (npar := []) (flds := []) rfl rfl rfl mgga_x_m08_checkPol
theorem mgga_x_m11_checkUnpol : rcheck (acfg false .mgga false false [] [] [2]) mgga_x_m11.unpolBody = true := by decide +kernel
theorem mgga_x_m11_definedUnpol : DefinedUnpol {flds := [.camOmega]} .mgga mgga_x_m11 :=
  definedUnpol_of _ mgga_x_m11_neverRaises (par := []) (npar := []) (flds := [2]) rfl rfl rfl (acheck_of_rcheck mgga_x_m11_checkUnpol)
theorem mgga_x_m11_regularUnpol : RegularUnpol {flds := [.camOmega]} .mgga mgga_x_m11 :=
  regularUnpol_of _ (par := []) (npar := []) (flds := [2]) rfl rfl rfl mgga_x_m11_checkUnpol
theorem mgga_x_m11_checkPol : rcheck (acfg true .mgga false false [] [] [2]) mgga_x_m11.polBody = true := by decide +kernel
theorem mgga_x_m11_definedPol : DefinedPol {flds := [.camOmega]} .mgga mgga_x_m11 :=
  definedPol_of _ mgga_x_m11_neverRaises (par := []) (npar := []) (flds := [2]) rfl rfl rfl (acheck_of_rcheck mgga_x_m11_checkPol)
theorem mgga_x_m11_regularPol : RegularPol {flds := [.camOmega]} .mgga mgga_x_m11 :=
  regularPol_of _ (par := []) (npar := []) (flds := [2]) rfl rfl rfl mgga_x_m11_checkPol
theorem mgga_x_m11_l_checkUnpol : rcheck (acfg false .mgga false false [] [] [2]) mgga_x_m11_l.unpolBody = true := by decide +kernel
theorem mgga_x_m11_l_definedUnpol : DefinedUnpol {flds := [.camOmega]} .mgga mgga_x_m11_l :=
  definedUnpol_of _ mgga_x_m11_l_neverRaises (par := []) (npar := []) (flds := [2]) rfl rfl rfl (acheck_of_rcheck mgga_x_m11_l_checkUnpol)
theorem mgga_x_m11_l_regularUnpol : RegularUnpol {flds := [.camOmega]} .mgga mgga_x_m11_l :=
  regularUnpol_of _ (par := []) (npar := []) (flds := [2]) rfl rfl rfl mgga_x_m11_l_checkUnpol
theorem mgga_x_m11_l_checkPol : rcheck (acfg true .mgga false false [] [] [2]) mgga_x_m11_l.polBody = true := by decide +kernel
theorem mgga_x_m11_l_definedPol : DefinedPol {flds := [.camOmega]} .mgga mgga_x_m11_l :=
  definedPol_of _ mgga_x_m11_l_neverRaises (par := []) (npar := []) (flds := [2]) rfl rfl rfl (acheck_of_rcheck mgga_x_m11_l_checkPol)
theorem mgga_x_m11_l_regularPol : RegularPol {flds := [.camOmega]} .mgga mgga_x_m11_l :=
  regularPol_of _ (par := []) (npar := []) (flds := [2]) rfl rfl rfl mgga_x_m11_l_checkPol
theorem mgga_x_mn12_checkUnpol : rcheck (acfg false .mgga false false [] [] []) mgga_x_mn12.unpolBody = true := by decide +kernel
theorem mgga_x_mn12_definedUnpol : DefinedUnpol {} .mgga mgga_x_mn12 :=
  definedUnpol_of _ mgga_x_mn12_neverRaises (par := []) (npar := []) (flds := []) rfl rfl rfl (acheck_of_rcheck mgga_x_mn12_checkUnpol)
theorem mgga_x_mn12_regularUnpol : RegularUnpol {} .mgga mgga_x_mn12 :=
  regularUnpol_of _ (par := []) (npar := []) (flds := []) rfl rfl rfl mgga_x_mn12_checkUnpol
theorem mgga_x_mn12_checkPol : rcheck (acfg true .mgga false false [] [] []) mgga_x_mn12.polBody = true := by decide +kernel
theorem mgga_x_mn12_definedPol : DefinedPol {} .mgga mgga_x_mn12 :=
  definedPol_of _ mgga_x_mn12_neverRaises (par := []) (npar := []) (flds := []) rfl rfl rfl (acheck_of_rcheck mgga_x_mn12_checkPol)
theorem mgga_x_mn12_regularPol : RegularPol {} .mgga mgga_x_mn12 :=
  regularPol_of _ (par := []) (npar := []) (flds := []) rfl rfl rfl mgga_x_mn12_checkPol
theorem mgga_x_mvs_checkUnpol : rcheck (acfg false .mgga false false [98, 25393, 25905] [] []) mgga_x_mvs.unpolBody = true := by decide +kernel
theorem mgga_x_mvs_definedUnpol : DefinedUnpol {params := ["b", "c1", "e1"]} .mgga mgga_x_mvs :=
  definedUnpol_of _ mgga_x_mvs_neverRaises (par := [98, 25393, 25905]) (npar := []) (flds := []) (by simp [nameCode, nameCodeChars]) rfl rfl (acheck_of_rcheck mgga_x_mvs_checkUnpol)
theorem mgga_x_mvs_regularUnpol : RegularUnpol {params := ["b", "c1", "e1"]} .mgga mgga_x_mvs :=
  regularUnpol_of _ (par := [98, 25393, 25905]) (npar := []) (flds := []) (by simp [nameCode, nameCodeChars]) rfl rfl mgga_x_mvs_checkUnpol
theorem mgga_x_mvs_checkPol : rcheck (acfg true .mgga false false [98, 25393, 25905] [] []) mgga_x_mvs.polBody = true := by decide +kernel
theorem mgga_x_mvs_definedPol : DefinedPol {params := ["b", "c1", "e1"]} .mgga mgga_x_mvs :=
  definedPol_of _ mgga_x_mvs_neverRaises (par := [98, 25393, 25905]) (npar := []) (flds := []) (by simp [nameCode, nameCodeChars]) rfl rfl (acheck_of_rcheck mgga_x_mvs_checkPol)
theorem mgga_x_mvs_regularPol : RegularPol {params := ["b", "c1", "e1"]} .mgga mgga_x_mvs :=
  regularPol_of _ (par := [98, 25393, 25905]) (npar := []) (flds := []) (by simp [nameCode, nameCodeChars]) rfl rfl mgga_x_mvs_checkPol
theorem mgga_x_tau_hcth_checkUnpol : rcheck (acfg false .mgga false false [] [] []) mgga_x_tau_hcth.unpolBody = true := by decide +kernel
theorem mgga_x_tau_hcth_definedUnpol : DefinedUnpol {} .mgga mgga_x_tau_hcth :=
  definedUnpol_of _ mgga_x_tau_hcth_neverRaises (par := []) (npar := []) (flds := []) rfl rfl rfl (acheck_of_rcheck mgga_x_tau_hcth_checkUnpol)
theorem mgga_x_tau_hcth_regularUnpol : RegularUnpol {} .mgga mgga_x_tau_hcth :=
  regularUnpol_of _ (par := []) (npar := []) (flds := []) rfl rfl rfl mgga_x_tau_hcth_checkUnpol
theorem mgga_x_tau_hcth_checkPol : rcheck (acfg true .mgga false false [] [] []) mgga_x_tau_hcth.polBody = true := by decide +kernel
theorem mgga_x_tau_hcth_definedPol : DefinedPol {} .mgga mgga_x_tau_hcth :=
  definedPol_of _ mgga_x_tau_hcth_neverRaises (par := []) (npar := []) (flds := []) rfl rfl rfl (acheck_of_rcheck mgga_x_tau_hcth_checkPol)
theorem mgga_x_tau_hcth_regularPol : RegularPol {} .mgga mgga_x_tau_hcth :=
  regularPol_of _ (par := []) (npar := []) (flds := []) rfl rfl rfl mgga_x_tau_hcth_checkPol
theorem mgga_x_th_checkUnpol : rcheck (acfg false .mgga false true [] [] []) mgga_x_th.unpolBody = true := by decide +kernel
theorem mgga_x_th_definedUnpol : DefinedUnpol {tPos := true} .mgga mgga_x_th :=
  definedUnpol_of _ mgga_x_th_neverRaises (par := []) (npar := []) (flds := []) rfl rfl rfl (acheck_of_rcheck mgga_x_th_checkUnpol)
theorem mgga_x_th_regularUnpol : RegularUnpol {tPos := true} .mgga mgga_x_th :=
  regularUnpol_of _ (par := []) (npar := []) (flds := []) rfl rfl rfl mgga_x_th_checkUnpol
theorem mgga_x_th_checkPol : rcheck (acfg true .mgga false true [] [] []) mgga_x_th.polBody = true := by decide +kernel
theorem mgga_x_th_definedPol : DefinedPol {tPos := true} .mgga mgga_x_th :=
  definedPol_of _ mgga_x_th_neverRaises (par := []) (npar := []) (flds := []) rfl rfl rfl (acheck_of_rcheck mgga_x_th_checkPol)
theorem mgga_x_th_regularPol : RegularPol {tPos := true} .mgga mgga_x_th :=
  regularPol_of _ (par := []) (npar := []) (flds := []) rfl rfl rfl mgga_x_th_checkPol
theorem mgga_xc_b97mv_checkUnpol : rcheck (acfg false .mgga false true [] [] []) mgga_xc_b97mv.unpolBody = true := by decide +kernel
theorem mgga_xc_b97mv_definedUnpol : DefinedUnpol {tPos := true} .mgga mgga_xc_b97mv :=
  definedUnpol_of _ mgga_xc_b97mv_neverRaises (par := []) (npar := []) (flds := []) rfl rfl rfl (acheck_of_rcheck mgga_xc_b97mv_checkUnpol)
theorem mgga_xc_b97mv_regularUnpol : RegularUnpol {tPos := true} .mgga mgga_xc_b97mv :=
  regularUnpol_of _ (par := []) (npar := []) (flds := []) rfl rfl rfl mgga_xc_b97mv_checkUnpol
theorem mgga_xc_b97mv_checkPol : rcheck (acfg true .mgga false true [] [] []) mgga_xc_b97mv.polBody = true := by decide +kernel
theorem mgga_xc_b97mv_definedPol : DefinedPol {tPos := true} .mgga mgga_xc_b97mv :=
  definedPol_of _ mgga_xc_b97mv_neverRaises (par := []) (npar := []) (flds := []) rfl rfl rfl (acheck_of_rcheck mgga_xc_b97mv_checkPol)
theorem mgga_xc_b97mv_regularPol : RegularPol {tPos := true} .mgga mgga_xc_b97mv :=
  regularPol_of _ (par := []) (npar := []) (flds := []) rfl rfl rfl mgga_xc_b97mv_checkPol
theorem mgga_xc_b98_checkUnpol : rcheck (acfg false .mgga false true [] [] []) mgga_xc_b98.unpolBody = true := by decide +kernel
theorem mgga_xc_b98_definedUnpol : DefinedUnpol {tPos := true} .mgga mgga_xc_b98 :=
  definedUnpol_of _ mgga_xc_b98_neverRaises (par := []) (npar := []) (flds := []) rfl rfl rfl (acheck_of_rcheck mgga_xc_b98_checkUnpol)
theorem mgga_xc_b98_regularUnpol : RegularUnpol {tPos := true} .mgga mgga_xc_b98 :=
  regularUnpol_of _ (par := []) (npar := []) (flds := []) rfl rfl rfl mgga_xc_b98_checkUnpol
theorem mgga_xc_b98_checkPol : rcheck (acfg true .mgga false true [] [] []) mgga_xc_b98.polBody = true := by decide +kernel
theorem mgga_xc_b98_definedPol : DefinedPol {tPos := true} .mgga mgga_xc_b98 :=
  definedPol_of _ mgga_xc_b98_neverRaises (par := []) (npar := []) (flds := []) rfl rfl rfl (acheck_of_rcheck mgga_xc_b98_checkPol)
theorem mgga_xc_b98_regularPol : RegularPol {tPos := true} .mgga mgga_xc_b98 :=
  regularPol_of _ (par := []) (npar := []) (flds := []) rfl rfl rfl mgga_xc_b98_checkPol
theorem mgga_xc_lp90_checkUnpol : rcheck (acfg false .mgga false false [] [] []) mgga_xc_lp90.unpolBody = true := by decide +kernel
theorem mgga_xc_lp90_definedUnpol : DefinedUnpol {} .mgga mgga_xc_lp90 :=
  definedUnpol_of _ mgga_xc_lp90_neverRaises (par := []) (npar := []) (flds := []) rfl rfl rfl (acheck_of_rcheck mgga_xc_lp90_checkUnpol)
theorem mgga_xc_lp90_regularUnpol : RegularUnpol {} .mgga mgga_xc_lp90 :=
  regularUnpol_of _ (par := []) (npar := []) (flds := []) rfl rfl rfl mgga_xc_lp90_checkUnpol
theorem mgga_xc_lp90_definedPol : DefinedPol {} .mgga mgga_xc_lp90 :=
  definedPol_of _ mgga_xc_lp90_neverRaises (par := []) (npar := []) (flds := []) rfl rfl rfl (by decide +kernel)
theorem mgga_xc_zlp_checkUnpol : rcheck (acfg false .mgga false false [] [] []) mgga_xc_zlp.unpolBody = true := by decide +kernel
theorem mgga_xc_zlp_definedUnpol : DefinedUnpol {} .mgga mgga_xc_zlp :=
  definedUnpol_of _ mgga_xc_zlp_neverRaises (par := []) (npar := []) (flds := []) rfl rfl rfl (acheck_of_rcheck mgga_xc_zlp_checkUnpol)
theorem mgga_xc_zlp_regularUnpol : RegularUnpol {} .mgga mgga_xc_zlp :=
  regularUnpol_of _ (par := []) (npar := []) (flds := []) rfl rfl rfl mgga_xc_zlp_checkUnpol
theorem mgga_xc_zlp_definedPol : DefinedPol {} .mgga mgga_xc_zlp :=
  definedPol_of _ mgga_xc_zlp_neverRaises (par := []) (npar := []) (flds := []) rfl rfl rfl (by decide +kernel)

end Verif.Props
