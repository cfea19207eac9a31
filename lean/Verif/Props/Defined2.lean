import Verif.Norm.Regular
import Verif.Props.Static2
/-!
# C49, C52: formulas that are defined, and smooth, on their domain
-/
set_option Elab.async false
set_option maxRecDepth 100000
namespace Verif.Props
open Verif.Py Verif.Model Verif.Spec Verif.Norm Verif.Data

theorem gga_x_htbs_regularUnpol : RegularUnpol {sPos := true} .gga gga_x_htbs :=
  regularUnpol_of _ (par := []) (npar := []) (flds := []) rfl rfl rfl (by decide +kernel)
theorem gga_x_htbs_definedUnpol : DefinedUnpol {} .gga gga_x_htbs :=
  definedUnpol_of _ gga_x_htbs_neverRaises (par := []) (npar := []) (flds := []) rfl rfl rfl (by decide +kernel)
theorem gga_x_htbs_regularPol : RegularPol {sPos := true} .gga gga_x_htbs :=
  regularPol_of _ (par := []) (npar := []) (flds := []) rfl rfl rfl (by decide +kernel)
theorem gga_x_htbs_definedPol : DefinedPol {} .gga gga_x_htbs :=
  definedPol_of _ gga_x_htbs_neverRaises (par := []) (npar := []) (flds := []) rfl rfl rfl (by decide +kernel)
theorem gga_x_ityh_regularUnpol : RegularUnpol {sPos := true, flds := [.camOmega]} .gga gga_x_ityh :=
  regularUnpol_of _ (par := []) (npar := []) (flds := [2]) rfl rfl rfl (by decide +kernel)
theorem gga_x_ityh_definedUnpol : DefinedUnpol {flds := [.camOmega]} .gga gga_x_ityh :=
  definedUnpol_of _ gga_x_ityh_neverRaises (par := []) (npar := []) (flds := [2]) rfl rfl rfl (by decide +kernel)
theorem gga_x_ityh_regularPol : RegularPol {sPos := true, flds := [.camOmega]} .gga gga_x_ityh :=
  regularPol_of _ (par := []) (npar := []) (flds := [2]) rfl rfl rfl (by decide +kernel)
theorem gga_x_ityh_definedPol : DefinedPol {flds := [.camOmega]} .gga gga_x_ityh :=
  definedPol_of _ gga_x_ityh_neverRaises (par := []) (npar := []) (flds := [2]) rfl rfl rfl (by decide +kernel)
theorem gga_x_ityh_optx_checkUnpol : rcheck (acfg false .gga false false [97, 98] [] [2]) gga_x_ityh_optx.unpolBody = true := by decide +kernel
theorem gga_x_ityh_optx_definedUnpol : DefinedUnpol {params := ["a", "b"], flds := [.camOmega]} .gga gga_x_ityh_optx :=
  definedUnpol_of _ gga_x_ityh_optx_neverRaises (par := [97, 98]) (npar := []) (flds := [2]) (by simp [nameCode, nameCodeChars]) rfl rfl (acheck_of_rcheck gga_x_ityh_optx_checkUnpol)
theorem gga_x_ityh_optx_regularUnpol : RegularUnpol {params := ["a", "b"], flds := [.camOmega]} .gga gga_x_ityh_optx :=
  regularUnpol_of _ (par := [97, 98]) (npar := []) (flds := [2]) (by simp [nameCode, nameCodeChars]) rfl rfl gga_x_ityh_optx_checkUnpol
theorem gga_x_ityh_optx_checkPol : rcheck (acfg true .gga false false [97, 98] [] [2]) gga_x_ityh_optx.polBody = true := by decide +kernel
theorem gga_x_ityh_optx_definedPol : DefinedPol {params := ["a", "b"], flds := [.camOmega]} .gga gga_x_ityh_optx :=
  definedPol_of _ gga_x_ityh_optx_neverRaises (par := [97, 98]) (npar := []) (flds := [2]) (by simp [nameCode, nameCodeChars]) rfl rfl (acheck_of_rcheck gga_x_ityh_optx_checkPol)
theorem gga_x_ityh_optx_regularPol : RegularPol {params := ["a", "b"], flds := [.camOmega]} .gga gga_x_ityh_optx :=
  regularPol_of _ (par := [97, 98]) (npar := []) (flds := [2]) (by simp [nameCode, nameCodeChars]) rfl rfl gga_x_ityh_optx_checkPol
theorem gga_x_kt_checkUnpol : rcheck (acfg false .gga false false [431198336097] [] []) gga_x_kt.unpolBody = true := by decide +kernel
theorem gga_x_kt_definedUnpol : DefinedUnpol {params := ["delta"]} .gga gga_x_kt :=
  definedUnpol_of _ gga_x_kt_neverRaises (par := [431198336097]) (npar := []) (flds := []) (by simp [nameCode, nameCodeChars]) rfl rfl (acheck_of_rcheck gga_x_kt_checkUnpol)
theorem gga_x_kt_regularUnpol : RegularUnpol {params := ["delta"]} .gga gga_x_kt :=
  regularUnpol_of _ (par := [431198336097]) (npar := []) (flds := []) (by simp [nameCode, nameCodeChars]) rfl rfl gga_x_kt_checkUnpol
theorem gga_x_kt_checkPol : rcheck (acfg true .gga false false [431198336097] [] []) gga_x_kt.polBody = true := by decide +kernel
theorem gga_x_kt_definedPol : DefinedPol {params := ["delta"]} .gga gga_x_kt :=
  definedPol_of _ gga_x_kt_neverRaises (par := [431198336097]) (npar := []) (flds := []) (by simp [nameCode, nameCodeChars]) rfl rfl (acheck_of_rcheck gga_x_kt_checkPol)
theorem gga_x_kt_regularPol : RegularPol {params := ["delta"]} .gga gga_x_kt :=
  regularPol_of _ (par := [431198336097]) (npar := []) (flds := []) (by simp [nameCode, nameCodeChars]) rfl rfl gga_x_kt_checkPol
theorem gga_x_lag_regularUnpol : RegularUnpol {sPos := true} .gga gga_x_lag :=
  regularUnpol_of _ (par := []) (npar := []) (flds := []) rfl rfl rfl (by decide +kernel)
theorem gga_x_lag_definedUnpol : DefinedUnpol {} .gga gga_x_lag :=
  definedUnpol_of _ gga_x_lag_neverRaises (par := []) (npar := []) (flds := []) rfl rfl rfl (by decide +kernel)
theorem gga_x_lag_regularPol : RegularPol {sPos := true} .gga gga_x_lag :=
  regularPol_of _ (par := []) (npar := []) (flds := []) rfl rfl rfl (by decide +kernel)
theorem gga_x_lag_definedPol : DefinedPol {} .gga gga_x_lag :=
  definedPol_of _ gga_x_lag_neverRaises (par := []) (npar := []) (flds := []) rfl rfl rfl (by decide +kernel)
theorem gga_x_lg93_checkUnpol : rcheck (acfg false .gga false false [] [] []) gga_x_lg93.unpolBody = true := by decide +kernel
theorem gga_x_lg93_definedUnpol : DefinedUnpol {} .gga gga_x_lg93 :=
  definedUnpol_of _ gga_x_lg93_neverRaises (par := []) (npar := []) (flds := []) rfl rfl rfl (acheck_of_rcheck gga_x_lg93_checkUnpol)
theorem gga_x_lg93_regularUnpol : RegularUnpol {} .gga gga_x_lg93 :=
  regularUnpol_of _ (par := []) (npar := []) (flds := []) rfl rfl rfl gga_x_lg93_checkUnpol
theorem gga_x_lg93_checkPol : rcheck (acfg true .gga false false [] [] []) gga_x_lg93.polBody = true := by decide +kernel
theorem gga_x_lg93_definedPol : DefinedPol {} .gga gga_x_lg93 :=
  definedPol_of _ gga_x_lg93_neverRaises (par := []) (npar := []) (flds := []) rfl rfl rfl (acheck_of_rcheck gga_x_lg93_checkPol)
theorem gga_x_lg93_regularPol : RegularPol {} .gga gga_x_lg93 :=
  regularPol_of _ (par := []) (npar := []) (flds := []) rfl rfl rfl gga_x_lg93_checkPol
theorem gga_x_lspbe_checkUnpol : rcheck (acfg false .gga false false [461196259425, 28021] [] []) gga_x_lspbe.unpolBody = true := by decide +kernel
theorem gga_x_lspbe_definedUnpol : DefinedUnpol {params := ["kappa", "mu"]} .gga gga_x_lspbe :=
  definedUnpol_of _ gga_x_lspbe_neverRaises (par := [461196259425, 28021]) (npar := []) (flds := []) (by simp [nameCode, nameCodeChars]) rfl rfl (acheck_of_rcheck gga_x_lspbe_checkUnpol)
theorem gga_x_lspbe_regularUnpol : RegularUnpol {params := ["kappa", "mu"]} .gga gga_x_lspbe :=
  regularUnpol_of _ (par := [461196259425, 28021]) (npar := []) (flds := []) (by simp [nameCode, nameCodeChars]) rfl rfl gga_x_lspbe_checkUnpol
theorem gga_x_lspbe_checkPol : rcheck (acfg true .gga false false [461196259425, 28021] [] []) gga_x_lspbe.polBody = true := by decide +kernel
theorem gga_x_lspbe_definedPol : DefinedPol {params := ["kappa", "mu"]} .gga gga_x_lspbe :=
  definedPol_of _ gga_x_lspbe_neverRaises (par := [461196259425, 28021]) (npar := []) (flds := []) (by simp [nameCode, nameCodeChars]) rfl rfl (acheck_of_rcheck gga_x_lspbe_checkPol)
theorem gga_x_lspbe_regularPol : RegularPol {params := ["kappa", "mu"]} .gga gga_x_lspbe :=
  regularPol_of _ (par := [461196259425, 28021]) (npar := []) (flds := []) (by simp [nameCode, nameCodeChars]) rfl rfl gga_x_lspbe_checkPol
theorem gga_x_lsrpbe_checkUnpol : rcheck (acfg false .gga false false [461196259425] [] []) gga_x_lsrpbe.unpolBody = true := by decide +kernel
theorem gga_x_lsrpbe_definedUnpol : DefinedUnpol {params := ["kappa"]} .gga gga_x_lsrpbe :=
  definedUnpol_of _ gga_x_lsrpbe_neverRaises (par := [461196259425]) (npar := []) (flds := []) (by simp [nameCode, nameCodeChars]) rfl rfl (acheck_of_rcheck gga_x_lsrpbe_checkUnpol)
theorem gga_x_lsrpbe_regularUnpol : RegularUnpol {params := ["kappa"]} .gga gga_x_lsrpbe :=
  regularUnpol_of _ (par := [461196259425]) (npar := []) (flds := []) (by simp [nameCode, nameCodeChars]) rfl rfl gga_x_lsrpbe_checkUnpol
theorem gga_x_lsrpbe_checkPol : rcheck (acfg true .gga false false [461196259425] [] []) gga_x_lsrpbe.polBody = true := by decide +kernel
theorem gga_x_lsrpbe_definedPol : DefinedPol {params := ["kappa"]} .gga gga_x_lsrpbe :=
  definedPol_of _ gga_x_lsrpbe_neverRaises (par := [461196259425]) (npar := []) (flds := []) (by simp [nameCode, nameCodeChars]) rfl rfl (acheck_of_rcheck gga_x_lsrpbe_checkPol)
theorem gga_x_lsrpbe_regularPol : RegularPol {params := ["kappa"]} .gga gga_x_lsrpbe :=
  regularPol_of _ (par := [461196259425]) (npar := []) (flds := []) (by simp [nameCode, nameCodeChars]) rfl rfl gga_x_lsrpbe_checkPol
theorem gga_x_lv_rpw86_checkUnpol : rcheck (acfg false .gga false false [] [] []) gga_x_lv_rpw86.unpolBody = true := by decide +kernel
theorem gga_x_lv_rpw86_definedUnpol : DefinedUnpol {} .gga gga_x_lv_rpw86 :=
  definedUnpol_of _ gga_x_lv_rpw86_neverRaises (par := []) (npar := []) (flds := []) rfl rfl rfl (acheck_of_rcheck gga_x_lv_rpw86_checkUnpol)
theorem gga_x_lv_rpw86_regularUnpol : RegularUnpol {} .gga gga_x_lv_rpw86 :=
  regularUnpol_of _ (par := []) (npar := []) (flds := []) rfl rfl rfl gga_x_lv_rpw86_checkUnpol
theorem gga_x_lv_rpw86_checkPol : rcheck (acfg true .gga false false [] [] []) gga_x_lv_rpw86.polBody = true := by decide +kernel
theorem gga_x_lv_rpw86_definedPol : DefinedPol {} .gga gga_x_lv_rpw86 :=
  definedPol_of _ gga_x_lv_rpw86_neverRaises (par := []) (npar := []) (flds := []) rfl rfl rfl (acheck_of_rcheck gga_x_lv_rpw86_checkPol)
theorem gga_x_lv_rpw86_regularPol : RegularPol {} .gga gga_x_lv_rpw86 :=
  regularPol_of _ (par := []) (npar := []) (flds := []) rfl rfl rfl gga_x_lv_rpw86_checkPol
theorem gga_x_mpbe_checkUnpol : rcheck (acfg false .gga false false [97] [] []) gga_x_mpbe.unpolBody = true := by decide +kernel
theorem gga_x_mpbe_definedUnpol : DefinedUnpol {params := ["a"]} .gga gga_x_mpbe :=
  definedUnpol_of _ gga_x_mpbe_neverRaises (par := [97]) (npar := []) (flds := []) (by simp [nameCode, nameCodeChars]) rfl rfl (acheck_of_rcheck gga_x_mpbe_checkUnpol)
theorem gga_x_mpbe_regularUnpol : RegularUnpol {params := ["a"]} .gga gga_x_mpbe :=
  regularUnpol_of _ (par := [97]) (npar := []) (flds := []) (by simp [nameCode, nameCodeChars]) rfl rfl gga_x_mpbe_checkUnpol
theorem gga_x_mpbe_checkPol : rcheck (acfg true .gga false false [97] [] []) gga_x_mpbe.polBody = true := by decide +kernel
theorem gga_x_mpbe_definedPol : DefinedPol {params := ["a"]} .gga gga_x_mpbe :=
  definedPol_of _ gga_x_mpbe_neverRaises (par := [97]) (npar := []) (flds := []) (by simp [nameCode, nameCodeChars]) rfl rfl (acheck_of_rcheck gga_x_mpbe_checkPol)
theorem gga_x_mpbe_regularPol : RegularPol {params := ["a"]} .gga gga_x_mpbe :=
  regularPol_of _ (par := [97]) (npar := []) (flds := []) (by simp [nameCode, nameCodeChars]) rfl rfl gga_x_mpbe_checkPol
theorem gga_x_n12_checkUnpol : rcheck (acfg false .gga false false [] [] []) gga_x_n12.unpolBody = true := by decide +kernel
theorem gga_x_n12_definedUnpol : DefinedUnpol {} .gga gga_x_n12 :=
  definedUnpol_of _ gga_x_n12_neverRaises (par := []) (npar := []) (flds := []) rfl rfl rfl (acheck_of_rcheck gga_x_n12_checkUnpol)
theorem gga_x_n12_regularUnpol : RegularUnpol {} .gga gga_x_n12 :=
  regularUnpol_of _ (par := []) (npar := []) (flds := []) rfl rfl rfl gga_x_n12_checkUnpol
theorem gga_x_n12_checkPol : rcheck (acfg true .gga false false [] [] []) gga_x_n12.polBody = true := by decide +kernel
theorem gga_x_n12_definedPol : DefinedPol {} .gga gga_x_n12 :=
  definedPol_of _ gga_x_n12_neverRaises (par := []) (npar := []) (flds := []) rfl rfl rfl (acheck_of_rcheck gga_x_n12_checkPol)
theorem gga_x_n12_regularPol : RegularPol {} .gga gga_x_n12 :=
  regularPol_of _ (par := []) (npar := []) (flds := []) rfl rfl rfl gga_x_n12_checkPol
theorem gga_x_ncap_regularUnpol : RegularUnpol {sPos := true, params := ["beta"]} .gga gga_x_ncap :=
  regularUnpol_of _ (par := [1650816097]) (npar := []) (flds := []) (by simp [nameCode, nameCodeChars]) rfl rfl (by decide +kernel)
theorem gga_x_ncap_definedUnpol : DefinedUnpol {params := ["beta"]} .gga gga_x_ncap :=
  definedUnpol_of _ gga_x_ncap_neverRaises (par := [1650816097]) (npar := []) (flds := []) (by simp [nameCode, nameCodeChars]) rfl rfl (by decide +kernel)
theorem gga_x_ncap_regularPol : RegularPol {sPos := true, params := ["beta"]} .gga gga_x_ncap :=
  regularPol_of _ (par := [1650816097]) (npar := []) (flds := []) (by simp [nameCode, nameCodeChars]) rfl rfl (by decide +kernel)
theorem gga_x_ncap_definedPol : DefinedPol {params := ["beta"]} .gga gga_x_ncap :=
  definedPol_of _ gga_x_ncap_neverRaises (par := [1650816097]) (npar := []) (flds := []) (by simp [nameCode, nameCodeChars]) rfl rfl (by decide +kernel)
theorem gga_x_ol2_regularUnpol : RegularUnpol {sPos := true} .gga gga_x_ol2 :=
  regularUnpol_of _ (par := []) (npar := []) (flds := []) rfl rfl rfl (by decide +kernel)
theorem gga_x_ol2_definedUnpol : DefinedUnpol {} .gga gga_x_ol2 :=
  definedUnpol_of _ gga_x_ol2_neverRaises (par := []) (npar := []) (flds := []) rfl rfl rfl (by decide +kernel)
theorem gga_x_ol2_regularPol : RegularPol {sPos := true} .gga gga_x_ol2 :=
  regularPol_of _ (par := []) (npar := []) (flds := []) rfl rfl rfl (by decide +kernel)
theorem gga_x_ol2_definedPol : DefinedPol {} .gga gga_x_ol2 :=
  definedPol_of _ gga_x_ol2_neverRaises (par := []) (npar := []) (flds := []) rfl rfl rfl (by decide +kernel)
theorem gga_x_optx_checkUnpol : rcheck (acfg false .gga false false [444016192865] [] []) gga_x_optx.unpolBody = true := by decide +kernel
theorem gga_x_optx_definedUnpol : DefinedUnpol {params := ["gamma"]} .gga gga_x_optx :=
  definedUnpol_of _ gga_x_optx_neverRaises (par := [444016192865]) (npar := []) (flds := []) (by simp [nameCode, nameCodeChars]) rfl rfl (acheck_of_rcheck gga_x_optx_checkUnpol)
theorem gga_x_optx_regularUnpol : RegularUnpol {params := ["gamma"]} .gga gga_x_optx :=
  regularUnpol_of _ (par := [444016192865]) (npar := []) (flds := []) (by simp [nameCode, nameCodeChars]) rfl rfl gga_x_optx_checkUnpol
theorem gga_x_optx_checkPol : rcheck (acfg true .gga false false [444016192865] [] []) gga_x_optx.polBody = true := by decide +kernel
theorem gga_x_optx_definedPol : DefinedPol {params := ["gamma"]} .gga gga_x_optx :=
  definedPol_of _ gga_x_optx_neverRaises (par := [444016192865]) (npar := []) (flds := []) (by simp [nameCode, nameCodeChars]) rfl rfl (acheck_of_rcheck gga_x_optx_checkPol)
theorem gga_x_optx_regularPol : RegularPol {params := ["gamma"]} .gga gga_x_optx :=
  regularPol_of _ (par := [444016192865]) (npar := []) (flds := []) (by simp [nameCode, nameCodeChars]) rfl rfl gga_x_optx_checkPol
theorem gga_x_pbe_checkUnpol : rcheck (acfg false .gga false false [461196259425, 28021] [] []) gga_x_pbe.unpolBody = true := by decide +kernel
theorem gga_x_pbe_definedUnpol : DefinedUnpol {params := ["kappa", "mu"]} .gga gga_x_pbe :=
  definedUnpol_of _ gga_x_pbe_neverRaises (par := [461196259425, 28021]) (npar := []) (flds := []) (by simp [nameCode, nameCodeChars]) rfl rfl (acheck_of_rcheck gga_x_pbe_checkUnpol)
theorem gga_x_pbe_regularUnpol : RegularUnpol {params := ["kappa", "mu"]} .gga gga_x_pbe :=
  regularUnpol_of _ (par := [461196259425, 28021]) (npar := []) (flds := []) (by simp [nameCode, nameCodeChars]) rfl rfl gga_x_pbe_checkUnpol
theorem gga_x_pbe_checkPol : rcheck (acfg true .gga false false [461196259425, 28021] [] []) gga_x_pbe.polBody = true := by decide +kernel
theorem gga_x_pbe_definedPol : DefinedPol {params := ["kappa", "mu"]} .gga gga_x_pbe :=
  definedPol_of _ gga_x_pbe_neverRaises (par := [461196259425, 28021]) (npar := []) (flds := []) (by simp [nameCode, nameCodeChars]) rfl rfl (acheck_of_rcheck gga_x_pbe_checkPol)
theorem gga_x_pbe_regularPol : RegularPol {params := ["kappa", "mu"]} .gga gga_x_pbe :=
  regularPol_of _ (par := [461196259425, 28021]) (npar := []) (flds := []) (by simp [nameCode, nameCodeChars]) rfl rfl gga_x_pbe_checkPol
theorem gga_x_pbea_checkUnpol : rcheck (acfg false .gga false false [] [] []) gga_x_pbea.unpolBody = true := by decide +kernel
theorem gga_x_pbea_definedUnpol : DefinedUnpol {} .gga gga_x_pbea :=
  definedUnpol_of _ gga_x_pbea_neverRaises (par := []) (npar := []) (flds := []) rfl rfl rfl (acheck_of_rcheck gga_x_pbea_checkUnpol)
theorem gga_x_pbea_regularUnpol : RegularUnpol {} .gga gga_x_pbea :=
  regularUnpol_of _ (par := []) (npar := []) (flds := []) rfl rfl rfl gga_x_pbea_checkUnpol
theorem gga_x_pbea_checkPol : rcheck (acfg true .gga false false [] [] []) gga_x_pbea.polBody = true := by decide +kernel
theorem gga_x_pbea_definedPol : DefinedPol {} .gga gga_x_pbea :=
  definedPol_of _ gga_x_pbea_neverRaises (par := []) (npar := []) (flds := []) rfl rfl rfl (acheck_of_rcheck gga_x_pbea_checkPol)
theorem gga_x_pbea_regularPol : RegularPol {} .gga gga_x_pbea :=
  regularPol_of _ (par := []) (npar := []) (flds := []) rfl rfl rfl gga_x_pbea_checkPol
theorem gga_x_pbepow_checkUnpol : rcheck (acfg false .gga false false [] [] []) gga_x_pbepow.unpolBody = true := by decide +kernel
theorem gga_x_pbepow_definedUnpol : DefinedUnpol {} .gga gga_x_pbepow :=
  definedUnpol_of _ gga_x_pbepow_neverRaises (par := []) (npar := []) (flds := []) rfl rfl rfl (acheck_of_rcheck gga_x_pbepow_checkUnpol)
theorem gga_x_pbepow_regularUnpol : RegularUnpol {} .gga gga_x_pbepow :=
  regularUnpol_of _ (par := []) (npar := []) (flds := []) rfl rfl rfl gga_x_pbepow_checkUnpol
theorem gga_x_pbepow_checkPol : rcheck (acfg true .gga false false [] [] []) gga_x_pbepow.polBody = true := by decide +kernel
theorem gga_x_pbepow_definedPol : DefinedPol {} .gga gga_x_pbepow :=
  definedPol_of _ gga_x_pbepow_neverRaises (par := []) (npar := []) (flds := []) rfl rfl rfl (acheck_of_rcheck gga_x_pbepow_checkPol)
theorem gga_x_pbepow_regularPol : RegularPol {} .gga gga_x_pbepow :=
  regularPol_of _ (par := []) (npar := []) (flds := []) rfl rfl rfl gga_x_pbepow_checkPol
theorem gga_x_pbetrans_regularUnpol : RegularUnpol {sPos := true} .gga gga_x_pbetrans :=
  regularUnpol_of _ (par := []) (npar := []) (flds := []) rfl rfl rfl (by decide +kernel)
theorem gga_x_pbetrans_definedUnpol : DefinedUnpol {} .gga gga_x_pbetrans :=
  definedUnpol_of _ gga_x_pbetrans_neverRaises (par := []) (npar := []) (flds := []) rfl rfl rfl (by decide +kernel)
theorem gga_x_pbetrans_regularPol : RegularPol {sPos := true} .gga gga_x_pbetrans :=
  regularPol_of _ (par := []) (npar := []) (flds := []) rfl rfl rfl (by decide +kernel)
theorem gga_x_pbetrans_definedPol : DefinedPol {} .gga gga_x_pbetrans :=
  definedPol_of _ gga_x_pbetrans_neverRaises (par := []) (npar := []) (flds := []) rfl rfl rfl (by decide +kernel)
theorem gga_x_pw86_checkUnpol : rcheck (acfg false .gga false false [24929, 25186, 25443] [] []) gga_x_pw86.unpolBody = true := by decide +kernel
theorem gga_x_pw86_definedUnpol : DefinedUnpol {params := ["aa", "bb", "cc"]} .gga gga_x_pw86 :=
  definedUnpol_of _ gga_x_pw86_neverRaises (par := [24929, 25186, 25443]) (npar := []) (flds := []) (by simp [nameCode, nameCodeChars]) rfl rfl (acheck_of_rcheck gga_x_pw86_checkUnpol)
theorem gga_x_pw86_regularUnpol : RegularUnpol {params := ["aa", "bb", "cc"]} .gga gga_x_pw86 :=
  regularUnpol_of _ (par := [24929, 25186, 25443]) (npar := []) (flds := []) (by simp [nameCode, nameCodeChars]) rfl rfl gga_x_pw86_checkUnpol
theorem gga_x_pw86_checkPol : rcheck (acfg true .gga false false [24929, 25186, 25443] [] []) gga_x_pw86.polBody = true := by decide +kernel
theorem gga_x_pw86_definedPol : DefinedPol {params := ["aa", "bb", "cc"]} .gga gga_x_pw86 :=
  definedPol_of _ gga_x_pw86_neverRaises (par := [24929, 25186, 25443]) (npar := []) (flds := []) (by simp [nameCode, nameCodeChars]) rfl rfl (acheck_of_rcheck gga_x_pw86_checkPol)
theorem gga_x_pw86_regularPol : RegularPol {params := ["aa", "bb", "cc"]} .gga gga_x_pw86 :=
  regularPol_of _ (par := [24929, 25186, 25443]) (npar := []) (flds := []) (by simp [nameCode, nameCodeChars]) rfl rfl gga_x_pw86_checkPol
theorem gga_x_pw91_regularUnpol : RegularUnpol {sPos := true, params := ["a", "b", "expo", "f"]} .gga gga_x_pw91 :=
  regularUnpol_of _ (par := [97, 98, 1702391919, 102]) (npar := []) (flds := []) (by simp [nameCode, nameCodeChars]) rfl rfl (by decide +kernel)
theorem gga_x_pw91_definedUnpol : DefinedUnpol {params := ["a", "b", "expo", "f"]} .gga gga_x_pw91 :=
  definedUnpol_of _ gga_x_pw91_neverRaises (par := [97, 98, 1702391919, 102]) (npar := []) (flds := []) (by simp [nameCode, nameCodeChars]) rfl rfl (by decide +kernel)
theorem gga_x_pw91_regularPol : RegularPol {sPos := true, params := ["a", "b", "expo", "f"]} .gga gga_x_pw91 :=
  regularPol_of _ (par := [97, 98, 1702391919, 102]) (npar := []) (flds := []) (by simp [nameCode, nameCodeChars]) rfl rfl (by decide +kernel)
theorem gga_x_pw91_definedPol : DefinedPol {params := ["a", "b", "expo", "f"]} .gga gga_x_pw91 :=
  definedPol_of _ gga_x_pw91_neverRaises (par := [97, 98, 1702391919, 102]) (npar := []) (flds := []) (by simp [nameCode, nameCodeChars]) rfl rfl (by decide +kernel)
theorem gga_x_q1d_checkUnpol : rcheck (acfg false .gga false false [] [] []) gga_x_q1d.unpolBody = true := by decide +kernel
theorem gga_x_q1d_definedUnpol : DefinedUnpol {} .gga gga_x_q1d :=
  definedUnpol_of _ gga_x_q1d_neverRaises (par := []) (npar := []) (flds := []) rfl rfl rfl (acheck_of_rcheck gga_x_q1d_checkUnpol)
theorem gga_x_q1d_regularUnpol : RegularUnpol {} .gga gga_x_q1d :=
  regularUnpol_of _ (par := []) (npar := []) (flds := []) rfl rfl rfl gga_x_q1d_checkUnpol
theorem gga_x_q1d_checkPol : rcheck (acfg true .gga false false [] [] []) gga_x_q1d.polBody = true := by decide +kernel
theorem gga_x_q1d_definedPol : DefinedPol {} .gga gga_x_q1d :=
  definedPol_of _ gga_x_q1d_neverRaises (par := []) (npar := []) (flds := []) rfl rfl rfl (acheck_of_rcheck gga_x_q1d_checkPol)
theorem gga_x_q1d_regularPol : RegularPol {} .gga gga_x_q1d :=
  regularPol_of _ (par := []) (npar := []) (flds := []) rfl rfl rfl gga_x_q1d_checkPol
theorem gga_x_q2d_regularUnpol : RegularUnpol {sPos := true} .gga gga_x_q2d :=
  regularUnpol_of _ (par := []) (npar := []) (flds := []) rfl rfl rfl (by decide +kernel)
theorem gga_x_q2d_definedUnpol : DefinedUnpol {} .gga gga_x_q2d :=
  definedUnpol_of _ gga_x_q2d_neverRaises (par := []) (npar := []) (flds := []) rfl rfl rfl (by decide +kernel)
theorem gga_x_q2d_regularPol : RegularPol {sPos := true} .gga gga_x_q2d :=
  regularPol_of _ (par := []) (npar := []) (flds := []) rfl rfl rfl (by decide +kernel)
theorem gga_x_q2d_definedPol : DefinedPol {} .gga gga_x_q2d :=
  definedPol_of _ gga_x_q2d_neverRaises (par := []) (npar := []) (flds := []) rfl rfl rfl (by decide +kernel)
theorem gga_x_rge2_checkUnpol : rcheck (acfg false .gga false false [] [] []) gga_x_rge2.unpolBody = true := by decide +kernel
theorem gga_x_rge2_definedUnpol : DefinedUnpol {} .gga gga_x_rge2 :=
  definedUnpol_of _ gga_x_rge2_neverRaises (par := []) (npar := []) (flds := []) rfl rfl rfl (acheck_of_rcheck gga_x_rge2_checkUnpol)
theorem gga_x_rge2_regularUnpol : RegularUnpol {} .gga gga_x_rge2 :=
  regularUnpol_of _ (par := []) (npar := []) (flds := []) rfl rfl rfl gga_x_rge2_checkUnpol
theorem gga_x_rge2_checkPol : rcheck (acfg true .gga false false [] [] []) gga_x_rge2.polBody = true := by decide +kernel
theorem gga_x_rge2_definedPol : DefinedPol {} .gga gga_x_rge2 :=
  definedPol_of _ gga_x_rge2_neverRaises (par := []) (npar := []) (flds := []) rfl rfl rfl (acheck_of_rcheck gga_x_rge2_checkPol)
theorem gga_x_rge2_regularPol : RegularPol {} .gga gga_x_rge2 :=
  regularPol_of _ (par := []) (npar := []) (flds := []) rfl rfl rfl gga_x_rge2_checkPol
theorem gga_x_rpbe_checkUnpol : rcheck (acfg false .gga false false [540422904561498189754465] [] []) gga_x_rpbe.unpolBody = true := by decide +kernel
theorem gga_x_rpbe_definedUnpol : DefinedUnpol {params := ["rpbe_kappa"]} .gga gga_x_rpbe :=
  definedUnpol_of _ gga_x_rpbe_neverRaises (par := [540422904561498189754465]) (npar := []) (flds := []) (by simp [nameCode, nameCodeChars]) rfl rfl (acheck_of_rcheck gga_x_rpbe_checkUnpol)
theorem gga_x_rpbe_regularUnpol : RegularUnpol {params := ["rpbe_kappa"]} .gga gga_x_rpbe :=
  regularUnpol_of _ (par := [540422904561498189754465]) (npar := []) (flds := []) (by simp [nameCode, nameCodeChars]) rfl rfl gga_x_rpbe_checkUnpol
theorem gga_x_rpbe_checkPol : rcheck (acfg true .gga false false [540422904561498189754465] [] []) gga_x_rpbe.polBody = true := by decide +kernel
theorem gga_x_rpbe_definedPol : DefinedPol {params := ["rpbe_kappa"]} .gga gga_x_rpbe :=
  definedPol_of _ gga_x_rpbe_neverRaises (par := [540422904561498189754465]) (npar := []) (flds := []) (by simp [nameCode, nameCodeChars]) rfl rfl (acheck_of_rcheck gga_x_rpbe_checkPol)
theorem gga_x_rpbe_regularPol : RegularPol {params := ["rpbe_kappa"]} .gga gga_x_rpbe :=
  regularPol_of _ (par := [540422904561498189754465]) (npar := []) (flds := []) (by simp [nameCode, nameCodeChars]) rfl rfl gga_x_rpbe_checkPol
theorem gga_x_s12_checkUnpol : rcheck (acfg false .gga false false [67, 68, 69] [] []) gga_x_s12.unpolBody = true := by decide +kernel
theorem gga_x_s12_definedUnpol : DefinedUnpol {params := ["C", "D", "E"]} .gga gga_x_s12 :=
  definedUnpol_of _ gga_x_s12_neverRaises (par := [67, 68, 69]) (npar := []) (flds := []) (by simp [nameCode, nameCodeChars]) rfl rfl (acheck_of_rcheck gga_x_s12_checkUnpol)
theorem gga_x_s12_regularUnpol : RegularUnpol {params := ["C", "D", "E"]} .gga gga_x_s12 :=
  regularUnpol_of _ (par := [67, 68, 69]) (npar := []) (flds := []) (by simp [nameCode, nameCodeChars]) rfl rfl gga_x_s12_checkUnpol
theorem gga_x_s12_checkPol : rcheck (acfg true .gga false false [67, 68, 69] [] []) gga_x_s12.polBody = true := by decide +kernel
theorem gga_x_s12_definedPol : DefinedPol {params := ["C", "D", "E"]} .gga gga_x_s12 :=
  definedPol_of _ gga_x_s12_neverRaises (par := [67, 68, 69]) (npar := []) (flds := []) (by simp [nameCode, nameCodeChars]) rfl rfl (acheck_of_rcheck gga_x_s12_checkPol)
theorem gga_x_s12_regularPol : RegularPol {params := ["C", "D", "E"]} .gga gga_x_s12 :=
  regularPol_of _ (par := [67, 68, 69]) (npar := []) (flds := []) (by simp [nameCode, nameCodeChars]) rfl rfl gga_x_s12_checkPol
theorem gga_x_sfat_regularUnpol : RegularUnpol {sPos := true, flds := [.camOmega]} .gga gga_x_sfat :=
  regularUnpol_of _ (par := []) (npar := []) (flds := [2]) rfl rfl rfl (by decide +kernel)
theorem gga_x_sfat_definedUnpol : DefinedUnpol {flds := [.camOmega]} .gga gga_x_sfat :=
  definedUnpol_of _ gga_x_sfat_neverRaises (par := []) (npar := []) (flds := [2]) rfl rfl rfl (by decide +kernel)
theorem gga_x_sfat_regularPol : RegularPol {sPos := true, flds := [.camOmega]} .gga gga_x_sfat :=
  regularPol_of _ (par := []) (npar := []) (flds := [2]) rfl rfl rfl (by decide +kernel)
theorem gga_x_sfat_definedPol : DefinedPol {flds := [.camOmega]} .gga gga_x_sfat :=
  definedPol_of _ gga_x_sfat_neverRaises (par := []) (npar := []) (flds := [2]) rfl rfl rfl (by decide +kernel)
theorem gga_x_sfat_pbe_checkUnpol : rcheck (acfg false .gga false false [] [] [2]) gga_x_sfat_pbe.unpolBody = true := by decide +kernel
theorem gga_x_sfat_pbe_definedUnpol : DefinedUnpol {flds := [.camOmega]} .gga gga_x_sfat_pbe :=
  definedUnpol_of _ gga_x_sfat_pbe_neverRaises (par := []) (npar := []) (flds := [2]) rfl rfl rfl (acheck_of_rcheck gga_x_sfat_pbe_checkUnpol)
theorem gga_x_sfat_pbe_regularUnpol : RegularUnpol {flds := [.camOmega]} .gga gga_x_sfat_pbe :=
  regularUnpol_of _ (par := []) (npar := []) (flds := [2]) rfl rfl rfl gga_x_sfat_pbe_checkUnpol
theorem gga_x_sfat_pbe_checkPol : rcheck (acfg true .gga false false [] [] [2]) gga_x_sfat_pbe.polBody = true := by decide +kernel
theorem gga_x_sfat_pbe_definedPol : DefinedPol {flds := [.camOmega]} .gga gga_x_sfat_pbe :=
  definedPol_of _ gga_x_sfat_pbe_neverRaises (par := []) (npar := []) (flds := [2]) rfl rfl rfl (acheck_of_rcheck gga_x_sfat_pbe_checkPol)
theorem gga_x_sfat_pbe_regularPol : RegularPol {flds := [.camOmega]} .gga gga_x_sfat_pbe :=
  regularPol_of _ (par := []) (npar := []) (flds := [2]) rfl rfl rfl gga_x_sfat_pbe_checkPol
theorem gga_x_sogga11_checkUnpol : rcheck (acfg false .gga false false [461196259425, 28021] [] []) gga_x_sogga11.unpolBody = true := by decide +kernel
theorem gga_x_sogga11_definedUnpol : DefinedUnpol {params := ["kappa", "mu"]} .gga gga_x_sogga11 :=
  definedUnpol_of _ gga_x_sogga11_neverRaises (par := [461196259425, 28021]) (npar := []) (flds := []) (by simp [nameCode, nameCodeChars]) rfl rfl (acheck_of_rcheck gga_x_sogga11_checkUnpol)
theorem gga_x_sogga11_regularUnpol : RegularUnpol {params := ["kappa", "mu"]} .gga gga_x_sogga11 :=
  regularUnpol_of _ (par := [461196259425, 28021]) (npar := []) (flds := []) (by simp [nameCode, nameCodeChars]) rfl rfl gga_x_sogga11_checkUnpol
theorem gga_x_sogga11_checkPol : rcheck (acfg true .gga false false [461196259425, 28021] [] []) gga_x_sogga11.polBody = true := by decide +kernel
theorem gga_x_sogga11_definedPol : DefinedPol {params := ["kappa", "mu"]} .gga gga_x_sogga11 :=
  definedPol_of _ gga_x_sogga11_neverRaises (par := [461196259425, 28021]) (npar := []) (flds := []) (by simp [nameCode, nameCodeChars]) rfl rfl (acheck_of_rcheck gga_x_sogga11_checkPol)
theorem gga_x_sogga11_regularPol : RegularPol {params := ["kappa", "mu"]} .gga gga_x_sogga11 :=
  regularPol_of _ (par := [461196259425, 28021]) (npar := []) (flds := []) (by simp [nameCode, nameCodeChars]) rfl rfl gga_x_sogga11_checkPol
theorem gga_x_ssb_sw_checkUnpol : rcheck (acfg false .gga false false [67, 69] [] []) gga_x_ssb_sw.unpolBody = true := by decide +kernel
theorem gga_x_ssb_sw_definedUnpol : DefinedUnpol {params := ["C", "E"]} .gga gga_x_ssb_sw :=
  definedUnpol_of _ gga_x_ssb_sw_neverRaises (par := [67, 69]) (npar := []) (flds := []) (by simp [nameCode, nameCodeChars]) rfl rfl (acheck_of_rcheck gga_x_ssb_sw_checkUnpol)
theorem gga_x_ssb_sw_regularUnpol : RegularUnpol {params := ["C", "E"]} .gga gga_x_ssb_sw :=
  regularUnpol_of _ (par := [67, 69]) (npar := []) (flds := []) (by simp [nameCode, nameCodeChars]) rfl rfl gga_x_ssb_sw_checkUnpol
theorem gga_x_ssb_sw_checkPol : rcheck (acfg true .gga false false [67, 69] [] []) gga_x_ssb_sw.polBody = true := by decide +kernel
theorem gga_x_ssb_sw_definedPol : DefinedPol {params := ["C", "E"]} .gga gga_x_ssb_sw :=
  definedPol_of _ gga_x_ssb_sw_neverRaises (par := [67, 69]) (npar := []) (flds := []) (by simp [nameCode, nameCodeChars]) rfl rfl (acheck_of_rcheck gga_x_ssb_sw_checkPol)
theorem gga_x_ssb_sw_regularPol : RegularPol {params := ["C", "E"]} .gga gga_x_ssb_sw :=
  regularPol_of _ (par := [67, 69]) (npar := []) (flds := []) (by simp [nameCode, nameCodeChars]) rfl rfl gga_x_ssb_sw_checkPol
theorem gga_x_vmt_checkUnpol : rcheck (acfg false .gga false false [28021] [] []) gga_x_vmt.unpolBody = true := by decide +kernel
theorem gga_x_vmt_definedUnpol : DefinedUnpol {params := ["mu"]} .gga gga_x_vmt :=
  definedUnpol_of _ gga_x_vmt_neverRaises (par := [28021]) (npar := []) (flds := []) (by simp [nameCode, nameCodeChars]) rfl rfl (acheck_of_rcheck gga_x_vmt_checkUnpol)
theorem gga_x_vmt_regularUnpol : RegularUnpol {params := ["mu"]} .gga gga_x_vmt :=
  regularUnpol_of _ (par := [28021]) (npar := []) (flds := []) (by simp [nameCode, nameCodeChars]) rfl rfl gga_x_vmt_checkUnpol
theorem gga_x_vmt_checkPol : rcheck (acfg true .gga false false [28021] [] []) gga_x_vmt.polBody = true := by decide +kernel
theorem gga_x_vmt_definedPol : DefinedPol {params := ["mu"]} .gga gga_x_vmt :=
  definedPol_of _ gga_x_vmt_neverRaises (par := [28021]) (npar := []) (flds := []) (by simp [nameCode, nameCodeChars]) rfl rfl (acheck_of_rcheck gga_x_vmt_checkPol)
theorem gga_x_vmt_regularPol : RegularPol {params := ["mu"]} .gga gga_x_vmt :=
  regularPol_of _ (par := [28021]) (npar := []) (flds := []) (by simp [nameCode, nameCodeChars]) rfl rfl gga_x_vmt_checkPol
theorem gga_x_vmt84_checkUnpol : rcheck (acfg false .gga true false [28021] [] []) gga_x_vmt84.unpolBody = true := by decide +kernel
theorem gga_x_vmt84_definedUnpol : DefinedUnpol {sPos := true, params := ["mu"]} .gga gga_x_vmt84 :=
  definedUnpol_of _ gga_x_vmt84_neverRaises (par := [28021]) (npar := []) (flds := []) (by simp [nameCode, nameCodeChars]) rfl rfl (acheck_of_rcheck gga_x_vmt84_checkUnpol)
theorem gga_x_vmt84_regularUnpol : RegularUnpol {sPos := true, params := ["mu"]} .gga gga_x_vmt84 :=
  regularUnpol_of _ (par := [28021]) (npar := []) (flds := []) (by simp [nameCode, nameCodeChars]) rfl rfl gga_x_vmt84_checkUnpol
theorem gga_x_vmt84_checkPol : rcheck (acfg true .gga true false [28021] [] []) gga_x_vmt84.polBody = true := by decide +kernel
theorem gga_x_vmt84_definedPol : DefinedPol {sPos := true, params := ["mu"]} .gga gga_x_vmt84 :=
  definedPol_of _ gga_x_vmt84_neverRaises (par := [28021]) (npar := []) (flds := []) (by simp [nameCode, nameCodeChars]) rfl rfl (acheck_of_rcheck gga_x_vmt84_checkPol)
theorem gga_x_vmt84_regularPol : RegularPol {sPos := true, params := ["mu"]} .gga gga_x_vmt84 :=
  regularPol_of _ (par := [28021]) (npar := []) (flds := []) (by simp [nameCode, nameCodeChars]) rfl rfl gga_x_vmt84_checkPol
theorem gga_x_wc_checkUnpol : rcheck (acfg false .gga false false [] [] []) gga_x_wc.unpolBody = true := by decide +kernel
theorem gga_x_wc_definedUnpol : DefinedUnpol {} .gga gga_x_wc :=
  definedUnpol_of _ gga_x_wc_neverRaises (par := []) (npar := []) (flds := []) rfl rfl rfl (acheck_of_rcheck gga_x_wc_checkUnpol)
theorem gga_x_wc_regularUnpol : RegularUnpol {} .gga gga_x_wc :=
  regularUnpol_of _ (par := []) (npar := []) (flds := []) rfl rfl rfl gga_x_wc_checkUnpol
theorem gga_x_wc_checkPol : rcheck (acfg true .gga false false [] [] []) gga_x_wc.polBody = true := by decide +kernel
theorem gga_x_wc_definedPol : DefinedPol {} .gga gga_x_wc :=
  definedPol_of _ gga_x_wc_neverRaises (par := []) (npar := []) (flds := []) rfl rfl rfl (acheck_of_rcheck gga_x_wc_checkPol)
theorem gga_x_wc_regularPol : RegularPol {} .gga gga_x_wc :=
  regularPol_of _ (par := []) (npar := []) (flds := []) rfl rfl rfl gga_x_wc_checkPol
theorem gga_x_wpbeh_regularUnpol : RegularUnpol {sPos := true} .gga gga_x_wpbeh :=
  regularUnpol_of _ (par := []) (npar := []) (flds := []) rfl rfl rfl (by decide +kernel)
theorem gga_x_wpbeh_definedUnpol : DefinedUnpol {} .gga gga_x_wpbeh :=
  definedUnpol_of _ gga_x_wpbeh_neverRaises (par := []) (npar := []) (flds := []) rfl rfl rfl (by decide +kernel)
theorem gga_x_wpbeh_regularPol : RegularPol {sPos := true} .gga gga_x_wpbeh :=
  regularPol_of _ (par := []) (npar := []) (flds := []) rfl rfl rfl (by decide +kernel)
theorem gga_x_wpbeh_definedPol : DefinedPol {} .gga gga_x_wpbeh :=
  definedPol_of _ gga_x_wpbeh_neverRaises (par := []) (npar := []) (flds := []) rfl rfl rfl (by decide +kernel)
theorem gga_xc_b97_checkUnpol : rcheck (acfg false .gga false false [] [] []) gga_xc_b97.unpolBody = true := by decide +kernel
theorem gga_xc_b97_definedUnpol : DefinedUnpol {} .gga gga_xc_b97 :=
  definedUnpol_of _ gga_xc_b97_neverRaises (par := []) (npar := []) (flds := []) rfl rfl rfl (acheck_of_rcheck gga_xc_b97_checkUnpol)
theorem gga_xc_b97_regularUnpol : RegularUnpol {} .gga gga_xc_b97 :=
  regularUnpol_of _ (par := []) (npar := []) (flds := []) rfl rfl rfl gga_xc_b97_checkUnpol
theorem gga_xc_b97_checkPol : rcheck (acfg true .gga false false [] [] []) gga_xc_b97.polBody = true := by decide +kernel
theorem gga_xc_b97_definedPol : DefinedPol {} .gga gga_xc_b97 :=
  definedPol_of _ gga_xc_b97_neverRaises (par := []) (npar := []) (flds := []) rfl rfl rfl (acheck_of_rcheck gga_xc_b97_checkPol)
theorem gga_xc_b97_regularPol : RegularPol {} .gga gga_xc_b97 :=
  regularPol_of _ (par := []) (npar := []) (flds := []) rfl rfl rfl gga_xc_b97_checkPol
theorem gga_xc_th1_regularUnpol : RegularUnpol {sPos := true} .gga gga_xc_th1 :=
  regularUnpol_of _ (par := []) (npar := []) (flds := []) rfl rfl rfl (by decide +kernel)
theorem gga_xc_th1_definedUnpol : DefinedUnpol {} .gga gga_xc_th1 :=
  definedUnpol_of _ gga_xc_th1_neverRaises (par := []) (npar := []) (flds := []) rfl rfl rfl (by decide +kernel)
theorem gga_xc_th1_regularPol : RegularPol {sPos := true} .gga gga_xc_th1 :=
  regularPol_of _ (par := []) (npar := []) (flds := []) rfl rfl rfl (by decide +kernel)
theorem gga_xc_th1_definedPol : DefinedPol {} .gga gga_xc_th1 :=
  definedPol_of _ gga_xc_th1_neverRaises (par := []) (npar := []) (flds := []) rfl rfl rfl (by decide +kernel)
theorem gga_xc_th2_regularUnpol : RegularUnpol {sPos := true} .gga gga_xc_th2 :=
  regularUnpol_of _ (par := []) (npar := []) (flds := []) rfl rfl rfl (by decide +kernel)
theorem gga_xc_th2_definedUnpol : DefinedUnpol {} .gga gga_xc_th2 :=
  definedUnpol_of _ gga_xc_th2_neverRaises (par := []) (npar := []) (flds := []) rfl rfl rfl (by decide +kernel)
theorem gga_xc_th2_regularPol : RegularPol {sPos := true} .gga gga_xc_th2 :=
  regularPol_of _ (par := []) (npar := []) (flds := []) rfl rfl rfl (by decide +kernel)
theorem gga_xc_th2_definedPol : DefinedPol {} .gga gga_xc_th2 :=
  definedPol_of _ gga_xc_th2_neverRaises (par := []) (npar := []) (flds := []) rfl rfl rfl (by decide +kernel)
theorem gga_xc_th3_regularUnpol : RegularUnpol {sPos := true} .gga gga_xc_th3 :=
  regularUnpol_of _ (par := []) (npar := []) (flds := []) rfl rfl rfl (by decide +kernel)
theorem gga_xc_th3_definedUnpol : DefinedUnpol {} .gga gga_xc_th3 :=
  definedUnpol_of _ gga_xc_th3_neverRaises (par := []) (npar := []) (flds := []) rfl rfl rfl (by decide +kernel)
theorem gga_xc_th3_regularPol : RegularPol {sPos := true} .gga gga_xc_th3 :=
  regularPol_of _ (par := []) (npar := []) (flds := []) rfl rfl rfl (by decide +kernel)
theorem gga_xc_th3_definedPol : DefinedPol {} .gga gga_xc_th3 :=
  definedPol_of _ gga_xc_th3_neverRaises (par := []) (npar := []) (flds := []) rfl rfl rfl (by decide +kernel)
theorem hyb_gga_x_cam_s12_checkUnpol : rcheck (acfg false .gga false false [65, 66, 67, 68, 69] [] [2]) hyb_gga_x_cam_s12.unpolBody = true := by decide +kernel
theorem hyb_gga_x_cam_s12_definedUnpol : DefinedUnpol {params := ["A", "B", "C", "D", "E"], flds := [.camOmega]} .gga hyb_gga_x_cam_s12 :=
  definedUnpol_of _ hyb_gga_x_cam_s12_neverRaises (par := [65, 66, 67, 68, 69]) (npar := []) (flds := [2]) (by simp [nameCode, nameCodeChars]) rfl rfl (acheck_of_rcheck hyb_gga_x_cam_s12_checkUnpol)
theorem hyb_gga_x_cam_s12_regularUnpol : RegularUnpol {params := ["A", "B", "C", "D", "E"], flds := [.camOmega]} .gga hyb_gga_x_cam_s12 :=
  regularUnpol_of _ (par := [65, 66, 67, 68, 69]) (npar := []) (flds := [2]) (by simp [nameCode, nameCodeChars]) rfl rfl hyb_gga_x_cam_s12_checkUnpol
theorem hyb_gga_x_cam_s12_checkPol : rcheck (acfg true .gga false false [65, 66, 67, 68, 69] [] [2]) hyb_gga_x_cam_s12.polBody = true := by decide +kernel
theorem hyb_gga_x_cam_s12_definedPol : DefinedPol {params := ["A", "B", "C", "D", "E"], flds := [.camOmega]} .gga hyb_gga_x_cam_s12 :=
  definedPol_of _ hyb_gga_x_cam_s12_neverRaises (par := [65, 66, 67, 68, 69]) (npar := []) (flds := [2]) (by simp [nameCode, nameCodeChars]) rfl rfl (acheck_of_rcheck hyb_gga_x_cam_s12_checkPol)
theorem hyb_gga_x_cam_s12_regularPol : RegularPol {params := ["A", "B", "C", "D", "E"], flds := [.camOmega]} .gga hyb_gga_x_cam_s12 :=
  regularPol_of _ (par := [65, 66, 67, 68, 69]) (npar := []) (flds := [2]) (by simp [nameCode, nameCodeChars]) rfl rfl hyb_gga_x_cam_s12_checkPol
theorem hyb_gga_xc_wb97_checkUnpol : rcheck (acfg false .gga false false [] [] [2]) hyb_gga_xc_wb97.unpolBody = true := by decide +kernel
theorem hyb_gga_xc_wb97_definedUnpol : DefinedUnpol {flds := [.camOmega]} .gga hyb_gga_xc_wb97 :=
  definedUnpol_of _ hyb_gga_xc_wb97_neverRaises (par := []) (npar := []) (flds := [2]) rfl rfl rfl (acheck_of_rcheck hyb_gga_xc_wb97_checkUnpol)
theorem hyb_gga_xc_wb97_regularUnpol : RegularUnpol {flds := [.camOmega]} .gga hyb_gga_xc_wb97 :=
  regularUnpol_of _ (par := []) (npar := []) (flds := [2]) rfl rfl rfl hyb_gga_xc_wb97_checkUnpol
theorem hyb_gga_xc_wb97_checkPol : rcheck (acfg true .gga false false [] [] [2]) hyb_gga_xc_wb97.polBody = true := by decide +kernel
theorem hyb_gga_xc_wb97_definedPol : DefinedPol {flds := [.camOmega]} .gga hyb_gga_xc_wb97 :=
  definedPol_of _ hyb_gga_xc_wb97_neverRaises (par := []) (npar := []) (flds := [2]) rfl rfl rfl (acheck_of_rcheck hyb_gga_xc_wb97_checkPol)
theorem hyb_gga_xc_wb97_regularPol : RegularPol {flds := [.camOmega]} .gga hyb_gga_xc_wb97 :=
  regularPol_of _ (par := []) (npar := []) (flds := [2]) rfl rfl rfl hyb_gga_xc_wb97_checkPol
theorem hyb_mgga_x_dldf_checkUnpol : rcheck (acfg false .mgga false false [] [] []) hyb_mgga_x_dldf.unpolBody = true := by decide +kernel
theorem hyb_mgga_x_dldf_definedUnpol : DefinedUnpol {} .mgga hyb_mgga_x_dldf :=
  definedUnpol_of _ hyb_mgga_x_dldf_neverRaises (par := []) (npar := []) (flds := []) rfl rfl rfl (acheck_of_rcheck hyb_mgga_x_dldf_checkUnpol)
theorem hyb_mgga_x_dldf_regularUnpol : RegularUnpol {} .mgga hyb_mgga_x_dldf :=
  regularUnpol_of _ (par := []) (npar := []) (flds := []) rfl rfl rfl hyb_mgga_x_dldf_checkUnpol
theorem hyb_mgga_x_dldf_checkPol : rcheck (acfg true .mgga false false [] [] []) hyb_mgga_x_dldf.polBody = true := by decide +kernel
theorem hyb_mgga_x_dldf_definedPol : DefinedPol {} .mgga hyb_mgga_x_dldf :=
  definedPol_of _ hyb_mgga_x_dldf_neverRaises (par := []) (npar := []) (flds := []) rfl rfl rfl (acheck_of_rcheck hyb_mgga_x_dldf_checkPol)
theorem hyb_mgga_x_dldf_regularPol : RegularPol {} .mgga hyb_mgga_x_dldf :=
  regularPol_of _ (par := []) (npar := []) (flds := []) rfl rfl rfl hyb_mgga_x_dldf_checkPol
theorem hyb_mgga_x_m05_checkUnpol : rcheck (acfg false .mgga false false [] [] []) hyb_mgga_x_m05.unpolBody = true := by decide +kernel
theorem hyb_mgga_x_m05_definedUnpol : DefinedUnpol {} .mgga hyb_mgga_x_m05 :=
  definedUnpol_of _ hyb_mgga_x_m05_neverRaises (par := []) (npar := []) (flds := []) rfl rfl rfl (acheck_of_rcheck hyb_mgga_x_m05_checkUnpol)
theorem hyb_mgga_x_m05_regularUnpol : RegularUnpol {} .mgga hyb_mgga_x_m05 :=
  regularUnpol_of _ (par := []) (npar := []) (flds := []) rfl rfl rfl hyb_mgga_x_m05_checkUnpol
theorem hyb_mgga_x_m05_checkPol : rcheck (acfg true .mgga false false [] [] []) hyb_mgga_x_m05.polBody = true := by decide +kernel
theorem hyb_mgga_x_m05_definedPol : DefinedPol {} .mgga hyb_mgga_x_m05 :=
  definedPol_of _ hyb_mgga_x_m05_neverRaises (par := []) (npar := []) (flds := []) rfl rfl rfl (acheck_of_rcheck hyb_mgga_x_m05_checkPol)
theorem hyb_mgga_x_m05_regularPol : RegularPol {} .mgga hyb_mgga_x_m05 :=
  regularPol_of _ (par := []) (npar := []) (flds := []) rfl rfl rfl hyb_mgga_x_m05_checkPol
theorem hyb_mgga_x_pjs18_checkUnpol : rcheck (acfg false .mgga false false [] [] []) hyb_mgga_x_pjs18.unpolBody = true := by decide +kernel
theorem hyb_mgga_x_pjs18_definedUnpol : DefinedUnpol {} .mgga hyb_mgga_x_pjs18 :=
  definedUnpol_of _ hyb_mgga_x_pjs18_neverRaises (par := []) (npar := []) (flds := []) rfl rfl rfl (acheck_of_rcheck hyb_mgga_x_pjs18_checkUnpol)
theorem hyb_mgga_x_pjs18_regularUnpol : RegularUnpol {} .mgga hyb_mgga_x_pjs18 :=
  regularUnpol_of _ (par := []) (npar := []) (flds := []) rfl rfl rfl hyb_mgga_x_pjs18_checkUnpol
theorem hyb_mgga_x_pjs18_checkPol : rcheck (acfg true .mgga false false [] [] []) hyb_mgga_x_pjs18.polBody = true := by decide +kernel
theorem hyb_mgga_x_pjs18_definedPol : DefinedPol {} .mgga hyb_mgga_x_pjs18 :=
  definedPol_of _ hyb_mgga_x_pjs18_neverRaises (par := []) (npar := []) (flds := []) rfl rfl rfl (acheck_of_rcheck hyb_mgga_x_pjs18_checkPol)
theorem hyb_mgga_x_pjs18_regularPol : RegularPol {} .mgga hyb_mgga_x_pjs18 :=
  regularPol_of _ (par := []) (npar := []) (flds := []) rfl rfl rfl hyb_mgga_x_pjs18_checkPol
theorem hyb_mgga_xc_wb97mv_checkUnpol : rcheck (acfg false .mgga false true [] [] [2]) hyb_mgga_xc_wb97mv.unpolBody = true := by decide +kernel
theorem hyb_mgga_xc_wb97mv_definedUnpol : DefinedUnpol {tPos := true, flds := [.camOmega]} .mgga hyb_mgga_xc_wb97mv :=
  definedUnpol_of _ hyb_mgga_xc_wb97mv_neverRaises (par := []) (npar := []) (flds := [2]) rfl rfl rfl (acheck_of_rcheck hyb_mgga_xc_wb97mv_checkUnpol)
theorem hyb_mgga_xc_wb97mv_regularUnpol : RegularUnpol {tPos := true, flds := [.camOmega]} .mgga hyb_mgga_xc_wb97mv :=
  regularUnpol_of _ (par := []) (npar := []) (flds := [2]) rfl rfl rfl hyb_mgga_xc_wb97mv_checkUnpol
theorem hyb_mgga_xc_wb97mv_checkPol : rcheck (acfg true .mgga false true [] [] [2]) hyb_mgga_xc_wb97mv.polBody = true := by decide +kernel
theorem hyb_mgga_xc_wb97mv_definedPol : DefinedPol {tPos := true, flds := [.camOmega]} .mgga hyb_mgga_xc_wb97mv :=
  definedPol_of _ hyb_mgga_xc_wb97mv_neverRaises (par := []) (npar := []) (flds := [2]) rfl rfl rfl (acheck_of_rcheck hyb_mgga_xc_wb97mv_checkPol)
theorem hyb_mgga_xc_wb97mv_regularPol : RegularPol {tPos := true, flds := [.camOmega]} .mgga hyb_mgga_xc_wb97mv :=
  regularPol_of _ (par := []) (npar := []) (flds := [2]) rfl rfl rfl hyb_mgga_xc_wb97mv_checkPol
theorem lda_c_1d_csc_checkUnpol : rcheck (acfg false .lda false false [31632341279125597, 31632341279125853, 31632341279126109, 31632341279126365, 31632341279127389, 31632341279127645] [] []) lda_c_1d_csc.unpolBody = true := by decide +kernel
theorem lda_c_1d_csc_definedUnpol : DefinedUnpol {params := ["para[0]", "para[1]", "para[2]", "para[3]", "para[7]", "para[8]"]} .lda lda_c_1d_csc :=
  definedUnpol_of _ lda_c_1d_csc_neverRaises (par := [31632341279125597, 31632341279125853, 31632341279126109, 31632341279126365, 31632341279127389, 31632341279127645]) (npar := []) (flds := []) (by simp [nameCode, nameCodeChars]) rfl rfl (acheck_of_rcheck lda_c_1d_csc_checkUnpol)
theorem lda_c_1d_csc_regularUnpol : RegularUnpol {params := ["para[0]", "para[1]", "para[2]", "para[3]", "para[7]", "para[8]"]} .lda lda_c_1d_csc :=
  regularUnpol_of _ (par := [31632341279125597, 31632341279125853, 31632341279126109, 31632341279126365, 31632341279127389, 31632341279127645]) (npar := []) (flds := []) (by simp [nameCode, nameCodeChars]) rfl rfl lda_c_1d_csc_checkUnpol
theorem lda_c_1d_csc_checkPol : rcheck (acfg true .lda false false [7378429400336511069, 7378429400336511325, 7378429400336511581, 7378429400336511837, 7378429400336512861, 7378429400336513117, 31632341279125597, 31632341279125853, 31632341279126109, 31632341279126365, 31632341279127389, 31632341279127645] [] []) lda_c_1d_csc.polBody = true := by decide +kernel
theorem lda_c_1d_csc_definedPol : DefinedPol {params := ["ferro[0]", "ferro[1]", "ferro[2]", "ferro[3]", "ferro[7]", "ferro[8]", "para[0]", "para[1]", "para[2]", "para[3]", "para[7]", "para[8]"]} .lda lda_c_1d_csc :=
  definedPol_of _ lda_c_1d_csc_neverRaises (par := [7378429400336511069, 7378429400336511325, 7378429400336511581, 7378429400336511837, 7378429400336512861, 7378429400336513117, 31632341279125597, 31632341279125853, 31632341279126109, 31632341279126365, 31632341279127389, 31632341279127645]) (npar := []) (flds := []) (by simp [nameCode, nameCodeChars]) rfl rfl (acheck_of_rcheck lda_c_1d_csc_checkPol)
theorem lda_c_1d_csc_regularPol : RegularPol {params := ["ferro[0]", "ferro[1]", "ferro[2]", "ferro[3]", "ferro[7]", "ferro[8]", "para[0]", "para[1]", "para[2]", "para[3]", "para[7]", "para[8]"]} .lda lda_c_1d_csc :=
  regularPol_of _ (par := [7378429400336511069, 7378429400336511325, 7378429400336511581, 7378429400336511837, 7378429400336512861, 7378429400336513117, 31632341279125597, 31632341279125853, 31632341279126109, 31632341279126365, 31632341279127389, 31632341279127645]) (npar := []) (flds := []) (by simp [nameCode, nameCodeChars]) rfl rfl lda_c_1d_csc_checkPol
theorem lda_c_1d_loos_checkUnpol : rcheck (acfg false .lda false false [] [] []) lda_c_1d_loos.unpolBody = true := by decide +kernel
theorem lda_c_1d_loos_definedUnpol : DefinedUnpol {} .lda lda_c_1d_loos :=
  definedUnpol_of _ lda_c_1d_loos_neverRaises (par := []) (npar := []) (flds := []) rfl rfl rfl (acheck_of_rcheck lda_c_1d_loos_checkUnpol)
theorem lda_c_1d_loos_regularUnpol : RegularUnpol {} .lda lda_c_1d_loos :=
  regularUnpol_of _ (par := []) (npar := []) (flds := []) rfl rfl rfl lda_c_1d_loos_checkUnpol
theorem lda_c_1d_loos_checkPol : rcheck (acfg true .lda false false [] [] []) lda_c_1d_loos.polBody = true := by decide +kernel
theorem lda_c_1d_loos_definedPol : DefinedPol {} .lda lda_c_1d_loos :=
  definedPol_of _ lda_c_1d_loos_neverRaises (par := []) (npar := []) (flds := []) rfl rfl rfl (acheck_of_rcheck lda_c_1d_loos_checkPol)
theorem lda_c_1d_loos_regularPol : RegularPol {} .lda lda_c_1d_loos :=
  regularPol_of _ (par := []) (npar := []) (flds := []) rfl rfl rfl lda_c_1d_loos_checkPol
theorem lda_c_2d_prm_checkUnpol : rcheck (acfg false .lda false false [99] [] []) lda_c_2d_prm.unpolBody = true := by decide +kernel
theorem lda_c_2d_prm_definedUnpol : DefinedUnpol {params := ["c"]} .lda lda_c_2d_prm :=
  definedUnpol_of _ lda_c_2d_prm_neverRaises (par := [99]) (npar := []) (flds := []) (by simp [nameCode, nameCodeChars]) rfl rfl (acheck_of_rcheck lda_c_2d_prm_checkUnpol)
theorem lda_c_2d_prm_regularUnpol : RegularUnpol {params := ["c"]} .lda lda_c_2d_prm :=
  regularUnpol_of _ (par := [99]) (npar := []) (flds := []) (by simp [nameCode, nameCodeChars]) rfl rfl lda_c_2d_prm_checkUnpol
theorem lda_c_2d_prm_checkPol : rcheck (acfg true .lda false false [99] [] []) lda_c_2d_prm.polBody = true := by decide +kernel
theorem lda_c_2d_prm_definedPol : DefinedPol {params := ["c"]} .lda lda_c_2d_prm :=
  definedPol_of _ lda_c_2d_prm_neverRaises (par := [99]) (npar := []) (flds := []) (by simp [nameCode, nameCodeChars]) rfl rfl (acheck_of_rcheck lda_c_2d_prm_checkPol)
theorem lda_c_2d_prm_regularPol : RegularPol {params := ["c"]} .lda lda_c_2d_prm :=
  regularPol_of _ (par := [99]) (npar := []) (flds := []) (by simp [nameCode, nameCodeChars]) rfl rfl lda_c_2d_prm_checkPol
theorem lda_c_chachiyo_checkUnpol : rcheck (acfg false .lda false false [25190, 25200, 25446, 25456] [] []) lda_c_chachiyo.unpolBody = true := by decide +kernel
theorem lda_c_chachiyo_definedUnpol : DefinedUnpol {params := ["bf", "bp", "cf", "cp"]} .lda lda_c_chachiyo :=
  definedUnpol_of _ lda_c_chachiyo_neverRaises (par := [25190, 25200, 25446, 25456]) (npar := []) (flds := []) (by simp [nameCode, nameCodeChars]) rfl rfl (acheck_of_rcheck lda_c_chachiyo_checkUnpol)
theorem lda_c_chachiyo_regularUnpol : RegularUnpol {params := ["bf", "bp", "cf", "cp"]} .lda lda_c_chachiyo :=
  regularUnpol_of _ (par := [25190, 25200, 25446, 25456]) (npar := []) (flds := []) (by simp [nameCode, nameCodeChars]) rfl rfl lda_c_chachiyo_checkUnpol
theorem lda_c_chachiyo_checkPol : rcheck (acfg true .lda false false [25190, 25200, 25446, 25456] [] []) lda_c_chachiyo.polBody = true := by decide +kernel
theorem lda_c_chachiyo_definedPol : DefinedPol {params := ["bf", "bp", "cf", "cp"]} .lda lda_c_chachiyo :=
  definedPol_of _ lda_c_chachiyo_neverRaises (par := [25190, 25200, 25446, 25456]) (npar := []) (flds := []) (by simp [nameCode, nameCodeChars]) rfl rfl (acheck_of_rcheck lda_c_chachiyo_checkPol)
theorem lda_c_chachiyo_regularPol : RegularPol {params := ["bf", "bp", "cf", "cp"]} .lda lda_c_chachiyo :=
  regularPol_of _ (par := [25190, 25200, 25446, 25456]) (npar := []) (flds := []) (by simp [nameCode, nameCodeChars]) rfl rfl lda_c_chachiyo_checkPol
theorem lda_c_chachiyo_mod_checkUnpol : rcheck (acfg false .lda false false [25190, 25200, 25446, 25456] [] []) lda_c_chachiyo_mod.unpolBody = true := by decide +kernel
theorem lda_c_chachiyo_mod_definedUnpol : DefinedUnpol {params := ["bf", "bp", "cf", "cp"]} .lda lda_c_chachiyo_mod :=
  definedUnpol_of _ lda_c_chachiyo_mod_neverRaises (par := [25190, 25200, 25446, 25456]) (npar := []) (flds := []) (by simp [nameCode, nameCodeChars]) rfl rfl (acheck_of_rcheck lda_c_chachiyo_mod_checkUnpol)
theorem lda_c_chachiyo_mod_regularUnpol : RegularUnpol {params := ["bf", "bp", "cf", "cp"]} .lda lda_c_chachiyo_mod :=
  regularUnpol_of _ (par := [25190, 25200, 25446, 25456]) (npar := []) (flds := []) (by simp [nameCode, nameCodeChars]) rfl rfl lda_c_chachiyo_mod_checkUnpol
theorem lda_c_chachiyo_mod_checkPol : rcheck (acfg true .lda false false [25190, 25200, 25446, 25456] [] []) lda_c_chachiyo_mod.polBody = true := by decide +kernel
theorem lda_c_chachiyo_mod_definedPol : DefinedPol {params := ["bf", "bp", "cf", "cp"]} .lda lda_c_chachiyo_mod :=
  definedPol_of _ lda_c_chachiyo_mod_neverRaises (par := [25190, 25200, 25446, 25456]) (npar := []) (flds := []) (by simp [nameCode, nameCodeChars]) rfl rfl (acheck_of_rcheck lda_c_chachiyo_mod_checkPol)
theorem lda_c_chachiyo_mod_regularPol : RegularPol {params := ["bf", "bp", "cf", "cp"]} .lda lda_c_chachiyo_mod :=
  regularPol_of _ (par := [25190, 25200, 25446, 25456]) (npar := []) (flds := []) (by simp [nameCode, nameCodeChars]) rfl rfl lda_c_chachiyo_mod_checkPol
theorem lda_c_gk72_checkUnpol : rcheck (acfg false .lda false false [] [] []) lda_c_gk72.unpolBody = true := by decide +kernel
theorem lda_c_gk72_definedUnpol : DefinedUnpol {} .lda lda_c_gk72 :=
  definedUnpol_of _ lda_c_gk72_neverRaises (par := []) (npar := []) (flds := []) rfl rfl rfl (acheck_of_rcheck lda_c_gk72_checkUnpol)
theorem lda_c_gk72_regularUnpol : RegularUnpol {} .lda lda_c_gk72 :=
  regularUnpol_of _ (par := []) (npar := []) (flds := []) rfl rfl rfl lda_c_gk72_checkUnpol
theorem lda_c_gk72_checkPol : rcheck (acfg true .lda false false [] [] []) lda_c_gk72.polBody = true := by decide +kernel
theorem lda_c_gk72_definedPol : DefinedPol {} .lda lda_c_gk72 :=
  definedPol_of _ lda_c_gk72_neverRaises (par := []) (npar := []) (flds := []) rfl rfl rfl (acheck_of_rcheck lda_c_gk72_checkPol)
theorem lda_c_gk72_regularPol : RegularPol {} .lda lda_c_gk72 :=
  regularPol_of _ (par := []) (npar := []) (flds := []) rfl rfl rfl lda_c_gk72_checkPol
theorem lda_c_gombas_checkUnpol : rcheck (acfg false .lda false false [] [] []) lda_c_gombas.unpolBody = true := by decide +kernel
theorem lda_c_gombas_definedUnpol : DefinedUnpol {} .lda lda_c_gombas :=
  definedUnpol_of _ lda_c_gombas_neverRaises (par := []) (npar := []) (flds := []) rfl rfl rfl (acheck_of_rcheck lda_c_gombas_checkUnpol)
theorem lda_c_gombas_regularUnpol : RegularUnpol {} .lda lda_c_gombas :=
  regularUnpol_of _ (par := []) (npar := []) (flds := []) rfl rfl rfl lda_c_gombas_checkUnpol
theorem lda_c_gombas_checkPol : rcheck (acfg true .lda false false [] [] []) lda_c_gombas.polBody = true := by decide +kernel
theorem lda_c_gombas_definedPol : DefinedPol {} .lda lda_c_gombas :=
  definedPol_of _ lda_c_gombas_neverRaises (par := []) (npar := []) (flds := []) rfl rfl rfl (acheck_of_rcheck lda_c_gombas_checkPol)
theorem lda_c_gombas_regularPol : RegularPol {} .lda lda_c_gombas :=
  regularPol_of _ (par := []) (npar := []) (flds := []) rfl rfl rfl lda_c_gombas_checkPol
theorem lda_c_hl_checkUnpol : rcheck (acfg false .lda false false [29392554774179933, 29392554774180189] [] []) lda_c_hl.unpolBody = true := by decide +kernel
theorem lda_c_hl_definedUnpol : DefinedUnpol {params := ["hl_r[0]", "hl_r[1]"]} .lda lda_c_hl :=
  definedUnpol_of _ lda_c_hl_neverRaises (par := [29392554774179933, 29392554774180189]) (npar := []) (flds := []) (by simp [nameCode, nameCodeChars]) rfl rfl (acheck_of_rcheck lda_c_hl_checkUnpol)
theorem lda_c_hl_regularUnpol : RegularUnpol {params := ["hl_r[0]", "hl_r[1]"]} .lda lda_c_hl :=
  regularUnpol_of _ (par := [29392554774179933, 29392554774180189]) (npar := []) (flds := []) (by simp [nameCode, nameCodeChars]) rfl rfl lda_c_hl_checkUnpol
theorem lda_c_hl_checkPol : rcheck (acfg true .lda false false [29392554774179933, 29392554774180189] [] []) lda_c_hl.polBody = true := by decide +kernel
theorem lda_c_hl_definedPol : DefinedPol {params := ["hl_r[0]", "hl_r[1]"]} .lda lda_c_hl :=
  definedPol_of _ lda_c_hl_neverRaises (par := [29392554774179933, 29392554774180189]) (npar := []) (flds := []) (by simp [nameCode, nameCodeChars]) rfl rfl (acheck_of_rcheck lda_c_hl_checkPol)
theorem lda_c_hl_regularPol : RegularPol {params := ["hl_r[0]", "hl_r[1]"]} .lda lda_c_hl :=
  regularPol_of _ (par := [29392554774179933, 29392554774180189]) (npar := []) (flds := []) (by simp [nameCode, nameCodeChars]) rfl rfl lda_c_hl_checkPol
theorem lda_c_lp96_checkUnpol : rcheck (acfg false .lda false false [] [] []) lda_c_lp96.unpolBody = true := by decide +kernel
theorem lda_c_lp96_definedUnpol : DefinedUnpol {} .lda lda_c_lp96 :=
  definedUnpol_of _ lda_c_lp96_neverRaises (par := []) (npar := []) (flds := []) rfl rfl rfl (acheck_of_rcheck lda_c_lp96_checkUnpol)
theorem lda_c_lp96_regularUnpol : RegularUnpol {} .lda lda_c_lp96 :=
  regularUnpol_of _ (par := []) (npar := []) (flds := []) rfl rfl rfl lda_c_lp96_checkUnpol
theorem lda_c_lp96_checkPol : rcheck (acfg true .lda false false [] [] []) lda_c_lp96.polBody = true := by decide +kernel
theorem lda_c_lp96_definedPol : DefinedPol {} .lda lda_c_lp96 :=
  definedPol_of _ lda_c_lp96_neverRaises (par := []) (npar := []) (flds := []) rfl rfl rfl (acheck_of_rcheck lda_c_lp96_checkPol)
theorem lda_c_lp96_regularPol : RegularPol {} .lda lda_c_lp96 :=
  regularPol_of _ (par := []) (npar := []) (flds := []) rfl rfl rfl lda_c_lp96_checkPol
theorem lda_c_ml1_checkUnpol : rcheck (acfg false .lda false false [26211] [] []) lda_c_ml1.unpolBody = true := by decide +kernel
theorem lda_c_ml1_definedUnpol : DefinedUnpol {params := ["fc"]} .lda lda_c_ml1 :=
  definedUnpol_of _ lda_c_ml1_neverRaises (par := [26211]) (npar := []) (flds := []) (by simp [nameCode, nameCodeChars]) rfl rfl (acheck_of_rcheck lda_c_ml1_checkUnpol)
theorem lda_c_ml1_regularUnpol : RegularUnpol {params := ["fc"]} .lda lda_c_ml1 :=
  regularUnpol_of _ (par := [26211]) (npar := []) (flds := []) (by simp [nameCode, nameCodeChars]) rfl rfl lda_c_ml1_checkUnpol
theorem lda_c_pmgb06_checkUnpol : rcheck (acfg false .lda false false [] [] [2]) lda_c_pmgb06.unpolBody = true := by decide +kernel
theorem lda_c_pmgb06_definedUnpol : DefinedUnpol {flds := [.camOmega]} .lda lda_c_pmgb06 :=
  definedUnpol_of _ lda_c_pmgb06_neverRaises (par := []) (npar := []) (flds := [2]) rfl rfl rfl (acheck_of_rcheck lda_c_pmgb06_checkUnpol)
theorem lda_c_pmgb06_regularUnpol : RegularUnpol {flds := [.camOmega]} .lda lda_c_pmgb06 :=
  regularUnpol_of _ (par := []) (npar := []) (flds := [2]) rfl rfl rfl lda_c_pmgb06_checkUnpol
theorem lda_c_pmgb06_checkPol : rcheck (acfg true .lda false false [] [] [2]) lda_c_pmgb06.polBody = true := by decide +kernel
theorem lda_c_pmgb06_definedPol : DefinedPol {flds := [.camOmega]} .lda lda_c_pmgb06 :=
  definedPol_of _ lda_c_pmgb06_neverRaises (par := []) (npar := []) (flds := [2]) rfl rfl rfl (acheck_of_rcheck lda_c_pmgb06_checkPol)
theorem lda_c_pmgb06_regularPol : RegularPol {flds := [.camOmega]} .lda lda_c_pmgb06 :=
  regularPol_of _ (par := []) (npar := []) (flds := [2]) rfl rfl rfl lda_c_pmgb06_checkPol
theorem lda_c_pw_checkUnpol : rcheck (acfg false .lda false false [1633366109, 1633366621, 7090201149153423453, 7090201149153423965, 7090201149170200669, 7090201149170201181, 7090201149186977885, 7090201149186978397, 7090201149203755101, 7090201149203755613, 1719284272] [] []) lda_c_pw.unpolBody = true := by decide +kernel
theorem lda_c_pw_definedUnpol : DefinedUnpol {params := ["a[0]", "a[2]", "beta1[0]", "beta1[2]", "beta2[0]", "beta2[2]", "beta3[0]", "beta3[2]", "beta4[0]", "beta4[2]", "fz20"]} .lda lda_c_pw :=
  definedUnpol_of _ lda_c_pw_neverRaises (par := [1633366109, 1633366621, 7090201149153423453, 7090201149153423965, 7090201149170200669, 7090201149170201181, 7090201149186977885, 7090201149186978397, 7090201149203755101, 7090201149203755613, 1719284272]) (npar := []) (flds := []) (by simp [nameCode, nameCodeChars]) rfl rfl (acheck_of_rcheck lda_c_pw_checkUnpol)
theorem lda_c_pw_regularUnpol : RegularUnpol {params := ["a[0]", "a[2]", "beta1[0]", "beta1[2]", "beta2[0]", "beta2[2]", "beta3[0]", "beta3[2]", "beta4[0]", "beta4[2]", "fz20"]} .lda lda_c_pw :=
  regularUnpol_of _ (par := [1633366109, 1633366621, 7090201149153423453, 7090201149153423965, 7090201149170200669, 7090201149170201181, 7090201149186977885, 7090201149186978397, 7090201149203755101, 7090201149203755613, 1719284272]) (npar := []) (flds := []) (by simp [nameCode, nameCodeChars]) rfl rfl lda_c_pw_checkUnpol
theorem lda_c_pw_checkPol : rcheck (acfg true .lda false false [1633366109, 1633366365, 1633366621, 7090201149153423453, 7090201149153423709, 7090201149153423965, 7090201149170200669, 7090201149170200925, 7090201149170201181, 7090201149186977885, 7090201149186978141, 7090201149186978397, 7090201149203755101, 7090201149203755357, 7090201149203755613, 1719284272] [] []) lda_c_pw.polBody = true := by decide +kernel
theorem lda_c_pw_definedPol : DefinedPol {params := ["a[0]", "a[1]", "a[2]", "beta1[0]", "beta1[1]", "beta1[2]", "beta2[0]", "beta2[1]", "beta2[2]", "beta3[0]", "beta3[1]", "beta3[2]", "beta4[0]", "beta4[1]", "beta4[2]", "fz20"]} .lda lda_c_pw :=
  definedPol_of _ lda_c_pw_neverRaises (par := [1633366109, 1633366365, 1633366621, 7090201149153423453, 7090201149153423709, 7090201149153423965, 7090201149170200669, 7090201149170200925, 7090201149170201181, 7090201149186977885, 7090201149186978141, 7090201149186978397, 7090201149203755101, 7090201149203755357, 7090201149203755613, 1719284272]) (npar := []) (flds := []) (by simp [nameCode, nameCodeChars]) rfl rfl (acheck_of_rcheck lda_c_pw_checkPol)
theorem lda_c_pw_regularPol : RegularPol {params := ["a[0]", "a[1]", "a[2]", "beta1[0]", "beta1[1]", "beta1[2]", "beta2[0]", "beta2[1]", "beta2[2]", "beta3[0]", "beta3[1]", "beta3[2]", "beta4[0]", "beta4[1]", "beta4[2]", "fz20"]} .lda lda_c_pw :=
  regularPol_of _ (par := [1633366109, 1633366365, 1633366621, 7090201149153423453, 7090201149153423709, 7090201149153423965, 7090201149170200669, 7090201149170200925, 7090201149170201181, 7090201149186977885, 7090201149186978141, 7090201149186978397, 7090201149203755101, 7090201149203755357, 7090201149203755613, 1719284272]) (npar := []) (flds := []) (by simp [nameCode, nameCodeChars]) rfl rfl lda_c_pw_checkPol

end Verif.Props
