import Verif.Norm.Regular
import Verif.Props.Static1
/-!
# C49, C52: formulas that are defined, and smooth, on their domain
-/
set_option Elab.async false
set_option maxRecDepth 100000
namespace Verif.Props
open Verif.Py Verif.Model Verif.Spec Verif.Norm Verif.Data

theorem gga_c_acgga_regularUnpol : RegularUnpol {sPos := true} .gga gga_c_acgga :=
  regularUnpol_of _ (par := []) (npar := []) (flds := []) rfl rfl rfl (by decide +kernel)
theorem gga_c_acgga_definedUnpol : DefinedUnpol {} .gga gga_c_acgga :=
  definedUnpol_of _ gga_c_acgga_neverRaises (par := []) (npar := []) (flds := []) rfl rfl rfl (by decide +kernel)
theorem gga_c_acggap_regularUnpol : RegularUnpol {sPos := true} .gga gga_c_acggap :=
  regularUnpol_of _ (par := []) (npar := []) (flds := []) rfl rfl rfl (by decide +kernel)
theorem gga_c_acggap_definedUnpol : DefinedUnpol {} .gga gga_c_acggap :=
  definedUnpol_of _ gga_c_acggap_neverRaises (par := []) (npar := []) (flds := []) rfl rfl rfl (by decide +kernel)
theorem gga_c_am05_checkUnpol : rcheck (acfg false .gga false false [418431133793] [] []) gga_c_am05.unpolBody = true := by decide +kernel
theorem gga_c_am05_definedUnpol : DefinedUnpol {params := ["alpha"]} .gga gga_c_am05 :=
  definedUnpol_of _ gga_c_am05_neverRaises (par := [418431133793]) (npar := []) (flds := []) (by simp [nameCode, nameCodeChars]) rfl rfl (acheck_of_rcheck gga_c_am05_checkUnpol)
theorem gga_c_am05_regularUnpol : RegularUnpol {params := ["alpha"]} .gga gga_c_am05 :=
  regularUnpol_of _ (par := [418431133793]) (npar := []) (flds := []) (by simp [nameCode, nameCodeChars]) rfl rfl gga_c_am05_checkUnpol
theorem gga_c_am05_checkPol : rcheck (acfg true .gga false false [418431133793] [] []) gga_c_am05.polBody = true := by decide +kernel
theorem gga_c_am05_definedPol : DefinedPol {params := ["alpha"]} .gga gga_c_am05 :=
  definedPol_of _ gga_c_am05_neverRaises (par := [418431133793]) (npar := []) (flds := []) (by simp [nameCode, nameCodeChars]) rfl rfl (acheck_of_rcheck gga_c_am05_checkPol)
theorem gga_c_am05_regularPol : RegularPol {params := ["alpha"]} .gga gga_c_am05 :=
  regularPol_of _ (par := [418431133793]) (npar := []) (flds := []) (by simp [nameCode, nameCodeChars]) rfl rfl gga_c_am05_checkPol
theorem gga_c_bmk_checkUnpol : rcheck (acfg false .gga false false [] [] []) gga_c_bmk.unpolBody = true := by decide +kernel
theorem gga_c_bmk_definedUnpol : DefinedUnpol {} .gga gga_c_bmk :=
  definedUnpol_of _ gga_c_bmk_neverRaises (par := []) (npar := []) (flds := []) rfl rfl rfl (acheck_of_rcheck gga_c_bmk_checkUnpol)
theorem gga_c_bmk_regularUnpol : RegularUnpol {} .gga gga_c_bmk :=
  regularUnpol_of _ (par := []) (npar := []) (flds := []) rfl rfl rfl gga_c_bmk_checkUnpol
theorem gga_c_bmk_checkPol : rcheck (acfg true .gga false false [] [] []) gga_c_bmk.polBody = true := by decide +kernel
theorem gga_c_bmk_definedPol : DefinedPol {} .gga gga_c_bmk :=
  definedPol_of _ gga_c_bmk_neverRaises (par := []) (npar := []) (flds := []) rfl rfl rfl (acheck_of_rcheck gga_c_bmk_checkPol)
theorem gga_c_bmk_regularPol : RegularPol {} .gga gga_c_bmk :=
  regularPol_of _ (par := []) (npar := []) (flds := []) rfl rfl rfl gga_c_bmk_checkPol
theorem gga_c_ccdf_regularUnpol : RegularUnpol {sPos := true, params := ["c2"]} .gga gga_c_ccdf :=
  regularUnpol_of _ (par := [25394]) (npar := []) (flds := []) (by simp [nameCode, nameCodeChars]) rfl rfl (by decide +kernel)
theorem gga_c_ccdf_definedUnpol : DefinedUnpol {params := ["c2"]} .gga gga_c_ccdf :=
  definedUnpol_of _ gga_c_ccdf_neverRaises (par := [25394]) (npar := []) (flds := []) (by simp [nameCode, nameCodeChars]) rfl rfl (by decide +kernel)
theorem gga_c_ccdf_regularPol : RegularPol {sPos := true, params := ["c2"]} .gga gga_c_ccdf :=
  regularPol_of _ (par := [25394]) (npar := []) (flds := []) (by simp [nameCode, nameCodeChars]) rfl rfl (by decide +kernel)
theorem gga_c_ccdf_definedPol : DefinedPol {params := ["c2"]} .gga gga_c_ccdf :=
  definedPol_of _ gga_c_ccdf_neverRaises (par := [25394]) (npar := []) (flds := []) (by simp [nameCode, nameCodeChars]) rfl rfl (by decide +kernel)
theorem gga_c_chachiyo_checkUnpol : rcheck (acfg false .gga false false [25190, 25200, 25446, 25456] [24944] []) gga_c_chachiyo.unpolBody = true := by decide +kernel
theorem gga_c_chachiyo_definedUnpol : DefinedUnpol {params := ["bf", "bp", "cf", "cp"], neg := ["ap"]} .gga gga_c_chachiyo :=
  definedUnpol_of _ gga_c_chachiyo_neverRaises (par := [25190, 25200, 25446, 25456]) (npar := [24944]) (flds := []) (by simp [nameCode, nameCodeChars]) (by simp [nameCode, nameCodeChars]) rfl (acheck_of_rcheck gga_c_chachiyo_checkUnpol)
theorem gga_c_chachiyo_regularUnpol : RegularUnpol {params := ["bf", "bp", "cf", "cp"], neg := ["ap"]} .gga gga_c_chachiyo :=
  regularUnpol_of _ (par := [25190, 25200, 25446, 25456]) (npar := [24944]) (flds := []) (by simp [nameCode, nameCodeChars]) (by simp [nameCode, nameCodeChars]) rfl gga_c_chachiyo_checkUnpol
theorem gga_c_cs1_checkUnpol : rcheck (acfg false .gga false false [] [] []) gga_c_cs1.unpolBody = true := by decide +kernel
theorem gga_c_cs1_definedUnpol : DefinedUnpol {} .gga gga_c_cs1 :=
  definedUnpol_of _ gga_c_cs1_neverRaises (par := []) (npar := []) (flds := []) rfl rfl rfl (acheck_of_rcheck gga_c_cs1_checkUnpol)
theorem gga_c_cs1_regularUnpol : RegularUnpol {} .gga gga_c_cs1 :=
  regularUnpol_of _ (par := []) (npar := []) (flds := []) rfl rfl rfl gga_c_cs1_checkUnpol
theorem gga_c_cs1_checkPol : rcheck (acfg true .gga false false [] [] []) gga_c_cs1.polBody = true := by decide +kernel
theorem gga_c_cs1_definedPol : DefinedPol {} .gga gga_c_cs1 :=
  definedPol_of _ gga_c_cs1_neverRaises (par := []) (npar := []) (flds := []) rfl rfl rfl (acheck_of_rcheck gga_c_cs1_checkPol)
theorem gga_c_cs1_regularPol : RegularPol {} .gga gga_c_cs1 :=
  regularPol_of _ (par := []) (npar := []) (flds := []) rfl rfl rfl gga_c_cs1_checkPol
theorem gga_c_ft97_checkUnpol : rcheck (acfg false .gga false false [] [] []) gga_c_ft97.unpolBody = true := by decide +kernel
theorem gga_c_ft97_definedUnpol : DefinedUnpol {} .gga gga_c_ft97 :=
  definedUnpol_of _ gga_c_ft97_neverRaises (par := []) (npar := []) (flds := []) rfl rfl rfl (acheck_of_rcheck gga_c_ft97_checkUnpol)
theorem gga_c_ft97_regularUnpol : RegularUnpol {} .gga gga_c_ft97 :=
  regularUnpol_of _ (par := []) (npar := []) (flds := []) rfl rfl rfl gga_c_ft97_checkUnpol
theorem gga_c_ft97_checkPol : rcheck (acfg true .gga false false [] [] []) gga_c_ft97.polBody = true := by decide +kernel
theorem gga_c_ft97_definedPol : DefinedPol {} .gga gga_c_ft97 :=
  definedPol_of _ gga_c_ft97_neverRaises (par := []) (npar := []) (flds := []) rfl rfl rfl (acheck_of_rcheck gga_c_ft97_checkPol)
theorem gga_c_ft97_regularPol : RegularPol {} .gga gga_c_ft97 :=
  regularPol_of _ (par := []) (npar := []) (flds := []) rfl rfl rfl gga_c_ft97_checkPol
theorem gga_c_hcth_a_checkUnpol : rcheck (acfg false .gga false false [] [] []) gga_c_hcth_a.unpolBody = true := by decide +kernel
theorem gga_c_hcth_a_definedUnpol : DefinedUnpol {} .gga gga_c_hcth_a :=
  definedUnpol_of _ gga_c_hcth_a_neverRaises (par := []) (npar := []) (flds := []) rfl rfl rfl (acheck_of_rcheck gga_c_hcth_a_checkUnpol)
theorem gga_c_hcth_a_regularUnpol : RegularUnpol {} .gga gga_c_hcth_a :=
  regularUnpol_of _ (par := []) (npar := []) (flds := []) rfl rfl rfl gga_c_hcth_a_checkUnpol
theorem gga_c_hcth_a_checkPol : rcheck (acfg true .gga false false [] [] []) gga_c_hcth_a.polBody = true := by decide +kernel
theorem gga_c_hcth_a_definedPol : DefinedPol {} .gga gga_c_hcth_a :=
  definedPol_of _ gga_c_hcth_a_neverRaises (par := []) (npar := []) (flds := []) rfl rfl rfl (acheck_of_rcheck gga_c_hcth_a_checkPol)
theorem gga_c_hcth_a_regularPol : RegularPol {} .gga gga_c_hcth_a :=
  regularPol_of _ (par := []) (npar := []) (flds := []) rfl rfl rfl gga_c_hcth_a_checkPol
theorem gga_c_lm_regularUnpol : RegularUnpol {sPos := true} .gga gga_c_lm :=
  regularUnpol_of _ (par := []) (npar := []) (flds := []) rfl rfl rfl (by decide +kernel)
theorem gga_c_lm_definedUnpol : DefinedUnpol {} .gga gga_c_lm :=
  definedUnpol_of _ gga_c_lm_neverRaises (par := []) (npar := []) (flds := []) rfl rfl rfl (by decide +kernel)
theorem gga_c_lm_regularPol : RegularPol {sPos := true} .gga gga_c_lm :=
  regularPol_of _ (par := []) (npar := []) (flds := []) rfl rfl rfl (by decide +kernel)
theorem gga_c_lm_definedPol : DefinedPol {} .gga gga_c_lm :=
  definedPol_of _ gga_c_lm_neverRaises (par := []) (npar := []) (flds := []) rfl rfl rfl (by decide +kernel)
theorem gga_c_lyp_checkUnpol : rcheck (acfg false .gga false false [100] [] []) gga_c_lyp.unpolBody = true := by decide +kernel
theorem gga_c_lyp_definedUnpol : DefinedUnpol {params := ["d"]} .gga gga_c_lyp :=
  definedUnpol_of _ gga_c_lyp_neverRaises (par := [100]) (npar := []) (flds := []) (by simp [nameCode, nameCodeChars]) rfl rfl (acheck_of_rcheck gga_c_lyp_checkUnpol)
theorem gga_c_lyp_regularUnpol : RegularUnpol {params := ["d"]} .gga gga_c_lyp :=
  regularUnpol_of _ (par := [100]) (npar := []) (flds := []) (by simp [nameCode, nameCodeChars]) rfl rfl gga_c_lyp_checkUnpol
theorem gga_c_lyp_checkPol : rcheck (acfg true .gga false false [100] [] []) gga_c_lyp.polBody = true := by decide +kernel
theorem gga_c_lyp_definedPol : DefinedPol {params := ["d"]} .gga gga_c_lyp :=
  definedPol_of _ gga_c_lyp_neverRaises (par := [100]) (npar := []) (flds := []) (by simp [nameCode, nameCodeChars]) rfl rfl (acheck_of_rcheck gga_c_lyp_checkPol)
theorem gga_c_lyp_regularPol : RegularPol {params := ["d"]} .gga gga_c_lyp :=
  regularPol_of _ (par := [100]) (npar := []) (flds := []) (by simp [nameCode, nameCodeChars]) rfl rfl gga_c_lyp_checkPol
theorem gga_c_lypr_checkUnpol : rcheck (acfg false .gga false false [100] [] []) gga_c_lypr.unpolBody = true := by decide +kernel
theorem gga_c_lypr_definedUnpol : DefinedUnpol {params := ["d"]} .gga gga_c_lypr :=
  definedUnpol_of _ gga_c_lypr_neverRaises (par := [100]) (npar := []) (flds := []) (by simp [nameCode, nameCodeChars]) rfl rfl (acheck_of_rcheck gga_c_lypr_checkUnpol)
theorem gga_c_lypr_regularUnpol : RegularUnpol {params := ["d"]} .gga gga_c_lypr :=
  regularUnpol_of _ (par := [100]) (npar := []) (flds := []) (by simp [nameCode, nameCodeChars]) rfl rfl gga_c_lypr_checkUnpol
theorem gga_c_lypr_checkPol : rcheck (acfg true .gga false false [100] [] []) gga_c_lypr.polBody = true := by decide +kernel
theorem gga_c_lypr_definedPol : DefinedPol {params := ["d"]} .gga gga_c_lypr :=
  definedPol_of _ gga_c_lypr_neverRaises (par := [100]) (npar := []) (flds := []) (by simp [nameCode, nameCodeChars]) rfl rfl (acheck_of_rcheck gga_c_lypr_checkPol)
theorem gga_c_lypr_regularPol : RegularPol {params := ["d"]} .gga gga_c_lypr :=
  regularPol_of _ (par := [100]) (npar := []) (flds := []) (by simp [nameCode, nameCodeChars]) rfl rfl gga_c_lypr_checkPol
theorem gga_c_op_b88_regularUnpol : RegularUnpol {sPos := true} .gga gga_c_op_b88 :=
  regularUnpol_of _ (par := []) (npar := []) (flds := []) rfl rfl rfl (by decide +kernel)
theorem gga_c_op_b88_definedUnpol : DefinedUnpol {} .gga gga_c_op_b88 :=
  definedUnpol_of _ gga_c_op_b88_neverRaises (par := []) (npar := []) (flds := []) rfl rfl rfl (by decide +kernel)
theorem gga_c_op_b88_definedPol : DefinedPol {} .gga gga_c_op_b88 :=
  definedPol_of _ gga_c_op_b88_neverRaises (par := []) (npar := []) (flds := []) rfl rfl rfl (by decide +kernel)
theorem gga_c_op_g96_regularUnpol : RegularUnpol {sPos := true} .gga gga_c_op_g96 :=
  regularUnpol_of _ (par := []) (npar := []) (flds := []) rfl rfl rfl (by decide +kernel)
theorem gga_c_op_g96_definedUnpol : DefinedUnpol {} .gga gga_c_op_g96 :=
  definedUnpol_of _ gga_c_op_g96_neverRaises (par := []) (npar := []) (flds := []) rfl rfl rfl (by decide +kernel)
theorem gga_c_op_g96_definedPol : DefinedPol {} .gga gga_c_op_g96 :=
  definedPol_of _ gga_c_op_g96_neverRaises (par := []) (npar := []) (flds := []) rfl rfl rfl (by decide +kernel)
theorem gga_c_op_pbe_checkUnpol : rcheck (acfg false .gga false false [] [] []) gga_c_op_pbe.unpolBody = true := by decide +kernel
theorem gga_c_op_pbe_definedUnpol : DefinedUnpol {} .gga gga_c_op_pbe :=
  definedUnpol_of _ gga_c_op_pbe_neverRaises (par := []) (npar := []) (flds := []) rfl rfl rfl (acheck_of_rcheck gga_c_op_pbe_checkUnpol)
theorem gga_c_op_pbe_regularUnpol : RegularUnpol {} .gga gga_c_op_pbe :=
  regularUnpol_of _ (par := []) (npar := []) (flds := []) rfl rfl rfl gga_c_op_pbe_checkUnpol
theorem gga_c_op_pbe_definedPol : DefinedPol {} .gga gga_c_op_pbe :=
  definedPol_of _ gga_c_op_pbe_neverRaises (par := []) (npar := []) (flds := []) rfl rfl rfl (by decide +kernel)
theorem gga_c_op_xalpha_checkUnpol : rcheck (acfg false .gga false false [] [] []) gga_c_op_xalpha.unpolBody = true := by decide +kernel
theorem gga_c_op_xalpha_definedUnpol : DefinedUnpol {} .gga gga_c_op_xalpha :=
  definedUnpol_of _ gga_c_op_xalpha_neverRaises (par := []) (npar := []) (flds := []) rfl rfl rfl (acheck_of_rcheck gga_c_op_xalpha_checkUnpol)
theorem gga_c_op_xalpha_regularUnpol : RegularUnpol {} .gga gga_c_op_xalpha :=
  regularUnpol_of _ (par := []) (npar := []) (flds := []) rfl rfl rfl gga_c_op_xalpha_checkUnpol
theorem gga_c_op_xalpha_definedPol : DefinedPol {} .gga gga_c_op_xalpha :=
  definedPol_of _ gga_c_op_xalpha_neverRaises (par := []) (npar := []) (flds := []) rfl rfl rfl (by decide +kernel)
theorem gga_c_p86_regularUnpol : RegularUnpol {sPos := true, params := ["aa", "bb", "malpha", "mbeta", "mdelta", "mgamma"]} .gga gga_c_p86 :=
  regularUnpol_of _ (par := [24929, 25186, 120265198561377, 469802251361, 120277965763681, 120290783620449]) (npar := []) (flds := []) (by simp [nameCode, nameCodeChars]) rfl rfl (by decide +kernel)
theorem gga_c_p86_definedUnpol : DefinedUnpol {params := ["aa", "bb", "malpha", "mbeta", "mdelta", "mgamma"]} .gga gga_c_p86 :=
  definedUnpol_of _ gga_c_p86_neverRaises (par := [24929, 25186, 120265198561377, 469802251361, 120277965763681, 120290783620449]) (npar := []) (flds := []) (by simp [nameCode, nameCodeChars]) rfl rfl (by decide +kernel)
theorem gga_c_p86_regularPol : RegularPol {sPos := true, params := ["aa", "bb", "malpha", "mbeta", "mdelta", "mgamma"]} .gga gga_c_p86 :=
  regularPol_of _ (par := [24929, 25186, 120265198561377, 469802251361, 120277965763681, 120290783620449]) (npar := []) (flds := []) (by simp [nameCode, nameCodeChars]) rfl rfl (by decide +kernel)
theorem gga_c_p86_definedPol : DefinedPol {params := ["aa", "bb", "malpha", "mbeta", "mdelta", "mgamma"]} .gga gga_c_p86 :=
  definedPol_of _ gga_c_p86_neverRaises (par := [24929, 25186, 120265198561377, 469802251361, 120277965763681, 120290783620449]) (npar := []) (flds := []) (by simp [nameCode, nameCodeChars]) rfl rfl (by decide +kernel)
theorem gga_c_p86vwn_regularUnpol : RegularUnpol {sPos := true, params := ["aa", "bb", "malpha", "mbeta", "mdelta", "mgamma"]} .gga gga_c_p86vwn :=
  regularUnpol_of _ (par := [24929, 25186, 120265198561377, 469802251361, 120277965763681, 120290783620449]) (npar := []) (flds := []) (by simp [nameCode, nameCodeChars]) rfl rfl (by decide +kernel)
theorem gga_c_p86vwn_definedUnpol : DefinedUnpol {params := ["aa", "bb", "malpha", "mbeta", "mdelta", "mgamma"]} .gga gga_c_p86vwn :=
  definedUnpol_of _ gga_c_p86vwn_neverRaises (par := [24929, 25186, 120265198561377, 469802251361, 120277965763681, 120290783620449]) (npar := []) (flds := []) (by simp [nameCode, nameCodeChars]) rfl rfl (by decide +kernel)
theorem gga_c_p86vwn_regularPol : RegularPol {sPos := true, params := ["aa", "bb", "malpha", "mbeta", "mdelta", "mgamma"]} .gga gga_c_p86vwn :=
  regularPol_of _ (par := [24929, 25186, 120265198561377, 469802251361, 120277965763681, 120290783620449]) (npar := []) (flds := []) (by simp [nameCode, nameCodeChars]) rfl rfl (by decide +kernel)
theorem gga_c_p86vwn_definedPol : DefinedPol {params := ["aa", "bb", "malpha", "mbeta", "mdelta", "mgamma"]} .gga gga_c_p86vwn :=
  definedPol_of _ gga_c_p86vwn_neverRaises (par := [24929, 25186, 120265198561377, 469802251361, 120277965763681, 120290783620449]) (npar := []) (flds := []) (by simp [nameCode, nameCodeChars]) rfl rfl (by decide +kernel)
theorem gga_c_pbe_checkUnpol : rcheck (acfg false .gga false false [16962, 1650816097, 444016192865] [] []) gga_c_pbe.unpolBody = true := by decide +kernel
theorem gga_c_pbe_definedUnpol : DefinedUnpol {params := ["BB", "beta", "gamma"]} .gga gga_c_pbe :=
  definedUnpol_of _ gga_c_pbe_neverRaises (par := [16962, 1650816097, 444016192865]) (npar := []) (flds := []) (by simp [nameCode, nameCodeChars]) rfl rfl (acheck_of_rcheck gga_c_pbe_checkUnpol)
theorem gga_c_pbe_regularUnpol : RegularUnpol {params := ["BB", "beta", "gamma"]} .gga gga_c_pbe :=
  regularUnpol_of _ (par := [16962, 1650816097, 444016192865]) (npar := []) (flds := []) (by simp [nameCode, nameCodeChars]) rfl rfl gga_c_pbe_checkUnpol
theorem gga_c_pbeloc_checkUnpol : rcheck (acfg false .gga false false [] [] []) gga_c_pbeloc.unpolBody = true := by decide +kernel
theorem gga_c_pbeloc_definedUnpol : DefinedUnpol {} .gga gga_c_pbeloc :=
  definedUnpol_of _ gga_c_pbeloc_neverRaises (par := []) (npar := []) (flds := []) rfl rfl rfl (acheck_of_rcheck gga_c_pbeloc_checkUnpol)
theorem gga_c_pbeloc_regularUnpol : RegularUnpol {} .gga gga_c_pbeloc :=
  regularUnpol_of _ (par := []) (npar := []) (flds := []) rfl rfl rfl gga_c_pbeloc_checkUnpol
theorem gga_c_pw91_checkUnpol : rcheck (acfg false .gga false false [] [] []) gga_c_pw91.unpolBody = true := by decide +kernel
theorem gga_c_pw91_definedUnpol : DefinedUnpol {} .gga gga_c_pw91 :=
  definedUnpol_of _ gga_c_pw91_neverRaises (par := []) (npar := []) (flds := []) rfl rfl rfl (acheck_of_rcheck gga_c_pw91_checkUnpol)
theorem gga_c_pw91_regularUnpol : RegularUnpol {} .gga gga_c_pw91 :=
  regularUnpol_of _ (par := []) (npar := []) (flds := []) rfl rfl rfl gga_c_pw91_checkUnpol
theorem gga_c_regtpss_checkUnpol : rcheck (acfg false .gga false false [] [] []) gga_c_regtpss.unpolBody = true := by decide +kernel
theorem gga_c_regtpss_definedUnpol : DefinedUnpol {} .gga gga_c_regtpss :=
  definedUnpol_of _ gga_c_regtpss_neverRaises (par := []) (npar := []) (flds := []) rfl rfl rfl (acheck_of_rcheck gga_c_regtpss_checkUnpol)
theorem gga_c_regtpss_regularUnpol : RegularUnpol {} .gga gga_c_regtpss :=
  regularUnpol_of _ (par := []) (npar := []) (flds := []) rfl rfl rfl gga_c_regtpss_checkUnpol
theorem gga_c_revtca_regularUnpol : RegularUnpol {sPos := true} .gga gga_c_revtca :=
  regularUnpol_of _ (par := []) (npar := []) (flds := []) rfl rfl rfl (by decide +kernel)
theorem gga_c_revtca_definedUnpol : DefinedUnpol {} .gga gga_c_revtca :=
  definedUnpol_of _ gga_c_revtca_neverRaises (par := []) (npar := []) (flds := []) rfl rfl rfl (by decide +kernel)
theorem gga_c_revtca_regularPol : RegularPol {sPos := true} .gga gga_c_revtca :=
  regularPol_of _ (par := []) (npar := []) (flds := []) rfl rfl rfl (by decide +kernel)
theorem gga_c_revtca_definedPol : DefinedPol {} .gga gga_c_revtca :=
  definedPol_of _ gga_c_revtca_neverRaises (par := []) (npar := []) (flds := []) rfl rfl rfl (by decide +kernel)
theorem gga_c_scan_e0_checkUnpol : rcheck (acfg false .gga false false [] [] []) gga_c_scan_e0.unpolBody = true := by decide +kernel
theorem gga_c_scan_e0_definedUnpol : DefinedUnpol {} .gga gga_c_scan_e0 :=
  definedUnpol_of _ gga_c_scan_e0_neverRaises (par := []) (npar := []) (flds := []) rfl rfl rfl (acheck_of_rcheck gga_c_scan_e0_checkUnpol)
theorem gga_c_scan_e0_regularUnpol : RegularUnpol {} .gga gga_c_scan_e0 :=
  regularUnpol_of _ (par := []) (npar := []) (flds := []) rfl rfl rfl gga_c_scan_e0_checkUnpol
theorem gga_c_sg4_regularUnpol : RegularUnpol {sPos := true} .gga gga_c_sg4 :=
  regularUnpol_of _ (par := []) (npar := []) (flds := []) rfl rfl rfl (by decide +kernel)
theorem gga_c_sg4_definedUnpol : DefinedUnpol {} .gga gga_c_sg4 :=
  definedUnpol_of _ gga_c_sg4_neverRaises (par := []) (npar := []) (flds := []) rfl rfl rfl (by decide +kernel)
theorem gga_c_sogga11_checkUnpol : rcheck (acfg false .gga false false [] [] []) gga_c_sogga11.unpolBody = true := by decide +kernel
theorem gga_c_sogga11_definedUnpol : DefinedUnpol {} .gga gga_c_sogga11 :=
  definedUnpol_of _ gga_c_sogga11_neverRaises (par := []) (npar := []) (flds := []) rfl rfl rfl (acheck_of_rcheck gga_c_sogga11_checkUnpol)
theorem gga_c_sogga11_regularUnpol : RegularUnpol {} .gga gga_c_sogga11 :=
  regularUnpol_of _ (par := []) (npar := []) (flds := []) rfl rfl rfl gga_c_sogga11_checkUnpol
theorem gga_c_tca_regularUnpol : RegularUnpol {sPos := true} .gga gga_c_tca :=
  regularUnpol_of _ (par := []) (npar := []) (flds := []) rfl rfl rfl (by decide +kernel)
theorem gga_c_tca_definedUnpol : DefinedUnpol {} .gga gga_c_tca :=
  definedUnpol_of _ gga_c_tca_neverRaises (par := []) (npar := []) (flds := []) rfl rfl rfl (by decide +kernel)
theorem gga_c_tca_regularPol : RegularPol {sPos := true} .gga gga_c_tca :=
  regularPol_of _ (par := []) (npar := []) (flds := []) rfl rfl rfl (by decide +kernel)
theorem gga_c_tca_definedPol : DefinedPol {} .gga gga_c_tca :=
  definedPol_of _ gga_c_tca_neverRaises (par := []) (npar := []) (flds := []) rfl rfl rfl (by decide +kernel)
theorem gga_c_w94_regularUnpol : RegularUnpol {sPos := true} .gga gga_c_w94 :=
  regularUnpol_of _ (par := []) (npar := []) (flds := []) rfl rfl rfl (by decide +kernel)
theorem gga_c_w94_definedUnpol : DefinedUnpol {} .gga gga_c_w94 :=
  definedUnpol_of _ gga_c_w94_neverRaises (par := []) (npar := []) (flds := []) rfl rfl rfl (by decide +kernel)
theorem gga_c_wi_regularUnpol : RegularUnpol {sPos := true, params := ["c", "d"]} .gga gga_c_wi :=
  regularUnpol_of _ (par := [99, 100]) (npar := []) (flds := []) (by simp [nameCode, nameCodeChars]) rfl rfl (by decide +kernel)
theorem gga_c_wi_definedUnpol : DefinedUnpol {params := ["c", "d"]} .gga gga_c_wi :=
  definedUnpol_of _ gga_c_wi_neverRaises (par := [99, 100]) (npar := []) (flds := []) (by simp [nameCode, nameCodeChars]) rfl rfl (by decide +kernel)
theorem gga_c_wi_regularPol : RegularPol {sPos := true, params := ["c", "d"]} .gga gga_c_wi :=
  regularPol_of _ (par := [99, 100]) (npar := []) (flds := []) (by simp [nameCode, nameCodeChars]) rfl rfl (by decide +kernel)
theorem gga_c_wi_definedPol : DefinedPol {params := ["c", "d"]} .gga gga_c_wi :=
  definedPol_of _ gga_c_wi_neverRaises (par := [99, 100]) (npar := []) (flds := []) (by simp [nameCode, nameCodeChars]) rfl rfl (by decide +kernel)
theorem gga_c_wl_regularUnpol : RegularUnpol {sPos := true} .gga gga_c_wl :=
  regularUnpol_of _ (par := []) (npar := []) (flds := []) rfl rfl rfl (by decide +kernel)
theorem gga_c_wl_definedUnpol : DefinedUnpol {} .gga gga_c_wl :=
  definedUnpol_of _ gga_c_wl_neverRaises (par := []) (npar := []) (flds := []) rfl rfl rfl (by decide +kernel)
theorem gga_c_wl_regularPol : RegularPol {sPos := true} .gga gga_c_wl :=
  regularPol_of _ (par := []) (npar := []) (flds := []) rfl rfl rfl (by decide +kernel)
theorem gga_c_wl_definedPol : DefinedPol {} .gga gga_c_wl :=
  definedPol_of _ gga_c_wl_neverRaises (par := []) (npar := []) (flds := []) rfl rfl rfl (by decide +kernel)
theorem gga_c_zpbeint_regularUnpol : RegularUnpol {sPos := true, params := ["beta"]} .gga gga_c_zpbeint :=
  regularUnpol_of _ (par := [1650816097]) (npar := []) (flds := []) (by simp [nameCode, nameCodeChars]) rfl rfl (by decide +kernel)
theorem gga_c_zpbeint_definedUnpol : DefinedUnpol {params := ["beta"]} .gga gga_c_zpbeint :=
  definedUnpol_of _ gga_c_zpbeint_neverRaises (par := [1650816097]) (npar := []) (flds := []) (by simp [nameCode, nameCodeChars]) rfl rfl (by decide +kernel)
theorem gga_c_zvpbeint_regularUnpol : RegularUnpol {sPos := true, params := ["beta", "omega"]} .gga gga_c_zvpbeint :=
  regularUnpol_of _ (par := [1650816097, 478576732001]) (npar := []) (flds := []) (by simp [nameCode, nameCodeChars]) rfl rfl (by decide +kernel)
theorem gga_c_zvpbeint_definedUnpol : DefinedUnpol {params := ["beta", "omega"]} .gga gga_c_zvpbeint :=
  definedUnpol_of _ gga_c_zvpbeint_neverRaises (par := [1650816097, 478576732001]) (npar := []) (flds := []) (by simp [nameCode, nameCodeChars]) rfl rfl (by decide +kernel)
theorem gga_c_zvpbeloc_checkUnpol : rcheck (acfg false .gga false false [] [] []) gga_c_zvpbeloc.unpolBody = true := by decide +kernel
theorem gga_c_zvpbeloc_definedUnpol : DefinedUnpol {} .gga gga_c_zvpbeloc :=
  definedUnpol_of _ gga_c_zvpbeloc_neverRaises (par := []) (npar := []) (flds := []) rfl rfl rfl (acheck_of_rcheck gga_c_zvpbeloc_checkUnpol)
theorem gga_c_zvpbeloc_regularUnpol : RegularUnpol {} .gga gga_c_zvpbeloc :=
  regularUnpol_of _ (par := []) (npar := []) (flds := []) rfl rfl rfl gga_c_zvpbeloc_checkUnpol
theorem gga_k_apbe_checkUnpol : rcheck (acfg false .gga false false [461196259425, 28021] [] []) gga_k_apbe.unpolBody = true := by decide +kernel
theorem gga_k_apbe_definedUnpol : DefinedUnpol {params := ["kappa", "mu"]} .gga gga_k_apbe :=
  definedUnpol_of _ gga_k_apbe_neverRaises (par := [461196259425, 28021]) (npar := []) (flds := []) (by simp [nameCode, nameCodeChars]) rfl rfl (acheck_of_rcheck gga_k_apbe_checkUnpol)
theorem gga_k_apbe_regularUnpol : RegularUnpol {params := ["kappa", "mu"]} .gga gga_k_apbe :=
  regularUnpol_of _ (par := [461196259425, 28021]) (npar := []) (flds := []) (by simp [nameCode, nameCodeChars]) rfl rfl gga_k_apbe_checkUnpol
theorem gga_k_apbe_checkPol : rcheck (acfg true .gga false false [461196259425, 28021] [] []) gga_k_apbe.polBody = true := by decide +kernel
theorem gga_k_apbe_definedPol : DefinedPol {params := ["kappa", "mu"]} .gga gga_k_apbe :=
  definedPol_of _ gga_k_apbe_neverRaises (par := [461196259425, 28021]) (npar := []) (flds := []) (by simp [nameCode, nameCodeChars]) rfl rfl (acheck_of_rcheck gga_k_apbe_checkPol)
theorem gga_k_apbe_regularPol : RegularPol {params := ["kappa", "mu"]} .gga gga_k_apbe :=
  regularPol_of _ (par := [461196259425, 28021]) (npar := []) (flds := []) (by simp [nameCode, nameCodeChars]) rfl rfl gga_k_apbe_checkPol
theorem gga_k_dk_checkUnpol : rcheck (acfg false .gga false false [422556938333, 422556938589, 422556938845, 422556939101, 422556939357] [] []) gga_k_dk.unpolBody = true := by decide +kernel
theorem gga_k_dk_definedUnpol : DefinedUnpol {params := ["bb[0]", "bb[1]", "bb[2]", "bb[3]", "bb[4]"]} .gga gga_k_dk :=
  definedUnpol_of _ gga_k_dk_neverRaises (par := [422556938333, 422556938589, 422556938845, 422556939101, 422556939357]) (npar := []) (flds := []) (by simp [nameCode, nameCodeChars]) rfl rfl (acheck_of_rcheck gga_k_dk_checkUnpol)
theorem gga_k_dk_regularUnpol : RegularUnpol {params := ["bb[0]", "bb[1]", "bb[2]", "bb[3]", "bb[4]"]} .gga gga_k_dk :=
  regularUnpol_of _ (par := [422556938333, 422556938589, 422556938845, 422556939101, 422556939357]) (npar := []) (flds := []) (by simp [nameCode, nameCodeChars]) rfl rfl gga_k_dk_checkUnpol
theorem gga_k_dk_checkPol : rcheck (acfg true .gga false false [422556938333, 422556938589, 422556938845, 422556939101, 422556939357] [] []) gga_k_dk.polBody = true := by decide +kernel
theorem gga_k_dk_definedPol : DefinedPol {params := ["bb[0]", "bb[1]", "bb[2]", "bb[3]", "bb[4]"]} .gga gga_k_dk :=
  definedPol_of _ gga_k_dk_neverRaises (par := [422556938333, 422556938589, 422556938845, 422556939101, 422556939357]) (npar := []) (flds := []) (by simp [nameCode, nameCodeChars]) rfl rfl (acheck_of_rcheck gga_k_dk_checkPol)
theorem gga_k_dk_regularPol : RegularPol {params := ["bb[0]", "bb[1]", "bb[2]", "bb[3]", "bb[4]"]} .gga gga_k_dk :=
  regularPol_of _ (par := [422556938333, 422556938589, 422556938845, 422556939101, 422556939357]) (npar := []) (flds := []) (by simp [nameCode, nameCodeChars]) rfl rfl gga_k_dk_checkPol
theorem gga_k_exp4_checkUnpol : rcheck (acfg false .gga false false [] [] []) gga_k_exp4.unpolBody = true := by decide +kernel
theorem gga_k_exp4_definedUnpol : DefinedUnpol {} .gga gga_k_exp4 :=
  definedUnpol_of _ gga_k_exp4_neverRaises (par := []) (npar := []) (flds := []) rfl rfl rfl (acheck_of_rcheck gga_k_exp4_checkUnpol)
theorem gga_k_exp4_regularUnpol : RegularUnpol {} .gga gga_k_exp4 :=
  regularUnpol_of _ (par := []) (npar := []) (flds := []) rfl rfl rfl gga_k_exp4_checkUnpol
theorem gga_k_exp4_checkPol : rcheck (acfg true .gga false false [] [] []) gga_k_exp4.polBody = true := by decide +kernel
theorem gga_k_exp4_definedPol : DefinedPol {} .gga gga_k_exp4 :=
  definedPol_of _ gga_k_exp4_neverRaises (par := []) (npar := []) (flds := []) rfl rfl rfl (acheck_of_rcheck gga_k_exp4_checkPol)
theorem gga_k_exp4_regularPol : RegularPol {} .gga gga_k_exp4 :=
  regularPol_of _ (par := []) (npar := []) (flds := []) rfl rfl rfl gga_k_exp4_checkPol
theorem gga_k_lc94_regularUnpol : RegularUnpol {sPos := true, params := ["a", "b", "expo", "f"]} .gga gga_k_lc94 :=
  regularUnpol_of _ (par := [97, 98, 1702391919, 102]) (npar := []) (flds := []) (by simp [nameCode, nameCodeChars]) rfl rfl (by decide +kernel)
theorem gga_k_lc94_definedUnpol : DefinedUnpol {params := ["a", "b", "expo", "f"]} .gga gga_k_lc94 :=
  definedUnpol_of _ gga_k_lc94_neverRaises (par := [97, 98, 1702391919, 102]) (npar := []) (flds := []) (by simp [nameCode, nameCodeChars]) rfl rfl (by decide +kernel)
theorem gga_k_lc94_regularPol : RegularPol {sPos := true, params := ["a", "b", "expo", "f"]} .gga gga_k_lc94 :=
  regularPol_of _ (par := [97, 98, 1702391919, 102]) (npar := []) (flds := []) (by simp [nameCode, nameCodeChars]) rfl rfl (by decide +kernel)
theorem gga_k_lc94_definedPol : DefinedPol {params := ["a", "b", "expo", "f"]} .gga gga_k_lc94 :=
  definedPol_of _ gga_k_lc94_neverRaises (par := [97, 98, 1702391919, 102]) (npar := []) (flds := []) (by simp [nameCode, nameCodeChars]) rfl rfl (by decide +kernel)
theorem gga_k_lgap_regularUnpol : RegularUnpol {sPos := true} .gga gga_k_lgap :=
  regularUnpol_of _ (par := []) (npar := []) (flds := []) rfl rfl rfl (by decide +kernel)
theorem gga_k_lgap_definedUnpol : DefinedUnpol {} .gga gga_k_lgap :=
  definedUnpol_of _ gga_k_lgap_neverRaises (par := []) (npar := []) (flds := []) rfl rfl rfl (by decide +kernel)
theorem gga_k_lgap_regularPol : RegularPol {sPos := true} .gga gga_k_lgap :=
  regularPol_of _ (par := []) (npar := []) (flds := []) rfl rfl rfl (by decide +kernel)
theorem gga_k_lgap_definedPol : DefinedPol {} .gga gga_k_lgap :=
  definedPol_of _ gga_k_lgap_neverRaises (par := []) (npar := []) (flds := []) rfl rfl rfl (by decide +kernel)
theorem gga_k_lgap_ge_regularUnpol : RegularUnpol {sPos := true} .gga gga_k_lgap_ge :=
  regularUnpol_of _ (par := []) (npar := []) (flds := []) rfl rfl rfl (by decide +kernel)
theorem gga_k_lgap_ge_definedUnpol : DefinedUnpol {} .gga gga_k_lgap_ge :=
  definedUnpol_of _ gga_k_lgap_ge_neverRaises (par := []) (npar := []) (flds := []) rfl rfl rfl (by decide +kernel)
theorem gga_k_lgap_ge_regularPol : RegularPol {sPos := true} .gga gga_k_lgap_ge :=
  regularPol_of _ (par := []) (npar := []) (flds := []) rfl rfl rfl (by decide +kernel)
theorem gga_k_lgap_ge_definedPol : DefinedPol {} .gga gga_k_lgap_ge :=
  definedPol_of _ gga_k_lgap_ge_neverRaises (par := []) (npar := []) (flds := []) rfl rfl rfl (by decide +kernel)
theorem gga_k_lkt_regularUnpol : RegularUnpol {sPos := true} .gga gga_k_lkt :=
  regularUnpol_of _ (par := []) (npar := []) (flds := []) rfl rfl rfl (by decide +kernel)
theorem gga_k_lkt_definedUnpol : DefinedUnpol {} .gga gga_k_lkt :=
  definedUnpol_of _ gga_k_lkt_neverRaises (par := []) (npar := []) (flds := []) rfl rfl rfl (by decide +kernel)
theorem gga_k_lkt_regularPol : RegularPol {sPos := true} .gga gga_k_lkt :=
  regularPol_of _ (par := []) (npar := []) (flds := []) rfl rfl rfl (by decide +kernel)
theorem gga_k_lkt_definedPol : DefinedPol {} .gga gga_k_lkt :=
  definedPol_of _ gga_k_lkt_neverRaises (par := []) (npar := []) (flds := []) rfl rfl rfl (by decide +kernel)
theorem gga_k_llp_regularUnpol : RegularUnpol {sPos := true, params := ["beta", "gamma"]} .gga gga_k_llp :=
  regularUnpol_of _ (par := [1650816097, 444016192865]) (npar := []) (flds := []) (by simp [nameCode, nameCodeChars]) rfl rfl (by decide +kernel)
theorem gga_k_llp_definedUnpol : DefinedUnpol {params := ["beta", "gamma"]} .gga gga_k_llp :=
  definedUnpol_of _ gga_k_llp_neverRaises (par := [1650816097, 444016192865]) (npar := []) (flds := []) (by simp [nameCode, nameCodeChars]) rfl rfl (by decide +kernel)
theorem gga_k_llp_regularPol : RegularPol {sPos := true, params := ["beta", "gamma"]} .gga gga_k_llp :=
  regularPol_of _ (par := [1650816097, 444016192865]) (npar := []) (flds := []) (by simp [nameCode, nameCodeChars]) rfl rfl (by decide +kernel)
theorem gga_k_llp_definedPol : DefinedPol {params := ["beta", "gamma"]} .gga gga_k_llp :=
  definedPol_of _ gga_k_llp_neverRaises (par := [1650816097, 444016192865]) (npar := []) (flds := []) (by simp [nameCode, nameCodeChars]) rfl rfl (by decide +kernel)
theorem gga_k_mpbe_checkUnpol : rcheck (acfg false .gga false false [97] [] []) gga_k_mpbe.unpolBody = true := by decide +kernel
theorem gga_k_mpbe_definedUnpol : DefinedUnpol {params := ["a"]} .gga gga_k_mpbe :=
  definedUnpol_of _ gga_k_mpbe_neverRaises (par := [97]) (npar := []) (flds := []) (by simp [nameCode, nameCodeChars]) rfl rfl (acheck_of_rcheck gga_k_mpbe_checkUnpol)
theorem gga_k_mpbe_regularUnpol : RegularUnpol {params := ["a"]} .gga gga_k_mpbe :=
  regularUnpol_of _ (par := [97]) (npar := []) (flds := []) (by simp [nameCode, nameCodeChars]) rfl rfl gga_k_mpbe_checkUnpol
theorem gga_k_mpbe_checkPol : rcheck (acfg true .gga false false [97] [] []) gga_k_mpbe.polBody = true := by decide +kernel
theorem gga_k_mpbe_definedPol : DefinedPol {params := ["a"]} .gga gga_k_mpbe :=
  definedPol_of _ gga_k_mpbe_neverRaises (par := [97]) (npar := []) (flds := []) (by simp [nameCode, nameCodeChars]) rfl rfl (acheck_of_rcheck gga_k_mpbe_checkPol)
theorem gga_k_mpbe_regularPol : RegularPol {params := ["a"]} .gga gga_k_mpbe :=
  regularPol_of _ (par := [97]) (npar := []) (flds := []) (by simp [nameCode, nameCodeChars]) rfl rfl gga_k_mpbe_checkPol
theorem gga_k_ol1_regularUnpol : RegularUnpol {sPos := true} .gga gga_k_ol1 :=
  regularUnpol_of _ (par := []) (npar := []) (flds := []) rfl rfl rfl (by decide +kernel)
theorem gga_k_ol1_definedUnpol : DefinedUnpol {} .gga gga_k_ol1 :=
  definedUnpol_of _ gga_k_ol1_neverRaises (par := []) (npar := []) (flds := []) rfl rfl rfl (by decide +kernel)
theorem gga_k_ol1_regularPol : RegularPol {sPos := true} .gga gga_k_ol1 :=
  regularPol_of _ (par := []) (npar := []) (flds := []) rfl rfl rfl (by decide +kernel)
theorem gga_k_ol1_definedPol : DefinedPol {} .gga gga_k_ol1 :=
  definedPol_of _ gga_k_ol1_neverRaises (par := []) (npar := []) (flds := []) rfl rfl rfl (by decide +kernel)
theorem gga_k_ol2_regularUnpol : RegularUnpol {sPos := true} .gga gga_k_ol2 :=
  regularUnpol_of _ (par := []) (npar := []) (flds := []) rfl rfl rfl (by decide +kernel)
theorem gga_k_ol2_definedUnpol : DefinedUnpol {} .gga gga_k_ol2 :=
  definedUnpol_of _ gga_k_ol2_neverRaises (par := []) (npar := []) (flds := []) rfl rfl rfl (by decide +kernel)
theorem gga_k_ol2_regularPol : RegularPol {sPos := true} .gga gga_k_ol2 :=
  regularPol_of _ (par := []) (npar := []) (flds := []) rfl rfl rfl (by decide +kernel)
theorem gga_k_ol2_definedPol : DefinedPol {} .gga gga_k_ol2 :=
  definedPol_of _ gga_k_ol2_neverRaises (par := []) (npar := []) (flds := []) rfl rfl rfl (by decide +kernel)
theorem gga_k_pearson_checkUnpol : rcheck (acfg false .gga false false [] [] []) gga_k_pearson.unpolBody = true := by decide +kernel
theorem gga_k_pearson_definedUnpol : DefinedUnpol {} .gga gga_k_pearson :=
  definedUnpol_of _ gga_k_pearson_neverRaises (par := []) (npar := []) (flds := []) rfl rfl rfl (acheck_of_rcheck gga_k_pearson_checkUnpol)
theorem gga_k_pearson_regularUnpol : RegularUnpol {} .gga gga_k_pearson :=
  regularUnpol_of _ (par := []) (npar := []) (flds := []) rfl rfl rfl gga_k_pearson_checkUnpol
theorem gga_k_pearson_checkPol : rcheck (acfg true .gga false false [] [] []) gga_k_pearson.polBody = true := by decide +kernel
theorem gga_k_pearson_definedPol : DefinedPol {} .gga gga_k_pearson :=
  definedPol_of _ gga_k_pearson_neverRaises (par := []) (npar := []) (flds := []) rfl rfl rfl (acheck_of_rcheck gga_k_pearson_checkPol)
theorem gga_k_pearson_regularPol : RegularPol {} .gga gga_k_pearson :=
  regularPol_of _ (par := []) (npar := []) (flds := []) rfl rfl rfl gga_k_pearson_checkPol
theorem gga_k_pg_checkUnpol : rcheck (acfg false .gga false false [] [] []) gga_k_pg.unpolBody = true := by decide +kernel
theorem gga_k_pg_definedUnpol : DefinedUnpol {} .gga gga_k_pg :=
  definedUnpol_of _ gga_k_pg_neverRaises (par := []) (npar := []) (flds := []) rfl rfl rfl (acheck_of_rcheck gga_k_pg_checkUnpol)
theorem gga_k_pg_regularUnpol : RegularUnpol {} .gga gga_k_pg :=
  regularUnpol_of _ (par := []) (npar := []) (flds := []) rfl rfl rfl gga_k_pg_checkUnpol
theorem gga_k_pg_checkPol : rcheck (acfg true .gga false false [] [] []) gga_k_pg.polBody = true := by decide +kernel
theorem gga_k_pg_definedPol : DefinedPol {} .gga gga_k_pg :=
  definedPol_of _ gga_k_pg_neverRaises (par := []) (npar := []) (flds := []) rfl rfl rfl (acheck_of_rcheck gga_k_pg_checkPol)
theorem gga_k_pg_regularPol : RegularPol {} .gga gga_k_pg :=
  regularPol_of _ (par := []) (npar := []) (flds := []) rfl rfl rfl gga_k_pg_checkPol
theorem gga_k_pw86_checkUnpol : rcheck (acfg false .gga false false [] [] []) gga_k_pw86.unpolBody = true := by decide +kernel
theorem gga_k_pw86_definedUnpol : DefinedUnpol {} .gga gga_k_pw86 :=
  definedUnpol_of _ gga_k_pw86_neverRaises (par := []) (npar := []) (flds := []) rfl rfl rfl (acheck_of_rcheck gga_k_pw86_checkUnpol)
theorem gga_k_pw86_regularUnpol : RegularUnpol {} .gga gga_k_pw86 :=
  regularUnpol_of _ (par := []) (npar := []) (flds := []) rfl rfl rfl gga_k_pw86_checkUnpol
theorem gga_k_pw86_checkPol : rcheck (acfg true .gga false false [] [] []) gga_k_pw86.polBody = true := by decide +kernel
theorem gga_k_pw86_definedPol : DefinedPol {} .gga gga_k_pw86 :=
  definedPol_of _ gga_k_pw86_neverRaises (par := []) (npar := []) (flds := []) rfl rfl rfl (acheck_of_rcheck gga_k_pw86_checkPol)
theorem gga_k_pw86_regularPol : RegularPol {} .gga gga_k_pw86 :=
  regularPol_of _ (par := []) (npar := []) (flds := []) rfl rfl rfl gga_k_pw86_checkPol
theorem gga_k_rational_p_checkUnpol : rcheck (acfg false .gga false false [17202, 112] [] []) gga_k_rational_p.unpolBody = true := by decide +kernel
theorem gga_k_rational_p_definedUnpol : DefinedUnpol {params := ["C2", "p"]} .gga gga_k_rational_p :=
  definedUnpol_of _ gga_k_rational_p_neverRaises (par := [17202, 112]) (npar := []) (flds := []) (by simp [nameCode, nameCodeChars]) rfl rfl (acheck_of_rcheck gga_k_rational_p_checkUnpol)
theorem gga_k_rational_p_regularUnpol : RegularUnpol {params := ["C2", "p"]} .gga gga_k_rational_p :=
  regularUnpol_of _ (par := [17202, 112]) (npar := []) (flds := []) (by simp [nameCode, nameCodeChars]) rfl rfl gga_k_rational_p_checkUnpol
theorem gga_k_rational_p_checkPol : rcheck (acfg true .gga false false [17202, 112] [] []) gga_k_rational_p.polBody = true := by decide +kernel
theorem gga_k_rational_p_definedPol : DefinedPol {params := ["C2", "p"]} .gga gga_k_rational_p :=
  definedPol_of _ gga_k_rational_p_neverRaises (par := [17202, 112]) (npar := []) (flds := []) (by simp [nameCode, nameCodeChars]) rfl rfl (acheck_of_rcheck gga_k_rational_p_checkPol)
theorem gga_k_rational_p_regularPol : RegularPol {params := ["C2", "p"]} .gga gga_k_rational_p :=
  regularPol_of _ (par := [17202, 112]) (npar := []) (flds := []) (by simp [nameCode, nameCodeChars]) rfl rfl gga_k_rational_p_checkPol
theorem gga_k_tflw_checkUnpol : rcheck (acfg false .gga false false [] [] []) gga_k_tflw.unpolBody = true := by decide +kernel
theorem gga_k_tflw_definedUnpol : DefinedUnpol {} .gga gga_k_tflw :=
  definedUnpol_of _ gga_k_tflw_neverRaises (par := []) (npar := []) (flds := []) rfl rfl rfl (acheck_of_rcheck gga_k_tflw_checkUnpol)
theorem gga_k_tflw_regularUnpol : RegularUnpol {} .gga gga_k_tflw :=
  regularUnpol_of _ (par := []) (npar := []) (flds := []) rfl rfl rfl gga_k_tflw_checkUnpol
theorem gga_k_tflw_checkPol : rcheck (acfg true .gga false false [] [] []) gga_k_tflw.polBody = true := by decide +kernel
theorem gga_k_tflw_definedPol : DefinedPol {} .gga gga_k_tflw :=
  definedPol_of _ gga_k_tflw_neverRaises (par := []) (npar := []) (flds := []) rfl rfl rfl (acheck_of_rcheck gga_k_tflw_checkPol)
theorem gga_k_tflw_regularPol : RegularPol {} .gga gga_k_tflw :=
  regularPol_of _ (par := []) (npar := []) (flds := []) rfl rfl rfl gga_k_tflw_checkPol
theorem gga_k_thakkar_regularUnpol : RegularUnpol {sPos := true} .gga gga_k_thakkar :=
  regularUnpol_of _ (par := []) (npar := []) (flds := []) rfl rfl rfl (by decide +kernel)
theorem gga_k_thakkar_definedUnpol : DefinedUnpol {} .gga gga_k_thakkar :=
  definedUnpol_of _ gga_k_thakkar_neverRaises (par := []) (npar := []) (flds := []) rfl rfl rfl (by decide +kernel)
theorem gga_k_thakkar_regularPol : RegularPol {sPos := true} .gga gga_k_thakkar :=
  regularPol_of _ (par := []) (npar := []) (flds := []) rfl rfl rfl (by decide +kernel)
theorem gga_k_thakkar_definedPol : DefinedPol {} .gga gga_k_thakkar :=
  definedPol_of _ gga_k_thakkar_neverRaises (par := []) (npar := []) (flds := []) rfl rfl rfl (by decide +kernel)
theorem gga_k_vt84f_regularUnpol : RegularUnpol {sPos := true, params := ["mu"]} .gga gga_k_vt84f :=
  regularUnpol_of _ (par := [28021]) (npar := []) (flds := []) (by simp [nameCode, nameCodeChars]) rfl rfl (by decide +kernel)
theorem gga_k_vt84f_definedUnpol : DefinedUnpol {params := ["mu"]} .gga gga_k_vt84f :=
  definedUnpol_of _ gga_k_vt84f_neverRaises (par := [28021]) (npar := []) (flds := []) (by simp [nameCode, nameCodeChars]) rfl rfl (by decide +kernel)
theorem gga_k_vt84f_regularPol : RegularPol {sPos := true, params := ["mu"]} .gga gga_k_vt84f :=
  regularPol_of _ (par := [28021]) (npar := []) (flds := []) (by simp [nameCode, nameCodeChars]) rfl rfl (by decide +kernel)
theorem gga_k_vt84f_definedPol : DefinedPol {params := ["mu"]} .gga gga_k_vt84f :=
  definedPol_of _ gga_k_vt84f_neverRaises (par := [28021]) (npar := []) (flds := []) (by simp [nameCode, nameCodeChars]) rfl rfl (by decide +kernel)
theorem gga_x_2d_b86_checkUnpol : rcheck (acfg false .gga false false [] [] []) gga_x_2d_b86.unpolBody = true := by decide +kernel
theorem gga_x_2d_b86_definedUnpol : DefinedUnpol {} .gga gga_x_2d_b86 :=
  definedUnpol_of _ gga_x_2d_b86_neverRaises (par := []) (npar := []) (flds := []) rfl rfl rfl (acheck_of_rcheck gga_x_2d_b86_checkUnpol)
theorem gga_x_2d_b86_regularUnpol : RegularUnpol {} .gga gga_x_2d_b86 :=
  regularUnpol_of _ (par := []) (npar := []) (flds := []) rfl rfl rfl gga_x_2d_b86_checkUnpol
theorem gga_x_2d_b86_checkPol : rcheck (acfg true .gga false false [] [] []) gga_x_2d_b86.polBody = true := by decide +kernel
theorem gga_x_2d_b86_definedPol : DefinedPol {} .gga gga_x_2d_b86 :=
  definedPol_of _ gga_x_2d_b86_neverRaises (par := []) (npar := []) (flds := []) rfl rfl rfl (acheck_of_rcheck gga_x_2d_b86_checkPol)
theorem gga_x_2d_b86_regularPol : RegularPol {} .gga gga_x_2d_b86 :=
  regularPol_of _ (par := []) (npar := []) (flds := []) rfl rfl rfl gga_x_2d_b86_checkPol
theorem gga_x_2d_b86_mgc_checkUnpol : rcheck (acfg false .gga false false [] [] []) gga_x_2d_b86_mgc.unpolBody = true := by decide +kernel
theorem gga_x_2d_b86_mgc_definedUnpol : DefinedUnpol {} .gga gga_x_2d_b86_mgc :=
  definedUnpol_of _ gga_x_2d_b86_mgc_neverRaises (par := []) (npar := []) (flds := []) rfl rfl rfl (acheck_of_rcheck gga_x_2d_b86_mgc_checkUnpol)
theorem gga_x_2d_b86_mgc_regularUnpol : RegularUnpol {} .gga gga_x_2d_b86_mgc :=
  regularUnpol_of _ (par := []) (npar := []) (flds := []) rfl rfl rfl gga_x_2d_b86_mgc_checkUnpol
theorem gga_x_2d_b86_mgc_checkPol : rcheck (acfg true .gga false false [] [] []) gga_x_2d_b86_mgc.polBody = true := by decide +kernel
theorem gga_x_2d_b86_mgc_definedPol : DefinedPol {} .gga gga_x_2d_b86_mgc :=
  definedPol_of _ gga_x_2d_b86_mgc_neverRaises (par := []) (npar := []) (flds := []) rfl rfl rfl (acheck_of_rcheck gga_x_2d_b86_mgc_checkPol)
theorem gga_x_2d_b86_mgc_regularPol : RegularPol {} .gga gga_x_2d_b86_mgc :=
  regularPol_of _ (par := []) (npar := []) (flds := []) rfl rfl rfl gga_x_2d_b86_mgc_checkPol
theorem gga_x_2d_b88_regularUnpol : RegularUnpol {sPos := true} .gga gga_x_2d_b88 :=
  regularUnpol_of _ (par := []) (npar := []) (flds := []) rfl rfl rfl (by decide +kernel)
theorem gga_x_2d_b88_definedUnpol : DefinedUnpol {} .gga gga_x_2d_b88 :=
  definedUnpol_of _ gga_x_2d_b88_neverRaises (par := []) (npar := []) (flds := []) rfl rfl rfl (by decide +kernel)
theorem gga_x_2d_b88_regularPol : RegularPol {sPos := true} .gga gga_x_2d_b88 :=
  regularPol_of _ (par := []) (npar := []) (flds := []) rfl rfl rfl (by decide +kernel)
theorem gga_x_2d_b88_definedPol : DefinedPol {} .gga gga_x_2d_b88 :=
  definedPol_of _ gga_x_2d_b88_neverRaises (par := []) (npar := []) (flds := []) rfl rfl rfl (by decide +kernel)
theorem gga_x_2d_pbe_checkUnpol : rcheck (acfg false .gga false false [] [] []) gga_x_2d_pbe.unpolBody = true := by decide +kernel
theorem gga_x_2d_pbe_definedUnpol : DefinedUnpol {} .gga gga_x_2d_pbe :=
  definedUnpol_of _ gga_x_2d_pbe_neverRaises (par := []) (npar := []) (flds := []) rfl rfl rfl (acheck_of_rcheck gga_x_2d_pbe_checkUnpol)
theorem gga_x_2d_pbe_regularUnpol : RegularUnpol {} .gga gga_x_2d_pbe :=
  regularUnpol_of _ (par := []) (npar := []) (flds := []) rfl rfl rfl gga_x_2d_pbe_checkUnpol
theorem gga_x_2d_pbe_checkPol : rcheck (acfg true .gga false false [] [] []) gga_x_2d_pbe.polBody = true := by decide +kernel
theorem gga_x_2d_pbe_definedPol : DefinedPol {} .gga gga_x_2d_pbe :=
  definedPol_of _ gga_x_2d_pbe_neverRaises (par := []) (npar := []) (flds := []) rfl rfl rfl (acheck_of_rcheck gga_x_2d_pbe_checkPol)
theorem gga_x_2d_pbe_regularPol : RegularPol {} .gga gga_x_2d_pbe :=
  regularPol_of _ (par := []) (npar := []) (flds := []) rfl rfl rfl gga_x_2d_pbe_checkPol
theorem gga_x_airy_regularUnpol : RegularUnpol {sPos := true} .gga gga_x_airy :=
  regularUnpol_of _ (par := []) (npar := []) (flds := []) rfl rfl rfl (by decide +kernel)
theorem gga_x_airy_definedUnpol : DefinedUnpol {} .gga gga_x_airy :=
  definedUnpol_of _ gga_x_airy_neverRaises (par := []) (npar := []) (flds := []) rfl rfl rfl (by decide +kernel)
theorem gga_x_airy_regularPol : RegularPol {sPos := true} .gga gga_x_airy :=
  regularPol_of _ (par := []) (npar := []) (flds := []) rfl rfl rfl (by decide +kernel)
theorem gga_x_airy_definedPol : DefinedPol {} .gga gga_x_airy :=
  definedPol_of _ gga_x_airy_neverRaises (par := []) (npar := []) (flds := []) rfl rfl rfl (by decide +kernel)
theorem gga_x_ak13_regularUnpol : RegularUnpol {sPos := true} .gga gga_x_ak13 :=
  regularUnpol_of _ (par := []) (npar := []) (flds := []) rfl rfl rfl (by decide +kernel)
theorem gga_x_ak13_definedUnpol : DefinedUnpol {} .gga gga_x_ak13 :=
  definedUnpol_of _ gga_x_ak13_neverRaises (par := []) (npar := []) (flds := []) rfl rfl rfl (by decide +kernel)
theorem gga_x_ak13_regularPol : RegularPol {sPos := true} .gga gga_x_ak13 :=
  regularPol_of _ (par := []) (npar := []) (flds := []) rfl rfl rfl (by decide +kernel)
theorem gga_x_ak13_definedPol : DefinedPol {} .gga gga_x_ak13 :=
  definedPol_of _ gga_x_ak13_neverRaises (par := []) (npar := []) (flds := []) rfl rfl rfl (by decide +kernel)
theorem gga_x_b86_checkUnpol : rcheck (acfg false .gga false false [444016192865] [] []) gga_x_b86.unpolBody = true := by decide +kernel
theorem gga_x_b86_definedUnpol : DefinedUnpol {params := ["gamma"]} .gga gga_x_b86 :=
  definedUnpol_of _ gga_x_b86_neverRaises (par := [444016192865]) (npar := []) (flds := []) (by simp [nameCode, nameCodeChars]) rfl rfl (acheck_of_rcheck gga_x_b86_checkUnpol)
theorem gga_x_b86_regularUnpol : RegularUnpol {params := ["gamma"]} .gga gga_x_b86 :=
  regularUnpol_of _ (par := [444016192865]) (npar := []) (flds := []) (by simp [nameCode, nameCodeChars]) rfl rfl gga_x_b86_checkUnpol
theorem gga_x_b86_checkPol : rcheck (acfg true .gga false false [444016192865] [] []) gga_x_b86.polBody = true := by decide +kernel
theorem gga_x_b86_definedPol : DefinedPol {params := ["gamma"]} .gga gga_x_b86 :=
  definedPol_of _ gga_x_b86_neverRaises (par := [444016192865]) (npar := []) (flds := []) (by simp [nameCode, nameCodeChars]) rfl rfl (acheck_of_rcheck gga_x_b86_checkPol)
theorem gga_x_b86_regularPol : RegularPol {params := ["gamma"]} .gga gga_x_b86 :=
  regularPol_of _ (par := [444016192865]) (npar := []) (flds := []) (by simp [nameCode, nameCodeChars]) rfl rfl gga_x_b86_checkPol
theorem gga_x_b88_regularUnpol : RegularUnpol {sPos := true, params := ["beta", "gamma"]} .gga gga_x_b88 :=
  regularUnpol_of _ (par := [1650816097, 444016192865]) (npar := []) (flds := []) (by simp [nameCode, nameCodeChars]) rfl rfl (by decide +kernel)
theorem gga_x_b88_definedUnpol : DefinedUnpol {params := ["beta", "gamma"]} .gga gga_x_b88 :=
  definedUnpol_of _ gga_x_b88_neverRaises (par := [1650816097, 444016192865]) (npar := []) (flds := []) (by simp [nameCode, nameCodeChars]) rfl rfl (by decide +kernel)
theorem gga_x_b88_regularPol : RegularPol {sPos := true, params := ["beta", "gamma"]} .gga gga_x_b88 :=
  regularPol_of _ (par := [1650816097, 444016192865]) (npar := []) (flds := []) (by simp [nameCode, nameCodeChars]) rfl rfl (by decide +kernel)
theorem gga_x_b88_definedPol : DefinedPol {params := ["beta", "gamma"]} .gga gga_x_b88 :=
  definedPol_of _ gga_x_b88_neverRaises (par := [1650816097, 444016192865]) (npar := []) (flds := []) (by simp [nameCode, nameCodeChars]) rfl rfl (by decide +kernel)
theorem gga_x_bayesian_regularUnpol : RegularUnpol {sPos := true} .gga gga_x_bayesian :=
  regularUnpol_of _ (par := []) (npar := []) (flds := []) rfl rfl rfl (by decide +kernel)
theorem gga_x_bayesian_definedUnpol : DefinedUnpol {} .gga gga_x_bayesian :=
  definedUnpol_of _ gga_x_bayesian_neverRaises (par := []) (npar := []) (flds := []) rfl rfl rfl (by decide +kernel)
theorem gga_x_bayesian_regularPol : RegularPol {sPos := true} .gga gga_x_bayesian :=
  regularPol_of _ (par := []) (npar := []) (flds := []) rfl rfl rfl (by decide +kernel)
theorem gga_x_bayesian_definedPol : DefinedPol {} .gga gga_x_bayesian :=
  definedPol_of _ gga_x_bayesian_neverRaises (par := []) (npar := []) (flds := []) rfl rfl rfl (by decide +kernel)
theorem gga_x_beefvdw_checkUnpol : rcheck (acfg false .gga false false [] [] []) gga_x_beefvdw.unpolBody = true := by decide +kernel
theorem gga_x_beefvdw_definedUnpol : DefinedUnpol {} .gga gga_x_beefvdw :=
  definedUnpol_of _ gga_x_beefvdw_neverRaises (par := []) (npar := []) (flds := []) rfl rfl rfl (acheck_of_rcheck gga_x_beefvdw_checkUnpol)
theorem gga_x_beefvdw_regularUnpol : RegularUnpol {} .gga gga_x_beefvdw :=
  regularUnpol_of _ (par := []) (npar := []) (flds := []) rfl rfl rfl gga_x_beefvdw_checkUnpol
theorem gga_x_beefvdw_checkPol : rcheck (acfg true .gga false false [] [] []) gga_x_beefvdw.polBody = true := by decide +kernel
theorem gga_x_beefvdw_definedPol : DefinedPol {} .gga gga_x_beefvdw :=
  definedPol_of _ gga_x_beefvdw_neverRaises (par := []) (npar := []) (flds := []) rfl rfl rfl (acheck_of_rcheck gga_x_beefvdw_checkPol)
theorem gga_x_beefvdw_regularPol : RegularPol {} .gga gga_x_beefvdw :=
  regularPol_of _ (par := []) (npar := []) (flds := []) rfl rfl rfl gga_x_beefvdw_checkPol
theorem gga_x_bpccac_regularUnpol : RegularUnpol {sPos := true} .gga gga_x_bpccac :=
  regularUnpol_of _ (par := []) (npar := []) (flds := []) rfl rfl rfl (by decide +kernel)
theorem gga_x_bpccac_definedUnpol : DefinedUnpol {} .gga gga_x_bpccac :=
  definedUnpol_of _ gga_x_bpccac_neverRaises (par := []) (npar := []) (flds := []) rfl rfl rfl (by decide +kernel)
theorem gga_x_bpccac_regularPol : RegularPol {sPos := true} .gga gga_x_bpccac :=
  regularPol_of _ (par := []) (npar := []) (flds := []) rfl rfl rfl (by decide +kernel)
theorem gga_x_bpccac_definedPol : DefinedPol {} .gga gga_x_bpccac :=
  definedPol_of _ gga_x_bpccac_neverRaises (par := []) (npar := []) (flds := []) rfl rfl rfl (by decide +kernel)
theorem gga_x_c09x_checkUnpol : rcheck (acfg false .gga false false [] [] []) gga_x_c09x.unpolBody = true := by decide +kernel
theorem gga_x_c09x_definedUnpol : DefinedUnpol {} .gga gga_x_c09x :=
  definedUnpol_of _ gga_x_c09x_neverRaises (par := []) (npar := []) (flds := []) rfl rfl rfl (acheck_of_rcheck gga_x_c09x_checkUnpol)
theorem gga_x_c09x_regularUnpol : RegularUnpol {} .gga gga_x_c09x :=
  regularUnpol_of _ (par := []) (npar := []) (flds := []) rfl rfl rfl gga_x_c09x_checkUnpol
theorem gga_x_c09x_checkPol : rcheck (acfg true .gga false false [] [] []) gga_x_c09x.polBody = true := by decide +kernel
theorem gga_x_c09x_definedPol : DefinedPol {} .gga gga_x_c09x :=
  definedPol_of _ gga_x_c09x_neverRaises (par := []) (npar := []) (flds := []) rfl rfl rfl (acheck_of_rcheck gga_x_c09x_checkPol)
theorem gga_x_c09x_regularPol : RegularPol {} .gga gga_x_c09x :=
  regularPol_of _ (par := []) (npar := []) (flds := []) rfl rfl rfl gga_x_c09x_checkPol
theorem gga_x_cap_regularUnpol : RegularUnpol {sPos := true, params := ["c"]} .gga gga_x_cap :=
  regularUnpol_of _ (par := [99]) (npar := []) (flds := []) (by simp [nameCode, nameCodeChars]) rfl rfl (by decide +kernel)
theorem gga_x_cap_definedUnpol : DefinedUnpol {params := ["c"]} .gga gga_x_cap :=
  definedUnpol_of _ gga_x_cap_neverRaises (par := [99]) (npar := []) (flds := []) (by simp [nameCode, nameCodeChars]) rfl rfl (by decide +kernel)
theorem gga_x_cap_regularPol : RegularPol {sPos := true, params := ["c"]} .gga gga_x_cap :=
  regularPol_of _ (par := [99]) (npar := []) (flds := []) (by simp [nameCode, nameCodeChars]) rfl rfl (by decide +kernel)
theorem gga_x_cap_definedPol : DefinedPol {params := ["c"]} .gga gga_x_cap :=
  definedPol_of _ gga_x_cap_neverRaises (par := [99]) (npar := []) (flds := []) (by simp [nameCode, nameCodeChars]) rfl rfl (by decide +kernel)
theorem gga_x_chachiyo_checkUnpol : rcheck (acfg false .gga true false [] [] []) gga_x_chachiyo.unpolBody = true := by decide +kernel
theorem gga_x_chachiyo_definedUnpol : DefinedUnpol {sPos := true} .gga gga_x_chachiyo :=
  definedUnpol_of _ gga_x_chachiyo_neverRaises (par := []) (npar := []) (flds := []) rfl rfl rfl (acheck_of_rcheck gga_x_chachiyo_checkUnpol)
theorem gga_x_chachiyo_regularUnpol : RegularUnpol {sPos := true} .gga gga_x_chachiyo :=
  regularUnpol_of _ (par := []) (npar := []) (flds := []) rfl rfl rfl gga_x_chachiyo_checkUnpol
theorem gga_x_chachiyo_checkPol : rcheck (acfg true .gga true false [] [] []) gga_x_chachiyo.polBody = true := by decide +kernel
theorem gga_x_chachiyo_definedPol : DefinedPol {sPos := true} .gga gga_x_chachiyo :=
  definedPol_of _ gga_x_chachiyo_neverRaises (par := []) (npar := []) (flds := []) rfl rfl rfl (acheck_of_rcheck gga_x_chachiyo_checkPol)
theorem gga_x_chachiyo_regularPol : RegularPol {sPos := true} .gga gga_x_chachiyo :=
  regularPol_of _ (par := []) (npar := []) (flds := []) rfl rfl rfl gga_x_chachiyo_checkPol
theorem gga_x_dk87_regularUnpol : RegularUnpol {sPos := true, params := ["alpha", "b1"]} .gga gga_x_dk87 :=
  regularUnpol_of _ (par := [418431133793, 25137]) (npar := []) (flds := []) (by simp [nameCode, nameCodeChars]) rfl rfl (by decide +kernel)
theorem gga_x_dk87_definedUnpol : DefinedUnpol {params := ["alpha", "b1"]} .gga gga_x_dk87 :=
  definedUnpol_of _ gga_x_dk87_neverRaises (par := [418431133793, 25137]) (npar := []) (flds := []) (by simp [nameCode, nameCodeChars]) rfl rfl (by decide +kernel)
theorem gga_x_dk87_regularPol : RegularPol {sPos := true, params := ["alpha", "b1"]} .gga gga_x_dk87 :=
  regularPol_of _ (par := [418431133793, 25137]) (npar := []) (flds := []) (by simp [nameCode, nameCodeChars]) rfl rfl (by decide +kernel)
theorem gga_x_dk87_definedPol : DefinedPol {params := ["alpha", "b1"]} .gga gga_x_dk87 :=
  definedPol_of _ gga_x_dk87_neverRaises (par := [418431133793, 25137]) (npar := []) (flds := []) (by simp [nameCode, nameCodeChars]) rfl rfl (by decide +kernel)
theorem gga_x_ev93_checkUnpol : rcheck (acfg false .gga false false [25137, 25138, 25139] [] []) gga_x_ev93.unpolBody = true := by decide +kernel
theorem gga_x_ev93_definedUnpol : DefinedUnpol {params := ["b1", "b2", "b3"]} .gga gga_x_ev93 :=
  definedUnpol_of _ gga_x_ev93_neverRaises (par := [25137, 25138, 25139]) (npar := []) (flds := []) (by simp [nameCode, nameCodeChars]) rfl rfl (acheck_of_rcheck gga_x_ev93_checkUnpol)
theorem gga_x_ev93_regularUnpol : RegularUnpol {params := ["b1", "b2", "b3"]} .gga gga_x_ev93 :=
  regularUnpol_of _ (par := [25137, 25138, 25139]) (npar := []) (flds := []) (by simp [nameCode, nameCodeChars]) rfl rfl gga_x_ev93_checkUnpol
theorem gga_x_ev93_checkPol : rcheck (acfg true .gga false false [25137, 25138, 25139] [] []) gga_x_ev93.polBody = true := by decide +kernel
theorem gga_x_ev93_definedPol : DefinedPol {params := ["b1", "b2", "b3"]} .gga gga_x_ev93 :=
  definedPol_of _ gga_x_ev93_neverRaises (par := [25137, 25138, 25139]) (npar := []) (flds := []) (by simp [nameCode, nameCodeChars]) rfl rfl (acheck_of_rcheck gga_x_ev93_checkPol)
theorem gga_x_ev93_regularPol : RegularPol {params := ["b1", "b2", "b3"]} .gga gga_x_ev93 :=
  regularPol_of _ (par := [25137, 25138, 25139]) (npar := []) (flds := []) (by simp [nameCode, nameCodeChars]) rfl rfl gga_x_ev93_checkPol
theorem gga_x_ft97_checkUnpol : rcheck (acfg false .gga false false [422608920882] [] []) gga_x_ft97.unpolBody = true := by decide +kernel
theorem gga_x_ft97_definedUnpol : DefinedUnpol {params := ["beta2"]} .gga gga_x_ft97 :=
  definedUnpol_of _ gga_x_ft97_neverRaises (par := [422608920882]) (npar := []) (flds := []) (by simp [nameCode, nameCodeChars]) rfl rfl (acheck_of_rcheck gga_x_ft97_checkUnpol)
theorem gga_x_ft97_regularUnpol : RegularUnpol {params := ["beta2"]} .gga gga_x_ft97 :=
  regularUnpol_of _ (par := [422608920882]) (npar := []) (flds := []) (by simp [nameCode, nameCodeChars]) rfl rfl gga_x_ft97_checkUnpol
theorem gga_x_ft97_checkPol : rcheck (acfg true .gga false false [422608920882] [] []) gga_x_ft97.polBody = true := by decide +kernel
theorem gga_x_ft97_definedPol : DefinedPol {params := ["beta2"]} .gga gga_x_ft97 :=
  definedPol_of _ gga_x_ft97_neverRaises (par := [422608920882]) (npar := []) (flds := []) (by simp [nameCode, nameCodeChars]) rfl rfl (acheck_of_rcheck gga_x_ft97_checkPol)
theorem gga_x_ft97_regularPol : RegularPol {params := ["beta2"]} .gga gga_x_ft97 :=
  regularPol_of _ (par := [422608920882]) (npar := []) (flds := []) (by simp [nameCode, nameCodeChars]) rfl rfl gga_x_ft97_checkPol
theorem gga_x_g96_regularUnpol : RegularUnpol {sPos := true} .gga gga_x_g96 :=
  regularUnpol_of _ (par := []) (npar := []) (flds := []) rfl rfl rfl (by decide +kernel)
theorem gga_x_g96_definedUnpol : DefinedUnpol {} .gga gga_x_g96 :=
  definedUnpol_of _ gga_x_g96_neverRaises (par := []) (npar := []) (flds := []) rfl rfl rfl (by decide +kernel)
theorem gga_x_g96_regularPol : RegularPol {sPos := true} .gga gga_x_g96 :=
  regularPol_of _ (par := []) (npar := []) (flds := []) rfl rfl rfl (by decide +kernel)
theorem gga_x_g96_definedPol : DefinedPol {} .gga gga_x_g96 :=
  definedPol_of _ gga_x_g96_neverRaises (par := []) (npar := []) (flds := []) rfl rfl rfl (by decide +kernel)
theorem gga_x_hcth_a_regularUnpol : RegularUnpol {sPos := true} .gga gga_x_hcth_a :=
  regularUnpol_of _ (par := []) (npar := []) (flds := []) rfl rfl rfl (by decide +kernel)
theorem gga_x_hcth_a_definedUnpol : DefinedUnpol {} .gga gga_x_hcth_a :=
  definedUnpol_of _ gga_x_hcth_a_neverRaises (par := []) (npar := []) (flds := []) rfl rfl rfl (by decide +kernel)
theorem gga_x_hcth_a_regularPol : RegularPol {sPos := true} .gga gga_x_hcth_a :=
  regularPol_of _ (par := []) (npar := []) (flds := []) rfl rfl rfl (by decide +kernel)
theorem gga_x_hcth_a_definedPol : DefinedPol {} .gga gga_x_hcth_a :=
  definedPol_of _ gga_x_hcth_a_neverRaises (par := []) (npar := []) (flds := []) rfl rfl rfl (by decide +kernel)
theorem gga_x_herman_checkUnpol : rcheck (acfg false .gga false false [] [] []) gga_x_herman.unpolBody = true := by decide +kernel
theorem gga_x_herman_definedUnpol : DefinedUnpol {} .gga gga_x_herman :=
  definedUnpol_of _ gga_x_herman_neverRaises (par := []) (npar := []) (flds := []) rfl rfl rfl (acheck_of_rcheck gga_x_herman_checkUnpol)
theorem gga_x_herman_regularUnpol : RegularUnpol {} .gga gga_x_herman :=
  regularUnpol_of _ (par := []) (npar := []) (flds := []) rfl rfl rfl gga_x_herman_checkUnpol
theorem gga_x_herman_checkPol : rcheck (acfg true .gga false false [] [] []) gga_x_herman.polBody = true := by decide +kernel
theorem gga_x_herman_definedPol : DefinedPol {} .gga gga_x_herman :=
  definedPol_of _ gga_x_herman_neverRaises (par := []) (npar := []) (flds := []) rfl rfl rfl (acheck_of_rcheck gga_x_herman_checkPol)
theorem gga_x_herman_regularPol : RegularPol {} .gga gga_x_herman :=
  regularPol_of _ (par := []) (npar := []) (flds := []) rfl rfl rfl gga_x_herman_checkPol
theorem gga_x_hjs_regularUnpol : RegularUnpol {sPos := true, params := ["b[0]", "b[1]", "b[2]", "b[3]", "b[4]", "b[5]", "b[6]", "b[7]", "b[8]"], flds := [.camOmega]} .gga gga_x_hjs :=
  regularUnpol_of _ (par := [1650143325, 1650143581, 1650143837, 1650144093, 1650144349, 1650144605, 1650144861, 1650145117, 1650145373]) (npar := []) (flds := [2]) (by simp [nameCode, nameCodeChars]) rfl rfl (by decide +kernel)
theorem gga_x_hjs_definedUnpol : DefinedUnpol {params := ["b[0]", "b[1]", "b[2]", "b[3]", "b[4]", "b[5]", "b[6]", "b[7]", "b[8]"], flds := [.camOmega]} .gga gga_x_hjs :=
  definedUnpol_of _ gga_x_hjs_neverRaises (par := [1650143325, 1650143581, 1650143837, 1650144093, 1650144349, 1650144605, 1650144861, 1650145117, 1650145373]) (npar := []) (flds := [2]) (by simp [nameCode, nameCodeChars]) rfl rfl (by decide +kernel)
theorem gga_x_hjs_regularPol : RegularPol {sPos := true, params := ["b[0]", "b[1]", "b[2]", "b[3]", "b[4]", "b[5]", "b[6]", "b[7]", "b[8]"], flds := [.camOmega]} .gga gga_x_hjs :=
  regularPol_of _ (par := [1650143325, 1650143581, 1650143837, 1650144093, 1650144349, 1650144605, 1650144861, 1650145117, 1650145373]) (npar := []) (flds := [2]) (by simp [nameCode, nameCodeChars]) rfl rfl (by decide +kernel)
theorem gga_x_hjs_definedPol : DefinedPol {params := ["b[0]", "b[1]", "b[2]", "b[3]", "b[4]", "b[5]", "b[6]", "b[7]", "b[8]"], flds := [.camOmega]} .gga gga_x_hjs :=
  definedPol_of _ gga_x_hjs_neverRaises (par := [1650143325, 1650143581, 1650143837, 1650144093, 1650144349, 1650144605, 1650144861, 1650145117, 1650145373]) (npar := []) (flds := [2]) (by simp [nameCode, nameCodeChars]) rfl rfl (by decide +kernel)

end Verif.Props
