import Verif.Norm.Regular
import Verif.Props.Static3
/-!
# C49, C52: formulas that are defined, and smooth, on their domain
-/
set_option Elab.async false
set_option maxRecDepth 100000
namespace Verif.Props
open Verif.Py Verif.Model Verif.Spec Verif.Norm Verif.Data

theorem lda_c_pz_checkUnpol : rcheck (acfg false .lda false false [7090201149153423453, 7090201149153423709, 7090201149170200669, 7090201149170200925] [] []) lda_c_pz.unpolBody = true := by decide +kernel
theorem lda_c_pz_definedUnpol : DefinedUnpol {params := ["beta1[0]", "beta1[1]", "beta2[0]", "beta2[1]"]} .lda lda_c_pz :=
  definedUnpol_of _ lda_c_pz_neverRaises (par := [7090201149153423453, 7090201149153423709, 7090201149170200669, 7090201149170200925]) (npar := []) (flds := []) (by simp [nameCode, nameCodeChars]) rfl rfl (acheck_of_rcheck lda_c_pz_checkUnpol)
theorem lda_c_pz_regularUnpol : RegularUnpol {params := ["beta1[0]", "beta1[1]", "beta2[0]", "beta2[1]"]} .lda lda_c_pz :=
  regularUnpol_of _ (par := [7090201149153423453, 7090201149153423709, 7090201149170200669, 7090201149170200925]) (npar := []) (flds := []) (by simp [nameCode, nameCodeChars]) rfl rfl lda_c_pz_checkUnpol
theorem lda_c_pz_checkPol : rcheck (acfg true .lda false false [7090201149153423453, 7090201149153423709, 7090201149170200669, 7090201149170200925] [] []) lda_c_pz.polBody = true := by decide +kernel
theorem lda_c_pz_definedPol : DefinedPol {params := ["beta1[0]", "beta1[1]", "beta2[0]", "beta2[1]"]} .lda lda_c_pz :=
  definedPol_of _ lda_c_pz_neverRaises (par := [7090201149153423453, 7090201149153423709, 7090201149170200669, 7090201149170200925]) (npar := []) (flds := []) (by simp [nameCode, nameCodeChars]) rfl rfl (acheck_of_rcheck lda_c_pz_checkPol)
theorem lda_c_pz_regularPol : RegularPol {params := ["beta1[0]", "beta1[1]", "beta2[0]", "beta2[1]"]} .lda lda_c_pz :=
  regularPol_of _ (par := [7090201149153423453, 7090201149153423709, 7090201149170200669, 7090201149170200925]) (npar := []) (flds := []) (by simp [nameCode, nameCodeChars]) rfl rfl lda_c_pz_checkPol
theorem lda_c_rc04_checkUnpol : rcheck (acfg false .lda false false [] [] []) lda_c_rc04.unpolBody = true := by decide +kernel
theorem lda_c_rc04_definedUnpol : DefinedUnpol {} .lda lda_c_rc04 :=
  definedUnpol_of _ lda_c_rc04_neverRaises (par := []) (npar := []) (flds := []) rfl rfl rfl (acheck_of_rcheck lda_c_rc04_checkUnpol)
theorem lda_c_rc04_regularUnpol : RegularUnpol {} .lda lda_c_rc04 :=
  regularUnpol_of _ (par := []) (npar := []) (flds := []) rfl rfl rfl lda_c_rc04_checkUnpol
theorem lda_c_rc04_checkPol : rcheck (acfg true .lda false false [] [] []) lda_c_rc04.polBody = true := by decide +kernel
theorem lda_c_rc04_definedPol : DefinedPol {} .lda lda_c_rc04 :=
  definedPol_of _ lda_c_rc04_neverRaises (par := []) (npar := []) (flds := []) rfl rfl rfl (acheck_of_rcheck lda_c_rc04_checkPol)
theorem lda_c_rc04_regularPol : RegularPol {} .lda lda_c_rc04 :=
  regularPol_of _ (par := []) (npar := []) (flds := []) rfl rfl rfl lda_c_rc04_checkPol
theorem lda_c_rpa_checkUnpol : rcheck (acfg false .lda false false [] [] []) lda_c_rpa.unpolBody = true := by decide +kernel
theorem lda_c_rpa_definedUnpol : DefinedUnpol {} .lda lda_c_rpa :=
  definedUnpol_of _ lda_c_rpa_neverRaises (par := []) (npar := []) (flds := []) rfl rfl rfl (acheck_of_rcheck lda_c_rpa_checkUnpol)
theorem lda_c_rpa_regularUnpol : RegularUnpol {} .lda lda_c_rpa :=
  regularUnpol_of _ (par := []) (npar := []) (flds := []) rfl rfl rfl lda_c_rpa_checkUnpol
theorem lda_c_rpa_checkPol : rcheck (acfg true .lda false false [] [] []) lda_c_rpa.polBody = true := by decide +kernel
theorem lda_c_rpa_definedPol : DefinedPol {} .lda lda_c_rpa :=
  definedPol_of _ lda_c_rpa_neverRaises (par := []) (npar := []) (flds := []) rfl rfl rfl (acheck_of_rcheck lda_c_rpa_checkPol)
theorem lda_c_rpa_regularPol : RegularPol {} .lda lda_c_rpa :=
  regularPol_of _ (par := []) (npar := []) (flds := []) rfl rfl rfl lda_c_rpa_checkPol
theorem lda_c_vwn_checkUnpol : rcheck (acfg false .lda false false [] [] []) lda_c_vwn.unpolBody = true := by decide +kernel
theorem lda_c_vwn_definedUnpol : DefinedUnpol {} .lda lda_c_vwn :=
  definedUnpol_of _ lda_c_vwn_neverRaises (par := []) (npar := []) (flds := []) rfl rfl rfl (acheck_of_rcheck lda_c_vwn_checkUnpol)
theorem lda_c_vwn_regularUnpol : RegularUnpol {} .lda lda_c_vwn :=
  regularUnpol_of _ (par := []) (npar := []) (flds := []) rfl rfl rfl lda_c_vwn_checkUnpol
theorem lda_c_vwn_checkPol : rcheck (acfg true .lda false false [] [] []) lda_c_vwn.polBody = true := by decide +kernel
theorem lda_c_vwn_definedPol : DefinedPol {} .lda lda_c_vwn :=
  definedPol_of _ lda_c_vwn_neverRaises (par := []) (npar := []) (flds := []) rfl rfl rfl (acheck_of_rcheck lda_c_vwn_checkPol)
theorem lda_c_vwn_regularPol : RegularPol {} .lda lda_c_vwn :=
  regularPol_of _ (par := []) (npar := []) (flds := []) rfl rfl rfl lda_c_vwn_checkPol
theorem lda_c_vwn_1_checkUnpol : rcheck (acfg false .lda false false [] [] []) lda_c_vwn_1.unpolBody = true := by decide +kernel
theorem lda_c_vwn_1_definedUnpol : DefinedUnpol {} .lda lda_c_vwn_1 :=
  definedUnpol_of _ lda_c_vwn_1_neverRaises (par := []) (npar := []) (flds := []) rfl rfl rfl (acheck_of_rcheck lda_c_vwn_1_checkUnpol)
theorem lda_c_vwn_1_regularUnpol : RegularUnpol {} .lda lda_c_vwn_1 :=
  regularUnpol_of _ (par := []) (npar := []) (flds := []) rfl rfl rfl lda_c_vwn_1_checkUnpol
theorem lda_c_vwn_1_checkPol : rcheck (acfg true .lda false false [] [] []) lda_c_vwn_1.polBody = true := by decide +kernel
theorem lda_c_vwn_1_definedPol : DefinedPol {} .lda lda_c_vwn_1 :=
  definedPol_of _ lda_c_vwn_1_neverRaises (par := []) (npar := []) (flds := []) rfl rfl rfl (acheck_of_rcheck lda_c_vwn_1_checkPol)
theorem lda_c_vwn_1_regularPol : RegularPol {} .lda lda_c_vwn_1 :=
  regularPol_of _ (par := []) (npar := []) (flds := []) rfl rfl rfl lda_c_vwn_1_checkPol
theorem lda_c_vwn_2_checkUnpol : rcheck (acfg false .lda false false [] [] []) lda_c_vwn_2.unpolBody = true := by decide +kernel
theorem lda_c_vwn_2_definedUnpol : DefinedUnpol {} .lda lda_c_vwn_2 :=
  definedUnpol_of _ lda_c_vwn_2_neverRaises (par := []) (npar := []) (flds := []) rfl rfl rfl (acheck_of_rcheck lda_c_vwn_2_checkUnpol)
theorem lda_c_vwn_2_regularUnpol : RegularUnpol {} .lda lda_c_vwn_2 :=
  regularUnpol_of _ (par := []) (npar := []) (flds := []) rfl rfl rfl lda_c_vwn_2_checkUnpol
theorem lda_c_vwn_2_checkPol : rcheck (acfg true .lda false false [] [] []) lda_c_vwn_2.polBody = true := by decide +kernel
theorem lda_c_vwn_2_definedPol : DefinedPol {} .lda lda_c_vwn_2 :=
  definedPol_of _ lda_c_vwn_2_neverRaises (par := []) (npar := []) (flds := []) rfl rfl rfl (acheck_of_rcheck lda_c_vwn_2_checkPol)
theorem lda_c_vwn_2_regularPol : RegularPol {} .lda lda_c_vwn_2 :=
  regularPol_of _ (par := []) (npar := []) (flds := []) rfl rfl rfl lda_c_vwn_2_checkPol
theorem lda_c_vwn_4_checkUnpol : rcheck (acfg false .lda false false [] [] []) lda_c_vwn_4.unpolBody = true := by decide +kernel
theorem lda_c_vwn_4_definedUnpol : DefinedUnpol {} .lda lda_c_vwn_4 :=
  definedUnpol_of _ lda_c_vwn_4_neverRaises (par := []) (npar := []) (flds := []) rfl rfl rfl (acheck_of_rcheck lda_c_vwn_4_checkUnpol)
theorem lda_c_vwn_4_regularUnpol : RegularUnpol {} .lda lda_c_vwn_4 :=
  regularUnpol_of _ (par := []) (npar := []) (flds := []) rfl rfl rfl lda_c_vwn_4_checkUnpol
theorem lda_c_vwn_4_checkPol : rcheck (acfg true .lda false false [] [] []) lda_c_vwn_4.polBody = true := by decide +kernel
theorem lda_c_vwn_4_definedPol : DefinedPol {} .lda lda_c_vwn_4 :=
  definedPol_of _ lda_c_vwn_4_neverRaises (par := []) (npar := []) (flds := []) rfl rfl rfl (acheck_of_rcheck lda_c_vwn_4_checkPol)
theorem lda_c_vwn_4_regularPol : RegularPol {} .lda lda_c_vwn_4 :=
  regularPol_of _ (par := []) (npar := []) (flds := []) rfl rfl rfl lda_c_vwn_4_checkPol
theorem lda_c_vwn_rpa_checkUnpol : rcheck (acfg false .lda false false [] [] []) lda_c_vwn_rpa.unpolBody = true := by decide +kernel
theorem lda_c_vwn_rpa_definedUnpol : DefinedUnpol {} .lda lda_c_vwn_rpa :=
  definedUnpol_of _ lda_c_vwn_rpa_neverRaises (par := []) (npar := []) (flds := []) rfl rfl rfl (acheck_of_rcheck lda_c_vwn_rpa_checkUnpol)
theorem lda_c_vwn_rpa_regularUnpol : RegularUnpol {} .lda lda_c_vwn_rpa :=
  regularUnpol_of _ (par := []) (npar := []) (flds := []) rfl rfl rfl lda_c_vwn_rpa_checkUnpol
theorem lda_c_vwn_rpa_checkPol : rcheck (acfg true .lda false false [] [] []) lda_c_vwn_rpa.polBody = true := by decide +kernel
theorem lda_c_vwn_rpa_definedPol : DefinedPol {} .lda lda_c_vwn_rpa :=
  definedPol_of _ lda_c_vwn_rpa_neverRaises (par := []) (npar := []) (flds := []) rfl rfl rfl (acheck_of_rcheck lda_c_vwn_rpa_checkPol)
theorem lda_c_vwn_rpa_regularPol : RegularPol {} .lda lda_c_vwn_rpa :=
  regularPol_of _ (par := []) (npar := []) (flds := []) rfl rfl rfl lda_c_vwn_rpa_checkPol
theorem lda_c_wigner_checkUnpol : rcheck (acfg false .lda false false [98] [] []) lda_c_wigner.unpolBody = true := by decide +kernel
theorem lda_c_wigner_definedUnpol : DefinedUnpol {params := ["b"]} .lda lda_c_wigner :=
  definedUnpol_of _ lda_c_wigner_neverRaises (par := [98]) (npar := []) (flds := []) (by simp [nameCode, nameCodeChars]) rfl rfl (acheck_of_rcheck lda_c_wigner_checkUnpol)
theorem lda_c_wigner_regularUnpol : RegularUnpol {params := ["b"]} .lda lda_c_wigner :=
  regularUnpol_of _ (par := [98]) (npar := []) (flds := []) (by simp [nameCode, nameCodeChars]) rfl rfl lda_c_wigner_checkUnpol
theorem lda_c_wigner_checkPol : rcheck (acfg true .lda false false [98] [] []) lda_c_wigner.polBody = true := by decide +kernel
theorem lda_c_wigner_definedPol : DefinedPol {params := ["b"]} .lda lda_c_wigner :=
  definedPol_of _ lda_c_wigner_neverRaises (par := [98]) (npar := []) (flds := []) (by simp [nameCode, nameCodeChars]) rfl rfl (acheck_of_rcheck lda_c_wigner_checkPol)
theorem lda_c_wigner_regularPol : RegularPol {params := ["b"]} .lda lda_c_wigner :=
  regularPol_of _ (par := [98]) (npar := []) (flds := []) (by simp [nameCode, nameCodeChars]) rfl rfl lda_c_wigner_checkPol
theorem lda_k_gds08_worker_checkUnpol : rcheck (acfg false .lda false false [] [] []) lda_k_gds08_worker.unpolBody = true := by decide +kernel
theorem lda_k_gds08_worker_definedUnpol : DefinedUnpol {} .lda lda_k_gds08_worker :=
  definedUnpol_of _ lda_k_gds08_worker_neverRaises (par := []) (npar := []) (flds := []) rfl rfl rfl (acheck_of_rcheck lda_k_gds08_worker_checkUnpol)
theorem lda_k_gds08_worker_regularUnpol : RegularUnpol {} .lda lda_k_gds08_worker :=
  regularUnpol_of _ (par := []) (npar := []) (flds := []) rfl rfl rfl lda_k_gds08_worker_checkUnpol
theorem lda_k_gds08_worker_checkPol : rcheck (acfg true .lda false false [] [] []) lda_k_gds08_worker.polBody = true := by decide +kernel
theorem lda_k_gds08_worker_definedPol : DefinedPol {} .lda lda_k_gds08_worker :=
  definedPol_of _ lda_k_gds08_worker_neverRaises (par := []) (npar := []) (flds := []) rfl rfl rfl (acheck_of_rcheck lda_k_gds08_worker_checkPol)
theorem lda_k_gds08_worker_regularPol : RegularPol {} .lda lda_k_gds08_worker :=
  regularPol_of _ (par := []) (npar := []) (flds := []) rfl rfl rfl lda_k_gds08_worker_checkPol
theorem lda_k_tf_checkUnpol : rcheck (acfg false .lda false false [] [] []) lda_k_tf.unpolBody = true := by decide +kernel
theorem lda_k_tf_definedUnpol : DefinedUnpol {} .lda lda_k_tf :=
  definedUnpol_of _ lda_k_tf_neverRaises (par := []) (npar := []) (flds := []) rfl rfl rfl (acheck_of_rcheck lda_k_tf_checkUnpol)
theorem lda_k_tf_regularUnpol : RegularUnpol {} .lda lda_k_tf :=
  regularUnpol_of _ (par := []) (npar := []) (flds := []) rfl rfl rfl lda_k_tf_checkUnpol
theorem lda_k_tf_checkPol : rcheck (acfg true .lda false false [] [] []) lda_k_tf.polBody = true := by decide +kernel
theorem lda_k_tf_definedPol : DefinedPol {} .lda lda_k_tf :=
  definedPol_of _ lda_k_tf_neverRaises (par := []) (npar := []) (flds := []) rfl rfl rfl (acheck_of_rcheck lda_k_tf_checkPol)
theorem lda_k_tf_regularPol : RegularPol {} .lda lda_k_tf :=
  regularPol_of _ (par := []) (npar := []) (flds := []) rfl rfl rfl lda_k_tf_checkPol
theorem lda_k_zlp_checkUnpol : rcheck (acfg false .lda false false [] [] []) lda_k_zlp.unpolBody = true := by decide +kernel
theorem lda_k_zlp_definedUnpol : DefinedUnpol {} .lda lda_k_zlp :=
  definedUnpol_of _ lda_k_zlp_neverRaises (par := []) (npar := []) (flds := []) rfl rfl rfl (acheck_of_rcheck lda_k_zlp_checkUnpol)
theorem lda_k_zlp_regularUnpol : RegularUnpol {} .lda lda_k_zlp :=
  regularUnpol_of _ (par := []) (npar := []) (flds := []) rfl rfl rfl lda_k_zlp_checkUnpol
theorem lda_k_zlp_checkPol : rcheck (acfg true .lda false false [] [] []) lda_k_zlp.polBody = true := by decide +kernel
theorem lda_k_zlp_definedPol : DefinedPol {} .lda lda_k_zlp :=
  definedPol_of _ lda_k_zlp_neverRaises (par := []) (npar := []) (flds := []) rfl rfl rfl (acheck_of_rcheck lda_k_zlp_checkPol)
theorem lda_k_zlp_regularPol : RegularPol {} .lda lda_k_zlp :=
  regularPol_of _ (par := []) (npar := []) (flds := []) rfl rfl rfl lda_k_zlp_checkPol
theorem lda_x_checkUnpol : rcheck (acfg false .lda false false [] [] []) lda_x.unpolBody = true := by decide +kernel
theorem lda_x_definedUnpol : DefinedUnpol {} .lda lda_x :=
  definedUnpol_of _ lda_x_neverRaises (par := []) (npar := []) (flds := []) rfl rfl rfl (acheck_of_rcheck lda_x_checkUnpol)
theorem lda_x_regularUnpol : RegularUnpol {} .lda lda_x :=
  regularUnpol_of _ (par := []) (npar := []) (flds := []) rfl rfl rfl lda_x_checkUnpol
theorem lda_x_checkPol : rcheck (acfg true .lda false false [] [] []) lda_x.polBody = true := by decide +kernel
theorem lda_x_definedPol : DefinedPol {} .lda lda_x :=
  definedPol_of _ lda_x_neverRaises (par := []) (npar := []) (flds := []) rfl rfl rfl (acheck_of_rcheck lda_x_checkPol)
theorem lda_x_regularPol : RegularPol {} .lda lda_x :=
  regularPol_of _ (par := []) (npar := []) (flds := []) rfl rfl rfl lda_x_checkPol
theorem lda_x_2d_checkUnpol : rcheck (acfg false .lda false false [] [] []) lda_x_2d.unpolBody = true := by decide +kernel
theorem lda_x_2d_definedUnpol : DefinedUnpol {} .lda lda_x_2d :=
  definedUnpol_of _ lda_x_2d_neverRaises (par := []) (npar := []) (flds := []) rfl rfl rfl (acheck_of_rcheck lda_x_2d_checkUnpol)
theorem lda_x_2d_regularUnpol : RegularUnpol {} .lda lda_x_2d :=
  regularUnpol_of _ (par := []) (npar := []) (flds := []) rfl rfl rfl lda_x_2d_checkUnpol
theorem lda_x_2d_checkPol : rcheck (acfg true .lda false false [] [] []) lda_x_2d.polBody = true := by decide +kernel
theorem lda_x_2d_definedPol : DefinedPol {} .lda lda_x_2d :=
  definedPol_of _ lda_x_2d_neverRaises (par := []) (npar := []) (flds := []) rfl rfl rfl (acheck_of_rcheck lda_x_2d_checkPol)
theorem lda_x_2d_regularPol : RegularPol {} .lda lda_x_2d :=
  regularPol_of _ (par := []) (npar := []) (flds := []) rfl rfl rfl lda_x_2d_checkPol
theorem lda_x_erf_checkUnpol : rcheck (acfg false .lda false false [] [] [2]) lda_x_erf.unpolBody = true := by decide +kernel
theorem lda_x_erf_definedUnpol : DefinedUnpol {flds := [.camOmega]} .lda lda_x_erf :=
  definedUnpol_of _ lda_x_erf_neverRaises (par := []) (npar := []) (flds := [2]) rfl rfl rfl (acheck_of_rcheck lda_x_erf_checkUnpol)
theorem lda_x_erf_regularUnpol : RegularUnpol {flds := [.camOmega]} .lda lda_x_erf :=
  regularUnpol_of _ (par := []) (npar := []) (flds := [2]) rfl rfl rfl lda_x_erf_checkUnpol
theorem lda_x_erf_checkPol : rcheck (acfg true .lda false false [] [] [2]) lda_x_erf.polBody = true := by decide +kernel
theorem lda_x_erf_definedPol : DefinedPol {flds := [.camOmega]} .lda lda_x_erf :=
  definedPol_of _ lda_x_erf_neverRaises (par := []) (npar := []) (flds := [2]) rfl rfl rfl (acheck_of_rcheck lda_x_erf_checkPol)
theorem lda_x_erf_regularPol : RegularPol {flds := [.camOmega]} .lda lda_x_erf :=
  regularPol_of _ (par := []) (npar := []) (flds := [2]) rfl rfl rfl lda_x_erf_checkPol
theorem lda_x_rel_checkUnpol : rcheck (acfg false .lda false false [] [] []) lda_x_rel.unpolBody = true := by decide +kernel
theorem lda_x_rel_definedUnpol : DefinedUnpol {} .lda lda_x_rel :=
  definedUnpol_of _ lda_x_rel_neverRaises (par := []) (npar := []) (flds := []) rfl rfl rfl (acheck_of_rcheck lda_x_rel_checkUnpol)
theorem lda_x_rel_regularUnpol : RegularUnpol {} .lda lda_x_rel :=
  regularUnpol_of _ (par := []) (npar := []) (flds := []) rfl rfl rfl lda_x_rel_checkUnpol
theorem lda_x_rel_checkPol : rcheck (acfg true .lda false false [] [] []) lda_x_rel.polBody = true := by decide +kernel
theorem lda_x_rel_definedPol : DefinedPol {} .lda lda_x_rel :=
  definedPol_of _ lda_x_rel_neverRaises (par := []) (npar := []) (flds := []) rfl rfl rfl (acheck_of_rcheck lda_x_rel_checkPol)
theorem lda_x_rel_regularPol : RegularPol {} .lda lda_x_rel :=
  regularPol_of _ (par := []) (npar := []) (flds := []) rfl rfl rfl lda_x_rel_checkPol
theorem lda_x_sloc_checkUnpol : rcheck (acfg false .lda false false [98] [] []) lda_x_sloc.unpolBody = true := by decide +kernel
theorem lda_x_sloc_definedUnpol : DefinedUnpol {params := ["b"]} .lda lda_x_sloc :=
  definedUnpol_of _ lda_x_sloc_neverRaises (par := [98]) (npar := []) (flds := []) (by simp [nameCode, nameCodeChars]) rfl rfl (acheck_of_rcheck lda_x_sloc_checkUnpol)
theorem lda_x_sloc_regularUnpol : RegularUnpol {params := ["b"]} .lda lda_x_sloc :=
  regularUnpol_of _ (par := [98]) (npar := []) (flds := []) (by simp [nameCode, nameCodeChars]) rfl rfl lda_x_sloc_checkUnpol
theorem lda_x_sloc_checkPol : rcheck (acfg true .lda false false [98] [] []) lda_x_sloc.polBody = true := by decide +kernel
theorem lda_x_sloc_definedPol : DefinedPol {params := ["b"]} .lda lda_x_sloc :=
  definedPol_of _ lda_x_sloc_neverRaises (par := [98]) (npar := []) (flds := []) (by simp [nameCode, nameCodeChars]) rfl rfl (acheck_of_rcheck lda_x_sloc_checkPol)
theorem lda_x_sloc_regularPol : RegularPol {params := ["b"]} .lda lda_x_sloc :=
  regularPol_of _ (par := [98]) (npar := []) (flds := []) (by simp [nameCode, nameCodeChars]) rfl rfl lda_x_sloc_checkPol
theorem lda_x_yukawa_checkUnpol : rcheck (acfg false .lda false false [] [] [2]) lda_x_yukawa.unpolBody = true := by decide +kernel
theorem lda_x_yukawa_definedUnpol : DefinedUnpol {flds := [.camOmega]} .lda lda_x_yukawa :=
  definedUnpol_of _ lda_x_yukawa_neverRaises (par := []) (npar := []) (flds := [2]) rfl rfl rfl (acheck_of_rcheck lda_x_yukawa_checkUnpol)
theorem lda_x_yukawa_regularUnpol : RegularUnpol {flds := [.camOmega]} .lda lda_x_yukawa :=
  regularUnpol_of _ (par := []) (npar := []) (flds := [2]) rfl rfl rfl lda_x_yukawa_checkUnpol
theorem lda_x_yukawa_checkPol : rcheck (acfg true .lda false false [] [] [2]) lda_x_yukawa.polBody = true := by decide +kernel
theorem lda_x_yukawa_definedPol : DefinedPol {flds := [.camOmega]} .lda lda_x_yukawa :=
  definedPol_of _ lda_x_yukawa_neverRaises (par := []) (npar := []) (flds := [2]) rfl rfl rfl (acheck_of_rcheck lda_x_yukawa_checkPol)
theorem lda_x_yukawa_regularPol : RegularPol {flds := [.camOmega]} .lda lda_x_yukawa :=
  regularPol_of _ (par := []) (npar := []) (flds := [2]) rfl rfl rfl lda_x_yukawa_checkPol
theorem lda_xc_1d_ehwlrg_checkUnpol : rcheck (acfg false .lda false false [] [] []) lda_xc_1d_ehwlrg.unpolBody = true := by decide +kernel
theorem lda_xc_1d_ehwlrg_definedUnpol : DefinedUnpol {} .lda lda_xc_1d_ehwlrg :=
  definedUnpol_of _ lda_xc_1d_ehwlrg_neverRaises (par := []) (npar := []) (flds := []) rfl rfl rfl (acheck_of_rcheck lda_xc_1d_ehwlrg_checkUnpol)
theorem lda_xc_1d_ehwlrg_regularUnpol : RegularUnpol {} .lda lda_xc_1d_ehwlrg :=
  regularUnpol_of _ (par := []) (npar := []) (flds := []) rfl rfl rfl lda_xc_1d_ehwlrg_checkUnpol
theorem lda_xc_1d_ehwlrg_checkPol : rcheck (acfg true .lda false false [] [] []) lda_xc_1d_ehwlrg.polBody = true := by decide +kernel
theorem lda_xc_1d_ehwlrg_definedPol : DefinedPol {} .lda lda_xc_1d_ehwlrg :=
  definedPol_of _ lda_xc_1d_ehwlrg_neverRaises (par := []) (npar := []) (flds := []) rfl rfl rfl (acheck_of_rcheck lda_xc_1d_ehwlrg_checkPol)
theorem lda_xc_1d_ehwlrg_regularPol : RegularPol {} .lda lda_xc_1d_ehwlrg :=
  regularPol_of _ (par := []) (npar := []) (flds := []) rfl rfl rfl lda_xc_1d_ehwlrg_checkPol
theorem lda_xc_teter93_checkUnpol : rcheck (acfg false .lda false false [] [] []) lda_xc_teter93.unpolBody = true := by decide +kernel
theorem lda_xc_teter93_definedUnpol : DefinedUnpol {} .lda lda_xc_teter93 :=
  definedUnpol_of _ lda_xc_teter93_neverRaises (par := []) (npar := []) (flds := []) rfl rfl rfl (acheck_of_rcheck lda_xc_teter93_checkUnpol)
theorem lda_xc_teter93_regularUnpol : RegularUnpol {} .lda lda_xc_teter93 :=
  regularUnpol_of _ (par := []) (npar := []) (flds := []) rfl rfl rfl lda_xc_teter93_checkUnpol
theorem lda_xc_tih_checkUnpol : rcheck (acfg false .lda false false [] [] []) lda_xc_tih.unpolBody = true := by decide +kernel
theorem lda_xc_tih_definedUnpol : DefinedUnpol {} .lda lda_xc_tih :=
  definedUnpol_of _ lda_xc_tih_neverRaises (par := []) (npar := []) (flds := []) rfl rfl rfl (acheck_of_rcheck lda_xc_tih_checkUnpol)
theorem lda_xc_tih_regularUnpol : RegularUnpol {} .lda lda_xc_tih :=
  regularUnpol_of _ (par := []) (npar := []) (flds := []) rfl rfl rfl lda_xc_tih_checkUnpol
theorem lda_xc_tih_checkPol : rcheck (acfg true .lda false false [] [] []) lda_xc_tih.polBody = true := by decide +kernel
theorem lda_xc_tih_definedPol : DefinedPol {} .lda lda_xc_tih :=
  definedPol_of _ lda_xc_tih_neverRaises (par := []) (npar := []) (flds := []) rfl rfl rfl (acheck_of_rcheck lda_xc_tih_checkPol)
theorem lda_xc_tih_regularPol : RegularPol {} .lda lda_xc_tih :=
  regularPol_of _ (par := []) (npar := []) (flds := []) rfl rfl rfl lda_xc_tih_checkPol
theorem lda_xc_zlp_checkUnpol : rcheck (acfg false .lda false false [] [] []) lda_xc_zlp.unpolBody = true := by decide +kernel
theorem lda_xc_zlp_definedUnpol : DefinedUnpol {} .lda lda_xc_zlp :=
  definedUnpol_of _ lda_xc_zlp_neverRaises (par := []) (npar := []) (flds := []) rfl rfl rfl (acheck_of_rcheck lda_xc_zlp_checkUnpol)
theorem lda_xc_zlp_regularUnpol : RegularUnpol {} .lda lda_xc_zlp :=
  regularUnpol_of _ (par := []) (npar := []) (flds := []) rfl rfl rfl lda_xc_zlp_checkUnpol
theorem lda_xc_zlp_checkPol : rcheck (acfg true .lda false false [] [] []) lda_xc_zlp.polBody = true := by decide +kernel
theorem lda_xc_zlp_definedPol : DefinedPol {} .lda lda_xc_zlp :=
  definedPol_of _ lda_xc_zlp_neverRaises (par := []) (npar := []) (flds := []) rfl rfl rfl (acheck_of_rcheck lda_xc_zlp_checkPol)
theorem lda_xc_zlp_regularPol : RegularPol {} .lda lda_xc_zlp :=
  regularPol_of _ (par := []) (npar := []) (flds := []) rfl rfl rfl lda_xc_zlp_checkPol
theorem mgga_c_b88_checkUnpol : rcheck (acfg false .mgga false false [] [] []) mgga_c_b88.unpolBody = true := by decide +kernel
theorem mgga_c_b88_definedUnpol : DefinedUnpol {} .mgga mgga_c_b88 :=
  definedUnpol_of _ mgga_c_b88_neverRaises (par := []) (npar := []) (flds := []) rfl rfl rfl (acheck_of_rcheck mgga_c_b88_checkUnpol)
theorem mgga_c_b88_regularUnpol : RegularUnpol {} .mgga mgga_c_b88 :=
  regularUnpol_of _ (par := []) (npar := []) (flds := []) rfl rfl rfl mgga_c_b88_checkUnpol
theorem mgga_c_b88_checkPol : rcheck (acfg true .mgga false false [] [] []) mgga_c_b88.polBody = true := by decide +kernel
theorem mgga_c_b88_definedPol : DefinedPol {} .mgga mgga_c_b88 :=
  definedPol_of _ mgga_c_b88_neverRaises (par := []) (npar := []) (flds := []) rfl rfl rfl (acheck_of_rcheck mgga_c_b88_checkPol)
theorem mgga_c_b88_regularPol : RegularPol {} .mgga mgga_c_b88 :=
  regularPol_of _ (par := []) (npar := []) (flds := []) rfl rfl rfl mgga_c_b88_checkPol
theorem mgga_c_bc95_checkUnpol : rcheck (acfg false .mgga false true [1668247664, 6517619] [] []) mgga_c_bc95.unpolBody = true := by decide +kernel
theorem mgga_c_bc95_definedUnpol : DefinedUnpol {tPos := true, params := ["copp", "css"]} .mgga mgga_c_bc95 :=
  definedUnpol_of _ mgga_c_bc95_neverRaises (par := [1668247664, 6517619]) (npar := []) (flds := []) (by simp [nameCode, nameCodeChars]) rfl rfl (acheck_of_rcheck mgga_c_bc95_checkUnpol)
theorem mgga_c_bc95_regularUnpol : RegularUnpol {tPos := true, params := ["copp", "css"]} .mgga mgga_c_bc95 :=
  regularUnpol_of _ (par := [1668247664, 6517619]) (npar := []) (flds := []) (by simp [nameCode, nameCodeChars]) rfl rfl mgga_c_bc95_checkUnpol
theorem mgga_c_bc95_checkPol : rcheck (acfg true .mgga false true [1668247664, 6517619] [] []) mgga_c_bc95.polBody = true := by decide +kernel
theorem mgga_c_bc95_definedPol : DefinedPol {tPos := true, params := ["copp", "css"]} .mgga mgga_c_bc95 :=
  definedPol_of _ mgga_c_bc95_neverRaises (par := [1668247664, 6517619]) (npar := []) (flds := []) (by simp [nameCode, nameCodeChars]) rfl rfl (acheck_of_rcheck mgga_c_bc95_checkPol)
theorem mgga_c_bc95_regularPol : RegularPol {tPos := true, params := ["copp", "css"]} .mgga mgga_c_bc95 :=
  regularPol_of _ (par := [1668247664, 6517619]) (npar := []) (flds := []) (by simp [nameCode, nameCodeChars]) rfl rfl mgga_c_bc95_checkPol
theorem mgga_c_cc_checkUnpol : rcheck (acfg false .mgga false false [] [] []) mgga_c_cc.unpolBody = true := by decide +kernel
theorem mgga_c_cc_definedUnpol : DefinedUnpol {} .mgga mgga_c_cc :=
  definedUnpol_of _ mgga_c_cc_neverRaises (par := []) (npar := []) (flds := []) rfl rfl rfl (acheck_of_rcheck mgga_c_cc_checkUnpol)
theorem mgga_c_cc_regularUnpol : RegularUnpol {} .mgga mgga_c_cc :=
  regularUnpol_of _ (par := []) (npar := []) (flds := []) rfl rfl rfl mgga_c_cc_checkUnpol
theorem mgga_c_cc_checkPol : rcheck (acfg true .mgga false true [] [] []) mgga_c_cc.polBody = true := by decide +kernel
theorem mgga_c_cc_definedPol : DefinedPol {tPos := true} .mgga mgga_c_cc :=
  definedPol_of _ mgga_c_cc_neverRaises (par := []) (npar := []) (flds := []) rfl rfl rfl (acheck_of_rcheck mgga_c_cc_checkPol)
theorem mgga_c_cc_regularPol : RegularPol {tPos := true} .mgga mgga_c_cc :=
  regularPol_of _ (par := []) (npar := []) (flds := []) rfl rfl rfl mgga_c_cc_checkPol
theorem mgga_c_cs_checkUnpol : rcheck (acfg false .mgga false false [] [] []) mgga_c_cs.unpolBody = true := by decide +kernel
theorem mgga_c_cs_definedUnpol : DefinedUnpol {} .mgga mgga_c_cs :=
  definedUnpol_of _ mgga_c_cs_neverRaises (par := []) (npar := []) (flds := []) rfl rfl rfl (acheck_of_rcheck mgga_c_cs_checkUnpol)
theorem mgga_c_cs_regularUnpol : RegularUnpol {} .mgga mgga_c_cs :=
  regularUnpol_of _ (par := []) (npar := []) (flds := []) rfl rfl rfl mgga_c_cs_checkUnpol
theorem mgga_c_cs_checkPol : rcheck (acfg true .mgga false false [] [] []) mgga_c_cs.polBody = true := by decide +kernel
theorem mgga_c_cs_definedPol : DefinedPol {} .mgga mgga_c_cs :=
  definedPol_of _ mgga_c_cs_neverRaises (par := []) (npar := []) (flds := []) rfl rfl rfl (acheck_of_rcheck mgga_c_cs_checkPol)
theorem mgga_c_cs_regularPol : RegularPol {} .mgga mgga_c_cs :=
  regularPol_of _ (par := []) (npar := []) (flds := []) rfl rfl rfl mgga_c_cs_checkPol
theorem mgga_c_ltapw_checkUnpol : rcheck (acfg false .mgga false true [] [] []) mgga_c_ltapw.unpolBody = true := by decide +kernel
theorem mgga_c_ltapw_definedUnpol : DefinedUnpol {tPos := true} .mgga mgga_c_ltapw :=
  definedUnpol_of _ mgga_c_ltapw_neverRaises (par := []) (npar := []) (flds := []) rfl rfl rfl (acheck_of_rcheck mgga_c_ltapw_checkUnpol)
theorem mgga_c_ltapw_regularUnpol : RegularUnpol {tPos := true} .mgga mgga_c_ltapw :=
  regularUnpol_of _ (par := []) (npar := []) (flds := []) rfl rfl rfl mgga_c_ltapw_checkUnpol
theorem mgga_c_ltapw_definedPol : DefinedPol {tPos := true} .mgga mgga_c_ltapw :=
  definedPol_of _ mgga_c_ltapw_neverRaises (par := []) (npar := []) (flds := []) rfl rfl rfl (by decide +kernel)
theorem mgga_c_m05_checkUnpol : rcheck (acfg false .mgga false true [21786592563342246204526195572, 7449355575200014690, 7449355575200019315] [] []) mgga_c_m05.unpolBody = true := by decide +kernel
theorem mgga_c_m05_definedUnpol : DefinedUnpol {tPos := true, params := ["Fermi_D_cnst", "gamma_ab", "gamma_ss"]} .mgga mgga_c_m05 :=
  definedUnpol_of _ mgga_c_m05_neverRaises (par := [21786592563342246204526195572, 7449355575200014690, 7449355575200019315]) (npar := []) (flds := []) (by simp [nameCode, nameCodeChars]) rfl rfl (acheck_of_rcheck mgga_c_m05_checkUnpol)
theorem mgga_c_m05_regularUnpol : RegularUnpol {tPos := true, params := ["Fermi_D_cnst", "gamma_ab", "gamma_ss"]} .mgga mgga_c_m05 :=
  regularUnpol_of _ (par := [21786592563342246204526195572, 7449355575200014690, 7449355575200019315]) (npar := []) (flds := []) (by simp [nameCode, nameCodeChars]) rfl rfl mgga_c_m05_checkUnpol
theorem mgga_c_m05_checkPol : rcheck (acfg true .mgga false true [21786592563342246204526195572, 7449355575200014690, 7449355575200019315] [] []) mgga_c_m05.polBody = true := by decide +kernel
theorem mgga_c_m05_definedPol : DefinedPol {tPos := true, params := ["Fermi_D_cnst", "gamma_ab", "gamma_ss"]} .mgga mgga_c_m05 :=
  definedPol_of _ mgga_c_m05_neverRaises (par := [21786592563342246204526195572, 7449355575200014690, 7449355575200019315]) (npar := []) (flds := []) (by simp [nameCode, nameCodeChars]) rfl rfl (acheck_of_rcheck mgga_c_m05_checkPol)
theorem mgga_c_m05_regularPol : RegularPol {tPos := true, params := ["Fermi_D_cnst", "gamma_ab", "gamma_ss"]} .mgga mgga_c_m05 :=
  regularPol_of _ (par := [21786592563342246204526195572, 7449355575200014690, 7449355575200019315]) (npar := []) (flds := []) (by simp [nameCode, nameCodeChars]) rfl rfl mgga_c_m05_checkPol
theorem mgga_c_m08_checkUnpol : rcheck (acfg false .mgga false false [] [] []) mgga_c_m08.unpolBody = true := by decide +kernel
theorem mgga_c_m08_definedUnpol : DefinedUnpol {} .mgga mgga_c_m08 :=
  definedUnpol_of _ mgga_c_m08_neverRaises (par := []) (npar := []) (flds := []) rfl rfl rfl (acheck_of_rcheck mgga_c_m08_checkUnpol)
theorem mgga_c_m08_regularUnpol : RegularUnpol {} .mgga mgga_c_m08 :=
  regularUnpol_of _ (par := []) (npar := []) (flds := []) rfl rfl rfl mgga_c_m08_checkUnpol
theorem mgga_c_rppscan_checkUnpol : rcheck (acfg false .mgga false false [6648929] [] []) mgga_c_rppscan.unpolBody = true := by decide +kernel
theorem mgga_c_rppscan_definedUnpol : DefinedUnpol {params := ["eta"]} .mgga mgga_c_rppscan :=
  definedUnpol_of _ mgga_c_rppscan_neverRaises (par := [6648929]) (npar := []) (flds := []) (by simp [nameCode, nameCodeChars]) rfl rfl (acheck_of_rcheck mgga_c_rppscan_checkUnpol)
theorem mgga_c_rppscan_regularUnpol : RegularUnpol {params := ["eta"]} .mgga mgga_c_rppscan :=
  regularUnpol_of _ (par := [6648929]) (npar := []) (flds := []) (by simp [nameCode, nameCodeChars]) rfl rfl mgga_c_rppscan_checkUnpol
theorem mgga_c_rscan_checkUnpol : rcheck (acfg false .mgga false false [] [] []) mgga_c_rscan.unpolBody = true := by decide +kernel
theorem mgga_c_rscan_definedUnpol : DefinedUnpol {} .mgga mgga_c_rscan :=
  definedUnpol_of _ mgga_c_rscan_neverRaises (par := []) (npar := []) (flds := []) rfl rfl rfl (acheck_of_rcheck mgga_c_rscan_checkUnpol)
theorem mgga_c_rscan_regularUnpol : RegularUnpol {} .mgga mgga_c_rscan :=
  regularUnpol_of _ (par := []) (npar := []) (flds := []) rfl rfl rfl mgga_c_rscan_checkUnpol
theorem mgga_k_csk_checkUnpol : rcheck (acfg false .mgga false false [427138178913] [] []) mgga_k_csk.unpolBody = true := by decide +kernel
theorem mgga_k_csk_definedUnpol : DefinedUnpol {params := ["csk_a"]} .mgga mgga_k_csk :=
  definedUnpol_of _ mgga_k_csk_neverRaises (par := [427138178913]) (npar := []) (flds := []) (by simp [nameCode, nameCodeChars]) rfl rfl (acheck_of_rcheck mgga_k_csk_checkUnpol)
theorem mgga_k_csk_regularUnpol : RegularUnpol {params := ["csk_a"]} .mgga mgga_k_csk :=
  regularUnpol_of _ (par := [427138178913]) (npar := []) (flds := []) (by simp [nameCode, nameCodeChars]) rfl rfl mgga_k_csk_checkUnpol
theorem mgga_k_csk_checkPol : rcheck (acfg true .mgga false false [427138178913] [] []) mgga_k_csk.polBody = true := by decide +kernel
theorem mgga_k_csk_definedPol : DefinedPol {params := ["csk_a"]} .mgga mgga_k_csk :=
  definedPol_of _ mgga_k_csk_neverRaises (par := [427138178913]) (npar := []) (flds := []) (by simp [nameCode, nameCodeChars]) rfl rfl (acheck_of_rcheck mgga_k_csk_checkPol)
theorem mgga_k_csk_regularPol : RegularPol {params := ["csk_a"]} .mgga mgga_k_csk :=
  regularPol_of _ (par := [427138178913]) (npar := []) (flds := []) (by simp [nameCode, nameCodeChars]) rfl rfl mgga_k_csk_checkPol
theorem mgga_k_csk_loc_checkUnpol : rcheck (acfg false .mgga false false [427138178913] [] []) mgga_k_csk_loc.unpolBody = true := by decide +kernel
theorem mgga_k_csk_loc_definedUnpol : DefinedUnpol {params := ["csk_a"]} .mgga mgga_k_csk_loc :=
  definedUnpol_of _ mgga_k_csk_loc_neverRaises (par := [427138178913]) (npar := []) (flds := []) (by simp [nameCode, nameCodeChars]) rfl rfl (acheck_of_rcheck mgga_k_csk_loc_checkUnpol)
theorem mgga_k_csk_loc_regularUnpol : RegularUnpol {params := ["csk_a"]} .mgga mgga_k_csk_loc :=
  regularUnpol_of _ (par := [427138178913]) (npar := []) (flds := []) (by simp [nameCode, nameCodeChars]) rfl rfl mgga_k_csk_loc_checkUnpol
theorem mgga_k_csk_loc_checkPol : rcheck (acfg true .mgga false false [427138178913] [] []) mgga_k_csk_loc.polBody = true := by decide +kernel
theorem mgga_k_csk_loc_definedPol : DefinedPol {params := ["csk_a"]} .mgga mgga_k_csk_loc :=
  definedPol_of _ mgga_k_csk_loc_neverRaises (par := [427138178913]) (npar := []) (flds := []) (by simp [nameCode, nameCodeChars]) rfl rfl (acheck_of_rcheck mgga_k_csk_loc_checkPol)
theorem mgga_k_csk_loc_regularPol : RegularPol {params := ["csk_a"]} .mgga mgga_k_csk_loc :=
  regularPol_of _ (par := [427138178913]) (npar := []) (flds := []) (by simp [nameCode, nameCodeChars]) rfl rfl mgga_k_csk_loc_checkPol
theorem mgga_k_gea2_checkUnpol : rcheck (acfg false .mgga false false [] [] []) mgga_k_gea2.unpolBody = true := by decide +kernel
theorem mgga_k_gea2_definedUnpol : DefinedUnpol {} .mgga mgga_k_gea2 :=
  definedUnpol_of _ mgga_k_gea2_neverRaises (par := []) (npar := []) (flds := []) rfl rfl rfl (acheck_of_rcheck mgga_k_gea2_checkUnpol)
theorem mgga_k_gea2_regularUnpol : RegularUnpol {} .mgga mgga_k_gea2 :=
  regularUnpol_of _ (par := []) (npar := []) (flds := []) rfl rfl rfl mgga_k_gea2_checkUnpol
theorem mgga_k_gea2_checkPol : rcheck (acfg true .mgga false false [] [] []) mgga_k_gea2.polBody = true := by decide +kernel
theorem mgga_k_gea2_definedPol : DefinedPol {} .mgga mgga_k_gea2 :=
  definedPol_of _ mgga_k_gea2_neverRaises (par := []) (npar := []) (flds := []) rfl rfl rfl (acheck_of_rcheck mgga_k_gea2_checkPol)
theorem mgga_k_gea2_regularPol : RegularPol {} .mgga mgga_k_gea2 :=
  regularPol_of _ (par := []) (npar := []) (flds := []) rfl rfl rfl mgga_k_gea2_checkPol
theorem mgga_k_gea4_checkUnpol : rcheck (acfg false .mgga false false [] [] []) mgga_k_gea4.unpolBody = true := by decide +kernel
theorem mgga_k_gea4_definedUnpol : DefinedUnpol {} .mgga mgga_k_gea4 :=
  definedUnpol_of _ mgga_k_gea4_neverRaises (par := []) (npar := []) (flds := []) rfl rfl rfl (acheck_of_rcheck mgga_k_gea4_checkUnpol)
theorem mgga_k_gea4_regularUnpol : RegularUnpol {} .mgga mgga_k_gea4 :=
  regularUnpol_of _ (par := []) (npar := []) (flds := []) rfl rfl rfl mgga_k_gea4_checkUnpol
theorem mgga_k_gea4_checkPol : rcheck (acfg true .mgga false false [] [] []) mgga_k_gea4.polBody = true := by decide +kernel
theorem mgga_k_gea4_definedPol : DefinedPol {} .mgga mgga_k_gea4 :=
  definedPol_of _ mgga_k_gea4_neverRaises (par := []) (npar := []) (flds := []) rfl rfl rfl (acheck_of_rcheck mgga_k_gea4_checkPol)
theorem mgga_k_gea4_regularPol : RegularPol {} .mgga mgga_k_gea4 :=
  regularPol_of _ (par := []) (npar := []) (flds := []) rfl rfl rfl mgga_k_gea4_checkPol

end Verif.Props
