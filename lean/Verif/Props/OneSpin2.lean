import Verif.Norm.IntervalSound
import Verif.Props.Static3
import Verif.Props.Static4
/-!
# C51: formulas where there are electrons of one spin only
-/
set_option Elab.async false
set_option maxRecDepth 100000
namespace Verif.Props
open Verif.Py Verif.Model Verif.Spec Verif.Norm Verif.Data

theorem lda_c_pz_definedFull : DefinedFull {params := ["beta2[1]", "beta1[1]", "beta2[0]", "beta1[0]"]} .lda lda_c_pz :=
  definedFull_of _ lda_c_pz_neverRaises (par := [7090201149170200925, 7090201149153423709, 7090201149170200669, 7090201149153423453]) (npar := []) (flds := []) (by simp [nameCode, nameCodeChars]) rfl rfl (by decide +kernel)
theorem lda_c_rc04_definedFull : DefinedFull {} .lda lda_c_rc04 :=
  definedFull_of _ lda_c_rc04_neverRaises (par := []) (npar := []) (flds := []) rfl rfl rfl (by decide +kernel)
theorem lda_c_rpa_definedFull : DefinedFull {} .lda lda_c_rpa :=
  definedFull_of _ lda_c_rpa_neverRaises (par := []) (npar := []) (flds := []) rfl rfl rfl (by decide +kernel)
theorem lda_c_vwn_definedFull : DefinedFull {} .lda lda_c_vwn :=
  definedFull_of _ lda_c_vwn_neverRaises (par := []) (npar := []) (flds := []) rfl rfl rfl (by decide +kernel)
theorem lda_c_vwn_1_definedFull : DefinedFull {} .lda lda_c_vwn_1 :=
  definedFull_of _ lda_c_vwn_1_neverRaises (par := []) (npar := []) (flds := []) rfl rfl rfl (by decide +kernel)
theorem lda_c_vwn_2_definedFull : DefinedFull {} .lda lda_c_vwn_2 :=
  definedFull_of _ lda_c_vwn_2_neverRaises (par := []) (npar := []) (flds := []) rfl rfl rfl (by decide +kernel)
theorem lda_c_vwn_4_definedFull : DefinedFull {} .lda lda_c_vwn_4 :=
  definedFull_of _ lda_c_vwn_4_neverRaises (par := []) (npar := []) (flds := []) rfl rfl rfl (by decide +kernel)
theorem lda_c_vwn_rpa_definedFull : DefinedFull {} .lda lda_c_vwn_rpa :=
  definedFull_of _ lda_c_vwn_rpa_neverRaises (par := []) (npar := []) (flds := []) rfl rfl rfl (by decide +kernel)
theorem lda_c_wigner_definedFull : DefinedFull {params := ["b"]} .lda lda_c_wigner :=
  definedFull_of _ lda_c_wigner_neverRaises (par := [98]) (npar := []) (flds := []) (by simp [nameCode, nameCodeChars]) rfl rfl (by decide +kernel)
theorem lda_k_gds08_worker_definedFull : DefinedFull {} .lda lda_k_gds08_worker :=
  definedFull_of _ lda_k_gds08_worker_neverRaises (par := []) (npar := []) (flds := []) rfl rfl rfl (by decide +kernel)
theorem lda_k_tf_definedFull : DefinedFull {} .lda lda_k_tf :=
  definedFull_of _ lda_k_tf_neverRaises (par := []) (npar := []) (flds := []) rfl rfl rfl (by decide +kernel)
theorem lda_k_zlp_definedFull : DefinedFull {} .lda lda_k_zlp :=
  definedFull_of _ lda_k_zlp_neverRaises (par := []) (npar := []) (flds := []) rfl rfl rfl (by decide +kernel)
theorem lda_x_definedFull : DefinedFull {} .lda lda_x :=
  definedFull_of _ lda_x_neverRaises (par := []) (npar := []) (flds := []) rfl rfl rfl (by decide +kernel)
theorem lda_x_2d_definedFull : DefinedFull {} .lda lda_x_2d :=
  definedFull_of _ lda_x_2d_neverRaises (par := []) (npar := []) (flds := []) rfl rfl rfl (by decide +kernel)
theorem lda_x_erf_definedFull : DefinedFull {flds := [.camOmega]} .lda lda_x_erf :=
  definedFull_of _ lda_x_erf_neverRaises (par := []) (npar := []) (flds := [2]) rfl rfl rfl (by decide +kernel)
theorem lda_x_rel_definedFull : DefinedFull {} .lda lda_x_rel :=
  definedFull_of _ lda_x_rel_neverRaises (par := []) (npar := []) (flds := []) rfl rfl rfl (by decide +kernel)
theorem lda_x_sloc_definedFull : DefinedFull {params := ["b"]} .lda lda_x_sloc :=
  definedFull_of _ lda_x_sloc_neverRaises (par := [98]) (npar := []) (flds := []) (by simp [nameCode, nameCodeChars]) rfl rfl (by decide +kernel)
theorem lda_x_yukawa_definedFull : DefinedFull {flds := [.camOmega]} .lda lda_x_yukawa :=
  definedFull_of _ lda_x_yukawa_neverRaises (par := []) (npar := []) (flds := [2]) rfl rfl rfl (by decide +kernel)
theorem lda_xc_1d_ehwlrg_definedFull : DefinedFull {} .lda lda_xc_1d_ehwlrg :=
  definedFull_of _ lda_xc_1d_ehwlrg_neverRaises (par := []) (npar := []) (flds := []) rfl rfl rfl (by decide +kernel)
theorem lda_xc_teter93_definedFull : DefinedFull {} .lda lda_xc_teter93 :=
  definedFull_of _ lda_xc_teter93_neverRaises (par := []) (npar := []) (flds := []) rfl rfl rfl (by decide +kernel)
theorem lda_xc_tih_definedFull : DefinedFull {} .lda lda_xc_tih :=
  definedFull_of _ lda_xc_tih_neverRaises (par := []) (npar := []) (flds := []) rfl rfl rfl (by decide +kernel)
theorem lda_xc_zlp_definedFull : DefinedFull {} .lda lda_xc_zlp :=
  definedFull_of _ lda_xc_zlp_neverRaises (par := []) (npar := []) (flds := []) rfl rfl rfl (by decide +kernel)
theorem mgga_c_b88_definedFull : DefinedFull {} .mgga mgga_c_b88 :=
  definedFull_of _ mgga_c_b88_neverRaises (par := []) (npar := []) (flds := []) rfl rfl rfl (by decide +kernel)
theorem mgga_c_bc95_nanFull : NanFull .mgga mgga_c_bc95 := nanFull_of (by decide +kernel)
theorem mgga_c_cc_nanFull : NanFull .mgga mgga_c_cc := nanFull_of (by decide +kernel)
theorem mgga_c_ccalda_nanFull : NanFull .mgga mgga_c_ccalda := nanFull_of (by decide +kernel)
theorem mgga_c_cs_nanFull : NanFull .mgga mgga_c_cs := nanFull_of (by decide +kernel)
theorem mgga_c_kcis_nanFull : NanFull .mgga mgga_c_kcis := nanFull_of (by decide +kernel)
theorem mgga_c_kcisk_nanFull : NanFull .mgga mgga_c_kcisk := nanFull_of (by decide +kernel)
theorem mgga_c_m05_nanFull : NanFull .mgga mgga_c_m05 := nanFull_of (by decide +kernel)
theorem mgga_c_m06l_nanFull : NanFull .mgga mgga_c_m06l := nanFull_of (by decide +kernel)
theorem mgga_c_m08_nanFull : NanFull .mgga mgga_c_m08 := nanFull_of (by decide +kernel)
theorem mgga_c_pkzb_nanFull : NanFull .mgga mgga_c_pkzb := nanFull_of (by decide +kernel)
theorem mgga_c_revscan_nanFull : NanFull .mgga mgga_c_revscan := nanFull_of (by decide +kernel)
theorem mgga_c_revtpss_nanFull : NanFull .mgga mgga_c_revtpss := nanFull_of (by decide +kernel)
theorem mgga_c_rmggac_nanFull : NanFull .mgga mgga_c_rmggac := nanFull_of (by decide +kernel)
theorem mgga_c_rregtm_nanFull : NanFull .mgga mgga_c_rregtm := nanFull_of (by decide +kernel)
theorem mgga_c_scan_nanFull : NanFull .mgga mgga_c_scan := nanFull_of (by decide +kernel)
theorem mgga_c_tpss_nanFull : NanFull .mgga mgga_c_tpss := nanFull_of (by decide +kernel)
theorem mgga_c_tpssloc_nanFull : NanFull .mgga mgga_c_tpssloc := nanFull_of (by decide +kernel)
theorem mgga_c_vsxc_nanFull : NanFull .mgga mgga_c_vsxc := nanFull_of (by decide +kernel)
theorem mgga_k_csk_definedFull : DefinedFull {params := ["csk_a"]} .mgga mgga_k_csk :=
  definedFull_of _ mgga_k_csk_neverRaises (par := [427138178913]) (npar := []) (flds := []) (by simp [nameCode, nameCodeChars]) rfl rfl (by decide +kernel)
theorem mgga_k_csk_loc_definedFull : DefinedFull {params := ["csk_a"]} .mgga mgga_k_csk_loc :=
  definedFull_of _ mgga_k_csk_loc_neverRaises (par := [427138178913]) (npar := []) (flds := []) (by simp [nameCode, nameCodeChars]) rfl rfl (by decide +kernel)
theorem mgga_k_gea2_definedFull : DefinedFull {} .mgga mgga_k_gea2 :=
  definedFull_of _ mgga_k_gea2_neverRaises (par := []) (npar := []) (flds := []) rfl rfl rfl (by decide +kernel)
theorem mgga_k_gea4_definedFull : DefinedFull {} .mgga mgga_k_gea4 :=
  definedFull_of _ mgga_k_gea4_neverRaises (par := []) (npar := []) (flds := []) rfl rfl rfl (by decide +kernel)
theorem mgga_k_pgslb_definedFull : DefinedFull {} .mgga mgga_k_pgslb :=
  definedFull_of _ mgga_k_pgslb_neverRaises (par := []) (npar := []) (flds := []) rfl rfl rfl (by decide +kernel)
theorem mgga_x_2d_js17_definedFull : DefinedFull {} .mgga mgga_x_2d_js17 :=
  definedFull_of _ mgga_x_2d_js17_neverRaises (par := []) (npar := []) (flds := []) rfl rfl rfl (by decide +kernel)
theorem mgga_x_gdme_definedFull : DefinedFull {} .mgga mgga_x_gdme :=
  definedFull_of _ mgga_x_gdme_neverRaises (par := []) (npar := []) (flds := []) rfl rfl rfl (by decide +kernel)
theorem mgga_x_gvt4_definedFull : DefinedFull {} .mgga mgga_x_gvt4 :=
  definedFull_of _ mgga_x_gvt4_neverRaises (par := []) (npar := []) (flds := []) rfl rfl rfl (by decide +kernel)
theorem mgga_x_lta_definedFull : DefinedFull {} .mgga mgga_x_lta :=
  definedFull_of _ mgga_x_lta_neverRaises (par := []) (npar := []) (flds := []) rfl rfl rfl (by decide +kernel)
theorem mgga_x_m06l_definedFull : DefinedFull {} .mgga mgga_x_m06l :=
  definedFull_of _ mgga_x_m06l_neverRaises (par := []) (npar := []) (flds := []) rfl rfl rfl (by decide +kernel)
theorem mgga_x_m08_definedFull : DefinedFull {} .mgga mgga_x_m08 :=
  definedFull_of _ mgga_x_m08_neverRaises (par := []) (npar := []) (flds := []) rfl rfl rfl (by decide +kernel)
theorem mgga_x_m11_definedFull : DefinedFull {flds := [.camOmega]} .mgga mgga_x_m11 :=
  definedFull_of _ mgga_x_m11_neverRaises (par := []) (npar := []) (flds := [2]) rfl rfl rfl (by decide +kernel)
theorem mgga_x_m11_l_definedFull : DefinedFull {flds := [.camOmega]} .mgga mgga_x_m11_l :=
  definedFull_of _ mgga_x_m11_l_neverRaises (par := []) (npar := []) (flds := [2]) rfl rfl rfl (by decide +kernel)
theorem mgga_x_mn12_definedFull : DefinedFull {} .mgga mgga_x_mn12 :=
  definedFull_of _ mgga_x_mn12_neverRaises (par := []) (npar := []) (flds := []) rfl rfl rfl (by decide +kernel)
theorem mgga_x_mvs_definedFull : DefinedFull {params := ["c1", "e1", "b"]} .mgga mgga_x_mvs :=
  definedFull_of _ mgga_x_mvs_neverRaises (par := [25393, 25905, 98]) (npar := []) (flds := []) (by simp [nameCode, nameCodeChars]) rfl rfl (by decide +kernel)
theorem mgga_x_tau_hcth_definedFull : DefinedFull {} .mgga mgga_x_tau_hcth :=
  definedFull_of _ mgga_x_tau_hcth_neverRaises (par := []) (npar := []) (flds := []) rfl rfl rfl (by decide +kernel)
theorem mgga_x_th_definedFull : DefinedFull {} .mgga mgga_x_th :=
  definedFull_of _ mgga_x_th_neverRaises (par := []) (npar := []) (flds := []) rfl rfl rfl (by decide +kernel)
theorem mgga_xc_b97mv_nanFull : NanFull .mgga mgga_xc_b97mv := nanFull_of (by decide +kernel)
theorem mgga_xc_b98_nanFull : NanFull .mgga mgga_xc_b98 := nanFull_of (by decide +kernel)

end Verif.Props
