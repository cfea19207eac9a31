import Verif.Norm.Static
import Verif.Data.F13
/-!
# C35, C36, C44: which inputs shipped formulas read, and which formulas raise
-/
namespace Verif.Props
open Verif.Model Verif.Spec Verif.Norm Verif.Data

theorem mgga_k_pgslb_neverRaises : NeverRaises .mgga mgga_k_pgslb := neverRaises_of (by decide +kernel)
theorem mgga_k_pgslb_ignoresCross : IgnoresCross .mgga mgga_k_pgslb := ignoresCross_of 0 (.inl rfl) (by decide +kernel)
theorem mgga_k_pgslb_ignoresTau : IgnoresTau .mgga mgga_k_pgslb := ignoresTau_of 0 (.inl rfl) (by decide +kernel)
theorem mgga_k_rda_neverRaises : NeverRaises .mgga mgga_k_rda := neverRaises_of (by decide +kernel)
theorem mgga_k_rda_ignoresCross : IgnoresCross .mgga mgga_k_rda := ignoresCross_of 0 (.inl rfl) (by decide +kernel)
theorem mgga_k_rda_ignoresTau : IgnoresTau .mgga mgga_k_rda := ignoresTau_of 0 (.inl rfl) (by decide +kernel)
theorem mgga_x_2d_js17_neverRaises : NeverRaises .mgga mgga_x_2d_js17 := neverRaises_of (by decide +kernel)
theorem mgga_x_2d_js17_ignoresCross : IgnoresCross .mgga mgga_x_2d_js17 := ignoresCross_of 0 (.inl rfl) (by decide +kernel)
theorem mgga_x_2d_js17_ignoresLapl : IgnoresLapl .mgga mgga_x_2d_js17 := ignoresLapl_of 0 (.inl rfl) (by decide +kernel)
theorem mgga_x_2d_prhg07_neverRaises : NeverRaises .mgga mgga_x_2d_prhg07 := neverRaises_of (by decide +kernel)
theorem mgga_x_2d_prhg07_ignoresCross : IgnoresCross .mgga mgga_x_2d_prhg07 := ignoresCross_of 0 (.inl rfl) (by decide +kernel)
theorem mgga_x_2d_prp10_neverRaises : NeverRaises .mgga mgga_x_2d_prp10 := neverRaises_of (by decide +kernel)
theorem mgga_x_2d_prp10_ignoresCross : IgnoresCross .mgga mgga_x_2d_prp10 := ignoresCross_of 0 (.inl rfl) (by decide +kernel)
theorem mgga_x_br89_nameError : AlwaysNameError .mgga mgga_x_br89 := alwaysNameError_of (by decide +kernel)
theorem mgga_x_br89_ignoresCross : IgnoresCross .mgga mgga_x_br89 := ignoresCross_of 2 (.inr rfl) (by decide +kernel)
theorem mgga_x_br89_explicit_neverRaises : NeverRaises .mgga mgga_x_br89_explicit := neverRaises_of (by decide +kernel)
theorem mgga_x_br89_explicit_ignoresCross : IgnoresCross .mgga mgga_x_br89_explicit := ignoresCross_of 0 (.inl rfl) (by decide +kernel)
theorem mgga_x_edmgga_neverRaises : NeverRaises .mgga mgga_x_edmgga := neverRaises_of (by decide +kernel)
theorem mgga_x_edmgga_ignoresCross : IgnoresCross .mgga mgga_x_edmgga := ignoresCross_of 0 (.inl rfl) (by decide +kernel)
theorem mgga_x_ft98_neverRaises : NeverRaises .mgga mgga_x_ft98 := neverRaises_of (by decide +kernel)
theorem mgga_x_ft98_ignoresCross : IgnoresCross .mgga mgga_x_ft98 := ignoresCross_of 0 (.inl rfl) (by decide +kernel)
theorem mgga_x_ft98_ignoresTau : IgnoresTau .mgga mgga_x_ft98 := ignoresTau_of 0 (.inl rfl) (by decide +kernel)
theorem mgga_x_gdme_neverRaises : NeverRaises .mgga mgga_x_gdme := neverRaises_of (by decide +kernel)
theorem mgga_x_gdme_ignoresCross : IgnoresCross .mgga mgga_x_gdme := ignoresCross_of 0 (.inl rfl) (by decide +kernel)
theorem mgga_x_gvt4_neverRaises : NeverRaises .mgga mgga_x_gvt4 := neverRaises_of (by decide +kernel)
theorem mgga_x_gvt4_ignoresCross : IgnoresCross .mgga mgga_x_gvt4 := ignoresCross_of 0 (.inl rfl) (by decide +kernel)
theorem mgga_x_gvt4_ignoresLapl : IgnoresLapl .mgga mgga_x_gvt4 := ignoresLapl_of 0 (.inl rfl) (by decide +kernel)
theorem mgga_x_gx_neverRaises : NeverRaises .mgga mgga_x_gx := neverRaises_of (by decide +kernel)
theorem mgga_x_gx_ignoresCross : IgnoresCross .mgga mgga_x_gx := ignoresCross_of 0 (.inl rfl) (by decide +kernel)
theorem mgga_x_gx_ignoresLapl : IgnoresLapl .mgga mgga_x_gx := ignoresLapl_of 0 (.inl rfl) (by decide +kernel)
theorem mgga_x_jk_neverRaises : NeverRaises .mgga mgga_x_jk := neverRaises_of (by decide +kernel)
theorem mgga_x_jk_ignoresCross : IgnoresCross .mgga mgga_x_jk := ignoresCross_of 0 (.inl rfl) (by decide +kernel)
theorem mgga_x_jk_ignoresTau : IgnoresTau .mgga mgga_x_jk := ignoresTau_of 0 (.inl rfl) (by decide +kernel)
theorem mgga_x_lta_neverRaises : NeverRaises .mgga mgga_x_lta := neverRaises_of (by decide +kernel)
theorem mgga_x_lta_ignoresCross : IgnoresCross .mgga mgga_x_lta := ignoresCross_of 0 (.inl rfl) (by decide +kernel)
theorem mgga_x_lta_ignoresLapl : IgnoresLapl .mgga mgga_x_lta := ignoresLapl_of 0 (.inl rfl) (by decide +kernel)
theorem mgga_x_m06l_neverRaises : NeverRaises .mgga mgga_x_m06l := neverRaises_of (by decide +kernel)
theorem mgga_x_m06l_ignoresCross : IgnoresCross .mgga mgga_x_m06l := ignoresCross_of 0 (.inl rfl) (by decide +kernel)
theorem mgga_x_m06l_ignoresLapl : IgnoresLapl .mgga mgga_x_m06l := ignoresLapl_of 0 (.inl rfl) (by decide +kernel)
theorem mgga_x_m08_neverRaises : NeverRaises .mgga mgga_x_m08 := neverRaises_of (by decide +kernel)
theorem mgga_x_m08_ignoresCross : IgnoresCross .mgga mgga_x_m08 := ignoresCross_of 0 (.inl rfl) (by decide +kernel)
theorem mgga_x_m08_ignoresLapl : IgnoresLapl .mgga mgga_x_m08 := ignoresLapl_of 0 (.inl rfl) (by decide +kernel)
theorem mgga_x_m11_neverRaises : NeverRaises .mgga mgga_x_m11 := neverRaises_of (by decide +kernel)
theorem mgga_x_m11_ignoresCross : IgnoresCross .mgga mgga_x_m11 := ignoresCross_of 0 (.inl rfl) (by decide +kernel)
theorem mgga_x_m11_ignoresLapl : IgnoresLapl .mgga mgga_x_m11 := ignoresLapl_of 0 (.inl rfl) (by decide +kernel)
theorem mgga_x_m11_l_neverRaises : NeverRaises .mgga mgga_x_m11_l := neverRaises_of (by decide +kernel)
theorem mgga_x_m11_l_ignoresCross : IgnoresCross .mgga mgga_x_m11_l := ignoresCross_of 0 (.inl rfl) (by decide +kernel)
theorem mgga_x_m11_l_ignoresLapl : IgnoresLapl .mgga mgga_x_m11_l := ignoresLapl_of 0 (.inl rfl) (by decide +kernel)

end Verif.Props

namespace Verif.Props
open Verif.Model Verif.Spec Verif.Norm Verif.Data

theorem mgga_x_mbeef_neverRaises : NeverRaises .mgga mgga_x_mbeef := neverRaises_of (by decide +kernel)
theorem mgga_x_mbeef_ignoresCross : IgnoresCross .mgga mgga_x_mbeef := ignoresCross_of 0 (.inl rfl) (by decide +kernel)
theorem mgga_x_mbeef_ignoresLapl : IgnoresLapl .mgga mgga_x_mbeef := ignoresLapl_of 0 (.inl rfl) (by decide +kernel)
theorem mgga_x_mbeefvdw_neverRaises : NeverRaises .mgga mgga_x_mbeefvdw := neverRaises_of (by decide +kernel)
theorem mgga_x_mbeefvdw_ignoresCross : IgnoresCross .mgga mgga_x_mbeefvdw := ignoresCross_of 0 (.inl rfl) (by decide +kernel)
theorem mgga_x_mbeefvdw_ignoresLapl : IgnoresLapl .mgga mgga_x_mbeefvdw := ignoresLapl_of 0 (.inl rfl) (by decide +kernel)
theorem mgga_x_mbr_nameError : AlwaysNameError .mgga mgga_x_mbr := alwaysNameError_of (by decide +kernel)
theorem mgga_x_mbr_ignoresCross : IgnoresCross .mgga mgga_x_mbr := ignoresCross_of 2 (.inr rfl) (by decide +kernel)
theorem mgga_x_mbr_ignoresLapl : IgnoresLapl .mgga mgga_x_mbr := ignoresLapl_of 2 (.inr rfl) (by decide +kernel)
theorem mgga_x_mbrxc_bg_nameError : AlwaysNameError .mgga mgga_x_mbrxc_bg := alwaysNameError_of (by decide +kernel)
theorem mgga_x_mbrxc_bg_ignoresCross : IgnoresCross .mgga mgga_x_mbrxc_bg := ignoresCross_of 2 (.inr rfl) (by decide +kernel)
theorem mgga_x_mbrxc_bg_ignoresLapl : IgnoresLapl .mgga mgga_x_mbrxc_bg := ignoresLapl_of 2 (.inr rfl) (by decide +kernel)
theorem mgga_x_mbrxh_bg_nameError : AlwaysNameError .mgga mgga_x_mbrxh_bg := alwaysNameError_of (by decide +kernel)
theorem mgga_x_mbrxh_bg_ignoresCross : IgnoresCross .mgga mgga_x_mbrxh_bg := ignoresCross_of 2 (.inr rfl) (by decide +kernel)
theorem mgga_x_mbrxh_bg_ignoresLapl : IgnoresLapl .mgga mgga_x_mbrxh_bg := ignoresLapl_of 2 (.inr rfl) (by decide +kernel)
theorem mgga_x_mcml_neverRaises : NeverRaises .mgga mgga_x_mcml := neverRaises_of (by decide +kernel)
theorem mgga_x_mcml_ignoresCross : IgnoresCross .mgga mgga_x_mcml := ignoresCross_of 0 (.inl rfl) (by decide +kernel)
theorem mgga_x_mcml_ignoresLapl : IgnoresLapl .mgga mgga_x_mcml := ignoresLapl_of 0 (.inl rfl) (by decide +kernel)
theorem mgga_x_mggac_nameError : AlwaysNameError .mgga mgga_x_mggac := alwaysNameError_of (by decide +kernel)
theorem mgga_x_mggac_ignoresCross : IgnoresCross .mgga mgga_x_mggac := ignoresCross_of 2 (.inr rfl) (by decide +kernel)
theorem mgga_x_mggac_ignoresLapl : IgnoresLapl .mgga mgga_x_mggac := ignoresLapl_of 2 (.inr rfl) (by decide +kernel)
theorem mgga_x_mn12_neverRaises : NeverRaises .mgga mgga_x_mn12 := neverRaises_of (by decide +kernel)
theorem mgga_x_mn12_ignoresCross : IgnoresCross .mgga mgga_x_mn12 := ignoresCross_of 0 (.inl rfl) (by decide +kernel)
theorem mgga_x_mn12_ignoresLapl : IgnoresLapl .mgga mgga_x_mn12 := ignoresLapl_of 0 (.inl rfl) (by decide +kernel)
theorem mgga_x_ms_neverRaises : NeverRaises .mgga mgga_x_ms := neverRaises_of (by decide +kernel)
theorem mgga_x_ms_ignoresCross : IgnoresCross .mgga mgga_x_ms := ignoresCross_of 0 (.inl rfl) (by decide +kernel)
theorem mgga_x_ms_ignoresLapl : IgnoresLapl .mgga mgga_x_ms := ignoresLapl_of 0 (.inl rfl) (by decide +kernel)
theorem mgga_x_msb_neverRaises : NeverRaises .mgga mgga_x_msb := neverRaises_of (by decide +kernel)
theorem mgga_x_msb_ignoresCross : IgnoresCross .mgga mgga_x_msb := ignoresCross_of 0 (.inl rfl) (by decide +kernel)
theorem mgga_x_msb_ignoresLapl : IgnoresLapl .mgga mgga_x_msb := ignoresLapl_of 0 (.inl rfl) (by decide +kernel)
theorem mgga_x_mvs_neverRaises : NeverRaises .mgga mgga_x_mvs := neverRaises_of (by decide +kernel)
theorem mgga_x_mvs_ignoresCross : IgnoresCross .mgga mgga_x_mvs := ignoresCross_of 0 (.inl rfl) (by decide +kernel)
theorem mgga_x_mvs_ignoresLapl : IgnoresLapl .mgga mgga_x_mvs := ignoresLapl_of 0 (.inl rfl) (by decide +kernel)

end Verif.Props

namespace Verif.Props
open Verif.Model Verif.Spec Verif.Norm Verif.Data

theorem mgga_x_mvsb_neverRaises : NeverRaises .mgga mgga_x_mvsb := neverRaises_of (by decide +kernel)
theorem mgga_x_mvsb_ignoresCross : IgnoresCross .mgga mgga_x_mvsb := ignoresCross_of 0 (.inl rfl) (by decide +kernel)
theorem mgga_x_mvsb_ignoresLapl : IgnoresLapl .mgga mgga_x_mvsb := ignoresLapl_of 0 (.inl rfl) (by decide +kernel)
theorem mgga_x_pbe_gx_neverRaises : NeverRaises .mgga mgga_x_pbe_gx := neverRaises_of (by decide +kernel)
theorem mgga_x_pbe_gx_ignoresCross : IgnoresCross .mgga mgga_x_pbe_gx := ignoresCross_of 0 (.inl rfl) (by decide +kernel)
theorem mgga_x_pbe_gx_ignoresLapl : IgnoresLapl .mgga mgga_x_pbe_gx := ignoresLapl_of 0 (.inl rfl) (by decide +kernel)
theorem mgga_x_pkzb_neverRaises : NeverRaises .mgga mgga_x_pkzb := neverRaises_of (by decide +kernel)
theorem mgga_x_pkzb_ignoresCross : IgnoresCross .mgga mgga_x_pkzb := ignoresCross_of 0 (.inl rfl) (by decide +kernel)
theorem mgga_x_pkzb_ignoresLapl : IgnoresLapl .mgga mgga_x_pkzb := ignoresLapl_of 0 (.inl rfl) (by decide +kernel)
theorem mgga_x_r2scan_neverRaises : NeverRaises .mgga mgga_x_r2scan := neverRaises_of (by decide +kernel)
theorem mgga_x_r2scan_ignoresCross : IgnoresCross .mgga mgga_x_r2scan := ignoresCross_of 0 (.inl rfl) (by decide +kernel)
theorem mgga_x_r2scan_ignoresLapl : IgnoresLapl .mgga mgga_x_r2scan := ignoresLapl_of 0 (.inl rfl) (by decide +kernel)
theorem mgga_x_r4scan_neverRaises : NeverRaises .mgga mgga_x_r4scan := neverRaises_of (by decide +kernel)
theorem mgga_x_r4scan_ignoresCross : IgnoresCross .mgga mgga_x_r4scan := ignoresCross_of 0 (.inl rfl) (by decide +kernel)
theorem mgga_x_r4scan_ignoresLapl : IgnoresLapl .mgga mgga_x_r4scan := ignoresLapl_of 0 (.inl rfl) (by decide +kernel)
theorem mgga_x_regtm_neverRaises : NeverRaises .mgga mgga_x_regtm := neverRaises_of (by decide +kernel)
theorem mgga_x_regtm_ignoresCross : IgnoresCross .mgga mgga_x_regtm := ignoresCross_of 0 (.inl rfl) (by decide +kernel)
theorem mgga_x_regtm_ignoresLapl : IgnoresLapl .mgga mgga_x_regtm := ignoresLapl_of 0 (.inl rfl) (by decide +kernel)
theorem mgga_x_regtpss_neverRaises : NeverRaises .mgga mgga_x_regtpss := neverRaises_of (by decide +kernel)
theorem mgga_x_regtpss_ignoresCross : IgnoresCross .mgga mgga_x_regtpss := ignoresCross_of 0 (.inl rfl) (by decide +kernel)
theorem mgga_x_regtpss_ignoresLapl : IgnoresLapl .mgga mgga_x_regtpss := ignoresLapl_of 0 (.inl rfl) (by decide +kernel)
theorem mgga_x_revtm_neverRaises : NeverRaises .mgga mgga_x_revtm := neverRaises_of (by decide +kernel)
theorem mgga_x_revtm_ignoresCross : IgnoresCross .mgga mgga_x_revtm := ignoresCross_of 0 (.inl rfl) (by decide +kernel)
theorem mgga_x_revtm_ignoresLapl : IgnoresLapl .mgga mgga_x_revtm := ignoresLapl_of 0 (.inl rfl) (by decide +kernel)
theorem mgga_x_rlda_neverRaises : NeverRaises .mgga mgga_x_rlda := neverRaises_of (by decide +kernel)
theorem mgga_x_rlda_ignoresCross : IgnoresCross .mgga mgga_x_rlda := ignoresCross_of 0 (.inl rfl) (by decide +kernel)
theorem mgga_x_rppscan_neverRaises : NeverRaises .mgga mgga_x_rppscan := neverRaises_of (by decide +kernel)
theorem mgga_x_rppscan_ignoresCross : IgnoresCross .mgga mgga_x_rppscan := ignoresCross_of 0 (.inl rfl) (by decide +kernel)
theorem mgga_x_rppscan_ignoresLapl : IgnoresLapl .mgga mgga_x_rppscan := ignoresLapl_of 0 (.inl rfl) (by decide +kernel)
theorem mgga_x_rscan_neverRaises : NeverRaises .mgga mgga_x_rscan := neverRaises_of (by decide +kernel)
theorem mgga_x_rscan_ignoresCross : IgnoresCross .mgga mgga_x_rscan := ignoresCross_of 0 (.inl rfl) (by decide +kernel)
theorem mgga_x_rscan_ignoresLapl : IgnoresLapl .mgga mgga_x_rscan := ignoresLapl_of 0 (.inl rfl) (by decide +kernel)
theorem mgga_x_rtpss_neverRaises : NeverRaises .mgga mgga_x_rtpss := neverRaises_of (by decide +kernel)
theorem mgga_x_rtpss_ignoresCross : IgnoresCross .mgga mgga_x_rtpss := ignoresCross_of 0 (.inl rfl) (by decide +kernel)
theorem mgga_x_rtpss_ignoresLapl : IgnoresLapl .mgga mgga_x_rtpss := ignoresLapl_of 0 (.inl rfl) (by decide +kernel)
theorem mgga_x_sa_tpss_neverRaises : NeverRaises .mgga mgga_x_sa_tpss := neverRaises_of (by decide +kernel)
theorem mgga_x_sa_tpss_ignoresCross : IgnoresCross .mgga mgga_x_sa_tpss := ignoresCross_of 0 (.inl rfl) (by decide +kernel)
theorem mgga_x_sa_tpss_ignoresLapl : IgnoresLapl .mgga mgga_x_sa_tpss := ignoresLapl_of 0 (.inl rfl) (by decide +kernel)
theorem mgga_x_scan_neverRaises : NeverRaises .mgga mgga_x_scan := neverRaises_of (by decide +kernel)
theorem mgga_x_scan_ignoresCross : IgnoresCross .mgga mgga_x_scan := ignoresCross_of 0 (.inl rfl) (by decide +kernel)
theorem mgga_x_scan_ignoresLapl : IgnoresLapl .mgga mgga_x_scan := ignoresLapl_of 0 (.inl rfl) (by decide +kernel)
theorem mgga_x_task_neverRaises : NeverRaises .mgga mgga_x_task := neverRaises_of (by decide +kernel)
theorem mgga_x_task_ignoresCross : IgnoresCross .mgga mgga_x_task := ignoresCross_of 0 (.inl rfl) (by decide +kernel)
theorem mgga_x_task_ignoresLapl : IgnoresLapl .mgga mgga_x_task := ignoresLapl_of 0 (.inl rfl) (by decide +kernel)

end Verif.Props

namespace Verif.Props
open Verif.Model Verif.Spec Verif.Norm Verif.Data

theorem mgga_x_tau_hcth_neverRaises : NeverRaises .mgga mgga_x_tau_hcth := neverRaises_of (by decide +kernel)
theorem mgga_x_tau_hcth_ignoresCross : IgnoresCross .mgga mgga_x_tau_hcth := ignoresCross_of 0 (.inl rfl) (by decide +kernel)
theorem mgga_x_tau_hcth_ignoresLapl : IgnoresLapl .mgga mgga_x_tau_hcth := ignoresLapl_of 0 (.inl rfl) (by decide +kernel)
theorem mgga_x_tb09_nameError : AlwaysNameError .mgga mgga_x_tb09 := alwaysNameError_of (by decide +kernel)
theorem mgga_x_tb09_ignoresCross : IgnoresCross .mgga mgga_x_tb09 := ignoresCross_of 2 (.inr rfl) (by decide +kernel)
theorem mgga_x_th_neverRaises : NeverRaises .mgga mgga_x_th := neverRaises_of (by decide +kernel)
theorem mgga_x_th_ignoresCross : IgnoresCross .mgga mgga_x_th := ignoresCross_of 0 (.inl rfl) (by decide +kernel)
theorem mgga_x_th_ignoresLapl : IgnoresLapl .mgga mgga_x_th := ignoresLapl_of 0 (.inl rfl) (by decide +kernel)
theorem mgga_x_tm_neverRaises : NeverRaises .mgga mgga_x_tm := neverRaises_of (by decide +kernel)
theorem mgga_x_tm_ignoresCross : IgnoresCross .mgga mgga_x_tm := ignoresCross_of 0 (.inl rfl) (by decide +kernel)
theorem mgga_x_tm_ignoresLapl : IgnoresLapl .mgga mgga_x_tm := ignoresLapl_of 0 (.inl rfl) (by decide +kernel)
theorem mgga_x_tpss_neverRaises : NeverRaises .mgga mgga_x_tpss := neverRaises_of (by decide +kernel)
theorem mgga_x_tpss_ignoresCross : IgnoresCross .mgga mgga_x_tpss := ignoresCross_of 0 (.inl rfl) (by decide +kernel)
theorem mgga_x_tpss_ignoresLapl : IgnoresLapl .mgga mgga_x_tpss := ignoresLapl_of 0 (.inl rfl) (by decide +kernel)
theorem mgga_x_vcml_neverRaises : NeverRaises .mgga mgga_x_vcml := neverRaises_of (by decide +kernel)
theorem mgga_x_vcml_ignoresCross : IgnoresCross .mgga mgga_x_vcml := ignoresCross_of 0 (.inl rfl) (by decide +kernel)
theorem mgga_x_vcml_ignoresLapl : IgnoresLapl .mgga mgga_x_vcml := ignoresLapl_of 0 (.inl rfl) (by decide +kernel)
theorem mgga_x_vt84_neverRaises : NeverRaises .mgga mgga_x_vt84 := neverRaises_of (by decide +kernel)
theorem mgga_x_vt84_ignoresCross : IgnoresCross .mgga mgga_x_vt84 := ignoresCross_of 0 (.inl rfl) (by decide +kernel)
theorem mgga_x_vt84_ignoresLapl : IgnoresLapl .mgga mgga_x_vt84 := ignoresLapl_of 0 (.inl rfl) (by decide +kernel)
theorem mgga_xc_b97mv_neverRaises : NeverRaises .mgga mgga_xc_b97mv := neverRaises_of (by decide +kernel)
theorem mgga_xc_b97mv_ignoresLapl : IgnoresLapl .mgga mgga_xc_b97mv := ignoresLapl_of 0 (.inl rfl) (by decide +kernel)
theorem mgga_xc_b98_neverRaises : NeverRaises .mgga mgga_xc_b98 := neverRaises_of (by decide +kernel)
theorem mgga_xc_cc06_neverRaises : NeverRaises .mgga mgga_xc_cc06 := neverRaises_of (by decide +kernel)
theorem mgga_xc_cc06_ignoresTau : IgnoresTau .mgga mgga_xc_cc06 := ignoresTau_of 0 (.inl rfl) (by decide +kernel)
theorem mgga_xc_lp90_neverRaises : NeverRaises .mgga mgga_xc_lp90 := neverRaises_of (by decide +kernel)
theorem mgga_xc_lp90_ignoresTau : IgnoresTau .mgga mgga_xc_lp90 := ignoresTau_of 0 (.inl rfl) (by decide +kernel)
theorem mgga_xc_zlp_neverRaises : NeverRaises .mgga mgga_xc_zlp := neverRaises_of (by decide +kernel)
theorem mgga_xc_zlp_ignoresTau : IgnoresTau .mgga mgga_xc_zlp := ignoresTau_of 0 (.inl rfl) (by decide +kernel)

end Verif.Props
