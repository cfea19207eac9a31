import Verif.Norm.Static
import Verif.Data.F09
/-!
# C35, C36, C44: which inputs shipped formulas read, and which formulas raise
-/
namespace Verif.Props
open Verif.Model Verif.Spec Verif.Norm Verif.Data

theorem lda_c_pz_neverRaises : NeverRaises .lda lda_c_pz := neverRaises_of (by decide +kernel)
theorem lda_c_pz_ignoresLapl : IgnoresLapl .lda lda_c_pz := ignoresLapl_of 0 (.inl rfl) (by decide +kernel)
theorem lda_c_rc04_neverRaises : NeverRaises .lda lda_c_rc04 := neverRaises_of (by decide +kernel)
theorem lda_c_rc04_ignoresLapl : IgnoresLapl .lda lda_c_rc04 := ignoresLapl_of 0 (.inl rfl) (by decide +kernel)
theorem lda_c_rpa_neverRaises : NeverRaises .lda lda_c_rpa := neverRaises_of (by decide +kernel)
theorem lda_c_rpa_ignoresLapl : IgnoresLapl .lda lda_c_rpa := ignoresLapl_of 0 (.inl rfl) (by decide +kernel)
theorem lda_c_vwn_neverRaises : NeverRaises .lda lda_c_vwn := neverRaises_of (by decide +kernel)
theorem lda_c_vwn_ignoresLapl : IgnoresLapl .lda lda_c_vwn := ignoresLapl_of 0 (.inl rfl) (by decide +kernel)
theorem lda_c_vwn_1_neverRaises : NeverRaises .lda lda_c_vwn_1 := neverRaises_of (by decide +kernel)
theorem lda_c_vwn_1_ignoresLapl : IgnoresLapl .lda lda_c_vwn_1 := ignoresLapl_of 0 (.inl rfl) (by decide +kernel)
theorem lda_c_vwn_2_neverRaises : NeverRaises .lda lda_c_vwn_2 := neverRaises_of (by decide +kernel)
theorem lda_c_vwn_2_ignoresLapl : IgnoresLapl .lda lda_c_vwn_2 := ignoresLapl_of 0 (.inl rfl) (by decide +kernel)
theorem lda_c_vwn_3_neverRaises : NeverRaises .lda lda_c_vwn_3 := neverRaises_of (by decide +kernel)
theorem lda_c_vwn_3_ignoresLapl : IgnoresLapl .lda lda_c_vwn_3 := ignoresLapl_of 0 (.inl rfl) (by decide +kernel)
theorem lda_c_vwn_4_neverRaises : NeverRaises .lda lda_c_vwn_4 := neverRaises_of (by decide +kernel)
theorem lda_c_vwn_4_ignoresLapl : IgnoresLapl .lda lda_c_vwn_4 := ignoresLapl_of 0 (.inl rfl) (by decide +kernel)
theorem lda_c_vwn_rpa_neverRaises : NeverRaises .lda lda_c_vwn_rpa := neverRaises_of (by decide +kernel)
theorem lda_c_vwn_rpa_ignoresLapl : IgnoresLapl .lda lda_c_vwn_rpa := ignoresLapl_of 0 (.inl rfl) (by decide +kernel)
theorem lda_c_w20_neverRaises : NeverRaises .lda lda_c_w20 := neverRaises_of (by decide +kernel)
theorem lda_c_w20_ignoresLapl : IgnoresLapl .lda lda_c_w20 := ignoresLapl_of 0 (.inl rfl) (by decide +kernel)
theorem lda_c_wigner_neverRaises : NeverRaises .lda lda_c_wigner := neverRaises_of (by decide +kernel)
theorem lda_c_wigner_ignoresLapl : IgnoresLapl .lda lda_c_wigner := ignoresLapl_of 0 (.inl rfl) (by decide +kernel)
theorem lda_k_gds08_worker_neverRaises : NeverRaises .lda lda_k_gds08_worker := neverRaises_of (by decide +kernel)
theorem lda_k_gds08_worker_ignoresCross : IgnoresCross .lda lda_k_gds08_worker := ignoresCross_of 0 (.inl rfl) (by decide +kernel)
theorem lda_k_gds08_worker_ignoresLapl : IgnoresLapl .lda lda_k_gds08_worker := ignoresLapl_of 0 (.inl rfl) (by decide +kernel)
theorem lda_k_tf_neverRaises : NeverRaises .lda lda_k_tf := neverRaises_of (by decide +kernel)
theorem lda_k_tf_ignoresCross : IgnoresCross .lda lda_k_tf := ignoresCross_of 0 (.inl rfl) (by decide +kernel)
theorem lda_k_tf_ignoresLapl : IgnoresLapl .lda lda_k_tf := ignoresLapl_of 0 (.inl rfl) (by decide +kernel)
theorem lda_k_zlp_neverRaises : NeverRaises .lda lda_k_zlp := neverRaises_of (by decide +kernel)
theorem lda_k_zlp_ignoresCross : IgnoresCross .lda lda_k_zlp := ignoresCross_of 0 (.inl rfl) (by decide +kernel)
theorem lda_k_zlp_ignoresLapl : IgnoresLapl .lda lda_k_zlp := ignoresLapl_of 0 (.inl rfl) (by decide +kernel)
theorem lda_x_neverRaises : NeverRaises .lda lda_x := neverRaises_of (by decide +kernel)
theorem lda_x_ignoresCross : IgnoresCross .lda lda_x := ignoresCross_of 0 (.inl rfl) (by decide +kernel)
theorem lda_x_ignoresLapl : IgnoresLapl .lda lda_x := ignoresLapl_of 0 (.inl rfl) (by decide +kernel)
theorem lda_x_1d_exponential_nameError : AlwaysNameError .lda lda_x_1d_exponential := alwaysNameError_of (by decide +kernel)
theorem lda_x_1d_exponential_ignoresCross : IgnoresCross .lda lda_x_1d_exponential := ignoresCross_of 2 (.inr rfl) (by decide +kernel)
theorem lda_x_1d_exponential_ignoresLapl : IgnoresLapl .lda lda_x_1d_exponential := ignoresLapl_of 2 (.inr rfl) (by decide +kernel)
theorem lda_x_1d_soft_nameError : AlwaysNameError .lda lda_x_1d_soft := alwaysNameError_of (by decide +kernel)
theorem lda_x_1d_soft_ignoresCross : IgnoresCross .lda lda_x_1d_soft := ignoresCross_of 2 (.inr rfl) (by decide +kernel)
theorem lda_x_1d_soft_ignoresLapl : IgnoresLapl .lda lda_x_1d_soft := ignoresLapl_of 2 (.inr rfl) (by decide +kernel)
theorem lda_x_2d_neverRaises : NeverRaises .lda lda_x_2d := neverRaises_of (by decide +kernel)
theorem lda_x_2d_ignoresCross : IgnoresCross .lda lda_x_2d := ignoresCross_of 0 (.inl rfl) (by decide +kernel)
theorem lda_x_2d_ignoresLapl : IgnoresLapl .lda lda_x_2d := ignoresLapl_of 0 (.inl rfl) (by decide +kernel)
theorem lda_x_erf_neverRaises : NeverRaises .lda lda_x_erf := neverRaises_of (by decide +kernel)
theorem lda_x_erf_ignoresCross : IgnoresCross .lda lda_x_erf := ignoresCross_of 0 (.inl rfl) (by decide +kernel)
theorem lda_x_erf_ignoresLapl : IgnoresLapl .lda lda_x_erf := ignoresLapl_of 0 (.inl rfl) (by decide +kernel)
theorem lda_x_rel_neverRaises : NeverRaises .lda lda_x_rel := neverRaises_of (by decide +kernel)
theorem lda_x_rel_ignoresCross : IgnoresCross .lda lda_x_rel := ignoresCross_of 0 (.inl rfl) (by decide +kernel)
theorem lda_x_rel_ignoresLapl : IgnoresLapl .lda lda_x_rel := ignoresLapl_of 0 (.inl rfl) (by decide +kernel)
theorem lda_x_sloc_neverRaises : NeverRaises .lda lda_x_sloc := neverRaises_of (by decide +kernel)
theorem lda_x_sloc_ignoresCross : IgnoresCross .lda lda_x_sloc := ignoresCross_of 0 (.inl rfl) (by decide +kernel)
theorem lda_x_sloc_ignoresLapl : IgnoresLapl .lda lda_x_sloc := ignoresLapl_of 0 (.inl rfl) (by decide +kernel)
theorem lda_x_yukawa_neverRaises : NeverRaises .lda lda_x_yukawa := neverRaises_of (by decide +kernel)
theorem lda_x_yukawa_ignoresCross : IgnoresCross .lda lda_x_yukawa := ignoresCross_of 0 (.inl rfl) (by decide +kernel)
theorem lda_x_yukawa_ignoresLapl : IgnoresLapl .lda lda_x_yukawa := ignoresLapl_of 0 (.inl rfl) (by decide +kernel)
theorem lda_xc_1d_ehwlrg_neverRaises : NeverRaises .lda lda_xc_1d_ehwlrg := neverRaises_of (by decide +kernel)
theorem lda_xc_1d_ehwlrg_ignoresLapl : IgnoresLapl .lda lda_xc_1d_ehwlrg := ignoresLapl_of 0 (.inl rfl) (by decide +kernel)
theorem lda_xc_ksdt_neverRaises : NeverRaises .lda lda_xc_ksdt := neverRaises_of (by decide +kernel)
theorem lda_xc_ksdt_ignoresLapl : IgnoresLapl .lda lda_xc_ksdt := ignoresLapl_of 0 (.inl rfl) (by decide +kernel)
theorem lda_xc_teter93_neverRaises : NeverRaises .lda lda_xc_teter93 := neverRaises_of (by decide +kernel)
theorem lda_xc_teter93_ignoresLapl : IgnoresLapl .lda lda_xc_teter93 := ignoresLapl_of 0 (.inl rfl) (by decide +kernel)
theorem lda_xc_tih_neverRaises : NeverRaises .lda lda_xc_tih := neverRaises_of (by decide +kernel)
theorem lda_xc_tih_ignoresLapl : IgnoresLapl .lda lda_xc_tih := ignoresLapl_of 0 (.inl rfl) (by decide +kernel)
theorem lda_xc_zlp_neverRaises : NeverRaises .lda lda_xc_zlp := neverRaises_of (by decide +kernel)
theorem lda_xc_zlp_ignoresLapl : IgnoresLapl .lda lda_xc_zlp := ignoresLapl_of 0 (.inl rfl) (by decide +kernel)
theorem mgga_c_b88_neverRaises : NeverRaises .mgga mgga_c_b88 := neverRaises_of (by decide +kernel)
theorem mgga_c_b88_ignoresLapl : IgnoresLapl .mgga mgga_c_b88 := ignoresLapl_of 0 (.inl rfl) (by decide +kernel)
theorem mgga_c_b94_nameError : AlwaysNameError .mgga mgga_c_b94 := alwaysNameError_of (by decide +kernel)
theorem mgga_c_bc95_neverRaises : NeverRaises .mgga mgga_c_bc95 := neverRaises_of (by decide +kernel)
theorem mgga_c_bc95_ignoresLapl : IgnoresLapl .mgga mgga_c_bc95 := ignoresLapl_of 0 (.inl rfl) (by decide +kernel)

end Verif.Props

namespace Verif.Props
open Verif.Model Verif.Spec Verif.Norm Verif.Data

theorem mgga_c_cc_neverRaises : NeverRaises .mgga mgga_c_cc := neverRaises_of (by decide +kernel)
theorem mgga_c_cc_ignoresLapl : IgnoresLapl .mgga mgga_c_cc := ignoresLapl_of 0 (.inl rfl) (by decide +kernel)
theorem mgga_c_ccalda_neverRaises : NeverRaises .mgga mgga_c_ccalda := neverRaises_of (by decide +kernel)
theorem mgga_c_ccalda_ignoresLapl : IgnoresLapl .mgga mgga_c_ccalda := ignoresLapl_of 0 (.inl rfl) (by decide +kernel)
theorem mgga_c_cs_neverRaises : NeverRaises .mgga mgga_c_cs := neverRaises_of (by decide +kernel)
theorem mgga_c_kcis_neverRaises : NeverRaises .mgga mgga_c_kcis := neverRaises_of (by decide +kernel)
theorem mgga_c_kcis_ignoresLapl : IgnoresLapl .mgga mgga_c_kcis := ignoresLapl_of 0 (.inl rfl) (by decide +kernel)
theorem mgga_c_kcisk_neverRaises : NeverRaises .mgga mgga_c_kcisk := neverRaises_of (by decide +kernel)
theorem mgga_c_kcisk_ignoresLapl : IgnoresLapl .mgga mgga_c_kcisk := ignoresLapl_of 0 (.inl rfl) (by decide +kernel)
theorem mgga_c_ltapw_neverRaises : NeverRaises .mgga mgga_c_ltapw := neverRaises_of (by decide +kernel)
theorem mgga_c_ltapw_ignoresLapl : IgnoresLapl .mgga mgga_c_ltapw := ignoresLapl_of 0 (.inl rfl) (by decide +kernel)
theorem mgga_c_m05_neverRaises : NeverRaises .mgga mgga_c_m05 := neverRaises_of (by decide +kernel)
theorem mgga_c_m05_ignoresLapl : IgnoresLapl .mgga mgga_c_m05 := ignoresLapl_of 0 (.inl rfl) (by decide +kernel)
theorem mgga_c_m06l_neverRaises : NeverRaises .mgga mgga_c_m06l := neverRaises_of (by decide +kernel)
theorem mgga_c_m06l_ignoresLapl : IgnoresLapl .mgga mgga_c_m06l := ignoresLapl_of 0 (.inl rfl) (by decide +kernel)
theorem mgga_c_m08_neverRaises : NeverRaises .mgga mgga_c_m08 := neverRaises_of (by decide +kernel)
theorem mgga_c_m08_ignoresLapl : IgnoresLapl .mgga mgga_c_m08 := ignoresLapl_of 0 (.inl rfl) (by decide +kernel)

end Verif.Props

namespace Verif.Props
open Verif.Model Verif.Spec Verif.Norm Verif.Data

theorem mgga_c_pkzb_neverRaises : NeverRaises .mgga mgga_c_pkzb := neverRaises_of (by decide +kernel)
theorem mgga_c_pkzb_ignoresLapl : IgnoresLapl .mgga mgga_c_pkzb := ignoresLapl_of 0 (.inl rfl) (by decide +kernel)
theorem mgga_c_r2scan_neverRaises : NeverRaises .mgga mgga_c_r2scan := neverRaises_of (by decide +kernel)
theorem mgga_c_r2scan_ignoresLapl : IgnoresLapl .mgga mgga_c_r2scan := ignoresLapl_of 0 (.inl rfl) (by decide +kernel)
theorem mgga_c_revscan_neverRaises : NeverRaises .mgga mgga_c_revscan := neverRaises_of (by decide +kernel)
theorem mgga_c_revscan_ignoresLapl : IgnoresLapl .mgga mgga_c_revscan := ignoresLapl_of 0 (.inl rfl) (by decide +kernel)
theorem mgga_c_revtpss_neverRaises : NeverRaises .mgga mgga_c_revtpss := neverRaises_of (by decide +kernel)
theorem mgga_c_revtpss_ignoresLapl : IgnoresLapl .mgga mgga_c_revtpss := ignoresLapl_of 0 (.inl rfl) (by decide +kernel)
theorem mgga_c_rmggac_neverRaises : NeverRaises .mgga mgga_c_rmggac := neverRaises_of (by decide +kernel)
theorem mgga_c_rmggac_ignoresLapl : IgnoresLapl .mgga mgga_c_rmggac := ignoresLapl_of 0 (.inl rfl) (by decide +kernel)
theorem mgga_c_rppscan_neverRaises : NeverRaises .mgga mgga_c_rppscan := neverRaises_of (by decide +kernel)
theorem mgga_c_rppscan_ignoresLapl : IgnoresLapl .mgga mgga_c_rppscan := ignoresLapl_of 0 (.inl rfl) (by decide +kernel)
theorem mgga_c_rregtm_neverRaises : NeverRaises .mgga mgga_c_rregtm := neverRaises_of (by decide +kernel)
theorem mgga_c_rregtm_ignoresLapl : IgnoresLapl .mgga mgga_c_rregtm := ignoresLapl_of 0 (.inl rfl) (by decide +kernel)
theorem mgga_c_rscan_neverRaises : NeverRaises .mgga mgga_c_rscan := neverRaises_of (by decide +kernel)
theorem mgga_c_rscan_ignoresLapl : IgnoresLapl .mgga mgga_c_rscan := ignoresLapl_of 0 (.inl rfl) (by decide +kernel)

end Verif.Props

namespace Verif.Props
open Verif.Model Verif.Spec Verif.Norm Verif.Data

theorem mgga_c_scan_neverRaises : NeverRaises .mgga mgga_c_scan := neverRaises_of (by decide +kernel)
theorem mgga_c_scan_ignoresLapl : IgnoresLapl .mgga mgga_c_scan := ignoresLapl_of 0 (.inl rfl) (by decide +kernel)
theorem mgga_c_tpss_neverRaises : NeverRaises .mgga mgga_c_tpss := neverRaises_of (by decide +kernel)
theorem mgga_c_tpss_ignoresLapl : IgnoresLapl .mgga mgga_c_tpss := ignoresLapl_of 0 (.inl rfl) (by decide +kernel)
theorem mgga_c_tpssloc_neverRaises : NeverRaises .mgga mgga_c_tpssloc := neverRaises_of (by decide +kernel)
theorem mgga_c_tpssloc_ignoresLapl : IgnoresLapl .mgga mgga_c_tpssloc := ignoresLapl_of 0 (.inl rfl) (by decide +kernel)
theorem mgga_c_vsxc_neverRaises : NeverRaises .mgga mgga_c_vsxc := neverRaises_of (by decide +kernel)
theorem mgga_c_vsxc_ignoresLapl : IgnoresLapl .mgga mgga_c_vsxc := ignoresLapl_of 0 (.inl rfl) (by decide +kernel)
theorem mgga_k_csk_neverRaises : NeverRaises .mgga mgga_k_csk := neverRaises_of (by decide +kernel)
theorem mgga_k_csk_ignoresCross : IgnoresCross .mgga mgga_k_csk := ignoresCross_of 0 (.inl rfl) (by decide +kernel)
theorem mgga_k_csk_ignoresTau : IgnoresTau .mgga mgga_k_csk := ignoresTau_of 0 (.inl rfl) (by decide +kernel)
theorem mgga_k_csk_loc_neverRaises : NeverRaises .mgga mgga_k_csk_loc := neverRaises_of (by decide +kernel)
theorem mgga_k_csk_loc_ignoresCross : IgnoresCross .mgga mgga_k_csk_loc := ignoresCross_of 0 (.inl rfl) (by decide +kernel)
theorem mgga_k_csk_loc_ignoresTau : IgnoresTau .mgga mgga_k_csk_loc := ignoresTau_of 0 (.inl rfl) (by decide +kernel)
theorem mgga_k_gea2_neverRaises : NeverRaises .mgga mgga_k_gea2 := neverRaises_of (by decide +kernel)
theorem mgga_k_gea2_ignoresCross : IgnoresCross .mgga mgga_k_gea2 := ignoresCross_of 0 (.inl rfl) (by decide +kernel)
theorem mgga_k_gea2_ignoresTau : IgnoresTau .mgga mgga_k_gea2 := ignoresTau_of 0 (.inl rfl) (by decide +kernel)
theorem mgga_k_gea4_neverRaises : NeverRaises .mgga mgga_k_gea4 := neverRaises_of (by decide +kernel)
theorem mgga_k_gea4_ignoresCross : IgnoresCross .mgga mgga_k_gea4 := ignoresCross_of 0 (.inl rfl) (by decide +kernel)
theorem mgga_k_gea4_ignoresTau : IgnoresTau .mgga mgga_k_gea4 := ignoresTau_of 0 (.inl rfl) (by decide +kernel)
theorem mgga_k_lk_neverRaises : NeverRaises .mgga mgga_k_lk := neverRaises_of (by decide +kernel)
theorem mgga_k_lk_ignoresCross : IgnoresCross .mgga mgga_k_lk := ignoresCross_of 0 (.inl rfl) (by decide +kernel)
theorem mgga_k_lk_ignoresTau : IgnoresTau .mgga mgga_k_lk := ignoresTau_of 0 (.inl rfl) (by decide +kernel)
theorem mgga_k_pc07_neverRaises : NeverRaises .mgga mgga_k_pc07 := neverRaises_of (by decide +kernel)
theorem mgga_k_pc07_ignoresCross : IgnoresCross .mgga mgga_k_pc07 := ignoresCross_of 0 (.inl rfl) (by decide +kernel)
theorem mgga_k_pc07_ignoresTau : IgnoresTau .mgga mgga_k_pc07 := ignoresTau_of 0 (.inl rfl) (by decide +kernel)

end Verif.Props
