import Verif.Norm.Static
import Verif.Data.F05
/-!
# C35, C36, C44: which inputs shipped formulas read, and which formulas raise
-/
namespace Verif.Props
open Verif.Model Verif.Spec Verif.Norm Verif.Data

theorem gga_x_hjs_b88_v2_neverRaises : NeverRaises .gga gga_x_hjs_b88_v2 := neverRaises_of (by decide +kernel)
theorem gga_x_hjs_b88_v2_ignoresCross : IgnoresCross .gga gga_x_hjs_b88_v2 := ignoresCross_of 0 (.inl rfl) (by decide +kernel)
theorem gga_x_hjs_b88_v2_ignoresLapl : IgnoresLapl .gga gga_x_hjs_b88_v2 := ignoresLapl_of 0 (.inl rfl) (by decide +kernel)
theorem gga_x_htbs_neverRaises : NeverRaises .gga gga_x_htbs := neverRaises_of (by decide +kernel)
theorem gga_x_htbs_ignoresCross : IgnoresCross .gga gga_x_htbs := ignoresCross_of 0 (.inl rfl) (by decide +kernel)
theorem gga_x_htbs_ignoresLapl : IgnoresLapl .gga gga_x_htbs := ignoresLapl_of 0 (.inl rfl) (by decide +kernel)
theorem gga_x_ityh_neverRaises : NeverRaises .gga gga_x_ityh := neverRaises_of (by decide +kernel)
theorem gga_x_ityh_ignoresCross : IgnoresCross .gga gga_x_ityh := ignoresCross_of 0 (.inl rfl) (by decide +kernel)
theorem gga_x_ityh_ignoresLapl : IgnoresLapl .gga gga_x_ityh := ignoresLapl_of 0 (.inl rfl) (by decide +kernel)
theorem gga_x_ityh_optx_neverRaises : NeverRaises .gga gga_x_ityh_optx := neverRaises_of (by decide +kernel)
theorem gga_x_ityh_optx_ignoresCross : IgnoresCross .gga gga_x_ityh_optx := ignoresCross_of 0 (.inl rfl) (by decide +kernel)
theorem gga_x_ityh_optx_ignoresLapl : IgnoresLapl .gga gga_x_ityh_optx := ignoresLapl_of 0 (.inl rfl) (by decide +kernel)
theorem gga_x_ityh_pbe_neverRaises : NeverRaises .gga gga_x_ityh_pbe := neverRaises_of (by decide +kernel)
theorem gga_x_ityh_pbe_ignoresCross : IgnoresCross .gga gga_x_ityh_pbe := ignoresCross_of 0 (.inl rfl) (by decide +kernel)
theorem gga_x_ityh_pbe_ignoresLapl : IgnoresLapl .gga gga_x_ityh_pbe := ignoresLapl_of 0 (.inl rfl) (by decide +kernel)
theorem gga_x_kt_neverRaises : NeverRaises .gga gga_x_kt := neverRaises_of (by decide +kernel)
theorem gga_x_kt_ignoresCross : IgnoresCross .gga gga_x_kt := ignoresCross_of 0 (.inl rfl) (by decide +kernel)
theorem gga_x_kt_ignoresLapl : IgnoresLapl .gga gga_x_kt := ignoresLapl_of 0 (.inl rfl) (by decide +kernel)
theorem gga_x_lag_neverRaises : NeverRaises .gga gga_x_lag := neverRaises_of (by decide +kernel)
theorem gga_x_lag_ignoresCross : IgnoresCross .gga gga_x_lag := ignoresCross_of 0 (.inl rfl) (by decide +kernel)
theorem gga_x_lag_ignoresLapl : IgnoresLapl .gga gga_x_lag := ignoresLapl_of 0 (.inl rfl) (by decide +kernel)
theorem gga_x_lb_neverRaises : NeverRaises .gga gga_x_lb := neverRaises_of (by decide +kernel)
theorem gga_x_lb_ignoresCross : IgnoresCross .gga gga_x_lb := ignoresCross_of 0 (.inl rfl) (by decide +kernel)
theorem gga_x_lb_ignoresLapl : IgnoresLapl .gga gga_x_lb := ignoresLapl_of 0 (.inl rfl) (by decide +kernel)
theorem gga_x_lg93_neverRaises : NeverRaises .gga gga_x_lg93 := neverRaises_of (by decide +kernel)
theorem gga_x_lg93_ignoresCross : IgnoresCross .gga gga_x_lg93 := ignoresCross_of 0 (.inl rfl) (by decide +kernel)
theorem gga_x_lg93_ignoresLapl : IgnoresLapl .gga gga_x_lg93 := ignoresLapl_of 0 (.inl rfl) (by decide +kernel)
theorem gga_x_lspbe_neverRaises : NeverRaises .gga gga_x_lspbe := neverRaises_of (by decide +kernel)
theorem gga_x_lspbe_ignoresCross : IgnoresCross .gga gga_x_lspbe := ignoresCross_of 0 (.inl rfl) (by decide +kernel)
theorem gga_x_lspbe_ignoresLapl : IgnoresLapl .gga gga_x_lspbe := ignoresLapl_of 0 (.inl rfl) (by decide +kernel)
theorem gga_x_lsrpbe_neverRaises : NeverRaises .gga gga_x_lsrpbe := neverRaises_of (by decide +kernel)
theorem gga_x_lsrpbe_ignoresCross : IgnoresCross .gga gga_x_lsrpbe := ignoresCross_of 0 (.inl rfl) (by decide +kernel)
theorem gga_x_lsrpbe_ignoresLapl : IgnoresLapl .gga gga_x_lsrpbe := ignoresLapl_of 0 (.inl rfl) (by decide +kernel)
theorem gga_x_lv_rpw86_neverRaises : NeverRaises .gga gga_x_lv_rpw86 := neverRaises_of (by decide +kernel)
theorem gga_x_lv_rpw86_ignoresCross : IgnoresCross .gga gga_x_lv_rpw86 := ignoresCross_of 0 (.inl rfl) (by decide +kernel)
theorem gga_x_lv_rpw86_ignoresLapl : IgnoresLapl .gga gga_x_lv_rpw86 := ignoresLapl_of 0 (.inl rfl) (by decide +kernel)
theorem gga_x_mpbe_neverRaises : NeverRaises .gga gga_x_mpbe := neverRaises_of (by decide +kernel)
theorem gga_x_mpbe_ignoresCross : IgnoresCross .gga gga_x_mpbe := ignoresCross_of 0 (.inl rfl) (by decide +kernel)
theorem gga_x_mpbe_ignoresLapl : IgnoresLapl .gga gga_x_mpbe := ignoresLapl_of 0 (.inl rfl) (by decide +kernel)
theorem gga_x_n12_neverRaises : NeverRaises .gga gga_x_n12 := neverRaises_of (by decide +kernel)
theorem gga_x_n12_ignoresCross : IgnoresCross .gga gga_x_n12 := ignoresCross_of 0 (.inl rfl) (by decide +kernel)
theorem gga_x_n12_ignoresLapl : IgnoresLapl .gga gga_x_n12 := ignoresLapl_of 0 (.inl rfl) (by decide +kernel)
theorem gga_x_ncap_neverRaises : NeverRaises .gga gga_x_ncap := neverRaises_of (by decide +kernel)
theorem gga_x_ncap_ignoresCross : IgnoresCross .gga gga_x_ncap := ignoresCross_of 0 (.inl rfl) (by decide +kernel)
theorem gga_x_ncap_ignoresLapl : IgnoresLapl .gga gga_x_ncap := ignoresLapl_of 0 (.inl rfl) (by decide +kernel)
theorem gga_x_ol2_neverRaises : NeverRaises .gga gga_x_ol2 := neverRaises_of (by decide +kernel)
theorem gga_x_ol2_ignoresCross : IgnoresCross .gga gga_x_ol2 := ignoresCross_of 0 (.inl rfl) (by decide +kernel)
theorem gga_x_ol2_ignoresLapl : IgnoresLapl .gga gga_x_ol2 := ignoresLapl_of 0 (.inl rfl) (by decide +kernel)
theorem gga_x_optx_neverRaises : NeverRaises .gga gga_x_optx := neverRaises_of (by decide +kernel)
theorem gga_x_optx_ignoresCross : IgnoresCross .gga gga_x_optx := ignoresCross_of 0 (.inl rfl) (by decide +kernel)
theorem gga_x_optx_ignoresLapl : IgnoresLapl .gga gga_x_optx := ignoresLapl_of 0 (.inl rfl) (by decide +kernel)
theorem gga_x_pbe_neverRaises : NeverRaises .gga gga_x_pbe := neverRaises_of (by decide +kernel)
theorem gga_x_pbe_ignoresCross : IgnoresCross .gga gga_x_pbe := ignoresCross_of 0 (.inl rfl) (by decide +kernel)
theorem gga_x_pbe_ignoresLapl : IgnoresLapl .gga gga_x_pbe := ignoresLapl_of 0 (.inl rfl) (by decide +kernel)
theorem gga_x_pbea_neverRaises : NeverRaises .gga gga_x_pbea := neverRaises_of (by decide +kernel)
theorem gga_x_pbea_ignoresCross : IgnoresCross .gga gga_x_pbea := ignoresCross_of 0 (.inl rfl) (by decide +kernel)
theorem gga_x_pbea_ignoresLapl : IgnoresLapl .gga gga_x_pbea := ignoresLapl_of 0 (.inl rfl) (by decide +kernel)
theorem gga_x_pbeint_neverRaises : NeverRaises .gga gga_x_pbeint := neverRaises_of (by decide +kernel)
theorem gga_x_pbeint_ignoresCross : IgnoresCross .gga gga_x_pbeint := ignoresCross_of 0 (.inl rfl) (by decide +kernel)
theorem gga_x_pbeint_ignoresLapl : IgnoresLapl .gga gga_x_pbeint := ignoresLapl_of 0 (.inl rfl) (by decide +kernel)
theorem gga_x_pbepow_neverRaises : NeverRaises .gga gga_x_pbepow := neverRaises_of (by decide +kernel)
theorem gga_x_pbepow_ignoresCross : IgnoresCross .gga gga_x_pbepow := ignoresCross_of 0 (.inl rfl) (by decide +kernel)
theorem gga_x_pbepow_ignoresLapl : IgnoresLapl .gga gga_x_pbepow := ignoresLapl_of 0 (.inl rfl) (by decide +kernel)

end Verif.Props

namespace Verif.Props
open Verif.Model Verif.Spec Verif.Norm Verif.Data

theorem gga_x_pbetrans_neverRaises : NeverRaises .gga gga_x_pbetrans := neverRaises_of (by decide +kernel)
theorem gga_x_pbetrans_ignoresCross : IgnoresCross .gga gga_x_pbetrans := ignoresCross_of 0 (.inl rfl) (by decide +kernel)
theorem gga_x_pbetrans_ignoresLapl : IgnoresLapl .gga gga_x_pbetrans := ignoresLapl_of 0 (.inl rfl) (by decide +kernel)
theorem gga_x_pw86_neverRaises : NeverRaises .gga gga_x_pw86 := neverRaises_of (by decide +kernel)
theorem gga_x_pw86_ignoresCross : IgnoresCross .gga gga_x_pw86 := ignoresCross_of 0 (.inl rfl) (by decide +kernel)
theorem gga_x_pw86_ignoresLapl : IgnoresLapl .gga gga_x_pw86 := ignoresLapl_of 0 (.inl rfl) (by decide +kernel)
theorem gga_x_pw91_neverRaises : NeverRaises .gga gga_x_pw91 := neverRaises_of (by decide +kernel)
theorem gga_x_pw91_ignoresCross : IgnoresCross .gga gga_x_pw91 := ignoresCross_of 0 (.inl rfl) (by decide +kernel)
theorem gga_x_pw91_ignoresLapl : IgnoresLapl .gga gga_x_pw91 := ignoresLapl_of 0 (.inl rfl) (by decide +kernel)
theorem gga_x_q1d_neverRaises : NeverRaises .gga gga_x_q1d := neverRaises_of (by decide +kernel)
theorem gga_x_q1d_ignoresCross : IgnoresCross .gga gga_x_q1d := ignoresCross_of 0 (.inl rfl) (by decide +kernel)
theorem gga_x_q1d_ignoresLapl : IgnoresLapl .gga gga_x_q1d := ignoresLapl_of 0 (.inl rfl) (by decide +kernel)
theorem gga_x_q2d_neverRaises : NeverRaises .gga gga_x_q2d := neverRaises_of (by decide +kernel)
theorem gga_x_q2d_ignoresCross : IgnoresCross .gga gga_x_q2d := ignoresCross_of 0 (.inl rfl) (by decide +kernel)
theorem gga_x_q2d_ignoresLapl : IgnoresLapl .gga gga_x_q2d := ignoresLapl_of 0 (.inl rfl) (by decide +kernel)
theorem gga_x_rge2_neverRaises : NeverRaises .gga gga_x_rge2 := neverRaises_of (by decide +kernel)
theorem gga_x_rge2_ignoresCross : IgnoresCross .gga gga_x_rge2 := ignoresCross_of 0 (.inl rfl) (by decide +kernel)
theorem gga_x_rge2_ignoresLapl : IgnoresLapl .gga gga_x_rge2 := ignoresLapl_of 0 (.inl rfl) (by decide +kernel)
theorem gga_x_rpbe_neverRaises : NeverRaises .gga gga_x_rpbe := neverRaises_of (by decide +kernel)
theorem gga_x_rpbe_ignoresCross : IgnoresCross .gga gga_x_rpbe := ignoresCross_of 0 (.inl rfl) (by decide +kernel)
theorem gga_x_rpbe_ignoresLapl : IgnoresLapl .gga gga_x_rpbe := ignoresLapl_of 0 (.inl rfl) (by decide +kernel)
theorem gga_x_s12_neverRaises : NeverRaises .gga gga_x_s12 := neverRaises_of (by decide +kernel)
theorem gga_x_s12_ignoresCross : IgnoresCross .gga gga_x_s12 := ignoresCross_of 0 (.inl rfl) (by decide +kernel)
theorem gga_x_s12_ignoresLapl : IgnoresLapl .gga gga_x_s12 := ignoresLapl_of 0 (.inl rfl) (by decide +kernel)
theorem gga_x_sfat_neverRaises : NeverRaises .gga gga_x_sfat := neverRaises_of (by decide +kernel)
theorem gga_x_sfat_ignoresCross : IgnoresCross .gga gga_x_sfat := ignoresCross_of 0 (.inl rfl) (by decide +kernel)
theorem gga_x_sfat_ignoresLapl : IgnoresLapl .gga gga_x_sfat := ignoresLapl_of 0 (.inl rfl) (by decide +kernel)
theorem gga_x_sfat_pbe_neverRaises : NeverRaises .gga gga_x_sfat_pbe := neverRaises_of (by decide +kernel)
theorem gga_x_sfat_pbe_ignoresCross : IgnoresCross .gga gga_x_sfat_pbe := ignoresCross_of 0 (.inl rfl) (by decide +kernel)
theorem gga_x_sfat_pbe_ignoresLapl : IgnoresLapl .gga gga_x_sfat_pbe := ignoresLapl_of 0 (.inl rfl) (by decide +kernel)
theorem gga_x_sg4_neverRaises : NeverRaises .gga gga_x_sg4 := neverRaises_of (by decide +kernel)
theorem gga_x_sg4_ignoresCross : IgnoresCross .gga gga_x_sg4 := ignoresCross_of 0 (.inl rfl) (by decide +kernel)
theorem gga_x_sg4_ignoresLapl : IgnoresLapl .gga gga_x_sg4 := ignoresLapl_of 0 (.inl rfl) (by decide +kernel)
theorem gga_x_sogga11_neverRaises : NeverRaises .gga gga_x_sogga11 := neverRaises_of (by decide +kernel)
theorem gga_x_sogga11_ignoresCross : IgnoresCross .gga gga_x_sogga11 := ignoresCross_of 0 (.inl rfl) (by decide +kernel)
theorem gga_x_sogga11_ignoresLapl : IgnoresLapl .gga gga_x_sogga11 := ignoresLapl_of 0 (.inl rfl) (by decide +kernel)
theorem gga_x_ssb_sw_neverRaises : NeverRaises .gga gga_x_ssb_sw := neverRaises_of (by decide +kernel)
theorem gga_x_ssb_sw_ignoresCross : IgnoresCross .gga gga_x_ssb_sw := ignoresCross_of 0 (.inl rfl) (by decide +kernel)
theorem gga_x_ssb_sw_ignoresLapl : IgnoresLapl .gga gga_x_ssb_sw := ignoresLapl_of 0 (.inl rfl) (by decide +kernel)
theorem gga_x_vmt_neverRaises : NeverRaises .gga gga_x_vmt := neverRaises_of (by decide +kernel)
theorem gga_x_vmt_ignoresCross : IgnoresCross .gga gga_x_vmt := ignoresCross_of 0 (.inl rfl) (by decide +kernel)
theorem gga_x_vmt_ignoresLapl : IgnoresLapl .gga gga_x_vmt := ignoresLapl_of 0 (.inl rfl) (by decide +kernel)
theorem gga_x_vmt84_neverRaises : NeverRaises .gga gga_x_vmt84 := neverRaises_of (by decide +kernel)
theorem gga_x_vmt84_ignoresCross : IgnoresCross .gga gga_x_vmt84 := ignoresCross_of 0 (.inl rfl) (by decide +kernel)
theorem gga_x_vmt84_ignoresLapl : IgnoresLapl .gga gga_x_vmt84 := ignoresLapl_of 0 (.inl rfl) (by decide +kernel)
theorem gga_x_wc_neverRaises : NeverRaises .gga gga_x_wc := neverRaises_of (by decide +kernel)
theorem gga_x_wc_ignoresCross : IgnoresCross .gga gga_x_wc := ignoresCross_of 0 (.inl rfl) (by decide +kernel)
theorem gga_x_wc_ignoresLapl : IgnoresLapl .gga gga_x_wc := ignoresLapl_of 0 (.inl rfl) (by decide +kernel)
theorem gga_x_wpbeh_neverRaises : NeverRaises .gga gga_x_wpbeh := neverRaises_of (by decide +kernel)
theorem gga_x_wpbeh_ignoresCross : IgnoresCross .gga gga_x_wpbeh := ignoresCross_of 0 (.inl rfl) (by decide +kernel)
theorem gga_x_wpbeh_ignoresLapl : IgnoresLapl .gga gga_x_wpbeh := ignoresLapl_of 0 (.inl rfl) (by decide +kernel)
theorem gga_xc_b97_neverRaises : NeverRaises .gga gga_xc_b97 := neverRaises_of (by decide +kernel)
theorem gga_xc_b97_ignoresLapl : IgnoresLapl .gga gga_xc_b97 := ignoresLapl_of 0 (.inl rfl) (by decide +kernel)

end Verif.Props

namespace Verif.Props
open Verif.Model Verif.Spec Verif.Norm Verif.Data

theorem gga_xc_th1_neverRaises : NeverRaises .gga gga_xc_th1 := neverRaises_of (by decide +kernel)
theorem gga_xc_th1_ignoresLapl : IgnoresLapl .gga gga_xc_th1 := ignoresLapl_of 0 (.inl rfl) (by decide +kernel)
theorem gga_xc_th2_neverRaises : NeverRaises .gga gga_xc_th2 := neverRaises_of (by decide +kernel)
theorem gga_xc_th2_ignoresLapl : IgnoresLapl .gga gga_xc_th2 := ignoresLapl_of 0 (.inl rfl) (by decide +kernel)
theorem gga_xc_th3_neverRaises : NeverRaises .gga gga_xc_th3 := neverRaises_of (by decide +kernel)
theorem gga_xc_th3_ignoresLapl : IgnoresLapl .gga gga_xc_th3 := ignoresLapl_of 0 (.inl rfl) (by decide +kernel)
theorem hyb_gga_x_cam_s12_neverRaises : NeverRaises .gga hyb_gga_x_cam_s12 := neverRaises_of (by decide +kernel)
theorem hyb_gga_x_cam_s12_ignoresCross : IgnoresCross .gga hyb_gga_x_cam_s12 := ignoresCross_of 0 (.inl rfl) (by decide +kernel)
theorem hyb_gga_x_cam_s12_ignoresLapl : IgnoresLapl .gga hyb_gga_x_cam_s12 := ignoresLapl_of 0 (.inl rfl) (by decide +kernel)
theorem hyb_gga_xc_case21_nameError : AlwaysNameError .gga hyb_gga_xc_case21 := alwaysNameError_of (by decide +kernel)
theorem hyb_gga_xc_case21_ignoresLapl : IgnoresLapl .gga hyb_gga_xc_case21 := ignoresLapl_of 2 (.inr rfl) (by decide +kernel)
theorem hyb_gga_xc_wb97_neverRaises : NeverRaises .gga hyb_gga_xc_wb97 := neverRaises_of (by decide +kernel)
theorem hyb_gga_xc_wb97_ignoresLapl : IgnoresLapl .gga hyb_gga_xc_wb97 := ignoresLapl_of 0 (.inl rfl) (by decide +kernel)
theorem hyb_lda_xc_bn05_neverRaises : NeverRaises .lda hyb_lda_xc_bn05 := neverRaises_of (by decide +kernel)
theorem hyb_lda_xc_bn05_ignoresLapl : IgnoresLapl .lda hyb_lda_xc_bn05 := ignoresLapl_of 0 (.inl rfl) (by decide +kernel)
theorem hyb_mgga_x_dldf_neverRaises : NeverRaises .mgga hyb_mgga_x_dldf := neverRaises_of (by decide +kernel)
theorem hyb_mgga_x_dldf_ignoresCross : IgnoresCross .mgga hyb_mgga_x_dldf := ignoresCross_of 0 (.inl rfl) (by decide +kernel)
theorem hyb_mgga_x_dldf_ignoresLapl : IgnoresLapl .mgga hyb_mgga_x_dldf := ignoresLapl_of 0 (.inl rfl) (by decide +kernel)
theorem hyb_mgga_x_js18_neverRaises : NeverRaises .mgga hyb_mgga_x_js18 := neverRaises_of (by decide +kernel)
theorem hyb_mgga_x_js18_ignoresCross : IgnoresCross .mgga hyb_mgga_x_js18 := ignoresCross_of 0 (.inl rfl) (by decide +kernel)
theorem hyb_mgga_x_js18_ignoresLapl : IgnoresLapl .mgga hyb_mgga_x_js18 := ignoresLapl_of 0 (.inl rfl) (by decide +kernel)
theorem hyb_mgga_x_m05_neverRaises : NeverRaises .mgga hyb_mgga_x_m05 := neverRaises_of (by decide +kernel)
theorem hyb_mgga_x_m05_ignoresCross : IgnoresCross .mgga hyb_mgga_x_m05 := ignoresCross_of 0 (.inl rfl) (by decide +kernel)
theorem hyb_mgga_x_m05_ignoresLapl : IgnoresLapl .mgga hyb_mgga_x_m05 := ignoresLapl_of 0 (.inl rfl) (by decide +kernel)

end Verif.Props

namespace Verif.Props
open Verif.Model Verif.Spec Verif.Norm Verif.Data

theorem hyb_mgga_x_pjs18_neverRaises : NeverRaises .mgga hyb_mgga_x_pjs18 := neverRaises_of (by decide +kernel)
theorem hyb_mgga_x_pjs18_ignoresCross : IgnoresCross .mgga hyb_mgga_x_pjs18 := ignoresCross_of 0 (.inl rfl) (by decide +kernel)
theorem hyb_mgga_x_pjs18_ignoresLapl : IgnoresLapl .mgga hyb_mgga_x_pjs18 := ignoresLapl_of 0 (.inl rfl) (by decide +kernel)
theorem hyb_mgga_xc_wb97mv_neverRaises : NeverRaises .mgga hyb_mgga_xc_wb97mv := neverRaises_of (by decide +kernel)
theorem hyb_mgga_xc_wb97mv_ignoresLapl : IgnoresLapl .mgga hyb_mgga_xc_wb97mv := ignoresLapl_of 0 (.inl rfl) (by decide +kernel)
theorem lda_c_1d_csc_neverRaises : NeverRaises .lda lda_c_1d_csc := neverRaises_of (by decide +kernel)
theorem lda_c_1d_csc_ignoresLapl : IgnoresLapl .lda lda_c_1d_csc := ignoresLapl_of 0 (.inl rfl) (by decide +kernel)
theorem lda_c_1d_loos_neverRaises : NeverRaises .lda lda_c_1d_loos := neverRaises_of (by decide +kernel)
theorem lda_c_1d_loos_ignoresLapl : IgnoresLapl .lda lda_c_1d_loos := ignoresLapl_of 0 (.inl rfl) (by decide +kernel)
theorem lda_c_2d_amgb_neverRaises : NeverRaises .lda lda_c_2d_amgb := neverRaises_of (by decide +kernel)
theorem lda_c_2d_amgb_ignoresLapl : IgnoresLapl .lda lda_c_2d_amgb := ignoresLapl_of 0 (.inl rfl) (by decide +kernel)
theorem lda_c_2d_prm_neverRaises : NeverRaises .lda lda_c_2d_prm := neverRaises_of (by decide +kernel)
theorem lda_c_2d_prm_ignoresLapl : IgnoresLapl .lda lda_c_2d_prm := ignoresLapl_of 0 (.inl rfl) (by decide +kernel)
theorem lda_c_chachiyo_neverRaises : NeverRaises .lda lda_c_chachiyo := neverRaises_of (by decide +kernel)
theorem lda_c_chachiyo_ignoresLapl : IgnoresLapl .lda lda_c_chachiyo := ignoresLapl_of 0 (.inl rfl) (by decide +kernel)
theorem lda_c_chachiyo_mod_neverRaises : NeverRaises .lda lda_c_chachiyo_mod := neverRaises_of (by decide +kernel)
theorem lda_c_chachiyo_mod_ignoresLapl : IgnoresLapl .lda lda_c_chachiyo_mod := ignoresLapl_of 0 (.inl rfl) (by decide +kernel)
theorem lda_c_gk72_neverRaises : NeverRaises .lda lda_c_gk72 := neverRaises_of (by decide +kernel)
theorem lda_c_gk72_ignoresLapl : IgnoresLapl .lda lda_c_gk72 := ignoresLapl_of 0 (.inl rfl) (by decide +kernel)
theorem lda_c_gombas_neverRaises : NeverRaises .lda lda_c_gombas := neverRaises_of (by decide +kernel)
theorem lda_c_gombas_ignoresLapl : IgnoresLapl .lda lda_c_gombas := ignoresLapl_of 0 (.inl rfl) (by decide +kernel)
theorem lda_c_hl_neverRaises : NeverRaises .lda lda_c_hl := neverRaises_of (by decide +kernel)
theorem lda_c_hl_ignoresLapl : IgnoresLapl .lda lda_c_hl := ignoresLapl_of 0 (.inl rfl) (by decide +kernel)
theorem lda_c_lp96_neverRaises : NeverRaises .lda lda_c_lp96 := neverRaises_of (by decide +kernel)
theorem lda_c_lp96_ignoresLapl : IgnoresLapl .lda lda_c_lp96 := ignoresLapl_of 0 (.inl rfl) (by decide +kernel)
theorem lda_c_ml1_neverRaises : NeverRaises .lda lda_c_ml1 := neverRaises_of (by decide +kernel)
theorem lda_c_ml1_ignoresLapl : IgnoresLapl .lda lda_c_ml1 := ignoresLapl_of 0 (.inl rfl) (by decide +kernel)
theorem lda_c_pk09_neverRaises : NeverRaises .lda lda_c_pk09 := neverRaises_of (by decide +kernel)
theorem lda_c_pk09_ignoresLapl : IgnoresLapl .lda lda_c_pk09 := ignoresLapl_of 0 (.inl rfl) (by decide +kernel)
theorem lda_c_pmgb06_neverRaises : NeverRaises .lda lda_c_pmgb06 := neverRaises_of (by decide +kernel)
theorem lda_c_pmgb06_ignoresLapl : IgnoresLapl .lda lda_c_pmgb06 := ignoresLapl_of 0 (.inl rfl) (by decide +kernel)
theorem lda_c_pw_neverRaises : NeverRaises .lda lda_c_pw := neverRaises_of (by decide +kernel)
theorem lda_c_pw_ignoresLapl : IgnoresLapl .lda lda_c_pw := ignoresLapl_of 0 (.inl rfl) (by decide +kernel)

end Verif.Props
