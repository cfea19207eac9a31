import Verif.Norm.Check
import Verif.Data.F05
/-!
# C21: closed-shell consistency of shipped formulas
-/
namespace Verif.Props
open Verif.Model Verif.Spec Verif.Norm Verif.Data

set_option maxRecDepth 100000

theorem gga_x_hjs_b88_v2_closedShell : ClosedShell .gga gga_x_hjs_b88_v2 := closedShell_of (cap := 1) (by decide +kernel)
theorem gga_x_ityh_closedShell : ClosedShell .gga gga_x_ityh := closedShell_of (cap := 1) (by decide +kernel)
theorem gga_x_ityh_optx_closedShell : ClosedShell .gga gga_x_ityh_optx := closedShell_of (cap := 1) (by decide +kernel)
theorem gga_x_ityh_pbe_closedShell : ClosedShell .gga gga_x_ityh_pbe := closedShell_of (cap := 1) (by decide +kernel)
theorem gga_x_kt_closedShell : ClosedShell .gga gga_x_kt := closedShell_of (cap := 1) (by decide +kernel)
theorem gga_x_lag_closedShell : ClosedShell .gga gga_x_lag := closedShell_of (cap := 1) (by decide +kernel)
theorem gga_x_lb_closedShell : ClosedShell .gga gga_x_lb := closedShell_of (cap := 1) (by decide +kernel)
theorem gga_x_lspbe_closedShell : ClosedShell .gga gga_x_lspbe := closedShell_of (cap := 1) (by decide +kernel)
theorem gga_x_lsrpbe_closedShell : ClosedShell .gga gga_x_lsrpbe := closedShell_of (cap := 1) (by decide +kernel)
theorem gga_x_mpbe_closedShell : ClosedShell .gga gga_x_mpbe := closedShell_of (cap := 1) (by decide +kernel)
theorem gga_x_n12_closedShell : ClosedShell .gga gga_x_n12 := closedShell_of (cap := 1) (by decide +kernel)
theorem gga_x_ncap_closedShell : ClosedShell .gga gga_x_ncap := closedShell_of (cap := 1) (by decide +kernel)
theorem gga_x_ol2_closedShell : ClosedShell .gga gga_x_ol2 := closedShell_of (cap := 1) (by decide +kernel)
theorem gga_x_optx_closedShell : ClosedShell .gga gga_x_optx := closedShell_of (cap := 1) (by decide +kernel)
theorem gga_x_pbe_closedShell : ClosedShell .gga gga_x_pbe := closedShell_of (cap := 1) (by decide +kernel)
theorem gga_x_pbea_closedShell : ClosedShell .gga gga_x_pbea := closedShell_of (cap := 1) (by decide +kernel)
theorem gga_x_pbeint_closedShell : ClosedShell .gga gga_x_pbeint := closedShell_of (cap := 1) (by decide +kernel)
theorem gga_x_pbepow_closedShell : ClosedShell .gga gga_x_pbepow := closedShell_of (cap := 1) (by decide +kernel)

end Verif.Props

namespace Verif.Props
open Verif.Model Verif.Spec Verif.Norm Verif.Data

set_option maxRecDepth 100000

theorem gga_x_pbetrans_closedShell : ClosedShell .gga gga_x_pbetrans := closedShell_of (cap := 1) (by decide +kernel)
theorem gga_x_pw86_closedShell : ClosedShell .gga gga_x_pw86 := closedShell_of (cap := 1) (by decide +kernel)
theorem gga_x_pw91_closedShell : ClosedShell .gga gga_x_pw91 := closedShell_of (cap := 1) (by decide +kernel)
theorem gga_x_q1d_closedShell : ClosedShell .gga gga_x_q1d := closedShell_of (cap := 1) (by decide +kernel)
theorem gga_x_q2d_closedShell : ClosedShell .gga gga_x_q2d := closedShell_of (cap := 1) (by decide +kernel)
theorem gga_x_rpbe_closedShell : ClosedShell .gga gga_x_rpbe := closedShell_of (cap := 1) (by decide +kernel)
theorem gga_x_s12_closedShell : ClosedShell .gga gga_x_s12 := closedShell_of (cap := 1) (by decide +kernel)
theorem gga_x_sfat_closedShell : ClosedShell .gga gga_x_sfat := closedShell_of (cap := 1) (by decide +kernel)
theorem gga_x_sfat_pbe_closedShell : ClosedShell .gga gga_x_sfat_pbe := closedShell_of (cap := 1) (by decide +kernel)
theorem gga_x_sogga11_closedShell : ClosedShell .gga gga_x_sogga11 := closedShell_of (cap := 1) (by decide +kernel)
theorem gga_x_ssb_sw_closedShell : ClosedShell .gga gga_x_ssb_sw := closedShell_of (cap := 1) (by decide +kernel)
theorem gga_x_vmt_closedShell : ClosedShell .gga gga_x_vmt := closedShell_of (cap := 1) (by decide +kernel)
theorem gga_x_vmt84_closedShell : ClosedShell .gga gga_x_vmt84 := closedShell_of (cap := 1) (by decide +kernel)
theorem gga_x_wc_closedShell : ClosedShell .gga gga_x_wc := closedShell_of (cap := 1) (by decide +kernel)
theorem gga_x_wpbeh_closedShell : ClosedShell .gga gga_x_wpbeh := closedShell_of (cap := 1) (by decide +kernel)
theorem gga_xc_b97_closedShell : ClosedShell .gga gga_xc_b97 := closedShell_of (cap := 1) (by decide +kernel)

end Verif.Props

namespace Verif.Props
open Verif.Model Verif.Spec Verif.Norm Verif.Data

set_option maxRecDepth 100000

theorem gga_xc_th1_closedShell : ClosedShell .gga gga_xc_th1 := closedShell_of (cap := 1) (by decide +kernel)
theorem gga_xc_th2_closedShell : ClosedShell .gga gga_xc_th2 := closedShell_of (cap := 1) (by decide +kernel)
theorem hyb_gga_x_cam_s12_closedShell : ClosedShell .gga hyb_gga_x_cam_s12 := closedShell_of (cap := 1) (by decide +kernel)
theorem hyb_gga_xc_wb97_closedShell : ClosedShell .gga hyb_gga_xc_wb97 := closedShell_of (cap := 1) (by decide +kernel)
theorem hyb_lda_xc_bn05_closedShell : ClosedShell .lda hyb_lda_xc_bn05 := closedShell_of (cap := 1) (by decide +kernel)
theorem hyb_mgga_x_dldf_closedShell : ClosedShell .mgga hyb_mgga_x_dldf := closedShell_of (cap := 1) (by decide +kernel)
theorem hyb_mgga_x_js18_closedShell : ClosedShell .mgga hyb_mgga_x_js18 := closedShell_of (cap := 1) (by decide +kernel)
theorem hyb_mgga_x_m05_closedShell : ClosedShell .mgga hyb_mgga_x_m05 := closedShell_of (cap := 1) (by decide +kernel)

end Verif.Props

namespace Verif.Props
open Verif.Model Verif.Spec Verif.Norm Verif.Data

set_option maxRecDepth 100000

theorem hyb_mgga_x_pjs18_closedShell : ClosedShell .mgga hyb_mgga_x_pjs18 := closedShell_of (cap := 1) (by decide +kernel)
theorem hyb_mgga_xc_wb97mv_closedShell : ClosedShell .mgga hyb_mgga_xc_wb97mv := closedShell_of (cap := 1) (by decide +kernel)
theorem lda_c_1d_csc_closedShell : ClosedShell .lda lda_c_1d_csc := closedShell_of (cap := 1) (by decide +kernel)
theorem lda_c_1d_loos_closedShell : ClosedShell .lda lda_c_1d_loos := closedShell_of (cap := 1) (by decide +kernel)
theorem lda_c_2d_amgb_closedShell : ClosedShell .lda lda_c_2d_amgb := closedShell_of (cap := 1) (by decide +kernel)
theorem lda_c_2d_prm_closedShell : ClosedShell .lda lda_c_2d_prm := closedShell_of (cap := 1) (by decide +kernel)
theorem lda_c_chachiyo_closedShell : ClosedShell .lda lda_c_chachiyo := closedShell_of (cap := 1) (by decide +kernel)
theorem lda_c_chachiyo_mod_closedShell : ClosedShell .lda lda_c_chachiyo_mod := closedShell_of (cap := 1) (by decide +kernel)
theorem lda_c_gk72_closedShell : ClosedShell .lda lda_c_gk72 := closedShell_of (cap := 1) (by decide +kernel)
theorem lda_c_gombas_closedShell : ClosedShell .lda lda_c_gombas := closedShell_of (cap := 1) (by decide +kernel)
theorem lda_c_hl_closedShell : ClosedShell .lda lda_c_hl := closedShell_of (cap := 1) (by decide +kernel)
theorem lda_c_lp96_closedShell : ClosedShell .lda lda_c_lp96 := closedShell_of (cap := 1) (by decide +kernel)
theorem lda_c_pmgb06_closedShell : ClosedShell .lda lda_c_pmgb06 := closedShell_of (cap := 1) (by decide +kernel)
theorem lda_c_pw_closedShell : ClosedShell .lda lda_c_pw := closedShell_of (cap := 1) (by decide +kernel)

end Verif.Props
