import Verif.Norm.Check
import Verif.Data.F05
/-!
# C22: spin-flip symmetry of shipped formulas
-/
namespace Verif.Props
open Verif.Model Verif.Spec Verif.Norm Verif.Data

set_option maxRecDepth 100000

theorem gga_x_hjs_b88_v2_spinFlip : SpinFlip .gga gga_x_hjs_b88_v2 := spinFlip_of (cap := 1) (by decide +kernel)
theorem gga_x_htbs_spinFlip : SpinFlip .gga gga_x_htbs := spinFlip_of (cap := 1) (by decide +kernel)
theorem gga_x_ityh_spinFlip : SpinFlip .gga gga_x_ityh := spinFlip_of (cap := 1) (by decide +kernel)
theorem gga_x_ityh_optx_spinFlip : SpinFlip .gga gga_x_ityh_optx := spinFlip_of (cap := 1) (by decide +kernel)
theorem gga_x_ityh_pbe_spinFlip : SpinFlip .gga gga_x_ityh_pbe := spinFlip_of (cap := 1) (by decide +kernel)
theorem gga_x_kt_spinFlip : SpinFlip .gga gga_x_kt := spinFlip_of (cap := 1) (by decide +kernel)
theorem gga_x_lag_spinFlip : SpinFlip .gga gga_x_lag := spinFlip_of (cap := 1) (by decide +kernel)
theorem gga_x_lg93_spinFlip : SpinFlip .gga gga_x_lg93 := spinFlip_of (cap := 1) (by decide +kernel)
theorem gga_x_lspbe_spinFlip : SpinFlip .gga gga_x_lspbe := spinFlip_of (cap := 1) (by decide +kernel)
theorem gga_x_lsrpbe_spinFlip : SpinFlip .gga gga_x_lsrpbe := spinFlip_of (cap := 1) (by decide +kernel)
theorem gga_x_lv_rpw86_spinFlip : SpinFlip .gga gga_x_lv_rpw86 := spinFlip_of (cap := 1) (by decide +kernel)
theorem gga_x_mpbe_spinFlip : SpinFlip .gga gga_x_mpbe := spinFlip_of (cap := 1) (by decide +kernel)
theorem gga_x_n12_spinFlip : SpinFlip .gga gga_x_n12 := spinFlip_of (cap := 1) (by decide +kernel)
theorem gga_x_ncap_spinFlip : SpinFlip .gga gga_x_ncap := spinFlip_of (cap := 1) (by decide +kernel)
theorem gga_x_ol2_spinFlip : SpinFlip .gga gga_x_ol2 := spinFlip_of (cap := 1) (by decide +kernel)
theorem gga_x_optx_spinFlip : SpinFlip .gga gga_x_optx := spinFlip_of (cap := 1) (by decide +kernel)
theorem gga_x_pbe_spinFlip : SpinFlip .gga gga_x_pbe := spinFlip_of (cap := 1) (by decide +kernel)
theorem gga_x_pbea_spinFlip : SpinFlip .gga gga_x_pbea := spinFlip_of (cap := 1) (by decide +kernel)
theorem gga_x_pbeint_spinFlip : SpinFlip .gga gga_x_pbeint := spinFlip_of (cap := 1) (by decide +kernel)
theorem gga_x_pbepow_spinFlip : SpinFlip .gga gga_x_pbepow := spinFlip_of (cap := 1) (by decide +kernel)

end Verif.Props

namespace Verif.Props
open Verif.Model Verif.Spec Verif.Norm Verif.Data

set_option maxRecDepth 100000

theorem gga_x_pbetrans_spinFlip : SpinFlip .gga gga_x_pbetrans := spinFlip_of (cap := 1) (by decide +kernel)
theorem gga_x_pw86_spinFlip : SpinFlip .gga gga_x_pw86 := spinFlip_of (cap := 1) (by decide +kernel)
theorem gga_x_pw91_spinFlip : SpinFlip .gga gga_x_pw91 := spinFlip_of (cap := 1) (by decide +kernel)
theorem gga_x_q1d_spinFlip : SpinFlip .gga gga_x_q1d := spinFlip_of (cap := 1) (by decide +kernel)
theorem gga_x_q2d_spinFlip : SpinFlip .gga gga_x_q2d := spinFlip_of (cap := 1) (by decide +kernel)
theorem gga_x_rge2_spinFlip : SpinFlip .gga gga_x_rge2 := spinFlip_of (cap := 1) (by decide +kernel)
theorem gga_x_rpbe_spinFlip : SpinFlip .gga gga_x_rpbe := spinFlip_of (cap := 1) (by decide +kernel)
theorem gga_x_s12_spinFlip : SpinFlip .gga gga_x_s12 := spinFlip_of (cap := 1) (by decide +kernel)
theorem gga_x_sfat_spinFlip : SpinFlip .gga gga_x_sfat := spinFlip_of (cap := 1) (by decide +kernel)
theorem gga_x_sfat_pbe_spinFlip : SpinFlip .gga gga_x_sfat_pbe := spinFlip_of (cap := 1) (by decide +kernel)
theorem gga_x_sg4_spinFlip : SpinFlip .gga gga_x_sg4 := spinFlip_of (cap := 1) (by decide +kernel)
theorem gga_x_sogga11_spinFlip : SpinFlip .gga gga_x_sogga11 := spinFlip_of (cap := 1) (by decide +kernel)
theorem gga_x_ssb_sw_spinFlip : SpinFlip .gga gga_x_ssb_sw := spinFlip_of (cap := 1) (by decide +kernel)
theorem gga_x_vmt_spinFlip : SpinFlip .gga gga_x_vmt := spinFlip_of (cap := 1) (by decide +kernel)
theorem gga_x_vmt84_spinFlip : SpinFlip .gga gga_x_vmt84 := spinFlip_of (cap := 1) (by decide +kernel)
theorem gga_x_wc_spinFlip : SpinFlip .gga gga_x_wc := spinFlip_of (cap := 1) (by decide +kernel)
theorem gga_x_wpbeh_spinFlip : SpinFlip .gga gga_x_wpbeh := spinFlip_of (cap := 1) (by decide +kernel)
theorem gga_xc_b97_spinFlip : SpinFlip .gga gga_xc_b97 := spinFlip_of (cap := 1) (by decide +kernel)

end Verif.Props

namespace Verif.Props
open Verif.Model Verif.Spec Verif.Norm Verif.Data

set_option maxRecDepth 100000

theorem gga_xc_th1_spinFlip : SpinFlip .gga gga_xc_th1 := spinFlip_of (cap := 1) (by decide +kernel)
theorem gga_xc_th2_spinFlip : SpinFlip .gga gga_xc_th2 := spinFlip_of (cap := 1) (by decide +kernel)
theorem gga_xc_th3_spinFlip : SpinFlip .gga gga_xc_th3 := spinFlip_of (cap := 1) (by decide +kernel)
theorem hyb_gga_x_cam_s12_spinFlip : SpinFlip .gga hyb_gga_x_cam_s12 := spinFlip_of (cap := 1) (by decide +kernel)
theorem hyb_gga_xc_wb97_spinFlip : SpinFlip .gga hyb_gga_xc_wb97 := spinFlip_of (cap := 1) (by decide +kernel)
theorem hyb_lda_xc_bn05_spinFlip : SpinFlip .lda hyb_lda_xc_bn05 := spinFlip_of (cap := 1) (by decide +kernel)
theorem hyb_mgga_x_dldf_spinFlip : SpinFlip .mgga hyb_mgga_x_dldf := spinFlip_of (cap := 1) (by decide +kernel)
theorem hyb_mgga_x_js18_spinFlip : SpinFlip .mgga hyb_mgga_x_js18 := spinFlip_of (cap := 1) (by decide +kernel)
theorem hyb_mgga_x_m05_spinFlip : SpinFlip .mgga hyb_mgga_x_m05 := spinFlip_of (cap := 1) (by decide +kernel)

end Verif.Props

namespace Verif.Props
open Verif.Model Verif.Spec Verif.Norm Verif.Data

set_option maxRecDepth 100000

theorem hyb_mgga_x_pjs18_spinFlip : SpinFlip .mgga hyb_mgga_x_pjs18 := spinFlip_of (cap := 1) (by decide +kernel)
theorem hyb_mgga_xc_wb97mv_spinFlip : SpinFlip .mgga hyb_mgga_xc_wb97mv := spinFlip_of (cap := 1) (by decide +kernel)
theorem lda_c_1d_csc_spinFlip : SpinFlip .lda lda_c_1d_csc := spinFlip_of (cap := 1) (by decide +kernel)
theorem lda_c_1d_loos_spinFlip : SpinFlip .lda lda_c_1d_loos := spinFlip_of (cap := 1) (by decide +kernel)
theorem lda_c_2d_amgb_spinFlip : SpinFlip .lda lda_c_2d_amgb := spinFlip_of (cap := 1) (by decide +kernel)
theorem lda_c_2d_prm_spinFlip : SpinFlip .lda lda_c_2d_prm := spinFlip_of (cap := 1) (by decide +kernel)
theorem lda_c_chachiyo_spinFlip : SpinFlip .lda lda_c_chachiyo := spinFlip_of (cap := 1) (by decide +kernel)
theorem lda_c_chachiyo_mod_spinFlip : SpinFlip .lda lda_c_chachiyo_mod := spinFlip_of (cap := 1) (by decide +kernel)
theorem lda_c_gk72_spinFlip : SpinFlip .lda lda_c_gk72 := spinFlip_of (cap := 1) (by decide +kernel)
theorem lda_c_gombas_spinFlip : SpinFlip .lda lda_c_gombas := spinFlip_of (cap := 1) (by decide +kernel)
theorem lda_c_hl_spinFlip : SpinFlip .lda lda_c_hl := spinFlip_of (cap := 1) (by decide +kernel)
theorem lda_c_lp96_spinFlip : SpinFlip .lda lda_c_lp96 := spinFlip_of (cap := 1) (by decide +kernel)
theorem lda_c_pk09_spinFlip : SpinFlip .lda lda_c_pk09 := spinFlip_of (cap := 1) (by decide +kernel)
theorem lda_c_pmgb06_spinFlip : SpinFlip .lda lda_c_pmgb06 := spinFlip_of (cap := 1) (by decide +kernel)
theorem lda_c_pw_spinFlip : SpinFlip .lda lda_c_pw := spinFlip_of (cap := 1) (by decide +kernel)

end Verif.Props
