import Verif.Props.SpinFlip2
import Verif.Norm.Check2
import Verif.Data.F05
/-!
# C37, C38 and C42 for shipped formulas
-/
namespace Verif.Props
open Verif.Model Verif.Spec Verif.Norm Verif.Data

set_option maxRecDepth 100000
set_option Elab.async false

theorem gga_x_hjs_b88_v2_spinScaling : SpinScaling .gga gga_x_hjs_b88_v2 := spinScaling_of (cap := 4) (by decide +kernel)
theorem gga_x_hjs_b88_v2_screenedBoth : ScreenedBoth .gga gga_x_hjs_b88_v2 := screenedBoth_of (cap := 1) (by decide +kernel)
theorem gga_x_hjs_b88_v2_screenedOne : ScreenedOne .gga gga_x_hjs_b88_v2 := screenedOne_flip gga_x_hjs_b88_v2_spinFlip (cap := 1) (by decide +kernel)
theorem gga_x_hjs_b88_v2_screenedRest : ScreenedRest .gga gga_x_hjs_b88_v2 := screenedRest_flip gga_x_hjs_b88_v2_spinFlip (cap := 4) (by decide +kernel)
theorem gga_x_htbs_screenedBoth : ScreenedBoth .gga gga_x_htbs := screenedBoth_of (cap := 1) (by decide +kernel)
theorem gga_x_htbs_screenedOne : ScreenedOne .gga gga_x_htbs := screenedOne_flip gga_x_htbs_spinFlip (cap := 1) (by decide +kernel)
theorem gga_x_htbs_scaling : UniformScaling 3 1 .gga gga_x_htbs := uniformScaling_of (cap := 1) (by decide +kernel)
theorem gga_x_htbs_scalingUnpol : UniformScalingUnpol 3 1 .gga gga_x_htbs := uniformScalingUnpol_of (cap := 1) (by decide +kernel)
theorem gga_x_ityh_spinScaling : SpinScaling .gga gga_x_ityh := spinScaling_of (cap := 4) (by decide +kernel)
theorem gga_x_ityh_screenedBoth : ScreenedBoth .gga gga_x_ityh := screenedBoth_of (cap := 1) (by decide +kernel)
theorem gga_x_ityh_screenedOne : ScreenedOne .gga gga_x_ityh := screenedOne_flip gga_x_ityh_spinFlip (cap := 1) (by decide +kernel)
theorem gga_x_ityh_screenedRest : ScreenedRest .gga gga_x_ityh := screenedRest_flip gga_x_ityh_spinFlip (cap := 4) (by decide +kernel)
theorem gga_x_ityh_optx_spinScaling : SpinScaling .gga gga_x_ityh_optx := spinScaling_of (cap := 4) (by decide +kernel)
theorem gga_x_ityh_optx_screenedBoth : ScreenedBoth .gga gga_x_ityh_optx := screenedBoth_of (cap := 1) (by decide +kernel)
theorem gga_x_ityh_optx_screenedOne : ScreenedOne .gga gga_x_ityh_optx := screenedOne_flip gga_x_ityh_optx_spinFlip (cap := 1) (by decide +kernel)
theorem gga_x_ityh_optx_screenedRest : ScreenedRest .gga gga_x_ityh_optx := screenedRest_flip gga_x_ityh_optx_spinFlip (cap := 4) (by decide +kernel)
theorem gga_x_ityh_pbe_spinScaling : SpinScaling .gga gga_x_ityh_pbe := spinScaling_of (cap := 4) (by decide +kernel)
theorem gga_x_ityh_pbe_screenedBoth : ScreenedBoth .gga gga_x_ityh_pbe := screenedBoth_of (cap := 1) (by decide +kernel)
theorem gga_x_ityh_pbe_screenedOne : ScreenedOne .gga gga_x_ityh_pbe := screenedOne_flip gga_x_ityh_pbe_spinFlip (cap := 1) (by decide +kernel)
theorem gga_x_ityh_pbe_screenedRest : ScreenedRest .gga gga_x_ityh_pbe := screenedRest_flip gga_x_ityh_pbe_spinFlip (cap := 4) (by decide +kernel)
theorem gga_x_kt_spinScaling : SpinScaling .gga gga_x_kt := spinScaling_of (cap := 4) (by decide +kernel)
theorem gga_x_kt_screenedBoth : ScreenedBoth .gga gga_x_kt := screenedBoth_of (cap := 1) (by decide +kernel)
theorem gga_x_kt_screenedOne : ScreenedOne .gga gga_x_kt := screenedOne_flip gga_x_kt_spinFlip (cap := 1) (by decide +kernel)
theorem gga_x_kt_screenedRest : ScreenedRest .gga gga_x_kt := screenedRest_flip gga_x_kt_spinFlip (cap := 4) (by decide +kernel)
theorem gga_x_lag_spinScaling : SpinScaling .gga gga_x_lag := spinScaling_of (cap := 4) (by decide +kernel)
theorem gga_x_lag_screenedBoth : ScreenedBoth .gga gga_x_lag := screenedBoth_of (cap := 1) (by decide +kernel)
theorem gga_x_lag_screenedOne : ScreenedOne .gga gga_x_lag := screenedOne_flip gga_x_lag_spinFlip (cap := 1) (by decide +kernel)
theorem gga_x_lag_screenedRest : ScreenedRest .gga gga_x_lag := screenedRest_flip gga_x_lag_spinFlip (cap := 4) (by decide +kernel)
theorem gga_x_lag_scaling : UniformScaling 3 1 .gga gga_x_lag := uniformScaling_of (cap := 1) (by decide +kernel)
theorem gga_x_lag_scalingUnpol : UniformScalingUnpol 3 1 .gga gga_x_lag := uniformScalingUnpol_of (cap := 1) (by decide +kernel)
theorem gga_x_lb_scaling : UniformScaling 3 1 .gga gga_x_lb := uniformScaling_of (cap := 1) (by decide +kernel)
theorem gga_x_lb_scalingUnpol : UniformScalingUnpol 3 1 .gga gga_x_lb := uniformScalingUnpol_of (cap := 1) (by decide +kernel)
theorem gga_x_lg93_screenedBoth : ScreenedBoth .gga gga_x_lg93 := screenedBoth_of (cap := 1) (by decide +kernel)
theorem gga_x_lg93_screenedOne : ScreenedOne .gga gga_x_lg93 := screenedOne_flip gga_x_lg93_spinFlip (cap := 1) (by decide +kernel)
theorem gga_x_lg93_scaling : UniformScaling 3 1 .gga gga_x_lg93 := uniformScaling_of (cap := 1) (by decide +kernel)
theorem gga_x_lg93_scalingUnpol : UniformScalingUnpol 3 1 .gga gga_x_lg93 := uniformScalingUnpol_of (cap := 1) (by decide +kernel)
theorem gga_x_lspbe_spinScaling : SpinScaling .gga gga_x_lspbe := spinScaling_of (cap := 4) (by decide +kernel)
theorem gga_x_lspbe_screenedBoth : ScreenedBoth .gga gga_x_lspbe := screenedBoth_of (cap := 1) (by decide +kernel)
theorem gga_x_lspbe_screenedOne : ScreenedOne .gga gga_x_lspbe := screenedOne_flip gga_x_lspbe_spinFlip (cap := 1) (by decide +kernel)
theorem gga_x_lspbe_screenedRest : ScreenedRest .gga gga_x_lspbe := screenedRest_flip gga_x_lspbe_spinFlip (cap := 4) (by decide +kernel)
theorem gga_x_lspbe_scaling : UniformScaling 3 1 .gga gga_x_lspbe := uniformScaling_of (cap := 1) (by decide +kernel)
theorem gga_x_lspbe_scalingUnpol : UniformScalingUnpol 3 1 .gga gga_x_lspbe := uniformScalingUnpol_of (cap := 1) (by decide +kernel)
theorem gga_x_lsrpbe_spinScaling : SpinScaling .gga gga_x_lsrpbe := spinScaling_of (cap := 4) (by decide +kernel)
theorem gga_x_lsrpbe_screenedBoth : ScreenedBoth .gga gga_x_lsrpbe := screenedBoth_of (cap := 1) (by decide +kernel)
theorem gga_x_lsrpbe_screenedOne : ScreenedOne .gga gga_x_lsrpbe := screenedOne_flip gga_x_lsrpbe_spinFlip (cap := 1) (by decide +kernel)
theorem gga_x_lsrpbe_screenedRest : ScreenedRest .gga gga_x_lsrpbe := screenedRest_flip gga_x_lsrpbe_spinFlip (cap := 4) (by decide +kernel)
theorem gga_x_lsrpbe_scaling : UniformScaling 3 1 .gga gga_x_lsrpbe := uniformScaling_of (cap := 1) (by decide +kernel)
theorem gga_x_lsrpbe_scalingUnpol : UniformScalingUnpol 3 1 .gga gga_x_lsrpbe := uniformScalingUnpol_of (cap := 1) (by decide +kernel)
theorem gga_x_lv_rpw86_screenedBoth : ScreenedBoth .gga gga_x_lv_rpw86 := screenedBoth_of (cap := 1) (by decide +kernel)
theorem gga_x_lv_rpw86_screenedOne : ScreenedOne .gga gga_x_lv_rpw86 := screenedOne_flip gga_x_lv_rpw86_spinFlip (cap := 1) (by decide +kernel)
theorem gga_x_lv_rpw86_scaling : UniformScaling 3 1 .gga gga_x_lv_rpw86 := uniformScaling_of (cap := 1) (by decide +kernel)
theorem gga_x_lv_rpw86_scalingUnpol : UniformScalingUnpol 3 1 .gga gga_x_lv_rpw86 := uniformScalingUnpol_of (cap := 1) (by decide +kernel)
theorem gga_x_mpbe_spinScaling : SpinScaling .gga gga_x_mpbe := spinScaling_of (cap := 4) (by decide +kernel)
theorem gga_x_mpbe_screenedBoth : ScreenedBoth .gga gga_x_mpbe := screenedBoth_of (cap := 1) (by decide +kernel)
theorem gga_x_mpbe_screenedOne : ScreenedOne .gga gga_x_mpbe := screenedOne_flip gga_x_mpbe_spinFlip (cap := 1) (by decide +kernel)
theorem gga_x_mpbe_screenedRest : ScreenedRest .gga gga_x_mpbe := screenedRest_flip gga_x_mpbe_spinFlip (cap := 4) (by decide +kernel)
theorem gga_x_mpbe_scaling : UniformScaling 3 1 .gga gga_x_mpbe := uniformScaling_of (cap := 1) (by decide +kernel)
theorem gga_x_mpbe_scalingUnpol : UniformScalingUnpol 3 1 .gga gga_x_mpbe := uniformScalingUnpol_of (cap := 1) (by decide +kernel)
theorem gga_x_n12_spinScaling : SpinScaling .gga gga_x_n12 := spinScaling_of (cap := 4) (by decide +kernel)
theorem gga_x_n12_screenedBoth : ScreenedBoth .gga gga_x_n12 := screenedBoth_of (cap := 1) (by decide +kernel)
theorem gga_x_n12_screenedOne : ScreenedOne .gga gga_x_n12 := screenedOne_flip gga_x_n12_spinFlip (cap := 1) (by decide +kernel)
theorem gga_x_n12_screenedRest : ScreenedRest .gga gga_x_n12 := screenedRest_flip gga_x_n12_spinFlip (cap := 4) (by decide +kernel)
theorem gga_x_ncap_spinScaling : SpinScaling .gga gga_x_ncap := spinScaling_of (cap := 4) (by decide +kernel)
theorem gga_x_ncap_screenedBoth : ScreenedBoth .gga gga_x_ncap := screenedBoth_of (cap := 1) (by decide +kernel)
theorem gga_x_ncap_screenedOne : ScreenedOne .gga gga_x_ncap := screenedOne_flip gga_x_ncap_spinFlip (cap := 1) (by decide +kernel)
theorem gga_x_ncap_screenedRest : ScreenedRest .gga gga_x_ncap := screenedRest_flip gga_x_ncap_spinFlip (cap := 4) (by decide +kernel)
theorem gga_x_ncap_scaling : UniformScaling 3 1 .gga gga_x_ncap := uniformScaling_of (cap := 1) (by decide +kernel)
theorem gga_x_ncap_scalingUnpol : UniformScalingUnpol 3 1 .gga gga_x_ncap := uniformScalingUnpol_of (cap := 1) (by decide +kernel)
theorem gga_x_ol2_spinScaling : SpinScaling .gga gga_x_ol2 := spinScaling_of (cap := 4) (by decide +kernel)
theorem gga_x_ol2_screenedBoth : ScreenedBoth .gga gga_x_ol2 := screenedBoth_of (cap := 1) (by decide +kernel)
theorem gga_x_ol2_screenedOne : ScreenedOne .gga gga_x_ol2 := screenedOne_flip gga_x_ol2_spinFlip (cap := 1) (by decide +kernel)
theorem gga_x_ol2_screenedRest : ScreenedRest .gga gga_x_ol2 := screenedRest_flip gga_x_ol2_spinFlip (cap := 4) (by decide +kernel)
theorem gga_x_ol2_scaling : UniformScaling 3 1 .gga gga_x_ol2 := uniformScaling_of (cap := 1) (by decide +kernel)
theorem gga_x_ol2_scalingUnpol : UniformScalingUnpol 3 1 .gga gga_x_ol2 := uniformScalingUnpol_of (cap := 1) (by decide +kernel)
theorem gga_x_optx_spinScaling : SpinScaling .gga gga_x_optx := spinScaling_of (cap := 4) (by decide +kernel)
theorem gga_x_optx_screenedBoth : ScreenedBoth .gga gga_x_optx := screenedBoth_of (cap := 1) (by decide +kernel)
theorem gga_x_optx_screenedOne : ScreenedOne .gga gga_x_optx := screenedOne_flip gga_x_optx_spinFlip (cap := 1) (by decide +kernel)
theorem gga_x_optx_screenedRest : ScreenedRest .gga gga_x_optx := screenedRest_flip gga_x_optx_spinFlip (cap := 4) (by decide +kernel)
theorem gga_x_optx_scaling : UniformScaling 3 1 .gga gga_x_optx := uniformScaling_of (cap := 1) (by decide +kernel)
theorem gga_x_optx_scalingUnpol : UniformScalingUnpol 3 1 .gga gga_x_optx := uniformScalingUnpol_of (cap := 1) (by decide +kernel)
theorem gga_x_pbe_spinScaling : SpinScaling .gga gga_x_pbe := spinScaling_of (cap := 4) (by decide +kernel)
theorem gga_x_pbe_screenedBoth : ScreenedBoth .gga gga_x_pbe := screenedBoth_of (cap := 1) (by decide +kernel)
theorem gga_x_pbe_screenedOne : ScreenedOne .gga gga_x_pbe := screenedOne_flip gga_x_pbe_spinFlip (cap := 1) (by decide +kernel)
theorem gga_x_pbe_screenedRest : ScreenedRest .gga gga_x_pbe := screenedRest_flip gga_x_pbe_spinFlip (cap := 4) (by decide +kernel)
theorem gga_x_pbe_scaling : UniformScaling 3 1 .gga gga_x_pbe := uniformScaling_of (cap := 1) (by decide +kernel)
theorem gga_x_pbe_scalingUnpol : UniformScalingUnpol 3 1 .gga gga_x_pbe := uniformScalingUnpol_of (cap := 1) (by decide +kernel)
theorem gga_x_pbea_spinScaling : SpinScaling .gga gga_x_pbea := spinScaling_of (cap := 4) (by decide +kernel)
theorem gga_x_pbea_screenedBoth : ScreenedBoth .gga gga_x_pbea := screenedBoth_of (cap := 1) (by decide +kernel)
theorem gga_x_pbea_screenedOne : ScreenedOne .gga gga_x_pbea := screenedOne_flip gga_x_pbea_spinFlip (cap := 1) (by decide +kernel)
theorem gga_x_pbea_screenedRest : ScreenedRest .gga gga_x_pbea := screenedRest_flip gga_x_pbea_spinFlip (cap := 4) (by decide +kernel)
theorem gga_x_pbea_scaling : UniformScaling 3 1 .gga gga_x_pbea := uniformScaling_of (cap := 1) (by decide +kernel)
theorem gga_x_pbea_scalingUnpol : UniformScalingUnpol 3 1 .gga gga_x_pbea := uniformScalingUnpol_of (cap := 1) (by decide +kernel)
theorem gga_x_pbeint_spinScaling : SpinScaling .gga gga_x_pbeint := spinScaling_of (cap := 4) (by decide +kernel)
theorem gga_x_pbeint_screenedBoth : ScreenedBoth .gga gga_x_pbeint := screenedBoth_of (cap := 1) (by decide +kernel)
theorem gga_x_pbeint_screenedOne : ScreenedOne .gga gga_x_pbeint := screenedOne_flip gga_x_pbeint_spinFlip (cap := 1) (by decide +kernel)
theorem gga_x_pbeint_screenedRest : ScreenedRest .gga gga_x_pbeint := screenedRest_flip gga_x_pbeint_spinFlip (cap := 4) (by decide +kernel)
theorem gga_x_pbeint_scaling : UniformScaling 3 1 .gga gga_x_pbeint := uniformScaling_of (cap := 1) (by decide +kernel)
theorem gga_x_pbeint_scalingUnpol : UniformScalingUnpol 3 1 .gga gga_x_pbeint := uniformScalingUnpol_of (cap := 1) (by decide +kernel)
theorem gga_x_pbepow_spinScaling : SpinScaling .gga gga_x_pbepow := spinScaling_of (cap := 4) (by decide +kernel)
theorem gga_x_pbepow_screenedBoth : ScreenedBoth .gga gga_x_pbepow := screenedBoth_of (cap := 1) (by decide +kernel)
theorem gga_x_pbepow_screenedOne : ScreenedOne .gga gga_x_pbepow := screenedOne_flip gga_x_pbepow_spinFlip (cap := 1) (by decide +kernel)
theorem gga_x_pbepow_screenedRest : ScreenedRest .gga gga_x_pbepow := screenedRest_flip gga_x_pbepow_spinFlip (cap := 4) (by decide +kernel)
theorem gga_x_pbepow_scaling : UniformScaling 3 1 .gga gga_x_pbepow := uniformScaling_of (cap := 1) (by decide +kernel)
theorem gga_x_pbepow_scalingUnpol : UniformScalingUnpol 3 1 .gga gga_x_pbepow := uniformScalingUnpol_of (cap := 1) (by decide +kernel)

end Verif.Props

namespace Verif.Props
open Verif.Model Verif.Spec Verif.Norm Verif.Data

set_option maxRecDepth 100000
set_option Elab.async false

theorem gga_x_pbetrans_spinScaling : SpinScaling .gga gga_x_pbetrans := spinScaling_of (cap := 4) (by decide +kernel)
theorem gga_x_pbetrans_screenedBoth : ScreenedBoth .gga gga_x_pbetrans := screenedBoth_of (cap := 1) (by decide +kernel)
theorem gga_x_pbetrans_screenedOne : ScreenedOne .gga gga_x_pbetrans := screenedOne_flip gga_x_pbetrans_spinFlip (cap := 1) (by decide +kernel)
theorem gga_x_pbetrans_screenedRest : ScreenedRest .gga gga_x_pbetrans := screenedRest_flip gga_x_pbetrans_spinFlip (cap := 4) (by decide +kernel)
theorem gga_x_pbetrans_scaling : UniformScaling 3 1 .gga gga_x_pbetrans := uniformScaling_of (cap := 1) (by decide +kernel)
theorem gga_x_pbetrans_scalingUnpol : UniformScalingUnpol 3 1 .gga gga_x_pbetrans := uniformScalingUnpol_of (cap := 1) (by decide +kernel)
theorem gga_x_pw86_spinScaling : SpinScaling .gga gga_x_pw86 := spinScaling_of (cap := 4) (by decide +kernel)
theorem gga_x_pw86_screenedBoth : ScreenedBoth .gga gga_x_pw86 := screenedBoth_of (cap := 1) (by decide +kernel)
theorem gga_x_pw86_screenedOne : ScreenedOne .gga gga_x_pw86 := screenedOne_flip gga_x_pw86_spinFlip (cap := 1) (by decide +kernel)
theorem gga_x_pw86_screenedRest : ScreenedRest .gga gga_x_pw86 := screenedRest_flip gga_x_pw86_spinFlip (cap := 4) (by decide +kernel)
theorem gga_x_pw86_scaling : UniformScaling 3 1 .gga gga_x_pw86 := uniformScaling_of (cap := 1) (by decide +kernel)
theorem gga_x_pw86_scalingUnpol : UniformScalingUnpol 3 1 .gga gga_x_pw86 := uniformScalingUnpol_of (cap := 1) (by decide +kernel)
theorem gga_x_pw91_spinScaling : SpinScaling .gga gga_x_pw91 := spinScaling_of (cap := 4) (by decide +kernel)
theorem gga_x_pw91_screenedBoth : ScreenedBoth .gga gga_x_pw91 := screenedBoth_of (cap := 1) (by decide +kernel)
theorem gga_x_pw91_screenedOne : ScreenedOne .gga gga_x_pw91 := screenedOne_flip gga_x_pw91_spinFlip (cap := 1) (by decide +kernel)
theorem gga_x_pw91_screenedRest : ScreenedRest .gga gga_x_pw91 := screenedRest_flip gga_x_pw91_spinFlip (cap := 4) (by decide +kernel)
theorem gga_x_pw91_scaling : UniformScaling 3 1 .gga gga_x_pw91 := uniformScaling_of (cap := 1) (by decide +kernel)
theorem gga_x_pw91_scalingUnpol : UniformScalingUnpol 3 1 .gga gga_x_pw91 := uniformScalingUnpol_of (cap := 1) (by decide +kernel)
theorem gga_x_q1d_spinScaling : SpinScaling .gga gga_x_q1d := spinScaling_of (cap := 4) (by decide +kernel)
theorem gga_x_q1d_screenedBoth : ScreenedBoth .gga gga_x_q1d := screenedBoth_of (cap := 1) (by decide +kernel)
theorem gga_x_q1d_screenedOne : ScreenedOne .gga gga_x_q1d := screenedOne_flip gga_x_q1d_spinFlip (cap := 1) (by decide +kernel)
theorem gga_x_q1d_screenedRest : ScreenedRest .gga gga_x_q1d := screenedRest_flip gga_x_q1d_spinFlip (cap := 4) (by decide +kernel)
theorem gga_x_q1d_scaling : UniformScaling 3 1 .gga gga_x_q1d := uniformScaling_of (cap := 1) (by decide +kernel)
theorem gga_x_q1d_scalingUnpol : UniformScalingUnpol 3 1 .gga gga_x_q1d := uniformScalingUnpol_of (cap := 1) (by decide +kernel)
theorem gga_x_q2d_spinScaling : SpinScaling .gga gga_x_q2d := spinScaling_of (cap := 4) (by decide +kernel)
theorem gga_x_q2d_screenedBoth : ScreenedBoth .gga gga_x_q2d := screenedBoth_of (cap := 1) (by decide +kernel)
theorem gga_x_q2d_screenedOne : ScreenedOne .gga gga_x_q2d := screenedOne_flip gga_x_q2d_spinFlip (cap := 1) (by decide +kernel)
theorem gga_x_q2d_screenedRest : ScreenedRest .gga gga_x_q2d := screenedRest_flip gga_x_q2d_spinFlip (cap := 4) (by decide +kernel)
theorem gga_x_q2d_scaling : UniformScaling 3 1 .gga gga_x_q2d := uniformScaling_of (cap := 1) (by decide +kernel)
theorem gga_x_q2d_scalingUnpol : UniformScalingUnpol 3 1 .gga gga_x_q2d := uniformScalingUnpol_of (cap := 1) (by decide +kernel)
theorem gga_x_rge2_screenedBoth : ScreenedBoth .gga gga_x_rge2 := screenedBoth_of (cap := 1) (by decide +kernel)
theorem gga_x_rge2_screenedOne : ScreenedOne .gga gga_x_rge2 := screenedOne_flip gga_x_rge2_spinFlip (cap := 1) (by decide +kernel)
theorem gga_x_rge2_scaling : UniformScaling 3 1 .gga gga_x_rge2 := uniformScaling_of (cap := 1) (by decide +kernel)
theorem gga_x_rge2_scalingUnpol : UniformScalingUnpol 3 1 .gga gga_x_rge2 := uniformScalingUnpol_of (cap := 1) (by decide +kernel)
theorem gga_x_rpbe_spinScaling : SpinScaling .gga gga_x_rpbe := spinScaling_of (cap := 4) (by decide +kernel)
theorem gga_x_rpbe_screenedBoth : ScreenedBoth .gga gga_x_rpbe := screenedBoth_of (cap := 1) (by decide +kernel)
theorem gga_x_rpbe_screenedOne : ScreenedOne .gga gga_x_rpbe := screenedOne_flip gga_x_rpbe_spinFlip (cap := 1) (by decide +kernel)
theorem gga_x_rpbe_screenedRest : ScreenedRest .gga gga_x_rpbe := screenedRest_flip gga_x_rpbe_spinFlip (cap := 4) (by decide +kernel)
theorem gga_x_rpbe_scaling : UniformScaling 3 1 .gga gga_x_rpbe := uniformScaling_of (cap := 1) (by decide +kernel)
theorem gga_x_rpbe_scalingUnpol : UniformScalingUnpol 3 1 .gga gga_x_rpbe := uniformScalingUnpol_of (cap := 1) (by decide +kernel)
theorem gga_x_s12_spinScaling : SpinScaling .gga gga_x_s12 := spinScaling_of (cap := 4) (by decide +kernel)
theorem gga_x_s12_screenedBoth : ScreenedBoth .gga gga_x_s12 := screenedBoth_of (cap := 1) (by decide +kernel)
theorem gga_x_s12_screenedOne : ScreenedOne .gga gga_x_s12 := screenedOne_flip gga_x_s12_spinFlip (cap := 1) (by decide +kernel)
theorem gga_x_s12_screenedRest : ScreenedRest .gga gga_x_s12 := screenedRest_flip gga_x_s12_spinFlip (cap := 4) (by decide +kernel)
theorem gga_x_s12_scaling : UniformScaling 3 1 .gga gga_x_s12 := uniformScaling_of (cap := 1) (by decide +kernel)
theorem gga_x_s12_scalingUnpol : UniformScalingUnpol 3 1 .gga gga_x_s12 := uniformScalingUnpol_of (cap := 1) (by decide +kernel)
theorem gga_x_sfat_spinScaling : SpinScaling .gga gga_x_sfat := spinScaling_of (cap := 4) (by decide +kernel)
theorem gga_x_sfat_screenedBoth : ScreenedBoth .gga gga_x_sfat := screenedBoth_of (cap := 1) (by decide +kernel)
theorem gga_x_sfat_screenedOne : ScreenedOne .gga gga_x_sfat := screenedOne_flip gga_x_sfat_spinFlip (cap := 1) (by decide +kernel)
theorem gga_x_sfat_screenedRest : ScreenedRest .gga gga_x_sfat := screenedRest_flip gga_x_sfat_spinFlip (cap := 4) (by decide +kernel)
theorem gga_x_sfat_pbe_spinScaling : SpinScaling .gga gga_x_sfat_pbe := spinScaling_of (cap := 4) (by decide +kernel)
theorem gga_x_sfat_pbe_screenedBoth : ScreenedBoth .gga gga_x_sfat_pbe := screenedBoth_of (cap := 1) (by decide +kernel)
theorem gga_x_sfat_pbe_screenedOne : ScreenedOne .gga gga_x_sfat_pbe := screenedOne_flip gga_x_sfat_pbe_spinFlip (cap := 1) (by decide +kernel)
theorem gga_x_sfat_pbe_screenedRest : ScreenedRest .gga gga_x_sfat_pbe := screenedRest_flip gga_x_sfat_pbe_spinFlip (cap := 4) (by decide +kernel)
theorem gga_x_sg4_screenedBoth : ScreenedBoth .gga gga_x_sg4 := screenedBoth_of (cap := 1) (by decide +kernel)
theorem gga_x_sg4_screenedOne : ScreenedOne .gga gga_x_sg4 := screenedOne_flip gga_x_sg4_spinFlip (cap := 1) (by decide +kernel)
theorem gga_x_sg4_scaling : UniformScaling 3 1 .gga gga_x_sg4 := uniformScaling_of (cap := 1) (by decide +kernel)
theorem gga_x_sg4_scalingUnpol : UniformScalingUnpol 3 1 .gga gga_x_sg4 := uniformScalingUnpol_of (cap := 1) (by decide +kernel)
theorem gga_x_sogga11_spinScaling : SpinScaling .gga gga_x_sogga11 := spinScaling_of (cap := 4) (by decide +kernel)
theorem gga_x_sogga11_screenedBoth : ScreenedBoth .gga gga_x_sogga11 := screenedBoth_of (cap := 1) (by decide +kernel)
theorem gga_x_sogga11_screenedOne : ScreenedOne .gga gga_x_sogga11 := screenedOne_flip gga_x_sogga11_spinFlip (cap := 1) (by decide +kernel)
theorem gga_x_sogga11_screenedRest : ScreenedRest .gga gga_x_sogga11 := screenedRest_flip gga_x_sogga11_spinFlip (cap := 4) (by decide +kernel)
theorem gga_x_sogga11_scaling : UniformScaling 3 1 .gga gga_x_sogga11 := uniformScaling_of (cap := 1) (by decide +kernel)
theorem gga_x_sogga11_scalingUnpol : UniformScalingUnpol 3 1 .gga gga_x_sogga11 := uniformScalingUnpol_of (cap := 1) (by decide +kernel)
theorem gga_x_ssb_sw_spinScaling : SpinScaling .gga gga_x_ssb_sw := spinScaling_of (cap := 4) (by decide +kernel)
theorem gga_x_ssb_sw_screenedBoth : ScreenedBoth .gga gga_x_ssb_sw := screenedBoth_of (cap := 1) (by decide +kernel)
theorem gga_x_ssb_sw_screenedOne : ScreenedOne .gga gga_x_ssb_sw := screenedOne_flip gga_x_ssb_sw_spinFlip (cap := 1) (by decide +kernel)
theorem gga_x_ssb_sw_screenedRest : ScreenedRest .gga gga_x_ssb_sw := screenedRest_flip gga_x_ssb_sw_spinFlip (cap := 4) (by decide +kernel)
theorem gga_x_ssb_sw_scaling : UniformScaling 3 1 .gga gga_x_ssb_sw := uniformScaling_of (cap := 1) (by decide +kernel)
theorem gga_x_ssb_sw_scalingUnpol : UniformScalingUnpol 3 1 .gga gga_x_ssb_sw := uniformScalingUnpol_of (cap := 1) (by decide +kernel)
theorem gga_x_vmt_spinScaling : SpinScaling .gga gga_x_vmt := spinScaling_of (cap := 4) (by decide +kernel)
theorem gga_x_vmt_screenedBoth : ScreenedBoth .gga gga_x_vmt := screenedBoth_of (cap := 1) (by decide +kernel)
theorem gga_x_vmt_screenedOne : ScreenedOne .gga gga_x_vmt := screenedOne_flip gga_x_vmt_spinFlip (cap := 1) (by decide +kernel)
theorem gga_x_vmt_screenedRest : ScreenedRest .gga gga_x_vmt := screenedRest_flip gga_x_vmt_spinFlip (cap := 4) (by decide +kernel)
theorem gga_x_vmt_scaling : UniformScaling 3 1 .gga gga_x_vmt := uniformScaling_of (cap := 1) (by decide +kernel)
theorem gga_x_vmt_scalingUnpol : UniformScalingUnpol 3 1 .gga gga_x_vmt := uniformScalingUnpol_of (cap := 1) (by decide +kernel)
theorem gga_x_vmt84_spinScaling : SpinScaling .gga gga_x_vmt84 := spinScaling_of (cap := 4) (by decide +kernel)
theorem gga_x_vmt84_screenedBoth : ScreenedBoth .gga gga_x_vmt84 := screenedBoth_of (cap := 1) (by decide +kernel)
theorem gga_x_vmt84_screenedOne : ScreenedOne .gga gga_x_vmt84 := screenedOne_flip gga_x_vmt84_spinFlip (cap := 1) (by decide +kernel)
theorem gga_x_vmt84_screenedRest : ScreenedRest .gga gga_x_vmt84 := screenedRest_flip gga_x_vmt84_spinFlip (cap := 4) (by decide +kernel)
theorem gga_x_vmt84_scaling : UniformScaling 3 1 .gga gga_x_vmt84 := uniformScaling_of (cap := 1) (by decide +kernel)
theorem gga_x_vmt84_scalingUnpol : UniformScalingUnpol 3 1 .gga gga_x_vmt84 := uniformScalingUnpol_of (cap := 1) (by decide +kernel)
theorem gga_x_wc_spinScaling : SpinScaling .gga gga_x_wc := spinScaling_of (cap := 4) (by decide +kernel)
theorem gga_x_wc_screenedBoth : ScreenedBoth .gga gga_x_wc := screenedBoth_of (cap := 1) (by decide +kernel)
theorem gga_x_wc_screenedOne : ScreenedOne .gga gga_x_wc := screenedOne_flip gga_x_wc_spinFlip (cap := 1) (by decide +kernel)
theorem gga_x_wc_screenedRest : ScreenedRest .gga gga_x_wc := screenedRest_flip gga_x_wc_spinFlip (cap := 4) (by decide +kernel)
theorem gga_x_wc_scaling : UniformScaling 3 1 .gga gga_x_wc := uniformScaling_of (cap := 1) (by decide +kernel)
theorem gga_x_wc_scalingUnpol : UniformScalingUnpol 3 1 .gga gga_x_wc := uniformScalingUnpol_of (cap := 1) (by decide +kernel)
theorem gga_x_wpbeh_spinScaling : SpinScaling .gga gga_x_wpbeh := spinScaling_of (cap := 4) (by decide +kernel)
theorem gga_x_wpbeh_screenedBoth : ScreenedBoth .gga gga_x_wpbeh := screenedBoth_of (cap := 1) (by decide +kernel)
theorem gga_x_wpbeh_screenedRest : ScreenedRest .gga gga_x_wpbeh := screenedRest_flip gga_x_wpbeh_spinFlip (cap := 4) (by decide +kernel)

end Verif.Props

namespace Verif.Props
open Verif.Model Verif.Spec Verif.Norm Verif.Data

set_option maxRecDepth 100000
set_option Elab.async false

theorem hyb_gga_x_cam_s12_spinScaling : SpinScaling .gga hyb_gga_x_cam_s12 := spinScaling_of (cap := 4) (by decide +kernel)
theorem hyb_gga_x_cam_s12_screenedBoth : ScreenedBoth .gga hyb_gga_x_cam_s12 := screenedBoth_of (cap := 1) (by decide +kernel)
theorem hyb_gga_x_cam_s12_screenedOne : ScreenedOne .gga hyb_gga_x_cam_s12 := screenedOne_flip hyb_gga_x_cam_s12_spinFlip (cap := 1) (by decide +kernel)
theorem hyb_gga_x_cam_s12_screenedRest : ScreenedRest .gga hyb_gga_x_cam_s12 := screenedRest_flip hyb_gga_x_cam_s12_spinFlip (cap := 4) (by decide +kernel)
theorem hyb_mgga_x_dldf_spinScaling : SpinScaling .mgga hyb_mgga_x_dldf := spinScaling_of (cap := 4) (by decide +kernel)
theorem hyb_mgga_x_dldf_screenedBoth : ScreenedBoth .mgga hyb_mgga_x_dldf := screenedBoth_of (cap := 1) (by decide +kernel)
theorem hyb_mgga_x_dldf_screenedOne : ScreenedOne .mgga hyb_mgga_x_dldf := screenedOne_flip hyb_mgga_x_dldf_spinFlip (cap := 1) (by decide +kernel)
theorem hyb_mgga_x_dldf_screenedRest : ScreenedRest .mgga hyb_mgga_x_dldf := screenedRest_flip hyb_mgga_x_dldf_spinFlip (cap := 4) (by decide +kernel)
theorem hyb_mgga_x_dldf_scaling : UniformScaling 3 1 .mgga hyb_mgga_x_dldf := uniformScaling_of (cap := 1) (by decide +kernel)
theorem hyb_mgga_x_dldf_scalingUnpol : UniformScalingUnpol 3 1 .mgga hyb_mgga_x_dldf := uniformScalingUnpol_of (cap := 1) (by decide +kernel)
theorem hyb_mgga_x_js18_spinScaling : SpinScaling .mgga hyb_mgga_x_js18 := spinScaling_of (cap := 4) (by decide +kernel)
theorem hyb_mgga_x_js18_screenedBoth : ScreenedBoth .mgga hyb_mgga_x_js18 := screenedBoth_of (cap := 1) (by decide +kernel)
theorem hyb_mgga_x_js18_screenedOne : ScreenedOne .mgga hyb_mgga_x_js18 := screenedOne_flip hyb_mgga_x_js18_spinFlip (cap := 1) (by decide +kernel)
theorem hyb_mgga_x_js18_screenedRest : ScreenedRest .mgga hyb_mgga_x_js18 := screenedRest_flip hyb_mgga_x_js18_spinFlip (cap := 4) (by decide +kernel)
theorem hyb_mgga_x_m05_spinScaling : SpinScaling .mgga hyb_mgga_x_m05 := spinScaling_of (cap := 4) (by decide +kernel)
theorem hyb_mgga_x_m05_screenedBoth : ScreenedBoth .mgga hyb_mgga_x_m05 := screenedBoth_of (cap := 1) (by decide +kernel)
theorem hyb_mgga_x_m05_screenedOne : ScreenedOne .mgga hyb_mgga_x_m05 := screenedOne_flip hyb_mgga_x_m05_spinFlip (cap := 1) (by decide +kernel)
theorem hyb_mgga_x_m05_screenedRest : ScreenedRest .mgga hyb_mgga_x_m05 := screenedRest_flip hyb_mgga_x_m05_spinFlip (cap := 4) (by decide +kernel)
theorem hyb_mgga_x_m05_scaling : UniformScaling 3 1 .mgga hyb_mgga_x_m05 := uniformScaling_of (cap := 1) (by decide +kernel)
theorem hyb_mgga_x_m05_scalingUnpol : UniformScalingUnpol 3 1 .mgga hyb_mgga_x_m05 := uniformScalingUnpol_of (cap := 1) (by decide +kernel)

end Verif.Props

namespace Verif.Props
open Verif.Model Verif.Spec Verif.Norm Verif.Data

set_option maxRecDepth 100000
set_option Elab.async false

theorem hyb_mgga_x_pjs18_spinScaling : SpinScaling .mgga hyb_mgga_x_pjs18 := spinScaling_of (cap := 4) (by decide +kernel)
theorem hyb_mgga_x_pjs18_screenedBoth : ScreenedBoth .mgga hyb_mgga_x_pjs18 := screenedBoth_of (cap := 1) (by decide +kernel)
theorem hyb_mgga_x_pjs18_screenedOne : ScreenedOne .mgga hyb_mgga_x_pjs18 := screenedOne_flip hyb_mgga_x_pjs18_spinFlip (cap := 1) (by decide +kernel)
theorem hyb_mgga_x_pjs18_screenedRest : ScreenedRest .mgga hyb_mgga_x_pjs18 := screenedRest_flip hyb_mgga_x_pjs18_spinFlip (cap := 4) (by decide +kernel)

end Verif.Props
