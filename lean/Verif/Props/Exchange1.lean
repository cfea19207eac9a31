import Verif.Props.SpinFlip1
import Verif.Norm.Check2
import Verif.Data.F01
/-!
# C37, C38 and C42 for shipped formulas
-/
namespace Verif.Props
open Verif.Model Verif.Spec Verif.Norm Verif.Data

set_option maxRecDepth 100000
set_option Elab.async false

theorem gga_c_op_b88_screenedBoth : ScreenedBoth .gga gga_c_op_b88 := screenedBoth_of (cap := 1) (by decide +kernel)

end Verif.Props

namespace Verif.Props
open Verif.Model Verif.Spec Verif.Norm Verif.Data

set_option maxRecDepth 100000
set_option Elab.async false

theorem gga_c_op_g96_screenedBoth : ScreenedBoth .gga gga_c_op_g96 := screenedBoth_of (cap := 1) (by decide +kernel)
theorem gga_c_op_pbe_screenedBoth : ScreenedBoth .gga gga_c_op_pbe := screenedBoth_of (cap := 1) (by decide +kernel)
theorem gga_c_op_pw91_screenedBoth : ScreenedBoth .gga gga_c_op_pw91 := screenedBoth_of (cap := 1) (by decide +kernel)
theorem gga_c_op_xalpha_screenedBoth : ScreenedBoth .gga gga_c_op_xalpha := screenedBoth_of (cap := 1) (by decide +kernel)
theorem gga_c_op_xalpha_screenedOne : ScreenedOne .gga gga_c_op_xalpha := screenedOne_of (cap := 1) (by decide +kernel)

end Verif.Props

namespace Verif.Props
open Verif.Model Verif.Spec Verif.Norm Verif.Data

set_option maxRecDepth 100000
set_option Elab.async false

theorem gga_k_apbe_spinScaling : SpinScaling .gga gga_k_apbe := spinScaling_of (cap := 4) (by decide +kernel)
theorem gga_k_apbe_screenedBoth : ScreenedBoth .gga gga_k_apbe := screenedBoth_of (cap := 1) (by decide +kernel)
theorem gga_k_apbe_screenedOne : ScreenedOne .gga gga_k_apbe := screenedOne_flip gga_k_apbe_spinFlip (cap := 1) (by decide +kernel)
theorem gga_k_apbe_screenedRest : ScreenedRest .gga gga_k_apbe := screenedRest_flip gga_k_apbe_spinFlip (cap := 4) (by decide +kernel)
theorem gga_k_apbe_scaling : UniformScaling 3 2 .gga gga_k_apbe := uniformScaling_of (cap := 1) (by decide +kernel)
theorem gga_k_apbe_scalingUnpol : UniformScalingUnpol 3 2 .gga gga_k_apbe := uniformScalingUnpol_of (cap := 1) (by decide +kernel)
theorem gga_k_apbeint_spinScaling : SpinScaling .gga gga_k_apbeint := spinScaling_of (cap := 4) (by decide +kernel)
theorem gga_k_apbeint_screenedBoth : ScreenedBoth .gga gga_k_apbeint := screenedBoth_of (cap := 1) (by decide +kernel)
theorem gga_k_apbeint_screenedOne : ScreenedOne .gga gga_k_apbeint := screenedOne_flip gga_k_apbeint_spinFlip (cap := 1) (by decide +kernel)
theorem gga_k_apbeint_screenedRest : ScreenedRest .gga gga_k_apbeint := screenedRest_flip gga_k_apbeint_spinFlip (cap := 4) (by decide +kernel)
theorem gga_k_apbeint_scaling : UniformScaling 3 2 .gga gga_k_apbeint := uniformScaling_of (cap := 1) (by decide +kernel)
theorem gga_k_apbeint_scalingUnpol : UniformScalingUnpol 3 2 .gga gga_k_apbeint := uniformScalingUnpol_of (cap := 1) (by decide +kernel)
theorem gga_k_dk_spinScaling : SpinScaling .gga gga_k_dk := spinScaling_of (cap := 4) (by decide +kernel)
theorem gga_k_dk_screenedBoth : ScreenedBoth .gga gga_k_dk := screenedBoth_of (cap := 1) (by decide +kernel)
theorem gga_k_dk_screenedOne : ScreenedOne .gga gga_k_dk := screenedOne_flip gga_k_dk_spinFlip (cap := 1) (by decide +kernel)
theorem gga_k_dk_screenedRest : ScreenedRest .gga gga_k_dk := screenedRest_flip gga_k_dk_spinFlip (cap := 4) (by decide +kernel)
theorem gga_k_dk_scaling : UniformScaling 3 2 .gga gga_k_dk := uniformScaling_of (cap := 1) (by decide +kernel)
theorem gga_k_dk_scalingUnpol : UniformScalingUnpol 3 2 .gga gga_k_dk := uniformScalingUnpol_of (cap := 1) (by decide +kernel)
theorem gga_k_exp4_screenedBoth : ScreenedBoth .gga gga_k_exp4 := screenedBoth_of (cap := 1) (by decide +kernel)
theorem gga_k_exp4_screenedOne : ScreenedOne .gga gga_k_exp4 := screenedOne_flip gga_k_exp4_spinFlip (cap := 1) (by decide +kernel)
theorem gga_k_exp4_scaling : UniformScaling 3 2 .gga gga_k_exp4 := uniformScaling_of (cap := 1) (by decide +kernel)
theorem gga_k_exp4_scalingUnpol : UniformScalingUnpol 3 2 .gga gga_k_exp4 := uniformScalingUnpol_of (cap := 1) (by decide +kernel)
theorem gga_k_lc94_spinScaling : SpinScaling .gga gga_k_lc94 := spinScaling_of (cap := 4) (by decide +kernel)
theorem gga_k_lc94_screenedBoth : ScreenedBoth .gga gga_k_lc94 := screenedBoth_of (cap := 1) (by decide +kernel)
theorem gga_k_lc94_screenedOne : ScreenedOne .gga gga_k_lc94 := screenedOne_flip gga_k_lc94_spinFlip (cap := 1) (by decide +kernel)
theorem gga_k_lc94_screenedRest : ScreenedRest .gga gga_k_lc94 := screenedRest_flip gga_k_lc94_spinFlip (cap := 4) (by decide +kernel)
theorem gga_k_lc94_scaling : UniformScaling 3 2 .gga gga_k_lc94 := uniformScaling_of (cap := 1) (by decide +kernel)
theorem gga_k_lc94_scalingUnpol : UniformScalingUnpol 3 2 .gga gga_k_lc94 := uniformScalingUnpol_of (cap := 1) (by decide +kernel)
theorem gga_k_lgap_spinScaling : SpinScaling .gga gga_k_lgap := spinScaling_of (cap := 4) (by decide +kernel)
theorem gga_k_lgap_screenedBoth : ScreenedBoth .gga gga_k_lgap := screenedBoth_of (cap := 1) (by decide +kernel)
theorem gga_k_lgap_screenedOne : ScreenedOne .gga gga_k_lgap := screenedOne_flip gga_k_lgap_spinFlip (cap := 1) (by decide +kernel)
theorem gga_k_lgap_screenedRest : ScreenedRest .gga gga_k_lgap := screenedRest_flip gga_k_lgap_spinFlip (cap := 4) (by decide +kernel)
theorem gga_k_lgap_scaling : UniformScaling 3 2 .gga gga_k_lgap := uniformScaling_of (cap := 1) (by decide +kernel)
theorem gga_k_lgap_scalingUnpol : UniformScalingUnpol 3 2 .gga gga_k_lgap := uniformScalingUnpol_of (cap := 1) (by decide +kernel)
theorem gga_k_lgap_ge_spinScaling : SpinScaling .gga gga_k_lgap_ge := spinScaling_of (cap := 4) (by decide +kernel)
theorem gga_k_lgap_ge_screenedBoth : ScreenedBoth .gga gga_k_lgap_ge := screenedBoth_of (cap := 1) (by decide +kernel)
theorem gga_k_lgap_ge_screenedOne : ScreenedOne .gga gga_k_lgap_ge := screenedOne_flip gga_k_lgap_ge_spinFlip (cap := 1) (by decide +kernel)
theorem gga_k_lgap_ge_screenedRest : ScreenedRest .gga gga_k_lgap_ge := screenedRest_flip gga_k_lgap_ge_spinFlip (cap := 4) (by decide +kernel)
theorem gga_k_lgap_ge_scaling : UniformScaling 3 2 .gga gga_k_lgap_ge := uniformScaling_of (cap := 1) (by decide +kernel)
theorem gga_k_lgap_ge_scalingUnpol : UniformScalingUnpol 3 2 .gga gga_k_lgap_ge := uniformScalingUnpol_of (cap := 1) (by decide +kernel)
theorem gga_k_lkt_spinScaling : SpinScaling .gga gga_k_lkt := spinScaling_of (cap := 4) (by decide +kernel)
theorem gga_k_lkt_screenedBoth : ScreenedBoth .gga gga_k_lkt := screenedBoth_of (cap := 1) (by decide +kernel)
theorem gga_k_lkt_screenedOne : ScreenedOne .gga gga_k_lkt := screenedOne_flip gga_k_lkt_spinFlip (cap := 1) (by decide +kernel)
theorem gga_k_lkt_screenedRest : ScreenedRest .gga gga_k_lkt := screenedRest_flip gga_k_lkt_spinFlip (cap := 4) (by decide +kernel)
theorem gga_k_lkt_scaling : UniformScaling 3 2 .gga gga_k_lkt := uniformScaling_of (cap := 1) (by decide +kernel)
theorem gga_k_lkt_scalingUnpol : UniformScalingUnpol 3 2 .gga gga_k_lkt := uniformScalingUnpol_of (cap := 1) (by decide +kernel)
theorem gga_k_llp_spinScaling : SpinScaling .gga gga_k_llp := spinScaling_of (cap := 4) (by decide +kernel)
theorem gga_k_llp_screenedBoth : ScreenedBoth .gga gga_k_llp := screenedBoth_of (cap := 1) (by decide +kernel)
theorem gga_k_llp_screenedOne : ScreenedOne .gga gga_k_llp := screenedOne_flip gga_k_llp_spinFlip (cap := 1) (by decide +kernel)
theorem gga_k_llp_screenedRest : ScreenedRest .gga gga_k_llp := screenedRest_flip gga_k_llp_spinFlip (cap := 4) (by decide +kernel)
theorem gga_k_llp_scaling : UniformScaling 3 2 .gga gga_k_llp := uniformScaling_of (cap := 1) (by decide +kernel)
theorem gga_k_llp_scalingUnpol : UniformScalingUnpol 3 2 .gga gga_k_llp := uniformScalingUnpol_of (cap := 1) (by decide +kernel)
theorem gga_k_meyer_spinScaling : SpinScaling .gga gga_k_meyer := spinScaling_of (cap := 4) (by decide +kernel)
theorem gga_k_meyer_screenedBoth : ScreenedBoth .gga gga_k_meyer := screenedBoth_of (cap := 1) (by decide +kernel)
theorem gga_k_meyer_screenedOne : ScreenedOne .gga gga_k_meyer := screenedOne_flip gga_k_meyer_spinFlip (cap := 1) (by decide +kernel)
theorem gga_k_meyer_screenedRest : ScreenedRest .gga gga_k_meyer := screenedRest_flip gga_k_meyer_spinFlip (cap := 4) (by decide +kernel)
theorem gga_k_meyer_scaling : UniformScaling 3 2 .gga gga_k_meyer := uniformScaling_of (cap := 1) (by decide +kernel)
theorem gga_k_meyer_scalingUnpol : UniformScalingUnpol 3 2 .gga gga_k_meyer := uniformScalingUnpol_of (cap := 1) (by decide +kernel)
theorem gga_k_mpbe_spinScaling : SpinScaling .gga gga_k_mpbe := spinScaling_of (cap := 4) (by decide +kernel)
theorem gga_k_mpbe_screenedBoth : ScreenedBoth .gga gga_k_mpbe := screenedBoth_of (cap := 1) (by decide +kernel)
theorem gga_k_mpbe_screenedOne : ScreenedOne .gga gga_k_mpbe := screenedOne_flip gga_k_mpbe_spinFlip (cap := 1) (by decide +kernel)
theorem gga_k_mpbe_screenedRest : ScreenedRest .gga gga_k_mpbe := screenedRest_flip gga_k_mpbe_spinFlip (cap := 4) (by decide +kernel)
theorem gga_k_mpbe_scaling : UniformScaling 3 2 .gga gga_k_mpbe := uniformScaling_of (cap := 1) (by decide +kernel)
theorem gga_k_mpbe_scalingUnpol : UniformScalingUnpol 3 2 .gga gga_k_mpbe := uniformScalingUnpol_of (cap := 1) (by decide +kernel)
theorem gga_k_ol1_spinScaling : SpinScaling .gga gga_k_ol1 := spinScaling_of (cap := 4) (by decide +kernel)
theorem gga_k_ol1_screenedBoth : ScreenedBoth .gga gga_k_ol1 := screenedBoth_of (cap := 1) (by decide +kernel)
theorem gga_k_ol1_screenedOne : ScreenedOne .gga gga_k_ol1 := screenedOne_flip gga_k_ol1_spinFlip (cap := 1) (by decide +kernel)
theorem gga_k_ol1_screenedRest : ScreenedRest .gga gga_k_ol1 := screenedRest_flip gga_k_ol1_spinFlip (cap := 4) (by decide +kernel)
theorem gga_k_ol1_scaling : UniformScaling 3 2 .gga gga_k_ol1 := uniformScaling_of (cap := 1) (by decide +kernel)
theorem gga_k_ol1_scalingUnpol : UniformScalingUnpol 3 2 .gga gga_k_ol1 := uniformScalingUnpol_of (cap := 1) (by decide +kernel)
theorem gga_k_ol2_spinScaling : SpinScaling .gga gga_k_ol2 := spinScaling_of (cap := 4) (by decide +kernel)
theorem gga_k_ol2_screenedBoth : ScreenedBoth .gga gga_k_ol2 := screenedBoth_of (cap := 1) (by decide +kernel)
theorem gga_k_ol2_screenedOne : ScreenedOne .gga gga_k_ol2 := screenedOne_flip gga_k_ol2_spinFlip (cap := 1) (by decide +kernel)
theorem gga_k_ol2_screenedRest : ScreenedRest .gga gga_k_ol2 := screenedRest_flip gga_k_ol2_spinFlip (cap := 4) (by decide +kernel)
theorem gga_k_ol2_scaling : UniformScaling 3 2 .gga gga_k_ol2 := uniformScaling_of (cap := 1) (by decide +kernel)
theorem gga_k_ol2_scalingUnpol : UniformScalingUnpol 3 2 .gga gga_k_ol2 := uniformScalingUnpol_of (cap := 1) (by decide +kernel)
theorem gga_k_pearson_spinScaling : SpinScaling .gga gga_k_pearson := spinScaling_of (cap := 4) (by decide +kernel)
theorem gga_k_pearson_screenedBoth : ScreenedBoth .gga gga_k_pearson := screenedBoth_of (cap := 1) (by decide +kernel)
theorem gga_k_pearson_screenedOne : ScreenedOne .gga gga_k_pearson := screenedOne_flip gga_k_pearson_spinFlip (cap := 1) (by decide +kernel)
theorem gga_k_pearson_screenedRest : ScreenedRest .gga gga_k_pearson := screenedRest_flip gga_k_pearson_spinFlip (cap := 4) (by decide +kernel)
theorem gga_k_pearson_scaling : UniformScaling 3 2 .gga gga_k_pearson := uniformScaling_of (cap := 1) (by decide +kernel)
theorem gga_k_pearson_scalingUnpol : UniformScalingUnpol 3 2 .gga gga_k_pearson := uniformScalingUnpol_of (cap := 1) (by decide +kernel)
theorem gga_k_pg_spinScaling : SpinScaling .gga gga_k_pg := spinScaling_of (cap := 4) (by decide +kernel)
theorem gga_k_pg_screenedBoth : ScreenedBoth .gga gga_k_pg := screenedBoth_of (cap := 1) (by decide +kernel)
theorem gga_k_pg_screenedOne : ScreenedOne .gga gga_k_pg := screenedOne_flip gga_k_pg_spinFlip (cap := 1) (by decide +kernel)
theorem gga_k_pg_screenedRest : ScreenedRest .gga gga_k_pg := screenedRest_flip gga_k_pg_spinFlip (cap := 4) (by decide +kernel)
theorem gga_k_pg_scaling : UniformScaling 3 2 .gga gga_k_pg := uniformScaling_of (cap := 1) (by decide +kernel)
theorem gga_k_pg_scalingUnpol : UniformScalingUnpol 3 2 .gga gga_k_pg := uniformScalingUnpol_of (cap := 1) (by decide +kernel)
theorem gga_k_pw86_spinScaling : SpinScaling .gga gga_k_pw86 := spinScaling_of (cap := 4) (by decide +kernel)
theorem gga_k_pw86_screenedBoth : ScreenedBoth .gga gga_k_pw86 := screenedBoth_of (cap := 1) (by decide +kernel)
theorem gga_k_pw86_screenedOne : ScreenedOne .gga gga_k_pw86 := screenedOne_flip gga_k_pw86_spinFlip (cap := 1) (by decide +kernel)
theorem gga_k_pw86_screenedRest : ScreenedRest .gga gga_k_pw86 := screenedRest_flip gga_k_pw86_spinFlip (cap := 4) (by decide +kernel)
theorem gga_k_pw86_scaling : UniformScaling 3 2 .gga gga_k_pw86 := uniformScaling_of (cap := 1) (by decide +kernel)
theorem gga_k_pw86_scalingUnpol : UniformScalingUnpol 3 2 .gga gga_k_pw86 := uniformScalingUnpol_of (cap := 1) (by decide +kernel)
theorem gga_k_rational_p_spinScaling : SpinScaling .gga gga_k_rational_p := spinScaling_of (cap := 4) (by decide +kernel)
theorem gga_k_rational_p_screenedBoth : ScreenedBoth .gga gga_k_rational_p := screenedBoth_of (cap := 1) (by decide +kernel)
theorem gga_k_rational_p_screenedOne : ScreenedOne .gga gga_k_rational_p := screenedOne_flip gga_k_rational_p_spinFlip (cap := 1) (by decide +kernel)
theorem gga_k_rational_p_screenedRest : ScreenedRest .gga gga_k_rational_p := screenedRest_flip gga_k_rational_p_spinFlip (cap := 4) (by decide +kernel)
theorem gga_k_rational_p_scaling : UniformScaling 3 2 .gga gga_k_rational_p := uniformScaling_of (cap := 1) (by decide +kernel)
theorem gga_k_rational_p_scalingUnpol : UniformScalingUnpol 3 2 .gga gga_k_rational_p := uniformScalingUnpol_of (cap := 1) (by decide +kernel)
theorem gga_k_tflw_spinScaling : SpinScaling .gga gga_k_tflw := spinScaling_of (cap := 4) (by decide +kernel)
theorem gga_k_tflw_screenedBoth : ScreenedBoth .gga gga_k_tflw := screenedBoth_of (cap := 1) (by decide +kernel)
theorem gga_k_tflw_screenedOne : ScreenedOne .gga gga_k_tflw := screenedOne_flip gga_k_tflw_spinFlip (cap := 1) (by decide +kernel)
theorem gga_k_tflw_screenedRest : ScreenedRest .gga gga_k_tflw := screenedRest_flip gga_k_tflw_spinFlip (cap := 4) (by decide +kernel)
theorem gga_k_tflw_scaling : UniformScaling 3 2 .gga gga_k_tflw := uniformScaling_of (cap := 1) (by decide +kernel)
theorem gga_k_tflw_scalingUnpol : UniformScalingUnpol 3 2 .gga gga_k_tflw := uniformScalingUnpol_of (cap := 1) (by decide +kernel)
theorem gga_k_thakkar_spinScaling : SpinScaling .gga gga_k_thakkar := spinScaling_of (cap := 4) (by decide +kernel)
theorem gga_k_thakkar_screenedBoth : ScreenedBoth .gga gga_k_thakkar := screenedBoth_of (cap := 1) (by decide +kernel)
theorem gga_k_thakkar_screenedOne : ScreenedOne .gga gga_k_thakkar := screenedOne_flip gga_k_thakkar_spinFlip (cap := 1) (by decide +kernel)
theorem gga_k_thakkar_screenedRest : ScreenedRest .gga gga_k_thakkar := screenedRest_flip gga_k_thakkar_spinFlip (cap := 4) (by decide +kernel)
theorem gga_k_thakkar_scaling : UniformScaling 3 2 .gga gga_k_thakkar := uniformScaling_of (cap := 1) (by decide +kernel)
theorem gga_k_thakkar_scalingUnpol : UniformScalingUnpol 3 2 .gga gga_k_thakkar := uniformScalingUnpol_of (cap := 1) (by decide +kernel)

end Verif.Props

namespace Verif.Props
open Verif.Model Verif.Spec Verif.Norm Verif.Data

set_option maxRecDepth 100000
set_option Elab.async false

theorem gga_k_vt84f_spinScaling : SpinScaling .gga gga_k_vt84f := spinScaling_of (cap := 4) (by decide +kernel)
theorem gga_k_vt84f_screenedBoth : ScreenedBoth .gga gga_k_vt84f := screenedBoth_of (cap := 1) (by decide +kernel)
theorem gga_k_vt84f_screenedOne : ScreenedOne .gga gga_k_vt84f := screenedOne_flip gga_k_vt84f_spinFlip (cap := 1) (by decide +kernel)
theorem gga_k_vt84f_screenedRest : ScreenedRest .gga gga_k_vt84f := screenedRest_flip gga_k_vt84f_spinFlip (cap := 4) (by decide +kernel)
theorem gga_k_vt84f_scaling : UniformScaling 3 2 .gga gga_k_vt84f := uniformScaling_of (cap := 1) (by decide +kernel)
theorem gga_k_vt84f_scalingUnpol : UniformScalingUnpol 3 2 .gga gga_k_vt84f := uniformScalingUnpol_of (cap := 1) (by decide +kernel)
theorem gga_x_2d_b86_spinScaling : SpinScaling .gga gga_x_2d_b86 := spinScaling_of (cap := 4) (by decide +kernel)
theorem gga_x_2d_b86_screenedBoth : ScreenedBoth .gga gga_x_2d_b86 := screenedBoth_of (cap := 1) (by decide +kernel)
theorem gga_x_2d_b86_screenedOne : ScreenedOne .gga gga_x_2d_b86 := screenedOne_flip gga_x_2d_b86_spinFlip (cap := 1) (by decide +kernel)
theorem gga_x_2d_b86_screenedRest : ScreenedRest .gga gga_x_2d_b86 := screenedRest_flip gga_x_2d_b86_spinFlip (cap := 4) (by decide +kernel)
theorem gga_x_2d_b86_scaling : UniformScaling 2 1 .gga gga_x_2d_b86 := uniformScaling_of (cap := 1) (by decide +kernel)
theorem gga_x_2d_b86_scalingUnpol : UniformScalingUnpol 2 1 .gga gga_x_2d_b86 := uniformScalingUnpol_of (cap := 1) (by decide +kernel)
theorem gga_x_2d_b86_mgc_spinScaling : SpinScaling .gga gga_x_2d_b86_mgc := spinScaling_of (cap := 4) (by decide +kernel)
theorem gga_x_2d_b86_mgc_screenedBoth : ScreenedBoth .gga gga_x_2d_b86_mgc := screenedBoth_of (cap := 1) (by decide +kernel)
theorem gga_x_2d_b86_mgc_screenedOne : ScreenedOne .gga gga_x_2d_b86_mgc := screenedOne_flip gga_x_2d_b86_mgc_spinFlip (cap := 1) (by decide +kernel)
theorem gga_x_2d_b86_mgc_screenedRest : ScreenedRest .gga gga_x_2d_b86_mgc := screenedRest_flip gga_x_2d_b86_mgc_spinFlip (cap := 4) (by decide +kernel)
theorem gga_x_2d_b86_mgc_scaling : UniformScaling 2 1 .gga gga_x_2d_b86_mgc := uniformScaling_of (cap := 1) (by decide +kernel)
theorem gga_x_2d_b86_mgc_scalingUnpol : UniformScalingUnpol 2 1 .gga gga_x_2d_b86_mgc := uniformScalingUnpol_of (cap := 1) (by decide +kernel)
theorem gga_x_2d_b88_spinScaling : SpinScaling .gga gga_x_2d_b88 := spinScaling_of (cap := 4) (by decide +kernel)
theorem gga_x_2d_b88_screenedBoth : ScreenedBoth .gga gga_x_2d_b88 := screenedBoth_of (cap := 1) (by decide +kernel)
theorem gga_x_2d_b88_screenedOne : ScreenedOne .gga gga_x_2d_b88 := screenedOne_flip gga_x_2d_b88_spinFlip (cap := 1) (by decide +kernel)
theorem gga_x_2d_b88_screenedRest : ScreenedRest .gga gga_x_2d_b88 := screenedRest_flip gga_x_2d_b88_spinFlip (cap := 4) (by decide +kernel)
theorem gga_x_2d_b88_scaling : UniformScaling 2 1 .gga gga_x_2d_b88 := uniformScaling_of (cap := 1) (by decide +kernel)
theorem gga_x_2d_b88_scalingUnpol : UniformScalingUnpol 2 1 .gga gga_x_2d_b88 := uniformScalingUnpol_of (cap := 1) (by decide +kernel)
theorem gga_x_2d_pbe_spinScaling : SpinScaling .gga gga_x_2d_pbe := spinScaling_of (cap := 4) (by decide +kernel)
theorem gga_x_2d_pbe_screenedBoth : ScreenedBoth .gga gga_x_2d_pbe := screenedBoth_of (cap := 1) (by decide +kernel)
theorem gga_x_2d_pbe_screenedOne : ScreenedOne .gga gga_x_2d_pbe := screenedOne_flip gga_x_2d_pbe_spinFlip (cap := 1) (by decide +kernel)
theorem gga_x_2d_pbe_screenedRest : ScreenedRest .gga gga_x_2d_pbe := screenedRest_flip gga_x_2d_pbe_spinFlip (cap := 4) (by decide +kernel)
theorem gga_x_2d_pbe_scaling : UniformScaling 2 1 .gga gga_x_2d_pbe := uniformScaling_of (cap := 1) (by decide +kernel)
theorem gga_x_2d_pbe_scalingUnpol : UniformScalingUnpol 2 1 .gga gga_x_2d_pbe := uniformScalingUnpol_of (cap := 1) (by decide +kernel)
theorem gga_x_airy_spinScaling : SpinScaling .gga gga_x_airy := spinScaling_of (cap := 4) (by decide +kernel)
theorem gga_x_airy_screenedBoth : ScreenedBoth .gga gga_x_airy := screenedBoth_of (cap := 1) (by decide +kernel)
theorem gga_x_airy_screenedOne : ScreenedOne .gga gga_x_airy := screenedOne_flip gga_x_airy_spinFlip (cap := 1) (by decide +kernel)
theorem gga_x_airy_screenedRest : ScreenedRest .gga gga_x_airy := screenedRest_flip gga_x_airy_spinFlip (cap := 4) (by decide +kernel)
theorem gga_x_airy_scaling : UniformScaling 3 1 .gga gga_x_airy := uniformScaling_of (cap := 1) (by decide +kernel)
theorem gga_x_airy_scalingUnpol : UniformScalingUnpol 3 1 .gga gga_x_airy := uniformScalingUnpol_of (cap := 1) (by decide +kernel)
theorem gga_x_ak13_spinScaling : SpinScaling .gga gga_x_ak13 := spinScaling_of (cap := 4) (by decide +kernel)
theorem gga_x_ak13_screenedBoth : ScreenedBoth .gga gga_x_ak13 := screenedBoth_of (cap := 1) (by decide +kernel)
theorem gga_x_ak13_screenedOne : ScreenedOne .gga gga_x_ak13 := screenedOne_flip gga_x_ak13_spinFlip (cap := 1) (by decide +kernel)
theorem gga_x_ak13_screenedRest : ScreenedRest .gga gga_x_ak13 := screenedRest_flip gga_x_ak13_spinFlip (cap := 4) (by decide +kernel)
theorem gga_x_ak13_scaling : UniformScaling 3 1 .gga gga_x_ak13 := uniformScaling_of (cap := 1) (by decide +kernel)
theorem gga_x_ak13_scalingUnpol : UniformScalingUnpol 3 1 .gga gga_x_ak13 := uniformScalingUnpol_of (cap := 1) (by decide +kernel)
theorem gga_x_am05_spinScaling : SpinScaling .gga gga_x_am05 := spinScaling_of (cap := 4) (by decide +kernel)
theorem gga_x_am05_screenedBoth : ScreenedBoth .gga gga_x_am05 := screenedBoth_of (cap := 1) (by decide +kernel)
theorem gga_x_am05_screenedOne : ScreenedOne .gga gga_x_am05 := screenedOne_flip gga_x_am05_spinFlip (cap := 1) (by decide +kernel)
theorem gga_x_am05_screenedRest : ScreenedRest .gga gga_x_am05 := screenedRest_flip gga_x_am05_spinFlip (cap := 4) (by decide +kernel)
theorem gga_x_am05_scaling : UniformScaling 3 1 .gga gga_x_am05 := uniformScaling_of (cap := 1) (by decide +kernel)
theorem gga_x_am05_scalingUnpol : UniformScalingUnpol 3 1 .gga gga_x_am05 := uniformScalingUnpol_of (cap := 1) (by decide +kernel)
theorem gga_x_b86_spinScaling : SpinScaling .gga gga_x_b86 := spinScaling_of (cap := 4) (by decide +kernel)
theorem gga_x_b86_screenedBoth : ScreenedBoth .gga gga_x_b86 := screenedBoth_of (cap := 1) (by decide +kernel)
theorem gga_x_b86_screenedOne : ScreenedOne .gga gga_x_b86 := screenedOne_flip gga_x_b86_spinFlip (cap := 1) (by decide +kernel)
theorem gga_x_b86_screenedRest : ScreenedRest .gga gga_x_b86 := screenedRest_flip gga_x_b86_spinFlip (cap := 4) (by decide +kernel)
theorem gga_x_b86_scaling : UniformScaling 3 1 .gga gga_x_b86 := uniformScaling_of (cap := 1) (by decide +kernel)
theorem gga_x_b86_scalingUnpol : UniformScalingUnpol 3 1 .gga gga_x_b86 := uniformScalingUnpol_of (cap := 1) (by decide +kernel)
theorem gga_x_b88_spinScaling : SpinScaling .gga gga_x_b88 := spinScaling_of (cap := 4) (by decide +kernel)
theorem gga_x_b88_screenedBoth : ScreenedBoth .gga gga_x_b88 := screenedBoth_of (cap := 1) (by decide +kernel)
theorem gga_x_b88_screenedOne : ScreenedOne .gga gga_x_b88 := screenedOne_flip gga_x_b88_spinFlip (cap := 1) (by decide +kernel)
theorem gga_x_b88_screenedRest : ScreenedRest .gga gga_x_b88 := screenedRest_flip gga_x_b88_spinFlip (cap := 4) (by decide +kernel)
theorem gga_x_b88_scaling : UniformScaling 3 1 .gga gga_x_b88 := uniformScaling_of (cap := 1) (by decide +kernel)
theorem gga_x_b88_scalingUnpol : UniformScalingUnpol 3 1 .gga gga_x_b88 := uniformScalingUnpol_of (cap := 1) (by decide +kernel)
theorem gga_x_bayesian_spinScaling : SpinScaling .gga gga_x_bayesian := spinScaling_of (cap := 4) (by decide +kernel)
theorem gga_x_bayesian_screenedBoth : ScreenedBoth .gga gga_x_bayesian := screenedBoth_of (cap := 1) (by decide +kernel)
theorem gga_x_bayesian_screenedOne : ScreenedOne .gga gga_x_bayesian := screenedOne_flip gga_x_bayesian_spinFlip (cap := 1) (by decide +kernel)
theorem gga_x_bayesian_screenedRest : ScreenedRest .gga gga_x_bayesian := screenedRest_flip gga_x_bayesian_spinFlip (cap := 4) (by decide +kernel)
theorem gga_x_bayesian_scaling : UniformScaling 3 1 .gga gga_x_bayesian := uniformScaling_of (cap := 1) (by decide +kernel)
theorem gga_x_bayesian_scalingUnpol : UniformScalingUnpol 3 1 .gga gga_x_bayesian := uniformScalingUnpol_of (cap := 1) (by decide +kernel)
theorem gga_x_beefvdw_spinScaling : SpinScaling .gga gga_x_beefvdw := spinScaling_of (cap := 4) (by decide +kernel)
theorem gga_x_beefvdw_screenedBoth : ScreenedBoth .gga gga_x_beefvdw := screenedBoth_of (cap := 1) (by decide +kernel)
theorem gga_x_beefvdw_screenedOne : ScreenedOne .gga gga_x_beefvdw := screenedOne_flip gga_x_beefvdw_spinFlip (cap := 1) (by decide +kernel)
theorem gga_x_beefvdw_screenedRest : ScreenedRest .gga gga_x_beefvdw := screenedRest_flip gga_x_beefvdw_spinFlip (cap := 4) (by decide +kernel)
theorem gga_x_beefvdw_scaling : UniformScaling 3 1 .gga gga_x_beefvdw := uniformScaling_of (cap := 1) (by decide +kernel)
theorem gga_x_beefvdw_scalingUnpol : UniformScalingUnpol 3 1 .gga gga_x_beefvdw := uniformScalingUnpol_of (cap := 1) (by decide +kernel)
theorem gga_x_bpccac_screenedBoth : ScreenedBoth .gga gga_x_bpccac := screenedBoth_of (cap := 1) (by decide +kernel)
theorem gga_x_bpccac_screenedOne : ScreenedOne .gga gga_x_bpccac := screenedOne_flip gga_x_bpccac_spinFlip (cap := 1) (by decide +kernel)
theorem gga_x_bpccac_scaling : UniformScaling 3 1 .gga gga_x_bpccac := uniformScaling_of (cap := 1) (by decide +kernel)
theorem gga_x_bpccac_scalingUnpol : UniformScalingUnpol 3 1 .gga gga_x_bpccac := uniformScalingUnpol_of (cap := 1) (by decide +kernel)
theorem gga_x_c09x_spinScaling : SpinScaling .gga gga_x_c09x := spinScaling_of (cap := 4) (by decide +kernel)
theorem gga_x_c09x_screenedBoth : ScreenedBoth .gga gga_x_c09x := screenedBoth_of (cap := 1) (by decide +kernel)
theorem gga_x_c09x_screenedOne : ScreenedOne .gga gga_x_c09x := screenedOne_flip gga_x_c09x_spinFlip (cap := 1) (by decide +kernel)
theorem gga_x_c09x_screenedRest : ScreenedRest .gga gga_x_c09x := screenedRest_flip gga_x_c09x_spinFlip (cap := 4) (by decide +kernel)
theorem gga_x_c09x_scaling : UniformScaling 3 1 .gga gga_x_c09x := uniformScaling_of (cap := 1) (by decide +kernel)
theorem gga_x_c09x_scalingUnpol : UniformScalingUnpol 3 1 .gga gga_x_c09x := uniformScalingUnpol_of (cap := 1) (by decide +kernel)
theorem gga_x_cap_spinScaling : SpinScaling .gga gga_x_cap := spinScaling_of (cap := 4) (by decide +kernel)
theorem gga_x_cap_screenedBoth : ScreenedBoth .gga gga_x_cap := screenedBoth_of (cap := 1) (by decide +kernel)
theorem gga_x_cap_screenedOne : ScreenedOne .gga gga_x_cap := screenedOne_flip gga_x_cap_spinFlip (cap := 1) (by decide +kernel)
theorem gga_x_cap_screenedRest : ScreenedRest .gga gga_x_cap := screenedRest_flip gga_x_cap_spinFlip (cap := 4) (by decide +kernel)
theorem gga_x_cap_scaling : UniformScaling 3 1 .gga gga_x_cap := uniformScaling_of (cap := 1) (by decide +kernel)
theorem gga_x_cap_scalingUnpol : UniformScalingUnpol 3 1 .gga gga_x_cap := uniformScalingUnpol_of (cap := 1) (by decide +kernel)
theorem gga_x_chachiyo_spinScaling : SpinScaling .gga gga_x_chachiyo := spinScaling_of (cap := 4) (by decide +kernel)
theorem gga_x_chachiyo_screenedBoth : ScreenedBoth .gga gga_x_chachiyo := screenedBoth_of (cap := 1) (by decide +kernel)
theorem gga_x_chachiyo_screenedOne : ScreenedOne .gga gga_x_chachiyo := screenedOne_flip gga_x_chachiyo_spinFlip (cap := 1) (by decide +kernel)
theorem gga_x_chachiyo_screenedRest : ScreenedRest .gga gga_x_chachiyo := screenedRest_flip gga_x_chachiyo_spinFlip (cap := 4) (by decide +kernel)
theorem gga_x_chachiyo_scaling : UniformScaling 3 1 .gga gga_x_chachiyo := uniformScaling_of (cap := 1) (by decide +kernel)
theorem gga_x_chachiyo_scalingUnpol : UniformScalingUnpol 3 1 .gga gga_x_chachiyo := uniformScalingUnpol_of (cap := 1) (by decide +kernel)
theorem gga_x_dk87_spinScaling : SpinScaling .gga gga_x_dk87 := spinScaling_of (cap := 4) (by decide +kernel)
theorem gga_x_dk87_screenedBoth : ScreenedBoth .gga gga_x_dk87 := screenedBoth_of (cap := 1) (by decide +kernel)
theorem gga_x_dk87_screenedOne : ScreenedOne .gga gga_x_dk87 := screenedOne_flip gga_x_dk87_spinFlip (cap := 1) (by decide +kernel)
theorem gga_x_dk87_screenedRest : ScreenedRest .gga gga_x_dk87 := screenedRest_flip gga_x_dk87_spinFlip (cap := 4) (by decide +kernel)
theorem gga_x_dk87_scaling : UniformScaling 3 1 .gga gga_x_dk87 := uniformScaling_of (cap := 1) (by decide +kernel)
theorem gga_x_dk87_scalingUnpol : UniformScalingUnpol 3 1 .gga gga_x_dk87 := uniformScalingUnpol_of (cap := 1) (by decide +kernel)
theorem gga_x_ev93_spinScaling : SpinScaling .gga gga_x_ev93 := spinScaling_of (cap := 4) (by decide +kernel)
theorem gga_x_ev93_screenedBoth : ScreenedBoth .gga gga_x_ev93 := screenedBoth_of (cap := 1) (by decide +kernel)
theorem gga_x_ev93_screenedOne : ScreenedOne .gga gga_x_ev93 := screenedOne_flip gga_x_ev93_spinFlip (cap := 1) (by decide +kernel)
theorem gga_x_ev93_screenedRest : ScreenedRest .gga gga_x_ev93 := screenedRest_flip gga_x_ev93_spinFlip (cap := 4) (by decide +kernel)
theorem gga_x_ev93_scaling : UniformScaling 3 1 .gga gga_x_ev93 := uniformScaling_of (cap := 1) (by decide +kernel)
theorem gga_x_ev93_scalingUnpol : UniformScalingUnpol 3 1 .gga gga_x_ev93 := uniformScalingUnpol_of (cap := 1) (by decide +kernel)
theorem gga_x_ft97_spinScaling : SpinScaling .gga gga_x_ft97 := spinScaling_of (cap := 4) (by decide +kernel)
theorem gga_x_ft97_screenedBoth : ScreenedBoth .gga gga_x_ft97 := screenedBoth_of (cap := 1) (by decide +kernel)
theorem gga_x_ft97_screenedOne : ScreenedOne .gga gga_x_ft97 := screenedOne_flip gga_x_ft97_spinFlip (cap := 1) (by decide +kernel)
theorem gga_x_ft97_screenedRest : ScreenedRest .gga gga_x_ft97 := screenedRest_flip gga_x_ft97_spinFlip (cap := 4) (by decide +kernel)
theorem gga_x_g96_spinScaling : SpinScaling .gga gga_x_g96 := spinScaling_of (cap := 4) (by decide +kernel)
theorem gga_x_g96_screenedBoth : ScreenedBoth .gga gga_x_g96 := screenedBoth_of (cap := 1) (by decide +kernel)
theorem gga_x_g96_screenedOne : ScreenedOne .gga gga_x_g96 := screenedOne_flip gga_x_g96_spinFlip (cap := 1) (by decide +kernel)
theorem gga_x_g96_screenedRest : ScreenedRest .gga gga_x_g96 := screenedRest_flip gga_x_g96_spinFlip (cap := 4) (by decide +kernel)
theorem gga_x_g96_scaling : UniformScaling 3 1 .gga gga_x_g96 := uniformScaling_of (cap := 1) (by decide +kernel)
theorem gga_x_g96_scalingUnpol : UniformScalingUnpol 3 1 .gga gga_x_g96 := uniformScalingUnpol_of (cap := 1) (by decide +kernel)
theorem gga_x_hcth_a_spinScaling : SpinScaling .gga gga_x_hcth_a := spinScaling_of (cap := 4) (by decide +kernel)
theorem gga_x_hcth_a_screenedBoth : ScreenedBoth .gga gga_x_hcth_a := screenedBoth_of (cap := 1) (by decide +kernel)
theorem gga_x_hcth_a_screenedOne : ScreenedOne .gga gga_x_hcth_a := screenedOne_flip gga_x_hcth_a_spinFlip (cap := 1) (by decide +kernel)
theorem gga_x_hcth_a_screenedRest : ScreenedRest .gga gga_x_hcth_a := screenedRest_flip gga_x_hcth_a_spinFlip (cap := 4) (by decide +kernel)
theorem gga_x_hcth_a_scaling : UniformScaling 3 1 .gga gga_x_hcth_a := uniformScaling_of (cap := 1) (by decide +kernel)
theorem gga_x_hcth_a_scalingUnpol : UniformScalingUnpol 3 1 .gga gga_x_hcth_a := uniformScalingUnpol_of (cap := 1) (by decide +kernel)
theorem gga_x_herman_spinScaling : SpinScaling .gga gga_x_herman := spinScaling_of (cap := 4) (by decide +kernel)
theorem gga_x_herman_screenedBoth : ScreenedBoth .gga gga_x_herman := screenedBoth_of (cap := 1) (by decide +kernel)
theorem gga_x_herman_screenedOne : ScreenedOne .gga gga_x_herman := screenedOne_flip gga_x_herman_spinFlip (cap := 1) (by decide +kernel)
theorem gga_x_herman_screenedRest : ScreenedRest .gga gga_x_herman := screenedRest_flip gga_x_herman_spinFlip (cap := 4) (by decide +kernel)
theorem gga_x_herman_scaling : UniformScaling 3 1 .gga gga_x_herman := uniformScaling_of (cap := 1) (by decide +kernel)
theorem gga_x_herman_scalingUnpol : UniformScalingUnpol 3 1 .gga gga_x_herman := uniformScalingUnpol_of (cap := 1) (by decide +kernel)
theorem gga_x_hjs_spinScaling : SpinScaling .gga gga_x_hjs := spinScaling_of (cap := 4) (by decide +kernel)
theorem gga_x_hjs_screenedBoth : ScreenedBoth .gga gga_x_hjs := screenedBoth_of (cap := 1) (by decide +kernel)
theorem gga_x_hjs_screenedOne : ScreenedOne .gga gga_x_hjs := screenedOne_flip gga_x_hjs_spinFlip (cap := 1) (by decide +kernel)
theorem gga_x_hjs_screenedRest : ScreenedRest .gga gga_x_hjs := screenedRest_flip gga_x_hjs_spinFlip (cap := 4) (by decide +kernel)

end Verif.Props
