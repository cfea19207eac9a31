import Verif.Props.SpinFlip3
import Verif.Norm.Check2
import Verif.Data.F09
/-!
# C37, C38 and C42 for shipped formulas
-/
namespace Verif.Props
open Verif.Model Verif.Spec Verif.Norm Verif.Data

set_option maxRecDepth 100000
set_option Elab.async false

theorem lda_k_gds08_worker_spinScaling : SpinScaling .lda lda_k_gds08_worker := spinScaling_of (cap := 4) (by decide +kernel)
theorem lda_k_gds08_worker_screenedBoth : ScreenedBoth .lda lda_k_gds08_worker := screenedBoth_of (cap := 1) (by decide +kernel)
theorem lda_k_gds08_worker_screenedOne : ScreenedOne .lda lda_k_gds08_worker := screenedOne_flip lda_k_gds08_worker_spinFlip (cap := 1) (by decide +kernel)
theorem lda_k_gds08_worker_screenedRest : ScreenedRest .lda lda_k_gds08_worker := screenedRest_flip lda_k_gds08_worker_spinFlip (cap := 4) (by decide +kernel)
theorem lda_k_tf_spinScaling : SpinScaling .lda lda_k_tf := spinScaling_of (cap := 4) (by decide +kernel)
theorem lda_k_tf_screenedOne : ScreenedOne .lda lda_k_tf := screenedOne_flip lda_k_tf_spinFlip (cap := 1) (by decide +kernel)
theorem lda_k_tf_scaling : UniformScaling 3 2 .lda lda_k_tf := uniformScaling_of (cap := 1) (by decide +kernel)
theorem lda_k_tf_scalingUnpol : UniformScalingUnpol 3 2 .lda lda_k_tf := uniformScalingUnpol_of (cap := 1) (by decide +kernel)
theorem lda_k_zlp_screenedOne : ScreenedOne .lda lda_k_zlp := screenedOne_flip lda_k_zlp_spinFlip (cap := 1) (by decide +kernel)
theorem lda_x_spinScaling : SpinScaling .lda lda_x := spinScaling_of (cap := 1) (by decide +kernel)
theorem lda_x_screenedBoth : ScreenedBoth .lda lda_x := screenedBoth_of (cap := 1) (by decide +kernel)
theorem lda_x_screenedOne : ScreenedOne .lda lda_x := screenedOne_flip lda_x_spinFlip (cap := 1) (by decide +kernel)
theorem lda_x_screenedRest : ScreenedRest .lda lda_x := screenedRest_flip lda_x_spinFlip (cap := 1) (by decide +kernel)
theorem lda_x_scaling : UniformScaling 3 1 .lda lda_x := uniformScaling_of (cap := 1) (by decide +kernel)
theorem lda_x_scalingUnpol : UniformScalingUnpol 3 1 .lda lda_x := uniformScalingUnpol_of (cap := 1) (by decide +kernel)
theorem lda_x_2d_spinScaling : SpinScaling .lda lda_x_2d := spinScaling_of (cap := 4) (by decide +kernel)
theorem lda_x_2d_screenedOne : ScreenedOne .lda lda_x_2d := screenedOne_flip lda_x_2d_spinFlip (cap := 1) (by decide +kernel)
theorem lda_x_2d_scaling : UniformScaling 2 1 .lda lda_x_2d := uniformScaling_of (cap := 1) (by decide +kernel)
theorem lda_x_2d_scalingUnpol : UniformScalingUnpol 2 1 .lda lda_x_2d := uniformScalingUnpol_of (cap := 1) (by decide +kernel)
theorem lda_x_erf_spinScaling : SpinScaling .lda lda_x_erf := spinScaling_of (cap := 4) (by decide +kernel)
theorem lda_x_erf_screenedOne : ScreenedOne .lda lda_x_erf := screenedOne_flip lda_x_erf_spinFlip (cap := 1) (by decide +kernel)
theorem lda_x_rel_screenedBoth : ScreenedBoth .lda lda_x_rel := screenedBoth_of (cap := 1) (by decide +kernel)
theorem lda_x_rel_screenedOne : ScreenedOne .lda lda_x_rel := screenedOne_flip lda_x_rel_spinFlip (cap := 1) (by decide +kernel)
theorem lda_x_sloc_screenedOne : ScreenedOne .lda lda_x_sloc := screenedOne_flip lda_x_sloc_spinFlip (cap := 1) (by decide +kernel)
theorem lda_x_yukawa_spinScaling : SpinScaling .lda lda_x_yukawa := spinScaling_of (cap := 4) (by decide +kernel)
theorem lda_x_yukawa_screenedOne : ScreenedOne .lda lda_x_yukawa := screenedOne_flip lda_x_yukawa_spinFlip (cap := 1) (by decide +kernel)
theorem mgga_c_b88_screenedBoth : ScreenedBoth .mgga mgga_c_b88 := screenedBoth_of (cap := 1) (by decide +kernel)
theorem mgga_c_b88_screenedOne : ScreenedOne .mgga mgga_c_b88 := screenedOne_flip mgga_c_b88_spinFlip (cap := 1) (by decide +kernel)

end Verif.Props

namespace Verif.Props
open Verif.Model Verif.Spec Verif.Norm Verif.Data

set_option maxRecDepth 100000
set_option Elab.async false


end Verif.Props

namespace Verif.Props
open Verif.Model Verif.Spec Verif.Norm Verif.Data

set_option maxRecDepth 100000
set_option Elab.async false


end Verif.Props

namespace Verif.Props
open Verif.Model Verif.Spec Verif.Norm Verif.Data

set_option maxRecDepth 100000
set_option Elab.async false

theorem mgga_k_csk_spinScaling : SpinScaling .mgga mgga_k_csk := spinScaling_of (cap := 4) (by decide +kernel)
theorem mgga_k_csk_screenedBoth : ScreenedBoth .mgga mgga_k_csk := screenedBoth_of (cap := 1) (by decide +kernel)
theorem mgga_k_csk_screenedOne : ScreenedOne .mgga mgga_k_csk := screenedOne_flip mgga_k_csk_spinFlip (cap := 1) (by decide +kernel)
theorem mgga_k_csk_screenedRest : ScreenedRest .mgga mgga_k_csk := screenedRest_flip mgga_k_csk_spinFlip (cap := 4) (by decide +kernel)
theorem mgga_k_csk_scaling : UniformScaling 3 2 .mgga mgga_k_csk := uniformScaling_of (cap := 1) (by decide +kernel)
theorem mgga_k_csk_scalingUnpol : UniformScalingUnpol 3 2 .mgga mgga_k_csk := uniformScalingUnpol_of (cap := 1) (by decide +kernel)
theorem mgga_k_csk_loc_spinScaling : SpinScaling .mgga mgga_k_csk_loc := spinScaling_of (cap := 4) (by decide +kernel)
theorem mgga_k_csk_loc_screenedBoth : ScreenedBoth .mgga mgga_k_csk_loc := screenedBoth_of (cap := 1) (by decide +kernel)
theorem mgga_k_csk_loc_screenedOne : ScreenedOne .mgga mgga_k_csk_loc := screenedOne_flip mgga_k_csk_loc_spinFlip (cap := 1) (by decide +kernel)
theorem mgga_k_csk_loc_screenedRest : ScreenedRest .mgga mgga_k_csk_loc := screenedRest_flip mgga_k_csk_loc_spinFlip (cap := 4) (by decide +kernel)
theorem mgga_k_csk_loc_scaling : UniformScaling 3 2 .mgga mgga_k_csk_loc := uniformScaling_of (cap := 1) (by decide +kernel)
theorem mgga_k_csk_loc_scalingUnpol : UniformScalingUnpol 3 2 .mgga mgga_k_csk_loc := uniformScalingUnpol_of (cap := 1) (by decide +kernel)
theorem mgga_k_gea2_spinScaling : SpinScaling .mgga mgga_k_gea2 := spinScaling_of (cap := 4) (by decide +kernel)
theorem mgga_k_gea2_screenedBoth : ScreenedBoth .mgga mgga_k_gea2 := screenedBoth_of (cap := 1) (by decide +kernel)
theorem mgga_k_gea2_screenedOne : ScreenedOne .mgga mgga_k_gea2 := screenedOne_flip mgga_k_gea2_spinFlip (cap := 1) (by decide +kernel)
theorem mgga_k_gea2_screenedRest : ScreenedRest .mgga mgga_k_gea2 := screenedRest_flip mgga_k_gea2_spinFlip (cap := 4) (by decide +kernel)
theorem mgga_k_gea2_scaling : UniformScaling 3 2 .mgga mgga_k_gea2 := uniformScaling_of (cap := 1) (by decide +kernel)
theorem mgga_k_gea2_scalingUnpol : UniformScalingUnpol 3 2 .mgga mgga_k_gea2 := uniformScalingUnpol_of (cap := 1) (by decide +kernel)
theorem mgga_k_gea4_spinScaling : SpinScaling .mgga mgga_k_gea4 := spinScaling_of (cap := 4) (by decide +kernel)
theorem mgga_k_gea4_screenedBoth : ScreenedBoth .mgga mgga_k_gea4 := screenedBoth_of (cap := 1) (by decide +kernel)
theorem mgga_k_gea4_screenedOne : ScreenedOne .mgga mgga_k_gea4 := screenedOne_flip mgga_k_gea4_spinFlip (cap := 1) (by decide +kernel)
theorem mgga_k_gea4_screenedRest : ScreenedRest .mgga mgga_k_gea4 := screenedRest_flip mgga_k_gea4_spinFlip (cap := 4) (by decide +kernel)
theorem mgga_k_gea4_scaling : UniformScaling 3 2 .mgga mgga_k_gea4 := uniformScaling_of (cap := 1) (by decide +kernel)
theorem mgga_k_gea4_scalingUnpol : UniformScalingUnpol 3 2 .mgga mgga_k_gea4 := uniformScalingUnpol_of (cap := 1) (by decide +kernel)
theorem mgga_k_lk_spinScaling : SpinScaling .mgga mgga_k_lk := spinScaling_of (cap := 4) (by decide +kernel)
theorem mgga_k_lk_screenedBoth : ScreenedBoth .mgga mgga_k_lk := screenedBoth_of (cap := 1) (by decide +kernel)
theorem mgga_k_lk_screenedOne : ScreenedOne .mgga mgga_k_lk := screenedOne_flip mgga_k_lk_spinFlip (cap := 1) (by decide +kernel)
theorem mgga_k_lk_screenedRest : ScreenedRest .mgga mgga_k_lk := screenedRest_flip mgga_k_lk_spinFlip (cap := 4) (by decide +kernel)
theorem mgga_k_lk_scaling : UniformScaling 3 2 .mgga mgga_k_lk := uniformScaling_of (cap := 1) (by decide +kernel)
theorem mgga_k_lk_scalingUnpol : UniformScalingUnpol 3 2 .mgga mgga_k_lk := uniformScalingUnpol_of (cap := 1) (by decide +kernel)
theorem mgga_k_pc07_spinScaling : SpinScaling .mgga mgga_k_pc07 := spinScaling_of (cap := 4) (by decide +kernel)
theorem mgga_k_pc07_screenedBoth : ScreenedBoth .mgga mgga_k_pc07 := screenedBoth_of (cap := 1) (by decide +kernel)
theorem mgga_k_pc07_screenedOne : ScreenedOne .mgga mgga_k_pc07 := screenedOne_flip mgga_k_pc07_spinFlip (cap := 1) (by decide +kernel)
theorem mgga_k_pc07_screenedRest : ScreenedRest .mgga mgga_k_pc07 := screenedRest_flip mgga_k_pc07_spinFlip (cap := 4) (by decide +kernel)
theorem mgga_k_pc07_scaling : UniformScaling 3 2 .mgga mgga_k_pc07 := uniformScaling_of (cap := 1) (by decide +kernel)
theorem mgga_k_pc07_scalingUnpol : UniformScalingUnpol 3 2 .mgga mgga_k_pc07 := uniformScalingUnpol_of (cap := 1) (by decide +kernel)

end Verif.Props
