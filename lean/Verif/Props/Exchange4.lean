import Verif.Props.SpinFlip4
import Verif.Norm.Check2
import Verif.Data.F13
/-!
# C37, C38 and C42 for shipped formulas
-/
namespace Verif.Props
open Verif.Model Verif.Spec Verif.Norm Verif.Data

set_option maxRecDepth 100000
set_option Elab.async false

theorem mgga_k_pgslb_spinScaling : SpinScaling .mgga mgga_k_pgslb := spinScaling_of (cap := 4) (by decide +kernel)
theorem mgga_k_pgslb_screenedBoth : ScreenedBoth .mgga mgga_k_pgslb := screenedBoth_of (cap := 1) (by decide +kernel)
theorem mgga_k_pgslb_screenedOne : ScreenedOne .mgga mgga_k_pgslb := screenedOne_flip mgga_k_pgslb_spinFlip (cap := 1) (by decide +kernel)
theorem mgga_k_pgslb_screenedRest : ScreenedRest .mgga mgga_k_pgslb := screenedRest_flip mgga_k_pgslb_spinFlip (cap := 4) (by decide +kernel)
theorem mgga_k_pgslb_scaling : UniformScaling 3 2 .mgga mgga_k_pgslb := uniformScaling_of (cap := 1) (by decide +kernel)
theorem mgga_k_pgslb_scalingUnpol : UniformScalingUnpol 3 2 .mgga mgga_k_pgslb := uniformScalingUnpol_of (cap := 1) (by decide +kernel)
theorem mgga_k_rda_spinScaling : SpinScaling .mgga mgga_k_rda := spinScaling_of (cap := 4) (by decide +kernel)
theorem mgga_k_rda_screenedBoth : ScreenedBoth .mgga mgga_k_rda := screenedBoth_of (cap := 1) (by decide +kernel)
theorem mgga_k_rda_screenedOne : ScreenedOne .mgga mgga_k_rda := screenedOne_flip mgga_k_rda_spinFlip (cap := 1) (by decide +kernel)
theorem mgga_k_rda_screenedRest : ScreenedRest .mgga mgga_k_rda := screenedRest_flip mgga_k_rda_spinFlip (cap := 4) (by decide +kernel)
theorem mgga_k_rda_scaling : UniformScaling 3 2 .mgga mgga_k_rda := uniformScaling_of (cap := 1) (by decide +kernel)
theorem mgga_k_rda_scalingUnpol : UniformScalingUnpol 3 2 .mgga mgga_k_rda := uniformScalingUnpol_of (cap := 1) (by decide +kernel)
theorem mgga_x_2d_js17_screenedBoth : ScreenedBoth .mgga mgga_x_2d_js17 := screenedBoth_of (cap := 1) (by decide +kernel)
theorem mgga_x_2d_js17_screenedOne : ScreenedOne .mgga mgga_x_2d_js17 := screenedOne_flip mgga_x_2d_js17_spinFlip (cap := 1) (by decide +kernel)
theorem mgga_x_2d_js17_scaling : UniformScaling 2 1 .mgga mgga_x_2d_js17 := uniformScaling_of (cap := 1) (by decide +kernel)
theorem mgga_x_2d_js17_scalingUnpol : UniformScalingUnpol 2 1 .mgga mgga_x_2d_js17 := uniformScalingUnpol_of (cap := 1) (by decide +kernel)
theorem mgga_x_2d_prhg07_spinScaling : SpinScaling .mgga mgga_x_2d_prhg07 := spinScaling_of (cap := 4) (by decide +kernel)
theorem mgga_x_2d_prhg07_screenedBoth : ScreenedBoth .mgga mgga_x_2d_prhg07 := screenedBoth_of (cap := 1) (by decide +kernel)
theorem mgga_x_2d_prhg07_screenedOne : ScreenedOne .mgga mgga_x_2d_prhg07 := screenedOne_flip mgga_x_2d_prhg07_spinFlip (cap := 1) (by decide +kernel)
theorem mgga_x_2d_prhg07_screenedRest : ScreenedRest .mgga mgga_x_2d_prhg07 := screenedRest_flip mgga_x_2d_prhg07_spinFlip (cap := 4) (by decide +kernel)
theorem mgga_x_2d_prhg07_scaling : UniformScaling 2 1 .mgga mgga_x_2d_prhg07 := uniformScaling_of (cap := 1) (by decide +kernel)
theorem mgga_x_2d_prhg07_scalingUnpol : UniformScalingUnpol 2 1 .mgga mgga_x_2d_prhg07 := uniformScalingUnpol_of (cap := 1) (by decide +kernel)
theorem mgga_x_2d_prp10_scaling : UniformScaling 2 1 .mgga mgga_x_2d_prp10 := uniformScaling_of (cap := 1) (by decide +kernel)
theorem mgga_x_2d_prp10_scalingUnpol : UniformScalingUnpol 2 1 .mgga mgga_x_2d_prp10 := uniformScalingUnpol_of (cap := 1) (by decide +kernel)
theorem mgga_x_br89_explicit_spinScaling : SpinScaling .mgga mgga_x_br89_explicit := spinScaling_of (cap := 4) (by decide +kernel)
theorem mgga_x_br89_explicit_screenedBoth : ScreenedBoth .mgga mgga_x_br89_explicit := screenedBoth_of (cap := 1) (by decide +kernel)
theorem mgga_x_br89_explicit_screenedOne : ScreenedOne .mgga mgga_x_br89_explicit := screenedOne_flip mgga_x_br89_explicit_spinFlip (cap := 1) (by decide +kernel)
theorem mgga_x_br89_explicit_screenedRest : ScreenedRest .mgga mgga_x_br89_explicit := screenedRest_flip mgga_x_br89_explicit_spinFlip (cap := 4) (by decide +kernel)
theorem mgga_x_br89_explicit_scaling : UniformScaling 3 1 .mgga mgga_x_br89_explicit := uniformScaling_of (cap := 1) (by decide +kernel)
theorem mgga_x_br89_explicit_scalingUnpol : UniformScalingUnpol 3 1 .mgga mgga_x_br89_explicit := uniformScalingUnpol_of (cap := 1) (by decide +kernel)
theorem mgga_x_edmgga_spinScaling : SpinScaling .mgga mgga_x_edmgga := spinScaling_of (cap := 4) (by decide +kernel)
theorem mgga_x_edmgga_screenedBoth : ScreenedBoth .mgga mgga_x_edmgga := screenedBoth_of (cap := 1) (by decide +kernel)
theorem mgga_x_edmgga_screenedOne : ScreenedOne .mgga mgga_x_edmgga := screenedOne_flip mgga_x_edmgga_spinFlip (cap := 1) (by decide +kernel)
theorem mgga_x_edmgga_screenedRest : ScreenedRest .mgga mgga_x_edmgga := screenedRest_flip mgga_x_edmgga_spinFlip (cap := 4) (by decide +kernel)
theorem mgga_x_edmgga_scaling : UniformScaling 3 1 .mgga mgga_x_edmgga := uniformScaling_of (cap := 1) (by decide +kernel)
theorem mgga_x_edmgga_scalingUnpol : UniformScalingUnpol 3 1 .mgga mgga_x_edmgga := uniformScalingUnpol_of (cap := 1) (by decide +kernel)
theorem mgga_x_ft98_spinScaling : SpinScaling .mgga mgga_x_ft98 := spinScaling_of (cap := 4) (by decide +kernel)
theorem mgga_x_ft98_screenedBoth : ScreenedBoth .mgga mgga_x_ft98 := screenedBoth_of (cap := 1) (by decide +kernel)
theorem mgga_x_ft98_screenedOne : ScreenedOne .mgga mgga_x_ft98 := screenedOne_flip mgga_x_ft98_spinFlip (cap := 1) (by decide +kernel)
theorem mgga_x_ft98_screenedRest : ScreenedRest .mgga mgga_x_ft98 := screenedRest_flip mgga_x_ft98_spinFlip (cap := 4) (by decide +kernel)
theorem mgga_x_ft98_scaling : UniformScaling 3 1 .mgga mgga_x_ft98 := uniformScaling_of (cap := 1) (by decide +kernel)
theorem mgga_x_ft98_scalingUnpol : UniformScalingUnpol 3 1 .mgga mgga_x_ft98 := uniformScalingUnpol_of (cap := 1) (by decide +kernel)
theorem mgga_x_gdme_spinScaling : SpinScaling .mgga mgga_x_gdme := spinScaling_of (cap := 4) (by decide +kernel)
theorem mgga_x_gdme_screenedBoth : ScreenedBoth .mgga mgga_x_gdme := screenedBoth_of (cap := 1) (by decide +kernel)
theorem mgga_x_gdme_screenedOne : ScreenedOne .mgga mgga_x_gdme := screenedOne_flip mgga_x_gdme_spinFlip (cap := 1) (by decide +kernel)
theorem mgga_x_gdme_screenedRest : ScreenedRest .mgga mgga_x_gdme := screenedRest_flip mgga_x_gdme_spinFlip (cap := 4) (by decide +kernel)
theorem mgga_x_gdme_scaling : UniformScaling 3 1 .mgga mgga_x_gdme := uniformScaling_of (cap := 1) (by decide +kernel)
theorem mgga_x_gdme_scalingUnpol : UniformScalingUnpol 3 1 .mgga mgga_x_gdme := uniformScalingUnpol_of (cap := 1) (by decide +kernel)
theorem mgga_x_gvt4_spinScaling : SpinScaling .mgga mgga_x_gvt4 := spinScaling_of (cap := 4) (by decide +kernel)
theorem mgga_x_gvt4_screenedBoth : ScreenedBoth .mgga mgga_x_gvt4 := screenedBoth_of (cap := 1) (by decide +kernel)
theorem mgga_x_gvt4_screenedOne : ScreenedOne .mgga mgga_x_gvt4 := screenedOne_flip mgga_x_gvt4_spinFlip (cap := 1) (by decide +kernel)
theorem mgga_x_gvt4_screenedRest : ScreenedRest .mgga mgga_x_gvt4 := screenedRest_flip mgga_x_gvt4_spinFlip (cap := 4) (by decide +kernel)
theorem mgga_x_gvt4_scaling : UniformScaling 3 1 .mgga mgga_x_gvt4 := uniformScaling_of (cap := 1) (by decide +kernel)
theorem mgga_x_gvt4_scalingUnpol : UniformScalingUnpol 3 1 .mgga mgga_x_gvt4 := uniformScalingUnpol_of (cap := 1) (by decide +kernel)
theorem mgga_x_gx_spinScaling : SpinScaling .mgga mgga_x_gx := spinScaling_of (cap := 4) (by decide +kernel)
theorem mgga_x_gx_screenedBoth : ScreenedBoth .mgga mgga_x_gx := screenedBoth_of (cap := 1) (by decide +kernel)
theorem mgga_x_gx_screenedOne : ScreenedOne .mgga mgga_x_gx := screenedOne_flip mgga_x_gx_spinFlip (cap := 1) (by decide +kernel)
theorem mgga_x_gx_screenedRest : ScreenedRest .mgga mgga_x_gx := screenedRest_flip mgga_x_gx_spinFlip (cap := 4) (by decide +kernel)
theorem mgga_x_gx_scaling : UniformScaling 3 1 .mgga mgga_x_gx := uniformScaling_of (cap := 1) (by decide +kernel)
theorem mgga_x_gx_scalingUnpol : UniformScalingUnpol 3 1 .mgga mgga_x_gx := uniformScalingUnpol_of (cap := 1) (by decide +kernel)
theorem mgga_x_jk_spinScaling : SpinScaling .mgga mgga_x_jk := spinScaling_of (cap := 4) (by decide +kernel)
theorem mgga_x_jk_screenedBoth : ScreenedBoth .mgga mgga_x_jk := screenedBoth_of (cap := 1) (by decide +kernel)
theorem mgga_x_jk_screenedOne : ScreenedOne .mgga mgga_x_jk := screenedOne_flip mgga_x_jk_spinFlip (cap := 1) (by decide +kernel)
theorem mgga_x_jk_screenedRest : ScreenedRest .mgga mgga_x_jk := screenedRest_flip mgga_x_jk_spinFlip (cap := 4) (by decide +kernel)
theorem mgga_x_jk_scaling : UniformScaling 3 1 .mgga mgga_x_jk := uniformScaling_of (cap := 1) (by decide +kernel)
theorem mgga_x_jk_scalingUnpol : UniformScalingUnpol 3 1 .mgga mgga_x_jk := uniformScalingUnpol_of (cap := 1) (by decide +kernel)
theorem mgga_x_lta_spinScaling : SpinScaling .mgga mgga_x_lta := spinScaling_of (cap := 4) (by decide +kernel)
theorem mgga_x_lta_screenedBoth : ScreenedBoth .mgga mgga_x_lta := screenedBoth_of (cap := 1) (by decide +kernel)
theorem mgga_x_lta_screenedOne : ScreenedOne .mgga mgga_x_lta := screenedOne_flip mgga_x_lta_spinFlip (cap := 1) (by decide +kernel)
theorem mgga_x_lta_screenedRest : ScreenedRest .mgga mgga_x_lta := screenedRest_flip mgga_x_lta_spinFlip (cap := 4) (by decide +kernel)
theorem mgga_x_lta_scaling : UniformScaling 3 1 .mgga mgga_x_lta := uniformScaling_of (cap := 1) (by decide +kernel)
theorem mgga_x_lta_scalingUnpol : UniformScalingUnpol 3 1 .mgga mgga_x_lta := uniformScalingUnpol_of (cap := 1) (by decide +kernel)
theorem mgga_x_m06l_spinScaling : SpinScaling .mgga mgga_x_m06l := spinScaling_of (cap := 4) (by decide +kernel)
theorem mgga_x_m06l_screenedBoth : ScreenedBoth .mgga mgga_x_m06l := screenedBoth_of (cap := 1) (by decide +kernel)
theorem mgga_x_m06l_screenedOne : ScreenedOne .mgga mgga_x_m06l := screenedOne_flip mgga_x_m06l_spinFlip (cap := 1) (by decide +kernel)
theorem mgga_x_m06l_screenedRest : ScreenedRest .mgga mgga_x_m06l := screenedRest_flip mgga_x_m06l_spinFlip (cap := 4) (by decide +kernel)
theorem mgga_x_m06l_scaling : UniformScaling 3 1 .mgga mgga_x_m06l := uniformScaling_of (cap := 1) (by decide +kernel)
theorem mgga_x_m06l_scalingUnpol : UniformScalingUnpol 3 1 .mgga mgga_x_m06l := uniformScalingUnpol_of (cap := 1) (by decide +kernel)
theorem mgga_x_m08_spinScaling : SpinScaling .mgga mgga_x_m08 := spinScaling_of (cap := 4) (by decide +kernel)
theorem mgga_x_m08_screenedBoth : ScreenedBoth .mgga mgga_x_m08 := screenedBoth_of (cap := 1) (by decide +kernel)
theorem mgga_x_m08_screenedOne : ScreenedOne .mgga mgga_x_m08 := screenedOne_flip mgga_x_m08_spinFlip (cap := 1) (by decide +kernel)
theorem mgga_x_m08_screenedRest : ScreenedRest .mgga mgga_x_m08 := screenedRest_flip mgga_x_m08_spinFlip (cap := 4) (by decide +kernel)
theorem mgga_x_m08_scaling : UniformScaling 3 1 .mgga mgga_x_m08 := uniformScaling_of (cap := 1) (by decide +kernel)
theorem mgga_x_m08_scalingUnpol : UniformScalingUnpol 3 1 .mgga mgga_x_m08 := uniformScalingUnpol_of (cap := 1) (by decide +kernel)
theorem mgga_x_m11_spinScaling : SpinScaling .mgga mgga_x_m11 := spinScaling_of (cap := 4) (by decide +kernel)
theorem mgga_x_m11_screenedBoth : ScreenedBoth .mgga mgga_x_m11 := screenedBoth_of (cap := 1) (by decide +kernel)
theorem mgga_x_m11_screenedOne : ScreenedOne .mgga mgga_x_m11 := screenedOne_flip mgga_x_m11_spinFlip (cap := 1) (by decide +kernel)
theorem mgga_x_m11_screenedRest : ScreenedRest .mgga mgga_x_m11 := screenedRest_flip mgga_x_m11_spinFlip (cap := 4) (by decide +kernel)
theorem mgga_x_m11_l_spinScaling : SpinScaling .mgga mgga_x_m11_l := spinScaling_of (cap := 4) (by decide +kernel)
theorem mgga_x_m11_l_screenedBoth : ScreenedBoth .mgga mgga_x_m11_l := screenedBoth_of (cap := 1) (by decide +kernel)
theorem mgga_x_m11_l_screenedOne : ScreenedOne .mgga mgga_x_m11_l := screenedOne_flip mgga_x_m11_l_spinFlip (cap := 1) (by decide +kernel)
theorem mgga_x_m11_l_screenedRest : ScreenedRest .mgga mgga_x_m11_l := screenedRest_flip mgga_x_m11_l_spinFlip (cap := 4) (by decide +kernel)

end Verif.Props

namespace Verif.Props
open Verif.Model Verif.Spec Verif.Norm Verif.Data

set_option maxRecDepth 100000
set_option Elab.async false

theorem mgga_x_mbeef_spinScaling : SpinScaling .mgga mgga_x_mbeef := spinScaling_of (cap := 4) (by decide +kernel)
theorem mgga_x_mbeef_screenedBoth : ScreenedBoth .mgga mgga_x_mbeef := screenedBoth_of (cap := 1) (by decide +kernel)
theorem mgga_x_mbeef_screenedOne : ScreenedOne .mgga mgga_x_mbeef := screenedOne_flip mgga_x_mbeef_spinFlip (cap := 1) (by decide +kernel)
theorem mgga_x_mbeef_screenedRest : ScreenedRest .mgga mgga_x_mbeef := screenedRest_flip mgga_x_mbeef_spinFlip (cap := 4) (by decide +kernel)
theorem mgga_x_mbeef_scaling : UniformScaling 3 1 .mgga mgga_x_mbeef := uniformScaling_of (cap := 1) (by decide +kernel)
theorem mgga_x_mbeef_scalingUnpol : UniformScalingUnpol 3 1 .mgga mgga_x_mbeef := uniformScalingUnpol_of (cap := 1) (by decide +kernel)
theorem mgga_x_mbeefvdw_spinScaling : SpinScaling .mgga mgga_x_mbeefvdw := spinScaling_of (cap := 4) (by decide +kernel)
theorem mgga_x_mbeefvdw_screenedBoth : ScreenedBoth .mgga mgga_x_mbeefvdw := screenedBoth_of (cap := 1) (by decide +kernel)
theorem mgga_x_mbeefvdw_screenedOne : ScreenedOne .mgga mgga_x_mbeefvdw := screenedOne_flip mgga_x_mbeefvdw_spinFlip (cap := 1) (by decide +kernel)
theorem mgga_x_mbeefvdw_screenedRest : ScreenedRest .mgga mgga_x_mbeefvdw := screenedRest_flip mgga_x_mbeefvdw_spinFlip (cap := 4) (by decide +kernel)
theorem mgga_x_mbeefvdw_scaling : UniformScaling 3 1 .mgga mgga_x_mbeefvdw := uniformScaling_of (cap := 1) (by decide +kernel)
theorem mgga_x_mbeefvdw_scalingUnpol : UniformScalingUnpol 3 1 .mgga mgga_x_mbeefvdw := uniformScalingUnpol_of (cap := 1) (by decide +kernel)
theorem mgga_x_mcml_spinScaling : SpinScaling .mgga mgga_x_mcml := spinScaling_of (cap := 4) (by decide +kernel)
theorem mgga_x_mcml_screenedBoth : ScreenedBoth .mgga mgga_x_mcml := screenedBoth_of (cap := 1) (by decide +kernel)
theorem mgga_x_mcml_screenedOne : ScreenedOne .mgga mgga_x_mcml := screenedOne_flip mgga_x_mcml_spinFlip (cap := 1) (by decide +kernel)
theorem mgga_x_mcml_screenedRest : ScreenedRest .mgga mgga_x_mcml := screenedRest_flip mgga_x_mcml_spinFlip (cap := 4) (by decide +kernel)
theorem mgga_x_mcml_scaling : UniformScaling 3 1 .mgga mgga_x_mcml := uniformScaling_of (cap := 1) (by decide +kernel)
theorem mgga_x_mcml_scalingUnpol : UniformScalingUnpol 3 1 .mgga mgga_x_mcml := uniformScalingUnpol_of (cap := 1) (by decide +kernel)
theorem mgga_x_mn12_spinScaling : SpinScaling .mgga mgga_x_mn12 := spinScaling_of (cap := 4) (by decide +kernel)
theorem mgga_x_mn12_screenedBoth : ScreenedBoth .mgga mgga_x_mn12 := screenedBoth_of (cap := 1) (by decide +kernel)
theorem mgga_x_mn12_screenedOne : ScreenedOne .mgga mgga_x_mn12 := screenedOne_flip mgga_x_mn12_spinFlip (cap := 1) (by decide +kernel)
theorem mgga_x_mn12_screenedRest : ScreenedRest .mgga mgga_x_mn12 := screenedRest_flip mgga_x_mn12_spinFlip (cap := 4) (by decide +kernel)
theorem mgga_x_ms_spinScaling : SpinScaling .mgga mgga_x_ms := spinScaling_of (cap := 4) (by decide +kernel)
theorem mgga_x_ms_screenedBoth : ScreenedBoth .mgga mgga_x_ms := screenedBoth_of (cap := 1) (by decide +kernel)
theorem mgga_x_ms_screenedOne : ScreenedOne .mgga mgga_x_ms := screenedOne_flip mgga_x_ms_spinFlip (cap := 1) (by decide +kernel)
theorem mgga_x_ms_screenedRest : ScreenedRest .mgga mgga_x_ms := screenedRest_flip mgga_x_ms_spinFlip (cap := 4) (by decide +kernel)
theorem mgga_x_ms_scaling : UniformScaling 3 1 .mgga mgga_x_ms := uniformScaling_of (cap := 1) (by decide +kernel)
theorem mgga_x_ms_scalingUnpol : UniformScalingUnpol 3 1 .mgga mgga_x_ms := uniformScalingUnpol_of (cap := 1) (by decide +kernel)
theorem mgga_x_msb_spinScaling : SpinScaling .mgga mgga_x_msb := spinScaling_of (cap := 4) (by decide +kernel)
theorem mgga_x_msb_screenedBoth : ScreenedBoth .mgga mgga_x_msb := screenedBoth_of (cap := 1) (by decide +kernel)
theorem mgga_x_msb_screenedOne : ScreenedOne .mgga mgga_x_msb := screenedOne_flip mgga_x_msb_spinFlip (cap := 1) (by decide +kernel)
theorem mgga_x_msb_screenedRest : ScreenedRest .mgga mgga_x_msb := screenedRest_flip mgga_x_msb_spinFlip (cap := 4) (by decide +kernel)
theorem mgga_x_msb_scaling : UniformScaling 3 1 .mgga mgga_x_msb := uniformScaling_of (cap := 1) (by decide +kernel)
theorem mgga_x_msb_scalingUnpol : UniformScalingUnpol 3 1 .mgga mgga_x_msb := uniformScalingUnpol_of (cap := 1) (by decide +kernel)
theorem mgga_x_mvs_spinScaling : SpinScaling .mgga mgga_x_mvs := spinScaling_of (cap := 4) (by decide +kernel)
theorem mgga_x_mvs_screenedBoth : ScreenedBoth .mgga mgga_x_mvs := screenedBoth_of (cap := 1) (by decide +kernel)
theorem mgga_x_mvs_screenedOne : ScreenedOne .mgga mgga_x_mvs := screenedOne_flip mgga_x_mvs_spinFlip (cap := 1) (by decide +kernel)
theorem mgga_x_mvs_screenedRest : ScreenedRest .mgga mgga_x_mvs := screenedRest_flip mgga_x_mvs_spinFlip (cap := 4) (by decide +kernel)
theorem mgga_x_mvs_scaling : UniformScaling 3 1 .mgga mgga_x_mvs := uniformScaling_of (cap := 1) (by decide +kernel)
theorem mgga_x_mvs_scalingUnpol : UniformScalingUnpol 3 1 .mgga mgga_x_mvs := uniformScalingUnpol_of (cap := 1) (by decide +kernel)

end Verif.Props

namespace Verif.Props
open Verif.Model Verif.Spec Verif.Norm Verif.Data

set_option maxRecDepth 100000
set_option Elab.async false

theorem mgga_x_mvsb_spinScaling : SpinScaling .mgga mgga_x_mvsb := spinScaling_of (cap := 4) (by decide +kernel)
theorem mgga_x_mvsb_screenedBoth : ScreenedBoth .mgga mgga_x_mvsb := screenedBoth_of (cap := 1) (by decide +kernel)
theorem mgga_x_mvsb_screenedOne : ScreenedOne .mgga mgga_x_mvsb := screenedOne_flip mgga_x_mvsb_spinFlip (cap := 1) (by decide +kernel)
theorem mgga_x_mvsb_screenedRest : ScreenedRest .mgga mgga_x_mvsb := screenedRest_flip mgga_x_mvsb_spinFlip (cap := 4) (by decide +kernel)
theorem mgga_x_mvsb_scaling : UniformScaling 3 1 .mgga mgga_x_mvsb := uniformScaling_of (cap := 1) (by decide +kernel)
theorem mgga_x_mvsb_scalingUnpol : UniformScalingUnpol 3 1 .mgga mgga_x_mvsb := uniformScalingUnpol_of (cap := 1) (by decide +kernel)
theorem mgga_x_pbe_gx_spinScaling : SpinScaling .mgga mgga_x_pbe_gx := spinScaling_of (cap := 4) (by decide +kernel)
theorem mgga_x_pbe_gx_screenedBoth : ScreenedBoth .mgga mgga_x_pbe_gx := screenedBoth_of (cap := 1) (by decide +kernel)
theorem mgga_x_pbe_gx_screenedOne : ScreenedOne .mgga mgga_x_pbe_gx := screenedOne_flip mgga_x_pbe_gx_spinFlip (cap := 1) (by decide +kernel)
theorem mgga_x_pbe_gx_screenedRest : ScreenedRest .mgga mgga_x_pbe_gx := screenedRest_flip mgga_x_pbe_gx_spinFlip (cap := 4) (by decide +kernel)
theorem mgga_x_pbe_gx_scaling : UniformScaling 3 1 .mgga mgga_x_pbe_gx := uniformScaling_of (cap := 1) (by decide +kernel)
theorem mgga_x_pbe_gx_scalingUnpol : UniformScalingUnpol 3 1 .mgga mgga_x_pbe_gx := uniformScalingUnpol_of (cap := 1) (by decide +kernel)
theorem mgga_x_pkzb_spinScaling : SpinScaling .mgga mgga_x_pkzb := spinScaling_of (cap := 4) (by decide +kernel)
theorem mgga_x_pkzb_screenedBoth : ScreenedBoth .mgga mgga_x_pkzb := screenedBoth_of (cap := 1) (by decide +kernel)
theorem mgga_x_pkzb_screenedOne : ScreenedOne .mgga mgga_x_pkzb := screenedOne_flip mgga_x_pkzb_spinFlip (cap := 1) (by decide +kernel)
theorem mgga_x_pkzb_screenedRest : ScreenedRest .mgga mgga_x_pkzb := screenedRest_flip mgga_x_pkzb_spinFlip (cap := 4) (by decide +kernel)
theorem mgga_x_pkzb_scaling : UniformScaling 3 1 .mgga mgga_x_pkzb := uniformScaling_of (cap := 1) (by decide +kernel)
theorem mgga_x_pkzb_scalingUnpol : UniformScalingUnpol 3 1 .mgga mgga_x_pkzb := uniformScalingUnpol_of (cap := 1) (by decide +kernel)
theorem mgga_x_r2scan_spinScaling : SpinScaling .mgga mgga_x_r2scan := spinScaling_of (cap := 4) (by decide +kernel)
theorem mgga_x_r2scan_screenedBoth : ScreenedBoth .mgga mgga_x_r2scan := screenedBoth_of (cap := 1) (by decide +kernel)
theorem mgga_x_r2scan_screenedOne : ScreenedOne .mgga mgga_x_r2scan := screenedOne_flip mgga_x_r2scan_spinFlip (cap := 1) (by decide +kernel)
theorem mgga_x_r2scan_screenedRest : ScreenedRest .mgga mgga_x_r2scan := screenedRest_flip mgga_x_r2scan_spinFlip (cap := 4) (by decide +kernel)
theorem mgga_x_r2scan_scaling : UniformScaling 3 1 .mgga mgga_x_r2scan := uniformScaling_of (cap := 1) (by decide +kernel)
theorem mgga_x_r2scan_scalingUnpol : UniformScalingUnpol 3 1 .mgga mgga_x_r2scan := uniformScalingUnpol_of (cap := 1) (by decide +kernel)
theorem mgga_x_r4scan_spinScaling : SpinScaling .mgga mgga_x_r4scan := spinScaling_of (cap := 4) (by decide +kernel)
theorem mgga_x_r4scan_screenedBoth : ScreenedBoth .mgga mgga_x_r4scan := screenedBoth_of (cap := 1) (by decide +kernel)
theorem mgga_x_r4scan_screenedOne : ScreenedOne .mgga mgga_x_r4scan := screenedOne_flip mgga_x_r4scan_spinFlip (cap := 1) (by decide +kernel)
theorem mgga_x_r4scan_screenedRest : ScreenedRest .mgga mgga_x_r4scan := screenedRest_flip mgga_x_r4scan_spinFlip (cap := 4) (by decide +kernel)
theorem mgga_x_r4scan_scaling : UniformScaling 3 1 .mgga mgga_x_r4scan := uniformScaling_of (cap := 1) (by decide +kernel)
theorem mgga_x_r4scan_scalingUnpol : UniformScalingUnpol 3 1 .mgga mgga_x_r4scan := uniformScalingUnpol_of (cap := 1) (by decide +kernel)
theorem mgga_x_regtm_spinScaling : SpinScaling .mgga mgga_x_regtm := spinScaling_of (cap := 4) (by decide +kernel)
theorem mgga_x_regtm_screenedBoth : ScreenedBoth .mgga mgga_x_regtm := screenedBoth_of (cap := 1) (by decide +kernel)
theorem mgga_x_regtm_screenedOne : ScreenedOne .mgga mgga_x_regtm := screenedOne_flip mgga_x_regtm_spinFlip (cap := 1) (by decide +kernel)
theorem mgga_x_regtm_screenedRest : ScreenedRest .mgga mgga_x_regtm := screenedRest_flip mgga_x_regtm_spinFlip (cap := 4) (by decide +kernel)
theorem mgga_x_regtm_scaling : UniformScaling 3 1 .mgga mgga_x_regtm := uniformScaling_of (cap := 1) (by decide +kernel)
theorem mgga_x_regtm_scalingUnpol : UniformScalingUnpol 3 1 .mgga mgga_x_regtm := uniformScalingUnpol_of (cap := 1) (by decide +kernel)
theorem mgga_x_regtpss_spinScaling : SpinScaling .mgga mgga_x_regtpss := spinScaling_of (cap := 4) (by decide +kernel)
theorem mgga_x_regtpss_screenedBoth : ScreenedBoth .mgga mgga_x_regtpss := screenedBoth_of (cap := 1) (by decide +kernel)
theorem mgga_x_regtpss_screenedOne : ScreenedOne .mgga mgga_x_regtpss := screenedOne_flip mgga_x_regtpss_spinFlip (cap := 1) (by decide +kernel)
theorem mgga_x_regtpss_screenedRest : ScreenedRest .mgga mgga_x_regtpss := screenedRest_flip mgga_x_regtpss_spinFlip (cap := 4) (by decide +kernel)
theorem mgga_x_regtpss_scaling : UniformScaling 3 1 .mgga mgga_x_regtpss := uniformScaling_of (cap := 1) (by decide +kernel)
theorem mgga_x_regtpss_scalingUnpol : UniformScalingUnpol 3 1 .mgga mgga_x_regtpss := uniformScalingUnpol_of (cap := 1) (by decide +kernel)
theorem mgga_x_revtm_spinScaling : SpinScaling .mgga mgga_x_revtm := spinScaling_of (cap := 4) (by decide +kernel)
theorem mgga_x_revtm_screenedBoth : ScreenedBoth .mgga mgga_x_revtm := screenedBoth_of (cap := 1) (by decide +kernel)
theorem mgga_x_revtm_screenedOne : ScreenedOne .mgga mgga_x_revtm := screenedOne_flip mgga_x_revtm_spinFlip (cap := 1) (by decide +kernel)
theorem mgga_x_revtm_screenedRest : ScreenedRest .mgga mgga_x_revtm := screenedRest_flip mgga_x_revtm_spinFlip (cap := 4) (by decide +kernel)
theorem mgga_x_revtm_scaling : UniformScaling 3 1 .mgga mgga_x_revtm := uniformScaling_of (cap := 1) (by decide +kernel)
theorem mgga_x_revtm_scalingUnpol : UniformScalingUnpol 3 1 .mgga mgga_x_revtm := uniformScalingUnpol_of (cap := 1) (by decide +kernel)
theorem mgga_x_rlda_spinScaling : SpinScaling .mgga mgga_x_rlda := spinScaling_of (cap := 4) (by decide +kernel)
theorem mgga_x_rlda_screenedBoth : ScreenedBoth .mgga mgga_x_rlda := screenedBoth_of (cap := 1) (by decide +kernel)
theorem mgga_x_rlda_screenedOne : ScreenedOne .mgga mgga_x_rlda := screenedOne_flip mgga_x_rlda_spinFlip (cap := 1) (by decide +kernel)
theorem mgga_x_rlda_screenedRest : ScreenedRest .mgga mgga_x_rlda := screenedRest_flip mgga_x_rlda_spinFlip (cap := 4) (by decide +kernel)
theorem mgga_x_rlda_scaling : UniformScaling 3 1 .mgga mgga_x_rlda := uniformScaling_of (cap := 1) (by decide +kernel)
theorem mgga_x_rlda_scalingUnpol : UniformScalingUnpol 3 1 .mgga mgga_x_rlda := uniformScalingUnpol_of (cap := 1) (by decide +kernel)
theorem mgga_x_rppscan_spinScaling : SpinScaling .mgga mgga_x_rppscan := spinScaling_of (cap := 4) (by decide +kernel)
theorem mgga_x_rppscan_screenedBoth : ScreenedBoth .mgga mgga_x_rppscan := screenedBoth_of (cap := 1) (by decide +kernel)
theorem mgga_x_rppscan_screenedOne : ScreenedOne .mgga mgga_x_rppscan := screenedOne_flip mgga_x_rppscan_spinFlip (cap := 1) (by decide +kernel)
theorem mgga_x_rppscan_screenedRest : ScreenedRest .mgga mgga_x_rppscan := screenedRest_flip mgga_x_rppscan_spinFlip (cap := 4) (by decide +kernel)
theorem mgga_x_rppscan_scaling : UniformScaling 3 1 .mgga mgga_x_rppscan := uniformScaling_of (cap := 1) (by decide +kernel)
theorem mgga_x_rppscan_scalingUnpol : UniformScalingUnpol 3 1 .mgga mgga_x_rppscan := uniformScalingUnpol_of (cap := 1) (by decide +kernel)
theorem mgga_x_rscan_spinScaling : SpinScaling .mgga mgga_x_rscan := spinScaling_of (cap := 4) (by decide +kernel)
theorem mgga_x_rscan_screenedBoth : ScreenedBoth .mgga mgga_x_rscan := screenedBoth_of (cap := 1) (by decide +kernel)
theorem mgga_x_rscan_screenedOne : ScreenedOne .mgga mgga_x_rscan := screenedOne_flip mgga_x_rscan_spinFlip (cap := 1) (by decide +kernel)
theorem mgga_x_rscan_screenedRest : ScreenedRest .mgga mgga_x_rscan := screenedRest_flip mgga_x_rscan_spinFlip (cap := 4) (by decide +kernel)
theorem mgga_x_rtpss_spinScaling : SpinScaling .mgga mgga_x_rtpss := spinScaling_of (cap := 4) (by decide +kernel)
theorem mgga_x_rtpss_screenedBoth : ScreenedBoth .mgga mgga_x_rtpss := screenedBoth_of (cap := 1) (by decide +kernel)
theorem mgga_x_rtpss_screenedOne : ScreenedOne .mgga mgga_x_rtpss := screenedOne_flip mgga_x_rtpss_spinFlip (cap := 1) (by decide +kernel)
theorem mgga_x_rtpss_screenedRest : ScreenedRest .mgga mgga_x_rtpss := screenedRest_flip mgga_x_rtpss_spinFlip (cap := 4) (by decide +kernel)
theorem mgga_x_rtpss_scaling : UniformScaling 3 1 .mgga mgga_x_rtpss := uniformScaling_of (cap := 1) (by decide +kernel)
theorem mgga_x_rtpss_scalingUnpol : UniformScalingUnpol 3 1 .mgga mgga_x_rtpss := uniformScalingUnpol_of (cap := 1) (by decide +kernel)
theorem mgga_x_sa_tpss_spinScaling : SpinScaling .mgga mgga_x_sa_tpss := spinScaling_of (cap := 4) (by decide +kernel)
theorem mgga_x_sa_tpss_screenedBoth : ScreenedBoth .mgga mgga_x_sa_tpss := screenedBoth_of (cap := 1) (by decide +kernel)
theorem mgga_x_sa_tpss_screenedOne : ScreenedOne .mgga mgga_x_sa_tpss := screenedOne_flip mgga_x_sa_tpss_spinFlip (cap := 1) (by decide +kernel)
theorem mgga_x_sa_tpss_screenedRest : ScreenedRest .mgga mgga_x_sa_tpss := screenedRest_flip mgga_x_sa_tpss_spinFlip (cap := 4) (by decide +kernel)
theorem mgga_x_sa_tpss_scaling : UniformScaling 3 1 .mgga mgga_x_sa_tpss := uniformScaling_of (cap := 1) (by decide +kernel)
theorem mgga_x_sa_tpss_scalingUnpol : UniformScalingUnpol 3 1 .mgga mgga_x_sa_tpss := uniformScalingUnpol_of (cap := 1) (by decide +kernel)
theorem mgga_x_scan_spinScaling : SpinScaling .mgga mgga_x_scan := spinScaling_of (cap := 4) (by decide +kernel)
theorem mgga_x_scan_screenedBoth : ScreenedBoth .mgga mgga_x_scan := screenedBoth_of (cap := 1) (by decide +kernel)
theorem mgga_x_scan_screenedOne : ScreenedOne .mgga mgga_x_scan := screenedOne_flip mgga_x_scan_spinFlip (cap := 1) (by decide +kernel)
theorem mgga_x_scan_screenedRest : ScreenedRest .mgga mgga_x_scan := screenedRest_flip mgga_x_scan_spinFlip (cap := 4) (by decide +kernel)
theorem mgga_x_scan_scaling : UniformScaling 3 1 .mgga mgga_x_scan := uniformScaling_of (cap := 1) (by decide +kernel)
theorem mgga_x_scan_scalingUnpol : UniformScalingUnpol 3 1 .mgga mgga_x_scan := uniformScalingUnpol_of (cap := 1) (by decide +kernel)
theorem mgga_x_task_screenedBoth : ScreenedBoth .mgga mgga_x_task := screenedBoth_of (cap := 1) (by decide +kernel)
theorem mgga_x_task_screenedOne : ScreenedOne .mgga mgga_x_task := screenedOne_flip mgga_x_task_spinFlip (cap := 1) (by decide +kernel)
theorem mgga_x_task_scaling : UniformScaling 3 1 .mgga mgga_x_task := uniformScaling_of (cap := 1) (by decide +kernel)
theorem mgga_x_task_scalingUnpol : UniformScalingUnpol 3 1 .mgga mgga_x_task := uniformScalingUnpol_of (cap := 1) (by decide +kernel)

end Verif.Props

namespace Verif.Props
open Verif.Model Verif.Spec Verif.Norm Verif.Data

set_option maxRecDepth 100000
set_option Elab.async false

theorem mgga_x_tau_hcth_spinScaling : SpinScaling .mgga mgga_x_tau_hcth := spinScaling_of (cap := 4) (by decide +kernel)
theorem mgga_x_tau_hcth_screenedBoth : ScreenedBoth .mgga mgga_x_tau_hcth := screenedBoth_of (cap := 1) (by decide +kernel)
theorem mgga_x_tau_hcth_screenedOne : ScreenedOne .mgga mgga_x_tau_hcth := screenedOne_flip mgga_x_tau_hcth_spinFlip (cap := 1) (by decide +kernel)
theorem mgga_x_tau_hcth_screenedRest : ScreenedRest .mgga mgga_x_tau_hcth := screenedRest_flip mgga_x_tau_hcth_spinFlip (cap := 4) (by decide +kernel)
theorem mgga_x_tau_hcth_scaling : UniformScaling 3 1 .mgga mgga_x_tau_hcth := uniformScaling_of (cap := 1) (by decide +kernel)
theorem mgga_x_tau_hcth_scalingUnpol : UniformScalingUnpol 3 1 .mgga mgga_x_tau_hcth := uniformScalingUnpol_of (cap := 1) (by decide +kernel)
theorem mgga_x_th_spinScaling : SpinScaling .mgga mgga_x_th := spinScaling_of (cap := 4) (by decide +kernel)
theorem mgga_x_th_screenedBoth : ScreenedBoth .mgga mgga_x_th := screenedBoth_of (cap := 1) (by decide +kernel)
theorem mgga_x_th_screenedOne : ScreenedOne .mgga mgga_x_th := screenedOne_flip mgga_x_th_spinFlip (cap := 1) (by decide +kernel)
theorem mgga_x_th_screenedRest : ScreenedRest .mgga mgga_x_th := screenedRest_flip mgga_x_th_spinFlip (cap := 4) (by decide +kernel)
theorem mgga_x_th_scaling : UniformScaling 3 1 .mgga mgga_x_th := uniformScaling_of (cap := 1) (by decide +kernel)
theorem mgga_x_th_scalingUnpol : UniformScalingUnpol 3 1 .mgga mgga_x_th := uniformScalingUnpol_of (cap := 1) (by decide +kernel)
theorem mgga_x_tm_spinScaling : SpinScaling .mgga mgga_x_tm := spinScaling_of (cap := 4) (by decide +kernel)
theorem mgga_x_tm_screenedBoth : ScreenedBoth .mgga mgga_x_tm := screenedBoth_of (cap := 1) (by decide +kernel)
theorem mgga_x_tm_screenedOne : ScreenedOne .mgga mgga_x_tm := screenedOne_flip mgga_x_tm_spinFlip (cap := 1) (by decide +kernel)
theorem mgga_x_tm_screenedRest : ScreenedRest .mgga mgga_x_tm := screenedRest_flip mgga_x_tm_spinFlip (cap := 4) (by decide +kernel)
theorem mgga_x_tm_scaling : UniformScaling 3 1 .mgga mgga_x_tm := uniformScaling_of (cap := 1) (by decide +kernel)
theorem mgga_x_tm_scalingUnpol : UniformScalingUnpol 3 1 .mgga mgga_x_tm := uniformScalingUnpol_of (cap := 1) (by decide +kernel)
theorem mgga_x_tpss_spinScaling : SpinScaling .mgga mgga_x_tpss := spinScaling_of (cap := 4) (by decide +kernel)
theorem mgga_x_tpss_screenedBoth : ScreenedBoth .mgga mgga_x_tpss := screenedBoth_of (cap := 1) (by decide +kernel)
theorem mgga_x_tpss_screenedOne : ScreenedOne .mgga mgga_x_tpss := screenedOne_flip mgga_x_tpss_spinFlip (cap := 1) (by decide +kernel)
theorem mgga_x_tpss_screenedRest : ScreenedRest .mgga mgga_x_tpss := screenedRest_flip mgga_x_tpss_spinFlip (cap := 4) (by decide +kernel)
theorem mgga_x_tpss_scaling : UniformScaling 3 1 .mgga mgga_x_tpss := uniformScaling_of (cap := 1) (by decide +kernel)
theorem mgga_x_tpss_scalingUnpol : UniformScalingUnpol 3 1 .mgga mgga_x_tpss := uniformScalingUnpol_of (cap := 1) (by decide +kernel)
theorem mgga_x_vcml_spinScaling : SpinScaling .mgga mgga_x_vcml := spinScaling_of (cap := 4) (by decide +kernel)
theorem mgga_x_vcml_screenedBoth : ScreenedBoth .mgga mgga_x_vcml := screenedBoth_of (cap := 1) (by decide +kernel)
theorem mgga_x_vcml_screenedOne : ScreenedOne .mgga mgga_x_vcml := screenedOne_flip mgga_x_vcml_spinFlip (cap := 1) (by decide +kernel)
theorem mgga_x_vcml_screenedRest : ScreenedRest .mgga mgga_x_vcml := screenedRest_flip mgga_x_vcml_spinFlip (cap := 4) (by decide +kernel)
theorem mgga_x_vcml_scaling : UniformScaling 3 1 .mgga mgga_x_vcml := uniformScaling_of (cap := 1) (by decide +kernel)
theorem mgga_x_vcml_scalingUnpol : UniformScalingUnpol 3 1 .mgga mgga_x_vcml := uniformScalingUnpol_of (cap := 1) (by decide +kernel)
theorem mgga_x_vt84_spinScaling : SpinScaling .mgga mgga_x_vt84 := spinScaling_of (cap := 4) (by decide +kernel)
theorem mgga_x_vt84_screenedBoth : ScreenedBoth .mgga mgga_x_vt84 := screenedBoth_of (cap := 1) (by decide +kernel)
theorem mgga_x_vt84_screenedOne : ScreenedOne .mgga mgga_x_vt84 := screenedOne_flip mgga_x_vt84_spinFlip (cap := 1) (by decide +kernel)
theorem mgga_x_vt84_screenedRest : ScreenedRest .mgga mgga_x_vt84 := screenedRest_flip mgga_x_vt84_spinFlip (cap := 4) (by decide +kernel)
theorem mgga_x_vt84_scaling : UniformScaling 3 1 .mgga mgga_x_vt84 := uniformScaling_of (cap := 1) (by decide +kernel)
theorem mgga_x_vt84_scalingUnpol : UniformScalingUnpol 3 1 .mgga mgga_x_vt84 := uniformScalingUnpol_of (cap := 1) (by decide +kernel)

end Verif.Props
