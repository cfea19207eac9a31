import Verif.Norm.Clamp
import Verif.Props.Classification
import Verif.Props.ClosedShell3
import Verif.Props.Exchange3
import Verif.Props.SpinFlip3
/-!
# C62: the spin-scaling relation on the whole domain
-/
set_option Elab.async false
set_option maxRecDepth 100000
namespace Verif.Props
open Verif.Py Verif.Model Verif.Spec Verif.Norm Verif.Data

theorem lda_k_tf_fullSpinScaling : FullSpinScaling keptBelow (5 / 3) .lda lda_k_tf :=
  fullSpinScaling_plain (both := false) (k := .thirds) (cap := 4) (spinFlip_z lda_k_tf_spinFlip) (by decide +kernel) (by decide +kernel)
theorem lda_x_fullSpinScaling : FullSpinScaling keptBelow (4 / 3) .lda lda_x :=
  fullSpinScaling_of (both := false) (k := .third) (cap := 4) (spinFlip_z lda_x_spinFlip) (closedShell_z lda_x_closedShell) lda_x_spinScaling lda_x_screenedBoth lda_x_screenedRest (by decide +kernel) (by decide +kernel)
theorem lda_x_2d_fullSpinScaling : FullSpinScaling keptBelow (3 / 2) .lda lda_x_2d :=
  fullSpinScaling_plain (both := false) (k := .half) (cap := 4) (spinFlip_z lda_x_2d_spinFlip) (by decide +kernel) (by decide +kernel)
theorem mgga_k_csk_fullSpinScaling : FullSpinScaling keptShare (5 / 3) .mgga mgga_k_csk :=
  fullSpinScaling_of (both := true) (k := .thirds) (cap := 1) (spinFlip_z mgga_k_csk_spinFlip) (closedShell_z mgga_k_csk_closedShell) mgga_k_csk_spinScaling mgga_k_csk_screenedBoth mgga_k_csk_screenedRest (by decide +kernel) (by decide +kernel)
theorem mgga_k_csk_loc_fullSpinScaling : FullSpinScaling keptShare (5 / 3) .mgga mgga_k_csk_loc :=
  fullSpinScaling_of (both := true) (k := .thirds) (cap := 1) (spinFlip_z mgga_k_csk_loc_spinFlip) (closedShell_z mgga_k_csk_loc_closedShell) mgga_k_csk_loc_spinScaling mgga_k_csk_loc_screenedBoth mgga_k_csk_loc_screenedRest (by decide +kernel) (by decide +kernel)
theorem mgga_k_gea2_fullSpinScaling : FullSpinScaling keptShare (5 / 3) .mgga mgga_k_gea2 :=
  fullSpinScaling_of (both := true) (k := .thirds) (cap := 1) (spinFlip_z mgga_k_gea2_spinFlip) (closedShell_z mgga_k_gea2_closedShell) mgga_k_gea2_spinScaling mgga_k_gea2_screenedBoth mgga_k_gea2_screenedRest (by decide +kernel) (by decide +kernel)
theorem mgga_k_gea4_fullSpinScaling : FullSpinScaling keptShare (5 / 3) .mgga mgga_k_gea4 :=
  fullSpinScaling_of (both := true) (k := .thirds) (cap := 1) (spinFlip_z mgga_k_gea4_spinFlip) (closedShell_z mgga_k_gea4_closedShell) mgga_k_gea4_spinScaling mgga_k_gea4_screenedBoth mgga_k_gea4_screenedRest (by decide +kernel) (by decide +kernel)
theorem mgga_k_lk_fullSpinScaling : FullSpinScaling keptShare (5 / 3) .mgga mgga_k_lk :=
  fullSpinScaling_of (both := true) (k := .thirds) (cap := 1) (spinFlip_z mgga_k_lk_spinFlip) (closedShell_z mgga_k_lk_closedShell) mgga_k_lk_spinScaling mgga_k_lk_screenedBoth mgga_k_lk_screenedRest (by decide +kernel) (by decide +kernel)
theorem mgga_k_pc07_fullSpinScaling : FullSpinScaling keptShare (5 / 3) .mgga mgga_k_pc07 :=
  fullSpinScaling_of (both := true) (k := .thirds) (cap := 1) (spinFlip_z mgga_k_pc07_spinFlip) (closedShell_z mgga_k_pc07_closedShell) mgga_k_pc07_spinScaling mgga_k_pc07_screenedBoth mgga_k_pc07_screenedRest (by decide +kernel) (by decide +kernel)

end Verif.Props
