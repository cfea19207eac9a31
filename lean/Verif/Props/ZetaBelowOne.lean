import Verif.Norm.Check2
import Verif.Data.F01
import Verif.Data.F05
import Verif.Data.F09
/-!
# C21 and C22 for formulas that need `zeta_threshold < 1`
-/
namespace Verif.Props
open Verif.Model Verif.Spec Verif.Norm Verif.Data

set_option maxRecDepth 100000
set_option Elab.async false

theorem gga_c_p86vwn_closedShellZ : ClosedShellZ .gga gga_c_p86vwn := closedShellZ_of (cap := 1) (by decide +kernel)
theorem gga_c_pbe_vwn_closedShellZ : ClosedShellZ .gga gga_c_pbe_vwn := closedShellZ_of (cap := 1) (by decide +kernel)
theorem lda_c_vwn_closedShellZ : ClosedShellZ .lda lda_c_vwn := closedShellZ_of (cap := 1) (by decide +kernel)
theorem lda_c_vwn_3_closedShellZ : ClosedShellZ .lda lda_c_vwn_3 := closedShellZ_of (cap := 1) (by decide +kernel)
theorem lda_c_vwn_4_closedShellZ : ClosedShellZ .lda lda_c_vwn_4 := closedShellZ_of (cap := 1) (by decide +kernel)

theorem gga_c_op_pw91_spinFlipZ : SpinFlipZ .gga gga_c_op_pw91 := spinFlipZ_of (cap := 4) (by decide +kernel)
theorem gga_c_op_b88_spinFlipZ : SpinFlipZ .gga gga_c_op_b88 := spinFlipZ_of (cap := 4) (by decide +kernel)
theorem gga_c_op_g96_spinFlipZ : SpinFlipZ .gga gga_c_op_g96 := spinFlipZ_of (cap := 4) (by decide +kernel)
theorem gga_c_op_pbe_spinFlipZ : SpinFlipZ .gga gga_c_op_pbe := spinFlipZ_of (cap := 4) (by decide +kernel)
theorem gga_c_op_xalpha_spinFlipZ : SpinFlipZ .gga gga_c_op_xalpha := spinFlipZ_of (cap := 4) (by decide +kernel)
theorem gga_c_w94_spinFlipZ : SpinFlipZ .gga gga_c_w94 := spinFlipZ_of (cap := 4) (by decide +kernel)
theorem lda_c_ml1_spinFlipZ : SpinFlipZ .lda lda_c_ml1 := spinFlipZ_of (cap := 4) (by decide +kernel)
theorem mgga_c_revtpss_spinFlipZ : SpinFlipZ .mgga mgga_c_revtpss := spinFlipZ_of (cap := 4) (by decide +kernel)
theorem mgga_c_tpss_spinFlipZ : SpinFlipZ .mgga mgga_c_tpss := spinFlipZ_of (cap := 4) (by decide +kernel)
theorem mgga_c_tpssloc_spinFlipZ : SpinFlipZ .mgga mgga_c_tpssloc := spinFlipZ_of (cap := 4) (by decide +kernel)

end Verif.Props
