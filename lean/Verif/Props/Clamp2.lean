import Verif.Norm.Clamp
import Verif.Props.Classification
import Verif.Props.ClosedShell2
import Verif.Props.Exchange2
import Verif.Props.SpinFlip2
/-!
# C62: the spin-scaling relation on the whole domain
-/
set_option Elab.async false
set_option maxRecDepth 100000
namespace Verif.Props
open Verif.Py Verif.Model Verif.Spec Verif.Norm Verif.Data

theorem gga_x_lag_fullSpinScaling : FullSpinScaling keptShare (4 / 3) .gga gga_x_lag :=
  fullSpinScaling_of (both := true) (k := .third) (cap := 4) (spinFlip_z gga_x_lag_spinFlip) (closedShell_z gga_x_lag_closedShell) gga_x_lag_spinScaling gga_x_lag_screenedBoth gga_x_lag_screenedRest (by decide +kernel) (by decide +kernel)
theorem gga_x_lspbe_fullSpinScaling : FullSpinScaling keptShare (4 / 3) .gga gga_x_lspbe :=
  fullSpinScaling_of (both := true) (k := .third) (cap := 1) (spinFlip_z gga_x_lspbe_spinFlip) (closedShell_z gga_x_lspbe_closedShell) gga_x_lspbe_spinScaling gga_x_lspbe_screenedBoth gga_x_lspbe_screenedRest (by decide +kernel) (by decide +kernel)
theorem gga_x_lsrpbe_fullSpinScaling : FullSpinScaling keptShare (4 / 3) .gga gga_x_lsrpbe :=
  fullSpinScaling_of (both := true) (k := .third) (cap := 1) (spinFlip_z gga_x_lsrpbe_spinFlip) (closedShell_z gga_x_lsrpbe_closedShell) gga_x_lsrpbe_spinScaling gga_x_lsrpbe_screenedBoth gga_x_lsrpbe_screenedRest (by decide +kernel) (by decide +kernel)
theorem gga_x_mpbe_fullSpinScaling : FullSpinScaling keptShare (4 / 3) .gga gga_x_mpbe :=
  fullSpinScaling_of (both := true) (k := .third) (cap := 1) (spinFlip_z gga_x_mpbe_spinFlip) (closedShell_z gga_x_mpbe_closedShell) gga_x_mpbe_spinScaling gga_x_mpbe_screenedBoth gga_x_mpbe_screenedRest (by decide +kernel) (by decide +kernel)
theorem gga_x_ncap_fullSpinScaling : FullSpinScaling keptShare (4 / 3) .gga gga_x_ncap :=
  fullSpinScaling_of (both := true) (k := .third) (cap := 1) (spinFlip_z gga_x_ncap_spinFlip) (closedShell_z gga_x_ncap_closedShell) gga_x_ncap_spinScaling gga_x_ncap_screenedBoth gga_x_ncap_screenedRest (by decide +kernel) (by decide +kernel)
theorem gga_x_ol2_fullSpinScaling : FullSpinScaling keptShare (4 / 3) .gga gga_x_ol2 :=
  fullSpinScaling_of (both := true) (k := .third) (cap := 1) (spinFlip_z gga_x_ol2_spinFlip) (closedShell_z gga_x_ol2_closedShell) gga_x_ol2_spinScaling gga_x_ol2_screenedBoth gga_x_ol2_screenedRest (by decide +kernel) (by decide +kernel)
theorem gga_x_optx_fullSpinScaling : FullSpinScaling keptShare (4 / 3) .gga gga_x_optx :=
  fullSpinScaling_of (both := true) (k := .third) (cap := 4) (spinFlip_z gga_x_optx_spinFlip) (closedShell_z gga_x_optx_closedShell) gga_x_optx_spinScaling gga_x_optx_screenedBoth gga_x_optx_screenedRest (by decide +kernel) (by decide +kernel)
theorem gga_x_pbe_fullSpinScaling : FullSpinScaling keptShare (4 / 3) .gga gga_x_pbe :=
  fullSpinScaling_of (both := true) (k := .third) (cap := 1) (spinFlip_z gga_x_pbe_spinFlip) (closedShell_z gga_x_pbe_closedShell) gga_x_pbe_spinScaling gga_x_pbe_screenedBoth gga_x_pbe_screenedRest (by decide +kernel) (by decide +kernel)
theorem gga_x_pbea_fullSpinScaling : FullSpinScaling keptShare (4 / 3) .gga gga_x_pbea :=
  fullSpinScaling_of (both := true) (k := .third) (cap := 4) (spinFlip_z gga_x_pbea_spinFlip) (closedShell_z gga_x_pbea_closedShell) gga_x_pbea_spinScaling gga_x_pbea_screenedBoth gga_x_pbea_screenedRest (by decide +kernel) (by decide +kernel)
theorem gga_x_pbeint_fullSpinScaling : FullSpinScaling keptShare (4 / 3) .gga gga_x_pbeint :=
  fullSpinScaling_of (both := true) (k := .third) (cap := 1) (spinFlip_z gga_x_pbeint_spinFlip) (closedShell_z gga_x_pbeint_closedShell) gga_x_pbeint_spinScaling gga_x_pbeint_screenedBoth gga_x_pbeint_screenedRest (by decide +kernel) (by decide +kernel)
theorem gga_x_pbepow_fullSpinScaling : FullSpinScaling keptShare (4 / 3) .gga gga_x_pbepow :=
  fullSpinScaling_of (both := true) (k := .third) (cap := 1) (spinFlip_z gga_x_pbepow_spinFlip) (closedShell_z gga_x_pbepow_closedShell) gga_x_pbepow_spinScaling gga_x_pbepow_screenedBoth gga_x_pbepow_screenedRest (by decide +kernel) (by decide +kernel)
theorem gga_x_pbetrans_fullSpinScaling : FullSpinScaling keptShare (4 / 3) .gga gga_x_pbetrans :=
  fullSpinScaling_of (both := true) (k := .third) (cap := 4) (spinFlip_z gga_x_pbetrans_spinFlip) (closedShell_z gga_x_pbetrans_closedShell) gga_x_pbetrans_spinScaling gga_x_pbetrans_screenedBoth gga_x_pbetrans_screenedRest (by decide +kernel) (by decide +kernel)
theorem gga_x_pw86_fullSpinScaling : FullSpinScaling keptShare (4 / 3) .gga gga_x_pw86 :=
  fullSpinScaling_of (both := true) (k := .third) (cap := 4) (spinFlip_z gga_x_pw86_spinFlip) (closedShell_z gga_x_pw86_closedShell) gga_x_pw86_spinScaling gga_x_pw86_screenedBoth gga_x_pw86_screenedRest (by decide +kernel) (by decide +kernel)
theorem gga_x_pw91_fullSpinScaling : FullSpinScaling keptShare (4 / 3) .gga gga_x_pw91 :=
  fullSpinScaling_of (both := true) (k := .third) (cap := 1) (spinFlip_z gga_x_pw91_spinFlip) (closedShell_z gga_x_pw91_closedShell) gga_x_pw91_spinScaling gga_x_pw91_screenedBoth gga_x_pw91_screenedRest (by decide +kernel) (by decide +kernel)
theorem gga_x_q1d_fullSpinScaling : FullSpinScaling keptShare (4 / 3) .gga gga_x_q1d :=
  fullSpinScaling_of (both := true) (k := .third) (cap := 1) (spinFlip_z gga_x_q1d_spinFlip) (closedShell_z gga_x_q1d_closedShell) gga_x_q1d_spinScaling gga_x_q1d_screenedBoth gga_x_q1d_screenedRest (by decide +kernel) (by decide +kernel)
theorem gga_x_q2d_fullSpinScaling : FullSpinScaling keptShare (4 / 3) .gga gga_x_q2d :=
  fullSpinScaling_of (both := true) (k := .third) (cap := 1) (spinFlip_z gga_x_q2d_spinFlip) (closedShell_z gga_x_q2d_closedShell) gga_x_q2d_spinScaling gga_x_q2d_screenedBoth gga_x_q2d_screenedRest (by decide +kernel) (by decide +kernel)
theorem gga_x_rpbe_fullSpinScaling : FullSpinScaling keptShare (4 / 3) .gga gga_x_rpbe :=
  fullSpinScaling_of (both := true) (k := .third) (cap := 1) (spinFlip_z gga_x_rpbe_spinFlip) (closedShell_z gga_x_rpbe_closedShell) gga_x_rpbe_spinScaling gga_x_rpbe_screenedBoth gga_x_rpbe_screenedRest (by decide +kernel) (by decide +kernel)
theorem gga_x_s12_fullSpinScaling : FullSpinScaling keptShare (4 / 3) .gga gga_x_s12 :=
  fullSpinScaling_of (both := true) (k := .third) (cap := 1) (spinFlip_z gga_x_s12_spinFlip) (closedShell_z gga_x_s12_closedShell) gga_x_s12_spinScaling gga_x_s12_screenedBoth gga_x_s12_screenedRest (by decide +kernel) (by decide +kernel)
theorem gga_x_sogga11_fullSpinScaling : FullSpinScaling keptShare (4 / 3) .gga gga_x_sogga11 :=
  fullSpinScaling_of (both := true) (k := .third) (cap := 1) (spinFlip_z gga_x_sogga11_spinFlip) (closedShell_z gga_x_sogga11_closedShell) gga_x_sogga11_spinScaling gga_x_sogga11_screenedBoth gga_x_sogga11_screenedRest (by decide +kernel) (by decide +kernel)
theorem gga_x_ssb_sw_fullSpinScaling : FullSpinScaling keptShare (4 / 3) .gga gga_x_ssb_sw :=
  fullSpinScaling_of (both := true) (k := .third) (cap := 1) (spinFlip_z gga_x_ssb_sw_spinFlip) (closedShell_z gga_x_ssb_sw_closedShell) gga_x_ssb_sw_spinScaling gga_x_ssb_sw_screenedBoth gga_x_ssb_sw_screenedRest (by decide +kernel) (by decide +kernel)
theorem gga_x_vmt_fullSpinScaling : FullSpinScaling keptShare (4 / 3) .gga gga_x_vmt :=
  fullSpinScaling_of (both := true) (k := .third) (cap := 4) (spinFlip_z gga_x_vmt_spinFlip) (closedShell_z gga_x_vmt_closedShell) gga_x_vmt_spinScaling gga_x_vmt_screenedBoth gga_x_vmt_screenedRest (by decide +kernel) (by decide +kernel)
theorem gga_x_vmt84_fullSpinScaling : FullSpinScaling keptShare (4 / 3) .gga gga_x_vmt84 :=
  fullSpinScaling_of (both := true) (k := .third) (cap := 1) (spinFlip_z gga_x_vmt84_spinFlip) (closedShell_z gga_x_vmt84_closedShell) gga_x_vmt84_spinScaling gga_x_vmt84_screenedBoth gga_x_vmt84_screenedRest (by decide +kernel) (by decide +kernel)
theorem gga_x_wc_fullSpinScaling : FullSpinScaling keptShare (4 / 3) .gga gga_x_wc :=
  fullSpinScaling_of (both := true) (k := .third) (cap := 4) (spinFlip_z gga_x_wc_spinFlip) (closedShell_z gga_x_wc_closedShell) gga_x_wc_spinScaling gga_x_wc_screenedBoth gga_x_wc_screenedRest (by decide +kernel) (by decide +kernel)
theorem hyb_mgga_x_dldf_fullSpinScaling : FullSpinScaling keptShare (4 / 3) .mgga hyb_mgga_x_dldf :=
  fullSpinScaling_of (both := true) (k := .third) (cap := 1) (spinFlip_z hyb_mgga_x_dldf_spinFlip) (closedShell_z hyb_mgga_x_dldf_closedShell) hyb_mgga_x_dldf_spinScaling hyb_mgga_x_dldf_screenedBoth hyb_mgga_x_dldf_screenedRest (by decide +kernel) (by decide +kernel)
theorem hyb_mgga_x_m05_fullSpinScaling : FullSpinScaling keptShare (4 / 3) .mgga hyb_mgga_x_m05 :=
  fullSpinScaling_of (both := true) (k := .third) (cap := 1) (spinFlip_z hyb_mgga_x_m05_spinFlip) (closedShell_z hyb_mgga_x_m05_closedShell) hyb_mgga_x_m05_spinScaling hyb_mgga_x_m05_screenedBoth hyb_mgga_x_m05_screenedRest (by decide +kernel) (by decide +kernel)

end Verif.Props
