import Verif.Norm.Clamp
import Verif.Props.Classification
import Verif.Props.ClosedShell4
import Verif.Props.Exchange4
import Verif.Props.SpinFlip4
/-!
# C62: the spin-scaling relation on the whole domain
-/
set_option Elab.async false
set_option maxRecDepth 100000
namespace Verif.Props
open Verif.Py Verif.Model Verif.Spec Verif.Norm Verif.Data

theorem mgga_k_pgslb_fullSpinScaling : FullSpinScaling keptShare (5 / 3) .mgga mgga_k_pgslb :=
  fullSpinScaling_of (both := true) (k := .thirds) (cap := 1) (spinFlip_z mgga_k_pgslb_spinFlip) (closedShell_z mgga_k_pgslb_closedShell) mgga_k_pgslb_spinScaling mgga_k_pgslb_screenedBoth mgga_k_pgslb_screenedRest (by decide +kernel) (by decide +kernel)
theorem mgga_k_rda_fullSpinScaling : FullSpinScaling keptShare (5 / 3) .mgga mgga_k_rda :=
  fullSpinScaling_of (both := true) (k := .thirds) (cap := 1) (spinFlip_z mgga_k_rda_spinFlip) (closedShell_z mgga_k_rda_closedShell) mgga_k_rda_spinScaling mgga_k_rda_screenedBoth mgga_k_rda_screenedRest (by decide +kernel) (by decide +kernel)
theorem mgga_x_2d_prhg07_fullSpinScaling : FullSpinScaling keptShare (3 / 2) .mgga mgga_x_2d_prhg07 :=
  fullSpinScaling_of (both := true) (k := .half) (cap := 4) (spinFlip_z mgga_x_2d_prhg07_spinFlip) (closedShell_z mgga_x_2d_prhg07_closedShell) mgga_x_2d_prhg07_spinScaling mgga_x_2d_prhg07_screenedBoth mgga_x_2d_prhg07_screenedRest (by decide +kernel) (by decide +kernel)
theorem mgga_x_br89_explicit_fullSpinScaling : FullSpinScaling keptShare (4 / 3) .mgga mgga_x_br89_explicit :=
  fullSpinScaling_of (both := true) (k := .third) (cap := 1) (spinFlip_z mgga_x_br89_explicit_spinFlip) (closedShell_z mgga_x_br89_explicit_closedShell) mgga_x_br89_explicit_spinScaling mgga_x_br89_explicit_screenedBoth mgga_x_br89_explicit_screenedRest (by decide +kernel) (by decide +kernel)
theorem mgga_x_edmgga_fullSpinScaling : FullSpinScaling keptShare (4 / 3) .mgga mgga_x_edmgga :=
  fullSpinScaling_of (both := true) (k := .third) (cap := 1) (spinFlip_z mgga_x_edmgga_spinFlip) (closedShell_z mgga_x_edmgga_closedShell) mgga_x_edmgga_spinScaling mgga_x_edmgga_screenedBoth mgga_x_edmgga_screenedRest (by decide +kernel) (by decide +kernel)
theorem mgga_x_ft98_fullSpinScaling : FullSpinScaling keptShare (4 / 3) .mgga mgga_x_ft98 :=
  fullSpinScaling_of (both := true) (k := .third) (cap := 4) (spinFlip_z mgga_x_ft98_spinFlip) (closedShell_z mgga_x_ft98_closedShell) mgga_x_ft98_spinScaling mgga_x_ft98_screenedBoth mgga_x_ft98_screenedRest (by decide +kernel) (by decide +kernel)
theorem mgga_x_gdme_fullSpinScaling : FullSpinScaling keptShare (4 / 3) .mgga mgga_x_gdme :=
  fullSpinScaling_of (both := true) (k := .third) (cap := 1) (spinFlip_z mgga_x_gdme_spinFlip) (closedShell_z mgga_x_gdme_closedShell) mgga_x_gdme_spinScaling mgga_x_gdme_screenedBoth mgga_x_gdme_screenedRest (by decide +kernel) (by decide +kernel)
theorem mgga_x_gvt4_fullSpinScaling : FullSpinScaling keptShare (4 / 3) .mgga mgga_x_gvt4 :=
  fullSpinScaling_of (both := true) (k := .third) (cap := 1) (spinFlip_z mgga_x_gvt4_spinFlip) (closedShell_z mgga_x_gvt4_closedShell) mgga_x_gvt4_spinScaling mgga_x_gvt4_screenedBoth mgga_x_gvt4_screenedRest (by decide +kernel) (by decide +kernel)
theorem mgga_x_gx_fullSpinScaling : FullSpinScaling keptShare (4 / 3) .mgga mgga_x_gx :=
  fullSpinScaling_of (both := true) (k := .third) (cap := 1) (spinFlip_z mgga_x_gx_spinFlip) (closedShell_z mgga_x_gx_closedShell) mgga_x_gx_spinScaling mgga_x_gx_screenedBoth mgga_x_gx_screenedRest (by decide +kernel) (by decide +kernel)
theorem mgga_x_jk_fullSpinScaling : FullSpinScaling keptShare (4 / 3) .mgga mgga_x_jk :=
  fullSpinScaling_of (both := true) (k := .third) (cap := 4) (spinFlip_z mgga_x_jk_spinFlip) (closedShell_z mgga_x_jk_closedShell) mgga_x_jk_spinScaling mgga_x_jk_screenedBoth mgga_x_jk_screenedRest (by decide +kernel) (by decide +kernel)
theorem mgga_x_lta_fullSpinScaling : FullSpinScaling keptShare (4 / 3) .mgga mgga_x_lta :=
  fullSpinScaling_of (both := true) (k := .third) (cap := 4) (spinFlip_z mgga_x_lta_spinFlip) (closedShell_z mgga_x_lta_closedShell) mgga_x_lta_spinScaling mgga_x_lta_screenedBoth mgga_x_lta_screenedRest (by decide +kernel) (by decide +kernel)
theorem mgga_x_m06l_fullSpinScaling : FullSpinScaling keptShare (4 / 3) .mgga mgga_x_m06l :=
  fullSpinScaling_of (both := true) (k := .third) (cap := 1) (spinFlip_z mgga_x_m06l_spinFlip) (closedShell_z mgga_x_m06l_closedShell) mgga_x_m06l_spinScaling mgga_x_m06l_screenedBoth mgga_x_m06l_screenedRest (by decide +kernel) (by decide +kernel)
theorem mgga_x_m08_fullSpinScaling : FullSpinScaling keptShare (4 / 3) .mgga mgga_x_m08 :=
  fullSpinScaling_of (both := true) (k := .third) (cap := 4) (spinFlip_z mgga_x_m08_spinFlip) (closedShell_z mgga_x_m08_closedShell) mgga_x_m08_spinScaling mgga_x_m08_screenedBoth mgga_x_m08_screenedRest (by decide +kernel) (by decide +kernel)
theorem mgga_x_mbeef_fullSpinScaling : FullSpinScaling keptShare (4 / 3) .mgga mgga_x_mbeef :=
  fullSpinScaling_of (both := true) (k := .third) (cap := 1) (spinFlip_z mgga_x_mbeef_spinFlip) (closedShell_z mgga_x_mbeef_closedShell) mgga_x_mbeef_spinScaling mgga_x_mbeef_screenedBoth mgga_x_mbeef_screenedRest (by decide +kernel) (by decide +kernel)
theorem mgga_x_mbeefvdw_fullSpinScaling : FullSpinScaling keptShare (4 / 3) .mgga mgga_x_mbeefvdw :=
  fullSpinScaling_of (both := true) (k := .third) (cap := 1) (spinFlip_z mgga_x_mbeefvdw_spinFlip) (closedShell_z mgga_x_mbeefvdw_closedShell) mgga_x_mbeefvdw_spinScaling mgga_x_mbeefvdw_screenedBoth mgga_x_mbeefvdw_screenedRest (by decide +kernel) (by decide +kernel)
theorem mgga_x_mcml_fullSpinScaling : FullSpinScaling keptShare (4 / 3) .mgga mgga_x_mcml :=
  fullSpinScaling_of (both := true) (k := .third) (cap := 1) (spinFlip_z mgga_x_mcml_spinFlip) (closedShell_z mgga_x_mcml_closedShell) mgga_x_mcml_spinScaling mgga_x_mcml_screenedBoth mgga_x_mcml_screenedRest (by decide +kernel) (by decide +kernel)
theorem mgga_x_ms_fullSpinScaling : FullSpinScaling keptShare (4 / 3) .mgga mgga_x_ms :=
  fullSpinScaling_of (both := true) (k := .third) (cap := 1) (spinFlip_z mgga_x_ms_spinFlip) (closedShell_z mgga_x_ms_closedShell) mgga_x_ms_spinScaling mgga_x_ms_screenedBoth mgga_x_ms_screenedRest (by decide +kernel) (by decide +kernel)
theorem mgga_x_msb_fullSpinScaling : FullSpinScaling keptShare (4 / 3) .mgga mgga_x_msb :=
  fullSpinScaling_of (both := true) (k := .third) (cap := 1) (spinFlip_z mgga_x_msb_spinFlip) (closedShell_z mgga_x_msb_closedShell) mgga_x_msb_spinScaling mgga_x_msb_screenedBoth mgga_x_msb_screenedRest (by decide +kernel) (by decide +kernel)
theorem mgga_x_mvs_fullSpinScaling : FullSpinScaling keptShare (4 / 3) .mgga mgga_x_mvs :=
  fullSpinScaling_of (both := true) (k := .third) (cap := 1) (spinFlip_z mgga_x_mvs_spinFlip) (closedShell_z mgga_x_mvs_closedShell) mgga_x_mvs_spinScaling mgga_x_mvs_screenedBoth mgga_x_mvs_screenedRest (by decide +kernel) (by decide +kernel)
theorem mgga_x_mvsb_fullSpinScaling : FullSpinScaling keptShare (4 / 3) .mgga mgga_x_mvsb :=
  fullSpinScaling_of (both := true) (k := .third) (cap := 1) (spinFlip_z mgga_x_mvsb_spinFlip) (closedShell_z mgga_x_mvsb_closedShell) mgga_x_mvsb_spinScaling mgga_x_mvsb_screenedBoth mgga_x_mvsb_screenedRest (by decide +kernel) (by decide +kernel)
theorem mgga_x_pbe_gx_fullSpinScaling : FullSpinScaling keptShare (4 / 3) .mgga mgga_x_pbe_gx :=
  fullSpinScaling_of (both := true) (k := .third) (cap := 1) (spinFlip_z mgga_x_pbe_gx_spinFlip) (closedShell_z mgga_x_pbe_gx_closedShell) mgga_x_pbe_gx_spinScaling mgga_x_pbe_gx_screenedBoth mgga_x_pbe_gx_screenedRest (by decide +kernel) (by decide +kernel)
theorem mgga_x_pkzb_fullSpinScaling : FullSpinScaling keptShare (4 / 3) .mgga mgga_x_pkzb :=
  fullSpinScaling_of (both := true) (k := .third) (cap := 4) (spinFlip_z mgga_x_pkzb_spinFlip) (closedShell_z mgga_x_pkzb_closedShell) mgga_x_pkzb_spinScaling mgga_x_pkzb_screenedBoth mgga_x_pkzb_screenedRest (by decide +kernel) (by decide +kernel)
theorem mgga_x_r2scan_fullSpinScaling : FullSpinScaling keptShare (4 / 3) .mgga mgga_x_r2scan :=
  fullSpinScaling_of (both := true) (k := .third) (cap := 1) (spinFlip_z mgga_x_r2scan_spinFlip) (closedShell_z mgga_x_r2scan_closedShell) mgga_x_r2scan_spinScaling mgga_x_r2scan_screenedBoth mgga_x_r2scan_screenedRest (by decide +kernel) (by decide +kernel)
theorem mgga_x_r4scan_fullSpinScaling : FullSpinScaling keptShare (4 / 3) .mgga mgga_x_r4scan :=
  fullSpinScaling_of (both := true) (k := .third) (cap := 1) (spinFlip_z mgga_x_r4scan_spinFlip) (closedShell_z mgga_x_r4scan_closedShell) mgga_x_r4scan_spinScaling mgga_x_r4scan_screenedBoth mgga_x_r4scan_screenedRest (by decide +kernel) (by decide +kernel)
theorem mgga_x_regtm_fullSpinScaling : FullSpinScaling keptShare (4 / 3) .mgga mgga_x_regtm :=
  fullSpinScaling_of (both := true) (k := .third) (cap := 1) (spinFlip_z mgga_x_regtm_spinFlip) (closedShell_z mgga_x_regtm_closedShell) mgga_x_regtm_spinScaling mgga_x_regtm_screenedBoth mgga_x_regtm_screenedRest (by decide +kernel) (by decide +kernel)
theorem mgga_x_regtpss_fullSpinScaling : FullSpinScaling keptShare (4 / 3) .mgga mgga_x_regtpss :=
  fullSpinScaling_of (both := true) (k := .third) (cap := 1) (spinFlip_z mgga_x_regtpss_spinFlip) (closedShell_z mgga_x_regtpss_closedShell) mgga_x_regtpss_spinScaling mgga_x_regtpss_screenedBoth mgga_x_regtpss_screenedRest (by decide +kernel) (by decide +kernel)
theorem mgga_x_revtm_fullSpinScaling : FullSpinScaling keptShare (4 / 3) .mgga mgga_x_revtm :=
  fullSpinScaling_of (both := true) (k := .third) (cap := 1) (spinFlip_z mgga_x_revtm_spinFlip) (closedShell_z mgga_x_revtm_closedShell) mgga_x_revtm_spinScaling mgga_x_revtm_screenedBoth mgga_x_revtm_screenedRest (by decide +kernel) (by decide +kernel)
theorem mgga_x_rlda_fullSpinScaling : FullSpinScaling keptShare (4 / 3) .mgga mgga_x_rlda :=
  fullSpinScaling_of (both := true) (k := .third) (cap := 4) (spinFlip_z mgga_x_rlda_spinFlip) (closedShell_z mgga_x_rlda_closedShell) mgga_x_rlda_spinScaling mgga_x_rlda_screenedBoth mgga_x_rlda_screenedRest (by decide +kernel) (by decide +kernel)
theorem mgga_x_rppscan_fullSpinScaling : FullSpinScaling keptShare (4 / 3) .mgga mgga_x_rppscan :=
  fullSpinScaling_of (both := true) (k := .third) (cap := 1) (spinFlip_z mgga_x_rppscan_spinFlip) (closedShell_z mgga_x_rppscan_closedShell) mgga_x_rppscan_spinScaling mgga_x_rppscan_screenedBoth mgga_x_rppscan_screenedRest (by decide +kernel) (by decide +kernel)
theorem mgga_x_rtpss_fullSpinScaling : FullSpinScaling keptShare (4 / 3) .mgga mgga_x_rtpss :=
  fullSpinScaling_of (both := true) (k := .third) (cap := 1) (spinFlip_z mgga_x_rtpss_spinFlip) (closedShell_z mgga_x_rtpss_closedShell) mgga_x_rtpss_spinScaling mgga_x_rtpss_screenedBoth mgga_x_rtpss_screenedRest (by decide +kernel) (by decide +kernel)
theorem mgga_x_sa_tpss_fullSpinScaling : FullSpinScaling keptShare (4 / 3) .mgga mgga_x_sa_tpss :=
  fullSpinScaling_of (both := true) (k := .third) (cap := 1) (spinFlip_z mgga_x_sa_tpss_spinFlip) (closedShell_z mgga_x_sa_tpss_closedShell) mgga_x_sa_tpss_spinScaling mgga_x_sa_tpss_screenedBoth mgga_x_sa_tpss_screenedRest (by decide +kernel) (by decide +kernel)
theorem mgga_x_scan_fullSpinScaling : FullSpinScaling keptShare (4 / 3) .mgga mgga_x_scan :=
  fullSpinScaling_of (both := true) (k := .third) (cap := 1) (spinFlip_z mgga_x_scan_spinFlip) (closedShell_z mgga_x_scan_closedShell) mgga_x_scan_spinScaling mgga_x_scan_screenedBoth mgga_x_scan_screenedRest (by decide +kernel) (by decide +kernel)
theorem mgga_x_tau_hcth_fullSpinScaling : FullSpinScaling keptShare (4 / 3) .mgga mgga_x_tau_hcth :=
  fullSpinScaling_of (both := true) (k := .third) (cap := 1) (spinFlip_z mgga_x_tau_hcth_spinFlip) (closedShell_z mgga_x_tau_hcth_closedShell) mgga_x_tau_hcth_spinScaling mgga_x_tau_hcth_screenedBoth mgga_x_tau_hcth_screenedRest (by decide +kernel) (by decide +kernel)
theorem mgga_x_th_fullSpinScaling : FullSpinScaling keptShare (4 / 3) .mgga mgga_x_th :=
  fullSpinScaling_of (both := true) (k := .third) (cap := 4) (spinFlip_z mgga_x_th_spinFlip) (closedShell_z mgga_x_th_closedShell) mgga_x_th_spinScaling mgga_x_th_screenedBoth mgga_x_th_screenedRest (by decide +kernel) (by decide +kernel)
theorem mgga_x_tm_fullSpinScaling : FullSpinScaling keptShare (4 / 3) .mgga mgga_x_tm :=
  fullSpinScaling_of (both := true) (k := .third) (cap := 1) (spinFlip_z mgga_x_tm_spinFlip) (closedShell_z mgga_x_tm_closedShell) mgga_x_tm_spinScaling mgga_x_tm_screenedBoth mgga_x_tm_screenedRest (by decide +kernel) (by decide +kernel)
theorem mgga_x_tpss_fullSpinScaling : FullSpinScaling keptShare (4 / 3) .mgga mgga_x_tpss :=
  fullSpinScaling_of (both := true) (k := .third) (cap := 1) (spinFlip_z mgga_x_tpss_spinFlip) (closedShell_z mgga_x_tpss_closedShell) mgga_x_tpss_spinScaling mgga_x_tpss_screenedBoth mgga_x_tpss_screenedRest (by decide +kernel) (by decide +kernel)
theorem mgga_x_vcml_fullSpinScaling : FullSpinScaling keptShare (4 / 3) .mgga mgga_x_vcml :=
  fullSpinScaling_of (both := true) (k := .third) (cap := 1) (spinFlip_z mgga_x_vcml_spinFlip) (closedShell_z mgga_x_vcml_closedShell) mgga_x_vcml_spinScaling mgga_x_vcml_screenedBoth mgga_x_vcml_screenedRest (by decide +kernel) (by decide +kernel)
theorem mgga_x_vt84_fullSpinScaling : FullSpinScaling keptShare (4 / 3) .mgga mgga_x_vt84 :=
  fullSpinScaling_of (both := true) (k := .third) (cap := 1) (spinFlip_z mgga_x_vt84_spinFlip) (closedShell_z mgga_x_vt84_closedShell) mgga_x_vt84_spinScaling mgga_x_vt84_screenedBoth mgga_x_vt84_screenedRest (by decide +kernel) (by decide +kernel)

end Verif.Props
