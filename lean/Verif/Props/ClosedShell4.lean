import Verif.Norm.Check
import Verif.Data.F13
/-!
# C21: closed-shell consistency of shipped formulas
-/
namespace Verif.Props
open Verif.Model Verif.Spec Verif.Norm Verif.Data

set_option maxRecDepth 100000

theorem mgga_k_pgslb_closedShell : ClosedShell .mgga mgga_k_pgslb := closedShell_of (cap := 1) (by decide +kernel)
theorem mgga_k_rda_closedShell : ClosedShell .mgga mgga_k_rda := closedShell_of (cap := 1) (by decide +kernel)
theorem mgga_x_2d_prhg07_closedShell : ClosedShell .mgga mgga_x_2d_prhg07 := closedShell_of (cap := 1) (by decide +kernel)
theorem mgga_x_2d_prp10_closedShell : ClosedShell .mgga mgga_x_2d_prp10 := closedShell_of (cap := 1) (by decide +kernel)
theorem mgga_x_br89_explicit_closedShell : ClosedShell .mgga mgga_x_br89_explicit := closedShell_of (cap := 1) (by decide +kernel)
theorem mgga_x_edmgga_closedShell : ClosedShell .mgga mgga_x_edmgga := closedShell_of (cap := 1) (by decide +kernel)
theorem mgga_x_ft98_closedShell : ClosedShell .mgga mgga_x_ft98 := closedShell_of (cap := 1) (by decide +kernel)
theorem mgga_x_gdme_closedShell : ClosedShell .mgga mgga_x_gdme := closedShell_of (cap := 1) (by decide +kernel)
theorem mgga_x_gvt4_closedShell : ClosedShell .mgga mgga_x_gvt4 := closedShell_of (cap := 1) (by decide +kernel)
theorem mgga_x_gx_closedShell : ClosedShell .mgga mgga_x_gx := closedShell_of (cap := 1) (by decide +kernel)
theorem mgga_x_jk_closedShell : ClosedShell .mgga mgga_x_jk := closedShell_of (cap := 1) (by decide +kernel)
theorem mgga_x_lta_closedShell : ClosedShell .mgga mgga_x_lta := closedShell_of (cap := 1) (by decide +kernel)
theorem mgga_x_m06l_closedShell : ClosedShell .mgga mgga_x_m06l := closedShell_of (cap := 1) (by decide +kernel)
theorem mgga_x_m08_closedShell : ClosedShell .mgga mgga_x_m08 := closedShell_of (cap := 1) (by decide +kernel)
theorem mgga_x_m11_closedShell : ClosedShell .mgga mgga_x_m11 := closedShell_of (cap := 1) (by decide +kernel)
theorem mgga_x_m11_l_closedShell : ClosedShell .mgga mgga_x_m11_l := closedShell_of (cap := 1) (by decide +kernel)

end Verif.Props

namespace Verif.Props
open Verif.Model Verif.Spec Verif.Norm Verif.Data

set_option maxRecDepth 100000

theorem mgga_x_mbeef_closedShell : ClosedShell .mgga mgga_x_mbeef := closedShell_of (cap := 1) (by decide +kernel)
theorem mgga_x_mbeefvdw_closedShell : ClosedShell .mgga mgga_x_mbeefvdw := closedShell_of (cap := 1) (by decide +kernel)
theorem mgga_x_mcml_closedShell : ClosedShell .mgga mgga_x_mcml := closedShell_of (cap := 1) (by decide +kernel)
theorem mgga_x_mn12_closedShell : ClosedShell .mgga mgga_x_mn12 := closedShell_of (cap := 1) (by decide +kernel)
theorem mgga_x_ms_closedShell : ClosedShell .mgga mgga_x_ms := closedShell_of (cap := 1) (by decide +kernel)
theorem mgga_x_msb_closedShell : ClosedShell .mgga mgga_x_msb := closedShell_of (cap := 1) (by decide +kernel)
theorem mgga_x_mvs_closedShell : ClosedShell .mgga mgga_x_mvs := closedShell_of (cap := 1) (by decide +kernel)

end Verif.Props

namespace Verif.Props
open Verif.Model Verif.Spec Verif.Norm Verif.Data

set_option maxRecDepth 100000

theorem mgga_x_mvsb_closedShell : ClosedShell .mgga mgga_x_mvsb := closedShell_of (cap := 1) (by decide +kernel)
theorem mgga_x_pbe_gx_closedShell : ClosedShell .mgga mgga_x_pbe_gx := closedShell_of (cap := 1) (by decide +kernel)
theorem mgga_x_pkzb_closedShell : ClosedShell .mgga mgga_x_pkzb := closedShell_of (cap := 1) (by decide +kernel)
theorem mgga_x_r2scan_closedShell : ClosedShell .mgga mgga_x_r2scan := closedShell_of (cap := 1) (by decide +kernel)
theorem mgga_x_r4scan_closedShell : ClosedShell .mgga mgga_x_r4scan := closedShell_of (cap := 1) (by decide +kernel)
theorem mgga_x_regtm_closedShell : ClosedShell .mgga mgga_x_regtm := closedShell_of (cap := 1) (by decide +kernel)
theorem mgga_x_regtpss_closedShell : ClosedShell .mgga mgga_x_regtpss := closedShell_of (cap := 1) (by decide +kernel)
theorem mgga_x_revtm_closedShell : ClosedShell .mgga mgga_x_revtm := closedShell_of (cap := 1) (by decide +kernel)
theorem mgga_x_rlda_closedShell : ClosedShell .mgga mgga_x_rlda := closedShell_of (cap := 1) (by decide +kernel)
theorem mgga_x_rppscan_closedShell : ClosedShell .mgga mgga_x_rppscan := closedShell_of (cap := 1) (by decide +kernel)
theorem mgga_x_rscan_closedShell : ClosedShell .mgga mgga_x_rscan := closedShell_of (cap := 1) (by decide +kernel)
theorem mgga_x_rtpss_closedShell : ClosedShell .mgga mgga_x_rtpss := closedShell_of (cap := 1) (by decide +kernel)
theorem mgga_x_sa_tpss_closedShell : ClosedShell .mgga mgga_x_sa_tpss := closedShell_of (cap := 1) (by decide +kernel)
theorem mgga_x_scan_closedShell : ClosedShell .mgga mgga_x_scan := closedShell_of (cap := 1) (by decide +kernel)

end Verif.Props

namespace Verif.Props
open Verif.Model Verif.Spec Verif.Norm Verif.Data

set_option maxRecDepth 100000

theorem mgga_x_tau_hcth_closedShell : ClosedShell .mgga mgga_x_tau_hcth := closedShell_of (cap := 1) (by decide +kernel)
theorem mgga_x_th_closedShell : ClosedShell .mgga mgga_x_th := closedShell_of (cap := 1) (by decide +kernel)
theorem mgga_x_tm_closedShell : ClosedShell .mgga mgga_x_tm := closedShell_of (cap := 1) (by decide +kernel)
theorem mgga_x_tpss_closedShell : ClosedShell .mgga mgga_x_tpss := closedShell_of (cap := 1) (by decide +kernel)
theorem mgga_x_vcml_closedShell : ClosedShell .mgga mgga_x_vcml := closedShell_of (cap := 1) (by decide +kernel)
theorem mgga_x_vt84_closedShell : ClosedShell .mgga mgga_x_vt84 := closedShell_of (cap := 1) (by decide +kernel)
theorem mgga_xc_b97mv_closedShell : ClosedShell .mgga mgga_xc_b97mv := closedShell_of (cap := 1) (by decide +kernel)
theorem mgga_xc_b98_closedShell : ClosedShell .mgga mgga_xc_b98 := closedShell_of (cap := 1) (by decide +kernel)
theorem mgga_xc_cc06_closedShell : ClosedShell .mgga mgga_xc_cc06 := closedShell_of (cap := 1) (by decide +kernel)
theorem mgga_xc_lp90_closedShell : ClosedShell .mgga mgga_xc_lp90 := closedShell_of (cap := 1) (by decide +kernel)
theorem mgga_xc_zlp_closedShell : ClosedShell .mgga mgga_xc_zlp := closedShell_of (cap := 1) (by decide +kernel)

end Verif.Props
