import Verif.Norm.Check
import Verif.Data.F13
/-!
# C22: spin-flip symmetry of shipped formulas
-/
namespace Verif.Props
open Verif.Model Verif.Spec Verif.Norm Verif.Data

set_option maxRecDepth 100000

theorem mgga_k_pgslb_spinFlip : SpinFlip .mgga mgga_k_pgslb := spinFlip_of (cap := 1) (by decide +kernel)
theorem mgga_k_rda_spinFlip : SpinFlip .mgga mgga_k_rda := spinFlip_of (cap := 1) (by decide +kernel)
theorem mgga_x_2d_js17_spinFlip : SpinFlip .mgga mgga_x_2d_js17 := spinFlip_of (cap := 1) (by decide +kernel)
theorem mgga_x_2d_prhg07_spinFlip : SpinFlip .mgga mgga_x_2d_prhg07 := spinFlip_of (cap := 1) (by decide +kernel)
theorem mgga_x_br89_explicit_spinFlip : SpinFlip .mgga mgga_x_br89_explicit := spinFlip_of (cap := 1) (by decide +kernel)
theorem mgga_x_edmgga_spinFlip : SpinFlip .mgga mgga_x_edmgga := spinFlip_of (cap := 1) (by decide +kernel)
theorem mgga_x_ft98_spinFlip : SpinFlip .mgga mgga_x_ft98 := spinFlip_of (cap := 1) (by decide +kernel)
theorem mgga_x_gdme_spinFlip : SpinFlip .mgga mgga_x_gdme := spinFlip_of (cap := 1) (by decide +kernel)
theorem mgga_x_gvt4_spinFlip : SpinFlip .mgga mgga_x_gvt4 := spinFlip_of (cap := 1) (by decide +kernel)
theorem mgga_x_gx_spinFlip : SpinFlip .mgga mgga_x_gx := spinFlip_of (cap := 1) (by decide +kernel)
theorem mgga_x_jk_spinFlip : SpinFlip .mgga mgga_x_jk := spinFlip_of (cap := 1) (by decide +kernel)
theorem mgga_x_lta_spinFlip : SpinFlip .mgga mgga_x_lta := spinFlip_of (cap := 1) (by decide +kernel)
theorem mgga_x_m06l_spinFlip : SpinFlip .mgga mgga_x_m06l := spinFlip_of (cap := 1) (by decide +kernel)
theorem mgga_x_m08_spinFlip : SpinFlip .mgga mgga_x_m08 := spinFlip_of (cap := 1) (by decide +kernel)
theorem mgga_x_m11_spinFlip : SpinFlip .mgga mgga_x_m11 := spinFlip_of (cap := 1) (by decide +kernel)
theorem mgga_x_m11_l_spinFlip : SpinFlip .mgga mgga_x_m11_l := spinFlip_of (cap := 1) (by decide +kernel)

end Verif.Props

namespace Verif.Props
open Verif.Model Verif.Spec Verif.Norm Verif.Data

set_option maxRecDepth 100000

theorem mgga_x_mbeef_spinFlip : SpinFlip .mgga mgga_x_mbeef := spinFlip_of (cap := 1) (by decide +kernel)
theorem mgga_x_mbeefvdw_spinFlip : SpinFlip .mgga mgga_x_mbeefvdw := spinFlip_of (cap := 1) (by decide +kernel)
theorem mgga_x_mcml_spinFlip : SpinFlip .mgga mgga_x_mcml := spinFlip_of (cap := 1) (by decide +kernel)
theorem mgga_x_mn12_spinFlip : SpinFlip .mgga mgga_x_mn12 := spinFlip_of (cap := 1) (by decide +kernel)
theorem mgga_x_ms_spinFlip : SpinFlip .mgga mgga_x_ms := spinFlip_of (cap := 1) (by decide +kernel)
theorem mgga_x_msb_spinFlip : SpinFlip .mgga mgga_x_msb := spinFlip_of (cap := 1) (by decide +kernel)
theorem mgga_x_mvs_spinFlip : SpinFlip .mgga mgga_x_mvs := spinFlip_of (cap := 1) (by decide +kernel)

end Verif.Props

namespace Verif.Props
open Verif.Model Verif.Spec Verif.Norm Verif.Data

set_option maxRecDepth 100000

theorem mgga_x_mvsb_spinFlip : SpinFlip .mgga mgga_x_mvsb := spinFlip_of (cap := 1) (by decide +kernel)
theorem mgga_x_pbe_gx_spinFlip : SpinFlip .mgga mgga_x_pbe_gx := spinFlip_of (cap := 1) (by decide +kernel)
theorem mgga_x_pkzb_spinFlip : SpinFlip .mgga mgga_x_pkzb := spinFlip_of (cap := 1) (by decide +kernel)
theorem mgga_x_r2scan_spinFlip : SpinFlip .mgga mgga_x_r2scan := spinFlip_of (cap := 1) (by decide +kernel)
theorem mgga_x_r4scan_spinFlip : SpinFlip .mgga mgga_x_r4scan := spinFlip_of (cap := 1) (by decide +kernel)
theorem mgga_x_regtm_spinFlip : SpinFlip .mgga mgga_x_regtm := spinFlip_of (cap := 1) (by decide +kernel)
theorem mgga_x_regtpss_spinFlip : SpinFlip .mgga mgga_x_regtpss := spinFlip_of (cap := 1) (by decide +kernel)
theorem mgga_x_revtm_spinFlip : SpinFlip .mgga mgga_x_revtm := spinFlip_of (cap := 1) (by decide +kernel)
theorem mgga_x_rlda_spinFlip : SpinFlip .mgga mgga_x_rlda := spinFlip_of (cap := 1) (by decide +kernel)
theorem mgga_x_rppscan_spinFlip : SpinFlip .mgga mgga_x_rppscan := spinFlip_of (cap := 1) (by decide +kernel)
theorem mgga_x_rscan_spinFlip : SpinFlip .mgga mgga_x_rscan := spinFlip_of (cap := 1) (by decide +kernel)
theorem mgga_x_rtpss_spinFlip : SpinFlip .mgga mgga_x_rtpss := spinFlip_of (cap := 1) (by decide +kernel)
theorem mgga_x_sa_tpss_spinFlip : SpinFlip .mgga mgga_x_sa_tpss := spinFlip_of (cap := 1) (by decide +kernel)
theorem mgga_x_scan_spinFlip : SpinFlip .mgga mgga_x_scan := spinFlip_of (cap := 1) (by decide +kernel)
theorem mgga_x_task_spinFlip : SpinFlip .mgga mgga_x_task := spinFlip_of (cap := 1) (by decide +kernel)

end Verif.Props

namespace Verif.Props
open Verif.Model Verif.Spec Verif.Norm Verif.Data

set_option maxRecDepth 100000

theorem mgga_x_tau_hcth_spinFlip : SpinFlip .mgga mgga_x_tau_hcth := spinFlip_of (cap := 1) (by decide +kernel)
theorem mgga_x_th_spinFlip : SpinFlip .mgga mgga_x_th := spinFlip_of (cap := 1) (by decide +kernel)
theorem mgga_x_tm_spinFlip : SpinFlip .mgga mgga_x_tm := spinFlip_of (cap := 1) (by decide +kernel)
theorem mgga_x_tpss_spinFlip : SpinFlip .mgga mgga_x_tpss := spinFlip_of (cap := 1) (by decide +kernel)
theorem mgga_x_vcml_spinFlip : SpinFlip .mgga mgga_x_vcml := spinFlip_of (cap := 1) (by decide +kernel)
theorem mgga_x_vt84_spinFlip : SpinFlip .mgga mgga_x_vt84 := spinFlip_of (cap := 1) (by decide +kernel)
theorem mgga_xc_b97mv_spinFlip : SpinFlip .mgga mgga_xc_b97mv := spinFlip_of (cap := 1) (by decide +kernel)
theorem mgga_xc_b98_spinFlip : SpinFlip .mgga mgga_xc_b98 := spinFlip_of (cap := 1) (by decide +kernel)
theorem mgga_xc_cc06_spinFlip : SpinFlip .mgga mgga_xc_cc06 := spinFlip_of (cap := 1) (by decide +kernel)
theorem mgga_xc_lp90_spinFlip : SpinFlip .mgga mgga_xc_lp90 := spinFlip_of (cap := 1) (by decide +kernel)
theorem mgga_xc_zlp_spinFlip : SpinFlip .mgga mgga_xc_zlp := spinFlip_of (cap := 1) (by decide +kernel)

end Verif.Props
