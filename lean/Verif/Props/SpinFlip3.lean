import Verif.Norm.Check
import Verif.Data.F09
/-!
# C22: spin-flip symmetry of shipped formulas
-/
namespace Verif.Props
open Verif.Model Verif.Spec Verif.Norm Verif.Data

set_option maxRecDepth 100000

theorem lda_c_pz_spinFlip : SpinFlip .lda lda_c_pz := spinFlip_of (cap := 1) (by decide +kernel)
theorem lda_c_rc04_spinFlip : SpinFlip .lda lda_c_rc04 := spinFlip_of (cap := 1) (by decide +kernel)
theorem lda_c_rpa_spinFlip : SpinFlip .lda lda_c_rpa := spinFlip_of (cap := 1) (by decide +kernel)
theorem lda_c_vwn_spinFlip : SpinFlip .lda lda_c_vwn := spinFlip_of (cap := 1) (by decide +kernel)
theorem lda_c_vwn_1_spinFlip : SpinFlip .lda lda_c_vwn_1 := spinFlip_of (cap := 1) (by decide +kernel)
theorem lda_c_vwn_2_spinFlip : SpinFlip .lda lda_c_vwn_2 := spinFlip_of (cap := 1) (by decide +kernel)
theorem lda_c_vwn_3_spinFlip : SpinFlip .lda lda_c_vwn_3 := spinFlip_of (cap := 1) (by decide +kernel)
theorem lda_c_vwn_4_spinFlip : SpinFlip .lda lda_c_vwn_4 := spinFlip_of (cap := 1) (by decide +kernel)
theorem lda_c_vwn_rpa_spinFlip : SpinFlip .lda lda_c_vwn_rpa := spinFlip_of (cap := 1) (by decide +kernel)
theorem lda_c_w20_spinFlip : SpinFlip .lda lda_c_w20 := spinFlip_of (cap := 1) (by decide +kernel)
theorem lda_c_wigner_spinFlip : SpinFlip .lda lda_c_wigner := spinFlip_of (cap := 1) (by decide +kernel)
theorem lda_k_gds08_worker_spinFlip : SpinFlip .lda lda_k_gds08_worker := spinFlip_of (cap := 1) (by decide +kernel)
theorem lda_k_tf_spinFlip : SpinFlip .lda lda_k_tf := spinFlip_of (cap := 1) (by decide +kernel)
theorem lda_k_zlp_spinFlip : SpinFlip .lda lda_k_zlp := spinFlip_of (cap := 1) (by decide +kernel)
theorem lda_x_spinFlip : SpinFlip .lda lda_x := spinFlip_of (cap := 1) (by decide +kernel)
theorem lda_x_2d_spinFlip : SpinFlip .lda lda_x_2d := spinFlip_of (cap := 1) (by decide +kernel)
theorem lda_x_erf_spinFlip : SpinFlip .lda lda_x_erf := spinFlip_of (cap := 1) (by decide +kernel)
theorem lda_x_rel_spinFlip : SpinFlip .lda lda_x_rel := spinFlip_of (cap := 1) (by decide +kernel)
theorem lda_x_sloc_spinFlip : SpinFlip .lda lda_x_sloc := spinFlip_of (cap := 1) (by decide +kernel)
theorem lda_x_yukawa_spinFlip : SpinFlip .lda lda_x_yukawa := spinFlip_of (cap := 1) (by decide +kernel)
theorem lda_xc_1d_ehwlrg_spinFlip : SpinFlip .lda lda_xc_1d_ehwlrg := spinFlip_of (cap := 1) (by decide +kernel)
theorem lda_xc_teter93_spinFlip : SpinFlip .lda lda_xc_teter93 := spinFlip_of (cap := 1) (by decide +kernel)
theorem lda_xc_tih_spinFlip : SpinFlip .lda lda_xc_tih := spinFlip_of (cap := 1) (by decide +kernel)
theorem lda_xc_zlp_spinFlip : SpinFlip .lda lda_xc_zlp := spinFlip_of (cap := 1) (by decide +kernel)
theorem mgga_c_b88_spinFlip : SpinFlip .mgga mgga_c_b88 := spinFlip_of (cap := 1) (by decide +kernel)
theorem mgga_c_bc95_spinFlip : SpinFlip .mgga mgga_c_bc95 := spinFlip_of (cap := 1) (by decide +kernel)

end Verif.Props

namespace Verif.Props
open Verif.Model Verif.Spec Verif.Norm Verif.Data

set_option maxRecDepth 100000

theorem mgga_c_cc_spinFlip : SpinFlip .mgga mgga_c_cc := spinFlip_of (cap := 1) (by decide +kernel)
theorem mgga_c_ccalda_spinFlip : SpinFlip .mgga mgga_c_ccalda := spinFlip_of (cap := 1) (by decide +kernel)
theorem mgga_c_cs_spinFlip : SpinFlip .mgga mgga_c_cs := spinFlip_of (cap := 1) (by decide +kernel)
theorem mgga_c_kcis_spinFlip : SpinFlip .mgga mgga_c_kcis := spinFlip_of (cap := 1) (by decide +kernel)
theorem mgga_c_kcisk_spinFlip : SpinFlip .mgga mgga_c_kcisk := spinFlip_of (cap := 1) (by decide +kernel)
theorem mgga_c_ltapw_spinFlip : SpinFlip .mgga mgga_c_ltapw := spinFlip_of (cap := 1) (by decide +kernel)
theorem mgga_c_m05_spinFlip : SpinFlip .mgga mgga_c_m05 := spinFlip_of (cap := 1) (by decide +kernel)
theorem mgga_c_m06l_spinFlip : SpinFlip .mgga mgga_c_m06l := spinFlip_of (cap := 1) (by decide +kernel)
theorem mgga_c_m08_spinFlip : SpinFlip .mgga mgga_c_m08 := spinFlip_of (cap := 1) (by decide +kernel)

end Verif.Props

namespace Verif.Props
open Verif.Model Verif.Spec Verif.Norm Verif.Data

set_option maxRecDepth 100000

theorem mgga_c_pkzb_spinFlip : SpinFlip .mgga mgga_c_pkzb := spinFlip_of (cap := 1) (by decide +kernel)
theorem mgga_c_r2scan_spinFlip : SpinFlip .mgga mgga_c_r2scan := spinFlip_of (cap := 1) (by decide +kernel)
theorem mgga_c_revscan_spinFlip : SpinFlip .mgga mgga_c_revscan := spinFlip_of (cap := 1) (by decide +kernel)
theorem mgga_c_rmggac_spinFlip : SpinFlip .mgga mgga_c_rmggac := spinFlip_of (cap := 1) (by decide +kernel)
theorem mgga_c_rppscan_spinFlip : SpinFlip .mgga mgga_c_rppscan := spinFlip_of (cap := 1) (by decide +kernel)
theorem mgga_c_rregtm_spinFlip : SpinFlip .mgga mgga_c_rregtm := spinFlip_of (cap := 1) (by decide +kernel)
theorem mgga_c_rscan_spinFlip : SpinFlip .mgga mgga_c_rscan := spinFlip_of (cap := 1) (by decide +kernel)

end Verif.Props

namespace Verif.Props
open Verif.Model Verif.Spec Verif.Norm Verif.Data

set_option maxRecDepth 100000

theorem mgga_c_scan_spinFlip : SpinFlip .mgga mgga_c_scan := spinFlip_of (cap := 1) (by decide +kernel)
theorem mgga_c_vsxc_spinFlip : SpinFlip .mgga mgga_c_vsxc := spinFlip_of (cap := 1) (by decide +kernel)
theorem mgga_k_csk_spinFlip : SpinFlip .mgga mgga_k_csk := spinFlip_of (cap := 1) (by decide +kernel)
theorem mgga_k_csk_loc_spinFlip : SpinFlip .mgga mgga_k_csk_loc := spinFlip_of (cap := 1) (by decide +kernel)
theorem mgga_k_gea2_spinFlip : SpinFlip .mgga mgga_k_gea2 := spinFlip_of (cap := 1) (by decide +kernel)
theorem mgga_k_gea4_spinFlip : SpinFlip .mgga mgga_k_gea4 := spinFlip_of (cap := 1) (by decide +kernel)
theorem mgga_k_lk_spinFlip : SpinFlip .mgga mgga_k_lk := spinFlip_of (cap := 1) (by decide +kernel)
theorem mgga_k_pc07_spinFlip : SpinFlip .mgga mgga_k_pc07 := spinFlip_of (cap := 1) (by decide +kernel)

end Verif.Props
