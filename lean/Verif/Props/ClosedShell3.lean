import Verif.Norm.Check
import Verif.Data.F09
/-!
# C21: closed-shell consistency of shipped formulas
-/
namespace Verif.Props
open Verif.Model Verif.Spec Verif.Norm Verif.Data

set_option maxRecDepth 100000

theorem lda_c_pz_closedShell : ClosedShell .lda lda_c_pz := closedShell_of (cap := 1) (by decide +kernel)
theorem lda_c_rc04_closedShell : ClosedShell .lda lda_c_rc04 := closedShell_of (cap := 1) (by decide +kernel)
theorem lda_c_rpa_closedShell : ClosedShell .lda lda_c_rpa := closedShell_of (cap := 1) (by decide +kernel)
theorem lda_c_vwn_1_closedShell : ClosedShell .lda lda_c_vwn_1 := closedShell_of (cap := 1) (by decide +kernel)
theorem lda_c_vwn_2_closedShell : ClosedShell .lda lda_c_vwn_2 := closedShell_of (cap := 1) (by decide +kernel)
theorem lda_c_vwn_rpa_closedShell : ClosedShell .lda lda_c_vwn_rpa := closedShell_of (cap := 1) (by decide +kernel)
theorem lda_c_w20_closedShell : ClosedShell .lda lda_c_w20 := closedShell_of (cap := 1) (by decide +kernel)
theorem lda_c_wigner_closedShell : ClosedShell .lda lda_c_wigner := closedShell_of (cap := 1) (by decide +kernel)
theorem lda_k_gds08_worker_closedShell : ClosedShell .lda lda_k_gds08_worker := closedShell_of (cap := 1) (by decide +kernel)
theorem lda_k_tf_closedShell : ClosedShell .lda lda_k_tf := closedShell_of (cap := 1) (by decide +kernel)
theorem lda_k_zlp_closedShell : ClosedShell .lda lda_k_zlp := closedShell_of (cap := 1) (by decide +kernel)
theorem lda_x_closedShell : ClosedShell .lda lda_x := closedShell_of (cap := 1) (by decide +kernel)
theorem lda_x_2d_closedShell : ClosedShell .lda lda_x_2d := closedShell_of (cap := 1) (by decide +kernel)
theorem lda_x_erf_closedShell : ClosedShell .lda lda_x_erf := closedShell_of (cap := 1) (by decide +kernel)
theorem lda_x_rel_closedShell : ClosedShell .lda lda_x_rel := closedShell_of (cap := 1) (by decide +kernel)
theorem lda_x_sloc_closedShell : ClosedShell .lda lda_x_sloc := closedShell_of (cap := 1) (by decide +kernel)
theorem lda_x_yukawa_closedShell : ClosedShell .lda lda_x_yukawa := closedShell_of (cap := 1) (by decide +kernel)
theorem lda_xc_1d_ehwlrg_closedShell : ClosedShell .lda lda_xc_1d_ehwlrg := closedShell_of (cap := 1) (by decide +kernel)
theorem lda_xc_ksdt_closedShell : ClosedShell .lda lda_xc_ksdt := closedShell_of (cap := 1) (by decide +kernel)
theorem lda_xc_teter93_closedShell : ClosedShell .lda lda_xc_teter93 := closedShell_of (cap := 1) (by decide +kernel)
theorem lda_xc_tih_closedShell : ClosedShell .lda lda_xc_tih := closedShell_of (cap := 1) (by decide +kernel)
theorem lda_xc_zlp_closedShell : ClosedShell .lda lda_xc_zlp := closedShell_of (cap := 1) (by decide +kernel)
theorem mgga_c_b88_closedShell : ClosedShell .mgga mgga_c_b88 := closedShell_of (cap := 1) (by decide +kernel)
theorem mgga_c_bc95_closedShell : ClosedShell .mgga mgga_c_bc95 := closedShell_of (cap := 1) (by decide +kernel)

end Verif.Props

namespace Verif.Props
open Verif.Model Verif.Spec Verif.Norm Verif.Data

set_option maxRecDepth 100000

theorem mgga_c_cc_closedShell : ClosedShell .mgga mgga_c_cc := closedShell_of (cap := 9) (by decide +kernel)
theorem mgga_c_ccalda_closedShell : ClosedShell .mgga mgga_c_ccalda := closedShell_of (cap := 1) (by decide +kernel)
theorem mgga_c_cs_closedShell : ClosedShell .mgga mgga_c_cs := closedShell_of (cap := 1) (by decide +kernel)
theorem mgga_c_kcis_closedShell : ClosedShell .mgga mgga_c_kcis := closedShell_of (cap := 1) (by decide +kernel)
theorem mgga_c_ltapw_closedShell : ClosedShell .mgga mgga_c_ltapw := closedShell_of (cap := 1) (by decide +kernel)
theorem mgga_c_m05_closedShell : ClosedShell .mgga mgga_c_m05 := closedShell_of (cap := 1) (by decide +kernel)
theorem mgga_c_m06l_closedShell : ClosedShell .mgga mgga_c_m06l := closedShell_of (cap := 1) (by decide +kernel)
theorem mgga_c_m08_closedShell : ClosedShell .mgga mgga_c_m08 := closedShell_of (cap := 1) (by decide +kernel)

end Verif.Props

namespace Verif.Props
open Verif.Model Verif.Spec Verif.Norm Verif.Data

set_option maxRecDepth 100000

theorem mgga_c_pkzb_closedShell : ClosedShell .mgga mgga_c_pkzb := closedShell_of (cap := 1) (by decide +kernel)
theorem mgga_c_r2scan_closedShell : ClosedShell .mgga mgga_c_r2scan := closedShell_of (cap := 1) (by decide +kernel)
theorem mgga_c_revscan_closedShell : ClosedShell .mgga mgga_c_revscan := closedShell_of (cap := 1) (by decide +kernel)
theorem mgga_c_revtpss_closedShell : ClosedShell .mgga mgga_c_revtpss := closedShell_of (cap := 60) (by decide +kernel)
theorem mgga_c_rmggac_closedShell : ClosedShell .mgga mgga_c_rmggac := closedShell_of (cap := 1) (by decide +kernel)
theorem mgga_c_rppscan_closedShell : ClosedShell .mgga mgga_c_rppscan := closedShell_of (cap := 1) (by decide +kernel)
theorem mgga_c_rregtm_closedShell : ClosedShell .mgga mgga_c_rregtm := closedShell_of (cap := 1) (by decide +kernel)
theorem mgga_c_rscan_closedShell : ClosedShell .mgga mgga_c_rscan := closedShell_of (cap := 1) (by decide +kernel)

end Verif.Props

namespace Verif.Props
open Verif.Model Verif.Spec Verif.Norm Verif.Data

set_option maxRecDepth 100000

theorem mgga_c_scan_closedShell : ClosedShell .mgga mgga_c_scan := closedShell_of (cap := 1) (by decide +kernel)
theorem mgga_c_tpss_closedShell : ClosedShell .mgga mgga_c_tpss := closedShell_of (cap := 60) (by decide +kernel)
theorem mgga_c_vsxc_closedShell : ClosedShell .mgga mgga_c_vsxc := closedShell_of (cap := 1) (by decide +kernel)
theorem mgga_k_csk_closedShell : ClosedShell .mgga mgga_k_csk := closedShell_of (cap := 1) (by decide +kernel)
theorem mgga_k_csk_loc_closedShell : ClosedShell .mgga mgga_k_csk_loc := closedShell_of (cap := 1) (by decide +kernel)
theorem mgga_k_gea2_closedShell : ClosedShell .mgga mgga_k_gea2 := closedShell_of (cap := 1) (by decide +kernel)
theorem mgga_k_gea4_closedShell : ClosedShell .mgga mgga_k_gea4 := closedShell_of (cap := 1) (by decide +kernel)
theorem mgga_k_lk_closedShell : ClosedShell .mgga mgga_k_lk := closedShell_of (cap := 1) (by decide +kernel)
theorem mgga_k_pc07_closedShell : ClosedShell .mgga mgga_k_pc07 := closedShell_of (cap := 1) (by decide +kernel)

end Verif.Props
