import Verif.Norm.Check
import Verif.Data.F01
/-!
# C21: closed-shell consistency of shipped formulas
-/
namespace Verif.Props
open Verif.Model Verif.Spec Verif.Norm Verif.Data

set_option maxRecDepth 100000

theorem gga_c_acgga_closedShell : ClosedShell .gga gga_c_acgga := closedShell_of (cap := 1) (by decide +kernel)
theorem gga_c_acggap_closedShell : ClosedShell .gga gga_c_acggap := closedShell_of (cap := 1) (by decide +kernel)
theorem gga_c_am05_closedShell : ClosedShell .gga gga_c_am05 := closedShell_of (cap := 1) (by decide +kernel)
theorem gga_c_bmk_closedShell : ClosedShell .gga gga_c_bmk := closedShell_of (cap := 1) (by decide +kernel)
theorem gga_c_ccdf_closedShell : ClosedShell .gga gga_c_ccdf := closedShell_of (cap := 1) (by decide +kernel)
theorem gga_c_chachiyo_closedShell : ClosedShell .gga gga_c_chachiyo := closedShell_of (cap := 1) (by decide +kernel)
theorem gga_c_cs1_closedShell : ClosedShell .gga gga_c_cs1 := closedShell_of (cap := 1) (by decide +kernel)
theorem gga_c_gapc_closedShell : ClosedShell .gga gga_c_gapc := closedShell_of (cap := 1) (by decide +kernel)
theorem gga_c_gaploc_closedShell : ClosedShell .gga gga_c_gaploc := closedShell_of (cap := 1) (by decide +kernel)
theorem gga_c_hcth_a_closedShell : ClosedShell .gga gga_c_hcth_a := closedShell_of (cap := 1) (by decide +kernel)
theorem gga_c_lm_closedShell : ClosedShell .gga gga_c_lm := closedShell_of (cap := 1) (by decide +kernel)
theorem gga_c_lyp_closedShell : ClosedShell .gga gga_c_lyp := closedShell_of (cap := 4) (by decide +kernel)
theorem gga_c_lypr_closedShell : ClosedShell .gga gga_c_lypr := closedShell_of (cap := 4) (by decide +kernel)
theorem gga_c_op_b88_closedShell : ClosedShell .gga gga_c_op_b88 := closedShell_of (cap := 1) (by decide +kernel)

end Verif.Props

namespace Verif.Props
open Verif.Model Verif.Spec Verif.Norm Verif.Data

set_option maxRecDepth 100000

theorem gga_c_op_g96_closedShell : ClosedShell .gga gga_c_op_g96 := closedShell_of (cap := 1) (by decide +kernel)
theorem gga_c_op_pbe_closedShell : ClosedShell .gga gga_c_op_pbe := closedShell_of (cap := 1) (by decide +kernel)
theorem gga_c_op_xalpha_closedShell : ClosedShell .gga gga_c_op_xalpha := closedShell_of (cap := 1) (by decide +kernel)
theorem gga_c_p86_closedShell : ClosedShell .gga gga_c_p86 := closedShell_of (cap := 1) (by decide +kernel)
theorem gga_c_pbe_closedShell : ClosedShell .gga gga_c_pbe := closedShell_of (cap := 1) (by decide +kernel)
theorem gga_c_pbeloc_closedShell : ClosedShell .gga gga_c_pbeloc := closedShell_of (cap := 1) (by decide +kernel)
theorem gga_c_pw91_closedShell : ClosedShell .gga gga_c_pw91 := closedShell_of (cap := 1) (by decide +kernel)
theorem gga_c_q2d_closedShell : ClosedShell .gga gga_c_q2d := closedShell_of (cap := 1) (by decide +kernel)
theorem gga_c_regtpss_closedShell : ClosedShell .gga gga_c_regtpss := closedShell_of (cap := 1) (by decide +kernel)
theorem gga_c_revtca_closedShell : ClosedShell .gga gga_c_revtca := closedShell_of (cap := 1) (by decide +kernel)
theorem gga_c_scan_e0_closedShell : ClosedShell .gga gga_c_scan_e0 := closedShell_of (cap := 1) (by decide +kernel)
theorem gga_c_sg4_closedShell : ClosedShell .gga gga_c_sg4 := closedShell_of (cap := 1) (by decide +kernel)

end Verif.Props

namespace Verif.Props
open Verif.Model Verif.Spec Verif.Norm Verif.Data

set_option maxRecDepth 100000

theorem gga_c_sogga11_closedShell : ClosedShell .gga gga_c_sogga11 := closedShell_of (cap := 1) (by decide +kernel)
theorem gga_c_tca_closedShell : ClosedShell .gga gga_c_tca := closedShell_of (cap := 1) (by decide +kernel)
theorem gga_c_w94_closedShell : ClosedShell .gga gga_c_w94 := closedShell_of (cap := 1) (by decide +kernel)
theorem gga_c_wi_closedShell : ClosedShell .gga gga_c_wi := closedShell_of (cap := 1) (by decide +kernel)
theorem gga_c_wl_closedShell : ClosedShell .gga gga_c_wl := closedShell_of (cap := 1) (by decide +kernel)
theorem gga_c_zpbeint_closedShell : ClosedShell .gga gga_c_zpbeint := closedShell_of (cap := 1) (by decide +kernel)
theorem gga_c_zvpbeint_closedShell : ClosedShell .gga gga_c_zvpbeint := closedShell_of (cap := 1) (by decide +kernel)
theorem gga_c_zvpbeloc_closedShell : ClosedShell .gga gga_c_zvpbeloc := closedShell_of (cap := 1) (by decide +kernel)
theorem gga_k_apbe_closedShell : ClosedShell .gga gga_k_apbe := closedShell_of (cap := 1) (by decide +kernel)
theorem gga_k_apbeint_closedShell : ClosedShell .gga gga_k_apbeint := closedShell_of (cap := 1) (by decide +kernel)
theorem gga_k_dk_closedShell : ClosedShell .gga gga_k_dk := closedShell_of (cap := 1) (by decide +kernel)
theorem gga_k_lc94_closedShell : ClosedShell .gga gga_k_lc94 := closedShell_of (cap := 1) (by decide +kernel)
theorem gga_k_lgap_closedShell : ClosedShell .gga gga_k_lgap := closedShell_of (cap := 1) (by decide +kernel)
theorem gga_k_lgap_ge_closedShell : ClosedShell .gga gga_k_lgap_ge := closedShell_of (cap := 1) (by decide +kernel)
theorem gga_k_lkt_closedShell : ClosedShell .gga gga_k_lkt := closedShell_of (cap := 1) (by decide +kernel)
theorem gga_k_llp_closedShell : ClosedShell .gga gga_k_llp := closedShell_of (cap := 1) (by decide +kernel)
theorem gga_k_meyer_closedShell : ClosedShell .gga gga_k_meyer := closedShell_of (cap := 1) (by decide +kernel)
theorem gga_k_mpbe_closedShell : ClosedShell .gga gga_k_mpbe := closedShell_of (cap := 1) (by decide +kernel)
theorem gga_k_ol1_closedShell : ClosedShell .gga gga_k_ol1 := closedShell_of (cap := 1) (by decide +kernel)
theorem gga_k_ol2_closedShell : ClosedShell .gga gga_k_ol2 := closedShell_of (cap := 1) (by decide +kernel)
theorem gga_k_pearson_closedShell : ClosedShell .gga gga_k_pearson := closedShell_of (cap := 1) (by decide +kernel)
theorem gga_k_pg_closedShell : ClosedShell .gga gga_k_pg := closedShell_of (cap := 1) (by decide +kernel)
theorem gga_k_pw86_closedShell : ClosedShell .gga gga_k_pw86 := closedShell_of (cap := 1) (by decide +kernel)
theorem gga_k_rational_p_closedShell : ClosedShell .gga gga_k_rational_p := closedShell_of (cap := 1) (by decide +kernel)
theorem gga_k_tflw_closedShell : ClosedShell .gga gga_k_tflw := closedShell_of (cap := 1) (by decide +kernel)
theorem gga_k_thakkar_closedShell : ClosedShell .gga gga_k_thakkar := closedShell_of (cap := 1) (by decide +kernel)

end Verif.Props

namespace Verif.Props
open Verif.Model Verif.Spec Verif.Norm Verif.Data

set_option maxRecDepth 100000

theorem gga_k_vt84f_closedShell : ClosedShell .gga gga_k_vt84f := closedShell_of (cap := 1) (by decide +kernel)
theorem gga_x_2d_b86_closedShell : ClosedShell .gga gga_x_2d_b86 := closedShell_of (cap := 1) (by decide +kernel)
theorem gga_x_2d_b86_mgc_closedShell : ClosedShell .gga gga_x_2d_b86_mgc := closedShell_of (cap := 1) (by decide +kernel)
theorem gga_x_2d_b88_closedShell : ClosedShell .gga gga_x_2d_b88 := closedShell_of (cap := 1) (by decide +kernel)
theorem gga_x_2d_pbe_closedShell : ClosedShell .gga gga_x_2d_pbe := closedShell_of (cap := 1) (by decide +kernel)
theorem gga_x_airy_closedShell : ClosedShell .gga gga_x_airy := closedShell_of (cap := 1) (by decide +kernel)
theorem gga_x_ak13_closedShell : ClosedShell .gga gga_x_ak13 := closedShell_of (cap := 1) (by decide +kernel)
theorem gga_x_am05_closedShell : ClosedShell .gga gga_x_am05 := closedShell_of (cap := 1) (by decide +kernel)
theorem gga_x_b86_closedShell : ClosedShell .gga gga_x_b86 := closedShell_of (cap := 1) (by decide +kernel)
theorem gga_x_b88_closedShell : ClosedShell .gga gga_x_b88 := closedShell_of (cap := 1) (by decide +kernel)
theorem gga_x_bayesian_closedShell : ClosedShell .gga gga_x_bayesian := closedShell_of (cap := 1) (by decide +kernel)
theorem gga_x_beefvdw_closedShell : ClosedShell .gga gga_x_beefvdw := closedShell_of (cap := 1) (by decide +kernel)
theorem gga_x_c09x_closedShell : ClosedShell .gga gga_x_c09x := closedShell_of (cap := 1) (by decide +kernel)
theorem gga_x_cap_closedShell : ClosedShell .gga gga_x_cap := closedShell_of (cap := 1) (by decide +kernel)
theorem gga_x_chachiyo_closedShell : ClosedShell .gga gga_x_chachiyo := closedShell_of (cap := 1) (by decide +kernel)
theorem gga_x_dk87_closedShell : ClosedShell .gga gga_x_dk87 := closedShell_of (cap := 1) (by decide +kernel)
theorem gga_x_ev93_closedShell : ClosedShell .gga gga_x_ev93 := closedShell_of (cap := 1) (by decide +kernel)
theorem gga_x_ft97_closedShell : ClosedShell .gga gga_x_ft97 := closedShell_of (cap := 1) (by decide +kernel)
theorem gga_x_g96_closedShell : ClosedShell .gga gga_x_g96 := closedShell_of (cap := 1) (by decide +kernel)
theorem gga_x_hcth_a_closedShell : ClosedShell .gga gga_x_hcth_a := closedShell_of (cap := 1) (by decide +kernel)
theorem gga_x_herman_closedShell : ClosedShell .gga gga_x_herman := closedShell_of (cap := 1) (by decide +kernel)
theorem gga_x_hjs_closedShell : ClosedShell .gga gga_x_hjs := closedShell_of (cap := 1) (by decide +kernel)

end Verif.Props
