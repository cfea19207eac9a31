import Verif.Norm.Static
import Verif.Data.F01
/-!
# C35, C36, C44: which inputs shipped formulas read, and which formulas raise
-/
namespace Verif.Props
open Verif.Model Verif.Spec Verif.Norm Verif.Data

theorem gga_c_acgga_neverRaises : NeverRaises .gga gga_c_acgga := neverRaises_of (by decide +kernel)
theorem gga_c_acgga_ignoresLapl : IgnoresLapl .gga gga_c_acgga := ignoresLapl_of 0 (.inl rfl) (by decide +kernel)
theorem gga_c_acggap_neverRaises : NeverRaises .gga gga_c_acggap := neverRaises_of (by decide +kernel)
theorem gga_c_acggap_ignoresLapl : IgnoresLapl .gga gga_c_acggap := ignoresLapl_of 0 (.inl rfl) (by decide +kernel)
theorem gga_c_am05_neverRaises : NeverRaises .gga gga_c_am05 := neverRaises_of (by decide +kernel)
theorem gga_c_am05_ignoresLapl : IgnoresLapl .gga gga_c_am05 := ignoresLapl_of 0 (.inl rfl) (by decide +kernel)
theorem gga_c_bmk_neverRaises : NeverRaises .gga gga_c_bmk := neverRaises_of (by decide +kernel)
theorem gga_c_bmk_ignoresLapl : IgnoresLapl .gga gga_c_bmk := ignoresLapl_of 0 (.inl rfl) (by decide +kernel)
theorem gga_c_ccdf_neverRaises : NeverRaises .gga gga_c_ccdf := neverRaises_of (by decide +kernel)
theorem gga_c_ccdf_ignoresLapl : IgnoresLapl .gga gga_c_ccdf := ignoresLapl_of 0 (.inl rfl) (by decide +kernel)
theorem gga_c_chachiyo_neverRaises : NeverRaises .gga gga_c_chachiyo := neverRaises_of (by decide +kernel)
theorem gga_c_chachiyo_ignoresLapl : IgnoresLapl .gga gga_c_chachiyo := ignoresLapl_of 0 (.inl rfl) (by decide +kernel)
theorem gga_c_cs1_neverRaises : NeverRaises .gga gga_c_cs1 := neverRaises_of (by decide +kernel)
theorem gga_c_cs1_ignoresLapl : IgnoresLapl .gga gga_c_cs1 := ignoresLapl_of 0 (.inl rfl) (by decide +kernel)
theorem gga_c_ft97_neverRaises : NeverRaises .gga gga_c_ft97 := neverRaises_of (by decide +kernel)
theorem gga_c_ft97_ignoresLapl : IgnoresLapl .gga gga_c_ft97 := ignoresLapl_of 0 (.inl rfl) (by decide +kernel)
theorem gga_c_gapc_neverRaises : NeverRaises .gga gga_c_gapc := neverRaises_of (by decide +kernel)
theorem gga_c_gapc_ignoresLapl : IgnoresLapl .gga gga_c_gapc := ignoresLapl_of 0 (.inl rfl) (by decide +kernel)
theorem gga_c_gaploc_neverRaises : NeverRaises .gga gga_c_gaploc := neverRaises_of (by decide +kernel)
theorem gga_c_gaploc_ignoresLapl : IgnoresLapl .gga gga_c_gaploc := ignoresLapl_of 0 (.inl rfl) (by decide +kernel)
theorem gga_c_hcth_a_neverRaises : NeverRaises .gga gga_c_hcth_a := neverRaises_of (by decide +kernel)
theorem gga_c_hcth_a_ignoresLapl : IgnoresLapl .gga gga_c_hcth_a := ignoresLapl_of 0 (.inl rfl) (by decide +kernel)
theorem gga_c_lm_neverRaises : NeverRaises .gga gga_c_lm := neverRaises_of (by decide +kernel)
theorem gga_c_lm_ignoresLapl : IgnoresLapl .gga gga_c_lm := ignoresLapl_of 0 (.inl rfl) (by decide +kernel)
theorem gga_c_lyp_neverRaises : NeverRaises .gga gga_c_lyp := neverRaises_of (by decide +kernel)
theorem gga_c_lyp_ignoresLapl : IgnoresLapl .gga gga_c_lyp := ignoresLapl_of 0 (.inl rfl) (by decide +kernel)
theorem gga_c_lypr_neverRaises : NeverRaises .gga gga_c_lypr := neverRaises_of (by decide +kernel)
theorem gga_c_lypr_ignoresLapl : IgnoresLapl .gga gga_c_lypr := ignoresLapl_of 0 (.inl rfl) (by decide +kernel)
theorem gga_c_op_b88_neverRaises : NeverRaises .gga gga_c_op_b88 := neverRaises_of (by decide +kernel)
theorem gga_c_op_b88_ignoresLapl : IgnoresLapl .gga gga_c_op_b88 := ignoresLapl_of 0 (.inl rfl) (by decide +kernel)

end Verif.Props

namespace Verif.Props
open Verif.Model Verif.Spec Verif.Norm Verif.Data

theorem gga_c_op_g96_neverRaises : NeverRaises .gga gga_c_op_g96 := neverRaises_of (by decide +kernel)
theorem gga_c_op_g96_ignoresLapl : IgnoresLapl .gga gga_c_op_g96 := ignoresLapl_of 0 (.inl rfl) (by decide +kernel)
theorem gga_c_op_pbe_neverRaises : NeverRaises .gga gga_c_op_pbe := neverRaises_of (by decide +kernel)
theorem gga_c_op_pbe_ignoresLapl : IgnoresLapl .gga gga_c_op_pbe := ignoresLapl_of 0 (.inl rfl) (by decide +kernel)
theorem gga_c_op_pw91_neverRaises : NeverRaises .gga gga_c_op_pw91 := neverRaises_of (by decide +kernel)
theorem gga_c_op_pw91_ignoresLapl : IgnoresLapl .gga gga_c_op_pw91 := ignoresLapl_of 0 (.inl rfl) (by decide +kernel)
theorem gga_c_op_xalpha_neverRaises : NeverRaises .gga gga_c_op_xalpha := neverRaises_of (by decide +kernel)
theorem gga_c_op_xalpha_ignoresLapl : IgnoresLapl .gga gga_c_op_xalpha := ignoresLapl_of 0 (.inl rfl) (by decide +kernel)
theorem gga_c_optc_neverRaises : NeverRaises .gga gga_c_optc := neverRaises_of (by decide +kernel)
theorem gga_c_optc_ignoresLapl : IgnoresLapl .gga gga_c_optc := ignoresLapl_of 0 (.inl rfl) (by decide +kernel)
theorem gga_c_p86_neverRaises : NeverRaises .gga gga_c_p86 := neverRaises_of (by decide +kernel)
theorem gga_c_p86_ignoresLapl : IgnoresLapl .gga gga_c_p86 := ignoresLapl_of 0 (.inl rfl) (by decide +kernel)
theorem gga_c_p86vwn_neverRaises : NeverRaises .gga gga_c_p86vwn := neverRaises_of (by decide +kernel)
theorem gga_c_p86vwn_ignoresLapl : IgnoresLapl .gga gga_c_p86vwn := ignoresLapl_of 0 (.inl rfl) (by decide +kernel)
theorem gga_c_pbe_neverRaises : NeverRaises .gga gga_c_pbe := neverRaises_of (by decide +kernel)
theorem gga_c_pbe_ignoresLapl : IgnoresLapl .gga gga_c_pbe := ignoresLapl_of 0 (.inl rfl) (by decide +kernel)
theorem gga_c_pbe_vwn_neverRaises : NeverRaises .gga gga_c_pbe_vwn := neverRaises_of (by decide +kernel)
theorem gga_c_pbe_vwn_ignoresLapl : IgnoresLapl .gga gga_c_pbe_vwn := ignoresLapl_of 0 (.inl rfl) (by decide +kernel)
theorem gga_c_pbeloc_neverRaises : NeverRaises .gga gga_c_pbeloc := neverRaises_of (by decide +kernel)
theorem gga_c_pbeloc_ignoresLapl : IgnoresLapl .gga gga_c_pbeloc := ignoresLapl_of 0 (.inl rfl) (by decide +kernel)
theorem gga_c_pw91_neverRaises : NeverRaises .gga gga_c_pw91 := neverRaises_of (by decide +kernel)
theorem gga_c_pw91_ignoresLapl : IgnoresLapl .gga gga_c_pw91 := ignoresLapl_of 0 (.inl rfl) (by decide +kernel)
theorem gga_c_q2d_neverRaises : NeverRaises .gga gga_c_q2d := neverRaises_of (by decide +kernel)
theorem gga_c_q2d_ignoresLapl : IgnoresLapl .gga gga_c_q2d := ignoresLapl_of 0 (.inl rfl) (by decide +kernel)
theorem gga_c_regtpss_neverRaises : NeverRaises .gga gga_c_regtpss := neverRaises_of (by decide +kernel)
theorem gga_c_regtpss_ignoresLapl : IgnoresLapl .gga gga_c_regtpss := ignoresLapl_of 0 (.inl rfl) (by decide +kernel)
theorem gga_c_revtca_neverRaises : NeverRaises .gga gga_c_revtca := neverRaises_of (by decide +kernel)
theorem gga_c_revtca_ignoresLapl : IgnoresLapl .gga gga_c_revtca := ignoresLapl_of 0 (.inl rfl) (by decide +kernel)
theorem gga_c_scan_e0_neverRaises : NeverRaises .gga gga_c_scan_e0 := neverRaises_of (by decide +kernel)
theorem gga_c_scan_e0_ignoresLapl : IgnoresLapl .gga gga_c_scan_e0 := ignoresLapl_of 0 (.inl rfl) (by decide +kernel)
theorem gga_c_sg4_neverRaises : NeverRaises .gga gga_c_sg4 := neverRaises_of (by decide +kernel)
theorem gga_c_sg4_ignoresLapl : IgnoresLapl .gga gga_c_sg4 := ignoresLapl_of 0 (.inl rfl) (by decide +kernel)

end Verif.Props

namespace Verif.Props
open Verif.Model Verif.Spec Verif.Norm Verif.Data

theorem gga_c_sogga11_neverRaises : NeverRaises .gga gga_c_sogga11 := neverRaises_of (by decide +kernel)
theorem gga_c_sogga11_ignoresLapl : IgnoresLapl .gga gga_c_sogga11 := ignoresLapl_of 0 (.inl rfl) (by decide +kernel)
theorem gga_c_tca_neverRaises : NeverRaises .gga gga_c_tca := neverRaises_of (by decide +kernel)
theorem gga_c_tca_ignoresLapl : IgnoresLapl .gga gga_c_tca := ignoresLapl_of 0 (.inl rfl) (by decide +kernel)
theorem gga_c_w94_neverRaises : NeverRaises .gga gga_c_w94 := neverRaises_of (by decide +kernel)
theorem gga_c_w94_ignoresLapl : IgnoresLapl .gga gga_c_w94 := ignoresLapl_of 0 (.inl rfl) (by decide +kernel)
theorem gga_c_wi_neverRaises : NeverRaises .gga gga_c_wi := neverRaises_of (by decide +kernel)
theorem gga_c_wi_ignoresLapl : IgnoresLapl .gga gga_c_wi := ignoresLapl_of 0 (.inl rfl) (by decide +kernel)
theorem gga_c_wl_neverRaises : NeverRaises .gga gga_c_wl := neverRaises_of (by decide +kernel)
theorem gga_c_wl_ignoresLapl : IgnoresLapl .gga gga_c_wl := ignoresLapl_of 0 (.inl rfl) (by decide +kernel)
theorem gga_c_zpbeint_neverRaises : NeverRaises .gga gga_c_zpbeint := neverRaises_of (by decide +kernel)
theorem gga_c_zpbeint_ignoresLapl : IgnoresLapl .gga gga_c_zpbeint := ignoresLapl_of 0 (.inl rfl) (by decide +kernel)
theorem gga_c_zvpbeint_neverRaises : NeverRaises .gga gga_c_zvpbeint := neverRaises_of (by decide +kernel)
theorem gga_c_zvpbeint_ignoresLapl : IgnoresLapl .gga gga_c_zvpbeint := ignoresLapl_of 0 (.inl rfl) (by decide +kernel)
theorem gga_c_zvpbeloc_neverRaises : NeverRaises .gga gga_c_zvpbeloc := neverRaises_of (by decide +kernel)
theorem gga_c_zvpbeloc_ignoresLapl : IgnoresLapl .gga gga_c_zvpbeloc := ignoresLapl_of 0 (.inl rfl) (by decide +kernel)
theorem gga_k_apbe_neverRaises : NeverRaises .gga gga_k_apbe := neverRaises_of (by decide +kernel)
theorem gga_k_apbe_ignoresCross : IgnoresCross .gga gga_k_apbe := ignoresCross_of 0 (.inl rfl) (by decide +kernel)
theorem gga_k_apbe_ignoresLapl : IgnoresLapl .gga gga_k_apbe := ignoresLapl_of 0 (.inl rfl) (by decide +kernel)
theorem gga_k_apbeint_neverRaises : NeverRaises .gga gga_k_apbeint := neverRaises_of (by decide +kernel)
theorem gga_k_apbeint_ignoresCross : IgnoresCross .gga gga_k_apbeint := ignoresCross_of 0 (.inl rfl) (by decide +kernel)
theorem gga_k_apbeint_ignoresLapl : IgnoresLapl .gga gga_k_apbeint := ignoresLapl_of 0 (.inl rfl) (by decide +kernel)
theorem gga_k_dk_neverRaises : NeverRaises .gga gga_k_dk := neverRaises_of (by decide +kernel)
theorem gga_k_dk_ignoresCross : IgnoresCross .gga gga_k_dk := ignoresCross_of 0 (.inl rfl) (by decide +kernel)
theorem gga_k_dk_ignoresLapl : IgnoresLapl .gga gga_k_dk := ignoresLapl_of 0 (.inl rfl) (by decide +kernel)
theorem gga_k_exp4_neverRaises : NeverRaises .gga gga_k_exp4 := neverRaises_of (by decide +kernel)
theorem gga_k_exp4_ignoresCross : IgnoresCross .gga gga_k_exp4 := ignoresCross_of 0 (.inl rfl) (by decide +kernel)
theorem gga_k_exp4_ignoresLapl : IgnoresLapl .gga gga_k_exp4 := ignoresLapl_of 0 (.inl rfl) (by decide +kernel)
theorem gga_k_lc94_neverRaises : NeverRaises .gga gga_k_lc94 := neverRaises_of (by decide +kernel)
theorem gga_k_lc94_ignoresCross : IgnoresCross .gga gga_k_lc94 := ignoresCross_of 0 (.inl rfl) (by decide +kernel)
theorem gga_k_lc94_ignoresLapl : IgnoresLapl .gga gga_k_lc94 := ignoresLapl_of 0 (.inl rfl) (by decide +kernel)
theorem gga_k_lgap_neverRaises : NeverRaises .gga gga_k_lgap := neverRaises_of (by decide +kernel)
theorem gga_k_lgap_ignoresCross : IgnoresCross .gga gga_k_lgap := ignoresCross_of 0 (.inl rfl) (by decide +kernel)
theorem gga_k_lgap_ignoresLapl : IgnoresLapl .gga gga_k_lgap := ignoresLapl_of 0 (.inl rfl) (by decide +kernel)
theorem gga_k_lgap_ge_neverRaises : NeverRaises .gga gga_k_lgap_ge := neverRaises_of (by decide +kernel)
theorem gga_k_lgap_ge_ignoresCross : IgnoresCross .gga gga_k_lgap_ge := ignoresCross_of 0 (.inl rfl) (by decide +kernel)
theorem gga_k_lgap_ge_ignoresLapl : IgnoresLapl .gga gga_k_lgap_ge := ignoresLapl_of 0 (.inl rfl) (by decide +kernel)
theorem gga_k_lkt_neverRaises : NeverRaises .gga gga_k_lkt := neverRaises_of (by decide +kernel)
theorem gga_k_lkt_ignoresCross : IgnoresCross .gga gga_k_lkt := ignoresCross_of 0 (.inl rfl) (by decide +kernel)
theorem gga_k_lkt_ignoresLapl : IgnoresLapl .gga gga_k_lkt := ignoresLapl_of 0 (.inl rfl) (by decide +kernel)
theorem gga_k_llp_neverRaises : NeverRaises .gga gga_k_llp := neverRaises_of (by decide +kernel)
theorem gga_k_llp_ignoresCross : IgnoresCross .gga gga_k_llp := ignoresCross_of 0 (.inl rfl) (by decide +kernel)
theorem gga_k_llp_ignoresLapl : IgnoresLapl .gga gga_k_llp := ignoresLapl_of 0 (.inl rfl) (by decide +kernel)
theorem gga_k_meyer_neverRaises : NeverRaises .gga gga_k_meyer := neverRaises_of (by decide +kernel)
theorem gga_k_meyer_ignoresCross : IgnoresCross .gga gga_k_meyer := ignoresCross_of 0 (.inl rfl) (by decide +kernel)
theorem gga_k_meyer_ignoresLapl : IgnoresLapl .gga gga_k_meyer := ignoresLapl_of 0 (.inl rfl) (by decide +kernel)
theorem gga_k_mpbe_neverRaises : NeverRaises .gga gga_k_mpbe := neverRaises_of (by decide +kernel)
theorem gga_k_mpbe_ignoresCross : IgnoresCross .gga gga_k_mpbe := ignoresCross_of 0 (.inl rfl) (by decide +kernel)
theorem gga_k_mpbe_ignoresLapl : IgnoresLapl .gga gga_k_mpbe := ignoresLapl_of 0 (.inl rfl) (by decide +kernel)
theorem gga_k_ol1_neverRaises : NeverRaises .gga gga_k_ol1 := neverRaises_of (by decide +kernel)
theorem gga_k_ol1_ignoresCross : IgnoresCross .gga gga_k_ol1 := ignoresCross_of 0 (.inl rfl) (by decide +kernel)
theorem gga_k_ol1_ignoresLapl : IgnoresLapl .gga gga_k_ol1 := ignoresLapl_of 0 (.inl rfl) (by decide +kernel)
theorem gga_k_ol2_neverRaises : NeverRaises .gga gga_k_ol2 := neverRaises_of (by decide +kernel)
theorem gga_k_ol2_ignoresCross : IgnoresCross .gga gga_k_ol2 := ignoresCross_of 0 (.inl rfl) (by decide +kernel)
theorem gga_k_ol2_ignoresLapl : IgnoresLapl .gga gga_k_ol2 := ignoresLapl_of 0 (.inl rfl) (by decide +kernel)
theorem gga_k_pearson_neverRaises : NeverRaises .gga gga_k_pearson := neverRaises_of (by decide +kernel)
theorem gga_k_pearson_ignoresCross : IgnoresCross .gga gga_k_pearson := ignoresCross_of 0 (.inl rfl) (by decide +kernel)
theorem gga_k_pearson_ignoresLapl : IgnoresLapl .gga gga_k_pearson := ignoresLapl_of 0 (.inl rfl) (by decide +kernel)
theorem gga_k_pg_neverRaises : NeverRaises .gga gga_k_pg := neverRaises_of (by decide +kernel)
theorem gga_k_pg_ignoresCross : IgnoresCross .gga gga_k_pg := ignoresCross_of 0 (.inl rfl) (by decide +kernel)
theorem gga_k_pg_ignoresLapl : IgnoresLapl .gga gga_k_pg := ignoresLapl_of 0 (.inl rfl) (by decide +kernel)
theorem gga_k_pw86_neverRaises : NeverRaises .gga gga_k_pw86 := neverRaises_of (by decide +kernel)
theorem gga_k_pw86_ignoresCross : IgnoresCross .gga gga_k_pw86 := ignoresCross_of 0 (.inl rfl) (by decide +kernel)
theorem gga_k_pw86_ignoresLapl : IgnoresLapl .gga gga_k_pw86 := ignoresLapl_of 0 (.inl rfl) (by decide +kernel)
theorem gga_k_rational_p_neverRaises : NeverRaises .gga gga_k_rational_p := neverRaises_of (by decide +kernel)
theorem gga_k_rational_p_ignoresCross : IgnoresCross .gga gga_k_rational_p := ignoresCross_of 0 (.inl rfl) (by decide +kernel)
theorem gga_k_rational_p_ignoresLapl : IgnoresLapl .gga gga_k_rational_p := ignoresLapl_of 0 (.inl rfl) (by decide +kernel)
theorem gga_k_tflw_neverRaises : NeverRaises .gga gga_k_tflw := neverRaises_of (by decide +kernel)
theorem gga_k_tflw_ignoresCross : IgnoresCross .gga gga_k_tflw := ignoresCross_of 0 (.inl rfl) (by decide +kernel)
theorem gga_k_tflw_ignoresLapl : IgnoresLapl .gga gga_k_tflw := ignoresLapl_of 0 (.inl rfl) (by decide +kernel)
theorem gga_k_thakkar_neverRaises : NeverRaises .gga gga_k_thakkar := neverRaises_of (by decide +kernel)
theorem gga_k_thakkar_ignoresCross : IgnoresCross .gga gga_k_thakkar := ignoresCross_of 0 (.inl rfl) (by decide +kernel)
theorem gga_k_thakkar_ignoresLapl : IgnoresLapl .gga gga_k_thakkar := ignoresLapl_of 0 (.inl rfl) (by decide +kernel)

end Verif.Props

namespace Verif.Props
open Verif.Model Verif.Spec Verif.Norm Verif.Data

theorem gga_k_vt84f_neverRaises : NeverRaises .gga gga_k_vt84f := neverRaises_of (by decide +kernel)
theorem gga_k_vt84f_ignoresCross : IgnoresCross .gga gga_k_vt84f := ignoresCross_of 0 (.inl rfl) (by decide +kernel)
theorem gga_k_vt84f_ignoresLapl : IgnoresLapl .gga gga_k_vt84f := ignoresLapl_of 0 (.inl rfl) (by decide +kernel)
theorem gga_x_2d_b86_neverRaises : NeverRaises .gga gga_x_2d_b86 := neverRaises_of (by decide +kernel)
theorem gga_x_2d_b86_ignoresCross : IgnoresCross .gga gga_x_2d_b86 := ignoresCross_of 0 (.inl rfl) (by decide +kernel)
theorem gga_x_2d_b86_ignoresLapl : IgnoresLapl .gga gga_x_2d_b86 := ignoresLapl_of 0 (.inl rfl) (by decide +kernel)
theorem gga_x_2d_b86_mgc_neverRaises : NeverRaises .gga gga_x_2d_b86_mgc := neverRaises_of (by decide +kernel)
theorem gga_x_2d_b86_mgc_ignoresCross : IgnoresCross .gga gga_x_2d_b86_mgc := ignoresCross_of 0 (.inl rfl) (by decide +kernel)
theorem gga_x_2d_b86_mgc_ignoresLapl : IgnoresLapl .gga gga_x_2d_b86_mgc := ignoresLapl_of 0 (.inl rfl) (by decide +kernel)
theorem gga_x_2d_b88_neverRaises : NeverRaises .gga gga_x_2d_b88 := neverRaises_of (by decide +kernel)
theorem gga_x_2d_b88_ignoresCross : IgnoresCross .gga gga_x_2d_b88 := ignoresCross_of 0 (.inl rfl) (by decide +kernel)
theorem gga_x_2d_b88_ignoresLapl : IgnoresLapl .gga gga_x_2d_b88 := ignoresLapl_of 0 (.inl rfl) (by decide +kernel)
theorem gga_x_2d_pbe_neverRaises : NeverRaises .gga gga_x_2d_pbe := neverRaises_of (by decide +kernel)
theorem gga_x_2d_pbe_ignoresCross : IgnoresCross .gga gga_x_2d_pbe := ignoresCross_of 0 (.inl rfl) (by decide +kernel)
theorem gga_x_2d_pbe_ignoresLapl : IgnoresLapl .gga gga_x_2d_pbe := ignoresLapl_of 0 (.inl rfl) (by decide +kernel)
theorem gga_x_airy_neverRaises : NeverRaises .gga gga_x_airy := neverRaises_of (by decide +kernel)
theorem gga_x_airy_ignoresCross : IgnoresCross .gga gga_x_airy := ignoresCross_of 0 (.inl rfl) (by decide +kernel)
theorem gga_x_airy_ignoresLapl : IgnoresLapl .gga gga_x_airy := ignoresLapl_of 0 (.inl rfl) (by decide +kernel)
theorem gga_x_ak13_neverRaises : NeverRaises .gga gga_x_ak13 := neverRaises_of (by decide +kernel)
theorem gga_x_ak13_ignoresCross : IgnoresCross .gga gga_x_ak13 := ignoresCross_of 0 (.inl rfl) (by decide +kernel)
theorem gga_x_ak13_ignoresLapl : IgnoresLapl .gga gga_x_ak13 := ignoresLapl_of 0 (.inl rfl) (by decide +kernel)
theorem gga_x_am05_neverRaises : NeverRaises .gga gga_x_am05 := neverRaises_of (by decide +kernel)
theorem gga_x_am05_ignoresCross : IgnoresCross .gga gga_x_am05 := ignoresCross_of 0 (.inl rfl) (by decide +kernel)
theorem gga_x_am05_ignoresLapl : IgnoresLapl .gga gga_x_am05 := ignoresLapl_of 0 (.inl rfl) (by decide +kernel)
theorem gga_x_b86_neverRaises : NeverRaises .gga gga_x_b86 := neverRaises_of (by decide +kernel)
theorem gga_x_b86_ignoresCross : IgnoresCross .gga gga_x_b86 := ignoresCross_of 0 (.inl rfl) (by decide +kernel)
theorem gga_x_b86_ignoresLapl : IgnoresLapl .gga gga_x_b86 := ignoresLapl_of 0 (.inl rfl) (by decide +kernel)
theorem gga_x_b88_neverRaises : NeverRaises .gga gga_x_b88 := neverRaises_of (by decide +kernel)
theorem gga_x_b88_ignoresCross : IgnoresCross .gga gga_x_b88 := ignoresCross_of 0 (.inl rfl) (by decide +kernel)
theorem gga_x_b88_ignoresLapl : IgnoresLapl .gga gga_x_b88 := ignoresLapl_of 0 (.inl rfl) (by decide +kernel)
theorem gga_x_bayesian_neverRaises : NeverRaises .gga gga_x_bayesian := neverRaises_of (by decide +kernel)
theorem gga_x_bayesian_ignoresCross : IgnoresCross .gga gga_x_bayesian := ignoresCross_of 0 (.inl rfl) (by decide +kernel)
theorem gga_x_bayesian_ignoresLapl : IgnoresLapl .gga gga_x_bayesian := ignoresLapl_of 0 (.inl rfl) (by decide +kernel)
theorem gga_x_beefvdw_neverRaises : NeverRaises .gga gga_x_beefvdw := neverRaises_of (by decide +kernel)
theorem gga_x_beefvdw_ignoresCross : IgnoresCross .gga gga_x_beefvdw := ignoresCross_of 0 (.inl rfl) (by decide +kernel)
theorem gga_x_beefvdw_ignoresLapl : IgnoresLapl .gga gga_x_beefvdw := ignoresLapl_of 0 (.inl rfl) (by decide +kernel)
theorem gga_x_bpccac_neverRaises : NeverRaises .gga gga_x_bpccac := neverRaises_of (by decide +kernel)
theorem gga_x_bpccac_ignoresCross : IgnoresCross .gga gga_x_bpccac := ignoresCross_of 0 (.inl rfl) (by decide +kernel)
theorem gga_x_bpccac_ignoresLapl : IgnoresLapl .gga gga_x_bpccac := ignoresLapl_of 0 (.inl rfl) (by decide +kernel)
theorem gga_x_c09x_neverRaises : NeverRaises .gga gga_x_c09x := neverRaises_of (by decide +kernel)
theorem gga_x_c09x_ignoresCross : IgnoresCross .gga gga_x_c09x := ignoresCross_of 0 (.inl rfl) (by decide +kernel)
theorem gga_x_c09x_ignoresLapl : IgnoresLapl .gga gga_x_c09x := ignoresLapl_of 0 (.inl rfl) (by decide +kernel)
theorem gga_x_cap_neverRaises : NeverRaises .gga gga_x_cap := neverRaises_of (by decide +kernel)
theorem gga_x_cap_ignoresCross : IgnoresCross .gga gga_x_cap := ignoresCross_of 0 (.inl rfl) (by decide +kernel)
theorem gga_x_cap_ignoresLapl : IgnoresLapl .gga gga_x_cap := ignoresLapl_of 0 (.inl rfl) (by decide +kernel)
theorem gga_x_chachiyo_neverRaises : NeverRaises .gga gga_x_chachiyo := neverRaises_of (by decide +kernel)
theorem gga_x_chachiyo_ignoresCross : IgnoresCross .gga gga_x_chachiyo := ignoresCross_of 0 (.inl rfl) (by decide +kernel)
theorem gga_x_chachiyo_ignoresLapl : IgnoresLapl .gga gga_x_chachiyo := ignoresLapl_of 0 (.inl rfl) (by decide +kernel)
theorem gga_x_dk87_neverRaises : NeverRaises .gga gga_x_dk87 := neverRaises_of (by decide +kernel)
theorem gga_x_dk87_ignoresCross : IgnoresCross .gga gga_x_dk87 := ignoresCross_of 0 (.inl rfl) (by decide +kernel)
theorem gga_x_dk87_ignoresLapl : IgnoresLapl .gga gga_x_dk87 := ignoresLapl_of 0 (.inl rfl) (by decide +kernel)
theorem gga_x_ev93_neverRaises : NeverRaises .gga gga_x_ev93 := neverRaises_of (by decide +kernel)
theorem gga_x_ev93_ignoresCross : IgnoresCross .gga gga_x_ev93 := ignoresCross_of 0 (.inl rfl) (by decide +kernel)
theorem gga_x_ev93_ignoresLapl : IgnoresLapl .gga gga_x_ev93 := ignoresLapl_of 0 (.inl rfl) (by decide +kernel)
theorem gga_x_fd_lb94_nameError : AlwaysNameError .gga gga_x_fd_lb94 := alwaysNameError_of (by decide +kernel)
theorem gga_x_fd_lb94_ignoresCross : IgnoresCross .gga gga_x_fd_lb94 := ignoresCross_of 2 (.inr rfl) (by decide +kernel)
theorem gga_x_fd_lb94_ignoresLapl : IgnoresLapl .gga gga_x_fd_lb94 := ignoresLapl_of 2 (.inr rfl) (by decide +kernel)
theorem gga_x_ft97_neverRaises : NeverRaises .gga gga_x_ft97 := neverRaises_of (by decide +kernel)
theorem gga_x_ft97_ignoresCross : IgnoresCross .gga gga_x_ft97 := ignoresCross_of 0 (.inl rfl) (by decide +kernel)
theorem gga_x_ft97_ignoresLapl : IgnoresLapl .gga gga_x_ft97 := ignoresLapl_of 0 (.inl rfl) (by decide +kernel)
theorem gga_x_g96_neverRaises : NeverRaises .gga gga_x_g96 := neverRaises_of (by decide +kernel)
theorem gga_x_g96_ignoresCross : IgnoresCross .gga gga_x_g96 := ignoresCross_of 0 (.inl rfl) (by decide +kernel)
theorem gga_x_g96_ignoresLapl : IgnoresLapl .gga gga_x_g96 := ignoresLapl_of 0 (.inl rfl) (by decide +kernel)
theorem gga_x_gg99_nameError : AlwaysNameError .gga gga_x_gg99 := alwaysNameError_of (by decide +kernel)
theorem gga_x_gg99_ignoresCross : IgnoresCross .gga gga_x_gg99 := ignoresCross_of 2 (.inr rfl) (by decide +kernel)
theorem gga_x_gg99_ignoresLapl : IgnoresLapl .gga gga_x_gg99 := ignoresLapl_of 2 (.inr rfl) (by decide +kernel)
theorem gga_x_hcth_a_neverRaises : NeverRaises .gga gga_x_hcth_a := neverRaises_of (by decide +kernel)
theorem gga_x_hcth_a_ignoresCross : IgnoresCross .gga gga_x_hcth_a := ignoresCross_of 0 (.inl rfl) (by decide +kernel)
theorem gga_x_hcth_a_ignoresLapl : IgnoresLapl .gga gga_x_hcth_a := ignoresLapl_of 0 (.inl rfl) (by decide +kernel)
theorem gga_x_herman_neverRaises : NeverRaises .gga gga_x_herman := neverRaises_of (by decide +kernel)
theorem gga_x_herman_ignoresCross : IgnoresCross .gga gga_x_herman := ignoresCross_of 0 (.inl rfl) (by decide +kernel)
theorem gga_x_herman_ignoresLapl : IgnoresLapl .gga gga_x_herman := ignoresLapl_of 0 (.inl rfl) (by decide +kernel)
theorem gga_x_hjs_neverRaises : NeverRaises .gga gga_x_hjs := neverRaises_of (by decide +kernel)
theorem gga_x_hjs_ignoresCross : IgnoresCross .gga gga_x_hjs := ignoresCross_of 0 (.inl rfl) (by decide +kernel)
theorem gga_x_hjs_ignoresLapl : IgnoresLapl .gga gga_x_hjs := ignoresLapl_of 0 (.inl rfl) (by decide +kernel)

end Verif.Props
