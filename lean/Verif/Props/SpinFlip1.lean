import Verif.Norm.Check
import Verif.Data.F01
/-!
# C22: spin-flip symmetry of shipped formulas
-/
namespace Verif.Props
open Verif.Model Verif.Spec Verif.Norm Verif.Data

set_option maxRecDepth 100000

theorem gga_c_acgga_spinFlip : SpinFlip .gga gga_c_acgga := spinFlip_of (cap := 1) (by decide +kernel)
theorem gga_c_acggap_spinFlip : SpinFlip .gga gga_c_acggap := spinFlip_of (cap := 1) (by decide +kernel)
theorem gga_c_am05_spinFlip : SpinFlip .gga gga_c_am05 := spinFlip_of (cap := 1) (by decide +kernel)
theorem gga_c_bmk_spinFlip : SpinFlip .gga gga_c_bmk := spinFlip_of (cap := 1) (by decide +kernel)
theorem gga_c_ccdf_spinFlip : SpinFlip .gga gga_c_ccdf := spinFlip_of (cap := 1) (by decide +kernel)
theorem gga_c_chachiyo_spinFlip : SpinFlip .gga gga_c_chachiyo := spinFlip_of (cap := 1) (by decide +kernel)
theorem gga_c_cs1_spinFlip : SpinFlip .gga gga_c_cs1 := spinFlip_of (cap := 1) (by decide +kernel)
theorem gga_c_ft97_spinFlip : SpinFlip .gga gga_c_ft97 := spinFlip_of (cap := 1) (by decide +kernel)
theorem gga_c_gapc_spinFlip : SpinFlip .gga gga_c_gapc := spinFlip_of (cap := 1) (by decide +kernel)
theorem gga_c_gaploc_spinFlip : SpinFlip .gga gga_c_gaploc := spinFlip_of (cap := 1) (by decide +kernel)
theorem gga_c_hcth_a_spinFlip : SpinFlip .gga gga_c_hcth_a := spinFlip_of (cap := 1) (by decide +kernel)
theorem gga_c_lm_spinFlip : SpinFlip .gga gga_c_lm := spinFlip_of (cap := 1) (by decide +kernel)
theorem gga_c_lyp_spinFlip : SpinFlip .gga gga_c_lyp := spinFlip_of (cap := 1) (by decide +kernel)
theorem gga_c_lypr_spinFlip : SpinFlip .gga gga_c_lypr := spinFlip_of (cap := 1) (by decide +kernel)

end Verif.Props

namespace Verif.Props
open Verif.Model Verif.Spec Verif.Norm Verif.Data

set_option maxRecDepth 100000

theorem gga_c_optc_spinFlip : SpinFlip .gga gga_c_optc := spinFlip_of (cap := 1) (by decide +kernel)
theorem gga_c_p86_spinFlip : SpinFlip .gga gga_c_p86 := spinFlip_of (cap := 1) (by decide +kernel)
theorem gga_c_p86vwn_spinFlip : SpinFlip .gga gga_c_p86vwn := spinFlip_of (cap := 1) (by decide +kernel)
theorem gga_c_pbe_spinFlip : SpinFlip .gga gga_c_pbe := spinFlip_of (cap := 1) (by decide +kernel)
theorem gga_c_pbe_vwn_spinFlip : SpinFlip .gga gga_c_pbe_vwn := spinFlip_of (cap := 1) (by decide +kernel)
theorem gga_c_pbeloc_spinFlip : SpinFlip .gga gga_c_pbeloc := spinFlip_of (cap := 1) (by decide +kernel)
theorem gga_c_pw91_spinFlip : SpinFlip .gga gga_c_pw91 := spinFlip_of (cap := 1) (by decide +kernel)
theorem gga_c_q2d_spinFlip : SpinFlip .gga gga_c_q2d := spinFlip_of (cap := 1) (by decide +kernel)
theorem gga_c_regtpss_spinFlip : SpinFlip .gga gga_c_regtpss := spinFlip_of (cap := 1) (by decide +kernel)
theorem gga_c_revtca_spinFlip : SpinFlip .gga gga_c_revtca := spinFlip_of (cap := 1) (by decide +kernel)
theorem gga_c_scan_e0_spinFlip : SpinFlip .gga gga_c_scan_e0 := spinFlip_of (cap := 1) (by decide +kernel)
theorem gga_c_sg4_spinFlip : SpinFlip .gga gga_c_sg4 := spinFlip_of (cap := 1) (by decide +kernel)

end Verif.Props

namespace Verif.Props
open Verif.Model Verif.Spec Verif.Norm Verif.Data

set_option maxRecDepth 100000

theorem gga_c_sogga11_spinFlip : SpinFlip .gga gga_c_sogga11 := spinFlip_of (cap := 1) (by decide +kernel)
theorem gga_c_tca_spinFlip : SpinFlip .gga gga_c_tca := spinFlip_of (cap := 1) (by decide +kernel)
theorem gga_c_wi_spinFlip : SpinFlip .gga gga_c_wi := spinFlip_of (cap := 1) (by decide +kernel)
theorem gga_c_wl_spinFlip : SpinFlip .gga gga_c_wl := spinFlip_of (cap := 1) (by decide +kernel)
theorem gga_c_zpbeint_spinFlip : SpinFlip .gga gga_c_zpbeint := spinFlip_of (cap := 1) (by decide +kernel)
theorem gga_c_zvpbeint_spinFlip : SpinFlip .gga gga_c_zvpbeint := spinFlip_of (cap := 1) (by decide +kernel)
theorem gga_c_zvpbeloc_spinFlip : SpinFlip .gga gga_c_zvpbeloc := spinFlip_of (cap := 1) (by decide +kernel)
theorem gga_k_apbe_spinFlip : SpinFlip .gga gga_k_apbe := spinFlip_of (cap := 1) (by decide +kernel)
theorem gga_k_apbeint_spinFlip : SpinFlip .gga gga_k_apbeint := spinFlip_of (cap := 1) (by decide +kernel)
theorem gga_k_dk_spinFlip : SpinFlip .gga gga_k_dk := spinFlip_of (cap := 1) (by decide +kernel)
theorem gga_k_exp4_spinFlip : SpinFlip .gga gga_k_exp4 := spinFlip_of (cap := 1) (by decide +kernel)
theorem gga_k_lc94_spinFlip : SpinFlip .gga gga_k_lc94 := spinFlip_of (cap := 1) (by decide +kernel)
theorem gga_k_lgap_spinFlip : SpinFlip .gga gga_k_lgap := spinFlip_of (cap := 1) (by decide +kernel)
theorem gga_k_lgap_ge_spinFlip : SpinFlip .gga gga_k_lgap_ge := spinFlip_of (cap := 1) (by decide +kernel)
theorem gga_k_lkt_spinFlip : SpinFlip .gga gga_k_lkt := spinFlip_of (cap := 1) (by decide +kernel)
theorem gga_k_llp_spinFlip : SpinFlip .gga gga_k_llp := spinFlip_of (cap := 1) (by decide +kernel)
theorem gga_k_meyer_spinFlip : SpinFlip .gga gga_k_meyer := spinFlip_of (cap := 1) (by decide +kernel)
theorem gga_k_mpbe_spinFlip : SpinFlip .gga gga_k_mpbe := spinFlip_of (cap := 1) (by decide +kernel)
theorem gga_k_ol1_spinFlip : SpinFlip .gga gga_k_ol1 := spinFlip_of (cap := 1) (by decide +kernel)
theorem gga_k_ol2_spinFlip : SpinFlip .gga gga_k_ol2 := spinFlip_of (cap := 1) (by decide +kernel)
theorem gga_k_pearson_spinFlip : SpinFlip .gga gga_k_pearson := spinFlip_of (cap := 1) (by decide +kernel)
theorem gga_k_pg_spinFlip : SpinFlip .gga gga_k_pg := spinFlip_of (cap := 1) (by decide +kernel)
theorem gga_k_pw86_spinFlip : SpinFlip .gga gga_k_pw86 := spinFlip_of (cap := 1) (by decide +kernel)
theorem gga_k_rational_p_spinFlip : SpinFlip .gga gga_k_rational_p := spinFlip_of (cap := 1) (by decide +kernel)
theorem gga_k_tflw_spinFlip : SpinFlip .gga gga_k_tflw := spinFlip_of (cap := 1) (by decide +kernel)
theorem gga_k_thakkar_spinFlip : SpinFlip .gga gga_k_thakkar := spinFlip_of (cap := 1) (by decide +kernel)

end Verif.Props

namespace Verif.Props
open Verif.Model Verif.Spec Verif.Norm Verif.Data

set_option maxRecDepth 100000

theorem gga_k_vt84f_spinFlip : SpinFlip .gga gga_k_vt84f := spinFlip_of (cap := 1) (by decide +kernel)
theorem gga_x_2d_b86_spinFlip : SpinFlip .gga gga_x_2d_b86 := spinFlip_of (cap := 1) (by decide +kernel)
theorem gga_x_2d_b86_mgc_spinFlip : SpinFlip .gga gga_x_2d_b86_mgc := spinFlip_of (cap := 1) (by decide +kernel)
theorem gga_x_2d_b88_spinFlip : SpinFlip .gga gga_x_2d_b88 := spinFlip_of (cap := 1) (by decide +kernel)
theorem gga_x_2d_pbe_spinFlip : SpinFlip .gga gga_x_2d_pbe := spinFlip_of (cap := 1) (by decide +kernel)
theorem gga_x_airy_spinFlip : SpinFlip .gga gga_x_airy := spinFlip_of (cap := 1) (by decide +kernel)
theorem gga_x_ak13_spinFlip : SpinFlip .gga gga_x_ak13 := spinFlip_of (cap := 1) (by decide +kernel)
theorem gga_x_am05_spinFlip : SpinFlip .gga gga_x_am05 := spinFlip_of (cap := 1) (by decide +kernel)
theorem gga_x_b86_spinFlip : SpinFlip .gga gga_x_b86 := spinFlip_of (cap := 1) (by decide +kernel)
theorem gga_x_b88_spinFlip : SpinFlip .gga gga_x_b88 := spinFlip_of (cap := 1) (by decide +kernel)
theorem gga_x_bayesian_spinFlip : SpinFlip .gga gga_x_bayesian := spinFlip_of (cap := 1) (by decide +kernel)
theorem gga_x_beefvdw_spinFlip : SpinFlip .gga gga_x_beefvdw := spinFlip_of (cap := 1) (by decide +kernel)
theorem gga_x_bpccac_spinFlip : SpinFlip .gga gga_x_bpccac := spinFlip_of (cap := 1) (by decide +kernel)
theorem gga_x_c09x_spinFlip : SpinFlip .gga gga_x_c09x := spinFlip_of (cap := 1) (by decide +kernel)
theorem gga_x_cap_spinFlip : SpinFlip .gga gga_x_cap := spinFlip_of (cap := 1) (by decide +kernel)
theorem gga_x_chachiyo_spinFlip : SpinFlip .gga gga_x_chachiyo := spinFlip_of (cap := 1) (by decide +kernel)
theorem gga_x_dk87_spinFlip : SpinFlip .gga gga_x_dk87 := spinFlip_of (cap := 1) (by decide +kernel)
theorem gga_x_ev93_spinFlip : SpinFlip .gga gga_x_ev93 := spinFlip_of (cap := 1) (by decide +kernel)
theorem gga_x_ft97_spinFlip : SpinFlip .gga gga_x_ft97 := spinFlip_of (cap := 1) (by decide +kernel)
theorem gga_x_g96_spinFlip : SpinFlip .gga gga_x_g96 := spinFlip_of (cap := 1) (by decide +kernel)
theorem gga_x_hcth_a_spinFlip : SpinFlip .gga gga_x_hcth_a := spinFlip_of (cap := 1) (by decide +kernel)
theorem gga_x_herman_spinFlip : SpinFlip .gga gga_x_herman := spinFlip_of (cap := 1) (by decide +kernel)
theorem gga_x_hjs_spinFlip : SpinFlip .gga gga_x_hjs := spinFlip_of (cap := 1) (by decide +kernel)

end Verif.Props
