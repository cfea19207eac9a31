import Verif.Norm.Clamp
import Verif.Props.Classification
import Verif.Props.ClosedShell1
import Verif.Props.Exchange1
import Verif.Props.SpinFlip1
/-!
# C62: the spin-scaling relation on the whole domain
-/
set_option Elab.async false
set_option maxRecDepth 100000
namespace Verif.Props
open Verif.Py Verif.Model Verif.Spec Verif.Norm Verif.Data

theorem gga_k_apbe_fullSpinScaling : FullSpinScaling keptShare (5 / 3) .gga gga_k_apbe :=
  fullSpinScaling_of (both := true) (k := .thirds) (cap := 1) (spinFlip_z gga_k_apbe_spinFlip) (closedShell_z gga_k_apbe_closedShell) gga_k_apbe_spinScaling gga_k_apbe_screenedBoth gga_k_apbe_screenedRest (by decide +kernel) (by decide +kernel)
theorem gga_k_apbeint_fullSpinScaling : FullSpinScaling keptShare (5 / 3) .gga gga_k_apbeint :=
  fullSpinScaling_of (both := true) (k := .thirds) (cap := 1) (spinFlip_z gga_k_apbeint_spinFlip) (closedShell_z gga_k_apbeint_closedShell) gga_k_apbeint_spinScaling gga_k_apbeint_screenedBoth gga_k_apbeint_screenedRest (by decide +kernel) (by decide +kernel)
theorem gga_k_dk_fullSpinScaling : FullSpinScaling keptShare (5 / 3) .gga gga_k_dk :=
  fullSpinScaling_of (both := true) (k := .thirds) (cap := 1) (spinFlip_z gga_k_dk_spinFlip) (closedShell_z gga_k_dk_closedShell) gga_k_dk_spinScaling gga_k_dk_screenedBoth gga_k_dk_screenedRest (by decide +kernel) (by decide +kernel)
theorem gga_k_lc94_fullSpinScaling : FullSpinScaling keptShare (5 / 3) .gga gga_k_lc94 :=
  fullSpinScaling_of (both := true) (k := .thirds) (cap := 1) (spinFlip_z gga_k_lc94_spinFlip) (closedShell_z gga_k_lc94_closedShell) gga_k_lc94_spinScaling gga_k_lc94_screenedBoth gga_k_lc94_screenedRest (by decide +kernel) (by decide +kernel)
theorem gga_k_lgap_fullSpinScaling : FullSpinScaling keptShare (5 / 3) .gga gga_k_lgap :=
  fullSpinScaling_of (both := true) (k := .thirds) (cap := 1) (spinFlip_z gga_k_lgap_spinFlip) (closedShell_z gga_k_lgap_closedShell) gga_k_lgap_spinScaling gga_k_lgap_screenedBoth gga_k_lgap_screenedRest (by decide +kernel) (by decide +kernel)
theorem gga_k_lgap_ge_fullSpinScaling : FullSpinScaling keptShare (5 / 3) .gga gga_k_lgap_ge :=
  fullSpinScaling_of (both := true) (k := .thirds) (cap := 1) (spinFlip_z gga_k_lgap_ge_spinFlip) (closedShell_z gga_k_lgap_ge_closedShell) gga_k_lgap_ge_spinScaling gga_k_lgap_ge_screenedBoth gga_k_lgap_ge_screenedRest (by decide +kernel) (by decide +kernel)
theorem gga_k_lkt_fullSpinScaling : FullSpinScaling keptShare (5 / 3) .gga gga_k_lkt :=
  fullSpinScaling_of (both := true) (k := .thirds) (cap := 4) (spinFlip_z gga_k_lkt_spinFlip) (closedShell_z gga_k_lkt_closedShell) gga_k_lkt_spinScaling gga_k_lkt_screenedBoth gga_k_lkt_screenedRest (by decide +kernel) (by decide +kernel)
theorem gga_k_llp_fullSpinScaling : FullSpinScaling keptShare (5 / 3) .gga gga_k_llp :=
  fullSpinScaling_of (both := true) (k := .thirds) (cap := 4) (spinFlip_z gga_k_llp_spinFlip) (closedShell_z gga_k_llp_closedShell) gga_k_llp_spinScaling gga_k_llp_screenedBoth gga_k_llp_screenedRest (by decide +kernel) (by decide +kernel)
theorem gga_k_meyer_fullSpinScaling : FullSpinScaling keptShare (5 / 3) .gga gga_k_meyer :=
  fullSpinScaling_of (both := true) (k := .thirds) (cap := 1) (spinFlip_z gga_k_meyer_spinFlip) (closedShell_z gga_k_meyer_closedShell) gga_k_meyer_spinScaling gga_k_meyer_screenedBoth gga_k_meyer_screenedRest (by decide +kernel) (by decide +kernel)
theorem gga_k_mpbe_fullSpinScaling : FullSpinScaling keptShare (5 / 3) .gga gga_k_mpbe :=
  fullSpinScaling_of (both := true) (k := .thirds) (cap := 1) (spinFlip_z gga_k_mpbe_spinFlip) (closedShell_z gga_k_mpbe_closedShell) gga_k_mpbe_spinScaling gga_k_mpbe_screenedBoth gga_k_mpbe_screenedRest (by decide +kernel) (by decide +kernel)
theorem gga_k_ol1_fullSpinScaling : FullSpinScaling keptShare (5 / 3) .gga gga_k_ol1 :=
  fullSpinScaling_of (both := true) (k := .thirds) (cap := 1) (spinFlip_z gga_k_ol1_spinFlip) (closedShell_z gga_k_ol1_closedShell) gga_k_ol1_spinScaling gga_k_ol1_screenedBoth gga_k_ol1_screenedRest (by decide +kernel) (by decide +kernel)
theorem gga_k_ol2_fullSpinScaling : FullSpinScaling keptShare (5 / 3) .gga gga_k_ol2 :=
  fullSpinScaling_of (both := true) (k := .thirds) (cap := 1) (spinFlip_z gga_k_ol2_spinFlip) (closedShell_z gga_k_ol2_closedShell) gga_k_ol2_spinScaling gga_k_ol2_screenedBoth gga_k_ol2_screenedRest (by decide +kernel) (by decide +kernel)
theorem gga_k_pearson_fullSpinScaling : FullSpinScaling keptShare (5 / 3) .gga gga_k_pearson :=
  fullSpinScaling_of (both := true) (k := .thirds) (cap := 4) (spinFlip_z gga_k_pearson_spinFlip) (closedShell_z gga_k_pearson_closedShell) gga_k_pearson_spinScaling gga_k_pearson_screenedBoth gga_k_pearson_screenedRest (by decide +kernel) (by decide +kernel)
theorem gga_k_pg_fullSpinScaling : FullSpinScaling keptShare (5 / 3) .gga gga_k_pg :=
  fullSpinScaling_of (both := true) (k := .thirds) (cap := 4) (spinFlip_z gga_k_pg_spinFlip) (closedShell_z gga_k_pg_closedShell) gga_k_pg_spinScaling gga_k_pg_screenedBoth gga_k_pg_screenedRest (by decide +kernel) (by decide +kernel)
theorem gga_k_pw86_fullSpinScaling : FullSpinScaling keptShare (5 / 3) .gga gga_k_pw86 :=
  fullSpinScaling_of (both := true) (k := .thirds) (cap := 4) (spinFlip_z gga_k_pw86_spinFlip) (closedShell_z gga_k_pw86_closedShell) gga_k_pw86_spinScaling gga_k_pw86_screenedBoth gga_k_pw86_screenedRest (by decide +kernel) (by decide +kernel)
theorem gga_k_rational_p_fullSpinScaling : FullSpinScaling keptShare (5 / 3) .gga gga_k_rational_p :=
  fullSpinScaling_of (both := true) (k := .thirds) (cap := 4) (spinFlip_z gga_k_rational_p_spinFlip) (closedShell_z gga_k_rational_p_closedShell) gga_k_rational_p_spinScaling gga_k_rational_p_screenedBoth gga_k_rational_p_screenedRest (by decide +kernel) (by decide +kernel)
theorem gga_k_tflw_fullSpinScaling : FullSpinScaling keptShare (5 / 3) .gga gga_k_tflw :=
  fullSpinScaling_of (both := true) (k := .thirds) (cap := 4) (spinFlip_z gga_k_tflw_spinFlip) (closedShell_z gga_k_tflw_closedShell) gga_k_tflw_spinScaling gga_k_tflw_screenedBoth gga_k_tflw_screenedRest (by decide +kernel) (by decide +kernel)
theorem gga_k_thakkar_fullSpinScaling : FullSpinScaling keptShare (5 / 3) .gga gga_k_thakkar :=
  fullSpinScaling_of (both := true) (k := .thirds) (cap := 1) (spinFlip_z gga_k_thakkar_spinFlip) (closedShell_z gga_k_thakkar_closedShell) gga_k_thakkar_spinScaling gga_k_thakkar_screenedBoth gga_k_thakkar_screenedRest (by decide +kernel) (by decide +kernel)
theorem gga_k_vt84f_fullSpinScaling : FullSpinScaling keptShare (5 / 3) .gga gga_k_vt84f :=
  fullSpinScaling_of (both := true) (k := .thirds) (cap := 4) (spinFlip_z gga_k_vt84f_spinFlip) (closedShell_z gga_k_vt84f_closedShell) gga_k_vt84f_spinScaling gga_k_vt84f_screenedBoth gga_k_vt84f_screenedRest (by decide +kernel) (by decide +kernel)
theorem gga_x_2d_b86_fullSpinScaling : FullSpinScaling keptShare (3 / 2) .gga gga_x_2d_b86 :=
  fullSpinScaling_of (both := true) (k := .half) (cap := 4) (spinFlip_z gga_x_2d_b86_spinFlip) (closedShell_z gga_x_2d_b86_closedShell) gga_x_2d_b86_spinScaling gga_x_2d_b86_screenedBoth gga_x_2d_b86_screenedRest (by decide +kernel) (by decide +kernel)
theorem gga_x_2d_b86_mgc_fullSpinScaling : FullSpinScaling keptShare (3 / 2) .gga gga_x_2d_b86_mgc :=
  fullSpinScaling_of (both := true) (k := .half) (cap := 4) (spinFlip_z gga_x_2d_b86_mgc_spinFlip) (closedShell_z gga_x_2d_b86_mgc_closedShell) gga_x_2d_b86_mgc_spinScaling gga_x_2d_b86_mgc_screenedBoth gga_x_2d_b86_mgc_screenedRest (by decide +kernel) (by decide +kernel)
theorem gga_x_2d_b88_fullSpinScaling : FullSpinScaling keptShare (3 / 2) .gga gga_x_2d_b88 :=
  fullSpinScaling_of (both := true) (k := .half) (cap := 4) (spinFlip_z gga_x_2d_b88_spinFlip) (closedShell_z gga_x_2d_b88_closedShell) gga_x_2d_b88_spinScaling gga_x_2d_b88_screenedBoth gga_x_2d_b88_screenedRest (by decide +kernel) (by decide +kernel)
theorem gga_x_2d_pbe_fullSpinScaling : FullSpinScaling keptShare (3 / 2) .gga gga_x_2d_pbe :=
  fullSpinScaling_of (both := true) (k := .half) (cap := 4) (spinFlip_z gga_x_2d_pbe_spinFlip) (closedShell_z gga_x_2d_pbe_closedShell) gga_x_2d_pbe_spinScaling gga_x_2d_pbe_screenedBoth gga_x_2d_pbe_screenedRest (by decide +kernel) (by decide +kernel)
theorem gga_x_airy_fullSpinScaling : FullSpinScaling keptShare (4 / 3) .gga gga_x_airy :=
  fullSpinScaling_of (both := true) (k := .third) (cap := 1) (spinFlip_z gga_x_airy_spinFlip) (closedShell_z gga_x_airy_closedShell) gga_x_airy_spinScaling gga_x_airy_screenedBoth gga_x_airy_screenedRest (by decide +kernel) (by decide +kernel)
theorem gga_x_ak13_fullSpinScaling : FullSpinScaling keptShare (4 / 3) .gga gga_x_ak13 :=
  fullSpinScaling_of (both := true) (k := .third) (cap := 1) (spinFlip_z gga_x_ak13_spinFlip) (closedShell_z gga_x_ak13_closedShell) gga_x_ak13_spinScaling gga_x_ak13_screenedBoth gga_x_ak13_screenedRest (by decide +kernel) (by decide +kernel)
theorem gga_x_am05_fullSpinScaling : FullSpinScaling keptShare (4 / 3) .gga gga_x_am05 :=
  fullSpinScaling_of (both := true) (k := .third) (cap := 1) (spinFlip_z gga_x_am05_spinFlip) (closedShell_z gga_x_am05_closedShell) gga_x_am05_spinScaling gga_x_am05_screenedBoth gga_x_am05_screenedRest (by decide +kernel) (by decide +kernel)
theorem gga_x_b86_fullSpinScaling : FullSpinScaling keptShare (4 / 3) .gga gga_x_b86 :=
  fullSpinScaling_of (both := true) (k := .third) (cap := 4) (spinFlip_z gga_x_b86_spinFlip) (closedShell_z gga_x_b86_closedShell) gga_x_b86_spinScaling gga_x_b86_screenedBoth gga_x_b86_screenedRest (by decide +kernel) (by decide +kernel)
theorem gga_x_b88_fullSpinScaling : FullSpinScaling keptShare (4 / 3) .gga gga_x_b88 :=
  fullSpinScaling_of (both := true) (k := .third) (cap := 4) (spinFlip_z gga_x_b88_spinFlip) (closedShell_z gga_x_b88_closedShell) gga_x_b88_spinScaling gga_x_b88_screenedBoth gga_x_b88_screenedRest (by decide +kernel) (by decide +kernel)
theorem gga_x_bayesian_fullSpinScaling : FullSpinScaling keptShare (4 / 3) .gga gga_x_bayesian :=
  fullSpinScaling_of (both := true) (k := .third) (cap := 1) (spinFlip_z gga_x_bayesian_spinFlip) (closedShell_z gga_x_bayesian_closedShell) gga_x_bayesian_spinScaling gga_x_bayesian_screenedBoth gga_x_bayesian_screenedRest (by decide +kernel) (by decide +kernel)
theorem gga_x_beefvdw_fullSpinScaling : FullSpinScaling keptShare (4 / 3) .gga gga_x_beefvdw :=
  fullSpinScaling_of (both := true) (k := .third) (cap := 1) (spinFlip_z gga_x_beefvdw_spinFlip) (closedShell_z gga_x_beefvdw_closedShell) gga_x_beefvdw_spinScaling gga_x_beefvdw_screenedBoth gga_x_beefvdw_screenedRest (by decide +kernel) (by decide +kernel)
theorem gga_x_c09x_fullSpinScaling : FullSpinScaling keptShare (4 / 3) .gga gga_x_c09x :=
  fullSpinScaling_of (both := true) (k := .third) (cap := 1) (spinFlip_z gga_x_c09x_spinFlip) (closedShell_z gga_x_c09x_closedShell) gga_x_c09x_spinScaling gga_x_c09x_screenedBoth gga_x_c09x_screenedRest (by decide +kernel) (by decide +kernel)
theorem gga_x_cap_fullSpinScaling : FullSpinScaling keptShare (4 / 3) .gga gga_x_cap :=
  fullSpinScaling_of (both := true) (k := .third) (cap := 4) (spinFlip_z gga_x_cap_spinFlip) (closedShell_z gga_x_cap_closedShell) gga_x_cap_spinScaling gga_x_cap_screenedBoth gga_x_cap_screenedRest (by decide +kernel) (by decide +kernel)
theorem gga_x_chachiyo_fullSpinScaling : FullSpinScaling keptShare (4 / 3) .gga gga_x_chachiyo :=
  fullSpinScaling_of (both := true) (k := .third) (cap := 4) (spinFlip_z gga_x_chachiyo_spinFlip) (closedShell_z gga_x_chachiyo_closedShell) gga_x_chachiyo_spinScaling gga_x_chachiyo_screenedBoth gga_x_chachiyo_screenedRest (by decide +kernel) (by decide +kernel)
theorem gga_x_dk87_fullSpinScaling : FullSpinScaling keptShare (4 / 3) .gga gga_x_dk87 :=
  fullSpinScaling_of (both := true) (k := .third) (cap := 1) (spinFlip_z gga_x_dk87_spinFlip) (closedShell_z gga_x_dk87_closedShell) gga_x_dk87_spinScaling gga_x_dk87_screenedBoth gga_x_dk87_screenedRest (by decide +kernel) (by decide +kernel)
theorem gga_x_ev93_fullSpinScaling : FullSpinScaling keptShare (4 / 3) .gga gga_x_ev93 :=
  fullSpinScaling_of (both := true) (k := .third) (cap := 1) (spinFlip_z gga_x_ev93_spinFlip) (closedShell_z gga_x_ev93_closedShell) gga_x_ev93_spinScaling gga_x_ev93_screenedBoth gga_x_ev93_screenedRest (by decide +kernel) (by decide +kernel)
theorem gga_x_g96_fullSpinScaling : FullSpinScaling keptShare (4 / 3) .gga gga_x_g96 :=
  fullSpinScaling_of (both := true) (k := .third) (cap := 4) (spinFlip_z gga_x_g96_spinFlip) (closedShell_z gga_x_g96_closedShell) gga_x_g96_spinScaling gga_x_g96_screenedBoth gga_x_g96_screenedRest (by decide +kernel) (by decide +kernel)
theorem gga_x_hcth_a_fullSpinScaling : FullSpinScaling keptShare (4 / 3) .gga gga_x_hcth_a :=
  fullSpinScaling_of (both := true) (k := .third) (cap := 1) (spinFlip_z gga_x_hcth_a_spinFlip) (closedShell_z gga_x_hcth_a_closedShell) gga_x_hcth_a_spinScaling gga_x_hcth_a_screenedBoth gga_x_hcth_a_screenedRest (by decide +kernel) (by decide +kernel)
theorem gga_x_herman_fullSpinScaling : FullSpinScaling keptShare (4 / 3) .gga gga_x_herman :=
  fullSpinScaling_of (both := true) (k := .third) (cap := 4) (spinFlip_z gga_x_herman_spinFlip) (closedShell_z gga_x_herman_closedShell) gga_x_herman_spinScaling gga_x_herman_screenedBoth gga_x_herman_screenedRest (by decide +kernel) (by decide +kernel)

end Verif.Props
