import Verif.Norm.IntervalSound
import Verif.Props.Static1
import Verif.Props.Static2
/-!
# C51: formulas where there are electrons of one spin only
-/
set_option Elab.async false
set_option maxRecDepth 100000
namespace Verif.Props
open Verif.Py Verif.Model Verif.Spec Verif.Norm Verif.Data

theorem gga_c_am05_nanFull : NanFull .gga gga_c_am05 := nanFull_of (by decide +kernel)
theorem gga_c_bmk_nanFull : NanFull .gga gga_c_bmk := nanFull_of (by decide +kernel)
theorem gga_c_ccdf_definedFull : DefinedFull {params := ["c2"]} .gga gga_c_ccdf :=
  definedFull_of _ gga_c_ccdf_neverRaises (par := [25394]) (npar := []) (flds := []) (by simp [nameCode, nameCodeChars]) rfl rfl (by decide +kernel)
theorem gga_c_cs1_nanFull : NanFull .gga gga_c_cs1 := nanFull_of (by decide +kernel)
theorem gga_c_hcth_a_nanFull : NanFull .gga gga_c_hcth_a := nanFull_of (by decide +kernel)
theorem gga_c_lm_nanFull : NanFull .gga gga_c_lm := nanFull_of (by decide +kernel)
theorem gga_c_lyp_nanFull : NanFull .gga gga_c_lyp := nanFull_of (by decide +kernel)
theorem gga_c_lypr_nanFull : NanFull .gga gga_c_lypr := nanFull_of (by decide +kernel)
theorem gga_c_op_b88_definedFull : DefinedFull {} .gga gga_c_op_b88 :=
  definedFull_of _ gga_c_op_b88_neverRaises (par := []) (npar := []) (flds := []) rfl rfl rfl (by decide +kernel)
theorem gga_c_op_g96_definedFull : DefinedFull {} .gga gga_c_op_g96 :=
  definedFull_of _ gga_c_op_g96_neverRaises (par := []) (npar := []) (flds := []) rfl rfl rfl (by decide +kernel)
theorem gga_c_op_pbe_definedFull : DefinedFull {} .gga gga_c_op_pbe :=
  definedFull_of _ gga_c_op_pbe_neverRaises (par := []) (npar := []) (flds := []) rfl rfl rfl (by decide +kernel)
theorem gga_c_op_pw91_definedFull : DefinedFull {} .gga gga_c_op_pw91 :=
  definedFull_of _ gga_c_op_pw91_neverRaises (par := []) (npar := []) (flds := []) rfl rfl rfl (by decide +kernel)
theorem gga_c_op_xalpha_definedFull : DefinedFull {} .gga gga_c_op_xalpha :=
  definedFull_of _ gga_c_op_xalpha_neverRaises (par := []) (npar := []) (flds := []) rfl rfl rfl (by decide +kernel)
theorem gga_c_optc_nanFull : NanFull .gga gga_c_optc := nanFull_of (by decide +kernel)
theorem gga_c_p86_definedFull : DefinedFull {params := ["bb", "aa", "mbeta", "mdelta", "mgamma", "malpha"]} .gga gga_c_p86 :=
  definedFull_of _ gga_c_p86_neverRaises (par := [25186, 24929, 469802251361, 120277965763681, 120290783620449, 120265198561377]) (npar := []) (flds := []) (by simp [nameCode, nameCodeChars]) rfl rfl (by decide +kernel)
theorem gga_c_p86vwn_definedFull : DefinedFull {params := ["bb", "aa", "mbeta", "mdelta", "mgamma", "malpha"]} .gga gga_c_p86vwn :=
  definedFull_of _ gga_c_p86vwn_neverRaises (par := [25186, 24929, 469802251361, 120277965763681, 120290783620449, 120265198561377]) (npar := []) (flds := []) (by simp [nameCode, nameCodeChars]) rfl rfl (by decide +kernel)
theorem gga_c_revtca_definedFull : DefinedFull {} .gga gga_c_revtca :=
  definedFull_of _ gga_c_revtca_neverRaises (par := []) (npar := []) (flds := []) rfl rfl rfl (by decide +kernel)
theorem gga_c_tca_definedFull : DefinedFull {} .gga gga_c_tca :=
  definedFull_of _ gga_c_tca_neverRaises (par := []) (npar := []) (flds := []) rfl rfl rfl (by decide +kernel)
theorem gga_c_wi_definedFull : DefinedFull {params := ["d", "c"]} .gga gga_c_wi :=
  definedFull_of _ gga_c_wi_neverRaises (par := [100, 99]) (npar := []) (flds := []) (by simp [nameCode, nameCodeChars]) rfl rfl (by decide +kernel)
theorem gga_c_wl_nanFull : NanFull .gga gga_c_wl := nanFull_of (by decide +kernel)
theorem gga_k_apbe_definedFull : DefinedFull {params := ["kappa", "mu"]} .gga gga_k_apbe :=
  definedFull_of _ gga_k_apbe_neverRaises (par := [461196259425, 28021]) (npar := []) (flds := []) (by simp [nameCode, nameCodeChars]) rfl rfl (by decide +kernel)
theorem gga_k_dk_definedFull : DefinedFull {params := ["bb[4]", "bb[3]", "bb[2]", "bb[1]", "bb[0]"]} .gga gga_k_dk :=
  definedFull_of _ gga_k_dk_neverRaises (par := [422556939357, 422556939101, 422556938845, 422556938589, 422556938333]) (npar := []) (flds := []) (by simp [nameCode, nameCodeChars]) rfl rfl (by decide +kernel)
theorem gga_k_exp4_definedFull : DefinedFull {} .gga gga_k_exp4 :=
  definedFull_of _ gga_k_exp4_neverRaises (par := []) (npar := []) (flds := []) rfl rfl rfl (by decide +kernel)
theorem gga_k_lc94_definedFull : DefinedFull {params := ["a", "f", "b"]} .gga gga_k_lc94 :=
  definedFull_of _ gga_k_lc94_neverRaises (par := [97, 102, 98]) (npar := []) (flds := []) (by simp [nameCode, nameCodeChars]) rfl rfl (by decide +kernel)
theorem gga_k_lgap_definedFull : DefinedFull {} .gga gga_k_lgap :=
  definedFull_of _ gga_k_lgap_neverRaises (par := []) (npar := []) (flds := []) rfl rfl rfl (by decide +kernel)
theorem gga_k_lgap_ge_definedFull : DefinedFull {} .gga gga_k_lgap_ge :=
  definedFull_of _ gga_k_lgap_ge_neverRaises (par := []) (npar := []) (flds := []) rfl rfl rfl (by decide +kernel)
theorem gga_k_lkt_definedFull : DefinedFull {} .gga gga_k_lkt :=
  definedFull_of _ gga_k_lkt_neverRaises (par := []) (npar := []) (flds := []) rfl rfl rfl (by decide +kernel)
theorem gga_k_llp_definedFull : DefinedFull {params := ["beta", "gamma"]} .gga gga_k_llp :=
  definedFull_of _ gga_k_llp_neverRaises (par := [1650816097, 444016192865]) (npar := []) (flds := []) (by simp [nameCode, nameCodeChars]) rfl rfl (by decide +kernel)
theorem gga_k_mpbe_definedFull : DefinedFull {params := ["a"]} .gga gga_k_mpbe :=
  definedFull_of _ gga_k_mpbe_neverRaises (par := [97]) (npar := []) (flds := []) (by simp [nameCode, nameCodeChars]) rfl rfl (by decide +kernel)
theorem gga_k_ol1_definedFull : DefinedFull {} .gga gga_k_ol1 :=
  definedFull_of _ gga_k_ol1_neverRaises (par := []) (npar := []) (flds := []) rfl rfl rfl (by decide +kernel)
theorem gga_k_ol2_definedFull : DefinedFull {} .gga gga_k_ol2 :=
  definedFull_of _ gga_k_ol2_neverRaises (par := []) (npar := []) (flds := []) rfl rfl rfl (by decide +kernel)
theorem gga_k_pearson_definedFull : DefinedFull {} .gga gga_k_pearson :=
  definedFull_of _ gga_k_pearson_neverRaises (par := []) (npar := []) (flds := []) rfl rfl rfl (by decide +kernel)
theorem gga_k_pg_definedFull : DefinedFull {} .gga gga_k_pg :=
  definedFull_of _ gga_k_pg_neverRaises (par := []) (npar := []) (flds := []) rfl rfl rfl (by decide +kernel)
theorem gga_k_pw86_definedFull : DefinedFull {} .gga gga_k_pw86 :=
  definedFull_of _ gga_k_pw86_neverRaises (par := []) (npar := []) (flds := []) rfl rfl rfl (by decide +kernel)
theorem gga_k_rational_p_definedFull : DefinedFull {params := ["p", "C2"]} .gga gga_k_rational_p :=
  definedFull_of _ gga_k_rational_p_neverRaises (par := [112, 17202]) (npar := []) (flds := []) (by simp [nameCode, nameCodeChars]) rfl rfl (by decide +kernel)
theorem gga_k_tflw_definedFull : DefinedFull {} .gga gga_k_tflw :=
  definedFull_of _ gga_k_tflw_neverRaises (par := []) (npar := []) (flds := []) rfl rfl rfl (by decide +kernel)
theorem gga_k_thakkar_definedFull : DefinedFull {} .gga gga_k_thakkar :=
  definedFull_of _ gga_k_thakkar_neverRaises (par := []) (npar := []) (flds := []) rfl rfl rfl (by decide +kernel)
theorem gga_k_vt84f_definedFull : DefinedFull {params := ["mu"]} .gga gga_k_vt84f :=
  definedFull_of _ gga_k_vt84f_neverRaises (par := [28021]) (npar := []) (flds := []) (by simp [nameCode, nameCodeChars]) rfl rfl (by decide +kernel)
theorem gga_x_2d_b86_definedFull : DefinedFull {} .gga gga_x_2d_b86 :=
  definedFull_of _ gga_x_2d_b86_neverRaises (par := []) (npar := []) (flds := []) rfl rfl rfl (by decide +kernel)
theorem gga_x_2d_b86_mgc_definedFull : DefinedFull {} .gga gga_x_2d_b86_mgc :=
  definedFull_of _ gga_x_2d_b86_mgc_neverRaises (par := []) (npar := []) (flds := []) rfl rfl rfl (by decide +kernel)
theorem gga_x_2d_b88_definedFull : DefinedFull {} .gga gga_x_2d_b88 :=
  definedFull_of _ gga_x_2d_b88_neverRaises (par := []) (npar := []) (flds := []) rfl rfl rfl (by decide +kernel)
theorem gga_x_2d_pbe_definedFull : DefinedFull {} .gga gga_x_2d_pbe :=
  definedFull_of _ gga_x_2d_pbe_neverRaises (par := []) (npar := []) (flds := []) rfl rfl rfl (by decide +kernel)
theorem gga_x_airy_definedFull : DefinedFull {} .gga gga_x_airy :=
  definedFull_of _ gga_x_airy_neverRaises (par := []) (npar := []) (flds := []) rfl rfl rfl (by decide +kernel)
theorem gga_x_ak13_definedFull : DefinedFull {} .gga gga_x_ak13 :=
  definedFull_of _ gga_x_ak13_neverRaises (par := []) (npar := []) (flds := []) rfl rfl rfl (by decide +kernel)
theorem gga_x_b86_definedFull : DefinedFull {params := ["gamma"]} .gga gga_x_b86 :=
  definedFull_of _ gga_x_b86_neverRaises (par := [444016192865]) (npar := []) (flds := []) (by simp [nameCode, nameCodeChars]) rfl rfl (by decide +kernel)
theorem gga_x_b88_definedFull : DefinedFull {params := ["beta", "gamma"]} .gga gga_x_b88 :=
  definedFull_of _ gga_x_b88_neverRaises (par := [1650816097, 444016192865]) (npar := []) (flds := []) (by simp [nameCode, nameCodeChars]) rfl rfl (by decide +kernel)
theorem gga_x_bayesian_definedFull : DefinedFull {} .gga gga_x_bayesian :=
  definedFull_of _ gga_x_bayesian_neverRaises (par := []) (npar := []) (flds := []) rfl rfl rfl (by decide +kernel)
theorem gga_x_beefvdw_definedFull : DefinedFull {} .gga gga_x_beefvdw :=
  definedFull_of _ gga_x_beefvdw_neverRaises (par := []) (npar := []) (flds := []) rfl rfl rfl (by decide +kernel)
theorem gga_x_bpccac_definedFull : DefinedFull {} .gga gga_x_bpccac :=
  definedFull_of _ gga_x_bpccac_neverRaises (par := []) (npar := []) (flds := []) rfl rfl rfl (by decide +kernel)
theorem gga_x_c09x_definedFull : DefinedFull {} .gga gga_x_c09x :=
  definedFull_of _ gga_x_c09x_neverRaises (par := []) (npar := []) (flds := []) rfl rfl rfl (by decide +kernel)
theorem gga_x_cap_definedFull : DefinedFull {params := ["c"]} .gga gga_x_cap :=
  definedFull_of _ gga_x_cap_neverRaises (par := [99]) (npar := []) (flds := []) (by simp [nameCode, nameCodeChars]) rfl rfl (by decide +kernel)
theorem gga_x_chachiyo_definedFull : DefinedFull {} .gga gga_x_chachiyo :=
  definedFull_of _ gga_x_chachiyo_neverRaises (par := []) (npar := []) (flds := []) rfl rfl rfl (by decide +kernel)
theorem gga_x_dk87_definedFull : DefinedFull {params := ["b1"]} .gga gga_x_dk87 :=
  definedFull_of _ gga_x_dk87_neverRaises (par := [25137]) (npar := []) (flds := []) (by simp [nameCode, nameCodeChars]) rfl rfl (by decide +kernel)
theorem gga_x_ev93_definedFull : DefinedFull {params := ["b3", "b2", "b1"]} .gga gga_x_ev93 :=
  definedFull_of _ gga_x_ev93_neverRaises (par := [25139, 25138, 25137]) (npar := []) (flds := []) (by simp [nameCode, nameCodeChars]) rfl rfl (by decide +kernel)
theorem gga_x_ft97_definedFull : DefinedFull {params := ["beta2"]} .gga gga_x_ft97 :=
  definedFull_of _ gga_x_ft97_neverRaises (par := [422608920882]) (npar := []) (flds := []) (by simp [nameCode, nameCodeChars]) rfl rfl (by decide +kernel)
theorem gga_x_g96_definedFull : DefinedFull {} .gga gga_x_g96 :=
  definedFull_of _ gga_x_g96_neverRaises (par := []) (npar := []) (flds := []) rfl rfl rfl (by decide +kernel)
theorem gga_x_hcth_a_definedFull : DefinedFull {} .gga gga_x_hcth_a :=
  definedFull_of _ gga_x_hcth_a_neverRaises (par := []) (npar := []) (flds := []) rfl rfl rfl (by decide +kernel)
theorem gga_x_herman_definedFull : DefinedFull {} .gga gga_x_herman :=
  definedFull_of _ gga_x_herman_neverRaises (par := []) (npar := []) (flds := []) rfl rfl rfl (by decide +kernel)
theorem gga_x_hjs_definedFull : DefinedFull {params := ["b[8]", "b[7]", "b[6]", "b[5]", "b[4]", "b[3]", "b[2]", "b[1]", "b[0]"], flds := [.camOmega]} .gga gga_x_hjs :=
  definedFull_of _ gga_x_hjs_neverRaises (par := [1650145373, 1650145117, 1650144861, 1650144605, 1650144349, 1650144093, 1650143837, 1650143581, 1650143325]) (npar := []) (flds := [2]) (by simp [nameCode, nameCodeChars]) rfl rfl (by decide +kernel)
theorem gga_x_htbs_definedFull : DefinedFull {} .gga gga_x_htbs :=
  definedFull_of _ gga_x_htbs_neverRaises (par := []) (npar := []) (flds := []) rfl rfl rfl (by decide +kernel)
theorem gga_x_ityh_definedFull : DefinedFull {flds := [.camOmega]} .gga gga_x_ityh :=
  definedFull_of _ gga_x_ityh_neverRaises (par := []) (npar := []) (flds := [2]) rfl rfl rfl (by decide +kernel)
theorem gga_x_ityh_optx_definedFull : DefinedFull {params := ["b", "a"], flds := [.camOmega]} .gga gga_x_ityh_optx :=
  definedFull_of _ gga_x_ityh_optx_neverRaises (par := [98, 97]) (npar := []) (flds := [2]) (by simp [nameCode, nameCodeChars]) rfl rfl (by decide +kernel)
theorem gga_x_kt_definedFull : DefinedFull {params := ["delta"]} .gga gga_x_kt :=
  definedFull_of _ gga_x_kt_neverRaises (par := [431198336097]) (npar := []) (flds := []) (by simp [nameCode, nameCodeChars]) rfl rfl (by decide +kernel)
theorem gga_x_lag_definedFull : DefinedFull {} .gga gga_x_lag :=
  definedFull_of _ gga_x_lag_neverRaises (par := []) (npar := []) (flds := []) rfl rfl rfl (by decide +kernel)
theorem gga_x_lg93_definedFull : DefinedFull {} .gga gga_x_lg93 :=
  definedFull_of _ gga_x_lg93_neverRaises (par := []) (npar := []) (flds := []) rfl rfl rfl (by decide +kernel)
theorem gga_x_lspbe_definedFull : DefinedFull {params := ["kappa", "mu"]} .gga gga_x_lspbe :=
  definedFull_of _ gga_x_lspbe_neverRaises (par := [461196259425, 28021]) (npar := []) (flds := []) (by simp [nameCode, nameCodeChars]) rfl rfl (by decide +kernel)
theorem gga_x_lsrpbe_definedFull : DefinedFull {params := ["kappa"]} .gga gga_x_lsrpbe :=
  definedFull_of _ gga_x_lsrpbe_neverRaises (par := [461196259425]) (npar := []) (flds := []) (by simp [nameCode, nameCodeChars]) rfl rfl (by decide +kernel)
theorem gga_x_lv_rpw86_definedFull : DefinedFull {} .gga gga_x_lv_rpw86 :=
  definedFull_of _ gga_x_lv_rpw86_neverRaises (par := []) (npar := []) (flds := []) rfl rfl rfl (by decide +kernel)
theorem gga_x_mpbe_definedFull : DefinedFull {params := ["a"]} .gga gga_x_mpbe :=
  definedFull_of _ gga_x_mpbe_neverRaises (par := [97]) (npar := []) (flds := []) (by simp [nameCode, nameCodeChars]) rfl rfl (by decide +kernel)
theorem gga_x_n12_definedFull : DefinedFull {} .gga gga_x_n12 :=
  definedFull_of _ gga_x_n12_neverRaises (par := []) (npar := []) (flds := []) rfl rfl rfl (by decide +kernel)
theorem gga_x_ncap_definedFull : DefinedFull {params := ["beta"]} .gga gga_x_ncap :=
  definedFull_of _ gga_x_ncap_neverRaises (par := [1650816097]) (npar := []) (flds := []) (by simp [nameCode, nameCodeChars]) rfl rfl (by decide +kernel)
theorem gga_x_ol2_definedFull : DefinedFull {} .gga gga_x_ol2 :=
  definedFull_of _ gga_x_ol2_neverRaises (par := []) (npar := []) (flds := []) rfl rfl rfl (by decide +kernel)
theorem gga_x_optx_definedFull : DefinedFull {params := ["gamma"]} .gga gga_x_optx :=
  definedFull_of _ gga_x_optx_neverRaises (par := [444016192865]) (npar := []) (flds := []) (by simp [nameCode, nameCodeChars]) rfl rfl (by decide +kernel)
theorem gga_x_pbe_definedFull : DefinedFull {params := ["kappa", "mu"]} .gga gga_x_pbe :=
  definedFull_of _ gga_x_pbe_neverRaises (par := [461196259425, 28021]) (npar := []) (flds := []) (by simp [nameCode, nameCodeChars]) rfl rfl (by decide +kernel)
theorem gga_x_pbea_definedFull : DefinedFull {} .gga gga_x_pbea :=
  definedFull_of _ gga_x_pbea_neverRaises (par := []) (npar := []) (flds := []) rfl rfl rfl (by decide +kernel)
theorem gga_x_pbepow_definedFull : DefinedFull {} .gga gga_x_pbepow :=
  definedFull_of _ gga_x_pbepow_neverRaises (par := []) (npar := []) (flds := []) rfl rfl rfl (by decide +kernel)
theorem gga_x_pbetrans_definedFull : DefinedFull {} .gga gga_x_pbetrans :=
  definedFull_of _ gga_x_pbetrans_neverRaises (par := []) (npar := []) (flds := []) rfl rfl rfl (by decide +kernel)
theorem gga_x_pw86_definedFull : DefinedFull {params := ["cc", "bb", "aa"]} .gga gga_x_pw86 :=
  definedFull_of _ gga_x_pw86_neverRaises (par := [25443, 25186, 24929]) (npar := []) (flds := []) (by simp [nameCode, nameCodeChars]) rfl rfl (by decide +kernel)
theorem gga_x_pw91_definedFull : DefinedFull {params := ["a", "f", "b"]} .gga gga_x_pw91 :=
  definedFull_of _ gga_x_pw91_neverRaises (par := [97, 102, 98]) (npar := []) (flds := []) (by simp [nameCode, nameCodeChars]) rfl rfl (by decide +kernel)
theorem gga_x_q1d_definedFull : DefinedFull {} .gga gga_x_q1d :=
  definedFull_of _ gga_x_q1d_neverRaises (par := []) (npar := []) (flds := []) rfl rfl rfl (by decide +kernel)
theorem gga_x_q2d_definedFull : DefinedFull {} .gga gga_x_q2d :=
  definedFull_of _ gga_x_q2d_neverRaises (par := []) (npar := []) (flds := []) rfl rfl rfl (by decide +kernel)
theorem gga_x_rge2_definedFull : DefinedFull {} .gga gga_x_rge2 :=
  definedFull_of _ gga_x_rge2_neverRaises (par := []) (npar := []) (flds := []) rfl rfl rfl (by decide +kernel)
theorem gga_x_rpbe_definedFull : DefinedFull {params := ["rpbe_kappa"]} .gga gga_x_rpbe :=
  definedFull_of _ gga_x_rpbe_neverRaises (par := [540422904561498189754465]) (npar := []) (flds := []) (by simp [nameCode, nameCodeChars]) rfl rfl (by decide +kernel)
theorem gga_x_s12_definedFull : DefinedFull {params := ["E", "D", "C"]} .gga gga_x_s12 :=
  definedFull_of _ gga_x_s12_neverRaises (par := [69, 68, 67]) (npar := []) (flds := []) (by simp [nameCode, nameCodeChars]) rfl rfl (by decide +kernel)
theorem gga_x_sfat_definedFull : DefinedFull {flds := [.camOmega]} .gga gga_x_sfat :=
  definedFull_of _ gga_x_sfat_neverRaises (par := []) (npar := []) (flds := [2]) rfl rfl rfl (by decide +kernel)
theorem gga_x_sfat_pbe_definedFull : DefinedFull {flds := [.camOmega]} .gga gga_x_sfat_pbe :=
  definedFull_of _ gga_x_sfat_pbe_neverRaises (par := []) (npar := []) (flds := [2]) rfl rfl rfl (by decide +kernel)
theorem gga_x_sogga11_definedFull : DefinedFull {params := ["kappa", "mu"]} .gga gga_x_sogga11 :=
  definedFull_of _ gga_x_sogga11_neverRaises (par := [461196259425, 28021]) (npar := []) (flds := []) (by simp [nameCode, nameCodeChars]) rfl rfl (by decide +kernel)
theorem gga_x_ssb_sw_definedFull : DefinedFull {params := ["E", "C"]} .gga gga_x_ssb_sw :=
  definedFull_of _ gga_x_ssb_sw_neverRaises (par := [69, 67]) (npar := []) (flds := []) (by simp [nameCode, nameCodeChars]) rfl rfl (by decide +kernel)
theorem gga_x_vmt_definedFull : DefinedFull {params := ["mu"]} .gga gga_x_vmt :=
  definedFull_of _ gga_x_vmt_neverRaises (par := [28021]) (npar := []) (flds := []) (by simp [nameCode, nameCodeChars]) rfl rfl (by decide +kernel)
theorem gga_x_vmt84_definedFull : DefinedFull {params := ["mu"]} .gga gga_x_vmt84 :=
  definedFull_of _ gga_x_vmt84_neverRaises (par := [28021]) (npar := []) (flds := []) (by simp [nameCode, nameCodeChars]) rfl rfl (by decide +kernel)
theorem gga_x_wc_definedFull : DefinedFull {} .gga gga_x_wc :=
  definedFull_of _ gga_x_wc_neverRaises (par := []) (npar := []) (flds := []) rfl rfl rfl (by decide +kernel)
theorem gga_x_wpbeh_definedFull : DefinedFull {} .gga gga_x_wpbeh :=
  definedFull_of _ gga_x_wpbeh_neverRaises (par := []) (npar := []) (flds := []) rfl rfl rfl (by decide +kernel)
theorem gga_xc_b97_nanFull : NanFull .gga gga_xc_b97 := nanFull_of (by decide +kernel)
theorem gga_xc_th1_nanFull : NanFull .gga gga_xc_th1 := nanFull_of (by decide +kernel)
theorem gga_xc_th2_nanFull : NanFull .gga gga_xc_th2 := nanFull_of (by decide +kernel)
theorem gga_xc_th3_nanFull : NanFull .gga gga_xc_th3 := nanFull_of (by decide +kernel)
theorem hyb_gga_x_cam_s12_definedFull : DefinedFull {params := ["E", "D", "C", "B", "A"], flds := [.camOmega]} .gga hyb_gga_x_cam_s12 :=
  definedFull_of _ hyb_gga_x_cam_s12_neverRaises (par := [69, 68, 67, 66, 65]) (npar := []) (flds := [2]) (by simp [nameCode, nameCodeChars]) rfl rfl (by decide +kernel)
theorem hyb_gga_xc_wb97_nanFull : NanFull .gga hyb_gga_xc_wb97 := nanFull_of (by decide +kernel)
theorem hyb_mgga_x_dldf_definedFull : DefinedFull {} .mgga hyb_mgga_x_dldf :=
  definedFull_of _ hyb_mgga_x_dldf_neverRaises (par := []) (npar := []) (flds := []) rfl rfl rfl (by decide +kernel)
theorem hyb_mgga_x_m05_definedFull : DefinedFull {} .mgga hyb_mgga_x_m05 :=
  definedFull_of _ hyb_mgga_x_m05_neverRaises (par := []) (npar := []) (flds := []) rfl rfl rfl (by decide +kernel)
theorem hyb_mgga_x_pjs18_definedFull : DefinedFull {} .mgga hyb_mgga_x_pjs18 :=
  definedFull_of _ hyb_mgga_x_pjs18_neverRaises (par := []) (npar := []) (flds := []) rfl rfl rfl (by decide +kernel)
theorem hyb_mgga_xc_wb97mv_nanFull : NanFull .mgga hyb_mgga_xc_wb97mv := nanFull_of (by decide +kernel)
theorem lda_c_1d_csc_definedFull : DefinedFull {params := ["ferro[0]", "ferro[3]", "ferro[2]", "ferro[1]", "ferro[8]", "ferro[7]", "para[0]", "para[3]", "para[2]", "para[1]", "para[8]", "para[7]"]} .lda lda_c_1d_csc :=
  definedFull_of _ lda_c_1d_csc_neverRaises (par := [7378429400336511069, 7378429400336511837, 7378429400336511581, 7378429400336511325, 7378429400336513117, 7378429400336512861, 31632341279125597, 31632341279126365, 31632341279126109, 31632341279125853, 31632341279127645, 31632341279127389]) (npar := []) (flds := []) (by simp [nameCode, nameCodeChars]) rfl rfl (by decide +kernel)
theorem lda_c_1d_loos_definedFull : DefinedFull {} .lda lda_c_1d_loos :=
  definedFull_of _ lda_c_1d_loos_neverRaises (par := []) (npar := []) (flds := []) rfl rfl rfl (by decide +kernel)
theorem lda_c_2d_prm_definedFull : DefinedFull {params := ["c"]} .lda lda_c_2d_prm :=
  definedFull_of _ lda_c_2d_prm_neverRaises (par := [99]) (npar := []) (flds := []) (by simp [nameCode, nameCodeChars]) rfl rfl (by decide +kernel)
theorem lda_c_chachiyo_definedFull : DefinedFull {params := ["cf", "bf", "cp", "bp"]} .lda lda_c_chachiyo :=
  definedFull_of _ lda_c_chachiyo_neverRaises (par := [25446, 25190, 25456, 25200]) (npar := []) (flds := []) (by simp [nameCode, nameCodeChars]) rfl rfl (by decide +kernel)
theorem lda_c_chachiyo_mod_definedFull : DefinedFull {params := ["cf", "bf", "cp", "bp"]} .lda lda_c_chachiyo_mod :=
  definedFull_of _ lda_c_chachiyo_mod_neverRaises (par := [25446, 25190, 25456, 25200]) (npar := []) (flds := []) (by simp [nameCode, nameCodeChars]) rfl rfl (by decide +kernel)
theorem lda_c_gk72_definedFull : DefinedFull {} .lda lda_c_gk72 :=
  definedFull_of _ lda_c_gk72_neverRaises (par := []) (npar := []) (flds := []) rfl rfl rfl (by decide +kernel)
theorem lda_c_gombas_definedFull : DefinedFull {} .lda lda_c_gombas :=
  definedFull_of _ lda_c_gombas_neverRaises (par := []) (npar := []) (flds := []) rfl rfl rfl (by decide +kernel)
theorem lda_c_hl_definedFull : DefinedFull {params := ["hl_r[1]", "hl_r[0]"]} .lda lda_c_hl :=
  definedFull_of _ lda_c_hl_neverRaises (par := [29392554774180189, 29392554774179933]) (npar := []) (flds := []) (by simp [nameCode, nameCodeChars]) rfl rfl (by decide +kernel)
theorem lda_c_lp96_definedFull : DefinedFull {} .lda lda_c_lp96 :=
  definedFull_of _ lda_c_lp96_neverRaises (par := []) (npar := []) (flds := []) rfl rfl rfl (by decide +kernel)
theorem lda_c_ml1_definedFull : DefinedFull {} .lda lda_c_ml1 :=
  definedFull_of _ lda_c_ml1_neverRaises (par := []) (npar := []) (flds := []) rfl rfl rfl (by decide +kernel)
theorem lda_c_pw_definedFull : DefinedFull {params := ["fz20", "beta4[2]", "beta3[2]", "beta2[2]", "beta1[2]", "a[2]", "beta4[1]", "beta3[1]", "beta2[1]", "beta1[1]", "a[1]", "beta4[0]", "beta3[0]", "beta2[0]", "beta1[0]", "a[0]"]} .lda lda_c_pw :=
  definedFull_of _ lda_c_pw_neverRaises (par := [1719284272, 7090201149203755613, 7090201149186978397, 7090201149170201181, 7090201149153423965, 1633366621, 7090201149203755357, 7090201149186978141, 7090201149170200925, 7090201149153423709, 1633366365, 7090201149203755101, 7090201149186977885, 7090201149170200669, 7090201149153423453, 1633366109]) (npar := []) (flds := []) (by simp [nameCode, nameCodeChars]) rfl rfl (by decide +kernel)

end Verif.Props
