import Verif.Norm.Float
import Verif.Data.F01
/-!
# C61: accuracy of floating-point evaluation
-/
set_option Elab.async false
set_option maxRecDepth 100000
namespace Verif.Props
open Verif.Py Verif.Model Verif.Spec Verif.Norm Verif.Data

theorem gga_c_sogga11_accurateUnpolBox : AccurateUnpolBox false 10 6 4282007716 {} .gga gga_c_sogga11 :=
  accurateUnpolBox_of _ (by decide) (by decide) (par := []) (npar := []) (flds := []) rfl rfl rfl (by decide +kernel)
theorem gga_c_tca_accurateUnpolBox : AccurateUnpolBox false 10 6 105791 {sPos := true} .gga gga_c_tca :=
  accurateUnpolBox_of _ (by decide) (by decide) (par := []) (npar := []) (flds := []) rfl rfl rfl (by decide +kernel)
theorem gga_c_tca_accuratePolBox : AccuratePolBox false 4 6 29374556 {sPos := true} .gga gga_c_tca :=
  accuratePolBox_of _ (by decide) (by decide) (par := []) (npar := []) (flds := []) rfl rfl rfl (by decide +kernel)
theorem gga_c_w94_accurateUnpol : AccurateUnpol 183 {sPos := true} .gga gga_c_w94 :=
  accurateUnpol_of _ (par := []) (npar := []) (flds := []) rfl rfl rfl (by decide +kernel)
theorem gga_c_wi_accurateUnpol : AccurateUnpol 12206 {params := ["a", "b", "c", "d"]} .gga gga_c_wi :=
  accurateUnpol_of _ (par := [97, 98, 99, 100]) (npar := []) (flds := []) (by simp [nameCode, nameCodeChars]) rfl rfl (by decide +kernel)
theorem gga_c_wi_accuratePolBox : AccuratePolBox true 4 6 937269 {sPos := true, params := ["a", "b", "c", "d"]} .gga gga_c_wi :=
  accuratePolBox_of _ (by decide) (by decide) (par := [97, 98, 99, 100]) (npar := []) (flds := []) (by simp [nameCode, nameCodeChars]) rfl rfl (by decide +kernel)
theorem gga_c_wl_accurateUnpolBox : AccurateUnpolBox false 10 6 351770 {} .gga gga_c_wl :=
  accurateUnpolBox_of _ (by decide) (by decide) (par := []) (npar := []) (flds := []) rfl rfl rfl (by decide +kernel)
theorem gga_c_wl_accuratePolBox : AccuratePolBox false 4 6 45655122 {sPos := true} .gga gga_c_wl :=
  accuratePolBox_of _ (by decide) (by decide) (par := []) (npar := []) (flds := []) rfl rfl rfl (by decide +kernel)
theorem gga_c_zvpbeint_accurateUnpolBox : AccurateUnpolBox false 4 6 39041383 {params := ["alpha", "beta"]} .gga gga_c_zvpbeint :=
  accurateUnpolBox_of _ (by decide) (by decide) (par := [418431133793, 1650816097]) (npar := []) (flds := []) (by simp [nameCode, nameCodeChars]) rfl rfl (by decide +kernel)
theorem gga_c_zvpbeloc_accurateUnpolBox : AccurateUnpolBox false 4 6 20818 {} .gga gga_c_zvpbeloc :=
  accurateUnpolBox_of _ (by decide) (by decide) (par := []) (npar := []) (flds := []) rfl rfl rfl (by decide +kernel)
theorem gga_k_apbe_accurateUnpolBox : AccurateUnpolBox false 10 6 5734542820 {params := ["kappa", "mu"]} .gga gga_k_apbe :=
  accurateUnpolBox_of _ (by decide) (by decide) (par := [461196259425, 28021]) (npar := []) (flds := []) (by simp [nameCode, nameCodeChars]) rfl rfl (by decide +kernel)
theorem gga_k_apbe_accuratePolBox : AccuratePolBox false 4 3 6069211365 {params := ["kappa", "mu"]} .gga gga_k_apbe :=
  accuratePolBox_of _ (by decide) (by decide) (par := [461196259425, 28021]) (npar := []) (flds := []) (by simp [nameCode, nameCodeChars]) rfl rfl (by decide +kernel)
theorem gga_k_exp4_accurateUnpolBox : AccurateUnpolBox false 10 6 19858020 {} .gga gga_k_exp4 :=
  accurateUnpolBox_of _ (by decide) (by decide) (par := []) (npar := []) (flds := []) rfl rfl rfl (by decide +kernel)
theorem gga_k_exp4_accuratePolBox : AccuratePolBox false 4 6 30422449 {} .gga gga_k_exp4 :=
  accuratePolBox_of _ (by decide) (by decide) (par := []) (npar := []) (flds := []) rfl rfl rfl (by decide +kernel)
theorem gga_k_lgap_ge_accurateUnpolBox : AccurateUnpolBox false 4 6 1048200899 {} .gga gga_k_lgap_ge :=
  accurateUnpolBox_of _ (by decide) (by decide) (par := []) (npar := []) (flds := []) rfl rfl rfl (by decide +kernel)
theorem gga_k_lgap_ge_accuratePolBox : AccuratePolBox false 2 3 1382702 {} .gga gga_k_lgap_ge :=
  accuratePolBox_of _ (by decide) (by decide) (par := []) (npar := []) (flds := []) rfl rfl rfl (by decide +kernel)
theorem gga_k_llp_accurateUnpol : AccurateUnpol 124 {params := ["beta", "gamma"]} .gga gga_k_llp :=
  accurateUnpol_of _ (par := [1650816097, 444016192865]) (npar := []) (flds := []) (by simp [nameCode, nameCodeChars]) rfl rfl (by decide +kernel)
theorem gga_k_llp_accuratePolBox : AccuratePolBox true 4 6 197109 {params := ["beta", "gamma"]} .gga gga_k_llp :=
  accuratePolBox_of _ (by decide) (by decide) (par := [1650816097, 444016192865]) (npar := []) (flds := []) (by simp [nameCode, nameCodeChars]) rfl rfl (by decide +kernel)
theorem gga_k_meyer_accurateUnpolBox : AccurateUnpolBox false 2 3 427567529 {sPos := true} .gga gga_k_meyer :=
  accurateUnpolBox_of _ (by decide) (by decide) (par := []) (npar := []) (flds := []) rfl rfl rfl (by decide +kernel)
theorem gga_k_meyer_accuratePolBox : AccuratePolBox false 2 3 1858954273 {sPos := true} .gga gga_k_meyer :=
  accuratePolBox_of _ (by decide) (by decide) (par := []) (npar := []) (flds := []) rfl rfl rfl (by decide +kernel)
theorem gga_k_mpbe_accurateUnpol : AccurateUnpol 231 {params := ["a", "c1", "c2", "c3"]} .gga gga_k_mpbe :=
  accurateUnpol_of _ (par := [97, 25393, 25394, 25395]) (npar := []) (flds := []) (by simp [nameCode, nameCodeChars]) rfl rfl (by decide +kernel)
theorem gga_k_mpbe_accuratePolBox : AccuratePolBox true 4 6 197214 {params := ["a", "c1", "c2", "c3"]} .gga gga_k_mpbe :=
  accuratePolBox_of _ (by decide) (by decide) (par := [97, 25393, 25394, 25395]) (npar := []) (flds := []) (by simp [nameCode, nameCodeChars]) rfl rfl (by decide +kernel)
theorem gga_k_ol1_accurateUnpol : AccurateUnpol 82 {} .gga gga_k_ol1 :=
  accurateUnpol_of _ (par := []) (npar := []) (flds := []) rfl rfl rfl (by decide +kernel)
theorem gga_k_ol1_accuratePolBox : AccuratePolBox true 4 6 197081 {} .gga gga_k_ol1 :=
  accuratePolBox_of _ (by decide) (by decide) (par := []) (npar := []) (flds := []) rfl rfl rfl (by decide +kernel)
theorem gga_k_ol2_accurateUnpol : AccurateUnpol 72 {params := ["aa", "bb", "cc"]} .gga gga_k_ol2 :=
  accurateUnpol_of _ (par := [24929, 25186, 25443]) (npar := []) (flds := []) (by simp [nameCode, nameCodeChars]) rfl rfl (by decide +kernel)
theorem gga_k_ol2_accuratePolBox : AccuratePolBox true 4 6 197068 {params := ["aa", "bb", "cc"]} .gga gga_k_ol2 :=
  accuratePolBox_of _ (by decide) (by decide) (par := [24929, 25186, 25443]) (npar := []) (flds := []) (by simp [nameCode, nameCodeChars]) rfl rfl (by decide +kernel)
theorem gga_k_pearson_accurateUnpol : AccurateUnpol 119 {} .gga gga_k_pearson :=
  accurateUnpol_of _ (par := []) (npar := []) (flds := []) rfl rfl rfl (by decide +kernel)
theorem gga_k_pearson_accuratePolBox : AccuratePolBox true 4 6 197115 {} .gga gga_k_pearson :=
  accuratePolBox_of _ (by decide) (by decide) (par := []) (npar := []) (flds := []) rfl rfl rfl (by decide +kernel)
theorem gga_k_pg_accurateUnpol : AccurateUnpol 32790 {} .gga gga_k_pg :=
  accurateUnpol_of _ (par := []) (npar := []) (flds := []) rfl rfl rfl (by decide +kernel)
theorem gga_k_pg_accuratePolBox : AccuratePolBox true 4 6 226234 {} .gga gga_k_pg :=
  accuratePolBox_of _ (by decide) (by decide) (par := []) (npar := []) (flds := []) rfl rfl rfl (by decide +kernel)
theorem gga_k_pw86_accurateUnpol : AccurateUnpol 86 {} .gga gga_k_pw86 :=
  accurateUnpol_of _ (par := []) (npar := []) (flds := []) rfl rfl rfl (by decide +kernel)
theorem gga_k_pw86_accuratePolBox : AccuratePolBox true 4 6 197090 {} .gga gga_k_pw86 :=
  accuratePolBox_of _ (by decide) (by decide) (par := []) (npar := []) (flds := []) rfl rfl rfl (by decide +kernel)
theorem gga_k_rational_p_accurateUnpolBox : AccurateUnpolBox true 10 6 3172 {params := ["C2", "p"]} .gga gga_k_rational_p :=
  accurateUnpolBox_of _ (by decide) (by decide) (par := [17202, 112]) (npar := []) (flds := []) (by simp [nameCode, nameCodeChars]) rfl rfl (by decide +kernel)
theorem gga_k_rational_p_accuratePolBox : AccuratePolBox true 4 6 199856 {params := ["C2", "p"]} .gga gga_k_rational_p :=
  accuratePolBox_of _ (by decide) (by decide) (par := [17202, 112]) (npar := []) (flds := []) (by simp [nameCode, nameCodeChars]) rfl rfl (by decide +kernel)
theorem gga_k_tflw_accurateUnpolBox : AccurateUnpolBox false 4 6 92507783 {} .gga gga_k_tflw :=
  accurateUnpolBox_of _ (by decide) (by decide) (par := []) (npar := []) (flds := []) rfl rfl rfl (by decide +kernel)
theorem gga_k_tflw_accuratePolBox : AccuratePolBox false 4 3 68669768555 {} .gga gga_k_tflw :=
  accuratePolBox_of _ (by decide) (by decide) (par := []) (npar := []) (flds := []) rfl rfl rfl (by decide +kernel)
theorem gga_k_thakkar_accurateUnpolBox : AccurateUnpolBox false 4 6 392798 {} .gga gga_k_thakkar :=
  accurateUnpolBox_of _ (by decide) (by decide) (par := []) (npar := []) (flds := []) rfl rfl rfl (by decide +kernel)
theorem gga_k_thakkar_accuratePolBox : AccuratePolBox false 4 6 1731270711 {} .gga gga_k_thakkar :=
  accuratePolBox_of _ (by decide) (by decide) (par := []) (npar := []) (flds := []) rfl rfl rfl (by decide +kernel)
theorem gga_k_vt84f_accurateUnpolBox : AccurateUnpolBox false 2 3 791150876 {sPos := true, params := ["alpha", "mu"]} .gga gga_k_vt84f :=
  accurateUnpolBox_of _ (by decide) (by decide) (par := [418431133793, 28021]) (npar := []) (flds := []) (by simp [nameCode, nameCodeChars]) rfl rfl (by decide +kernel)
theorem gga_k_vt84f_accuratePolBox : AccuratePolBox false 2 3 2172120039 {sPos := true, params := ["alpha", "mu"]} .gga gga_k_vt84f :=
  accuratePolBox_of _ (by decide) (by decide) (par := [418431133793, 28021]) (npar := []) (flds := []) (by simp [nameCode, nameCodeChars]) rfl rfl (by decide +kernel)
theorem gga_x_2d_b86_accurateUnpol : AccurateUnpol 52 {} .gga gga_x_2d_b86 :=
  accurateUnpol_of _ (par := []) (npar := []) (flds := []) rfl rfl rfl (by decide +kernel)
theorem gga_x_2d_b86_accuratePolBox : AccuratePolBox true 4 6 131389 {} .gga gga_x_2d_b86 :=
  accuratePolBox_of _ (by decide) (by decide) (par := []) (npar := []) (flds := []) rfl rfl rfl (by decide +kernel)
theorem gga_x_2d_b86_mgc_accurateUnpol : AccurateUnpol 608 {} .gga gga_x_2d_b86_mgc :=
  accurateUnpol_of _ (par := []) (npar := []) (flds := []) rfl rfl rfl (by decide +kernel)
theorem gga_x_2d_b86_mgc_accuratePolBox : AccuratePolBox true 4 6 131945 {} .gga gga_x_2d_b86_mgc :=
  accuratePolBox_of _ (by decide) (by decide) (par := []) (npar := []) (flds := []) rfl rfl rfl (by decide +kernel)
theorem gga_x_2d_b88_accurateUnpol : AccurateUnpol 83 {} .gga gga_x_2d_b88 :=
  accurateUnpol_of _ (par := []) (npar := []) (flds := []) rfl rfl rfl (by decide +kernel)
theorem gga_x_2d_b88_accuratePolBox : AccuratePolBox true 4 6 131408 {} .gga gga_x_2d_b88 :=
  accuratePolBox_of _ (by decide) (by decide) (par := []) (npar := []) (flds := []) rfl rfl rfl (by decide +kernel)
theorem gga_x_2d_pbe_accurateUnpol : AccurateUnpol 37 {} .gga gga_x_2d_pbe :=
  accurateUnpol_of _ (par := []) (npar := []) (flds := []) rfl rfl rfl (by decide +kernel)
theorem gga_x_2d_pbe_accuratePolBox : AccuratePolBox true 4 6 131374 {} .gga gga_x_2d_pbe :=
  accuratePolBox_of _ (by decide) (by decide) (par := []) (npar := []) (flds := []) rfl rfl rfl (by decide +kernel)
theorem gga_x_airy_accurateUnpolBox : AccurateUnpolBox false 2 3 76563110 {sPos := true} .gga gga_x_airy :=
  accurateUnpolBox_of _ (by decide) (by decide) (par := []) (npar := []) (flds := []) rfl rfl rfl (by decide +kernel)
theorem gga_x_airy_accuratePolBox : AccuratePolBox false 2 3 91291647 {sPos := true} .gga gga_x_airy :=
  accuratePolBox_of _ (by decide) (by decide) (par := []) (npar := []) (flds := []) rfl rfl rfl (by decide +kernel)
theorem gga_x_ak13_accurateUnpolBox : AccurateUnpolBox false 10 6 38622337678 {} .gga gga_x_ak13 :=
  accurateUnpolBox_of _ (by decide) (by decide) (par := []) (npar := []) (flds := []) rfl rfl rfl (by decide +kernel)
theorem gga_x_ak13_accuratePolBox : AccuratePolBox false 4 6 2539777986 {} .gga gga_x_ak13 :=
  accuratePolBox_of _ (by decide) (by decide) (par := []) (npar := []) (flds := []) rfl rfl rfl (by decide +kernel)
theorem gga_x_b86_accurateUnpolBox : AccurateUnpolBox true 10 6 1657 {params := ["beta", "gamma"]} .gga gga_x_b86 :=
  accurateUnpolBox_of _ (by decide) (by decide) (par := [1650816097, 444016192865]) (npar := []) (flds := []) (by simp [nameCode, nameCodeChars]) rfl rfl (by decide +kernel)
theorem gga_x_b86_accuratePolBox : AccuratePolBox true 4 6 132666 {params := ["beta", "gamma"]} .gga gga_x_b86 :=
  accuratePolBox_of _ (by decide) (by decide) (par := [1650816097, 444016192865]) (npar := []) (flds := []) (by simp [nameCode, nameCodeChars]) rfl rfl (by decide +kernel)
theorem gga_x_b88_accurateUnpol : AccurateUnpol 117 {params := ["beta", "gamma"]} .gga gga_x_b88 :=
  accurateUnpol_of _ (par := [1650816097, 444016192865]) (npar := []) (flds := []) (by simp [nameCode, nameCodeChars]) rfl rfl (by decide +kernel)
theorem gga_x_b88_accuratePolBox : AccuratePolBox true 4 6 131432 {params := ["beta", "gamma"]} .gga gga_x_b88 :=
  accuratePolBox_of _ (by decide) (by decide) (par := [1650816097, 444016192865]) (npar := []) (flds := []) (by simp [nameCode, nameCodeChars]) rfl rfl (by decide +kernel)
theorem gga_x_bayesian_accurateUnpol : AccurateUnpol 268 {} .gga gga_x_bayesian :=
  accurateUnpol_of _ (par := []) (npar := []) (flds := []) rfl rfl rfl (by decide +kernel)
theorem gga_x_bayesian_accuratePolBox : AccuratePolBox true 4 6 131574 {} .gga gga_x_bayesian :=
  accuratePolBox_of _ (by decide) (by decide) (par := []) (npar := []) (flds := []) rfl rfl rfl (by decide +kernel)
theorem gga_x_beefvdw_accuratePolBox : AccuratePolBox false 2 3 13092744939 {} .gga gga_x_beefvdw :=
  accuratePolBox_of _ (by decide) (by decide) (par := []) (npar := []) (flds := []) rfl rfl rfl (by decide +kernel)
theorem gga_x_bpccac_accurateUnpolBox : AccurateUnpolBox false 4 6 31827259 {} .gga gga_x_bpccac :=
  accurateUnpolBox_of _ (by decide) (by decide) (par := []) (npar := []) (flds := []) rfl rfl rfl (by decide +kernel)
theorem gga_x_bpccac_accuratePolBox : AccuratePolBox false 4 6 333904264 {} .gga gga_x_bpccac :=
  accuratePolBox_of _ (by decide) (by decide) (par := []) (npar := []) (flds := []) rfl rfl rfl (by decide +kernel)
theorem gga_x_c09x_accurateUnpolBox : AccurateUnpolBox true 4 6 51995 {} .gga gga_x_c09x :=
  accurateUnpolBox_of _ (by decide) (by decide) (par := []) (npar := []) (flds := []) rfl rfl rfl (by decide +kernel)
theorem gga_x_c09x_accuratePolBox : AccuratePolBox true 4 6 149621 {} .gga gga_x_c09x :=
  accuratePolBox_of _ (by decide) (by decide) (par := []) (npar := []) (flds := []) rfl rfl rfl (by decide +kernel)
theorem gga_x_cap_accurateUnpolBox : AccurateUnpolBox false 4 6 125140593 {params := ["c"]} .gga gga_x_cap :=
  accurateUnpolBox_of _ (by decide) (by decide) (par := [99]) (npar := []) (flds := []) (by simp [nameCode, nameCodeChars]) rfl rfl (by decide +kernel)
theorem gga_x_cap_accuratePolBox : AccuratePolBox false 4 6 1986836747 {params := ["c"]} .gga gga_x_cap :=
  accuratePolBox_of _ (by decide) (by decide) (par := [99]) (npar := []) (flds := []) (by simp [nameCode, nameCodeChars]) rfl rfl (by decide +kernel)
theorem gga_x_chachiyo_accurateUnpolBox : AccurateUnpolBox true 4 6 35830 {sPos := true} .gga gga_x_chachiyo :=
  accurateUnpolBox_of _ (by decide) (by decide) (par := []) (npar := []) (flds := []) rfl rfl rfl (by decide +kernel)
theorem gga_x_chachiyo_accuratePolBox : AccuratePolBox true 4 6 180056 {sPos := true} .gga gga_x_chachiyo :=
  accuratePolBox_of _ (by decide) (by decide) (par := []) (npar := []) (flds := []) rfl rfl rfl (by decide +kernel)
theorem gga_x_dk87_accurateUnpolBox : AccurateUnpolBox true 10 6 961 {sPos := true, params := ["a1", "b1"]} .gga gga_x_dk87 :=
  accurateUnpolBox_of _ (by decide) (by decide) (par := [24881, 25137]) (npar := []) (flds := []) (by simp [nameCode, nameCodeChars]) rfl rfl (by decide +kernel)
theorem gga_x_dk87_accuratePolBox : AccuratePolBox true 4 6 132025 {sPos := true, params := ["a1", "b1"]} .gga gga_x_dk87 :=
  accuratePolBox_of _ (by decide) (by decide) (par := [24881, 25137]) (npar := []) (flds := []) (by simp [nameCode, nameCodeChars]) rfl rfl (by decide +kernel)
theorem gga_x_ev93_accurateUnpol : AccurateUnpol 141 {params := ["a1", "a2", "a3", "b1", "b2", "b3"]} .gga gga_x_ev93 :=
  accurateUnpol_of _ (par := [24881, 24882, 24883, 25137, 25138, 25139]) (npar := []) (flds := []) (by simp [nameCode, nameCodeChars]) rfl rfl (by decide +kernel)
theorem gga_x_ev93_accuratePolBox : AccuratePolBox true 4 6 131467 {params := ["a1", "a2", "a3", "b1", "b2", "b3"]} .gga gga_x_ev93 :=
  accuratePolBox_of _ (by decide) (by decide) (par := [24881, 24882, 24883, 25137, 25138, 25139]) (npar := []) (flds := []) (by simp [nameCode, nameCodeChars]) rfl rfl (by decide +kernel)
theorem gga_x_ft97_accurateUnpol : AccurateUnpol 409 {params := ["beta0", "beta1", "beta2"]} .gga gga_x_ft97 :=
  accurateUnpol_of _ (par := [422608920880, 422608920881, 422608920882]) (npar := []) (flds := []) (by simp [nameCode, nameCodeChars]) rfl rfl (by decide +kernel)
theorem gga_x_ft97_accuratePolBox : AccuratePolBox true 4 6 1707783 {params := ["beta0", "beta1", "beta2"]} .gga gga_x_ft97 :=
  accuratePolBox_of _ (by decide) (by decide) (par := [422608920880, 422608920881, 422608920882]) (npar := []) (flds := []) (by simp [nameCode, nameCodeChars]) rfl rfl (by decide +kernel)
theorem gga_x_g96_accurateUnpol : AccurateUnpol 77 {} .gga gga_x_g96 :=
  accurateUnpol_of _ (par := []) (npar := []) (flds := []) rfl rfl rfl (by decide +kernel)
theorem gga_x_g96_accuratePolBox : AccuratePolBox true 4 6 131403 {} .gga gga_x_g96 :=
  accuratePolBox_of _ (by decide) (by decide) (par := []) (npar := []) (flds := []) rfl rfl rfl (by decide +kernel)
theorem gga_x_hcth_a_accurateUnpolBox : AccurateUnpolBox false 4 6 227132 {} .gga gga_x_hcth_a :=
  accurateUnpolBox_of _ (by decide) (by decide) (par := []) (npar := []) (flds := []) rfl rfl rfl (by decide +kernel)
theorem gga_x_hcth_a_accuratePolBox : AccuratePolBox false 4 6 169972892 {} .gga gga_x_hcth_a :=
  accuratePolBox_of _ (by decide) (by decide) (par := []) (npar := []) (flds := []) rfl rfl rfl (by decide +kernel)
theorem gga_x_herman_accurateUnpol : AccurateUnpol 68 {} .gga gga_x_herman :=
  accurateUnpol_of _ (par := []) (npar := []) (flds := []) rfl rfl rfl (by decide +kernel)
theorem gga_x_herman_accuratePolBox : AccuratePolBox true 4 6 131395 {} .gga gga_x_herman :=
  accuratePolBox_of _ (by decide) (by decide) (par := []) (npar := []) (flds := []) rfl rfl rfl (by decide +kernel)

end Verif.Props
