import Verif.Norm.Float
import Verif.Data.F01
/-!
# C61: accuracy of floating-point evaluation
-/
set_option Elab.async false
set_option maxRecDepth 100000
namespace Verif.Props
open Verif.Py Verif.Model Verif.Spec Verif.Norm Verif.Data

theorem gga_c_acgga_accurateUnpolBox : AccurateUnpolBox false 4 6 20554 {} .gga gga_c_acgga :=
  accurateUnpolBox_of _ (by decide) (by decide) (par := []) (npar := []) (flds := []) rfl rfl rfl (by decide +kernel)
theorem gga_c_acggap_accurateUnpolBox : AccurateUnpolBox false 4 6 20745 {} .gga gga_c_acggap :=
  accurateUnpolBox_of _ (by decide) (by decide) (par := []) (npar := []) (flds := []) rfl rfl rfl (by decide +kernel)
theorem gga_c_am05_accurateUnpolBox : AccurateUnpolBox false 10 6 12054 {params := ["alpha"]} .gga gga_c_am05 :=
  accurateUnpolBox_of _ (by decide) (by decide) (par := [418431133793]) (npar := []) (flds := []) (by simp [nameCode, nameCodeChars]) rfl rfl (by decide +kernel)
theorem gga_c_am05_accuratePolBox : AccuratePolBox false 2 3 19358857 {params := ["alpha"]} .gga gga_c_am05 :=
  accuratePolBox_of _ (by decide) (by decide) (par := [418431133793]) (npar := []) (flds := []) (by simp [nameCode, nameCodeChars]) rfl rfl (by decide +kernel)
theorem gga_c_bmk_accurateUnpolBox : AccurateUnpolBox false 2 3 12641503759 {} .gga gga_c_bmk :=
  accurateUnpolBox_of _ (by decide) (by decide) (par := []) (npar := []) (flds := []) rfl rfl rfl (by decide +kernel)
theorem gga_c_bmk_accuratePolBox : AccuratePolBox false 2 3 13729627207 {} .gga gga_c_bmk :=
  accuratePolBox_of _ (by decide) (by decide) (par := []) (npar := []) (flds := []) rfl rfl rfl (by decide +kernel)
theorem gga_c_ccdf_accurateUnpolBox : AccurateUnpolBox false 4 6 237134508 {params := ["c2"]} .gga gga_c_ccdf :=
  accurateUnpolBox_of _ (by decide) (by decide) (par := [25394]) (npar := []) (flds := []) (by simp [nameCode, nameCodeChars]) rfl rfl (by decide +kernel)
theorem gga_c_ccdf_accuratePolBox : AccuratePolBox false 4 6 7151486109 {sPos := true, params := ["c2"]} .gga gga_c_ccdf :=
  accuratePolBox_of _ (by decide) (by decide) (par := [25394]) (npar := []) (flds := []) (by simp [nameCode, nameCodeChars]) rfl rfl (by decide +kernel)
theorem gga_c_cs1_accurateUnpolBox : AccurateUnpolBox false 4 6 6663617 {} .gga gga_c_cs1 :=
  accurateUnpolBox_of _ (by decide) (by decide) (par := []) (npar := []) (flds := []) rfl rfl rfl (by decide +kernel)
theorem gga_c_cs1_accuratePolBox : AccuratePolBox false 4 6 24963923 {} .gga gga_c_cs1 :=
  accuratePolBox_of _ (by decide) (by decide) (par := []) (npar := []) (flds := []) rfl rfl rfl (by decide +kernel)
theorem gga_c_hcth_a_accurateUnpolBox : AccurateUnpolBox false 2 3 9674838 {} .gga gga_c_hcth_a :=
  accurateUnpolBox_of _ (by decide) (by decide) (par := []) (npar := []) (flds := []) rfl rfl rfl (by decide +kernel)
theorem gga_c_hcth_a_accuratePolBox : AccuratePolBox false 2 3 20550748 {} .gga gga_c_hcth_a :=
  accuratePolBox_of _ (by decide) (by decide) (par := []) (npar := []) (flds := []) rfl rfl rfl (by decide +kernel)
theorem gga_c_lm_accurateUnpolBox : AccurateUnpolBox false 4 6 104853222 {params := ["lm_f"]} .gga gga_c_lm :=
  accurateUnpolBox_of _ (by decide) (by decide) (par := [1819107174]) (npar := []) (flds := []) (by simp [nameCode, nameCodeChars]) rfl rfl (by decide +kernel)
theorem gga_c_lm_accuratePolBox : AccuratePolBox false 4 6 33223030085 {sPos := true, params := ["lm_f"]} .gga gga_c_lm :=
  accuratePolBox_of _ (by decide) (by decide) (par := [1819107174]) (npar := []) (flds := []) (by simp [nameCode, nameCodeChars]) rfl rfl (by decide +kernel)
theorem gga_c_lyp_accurateUnpolBox : AccurateUnpolBox false 4 3 963331530 {params := ["c", "d"]} .gga gga_c_lyp :=
  accurateUnpolBox_of _ (by decide) (by decide) (par := [99, 100]) (npar := []) (flds := []) (by simp [nameCode, nameCodeChars]) rfl rfl (by decide +kernel)
theorem gga_c_lyp_accuratePolBox : AccuratePolBox false 2 3 57828982 {params := ["c", "d"]} .gga gga_c_lyp :=
  accuratePolBox_of _ (by decide) (by decide) (par := [99, 100]) (npar := []) (flds := []) (by simp [nameCode, nameCodeChars]) rfl rfl (by decide +kernel)
theorem gga_c_op_b88_accurateUnpol : AccurateUnpol 653 {} .gga gga_c_op_b88 :=
  accurateUnpol_of _ (par := []) (npar := []) (flds := []) rfl rfl rfl (by decide +kernel)
theorem gga_c_op_b88_accuratePolBox : AccuratePolBox true 4 6 394352 {} .gga gga_c_op_b88 :=
  accuratePolBox_of _ (by decide) (by decide) (par := []) (npar := []) (flds := []) rfl rfl rfl (by decide +kernel)
theorem gga_c_op_g96_accurateUnpol : AccurateUnpol 483 {} .gga gga_c_op_g96 :=
  accurateUnpol_of _ (par := []) (npar := []) (flds := []) rfl rfl rfl (by decide +kernel)
theorem gga_c_op_g96_accuratePolBox : AccuratePolBox true 4 6 394237 {} .gga gga_c_op_g96 :=
  accuratePolBox_of _ (by decide) (by decide) (par := []) (npar := []) (flds := []) rfl rfl rfl (by decide +kernel)
theorem gga_c_op_pbe_accurateUnpol : AccurateUnpol 443 {} .gga gga_c_op_pbe :=
  accurateUnpol_of _ (par := []) (npar := []) (flds := []) rfl rfl rfl (by decide +kernel)
theorem gga_c_op_pbe_accuratePolBox : AccuratePolBox true 4 6 394202 {} .gga gga_c_op_pbe :=
  accuratePolBox_of _ (by decide) (by decide) (par := []) (npar := []) (flds := []) rfl rfl rfl (by decide +kernel)
theorem gga_c_op_pw91_accuratePolBox : AccuratePolBox true 2 3 255297 {} .gga gga_c_op_pw91 :=
  accuratePolBox_of _ (by decide) (by decide) (par := []) (npar := []) (flds := []) rfl rfl rfl (by decide +kernel)
theorem gga_c_op_xalpha_accurateUnpol : AccurateUnpol 193 {} .gga gga_c_op_xalpha :=
  accurateUnpol_of _ (par := []) (npar := []) (flds := []) rfl rfl rfl (by decide +kernel)
theorem gga_c_op_xalpha_accuratePolBox : AccuratePolBox true 4 6 393997 {} .gga gga_c_op_xalpha :=
  accuratePolBox_of _ (by decide) (by decide) (par := []) (npar := []) (flds := []) rfl rfl rfl (by decide +kernel)
theorem gga_c_p86_accurateUnpolBox : AccurateUnpolBox false 4 3 16159718227 {params := ["aa", "bb", "ftilde", "malpha", "mbeta", "mdelta", "mgamma"]} .gga gga_c_p86 :=
  accurateUnpolBox_of _ (by decide) (by decide) (par := [24929, 25186, 112650170950757, 120265198561377, 469802251361, 120277965763681, 120290783620449]) (npar := []) (flds := []) (by simp [nameCode, nameCodeChars]) rfl rfl (by decide +kernel)
theorem gga_c_p86_accuratePolBox : AccuratePolBox false 2 3 38540211308 {sPos := true, params := ["aa", "bb", "ftilde", "malpha", "mbeta"]} .gga gga_c_p86 :=
  accuratePolBox_of _ (by decide) (by decide) (par := [24929, 25186, 112650170950757, 120265198561377, 469802251361]) (npar := []) (flds := []) (by simp [nameCode, nameCodeChars]) rfl rfl (by decide +kernel)
theorem gga_c_p86vwn_accurateUnpolBox : AccurateUnpolBox false 4 3 16159718227 {params := ["aa", "bb", "ftilde", "malpha", "mbeta", "mdelta", "mgamma"]} .gga gga_c_p86vwn :=
  accurateUnpolBox_of _ (by decide) (by decide) (par := [24929, 25186, 112650170950757, 120265198561377, 469802251361, 120277965763681, 120290783620449]) (npar := []) (flds := []) (by simp [nameCode, nameCodeChars]) rfl rfl (by decide +kernel)
theorem gga_c_p86vwn_accuratePolBox : AccuratePolBox false 2 3 38542419514 {sPos := true, params := ["aa", "bb", "ftilde", "malpha", "mbeta"]} .gga gga_c_p86vwn :=
  accuratePolBox_of _ (by decide) (by decide) (par := [24929, 25186, 112650170950757, 120265198561377, 469802251361]) (npar := []) (flds := []) (by simp [nameCode, nameCodeChars]) rfl rfl (by decide +kernel)
theorem gga_c_pbe_accurateUnpolBox : AccurateUnpolBox false 4 3 18947292 {params := ["BB", "beta", "gamma"]} .gga gga_c_pbe :=
  accurateUnpolBox_of _ (by decide) (by decide) (par := [16962, 1650816097, 444016192865]) (npar := []) (flds := []) (by simp [nameCode, nameCodeChars]) rfl rfl (by decide +kernel)
theorem gga_c_pbeloc_accurateUnpolBox : AccurateUnpolBox false 4 6 20715 {} .gga gga_c_pbeloc :=
  accurateUnpolBox_of _ (by decide) (by decide) (par := []) (npar := []) (flds := []) rfl rfl rfl (by decide +kernel)
theorem gga_c_pw91_accurateUnpolBox : AccurateUnpolBox false 4 6 6479202 {} .gga gga_c_pw91 :=
  accurateUnpolBox_of _ (by decide) (by decide) (par := []) (npar := []) (flds := []) rfl rfl rfl (by decide +kernel)
theorem gga_c_regtpss_accurateUnpolBox : AccurateUnpolBox false 4 6 20536 {} .gga gga_c_regtpss :=
  accurateUnpolBox_of _ (by decide) (by decide) (par := []) (npar := []) (flds := []) rfl rfl rfl (by decide +kernel)
theorem gga_c_revtca_accurateUnpolBox : AccurateUnpolBox false 10 6 105791 {sPos := true} .gga gga_c_revtca :=
  accurateUnpolBox_of _ (by decide) (by decide) (par := []) (npar := []) (flds := []) rfl rfl rfl (by decide +kernel)
theorem gga_c_scan_e0_accurateUnpolBox : AccurateUnpolBox false 4 6 149489 {} .gga gga_c_scan_e0 :=
  accurateUnpolBox_of _ (by decide) (by decide) (par := []) (npar := []) (flds := []) rfl rfl rfl (by decide +kernel)
theorem gga_c_sg4_accurateUnpolBox : AccurateUnpolBox false 2 3 691184 {} .gga gga_c_sg4 :=
  accurateUnpolBox_of _ (by decide) (by decide) (par := []) (npar := []) (flds := []) rfl rfl rfl (by decide +kernel)

end Verif.Props
