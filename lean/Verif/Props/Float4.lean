import Verif.Norm.Float
import Verif.Data.F05
/-!
# C61: accuracy of floating-point evaluation
-/
set_option Elab.async false
set_option maxRecDepth 100000
namespace Verif.Props
open Verif.Py Verif.Model Verif.Spec Verif.Norm Verif.Data

theorem gga_xc_th1_accurateUnpolBox : AccurateUnpolBox false 2 3 66905669 {} .gga gga_xc_th1 :=
  accurateUnpolBox_of _ (by decide) (by decide) (par := []) (npar := []) (flds := []) rfl rfl rfl (by decide +kernel)
theorem gga_xc_th1_accuratePolBox : AccuratePolBox false 2 3 1360921093 {} .gga gga_xc_th1 :=
  accuratePolBox_of _ (by decide) (by decide) (par := []) (npar := []) (flds := []) rfl rfl rfl (by decide +kernel)
theorem gga_xc_th2_accurateUnpolBox : AccurateUnpolBox false 4 6 2693235185 {} .gga gga_xc_th2 :=
  accurateUnpolBox_of _ (by decide) (by decide) (par := []) (npar := []) (flds := []) rfl rfl rfl (by decide +kernel)
theorem gga_xc_th2_accuratePolBox : AccuratePolBox false 2 3 9134814 {} .gga gga_xc_th2 :=
  accuratePolBox_of _ (by decide) (by decide) (par := []) (npar := []) (flds := []) rfl rfl rfl (by decide +kernel)
theorem gga_xc_th3_accurateUnpolBox : AccurateUnpolBox false 2 3 64852989 {} .gga gga_xc_th3 :=
  accurateUnpolBox_of _ (by decide) (by decide) (par := []) (npar := []) (flds := []) rfl rfl rfl (by decide +kernel)
theorem gga_xc_th3_accuratePolBox : AccuratePolBox false 2 3 1164456857 {} .gga gga_xc_th3 :=
  accuratePolBox_of _ (by decide) (by decide) (par := []) (npar := []) (flds := []) rfl rfl rfl (by decide +kernel)
theorem hyb_mgga_x_dldf_accurateUnpolBox : AccurateUnpolBox false 2 3 619585 {} .mgga hyb_mgga_x_dldf :=
  accurateUnpolBox_of _ (by decide) (by decide) (par := []) (npar := []) (flds := []) rfl rfl rfl (by decide +kernel)
theorem hyb_mgga_x_dldf_accuratePolBox : AccuratePolBox false 2 3 435859 {} .mgga hyb_mgga_x_dldf :=
  accuratePolBox_of _ (by decide) (by decide) (par := []) (npar := []) (flds := []) rfl rfl rfl (by decide +kernel)
theorem lda_c_1d_csc_accurateUnpolBox : AccurateUnpolBox false 4 3 25148956 {params := ["para[0]", "para[1]", "para[2]", "para[3]", "para[7]", "para[8]"]} .lda lda_c_1d_csc :=
  accurateUnpolBox_of _ (by decide) (by decide) (par := [31632341279125597, 31632341279125853, 31632341279126109, 31632341279126365, 31632341279127389, 31632341279127645]) (npar := []) (flds := []) (by simp [nameCode, nameCodeChars]) rfl rfl (by decide +kernel)
theorem lda_c_1d_csc_accuratePolBox : AccuratePolBox false 2 3 48137119 {params := ["ferro[0]", "ferro[1]", "ferro[2]", "ferro[3]", "ferro[7]", "ferro[8]", "para[0]", "para[1]", "para[2]", "para[3]", "para[7]", "para[8]"]} .lda lda_c_1d_csc :=
  accuratePolBox_of _ (by decide) (by decide) (par := [7378429400336511069, 7378429400336511325, 7378429400336511581, 7378429400336511837, 7378429400336512861, 7378429400336513117, 31632341279125597, 31632341279125853, 31632341279126109, 31632341279126365, 31632341279127389, 31632341279127645]) (npar := []) (flds := []) (by simp [nameCode, nameCodeChars]) rfl rfl (by decide +kernel)
theorem lda_c_1d_loos_accurateUnpolBox : AccurateUnpolBox false 2 3 39389003 {} .lda lda_c_1d_loos :=
  accurateUnpolBox_of _ (by decide) (by decide) (par := []) (npar := []) (flds := []) rfl rfl rfl (by decide +kernel)
theorem lda_c_1d_loos_accuratePolBox : AccuratePolBox false 2 3 141630741 {} .lda lda_c_1d_loos :=
  accuratePolBox_of _ (by decide) (by decide) (par := []) (npar := []) (flds := []) rfl rfl rfl (by decide +kernel)
theorem lda_c_2d_amgb_accurateUnpolBox : AccurateUnpolBox false 2 3 205 {} .lda lda_c_2d_amgb :=
  accurateUnpolBox_of _ (by decide) (by decide) (par := []) (npar := []) (flds := []) rfl rfl rfl (by decide +kernel)
theorem lda_c_2d_amgb_accuratePolBox : AccuratePolBox false 2 3 31665 {} .lda lda_c_2d_amgb :=
  accuratePolBox_of _ (by decide) (by decide) (par := []) (npar := []) (flds := []) rfl rfl rfl (by decide +kernel)
theorem lda_c_2d_prm_accurateUnpolBox : AccurateUnpolBox false 10 6 264823 {params := ["c"]} .lda lda_c_2d_prm :=
  accurateUnpolBox_of _ (by decide) (by decide) (par := [99]) (npar := []) (flds := []) (by simp [nameCode, nameCodeChars]) rfl rfl (by decide +kernel)
theorem lda_c_2d_prm_accuratePolBox : AccuratePolBox false 10 6 593476 {params := ["c"]} .lda lda_c_2d_prm :=
  accuratePolBox_of _ (by decide) (by decide) (par := [99]) (npar := []) (flds := []) (by simp [nameCode, nameCodeChars]) rfl rfl (by decide +kernel)
theorem lda_c_chachiyo_accurateUnpolBox : AccurateUnpolBox false 10 6 18333 {params := ["bf", "bp", "cf", "cp"]} .lda lda_c_chachiyo :=
  accurateUnpolBox_of _ (by decide) (by decide) (par := [25190, 25200, 25446, 25456]) (npar := []) (flds := []) (by simp [nameCode, nameCodeChars]) rfl rfl (by decide +kernel)
theorem lda_c_chachiyo_accuratePolBox : AccuratePolBox false 4 6 800243217 {params := ["bf", "bp", "cf", "cp"]} .lda lda_c_chachiyo :=
  accuratePolBox_of _ (by decide) (by decide) (par := [25190, 25200, 25446, 25456]) (npar := []) (flds := []) (by simp [nameCode, nameCodeChars]) rfl rfl (by decide +kernel)
theorem lda_c_chachiyo_mod_accurateUnpolBox : AccurateUnpolBox false 10 6 15403 {params := ["bf", "bp", "cf", "cp"]} .lda lda_c_chachiyo_mod :=
  accurateUnpolBox_of _ (by decide) (by decide) (par := [25190, 25200, 25446, 25456]) (npar := []) (flds := []) (by simp [nameCode, nameCodeChars]) rfl rfl (by decide +kernel)
theorem lda_c_chachiyo_mod_accuratePolBox : AccuratePolBox false 4 6 1967619601 {params := ["bf", "bp", "cf", "cp"]} .lda lda_c_chachiyo_mod :=
  accuratePolBox_of _ (by decide) (by decide) (par := [25190, 25200, 25446, 25456]) (npar := []) (flds := []) (by simp [nameCode, nameCodeChars]) rfl rfl (by decide +kernel)
theorem lda_c_gk72_accurateUnpolBox : AccurateUnpolBox false 10 6 9 {} .lda lda_c_gk72 :=
  accurateUnpolBox_of _ (by decide) (by decide) (par := []) (npar := []) (flds := []) rfl rfl rfl (by decide +kernel)
theorem lda_c_gk72_accuratePolBox : AccuratePolBox false 10 6 9 {} .lda lda_c_gk72 :=
  accuratePolBox_of _ (by decide) (by decide) (par := []) (npar := []) (flds := []) rfl rfl rfl (by decide +kernel)
theorem lda_c_gombas_accurateUnpolBox : AccurateUnpolBox false 10 6 2 {} .lda lda_c_gombas :=
  accurateUnpolBox_of _ (by decide) (by decide) (par := []) (npar := []) (flds := []) rfl rfl rfl (by decide +kernel)
theorem lda_c_gombas_accuratePolBox : AccuratePolBox false 10 6 2 {} .lda lda_c_gombas :=
  accuratePolBox_of _ (by decide) (by decide) (par := []) (npar := []) (flds := []) rfl rfl rfl (by decide +kernel)
theorem lda_c_hl_accurateUnpolBox : AccurateUnpolBox false 4 6 18678777152 {params := ["hl_r[0]", "hl_r[1]"]} .lda lda_c_hl :=
  accurateUnpolBox_of _ (by decide) (by decide) (par := [29392554774179933, 29392554774180189]) (npar := []) (flds := []) (by simp [nameCode, nameCodeChars]) rfl rfl (by decide +kernel)
theorem lda_c_hl_accuratePolBox : AccuratePolBox false 2 3 78525092 {params := ["hl_r[0]", "hl_r[1]"]} .lda lda_c_hl :=
  accuratePolBox_of _ (by decide) (by decide) (par := [29392554774179933, 29392554774180189]) (npar := []) (flds := []) (by simp [nameCode, nameCodeChars]) rfl rfl (by decide +kernel)
theorem lda_c_lp96_accurateUnpol : AccurateUnpol 10 {params := ["C1", "C2", "C3"]} .lda lda_c_lp96 :=
  accurateUnpol_of _ (par := [17201, 17202, 17203]) (npar := []) (flds := []) (by simp [nameCode, nameCodeChars]) rfl rfl (by decide +kernel)
theorem lda_c_lp96_accurateUnpolBox : AccurateUnpolBox false 10 6 55370 {} .lda lda_c_lp96 :=
  accurateUnpolBox_of _ (by decide) (by decide) (par := []) (npar := []) (flds := []) rfl rfl rfl (by decide +kernel)
theorem lda_c_lp96_accuratePol : AccuratePol 14 {params := ["C1", "C2", "C3"]} .lda lda_c_lp96 :=
  accuratePol_of _ (par := [17201, 17202, 17203]) (npar := []) (flds := []) (by simp [nameCode, nameCodeChars]) rfl rfl (by decide +kernel)
theorem lda_c_lp96_accuratePolBox : AccuratePolBox false 10 6 52865 {} .lda lda_c_lp96 :=
  accuratePolBox_of _ (by decide) (by decide) (par := []) (npar := []) (flds := []) rfl rfl rfl (by decide +kernel)
theorem lda_c_ml1_accurateUnpolBox : AccurateUnpolBox false 10 6 1654303139 {params := ["fc"]} .lda lda_c_ml1 :=
  accurateUnpolBox_of _ (by decide) (by decide) (par := [26211]) (npar := []) (flds := []) (by simp [nameCode, nameCodeChars]) rfl rfl (by decide +kernel)
theorem lda_c_pmgb06_accurateUnpolBox : AccurateUnpolBox false 4 3 19792303215 {flds := [.camOmega]} .lda lda_c_pmgb06 :=
  accurateUnpolBox_of _ (by decide) (by decide) (par := []) (npar := []) (flds := [2]) rfl rfl rfl (by decide +kernel)
theorem lda_c_pw_accurateUnpolBox : AccurateUnpolBox false 10 6 3055145141 {params := ["a[0]", "a[2]", "beta1[0]", "beta1[2]", "beta2[0]", "beta2[2]", "beta3[0]", "beta3[2]", "beta4[0]", "beta4[2]", "fz20"]} .lda lda_c_pw :=
  accurateUnpolBox_of _ (by decide) (by decide) (par := [1633366109, 1633366621, 7090201149153423453, 7090201149153423965, 7090201149170200669, 7090201149170201181, 7090201149186977885, 7090201149186978397, 7090201149203755101, 7090201149203755613, 1719284272]) (npar := []) (flds := []) (by simp [nameCode, nameCodeChars]) rfl rfl (by decide +kernel)

end Verif.Props
