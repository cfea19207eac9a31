import Verif.Norm.Float
import Verif.Data.F09
/-!
# C61: accuracy of floating-point evaluation
-/
set_option Elab.async false
set_option maxRecDepth 100000
namespace Verif.Props
open Verif.Py Verif.Model Verif.Spec Verif.Norm Verif.Data

theorem lda_c_pz_accurateUnpolBox : AccurateUnpolBox false 10 6 111089 {params := ["beta1[0]", "beta1[1]", "beta2[0]", "beta2[1]"]} .lda lda_c_pz :=
  accurateUnpolBox_of _ (by decide) (by decide) (par := [7090201149153423453, 7090201149153423709, 7090201149170200669, 7090201149170200925]) (npar := []) (flds := []) (by simp [nameCode, nameCodeChars]) rfl rfl (by decide +kernel)
theorem lda_c_pz_accuratePolBox : AccuratePolBox false 4 6 501177629 {params := ["beta1[0]", "beta1[1]", "beta2[0]", "beta2[1]"]} .lda lda_c_pz :=
  accuratePolBox_of _ (by decide) (by decide) (par := [7090201149153423453, 7090201149153423709, 7090201149170200669, 7090201149170200925]) (npar := []) (flds := []) (by simp [nameCode, nameCodeChars]) rfl rfl (by decide +kernel)
theorem lda_c_rc04_accurateUnpolBox : AccurateUnpolBox false 10 6 3082 {} .lda lda_c_rc04 :=
  accurateUnpolBox_of _ (by decide) (by decide) (par := []) (npar := []) (flds := []) rfl rfl rfl (by decide +kernel)
theorem lda_c_rc04_accuratePolBox : AccuratePolBox false 4 6 14516854 {} .lda lda_c_rc04 :=
  accuratePolBox_of _ (by decide) (by decide) (par := []) (npar := []) (flds := []) rfl rfl rfl (by decide +kernel)
theorem lda_c_rpa_accurateUnpolBox : AccurateUnpolBox false 10 6 9 {} .lda lda_c_rpa :=
  accurateUnpolBox_of _ (by decide) (by decide) (par := []) (npar := []) (flds := []) rfl rfl rfl (by decide +kernel)
theorem lda_c_rpa_accuratePolBox : AccuratePolBox false 10 6 9 {} .lda lda_c_rpa :=
  accuratePolBox_of _ (by decide) (by decide) (par := []) (npar := []) (flds := []) rfl rfl rfl (by decide +kernel)
theorem lda_c_vwn_accurateUnpolBox : AccurateUnpolBox false 10 6 6 {} .lda lda_c_vwn :=
  accurateUnpolBox_of _ (by decide) (by decide) (par := []) (npar := []) (flds := []) rfl rfl rfl (by decide +kernel)
theorem lda_c_vwn_accuratePolBox : AccuratePolBox false 2 3 1389120 {} .lda lda_c_vwn :=
  accuratePolBox_of _ (by decide) (by decide) (par := []) (npar := []) (flds := []) rfl rfl rfl (by decide +kernel)
theorem lda_c_vwn_1_accurateUnpolBox : AccurateUnpolBox false 10 6 8 {} .lda lda_c_vwn_1 :=
  accurateUnpolBox_of _ (by decide) (by decide) (par := []) (npar := []) (flds := []) rfl rfl rfl (by decide +kernel)
theorem lda_c_vwn_1_accuratePolBox : AccuratePolBox false 4 6 85905 {} .lda lda_c_vwn_1 :=
  accuratePolBox_of _ (by decide) (by decide) (par := []) (npar := []) (flds := []) rfl rfl rfl (by decide +kernel)
theorem lda_c_vwn_2_accurateUnpolBox : AccurateUnpolBox false 10 6 166 {} .lda lda_c_vwn_2 :=
  accurateUnpolBox_of _ (by decide) (by decide) (par := []) (npar := []) (flds := []) rfl rfl rfl (by decide +kernel)
theorem lda_c_vwn_2_accuratePolBox : AccuratePolBox false 2 3 235251924 {} .lda lda_c_vwn_2 :=
  accuratePolBox_of _ (by decide) (by decide) (par := []) (npar := []) (flds := []) rfl rfl rfl (by decide +kernel)
theorem lda_c_vwn_4_accurateUnpolBox : AccurateUnpolBox false 10 6 6 {} .lda lda_c_vwn_4 :=
  accurateUnpolBox_of _ (by decide) (by decide) (par := []) (npar := []) (flds := []) rfl rfl rfl (by decide +kernel)
theorem lda_c_vwn_4_accuratePolBox : AccuratePolBox false 2 3 1385502 {} .lda lda_c_vwn_4 :=
  accuratePolBox_of _ (by decide) (by decide) (par := []) (npar := []) (flds := []) rfl rfl rfl (by decide +kernel)
theorem lda_c_vwn_rpa_accurateUnpolBox : AccurateUnpolBox false 10 6 495 {} .lda lda_c_vwn_rpa :=
  accurateUnpolBox_of _ (by decide) (by decide) (par := []) (npar := []) (flds := []) rfl rfl rfl (by decide +kernel)
theorem lda_c_vwn_rpa_accuratePolBox : AccuratePolBox false 4 6 13520635 {} .lda lda_c_vwn_rpa :=
  accuratePolBox_of _ (by decide) (by decide) (par := []) (npar := []) (flds := []) rfl rfl rfl (by decide +kernel)
theorem lda_c_w20_accurateUnpolBox : AccurateUnpolBox true 4 6 3964 {} .lda lda_c_w20 :=
  accurateUnpolBox_of _ (by decide) (by decide) (par := []) (npar := []) (flds := []) rfl rfl rfl (by decide +kernel)
theorem lda_c_w20_accuratePolBox : AccuratePolBox false 4 6 90930 {} .lda lda_c_w20 :=
  accuratePolBox_of _ (by decide) (by decide) (par := []) (npar := []) (flds := []) rfl rfl rfl (by decide +kernel)
theorem lda_c_wigner_accurateUnpol : AccurateUnpol 24 {params := ["b"]} .lda lda_c_wigner :=
  accurateUnpol_of _ (par := [98]) (npar := []) (flds := []) (by simp [nameCode, nameCodeChars]) rfl rfl (by decide +kernel)
theorem lda_c_wigner_accuratePolBox : AccuratePolBox true 4 6 12535003 {params := ["b"]} .lda lda_c_wigner :=
  accuratePolBox_of _ (by decide) (by decide) (par := [98]) (npar := []) (flds := []) (by simp [nameCode, nameCodeChars]) rfl rfl (by decide +kernel)
theorem lda_k_gds08_worker_accurateUnpolBox : AccurateUnpolBox false 10 6 104383 {} .lda lda_k_gds08_worker :=
  accurateUnpolBox_of _ (by decide) (by decide) (par := []) (npar := []) (flds := []) rfl rfl rfl (by decide +kernel)
theorem lda_k_gds08_worker_accuratePolBox : AccuratePolBox false 4 6 313257144 {} .lda lda_k_gds08_worker :=
  accuratePolBox_of _ (by decide) (by decide) (par := []) (npar := []) (flds := []) rfl rfl rfl (by decide +kernel)
theorem lda_k_tf_accurateUnpol : AccurateUnpol 38 {} .lda lda_k_tf :=
  accurateUnpol_of _ (par := []) (npar := []) (flds := []) rfl rfl rfl (by decide +kernel)
theorem lda_k_tf_accuratePolBox : AccuratePolBox true 4 6 99516 {} .lda lda_k_tf :=
  accuratePolBox_of _ (by decide) (by decide) (par := []) (npar := []) (flds := []) rfl rfl rfl (by decide +kernel)
theorem lda_k_zlp_accurateUnpolBox : AccurateUnpolBox true 10 6 33 {} .lda lda_k_zlp :=
  accurateUnpolBox_of _ (by decide) (by decide) (par := []) (npar := []) (flds := []) rfl rfl rfl (by decide +kernel)
theorem lda_k_zlp_accuratePolBox : AccuratePolBox true 4 6 99511 {} .lda lda_k_zlp :=
  accuratePolBox_of _ (by decide) (by decide) (par := []) (npar := []) (flds := []) rfl rfl rfl (by decide +kernel)
theorem lda_x_accurateUnpol : AccurateUnpol 20 {} .lda lda_x :=
  accurateUnpol_of _ (par := []) (npar := []) (flds := []) rfl rfl rfl (by decide +kernel)
theorem lda_x_accuratePol : AccuratePol 46 {params := ["alpha"]} .lda lda_x :=
  accuratePol_of _ (par := [418431133793]) (npar := []) (flds := []) (by simp [nameCode, nameCodeChars]) rfl rfl (by decide +kernel)
theorem lda_x_2d_accurateUnpol : AccurateUnpol 16 {} .lda lda_x_2d :=
  accurateUnpol_of _ (par := []) (npar := []) (flds := []) rfl rfl rfl (by decide +kernel)
theorem lda_x_2d_accuratePolBox : AccuratePolBox true 4 6 66335 {} .lda lda_x_2d :=
  accuratePolBox_of _ (by decide) (by decide) (par := []) (npar := []) (flds := []) rfl rfl rfl (by decide +kernel)
theorem lda_x_sloc_accurateUnpolBox : AccurateUnpolBox true 10 6 77 {params := ["b"]} .lda lda_x_sloc :=
  accurateUnpolBox_of _ (by decide) (by decide) (par := [98]) (npar := []) (flds := []) (by simp [nameCode, nameCodeChars]) rfl rfl (by decide +kernel)
theorem lda_x_sloc_accuratePolBox : AccuratePolBox true 4 6 2201310 {params := ["b"]} .lda lda_x_sloc :=
  accuratePolBox_of _ (by decide) (by decide) (par := [98]) (npar := []) (flds := []) (by simp [nameCode, nameCodeChars]) rfl rfl (by decide +kernel)
theorem lda_xc_1d_ehwlrg_accurateUnpolBox : AccurateUnpolBox true 10 6 78 {params := ["a1", "a2", "a3"]} .lda lda_xc_1d_ehwlrg :=
  accurateUnpolBox_of _ (by decide) (by decide) (par := [24881, 24882, 24883]) (npar := []) (flds := []) (by simp [nameCode, nameCodeChars]) rfl rfl (by decide +kernel)
theorem lda_xc_1d_ehwlrg_accuratePolBox : AccuratePolBox true 10 6 146 {params := ["a1", "a2", "a3"]} .lda lda_xc_1d_ehwlrg :=
  accuratePolBox_of _ (by decide) (by decide) (par := [24881, 24882, 24883]) (npar := []) (flds := []) (by simp [nameCode, nameCodeChars]) rfl rfl (by decide +kernel)
theorem lda_xc_teter93_accurateUnpol : AccurateUnpol 85 {} .lda lda_xc_teter93 :=
  accurateUnpol_of _ (par := []) (npar := []) (flds := []) rfl rfl rfl (by decide +kernel)
theorem lda_xc_teter93_accuratePolBox : AccuratePolBox false 2 3 99392 {} .lda lda_xc_teter93 :=
  accuratePolBox_of _ (by decide) (by decide) (par := []) (npar := []) (flds := []) rfl rfl rfl (by decide +kernel)
theorem lda_xc_zlp_accurateUnpolBox : AccurateUnpolBox true 10 6 41 {} .lda lda_xc_zlp :=
  accurateUnpolBox_of _ (by decide) (by decide) (par := []) (npar := []) (flds := []) rfl rfl rfl (by decide +kernel)
theorem lda_xc_zlp_accuratePolBox : AccuratePolBox false 10 6 159 {} .lda lda_xc_zlp :=
  accuratePolBox_of _ (by decide) (by decide) (par := []) (npar := []) (flds := []) rfl rfl rfl (by decide +kernel)
theorem mgga_c_b88_accurateUnpolBox : AccurateUnpolBox false 2 3 1741850 {} .mgga mgga_c_b88 :=
  accurateUnpolBox_of _ (by decide) (by decide) (par := []) (npar := []) (flds := []) rfl rfl rfl (by decide +kernel)
theorem mgga_c_b88_accuratePolBox : AccuratePolBox false 2 3 385076574 {} .mgga mgga_c_b88 :=
  accuratePolBox_of _ (by decide) (by decide) (par := []) (npar := []) (flds := []) rfl rfl rfl (by decide +kernel)
theorem mgga_c_bc95_accurateUnpolBox : AccurateUnpolBox false 4 6 2654044612 {tPos := true, params := ["copp", "css"]} .mgga mgga_c_bc95 :=
  accurateUnpolBox_of _ (by decide) (by decide) (par := [1668247664, 6517619]) (npar := []) (flds := []) (by simp [nameCode, nameCodeChars]) rfl rfl (by decide +kernel)
theorem mgga_c_bc95_accuratePolBox : AccuratePolBox false 2 3 2515893 {tPos := true, params := ["copp", "css"]} .mgga mgga_c_bc95 :=
  accuratePolBox_of _ (by decide) (by decide) (par := [1668247664, 6517619]) (npar := []) (flds := []) (by simp [nameCode, nameCodeChars]) rfl rfl (by decide +kernel)
theorem mgga_c_cc_accurateUnpolBox : AccurateUnpolBox true 10 6 18624 {} .mgga mgga_c_cc :=
  accurateUnpolBox_of _ (by decide) (by decide) (par := []) (npar := []) (flds := []) rfl rfl rfl (by decide +kernel)
theorem mgga_c_cs_accurateUnpolBox : AccurateUnpolBox false 10 6 8405710608 {} .mgga mgga_c_cs :=
  accurateUnpolBox_of _ (by decide) (by decide) (par := []) (npar := []) (flds := []) rfl rfl rfl (by decide +kernel)
theorem mgga_c_cs_accuratePolBox : AccuratePolBox false 4 6 18446709 {} .mgga mgga_c_cs :=
  accuratePolBox_of _ (by decide) (by decide) (par := []) (npar := []) (flds := []) rfl rfl rfl (by decide +kernel)
theorem mgga_c_ltapw_accurateUnpolBox : AccurateUnpolBox false 2 3 6410277 {tPos := true} .mgga mgga_c_ltapw :=
  accurateUnpolBox_of _ (by decide) (by decide) (par := []) (npar := []) (flds := []) rfl rfl rfl (by decide +kernel)

end Verif.Props
