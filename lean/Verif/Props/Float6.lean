import Verif.Norm.Float
import Verif.Data.F09
import Verif.Data.F13

/-!
# C61: accuracy of floating-point evaluation
-/
set_option Elab.async false
set_option maxRecDepth 100000
namespace Verif.Props
open Verif.Py Verif.Model Verif.Spec Verif.Norm Verif.Data

theorem mgga_c_rppscan_accurateUnpolBox : AccurateUnpolBox false 2 3 36841668509 {params := ["eta"]} .mgga mgga_c_rppscan :=
  accurateUnpolBox_of _ (by decide) (by decide) (par := [6648929]) (npar := []) (flds := []) (by simp [nameCode, nameCodeChars]) rfl rfl (by decide +kernel)
theorem mgga_k_gea2_accurateUnpolBox : AccurateUnpolBox false 4 6 262520 {} .mgga mgga_k_gea2 :=
  accurateUnpolBox_of _ (by decide) (by decide) (par := []) (npar := []) (flds := []) rfl rfl rfl (by decide +kernel)
theorem mgga_k_gea2_accuratePolBox : AccuratePolBox false 4 6 1678713270 {} .mgga mgga_k_gea2 :=
  accuratePolBox_of _ (by decide) (by decide) (par := []) (npar := []) (flds := []) rfl rfl rfl (by decide +kernel)
theorem mgga_k_gea4_accurateUnpolBox : AccurateUnpolBox false 4 6 24595346 {} .mgga mgga_k_gea4 :=
  accurateUnpolBox_of _ (by decide) (by decide) (par := []) (npar := []) (flds := []) rfl rfl rfl (by decide +kernel)
theorem mgga_k_gea4_accuratePolBox : AccuratePolBox false 2 3 67779 {} .mgga mgga_k_gea4 :=
  accuratePolBox_of _ (by decide) (by decide) (par := []) (npar := []) (flds := []) rfl rfl rfl (by decide +kernel)

end Verif.Props


/-!
# C61: accuracy of floating-point evaluation
-/
set_option Elab.async false
set_option maxRecDepth 100000
namespace Verif.Props
open Verif.Py Verif.Model Verif.Spec Verif.Norm Verif.Data

theorem mgga_k_pgslb_accurateUnpol : AccurateUnpol 32792 {params := ["pgslb_beta"]} .mgga mgga_k_pgslb :=
  accurateUnpol_of _ (par := [530813377851766006445153]) (npar := []) (flds := []) (by simp [nameCode, nameCodeChars]) rfl rfl (by decide +kernel)
theorem mgga_k_pgslb_accuratePolBox : AccuratePolBox true 4 6 226236 {params := ["pgslb_beta"]} .mgga mgga_k_pgslb :=
  accuratePolBox_of _ (by decide) (by decide) (par := [530813377851766006445153]) (npar := []) (flds := []) (by simp [nameCode, nameCodeChars]) rfl rfl (by decide +kernel)
theorem mgga_x_2d_js17_accurateUnpolBox : AccurateUnpolBox false 4 6 2247460 {} .mgga mgga_x_2d_js17 :=
  accurateUnpolBox_of _ (by decide) (by decide) (par := []) (npar := []) (flds := []) rfl rfl rfl (by decide +kernel)
theorem mgga_x_2d_js17_accuratePolBox : AccuratePolBox false 4 6 822633183 {} .mgga mgga_x_2d_js17 :=
  accuratePolBox_of _ (by decide) (by decide) (par := []) (npar := []) (flds := []) rfl rfl rfl (by decide +kernel)
theorem mgga_x_gdme_accurateUnpolBox : AccurateUnpolBox false 4 6 1750722438 {} .mgga mgga_x_gdme :=
  accurateUnpolBox_of _ (by decide) (by decide) (par := []) (npar := []) (flds := []) rfl rfl rfl (by decide +kernel)
theorem mgga_x_gdme_accuratePolBox : AccuratePolBox false 4 3 3502558993 {} .mgga mgga_x_gdme :=
  accuratePolBox_of _ (by decide) (by decide) (par := []) (npar := []) (flds := []) rfl rfl rfl (by decide +kernel)
theorem mgga_x_gvt4_accurateUnpolBox : AccurateUnpolBox false 4 6 10550855721 {} .mgga mgga_x_gvt4 :=
  accurateUnpolBox_of _ (by decide) (by decide) (par := []) (npar := []) (flds := []) rfl rfl rfl (by decide +kernel)
theorem mgga_x_gvt4_accuratePolBox : AccuratePolBox false 4 6 26678069478 {} .mgga mgga_x_gvt4 :=
  accuratePolBox_of _ (by decide) (by decide) (par := []) (npar := []) (flds := []) rfl rfl rfl (by decide +kernel)
theorem mgga_x_lta_accurateUnpolBox : AccurateUnpolBox true 10 6 74883 {tPos := true} .mgga mgga_x_lta :=
  accurateUnpolBox_of _ (by decide) (by decide) (par := []) (npar := []) (flds := []) rfl rfl rfl (by decide +kernel)
theorem mgga_x_lta_accuratePolBox : AccuratePolBox true 4 6 205859 {tPos := true} .mgga mgga_x_lta :=
  accuratePolBox_of _ (by decide) (by decide) (par := []) (npar := []) (flds := []) rfl rfl rfl (by decide +kernel)
theorem mgga_x_mn12_accurateUnpolBox : AccurateUnpolBox false 2 3 3161813899 {} .mgga mgga_x_mn12 :=
  accurateUnpolBox_of _ (by decide) (by decide) (par := []) (npar := []) (flds := []) rfl rfl rfl (by decide +kernel)
theorem mgga_x_mn12_accuratePolBox : AccuratePolBox false 2 3 1002656119 {} .mgga mgga_x_mn12 :=
  accuratePolBox_of _ (by decide) (by decide) (par := []) (npar := []) (flds := []) rfl rfl rfl (by decide +kernel)

end Verif.Props


/-!
# C61: accuracy of floating-point evaluation
-/
set_option Elab.async false
set_option maxRecDepth 100000
namespace Verif.Props
open Verif.Py Verif.Model Verif.Spec Verif.Norm Verif.Data

theorem mgga_x_tau_hcth_accurateUnpolBox : AccurateUnpolBox false 2 3 13087038212 {} .mgga mgga_x_tau_hcth :=
  accurateUnpolBox_of _ (by decide) (by decide) (par := []) (npar := []) (flds := []) rfl rfl rfl (by decide +kernel)
theorem mgga_x_tau_hcth_accuratePolBox : AccuratePolBox false 2 3 1969449851 {} .mgga mgga_x_tau_hcth :=
  accuratePolBox_of _ (by decide) (by decide) (par := []) (npar := []) (flds := []) rfl rfl rfl (by decide +kernel)
theorem mgga_x_th_accurateUnpol : AccurateUnpol 55 {tPos := true} .mgga mgga_x_th :=
  accurateUnpol_of _ (par := []) (npar := []) (flds := []) rfl rfl rfl (by decide +kernel)
theorem mgga_x_th_accuratePolBox : AccuratePolBox true 4 6 131396 {tPos := true} .mgga mgga_x_th :=
  accuratePolBox_of _ (by decide) (by decide) (par := []) (npar := []) (flds := []) rfl rfl rfl (by decide +kernel)
theorem mgga_xc_b98_accurateUnpolBox : AccurateUnpolBox false 2 3 200904949 {tPos := true} .mgga mgga_xc_b98 :=
  accurateUnpolBox_of _ (by decide) (by decide) (par := []) (npar := []) (flds := []) rfl rfl rfl (by decide +kernel)
theorem mgga_xc_b98_accuratePolBox : AccuratePolBox false 2 3 66551527 {tPos := true} .mgga mgga_xc_b98 :=
  accuratePolBox_of _ (by decide) (by decide) (par := []) (npar := []) (flds := []) rfl rfl rfl (by decide +kernel)
theorem mgga_xc_cc06_accurateUnpolBox : AccurateUnpolBox true 2 3 123 {} .mgga mgga_xc_cc06 :=
  accurateUnpolBox_of _ (by decide) (by decide) (par := []) (npar := []) (flds := []) rfl rfl rfl (by decide +kernel)
theorem mgga_xc_cc06_accuratePolBox : AccuratePolBox false 2 3 5688209 {} .mgga mgga_xc_cc06 :=
  accuratePolBox_of _ (by decide) (by decide) (par := []) (npar := []) (flds := []) rfl rfl rfl (by decide +kernel)
theorem mgga_xc_lp90_accurateUnpolBox : AccurateUnpolBox false 10 6 19502705891 {} .mgga mgga_xc_lp90 :=
  accurateUnpolBox_of _ (by decide) (by decide) (par := []) (npar := []) (flds := []) rfl rfl rfl (by decide +kernel)
theorem mgga_xc_lp90_accuratePolBox : AccuratePolBox false 4 6 1020154 {} .mgga mgga_xc_lp90 :=
  accuratePolBox_of _ (by decide) (by decide) (par := []) (npar := []) (flds := []) rfl rfl rfl (by decide +kernel)
theorem mgga_xc_zlp_accurateUnpolBox : AccurateUnpolBox false 4 6 33772 {} .mgga mgga_xc_zlp :=
  accurateUnpolBox_of _ (by decide) (by decide) (par := []) (npar := []) (flds := []) rfl rfl rfl (by decide +kernel)
theorem mgga_xc_zlp_accuratePolBox : AccuratePolBox false 4 6 22055843 {} .mgga mgga_xc_zlp :=
  accuratePolBox_of _ (by decide) (by decide) (par := []) (npar := []) (flds := []) rfl rfl rfl (by decide +kernel)

end Verif.Props
