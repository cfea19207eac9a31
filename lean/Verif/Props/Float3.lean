import Verif.Norm.Float
import Verif.Data.F05
/-!
# C61: accuracy of floating-point evaluation
-/
set_option Elab.async false
set_option maxRecDepth 100000
namespace Verif.Props
open Verif.Py Verif.Model Verif.Spec Verif.Norm Verif.Data

theorem gga_x_htbs_accurateUnpolBox : AccurateUnpolBox false 2 3 25676 {} .gga gga_x_htbs :=
  accurateUnpolBox_of _ (by decide) (by decide) (par := []) (npar := []) (flds := []) rfl rfl rfl (by decide +kernel)
theorem gga_x_htbs_accuratePolBox : AccuratePolBox false 2 3 90880 {} .gga gga_x_htbs :=
  accuratePolBox_of _ (by decide) (by decide) (par := []) (npar := []) (flds := []) rfl rfl rfl (by decide +kernel)
theorem gga_x_kt_accurateUnpolBox : AccurateUnpolBox false 4 3 7916364406 {params := ["delta"]} .gga gga_x_kt :=
  accurateUnpolBox_of _ (by decide) (by decide) (par := [431198336097]) (npar := []) (flds := []) (by simp [nameCode, nameCodeChars]) rfl rfl (by decide +kernel)
theorem gga_x_kt_accuratePolBox : AccuratePolBox false 2 3 758828534 {params := ["delta"]} .gga gga_x_kt :=
  accuratePolBox_of _ (by decide) (by decide) (par := [431198336097]) (npar := []) (flds := []) (by simp [nameCode, nameCodeChars]) rfl rfl (by decide +kernel)
theorem gga_x_lag_accurateUnpol : AccurateUnpol 3731 {sPos := true} .gga gga_x_lag :=
  accurateUnpol_of _ (par := []) (npar := []) (flds := []) rfl rfl rfl (by decide +kernel)
theorem gga_x_lag_accuratePolBox : AccuratePolBox true 4 6 135049 {sPos := true} .gga gga_x_lag :=
  accuratePolBox_of _ (by decide) (by decide) (par := []) (npar := []) (flds := []) rfl rfl rfl (by decide +kernel)
theorem gga_x_lg93_accurateUnpol : AccurateUnpol 98 {} .gga gga_x_lg93 :=
  accurateUnpol_of _ (par := []) (npar := []) (flds := []) rfl rfl rfl (by decide +kernel)
theorem gga_x_lg93_accuratePolBox : AccuratePolBox true 4 6 131388 {} .gga gga_x_lg93 :=
  accuratePolBox_of _ (by decide) (by decide) (par := []) (npar := []) (flds := []) rfl rfl rfl (by decide +kernel)
theorem gga_x_lspbe_accurateUnpolBox : AccurateUnpolBox false 10 6 158305439 {params := ["alpha", "kappa", "mu"]} .gga gga_x_lspbe :=
  accurateUnpolBox_of _ (by decide) (by decide) (par := [418431133793, 461196259425, 28021]) (npar := []) (flds := []) (by simp [nameCode, nameCodeChars]) rfl rfl (by decide +kernel)
theorem gga_x_lspbe_accuratePolBox : AccuratePolBox false 4 3 200052331 {params := ["alpha", "kappa", "mu"]} .gga gga_x_lspbe :=
  accuratePolBox_of _ (by decide) (by decide) (par := [418431133793, 461196259425, 28021]) (npar := []) (flds := []) (by simp [nameCode, nameCodeChars]) rfl rfl (by decide +kernel)
theorem gga_x_lsrpbe_accurateUnpolBox : AccurateUnpolBox false 10 6 33513183 {params := ["alpha", "kappa", "mu"]} .gga gga_x_lsrpbe :=
  accurateUnpolBox_of _ (by decide) (by decide) (par := [418431133793, 461196259425, 28021]) (npar := []) (flds := []) (by simp [nameCode, nameCodeChars]) rfl rfl (by decide +kernel)
theorem gga_x_lsrpbe_accuratePolBox : AccuratePolBox false 4 6 48403673 {params := ["alpha", "kappa", "mu"]} .gga gga_x_lsrpbe :=
  accuratePolBox_of _ (by decide) (by decide) (par := [418431133793, 461196259425, 28021]) (npar := []) (flds := []) (by simp [nameCode, nameCodeChars]) rfl rfl (by decide +kernel)
theorem gga_x_lv_rpw86_accurateUnpol : AccurateUnpol 170 {} .gga gga_x_lv_rpw86 :=
  accurateUnpol_of _ (par := []) (npar := []) (flds := []) rfl rfl rfl (by decide +kernel)
theorem gga_x_lv_rpw86_accuratePolBox : AccuratePolBox true 4 6 131504 {} .gga gga_x_lv_rpw86 :=
  accuratePolBox_of _ (by decide) (by decide) (par := []) (npar := []) (flds := []) rfl rfl rfl (by decide +kernel)
theorem gga_x_mpbe_accurateUnpol : AccurateUnpol 224 {params := ["a", "c1", "c2", "c3"]} .gga gga_x_mpbe :=
  accurateUnpol_of _ (par := [97, 25393, 25394, 25395]) (npar := []) (flds := []) (by simp [nameCode, nameCodeChars]) rfl rfl (by decide +kernel)
theorem gga_x_mpbe_accuratePolBox : AccuratePolBox true 4 6 131537 {params := ["a", "c1", "c2", "c3"]} .gga gga_x_mpbe :=
  accuratePolBox_of _ (by decide) (by decide) (par := [97, 25393, 25394, 25395]) (npar := []) (flds := []) (by simp [nameCode, nameCodeChars]) rfl rfl (by decide +kernel)
theorem gga_x_n12_accurateUnpolBox : AccurateUnpolBox false 4 3 66697670885 {} .gga gga_x_n12 :=
  accurateUnpolBox_of _ (by decide) (by decide) (par := []) (npar := []) (flds := []) rfl rfl rfl (by decide +kernel)
theorem gga_x_n12_accuratePolBox : AccuratePolBox false 2 3 259728 {} .gga gga_x_n12 :=
  accuratePolBox_of _ (by decide) (by decide) (par := []) (npar := []) (flds := []) rfl rfl rfl (by decide +kernel)
theorem gga_x_ol2_accurateUnpol : AccurateUnpol 65 {params := ["aa", "bb", "cc"]} .gga gga_x_ol2 :=
  accurateUnpol_of _ (par := [24929, 25186, 25443]) (npar := []) (flds := []) (by simp [nameCode, nameCodeChars]) rfl rfl (by decide +kernel)
theorem gga_x_ol2_accuratePolBox : AccuratePolBox false 4 6 12164225902 {} .gga gga_x_ol2 :=
  accuratePolBox_of _ (by decide) (by decide) (par := []) (npar := []) (flds := []) rfl rfl rfl (by decide +kernel)
theorem gga_x_optx_accurateUnpol : AccurateUnpol 111 {params := ["a", "b", "gamma"]} .gga gga_x_optx :=
  accurateUnpol_of _ (par := [97, 98, 444016192865]) (npar := []) (flds := []) (by simp [nameCode, nameCodeChars]) rfl rfl (by decide +kernel)
theorem gga_x_optx_accuratePolBox : AccuratePolBox true 4 6 131425 {params := ["a", "b", "gamma"]} .gga gga_x_optx :=
  accuratePolBox_of _ (by decide) (by decide) (par := [97, 98, 444016192865]) (npar := []) (flds := []) (by simp [nameCode, nameCodeChars]) rfl rfl (by decide +kernel)
theorem gga_x_pbe_accurateUnpolBox : AccurateUnpolBox false 10 6 136591442 {params := ["kappa", "mu"]} .gga gga_x_pbe :=
  accurateUnpolBox_of _ (by decide) (by decide) (par := [461196259425, 28021]) (npar := []) (flds := []) (by simp [nameCode, nameCodeChars]) rfl rfl (by decide +kernel)
theorem gga_x_pbe_accuratePolBox : AccuratePolBox false 4 3 195866991 {params := ["kappa", "mu"]} .gga gga_x_pbe :=
  accuratePolBox_of _ (by decide) (by decide) (par := [461196259425, 28021]) (npar := []) (flds := []) (by simp [nameCode, nameCodeChars]) rfl rfl (by decide +kernel)
theorem gga_x_pbea_accurateUnpol : AccurateUnpol 341 {} .gga gga_x_pbea :=
  accurateUnpol_of _ (par := []) (npar := []) (flds := []) rfl rfl rfl (by decide +kernel)
theorem gga_x_pbea_accuratePolBox : AccuratePolBox true 4 6 131672 {} .gga gga_x_pbea :=
  accuratePolBox_of _ (by decide) (by decide) (par := []) (npar := []) (flds := []) rfl rfl rfl (by decide +kernel)
theorem gga_x_pbetrans_accurateUnpolBox : AccurateUnpolBox false 10 6 225193761 {} .gga gga_x_pbetrans :=
  accurateUnpolBox_of _ (by decide) (by decide) (par := []) (npar := []) (flds := []) rfl rfl rfl (by decide +kernel)
theorem gga_x_pbetrans_accuratePolBox : AccuratePolBox false 4 6 918795 {} .gga gga_x_pbetrans :=
  accuratePolBox_of _ (by decide) (by decide) (par := []) (npar := []) (flds := []) rfl rfl rfl (by decide +kernel)
theorem gga_x_pw86_accurateUnpol : AccurateUnpol 80 {params := ["aa", "bb", "cc"]} .gga gga_x_pw86 :=
  accurateUnpol_of _ (par := [24929, 25186, 25443]) (npar := []) (flds := []) (by simp [nameCode, nameCodeChars]) rfl rfl (by decide +kernel)
theorem gga_x_pw86_accuratePolBox : AccuratePolBox true 4 6 131413 {params := ["aa", "bb", "cc"]} .gga gga_x_pw86 :=
  accuratePolBox_of _ (by decide) (by decide) (par := [24929, 25186, 25443]) (npar := []) (flds := []) (by simp [nameCode, nameCodeChars]) rfl rfl (by decide +kernel)
theorem gga_x_q1d_accurateUnpolBox : AccurateUnpolBox false 2 3 28535 {} .gga gga_x_q1d :=
  accurateUnpolBox_of _ (by decide) (by decide) (par := []) (npar := []) (flds := []) rfl rfl rfl (by decide +kernel)
theorem gga_x_q1d_accuratePolBox : AccuratePolBox false 2 3 50392 {} .gga gga_x_q1d :=
  accuratePolBox_of _ (by decide) (by decide) (par := []) (npar := []) (flds := []) rfl rfl rfl (by decide +kernel)
theorem gga_x_q2d_accurateUnpolBox : AccurateUnpolBox true 2 3 2704 {sPos := true} .gga gga_x_q2d :=
  accurateUnpolBox_of _ (by decide) (by decide) (par := []) (npar := []) (flds := []) rfl rfl rfl (by decide +kernel)
theorem gga_x_q2d_accuratePolBox : AccuratePolBox true 2 3 1481 {sPos := true} .gga gga_x_q2d :=
  accuratePolBox_of _ (by decide) (by decide) (par := []) (npar := []) (flds := []) rfl rfl rfl (by decide +kernel)
theorem gga_x_rge2_accurateUnpol : AccurateUnpol 73 {} .gga gga_x_rge2 :=
  accurateUnpol_of _ (par := []) (npar := []) (flds := []) rfl rfl rfl (by decide +kernel)
theorem gga_x_rge2_accuratePolBox : AccuratePolBox true 4 6 131403 {} .gga gga_x_rge2 :=
  accuratePolBox_of _ (by decide) (by decide) (par := []) (npar := []) (flds := []) rfl rfl rfl (by decide +kernel)
theorem gga_x_rpbe_accurateUnpolBox : AccurateUnpolBox true 10 6 2096476 {params := ["rpbe_kappa", "rpbe_mu"]} .gga gga_x_rpbe :=
  accurateUnpolBox_of _ (by decide) (by decide) (par := [540422904561498189754465, 32211715254873461]) (npar := []) (flds := []) (by simp [nameCode, nameCodeChars]) rfl rfl (by decide +kernel)
theorem gga_x_rpbe_accuratePolBox : AccuratePolBox true 4 6 1999970 {params := ["rpbe_kappa", "rpbe_mu"]} .gga gga_x_rpbe :=
  accuratePolBox_of _ (by decide) (by decide) (par := [540422904561498189754465, 32211715254873461]) (npar := []) (flds := []) (by simp [nameCode, nameCodeChars]) rfl rfl (by decide +kernel)
theorem gga_x_s12_accurateUnpolBox : AccurateUnpolBox false 10 6 3079639 {params := ["C", "D", "E"]} .gga gga_x_s12 :=
  accurateUnpolBox_of _ (by decide) (by decide) (par := [67, 68, 69]) (npar := []) (flds := []) (by simp [nameCode, nameCodeChars]) rfl rfl (by decide +kernel)
theorem gga_x_s12_accuratePolBox : AccuratePolBox false 4 6 3176319173 {params := ["C", "D", "E"]} .gga gga_x_s12 :=
  accuratePolBox_of _ (by decide) (by decide) (par := [67, 68, 69]) (npar := []) (flds := []) (by simp [nameCode, nameCodeChars]) rfl rfl (by decide +kernel)
theorem gga_x_sg4_accurateUnpolBox : AccurateUnpolBox true 2 3 59 {} .gga gga_x_sg4 :=
  accurateUnpolBox_of _ (by decide) (by decide) (par := []) (npar := []) (flds := []) rfl rfl rfl (by decide +kernel)
theorem gga_x_sg4_accuratePolBox : AccuratePolBox true 2 3 585 {} .gga gga_x_sg4 :=
  accuratePolBox_of _ (by decide) (by decide) (par := []) (npar := []) (flds := []) rfl rfl rfl (by decide +kernel)
theorem gga_x_sogga11_accurateUnpolBox : AccurateUnpolBox false 10 6 234612786 {params := ["kappa", "mu"]} .gga gga_x_sogga11 :=
  accurateUnpolBox_of _ (by decide) (by decide) (par := [461196259425, 28021]) (npar := []) (flds := []) (by simp [nameCode, nameCodeChars]) rfl rfl (by decide +kernel)
theorem gga_x_sogga11_accuratePolBox : AccuratePolBox false 4 6 462707190 {params := ["kappa", "mu"]} .gga gga_x_sogga11 :=
  accuratePolBox_of _ (by decide) (by decide) (par := [461196259425, 28021]) (npar := []) (flds := []) (by simp [nameCode, nameCodeChars]) rfl rfl (by decide +kernel)
theorem gga_x_ssb_sw_accurateUnpolBox : AccurateUnpolBox false 4 6 19827070 {params := ["C", "E"]} .gga gga_x_ssb_sw :=
  accurateUnpolBox_of _ (by decide) (by decide) (par := [67, 69]) (npar := []) (flds := []) (by simp [nameCode, nameCodeChars]) rfl rfl (by decide +kernel)
theorem gga_x_ssb_sw_accuratePolBox : AccuratePolBox false 4 6 21286174801 {params := ["C", "E"]} .gga gga_x_ssb_sw :=
  accuratePolBox_of _ (by decide) (by decide) (par := [67, 69]) (npar := []) (flds := []) (by simp [nameCode, nameCodeChars]) rfl rfl (by decide +kernel)
theorem gga_x_vmt_accurateUnpol : AccurateUnpol 34312 {params := ["mu"]} .gga gga_x_vmt :=
  accurateUnpol_of _ (par := [28021]) (npar := []) (flds := []) (by simp [nameCode, nameCodeChars]) rfl rfl (by decide +kernel)
theorem gga_x_vmt_accuratePolBox : AccuratePolBox true 4 6 160648 {params := ["mu"]} .gga gga_x_vmt :=
  accuratePolBox_of _ (by decide) (by decide) (par := [28021]) (npar := []) (flds := []) (by simp [nameCode, nameCodeChars]) rfl rfl (by decide +kernel)
theorem gga_x_vmt84_accurateUnpolBox : AccurateUnpolBox false 2 3 101293841 {sPos := true, params := ["alpha", "mu"]} .gga gga_x_vmt84 :=
  accurateUnpolBox_of _ (by decide) (by decide) (par := [418431133793, 28021]) (npar := []) (flds := []) (by simp [nameCode, nameCodeChars]) rfl rfl (by decide +kernel)
theorem gga_x_vmt84_accuratePolBox : AccuratePolBox false 2 3 190009451 {sPos := true, params := ["alpha", "mu"]} .gga gga_x_vmt84 :=
  accuratePolBox_of _ (by decide) (by decide) (par := [418431133793, 28021]) (npar := []) (flds := []) (by simp [nameCode, nameCodeChars]) rfl rfl (by decide +kernel)
theorem gga_x_wc_accurateUnpolBox : AccurateUnpolBox true 4 6 1912277 {} .gga gga_x_wc :=
  accurateUnpolBox_of _ (by decide) (by decide) (par := []) (npar := []) (flds := []) rfl rfl rfl (by decide +kernel)
theorem gga_x_wc_accuratePolBox : AccuratePolBox true 4 6 732800 {} .gga gga_x_wc :=
  accuratePolBox_of _ (by decide) (by decide) (par := []) (npar := []) (flds := []) rfl rfl rfl (by decide +kernel)
theorem gga_xc_b97_accurateUnpolBox : AccurateUnpolBox false 2 3 12648240441 {} .gga gga_xc_b97 :=
  accurateUnpolBox_of _ (by decide) (by decide) (par := []) (npar := []) (flds := []) rfl rfl rfl (by decide +kernel)
theorem gga_xc_b97_accuratePolBox : AccuratePolBox false 2 3 16060303698 {} .gga gga_xc_b97 :=
  accuratePolBox_of _ (by decide) (by decide) (par := []) (npar := []) (flds := []) rfl rfl rfl (by decide +kernel)

end Verif.Props
