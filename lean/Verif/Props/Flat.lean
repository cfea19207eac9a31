import Verif.Norm.IntervalSound
import Verif.Data.All
/-!
# C50: formulas that give `nan` where the gradient vanishes
-/
set_option Elab.async false
set_option maxRecDepth 100000
namespace Verif.Props
open Verif.Py Verif.Model Verif.Spec Verif.Norm Verif.Data

theorem gga_c_q2d_nanPol (tau0 : Bool) : NanPol tau0 .gga gga_c_q2d :=
  nanPol_of (by cases tau0 <;> decide +kernel)
theorem gga_c_q2d_nanUnpol (tau0 : Bool) : NanUnpol tau0 .gga gga_c_q2d :=
  nanUnpol_of (by cases tau0 <;> decide +kernel)
theorem gga_k_meyer_nanPol (tau0 : Bool) : NanPol tau0 .gga gga_k_meyer :=
  nanPol_of (by cases tau0 <;> decide +kernel)
theorem gga_k_meyer_nanUnpol (tau0 : Bool) : NanUnpol tau0 .gga gga_k_meyer :=
  nanUnpol_of (by cases tau0 <;> decide +kernel)
theorem gga_x_chachiyo_nanPol (tau0 : Bool) : NanPol tau0 .gga gga_x_chachiyo :=
  nanPol_of (by cases tau0 <;> decide +kernel)
theorem gga_x_chachiyo_nanUnpol (tau0 : Bool) : NanUnpol tau0 .gga gga_x_chachiyo :=
  nanUnpol_of (by cases tau0 <;> decide +kernel)
theorem gga_x_vmt84_nanPol (tau0 : Bool) : NanPol tau0 .gga gga_x_vmt84 :=
  nanPol_of (by cases tau0 <;> decide +kernel)
theorem gga_x_vmt84_nanUnpol (tau0 : Bool) : NanUnpol tau0 .gga gga_x_vmt84 :=
  nanUnpol_of (by cases tau0 <;> decide +kernel)
theorem hyb_mgga_xc_wb97mv_nanPol : NanPol true .mgga hyb_mgga_xc_wb97mv := nanPol_of (by decide +kernel)
theorem hyb_mgga_xc_wb97mv_nanUnpol : NanUnpol true .mgga hyb_mgga_xc_wb97mv := nanUnpol_of (by decide +kernel)
theorem mgga_c_bc95_nanPol : NanPol true .mgga mgga_c_bc95 := nanPol_of (by decide +kernel)
theorem mgga_c_bc95_nanUnpol : NanUnpol true .mgga mgga_c_bc95 := nanUnpol_of (by decide +kernel)
theorem mgga_c_cc_nanPol : NanPol true .mgga mgga_c_cc := nanPol_of (by decide +kernel)
theorem mgga_c_ccalda_nanPol : NanPol true .mgga mgga_c_ccalda := nanPol_of (by decide +kernel)
theorem mgga_c_kcis_nanPol : NanPol true .mgga mgga_c_kcis := nanPol_of (by decide +kernel)
theorem mgga_c_kcis_nanUnpol : NanUnpol true .mgga mgga_c_kcis := nanUnpol_of (by decide +kernel)
theorem mgga_c_kcisk_nanPol : NanPol true .mgga mgga_c_kcisk := nanPol_of (by decide +kernel)
theorem mgga_c_kcisk_nanUnpol : NanUnpol true .mgga mgga_c_kcisk := nanUnpol_of (by decide +kernel)
theorem mgga_c_m05_nanPol : NanPol true .mgga mgga_c_m05 := nanPol_of (by decide +kernel)
theorem mgga_c_m05_nanUnpol : NanUnpol true .mgga mgga_c_m05 := nanUnpol_of (by decide +kernel)
theorem mgga_c_m06l_nanPol : NanPol true .mgga mgga_c_m06l := nanPol_of (by decide +kernel)
theorem mgga_c_m06l_nanUnpol : NanUnpol true .mgga mgga_c_m06l := nanUnpol_of (by decide +kernel)
theorem mgga_c_pkzb_nanPol : NanPol true .mgga mgga_c_pkzb := nanPol_of (by decide +kernel)
theorem mgga_c_pkzb_nanUnpol : NanUnpol true .mgga mgga_c_pkzb := nanUnpol_of (by decide +kernel)
theorem mgga_c_revtpss_nanPol : NanPol true .mgga mgga_c_revtpss := nanPol_of (by decide +kernel)
theorem mgga_c_revtpss_nanUnpol : NanUnpol true .mgga mgga_c_revtpss := nanUnpol_of (by decide +kernel)
theorem mgga_c_tpss_nanPol : NanPol true .mgga mgga_c_tpss := nanPol_of (by decide +kernel)
theorem mgga_c_tpss_nanUnpol : NanUnpol true .mgga mgga_c_tpss := nanUnpol_of (by decide +kernel)
theorem mgga_c_tpssloc_nanPol : NanPol true .mgga mgga_c_tpssloc := nanPol_of (by decide +kernel)
theorem mgga_c_tpssloc_nanUnpol : NanUnpol true .mgga mgga_c_tpssloc := nanUnpol_of (by decide +kernel)
theorem mgga_c_vsxc_nanPol : NanPol true .mgga mgga_c_vsxc := nanPol_of (by decide +kernel)
theorem mgga_c_vsxc_nanUnpol : NanUnpol true .mgga mgga_c_vsxc := nanUnpol_of (by decide +kernel)
theorem mgga_x_regtpss_nanPol : NanPol true .mgga mgga_x_regtpss := nanPol_of (by decide +kernel)
theorem mgga_x_regtpss_nanUnpol : NanUnpol true .mgga mgga_x_regtpss := nanUnpol_of (by decide +kernel)
theorem mgga_x_rtpss_nanPol : NanPol true .mgga mgga_x_rtpss := nanPol_of (by decide +kernel)
theorem mgga_x_rtpss_nanUnpol : NanUnpol true .mgga mgga_x_rtpss := nanUnpol_of (by decide +kernel)
theorem mgga_x_sa_tpss_nanPol : NanPol true .mgga mgga_x_sa_tpss := nanPol_of (by decide +kernel)
theorem mgga_x_sa_tpss_nanUnpol : NanUnpol true .mgga mgga_x_sa_tpss := nanUnpol_of (by decide +kernel)
theorem mgga_x_th_nanPol : NanPol true .mgga mgga_x_th := nanPol_of (by decide +kernel)
theorem mgga_x_th_nanUnpol : NanUnpol true .mgga mgga_x_th := nanUnpol_of (by decide +kernel)
theorem mgga_x_tpss_nanPol : NanPol true .mgga mgga_x_tpss := nanPol_of (by decide +kernel)
theorem mgga_x_tpss_nanUnpol : NanUnpol true .mgga mgga_x_tpss := nanUnpol_of (by decide +kernel)
theorem mgga_x_vt84_nanPol : NanPol true .mgga mgga_x_vt84 := nanPol_of (by decide +kernel)
theorem mgga_x_vt84_nanUnpol : NanUnpol true .mgga mgga_x_vt84 := nanUnpol_of (by decide +kernel)
theorem mgga_xc_b97mv_nanPol : NanPol true .mgga mgga_xc_b97mv := nanPol_of (by decide +kernel)
theorem mgga_xc_b97mv_nanUnpol : NanUnpol true .mgga mgga_xc_b97mv := nanUnpol_of (by decide +kernel)
theorem mgga_xc_b98_nanPol : NanPol true .mgga mgga_xc_b98 := nanPol_of (by decide +kernel)
theorem mgga_xc_b98_nanUnpol : NanUnpol true .mgga mgga_xc_b98 := nanUnpol_of (by decide +kernel)

end Verif.Props
