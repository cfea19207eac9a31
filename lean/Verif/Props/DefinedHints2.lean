import Verif.Norm.HintsMore
import Verif.Py.KernelRfl
import Verif.Props.Static1
import Verif.Props.Static2
import Verif.Props.Static3
import Verif.Props.Static4
/-!
# C49: formulas that are defined on their domain, by hints

Generated.  `X_polHintN` and `X_unpolHintN` bound a part of a formula where interval analysis alone is too weak.
-/
set_option Elab.async false
set_option maxRecDepth 100000
namespace Verif.Props
open Verif.Py Verif.Model Verif.Spec Verif.Norm Verif.Data Verif.Lib

prog hyb_mgga_x_js18_polHint0_e "res = 0.1e1 + 0.5e1 / 0.12e2 * (0.10e2 / 0.81e2 + 0.25e2 / 0.8748e4 * t65) * t53 * t57 * s0 * t63 + 0.292e3 / 0.405e3 * t431 - 0.146e3 / 0.135e3 * t430 * t35 * (0.1e1 - t35)"
prog hyb_mgga_x_js18_polHint0_q "t33 = s0 / r0 / tau0 / 0.8e1
t35 = lax_cond(t33 < 0.10e1, t33, 0.10e1)
t53 = 6 ** (0.1e1 / 0.3e1)
t54 = math.pi ** 2
t55 = t54 ** (0.1e1 / 0.3e1)
t56 = t55 ** 2
t57 = 0.1e1 / t56
t58 = t53 * t57
t59 = r0 ** 2
t60 = r0 ** (0.1e1 / 0.3e1)
t61 = t60 ** 2
t63 = 0.1e1 / t61 / t59
t64 = s0 * t63
t65 = t58 * t64
t248 = tau0 / t61 / r0
t430 = (t248 - t64 / 0.8e1) * t53 * t57 / 0.4e1 - 0.9e1 / 0.20e2 + t65 / 0.36e2
t100001 = 292.0 * (t430 * t430) - 438.0 * (t430 * (t35 * (0.1e1 - t35))) + 165.0 * ((t35 * (0.1e1 - t35)) * (t35 * (0.1e1 - t35)))
res = 0.1e1 + 0.5e1 / 0.12e2 * (0.10e2 / 0.81e2 + 0.25e2 / 0.8748e4 * t65) * t53 * t57 * s0 * t63 + t100001 / 0.405e3 - 165.0 / 0.405e3 * (t35 * (0.1e1 - t35)) * (t35 * (0.1e1 - t35))"
prog hyb_mgga_x_js18_polHint0_0_e "res = 292.0 * (t430 * t430) - 438.0 * (t430 * (t35 * (0.1e1 - t35))) + 165.0 * ((t35 * (0.1e1 - t35)) * (t35 * (0.1e1 - t35)))"
theorem hyb_mgga_x_js18_polHint0_0 : PolHint {tPos := true, flds := [.camOmega]} .mgga hyb_mgga_x_js18_polHint0_q ⟨16, hyb_mgga_x_js18_polHint0_0_e.res, nn⟩ :=
  polHint_quad (by norm_num)
theorem hyb_mgga_x_js18_polHint0 : PolHint {tPos := true, flds := [.camOmega]} .mgga hyb_mgga_x_js18.polBody ⟨135, hyb_mgga_x_js18_polHint0_e.res, pos⟩ :=
  polHint_rw 1000 hyb_mgga_x_js18_polHint0_q (hs := [⟨16, hyb_mgga_x_js18_polHint0_0_e.res, nn⟩]) (fc hyb_mgga_x_js18_polHint0_0 fn) (par := []) (npar := []) (flds := [2]) rfl rfl rfl (by decide +kernel) (by decide +kernel)
prog hyb_mgga_x_js18_polHint1_e "res = 0.1e1 + 0.5e1 / 0.12e2 * (0.10e2 / 0.81e2 + 0.25e2 / 0.8748e4 * t490) * t53 * t57 * s2 * t488 + 0.292e3 / 0.405e3 * t845 - 0.146e3 / 0.135e3 * t844 * t475 * (0.1e1 - t475)"
prog hyb_mgga_x_js18_polHint1_q "t53 = 6 ** (0.1e1 / 0.3e1)
t54 = math.pi ** 2
t55 = t54 ** (0.1e1 / 0.3e1)
t56 = t55 ** 2
t57 = 0.1e1 / t56
t58 = t53 * t57
t473 = s2 / r1 / tau1 / 0.8e1
t475 = lax_cond(t473 < 0.10e1, t473, 0.10e1)
t484 = r1 ** 2
t485 = r1 ** (0.1e1 / 0.3e1)
t486 = t485 ** 2
t488 = 0.1e1 / t486 / t484
t489 = s2 * t488
t490 = t58 * t489
t664 = tau1 / t486 / r1
t844 = (t664 - t489 / 0.8e1) * t53 * t57 / 0.4e1 - 0.9e1 / 0.20e2 + t490 / 0.36e2
t100001 = 292.0 * (t844 * t844) - 438.0 * (t844 * (t475 * (0.1e1 - t475))) + 165.0 * ((t475 * (0.1e1 - t475)) * (t475 * (0.1e1 - t475)))
res = 0.1e1 + 0.5e1 / 0.12e2 * (0.10e2 / 0.81e2 + 0.25e2 / 0.8748e4 * t490) * t53 * t57 * s2 * t488 + t100001 / 0.405e3 - 165.0 / 0.405e3 * (t475 * (0.1e1 - t475)) * (t475 * (0.1e1 - t475))"
prog hyb_mgga_x_js18_polHint1_0_e "res = 292.0 * (t844 * t844) - 438.0 * (t844 * (t475 * (0.1e1 - t475))) + 165.0 * ((t475 * (0.1e1 - t475)) * (t475 * (0.1e1 - t475)))"
theorem hyb_mgga_x_js18_polHint1_0 : PolHint {tPos := true, flds := [.camOmega]} .mgga hyb_mgga_x_js18_polHint1_q ⟨16, hyb_mgga_x_js18_polHint1_0_e.res, nn⟩ :=
  polHint_quad (by norm_num)
theorem hyb_mgga_x_js18_polHint1 : PolHint {tPos := true, flds := [.camOmega]} .mgga hyb_mgga_x_js18.polBody ⟨241, hyb_mgga_x_js18_polHint1_e.res, pos⟩ :=
  polHint_rw 1000 hyb_mgga_x_js18_polHint1_q (hs := [⟨16, hyb_mgga_x_js18_polHint1_0_e.res, nn⟩]) (fc hyb_mgga_x_js18_polHint1_0 fn) (par := []) (npar := []) (flds := [2]) rfl rfl rfl (by decide +kernel) (by decide +kernel)
theorem hyb_mgga_x_js18_definedPol : DefinedPol {tPos := true, flds := [.camOmega]} .mgga hyb_mgga_x_js18 :=
  definedPolH_of _ hyb_mgga_x_js18_neverRaises (hs := [⟨135, hyb_mgga_x_js18_polHint0_e.res, pos⟩, ⟨241, hyb_mgga_x_js18_polHint1_e.res, pos⟩]) (fc hyb_mgga_x_js18_polHint0 (fc hyb_mgga_x_js18_polHint1 fn)) (par := []) (npar := []) (flds := [2]) rfl rfl rfl (by decide +kernel)

prog hyb_mgga_x_js18_unpolHint0_e "res = 0.1e1 + 0.5e1 / 0.12e2 * (0.10e2 / 0.81e2 + 0.25e2 / 0.8748e4 * t59) * t45 * t49 * t58 + 0.292e3 / 0.405e3 * t418 - 0.146e3 / 0.135e3 * t417 * t27 * (0.1e1 - t27)"
prog hyb_mgga_x_js18_unpolHint0_q "t19 = r0 ** (0.1e1 / 0.3e1)
t25 = s0 / r0 / tau0 / 0.8e1
t27 = lax_cond(t25 < 0.10e1, t25, 0.10e1)
t45 = 6 ** (0.1e1 / 0.3e1)
t46 = math.pi ** 2
t47 = t46 ** (0.1e1 / 0.3e1)
t48 = t47 ** 2
t49 = 0.1e1 / t48
t50 = t45 * t49
t51 = 2 ** (0.1e1 / 0.3e1)
t52 = t51 ** 2
t53 = s0 * t52
t54 = r0 ** 2
t55 = t19 ** 2
t57 = 0.1e1 / t55 / t54
t58 = t53 * t57
t59 = t50 * t58
t235 = tau0 * t52 / t55 / r0
t417 = (t235 - t58 / 0.8e1) * t45 * t49 / 0.4e1 - 0.9e1 / 0.20e2 + t59 / 0.36e2
t100001 = 292.0 * (t417 * t417) - 438.0 * (t417 * (t27 * (0.1e1 - t27))) + 165.0 * ((t27 * (0.1e1 - t27)) * (t27 * (0.1e1 - t27)))
res = 0.1e1 + 0.5e1 / 0.12e2 * (0.10e2 / 0.81e2 + 0.25e2 / 0.8748e4 * t59) * t45 * t49 * t58 + t100001 / 0.405e3 - 165.0 / 0.405e3 * (t27 * (0.1e1 - t27)) * (t27 * (0.1e1 - t27))"
prog hyb_mgga_x_js18_unpolHint0_0_e "res = 292.0 * (t417 * t417) - 438.0 * (t417 * (t27 * (0.1e1 - t27))) + 165.0 * ((t27 * (0.1e1 - t27)) * (t27 * (0.1e1 - t27)))"
theorem hyb_mgga_x_js18_unpolHint0_0 : UnpolHint {tPos := true, flds := [.camOmega]} .mgga hyb_mgga_x_js18_unpolHint0_q ⟨19, hyb_mgga_x_js18_unpolHint0_0_e.res, nn⟩ :=
  unpolHint_quad (by norm_num)
theorem hyb_mgga_x_js18_unpolHint0 : UnpolHint {tPos := true, flds := [.camOmega]} .mgga hyb_mgga_x_js18.unpolBody ⟨123, hyb_mgga_x_js18_unpolHint0_e.res, pos⟩ :=
  unpolHint_rw 1000 hyb_mgga_x_js18_unpolHint0_q (hs := [⟨19, hyb_mgga_x_js18_unpolHint0_0_e.res, nn⟩]) (fc hyb_mgga_x_js18_unpolHint0_0 fn) (par := []) (npar := []) (flds := [2]) rfl rfl rfl (by decide +kernel) (by decide +kernel)
theorem hyb_mgga_x_js18_definedUnpol : DefinedUnpol {tPos := true, flds := [.camOmega]} .mgga hyb_mgga_x_js18 :=
  definedUnpolH_of _ hyb_mgga_x_js18_neverRaises (hs := [⟨123, hyb_mgga_x_js18_unpolHint0_e.res, pos⟩]) (fc hyb_mgga_x_js18_unpolHint0 fn) (par := []) (npar := []) (flds := [2]) rfl rfl rfl (by decide +kernel)

prog mgga_c_pkzb_unpolHint0_e "res = -t41 + t66"
prog mgga_c_pkzb_unpolHint0_q "t10 = 3 ** (0.1e1 / 0.3e1)
t12 = (0.1e1 / math.pi) ** (0.1e1 / 0.3e1)
t13 = t10 * t12
t14 = 4 ** (0.1e1 / 0.3e1)
t15 = t14 ** 2
t16 = r0 ** (0.1e1 / 0.3e1)
t17 = 0.1e1 / t16
t19 = t13 * t15 * t17
t22 = math.sqrt(t19)
t25 = t19 ** 0.15e1
t27 = t10 ** 2
t28 = t12 ** 2
t29 = t27 * t28
t30 = t16 ** 2
t31 = 0.1e1 / t30
t33 = t29 * t14 * t31
t39 = math.log(0.1e1 + 0.16081979498692535067e2 / (0.37978500000000000000e1 * t22 + 0.89690000000000000000e0 * t19 + 0.20477500000000000000e0 * t25 + 0.12323500000000000000e0 * t33))
t41 = 0.621814e-1 * (0.1e1 + 0.53425000000000000000e-1 * t19) * t39
res = -t41"
theorem mgga_c_pkzb_unpolHint0 : UnpolHint {tPos := true, zetaSmall := true} .mgga mgga_c_pkzb.unpolBody ⟨43, mgga_c_pkzb_unpolHint0_e.res, pos.neg⟩ :=
  unpolHint_rwz 1000 mgga_c_pkzb_unpolHint0_q (hs := []) fn (par := []) (npar := []) (flds := []) rfl rfl rfl (by decide +kernel) (by decide +kernel)
prog mgga_c_pkzb_unpolHint1_e "res = -t157 + t192 + t194"
prog mgga_c_pkzb_unpolHint1_q "t10 = 3 ** (0.1e1 / 0.3e1)
t12 = (0.1e1 / math.pi) ** (0.1e1 / 0.3e1)
t13 = t10 * t12
t14 = 4 ** (0.1e1 / 0.3e1)
t15 = t14 ** 2
t16 = r0 ** (0.1e1 / 0.3e1)
t17 = 0.1e1 / t16
t42 = 0.1e1 <= p_a_zeta_threshold
t43 = p_a_zeta_threshold ** (0.1e1 / 0.3e1)
t44 = t43 * p_a_zeta_threshold
t48 = 2 ** (0.1e1 / 0.3e1)
t51 = 0.1e1 / (0.2e1 * t48 - 0.2e1)
t135 = lax_cond(t42, 0.1e1 / t43, 1)
t137 = t13 * t15 * t17 * t48 * t135
t158 = 0.2e1 <= p_a_zeta_threshold
t160 = lax_cond(t158, t44, 0.2e1 * t48)
t161 = 0.0e0 <= p_a_zeta_threshold
t162 = lax_cond(t161, t44, 0)
t164 = (t160 + t162 - 0.2e1) * t51
res = (t164 - 0.1e1) * (0.621814e-1 * (0.1e1 + 0.53425e-1 * t137) * math.log(0.1e1 + 0.16081979498692535067e2 / (0.379785e1 * math.sqrt(t137) + 0.8969e0 * t137 + 0.204775e0 * t137 ** 0.15e1 + 0.123235e0 * (t137 * t137 / 0.4e1)))) - t164 * (0.310907e-1 * (0.1e1 + 0.5137e-1 * t137) * math.log(0.1e1 + 0.32163958997385070134e2 / (0.705945e1 * math.sqrt(t137) + 0.1549425e1 * t137 + 0.420775e0 * t137 ** 0.15e1 + 0.1562925e0 * (t137 * t137 / 0.4e1))))"
prog mgga_c_pkzb_unpolHint1_0F_e "res = t164"
prog mgga_c_pkzb_unpolHint1_0F_q "t43 = p_a_zeta_threshold ** (0.1e1 / 0.3e1)
t44 = t43 * p_a_zeta_threshold
t48 = 2 ** (0.1e1 / 0.3e1)
res = (0.2e1 * t48 + t44 - 0.2e1) / (0.2e1 * t48 - 0.2e1)"
theorem mgga_c_pkzb_unpolHint1_0F_0 : UnpolHint {tPos := true, zetaSmall := true} .mgga mgga_c_pkzb_unpolHint1_0F_q ⟨0, .fld .zetaThreshold, ⟨.fin (Int.ofNat 0) true, .fin (Int.negOfNat 1844674407370955162) false⟩⟩ :=
  unpolHint_zs rfl
theorem mgga_c_pkzb_unpolHint1_0F_1 : UnpolHint {tPos := true, zetaSmall := true} .mgga mgga_c_pkzb_unpolHint1_0F_q ⟨1, .fld .zetaThreshold, ⟨.fin (Int.ofNat 0) true, .fin (Int.negOfNat 1844674407370955162) false⟩⟩ :=
  unpolHint_zs rfl
theorem mgga_c_pkzb_unpolHint1_0F : UnpolHint {tPos := true, zetaSmall := true} .mgga mgga_c_pkzb_unpolHint1_q ⟨19, mgga_c_pkzb_unpolHint1_0F_e.res, ⟨.fin (Int.ofNat 0) false, .fin (Int.negOfNat 20291418481080506777) false⟩⟩ :=
  unpolHint_rwz 1000 mgga_c_pkzb_unpolHint1_0F_q (hs := [⟨0, .fld .zetaThreshold, ⟨.fin (Int.ofNat 0) true, .fin (Int.negOfNat 1844674407370955162) false⟩⟩, ⟨1, .fld .zetaThreshold, ⟨.fin (Int.ofNat 0) true, .fin (Int.negOfNat 1844674407370955162) false⟩⟩]) (fc mgga_c_pkzb_unpolHint1_0F_0 (fc mgga_c_pkzb_unpolHint1_0F_1 fn)) (par := []) (npar := []) (flds := []) rfl rfl rfl (by decide +kernel) (by decide +kernel)
prog mgga_c_pkzb_unpolHint1_0X_e "res = t137"
theorem mgga_c_pkzb_unpolHint1_0 : UnpolHint {tPos := true, zetaSmall := true} .mgga mgga_c_pkzb_unpolHint1_q ⟨19, pwfE 621814 (-7) 310907 (-7) 16081979498692535067 (-18) 32163958997385070134 (-18) mgga_c_pkzb_unpolHint1_0F_e.res mgga_c_pkzb_unpolHint1_0X_e.res, pos.neg⟩ :=
  unpolHint_pwf mgga_c_pkzb_unpolHint1_0F (by norm_num)
theorem mgga_c_pkzb_unpolHint1 : UnpolHint {tPos := true, zetaSmall := true} .mgga mgga_c_pkzb.unpolBody ⟨76, mgga_c_pkzb_unpolHint1_e.res, pos.neg⟩ :=
  unpolHint_rwz 1000 mgga_c_pkzb_unpolHint1_q (hs := [⟨19, pwfE 621814 (-7) 310907 (-7) 16081979498692535067 (-18) 32163958997385070134 (-18) mgga_c_pkzb_unpolHint1_0F_e.res mgga_c_pkzb_unpolHint1_0X_e.res, pos.neg⟩]) (fc mgga_c_pkzb_unpolHint1_0 fn) (par := []) (npar := []) (flds := []) rfl rfl rfl (by decide +kernel) (by decide +kernel)
theorem mgga_c_pkzb_definedUnpol : DefinedUnpol {tPos := true, zetaSmall := true} .mgga mgga_c_pkzb :=
  definedUnpolH_of _ mgga_c_pkzb_neverRaises (hs := [⟨43, mgga_c_pkzb_unpolHint0_e.res, pos.neg⟩, ⟨76, mgga_c_pkzb_unpolHint1_e.res, pos.neg⟩]) (fc mgga_c_pkzb_unpolHint0 (fc mgga_c_pkzb_unpolHint1 fn)) (par := []) (npar := []) (flds := []) rfl rfl rfl (by decide +kernel)

prog mgga_c_revtpss_unpolHint0_e "res = 0.1e1 + (0.1e1 - t14) * (t18 * t23 * t27 * t25 + t18 * t23 * t34 * t32 - s0 * t23) * t41 / t44 * (0.1e1 / t48 + 0.1e1 / t51) / 0.24e2"
prog mgga_c_revtpss_unpolHint0_q "res = 0.1e1"
theorem mgga_c_revtpss_unpolHint0 : UnpolHint {tPos := true, zetaSmall := true} .mgga mgga_c_revtpss.unpolBody ⟨30, mgga_c_revtpss_unpolHint0_e.res, pos⟩ :=
  unpolHint_rwz 1000 mgga_c_revtpss_unpolHint0_q (hs := []) fn (par := []) (npar := []) (flds := []) rfl rfl rfl (by decide +kernel) (by decide +kernel)
prog mgga_c_revtpss_unpolHint1_e "res = -t130 + t146 + t183"
prog mgga_c_revtpss_unpolHint1_q "t20 = r0 ** (0.1e1 / 0.3e1)
t21 = t20 ** 2
t41 = 3 ** (0.1e1 / 0.3e1)
t77 = (0.1e1 / math.pi) ** (0.1e1 / 0.3e1)
t78 = t41 * t77
t79 = 4 ** (0.1e1 / 0.3e1)
t80 = t79 ** 2
t81 = 0.1e1 / t20
t83 = t78 * t80 * t81
t86 = math.sqrt(t83)
t89 = t83 ** 0.15e1
t91 = t41 ** 2
t92 = t77 ** 2
t93 = t91 * t92
t94 = 0.1e1 / t21
t96 = t93 * t79 * t94
t102 = math.log(0.1e1 + 0.16081979498692535067e2 / (0.37978500000000000000e1 * t86 + 0.89690000000000000000e0 * t83 + 0.20477500000000000000e0 * t89 + 0.12323500000000000000e0 * t96))
t103 = (0.1e1 + 0.53425000000000000000e-1 * t83) * t102
t130 = 0.621814e-1 * t103
res = -t130"
theorem mgga_c_revtpss_unpolHint1 : UnpolHint {tPos := true, zetaSmall := true} .mgga mgga_c_revtpss.unpolBody ⟨85, mgga_c_revtpss_unpolHint1_e.res, pos.neg⟩ :=
  unpolHint_rwz 1000 mgga_c_revtpss_unpolHint1_q (hs := []) fn (par := []) (npar := []) (flds := []) rfl rfl rfl (by decide +kernel) (by decide +kernel)
prog mgga_c_revtpss_unpolHint2_e "res = -t252 + t287 + t289"
prog mgga_c_revtpss_unpolHint2_q "t9 = 0.1e1 <= p_a_zeta_threshold
t10 = p_a_zeta_threshold - 0.1e1
t12 = lax_cond(t9, -t10, 0)
t13 = lax_cond(t9, t10, t12)
t16 = 2 ** (0.1e1 / 0.3e1)
t20 = r0 ** (0.1e1 / 0.3e1)
t24 = 0.1e1 + t13
t41 = 3 ** (0.1e1 / 0.3e1)
t77 = (0.1e1 / math.pi) ** (0.1e1 / 0.3e1)
t78 = t41 * t77
t79 = 4 ** (0.1e1 / 0.3e1)
t80 = t79 ** 2
t81 = 0.1e1 / t20
t107 = p_a_zeta_threshold ** (0.1e1 / 0.3e1)
t108 = t107 * p_a_zeta_threshold
t116 = 0.1e1 / (0.2e1 * t16 - 0.2e1)
t227 = t78 * t80
t228 = t81 * t16
t230 = (0.1e1 / t24) ** (0.1e1 / 0.3e1)
t232 = t227 * t228 * t230
t253 = 0.2e1 <= p_a_zeta_threshold
t255 = lax_cond(t253, t108, 0.2e1 * t16)
t256 = 0.0e0 <= p_a_zeta_threshold
t257 = lax_cond(t256, t108, 0)
t259 = (t255 + t257 - 0.2e1) * t116
res = (t259 - 0.1e1) * (0.621814e-1 * (0.1e1 + 0.53425e-1 * t232) * math.log(0.1e1 + 0.16081979498692535067e2 / (0.379785e1 * math.sqrt(t232) + 0.8969e0 * t232 + 0.204775e0 * t232 ** 0.15e1 + 0.123235e0 * (t232 * t232 / 0.4e1)))) - t259 * (0.310907e-1 * (0.1e1 + 0.5137e-1 * t232) * math.log(0.1e1 + 0.32163958997385070134e2 / (0.705945e1 * math.sqrt(t232) + 0.1549425e1 * t232 + 0.420775e0 * t232 ** 0.15e1 + 0.1562925e0 * (t232 * t232 / 0.4e1))))"
prog mgga_c_revtpss_unpolHint2_0F_e "res = t259"
prog mgga_c_revtpss_unpolHint2_0F_q "t16 = 2 ** (0.1e1 / 0.3e1)
t107 = p_a_zeta_threshold ** (0.1e1 / 0.3e1)
t108 = t107 * p_a_zeta_threshold
res = (0.2e1 * t16 + t108 - 0.2e1) / (0.2e1 * t16 - 0.2e1)"
theorem mgga_c_revtpss_unpolHint2_0F_0 : UnpolHint {tPos := true, zetaSmall := true} .mgga mgga_c_revtpss_unpolHint2_0F_q ⟨1, .fld .zetaThreshold, ⟨.fin (Int.ofNat 0) true, .fin (Int.negOfNat 1844674407370955162) false⟩⟩ :=
  unpolHint_zs rfl
theorem mgga_c_revtpss_unpolHint2_0F_1 : UnpolHint {tPos := true, zetaSmall := true} .mgga mgga_c_revtpss_unpolHint2_0F_q ⟨2, .fld .zetaThreshold, ⟨.fin (Int.ofNat 0) true, .fin (Int.negOfNat 1844674407370955162) false⟩⟩ :=
  unpolHint_zs rfl
theorem mgga_c_revtpss_unpolHint2_0F : UnpolHint {tPos := true, zetaSmall := true} .mgga mgga_c_revtpss_unpolHint2_q ⟨25, mgga_c_revtpss_unpolHint2_0F_e.res, ⟨.fin (Int.ofNat 0) false, .fin (Int.negOfNat 20291418481080506777) false⟩⟩ :=
  unpolHint_rwz 1000 mgga_c_revtpss_unpolHint2_0F_q (hs := [⟨1, .fld .zetaThreshold, ⟨.fin (Int.ofNat 0) true, .fin (Int.negOfNat 1844674407370955162) false⟩⟩, ⟨2, .fld .zetaThreshold, ⟨.fin (Int.ofNat 0) true, .fin (Int.negOfNat 1844674407370955162) false⟩⟩]) (fc mgga_c_revtpss_unpolHint2_0F_0 (fc mgga_c_revtpss_unpolHint2_0F_1 fn)) (par := []) (npar := []) (flds := []) rfl rfl rfl (by decide +kernel) (by decide +kernel)
prog mgga_c_revtpss_unpolHint2_0X_e "res = t232"
theorem mgga_c_revtpss_unpolHint2_0 : UnpolHint {tPos := true, zetaSmall := true} .mgga mgga_c_revtpss_unpolHint2_q ⟨25, pwfE 621814 (-7) 310907 (-7) 16081979498692535067 (-18) 32163958997385070134 (-18) mgga_c_revtpss_unpolHint2_0F_e.res mgga_c_revtpss_unpolHint2_0X_e.res, pos.neg⟩ :=
  unpolHint_pwf mgga_c_revtpss_unpolHint2_0F (by norm_num)
theorem mgga_c_revtpss_unpolHint2 : UnpolHint {tPos := true, zetaSmall := true} .mgga mgga_c_revtpss.unpolBody ⟨131, mgga_c_revtpss_unpolHint2_e.res, pos.neg⟩ :=
  unpolHint_rwz 1000 mgga_c_revtpss_unpolHint2_q (hs := [⟨25, pwfE 621814 (-7) 310907 (-7) 16081979498692535067 (-18) 32163958997385070134 (-18) mgga_c_revtpss_unpolHint2_0F_e.res mgga_c_revtpss_unpolHint2_0X_e.res, pos.neg⟩]) (fc mgga_c_revtpss_unpolHint2_0 fn) (par := []) (npar := []) (flds := []) rfl rfl rfl (by decide +kernel) (by decide +kernel)
prog mgga_c_revtpss_unpolHint3_e "res = -t374 + t402 + t404"
prog mgga_c_revtpss_unpolHint3_q "t9 = 0.1e1 <= p_a_zeta_threshold
t10 = p_a_zeta_threshold - 0.1e1
t12 = lax_cond(t9, -t10, 0)
t13 = lax_cond(t9, t10, t12)
t16 = 2 ** (0.1e1 / 0.3e1)
t20 = r0 ** (0.1e1 / 0.3e1)
t31 = 0.1e1 - t13
t41 = 3 ** (0.1e1 / 0.3e1)
t77 = (0.1e1 / math.pi) ** (0.1e1 / 0.3e1)
t78 = t41 * t77
t79 = 4 ** (0.1e1 / 0.3e1)
t80 = t79 ** 2
t81 = 0.1e1 / t20
t107 = p_a_zeta_threshold ** (0.1e1 / 0.3e1)
t108 = t107 * p_a_zeta_threshold
t116 = 0.1e1 / (0.2e1 * t16 - 0.2e1)
t227 = t78 * t80
t228 = t81 * t16
t253 = 0.2e1 <= p_a_zeta_threshold
t255 = lax_cond(t253, t108, 0.2e1 * t16)
t256 = 0.0e0 <= p_a_zeta_threshold
t257 = lax_cond(t256, t108, 0)
t259 = (t255 + t257 - 0.2e1) * t116
t354 = (0.1e1 / t31) ** (0.1e1 / 0.3e1)
t356 = t227 * t228 * t354
res = (t259 - 0.1e1) * (0.621814e-1 * (0.1e1 + 0.53425e-1 * t356) * math.log(0.1e1 + 0.16081979498692535067e2 / (0.379785e1 * math.sqrt(t356) + 0.8969e0 * t356 + 0.204775e0 * t356 ** 0.15e1 + 0.123235e0 * (t356 * t356 / 0.4e1)))) - t259 * (0.310907e-1 * (0.1e1 + 0.5137e-1 * t356) * math.log(0.1e1 + 0.32163958997385070134e2 / (0.705945e1 * math.sqrt(t356) + 0.1549425e1 * t356 + 0.420775e0 * t356 ** 0.15e1 + 0.1562925e0 * (t356 * t356 / 0.4e1))))"
prog mgga_c_revtpss_unpolHint3_0F_e "res = t259"
prog mgga_c_revtpss_unpolHint3_0F_q "t16 = 2 ** (0.1e1 / 0.3e1)
t107 = p_a_zeta_threshold ** (0.1e1 / 0.3e1)
t108 = t107 * p_a_zeta_threshold
res = (0.2e1 * t16 + t108 - 0.2e1) / (0.2e1 * t16 - 0.2e1)"
theorem mgga_c_revtpss_unpolHint3_0F_0 : UnpolHint {tPos := true, zetaSmall := true} .mgga mgga_c_revtpss_unpolHint3_0F_q ⟨1, .fld .zetaThreshold, ⟨.fin (Int.ofNat 0) true, .fin (Int.negOfNat 1844674407370955162) false⟩⟩ :=
  unpolHint_zs rfl
theorem mgga_c_revtpss_unpolHint3_0F_1 : UnpolHint {tPos := true, zetaSmall := true} .mgga mgga_c_revtpss_unpolHint3_0F_q ⟨2, .fld .zetaThreshold, ⟨.fin (Int.ofNat 0) true, .fin (Int.negOfNat 1844674407370955162) false⟩⟩ :=
  unpolHint_zs rfl
theorem mgga_c_revtpss_unpolHint3_0F : UnpolHint {tPos := true, zetaSmall := true} .mgga mgga_c_revtpss_unpolHint3_q ⟨25, mgga_c_revtpss_unpolHint3_0F_e.res, ⟨.fin (Int.ofNat 0) false, .fin (Int.negOfNat 20291418481080506777) false⟩⟩ :=
  unpolHint_rwz 1000 mgga_c_revtpss_unpolHint3_0F_q (hs := [⟨1, .fld .zetaThreshold, ⟨.fin (Int.ofNat 0) true, .fin (Int.negOfNat 1844674407370955162) false⟩⟩, ⟨2, .fld .zetaThreshold, ⟨.fin (Int.ofNat 0) true, .fin (Int.negOfNat 1844674407370955162) false⟩⟩]) (fc mgga_c_revtpss_unpolHint3_0F_0 (fc mgga_c_revtpss_unpolHint3_0F_1 fn)) (par := []) (npar := []) (flds := []) rfl rfl rfl (by decide +kernel) (by decide +kernel)
prog mgga_c_revtpss_unpolHint3_0X_e "res = t356"
theorem mgga_c_revtpss_unpolHint3_0 : UnpolHint {tPos := true, zetaSmall := true} .mgga mgga_c_revtpss_unpolHint3_q ⟨25, pwfE 621814 (-7) 310907 (-7) 16081979498692535067 (-18) 32163958997385070134 (-18) mgga_c_revtpss_unpolHint3_0F_e.res mgga_c_revtpss_unpolHint3_0X_e.res, pos.neg⟩ :=
  unpolHint_pwf mgga_c_revtpss_unpolHint3_0F (by norm_num)
theorem mgga_c_revtpss_unpolHint3 : UnpolHint {tPos := true, zetaSmall := true} .mgga mgga_c_revtpss.unpolBody ⟨156, mgga_c_revtpss_unpolHint3_e.res, pos.neg⟩ :=
  unpolHint_rwz 1000 mgga_c_revtpss_unpolHint3_q (hs := [⟨25, pwfE 621814 (-7) 310907 (-7) 16081979498692535067 (-18) 32163958997385070134 (-18) mgga_c_revtpss_unpolHint3_0F_e.res mgga_c_revtpss_unpolHint3_0X_e.res, pos.neg⟩]) (fc mgga_c_revtpss_unpolHint3_0 fn) (par := []) (npar := []) (flds := []) rfl rfl rfl (by decide +kernel) (by decide +kernel)
prog mgga_c_revtpss_unpolHint4_e "res = -t130 + t461"
prog mgga_c_revtpss_unpolHint4_q "t20 = r0 ** (0.1e1 / 0.3e1)
t21 = t20 ** 2
t41 = 3 ** (0.1e1 / 0.3e1)
t77 = (0.1e1 / math.pi) ** (0.1e1 / 0.3e1)
t78 = t41 * t77
t79 = 4 ** (0.1e1 / 0.3e1)
t80 = t79 ** 2
t81 = 0.1e1 / t20
t83 = t78 * t80 * t81
t86 = math.sqrt(t83)
t89 = t83 ** 0.15e1
t91 = t41 ** 2
t92 = t77 ** 2
t93 = t91 * t92
t94 = 0.1e1 / t21
t96 = t93 * t79 * t94
t102 = math.log(0.1e1 + 0.16081979498692535067e2 / (0.37978500000000000000e1 * t86 + 0.89690000000000000000e0 * t83 + 0.20477500000000000000e0 * t89 + 0.12323500000000000000e0 * t96))
t103 = (0.1e1 + 0.53425000000000000000e-1 * t83) * t102
t130 = 0.621814e-1 * t103
res = -t130"
theorem mgga_c_revtpss_unpolHint4 : UnpolHint {tPos := true, zetaSmall := true} .mgga mgga_c_revtpss.unpolBody ⟨168, mgga_c_revtpss_unpolHint4_e.res, pos.neg⟩ :=
  unpolHint_rwz 1000 mgga_c_revtpss_unpolHint4_q (hs := []) fn (par := []) (npar := []) (flds := []) rfl rfl rfl (by decide +kernel) (by decide +kernel)
theorem mgga_c_revtpss_definedUnpol : DefinedUnpol {tPos := true, zetaSmall := true} .mgga mgga_c_revtpss :=
  definedUnpolH_of _ mgga_c_revtpss_neverRaises (hs := [⟨30, mgga_c_revtpss_unpolHint0_e.res, pos⟩, ⟨85, mgga_c_revtpss_unpolHint1_e.res, pos.neg⟩, ⟨131, mgga_c_revtpss_unpolHint2_e.res, pos.neg⟩, ⟨156, mgga_c_revtpss_unpolHint3_e.res, pos.neg⟩, ⟨168, mgga_c_revtpss_unpolHint4_e.res, pos.neg⟩]) (fc mgga_c_revtpss_unpolHint0 (fc mgga_c_revtpss_unpolHint1 (fc mgga_c_revtpss_unpolHint2 (fc mgga_c_revtpss_unpolHint3 (fc mgga_c_revtpss_unpolHint4 fn))))) (par := []) (npar := []) (flds := []) rfl rfl rfl (by decide +kernel)

prog mgga_c_tpss_unpolHint0_e "res = 0.1e1 + (0.1e1 - t14) * (t18 * t23 * t27 * t25 + t18 * t23 * t34 * t32 - s0 * t23) * t41 / t44 * (0.1e1 / t48 + 0.1e1 / t51) / 0.24e2"
prog mgga_c_tpss_unpolHint0_q "res = 0.1e1"
theorem mgga_c_tpss_unpolHint0 : UnpolHint {tPos := true, params := ["beta"], zetaSmall := true} .mgga mgga_c_tpss.unpolBody ⟨30, mgga_c_tpss_unpolHint0_e.res, pos⟩ :=
  unpolHint_rwz 1000 mgga_c_tpss_unpolHint0_q (hs := []) fn (par := [1650816097]) (npar := []) (flds := []) (by simp [nameCode, nameCodeChars]) rfl rfl (by decide +kernel) (by decide +kernel)
prog mgga_c_tpss_unpolHint1_e "res = -t130 + t146 + t177"
prog mgga_c_tpss_unpolHint1_q "t20 = r0 ** (0.1e1 / 0.3e1)
t21 = t20 ** 2
t41 = 3 ** (0.1e1 / 0.3e1)
t77 = (0.1e1 / math.pi) ** (0.1e1 / 0.3e1)
t78 = t41 * t77
t79 = 4 ** (0.1e1 / 0.3e1)
t80 = t79 ** 2
t81 = 0.1e1 / t20
t83 = t78 * t80 * t81
t86 = math.sqrt(t83)
t89 = t83 ** 0.15e1
t91 = t41 ** 2
t92 = t77 ** 2
t93 = t91 * t92
t94 = 0.1e1 / t21
t96 = t93 * t79 * t94
t102 = math.log(0.1e1 + 0.16081979498692535067e2 / (0.37978500000000000000e1 * t86 + 0.89690000000000000000e0 * t83 + 0.20477500000000000000e0 * t89 + 0.12323500000000000000e0 * t96))
t103 = (0.1e1 + 0.53425000000000000000e-1 * t83) * t102
t130 = 0.621814e-1 * t103
res = -t130"
theorem mgga_c_tpss_unpolHint1 : UnpolHint {tPos := true, params := ["beta"], zetaSmall := true} .mgga mgga_c_tpss.unpolBody ⟨84, mgga_c_tpss_unpolHint1_e.res, pos.neg⟩ :=
  unpolHint_rwz 1000 mgga_c_tpss_unpolHint1_q (hs := []) fn (par := [1650816097]) (npar := []) (flds := []) (by simp [nameCode, nameCodeChars]) rfl rfl (by decide +kernel) (by decide +kernel)
prog mgga_c_tpss_unpolHint2_e "res = -t244 + t279 + t281"
prog mgga_c_tpss_unpolHint2_q "t9 = 0.1e1 <= p_a_zeta_threshold
t10 = p_a_zeta_threshold - 0.1e1
t12 = lax_cond(t9, -t10, 0)
t13 = lax_cond(t9, t10, t12)
t16 = 2 ** (0.1e1 / 0.3e1)
t20 = r0 ** (0.1e1 / 0.3e1)
t24 = 0.1e1 + t13
t41 = 3 ** (0.1e1 / 0.3e1)
t77 = (0.1e1 / math.pi) ** (0.1e1 / 0.3e1)
t78 = t41 * t77
t79 = 4 ** (0.1e1 / 0.3e1)
t80 = t79 ** 2
t81 = 0.1e1 / t20
t107 = p_a_zeta_threshold ** (0.1e1 / 0.3e1)
t108 = t107 * p_a_zeta_threshold
t116 = 0.1e1 / (0.2e1 * t16 - 0.2e1)
t219 = t78 * t80
t220 = t81 * t16
t222 = (0.1e1 / t24) ** (0.1e1 / 0.3e1)
t224 = t219 * t220 * t222
t245 = 0.2e1 <= p_a_zeta_threshold
t247 = lax_cond(t245, t108, 0.2e1 * t16)
t248 = 0.0e0 <= p_a_zeta_threshold
t249 = lax_cond(t248, t108, 0)
t251 = (t247 + t249 - 0.2e1) * t116
res = (t251 - 0.1e1) * (0.621814e-1 * (0.1e1 + 0.53425e-1 * t224) * math.log(0.1e1 + 0.16081979498692535067e2 / (0.379785e1 * math.sqrt(t224) + 0.8969e0 * t224 + 0.204775e0 * t224 ** 0.15e1 + 0.123235e0 * (t224 * t224 / 0.4e1)))) - t251 * (0.310907e-1 * (0.1e1 + 0.5137e-1 * t224) * math.log(0.1e1 + 0.32163958997385070134e2 / (0.705945e1 * math.sqrt(t224) + 0.1549425e1 * t224 + 0.420775e0 * t224 ** 0.15e1 + 0.1562925e0 * (t224 * t224 / 0.4e1))))"
prog mgga_c_tpss_unpolHint2_0F_e "res = t251"
prog mgga_c_tpss_unpolHint2_0F_q "t16 = 2 ** (0.1e1 / 0.3e1)
t107 = p_a_zeta_threshold ** (0.1e1 / 0.3e1)
t108 = t107 * p_a_zeta_threshold
res = (0.2e1 * t16 + t108 - 0.2e1) / (0.2e1 * t16 - 0.2e1)"
theorem mgga_c_tpss_unpolHint2_0F_0 : UnpolHint {tPos := true, params := ["beta"], zetaSmall := true} .mgga mgga_c_tpss_unpolHint2_0F_q ⟨1, .fld .zetaThreshold, ⟨.fin (Int.ofNat 0) true, .fin (Int.negOfNat 1844674407370955162) false⟩⟩ :=
  unpolHint_zs rfl
theorem mgga_c_tpss_unpolHint2_0F_1 : UnpolHint {tPos := true, params := ["beta"], zetaSmall := true} .mgga mgga_c_tpss_unpolHint2_0F_q ⟨2, .fld .zetaThreshold, ⟨.fin (Int.ofNat 0) true, .fin (Int.negOfNat 1844674407370955162) false⟩⟩ :=
  unpolHint_zs rfl
theorem mgga_c_tpss_unpolHint2_0F : UnpolHint {tPos := true, params := ["beta"], zetaSmall := true} .mgga mgga_c_tpss_unpolHint2_q ⟨25, mgga_c_tpss_unpolHint2_0F_e.res, ⟨.fin (Int.ofNat 0) false, .fin (Int.negOfNat 20291418481080506777) false⟩⟩ :=
  unpolHint_rwz 1000 mgga_c_tpss_unpolHint2_0F_q (hs := [⟨1, .fld .zetaThreshold, ⟨.fin (Int.ofNat 0) true, .fin (Int.negOfNat 1844674407370955162) false⟩⟩, ⟨2, .fld .zetaThreshold, ⟨.fin (Int.ofNat 0) true, .fin (Int.negOfNat 1844674407370955162) false⟩⟩]) (fc mgga_c_tpss_unpolHint2_0F_0 (fc mgga_c_tpss_unpolHint2_0F_1 fn)) (par := [1650816097]) (npar := []) (flds := []) (by simp [nameCode, nameCodeChars]) rfl rfl (by decide +kernel) (by decide +kernel)
prog mgga_c_tpss_unpolHint2_0X_e "res = t224"
theorem mgga_c_tpss_unpolHint2_0 : UnpolHint {tPos := true, params := ["beta"], zetaSmall := true} .mgga mgga_c_tpss_unpolHint2_q ⟨25, pwfE 621814 (-7) 310907 (-7) 16081979498692535067 (-18) 32163958997385070134 (-18) mgga_c_tpss_unpolHint2_0F_e.res mgga_c_tpss_unpolHint2_0X_e.res, pos.neg⟩ :=
  unpolHint_pwf mgga_c_tpss_unpolHint2_0F (by norm_num)
theorem mgga_c_tpss_unpolHint2 : UnpolHint {tPos := true, params := ["beta"], zetaSmall := true} .mgga mgga_c_tpss.unpolBody ⟨129, mgga_c_tpss_unpolHint2_e.res, pos.neg⟩ :=
  unpolHint_rwz 1000 mgga_c_tpss_unpolHint2_q (hs := [⟨25, pwfE 621814 (-7) 310907 (-7) 16081979498692535067 (-18) 32163958997385070134 (-18) mgga_c_tpss_unpolHint2_0F_e.res mgga_c_tpss_unpolHint2_0X_e.res, pos.neg⟩]) (fc mgga_c_tpss_unpolHint2_0 fn) (par := [1650816097]) (npar := []) (flds := []) (by simp [nameCode, nameCodeChars]) rfl rfl (by decide +kernel) (by decide +kernel)
prog mgga_c_tpss_unpolHint3_e "res = -t358 + t386 + t388"
prog mgga_c_tpss_unpolHint3_q "t9 = 0.1e1 <= p_a_zeta_threshold
t10 = p_a_zeta_threshold - 0.1e1
t12 = lax_cond(t9, -t10, 0)
t13 = lax_cond(t9, t10, t12)
t16 = 2 ** (0.1e1 / 0.3e1)
t20 = r0 ** (0.1e1 / 0.3e1)
t31 = 0.1e1 - t13
t41 = 3 ** (0.1e1 / 0.3e1)
t77 = (0.1e1 / math.pi) ** (0.1e1 / 0.3e1)
t78 = t41 * t77
t79 = 4 ** (0.1e1 / 0.3e1)
t80 = t79 ** 2
t81 = 0.1e1 / t20
t107 = p_a_zeta_threshold ** (0.1e1 / 0.3e1)
t108 = t107 * p_a_zeta_threshold
t116 = 0.1e1 / (0.2e1 * t16 - 0.2e1)
t219 = t78 * t80
t220 = t81 * t16
t245 = 0.2e1 <= p_a_zeta_threshold
t247 = lax_cond(t245, t108, 0.2e1 * t16)
t248 = 0.0e0 <= p_a_zeta_threshold
t249 = lax_cond(t248, t108, 0)
t251 = (t247 + t249 - 0.2e1) * t116
t338 = (0.1e1 / t31) ** (0.1e1 / 0.3e1)
t340 = t219 * t220 * t338
res = (t251 - 0.1e1) * (0.621814e-1 * (0.1e1 + 0.53425e-1 * t340) * math.log(0.1e1 + 0.16081979498692535067e2 / (0.379785e1 * math.sqrt(t340) + 0.8969e0 * t340 + 0.204775e0 * t340 ** 0.15e1 + 0.123235e0 * (t340 * t340 / 0.4e1)))) - t251 * (0.310907e-1 * (0.1e1 + 0.5137e-1 * t340) * math.log(0.1e1 + 0.32163958997385070134e2 / (0.705945e1 * math.sqrt(t340) + 0.1549425e1 * t340 + 0.420775e0 * t340 ** 0.15e1 + 0.1562925e0 * (t340 * t340 / 0.4e1))))"
prog mgga_c_tpss_unpolHint3_0F_e "res = t251"
prog mgga_c_tpss_unpolHint3_0F_q "t16 = 2 ** (0.1e1 / 0.3e1)
t107 = p_a_zeta_threshold ** (0.1e1 / 0.3e1)
t108 = t107 * p_a_zeta_threshold
res = (0.2e1 * t16 + t108 - 0.2e1) / (0.2e1 * t16 - 0.2e1)"
theorem mgga_c_tpss_unpolHint3_0F_0 : UnpolHint {tPos := true, params := ["beta"], zetaSmall := true} .mgga mgga_c_tpss_unpolHint3_0F_q ⟨1, .fld .zetaThreshold, ⟨.fin (Int.ofNat 0) true, .fin (Int.negOfNat 1844674407370955162) false⟩⟩ :=
  unpolHint_zs rfl
theorem mgga_c_tpss_unpolHint3_0F_1 : UnpolHint {tPos := true, params := ["beta"], zetaSmall := true} .mgga mgga_c_tpss_unpolHint3_0F_q ⟨2, .fld .zetaThreshold, ⟨.fin (Int.ofNat 0) true, .fin (Int.negOfNat 1844674407370955162) false⟩⟩ :=
  unpolHint_zs rfl
theorem mgga_c_tpss_unpolHint3_0F : UnpolHint {tPos := true, params := ["beta"], zetaSmall := true} .mgga mgga_c_tpss_unpolHint3_q ⟨25, mgga_c_tpss_unpolHint3_0F_e.res, ⟨.fin (Int.ofNat 0) false, .fin (Int.negOfNat 20291418481080506777) false⟩⟩ :=
  unpolHint_rwz 1000 mgga_c_tpss_unpolHint3_0F_q (hs := [⟨1, .fld .zetaThreshold, ⟨.fin (Int.ofNat 0) true, .fin (Int.negOfNat 1844674407370955162) false⟩⟩, ⟨2, .fld .zetaThreshold, ⟨.fin (Int.ofNat 0) true, .fin (Int.negOfNat 1844674407370955162) false⟩⟩]) (fc mgga_c_tpss_unpolHint3_0F_0 (fc mgga_c_tpss_unpolHint3_0F_1 fn)) (par := [1650816097]) (npar := []) (flds := []) (by simp [nameCode, nameCodeChars]) rfl rfl (by decide +kernel) (by decide +kernel)
prog mgga_c_tpss_unpolHint3_0X_e "res = t340"
theorem mgga_c_tpss_unpolHint3_0 : UnpolHint {tPos := true, params := ["beta"], zetaSmall := true} .mgga mgga_c_tpss_unpolHint3_q ⟨25, pwfE 621814 (-7) 310907 (-7) 16081979498692535067 (-18) 32163958997385070134 (-18) mgga_c_tpss_unpolHint3_0F_e.res mgga_c_tpss_unpolHint3_0X_e.res, pos.neg⟩ :=
  unpolHint_pwf mgga_c_tpss_unpolHint3_0F (by norm_num)
theorem mgga_c_tpss_unpolHint3 : UnpolHint {tPos := true, params := ["beta"], zetaSmall := true} .mgga mgga_c_tpss.unpolBody ⟨152, mgga_c_tpss_unpolHint3_e.res, pos.neg⟩ :=
  unpolHint_rwz 1000 mgga_c_tpss_unpolHint3_q (hs := [⟨25, pwfE 621814 (-7) 310907 (-7) 16081979498692535067 (-18) 32163958997385070134 (-18) mgga_c_tpss_unpolHint3_0F_e.res mgga_c_tpss_unpolHint3_0X_e.res, pos.neg⟩]) (fc mgga_c_tpss_unpolHint3_0 fn) (par := [1650816097]) (npar := []) (flds := []) (by simp [nameCode, nameCodeChars]) rfl rfl (by decide +kernel) (by decide +kernel)
prog mgga_c_tpss_unpolHint4_e "res = -t130 + t436"
prog mgga_c_tpss_unpolHint4_q "t20 = r0 ** (0.1e1 / 0.3e1)
t21 = t20 ** 2
t41 = 3 ** (0.1e1 / 0.3e1)
t77 = (0.1e1 / math.pi) ** (0.1e1 / 0.3e1)
t78 = t41 * t77
t79 = 4 ** (0.1e1 / 0.3e1)
t80 = t79 ** 2
t81 = 0.1e1 / t20
t83 = t78 * t80 * t81
t86 = math.sqrt(t83)
t89 = t83 ** 0.15e1
t91 = t41 ** 2
t92 = t77 ** 2
t93 = t91 * t92
t94 = 0.1e1 / t21
t96 = t93 * t79 * t94
t102 = math.log(0.1e1 + 0.16081979498692535067e2 / (0.37978500000000000000e1 * t86 + 0.89690000000000000000e0 * t83 + 0.20477500000000000000e0 * t89 + 0.12323500000000000000e0 * t96))
t103 = (0.1e1 + 0.53425000000000000000e-1 * t83) * t102
t130 = 0.621814e-1 * t103
res = -t130"
theorem mgga_c_tpss_unpolHint4 : UnpolHint {tPos := true, params := ["beta"], zetaSmall := true} .mgga mgga_c_tpss.unpolBody ⟨164, mgga_c_tpss_unpolHint4_e.res, pos.neg⟩ :=
  unpolHint_rwz 1000 mgga_c_tpss_unpolHint4_q (hs := []) fn (par := [1650816097]) (npar := []) (flds := []) (by simp [nameCode, nameCodeChars]) rfl rfl (by decide +kernel) (by decide +kernel)
theorem mgga_c_tpss_definedUnpol : DefinedUnpol {tPos := true, params := ["beta"], zetaSmall := true} .mgga mgga_c_tpss :=
  definedUnpolH_of _ mgga_c_tpss_neverRaises (hs := [⟨30, mgga_c_tpss_unpolHint0_e.res, pos⟩, ⟨84, mgga_c_tpss_unpolHint1_e.res, pos.neg⟩, ⟨129, mgga_c_tpss_unpolHint2_e.res, pos.neg⟩, ⟨152, mgga_c_tpss_unpolHint3_e.res, pos.neg⟩, ⟨164, mgga_c_tpss_unpolHint4_e.res, pos.neg⟩]) (fc mgga_c_tpss_unpolHint0 (fc mgga_c_tpss_unpolHint1 (fc mgga_c_tpss_unpolHint2 (fc mgga_c_tpss_unpolHint3 (fc mgga_c_tpss_unpolHint4 fn))))) (par := [1650816097]) (npar := []) (flds := []) (by simp [nameCode, nameCodeChars]) rfl rfl (by decide +kernel)

prog mgga_c_tpssloc_unpolHint0_e "res = 0.1e1 + (0.1e1 - t9) * (t13 * t18 * t22 * t20 + t13 * t18 * t29 * t27 - s0 * t18) * t36 / t39 * (0.1e1 / t43 + 0.1e1 / t46) / 0.24e2"
prog mgga_c_tpssloc_unpolHint0_q "res = 0.1e1"
theorem mgga_c_tpssloc_unpolHint0 : UnpolHint {tPos := true, zetaSmall := true} .mgga mgga_c_tpssloc.unpolBody ⟨29, mgga_c_tpssloc_unpolHint0_e.res, pos⟩ :=
  unpolHint_rwz 1000 mgga_c_tpssloc_unpolHint0_q (hs := []) fn (par := []) (npar := []) (flds := []) rfl rfl rfl (by decide +kernel) (by decide +kernel)
prog mgga_c_tpssloc_unpolHint1_e "res = -t125 + t141 + t183"
prog mgga_c_tpssloc_unpolHint1_q "t15 = r0 ** (0.1e1 / 0.3e1)
t16 = t15 ** 2
t36 = 3 ** (0.1e1 / 0.3e1)
t72 = (0.1e1 / math.pi) ** (0.1e1 / 0.3e1)
t73 = t36 * t72
t74 = 4 ** (0.1e1 / 0.3e1)
t75 = t74 ** 2
t76 = 0.1e1 / t15
t78 = t73 * t75 * t76
t81 = math.sqrt(t78)
t84 = t78 ** 0.15e1
t86 = t36 ** 2
t87 = t72 ** 2
t88 = t86 * t87
t89 = 0.1e1 / t16
t91 = t88 * t74 * t89
t97 = math.log(0.1e1 + 0.16081979498692535067e2 / (0.37978500000000000000e1 * t81 + 0.89690000000000000000e0 * t78 + 0.20477500000000000000e0 * t84 + 0.12323500000000000000e0 * t91))
t98 = (0.1e1 + 0.53425000000000000000e-1 * t78) * t97
t125 = 0.621814e-1 * t98
res = -t125"
theorem mgga_c_tpssloc_unpolHint1 : UnpolHint {tPos := true, zetaSmall := true} .mgga mgga_c_tpssloc.unpolBody ⟨88, mgga_c_tpssloc_unpolHint1_e.res, pos.neg⟩ :=
  unpolHint_rwz 1000 mgga_c_tpssloc_unpolHint1_q (hs := []) fn (par := []) (npar := []) (flds := []) rfl rfl rfl (by decide +kernel) (by decide +kernel)
prog mgga_c_tpssloc_unpolHint2_e "res = -t250 + t285 + t287"
prog mgga_c_tpssloc_unpolHint2_q "t4 = 0.1e1 <= p_a_zeta_threshold
t5 = p_a_zeta_threshold - 0.1e1
t7 = lax_cond(t4, -t5, 0)
t8 = lax_cond(t4, t5, t7)
t11 = 2 ** (0.1e1 / 0.3e1)
t15 = r0 ** (0.1e1 / 0.3e1)
t19 = 0.1e1 + t8
t36 = 3 ** (0.1e1 / 0.3e1)
t72 = (0.1e1 / math.pi) ** (0.1e1 / 0.3e1)
t73 = t36 * t72
t74 = 4 ** (0.1e1 / 0.3e1)
t75 = t74 ** 2
t76 = 0.1e1 / t15
t102 = p_a_zeta_threshold ** (0.1e1 / 0.3e1)
t103 = t102 * p_a_zeta_threshold
t111 = 0.1e1 / (0.2e1 * t11 - 0.2e1)
t225 = t73 * t75
t226 = t76 * t11
t228 = (0.1e1 / t19) ** (0.1e1 / 0.3e1)
t230 = t225 * t226 * t228
t251 = 0.2e1 <= p_a_zeta_threshold
t253 = lax_cond(t251, t103, 0.2e1 * t11)
t254 = 0.0e0 <= p_a_zeta_threshold
t255 = lax_cond(t254, t103, 0)
t257 = (t253 + t255 - 0.2e1) * t111
res = (t257 - 0.1e1) * (0.621814e-1 * (0.1e1 + 0.53425e-1 * t230) * math.log(0.1e1 + 0.16081979498692535067e2 / (0.379785e1 * math.sqrt(t230) + 0.8969e0 * t230 + 0.204775e0 * t230 ** 0.15e1 + 0.123235e0 * (t230 * t230 / 0.4e1)))) - t257 * (0.310907e-1 * (0.1e1 + 0.5137e-1 * t230) * math.log(0.1e1 + 0.32163958997385070134e2 / (0.705945e1 * math.sqrt(t230) + 0.1549425e1 * t230 + 0.420775e0 * t230 ** 0.15e1 + 0.1562925e0 * (t230 * t230 / 0.4e1))))"
prog mgga_c_tpssloc_unpolHint2_0F_e "res = t257"
prog mgga_c_tpssloc_unpolHint2_0F_q "t11 = 2 ** (0.1e1 / 0.3e1)
t102 = p_a_zeta_threshold ** (0.1e1 / 0.3e1)
t103 = t102 * p_a_zeta_threshold
res = (0.2e1 * t11 + t103 - 0.2e1) / (0.2e1 * t11 - 0.2e1)"
theorem mgga_c_tpssloc_unpolHint2_0F_0 : UnpolHint {tPos := true, zetaSmall := true} .mgga mgga_c_tpssloc_unpolHint2_0F_q ⟨1, .fld .zetaThreshold, ⟨.fin (Int.ofNat 0) true, .fin (Int.negOfNat 1844674407370955162) false⟩⟩ :=
  unpolHint_zs rfl
theorem mgga_c_tpssloc_unpolHint2_0F_1 : UnpolHint {tPos := true, zetaSmall := true} .mgga mgga_c_tpssloc_unpolHint2_0F_q ⟨2, .fld .zetaThreshold, ⟨.fin (Int.ofNat 0) true, .fin (Int.negOfNat 1844674407370955162) false⟩⟩ :=
  unpolHint_zs rfl
theorem mgga_c_tpssloc_unpolHint2_0F : UnpolHint {tPos := true, zetaSmall := true} .mgga mgga_c_tpssloc_unpolHint2_q ⟨25, mgga_c_tpssloc_unpolHint2_0F_e.res, ⟨.fin (Int.ofNat 0) false, .fin (Int.negOfNat 20291418481080506777) false⟩⟩ :=
  unpolHint_rwz 1000 mgga_c_tpssloc_unpolHint2_0F_q (hs := [⟨1, .fld .zetaThreshold, ⟨.fin (Int.ofNat 0) true, .fin (Int.negOfNat 1844674407370955162) false⟩⟩, ⟨2, .fld .zetaThreshold, ⟨.fin (Int.ofNat 0) true, .fin (Int.negOfNat 1844674407370955162) false⟩⟩]) (fc mgga_c_tpssloc_unpolHint2_0F_0 (fc mgga_c_tpssloc_unpolHint2_0F_1 fn)) (par := []) (npar := []) (flds := []) rfl rfl rfl (by decide +kernel) (by decide +kernel)
prog mgga_c_tpssloc_unpolHint2_0X_e "res = t230"
theorem mgga_c_tpssloc_unpolHint2_0 : UnpolHint {tPos := true, zetaSmall := true} .mgga mgga_c_tpssloc_unpolHint2_q ⟨25, pwfE 621814 (-7) 310907 (-7) 16081979498692535067 (-18) 32163958997385070134 (-18) mgga_c_tpssloc_unpolHint2_0F_e.res mgga_c_tpssloc_unpolHint2_0X_e.res, pos.neg⟩ :=
  unpolHint_pwf mgga_c_tpssloc_unpolHint2_0F (by norm_num)
theorem mgga_c_tpssloc_unpolHint2 : UnpolHint {tPos := true, zetaSmall := true} .mgga mgga_c_tpssloc.unpolBody ⟨136, mgga_c_tpssloc_unpolHint2_e.res, pos.neg⟩ :=
  unpolHint_rwz 1000 mgga_c_tpssloc_unpolHint2_q (hs := [⟨25, pwfE 621814 (-7) 310907 (-7) 16081979498692535067 (-18) 32163958997385070134 (-18) mgga_c_tpssloc_unpolHint2_0F_e.res mgga_c_tpssloc_unpolHint2_0X_e.res, pos.neg⟩]) (fc mgga_c_tpssloc_unpolHint2_0 fn) (par := []) (npar := []) (flds := []) rfl rfl rfl (by decide +kernel) (by decide +kernel)
prog mgga_c_tpssloc_unpolHint3_e "res = -t373 + t401 + t403"
prog mgga_c_tpssloc_unpolHint3_q "t4 = 0.1e1 <= p_a_zeta_threshold
t5 = p_a_zeta_threshold - 0.1e1
t7 = lax_cond(t4, -t5, 0)
t8 = lax_cond(t4, t5, t7)
t11 = 2 ** (0.1e1 / 0.3e1)
t15 = r0 ** (0.1e1 / 0.3e1)
t26 = 0.1e1 - t8
t36 = 3 ** (0.1e1 / 0.3e1)
t72 = (0.1e1 / math.pi) ** (0.1e1 / 0.3e1)
t73 = t36 * t72
t74 = 4 ** (0.1e1 / 0.3e1)
t75 = t74 ** 2
t76 = 0.1e1 / t15
t102 = p_a_zeta_threshold ** (0.1e1 / 0.3e1)
t103 = t102 * p_a_zeta_threshold
t111 = 0.1e1 / (0.2e1 * t11 - 0.2e1)
t225 = t73 * t75
t226 = t76 * t11
t251 = 0.2e1 <= p_a_zeta_threshold
t253 = lax_cond(t251, t103, 0.2e1 * t11)
t254 = 0.0e0 <= p_a_zeta_threshold
t255 = lax_cond(t254, t103, 0)
t257 = (t253 + t255 - 0.2e1) * t111
t353 = (0.1e1 / t26) ** (0.1e1 / 0.3e1)
t355 = t225 * t226 * t353
res = (t257 - 0.1e1) * (0.621814e-1 * (0.1e1 + 0.53425e-1 * t355) * math.log(0.1e1 + 0.16081979498692535067e2 / (0.379785e1 * math.sqrt(t355) + 0.8969e0 * t355 + 0.204775e0 * t355 ** 0.15e1 + 0.123235e0 * (t355 * t355 / 0.4e1)))) - t257 * (0.310907e-1 * (0.1e1 + 0.5137e-1 * t355) * math.log(0.1e1 + 0.32163958997385070134e2 / (0.705945e1 * math.sqrt(t355) + 0.1549425e1 * t355 + 0.420775e0 * t355 ** 0.15e1 + 0.1562925e0 * (t355 * t355 / 0.4e1))))"
prog mgga_c_tpssloc_unpolHint3_0F_e "res = t257"
prog mgga_c_tpssloc_unpolHint3_0F_q "t11 = 2 ** (0.1e1 / 0.3e1)
t102 = p_a_zeta_threshold ** (0.1e1 / 0.3e1)
t103 = t102 * p_a_zeta_threshold
res = (0.2e1 * t11 + t103 - 0.2e1) / (0.2e1 * t11 - 0.2e1)"
theorem mgga_c_tpssloc_unpolHint3_0F_0 : UnpolHint {tPos := true, zetaSmall := true} .mgga mgga_c_tpssloc_unpolHint3_0F_q ⟨1, .fld .zetaThreshold, ⟨.fin (Int.ofNat 0) true, .fin (Int.negOfNat 1844674407370955162) false⟩⟩ :=
  unpolHint_zs rfl
theorem mgga_c_tpssloc_unpolHint3_0F_1 : UnpolHint {tPos := true, zetaSmall := true} .mgga mgga_c_tpssloc_unpolHint3_0F_q ⟨2, .fld .zetaThreshold, ⟨.fin (Int.ofNat 0) true, .fin (Int.negOfNat 1844674407370955162) false⟩⟩ :=
  unpolHint_zs rfl
theorem mgga_c_tpssloc_unpolHint3_0F : UnpolHint {tPos := true, zetaSmall := true} .mgga mgga_c_tpssloc_unpolHint3_q ⟨25, mgga_c_tpssloc_unpolHint3_0F_e.res, ⟨.fin (Int.ofNat 0) false, .fin (Int.negOfNat 20291418481080506777) false⟩⟩ :=
  unpolHint_rwz 1000 mgga_c_tpssloc_unpolHint3_0F_q (hs := [⟨1, .fld .zetaThreshold, ⟨.fin (Int.ofNat 0) true, .fin (Int.negOfNat 1844674407370955162) false⟩⟩, ⟨2, .fld .zetaThreshold, ⟨.fin (Int.ofNat 0) true, .fin (Int.negOfNat 1844674407370955162) false⟩⟩]) (fc mgga_c_tpssloc_unpolHint3_0F_0 (fc mgga_c_tpssloc_unpolHint3_0F_1 fn)) (par := []) (npar := []) (flds := []) rfl rfl rfl (by decide +kernel) (by decide +kernel)
prog mgga_c_tpssloc_unpolHint3_0X_e "res = t355"
theorem mgga_c_tpssloc_unpolHint3_0 : UnpolHint {tPos := true, zetaSmall := true} .mgga mgga_c_tpssloc_unpolHint3_q ⟨25, pwfE 621814 (-7) 310907 (-7) 16081979498692535067 (-18) 32163958997385070134 (-18) mgga_c_tpssloc_unpolHint3_0F_e.res mgga_c_tpssloc_unpolHint3_0X_e.res, pos.neg⟩ :=
  unpolHint_pwf mgga_c_tpssloc_unpolHint3_0F (by norm_num)
theorem mgga_c_tpssloc_unpolHint3 : UnpolHint {tPos := true, zetaSmall := true} .mgga mgga_c_tpssloc.unpolBody ⟨163, mgga_c_tpssloc_unpolHint3_e.res, pos.neg⟩ :=
  unpolHint_rwz 1000 mgga_c_tpssloc_unpolHint3_q (hs := [⟨25, pwfE 621814 (-7) 310907 (-7) 16081979498692535067 (-18) 32163958997385070134 (-18) mgga_c_tpssloc_unpolHint3_0F_e.res mgga_c_tpssloc_unpolHint3_0X_e.res, pos.neg⟩]) (fc mgga_c_tpssloc_unpolHint3_0 fn) (par := []) (npar := []) (flds := []) rfl rfl rfl (by decide +kernel) (by decide +kernel)
prog mgga_c_tpssloc_unpolHint4_e "res = -t125 + t461"
prog mgga_c_tpssloc_unpolHint4_q "t15 = r0 ** (0.1e1 / 0.3e1)
t16 = t15 ** 2
t36 = 3 ** (0.1e1 / 0.3e1)
t72 = (0.1e1 / math.pi) ** (0.1e1 / 0.3e1)
t73 = t36 * t72
t74 = 4 ** (0.1e1 / 0.3e1)
t75 = t74 ** 2
t76 = 0.1e1 / t15
t78 = t73 * t75 * t76
t81 = math.sqrt(t78)
t84 = t78 ** 0.15e1
t86 = t36 ** 2
t87 = t72 ** 2
t88 = t86 * t87
t89 = 0.1e1 / t16
t91 = t88 * t74 * t89
t97 = math.log(0.1e1 + 0.16081979498692535067e2 / (0.37978500000000000000e1 * t81 + 0.89690000000000000000e0 * t78 + 0.20477500000000000000e0 * t84 + 0.12323500000000000000e0 * t91))
t98 = (0.1e1 + 0.53425000000000000000e-1 * t78) * t97
t125 = 0.621814e-1 * t98
res = -t125"
theorem mgga_c_tpssloc_unpolHint4 : UnpolHint {tPos := true, zetaSmall := true} .mgga mgga_c_tpssloc.unpolBody ⟨178, mgga_c_tpssloc_unpolHint4_e.res, pos.neg⟩ :=
  unpolHint_rwz 1000 mgga_c_tpssloc_unpolHint4_q (hs := []) fn (par := []) (npar := []) (flds := []) rfl rfl rfl (by decide +kernel) (by decide +kernel)
theorem mgga_c_tpssloc_definedUnpol : DefinedUnpol {tPos := true, zetaSmall := true} .mgga mgga_c_tpssloc :=
  definedUnpolH_of _ mgga_c_tpssloc_neverRaises (hs := [⟨29, mgga_c_tpssloc_unpolHint0_e.res, pos⟩, ⟨88, mgga_c_tpssloc_unpolHint1_e.res, pos.neg⟩, ⟨136, mgga_c_tpssloc_unpolHint2_e.res, pos.neg⟩, ⟨163, mgga_c_tpssloc_unpolHint3_e.res, pos.neg⟩, ⟨178, mgga_c_tpssloc_unpolHint4_e.res, pos.neg⟩]) (fc mgga_c_tpssloc_unpolHint0 (fc mgga_c_tpssloc_unpolHint1 (fc mgga_c_tpssloc_unpolHint2 (fc mgga_c_tpssloc_unpolHint3 (fc mgga_c_tpssloc_unpolHint4 fn))))) (par := []) (npar := []) (flds := []) rfl rfl rfl (by decide +kernel)

prog mgga_x_pkzb_polHint0_e "res = 0.804e0 + 0.5e1 / 0.972e3 * t41 + 0.146e3 / 0.2025e4 * t50 - 0.73e2 / 0.9720e4 * t49 * t29 * t33 * s0 * t39 + 0.22909234000912809658e-3 * t60 * t61 / t36 / t62 / r0"
prog mgga_x_pkzb_polHint0_q "t29 = 6 ** (0.1e1 / 0.3e1)
t30 = math.pi ** 2
t31 = t30 ** (0.1e1 / 0.3e1)
t32 = t31 ** 2
t33 = 0.1e1 / t32
t34 = t29 * t33
t35 = r0 ** 2
t36 = r0 ** (0.1e1 / 0.3e1)
t37 = t36 ** 2
t39 = 0.1e1 / t37 / t35
t41 = t34 * s0 * t39
t49 = t34 * tau0 / t37 / r0 / 0.4e1 - 0.9e1 / 0.20e2 - t41 / 0.288e3
t100001 = 3504.0 * (t49 * t49) - 365.0 * (t49 * t41) + 9.6 * (t41 * t41)
res = 0.804e0 + 0.5e1 / 0.972e3 * t41 + t100001 / 0.48600e5 + (0.1e1 * 0.22909234000912809658e-3 - 9.6 / 0.48600e5) * (t41 * t41)"
prog mgga_x_pkzb_polHint0_0_e "res = 3504.0 * (t49 * t49) - 365.0 * (t49 * t41) + 9.6 * (t41 * t41)"
theorem mgga_x_pkzb_polHint0_0 : PolHint {} .mgga mgga_x_pkzb_polHint0_q ⟨12, mgga_x_pkzb_polHint0_0_e.res, nn⟩ :=
  polHint_quad (by norm_num)
theorem mgga_x_pkzb_polHint0 : PolHint {} .mgga mgga_x_pkzb.polBody ⟨35, mgga_x_pkzb_polHint0_e.res, pos⟩ :=
  polHint_rw 1000 mgga_x_pkzb_polHint0_q (hs := [⟨12, mgga_x_pkzb_polHint0_0_e.res, nn⟩]) (fc mgga_x_pkzb_polHint0_0 fn) (par := []) (npar := []) (flds := []) rfl rfl rfl (by decide +kernel) (by decide +kernel)
prog mgga_x_pkzb_polHint1_e "res = 0.804e0 + 0.5e1 / 0.972e3 * t92 + 0.146e3 / 0.2025e4 * t101 - 0.73e2 / 0.9720e4 * t100 * t29 * t33 * s2 * t90 + 0.22909234000912809658e-3 * t60 * t108 / t87 / t109 / r1"
prog mgga_x_pkzb_polHint1_q "t29 = 6 ** (0.1e1 / 0.3e1)
t30 = math.pi ** 2
t31 = t30 ** (0.1e1 / 0.3e1)
t32 = t31 ** 2
t33 = 0.1e1 / t32
t34 = t29 * t33
t86 = r1 ** 2
t87 = r1 ** (0.1e1 / 0.3e1)
t88 = t87 ** 2
t90 = 0.1e1 / t88 / t86
t92 = t34 * s2 * t90
t100 = t34 * tau1 / t88 / r1 / 0.4e1 - 0.9e1 / 0.20e2 - t92 / 0.288e3
t100001 = 3504.0 * (t100 * t100) - 365.0 * (t100 * t92) + 9.6 * (t92 * t92)
res = 0.804e0 + 0.5e1 / 0.972e3 * t92 + t100001 / 0.48600e5 + (0.1e1 * 0.22909234000912809658e-3 - 9.6 / 0.48600e5) * (t92 * t92)"
prog mgga_x_pkzb_polHint1_0_e "res = 3504.0 * (t100 * t100) - 365.0 * (t100 * t92) + 9.6 * (t92 * t92)"
theorem mgga_x_pkzb_polHint1_0 : PolHint {} .mgga mgga_x_pkzb_polHint1_q ⟨12, mgga_x_pkzb_polHint1_0_e.res, nn⟩ :=
  polHint_quad (by norm_num)
theorem mgga_x_pkzb_polHint1 : PolHint {} .mgga mgga_x_pkzb.polBody ⟨50, mgga_x_pkzb_polHint1_e.res, pos⟩ :=
  polHint_rw 1000 mgga_x_pkzb_polHint1_q (hs := [⟨12, mgga_x_pkzb_polHint1_0_e.res, nn⟩]) (fc mgga_x_pkzb_polHint1_0 fn) (par := []) (npar := []) (flds := []) rfl rfl rfl (by decide +kernel) (by decide +kernel)
theorem mgga_x_pkzb_definedPol : DefinedPol {} .mgga mgga_x_pkzb :=
  definedPolH_of _ mgga_x_pkzb_neverRaises (hs := [⟨35, mgga_x_pkzb_polHint0_e.res, pos⟩, ⟨50, mgga_x_pkzb_polHint1_e.res, pos⟩]) (fc mgga_x_pkzb_polHint0 (fc mgga_x_pkzb_polHint1 fn)) (par := []) (npar := []) (flds := []) rfl rfl rfl (by decide +kernel)

prog mgga_x_pkzb_unpolHint0_e "res = 0.804e0 + 0.5e1 / 0.972e3 * t35 + 0.146e3 / 0.2025e4 * t45 - 0.73e2 / 0.9720e4 * t44 * t21 * t25 * t34 + 0.45818468001825619316e-3 * t51 / t23 / t22 * t55 * t27 / t19 / t57 / r0"
prog mgga_x_pkzb_unpolHint0_q "t19 = r0 ** (0.1e1 / 0.3e1)
t21 = 6 ** (0.1e1 / 0.3e1)
t22 = math.pi ** 2
t23 = t22 ** (0.1e1 / 0.3e1)
t24 = t23 ** 2
t25 = 0.1e1 / t24
t26 = t21 * t25
t27 = 2 ** (0.1e1 / 0.3e1)
t28 = t27 ** 2
t30 = r0 ** 2
t31 = t19 ** 2
t34 = s0 * t28 / t31 / t30
t35 = t26 * t34
t44 = t26 * tau0 * t28 / t31 / r0 / 0.4e1 - 0.9e1 / 0.20e2 - t35 / 0.288e3
t100001 = 3504.0 * (t44 * t44) - 365.0 * (t44 * t35) + 9.6 * (t35 * t35)
res = 0.804e0 + 0.5e1 / 0.972e3 * t35 + t100001 / 0.48600e5 + (0.5e0 * 0.45818468001825619316e-3 - 9.6 / 0.48600e5) * (t35 * t35)"
prog mgga_x_pkzb_unpolHint0_0_e "res = 3504.0 * (t44 * t44) - 365.0 * (t44 * t35) + 9.6 * (t35 * t35)"
theorem mgga_x_pkzb_unpolHint0_0 : UnpolHint {} .mgga mgga_x_pkzb_unpolHint0_q ⟨14, mgga_x_pkzb_unpolHint0_0_e.res, nn⟩ :=
  unpolHint_quad (by norm_num)
theorem mgga_x_pkzb_unpolHint0 : UnpolHint {} .mgga mgga_x_pkzb.unpolBody ⟨28, mgga_x_pkzb_unpolHint0_e.res, pos⟩ :=
  unpolHint_rw 1000 mgga_x_pkzb_unpolHint0_q (hs := [⟨14, mgga_x_pkzb_unpolHint0_0_e.res, nn⟩]) (fc mgga_x_pkzb_unpolHint0_0 fn) (par := []) (npar := []) (flds := []) rfl rfl rfl (by decide +kernel) (by decide +kernel)
theorem mgga_x_pkzb_definedUnpol : DefinedUnpol {} .mgga mgga_x_pkzb :=
  definedUnpolH_of _ mgga_x_pkzb_neverRaises (hs := [⟨28, mgga_x_pkzb_unpolHint0_e.res, pos⟩]) (fc mgga_x_pkzb_unpolHint0 fn) (par := []) (npar := []) (flds := []) rfl rfl rfl (by decide +kernel)

prog mgga_x_regtpss_polHint0_e "res = 0.1e1 + 0.22222222222222222222e0 * t68 * t53 * t71"
prog mgga_x_regtpss_polHint0_q "t35 = r0 ** 2
t48 = 6 ** (0.1e1 / 0.3e1)
t50 = math.pi ** 2
t51 = t50 ** (0.1e1 / 0.3e1)
t52 = t51 ** 2
t53 = 0.1e1 / t52
t55 = r0 ** (0.1e1 / 0.3e1)
t56 = t55 ** 2
t58 = 0.1e1 / t56 / t35
t65 = s0 * t58
t67 = tau0 / t56 / r0 - t65 / 0.8e1
t68 = t67 * t48
res = 0.1e1 - 0.45e0 * 0.22222222222222222222e0 + 0.5e1 / 0.9e1 * 0.22222222222222222222e0 * (t68 * t53 - 0.9e0) ** 2"
theorem mgga_x_regtpss_polHint0 : PolHint {tPos := true} .mgga mgga_x_regtpss.polBody ⟨36, mgga_x_regtpss_polHint0_e.res, pos⟩ :=
  polHint_rw 1000 mgga_x_regtpss_polHint0_q (hs := []) fn (par := []) (npar := []) (flds := []) rfl rfl rfl (by decide +kernel) (by decide +kernel)
prog mgga_x_regtpss_polHint1_e "res = 0.804e0 + ((0.10e2 / 0.81e2 + 0.45938270703125000000e-2 * t33 / t43) * t48 * t53 * s0 * t58 / 0.24e2 + 0.146e3 / 0.2025e4 * t84 - 0.73e2 / 0.97200e5 * t83 * t99 + t102 + 0.20448759451792765188e-2 * t40 + t111) * t116"
prog mgga_x_regtpss_polHint1_q "t33 = (s0 / r0 / tau0) ** 0.30e1
t34 = s0 ** 2
t35 = r0 ** 2
t38 = tau0 ** 2
t40 = t34 / t35 / t38
t43 = (0.1e1 + t40 / 0.64e2) ** 2
t48 = 6 ** (0.1e1 / 0.3e1)
t50 = math.pi ** 2
t51 = t50 ** (0.1e1 / 0.3e1)
t52 = t51 ** 2
t53 = 0.1e1 / t52
t55 = r0 ** (0.1e1 / 0.3e1)
t56 = t55 ** 2
t58 = 0.1e1 / t56 / t35
t65 = s0 * t58
t67 = tau0 / t56 / r0 - t65 / 0.8e1
t68 = t67 * t48
t71 = 0.5e1 / 0.9e1 * t68 * t53 - 0.1e1
t76 = math.sqrt(0.1e1 + 0.22222222222222222222e0 * t68 * t53 * t71)
t80 = t48 * t53
t81 = t80 * t65
t82 = t81 / 0.36e2
t83 = 0.9e1 / 0.20e2 * t71 / t76 + t82
t84 = t83 ** 2
t87 = t48 ** 2
t89 = 0.1e1 / t51 / t50
t90 = t87 * t89
t91 = t35 ** 2
t96 = t90 * t34 / t55 / t91 / r0
t97 = 0.50e2 * t96
t99 = math.sqrt(0.162e3 * t40 + t97)
t102 = 0.32911784453572541028e-4 * t96
t104 = t50 ** 2
t105 = 0.1e1 / t104
t108 = t91 ** 2
t111 = 0.13171780538194444444e-3 * t105 * t34 * s0 / t108
t115 = (0.1e1 + 0.61346278355378295562e-1 * t81) ** 2
res = 0.804e0 + ((0.10e2 / 0.81e2 + 0.45938270703125000000e-2 * t33 / t43) * t48 * t53 * s0 * t58 / 0.24e2 + 0.146e3 / 0.2025e4 * t84 - 0.73e2 / 0.97200e5 * t83 * t99 + t102 + 0.20448759451792765188e-2 * t40 + t111) / t115"
prog mgga_x_regtpss_polHint1_0_e "res = 0.1e1 + 0.22222222222222222222e0 * t68 * t53 * t71"
prog mgga_x_regtpss_polHint1_0_q "t35 = r0 ** 2
t48 = 6 ** (0.1e1 / 0.3e1)
t50 = math.pi ** 2
t51 = t50 ** (0.1e1 / 0.3e1)
t52 = t51 ** 2
t53 = 0.1e1 / t52
t55 = r0 ** (0.1e1 / 0.3e1)
t56 = t55 ** 2
t58 = 0.1e1 / t56 / t35
t65 = s0 * t58
t67 = tau0 / t56 / r0 - t65 / 0.8e1
t68 = t67 * t48
res = 0.1e1 - 0.45e0 * 0.22222222222222222222e0 + 0.5e1 / 0.9e1 * 0.22222222222222222222e0 * (t68 * t53 - 0.9e0) ** 2"
theorem mgga_x_regtpss_polHint1_0 : PolHint {tPos := true} .mgga mgga_x_regtpss_polHint1_q ⟨18, mgga_x_regtpss_polHint1_0_e.res, pos⟩ :=
  polHint_rw 1000 mgga_x_regtpss_polHint1_0_q (hs := []) fn (par := []) (npar := []) (flds := []) rfl rfl rfl (by decide +kernel) (by decide +kernel)
prog mgga_x_regtpss_polHint1_1d_e "res = t115"
prog mgga_x_regtpss_polHint1_1d_q "t35 = r0 ** 2
t48 = 6 ** (0.1e1 / 0.3e1)
t50 = math.pi ** 2
t51 = t50 ** (0.1e1 / 0.3e1)
t52 = t51 ** 2
t53 = 0.1e1 / t52
t55 = r0 ** (0.1e1 / 0.3e1)
t56 = t55 ** 2
t58 = 0.1e1 / t56 / t35
t65 = s0 * t58
t80 = t48 * t53
t81 = t80 * t65
t115 = (0.1e1 + 0.61346278355378295562e-1 * t81) ** 2
res = t115"
theorem mgga_x_regtpss_polHint1_1d : PolHint {tPos := true} .mgga mgga_x_regtpss_polHint1_q ⟨37, mgga_x_regtpss_polHint1_1d_e.res, pos⟩ :=
  polHint_rw 1000 mgga_x_regtpss_polHint1_1d_q (hs := []) fn (par := []) (npar := []) (flds := []) rfl rfl rfl (by decide +kernel) (by decide +kernel)
prog mgga_x_regtpss_polHint1_1n_e "res = (0.804e0) * (t115) + (((0.10e2 / 0.81e2 + 0.45938270703125000000e-2 * t33 / t43) * t48 * t53 * s0 * t58 / 0.24e2 + 0.146e3 / 0.2025e4 * t84 - 0.73e2 / 0.97200e5 * t83 * t99 + t102 + 0.20448759451792765188e-2 * t40 + t111))"
prog mgga_x_regtpss_polHint1_1n_q "t33 = (s0 / r0 / tau0) ** 0.30e1
t34 = s0 ** 2
t35 = r0 ** 2
t38 = tau0 ** 2
t40 = t34 / t35 / t38
t43 = (0.1e1 + t40 / 0.64e2) ** 2
t48 = 6 ** (0.1e1 / 0.3e1)
t50 = math.pi ** 2
t51 = t50 ** (0.1e1 / 0.3e1)
t52 = t51 ** 2
t53 = 0.1e1 / t52
t55 = r0 ** (0.1e1 / 0.3e1)
t56 = t55 ** 2
t58 = 0.1e1 / t56 / t35
t65 = s0 * t58
t67 = tau0 / t56 / r0 - t65 / 0.8e1
t68 = t67 * t48
t71 = 0.5e1 / 0.9e1 * t68 * t53 - 0.1e1
t76 = math.sqrt(0.1e1 + 0.22222222222222222222e0 * t68 * t53 * t71)
t80 = t48 * t53
t81 = t80 * t65
t82 = t81 / 0.36e2
t83 = 0.9e1 / 0.20e2 * t71 / t76 + t82
t87 = t48 ** 2
t89 = 0.1e1 / t51 / t50
t90 = t87 * t89
t91 = t35 ** 2
t96 = t90 * t34 / t55 / t91 / r0
t97 = 0.50e2 * t96
t104 = t50 ** 2
t105 = 0.1e1 / t104
t108 = t91 ** 2
t111 = 0.13171780538194444444e-3 * t105 * t34 * s0 / t108
t100001 = 7008.0 * (t83 * t83) - 73.0 * (t83 * math.sqrt(0.162e3 * t40 + t97)) + 0.2e0 * (0.162e3 * t40 + t97)
res = 0.804e0 + 0.804e0 * (0.2e1 * 0.61346278355378295562e-1 * t81) + (0.10e2 / 0.81e2 + 0.45938270703125000000e-2 * t33 / t43) * t48 * t53 * s0 * t58 / 0.24e2 + t100001 / 0.97200e5 + (0.804e0 * 0.61346278355378295562e-1 ** 2 * 0.1e1 + 0.32911784453572541028e-4 - 0.2e0 * 0.50e2 / 0.97200e5) * t96 + (0.20448759451792765188e-2 - 0.2e0 * 0.162e3 / 0.97200e5) * t40 + (0.1e1 - 0.2e0 * 0.0 / 0.97200e5) * t111"
prog mgga_x_regtpss_polHint1_1n_0_e "res = 0.1e1 + 0.22222222222222222222e0 * t68 * t53 * t71"
prog mgga_x_regtpss_polHint1_1n_0_q "t35 = r0 ** 2
t48 = 6 ** (0.1e1 / 0.3e1)
t50 = math.pi ** 2
t51 = t50 ** (0.1e1 / 0.3e1)
t52 = t51 ** 2
t53 = 0.1e1 / t52
t55 = r0 ** (0.1e1 / 0.3e1)
t56 = t55 ** 2
t58 = 0.1e1 / t56 / t35
t65 = s0 * t58
t67 = tau0 / t56 / r0 - t65 / 0.8e1
t68 = t67 * t48
res = 0.1e1 - 0.45e0 * 0.22222222222222222222e0 + 0.5e1 / 0.9e1 * 0.22222222222222222222e0 * (t68 * t53 - 0.9e0) ** 2"
theorem mgga_x_regtpss_polHint1_1n_0 : PolHint {tPos := true} .mgga mgga_x_regtpss_polHint1_1n_q ⟨18, mgga_x_regtpss_polHint1_1n_0_e.res, pos⟩ :=
  polHint_rw 1000 mgga_x_regtpss_polHint1_1n_0_q (hs := []) fn (par := []) (npar := []) (flds := []) rfl rfl rfl (by decide +kernel) (by decide +kernel)
prog mgga_x_regtpss_polHint1_1n_1_e "res = 7008.0 * (t83 * t83) - 73.0 * (t83 * math.sqrt(0.162e3 * t40 + t97)) + 0.2e0 * (0.162e3 * t40 + t97)"
theorem mgga_x_regtpss_polHint1_1n_1 : PolHint {tPos := true} .mgga mgga_x_regtpss_polHint1_1n_q ⟨33, mgga_x_regtpss_polHint1_1n_1_e.res, nn⟩ :=
  polHint_amgm (by norm_num)
theorem mgga_x_regtpss_polHint1_1n : PolHint {tPos := true} .mgga mgga_x_regtpss_polHint1_q ⟨37, mgga_x_regtpss_polHint1_1n_e.res, sgI true⟩ :=
  polHint_rw 1000 mgga_x_regtpss_polHint1_1n_q (hs := [⟨18, mgga_x_regtpss_polHint1_1n_0_e.res, pos⟩, ⟨33, mgga_x_regtpss_polHint1_1n_1_e.res, nn⟩]) (fc mgga_x_regtpss_polHint1_1n_0 (fc mgga_x_regtpss_polHint1_1n_1 fn)) (par := []) (npar := []) (flds := []) rfl rfl rfl (by decide +kernel) (by decide +kernel)
prog mgga_x_regtpss_polHint1_1_e "res = (0.804e0) + (((0.10e2 / 0.81e2 + 0.45938270703125000000e-2 * t33 / t43) * t48 * t53 * s0 * t58 / 0.24e2 + 0.146e3 / 0.2025e4 * t84 - 0.73e2 / 0.97200e5 * t83 * t99 + t102 + 0.20448759451792765188e-2 * t40 + t111)) / (t115)"
theorem mgga_x_regtpss_polHint1_1 : PolHint {tPos := true} .mgga mgga_x_regtpss_polHint1_q ⟨37, mgga_x_regtpss_polHint1_1_e.res, sgI true⟩ :=
  polHint_fadd true mgga_x_regtpss_polHint1_1d mgga_x_regtpss_polHint1_1n
theorem mgga_x_regtpss_polHint1 : PolHint {tPos := true} .mgga mgga_x_regtpss.polBody ⟨56, mgga_x_regtpss_polHint1_e.res, sgI true⟩ :=
  polHint_rw 1000 mgga_x_regtpss_polHint1_q (hs := [⟨18, mgga_x_regtpss_polHint1_0_e.res, pos⟩, ⟨37, mgga_x_regtpss_polHint1_1_e.res, sgI true⟩]) (fc mgga_x_regtpss_polHint1_0 (fc mgga_x_regtpss_polHint1_1 fn)) (par := []) (npar := []) (flds := []) rfl rfl rfl (by decide +kernel) (by decide +kernel)
prog mgga_x_regtpss_polHint2_e "res = 0.804e0 + (0.29644443963477366255e-1 * t81 + 0.146e3 / 0.2025e4 * t137 - 0.73e2 / 0.97200e5 * t136 * t140 + t102 + 0.13087206049147369720e0 + t111) * t116"
prog mgga_x_regtpss_polHint2_q "t34 = s0 ** 2
t35 = r0 ** 2
t48 = 6 ** (0.1e1 / 0.3e1)
t50 = math.pi ** 2
t51 = t50 ** (0.1e1 / 0.3e1)
t52 = t51 ** 2
t53 = 0.1e1 / t52
t55 = r0 ** (0.1e1 / 0.3e1)
t56 = t55 ** 2
t58 = 0.1e1 / t56 / t35
t65 = s0 * t58
t80 = t48 * t53
t81 = t80 * t65
t82 = t81 / 0.36e2
t87 = t48 ** 2
t89 = 0.1e1 / t51 / t50
t90 = t87 * t89
t91 = t35 ** 2
t96 = t90 * t34 / t55 / t91 / r0
t97 = 0.50e2 * t96
t102 = 0.32911784453572541028e-4 * t96
t104 = t50 ** 2
t105 = 0.1e1 / t104
t108 = t91 ** 2
t111 = 0.13171780538194444444e-3 * t105 * t34 * s0 / t108
t115 = (0.1e1 + 0.61346278355378295562e-1 * t81) ** 2
t136 = -0.45000000000000000000e0 + t82
t137 = t136 ** 2
t140 = math.sqrt(0.10368e5 + t97)
res = 0.804e0 + (0.29644443963477366255e-1 * t81 + 0.146e3 / 0.2025e4 * t137 - 0.73e2 / 0.97200e5 * t136 * t140 + t102 + 0.13087206049147369720e0 + t111) / t115"
prog mgga_x_regtpss_polHint2_0d_e "res = t115"
prog mgga_x_regtpss_polHint2_0d_q "t35 = r0 ** 2
t48 = 6 ** (0.1e1 / 0.3e1)
t50 = math.pi ** 2
t51 = t50 ** (0.1e1 / 0.3e1)
t52 = t51 ** 2
t53 = 0.1e1 / t52
t55 = r0 ** (0.1e1 / 0.3e1)
t56 = t55 ** 2
t58 = 0.1e1 / t56 / t35
t65 = s0 * t58
t80 = t48 * t53
t81 = t80 * t65
t115 = (0.1e1 + 0.61346278355378295562e-1 * t81) ** 2
res = t115"
theorem mgga_x_regtpss_polHint2_0d : PolHint {tPos := true} .mgga mgga_x_regtpss_polHint2_q ⟨29, mgga_x_regtpss_polHint2_0d_e.res, pos⟩ :=
  polHint_rw 1000 mgga_x_regtpss_polHint2_0d_q (hs := []) fn (par := []) (npar := []) (flds := []) rfl rfl rfl (by decide +kernel) (by decide +kernel)
prog mgga_x_regtpss_polHint2_0n_e "res = (0.804e0) * (t115) + ((0.29644443963477366255e-1 * t81 + 0.146e3 / 0.2025e4 * t137 - 0.73e2 / 0.97200e5 * t136 * t140 + t102 + 0.13087206049147369720e0 + t111))"
prog mgga_x_regtpss_polHint2_0n_q "t34 = s0 ** 2
t35 = r0 ** 2
t48 = 6 ** (0.1e1 / 0.3e1)
t50 = math.pi ** 2
t51 = t50 ** (0.1e1 / 0.3e1)
t52 = t51 ** 2
t53 = 0.1e1 / t52
t55 = r0 ** (0.1e1 / 0.3e1)
t56 = t55 ** 2
t58 = 0.1e1 / t56 / t35
t65 = s0 * t58
t80 = t48 * t53
t81 = t80 * t65
t82 = t81 / 0.36e2
t87 = t48 ** 2
t89 = 0.1e1 / t51 / t50
t90 = t87 * t89
t91 = t35 ** 2
t96 = t90 * t34 / t55 / t91 / r0
t97 = 0.50e2 * t96
t104 = t50 ** 2
t105 = 0.1e1 / t104
t108 = t91 ** 2
t111 = 0.13171780538194444444e-3 * t105 * t34 * s0 / t108
t136 = -0.45000000000000000000e0 + t82
t100001 = 7008.0 * (t136 * t136) - 73.0 * (t136 * math.sqrt(0.10368e5 + t97)) + 0.2e0 * (0.10368e5 + t97)
res = 0.804e0 + 0.804e0 * (0.2e1 * 0.61346278355378295562e-1 * t81) + 0.29644443963477366255e-1 * t81 + t100001 / 0.97200e5 + (0.804e0 * 0.61346278355378295562e-1 ** 2 * 0.1e1 + 0.32911784453572541028e-4 - 0.2e0 * 0.50e2 / 0.97200e5) * t96 + (0.13087206049147369720e0 - 0.2e0 * 0.10368e5 / 0.97200e5) + (0.1e1 - 0.2e0 * 0.0 / 0.97200e5) * t111"
prog mgga_x_regtpss_polHint2_0n_0_e "res = 7008.0 * (t136 * t136) - 73.0 * (t136 * math.sqrt(0.10368e5 + t97)) + 0.2e0 * (0.10368e5 + t97)"
theorem mgga_x_regtpss_polHint2_0n_0 : PolHint {tPos := true} .mgga mgga_x_regtpss_polHint2_0n_q ⟨25, mgga_x_regtpss_polHint2_0n_0_e.res, nn⟩ :=
  polHint_amgm (by norm_num)
theorem mgga_x_regtpss_polHint2_0n : PolHint {tPos := true} .mgga mgga_x_regtpss_polHint2_q ⟨29, mgga_x_regtpss_polHint2_0n_e.res, sgI true⟩ :=
  polHint_rw 1000 mgga_x_regtpss_polHint2_0n_q (hs := [⟨25, mgga_x_regtpss_polHint2_0n_0_e.res, nn⟩]) (fc mgga_x_regtpss_polHint2_0n_0 fn) (par := []) (npar := []) (flds := []) rfl rfl rfl (by decide +kernel) (by decide +kernel)
prog mgga_x_regtpss_polHint2_0_e "res = (0.804e0) + ((0.29644443963477366255e-1 * t81 + 0.146e3 / 0.2025e4 * t137 - 0.73e2 / 0.97200e5 * t136 * t140 + t102 + 0.13087206049147369720e0 + t111)) / (t115)"
theorem mgga_x_regtpss_polHint2_0 : PolHint {tPos := true} .mgga mgga_x_regtpss_polHint2_q ⟨29, mgga_x_regtpss_polHint2_0_e.res, sgI true⟩ :=
  polHint_fadd true mgga_x_regtpss_polHint2_0d mgga_x_regtpss_polHint2_0n
theorem mgga_x_regtpss_polHint2 : PolHint {tPos := true} .mgga mgga_x_regtpss.polBody ⟨66, mgga_x_regtpss_polHint2_e.res, sgI true⟩ :=
  polHint_rw 1000 mgga_x_regtpss_polHint2_q (hs := [⟨29, mgga_x_regtpss_polHint2_0_e.res, sgI true⟩]) (fc mgga_x_regtpss_polHint2_0 fn) (par := []) (npar := []) (flds := []) rfl rfl rfl (by decide +kernel) (by decide +kernel)
prog mgga_x_regtpss_polHint3_e "res = 0.1e1 + 0.22222222222222222222e0 * t199 * t53 * t202"
prog mgga_x_regtpss_polHint3_q "t48 = 6 ** (0.1e1 / 0.3e1)
t50 = math.pi ** 2
t51 = t50 ** (0.1e1 / 0.3e1)
t52 = t51 ** 2
t53 = 0.1e1 / t52
t171 = r1 ** 2
t186 = r1 ** (0.1e1 / 0.3e1)
t187 = t186 ** 2
t189 = 0.1e1 / t187 / t171
t196 = s2 * t189
t198 = tau1 / t187 / r1 - t196 / 0.8e1
t199 = t198 * t48
res = 0.1e1 - 0.45e0 * 0.22222222222222222222e0 + 0.5e1 / 0.9e1 * 0.22222222222222222222e0 * (t199 * t53 - 0.9e0) ** 2"
theorem mgga_x_regtpss_polHint3 : PolHint {tPos := true} .mgga mgga_x_regtpss.polBody ⟨85, mgga_x_regtpss_polHint3_e.res, pos⟩ :=
  polHint_rw 1000 mgga_x_regtpss_polHint3_q (hs := []) fn (par := []) (npar := []) (flds := []) rfl rfl rfl (by decide +kernel) (by decide +kernel)
prog mgga_x_regtpss_polHint4_e "res = 0.804e0 + ((0.10e2 / 0.81e2 + 0.45938270703125000000e-2 * t169 / t179) * t48 * t53 * s2 * t189 / 0.24e2 + 0.146e3 / 0.2025e4 * t214 - 0.73e2 / 0.97200e5 * t213 * t225 + t228 + 0.20448759451792765188e-2 * t176 + t235) * t240"
prog mgga_x_regtpss_polHint4_q "t48 = 6 ** (0.1e1 / 0.3e1)
t50 = math.pi ** 2
t51 = t50 ** (0.1e1 / 0.3e1)
t52 = t51 ** 2
t53 = 0.1e1 / t52
t80 = t48 * t53
t87 = t48 ** 2
t89 = 0.1e1 / t51 / t50
t90 = t87 * t89
t104 = t50 ** 2
t105 = 0.1e1 / t104
t169 = (s2 / r1 / tau1) ** 0.30e1
t170 = s2 ** 2
t171 = r1 ** 2
t174 = tau1 ** 2
t176 = t170 / t171 / t174
t179 = (0.1e1 + t176 / 0.64e2) ** 2
t186 = r1 ** (0.1e1 / 0.3e1)
t187 = t186 ** 2
t189 = 0.1e1 / t187 / t171
t196 = s2 * t189
t198 = tau1 / t187 / r1 - t196 / 0.8e1
t199 = t198 * t48
t202 = 0.5e1 / 0.9e1 * t199 * t53 - 0.1e1
t207 = math.sqrt(0.1e1 + 0.22222222222222222222e0 * t199 * t53 * t202)
t211 = t80 * t196
t212 = t211 / 0.36e2
t213 = 0.9e1 / 0.20e2 * t202 / t207 + t212
t214 = t213 ** 2
t217 = t171 ** 2
t222 = t90 * t170 / t186 / t217 / r1
t223 = 0.50e2 * t222
t225 = math.sqrt(0.162e3 * t176 + t223)
t228 = 0.32911784453572541028e-4 * t222
t232 = t217 ** 2
t235 = 0.13171780538194444444e-3 * t105 * t170 * s2 / t232
t239 = (0.1e1 + 0.61346278355378295562e-1 * t211) ** 2
res = 0.804e0 + ((0.10e2 / 0.81e2 + 0.45938270703125000000e-2 * t169 / t179) * t48 * t53 * s2 * t189 / 0.24e2 + 0.146e3 / 0.2025e4 * t214 - 0.73e2 / 0.97200e5 * t213 * t225 + t228 + 0.20448759451792765188e-2 * t176 + t235) / t239"
prog mgga_x_regtpss_polHint4_0_e "res = 0.1e1 + 0.22222222222222222222e0 * t199 * t53 * t202"
prog mgga_x_regtpss_polHint4_0_q "t48 = 6 ** (0.1e1 / 0.3e1)
t50 = math.pi ** 2
t51 = t50 ** (0.1e1 / 0.3e1)
t52 = t51 ** 2
t53 = 0.1e1 / t52
t171 = r1 ** 2
t186 = r1 ** (0.1e1 / 0.3e1)
t187 = t186 ** 2
t189 = 0.1e1 / t187 / t171
t196 = s2 * t189
t198 = tau1 / t187 / r1 - t196 / 0.8e1
t199 = t198 * t48
res = 0.1e1 - 0.45e0 * 0.22222222222222222222e0 + 0.5e1 / 0.9e1 * 0.22222222222222222222e0 * (t199 * t53 - 0.9e0) ** 2"
theorem mgga_x_regtpss_polHint4_0 : PolHint {tPos := true} .mgga mgga_x_regtpss_polHint4_q ⟨24, mgga_x_regtpss_polHint4_0_e.res, pos⟩ :=
  polHint_rw 1000 mgga_x_regtpss_polHint4_0_q (hs := []) fn (par := []) (npar := []) (flds := []) rfl rfl rfl (by decide +kernel) (by decide +kernel)
prog mgga_x_regtpss_polHint4_1d_e "res = t239"
prog mgga_x_regtpss_polHint4_1d_q "t48 = 6 ** (0.1e1 / 0.3e1)
t50 = math.pi ** 2
t51 = t50 ** (0.1e1 / 0.3e1)
t52 = t51 ** 2
t53 = 0.1e1 / t52
t80 = t48 * t53
t171 = r1 ** 2
t186 = r1 ** (0.1e1 / 0.3e1)
t187 = t186 ** 2
t189 = 0.1e1 / t187 / t171
t196 = s2 * t189
t211 = t80 * t196
t239 = (0.1e1 + 0.61346278355378295562e-1 * t211) ** 2
res = t239"
theorem mgga_x_regtpss_polHint4_1d : PolHint {tPos := true} .mgga mgga_x_regtpss_polHint4_q ⟨37, mgga_x_regtpss_polHint4_1d_e.res, pos⟩ :=
  polHint_rw 1000 mgga_x_regtpss_polHint4_1d_q (hs := []) fn (par := []) (npar := []) (flds := []) rfl rfl rfl (by decide +kernel) (by decide +kernel)
prog mgga_x_regtpss_polHint4_1n_e "res = (0.804e0) * (t239) + (((0.10e2 / 0.81e2 + 0.45938270703125000000e-2 * t169 / t179) * t48 * t53 * s2 * t189 / 0.24e2 + 0.146e3 / 0.2025e4 * t214 - 0.73e2 / 0.97200e5 * t213 * t225 + t228 + 0.20448759451792765188e-2 * t176 + t235))"
prog mgga_x_regtpss_polHint4_1n_q "t48 = 6 ** (0.1e1 / 0.3e1)
t50 = math.pi ** 2
t51 = t50 ** (0.1e1 / 0.3e1)
t52 = t51 ** 2
t53 = 0.1e1 / t52
t80 = t48 * t53
t87 = t48 ** 2
t89 = 0.1e1 / t51 / t50
t90 = t87 * t89
t104 = t50 ** 2
t105 = 0.1e1 / t104
t169 = (s2 / r1 / tau1) ** 0.30e1
t170 = s2 ** 2
t171 = r1 ** 2
t174 = tau1 ** 2
t176 = t170 / t171 / t174
t179 = (0.1e1 + t176 / 0.64e2) ** 2
t186 = r1 ** (0.1e1 / 0.3e1)
t187 = t186 ** 2
t189 = 0.1e1 / t187 / t171
t196 = s2 * t189
t198 = tau1 / t187 / r1 - t196 / 0.8e1
t199 = t198 * t48
t202 = 0.5e1 / 0.9e1 * t199 * t53 - 0.1e1
t207 = math.sqrt(0.1e1 + 0.22222222222222222222e0 * t199 * t53 * t202)
t211 = t80 * t196
t212 = t211 / 0.36e2
t213 = 0.9e1 / 0.20e2 * t202 / t207 + t212
t217 = t171 ** 2
t222 = t90 * t170 / t186 / t217 / r1
t223 = 0.50e2 * t222
t232 = t217 ** 2
t235 = 0.13171780538194444444e-3 * t105 * t170 * s2 / t232
t100001 = 7008.0 * (t213 * t213) - 73.0 * (t213 * math.sqrt(0.162e3 * t176 + t223)) + 0.2e0 * (0.162e3 * t176 + t223)
res = 0.804e0 + 0.804e0 * (0.2e1 * 0.61346278355378295562e-1 * t211) + (0.10e2 / 0.81e2 + 0.45938270703125000000e-2 * t169 / t179) * t48 * t53 * s2 * t189 / 0.24e2 + t100001 / 0.97200e5 + (0.804e0 * 0.61346278355378295562e-1 ** 2 * 0.1e1 + 0.32911784453572541028e-4 - 0.2e0 * 0.50e2 / 0.97200e5) * t222 + (0.20448759451792765188e-2 - 0.2e0 * 0.162e3 / 0.97200e5) * t176 + (0.1e1 - 0.2e0 * 0.0 / 0.97200e5) * t235"
prog mgga_x_regtpss_polHint4_1n_0_e "res = 0.1e1 + 0.22222222222222222222e0 * t199 * t53 * t202"
prog mgga_x_regtpss_polHint4_1n_0_q "t48 = 6 ** (0.1e1 / 0.3e1)
t50 = math.pi ** 2
t51 = t50 ** (0.1e1 / 0.3e1)
t52 = t51 ** 2
t53 = 0.1e1 / t52
t171 = r1 ** 2
t186 = r1 ** (0.1e1 / 0.3e1)
t187 = t186 ** 2
t189 = 0.1e1 / t187 / t171
t196 = s2 * t189
t198 = tau1 / t187 / r1 - t196 / 0.8e1
t199 = t198 * t48
res = 0.1e1 - 0.45e0 * 0.22222222222222222222e0 + 0.5e1 / 0.9e1 * 0.22222222222222222222e0 * (t199 * t53 - 0.9e0) ** 2"
theorem mgga_x_regtpss_polHint4_1n_0 : PolHint {tPos := true} .mgga mgga_x_regtpss_polHint4_1n_q ⟨24, mgga_x_regtpss_polHint4_1n_0_e.res, pos⟩ :=
  polHint_rw 1000 mgga_x_regtpss_polHint4_1n_0_q (hs := []) fn (par := []) (npar := []) (flds := []) rfl rfl rfl (by decide +kernel) (by decide +kernel)
prog mgga_x_regtpss_polHint4_1n_1_e "res = 7008.0 * (t213 * t213) - 73.0 * (t213 * math.sqrt(0.162e3 * t176 + t223)) + 0.2e0 * (0.162e3 * t176 + t223)"
theorem mgga_x_regtpss_polHint4_1n_1 : PolHint {tPos := true} .mgga mgga_x_regtpss_polHint4_1n_q ⟨33, mgga_x_regtpss_polHint4_1n_1_e.res, nn⟩ :=
  polHint_amgm (by norm_num)
theorem mgga_x_regtpss_polHint4_1n : PolHint {tPos := true} .mgga mgga_x_regtpss_polHint4_q ⟨37, mgga_x_regtpss_polHint4_1n_e.res, sgI true⟩ :=
  polHint_rw 1000 mgga_x_regtpss_polHint4_1n_q (hs := [⟨24, mgga_x_regtpss_polHint4_1n_0_e.res, pos⟩, ⟨33, mgga_x_regtpss_polHint4_1n_1_e.res, nn⟩]) (fc mgga_x_regtpss_polHint4_1n_0 (fc mgga_x_regtpss_polHint4_1n_1 fn)) (par := []) (npar := []) (flds := []) rfl rfl rfl (by decide +kernel) (by decide +kernel)
prog mgga_x_regtpss_polHint4_1_e "res = (0.804e0) + (((0.10e2 / 0.81e2 + 0.45938270703125000000e-2 * t169 / t179) * t48 * t53 * s2 * t189 / 0.24e2 + 0.146e3 / 0.2025e4 * t214 - 0.73e2 / 0.97200e5 * t213 * t225 + t228 + 0.20448759451792765188e-2 * t176 + t235)) / (t239)"
theorem mgga_x_regtpss_polHint4_1 : PolHint {tPos := true} .mgga mgga_x_regtpss_polHint4_q ⟨37, mgga_x_regtpss_polHint4_1_e.res, sgI true⟩ :=
  polHint_fadd true mgga_x_regtpss_polHint4_1d mgga_x_regtpss_polHint4_1n
theorem mgga_x_regtpss_polHint4 : PolHint {tPos := true} .mgga mgga_x_regtpss.polBody ⟨99, mgga_x_regtpss_polHint4_e.res, sgI true⟩ :=
  polHint_rw 1000 mgga_x_regtpss_polHint4_q (hs := [⟨24, mgga_x_regtpss_polHint4_0_e.res, pos⟩, ⟨37, mgga_x_regtpss_polHint4_1_e.res, sgI true⟩]) (fc mgga_x_regtpss_polHint4_0 (fc mgga_x_regtpss_polHint4_1 fn)) (par := []) (npar := []) (flds := []) rfl rfl rfl (by decide +kernel) (by decide +kernel)
prog mgga_x_regtpss_polHint5_e "res = 0.804e0 + (0.29644443963477366255e-1 * t211 + 0.146e3 / 0.2025e4 * t261 - 0.73e2 / 0.97200e5 * t260 * t264 + t228 + 0.13087206049147369720e0 + t235) * t240"
prog mgga_x_regtpss_polHint5_q "t48 = 6 ** (0.1e1 / 0.3e1)
t50 = math.pi ** 2
t51 = t50 ** (0.1e1 / 0.3e1)
t52 = t51 ** 2
t53 = 0.1e1 / t52
t80 = t48 * t53
t87 = t48 ** 2
t89 = 0.1e1 / t51 / t50
t90 = t87 * t89
t104 = t50 ** 2
t105 = 0.1e1 / t104
t170 = s2 ** 2
t171 = r1 ** 2
t186 = r1 ** (0.1e1 / 0.3e1)
t187 = t186 ** 2
t189 = 0.1e1 / t187 / t171
t196 = s2 * t189
t211 = t80 * t196
t212 = t211 / 0.36e2
t217 = t171 ** 2
t222 = t90 * t170 / t186 / t217 / r1
t223 = 0.50e2 * t222
t228 = 0.32911784453572541028e-4 * t222
t232 = t217 ** 2
t235 = 0.13171780538194444444e-3 * t105 * t170 * s2 / t232
t239 = (0.1e1 + 0.61346278355378295562e-1 * t211) ** 2
t260 = -0.45000000000000000000e0 + t212
t261 = t260 ** 2
t264 = math.sqrt(0.10368e5 + t223)
res = 0.804e0 + (0.29644443963477366255e-1 * t211 + 0.146e3 / 0.2025e4 * t261 - 0.73e2 / 0.97200e5 * t260 * t264 + t228 + 0.13087206049147369720e0 + t235) / t239"
prog mgga_x_regtpss_polHint5_0d_e "res = t239"
prog mgga_x_regtpss_polHint5_0d_q "t48 = 6 ** (0.1e1 / 0.3e1)
t50 = math.pi ** 2
t51 = t50 ** (0.1e1 / 0.3e1)
t52 = t51 ** 2
t53 = 0.1e1 / t52
t80 = t48 * t53
t171 = r1 ** 2
t186 = r1 ** (0.1e1 / 0.3e1)
t187 = t186 ** 2
t189 = 0.1e1 / t187 / t171
t196 = s2 * t189
t211 = t80 * t196
t239 = (0.1e1 + 0.61346278355378295562e-1 * t211) ** 2
res = t239"
theorem mgga_x_regtpss_polHint5_0d : PolHint {tPos := true} .mgga mgga_x_regtpss_polHint5_q ⟨29, mgga_x_regtpss_polHint5_0d_e.res, pos⟩ :=
  polHint_rw 1000 mgga_x_regtpss_polHint5_0d_q (hs := []) fn (par := []) (npar := []) (flds := []) rfl rfl rfl (by decide +kernel) (by decide +kernel)
prog mgga_x_regtpss_polHint5_0n_e "res = (0.804e0) * (t239) + ((0.29644443963477366255e-1 * t211 + 0.146e3 / 0.2025e4 * t261 - 0.73e2 / 0.97200e5 * t260 * t264 + t228 + 0.13087206049147369720e0 + t235))"
prog mgga_x_regtpss_polHint5_0n_q "t48 = 6 ** (0.1e1 / 0.3e1)
t50 = math.pi ** 2
t51 = t50 ** (0.1e1 / 0.3e1)
t52 = t51 ** 2
t53 = 0.1e1 / t52
t80 = t48 * t53
t87 = t48 ** 2
t89 = 0.1e1 / t51 / t50
t90 = t87 * t89
t104 = t50 ** 2
t105 = 0.1e1 / t104
t170 = s2 ** 2
t171 = r1 ** 2
t186 = r1 ** (0.1e1 / 0.3e1)
t187 = t186 ** 2
t189 = 0.1e1 / t187 / t171
t196 = s2 * t189
t211 = t80 * t196
t212 = t211 / 0.36e2
t217 = t171 ** 2
t222 = t90 * t170 / t186 / t217 / r1
t223 = 0.50e2 * t222
t232 = t217 ** 2
t235 = 0.13171780538194444444e-3 * t105 * t170 * s2 / t232
t260 = -0.45000000000000000000e0 + t212
t100001 = 7008.0 * (t260 * t260) - 73.0 * (t260 * math.sqrt(0.10368e5 + t223)) + 0.2e0 * (0.10368e5 + t223)
res = 0.804e0 + 0.804e0 * (0.2e1 * 0.61346278355378295562e-1 * t211) + 0.29644443963477366255e-1 * t211 + t100001 / 0.97200e5 + (0.804e0 * 0.61346278355378295562e-1 ** 2 * 0.1e1 + 0.32911784453572541028e-4 - 0.2e0 * 0.50e2 / 0.97200e5) * t222 + (0.13087206049147369720e0 - 0.2e0 * 0.10368e5 / 0.97200e5) + (0.1e1 - 0.2e0 * 0.0 / 0.97200e5) * t235"
prog mgga_x_regtpss_polHint5_0n_0_e "res = 7008.0 * (t260 * t260) - 73.0 * (t260 * math.sqrt(0.10368e5 + t223)) + 0.2e0 * (0.10368e5 + t223)"
theorem mgga_x_regtpss_polHint5_0n_0 : PolHint {tPos := true} .mgga mgga_x_regtpss_polHint5_0n_q ⟨25, mgga_x_regtpss_polHint5_0n_0_e.res, nn⟩ :=
  polHint_amgm (by norm_num)
theorem mgga_x_regtpss_polHint5_0n : PolHint {tPos := true} .mgga mgga_x_regtpss_polHint5_q ⟨29, mgga_x_regtpss_polHint5_0n_e.res, sgI true⟩ :=
  polHint_rw 1000 mgga_x_regtpss_polHint5_0n_q (hs := [⟨25, mgga_x_regtpss_polHint5_0n_0_e.res, nn⟩]) (fc mgga_x_regtpss_polHint5_0n_0 fn) (par := []) (npar := []) (flds := []) rfl rfl rfl (by decide +kernel) (by decide +kernel)
prog mgga_x_regtpss_polHint5_0_e "res = (0.804e0) + ((0.29644443963477366255e-1 * t211 + 0.146e3 / 0.2025e4 * t261 - 0.73e2 / 0.97200e5 * t260 * t264 + t228 + 0.13087206049147369720e0 + t235)) / (t239)"
theorem mgga_x_regtpss_polHint5_0 : PolHint {tPos := true} .mgga mgga_x_regtpss_polHint5_q ⟨29, mgga_x_regtpss_polHint5_0_e.res, sgI true⟩ :=
  polHint_fadd true mgga_x_regtpss_polHint5_0d mgga_x_regtpss_polHint5_0n
theorem mgga_x_regtpss_polHint5 : PolHint {tPos := true} .mgga mgga_x_regtpss.polBody ⟨109, mgga_x_regtpss_polHint5_e.res, sgI true⟩ :=
  polHint_rw 1000 mgga_x_regtpss_polHint5_q (hs := [⟨29, mgga_x_regtpss_polHint5_0_e.res, sgI true⟩]) (fc mgga_x_regtpss_polHint5_0 fn) (par := []) (npar := []) (flds := []) rfl rfl rfl (by decide +kernel) (by decide +kernel)
theorem mgga_x_regtpss_definedPol : DefinedPol {tPos := true} .mgga mgga_x_regtpss :=
  definedPolH_of _ mgga_x_regtpss_neverRaises (hs := [⟨36, mgga_x_regtpss_polHint0_e.res, pos⟩, ⟨56, mgga_x_regtpss_polHint1_e.res, sgI true⟩, ⟨66, mgga_x_regtpss_polHint2_e.res, sgI true⟩, ⟨85, mgga_x_regtpss_polHint3_e.res, pos⟩, ⟨99, mgga_x_regtpss_polHint4_e.res, sgI true⟩, ⟨109, mgga_x_regtpss_polHint5_e.res, sgI true⟩]) (fc mgga_x_regtpss_polHint0 (fc mgga_x_regtpss_polHint1 (fc mgga_x_regtpss_polHint2 (fc mgga_x_regtpss_polHint3 (fc mgga_x_regtpss_polHint4 (fc mgga_x_regtpss_polHint5 fn)))))) (par := []) (npar := []) (flds := []) rfl rfl rfl (by decide +kernel)

prog mgga_x_regtpss_unpolHint0_e "res = 0.1e1 + 0.22222222222222222222e0 * t62 * t45 * t65"
prog mgga_x_regtpss_unpolHint0_q "t19 = r0 ** (0.1e1 / 0.3e1)
t27 = r0 ** 2
t40 = 6 ** (0.1e1 / 0.3e1)
t42 = math.pi ** 2
t43 = t42 ** (0.1e1 / 0.3e1)
t44 = t43 ** 2
t45 = 0.1e1 / t44
t47 = 2 ** (0.1e1 / 0.3e1)
t48 = t47 ** 2
t50 = t19 ** 2
t53 = s0 * t48 / t50 / t27
t61 = tau0 * t48 / t50 / r0 - t53 / 0.8e1
t62 = t61 * t40
res = 0.1e1 - 0.45e0 * 0.22222222222222222222e0 + 0.5e1 / 0.9e1 * 0.22222222222222222222e0 * (t62 * t45 - 0.9e0) ** 2"
theorem mgga_x_regtpss_unpolHint0 : UnpolHint {tPos := true} .mgga mgga_x_regtpss.unpolBody ⟨29, mgga_x_regtpss_unpolHint0_e.res, pos⟩ :=
  unpolHint_rw 1000 mgga_x_regtpss_unpolHint0_q (hs := []) fn (par := []) (npar := []) (flds := []) rfl rfl rfl (by decide +kernel) (by decide +kernel)
prog mgga_x_regtpss_unpolHint1_e "res = 0.804e0 + ((0.10e2 / 0.81e2 + 0.45938270703125000000e-2 * t25 / t35) * t40 * t45 * t53 / 0.24e2 + 0.146e3 / 0.2025e4 * t78 - 0.73e2 / 0.97200e5 * t77 * t94 + t97 + 0.20448759451792765188e-2 * t32 + t106) * t111"
prog mgga_x_regtpss_unpolHint1_q "t19 = r0 ** (0.1e1 / 0.3e1)
t25 = (s0 / r0 / tau0) ** 0.30e1
t26 = s0 ** 2
t27 = r0 ** 2
t30 = tau0 ** 2
t32 = t26 / t27 / t30
t35 = (0.1e1 + t32 / 0.64e2) ** 2
t40 = 6 ** (0.1e1 / 0.3e1)
t42 = math.pi ** 2
t43 = t42 ** (0.1e1 / 0.3e1)
t44 = t43 ** 2
t45 = 0.1e1 / t44
t47 = 2 ** (0.1e1 / 0.3e1)
t48 = t47 ** 2
t50 = t19 ** 2
t53 = s0 * t48 / t50 / t27
t61 = tau0 * t48 / t50 / r0 - t53 / 0.8e1
t62 = t61 * t40
t65 = 0.5e1 / 0.9e1 * t62 * t45 - 0.1e1
t70 = math.sqrt(0.1e1 + 0.22222222222222222222e0 * t62 * t45 * t65)
t75 = t40 * t45 * t53
t76 = t75 / 0.36e2
t77 = 0.9e1 / 0.20e2 * t65 / t70 + t76
t78 = t77 ** 2
t81 = t40 ** 2
t83 = 0.1e1 / t43 / t42
t86 = t27 ** 2
t91 = t81 * t83 * t26 * t47 / t19 / t86 / r0
t94 = math.sqrt(0.162e3 * t32 + 0.100e3 * t91)
t97 = 0.65823568907145082056e-4 * t91
t99 = t42 ** 2
t103 = t86 ** 2
t106 = 0.52687122152777777776e-3 / t99 * t26 * s0 / t103
t110 = (0.1e1 + 0.61346278355378295562e-1 * t75) ** 2
res = 0.804e0 + ((0.10e2 / 0.81e2 + 0.45938270703125000000e-2 * t25 / t35) * t40 * t45 * t53 / 0.24e2 + 0.146e3 / 0.2025e4 * t78 - 0.73e2 / 0.97200e5 * t77 * t94 + t97 + 0.20448759451792765188e-2 * t32 + t106) / t110"
prog mgga_x_regtpss_unpolHint1_0_e "res = 0.1e1 + 0.22222222222222222222e0 * t62 * t45 * t65"
prog mgga_x_regtpss_unpolHint1_0_q "t19 = r0 ** (0.1e1 / 0.3e1)
t27 = r0 ** 2
t40 = 6 ** (0.1e1 / 0.3e1)
t42 = math.pi ** 2
t43 = t42 ** (0.1e1 / 0.3e1)
t44 = t43 ** 2
t45 = 0.1e1 / t44
t47 = 2 ** (0.1e1 / 0.3e1)
t48 = t47 ** 2
t50 = t19 ** 2
t53 = s0 * t48 / t50 / t27
t61 = tau0 * t48 / t50 / r0 - t53 / 0.8e1
t62 = t61 * t40
res = 0.1e1 - 0.45e0 * 0.22222222222222222222e0 + 0.5e1 / 0.9e1 * 0.22222222222222222222e0 * (t62 * t45 - 0.9e0) ** 2"
theorem mgga_x_regtpss_unpolHint1_0 : UnpolHint {tPos := true} .mgga mgga_x_regtpss_unpolHint1_q ⟨19, mgga_x_regtpss_unpolHint1_0_e.res, pos⟩ :=
  unpolHint_rw 1000 mgga_x_regtpss_unpolHint1_0_q (hs := []) fn (par := []) (npar := []) (flds := []) rfl rfl rfl (by decide +kernel) (by decide +kernel)
prog mgga_x_regtpss_unpolHint1_1d_e "res = t110"
prog mgga_x_regtpss_unpolHint1_1d_q "t19 = r0 ** (0.1e1 / 0.3e1)
t27 = r0 ** 2
t40 = 6 ** (0.1e1 / 0.3e1)
t42 = math.pi ** 2
t43 = t42 ** (0.1e1 / 0.3e1)
t44 = t43 ** 2
t45 = 0.1e1 / t44
t47 = 2 ** (0.1e1 / 0.3e1)
t48 = t47 ** 2
t50 = t19 ** 2
t53 = s0 * t48 / t50 / t27
t75 = t40 * t45 * t53
t110 = (0.1e1 + 0.61346278355378295562e-1 * t75) ** 2
res = t110"
theorem mgga_x_regtpss_unpolHint1_1d : UnpolHint {tPos := true} .mgga mgga_x_regtpss_unpolHint1_q ⟨34, mgga_x_regtpss_unpolHint1_1d_e.res, pos⟩ :=
  unpolHint_rw 1000 mgga_x_regtpss_unpolHint1_1d_q (hs := []) fn (par := []) (npar := []) (flds := []) rfl rfl rfl (by decide +kernel) (by decide +kernel)
prog mgga_x_regtpss_unpolHint1_1n_e "res = (0.804e0) * (t110) + (((0.10e2 / 0.81e2 + 0.45938270703125000000e-2 * t25 / t35) * t40 * t45 * t53 / 0.24e2 + 0.146e3 / 0.2025e4 * t78 - 0.73e2 / 0.97200e5 * t77 * t94 + t97 + 0.20448759451792765188e-2 * t32 + t106))"
prog mgga_x_regtpss_unpolHint1_1n_q "t19 = r0 ** (0.1e1 / 0.3e1)
t25 = (s0 / r0 / tau0) ** 0.30e1
t26 = s0 ** 2
t27 = r0 ** 2
t30 = tau0 ** 2
t32 = t26 / t27 / t30
t35 = (0.1e1 + t32 / 0.64e2) ** 2
t40 = 6 ** (0.1e1 / 0.3e1)
t42 = math.pi ** 2
t43 = t42 ** (0.1e1 / 0.3e1)
t44 = t43 ** 2
t45 = 0.1e1 / t44
t47 = 2 ** (0.1e1 / 0.3e1)
t48 = t47 ** 2
t50 = t19 ** 2
t53 = s0 * t48 / t50 / t27
t61 = tau0 * t48 / t50 / r0 - t53 / 0.8e1
t62 = t61 * t40
t65 = 0.5e1 / 0.9e1 * t62 * t45 - 0.1e1
t70 = math.sqrt(0.1e1 + 0.22222222222222222222e0 * t62 * t45 * t65)
t75 = t40 * t45 * t53
t76 = t75 / 0.36e2
t77 = 0.9e1 / 0.20e2 * t65 / t70 + t76
t81 = t40 ** 2
t83 = 0.1e1 / t43 / t42
t86 = t27 ** 2
t91 = t81 * t83 * t26 * t47 / t19 / t86 / r0
t99 = t42 ** 2
t103 = t86 ** 2
t106 = 0.52687122152777777776e-3 / t99 * t26 * s0 / t103
t100001 = 7008.0 * (t77 * t77) - 73.0 * (t77 * math.sqrt(0.162e3 * t32 + 0.100e3 * t91)) + 0.2e0 * (0.162e3 * t32 + 0.100e3 * t91)
res = 0.804e0 + 0.804e0 * (0.2e1 * 0.61346278355378295562e-1 * t75) + (0.10e2 / 0.81e2 + 0.45938270703125000000e-2 * t25 / t35) * t40 * t45 * t53 / 0.24e2 + t100001 / 0.97200e5 + (0.804e0 * 0.61346278355378295562e-1 ** 2 * 0.2e1 + 0.65823568907145082056e-4 - 0.2e0 * 0.100e3 / 0.97200e5) * t91 + (0.20448759451792765188e-2 - 0.2e0 * 0.162e3 / 0.97200e5) * t32 + (0.1e1 - 0.2e0 * 0.0 / 0.97200e5) * t106"
prog mgga_x_regtpss_unpolHint1_1n_0_e "res = 0.1e1 + 0.22222222222222222222e0 * t62 * t45 * t65"
prog mgga_x_regtpss_unpolHint1_1n_0_q "t19 = r0 ** (0.1e1 / 0.3e1)
t27 = r0 ** 2
t40 = 6 ** (0.1e1 / 0.3e1)
t42 = math.pi ** 2
t43 = t42 ** (0.1e1 / 0.3e1)
t44 = t43 ** 2
t45 = 0.1e1 / t44
t47 = 2 ** (0.1e1 / 0.3e1)
t48 = t47 ** 2
t50 = t19 ** 2
t53 = s0 * t48 / t50 / t27
t61 = tau0 * t48 / t50 / r0 - t53 / 0.8e1
t62 = t61 * t40
res = 0.1e1 - 0.45e0 * 0.22222222222222222222e0 + 0.5e1 / 0.9e1 * 0.22222222222222222222e0 * (t62 * t45 - 0.9e0) ** 2"
theorem mgga_x_regtpss_unpolHint1_1n_0 : UnpolHint {tPos := true} .mgga mgga_x_regtpss_unpolHint1_1n_q ⟨19, mgga_x_regtpss_unpolHint1_1n_0_e.res, pos⟩ :=
  unpolHint_rw 1000 mgga_x_regtpss_unpolHint1_1n_0_q (hs := []) fn (par := []) (npar := []) (flds := []) rfl rfl rfl (by decide +kernel) (by decide +kernel)
prog mgga_x_regtpss_unpolHint1_1n_1_e "res = 7008.0 * (t77 * t77) - 73.0 * (t77 * math.sqrt(0.162e3 * t32 + 0.100e3 * t91)) + 0.2e0 * (0.162e3 * t32 + 0.100e3 * t91)"
theorem mgga_x_regtpss_unpolHint1_1n_1 : UnpolHint {tPos := true} .mgga mgga_x_regtpss_unpolHint1_1n_q ⟨30, mgga_x_regtpss_unpolHint1_1n_1_e.res, nn⟩ :=
  unpolHint_amgm (by norm_num)
theorem mgga_x_regtpss_unpolHint1_1n : UnpolHint {tPos := true} .mgga mgga_x_regtpss_unpolHint1_q ⟨34, mgga_x_regtpss_unpolHint1_1n_e.res, sgI true⟩ :=
  unpolHint_rw 1000 mgga_x_regtpss_unpolHint1_1n_q (hs := [⟨19, mgga_x_regtpss_unpolHint1_1n_0_e.res, pos⟩, ⟨30, mgga_x_regtpss_unpolHint1_1n_1_e.res, nn⟩]) (fc mgga_x_regtpss_unpolHint1_1n_0 (fc mgga_x_regtpss_unpolHint1_1n_1 fn)) (par := []) (npar := []) (flds := []) rfl rfl rfl (by decide +kernel) (by decide +kernel)
prog mgga_x_regtpss_unpolHint1_1_e "res = (0.804e0) + (((0.10e2 / 0.81e2 + 0.45938270703125000000e-2 * t25 / t35) * t40 * t45 * t53 / 0.24e2 + 0.146e3 / 0.2025e4 * t78 - 0.73e2 / 0.97200e5 * t77 * t94 + t97 + 0.20448759451792765188e-2 * t32 + t106)) / (t110)"
theorem mgga_x_regtpss_unpolHint1_1 : UnpolHint {tPos := true} .mgga mgga_x_regtpss_unpolHint1_q ⟨34, mgga_x_regtpss_unpolHint1_1_e.res, sgI true⟩ :=
  unpolHint_fadd true mgga_x_regtpss_unpolHint1_1d mgga_x_regtpss_unpolHint1_1n
theorem mgga_x_regtpss_unpolHint1 : UnpolHint {tPos := true} .mgga mgga_x_regtpss.unpolBody ⟨45, mgga_x_regtpss_unpolHint1_e.res, sgI true⟩ :=
  unpolHint_rw 1000 mgga_x_regtpss_unpolHint1_q (hs := [⟨19, mgga_x_regtpss_unpolHint1_0_e.res, pos⟩, ⟨34, mgga_x_regtpss_unpolHint1_1_e.res, sgI true⟩]) (fc mgga_x_regtpss_unpolHint1_0 (fc mgga_x_regtpss_unpolHint1_1 fn)) (par := []) (npar := []) (flds := []) rfl rfl rfl (by decide +kernel) (by decide +kernel)
prog mgga_x_regtpss_unpolHint2_e "res = 0.804e0 + (0.29644443963477366255e-1 * t75 + 0.146e3 / 0.2025e4 * t132 - 0.73e2 / 0.48600e5 * t131 * t136 + t97 + 0.13087206049147369720e0 + t106) * t111"
prog mgga_x_regtpss_unpolHint2_q "t19 = r0 ** (0.1e1 / 0.3e1)
t26 = s0 ** 2
t27 = r0 ** 2
t40 = 6 ** (0.1e1 / 0.3e1)
t42 = math.pi ** 2
t43 = t42 ** (0.1e1 / 0.3e1)
t44 = t43 ** 2
t45 = 0.1e1 / t44
t47 = 2 ** (0.1e1 / 0.3e1)
t48 = t47 ** 2
t50 = t19 ** 2
t53 = s0 * t48 / t50 / t27
t75 = t40 * t45 * t53
t76 = t75 / 0.36e2
t81 = t40 ** 2
t83 = 0.1e1 / t43 / t42
t86 = t27 ** 2
t91 = t81 * t83 * t26 * t47 / t19 / t86 / r0
t97 = 0.65823568907145082056e-4 * t91
t99 = t42 ** 2
t103 = t86 ** 2
t106 = 0.52687122152777777776e-3 / t99 * t26 * s0 / t103
t110 = (0.1e1 + 0.61346278355378295562e-1 * t75) ** 2
t131 = -0.45000000000000000000e0 + t76
t132 = t131 ** 2
t136 = math.sqrt(0.2592e4 + 0.25e2 * t91)
res = 0.804e0 + (0.29644443963477366255e-1 * t75 + 0.146e3 / 0.2025e4 * t132 - 0.73e2 / 0.48600e5 * t131 * t136 + t97 + 0.13087206049147369720e0 + t106) / t110"
prog mgga_x_regtpss_unpolHint2_0d_e "res = t110"
prog mgga_x_regtpss_unpolHint2_0d_q "t19 = r0 ** (0.1e1 / 0.3e1)
t27 = r0 ** 2
t40 = 6 ** (0.1e1 / 0.3e1)
t42 = math.pi ** 2
t43 = t42 ** (0.1e1 / 0.3e1)
t44 = t43 ** 2
t45 = 0.1e1 / t44
t47 = 2 ** (0.1e1 / 0.3e1)
t48 = t47 ** 2
t50 = t19 ** 2
t53 = s0 * t48 / t50 / t27
t75 = t40 * t45 * t53
t110 = (0.1e1 + 0.61346278355378295562e-1 * t75) ** 2
res = t110"
theorem mgga_x_regtpss_unpolHint2_0d : UnpolHint {tPos := true} .mgga mgga_x_regtpss_unpolHint2_q ⟨26, mgga_x_regtpss_unpolHint2_0d_e.res, pos⟩ :=
  unpolHint_rw 1000 mgga_x_regtpss_unpolHint2_0d_q (hs := []) fn (par := []) (npar := []) (flds := []) rfl rfl rfl (by decide +kernel) (by decide +kernel)
prog mgga_x_regtpss_unpolHint2_0n_e "res = (0.804e0) * (t110) + ((0.29644443963477366255e-1 * t75 + 0.146e3 / 0.2025e4 * t132 - 0.73e2 / 0.48600e5 * t131 * t136 + t97 + 0.13087206049147369720e0 + t106))"
prog mgga_x_regtpss_unpolHint2_0n_q "t19 = r0 ** (0.1e1 / 0.3e1)
t26 = s0 ** 2
t27 = r0 ** 2
t40 = 6 ** (0.1e1 / 0.3e1)
t42 = math.pi ** 2
t43 = t42 ** (0.1e1 / 0.3e1)
t44 = t43 ** 2
t45 = 0.1e1 / t44
t47 = 2 ** (0.1e1 / 0.3e1)
t48 = t47 ** 2
t50 = t19 ** 2
t53 = s0 * t48 / t50 / t27
t75 = t40 * t45 * t53
t76 = t75 / 0.36e2
t81 = t40 ** 2
t83 = 0.1e1 / t43 / t42
t86 = t27 ** 2
t91 = t81 * t83 * t26 * t47 / t19 / t86 / r0
t99 = t42 ** 2
t103 = t86 ** 2
t106 = 0.52687122152777777776e-3 / t99 * t26 * s0 / t103
t131 = -0.45000000000000000000e0 + t76
t100001 = 3504.0 * (t131 * t131) - 73.0 * (t131 * math.sqrt(0.2592e4 + 0.25e2 * t91)) + 0.39e0 * (0.2592e4 + 0.25e2 * t91)
res = 0.804e0 + 0.804e0 * (0.2e1 * 0.61346278355378295562e-1 * t75) + 0.29644443963477366255e-1 * t75 + t100001 / 0.48600e5 + (0.804e0 * 0.61346278355378295562e-1 ** 2 * 0.2e1 + 0.65823568907145082056e-4 - 0.39e0 * 0.25e2 / 0.48600e5) * t91 + (0.13087206049147369720e0 - 0.39e0 * 0.2592e4 / 0.48600e5) + (0.1e1 - 0.39e0 * 0.0 / 0.48600e5) * t106"
prog mgga_x_regtpss_unpolHint2_0n_0_e "res = 3504.0 * (t131 * t131) - 73.0 * (t131 * math.sqrt(0.2592e4 + 0.25e2 * t91)) + 0.39e0 * (0.2592e4 + 0.25e2 * t91)"
theorem mgga_x_regtpss_unpolHint2_0n_0 : UnpolHint {tPos := true} .mgga mgga_x_regtpss_unpolHint2_0n_q ⟨22, mgga_x_regtpss_unpolHint2_0n_0_e.res, nn⟩ :=
  unpolHint_amgm (by norm_num)
theorem mgga_x_regtpss_unpolHint2_0n : UnpolHint {tPos := true} .mgga mgga_x_regtpss_unpolHint2_q ⟨26, mgga_x_regtpss_unpolHint2_0n_e.res, sgI true⟩ :=
  unpolHint_rw 1000 mgga_x_regtpss_unpolHint2_0n_q (hs := [⟨22, mgga_x_regtpss_unpolHint2_0n_0_e.res, nn⟩]) (fc mgga_x_regtpss_unpolHint2_0n_0 fn) (par := []) (npar := []) (flds := []) rfl rfl rfl (by decide +kernel) (by decide +kernel)
prog mgga_x_regtpss_unpolHint2_0_e "res = (0.804e0) + ((0.29644443963477366255e-1 * t75 + 0.146e3 / 0.2025e4 * t132 - 0.73e2 / 0.48600e5 * t131 * t136 + t97 + 0.13087206049147369720e0 + t106)) / (t110)"
theorem mgga_x_regtpss_unpolHint2_0 : UnpolHint {tPos := true} .mgga mgga_x_regtpss_unpolHint2_q ⟨26, mgga_x_regtpss_unpolHint2_0_e.res, sgI true⟩ :=
  unpolHint_fadd true mgga_x_regtpss_unpolHint2_0d mgga_x_regtpss_unpolHint2_0n
theorem mgga_x_regtpss_unpolHint2 : UnpolHint {tPos := true} .mgga mgga_x_regtpss.unpolBody ⟨55, mgga_x_regtpss_unpolHint2_e.res, sgI true⟩ :=
  unpolHint_rw 1000 mgga_x_regtpss_unpolHint2_q (hs := [⟨26, mgga_x_regtpss_unpolHint2_0_e.res, sgI true⟩]) (fc mgga_x_regtpss_unpolHint2_0 fn) (par := []) (npar := []) (flds := []) rfl rfl rfl (by decide +kernel) (by decide +kernel)
theorem mgga_x_regtpss_definedUnpol : DefinedUnpol {tPos := true} .mgga mgga_x_regtpss :=
  definedUnpolH_of _ mgga_x_regtpss_neverRaises (hs := [⟨29, mgga_x_regtpss_unpolHint0_e.res, pos⟩, ⟨45, mgga_x_regtpss_unpolHint1_e.res, sgI true⟩, ⟨55, mgga_x_regtpss_unpolHint2_e.res, sgI true⟩]) (fc mgga_x_regtpss_unpolHint0 (fc mgga_x_regtpss_unpolHint1 (fc mgga_x_regtpss_unpolHint2 fn))) (par := []) (npar := []) (flds := []) rfl rfl rfl (by decide +kernel)

prog mgga_x_revtm_polHint0_e "res = 0.1e1 + 0.22222222222222222222e0 * t102 * t48 * t105"
prog mgga_x_revtm_polHint0_q "t44 = 6 ** (0.1e1 / 0.3e1)
t45 = math.pi ** 2
t46 = t45 ** (0.1e1 / 0.3e1)
t47 = t46 ** 2
t48 = 0.1e1 / t47
t50 = r0 ** 2
t51 = r0 ** (0.1e1 / 0.3e1)
t52 = t51 ** 2
t54 = 0.1e1 / t52 / t50
t55 = s0 * t54
t76 = tau0 / t52 / r0
t102 = (t76 - t55 / 0.8e1) * t44
res = 0.1e1 - 0.45e0 * 0.22222222222222222222e0 + 0.5e1 / 0.9e1 * 0.22222222222222222222e0 * (t102 * t48 - 0.9e0) ** 2"
theorem mgga_x_revtm_polHint0 : PolHint {tPos := true} .mgga mgga_x_revtm.polBody ⟨46, mgga_x_revtm_polHint0_e.res, pos⟩ :=
  polHint_rw 1000 mgga_x_revtm_polHint0_q (hs := []) fn (par := []) (npar := []) (flds := []) rfl rfl rfl (by decide +kernel) (by decide +kernel)
prog mgga_x_revtm_polHint1_e "res = 0.1e1 + 0.5e1 / 0.12e2 * (0.10e2 / 0.81e2 + 0.25e2 / 0.8748e4 * t56) * t44 * t48 * s0 * t54 + 0.292e3 / 0.405e3 * t116 - 0.146e3 / 0.135e3 * t115 * t35 * (0.1e1 - t35)"
prog mgga_x_revtm_polHint1_q "t33 = s0 / r0 / tau0 / 0.8e1
t35 = lax_cond(t33 < 0.10e1, t33, 0.10e1)
t44 = 6 ** (0.1e1 / 0.3e1)
t45 = math.pi ** 2
t46 = t45 ** (0.1e1 / 0.3e1)
t47 = t46 ** 2
t48 = 0.1e1 / t47
t49 = t44 * t48
t50 = r0 ** 2
t51 = r0 ** (0.1e1 / 0.3e1)
t52 = t51 ** 2
t54 = 0.1e1 / t52 / t50
t55 = s0 * t54
t56 = t49 * t55
t76 = tau0 / t52 / r0
t102 = (t76 - t55 / 0.8e1) * t44
t105 = 0.5e1 / 0.9e1 * t102 * t48 - 0.1e1
t110 = math.sqrt(0.1e1 + 0.22222222222222222222e0 * t102 * t48 * t105)
t115 = 0.9e1 / 0.20e2 * t105 / t110 + t56 / 0.36e2
t100001 = 292.0 * (t115 * t115) - 438.0 * (t115 * (t35 * (0.1e1 - t35))) + 165.0 * ((t35 * (0.1e1 - t35)) * (t35 * (0.1e1 - t35)))
res = 0.1e1 + 0.5e1 / 0.12e2 * (0.10e2 / 0.81e2 + 0.25e2 / 0.8748e4 * t56) * t44 * t48 * s0 * t54 + t100001 / 0.405e3 - 165.0 / 0.405e3 * (t35 * (0.1e1 - t35)) * (t35 * (0.1e1 - t35))"
prog mgga_x_revtm_polHint1_0_e "res = 0.1e1 + 0.22222222222222222222e0 * t102 * t48 * t105"
prog mgga_x_revtm_polHint1_0_q "t44 = 6 ** (0.1e1 / 0.3e1)
t45 = math.pi ** 2
t46 = t45 ** (0.1e1 / 0.3e1)
t47 = t46 ** 2
t48 = 0.1e1 / t47
t50 = r0 ** 2
t51 = r0 ** (0.1e1 / 0.3e1)
t52 = t51 ** 2
t54 = 0.1e1 / t52 / t50
t55 = s0 * t54
t76 = tau0 / t52 / r0
t102 = (t76 - t55 / 0.8e1) * t44
res = 0.1e1 - 0.45e0 * 0.22222222222222222222e0 + 0.5e1 / 0.9e1 * 0.22222222222222222222e0 * (t102 * t48 - 0.9e0) ** 2"
theorem mgga_x_revtm_polHint1_0 : PolHint {tPos := true} .mgga mgga_x_revtm_polHint1_q ⟨17, mgga_x_revtm_polHint1_0_e.res, pos⟩ :=
  polHint_rw 1000 mgga_x_revtm_polHint1_0_q (hs := []) fn (par := []) (npar := []) (flds := []) rfl rfl rfl (by decide +kernel) (by decide +kernel)
prog mgga_x_revtm_polHint1_1_e "res = 292.0 * (t115 * t115) - 438.0 * (t115 * (t35 * (0.1e1 - t35))) + 165.0 * ((t35 * (0.1e1 - t35)) * (t35 * (0.1e1 - t35)))"
theorem mgga_x_revtm_polHint1_1 : PolHint {tPos := true} .mgga mgga_x_revtm_polHint1_q ⟨19, mgga_x_revtm_polHint1_1_e.res, nn⟩ :=
  polHint_quad (by norm_num)
theorem mgga_x_revtm_polHint1 : PolHint {tPos := true} .mgga mgga_x_revtm.polBody ⟨49, mgga_x_revtm_polHint1_e.res, pos⟩ :=
  polHint_rw 1000 mgga_x_revtm_polHint1_q (hs := [⟨17, mgga_x_revtm_polHint1_0_e.res, pos⟩, ⟨19, mgga_x_revtm_polHint1_1_e.res, nn⟩]) (fc mgga_x_revtm_polHint1_0 (fc mgga_x_revtm_polHint1_1 fn)) (par := []) (npar := []) (flds := []) rfl rfl rfl (by decide +kernel) (by decide +kernel)
prog mgga_x_revtm_polHint2_e "res = 0.1e1 + 0.22222222222222222222e0 * t200 * t48 * t203"
prog mgga_x_revtm_polHint2_q "t44 = 6 ** (0.1e1 / 0.3e1)
t45 = math.pi ** 2
t46 = t45 ** (0.1e1 / 0.3e1)
t47 = t46 ** 2
t48 = 0.1e1 / t47
t154 = r1 ** 2
t155 = r1 ** (0.1e1 / 0.3e1)
t156 = t155 ** 2
t158 = 0.1e1 / t156 / t154
t159 = s2 * t158
t176 = tau1 / t156 / r1
t200 = (t176 - t159 / 0.8e1) * t44
res = 0.1e1 - 0.45e0 * 0.22222222222222222222e0 + 0.5e1 / 0.9e1 * 0.22222222222222222222e0 * (t200 * t48 - 0.9e0) ** 2"
theorem mgga_x_revtm_polHint2 : PolHint {tPos := true} .mgga mgga_x_revtm.polBody ⟨75, mgga_x_revtm_polHint2_e.res, pos⟩ :=
  polHint_rw 1000 mgga_x_revtm_polHint2_q (hs := []) fn (par := []) (npar := []) (flds := []) rfl rfl rfl (by decide +kernel) (by decide +kernel)
prog mgga_x_revtm_polHint3_e "res = 0.1e1 + 0.5e1 / 0.12e2 * (0.10e2 / 0.81e2 + 0.25e2 / 0.8748e4 * t160) * t44 * t48 * s2 * t158 + 0.292e3 / 0.405e3 * t214 - 0.146e3 / 0.135e3 * t213 * t145 * (0.1e1 - t145)"
prog mgga_x_revtm_polHint3_q "t44 = 6 ** (0.1e1 / 0.3e1)
t45 = math.pi ** 2
t46 = t45 ** (0.1e1 / 0.3e1)
t47 = t46 ** 2
t48 = 0.1e1 / t47
t49 = t44 * t48
t143 = s2 / r1 / tau1 / 0.8e1
t145 = lax_cond(t143 < 0.10e1, t143, 0.10e1)
t154 = r1 ** 2
t155 = r1 ** (0.1e1 / 0.3e1)
t156 = t155 ** 2
t158 = 0.1e1 / t156 / t154
t159 = s2 * t158
t160 = t49 * t159
t176 = tau1 / t156 / r1
t200 = (t176 - t159 / 0.8e1) * t44
t203 = 0.5e1 / 0.9e1 * t200 * t48 - 0.1e1
t208 = math.sqrt(0.1e1 + 0.22222222222222222222e0 * t200 * t48 * t203)
t213 = 0.9e1 / 0.20e2 * t203 / t208 + t160 / 0.36e2
t100001 = 292.0 * (t213 * t213) - 438.0 * (t213 * (t145 * (0.1e1 - t145))) + 165.0 * ((t145 * (0.1e1 - t145)) * (t145 * (0.1e1 - t145)))
res = 0.1e1 + 0.5e1 / 0.12e2 * (0.10e2 / 0.81e2 + 0.25e2 / 0.8748e4 * t160) * t44 * t48 * s2 * t158 + t100001 / 0.405e3 - 165.0 / 0.405e3 * (t145 * (0.1e1 - t145)) * (t145 * (0.1e1 - t145))"
prog mgga_x_revtm_polHint3_0_e "res = 0.1e1 + 0.22222222222222222222e0 * t200 * t48 * t203"
prog mgga_x_revtm_polHint3_0_q "t44 = 6 ** (0.1e1 / 0.3e1)
t45 = math.pi ** 2
t46 = t45 ** (0.1e1 / 0.3e1)
t47 = t46 ** 2
t48 = 0.1e1 / t47
t154 = r1 ** 2
t155 = r1 ** (0.1e1 / 0.3e1)
t156 = t155 ** 2
t158 = 0.1e1 / t156 / t154
t159 = s2 * t158
t176 = tau1 / t156 / r1
t200 = (t176 - t159 / 0.8e1) * t44
res = 0.1e1 - 0.45e0 * 0.22222222222222222222e0 + 0.5e1 / 0.9e1 * 0.22222222222222222222e0 * (t200 * t48 - 0.9e0) ** 2"
theorem mgga_x_revtm_polHint3_0 : PolHint {tPos := true} .mgga mgga_x_revtm_polHint3_q ⟨17, mgga_x_revtm_polHint3_0_e.res, pos⟩ :=
  polHint_rw 1000 mgga_x_revtm_polHint3_0_q (hs := []) fn (par := []) (npar := []) (flds := []) rfl rfl rfl (by decide +kernel) (by decide +kernel)
prog mgga_x_revtm_polHint3_1_e "res = 292.0 * (t213 * t213) - 438.0 * (t213 * (t145 * (0.1e1 - t145))) + 165.0 * ((t145 * (0.1e1 - t145)) * (t145 * (0.1e1 - t145)))"
theorem mgga_x_revtm_polHint3_1 : PolHint {tPos := true} .mgga mgga_x_revtm_polHint3_q ⟨19, mgga_x_revtm_polHint3_1_e.res, nn⟩ :=
  polHint_quad (by norm_num)
theorem mgga_x_revtm_polHint3 : PolHint {tPos := true} .mgga mgga_x_revtm.polBody ⟨78, mgga_x_revtm_polHint3_e.res, pos⟩ :=
  polHint_rw 1000 mgga_x_revtm_polHint3_q (hs := [⟨17, mgga_x_revtm_polHint3_0_e.res, pos⟩, ⟨19, mgga_x_revtm_polHint3_1_e.res, nn⟩]) (fc mgga_x_revtm_polHint3_0 (fc mgga_x_revtm_polHint3_1 fn)) (par := []) (npar := []) (flds := []) rfl rfl rfl (by decide +kernel) (by decide +kernel)
theorem mgga_x_revtm_definedPol : DefinedPol {tPos := true} .mgga mgga_x_revtm :=
  definedPolH_of _ mgga_x_revtm_neverRaises (hs := [⟨46, mgga_x_revtm_polHint0_e.res, pos⟩, ⟨49, mgga_x_revtm_polHint1_e.res, pos⟩, ⟨75, mgga_x_revtm_polHint2_e.res, pos⟩, ⟨78, mgga_x_revtm_polHint3_e.res, pos⟩]) (fc mgga_x_revtm_polHint0 (fc mgga_x_revtm_polHint1 (fc mgga_x_revtm_polHint2 (fc mgga_x_revtm_polHint3 fn)))) (par := []) (npar := []) (flds := []) rfl rfl rfl (by decide +kernel)

prog mgga_x_revtm_unpolHint0_e "res = 0.1e1 + 0.22222222222222222222e0 * t97 * t40 * t100"
prog mgga_x_revtm_unpolHint0_q "t19 = r0 ** (0.1e1 / 0.3e1)
t36 = 6 ** (0.1e1 / 0.3e1)
t37 = math.pi ** 2
t38 = t37 ** (0.1e1 / 0.3e1)
t39 = t38 ** 2
t40 = 0.1e1 / t39
t42 = 2 ** (0.1e1 / 0.3e1)
t43 = t42 ** 2
t45 = r0 ** 2
t46 = t19 ** 2
t49 = s0 * t43 / t46 / t45
t72 = tau0 * t43 / t46 / r0
t97 = (t72 - t49 / 0.8e1) * t36
res = 0.1e1 - 0.45e0 * 0.22222222222222222222e0 + 0.5e1 / 0.9e1 * 0.22222222222222222222e0 * (t97 * t40 - 0.9e0) ** 2"
theorem mgga_x_revtm_unpolHint0 : UnpolHint {tPos := true} .mgga mgga_x_revtm.unpolBody ⟨36, mgga_x_revtm_unpolHint0_e.res, pos⟩ :=
  unpolHint_rw 1000 mgga_x_revtm_unpolHint0_q (hs := []) fn (par := []) (npar := []) (flds := []) rfl rfl rfl (by decide +kernel) (by decide +kernel)
prog mgga_x_revtm_unpolHint1_e "res = 0.1e1 + 0.5e1 / 0.12e2 * (0.10e2 / 0.81e2 + 0.25e2 / 0.8748e4 * t50) * t36 * t40 * t49 + 0.292e3 / 0.405e3 * t111 - 0.146e3 / 0.135e3 * t110 * t27 * (0.1e1 - t27)"
prog mgga_x_revtm_unpolHint1_q "t19 = r0 ** (0.1e1 / 0.3e1)
t25 = s0 / r0 / tau0 / 0.8e1
t27 = lax_cond(t25 < 0.10e1, t25, 0.10e1)
t36 = 6 ** (0.1e1 / 0.3e1)
t37 = math.pi ** 2
t38 = t37 ** (0.1e1 / 0.3e1)
t39 = t38 ** 2
t40 = 0.1e1 / t39
t42 = 2 ** (0.1e1 / 0.3e1)
t43 = t42 ** 2
t45 = r0 ** 2
t46 = t19 ** 2
t49 = s0 * t43 / t46 / t45
t50 = t36 * t40 * t49
t72 = tau0 * t43 / t46 / r0
t97 = (t72 - t49 / 0.8e1) * t36
t100 = 0.5e1 / 0.9e1 * t97 * t40 - 0.1e1
t105 = math.sqrt(0.1e1 + 0.22222222222222222222e0 * t97 * t40 * t100)
t110 = 0.9e1 / 0.20e2 * t100 / t105 + t50 / 0.36e2
t100001 = 292.0 * (t110 * t110) - 438.0 * (t110 * (t27 * (0.1e1 - t27))) + 165.0 * ((t27 * (0.1e1 - t27)) * (t27 * (0.1e1 - t27)))
res = 0.1e1 + 0.5e1 / 0.12e2 * (0.10e2 / 0.81e2 + 0.25e2 / 0.8748e4 * t50) * t36 * t40 * t49 + t100001 / 0.405e3 - 165.0 / 0.405e3 * (t27 * (0.1e1 - t27)) * (t27 * (0.1e1 - t27))"
prog mgga_x_revtm_unpolHint1_0_e "res = 0.1e1 + 0.22222222222222222222e0 * t97 * t40 * t100"
prog mgga_x_revtm_unpolHint1_0_q "t19 = r0 ** (0.1e1 / 0.3e1)
t36 = 6 ** (0.1e1 / 0.3e1)
t37 = math.pi ** 2
t38 = t37 ** (0.1e1 / 0.3e1)
t39 = t38 ** 2
t40 = 0.1e1 / t39
t42 = 2 ** (0.1e1 / 0.3e1)
t43 = t42 ** 2
t45 = r0 ** 2
t46 = t19 ** 2
t49 = s0 * t43 / t46 / t45
t72 = tau0 * t43 / t46 / r0
t97 = (t72 - t49 / 0.8e1) * t36
res = 0.1e1 - 0.45e0 * 0.22222222222222222222e0 + 0.5e1 / 0.9e1 * 0.22222222222222222222e0 * (t97 * t40 - 0.9e0) ** 2"
theorem mgga_x_revtm_unpolHint1_0 : UnpolHint {tPos := true} .mgga mgga_x_revtm_unpolHint1_q ⟨17, mgga_x_revtm_unpolHint1_0_e.res, pos⟩ :=
  unpolHint_rw 1000 mgga_x_revtm_unpolHint1_0_q (hs := []) fn (par := []) (npar := []) (flds := []) rfl rfl rfl (by decide +kernel) (by decide +kernel)
prog mgga_x_revtm_unpolHint1_1_e "res = 292.0 * (t110 * t110) - 438.0 * (t110 * (t27 * (0.1e1 - t27))) + 165.0 * ((t27 * (0.1e1 - t27)) * (t27 * (0.1e1 - t27)))"
theorem mgga_x_revtm_unpolHint1_1 : UnpolHint {tPos := true} .mgga mgga_x_revtm_unpolHint1_q ⟨19, mgga_x_revtm_unpolHint1_1_e.res, nn⟩ :=
  unpolHint_quad (by norm_num)
theorem mgga_x_revtm_unpolHint1 : UnpolHint {tPos := true} .mgga mgga_x_revtm.unpolBody ⟨39, mgga_x_revtm_unpolHint1_e.res, pos⟩ :=
  unpolHint_rw 1000 mgga_x_revtm_unpolHint1_q (hs := [⟨17, mgga_x_revtm_unpolHint1_0_e.res, pos⟩, ⟨19, mgga_x_revtm_unpolHint1_1_e.res, nn⟩]) (fc mgga_x_revtm_unpolHint1_0 (fc mgga_x_revtm_unpolHint1_1 fn)) (par := []) (npar := []) (flds := []) rfl rfl rfl (by decide +kernel) (by decide +kernel)
theorem mgga_x_revtm_definedUnpol : DefinedUnpol {tPos := true} .mgga mgga_x_revtm :=
  definedUnpolH_of _ mgga_x_revtm_neverRaises (hs := [⟨36, mgga_x_revtm_unpolHint0_e.res, pos⟩, ⟨39, mgga_x_revtm_unpolHint1_e.res, pos⟩]) (fc mgga_x_revtm_unpolHint0 (fc mgga_x_revtm_unpolHint1 fn)) (par := []) (npar := []) (flds := []) rfl rfl rfl (by decide +kernel)

prog mgga_x_rtpss_polHint0_e "res = 0.5e1 * params_a_b * t65 * t71 * t69 + 0.9e1"
prog mgga_x_rtpss_polHint0_q "t31 = r0 ** 2
t46 = 6 ** (0.1e1 / 0.3e1)
t48 = math.pi ** 2
t49 = t48 ** (0.1e1 / 0.3e1)
t50 = t49 ** 2
t51 = 0.1e1 / t50
t53 = r0 ** (0.1e1 / 0.3e1)
t54 = t53 ** 2
t56 = 0.1e1 / t54 / t31
t63 = s0 * t56
t65 = tau0 / t54 / r0 - t63 / 0.8e1
t71 = t46 * t51
res = 0.9e1 - 0.9e1 / 0.4e1 * params_a_b + 0.25e2 / 0.9e1 * params_a_b * (t65 * t71 - 0.9e0) ** 2"
theorem mgga_x_rtpss_polHint0_0 : PolHint {tPos := true, params := ["b", "e", "kappa"], le := [("b", 3)]} .mgga mgga_x_rtpss_polHint0_q ⟨12, .param 98, ⟨.inf, .fin (Int.negOfNat 55340232221128654848) false⟩⟩ :=
  polHint_par (s := "b") (q := 3) (by simp) (by simp [nameCode, nameCodeChars]) (by norm_num [sc])
theorem mgga_x_rtpss_polHint0 : PolHint {tPos := true, params := ["b", "e", "kappa"], le := [("b", 3)]} .mgga mgga_x_rtpss.polBody ⟨39, mgga_x_rtpss_polHint0_e.res, pos⟩ :=
  polHint_rw 1000 mgga_x_rtpss_polHint0_q (hs := [⟨12, .param 98, ⟨.inf, .fin (Int.negOfNat 55340232221128654848) false⟩⟩]) (fc mgga_x_rtpss_polHint0_0 fn) (par := [98, 101, 461196259425]) (npar := []) (flds := []) (by simp [nameCode, nameCodeChars]) rfl rfl (by decide +kernel) (by decide +kernel)
prog mgga_x_rtpss_polHint1_e "res = 0.5e1 * params_a_b * t178 * t71 * t182 + 0.9e1"
prog mgga_x_rtpss_polHint1_q "t46 = 6 ** (0.1e1 / 0.3e1)
t48 = math.pi ** 2
t49 = t48 ** (0.1e1 / 0.3e1)
t50 = t49 ** 2
t51 = 0.1e1 / t50
t71 = t46 * t51
t149 = r1 ** 2
t166 = r1 ** (0.1e1 / 0.3e1)
t167 = t166 ** 2
t169 = 0.1e1 / t167 / t149
t176 = s2 * t169
t178 = tau1 / t167 / r1 - t176 / 0.8e1
res = 0.9e1 - 0.9e1 / 0.4e1 * params_a_b + 0.25e2 / 0.9e1 * params_a_b * (t178 * t71 - 0.9e0) ** 2"
theorem mgga_x_rtpss_polHint1_0 : PolHint {tPos := true, params := ["b", "e", "kappa"], le := [("b", 3)]} .mgga mgga_x_rtpss_polHint1_q ⟨12, .param 98, ⟨.inf, .fin (Int.negOfNat 55340232221128654848) false⟩⟩ :=
  polHint_par (s := "b") (q := 3) (by simp) (by simp [nameCode, nameCodeChars]) (by norm_num [sc])
theorem mgga_x_rtpss_polHint1 : PolHint {tPos := true, params := ["b", "e", "kappa"], le := [("b", 3)]} .mgga mgga_x_rtpss.polBody ⟨79, mgga_x_rtpss_polHint1_e.res, pos⟩ :=
  polHint_rw 1000 mgga_x_rtpss_polHint1_q (hs := [⟨12, .param 98, ⟨.inf, .fin (Int.negOfNat 55340232221128654848) false⟩⟩]) (fc mgga_x_rtpss_polHint1_0 fn) (par := [98, 101, 461196259425]) (npar := []) (flds := []) (by simp [nameCode, nameCodeChars]) rfl rfl (by decide +kernel) (by decide +kernel)
theorem mgga_x_rtpss_definedPol : DefinedPol {tPos := true, params := ["b", "e", "kappa"], le := [("b", 3)]} .mgga mgga_x_rtpss :=
  definedPolH_of _ mgga_x_rtpss_neverRaises (hs := [⟨39, mgga_x_rtpss_polHint0_e.res, pos⟩, ⟨79, mgga_x_rtpss_polHint1_e.res, pos⟩]) (fc mgga_x_rtpss_polHint0 (fc mgga_x_rtpss_polHint1 fn)) (par := [98, 101, 461196259425]) (npar := []) (flds := []) (by simp [nameCode, nameCodeChars]) rfl rfl (by decide +kernel)

prog mgga_x_rtpss_unpolHint0_e "res = 0.5e1 * params_a_b * t59 * t65 * t63 + 0.9e1"
prog mgga_x_rtpss_unpolHint0_q "t19 = r0 ** (0.1e1 / 0.3e1)
t23 = r0 ** 2
t38 = 6 ** (0.1e1 / 0.3e1)
t40 = math.pi ** 2
t41 = t40 ** (0.1e1 / 0.3e1)
t42 = t41 ** 2
t43 = 0.1e1 / t42
t45 = 2 ** (0.1e1 / 0.3e1)
t46 = t45 ** 2
t48 = t19 ** 2
t51 = s0 * t46 / t48 / t23
t59 = tau0 * t46 / t48 / r0 - t51 / 0.8e1
t65 = t38 * t43
res = 0.9e1 - 0.9e1 / 0.4e1 * params_a_b + 0.25e2 / 0.9e1 * params_a_b * (t59 * t65 - 0.9e0) ** 2"
theorem mgga_x_rtpss_unpolHint0_0 : UnpolHint {tPos := true, params := ["b", "e", "kappa"], le := [("b", 3)]} .mgga mgga_x_rtpss_unpolHint0_q ⟨13, .param 98, ⟨.inf, .fin (Int.negOfNat 55340232221128654848) false⟩⟩ :=
  unpolHint_par (s := "b") (q := 3) (by simp) (by simp [nameCode, nameCodeChars]) (by norm_num [sc])
theorem mgga_x_rtpss_unpolHint0 : UnpolHint {tPos := true, params := ["b", "e", "kappa"], le := [("b", 3)]} .mgga mgga_x_rtpss.unpolBody ⟨31, mgga_x_rtpss_unpolHint0_e.res, pos⟩ :=
  unpolHint_rw 1000 mgga_x_rtpss_unpolHint0_q (hs := [⟨13, .param 98, ⟨.inf, .fin (Int.negOfNat 55340232221128654848) false⟩⟩]) (fc mgga_x_rtpss_unpolHint0_0 fn) (par := [98, 101, 461196259425]) (npar := []) (flds := []) (by simp [nameCode, nameCodeChars]) rfl rfl (by decide +kernel) (by decide +kernel)
theorem mgga_x_rtpss_definedUnpol : DefinedUnpol {tPos := true, params := ["b", "e", "kappa"], le := [("b", 3)]} .mgga mgga_x_rtpss :=
  definedUnpolH_of _ mgga_x_rtpss_neverRaises (hs := [⟨31, mgga_x_rtpss_unpolHint0_e.res, pos⟩]) (fc mgga_x_rtpss_unpolHint0 fn) (par := [98, 101, 461196259425]) (npar := []) (flds := []) (by simp [nameCode, nameCodeChars]) rfl rfl (by decide +kernel)

prog mgga_x_tm_polHint0_e "res = 0.1e1 + 0.5e1 / 0.12e2 * (0.10e2 / 0.81e2 + 0.25e2 / 0.8748e4 * t56) * t44 * t48 * s0 * t54 + 0.292e3 / 0.405e3 * t107 - 0.146e3 / 0.135e3 * t106 * t35 * (0.1e1 - t35)"
prog mgga_x_tm_polHint0_q "t33 = s0 / r0 / tau0 / 0.8e1
t35 = lax_cond(t33 < 0.10e1, t33, 0.10e1)
t44 = 6 ** (0.1e1 / 0.3e1)
t45 = math.pi ** 2
t46 = t45 ** (0.1e1 / 0.3e1)
t47 = t46 ** 2
t48 = 0.1e1 / t47
t49 = t44 * t48
t50 = r0 ** 2
t51 = r0 ** (0.1e1 / 0.3e1)
t52 = t51 ** 2
t54 = 0.1e1 / t52 / t50
t55 = s0 * t54
t56 = t49 * t55
t76 = tau0 / t52 / r0
t106 = (t76 - t55 / 0.8e1) * t44 * t48 / 0.4e1 - 0.9e1 / 0.20e2 + t56 / 0.36e2
t100001 = 292.0 * (t106 * t106) - 438.0 * (t106 * (t35 * (0.1e1 - t35))) + 165.0 * ((t35 * (0.1e1 - t35)) * (t35 * (0.1e1 - t35)))
res = 0.1e1 + 0.5e1 / 0.12e2 * (0.10e2 / 0.81e2 + 0.25e2 / 0.8748e4 * t56) * t44 * t48 * s0 * t54 + t100001 / 0.405e3 - 165.0 / 0.405e3 * (t35 * (0.1e1 - t35)) * (t35 * (0.1e1 - t35))"
prog mgga_x_tm_polHint0_0_e "res = 292.0 * (t106 * t106) - 438.0 * (t106 * (t35 * (0.1e1 - t35))) + 165.0 * ((t35 * (0.1e1 - t35)) * (t35 * (0.1e1 - t35)))"
theorem mgga_x_tm_polHint0_0 : PolHint {tPos := true} .mgga mgga_x_tm_polHint0_q ⟨16, mgga_x_tm_polHint0_0_e.res, nn⟩ :=
  polHint_quad (by norm_num)
theorem mgga_x_tm_polHint0 : PolHint {tPos := true} .mgga mgga_x_tm.polBody ⟨46, mgga_x_tm_polHint0_e.res, pos⟩ :=
  polHint_rw 1000 mgga_x_tm_polHint0_q (hs := [⟨16, mgga_x_tm_polHint0_0_e.res, nn⟩]) (fc mgga_x_tm_polHint0_0 fn) (par := []) (npar := []) (flds := []) rfl rfl rfl (by decide +kernel) (by decide +kernel)
prog mgga_x_tm_polHint1_e "res = 0.1e1 + 0.5e1 / 0.12e2 * (0.10e2 / 0.81e2 + 0.25e2 / 0.8748e4 * t151) * t44 * t48 * s2 * t149 + 0.292e3 / 0.405e3 * t196 - 0.146e3 / 0.135e3 * t195 * t136 * (0.1e1 - t136)"
prog mgga_x_tm_polHint1_q "t44 = 6 ** (0.1e1 / 0.3e1)
t45 = math.pi ** 2
t46 = t45 ** (0.1e1 / 0.3e1)
t47 = t46 ** 2
t48 = 0.1e1 / t47
t49 = t44 * t48
t134 = s2 / r1 / tau1 / 0.8e1
t136 = lax_cond(t134 < 0.10e1, t134, 0.10e1)
t145 = r1 ** 2
t146 = r1 ** (0.1e1 / 0.3e1)
t147 = t146 ** 2
t149 = 0.1e1 / t147 / t145
t150 = s2 * t149
t151 = t49 * t150
t167 = tau1 / t147 / r1
t195 = (t167 - t150 / 0.8e1) * t44 * t48 / 0.4e1 - 0.9e1 / 0.20e2 + t151 / 0.36e2
t100001 = 292.0 * (t195 * t195) - 438.0 * (t195 * (t136 * (0.1e1 - t136))) + 165.0 * ((t136 * (0.1e1 - t136)) * (t136 * (0.1e1 - t136)))
res = 0.1e1 + 0.5e1 / 0.12e2 * (0.10e2 / 0.81e2 + 0.25e2 / 0.8748e4 * t151) * t44 * t48 * s2 * t149 + t100001 / 0.405e3 - 165.0 / 0.405e3 * (t136 * (0.1e1 - t136)) * (t136 * (0.1e1 - t136))"
prog mgga_x_tm_polHint1_0_e "res = 292.0 * (t195 * t195) - 438.0 * (t195 * (t136 * (0.1e1 - t136))) + 165.0 * ((t136 * (0.1e1 - t136)) * (t136 * (0.1e1 - t136)))"
theorem mgga_x_tm_polHint1_0 : PolHint {tPos := true} .mgga mgga_x_tm_polHint1_q ⟨16, mgga_x_tm_polHint1_0_e.res, nn⟩ :=
  polHint_quad (by norm_num)
theorem mgga_x_tm_polHint1 : PolHint {tPos := true} .mgga mgga_x_tm.polBody ⟨72, mgga_x_tm_polHint1_e.res, pos⟩ :=
  polHint_rw 1000 mgga_x_tm_polHint1_q (hs := [⟨16, mgga_x_tm_polHint1_0_e.res, nn⟩]) (fc mgga_x_tm_polHint1_0 fn) (par := []) (npar := []) (flds := []) rfl rfl rfl (by decide +kernel) (by decide +kernel)
theorem mgga_x_tm_definedPol : DefinedPol {tPos := true} .mgga mgga_x_tm :=
  definedPolH_of _ mgga_x_tm_neverRaises (hs := [⟨46, mgga_x_tm_polHint0_e.res, pos⟩, ⟨72, mgga_x_tm_polHint1_e.res, pos⟩]) (fc mgga_x_tm_polHint0 (fc mgga_x_tm_polHint1 fn)) (par := []) (npar := []) (flds := []) rfl rfl rfl (by decide +kernel)

prog mgga_x_tm_unpolHint0_e "res = 0.1e1 + 0.5e1 / 0.12e2 * (0.10e2 / 0.81e2 + 0.25e2 / 0.8748e4 * t50) * t36 * t40 * t49 + 0.292e3 / 0.405e3 * t102 - 0.146e3 / 0.135e3 * t101 * t27 * (0.1e1 - t27)"
prog mgga_x_tm_unpolHint0_q "t19 = r0 ** (0.1e1 / 0.3e1)
t25 = s0 / r0 / tau0 / 0.8e1
t27 = lax_cond(t25 < 0.10e1, t25, 0.10e1)
t36 = 6 ** (0.1e1 / 0.3e1)
t37 = math.pi ** 2
t38 = t37 ** (0.1e1 / 0.3e1)
t39 = t38 ** 2
t40 = 0.1e1 / t39
t42 = 2 ** (0.1e1 / 0.3e1)
t43 = t42 ** 2
t45 = r0 ** 2
t46 = t19 ** 2
t49 = s0 * t43 / t46 / t45
t50 = t36 * t40 * t49
t72 = tau0 * t43 / t46 / r0
t101 = (t72 - t49 / 0.8e1) * t36 * t40 / 0.4e1 - 0.9e1 / 0.20e2 + t50 / 0.36e2
t100001 = 292.0 * (t101 * t101) - 438.0 * (t101 * (t27 * (0.1e1 - t27))) + 165.0 * ((t27 * (0.1e1 - t27)) * (t27 * (0.1e1 - t27)))
res = 0.1e1 + 0.5e1 / 0.12e2 * (0.10e2 / 0.81e2 + 0.25e2 / 0.8748e4 * t50) * t36 * t40 * t49 + t100001 / 0.405e3 - 165.0 / 0.405e3 * (t27 * (0.1e1 - t27)) * (t27 * (0.1e1 - t27))"
prog mgga_x_tm_unpolHint0_0_e "res = 292.0 * (t101 * t101) - 438.0 * (t101 * (t27 * (0.1e1 - t27))) + 165.0 * ((t27 * (0.1e1 - t27)) * (t27 * (0.1e1 - t27)))"
theorem mgga_x_tm_unpolHint0_0 : UnpolHint {tPos := true} .mgga mgga_x_tm_unpolHint0_q ⟨16, mgga_x_tm_unpolHint0_0_e.res, nn⟩ :=
  unpolHint_quad (by norm_num)
theorem mgga_x_tm_unpolHint0 : UnpolHint {tPos := true} .mgga mgga_x_tm.unpolBody ⟨36, mgga_x_tm_unpolHint0_e.res, pos⟩ :=
  unpolHint_rw 1000 mgga_x_tm_unpolHint0_q (hs := [⟨16, mgga_x_tm_unpolHint0_0_e.res, nn⟩]) (fc mgga_x_tm_unpolHint0_0 fn) (par := []) (npar := []) (flds := []) rfl rfl rfl (by decide +kernel) (by decide +kernel)
theorem mgga_x_tm_definedUnpol : DefinedUnpol {tPos := true} .mgga mgga_x_tm :=
  definedUnpolH_of _ mgga_x_tm_neverRaises (hs := [⟨36, mgga_x_tm_unpolHint0_e.res, pos⟩]) (fc mgga_x_tm_unpolHint0 fn) (par := []) (npar := []) (flds := []) rfl rfl rfl (by decide +kernel)

prog mgga_x_tpss_polHint0_e "res = 0.5e1 * params_a_b * t73 * t79 * t77 + 0.9e1"
prog mgga_x_tpss_polHint0_q "t42 = r0 ** 2
t54 = 6 ** (0.1e1 / 0.3e1)
t56 = math.pi ** 2
t57 = t56 ** (0.1e1 / 0.3e1)
t58 = t57 ** 2
t59 = 0.1e1 / t58
t61 = r0 ** (0.1e1 / 0.3e1)
t62 = t61 ** 2
t64 = 0.1e1 / t62 / t42
t71 = s0 * t64
t73 = tau0 / t62 / r0 - t71 / 0.8e1
t79 = t54 * t59
res = 0.9e1 - 0.9e1 / 0.4e1 * params_a_b + 0.25e2 / 0.9e1 * params_a_b * (t73 * t79 - 0.9e0) ** 2"
theorem mgga_x_tpss_polHint0_0 : PolHint {sPos := true, tPos := true, params := ["b", "c", "e", "kappa", "mu"], le := [("b", 3)], ge := [("e", 1), ("kappa", 1/10)]} .mgga mgga_x_tpss_polHint0_q ⟨12, .param 98, ⟨.inf, .fin (Int.negOfNat 55340232221128654848) false⟩⟩ :=
  polHint_par (s := "b") (q := 3) (by simp) (by simp [nameCode, nameCodeChars]) (by norm_num [sc])
theorem mgga_x_tpss_polHint0 : PolHint {sPos := true, tPos := true, params := ["b", "c", "e", "kappa", "mu"], le := [("b", 3)], ge := [("e", 1), ("kappa", 1/10)]} .mgga mgga_x_tpss.polBody ⟨41, mgga_x_tpss_polHint0_e.res, pos⟩ :=
  polHint_rw 1000 mgga_x_tpss_polHint0_q (hs := [⟨12, .param 98, ⟨.inf, .fin (Int.negOfNat 55340232221128654848) false⟩⟩]) (fc mgga_x_tpss_polHint0_0 fn) (par := [98, 99, 101, 461196259425, 28021]) (npar := []) (flds := []) (by simp [nameCode, nameCodeChars]) rfl rfl (by decide +kernel) (by decide +kernel)
theorem mgga_x_tpss_polHint1 : PolHint {sPos := true, tPos := true, params := ["b", "c", "e", "kappa", "mu"], le := [("b", 3)], ge := [("e", 1), ("kappa", 1/10)]} .mgga mgga_x_tpss.polBody ⟨51, .param 101, ⟨.fin (Int.ofNat 18446744073709551616) false, .inf⟩⟩ :=
  polHint_ge (s := "e") (q0 := 1) (by simp) (by simp [nameCode, nameCodeChars]) (by norm_num [sc])
prog mgga_x_tpss_polHint2_e "res = params_a_kappa + ((0.10e2 / 0.81e2 + params_a_c * t39 / t50) * t54 * t65 / 0.24e2 + 0.146e3 / 0.2025e4 * t91 - 0.73e2 / 0.97200e5 * t90 * t106 + 0.25e2 / 0.944784e6 * t110 * t96 * t41 * t101 + t115 * t41 * t43 * t46 / 0.720e3 + t120 * t122 * t41 * s0 / t125 / 0.2304e4) / t135"
prog mgga_x_tpss_polHint2_q "t29 = 0.1e1 / r0
t31 = 0.1e1 / tau0
t39 = (s0 * t29 * t31 / 0.8e1) ** (params_a_BLOC_a + params_a_BLOC_b * s0 * t29 * t31 / 0.8e1)
t41 = s0 ** 2
t42 = r0 ** 2
t43 = 0.1e1 / t42
t45 = tau0 ** 2
t46 = 0.1e1 / t45
t47 = t41 * t43 * t46
t50 = (0.1e1 + t47 / 0.64e2) ** 2
t54 = 6 ** (0.1e1 / 0.3e1)
t56 = math.pi ** 2
t57 = t56 ** (0.1e1 / 0.3e1)
t58 = t57 ** 2
t59 = 0.1e1 / t58
t61 = r0 ** (0.1e1 / 0.3e1)
t62 = t61 ** 2
t64 = 0.1e1 / t62 / t42
t65 = t59 * s0 * t64
t71 = s0 * t64
t73 = tau0 / t62 / r0 - t71 / 0.8e1
t77 = 0.5e1 / 0.9e1 * t73 * t54 * t59 - 0.1e1
t79 = t54 * t59
t84 = math.sqrt(0.5e1 * params_a_b * t73 * t79 * t77 + 0.9e1)
t90 = 0.27e2 / 0.20e2 * t77 / t84 + t79 * t71 / 0.36e2
t91 = t90 ** 2
t94 = t54 ** 2
t96 = 0.1e1 / t57 / t56
t97 = t94 * t96
t98 = t42 ** 2
t101 = 0.1e1 / t61 / t98 / r0
t106 = math.sqrt(0.50e2 * t97 * t41 * t101 + 0.162e3 * t47)
t110 = 0.1e1 / params_a_kappa * t94
t115 = math.sqrt(params_a_e)
t120 = params_a_e * params_a_mu
t121 = t56 ** 2
t122 = 0.1e1 / t121
t125 = t98 ** 2
t131 = t115 * t54
t135 = (0.1e1 + t131 * t65 / 0.24e2) ** 2
res = params_a_kappa + ((0.10e2 / 0.81e2 + params_a_c * t39 / t50) * t54 * t65 / 0.24e2 + 0.146e3 / 0.2025e4 * t91 - 0.73e2 / 0.97200e5 * t90 * t106 + 0.25e2 / 0.944784e6 * t110 * t96 * t41 * t101 + t115 * t41 * t43 * t46 / 0.720e3 + t120 * t122 * t41 * s0 / t125 / 0.2304e4) / t135"
prog mgga_x_tpss_polHint2_0_e "res = 0.5e1 * params_a_b * t73 * t79 * t77 + 0.9e1"
prog mgga_x_tpss_polHint2_0_q "t42 = r0 ** 2
t54 = 6 ** (0.1e1 / 0.3e1)
t56 = math.pi ** 2
t57 = t56 ** (0.1e1 / 0.3e1)
t58 = t57 ** 2
t59 = 0.1e1 / t58
t61 = r0 ** (0.1e1 / 0.3e1)
t62 = t61 ** 2
t64 = 0.1e1 / t62 / t42
t71 = s0 * t64
t73 = tau0 / t62 / r0 - t71 / 0.8e1
t79 = t54 * t59
res = 0.9e1 - 0.9e1 / 0.4e1 * params_a_b + 0.25e2 / 0.9e1 * params_a_b * (t73 * t79 - 0.9e0) ** 2"
theorem mgga_x_tpss_polHint2_0_0 : PolHint {sPos := true, tPos := true, params := ["b", "c", "e", "kappa", "mu"], le := [("b", 3)], ge := [("e", 1), ("kappa", 1/10)]} .mgga mgga_x_tpss_polHint2_0_q ⟨12, .param 98, ⟨.inf, .fin (Int.negOfNat 55340232221128654848) false⟩⟩ :=
  polHint_par (s := "b") (q := 3) (by simp) (by simp [nameCode, nameCodeChars]) (by norm_num [sc])
theorem mgga_x_tpss_polHint2_0 : PolHint {sPos := true, tPos := true, params := ["b", "c", "e", "kappa", "mu"], le := [("b", 3)], ge := [("e", 1), ("kappa", 1/10)]} .mgga mgga_x_tpss_polHint2_q ⟨23, mgga_x_tpss_polHint2_0_e.res, pos⟩ :=
  polHint_rw 1000 mgga_x_tpss_polHint2_0_q (hs := [⟨12, .param 98, ⟨.inf, .fin (Int.negOfNat 55340232221128654848) false⟩⟩]) (fc mgga_x_tpss_polHint2_0_0 fn) (par := [98, 99, 101, 461196259425, 28021]) (npar := []) (flds := []) (by simp [nameCode, nameCodeChars]) rfl rfl (by decide +kernel) (by decide +kernel)
theorem mgga_x_tpss_polHint2_1 : PolHint {sPos := true, tPos := true, params := ["b", "c", "e", "kappa", "mu"], le := [("b", 3)], ge := [("e", 1), ("kappa", 1/10)]} .mgga mgga_x_tpss_polHint2_q ⟨33, .param 101, ⟨.fin (Int.ofNat 18446744073709551616) false, .inf⟩⟩ :=
  polHint_ge (s := "e") (q0 := 1) (by simp) (by simp [nameCode, nameCodeChars]) (by norm_num [sc])
prog mgga_x_tpss_polHint2_2d_e "res = t135"
prog mgga_x_tpss_polHint2_2d_q "t42 = r0 ** 2
t54 = 6 ** (0.1e1 / 0.3e1)
t56 = math.pi ** 2
t57 = t56 ** (0.1e1 / 0.3e1)
t58 = t57 ** 2
t59 = 0.1e1 / t58
t61 = r0 ** (0.1e1 / 0.3e1)
t62 = t61 ** 2
t64 = 0.1e1 / t62 / t42
t65 = t59 * s0 * t64
t115 = math.sqrt(params_a_e)
t131 = t115 * t54
t135 = (0.1e1 + t131 * t65 / 0.24e2) ** 2
res = t135"
theorem mgga_x_tpss_polHint2_2d_0 : PolHint {sPos := true, tPos := true, params := ["b", "c", "e", "kappa", "mu"], le := [("b", 3)], ge := [("e", 1), ("kappa", 1/10)]} .mgga mgga_x_tpss_polHint2_2d_q ⟨10, .param 101, ⟨.fin (Int.ofNat 18446744073709551616) false, .inf⟩⟩ :=
  polHint_ge (s := "e") (q0 := 1) (by simp) (by simp [nameCode, nameCodeChars]) (by norm_num [sc])
theorem mgga_x_tpss_polHint2_2d : PolHint {sPos := true, tPos := true, params := ["b", "c", "e", "kappa", "mu"], le := [("b", 3)], ge := [("e", 1), ("kappa", 1/10)]} .mgga mgga_x_tpss_polHint2_q ⟨40, mgga_x_tpss_polHint2_2d_e.res, pos⟩ :=
  polHint_rw 1000 mgga_x_tpss_polHint2_2d_q (hs := [⟨10, .param 101, ⟨.fin (Int.ofNat 18446744073709551616) false, .inf⟩⟩]) (fc mgga_x_tpss_polHint2_2d_0 fn) (par := [98, 99, 101, 461196259425, 28021]) (npar := []) (flds := []) (by simp [nameCode, nameCodeChars]) rfl rfl (by decide +kernel) (by decide +kernel)
prog mgga_x_tpss_polHint2_2n_e "res = (params_a_kappa) * (t135) + (((0.10e2 / 0.81e2 + params_a_c * t39 / t50) * t54 * t65 / 0.24e2 + 0.146e3 / 0.2025e4 * t91 - 0.73e2 / 0.97200e5 * t90 * t106 + 0.25e2 / 0.944784e6 * t110 * t96 * t41 * t101 + t115 * t41 * t43 * t46 / 0.720e3 + t120 * t122 * t41 * s0 / t125 / 0.2304e4))"
prog mgga_x_tpss_polHint2_2n_q "t29 = 0.1e1 / r0
t31 = 0.1e1 / tau0
t39 = (s0 * t29 * t31 / 0.8e1) ** (params_a_BLOC_a + params_a_BLOC_b * s0 * t29 * t31 / 0.8e1)
t41 = s0 ** 2
t42 = r0 ** 2
t43 = 0.1e1 / t42
t45 = tau0 ** 2
t46 = 0.1e1 / t45
t47 = t41 * t43 * t46
t50 = (0.1e1 + t47 / 0.64e2) ** 2
t54 = 6 ** (0.1e1 / 0.3e1)
t56 = math.pi ** 2
t57 = t56 ** (0.1e1 / 0.3e1)
t58 = t57 ** 2
t59 = 0.1e1 / t58
t61 = r0 ** (0.1e1 / 0.3e1)
t62 = t61 ** 2
t64 = 0.1e1 / t62 / t42
t65 = t59 * s0 * t64
t71 = s0 * t64
t73 = tau0 / t62 / r0 - t71 / 0.8e1
t77 = 0.5e1 / 0.9e1 * t73 * t54 * t59 - 0.1e1
t79 = t54 * t59
t84 = math.sqrt(0.5e1 * params_a_b * t73 * t79 * t77 + 0.9e1)
t90 = 0.27e2 / 0.20e2 * t77 / t84 + t79 * t71 / 0.36e2
t94 = t54 ** 2
t96 = 0.1e1 / t57 / t56
t97 = t94 * t96
t98 = t42 ** 2
t101 = 0.1e1 / t61 / t98 / r0
t110 = 0.1e1 / params_a_kappa * t94
t115 = math.sqrt(params_a_e)
t120 = params_a_e * params_a_mu
t121 = t56 ** 2
t122 = 0.1e1 / t121
t125 = t98 ** 2
t100001 = 7008.0 * (t90 * t90) - 73.0 * (t90 * math.sqrt(0.50e2 * t97 * t41 * t101 + 0.162e3 * t47)) + 0.2e0 * (0.50e2 * t97 * t41 * t101 + 0.162e3 * t47)
res = params_a_kappa + params_a_kappa * t115 * (t54 * t65) / 0.12e2 + (0.10e2 / 0.81e2 + params_a_c * t39 / t50) * t54 * t65 / 0.24e2 + t100001 / 0.97200e5 + 0.25e2 / 0.944784e6 * t110 * t96 * t41 * t101 + (params_a_kappa * t115 ** 2 / 0.576e3 * 1.0 - 0.2e0 * 0.50e2 / 0.97200e5) * (t97 * t41 * t101) + (t115 / 0.720e3 - 0.2e0 * 0.162e3 / 0.97200e5) * t47 + t120 * t122 * t41 * s0 / t125 / 0.2304e4"
prog mgga_x_tpss_polHint2_2n_0_e "res = 0.5e1 * params_a_b * t73 * t79 * t77 + 0.9e1"
prog mgga_x_tpss_polHint2_2n_0_q "t42 = r0 ** 2
t54 = 6 ** (0.1e1 / 0.3e1)
t56 = math.pi ** 2
t57 = t56 ** (0.1e1 / 0.3e1)
t58 = t57 ** 2
t59 = 0.1e1 / t58
t61 = r0 ** (0.1e1 / 0.3e1)
t62 = t61 ** 2
t64 = 0.1e1 / t62 / t42
t71 = s0 * t64
t73 = tau0 / t62 / r0 - t71 / 0.8e1
t79 = t54 * t59
res = 0.9e1 - 0.9e1 / 0.4e1 * params_a_b + 0.25e2 / 0.9e1 * params_a_b * (t73 * t79 - 0.9e0) ** 2"
theorem mgga_x_tpss_polHint2_2n_0_0 : PolHint {sPos := true, tPos := true, params := ["b", "c", "e", "kappa", "mu"], le := [("b", 3)], ge := [("e", 1), ("kappa", 1/10)]} .mgga mgga_x_tpss_polHint2_2n_0_q ⟨12, .param 98, ⟨.inf, .fin (Int.negOfNat 55340232221128654848) false⟩⟩ :=
  polHint_par (s := "b") (q := 3) (by simp) (by simp [nameCode, nameCodeChars]) (by norm_num [sc])
theorem mgga_x_tpss_polHint2_2n_0 : PolHint {sPos := true, tPos := true, params := ["b", "c", "e", "kappa", "mu"], le := [("b", 3)], ge := [("e", 1), ("kappa", 1/10)]} .mgga mgga_x_tpss_polHint2_2n_q ⟨23, mgga_x_tpss_polHint2_2n_0_e.res, pos⟩ :=
  polHint_rw 1000 mgga_x_tpss_polHint2_2n_0_q (hs := [⟨12, .param 98, ⟨.inf, .fin (Int.negOfNat 55340232221128654848) false⟩⟩]) (fc mgga_x_tpss_polHint2_2n_0_0 fn) (par := [98, 99, 101, 461196259425, 28021]) (npar := []) (flds := []) (by simp [nameCode, nameCodeChars]) rfl rfl (by decide +kernel) (by decide +kernel)
theorem mgga_x_tpss_polHint2_2n_1 : PolHint {sPos := true, tPos := true, params := ["b", "c", "e", "kappa", "mu"], le := [("b", 3)], ge := [("e", 1), ("kappa", 1/10)]} .mgga mgga_x_tpss_polHint2_2n_q ⟨31, .param 101, ⟨.fin (Int.ofNat 18446744073709551616) false, .inf⟩⟩ :=
  polHint_ge (s := "e") (q0 := 1) (by simp) (by simp [nameCode, nameCodeChars]) (by norm_num [sc])
prog mgga_x_tpss_polHint2_2n_2_e "res = 7008.0 * (t90 * t90) - 73.0 * (t90 * math.sqrt(0.50e2 * t97 * t41 * t101 + 0.162e3 * t47)) + 0.2e0 * (0.50e2 * t97 * t41 * t101 + 0.162e3 * t47)"
theorem mgga_x_tpss_polHint2_2n_2 : PolHint {sPos := true, tPos := true, params := ["b", "c", "e", "kappa", "mu"], le := [("b", 3)], ge := [("e", 1), ("kappa", 1/10)]} .mgga mgga_x_tpss_polHint2_2n_q ⟨36, mgga_x_tpss_polHint2_2n_2_e.res, nn⟩ :=
  polHint_amgm (by norm_num)
theorem mgga_x_tpss_polHint2_2n_3 : PolHint {sPos := true, tPos := true, params := ["b", "c", "e", "kappa", "mu"], le := [("b", 3)], ge := [("e", 1), ("kappa", 1/10)]} .mgga mgga_x_tpss_polHint2_2n_q ⟨37, .param 461196259425, ⟨.fin (Int.ofNat 1844674407370955161) false, .inf⟩⟩ :=
  polHint_ge (s := "kappa") (q0 := 1/10) (by simp) (by simp [nameCode, nameCodeChars]) (by norm_num [sc])
theorem mgga_x_tpss_polHint2_2n : PolHint {sPos := true, tPos := true, params := ["b", "c", "e", "kappa", "mu"], le := [("b", 3)], ge := [("e", 1), ("kappa", 1/10)]} .mgga mgga_x_tpss_polHint2_q ⟨40, mgga_x_tpss_polHint2_2n_e.res, sgI true⟩ :=
  polHint_rw 1000 mgga_x_tpss_polHint2_2n_q (hs := [⟨23, mgga_x_tpss_polHint2_2n_0_e.res, pos⟩, ⟨31, .param 101, ⟨.fin (Int.ofNat 18446744073709551616) false, .inf⟩⟩, ⟨36, mgga_x_tpss_polHint2_2n_2_e.res, nn⟩, ⟨37, .param 461196259425, ⟨.fin (Int.ofNat 1844674407370955161) false, .inf⟩⟩]) (fc mgga_x_tpss_polHint2_2n_0 (fc mgga_x_tpss_polHint2_2n_1 (fc mgga_x_tpss_polHint2_2n_2 (fc mgga_x_tpss_polHint2_2n_3 fn)))) (par := [98, 99, 101, 461196259425, 28021]) (npar := []) (flds := []) (by simp [nameCode, nameCodeChars]) rfl rfl (by decide +kernel) (by decide +kernel)
prog mgga_x_tpss_polHint2_2_e "res = (params_a_kappa) + (((0.10e2 / 0.81e2 + params_a_c * t39 / t50) * t54 * t65 / 0.24e2 + 0.146e3 / 0.2025e4 * t91 - 0.73e2 / 0.97200e5 * t90 * t106 + 0.25e2 / 0.944784e6 * t110 * t96 * t41 * t101 + t115 * t41 * t43 * t46 / 0.720e3 + t120 * t122 * t41 * s0 / t125 / 0.2304e4)) / (t135)"
theorem mgga_x_tpss_polHint2_2 : PolHint {sPos := true, tPos := true, params := ["b", "c", "e", "kappa", "mu"], le := [("b", 3)], ge := [("e", 1), ("kappa", 1/10)]} .mgga mgga_x_tpss_polHint2_q ⟨40, mgga_x_tpss_polHint2_2_e.res, sgI true⟩ :=
  polHint_fadd true mgga_x_tpss_polHint2_2d mgga_x_tpss_polHint2_2n
theorem mgga_x_tpss_polHint2 : PolHint {sPos := true, tPos := true, params := ["b", "c", "e", "kappa", "mu"], le := [("b", 3)], ge := [("e", 1), ("kappa", 1/10)]} .mgga mgga_x_tpss.polBody ⟨58, mgga_x_tpss_polHint2_e.res, sgI true⟩ :=
  polHint_rw 1000 mgga_x_tpss_polHint2_q (hs := [⟨23, mgga_x_tpss_polHint2_0_e.res, pos⟩, ⟨33, .param 101, ⟨.fin (Int.ofNat 18446744073709551616) false, .inf⟩⟩, ⟨40, mgga_x_tpss_polHint2_2_e.res, sgI true⟩]) (fc mgga_x_tpss_polHint2_0 (fc mgga_x_tpss_polHint2_1 (fc mgga_x_tpss_polHint2_2 fn))) (par := [98, 99, 101, 461196259425, 28021]) (npar := []) (flds := []) (by simp [nameCode, nameCodeChars]) rfl rfl (by decide +kernel) (by decide +kernel)
prog mgga_x_tpss_polHint3_e "res = 0.5e1 * params_a_b * t196 * t79 * t200 + 0.9e1"
prog mgga_x_tpss_polHint3_q "t54 = 6 ** (0.1e1 / 0.3e1)
t56 = math.pi ** 2
t57 = t56 ** (0.1e1 / 0.3e1)
t58 = t57 ** 2
t59 = 0.1e1 / t58
t79 = t54 * t59
t170 = r1 ** 2
t184 = r1 ** (0.1e1 / 0.3e1)
t185 = t184 ** 2
t187 = 0.1e1 / t185 / t170
t194 = s2 * t187
t196 = tau1 / t185 / r1 - t194 / 0.8e1
res = 0.9e1 - 0.9e1 / 0.4e1 * params_a_b + 0.25e2 / 0.9e1 * params_a_b * (t196 * t79 - 0.9e0) ** 2"
theorem mgga_x_tpss_polHint3_0 : PolHint {sPos := true, tPos := true, params := ["b", "c", "e", "kappa", "mu"], le := [("b", 3)], ge := [("e", 1), ("kappa", 1/10)]} .mgga mgga_x_tpss_polHint3_q ⟨12, .param 98, ⟨.inf, .fin (Int.negOfNat 55340232221128654848) false⟩⟩ :=
  polHint_par (s := "b") (q := 3) (by simp) (by simp [nameCode, nameCodeChars]) (by norm_num [sc])
theorem mgga_x_tpss_polHint3 : PolHint {sPos := true, tPos := true, params := ["b", "c", "e", "kappa", "mu"], le := [("b", 3)], ge := [("e", 1), ("kappa", 1/10)]} .mgga mgga_x_tpss.polBody ⟨81, mgga_x_tpss_polHint3_e.res, pos⟩ :=
  polHint_rw 1000 mgga_x_tpss_polHint3_q (hs := [⟨12, .param 98, ⟨.inf, .fin (Int.negOfNat 55340232221128654848) false⟩⟩]) (fc mgga_x_tpss_polHint3_0 fn) (par := [98, 99, 101, 461196259425, 28021]) (npar := []) (flds := []) (by simp [nameCode, nameCodeChars]) rfl rfl (by decide +kernel) (by decide +kernel)
prog mgga_x_tpss_polHint4_e "res = params_a_kappa + ((0.10e2 / 0.81e2 + params_a_c * t167 / t178) * t54 * t188 / 0.24e2 + 0.146e3 / 0.2025e4 * t213 - 0.73e2 / 0.97200e5 * t212 * t224 + 0.25e2 / 0.944784e6 * t110 * t96 * t169 * t219 + t115 * t169 * t171 * t174 / 0.720e3 + t120 * t122 * t169 * s2 / t237 / 0.2304e4) / t246"
prog mgga_x_tpss_polHint4_q "t54 = 6 ** (0.1e1 / 0.3e1)
t56 = math.pi ** 2
t57 = t56 ** (0.1e1 / 0.3e1)
t58 = t57 ** 2
t59 = 0.1e1 / t58
t79 = t54 * t59
t94 = t54 ** 2
t96 = 0.1e1 / t57 / t56
t97 = t94 * t96
t110 = 0.1e1 / params_a_kappa * t94
t115 = math.sqrt(params_a_e)
t120 = params_a_e * params_a_mu
t121 = t56 ** 2
t122 = 0.1e1 / t121
t131 = t115 * t54
t157 = 0.1e1 / r1
t159 = 0.1e1 / tau1
t167 = (s2 * t157 * t159 / 0.8e1) ** (params_a_BLOC_a + params_a_BLOC_b * s2 * t157 * t159 / 0.8e1)
t169 = s2 ** 2
t170 = r1 ** 2
t171 = 0.1e1 / t170
t173 = tau1 ** 2
t174 = 0.1e1 / t173
t175 = t169 * t171 * t174
t178 = (0.1e1 + t175 / 0.64e2) ** 2
t184 = r1 ** (0.1e1 / 0.3e1)
t185 = t184 ** 2
t187 = 0.1e1 / t185 / t170
t188 = t59 * s2 * t187
t194 = s2 * t187
t196 = tau1 / t185 / r1 - t194 / 0.8e1
t200 = 0.5e1 / 0.9e1 * t196 * t54 * t59 - 0.1e1
t206 = math.sqrt(0.5e1 * params_a_b * t196 * t79 * t200 + 0.9e1)
t212 = 0.27e2 / 0.20e2 * t200 / t206 + t79 * t194 / 0.36e2
t213 = t212 ** 2
t216 = t170 ** 2
t219 = 0.1e1 / t184 / t216 / r1
t224 = math.sqrt(0.50e2 * t97 * t169 * t219 + 0.162e3 * t175)
t237 = t216 ** 2
t246 = (0.1e1 + t131 * t188 / 0.24e2) ** 2
res = params_a_kappa + ((0.10e2 / 0.81e2 + params_a_c * t167 / t178) * t54 * t188 / 0.24e2 + 0.146e3 / 0.2025e4 * t213 - 0.73e2 / 0.97200e5 * t212 * t224 + 0.25e2 / 0.944784e6 * t110 * t96 * t169 * t219 + t115 * t169 * t171 * t174 / 0.720e3 + t120 * t122 * t169 * s2 / t237 / 0.2304e4) / t246"
theorem mgga_x_tpss_polHint4_0 : PolHint {sPos := true, tPos := true, params := ["b", "c", "e", "kappa", "mu"], le := [("b", 3)], ge := [("e", 1), ("kappa", 1/10)]} .mgga mgga_x_tpss_polHint4_q ⟨10, .param 101, ⟨.fin (Int.ofNat 18446744073709551616) false, .inf⟩⟩ :=
  polHint_ge (s := "e") (q0 := 1) (by simp) (by simp [nameCode, nameCodeChars]) (by norm_num [sc])
prog mgga_x_tpss_polHint4_1_e "res = 0.5e1 * params_a_b * t196 * t79 * t200 + 0.9e1"
prog mgga_x_tpss_polHint4_1_q "t54 = 6 ** (0.1e1 / 0.3e1)
t56 = math.pi ** 2
t57 = t56 ** (0.1e1 / 0.3e1)
t58 = t57 ** 2
t59 = 0.1e1 / t58
t79 = t54 * t59
t170 = r1 ** 2
t184 = r1 ** (0.1e1 / 0.3e1)
t185 = t184 ** 2
t187 = 0.1e1 / t185 / t170
t194 = s2 * t187
t196 = tau1 / t185 / r1 - t194 / 0.8e1
res = 0.9e1 - 0.9e1 / 0.4e1 * params_a_b + 0.25e2 / 0.9e1 * params_a_b * (t196 * t79 - 0.9e0) ** 2"
theorem mgga_x_tpss_polHint4_1_0 : PolHint {sPos := true, tPos := true, params := ["b", "c", "e", "kappa", "mu"], le := [("b", 3)], ge := [("e", 1), ("kappa", 1/10)]} .mgga mgga_x_tpss_polHint4_1_q ⟨12, .param 98, ⟨.inf, .fin (Int.negOfNat 55340232221128654848) false⟩⟩ :=
  polHint_par (s := "b") (q := 3) (by simp) (by simp [nameCode, nameCodeChars]) (by norm_num [sc])
theorem mgga_x_tpss_polHint4_1 : PolHint {sPos := true, tPos := true, params := ["b", "c", "e", "kappa", "mu"], le := [("b", 3)], ge := [("e", 1), ("kappa", 1/10)]} .mgga mgga_x_tpss_polHint4_q ⟨32, mgga_x_tpss_polHint4_1_e.res, pos⟩ :=
  polHint_rw 1000 mgga_x_tpss_polHint4_1_q (hs := [⟨12, .param 98, ⟨.inf, .fin (Int.negOfNat 55340232221128654848) false⟩⟩]) (fc mgga_x_tpss_polHint4_1_0 fn) (par := [98, 99, 101, 461196259425, 28021]) (npar := []) (flds := []) (by simp [nameCode, nameCodeChars]) rfl rfl (by decide +kernel) (by decide +kernel)
prog mgga_x_tpss_polHint4_2d_e "res = t246"
prog mgga_x_tpss_polHint4_2d_q "t54 = 6 ** (0.1e1 / 0.3e1)
t56 = math.pi ** 2
t57 = t56 ** (0.1e1 / 0.3e1)
t58 = t57 ** 2
t59 = 0.1e1 / t58
t115 = math.sqrt(params_a_e)
t131 = t115 * t54
t170 = r1 ** 2
t184 = r1 ** (0.1e1 / 0.3e1)
t185 = t184 ** 2
t187 = 0.1e1 / t185 / t170
t188 = t59 * s2 * t187
t246 = (0.1e1 + t131 * t188 / 0.24e2) ** 2
res = t246"
theorem mgga_x_tpss_polHint4_2d_0 : PolHint {sPos := true, tPos := true, params := ["b", "c", "e", "kappa", "mu"], le := [("b", 3)], ge := [("e", 1), ("kappa", 1/10)]} .mgga mgga_x_tpss_polHint4_2d_q ⟨5, .param 101, ⟨.fin (Int.ofNat 18446744073709551616) false, .inf⟩⟩ :=
  polHint_ge (s := "e") (q0 := 1) (by simp) (by simp [nameCode, nameCodeChars]) (by norm_num [sc])
theorem mgga_x_tpss_polHint4_2d : PolHint {sPos := true, tPos := true, params := ["b", "c", "e", "kappa", "mu"], le := [("b", 3)], ge := [("e", 1), ("kappa", 1/10)]} .mgga mgga_x_tpss_polHint4_q ⟨40, mgga_x_tpss_polHint4_2d_e.res, pos⟩ :=
  polHint_rw 1000 mgga_x_tpss_polHint4_2d_q (hs := [⟨5, .param 101, ⟨.fin (Int.ofNat 18446744073709551616) false, .inf⟩⟩]) (fc mgga_x_tpss_polHint4_2d_0 fn) (par := [98, 99, 101, 461196259425, 28021]) (npar := []) (flds := []) (by simp [nameCode, nameCodeChars]) rfl rfl (by decide +kernel) (by decide +kernel)
prog mgga_x_tpss_polHint4_2n_e "res = (params_a_kappa) * (t246) + (((0.10e2 / 0.81e2 + params_a_c * t167 / t178) * t54 * t188 / 0.24e2 + 0.146e3 / 0.2025e4 * t213 - 0.73e2 / 0.97200e5 * t212 * t224 + 0.25e2 / 0.944784e6 * t110 * t96 * t169 * t219 + t115 * t169 * t171 * t174 / 0.720e3 + t120 * t122 * t169 * s2 / t237 / 0.2304e4))"
prog mgga_x_tpss_polHint4_2n_q "t54 = 6 ** (0.1e1 / 0.3e1)
t56 = math.pi ** 2
t57 = t56 ** (0.1e1 / 0.3e1)
t58 = t57 ** 2
t59 = 0.1e1 / t58
t79 = t54 * t59
t94 = t54 ** 2
t96 = 0.1e1 / t57 / t56
t97 = t94 * t96
t110 = 0.1e1 / params_a_kappa * t94
t115 = math.sqrt(params_a_e)
t120 = params_a_e * params_a_mu
t121 = t56 ** 2
t122 = 0.1e1 / t121
t157 = 0.1e1 / r1
t159 = 0.1e1 / tau1
t167 = (s2 * t157 * t159 / 0.8e1) ** (params_a_BLOC_a + params_a_BLOC_b * s2 * t157 * t159 / 0.8e1)
t169 = s2 ** 2
t170 = r1 ** 2
t171 = 0.1e1 / t170
t173 = tau1 ** 2
t174 = 0.1e1 / t173
t175 = t169 * t171 * t174
t178 = (0.1e1 + t175 / 0.64e2) ** 2
t184 = r1 ** (0.1e1 / 0.3e1)
t185 = t184 ** 2
t187 = 0.1e1 / t185 / t170
t188 = t59 * s2 * t187
t194 = s2 * t187
t196 = tau1 / t185 / r1 - t194 / 0.8e1
t200 = 0.5e1 / 0.9e1 * t196 * t54 * t59 - 0.1e1
t206 = math.sqrt(0.5e1 * params_a_b * t196 * t79 * t200 + 0.9e1)
t212 = 0.27e2 / 0.20e2 * t200 / t206 + t79 * t194 / 0.36e2
t216 = t170 ** 2
t219 = 0.1e1 / t184 / t216 / r1
t237 = t216 ** 2
t100001 = 7008.0 * (t212 * t212) - 73.0 * (t212 * math.sqrt(0.50e2 * t97 * t169 * t219 + 0.162e3 * t175)) + 0.2e0 * (0.50e2 * t97 * t169 * t219 + 0.162e3 * t175)
res = params_a_kappa + params_a_kappa * t115 * (t54 * t188) / 0.12e2 + (0.10e2 / 0.81e2 + params_a_c * t167 / t178) * t54 * t188 / 0.24e2 + t100001 / 0.97200e5 + 0.25e2 / 0.944784e6 * t110 * t96 * t169 * t219 + (params_a_kappa * t115 ** 2 / 0.576e3 * 1.0 - 0.2e0 * 0.50e2 / 0.97200e5) * (t97 * t169 * t219) + (t115 / 0.720e3 - 0.2e0 * 0.162e3 / 0.97200e5) * t175 + t120 * t122 * t169 * s2 / t237 / 0.2304e4"
theorem mgga_x_tpss_polHint4_2n_0 : PolHint {sPos := true, tPos := true, params := ["b", "c", "e", "kappa", "mu"], le := [("b", 3)], ge := [("e", 1), ("kappa", 1/10)]} .mgga mgga_x_tpss_polHint4_2n_q ⟨10, .param 101, ⟨.fin (Int.ofNat 18446744073709551616) false, .inf⟩⟩ :=
  polHint_ge (s := "e") (q0 := 1) (by simp) (by simp [nameCode, nameCodeChars]) (by norm_num [sc])
prog mgga_x_tpss_polHint4_2n_1_e "res = 0.5e1 * params_a_b * t196 * t79 * t200 + 0.9e1"
prog mgga_x_tpss_polHint4_2n_1_q "t54 = 6 ** (0.1e1 / 0.3e1)
t56 = math.pi ** 2
t57 = t56 ** (0.1e1 / 0.3e1)
t58 = t57 ** 2
t59 = 0.1e1 / t58
t79 = t54 * t59
t170 = r1 ** 2
t184 = r1 ** (0.1e1 / 0.3e1)
t185 = t184 ** 2
t187 = 0.1e1 / t185 / t170
t194 = s2 * t187
t196 = tau1 / t185 / r1 - t194 / 0.8e1
res = 0.9e1 - 0.9e1 / 0.4e1 * params_a_b + 0.25e2 / 0.9e1 * params_a_b * (t196 * t79 - 0.9e0) ** 2"
theorem mgga_x_tpss_polHint4_2n_1_0 : PolHint {sPos := true, tPos := true, params := ["b", "c", "e", "kappa", "mu"], le := [("b", 3)], ge := [("e", 1), ("kappa", 1/10)]} .mgga mgga_x_tpss_polHint4_2n_1_q ⟨12, .param 98, ⟨.inf, .fin (Int.negOfNat 55340232221128654848) false⟩⟩ :=
  polHint_par (s := "b") (q := 3) (by simp) (by simp [nameCode, nameCodeChars]) (by norm_num [sc])
theorem mgga_x_tpss_polHint4_2n_1 : PolHint {sPos := true, tPos := true, params := ["b", "c", "e", "kappa", "mu"], le := [("b", 3)], ge := [("e", 1), ("kappa", 1/10)]} .mgga mgga_x_tpss_polHint4_2n_q ⟨31, mgga_x_tpss_polHint4_2n_1_e.res, pos⟩ :=
  polHint_rw 1000 mgga_x_tpss_polHint4_2n_1_q (hs := [⟨12, .param 98, ⟨.inf, .fin (Int.negOfNat 55340232221128654848) false⟩⟩]) (fc mgga_x_tpss_polHint4_2n_1_0 fn) (par := [98, 99, 101, 461196259425, 28021]) (npar := []) (flds := []) (by simp [nameCode, nameCodeChars]) rfl rfl (by decide +kernel) (by decide +kernel)
prog mgga_x_tpss_polHint4_2n_2_e "res = 7008.0 * (t212 * t212) - 73.0 * (t212 * math.sqrt(0.50e2 * t97 * t169 * t219 + 0.162e3 * t175)) + 0.2e0 * (0.50e2 * t97 * t169 * t219 + 0.162e3 * t175)"
theorem mgga_x_tpss_polHint4_2n_2 : PolHint {sPos := true, tPos := true, params := ["b", "c", "e", "kappa", "mu"], le := [("b", 3)], ge := [("e", 1), ("kappa", 1/10)]} .mgga mgga_x_tpss_polHint4_2n_q ⟨36, mgga_x_tpss_polHint4_2n_2_e.res, nn⟩ :=
  polHint_amgm (by norm_num)
theorem mgga_x_tpss_polHint4_2n_3 : PolHint {sPos := true, tPos := true, params := ["b", "c", "e", "kappa", "mu"], le := [("b", 3)], ge := [("e", 1), ("kappa", 1/10)]} .mgga mgga_x_tpss_polHint4_2n_q ⟨37, .param 461196259425, ⟨.fin (Int.ofNat 1844674407370955161) false, .inf⟩⟩ :=
  polHint_ge (s := "kappa") (q0 := 1/10) (by simp) (by simp [nameCode, nameCodeChars]) (by norm_num [sc])
theorem mgga_x_tpss_polHint4_2n : PolHint {sPos := true, tPos := true, params := ["b", "c", "e", "kappa", "mu"], le := [("b", 3)], ge := [("e", 1), ("kappa", 1/10)]} .mgga mgga_x_tpss_polHint4_q ⟨40, mgga_x_tpss_polHint4_2n_e.res, sgI true⟩ :=
  polHint_rw 1000 mgga_x_tpss_polHint4_2n_q (hs := [⟨10, .param 101, ⟨.fin (Int.ofNat 18446744073709551616) false, .inf⟩⟩, ⟨31, mgga_x_tpss_polHint4_2n_1_e.res, pos⟩, ⟨36, mgga_x_tpss_polHint4_2n_2_e.res, nn⟩, ⟨37, .param 461196259425, ⟨.fin (Int.ofNat 1844674407370955161) false, .inf⟩⟩]) (fc mgga_x_tpss_polHint4_2n_0 (fc mgga_x_tpss_polHint4_2n_1 (fc mgga_x_tpss_polHint4_2n_2 (fc mgga_x_tpss_polHint4_2n_3 fn)))) (par := [98, 99, 101, 461196259425, 28021]) (npar := []) (flds := []) (by simp [nameCode, nameCodeChars]) rfl rfl (by decide +kernel) (by decide +kernel)
prog mgga_x_tpss_polHint4_2_e "res = (params_a_kappa) + (((0.10e2 / 0.81e2 + params_a_c * t167 / t178) * t54 * t188 / 0.24e2 + 0.146e3 / 0.2025e4 * t213 - 0.73e2 / 0.97200e5 * t212 * t224 + 0.25e2 / 0.944784e6 * t110 * t96 * t169 * t219 + t115 * t169 * t171 * t174 / 0.720e3 + t120 * t122 * t169 * s2 / t237 / 0.2304e4)) / (t246)"
theorem mgga_x_tpss_polHint4_2 : PolHint {sPos := true, tPos := true, params := ["b", "c", "e", "kappa", "mu"], le := [("b", 3)], ge := [("e", 1), ("kappa", 1/10)]} .mgga mgga_x_tpss_polHint4_q ⟨40, mgga_x_tpss_polHint4_2_e.res, sgI true⟩ :=
  polHint_fadd true mgga_x_tpss_polHint4_2d mgga_x_tpss_polHint4_2n
theorem mgga_x_tpss_polHint4 : PolHint {sPos := true, tPos := true, params := ["b", "c", "e", "kappa", "mu"], le := [("b", 3)], ge := [("e", 1), ("kappa", 1/10)]} .mgga mgga_x_tpss.polBody ⟨89, mgga_x_tpss_polHint4_e.res, sgI true⟩ :=
  polHint_rw 1000 mgga_x_tpss_polHint4_q (hs := [⟨10, .param 101, ⟨.fin (Int.ofNat 18446744073709551616) false, .inf⟩⟩, ⟨32, mgga_x_tpss_polHint4_1_e.res, pos⟩, ⟨40, mgga_x_tpss_polHint4_2_e.res, sgI true⟩]) (fc mgga_x_tpss_polHint4_0 (fc mgga_x_tpss_polHint4_1 (fc mgga_x_tpss_polHint4_2 fn))) (par := [98, 99, 101, 461196259425, 28021]) (npar := []) (flds := []) (by simp [nameCode, nameCodeChars]) rfl rfl (by decide +kernel) (by decide +kernel)
theorem mgga_x_tpss_definedPol : DefinedPol {sPos := true, tPos := true, params := ["b", "c", "e", "kappa", "mu"], le := [("b", 3)], ge := [("e", 1), ("kappa", 1/10)]} .mgga mgga_x_tpss :=
  definedPolH_of _ mgga_x_tpss_neverRaises (hs := [⟨41, mgga_x_tpss_polHint0_e.res, pos⟩, ⟨51, .param 101, ⟨.fin (Int.ofNat 18446744073709551616) false, .inf⟩⟩, ⟨58, mgga_x_tpss_polHint2_e.res, sgI true⟩, ⟨81, mgga_x_tpss_polHint3_e.res, pos⟩, ⟨89, mgga_x_tpss_polHint4_e.res, sgI true⟩]) (fc mgga_x_tpss_polHint0 (fc mgga_x_tpss_polHint1 (fc mgga_x_tpss_polHint2 (fc mgga_x_tpss_polHint3 (fc mgga_x_tpss_polHint4 fn))))) (par := [98, 99, 101, 461196259425, 28021]) (npar := []) (flds := []) (by simp [nameCode, nameCodeChars]) rfl rfl (by decide +kernel)

prog mgga_x_tpss_unpolHint0_e "res = 0.5e1 * params_a_b * t67 * t73 * t71 + 0.9e1"
prog mgga_x_tpss_unpolHint0_q "t19 = r0 ** (0.1e1 / 0.3e1)
t34 = r0 ** 2
t46 = 6 ** (0.1e1 / 0.3e1)
t48 = math.pi ** 2
t49 = t48 ** (0.1e1 / 0.3e1)
t50 = t49 ** 2
t51 = 0.1e1 / t50
t53 = 2 ** (0.1e1 / 0.3e1)
t54 = t53 ** 2
t56 = t19 ** 2
t59 = s0 * t54 / t56 / t34
t67 = tau0 * t54 / t56 / r0 - t59 / 0.8e1
t73 = t46 * t51
res = 0.9e1 - 0.9e1 / 0.4e1 * params_a_b + 0.25e2 / 0.9e1 * params_a_b * (t67 * t73 - 0.9e0) ** 2"
theorem mgga_x_tpss_unpolHint0_0 : UnpolHint {sPos := true, tPos := true, params := ["b", "c", "e", "kappa", "mu"], le := [("b", 3)], ge := [("e", 1), ("kappa", 1/10)]} .mgga mgga_x_tpss_unpolHint0_q ⟨13, .param 98, ⟨.inf, .fin (Int.negOfNat 55340232221128654848) false⟩⟩ :=
  unpolHint_par (s := "b") (q := 3) (by simp) (by simp [nameCode, nameCodeChars]) (by norm_num [sc])
theorem mgga_x_tpss_unpolHint0 : UnpolHint {sPos := true, tPos := true, params := ["b", "c", "e", "kappa", "mu"], le := [("b", 3)], ge := [("e", 1), ("kappa", 1/10)]} .mgga mgga_x_tpss.unpolBody ⟨33, mgga_x_tpss_unpolHint0_e.res, pos⟩ :=
  unpolHint_rw 1000 mgga_x_tpss_unpolHint0_q (hs := [⟨13, .param 98, ⟨.inf, .fin (Int.negOfNat 55340232221128654848) false⟩⟩]) (fc mgga_x_tpss_unpolHint0_0 fn) (par := [98, 99, 101, 461196259425, 28021]) (npar := []) (flds := []) (by simp [nameCode, nameCodeChars]) rfl rfl (by decide +kernel) (by decide +kernel)
theorem mgga_x_tpss_unpolHint1 : UnpolHint {sPos := true, tPos := true, params := ["b", "c", "e", "kappa", "mu"], le := [("b", 3)], ge := [("e", 1), ("kappa", 1/10)]} .mgga mgga_x_tpss.unpolBody ⟨41, .param 101, ⟨.fin (Int.ofNat 18446744073709551616) false, .inf⟩⟩ :=
  unpolHint_ge (s := "e") (q0 := 1) (by simp) (by simp [nameCode, nameCodeChars]) (by norm_num [sc])
prog mgga_x_tpss_unpolHint2_e "res = params_a_kappa + ((0.10e2 / 0.81e2 + params_a_c * t31 / t42) * t46 * t51 * t59 / 0.24e2 + 0.146e3 / 0.2025e4 * t85 - 0.73e2 / 0.97200e5 * t84 * t101 + 0.25e2 / 0.472392e6 / params_a_kappa * t88 * t90 * t97 + t109 * t33 * t35 * t38 / 0.720e3 + params_a_e * params_a_mu / t115 * t33 * s0 / t119 / 0.576e3) / t130"
prog mgga_x_tpss_unpolHint2_q "t19 = r0 ** (0.1e1 / 0.3e1)
t21 = 0.1e1 / r0
t23 = 0.1e1 / tau0
t31 = (s0 * t21 * t23 / 0.8e1) ** (params_a_BLOC_a + params_a_BLOC_b * s0 * t21 * t23 / 0.8e1)
t33 = s0 ** 2
t34 = r0 ** 2
t35 = 0.1e1 / t34
t37 = tau0 ** 2
t38 = 0.1e1 / t37
t39 = t33 * t35 * t38
t42 = (0.1e1 + t39 / 0.64e2) ** 2
t46 = 6 ** (0.1e1 / 0.3e1)
t48 = math.pi ** 2
t49 = t48 ** (0.1e1 / 0.3e1)
t50 = t49 ** 2
t51 = 0.1e1 / t50
t53 = 2 ** (0.1e1 / 0.3e1)
t54 = t53 ** 2
t56 = t19 ** 2
t59 = s0 * t54 / t56 / t34
t67 = tau0 * t54 / t56 / r0 - t59 / 0.8e1
t71 = 0.5e1 / 0.9e1 * t67 * t46 * t51 - 0.1e1
t73 = t46 * t51
t78 = math.sqrt(0.5e1 * params_a_b * t67 * t73 * t71 + 0.9e1)
t84 = 0.27e2 / 0.20e2 * t71 / t78 + t73 * t59 / 0.36e2
t85 = t84 ** 2
t88 = t46 ** 2
t90 = 0.1e1 / t49 / t48
t93 = t34 ** 2
t97 = t33 * t53 / t19 / t93 / r0
t101 = math.sqrt(0.100e3 * t88 * t90 * t97 + 0.162e3 * t39)
t109 = math.sqrt(params_a_e)
t115 = t48 ** 2
t119 = t93 ** 2
t130 = (0.1e1 + t109 * t46 * t51 * t59 / 0.24e2) ** 2
res = params_a_kappa + ((0.10e2 / 0.81e2 + params_a_c * t31 / t42) * t46 * t51 * t59 / 0.24e2 + 0.146e3 / 0.2025e4 * t85 - 0.73e2 / 0.97200e5 * t84 * t101 + 0.25e2 / 0.472392e6 / params_a_kappa * t88 * t90 * t97 + t109 * t33 * t35 * t38 / 0.720e3 + params_a_e * params_a_mu / t115 * t33 * s0 / t119 / 0.576e3) / t130"
prog mgga_x_tpss_unpolHint2_0_e "res = 0.5e1 * params_a_b * t67 * t73 * t71 + 0.9e1"
prog mgga_x_tpss_unpolHint2_0_q "t19 = r0 ** (0.1e1 / 0.3e1)
t34 = r0 ** 2
t46 = 6 ** (0.1e1 / 0.3e1)
t48 = math.pi ** 2
t49 = t48 ** (0.1e1 / 0.3e1)
t50 = t49 ** 2
t51 = 0.1e1 / t50
t53 = 2 ** (0.1e1 / 0.3e1)
t54 = t53 ** 2
t56 = t19 ** 2
t59 = s0 * t54 / t56 / t34
t67 = tau0 * t54 / t56 / r0 - t59 / 0.8e1
t73 = t46 * t51
res = 0.9e1 - 0.9e1 / 0.4e1 * params_a_b + 0.25e2 / 0.9e1 * params_a_b * (t67 * t73 - 0.9e0) ** 2"
theorem mgga_x_tpss_unpolHint2_0_0 : UnpolHint {sPos := true, tPos := true, params := ["b", "c", "e", "kappa", "mu"], le := [("b", 3)], ge := [("e", 1), ("kappa", 1/10)]} .mgga mgga_x_tpss_unpolHint2_0_q ⟨13, .param 98, ⟨.inf, .fin (Int.negOfNat 55340232221128654848) false⟩⟩ :=
  unpolHint_par (s := "b") (q := 3) (by simp) (by simp [nameCode, nameCodeChars]) (by norm_num [sc])
theorem mgga_x_tpss_unpolHint2_0 : UnpolHint {sPos := true, tPos := true, params := ["b", "c", "e", "kappa", "mu"], le := [("b", 3)], ge := [("e", 1), ("kappa", 1/10)]} .mgga mgga_x_tpss_unpolHint2_q ⟨23, mgga_x_tpss_unpolHint2_0_e.res, pos⟩ :=
  unpolHint_rw 1000 mgga_x_tpss_unpolHint2_0_q (hs := [⟨13, .param 98, ⟨.inf, .fin (Int.negOfNat 55340232221128654848) false⟩⟩]) (fc mgga_x_tpss_unpolHint2_0_0 fn) (par := [98, 99, 101, 461196259425, 28021]) (npar := []) (flds := []) (by simp [nameCode, nameCodeChars]) rfl rfl (by decide +kernel) (by decide +kernel)
theorem mgga_x_tpss_unpolHint2_1 : UnpolHint {sPos := true, tPos := true, params := ["b", "c", "e", "kappa", "mu"], le := [("b", 3)], ge := [("e", 1), ("kappa", 1/10)]} .mgga mgga_x_tpss_unpolHint2_q ⟨31, .param 101, ⟨.fin (Int.ofNat 18446744073709551616) false, .inf⟩⟩ :=
  unpolHint_ge (s := "e") (q0 := 1) (by simp) (by simp [nameCode, nameCodeChars]) (by norm_num [sc])
prog mgga_x_tpss_unpolHint2_2d_e "res = t130"
prog mgga_x_tpss_unpolHint2_2d_q "t19 = r0 ** (0.1e1 / 0.3e1)
t34 = r0 ** 2
t46 = 6 ** (0.1e1 / 0.3e1)
t48 = math.pi ** 2
t49 = t48 ** (0.1e1 / 0.3e1)
t50 = t49 ** 2
t51 = 0.1e1 / t50
t53 = 2 ** (0.1e1 / 0.3e1)
t54 = t53 ** 2
t56 = t19 ** 2
t59 = s0 * t54 / t56 / t34
t109 = math.sqrt(params_a_e)
t130 = (0.1e1 + t109 * t46 * t51 * t59 / 0.24e2) ** 2
res = t130"
theorem mgga_x_tpss_unpolHint2_2d_0 : UnpolHint {sPos := true, tPos := true, params := ["b", "c", "e", "kappa", "mu"], le := [("b", 3)], ge := [("e", 1), ("kappa", 1/10)]} .mgga mgga_x_tpss_unpolHint2_2d_q ⟨11, .param 101, ⟨.fin (Int.ofNat 18446744073709551616) false, .inf⟩⟩ :=
  unpolHint_ge (s := "e") (q0 := 1) (by simp) (by simp [nameCode, nameCodeChars]) (by norm_num [sc])
theorem mgga_x_tpss_unpolHint2_2d : UnpolHint {sPos := true, tPos := true, params := ["b", "c", "e", "kappa", "mu"], le := [("b", 3)], ge := [("e", 1), ("kappa", 1/10)]} .mgga mgga_x_tpss_unpolHint2_q ⟨35, mgga_x_tpss_unpolHint2_2d_e.res, pos⟩ :=
  unpolHint_rw 1000 mgga_x_tpss_unpolHint2_2d_q (hs := [⟨11, .param 101, ⟨.fin (Int.ofNat 18446744073709551616) false, .inf⟩⟩]) (fc mgga_x_tpss_unpolHint2_2d_0 fn) (par := [98, 99, 101, 461196259425, 28021]) (npar := []) (flds := []) (by simp [nameCode, nameCodeChars]) rfl rfl (by decide +kernel) (by decide +kernel)
prog mgga_x_tpss_unpolHint2_2n_e "res = (params_a_kappa) * (t130) + (((0.10e2 / 0.81e2 + params_a_c * t31 / t42) * t46 * t51 * t59 / 0.24e2 + 0.146e3 / 0.2025e4 * t85 - 0.73e2 / 0.97200e5 * t84 * t101 + 0.25e2 / 0.472392e6 / params_a_kappa * t88 * t90 * t97 + t109 * t33 * t35 * t38 / 0.720e3 + params_a_e * params_a_mu / t115 * t33 * s0 / t119 / 0.576e3))"
prog mgga_x_tpss_unpolHint2_2n_q "t19 = r0 ** (0.1e1 / 0.3e1)
t21 = 0.1e1 / r0
t23 = 0.1e1 / tau0
t31 = (s0 * t21 * t23 / 0.8e1) ** (params_a_BLOC_a + params_a_BLOC_b * s0 * t21 * t23 / 0.8e1)
t33 = s0 ** 2
t34 = r0 ** 2
t35 = 0.1e1 / t34
t37 = tau0 ** 2
t38 = 0.1e1 / t37
t39 = t33 * t35 * t38
t42 = (0.1e1 + t39 / 0.64e2) ** 2
t46 = 6 ** (0.1e1 / 0.3e1)
t48 = math.pi ** 2
t49 = t48 ** (0.1e1 / 0.3e1)
t50 = t49 ** 2
t51 = 0.1e1 / t50
t53 = 2 ** (0.1e1 / 0.3e1)
t54 = t53 ** 2
t56 = t19 ** 2
t59 = s0 * t54 / t56 / t34
t67 = tau0 * t54 / t56 / r0 - t59 / 0.8e1
t71 = 0.5e1 / 0.9e1 * t67 * t46 * t51 - 0.1e1
t73 = t46 * t51
t78 = math.sqrt(0.5e1 * params_a_b * t67 * t73 * t71 + 0.9e1)
t84 = 0.27e2 / 0.20e2 * t71 / t78 + t73 * t59 / 0.36e2
t88 = t46 ** 2
t90 = 0.1e1 / t49 / t48
t93 = t34 ** 2
t97 = t33 * t53 / t19 / t93 / r0
t109 = math.sqrt(params_a_e)
t115 = t48 ** 2
t119 = t93 ** 2
t100001 = 7008.0 * (t84 * t84) - 73.0 * (t84 * math.sqrt(0.100e3 * t88 * t90 * t97 + 0.162e3 * t39)) + 0.2e0 * (0.100e3 * t88 * t90 * t97 + 0.162e3 * t39)
res = params_a_kappa + params_a_kappa * t109 * (t73 * t59) / 0.12e2 + (0.10e2 / 0.81e2 + params_a_c * t31 / t42) * t46 * t51 * t59 / 0.24e2 + t100001 / 0.97200e5 + 0.25e2 / 0.472392e6 / params_a_kappa * t88 * t90 * t97 + (params_a_kappa * t109 ** 2 / 0.576e3 * 2.0 - 0.2e0 * 0.100e3 / 0.97200e5) * (t88 * t90 * t97) + (t109 / 0.720e3 - 0.2e0 * 0.162e3 / 0.97200e5) * t39 + params_a_e * params_a_mu / t115 * t33 * s0 / t119 / 0.576e3"
prog mgga_x_tpss_unpolHint2_2n_0_e "res = 0.5e1 * params_a_b * t67 * t73 * t71 + 0.9e1"
prog mgga_x_tpss_unpolHint2_2n_0_q "t19 = r0 ** (0.1e1 / 0.3e1)
t34 = r0 ** 2
t46 = 6 ** (0.1e1 / 0.3e1)
t48 = math.pi ** 2
t49 = t48 ** (0.1e1 / 0.3e1)
t50 = t49 ** 2
t51 = 0.1e1 / t50
t53 = 2 ** (0.1e1 / 0.3e1)
t54 = t53 ** 2
t56 = t19 ** 2
t59 = s0 * t54 / t56 / t34
t67 = tau0 * t54 / t56 / r0 - t59 / 0.8e1
t73 = t46 * t51
res = 0.9e1 - 0.9e1 / 0.4e1 * params_a_b + 0.25e2 / 0.9e1 * params_a_b * (t67 * t73 - 0.9e0) ** 2"
theorem mgga_x_tpss_unpolHint2_2n_0_0 : UnpolHint {sPos := true, tPos := true, params := ["b", "c", "e", "kappa", "mu"], le := [("b", 3)], ge := [("e", 1), ("kappa", 1/10)]} .mgga mgga_x_tpss_unpolHint2_2n_0_q ⟨13, .param 98, ⟨.inf, .fin (Int.negOfNat 55340232221128654848) false⟩⟩ :=
  unpolHint_par (s := "b") (q := 3) (by simp) (by simp [nameCode, nameCodeChars]) (by norm_num [sc])
theorem mgga_x_tpss_unpolHint2_2n_0 : UnpolHint {sPos := true, tPos := true, params := ["b", "c", "e", "kappa", "mu"], le := [("b", 3)], ge := [("e", 1), ("kappa", 1/10)]} .mgga mgga_x_tpss_unpolHint2_2n_q ⟨23, mgga_x_tpss_unpolHint2_2n_0_e.res, pos⟩ :=
  unpolHint_rw 1000 mgga_x_tpss_unpolHint2_2n_0_q (hs := [⟨13, .param 98, ⟨.inf, .fin (Int.negOfNat 55340232221128654848) false⟩⟩]) (fc mgga_x_tpss_unpolHint2_2n_0_0 fn) (par := [98, 99, 101, 461196259425, 28021]) (npar := []) (flds := []) (by simp [nameCode, nameCodeChars]) rfl rfl (by decide +kernel) (by decide +kernel)
theorem mgga_x_tpss_unpolHint2_2n_1 : UnpolHint {sPos := true, tPos := true, params := ["b", "c", "e", "kappa", "mu"], le := [("b", 3)], ge := [("e", 1), ("kappa", 1/10)]} .mgga mgga_x_tpss_unpolHint2_2n_q ⟨29, .param 101, ⟨.fin (Int.ofNat 18446744073709551616) false, .inf⟩⟩ :=
  unpolHint_ge (s := "e") (q0 := 1) (by simp) (by simp [nameCode, nameCodeChars]) (by norm_num [sc])
prog mgga_x_tpss_unpolHint2_2n_2_e "res = 7008.0 * (t84 * t84) - 73.0 * (t84 * math.sqrt(0.100e3 * t88 * t90 * t97 + 0.162e3 * t39)) + 0.2e0 * (0.100e3 * t88 * t90 * t97 + 0.162e3 * t39)"
theorem mgga_x_tpss_unpolHint2_2n_2 : UnpolHint {sPos := true, tPos := true, params := ["b", "c", "e", "kappa", "mu"], le := [("b", 3)], ge := [("e", 1), ("kappa", 1/10)]} .mgga mgga_x_tpss_unpolHint2_2n_q ⟨32, mgga_x_tpss_unpolHint2_2n_2_e.res, nn⟩ :=
  unpolHint_amgm (by norm_num)
theorem mgga_x_tpss_unpolHint2_2n_3 : UnpolHint {sPos := true, tPos := true, params := ["b", "c", "e", "kappa", "mu"], le := [("b", 3)], ge := [("e", 1), ("kappa", 1/10)]} .mgga mgga_x_tpss_unpolHint2_2n_q ⟨33, .param 461196259425, ⟨.fin (Int.ofNat 1844674407370955161) false, .inf⟩⟩ :=
  unpolHint_ge (s := "kappa") (q0 := 1/10) (by simp) (by simp [nameCode, nameCodeChars]) (by norm_num [sc])
theorem mgga_x_tpss_unpolHint2_2n : UnpolHint {sPos := true, tPos := true, params := ["b", "c", "e", "kappa", "mu"], le := [("b", 3)], ge := [("e", 1), ("kappa", 1/10)]} .mgga mgga_x_tpss_unpolHint2_q ⟨35, mgga_x_tpss_unpolHint2_2n_e.res, sgI true⟩ :=
  unpolHint_rw 1000 mgga_x_tpss_unpolHint2_2n_q (hs := [⟨23, mgga_x_tpss_unpolHint2_2n_0_e.res, pos⟩, ⟨29, .param 101, ⟨.fin (Int.ofNat 18446744073709551616) false, .inf⟩⟩, ⟨32, mgga_x_tpss_unpolHint2_2n_2_e.res, nn⟩, ⟨33, .param 461196259425, ⟨.fin (Int.ofNat 1844674407370955161) false, .inf⟩⟩]) (fc mgga_x_tpss_unpolHint2_2n_0 (fc mgga_x_tpss_unpolHint2_2n_1 (fc mgga_x_tpss_unpolHint2_2n_2 (fc mgga_x_tpss_unpolHint2_2n_3 fn)))) (par := [98, 99, 101, 461196259425, 28021]) (npar := []) (flds := []) (by simp [nameCode, nameCodeChars]) rfl rfl (by decide +kernel) (by decide +kernel)
prog mgga_x_tpss_unpolHint2_2_e "res = (params_a_kappa) + (((0.10e2 / 0.81e2 + params_a_c * t31 / t42) * t46 * t51 * t59 / 0.24e2 + 0.146e3 / 0.2025e4 * t85 - 0.73e2 / 0.97200e5 * t84 * t101 + 0.25e2 / 0.472392e6 / params_a_kappa * t88 * t90 * t97 + t109 * t33 * t35 * t38 / 0.720e3 + params_a_e * params_a_mu / t115 * t33 * s0 / t119 / 0.576e3)) / (t130)"
theorem mgga_x_tpss_unpolHint2_2 : UnpolHint {sPos := true, tPos := true, params := ["b", "c", "e", "kappa", "mu"], le := [("b", 3)], ge := [("e", 1), ("kappa", 1/10)]} .mgga mgga_x_tpss_unpolHint2_q ⟨35, mgga_x_tpss_unpolHint2_2_e.res, sgI true⟩ :=
  unpolHint_fadd true mgga_x_tpss_unpolHint2_2d mgga_x_tpss_unpolHint2_2n
theorem mgga_x_tpss_unpolHint2 : UnpolHint {sPos := true, tPos := true, params := ["b", "c", "e", "kappa", "mu"], le := [("b", 3)], ge := [("e", 1), ("kappa", 1/10)]} .mgga mgga_x_tpss.unpolBody ⟨45, mgga_x_tpss_unpolHint2_e.res, sgI true⟩ :=
  unpolHint_rw 1000 mgga_x_tpss_unpolHint2_q (hs := [⟨23, mgga_x_tpss_unpolHint2_0_e.res, pos⟩, ⟨31, .param 101, ⟨.fin (Int.ofNat 18446744073709551616) false, .inf⟩⟩, ⟨35, mgga_x_tpss_unpolHint2_2_e.res, sgI true⟩]) (fc mgga_x_tpss_unpolHint2_0 (fc mgga_x_tpss_unpolHint2_1 (fc mgga_x_tpss_unpolHint2_2 fn))) (par := [98, 99, 101, 461196259425, 28021]) (npar := []) (flds := []) (by simp [nameCode, nameCodeChars]) rfl rfl (by decide +kernel) (by decide +kernel)
theorem mgga_x_tpss_definedUnpol : DefinedUnpol {sPos := true, tPos := true, params := ["b", "c", "e", "kappa", "mu"], le := [("b", 3)], ge := [("e", 1), ("kappa", 1/10)]} .mgga mgga_x_tpss :=
  definedUnpolH_of _ mgga_x_tpss_neverRaises (hs := [⟨33, mgga_x_tpss_unpolHint0_e.res, pos⟩, ⟨41, .param 101, ⟨.fin (Int.ofNat 18446744073709551616) false, .inf⟩⟩, ⟨45, mgga_x_tpss_unpolHint2_e.res, sgI true⟩]) (fc mgga_x_tpss_unpolHint0 (fc mgga_x_tpss_unpolHint1 (fc mgga_x_tpss_unpolHint2 fn))) (par := [98, 99, 101, 461196259425, 28021]) (npar := []) (flds := []) (by simp [nameCode, nameCodeChars]) rfl rfl (by decide +kernel)

prog mgga_x_vt84_polHint0_e "res = 0.1e1 + 0.22222222222222222222e0 * t70 * t55 * t73"
prog mgga_x_vt84_polHint0_q "t31 = r0 ** 2
t50 = 6 ** (0.1e1 / 0.3e1)
t52 = math.pi ** 2
t53 = t52 ** (0.1e1 / 0.3e1)
t54 = t53 ** 2
t55 = 0.1e1 / t54
t57 = r0 ** (0.1e1 / 0.3e1)
t58 = t57 ** 2
t60 = 0.1e1 / t58 / t31
t67 = s0 * t60
t70 = (tau0 / t58 / r0 - t67 / 0.8e1) * t50
res = 0.1e1 - 0.45e0 * 0.22222222222222222222e0 + 0.5e1 / 0.9e1 * 0.22222222222222222222e0 * (t70 * t55 - 0.9e0) ** 2"
theorem mgga_x_vt84_polHint0 : PolHint {sPos := true, tPos := true} .mgga mgga_x_vt84.polBody ⟨35, mgga_x_vt84_polHint0_e.res, pos⟩ :=
  polHint_rw 1000 mgga_x_vt84_polHint0_q (hs := []) fn (par := []) (npar := []) (flds := []) rfl rfl rfl (by decide +kernel) (by decide +kernel)
prog mgga_x_vt84_polHint1_e "res = (0.10e2 / 0.81e2 + 0.41982617187500000000e-2 * t30 / t31 / r0 / t35 / tau0 / t44) * t50 * t55 * s0 * t60 / 0.24e2 + 0.146e3 / 0.2025e4 * t86 - 0.73e2 / 0.97200e5 * t85 * t101 + 0.26505934954444613795e-4 * t98 + 0.19577914932045745128e-2 * t41 + 0.10647076474622770919e-3 * t107 * t30 / t109"
prog mgga_x_vt84_polHint1_q "t29 = s0 ** 2
t30 = t29 * s0
t31 = r0 ** 2
t35 = tau0 ** 2
t41 = t29 / t31 / t35
t44 = (0.1e1 + t41 / 0.64e2) ** 2
t50 = 6 ** (0.1e1 / 0.3e1)
t52 = math.pi ** 2
t53 = t52 ** (0.1e1 / 0.3e1)
t54 = t53 ** 2
t55 = 0.1e1 / t54
t57 = r0 ** (0.1e1 / 0.3e1)
t58 = t57 ** 2
t60 = 0.1e1 / t58 / t31
t67 = s0 * t60
t70 = (tau0 / t58 / r0 - t67 / 0.8e1) * t50
t73 = 0.5e1 / 0.9e1 * t70 * t55 - 0.1e1
t78 = math.sqrt(0.1e1 + 0.22222222222222222222e0 * t70 * t55 * t73)
t82 = t50 * t55
t83 = t82 * t67
t85 = 0.9e1 / 0.20e2 * t73 / t78 + t83 / 0.36e2
t89 = t50 ** 2
t92 = t89 / t53 / t52
t93 = t31 ** 2
t98 = t92 * t29 / t57 / t93 / r0
t106 = t52 ** 2
t107 = 0.1e1 / t106
t109 = t93 ** 2
t100001 = 7008.0 * (t85 * t85) - 73.0 * (t85 * math.sqrt(0.162e3 * t41 + 0.50e2 * t98)) + 0.2e0 * (0.162e3 * t41 + 0.50e2 * t98)
t100002 = 0.5e-2 * (0.1e1 * 0.1e1) - 0.2e-3 * (0.1e1 * t83) + 0.1e-4 * (t83 * t83)
res = (0.41982617187500000000e-2 * t30 / t31 / r0 / t35 / tau0 / t44) * t83 / 0.24e2 + (0.10e2 / 0.81e2 / 0.24e2 - 0.5e-2) * t83 + t100001 / 0.97200e5 + t83 * t100002 + (0.2e-3 * 0.1e1 + 0.26505934954444613795e-4 - 0.2e0 * 0.50e2 / 0.97200e5) * t98 + (0.19577914932045745128e-2 - 0.2e0 * 0.162e3 / 0.97200e5) * t41 + (0.10647076474622770919e-3 - 0.1e-4 * 0.6e1) * (t107 * t30 / t109)"
prog mgga_x_vt84_polHint1_0_e "res = 0.1e1 + 0.22222222222222222222e0 * t70 * t55 * t73"
prog mgga_x_vt84_polHint1_0_q "t31 = r0 ** 2
t50 = 6 ** (0.1e1 / 0.3e1)
t52 = math.pi ** 2
t53 = t52 ** (0.1e1 / 0.3e1)
t54 = t53 ** 2
t55 = 0.1e1 / t54
t57 = r0 ** (0.1e1 / 0.3e1)
t58 = t57 ** 2
t60 = 0.1e1 / t58 / t31
t67 = s0 * t60
t70 = (tau0 / t58 / r0 - t67 / 0.8e1) * t50
res = 0.1e1 - 0.45e0 * 0.22222222222222222222e0 + 0.5e1 / 0.9e1 * 0.22222222222222222222e0 * (t70 * t55 - 0.9e0) ** 2"
theorem mgga_x_vt84_polHint1_0 : PolHint {sPos := true, tPos := true} .mgga mgga_x_vt84_polHint1_q ⟨17, mgga_x_vt84_polHint1_0_e.res, pos⟩ :=
  polHint_rw 1000 mgga_x_vt84_polHint1_0_q (hs := []) fn (par := []) (npar := []) (flds := []) rfl rfl rfl (by decide +kernel) (by decide +kernel)
prog mgga_x_vt84_polHint1_1_e "res = 7008.0 * (t85 * t85) - 73.0 * (t85 * math.sqrt(0.162e3 * t41 + 0.50e2 * t98)) + 0.2e0 * (0.162e3 * t41 + 0.50e2 * t98)"
theorem mgga_x_vt84_polHint1_1 : PolHint {sPos := true, tPos := true} .mgga mgga_x_vt84_polHint1_q ⟨28, mgga_x_vt84_polHint1_1_e.res, nn⟩ :=
  polHint_amgm (by norm_num)
prog mgga_x_vt84_polHint1_2_e "res = 0.5e-2 * (0.1e1 * 0.1e1) - 0.2e-3 * (0.1e1 * t83) + 0.1e-4 * (t83 * t83)"
theorem mgga_x_vt84_polHint1_2 : PolHint {sPos := true, tPos := true} .mgga mgga_x_vt84_polHint1_q ⟨29, mgga_x_vt84_polHint1_2_e.res, nn⟩ :=
  polHint_quad (by norm_num)
theorem mgga_x_vt84_polHint1 : PolHint {sPos := true, tPos := true} .mgga mgga_x_vt84.polBody ⟨48, mgga_x_vt84_polHint1_e.res, pos⟩ :=
  polHint_rw 1000 mgga_x_vt84_polHint1_q (hs := [⟨17, mgga_x_vt84_polHint1_0_e.res, pos⟩, ⟨28, mgga_x_vt84_polHint1_1_e.res, nn⟩, ⟨29, mgga_x_vt84_polHint1_2_e.res, nn⟩]) (fc mgga_x_vt84_polHint1_0 (fc mgga_x_vt84_polHint1_1 (fc mgga_x_vt84_polHint1_2 fn))) (par := []) (npar := []) (flds := []) rfl rfl rfl (by decide +kernel) (by decide +kernel)
prog mgga_x_vt84_polHint2_e "res = 0.1e1 + 0.22222222222222222222e0 * t187 * t55 * t190"
prog mgga_x_vt84_polHint2_q "t50 = 6 ** (0.1e1 / 0.3e1)
t52 = math.pi ** 2
t53 = t52 ** (0.1e1 / 0.3e1)
t54 = t53 ** 2
t55 = 0.1e1 / t54
t153 = r1 ** 2
t174 = r1 ** (0.1e1 / 0.3e1)
t175 = t174 ** 2
t177 = 0.1e1 / t175 / t153
t184 = s2 * t177
t187 = (tau1 / t175 / r1 - t184 / 0.8e1) * t50
res = 0.1e1 - 0.45e0 * 0.22222222222222222222e0 + 0.5e1 / 0.9e1 * 0.22222222222222222222e0 * (t187 * t55 - 0.9e0) ** 2"
theorem mgga_x_vt84_polHint2 : PolHint {sPos := true, tPos := true} .mgga mgga_x_vt84.polBody ⟨73, mgga_x_vt84_polHint2_e.res, pos⟩ :=
  polHint_rw 1000 mgga_x_vt84_polHint2_q (hs := []) fn (par := []) (npar := []) (flds := []) rfl rfl rfl (by decide +kernel) (by decide +kernel)
prog mgga_x_vt84_polHint3_e "res = (0.10e2 / 0.81e2 + 0.41982617187500000000e-2 * t152 / t153 / r1 / t157 / tau1 / t166) * t50 * t55 * s2 * t177 / 0.24e2 + 0.146e3 / 0.2025e4 * t202 - 0.73e2 / 0.97200e5 * t201 * t213 + 0.26505934954444613795e-4 * t210 + 0.19577914932045745128e-2 * t163 + 0.10647076474622770919e-3 * t107 * t152 / t219"
prog mgga_x_vt84_polHint3_q "t50 = 6 ** (0.1e1 / 0.3e1)
t52 = math.pi ** 2
t53 = t52 ** (0.1e1 / 0.3e1)
t54 = t53 ** 2
t55 = 0.1e1 / t54
t82 = t50 * t55
t89 = t50 ** 2
t92 = t89 / t53 / t52
t106 = t52 ** 2
t107 = 0.1e1 / t106
t151 = s2 ** 2
t152 = t151 * s2
t153 = r1 ** 2
t157 = tau1 ** 2
t163 = t151 / t153 / t157
t166 = (0.1e1 + t163 / 0.64e2) ** 2
t174 = r1 ** (0.1e1 / 0.3e1)
t175 = t174 ** 2
t177 = 0.1e1 / t175 / t153
t184 = s2 * t177
t187 = (tau1 / t175 / r1 - t184 / 0.8e1) * t50
t190 = 0.5e1 / 0.9e1 * t187 * t55 - 0.1e1
t195 = math.sqrt(0.1e1 + 0.22222222222222222222e0 * t187 * t55 * t190)
t199 = t82 * t184
t201 = 0.9e1 / 0.20e2 * t190 / t195 + t199 / 0.36e2
t205 = t153 ** 2
t210 = t92 * t151 / t174 / t205 / r1
t219 = t205 ** 2
t100001 = 7008.0 * (t201 * t201) - 73.0 * (t201 * math.sqrt(0.162e3 * t163 + 0.50e2 * t210)) + 0.2e0 * (0.162e3 * t163 + 0.50e2 * t210)
t100002 = 0.5e-2 * (0.1e1 * 0.1e1) - 0.2e-3 * (0.1e1 * t199) + 0.1e-4 * (t199 * t199)
res = (0.41982617187500000000e-2 * t152 / t153 / r1 / t157 / tau1 / t166) * t199 / 0.24e2 + (0.10e2 / 0.81e2 / 0.24e2 - 0.5e-2) * t199 + t100001 / 0.97200e5 + t199 * t100002 + (0.2e-3 * 0.1e1 + 0.26505934954444613795e-4 - 0.2e0 * 0.50e2 / 0.97200e5) * t210 + (0.19577914932045745128e-2 - 0.2e0 * 0.162e3 / 0.97200e5) * t163 + (0.10647076474622770919e-3 - 0.1e-4 * 0.6e1) * (t107 * t152 / t219)"
prog mgga_x_vt84_polHint3_0_e "res = 0.1e1 + 0.22222222222222222222e0 * t187 * t55 * t190"
prog mgga_x_vt84_polHint3_0_q "t50 = 6 ** (0.1e1 / 0.3e1)
t52 = math.pi ** 2
t53 = t52 ** (0.1e1 / 0.3e1)
t54 = t53 ** 2
t55 = 0.1e1 / t54
t153 = r1 ** 2
t174 = r1 ** (0.1e1 / 0.3e1)
t175 = t174 ** 2
t177 = 0.1e1 / t175 / t153
t184 = s2 * t177
t187 = (tau1 / t175 / r1 - t184 / 0.8e1) * t50
res = 0.1e1 - 0.45e0 * 0.22222222222222222222e0 + 0.5e1 / 0.9e1 * 0.22222222222222222222e0 * (t187 * t55 - 0.9e0) ** 2"
theorem mgga_x_vt84_polHint3_0 : PolHint {sPos := true, tPos := true} .mgga mgga_x_vt84_polHint3_q ⟨22, mgga_x_vt84_polHint3_0_e.res, pos⟩ :=
  polHint_rw 1000 mgga_x_vt84_polHint3_0_q (hs := []) fn (par := []) (npar := []) (flds := []) rfl rfl rfl (by decide +kernel) (by decide +kernel)
prog mgga_x_vt84_polHint3_1_e "res = 7008.0 * (t201 * t201) - 73.0 * (t201 * math.sqrt(0.162e3 * t163 + 0.50e2 * t210)) + 0.2e0 * (0.162e3 * t163 + 0.50e2 * t210)"
theorem mgga_x_vt84_polHint3_1 : PolHint {sPos := true, tPos := true} .mgga mgga_x_vt84_polHint3_q ⟨28, mgga_x_vt84_polHint3_1_e.res, nn⟩ :=
  polHint_amgm (by norm_num)
prog mgga_x_vt84_polHint3_2_e "res = 0.5e-2 * (0.1e1 * 0.1e1) - 0.2e-3 * (0.1e1 * t199) + 0.1e-4 * (t199 * t199)"
theorem mgga_x_vt84_polHint3_2 : PolHint {sPos := true, tPos := true} .mgga mgga_x_vt84_polHint3_q ⟨29, mgga_x_vt84_polHint3_2_e.res, nn⟩ :=
  polHint_quad (by norm_num)
theorem mgga_x_vt84_polHint3 : PolHint {sPos := true, tPos := true} .mgga mgga_x_vt84.polBody ⟨81, mgga_x_vt84_polHint3_e.res, pos⟩ :=
  polHint_rw 1000 mgga_x_vt84_polHint3_q (hs := [⟨22, mgga_x_vt84_polHint3_0_e.res, pos⟩, ⟨28, mgga_x_vt84_polHint3_1_e.res, nn⟩, ⟨29, mgga_x_vt84_polHint3_2_e.res, nn⟩]) (fc mgga_x_vt84_polHint3_0 (fc mgga_x_vt84_polHint3_1 (fc mgga_x_vt84_polHint3_2 fn))) (par := []) (npar := []) (flds := []) rfl rfl rfl (by decide +kernel) (by decide +kernel)
theorem mgga_x_vt84_definedPol : DefinedPol {sPos := true, tPos := true} .mgga mgga_x_vt84 :=
  definedPolH_of _ mgga_x_vt84_neverRaises (hs := [⟨35, mgga_x_vt84_polHint0_e.res, pos⟩, ⟨48, mgga_x_vt84_polHint1_e.res, pos⟩, ⟨73, mgga_x_vt84_polHint2_e.res, pos⟩, ⟨81, mgga_x_vt84_polHint3_e.res, pos⟩]) (fc mgga_x_vt84_polHint0 (fc mgga_x_vt84_polHint1 (fc mgga_x_vt84_polHint2 (fc mgga_x_vt84_polHint3 fn)))) (par := []) (npar := []) (flds := []) rfl rfl rfl (by decide +kernel)

prog mgga_x_vt84_unpolHint0_e "res = 0.1e1 + 0.22222222222222222222e0 * t64 * t47 * t67"
prog mgga_x_vt84_unpolHint0_q "t19 = r0 ** (0.1e1 / 0.3e1)
t23 = r0 ** 2
t42 = 6 ** (0.1e1 / 0.3e1)
t44 = math.pi ** 2
t45 = t44 ** (0.1e1 / 0.3e1)
t46 = t45 ** 2
t47 = 0.1e1 / t46
t49 = 2 ** (0.1e1 / 0.3e1)
t50 = t49 ** 2
t52 = t19 ** 2
t55 = s0 * t50 / t52 / t23
t64 = (tau0 * t50 / t52 / r0 - t55 / 0.8e1) * t42
res = 0.1e1 - 0.45e0 * 0.22222222222222222222e0 + 0.5e1 / 0.9e1 * 0.22222222222222222222e0 * (t64 * t47 - 0.9e0) ** 2"
theorem mgga_x_vt84_unpolHint0 : UnpolHint {sPos := true, tPos := true} .mgga mgga_x_vt84.unpolBody ⟨28, mgga_x_vt84_unpolHint0_e.res, pos⟩ :=
  unpolHint_rw 1000 mgga_x_vt84_unpolHint0_q (hs := []) fn (par := []) (npar := []) (flds := []) rfl rfl rfl (by decide +kernel) (by decide +kernel)
prog mgga_x_vt84_unpolHint1_e "res = (0.10e2 / 0.81e2 + 0.41982617187500000000e-2 * t22 / t23 / r0 / t27 / tau0 / t36) * t42 * t47 * t55 / 0.24e2 + 0.146e3 / 0.2025e4 * t80 - 0.73e2 / 0.97200e5 * t79 * t96 + 0.53011869908889227590e-4 * t93 + 0.19577914932045745128e-2 * t33 + 0.42588305898491083676e-3 / t101 * t22 / t104"
prog mgga_x_vt84_unpolHint1_q "t19 = r0 ** (0.1e1 / 0.3e1)
t21 = s0 ** 2
t22 = t21 * s0
t23 = r0 ** 2
t27 = tau0 ** 2
t33 = t21 / t23 / t27
t36 = (0.1e1 + t33 / 0.64e2) ** 2
t42 = 6 ** (0.1e1 / 0.3e1)
t44 = math.pi ** 2
t45 = t44 ** (0.1e1 / 0.3e1)
t46 = t45 ** 2
t47 = 0.1e1 / t46
t49 = 2 ** (0.1e1 / 0.3e1)
t50 = t49 ** 2
t52 = t19 ** 2
t55 = s0 * t50 / t52 / t23
t64 = (tau0 * t50 / t52 / r0 - t55 / 0.8e1) * t42
t67 = 0.5e1 / 0.9e1 * t64 * t47 - 0.1e1
t72 = math.sqrt(0.1e1 + 0.22222222222222222222e0 * t64 * t47 * t67)
t77 = t42 * t47 * t55
t79 = 0.9e1 / 0.20e2 * t67 / t72 + t77 / 0.36e2
t83 = t42 ** 2
t88 = t23 ** 2
t93 = t83 / t45 / t44 * t21 * t49 / t19 / t88 / r0
t101 = t44 ** 2
t104 = t88 ** 2
t100001 = 7008.0 * (t79 * t79) - 73.0 * (t79 * math.sqrt(0.162e3 * t33 + 0.100e3 * t93)) + 0.2e0 * (0.162e3 * t33 + 0.100e3 * t93)
t100002 = 0.5e-2 * (0.1e1 * 0.1e1) - 0.2e-3 * (0.1e1 * t77) + 0.1e-4 * (t77 * t77)
res = (0.41982617187500000000e-2 * t22 / t23 / r0 / t27 / tau0 / t36) * t77 / 0.24e2 + (0.10e2 / 0.81e2 / 0.24e2 - 0.5e-2) * t77 + t100001 / 0.97200e5 + t77 * t100002 + (0.2e-3 * 0.2e1 + 0.53011869908889227590e-4 - 0.2e0 * 0.100e3 / 0.97200e5) * t93 + (0.19577914932045745128e-2 - 0.2e0 * 0.162e3 / 0.97200e5) * t33 + (0.42588305898491083676e-3 - 0.1e-4 * 0.24e2) * (0.1e1 / t101 * t22 / t104)"
prog mgga_x_vt84_unpolHint1_0_e "res = 0.1e1 + 0.22222222222222222222e0 * t64 * t47 * t67"
prog mgga_x_vt84_unpolHint1_0_q "t19 = r0 ** (0.1e1 / 0.3e1)
t23 = r0 ** 2
t42 = 6 ** (0.1e1 / 0.3e1)
t44 = math.pi ** 2
t45 = t44 ** (0.1e1 / 0.3e1)
t46 = t45 ** 2
t47 = 0.1e1 / t46
t49 = 2 ** (0.1e1 / 0.3e1)
t50 = t49 ** 2
t52 = t19 ** 2
t55 = s0 * t50 / t52 / t23
t64 = (tau0 * t50 / t52 / r0 - t55 / 0.8e1) * t42
res = 0.1e1 - 0.45e0 * 0.22222222222222222222e0 + 0.5e1 / 0.9e1 * 0.22222222222222222222e0 * (t64 * t47 - 0.9e0) ** 2"
theorem mgga_x_vt84_unpolHint1_0 : UnpolHint {sPos := true, tPos := true} .mgga mgga_x_vt84_unpolHint1_q ⟨18, mgga_x_vt84_unpolHint1_0_e.res, pos⟩ :=
  unpolHint_rw 1000 mgga_x_vt84_unpolHint1_0_q (hs := []) fn (par := []) (npar := []) (flds := []) rfl rfl rfl (by decide +kernel) (by decide +kernel)
prog mgga_x_vt84_unpolHint1_1_e "res = 7008.0 * (t79 * t79) - 73.0 * (t79 * math.sqrt(0.162e3 * t33 + 0.100e3 * t93)) + 0.2e0 * (0.162e3 * t33 + 0.100e3 * t93)"
theorem mgga_x_vt84_unpolHint1_1 : UnpolHint {sPos := true, tPos := true} .mgga mgga_x_vt84_unpolHint1_q ⟨26, mgga_x_vt84_unpolHint1_1_e.res, nn⟩ :=
  unpolHint_amgm (by norm_num)
prog mgga_x_vt84_unpolHint1_2_e "res = 0.5e-2 * (0.1e1 * 0.1e1) - 0.2e-3 * (0.1e1 * t77) + 0.1e-4 * (t77 * t77)"
theorem mgga_x_vt84_unpolHint1_2 : UnpolHint {sPos := true, tPos := true} .mgga mgga_x_vt84_unpolHint1_q ⟨27, mgga_x_vt84_unpolHint1_2_e.res, nn⟩ :=
  unpolHint_quad (by norm_num)
theorem mgga_x_vt84_unpolHint1 : UnpolHint {sPos := true, tPos := true} .mgga mgga_x_vt84.unpolBody ⟨38, mgga_x_vt84_unpolHint1_e.res, pos⟩ :=
  unpolHint_rw 1000 mgga_x_vt84_unpolHint1_q (hs := [⟨18, mgga_x_vt84_unpolHint1_0_e.res, pos⟩, ⟨26, mgga_x_vt84_unpolHint1_1_e.res, nn⟩, ⟨27, mgga_x_vt84_unpolHint1_2_e.res, nn⟩]) (fc mgga_x_vt84_unpolHint1_0 (fc mgga_x_vt84_unpolHint1_1 (fc mgga_x_vt84_unpolHint1_2 fn))) (par := []) (npar := []) (flds := []) rfl rfl rfl (by decide +kernel) (by decide +kernel)
theorem mgga_x_vt84_definedUnpol : DefinedUnpol {sPos := true, tPos := true} .mgga mgga_x_vt84 :=
  definedUnpolH_of _ mgga_x_vt84_neverRaises (hs := [⟨28, mgga_x_vt84_unpolHint0_e.res, pos⟩, ⟨38, mgga_x_vt84_unpolHint1_e.res, pos⟩]) (fc mgga_x_vt84_unpolHint0 (fc mgga_x_vt84_unpolHint1 fn)) (par := []) (npar := []) (flds := []) rfl rfl rfl (by decide +kernel)

end Verif.Props
