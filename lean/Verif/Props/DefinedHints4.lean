import Verif.Norm.HintsMore
import Verif.Py.KernelRfl
import Verif.Props.Static1
import Verif.Props.Static2
import Verif.Props.Static3
import Verif.Props.Static4
/-!
# C49: formulas that are defined on their domain, by hints

Generated.  `X_polHintN` and `X_unpolHintN` bound a part of a formula where interval analysis alone is too weak.
-/
set_option Elab.async false
set_option maxRecDepth 100000
namespace Verif.Props
open Verif.Py Verif.Model Verif.Spec Verif.Norm Verif.Data Verif.Lib

prog gga_c_op_pw91_polHint0_e "res = 0.1e1 + ((0.2743e0 - 0.1508e0 * t68) * t54 * t58 * s0 * t64 / 0.24e2 - t87) / (0.1e1 + 0.16370833333333333333e-1 * t90 * t94 * t97 + t87)"
prog gga_c_op_pw91_polHint0_q "t54 = 6 ** (0.1e1 / 0.3e1)
t55 = math.pi ** 2
t56 = t55 ** (0.1e1 / 0.3e1)
t57 = t56 ** 2
t58 = 0.1e1 / t57
t59 = t54 * t58
t60 = r0 ** 2
t61 = r0 ** (0.1e1 / 0.3e1)
t62 = t61 ** 2
t64 = 0.1e1 / t62 / t60
t68 = math.exp(-0.25e2 / 0.6e1 * t59 * s0 * t64)
t76 = t54 ** 2
t79 = t76 / t56 / t55
t80 = s0 ** 2
t81 = t60 ** 2
t87 = 0.69444444444444444444e-5 * t79 * t80 / t61 / t81 / r0
t90 = t76 / t56
t91 = math.sqrt(s0)
t94 = t91 / t61 / r0
t97 = math.asinh(0.64963333333333333333e0 * t90 * t94)
res = 0.1e1 + ((0.2743e0 - 0.1508e0 * t68) * t54 * t58 * s0 * t64 / 0.24e2 - t87) / (0.1e1 + 0.16370833333333333333e-1 * t90 * t94 * t97 + t87)"
prog gga_c_op_pw91_polHint0_0d_e "res = 0.1e1 + 0.16370833333333333333e-1 * t90 * t94 * t97 + t87"
prog gga_c_op_pw91_polHint0_0d_q "t54 = 6 ** (0.1e1 / 0.3e1)
t55 = math.pi ** 2
t56 = t55 ** (0.1e1 / 0.3e1)
t60 = r0 ** 2
t61 = r0 ** (0.1e1 / 0.3e1)
t76 = t54 ** 2
t79 = t76 / t56 / t55
t80 = s0 ** 2
t81 = t60 ** 2
t87 = 0.69444444444444444444e-5 * t79 * t80 / t61 / t81 / r0
t90 = t76 / t56
t91 = math.sqrt(s0)
t94 = t91 / t61 / r0
t97 = math.asinh(0.64963333333333333333e0 * t90 * t94)
res = 0.1e1 + 0.16370833333333333333e-1 * t90 * t94 * t97 + t87"
theorem gga_c_op_pw91_polHint0_0d : PolHint {} .gga gga_c_op_pw91_polHint0_q ⟨20, gga_c_op_pw91_polHint0_0d_e.res, pos⟩ :=
  polHint_rw 1000 gga_c_op_pw91_polHint0_0d_q (hs := []) fn (par := []) (npar := []) (flds := []) rfl rfl rfl (by decide +kernel) (by decide +kernel)
prog gga_c_op_pw91_polHint0_0n_e "res = (0.1e1) * (0.1e1 + 0.16370833333333333333e-1 * t90 * t94 * t97 + t87) + (((0.2743e0 - 0.1508e0 * t68) * t54 * t58 * s0 * t64 / 0.24e2 - t87))"
prog gga_c_op_pw91_polHint0_0n_q "t54 = 6 ** (0.1e1 / 0.3e1)
t55 = math.pi ** 2
t56 = t55 ** (0.1e1 / 0.3e1)
t57 = t56 ** 2
t58 = 0.1e1 / t57
t59 = t54 * t58
t60 = r0 ** 2
t61 = r0 ** (0.1e1 / 0.3e1)
t62 = t61 ** 2
t64 = 0.1e1 / t62 / t60
t68 = math.exp(-0.25e2 / 0.6e1 * t59 * s0 * t64)
t76 = t54 ** 2
t90 = t76 / t56
t91 = math.sqrt(s0)
t94 = t91 / t61 / r0
t97 = math.asinh(0.64963333333333333333e0 * t90 * t94)
res = 0.1e1 + 0.16370833333333333333e-1 * t90 * t94 * t97 + (0.2743e0 - 0.1508e0 * t68) * t54 * t58 * s0 * t64 / 0.24e2"
theorem gga_c_op_pw91_polHint0_0n : PolHint {} .gga gga_c_op_pw91_polHint0_q ⟨20, gga_c_op_pw91_polHint0_0n_e.res, sgI true⟩ :=
  polHint_rw 1000 gga_c_op_pw91_polHint0_0n_q (hs := []) fn (par := []) (npar := []) (flds := []) rfl rfl rfl (by decide +kernel) (by decide +kernel)
prog gga_c_op_pw91_polHint0_0_e "res = (0.1e1) + (((0.2743e0 - 0.1508e0 * t68) * t54 * t58 * s0 * t64 / 0.24e2 - t87)) / (0.1e1 + 0.16370833333333333333e-1 * t90 * t94 * t97 + t87)"
theorem gga_c_op_pw91_polHint0_0 : PolHint {} .gga gga_c_op_pw91_polHint0_q ⟨20, gga_c_op_pw91_polHint0_0_e.res, sgI true⟩ :=
  polHint_fadd true gga_c_op_pw91_polHint0_0d gga_c_op_pw91_polHint0_0n
theorem gga_c_op_pw91_polHint0 : PolHint {} .gga gga_c_op_pw91.polBody ⟨46, gga_c_op_pw91_polHint0_e.res, sgI true⟩ :=
  polHint_rw 1000 gga_c_op_pw91_polHint0_q (hs := [⟨20, gga_c_op_pw91_polHint0_0_e.res, sgI true⟩]) (fc gga_c_op_pw91_polHint0_0 fn) (par := []) (npar := []) (flds := []) rfl rfl rfl (by decide +kernel) (by decide +kernel)
prog gga_c_op_pw91_polHint1_e "res = 0.1e1 + ((0.2743e0 - 0.1508e0 * t129) * t54 * t58 * s2 * t125 / 0.24e2 - t144) / (0.1e1 + 0.16370833333333333333e-1 * t90 * t149 * t152 + t144)"
prog gga_c_op_pw91_polHint1_q "t54 = 6 ** (0.1e1 / 0.3e1)
t55 = math.pi ** 2
t56 = t55 ** (0.1e1 / 0.3e1)
t57 = t56 ** 2
t58 = 0.1e1 / t57
t59 = t54 * t58
t76 = t54 ** 2
t79 = t76 / t56 / t55
t90 = t76 / t56
t121 = r1 ** 2
t122 = r1 ** (0.1e1 / 0.3e1)
t123 = t122 ** 2
t125 = 0.1e1 / t123 / t121
t129 = math.exp(-0.25e2 / 0.6e1 * t59 * s2 * t125)
t137 = s2 ** 2
t138 = t121 ** 2
t144 = 0.69444444444444444444e-5 * t79 * t137 / t122 / t138 / r1
t146 = math.sqrt(s2)
t149 = t146 / t122 / r1
t152 = math.asinh(0.64963333333333333333e0 * t90 * t149)
res = 0.1e1 + ((0.2743e0 - 0.1508e0 * t129) * t54 * t58 * s2 * t125 / 0.24e2 - t144) / (0.1e1 + 0.16370833333333333333e-1 * t90 * t149 * t152 + t144)"
prog gga_c_op_pw91_polHint1_0d_e "res = 0.1e1 + 0.16370833333333333333e-1 * t90 * t149 * t152 + t144"
prog gga_c_op_pw91_polHint1_0d_q "t54 = 6 ** (0.1e1 / 0.3e1)
t55 = math.pi ** 2
t56 = t55 ** (0.1e1 / 0.3e1)
t76 = t54 ** 2
t79 = t76 / t56 / t55
t90 = t76 / t56
t121 = r1 ** 2
t122 = r1 ** (0.1e1 / 0.3e1)
t137 = s2 ** 2
t138 = t121 ** 2
t144 = 0.69444444444444444444e-5 * t79 * t137 / t122 / t138 / r1
t146 = math.sqrt(s2)
t149 = t146 / t122 / r1
t152 = math.asinh(0.64963333333333333333e0 * t90 * t149)
res = 0.1e1 + 0.16370833333333333333e-1 * t90 * t149 * t152 + t144"
theorem gga_c_op_pw91_polHint1_0d : PolHint {} .gga gga_c_op_pw91_polHint1_q ⟨20, gga_c_op_pw91_polHint1_0d_e.res, pos⟩ :=
  polHint_rw 1000 gga_c_op_pw91_polHint1_0d_q (hs := []) fn (par := []) (npar := []) (flds := []) rfl rfl rfl (by decide +kernel) (by decide +kernel)
prog gga_c_op_pw91_polHint1_0n_e "res = (0.1e1) * (0.1e1 + 0.16370833333333333333e-1 * t90 * t149 * t152 + t144) + (((0.2743e0 - 0.1508e0 * t129) * t54 * t58 * s2 * t125 / 0.24e2 - t144))"
prog gga_c_op_pw91_polHint1_0n_q "t54 = 6 ** (0.1e1 / 0.3e1)
t55 = math.pi ** 2
t56 = t55 ** (0.1e1 / 0.3e1)
t57 = t56 ** 2
t58 = 0.1e1 / t57
t59 = t54 * t58
t76 = t54 ** 2
t90 = t76 / t56
t121 = r1 ** 2
t122 = r1 ** (0.1e1 / 0.3e1)
t123 = t122 ** 2
t125 = 0.1e1 / t123 / t121
t129 = math.exp(-0.25e2 / 0.6e1 * t59 * s2 * t125)
t146 = math.sqrt(s2)
t149 = t146 / t122 / r1
t152 = math.asinh(0.64963333333333333333e0 * t90 * t149)
res = 0.1e1 + 0.16370833333333333333e-1 * t90 * t149 * t152 + (0.2743e0 - 0.1508e0 * t129) * t54 * t58 * s2 * t125 / 0.24e2"
theorem gga_c_op_pw91_polHint1_0n : PolHint {} .gga gga_c_op_pw91_polHint1_q ⟨20, gga_c_op_pw91_polHint1_0n_e.res, sgI true⟩ :=
  polHint_rw 1000 gga_c_op_pw91_polHint1_0n_q (hs := []) fn (par := []) (npar := []) (flds := []) rfl rfl rfl (by decide +kernel) (by decide +kernel)
prog gga_c_op_pw91_polHint1_0_e "res = (0.1e1) + (((0.2743e0 - 0.1508e0 * t129) * t54 * t58 * s2 * t125 / 0.24e2 - t144)) / (0.1e1 + 0.16370833333333333333e-1 * t90 * t149 * t152 + t144)"
theorem gga_c_op_pw91_polHint1_0 : PolHint {} .gga gga_c_op_pw91_polHint1_q ⟨20, gga_c_op_pw91_polHint1_0_e.res, sgI true⟩ :=
  polHint_fadd true gga_c_op_pw91_polHint1_0d gga_c_op_pw91_polHint1_0n
theorem gga_c_op_pw91_polHint1 : PolHint {} .gga gga_c_op_pw91.polBody ⟨61, gga_c_op_pw91_polHint1_e.res, sgI true⟩ :=
  polHint_rw 1000 gga_c_op_pw91_polHint1_q (hs := [⟨20, gga_c_op_pw91_polHint1_0_e.res, sgI true⟩]) (fc gga_c_op_pw91_polHint1_0 fn) (par := []) (npar := []) (flds := []) rfl rfl rfl (by decide +kernel) (by decide +kernel)
theorem gga_c_op_pw91_definedPol : DefinedPol {} .gga gga_c_op_pw91 :=
  definedPolH_of _ gga_c_op_pw91_neverRaises (hs := [⟨46, gga_c_op_pw91_polHint0_e.res, sgI true⟩, ⟨61, gga_c_op_pw91_polHint1_e.res, sgI true⟩]) (fc gga_c_op_pw91_polHint0 (fc gga_c_op_pw91_polHint1 fn)) (par := []) (npar := []) (flds := []) rfl rfl rfl (by decide +kernel)

prog gga_c_op_pw91_unpolHint0_e "res = 0.1e1 + ((0.2743e0 - 0.1508e0 * t52) * t36 * t40 * t49 / 0.24e2 - t71) / (0.1e1 + 0.16370833333333333333e-1 * t74 * t75 * t25 * t78 * t84 + t71)"
prog gga_c_op_pw91_unpolHint0_q "t25 = 2 ** (0.1e1 / 0.3e1)
t36 = 6 ** (0.1e1 / 0.3e1)
t37 = math.pi ** 2
t38 = t37 ** (0.1e1 / 0.3e1)
t39 = t38 ** 2
t40 = 0.1e1 / t39
t42 = t25 ** 2
t44 = r0 ** 2
t45 = r0 ** (0.1e1 / 0.3e1)
t46 = t45 ** 2
t49 = s0 * t42 / t46 / t44
t52 = math.exp(-0.25e2 / 0.6e1 * t36 * t40 * t49)
t59 = t36 ** 2
t63 = s0 ** 2
t65 = t44 ** 2
t71 = 0.13888888888888888889e-4 * t59 / t38 / t37 * t63 * t25 / t45 / t65 / r0
t74 = t59 / t38
t75 = math.sqrt(s0)
t78 = 0.1e1 / t45 / r0
t84 = math.asinh(0.64963333333333333333e0 * t74 * t75 * t25 * t78)
res = 0.1e1 + ((0.2743e0 - 0.1508e0 * t52) * t36 * t40 * t49 / 0.24e2 - t71) / (0.1e1 + 0.16370833333333333333e-1 * t74 * t75 * t25 * t78 * t84 + t71)"
prog gga_c_op_pw91_unpolHint0_0d_e "res = 0.1e1 + 0.16370833333333333333e-1 * t74 * t75 * t25 * t78 * t84 + t71"
prog gga_c_op_pw91_unpolHint0_0d_q "t25 = 2 ** (0.1e1 / 0.3e1)
t36 = 6 ** (0.1e1 / 0.3e1)
t37 = math.pi ** 2
t38 = t37 ** (0.1e1 / 0.3e1)
t44 = r0 ** 2
t45 = r0 ** (0.1e1 / 0.3e1)
t59 = t36 ** 2
t63 = s0 ** 2
t65 = t44 ** 2
t71 = 0.13888888888888888889e-4 * t59 / t38 / t37 * t63 * t25 / t45 / t65 / r0
t74 = t59 / t38
t75 = math.sqrt(s0)
t78 = 0.1e1 / t45 / r0
t84 = math.asinh(0.64963333333333333333e0 * t74 * t75 * t25 * t78)
res = 0.1e1 + 0.16370833333333333333e-1 * t74 * t75 * t25 * t78 * t84 + t71"
theorem gga_c_op_pw91_unpolHint0_0d : UnpolHint {} .gga gga_c_op_pw91_unpolHint0_q ⟨20, gga_c_op_pw91_unpolHint0_0d_e.res, pos⟩ :=
  unpolHint_rw 1000 gga_c_op_pw91_unpolHint0_0d_q (hs := []) fn (par := []) (npar := []) (flds := []) rfl rfl rfl (by decide +kernel) (by decide +kernel)
prog gga_c_op_pw91_unpolHint0_0n_e "res = (0.1e1) * (0.1e1 + 0.16370833333333333333e-1 * t74 * t75 * t25 * t78 * t84 + t71) + (((0.2743e0 - 0.1508e0 * t52) * t36 * t40 * t49 / 0.24e2 - t71))"
prog gga_c_op_pw91_unpolHint0_0n_q "t25 = 2 ** (0.1e1 / 0.3e1)
t36 = 6 ** (0.1e1 / 0.3e1)
t37 = math.pi ** 2
t38 = t37 ** (0.1e1 / 0.3e1)
t39 = t38 ** 2
t40 = 0.1e1 / t39
t42 = t25 ** 2
t44 = r0 ** 2
t45 = r0 ** (0.1e1 / 0.3e1)
t46 = t45 ** 2
t49 = s0 * t42 / t46 / t44
t52 = math.exp(-0.25e2 / 0.6e1 * t36 * t40 * t49)
t59 = t36 ** 2
t74 = t59 / t38
t75 = math.sqrt(s0)
t78 = 0.1e1 / t45 / r0
t84 = math.asinh(0.64963333333333333333e0 * t74 * t75 * t25 * t78)
res = 0.1e1 + 0.16370833333333333333e-1 * t74 * t75 * t25 * t78 * t84 + (0.2743e0 - 0.1508e0 * t52) * t36 * t40 * t49 / 0.24e2"
theorem gga_c_op_pw91_unpolHint0_0n : UnpolHint {} .gga gga_c_op_pw91_unpolHint0_q ⟨20, gga_c_op_pw91_unpolHint0_0n_e.res, sgI true⟩ :=
  unpolHint_rw 1000 gga_c_op_pw91_unpolHint0_0n_q (hs := []) fn (par := []) (npar := []) (flds := []) rfl rfl rfl (by decide +kernel) (by decide +kernel)
prog gga_c_op_pw91_unpolHint0_0_e "res = (0.1e1) + (((0.2743e0 - 0.1508e0 * t52) * t36 * t40 * t49 / 0.24e2 - t71)) / (0.1e1 + 0.16370833333333333333e-1 * t74 * t75 * t25 * t78 * t84 + t71)"
theorem gga_c_op_pw91_unpolHint0_0 : UnpolHint {} .gga gga_c_op_pw91_unpolHint0_q ⟨20, gga_c_op_pw91_unpolHint0_0_e.res, sgI true⟩ :=
  unpolHint_fadd true gga_c_op_pw91_unpolHint0_0d gga_c_op_pw91_unpolHint0_0n
theorem gga_c_op_pw91_unpolHint0 : UnpolHint {} .gga gga_c_op_pw91.unpolBody ⟨41, gga_c_op_pw91_unpolHint0_e.res, sgI true⟩ :=
  unpolHint_rw 1000 gga_c_op_pw91_unpolHint0_q (hs := [⟨20, gga_c_op_pw91_unpolHint0_0_e.res, sgI true⟩]) (fc gga_c_op_pw91_unpolHint0_0 fn) (par := []) (npar := []) (flds := []) rfl rfl rfl (by decide +kernel) (by decide +kernel)
theorem gga_c_op_pw91_definedUnpol : DefinedUnpol {} .gga gga_c_op_pw91 :=
  definedUnpolH_of _ gga_c_op_pw91_neverRaises (hs := [⟨41, gga_c_op_pw91_unpolHint0_e.res, sgI true⟩]) (fc gga_c_op_pw91_unpolHint0 fn) (par := []) (npar := []) (flds := []) rfl rfl rfl (by decide +kernel)

prog gga_k_apbeint_polHint0_e "res = params_a_muGE + t36 * t41 * t46 / (0.1e1 + t47 * t48 / 0.24e2) / 0.24e2"
prog gga_k_apbeint_polHint0_q "t35 = 6 ** (0.1e1 / 0.3e1)
t37 = math.pi ** 2
t38 = t37 ** (0.1e1 / 0.3e1)
t39 = t38 ** 2
t40 = 0.1e1 / t39
t41 = t40 * s0
t42 = r0 ** 2
t43 = r0 ** (0.1e1 / 0.3e1)
t44 = t43 ** 2
t46 = 0.1e1 / t44 / t42
t48 = t41 * t46
res = params_a_muGE + (params_a_muPBE - params_a_muGE) * (params_a_alpha * t35 * t48 / 0.24e2) / (0.1e1 + params_a_alpha * t35 * t48 / 0.24e2)"
prog gga_k_apbeint_polHint0_0d_e "res = 0.1e1 + params_a_alpha * t35 * t48 / 0.24e2"
prog gga_k_apbeint_polHint0_0d_q "t35 = 6 ** (0.1e1 / 0.3e1)
t37 = math.pi ** 2
t38 = t37 ** (0.1e1 / 0.3e1)
t39 = t38 ** 2
t40 = 0.1e1 / t39
t41 = t40 * s0
t42 = r0 ** 2
t43 = r0 ** (0.1e1 / 0.3e1)
t44 = t43 ** 2
t46 = 0.1e1 / t44 / t42
t48 = t41 * t46
res = 0.1e1 + params_a_alpha * t35 * t48 / 0.24e2"
theorem gga_k_apbeint_polHint0_0d : PolHint {params := ["alpha", "kappa", "muGE", "muPBE"]} .gga gga_k_apbeint_polHint0_q ⟨11, gga_k_apbeint_polHint0_0d_e.res, pos⟩ :=
  polHint_rw 1000 gga_k_apbeint_polHint0_0d_q (hs := []) fn (par := [418431133793, 461196259425, 1836402501, 470119629381]) (npar := []) (flds := []) (by simp [nameCode, nameCodeChars]) rfl rfl (by decide +kernel) (by decide +kernel)
prog gga_k_apbeint_polHint0_0n_e "res = (params_a_muGE) * (0.1e1 + params_a_alpha * t35 * t48 / 0.24e2) + ((params_a_muPBE - params_a_muGE) * (params_a_alpha * t35 * t48 / 0.24e2))"
prog gga_k_apbeint_polHint0_0n_q "t35 = 6 ** (0.1e1 / 0.3e1)
t37 = math.pi ** 2
t38 = t37 ** (0.1e1 / 0.3e1)
t39 = t38 ** 2
t40 = 0.1e1 / t39
t41 = t40 * s0
t42 = r0 ** 2
t43 = r0 ** (0.1e1 / 0.3e1)
t44 = t43 ** 2
t46 = 0.1e1 / t44 / t42
t48 = t41 * t46
res = params_a_muGE + params_a_muPBE * params_a_alpha * t35 * t48 / 0.24e2"
theorem gga_k_apbeint_polHint0_0n : PolHint {params := ["alpha", "kappa", "muGE", "muPBE"]} .gga gga_k_apbeint_polHint0_q ⟨11, gga_k_apbeint_polHint0_0n_e.res, sgI true⟩ :=
  polHint_rw 1000 gga_k_apbeint_polHint0_0n_q (hs := []) fn (par := [418431133793, 461196259425, 1836402501, 470119629381]) (npar := []) (flds := []) (by simp [nameCode, nameCodeChars]) rfl rfl (by decide +kernel) (by decide +kernel)
prog gga_k_apbeint_polHint0_0_e "res = (params_a_muGE) + ((params_a_muPBE - params_a_muGE) * (params_a_alpha * t35 * t48 / 0.24e2)) / (0.1e1 + params_a_alpha * t35 * t48 / 0.24e2)"
theorem gga_k_apbeint_polHint0_0 : PolHint {params := ["alpha", "kappa", "muGE", "muPBE"]} .gga gga_k_apbeint_polHint0_q ⟨11, gga_k_apbeint_polHint0_0_e.res, sgI true⟩ :=
  polHint_fadd true gga_k_apbeint_polHint0_0d gga_k_apbeint_polHint0_0n
theorem gga_k_apbeint_polHint0 : PolHint {params := ["alpha", "kappa", "muGE", "muPBE"]} .gga gga_k_apbeint.polBody ⟨35, gga_k_apbeint_polHint0_e.res, sgI true⟩ :=
  polHint_rw 1000 gga_k_apbeint_polHint0_q (hs := [⟨11, gga_k_apbeint_polHint0_0_e.res, sgI true⟩]) (fc gga_k_apbeint_polHint0_0 fn) (par := [418431133793, 461196259425, 1836402501, 470119629381]) (npar := []) (flds := []) (by simp [nameCode, nameCodeChars]) rfl rfl (by decide +kernel) (by decide +kernel)
prog gga_k_apbeint_polHint1_e "res = params_a_muGE + t36 * t81 * t86 / (0.1e1 + t47 * t87 / 0.24e2) / 0.24e2"
prog gga_k_apbeint_polHint1_q "t35 = 6 ** (0.1e1 / 0.3e1)
t37 = math.pi ** 2
t38 = t37 ** (0.1e1 / 0.3e1)
t39 = t38 ** 2
t40 = 0.1e1 / t39
t81 = t40 * s2
t82 = r1 ** 2
t83 = r1 ** (0.1e1 / 0.3e1)
t84 = t83 ** 2
t86 = 0.1e1 / t84 / t82
t87 = t81 * t86
res = params_a_muGE + (params_a_muPBE - params_a_muGE) * (params_a_alpha * t35 * t87 / 0.24e2) / (0.1e1 + params_a_alpha * t35 * t87 / 0.24e2)"
prog gga_k_apbeint_polHint1_0d_e "res = 0.1e1 + params_a_alpha * t35 * t87 / 0.24e2"
prog gga_k_apbeint_polHint1_0d_q "t35 = 6 ** (0.1e1 / 0.3e1)
t37 = math.pi ** 2
t38 = t37 ** (0.1e1 / 0.3e1)
t39 = t38 ** 2
t40 = 0.1e1 / t39
t81 = t40 * s2
t82 = r1 ** 2
t83 = r1 ** (0.1e1 / 0.3e1)
t84 = t83 ** 2
t86 = 0.1e1 / t84 / t82
t87 = t81 * t86
res = 0.1e1 + params_a_alpha * t35 * t87 / 0.24e2"
theorem gga_k_apbeint_polHint1_0d : PolHint {params := ["alpha", "kappa", "muGE", "muPBE"]} .gga gga_k_apbeint_polHint1_q ⟨11, gga_k_apbeint_polHint1_0d_e.res, pos⟩ :=
  polHint_rw 1000 gga_k_apbeint_polHint1_0d_q (hs := []) fn (par := [418431133793, 461196259425, 1836402501, 470119629381]) (npar := []) (flds := []) (by simp [nameCode, nameCodeChars]) rfl rfl (by decide +kernel) (by decide +kernel)
prog gga_k_apbeint_polHint1_0n_e "res = (params_a_muGE) * (0.1e1 + params_a_alpha * t35 * t87 / 0.24e2) + ((params_a_muPBE - params_a_muGE) * (params_a_alpha * t35 * t87 / 0.24e2))"
prog gga_k_apbeint_polHint1_0n_q "t35 = 6 ** (0.1e1 / 0.3e1)
t37 = math.pi ** 2
t38 = t37 ** (0.1e1 / 0.3e1)
t39 = t38 ** 2
t40 = 0.1e1 / t39
t81 = t40 * s2
t82 = r1 ** 2
t83 = r1 ** (0.1e1 / 0.3e1)
t84 = t83 ** 2
t86 = 0.1e1 / t84 / t82
t87 = t81 * t86
res = params_a_muGE + params_a_muPBE * params_a_alpha * t35 * t87 / 0.24e2"
theorem gga_k_apbeint_polHint1_0n : PolHint {params := ["alpha", "kappa", "muGE", "muPBE"]} .gga gga_k_apbeint_polHint1_q ⟨11, gga_k_apbeint_polHint1_0n_e.res, sgI true⟩ :=
  polHint_rw 1000 gga_k_apbeint_polHint1_0n_q (hs := []) fn (par := [418431133793, 461196259425, 1836402501, 470119629381]) (npar := []) (flds := []) (by simp [nameCode, nameCodeChars]) rfl rfl (by decide +kernel) (by decide +kernel)
prog gga_k_apbeint_polHint1_0_e "res = (params_a_muGE) + ((params_a_muPBE - params_a_muGE) * (params_a_alpha * t35 * t87 / 0.24e2)) / (0.1e1 + params_a_alpha * t35 * t87 / 0.24e2)"
theorem gga_k_apbeint_polHint1_0 : PolHint {params := ["alpha", "kappa", "muGE", "muPBE"]} .gga gga_k_apbeint_polHint1_q ⟨11, gga_k_apbeint_polHint1_0_e.res, sgI true⟩ :=
  polHint_fadd true gga_k_apbeint_polHint1_0d gga_k_apbeint_polHint1_0n
theorem gga_k_apbeint_polHint1 : PolHint {params := ["alpha", "kappa", "muGE", "muPBE"]} .gga gga_k_apbeint.polBody ⟨48, gga_k_apbeint_polHint1_e.res, sgI true⟩ :=
  polHint_rw 1000 gga_k_apbeint_polHint1_q (hs := [⟨11, gga_k_apbeint_polHint1_0_e.res, sgI true⟩]) (fc gga_k_apbeint_polHint1_0 fn) (par := [418431133793, 461196259425, 1836402501, 470119629381]) (npar := []) (flds := []) (by simp [nameCode, nameCodeChars]) rfl rfl (by decide +kernel) (by decide +kernel)
theorem gga_k_apbeint_definedPol : DefinedPol {params := ["alpha", "kappa", "muGE", "muPBE"]} .gga gga_k_apbeint :=
  definedPolH_of _ gga_k_apbeint_neverRaises (hs := [⟨35, gga_k_apbeint_polHint0_e.res, sgI true⟩, ⟨48, gga_k_apbeint_polHint1_e.res, sgI true⟩]) (fc gga_k_apbeint_polHint0 (fc gga_k_apbeint_polHint1 fn)) (par := [418431133793, 461196259425, 1836402501, 470119629381]) (npar := []) (flds := []) (by simp [nameCode, nameCodeChars]) rfl rfl (by decide +kernel)

prog gga_k_apbeint_unpolHint0_e "res = params_a_muGE + (params_a_muPBE - params_a_muGE) * params_a_alpha * t27 * t31 * t36 * t39 / (0.1e1 + params_a_alpha * t27 * t31 * t42 / 0.24e2) / 0.24e2"
prog gga_k_apbeint_unpolHint0_q "t22 = r0 ** (0.1e1 / 0.3e1)
t23 = t22 ** 2
t27 = 6 ** (0.1e1 / 0.3e1)
t28 = math.pi ** 2
t29 = t28 ** (0.1e1 / 0.3e1)
t30 = t29 ** 2
t31 = 0.1e1 / t30
t34 = 2 ** (0.1e1 / 0.3e1)
t35 = t34 ** 2
t36 = s0 * t35
t37 = r0 ** 2
t39 = 0.1e1 / t23 / t37
t42 = t36 * t39
res = params_a_muGE + (params_a_muPBE - params_a_muGE) * (params_a_alpha * t27 * t31 * t42 / 0.24e2) / (0.1e1 + params_a_alpha * t27 * t31 * t42 / 0.24e2)"
prog gga_k_apbeint_unpolHint0_0d_e "res = 0.1e1 + params_a_alpha * t27 * t31 * t42 / 0.24e2"
prog gga_k_apbeint_unpolHint0_0d_q "t22 = r0 ** (0.1e1 / 0.3e1)
t23 = t22 ** 2
t27 = 6 ** (0.1e1 / 0.3e1)
t28 = math.pi ** 2
t29 = t28 ** (0.1e1 / 0.3e1)
t30 = t29 ** 2
t31 = 0.1e1 / t30
t34 = 2 ** (0.1e1 / 0.3e1)
t35 = t34 ** 2
t36 = s0 * t35
t37 = r0 ** 2
t39 = 0.1e1 / t23 / t37
t42 = t36 * t39
res = 0.1e1 + params_a_alpha * t27 * t31 * t42 / 0.24e2"
theorem gga_k_apbeint_unpolHint0_0d : UnpolHint {params := ["alpha", "kappa", "muGE", "muPBE"]} .gga gga_k_apbeint_unpolHint0_q ⟨13, gga_k_apbeint_unpolHint0_0d_e.res, pos⟩ :=
  unpolHint_rw 1000 gga_k_apbeint_unpolHint0_0d_q (hs := []) fn (par := [418431133793, 461196259425, 1836402501, 470119629381]) (npar := []) (flds := []) (by simp [nameCode, nameCodeChars]) rfl rfl (by decide +kernel) (by decide +kernel)
prog gga_k_apbeint_unpolHint0_0n_e "res = (params_a_muGE) * (0.1e1 + params_a_alpha * t27 * t31 * t42 / 0.24e2) + ((params_a_muPBE - params_a_muGE) * (params_a_alpha * t27 * t31 * t42 / 0.24e2))"
prog gga_k_apbeint_unpolHint0_0n_q "t22 = r0 ** (0.1e1 / 0.3e1)
t23 = t22 ** 2
t27 = 6 ** (0.1e1 / 0.3e1)
t28 = math.pi ** 2
t29 = t28 ** (0.1e1 / 0.3e1)
t30 = t29 ** 2
t31 = 0.1e1 / t30
t34 = 2 ** (0.1e1 / 0.3e1)
t35 = t34 ** 2
t36 = s0 * t35
t37 = r0 ** 2
t39 = 0.1e1 / t23 / t37
t42 = t36 * t39
res = params_a_muGE + params_a_muPBE * params_a_alpha * t27 * t31 * t42 / 0.24e2"
theorem gga_k_apbeint_unpolHint0_0n : UnpolHint {params := ["alpha", "kappa", "muGE", "muPBE"]} .gga gga_k_apbeint_unpolHint0_q ⟨13, gga_k_apbeint_unpolHint0_0n_e.res, sgI true⟩ :=
  unpolHint_rw 1000 gga_k_apbeint_unpolHint0_0n_q (hs := []) fn (par := [418431133793, 461196259425, 1836402501, 470119629381]) (npar := []) (flds := []) (by simp [nameCode, nameCodeChars]) rfl rfl (by decide +kernel) (by decide +kernel)
prog gga_k_apbeint_unpolHint0_0_e "res = (params_a_muGE) + ((params_a_muPBE - params_a_muGE) * (params_a_alpha * t27 * t31 * t42 / 0.24e2)) / (0.1e1 + params_a_alpha * t27 * t31 * t42 / 0.24e2)"
theorem gga_k_apbeint_unpolHint0_0 : UnpolHint {params := ["alpha", "kappa", "muGE", "muPBE"]} .gga gga_k_apbeint_unpolHint0_q ⟨13, gga_k_apbeint_unpolHint0_0_e.res, sgI true⟩ :=
  unpolHint_fadd true gga_k_apbeint_unpolHint0_0d gga_k_apbeint_unpolHint0_0n
theorem gga_k_apbeint_unpolHint0 : UnpolHint {params := ["alpha", "kappa", "muGE", "muPBE"]} .gga gga_k_apbeint.unpolBody ⟨26, gga_k_apbeint_unpolHint0_e.res, sgI true⟩ :=
  unpolHint_rw 1000 gga_k_apbeint_unpolHint0_q (hs := [⟨13, gga_k_apbeint_unpolHint0_0_e.res, sgI true⟩]) (fc gga_k_apbeint_unpolHint0_0 fn) (par := [418431133793, 461196259425, 1836402501, 470119629381]) (npar := []) (flds := []) (by simp [nameCode, nameCodeChars]) rfl rfl (by decide +kernel) (by decide +kernel)
theorem gga_k_apbeint_definedUnpol : DefinedUnpol {params := ["alpha", "kappa", "muGE", "muPBE"]} .gga gga_k_apbeint :=
  definedUnpolH_of _ gga_k_apbeint_neverRaises (hs := [⟨26, gga_k_apbeint_unpolHint0_e.res, sgI true⟩]) (fc gga_k_apbeint_unpolHint0 fn) (par := [418431133793, 461196259425, 1836402501, 470119629381]) (npar := []) (flds := []) (by simp [nameCode, nameCodeChars]) rfl rfl (by decide +kernel)

prog gga_x_ityh_pbe_polHint0d_e "res = params_a_kappa + t37 * t41 * s0 / t45 / t43 / 0.24e2"
prog gga_x_ityh_pbe_polHint0d_q "t36 = 6 ** (0.1e1 / 0.3e1)
t37 = params_a_mu * t36
t38 = math.pi ** 2
t39 = t38 ** (0.1e1 / 0.3e1)
t40 = t39 ** 2
t41 = 0.1e1 / t40
t43 = r0 ** 2
t44 = r0 ** (0.1e1 / 0.3e1)
t45 = t44 ** 2
res = params_a_kappa + t37 * t41 * s0 / t45 / t43 / 0.24e2"
theorem gga_x_ityh_pbe_polHint0d : PolHint {params := ["kappa", "mu"], flds := [.camOmega]} .gga gga_x_ityh_pbe.polBody ⟨32, gga_x_ityh_pbe_polHint0d_e.res, pos⟩ :=
  polHint_rw 1000 gga_x_ityh_pbe_polHint0d_q (hs := []) fn (par := [461196259425, 28021]) (npar := []) (flds := [2]) (by simp [nameCode, nameCodeChars]) rfl rfl (by decide +kernel) (by decide +kernel)
prog gga_x_ityh_pbe_polHint0n_e "res = (0.1e1) * (params_a_kappa + t37 * t41 * s0 / t45 / t43 / 0.24e2) - (params_a_kappa)"
prog gga_x_ityh_pbe_polHint0n_q "t36 = 6 ** (0.1e1 / 0.3e1)
t37 = params_a_mu * t36
t38 = math.pi ** 2
t39 = t38 ** (0.1e1 / 0.3e1)
t40 = t39 ** 2
t41 = 0.1e1 / t40
t43 = r0 ** 2
t44 = r0 ** (0.1e1 / 0.3e1)
t45 = t44 ** 2
res = t37 * t41 * s0 / t45 / t43 / 0.24e2"
theorem gga_x_ityh_pbe_polHint0n : PolHint {params := ["kappa", "mu"], flds := [.camOmega]} .gga gga_x_ityh_pbe.polBody ⟨32, gga_x_ityh_pbe_polHint0n_e.res, sgI false⟩ :=
  polHint_rw 1000 gga_x_ityh_pbe_polHint0n_q (hs := []) fn (par := [461196259425, 28021]) (npar := []) (flds := [2]) (by simp [nameCode, nameCodeChars]) rfl rfl (by decide +kernel) (by decide +kernel)
prog gga_x_ityh_pbe_polHint0_e "res = (0.1e1) - (params_a_kappa) / (params_a_kappa + t37 * t41 * s0 / t45 / t43 / 0.24e2)"
theorem gga_x_ityh_pbe_polHint0 : PolHint {params := ["kappa", "mu"], flds := [.camOmega]} .gga gga_x_ityh_pbe.polBody ⟨32, gga_x_ityh_pbe_polHint0_e.res, sgI false⟩ :=
  polHint_fsub false gga_x_ityh_pbe_polHint0d gga_x_ityh_pbe_polHint0n
prog gga_x_ityh_pbe_polHint1d_e "res = params_a_kappa + t37 * t41 * s2 / t136 / t134 / 0.24e2"
prog gga_x_ityh_pbe_polHint1d_q "t36 = 6 ** (0.1e1 / 0.3e1)
t37 = params_a_mu * t36
t38 = math.pi ** 2
t39 = t38 ** (0.1e1 / 0.3e1)
t40 = t39 ** 2
t41 = 0.1e1 / t40
t134 = r1 ** 2
t135 = r1 ** (0.1e1 / 0.3e1)
t136 = t135 ** 2
res = params_a_kappa + t37 * t41 * s2 / t136 / t134 / 0.24e2"
theorem gga_x_ityh_pbe_polHint1d : PolHint {params := ["kappa", "mu"], flds := [.camOmega]} .gga gga_x_ityh_pbe.polBody ⟨59, gga_x_ityh_pbe_polHint1d_e.res, pos⟩ :=
  polHint_rw 1000 gga_x_ityh_pbe_polHint1d_q (hs := []) fn (par := [461196259425, 28021]) (npar := []) (flds := [2]) (by simp [nameCode, nameCodeChars]) rfl rfl (by decide +kernel) (by decide +kernel)
prog gga_x_ityh_pbe_polHint1n_e "res = (0.1e1) * (params_a_kappa + t37 * t41 * s2 / t136 / t134 / 0.24e2) - (params_a_kappa)"
prog gga_x_ityh_pbe_polHint1n_q "t36 = 6 ** (0.1e1 / 0.3e1)
t37 = params_a_mu * t36
t38 = math.pi ** 2
t39 = t38 ** (0.1e1 / 0.3e1)
t40 = t39 ** 2
t41 = 0.1e1 / t40
t134 = r1 ** 2
t135 = r1 ** (0.1e1 / 0.3e1)
t136 = t135 ** 2
res = t37 * t41 * s2 / t136 / t134 / 0.24e2"
theorem gga_x_ityh_pbe_polHint1n : PolHint {params := ["kappa", "mu"], flds := [.camOmega]} .gga gga_x_ityh_pbe.polBody ⟨59, gga_x_ityh_pbe_polHint1n_e.res, sgI false⟩ :=
  polHint_rw 1000 gga_x_ityh_pbe_polHint1n_q (hs := []) fn (par := [461196259425, 28021]) (npar := []) (flds := [2]) (by simp [nameCode, nameCodeChars]) rfl rfl (by decide +kernel) (by decide +kernel)
prog gga_x_ityh_pbe_polHint1_e "res = (0.1e1) - (params_a_kappa) / (params_a_kappa + t37 * t41 * s2 / t136 / t134 / 0.24e2)"
theorem gga_x_ityh_pbe_polHint1 : PolHint {params := ["kappa", "mu"], flds := [.camOmega]} .gga gga_x_ityh_pbe.polBody ⟨59, gga_x_ityh_pbe_polHint1_e.res, sgI false⟩ :=
  polHint_fsub false gga_x_ityh_pbe_polHint1d gga_x_ityh_pbe_polHint1n
theorem gga_x_ityh_pbe_definedPol : DefinedPol {params := ["kappa", "mu"], flds := [.camOmega]} .gga gga_x_ityh_pbe :=
  definedPolH_of _ gga_x_ityh_pbe_neverRaises (hs := [⟨32, gga_x_ityh_pbe_polHint0_e.res, sgI false⟩, ⟨59, gga_x_ityh_pbe_polHint1_e.res, sgI false⟩]) (fc gga_x_ityh_pbe_polHint0 (fc gga_x_ityh_pbe_polHint1 fn)) (par := [461196259425, 28021]) (npar := []) (flds := [2]) (by simp [nameCode, nameCodeChars]) rfl rfl (by decide +kernel)

prog gga_x_ityh_pbe_unpolHint0d_e "res = params_a_kappa + params_a_mu * t28 / t32 * s0 * t36 / t39 / t38 / 0.24e2"
prog gga_x_ityh_pbe_unpolHint0d_q "t20 = r0 ** (0.1e1 / 0.3e1)
t28 = 6 ** (0.1e1 / 0.3e1)
t30 = math.pi ** 2
t31 = t30 ** (0.1e1 / 0.3e1)
t32 = t31 ** 2
t35 = 2 ** (0.1e1 / 0.3e1)
t36 = t35 ** 2
t38 = r0 ** 2
t39 = t20 ** 2
res = params_a_kappa + params_a_mu * t28 / t32 * s0 * t36 / t39 / t38 / 0.24e2"
theorem gga_x_ityh_pbe_unpolHint0d : UnpolHint {params := ["kappa", "mu"], flds := [.camOmega]} .gga gga_x_ityh_pbe.unpolBody ⟨22, gga_x_ityh_pbe_unpolHint0d_e.res, pos⟩ :=
  unpolHint_rw 1000 gga_x_ityh_pbe_unpolHint0d_q (hs := []) fn (par := [461196259425, 28021]) (npar := []) (flds := [2]) (by simp [nameCode, nameCodeChars]) rfl rfl (by decide +kernel) (by decide +kernel)
prog gga_x_ityh_pbe_unpolHint0n_e "res = (0.1e1) * (params_a_kappa + params_a_mu * t28 / t32 * s0 * t36 / t39 / t38 / 0.24e2) - (params_a_kappa)"
prog gga_x_ityh_pbe_unpolHint0n_q "t20 = r0 ** (0.1e1 / 0.3e1)
t28 = 6 ** (0.1e1 / 0.3e1)
t30 = math.pi ** 2
t31 = t30 ** (0.1e1 / 0.3e1)
t32 = t31 ** 2
t35 = 2 ** (0.1e1 / 0.3e1)
t36 = t35 ** 2
t38 = r0 ** 2
t39 = t20 ** 2
res = params_a_mu * t28 / t32 * s0 * t36 / t39 / t38 / 0.24e2"
theorem gga_x_ityh_pbe_unpolHint0n : UnpolHint {params := ["kappa", "mu"], flds := [.camOmega]} .gga gga_x_ityh_pbe.unpolBody ⟨22, gga_x_ityh_pbe_unpolHint0n_e.res, sgI false⟩ :=
  unpolHint_rw 1000 gga_x_ityh_pbe_unpolHint0n_q (hs := []) fn (par := [461196259425, 28021]) (npar := []) (flds := [2]) (by simp [nameCode, nameCodeChars]) rfl rfl (by decide +kernel) (by decide +kernel)
prog gga_x_ityh_pbe_unpolHint0_e "res = (0.1e1) - (params_a_kappa) / (params_a_kappa + params_a_mu * t28 / t32 * s0 * t36 / t39 / t38 / 0.24e2)"
theorem gga_x_ityh_pbe_unpolHint0 : UnpolHint {params := ["kappa", "mu"], flds := [.camOmega]} .gga gga_x_ityh_pbe.unpolBody ⟨22, gga_x_ityh_pbe_unpolHint0_e.res, sgI false⟩ :=
  unpolHint_fsub false gga_x_ityh_pbe_unpolHint0d gga_x_ityh_pbe_unpolHint0n
theorem gga_x_ityh_pbe_definedUnpol : DefinedUnpol {params := ["kappa", "mu"], flds := [.camOmega]} .gga gga_x_ityh_pbe :=
  definedUnpolH_of _ gga_x_ityh_pbe_neverRaises (hs := [⟨22, gga_x_ityh_pbe_unpolHint0_e.res, sgI false⟩]) (fc gga_x_ityh_pbe_unpolHint0 fn) (par := [461196259425, 28021]) (npar := []) (flds := [2]) (by simp [nameCode, nameCodeChars]) rfl rfl (by decide +kernel)

prog gga_x_pbeint_polHint0_e "res = params_a_muGE + t32 * t37 * t42 / (0.1e1 + t43 * t44 / 0.24e2) / 0.24e2"
prog gga_x_pbeint_polHint0_q "t31 = 6 ** (0.1e1 / 0.3e1)
t33 = math.pi ** 2
t34 = t33 ** (0.1e1 / 0.3e1)
t35 = t34 ** 2
t36 = 0.1e1 / t35
t37 = t36 * s0
t38 = r0 ** 2
t39 = r0 ** (0.1e1 / 0.3e1)
t40 = t39 ** 2
t42 = 0.1e1 / t40 / t38
t44 = t37 * t42
res = params_a_muGE + (params_a_muPBE - params_a_muGE) * (params_a_alpha * t31 * t44 / 0.24e2) / (0.1e1 + params_a_alpha * t31 * t44 / 0.24e2)"
prog gga_x_pbeint_polHint0_0d_e "res = 0.1e1 + params_a_alpha * t31 * t44 / 0.24e2"
prog gga_x_pbeint_polHint0_0d_q "t31 = 6 ** (0.1e1 / 0.3e1)
t33 = math.pi ** 2
t34 = t33 ** (0.1e1 / 0.3e1)
t35 = t34 ** 2
t36 = 0.1e1 / t35
t37 = t36 * s0
t38 = r0 ** 2
t39 = r0 ** (0.1e1 / 0.3e1)
t40 = t39 ** 2
t42 = 0.1e1 / t40 / t38
t44 = t37 * t42
res = 0.1e1 + params_a_alpha * t31 * t44 / 0.24e2"
theorem gga_x_pbeint_polHint0_0d : PolHint {params := ["alpha", "kappa", "muGE", "muPBE"]} .gga gga_x_pbeint_polHint0_q ⟨11, gga_x_pbeint_polHint0_0d_e.res, pos⟩ :=
  polHint_rw 1000 gga_x_pbeint_polHint0_0d_q (hs := []) fn (par := [418431133793, 461196259425, 1836402501, 470119629381]) (npar := []) (flds := []) (by simp [nameCode, nameCodeChars]) rfl rfl (by decide +kernel) (by decide +kernel)
prog gga_x_pbeint_polHint0_0n_e "res = (params_a_muGE) * (0.1e1 + params_a_alpha * t31 * t44 / 0.24e2) + ((params_a_muPBE - params_a_muGE) * (params_a_alpha * t31 * t44 / 0.24e2))"
prog gga_x_pbeint_polHint0_0n_q "t31 = 6 ** (0.1e1 / 0.3e1)
t33 = math.pi ** 2
t34 = t33 ** (0.1e1 / 0.3e1)
t35 = t34 ** 2
t36 = 0.1e1 / t35
t37 = t36 * s0
t38 = r0 ** 2
t39 = r0 ** (0.1e1 / 0.3e1)
t40 = t39 ** 2
t42 = 0.1e1 / t40 / t38
t44 = t37 * t42
res = params_a_muGE + params_a_muPBE * params_a_alpha * t31 * t44 / 0.24e2"
theorem gga_x_pbeint_polHint0_0n : PolHint {params := ["alpha", "kappa", "muGE", "muPBE"]} .gga gga_x_pbeint_polHint0_q ⟨11, gga_x_pbeint_polHint0_0n_e.res, sgI true⟩ :=
  polHint_rw 1000 gga_x_pbeint_polHint0_0n_q (hs := []) fn (par := [418431133793, 461196259425, 1836402501, 470119629381]) (npar := []) (flds := []) (by simp [nameCode, nameCodeChars]) rfl rfl (by decide +kernel) (by decide +kernel)
prog gga_x_pbeint_polHint0_0_e "res = (params_a_muGE) + ((params_a_muPBE - params_a_muGE) * (params_a_alpha * t31 * t44 / 0.24e2)) / (0.1e1 + params_a_alpha * t31 * t44 / 0.24e2)"
theorem gga_x_pbeint_polHint0_0 : PolHint {params := ["alpha", "kappa", "muGE", "muPBE"]} .gga gga_x_pbeint_polHint0_q ⟨11, gga_x_pbeint_polHint0_0_e.res, sgI true⟩ :=
  polHint_fadd true gga_x_pbeint_polHint0_0d gga_x_pbeint_polHint0_0n
theorem gga_x_pbeint_polHint0 : PolHint {params := ["alpha", "kappa", "muGE", "muPBE"]} .gga gga_x_pbeint.polBody ⟨31, gga_x_pbeint_polHint0_e.res, sgI true⟩ :=
  polHint_rw 1000 gga_x_pbeint_polHint0_q (hs := [⟨11, gga_x_pbeint_polHint0_0_e.res, sgI true⟩]) (fc gga_x_pbeint_polHint0_0 fn) (par := [418431133793, 461196259425, 1836402501, 470119629381]) (npar := []) (flds := []) (by simp [nameCode, nameCodeChars]) rfl rfl (by decide +kernel) (by decide +kernel)
prog gga_x_pbeint_polHint1_e "res = params_a_muGE + t32 * t76 * t81 / (0.1e1 + t43 * t82 / 0.24e2) / 0.24e2"
prog gga_x_pbeint_polHint1_q "t31 = 6 ** (0.1e1 / 0.3e1)
t33 = math.pi ** 2
t34 = t33 ** (0.1e1 / 0.3e1)
t35 = t34 ** 2
t36 = 0.1e1 / t35
t76 = t36 * s2
t77 = r1 ** 2
t78 = r1 ** (0.1e1 / 0.3e1)
t79 = t78 ** 2
t81 = 0.1e1 / t79 / t77
t82 = t76 * t81
res = params_a_muGE + (params_a_muPBE - params_a_muGE) * (params_a_alpha * t31 * t82 / 0.24e2) / (0.1e1 + params_a_alpha * t31 * t82 / 0.24e2)"
prog gga_x_pbeint_polHint1_0d_e "res = 0.1e1 + params_a_alpha * t31 * t82 / 0.24e2"
prog gga_x_pbeint_polHint1_0d_q "t31 = 6 ** (0.1e1 / 0.3e1)
t33 = math.pi ** 2
t34 = t33 ** (0.1e1 / 0.3e1)
t35 = t34 ** 2
t36 = 0.1e1 / t35
t76 = t36 * s2
t77 = r1 ** 2
t78 = r1 ** (0.1e1 / 0.3e1)
t79 = t78 ** 2
t81 = 0.1e1 / t79 / t77
t82 = t76 * t81
res = 0.1e1 + params_a_alpha * t31 * t82 / 0.24e2"
theorem gga_x_pbeint_polHint1_0d : PolHint {params := ["alpha", "kappa", "muGE", "muPBE"]} .gga gga_x_pbeint_polHint1_q ⟨11, gga_x_pbeint_polHint1_0d_e.res, pos⟩ :=
  polHint_rw 1000 gga_x_pbeint_polHint1_0d_q (hs := []) fn (par := [418431133793, 461196259425, 1836402501, 470119629381]) (npar := []) (flds := []) (by simp [nameCode, nameCodeChars]) rfl rfl (by decide +kernel) (by decide +kernel)
prog gga_x_pbeint_polHint1_0n_e "res = (params_a_muGE) * (0.1e1 + params_a_alpha * t31 * t82 / 0.24e2) + ((params_a_muPBE - params_a_muGE) * (params_a_alpha * t31 * t82 / 0.24e2))"
prog gga_x_pbeint_polHint1_0n_q "t31 = 6 ** (0.1e1 / 0.3e1)
t33 = math.pi ** 2
t34 = t33 ** (0.1e1 / 0.3e1)
t35 = t34 ** 2
t36 = 0.1e1 / t35
t76 = t36 * s2
t77 = r1 ** 2
t78 = r1 ** (0.1e1 / 0.3e1)
t79 = t78 ** 2
t81 = 0.1e1 / t79 / t77
t82 = t76 * t81
res = params_a_muGE + params_a_muPBE * params_a_alpha * t31 * t82 / 0.24e2"
theorem gga_x_pbeint_polHint1_0n : PolHint {params := ["alpha", "kappa", "muGE", "muPBE"]} .gga gga_x_pbeint_polHint1_q ⟨11, gga_x_pbeint_polHint1_0n_e.res, sgI true⟩ :=
  polHint_rw 1000 gga_x_pbeint_polHint1_0n_q (hs := []) fn (par := [418431133793, 461196259425, 1836402501, 470119629381]) (npar := []) (flds := []) (by simp [nameCode, nameCodeChars]) rfl rfl (by decide +kernel) (by decide +kernel)
prog gga_x_pbeint_polHint1_0_e "res = (params_a_muGE) + ((params_a_muPBE - params_a_muGE) * (params_a_alpha * t31 * t82 / 0.24e2)) / (0.1e1 + params_a_alpha * t31 * t82 / 0.24e2)"
theorem gga_x_pbeint_polHint1_0 : PolHint {params := ["alpha", "kappa", "muGE", "muPBE"]} .gga gga_x_pbeint_polHint1_q ⟨11, gga_x_pbeint_polHint1_0_e.res, sgI true⟩ :=
  polHint_fadd true gga_x_pbeint_polHint1_0d gga_x_pbeint_polHint1_0n
theorem gga_x_pbeint_polHint1 : PolHint {params := ["alpha", "kappa", "muGE", "muPBE"]} .gga gga_x_pbeint.polBody ⟨43, gga_x_pbeint_polHint1_e.res, sgI true⟩ :=
  polHint_rw 1000 gga_x_pbeint_polHint1_q (hs := [⟨11, gga_x_pbeint_polHint1_0_e.res, sgI true⟩]) (fc gga_x_pbeint_polHint1_0 fn) (par := [418431133793, 461196259425, 1836402501, 470119629381]) (npar := []) (flds := []) (by simp [nameCode, nameCodeChars]) rfl rfl (by decide +kernel) (by decide +kernel)
theorem gga_x_pbeint_definedPol : DefinedPol {params := ["alpha", "kappa", "muGE", "muPBE"]} .gga gga_x_pbeint :=
  definedPolH_of _ gga_x_pbeint_neverRaises (hs := [⟨31, gga_x_pbeint_polHint0_e.res, sgI true⟩, ⟨43, gga_x_pbeint_polHint1_e.res, sgI true⟩]) (fc gga_x_pbeint_polHint0 (fc gga_x_pbeint_polHint1 fn)) (par := [418431133793, 461196259425, 1836402501, 470119629381]) (npar := []) (flds := []) (by simp [nameCode, nameCodeChars]) rfl rfl (by decide +kernel)

prog gga_x_pbeint_unpolHint0_e "res = params_a_muGE + (params_a_muPBE - params_a_muGE) * params_a_alpha * t23 * t27 * t32 * t36 / (0.1e1 + params_a_alpha * t23 * t27 * t39 / 0.24e2) / 0.24e2"
prog gga_x_pbeint_unpolHint0_q "t19 = r0 ** (0.1e1 / 0.3e1)
t23 = 6 ** (0.1e1 / 0.3e1)
t24 = math.pi ** 2
t25 = t24 ** (0.1e1 / 0.3e1)
t26 = t25 ** 2
t27 = 0.1e1 / t26
t30 = 2 ** (0.1e1 / 0.3e1)
t31 = t30 ** 2
t32 = s0 * t31
t33 = r0 ** 2
t34 = t19 ** 2
t36 = 0.1e1 / t34 / t33
t39 = t32 * t36
res = params_a_muGE + (params_a_muPBE - params_a_muGE) * (params_a_alpha * t23 * t27 * t39 / 0.24e2) / (0.1e1 + params_a_alpha * t23 * t27 * t39 / 0.24e2)"
prog gga_x_pbeint_unpolHint0_0d_e "res = 0.1e1 + params_a_alpha * t23 * t27 * t39 / 0.24e2"
prog gga_x_pbeint_unpolHint0_0d_q "t19 = r0 ** (0.1e1 / 0.3e1)
t23 = 6 ** (0.1e1 / 0.3e1)
t24 = math.pi ** 2
t25 = t24 ** (0.1e1 / 0.3e1)
t26 = t25 ** 2
t27 = 0.1e1 / t26
t30 = 2 ** (0.1e1 / 0.3e1)
t31 = t30 ** 2
t32 = s0 * t31
t33 = r0 ** 2
t34 = t19 ** 2
t36 = 0.1e1 / t34 / t33
t39 = t32 * t36
res = 0.1e1 + params_a_alpha * t23 * t27 * t39 / 0.24e2"
theorem gga_x_pbeint_unpolHint0_0d : UnpolHint {params := ["alpha", "kappa", "muGE", "muPBE"]} .gga gga_x_pbeint_unpolHint0_q ⟨13, gga_x_pbeint_unpolHint0_0d_e.res, pos⟩ :=
  unpolHint_rw 1000 gga_x_pbeint_unpolHint0_0d_q (hs := []) fn (par := [418431133793, 461196259425, 1836402501, 470119629381]) (npar := []) (flds := []) (by simp [nameCode, nameCodeChars]) rfl rfl (by decide +kernel) (by decide +kernel)
prog gga_x_pbeint_unpolHint0_0n_e "res = (params_a_muGE) * (0.1e1 + params_a_alpha * t23 * t27 * t39 / 0.24e2) + ((params_a_muPBE - params_a_muGE) * (params_a_alpha * t23 * t27 * t39 / 0.24e2))"
prog gga_x_pbeint_unpolHint0_0n_q "t19 = r0 ** (0.1e1 / 0.3e1)
t23 = 6 ** (0.1e1 / 0.3e1)
t24 = math.pi ** 2
t25 = t24 ** (0.1e1 / 0.3e1)
t26 = t25 ** 2
t27 = 0.1e1 / t26
t30 = 2 ** (0.1e1 / 0.3e1)
t31 = t30 ** 2
t32 = s0 * t31
t33 = r0 ** 2
t34 = t19 ** 2
t36 = 0.1e1 / t34 / t33
t39 = t32 * t36
res = params_a_muGE + params_a_muPBE * params_a_alpha * t23 * t27 * t39 / 0.24e2"
theorem gga_x_pbeint_unpolHint0_0n : UnpolHint {params := ["alpha", "kappa", "muGE", "muPBE"]} .gga gga_x_pbeint_unpolHint0_q ⟨13, gga_x_pbeint_unpolHint0_0n_e.res, sgI true⟩ :=
  unpolHint_rw 1000 gga_x_pbeint_unpolHint0_0n_q (hs := []) fn (par := [418431133793, 461196259425, 1836402501, 470119629381]) (npar := []) (flds := []) (by simp [nameCode, nameCodeChars]) rfl rfl (by decide +kernel) (by decide +kernel)
prog gga_x_pbeint_unpolHint0_0_e "res = (params_a_muGE) + ((params_a_muPBE - params_a_muGE) * (params_a_alpha * t23 * t27 * t39 / 0.24e2)) / (0.1e1 + params_a_alpha * t23 * t27 * t39 / 0.24e2)"
theorem gga_x_pbeint_unpolHint0_0 : UnpolHint {params := ["alpha", "kappa", "muGE", "muPBE"]} .gga gga_x_pbeint_unpolHint0_q ⟨13, gga_x_pbeint_unpolHint0_0_e.res, sgI true⟩ :=
  unpolHint_fadd true gga_x_pbeint_unpolHint0_0d gga_x_pbeint_unpolHint0_0n
theorem gga_x_pbeint_unpolHint0 : UnpolHint {params := ["alpha", "kappa", "muGE", "muPBE"]} .gga gga_x_pbeint.unpolBody ⟨23, gga_x_pbeint_unpolHint0_e.res, sgI true⟩ :=
  unpolHint_rw 1000 gga_x_pbeint_unpolHint0_q (hs := [⟨13, gga_x_pbeint_unpolHint0_0_e.res, sgI true⟩]) (fc gga_x_pbeint_unpolHint0_0 fn) (par := [418431133793, 461196259425, 1836402501, 470119629381]) (npar := []) (flds := []) (by simp [nameCode, nameCodeChars]) rfl rfl (by decide +kernel) (by decide +kernel)
theorem gga_x_pbeint_definedUnpol : DefinedUnpol {params := ["alpha", "kappa", "muGE", "muPBE"]} .gga gga_x_pbeint :=
  definedUnpolH_of _ gga_x_pbeint_neverRaises (hs := [⟨23, gga_x_pbeint_unpolHint0_e.res, sgI true⟩]) (fc gga_x_pbeint_unpolHint0 fn) (par := [418431133793, 461196259425, 1836402501, 470119629381]) (npar := []) (flds := []) (by simp [nameCode, nameCodeChars]) rfl rfl (by decide +kernel)

prog hyb_lda_xc_bn05_polHint0_e "res = 0.32e1 - 0.22500000000000000000e0 * t203 + t216 / 0.4e1"
prog hyb_lda_xc_bn05_polHint0_q "t1 = 3 ** (0.1e1 / 0.3e1)
t3 = (0.1e1 / math.pi) ** (0.1e1 / 0.3e1)
t4 = t1 * t3
t5 = 4 ** (0.1e1 / 0.3e1)
t6 = t5 ** 2
t11 = r0 + r1
t22 = t11 ** (0.1e1 / 0.3e1)
t28 = 0.1e1 / t22
t203 = t4 * t6 * t28
t100001 = 12.8 * (0.1e1 * 0.1e1) - 0.9e0 * (0.1e1 * t203) + 0.16e-1 * (t203 * t203)
res = t100001 / 0.4e1 + (0.1e1 / 0.16e2 - 0.4e-2) * (t203 * t203)"
prog hyb_lda_xc_bn05_polHint0_0_e "res = 12.8 * (0.1e1 * 0.1e1) - 0.9e0 * (0.1e1 * t203) + 0.16e-1 * (t203 * t203)"
theorem hyb_lda_xc_bn05_polHint0_0 : PolHint {flds := [.camOmega]} .lda hyb_lda_xc_bn05_polHint0_q ⟨9, hyb_lda_xc_bn05_polHint0_0_e.res, nn⟩ :=
  polHint_quad (by norm_num)
theorem hyb_lda_xc_bn05_polHint0 : PolHint {flds := [.camOmega]} .lda hyb_lda_xc_bn05.polBody ⟨82, hyb_lda_xc_bn05_polHint0_e.res, pos⟩ :=
  polHint_rw 1000 hyb_lda_xc_bn05_polHint0_q (hs := [⟨9, hyb_lda_xc_bn05_polHint0_0_e.res, nn⟩]) (fc hyb_lda_xc_bn05_polHint0_0 fn) (par := []) (npar := []) (flds := [2]) rfl rfl rfl (by decide +kernel) (by decide +kernel)
theorem hyb_lda_xc_bn05_definedPol : DefinedPol {flds := [.camOmega]} .lda hyb_lda_xc_bn05 :=
  definedPolH_of _ hyb_lda_xc_bn05_neverRaises (hs := [⟨82, hyb_lda_xc_bn05_polHint0_e.res, pos⟩]) (fc hyb_lda_xc_bn05_polHint0 fn) (par := []) (npar := []) (flds := [2]) rfl rfl rfl (by decide +kernel)

prog hyb_lda_xc_bn05_unpolHint0_e "res = 0.32e1 - 0.22500000000000000000e0 * t107 + t120 / 0.4e1"
prog hyb_lda_xc_bn05_unpolHint0_q "t1 = 3 ** (0.1e1 / 0.3e1)
t3 = (0.1e1 / math.pi) ** (0.1e1 / 0.3e1)
t4 = t1 * t3
t5 = 4 ** (0.1e1 / 0.3e1)
t6 = t5 ** 2
t15 = r0 ** (0.1e1 / 0.3e1)
t21 = 0.1e1 / t15
t107 = t4 * t6 * t21
t100001 = 12.8 * (0.1e1 * 0.1e1) - 0.9e0 * (0.1e1 * t107) + 0.16e-1 * (t107 * t107)
res = t100001 / 0.4e1 + (0.1e1 / 0.16e2 - 0.4e-2) * (t107 * t107)"
prog hyb_lda_xc_bn05_unpolHint0_0_e "res = 12.8 * (0.1e1 * 0.1e1) - 0.9e0 * (0.1e1 * t107) + 0.16e-1 * (t107 * t107)"
theorem hyb_lda_xc_bn05_unpolHint0_0 : UnpolHint {flds := [.camOmega]} .lda hyb_lda_xc_bn05_unpolHint0_q ⟨8, hyb_lda_xc_bn05_unpolHint0_0_e.res, nn⟩ :=
  unpolHint_quad (by norm_num)
theorem hyb_lda_xc_bn05_unpolHint0 : UnpolHint {flds := [.camOmega]} .lda hyb_lda_xc_bn05.unpolBody ⟨42, hyb_lda_xc_bn05_unpolHint0_e.res, pos⟩ :=
  unpolHint_rw 1000 hyb_lda_xc_bn05_unpolHint0_q (hs := [⟨8, hyb_lda_xc_bn05_unpolHint0_0_e.res, nn⟩]) (fc hyb_lda_xc_bn05_unpolHint0_0 fn) (par := []) (npar := []) (flds := [2]) rfl rfl rfl (by decide +kernel) (by decide +kernel)
theorem hyb_lda_xc_bn05_definedUnpol : DefinedUnpol {flds := [.camOmega]} .lda hyb_lda_xc_bn05 :=
  definedUnpolH_of _ hyb_lda_xc_bn05_neverRaises (hs := [⟨42, hyb_lda_xc_bn05_unpolHint0_e.res, pos⟩]) (fc hyb_lda_xc_bn05_unpolHint0 fn) (par := []) (npar := []) (flds := [2]) rfl rfl rfl (by decide +kernel)

prog lda_c_2d_amgb_unpolHint0_e "res = 0.10022e1 * t5 - 0.2069e-1 * t19 + 0.33997e0 * t9 + 0.1747e-1 * t15"
prog lda_c_2d_amgb_unpolHint0_q "t1 = math.sqrt(math.pi)
t2 = 0.1e1 / t1
t3 = math.sqrt(r0)
t5 = t2 / t3
t15 = 0.1e1 / t1 / math.pi / t3 / r0
t100001 = 1.0 * (0.1e1 * 0.1e1) - 0.2069e-1 * (0.1e1 * math.sqrt(t5)) + 0.1e0 * t5
res = 0.22e-2 * t5 + t5 * t100001 + (0.33997e0 - 0.1e0) * t5 * t5 + 0.1747e-1 * t15"
prog lda_c_2d_amgb_unpolHint0_0_e "res = 1.0 * (0.1e1 * 0.1e1) - 0.2069e-1 * (0.1e1 * math.sqrt(t5)) + 0.1e0 * t5"
theorem lda_c_2d_amgb_unpolHint0_0 : UnpolHint {} .lda lda_c_2d_amgb_unpolHint0_q ⟨5, lda_c_2d_amgb_unpolHint0_0_e.res, nn⟩ :=
  unpolHint_amgm (by norm_num)
theorem lda_c_2d_amgb_unpolHint0 : UnpolHint {} .lda lda_c_2d_amgb.unpolBody ⟨7, lda_c_2d_amgb_unpolHint0_e.res, pos⟩ :=
  unpolHint_rw 1000 lda_c_2d_amgb_unpolHint0_q (hs := [⟨5, lda_c_2d_amgb_unpolHint0_0_e.res, nn⟩]) (fc lda_c_2d_amgb_unpolHint0_0 fn) (par := []) (npar := []) (flds := []) rfl rfl rfl (by decide +kernel) (by decide +kernel)
theorem lda_c_2d_amgb_definedUnpol : DefinedUnpol {} .lda lda_c_2d_amgb :=
  definedUnpolH_of _ lda_c_2d_amgb_neverRaises (hs := [⟨7, lda_c_2d_amgb_unpolHint0_e.res, pos⟩]) (fc lda_c_2d_amgb_unpolHint0 fn) (par := []) (npar := []) (flds := []) rfl rfl rfl (by decide +kernel)

prog lda_c_ml1_polHint0_e "res = 0.1e1 - t28"
prog lda_c_ml1_polHint0_q "t1 = r0 + r1
t2 = r0 - r1
t4 = t2 / t1
t17 = p_a_zeta_threshold - 0.1e1
t21 = lax_cond(0.1e1 - t4 <= p_a_zeta_threshold, -t17, t4)
t22 = lax_cond(0.1e1 + t4 <= p_a_zeta_threshold, t17, t21)
t23 = 0.1e1 + t22
t25 = 0.1e1 - t22
res = t23 * t25"
theorem lda_c_ml1_polHint0 : PolHint {params := ["fc"]} .lda lda_c_ml1.polBody ⟨16, lda_c_ml1_polHint0_e.res, pos⟩ :=
  polHint_rw 1000 lda_c_ml1_polHint0_q (hs := []) fn (par := [26211]) (npar := []) (flds := []) (by simp [nameCode, nameCodeChars]) rfl rfl (by decide +kernel) (by decide +kernel)
theorem lda_c_ml1_definedPol : DefinedPol {params := ["fc"]} .lda lda_c_ml1 :=
  definedPolH_of _ lda_c_ml1_neverRaises (hs := [⟨16, lda_c_ml1_polHint0_e.res, pos⟩]) (fc lda_c_ml1_polHint0 fn) (par := [26211]) (npar := []) (flds := []) (by simp [nameCode, nameCodeChars]) rfl rfl (by decide +kernel)

prog mgga_c_ccalda_unpolHint0_e "res = tau0 / t3 / r0 - s0 / t3 / t7 / 0.8e1"
prog mgga_c_ccalda_unpolHint0_q "t2 = r0 ** (0.1e1 / 0.3e1)
t3 = t2 ** 2
t7 = r0 ** 2
t100001 = 0.8e1 * r0 * tau0 - s0
res = t100001 / 0.8e1 / t3 / t7"
theorem mgga_c_ccalda_unpolHint0_0 : UnpolHint {params := ["c"], vw := true} .mgga mgga_c_ccalda_unpolHint0_q ⟨3, vwE .r0 .s0 .tau0, nn⟩ :=
  unpolHint_vw rfl
theorem mgga_c_ccalda_unpolHint0 : UnpolHint {params := ["c"], vw := true} .mgga mgga_c_ccalda.unpolBody ⟨3, mgga_c_ccalda_unpolHint0_e.res, nn⟩ :=
  unpolHint_rw 1000 mgga_c_ccalda_unpolHint0_q (hs := [⟨3, vwE .r0 .s0 .tau0, nn⟩]) (fc mgga_c_ccalda_unpolHint0_0 fn) (par := [99]) (npar := []) (flds := []) (by simp [nameCode, nameCodeChars]) rfl rfl (by decide +kernel) (by decide +kernel)
theorem mgga_c_ccalda_definedUnpol : DefinedUnpol {params := ["c"], vw := true} .mgga mgga_c_ccalda :=
  definedUnpolH_of _ mgga_c_ccalda_neverRaises (hs := [⟨3, mgga_c_ccalda_unpolHint0_e.res, nn⟩]) (fc mgga_c_ccalda_unpolHint0 fn) (par := [99]) (npar := []) (flds := []) (by simp [nameCode, nameCodeChars]) rfl rfl (by decide +kernel)

prog mgga_c_m06l_polHint0_e "res = 0.1e1 + params_a_alpha_ss * (t107 + t393 - t400)"
prog mgga_c_m06l_polHint0_q "t102 = r0 ** 2
t103 = r0 ** (0.1e1 / 0.3e1)
t104 = t103 ** 2
t106 = 0.1e1 / t104 / t102
t107 = s0 * t106
t393 = 0.2e1 * tau0 / t104 / r0
t394 = 6 ** (0.1e1 / 0.3e1)
t395 = t394 ** 2
t396 = math.pi ** 2
t397 = t396 ** (0.1e1 / 0.3e1)
t398 = t397 ** 2
t399 = t395 * t398
t400 = 0.3e1 / 0.5e1 * t399
res = 0.1e1 - params_a_alpha_ss * t400 + params_a_alpha_ss * (t107 + t393)"
theorem mgga_c_m06l_polHint0_0 : PolHint {tPos := true, params := ["Fermi_D_cnst", "alpha_ab", "alpha_ss", "gamma_ab", "gamma_ss"], le := [("alpha_ss", 1/20), ("alpha_ab", 1/20)]} .mgga mgga_c_m06l_polHint0_q ⟨13, .param 7020109512776315763, ⟨.inf, .fin (Int.negOfNat 922337203685477581) false⟩⟩ :=
  polHint_par (s := "alpha_ss") (q := 1/20) (by simp) (by simp [nameCode, nameCodeChars]) (by norm_num [sc])
theorem mgga_c_m06l_polHint0 : PolHint {tPos := true, params := ["Fermi_D_cnst", "alpha_ab", "alpha_ss", "gamma_ab", "gamma_ss"], le := [("alpha_ss", 1/20), ("alpha_ab", 1/20)]} .mgga mgga_c_m06l.polBody ⟨137, mgga_c_m06l_polHint0_e.res, pos⟩ :=
  polHint_rw 1000 mgga_c_m06l_polHint0_q (hs := [⟨13, .param 7020109512776315763, ⟨.inf, .fin (Int.negOfNat 922337203685477581) false⟩⟩]) (fc mgga_c_m06l_polHint0_0 fn) (par := [21786592563342246204526195572, 7020109512776311138, 7020109512776315763, 7449355575200014690, 7449355575200019315]) (npar := []) (flds := []) (by simp [nameCode, nameCodeChars]) rfl rfl (by decide +kernel) (by decide +kernel)
prog mgga_c_m06l_polHint1_e "res = 0.1e1 + params_a_alpha_ss * (t238 + t436 - t400)"
prog mgga_c_m06l_polHint1_q "t233 = r1 ** 2
t234 = r1 ** (0.1e1 / 0.3e1)
t235 = t234 ** 2
t237 = 0.1e1 / t235 / t233
t238 = s2 * t237
t394 = 6 ** (0.1e1 / 0.3e1)
t395 = t394 ** 2
t396 = math.pi ** 2
t397 = t396 ** (0.1e1 / 0.3e1)
t398 = t397 ** 2
t399 = t395 * t398
t400 = 0.3e1 / 0.5e1 * t399
t436 = 0.2e1 * tau1 / t235 / r1
res = 0.1e1 - params_a_alpha_ss * t400 + params_a_alpha_ss * (t238 + t436)"
theorem mgga_c_m06l_polHint1_0 : PolHint {tPos := true, params := ["Fermi_D_cnst", "alpha_ab", "alpha_ss", "gamma_ab", "gamma_ss"], le := [("alpha_ss", 1/20), ("alpha_ab", 1/20)]} .mgga mgga_c_m06l_polHint1_q ⟨13, .param 7020109512776315763, ⟨.inf, .fin (Int.negOfNat 922337203685477581) false⟩⟩ :=
  polHint_par (s := "alpha_ss") (q := 1/20) (by simp) (by simp [nameCode, nameCodeChars]) (by norm_num [sc])
theorem mgga_c_m06l_polHint1 : PolHint {tPos := true, params := ["Fermi_D_cnst", "alpha_ab", "alpha_ss", "gamma_ab", "gamma_ss"], le := [("alpha_ss", 1/20), ("alpha_ab", 1/20)]} .mgga mgga_c_m06l.polBody ⟨147, mgga_c_m06l_polHint1_e.res, pos⟩ :=
  polHint_rw 1000 mgga_c_m06l_polHint1_q (hs := [⟨13, .param 7020109512776315763, ⟨.inf, .fin (Int.negOfNat 922337203685477581) false⟩⟩]) (fc mgga_c_m06l_polHint1_0 fn) (par := [21786592563342246204526195572, 7020109512776311138, 7020109512776315763, 7449355575200014690, 7449355575200019315]) (npar := []) (flds := []) (by simp [nameCode, nameCodeChars]) rfl rfl (by decide +kernel) (by decide +kernel)
prog mgga_c_m06l_polHint2_e "res = 0.1e1 + params_a_alpha_ab * (t107 + t238 + t393 + t436 - t465)"
prog mgga_c_m06l_polHint2_q "t102 = r0 ** 2
t103 = r0 ** (0.1e1 / 0.3e1)
t104 = t103 ** 2
t106 = 0.1e1 / t104 / t102
t107 = s0 * t106
t233 = r1 ** 2
t234 = r1 ** (0.1e1 / 0.3e1)
t235 = t234 ** 2
t237 = 0.1e1 / t235 / t233
t238 = s2 * t237
t393 = 0.2e1 * tau0 / t104 / r0
t394 = 6 ** (0.1e1 / 0.3e1)
t395 = t394 ** 2
t396 = math.pi ** 2
t397 = t396 ** (0.1e1 / 0.3e1)
t398 = t397 ** 2
t399 = t395 * t398
t436 = 0.2e1 * tau1 / t235 / r1
t465 = 0.6e1 / 0.5e1 * t399
res = 0.1e1 - params_a_alpha_ab * t465 + params_a_alpha_ab * (t107 + t238 + t393 + t436)"
theorem mgga_c_m06l_polHint2_0 : PolHint {tPos := true, params := ["Fermi_D_cnst", "alpha_ab", "alpha_ss", "gamma_ab", "gamma_ss"], le := [("alpha_ss", 1/20), ("alpha_ab", 1/20)]} .mgga mgga_c_m06l_polHint2_q ⟨19, .param 7020109512776311138, ⟨.inf, .fin (Int.negOfNat 922337203685477581) false⟩⟩ :=
  polHint_par (s := "alpha_ab") (q := 1/20) (by simp) (by simp [nameCode, nameCodeChars]) (by norm_num [sc])
theorem mgga_c_m06l_polHint2 : PolHint {tPos := true, params := ["Fermi_D_cnst", "alpha_ab", "alpha_ss", "gamma_ab", "gamma_ss"], le := [("alpha_ss", 1/20), ("alpha_ab", 1/20)]} .mgga mgga_c_m06l.polBody ⟨152, mgga_c_m06l_polHint2_e.res, pos⟩ :=
  polHint_rw 1000 mgga_c_m06l_polHint2_q (hs := [⟨19, .param 7020109512776311138, ⟨.inf, .fin (Int.negOfNat 922337203685477581) false⟩⟩]) (fc mgga_c_m06l_polHint2_0 fn) (par := [21786592563342246204526195572, 7020109512776311138, 7020109512776315763, 7449355575200014690, 7449355575200019315]) (npar := []) (flds := []) (by simp [nameCode, nameCodeChars]) rfl rfl (by decide +kernel) (by decide +kernel)
theorem mgga_c_m06l_definedPol : DefinedPol {tPos := true, params := ["Fermi_D_cnst", "alpha_ab", "alpha_ss", "gamma_ab", "gamma_ss"], le := [("alpha_ss", 1/20), ("alpha_ab", 1/20)]} .mgga mgga_c_m06l :=
  definedPolH_of _ mgga_c_m06l_neverRaises (hs := [⟨137, mgga_c_m06l_polHint0_e.res, pos⟩, ⟨147, mgga_c_m06l_polHint1_e.res, pos⟩, ⟨152, mgga_c_m06l_polHint2_e.res, pos⟩]) (fc mgga_c_m06l_polHint0 (fc mgga_c_m06l_polHint1 (fc mgga_c_m06l_polHint2 fn))) (par := [21786592563342246204526195572, 7020109512776311138, 7020109512776315763, 7449355575200014690, 7449355575200019315]) (npar := []) (flds := []) (by simp [nameCode, nameCodeChars]) rfl rfl (by decide +kernel)

prog mgga_c_m06l_unpolHint0_e "res = 0.1e1 + params_a_alpha_ss * (t252 + t257 - t264)"
prog mgga_c_m06l_unpolHint0_q "t13 = r0 ** (0.1e1 / 0.3e1)
t15 = 2 ** (0.1e1 / 0.3e1)
t33 = t13 ** 2
t35 = t15 ** 2
t97 = r0 ** 2
t99 = 0.1e1 / t33 / t97
t252 = s0 * t35 * t99
t256 = tau0 * t35 / t33 / r0
t257 = 0.2e1 * t256
t258 = 6 ** (0.1e1 / 0.3e1)
t259 = t258 ** 2
t260 = math.pi ** 2
t261 = t260 ** (0.1e1 / 0.3e1)
t262 = t261 ** 2
t263 = t259 * t262
t264 = 0.3e1 / 0.5e1 * t263
res = 0.1e1 - params_a_alpha_ss * t264 + params_a_alpha_ss * (t252 + t257)"
theorem mgga_c_m06l_unpolHint0_0 : UnpolHint {tPos := true, params := ["Fermi_D_cnst", "alpha_ab", "alpha_ss", "gamma_ab", "gamma_ss"], le := [("alpha_ss", 1/20), ("alpha_ab", 1/20)]} .mgga mgga_c_m06l_unpolHint0_q ⟨16, .param 7020109512776315763, ⟨.inf, .fin (Int.negOfNat 922337203685477581) false⟩⟩ :=
  unpolHint_par (s := "alpha_ss") (q := 1/20) (by simp) (by simp [nameCode, nameCodeChars]) (by norm_num [sc])
theorem mgga_c_m06l_unpolHint0 : UnpolHint {tPos := true, params := ["Fermi_D_cnst", "alpha_ab", "alpha_ss", "gamma_ab", "gamma_ss"], le := [("alpha_ss", 1/20), ("alpha_ab", 1/20)]} .mgga mgga_c_m06l.unpolBody ⟨77, mgga_c_m06l_unpolHint0_e.res, pos⟩ :=
  unpolHint_rw 1000 mgga_c_m06l_unpolHint0_q (hs := [⟨16, .param 7020109512776315763, ⟨.inf, .fin (Int.negOfNat 922337203685477581) false⟩⟩]) (fc mgga_c_m06l_unpolHint0_0 fn) (par := [21786592563342246204526195572, 7020109512776311138, 7020109512776315763, 7449355575200014690, 7449355575200019315]) (npar := []) (flds := []) (by simp [nameCode, nameCodeChars]) rfl rfl (by decide +kernel) (by decide +kernel)
prog mgga_c_m06l_unpolHint1_e "res = 0.1e1 + params_a_alpha_ab * (0.2e1 * t252 + t301 - t302)"
prog mgga_c_m06l_unpolHint1_q "t13 = r0 ** (0.1e1 / 0.3e1)
t15 = 2 ** (0.1e1 / 0.3e1)
t33 = t13 ** 2
t35 = t15 ** 2
t97 = r0 ** 2
t99 = 0.1e1 / t33 / t97
t252 = s0 * t35 * t99
t256 = tau0 * t35 / t33 / r0
t258 = 6 ** (0.1e1 / 0.3e1)
t259 = t258 ** 2
t260 = math.pi ** 2
t261 = t260 ** (0.1e1 / 0.3e1)
t262 = t261 ** 2
t263 = t259 * t262
t301 = 0.4e1 * t256
t302 = 0.6e1 / 0.5e1 * t263
res = 0.1e1 - params_a_alpha_ab * t302 + params_a_alpha_ab * (0.2e1 * t252 + t301)"
theorem mgga_c_m06l_unpolHint1_0 : UnpolHint {tPos := true, params := ["Fermi_D_cnst", "alpha_ab", "alpha_ss", "gamma_ab", "gamma_ss"], le := [("alpha_ss", 1/20), ("alpha_ab", 1/20)]} .mgga mgga_c_m06l_unpolHint1_q ⟨16, .param 7020109512776311138, ⟨.inf, .fin (Int.negOfNat 922337203685477581) false⟩⟩ :=
  unpolHint_par (s := "alpha_ab") (q := 1/20) (by simp) (by simp [nameCode, nameCodeChars]) (by norm_num [sc])
theorem mgga_c_m06l_unpolHint1 : UnpolHint {tPos := true, params := ["Fermi_D_cnst", "alpha_ab", "alpha_ss", "gamma_ab", "gamma_ss"], le := [("alpha_ss", 1/20), ("alpha_ab", 1/20)]} .mgga mgga_c_m06l.unpolBody ⟨83, mgga_c_m06l_unpolHint1_e.res, pos⟩ :=
  unpolHint_rw 1000 mgga_c_m06l_unpolHint1_q (hs := [⟨16, .param 7020109512776311138, ⟨.inf, .fin (Int.negOfNat 922337203685477581) false⟩⟩]) (fc mgga_c_m06l_unpolHint1_0 fn) (par := [21786592563342246204526195572, 7020109512776311138, 7020109512776315763, 7449355575200014690, 7449355575200019315]) (npar := []) (flds := []) (by simp [nameCode, nameCodeChars]) rfl rfl (by decide +kernel) (by decide +kernel)
theorem mgga_c_m06l_definedUnpol : DefinedUnpol {tPos := true, params := ["Fermi_D_cnst", "alpha_ab", "alpha_ss", "gamma_ab", "gamma_ss"], le := [("alpha_ss", 1/20), ("alpha_ab", 1/20)]} .mgga mgga_c_m06l :=
  definedUnpolH_of _ mgga_c_m06l_neverRaises (hs := [⟨77, mgga_c_m06l_unpolHint0_e.res, pos⟩, ⟨83, mgga_c_m06l_unpolHint1_e.res, pos⟩]) (fc mgga_c_m06l_unpolHint0 (fc mgga_c_m06l_unpolHint1 fn)) (par := [21786592563342246204526195572, 7020109512776311138, 7020109512776315763, 7449355575200014690, 7449355575200019315]) (npar := []) (flds := []) (by simp [nameCode, nameCodeChars]) rfl rfl (by decide +kernel)

prog mgga_c_rmggac_unpolHint0_e "res = 0.2e1 * tau0 / t30 / r0 - s0 * t32 / 0.4e1"
prog mgga_c_rmggac_unpolHint0_q "t7 = r0 ** (0.1e1 / 0.3e1)
t29 = r0 ** 2
t30 = t7 ** 2
t32 = 0.1e1 / t30 / t29
t100001 = 0.8e1 * r0 * tau0 - s0
res = t100001 * t32 / 0.4e1"
theorem mgga_c_rmggac_unpolHint0_0 : UnpolHint {vw := true} .mgga mgga_c_rmggac_unpolHint0_q ⟨4, vwE .r0 .s0 .tau0, nn⟩ :=
  unpolHint_vw rfl
theorem mgga_c_rmggac_unpolHint0 : UnpolHint {vw := true} .mgga mgga_c_rmggac.unpolBody ⟨28, mgga_c_rmggac_unpolHint0_e.res, nn⟩ :=
  unpolHint_rw 1000 mgga_c_rmggac_unpolHint0_q (hs := [⟨4, vwE .r0 .s0 .tau0, nn⟩]) (fc mgga_c_rmggac_unpolHint0_0 fn) (par := []) (npar := []) (flds := []) rfl rfl rfl (by decide +kernel) (by decide +kernel)
theorem mgga_c_rmggac_definedUnpol : DefinedUnpol {vw := true} .mgga mgga_c_rmggac :=
  definedUnpolH_of _ mgga_c_rmggac_neverRaises (hs := [⟨28, mgga_c_rmggac_unpolHint0_e.res, nn⟩]) (fc mgga_c_rmggac_unpolHint0 fn) (par := []) (npar := []) (flds := []) rfl rfl rfl (by decide +kernel)

prog mgga_c_rregtm_unpolHint0_e "res = -t129"
prog mgga_c_rregtm_unpolHint0_q "t126 = math.log(DBL_EPSILON)
t100001 = 0.1e1 + t126 / (-t126 + 0.64e0)
res = 0.1e1 - t100001"
prog mgga_c_rregtm_unpolHint0_0d_e "res = -t126 + 0.64e0"
prog mgga_c_rregtm_unpolHint0_0d_q "t126 = math.log(DBL_EPSILON)
res = -t126 + 0.64e0"
theorem mgga_c_rregtm_unpolHint0_0d : UnpolHint {} .mgga mgga_c_rregtm_unpolHint0_q ⟨1, mgga_c_rregtm_unpolHint0_0d_e.res, pos⟩ :=
  unpolHint_rw 1000 mgga_c_rregtm_unpolHint0_0d_q (hs := []) fn (par := []) (npar := []) (flds := []) rfl rfl rfl (by decide +kernel) (by decide +kernel)
prog mgga_c_rregtm_unpolHint0_0n_e "res = (0.1e1) * (-t126 + 0.64e0) + (t126)"
prog mgga_c_rregtm_unpolHint0_0n_q "res = 0.64e0"
theorem mgga_c_rregtm_unpolHint0_0n : UnpolHint {} .mgga mgga_c_rregtm_unpolHint0_q ⟨1, mgga_c_rregtm_unpolHint0_0n_e.res, sgI true⟩ :=
  unpolHint_rw 1000 mgga_c_rregtm_unpolHint0_0n_q (hs := []) fn (par := []) (npar := []) (flds := []) rfl rfl rfl (by decide +kernel) (by decide +kernel)
prog mgga_c_rregtm_unpolHint0_0_e "res = (0.1e1) + (t126) / (-t126 + 0.64e0)"
theorem mgga_c_rregtm_unpolHint0_0 : UnpolHint {} .mgga mgga_c_rregtm_unpolHint0_q ⟨1, mgga_c_rregtm_unpolHint0_0_e.res, sgI true⟩ :=
  unpolHint_fadd true mgga_c_rregtm_unpolHint0_0d mgga_c_rregtm_unpolHint0_0n
theorem mgga_c_rregtm_unpolHint0 : UnpolHint {} .mgga mgga_c_rregtm.unpolBody ⟨46, mgga_c_rregtm_unpolHint0_e.res, ⟨.inf, .fin (Int.negOfNat 18446744073709551616) true⟩⟩ :=
  unpolHint_rw 1000 mgga_c_rregtm_unpolHint0_q (hs := [⟨1, mgga_c_rregtm_unpolHint0_0_e.res, sgI true⟩]) (fc mgga_c_rregtm_unpolHint0_0 fn) (par := []) (npar := []) (flds := []) rfl rfl rfl (by decide +kernel) (by decide +kernel)
prog mgga_c_rregtm_unpolHint1_e "res = lax_cond(t144, -t143, t124)"
prog mgga_c_rregtm_unpolHint1_q "t7 = r0 ** (0.1e1 / 0.3e1)
t21 = t7 ** 2
t39 = 2 ** (0.1e1 / 0.3e1)
t60 = math.pi ** 2
t86 = r0 ** 2
t112 = 0.1e1 / t21 / t86
t116 = 6 ** (0.1e1 / 0.3e1)
t118 = t60 ** (0.1e1 / 0.3e1)
t119 = t118 ** 2
t120 = 0.1e1 / t119
t121 = t39 ** 2
t124 = 0.5e1 / 0.9e1 * (tau0 / t21 / r0 - s0 * t112 / 0.8e1) * t116 * t120 * t121
t140 = math.log(0.14285714285714285714e1 * DBL_EPSILON)
t143 = (-t140 + 0.15e1) / t140
res = lax_cond(t124 < -t143, -t143, t124)"
prog mgga_c_rregtm_unpolHint1_0_e "res = -t143"
prog mgga_c_rregtm_unpolHint1_0_q "t140 = math.log(0.14285714285714285714e1 * DBL_EPSILON)
t100001 = -0.1e1 + (-t140 + 0.15e1) / (-t140)
res = 0.1e1 + t100001"
prog mgga_c_rregtm_unpolHint1_0_0d_e "res = -t140"
prog mgga_c_rregtm_unpolHint1_0_0d_q "t140 = math.log(0.14285714285714285714e1 * DBL_EPSILON)
res = -t140"
theorem mgga_c_rregtm_unpolHint1_0_0d : UnpolHint {} .mgga mgga_c_rregtm_unpolHint1_0_q ⟨1, mgga_c_rregtm_unpolHint1_0_0d_e.res, pos⟩ :=
  unpolHint_rw 1000 mgga_c_rregtm_unpolHint1_0_0d_q (hs := []) fn (par := []) (npar := []) (flds := []) rfl rfl rfl (by decide +kernel) (by decide +kernel)
prog mgga_c_rregtm_unpolHint1_0_0n_e "res = (-0.1e1) * (-t140) + (-t140 + 0.15e1)"
prog mgga_c_rregtm_unpolHint1_0_0n_q "res = 0.15e1"
theorem mgga_c_rregtm_unpolHint1_0_0n : UnpolHint {} .mgga mgga_c_rregtm_unpolHint1_0_q ⟨1, mgga_c_rregtm_unpolHint1_0_0n_e.res, sgI true⟩ :=
  unpolHint_rw 1000 mgga_c_rregtm_unpolHint1_0_0n_q (hs := []) fn (par := []) (npar := []) (flds := []) rfl rfl rfl (by decide +kernel) (by decide +kernel)
prog mgga_c_rregtm_unpolHint1_0_0_e "res = (-0.1e1) + (-t140 + 0.15e1) / (-t140)"
theorem mgga_c_rregtm_unpolHint1_0_0 : UnpolHint {} .mgga mgga_c_rregtm_unpolHint1_0_q ⟨1, mgga_c_rregtm_unpolHint1_0_0_e.res, sgI true⟩ :=
  unpolHint_fadd true mgga_c_rregtm_unpolHint1_0_0d mgga_c_rregtm_unpolHint1_0_0n
theorem mgga_c_rregtm_unpolHint1_0 : UnpolHint {} .mgga mgga_c_rregtm_unpolHint1_q ⟨14, mgga_c_rregtm_unpolHint1_0_e.res, ⟨.fin (Int.ofNat 18446744073709551616) true, .inf⟩⟩ :=
  unpolHint_rw 1000 mgga_c_rregtm_unpolHint1_0_q (hs := [⟨1, mgga_c_rregtm_unpolHint1_0_0_e.res, sgI true⟩]) (fc mgga_c_rregtm_unpolHint1_0_0 fn) (par := []) (npar := []) (flds := []) rfl rfl rfl (by decide +kernel) (by decide +kernel)
theorem mgga_c_rregtm_unpolHint1 : UnpolHint {} .mgga mgga_c_rregtm.unpolBody ⟨52, mgga_c_rregtm_unpolHint1_e.res, ⟨.fin (Int.ofNat 18446744073709551616) true, .inf⟩⟩ :=
  unpolHint_rw 1000 mgga_c_rregtm_unpolHint1_q (hs := [⟨14, mgga_c_rregtm_unpolHint1_0_e.res, ⟨.fin (Int.ofNat 18446744073709551616) true, .inf⟩⟩]) (fc mgga_c_rregtm_unpolHint1_0 fn) (par := []) (npar := []) (flds := []) rfl rfl rfl (by decide +kernel) (by decide +kernel)
theorem mgga_c_rregtm_definedUnpol : DefinedUnpol {} .mgga mgga_c_rregtm :=
  definedUnpolH_of _ mgga_c_rregtm_neverRaises (hs := [⟨46, mgga_c_rregtm_unpolHint0_e.res, ⟨.inf, .fin (Int.negOfNat 18446744073709551616) true⟩⟩, ⟨52, mgga_c_rregtm_unpolHint1_e.res, ⟨.fin (Int.ofNat 18446744073709551616) true, .inf⟩⟩]) (fc mgga_c_rregtm_unpolHint0 (fc mgga_c_rregtm_unpolHint1 fn)) (par := []) (npar := []) (flds := []) rfl rfl rfl (by decide +kernel)

prog mgga_c_vsxc_polHint0_e "res = 0.1e1 + params_a_alpha_ss * (t105 + t109 - t116)"
prog mgga_c_vsxc_polHint0_q "t100 = r0 ** 2
t101 = r0 ** (0.1e1 / 0.3e1)
t102 = t101 ** 2
t104 = 0.1e1 / t102 / t100
t105 = s0 * t104
t109 = 0.2e1 * tau0 / t102 / r0
t110 = 6 ** (0.1e1 / 0.3e1)
t111 = t110 ** 2
t112 = math.pi ** 2
t113 = t112 ** (0.1e1 / 0.3e1)
t114 = t113 ** 2
t115 = t111 * t114
t116 = 0.3e1 / 0.5e1 * t115
res = 0.1e1 - params_a_alpha_ss * t116 + params_a_alpha_ss * (t105 + t109)"
theorem mgga_c_vsxc_polHint0_0 : PolHint {tPos := true, params := ["alpha_ab", "alpha_ss"], le := [("alpha_ss", 1/20), ("alpha_ab", 1/20)]} .mgga mgga_c_vsxc_polHint0_q ⟨13, .param 7020109512776315763, ⟨.inf, .fin (Int.negOfNat 922337203685477581) false⟩⟩ :=
  polHint_par (s := "alpha_ss") (q := 1/20) (by simp) (by simp [nameCode, nameCodeChars]) (by norm_num [sc])
theorem mgga_c_vsxc_polHint0 : PolHint {tPos := true, params := ["alpha_ab", "alpha_ss"], le := [("alpha_ss", 1/20), ("alpha_ab", 1/20)]} .mgga mgga_c_vsxc.polBody ⟨59, mgga_c_vsxc_polHint0_e.res, pos⟩ :=
  polHint_rw 1000 mgga_c_vsxc_polHint0_q (hs := [⟨13, .param 7020109512776315763, ⟨.inf, .fin (Int.negOfNat 922337203685477581) false⟩⟩]) (fc mgga_c_vsxc_polHint0_0 fn) (par := [7020109512776311138, 7020109512776315763]) (npar := []) (flds := []) (by simp [nameCode, nameCodeChars]) rfl rfl (by decide +kernel) (by decide +kernel)
prog mgga_c_vsxc_polHint1_e "res = 0.1e1 + params_a_alpha_ss * (t227 + t231 - t116)"
prog mgga_c_vsxc_polHint1_q "t110 = 6 ** (0.1e1 / 0.3e1)
t111 = t110 ** 2
t112 = math.pi ** 2
t113 = t112 ** (0.1e1 / 0.3e1)
t114 = t113 ** 2
t115 = t111 * t114
t116 = 0.3e1 / 0.5e1 * t115
t222 = r1 ** 2
t223 = r1 ** (0.1e1 / 0.3e1)
t224 = t223 ** 2
t226 = 0.1e1 / t224 / t222
t227 = s2 * t226
t231 = 0.2e1 * tau1 / t224 / r1
res = 0.1e1 - params_a_alpha_ss * t116 + params_a_alpha_ss * (t227 + t231)"
theorem mgga_c_vsxc_polHint1_0 : PolHint {tPos := true, params := ["alpha_ab", "alpha_ss"], le := [("alpha_ss", 1/20), ("alpha_ab", 1/20)]} .mgga mgga_c_vsxc_polHint1_q ⟨13, .param 7020109512776315763, ⟨.inf, .fin (Int.negOfNat 922337203685477581) false⟩⟩ :=
  polHint_par (s := "alpha_ss") (q := 1/20) (by simp) (by simp [nameCode, nameCodeChars]) (by norm_num [sc])
theorem mgga_c_vsxc_polHint1 : PolHint {tPos := true, params := ["alpha_ab", "alpha_ss"], le := [("alpha_ss", 1/20), ("alpha_ab", 1/20)]} .mgga mgga_c_vsxc.polBody ⟨93, mgga_c_vsxc_polHint1_e.res, pos⟩ :=
  polHint_rw 1000 mgga_c_vsxc_polHint1_q (hs := [⟨13, .param 7020109512776315763, ⟨.inf, .fin (Int.negOfNat 922337203685477581) false⟩⟩]) (fc mgga_c_vsxc_polHint1_0 fn) (par := [7020109512776311138, 7020109512776315763]) (npar := []) (flds := []) (by simp [nameCode, nameCodeChars]) rfl rfl (by decide +kernel) (by decide +kernel)
prog mgga_c_vsxc_polHint2_e "res = 0.1e1 + params_a_alpha_ab * (t105 + t227 + t109 + t231 - t334)"
prog mgga_c_vsxc_polHint2_q "t100 = r0 ** 2
t101 = r0 ** (0.1e1 / 0.3e1)
t102 = t101 ** 2
t104 = 0.1e1 / t102 / t100
t105 = s0 * t104
t109 = 0.2e1 * tau0 / t102 / r0
t110 = 6 ** (0.1e1 / 0.3e1)
t111 = t110 ** 2
t112 = math.pi ** 2
t113 = t112 ** (0.1e1 / 0.3e1)
t114 = t113 ** 2
t115 = t111 * t114
t222 = r1 ** 2
t223 = r1 ** (0.1e1 / 0.3e1)
t224 = t223 ** 2
t226 = 0.1e1 / t224 / t222
t227 = s2 * t226
t231 = 0.2e1 * tau1 / t224 / r1
t334 = 0.6e1 / 0.5e1 * t115
res = 0.1e1 - params_a_alpha_ab * t334 + params_a_alpha_ab * (t105 + t227 + t109 + t231)"
theorem mgga_c_vsxc_polHint2_0 : PolHint {tPos := true, params := ["alpha_ab", "alpha_ss"], le := [("alpha_ss", 1/20), ("alpha_ab", 1/20)]} .mgga mgga_c_vsxc_polHint2_q ⟨19, .param 7020109512776311138, ⟨.inf, .fin (Int.negOfNat 922337203685477581) false⟩⟩ :=
  polHint_par (s := "alpha_ab") (q := 1/20) (by simp) (by simp [nameCode, nameCodeChars]) (by norm_num [sc])
theorem mgga_c_vsxc_polHint2 : PolHint {tPos := true, params := ["alpha_ab", "alpha_ss"], le := [("alpha_ss", 1/20), ("alpha_ab", 1/20)]} .mgga mgga_c_vsxc.polBody ⟨116, mgga_c_vsxc_polHint2_e.res, pos⟩ :=
  polHint_rw 1000 mgga_c_vsxc_polHint2_q (hs := [⟨19, .param 7020109512776311138, ⟨.inf, .fin (Int.negOfNat 922337203685477581) false⟩⟩]) (fc mgga_c_vsxc_polHint2_0 fn) (par := [7020109512776311138, 7020109512776315763]) (npar := []) (flds := []) (by simp [nameCode, nameCodeChars]) rfl rfl (by decide +kernel) (by decide +kernel)
theorem mgga_c_vsxc_definedPol : DefinedPol {tPos := true, params := ["alpha_ab", "alpha_ss"], le := [("alpha_ss", 1/20), ("alpha_ab", 1/20)]} .mgga mgga_c_vsxc :=
  definedPolH_of _ mgga_c_vsxc_neverRaises (hs := [⟨59, mgga_c_vsxc_polHint0_e.res, pos⟩, ⟨93, mgga_c_vsxc_polHint1_e.res, pos⟩, ⟨116, mgga_c_vsxc_polHint2_e.res, pos⟩]) (fc mgga_c_vsxc_polHint0 (fc mgga_c_vsxc_polHint1 (fc mgga_c_vsxc_polHint2 fn))) (par := [7020109512776311138, 7020109512776315763]) (npar := []) (flds := []) (by simp [nameCode, nameCodeChars]) rfl rfl (by decide +kernel)

prog mgga_c_vsxc_unpolHint0_e "res = 0.1e1 + params_a_alpha_ss * (t98 + t103 - t110)"
prog mgga_c_vsxc_unpolHint0_q "t13 = r0 ** (0.1e1 / 0.3e1)
t15 = 2 ** (0.1e1 / 0.3e1)
t33 = t13 ** 2
t35 = t15 ** 2
t95 = r0 ** 2
t97 = 0.1e1 / t33 / t95
t98 = s0 * t35 * t97
t102 = tau0 * t35 / t33 / r0
t103 = 0.2e1 * t102
t104 = 6 ** (0.1e1 / 0.3e1)
t105 = t104 ** 2
t106 = math.pi ** 2
t107 = t106 ** (0.1e1 / 0.3e1)
t108 = t107 ** 2
t109 = t105 * t108
t110 = 0.3e1 / 0.5e1 * t109
res = 0.1e1 - params_a_alpha_ss * t110 + params_a_alpha_ss * (t98 + t103)"
theorem mgga_c_vsxc_unpolHint0_0 : UnpolHint {tPos := true, params := ["alpha_ab", "alpha_ss"], le := [("alpha_ss", 1/20), ("alpha_ab", 1/20)]} .mgga mgga_c_vsxc_unpolHint0_q ⟨16, .param 7020109512776315763, ⟨.inf, .fin (Int.negOfNat 922337203685477581) false⟩⟩ :=
  unpolHint_par (s := "alpha_ss") (q := 1/20) (by simp) (by simp [nameCode, nameCodeChars]) (by norm_num [sc])
theorem mgga_c_vsxc_unpolHint0 : UnpolHint {tPos := true, params := ["alpha_ab", "alpha_ss"], le := [("alpha_ss", 1/20), ("alpha_ab", 1/20)]} .mgga mgga_c_vsxc.unpolBody ⟨47, mgga_c_vsxc_unpolHint0_e.res, pos⟩ :=
  unpolHint_rw 1000 mgga_c_vsxc_unpolHint0_q (hs := [⟨16, .param 7020109512776315763, ⟨.inf, .fin (Int.negOfNat 922337203685477581) false⟩⟩]) (fc mgga_c_vsxc_unpolHint0_0 fn) (par := [7020109512776311138, 7020109512776315763]) (npar := []) (flds := []) (by simp [nameCode, nameCodeChars]) rfl rfl (by decide +kernel) (by decide +kernel)
prog mgga_c_vsxc_unpolHint1_e "res = 0.1e1 + params_a_alpha_ab * (0.2e1 * t98 + t199 - t200)"
prog mgga_c_vsxc_unpolHint1_q "t13 = r0 ** (0.1e1 / 0.3e1)
t15 = 2 ** (0.1e1 / 0.3e1)
t33 = t13 ** 2
t35 = t15 ** 2
t95 = r0 ** 2
t97 = 0.1e1 / t33 / t95
t98 = s0 * t35 * t97
t102 = tau0 * t35 / t33 / r0
t104 = 6 ** (0.1e1 / 0.3e1)
t105 = t104 ** 2
t106 = math.pi ** 2
t107 = t106 ** (0.1e1 / 0.3e1)
t108 = t107 ** 2
t109 = t105 * t108
t199 = 0.4e1 * t102
t200 = 0.6e1 / 0.5e1 * t109
res = 0.1e1 - params_a_alpha_ab * t200 + params_a_alpha_ab * (0.2e1 * t98 + t199)"
theorem mgga_c_vsxc_unpolHint1_0 : UnpolHint {tPos := true, params := ["alpha_ab", "alpha_ss"], le := [("alpha_ss", 1/20), ("alpha_ab", 1/20)]} .mgga mgga_c_vsxc_unpolHint1_q ⟨16, .param 7020109512776311138, ⟨.inf, .fin (Int.negOfNat 922337203685477581) false⟩⟩ :=
  unpolHint_par (s := "alpha_ab") (q := 1/20) (by simp) (by simp [nameCode, nameCodeChars]) (by norm_num [sc])
theorem mgga_c_vsxc_unpolHint1 : UnpolHint {tPos := true, params := ["alpha_ab", "alpha_ss"], le := [("alpha_ss", 1/20), ("alpha_ab", 1/20)]} .mgga mgga_c_vsxc.unpolBody ⟨64, mgga_c_vsxc_unpolHint1_e.res, pos⟩ :=
  unpolHint_rw 1000 mgga_c_vsxc_unpolHint1_q (hs := [⟨16, .param 7020109512776311138, ⟨.inf, .fin (Int.negOfNat 922337203685477581) false⟩⟩]) (fc mgga_c_vsxc_unpolHint1_0 fn) (par := [7020109512776311138, 7020109512776315763]) (npar := []) (flds := []) (by simp [nameCode, nameCodeChars]) rfl rfl (by decide +kernel) (by decide +kernel)
theorem mgga_c_vsxc_definedUnpol : DefinedUnpol {tPos := true, params := ["alpha_ab", "alpha_ss"], le := [("alpha_ss", 1/20), ("alpha_ab", 1/20)]} .mgga mgga_c_vsxc :=
  definedUnpolH_of _ mgga_c_vsxc_neverRaises (hs := [⟨47, mgga_c_vsxc_unpolHint0_e.res, pos⟩, ⟨64, mgga_c_vsxc_unpolHint1_e.res, pos⟩]) (fc mgga_c_vsxc_unpolHint0 (fc mgga_c_vsxc_unpolHint1 fn)) (par := [7020109512776311138, 7020109512776315763]) (npar := []) (flds := []) (by simp [nameCode, nameCodeChars]) rfl rfl (by decide +kernel)

prog mgga_k_pc07_polHint0_e "res = params_a_a - t98"
prog mgga_k_pc07_polHint0_q "t33 = 6 ** (0.1e1 / 0.3e1)
t34 = math.pi ** 2
t35 = t34 ** (0.1e1 / 0.3e1)
t36 = t35 ** 2
t38 = t33 / t36
t39 = r0 ** 2
t40 = r0 ** (0.1e1 / 0.3e1)
t41 = t40 ** 2
t45 = t38 * s0 / t41 / t39
t46 = 0.5e1 / 0.72e2 * t45
t53 = t33 ** 2
t56 = t53 / t35 / t34
t57 = l0 ** 2
t63 = t56 * t57 / t40 / t39 / r0 / 0.5832e4
t64 = t39 ** 2
t70 = t56 * s0 / t40 / t64 * l0 / 0.5184e4
t71 = s0 ** 2
t77 = t56 * t71 / t40 / t64 / r0 / 0.17496e5
t80 = (t63 - t70 + t77) ** 2
t82 = (0.1e1 + t46) ** 2
t86 = math.sqrt(0.1e1 + t80 / t82)
t89 = (0.1e1 + 0.5e1 / 0.648e3 * t45 + 0.5e1 / 0.54e2 * t38 * l0 / t41 / r0 + t63 - t70 + t77) / t86 - t46
t90 = params_a_a / 0.40e2
t92 = 0.39e2 / 0.40e2 * params_a_a
t96 = lax_cond(t89 < t90, t90, t89)
t100001 = params_a_a - lax_cond(t96 < t92, t96, t92)
res = t100001"
prog mgga_k_pc07_polHint0_0d_e "res = (params_a_a) - (t92)"
prog mgga_k_pc07_polHint0_0d_q "res = params_a_a / 0.40e2"
theorem mgga_k_pc07_polHint0_0d : PolHint {params := ["a"]} .mgga mgga_k_pc07_polHint0_q ⟨25, mgga_k_pc07_polHint0_0d_e.res, pos⟩ :=
  polHint_rw 1000 mgga_k_pc07_polHint0_0d_q (hs := []) fn (par := [97]) (npar := []) (flds := []) (by simp [nameCode, nameCodeChars]) rfl rfl (by decide +kernel) (by decide +kernel)
prog mgga_k_pc07_polHint0_0_e "res = (params_a_a) - lax_cond(t96 < t92, t96, t92)"
theorem mgga_k_pc07_polHint0_0 : PolHint {params := ["a"]} .mgga mgga_k_pc07_polHint0_q ⟨25, mgga_k_pc07_polHint0_0_e.res, pos⟩ :=
  polHint_subMin mgga_k_pc07_polHint0_0d
theorem mgga_k_pc07_polHint0 : PolHint {params := ["a"]} .mgga mgga_k_pc07.polBody ⟨51, mgga_k_pc07_polHint0_e.res, pos⟩ :=
  polHint_rw 1000 mgga_k_pc07_polHint0_q (hs := [⟨25, mgga_k_pc07_polHint0_0_e.res, pos⟩]) (fc mgga_k_pc07_polHint0_0 fn) (par := [97]) (npar := []) (flds := []) (by simp [nameCode, nameCodeChars]) rfl rfl (by decide +kernel) (by decide +kernel)
prog mgga_k_pc07_polHint1_e "res = params_a_a - t185"
prog mgga_k_pc07_polHint1_q "t33 = 6 ** (0.1e1 / 0.3e1)
t34 = math.pi ** 2
t35 = t34 ** (0.1e1 / 0.3e1)
t36 = t35 ** 2
t38 = t33 / t36
t53 = t33 ** 2
t56 = t53 / t35 / t34
t90 = params_a_a / 0.40e2
t92 = 0.39e2 / 0.40e2 * params_a_a
t133 = r1 ** 2
t134 = r1 ** (0.1e1 / 0.3e1)
t135 = t134 ** 2
t139 = t38 * s2 / t135 / t133
t140 = 0.5e1 / 0.72e2 * t139
t147 = l1 ** 2
t153 = t56 * t147 / t134 / t133 / r1 / 0.5832e4
t154 = t133 ** 2
t160 = t56 * s2 / t134 / t154 * l1 / 0.5184e4
t161 = s2 ** 2
t167 = t56 * t161 / t134 / t154 / r1 / 0.17496e5
t170 = (t153 - t160 + t167) ** 2
t172 = (0.1e1 + t140) ** 2
t176 = math.sqrt(0.1e1 + t170 / t172)
t179 = (0.1e1 + 0.5e1 / 0.648e3 * t139 + 0.5e1 / 0.54e2 * t38 * l1 / t135 / r1 + t153 - t160 + t167) / t176 - t140
t183 = lax_cond(t179 < t90, t90, t179)
t100001 = params_a_a - lax_cond(t183 < t92, t183, t92)
res = t100001"
prog mgga_k_pc07_polHint1_0d_e "res = (params_a_a) - (t92)"
prog mgga_k_pc07_polHint1_0d_q "res = params_a_a / 0.40e2"
theorem mgga_k_pc07_polHint1_0d : PolHint {params := ["a"]} .mgga mgga_k_pc07_polHint1_q ⟨25, mgga_k_pc07_polHint1_0d_e.res, pos⟩ :=
  polHint_rw 1000 mgga_k_pc07_polHint1_0d_q (hs := []) fn (par := [97]) (npar := []) (flds := []) (by simp [nameCode, nameCodeChars]) rfl rfl (by decide +kernel) (by decide +kernel)
prog mgga_k_pc07_polHint1_0_e "res = (params_a_a) - lax_cond(t183 < t92, t183, t92)"
theorem mgga_k_pc07_polHint1_0 : PolHint {params := ["a"]} .mgga mgga_k_pc07_polHint1_q ⟨25, mgga_k_pc07_polHint1_0_e.res, pos⟩ :=
  polHint_subMin mgga_k_pc07_polHint1_0d
theorem mgga_k_pc07_polHint1 : PolHint {params := ["a"]} .mgga mgga_k_pc07.polBody ⟨83, mgga_k_pc07_polHint1_e.res, pos⟩ :=
  polHint_rw 1000 mgga_k_pc07_polHint1_q (hs := [⟨25, mgga_k_pc07_polHint1_0_e.res, pos⟩]) (fc mgga_k_pc07_polHint1_0 fn) (par := [97]) (npar := []) (flds := []) (by simp [nameCode, nameCodeChars]) rfl rfl (by decide +kernel) (by decide +kernel)
theorem mgga_k_pc07_definedPol : DefinedPol {params := ["a"]} .mgga mgga_k_pc07 :=
  definedPolH_of _ mgga_k_pc07_neverRaises (hs := [⟨51, mgga_k_pc07_polHint0_e.res, pos⟩, ⟨83, mgga_k_pc07_polHint1_e.res, pos⟩]) (fc mgga_k_pc07_polHint0 (fc mgga_k_pc07_polHint1 fn)) (par := [97]) (npar := []) (flds := []) (by simp [nameCode, nameCodeChars]) rfl rfl (by decide +kernel)

prog mgga_k_pc07_unpolHint0_e "res = params_a_a - t95"
prog mgga_k_pc07_unpolHint0_q "t22 = r0 ** (0.1e1 / 0.3e1)
t23 = t22 ** 2
t25 = 6 ** (0.1e1 / 0.3e1)
t26 = math.pi ** 2
t27 = t26 ** (0.1e1 / 0.3e1)
t28 = t27 ** 2
t30 = t25 / t28
t31 = 2 ** (0.1e1 / 0.3e1)
t32 = t31 ** 2
t34 = r0 ** 2
t38 = t30 * s0 * t32 / t23 / t34
t39 = 0.5e1 / 0.72e2 * t38
t47 = t25 ** 2
t50 = t47 / t27 / t26
t51 = l0 ** 2
t58 = t50 * t51 * t31 / t22 / t34 / r0 / 0.2916e4
t60 = t34 ** 2
t66 = t50 * s0 * t31 / t22 / t60 * l0 / 0.2592e4
t67 = s0 ** 2
t74 = t50 * t67 * t31 / t22 / t60 / r0 / 0.8748e4
t77 = (t58 - t66 + t74) ** 2
t79 = (0.1e1 + t39) ** 2
t83 = math.sqrt(0.1e1 + t77 / t79)
t86 = (0.1e1 + 0.5e1 / 0.648e3 * t38 + 0.5e1 / 0.54e2 * t30 * l0 * t32 / t23 / r0 + t58 - t66 + t74) / t83 - t39
t87 = params_a_a / 0.40e2
t89 = 0.39e2 / 0.40e2 * params_a_a
t93 = lax_cond(t86 < t87, t87, t86)
t100001 = params_a_a - lax_cond(t93 < t89, t93, t89)
res = t100001"
prog mgga_k_pc07_unpolHint0_0d_e "res = (params_a_a) - (t89)"
prog mgga_k_pc07_unpolHint0_0d_q "res = params_a_a / 0.40e2"
theorem mgga_k_pc07_unpolHint0_0d : UnpolHint {params := ["a"]} .mgga mgga_k_pc07_unpolHint0_q ⟨27, mgga_k_pc07_unpolHint0_0d_e.res, pos⟩ :=
  unpolHint_rw 1000 mgga_k_pc07_unpolHint0_0d_q (hs := []) fn (par := [97]) (npar := []) (flds := []) (by simp [nameCode, nameCodeChars]) rfl rfl (by decide +kernel) (by decide +kernel)
prog mgga_k_pc07_unpolHint0_0_e "res = (params_a_a) - lax_cond(t93 < t89, t93, t89)"
theorem mgga_k_pc07_unpolHint0_0 : UnpolHint {params := ["a"]} .mgga mgga_k_pc07_unpolHint0_q ⟨27, mgga_k_pc07_unpolHint0_0_e.res, pos⟩ :=
  unpolHint_subMin mgga_k_pc07_unpolHint0_0d
theorem mgga_k_pc07_unpolHint0 : UnpolHint {params := ["a"]} .mgga mgga_k_pc07.unpolBody ⟨43, mgga_k_pc07_unpolHint0_e.res, pos⟩ :=
  unpolHint_rw 1000 mgga_k_pc07_unpolHint0_q (hs := [⟨27, mgga_k_pc07_unpolHint0_0_e.res, pos⟩]) (fc mgga_k_pc07_unpolHint0_0 fn) (par := [97]) (npar := []) (flds := []) (by simp [nameCode, nameCodeChars]) rfl rfl (by decide +kernel) (by decide +kernel)
theorem mgga_k_pc07_definedUnpol : DefinedUnpol {params := ["a"]} .mgga mgga_k_pc07 :=
  definedUnpolH_of _ mgga_k_pc07_neverRaises (hs := [⟨43, mgga_k_pc07_unpolHint0_e.res, pos⟩]) (fc mgga_k_pc07_unpolHint0 fn) (par := [97]) (npar := []) (flds := []) (by simp [nameCode, nameCodeChars]) rfl rfl (by decide +kernel)

prog mgga_x_mbeef_polHint0_e "res = 0.1e1 + t74 * (0.1e1 + t74)"
prog mgga_x_mbeef_polHint0_q "t29 = 6 ** (0.1e1 / 0.3e1)
t30 = math.pi ** 2
t31 = t30 ** (0.1e1 / 0.3e1)
t32 = t31 ** 2
t33 = 0.1e1 / t32
t35 = r0 ** 2
t36 = r0 ** (0.1e1 / 0.3e1)
t37 = t36 ** 2
t40 = s0 / t37 / t35
t56 = 0.5e1 / 0.9e1 * (tau0 / t37 / r0 - t40 / 0.8e1) * t29 * t33
t58 = 0.1e5 < t56
t69 = lax_cond(t58, 0.1e5, t56)
t70 = t69 ** 2
t74 = t70 * t69
res = 0.75e0 + (t74 + 0.5e0) ** 2"
theorem mgga_x_mbeef_polHint0 : PolHint {} .mgga mgga_x_mbeef.polBody ⟨40, mgga_x_mbeef_polHint0_e.res, pos⟩ :=
  polHint_rw 1000 mgga_x_mbeef_polHint0_q (hs := []) fn (par := []) (npar := []) (flds := []) rfl rfl rfl (by decide +kernel) (by decide +kernel)
prog mgga_x_mbeef_polHint1_e "res = 0.1e1 + t310 * (0.1e1 + t310)"
prog mgga_x_mbeef_polHint1_q "t29 = 6 ** (0.1e1 / 0.3e1)
t30 = math.pi ** 2
t31 = t30 ** (0.1e1 / 0.3e1)
t32 = t31 ** 2
t33 = 0.1e1 / t32
t267 = r1 ** 2
t268 = r1 ** (0.1e1 / 0.3e1)
t269 = t268 ** 2
t272 = s2 / t269 / t267
t292 = 0.5e1 / 0.9e1 * (tau1 / t269 / r1 - t272 / 0.8e1) * t29 * t33
t294 = 0.1e5 < t292
t305 = lax_cond(t294, 0.1e5, t292)
t306 = t305 ** 2
t310 = t306 * t305
res = 0.75e0 + (t310 + 0.5e0) ** 2"
theorem mgga_x_mbeef_polHint1 : PolHint {} .mgga mgga_x_mbeef.polBody ⟨93, mgga_x_mbeef_polHint1_e.res, pos⟩ :=
  polHint_rw 1000 mgga_x_mbeef_polHint1_q (hs := []) fn (par := []) (npar := []) (flds := []) rfl rfl rfl (by decide +kernel) (by decide +kernel)
theorem mgga_x_mbeef_definedPol : DefinedPol {} .mgga mgga_x_mbeef :=
  definedPolH_of _ mgga_x_mbeef_neverRaises (hs := [⟨40, mgga_x_mbeef_polHint0_e.res, pos⟩, ⟨93, mgga_x_mbeef_polHint1_e.res, pos⟩]) (fc mgga_x_mbeef_polHint0 (fc mgga_x_mbeef_polHint1 fn)) (par := []) (npar := []) (flds := []) rfl rfl rfl (by decide +kernel)

prog mgga_x_mbeef_unpolHint0_e "res = 0.1e1 + t77 * (0.1e1 + t77)"
prog mgga_x_mbeef_unpolHint0_q "t19 = r0 ** (0.1e1 / 0.3e1)
t21 = 6 ** (0.1e1 / 0.3e1)
t22 = math.pi ** 2
t23 = t22 ** (0.1e1 / 0.3e1)
t24 = t23 ** 2
t25 = 0.1e1 / t24
t28 = 2 ** (0.1e1 / 0.3e1)
t29 = t28 ** 2
t30 = r0 ** 2
t31 = t19 ** 2
t33 = 0.1e1 / t31 / t30
t36 = s0 * t29 * t33
t59 = 0.5e1 / 0.9e1 * (tau0 * t29 / t31 / r0 - t36 / 0.8e1) * t21 * t25
t61 = 0.1e5 < t59
t72 = lax_cond(t61, 0.1e5, t59)
t73 = t72 ** 2
t77 = t73 * t72
res = 0.75e0 + (t77 + 0.5e0) ** 2"
theorem mgga_x_mbeef_unpolHint0 : UnpolHint {} .mgga mgga_x_mbeef.unpolBody ⟨38, mgga_x_mbeef_unpolHint0_e.res, pos⟩ :=
  unpolHint_rw 1000 mgga_x_mbeef_unpolHint0_q (hs := []) fn (par := []) (npar := []) (flds := []) rfl rfl rfl (by decide +kernel) (by decide +kernel)
theorem mgga_x_mbeef_definedUnpol : DefinedUnpol {} .mgga mgga_x_mbeef :=
  definedUnpolH_of _ mgga_x_mbeef_neverRaises (hs := [⟨38, mgga_x_mbeef_unpolHint0_e.res, pos⟩]) (fc mgga_x_mbeef_unpolHint0 fn) (par := []) (npar := []) (flds := []) rfl rfl rfl (by decide +kernel)

prog mgga_x_mbeefvdw_polHint0_e "res = 0.1e1 + t65 * (0.1e1 + t65)"
prog mgga_x_mbeefvdw_polHint0_q "t29 = r0 ** (0.1e1 / 0.3e1)
t30 = t29 ** 2
t34 = r0 ** 2
t37 = s0 / t30 / t34
t40 = 6 ** (0.1e1 / 0.3e1)
t42 = math.pi ** 2
t43 = t42 ** (0.1e1 / 0.3e1)
t44 = t43 ** 2
t45 = 0.1e1 / t44
t47 = 0.5e1 / 0.9e1 * (tau0 / t30 / r0 - t37 / 0.8e1) * t40 * t45
t49 = 0.1e5 < t47
t60 = lax_cond(t49, 0.1e5, t47)
t61 = t60 ** 2
t65 = t61 * t60
res = 0.75e0 + (t65 + 0.5e0) ** 2"
theorem mgga_x_mbeefvdw_polHint0 : PolHint {} .mgga mgga_x_mbeefvdw.polBody ⟨37, mgga_x_mbeefvdw_polHint0_e.res, pos⟩ :=
  polHint_rw 1000 mgga_x_mbeefvdw_polHint0_q (hs := []) fn (par := []) (npar := []) (flds := []) rfl rfl rfl (by decide +kernel) (by decide +kernel)
prog mgga_x_mbeefvdw_polHint1_e "res = 0.1e1 + t201 * (0.1e1 + t201)"
prog mgga_x_mbeefvdw_polHint1_q "t40 = 6 ** (0.1e1 / 0.3e1)
t42 = math.pi ** 2
t43 = t42 ** (0.1e1 / 0.3e1)
t44 = t43 ** 2
t45 = 0.1e1 / t44
t159 = r1 ** 2
t160 = r1 ** (0.1e1 / 0.3e1)
t161 = t160 ** 2
t164 = s2 / t161 / t159
t183 = 0.5e1 / 0.9e1 * (tau1 / t161 / r1 - t164 / 0.8e1) * t40 * t45
t185 = 0.1e5 < t183
t196 = lax_cond(t185, 0.1e5, t183)
t197 = t196 ** 2
t201 = t197 * t196
res = 0.75e0 + (t201 + 0.5e0) ** 2"
theorem mgga_x_mbeefvdw_polHint1 : PolHint {} .mgga mgga_x_mbeefvdw.polBody ⟨79, mgga_x_mbeefvdw_polHint1_e.res, pos⟩ :=
  polHint_rw 1000 mgga_x_mbeefvdw_polHint1_q (hs := []) fn (par := []) (npar := []) (flds := []) rfl rfl rfl (by decide +kernel) (by decide +kernel)
theorem mgga_x_mbeefvdw_definedPol : DefinedPol {} .mgga mgga_x_mbeefvdw :=
  definedPolH_of _ mgga_x_mbeefvdw_neverRaises (hs := [⟨37, mgga_x_mbeefvdw_polHint0_e.res, pos⟩, ⟨79, mgga_x_mbeefvdw_polHint1_e.res, pos⟩]) (fc mgga_x_mbeefvdw_polHint0 (fc mgga_x_mbeefvdw_polHint1 fn)) (par := []) (npar := []) (flds := []) rfl rfl rfl (by decide +kernel)

prog mgga_x_mbeefvdw_unpolHint0_e "res = 0.1e1 + t60 * (0.1e1 + t60)"
prog mgga_x_mbeefvdw_unpolHint0_q "t19 = r0 ** (0.1e1 / 0.3e1)
t21 = 2 ** (0.1e1 / 0.3e1)
t22 = t21 ** 2
t24 = t19 ** 2
t29 = r0 ** 2
t31 = 0.1e1 / t24 / t29
t32 = s0 * t22 * t31
t35 = 6 ** (0.1e1 / 0.3e1)
t37 = math.pi ** 2
t38 = t37 ** (0.1e1 / 0.3e1)
t39 = t38 ** 2
t40 = 0.1e1 / t39
t42 = 0.5e1 / 0.9e1 * (tau0 * t22 / t24 / r0 - t32 / 0.8e1) * t35 * t40
t44 = 0.1e5 < t42
t55 = lax_cond(t44, 0.1e5, t42)
t56 = t55 ** 2
t60 = t56 * t55
res = 0.75e0 + (t60 + 0.5e0) ** 2"
theorem mgga_x_mbeefvdw_unpolHint0 : UnpolHint {} .mgga mgga_x_mbeefvdw.unpolBody ⟨32, mgga_x_mbeefvdw_unpolHint0_e.res, pos⟩ :=
  unpolHint_rw 1000 mgga_x_mbeefvdw_unpolHint0_q (hs := []) fn (par := []) (npar := []) (flds := []) rfl rfl rfl (by decide +kernel) (by decide +kernel)
theorem mgga_x_mbeefvdw_definedUnpol : DefinedUnpol {} .mgga mgga_x_mbeefvdw :=
  definedUnpolH_of _ mgga_x_mbeefvdw_neverRaises (hs := [⟨32, mgga_x_mbeefvdw_unpolHint0_e.res, pos⟩]) (fc mgga_x_mbeefvdw_unpolHint0 fn) (par := []) (npar := []) (flds := []) rfl rfl rfl (by decide +kernel)

prog mgga_x_mcml_polHint0_e "res = 0.1e1 + t81 * (0.1e1 + 0.4e1 * t81)"
prog mgga_x_mcml_polHint0_q "t29 = 6 ** (0.1e1 / 0.3e1)
t30 = math.pi ** 2
t31 = t30 ** (0.1e1 / 0.3e1)
t32 = t31 ** 2
t33 = 0.1e1 / t32
t35 = r0 ** 2
t36 = r0 ** (0.1e1 / 0.3e1)
t37 = t36 ** 2
t40 = s0 / t37 / t35
t62 = 0.5e1 / 0.9e1 * (tau0 / t37 / r0 - t40 / 0.8e1) * t29 * t33
t64 = 0.1e5 < t62
t76 = lax_cond(t64, 0.1e5, t62)
t77 = t76 ** 2
t81 = t77 * t76
res = 0.9375e0 + (0.2e1 * t81 + 0.25e0) ** 2"
theorem mgga_x_mcml_polHint0 : PolHint {} .mgga mgga_x_mcml.polBody ⟨43, mgga_x_mcml_polHint0_e.res, pos⟩ :=
  polHint_rw 1000 mgga_x_mcml_polHint0_q (hs := []) fn (par := []) (npar := []) (flds := []) rfl rfl rfl (by decide +kernel) (by decide +kernel)
prog mgga_x_mcml_polHint1_e "res = 0.1e1 + t315 * (0.1e1 + 0.4e1 * t315)"
prog mgga_x_mcml_polHint1_q "t29 = 6 ** (0.1e1 / 0.3e1)
t30 = math.pi ** 2
t31 = t30 ** (0.1e1 / 0.3e1)
t32 = t31 ** 2
t33 = 0.1e1 / t32
t269 = r1 ** 2
t270 = r1 ** (0.1e1 / 0.3e1)
t271 = t270 ** 2
t274 = s2 / t271 / t269
t296 = 0.5e1 / 0.9e1 * (tau1 / t271 / r1 - t274 / 0.8e1) * t29 * t33
t298 = 0.1e5 < t296
t310 = lax_cond(t298, 0.1e5, t296)
t311 = t310 ** 2
t315 = t311 * t310
res = 0.9375e0 + (0.2e1 * t315 + 0.25e0) ** 2"
theorem mgga_x_mcml_polHint1 : PolHint {} .mgga mgga_x_mcml.polBody ⟨94, mgga_x_mcml_polHint1_e.res, pos⟩ :=
  polHint_rw 1000 mgga_x_mcml_polHint1_q (hs := []) fn (par := []) (npar := []) (flds := []) rfl rfl rfl (by decide +kernel) (by decide +kernel)
theorem mgga_x_mcml_definedPol : DefinedPol {} .mgga mgga_x_mcml :=
  definedPolH_of _ mgga_x_mcml_neverRaises (hs := [⟨43, mgga_x_mcml_polHint0_e.res, pos⟩, ⟨94, mgga_x_mcml_polHint1_e.res, pos⟩]) (fc mgga_x_mcml_polHint0 (fc mgga_x_mcml_polHint1 fn)) (par := []) (npar := []) (flds := []) rfl rfl rfl (by decide +kernel)

prog mgga_x_mcml_unpolHint0_e "res = 0.1e1 + t78 * (0.1e1 + 0.4e1 * t78)"
prog mgga_x_mcml_unpolHint0_q "t19 = r0 ** (0.1e1 / 0.3e1)
t21 = 6 ** (0.1e1 / 0.3e1)
t22 = math.pi ** 2
t23 = t22 ** (0.1e1 / 0.3e1)
t24 = t23 ** 2
t25 = 0.1e1 / t24
t28 = 2 ** (0.1e1 / 0.3e1)
t29 = t28 ** 2
t30 = r0 ** 2
t31 = t19 ** 2
t33 = 0.1e1 / t31 / t30
t36 = s0 * t29 * t33
t59 = 0.5e1 / 0.9e1 * (tau0 * t29 / t31 / r0 - t36 / 0.8e1) * t21 * t25
t61 = 0.1e5 < t59
t73 = lax_cond(t61, 0.1e5, t59)
t74 = t73 ** 2
t78 = t74 * t73
res = 0.9375e0 + (0.2e1 * t78 + 0.25e0) ** 2"
theorem mgga_x_mcml_unpolHint0 : UnpolHint {} .mgga mgga_x_mcml.unpolBody ⟨38, mgga_x_mcml_unpolHint0_e.res, pos⟩ :=
  unpolHint_rw 1000 mgga_x_mcml_unpolHint0_q (hs := []) fn (par := []) (npar := []) (flds := []) rfl rfl rfl (by decide +kernel) (by decide +kernel)
theorem mgga_x_mcml_definedUnpol : DefinedUnpol {} .mgga mgga_x_mcml :=
  definedUnpolH_of _ mgga_x_mcml_neverRaises (hs := [⟨38, mgga_x_mcml_unpolHint0_e.res, pos⟩]) (fc mgga_x_mcml_unpolHint0 fn) (par := []) (npar := []) (flds := []) rfl rfl rfl (by decide +kernel)

prog mgga_x_ms_polHint0_e "res = 0.1e1 + 0.250e3 / 0.243e3 * t53 * t52 * t65 + 0.62500e5 / 0.59049e5 * params_a_b * t68 * t53 * t72"
prog mgga_x_ms_polHint0_q "t30 = math.pi ** 2
t35 = r0 ** 2
t36 = r0 ** (0.1e1 / 0.3e1)
t37 = t36 ** 2
t40 = s0 / t37 / t35
t52 = tau0 / t37 / r0 - t40 / 0.8e1
t53 = t52 ** 2
t64 = t30 ** 2
t65 = 0.1e1 / t64
res = 0.5e0 + 0.5e0 * (0.1e1 + 0.250e3 / 0.243e3 * t53 * t52 * t65) ** 2 + (params_a_b - 0.5e0) * (0.250e3 / 0.243e3 * t53 * t52 * t65) ** 2"
theorem mgga_x_ms_polHint0_0 : PolHint {params := ["c", "kappa"], ge := [("b", 1/2)]} .mgga mgga_x_ms_polHint0_q ⟨9, .param 98, ⟨.fin (Int.ofNat 9223372036854775808) false, .inf⟩⟩ :=
  polHint_ge (s := "b") (q0 := 1/2) (by simp) (by simp [nameCode, nameCodeChars]) (by norm_num [sc])
theorem mgga_x_ms_polHint0 : PolHint {params := ["c", "kappa"], ge := [("b", 1/2)]} .mgga mgga_x_ms.polBody ⟨40, mgga_x_ms_polHint0_e.res, pos⟩ :=
  polHint_rw 1000 mgga_x_ms_polHint0_q (hs := [⟨9, .param 98, ⟨.fin (Int.ofNat 9223372036854775808) false, .inf⟩⟩]) (fc mgga_x_ms_polHint0_0 fn) (par := [99, 461196259425]) (npar := []) (flds := []) (by simp [nameCode, nameCodeChars]) rfl rfl (by decide +kernel) (by decide +kernel)
prog mgga_x_ms_polHint1_e "res = 0.1e1 + 0.250e3 / 0.243e3 * t117 * t116 * t65 + 0.62500e5 / 0.59049e5 * params_a_b * t127 * t117 * t72"
prog mgga_x_ms_polHint1_q "t30 = math.pi ** 2
t64 = t30 ** 2
t65 = 0.1e1 / t64
t99 = r1 ** 2
t100 = r1 ** (0.1e1 / 0.3e1)
t101 = t100 ** 2
t104 = s2 / t101 / t99
t116 = tau1 / t101 / r1 - t104 / 0.8e1
t117 = t116 ** 2
res = 0.5e0 + 0.5e0 * (0.1e1 + 0.250e3 / 0.243e3 * t117 * t116 * t65) ** 2 + (params_a_b - 0.5e0) * (0.250e3 / 0.243e3 * t117 * t116 * t65) ** 2"
theorem mgga_x_ms_polHint1_0 : PolHint {params := ["c", "kappa"], ge := [("b", 1/2)]} .mgga mgga_x_ms_polHint1_q ⟨9, .param 98, ⟨.fin (Int.ofNat 9223372036854775808) false, .inf⟩⟩ :=
  polHint_ge (s := "b") (q0 := 1/2) (by simp) (by simp [nameCode, nameCodeChars]) (by norm_num [sc])
theorem mgga_x_ms_polHint1 : PolHint {params := ["c", "kappa"], ge := [("b", 1/2)]} .mgga mgga_x_ms.polBody ⟨57, mgga_x_ms_polHint1_e.res, pos⟩ :=
  polHint_rw 1000 mgga_x_ms_polHint1_q (hs := [⟨9, .param 98, ⟨.fin (Int.ofNat 9223372036854775808) false, .inf⟩⟩]) (fc mgga_x_ms_polHint1_0 fn) (par := [99, 461196259425]) (npar := []) (flds := []) (by simp [nameCode, nameCodeChars]) rfl rfl (by decide +kernel) (by decide +kernel)
theorem mgga_x_ms_definedPol : DefinedPol {params := ["c", "kappa"], ge := [("b", 1/2)]} .mgga mgga_x_ms :=
  definedPolH_of _ mgga_x_ms_neverRaises (hs := [⟨40, mgga_x_ms_polHint0_e.res, pos⟩, ⟨57, mgga_x_ms_polHint1_e.res, pos⟩]) (fc mgga_x_ms_polHint0 (fc mgga_x_ms_polHint1 fn)) (par := [99, 461196259425]) (npar := []) (flds := []) (by simp [nameCode, nameCodeChars]) rfl rfl (by decide +kernel)

prog mgga_x_ms_unpolHint0_e "res = 0.1e1 + 0.250e3 / 0.243e3 * t48 * t47 / t59 + 0.62500e5 / 0.59049e5 * params_a_b * t63 * t48 / t66"
prog mgga_x_ms_unpolHint0_q "t19 = r0 ** (0.1e1 / 0.3e1)
t22 = math.pi ** 2
t27 = 2 ** (0.1e1 / 0.3e1)
t28 = t27 ** 2
t30 = r0 ** 2
t31 = t19 ** 2
t34 = s0 * t28 / t31 / t30
t47 = tau0 * t28 / t31 / r0 - t34 / 0.8e1
t48 = t47 ** 2
t59 = t22 ** 2
res = 0.5e0 + 0.5e0 * (0.1e1 + 0.250e3 / 0.243e3 * t48 * t47 / t59) ** 2 + (params_a_b - 0.5e0) * (0.250e3 / 0.243e3 * t48 * t47 / t59) ** 2"
theorem mgga_x_ms_unpolHint0_0 : UnpolHint {params := ["c", "kappa"], ge := [("b", 1/2)]} .mgga mgga_x_ms_unpolHint0_q ⟨10, .param 98, ⟨.fin (Int.ofNat 9223372036854775808) false, .inf⟩⟩ :=
  unpolHint_ge (s := "b") (q0 := 1/2) (by simp) (by simp [nameCode, nameCodeChars]) (by norm_num [sc])
theorem mgga_x_ms_unpolHint0 : UnpolHint {params := ["c", "kappa"], ge := [("b", 1/2)]} .mgga mgga_x_ms.unpolBody ⟨30, mgga_x_ms_unpolHint0_e.res, pos⟩ :=
  unpolHint_rw 1000 mgga_x_ms_unpolHint0_q (hs := [⟨10, .param 98, ⟨.fin (Int.ofNat 9223372036854775808) false, .inf⟩⟩]) (fc mgga_x_ms_unpolHint0_0 fn) (par := [99, 461196259425]) (npar := []) (flds := []) (by simp [nameCode, nameCodeChars]) rfl rfl (by decide +kernel) (by decide +kernel)
theorem mgga_x_ms_definedUnpol : DefinedUnpol {params := ["c", "kappa"], ge := [("b", 1/2)]} .mgga mgga_x_ms :=
  definedUnpolH_of _ mgga_x_ms_neverRaises (hs := [⟨30, mgga_x_ms_unpolHint0_e.res, pos⟩]) (fc mgga_x_ms_unpolHint0 fn) (par := [99, 461196259425]) (npar := []) (flds := []) (by simp [nameCode, nameCodeChars]) rfl rfl (by decide +kernel)

prog mgga_x_msb_polHint0_e "res = 0.1e1 + 0.8e1 * t53 * t52 / t58 / t57 + 0.64e2 * params_a_b * t70 * t53 / t73 / t58"
prog mgga_x_msb_polHint0_q "t29 = 6 ** (0.1e1 / 0.3e1)
t30 = math.pi ** 2
t31 = t30 ** (0.1e1 / 0.3e1)
t32 = t31 ** 2
t35 = r0 ** 2
t36 = r0 ** (0.1e1 / 0.3e1)
t37 = t36 ** 2
t40 = s0 / t37 / t35
t50 = tau0 / t37 / r0
t52 = t50 - t40 / 0.8e1
t53 = t52 ** 2
t54 = t29 ** 2
t56 = 0.3e1 / 0.10e2 * t54 * t32
t57 = t50 + t56
t58 = t57 ** 2
t100001 = 0.8e1 * t53 * t52 / t58 / t57
res = 0.1e1 + t100001 + params_a_b * (t100001 * t100001)"
prog mgga_x_msb_polHint0_0d_e "res = (params_a_b) - 0.5e0"
prog mgga_x_msb_polHint0_0d_q "res = (params_a_b) - 0.5e0"
theorem mgga_x_msb_polHint0_0d_0 : PolHint {params := ["c", "kappa"], ge := [("b", 1/2)]} .mgga mgga_x_msb_polHint0_0d_q ⟨0, .param 98, ⟨.fin (Int.ofNat 9223372036854775808) false, .inf⟩⟩ :=
  polHint_ge (s := "b") (q0 := 1/2) (by simp) (by simp [nameCode, nameCodeChars]) (by norm_num [sc])
theorem mgga_x_msb_polHint0_0d : PolHint {params := ["c", "kappa"], ge := [("b", 1/2)]} .mgga mgga_x_msb_polHint0_q ⟨16, mgga_x_msb_polHint0_0d_e.res, nn⟩ :=
  polHint_rw 1000 mgga_x_msb_polHint0_0d_q (hs := [⟨0, .param 98, ⟨.fin (Int.ofNat 9223372036854775808) false, .inf⟩⟩]) (fc mgga_x_msb_polHint0_0d_0 fn) (par := [99, 461196259425]) (npar := []) (flds := []) (by simp [nameCode, nameCodeChars]) rfl rfl (by decide +kernel) (by decide +kernel)
prog mgga_x_msb_polHint0_0_e "res = 0.1e1 + (t100001) + (params_a_b) * ((t100001) * (t100001))"
theorem mgga_x_msb_polHint0_0 : PolHint {params := ["c", "kappa"], ge := [("b", 1/2)]} .mgga mgga_x_msb_polHint0_q ⟨16, mgga_x_msb_polHint0_0_e.res, pos⟩ :=
  polHint_quadB mgga_x_msb_polHint0_0d
theorem mgga_x_msb_polHint0 : PolHint {params := ["c", "kappa"], ge := [("b", 1/2)]} .mgga mgga_x_msb.polBody ⟨40, mgga_x_msb_polHint0_e.res, pos⟩ :=
  polHint_rw 1 mgga_x_msb_polHint0_q (hs := [⟨16, mgga_x_msb_polHint0_0_e.res, pos⟩]) (fc mgga_x_msb_polHint0_0 fn) (par := [99, 461196259425]) (npar := []) (flds := []) (by simp [nameCode, nameCodeChars]) rfl rfl (by decide +kernel) (by decide +kernel)
prog mgga_x_msb_polHint1_e "res = 0.1e1 + 0.8e1 * t120 * t119 / t122 / t121 + 0.64e2 * params_a_b * t134 * t120 / t137 / t122"
prog mgga_x_msb_polHint1_q "t29 = 6 ** (0.1e1 / 0.3e1)
t30 = math.pi ** 2
t31 = t30 ** (0.1e1 / 0.3e1)
t32 = t31 ** 2
t54 = t29 ** 2
t56 = 0.3e1 / 0.10e2 * t54 * t32
t102 = r1 ** 2
t103 = r1 ** (0.1e1 / 0.3e1)
t104 = t103 ** 2
t107 = s2 / t104 / t102
t117 = tau1 / t104 / r1
t119 = t117 - t107 / 0.8e1
t120 = t119 ** 2
t121 = t117 + t56
t122 = t121 ** 2
t100001 = 0.8e1 * t120 * t119 / t122 / t121
res = 0.1e1 + t100001 + params_a_b * (t100001 * t100001)"
prog mgga_x_msb_polHint1_0d_e "res = (params_a_b) - 0.5e0"
prog mgga_x_msb_polHint1_0d_q "res = (params_a_b) - 0.5e0"
theorem mgga_x_msb_polHint1_0d_0 : PolHint {params := ["c", "kappa"], ge := [("b", 1/2)]} .mgga mgga_x_msb_polHint1_0d_q ⟨0, .param 98, ⟨.fin (Int.ofNat 9223372036854775808) false, .inf⟩⟩ :=
  polHint_ge (s := "b") (q0 := 1/2) (by simp) (by simp [nameCode, nameCodeChars]) (by norm_num [sc])
theorem mgga_x_msb_polHint1_0d : PolHint {params := ["c", "kappa"], ge := [("b", 1/2)]} .mgga mgga_x_msb_polHint1_q ⟨16, mgga_x_msb_polHint1_0d_e.res, nn⟩ :=
  polHint_rw 1000 mgga_x_msb_polHint1_0d_q (hs := [⟨0, .param 98, ⟨.fin (Int.ofNat 9223372036854775808) false, .inf⟩⟩]) (fc mgga_x_msb_polHint1_0d_0 fn) (par := [99, 461196259425]) (npar := []) (flds := []) (by simp [nameCode, nameCodeChars]) rfl rfl (by decide +kernel) (by decide +kernel)
prog mgga_x_msb_polHint1_0_e "res = 0.1e1 + (t100001) + (params_a_b) * ((t100001) * (t100001))"
theorem mgga_x_msb_polHint1_0 : PolHint {params := ["c", "kappa"], ge := [("b", 1/2)]} .mgga mgga_x_msb_polHint1_q ⟨16, mgga_x_msb_polHint1_0_e.res, pos⟩ :=
  polHint_quadB mgga_x_msb_polHint1_0d
theorem mgga_x_msb_polHint1 : PolHint {params := ["c", "kappa"], ge := [("b", 1/2)]} .mgga mgga_x_msb.polBody ⟨61, mgga_x_msb_polHint1_e.res, pos⟩ :=
  polHint_rw 1 mgga_x_msb_polHint1_q (hs := [⟨16, mgga_x_msb_polHint1_0_e.res, pos⟩]) (fc mgga_x_msb_polHint1_0 fn) (par := [99, 461196259425]) (npar := []) (flds := []) (by simp [nameCode, nameCodeChars]) rfl rfl (by decide +kernel) (by decide +kernel)
theorem mgga_x_msb_definedPol : DefinedPol {params := ["c", "kappa"], ge := [("b", 1/2)]} .mgga mgga_x_msb :=
  definedPolH_of _ mgga_x_msb_neverRaises (hs := [⟨40, mgga_x_msb_polHint0_e.res, pos⟩, ⟨61, mgga_x_msb_polHint1_e.res, pos⟩]) (fc mgga_x_msb_polHint0 (fc mgga_x_msb_polHint1 fn)) (par := [99, 461196259425]) (npar := []) (flds := []) (by simp [nameCode, nameCodeChars]) rfl rfl (by decide +kernel)

prog mgga_x_msb_unpolHint0_e "res = 0.1e1 + 0.8e1 * t48 * t47 / t53 / t52 + 0.64e2 * params_a_b * t65 * t48 / t68 / t53"
prog mgga_x_msb_unpolHint0_q "t19 = r0 ** (0.1e1 / 0.3e1)
t21 = 6 ** (0.1e1 / 0.3e1)
t22 = math.pi ** 2
t23 = t22 ** (0.1e1 / 0.3e1)
t24 = t23 ** 2
t27 = 2 ** (0.1e1 / 0.3e1)
t28 = t27 ** 2
t30 = r0 ** 2
t31 = t19 ** 2
t34 = s0 * t28 / t31 / t30
t45 = tau0 * t28 / t31 / r0
t47 = t45 - t34 / 0.8e1
t48 = t47 ** 2
t49 = t21 ** 2
t52 = t45 + 0.3e1 / 0.10e2 * t49 * t24
t53 = t52 ** 2
t100001 = 0.8e1 * t48 * t47 / t53 / t52
res = 0.1e1 + t100001 + params_a_b * (t100001 * t100001)"
prog mgga_x_msb_unpolHint0_0d_e "res = (params_a_b) - 0.5e0"
prog mgga_x_msb_unpolHint0_0d_q "res = (params_a_b) - 0.5e0"
theorem mgga_x_msb_unpolHint0_0d_0 : UnpolHint {params := ["c", "kappa"], ge := [("b", 1/2)]} .mgga mgga_x_msb_unpolHint0_0d_q ⟨0, .param 98, ⟨.fin (Int.ofNat 9223372036854775808) false, .inf⟩⟩ :=
  unpolHint_ge (s := "b") (q0 := 1/2) (by simp) (by simp [nameCode, nameCodeChars]) (by norm_num [sc])
theorem mgga_x_msb_unpolHint0_0d : UnpolHint {params := ["c", "kappa"], ge := [("b", 1/2)]} .mgga mgga_x_msb_unpolHint0_q ⟨17, mgga_x_msb_unpolHint0_0d_e.res, nn⟩ :=
  unpolHint_rw 1000 mgga_x_msb_unpolHint0_0d_q (hs := [⟨0, .param 98, ⟨.fin (Int.ofNat 9223372036854775808) false, .inf⟩⟩]) (fc mgga_x_msb_unpolHint0_0d_0 fn) (par := [99, 461196259425]) (npar := []) (flds := []) (by simp [nameCode, nameCodeChars]) rfl rfl (by decide +kernel) (by decide +kernel)
prog mgga_x_msb_unpolHint0_0_e "res = 0.1e1 + (t100001) + (params_a_b) * ((t100001) * (t100001))"
theorem mgga_x_msb_unpolHint0_0 : UnpolHint {params := ["c", "kappa"], ge := [("b", 1/2)]} .mgga mgga_x_msb_unpolHint0_q ⟨17, mgga_x_msb_unpolHint0_0_e.res, pos⟩ :=
  unpolHint_quadB mgga_x_msb_unpolHint0_0d
theorem mgga_x_msb_unpolHint0 : UnpolHint {params := ["c", "kappa"], ge := [("b", 1/2)]} .mgga mgga_x_msb.unpolBody ⟨32, mgga_x_msb_unpolHint0_e.res, pos⟩ :=
  unpolHint_rw 1 mgga_x_msb_unpolHint0_q (hs := [⟨17, mgga_x_msb_unpolHint0_0_e.res, pos⟩]) (fc mgga_x_msb_unpolHint0_0 fn) (par := [99, 461196259425]) (npar := []) (flds := []) (by simp [nameCode, nameCodeChars]) rfl rfl (by decide +kernel) (by decide +kernel)
theorem mgga_x_msb_definedUnpol : DefinedUnpol {params := ["c", "kappa"], ge := [("b", 1/2)]} .mgga mgga_x_msb :=
  definedUnpolH_of _ mgga_x_msb_neverRaises (hs := [⟨32, mgga_x_msb_unpolHint0_e.res, pos⟩]) (fc mgga_x_msb_unpolHint0 fn) (par := [99, 461196259425]) (npar := []) (flds := []) (by simp [nameCode, nameCodeChars]) rfl rfl (by decide +kernel)

prog mgga_x_task_polHint0d_e "res = ((0.8e1 * t60 - s0) * t63 * t65 / 0.8e1) - ((0.12500000000000000000e0 * (0.79999999992000000000e1 * t60 - s0) * t63 * t65) - (0.0e0))"
prog mgga_x_task_polHint0d_q "t60 = r0 * tau0
t63 = 0.1e1 / r0
t65 = 0.1e1 / tau0
res = 0.1e-9 * t60 * t63 * t65"
theorem mgga_x_task_polHint0d : PolHint {sPos := true, tPos := true, params := ["task_c"]} .mgga mgga_x_task.polBody ⟨40, mgga_x_task_polHint0d_e.res, nn⟩ :=
  polHint_rw 1000 mgga_x_task_polHint0d_q (hs := []) fn (par := [127961897066339]) (npar := []) (flds := []) (by simp [nameCode, nameCodeChars]) rfl rfl (by decide +kernel) (by decide +kernel)
prog mgga_x_task_polHint0o_e "res = 0.1e-9"
prog mgga_x_task_polHint0o_q "res = 0.1e-9"
theorem mgga_x_task_polHint0o : PolHint {sPos := true, tPos := true, params := ["task_c"]} .mgga mgga_x_task.polBody ⟨40, mgga_x_task_polHint0o_e.res, pos⟩ :=
  polHint_rw 1000 mgga_x_task_polHint0o_q (hs := []) fn (par := [127961897066339]) (npar := []) (flds := []) (by simp [nameCode, nameCodeChars]) rfl rfl (by decide +kernel) (by decide +kernel)
prog mgga_x_task_polHint0_e "res = lax_cond(0.0e0 < 0.12500000000000000000e0 * (0.79999999992000000000e1 * t60 - s0) * t63 * t65, (0.8e1 * t60 - s0) * t63 * t65 / 0.8e1, 0.1e-9)"
theorem mgga_x_task_polHint0 : PolHint {sPos := true, tPos := true, params := ["task_c"]} .mgga mgga_x_task.polBody ⟨40, mgga_x_task_polHint0_e.res, pos⟩ :=
  polHint_condThen mgga_x_task_polHint0d mgga_x_task_polHint0o
prog mgga_x_task_polHint1d_e "res = ((0.8e1 * t244 - s2) * t247 * t249 / 0.8e1) - ((0.12500000000000000000e0 * (0.79999999992000000000e1 * t244 - s2) * t247 * t249) - (0.0e0))"
prog mgga_x_task_polHint1d_q "t244 = r1 * tau1
t247 = 0.1e1 / r1
t249 = 0.1e1 / tau1
res = 0.1e-9 * t244 * t247 * t249"
theorem mgga_x_task_polHint1d : PolHint {sPos := true, tPos := true, params := ["task_c"]} .mgga mgga_x_task.polBody ⟨94, mgga_x_task_polHint1d_e.res, nn⟩ :=
  polHint_rw 1000 mgga_x_task_polHint1d_q (hs := []) fn (par := [127961897066339]) (npar := []) (flds := []) (by simp [nameCode, nameCodeChars]) rfl rfl (by decide +kernel) (by decide +kernel)
prog mgga_x_task_polHint1o_e "res = 0.1e-9"
prog mgga_x_task_polHint1o_q "res = 0.1e-9"
theorem mgga_x_task_polHint1o : PolHint {sPos := true, tPos := true, params := ["task_c"]} .mgga mgga_x_task.polBody ⟨94, mgga_x_task_polHint1o_e.res, pos⟩ :=
  polHint_rw 1000 mgga_x_task_polHint1o_q (hs := []) fn (par := [127961897066339]) (npar := []) (flds := []) (by simp [nameCode, nameCodeChars]) rfl rfl (by decide +kernel) (by decide +kernel)
prog mgga_x_task_polHint1_e "res = lax_cond(0.0e0 < 0.12500000000000000000e0 * (0.79999999992000000000e1 * t244 - s2) * t247 * t249, (0.8e1 * t244 - s2) * t247 * t249 / 0.8e1, 0.1e-9)"
theorem mgga_x_task_polHint1 : PolHint {sPos := true, tPos := true, params := ["task_c"]} .mgga mgga_x_task.polBody ⟨94, mgga_x_task_polHint1_e.res, pos⟩ :=
  polHint_condThen mgga_x_task_polHint1d mgga_x_task_polHint1o
theorem mgga_x_task_definedPol : DefinedPol {sPos := true, tPos := true, params := ["task_c"]} .mgga mgga_x_task :=
  definedPolH_of _ mgga_x_task_neverRaises (hs := [⟨40, mgga_x_task_polHint0_e.res, pos⟩, ⟨94, mgga_x_task_polHint1_e.res, pos⟩]) (fc mgga_x_task_polHint0 (fc mgga_x_task_polHint1 fn)) (par := [127961897066339]) (npar := []) (flds := []) (by simp [nameCode, nameCodeChars]) rfl rfl (by decide +kernel)

prog mgga_x_task_unpolHint0d_e "res = ((0.8e1 * t54 - s0) * t57 * t59 / 0.8e1) - ((0.12500000000000000000e0 * (0.79999999992000000000e1 * t54 - s0) * t57 * t59) - (0.0e0))"
prog mgga_x_task_unpolHint0d_q "t54 = r0 * tau0
t57 = 0.1e1 / r0
t59 = 0.1e1 / tau0
res = 0.1e-9 * t54 * t57 * t59"
theorem mgga_x_task_unpolHint0d : UnpolHint {sPos := true, tPos := true, params := ["task_c"]} .mgga mgga_x_task.unpolBody ⟨33, mgga_x_task_unpolHint0d_e.res, nn⟩ :=
  unpolHint_rw 1000 mgga_x_task_unpolHint0d_q (hs := []) fn (par := [127961897066339]) (npar := []) (flds := []) (by simp [nameCode, nameCodeChars]) rfl rfl (by decide +kernel) (by decide +kernel)
prog mgga_x_task_unpolHint0o_e "res = 0.1e-9"
prog mgga_x_task_unpolHint0o_q "res = 0.1e-9"
theorem mgga_x_task_unpolHint0o : UnpolHint {sPos := true, tPos := true, params := ["task_c"]} .mgga mgga_x_task.unpolBody ⟨33, mgga_x_task_unpolHint0o_e.res, pos⟩ :=
  unpolHint_rw 1000 mgga_x_task_unpolHint0o_q (hs := []) fn (par := [127961897066339]) (npar := []) (flds := []) (by simp [nameCode, nameCodeChars]) rfl rfl (by decide +kernel) (by decide +kernel)
prog mgga_x_task_unpolHint0_e "res = lax_cond(0.0e0 < 0.12500000000000000000e0 * (0.79999999992000000000e1 * t54 - s0) * t57 * t59, (0.8e1 * t54 - s0) * t57 * t59 / 0.8e1, 0.1e-9)"
theorem mgga_x_task_unpolHint0 : UnpolHint {sPos := true, tPos := true, params := ["task_c"]} .mgga mgga_x_task.unpolBody ⟨33, mgga_x_task_unpolHint0_e.res, pos⟩ :=
  unpolHint_condThen mgga_x_task_unpolHint0d mgga_x_task_unpolHint0o
theorem mgga_x_task_definedUnpol : DefinedUnpol {sPos := true, tPos := true, params := ["task_c"]} .mgga mgga_x_task :=
  definedUnpolH_of _ mgga_x_task_neverRaises (hs := [⟨33, mgga_x_task_unpolHint0_e.res, pos⟩]) (fc mgga_x_task_unpolHint0 fn) (par := [127961897066339]) (npar := []) (flds := []) (by simp [nameCode, nameCodeChars]) rfl rfl (by decide +kernel)

prog mgga_x_vcml_polHint0_e "res = 0.1e1 + t81 * (0.1e1 + 0.4e1 * t81)"
prog mgga_x_vcml_polHint0_q "t29 = 6 ** (0.1e1 / 0.3e1)
t30 = math.pi ** 2
t31 = t30 ** (0.1e1 / 0.3e1)
t32 = t31 ** 2
t33 = 0.1e1 / t32
t35 = r0 ** 2
t36 = r0 ** (0.1e1 / 0.3e1)
t37 = t36 ** 2
t40 = s0 / t37 / t35
t62 = 0.5e1 / 0.9e1 * (tau0 / t37 / r0 - t40 / 0.8e1) * t29 * t33
t64 = 0.1e5 < t62
t76 = lax_cond(t64, 0.1e5, t62)
t77 = t76 ** 2
t81 = t77 * t76
res = 0.9375e0 + (0.2e1 * t81 + 0.25e0) ** 2"
theorem mgga_x_vcml_polHint0 : PolHint {} .mgga mgga_x_vcml.polBody ⟨43, mgga_x_vcml_polHint0_e.res, pos⟩ :=
  polHint_rw 1000 mgga_x_vcml_polHint0_q (hs := []) fn (par := []) (npar := []) (flds := []) rfl rfl rfl (by decide +kernel) (by decide +kernel)
prog mgga_x_vcml_polHint1_e "res = 0.1e1 + t315 * (0.1e1 + 0.4e1 * t315)"
prog mgga_x_vcml_polHint1_q "t29 = 6 ** (0.1e1 / 0.3e1)
t30 = math.pi ** 2
t31 = t30 ** (0.1e1 / 0.3e1)
t32 = t31 ** 2
t33 = 0.1e1 / t32
t269 = r1 ** 2
t270 = r1 ** (0.1e1 / 0.3e1)
t271 = t270 ** 2
t274 = s2 / t271 / t269
t296 = 0.5e1 / 0.9e1 * (tau1 / t271 / r1 - t274 / 0.8e1) * t29 * t33
t298 = 0.1e5 < t296
t310 = lax_cond(t298, 0.1e5, t296)
t311 = t310 ** 2
t315 = t311 * t310
res = 0.9375e0 + (0.2e1 * t315 + 0.25e0) ** 2"
theorem mgga_x_vcml_polHint1 : PolHint {} .mgga mgga_x_vcml.polBody ⟨94, mgga_x_vcml_polHint1_e.res, pos⟩ :=
  polHint_rw 1000 mgga_x_vcml_polHint1_q (hs := []) fn (par := []) (npar := []) (flds := []) rfl rfl rfl (by decide +kernel) (by decide +kernel)
theorem mgga_x_vcml_definedPol : DefinedPol {} .mgga mgga_x_vcml :=
  definedPolH_of _ mgga_x_vcml_neverRaises (hs := [⟨43, mgga_x_vcml_polHint0_e.res, pos⟩, ⟨94, mgga_x_vcml_polHint1_e.res, pos⟩]) (fc mgga_x_vcml_polHint0 (fc mgga_x_vcml_polHint1 fn)) (par := []) (npar := []) (flds := []) rfl rfl rfl (by decide +kernel)

prog mgga_x_vcml_unpolHint0_e "res = 0.1e1 + t78 * (0.1e1 + 0.4e1 * t78)"
prog mgga_x_vcml_unpolHint0_q "t19 = r0 ** (0.1e1 / 0.3e1)
t21 = 6 ** (0.1e1 / 0.3e1)
t22 = math.pi ** 2
t23 = t22 ** (0.1e1 / 0.3e1)
t24 = t23 ** 2
t25 = 0.1e1 / t24
t28 = 2 ** (0.1e1 / 0.3e1)
t29 = t28 ** 2
t30 = r0 ** 2
t31 = t19 ** 2
t33 = 0.1e1 / t31 / t30
t36 = s0 * t29 * t33
t59 = 0.5e1 / 0.9e1 * (tau0 * t29 / t31 / r0 - t36 / 0.8e1) * t21 * t25
t61 = 0.1e5 < t59
t73 = lax_cond(t61, 0.1e5, t59)
t74 = t73 ** 2
t78 = t74 * t73
res = 0.9375e0 + (0.2e1 * t78 + 0.25e0) ** 2"
theorem mgga_x_vcml_unpolHint0 : UnpolHint {} .mgga mgga_x_vcml.unpolBody ⟨38, mgga_x_vcml_unpolHint0_e.res, pos⟩ :=
  unpolHint_rw 1000 mgga_x_vcml_unpolHint0_q (hs := []) fn (par := []) (npar := []) (flds := []) rfl rfl rfl (by decide +kernel) (by decide +kernel)
theorem mgga_x_vcml_definedUnpol : DefinedUnpol {} .mgga mgga_x_vcml :=
  definedUnpolH_of _ mgga_x_vcml_neverRaises (hs := [⟨38, mgga_x_vcml_unpolHint0_e.res, pos⟩]) (fc mgga_x_vcml_unpolHint0 fn) (par := []) (npar := []) (flds := []) rfl rfl rfl (by decide +kernel)

end Verif.Props
