import Verif.Py.Elab

/-!
# Shipped formulas, verbatim from `gen_repo/impl/prebuilt/{pol,unpol}/NAME.py`
-/
namespace Verif.Data

/- gen_repo/impl/prebuilt/pol/mgga_k_pgslb.py and gen_repo/impl/prebuilt/unpol/mgga_k_pgslb.py -/
formula mgga_k_pgslb pol "t2 = 3 ** (0.1e1 / 0.3e1)
t3 = t2 ** 2
t4 = math.pi ** (0.1e1 / 0.3e1)
t6 = t3 * t4 * math.pi
t7 = r0 + r1
t8 = 0.1e1 / t7
t11 = 0.2e1 * r0 * t8 <= p_a_zeta_threshold
t12 = p_a_zeta_threshold - 0.1e1
t15 = 0.2e1 * r1 * t8 <= p_a_zeta_threshold
t16 = -t12
t18 = (r0 - r1) * t8
t19 = lax_cond(t15, t16, t18)
t20 = lax_cond(t11, t12, t19)
t21 = 0.1e1 + t20
t23 = p_a_zeta_threshold ** (0.1e1 / 0.3e1)
t24 = t23 ** 2
t25 = t24 * p_a_zeta_threshold
t26 = t21 ** (0.1e1 / 0.3e1)
t27 = t26 ** 2
t29 = lax_cond(t21 <= p_a_zeta_threshold, t25, t27 * t21)
t30 = t7 ** (0.1e1 / 0.3e1)
t31 = t30 ** 2
t33 = 6 ** (0.1e1 / 0.3e1)
t34 = math.pi ** 2
t35 = t34 ** (0.1e1 / 0.3e1)
t36 = t35 ** 2
t37 = 0.1e1 / t36
t38 = t33 * t37
t39 = r0 ** 2
t40 = r0 ** (0.1e1 / 0.3e1)
t41 = t40 ** 2
t43 = 0.1e1 / t41 / t39
t47 = params_a_pgslb_mu * t33
t52 = math.exp(-t47 * t37 * s0 * t43 / 0.24e2)
t53 = t33 ** 2
t54 = params_a_pgslb_beta * t53
t56 = 0.1e1 / t35 / t34
t57 = l0 ** 2
t69 = lax_cond(r0 <= p_a_dens_threshold, 0, 0.3e1 / 0.20e2 * t6 * t29 * t31 * (0.5e1 / 0.72e2 * t38 * s0 * t43 + t52 + t54 * t56 * t57 / t40 / t39 / r0 / 0.576e3))
t71 = lax_cond(t11, t16, -t18)
t72 = lax_cond(t15, t12, t71)
t73 = 0.1e1 + t72
t75 = t73 ** (0.1e1 / 0.3e1)
t76 = t75 ** 2
t78 = lax_cond(t73 <= p_a_zeta_threshold, t25, t76 * t73)
t80 = r1 ** 2
t81 = r1 ** (0.1e1 / 0.3e1)
t82 = t81 ** 2
t84 = 0.1e1 / t82 / t80
t92 = math.exp(-t47 * t37 * s2 * t84 / 0.24e2)
t93 = l1 ** 2
t105 = lax_cond(r1 <= p_a_dens_threshold, 0, 0.3e1 / 0.20e2 * t6 * t78 * t31 * (0.5e1 / 0.72e2 * t38 * s2 * t84 + t92 + t54 * t56 * t93 / t81 / t80 / r1 / 0.576e3))
res = t69 + t105
" unpol "t3 = 3 ** (0.1e1 / 0.3e1)
t4 = t3 ** 2
t5 = math.pi ** (0.1e1 / 0.3e1)
t8 = 0.1e1 <= p_a_zeta_threshold
t9 = p_a_zeta_threshold - 0.1e1
t11 = lax_cond(t8, -t9, 0)
t12 = lax_cond(t8, t9, t11)
t13 = 0.1e1 + t12
t15 = p_a_zeta_threshold ** (0.1e1 / 0.3e1)
t16 = t15 ** 2
t18 = t13 ** (0.1e1 / 0.3e1)
t19 = t18 ** 2
t21 = lax_cond(t13 <= p_a_zeta_threshold, t16 * p_a_zeta_threshold, t19 * t13)
t22 = r0 ** (0.1e1 / 0.3e1)
t23 = t22 ** 2
t25 = 6 ** (0.1e1 / 0.3e1)
t26 = math.pi ** 2
t27 = t26 ** (0.1e1 / 0.3e1)
t28 = t27 ** 2
t29 = 0.1e1 / t28
t31 = 2 ** (0.1e1 / 0.3e1)
t32 = t31 ** 2
t34 = r0 ** 2
t37 = s0 * t32 / t23 / t34
t44 = math.exp(-params_a_pgslb_mu * t25 * t29 * t37 / 0.24e2)
t45 = t25 ** 2
t50 = l0 ** 2
t62 = lax_cond(r0 / 0.2e1 <= p_a_dens_threshold, 0, 0.3e1 / 0.20e2 * t4 * t5 * math.pi * t21 * t23 * (0.5e1 / 0.72e2 * t25 * t29 * t37 + t44 + params_a_pgslb_beta * t45 / t27 / t26 * t50 * t31 / t22 / t34 / r0 / 0.288e3))
res = 0.2e1 * t62
"

/- gen_repo/impl/prebuilt/pol/mgga_k_rda.py and gen_repo/impl/prebuilt/unpol/mgga_k_rda.py -/
formula mgga_k_rda pol "t2 = 3 ** (0.1e1 / 0.3e1)
t3 = t2 ** 2
t4 = math.pi ** (0.1e1 / 0.3e1)
t6 = t3 * t4 * math.pi
t7 = r0 + r1
t8 = 0.1e1 / t7
t11 = 0.2e1 * r0 * t8 <= p_a_zeta_threshold
t12 = p_a_zeta_threshold - 0.1e1
t15 = 0.2e1 * r1 * t8 <= p_a_zeta_threshold
t16 = -t12
t18 = (r0 - r1) * t8
t19 = lax_cond(t15, t16, t18)
t20 = lax_cond(t11, t12, t19)
t21 = 0.1e1 + t20
t23 = p_a_zeta_threshold ** (0.1e1 / 0.3e1)
t24 = t23 ** 2
t25 = t24 * p_a_zeta_threshold
t26 = t21 ** (0.1e1 / 0.3e1)
t27 = t26 ** 2
t29 = lax_cond(t21 <= p_a_zeta_threshold, t25, t27 * t21)
t30 = t7 ** (0.1e1 / 0.3e1)
t31 = t30 ** 2
t33 = 6 ** (0.1e1 / 0.3e1)
t34 = math.pi ** 2
t35 = t34 ** (0.1e1 / 0.3e1)
t36 = t35 ** 2
t37 = 0.1e1 / t36
t38 = t33 * t37
t39 = r0 ** 2
t40 = r0 ** (0.1e1 / 0.3e1)
t41 = t40 ** 2
t45 = t38 * s0 / t41 / t39
t47 = t33 ** 2
t49 = 0.1e1 / t35 / t34
t50 = t47 * t49
t51 = s0 ** 2
t52 = t39 ** 2
t57 = t50 * t51 / t40 / t52 / r0
t58 = params_a_a * t47
t59 = l0 ** 2
t64 = t49 * t59 / t40 / t39 / r0
t66 = t58 * t64 + t57
t68 = math.sqrt(t66)
t72 = (0.1e1 + params_a_beta1 * t68 / 0.24e2) ** 2
t76 = params_a_b * t47
t78 = t76 * t64 + t57
t79 = t78 ** 2
t81 = math.sqrt(t78)
t85 = (0.1e1 + params_a_beta2 * t81 / 0.24e2) ** 2
t86 = t85 ** 2
t90 = params_a_c * t33
t97 = t45 / 0.24e2 + t90 * t37 * l0 / t41 / r0 / 0.24e2
t107 = lax_cond(r0 <= p_a_dens_threshold, 0, 0.3e1 / 0.20e2 * t6 * t29 * t31 * (0.5e1 / 0.72e2 * t45 + params_a_A0 + params_a_A1 * t66 / t72 / 0.576e3 + params_a_A2 * t79 / t86 / 0.331776e6 + params_a_A3 * t97 / (params_a_beta3 * t97 + 0.1e1)))
t109 = lax_cond(t11, t16, -t18)
t110 = lax_cond(t15, t12, t109)
t111 = 0.1e1 + t110
t113 = t111 ** (0.1e1 / 0.3e1)
t114 = t113 ** 2
t116 = lax_cond(t111 <= p_a_zeta_threshold, t25, t114 * t111)
t118 = r1 ** 2
t119 = r1 ** (0.1e1 / 0.3e1)
t120 = t119 ** 2
t124 = t38 * s2 / t120 / t118
t126 = s2 ** 2
t127 = t118 ** 2
t132 = t50 * t126 / t119 / t127 / r1
t133 = l1 ** 2
t138 = t49 * t133 / t119 / t118 / r1
t140 = t58 * t138 + t132
t142 = math.sqrt(t140)
t146 = (0.1e1 + params_a_beta1 * t142 / 0.24e2) ** 2
t151 = t76 * t138 + t132
t152 = t151 ** 2
t154 = math.sqrt(t151)
t158 = (0.1e1 + params_a_beta2 * t154 / 0.24e2) ** 2
t159 = t158 ** 2
t169 = t124 / 0.24e2 + t90 * t37 * l1 / t120 / r1 / 0.24e2
t179 = lax_cond(r1 <= p_a_dens_threshold, 0, 0.3e1 / 0.20e2 * t6 * t116 * t31 * (0.5e1 / 0.72e2 * t124 + params_a_A0 + params_a_A1 * t140 / t146 / 0.576e3 + params_a_A2 * t152 / t159 / 0.331776e6 + params_a_A3 * t169 / (params_a_beta3 * t169 + 0.1e1)))
res = t107 + t179
" unpol "t3 = 3 ** (0.1e1 / 0.3e1)
t4 = t3 ** 2
t5 = math.pi ** (0.1e1 / 0.3e1)
t8 = 0.1e1 <= p_a_zeta_threshold
t9 = p_a_zeta_threshold - 0.1e1
t11 = lax_cond(t8, -t9, 0)
t12 = lax_cond(t8, t9, t11)
t13 = 0.1e1 + t12
t15 = p_a_zeta_threshold ** (0.1e1 / 0.3e1)
t16 = t15 ** 2
t18 = t13 ** (0.1e1 / 0.3e1)
t19 = t18 ** 2
t21 = lax_cond(t13 <= p_a_zeta_threshold, t16 * p_a_zeta_threshold, t19 * t13)
t22 = r0 ** (0.1e1 / 0.3e1)
t23 = t22 ** 2
t25 = 6 ** (0.1e1 / 0.3e1)
t26 = math.pi ** 2
t27 = t26 ** (0.1e1 / 0.3e1)
t28 = t27 ** 2
t29 = 0.1e1 / t28
t31 = 2 ** (0.1e1 / 0.3e1)
t32 = t31 ** 2
t34 = r0 ** 2
t38 = t25 * t29 * s0 * t32 / t23 / t34
t40 = t25 ** 2
t42 = 0.1e1 / t27 / t26
t44 = s0 ** 2
t46 = t34 ** 2
t51 = t40 * t42 * t44 * t31 / t22 / t46 / r0
t54 = l0 ** 2
t59 = t54 * t31 / t22 / t34 / r0
t62 = 0.2e1 * params_a_a * t40 * t42 * t59 + 0.2e1 * t51
t64 = math.sqrt(t62)
t68 = (0.1e1 + params_a_beta1 * t64 / 0.24e2) ** 2
t76 = 0.2e1 * params_a_b * t40 * t42 * t59 + 0.2e1 * t51
t77 = t76 ** 2
t79 = math.sqrt(t76)
t83 = (0.1e1 + params_a_beta2 * t79 / 0.24e2) ** 2
t84 = t83 ** 2
t96 = t38 / 0.24e2 + params_a_c * t25 * t29 * l0 * t32 / t23 / r0 / 0.24e2
t106 = lax_cond(r0 / 0.2e1 <= p_a_dens_threshold, 0, 0.3e1 / 0.20e2 * t4 * t5 * math.pi * t21 * t23 * (0.5e1 / 0.72e2 * t38 + params_a_A0 + params_a_A1 * t62 / t68 / 0.576e3 + params_a_A2 * t77 / t84 / 0.331776e6 + params_a_A3 * t96 / (params_a_beta3 * t96 + 0.1e1)))
res = 0.2e1 * t106
"

/- gen_repo/impl/prebuilt/pol/mgga_x_2d_js17.py and gen_repo/impl/prebuilt/unpol/mgga_x_2d_js17.py -/
formula mgga_x_2d_js17 pol "t2 = math.sqrt(math.pi)
t3 = 0.1e1 / t2
t4 = r0 + r1
t5 = 0.1e1 / t4
t8 = 0.2e1 * r0 * t5 <= p_a_zeta_threshold
t9 = p_a_zeta_threshold - 0.1e1
t12 = 0.2e1 * r1 * t5 <= p_a_zeta_threshold
t13 = -t9
t15 = (r0 - r1) * t5
t16 = lax_cond(t12, t13, t15)
t17 = lax_cond(t8, t9, t16)
t18 = 0.1e1 + t17
t20 = math.sqrt(p_a_zeta_threshold)
t21 = t20 * p_a_zeta_threshold
t22 = math.sqrt(t18)
t24 = lax_cond(t18 <= p_a_zeta_threshold, t21, t22 * t18)
t26 = math.sqrt(0.2e1)
t27 = math.sqrt(t4)
t28 = t26 * t27
t29 = 0.1e1 / math.pi
t31 = r0 ** 2
t34 = t29 * s0 / t31 / r0
t36 = math.pi ** 2
t37 = 0.1e1 / t36
t38 = s0 ** 2
t40 = t31 ** 2
t45 = 0.1e1 + 0.12960000000000000000e1 * t34 + 0.62208000000000000000e-2 * t37 * t38 / t40 / t31
t46 = t45 ** (0.1e1 / 0.15e2)
t52 = 0.36912000000000000000e1 * math.pi
t57 = t45 ** (0.1e1 / 0.5e1)
t65 = lax_cond(r0 <= p_a_dens_threshold, 0, -0.2e1 / 0.3e1 * t3 * t24 * t28 * (0.1e1 / t46 + 0.2e1 / 0.5e1 * (0.1e1 + 0.87771428571428571429e-1 * t34 + (-0.7720000000000000000e-1 * tau0 / t31 - t52) * t29 / 0.4e1) / t57))
t67 = lax_cond(t8, t13, -t15)
t68 = lax_cond(t12, t9, t67)
t69 = 0.1e1 + t68
t71 = math.sqrt(t69)
t73 = lax_cond(t69 <= p_a_zeta_threshold, t21, t71 * t69)
t76 = r1 ** 2
t79 = t29 * s2 / t76 / r1
t81 = s2 ** 2
t83 = t76 ** 2
t88 = 0.1e1 + 0.12960000000000000000e1 * t79 + 0.62208000000000000000e-2 * t37 * t81 / t83 / t76
t89 = t88 ** (0.1e1 / 0.15e2)
t99 = t88 ** (0.1e1 / 0.5e1)
t107 = lax_cond(r1 <= p_a_dens_threshold, 0, -0.2e1 / 0.3e1 * t3 * t73 * t28 * (0.1e1 / t89 + 0.2e1 / 0.5e1 * (0.1e1 + 0.87771428571428571429e-1 * t79 + (-0.7720000000000000000e-1 * tau1 / t76 - t52) * t29 / 0.4e1) / t99))
res = t65 + t107
" unpol "t3 = math.sqrt(math.pi)
t5 = 0.1e1 <= p_a_zeta_threshold
t6 = p_a_zeta_threshold - 0.1e1
t8 = lax_cond(t5, -t6, 0)
t9 = lax_cond(t5, t6, t8)
t10 = 0.1e1 + t9
t12 = math.sqrt(p_a_zeta_threshold)
t14 = math.sqrt(t10)
t16 = lax_cond(t10 <= p_a_zeta_threshold, t12 * p_a_zeta_threshold, t14 * t10)
t18 = math.sqrt(0.2e1)
t19 = math.sqrt(r0)
t21 = 0.1e1 / math.pi
t23 = r0 ** 2
t26 = t21 * s0 / t23 / r0
t28 = math.pi ** 2
t30 = s0 ** 2
t32 = t23 ** 2
t37 = 0.1e1 + 0.25920000000000000000e1 * t26 + 0.24883200000000000000e-1 / t28 * t30 / t32 / t23
t38 = t37 ** (0.1e1 / 0.15e2)
t49 = t37 ** (0.1e1 / 0.5e1)
t57 = lax_cond(r0 / 0.2e1 <= p_a_dens_threshold, 0, -0.2e1 / 0.3e1 / t3 * t16 * t18 * t19 * (0.1e1 / t38 + 0.2e1 / 0.5e1 * (0.1e1 + 0.17554285714285714286e0 * t26 + (-0.1544000000000000000e0 * tau0 / t23 - 0.36912000000000000000e1 * math.pi) * t21 / 0.4e1) / t49))
res = 0.2e1 * t57
"

/- gen_repo/impl/prebuilt/pol/mgga_x_2d_prhg07.py and gen_repo/impl/prebuilt/unpol/mgga_x_2d_prhg07.py -/
formula mgga_x_2d_prhg07 pol "t2 = r0 + r1
t3 = 0.1e1 / t2
t6 = 0.2e1 * r0 * t3 <= p_a_zeta_threshold
t7 = p_a_zeta_threshold - 0.1e1
t10 = 0.2e1 * r1 * t3 <= p_a_zeta_threshold
t11 = -t7
t13 = (r0 - r1) * t3
t14 = lax_cond(t10, t11, t13)
t15 = lax_cond(t6, t7, t14)
t16 = 0.1e1 + t15
t18 = math.sqrt(p_a_zeta_threshold)
t19 = t18 * p_a_zeta_threshold
t20 = math.sqrt(t16)
t22 = lax_cond(t16 <= p_a_zeta_threshold, t19, t20 * t16)
t24 = math.sqrt(0.2e1)
t25 = math.sqrt(t2)
t26 = t24 * t25
t27 = r0 ** 2
t28 = 0.1e1 / t27
t37 = 0.1e1 / math.pi
t38 = (l0 * t28 / 0.4e1 - tau0 * t28 + s0 / t27 / r0 / 0.8e1) * t37
t40 = lax_cond(-0.9999999999e0 < t38, t38, -0.9999999999e0)
t41 = math.exp(-1)
t43 = scipy.special.lambertw(t40 * t41)
t46 = scipy.special.i0(t43 / 0.2e1 + 0.1e1 / 0.2e1)
t50 = lax_cond(r0 <= p_a_dens_threshold, 0, -math.pi * t22 * t26 * t46 / 0.8e1)
t52 = lax_cond(t6, t11, -t13)
t53 = lax_cond(t10, t7, t52)
t54 = 0.1e1 + t53
t56 = math.sqrt(t54)
t58 = lax_cond(t54 <= p_a_zeta_threshold, t19, t56 * t54)
t60 = r1 ** 2
t61 = 0.1e1 / t60
t70 = (l1 * t61 / 0.4e1 - tau1 * t61 + s2 / t60 / r1 / 0.8e1) * t37
t72 = lax_cond(-0.9999999999e0 < t70, t70, -0.9999999999e0)
t74 = scipy.special.lambertw(t72 * t41)
t77 = scipy.special.i0(t74 / 0.2e1 + 0.1e1 / 0.2e1)
t81 = lax_cond(r1 <= p_a_dens_threshold, 0, -math.pi * t58 * t26 * t77 / 0.8e1)
res = t50 + t81
" unpol "t3 = 0.1e1 <= p_a_zeta_threshold
t4 = p_a_zeta_threshold - 0.1e1
t6 = lax_cond(t3, -t4, 0)
t7 = lax_cond(t3, t4, t6)
t8 = 0.1e1 + t7
t10 = math.sqrt(p_a_zeta_threshold)
t12 = math.sqrt(t8)
t14 = lax_cond(t8 <= p_a_zeta_threshold, t10 * p_a_zeta_threshold, t12 * t8)
t16 = math.sqrt(0.2e1)
t17 = math.sqrt(r0)
t19 = r0 ** 2
t20 = 0.1e1 / t19
t31 = (l0 * t20 / 0.2e1 - 0.2e1 * tau0 * t20 + s0 / t19 / r0 / 0.4e1) / math.pi
t33 = lax_cond(-0.9999999999e0 < t31, t31, -0.9999999999e0)
t34 = math.exp(-1)
t36 = scipy.special.lambertw(t33 * t34)
t39 = scipy.special.i0(t36 / 0.2e1 + 0.1e1 / 0.2e1)
t43 = lax_cond(r0 / 0.2e1 <= p_a_dens_threshold, 0, -math.pi * t14 * t16 * t17 * t39 / 0.8e1)
res = 0.2e1 * t43
"

/- gen_repo/impl/prebuilt/pol/mgga_x_2d_prp10.py and gen_repo/impl/prebuilt/unpol/mgga_x_2d_prp10.py -/
formula mgga_x_2d_prp10 pol "t1 = r0 ** 2
t2 = 0.1e1 / t1
t5 = tau0 * t2
t9 = s0 / t1 / r0 / 0.8e1
t11 = 0.1e1 / math.pi
t12 = (l0 * t2 / 0.4e1 - t5 + t9) * t11
t14 = lax_cond(-0.9999999999e0 < t12, t12, -0.9999999999e0)
t15 = math.exp(-1)
t17 = scipy.special.lambertw(t14 * t15)
t20 = scipy.special.i0(t17 / 0.2e1 + 0.1e1 / 0.2e1)
t22 = t5 - t9
t24 = lax_cond(0.1e-9 < t22, t22, 0.1e-9)
t25 = math.sqrt(t24)
t29 = math.sqrt(r0)
res = -(math.pi * t20 - 0.4e1 / 0.3e1 * t11 * t25) * t29
" unpol "t1 = r0 ** 2
t2 = 0.1e1 / t1
t6 = 0.2e1 * tau0 * t2
t10 = s0 / t1 / r0 / 0.4e1
t12 = 0.1e1 / math.pi
t13 = (l0 * t2 / 0.2e1 - t6 + t10) * t12
t15 = lax_cond(-0.9999999999e0 < t13, t13, -0.9999999999e0)
t16 = math.exp(-1)
t18 = scipy.special.lambertw(t15 * t16)
t21 = scipy.special.i0(t18 / 0.2e1 + 0.1e1 / 0.2e1)
t23 = t6 - t10
t25 = lax_cond(0.1e-9 < t23, t23, 0.1e-9)
t26 = math.sqrt(t25)
t30 = math.sqrt(0.2e1)
t32 = math.sqrt(r0)
res = -(math.pi * t21 - 0.4e1 / 0.3e1 * t12 * t26) * t30 * t32 / 0.2e1
"

/- gen_repo/impl/prebuilt/pol/mgga_x_br89.py and gen_repo/impl/prebuilt/unpol/mgga_x_br89.py -/
formula mgga_x_br89 pol "t2 = r0 + r1
t3 = 0.1e1 / t2
t6 = 0.2e1 * r0 * t3 <= p_a_zeta_threshold
t7 = p_a_zeta_threshold - 0.1e1
t10 = 0.2e1 * r1 * t3 <= p_a_zeta_threshold
t11 = -t7
t13 = (r0 - r1) * t3
t14 = lax_cond(t10, t11, t13)
t15 = lax_cond(t6, t7, t14)
t16 = 0.1e1 + t15
t18 = p_a_zeta_threshold ** (0.1e1 / 0.3e1)
t19 = t18 * p_a_zeta_threshold
t20 = t16 ** (0.1e1 / 0.3e1)
t22 = lax_cond(t16 <= p_a_zeta_threshold, t19, t20 * t16)
t23 = t2 ** (0.1e1 / 0.3e1)
t26 = (0.1e1 / math.pi) ** (0.1e1 / 0.3e1)
t28 = 4 ** (0.1e1 / 0.3e1)
t29 = 0.1e1 / t26 * t28
t31 = r0 ** (0.1e1 / 0.3e1)
t32 = t31 ** 2
t34 = 0.1e1 / t32 / r0
t41 = r0 ** 2
t46 = l0 * t34 / 0.6e1 - 0.2e1 / 0.3e1 * params_a_gamma * tau0 * t34 + params_a_gamma * s0 / t32 / t41 / 0.12e2
t47 = abs(t46)
t50 = lax_cond(0.0e0 < t46, 0.50e-12, -0.50e-12)
t51 = lax_cond(t47 < 0.50e-12, t50, t46)
t52 = br89_x(t51)
t54 = math.exp(t52 / 0.3e1)
t55 = math.exp(-t52)
t62 = 6 ** (0.1e1 / 0.3e1)
t63 = t62 ** 2
t64 = math.pi ** 2
t65 = t64 ** (0.1e1 / 0.3e1)
t66 = t65 ** 2
t68 = 0.3e1 / 0.10e2 * t63 * t66
t69 = tau0 * t34
t70 = t68 - t69
t71 = t68 + t69
t74 = t70 ** 2
t76 = t71 ** 2
t81 = t74 ** 2
t83 = t76 ** 2
t94 = lax_cond(r0 <= p_a_dens_threshold, 0, -t22 * t23 * t29 * t54 * (0.1e1 - t55 * (0.1e1 + t52 / 0.2e1)) / t52 * (0.1e1 + params_a_at * (t70 / t71 - 0.2e1 * t74 * t70 / t76 / t71 + t81 * t70 / t83 / t71)) / 0.4e1)
t96 = lax_cond(t6, t11, -t13)
t97 = lax_cond(t10, t7, t96)
t98 = 0.1e1 + t97
t100 = t98 ** (0.1e1 / 0.3e1)
t102 = lax_cond(t98 <= p_a_zeta_threshold, t19, t100 * t98)
t105 = r1 ** (0.1e1 / 0.3e1)
t106 = t105 ** 2
t108 = 0.1e1 / t106 / r1
t115 = r1 ** 2
t120 = l1 * t108 / 0.6e1 - 0.2e1 / 0.3e1 * params_a_gamma * tau1 * t108 + params_a_gamma * s2 / t106 / t115 / 0.12e2
t121 = abs(t120)
t124 = lax_cond(0.0e0 < t120, 0.50e-12, -0.50e-12)
t125 = lax_cond(t121 < 0.50e-12, t124, t120)
t126 = br89_x(t125)
t128 = math.exp(t126 / 0.3e1)
t129 = math.exp(-t126)
t136 = tau1 * t108
t137 = t68 - t136
t138 = t68 + t136
t141 = t137 ** 2
t143 = t138 ** 2
t148 = t141 ** 2
t150 = t143 ** 2
t161 = lax_cond(r1 <= p_a_dens_threshold, 0, -t102 * t23 * t29 * t128 * (0.1e1 - t129 * (0.1e1 + t126 / 0.2e1)) / t126 * (0.1e1 + params_a_at * (t137 / t138 - 0.2e1 * t141 * t137 / t143 / t138 + t148 * t137 / t150 / t138)) / 0.4e1)
res = t94 + t161
" unpol "t3 = 0.1e1 <= p_a_zeta_threshold
t4 = p_a_zeta_threshold - 0.1e1
t6 = lax_cond(t3, -t4, 0)
t7 = lax_cond(t3, t4, t6)
t8 = 0.1e1 + t7
t10 = p_a_zeta_threshold ** (0.1e1 / 0.3e1)
t12 = t8 ** (0.1e1 / 0.3e1)
t14 = lax_cond(t8 <= p_a_zeta_threshold, t10 * p_a_zeta_threshold, t12 * t8)
t15 = r0 ** (0.1e1 / 0.3e1)
t18 = (0.1e1 / math.pi) ** (0.1e1 / 0.3e1)
t20 = 4 ** (0.1e1 / 0.3e1)
t23 = 2 ** (0.1e1 / 0.3e1)
t24 = t23 ** 2
t26 = t15 ** 2
t28 = 0.1e1 / t26 / r0
t36 = r0 ** 2
t42 = l0 * t24 * t28 / 0.6e1 - 0.2e1 / 0.3e1 * params_a_gamma * tau0 * t24 * t28 + params_a_gamma * s0 * t24 / t26 / t36 / 0.12e2
t43 = abs(t42)
t46 = lax_cond(0.0e0 < t42, 0.50e-12, -0.50e-12)
t47 = lax_cond(t43 < 0.50e-12, t46, t42)
t48 = br89_x(t47)
t50 = math.exp(t48 / 0.3e1)
t51 = math.exp(-t48)
t58 = 6 ** (0.1e1 / 0.3e1)
t59 = t58 ** 2
t60 = math.pi ** 2
t61 = t60 ** (0.1e1 / 0.3e1)
t62 = t61 ** 2
t64 = 0.3e1 / 0.10e2 * t59 * t62
t66 = tau0 * t24 * t28
t67 = t64 - t66
t68 = t64 + t66
t71 = t67 ** 2
t73 = t68 ** 2
t78 = t71 ** 2
t80 = t73 ** 2
t91 = lax_cond(r0 / 0.2e1 <= p_a_dens_threshold, 0, -t14 * t15 / t18 * t20 * t50 * (0.1e1 - t51 * (0.1e1 + t48 / 0.2e1)) / t48 * (0.1e1 + params_a_at * (t67 / t68 - 0.2e1 * t71 * t67 / t73 / t68 + t78 * t67 / t80 / t68)) / 0.4e1)
res = 0.2e1 * t91
"

/- gen_repo/impl/prebuilt/pol/mgga_x_br89_explicit.py and gen_repo/impl/prebuilt/unpol/mgga_x_br89_explicit.py -/
formula mgga_x_br89_explicit pol "t2 = r0 + r1
t3 = 0.1e1 / t2
t6 = 0.2e1 * r0 * t3 <= p_a_zeta_threshold
t7 = p_a_zeta_threshold - 0.1e1
t10 = 0.2e1 * r1 * t3 <= p_a_zeta_threshold
t11 = -t7
t13 = (r0 - r1) * t3
t14 = lax_cond(t10, t11, t13)
t15 = lax_cond(t6, t7, t14)
t16 = 0.1e1 + t15
t18 = p_a_zeta_threshold ** (0.1e1 / 0.3e1)
t19 = t18 * p_a_zeta_threshold
t20 = t16 ** (0.1e1 / 0.3e1)
t22 = lax_cond(t16 <= p_a_zeta_threshold, t19, t20 * t16)
t23 = t2 ** (0.1e1 / 0.3e1)
t26 = (0.1e1 / math.pi) ** (0.1e1 / 0.3e1)
t27 = 0.1e1 / t26
t29 = 4 ** (0.1e1 / 0.3e1)
t30 = math.pi ** (0.1e1 / 0.3e1)
t31 = t30 ** 2
t32 = r0 ** (0.1e1 / 0.3e1)
t33 = t32 ** 2
t35 = 0.1e1 / t33 / r0
t42 = r0 ** 2
t47 = l0 * t35 / 0.6e1 - 0.2e1 / 0.3e1 * params_a_gamma * tau0 * t35 + params_a_gamma * s0 / t33 / t42 / 0.12e2
t48 = abs(t47)
t51 = lax_cond(0.0e0 < t47, 0.50e-12, -0.50e-12)
t52 = lax_cond(t48 < 0.50e-12, t51, t47)
t55 = 0.2e1 / 0.3e1 * t31 / t52
t58 = lax_cond(-0.50e-12 < t55, -0.50e-12, t55)
t61 = math.atan(0.15255251812009530e1 * t58 + 0.4576575543602858e0)
t64 = t58 ** 2
t66 = t64 * t58
t68 = t64 ** 2
t70 = t68 * t58
t83 = lax_cond(0.50e-12 < t55, t55, 0.50e-12)
t85 = math.asinh(0.1e1 / (0.2085749716493756e1 * t83))
t88 = t83 ** 2
t90 = t88 * t83
t92 = t88 ** 2
t94 = t92 * t83
t106 = lax_cond(t55 <= 0.0e0, (-t61 + 0.4292036732051034e0) * (0.7566445420735584e0 - 0.26363977871370960e1 * t58 + 0.54745159964232880e1 * t64 - 0.12657308127108290e2 * t66 + 0.41250584725121360e1 * t68 - 0.30425133957163840e2 * t70) / (0.4771976183772063e0 - 0.17799813494556270e1 * t58 + 0.38433841862302150e1 * t64 - 0.95912050880518490e1 * t66 + 0.21730180285916720e1 * t68 - 0.30425133851603660e2 * t70), (t85 + 0.2e1) * (0.4435009886795587e-4 + 0.58128653604457910e0 * t83 + 0.66742764515940610e2 * t88 + 0.43426780897229770e3 * t90 + 0.8247765766052239000e3 * t92 + 0.16579652731582120e4 * t94) / (0.3347285060926091e-4 + 0.47917931023971350e0 * t83 + 0.62392268338574240e2 * t88 + 0.46314816427938120e3 * t90 + 0.7852360350104029000e3 * t92 + 0.1657962968223273000000e4 * t94))
t108 = math.exp(t106 / 0.3e1)
t110 = math.exp(-t106)
t120 = lax_cond(r0 <= p_a_dens_threshold, 0, -t22 * t23 * t27 * t29 * t108 * (0.1e1 - t110 * (0.1e1 + t106 / 0.2e1)) / t106 / 0.4e1)
t122 = lax_cond(t6, t11, -t13)
t123 = lax_cond(t10, t7, t122)
t124 = 0.1e1 + t123
t126 = t124 ** (0.1e1 / 0.3e1)
t128 = lax_cond(t124 <= p_a_zeta_threshold, t19, t126 * t124)
t131 = r1 ** (0.1e1 / 0.3e1)
t132 = t131 ** 2
t134 = 0.1e1 / t132 / r1
t141 = r1 ** 2
t146 = l1 * t134 / 0.6e1 - 0.2e1 / 0.3e1 * params_a_gamma * tau1 * t134 + params_a_gamma * s2 / t132 / t141 / 0.12e2
t147 = abs(t146)
t150 = lax_cond(0.0e0 < t146, 0.50e-12, -0.50e-12)
t151 = lax_cond(t147 < 0.50e-12, t150, t146)
t154 = 0.2e1 / 0.3e1 * t31 / t151
t157 = lax_cond(-0.50e-12 < t154, -0.50e-12, t154)
t160 = math.atan(0.15255251812009530e1 * t157 + 0.4576575543602858e0)
t163 = t157 ** 2
t165 = t163 * t157
t167 = t163 ** 2
t169 = t167 * t157
t182 = lax_cond(0.50e-12 < t154, t154, 0.50e-12)
t184 = math.asinh(0.1e1 / (0.2085749716493756e1 * t182))
t187 = t182 ** 2
t189 = t187 * t182
t191 = t187 ** 2
t193 = t191 * t182
t205 = lax_cond(t154 <= 0.0e0, (-t160 + 0.4292036732051034e0) * (0.7566445420735584e0 - 0.26363977871370960e1 * t157 + 0.54745159964232880e1 * t163 - 0.12657308127108290e2 * t165 + 0.41250584725121360e1 * t167 - 0.30425133957163840e2 * t169) / (0.4771976183772063e0 - 0.17799813494556270e1 * t157 + 0.38433841862302150e1 * t163 - 0.95912050880518490e1 * t165 + 0.21730180285916720e1 * t167 - 0.30425133851603660e2 * t169), (t184 + 0.2e1) * (0.4435009886795587e-4 + 0.58128653604457910e0 * t182 + 0.66742764515940610e2 * t187 + 0.43426780897229770e3 * t189 + 0.8247765766052239000e3 * t191 + 0.16579652731582120e4 * t193) / (0.3347285060926091e-4 + 0.47917931023971350e0 * t182 + 0.62392268338574240e2 * t187 + 0.46314816427938120e3 * t189 + 0.7852360350104029000e3 * t191 + 0.1657962968223273000000e4 * t193))
t207 = math.exp(t205 / 0.3e1)
t209 = math.exp(-t205)
t219 = lax_cond(r1 <= p_a_dens_threshold, 0, -t128 * t23 * t27 * t29 * t207 * (0.1e1 - t209 * (0.1e1 + t205 / 0.2e1)) / t205 / 0.4e1)
res = t120 + t219
" unpol "t3 = 0.1e1 <= p_a_zeta_threshold
t4 = p_a_zeta_threshold - 0.1e1
t6 = lax_cond(t3, -t4, 0)
t7 = lax_cond(t3, t4, t6)
t8 = 0.1e1 + t7
t10 = p_a_zeta_threshold ** (0.1e1 / 0.3e1)
t12 = t8 ** (0.1e1 / 0.3e1)
t14 = lax_cond(t8 <= p_a_zeta_threshold, t10 * p_a_zeta_threshold, t12 * t8)
t15 = r0 ** (0.1e1 / 0.3e1)
t18 = (0.1e1 / math.pi) ** (0.1e1 / 0.3e1)
t21 = 4 ** (0.1e1 / 0.3e1)
t22 = math.pi ** (0.1e1 / 0.3e1)
t23 = t22 ** 2
t24 = 2 ** (0.1e1 / 0.3e1)
t25 = t24 ** 2
t27 = t15 ** 2
t29 = 0.1e1 / t27 / r0
t37 = r0 ** 2
t43 = l0 * t25 * t29 / 0.6e1 - 0.2e1 / 0.3e1 * params_a_gamma * tau0 * t25 * t29 + params_a_gamma * s0 * t25 / t27 / t37 / 0.12e2
t44 = abs(t43)
t47 = lax_cond(0.0e0 < t43, 0.50e-12, -0.50e-12)
t48 = lax_cond(t44 < 0.50e-12, t47, t43)
t51 = 0.2e1 / 0.3e1 * t23 / t48
t54 = lax_cond(-0.50e-12 < t51, -0.50e-12, t51)
t57 = math.atan(0.15255251812009530e1 * t54 + 0.4576575543602858e0)
t60 = t54 ** 2
t62 = t60 * t54
t64 = t60 ** 2
t66 = t64 * t54
t79 = lax_cond(0.50e-12 < t51, t51, 0.50e-12)
t81 = math.asinh(0.1e1 / (0.2085749716493756e1 * t79))
t84 = t79 ** 2
t86 = t84 * t79
t88 = t84 ** 2
t90 = t88 * t79
t102 = lax_cond(t51 <= 0.0e0, (-t57 + 0.4292036732051034e0) * (0.7566445420735584e0 - 0.26363977871370960e1 * t54 + 0.54745159964232880e1 * t60 - 0.12657308127108290e2 * t62 + 0.41250584725121360e1 * t64 - 0.30425133957163840e2 * t66) / (0.4771976183772063e0 - 0.17799813494556270e1 * t54 + 0.38433841862302150e1 * t60 - 0.95912050880518490e1 * t62 + 0.21730180285916720e1 * t64 - 0.30425133851603660e2 * t66), (t81 + 0.2e1) * (0.4435009886795587e-4 + 0.58128653604457910e0 * t79 + 0.66742764515940610e2 * t84 + 0.43426780897229770e3 * t86 + 0.8247765766052239000e3 * t88 + 0.16579652731582120e4 * t90) / (0.3347285060926091e-4 + 0.47917931023971350e0 * t79 + 0.62392268338574240e2 * t84 + 0.46314816427938120e3 * t86 + 0.7852360350104029000e3 * t88 + 0.1657962968223273000000e4 * t90))
t104 = math.exp(t102 / 0.3e1)
t106 = math.exp(-t102)
t116 = lax_cond(r0 / 0.2e1 <= p_a_dens_threshold, 0, -t14 * t15 / t18 * t21 * t104 * (0.1e1 - t106 * (0.1e1 + t102 / 0.2e1)) / t102 / 0.4e1)
res = 0.2e1 * t116
"

/- gen_repo/impl/prebuilt/pol/mgga_x_edmgga.py and gen_repo/impl/prebuilt/unpol/mgga_x_edmgga.py -/
formula mgga_x_edmgga pol "t2 = 3 ** (0.1e1 / 0.3e1)
t3 = math.pi ** (0.1e1 / 0.3e1)
t5 = t2 / t3
t6 = r0 + r1
t7 = 0.1e1 / t6
t10 = 0.2e1 * r0 * t7 <= p_a_zeta_threshold
t11 = p_a_zeta_threshold - 0.1e1
t14 = 0.2e1 * r1 * t7 <= p_a_zeta_threshold
t15 = -t11
t17 = (r0 - r1) * t7
t18 = lax_cond(t14, t15, t17)
t19 = lax_cond(t10, t11, t18)
t20 = 0.1e1 + t19
t22 = p_a_zeta_threshold ** (0.1e1 / 0.3e1)
t23 = t22 * p_a_zeta_threshold
t24 = t20 ** (0.1e1 / 0.3e1)
t26 = lax_cond(t20 <= p_a_zeta_threshold, t23, t24 * t20)
t27 = t6 ** (0.1e1 / 0.3e1)
t29 = 4 ** (0.1e1 / 0.3e1)
t30 = t2 ** 2
t32 = math.pi ** 2
t33 = t32 ** (0.1e1 / 0.3e1)
t35 = t29 * t30 * t33 / 0.9e1
t36 = 0.1e1 - t35
t37 = r0 ** (0.1e1 / 0.3e1)
t38 = t37 ** 2
t40 = 0.1e1 / t38 / r0
t42 = r0 ** 2
t50 = 6 ** (0.1e1 / 0.3e1)
t52 = t33 ** 2
t53 = 0.1e1 / t52
t54 = (tau0 * t40 - s0 / t38 / t42 / 0.8e1 - l0 * t40 / 0.4e1) * t50 * t53
t55 = 0.5e1 / 0.9e1 * t54
t57 = 0.39111111111111111111e0 * t54
t61 = lax_cond(0.0e0 < 0.70414204545454545455e0 - t57, -0.14204545454545454545e-3, 0.704e0 - t57)
t64 = t61 ** 2
t70 = (0.1e1 - t55) ** 2
t73 = math.sqrt(0.1e1 + 0.495616e0 * t70)
t75 = lax_cond(-t55 < -0.14205545454545454545e5, -0.1e1 / t61 / 0.2e1 + 0.1e1 / t64 / t61 / 0.8e1, 0.704e0 - t57 + t73)
t78 = t36 / math.pi
t79 = math.sqrt(0.30e2)
t80 = math.sqrt(t75)
t82 = t36 ** 2
t86 = 0.1e1 / t82 / t36 * t32 * math.pi
t91 = t79 * (0.59400000000000000006e1 * t82 / t32 - 0.206514e-1)
t96 = math.asinh(0.12611295594149683617e-1 * t86 * t91 * (t75 - 0.1e1))
t107 = lax_cond(r0 <= p_a_dens_threshold, 0, -0.3e1 / 0.8e1 * t5 * t26 * t27 * (t35 + t36 * t75 / (0.1e1 + 0.44497190922573977694e0 * t78 * t79 * t80 * t96)))
t109 = lax_cond(t10, t15, -t17)
t110 = lax_cond(t14, t11, t109)
t111 = 0.1e1 + t110
t113 = t111 ** (0.1e1 / 0.3e1)
t115 = lax_cond(t111 <= p_a_zeta_threshold, t23, t113 * t111)
t117 = r1 ** (0.1e1 / 0.3e1)
t118 = t117 ** 2
t120 = 0.1e1 / t118 / r1
t122 = r1 ** 2
t131 = (tau1 * t120 - s2 / t118 / t122 / 0.8e1 - l1 * t120 / 0.4e1) * t50 * t53
t132 = 0.5e1 / 0.9e1 * t131
t134 = 0.39111111111111111111e0 * t131
t138 = lax_cond(0.0e0 < 0.70414204545454545455e0 - t134, -0.14204545454545454545e-3, 0.704e0 - t134)
t141 = t138 ** 2
t147 = (0.1e1 - t132) ** 2
t150 = math.sqrt(0.1e1 + 0.495616e0 * t147)
t152 = lax_cond(-t132 < -0.14205545454545454545e5, -0.1e1 / t138 / 0.2e1 + 0.1e1 / t141 / t138 / 0.8e1, 0.704e0 - t134 + t150)
t154 = math.sqrt(t152)
t160 = math.asinh(0.12611295594149683617e-1 * t86 * t91 * (t152 - 0.1e1))
t171 = lax_cond(r1 <= p_a_dens_threshold, 0, -0.3e1 / 0.8e1 * t5 * t115 * t27 * (t35 + t36 * t152 / (0.1e1 + 0.44497190922573977694e0 * t78 * t79 * t154 * t160)))
res = t107 + t171
" unpol "t3 = 3 ** (0.1e1 / 0.3e1)
t4 = math.pi ** (0.1e1 / 0.3e1)
t7 = 0.1e1 <= p_a_zeta_threshold
t8 = p_a_zeta_threshold - 0.1e1
t10 = lax_cond(t7, -t8, 0)
t11 = lax_cond(t7, t8, t10)
t12 = 0.1e1 + t11
t14 = p_a_zeta_threshold ** (0.1e1 / 0.3e1)
t16 = t12 ** (0.1e1 / 0.3e1)
t18 = lax_cond(t12 <= p_a_zeta_threshold, t14 * p_a_zeta_threshold, t16 * t12)
t19 = r0 ** (0.1e1 / 0.3e1)
t21 = 4 ** (0.1e1 / 0.3e1)
t22 = t3 ** 2
t24 = math.pi ** 2
t25 = t24 ** (0.1e1 / 0.3e1)
t27 = t21 * t22 * t25 / 0.9e1
t28 = 0.1e1 - t27
t29 = 2 ** (0.1e1 / 0.3e1)
t30 = t29 ** 2
t32 = t19 ** 2
t34 = 0.1e1 / t32 / r0
t37 = r0 ** 2
t46 = 6 ** (0.1e1 / 0.3e1)
t48 = t25 ** 2
t50 = (tau0 * t30 * t34 - s0 * t30 / t32 / t37 / 0.8e1 - l0 * t30 * t34 / 0.4e1) * t46 / t48
t51 = 0.5e1 / 0.9e1 * t50
t53 = 0.39111111111111111111e0 * t50
t57 = lax_cond(0.0e0 < 0.70414204545454545455e0 - t53, -0.14204545454545454545e-3, 0.704e0 - t53)
t60 = t57 ** 2
t66 = (0.1e1 - t51) ** 2
t69 = math.sqrt(0.1e1 + 0.495616e0 * t66)
t71 = lax_cond(-t51 < -0.14205545454545454545e5, -0.1e1 / t57 / 0.2e1 + 0.1e1 / t60 / t57 / 0.8e1, 0.704e0 - t53 + t69)
t75 = math.sqrt(0.30e2)
t76 = math.sqrt(t71)
t78 = t28 ** 2
t92 = math.asinh(0.12611295594149683617e-1 / t78 / t28 * t24 * math.pi * t75 * (0.59400000000000000006e1 * t78 / t24 - 0.206514e-1) * (t71 - 0.1e1))
t103 = lax_cond(r0 / 0.2e1 <= p_a_dens_threshold, 0, -0.3e1 / 0.8e1 * t3 / t4 * t18 * t19 * (t27 + t28 * t71 / (0.1e1 + 0.44497190922573977694e0 * t28 / math.pi * t75 * t76 * t92)))
res = 0.2e1 * t103
"

/- gen_repo/impl/prebuilt/pol/mgga_x_ft98.py and gen_repo/impl/prebuilt/unpol/mgga_x_ft98.py -/
formula mgga_x_ft98 pol "t2 = 3 ** (0.1e1 / 0.3e1)
t3 = math.pi ** (0.1e1 / 0.3e1)
t5 = t2 / t3
t6 = r0 + r1
t7 = 0.1e1 / t6
t10 = 0.2e1 * r0 * t7 <= p_a_zeta_threshold
t11 = p_a_zeta_threshold - 0.1e1
t14 = 0.2e1 * r1 * t7 <= p_a_zeta_threshold
t15 = -t11
t17 = (r0 - r1) * t7
t18 = lax_cond(t14, t15, t17)
t19 = lax_cond(t10, t11, t18)
t20 = 0.1e1 + t19
t22 = p_a_zeta_threshold ** (0.1e1 / 0.3e1)
t23 = t22 * p_a_zeta_threshold
t24 = t20 ** (0.1e1 / 0.3e1)
t26 = lax_cond(t20 <= p_a_zeta_threshold, t23, t24 * t20)
t27 = t6 ** (0.1e1 / 0.3e1)
t30 = r0 ** 2
t31 = r0 ** (0.1e1 / 0.3e1)
t32 = t31 ** 2
t34 = 0.1e1 / t32 / t30
t37 = math.sqrt(params_a_a1 * s0 * t34 + 0.1e1)
t42 = (params_a_b1 * s0 * t34 + 0.1e1) ** (0.1e1 / 0.4e1)
t43 = t42 ** 2
t49 = s0 * t34
t54 = (t49 - l0 / t32 / r0) ** 2
t57 = (0.1e1 + t49) ** 2
t62 = params_a_b2 ** 2
t64 = math.sqrt(t62 + 0.1e1)
t65 = t64 - params_a_b2
t66 = s0 ** 2
t67 = t30 ** 2
t71 = t66 / t31 / t67 / r0
t72 = l0 ** 2
t76 = t72 / t31 / t30 / r0
t77 = t71 - t76 - params_a_b2
t78 = DBL_EPSILON ** (0.1e1 / 0.4e1)
t79 = 0.1e1 / t78
t83 = 0.2e1 * params_a_b2
t89 = lax_cond(0.0e0 < t77, t77, -t77)
t91 = t77 ** 2
t93 = t91 ** 2
t97 = lax_cond(-t79 < t77, t77, -t79)
t98 = t97 ** 2
t100 = math.sqrt(0.1e1 + t98)
t103 = lax_cond(t89 < t78, 0.1e1 - t71 + t76 + params_a_b2 + t91 / 0.2e1 - t93 / 0.8e1, 0.1e1 / (t97 + t100))
t104 = lax_cond(t77 < -t79, -0.2e1 * t71 + 0.2e1 * t76 + t83 - 0.1e1 / t77 / 0.2e1, t103)
t107 = 2 ** (0.1e1 / 0.3e1)
t109 = (t107 - 0.1e1) * t65
t111 = t104 * t109 + 0.1e1
t112 = t111 ** 2
t119 = t2 ** 2
t121 = (0.1e1 / math.pi) ** (0.1e1 / 0.3e1)
t122 = t121 ** 2
t124 = 4 ** (0.1e1 / 0.3e1)
t125 = t119 * t122 * t124
t133 = math.sqrt((0.1e1 + params_a_a * t37 / t43 / t42 * s0 * t34 + params_a_b * (0.1e1 + params_a_a2 * t54 / t57) * (t104 * t65 + 0.1e1) / t112 / t111 * t54) / (0.1e1 + 0.81e2 / 0.4e1 * t125 * params_a_b * s0 * t34))
t137 = lax_cond(r0 <= p_a_dens_threshold, 0, -0.3e1 / 0.8e1 * t5 * t26 * t27 * t133)
t139 = lax_cond(t10, t15, -t17)
t140 = lax_cond(t14, t11, t139)
t141 = 0.1e1 + t140
t143 = t141 ** (0.1e1 / 0.3e1)
t145 = lax_cond(t141 <= p_a_zeta_threshold, t23, t143 * t141)
t148 = r1 ** 2
t149 = r1 ** (0.1e1 / 0.3e1)
t150 = t149 ** 2
t152 = 0.1e1 / t150 / t148
t155 = math.sqrt(s2 * t152 * params_a_a1 + 0.1e1)
t160 = (s2 * t152 * params_a_b1 + 0.1e1) ** (0.1e1 / 0.4e1)
t161 = t160 ** 2
t167 = s2 * t152
t172 = (t167 - l1 / t150 / r1) ** 2
t175 = (0.1e1 + t167) ** 2
t180 = s2 ** 2
t181 = t148 ** 2
t185 = t180 / t149 / t181 / r1
t186 = l1 ** 2
t190 = t186 / t149 / t148 / r1
t191 = t185 - t190 - params_a_b2
t200 = lax_cond(0.0e0 < t191, t191, -t191)
t202 = t191 ** 2
t204 = t202 ** 2
t208 = lax_cond(-t79 < t191, t191, -t79)
t209 = t208 ** 2
t211 = math.sqrt(0.1e1 + t209)
t214 = lax_cond(t200 < t78, 0.1e1 - t185 + t190 + params_a_b2 + t202 / 0.2e1 - t204 / 0.8e1, 0.1e1 / (t208 + t211))
t215 = lax_cond(t191 < -t79, -0.2e1 * t185 + 0.2e1 * t190 + t83 - 0.1e1 / t191 / 0.2e1, t214)
t219 = t109 * t215 + 0.1e1
t220 = t219 ** 2
t234 = math.sqrt((0.1e1 + params_a_a * t155 / t161 / t160 * s2 * t152 + params_a_b * (0.1e1 + params_a_a2 * t172 / t175) * (t215 * t65 + 0.1e1) / t220 / t219 * t172) / (0.1e1 + 0.81e2 / 0.4e1 * t125 * params_a_b * s2 * t152))
t238 = lax_cond(r1 <= p_a_dens_threshold, 0, -0.3e1 / 0.8e1 * t5 * t145 * t27 * t234)
res = t137 + t238
" unpol "t3 = 3 ** (0.1e1 / 0.3e1)
t4 = math.pi ** (0.1e1 / 0.3e1)
t7 = 0.1e1 <= p_a_zeta_threshold
t8 = p_a_zeta_threshold - 0.1e1
t10 = lax_cond(t7, -t8, 0)
t11 = lax_cond(t7, t8, t10)
t12 = 0.1e1 + t11
t14 = p_a_zeta_threshold ** (0.1e1 / 0.3e1)
t16 = t12 ** (0.1e1 / 0.3e1)
t18 = lax_cond(t12 <= p_a_zeta_threshold, t14 * p_a_zeta_threshold, t16 * t12)
t19 = r0 ** (0.1e1 / 0.3e1)
t22 = 2 ** (0.1e1 / 0.3e1)
t23 = t22 ** 2
t24 = r0 ** 2
t25 = t19 ** 2
t27 = 0.1e1 / t25 / t24
t28 = t23 * t27
t31 = math.sqrt(params_a_a1 * s0 * t28 + 0.1e1)
t36 = (params_a_b1 * s0 * t28 + 0.1e1) ** (0.1e1 / 0.4e1)
t37 = t36 ** 2
t42 = s0 * t23 * t27
t49 = (t42 - l0 * t23 / t25 / r0) ** 2
t52 = (0.1e1 + t42) ** 2
t57 = params_a_b2 ** 2
t59 = math.sqrt(t57 + 0.1e1)
t60 = t59 - params_a_b2
t61 = s0 ** 2
t63 = t24 ** 2
t67 = t61 * t22 / t19 / t63 / r0
t68 = 0.2e1 * t67
t69 = l0 ** 2
t74 = t69 * t22 / t19 / t24 / r0
t75 = 0.2e1 * t74
t76 = t68 - t75 - params_a_b2
t77 = DBL_EPSILON ** (0.1e1 / 0.4e1)
t78 = 0.1e1 / t77
t88 = lax_cond(0.0e0 < t76, t76, -t76)
t90 = t76 ** 2
t92 = t90 ** 2
t96 = lax_cond(-t78 < t76, t76, -t78)
t97 = t96 ** 2
t99 = math.sqrt(0.1e1 + t97)
t102 = lax_cond(t88 < t77, 0.1e1 - t68 + t75 + params_a_b2 + t90 / 0.2e1 - t92 / 0.8e1, 0.1e1 / (t96 + t99))
t103 = lax_cond(t76 < -t78, -0.4e1 * t67 + 0.4e1 * t74 + 0.2e1 * params_a_b2 - 0.1e1 / t76 / 0.2e1, t102)
t109 = 0.1e1 + (t22 - 0.1e1) * t60 * t103
t110 = t109 ** 2
t117 = t3 ** 2
t119 = (0.1e1 / math.pi) ** (0.1e1 / 0.3e1)
t120 = t119 ** 2
t122 = 4 ** (0.1e1 / 0.3e1)
t131 = math.sqrt((0.1e1 + params_a_a * t31 / t37 / t36 * t42 + params_a_b * (0.1e1 + params_a_a2 * t49 / t52) * (t60 * t103 + 0.1e1) / t110 / t109 * t49) / (0.1e1 + 0.81e2 / 0.4e1 * t117 * t120 * t122 * params_a_b * s0 * t28))
t135 = lax_cond(r0 / 0.2e1 <= p_a_dens_threshold, 0, -0.3e1 / 0.8e1 * t3 / t4 * t18 * t19 * t131)
res = 0.2e1 * t135
"

/- gen_repo/impl/prebuilt/pol/mgga_x_gdme.py and gen_repo/impl/prebuilt/unpol/mgga_x_gdme.py -/
formula mgga_x_gdme pol "t2 = 3 ** (0.1e1 / 0.3e1)
t3 = math.pi ** (0.1e1 / 0.3e1)
t5 = t2 / t3
t6 = r0 + r1
t7 = 0.1e1 / t6
t10 = 0.2e1 * r0 * t7 <= p_a_zeta_threshold
t11 = p_a_zeta_threshold - 0.1e1
t14 = 0.2e1 * r1 * t7 <= p_a_zeta_threshold
t15 = -t11
t17 = (r0 - r1) * t7
t18 = lax_cond(t14, t15, t17)
t19 = lax_cond(t10, t11, t18)
t20 = 0.1e1 + t19
t22 = p_a_zeta_threshold ** (0.1e1 / 0.3e1)
t23 = t22 * p_a_zeta_threshold
t24 = t20 ** (0.1e1 / 0.3e1)
t26 = lax_cond(t20 <= p_a_zeta_threshold, t23, t24 * t20)
t27 = t6 ** (0.1e1 / 0.3e1)
t31 = 2 ** (0.1e1 / 0.3e1)
t34 = (0.1e1 / math.pi) ** (0.1e1 / 0.3e1)
t35 = 0.1e1 / t34
t36 = 4 ** (0.1e1 / 0.3e1)
t38 = math.pi ** 2
t39 = t38 ** (0.1e1 / 0.3e1)
t40 = t39 ** 2
t44 = 0.2e1 / 0.9e1 * (params_a_AA + 0.3e1 / 0.5e1 * params_a_BB) * t31 * t35 * t36 / t40
t46 = params_a_BB * t2 * t35
t47 = t31 ** 2
t48 = t36 * t47
t50 = 0.1e1 / t39 / t38
t51 = params_a_a ** 2
t52 = t51 - params_a_a + 0.1e1 / 0.2e1
t54 = r0 ** (0.1e1 / 0.3e1)
t55 = t54 ** 2
t57 = 0.1e1 / t55 / r0
t70 = lax_cond(r0 <= p_a_dens_threshold, 0, -0.3e1 / 0.8e1 * t5 * t26 * t27 * (t44 + t46 * t48 * t50 * (t52 * l0 * t57 - 0.2e1 * tau0 * t57) / 0.27e2))
t72 = lax_cond(t10, t15, -t17)
t73 = lax_cond(t14, t11, t72)
t74 = 0.1e1 + t73
t76 = t74 ** (0.1e1 / 0.3e1)
t78 = lax_cond(t74 <= p_a_zeta_threshold, t23, t76 * t74)
t81 = r1 ** (0.1e1 / 0.3e1)
t82 = t81 ** 2
t84 = 0.1e1 / t82 / r1
t97 = lax_cond(r1 <= p_a_dens_threshold, 0, -0.3e1 / 0.8e1 * t5 * t78 * t27 * (t44 + t46 * t48 * t50 * (t52 * l1 * t84 - 0.2e1 * tau1 * t84) / 0.27e2))
res = t70 + t97
" unpol "t3 = 3 ** (0.1e1 / 0.3e1)
t4 = math.pi ** (0.1e1 / 0.3e1)
t7 = 0.1e1 <= p_a_zeta_threshold
t8 = p_a_zeta_threshold - 0.1e1
t10 = lax_cond(t7, -t8, 0)
t11 = lax_cond(t7, t8, t10)
t12 = 0.1e1 + t11
t14 = p_a_zeta_threshold ** (0.1e1 / 0.3e1)
t16 = t12 ** (0.1e1 / 0.3e1)
t18 = lax_cond(t12 <= p_a_zeta_threshold, t14 * p_a_zeta_threshold, t16 * t12)
t19 = r0 ** (0.1e1 / 0.3e1)
t23 = 2 ** (0.1e1 / 0.3e1)
t26 = (0.1e1 / math.pi) ** (0.1e1 / 0.3e1)
t27 = 0.1e1 / t26
t28 = 4 ** (0.1e1 / 0.3e1)
t30 = math.pi ** 2
t31 = t30 ** (0.1e1 / 0.3e1)
t32 = t31 ** 2
t39 = t23 ** 2
t43 = params_a_a ** 2
t46 = t19 ** 2
t48 = 0.1e1 / t46 / r0
t63 = lax_cond(r0 / 0.2e1 <= p_a_dens_threshold, 0, -0.3e1 / 0.8e1 * t3 / t4 * t18 * t19 * (0.2e1 / 0.9e1 * (params_a_AA + 0.3e1 / 0.5e1 * params_a_BB) * t23 * t27 * t28 / t32 + params_a_BB * t3 * t27 * t28 * t39 / t31 / t30 * ((t43 - params_a_a + 0.1e1 / 0.2e1) * l0 * t39 * t48 - 0.2e1 * tau0 * t39 * t48) / 0.27e2))
res = 0.2e1 * t63
"

/- gen_repo/impl/prebuilt/pol/mgga_x_gvt4.py and gen_repo/impl/prebuilt/unpol/mgga_x_gvt4.py -/
formula mgga_x_gvt4 pol "t2 = math.pi ** (0.1e1 / 0.3e1)
t3 = 0.1e1 / t2
t4 = r0 + r1
t5 = 0.1e1 / t4
t8 = 0.2e1 * r0 * t5 <= p_a_zeta_threshold
t9 = p_a_zeta_threshold - 0.1e1
t12 = 0.2e1 * r1 * t5 <= p_a_zeta_threshold
t13 = -t9
t15 = (r0 - r1) * t5
t16 = lax_cond(t12, t13, t15)
t17 = lax_cond(t8, t9, t16)
t18 = 0.1e1 + t17
t20 = p_a_zeta_threshold ** (0.1e1 / 0.3e1)
t21 = t20 * p_a_zeta_threshold
t22 = t18 ** (0.1e1 / 0.3e1)
t24 = lax_cond(t18 <= p_a_zeta_threshold, t21, t22 * t18)
t26 = t4 ** (0.1e1 / 0.3e1)
t28 = r0 ** 2
t29 = r0 ** (0.1e1 / 0.3e1)
t30 = t29 ** 2
t33 = s0 / t30 / t28
t37 = tau0 / t30 / r0
t39 = 6 ** (0.1e1 / 0.3e1)
t40 = t39 ** 2
t41 = math.pi ** 2
t42 = t41 ** (0.1e1 / 0.3e1)
t43 = t42 ** 2
t44 = t40 * t43
t45 = 0.11203560000000000000e-2 * t44
t46 = 0.1e1 + 0.186726e-2 * t33 + 0.373452e-2 * t37 - t45
t51 = 0.37501956000000000000e-2 * t44
t53 = t46 ** 2
t56 = s0 ** 2
t57 = t28 ** 2
t64 = 0.3e1 / 0.5e1 * t44
t65 = 0.2e1 * t37 - t64
t68 = t65 ** 2
t76 = (0.1e1 / math.pi) ** (0.1e1 / 0.3e1)
t77 = 0.1e1 / t76
t79 = 4 ** (0.1e1 / 0.3e1)
t83 = lax_cond(r0 <= p_a_dens_threshold, 0, t3 * t24 * t26 * (-0.9800683e0 / t46 + (-0.3556788e-2 * t33 + 0.12500652e-1 * t37 - t51) / t53 + (-0.2354518e-4 * t56 / t29 / t57 / r0 - 0.1282732e-3 * t33 * t65 + 0.3574822e-3 * t68) / t53 / t46) * t77 * t79 / 0.4e1)
t85 = lax_cond(t8, t13, -t15)
t86 = lax_cond(t12, t9, t85)
t87 = 0.1e1 + t86
t89 = t87 ** (0.1e1 / 0.3e1)
t91 = lax_cond(t87 <= p_a_zeta_threshold, t21, t89 * t87)
t94 = r1 ** 2
t95 = r1 ** (0.1e1 / 0.3e1)
t96 = t95 ** 2
t99 = s2 / t96 / t94
t103 = tau1 / t96 / r1
t105 = 0.1e1 + 0.186726e-2 * t99 + 0.373452e-2 * t103 - t45
t111 = t105 ** 2
t114 = s2 ** 2
t115 = t94 ** 2
t122 = 0.2e1 * t103 - t64
t125 = t122 ** 2
t136 = lax_cond(r1 <= p_a_dens_threshold, 0, t3 * t91 * t26 * (-0.9800683e0 / t105 + (-0.3556788e-2 * t99 + 0.12500652e-1 * t103 - t51) / t111 + (-0.2354518e-4 * t114 / t95 / t115 / r1 - 0.1282732e-3 * t99 * t122 + 0.3574822e-3 * t125) / t111 / t105) * t77 * t79 / 0.4e1)
res = t83 + t136
" unpol "t3 = math.pi ** (0.1e1 / 0.3e1)
t5 = 0.1e1 <= p_a_zeta_threshold
t6 = p_a_zeta_threshold - 0.1e1
t8 = lax_cond(t5, -t6, 0)
t9 = lax_cond(t5, t6, t8)
t10 = 0.1e1 + t9
t12 = p_a_zeta_threshold ** (0.1e1 / 0.3e1)
t14 = t10 ** (0.1e1 / 0.3e1)
t16 = lax_cond(t10 <= p_a_zeta_threshold, t12 * p_a_zeta_threshold, t14 * t10)
t18 = r0 ** (0.1e1 / 0.3e1)
t20 = 2 ** (0.1e1 / 0.3e1)
t21 = t20 ** 2
t22 = s0 * t21
t23 = r0 ** 2
t24 = t18 ** 2
t26 = 0.1e1 / t24 / t23
t27 = t22 * t26
t32 = tau0 * t21 / t24 / r0
t34 = 6 ** (0.1e1 / 0.3e1)
t35 = t34 ** 2
t36 = math.pi ** 2
t37 = t36 ** (0.1e1 / 0.3e1)
t38 = t37 ** 2
t39 = t35 * t38
t41 = 0.1e1 + 0.186726e-2 * t27 + 0.373452e-2 * t32 - 0.11203560000000000000e-2 * t39
t48 = t41 ** 2
t51 = s0 ** 2
t53 = t23 ** 2
t61 = 0.2e1 * t32 - 0.3e1 / 0.5e1 * t39
t65 = t61 ** 2
t73 = (0.1e1 / math.pi) ** (0.1e1 / 0.3e1)
t76 = 4 ** (0.1e1 / 0.3e1)
t80 = lax_cond(r0 / 0.2e1 <= p_a_dens_threshold, 0, 0.1e1 / t3 * t16 * t18 * (-0.9800683e0 / t41 + (-0.3556788e-2 * t27 + 0.12500652e-1 * t32 - 0.37501956000000000000e-2 * t39) / t48 + (-0.4709036e-4 * t51 * t20 / t18 / t53 / r0 - 0.1282732e-3 * t22 * t26 * t61 + 0.3574822e-3 * t65) / t48 / t41) / t73 * t76 / 0.4e1)
res = 0.2e1 * t80
"

/- gen_repo/impl/prebuilt/pol/mgga_x_gx.py and gen_repo/impl/prebuilt/unpol/mgga_x_gx.py -/
formula mgga_x_gx pol "t2 = 3 ** (0.1e1 / 0.3e1)
t3 = math.pi ** (0.1e1 / 0.3e1)
t5 = t2 / t3
t6 = r0 + r1
t7 = 0.1e1 / t6
t10 = 0.2e1 * r0 * t7 <= p_a_zeta_threshold
t11 = p_a_zeta_threshold - 0.1e1
t14 = 0.2e1 * r1 * t7 <= p_a_zeta_threshold
t15 = -t11
t17 = (r0 - r1) * t7
t18 = lax_cond(t14, t15, t17)
t19 = lax_cond(t10, t11, t18)
t20 = 0.1e1 + t19
t22 = p_a_zeta_threshold ** (0.1e1 / 0.3e1)
t23 = t22 * p_a_zeta_threshold
t24 = t20 ** (0.1e1 / 0.3e1)
t26 = lax_cond(t20 <= p_a_zeta_threshold, t23, t24 * t20)
t27 = t6 ** (0.1e1 / 0.3e1)
t29 = 2 ** (0.1e1 / 0.3e1)
t30 = t2 ** 2
t32 = 4 ** (0.1e1 / 0.3e1)
t34 = 0.8e1 / 0.27e2 * t29 * t30 * t32
t35 = r0 ** (0.1e1 / 0.3e1)
t36 = t35 ** 2
t40 = r0 ** 2
t45 = tau0 / t36 / r0 - s0 / t36 / t40 / 0.8e1
t46 = 6 ** (0.1e1 / 0.3e1)
t48 = math.pi ** 2
t49 = t48 ** (0.1e1 / 0.3e1)
t50 = t49 ** 2
t51 = 0.1e1 / t50
t52 = t45 * t46 * t51
t54 = t46 * t51
t58 = params_a_c0 + params_a_c1 - 0.1e1
t65 = 0.1e1 - t34
t70 = 0.5e1 / 0.9e1 * t52
t71 = 0.1e1 - t70
t72 = Heaviside(t71)
t74 = 0.1e1 - params_a_alphainf
t81 = Heaviside(-t71)
t87 = lax_cond(r0 <= p_a_dens_threshold, 0, -0.3e1 / 0.8e1 * t5 * t26 * t27 * ((t34 + 0.5e1 / 0.9e1 * t52 * (params_a_c0 + 0.5e1 / 0.9e1 * params_a_c1 * t45 * t54) / (0.10e1 + 0.5e1 / 0.9e1 * t58 * t45 * t54) * t65) * t72 + (0.1e1 + t74 * t71 / (0.1e1 + t70)) * t81))
t89 = lax_cond(t10, t15, -t17)
t90 = lax_cond(t14, t11, t89)
t91 = 0.1e1 + t90
t93 = t91 ** (0.1e1 / 0.3e1)
t95 = lax_cond(t91 <= p_a_zeta_threshold, t23, t93 * t91)
t97 = r1 ** (0.1e1 / 0.3e1)
t98 = t97 ** 2
t102 = r1 ** 2
t107 = tau1 / t98 / r1 - s2 / t98 / t102 / 0.8e1
t109 = t107 * t46 * t51
t124 = 0.5e1 / 0.9e1 * t109
t125 = 0.1e1 - t124
t126 = Heaviside(t125)
t134 = Heaviside(-t125)
t140 = lax_cond(r1 <= p_a_dens_threshold, 0, -0.3e1 / 0.8e1 * t5 * t95 * t27 * ((t34 + 0.5e1 / 0.9e1 * t109 * (params_a_c0 + 0.5e1 / 0.9e1 * params_a_c1 * t107 * t54) / (0.10e1 + 0.5e1 / 0.9e1 * t58 * t107 * t54) * t65) * t126 + (0.1e1 + t74 * t125 / (0.1e1 + t124)) * t134))
res = t87 + t140
" unpol "t3 = 3 ** (0.1e1 / 0.3e1)
t4 = math.pi ** (0.1e1 / 0.3e1)
t7 = 0.1e1 <= p_a_zeta_threshold
t8 = p_a_zeta_threshold - 0.1e1
t10 = lax_cond(t7, -t8, 0)
t11 = lax_cond(t7, t8, t10)
t12 = 0.1e1 + t11
t14 = p_a_zeta_threshold ** (0.1e1 / 0.3e1)
t16 = t12 ** (0.1e1 / 0.3e1)
t18 = lax_cond(t12 <= p_a_zeta_threshold, t14 * p_a_zeta_threshold, t16 * t12)
t19 = r0 ** (0.1e1 / 0.3e1)
t21 = 2 ** (0.1e1 / 0.3e1)
t22 = t3 ** 2
t24 = 4 ** (0.1e1 / 0.3e1)
t26 = 0.8e1 / 0.27e2 * t21 * t22 * t24
t27 = t21 ** 2
t29 = t19 ** 2
t34 = r0 ** 2
t39 = tau0 * t27 / t29 / r0 - s0 * t27 / t29 / t34 / 0.8e1
t40 = 6 ** (0.1e1 / 0.3e1)
t42 = math.pi ** 2
t43 = t42 ** (0.1e1 / 0.3e1)
t44 = t43 ** 2
t45 = 0.1e1 / t44
t46 = t39 * t40 * t45
t48 = t40 * t45
t64 = 0.5e1 / 0.9e1 * t46
t65 = 0.1e1 - t64
t66 = Heaviside(t65)
t75 = Heaviside(-t65)
t81 = lax_cond(r0 / 0.2e1 <= p_a_dens_threshold, 0, -0.3e1 / 0.8e1 * t3 / t4 * t18 * t19 * ((t26 + 0.5e1 / 0.9e1 * t46 * (params_a_c0 + 0.5e1 / 0.9e1 * params_a_c1 * t39 * t48) / (0.10e1 + 0.5e1 / 0.9e1 * (params_a_c0 + params_a_c1 - 0.1e1) * t39 * t48) * (0.1e1 - t26)) * t66 + (0.1e1 + (0.1e1 - params_a_alphainf) * t65 / (0.1e1 + t64)) * t75))
res = 0.2e1 * t81
"

/- gen_repo/impl/prebuilt/pol/mgga_x_jk.py and gen_repo/impl/prebuilt/unpol/mgga_x_jk.py -/
formula mgga_x_jk pol "t2 = 3 ** (0.1e1 / 0.3e1)
t3 = math.pi ** (0.1e1 / 0.3e1)
t5 = t2 / t3
t6 = r0 + r1
t7 = 0.1e1 / t6
t10 = 0.2e1 * r0 * t7 <= p_a_zeta_threshold
t11 = p_a_zeta_threshold - 0.1e1
t14 = 0.2e1 * r1 * t7 <= p_a_zeta_threshold
t15 = -t11
t17 = (r0 - r1) * t7
t18 = lax_cond(t14, t15, t17)
t19 = lax_cond(t10, t11, t18)
t20 = 0.1e1 + t19
t22 = p_a_zeta_threshold ** (0.1e1 / 0.3e1)
t23 = t22 * p_a_zeta_threshold
t24 = t20 ** (0.1e1 / 0.3e1)
t26 = lax_cond(t20 <= p_a_zeta_threshold, t23, t24 * t20)
t27 = t6 ** (0.1e1 / 0.3e1)
t29 = t2 ** 2
t32 = (0.1e1 / math.pi) ** (0.1e1 / 0.3e1)
t34 = 4 ** (0.1e1 / 0.3e1)
t36 = params_a_beta * t29 / t32 * t34
t37 = r0 ** 2
t38 = r0 ** (0.1e1 / 0.3e1)
t39 = t38 ** 2
t40 = t39 * t37
t42 = s0 / t40
t43 = params_a_gamma * params_a_beta
t44 = math.sqrt(s0)
t47 = t44 / t38 / r0
t48 = math.asinh(t47)
t71 = lax_cond(r0 <= p_a_dens_threshold, 0, -0.3e1 / 0.8e1 * t5 * t26 * t27 * (0.1e1 + 0.2e1 / 0.9e1 * t36 * t42 / (t43 * t47 * t48 + 0.1e1) / (0.1e1 + 0.2e1 * (t42 - l0 / t39 / r0) / s0 * t40)))
t73 = lax_cond(t10, t15, -t17)
t74 = lax_cond(t14, t11, t73)
t75 = 0.1e1 + t74
t77 = t75 ** (0.1e1 / 0.3e1)
t79 = lax_cond(t75 <= p_a_zeta_threshold, t23, t77 * t75)
t81 = r1 ** 2
t82 = r1 ** (0.1e1 / 0.3e1)
t83 = t82 ** 2
t84 = t83 * t81
t86 = s2 / t84
t87 = math.sqrt(s2)
t90 = t87 / t82 / r1
t91 = math.asinh(t90)
t114 = lax_cond(r1 <= p_a_dens_threshold, 0, -0.3e1 / 0.8e1 * t5 * t79 * t27 * (0.1e1 + 0.2e1 / 0.9e1 * t36 * t86 / (t43 * t90 * t91 + 0.1e1) / (0.1e1 + 0.2e1 * (t86 - l1 / t83 / r1) / s2 * t84)))
res = t71 + t114
" unpol "t3 = 3 ** (0.1e1 / 0.3e1)
t4 = math.pi ** (0.1e1 / 0.3e1)
t7 = 0.1e1 <= p_a_zeta_threshold
t8 = p_a_zeta_threshold - 0.1e1
t10 = lax_cond(t7, -t8, 0)
t11 = lax_cond(t7, t8, t10)
t12 = 0.1e1 + t11
t14 = p_a_zeta_threshold ** (0.1e1 / 0.3e1)
t16 = t12 ** (0.1e1 / 0.3e1)
t18 = lax_cond(t12 <= p_a_zeta_threshold, t14 * p_a_zeta_threshold, t16 * t12)
t19 = r0 ** (0.1e1 / 0.3e1)
t21 = t3 ** 2
t24 = (0.1e1 / math.pi) ** (0.1e1 / 0.3e1)
t26 = 4 ** (0.1e1 / 0.3e1)
t29 = 2 ** (0.1e1 / 0.3e1)
t30 = t29 ** 2
t31 = s0 * t30
t32 = r0 ** 2
t33 = t19 ** 2
t34 = t33 * t32
t35 = 0.1e1 / t34
t37 = math.sqrt(s0)
t40 = 0.1e1 / t19 / r0
t44 = math.asinh(t37 * t29 * t40)
t70 = lax_cond(r0 / 0.2e1 <= p_a_dens_threshold, 0, -0.3e1 / 0.8e1 * t3 / t4 * t18 * t19 * (0.1e1 + 0.2e1 / 0.9e1 * params_a_beta * t21 / t24 * t26 * t31 * t35 / (params_a_gamma * params_a_beta * t37 * t29 * t40 * t44 + 0.1e1) / (0.1e1 + (t31 * t35 - l0 * t30 / t33 / r0) / s0 * t29 * t34)))
res = 0.2e1 * t70
"

/- gen_repo/impl/prebuilt/pol/mgga_x_lta.py and gen_repo/impl/prebuilt/unpol/mgga_x_lta.py -/
formula mgga_x_lta pol "t2 = 3 ** (0.1e1 / 0.3e1)
t3 = math.pi ** (0.1e1 / 0.3e1)
t5 = t2 / t3
t6 = r0 + r1
t7 = 0.1e1 / t6
t10 = 0.2e1 * r0 * t7 <= p_a_zeta_threshold
t11 = p_a_zeta_threshold - 0.1e1
t14 = 0.2e1 * r1 * t7 <= p_a_zeta_threshold
t15 = -t11
t17 = (r0 - r1) * t7
t18 = lax_cond(t14, t15, t17)
t19 = lax_cond(t10, t11, t18)
t20 = 0.1e1 + t19
t22 = p_a_zeta_threshold ** (0.1e1 / 0.3e1)
t23 = t22 * p_a_zeta_threshold
t24 = t20 ** (0.1e1 / 0.3e1)
t26 = lax_cond(t20 <= p_a_zeta_threshold, t23, t24 * t20)
t27 = t6 ** (0.1e1 / 0.3e1)
t29 = r0 ** (0.1e1 / 0.3e1)
t30 = t29 ** 2
t34 = 6 ** (0.1e1 / 0.3e1)
t35 = math.pi ** 2
t36 = t35 ** (0.1e1 / 0.3e1)
t37 = t36 ** 2
t39 = t34 / t37
t42 = 0.4e1 / 0.5e1 * params_a_ltafrac
t43 = (0.5e1 / 0.9e1 * tau0 / t30 / r0 * t39) ** t42
t47 = lax_cond(r0 <= p_a_dens_threshold, 0, -0.3e1 / 0.8e1 * t5 * t26 * t27 * t43)
t49 = lax_cond(t10, t15, -t17)
t50 = lax_cond(t14, t11, t49)
t51 = 0.1e1 + t50
t53 = t51 ** (0.1e1 / 0.3e1)
t55 = lax_cond(t51 <= p_a_zeta_threshold, t23, t53 * t51)
t57 = r1 ** (0.1e1 / 0.3e1)
t58 = t57 ** 2
t64 = (0.5e1 / 0.9e1 * tau1 / t58 / r1 * t39) ** t42
t68 = lax_cond(r1 <= p_a_dens_threshold, 0, -0.3e1 / 0.8e1 * t5 * t55 * t27 * t64)
res = t47 + t68
" unpol "t3 = 3 ** (0.1e1 / 0.3e1)
t4 = math.pi ** (0.1e1 / 0.3e1)
t7 = 0.1e1 <= p_a_zeta_threshold
t8 = p_a_zeta_threshold - 0.1e1
t10 = lax_cond(t7, -t8, 0)
t11 = lax_cond(t7, t8, t10)
t12 = 0.1e1 + t11
t14 = p_a_zeta_threshold ** (0.1e1 / 0.3e1)
t16 = t12 ** (0.1e1 / 0.3e1)
t18 = lax_cond(t12 <= p_a_zeta_threshold, t14 * p_a_zeta_threshold, t16 * t12)
t19 = r0 ** (0.1e1 / 0.3e1)
t21 = 2 ** (0.1e1 / 0.3e1)
t22 = t21 ** 2
t24 = t19 ** 2
t27 = 6 ** (0.1e1 / 0.3e1)
t29 = math.pi ** 2
t30 = t29 ** (0.1e1 / 0.3e1)
t31 = t30 ** 2
t37 = (0.5e1 / 0.9e1 * tau0 * t22 / t24 / r0 * t27 / t31) ** (0.4e1 / 0.5e1 * params_a_ltafrac)
t41 = lax_cond(r0 / 0.2e1 <= p_a_dens_threshold, 0, -0.3e1 / 0.8e1 * t3 / t4 * t18 * t19 * t37)
res = 0.2e1 * t41
"

/- gen_repo/impl/prebuilt/pol/mgga_x_m06l.py and gen_repo/impl/prebuilt/unpol/mgga_x_m06l.py -/
formula mgga_x_m06l pol "t2 = 3 ** (0.1e1 / 0.3e1)
t3 = math.pi ** (0.1e1 / 0.3e1)
t5 = t2 / t3
t6 = r0 + r1
t7 = 0.1e1 / t6
t10 = 0.2e1 * r0 * t7 <= p_a_zeta_threshold
t11 = p_a_zeta_threshold - 0.1e1
t14 = 0.2e1 * r1 * t7 <= p_a_zeta_threshold
t15 = -t11
t17 = (r0 - r1) * t7
t18 = lax_cond(t14, t15, t17)
t19 = lax_cond(t10, t11, t18)
t20 = 0.1e1 + t19
t22 = p_a_zeta_threshold ** (0.1e1 / 0.3e1)
t23 = t22 * p_a_zeta_threshold
t24 = t20 ** (0.1e1 / 0.3e1)
t26 = lax_cond(t20 <= p_a_zeta_threshold, t23, t24 * t20)
t27 = t6 ** (0.1e1 / 0.3e1)
t29 = 6 ** (0.1e1 / 0.3e1)
t30 = math.pi ** 2
t31 = t30 ** (0.1e1 / 0.3e1)
t32 = t31 ** 2
t34 = t29 / t32
t35 = r0 ** 2
t36 = r0 ** (0.1e1 / 0.3e1)
t37 = t36 ** 2
t39 = 0.1e1 / t37 / t35
t40 = s0 * t39
t47 = params_a_a[0]
t48 = params_a_a[1]
t49 = t29 ** 2
t50 = t49 * t32
t51 = 0.3e1 / 0.10e2 * t50
t54 = tau0 / t37 / r0
t55 = t51 - t54
t57 = t51 + t54
t60 = params_a_a[2]
t61 = t55 ** 2
t63 = t57 ** 2
t66 = params_a_a[3]
t67 = t61 * t55
t69 = t63 * t57
t72 = params_a_a[4]
t73 = t61 ** 2
t75 = t63 ** 2
t78 = params_a_a[5]
t84 = params_a_a[6]
t90 = params_a_a[7]
t96 = params_a_a[8]
t97 = t73 ** 2
t99 = t75 ** 2
t102 = params_a_a[9]
t108 = params_a_a[10]
t114 = params_a_a[11]
t120 = t47 + t48 * t55 / t57 + t60 * t61 / t63 + t66 * t67 / t69 + t72 * t73 / t75 + t78 * t73 * t55 / t75 / t57 + t84 * t73 * t61 / t75 / t63 + t90 * t73 * t67 / t75 / t69 + t96 * t97 / t99 + t102 * t97 * t55 / t99 / t57 + t108 * t97 * t61 / t99 / t63 + t114 * t97 * t67 / t99 / t69
t122 = params_a_d[0]
t125 = 0.11203560000000000000e-2 * t50
t126 = 0.1e1 + 0.186726e-2 * t40 + 0.373452e-2 * t54 - t125
t129 = params_a_d[1]
t132 = params_a_d[2]
t134 = 0.3e1 / 0.5e1 * t50
t135 = 0.2e1 * t54 - t134
t138 = t126 ** 2
t141 = params_a_d[3]
t142 = s0 ** 2
t144 = t35 ** 2
t149 = params_a_d[4]
t153 = params_a_d[5]
t154 = t135 ** 2
t164 = lax_cond(r0 <= p_a_dens_threshold, 0, -0.3e1 / 0.8e1 * t5 * t26 * t27 * ((0.18040e1 - 0.64641600e0 / (0.8040e0 + 0.91464571985215458336e-2 * t34 * t40)) * t120 + t122 / t126 + (t129 * s0 * t39 + t132 * t135) / t138 + (t141 * t142 / t36 / t144 / r0 + t149 * s0 * t39 * t135 + t153 * t154) / t138 / t126))
t166 = lax_cond(t10, t15, -t17)
t167 = lax_cond(t14, t11, t166)
t168 = 0.1e1 + t167
t170 = t168 ** (0.1e1 / 0.3e1)
t172 = lax_cond(t168 <= p_a_zeta_threshold, t23, t170 * t168)
t174 = r1 ** 2
t175 = r1 ** (0.1e1 / 0.3e1)
t176 = t175 ** 2
t178 = 0.1e1 / t176 / t174
t179 = s2 * t178
t188 = tau1 / t176 / r1
t189 = t51 - t188
t191 = t51 + t188
t194 = t189 ** 2
t196 = t191 ** 2
t199 = t194 * t189
t201 = t196 * t191
t204 = t194 ** 2
t206 = t196 ** 2
t224 = t204 ** 2
t226 = t206 ** 2
t244 = t47 + t48 * t189 / t191 + t60 * t194 / t196 + t66 * t199 / t201 + t72 * t204 / t206 + t78 * t204 * t189 / t206 / t191 + t84 * t204 * t194 / t206 / t196 + t90 * t204 * t199 / t206 / t201 + t96 * t224 / t226 + t102 * t224 * t189 / t226 / t191 + t108 * t224 * t194 / t226 / t196 + t114 * t224 * t199 / t226 / t201
t248 = 0.1e1 + 0.186726e-2 * t179 + 0.373452e-2 * t188 - t125
t254 = 0.2e1 * t188 - t134
t257 = t248 ** 2
t260 = s2 ** 2
t262 = t174 ** 2
t270 = t254 ** 2
t280 = lax_cond(r1 <= p_a_dens_threshold, 0, -0.3e1 / 0.8e1 * t5 * t172 * t27 * ((0.18040e1 - 0.64641600e0 / (0.8040e0 + 0.91464571985215458336e-2 * t34 * t179)) * t244 + t122 / t248 + (t129 * s2 * t178 + t132 * t254) / t257 + (t141 * t260 / t175 / t262 / r1 + t149 * s2 * t178 * t254 + t153 * t270) / t257 / t248))
res = t164 + t280
" unpol "t3 = 3 ** (0.1e1 / 0.3e1)
t4 = math.pi ** (0.1e1 / 0.3e1)
t7 = 0.1e1 <= p_a_zeta_threshold
t8 = p_a_zeta_threshold - 0.1e1
t10 = lax_cond(t7, -t8, 0)
t11 = lax_cond(t7, t8, t10)
t12 = 0.1e1 + t11
t14 = p_a_zeta_threshold ** (0.1e1 / 0.3e1)
t16 = t12 ** (0.1e1 / 0.3e1)
t18 = lax_cond(t12 <= p_a_zeta_threshold, t14 * p_a_zeta_threshold, t16 * t12)
t19 = r0 ** (0.1e1 / 0.3e1)
t21 = 6 ** (0.1e1 / 0.3e1)
t22 = math.pi ** 2
t23 = t22 ** (0.1e1 / 0.3e1)
t24 = t23 ** 2
t27 = 2 ** (0.1e1 / 0.3e1)
t28 = t27 ** 2
t30 = r0 ** 2
t31 = t19 ** 2
t33 = 0.1e1 / t31 / t30
t34 = s0 * t28 * t33
t43 = t21 ** 2
t44 = t43 * t24
t45 = 0.3e1 / 0.10e2 * t44
t49 = tau0 * t28 / t31 / r0
t50 = t45 - t49
t52 = t45 + t49
t56 = t50 ** 2
t58 = t52 ** 2
t62 = t56 * t50
t64 = t58 * t52
t68 = t56 ** 2
t70 = t58 ** 2
t92 = t68 ** 2
t94 = t70 ** 2
t115 = params_a_a[0] + params_a_a[1] * t50 / t52 + params_a_a[2] * t56 / t58 + params_a_a[3] * t62 / t64 + params_a_a[4] * t68 / t70 + params_a_a[5] * t68 * t50 / t70 / t52 + params_a_a[6] * t68 * t56 / t70 / t58 + params_a_a[7] * t68 * t62 / t70 / t64 + params_a_a[8] * t92 / t94 + params_a_a[9] * t92 * t50 / t94 / t52 + params_a_a[10] * t92 * t56 / t94 / t58 + params_a_a[11] * t92 * t62 / t94 / t64
t121 = 0.1e1 + 0.186726e-2 * t34 + 0.373452e-2 * t49 - 0.11203560000000000000e-2 * t44
t126 = t28 * t33
t131 = 0.2e1 * t49 - 0.3e1 / 0.5e1 * t44
t134 = t121 ** 2
t138 = s0 ** 2
t140 = t30 ** 2
t152 = t131 ** 2
t162 = lax_cond(r0 / 0.2e1 <= p_a_dens_threshold, 0, -0.3e1 / 0.8e1 * t3 / t4 * t18 * t19 * ((0.18040e1 - 0.64641600e0 / (0.8040e0 + 0.91464571985215458336e-2 * t21 / t24 * t34)) * t115 + params_a_d[0] / t121 + (params_a_d[1] * s0 * t126 + params_a_d[2] * t131) / t134 + (0.2e1 * params_a_d[3] * t138 * t27 / t19 / t140 / r0 + params_a_d[4] * s0 * t126 * t131 + params_a_d[5] * t152) / t134 / t121))
res = 0.2e1 * t162
"

/- gen_repo/impl/prebuilt/pol/mgga_x_m08.py and gen_repo/impl/prebuilt/unpol/mgga_x_m08.py -/
formula mgga_x_m08 pol "t2 = 3 ** (0.1e1 / 0.3e1)
t3 = math.pi ** (0.1e1 / 0.3e1)
t5 = t2 / t3
t6 = r0 + r1
t7 = 0.1e1 / t6
t10 = 0.2e1 * r0 * t7 <= p_a_zeta_threshold
t11 = p_a_zeta_threshold - 0.1e1
t14 = 0.2e1 * r1 * t7 <= p_a_zeta_threshold
t15 = -t11
t17 = (r0 - r1) * t7
t18 = lax_cond(t14, t15, t17)
t19 = lax_cond(t10, t11, t18)
t20 = 0.1e1 + t19
t22 = p_a_zeta_threshold ** (0.1e1 / 0.3e1)
t23 = t22 * p_a_zeta_threshold
t24 = t20 ** (0.1e1 / 0.3e1)
t26 = lax_cond(t20 <= p_a_zeta_threshold, t23, t24 * t20)
t27 = t6 ** (0.1e1 / 0.3e1)
t29 = 6 ** (0.1e1 / 0.3e1)
t30 = math.pi ** 2
t31 = t30 ** (0.1e1 / 0.3e1)
t32 = t31 ** 2
t34 = t29 / t32
t35 = r0 ** 2
t36 = r0 ** (0.1e1 / 0.3e1)
t37 = t36 ** 2
t41 = t34 * s0 / t37 / t35
t47 = params_a_a[0]
t48 = params_a_a[1]
t49 = t29 ** 2
t51 = 0.3e1 / 0.10e2 * t49 * t32
t54 = tau0 / t37 / r0
t55 = t51 - t54
t57 = t51 + t54
t58 = 0.1e1 / t57
t60 = params_a_a[2]
t61 = t55 ** 2
t63 = t57 ** 2
t64 = 0.1e1 / t63
t66 = params_a_a[3]
t67 = t61 * t55
t69 = t63 * t57
t70 = 0.1e1 / t69
t72 = params_a_a[4]
t73 = t61 ** 2
t75 = t63 ** 2
t76 = 0.1e1 / t75
t78 = params_a_a[5]
t79 = t73 * t55
t82 = 0.1e1 / t75 / t57
t84 = params_a_a[6]
t85 = t73 * t61
t88 = 0.1e1 / t75 / t63
t90 = params_a_a[7]
t91 = t73 * t67
t94 = 0.1e1 / t75 / t69
t96 = params_a_a[8]
t97 = t73 ** 2
t99 = t75 ** 2
t100 = 0.1e1 / t99
t102 = params_a_a[9]
t103 = t97 * t55
t106 = 0.1e1 / t99 / t57
t108 = params_a_a[10]
t109 = t97 * t61
t112 = 0.1e1 / t99 / t63
t114 = params_a_a[11]
t115 = t97 * t67
t118 = 0.1e1 / t99 / t69
t120 = t47 + t48 * t55 * t58 + t60 * t61 * t64 + t66 * t67 * t70 + t72 * t73 * t76 + t78 * t79 * t82 + t84 * t85 * t88 + t90 * t91 * t94 + t96 * t97 * t100 + t102 * t103 * t106 + t108 * t109 * t112 + t114 * t115 * t118
t123 = math.exp(-0.93189002206715572255e-2 * t41)
t126 = params_a_b[0]
t127 = params_a_b[1]
t130 = params_a_b[2]
t133 = params_a_b[3]
t136 = params_a_b[4]
t139 = params_a_b[5]
t142 = params_a_b[6]
t145 = params_a_b[7]
t148 = params_a_b[8]
t151 = params_a_b[9]
t154 = params_a_b[10]
t157 = params_a_b[11]
t160 = t126 + t127 * t55 * t58 + t130 * t61 * t64 + t133 * t67 * t70 + t136 * t73 * t76 + t139 * t79 * t82 + t142 * t85 * t88 + t145 * t91 * t94 + t148 * t97 * t100 + t151 * t103 * t106 + t154 * t109 * t112 + t157 * t115 * t118
t166 = lax_cond(r0 <= p_a_dens_threshold, 0, -0.3e1 / 0.8e1 * t5 * t26 * t27 * ((0.18040e1 - 0.64641600e0 / (0.8040e0 + 0.91462500000000000000e-2 * t41)) * t120 + (0.1552e1 - 0.552e0 * t123) * t160))
t168 = lax_cond(t10, t15, -t17)
t169 = lax_cond(t14, t11, t168)
t170 = 0.1e1 + t169
t172 = t170 ** (0.1e1 / 0.3e1)
t174 = lax_cond(t170 <= p_a_zeta_threshold, t23, t172 * t170)
t176 = r1 ** 2
t177 = r1 ** (0.1e1 / 0.3e1)
t178 = t177 ** 2
t182 = t34 * s2 / t178 / t176
t190 = tau1 / t178 / r1
t191 = t51 - t190
t193 = t51 + t190
t194 = 0.1e1 / t193
t196 = t191 ** 2
t198 = t193 ** 2
t199 = 0.1e1 / t198
t201 = t196 * t191
t203 = t198 * t193
t204 = 0.1e1 / t203
t206 = t196 ** 2
t208 = t198 ** 2
t209 = 0.1e1 / t208
t211 = t206 * t191
t214 = 0.1e1 / t208 / t193
t216 = t206 * t196
t219 = 0.1e1 / t208 / t198
t221 = t206 * t201
t224 = 0.1e1 / t208 / t203
t226 = t206 ** 2
t228 = t208 ** 2
t229 = 0.1e1 / t228
t231 = t226 * t191
t234 = 0.1e1 / t228 / t193
t236 = t226 * t196
t239 = 0.1e1 / t228 / t198
t241 = t226 * t201
t244 = 0.1e1 / t228 / t203
t246 = t47 + t48 * t191 * t194 + t60 * t196 * t199 + t66 * t201 * t204 + t72 * t206 * t209 + t78 * t211 * t214 + t84 * t216 * t219 + t90 * t221 * t224 + t96 * t226 * t229 + t102 * t231 * t234 + t108 * t236 * t239 + t114 * t241 * t244
t249 = math.exp(-0.93189002206715572255e-2 * t182)
t274 = t126 + t127 * t191 * t194 + t130 * t196 * t199 + t133 * t201 * t204 + t136 * t206 * t209 + t139 * t211 * t214 + t142 * t216 * t219 + t145 * t221 * t224 + t148 * t226 * t229 + t151 * t231 * t234 + t154 * t236 * t239 + t157 * t241 * t244
t280 = lax_cond(r1 <= p_a_dens_threshold, 0, -0.3e1 / 0.8e1 * t5 * t174 * t27 * ((0.18040e1 - 0.64641600e0 / (0.8040e0 + 0.91462500000000000000e-2 * t182)) * t246 + (0.1552e1 - 0.552e0 * t249) * t274))
res = t166 + t280
" unpol "t3 = 3 ** (0.1e1 / 0.3e1)
t4 = math.pi ** (0.1e1 / 0.3e1)
t7 = 0.1e1 <= p_a_zeta_threshold
t8 = p_a_zeta_threshold - 0.1e1
t10 = lax_cond(t7, -t8, 0)
t11 = lax_cond(t7, t8, t10)
t12 = 0.1e1 + t11
t14 = p_a_zeta_threshold ** (0.1e1 / 0.3e1)
t16 = t12 ** (0.1e1 / 0.3e1)
t18 = lax_cond(t12 <= p_a_zeta_threshold, t14 * p_a_zeta_threshold, t16 * t12)
t19 = r0 ** (0.1e1 / 0.3e1)
t21 = 6 ** (0.1e1 / 0.3e1)
t22 = math.pi ** 2
t23 = t22 ** (0.1e1 / 0.3e1)
t24 = t23 ** 2
t27 = 2 ** (0.1e1 / 0.3e1)
t28 = t27 ** 2
t30 = r0 ** 2
t31 = t19 ** 2
t35 = t21 / t24 * s0 * t28 / t31 / t30
t43 = t21 ** 2
t45 = 0.3e1 / 0.10e2 * t43 * t24
t49 = tau0 * t28 / t31 / r0
t50 = t45 - t49
t52 = t45 + t49
t53 = 0.1e1 / t52
t56 = t50 ** 2
t58 = t52 ** 2
t59 = 0.1e1 / t58
t62 = t56 * t50
t64 = t58 * t52
t65 = 0.1e1 / t64
t68 = t56 ** 2
t70 = t58 ** 2
t71 = 0.1e1 / t70
t74 = t68 * t50
t77 = 0.1e1 / t70 / t52
t80 = t68 * t56
t83 = 0.1e1 / t70 / t58
t86 = t68 * t62
t89 = 0.1e1 / t70 / t64
t92 = t68 ** 2
t94 = t70 ** 2
t95 = 0.1e1 / t94
t98 = t92 * t50
t101 = 0.1e1 / t94 / t52
t104 = t92 * t56
t107 = 0.1e1 / t94 / t58
t110 = t92 * t62
t113 = 0.1e1 / t94 / t64
t115 = params_a_a[0] + params_a_a[1] * t50 * t53 + params_a_a[2] * t56 * t59 + params_a_a[3] * t62 * t65 + params_a_a[4] * t68 * t71 + params_a_a[5] * t74 * t77 + params_a_a[6] * t80 * t83 + params_a_a[7] * t86 * t89 + params_a_a[8] * t92 * t95 + params_a_a[9] * t98 * t101 + params_a_a[10] * t104 * t107 + params_a_a[11] * t110 * t113
t118 = math.exp(-0.93189002206715572255e-2 * t35)
t155 = params_a_b[0] + params_a_b[1] * t50 * t53 + params_a_b[2] * t56 * t59 + params_a_b[3] * t62 * t65 + params_a_b[4] * t68 * t71 + params_a_b[5] * t74 * t77 + params_a_b[6] * t80 * t83 + params_a_b[7] * t86 * t89 + params_a_b[8] * t92 * t95 + params_a_b[9] * t98 * t101 + params_a_b[10] * t104 * t107 + params_a_b[11] * t110 * t113
t161 = lax_cond(r0 / 0.2e1 <= p_a_dens_threshold, 0, -0.3e1 / 0.8e1 * t3 / t4 * t18 * t19 * ((0.18040e1 - 0.64641600e0 / (0.8040e0 + 0.91462500000000000000e-2 * t35)) * t115 + (0.1552e1 - 0.552e0 * t118) * t155))
res = 0.2e1 * t161
"

/- gen_repo/impl/prebuilt/pol/mgga_x_m11.py and gen_repo/impl/prebuilt/unpol/mgga_x_m11.py -/
formula mgga_x_m11 pol "t2 = 3 ** (0.1e1 / 0.3e1)
t3 = math.pi ** (0.1e1 / 0.3e1)
t5 = t2 / t3
t6 = r0 + r1
t7 = 0.1e1 / t6
t10 = 0.2e1 * r0 * t7 <= p_a_zeta_threshold
t11 = p_a_zeta_threshold - 0.1e1
t14 = 0.2e1 * r1 * t7 <= p_a_zeta_threshold
t15 = -t11
t17 = (r0 - r1) * t7
t18 = lax_cond(t14, t15, t17)
t19 = lax_cond(t10, t11, t18)
t20 = 0.1e1 + t19
t22 = p_a_zeta_threshold ** (0.1e1 / 0.3e1)
t23 = t22 * p_a_zeta_threshold
t24 = t20 ** (0.1e1 / 0.3e1)
t26 = lax_cond(t20 <= p_a_zeta_threshold, t23, t24 * t20)
t28 = t6 ** (0.1e1 / 0.3e1)
t29 = 9 ** (0.1e1 / 0.3e1)
t30 = t29 ** 2
t32 = (0.1e1 / math.pi) ** (0.1e1 / 0.3e1)
t33 = t32 ** 2
t35 = t30 * t33 * p_a_cam_omega
t37 = t2 / t28
t39 = 0.1e1 + t17 <= p_a_zeta_threshold
t41 = 0.1e1 - t17 <= p_a_zeta_threshold
t42 = lax_cond(t41, t15, t17)
t43 = lax_cond(t39, t11, t42)
t44 = 0.1e1 + t43
t46 = t44 ** (0.1e1 / 0.3e1)
t47 = lax_cond(t44 <= p_a_zeta_threshold, t22, t46)
t51 = t35 * t37 / t47 / 0.18e2
t53 = 0.135e1 < t51
t54 = lax_cond(t53, t51, 0.135e1)
t55 = t54 ** 2
t58 = t55 ** 2
t61 = t58 * t55
t64 = t58 ** 2
t76 = t64 ** 2
t80 = lax_cond(t53, 0.135e1, t51)
t81 = math.sqrt(math.pi)
t84 = math.erf(0.1e1 / t80 / 0.2e1)
t86 = t80 ** 2
t89 = math.exp(-0.1e1 / t86 / 0.4e1)
t100 = lax_cond(0.135e1 <= t51, 0.1e1 / t55 / 0.36e2 - 0.1e1 / t58 / 0.960e3 + 0.1e1 / t61 / 0.26880e5 - 0.1e1 / t64 / 0.829440e6 + 0.1e1 / t64 / t55 / 0.28385280e8 - 0.1e1 / t64 / t58 / 0.1073479680e10 + 0.1e1 / t64 / t61 / 0.44590694400e11 - 0.1e1 / t76 / 0.2021444812800e13, 0.1e1 - 0.8e1 / 0.3e1 * t80 * (t81 * t84 + 0.2e1 * t80 * (t89 - 0.3e1 / 0.2e1 - 0.2e1 * t86 * (t89 - 0.1e1))))
t102 = 6 ** (0.1e1 / 0.3e1)
t103 = math.pi ** 2
t104 = t103 ** (0.1e1 / 0.3e1)
t105 = t104 ** 2
t107 = t102 / t105
t108 = r0 ** 2
t109 = r0 ** (0.1e1 / 0.3e1)
t110 = t109 ** 2
t114 = t107 * s0 / t110 / t108
t120 = params_a_a[0]
t121 = params_a_a[1]
t122 = t102 ** 2
t124 = 0.3e1 / 0.10e2 * t122 * t105
t127 = tau0 / t110 / r0
t128 = t124 - t127
t130 = t124 + t127
t131 = 0.1e1 / t130
t133 = params_a_a[2]
t134 = t128 ** 2
t136 = t130 ** 2
t137 = 0.1e1 / t136
t139 = params_a_a[3]
t140 = t134 * t128
t142 = t136 * t130
t143 = 0.1e1 / t142
t145 = params_a_a[4]
t146 = t134 ** 2
t148 = t136 ** 2
t149 = 0.1e1 / t148
t151 = params_a_a[5]
t152 = t146 * t128
t155 = 0.1e1 / t148 / t130
t157 = params_a_a[6]
t158 = t146 * t134
t161 = 0.1e1 / t148 / t136
t163 = params_a_a[7]
t164 = t146 * t140
t167 = 0.1e1 / t148 / t142
t169 = params_a_a[8]
t170 = t146 ** 2
t172 = t148 ** 2
t173 = 0.1e1 / t172
t175 = params_a_a[9]
t176 = t170 * t128
t179 = 0.1e1 / t172 / t130
t181 = params_a_a[10]
t182 = t170 * t134
t185 = 0.1e1 / t172 / t136
t187 = params_a_a[11]
t188 = t170 * t140
t191 = 0.1e1 / t172 / t142
t193 = t120 + t121 * t128 * t131 + t133 * t134 * t137 + t139 * t140 * t143 + t145 * t146 * t149 + t151 * t152 * t155 + t157 * t158 * t161 + t163 * t164 * t167 + t169 * t170 * t173 + t175 * t176 * t179 + t181 * t182 * t185 + t187 * t188 * t191
t196 = math.exp(-0.93189002206715572255e-2 * t114)
t199 = params_a_b[0]
t200 = params_a_b[1]
t203 = params_a_b[2]
t206 = params_a_b[3]
t209 = params_a_b[4]
t212 = params_a_b[5]
t215 = params_a_b[6]
t218 = params_a_b[7]
t221 = params_a_b[8]
t224 = params_a_b[9]
t227 = params_a_b[10]
t230 = params_a_b[11]
t233 = t199 + t200 * t128 * t131 + t203 * t134 * t137 + t206 * t140 * t143 + t209 * t146 * t149 + t212 * t152 * t155 + t215 * t158 * t161 + t218 * t164 * t167 + t221 * t170 * t173 + t224 * t176 * t179 + t227 * t182 * t185 + t230 * t188 * t191
t239 = lax_cond(r0 <= p_a_dens_threshold, 0, -0.3e1 / 0.8e1 * t5 * t26 * t28 * t100 * ((0.18040e1 - 0.64641600e0 / (0.8040e0 + 0.91462500000000000000e-2 * t114)) * t193 + (0.1552e1 - 0.552e0 * t196) * t233))
t241 = lax_cond(t10, t15, -t17)
t242 = lax_cond(t14, t11, t241)
t243 = 0.1e1 + t242
t245 = t243 ** (0.1e1 / 0.3e1)
t247 = lax_cond(t243 <= p_a_zeta_threshold, t23, t245 * t243)
t249 = lax_cond(t39, t15, -t17)
t250 = lax_cond(t41, t11, t249)
t251 = 0.1e1 + t250
t253 = t251 ** (0.1e1 / 0.3e1)
t254 = lax_cond(t251 <= p_a_zeta_threshold, t22, t253)
t258 = t35 * t37 / t254 / 0.18e2
t260 = 0.135e1 < t258
t261 = lax_cond(t260, t258, 0.135e1)
t262 = t261 ** 2
t265 = t262 ** 2
t268 = t265 * t262
t271 = t265 ** 2
t283 = t271 ** 2
t287 = lax_cond(t260, 0.135e1, t258)
t290 = math.erf(0.1e1 / t287 / 0.2e1)
t292 = t287 ** 2
t295 = math.exp(-0.1e1 / t292 / 0.4e1)
t306 = lax_cond(0.135e1 <= t258, 0.1e1 / t262 / 0.36e2 - 0.1e1 / t265 / 0.960e3 + 0.1e1 / t268 / 0.26880e5 - 0.1e1 / t271 / 0.829440e6 + 0.1e1 / t271 / t262 / 0.28385280e8 - 0.1e1 / t271 / t265 / 0.1073479680e10 + 0.1e1 / t271 / t268 / 0.44590694400e11 - 0.1e1 / t283 / 0.2021444812800e13, 0.1e1 - 0.8e1 / 0.3e1 * t287 * (t81 * t290 + 0.2e1 * t287 * (t295 - 0.3e1 / 0.2e1 - 0.2e1 * t292 * (t295 - 0.1e1))))
t308 = r1 ** 2
t309 = r1 ** (0.1e1 / 0.3e1)
t310 = t309 ** 2
t314 = t107 * s2 / t310 / t308
t322 = tau1 / t310 / r1
t323 = t124 - t322
t325 = t124 + t322
t326 = 0.1e1 / t325
t328 = t323 ** 2
t330 = t325 ** 2
t331 = 0.1e1 / t330
t333 = t328 * t323
t335 = t330 * t325
t336 = 0.1e1 / t335
t338 = t328 ** 2
t340 = t330 ** 2
t341 = 0.1e1 / t340
t343 = t338 * t323
t346 = 0.1e1 / t340 / t325
t348 = t338 * t328
t351 = 0.1e1 / t340 / t330
t353 = t338 * t333
t356 = 0.1e1 / t340 / t335
t358 = t338 ** 2
t360 = t340 ** 2
t361 = 0.1e1 / t360
t363 = t358 * t323
t366 = 0.1e1 / t360 / t325
t368 = t358 * t328
t371 = 0.1e1 / t360 / t330
t373 = t358 * t333
t376 = 0.1e1 / t360 / t335
t378 = t120 + t121 * t323 * t326 + t133 * t328 * t331 + t139 * t333 * t336 + t145 * t338 * t341 + t151 * t343 * t346 + t157 * t348 * t351 + t163 * t353 * t356 + t169 * t358 * t361 + t175 * t363 * t366 + t181 * t368 * t371 + t187 * t373 * t376
t381 = math.exp(-0.93189002206715572255e-2 * t314)
t406 = t199 + t200 * t323 * t326 + t203 * t328 * t331 + t206 * t333 * t336 + t209 * t338 * t341 + t212 * t343 * t346 + t215 * t348 * t351 + t218 * t353 * t356 + t221 * t358 * t361 + t224 * t363 * t366 + t227 * t368 * t371 + t230 * t373 * t376
t412 = lax_cond(r1 <= p_a_dens_threshold, 0, -0.3e1 / 0.8e1 * t5 * t247 * t28 * t306 * ((0.18040e1 - 0.64641600e0 / (0.8040e0 + 0.91462500000000000000e-2 * t314)) * t378 + (0.1552e1 - 0.552e0 * t381) * t406))
res = t239 + t412
" unpol "t3 = 3 ** (0.1e1 / 0.3e1)
t4 = math.pi ** (0.1e1 / 0.3e1)
t7 = 0.1e1 <= p_a_zeta_threshold
t8 = p_a_zeta_threshold - 0.1e1
t10 = lax_cond(t7, -t8, 0)
t11 = lax_cond(t7, t8, t10)
t12 = 0.1e1 + t11
t13 = t12 <= p_a_zeta_threshold
t14 = p_a_zeta_threshold ** (0.1e1 / 0.3e1)
t16 = t12 ** (0.1e1 / 0.3e1)
t18 = lax_cond(t13, t14 * p_a_zeta_threshold, t16 * t12)
t20 = r0 ** (0.1e1 / 0.3e1)
t21 = 9 ** (0.1e1 / 0.3e1)
t22 = t21 ** 2
t24 = (0.1e1 / math.pi) ** (0.1e1 / 0.3e1)
t25 = t24 ** 2
t30 = lax_cond(t13, t14, t16)
t34 = t22 * t25 * p_a_cam_omega * t3 / t20 / t30 / 0.18e2
t36 = 0.135e1 < t34
t37 = lax_cond(t36, t34, 0.135e1)
t38 = t37 ** 2
t41 = t38 ** 2
t44 = t41 * t38
t47 = t41 ** 2
t59 = t47 ** 2
t63 = lax_cond(t36, 0.135e1, t34)
t64 = math.sqrt(math.pi)
t67 = math.erf(0.1e1 / t63 / 0.2e1)
t69 = t63 ** 2
t72 = math.exp(-0.1e1 / t69 / 0.4e1)
t83 = lax_cond(0.135e1 <= t34, 0.1e1 / t38 / 0.36e2 - 0.1e1 / t41 / 0.960e3 + 0.1e1 / t44 / 0.26880e5 - 0.1e1 / t47 / 0.829440e6 + 0.1e1 / t47 / t38 / 0.28385280e8 - 0.1e1 / t47 / t41 / 0.1073479680e10 + 0.1e1 / t47 / t44 / 0.44590694400e11 - 0.1e1 / t59 / 0.2021444812800e13, 0.1e1 - 0.8e1 / 0.3e1 * t63 * (t64 * t67 + 0.2e1 * t63 * (t72 - 0.3e1 / 0.2e1 - 0.2e1 * t69 * (t72 - 0.1e1))))
t85 = 6 ** (0.1e1 / 0.3e1)
t86 = math.pi ** 2
t87 = t86 ** (0.1e1 / 0.3e1)
t88 = t87 ** 2
t91 = 2 ** (0.1e1 / 0.3e1)
t92 = t91 ** 2
t94 = r0 ** 2
t95 = t20 ** 2
t99 = t85 / t88 * s0 * t92 / t95 / t94
t107 = t85 ** 2
t109 = 0.3e1 / 0.10e2 * t107 * t88
t113 = tau0 * t92 / t95 / r0
t114 = t109 - t113
t116 = t109 + t113
t117 = 0.1e1 / t116
t120 = t114 ** 2
t122 = t116 ** 2
t123 = 0.1e1 / t122
t126 = t120 * t114
t128 = t122 * t116
t129 = 0.1e1 / t128
t132 = t120 ** 2
t134 = t122 ** 2
t135 = 0.1e1 / t134
t138 = t132 * t114
t141 = 0.1e1 / t134 / t116
t144 = t132 * t120
t147 = 0.1e1 / t134 / t122
t150 = t132 * t126
t153 = 0.1e1 / t134 / t128
t156 = t132 ** 2
t158 = t134 ** 2
t159 = 0.1e1 / t158
t162 = t156 * t114
t165 = 0.1e1 / t158 / t116
t168 = t156 * t120
t171 = 0.1e1 / t158 / t122
t174 = t156 * t126
t177 = 0.1e1 / t158 / t128
t179 = params_a_a[0] + params_a_a[1] * t114 * t117 + params_a_a[2] * t120 * t123 + params_a_a[3] * t126 * t129 + params_a_a[4] * t132 * t135 + params_a_a[5] * t138 * t141 + params_a_a[6] * t144 * t147 + params_a_a[7] * t150 * t153 + params_a_a[8] * t156 * t159 + params_a_a[9] * t162 * t165 + params_a_a[10] * t168 * t171 + params_a_a[11] * t174 * t177
t182 = math.exp(-0.93189002206715572255e-2 * t99)
t219 = params_a_b[0] + params_a_b[1] * t114 * t117 + params_a_b[2] * t120 * t123 + params_a_b[3] * t126 * t129 + params_a_b[4] * t132 * t135 + params_a_b[5] * t138 * t141 + params_a_b[6] * t144 * t147 + params_a_b[7] * t150 * t153 + params_a_b[8] * t156 * t159 + params_a_b[9] * t162 * t165 + params_a_b[10] * t168 * t171 + params_a_b[11] * t174 * t177
t225 = lax_cond(r0 / 0.2e1 <= p_a_dens_threshold, 0, -0.3e1 / 0.8e1 * t3 / t4 * t18 * t20 * t83 * ((0.18040e1 - 0.64641600e0 / (0.8040e0 + 0.91462500000000000000e-2 * t99)) * t179 + (0.1552e1 - 0.552e0 * t182) * t219))
res = 0.2e1 * t225
"

/- gen_repo/impl/prebuilt/pol/mgga_x_m11_l.py and gen_repo/impl/prebuilt/unpol/mgga_x_m11_l.py -/
formula mgga_x_m11_l pol "t2 = 3 ** (0.1e1 / 0.3e1)
t3 = math.pi ** (0.1e1 / 0.3e1)
t5 = t2 / t3
t6 = r0 + r1
t7 = 0.1e1 / t6
t10 = 0.2e1 * r0 * t7 <= p_a_zeta_threshold
t11 = p_a_zeta_threshold - 0.1e1
t14 = 0.2e1 * r1 * t7 <= p_a_zeta_threshold
t15 = -t11
t17 = (r0 - r1) * t7
t18 = lax_cond(t14, t15, t17)
t19 = lax_cond(t10, t11, t18)
t20 = 0.1e1 + t19
t22 = p_a_zeta_threshold ** (0.1e1 / 0.3e1)
t23 = t22 * p_a_zeta_threshold
t24 = t20 ** (0.1e1 / 0.3e1)
t26 = lax_cond(t20 <= p_a_zeta_threshold, t23, t24 * t20)
t27 = t6 ** (0.1e1 / 0.3e1)
t29 = 9 ** (0.1e1 / 0.3e1)
t30 = t29 ** 2
t32 = (0.1e1 / math.pi) ** (0.1e1 / 0.3e1)
t33 = t32 ** 2
t35 = t30 * t33 * p_a_cam_omega
t37 = t2 / t27
t39 = 0.1e1 + t17 <= p_a_zeta_threshold
t41 = 0.1e1 - t17 <= p_a_zeta_threshold
t42 = lax_cond(t41, t15, t17)
t43 = lax_cond(t39, t11, t42)
t44 = 0.1e1 + t43
t46 = t44 ** (0.1e1 / 0.3e1)
t47 = lax_cond(t44 <= p_a_zeta_threshold, t22, t46)
t51 = t35 * t37 / t47 / 0.18e2
t53 = 0.135e1 < t51
t54 = lax_cond(t53, t51, 0.135e1)
t55 = t54 ** 2
t58 = t55 ** 2
t61 = t58 * t55
t64 = t58 ** 2
t76 = t64 ** 2
t80 = lax_cond(t53, 0.135e1, t51)
t81 = math.sqrt(math.pi)
t84 = math.erf(0.1e1 / t80 / 0.2e1)
t86 = t80 ** 2
t89 = math.exp(-0.1e1 / t86 / 0.4e1)
t100 = lax_cond(0.135e1 <= t51, 0.1e1 / t55 / 0.36e2 - 0.1e1 / t58 / 0.960e3 + 0.1e1 / t61 / 0.26880e5 - 0.1e1 / t64 / 0.829440e6 + 0.1e1 / t64 / t55 / 0.28385280e8 - 0.1e1 / t64 / t58 / 0.1073479680e10 + 0.1e1 / t64 / t61 / 0.44590694400e11 - 0.1e1 / t76 / 0.2021444812800e13, 0.1e1 - 0.8e1 / 0.3e1 * t80 * (t81 * t84 + 0.2e1 * t80 * (t89 - 0.3e1 / 0.2e1 - 0.2e1 * t86 * (t89 - 0.1e1))))
t101 = 6 ** (0.1e1 / 0.3e1)
t102 = math.pi ** 2
t103 = t102 ** (0.1e1 / 0.3e1)
t104 = t103 ** 2
t106 = t101 / t104
t107 = r0 ** 2
t108 = r0 ** (0.1e1 / 0.3e1)
t109 = t108 ** 2
t113 = t106 * s0 / t109 / t107
t118 = 0.18040e1 - 0.64641600e0 / (0.8040e0 + 0.91462500000000000000e-2 * t113)
t119 = params_a_a[0]
t120 = params_a_a[1]
t121 = t101 ** 2
t123 = 0.3e1 / 0.10e2 * t121 * t104
t126 = tau0 / t109 / r0
t127 = t123 - t126
t129 = t123 + t126
t130 = 0.1e1 / t129
t132 = params_a_a[2]
t133 = t127 ** 2
t135 = t129 ** 2
t136 = 0.1e1 / t135
t138 = params_a_a[3]
t139 = t133 * t127
t141 = t135 * t129
t142 = 0.1e1 / t141
t144 = params_a_a[4]
t145 = t133 ** 2
t147 = t135 ** 2
t148 = 0.1e1 / t147
t150 = params_a_a[5]
t151 = t145 * t127
t154 = 0.1e1 / t147 / t129
t156 = params_a_a[6]
t157 = t145 * t133
t160 = 0.1e1 / t147 / t135
t162 = params_a_a[7]
t163 = t145 * t139
t166 = 0.1e1 / t147 / t141
t168 = params_a_a[8]
t169 = t145 ** 2
t171 = t147 ** 2
t172 = 0.1e1 / t171
t174 = params_a_a[9]
t175 = t169 * t127
t178 = 0.1e1 / t171 / t129
t180 = params_a_a[10]
t181 = t169 * t133
t184 = 0.1e1 / t171 / t135
t186 = params_a_a[11]
t187 = t169 * t139
t190 = 0.1e1 / t171 / t141
t192 = t119 + t120 * t127 * t130 + t132 * t133 * t136 + t138 * t139 * t142 + t144 * t145 * t148 + t150 * t151 * t154 + t156 * t157 * t160 + t162 * t163 * t166 + t168 * t169 * t172 + t174 * t175 * t178 + t180 * t181 * t184 + t186 * t187 * t190
t195 = math.exp(-0.93189002206715572255e-2 * t113)
t197 = 0.1552e1 - 0.552e0 * t195
t198 = params_a_b[0]
t199 = params_a_b[1]
t202 = params_a_b[2]
t205 = params_a_b[3]
t208 = params_a_b[4]
t211 = params_a_b[5]
t214 = params_a_b[6]
t217 = params_a_b[7]
t220 = params_a_b[8]
t223 = params_a_b[9]
t226 = params_a_b[10]
t229 = params_a_b[11]
t232 = t198 + t199 * t127 * t130 + t202 * t133 * t136 + t205 * t139 * t142 + t208 * t145 * t148 + t211 * t151 * t154 + t214 * t157 * t160 + t217 * t163 * t166 + t220 * t169 * t172 + t223 * t175 * t178 + t226 * t181 * t184 + t229 * t187 * t190
t237 = params_a_c[0]
t238 = params_a_c[1]
t241 = params_a_c[2]
t244 = params_a_c[3]
t247 = params_a_c[4]
t250 = params_a_c[5]
t253 = params_a_c[6]
t256 = params_a_c[7]
t259 = params_a_c[8]
t262 = params_a_c[9]
t265 = params_a_c[10]
t268 = params_a_c[11]
t271 = t237 + t238 * t127 * t130 + t241 * t133 * t136 + t244 * t139 * t142 + t247 * t145 * t148 + t250 * t151 * t154 + t253 * t157 * t160 + t256 * t163 * t166 + t259 * t169 * t172 + t262 * t175 * t178 + t265 * t181 * t184 + t268 * t187 * t190
t273 = params_a_d[0]
t274 = params_a_d[1]
t277 = params_a_d[2]
t280 = params_a_d[3]
t283 = params_a_d[4]
t286 = params_a_d[5]
t289 = params_a_d[6]
t292 = params_a_d[7]
t295 = params_a_d[8]
t298 = params_a_d[9]
t301 = params_a_d[10]
t304 = params_a_d[11]
t307 = t273 + t274 * t127 * t130 + t277 * t133 * t136 + t280 * t139 * t142 + t283 * t145 * t148 + t286 * t151 * t154 + t289 * t157 * t160 + t292 * t163 * t166 + t295 * t169 * t172 + t298 * t175 * t178 + t301 * t181 * t184 + t304 * t187 * t190
t315 = lax_cond(r0 <= p_a_dens_threshold, 0, -0.3e1 / 0.8e1 * t5 * t26 * t27 * (t100 * (t118 * t192 + t197 * t232) + (0.1e1 - t100) * (t118 * t271 + t197 * t307)))
t317 = lax_cond(t10, t15, -t17)
t318 = lax_cond(t14, t11, t317)
t319 = 0.1e1 + t318
t321 = t319 ** (0.1e1 / 0.3e1)
t323 = lax_cond(t319 <= p_a_zeta_threshold, t23, t321 * t319)
t325 = lax_cond(t39, t15, -t17)
t326 = lax_cond(t41, t11, t325)
t327 = 0.1e1 + t326
t329 = t327 ** (0.1e1 / 0.3e1)
t330 = lax_cond(t327 <= p_a_zeta_threshold, t22, t329)
t334 = t35 * t37 / t330 / 0.18e2
t336 = 0.135e1 < t334
t337 = lax_cond(t336, t334, 0.135e1)
t338 = t337 ** 2
t341 = t338 ** 2
t344 = t341 * t338
t347 = t341 ** 2
t359 = t347 ** 2
t363 = lax_cond(t336, 0.135e1, t334)
t366 = math.erf(0.1e1 / t363 / 0.2e1)
t368 = t363 ** 2
t371 = math.exp(-0.1e1 / t368 / 0.4e1)
t382 = lax_cond(0.135e1 <= t334, 0.1e1 / t338 / 0.36e2 - 0.1e1 / t341 / 0.960e3 + 0.1e1 / t344 / 0.26880e5 - 0.1e1 / t347 / 0.829440e6 + 0.1e1 / t347 / t338 / 0.28385280e8 - 0.1e1 / t347 / t341 / 0.1073479680e10 + 0.1e1 / t347 / t344 / 0.44590694400e11 - 0.1e1 / t359 / 0.2021444812800e13, 0.1e1 - 0.8e1 / 0.3e1 * t363 * (t81 * t366 + 0.2e1 * t363 * (t371 - 0.3e1 / 0.2e1 - 0.2e1 * t368 * (t371 - 0.1e1))))
t383 = r1 ** 2
t384 = r1 ** (0.1e1 / 0.3e1)
t385 = t384 ** 2
t389 = t106 * s2 / t385 / t383
t394 = 0.18040e1 - 0.64641600e0 / (0.8040e0 + 0.91462500000000000000e-2 * t389)
t397 = tau1 / t385 / r1
t398 = t123 - t397
t400 = t123 + t397
t401 = 0.1e1 / t400
t403 = t398 ** 2
t405 = t400 ** 2
t406 = 0.1e1 / t405
t408 = t403 * t398
t410 = t405 * t400
t411 = 0.1e1 / t410
t413 = t403 ** 2
t415 = t405 ** 2
t416 = 0.1e1 / t415
t418 = t413 * t398
t421 = 0.1e1 / t415 / t400
t423 = t413 * t403
t426 = 0.1e1 / t415 / t405
t428 = t413 * t408
t431 = 0.1e1 / t415 / t410
t433 = t413 ** 2
t435 = t415 ** 2
t436 = 0.1e1 / t435
t438 = t433 * t398
t441 = 0.1e1 / t435 / t400
t443 = t433 * t403
t446 = 0.1e1 / t435 / t405
t448 = t433 * t408
t451 = 0.1e1 / t435 / t410
t453 = t119 + t120 * t398 * t401 + t132 * t403 * t406 + t138 * t408 * t411 + t144 * t413 * t416 + t150 * t418 * t421 + t156 * t423 * t426 + t162 * t428 * t431 + t168 * t433 * t436 + t174 * t438 * t441 + t180 * t443 * t446 + t186 * t448 * t451
t456 = math.exp(-0.93189002206715572255e-2 * t389)
t458 = 0.1552e1 - 0.552e0 * t456
t481 = t198 + t199 * t398 * t401 + t202 * t403 * t406 + t205 * t408 * t411 + t208 * t413 * t416 + t211 * t418 * t421 + t214 * t423 * t426 + t217 * t428 * t431 + t220 * t433 * t436 + t223 * t438 * t441 + t226 * t443 * t446 + t229 * t448 * t451
t508 = t237 + t238 * t398 * t401 + t241 * t403 * t406 + t244 * t408 * t411 + t247 * t413 * t416 + t250 * t418 * t421 + t253 * t423 * t426 + t256 * t428 * t431 + t259 * t433 * t436 + t262 * t438 * t441 + t265 * t443 * t446 + t268 * t448 * t451
t532 = t273 + t274 * t398 * t401 + t277 * t403 * t406 + t280 * t408 * t411 + t283 * t413 * t416 + t286 * t418 * t421 + t289 * t423 * t426 + t292 * t428 * t431 + t295 * t433 * t436 + t298 * t438 * t441 + t301 * t443 * t446 + t304 * t448 * t451
t540 = lax_cond(r1 <= p_a_dens_threshold, 0, -0.3e1 / 0.8e1 * t5 * t323 * t27 * (t382 * (t394 * t453 + t458 * t481) + (0.1e1 - t382) * (t394 * t508 + t458 * t532)))
res = t315 + t540
" unpol "t3 = 3 ** (0.1e1 / 0.3e1)
t4 = math.pi ** (0.1e1 / 0.3e1)
t7 = 0.1e1 <= p_a_zeta_threshold
t8 = p_a_zeta_threshold - 0.1e1
t10 = lax_cond(t7, -t8, 0)
t11 = lax_cond(t7, t8, t10)
t12 = 0.1e1 + t11
t13 = t12 <= p_a_zeta_threshold
t14 = p_a_zeta_threshold ** (0.1e1 / 0.3e1)
t16 = t12 ** (0.1e1 / 0.3e1)
t18 = lax_cond(t13, t14 * p_a_zeta_threshold, t16 * t12)
t19 = r0 ** (0.1e1 / 0.3e1)
t21 = 9 ** (0.1e1 / 0.3e1)
t22 = t21 ** 2
t24 = (0.1e1 / math.pi) ** (0.1e1 / 0.3e1)
t25 = t24 ** 2
t30 = lax_cond(t13, t14, t16)
t34 = t22 * t25 * p_a_cam_omega * t3 / t19 / t30 / 0.18e2
t36 = 0.135e1 < t34
t37 = lax_cond(t36, t34, 0.135e1)
t38 = t37 ** 2
t41 = t38 ** 2
t44 = t41 * t38
t47 = t41 ** 2
t59 = t47 ** 2
t63 = lax_cond(t36, 0.135e1, t34)
t64 = math.sqrt(math.pi)
t67 = math.erf(0.1e1 / t63 / 0.2e1)
t69 = t63 ** 2
t72 = math.exp(-0.1e1 / t69 / 0.4e1)
t83 = lax_cond(0.135e1 <= t34, 0.1e1 / t38 / 0.36e2 - 0.1e1 / t41 / 0.960e3 + 0.1e1 / t44 / 0.26880e5 - 0.1e1 / t47 / 0.829440e6 + 0.1e1 / t47 / t38 / 0.28385280e8 - 0.1e1 / t47 / t41 / 0.1073479680e10 + 0.1e1 / t47 / t44 / 0.44590694400e11 - 0.1e1 / t59 / 0.2021444812800e13, 0.1e1 - 0.8e1 / 0.3e1 * t63 * (t64 * t67 + 0.2e1 * t63 * (t72 - 0.3e1 / 0.2e1 - 0.2e1 * t69 * (t72 - 0.1e1))))
t84 = 6 ** (0.1e1 / 0.3e1)
t85 = math.pi ** 2
t86 = t85 ** (0.1e1 / 0.3e1)
t87 = t86 ** 2
t90 = 2 ** (0.1e1 / 0.3e1)
t91 = t90 ** 2
t93 = r0 ** 2
t94 = t19 ** 2
t98 = t84 / t87 * s0 * t91 / t94 / t93
t103 = 0.18040e1 - 0.64641600e0 / (0.8040e0 + 0.91462500000000000000e-2 * t98)
t106 = t84 ** 2
t108 = 0.3e1 / 0.10e2 * t106 * t87
t112 = tau0 * t91 / t94 / r0
t113 = t108 - t112
t115 = t108 + t112
t116 = 0.1e1 / t115
t119 = t113 ** 2
t121 = t115 ** 2
t122 = 0.1e1 / t121
t125 = t119 * t113
t127 = t121 * t115
t128 = 0.1e1 / t127
t131 = t119 ** 2
t133 = t121 ** 2
t134 = 0.1e1 / t133
t137 = t131 * t113
t140 = 0.1e1 / t133 / t115
t143 = t131 * t119
t146 = 0.1e1 / t133 / t121
t149 = t131 * t125
t152 = 0.1e1 / t133 / t127
t155 = t131 ** 2
t157 = t133 ** 2
t158 = 0.1e1 / t157
t161 = t155 * t113
t164 = 0.1e1 / t157 / t115
t167 = t155 * t119
t170 = 0.1e1 / t157 / t121
t173 = t155 * t125
t176 = 0.1e1 / t157 / t127
t178 = params_a_a[0] + params_a_a[1] * t113 * t116 + params_a_a[2] * t119 * t122 + params_a_a[3] * t125 * t128 + params_a_a[4] * t131 * t134 + params_a_a[5] * t137 * t140 + params_a_a[6] * t143 * t146 + params_a_a[7] * t149 * t152 + params_a_a[8] * t155 * t158 + params_a_a[9] * t161 * t164 + params_a_a[10] * t167 * t170 + params_a_a[11] * t173 * t176
t181 = math.exp(-0.93189002206715572255e-2 * t98)
t183 = 0.1552e1 - 0.552e0 * t181
t218 = params_a_b[0] + params_a_b[1] * t113 * t116 + params_a_b[2] * t119 * t122 + params_a_b[3] * t125 * t128 + params_a_b[4] * t131 * t134 + params_a_b[5] * t137 * t140 + params_a_b[6] * t143 * t146 + params_a_b[7] * t149 * t152 + params_a_b[8] * t155 * t158 + params_a_b[9] * t161 * t164 + params_a_b[10] * t167 * t170 + params_a_b[11] * t173 * t176
t257 = params_a_c[0] + params_a_c[1] * t113 * t116 + params_a_c[2] * t119 * t122 + params_a_c[3] * t125 * t128 + params_a_c[4] * t131 * t134 + params_a_c[5] * t137 * t140 + params_a_c[6] * t143 * t146 + params_a_c[7] * t149 * t152 + params_a_c[8] * t155 * t158 + params_a_c[9] * t161 * t164 + params_a_c[10] * t167 * t170 + params_a_c[11] * t173 * t176
t293 = params_a_d[0] + params_a_d[1] * t113 * t116 + params_a_d[2] * t119 * t122 + params_a_d[3] * t125 * t128 + params_a_d[4] * t131 * t134 + params_a_d[5] * t137 * t140 + params_a_d[6] * t143 * t146 + params_a_d[7] * t149 * t152 + params_a_d[8] * t155 * t158 + params_a_d[9] * t161 * t164 + params_a_d[10] * t167 * t170 + params_a_d[11] * t173 * t176
t301 = lax_cond(r0 / 0.2e1 <= p_a_dens_threshold, 0, -0.3e1 / 0.8e1 * t3 / t4 * t18 * t19 * (t83 * (t103 * t178 + t183 * t218) + (0.1e1 - t83) * (t103 * t257 + t183 * t293)))
res = 0.2e1 * t301
"

end Verif.Data


/-!
# Shipped formulas, verbatim from `gen_repo/impl/prebuilt/{pol,unpol}/NAME.py`
-/
namespace Verif.Data

/- gen_repo/impl/prebuilt/pol/mgga_x_mbeef.py and gen_repo/impl/prebuilt/unpol/mgga_x_mbeef.py -/
formula mgga_x_mbeef pol "t2 = 3 ** (0.1e1 / 0.3e1)
t3 = math.pi ** (0.1e1 / 0.3e1)
t5 = t2 / t3
t6 = r0 + r1
t7 = 0.1e1 / t6
t10 = 0.2e1 * r0 * t7 <= p_a_zeta_threshold
t11 = p_a_zeta_threshold - 0.1e1
t14 = 0.2e1 * r1 * t7 <= p_a_zeta_threshold
t15 = -t11
t17 = (r0 - r1) * t7
t18 = lax_cond(t14, t15, t17)
t19 = lax_cond(t10, t11, t18)
t20 = t19 + 0.1e1
t22 = p_a_zeta_threshold ** (0.1e1 / 0.3e1)
t23 = t22 * p_a_zeta_threshold
t24 = t20 ** (0.1e1 / 0.3e1)
t26 = lax_cond(t20 <= p_a_zeta_threshold, t23, t24 * t20)
t27 = t6 ** (0.1e1 / 0.3e1)
t29 = 6 ** (0.1e1 / 0.3e1)
t30 = math.pi ** 2
t31 = t30 ** (0.1e1 / 0.3e1)
t32 = t31 ** 2
t33 = 0.1e1 / t32
t34 = t29 * t33
t35 = r0 ** 2
t36 = r0 ** (0.1e1 / 0.3e1)
t37 = t36 ** 2
t40 = s0 / t37 / t35
t46 = t34 * t40 / (0.65124e1 + t34 * t40 / 0.24e2)
t48 = t46 / 0.12e2 - 0.1e1
t56 = 0.5e1 / 0.9e1 * (tau0 / t37 / r0 - t40 / 0.8e1) * t29 * t33
t58 = 0.1e5 < t56
t59 = lax_cond(t58, t56, 0.1e5)
t60 = t59 ** 2
t65 = t60 ** 2
t69 = lax_cond(t58, 0.1e5, t56)
t70 = t69 ** 2
t71 = 0.1e1 - t70
t72 = t71 ** 2
t74 = t70 * t69
t80 = lax_cond(0.1e5 <= t56, 0.1e1 - 0.3e1 / t60 - 0.1e1 / t60 / t59 + 0.3e1 / t65, -t72 * t71 / (0.1e1 + t74 * (0.1e1 + t74)))
t81 = t80 ** 2
t82 = t81 * t80
t83 = t81 ** 2
t84 = t83 * t82
t86 = t83 * t80
t90 = 0.429e3 / 0.16e2 * t84 - 0.693e3 / 0.16e2 * t86 + 0.315e3 / 0.16e2 * t82 - 0.35e2 / 0.16e2 * t80
t96 = 0.63e2 / 0.8e1 * t86 - 0.35e2 / 0.4e1 * t82 + 0.15e2 / 0.8e1 * t80
t99 = t83 * t81
t103 = -0.5e1 / 0.16e2 + 0.231e3 / 0.16e2 * t99 - 0.315e3 / 0.16e2 * t83 + 0.105e3 / 0.16e2 * t81
t108 = 0.3e1 / 0.8e1 + 0.35e2 / 0.8e1 * t83 - 0.15e2 / 0.4e1 * t81
t113 = 0.5e1 / 0.2e1 * t82 - 0.3e1 / 0.2e1 * t80
t119 = -0.1e1 / 0.2e1 + 0.3e1 / 0.2e1 * t81
t122 = t48 ** 2
t123 = t122 * t48
t126 = 0.5e1 / 0.2e1 * t123 - t46 / 0.8e1 + 0.3e1 / 0.2e1
t140 = -0.1e1 / 0.2e1 + 0.3e1 / 0.2e1 * t122
t147 = -0.940351563e-5 * t48 * t90 + 0.822139896e-3 * t48 * t96 - 0.514204676e-4 * t48 * t103 + 0.119130546e-2 * t48 * t108 - 0.303347141e-2 * t48 * t113 + 0.100339208e0 * t48 * t80 - 0.879090772e-2 * t48 * t119 + 0.896739466e-3 * t126 * t96 - 0.216860568e-7 * t126 * t103 + 0.339308972e-2 * t126 * t108 - 0.845508103e-2 * t126 * t113 + 0.280678872e-1 * t126 * t119 - 0.182177954e-1 * t126 * t80 - 0.223014657e-8 * t140 * t90 + 0.668980219e-8 * t140 * t103 - 0.351041030e-3 * t140 * t96
t156 = t122 ** 2
t159 = t156 * t122
t168 = t156 * t48
t171 = 0.182906057e-2 * t140 * t108 - 0.150103636e-1 * t140 * t119 + 0.293253041e-2 * t140 * t113 - 0.434643460e-1 * t140 * t80 - 0.13805618397812500000e0 * t156 - 0.92294814328125000000e-1 * t122 + 0.80024660533125000000e-1 * t159 + 0.19735677658125000000e-4 * t84 - 0.94588310356312500000e-3 * t86 + 0.46461028218468750000e-2 * t82 - 0.43736526393718750000e-2 * t80 + 0.30207156698031250000e-2 * t83 + 0.70318268775656250000e-2 * t81 - 0.80008813355625000000e-4 * t99 - 0.39506119958812500000e0 * t168 + 0.49794463840937500000e0 * t123
t173 = t156 * t123
t179 = 0.63e2 / 0.8e1 * t168 - 0.35e2 / 0.4e1 * t123 + 0.5e1 / 0.32e2 * t46 - 0.15e2 / 0.8e1
t186 = 0.3e1 / 0.8e1 + 0.35e2 / 0.8e1 * t156 - 0.15e2 / 0.4e1 * t122
t206 = -0.5e1 / 0.16e2 + 0.231e3 / 0.16e2 * t159 - 0.315e3 / 0.16e2 * t156 + 0.105e3 / 0.16e2 * t122
t215 = 0.10602581552062500000e0 * t173 - 0.13022208355989583333e-1 * t46 - 0.188495102e-1 * t179 * t119 - 0.884148272e-2 * t179 * t80 - 0.493824365e-8 * t186 * t90 + 0.912223751e-8 * t186 * t103 + 0.209603871e-7 * t186 * t96 - 0.790811707e-7 * t186 * t108 - 0.182911291e-1 * t186 * t119 + 0.631891628e-2 * t186 * t113 + 0.162638575e-1 * t186 * t80 + 0.674910119e-8 * t126 * t90 - 0.416393106e-7 * t206 * t108 + 0.169805915e-6 * t206 * t119 - 0.265114646e-7 * t206 * t113 - 0.957417512e-2 * t206 * t80
t230 = 0.429e3 / 0.16e2 * t173 - 0.693e3 / 0.16e2 * t168 + 0.315e3 / 0.16e2 * t123 - 0.35e2 / 0.192e3 * t46 + 0.35e2 / 0.16e2
t251 = 0.13805672252189968750e1 + 0.850272392e-8 * t179 * t90 - 0.376702959e-7 * t179 * t96 - 0.138472194e-7 * t179 * t103 + 0.162238741e-6 * t179 * t108 - 0.896771404e-2 * t179 * t113 - 0.338128188e-7 * t230 * t96 + 0.554588743e-7 * t230 * t108 + 0.505920757e-7 * t230 * t113 - 0.276524680e-6 * t230 * t119 + 0.940675747e-2 * t230 * t80 - 0.691592964e-8 * t206 * t90 + 0.694482484e-8 * t206 * t103 + 0.236391411e-7 * t206 * t96 - 0.774224962e-8 * t230 * t103 + 0.888525527e-8 * t230 * t90
t257 = lax_cond(r0 <= p_a_dens_threshold, 0, -0.3e1 / 0.8e1 * t5 * t26 * t27 * (t147 + t171 + t215 + t251))
t259 = lax_cond(t10, t15, -t17)
t260 = lax_cond(t14, t11, t259)
t261 = t260 + 0.1e1
t263 = t261 ** (0.1e1 / 0.3e1)
t265 = lax_cond(t261 <= p_a_zeta_threshold, t23, t263 * t261)
t267 = r1 ** 2
t268 = r1 ** (0.1e1 / 0.3e1)
t269 = t268 ** 2
t272 = s2 / t269 / t267
t278 = t34 * t272 / (0.65124e1 + t34 * t272 / 0.24e2)
t280 = t278 / 0.12e2 - 0.1e1
t281 = t280 ** 2
t282 = t281 ** 2
t292 = 0.5e1 / 0.9e1 * (tau1 / t269 / r1 - t272 / 0.8e1) * t29 * t33
t294 = 0.1e5 < t292
t295 = lax_cond(t294, t292, 0.1e5)
t296 = t295 ** 2
t301 = t296 ** 2
t305 = lax_cond(t294, 0.1e5, t292)
t306 = t305 ** 2
t307 = 0.1e1 - t306
t308 = t307 ** 2
t310 = t306 * t305
t316 = lax_cond(0.1e5 <= t292, 0.1e1 - 0.3e1 / t296 - 0.1e1 / t296 / t295 + 0.3e1 / t301, -t308 * t307 / (0.1e1 + t310 * (0.1e1 + t310)))
t317 = t316 ** 2
t318 = t317 ** 2
t319 = t318 * t317
t323 = t282 * t281
t326 = t318 * t316
t328 = t317 * t316
t330 = t318 * t328
t332 = t282 * t280
t334 = t281 * t280
t336 = t282 * t334
t340 = -0.1e1 / 0.2e1 + 0.3e1 / 0.2e1 * t281
t343 = 0.5e1 / 0.2e1 * t328 - 0.3e1 / 0.2e1 * t316
t348 = -0.13805618397812500000e0 * t282 - 0.92294814328125000000e-1 * t281 - 0.80008813355625000000e-4 * t319 + 0.30207156698031250000e-2 * t318 + 0.70318268775656250000e-2 * t317 + 0.80024660533125000000e-1 * t323 - 0.43736526393718750000e-2 * t316 - 0.94588310356312500000e-3 * t326 + 0.46461028218468750000e-2 * t328 + 0.19735677658125000000e-4 * t330 - 0.39506119958812500000e0 * t332 + 0.49794463840937500000e0 * t334 + 0.10602581552062500000e0 * t336 - 0.13022208355989583333e-1 * t278 + 0.293253041e-2 * t340 * t343 - 0.434643460e-1 * t340 * t316
t350 = -0.1e1 / 0.2e1 + 0.3e1 / 0.2e1 * t317
t357 = 0.429e3 / 0.16e2 * t330 - 0.693e3 / 0.16e2 * t326 + 0.315e3 / 0.16e2 * t328 - 0.35e2 / 0.16e2 * t316
t363 = 0.63e2 / 0.8e1 * t326 - 0.35e2 / 0.4e1 * t328 + 0.15e2 / 0.8e1 * t316
t369 = -0.5e1 / 0.16e2 + 0.231e3 / 0.16e2 * t319 - 0.315e3 / 0.16e2 * t318 + 0.105e3 / 0.16e2 * t317
t374 = 0.3e1 / 0.8e1 + 0.35e2 / 0.8e1 * t318 - 0.15e2 / 0.4e1 * t317
t385 = 0.3e1 / 0.8e1 + 0.35e2 / 0.8e1 * t282 - 0.15e2 / 0.4e1 * t281
t390 = 0.5e1 / 0.2e1 * t334 - t278 / 0.8e1 + 0.3e1 / 0.2e1
t405 = -0.150103636e-1 * t340 * t350 - 0.940351563e-5 * t280 * t357 + 0.822139896e-3 * t280 * t363 - 0.514204676e-4 * t280 * t369 + 0.119130546e-2 * t280 * t374 - 0.303347141e-2 * t280 * t343 - 0.879090772e-2 * t280 * t350 + 0.100339208e0 * t280 * t316 - 0.182911291e-1 * t385 * t350 + 0.674910119e-8 * t390 * t357 - 0.216860568e-7 * t390 * t369 + 0.339308972e-2 * t390 * t374 + 0.896739466e-3 * t390 * t363 - 0.845508103e-2 * t390 * t343 + 0.280678872e-1 * t390 * t350 - 0.182177954e-1 * t390 * t316
t418 = 0.63e2 / 0.8e1 * t332 - 0.35e2 / 0.4e1 * t334 + 0.5e1 / 0.32e2 * t278 - 0.15e2 / 0.8e1
t442 = -0.5e1 / 0.16e2 + 0.231e3 / 0.16e2 * t323 - 0.315e3 / 0.16e2 * t282 + 0.105e3 / 0.16e2 * t281
t447 = 0.668980219e-8 * t340 * t369 - 0.223014657e-8 * t340 * t357 - 0.351041030e-3 * t340 * t363 + 0.182906057e-2 * t340 * t374 - 0.376702959e-7 * t418 * t363 - 0.896771404e-2 * t418 * t343 - 0.188495102e-1 * t418 * t350 - 0.884148272e-2 * t418 * t316 + 0.912223751e-8 * t385 * t369 - 0.493824365e-8 * t385 * t357 + 0.209603871e-7 * t385 * t363 - 0.790811707e-7 * t385 * t374 + 0.631891628e-2 * t385 * t343 + 0.162638575e-1 * t385 * t316 + 0.236391411e-7 * t442 * t363 - 0.416393106e-7 * t442 * t374
t464 = 0.429e3 / 0.16e2 * t336 - 0.693e3 / 0.16e2 * t332 + 0.315e3 / 0.16e2 * t334 - 0.35e2 / 0.192e3 * t278 + 0.35e2 / 0.16e2
t483 = 0.13805672252189968750e1 - 0.265114646e-7 * t442 * t343 - 0.957417512e-2 * t442 * t316 + 0.169805915e-6 * t442 * t350 + 0.850272392e-8 * t418 * t357 - 0.138472194e-7 * t418 * t369 + 0.162238741e-6 * t418 * t374 - 0.338128188e-7 * t464 * t363 - 0.774224962e-8 * t464 * t369 + 0.554588743e-7 * t464 * t374 + 0.505920757e-7 * t464 * t343 - 0.276524680e-6 * t464 * t350 + 0.940675747e-2 * t464 * t316 - 0.691592964e-8 * t442 * t357 + 0.694482484e-8 * t442 * t369 + 0.888525527e-8 * t464 * t357
t489 = lax_cond(r1 <= p_a_dens_threshold, 0, -0.3e1 / 0.8e1 * t5 * t265 * t27 * (t348 + t405 + t447 + t483))
res = t257 + t489
" unpol "t3 = 3 ** (0.1e1 / 0.3e1)
t4 = math.pi ** (0.1e1 / 0.3e1)
t7 = 0.1e1 <= p_a_zeta_threshold
t8 = p_a_zeta_threshold - 0.1e1
t10 = lax_cond(t7, -t8, 0)
t11 = lax_cond(t7, t8, t10)
t12 = t11 + 0.1e1
t14 = p_a_zeta_threshold ** (0.1e1 / 0.3e1)
t16 = t12 ** (0.1e1 / 0.3e1)
t18 = lax_cond(t12 <= p_a_zeta_threshold, t14 * p_a_zeta_threshold, t16 * t12)
t19 = r0 ** (0.1e1 / 0.3e1)
t21 = 6 ** (0.1e1 / 0.3e1)
t22 = math.pi ** 2
t23 = t22 ** (0.1e1 / 0.3e1)
t24 = t23 ** 2
t25 = 0.1e1 / t24
t26 = t21 * t25
t28 = 2 ** (0.1e1 / 0.3e1)
t29 = t28 ** 2
t30 = r0 ** 2
t31 = t19 ** 2
t33 = 0.1e1 / t31 / t30
t36 = s0 * t29 * t33
t42 = t26 * s0 * t29 * t33 / (0.65124e1 + t26 * t36 / 0.24e2)
t44 = t42 / 0.12e2 - 0.1e1
t45 = t44 ** 2
t46 = t45 ** 2
t49 = t46 * t45
t59 = 0.5e1 / 0.9e1 * (tau0 * t29 / t31 / r0 - t36 / 0.8e1) * t21 * t25
t61 = 0.1e5 < t59
t62 = lax_cond(t61, t59, 0.1e5)
t63 = t62 ** 2
t68 = t63 ** 2
t72 = lax_cond(t61, 0.1e5, t59)
t73 = t72 ** 2
t74 = 0.1e1 - t73
t75 = t74 ** 2
t77 = t73 * t72
t83 = lax_cond(0.1e5 <= t59, 0.1e1 - 0.3e1 / t63 - 0.1e1 / t63 / t62 + 0.3e1 / t68, -t75 * t74 / (0.1e1 + t77 * (0.1e1 + t77)))
t84 = t83 ** 2
t85 = t84 ** 2
t86 = t85 * t84
t91 = t85 * t83
t93 = t84 * t83
t95 = t85 * t93
t97 = t45 * t44
t99 = t46 * t44
t101 = t46 * t97
t105 = 0.3e1 / 0.8e1 + 0.35e2 / 0.8e1 * t85 - 0.15e2 / 0.4e1 * t84
t111 = 0.63e2 / 0.8e1 * t91 - 0.35e2 / 0.4e1 * t93 + 0.15e2 / 0.8e1 * t83
t115 = -0.1e1 / 0.2e1 + 0.3e1 / 0.2e1 * t45
t118 = -0.13805618397812500000e0 * t46 - 0.92294814328125000000e-1 * t45 + 0.80024660533125000000e-1 * t49 - 0.80008813355625000000e-4 * t86 + 0.30207156698031250000e-2 * t85 + 0.70318268775656250000e-2 * t84 - 0.43736526393718750000e-2 * t83 - 0.94588310356312500000e-3 * t91 + 0.46461028218468750000e-2 * t93 + 0.19735677658125000000e-4 * t95 + 0.49794463840937500000e0 * t97 - 0.39506119958812500000e0 * t99 + 0.10602581552062500000e0 * t101 + 0.119130546e-2 * t44 * t105 + 0.822139896e-3 * t44 * t111 - 0.434643460e-1 * t115 * t83
t120 = -0.1e1 / 0.2e1 + 0.3e1 / 0.2e1 * t84
t125 = 0.5e1 / 0.2e1 * t93 - 0.3e1 / 0.2e1 * t83
t135 = -0.5e1 / 0.16e2 + 0.231e3 / 0.16e2 * t86 - 0.315e3 / 0.16e2 * t85 + 0.105e3 / 0.16e2 * t84
t142 = 0.429e3 / 0.16e2 * t95 - 0.693e3 / 0.16e2 * t91 + 0.315e3 / 0.16e2 * t93 - 0.35e2 / 0.16e2 * t83
t147 = 0.5e1 / 0.2e1 * t97 - t42 / 0.8e1 + 0.3e1 / 0.2e1
t164 = 0.3e1 / 0.8e1 + 0.35e2 / 0.8e1 * t46 - 0.15e2 / 0.4e1 * t45
t171 = -0.150103636e-1 * t115 * t120 + 0.293253041e-2 * t115 * t125 + 0.182906057e-2 * t115 * t105 - 0.351041030e-3 * t115 * t111 + 0.668980219e-8 * t115 * t135 - 0.223014657e-8 * t115 * t142 - 0.182177954e-1 * t147 * t83 + 0.280678872e-1 * t147 * t120 - 0.845508103e-2 * t147 * t125 + 0.339308972e-2 * t147 * t105 + 0.100339208e0 * t44 * t83 - 0.879090772e-2 * t44 * t120 - 0.303347141e-2 * t44 * t125 - 0.493824365e-8 * t164 * t142 + 0.912223751e-8 * t164 * t135 + 0.209603871e-7 * t164 * t111
t194 = -0.5e1 / 0.16e2 + 0.231e3 / 0.16e2 * t49 - 0.315e3 / 0.16e2 * t46 + 0.105e3 / 0.16e2 * t45
t202 = 0.63e2 / 0.8e1 * t99 - 0.35e2 / 0.4e1 * t97 + 0.5e1 / 0.32e2 * t42 - 0.15e2 / 0.8e1
t213 = 0.631891628e-2 * t164 * t125 - 0.790811707e-7 * t164 * t105 - 0.182911291e-1 * t164 * t120 + 0.162638575e-1 * t164 * t83 - 0.216860568e-7 * t147 * t135 + 0.674910119e-8 * t147 * t142 + 0.896739466e-3 * t147 * t111 - 0.514204676e-4 * t44 * t135 - 0.940351563e-5 * t44 * t142 - 0.265114646e-7 * t194 * t125 - 0.957417512e-2 * t194 * t83 + 0.850272392e-8 * t202 * t142 - 0.376702959e-7 * t202 * t111 - 0.138472194e-7 * t202 * t135 + 0.162238741e-6 * t202 * t105 - 0.896771404e-2 * t202 * t125
t222 = 0.429e3 / 0.16e2 * t101 - 0.693e3 / 0.16e2 * t99 + 0.315e3 / 0.16e2 * t97 - 0.35e2 / 0.192e3 * t42 + 0.35e2 / 0.16e2
t248 = 0.13805672252189968750e1 - 0.188495102e-1 * t202 * t120 - 0.884148272e-2 * t202 * t83 + 0.505920757e-7 * t222 * t125 - 0.276524680e-6 * t222 * t120 + 0.940675747e-2 * t222 * t83 - 0.691592964e-8 * t194 * t142 + 0.694482484e-8 * t194 * t135 + 0.236391411e-7 * t194 * t111 - 0.416393106e-7 * t194 * t105 + 0.169805915e-6 * t194 * t120 + 0.888525527e-8 * t222 * t142 - 0.338128188e-7 * t222 * t111 - 0.774224962e-8 * t222 * t135 + 0.554588743e-7 * t222 * t105 - 0.13022208355989583333e-1 * t42
t254 = lax_cond(r0 / 0.2e1 <= p_a_dens_threshold, 0, -0.3e1 / 0.8e1 * t3 / t4 * t18 * t19 * (t118 + t171 + t213 + t248))
res = 0.2e1 * t254
"

/- gen_repo/impl/prebuilt/pol/mgga_x_mbeefvdw.py and gen_repo/impl/prebuilt/unpol/mgga_x_mbeefvdw.py -/
formula mgga_x_mbeefvdw pol "t2 = 3 ** (0.1e1 / 0.3e1)
t3 = math.pi ** (0.1e1 / 0.3e1)
t5 = t2 / t3
t6 = r0 + r1
t7 = 0.1e1 / t6
t10 = 0.2e1 * r0 * t7 <= p_a_zeta_threshold
t11 = p_a_zeta_threshold - 0.1e1
t14 = 0.2e1 * r1 * t7 <= p_a_zeta_threshold
t15 = -t11
t17 = (r0 - r1) * t7
t18 = lax_cond(t14, t15, t17)
t19 = lax_cond(t10, t11, t18)
t20 = t19 + 0.1e1
t22 = p_a_zeta_threshold ** (0.1e1 / 0.3e1)
t23 = t22 * p_a_zeta_threshold
t24 = t20 ** (0.1e1 / 0.3e1)
t26 = lax_cond(t20 <= p_a_zeta_threshold, t23, t24 * t20)
t27 = t6 ** (0.1e1 / 0.3e1)
t29 = r0 ** (0.1e1 / 0.3e1)
t30 = t29 ** 2
t34 = r0 ** 2
t37 = s0 / t30 / t34
t40 = 6 ** (0.1e1 / 0.3e1)
t42 = math.pi ** 2
t43 = t42 ** (0.1e1 / 0.3e1)
t44 = t43 ** 2
t45 = 0.1e1 / t44
t47 = 0.5e1 / 0.9e1 * (tau0 / t30 / r0 - t37 / 0.8e1) * t40 * t45
t49 = 0.1e5 < t47
t50 = lax_cond(t49, t47, 0.1e5)
t51 = t50 ** 2
t56 = t51 ** 2
t60 = lax_cond(t49, 0.1e5, t47)
t61 = t60 ** 2
t62 = 0.1e1 - t61
t63 = t62 ** 2
t65 = t61 * t60
t71 = lax_cond(0.1e5 <= t47, 0.1e1 - 0.3e1 / t51 - 0.1e1 / t51 / t50 + 0.3e1 / t56, -t63 * t62 / (0.1e1 + t65 * (0.1e1 + t65)))
t72 = t71 ** 2
t73 = t72 * t71
t77 = t72 ** 2
t79 = t40 * t45
t85 = t79 * t37 / (0.65124e1 + t79 * t37 / 0.24e2)
t87 = t85 / 0.12e2 - 0.1e1
t88 = t87 ** 2
t90 = t88 ** 2
t92 = t88 * t87
t96 = -0.1e1 / 0.2e1 + 0.3e1 / 0.2e1 * t88
t98 = -0.1e1 / 0.2e1 + 0.3e1 / 0.2e1 * t72
t103 = 0.5e1 / 0.2e1 * t73 - 0.3e1 / 0.2e1 * t71
t108 = 0.3e1 / 0.8e1 + 0.35e2 / 0.8e1 * t77 - 0.15e2 / 0.4e1 * t72
t113 = 0.5e1 / 0.2e1 * t92 - t85 / 0.8e1 + 0.3e1 / 0.2e1
t116 = 0.35198535500000000000e-2 * t73 + 0.21768185977500000000e-1 * t72 - 0.69727705930000000000e-1 * t71 + 0.61919587625000000000e-3 * t77 - 0.85128253912500000000e-1 * t88 + 0.61869984312500000000e-2 * t90 - 0.50282912000000000000e-1 * t92 + 0.12147009850000000000e-1 * t85 - 0.521818079e-2 * t96 * t98 - 0.657949254e-6 * t96 * t103 + 0.201895739e-6 * t96 * t108 + 0.192374554e-1 * t113 * t71
t125 = 0.3e1 / 0.8e1 + 0.35e2 / 0.8e1 * t90 - 0.15e2 / 0.4e1 * t88
t144 = 0.10451438955835000000e1 + 0.133707403e-6 * t113 * t98 - 0.549909413e-7 * t113 * t103 + 0.397324768e-8 * t113 * t108 + 0.919317034e-6 * t125 * t71 - 0.500749348e-6 * t125 * t98 + 0.574317889e-7 * t125 * t103 - 0.340722258e-8 * t125 * t108 + 0.453837246e-1 * t87 * t71 + 0.318024096e-1 * t87 * t98 - 0.608338264e-2 * t87 * t103 - 0.100478906e-6 * t87 * t108 - 0.222650139e-1 * t96 * t71
t149 = lax_cond(r0 <= p_a_dens_threshold, 0, -0.3e1 / 0.8e1 * t5 * t26 * t27 * (t116 + t144))
t151 = lax_cond(t10, t15, -t17)
t152 = lax_cond(t14, t11, t151)
t153 = t152 + 0.1e1
t155 = t153 ** (0.1e1 / 0.3e1)
t157 = lax_cond(t153 <= p_a_zeta_threshold, t23, t155 * t153)
t159 = r1 ** 2
t160 = r1 ** (0.1e1 / 0.3e1)
t161 = t160 ** 2
t164 = s2 / t161 / t159
t170 = t79 * t164 / (0.65124e1 + t79 * t164 / 0.24e2)
t172 = t170 / 0.12e2 - 0.1e1
t173 = t172 ** 2
t174 = t173 * t172
t183 = 0.5e1 / 0.9e1 * (tau1 / t161 / r1 - t164 / 0.8e1) * t40 * t45
t185 = 0.1e5 < t183
t186 = lax_cond(t185, t183, 0.1e5)
t187 = t186 ** 2
t192 = t187 ** 2
t196 = lax_cond(t185, 0.1e5, t183)
t197 = t196 ** 2
t198 = 0.1e1 - t197
t199 = t198 ** 2
t201 = t197 * t196
t207 = lax_cond(0.1e5 <= t183, 0.1e1 - 0.3e1 / t187 - 0.1e1 / t187 / t186 + 0.3e1 / t192, -t199 * t198 / (0.1e1 + t201 * (0.1e1 + t201)))
t208 = t207 ** 2
t209 = t208 * t207
t213 = t208 ** 2
t216 = t173 ** 2
t220 = -0.1e1 / 0.2e1 + 0.3e1 / 0.2e1 * t173
t223 = 0.5e1 / 0.2e1 * t209 - 0.3e1 / 0.2e1 * t207
t228 = 0.3e1 / 0.8e1 + 0.35e2 / 0.8e1 * t213 - 0.15e2 / 0.4e1 * t208
t232 = -0.1e1 / 0.2e1 + 0.3e1 / 0.2e1 * t208
t237 = -0.50282912000000000000e-1 * t174 + 0.35198535500000000000e-2 * t209 - 0.69727705930000000000e-1 * t207 + 0.21768185977500000000e-1 * t208 + 0.61919587625000000000e-3 * t213 - 0.85128253912500000000e-1 * t173 + 0.61869984312500000000e-2 * t216 + 0.12147009850000000000e-1 * t170 - 0.657949254e-6 * t220 * t223 + 0.201895739e-6 * t220 * t228 - 0.521818079e-2 * t220 * t232 - 0.222650139e-1 * t220 * t207
t248 = 0.3e1 / 0.8e1 + 0.35e2 / 0.8e1 * t216 - 0.15e2 / 0.4e1 * t173
t259 = 0.5e1 / 0.2e1 * t174 - t170 / 0.8e1 + 0.3e1 / 0.2e1
t268 = 0.10451438955835000000e1 - 0.608338264e-2 * t172 * t223 - 0.100478906e-6 * t172 * t228 + 0.318024096e-1 * t172 * t232 + 0.453837246e-1 * t172 * t207 - 0.340722258e-8 * t248 * t228 + 0.574317889e-7 * t248 * t223 - 0.500749348e-6 * t248 * t232 + 0.919317034e-6 * t248 * t207 + 0.397324768e-8 * t259 * t228 - 0.549909413e-7 * t259 * t223 + 0.133707403e-6 * t259 * t232 + 0.192374554e-1 * t259 * t207
t273 = lax_cond(r1 <= p_a_dens_threshold, 0, -0.3e1 / 0.8e1 * t5 * t157 * t27 * (t237 + t268))
res = t149 + t273
" unpol "t3 = 3 ** (0.1e1 / 0.3e1)
t4 = math.pi ** (0.1e1 / 0.3e1)
t7 = 0.1e1 <= p_a_zeta_threshold
t8 = p_a_zeta_threshold - 0.1e1
t10 = lax_cond(t7, -t8, 0)
t11 = lax_cond(t7, t8, t10)
t12 = t11 + 0.1e1
t14 = p_a_zeta_threshold ** (0.1e1 / 0.3e1)
t16 = t12 ** (0.1e1 / 0.3e1)
t18 = lax_cond(t12 <= p_a_zeta_threshold, t14 * p_a_zeta_threshold, t16 * t12)
t19 = r0 ** (0.1e1 / 0.3e1)
t21 = 2 ** (0.1e1 / 0.3e1)
t22 = t21 ** 2
t24 = t19 ** 2
t29 = r0 ** 2
t31 = 0.1e1 / t24 / t29
t32 = s0 * t22 * t31
t35 = 6 ** (0.1e1 / 0.3e1)
t37 = math.pi ** 2
t38 = t37 ** (0.1e1 / 0.3e1)
t39 = t38 ** 2
t40 = 0.1e1 / t39
t42 = 0.5e1 / 0.9e1 * (tau0 * t22 / t24 / r0 - t32 / 0.8e1) * t35 * t40
t44 = 0.1e5 < t42
t45 = lax_cond(t44, t42, 0.1e5)
t46 = t45 ** 2
t51 = t46 ** 2
t55 = lax_cond(t44, 0.1e5, t42)
t56 = t55 ** 2
t57 = 0.1e1 - t56
t58 = t57 ** 2
t60 = t56 * t55
t66 = lax_cond(0.1e5 <= t42, 0.1e1 - 0.3e1 / t46 - 0.1e1 / t46 / t45 + 0.3e1 / t51, -t58 * t57 / (0.1e1 + t60 * (0.1e1 + t60)))
t67 = t66 ** 2
t68 = t67 ** 2
t70 = t67 * t66
t74 = t35 * t40
t82 = t74 * s0 * t22 * t31 / (0.65124e1 + t74 * t32 / 0.24e2)
t84 = t82 / 0.12e2 - 0.1e1
t85 = t84 ** 2
t86 = t85 * t84
t89 = t85 ** 2
t93 = 0.3e1 / 0.8e1 + 0.35e2 / 0.8e1 * t89 - 0.15e2 / 0.4e1 * t85
t95 = -0.1e1 / 0.2e1 + 0.3e1 / 0.2e1 * t67
t100 = 0.5e1 / 0.2e1 * t70 - 0.3e1 / 0.2e1 * t66
t105 = 0.3e1 / 0.8e1 + 0.35e2 / 0.8e1 * t68 - 0.15e2 / 0.4e1 * t67
t112 = 0.61919587625000000000e-3 * t68 + 0.35198535500000000000e-2 * t70 + 0.21768185977500000000e-1 * t67 - 0.69727705930000000000e-1 * t66 - 0.50282912000000000000e-1 * t86 - 0.85128253912500000000e-1 * t85 + 0.61869984312500000000e-2 * t89 - 0.500749348e-6 * t93 * t95 + 0.574317889e-7 * t93 * t100 - 0.340722258e-8 * t93 * t105 + 0.453837246e-1 * t84 * t66 + 0.318024096e-1 * t84 * t95
t118 = -0.1e1 / 0.2e1 + 0.3e1 / 0.2e1 * t85
t129 = 0.5e1 / 0.2e1 * t86 - t82 / 0.8e1 + 0.3e1 / 0.2e1
t141 = 0.10451438955835000000e1 - 0.608338264e-2 * t84 * t100 - 0.100478906e-6 * t84 * t105 - 0.222650139e-1 * t118 * t66 - 0.521818079e-2 * t118 * t95 - 0.657949254e-6 * t118 * t100 + 0.201895739e-6 * t118 * t105 + 0.192374554e-1 * t129 * t66 + 0.133707403e-6 * t129 * t95 - 0.549909413e-7 * t129 * t100 + 0.397324768e-8 * t129 * t105 + 0.919317034e-6 * t93 * t66 + 0.12147009850000000000e-1 * t82
t146 = lax_cond(r0 / 0.2e1 <= p_a_dens_threshold, 0, -0.3e1 / 0.8e1 * t3 / t4 * t18 * t19 * (t112 + t141))
res = 0.2e1 * t146
"

/- gen_repo/impl/prebuilt/pol/mgga_x_mbr.py and gen_repo/impl/prebuilt/unpol/mgga_x_mbr.py -/
formula mgga_x_mbr pol "t2 = r0 + r1
t3 = 0.1e1 / t2
t6 = 0.2e1 * r0 * t3 <= p_a_zeta_threshold
t7 = p_a_zeta_threshold - 0.1e1
t10 = 0.2e1 * r1 * t3 <= p_a_zeta_threshold
t11 = -t7
t13 = (r0 - r1) * t3
t14 = lax_cond(t10, t11, t13)
t15 = lax_cond(t6, t7, t14)
t16 = 0.1e1 + t15
t18 = p_a_zeta_threshold ** (0.1e1 / 0.3e1)
t19 = t18 * p_a_zeta_threshold
t20 = t16 ** (0.1e1 / 0.3e1)
t22 = lax_cond(t16 <= p_a_zeta_threshold, t19, t20 * t16)
t23 = t2 ** (0.1e1 / 0.3e1)
t26 = (0.1e1 / math.pi) ** (0.1e1 / 0.3e1)
t27 = 0.1e1 / t26
t29 = 4 ** (0.1e1 / 0.3e1)
t30 = params_a_lambda ** 2
t31 = t30 - params_a_lambda + 0.1e1 / 0.2e1
t32 = r0 ** (0.1e1 / 0.3e1)
t33 = t32 ** 2
t37 = 0.2e1 * tau0 / t33 / r0
t38 = 6 ** (0.1e1 / 0.3e1)
t39 = t38 ** 2
t40 = math.pi ** 2
t41 = t40 ** (0.1e1 / 0.3e1)
t42 = t41 ** 2
t43 = t39 * t42
t44 = 0.3e1 / 0.5e1 * t43
t45 = r0 ** 2
t47 = 0.1e1 / t33 / t45
t54 = (0.2e1 * params_a_lambda - 0.1e1) ** 2
t55 = t54 * t38
t56 = 0.1e1 / t42
t61 = t54 ** 2
t63 = params_a_beta * t61 * t39
t65 = 0.1e1 / t41 / t40
t66 = s0 ** 2
t68 = t45 ** 2
t76 = (0.1e1 + 0.175e3 / 0.162e3 * t55 * t56 * s0 * t47 + t63 * t65 * t66 / t32 / t68 / r0 / 0.576e3) ** (0.1e1 / 0.5e1)
t86 = t31 * (t37 - t44 - s0 * t47 / 0.36e2) + t43 * (t76 - 0.1e1) / 0.5e1 - params_a_gamma * (t37 - t54 * s0 * t47 / 0.4e1) / 0.3e1
t87 = abs(t86)
t90 = lax_cond(0.0e0 < t86, 0.50e-12, -0.50e-12)
t91 = lax_cond(t87 < 0.50e-12, t90, t86)
t92 = br89_x(t91)
t94 = math.exp(t92 / 0.3e1)
t96 = math.exp(-t92)
t106 = lax_cond(r0 <= p_a_dens_threshold, 0, -t22 * t23 * t27 * t29 * t94 * (0.1e1 - t96 * (0.1e1 + t92 / 0.2e1)) / t92 / 0.4e1)
t108 = lax_cond(t6, t11, -t13)
t109 = lax_cond(t10, t7, t108)
t110 = 0.1e1 + t109
t112 = t110 ** (0.1e1 / 0.3e1)
t114 = lax_cond(t110 <= p_a_zeta_threshold, t19, t112 * t110)
t117 = r1 ** (0.1e1 / 0.3e1)
t118 = t117 ** 2
t122 = 0.2e1 * tau1 / t118 / r1
t123 = r1 ** 2
t125 = 0.1e1 / t118 / t123
t134 = s2 ** 2
t136 = t123 ** 2
t144 = (0.1e1 + 0.175e3 / 0.162e3 * t55 * t56 * s2 * t125 + t63 * t65 * t134 / t117 / t136 / r1 / 0.576e3) ** (0.1e1 / 0.5e1)
t154 = t31 * (t122 - t44 - s2 * t125 / 0.36e2) + t43 * (t144 - 0.1e1) / 0.5e1 - params_a_gamma * (t122 - t54 * s2 * t125 / 0.4e1) / 0.3e1
t155 = abs(t154)
t158 = lax_cond(0.0e0 < t154, 0.50e-12, -0.50e-12)
t159 = lax_cond(t155 < 0.50e-12, t158, t154)
t160 = br89_x(t159)
t162 = math.exp(t160 / 0.3e1)
t164 = math.exp(-t160)
t174 = lax_cond(r1 <= p_a_dens_threshold, 0, -t114 * t23 * t27 * t29 * t162 * (0.1e1 - t164 * (0.1e1 + t160 / 0.2e1)) / t160 / 0.4e1)
res = t106 + t174
" unpol "t3 = 0.1e1 <= p_a_zeta_threshold
t4 = p_a_zeta_threshold - 0.1e1
t6 = lax_cond(t3, -t4, 0)
t7 = lax_cond(t3, t4, t6)
t8 = 0.1e1 + t7
t10 = p_a_zeta_threshold ** (0.1e1 / 0.3e1)
t12 = t8 ** (0.1e1 / 0.3e1)
t14 = lax_cond(t8 <= p_a_zeta_threshold, t10 * p_a_zeta_threshold, t12 * t8)
t15 = r0 ** (0.1e1 / 0.3e1)
t18 = (0.1e1 / math.pi) ** (0.1e1 / 0.3e1)
t21 = 4 ** (0.1e1 / 0.3e1)
t22 = params_a_lambda ** 2
t24 = 2 ** (0.1e1 / 0.3e1)
t25 = t24 ** 2
t27 = t15 ** 2
t31 = 0.2e1 * tau0 * t25 / t27 / r0
t32 = 6 ** (0.1e1 / 0.3e1)
t33 = t32 ** 2
t34 = math.pi ** 2
t35 = t34 ** (0.1e1 / 0.3e1)
t36 = t35 ** 2
t37 = t33 * t36
t40 = r0 ** 2
t42 = 0.1e1 / t27 / t40
t43 = s0 * t25 * t42
t49 = (0.2e1 * params_a_lambda - 0.1e1) ** 2
t55 = t49 ** 2
t60 = s0 ** 2
t62 = t40 ** 2
t71 = (0.1e1 + 0.175e3 / 0.162e3 * t49 * t32 / t36 * t43 + params_a_beta * t55 * t33 / t35 / t34 * t60 * t24 / t15 / t62 / r0 / 0.288e3) ** (0.1e1 / 0.5e1)
t82 = (t22 - params_a_lambda + 0.1e1 / 0.2e1) * (t31 - 0.3e1 / 0.5e1 * t37 - t43 / 0.36e2) + t37 * (t71 - 0.1e1) / 0.5e1 - params_a_gamma * (t31 - t49 * s0 * t25 * t42 / 0.4e1) / 0.3e1
t83 = abs(t82)
t86 = lax_cond(0.0e0 < t82, 0.50e-12, -0.50e-12)
t87 = lax_cond(t83 < 0.50e-12, t86, t82)
t88 = br89_x(t87)
t90 = math.exp(t88 / 0.3e1)
t92 = math.exp(-t88)
t102 = lax_cond(r0 / 0.2e1 <= p_a_dens_threshold, 0, -t14 * t15 / t18 * t21 * t90 * (0.1e1 - t92 * (0.1e1 + t88 / 0.2e1)) / t88 / 0.4e1)
res = 0.2e1 * t102
"

/- gen_repo/impl/prebuilt/pol/mgga_x_mbrxc_bg.py and gen_repo/impl/prebuilt/unpol/mgga_x_mbrxc_bg.py -/
formula mgga_x_mbrxc_bg pol "t2 = r0 + r1
t3 = 0.1e1 / t2
t6 = 0.2e1 * r0 * t3 <= p_a_zeta_threshold
t7 = p_a_zeta_threshold - 0.1e1
t10 = 0.2e1 * r1 * t3 <= p_a_zeta_threshold
t11 = -t7
t13 = (r0 - r1) * t3
t14 = lax_cond(t10, t11, t13)
t15 = lax_cond(t6, t7, t14)
t16 = 0.1e1 + t15
t18 = p_a_zeta_threshold ** (0.1e1 / 0.3e1)
t19 = t18 * p_a_zeta_threshold
t20 = t16 ** (0.1e1 / 0.3e1)
t22 = lax_cond(t16 <= p_a_zeta_threshold, t19, t20 * t16)
t23 = t2 ** (0.1e1 / 0.3e1)
t25 = 32 ** (0.1e1 / 0.3e1)
t27 = (0.1e1 / math.pi) ** (0.1e1 / 0.3e1)
t29 = t25 / t27
t31 = 4 ** (0.1e1 / 0.3e1)
t32 = r0 ** (0.1e1 / 0.3e1)
t33 = t32 ** 2
t38 = 6 ** (0.1e1 / 0.3e1)
t39 = t38 ** 2
t40 = math.pi ** 2
t41 = t40 ** (0.1e1 / 0.3e1)
t42 = t41 ** 2
t44 = 0.3e1 / 0.10e2 * t39 * t42
t45 = r0 ** 2
t50 = s0 ** 2
t51 = t45 ** 2
t57 = 0.149492e0 * tau0 / t33 / r0 - t44 + 0.147e0 * s0 / t33 / t45 + 0.32e-2 * t50 / t32 / t51 / r0
t58 = abs(t57)
t61 = lax_cond(0.0e0 < t57, 0.50e-12, -0.50e-12)
t62 = lax_cond(t58 < 0.50e-12, t61, t57)
t63 = mbrxc_x(t62)
t65 = math.exp(t63 / 0.3e1)
t67 = math.exp(-t63)
t68 = t63 ** 2
t76 = (0.1e1 + t63) ** (0.1e1 / 0.3e1)
t82 = lax_cond(r0 <= p_a_dens_threshold, 0, -t22 * t23 * t29 * t31 * t65 * (0.8e1 - t67 * (t68 + 0.5e1 * t63 + 0.8e1)) / t63 / t76 / 0.64e2)
t84 = lax_cond(t6, t11, -t13)
t85 = lax_cond(t10, t7, t84)
t86 = 0.1e1 + t85
t88 = t86 ** (0.1e1 / 0.3e1)
t90 = lax_cond(t86 <= p_a_zeta_threshold, t19, t88 * t86)
t93 = r1 ** (0.1e1 / 0.3e1)
t94 = t93 ** 2
t99 = r1 ** 2
t104 = s2 ** 2
t105 = t99 ** 2
t111 = 0.149492e0 * tau1 / t94 / r1 - t44 + 0.147e0 * s2 / t94 / t99 + 0.32e-2 * t104 / t93 / t105 / r1
t112 = abs(t111)
t115 = lax_cond(0.0e0 < t111, 0.50e-12, -0.50e-12)
t116 = lax_cond(t112 < 0.50e-12, t115, t111)
t117 = mbrxc_x(t116)
t119 = math.exp(t117 / 0.3e1)
t121 = math.exp(-t117)
t122 = t117 ** 2
t130 = (0.1e1 + t117) ** (0.1e1 / 0.3e1)
t136 = lax_cond(r1 <= p_a_dens_threshold, 0, -t90 * t23 * t29 * t31 * t119 * (0.8e1 - t121 * (t122 + 0.5e1 * t117 + 0.8e1)) / t117 / t130 / 0.64e2)
res = t82 + t136
" unpol "t3 = 0.1e1 <= p_a_zeta_threshold
t4 = p_a_zeta_threshold - 0.1e1
t6 = lax_cond(t3, -t4, 0)
t7 = lax_cond(t3, t4, t6)
t8 = 0.1e1 + t7
t10 = p_a_zeta_threshold ** (0.1e1 / 0.3e1)
t12 = t8 ** (0.1e1 / 0.3e1)
t14 = lax_cond(t8 <= p_a_zeta_threshold, t10 * p_a_zeta_threshold, t12 * t8)
t15 = r0 ** (0.1e1 / 0.3e1)
t17 = 32 ** (0.1e1 / 0.3e1)
t19 = (0.1e1 / math.pi) ** (0.1e1 / 0.3e1)
t23 = 4 ** (0.1e1 / 0.3e1)
t24 = 2 ** (0.1e1 / 0.3e1)
t25 = t24 ** 2
t27 = t15 ** 2
t32 = 6 ** (0.1e1 / 0.3e1)
t33 = t32 ** 2
t34 = math.pi ** 2
t35 = t34 ** (0.1e1 / 0.3e1)
t36 = t35 ** 2
t40 = r0 ** 2
t45 = s0 ** 2
t47 = t40 ** 2
t53 = 0.149492e0 * tau0 * t25 / t27 / r0 - 0.3e1 / 0.10e2 * t33 * t36 + 0.147e0 * s0 * t25 / t27 / t40 + 0.64e-2 * t45 * t24 / t15 / t47 / r0
t54 = abs(t53)
t57 = lax_cond(0.0e0 < t53, 0.50e-12, -0.50e-12)
t58 = lax_cond(t54 < 0.50e-12, t57, t53)
t59 = mbrxc_x(t58)
t61 = math.exp(t59 / 0.3e1)
t63 = math.exp(-t59)
t64 = t59 ** 2
t72 = (0.1e1 + t59) ** (0.1e1 / 0.3e1)
t78 = lax_cond(r0 / 0.2e1 <= p_a_dens_threshold, 0, -t14 * t15 * t17 / t19 * t23 * t61 * (0.8e1 - t63 * (t64 + 0.5e1 * t59 + 0.8e1)) / t59 / t72 / 0.64e2)
res = 0.2e1 * t78
"

/- gen_repo/impl/prebuilt/pol/mgga_x_mbrxh_bg.py and gen_repo/impl/prebuilt/unpol/mgga_x_mbrxh_bg.py -/
formula mgga_x_mbrxh_bg pol "t2 = r0 + r1
t3 = 0.1e1 / t2
t6 = 0.2e1 * r0 * t3 <= p_a_zeta_threshold
t7 = p_a_zeta_threshold - 0.1e1
t10 = 0.2e1 * r1 * t3 <= p_a_zeta_threshold
t11 = -t7
t13 = (r0 - r1) * t3
t14 = lax_cond(t10, t11, t13)
t15 = lax_cond(t6, t7, t14)
t16 = 0.1e1 + t15
t18 = p_a_zeta_threshold ** (0.1e1 / 0.3e1)
t19 = t18 * p_a_zeta_threshold
t20 = t16 ** (0.1e1 / 0.3e1)
t22 = lax_cond(t16 <= p_a_zeta_threshold, t19, t20 * t16)
t23 = t2 ** (0.1e1 / 0.3e1)
t26 = (0.1e1 / math.pi) ** (0.1e1 / 0.3e1)
t27 = 0.1e1 / t26
t29 = 4 ** (0.1e1 / 0.3e1)
t30 = r0 ** (0.1e1 / 0.3e1)
t31 = t30 ** 2
t36 = 6 ** (0.1e1 / 0.3e1)
t37 = t36 ** 2
t38 = math.pi ** 2
t39 = t38 ** (0.1e1 / 0.3e1)
t40 = t39 ** 2
t42 = 0.3e1 / 0.10e2 * t37 * t40
t43 = r0 ** 2
t48 = s0 ** 2
t49 = t43 ** 2
t55 = 0.46864e0 * tau0 / t31 / r0 - t42 + 0.89e-1 * s0 / t31 / t43 + 0.53e-2 * t48 / t30 / t49 / r0
t56 = abs(t55)
t59 = lax_cond(0.0e0 < t55, 0.50e-12, -0.50e-12)
t60 = lax_cond(t56 < 0.50e-12, t59, t55)
t61 = br89_x(t60)
t63 = math.exp(t61 / 0.3e1)
t65 = math.exp(-t61)
t75 = lax_cond(r0 <= p_a_dens_threshold, 0, -t22 * t23 * t27 * t29 * t63 * (0.1e1 - t65 * (0.1e1 + t61 / 0.2e1)) / t61 / 0.4e1)
t77 = lax_cond(t6, t11, -t13)
t78 = lax_cond(t10, t7, t77)
t79 = 0.1e1 + t78
t81 = t79 ** (0.1e1 / 0.3e1)
t83 = lax_cond(t79 <= p_a_zeta_threshold, t19, t81 * t79)
t86 = r1 ** (0.1e1 / 0.3e1)
t87 = t86 ** 2
t92 = r1 ** 2
t97 = s2 ** 2
t98 = t92 ** 2
t104 = 0.46864e0 * tau1 / t87 / r1 - t42 + 0.89e-1 * s2 / t87 / t92 + 0.53e-2 * t97 / t86 / t98 / r1
t105 = abs(t104)
t108 = lax_cond(0.0e0 < t104, 0.50e-12, -0.50e-12)
t109 = lax_cond(t105 < 0.50e-12, t108, t104)
t110 = br89_x(t109)
t112 = math.exp(t110 / 0.3e1)
t114 = math.exp(-t110)
t124 = lax_cond(r1 <= p_a_dens_threshold, 0, -t83 * t23 * t27 * t29 * t112 * (0.1e1 - t114 * (0.1e1 + t110 / 0.2e1)) / t110 / 0.4e1)
res = t75 + t124
" unpol "t3 = 0.1e1 <= p_a_zeta_threshold
t4 = p_a_zeta_threshold - 0.1e1
t6 = lax_cond(t3, -t4, 0)
t7 = lax_cond(t3, t4, t6)
t8 = 0.1e1 + t7
t10 = p_a_zeta_threshold ** (0.1e1 / 0.3e1)
t12 = t8 ** (0.1e1 / 0.3e1)
t14 = lax_cond(t8 <= p_a_zeta_threshold, t10 * p_a_zeta_threshold, t12 * t8)
t15 = r0 ** (0.1e1 / 0.3e1)
t18 = (0.1e1 / math.pi) ** (0.1e1 / 0.3e1)
t21 = 4 ** (0.1e1 / 0.3e1)
t22 = 2 ** (0.1e1 / 0.3e1)
t23 = t22 ** 2
t25 = t15 ** 2
t30 = 6 ** (0.1e1 / 0.3e1)
t31 = t30 ** 2
t32 = math.pi ** 2
t33 = t32 ** (0.1e1 / 0.3e1)
t34 = t33 ** 2
t38 = r0 ** 2
t43 = s0 ** 2
t45 = t38 ** 2
t51 = 0.46864e0 * tau0 * t23 / t25 / r0 - 0.3e1 / 0.10e2 * t31 * t34 + 0.89e-1 * s0 * t23 / t25 / t38 + 0.106e-1 * t43 * t22 / t15 / t45 / r0
t52 = abs(t51)
t55 = lax_cond(0.0e0 < t51, 0.50e-12, -0.50e-12)
t56 = lax_cond(t52 < 0.50e-12, t55, t51)
t57 = br89_x(t56)
t59 = math.exp(t57 / 0.3e1)
t61 = math.exp(-t57)
t71 = lax_cond(r0 / 0.2e1 <= p_a_dens_threshold, 0, -t14 * t15 / t18 * t21 * t59 * (0.1e1 - t61 * (0.1e1 + t57 / 0.2e1)) / t57 / 0.4e1)
res = 0.2e1 * t71
"

/- gen_repo/impl/prebuilt/pol/mgga_x_mcml.py and gen_repo/impl/prebuilt/unpol/mgga_x_mcml.py -/
formula mgga_x_mcml pol "t2 = 3 ** (0.1e1 / 0.3e1)
t3 = math.pi ** (0.1e1 / 0.3e1)
t5 = t2 / t3
t6 = r0 + r1
t7 = 0.1e1 / t6
t10 = 0.2e1 * r0 * t7 <= p_a_zeta_threshold
t11 = p_a_zeta_threshold - 0.1e1
t14 = 0.2e1 * r1 * t7 <= p_a_zeta_threshold
t15 = -t11
t17 = (r0 - r1) * t7
t18 = lax_cond(t14, t15, t17)
t19 = lax_cond(t10, t11, t18)
t20 = t19 + 0.1e1
t22 = p_a_zeta_threshold ** (0.1e1 / 0.3e1)
t23 = t22 * p_a_zeta_threshold
t24 = t20 ** (0.1e1 / 0.3e1)
t26 = lax_cond(t20 <= p_a_zeta_threshold, t23, t24 * t20)
t27 = t6 ** (0.1e1 / 0.3e1)
t29 = 6 ** (0.1e1 / 0.3e1)
t30 = math.pi ** 2
t31 = t30 ** (0.1e1 / 0.3e1)
t32 = t31 ** 2
t33 = 0.1e1 / t32
t34 = t29 * t33
t35 = r0 ** 2
t36 = r0 ** (0.1e1 / 0.3e1)
t37 = t36 ** 2
t40 = s0 / t37 / t35
t46 = t34 * t40 / (0.65124e1 + t34 * t40 / 0.24e2)
t48 = t46 / 0.12e2 - 0.1e1
t49 = t48 ** 2
t50 = t49 ** 2
t53 = t50 * t49
t62 = 0.5e1 / 0.9e1 * (tau0 / t37 / r0 - t40 / 0.8e1) * t29 * t33
t64 = 0.1e5 < t62
t65 = lax_cond(t64, t62, 0.1e5)
t66 = t65 ** 2
t72 = t66 ** 2
t76 = lax_cond(t64, 0.1e5, t62)
t77 = t76 ** 2
t78 = 0.1e1 - t77
t79 = t78 ** 2
t81 = t77 * t76
t88 = lax_cond(0.1e5 <= t62, -0.1e1 / 0.4e1 + 0.3e1 / 0.4e1 / t66 + 0.1e1 / t66 / t65 / 0.16e2 - 0.3e1 / 0.4e1 / t72, t79 * t78 / (0.1e1 + t81 * (0.1e1 + 0.4e1 * t81)))
t89 = t88 ** 2
t90 = t89 ** 2
t91 = t90 * t89
t96 = t90 * t88
t98 = t89 * t88
t100 = t90 * t98
t102 = t50 * t48
t104 = t49 * t48
t106 = t50 * t104
t109 = -0.1e1 / 0.2e1 + 0.3e1 / 0.2e1 * t49
t112 = 0.3e1 / 0.8e1 + 0.35e2 / 0.8e1 * t90 - 0.15e2 / 0.4e1 * t89
t116 = -0.1e1 / 0.2e1 + 0.3e1 / 0.2e1 * t89
t121 = -0.1047053293912749375e-2 * t50 - 0.37102687351218925312e0 * t49 + 0.22419222998949863625e-1 * t53 - 0.28551704175417885000e-1 * t91 + 0.29439726278665657500e-1 * t90 - 0.58828844909941371000e-2 * t89 + 0.20748619661467272631e0 * t88 + 0.87534515809640139190e-1 * t96 - 0.32121495135261672812e-1 * t98 - 0.67464548655177289688e-1 * t100 - 0.15887583418757175563e-1 * t102 + 0.74168801870361915620e-2 * t104 + 0.15682422300093093188e-1 * t106 - 0.1863882881010248e-2 * t109 * t112 - 0.1153807045825489e-2 * t109 * t116 - 0.1437960658302686e-1 * t109 * t88
t125 = -0.5e1 / 0.16e2 + 0.231e3 / 0.16e2 * t91 - 0.315e3 / 0.16e2 * t90 + 0.105e3 / 0.16e2 * t89
t132 = 0.429e3 / 0.16e2 * t100 - 0.693e3 / 0.16e2 * t96 + 0.315e3 / 0.16e2 * t98 - 0.35e2 / 0.16e2 * t88
t138 = 0.63e2 / 0.8e1 * t96 - 0.35e2 / 0.4e1 * t98 + 0.15e2 / 0.8e1 * t88
t147 = 0.5e1 / 0.2e1 * t98 - 0.3e1 / 0.2e1 * t88
t154 = 0.3e1 / 0.8e1 + 0.35e2 / 0.8e1 * t50 - 0.15e2 / 0.4e1 * t49
t159 = 0.5e1 / 0.2e1 * t104 - t46 / 0.8e1 + 0.3e1 / 0.2e1
t176 = 0.1491587478361034e-2 * t48 * t125 + 0.1940164714223896e-2 * t48 * t132 + 0.2007295399058147e-2 * t48 * t138 + 0.2915285520983635e-2 * t48 * t112 + 0.1794638556864410e-2 * t48 * t116 + 0.2125332357775206e-2 * t48 * t147 + 0.1179363564823021e0 * t48 * t88 + 0.1683215086686233e-1 * t154 * t88 - 0.6058496834176058e-3 * t159 * t125 + 0.4312411759243052e-3 * t159 * t132 + 0.1672905908063297e-3 * t159 * t138 - 0.2494950550547465e-2 * t159 * t112 + 0.3712786171321043e-2 * t159 * t147 - 0.1030571429426108e-1 * t159 * t88 - 0.7090296813211244e-3 * t159 * t116 - 0.1175614476758423e-2 * t109 * t132
t187 = 0.63e2 / 0.8e1 * t102 - 0.35e2 / 0.4e1 * t104 + 0.5e1 / 0.32e2 * t46 - 0.15e2 / 0.8e1
t213 = -0.5e1 / 0.16e2 + 0.231e3 / 0.16e2 * t53 - 0.315e3 / 0.16e2 * t50 + 0.105e3 / 0.16e2 * t49
t218 = -0.1288306127279617e-2 * t109 * t125 - 0.1189668304951413e-2 * t109 * t138 - 0.9641371299507833e-3 * t109 * t147 - 0.5869916483960576e-3 * t187 * t138 - 0.1009981263546227e-2 * t187 * t112 + 0.2262886186270548e-3 * t187 * t147 + 0.6670848599065867e-2 * t187 * t116 - 0.2577333382727080e-3 * t187 * t88 + 0.3212943141118693e-5 * t154 * t132 + 0.2776060240069905e-3 * t154 * t125 - 0.2721968500889238e-3 * t154 * t138 + 0.1282471852770764e-2 * t154 * t147 + 0.4187827907710905e-3 * t154 * t112 + 0.1370288635457470e-3 * t154 * t116 + 0.4260858412001439e-3 * t213 * t125 + 0.1136485825094485e-2 * t213 * t138
t235 = 0.429e3 / 0.16e2 * t106 - 0.693e3 / 0.16e2 * t102 + 0.315e3 / 0.16e2 * t104 - 0.35e2 / 0.192e3 * t46 + 0.35e2 / 0.16e2
t253 = 0.13502664484515602222e1 - 0.6510071882485726e-2 * t213 * t147 + 0.4230264400260503e-3 * t213 * t112 - 0.5498112922165805e-2 * t213 * t116 + 0.2334616776649133e-2 * t213 * t88 - 0.1622621390953226e-2 * t187 * t125 - 0.2202759704065197e-3 * t187 * t132 - 0.3682519432462936e-3 * t235 * t125 + 0.1522474179598972e-2 * t235 * t138 + 0.2457525918536260e-2 * t235 * t112 + 0.1243327883803539e-1 * t235 * t147 + 0.3837976998664341e-3 * t235 * t88 + 0.1421391023843761e-2 * t235 * t116 + 0.3807158595350892e-3 * t213 * t132 - 0.3695503801501715e-3 * t235 * t132 - 0.13465921726261020182e-1 * t46
t259 = lax_cond(r0 <= p_a_dens_threshold, 0, -0.3e1 / 0.8e1 * t5 * t26 * t27 * (t121 + t176 + t218 + t253))
t261 = lax_cond(t10, t15, -t17)
t262 = lax_cond(t14, t11, t261)
t263 = t262 + 0.1e1
t265 = t263 ** (0.1e1 / 0.3e1)
t267 = lax_cond(t263 <= p_a_zeta_threshold, t23, t265 * t263)
t269 = r1 ** 2
t270 = r1 ** (0.1e1 / 0.3e1)
t271 = t270 ** 2
t274 = s2 / t271 / t269
t280 = t34 * t274 / (0.65124e1 + t34 * t274 / 0.24e2)
t282 = t280 / 0.12e2 - 0.1e1
t283 = t282 ** 2
t284 = t283 ** 2
t287 = t284 * t283
t296 = 0.5e1 / 0.9e1 * (tau1 / t271 / r1 - t274 / 0.8e1) * t29 * t33
t298 = 0.1e5 < t296
t299 = lax_cond(t298, t296, 0.1e5)
t300 = t299 ** 2
t306 = t300 ** 2
t310 = lax_cond(t298, 0.1e5, t296)
t311 = t310 ** 2
t312 = 0.1e1 - t311
t313 = t312 ** 2
t315 = t311 * t310
t322 = lax_cond(0.1e5 <= t296, -0.1e1 / 0.4e1 + 0.3e1 / 0.4e1 / t300 + 0.1e1 / t300 / t299 / 0.16e2 - 0.3e1 / 0.4e1 / t306, t313 * t312 / (0.1e1 + t315 * (0.1e1 + 0.4e1 * t315)))
t323 = t322 ** 2
t324 = t323 * t322
t326 = t323 ** 2
t327 = t326 * t324
t329 = t326 * t322
t334 = t326 * t323
t336 = t284 * t282
t338 = t283 * t282
t340 = t284 * t338
t344 = -0.1e1 / 0.2e1 + 0.3e1 / 0.2e1 * t283
t348 = 0.63e2 / 0.8e1 * t329 - 0.35e2 / 0.4e1 * t324 + 0.15e2 / 0.8e1 * t322
t353 = 0.3e1 / 0.8e1 + 0.35e2 / 0.8e1 * t326 - 0.15e2 / 0.4e1 * t323
t356 = -0.1047053293912749375e-2 * t284 - 0.37102687351218925312e0 * t283 + 0.22419222998949863625e-1 * t287 - 0.32121495135261672812e-1 * t324 - 0.67464548655177289688e-1 * t327 + 0.87534515809640139190e-1 * t329 + 0.20748619661467272631e0 * t322 + 0.29439726278665657500e-1 * t326 - 0.58828844909941371000e-2 * t323 - 0.28551704175417885000e-1 * t334 - 0.15887583418757175563e-1 * t336 + 0.74168801870361915620e-2 * t338 + 0.15682422300093093188e-1 * t340 - 0.13465921726261020182e-1 * t280 - 0.1189668304951413e-2 * t344 * t348 - 0.1863882881010248e-2 * t344 * t353
t358 = -0.1e1 / 0.2e1 + 0.3e1 / 0.2e1 * t323
t363 = 0.5e1 / 0.2e1 * t324 - 0.3e1 / 0.2e1 * t322
t371 = -0.5e1 / 0.16e2 + 0.231e3 / 0.16e2 * t334 - 0.315e3 / 0.16e2 * t326 + 0.105e3 / 0.16e2 * t323
t378 = 0.429e3 / 0.16e2 * t327 - 0.693e3 / 0.16e2 * t329 + 0.315e3 / 0.16e2 * t324 - 0.35e2 / 0.16e2 * t322
t393 = 0.3e1 / 0.8e1 + 0.35e2 / 0.8e1 * t284 - 0.15e2 / 0.4e1 * t283
t404 = 0.5e1 / 0.2e1 * t338 - t280 / 0.8e1 + 0.3e1 / 0.2e1
t409 = -0.1153807045825489e-2 * t344 * t358 - 0.9641371299507833e-3 * t344 * t363 - 0.1437960658302686e-1 * t344 * t322 + 0.1491587478361034e-2 * t282 * t371 + 0.1940164714223896e-2 * t282 * t378 + 0.2007295399058147e-2 * t282 * t348 + 0.2915285520983635e-2 * t282 * t353 + 0.2125332357775206e-2 * t282 * t363 + 0.1179363564823021e0 * t282 * t322 + 0.1794638556864410e-2 * t282 * t358 + 0.4187827907710905e-3 * t393 * t353 + 0.1370288635457470e-3 * t393 * t358 + 0.1282471852770764e-2 * t393 * t363 + 0.1683215086686233e-1 * t393 * t322 + 0.4312411759243052e-3 * t404 * t378 + 0.1672905908063297e-3 * t404 * t348
t428 = 0.63e2 / 0.8e1 * t336 - 0.35e2 / 0.4e1 * t338 + 0.5e1 / 0.32e2 * t280 - 0.15e2 / 0.8e1
t447 = -0.6058496834176058e-3 * t404 * t371 - 0.2494950550547465e-2 * t404 * t353 + 0.3712786171321043e-2 * t404 * t363 - 0.7090296813211244e-3 * t404 * t358 - 0.1030571429426108e-1 * t404 * t322 - 0.1175614476758423e-2 * t344 * t378 - 0.1288306127279617e-2 * t344 * t371 - 0.5869916483960576e-3 * t428 * t348 - 0.1622621390953226e-2 * t428 * t371 - 0.1009981263546227e-2 * t428 * t353 + 0.2262886186270548e-3 * t428 * t363 + 0.6670848599065867e-2 * t428 * t358 - 0.2577333382727080e-3 * t428 * t322 + 0.3212943141118693e-5 * t393 * t378 + 0.2776060240069905e-3 * t393 * t371 - 0.2721968500889238e-3 * t393 * t348
t451 = -0.5e1 / 0.16e2 + 0.231e3 / 0.16e2 * t287 - 0.315e3 / 0.16e2 * t284 + 0.105e3 / 0.16e2 * t283
t472 = 0.429e3 / 0.16e2 * t340 - 0.693e3 / 0.16e2 * t336 + 0.315e3 / 0.16e2 * t338 - 0.35e2 / 0.192e3 * t280 + 0.35e2 / 0.16e2
t487 = 0.13502664484515602222e1 + 0.3807158595350892e-3 * t451 * t378 + 0.4260858412001439e-3 * t451 * t371 + 0.1136485825094485e-2 * t451 * t348 + 0.4230264400260503e-3 * t451 * t353 - 0.5498112922165805e-2 * t451 * t358 - 0.6510071882485726e-2 * t451 * t363 + 0.2334616776649133e-2 * t451 * t322 - 0.2202759704065197e-3 * t428 * t378 - 0.3682519432462936e-3 * t472 * t371 - 0.3695503801501715e-3 * t472 * t378 + 0.1522474179598972e-2 * t472 * t348 + 0.2457525918536260e-2 * t472 * t353 + 0.1243327883803539e-1 * t472 * t363 + 0.1421391023843761e-2 * t472 * t358 + 0.3837976998664341e-3 * t472 * t322
t493 = lax_cond(r1 <= p_a_dens_threshold, 0, -0.3e1 / 0.8e1 * t5 * t267 * t27 * (t356 + t409 + t447 + t487))
res = t259 + t493
" unpol "t3 = 3 ** (0.1e1 / 0.3e1)
t4 = math.pi ** (0.1e1 / 0.3e1)
t7 = 0.1e1 <= p_a_zeta_threshold
t8 = p_a_zeta_threshold - 0.1e1
t10 = lax_cond(t7, -t8, 0)
t11 = lax_cond(t7, t8, t10)
t12 = t11 + 0.1e1
t14 = p_a_zeta_threshold ** (0.1e1 / 0.3e1)
t16 = t12 ** (0.1e1 / 0.3e1)
t18 = lax_cond(t12 <= p_a_zeta_threshold, t14 * p_a_zeta_threshold, t16 * t12)
t19 = r0 ** (0.1e1 / 0.3e1)
t21 = 6 ** (0.1e1 / 0.3e1)
t22 = math.pi ** 2
t23 = t22 ** (0.1e1 / 0.3e1)
t24 = t23 ** 2
t25 = 0.1e1 / t24
t26 = t21 * t25
t28 = 2 ** (0.1e1 / 0.3e1)
t29 = t28 ** 2
t30 = r0 ** 2
t31 = t19 ** 2
t33 = 0.1e1 / t31 / t30
t36 = s0 * t29 * t33
t42 = t26 * s0 * t29 * t33 / (0.65124e1 + t26 * t36 / 0.24e2)
t44 = t42 / 0.12e2 - 0.1e1
t45 = t44 ** 2
t46 = t45 ** 2
t49 = t46 * t45
t59 = 0.5e1 / 0.9e1 * (tau0 * t29 / t31 / r0 - t36 / 0.8e1) * t21 * t25
t61 = 0.1e5 < t59
t62 = lax_cond(t61, t59, 0.1e5)
t63 = t62 ** 2
t69 = t63 ** 2
t73 = lax_cond(t61, 0.1e5, t59)
t74 = t73 ** 2
t75 = 0.1e1 - t74
t76 = t75 ** 2
t78 = t74 * t73
t85 = lax_cond(0.1e5 <= t59, 0.3e1 / 0.4e1 / t63 + 0.1e1 / t63 / t62 / 0.16e2 - 0.3e1 / 0.4e1 / t69 - 0.1e1 / 0.4e1, t76 * t75 / (0.1e1 + t78 * (0.1e1 + 0.4e1 * t78)))
t86 = t85 ** 2
t87 = t86 * t85
t88 = t86 ** 2
t89 = t88 * t87
t91 = t88 * t85
t97 = t88 * t86
t99 = t45 * t44
t101 = t46 * t44
t103 = t46 * t99
t106 = -0.1e1 / 0.2e1 + 0.3e1 / 0.2e1 * t86
t111 = 0.5e1 / 0.2e1 * t87 - 0.3e1 / 0.2e1 * t85
t116 = 0.3e1 / 0.8e1 + 0.35e2 / 0.8e1 * t88 - 0.15e2 / 0.4e1 * t86
t119 = -0.1047053293912749375e-2 * t46 - 0.37102687351218925312e0 * t45 + 0.22419222998949863625e-1 * t49 - 0.67464548655177289688e-1 * t89 + 0.87534515809640139190e-1 * t91 - 0.32121495135261672812e-1 * t87 + 0.20748619661467272631e0 * t85 + 0.29439726278665657500e-1 * t88 - 0.58828844909941371000e-2 * t86 - 0.28551704175417885000e-1 * t97 + 0.74168801870361915620e-2 * t99 - 0.15887583418757175563e-1 * t101 + 0.15682422300093093188e-1 * t103 + 0.1794638556864410e-2 * t44 * t106 + 0.2125332357775206e-2 * t44 * t111 + 0.2915285520983635e-2 * t44 * t116
t123 = 0.63e2 / 0.8e1 * t91 - 0.35e2 / 0.4e1 * t87 + 0.15e2 / 0.8e1 * t85
t129 = -0.5e1 / 0.16e2 + 0.231e3 / 0.16e2 * t97 - 0.315e3 / 0.16e2 * t88 + 0.105e3 / 0.16e2 * t86
t136 = 0.429e3 / 0.16e2 * t89 - 0.693e3 / 0.16e2 * t91 + 0.315e3 / 0.16e2 * t87 - 0.35e2 / 0.16e2 * t85
t140 = -0.1e1 / 0.2e1 + 0.3e1 / 0.2e1 * t45
t157 = 0.5e1 / 0.2e1 * t99 - t42 / 0.8e1 + 0.3e1 / 0.2e1
t171 = 0.63e2 / 0.8e1 * t101 - 0.35e2 / 0.4e1 * t99 + 0.5e1 / 0.32e2 * t42 - 0.15e2 / 0.8e1
t174 = 0.2007295399058147e-2 * t44 * t123 + 0.1491587478361034e-2 * t44 * t129 + 0.1940164714223896e-2 * t44 * t136 - 0.1437960658302686e-1 * t140 * t85 - 0.1153807045825489e-2 * t140 * t106 - 0.9641371299507833e-3 * t140 * t111 - 0.1863882881010248e-2 * t140 * t116 - 0.1189668304951413e-2 * t140 * t123 - 0.1288306127279617e-2 * t140 * t129 - 0.1175614476758423e-2 * t140 * t136 - 0.1030571429426108e-1 * t157 * t85 - 0.7090296813211244e-3 * t157 * t106 + 0.3712786171321043e-2 * t157 * t111 - 0.2494950550547465e-2 * t157 * t116 + 0.1179363564823021e0 * t44 * t85 + 0.6670848599065867e-2 * t171 * t106
t178 = 0.3e1 / 0.8e1 + 0.35e2 / 0.8e1 * t46 - 0.15e2 / 0.4e1 * t45
t202 = -0.5e1 / 0.16e2 + 0.231e3 / 0.16e2 * t49 - 0.315e3 / 0.16e2 * t46 + 0.105e3 / 0.16e2 * t45
t215 = 0.3212943141118693e-5 * t178 * t136 + 0.2776060240069905e-3 * t178 * t129 - 0.2721968500889238e-3 * t178 * t123 + 0.1282471852770764e-2 * t178 * t111 + 0.4187827907710905e-3 * t178 * t116 + 0.1370288635457470e-3 * t178 * t106 + 0.1683215086686233e-1 * t178 * t85 - 0.6058496834176058e-3 * t157 * t129 + 0.4312411759243052e-3 * t157 * t136 + 0.1672905908063297e-3 * t157 * t123 + 0.4230264400260503e-3 * t202 * t116 - 0.5498112922165805e-2 * t202 * t106 + 0.2334616776649133e-2 * t202 * t85 - 0.2202759704065197e-3 * t171 * t136 - 0.5869916483960576e-3 * t171 * t123 - 0.1622621390953226e-2 * t171 * t129
t226 = 0.429e3 / 0.16e2 * t103 - 0.693e3 / 0.16e2 * t101 + 0.315e3 / 0.16e2 * t99 - 0.35e2 / 0.192e3 * t42 + 0.35e2 / 0.16e2
t250 = 0.13502664484515602222e1 - 0.1009981263546227e-2 * t171 * t116 + 0.2262886186270548e-3 * t171 * t111 - 0.2577333382727080e-3 * t171 * t85 + 0.1243327883803539e-1 * t226 * t111 + 0.3837976998664341e-3 * t226 * t85 + 0.1421391023843761e-2 * t226 * t106 + 0.3807158595350892e-3 * t202 * t136 + 0.4260858412001439e-3 * t202 * t129 + 0.1136485825094485e-2 * t202 * t123 - 0.6510071882485726e-2 * t202 * t111 - 0.3682519432462936e-3 * t226 * t129 - 0.3695503801501715e-3 * t226 * t136 + 0.1522474179598972e-2 * t226 * t123 + 0.2457525918536260e-2 * t226 * t116 - 0.13465921726261020182e-1 * t42
t256 = lax_cond(r0 / 0.2e1 <= p_a_dens_threshold, 0, -0.3e1 / 0.8e1 * t3 / t4 * t18 * t19 * (t119 + t174 + t215 + t250))
res = 0.2e1 * t256
"

/- gen_repo/impl/prebuilt/pol/mgga_x_mggac.py and gen_repo/impl/prebuilt/unpol/mgga_x_mggac.py -/
formula mgga_x_mggac pol "t2 = r0 + r1
t3 = 0.1e1 / t2
t6 = 0.2e1 * r0 * t3 <= p_a_zeta_threshold
t7 = p_a_zeta_threshold - 0.1e1
t10 = 0.2e1 * r1 * t3 <= p_a_zeta_threshold
t11 = -t7
t13 = (r0 - r1) * t3
t14 = lax_cond(t10, t11, t13)
t15 = lax_cond(t6, t7, t14)
t16 = 0.1e1 + t15
t18 = p_a_zeta_threshold ** (0.1e1 / 0.3e1)
t19 = t18 * p_a_zeta_threshold
t20 = t16 ** (0.1e1 / 0.3e1)
t22 = lax_cond(t16 <= p_a_zeta_threshold, t19, t20 * t16)
t23 = t2 ** (0.1e1 / 0.3e1)
t25 = 32 ** (0.1e1 / 0.3e1)
t27 = (0.1e1 / math.pi) ** (0.1e1 / 0.3e1)
t29 = t25 / t27
t31 = 4 ** (0.1e1 / 0.3e1)
t32 = t25 ** 2
t33 = math.pi ** (0.1e1 / 0.3e1)
t34 = t33 ** 2
t35 = t32 * t34
t36 = r0 ** (0.1e1 / 0.3e1)
t37 = t36 ** 2
t41 = 6 ** (0.1e1 / 0.3e1)
t42 = math.pi ** 2
t43 = t42 ** (0.1e1 / 0.3e1)
t44 = t43 ** 2
t46 = t41 / t44
t51 = s0 / r0 / tau0 / 0.8e1
t55 = lax_cond(0.0e0 < 0.9999999999e0 - t51, 0.1e1 - t51, 0.1e-9)
t57 = tau0 / t37 / r0 * t46 * t55
t59 = tau0 ** 2
t60 = r0 ** 2
t65 = t41 ** 2
t68 = t65 / t43 / t42
t69 = t55 ** 2
t71 = t59 / t36 / t60 / r0 * t68 * t69
t78 = (0.1e1 + 0.55555555555555555556e-1 * t57 - 0.34860833333333333333e1 * t71) / (0.3712e1 + 0.11111111111111111111e1 * t57 + 0.11620277777777777778e1 * t71)
t79 = abs(t78)
t84 = t35 * t78 / 0.6e1
t86 = lax_cond(0.0e0 < t84, 0.50e-12, -0.50e-12)
t87 = lax_cond(t35 * t79 / 0.6e1 < 0.50e-12, t86, t84)
t88 = mbrxc_x(t87)
t90 = math.exp(t88 / 0.3e1)
t92 = math.exp(-t88)
t93 = t88 ** 2
t101 = (0.1e1 + t88) ** (0.1e1 / 0.3e1)
t107 = lax_cond(r0 <= p_a_dens_threshold, 0, -t22 * t23 * t29 * t31 * t90 * (0.8e1 - t92 * (t93 + 0.5e1 * t88 + 0.8e1)) / t88 / t101 / 0.64e2)
t109 = lax_cond(t6, t11, -t13)
t110 = lax_cond(t10, t7, t109)
t111 = 0.1e1 + t110
t113 = t111 ** (0.1e1 / 0.3e1)
t115 = lax_cond(t111 <= p_a_zeta_threshold, t19, t113 * t111)
t118 = r1 ** (0.1e1 / 0.3e1)
t119 = t118 ** 2
t127 = s2 / r1 / tau1 / 0.8e1
t131 = lax_cond(0.0e0 < 0.9999999999e0 - t127, 0.1e1 - t127, 0.1e-9)
t133 = tau1 / t119 / r1 * t46 * t131
t135 = tau1 ** 2
t136 = r1 ** 2
t141 = t131 ** 2
t143 = t135 / t118 / t136 / r1 * t68 * t141
t150 = (0.1e1 + 0.55555555555555555556e-1 * t133 - 0.34860833333333333333e1 * t143) / (0.3712e1 + 0.11111111111111111111e1 * t133 + 0.11620277777777777778e1 * t143)
t151 = abs(t150)
t156 = t35 * t150 / 0.6e1
t158 = lax_cond(0.0e0 < t156, 0.50e-12, -0.50e-12)
t159 = lax_cond(t35 * t151 / 0.6e1 < 0.50e-12, t158, t156)
t160 = mbrxc_x(t159)
t162 = math.exp(t160 / 0.3e1)
t164 = math.exp(-t160)
t165 = t160 ** 2
t173 = (0.1e1 + t160) ** (0.1e1 / 0.3e1)
t179 = lax_cond(r1 <= p_a_dens_threshold, 0, -t115 * t23 * t29 * t31 * t162 * (0.8e1 - t164 * (t165 + 0.5e1 * t160 + 0.8e1)) / t160 / t173 / 0.64e2)
res = t107 + t179
" unpol "t3 = 0.1e1 <= p_a_zeta_threshold
t4 = p_a_zeta_threshold - 0.1e1
t6 = lax_cond(t3, -t4, 0)
t7 = lax_cond(t3, t4, t6)
t8 = 0.1e1 + t7
t10 = p_a_zeta_threshold ** (0.1e1 / 0.3e1)
t12 = t8 ** (0.1e1 / 0.3e1)
t14 = lax_cond(t8 <= p_a_zeta_threshold, t10 * p_a_zeta_threshold, t12 * t8)
t15 = r0 ** (0.1e1 / 0.3e1)
t17 = 32 ** (0.1e1 / 0.3e1)
t19 = (0.1e1 / math.pi) ** (0.1e1 / 0.3e1)
t23 = 4 ** (0.1e1 / 0.3e1)
t24 = t17 ** 2
t25 = math.pi ** (0.1e1 / 0.3e1)
t26 = t25 ** 2
t27 = t24 * t26
t28 = 2 ** (0.1e1 / 0.3e1)
t29 = t28 ** 2
t31 = t15 ** 2
t35 = 6 ** (0.1e1 / 0.3e1)
t36 = math.pi ** 2
t37 = t36 ** (0.1e1 / 0.3e1)
t38 = t37 ** 2
t45 = s0 / r0 / tau0 / 0.8e1
t49 = lax_cond(0.0e0 < 0.9999999999e0 - t45, 0.1e1 - t45, 0.1e-9)
t51 = tau0 * t29 / t31 / r0 * t35 / t38 * t49
t53 = tau0 ** 2
t55 = r0 ** 2
t60 = t35 ** 2
t64 = t49 ** 2
t66 = t53 * t28 / t15 / t55 / r0 * t60 / t37 / t36 * t64
t73 = (0.1e1 + 0.55555555555555555556e-1 * t51 - 0.69721666666666666666e1 * t66) / (0.3712e1 + 0.11111111111111111111e1 * t51 + 0.23240555555555555556e1 * t66)
t74 = abs(t73)
t79 = t27 * t73 / 0.6e1
t81 = lax_cond(0.0e0 < t79, 0.50e-12, -0.50e-12)
t82 = lax_cond(t27 * t74 / 0.6e1 < 0.50e-12, t81, t79)
t83 = mbrxc_x(t82)
t85 = math.exp(t83 / 0.3e1)
t87 = math.exp(-t83)
t88 = t83 ** 2
t96 = (0.1e1 + t83) ** (0.1e1 / 0.3e1)
t102 = lax_cond(r0 / 0.2e1 <= p_a_dens_threshold, 0, -t14 * t15 * t17 / t19 * t23 * t85 * (0.8e1 - t87 * (t88 + 0.5e1 * t83 + 0.8e1)) / t83 / t96 / 0.64e2)
res = 0.2e1 * t102
"

/- gen_repo/impl/prebuilt/pol/mgga_x_mn12.py and gen_repo/impl/prebuilt/unpol/mgga_x_mn12.py -/
formula mgga_x_mn12 pol "t2 = 3 ** (0.1e1 / 0.3e1)
t3 = math.pi ** (0.1e1 / 0.3e1)
t5 = t2 / t3
t6 = r0 + r1
t7 = 0.1e1 / t6
t10 = 0.2e1 * r0 * t7 <= p_a_zeta_threshold
t11 = p_a_zeta_threshold - 0.1e1
t14 = 0.2e1 * r1 * t7 <= p_a_zeta_threshold
t15 = -t11
t17 = (r0 - r1) * t7
t18 = lax_cond(t14, t15, t17)
t19 = lax_cond(t10, t11, t18)
t20 = 0.1e1 + t19
t22 = p_a_zeta_threshold ** (0.1e1 / 0.3e1)
t23 = t22 * p_a_zeta_threshold
t24 = t20 ** (0.1e1 / 0.3e1)
t26 = lax_cond(t20 <= p_a_zeta_threshold, t23, t24 * t20)
t27 = t6 ** (0.1e1 / 0.3e1)
t29 = params_a_c[0]
t30 = params_a_c[1]
t31 = 6 ** (0.1e1 / 0.3e1)
t32 = t31 ** 2
t33 = math.pi ** 2
t34 = t33 ** (0.1e1 / 0.3e1)
t35 = t34 ** 2
t37 = 0.3e1 / 0.10e2 * t32 * t35
t38 = r0 ** (0.1e1 / 0.3e1)
t39 = t38 ** 2
t42 = tau0 / t39 / r0
t43 = t37 - t42
t45 = t37 + t42
t46 = 0.1e1 / t45
t48 = params_a_c[2]
t49 = t43 ** 2
t51 = t45 ** 2
t52 = 0.1e1 / t51
t54 = params_a_c[3]
t55 = t49 * t43
t58 = 0.1e1 / t51 / t45
t60 = params_a_c[4]
t61 = t49 ** 2
t63 = t51 ** 2
t64 = 0.1e1 / t63
t66 = params_a_c[5]
t72 = params_a_c[6]
t73 = params_a_c[7]
t76 = params_a_c[8]
t79 = params_a_c[9]
t82 = params_a_c[10]
t87 = r0 ** 2
t89 = 0.1e1 / t39 / t87
t92 = 0.1e1 + 0.4e-2 * s0 * t89
t94 = t89 / t92
t97 = params_a_c[11]
t98 = params_a_c[12]
t101 = params_a_c[13]
t104 = params_a_c[14]
t108 = s0 ** 2
t110 = t87 ** 2
t114 = t92 ** 2
t116 = 0.1e1 / t38 / t110 / r0 / t114
t119 = params_a_c[15]
t120 = params_a_c[16]
t123 = params_a_c[17]
t129 = t110 ** 2
t136 = params_a_c[18]
t137 = params_a_c[19]
t140 = params_a_c[20]
t143 = params_a_c[21]
t146 = params_a_c[22]
t151 = 2 ** (0.1e1 / 0.3e1)
t152 = 0.1e1 / t27 * t151
t154 = 0.1e1 + t17 <= p_a_zeta_threshold
t156 = 0.1e1 - t17 <= p_a_zeta_threshold
t157 = lax_cond(t156, t15, t17)
t158 = lax_cond(t154, t11, t157)
t161 = (0.1e1 / (0.1e1 + t158)) ** (0.1e1 / 0.3e1)
t164 = 0.1e1 + 0.39999999999999999998e0 * t152 * t161
t165 = 0.1e1 / t164
t167 = params_a_c[23]
t168 = params_a_c[24]
t171 = params_a_c[25]
t174 = params_a_c[26]
t182 = params_a_c[27]
t183 = params_a_c[28]
t186 = params_a_c[29]
t194 = params_a_c[30]
t195 = params_a_c[31]
t198 = params_a_c[32]
t201 = params_a_c[33]
t205 = t164 ** 2
t206 = 0.1e1 / t205
t208 = params_a_c[34]
t209 = params_a_c[35]
t212 = params_a_c[36]
t220 = params_a_c[37]
t221 = params_a_c[38]
t224 = params_a_c[39]
t231 = t29 + t30 * t43 * t46 + t48 * t49 * t52 + t54 * t55 * t58 + t60 * t61 * t64 + t66 * t61 * t43 / t63 / t45 + 0.4e-2 * (t73 * t43 * t46 + t76 * t49 * t52 + t79 * t55 * t58 + t82 * t61 * t64 + t72) * s0 * t94 + 0.16e-4 * (t101 * t49 * t52 + t104 * t55 * t58 + t98 * t43 * t46 + t97) * t108 * t116 + 0.64e-7 * (t120 * t43 * t46 + t123 * t49 * t52 + t119) * t108 * s0 / t129 / t114 / t92 + (t137 * t43 * t46 + t140 * t49 * t52 + t143 * t55 * t58 + t146 * t61 * t64 + t136) * t165 + 0.4e-2 * (t168 * t43 * t46 + t171 * t49 * t52 + t174 * t55 * t58 + t167) * s0 * t94 * t165 + 0.16e-4 * (t183 * t43 * t46 + t186 * t49 * t52 + t182) * t108 * t116 * t165 + (t195 * t43 * t46 + t198 * t49 * t52 + t201 * t55 * t58 + t194) * t206 + 0.4e-2 * (t209 * t43 * t46 + t212 * t49 * t52 + t208) * s0 * t94 * t206 + (t221 * t43 * t46 + t224 * t49 * t52 + t220) / t205 / t164
t235 = lax_cond(r0 <= p_a_dens_threshold, 0, -0.3e1 / 0.8e1 * t5 * t26 * t27 * t231)
t237 = lax_cond(t10, t15, -t17)
t238 = lax_cond(t14, t11, t237)
t239 = 0.1e1 + t238
t241 = t239 ** (0.1e1 / 0.3e1)
t243 = lax_cond(t239 <= p_a_zeta_threshold, t23, t241 * t239)
t245 = r1 ** (0.1e1 / 0.3e1)
t246 = t245 ** 2
t249 = tau1 / t246 / r1
t250 = t37 - t249
t252 = t37 + t249
t253 = 0.1e1 / t252
t255 = t250 ** 2
t257 = t252 ** 2
t258 = 0.1e1 / t257
t260 = t255 * t250
t263 = 0.1e1 / t257 / t252
t265 = t255 ** 2
t267 = t257 ** 2
t268 = 0.1e1 / t267
t285 = r1 ** 2
t287 = 0.1e1 / t246 / t285
t290 = 0.1e1 + 0.4e-2 * s2 * t287
t292 = t287 / t290
t302 = s2 ** 2
t304 = t285 ** 2
t308 = t290 ** 2
t310 = 0.1e1 / t245 / t304 / r1 / t308
t320 = t304 ** 2
t336 = lax_cond(t154, t15, -t17)
t337 = lax_cond(t156, t11, t336)
t340 = (0.1e1 / (0.1e1 + t337)) ** (0.1e1 / 0.3e1)
t343 = 0.1e1 + 0.39999999999999999998e0 * t152 * t340
t344 = 0.1e1 / t343
t373 = t343 ** 2
t374 = 0.1e1 / t373
t393 = t29 + t30 * t250 * t253 + t48 * t255 * t258 + t54 * t260 * t263 + t60 * t265 * t268 + t66 * t265 * t250 / t267 / t252 + 0.4e-2 * (t73 * t250 * t253 + t76 * t255 * t258 + t79 * t260 * t263 + t82 * t265 * t268 + t72) * s2 * t292 + 0.16e-4 * (t101 * t255 * t258 + t104 * t260 * t263 + t98 * t250 * t253 + t97) * t302 * t310 + 0.64e-7 * (t120 * t250 * t253 + t123 * t255 * t258 + t119) * t302 * s2 / t320 / t308 / t290 + (t137 * t250 * t253 + t140 * t255 * t258 + t143 * t260 * t263 + t146 * t265 * t268 + t136) * t344 + 0.4e-2 * (t168 * t250 * t253 + t171 * t255 * t258 + t174 * t260 * t263 + t167) * s2 * t292 * t344 + 0.16e-4 * (t183 * t250 * t253 + t186 * t255 * t258 + t182) * t302 * t310 * t344 + (t195 * t250 * t253 + t198 * t255 * t258 + t201 * t260 * t263 + t194) * t374 + 0.4e-2 * (t209 * t250 * t253 + t212 * t255 * t258 + t208) * s2 * t292 * t374 + (t221 * t250 * t253 + t224 * t255 * t258 + t220) / t373 / t343
t397 = lax_cond(r1 <= p_a_dens_threshold, 0, -0.3e1 / 0.8e1 * t5 * t243 * t27 * t393)
res = t235 + t397
" unpol "t3 = 3 ** (0.1e1 / 0.3e1)
t4 = math.pi ** (0.1e1 / 0.3e1)
t7 = 0.1e1 <= p_a_zeta_threshold
t8 = p_a_zeta_threshold - 0.1e1
t10 = lax_cond(t7, -t8, 0)
t11 = lax_cond(t7, t8, t10)
t12 = 0.1e1 + t11
t14 = p_a_zeta_threshold ** (0.1e1 / 0.3e1)
t16 = t12 ** (0.1e1 / 0.3e1)
t18 = lax_cond(t12 <= p_a_zeta_threshold, t14 * p_a_zeta_threshold, t16 * t12)
t19 = r0 ** (0.1e1 / 0.3e1)
t23 = 6 ** (0.1e1 / 0.3e1)
t24 = t23 ** 2
t25 = math.pi ** 2
t26 = t25 ** (0.1e1 / 0.3e1)
t27 = t26 ** 2
t29 = 0.3e1 / 0.10e2 * t24 * t27
t30 = 2 ** (0.1e1 / 0.3e1)
t31 = t30 ** 2
t33 = t19 ** 2
t36 = tau0 * t31 / t33 / r0
t37 = t29 - t36
t39 = t29 + t36
t40 = 0.1e1 / t39
t43 = t37 ** 2
t45 = t39 ** 2
t46 = 0.1e1 / t45
t49 = t43 * t37
t52 = 0.1e1 / t45 / t39
t55 = t43 ** 2
t57 = t45 ** 2
t58 = 0.1e1 / t57
t81 = r0 ** 2
t83 = 0.1e1 / t33 / t81
t88 = 0.1e1 + 0.4e-2 * s0 * t31 * t83
t89 = 0.1e1 / t88
t104 = s0 ** 2
t106 = t81 ** 2
t109 = 0.1e1 / t19 / t106 / r0
t111 = t88 ** 2
t112 = 0.1e1 / t111
t126 = t106 ** 2
t150 = (0.1e1 / t12) ** (0.1e1 / 0.3e1)
t153 = 0.1e1 + 0.39999999999999999998e0 / t19 * t30 * t150
t154 = 0.1e1 / t153
t169 = t83 * t89
t198 = t153 ** 2
t199 = 0.1e1 / t198
t225 = params_a_c[0] + params_a_c[1] * t37 * t40 + params_a_c[2] * t43 * t46 + params_a_c[3] * t49 * t52 + params_a_c[4] * t55 * t58 + params_a_c[5] * t55 * t37 / t57 / t39 + 0.4e-2 * (params_a_c[7] * t37 * t40 + params_a_c[8] * t43 * t46 + params_a_c[9] * t49 * t52 + params_a_c[10] * t55 * t58 + params_a_c[6]) * s0 * t31 * t83 * t89 + 0.32e-4 * (params_a_c[12] * t37 * t40 + params_a_c[13] * t43 * t46 + params_a_c[14] * t49 * t52 + params_a_c[11]) * t104 * t30 * t109 * t112 + 0.256e-6 * (params_a_c[16] * t37 * t40 + params_a_c[17] * t43 * t46 + params_a_c[15]) * t104 * s0 / t126 / t111 / t88 + (params_a_c[19] * t37 * t40 + params_a_c[20] * t43 * t46 + params_a_c[21] * t49 * t52 + params_a_c[22] * t55 * t58 + params_a_c[18]) * t154 + 0.4e-2 * (params_a_c[24] * t37 * t40 + params_a_c[25] * t43 * t46 + params_a_c[26] * t49 * t52 + params_a_c[23]) * s0 * t31 * t169 * t154 + 0.32e-4 * (params_a_c[28] * t37 * t40 + params_a_c[29] * t43 * t46 + params_a_c[27]) * t104 * t30 * t109 * t112 * t154 + (params_a_c[31] * t37 * t40 + params_a_c[32] * t43 * t46 + params_a_c[33] * t49 * t52 + params_a_c[30]) * t199 + 0.4e-2 * (params_a_c[35] * t37 * t40 + params_a_c[36] * t43 * t46 + params_a_c[34]) * s0 * t31 * t169 * t199 + (params_a_c[38] * t37 * t40 + params_a_c[39] * t43 * t46 + params_a_c[37]) / t198 / t153
t229 = lax_cond(r0 / 0.2e1 <= p_a_dens_threshold, 0, -0.3e1 / 0.8e1 * t3 / t4 * t18 * t19 * t225)
res = 0.2e1 * t229
"

/- gen_repo/impl/prebuilt/pol/mgga_x_ms.py and gen_repo/impl/prebuilt/unpol/mgga_x_ms.py -/
formula mgga_x_ms pol "t2 = 3 ** (0.1e1 / 0.3e1)
t3 = math.pi ** (0.1e1 / 0.3e1)
t5 = t2 / t3
t6 = r0 + r1
t7 = 0.1e1 / t6
t10 = 0.2e1 * r0 * t7 <= p_a_zeta_threshold
t11 = p_a_zeta_threshold - 0.1e1
t14 = 0.2e1 * r1 * t7 <= p_a_zeta_threshold
t15 = -t11
t17 = (r0 - r1) * t7
t18 = lax_cond(t14, t15, t17)
t19 = lax_cond(t10, t11, t18)
t20 = 0.1e1 + t19
t22 = p_a_zeta_threshold ** (0.1e1 / 0.3e1)
t23 = t22 * p_a_zeta_threshold
t24 = t20 ** (0.1e1 / 0.3e1)
t26 = lax_cond(t20 <= p_a_zeta_threshold, t23, t24 * t20)
t27 = t6 ** (0.1e1 / 0.3e1)
t29 = 6 ** (0.1e1 / 0.3e1)
t30 = math.pi ** 2
t31 = t30 ** (0.1e1 / 0.3e1)
t32 = t31 ** 2
t34 = t29 / t32
t35 = r0 ** 2
t36 = r0 ** (0.1e1 / 0.3e1)
t37 = t36 ** 2
t40 = s0 / t37 / t35
t42 = 0.5e1 / 0.972e3 * t34 * t40
t47 = params_a_kappa * (0.1e1 - params_a_kappa / (params_a_kappa + t42))
t52 = tau0 / t37 / r0 - t40 / 0.8e1
t53 = t52 ** 2
t54 = t29 ** 2
t57 = 0.1e1 / t31 / t30
t60 = 0.1e1 - 0.25e2 / 0.81e2 * t53 * t54 * t57
t61 = t60 ** 2
t64 = t30 ** 2
t65 = 0.1e1 / t64
t68 = t53 ** 2
t71 = t64 ** 2
t72 = 0.1e1 / t71
t89 = lax_cond(r0 <= p_a_dens_threshold, 0, -0.3e1 / 0.8e1 * t5 * t26 * t27 * (0.1e1 + t47 + t61 * t60 / (0.1e1 + 0.250e3 / 0.243e3 * t53 * t52 * t65 + 0.62500e5 / 0.59049e5 * params_a_b * t68 * t53 * t72) * (params_a_kappa * (0.1e1 - params_a_kappa / (params_a_kappa + t42 + params_a_c)) - t47)))
t91 = lax_cond(t10, t15, -t17)
t92 = lax_cond(t14, t11, t91)
t93 = 0.1e1 + t92
t95 = t93 ** (0.1e1 / 0.3e1)
t97 = lax_cond(t93 <= p_a_zeta_threshold, t23, t95 * t93)
t99 = r1 ** 2
t100 = r1 ** (0.1e1 / 0.3e1)
t101 = t100 ** 2
t104 = s2 / t101 / t99
t106 = 0.5e1 / 0.972e3 * t34 * t104
t111 = params_a_kappa * (0.1e1 - params_a_kappa / (params_a_kappa + t106))
t116 = tau1 / t101 / r1 - t104 / 0.8e1
t117 = t116 ** 2
t121 = 0.1e1 - 0.25e2 / 0.81e2 * t117 * t54 * t57
t122 = t121 ** 2
t127 = t117 ** 2
t146 = lax_cond(r1 <= p_a_dens_threshold, 0, -0.3e1 / 0.8e1 * t5 * t97 * t27 * (0.1e1 + t111 + t122 * t121 / (0.1e1 + 0.250e3 / 0.243e3 * t117 * t116 * t65 + 0.62500e5 / 0.59049e5 * params_a_b * t127 * t117 * t72) * (params_a_kappa * (0.1e1 - params_a_kappa / (params_a_kappa + t106 + params_a_c)) - t111)))
res = t89 + t146
" unpol "t3 = 3 ** (0.1e1 / 0.3e1)
t4 = math.pi ** (0.1e1 / 0.3e1)
t7 = 0.1e1 <= p_a_zeta_threshold
t8 = p_a_zeta_threshold - 0.1e1
t10 = lax_cond(t7, -t8, 0)
t11 = lax_cond(t7, t8, t10)
t12 = 0.1e1 + t11
t14 = p_a_zeta_threshold ** (0.1e1 / 0.3e1)
t16 = t12 ** (0.1e1 / 0.3e1)
t18 = lax_cond(t12 <= p_a_zeta_threshold, t14 * p_a_zeta_threshold, t16 * t12)
t19 = r0 ** (0.1e1 / 0.3e1)
t21 = 6 ** (0.1e1 / 0.3e1)
t22 = math.pi ** 2
t23 = t22 ** (0.1e1 / 0.3e1)
t24 = t23 ** 2
t27 = 2 ** (0.1e1 / 0.3e1)
t28 = t27 ** 2
t30 = r0 ** 2
t31 = t19 ** 2
t34 = s0 * t28 / t31 / t30
t36 = 0.5e1 / 0.972e3 * t21 / t24 * t34
t41 = params_a_kappa * (0.1e1 - params_a_kappa / (params_a_kappa + t36))
t47 = tau0 * t28 / t31 / r0 - t34 / 0.8e1
t48 = t47 ** 2
t49 = t21 ** 2
t55 = 0.1e1 - 0.25e2 / 0.81e2 * t48 * t49 / t23 / t22
t56 = t55 ** 2
t59 = t22 ** 2
t63 = t48 ** 2
t66 = t59 ** 2
t84 = lax_cond(r0 / 0.2e1 <= p_a_dens_threshold, 0, -0.3e1 / 0.8e1 * t3 / t4 * t18 * t19 * (0.1e1 + t41 + t56 * t55 / (0.1e1 + 0.250e3 / 0.243e3 * t48 * t47 / t59 + 0.62500e5 / 0.59049e5 * params_a_b * t63 * t48 / t66) * (params_a_kappa * (0.1e1 - params_a_kappa / (params_a_kappa + t36 + params_a_c)) - t41)))
res = 0.2e1 * t84
"

/- gen_repo/impl/prebuilt/pol/mgga_x_msb.py and gen_repo/impl/prebuilt/unpol/mgga_x_msb.py -/
formula mgga_x_msb pol "t2 = 3 ** (0.1e1 / 0.3e1)
t3 = math.pi ** (0.1e1 / 0.3e1)
t5 = t2 / t3
t6 = r0 + r1
t7 = 0.1e1 / t6
t10 = 0.2e1 * r0 * t7 <= p_a_zeta_threshold
t11 = p_a_zeta_threshold - 0.1e1
t14 = 0.2e1 * r1 * t7 <= p_a_zeta_threshold
t15 = -t11
t17 = (r0 - r1) * t7
t18 = lax_cond(t14, t15, t17)
t19 = lax_cond(t10, t11, t18)
t20 = 0.1e1 + t19
t22 = p_a_zeta_threshold ** (0.1e1 / 0.3e1)
t23 = t22 * p_a_zeta_threshold
t24 = t20 ** (0.1e1 / 0.3e1)
t26 = lax_cond(t20 <= p_a_zeta_threshold, t23, t24 * t20)
t27 = t6 ** (0.1e1 / 0.3e1)
t29 = 6 ** (0.1e1 / 0.3e1)
t30 = math.pi ** 2
t31 = t30 ** (0.1e1 / 0.3e1)
t32 = t31 ** 2
t34 = t29 / t32
t35 = r0 ** 2
t36 = r0 ** (0.1e1 / 0.3e1)
t37 = t36 ** 2
t40 = s0 / t37 / t35
t42 = 0.5e1 / 0.972e3 * t34 * t40
t47 = params_a_kappa * (0.1e1 - params_a_kappa / (params_a_kappa + t42))
t50 = tau0 / t37 / r0
t52 = t50 - t40 / 0.8e1
t53 = t52 ** 2
t54 = t29 ** 2
t56 = 0.3e1 / 0.10e2 * t54 * t32
t57 = t50 + t56
t58 = t57 ** 2
t62 = 0.1e1 - 0.4e1 * t53 / t58
t63 = t62 ** 2
t70 = t53 ** 2
t73 = t58 ** 2
t92 = lax_cond(r0 <= p_a_dens_threshold, 0, -0.3e1 / 0.8e1 * t5 * t26 * t27 * (0.1e1 + t47 + t63 * t62 / (0.1e1 + 0.8e1 * t53 * t52 / t58 / t57 + 0.64e2 * params_a_b * t70 * t53 / t73 / t58) * (params_a_kappa * (0.1e1 - params_a_kappa / (params_a_kappa + t42 + params_a_c)) - t47)))
t94 = lax_cond(t10, t15, -t17)
t95 = lax_cond(t14, t11, t94)
t96 = 0.1e1 + t95
t98 = t96 ** (0.1e1 / 0.3e1)
t100 = lax_cond(t96 <= p_a_zeta_threshold, t23, t98 * t96)
t102 = r1 ** 2
t103 = r1 ** (0.1e1 / 0.3e1)
t104 = t103 ** 2
t107 = s2 / t104 / t102
t109 = 0.5e1 / 0.972e3 * t34 * t107
t114 = params_a_kappa * (0.1e1 - params_a_kappa / (params_a_kappa + t109))
t117 = tau1 / t104 / r1
t119 = t117 - t107 / 0.8e1
t120 = t119 ** 2
t121 = t117 + t56
t122 = t121 ** 2
t126 = 0.1e1 - 0.4e1 * t120 / t122
t127 = t126 ** 2
t134 = t120 ** 2
t137 = t122 ** 2
t156 = lax_cond(r1 <= p_a_dens_threshold, 0, -0.3e1 / 0.8e1 * t5 * t100 * t27 * (0.1e1 + t114 + t127 * t126 / (0.1e1 + 0.8e1 * t120 * t119 / t122 / t121 + 0.64e2 * params_a_b * t134 * t120 / t137 / t122) * (params_a_kappa * (0.1e1 - params_a_kappa / (params_a_kappa + t109 + params_a_c)) - t114)))
res = t92 + t156
" unpol "t3 = 3 ** (0.1e1 / 0.3e1)
t4 = math.pi ** (0.1e1 / 0.3e1)
t7 = 0.1e1 <= p_a_zeta_threshold
t8 = p_a_zeta_threshold - 0.1e1
t10 = lax_cond(t7, -t8, 0)
t11 = lax_cond(t7, t8, t10)
t12 = 0.1e1 + t11
t14 = p_a_zeta_threshold ** (0.1e1 / 0.3e1)
t16 = t12 ** (0.1e1 / 0.3e1)
t18 = lax_cond(t12 <= p_a_zeta_threshold, t14 * p_a_zeta_threshold, t16 * t12)
t19 = r0 ** (0.1e1 / 0.3e1)
t21 = 6 ** (0.1e1 / 0.3e1)
t22 = math.pi ** 2
t23 = t22 ** (0.1e1 / 0.3e1)
t24 = t23 ** 2
t27 = 2 ** (0.1e1 / 0.3e1)
t28 = t27 ** 2
t30 = r0 ** 2
t31 = t19 ** 2
t34 = s0 * t28 / t31 / t30
t36 = 0.5e1 / 0.972e3 * t21 / t24 * t34
t41 = params_a_kappa * (0.1e1 - params_a_kappa / (params_a_kappa + t36))
t45 = tau0 * t28 / t31 / r0
t47 = t45 - t34 / 0.8e1
t48 = t47 ** 2
t49 = t21 ** 2
t52 = t45 + 0.3e1 / 0.10e2 * t49 * t24
t53 = t52 ** 2
t57 = 0.1e1 - 0.4e1 * t48 / t53
t58 = t57 ** 2
t65 = t48 ** 2
t68 = t53 ** 2
t87 = lax_cond(r0 / 0.2e1 <= p_a_dens_threshold, 0, -0.3e1 / 0.8e1 * t3 / t4 * t18 * t19 * (0.1e1 + t41 + t58 * t57 / (0.1e1 + 0.8e1 * t48 * t47 / t53 / t52 + 0.64e2 * params_a_b * t65 * t48 / t68 / t53) * (params_a_kappa * (0.1e1 - params_a_kappa / (params_a_kappa + t36 + params_a_c)) - t41)))
res = 0.2e1 * t87
"

/- gen_repo/impl/prebuilt/pol/mgga_x_mvs.py and gen_repo/impl/prebuilt/unpol/mgga_x_mvs.py -/
formula mgga_x_mvs pol "t2 = 3 ** (0.1e1 / 0.3e1)
t3 = math.pi ** (0.1e1 / 0.3e1)
t5 = t2 / t3
t6 = r0 + r1
t7 = 0.1e1 / t6
t10 = 0.2e1 * r0 * t7 <= p_a_zeta_threshold
t11 = p_a_zeta_threshold - 0.1e1
t14 = 0.2e1 * r1 * t7 <= p_a_zeta_threshold
t15 = -t11
t17 = (r0 - r1) * t7
t18 = lax_cond(t14, t15, t17)
t19 = lax_cond(t10, t11, t18)
t20 = 0.1e1 + t19
t22 = p_a_zeta_threshold ** (0.1e1 / 0.3e1)
t23 = t22 * p_a_zeta_threshold
t24 = t20 ** (0.1e1 / 0.3e1)
t26 = lax_cond(t20 <= p_a_zeta_threshold, t23, t24 * t20)
t28 = t6 ** (0.1e1 / 0.3e1)
t29 = r0 ** (0.1e1 / 0.3e1)
t30 = t29 ** 2
t34 = r0 ** 2
t39 = tau0 / t30 / r0 - s0 / t30 / t34 / 0.8e1
t40 = 6 ** (0.1e1 / 0.3e1)
t42 = math.pi ** 2
t43 = t42 ** (0.1e1 / 0.3e1)
t44 = t43 ** 2
t45 = 0.1e1 / t44
t50 = t39 ** 2
t52 = t40 ** 2
t54 = 0.1e1 / t43 / t42
t55 = t52 * t54
t59 = (0.1e1 + 0.25e2 / 0.81e2 * params_a_e1 * t50 * t55) ** 2
t60 = t50 ** 2
t62 = t42 ** 2
t65 = t40 / t44 / t62
t69 = (t59 + 0.1250e4 / 0.2187e4 * params_a_c1 * t60 * t65) ** (0.1e1 / 0.4e1)
t74 = params_a_b * t52
t75 = s0 ** 2
t77 = t34 ** 2
t85 = (0.1e1 + t74 * t54 * t75 / t29 / t77 / r0 / 0.576e3) ** (0.1e1 / 0.8e1)
t90 = lax_cond(r0 <= p_a_dens_threshold, 0, -0.3e1 / 0.8e1 * t5 * t26 * t28 * (0.1e1 + params_a_k0 * (0.1e1 - 0.5e1 / 0.9e1 * t39 * t40 * t45) / t69) / t85)
t92 = lax_cond(t10, t15, -t17)
t93 = lax_cond(t14, t11, t92)
t94 = 0.1e1 + t93
t96 = t94 ** (0.1e1 / 0.3e1)
t98 = lax_cond(t94 <= p_a_zeta_threshold, t23, t96 * t94)
t100 = r1 ** (0.1e1 / 0.3e1)
t101 = t100 ** 2
t105 = r1 ** 2
t110 = tau1 / t101 / r1 - s2 / t101 / t105 / 0.8e1
t116 = t110 ** 2
t121 = (0.1e1 + 0.25e2 / 0.81e2 * params_a_e1 * t116 * t55) ** 2
t122 = t116 ** 2
t127 = (t121 + 0.1250e4 / 0.2187e4 * params_a_c1 * t122 * t65) ** (0.1e1 / 0.4e1)
t132 = s2 ** 2
t134 = t105 ** 2
t142 = (0.1e1 + t74 * t54 * t132 / t100 / t134 / r1 / 0.576e3) ** (0.1e1 / 0.8e1)
t147 = lax_cond(r1 <= p_a_dens_threshold, 0, -0.3e1 / 0.8e1 * t5 * t98 * t28 * (0.1e1 + params_a_k0 * (0.1e1 - 0.5e1 / 0.9e1 * t110 * t40 * t45) / t127) / t142)
res = t90 + t147
" unpol "t3 = 3 ** (0.1e1 / 0.3e1)
t4 = math.pi ** (0.1e1 / 0.3e1)
t7 = 0.1e1 <= p_a_zeta_threshold
t8 = p_a_zeta_threshold - 0.1e1
t10 = lax_cond(t7, -t8, 0)
t11 = lax_cond(t7, t8, t10)
t12 = 0.1e1 + t11
t14 = p_a_zeta_threshold ** (0.1e1 / 0.3e1)
t16 = t12 ** (0.1e1 / 0.3e1)
t18 = lax_cond(t12 <= p_a_zeta_threshold, t14 * p_a_zeta_threshold, t16 * t12)
t20 = r0 ** (0.1e1 / 0.3e1)
t21 = 2 ** (0.1e1 / 0.3e1)
t22 = t21 ** 2
t24 = t20 ** 2
t29 = r0 ** 2
t34 = tau0 * t22 / t24 / r0 - s0 * t22 / t24 / t29 / 0.8e1
t35 = 6 ** (0.1e1 / 0.3e1)
t37 = math.pi ** 2
t38 = t37 ** (0.1e1 / 0.3e1)
t39 = t38 ** 2
t45 = t34 ** 2
t47 = t35 ** 2
t49 = 0.1e1 / t38 / t37
t54 = (0.1e1 + 0.25e2 / 0.81e2 * params_a_e1 * t45 * t47 * t49) ** 2
t55 = t45 ** 2
t57 = t37 ** 2
t64 = (t54 + 0.1250e4 / 0.2187e4 * params_a_c1 * t55 * t35 / t39 / t57) ** (0.1e1 / 0.4e1)
t71 = s0 ** 2
t73 = t29 ** 2
t81 = (0.1e1 + params_a_b * t47 * t49 * t71 * t21 / t20 / t73 / r0 / 0.288e3) ** (0.1e1 / 0.8e1)
t86 = lax_cond(r0 / 0.2e1 <= p_a_dens_threshold, 0, -0.3e1 / 0.8e1 * t3 / t4 * t18 * t20 * (0.1e1 + params_a_k0 * (0.1e1 - 0.5e1 / 0.9e1 * t34 * t35 / t39) / t64) / t81)
res = 0.2e1 * t86
"

end Verif.Data


/-!
# Shipped formulas, verbatim from `gen_repo/impl/prebuilt/{pol,unpol}/NAME.py`
-/
namespace Verif.Data

/- gen_repo/impl/prebuilt/pol/mgga_x_mvsb.py and gen_repo/impl/prebuilt/unpol/mgga_x_mvsb.py -/
formula mgga_x_mvsb pol "t2 = 3 ** (0.1e1 / 0.3e1)
t3 = math.pi ** (0.1e1 / 0.3e1)
t5 = t2 / t3
t6 = r0 + r1
t7 = 0.1e1 / t6
t10 = 0.2e1 * r0 * t7 <= p_a_zeta_threshold
t11 = p_a_zeta_threshold - 0.1e1
t14 = 0.2e1 * r1 * t7 <= p_a_zeta_threshold
t15 = -t11
t17 = (r0 - r1) * t7
t18 = lax_cond(t14, t15, t17)
t19 = lax_cond(t10, t11, t18)
t20 = 0.1e1 + t19
t22 = p_a_zeta_threshold ** (0.1e1 / 0.3e1)
t23 = t22 * p_a_zeta_threshold
t24 = t20 ** (0.1e1 / 0.3e1)
t26 = lax_cond(t20 <= p_a_zeta_threshold, t23, t24 * t20)
t28 = t6 ** (0.1e1 / 0.3e1)
t29 = r0 ** (0.1e1 / 0.3e1)
t30 = t29 ** 2
t33 = tau0 / t30 / r0
t34 = r0 ** 2
t39 = t33 - s0 / t30 / t34 / 0.8e1
t40 = 6 ** (0.1e1 / 0.3e1)
t41 = t40 ** 2
t42 = math.pi ** 2
t43 = t42 ** (0.1e1 / 0.3e1)
t44 = t43 ** 2
t46 = 0.3e1 / 0.10e2 * t41 * t44
t47 = t33 - t46
t52 = t39 ** 2
t54 = t47 ** 2
t58 = (0.1e1 + params_a_e1 * t52 / t54) ** 2
t59 = t52 ** 2
t61 = t54 ** 2
t65 = (t58 + params_a_c1 * t59 / t61) ** (0.1e1 / 0.4e1)
t70 = params_a_b * t41
t72 = 0.1e1 / t43 / t42
t73 = s0 ** 2
t75 = t34 ** 2
t83 = (0.1e1 + t70 * t72 * t73 / t29 / t75 / r0 / 0.576e3) ** (0.1e1 / 0.8e1)
t88 = lax_cond(r0 <= p_a_dens_threshold, 0, -0.3e1 / 0.8e1 * t5 * t26 * t28 * (0.1e1 + params_a_k0 * (0.1e1 - t39 / t47) / t65) / t83)
t90 = lax_cond(t10, t15, -t17)
t91 = lax_cond(t14, t11, t90)
t92 = 0.1e1 + t91
t94 = t92 ** (0.1e1 / 0.3e1)
t96 = lax_cond(t92 <= p_a_zeta_threshold, t23, t94 * t92)
t98 = r1 ** (0.1e1 / 0.3e1)
t99 = t98 ** 2
t102 = tau1 / t99 / r1
t103 = r1 ** 2
t108 = t102 - s2 / t99 / t103 / 0.8e1
t109 = t102 - t46
t114 = t108 ** 2
t116 = t109 ** 2
t120 = (0.1e1 + params_a_e1 * t114 / t116) ** 2
t121 = t114 ** 2
t123 = t116 ** 2
t127 = (t120 + params_a_c1 * t121 / t123) ** (0.1e1 / 0.4e1)
t132 = s2 ** 2
t134 = t103 ** 2
t142 = (0.1e1 + t70 * t72 * t132 / t98 / t134 / r1 / 0.576e3) ** (0.1e1 / 0.8e1)
t147 = lax_cond(r1 <= p_a_dens_threshold, 0, -0.3e1 / 0.8e1 * t5 * t96 * t28 * (0.1e1 + params_a_k0 * (0.1e1 - t108 / t109) / t127) / t142)
res = t88 + t147
" unpol "t3 = 3 ** (0.1e1 / 0.3e1)
t4 = math.pi ** (0.1e1 / 0.3e1)
t7 = 0.1e1 <= p_a_zeta_threshold
t8 = p_a_zeta_threshold - 0.1e1
t10 = lax_cond(t7, -t8, 0)
t11 = lax_cond(t7, t8, t10)
t12 = 0.1e1 + t11
t14 = p_a_zeta_threshold ** (0.1e1 / 0.3e1)
t16 = t12 ** (0.1e1 / 0.3e1)
t18 = lax_cond(t12 <= p_a_zeta_threshold, t14 * p_a_zeta_threshold, t16 * t12)
t20 = r0 ** (0.1e1 / 0.3e1)
t21 = 2 ** (0.1e1 / 0.3e1)
t22 = t21 ** 2
t24 = t20 ** 2
t27 = tau0 * t22 / t24 / r0
t29 = r0 ** 2
t34 = t27 - s0 * t22 / t24 / t29 / 0.8e1
t35 = 6 ** (0.1e1 / 0.3e1)
t36 = t35 ** 2
t37 = math.pi ** 2
t38 = t37 ** (0.1e1 / 0.3e1)
t39 = t38 ** 2
t42 = t27 - 0.3e1 / 0.10e2 * t36 * t39
t47 = t34 ** 2
t49 = t42 ** 2
t53 = (0.1e1 + params_a_e1 * t47 / t49) ** 2
t54 = t47 ** 2
t56 = t49 ** 2
t60 = (t53 + params_a_c1 * t54 / t56) ** (0.1e1 / 0.4e1)
t69 = s0 ** 2
t71 = t29 ** 2
t79 = (0.1e1 + params_a_b * t36 / t38 / t37 * t69 * t21 / t20 / t71 / r0 / 0.288e3) ** (0.1e1 / 0.8e1)
t84 = lax_cond(r0 / 0.2e1 <= p_a_dens_threshold, 0, -0.3e1 / 0.8e1 * t3 / t4 * t18 * t20 * (0.1e1 + params_a_k0 * (0.1e1 - t34 / t42) / t60) / t79)
res = 0.2e1 * t84
"

/- gen_repo/impl/prebuilt/pol/mgga_x_pbe_gx.py and gen_repo/impl/prebuilt/unpol/mgga_x_pbe_gx.py -/
formula mgga_x_pbe_gx pol "t2 = 3 ** (0.1e1 / 0.3e1)
t3 = math.pi ** (0.1e1 / 0.3e1)
t5 = t2 / t3
t6 = r0 + r1
t7 = 0.1e1 / t6
t10 = 0.2e1 * r0 * t7 <= p_a_zeta_threshold
t11 = p_a_zeta_threshold - 0.1e1
t14 = 0.2e1 * r1 * t7 <= p_a_zeta_threshold
t15 = -t11
t17 = (r0 - r1) * t7
t18 = lax_cond(t14, t15, t17)
t19 = lax_cond(t10, t11, t18)
t20 = 0.1e1 + t19
t22 = p_a_zeta_threshold ** (0.1e1 / 0.3e1)
t23 = t22 * p_a_zeta_threshold
t24 = t20 ** (0.1e1 / 0.3e1)
t26 = lax_cond(t20 <= p_a_zeta_threshold, t23, t24 * t20)
t28 = t6 ** (0.1e1 / 0.3e1)
t29 = 2 ** (0.1e1 / 0.3e1)
t30 = t2 ** 2
t32 = 4 ** (0.1e1 / 0.3e1)
t34 = 0.8e1 / 0.27e2 * t29 * t30 * t32
t35 = r0 ** (0.1e1 / 0.3e1)
t36 = t35 ** 2
t40 = r0 ** 2
t43 = s0 / t36 / t40
t46 = 6 ** (0.1e1 / 0.3e1)
t48 = math.pi ** 2
t49 = t48 ** (0.1e1 / 0.3e1)
t50 = t49 ** 2
t51 = 0.1e1 / t50
t52 = (tau0 / t36 / r0 - t43 / 0.8e1) * t46 * t51
t59 = 0.1e1 - t34
t64 = 0.5e1 / 0.9e1 * t52
t65 = 0.1e1 - t64
t66 = Heaviside(t65)
t74 = Heaviside(-t65)
t84 = lax_cond(r0 <= p_a_dens_threshold, 0, -0.3e1 / 0.8e1 * t5 * t26 * t28 * ((t34 + 0.5e1 / 0.9e1 * t52 * (0.827411e0 - 0.35753333333333333333e0 * t52) / (0.10e1 - 0.45341611111111111111e0 * t52) * t59) * t66 + (0.1e1 + 0.148e0 * t65 / (0.1e1 + t64)) * t74) / (0.1e1 + 0.1015549e-2 * t43))
t86 = lax_cond(t10, t15, -t17)
t87 = lax_cond(t14, t11, t86)
t88 = 0.1e1 + t87
t90 = t88 ** (0.1e1 / 0.3e1)
t92 = lax_cond(t88 <= p_a_zeta_threshold, t23, t90 * t88)
t94 = r1 ** (0.1e1 / 0.3e1)
t95 = t94 ** 2
t99 = r1 ** 2
t102 = s2 / t95 / t99
t106 = (tau1 / t95 / r1 - t102 / 0.8e1) * t46 * t51
t117 = 0.5e1 / 0.9e1 * t106
t118 = 0.1e1 - t117
t119 = Heaviside(t118)
t127 = Heaviside(-t118)
t137 = lax_cond(r1 <= p_a_dens_threshold, 0, -0.3e1 / 0.8e1 * t5 * t92 * t28 * ((t34 + 0.5e1 / 0.9e1 * t106 * (0.827411e0 - 0.35753333333333333333e0 * t106) / (0.10e1 - 0.45341611111111111111e0 * t106) * t59) * t119 + (0.1e1 + 0.148e0 * t118 / (0.1e1 + t117)) * t127) / (0.1e1 + 0.1015549e-2 * t102))
res = t84 + t137
" unpol "t3 = 3 ** (0.1e1 / 0.3e1)
t4 = math.pi ** (0.1e1 / 0.3e1)
t7 = 0.1e1 <= p_a_zeta_threshold
t8 = p_a_zeta_threshold - 0.1e1
t10 = lax_cond(t7, -t8, 0)
t11 = lax_cond(t7, t8, t10)
t12 = 0.1e1 + t11
t14 = p_a_zeta_threshold ** (0.1e1 / 0.3e1)
t16 = t12 ** (0.1e1 / 0.3e1)
t18 = lax_cond(t12 <= p_a_zeta_threshold, t14 * p_a_zeta_threshold, t16 * t12)
t20 = r0 ** (0.1e1 / 0.3e1)
t21 = 2 ** (0.1e1 / 0.3e1)
t22 = t3 ** 2
t24 = 4 ** (0.1e1 / 0.3e1)
t26 = 0.8e1 / 0.27e2 * t21 * t22 * t24
t27 = t21 ** 2
t29 = t20 ** 2
t34 = r0 ** 2
t37 = s0 * t27 / t29 / t34
t40 = 6 ** (0.1e1 / 0.3e1)
t42 = math.pi ** 2
t43 = t42 ** (0.1e1 / 0.3e1)
t44 = t43 ** 2
t46 = (tau0 * t27 / t29 / r0 - t37 / 0.8e1) * t40 / t44
t58 = 0.5e1 / 0.9e1 * t46
t59 = 0.1e1 - t58
t60 = Heaviside(t59)
t68 = Heaviside(-t59)
t78 = lax_cond(r0 / 0.2e1 <= p_a_dens_threshold, 0, -0.3e1 / 0.8e1 * t3 / t4 * t18 * t20 * ((t26 + 0.5e1 / 0.9e1 * t46 * (0.827411e0 - 0.35753333333333333333e0 * t46) / (0.10e1 - 0.45341611111111111111e0 * t46) * (0.1e1 - t26)) * t60 + (0.1e1 + 0.148e0 * t59 / (0.1e1 + t58)) * t68) / (0.1e1 + 0.1015549e-2 * t37))
res = 0.2e1 * t78
"

/- gen_repo/impl/prebuilt/pol/mgga_x_pkzb.py and gen_repo/impl/prebuilt/unpol/mgga_x_pkzb.py -/
formula mgga_x_pkzb pol "t2 = 3 ** (0.1e1 / 0.3e1)
t3 = math.pi ** (0.1e1 / 0.3e1)
t5 = t2 / t3
t6 = r0 + r1
t7 = 0.1e1 / t6
t10 = 0.2e1 * r0 * t7 <= p_a_zeta_threshold
t11 = p_a_zeta_threshold - 0.1e1
t14 = 0.2e1 * r1 * t7 <= p_a_zeta_threshold
t15 = -t11
t17 = (r0 - r1) * t7
t18 = lax_cond(t14, t15, t17)
t19 = lax_cond(t10, t11, t18)
t20 = 0.1e1 + t19
t22 = p_a_zeta_threshold ** (0.1e1 / 0.3e1)
t23 = t22 * p_a_zeta_threshold
t24 = t20 ** (0.1e1 / 0.3e1)
t26 = lax_cond(t20 <= p_a_zeta_threshold, t23, t24 * t20)
t27 = t6 ** (0.1e1 / 0.3e1)
t29 = 6 ** (0.1e1 / 0.3e1)
t30 = math.pi ** 2
t31 = t30 ** (0.1e1 / 0.3e1)
t32 = t31 ** 2
t33 = 0.1e1 / t32
t34 = t29 * t33
t35 = r0 ** 2
t36 = r0 ** (0.1e1 / 0.3e1)
t37 = t36 ** 2
t39 = 0.1e1 / t37 / t35
t41 = t34 * s0 * t39
t49 = t34 * tau0 / t37 / r0 / 0.4e1 - 0.9e1 / 0.20e2 - t41 / 0.288e3
t50 = t49 ** 2
t57 = t29 ** 2
t60 = t57 / t31 / t30
t61 = s0 ** 2
t62 = t35 ** 2
t76 = lax_cond(r0 <= p_a_dens_threshold, 0, -0.3e1 / 0.8e1 * t5 * t26 * t27 * (0.1804e1 - 0.646416e0 / (0.804e0 + 0.5e1 / 0.972e3 * t41 + 0.146e3 / 0.2025e4 * t50 - 0.73e2 / 0.9720e4 * t49 * t29 * t33 * s0 * t39 + 0.22909234000912809658e-3 * t60 * t61 / t36 / t62 / r0)))
t78 = lax_cond(t10, t15, -t17)
t79 = lax_cond(t14, t11, t78)
t80 = 0.1e1 + t79
t82 = t80 ** (0.1e1 / 0.3e1)
t84 = lax_cond(t80 <= p_a_zeta_threshold, t23, t82 * t80)
t86 = r1 ** 2
t87 = r1 ** (0.1e1 / 0.3e1)
t88 = t87 ** 2
t90 = 0.1e1 / t88 / t86
t92 = t34 * s2 * t90
t100 = t34 * tau1 / t88 / r1 / 0.4e1 - 0.9e1 / 0.20e2 - t92 / 0.288e3
t101 = t100 ** 2
t108 = s2 ** 2
t109 = t86 ** 2
t123 = lax_cond(r1 <= p_a_dens_threshold, 0, -0.3e1 / 0.8e1 * t5 * t84 * t27 * (0.1804e1 - 0.646416e0 / (0.804e0 + 0.5e1 / 0.972e3 * t92 + 0.146e3 / 0.2025e4 * t101 - 0.73e2 / 0.9720e4 * t100 * t29 * t33 * s2 * t90 + 0.22909234000912809658e-3 * t60 * t108 / t87 / t109 / r1)))
res = t76 + t123
" unpol "t3 = 3 ** (0.1e1 / 0.3e1)
t4 = math.pi ** (0.1e1 / 0.3e1)
t7 = 0.1e1 <= p_a_zeta_threshold
t8 = p_a_zeta_threshold - 0.1e1
t10 = lax_cond(t7, -t8, 0)
t11 = lax_cond(t7, t8, t10)
t12 = 0.1e1 + t11
t14 = p_a_zeta_threshold ** (0.1e1 / 0.3e1)
t16 = t12 ** (0.1e1 / 0.3e1)
t18 = lax_cond(t12 <= p_a_zeta_threshold, t14 * p_a_zeta_threshold, t16 * t12)
t19 = r0 ** (0.1e1 / 0.3e1)
t21 = 6 ** (0.1e1 / 0.3e1)
t22 = math.pi ** 2
t23 = t22 ** (0.1e1 / 0.3e1)
t24 = t23 ** 2
t25 = 0.1e1 / t24
t26 = t21 * t25
t27 = 2 ** (0.1e1 / 0.3e1)
t28 = t27 ** 2
t30 = r0 ** 2
t31 = t19 ** 2
t34 = s0 * t28 / t31 / t30
t35 = t26 * t34
t44 = t26 * tau0 * t28 / t31 / r0 / 0.4e1 - 0.9e1 / 0.20e2 - t35 / 0.288e3
t45 = t44 ** 2
t51 = t21 ** 2
t55 = s0 ** 2
t57 = t30 ** 2
t71 = lax_cond(r0 / 0.2e1 <= p_a_dens_threshold, 0, -0.3e1 / 0.8e1 * t3 / t4 * t18 * t19 * (0.1804e1 - 0.646416e0 / (0.804e0 + 0.5e1 / 0.972e3 * t35 + 0.146e3 / 0.2025e4 * t45 - 0.73e2 / 0.9720e4 * t44 * t21 * t25 * t34 + 0.45818468001825619316e-3 * t51 / t23 / t22 * t55 * t27 / t19 / t57 / r0)))
res = 0.2e1 * t71
"

/- gen_repo/impl/prebuilt/pol/mgga_x_r2scan.py and gen_repo/impl/prebuilt/unpol/mgga_x_r2scan.py -/
formula mgga_x_r2scan pol "t2 = 3 ** (0.1e1 / 0.3e1)
t3 = math.pi ** (0.1e1 / 0.3e1)
t5 = t2 / t3
t6 = r0 + r1
t7 = 0.1e1 / t6
t10 = 0.2e1 * r0 * t7 <= p_a_zeta_threshold
t11 = p_a_zeta_threshold - 0.1e1
t14 = 0.2e1 * r1 * t7 <= p_a_zeta_threshold
t15 = -t11
t17 = (r0 - r1) * t7
t18 = lax_cond(t14, t15, t17)
t19 = lax_cond(t10, t11, t18)
t20 = 0.1e1 + t19
t22 = p_a_zeta_threshold ** (0.1e1 / 0.3e1)
t23 = t22 * p_a_zeta_threshold
t24 = t20 ** (0.1e1 / 0.3e1)
t26 = lax_cond(t20 <= p_a_zeta_threshold, t23, t24 * t20)
t28 = t6 ** (0.1e1 / 0.3e1)
t30 = 0.20e2 / 0.27e2 + 0.5e1 / 0.3e1 * params_a_eta
t31 = 6 ** (0.1e1 / 0.3e1)
t32 = t31 ** 2
t33 = math.pi ** 2
t34 = t33 ** (0.1e1 / 0.3e1)
t37 = t32 / t34 / t33
t38 = s0 ** 2
t39 = r0 ** 2
t40 = t39 ** 2
t42 = r0 ** (0.1e1 / 0.3e1)
t46 = params_a_dp2 ** 2
t47 = t46 ** 2
t48 = 0.1e1 / t47
t52 = math.exp(-t37 * t38 / t42 / t40 / r0 * t48 / 0.576e3)
t57 = t34 ** 2
t58 = 0.1e1 / t57
t60 = t42 ** 2
t62 = 0.1e1 / t60 / t39
t70 = params_a_k1 * (0.1e1 - params_a_k1 / (params_a_k1 + (-0.162742215233874e0 * t30 * t52 + 0.10e2 / 0.81e2) * t31 * t58 * s0 * t62 / 0.24e2))
t78 = 0.3e1 / 0.10e2 * t32 * t57
t84 = (tau0 / t60 / r0 - s0 * t62 / 0.8e1) / (t78 + params_a_eta * s0 * t62 / 0.8e1)
t87 = lax_cond(0.0e0 < t84, 0, t84)
t92 = math.exp(-params_a_c1 * t87 / (0.1e1 - t87))
t94 = 0.25e1 < t84
t95 = lax_cond(t94, 0.25e1, t84)
t97 = t95 ** 2
t99 = t97 * t95
t101 = t97 ** 2
t110 = lax_cond(t94, t84, 0.25e1)
t114 = math.exp(params_a_c2 / (0.1e1 - t110))
t116 = lax_cond(t84 <= 0.25e1, 0.1e1 - 0.667e0 * t95 - 0.4445555e0 * t97 - 0.663086601049e0 * t99 + 0.1451297044490e1 * t101 - 0.887998041597e0 * t101 * t95 + 0.234528941479e0 * t101 * t97 - 0.23185843322e-1 * t101 * t99, -params_a_d * t114)
t117 = lax_cond(t84 <= 0.0e0, t92, t116)
t122 = math.sqrt(0.3e1)
t124 = t32 / t34
t125 = math.sqrt(s0)
t130 = math.sqrt(t124 * t125 / t42 / r0)
t134 = math.exp(-0.98958000000000000000e1 * t122 / t130)
t139 = lax_cond(r0 <= p_a_dens_threshold, 0, -0.3e1 / 0.8e1 * t5 * t26 * t28 * (0.1e1 + t70 + t117 * (0.174e0 - t70)) * (0.1e1 - t134))
t141 = lax_cond(t10, t15, -t17)
t142 = lax_cond(t14, t11, t141)
t143 = 0.1e1 + t142
t145 = t143 ** (0.1e1 / 0.3e1)
t147 = lax_cond(t143 <= p_a_zeta_threshold, t23, t145 * t143)
t149 = s2 ** 2
t150 = r1 ** 2
t151 = t150 ** 2
t153 = r1 ** (0.1e1 / 0.3e1)
t160 = math.exp(-t37 * t149 / t153 / t151 / r1 * t48 / 0.576e3)
t166 = t153 ** 2
t168 = 0.1e1 / t166 / t150
t176 = params_a_k1 * (0.1e1 - params_a_k1 / (params_a_k1 + (-0.162742215233874e0 * t30 * t160 + 0.10e2 / 0.81e2) * t31 * t58 * s2 * t168 / 0.24e2))
t188 = (tau1 / t166 / r1 - s2 * t168 / 0.8e1) / (t78 + params_a_eta * s2 * t168 / 0.8e1)
t191 = lax_cond(0.0e0 < t188, 0, t188)
t196 = math.exp(-params_a_c1 * t191 / (0.1e1 - t191))
t198 = 0.25e1 < t188
t199 = lax_cond(t198, 0.25e1, t188)
t201 = t199 ** 2
t203 = t201 * t199
t205 = t201 ** 2
t214 = lax_cond(t198, t188, 0.25e1)
t218 = math.exp(params_a_c2 / (0.1e1 - t214))
t220 = lax_cond(t188 <= 0.25e1, 0.1e1 - 0.667e0 * t199 - 0.4445555e0 * t201 - 0.663086601049e0 * t203 + 0.1451297044490e1 * t205 - 0.887998041597e0 * t205 * t199 + 0.234528941479e0 * t205 * t201 - 0.23185843322e-1 * t205 * t203, -params_a_d * t218)
t221 = lax_cond(t188 <= 0.0e0, t196, t220)
t226 = math.sqrt(s2)
t231 = math.sqrt(t124 * t226 / t153 / r1)
t235 = math.exp(-0.98958000000000000000e1 * t122 / t231)
t240 = lax_cond(r1 <= p_a_dens_threshold, 0, -0.3e1 / 0.8e1 * t5 * t147 * t28 * (0.1e1 + t176 + t221 * (0.174e0 - t176)) * (0.1e1 - t235))
res = t139 + t240
" unpol "t3 = 3 ** (0.1e1 / 0.3e1)
t4 = math.pi ** (0.1e1 / 0.3e1)
t7 = 0.1e1 <= p_a_zeta_threshold
t8 = p_a_zeta_threshold - 0.1e1
t10 = lax_cond(t7, -t8, 0)
t11 = lax_cond(t7, t8, t10)
t12 = 0.1e1 + t11
t14 = p_a_zeta_threshold ** (0.1e1 / 0.3e1)
t16 = t12 ** (0.1e1 / 0.3e1)
t18 = lax_cond(t12 <= p_a_zeta_threshold, t14 * p_a_zeta_threshold, t16 * t12)
t20 = r0 ** (0.1e1 / 0.3e1)
t23 = 6 ** (0.1e1 / 0.3e1)
t24 = t23 ** 2
t25 = math.pi ** 2
t26 = t25 ** (0.1e1 / 0.3e1)
t30 = s0 ** 2
t32 = 2 ** (0.1e1 / 0.3e1)
t33 = r0 ** 2
t34 = t33 ** 2
t39 = params_a_dp2 ** 2
t40 = t39 ** 2
t45 = math.exp(-t24 / t26 / t25 * t30 * t32 / t20 / t34 / r0 / t40 / 0.288e3)
t50 = t26 ** 2
t53 = t32 ** 2
t55 = t20 ** 2
t57 = 0.1e1 / t55 / t33
t58 = s0 * t53 * t57
t65 = params_a_k1 * (0.1e1 - params_a_k1 / (params_a_k1 + (-0.162742215233874e0 * (0.20e2 / 0.27e2 + 0.5e1 / 0.3e1 * params_a_eta) * t45 + 0.10e2 / 0.81e2) * t23 / t50 * t58 / 0.24e2))
t80 = (tau0 * t53 / t55 / r0 - t58 / 0.8e1) / (0.3e1 / 0.10e2 * t24 * t50 + params_a_eta * s0 * t53 * t57 / 0.8e1)
t83 = lax_cond(0.0e0 < t80, 0, t80)
t88 = math.exp(-params_a_c1 * t83 / (0.1e1 - t83))
t90 = 0.25e1 < t80
t91 = lax_cond(t90, 0.25e1, t80)
t93 = t91 ** 2
t95 = t93 * t91
t97 = t93 ** 2
t106 = lax_cond(t90, t80, 0.25e1)
t110 = math.exp(params_a_c2 / (0.1e1 - t106))
t112 = lax_cond(t80 <= 0.25e1, 0.1e1 - 0.667e0 * t91 - 0.4445555e0 * t93 - 0.663086601049e0 * t95 + 0.1451297044490e1 * t97 - 0.887998041597e0 * t97 * t91 + 0.234528941479e0 * t97 * t93 - 0.23185843322e-1 * t97 * t95, -params_a_d * t110)
t113 = lax_cond(t80 <= 0.0e0, t88, t112)
t118 = math.sqrt(0.3e1)
t121 = math.sqrt(s0)
t127 = math.sqrt(t24 / t26 * t121 * t32 / t20 / r0)
t131 = math.exp(-0.98958000000000000000e1 * t118 / t127)
t136 = lax_cond(r0 / 0.2e1 <= p_a_dens_threshold, 0, -0.3e1 / 0.8e1 * t3 / t4 * t18 * t20 * (0.1e1 + t65 + t113 * (0.174e0 - t65)) * (0.1e1 - t131))
res = 0.2e1 * t136
"

/- gen_repo/impl/prebuilt/pol/mgga_x_r4scan.py and gen_repo/impl/prebuilt/unpol/mgga_x_r4scan.py -/
formula mgga_x_r4scan pol "t2 = 3 ** (0.1e1 / 0.3e1)
t3 = math.pi ** (0.1e1 / 0.3e1)
t5 = t2 / t3
t6 = r0 + r1
t7 = 0.1e1 / t6
t10 = 0.2e1 * r0 * t7 <= p_a_zeta_threshold
t11 = p_a_zeta_threshold - 0.1e1
t14 = 0.2e1 * r1 * t7 <= p_a_zeta_threshold
t15 = -t11
t17 = (r0 - r1) * t7
t18 = lax_cond(t14, t15, t17)
t19 = lax_cond(t10, t11, t18)
t20 = 0.1e1 + t19
t22 = p_a_zeta_threshold ** (0.1e1 / 0.3e1)
t23 = t22 * p_a_zeta_threshold
t24 = t20 ** (0.1e1 / 0.3e1)
t26 = lax_cond(t20 <= p_a_zeta_threshold, t23, t24 * t20)
t28 = t6 ** (0.1e1 / 0.3e1)
t30 = 0.20e2 / 0.27e2 + 0.5e1 / 0.3e1 * params_a_eta
t31 = 6 ** (0.1e1 / 0.3e1)
t32 = t31 ** 2
t33 = math.pi ** 2
t34 = t33 ** (0.1e1 / 0.3e1)
t36 = 0.1e1 / t34 / t33
t37 = t32 * t36
t38 = s0 ** 2
t39 = r0 ** 2
t40 = t39 ** 2
t42 = r0 ** (0.1e1 / 0.3e1)
t44 = 0.1e1 / t42 / t40 / r0
t45 = t38 * t44
t46 = params_a_dp2 ** 2
t47 = t46 ** 2
t48 = 0.1e1 / t47
t52 = math.exp(-t37 * t45 * t48 / 0.576e3)
t57 = t34 ** 2
t58 = 0.1e1 / t57
t60 = t42 ** 2
t62 = 0.1e1 / t60 / t39
t63 = t58 * s0 * t62
t70 = params_a_k1 * (0.1e1 - params_a_k1 / (params_a_k1 + (-0.162742215233874e0 * t30 * t52 + 0.10e2 / 0.81e2) * t31 * t63 / 0.24e2))
t74 = s0 * t62
t76 = tau0 / t60 / r0 - t74 / 0.8e1
t78 = 0.3e1 / 0.10e2 * t32 * t57
t82 = t78 + params_a_eta * s0 * t62 / 0.8e1
t84 = t76 / t82
t87 = lax_cond(0.0e0 < t84, 0, t84)
t92 = math.exp(-params_a_c1 * t87 / (0.1e1 - t87))
t94 = 0.25e1 < t84
t95 = lax_cond(t94, 0.25e1, t84)
t97 = t95 ** 2
t99 = t97 * t95
t101 = t97 ** 2
t110 = lax_cond(t94, t84, 0.25e1)
t114 = math.exp(params_a_c2 / (0.1e1 - t110))
t116 = lax_cond(t84 <= 0.25e1, 0.1e1 - 0.667e0 * t95 - 0.4445555e0 * t97 - 0.663086601049e0 * t99 + 0.1451297044490e1 * t101 - 0.887998041597e0 * t101 * t95 + 0.234528941479e0 * t101 * t97 - 0.23185843322e-1 * t101 * t99, -params_a_d * t114)
t117 = lax_cond(t84 <= 0.0e0, t92, t116)
t121 = t30 * t31
t124 = 0.1e1 - t84
t125 = t124 ** 2
t130 = (0.40570770199022687793e-1 - 0.30235468026081006357e0 * params_a_eta) * t31 * t58
t136 = (0.3e1 / 0.4e1 * params_a_eta + 0.2e1 / 0.3e1) ** 2
t141 = (0.290700106132790123e-2 - 0.27123702538979000000e0 * params_a_eta) ** 2
t145 = (0.146e3 / 0.2025e4 * t136 - 0.73e2 / 0.540e3 * params_a_eta - 0.146e3 / 0.1215e4 + t141 / params_a_k1) * t32
t151 = t76 ** 2
t153 = t82 ** 2
t155 = t151 ** 2
t156 = t153 ** 2
t162 = params_a_da4 ** 2
t163 = 0.1e1 / t162
t165 = params_a_dp4 ** 2
t166 = t165 ** 2
t167 = 0.1e1 / t166
t172 = math.exp(-t125 * t163 - t37 * t45 * t167 / 0.576e3)
t178 = math.sqrt(0.3e1)
t180 = t32 / t34
t181 = math.sqrt(s0)
t186 = math.sqrt(t180 * t181 / t42 / r0)
t190 = math.exp(-0.98958000000000000000e1 * t178 / t186)
t195 = lax_cond(r0 <= p_a_dens_threshold, 0, -0.3e1 / 0.8e1 * t5 * t26 * t28 * (0.1e1 + t70 + t117 * (0.174e0 - t70) + 0.2e1 * (-0.162742215233874e0 + 0.162742215233874e0 * t84 + 0.67809256347447500000e-2 * t121 * t63 - 0.59353125082804000000e-1 * t125 + t130 * t74 * t124 / 0.24e2 + t145 * t36 * t38 * t44 / 0.576e3) * t151 / t153 / (0.1e1 + t155 / t156) * t172) * (0.1e1 - t190))
t197 = lax_cond(t10, t15, -t17)
t198 = lax_cond(t14, t11, t197)
t199 = 0.1e1 + t198
t201 = t199 ** (0.1e1 / 0.3e1)
t203 = lax_cond(t199 <= p_a_zeta_threshold, t23, t201 * t199)
t205 = s2 ** 2
t206 = r1 ** 2
t207 = t206 ** 2
t209 = r1 ** (0.1e1 / 0.3e1)
t211 = 0.1e1 / t209 / t207 / r1
t212 = t205 * t211
t216 = math.exp(-t37 * t212 * t48 / 0.576e3)
t222 = t209 ** 2
t224 = 0.1e1 / t222 / t206
t225 = t58 * s2 * t224
t232 = params_a_k1 * (0.1e1 - params_a_k1 / (params_a_k1 + (-0.162742215233874e0 * t30 * t216 + 0.10e2 / 0.81e2) * t31 * t225 / 0.24e2))
t236 = s2 * t224
t238 = tau1 / t222 / r1 - t236 / 0.8e1
t242 = t78 + params_a_eta * s2 * t224 / 0.8e1
t244 = t238 / t242
t247 = lax_cond(0.0e0 < t244, 0, t244)
t252 = math.exp(-params_a_c1 * t247 / (0.1e1 - t247))
t254 = 0.25e1 < t244
t255 = lax_cond(t254, 0.25e1, t244)
t257 = t255 ** 2
t259 = t257 * t255
t261 = t257 ** 2
t270 = lax_cond(t254, t244, 0.25e1)
t274 = math.exp(params_a_c2 / (0.1e1 - t270))
t276 = lax_cond(t244 <= 0.25e1, 0.1e1 - 0.667e0 * t255 - 0.4445555e0 * t257 - 0.663086601049e0 * t259 + 0.1451297044490e1 * t261 - 0.887998041597e0 * t261 * t255 + 0.234528941479e0 * t261 * t257 - 0.23185843322e-1 * t261 * t259, -params_a_d * t274)
t277 = lax_cond(t244 <= 0.0e0, t252, t276)
t283 = 0.1e1 - t244
t284 = t283 ** 2
t294 = t238 ** 2
t296 = t242 ** 2
t298 = t294 ** 2
t299 = t296 ** 2
t310 = math.exp(-t284 * t163 - t37 * t212 * t167 / 0.576e3)
t316 = math.sqrt(s2)
t321 = math.sqrt(t180 * t316 / t209 / r1)
t325 = math.exp(-0.98958000000000000000e1 * t178 / t321)
t330 = lax_cond(r1 <= p_a_dens_threshold, 0, -0.3e1 / 0.8e1 * t5 * t203 * t28 * (0.1e1 + t232 + t277 * (0.174e0 - t232) + 0.2e1 * (-0.162742215233874e0 + 0.162742215233874e0 * t244 + 0.67809256347447500000e-2 * t121 * t225 - 0.59353125082804000000e-1 * t284 + t130 * t236 * t283 / 0.24e2 + t145 * t36 * t205 * t211 / 0.576e3) * t294 / t296 / (0.1e1 + t298 / t299) * t310) * (0.1e1 - t325))
res = t195 + t330
" unpol "t3 = 3 ** (0.1e1 / 0.3e1)
t4 = math.pi ** (0.1e1 / 0.3e1)
t7 = 0.1e1 <= p_a_zeta_threshold
t8 = p_a_zeta_threshold - 0.1e1
t10 = lax_cond(t7, -t8, 0)
t11 = lax_cond(t7, t8, t10)
t12 = 0.1e1 + t11
t14 = p_a_zeta_threshold ** (0.1e1 / 0.3e1)
t16 = t12 ** (0.1e1 / 0.3e1)
t18 = lax_cond(t12 <= p_a_zeta_threshold, t14 * p_a_zeta_threshold, t16 * t12)
t20 = r0 ** (0.1e1 / 0.3e1)
t22 = 0.20e2 / 0.27e2 + 0.5e1 / 0.3e1 * params_a_eta
t23 = 6 ** (0.1e1 / 0.3e1)
t24 = t23 ** 2
t25 = math.pi ** 2
t26 = t25 ** (0.1e1 / 0.3e1)
t28 = 0.1e1 / t26 / t25
t30 = s0 ** 2
t31 = t24 * t28 * t30
t32 = 2 ** (0.1e1 / 0.3e1)
t33 = r0 ** 2
t34 = t33 ** 2
t37 = 0.1e1 / t20 / t34 / r0
t38 = t32 * t37
t39 = params_a_dp2 ** 2
t40 = t39 ** 2
t45 = math.exp(-t31 * t38 / t40 / 0.288e3)
t50 = t26 ** 2
t51 = 0.1e1 / t50
t53 = t32 ** 2
t54 = s0 * t53
t55 = t20 ** 2
t57 = 0.1e1 / t55 / t33
t58 = t54 * t57
t65 = params_a_k1 * (0.1e1 - params_a_k1 / (params_a_k1 + (-0.162742215233874e0 * t22 * t45 + 0.10e2 / 0.81e2) * t23 * t51 * t58 / 0.24e2))
t71 = tau0 * t53 / t55 / r0 - t58 / 0.8e1
t78 = 0.3e1 / 0.10e2 * t24 * t50 + params_a_eta * s0 * t53 * t57 / 0.8e1
t80 = t71 / t78
t83 = lax_cond(0.0e0 < t80, 0, t80)
t88 = math.exp(-params_a_c1 * t83 / (0.1e1 - t83))
t90 = 0.25e1 < t80
t91 = lax_cond(t90, 0.25e1, t80)
t93 = t91 ** 2
t95 = t93 * t91
t97 = t93 ** 2
t106 = lax_cond(t90, t80, 0.25e1)
t110 = math.exp(params_a_c2 / (0.1e1 - t106))
t112 = lax_cond(t80 <= 0.25e1, 0.1e1 - 0.667e0 * t91 - 0.4445555e0 * t93 - 0.663086601049e0 * t95 + 0.1451297044490e1 * t97 - 0.887998041597e0 * t97 * t91 + 0.234528941479e0 * t97 * t93 - 0.23185843322e-1 * t97 * t95, -params_a_d * t110)
t113 = lax_cond(t80 <= 0.0e0, t88, t112)
t121 = 0.1e1 - t80
t122 = t121 ** 2
t134 = (0.3e1 / 0.4e1 * params_a_eta + 0.2e1 / 0.3e1) ** 2
t139 = (0.290700106132790123e-2 - 0.27123702538979000000e0 * params_a_eta) ** 2
t150 = t71 ** 2
t152 = t78 ** 2
t154 = t150 ** 2
t155 = t152 ** 2
t161 = params_a_da4 ** 2
t164 = params_a_dp4 ** 2
t165 = t164 ** 2
t171 = math.exp(-t122 / t161 - t31 * t38 / t165 / 0.288e3)
t177 = math.sqrt(0.3e1)
t180 = math.sqrt(s0)
t186 = math.sqrt(t24 / t26 * t180 * t32 / t20 / r0)
t190 = math.exp(-0.98958000000000000000e1 * t177 / t186)
t195 = lax_cond(r0 / 0.2e1 <= p_a_dens_threshold, 0, -0.3e1 / 0.8e1 * t3 / t4 * t18 * t20 * (0.1e1 + t65 + t113 * (0.174e0 - t65) + 0.2e1 * (-0.162742215233874e0 + 0.162742215233874e0 * t80 + 0.67809256347447500000e-2 * t22 * t23 * t51 * t58 - 0.59353125082804000000e-1 * t122 + (0.40570770199022687793e-1 - 0.30235468026081006357e0 * params_a_eta) * t23 * t51 * t54 * t57 * t121 / 0.24e2 + (0.146e3 / 0.2025e4 * t134 - 0.73e2 / 0.540e3 * params_a_eta - 0.146e3 / 0.1215e4 + t139 / params_a_k1) * t24 * t28 * t30 * t32 * t37 / 0.288e3) * t150 / t152 / (0.1e1 + t154 / t155) * t171) * (0.1e1 - t190))
res = 0.2e1 * t195
"

/- gen_repo/impl/prebuilt/pol/mgga_x_regtm.py and gen_repo/impl/prebuilt/unpol/mgga_x_regtm.py -/
formula mgga_x_regtm pol "t2 = 3 ** (0.1e1 / 0.3e1)
t3 = math.pi ** (0.1e1 / 0.3e1)
t5 = t2 / t3
t6 = r0 + r1
t7 = 0.1e1 / t6
t10 = 0.2e1 * r0 * t7 <= p_a_zeta_threshold
t11 = p_a_zeta_threshold - 0.1e1
t14 = 0.2e1 * r1 * t7 <= p_a_zeta_threshold
t15 = -t11
t17 = (r0 - r1) * t7
t18 = lax_cond(t14, t15, t17)
t19 = lax_cond(t10, t11, t18)
t20 = 0.1e1 + t19
t22 = p_a_zeta_threshold ** (0.1e1 / 0.3e1)
t23 = t22 * p_a_zeta_threshold
t24 = t20 ** (0.1e1 / 0.3e1)
t26 = lax_cond(t20 <= p_a_zeta_threshold, t23, t24 * t20)
t27 = t6 ** (0.1e1 / 0.3e1)
t29 = r0 ** (0.1e1 / 0.3e1)
t30 = t29 ** 2
t33 = tau0 / t30 / r0
t34 = r0 ** 2
t36 = 0.1e1 / t30 / t34
t37 = s0 * t36
t39 = t33 - t37 / 0.8e1
t40 = 6 ** (0.1e1 / 0.3e1)
t41 = t39 * t40
t42 = math.pi ** 2
t43 = t42 ** (0.1e1 / 0.3e1)
t44 = t43 ** 2
t45 = 0.1e1 / t44
t46 = t40 * t45
t47 = t46 * t37
t49 = t41 * t45
t51 = 0.1e1 - 0.5e1 / 0.9e1 * t49
t52 = t51 ** 2
t54 = t39 ** 2
t55 = t40 ** 2
t58 = 0.1e1 / t43 / t42
t61 = 0.1e1 + 0.67148919753086419753e0 * t54 * t55 * t58
t62 = math.sqrt(t61)
t67 = math.exp(-t47 / 0.8e1)
t74 = 0.1e1 + t41 * t45 / (t47 / 0.24e2 + t52 * t51 / t62 / t61 * t67) / 0.3e1
t75 = t74 ** 2
t78 = 0.1e1 / t75 / t74
t82 = (0.1e1 + t78) ** 2
t84 = (0.1e1 / t75 + 0.3e1 * t78) / t82
t86 = t55 * t58
t87 = s0 ** 2
t88 = t34 ** 2
t96 = (0.1e1 + 0.15045488888888888889e0 * t47 + 0.26899490462262948000e-2 * t86 * t87 / t29 / t88 / r0) ** (0.1e1 / 0.5e1)
t101 = 0.25633760400000000000e0 * t55 * t44
t108 = t96 ** 2
t124 = t49 / 0.4e1 - 0.9e1 / 0.20e2 + t47 / 0.36e2
t125 = t124 ** 2
t131 = s0 / r0 / tau0 / 0.8e1
t133 = lax_cond(t131 < 0.10e1, t131, 0.10e1)
t139 = (0.1e1 + 0.5e1 / 0.12e2 * (0.10e2 / 0.81e2 + 0.25e2 / 0.8748e4 * t47) * t40 * t45 * s0 * t36 + 0.292e3 / 0.405e3 * t125 - 0.146e3 / 0.135e3 * t124 * t133 * (0.1e1 - t133)) ** (0.1e1 / 0.10e2)
t145 = lax_cond(r0 <= p_a_dens_threshold, 0, -0.3e1 / 0.8e1 * t5 * t26 * t27 * (t84 * (0.1e1 / t96 + 0.7e1 / 0.9e1 * (0.1e1 + 0.63943327777777777778e-1 * t47 - 0.5e1 / 0.9e1 * (0.14554132000000000000e0 * t33 + t101 + 0.11867481666666666667e-1 * t37) * t40 * t45) / t108) + (0.1e1 - t84) * t139))
t147 = lax_cond(t10, t15, -t17)
t148 = lax_cond(t14, t11, t147)
t149 = 0.1e1 + t148
t151 = t149 ** (0.1e1 / 0.3e1)
t153 = lax_cond(t149 <= p_a_zeta_threshold, t23, t151 * t149)
t155 = r1 ** (0.1e1 / 0.3e1)
t156 = t155 ** 2
t159 = tau1 / t156 / r1
t160 = r1 ** 2
t162 = 0.1e1 / t156 / t160
t163 = s2 * t162
t165 = t159 - t163 / 0.8e1
t166 = t165 * t40
t167 = t46 * t163
t169 = t166 * t45
t171 = 0.1e1 - 0.5e1 / 0.9e1 * t169
t172 = t171 ** 2
t174 = t165 ** 2
t178 = 0.1e1 + 0.67148919753086419753e0 * t174 * t55 * t58
t179 = math.sqrt(t178)
t184 = math.exp(-t167 / 0.8e1)
t191 = 0.1e1 + t166 * t45 / (t167 / 0.24e2 + t172 * t171 / t179 / t178 * t184) / 0.3e1
t192 = t191 ** 2
t195 = 0.1e1 / t192 / t191
t199 = (0.1e1 + t195) ** 2
t201 = (0.1e1 / t192 + 0.3e1 * t195) / t199
t203 = s2 ** 2
t204 = t160 ** 2
t212 = (0.1e1 + 0.15045488888888888889e0 * t167 + 0.26899490462262948000e-2 * t86 * t203 / t155 / t204 / r1) ** (0.1e1 / 0.5e1)
t222 = t212 ** 2
t238 = t169 / 0.4e1 - 0.9e1 / 0.20e2 + t167 / 0.36e2
t239 = t238 ** 2
t245 = s2 / r1 / tau1 / 0.8e1
t247 = lax_cond(t245 < 0.10e1, t245, 0.10e1)
t253 = (0.1e1 + 0.5e1 / 0.12e2 * (0.10e2 / 0.81e2 + 0.25e2 / 0.8748e4 * t167) * t40 * t45 * s2 * t162 + 0.292e3 / 0.405e3 * t239 - 0.146e3 / 0.135e3 * t238 * t247 * (0.1e1 - t247)) ** (0.1e1 / 0.10e2)
t259 = lax_cond(r1 <= p_a_dens_threshold, 0, -0.3e1 / 0.8e1 * t5 * t153 * t27 * (t201 * (0.1e1 / t212 + 0.7e1 / 0.9e1 * (0.1e1 + 0.63943327777777777778e-1 * t167 - 0.5e1 / 0.9e1 * (0.14554132000000000000e0 * t159 + t101 + 0.11867481666666666667e-1 * t163) * t40 * t45) / t222) + (0.1e1 - t201) * t253))
res = t145 + t259
" unpol "t3 = 3 ** (0.1e1 / 0.3e1)
t4 = math.pi ** (0.1e1 / 0.3e1)
t7 = 0.1e1 <= p_a_zeta_threshold
t8 = p_a_zeta_threshold - 0.1e1
t10 = lax_cond(t7, -t8, 0)
t11 = lax_cond(t7, t8, t10)
t12 = 0.1e1 + t11
t14 = p_a_zeta_threshold ** (0.1e1 / 0.3e1)
t16 = t12 ** (0.1e1 / 0.3e1)
t18 = lax_cond(t12 <= p_a_zeta_threshold, t14 * p_a_zeta_threshold, t16 * t12)
t19 = r0 ** (0.1e1 / 0.3e1)
t21 = 2 ** (0.1e1 / 0.3e1)
t22 = t21 ** 2
t24 = t19 ** 2
t27 = tau0 * t22 / t24 / r0
t29 = r0 ** 2
t32 = s0 * t22 / t24 / t29
t34 = t27 - t32 / 0.8e1
t35 = 6 ** (0.1e1 / 0.3e1)
t36 = t34 * t35
t37 = math.pi ** 2
t38 = t37 ** (0.1e1 / 0.3e1)
t39 = t38 ** 2
t40 = 0.1e1 / t39
t42 = t35 * t40 * t32
t44 = t36 * t40
t46 = 0.1e1 - 0.5e1 / 0.9e1 * t44
t47 = t46 ** 2
t49 = t34 ** 2
t50 = t35 ** 2
t53 = 0.1e1 / t38 / t37
t56 = 0.1e1 + 0.67148919753086419753e0 * t49 * t50 * t53
t57 = math.sqrt(t56)
t62 = math.exp(-t42 / 0.8e1)
t69 = 0.1e1 + t36 * t40 / (t42 / 0.24e2 + t47 * t46 / t57 / t56 * t62) / 0.3e1
t70 = t69 ** 2
t73 = 0.1e1 / t70 / t69
t77 = (0.1e1 + t73) ** 2
t79 = (0.1e1 / t70 + 0.3e1 * t73) / t77
t82 = s0 ** 2
t84 = t29 ** 2
t92 = (0.1e1 + 0.15045488888888888889e0 * t42 + 0.53798980924525896000e-2 * t50 * t53 * t82 * t21 / t19 / t84 / r0) ** (0.1e1 / 0.5e1)
t104 = t92 ** 2
t119 = t44 / 0.4e1 - 0.9e1 / 0.20e2 + t42 / 0.36e2
t120 = t119 ** 2
t126 = s0 / r0 / tau0 / 0.8e1
t128 = lax_cond(t126 < 0.10e1, t126, 0.10e1)
t134 = (0.1e1 + 0.5e1 / 0.12e2 * (0.10e2 / 0.81e2 + 0.25e2 / 0.8748e4 * t42) * t35 * t40 * t32 + 0.292e3 / 0.405e3 * t120 - 0.146e3 / 0.135e3 * t119 * t128 * (0.1e1 - t128)) ** (0.1e1 / 0.10e2)
t140 = lax_cond(r0 / 0.2e1 <= p_a_dens_threshold, 0, -0.3e1 / 0.8e1 * t3 / t4 * t18 * t19 * (t79 * (0.1e1 / t92 + 0.7e1 / 0.9e1 * (0.1e1 + 0.63943327777777777778e-1 * t42 - 0.5e1 / 0.9e1 * (0.14554132000000000000e0 * t27 + 0.25633760400000000000e0 * t50 * t39 + 0.11867481666666666667e-1 * t32) * t35 * t40) / t104) + (0.1e1 - t79) * t134))
res = 0.2e1 * t140
"

/- gen_repo/impl/prebuilt/pol/mgga_x_regtpss.py and gen_repo/impl/prebuilt/unpol/mgga_x_regtpss.py -/
formula mgga_x_regtpss pol "t2 = 3 ** (0.1e1 / 0.3e1)
t3 = math.pi ** (0.1e1 / 0.3e1)
t5 = t2 / t3
t6 = r0 + r1
t7 = 0.1e1 / t6
t10 = 0.2e1 * r0 * t7 <= p_a_zeta_threshold
t11 = p_a_zeta_threshold - 0.1e1
t14 = 0.2e1 * r1 * t7 <= p_a_zeta_threshold
t15 = -t11
t17 = (r0 - r1) * t7
t18 = lax_cond(t14, t15, t17)
t19 = lax_cond(t10, t11, t18)
t20 = 0.1e1 + t19
t22 = p_a_zeta_threshold ** (0.1e1 / 0.3e1)
t23 = t22 * p_a_zeta_threshold
t24 = t20 ** (0.1e1 / 0.3e1)
t26 = lax_cond(t20 <= p_a_zeta_threshold, t23, t24 * t20)
t27 = t6 ** (0.1e1 / 0.3e1)
t33 = (s0 / r0 / tau0) ** 0.30e1
t34 = s0 ** 2
t35 = r0 ** 2
t38 = tau0 ** 2
t40 = t34 / t35 / t38
t43 = (0.1e1 + t40 / 0.64e2) ** 2
t48 = 6 ** (0.1e1 / 0.3e1)
t50 = math.pi ** 2
t51 = t50 ** (0.1e1 / 0.3e1)
t52 = t51 ** 2
t53 = 0.1e1 / t52
t55 = r0 ** (0.1e1 / 0.3e1)
t56 = t55 ** 2
t58 = 0.1e1 / t56 / t35
t65 = s0 * t58
t67 = tau0 / t56 / r0 - t65 / 0.8e1
t68 = t67 * t48
t71 = 0.5e1 / 0.9e1 * t68 * t53 - 0.1e1
t76 = math.sqrt(0.1e1 + 0.22222222222222222222e0 * t68 * t53 * t71)
t80 = t48 * t53
t81 = t80 * t65
t82 = t81 / 0.36e2
t83 = 0.9e1 / 0.20e2 * t71 / t76 + t82
t84 = t83 ** 2
t87 = t48 ** 2
t89 = 0.1e1 / t51 / t50
t90 = t87 * t89
t91 = t35 ** 2
t96 = t90 * t34 / t55 / t91 / r0
t97 = 0.50e2 * t96
t99 = math.sqrt(0.162e3 * t40 + t97)
t102 = 0.32911784453572541028e-4 * t96
t104 = t50 ** 2
t105 = 0.1e1 / t104
t108 = t91 ** 2
t111 = 0.13171780538194444444e-3 * t105 * t34 * s0 / t108
t115 = (0.1e1 + 0.61346278355378295562e-1 * t81) ** 2
t116 = 0.1e1 / t115
t120 = 0.646416e0 / (0.804e0 + ((0.10e2 / 0.81e2 + 0.45938270703125000000e-2 * t33 / t43) * t48 * t53 * s0 * t58 / 0.24e2 + 0.146e3 / 0.2025e4 * t84 - 0.73e2 / 0.97200e5 * t83 * t99 + t102 + 0.20448759451792765188e-2 * t40 + t111) * t116)
t121 = -t71
t122 = t121 ** 2
t124 = t67 ** 2
t128 = 0.1e1 + 0.67148919753086419753e0 * t124 * t87 * t89
t129 = math.sqrt(t128)
t134 = math.exp(-t81 / 0.8e1)
t136 = -0.45000000000000000000e0 + t82
t137 = t136 ** 2
t140 = math.sqrt(0.10368e5 + t97)
t155 = lax_cond(r0 <= p_a_dens_threshold, 0, -0.3e1 / 0.8e1 * t5 * t26 * t27 * (0.1804e1 - t120 + t122 * t121 / t129 / t128 * t134 * (-0.646416e0 / (0.804e0 + (0.29644443963477366255e-1 * t81 + 0.146e3 / 0.2025e4 * t137 - 0.73e2 / 0.97200e5 * t136 * t140 + t102 + 0.13087206049147369720e0 + t111) * t116) + t120)))
t157 = lax_cond(t10, t15, -t17)
t158 = lax_cond(t14, t11, t157)
t159 = 0.1e1 + t158
t161 = t159 ** (0.1e1 / 0.3e1)
t163 = lax_cond(t159 <= p_a_zeta_threshold, t23, t161 * t159)
t169 = (s2 / r1 / tau1) ** 0.30e1
t170 = s2 ** 2
t171 = r1 ** 2
t174 = tau1 ** 2
t176 = t170 / t171 / t174
t179 = (0.1e1 + t176 / 0.64e2) ** 2
t186 = r1 ** (0.1e1 / 0.3e1)
t187 = t186 ** 2
t189 = 0.1e1 / t187 / t171
t196 = s2 * t189
t198 = tau1 / t187 / r1 - t196 / 0.8e1
t199 = t198 * t48
t202 = 0.5e1 / 0.9e1 * t199 * t53 - 0.1e1
t207 = math.sqrt(0.1e1 + 0.22222222222222222222e0 * t199 * t53 * t202)
t211 = t80 * t196
t212 = t211 / 0.36e2
t213 = 0.9e1 / 0.20e2 * t202 / t207 + t212
t214 = t213 ** 2
t217 = t171 ** 2
t222 = t90 * t170 / t186 / t217 / r1
t223 = 0.50e2 * t222
t225 = math.sqrt(0.162e3 * t176 + t223)
t228 = 0.32911784453572541028e-4 * t222
t232 = t217 ** 2
t235 = 0.13171780538194444444e-3 * t105 * t170 * s2 / t232
t239 = (0.1e1 + 0.61346278355378295562e-1 * t211) ** 2
t240 = 0.1e1 / t239
t244 = 0.646416e0 / (0.804e0 + ((0.10e2 / 0.81e2 + 0.45938270703125000000e-2 * t169 / t179) * t48 * t53 * s2 * t189 / 0.24e2 + 0.146e3 / 0.2025e4 * t214 - 0.73e2 / 0.97200e5 * t213 * t225 + t228 + 0.20448759451792765188e-2 * t176 + t235) * t240)
t245 = -t202
t246 = t245 ** 2
t248 = t198 ** 2
t252 = 0.1e1 + 0.67148919753086419753e0 * t248 * t87 * t89
t253 = math.sqrt(t252)
t258 = math.exp(-t211 / 0.8e1)
t260 = -0.45000000000000000000e0 + t212
t261 = t260 ** 2
t264 = math.sqrt(0.10368e5 + t223)
t279 = lax_cond(r1 <= p_a_dens_threshold, 0, -0.3e1 / 0.8e1 * t5 * t163 * t27 * (0.1804e1 - t244 + t246 * t245 / t253 / t252 * t258 * (-0.646416e0 / (0.804e0 + (0.29644443963477366255e-1 * t211 + 0.146e3 / 0.2025e4 * t261 - 0.73e2 / 0.97200e5 * t260 * t264 + t228 + 0.13087206049147369720e0 + t235) * t240) + t244)))
res = t155 + t279
" unpol "t3 = 3 ** (0.1e1 / 0.3e1)
t4 = math.pi ** (0.1e1 / 0.3e1)
t7 = 0.1e1 <= p_a_zeta_threshold
t8 = p_a_zeta_threshold - 0.1e1
t10 = lax_cond(t7, -t8, 0)
t11 = lax_cond(t7, t8, t10)
t12 = 0.1e1 + t11
t14 = p_a_zeta_threshold ** (0.1e1 / 0.3e1)
t16 = t12 ** (0.1e1 / 0.3e1)
t18 = lax_cond(t12 <= p_a_zeta_threshold, t14 * p_a_zeta_threshold, t16 * t12)
t19 = r0 ** (0.1e1 / 0.3e1)
t25 = (s0 / r0 / tau0) ** 0.30e1
t26 = s0 ** 2
t27 = r0 ** 2
t30 = tau0 ** 2
t32 = t26 / t27 / t30
t35 = (0.1e1 + t32 / 0.64e2) ** 2
t40 = 6 ** (0.1e1 / 0.3e1)
t42 = math.pi ** 2
t43 = t42 ** (0.1e1 / 0.3e1)
t44 = t43 ** 2
t45 = 0.1e1 / t44
t47 = 2 ** (0.1e1 / 0.3e1)
t48 = t47 ** 2
t50 = t19 ** 2
t53 = s0 * t48 / t50 / t27
t61 = tau0 * t48 / t50 / r0 - t53 / 0.8e1
t62 = t61 * t40
t65 = 0.5e1 / 0.9e1 * t62 * t45 - 0.1e1
t70 = math.sqrt(0.1e1 + 0.22222222222222222222e0 * t62 * t45 * t65)
t75 = t40 * t45 * t53
t76 = t75 / 0.36e2
t77 = 0.9e1 / 0.20e2 * t65 / t70 + t76
t78 = t77 ** 2
t81 = t40 ** 2
t83 = 0.1e1 / t43 / t42
t86 = t27 ** 2
t91 = t81 * t83 * t26 * t47 / t19 / t86 / r0
t94 = math.sqrt(0.162e3 * t32 + 0.100e3 * t91)
t97 = 0.65823568907145082056e-4 * t91
t99 = t42 ** 2
t103 = t86 ** 2
t106 = 0.52687122152777777776e-3 / t99 * t26 * s0 / t103
t110 = (0.1e1 + 0.61346278355378295562e-1 * t75) ** 2
t111 = 0.1e1 / t110
t115 = 0.646416e0 / (0.804e0 + ((0.10e2 / 0.81e2 + 0.45938270703125000000e-2 * t25 / t35) * t40 * t45 * t53 / 0.24e2 + 0.146e3 / 0.2025e4 * t78 - 0.73e2 / 0.97200e5 * t77 * t94 + t97 + 0.20448759451792765188e-2 * t32 + t106) * t111)
t116 = -t65
t117 = t116 ** 2
t119 = t61 ** 2
t123 = 0.1e1 + 0.67148919753086419753e0 * t119 * t81 * t83
t124 = math.sqrt(t123)
t129 = math.exp(-t75 / 0.8e1)
t131 = -0.45000000000000000000e0 + t76
t132 = t131 ** 2
t136 = math.sqrt(0.2592e4 + 0.25e2 * t91)
t151 = lax_cond(r0 / 0.2e1 <= p_a_dens_threshold, 0, -0.3e1 / 0.8e1 * t3 / t4 * t18 * t19 * (0.1804e1 - t115 + t117 * t116 / t124 / t123 * t129 * (-0.646416e0 / (0.804e0 + (0.29644443963477366255e-1 * t75 + 0.146e3 / 0.2025e4 * t132 - 0.73e2 / 0.48600e5 * t131 * t136 + t97 + 0.13087206049147369720e0 + t106) * t111) + t115)))
res = 0.2e1 * t151
"

/- gen_repo/impl/prebuilt/pol/mgga_x_revtm.py and gen_repo/impl/prebuilt/unpol/mgga_x_revtm.py -/
formula mgga_x_revtm pol "t2 = 3 ** (0.1e1 / 0.3e1)
t3 = math.pi ** (0.1e1 / 0.3e1)
t5 = t2 / t3
t6 = r0 + r1
t7 = 0.1e1 / t6
t10 = 0.2e1 * r0 * t7 <= p_a_zeta_threshold
t11 = p_a_zeta_threshold - 0.1e1
t14 = 0.2e1 * r1 * t7 <= p_a_zeta_threshold
t15 = -t11
t17 = (r0 - r1) * t7
t18 = lax_cond(t14, t15, t17)
t19 = lax_cond(t10, t11, t18)
t20 = 0.1e1 + t19
t22 = p_a_zeta_threshold ** (0.1e1 / 0.3e1)
t23 = t22 * p_a_zeta_threshold
t24 = t20 ** (0.1e1 / 0.3e1)
t26 = lax_cond(t20 <= p_a_zeta_threshold, t23, t24 * t20)
t27 = t6 ** (0.1e1 / 0.3e1)
t33 = s0 / r0 / tau0 / 0.8e1
t35 = lax_cond(t33 < 0.10e1, t33, 0.10e1)
t36 = t35 ** 2
t37 = t36 * t35
t41 = (0.1e1 + t37) ** 2
t43 = (t36 + 0.3e1 * t37) / t41
t44 = 6 ** (0.1e1 / 0.3e1)
t45 = math.pi ** 2
t46 = t45 ** (0.1e1 / 0.3e1)
t47 = t46 ** 2
t48 = 0.1e1 / t47
t49 = t44 * t48
t50 = r0 ** 2
t51 = r0 ** (0.1e1 / 0.3e1)
t52 = t51 ** 2
t54 = 0.1e1 / t52 / t50
t55 = s0 * t54
t56 = t49 * t55
t58 = t44 ** 2
t61 = t58 / t46 / t45
t62 = s0 ** 2
t63 = t50 ** 2
t71 = (0.1e1 + 0.15045488888888888889e0 * t56 + 0.26899490462262948000e-2 * t61 * t62 / t51 / t63 / r0) ** (0.1e1 / 0.5e1)
t76 = tau0 / t52 / r0
t79 = 0.25633760400000000000e0 * t58 * t47
t86 = t71 ** 2
t102 = (t76 - t55 / 0.8e1) * t44
t105 = 0.5e1 / 0.9e1 * t102 * t48 - 0.1e1
t110 = math.sqrt(0.1e1 + 0.22222222222222222222e0 * t102 * t48 * t105)
t115 = 0.9e1 / 0.20e2 * t105 / t110 + t56 / 0.36e2
t116 = t115 ** 2
t123 = (0.1e1 + 0.5e1 / 0.12e2 * (0.10e2 / 0.81e2 + 0.25e2 / 0.8748e4 * t56) * t44 * t48 * s0 * t54 + 0.292e3 / 0.405e3 * t116 - 0.146e3 / 0.135e3 * t115 * t35 * (0.1e1 - t35)) ** (0.1e1 / 0.10e2)
t129 = lax_cond(r0 <= p_a_dens_threshold, 0, -0.3e1 / 0.8e1 * t5 * t26 * t27 * (t43 * (0.1e1 / t71 + 0.7e1 / 0.9e1 * (0.1e1 + 0.63943327777777777778e-1 * t56 - 0.5e1 / 0.9e1 * (0.14554132000000000000e0 * t76 + t79 + 0.11867481666666666667e-1 * t55) * t44 * t48) / t86) + (0.1e1 - t43) * t123))
t131 = lax_cond(t10, t15, -t17)
t132 = lax_cond(t14, t11, t131)
t133 = 0.1e1 + t132
t135 = t133 ** (0.1e1 / 0.3e1)
t137 = lax_cond(t133 <= p_a_zeta_threshold, t23, t135 * t133)
t143 = s2 / r1 / tau1 / 0.8e1
t145 = lax_cond(t143 < 0.10e1, t143, 0.10e1)
t146 = t145 ** 2
t147 = t146 * t145
t151 = (0.1e1 + t147) ** 2
t153 = (t146 + 0.3e1 * t147) / t151
t154 = r1 ** 2
t155 = r1 ** (0.1e1 / 0.3e1)
t156 = t155 ** 2
t158 = 0.1e1 / t156 / t154
t159 = s2 * t158
t160 = t49 * t159
t162 = s2 ** 2
t163 = t154 ** 2
t171 = (0.1e1 + 0.15045488888888888889e0 * t160 + 0.26899490462262948000e-2 * t61 * t162 / t155 / t163 / r1) ** (0.1e1 / 0.5e1)
t176 = tau1 / t156 / r1
t184 = t171 ** 2
t200 = (t176 - t159 / 0.8e1) * t44
t203 = 0.5e1 / 0.9e1 * t200 * t48 - 0.1e1
t208 = math.sqrt(0.1e1 + 0.22222222222222222222e0 * t200 * t48 * t203)
t213 = 0.9e1 / 0.20e2 * t203 / t208 + t160 / 0.36e2
t214 = t213 ** 2
t221 = (0.1e1 + 0.5e1 / 0.12e2 * (0.10e2 / 0.81e2 + 0.25e2 / 0.8748e4 * t160) * t44 * t48 * s2 * t158 + 0.292e3 / 0.405e3 * t214 - 0.146e3 / 0.135e3 * t213 * t145 * (0.1e1 - t145)) ** (0.1e1 / 0.10e2)
t227 = lax_cond(r1 <= p_a_dens_threshold, 0, -0.3e1 / 0.8e1 * t5 * t137 * t27 * (t153 * (0.1e1 / t171 + 0.7e1 / 0.9e1 * (0.1e1 + 0.63943327777777777778e-1 * t160 - 0.5e1 / 0.9e1 * (0.14554132000000000000e0 * t176 + t79 + 0.11867481666666666667e-1 * t159) * t44 * t48) / t184) + (0.1e1 - t153) * t221))
res = t129 + t227
" unpol "t3 = 3 ** (0.1e1 / 0.3e1)
t4 = math.pi ** (0.1e1 / 0.3e1)
t7 = 0.1e1 <= p_a_zeta_threshold
t8 = p_a_zeta_threshold - 0.1e1
t10 = lax_cond(t7, -t8, 0)
t11 = lax_cond(t7, t8, t10)
t12 = 0.1e1 + t11
t14 = p_a_zeta_threshold ** (0.1e1 / 0.3e1)
t16 = t12 ** (0.1e1 / 0.3e1)
t18 = lax_cond(t12 <= p_a_zeta_threshold, t14 * p_a_zeta_threshold, t16 * t12)
t19 = r0 ** (0.1e1 / 0.3e1)
t25 = s0 / r0 / tau0 / 0.8e1
t27 = lax_cond(t25 < 0.10e1, t25, 0.10e1)
t28 = t27 ** 2
t29 = t28 * t27
t33 = (0.1e1 + t29) ** 2
t35 = (t28 + 0.3e1 * t29) / t33
t36 = 6 ** (0.1e1 / 0.3e1)
t37 = math.pi ** 2
t38 = t37 ** (0.1e1 / 0.3e1)
t39 = t38 ** 2
t40 = 0.1e1 / t39
t42 = 2 ** (0.1e1 / 0.3e1)
t43 = t42 ** 2
t45 = r0 ** 2
t46 = t19 ** 2
t49 = s0 * t43 / t46 / t45
t50 = t36 * t40 * t49
t52 = t36 ** 2
t56 = s0 ** 2
t58 = t45 ** 2
t66 = (0.1e1 + 0.15045488888888888889e0 * t50 + 0.53798980924525896000e-2 * t52 / t38 / t37 * t56 * t42 / t19 / t58 / r0) ** (0.1e1 / 0.5e1)
t72 = tau0 * t43 / t46 / r0
t82 = t66 ** 2
t97 = (t72 - t49 / 0.8e1) * t36
t100 = 0.5e1 / 0.9e1 * t97 * t40 - 0.1e1
t105 = math.sqrt(0.1e1 + 0.22222222222222222222e0 * t97 * t40 * t100)
t110 = 0.9e1 / 0.20e2 * t100 / t105 + t50 / 0.36e2
t111 = t110 ** 2
t118 = (0.1e1 + 0.5e1 / 0.12e2 * (0.10e2 / 0.81e2 + 0.25e2 / 0.8748e4 * t50) * t36 * t40 * t49 + 0.292e3 / 0.405e3 * t111 - 0.146e3 / 0.135e3 * t110 * t27 * (0.1e1 - t27)) ** (0.1e1 / 0.10e2)
t124 = lax_cond(r0 / 0.2e1 <= p_a_dens_threshold, 0, -0.3e1 / 0.8e1 * t3 / t4 * t18 * t19 * (t35 * (0.1e1 / t66 + 0.7e1 / 0.9e1 * (0.1e1 + 0.63943327777777777778e-1 * t50 - 0.5e1 / 0.9e1 * (0.14554132000000000000e0 * t72 + 0.25633760400000000000e0 * t52 * t39 + 0.11867481666666666667e-1 * t49) * t36 * t40) / t82) + (0.1e1 - t35) * t118))
res = 0.2e1 * t124
"

/- gen_repo/impl/prebuilt/pol/mgga_x_rlda.py and gen_repo/impl/prebuilt/unpol/mgga_x_rlda.py -/
formula mgga_x_rlda pol "t2 = math.pi ** (0.1e1 / 0.3e1)
t3 = t2 ** 2
t4 = r0 + r1
t5 = 0.1e1 / t4
t8 = 0.2e1 * r0 * t5 <= p_a_zeta_threshold
t9 = p_a_zeta_threshold - 0.1e1
t12 = 0.2e1 * r1 * t5 <= p_a_zeta_threshold
t13 = -t9
t15 = (r0 - r1) * t5
t16 = lax_cond(t12, t13, t15)
t17 = lax_cond(t8, t9, t16)
t18 = 0.1e1 + t17
t20 = p_a_zeta_threshold ** (0.1e1 / 0.3e1)
t21 = t20 * p_a_zeta_threshold
t22 = t18 ** (0.1e1 / 0.3e1)
t24 = lax_cond(t18 <= p_a_zeta_threshold, t21, t22 * t18)
t26 = t4 ** (0.1e1 / 0.3e1)
t29 = (0.1e1 / math.pi) ** (0.1e1 / 0.3e1)
t31 = params_a_prefactor / t29
t32 = 4 ** (0.1e1 / 0.3e1)
t33 = r0 ** (0.1e1 / 0.3e1)
t34 = t33 ** 2
t36 = 0.1e1 / t34 / r0
t47 = lax_cond(r0 <= p_a_dens_threshold, 0, -0.15e2 / 0.16e2 * t3 * t24 * t26 * t31 * t32 / (0.2e1 * tau0 * t36 - l0 * t36 / 0.4e1))
t49 = lax_cond(t8, t13, -t15)
t50 = lax_cond(t12, t9, t49)
t51 = 0.1e1 + t50
t53 = t51 ** (0.1e1 / 0.3e1)
t55 = lax_cond(t51 <= p_a_zeta_threshold, t21, t53 * t51)
t58 = r1 ** (0.1e1 / 0.3e1)
t59 = t58 ** 2
t61 = 0.1e1 / t59 / r1
t72 = lax_cond(r1 <= p_a_dens_threshold, 0, -0.15e2 / 0.16e2 * t3 * t55 * t26 * t31 * t32 / (0.2e1 * tau1 * t61 - l1 * t61 / 0.4e1))
res = t47 + t72
" unpol "t3 = math.pi ** (0.1e1 / 0.3e1)
t4 = t3 ** 2
t5 = 0.1e1 <= p_a_zeta_threshold
t6 = p_a_zeta_threshold - 0.1e1
t8 = lax_cond(t5, -t6, 0)
t9 = lax_cond(t5, t6, t8)
t10 = 0.1e1 + t9
t12 = p_a_zeta_threshold ** (0.1e1 / 0.3e1)
t14 = t10 ** (0.1e1 / 0.3e1)
t16 = lax_cond(t10 <= p_a_zeta_threshold, t12 * p_a_zeta_threshold, t14 * t10)
t18 = r0 ** (0.1e1 / 0.3e1)
t21 = (0.1e1 / math.pi) ** (0.1e1 / 0.3e1)
t24 = 4 ** (0.1e1 / 0.3e1)
t25 = 2 ** (0.1e1 / 0.3e1)
t26 = t25 ** 2
t28 = t18 ** 2
t30 = 0.1e1 / t28 / r0
t42 = lax_cond(r0 / 0.2e1 <= p_a_dens_threshold, 0, -0.15e2 / 0.16e2 * t4 * t16 * t18 * params_a_prefactor / t21 * t24 / (0.2e1 * tau0 * t26 * t30 - l0 * t26 * t30 / 0.4e1))
res = 0.2e1 * t42
"

/- gen_repo/impl/prebuilt/pol/mgga_x_rppscan.py and gen_repo/impl/prebuilt/unpol/mgga_x_rppscan.py -/
formula mgga_x_rppscan pol "t2 = 3 ** (0.1e1 / 0.3e1)
t3 = math.pi ** (0.1e1 / 0.3e1)
t5 = t2 / t3
t6 = r0 + r1
t7 = 0.1e1 / t6
t10 = 0.2e1 * r0 * t7 <= p_a_zeta_threshold
t11 = p_a_zeta_threshold - 0.1e1
t14 = 0.2e1 * r1 * t7 <= p_a_zeta_threshold
t15 = -t11
t17 = (r0 - r1) * t7
t18 = lax_cond(t14, t15, t17)
t19 = lax_cond(t10, t11, t18)
t20 = 0.1e1 + t19
t22 = p_a_zeta_threshold ** (0.1e1 / 0.3e1)
t23 = t22 * p_a_zeta_threshold
t24 = t20 ** (0.1e1 / 0.3e1)
t26 = lax_cond(t20 <= p_a_zeta_threshold, t23, t24 * t20)
t28 = t6 ** (0.1e1 / 0.3e1)
t29 = 6 ** (0.1e1 / 0.3e1)
t30 = math.pi ** 2
t31 = t30 ** (0.1e1 / 0.3e1)
t32 = t31 ** 2
t33 = 0.1e1 / t32
t34 = t29 * t33
t35 = r0 ** 2
t36 = r0 ** (0.1e1 / 0.3e1)
t37 = t36 ** 2
t39 = 0.1e1 / t37 / t35
t40 = s0 * t39
t45 = 0.100e3 / 0.6561e4 / params_a_k1 - 0.73e2 / 0.648e3
t46 = t29 ** 2
t50 = t45 * t46 / t31 / t30
t51 = s0 ** 2
t52 = t35 ** 2
t57 = t45 * t29
t59 = t33 * s0 * t39
t62 = math.exp(-0.27e2 / 0.80e2 * t57 * t59)
t66 = math.sqrt(0.146e3)
t67 = t66 * t29
t76 = 0.3e1 / 0.10e2 * t46 * t32
t82 = (tau0 / t37 / r0 - t40 / 0.8e1) / (t76 + params_a_eta * s0 * t39 / 0.8e1)
t83 = 0.1e1 - t82
t85 = t83 ** 2
t87 = math.exp(-t85 / 0.2e1)
t91 = (0.7e1 / 0.12960e5 * t67 * t59 + t66 * t83 * t87 / 0.100e3) ** 2
t99 = 0.25e1 < t82
t100 = lax_cond(t99, 0.25e1, t82)
t102 = t100 ** 2
t104 = t102 * t100
t106 = t102 ** 2
t115 = lax_cond(t99, t82, 0.25e1)
t119 = math.exp(params_a_c2 / (0.1e1 - t115))
t121 = lax_cond(t82 <= 0.25e1, 0.1e1 - 0.667e0 * t100 - 0.4445555e0 * t102 - 0.663086601049e0 * t104 + 0.1451297044490e1 * t106 - 0.887998041597e0 * t106 * t100 + 0.234528941479e0 * t106 * t102 - 0.23185843322e-1 * t106 * t104, -params_a_d * t119)
t127 = math.sqrt(0.3e1)
t129 = t46 / t31
t130 = math.sqrt(s0)
t135 = math.sqrt(t129 * t130 / t36 / r0)
t139 = math.exp(-0.98958000000000000000e1 * t127 / t135)
t144 = lax_cond(r0 <= p_a_dens_threshold, 0, -0.3e1 / 0.8e1 * t5 * t26 * t28 * ((0.1e1 + params_a_k1 * (0.1e1 - params_a_k1 / (params_a_k1 + 0.5e1 / 0.972e3 * t34 * t40 + t50 * t51 / t36 / t52 / r0 * t62 / 0.576e3 + t91))) * (0.1e1 - t121) + 0.1174e1 * t121) * (0.1e1 - t139))
t146 = lax_cond(t10, t15, -t17)
t147 = lax_cond(t14, t11, t146)
t148 = 0.1e1 + t147
t150 = t148 ** (0.1e1 / 0.3e1)
t152 = lax_cond(t148 <= p_a_zeta_threshold, t23, t150 * t148)
t154 = r1 ** 2
t155 = r1 ** (0.1e1 / 0.3e1)
t156 = t155 ** 2
t158 = 0.1e1 / t156 / t154
t159 = s2 * t158
t162 = s2 ** 2
t163 = t154 ** 2
t169 = t33 * s2 * t158
t172 = math.exp(-0.27e2 / 0.80e2 * t57 * t169)
t188 = (tau1 / t156 / r1 - t159 / 0.8e1) / (t76 + params_a_eta * s2 * t158 / 0.8e1)
t189 = 0.1e1 - t188
t191 = t189 ** 2
t193 = math.exp(-t191 / 0.2e1)
t197 = (0.7e1 / 0.12960e5 * t67 * t169 + t66 * t189 * t193 / 0.100e3) ** 2
t205 = 0.25e1 < t188
t206 = lax_cond(t205, 0.25e1, t188)
t208 = t206 ** 2
t210 = t208 * t206
t212 = t208 ** 2
t221 = lax_cond(t205, t188, 0.25e1)
t225 = math.exp(params_a_c2 / (0.1e1 - t221))
t227 = lax_cond(t188 <= 0.25e1, 0.1e1 - 0.667e0 * t206 - 0.4445555e0 * t208 - 0.663086601049e0 * t210 + 0.1451297044490e1 * t212 - 0.887998041597e0 * t212 * t206 + 0.234528941479e0 * t212 * t208 - 0.23185843322e-1 * t212 * t210, -params_a_d * t225)
t233 = math.sqrt(s2)
t238 = math.sqrt(t129 * t233 / t155 / r1)
t242 = math.exp(-0.98958000000000000000e1 * t127 / t238)
t247 = lax_cond(r1 <= p_a_dens_threshold, 0, -0.3e1 / 0.8e1 * t5 * t152 * t28 * ((0.1e1 + params_a_k1 * (0.1e1 - params_a_k1 / (params_a_k1 + 0.5e1 / 0.972e3 * t34 * t159 + t50 * t162 / t155 / t163 / r1 * t172 / 0.576e3 + t197))) * (0.1e1 - t227) + 0.1174e1 * t227) * (0.1e1 - t242))
res = t144 + t247
" unpol "t3 = 3 ** (0.1e1 / 0.3e1)
t4 = math.pi ** (0.1e1 / 0.3e1)
t7 = 0.1e1 <= p_a_zeta_threshold
t8 = p_a_zeta_threshold - 0.1e1
t10 = lax_cond(t7, -t8, 0)
t11 = lax_cond(t7, t8, t10)
t12 = 0.1e1 + t11
t14 = p_a_zeta_threshold ** (0.1e1 / 0.3e1)
t16 = t12 ** (0.1e1 / 0.3e1)
t18 = lax_cond(t12 <= p_a_zeta_threshold, t14 * p_a_zeta_threshold, t16 * t12)
t20 = r0 ** (0.1e1 / 0.3e1)
t21 = 6 ** (0.1e1 / 0.3e1)
t22 = math.pi ** 2
t23 = t22 ** (0.1e1 / 0.3e1)
t24 = t23 ** 2
t25 = 0.1e1 / t24
t27 = 2 ** (0.1e1 / 0.3e1)
t28 = t27 ** 2
t30 = r0 ** 2
t31 = t20 ** 2
t33 = 0.1e1 / t31 / t30
t34 = s0 * t28 * t33
t39 = 0.100e3 / 0.6561e4 / params_a_k1 - 0.73e2 / 0.648e3
t40 = t21 ** 2
t45 = s0 ** 2
t47 = t30 ** 2
t55 = math.exp(-0.27e2 / 0.80e2 * t39 * t21 * t25 * t34)
t60 = math.sqrt(0.146e3)
t79 = (tau0 * t28 / t31 / r0 - t34 / 0.8e1) / (0.3e1 / 0.10e2 * t40 * t24 + params_a_eta * s0 * t28 * t33 / 0.8e1)
t80 = 0.1e1 - t79
t82 = t80 ** 2
t84 = math.exp(-t82 / 0.2e1)
t88 = (0.7e1 / 0.12960e5 * t60 * t21 * t25 * t34 + t60 * t80 * t84 / 0.100e3) ** 2
t96 = 0.25e1 < t79
t97 = lax_cond(t96, 0.25e1, t79)
t99 = t97 ** 2
t101 = t99 * t97
t103 = t99 ** 2
t112 = lax_cond(t96, t79, 0.25e1)
t116 = math.exp(params_a_c2 / (0.1e1 - t112))
t118 = lax_cond(t79 <= 0.25e1, 0.1e1 - 0.667e0 * t97 - 0.4445555e0 * t99 - 0.663086601049e0 * t101 + 0.1451297044490e1 * t103 - 0.887998041597e0 * t103 * t97 + 0.234528941479e0 * t103 * t99 - 0.23185843322e-1 * t103 * t101, -params_a_d * t116)
t124 = math.sqrt(0.3e1)
t127 = math.sqrt(s0)
t133 = math.sqrt(t40 / t23 * t127 * t27 / t20 / r0)
t137 = math.exp(-0.98958000000000000000e1 * t124 / t133)
t142 = lax_cond(r0 / 0.2e1 <= p_a_dens_threshold, 0, -0.3e1 / 0.8e1 * t3 / t4 * t18 * t20 * ((0.1e1 + params_a_k1 * (0.1e1 - params_a_k1 / (params_a_k1 + 0.5e1 / 0.972e3 * t21 * t25 * t34 + t39 * t40 / t23 / t22 * t45 * t27 / t20 / t47 / r0 * t55 / 0.288e3 + t88))) * (0.1e1 - t118) + 0.1174e1 * t118) * (0.1e1 - t137))
res = 0.2e1 * t142
"

/- gen_repo/impl/prebuilt/pol/mgga_x_rscan.py and gen_repo/impl/prebuilt/unpol/mgga_x_rscan.py -/
formula mgga_x_rscan pol "t2 = 3 ** (0.1e1 / 0.3e1)
t3 = math.pi ** (0.1e1 / 0.3e1)
t5 = t2 / t3
t6 = r0 + r1
t7 = 0.1e1 / t6
t10 = 0.2e1 * r0 * t7 <= p_a_zeta_threshold
t11 = p_a_zeta_threshold - 0.1e1
t14 = 0.2e1 * r1 * t7 <= p_a_zeta_threshold
t15 = -t11
t17 = (r0 - r1) * t7
t18 = lax_cond(t14, t15, t17)
t19 = lax_cond(t10, t11, t18)
t20 = 0.1e1 + t19
t22 = p_a_zeta_threshold ** (0.1e1 / 0.3e1)
t23 = t22 * p_a_zeta_threshold
t24 = t20 ** (0.1e1 / 0.3e1)
t26 = lax_cond(t20 <= p_a_zeta_threshold, t23, t24 * t20)
t28 = t6 ** (0.1e1 / 0.3e1)
t29 = 6 ** (0.1e1 / 0.3e1)
t30 = math.pi ** 2
t31 = t30 ** (0.1e1 / 0.3e1)
t32 = t31 ** 2
t33 = 0.1e1 / t32
t34 = t29 * t33
t35 = r0 ** 2
t36 = r0 ** (0.1e1 / 0.3e1)
t37 = t36 ** 2
t39 = 0.1e1 / t37 / t35
t40 = s0 * t39
t45 = 0.100e3 / 0.6561e4 / params_a_k1 - 0.73e2 / 0.648e3
t46 = t29 ** 2
t50 = t45 * t46 / t31 / t30
t51 = s0 ** 2
t52 = t35 ** 2
t57 = t45 * t29
t59 = t33 * s0 * t39
t62 = math.exp(-0.27e2 / 0.80e2 * t57 * t59)
t66 = math.sqrt(0.146e3)
t67 = t66 * t29
t70 = t20 ** 2
t71 = t70 ** 2
t73 = t6 ** 2
t74 = t73 ** 2
t75 = t74 * t6
t81 = tau0 / t37 / r0 - t40 / 0.8e1
t83 = lax_cond(0.0e0 < t81, t81, 0)
t84 = t83 ** 2
t86 = 2 ** (0.1e1 / 0.3e1)
t87 = t20 * t6
t88 = t87 ** (0.1e1 / 0.3e1)
t89 = t88 ** 2
t92 = t46 * t32
t95 = params_a_taur / 0.2e1
t96 = 0.3e1 / 0.40e2 * t86 * t89 * t87 * t92 + t95
t97 = t96 ** 2
t101 = t86 ** 2
t103 = t73 * t6
t115 = t71 * t20 * t75 * t84 * t83 / t97 / t96 / (t101 * t88 * t70 * t20 * t103 * t84 / t97 / 0.16e2 + params_a_alphar) / 0.32e2
t116 = 0.1e1 - t115
t118 = t116 ** 2
t120 = math.exp(-t118 / 0.2e1)
t124 = (0.7e1 / 0.12960e5 * t67 * t59 + t66 * t116 * t120 / 0.100e3) ** 2
t132 = 0.25e1 < t115
t133 = lax_cond(t132, 0.25e1, t115)
t135 = t133 ** 2
t137 = t135 * t133
t139 = t135 ** 2
t148 = lax_cond(t132, t115, 0.25e1)
t152 = math.exp(params_a_c2 / (0.1e1 - t148))
t154 = lax_cond(t115 <= 0.25e1, 0.1e1 - 0.667e0 * t133 - 0.4445555e0 * t135 - 0.663086601049e0 * t137 + 0.1451297044490e1 * t139 - 0.887998041597e0 * t139 * t133 + 0.234528941479e0 * t139 * t135 - 0.23185843322e-1 * t139 * t137, -params_a_d * t152)
t160 = math.sqrt(0.3e1)
t162 = t46 / t31
t163 = math.sqrt(s0)
t168 = math.sqrt(t162 * t163 / t36 / r0)
t172 = math.exp(-0.98958000000000000000e1 * t160 / t168)
t177 = lax_cond(r0 <= p_a_dens_threshold, 0, -0.3e1 / 0.8e1 * t5 * t26 * t28 * ((0.1e1 + params_a_k1 * (0.1e1 - params_a_k1 / (params_a_k1 + 0.5e1 / 0.972e3 * t34 * t40 + t50 * t51 / t36 / t52 / r0 * t62 / 0.576e3 + t124))) * (0.1e1 - t154) + 0.1174e1 * t154) * (0.1e1 - t172))
t179 = lax_cond(t10, t15, -t17)
t180 = lax_cond(t14, t11, t179)
t181 = 0.1e1 + t180
t183 = t181 ** (0.1e1 / 0.3e1)
t185 = lax_cond(t181 <= p_a_zeta_threshold, t23, t183 * t181)
t187 = r1 ** 2
t188 = r1 ** (0.1e1 / 0.3e1)
t189 = t188 ** 2
t191 = 0.1e1 / t189 / t187
t192 = s2 * t191
t195 = s2 ** 2
t196 = t187 ** 2
t202 = t33 * s2 * t191
t205 = math.exp(-0.27e2 / 0.80e2 * t57 * t202)
t211 = t181 ** 2
t212 = t211 ** 2
t219 = tau1 / t189 / r1 - t192 / 0.8e1
t221 = lax_cond(0.0e0 < t219, t219, 0)
t222 = t221 ** 2
t224 = t181 * t6
t225 = t224 ** (0.1e1 / 0.3e1)
t226 = t225 ** 2
t231 = 0.3e1 / 0.40e2 * t86 * t226 * t224 * t92 + t95
t232 = t231 ** 2
t248 = t212 * t181 * t75 * t222 * t221 / t232 / t231 / (t101 * t225 * t211 * t181 * t103 * t222 / t232 / 0.16e2 + params_a_alphar) / 0.32e2
t249 = 0.1e1 - t248
t251 = t249 ** 2
t253 = math.exp(-t251 / 0.2e1)
t257 = (0.7e1 / 0.12960e5 * t67 * t202 + t66 * t249 * t253 / 0.100e3) ** 2
t265 = 0.25e1 < t248
t266 = lax_cond(t265, 0.25e1, t248)
t268 = t266 ** 2
t270 = t268 * t266
t272 = t268 ** 2
t281 = lax_cond(t265, t248, 0.25e1)
t285 = math.exp(params_a_c2 / (0.1e1 - t281))
t287 = lax_cond(t248 <= 0.25e1, 0.1e1 - 0.667e0 * t266 - 0.4445555e0 * t268 - 0.663086601049e0 * t270 + 0.1451297044490e1 * t272 - 0.887998041597e0 * t272 * t266 + 0.234528941479e0 * t272 * t268 - 0.23185843322e-1 * t272 * t270, -params_a_d * t285)
t293 = math.sqrt(s2)
t298 = math.sqrt(t162 * t293 / t188 / r1)
t302 = math.exp(-0.98958000000000000000e1 * t160 / t298)
t307 = lax_cond(r1 <= p_a_dens_threshold, 0, -0.3e1 / 0.8e1 * t5 * t185 * t28 * ((0.1e1 + params_a_k1 * (0.1e1 - params_a_k1 / (params_a_k1 + 0.5e1 / 0.972e3 * t34 * t192 + t50 * t195 / t188 / t196 / r1 * t205 / 0.576e3 + t257))) * (0.1e1 - t287) + 0.1174e1 * t287) * (0.1e1 - t302))
res = t177 + t307
" unpol "t3 = 3 ** (0.1e1 / 0.3e1)
t4 = math.pi ** (0.1e1 / 0.3e1)
t7 = 0.1e1 <= p_a_zeta_threshold
t8 = p_a_zeta_threshold - 0.1e1
t10 = lax_cond(t7, -t8, 0)
t11 = lax_cond(t7, t8, t10)
t12 = 0.1e1 + t11
t14 = p_a_zeta_threshold ** (0.1e1 / 0.3e1)
t16 = t12 ** (0.1e1 / 0.3e1)
t18 = lax_cond(t12 <= p_a_zeta_threshold, t14 * p_a_zeta_threshold, t16 * t12)
t20 = r0 ** (0.1e1 / 0.3e1)
t21 = 6 ** (0.1e1 / 0.3e1)
t22 = math.pi ** 2
t23 = t22 ** (0.1e1 / 0.3e1)
t24 = t23 ** 2
t25 = 0.1e1 / t24
t27 = 2 ** (0.1e1 / 0.3e1)
t28 = t27 ** 2
t30 = r0 ** 2
t31 = t20 ** 2
t34 = s0 * t28 / t31 / t30
t39 = 0.100e3 / 0.6561e4 / params_a_k1 - 0.73e2 / 0.648e3
t40 = t21 ** 2
t45 = s0 ** 2
t47 = t30 ** 2
t48 = t47 * r0
t55 = math.exp(-0.27e2 / 0.80e2 * t39 * t21 * t25 * t34)
t60 = math.sqrt(0.146e3)
t65 = t12 ** 2
t66 = t65 ** 2
t74 = tau0 * t28 / t31 / r0 - t34 / 0.8e1
t76 = lax_cond(0.0e0 < t74, t74, 0)
t77 = t76 ** 2
t79 = t12 * r0
t80 = t79 ** (0.1e1 / 0.3e1)
t81 = t80 ** 2
t88 = 0.3e1 / 0.40e2 * t27 * t81 * t79 * t40 * t24 + params_a_taur / 0.2e1
t89 = t88 ** 2
t106 = t66 * t12 * t48 * t77 * t76 / t89 / t88 / (t28 * t80 * t65 * t12 * t30 * r0 * t77 / t89 / 0.16e2 + params_a_alphar) / 0.32e2
t107 = 0.1e1 - t106
t109 = t107 ** 2
t111 = math.exp(-t109 / 0.2e1)
t115 = (0.7e1 / 0.12960e5 * t60 * t21 * t25 * t34 + t60 * t107 * t111 / 0.100e3) ** 2
t123 = 0.25e1 < t106
t124 = lax_cond(t123, 0.25e1, t106)
t126 = t124 ** 2
t128 = t126 * t124
t130 = t126 ** 2
t139 = lax_cond(t123, t106, 0.25e1)
t143 = math.exp(params_a_c2 / (0.1e1 - t139))
t145 = lax_cond(t106 <= 0.25e1, 0.1e1 - 0.667e0 * t124 - 0.4445555e0 * t126 - 0.663086601049e0 * t128 + 0.1451297044490e1 * t130 - 0.887998041597e0 * t130 * t124 + 0.234528941479e0 * t130 * t126 - 0.23185843322e-1 * t130 * t128, -params_a_d * t143)
t151 = math.sqrt(0.3e1)
t154 = math.sqrt(s0)
t160 = math.sqrt(t40 / t23 * t154 * t27 / t20 / r0)
t164 = math.exp(-0.98958000000000000000e1 * t151 / t160)
t169 = lax_cond(r0 / 0.2e1 <= p_a_dens_threshold, 0, -0.3e1 / 0.8e1 * t3 / t4 * t18 * t20 * ((0.1e1 + params_a_k1 * (0.1e1 - params_a_k1 / (params_a_k1 + 0.5e1 / 0.972e3 * t21 * t25 * t34 + t39 * t40 / t23 / t22 * t45 * t27 / t20 / t48 * t55 / 0.288e3 + t115))) * (0.1e1 - t145) + 0.1174e1 * t145) * (0.1e1 - t164))
res = 0.2e1 * t169
"

/- gen_repo/impl/prebuilt/pol/mgga_x_rtpss.py and gen_repo/impl/prebuilt/unpol/mgga_x_rtpss.py -/
formula mgga_x_rtpss pol "t2 = 3 ** (0.1e1 / 0.3e1)
t3 = math.pi ** (0.1e1 / 0.3e1)
t5 = t2 / t3
t6 = r0 + r1
t7 = 0.1e1 / t6
t10 = 0.2e1 * r0 * t7 <= p_a_zeta_threshold
t11 = p_a_zeta_threshold - 0.1e1
t14 = 0.2e1 * r1 * t7 <= p_a_zeta_threshold
t15 = -t11
t17 = (r0 - r1) * t7
t18 = lax_cond(t14, t15, t17)
t19 = lax_cond(t10, t11, t18)
t20 = 0.1e1 + t19
t22 = p_a_zeta_threshold ** (0.1e1 / 0.3e1)
t23 = t22 * p_a_zeta_threshold
t24 = t20 ** (0.1e1 / 0.3e1)
t26 = lax_cond(t20 <= p_a_zeta_threshold, t23, t24 * t20)
t27 = t6 ** (0.1e1 / 0.3e1)
t29 = s0 ** 2
t31 = r0 ** 2
t32 = 0.1e1 / t31
t33 = tau0 ** 2
t34 = 0.1e1 / t33
t35 = t32 * t34
t37 = t29 * t32 * t34
t40 = (0.1e1 + t37 / 0.64e2) ** 2
t46 = 6 ** (0.1e1 / 0.3e1)
t48 = math.pi ** 2
t49 = t48 ** (0.1e1 / 0.3e1)
t50 = t49 ** 2
t51 = 0.1e1 / t50
t53 = r0 ** (0.1e1 / 0.3e1)
t54 = t53 ** 2
t56 = 0.1e1 / t54 / t31
t57 = t51 * s0 * t56
t63 = s0 * t56
t65 = tau0 / t54 / r0 - t63 / 0.8e1
t69 = 0.5e1 / 0.9e1 * t65 * t46 * t51 - 0.1e1
t71 = t46 * t51
t76 = math.sqrt(0.5e1 * params_a_b * t65 * t71 * t69 + 0.9e1)
t82 = 0.27e2 / 0.20e2 * t69 / t76 + t71 * t63 / 0.36e2
t83 = t82 ** 2
t86 = t46 ** 2
t88 = 0.1e1 / t49 / t48
t89 = t86 * t88
t90 = t31 ** 2
t93 = 0.1e1 / t53 / t90 / r0
t98 = math.sqrt(0.50e2 * t89 * t29 * t93 + 0.162e3 * t37)
t101 = 0.1e1 / params_a_kappa
t102 = t101 * t86
t107 = math.sqrt(params_a_e)
t111 = params_a_e * params_a_mu
t112 = t48 ** 2
t113 = 0.1e1 / t112
t116 = t90 ** 2
t122 = t107 * t46
t126 = (0.1e1 + t122 * t57 / 0.24e2) ** 2
t130 = math.exp(-((0.10e2 / 0.81e2 + params_a_c * t29 * t35 / t40 / 0.64e2) * t46 * t57 / 0.24e2 + 0.146e3 / 0.2025e4 * t83 - 0.73e2 / 0.97200e5 * t82 * t98 + 0.25e2 / 0.944784e6 * t102 * t88 * t29 * t93 + t107 * t29 * t35 / 0.720e3 + t111 * t113 * t29 * s0 / t116 / 0.2304e4) / t126 * t101)
t137 = lax_cond(r0 <= p_a_dens_threshold, 0, -0.3e1 / 0.8e1 * t5 * t26 * t27 * (0.1e1 + params_a_kappa * (0.1e1 - t130)))
t139 = lax_cond(t10, t15, -t17)
t140 = lax_cond(t14, t11, t139)
t141 = 0.1e1 + t140
t143 = t141 ** (0.1e1 / 0.3e1)
t145 = lax_cond(t141 <= p_a_zeta_threshold, t23, t143 * t141)
t147 = s2 ** 2
t149 = r1 ** 2
t150 = 0.1e1 / t149
t151 = tau1 ** 2
t152 = 0.1e1 / t151
t153 = t150 * t152
t155 = t147 * t150 * t152
t158 = (0.1e1 + t155 / 0.64e2) ** 2
t166 = r1 ** (0.1e1 / 0.3e1)
t167 = t166 ** 2
t169 = 0.1e1 / t167 / t149
t170 = t51 * s2 * t169
t176 = s2 * t169
t178 = tau1 / t167 / r1 - t176 / 0.8e1
t182 = 0.5e1 / 0.9e1 * t178 * t46 * t51 - 0.1e1
t188 = math.sqrt(0.5e1 * params_a_b * t178 * t71 * t182 + 0.9e1)
t194 = 0.27e2 / 0.20e2 * t182 / t188 + t71 * t176 / 0.36e2
t195 = t194 ** 2
t198 = t149 ** 2
t201 = 0.1e1 / t166 / t198 / r1
t206 = math.sqrt(0.50e2 * t89 * t147 * t201 + 0.162e3 * t155)
t218 = t198 ** 2
t227 = (0.1e1 + t122 * t170 / 0.24e2) ** 2
t231 = math.exp(-((0.10e2 / 0.81e2 + params_a_c * t147 * t153 / t158 / 0.64e2) * t46 * t170 / 0.24e2 + 0.146e3 / 0.2025e4 * t195 - 0.73e2 / 0.97200e5 * t194 * t206 + 0.25e2 / 0.944784e6 * t102 * t88 * t147 * t201 + t107 * t147 * t153 / 0.720e3 + t111 * t113 * t147 * s2 / t218 / 0.2304e4) / t227 * t101)
t238 = lax_cond(r1 <= p_a_dens_threshold, 0, -0.3e1 / 0.8e1 * t5 * t145 * t27 * (0.1e1 + params_a_kappa * (0.1e1 - t231)))
res = t137 + t238
" unpol "t3 = 3 ** (0.1e1 / 0.3e1)
t4 = math.pi ** (0.1e1 / 0.3e1)
t7 = 0.1e1 <= p_a_zeta_threshold
t8 = p_a_zeta_threshold - 0.1e1
t10 = lax_cond(t7, -t8, 0)
t11 = lax_cond(t7, t8, t10)
t12 = 0.1e1 + t11
t14 = p_a_zeta_threshold ** (0.1e1 / 0.3e1)
t16 = t12 ** (0.1e1 / 0.3e1)
t18 = lax_cond(t12 <= p_a_zeta_threshold, t14 * p_a_zeta_threshold, t16 * t12)
t19 = r0 ** (0.1e1 / 0.3e1)
t21 = s0 ** 2
t23 = r0 ** 2
t24 = 0.1e1 / t23
t25 = tau0 ** 2
t26 = 0.1e1 / t25
t27 = t24 * t26
t29 = t21 * t24 * t26
t32 = (0.1e1 + t29 / 0.64e2) ** 2
t38 = 6 ** (0.1e1 / 0.3e1)
t40 = math.pi ** 2
t41 = t40 ** (0.1e1 / 0.3e1)
t42 = t41 ** 2
t43 = 0.1e1 / t42
t45 = 2 ** (0.1e1 / 0.3e1)
t46 = t45 ** 2
t48 = t19 ** 2
t51 = s0 * t46 / t48 / t23
t59 = tau0 * t46 / t48 / r0 - t51 / 0.8e1
t63 = 0.5e1 / 0.9e1 * t59 * t38 * t43 - 0.1e1
t65 = t38 * t43
t70 = math.sqrt(0.5e1 * params_a_b * t59 * t65 * t63 + 0.9e1)
t76 = 0.27e2 / 0.20e2 * t63 / t70 + t65 * t51 / 0.36e2
t77 = t76 ** 2
t80 = t38 ** 2
t82 = 0.1e1 / t41 / t40
t85 = t23 ** 2
t89 = t21 * t45 / t19 / t85 / r0
t93 = math.sqrt(0.100e3 * t80 * t82 * t89 + 0.162e3 * t29)
t96 = 0.1e1 / params_a_kappa
t101 = math.sqrt(params_a_e)
t106 = t40 ** 2
t110 = t85 ** 2
t121 = (0.1e1 + t101 * t38 * t43 * t51 / 0.24e2) ** 2
t125 = math.exp(-((0.10e2 / 0.81e2 + params_a_c * t21 * t27 / t32 / 0.64e2) * t38 * t43 * t51 / 0.24e2 + 0.146e3 / 0.2025e4 * t77 - 0.73e2 / 0.97200e5 * t76 * t93 + 0.25e2 / 0.472392e6 * t96 * t80 * t82 * t89 + t101 * t21 * t27 / 0.720e3 + params_a_e * params_a_mu / t106 * t21 * s0 / t110 / 0.576e3) / t121 * t96)
t132 = lax_cond(r0 / 0.2e1 <= p_a_dens_threshold, 0, -0.3e1 / 0.8e1 * t3 / t4 * t18 * t19 * (0.1e1 + params_a_kappa * (0.1e1 - t125)))
res = 0.2e1 * t132
"

/- gen_repo/impl/prebuilt/pol/mgga_x_sa_tpss.py and gen_repo/impl/prebuilt/unpol/mgga_x_sa_tpss.py -/
formula mgga_x_sa_tpss pol "t2 = 3 ** (0.1e1 / 0.3e1)
t3 = math.pi ** (0.1e1 / 0.3e1)
t5 = t2 / t3
t6 = r0 + r1
t7 = 0.1e1 / t6
t10 = 0.2e1 * r0 * t7 <= p_a_zeta_threshold
t11 = p_a_zeta_threshold - 0.1e1
t14 = 0.2e1 * r1 * t7 <= p_a_zeta_threshold
t15 = -t11
t17 = (r0 - r1) * t7
t18 = lax_cond(t14, t15, t17)
t19 = lax_cond(t10, t11, t18)
t20 = 0.1e1 + t19
t22 = p_a_zeta_threshold ** (0.1e1 / 0.3e1)
t23 = t22 * p_a_zeta_threshold
t24 = t20 ** (0.1e1 / 0.3e1)
t26 = lax_cond(t20 <= p_a_zeta_threshold, t23, t24 * t20)
t27 = t6 ** (0.1e1 / 0.3e1)
t29 = math.sqrt(0.5e1)
t30 = math.pi * t29
t31 = r0 ** (0.1e1 / 0.3e1)
t32 = t31 ** 2
t36 = r0 ** 2
t38 = 0.1e1 / t32 / t36
t39 = s0 * t38
t42 = 6 ** (0.1e1 / 0.3e1)
t43 = (tau0 / t32 / r0 - t39 / 0.8e1) * t42
t44 = math.pi ** 2
t45 = t44 ** (0.1e1 / 0.3e1)
t46 = t45 ** 2
t47 = 0.1e1 / t46
t48 = t43 * t47
t51 = math.sqrt(0.5e1 * t48 + 0.9e1)
t52 = 0.5e1 / 0.9e1 * t48
t54 = math.log(t52 + 0.348e0)
t56 = math.sqrt(0.2413e1 + t54)
t58 = t51 / t56
t61 = s0 ** 2
t63 = t61 / t36
t64 = tau0 ** 2
t65 = 0.1e1 / t64
t66 = t63 * t65
t69 = (0.1e1 + t66 / 0.64e2) ** 2
t80 = t52 - 0.1e1
t85 = math.sqrt(0.1e1 + 0.22222222222222222222e0 * t43 * t47 * t80)
t89 = t42 * t47
t90 = t89 * t39
t92 = 0.9e1 / 0.20e2 * t80 / t85 + t90 / 0.36e2
t93 = t92 ** 2
t96 = t42 ** 2
t99 = t96 / t45 / t44
t100 = t36 ** 2
t105 = t99 * t61 / t31 / t100 / r0
t108 = math.sqrt(0.162e3 * t66 + 0.50e2 * t105)
t112 = 0.1e1 / math.pi * t29
t119 = t44 ** 2
t120 = 0.1e1 / t119
t123 = t100 ** 2
t130 = (0.1e1 + 0.51656585037899841583e-1 * t90) ** 2
t146 = lax_cond(r0 <= p_a_dens_threshold, 0, -0.3e1 / 0.8e1 * t5 * t26 * t27 * (0.1e1 + 0.2e1 / 0.45e2 * t30 * t58 * (0.1e1 - 0.2e1 / 0.45e2 * t30 * t58 / (0.2e1 / 0.45e2 * t30 * t58 + ((0.10e2 / 0.81e2 + 0.24858750000000000000e-1 * t63 * t65 / t69) * t42 * t47 * s0 * t38 / 0.24e2 + 0.146e3 / 0.2025e4 * t93 - 0.73e2 / 0.97200e5 * t92 * t108 + 0.25e2 / 0.209952e6 * t112 / t51 * t56 * t105 + 0.17218861679299947194e-2 * t66 + 0.14643527343750000000e-3 * t120 * t61 * s0 / t123) / t130))))
t148 = lax_cond(t10, t15, -t17)
t149 = lax_cond(t14, t11, t148)
t150 = 0.1e1 + t149
t152 = t150 ** (0.1e1 / 0.3e1)
t154 = lax_cond(t150 <= p_a_zeta_threshold, t23, t152 * t150)
t156 = r1 ** (0.1e1 / 0.3e1)
t157 = t156 ** 2
t161 = r1 ** 2
t163 = 0.1e1 / t157 / t161
t164 = s2 * t163
t167 = (tau1 / t157 / r1 - t164 / 0.8e1) * t42
t168 = t167 * t47
t171 = math.sqrt(0.5e1 * t168 + 0.9e1)
t172 = 0.5e1 / 0.9e1 * t168
t174 = math.log(t172 + 0.348e0)
t176 = math.sqrt(0.2413e1 + t174)
t178 = t171 / t176
t181 = s2 ** 2
t183 = t181 / t161
t184 = tau1 ** 2
t185 = 0.1e1 / t184
t186 = t183 * t185
t189 = (0.1e1 + t186 / 0.64e2) ** 2
t200 = t172 - 0.1e1
t205 = math.sqrt(0.1e1 + 0.22222222222222222222e0 * t167 * t47 * t200)
t209 = t89 * t164
t211 = 0.9e1 / 0.20e2 * t200 / t205 + t209 / 0.36e2
t212 = t211 ** 2
t215 = t161 ** 2
t220 = t99 * t181 / t156 / t215 / r1
t223 = math.sqrt(0.162e3 * t186 + 0.50e2 * t220)
t234 = t215 ** 2
t241 = (0.1e1 + 0.51656585037899841583e-1 * t209) ** 2
t257 = lax_cond(r1 <= p_a_dens_threshold, 0, -0.3e1 / 0.8e1 * t5 * t154 * t27 * (0.1e1 + 0.2e1 / 0.45e2 * t30 * t178 * (0.1e1 - 0.2e1 / 0.45e2 * t30 * t178 / (0.2e1 / 0.45e2 * t30 * t178 + ((0.10e2 / 0.81e2 + 0.24858750000000000000e-1 * t183 * t185 / t189) * t42 * t47 * s2 * t163 / 0.24e2 + 0.146e3 / 0.2025e4 * t212 - 0.73e2 / 0.97200e5 * t211 * t223 + 0.25e2 / 0.209952e6 * t112 / t171 * t176 * t220 + 0.17218861679299947194e-2 * t186 + 0.14643527343750000000e-3 * t120 * t181 * s2 / t234) / t241))))
res = t146 + t257
" unpol "t3 = 3 ** (0.1e1 / 0.3e1)
t4 = math.pi ** (0.1e1 / 0.3e1)
t7 = 0.1e1 <= p_a_zeta_threshold
t8 = p_a_zeta_threshold - 0.1e1
t10 = lax_cond(t7, -t8, 0)
t11 = lax_cond(t7, t8, t10)
t12 = 0.1e1 + t11
t14 = p_a_zeta_threshold ** (0.1e1 / 0.3e1)
t16 = t12 ** (0.1e1 / 0.3e1)
t18 = lax_cond(t12 <= p_a_zeta_threshold, t14 * p_a_zeta_threshold, t16 * t12)
t19 = r0 ** (0.1e1 / 0.3e1)
t21 = math.sqrt(0.5e1)
t22 = math.pi * t21
t23 = 2 ** (0.1e1 / 0.3e1)
t24 = t23 ** 2
t26 = t19 ** 2
t31 = r0 ** 2
t34 = s0 * t24 / t26 / t31
t37 = 6 ** (0.1e1 / 0.3e1)
t38 = (tau0 * t24 / t26 / r0 - t34 / 0.8e1) * t37
t39 = math.pi ** 2
t40 = t39 ** (0.1e1 / 0.3e1)
t41 = t40 ** 2
t42 = 0.1e1 / t41
t43 = t38 * t42
t46 = math.sqrt(0.5e1 * t43 + 0.9e1)
t47 = 0.5e1 / 0.9e1 * t43
t49 = math.log(t47 + 0.348e0)
t51 = math.sqrt(0.2413e1 + t49)
t53 = t46 / t51
t56 = s0 ** 2
t58 = t56 / t31
t59 = tau0 ** 2
t60 = 0.1e1 / t59
t61 = t58 * t60
t64 = (0.1e1 + t61 / 0.64e2) ** 2
t74 = t47 - 0.1e1
t79 = math.sqrt(0.1e1 + 0.22222222222222222222e0 * t38 * t42 * t74)
t84 = t37 * t42 * t34
t86 = 0.9e1 / 0.20e2 * t74 / t79 + t84 / 0.36e2
t87 = t86 ** 2
t90 = t37 ** 2
t95 = t31 ** 2
t100 = t90 / t40 / t39 * t56 * t23 / t19 / t95 / r0
t103 = math.sqrt(0.162e3 * t61 + 0.100e3 * t100)
t114 = t39 ** 2
t118 = t95 ** 2
t125 = (0.1e1 + 0.51656585037899841583e-1 * t84) ** 2
t141 = lax_cond(r0 / 0.2e1 <= p_a_dens_threshold, 0, -0.3e1 / 0.8e1 * t3 / t4 * t18 * t19 * (0.1e1 + 0.2e1 / 0.45e2 * t22 * t53 * (0.1e1 - 0.2e1 / 0.45e2 * t22 * t53 / (0.2e1 / 0.45e2 * t22 * t53 + ((0.10e2 / 0.81e2 + 0.24858750000000000000e-1 * t58 * t60 / t64) * t37 * t42 * t34 / 0.24e2 + 0.146e3 / 0.2025e4 * t87 - 0.73e2 / 0.97200e5 * t86 * t103 + 0.25e2 / 0.104976e6 / math.pi * t21 / t46 * t51 * t100 + 0.17218861679299947194e-2 * t61 + 0.58574109375000000000e-3 / t114 * t56 * s0 / t118) / t125))))
res = 0.2e1 * t141
"

/- gen_repo/impl/prebuilt/pol/mgga_x_scan.py and gen_repo/impl/prebuilt/unpol/mgga_x_scan.py -/
formula mgga_x_scan pol "t2 = 3 ** (0.1e1 / 0.3e1)
t3 = math.pi ** (0.1e1 / 0.3e1)
t5 = t2 / t3
t6 = r0 + r1
t7 = 0.1e1 / t6
t10 = 0.2e1 * r0 * t7 <= p_a_zeta_threshold
t11 = p_a_zeta_threshold - 0.1e1
t14 = 0.2e1 * r1 * t7 <= p_a_zeta_threshold
t15 = -t11
t17 = (r0 - r1) * t7
t18 = lax_cond(t14, t15, t17)
t19 = lax_cond(t10, t11, t18)
t20 = 0.1e1 + t19
t22 = p_a_zeta_threshold ** (0.1e1 / 0.3e1)
t23 = t22 * p_a_zeta_threshold
t24 = t20 ** (0.1e1 / 0.3e1)
t26 = lax_cond(t20 <= p_a_zeta_threshold, t23, t24 * t20)
t28 = t6 ** (0.1e1 / 0.3e1)
t29 = 6 ** (0.1e1 / 0.3e1)
t30 = math.pi ** 2
t31 = t30 ** (0.1e1 / 0.3e1)
t32 = t31 ** 2
t33 = 0.1e1 / t32
t34 = t29 * t33
t35 = r0 ** 2
t36 = r0 ** (0.1e1 / 0.3e1)
t37 = t36 ** 2
t39 = 0.1e1 / t37 / t35
t40 = s0 * t39
t45 = 0.100e3 / 0.6561e4 / params_a_k1 - 0.73e2 / 0.648e3
t46 = t29 ** 2
t50 = t45 * t46 / t31 / t30
t51 = s0 ** 2
t52 = t35 ** 2
t57 = t45 * t29
t59 = t33 * s0 * t39
t62 = math.exp(-0.27e2 / 0.80e2 * t57 * t59)
t66 = math.sqrt(0.146e3)
t67 = t66 * t29
t77 = 0.5e1 / 0.9e1 * (tau0 / t37 / r0 - t40 / 0.8e1) * t29 * t33
t78 = 0.1e1 - t77
t80 = t78 ** 2
t82 = math.exp(-t80 / 0.2e1)
t86 = (0.7e1 / 0.12960e5 * t67 * t59 + t66 * t78 * t82 / 0.100e3) ** 2
t94 = math.log(DBL_EPSILON)
t97 = t94 / (-t94 + params_a_c1)
t100 = lax_cond(t77 < -t97, t77, -t97)
t105 = math.exp(-params_a_c1 * t100 / (0.1e1 - t100))
t106 = lax_cond(-t97 < t77, 0, t105)
t107 = abs(params_a_d)
t110 = math.log(DBL_EPSILON / t107)
t113 = (-t110 + params_a_c2) / t110
t114 = t77 < -t113
t115 = lax_cond(t114, -t113, t77)
t119 = math.exp(params_a_c2 / (0.1e1 - t115))
t121 = lax_cond(t114, 0, -params_a_d * t119)
t122 = lax_cond(t77 <= 0.1e1, t106, t121)
t128 = math.sqrt(0.3e1)
t130 = t46 / t31
t131 = math.sqrt(s0)
t136 = math.sqrt(t130 * t131 / t36 / r0)
t140 = math.exp(-0.98958000000000000000e1 * t128 / t136)
t145 = lax_cond(r0 <= p_a_dens_threshold, 0, -0.3e1 / 0.8e1 * t5 * t26 * t28 * ((0.1e1 + params_a_k1 * (0.1e1 - params_a_k1 / (params_a_k1 + 0.5e1 / 0.972e3 * t34 * t40 + t50 * t51 / t36 / t52 / r0 * t62 / 0.576e3 + t86))) * (0.1e1 - t122) + 0.1174e1 * t122) * (0.1e1 - t140))
t147 = lax_cond(t10, t15, -t17)
t148 = lax_cond(t14, t11, t147)
t149 = 0.1e1 + t148
t151 = t149 ** (0.1e1 / 0.3e1)
t153 = lax_cond(t149 <= p_a_zeta_threshold, t23, t151 * t149)
t155 = r1 ** 2
t156 = r1 ** (0.1e1 / 0.3e1)
t157 = t156 ** 2
t159 = 0.1e1 / t157 / t155
t160 = s2 * t159
t163 = s2 ** 2
t164 = t155 ** 2
t170 = t33 * s2 * t159
t173 = math.exp(-0.27e2 / 0.80e2 * t57 * t170)
t186 = 0.5e1 / 0.9e1 * (tau1 / t157 / r1 - t160 / 0.8e1) * t29 * t33
t187 = 0.1e1 - t186
t189 = t187 ** 2
t191 = math.exp(-t189 / 0.2e1)
t195 = (0.7e1 / 0.12960e5 * t67 * t170 + t66 * t187 * t191 / 0.100e3) ** 2
t205 = lax_cond(t186 < -t97, t186, -t97)
t210 = math.exp(-params_a_c1 * t205 / (0.1e1 - t205))
t211 = lax_cond(-t97 < t186, 0, t210)
t212 = t186 < -t113
t213 = lax_cond(t212, -t113, t186)
t217 = math.exp(params_a_c2 / (0.1e1 - t213))
t219 = lax_cond(t212, 0, -params_a_d * t217)
t220 = lax_cond(t186 <= 0.1e1, t211, t219)
t226 = math.sqrt(s2)
t231 = math.sqrt(t130 * t226 / t156 / r1)
t235 = math.exp(-0.98958000000000000000e1 * t128 / t231)
t240 = lax_cond(r1 <= p_a_dens_threshold, 0, -0.3e1 / 0.8e1 * t5 * t153 * t28 * ((0.1e1 + params_a_k1 * (0.1e1 - params_a_k1 / (params_a_k1 + 0.5e1 / 0.972e3 * t34 * t160 + t50 * t163 / t156 / t164 / r1 * t173 / 0.576e3 + t195))) * (0.1e1 - t220) + 0.1174e1 * t220) * (0.1e1 - t235))
res = t145 + t240
" unpol "t3 = 3 ** (0.1e1 / 0.3e1)
t4 = math.pi ** (0.1e1 / 0.3e1)
t7 = 0.1e1 <= p_a_zeta_threshold
t8 = p_a_zeta_threshold - 0.1e1
t10 = lax_cond(t7, -t8, 0)
t11 = lax_cond(t7, t8, t10)
t12 = 0.1e1 + t11
t14 = p_a_zeta_threshold ** (0.1e1 / 0.3e1)
t16 = t12 ** (0.1e1 / 0.3e1)
t18 = lax_cond(t12 <= p_a_zeta_threshold, t14 * p_a_zeta_threshold, t16 * t12)
t20 = r0 ** (0.1e1 / 0.3e1)
t21 = 6 ** (0.1e1 / 0.3e1)
t22 = math.pi ** 2
t23 = t22 ** (0.1e1 / 0.3e1)
t24 = t23 ** 2
t25 = 0.1e1 / t24
t27 = 2 ** (0.1e1 / 0.3e1)
t28 = t27 ** 2
t30 = r0 ** 2
t31 = t20 ** 2
t34 = s0 * t28 / t31 / t30
t39 = 0.100e3 / 0.6561e4 / params_a_k1 - 0.73e2 / 0.648e3
t40 = t21 ** 2
t45 = s0 ** 2
t47 = t30 ** 2
t55 = math.exp(-0.27e2 / 0.80e2 * t39 * t21 * t25 * t34)
t60 = math.sqrt(0.146e3)
t73 = 0.5e1 / 0.9e1 * (tau0 * t28 / t31 / r0 - t34 / 0.8e1) * t21 * t25
t74 = 0.1e1 - t73
t76 = t74 ** 2
t78 = math.exp(-t76 / 0.2e1)
t82 = (0.7e1 / 0.12960e5 * t60 * t21 * t25 * t34 + t60 * t74 * t78 / 0.100e3) ** 2
t90 = math.log(DBL_EPSILON)
t93 = t90 / (-t90 + params_a_c1)
t96 = lax_cond(t73 < -t93, t73, -t93)
t101 = math.exp(-params_a_c1 * t96 / (0.1e1 - t96))
t102 = lax_cond(-t93 < t73, 0, t101)
t103 = abs(params_a_d)
t106 = math.log(DBL_EPSILON / t103)
t109 = (-t106 + params_a_c2) / t106
t110 = t73 < -t109
t111 = lax_cond(t110, -t109, t73)
t115 = math.exp(params_a_c2 / (0.1e1 - t111))
t117 = lax_cond(t110, 0, -params_a_d * t115)
t118 = lax_cond(t73 <= 0.1e1, t102, t117)
t124 = math.sqrt(0.3e1)
t127 = math.sqrt(s0)
t133 = math.sqrt(t40 / t23 * t127 * t27 / t20 / r0)
t137 = math.exp(-0.98958000000000000000e1 * t124 / t133)
t142 = lax_cond(r0 / 0.2e1 <= p_a_dens_threshold, 0, -0.3e1 / 0.8e1 * t3 / t4 * t18 * t20 * ((0.1e1 + params_a_k1 * (0.1e1 - params_a_k1 / (params_a_k1 + 0.5e1 / 0.972e3 * t21 * t25 * t34 + t39 * t40 / t23 / t22 * t45 * t27 / t20 / t47 / r0 * t55 / 0.288e3 + t82))) * (0.1e1 - t118) + 0.1174e1 * t118) * (0.1e1 - t137))
res = 0.2e1 * t142
"

/- gen_repo/impl/prebuilt/pol/mgga_x_task.py and gen_repo/impl/prebuilt/unpol/mgga_x_task.py -/
formula mgga_x_task pol "t2 = 3 ** (0.1e1 / 0.3e1)
t3 = math.pi ** (0.1e1 / 0.3e1)
t5 = t2 / t3
t6 = r0 + r1
t7 = 0.1e1 / t6
t10 = 0.2e1 * r0 * t7 <= p_a_zeta_threshold
t11 = p_a_zeta_threshold - 0.1e1
t14 = 0.2e1 * r1 * t7 <= p_a_zeta_threshold
t15 = -t11
t17 = (r0 - r1) * t7
t18 = lax_cond(t14, t15, t17)
t19 = lax_cond(t10, t11, t18)
t20 = t19 + 0.1e1
t22 = p_a_zeta_threshold ** (0.1e1 / 0.3e1)
t23 = t22 * p_a_zeta_threshold
t24 = t20 ** (0.1e1 / 0.3e1)
t26 = lax_cond(t20 <= p_a_zeta_threshold, t23, t24 * t20)
t27 = t6 ** (0.1e1 / 0.3e1)
t29 = 6 ** (0.1e1 / 0.3e1)
t30 = math.pi ** 2
t31 = t30 ** (0.1e1 / 0.3e1)
t32 = t31 ** 2
t34 = t29 / t32
t35 = r0 ** 2
t36 = r0 ** (0.1e1 / 0.3e1)
t37 = t36 ** 2
t38 = t37 * t35
t42 = t34 * s0 / t38 / 0.24e2
t43 = 0.0e0 < t42
t44 = lax_cond(t43, t42, 0)
t45 = t44 ** (0.1e1 / 0.4e1)
t48 = math.exp(-params_a_task_c / t45)
t50 = lax_cond(t43, 0.1e1 - t48, 0)
t52 = params_a_task_bnu[0]
t53 = t35 ** 2
t55 = t37 * t53 * t35
t58 = t53 * r0
t60 = r0 * tau0
t63 = 0.1e1 / r0
t65 = 0.1e1 / tau0
t74 = lax_cond(0.0e0 < 0.12500000000000000000e0 * (0.79999999992000000000e1 * t60 - s0) * t63 * t65, (0.8e1 * t60 - s0) * t63 * t65 / 0.8e1, 0.1e-9)
t75 = t74 * tau0
t79 = t36 * t35 * r0
t81 = t74 ** 2
t82 = tau0 ** 2
t83 = t81 * t82
t86 = t37 * r0
t90 = t81 * t74 * t82 * tau0
t93 = t81 ** 2
t95 = t82 ** 2
t98 = params_a_task_bnu[1]
t110 = params_a_task_bnu[2]
t119 = 0.47049607861172565388e8 * t52 * t55 + 0.41291508340807648886e8 * t52 * t58 * t75 + 0.13589289623490307943e8 * t52 * t79 * t83 + 0.19876972814512516632e7 * t52 * t86 * t90 + 0.10902723556992837954e6 * t52 * t93 * t95 - 0.47049607861172565388e8 * t98 * t55 - 0.20645754170403824442e8 * t98 * t58 * t75 + 0.99384864072562583159e6 * t98 * t86 * t90 + 0.10902723556992837954e6 * t98 * t93 * t95 + 0.47049607861172565386e8 * t110 * t55 - 0.41291508340807648885e8 * t110 * t58 * t75 - 0.22648816039150513236e8 * t110 * t79 * t83
t126 = params_a_task_bnu[3]
t141 = params_a_task_bnu[4]
t156 = -0.19876972814512516631e7 * t110 * t86 * t90 + 0.10902723556992837954e6 * t110 * t93 * t95 - 0.47049607861172565384e8 * t126 * t55 + 0.14452027919282677111e9 * t126 * t58 * t75 + 0.1e-11 * t126 * t79 * t83 - 0.69569404850793808212e7 * t126 * t86 * t90 + 0.10902723556992837955e6 * t126 * t93 * t95 + 0.4704960786117256539e8 * t141 * t55 - 0.28904055838565354220e9 * t141 * t58 * t75 + 0.15854171227405359266e9 * t141 * t79 * t83 - 0.13913880970158761643e8 * t141 * t86 * t90 + 0.10902723556992837954e6 * t141 * t93 * t95
t161 = (0.82820720060468819300e2 * t86 + 0.18171205928321396589e2 * t75) ** 2
t162 = t161 ** 2
t167 = t3 ** 2
t168 = t167 * t30
t169 = t36 * t58 * t168
t170 = params_a_task_anu[0]
t173 = params_a_task_anu[1]
t176 = params_a_task_anu[2]
t179 = t38 * t29
t180 = t3 * math.pi
t181 = t180 * s0
t188 = t29 ** 2
t189 = s0 ** 2
t190 = t188 * t189
t199 = (t29 * s0 + 0.24e2 * t180 * t38) ** 2
t204 = t50 ** params_a_task_d
t210 = lax_cond(r0 <= p_a_dens_threshold, 0, -0.3e1 / 0.8e1 * t5 * t26 * t27 * (params_a_task_h0x * t50 + (0.10e1 - (t119 + t156) / t162) * ((0.48e2 * t179 * t181 * t170 - 0.144e3 * t179 * t181 * t176 + 0.576e3 * t169 * t170 - 0.576e3 * t169 * t173 + 0.576e3 * t169 * t176 + t190 * t170 + t190 * t173 + t190 * t176) / t199 - params_a_task_h0x) * t204))
t212 = lax_cond(t10, t15, -t17)
t213 = lax_cond(t14, t11, t212)
t214 = t213 + 0.1e1
t216 = t214 ** (0.1e1 / 0.3e1)
t218 = lax_cond(t214 <= p_a_zeta_threshold, t23, t216 * t214)
t220 = r1 ** 2
t221 = r1 ** (0.1e1 / 0.3e1)
t222 = t221 ** 2
t223 = t222 * t220
t227 = t34 * s2 / t223 / 0.24e2
t228 = 0.0e0 < t227
t229 = lax_cond(t228, t227, 0)
t230 = t229 ** (0.1e1 / 0.4e1)
t233 = math.exp(-params_a_task_c / t230)
t235 = lax_cond(t228, 0.1e1 - t233, 0)
t237 = t220 ** 2
t239 = t222 * t237 * t220
t242 = t237 * r1
t244 = r1 * tau1
t247 = 0.1e1 / r1
t249 = 0.1e1 / tau1
t258 = lax_cond(0.0e0 < 0.12500000000000000000e0 * (0.79999999992000000000e1 * t244 - s2) * t247 * t249, (0.8e1 * t244 - s2) * t247 * t249 / 0.8e1, 0.1e-9)
t259 = tau1 * t258
t263 = t221 * t220 * r1
t265 = tau1 ** 2
t266 = t258 ** 2
t267 = t265 * t266
t270 = t222 * r1
t274 = t265 * tau1 * t266 * t258
t277 = t265 ** 2
t279 = t266 ** 2
t301 = 0.47049607861172565388e8 * t52 * t239 + 0.41291508340807648886e8 * t52 * t242 * t259 + 0.13589289623490307943e8 * t52 * t263 * t267 + 0.19876972814512516632e7 * t52 * t270 * t274 + 0.10902723556992837954e6 * t52 * t277 * t279 - 0.47049607861172565388e8 * t98 * t239 - 0.20645754170403824442e8 * t98 * t242 * t259 + 0.99384864072562583159e6 * t98 * t270 * t274 + 0.10902723556992837954e6 * t98 * t277 * t279 + 0.47049607861172565386e8 * t110 * t239 - 0.41291508340807648885e8 * t110 * t242 * t259 - 0.22648816039150513236e8 * t110 * t263 * t267
t336 = -0.19876972814512516631e7 * t110 * t270 * t274 + 0.10902723556992837954e6 * t110 * t277 * t279 - 0.47049607861172565384e8 * t126 * t239 + 0.14452027919282677111e9 * t126 * t242 * t259 + 0.1e-11 * t126 * t263 * t267 - 0.69569404850793808212e7 * t126 * t270 * t274 + 0.10902723556992837955e6 * t126 * t277 * t279 + 0.4704960786117256539e8 * t141 * t239 - 0.28904055838565354220e9 * t141 * t242 * t259 + 0.15854171227405359266e9 * t141 * t263 * t267 - 0.13913880970158761643e8 * t141 * t270 * t274 + 0.10902723556992837954e6 * t141 * t277 * t279
t341 = (0.82820720060468819300e2 * t270 + 0.18171205928321396589e2 * t259) ** 2
t342 = t341 ** 2
t347 = t221 * t242 * t168
t354 = t223 * t29
t355 = t180 * s2
t362 = s2 ** 2
t363 = t188 * t362
t372 = (t29 * s2 + 0.24e2 * t180 * t223) ** 2
t377 = t235 ** params_a_task_d
t383 = lax_cond(r1 <= p_a_dens_threshold, 0, -0.3e1 / 0.8e1 * t5 * t218 * t27 * (params_a_task_h0x * t235 + (0.10e1 - (t301 + t336) / t342) * ((0.48e2 * t354 * t355 * t170 - 0.144e3 * t354 * t355 * t176 + 0.576e3 * t347 * t170 + t363 * t170 - 0.576e3 * t347 * t173 + t363 * t173 + 0.576e3 * t347 * t176 + t363 * t176) / t372 - params_a_task_h0x) * t377))
res = t210 + t383
" unpol "t3 = 3 ** (0.1e1 / 0.3e1)
t4 = math.pi ** (0.1e1 / 0.3e1)
t7 = 0.1e1 <= p_a_zeta_threshold
t8 = p_a_zeta_threshold - 0.1e1
t10 = lax_cond(t7, -t8, 0)
t11 = lax_cond(t7, t8, t10)
t12 = t11 + 0.1e1
t14 = p_a_zeta_threshold ** (0.1e1 / 0.3e1)
t16 = t12 ** (0.1e1 / 0.3e1)
t18 = lax_cond(t12 <= p_a_zeta_threshold, t14 * p_a_zeta_threshold, t16 * t12)
t19 = r0 ** (0.1e1 / 0.3e1)
t21 = 6 ** (0.1e1 / 0.3e1)
t22 = math.pi ** 2
t23 = t22 ** (0.1e1 / 0.3e1)
t24 = t23 ** 2
t27 = 2 ** (0.1e1 / 0.3e1)
t28 = t27 ** 2
t30 = r0 ** 2
t31 = t19 ** 2
t32 = t31 * t30
t36 = t21 / t24 * s0 * t28 / t32 / 0.24e2
t37 = 0.0e0 < t36
t38 = lax_cond(t37, t36, 0)
t39 = t38 ** (0.1e1 / 0.4e1)
t42 = math.exp(-params_a_task_c / t39)
t44 = lax_cond(t37, 0.1e1 - t42, 0)
t46 = params_a_task_bnu[0]
t47 = t30 ** 2
t49 = t31 * t47 * t30
t52 = t47 * r0
t54 = r0 * tau0
t57 = 0.1e1 / r0
t59 = 0.1e1 / tau0
t68 = lax_cond(0.0e0 < 0.12500000000000000000e0 * (0.79999999992000000000e1 * t54 - s0) * t57 * t59, (0.8e1 * t54 - s0) * t57 * t59 / 0.8e1, 0.1e-9)
t69 = tau0 * t68
t73 = t19 * t30 * r0
t75 = tau0 ** 2
t76 = t68 ** 2
t77 = t75 * t76
t80 = t31 * r0
t84 = t75 * tau0 * t76 * t68
t87 = t75 ** 2
t89 = t76 ** 2
t92 = params_a_task_bnu[1]
t104 = params_a_task_bnu[2]
t113 = 0.47049607861172565388e8 * t46 * t49 + 0.65546183777551744717e8 * t46 * t52 * t69 + 0.34242864099506828874e8 * t46 * t73 * t77 + 0.79507891258050066525e7 * t46 * t80 * t84 + 0.69227979374755602348e6 * t46 * t87 * t89 - 0.47049607861172565388e8 * t92 * t49 - 0.32773091888775872359e8 * t92 * t52 * t69 + 0.39753945629025033263e7 * t92 * t80 * t84 + 0.69227979374755602348e6 * t92 * t87 * t89 + 0.47049607861172565386e8 * t104 * t49 - 0.65546183777551744717e8 * t104 * t52 * t69 - 0.57071440165844714789e8 * t104 * t73 * t77
t120 = params_a_task_bnu[3]
t135 = params_a_task_bnu[4]
t150 = -0.79507891258050066526e7 * t104 * t80 * t84 + 0.69227979374755602349e6 * t104 * t87 * t89 - 0.47049607861172565384e8 * t120 * t49 + 0.22941164322143110651e9 * t120 * t52 * t69 - 0.4e-11 * t120 * t73 * t77 - 0.27827761940317523285e8 * t120 * t80 * t84 + 0.69227979374755602348e6 * t120 * t87 * t89 + 0.4704960786117256539e8 * t135 * t49 - 0.45882328644286221302e9 * t135 * t52 * t69 + 0.39950008116091300353e9 * t135 * t73 * t77 - 0.55655523880635046568e8 * t135 * t80 * t84 + 0.6922797937475560235e6 * t135 * t87 * t89
t155 = (0.82820720060468819300e2 * t80 + 0.28844991406148167646e2 * t69) ** 2
t156 = t155 ** 2
t161 = t4 ** 2
t163 = t19 * t52 * t161 * t22
t164 = params_a_task_anu[0]
t167 = params_a_task_anu[1]
t170 = params_a_task_anu[2]
t173 = t3 * t32
t174 = t4 * math.pi
t175 = t174 * s0
t182 = t3 ** 2
t183 = s0 ** 2
t184 = t182 * t183
t193 = (t3 * s0 + 0.12e2 * t174 * t32) ** 2
t198 = t44 ** params_a_task_d
t204 = lax_cond(r0 / 0.2e1 <= p_a_dens_threshold, 0, -0.3e1 / 0.8e1 * t3 / t4 * t18 * t19 * (params_a_task_h0x * t44 + (0.10e1 - (t113 + t150) / t156) * ((0.24e2 * t173 * t175 * t164 - 0.72e2 * t173 * t175 * t170 + 0.144e3 * t163 * t164 - 0.144e3 * t163 * t167 + 0.144e3 * t163 * t170 + t184 * t164 + t184 * t167 + t184 * t170) / t193 - params_a_task_h0x) * t198))
res = 0.2e1 * t204
"

end Verif.Data


/-!
# Shipped formulas, verbatim from `gen_repo/impl/prebuilt/{pol,unpol}/NAME.py`
-/
namespace Verif.Data

/- gen_repo/impl/prebuilt/pol/mgga_x_tau_hcth.py and gen_repo/impl/prebuilt/unpol/mgga_x_tau_hcth.py -/
formula mgga_x_tau_hcth pol "t2 = 3 ** (0.1e1 / 0.3e1)
t3 = math.pi ** (0.1e1 / 0.3e1)
t5 = t2 / t3
t6 = r0 + r1
t7 = 0.1e1 / t6
t10 = 0.2e1 * r0 * t7 <= p_a_zeta_threshold
t11 = p_a_zeta_threshold - 0.1e1
t14 = 0.2e1 * r1 * t7 <= p_a_zeta_threshold
t15 = -t11
t17 = (r0 - r1) * t7
t18 = lax_cond(t14, t15, t17)
t19 = lax_cond(t10, t11, t18)
t20 = 0.1e1 + t19
t22 = p_a_zeta_threshold ** (0.1e1 / 0.3e1)
t23 = t22 * p_a_zeta_threshold
t24 = t20 ** (0.1e1 / 0.3e1)
t26 = lax_cond(t20 <= p_a_zeta_threshold, t23, t24 * t20)
t27 = t6 ** (0.1e1 / 0.3e1)
t29 = params_a_cx_local[0]
t30 = params_a_cx_local[1]
t32 = r0 ** 2
t33 = r0 ** (0.1e1 / 0.3e1)
t34 = t33 ** 2
t36 = 0.1e1 / t34 / t32
t39 = 0.1e1 + 0.4e-2 * s0 * t36
t41 = t36 / t39
t44 = params_a_cx_local[2]
t45 = s0 ** 2
t47 = t32 ** 2
t51 = t39 ** 2
t53 = 0.1e1 / t33 / t47 / r0 / t51
t56 = params_a_cx_local[3]
t57 = t45 * s0
t59 = t47 ** 2
t63 = 0.1e1 / t59 / t51 / t39
t66 = params_a_cx_nlocal[0]
t67 = params_a_cx_nlocal[1]
t71 = params_a_cx_nlocal[2]
t75 = params_a_cx_nlocal[3]
t80 = 6 ** (0.1e1 / 0.3e1)
t81 = t80 ** 2
t82 = math.pi ** 2
t83 = t82 ** (0.1e1 / 0.3e1)
t84 = t83 ** 2
t86 = 0.3e1 / 0.10e2 * t81 * t84
t89 = tau0 / t34 / r0
t90 = t86 - t89
t91 = t86 + t89
t94 = t90 ** 2
t96 = t91 ** 2
t101 = t94 ** 2
t103 = t96 ** 2
t113 = lax_cond(r0 <= p_a_dens_threshold, 0, -0.3e1 / 0.8e1 * t5 * t26 * t27 * (t29 + 0.4e-2 * t30 * s0 * t41 + 0.16e-4 * t44 * t45 * t53 + 0.64e-7 * t56 * t57 * t63 + (t66 + 0.4e-2 * t67 * s0 * t41 + 0.16e-4 * t71 * t45 * t53 + 0.64e-7 * t75 * t57 * t63) * (t90 / t91 - 0.2e1 * t94 * t90 / t96 / t91 + t101 * t90 / t103 / t91)))
t115 = lax_cond(t10, t15, -t17)
t116 = lax_cond(t14, t11, t115)
t117 = 0.1e1 + t116
t119 = t117 ** (0.1e1 / 0.3e1)
t121 = lax_cond(t117 <= p_a_zeta_threshold, t23, t119 * t117)
t124 = r1 ** 2
t125 = r1 ** (0.1e1 / 0.3e1)
t126 = t125 ** 2
t128 = 0.1e1 / t126 / t124
t131 = 0.1e1 + 0.4e-2 * s2 * t128
t133 = t128 / t131
t136 = s2 ** 2
t138 = t124 ** 2
t142 = t131 ** 2
t144 = 0.1e1 / t125 / t138 / r1 / t142
t147 = t136 * s2
t149 = t138 ** 2
t153 = 0.1e1 / t149 / t142 / t131
t168 = tau1 / t126 / r1
t169 = t86 - t168
t170 = t86 + t168
t173 = t169 ** 2
t175 = t170 ** 2
t180 = t173 ** 2
t182 = t175 ** 2
t192 = lax_cond(r1 <= p_a_dens_threshold, 0, -0.3e1 / 0.8e1 * t5 * t121 * t27 * (t29 + 0.4e-2 * t30 * s2 * t133 + 0.16e-4 * t44 * t136 * t144 + 0.64e-7 * t56 * t147 * t153 + (t66 + 0.4e-2 * t67 * s2 * t133 + 0.16e-4 * t71 * t136 * t144 + 0.64e-7 * t75 * t147 * t153) * (t169 / t170 - 0.2e1 * t173 * t169 / t175 / t170 + t180 * t169 / t182 / t170)))
res = t113 + t192
" unpol "t3 = 3 ** (0.1e1 / 0.3e1)
t4 = math.pi ** (0.1e1 / 0.3e1)
t7 = 0.1e1 <= p_a_zeta_threshold
t8 = p_a_zeta_threshold - 0.1e1
t10 = lax_cond(t7, -t8, 0)
t11 = lax_cond(t7, t8, t10)
t12 = 0.1e1 + t11
t14 = p_a_zeta_threshold ** (0.1e1 / 0.3e1)
t16 = t12 ** (0.1e1 / 0.3e1)
t18 = lax_cond(t12 <= p_a_zeta_threshold, t14 * p_a_zeta_threshold, t16 * t12)
t19 = r0 ** (0.1e1 / 0.3e1)
t24 = 2 ** (0.1e1 / 0.3e1)
t25 = t24 ** 2
t26 = r0 ** 2
t27 = t19 ** 2
t29 = 0.1e1 / t27 / t26
t34 = 0.1e1 + 0.4e-2 * s0 * t25 * t29
t36 = t25 * t29 / t34
t40 = s0 ** 2
t42 = t26 ** 2
t47 = t34 ** 2
t49 = t24 / t19 / t42 / r0 / t47
t53 = t40 * s0
t55 = t42 ** 2
t59 = 0.1e1 / t55 / t47 / t34
t76 = 6 ** (0.1e1 / 0.3e1)
t77 = t76 ** 2
t78 = math.pi ** 2
t79 = t78 ** (0.1e1 / 0.3e1)
t80 = t79 ** 2
t82 = 0.3e1 / 0.10e2 * t77 * t80
t86 = tau0 * t25 / t27 / r0
t87 = t82 - t86
t88 = t82 + t86
t91 = t87 ** 2
t93 = t88 ** 2
t98 = t91 ** 2
t100 = t93 ** 2
t110 = lax_cond(r0 / 0.2e1 <= p_a_dens_threshold, 0, -0.3e1 / 0.8e1 * t3 / t4 * t18 * t19 * (params_a_cx_local[0] + 0.4e-2 * params_a_cx_local[1] * s0 * t36 + 0.32e-4 * params_a_cx_local[2] * t40 * t49 + 0.256e-6 * params_a_cx_local[3] * t53 * t59 + (params_a_cx_nlocal[0] + 0.4e-2 * params_a_cx_nlocal[1] * s0 * t36 + 0.32e-4 * params_a_cx_nlocal[2] * t40 * t49 + 0.256e-6 * params_a_cx_nlocal[3] * t53 * t59) * (t87 / t88 - 0.2e1 * t91 * t87 / t93 / t88 + t98 * t87 / t100 / t88)))
res = 0.2e1 * t110
"

/- gen_repo/impl/prebuilt/pol/mgga_x_tb09.py and gen_repo/impl/prebuilt/unpol/mgga_x_tb09.py -/
formula mgga_x_tb09 pol "t1 = math.pi ** (0.1e1 / 0.3e1)
t3 = r0 ** (0.1e1 / 0.3e1)
t4 = t3 ** 2
t6 = 0.1e1 / t4 / r0
t9 = tau0 * t6
t11 = r0 ** 2
t13 = 0.1e1 / t4 / t11
t16 = l0 * t6 / 0.6e1 - 0.53333333333333333333e0 * t9 + 0.66666666666666666667e-1 * s0 * t13
t17 = abs(t16)
t20 = lax_cond(0.0e0 < t16, 0.50e-12, -0.50e-12)
t21 = lax_cond(t17 < 0.50e-12, t20, t16)
t22 = br89_x(t21)
t24 = math.exp(t22 / 0.3e1)
t25 = math.exp(-t22)
t37 = math.sqrt(0.15e2)
t40 = math.sqrt(0.2e1)
t45 = t9 - params_a_alpha * s0 * t13 / 0.8e1
t47 = lax_cond(0.1e-9 < t45, t45, 0.1e-9)
t48 = math.sqrt(t47)
res = (-0.2e1 * params_a_c * t1 * t24 * (0.1e1 - t25 * (0.1e1 + t22 / 0.2e1)) / t22 + (0.3e1 * params_a_c - 0.2e1) * t37 / math.pi * t40 * t48 / 0.6e1) * t3
" unpol "t1 = math.pi ** (0.1e1 / 0.3e1)
t3 = 2 ** (0.1e1 / 0.3e1)
t4 = t3 ** 2
t6 = r0 ** (0.1e1 / 0.3e1)
t7 = t6 ** 2
t9 = 0.1e1 / t7 / r0
t13 = tau0 * t4 * t9
t16 = r0 ** 2
t18 = 0.1e1 / t7 / t16
t21 = l0 * t4 * t9 / 0.6e1 - 0.53333333333333333333e0 * t13 + 0.66666666666666666667e-1 * s0 * t4 * t18
t22 = abs(t21)
t25 = lax_cond(0.0e0 < t21, 0.50e-12, -0.50e-12)
t26 = lax_cond(t22 < 0.50e-12, t25, t21)
t27 = br89_x(t26)
t29 = math.exp(t27 / 0.3e1)
t30 = math.exp(-t27)
t42 = math.sqrt(0.15e2)
t45 = math.sqrt(0.2e1)
t51 = t13 - params_a_alpha * s0 * t4 * t18 / 0.8e1
t53 = lax_cond(0.1e-9 < t51, t51, 0.1e-9)
t54 = math.sqrt(t53)
res = (-0.2e1 * params_a_c * t1 * t29 * (0.1e1 - t30 * (0.1e1 + t27 / 0.2e1)) / t27 + (0.3e1 * params_a_c - 0.2e1) * t42 / math.pi * t45 * t54 / 0.6e1) * t4 * t6 / 0.2e1
"

/- gen_repo/impl/prebuilt/pol/mgga_x_th.py and gen_repo/impl/prebuilt/unpol/mgga_x_th.py -/
formula mgga_x_th pol "t2 = math.pi ** (0.1e1 / 0.3e1)
t3 = t2 ** 2
t4 = r0 + r1
t5 = 0.1e1 / t4
t8 = 0.2e1 * r0 * t5 <= p_a_zeta_threshold
t9 = p_a_zeta_threshold - 0.1e1
t12 = 0.2e1 * r1 * t5 <= p_a_zeta_threshold
t13 = -t9
t15 = (r0 - r1) * t5
t16 = lax_cond(t12, t13, t15)
t17 = lax_cond(t8, t9, t16)
t18 = 0.1e1 + t17
t20 = p_a_zeta_threshold ** (0.1e1 / 0.3e1)
t21 = t20 * p_a_zeta_threshold
t22 = t18 ** (0.1e1 / 0.3e1)
t24 = lax_cond(t18 <= p_a_zeta_threshold, t21, t22 * t18)
t26 = t4 ** (0.1e1 / 0.3e1)
t27 = 0.1e1 / tau0
t30 = r0 ** (0.1e1 / 0.3e1)
t31 = t30 ** 2
t40 = (0.1e1 / math.pi) ** (0.1e1 / 0.3e1)
t42 = 4 ** (0.1e1 / 0.3e1)
t43 = 0.1e1 / t40 * t42
t47 = lax_cond(r0 <= p_a_dens_threshold, 0, -0.27e2 / 0.80e2 * t3 * t24 * t26 * t27 * t31 * r0 * (0.1e1 + 0.7e1 / 0.216e3 * s0 / r0 * t27) * t43)
t49 = lax_cond(t8, t13, -t15)
t50 = lax_cond(t12, t9, t49)
t51 = 0.1e1 + t50
t53 = t51 ** (0.1e1 / 0.3e1)
t55 = lax_cond(t51 <= p_a_zeta_threshold, t21, t53 * t51)
t57 = 0.1e1 / tau1
t60 = r1 ** (0.1e1 / 0.3e1)
t61 = t60 ** 2
t72 = lax_cond(r1 <= p_a_dens_threshold, 0, -0.27e2 / 0.80e2 * t3 * t55 * t26 * t57 * t61 * r1 * (0.1e1 + 0.7e1 / 0.216e3 * s2 / r1 * t57) * t43)
res = t47 + t72
" unpol "t3 = math.pi ** (0.1e1 / 0.3e1)
t4 = t3 ** 2
t5 = 0.1e1 <= p_a_zeta_threshold
t6 = p_a_zeta_threshold - 0.1e1
t8 = lax_cond(t5, -t6, 0)
t9 = lax_cond(t5, t6, t8)
t10 = 0.1e1 + t9
t12 = p_a_zeta_threshold ** (0.1e1 / 0.3e1)
t14 = t10 ** (0.1e1 / 0.3e1)
t16 = lax_cond(t10 <= p_a_zeta_threshold, t12 * p_a_zeta_threshold, t14 * t10)
t18 = r0 ** 2
t19 = 0.1e1 / tau0
t22 = 2 ** (0.1e1 / 0.3e1)
t30 = (0.1e1 / math.pi) ** (0.1e1 / 0.3e1)
t32 = 4 ** (0.1e1 / 0.3e1)
t37 = lax_cond(r0 / 0.2e1 <= p_a_dens_threshold, 0, -0.27e2 / 0.160e3 * t4 * t16 * t18 * t19 * t22 * (0.1e1 + 0.7e1 / 0.216e3 * s0 / r0 * t19) / t30 * t32)
res = 0.2e1 * t37
"

/- gen_repo/impl/prebuilt/pol/mgga_x_tm.py and gen_repo/impl/prebuilt/unpol/mgga_x_tm.py -/
formula mgga_x_tm pol "t2 = 3 ** (0.1e1 / 0.3e1)
t3 = math.pi ** (0.1e1 / 0.3e1)
t5 = t2 / t3
t6 = r0 + r1
t7 = 0.1e1 / t6
t10 = 0.2e1 * r0 * t7 <= p_a_zeta_threshold
t11 = p_a_zeta_threshold - 0.1e1
t14 = 0.2e1 * r1 * t7 <= p_a_zeta_threshold
t15 = -t11
t17 = (r0 - r1) * t7
t18 = lax_cond(t14, t15, t17)
t19 = lax_cond(t10, t11, t18)
t20 = 0.1e1 + t19
t22 = p_a_zeta_threshold ** (0.1e1 / 0.3e1)
t23 = t22 * p_a_zeta_threshold
t24 = t20 ** (0.1e1 / 0.3e1)
t26 = lax_cond(t20 <= p_a_zeta_threshold, t23, t24 * t20)
t27 = t6 ** (0.1e1 / 0.3e1)
t33 = s0 / r0 / tau0 / 0.8e1
t35 = lax_cond(t33 < 0.10e1, t33, 0.10e1)
t36 = t35 ** 2
t37 = t36 * t35
t41 = (0.1e1 + t37) ** 2
t43 = (t36 + 0.3e1 * t37) / t41
t44 = 6 ** (0.1e1 / 0.3e1)
t45 = math.pi ** 2
t46 = t45 ** (0.1e1 / 0.3e1)
t47 = t46 ** 2
t48 = 0.1e1 / t47
t49 = t44 * t48
t50 = r0 ** 2
t51 = r0 ** (0.1e1 / 0.3e1)
t52 = t51 ** 2
t54 = 0.1e1 / t52 / t50
t55 = s0 * t54
t56 = t49 * t55
t58 = t44 ** 2
t61 = t58 / t46 / t45
t62 = s0 ** 2
t63 = t50 ** 2
t71 = (0.1e1 + 0.15045488888888888889e0 * t56 + 0.26899490462262948000e-2 * t61 * t62 / t51 / t63 / r0) ** (0.1e1 / 0.5e1)
t76 = tau0 / t52 / r0
t79 = 0.25633760400000000000e0 * t58 * t47
t86 = t71 ** 2
t106 = (t76 - t55 / 0.8e1) * t44 * t48 / 0.4e1 - 0.9e1 / 0.20e2 + t56 / 0.36e2
t107 = t106 ** 2
t114 = (0.1e1 + 0.5e1 / 0.12e2 * (0.10e2 / 0.81e2 + 0.25e2 / 0.8748e4 * t56) * t44 * t48 * s0 * t54 + 0.292e3 / 0.405e3 * t107 - 0.146e3 / 0.135e3 * t106 * t35 * (0.1e1 - t35)) ** (0.1e1 / 0.10e2)
t120 = lax_cond(r0 <= p_a_dens_threshold, 0, -0.3e1 / 0.8e1 * t5 * t26 * t27 * (t43 * (0.1e1 / t71 + 0.7e1 / 0.9e1 * (0.1e1 + 0.63943327777777777778e-1 * t56 - 0.5e1 / 0.9e1 * (0.14554132000000000000e0 * t76 + t79 + 0.11867481666666666667e-1 * t55) * t44 * t48) / t86) + (0.1e1 - t43) * t114))
t122 = lax_cond(t10, t15, -t17)
t123 = lax_cond(t14, t11, t122)
t124 = 0.1e1 + t123
t126 = t124 ** (0.1e1 / 0.3e1)
t128 = lax_cond(t124 <= p_a_zeta_threshold, t23, t126 * t124)
t134 = s2 / r1 / tau1 / 0.8e1
t136 = lax_cond(t134 < 0.10e1, t134, 0.10e1)
t137 = t136 ** 2
t138 = t137 * t136
t142 = (0.1e1 + t138) ** 2
t144 = (t137 + 0.3e1 * t138) / t142
t145 = r1 ** 2
t146 = r1 ** (0.1e1 / 0.3e1)
t147 = t146 ** 2
t149 = 0.1e1 / t147 / t145
t150 = s2 * t149
t151 = t49 * t150
t153 = s2 ** 2
t154 = t145 ** 2
t162 = (0.1e1 + 0.15045488888888888889e0 * t151 + 0.26899490462262948000e-2 * t61 * t153 / t146 / t154 / r1) ** (0.1e1 / 0.5e1)
t167 = tau1 / t147 / r1
t175 = t162 ** 2
t195 = (t167 - t150 / 0.8e1) * t44 * t48 / 0.4e1 - 0.9e1 / 0.20e2 + t151 / 0.36e2
t196 = t195 ** 2
t203 = (0.1e1 + 0.5e1 / 0.12e2 * (0.10e2 / 0.81e2 + 0.25e2 / 0.8748e4 * t151) * t44 * t48 * s2 * t149 + 0.292e3 / 0.405e3 * t196 - 0.146e3 / 0.135e3 * t195 * t136 * (0.1e1 - t136)) ** (0.1e1 / 0.10e2)
t209 = lax_cond(r1 <= p_a_dens_threshold, 0, -0.3e1 / 0.8e1 * t5 * t128 * t27 * (t144 * (0.1e1 / t162 + 0.7e1 / 0.9e1 * (0.1e1 + 0.63943327777777777778e-1 * t151 - 0.5e1 / 0.9e1 * (0.14554132000000000000e0 * t167 + t79 + 0.11867481666666666667e-1 * t150) * t44 * t48) / t175) + (0.1e1 - t144) * t203))
res = t120 + t209
" unpol "t3 = 3 ** (0.1e1 / 0.3e1)
t4 = math.pi ** (0.1e1 / 0.3e1)
t7 = 0.1e1 <= p_a_zeta_threshold
t8 = p_a_zeta_threshold - 0.1e1
t10 = lax_cond(t7, -t8, 0)
t11 = lax_cond(t7, t8, t10)
t12 = 0.1e1 + t11
t14 = p_a_zeta_threshold ** (0.1e1 / 0.3e1)
t16 = t12 ** (0.1e1 / 0.3e1)
t18 = lax_cond(t12 <= p_a_zeta_threshold, t14 * p_a_zeta_threshold, t16 * t12)
t19 = r0 ** (0.1e1 / 0.3e1)
t25 = s0 / r0 / tau0 / 0.8e1
t27 = lax_cond(t25 < 0.10e1, t25, 0.10e1)
t28 = t27 ** 2
t29 = t28 * t27
t33 = (0.1e1 + t29) ** 2
t35 = (t28 + 0.3e1 * t29) / t33
t36 = 6 ** (0.1e1 / 0.3e1)
t37 = math.pi ** 2
t38 = t37 ** (0.1e1 / 0.3e1)
t39 = t38 ** 2
t40 = 0.1e1 / t39
t42 = 2 ** (0.1e1 / 0.3e1)
t43 = t42 ** 2
t45 = r0 ** 2
t46 = t19 ** 2
t49 = s0 * t43 / t46 / t45
t50 = t36 * t40 * t49
t52 = t36 ** 2
t56 = s0 ** 2
t58 = t45 ** 2
t66 = (0.1e1 + 0.15045488888888888889e0 * t50 + 0.53798980924525896000e-2 * t52 / t38 / t37 * t56 * t42 / t19 / t58 / r0) ** (0.1e1 / 0.5e1)
t72 = tau0 * t43 / t46 / r0
t82 = t66 ** 2
t101 = (t72 - t49 / 0.8e1) * t36 * t40 / 0.4e1 - 0.9e1 / 0.20e2 + t50 / 0.36e2
t102 = t101 ** 2
t109 = (0.1e1 + 0.5e1 / 0.12e2 * (0.10e2 / 0.81e2 + 0.25e2 / 0.8748e4 * t50) * t36 * t40 * t49 + 0.292e3 / 0.405e3 * t102 - 0.146e3 / 0.135e3 * t101 * t27 * (0.1e1 - t27)) ** (0.1e1 / 0.10e2)
t115 = lax_cond(r0 / 0.2e1 <= p_a_dens_threshold, 0, -0.3e1 / 0.8e1 * t3 / t4 * t18 * t19 * (t35 * (0.1e1 / t66 + 0.7e1 / 0.9e1 * (0.1e1 + 0.63943327777777777778e-1 * t50 - 0.5e1 / 0.9e1 * (0.14554132000000000000e0 * t72 + 0.25633760400000000000e0 * t52 * t39 + 0.11867481666666666667e-1 * t49) * t36 * t40) / t82) + (0.1e1 - t35) * t109))
res = 0.2e1 * t115
"

/- gen_repo/impl/prebuilt/pol/mgga_x_tpss.py and gen_repo/impl/prebuilt/unpol/mgga_x_tpss.py -/
formula mgga_x_tpss pol "t2 = 3 ** (0.1e1 / 0.3e1)
t3 = math.pi ** (0.1e1 / 0.3e1)
t5 = t2 / t3
t6 = r0 + r1
t7 = 0.1e1 / t6
t10 = 0.2e1 * r0 * t7 <= p_a_zeta_threshold
t11 = p_a_zeta_threshold - 0.1e1
t14 = 0.2e1 * r1 * t7 <= p_a_zeta_threshold
t15 = -t11
t17 = (r0 - r1) * t7
t18 = lax_cond(t14, t15, t17)
t19 = lax_cond(t10, t11, t18)
t20 = 0.1e1 + t19
t22 = p_a_zeta_threshold ** (0.1e1 / 0.3e1)
t23 = t22 * p_a_zeta_threshold
t24 = t20 ** (0.1e1 / 0.3e1)
t26 = lax_cond(t20 <= p_a_zeta_threshold, t23, t24 * t20)
t27 = t6 ** (0.1e1 / 0.3e1)
t29 = 0.1e1 / r0
t31 = 0.1e1 / tau0
t39 = (s0 * t29 * t31 / 0.8e1) ** (params_a_BLOC_a + params_a_BLOC_b * s0 * t29 * t31 / 0.8e1)
t41 = s0 ** 2
t42 = r0 ** 2
t43 = 0.1e1 / t42
t45 = tau0 ** 2
t46 = 0.1e1 / t45
t47 = t41 * t43 * t46
t50 = (0.1e1 + t47 / 0.64e2) ** 2
t54 = 6 ** (0.1e1 / 0.3e1)
t56 = math.pi ** 2
t57 = t56 ** (0.1e1 / 0.3e1)
t58 = t57 ** 2
t59 = 0.1e1 / t58
t61 = r0 ** (0.1e1 / 0.3e1)
t62 = t61 ** 2
t64 = 0.1e1 / t62 / t42
t65 = t59 * s0 * t64
t71 = s0 * t64
t73 = tau0 / t62 / r0 - t71 / 0.8e1
t77 = 0.5e1 / 0.9e1 * t73 * t54 * t59 - 0.1e1
t79 = t54 * t59
t84 = math.sqrt(0.5e1 * params_a_b * t73 * t79 * t77 + 0.9e1)
t90 = 0.27e2 / 0.20e2 * t77 / t84 + t79 * t71 / 0.36e2
t91 = t90 ** 2
t94 = t54 ** 2
t96 = 0.1e1 / t57 / t56
t97 = t94 * t96
t98 = t42 ** 2
t101 = 0.1e1 / t61 / t98 / r0
t106 = math.sqrt(0.50e2 * t97 * t41 * t101 + 0.162e3 * t47)
t110 = 0.1e1 / params_a_kappa * t94
t115 = math.sqrt(params_a_e)
t120 = params_a_e * params_a_mu
t121 = t56 ** 2
t122 = 0.1e1 / t121
t125 = t98 ** 2
t131 = t115 * t54
t135 = (0.1e1 + t131 * t65 / 0.24e2) ** 2
t147 = lax_cond(r0 <= p_a_dens_threshold, 0, -0.3e1 / 0.8e1 * t5 * t26 * t27 * (0.1e1 + params_a_kappa * (0.1e1 - params_a_kappa / (params_a_kappa + ((0.10e2 / 0.81e2 + params_a_c * t39 / t50) * t54 * t65 / 0.24e2 + 0.146e3 / 0.2025e4 * t91 - 0.73e2 / 0.97200e5 * t90 * t106 + 0.25e2 / 0.944784e6 * t110 * t96 * t41 * t101 + t115 * t41 * t43 * t46 / 0.720e3 + t120 * t122 * t41 * s0 / t125 / 0.2304e4) / t135))))
t149 = lax_cond(t10, t15, -t17)
t150 = lax_cond(t14, t11, t149)
t151 = 0.1e1 + t150
t153 = t151 ** (0.1e1 / 0.3e1)
t155 = lax_cond(t151 <= p_a_zeta_threshold, t23, t153 * t151)
t157 = 0.1e1 / r1
t159 = 0.1e1 / tau1
t167 = (s2 * t157 * t159 / 0.8e1) ** (params_a_BLOC_a + params_a_BLOC_b * s2 * t157 * t159 / 0.8e1)
t169 = s2 ** 2
t170 = r1 ** 2
t171 = 0.1e1 / t170
t173 = tau1 ** 2
t174 = 0.1e1 / t173
t175 = t169 * t171 * t174
t178 = (0.1e1 + t175 / 0.64e2) ** 2
t184 = r1 ** (0.1e1 / 0.3e1)
t185 = t184 ** 2
t187 = 0.1e1 / t185 / t170
t188 = t59 * s2 * t187
t194 = s2 * t187
t196 = tau1 / t185 / r1 - t194 / 0.8e1
t200 = 0.5e1 / 0.9e1 * t196 * t54 * t59 - 0.1e1
t206 = math.sqrt(0.5e1 * params_a_b * t196 * t79 * t200 + 0.9e1)
t212 = 0.27e2 / 0.20e2 * t200 / t206 + t79 * t194 / 0.36e2
t213 = t212 ** 2
t216 = t170 ** 2
t219 = 0.1e1 / t184 / t216 / r1
t224 = math.sqrt(0.50e2 * t97 * t169 * t219 + 0.162e3 * t175)
t237 = t216 ** 2
t246 = (0.1e1 + t131 * t188 / 0.24e2) ** 2
t258 = lax_cond(r1 <= p_a_dens_threshold, 0, -0.3e1 / 0.8e1 * t5 * t155 * t27 * (0.1e1 + params_a_kappa * (0.1e1 - params_a_kappa / (params_a_kappa + ((0.10e2 / 0.81e2 + params_a_c * t167 / t178) * t54 * t188 / 0.24e2 + 0.146e3 / 0.2025e4 * t213 - 0.73e2 / 0.97200e5 * t212 * t224 + 0.25e2 / 0.944784e6 * t110 * t96 * t169 * t219 + t115 * t169 * t171 * t174 / 0.720e3 + t120 * t122 * t169 * s2 / t237 / 0.2304e4) / t246))))
res = t147 + t258
" unpol "t3 = 3 ** (0.1e1 / 0.3e1)
t4 = math.pi ** (0.1e1 / 0.3e1)
t7 = 0.1e1 <= p_a_zeta_threshold
t8 = p_a_zeta_threshold - 0.1e1
t10 = lax_cond(t7, -t8, 0)
t11 = lax_cond(t7, t8, t10)
t12 = 0.1e1 + t11
t14 = p_a_zeta_threshold ** (0.1e1 / 0.3e1)
t16 = t12 ** (0.1e1 / 0.3e1)
t18 = lax_cond(t12 <= p_a_zeta_threshold, t14 * p_a_zeta_threshold, t16 * t12)
t19 = r0 ** (0.1e1 / 0.3e1)
t21 = 0.1e1 / r0
t23 = 0.1e1 / tau0
t31 = (s0 * t21 * t23 / 0.8e1) ** (params_a_BLOC_a + params_a_BLOC_b * s0 * t21 * t23 / 0.8e1)
t33 = s0 ** 2
t34 = r0 ** 2
t35 = 0.1e1 / t34
t37 = tau0 ** 2
t38 = 0.1e1 / t37
t39 = t33 * t35 * t38
t42 = (0.1e1 + t39 / 0.64e2) ** 2
t46 = 6 ** (0.1e1 / 0.3e1)
t48 = math.pi ** 2
t49 = t48 ** (0.1e1 / 0.3e1)
t50 = t49 ** 2
t51 = 0.1e1 / t50
t53 = 2 ** (0.1e1 / 0.3e1)
t54 = t53 ** 2
t56 = t19 ** 2
t59 = s0 * t54 / t56 / t34
t67 = tau0 * t54 / t56 / r0 - t59 / 0.8e1
t71 = 0.5e1 / 0.9e1 * t67 * t46 * t51 - 0.1e1
t73 = t46 * t51
t78 = math.sqrt(0.5e1 * params_a_b * t67 * t73 * t71 + 0.9e1)
t84 = 0.27e2 / 0.20e2 * t71 / t78 + t73 * t59 / 0.36e2
t85 = t84 ** 2
t88 = t46 ** 2
t90 = 0.1e1 / t49 / t48
t93 = t34 ** 2
t97 = t33 * t53 / t19 / t93 / r0
t101 = math.sqrt(0.100e3 * t88 * t90 * t97 + 0.162e3 * t39)
t109 = math.sqrt(params_a_e)
t115 = t48 ** 2
t119 = t93 ** 2
t130 = (0.1e1 + t109 * t46 * t51 * t59 / 0.24e2) ** 2
t142 = lax_cond(r0 / 0.2e1 <= p_a_dens_threshold, 0, -0.3e1 / 0.8e1 * t3 / t4 * t18 * t19 * (0.1e1 + params_a_kappa * (0.1e1 - params_a_kappa / (params_a_kappa + ((0.10e2 / 0.81e2 + params_a_c * t31 / t42) * t46 * t51 * t59 / 0.24e2 + 0.146e3 / 0.2025e4 * t85 - 0.73e2 / 0.97200e5 * t84 * t101 + 0.25e2 / 0.472392e6 / params_a_kappa * t88 * t90 * t97 + t109 * t33 * t35 * t38 / 0.720e3 + params_a_e * params_a_mu / t115 * t33 * s0 / t119 / 0.576e3) / t130))))
res = 0.2e1 * t142
"

/- gen_repo/impl/prebuilt/pol/mgga_x_vcml.py and gen_repo/impl/prebuilt/unpol/mgga_x_vcml.py -/
formula mgga_x_vcml pol "t2 = 3 ** (0.1e1 / 0.3e1)
t3 = math.pi ** (0.1e1 / 0.3e1)
t5 = t2 / t3
t6 = r0 + r1
t7 = 0.1e1 / t6
t10 = 0.2e1 * r0 * t7 <= p_a_zeta_threshold
t11 = p_a_zeta_threshold - 0.1e1
t14 = 0.2e1 * r1 * t7 <= p_a_zeta_threshold
t15 = -t11
t17 = (r0 - r1) * t7
t18 = lax_cond(t14, t15, t17)
t19 = lax_cond(t10, t11, t18)
t20 = t19 + 0.1e1
t22 = p_a_zeta_threshold ** (0.1e1 / 0.3e1)
t23 = t22 * p_a_zeta_threshold
t24 = t20 ** (0.1e1 / 0.3e1)
t26 = lax_cond(t20 <= p_a_zeta_threshold, t23, t24 * t20)
t27 = t6 ** (0.1e1 / 0.3e1)
t29 = 6 ** (0.1e1 / 0.3e1)
t30 = math.pi ** 2
t31 = t30 ** (0.1e1 / 0.3e1)
t32 = t31 ** 2
t33 = 0.1e1 / t32
t34 = t29 * t33
t35 = r0 ** 2
t36 = r0 ** (0.1e1 / 0.3e1)
t37 = t36 ** 2
t40 = s0 / t37 / t35
t46 = t34 * t40 / (0.65124e1 + t34 * t40 / 0.24e2)
t48 = t46 / 0.12e2 - 0.1e1
t49 = t48 ** 2
t50 = t49 ** 2
t53 = t50 * t49
t62 = 0.5e1 / 0.9e1 * (tau0 / t37 / r0 - t40 / 0.8e1) * t29 * t33
t64 = 0.1e5 < t62
t65 = lax_cond(t64, t62, 0.1e5)
t66 = t65 ** 2
t72 = t66 ** 2
t76 = lax_cond(t64, 0.1e5, t62)
t77 = t76 ** 2
t78 = 0.1e1 - t77
t79 = t78 ** 2
t81 = t77 * t76
t88 = lax_cond(0.1e5 <= t62, -0.1e1 / 0.4e1 + 0.3e1 / 0.4e1 / t66 + 0.1e1 / t66 / t65 / 0.16e2 - 0.3e1 / 0.4e1 / t72, t79 * t78 / (0.1e1 + t81 * (0.1e1 + 0.4e1 * t81)))
t89 = t88 ** 2
t90 = t89 ** 2
t91 = t90 * t89
t96 = t90 * t88
t98 = t89 * t88
t100 = t90 * t98
t102 = t50 * t48
t104 = t49 * t48
t106 = t50 * t104
t109 = -0.1e1 / 0.2e1 + 0.3e1 / 0.2e1 * t49
t111 = -0.1e1 / 0.2e1 + 0.3e1 / 0.2e1 * t89
t119 = -0.5e1 / 0.16e2 + 0.231e3 / 0.16e2 * t91 - 0.315e3 / 0.16e2 * t90 + 0.105e3 / 0.16e2 * t89
t122 = -0.57084476241712602813e-1 * t50 - 0.38230940935406268094e0 * t49 + 0.73000610738035552688e-1 * t53 + 0.44142553981357691475e-2 * t91 - 0.12287293765057329462e-1 * t90 + 0.63559222793315408625e-2 * t89 + 0.19451907596748125344e0 * t88 + 0.52279783829707640062e-1 * t96 - 0.5923137049970073438e-2 * t98 - 0.54303814303104071062e-1 * t100 + 0.50197247070683313037e-1 * t102 - 0.8047507298914579188e-2 * t104 - 0.40204197854033482912e-1 * t106 - 0.835331263170036e-3 * t109 * t111 - 0.13135604251829597e-1 * t109 * t88 + 0.5970286163074767e-3 * t48 * t119
t127 = 0.429e3 / 0.16e2 * t100 - 0.693e3 / 0.16e2 * t96 + 0.315e3 / 0.16e2 * t98 - 0.35e2 / 0.16e2 * t88
t133 = 0.63e2 / 0.8e1 * t96 - 0.35e2 / 0.4e1 * t98 + 0.15e2 / 0.8e1 * t88
t138 = 0.3e1 / 0.8e1 + 0.35e2 / 0.8e1 * t90 - 0.15e2 / 0.4e1 * t89
t145 = 0.5e1 / 0.2e1 * t98 - 0.3e1 / 0.2e1 * t88
t152 = 0.5e1 / 0.2e1 * t104 - t46 / 0.8e1 + 0.3e1 / 0.2e1
t173 = 0.23160016166370034e-2 * t48 * t127 + 0.16437722411542371e-2 * t48 * t133 + 0.50995906979556666e-2 * t48 * t138 + 0.12341314639045392e-2 * t48 * t111 + 0.24977311122498513e-2 * t48 * t145 + 0.12131628073942294e0 * t48 * t88 - 0.689695394243961e-3 * t152 * t119 + 0.4308565933608885e-3 * t152 * t127 - 0.19375881298946268e-3 * t152 * t133 - 0.4704436332280876e-2 * t152 * t138 + 0.27822064319562786e-2 * t152 * t145 - 0.7823588139015819e-4 * t152 * t111 - 0.16823429546012295e-1 * t152 * t88 + 0.18939021743243079e-3 * t109 * t127 - 0.9048853909642742e-3 * t109 * t119 + 0.8482767148525194e-4 * t109 * t133
t182 = 0.63e2 / 0.8e1 * t102 - 0.35e2 / 0.4e1 * t104 + 0.5e1 / 0.32e2 * t46 - 0.15e2 / 0.8e1
t193 = 0.3e1 / 0.8e1 + 0.35e2 / 0.8e1 * t50 - 0.15e2 / 0.4e1 * t49
t211 = -0.5e1 / 0.16e2 + 0.231e3 / 0.16e2 * t53 - 0.315e3 / 0.16e2 * t50 + 0.105e3 / 0.16e2 * t49
t218 = -0.8670535705479461e-3 * t109 * t145 + 0.3180493235941731e-3 * t109 * t138 - 0.10249162124576494e-2 * t182 * t138 - 0.3656012084198544e-4 * t182 * t145 + 0.5061925051098745e-2 * t182 * t111 - 0.16609256494831233e-2 * t182 * t88 - 0.1792697304428732e-4 * t193 * t127 + 0.1331797359718674e-3 * t193 * t119 - 0.7261106354828029e-4 * t193 * t133 - 0.2571281595426713e-3 * t193 * t145 + 0.9891355730978566e-3 * t193 * t138 - 0.14878680171769923e-2 * t193 * t111 - 0.21100890252897446e-2 * t193 * t88 - 0.31296536914037784e-2 * t211 * t133 - 0.9195715678311926e-2 * t211 * t145 + 0.8367073496483024e-3 * t211 * t138
t233 = 0.429e3 / 0.16e2 * t106 - 0.693e3 / 0.16e2 * t102 + 0.315e3 / 0.16e2 * t104 - 0.35e2 / 0.192e3 * t46 + 0.35e2 / 0.16e2
t253 = 0.13669196781387441795e1 - 0.7631605623646023e-2 * t211 * t111 + 0.28206838819829017e-2 * t211 * t88 - 0.5194058669188706e-3 * t182 * t127 - 0.38541498256550073e-2 * t182 * t133 - 0.7555456486598222e-2 * t182 * t119 - 0.19095139973664826e-3 * t233 * t119 + 0.38758929812102785e-2 * t233 * t133 - 0.31389079758955066e-3 * t233 * t138 + 0.10726279571787276e-1 * t233 * t145 + 0.17309630990864668e-3 * t233 * t88 - 0.1006770315965861e-1 * t233 * t111 - 0.18156466410673526e-3 * t211 * t127 + 0.1864317026752979e-2 * t211 * t119 - 0.29476504977320184e-3 * t233 * t127 - 0.11145877912279910870e-1 * t46
t259 = lax_cond(r0 <= p_a_dens_threshold, 0, -0.3e1 / 0.8e1 * t5 * t26 * t27 * (t122 + t173 + t218 + t253))
t261 = lax_cond(t10, t15, -t17)
t262 = lax_cond(t14, t11, t261)
t263 = t262 + 0.1e1
t265 = t263 ** (0.1e1 / 0.3e1)
t267 = lax_cond(t263 <= p_a_zeta_threshold, t23, t265 * t263)
t269 = r1 ** 2
t270 = r1 ** (0.1e1 / 0.3e1)
t271 = t270 ** 2
t274 = s2 / t271 / t269
t280 = t34 * t274 / (0.65124e1 + t34 * t274 / 0.24e2)
t282 = t280 / 0.12e2 - 0.1e1
t283 = t282 ** 2
t284 = t283 ** 2
t287 = t284 * t283
t296 = 0.5e1 / 0.9e1 * (tau1 / t271 / r1 - t274 / 0.8e1) * t29 * t33
t298 = 0.1e5 < t296
t299 = lax_cond(t298, t296, 0.1e5)
t300 = t299 ** 2
t306 = t300 ** 2
t310 = lax_cond(t298, 0.1e5, t296)
t311 = t310 ** 2
t312 = 0.1e1 - t311
t313 = t312 ** 2
t315 = t311 * t310
t322 = lax_cond(0.1e5 <= t296, -0.1e1 / 0.4e1 + 0.3e1 / 0.4e1 / t300 + 0.1e1 / t300 / t299 / 0.16e2 - 0.3e1 / 0.4e1 / t306, t313 * t312 / (0.1e1 + t315 * (0.1e1 + 0.4e1 * t315)))
t323 = t322 ** 2
t324 = t323 * t322
t325 = t323 ** 2
t326 = t325 * t324
t328 = t325 * t322
t334 = t325 * t323
t336 = t284 * t282
t338 = t283 * t282
t340 = t284 * t338
t344 = -0.1e1 / 0.2e1 + 0.3e1 / 0.2e1 * t283
t347 = 0.3e1 / 0.8e1 + 0.35e2 / 0.8e1 * t325 - 0.15e2 / 0.4e1 * t323
t351 = -0.1e1 / 0.2e1 + 0.3e1 / 0.2e1 * t323
t354 = -0.57084476241712602813e-1 * t284 - 0.38230940935406268094e0 * t283 + 0.73000610738035552688e-1 * t287 - 0.54303814303104071062e-1 * t326 + 0.52279783829707640062e-1 * t328 - 0.5923137049970073438e-2 * t324 + 0.19451907596748125344e0 * t322 - 0.12287293765057329462e-1 * t325 + 0.63559222793315408625e-2 * t323 + 0.44142553981357691475e-2 * t334 + 0.50197247070683313037e-1 * t336 - 0.8047507298914579188e-2 * t338 - 0.40204197854033482912e-1 * t340 - 0.11145877912279910870e-1 * t280 + 0.3180493235941731e-3 * t344 * t347 - 0.835331263170036e-3 * t344 * t351
t357 = 0.5e1 / 0.2e1 * t324 - 0.3e1 / 0.2e1 * t322
t366 = 0.429e3 / 0.16e2 * t326 - 0.693e3 / 0.16e2 * t328 + 0.315e3 / 0.16e2 * t324 - 0.35e2 / 0.16e2 * t322
t372 = 0.63e2 / 0.8e1 * t328 - 0.35e2 / 0.4e1 * t324 + 0.15e2 / 0.8e1 * t322
t378 = -0.5e1 / 0.16e2 + 0.231e3 / 0.16e2 * t334 - 0.315e3 / 0.16e2 * t325 + 0.105e3 / 0.16e2 * t323
t391 = 0.3e1 / 0.8e1 + 0.35e2 / 0.8e1 * t284 - 0.15e2 / 0.4e1 * t283
t400 = 0.5e1 / 0.2e1 * t338 - t280 / 0.8e1 + 0.3e1 / 0.2e1
t409 = -0.8670535705479461e-3 * t344 * t357 - 0.13135604251829597e-1 * t344 * t322 + 0.23160016166370034e-2 * t282 * t366 + 0.16437722411542371e-2 * t282 * t372 + 0.5970286163074767e-3 * t282 * t378 + 0.50995906979556666e-2 * t282 * t347 + 0.24977311122498513e-2 * t282 * t357 + 0.12131628073942294e0 * t282 * t322 + 0.12341314639045392e-2 * t282 * t351 - 0.14878680171769923e-2 * t391 * t351 - 0.2571281595426713e-3 * t391 * t357 - 0.21100890252897446e-2 * t391 * t322 + 0.4308565933608885e-3 * t400 * t366 - 0.19375881298946268e-3 * t400 * t372 - 0.689695394243961e-3 * t400 * t378 - 0.4704436332280876e-2 * t400 * t347
t426 = 0.63e2 / 0.8e1 * t336 - 0.35e2 / 0.4e1 * t338 + 0.5e1 / 0.32e2 * t280 - 0.15e2 / 0.8e1
t448 = -0.5e1 / 0.16e2 + 0.231e3 / 0.16e2 * t287 - 0.315e3 / 0.16e2 * t284 + 0.105e3 / 0.16e2 * t283
t451 = 0.27822064319562786e-2 * t400 * t357 - 0.7823588139015819e-4 * t400 * t351 - 0.16823429546012295e-1 * t400 * t322 + 0.18939021743243079e-3 * t344 * t366 - 0.9048853909642742e-3 * t344 * t378 + 0.8482767148525194e-4 * t344 * t372 - 0.10249162124576494e-2 * t426 * t347 - 0.38541498256550073e-2 * t426 * t372 - 0.3656012084198544e-4 * t426 * t357 + 0.5061925051098745e-2 * t426 * t351 - 0.16609256494831233e-2 * t426 * t322 - 0.1792697304428732e-4 * t391 * t366 + 0.1331797359718674e-3 * t391 * t378 - 0.7261106354828029e-4 * t391 * t372 + 0.9891355730978566e-3 * t391 * t347 - 0.18156466410673526e-3 * t448 * t366
t472 = 0.429e3 / 0.16e2 * t340 - 0.693e3 / 0.16e2 * t336 + 0.315e3 / 0.16e2 * t338 - 0.35e2 / 0.192e3 * t280 + 0.35e2 / 0.16e2
t487 = 0.13669196781387441795e1 + 0.1864317026752979e-2 * t448 * t378 - 0.31296536914037784e-2 * t448 * t372 + 0.8367073496483024e-3 * t448 * t347 - 0.7631605623646023e-2 * t448 * t351 - 0.9195715678311926e-2 * t448 * t357 + 0.28206838819829017e-2 * t448 * t322 - 0.5194058669188706e-3 * t426 * t366 - 0.7555456486598222e-2 * t426 * t378 - 0.19095139973664826e-3 * t472 * t378 - 0.29476504977320184e-3 * t472 * t366 + 0.38758929812102785e-2 * t472 * t372 - 0.31389079758955066e-3 * t472 * t347 + 0.10726279571787276e-1 * t472 * t357 - 0.1006770315965861e-1 * t472 * t351 + 0.17309630990864668e-3 * t472 * t322
t493 = lax_cond(r1 <= p_a_dens_threshold, 0, -0.3e1 / 0.8e1 * t5 * t267 * t27 * (t354 + t409 + t451 + t487))
res = t259 + t493
" unpol "t3 = 3 ** (0.1e1 / 0.3e1)
t4 = math.pi ** (0.1e1 / 0.3e1)
t7 = 0.1e1 <= p_a_zeta_threshold
t8 = p_a_zeta_threshold - 0.1e1
t10 = lax_cond(t7, -t8, 0)
t11 = lax_cond(t7, t8, t10)
t12 = t11 + 0.1e1
t14 = p_a_zeta_threshold ** (0.1e1 / 0.3e1)
t16 = t12 ** (0.1e1 / 0.3e1)
t18 = lax_cond(t12 <= p_a_zeta_threshold, t14 * p_a_zeta_threshold, t16 * t12)
t19 = r0 ** (0.1e1 / 0.3e1)
t21 = 6 ** (0.1e1 / 0.3e1)
t22 = math.pi ** 2
t23 = t22 ** (0.1e1 / 0.3e1)
t24 = t23 ** 2
t25 = 0.1e1 / t24
t26 = t21 * t25
t28 = 2 ** (0.1e1 / 0.3e1)
t29 = t28 ** 2
t30 = r0 ** 2
t31 = t19 ** 2
t33 = 0.1e1 / t31 / t30
t36 = s0 * t29 * t33
t42 = t26 * s0 * t29 * t33 / (0.65124e1 + t26 * t36 / 0.24e2)
t44 = t42 / 0.12e2 - 0.1e1
t45 = t44 ** 2
t46 = t45 ** 2
t49 = t46 * t45
t59 = 0.5e1 / 0.9e1 * (tau0 * t29 / t31 / r0 - t36 / 0.8e1) * t21 * t25
t61 = 0.1e5 < t59
t62 = lax_cond(t61, t59, 0.1e5)
t63 = t62 ** 2
t69 = t63 ** 2
t73 = lax_cond(t61, 0.1e5, t59)
t74 = t73 ** 2
t75 = 0.1e1 - t74
t76 = t75 ** 2
t78 = t74 * t73
t85 = lax_cond(0.1e5 <= t59, 0.3e1 / 0.4e1 / t63 + 0.1e1 / t63 / t62 / 0.16e2 - 0.3e1 / 0.4e1 / t69 - 0.1e1 / 0.4e1, t76 * t75 / (0.1e1 + t78 * (0.1e1 + 0.4e1 * t78)))
t86 = t85 ** 2
t87 = t86 * t85
t88 = t86 ** 2
t89 = t88 * t87
t91 = t88 * t85
t97 = t88 * t86
t99 = t45 * t44
t101 = t46 * t44
t103 = t46 * t99
t107 = 0.5e1 / 0.2e1 * t87 - 0.3e1 / 0.2e1 * t85
t112 = 0.3e1 / 0.8e1 + 0.35e2 / 0.8e1 * t88 - 0.15e2 / 0.4e1 * t86
t118 = 0.63e2 / 0.8e1 * t91 - 0.35e2 / 0.4e1 * t87 + 0.15e2 / 0.8e1 * t85
t121 = -0.57084476241712602813e-1 * t46 - 0.38230940935406268094e0 * t45 + 0.73000610738035552688e-1 * t49 - 0.54303814303104071062e-1 * t89 + 0.52279783829707640062e-1 * t91 - 0.5923137049970073438e-2 * t87 + 0.19451907596748125344e0 * t85 - 0.12287293765057329462e-1 * t88 + 0.63559222793315408625e-2 * t86 + 0.44142553981357691475e-2 * t97 - 0.8047507298914579188e-2 * t99 + 0.50197247070683313037e-1 * t101 - 0.40204197854033482912e-1 * t103 + 0.24977311122498513e-2 * t44 * t107 + 0.50995906979556666e-2 * t44 * t112 + 0.16437722411542371e-2 * t44 * t118
t126 = 0.429e3 / 0.16e2 * t89 - 0.693e3 / 0.16e2 * t91 + 0.315e3 / 0.16e2 * t87 - 0.35e2 / 0.16e2 * t85
t130 = -0.1e1 / 0.2e1 + 0.3e1 / 0.2e1 * t45
t134 = -0.1e1 / 0.2e1 + 0.3e1 / 0.2e1 * t86
t146 = -0.5e1 / 0.16e2 + 0.231e3 / 0.16e2 * t97 - 0.315e3 / 0.16e2 * t88 + 0.105e3 / 0.16e2 * t86
t153 = 0.5e1 / 0.2e1 * t99 - t42 / 0.8e1 + 0.3e1 / 0.2e1
t168 = 0.3e1 / 0.8e1 + 0.35e2 / 0.8e1 * t46 - 0.15e2 / 0.4e1 * t45
t173 = 0.23160016166370034e-2 * t44 * t126 - 0.13135604251829597e-1 * t130 * t85 - 0.835331263170036e-3 * t130 * t134 - 0.8670535705479461e-3 * t130 * t107 + 0.3180493235941731e-3 * t130 * t112 + 0.8482767148525194e-4 * t130 * t118 - 0.9048853909642742e-3 * t130 * t146 + 0.18939021743243079e-3 * t130 * t126 - 0.16823429546012295e-1 * t153 * t85 - 0.7823588139015819e-4 * t153 * t134 + 0.27822064319562786e-2 * t153 * t107 - 0.4704436332280876e-2 * t153 * t112 + 0.12131628073942294e0 * t44 * t85 + 0.12341314639045392e-2 * t44 * t134 - 0.1792697304428732e-4 * t168 * t126 + 0.1331797359718674e-3 * t168 * t146
t196 = -0.5e1 / 0.16e2 + 0.231e3 / 0.16e2 * t49 - 0.315e3 / 0.16e2 * t46 + 0.105e3 / 0.16e2 * t45
t204 = 0.63e2 / 0.8e1 * t101 - 0.35e2 / 0.4e1 * t99 + 0.5e1 / 0.32e2 * t42 - 0.15e2 / 0.8e1
t215 = -0.7261106354828029e-4 * t168 * t118 - 0.2571281595426713e-3 * t168 * t107 + 0.9891355730978566e-3 * t168 * t112 - 0.14878680171769923e-2 * t168 * t134 - 0.21100890252897446e-2 * t168 * t85 - 0.689695394243961e-3 * t153 * t146 + 0.4308565933608885e-3 * t153 * t126 - 0.19375881298946268e-3 * t153 * t118 + 0.5970286163074767e-3 * t44 * t146 - 0.7631605623646023e-2 * t196 * t134 + 0.28206838819829017e-2 * t196 * t85 - 0.5194058669188706e-3 * t204 * t126 - 0.38541498256550073e-2 * t204 * t118 - 0.7555456486598222e-2 * t204 * t146 - 0.10249162124576494e-2 * t204 * t112 - 0.3656012084198544e-4 * t204 * t107
t224 = 0.429e3 / 0.16e2 * t103 - 0.693e3 / 0.16e2 * t101 + 0.315e3 / 0.16e2 * t99 - 0.35e2 / 0.192e3 * t42 + 0.35e2 / 0.16e2
t250 = 0.13669196781387441795e1 + 0.5061925051098745e-2 * t204 * t134 - 0.16609256494831233e-2 * t204 * t85 + 0.10726279571787276e-1 * t224 * t107 - 0.1006770315965861e-1 * t224 * t134 + 0.17309630990864668e-3 * t224 * t85 - 0.18156466410673526e-3 * t196 * t126 + 0.1864317026752979e-2 * t196 * t146 - 0.31296536914037784e-2 * t196 * t118 - 0.9195715678311926e-2 * t196 * t107 + 0.8367073496483024e-3 * t196 * t112 - 0.19095139973664826e-3 * t224 * t146 - 0.29476504977320184e-3 * t224 * t126 + 0.38758929812102785e-2 * t224 * t118 - 0.31389079758955066e-3 * t224 * t112 - 0.11145877912279910870e-1 * t42
t256 = lax_cond(r0 / 0.2e1 <= p_a_dens_threshold, 0, -0.3e1 / 0.8e1 * t3 / t4 * t18 * t19 * (t121 + t173 + t215 + t250))
res = 0.2e1 * t256
"

/- gen_repo/impl/prebuilt/pol/mgga_x_vt84.py and gen_repo/impl/prebuilt/unpol/mgga_x_vt84.py -/
formula mgga_x_vt84 pol "t2 = 3 ** (0.1e1 / 0.3e1)
t3 = math.pi ** (0.1e1 / 0.3e1)
t5 = t2 / t3
t6 = r0 + r1
t7 = 0.1e1 / t6
t10 = 0.2e1 * r0 * t7 <= p_a_zeta_threshold
t11 = p_a_zeta_threshold - 0.1e1
t14 = 0.2e1 * r1 * t7 <= p_a_zeta_threshold
t15 = -t11
t17 = (r0 - r1) * t7
t18 = lax_cond(t14, t15, t17)
t19 = lax_cond(t10, t11, t18)
t20 = 0.1e1 + t19
t22 = p_a_zeta_threshold ** (0.1e1 / 0.3e1)
t23 = t22 * p_a_zeta_threshold
t24 = t20 ** (0.1e1 / 0.3e1)
t26 = lax_cond(t20 <= p_a_zeta_threshold, t23, t24 * t20)
t27 = t6 ** (0.1e1 / 0.3e1)
t29 = s0 ** 2
t30 = t29 * s0
t31 = r0 ** 2
t35 = tau0 ** 2
t41 = t29 / t31 / t35
t44 = (0.1e1 + t41 / 0.64e2) ** 2
t50 = 6 ** (0.1e1 / 0.3e1)
t52 = math.pi ** 2
t53 = t52 ** (0.1e1 / 0.3e1)
t54 = t53 ** 2
t55 = 0.1e1 / t54
t57 = r0 ** (0.1e1 / 0.3e1)
t58 = t57 ** 2
t60 = 0.1e1 / t58 / t31
t67 = s0 * t60
t70 = (tau0 / t58 / r0 - t67 / 0.8e1) * t50
t73 = 0.5e1 / 0.9e1 * t70 * t55 - 0.1e1
t78 = math.sqrt(0.1e1 + 0.22222222222222222222e0 * t70 * t55 * t73)
t82 = t50 * t55
t83 = t82 * t67
t85 = 0.9e1 / 0.20e2 * t73 / t78 + t83 / 0.36e2
t86 = t85 ** 2
t89 = t50 ** 2
t92 = t89 / t53 / t52
t93 = t31 ** 2
t98 = t92 * t29 / t57 / t93 / r0
t101 = math.sqrt(0.162e3 * t41 + 0.50e2 * t98)
t106 = t52 ** 2
t107 = 0.1e1 / t106
t109 = t93 ** 2
t113 = (0.10e2 / 0.81e2 + 0.41982617187500000000e-2 * t30 / t31 / r0 / t35 / tau0 / t44) * t50 * t55 * s0 * t60 / 0.24e2 + 0.146e3 / 0.2025e4 * t86 - 0.73e2 / 0.97200e5 * t85 * t101 + 0.26505934954444613795e-4 * t98 + 0.19577914932045745128e-2 * t41 + 0.10647076474622770919e-3 * t107 * t30 / t109
t116 = (0.1e1 + 0.58733744796137235383e-1 * t83) ** 2
t118 = t113 / t116
t120 = math.exp(-0.18630000000000000000e-3 * t118)
t125 = t113 ** 2
t126 = t116 ** 2
t130 = math.exp(-0.15090300000000000000e-2 * t125 / t126)
t141 = lax_cond(r0 <= p_a_dens_threshold, 0, -0.3e1 / 0.8e1 * t5 * t26 * t27 * (0.1e1 + t118 * t120 / (0.1e1 + t118) + (0.1e1 - t130) * (0.10e2 / 0.81e2 / t113 * t116 - 0.1e1)))
t143 = lax_cond(t10, t15, -t17)
t144 = lax_cond(t14, t11, t143)
t145 = 0.1e1 + t144
t147 = t145 ** (0.1e1 / 0.3e1)
t149 = lax_cond(t145 <= p_a_zeta_threshold, t23, t147 * t145)
t151 = s2 ** 2
t152 = t151 * s2
t153 = r1 ** 2
t157 = tau1 ** 2
t163 = t151 / t153 / t157
t166 = (0.1e1 + t163 / 0.64e2) ** 2
t174 = r1 ** (0.1e1 / 0.3e1)
t175 = t174 ** 2
t177 = 0.1e1 / t175 / t153
t184 = s2 * t177
t187 = (tau1 / t175 / r1 - t184 / 0.8e1) * t50
t190 = 0.5e1 / 0.9e1 * t187 * t55 - 0.1e1
t195 = math.sqrt(0.1e1 + 0.22222222222222222222e0 * t187 * t55 * t190)
t199 = t82 * t184
t201 = 0.9e1 / 0.20e2 * t190 / t195 + t199 / 0.36e2
t202 = t201 ** 2
t205 = t153 ** 2
t210 = t92 * t151 / t174 / t205 / r1
t213 = math.sqrt(0.162e3 * t163 + 0.50e2 * t210)
t219 = t205 ** 2
t223 = (0.10e2 / 0.81e2 + 0.41982617187500000000e-2 * t152 / t153 / r1 / t157 / tau1 / t166) * t50 * t55 * s2 * t177 / 0.24e2 + 0.146e3 / 0.2025e4 * t202 - 0.73e2 / 0.97200e5 * t201 * t213 + 0.26505934954444613795e-4 * t210 + 0.19577914932045745128e-2 * t163 + 0.10647076474622770919e-3 * t107 * t152 / t219
t226 = (0.1e1 + 0.58733744796137235383e-1 * t199) ** 2
t228 = t223 / t226
t230 = math.exp(-0.18630000000000000000e-3 * t228)
t235 = t223 ** 2
t236 = t226 ** 2
t240 = math.exp(-0.15090300000000000000e-2 * t235 / t236)
t251 = lax_cond(r1 <= p_a_dens_threshold, 0, -0.3e1 / 0.8e1 * t5 * t149 * t27 * (0.1e1 + t228 * t230 / (0.1e1 + t228) + (0.1e1 - t240) * (0.10e2 / 0.81e2 / t223 * t226 - 0.1e1)))
res = t141 + t251
" unpol "t3 = 3 ** (0.1e1 / 0.3e1)
t4 = math.pi ** (0.1e1 / 0.3e1)
t7 = 0.1e1 <= p_a_zeta_threshold
t8 = p_a_zeta_threshold - 0.1e1
t10 = lax_cond(t7, -t8, 0)
t11 = lax_cond(t7, t8, t10)
t12 = 0.1e1 + t11
t14 = p_a_zeta_threshold ** (0.1e1 / 0.3e1)
t16 = t12 ** (0.1e1 / 0.3e1)
t18 = lax_cond(t12 <= p_a_zeta_threshold, t14 * p_a_zeta_threshold, t16 * t12)
t19 = r0 ** (0.1e1 / 0.3e1)
t21 = s0 ** 2
t22 = t21 * s0
t23 = r0 ** 2
t27 = tau0 ** 2
t33 = t21 / t23 / t27
t36 = (0.1e1 + t33 / 0.64e2) ** 2
t42 = 6 ** (0.1e1 / 0.3e1)
t44 = math.pi ** 2
t45 = t44 ** (0.1e1 / 0.3e1)
t46 = t45 ** 2
t47 = 0.1e1 / t46
t49 = 2 ** (0.1e1 / 0.3e1)
t50 = t49 ** 2
t52 = t19 ** 2
t55 = s0 * t50 / t52 / t23
t64 = (tau0 * t50 / t52 / r0 - t55 / 0.8e1) * t42
t67 = 0.5e1 / 0.9e1 * t64 * t47 - 0.1e1
t72 = math.sqrt(0.1e1 + 0.22222222222222222222e0 * t64 * t47 * t67)
t77 = t42 * t47 * t55
t79 = 0.9e1 / 0.20e2 * t67 / t72 + t77 / 0.36e2
t80 = t79 ** 2
t83 = t42 ** 2
t88 = t23 ** 2
t93 = t83 / t45 / t44 * t21 * t49 / t19 / t88 / r0
t96 = math.sqrt(0.162e3 * t33 + 0.100e3 * t93)
t101 = t44 ** 2
t104 = t88 ** 2
t108 = (0.10e2 / 0.81e2 + 0.41982617187500000000e-2 * t22 / t23 / r0 / t27 / tau0 / t36) * t42 * t47 * t55 / 0.24e2 + 0.146e3 / 0.2025e4 * t80 - 0.73e2 / 0.97200e5 * t79 * t96 + 0.53011869908889227590e-4 * t93 + 0.19577914932045745128e-2 * t33 + 0.42588305898491083676e-3 / t101 * t22 / t104
t111 = (0.1e1 + 0.58733744796137235383e-1 * t77) ** 2
t113 = t108 / t111
t115 = math.exp(-0.18630000000000000000e-3 * t113)
t120 = t108 ** 2
t121 = t111 ** 2
t125 = math.exp(-0.15090300000000000000e-2 * t120 / t121)
t136 = lax_cond(r0 / 0.2e1 <= p_a_dens_threshold, 0, -0.3e1 / 0.8e1 * t3 / t4 * t18 * t19 * (0.1e1 + t113 * t115 / (0.1e1 + t113) + (0.1e1 - t125) * (0.10e2 / 0.81e2 / t108 * t111 - 0.1e1)))
res = 0.2e1 * t136
"

/- gen_repo/impl/prebuilt/pol/mgga_xc_b97mv.py and gen_repo/impl/prebuilt/unpol/mgga_xc_b97mv.py -/
formula mgga_xc_b97mv pol "t1 = r0 - r1
t2 = r0 + r1
t4 = t1 / t2
t5 = 0.1e1 + t4
t6 = t5 <= p_a_zeta_threshold
t7 = lax_cond(t6, p_a_zeta_threshold, t5)
t8 = r0 <= p_a_dens_threshold
t9 = 3 ** (0.1e1 / 0.3e1)
t10 = math.pi ** (0.1e1 / 0.3e1)
t12 = t9 / t10
t14 = p_a_zeta_threshold ** (0.1e1 / 0.3e1)
t15 = t14 * p_a_zeta_threshold
t16 = 2 ** (0.1e1 / 0.3e1)
t18 = lax_cond(0.2e1 <= p_a_zeta_threshold, t15, 0.2e1 * t16)
t19 = t2 ** (0.1e1 / 0.3e1)
t20 = t18 * t19
t23 = (t2 / r0) ** (0.1e1 / 0.3e1)
t24 = 0.1e1 / t23
t28 = lax_cond(t8, 0, -0.3e1 / 0.8e1 * t12 * t20 * t24)
t29 = 0.0e0 <= p_a_dens_threshold
t31 = lax_cond(0.0e0 <= p_a_zeta_threshold, t15, 0)
t32 = t31 * t19
t36 = lax_cond(t29, 0, -0.3e1 / 0.8e1 * t12 * t32 * t24)
t39 = params_a_c_x[0]
t40 = params_a_c_x[1]
t42 = r0 ** 2
t43 = r0 ** (0.1e1 / 0.3e1)
t44 = t43 ** 2
t46 = 0.1e1 / t44 / t42
t47 = s0 * t46
t49 = 0.1e1 + 0.4e-2 * t47
t50 = 0.1e1 / t49
t54 = params_a_c_x[2]
t55 = s0 ** 2
t57 = t42 ** 2
t60 = 0.1e1 / t43 / t57 / r0
t61 = t49 ** 2
t66 = params_a_c_x[3]
t67 = 6 ** (0.1e1 / 0.3e1)
t68 = t67 ** 2
t69 = math.pi ** 2
t70 = t69 ** (0.1e1 / 0.3e1)
t71 = t70 ** 2
t72 = t68 * t71
t73 = 0.3e1 / 0.10e2 * t72
t76 = tau0 / t44 / r0
t77 = t73 - t76
t79 = t73 + t76
t80 = 0.1e1 / t79
t82 = params_a_c_x[4]
t91 = 0.1e1 - t4
t92 = t91 <= p_a_zeta_threshold
t93 = lax_cond(t92, p_a_zeta_threshold, t91)
t94 = r1 <= p_a_dens_threshold
t97 = (t2 / r1) ** (0.1e1 / 0.3e1)
t98 = 0.1e1 / t97
t102 = lax_cond(t94, 0, -0.3e1 / 0.8e1 * t12 * t20 * t98)
t106 = lax_cond(t29, 0, -0.3e1 / 0.8e1 * t12 * t32 * t98)
t110 = r1 ** 2
t111 = r1 ** (0.1e1 / 0.3e1)
t112 = t111 ** 2
t114 = 0.1e1 / t112 / t110
t115 = s2 * t114
t117 = 0.1e1 + 0.4e-2 * t115
t118 = 0.1e1 / t117
t122 = s2 ** 2
t124 = t110 ** 2
t127 = 0.1e1 / t111 / t124 / r1
t128 = t117 ** 2
t135 = tau1 / t112 / r1
t136 = t73 - t135
t138 = t73 + t135
t139 = 0.1e1 / t138
t149 = jnp.logical_or(t8, t6)
t151 = (0.1e1 / math.pi) ** (0.1e1 / 0.3e1)
t152 = t9 * t151
t153 = 4 ** (0.1e1 / 0.3e1)
t154 = t153 ** 2
t155 = t152 * t154
t156 = 0.1e1 / t19
t157 = t156 * t16
t158 = 0.1e1 / t14
t159 = t5 ** (0.1e1 / 0.3e1)
t161 = lax_cond(t6, t158, 0.1e1 / t159)
t163 = t155 * t157 * t161
t166 = math.sqrt(t163)
t169 = t163 ** 0.15e1
t171 = t9 ** 2
t172 = t151 ** 2
t173 = t171 * t172
t174 = t173 * t153
t175 = t19 ** 2
t176 = 0.1e1 / t175
t177 = t16 ** 2
t178 = t176 * t177
t179 = t161 ** 2
t181 = t174 * t178 * t179
t187 = math.log(0.1e1 + 0.16081979498692535067e2 / (0.37978500000000000000e1 * t166 + 0.89690000000000000000e0 * t163 + 0.20477500000000000000e0 * t169 + 0.12323500000000000000e0 * t181))
t189 = 0.621814e-1 * (0.1e1 + 0.53425000000000000000e-1 * t163) * t187
t193 = 0.1e1 / (0.2e1 * t16 - 0.2e1)
t194 = (t18 + t31 - 0.2e1) * t193
t205 = math.log(0.1e1 + 0.32163958997385070134e2 / (0.70594500000000000000e1 * t166 + 0.15494250000000000000e1 * t163 + 0.42077500000000000000e0 * t169 + 0.15629250000000000000e0 * t181))
t218 = math.log(0.1e1 + 0.29608749977793437516e2 / (0.51785000000000000000e1 * t166 + 0.90577500000000000000e0 * t163 + 0.11003250000000000000e0 * t169 + 0.12417750000000000000e0 * t181))
t219 = (0.1e1 + 0.27812500000000000000e-1 * t163) * t218
t228 = lax_cond(t149, 0, t7 * (-t189 + t194 * (-0.3109070e-1 * (0.1e1 + 0.51370000000000000000e-1 * t163) * t205 + t189 - 0.19751673498613801407e-1 * t219) + 0.19751673498613801407e-1 * t194 * t219) / 0.2e1)
t229 = params_a_c_ss[0]
t230 = params_a_c_ss[1]
t234 = (0.1e1 + 0.2e0 * t47) ** 2
t235 = 0.1e1 / t234
t239 = params_a_c_ss[2]
t242 = params_a_c_ss[3]
t243 = t77 ** 2
t246 = t79 ** 2
t251 = t55 * t60 * t235
t254 = params_a_c_ss[4]
t255 = t243 ** 2
t257 = t246 ** 2
t264 = jnp.logical_or(t94, t92)
t265 = t91 ** (0.1e1 / 0.3e1)
t267 = lax_cond(t92, t158, 0.1e1 / t265)
t269 = t155 * t157 * t267
t272 = math.sqrt(t269)
t275 = t269 ** 0.15e1
t277 = t267 ** 2
t279 = t174 * t178 * t277
t285 = math.log(0.1e1 + 0.16081979498692535067e2 / (0.37978500000000000000e1 * t272 + 0.89690000000000000000e0 * t269 + 0.20477500000000000000e0 * t275 + 0.12323500000000000000e0 * t279))
t287 = 0.621814e-1 * (0.1e1 + 0.53425000000000000000e-1 * t269) * t285
t298 = math.log(0.1e1 + 0.32163958997385070134e2 / (0.70594500000000000000e1 * t272 + 0.15494250000000000000e1 * t269 + 0.42077500000000000000e0 * t275 + 0.15629250000000000000e0 * t279))
t311 = math.log(0.1e1 + 0.29608749977793437516e2 / (0.51785000000000000000e1 * t272 + 0.90577500000000000000e0 * t269 + 0.11003250000000000000e0 * t275 + 0.12417750000000000000e0 * t279))
t312 = (0.1e1 + 0.27812500000000000000e-1 * t269) * t311
t321 = lax_cond(t264, 0, t93 * (-t287 + t194 * (-0.3109070e-1 * (0.1e1 + 0.51370000000000000000e-1 * t269) * t298 + t287 - 0.19751673498613801407e-1 * t312) + 0.19751673498613801407e-1 * t194 * t312) / 0.2e1)
t325 = (0.1e1 + 0.2e0 * t115) ** 2
t326 = 0.1e1 / t325
t332 = t136 ** 2
t335 = t138 ** 2
t340 = t122 * t127 * t326
t343 = t332 ** 2
t345 = t335 ** 2
t353 = t152 * t154 * t156
t356 = math.sqrt(t353)
t359 = t353 ** 0.15e1
t362 = t173 * t153 * t176
t368 = math.log(0.1e1 + 0.16081979498692535067e2 / (0.37978500000000000000e1 * t356 + 0.89690000000000000000e0 * t353 + 0.20477500000000000000e0 * t359 + 0.12323500000000000000e0 * t362))
t370 = 0.621814e-1 * (0.1e1 + 0.53425000000000000000e-1 * t353) * t368
t371 = t1 ** 2
t372 = t371 ** 2
t373 = t2 ** 2
t374 = t373 ** 2
t378 = lax_cond(t6, t15, t159 * t5)
t380 = lax_cond(t92, t15, t265 * t91)
t382 = (t378 + t380 - 0.2e1) * t193
t393 = math.log(0.1e1 + 0.32163958997385070134e2 / (0.70594500000000000000e1 * t356 + 0.15494250000000000000e1 * t353 + 0.42077500000000000000e0 * t359 + 0.15629250000000000000e0 * t362))
t406 = math.log(0.1e1 + 0.29608749977793437516e2 / (0.51785000000000000000e1 * t356 + 0.90577500000000000000e0 * t353 + 0.11003250000000000000e0 * t359 + 0.12417750000000000000e0 * t362))
t407 = (0.1e1 + 0.27812500000000000000e-1 * t353) * t406
t417 = t47 + t115
t421 = 0.1e1 + 0.30000000000000000000e-2 * t47 + 0.30000000000000000000e-2 * t115
t426 = t417 ** 2
t429 = t421 ** 2
t437 = 0.3e1 / 0.10e2 * t72 * (t76 + t135)
t439 = 0.2e1 * t76 * t135
t440 = t437 - t439
t442 = t437 + t439
t446 = t440 ** 2
t449 = t442 ** 2
res = t7 * (t28 + t36) * (t39 + 0.4e-2 * t40 * s0 * t46 * t50 + 0.16e-4 * t54 * t55 * t60 / t61 + t66 * t77 * t80 + 0.4e-2 * t82 * t77 * t80 * t47 * t50) / 0.2e1 + t93 * (t102 + t106) * (t39 + 0.4e-2 * t40 * s2 * t114 * t118 + 0.16e-4 * t54 * t122 * t127 / t128 + t66 * t136 * t139 + 0.4e-2 * t82 * t136 * t139 * t115 * t118) / 0.2e1 + t228 * (t229 + 0.4e-1 * t230 * t55 * t60 * t235 + t239 * t77 * t80 + 0.4e-1 * t242 * t243 * t77 / t246 / t79 * t251 + 0.4e-1 * t254 * t255 / t257 * t251) + t321 * (t229 + 0.4e-1 * t230 * t122 * t127 * t326 + t239 * t136 * t139 + 0.4e-1 * t242 * t332 * t136 / t335 / t138 * t340 + 0.4e-1 * t254 * t343 / t345 * t340) + (-t370 + t372 / t374 * t382 * (-0.3109070e-1 * (0.1e1 + 0.51370000000000000000e-1 * t353) * t393 + t370 - 0.19751673498613801407e-1 * t407) + 0.19751673498613801407e-1 * t382 * t407 - t228 - t321) * (params_a_c_os[0] + 0.30000000000000000000e-2 * params_a_c_os[1] * t417 / t421 + 0.27000000000000000000e-7 * params_a_c_os[2] * t426 * t417 / t429 / t421 + params_a_c_os[3] * t440 / t442 + 0.90000000000000000000e-5 * params_a_c_os[4] * t446 * t440 / t449 / t442 * t426 / t429)
" unpol "t1 = 0.1e1 <= p_a_zeta_threshold
t2 = lax_cond(t1, p_a_zeta_threshold, 1)
t4 = r0 / 0.2e1 <= p_a_dens_threshold
t5 = 3 ** (0.1e1 / 0.3e1)
t6 = math.pi ** (0.1e1 / 0.3e1)
t8 = t5 / t6
t9 = 2 ** (0.1e1 / 0.3e1)
t10 = t9 ** 2
t12 = p_a_zeta_threshold ** (0.1e1 / 0.3e1)
t13 = t12 * p_a_zeta_threshold
t15 = lax_cond(0.2e1 <= p_a_zeta_threshold, t13, 0.2e1 * t9)
t17 = r0 ** (0.1e1 / 0.3e1)
t21 = lax_cond(t4, 0, -0.3e1 / 0.16e2 * t8 * t10 * t15 * t17)
t24 = lax_cond(0.0e0 <= p_a_zeta_threshold, t13, 0)
t29 = lax_cond(0.0e0 <= p_a_dens_threshold, 0, -0.3e1 / 0.16e2 * t8 * t10 * t24 * t17)
t35 = r0 ** 2
t36 = t17 ** 2
t38 = 0.1e1 / t36 / t35
t39 = t10 * t38
t40 = s0 * t10
t41 = t40 * t38
t43 = 0.1e1 + 0.4e-2 * t41
t44 = 0.1e1 / t43
t49 = s0 ** 2
t51 = t35 ** 2
t54 = 0.1e1 / t17 / t51 / r0
t55 = t9 * t54
t56 = t43 ** 2
t62 = 6 ** (0.1e1 / 0.3e1)
t63 = t62 ** 2
t64 = math.pi ** 2
t65 = t64 ** (0.1e1 / 0.3e1)
t66 = t65 ** 2
t67 = t63 * t66
t68 = 0.3e1 / 0.10e2 * t67
t72 = tau0 * t10 / t36 / r0
t73 = t68 - t72
t75 = t68 + t72
t76 = 0.1e1 / t75
t87 = jnp.logical_or(t4, t1)
t89 = (0.1e1 / math.pi) ** (0.1e1 / 0.3e1)
t90 = t5 * t89
t91 = 4 ** (0.1e1 / 0.3e1)
t92 = t91 ** 2
t94 = 0.1e1 / t17
t97 = lax_cond(t1, 0.1e1 / t12, 1)
t99 = t90 * t92 * t94 * t9 * t97
t102 = math.sqrt(t99)
t105 = t99 ** 0.15e1
t107 = t5 ** 2
t108 = t89 ** 2
t109 = t107 * t108
t111 = 0.1e1 / t36
t113 = t97 ** 2
t115 = t109 * t91 * t111 * t10 * t113
t121 = math.log(0.1e1 + 0.16081979498692535067e2 / (0.37978500000000000000e1 * t102 + 0.89690000000000000000e0 * t99 + 0.20477500000000000000e0 * t105 + 0.12323500000000000000e0 * t115))
t123 = 0.621814e-1 * (0.1e1 + 0.53425000000000000000e-1 * t99) * t121
t127 = 0.1e1 / (0.2e1 * t9 - 0.2e1)
t128 = (t15 + t24 - 0.2e1) * t127
t139 = math.log(0.1e1 + 0.32163958997385070134e2 / (0.70594500000000000000e1 * t102 + 0.15494250000000000000e1 * t99 + 0.42077500000000000000e0 * t105 + 0.15629250000000000000e0 * t115))
t152 = math.log(0.1e1 + 0.29608749977793437516e2 / (0.51785000000000000000e1 * t102 + 0.90577500000000000000e0 * t99 + 0.11003250000000000000e0 * t105 + 0.12417750000000000000e0 * t115))
t153 = (0.1e1 + 0.27812500000000000000e-1 * t99) * t152
t162 = lax_cond(t87, 0, t2 * (-t123 + t128 * (-0.3109070e-1 * (0.1e1 + 0.51370000000000000000e-1 * t99) * t139 + t123 - 0.19751673498613801407e-1 * t153) + 0.19751673498613801407e-1 * t128 * t153) / 0.2e1)
t168 = (0.1e1 + 0.2e0 * t41) ** 2
t169 = 0.1e1 / t168
t177 = t73 ** 2
t180 = t75 ** 2
t184 = t49 * t9
t186 = t184 * t54 * t169
t190 = t177 ** 2
t192 = t180 ** 2
t201 = t90 * t92 * t94
t204 = math.sqrt(t201)
t207 = t201 ** 0.15e1
t210 = t109 * t91 * t111
t216 = math.log(0.1e1 + 0.16081979498692535067e2 / (0.37978500000000000000e1 * t204 + 0.89690000000000000000e0 * t201 + 0.20477500000000000000e0 * t207 + 0.12323500000000000000e0 * t210))
t219 = lax_cond(t1, t13, 1)
t233 = math.log(0.1e1 + 0.29608749977793437516e2 / (0.51785000000000000000e1 * t204 + 0.90577500000000000000e0 * t201 + 0.11003250000000000000e0 * t207 + 0.12417750000000000000e0 * t210))
t243 = 0.1e1 + 0.6e-2 * t41
t251 = t51 ** 2
t253 = t243 ** 2
t261 = 0.3e1 / 0.5e1 * t67 * t72
t262 = tau0 ** 2
t268 = 0.4e1 * t262 * t9 / t17 / t35 / r0
t269 = t261 - t268
t271 = t261 + t268
t275 = t269 ** 2
t278 = t271 ** 2
res = t2 * (t21 + t29) * (params_a_c_x[0] + 0.4e-2 * params_a_c_x[1] * s0 * t39 * t44 + 0.32e-4 * params_a_c_x[2] * t49 * t55 / t56 + params_a_c_x[3] * t73 * t76 + 0.4e-2 * params_a_c_x[4] * t73 * t76 * t40 * t38 * t44) + 0.2e1 * t162 * (params_a_c_ss[0] + 0.8e-1 * params_a_c_ss[1] * t49 * t55 * t169 + params_a_c_ss[2] * t73 * t76 + 0.8e-1 * params_a_c_ss[3] * t177 * t73 / t180 / t75 * t186 + 0.8e-1 * params_a_c_ss[4] * t190 / t192 * t186) + (-0.621814e-1 * (0.1e1 + 0.53425000000000000000e-1 * t201) * t216 + 0.19751673498613801407e-1 * (0.2e1 * t219 - 0.2e1) * t127 * (0.1e1 + 0.27812500000000000000e-1 * t201) * t233 - 0.2e1 * t162) * (params_a_c_os[0] + 0.6e-2 * params_a_c_os[1] * s0 * t39 / t243 + 0.864e-6 * params_a_c_os[2] * t49 * s0 / t251 / t253 / t243 + params_a_c_os[3] * t269 / t271 + 0.72e-4 * params_a_c_os[4] * t275 * t269 / t278 / t271 * t184 * t54 / t253)
"

/- gen_repo/impl/prebuilt/pol/mgga_xc_b98.py and gen_repo/impl/prebuilt/unpol/mgga_xc_b98.py -/
formula mgga_xc_b98 pol "t1 = 3 ** (0.1e1 / 0.3e1)
t2 = math.pi ** (0.1e1 / 0.3e1)
t4 = t1 / t2
t5 = r0 + r1
t6 = 0.1e1 / t5
t7 = r0 * t6
t10 = p_a_zeta_threshold ** (0.1e1 / 0.3e1)
t11 = t10 * p_a_zeta_threshold
t12 = 2 ** (0.1e1 / 0.3e1)
t14 = t7 ** (0.1e1 / 0.3e1)
t18 = lax_cond(0.2e1 * t7 <= p_a_zeta_threshold, t11, 0.2e1 * t12 * r0 * t6 * t14)
t19 = t5 ** (0.1e1 / 0.3e1)
t21 = r0 ** (0.1e1 / 0.3e1)
t22 = t21 ** 2
t24 = 0.1e1 / t22 / r0
t26 = r0 ** 2
t34 = 6 ** (0.1e1 / 0.3e1)
t36 = math.pi ** 2
t37 = t36 ** (0.1e1 / 0.3e1)
t38 = t37 ** 2
t39 = 0.1e1 / t38
t40 = (tau0 * t24 - s0 / t22 / t26 / 0.8e1 - l0 * t24 / 0.4e1) * t34 * t39
t42 = 0.1e1 - 0.5e1 / 0.9e1 * t40
t43 = t42 ** 2
t45 = 0.1e1 + 0.121e-1 * t43
t46 = math.sqrt(t45)
t57 = r1 * t6
t61 = t57 ** (0.1e1 / 0.3e1)
t65 = lax_cond(0.2e1 * t57 <= p_a_zeta_threshold, t11, 0.2e1 * t12 * r1 * t6 * t61)
t67 = r1 ** (0.1e1 / 0.3e1)
t68 = t67 ** 2
t70 = 0.1e1 / t68 / r1
t72 = r1 ** 2
t81 = (tau1 * t70 - s2 / t68 / t72 / 0.8e1 - l1 * t70 / 0.4e1) * t34 * t39
t83 = 0.1e1 - 0.5e1 / 0.9e1 * t81
t84 = t83 ** 2
t86 = 0.1e1 + 0.121e-1 * t84
t87 = math.sqrt(t86)
t99 = r0 - r1
t100 = t99 * t6
t101 = 0.1e1 + t100
t102 = t101 <= p_a_zeta_threshold
t103 = jnp.logical_or(r0 <= p_a_dens_threshold, t102)
t104 = lax_cond(t102, p_a_zeta_threshold, t101)
t106 = (0.1e1 / math.pi) ** (0.1e1 / 0.3e1)
t107 = t1 * t106
t108 = 4 ** (0.1e1 / 0.3e1)
t109 = t108 ** 2
t110 = t107 * t109
t111 = 0.1e1 / t19
t112 = t111 * t12
t113 = 0.1e1 / t10
t114 = t101 ** (0.1e1 / 0.3e1)
t116 = lax_cond(t102, t113, 0.1e1 / t114)
t118 = t110 * t112 * t116
t121 = math.sqrt(t118)
t124 = t118 ** 0.15e1
t126 = t1 ** 2
t127 = t106 ** 2
t128 = t126 * t127
t129 = t128 * t108
t130 = t19 ** 2
t131 = 0.1e1 / t130
t132 = t12 ** 2
t133 = t131 * t132
t134 = t116 ** 2
t136 = t129 * t133 * t134
t142 = math.log(0.1e1 + 0.16081824322151104822e2 / (0.37978500000000000000e1 * t121 + 0.89690000000000000000e0 * t118 + 0.20477500000000000000e0 * t124 + 0.12323500000000000000e0 * t136))
t144 = 0.62182e-1 * (0.1e1 + 0.53425000000000000000e-1 * t118) * t142
t147 = lax_cond(0.2e1 <= p_a_zeta_threshold, t11, 0.2e1 * t12)
t149 = lax_cond(0.0e0 <= p_a_zeta_threshold, t11, 0)
t153 = 0.1e1 / (0.2e1 * t12 - 0.2e1)
t154 = (t147 + t149 - 0.2e1) * t153
t165 = math.log(0.1e1 + 0.32164683177870697974e2 / (0.70594500000000000000e1 * t121 + 0.15494250000000000000e1 * t118 + 0.42077500000000000000e0 * t124 + 0.15629250000000000000e0 * t136))
t178 = math.log(0.1e1 + 0.29608574643216675549e2 / (0.51785000000000000000e1 * t121 + 0.90577500000000000000e0 * t118 + 0.11003250000000000000e0 * t124 + 0.12417750000000000000e0 * t136))
t179 = (0.1e1 + 0.27812500000000000000e-1 * t118) * t178
t188 = lax_cond(t103, 0, t104 * (-t144 + t154 * (-0.31090e-1 * (0.1e1 + 0.51370000000000000000e-1 * t118) * t165 + t144 - 0.19751789702565206229e-1 * t179) + 0.19751789702565206229e-1 * t154 * t179) / 0.2e1)
t190 = 0.1e1 + 0.256e1 * t43
t191 = math.sqrt(t190)
t208 = 0.1e1 - t100
t209 = t208 <= p_a_zeta_threshold
t210 = jnp.logical_or(r1 <= p_a_dens_threshold, t209)
t211 = lax_cond(t209, p_a_zeta_threshold, t208)
t212 = t208 ** (0.1e1 / 0.3e1)
t214 = lax_cond(t209, t113, 0.1e1 / t212)
t216 = t110 * t112 * t214
t219 = math.sqrt(t216)
t222 = t216 ** 0.15e1
t224 = t214 ** 2
t226 = t129 * t133 * t224
t232 = math.log(0.1e1 + 0.16081824322151104822e2 / (0.37978500000000000000e1 * t219 + 0.89690000000000000000e0 * t216 + 0.20477500000000000000e0 * t222 + 0.12323500000000000000e0 * t226))
t234 = 0.62182e-1 * (0.1e1 + 0.53425000000000000000e-1 * t216) * t232
t245 = math.log(0.1e1 + 0.32164683177870697974e2 / (0.70594500000000000000e1 * t219 + 0.15494250000000000000e1 * t216 + 0.42077500000000000000e0 * t222 + 0.15629250000000000000e0 * t226))
t258 = math.log(0.1e1 + 0.29608574643216675549e2 / (0.51785000000000000000e1 * t219 + 0.90577500000000000000e0 * t216 + 0.11003250000000000000e0 * t222 + 0.12417750000000000000e0 * t226))
t259 = (0.1e1 + 0.27812500000000000000e-1 * t216) * t258
t268 = lax_cond(t210, 0, t211 * (-t234 + t154 * (-0.31090e-1 * (0.1e1 + 0.51370000000000000000e-1 * t216) * t245 + t234 - 0.19751789702565206229e-1 * t259) + 0.19751789702565206229e-1 * t154 * t259) / 0.2e1)
t270 = 0.1e1 + 0.256e1 * t84
t271 = math.sqrt(t270)
t288 = t107 * t109 * t111
t291 = math.sqrt(t288)
t294 = t288 ** 0.15e1
t297 = t128 * t108 * t131
t303 = math.log(0.1e1 + 0.16081824322151104822e2 / (0.37978500000000000000e1 * t291 + 0.89690000000000000000e0 * t288 + 0.20477500000000000000e0 * t294 + 0.12323500000000000000e0 * t297))
t305 = 0.62182e-1 * (0.1e1 + 0.53425000000000000000e-1 * t288) * t303
t306 = t99 ** 2
t307 = t306 ** 2
t308 = t5 ** 2
t309 = t308 ** 2
t313 = lax_cond(t102, t11, t114 * t101)
t315 = lax_cond(t209, t11, t212 * t208)
t317 = (t313 + t315 - 0.2e1) * t153
t328 = math.log(0.1e1 + 0.32164683177870697974e2 / (0.70594500000000000000e1 * t291 + 0.15494250000000000000e1 * t288 + 0.42077500000000000000e0 * t294 + 0.15629250000000000000e0 * t297))
t341 = math.log(0.1e1 + 0.29608574643216675549e2 / (0.51785000000000000000e1 * t291 + 0.90577500000000000000e0 * t288 + 0.11003250000000000000e0 * t294 + 0.12417750000000000000e0 * t297))
t342 = (0.1e1 + 0.27812500000000000000e-1 * t288) * t341
t352 = 0.1e1 - 0.5e1 / 0.18e2 * t40 - 0.5e1 / 0.18e2 * t81
t353 = t352 ** 2
t355 = 0.1e1 + 0.196e-1 * t353
t356 = math.sqrt(t355)
res = -0.3e1 / 0.8e1 * t4 * t18 * t19 * (0.8085e0 + 0.73502e-1 * t42 / t46 + 0.171820e-2 * t43 / t45) - 0.3e1 / 0.8e1 * t4 * t65 * t19 * (0.8085e0 + 0.73502e-1 * t83 / t87 + 0.171820e-2 * t84 / t86) + t188 * (0.2606e0 - 0.153728e1 * t42 / t191 + 0.2309888e1 * t43 / t190) * (0.1e1 - s0 / r0 / tau0 / 0.8e1) + t268 * (0.2606e0 - 0.153728e1 * t83 / t271 + 0.2309888e1 * t84 / t270) * (0.1e1 - s2 / r1 / tau1 / 0.8e1) + (-t305 + t307 / t309 * t317 * (-0.31090e-1 * (0.1e1 + 0.51370000000000000000e-1 * t288) * t328 + t305 - 0.19751789702565206229e-1 * t342) + 0.19751789702565206229e-1 * t317 * t342 - t188 - t268) * (0.12033e1 - 0.318038e0 * t352 / t356 + 0.1880816e-1 * t353 / t355)
" unpol "t1 = 3 ** (0.1e1 / 0.3e1)
t2 = math.pi ** (0.1e1 / 0.3e1)
t5 = 0.1e1 <= p_a_zeta_threshold
t6 = p_a_zeta_threshold ** (0.1e1 / 0.3e1)
t7 = t6 * p_a_zeta_threshold
t8 = lax_cond(t5, t7, 1)
t9 = r0 ** (0.1e1 / 0.3e1)
t11 = 2 ** (0.1e1 / 0.3e1)
t12 = t11 ** 2
t14 = t9 ** 2
t16 = 0.1e1 / t14 / r0
t19 = r0 ** 2
t28 = 6 ** (0.1e1 / 0.3e1)
t30 = math.pi ** 2
t31 = t30 ** (0.1e1 / 0.3e1)
t32 = t31 ** 2
t36 = 0.1e1 - 0.5e1 / 0.9e1 * (tau0 * t12 * t16 - s0 * t12 / t14 / t19 / 0.8e1 - l0 * t12 * t16 / 0.4e1) * t28 / t32
t37 = t36 ** 2
t39 = 0.1e1 + 0.121e-1 * t37
t40 = math.sqrt(t39)
t53 = jnp.logical_or(r0 / 0.2e1 <= p_a_dens_threshold, t5)
t54 = lax_cond(t5, p_a_zeta_threshold, 1)
t56 = (0.1e1 / math.pi) ** (0.1e1 / 0.3e1)
t57 = t1 * t56
t58 = 4 ** (0.1e1 / 0.3e1)
t59 = t58 ** 2
t61 = 0.1e1 / t9
t64 = lax_cond(t5, 0.1e1 / t6, 1)
t66 = t57 * t59 * t61 * t11 * t64
t69 = math.sqrt(t66)
t72 = t66 ** 0.15e1
t74 = t1 ** 2
t75 = t56 ** 2
t76 = t74 * t75
t78 = 0.1e1 / t14
t80 = t64 ** 2
t82 = t76 * t58 * t78 * t12 * t80
t88 = math.log(0.1e1 + 0.16081824322151104822e2 / (0.37978500000000000000e1 * t69 + 0.89690000000000000000e0 * t66 + 0.20477500000000000000e0 * t72 + 0.12323500000000000000e0 * t82))
t90 = 0.62182e-1 * (0.1e1 + 0.53425000000000000000e-1 * t66) * t88
t93 = lax_cond(0.2e1 <= p_a_zeta_threshold, t7, 0.2e1 * t11)
t95 = lax_cond(0.0e0 <= p_a_zeta_threshold, t7, 0)
t99 = 0.1e1 / (0.2e1 * t11 - 0.2e1)
t100 = (t93 + t95 - 0.2e1) * t99
t111 = math.log(0.1e1 + 0.32164683177870697974e2 / (0.70594500000000000000e1 * t69 + 0.15494250000000000000e1 * t66 + 0.42077500000000000000e0 * t72 + 0.15629250000000000000e0 * t82))
t124 = math.log(0.1e1 + 0.29608574643216675549e2 / (0.51785000000000000000e1 * t69 + 0.90577500000000000000e0 * t66 + 0.11003250000000000000e0 * t72 + 0.12417750000000000000e0 * t82))
t125 = (0.1e1 + 0.27812500000000000000e-1 * t66) * t124
t134 = lax_cond(t53, 0, t54 * (-t90 + t100 * (-0.31090e-1 * (0.1e1 + 0.51370000000000000000e-1 * t66) * t111 + t90 - 0.19751789702565206229e-1 * t125) + 0.19751789702565206229e-1 * t100 * t125) / 0.2e1)
t136 = 0.1e1 + 0.256e1 * t37
t137 = math.sqrt(t136)
t155 = t57 * t59 * t61
t158 = math.sqrt(t155)
t161 = t155 ** 0.15e1
t164 = t76 * t58 * t78
t170 = math.log(0.1e1 + 0.16081824322151104822e2 / (0.37978500000000000000e1 * t158 + 0.89690000000000000000e0 * t155 + 0.20477500000000000000e0 * t161 + 0.12323500000000000000e0 * t164))
t186 = math.log(0.1e1 + 0.29608574643216675549e2 / (0.51785000000000000000e1 * t158 + 0.90577500000000000000e0 * t155 + 0.11003250000000000000e0 * t161 + 0.12417750000000000000e0 * t164))
t193 = 0.1e1 + 0.196e-1 * t37
t194 = math.sqrt(t193)
res = -0.3e1 / 0.4e1 * t1 / t2 * t8 * t9 * (0.8085e0 + 0.73502e-1 * t36 / t40 + 0.171820e-2 * t37 / t39) + 0.2e1 * t134 * (0.2606e0 - 0.153728e1 * t36 / t137 + 0.2309888e1 * t37 / t136) * (0.1e1 - s0 / r0 / tau0 / 0.8e1) + (-0.62182e-1 * (0.1e1 + 0.53425000000000000000e-1 * t155) * t170 + 0.19751789702565206229e-1 * (0.2e1 * t8 - 0.2e1) * t99 * (0.1e1 + 0.27812500000000000000e-1 * t155) * t186 - 0.2e1 * t134) * (0.12033e1 - 0.318038e0 * t36 / t194 + 0.1880816e-1 * t37 / t193)
"

/- gen_repo/impl/prebuilt/pol/mgga_xc_cc06.py and gen_repo/impl/prebuilt/unpol/mgga_xc_cc06.py -/
formula mgga_xc_cc06 pol "t2 = 3 ** (0.1e1 / 0.3e1)
t3 = math.pi ** (0.1e1 / 0.3e1)
t5 = t2 / t3
t6 = r0 + r1
t7 = 0.1e1 / t6
t8 = r0 * t7
t11 = p_a_zeta_threshold ** (0.1e1 / 0.3e1)
t12 = t11 * p_a_zeta_threshold
t13 = 2 ** (0.1e1 / 0.3e1)
t15 = t8 ** (0.1e1 / 0.3e1)
t19 = lax_cond(0.2e1 * t8 <= p_a_zeta_threshold, t12, 0.2e1 * t13 * r0 * t7 * t15)
t20 = t6 ** (0.1e1 / 0.3e1)
t24 = lax_cond(r0 <= p_a_dens_threshold, 0, -0.3e1 / 0.8e1 * t5 * t19 * t20)
t26 = r1 * t7
t30 = t26 ** (0.1e1 / 0.3e1)
t34 = lax_cond(0.2e1 * t26 <= p_a_zeta_threshold, t12, 0.2e1 * t13 * r1 * t7 * t30)
t38 = lax_cond(r1 <= p_a_dens_threshold, 0, -0.3e1 / 0.8e1 * t5 * t34 * t20)
t40 = (0.1e1 / math.pi) ** (0.1e1 / 0.3e1)
t42 = 4 ** (0.1e1 / 0.3e1)
t43 = t42 ** 2
t46 = t2 * t40 * t43 / t20
t49 = math.sqrt(t46)
t52 = t46 ** 0.15e1
t54 = t2 ** 2
t55 = t40 ** 2
t57 = t20 ** 2
t60 = t54 * t55 * t42 / t57
t66 = math.log(0.1e1 + 0.16081824322151104822e2 / (0.37978500000000000000e1 * t49 + 0.89690000000000000000e0 * t46 + 0.20477500000000000000e0 * t52 + 0.12323500000000000000e0 * t60))
t68 = 0.62182e-1 * (0.1e1 + 0.53425000000000000000e-1 * t46) * t66
t69 = r0 - r1
t70 = t69 ** 2
t71 = t70 ** 2
t72 = t6 ** 2
t73 = t72 ** 2
t76 = t69 * t7
t77 = 0.1e1 + t76
t79 = t77 ** (0.1e1 / 0.3e1)
t81 = lax_cond(t77 <= p_a_zeta_threshold, t12, t79 * t77)
t82 = 0.1e1 - t76
t84 = t82 ** (0.1e1 / 0.3e1)
t86 = lax_cond(t82 <= p_a_zeta_threshold, t12, t84 * t82)
t91 = (t81 + t86 - 0.2e1) / (0.2e1 * t13 - 0.2e1)
t102 = math.log(0.1e1 + 0.32164683177870697974e2 / (0.70594500000000000000e1 * t49 + 0.15494250000000000000e1 * t46 + 0.42077500000000000000e0 * t52 + 0.15629250000000000000e0 * t60))
t115 = math.log(0.1e1 + 0.29608574643216675549e2 / (0.51785000000000000000e1 * t49 + 0.90577500000000000000e0 * t46 + 0.11003250000000000000e0 * t52 + 0.12417750000000000000e0 * t60))
t116 = (0.1e1 + 0.27812500000000000000e-1 * t46) * t115
t125 = r0 ** (0.1e1 / 0.3e1)
t126 = t125 ** 2
t130 = t77 / 0.2e1
t131 = t130 ** (0.1e1 / 0.3e1)
t132 = t131 ** 2
t135 = r1 ** (0.1e1 / 0.3e1)
t136 = t135 ** 2
t140 = t82 / 0.2e1
t141 = t140 ** (0.1e1 / 0.3e1)
t142 = t141 ** 2
t147 = t54 * t42 * t55 * (l0 / t126 / r0 * t132 * t130 + l1 / t136 / r1 * t142 * t140)
res = (t24 + t38 - t68 + t71 / t73 * t91 * (-0.31090e-1 * (0.1e1 + 0.51370000000000000000e-1 * t46) * t102 + t68 - 0.19751789702565206229e-1 * t116) + 0.19751789702565206229e-1 * t91 * t116) * (0.1e1 + (-0.7e-3 + 0.20000000000000000000e-2 * t147) / (0.1e1 + 0.65000000000000000000e-2 * t147))
" unpol "t3 = 3 ** (0.1e1 / 0.3e1)
t4 = math.pi ** (0.1e1 / 0.3e1)
t8 = p_a_zeta_threshold ** (0.1e1 / 0.3e1)
t10 = lax_cond(0.1e1 <= p_a_zeta_threshold, t8 * p_a_zeta_threshold, 1)
t11 = r0 ** (0.1e1 / 0.3e1)
t15 = lax_cond(r0 / 0.2e1 <= p_a_dens_threshold, 0, -0.3e1 / 0.8e1 * t3 / t4 * t10 * t11)
t18 = (0.1e1 / math.pi) ** (0.1e1 / 0.3e1)
t20 = 4 ** (0.1e1 / 0.3e1)
t21 = t20 ** 2
t24 = t3 * t18 * t21 / t11
t27 = math.sqrt(t24)
t30 = t24 ** 0.15e1
t32 = t3 ** 2
t33 = t18 ** 2
t35 = t11 ** 2
t38 = t32 * t33 * t20 / t35
t44 = math.log(0.1e1 + 0.16081824322151104822e2 / (0.37978500000000000000e1 * t27 + 0.89690000000000000000e0 * t24 + 0.20477500000000000000e0 * t30 + 0.12323500000000000000e0 * t38))
t49 = 2 ** (0.1e1 / 0.3e1)
t64 = math.log(0.1e1 + 0.29608574643216675549e2 / (0.51785000000000000000e1 * t27 + 0.90577500000000000000e0 * t24 + 0.11003250000000000000e0 * t30 + 0.12417750000000000000e0 * t38))
t74 = t32 * t20 * t33 * l0 / t35 / r0
res = (0.2e1 * t15 - 0.62182e-1 * (0.1e1 + 0.53425000000000000000e-1 * t24) * t44 + 0.19751789702565206229e-1 * (0.2e1 * t10 - 0.2e1) / (0.2e1 * t49 - 0.2e1) * (0.1e1 + 0.27812500000000000000e-1 * t24) * t64) * (0.1e1 + (-0.7e-3 + 0.20000000000000000000e-2 * t74) / (0.1e1 + 0.65000000000000000000e-2 * t74))
"

/- gen_repo/impl/prebuilt/pol/mgga_xc_lp90.py and gen_repo/impl/prebuilt/unpol/mgga_xc_lp90.py -/
formula mgga_xc_lp90 pol "t3 = r0 + r1
t4 = t3 ** 2
t5 = t3 ** (0.1e1 / 0.3e1)
t6 = t5 ** 2
t11 = r0 ** (0.1e1 / 0.3e1)
t12 = t11 ** 2
t18 = (r0 - r1) / t3
t20 = 0.1e1 / 0.2e1 + t18 / 0.2e1
t21 = t20 ** (0.1e1 / 0.3e1)
t22 = t21 ** 2
t26 = r1 ** (0.1e1 / 0.3e1)
t27 = t26 ** 2
t32 = 0.1e1 / 0.2e1 - t18 / 0.2e1
t33 = t32 ** (0.1e1 / 0.3e1)
t34 = t33 ** 2
res = -(0.80569e0 + 0.37655000000000000000e-3 * (s0 + 0.2e1 * s1 + s2) / t6 / t4 - 0.37655000000000000000e-3 * l0 / t12 / r0 * t22 * t20 - 0.37655000000000000000e-3 * l1 / t27 / r1 * t34 * t32) / (0.1e1 / t5 + 0.40743e-2)
" unpol "t1 = r0 ** 2
t2 = r0 ** (0.1e1 / 0.3e1)
t3 = t2 ** 2
res = -(0.80569e0 + 0.37655000000000000000e-3 * s0 / t3 / t1 - 0.37655000000000000000e-3 * l0 / t3 / r0) / (0.1e1 / t2 + 0.40743e-2)
"

/- gen_repo/impl/prebuilt/pol/mgga_xc_zlp.py and gen_repo/impl/prebuilt/unpol/mgga_xc_zlp.py -/
formula mgga_xc_zlp pol "t1 = 3 ** (0.1e1 / 0.3e1)
t3 = (0.1e1 / math.pi) ** (0.1e1 / 0.3e1)
t4 = t1 * t3
t5 = 4 ** (0.1e1 / 0.3e1)
t6 = t5 ** 2
t11 = r0 + r1
t12 = t11 ** 2
t13 = t11 ** (0.1e1 / 0.3e1)
t14 = t13 ** 2
t18 = r0 ** (0.1e1 / 0.3e1)
t19 = t18 ** 2
t25 = (r0 - r1) / t11
t27 = 0.1e1 / 0.2e1 + t25 / 0.2e1
t28 = t27 ** (0.1e1 / 0.3e1)
t29 = t28 ** 2
t32 = r1 ** (0.1e1 / 0.3e1)
t33 = t32 ** 2
t38 = 0.1e1 / 0.2e1 - t25 / 0.2e1
t39 = t38 ** (0.1e1 / 0.3e1)
t40 = t39 ** 2
t52 = math.log(0.1e1 + 0.48849425066691677572e3 / t13)
t57 = t1 ** 2
res = -(0.20710800000000000000e0 * t4 * t6 + 0.53877250000000000000e-2 * t4 * t6 * ((s0 + 0.2e1 * s1 + s2) / t14 / t12 / 0.8e1 - l0 / t19 / r0 * t29 * t27 / 0.8e1 - l1 / t33 / r1 * t40 * t38 / 0.8e1)) * (0.1e1 - 0.20471070000000000000e-2 * t52 * t13) * t57 / t3 * t5 * t13 / 0.3e1
" unpol "t1 = 3 ** (0.1e1 / 0.3e1)
t3 = (0.1e1 / math.pi) ** (0.1e1 / 0.3e1)
t4 = t1 * t3
t5 = 4 ** (0.1e1 / 0.3e1)
t6 = t5 ** 2
t9 = r0 ** 2
t10 = r0 ** (0.1e1 / 0.3e1)
t11 = t10 ** 2
t27 = math.log(0.1e1 + 0.48849425066691677572e3 / t10)
t32 = t1 ** 2
res = -(0.20710800000000000000e0 * t4 * t6 + 0.53877250000000000000e-2 * t4 * t6 * (s0 / t11 / t9 / 0.8e1 - l0 / t11 / r0 / 0.8e1)) * (0.1e1 - 0.20471070000000000000e-2 * t27 * t10) * t32 / t3 * t5 * t10 / 0.3e1
"

end Verif.Data
