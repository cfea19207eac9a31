import Verif.Py.Elab

/-!
# Shipped formulas, verbatim from `gen_repo/impl/prebuilt/{pol,unpol}/NAME.py`
-/
namespace Verif.Data

/- gen_repo/impl/prebuilt/pol/gga_c_acgga.py and gen_repo/impl/prebuilt/unpol/gga_c_acgga.py -/
formula gga_c_acgga pol "t1 = 3 ** (0.1e1 / 0.3e1)
t3 = (0.1e1 / math.pi) ** (0.1e1 / 0.3e1)
t5 = 4 ** (0.1e1 / 0.3e1)
t6 = t5 ** 2
t7 = r0 + r1
t8 = t7 ** (0.1e1 / 0.3e1)
t11 = t1 * t3 * t6 / t8
t14 = math.sqrt(t11)
t17 = t11 ** 0.15e1
t19 = t1 ** 2
t20 = t3 ** 2
t22 = t8 ** 2
t25 = t19 * t20 * t5 / t22
t31 = math.log(0.1e1 + 0.16081979498692535067e2 / (0.37978500000000000000e1 * t14 + 0.89690000000000000000e0 * t11 + 0.20477500000000000000e0 * t17 + 0.12323500000000000000e0 * t25))
t33 = 0.621814e-1 * (0.1e1 + 0.53425000000000000000e-1 * t11) * t31
t34 = r0 - r1
t35 = t34 ** 2
t36 = t35 ** 2
t37 = t7 ** 2
t38 = t37 ** 2
t42 = t34 / t7
t43 = 0.1e1 + t42
t44 = t43 <= p_a_zeta_threshold
t45 = p_a_zeta_threshold ** (0.1e1 / 0.3e1)
t46 = t45 * p_a_zeta_threshold
t47 = t43 ** (0.1e1 / 0.3e1)
t49 = lax_cond(t44, t46, t47 * t43)
t50 = 0.1e1 - t42
t51 = t50 <= p_a_zeta_threshold
t52 = t50 ** (0.1e1 / 0.3e1)
t54 = lax_cond(t51, t46, t52 * t50)
t56 = 2 ** (0.1e1 / 0.3e1)
t60 = (t49 + t54 - 0.2e1) / (0.2e1 * t56 - 0.2e1)
t71 = math.log(0.1e1 + 0.32163958997385070134e2 / (0.70594500000000000000e1 * t14 + 0.15494250000000000000e1 * t11 + 0.42077500000000000000e0 * t17 + 0.15629250000000000000e0 * t25))
t84 = math.log(0.1e1 + 0.29608749977793437516e2 / (0.51785000000000000000e1 * t14 + 0.90577500000000000000e0 * t11 + 0.11003250000000000000e0 * t17 + 0.12417750000000000000e0 * t25))
t85 = (0.1e1 + 0.27812500000000000000e-1 * t11) * t84
t89 = t36 / t38 * t60 * (-0.3109070e-1 * (0.1e1 + 0.51370000000000000000e-1 * t11) * t71 + t33 - 0.19751673498613801407e-1 * t85)
t91 = 0.19751673498613801407e-1 * t60 * t85
t92 = math.log(0.2e1)
t93 = 0.1e1 - t92
t94 = math.pi ** 2
t97 = t45 ** 2
t98 = t47 ** 2
t99 = lax_cond(t44, t97, t98)
t100 = t52 ** 2
t101 = lax_cond(t51, t97, t100)
t103 = t99 / 0.2e1 + t101 / 0.2e1
t104 = t103 ** 2
t105 = t104 * t103
t107 = s0 + 0.2e1 * s1 + s2
t116 = math.sqrt(t107)
t120 = t56 ** 2
t125 = t116 / t8 / t7 * t120 / t103 / t14
t127 = 0.45e1 + t125 / 0.4e1
t130 = 0.45e1 + 0.36675000000000000000e0 * t125
t136 = 0.1e1 / t93
t137 = t136 * t94
t143 = math.exp(-(-t33 + t89 + t91) * t136 * t94 / t105)
t145 = 0.1e1 / (t143 - 0.1e1)
t147 = t107 ** 2
t153 = t104 ** 2
t158 = t127 ** 2
t160 = t130 ** 2
t166 = t107 / t8 / t37 * t56 / t104 * t19 / t3 * t5 * t127 / t130 / 0.96e2 + 0.21720231316129303386e-4 * t137 * t145 * t147 / t22 / t38 * t120 / t153 * t1 / t20 * t6 * t158 / t160
t177 = math.log(0.1e1 + 0.6672455060314922e-1 * t166 * t136 * t94 / (0.1e1 + 0.6672455060314922e-1 * t137 * t145 * t166))
res = -t33 + t89 + t91 + t93 / t94 * t105 * t177
" unpol "t1 = 3 ** (0.1e1 / 0.3e1)
t3 = (0.1e1 / math.pi) ** (0.1e1 / 0.3e1)
t5 = 4 ** (0.1e1 / 0.3e1)
t6 = t5 ** 2
t7 = r0 ** (0.1e1 / 0.3e1)
t10 = t1 * t3 * t6 / t7
t13 = math.sqrt(t10)
t16 = t10 ** 0.15e1
t18 = t1 ** 2
t19 = t3 ** 2
t21 = t7 ** 2
t24 = t18 * t19 * t5 / t21
t30 = math.log(0.1e1 + 0.16081979498692535067e2 / (0.37978500000000000000e1 * t13 + 0.89690000000000000000e0 * t10 + 0.20477500000000000000e0 * t16 + 0.12323500000000000000e0 * t24))
t32 = 0.621814e-1 * (0.1e1 + 0.53425000000000000000e-1 * t10) * t30
t33 = 0.1e1 <= p_a_zeta_threshold
t34 = p_a_zeta_threshold ** (0.1e1 / 0.3e1)
t36 = lax_cond(t33, t34 * p_a_zeta_threshold, 1)
t39 = 2 ** (0.1e1 / 0.3e1)
t54 = math.log(0.1e1 + 0.29608749977793437516e2 / (0.51785000000000000000e1 * t13 + 0.90577500000000000000e0 * t10 + 0.11003250000000000000e0 * t16 + 0.12417750000000000000e0 * t24))
t57 = 0.19751673498613801407e-1 * (0.2e1 * t36 - 0.2e1) / (0.2e1 * t39 - 0.2e1) * (0.1e1 + 0.27812500000000000000e-1 * t10) * t54
t58 = math.log(0.2e1)
t59 = 0.1e1 - t58
t60 = math.pi ** 2
t63 = t34 ** 2
t64 = lax_cond(t33, t63, 1)
t65 = t64 ** 2
t66 = t65 * t64
t67 = r0 ** 2
t76 = math.sqrt(s0)
t80 = t39 ** 2
t85 = t76 / t7 / r0 * t80 / t64 / t13
t87 = 0.45e1 + t85 / 0.4e1
t90 = 0.45e1 + 0.36675000000000000000e0 * t85
t96 = 0.1e1 / t59
t97 = t96 * t60
t103 = math.exp(-(-t32 + t57) * t96 * t60 / t66)
t105 = 0.1e1 / (t103 - 0.1e1)
t107 = s0 ** 2
t108 = t67 ** 2
t114 = t65 ** 2
t119 = t87 ** 2
t121 = t90 ** 2
t127 = s0 / t7 / t67 * t39 / t65 * t18 / t3 * t5 * t87 / t90 / 0.96e2 + 0.21720231316129303386e-4 * t97 * t105 * t107 / t21 / t108 * t80 / t114 * t1 / t19 * t6 * t119 / t121
t138 = math.log(0.1e1 + 0.6672455060314922e-1 * t127 * t96 * t60 / (0.1e1 + 0.6672455060314922e-1 * t97 * t105 * t127))
res = -t32 + t57 + t59 / t60 * t66 * t138
"

/- gen_repo/impl/prebuilt/pol/gga_c_acggap.py and gen_repo/impl/prebuilt/unpol/gga_c_acggap.py -/
formula gga_c_acggap pol "t1 = 3 ** (0.1e1 / 0.3e1)
t3 = (0.1e1 / math.pi) ** (0.1e1 / 0.3e1)
t4 = t1 * t3
t5 = 4 ** (0.1e1 / 0.3e1)
t6 = t5 ** 2
t7 = r0 + r1
t8 = t7 ** (0.1e1 / 0.3e1)
t10 = t6 / t8
t11 = t4 * t10
t14 = math.sqrt(t11)
t17 = t11 ** 0.15e1
t19 = t1 ** 2
t20 = t3 ** 2
t22 = t8 ** 2
t25 = t19 * t20 * t5 / t22
t31 = math.log(0.1e1 + 0.16081979498692535067e2 / (0.37978500000000000000e1 * t14 + 0.89690000000000000000e0 * t11 + 0.20477500000000000000e0 * t17 + 0.12323500000000000000e0 * t25))
t33 = 0.621814e-1 * (0.1e1 + 0.53425000000000000000e-1 * t11) * t31
t34 = r0 - r1
t35 = t34 ** 2
t36 = t35 ** 2
t37 = t7 ** 2
t38 = t37 ** 2
t42 = t34 / t7
t43 = 0.1e1 + t42
t44 = t43 <= p_a_zeta_threshold
t45 = p_a_zeta_threshold ** (0.1e1 / 0.3e1)
t46 = t45 * p_a_zeta_threshold
t47 = t43 ** (0.1e1 / 0.3e1)
t49 = lax_cond(t44, t46, t47 * t43)
t50 = 0.1e1 - t42
t51 = t50 <= p_a_zeta_threshold
t52 = t50 ** (0.1e1 / 0.3e1)
t54 = lax_cond(t51, t46, t52 * t50)
t56 = 2 ** (0.1e1 / 0.3e1)
t60 = (t49 + t54 - 0.2e1) / (0.2e1 * t56 - 0.2e1)
t71 = math.log(0.1e1 + 0.32163958997385070134e2 / (0.70594500000000000000e1 * t14 + 0.15494250000000000000e1 * t11 + 0.42077500000000000000e0 * t17 + 0.15629250000000000000e0 * t25))
t84 = math.log(0.1e1 + 0.29608749977793437516e2 / (0.51785000000000000000e1 * t14 + 0.90577500000000000000e0 * t11 + 0.11003250000000000000e0 * t17 + 0.12417750000000000000e0 * t25))
t85 = (0.1e1 + 0.27812500000000000000e-1 * t11) * t84
t89 = t36 / t38 * t60 * (-0.3109070e-1 * (0.1e1 + 0.51370000000000000000e-1 * t11) * t71 + t33 - 0.19751673498613801407e-1 * t85)
t91 = 0.19751673498613801407e-1 * t60 * t85
t92 = math.log(0.2e1)
t93 = 0.1e1 - t92
t94 = math.pi ** 2
t97 = t45 ** 2
t98 = t47 ** 2
t99 = lax_cond(t44, t97, t98)
t100 = t52 ** 2
t101 = lax_cond(t51, t97, t100)
t103 = t99 / 0.2e1 + t101 / 0.2e1
t104 = t103 ** 2
t105 = t104 * t103
t119 = (0.10e1 + 0.12500000000000000000e0 * t4 * t10 * (0.1e1 + 0.41667500000000000000e-1 * t11)) / (0.10e1 + 0.12500000000000000000e0 * t4 * t10 * (0.1e1 + 0.74082500000000000000e-1 * t11))
t121 = s0 + 0.2e1 * s1 + s2
t130 = math.sqrt(t121)
t134 = t56 ** 2
t139 = t130 / t8 / t7 * t134 / t103 / t14
t141 = 0.45e1 + t139 / 0.4e1
t144 = 0.45e1 + 0.36675000000000000000e0 * t139
t150 = 0.1e1 / t93
t151 = t119 * t150
t157 = math.exp(-(-t33 + t89 + t91) * t150 * t94 / t105)
t160 = t94 / (t157 - 0.1e1)
t161 = t121 ** 2
t167 = t104 ** 2
t173 = t141 ** 2
t174 = t144 ** 2
t181 = t121 / t8 / t37 * t56 / t104 * t19 / t3 * t5 * t141 / t144 / 0.96e2 + 0.21720231316129303386e-4 * t151 * t160 * t161 / t22 / t38 * t134 / t167 * t1 / t20 * t6 * t173 / t174
t193 = math.log(0.1e1 + 0.6672455060314922e-1 * t119 * t181 * t150 * t94 / (0.1e1 + 0.6672455060314922e-1 * t151 * t160 * t181))
res = -t33 + t89 + t91 + t93 / t94 * t105 * t193
" unpol "t1 = 3 ** (0.1e1 / 0.3e1)
t3 = (0.1e1 / math.pi) ** (0.1e1 / 0.3e1)
t4 = t1 * t3
t5 = 4 ** (0.1e1 / 0.3e1)
t6 = t5 ** 2
t7 = r0 ** (0.1e1 / 0.3e1)
t9 = t6 / t7
t10 = t4 * t9
t13 = math.sqrt(t10)
t16 = t10 ** 0.15e1
t18 = t1 ** 2
t19 = t3 ** 2
t21 = t7 ** 2
t24 = t18 * t19 * t5 / t21
t30 = math.log(0.1e1 + 0.16081979498692535067e2 / (0.37978500000000000000e1 * t13 + 0.89690000000000000000e0 * t10 + 0.20477500000000000000e0 * t16 + 0.12323500000000000000e0 * t24))
t32 = 0.621814e-1 * (0.1e1 + 0.53425000000000000000e-1 * t10) * t30
t33 = 0.1e1 <= p_a_zeta_threshold
t34 = p_a_zeta_threshold ** (0.1e1 / 0.3e1)
t36 = lax_cond(t33, t34 * p_a_zeta_threshold, 1)
t39 = 2 ** (0.1e1 / 0.3e1)
t54 = math.log(0.1e1 + 0.29608749977793437516e2 / (0.51785000000000000000e1 * t13 + 0.90577500000000000000e0 * t10 + 0.11003250000000000000e0 * t16 + 0.12417750000000000000e0 * t24))
t57 = 0.19751673498613801407e-1 * (0.2e1 * t36 - 0.2e1) / (0.2e1 * t39 - 0.2e1) * (0.1e1 + 0.27812500000000000000e-1 * t10) * t54
t58 = math.log(0.2e1)
t59 = 0.1e1 - t58
t60 = math.pi ** 2
t63 = t34 ** 2
t64 = lax_cond(t33, t63, 1)
t65 = t64 ** 2
t66 = t65 * t64
t80 = (0.10e1 + 0.12500000000000000000e0 * t4 * t9 * (0.1e1 + 0.41667500000000000000e-1 * t10)) / (0.10e1 + 0.12500000000000000000e0 * t4 * t9 * (0.1e1 + 0.74082500000000000000e-1 * t10))
t81 = r0 ** 2
t90 = math.sqrt(s0)
t94 = t39 ** 2
t99 = t90 / t7 / r0 * t94 / t64 / t13
t101 = 0.45e1 + t99 / 0.4e1
t104 = 0.45e1 + 0.36675000000000000000e0 * t99
t110 = 0.1e1 / t59
t111 = t80 * t110
t117 = math.exp(-(-t32 + t57) * t110 * t60 / t66)
t120 = t60 / (t117 - 0.1e1)
t121 = s0 ** 2
t122 = t81 ** 2
t128 = t65 ** 2
t134 = t101 ** 2
t135 = t104 ** 2
t142 = s0 / t7 / t81 * t39 / t65 * t18 / t3 * t5 * t101 / t104 / 0.96e2 + 0.21720231316129303386e-4 * t111 * t120 * t121 / t21 / t122 * t94 / t128 * t1 / t19 * t6 * t134 / t135
t154 = math.log(0.1e1 + 0.6672455060314922e-1 * t80 * t142 * t110 * t60 / (0.1e1 + 0.6672455060314922e-1 * t111 * t120 * t142))
res = -t32 + t57 + t59 / t60 * t66 * t154
"

/- gen_repo/impl/prebuilt/pol/gga_c_am05.py and gen_repo/impl/prebuilt/unpol/gga_c_am05.py -/
formula gga_c_am05 pol "t1 = 3 ** (0.1e1 / 0.3e1)
t3 = (0.1e1 / math.pi) ** (0.1e1 / 0.3e1)
t5 = 4 ** (0.1e1 / 0.3e1)
t6 = t5 ** 2
t7 = r0 + r1
t8 = t7 ** (0.1e1 / 0.3e1)
t11 = t1 * t3 * t6 / t8
t14 = math.sqrt(t11)
t17 = t11 ** 0.15e1
t19 = t1 ** 2
t20 = t3 ** 2
t22 = t8 ** 2
t25 = t19 * t20 * t5 / t22
t31 = math.log(0.1e1 + 0.16081979498692535067e2 / (0.37978500000000000000e1 * t14 + 0.89690000000000000000e0 * t11 + 0.20477500000000000000e0 * t17 + 0.12323500000000000000e0 * t25))
t33 = 0.621814e-1 * (0.1e1 + 0.53425000000000000000e-1 * t11) * t31
t34 = r0 - r1
t35 = t34 ** 2
t36 = t35 ** 2
t37 = t7 ** 2
t38 = t37 ** 2
t42 = t34 / t7
t43 = 0.1e1 + t42
t44 = t43 <= p_a_zeta_threshold
t45 = p_a_zeta_threshold ** (0.1e1 / 0.3e1)
t46 = t45 * p_a_zeta_threshold
t47 = t43 ** (0.1e1 / 0.3e1)
t49 = lax_cond(t44, t46, t47 * t43)
t50 = 0.1e1 - t42
t51 = t50 <= p_a_zeta_threshold
t52 = t50 ** (0.1e1 / 0.3e1)
t54 = lax_cond(t51, t46, t52 * t50)
t56 = 2 ** (0.1e1 / 0.3e1)
t60 = (t49 + t54 - 0.2e1) / (0.2e1 * t56 - 0.2e1)
t71 = math.log(0.1e1 + 0.32163958997385070134e2 / (0.70594500000000000000e1 * t14 + 0.15494250000000000000e1 * t11 + 0.42077500000000000000e0 * t17 + 0.15629250000000000000e0 * t25))
t84 = math.log(0.1e1 + 0.29608749977793437516e2 / (0.51785000000000000000e1 * t14 + 0.90577500000000000000e0 * t11 + 0.11003250000000000000e0 * t17 + 0.12417750000000000000e0 * t25))
t85 = (0.1e1 + 0.27812500000000000000e-1 * t11) * t84
t93 = lax_cond(t44, p_a_zeta_threshold, t43)
t94 = 6 ** (0.1e1 / 0.3e1)
t95 = params_a_alpha * t94
t96 = math.pi ** 2
t97 = t96 ** (0.1e1 / 0.3e1)
t98 = t97 ** 2
t99 = 0.1e1 / t98
t101 = r0 ** 2
t102 = r0 ** (0.1e1 / 0.3e1)
t103 = t102 ** 2
t110 = 0.1e1 / (0.1e1 + t95 * t99 * s0 / t103 / t101 / 0.24e2)
t115 = lax_cond(t51, p_a_zeta_threshold, t50)
t117 = r1 ** 2
t118 = r1 ** (0.1e1 / 0.3e1)
t119 = t118 ** 2
t126 = 0.1e1 / (0.1e1 + t95 * t99 * s2 / t119 / t117 / 0.24e2)
res = (-t33 + t36 / t38 * t60 * (-0.3109070e-1 * (0.1e1 + 0.51370000000000000000e-1 * t11) * t71 + t33 - 0.19751673498613801407e-1 * t85) + 0.19751673498613801407e-1 * t60 * t85) * (t93 * (t110 + params_a_gamma * (0.1e1 - t110)) / 0.2e1 + t115 * (t126 + params_a_gamma * (0.1e1 - t126)) / 0.2e1)
" unpol "t1 = 3 ** (0.1e1 / 0.3e1)
t3 = (0.1e1 / math.pi) ** (0.1e1 / 0.3e1)
t5 = 4 ** (0.1e1 / 0.3e1)
t6 = t5 ** 2
t7 = r0 ** (0.1e1 / 0.3e1)
t10 = t1 * t3 * t6 / t7
t13 = math.sqrt(t10)
t16 = t10 ** 0.15e1
t18 = t1 ** 2
t19 = t3 ** 2
t21 = t7 ** 2
t24 = t18 * t19 * t5 / t21
t30 = math.log(0.1e1 + 0.16081979498692535067e2 / (0.37978500000000000000e1 * t13 + 0.89690000000000000000e0 * t10 + 0.20477500000000000000e0 * t16 + 0.12323500000000000000e0 * t24))
t33 = 0.1e1 <= p_a_zeta_threshold
t34 = p_a_zeta_threshold ** (0.1e1 / 0.3e1)
t36 = lax_cond(t33, t34 * p_a_zeta_threshold, 1)
t39 = 2 ** (0.1e1 / 0.3e1)
t54 = math.log(0.1e1 + 0.29608749977793437516e2 / (0.51785000000000000000e1 * t13 + 0.90577500000000000000e0 * t10 + 0.11003250000000000000e0 * t16 + 0.12417750000000000000e0 * t24))
t59 = lax_cond(t33, p_a_zeta_threshold, 1)
t61 = 6 ** (0.1e1 / 0.3e1)
t63 = math.pi ** 2
t64 = t63 ** (0.1e1 / 0.3e1)
t65 = t64 ** 2
t68 = t39 ** 2
t70 = r0 ** 2
t77 = 0.1e1 / (0.1e1 + params_a_alpha * t61 / t65 * s0 * t68 / t21 / t70 / 0.24e2)
res = (-0.621814e-1 * (0.1e1 + 0.53425000000000000000e-1 * t10) * t30 + 0.19751673498613801407e-1 * (0.2e1 * t36 - 0.2e1) / (0.2e1 * t39 - 0.2e1) * (0.1e1 + 0.27812500000000000000e-1 * t10) * t54) * t59 * (t77 + params_a_gamma * (0.1e1 - t77))
"

/- gen_repo/impl/prebuilt/pol/gga_c_bmk.py and gen_repo/impl/prebuilt/unpol/gga_c_bmk.py -/
formula gga_c_bmk pol "t2 = r0 - r1
t3 = r0 + r1
t5 = t2 / t3
t6 = 0.1e1 + t5
t7 = t6 <= p_a_zeta_threshold
t8 = jnp.logical_or(r0 <= p_a_dens_threshold, t7)
t9 = lax_cond(t7, p_a_zeta_threshold, t6)
t10 = 3 ** (0.1e1 / 0.3e1)
t12 = (0.1e1 / math.pi) ** (0.1e1 / 0.3e1)
t13 = t10 * t12
t14 = 4 ** (0.1e1 / 0.3e1)
t15 = t14 ** 2
t16 = t13 * t15
t17 = t3 ** (0.1e1 / 0.3e1)
t18 = 0.1e1 / t17
t19 = 2 ** (0.1e1 / 0.3e1)
t20 = t18 * t19
t21 = p_a_zeta_threshold ** (0.1e1 / 0.3e1)
t22 = 0.1e1 / t21
t23 = t6 ** (0.1e1 / 0.3e1)
t25 = lax_cond(t7, t22, 0.1e1 / t23)
t27 = t16 * t20 * t25
t30 = math.sqrt(t27)
t33 = t27 ** 0.15e1
t35 = t10 ** 2
t36 = t12 ** 2
t37 = t35 * t36
t38 = t37 * t14
t39 = t17 ** 2
t40 = 0.1e1 / t39
t41 = t19 ** 2
t42 = t40 * t41
t43 = t25 ** 2
t45 = t38 * t42 * t43
t51 = math.log(0.1e1 + 0.16081824322151104822e2 / (0.37978500000000000000e1 * t30 + 0.89690000000000000000e0 * t27 + 0.20477500000000000000e0 * t33 + 0.12323500000000000000e0 * t45))
t53 = 0.62182e-1 * (0.1e1 + 0.53425000000000000000e-1 * t27) * t51
t55 = t21 * p_a_zeta_threshold
t57 = lax_cond(0.2e1 <= p_a_zeta_threshold, t55, 0.2e1 * t19)
t59 = lax_cond(0.0e0 <= p_a_zeta_threshold, t55, 0)
t63 = 0.1e1 / (0.2e1 * t19 - 0.2e1)
t64 = (t57 + t59 - 0.2e1) * t63
t75 = math.log(0.1e1 + 0.32164683177870697974e2 / (0.70594500000000000000e1 * t30 + 0.15494250000000000000e1 * t27 + 0.42077500000000000000e0 * t33 + 0.15629250000000000000e0 * t45))
t88 = math.log(0.1e1 + 0.29608574643216675549e2 / (0.51785000000000000000e1 * t30 + 0.90577500000000000000e0 * t27 + 0.11003250000000000000e0 * t33 + 0.12417750000000000000e0 * t45))
t89 = (0.1e1 + 0.27812500000000000000e-1 * t27) * t88
t98 = lax_cond(t8, 0, t9 * (-t53 + t64 * (-0.31090e-1 * (0.1e1 + 0.51370000000000000000e-1 * t27) * t75 + t53 - 0.19751789702565206229e-1 * t89) + 0.19751789702565206229e-1 * t64 * t89) / 0.2e1)
t99 = params_a_c_ss[0]
t100 = params_a_c_ss[1]
t102 = r0 ** 2
t103 = r0 ** (0.1e1 / 0.3e1)
t104 = t103 ** 2
t106 = 0.1e1 / t104 / t102
t107 = s0 * t106
t109 = 0.1e1 + 0.2e0 * t107
t114 = params_a_c_ss[2]
t115 = s0 ** 2
t117 = t102 ** 2
t121 = t109 ** 2
t126 = params_a_c_ss[3]
t129 = t117 ** 2
t136 = params_a_c_ss[4]
t137 = t115 ** 2
t142 = t121 ** 2
t150 = 0.1e1 - t5
t151 = t150 <= p_a_zeta_threshold
t152 = jnp.logical_or(r1 <= p_a_dens_threshold, t151)
t153 = lax_cond(t151, p_a_zeta_threshold, t150)
t154 = t150 ** (0.1e1 / 0.3e1)
t156 = lax_cond(t151, t22, 0.1e1 / t154)
t158 = t16 * t20 * t156
t161 = math.sqrt(t158)
t164 = t158 ** 0.15e1
t166 = t156 ** 2
t168 = t38 * t42 * t166
t174 = math.log(0.1e1 + 0.16081824322151104822e2 / (0.37978500000000000000e1 * t161 + 0.89690000000000000000e0 * t158 + 0.20477500000000000000e0 * t164 + 0.12323500000000000000e0 * t168))
t176 = 0.62182e-1 * (0.1e1 + 0.53425000000000000000e-1 * t158) * t174
t187 = math.log(0.1e1 + 0.32164683177870697974e2 / (0.70594500000000000000e1 * t161 + 0.15494250000000000000e1 * t158 + 0.42077500000000000000e0 * t164 + 0.15629250000000000000e0 * t168))
t200 = math.log(0.1e1 + 0.29608574643216675549e2 / (0.51785000000000000000e1 * t161 + 0.90577500000000000000e0 * t158 + 0.11003250000000000000e0 * t164 + 0.12417750000000000000e0 * t168))
t201 = (0.1e1 + 0.27812500000000000000e-1 * t158) * t200
t210 = lax_cond(t152, 0, t153 * (-t176 + t64 * (-0.31090e-1 * (0.1e1 + 0.51370000000000000000e-1 * t158) * t187 + t176 - 0.19751789702565206229e-1 * t201) + 0.19751789702565206229e-1 * t64 * t201) / 0.2e1)
t212 = r1 ** 2
t213 = r1 ** (0.1e1 / 0.3e1)
t214 = t213 ** 2
t216 = 0.1e1 / t214 / t212
t217 = s2 * t216
t219 = 0.1e1 + 0.2e0 * t217
t224 = s2 ** 2
t226 = t212 ** 2
t230 = t219 ** 2
t237 = t226 ** 2
t244 = t224 ** 2
t249 = t230 ** 2
t257 = t13 * t15 * t18
t260 = math.sqrt(t257)
t263 = t257 ** 0.15e1
t266 = t37 * t14 * t40
t272 = math.log(0.1e1 + 0.16081824322151104822e2 / (0.37978500000000000000e1 * t260 + 0.89690000000000000000e0 * t257 + 0.20477500000000000000e0 * t263 + 0.12323500000000000000e0 * t266))
t274 = 0.62182e-1 * (0.1e1 + 0.53425000000000000000e-1 * t257) * t272
t275 = t2 ** 2
t276 = t275 ** 2
t277 = t3 ** 2
t278 = t277 ** 2
t282 = lax_cond(t7, t55, t23 * t6)
t284 = lax_cond(t151, t55, t154 * t150)
t286 = (t282 + t284 - 0.2e1) * t63
t297 = math.log(0.1e1 + 0.32164683177870697974e2 / (0.70594500000000000000e1 * t260 + 0.15494250000000000000e1 * t257 + 0.42077500000000000000e0 * t263 + 0.15629250000000000000e0 * t266))
t310 = math.log(0.1e1 + 0.29608574643216675549e2 / (0.51785000000000000000e1 * t260 + 0.90577500000000000000e0 * t257 + 0.11003250000000000000e0 * t263 + 0.12417750000000000000e0 * t266))
t311 = (0.1e1 + 0.27812500000000000000e-1 * t257) * t310
t321 = t107 + t217
t325 = 0.1e1 + 0.30000000000000000000e-2 * t107 + 0.30000000000000000000e-2 * t217
t330 = t321 ** 2
t332 = t325 ** 2
t344 = t330 ** 2
t346 = t332 ** 2
res = t98 * (t99 + 0.2e0 * t100 * s0 * t106 / t109 + 0.4e-1 * t114 * t115 / t103 / t117 / r0 / t121 + 0.8e-2 * t126 * t115 * s0 / t129 / t121 / t109 + 0.16e-2 * t136 * t137 / t104 / t129 / t102 / t142) + t210 * (t99 + 0.2e0 * t100 * s2 * t216 / t219 + 0.4e-1 * t114 * t224 / t213 / t226 / r1 / t230 + 0.8e-2 * t126 * t224 * s2 / t237 / t230 / t219 + 0.16e-2 * t136 * t244 / t214 / t237 / t212 / t249) + (-t274 + t276 / t278 * t286 * (-0.31090e-1 * (0.1e1 + 0.51370000000000000000e-1 * t257) * t297 + t274 - 0.19751789702565206229e-1 * t311) + 0.19751789702565206229e-1 * t286 * t311 - t98 - t210) * (params_a_c_ab[0] + 0.30000000000000000000e-2 * params_a_c_ab[1] * t321 / t325 + 0.90000000000000000000e-5 * params_a_c_ab[2] * t330 / t332 + 0.27000000000000000000e-7 * params_a_c_ab[3] * t330 * t321 / t332 / t325 + 0.81000000000000000000e-10 * params_a_c_ab[4] * t344 / t346)
" unpol "t3 = 0.1e1 <= p_a_zeta_threshold
t4 = jnp.logical_or(r0 / 0.2e1 <= p_a_dens_threshold, t3)
t5 = lax_cond(t3, p_a_zeta_threshold, 1)
t6 = 3 ** (0.1e1 / 0.3e1)
t8 = (0.1e1 / math.pi) ** (0.1e1 / 0.3e1)
t9 = t6 * t8
t10 = 4 ** (0.1e1 / 0.3e1)
t11 = t10 ** 2
t13 = r0 ** (0.1e1 / 0.3e1)
t14 = 0.1e1 / t13
t15 = 2 ** (0.1e1 / 0.3e1)
t17 = p_a_zeta_threshold ** (0.1e1 / 0.3e1)
t19 = lax_cond(t3, 0.1e1 / t17, 1)
t21 = t9 * t11 * t14 * t15 * t19
t24 = math.sqrt(t21)
t27 = t21 ** 0.15e1
t29 = t6 ** 2
t30 = t8 ** 2
t31 = t29 * t30
t33 = t13 ** 2
t34 = 0.1e1 / t33
t35 = t15 ** 2
t37 = t19 ** 2
t39 = t31 * t10 * t34 * t35 * t37
t45 = math.log(0.1e1 + 0.16081824322151104822e2 / (0.37978500000000000000e1 * t24 + 0.89690000000000000000e0 * t21 + 0.20477500000000000000e0 * t27 + 0.12323500000000000000e0 * t39))
t47 = 0.62182e-1 * (0.1e1 + 0.53425000000000000000e-1 * t21) * t45
t49 = t17 * p_a_zeta_threshold
t51 = lax_cond(0.2e1 <= p_a_zeta_threshold, t49, 0.2e1 * t15)
t53 = lax_cond(0.0e0 <= p_a_zeta_threshold, t49, 0)
t57 = 0.1e1 / (0.2e1 * t15 - 0.2e1)
t58 = (t51 + t53 - 0.2e1) * t57
t69 = math.log(0.1e1 + 0.32164683177870697974e2 / (0.70594500000000000000e1 * t24 + 0.15494250000000000000e1 * t21 + 0.42077500000000000000e0 * t27 + 0.15629250000000000000e0 * t39))
t82 = math.log(0.1e1 + 0.29608574643216675549e2 / (0.51785000000000000000e1 * t24 + 0.90577500000000000000e0 * t21 + 0.11003250000000000000e0 * t27 + 0.12417750000000000000e0 * t39))
t83 = (0.1e1 + 0.27812500000000000000e-1 * t21) * t82
t92 = lax_cond(t4, 0, t5 * (-t47 + t58 * (-0.31090e-1 * (0.1e1 + 0.51370000000000000000e-1 * t21) * t69 + t47 - 0.19751789702565206229e-1 * t83) + 0.19751789702565206229e-1 * t58 * t83) / 0.2e1)
t96 = r0 ** 2
t98 = 0.1e1 / t33 / t96
t99 = t35 * t98
t101 = s0 * t35 * t98
t103 = 0.1e1 + 0.2e0 * t101
t109 = s0 ** 2
t111 = t96 ** 2
t115 = t15 / t13 / t111 / r0
t116 = t103 ** 2
t122 = t109 * s0
t124 = t111 ** 2
t125 = 0.1e1 / t124
t132 = t109 ** 2
t137 = t35 / t33 / t124 / t96
t138 = t116 ** 2
t147 = t9 * t11 * t14
t150 = math.sqrt(t147)
t153 = t147 ** 0.15e1
t156 = t31 * t10 * t34
t162 = math.log(0.1e1 + 0.16081824322151104822e2 / (0.37978500000000000000e1 * t150 + 0.89690000000000000000e0 * t147 + 0.20477500000000000000e0 * t153 + 0.12323500000000000000e0 * t156))
t165 = lax_cond(t3, t49, 1)
t179 = math.log(0.1e1 + 0.29608574643216675549e2 / (0.51785000000000000000e1 * t150 + 0.90577500000000000000e0 * t147 + 0.11003250000000000000e0 * t153 + 0.12417750000000000000e0 * t156))
t189 = 0.1e1 + 0.6e-2 * t101
t196 = t189 ** 2
t210 = t196 ** 2
res = 0.2e1 * t92 * (params_a_c_ss[0] + 0.2e0 * params_a_c_ss[1] * s0 * t99 / t103 + 0.8e-1 * params_a_c_ss[2] * t109 * t115 / t116 + 0.32e-1 * params_a_c_ss[3] * t122 * t125 / t116 / t103 + 0.64e-2 * params_a_c_ss[4] * t132 * t137 / t138) + (-0.62182e-1 * (0.1e1 + 0.53425000000000000000e-1 * t147) * t162 + 0.19751789702565206229e-1 * (0.2e1 * t165 - 0.2e1) * t57 * (0.1e1 + 0.27812500000000000000e-1 * t147) * t179 - 0.2e1 * t92) * (params_a_c_ab[0] + 0.6e-2 * params_a_c_ab[1] * s0 * t99 / t189 + 0.72e-4 * params_a_c_ab[2] * t109 * t115 / t196 + 0.864e-6 * params_a_c_ab[3] * t122 * t125 / t196 / t189 + 0.5184e-8 * params_a_c_ab[4] * t132 * t137 / t210)
"

/- gen_repo/impl/prebuilt/pol/gga_c_ccdf.py and gen_repo/impl/prebuilt/unpol/gga_c_ccdf.py -/
formula gga_c_ccdf pol "t1 = r0 + r1
t2 = t1 ** (0.1e1 / 0.3e1)
t8 = 2 ** (0.1e1 / 0.3e1)
t9 = 6 ** (0.1e1 / 0.3e1)
t10 = t9 ** 2
t12 = math.pi ** 2
t13 = t12 ** (0.1e1 / 0.3e1)
t17 = math.sqrt(s0 + 0.2e1 * s1 + s2)
t26 = math.exp(-params_a_c4 * (t8 * t10 / t13 * t17 / t2 / t1 / 0.12e2 - params_a_c5))
res = params_a_c1 / (0.1e1 + params_a_c2 / t2) * (0.1e1 - params_a_c3 / (0.1e1 + t26))
" unpol "t1 = r0 ** (0.1e1 / 0.3e1)
t7 = 2 ** (0.1e1 / 0.3e1)
t8 = 6 ** (0.1e1 / 0.3e1)
t9 = t8 ** 2
t11 = math.pi ** 2
t12 = t11 ** (0.1e1 / 0.3e1)
t14 = math.sqrt(s0)
t23 = math.exp(-params_a_c4 * (t7 * t9 / t12 * t14 / t1 / r0 / 0.12e2 - params_a_c5))
res = params_a_c1 / (0.1e1 + params_a_c2 / t1) * (0.1e1 - params_a_c3 / (0.1e1 + t23))
"

/- gen_repo/impl/prebuilt/pol/gga_c_chachiyo.py and gen_repo/impl/prebuilt/unpol/gga_c_chachiyo.py -/
formula gga_c_chachiyo pol "t1 = 3 ** (0.1e1 / 0.3e1)
t2 = t1 ** 2
t5 = (0.1e1 / math.pi) ** (0.1e1 / 0.3e1)
t7 = 4 ** (0.1e1 / 0.3e1)
t9 = r0 + r1
t10 = t9 ** (0.1e1 / 0.3e1)
t11 = 0.1e1 / t5 * t7 * t10
t15 = t5 ** 2
t17 = t7 ** 2
t19 = t10 ** 2
t20 = 0.1e1 / t15 * t17 * t19
t24 = math.log(0.1e1 + params_a_bp * t2 * t11 / 0.3e1 + params_a_cp * t1 * t20 / 0.3e1)
t25 = params_a_ap * t24
t33 = math.log(0.1e1 + params_a_bf * t2 * t11 / 0.3e1 + params_a_cf * t1 * t20 / 0.3e1)
t38 = (r0 - r1) / t9
t39 = 0.1e1 + t38
t41 = p_a_zeta_threshold ** (0.1e1 / 0.3e1)
t42 = t41 ** 2
t43 = t39 ** (0.1e1 / 0.3e1)
t44 = t43 ** 2
t45 = lax_cond(t39 <= p_a_zeta_threshold, t42, t44)
t46 = 0.1e1 - t38
t48 = t46 ** (0.1e1 / 0.3e1)
t49 = t48 ** 2
t50 = lax_cond(t46 <= p_a_zeta_threshold, t42, t49)
t52 = t45 / 0.2e1 + t50 / 0.2e1
t53 = t52 ** 2
t58 = t25 + (params_a_af * t33 - t25) * (-0.2e1 * t53 * t52 + 0.2e1)
t59 = math.pi ** (0.1e1 / 0.3e1)
t61 = t9 ** 2
t72 = (0.1e1 + t2 * t59 / t10 / t61 * (s0 + 0.2e1 * s1 + s2) / 0.48e2) ** (params_a_h / t58)
res = t58 * t72
" unpol "t1 = 3 ** (0.1e1 / 0.3e1)
t2 = t1 ** 2
t5 = (0.1e1 / math.pi) ** (0.1e1 / 0.3e1)
t7 = 4 ** (0.1e1 / 0.3e1)
t9 = r0 ** (0.1e1 / 0.3e1)
t10 = 0.1e1 / t5 * t7 * t9
t14 = t5 ** 2
t16 = t7 ** 2
t18 = t9 ** 2
t19 = 0.1e1 / t14 * t16 * t18
t23 = math.log(0.1e1 + params_a_bp * t2 * t10 / 0.3e1 + params_a_cp * t1 * t19 / 0.3e1)
t24 = params_a_ap * t23
t32 = math.log(0.1e1 + params_a_bf * t2 * t10 / 0.3e1 + params_a_cf * t1 * t19 / 0.3e1)
t36 = p_a_zeta_threshold ** (0.1e1 / 0.3e1)
t37 = t36 ** 2
t38 = lax_cond(0.1e1 <= p_a_zeta_threshold, t37, 1)
t39 = t38 ** 2
t44 = t24 + (params_a_af * t32 - t24) * (-0.2e1 * t39 * t38 + 0.2e1)
t45 = math.pi ** (0.1e1 / 0.3e1)
t47 = r0 ** 2
t56 = (0.1e1 + t2 * t45 / t9 / t47 * s0 / 0.48e2) ** (params_a_h / t44)
res = t44 * t56
"

/- gen_repo/impl/prebuilt/pol/gga_c_cs1.py and gen_repo/impl/prebuilt/unpol/gga_c_cs1.py -/
formula gga_c_cs1 pol "t1 = r0 - r1
t2 = t1 ** 2
t3 = r0 + r1
t4 = t3 ** 2
t8 = t3 ** (0.1e1 / 0.3e1)
t15 = s0 + 0.2e1 * s1 + s2
t16 = t15 ** 2
t17 = t4 ** 2
t22 = t8 ** 2
t28 = (0.1e1 + 0.6e-2 * t15 / t22 / t4) ** 2
t36 = t1 / t3
t37 = 0.1e1 + t36
t39 = lax_cond(t37 <= p_a_zeta_threshold, p_a_zeta_threshold, t37)
t40 = r0 ** (0.1e1 / 0.3e1)
t44 = s0 ** 2
t45 = r0 ** 2
t46 = t45 ** 2
t51 = t40 ** 2
t57 = (0.1e1 + 0.6e-2 * s0 / t51 / t45) ** 2
t65 = 0.1e1 - t36
t67 = lax_cond(t65 <= p_a_zeta_threshold, p_a_zeta_threshold, t65)
t68 = r1 ** (0.1e1 / 0.3e1)
t72 = s2 ** 2
t73 = r1 ** 2
t74 = t73 ** 2
t79 = t68 ** 2
t85 = (0.1e1 + 0.6e-2 * s2 / t79 / t73) ** 2
res = (0.1e1 - t2 / t4) / (0.1e1 + 0.349e0 / t8) * (-0.159068e0 + 0.286308e-6 * t16 / t8 / t17 / t3 / t28) / 0.4e1 + t39 * t40 / (t40 + 0.349e0) * (-0.18897e-1 + 0.5588640e-5 * t44 / t40 / t46 / r0 / t57) / 0.2e1 + t67 * t68 / (t68 + 0.349e0) * (-0.18897e-1 + 0.5588640e-5 * t72 / t68 / t74 / r1 / t85) / 0.2e1
" unpol "t1 = r0 ** (0.1e1 / 0.3e1)
t6 = s0 ** 2
t7 = r0 ** 2
t8 = t7 ** 2
t11 = 0.1e1 / t1 / t8 / r0
t13 = t1 ** 2
t15 = 0.1e1 / t13 / t7
t19 = (0.1e1 + 0.6e-2 * s0 * t15) ** 2
t27 = lax_cond(0.1e1 <= p_a_zeta_threshold, p_a_zeta_threshold, 1)
t28 = 2 ** (0.1e1 / 0.3e1)
t29 = t28 ** 2
t41 = (0.1e1 + 0.6e-2 * s0 * t29 * t15) ** 2
res = 0.1e1 / (0.1e1 + 0.349e0 / t1) * (-0.159068e0 + 0.286308e-6 * t6 * t11 / t19) / 0.4e1 + t27 * t29 * t1 / (t29 * t1 / 0.2e1 + 0.349e0) * (-0.18897e-1 + 0.11177280e-4 * t6 * t28 * t11 / t41) / 0.2e1
"

/- gen_repo/impl/prebuilt/pol/gga_c_ft97.py and gen_repo/impl/prebuilt/unpol/gga_c_ft97.py -/
formula gga_c_ft97 pol "t1 = math.log(0.2e1)
t2 = 0.1e1 - t1
t3 = math.pi ** 2
t5 = t2 / t3
t6 = 3 ** (0.1e1 / 0.3e1)
t7 = 0.1e1 / math.pi
t8 = t7 ** (0.1e1 / 0.3e1)
t9 = t6 * t8
t10 = t5 * t9
t11 = 4 ** (0.1e1 / 0.3e1)
t12 = t11 ** 2
t13 = r0 + r1
t14 = t13 ** (0.1e1 / 0.3e1)
t15 = 0.1e1 / t14
t16 = t12 * t15
t17 = 2 ** (0.1e1 / 0.3e1)
t20 = (r0 - r1) / t13
t21 = 0.1e1 + t20
t23 = (0.1e1 / t21) ** (0.1e1 / 0.3e1)
t24 = t17 * t23
t25 = 4 ** (0.1e1 / 0.5e1)
t26 = t9 * t12
t27 = t15 * t17
t28 = t27 * t23
t29 = t26 * t28
t30 = t29 ** (0.1e1 / 0.5e1)
t31 = t30 ** 2
t32 = t31 ** 2
t35 = math.exp(-0.20818970000000000000e-1 * t25 * t32)
t38 = (0.942486901e0 + 0.349064173e0 * t35) ** 2
t39 = t6 ** 2
t40 = t8 ** 2
t41 = t39 * t40
t43 = r0 ** 2
t44 = r0 ** (0.1e1 / 0.3e1)
t45 = t44 ** 2
t47 = 0.1e1 / t45 / t43
t52 = t6 * t8 * t7
t53 = s0 ** 2
t55 = t43 ** 2
t60 = t52 * t12 * t53 / t44 / t55 / r0
t61 = 0.55569193573523559258e-3 * t60
t63 = (0.1e1 + 0.45058854638888888889e-1 * t41 * t11 * s0 * t47 + t61) ** 2
t65 = math.exp(-t61)
t66 = t65 ** 2
t70 = t17 ** 2
t74 = t9 * t12 * s0 * t47 * t14 * t70 / t23
t79 = t38 * t63 * t66 / (0.1e1 + 0.19153082513888888889e-1 * t74)
t81 = lax_cond(0.1e-59 < t79, t79, 0.1e-59)
t82 = 0.1e1 / t81
t85 = t10 * t16 * t24 * t82
t86 = t85 / 0.6e1
t88 = xc_E1_scaled(t86)
t89 = t5 * t26
t90 = math.sqrt(0.6e1)
t91 = t90 * t7
t94 = t2 * t6 * t8 * t12
t98 = math.sqrt(t94 * t27 * t23 * t82)
t99 = t91 * t98
t102 = 0.3e1 + t99 / 0.3e1 + t85 / 0.3e1
t105 = 0.1e1 / (0.3e1 + t99 + t85)
t115 = 0.1e1 - t20
t119 = lax_cond(0.10e8 <= t86, 0, t5 * (-t88 * (0.1e1 + t89 * t28 * t82 * t102 * t105 / 0.3e1) + 0.2e1 * t102 * t105) * t115 / 0.4e1)
t120 = math.sqrt(t29)
t122 = math.exp(-0.54466942400000000000e0 * t120)
t124 = t25 ** 2
t125 = t124 * t25
t128 = math.exp(-0.16390970575000000000e0 * t125 * t31)
t131 = (0.1247511874e1 - 0.859614445e0 * t122 + 0.812904345e0 * t128) ** 2
t132 = 0.56633563016285904186e-1 * t60
t134 = (0.1e1 + t132) ** 2
t136 = math.exp(-t132)
t137 = t136 ** 2
t142 = t131 * t134 * t137 / (0.1e1 + 0.50008500819444444447e-1 * t74)
t144 = lax_cond(0.1e-59 < t142, t142, 0.1e-59)
t145 = 0.1e1 / t144
t148 = t10 * t16 * t24 * t145
t149 = t148 / 0.6e1
t151 = xc_E1_scaled(t149)
t155 = math.sqrt(t94 * t27 * t23 * t145)
t156 = t91 * t155
t159 = 0.3e1 + t156 / 0.3e1 + t148 / 0.3e1
t162 = 0.1e1 / (0.3e1 + t156 + t148)
t172 = t41 * t11
t173 = t14 ** 2
t175 = 0.1e1 / t173 * t70
t176 = t23 ** 2
t180 = (0.46950800000000000000e0 * t120 + 0.43329250000000000000e0 * t29) ** 2
t186 = math.exp(-t172 * t175 * t176 / t180 / 0.4e1)
t191 = lax_cond(0.10e8 <= t149, 0, t5 * (-t151 * (0.1e1 + t89 * t28 * t145 * t159 * t162 / 0.3e1) + 0.2e1 * t159 * t162) * t186 * t21 / 0.4e1)
t193 = (0.1e1 / t115) ** (0.1e1 / 0.3e1)
t194 = t17 * t193
t195 = t27 * t193
t196 = t26 * t195
t197 = t196 ** (0.1e1 / 0.5e1)
t198 = t197 ** 2
t199 = t198 ** 2
t202 = math.exp(-0.20818970000000000000e-1 * t25 * t199)
t205 = (0.942486901e0 + 0.349064173e0 * t202) ** 2
t207 = r1 ** 2
t208 = r1 ** (0.1e1 / 0.3e1)
t209 = t208 ** 2
t211 = 0.1e1 / t209 / t207
t215 = s2 ** 2
t217 = t207 ** 2
t222 = t52 * t12 * t215 / t208 / t217 / r1
t223 = 0.55569193573523559258e-3 * t222
t225 = (0.1e1 + 0.45058854638888888889e-1 * t41 * t11 * s2 * t211 + t223) ** 2
t227 = math.exp(-t223)
t228 = t227 ** 2
t235 = t9 * t12 * s2 * t211 * t14 * t70 / t193
t240 = t205 * t225 * t228 / (0.1e1 + 0.19153082513888888889e-1 * t235)
t242 = lax_cond(0.1e-59 < t240, t240, 0.1e-59)
t243 = 0.1e1 / t242
t246 = t10 * t16 * t194 * t243
t247 = t246 / 0.6e1
t249 = xc_E1_scaled(t247)
t253 = math.sqrt(t94 * t27 * t193 * t243)
t254 = t91 * t253
t257 = 0.3e1 + t254 / 0.3e1 + t246 / 0.3e1
t260 = 0.1e1 / (0.3e1 + t254 + t246)
t273 = lax_cond(0.10e8 <= t247, 0, t5 * (-t249 * (0.1e1 + t89 * t195 * t243 * t257 * t260 / 0.3e1) + 0.2e1 * t257 * t260) * t21 / 0.4e1)
t274 = math.sqrt(t196)
t276 = math.exp(-0.54466942400000000000e0 * t274)
t280 = math.exp(-0.16390970575000000000e0 * t125 * t198)
t283 = (0.1247511874e1 - 0.859614445e0 * t276 + 0.812904345e0 * t280) ** 2
t284 = 0.56633563016285904186e-1 * t222
t286 = (0.1e1 + t284) ** 2
t288 = math.exp(-t284)
t289 = t288 ** 2
t294 = t283 * t286 * t289 / (0.1e1 + 0.50008500819444444447e-1 * t235)
t296 = lax_cond(0.1e-59 < t294, t294, 0.1e-59)
t297 = 0.1e1 / t296
t300 = t10 * t16 * t194 * t297
t301 = t300 / 0.6e1
t303 = xc_E1_scaled(t301)
t307 = math.sqrt(t94 * t27 * t193 * t297)
t308 = t91 * t307
t311 = 0.3e1 + t308 / 0.3e1 + t300 / 0.3e1
t314 = 0.1e1 / (0.3e1 + t308 + t300)
t324 = t193 ** 2
t328 = (0.46950800000000000000e0 * t274 + 0.43329250000000000000e0 * t196) ** 2
t334 = math.exp(-t172 * t175 * t324 / t328 / 0.4e1)
t339 = lax_cond(0.10e8 <= t301, 0, t5 * (-t303 * (0.1e1 + t89 * t195 * t297 * t311 * t314 / 0.3e1) + 0.2e1 * t311 * t314) * t334 * t115 / 0.4e1)
res = t119 + t191 + t273 + t339
" unpol "t1 = math.log(0.2e1)
t2 = 0.1e1 - t1
t3 = math.pi ** 2
t5 = t2 / t3
t6 = 3 ** (0.1e1 / 0.3e1)
t7 = 0.1e1 / math.pi
t8 = t7 ** (0.1e1 / 0.3e1)
t9 = t6 * t8
t10 = t5 * t9
t11 = 4 ** (0.1e1 / 0.3e1)
t12 = t11 ** 2
t13 = r0 ** (0.1e1 / 0.3e1)
t14 = 0.1e1 / t13
t15 = t12 * t14
t16 = 2 ** (0.1e1 / 0.3e1)
t17 = 4 ** (0.1e1 / 0.5e1)
t19 = t9 * t15 * t16
t20 = t19 ** (0.1e1 / 0.5e1)
t21 = t20 ** 2
t22 = t21 ** 2
t25 = math.exp(-0.20818970000000000000e-1 * t17 * t22)
t28 = (0.942486901e0 + 0.349064173e0 * t25) ** 2
t29 = t6 ** 2
t30 = t8 ** 2
t32 = t29 * t30 * t11
t33 = t16 ** 2
t35 = r0 ** 2
t36 = t13 ** 2
t45 = s0 ** 2
t47 = t35 ** 2
t52 = t6 * t8 * t7 * t12 * t45 * t16 / t13 / t47 / r0
t53 = 0.11113838714704711852e-2 * t52
t55 = (0.1e1 + 0.45058854638888888889e-1 * t32 * s0 * t33 / t36 / t35 + t53) ** 2
t57 = math.exp(-t53)
t58 = t57 ** 2
t59 = t9 * t12
t64 = t59 * s0 * t16 / t13 / t35
t69 = t28 * t55 * t58 / (0.1e1 + 0.38306165027777777778e-1 * t64)
t71 = lax_cond(0.1e-59 < t69, t69, 0.1e-59)
t72 = 0.1e1 / t71
t74 = t15 * t16 * t72
t75 = t10 * t74
t76 = t75 / 0.6e1
t78 = xc_E1_scaled(t76)
t79 = t5 * t59
t80 = t14 * t16
t81 = math.sqrt(0.6e1)
t82 = t81 * t7
t84 = t2 * t6 * t8
t86 = math.sqrt(t84 * t74)
t87 = t82 * t86
t90 = 0.3e1 + t87 / 0.3e1 + t75 / 0.3e1
t93 = 0.1e1 / (0.3e1 + t87 + t75)
t105 = lax_cond(0.10e8 <= t76, 0, t5 * (-t78 * (0.1e1 + t79 * t80 * t72 * t90 * t93 / 0.3e1) + 0.2e1 * t90 * t93) / 0.4e1)
t106 = math.sqrt(t19)
t108 = math.exp(-0.54466942400000000000e0 * t106)
t110 = t17 ** 2
t114 = math.exp(-0.16390970575000000000e0 * t110 * t17 * t21)
t117 = (0.1247511874e1 - 0.859614445e0 * t108 + 0.812904345e0 * t114) ** 2
t118 = 0.11326712603257180837e0 * t52
t120 = (0.1e1 + t118) ** 2
t122 = math.exp(-t118)
t123 = t122 ** 2
t128 = t117 * t120 * t123 / (0.1e1 + 0.10001700163888888889e0 * t64)
t130 = lax_cond(0.1e-59 < t128, t128, 0.1e-59)
t131 = 0.1e1 / t130
t133 = t15 * t16 * t131
t134 = t10 * t133
t135 = t134 / 0.6e1
t137 = xc_E1_scaled(t135)
t139 = math.sqrt(t84 * t133)
t140 = t82 * t139
t143 = 0.3e1 + t140 / 0.3e1 + t134 / 0.3e1
t146 = 0.1e1 / (0.3e1 + t140 + t134)
t161 = (0.46950800000000000000e0 * t106 + 0.43329250000000000000e0 * t19) ** 2
t166 = math.exp(-t32 / t36 * t33 / t161 / 0.4e1)
t170 = lax_cond(0.10e8 <= t135, 0, t5 * (-t137 * (0.1e1 + t79 * t80 * t131 * t143 * t146 / 0.3e1) + 0.2e1 * t143 * t146) * t166 / 0.4e1)
res = 0.2e1 * t105 + 0.2e1 * t170
"

/- gen_repo/impl/prebuilt/pol/gga_c_gapc.py and gen_repo/impl/prebuilt/unpol/gga_c_gapc.py -/
formula gga_c_gapc pol "t1 = 3 ** (0.1e1 / 0.3e1)
t2 = 0.1e1 / math.pi
t3 = t2 ** (0.1e1 / 0.3e1)
t5 = 4 ** (0.1e1 / 0.3e1)
t6 = t5 ** 2
t7 = r0 + r1
t8 = t7 ** (0.1e1 / 0.3e1)
t11 = t1 * t3 * t6 / t8
t14 = math.sqrt(t11)
t17 = t11 ** 0.15e1
t19 = t1 ** 2
t20 = t3 ** 2
t22 = t8 ** 2
t25 = t19 * t20 * t5 / t22
t31 = math.log(0.1e1 + 0.16081824322151104822e2 / (0.37978500000000000000e1 * t14 + 0.89690000000000000000e0 * t11 + 0.20477500000000000000e0 * t17 + 0.12323500000000000000e0 * t25))
t33 = 0.62182e-1 * (0.1e1 + 0.53425000000000000000e-1 * t11) * t31
t34 = 0.1e1 <= p_a_zeta_threshold
t35 = p_a_zeta_threshold ** (0.1e1 / 0.3e1)
t36 = t35 * p_a_zeta_threshold
t37 = lax_cond(t34, t36, 1)
t40 = 2 ** (0.1e1 / 0.3e1)
t43 = 0.1e1 / (0.2e1 * t40 - 0.2e1)
t55 = math.log(0.1e1 + 0.29608574643216675549e2 / (0.51785000000000000000e1 * t14 + 0.90577500000000000000e0 * t11 + 0.11003250000000000000e0 * t17 + 0.12417750000000000000e0 * t25))
t56 = (0.1e1 + 0.27812500000000000000e-1 * t11) * t55
t58 = 0.19751789702565206229e-1 * (0.2e1 * t37 - 0.2e1) * t43 * t56
t61 = 0.1e1 / t22 / t7
t62 = math.pi * t6 * t61
t63 = 0.1e1 / t7
t64 = t2 * t63
t70 = 0.1e1 + t14 * (0.107924e1 + 0.39640000000000000000e-1 * t14 + 0.12382500000000000000e-1 * t11) / 0.2e1
t71 = t70 ** 2
t75 = -t33 + t58
t82 = t1 * t3 * t2 * t6 / t8 / t7
t87 = t19 * t20 * t2 * t5 * t61
t89 = math.pi ** 2
t90 = 0.1e1 / t89
t91 = t7 ** 2
t93 = t90 / t91
t98 = 0.1e1 / t8 / t91
t100 = t1 * t3 * t90 * t6 * t98
t102 = -0.18780000000000000000e-1 * t64 + 0.13173750000000000000e-2 * t82 - 0.23775000000000000000e-3 * t87 + 0.63900000000000000000e-4 * t93 - 0.54014062500000000000e-6 * t100
t104 = 0.36798313500000000000e-2 * t64 / t71 - t75 * t102
t105 = 0.1e1 / t20
t106 = t1 * t105
t107 = 4 ** (0.1e1 / 0.6e1)
t108 = t106 * t107
t109 = t14 * t11
t110 = t22 * t109
t111 = 0.1e1 / t70
t115 = t75 ** 2
t118 = 0.1e1 / (0.19711288999999999999e-2 * t108 * t110 * t111 - 0.2e1 * t115)
t119 = t104 * t118
t120 = t35 ** 2
t121 = lax_cond(t34, t120, 1)
t125 = 0.1e1 + 0.25000000000000000000e-1 * t11
t127 = 0.1e1 + 0.44450000000000000000e-1 * t11
t131 = s0 + 0.2e1 * s1 + s2
t132 = t125 / t127 * t131
t137 = math.log(t11 / 0.4e1)
t138 = t6 / t22 / t91 * t137
t139 = t121 ** 2
t140 = 0.1e1 / t139
t143 = 0.1e1 / t125 * t127
t147 = 0.30e2 + 0.72806316506996704929e-2 * t138 * t131 * t140 * t143
t148 = t131 * t98
t150 = 0.1e1 / t3
t154 = 0.30e2 + t148 * t140 * t19 * t150 / 0.48e2
t157 = t106 * t6
t162 = math.sqrt(0.4e1)
t167 = t6 * t22
t172 = (0.61912500000000000000e-2 * t75 * t162 * t109 * t111 - 0.79593333333333333331e-1 * t106 * t167 * t102) * t118
t174 = 0.79593333333333333331e-1 * t157 * t22 * t104 * t118 - t172 * t75
t176 = t147 / t154 / t174
t184 = t98 * t19 * t150
t189 = t125 ** 2
t190 = t127 ** 2
t193 = t131 ** 2
t194 = t189 / t190 * t193
t196 = t91 ** 2
t200 = 0.1e1 / t22 / t196 * t1 * t105
t201 = t147 ** 2
t202 = t154 ** 2
t205 = t174 ** 2
t213 = (-t33 + t58 + 0.33192683735458272399e-3 * t62 * t119 * t121 * t132 * t176) / (0.1e1 + 0.13900948042322754167e-2 * t172 * t121 * t132 * t184 * t176 - 0.57970906942607043474e-5 * t119 * t139 * t194 * t200 * t201 / t202 / t205)
t215 = (r0 - r1) * t63
t216 = 0.1e1 + t215
t218 = t216 ** (0.1e1 / 0.3e1)
t220 = lax_cond(t216 <= p_a_zeta_threshold, t36, t218 * t216)
t221 = 0.1e1 - t215
t223 = t221 ** (0.1e1 / 0.3e1)
t225 = lax_cond(t221 <= p_a_zeta_threshold, t36, t223 * t221)
t228 = 0.2e1 <= p_a_zeta_threshold
t230 = lax_cond(t228, t36, 0.2e1 * t40)
t231 = 0.0e0 <= p_a_zeta_threshold
t232 = lax_cond(t231, t36, 0)
t234 = (t230 + t232 - 0.2e1) * t43
t245 = math.log(0.1e1 + 0.32164683177870697974e2 / (0.70594500000000000000e1 * t14 + 0.15494250000000000000e1 * t11 + 0.42077500000000000000e0 * t17 + 0.15629250000000000000e0 * t25))
t250 = t234 * (-0.31090e-1 * (0.1e1 + 0.51370000000000000000e-1 * t11) * t245 + t33 - 0.19751789702565206229e-1 * t56)
t252 = 0.19751789702565206229e-1 * t234 * t56
t258 = 0.1e1 + t14 * (0.149676e1 + 0.89527000000000000000e-3 * t14 + 0.11799625000000000000e-1 * t11) / 0.2e1
t259 = t258 ** 2
t263 = -t33 + t250 + t252
t269 = -0.24306825000000000000e-1 * t64 + 0.18749587500000000000e-2 * t82 - 0.36278062500000000000e-3 * t87 + 0.10075387500000000000e-3 * t93 - 0.86596593750000000000e-6 * t100
t271 = 0.33415476033750000000e-2 * t64 / t259 - t263 * t269
t272 = 0.1e1 / t258
t276 = t263 ** 2
t279 = 0.1e1 / (0.50765919958333333334e-3 * t108 * t110 * t272 - 0.2e1 * t276)
t280 = t271 * t279
t281 = t40 ** 2
t282 = lax_cond(t228, t120, t281)
t283 = lax_cond(t231, t120, 0)
t285 = t282 / 0.2e1 + t283 / 0.2e1
t288 = t285 ** 2
t289 = 0.1e1 / t288
t294 = 0.30e2 + 0.36401987395106744013e-2 * t138 * t131 * t289 * t143
t299 = 0.30e2 + t148 * t289 * t19 * t150 / 0.48e2
t314 = (0.58998125000000000000e-2 * t263 * t162 * t109 * t272 - 0.21511666666666666667e-1 * t106 * t167 * t269) * t279
t316 = 0.21511666666666666667e-1 * t157 * t22 * t271 * t279 - t314 * t263
t318 = t294 / t299 / t316
t330 = t294 ** 2
t331 = t299 ** 2
t334 = t316 ** 2
res = t213 + (t220 + t225 - 0.2e1) * t43 * ((-t33 + t250 + t252 + 0.89709768191129894019e-4 * t62 * t280 * t285 * t132 * t318) / (0.1e1 + 0.13900948042322754167e-2 * t314 * t285 * t132 * t184 * t318 - 0.57970906942607043474e-5 * t280 * t288 * t194 * t200 * t330 / t331 / t334) - t213)
" unpol "t1 = 3 ** (0.1e1 / 0.3e1)
t2 = 0.1e1 / math.pi
t3 = t2 ** (0.1e1 / 0.3e1)
t5 = 4 ** (0.1e1 / 0.3e1)
t6 = t5 ** 2
t7 = r0 ** (0.1e1 / 0.3e1)
t10 = t1 * t3 * t6 / t7
t13 = math.sqrt(t10)
t16 = t10 ** 0.15e1
t18 = t1 ** 2
t19 = t3 ** 2
t21 = t7 ** 2
t24 = t18 * t19 * t5 / t21
t30 = math.log(0.1e1 + 0.16081824322151104822e2 / (0.37978500000000000000e1 * t13 + 0.89690000000000000000e0 * t10 + 0.20477500000000000000e0 * t16 + 0.12323500000000000000e0 * t24))
t32 = 0.62182e-1 * (0.1e1 + 0.53425000000000000000e-1 * t10) * t30
t33 = 0.1e1 <= p_a_zeta_threshold
t34 = p_a_zeta_threshold ** (0.1e1 / 0.3e1)
t35 = t34 * p_a_zeta_threshold
t36 = lax_cond(t33, t35, 1)
t39 = 2 ** (0.1e1 / 0.3e1)
t42 = 0.1e1 / (0.2e1 * t39 - 0.2e1)
t43 = (0.2e1 * t36 - 0.2e1) * t42
t54 = math.log(0.1e1 + 0.29608574643216675549e2 / (0.51785000000000000000e1 * t13 + 0.90577500000000000000e0 * t10 + 0.11003250000000000000e0 * t16 + 0.12417750000000000000e0 * t24))
t55 = (0.1e1 + 0.27812500000000000000e-1 * t10) * t54
t57 = 0.19751789702565206229e-1 * t43 * t55
t60 = 0.1e1 / t21 / r0
t61 = math.pi * t6 * t60
t63 = t2 / r0
t69 = 0.1e1 + t13 * (0.107924e1 + 0.39640000000000000000e-1 * t13 + 0.12382500000000000000e-1 * t10) / 0.2e1
t70 = t69 ** 2
t74 = -t32 + t57
t81 = t1 * t3 * t2 * t6 / t7 / r0
t86 = t18 * t19 * t2 * t5 * t60
t88 = math.pi ** 2
t89 = 0.1e1 / t88
t90 = r0 ** 2
t92 = t89 / t90
t97 = 0.1e1 / t7 / t90
t99 = t1 * t3 * t89 * t6 * t97
t101 = -0.18780000000000000000e-1 * t63 + 0.13173750000000000000e-2 * t81 - 0.23775000000000000000e-3 * t86 + 0.63900000000000000000e-4 * t92 - 0.54014062500000000000e-6 * t99
t103 = 0.36798313500000000000e-2 * t63 / t70 - t74 * t101
t104 = 0.1e1 / t19
t105 = t1 * t104
t106 = 4 ** (0.1e1 / 0.6e1)
t107 = t105 * t106
t108 = t13 * t10
t109 = t21 * t108
t110 = 0.1e1 / t69
t114 = t74 ** 2
t117 = 0.1e1 / (0.19711288999999999999e-2 * t107 * t109 * t110 - 0.2e1 * t114)
t118 = t103 * t117
t119 = t34 ** 2
t120 = lax_cond(t33, t119, 1)
t124 = 0.1e1 + 0.25000000000000000000e-1 * t10
t126 = 0.1e1 + 0.44450000000000000000e-1 * t10
t129 = t124 / t126 * s0
t134 = math.log(t10 / 0.4e1)
t135 = t6 / t21 / t90 * t134
t136 = t120 ** 2
t137 = 0.1e1 / t136
t140 = 0.1e1 / t124 * t126
t144 = 0.30e2 + 0.72806316506996704929e-2 * t135 * s0 * t137 * t140
t145 = s0 * t97
t147 = 0.1e1 / t3
t151 = 0.30e2 + t145 * t137 * t18 * t147 / 0.48e2
t154 = t105 * t6
t159 = math.sqrt(0.4e1)
t164 = t6 * t21
t169 = (0.61912500000000000000e-2 * t74 * t159 * t108 * t110 - 0.79593333333333333331e-1 * t105 * t164 * t101) * t117
t171 = 0.79593333333333333331e-1 * t154 * t21 * t103 * t117 - t169 * t74
t173 = t144 / t151 / t171
t181 = t97 * t18 * t147
t186 = t124 ** 2
t187 = t126 ** 2
t190 = s0 ** 2
t191 = t186 / t187 * t190
t193 = t90 ** 2
t197 = 0.1e1 / t21 / t193 * t1 * t104
t198 = t144 ** 2
t199 = t151 ** 2
t202 = t171 ** 2
t210 = (-t32 + t57 + 0.33192683735458272399e-3 * t61 * t118 * t120 * t129 * t173) / (0.1e1 + 0.13900948042322754167e-2 * t169 * t120 * t129 * t181 * t173 - 0.57970906942607043474e-5 * t118 * t136 * t191 * t197 * t198 / t199 / t202)
t211 = 0.2e1 <= p_a_zeta_threshold
t213 = lax_cond(t211, t35, 0.2e1 * t39)
t214 = 0.0e0 <= p_a_zeta_threshold
t215 = lax_cond(t214, t35, 0)
t217 = (t213 + t215 - 0.2e1) * t42
t228 = math.log(0.1e1 + 0.32164683177870697974e2 / (0.70594500000000000000e1 * t13 + 0.15494250000000000000e1 * t10 + 0.42077500000000000000e0 * t16 + 0.15629250000000000000e0 * t24))
t233 = t217 * (-0.31090e-1 * (0.1e1 + 0.51370000000000000000e-1 * t10) * t228 + t32 - 0.19751789702565206229e-1 * t55)
t235 = 0.19751789702565206229e-1 * t217 * t55
t241 = 0.1e1 + t13 * (0.149676e1 + 0.89527000000000000000e-3 * t13 + 0.11799625000000000000e-1 * t10) / 0.2e1
t242 = t241 ** 2
t246 = -t32 + t233 + t235
t252 = -0.24306825000000000000e-1 * t63 + 0.18749587500000000000e-2 * t81 - 0.36278062500000000000e-3 * t86 + 0.10075387500000000000e-3 * t92 - 0.86596593750000000000e-6 * t99
t254 = 0.33415476033750000000e-2 * t63 / t242 - t246 * t252
t255 = 0.1e1 / t241
t259 = t246 ** 2
t262 = 0.1e1 / (0.50765919958333333334e-3 * t107 * t109 * t255 - 0.2e1 * t259)
t263 = t254 * t262
t264 = t39 ** 2
t265 = lax_cond(t211, t119, t264)
t266 = lax_cond(t214, t119, 0)
t268 = t265 / 0.2e1 + t266 / 0.2e1
t271 = t268 ** 2
t272 = 0.1e1 / t271
t277 = 0.30e2 + 0.36401987395106744013e-2 * t135 * s0 * t272 * t140
t282 = 0.30e2 + t145 * t272 * t18 * t147 / 0.48e2
t297 = (0.58998125000000000000e-2 * t246 * t159 * t108 * t255 - 0.21511666666666666667e-1 * t105 * t164 * t252) * t262
t299 = 0.21511666666666666667e-1 * t154 * t21 * t254 * t262 - t297 * t246
t301 = t277 / t282 / t299
t313 = t277 ** 2
t314 = t282 ** 2
t317 = t299 ** 2
res = t210 + t43 * ((-t32 + t233 + t235 + 0.89709768191129894019e-4 * t61 * t263 * t268 * t129 * t301) / (0.1e1 + 0.13900948042322754167e-2 * t297 * t268 * t129 * t181 * t301 - 0.57970906942607043474e-5 * t263 * t271 * t191 * t197 * t313 / t314 / t317) - t210)
"

/- gen_repo/impl/prebuilt/pol/gga_c_gaploc.py and gen_repo/impl/prebuilt/unpol/gga_c_gaploc.py -/
formula gga_c_gaploc pol "t1 = 3 ** (0.1e1 / 0.3e1)
t2 = 0.1e1 / math.pi
t3 = t2 ** (0.1e1 / 0.3e1)
t5 = 4 ** (0.1e1 / 0.3e1)
t6 = t5 ** 2
t7 = r0 + r1
t8 = t7 ** (0.1e1 / 0.3e1)
t11 = t1 * t3 * t6 / t8
t14 = math.sqrt(t11)
t17 = t11 ** 0.15e1
t19 = t1 ** 2
t20 = t3 ** 2
t22 = t8 ** 2
t25 = t19 * t20 * t5 / t22
t31 = math.log(0.1e1 + 0.16081824322151104822e2 / (0.37978500000000000000e1 * t14 + 0.89690000000000000000e0 * t11 + 0.20477500000000000000e0 * t17 + 0.12323500000000000000e0 * t25))
t33 = 0.62182e-1 * (0.1e1 + 0.53425000000000000000e-1 * t11) * t31
t34 = 0.1e1 <= p_a_zeta_threshold
t35 = p_a_zeta_threshold ** (0.1e1 / 0.3e1)
t36 = t35 * p_a_zeta_threshold
t37 = lax_cond(t34, t36, 1)
t40 = 2 ** (0.1e1 / 0.3e1)
t43 = 0.1e1 / (0.2e1 * t40 - 0.2e1)
t55 = math.log(0.1e1 + 0.29608574643216675549e2 / (0.51785000000000000000e1 * t14 + 0.90577500000000000000e0 * t11 + 0.11003250000000000000e0 * t17 + 0.12417750000000000000e0 * t25))
t56 = (0.1e1 + 0.27812500000000000000e-1 * t11) * t55
t58 = 0.19751789702565206229e-1 * (0.2e1 * t37 - 0.2e1) * t43 * t56
t59 = t3 * t2
t61 = t19 / t59
t62 = t8 * t7
t63 = t6 * t62
t64 = 0.1e1 / t7
t65 = t2 * t64
t71 = 0.1e1 + t14 * (0.107924e1 + 0.39640000000000000000e-1 * t14 + 0.12382500000000000000e-1 * t11) / 0.2e1
t72 = t71 ** 2
t76 = -t33 + t58
t79 = 0.1e1 / t62
t81 = t1 * t59 * t6 * t79
t88 = t19 * t20 * t2 * t5 / t22 / t7
t90 = math.pi ** 2
t91 = 0.1e1 / t90
t92 = t7 ** 2
t94 = t91 / t92
t101 = t1 * t3 * t91 * t6 / t8 / t92
t103 = -0.18780000000000000000e-1 * t65 + 0.13173750000000000000e-2 * t81 - 0.23775000000000000000e-3 * t88 + 0.63900000000000000000e-4 * t94 - 0.54014062500000000000e-6 * t101
t105 = 0.36798313500000000000e-2 * t65 / t72 - t76 * t103
t109 = t1 / t20
t110 = 4 ** (0.1e1 / 0.6e1)
t111 = t109 * t110
t112 = t14 * t11
t113 = t22 * t112
t114 = 0.1e1 / t71
t118 = t76 ** 2
t121 = 0.1e1 / (0.19711288999999999999e-2 * t111 * t113 * t114 - 0.2e1 * t118)
t122 = 9 ** (0.1e1 / 0.3e1)
t123 = t122 ** 2
t125 = math.pi ** (0.1e1 / 0.3e1)
t126 = t125 ** 2
t128 = 6 ** (0.1e1 / 0.3e1)
t129 = t128 ** 2
t130 = t90 ** (0.1e1 / 0.3e1)
t134 = s0 + 0.2e1 * s1 + s2
t135 = math.sqrt(t134)
t139 = t129 / t130 * t135 * t79 * t40 / 0.12e2
t142 = math.sqrt(t7)
t145 = t135 * t134 / t142 / t92 / t7
t146 = t35 ** 2
t147 = lax_cond(t34, t146, 1)
t148 = t147 ** 2
t151 = math.sqrt(0.3e1)
t153 = math.sqrt(t2)
t154 = 0.1e1 / t153
t156 = t145 / t148 / t147 * t151 * t154
t163 = t139 ** ((0.854613e1 + t156 / 0.64e2) / (0.1e1 + t156 / 0.192e3))
t164 = t130 ** 2
t170 = t40 ** 2
t174 = 0.14709046e2 + t128 / t164 * t134 / t22 / t92 * t170 / 0.24e2
t176 = 0.1e1 + t163
t177 = 0.1e1 / t176
t183 = math.sqrt(0.4e1)
t188 = t6 * t22
t194 = t123 * t126
t197 = t22 * t174
t204 = t122 * t125 * math.pi
t205 = t163 ** 2
t208 = t174 ** 2
t209 = t62 * t208
t210 = t176 ** 2
t218 = (-t33 + t58 + 0.13265555555555555555e-1 * t61 * t63 * t105 * t121 * t123 * t126 * t163 * t174 * t177) / (0.1e1 + 0.16666666666666666667e0 * (0.61912500000000000000e-2 * t76 * t183 * t112 * t114 - 0.79593333333333333331e-1 * t109 * t188 * t103) * t121 * t194 * t163 * t109 * t197 * t177 - 0.25000000000000000001e0 * t105 * t121 * t204 * t205 * t61 * t209 / t210)
t220 = (r0 - r1) * t64
t221 = 0.1e1 + t220
t223 = t221 ** (0.1e1 / 0.3e1)
t225 = lax_cond(t221 <= p_a_zeta_threshold, t36, t223 * t221)
t226 = 0.1e1 - t220
t228 = t226 ** (0.1e1 / 0.3e1)
t230 = lax_cond(t226 <= p_a_zeta_threshold, t36, t228 * t226)
t233 = 0.2e1 <= p_a_zeta_threshold
t235 = lax_cond(t233, t36, 0.2e1 * t40)
t236 = 0.0e0 <= p_a_zeta_threshold
t237 = lax_cond(t236, t36, 0)
t239 = (t235 + t237 - 0.2e1) * t43
t250 = math.log(0.1e1 + 0.32164683177870697974e2 / (0.70594500000000000000e1 * t14 + 0.15494250000000000000e1 * t11 + 0.42077500000000000000e0 * t17 + 0.15629250000000000000e0 * t25))
t255 = t239 * (-0.31090e-1 * (0.1e1 + 0.51370000000000000000e-1 * t11) * t250 + t33 - 0.19751789702565206229e-1 * t56)
t257 = 0.19751789702565206229e-1 * t239 * t56
t263 = 0.1e1 + t14 * (0.149676e1 + 0.89527000000000000000e-3 * t14 + 0.11799625000000000000e-1 * t11) / 0.2e1
t264 = t263 ** 2
t268 = -t33 + t255 + t257
t274 = -0.24306825000000000000e-1 * t65 + 0.18749587500000000000e-2 * t81 - 0.36278062500000000000e-3 * t88 + 0.10075387500000000000e-3 * t94 - 0.86596593750000000000e-6 * t101
t276 = 0.33415476033750000000e-2 * t65 / t264 - t268 * t274
t279 = 0.1e1 / t263
t283 = t268 ** 2
t286 = 0.1e1 / (0.50765919958333333334e-3 * t111 * t113 * t279 - 0.2e1 * t283)
t289 = lax_cond(t233, t146, t170)
t290 = lax_cond(t236, t146, 0)
t292 = t289 / 0.2e1 + t290 / 0.2e1
t293 = t292 ** 2
t298 = t145 / t293 / t292 * t151 * t154
t305 = t139 ** ((0.854613e1 + t298 / 0.64e2) / (0.1e1 + t298 / 0.192e3))
t307 = 0.1e1 + t305
t308 = 0.1e1 / t307
t330 = t305 ** 2
t333 = t307 ** 2
res = t218 + (t225 + t230 - 0.2e1) * t43 * ((-t33 + t255 + t257 + 0.35852777777777777779e-2 * t61 * t63 * t276 * t286 * t123 * t126 * t305 * t174 * t308) / (0.1e1 + 0.16666666666666666667e0 * (0.58998125000000000000e-2 * t268 * t183 * t112 * t279 - 0.21511666666666666667e-1 * t109 * t188 * t274) * t286 * t194 * t305 * t109 * t197 * t308 - 0.25000000000000000001e0 * t276 * t286 * t204 * t330 * t61 * t209 / t333) - t218)
" unpol "t1 = 3 ** (0.1e1 / 0.3e1)
t2 = 0.1e1 / math.pi
t3 = t2 ** (0.1e1 / 0.3e1)
t5 = 4 ** (0.1e1 / 0.3e1)
t6 = t5 ** 2
t7 = r0 ** (0.1e1 / 0.3e1)
t10 = t1 * t3 * t6 / t7
t13 = math.sqrt(t10)
t16 = t10 ** 0.15e1
t18 = t1 ** 2
t19 = t3 ** 2
t21 = t7 ** 2
t24 = t18 * t19 * t5 / t21
t30 = math.log(0.1e1 + 0.16081824322151104822e2 / (0.37978500000000000000e1 * t13 + 0.89690000000000000000e0 * t10 + 0.20477500000000000000e0 * t16 + 0.12323500000000000000e0 * t24))
t32 = 0.62182e-1 * (0.1e1 + 0.53425000000000000000e-1 * t10) * t30
t33 = 0.1e1 <= p_a_zeta_threshold
t34 = p_a_zeta_threshold ** (0.1e1 / 0.3e1)
t35 = t34 * p_a_zeta_threshold
t36 = lax_cond(t33, t35, 1)
t39 = 2 ** (0.1e1 / 0.3e1)
t42 = 0.1e1 / (0.2e1 * t39 - 0.2e1)
t43 = (0.2e1 * t36 - 0.2e1) * t42
t54 = math.log(0.1e1 + 0.29608574643216675549e2 / (0.51785000000000000000e1 * t13 + 0.90577500000000000000e0 * t10 + 0.11003250000000000000e0 * t16 + 0.12417750000000000000e0 * t24))
t55 = (0.1e1 + 0.27812500000000000000e-1 * t10) * t54
t57 = 0.19751789702565206229e-1 * t43 * t55
t58 = t3 * t2
t60 = t18 / t58
t61 = t7 * r0
t62 = t6 * t61
t64 = t2 / r0
t70 = 0.1e1 + t13 * (0.107924e1 + 0.39640000000000000000e-1 * t13 + 0.12382500000000000000e-1 * t10) / 0.2e1
t71 = t70 ** 2
t75 = -t32 + t57
t78 = 0.1e1 / t61
t80 = t1 * t58 * t6 * t78
t87 = t18 * t19 * t2 * t5 / t21 / r0
t89 = math.pi ** 2
t90 = 0.1e1 / t89
t91 = r0 ** 2
t93 = t90 / t91
t100 = t1 * t3 * t90 * t6 / t7 / t91
t102 = -0.18780000000000000000e-1 * t64 + 0.13173750000000000000e-2 * t80 - 0.23775000000000000000e-3 * t87 + 0.63900000000000000000e-4 * t93 - 0.54014062500000000000e-6 * t100
t104 = 0.36798313500000000000e-2 * t64 / t71 - t75 * t102
t108 = t1 / t19
t109 = 4 ** (0.1e1 / 0.6e1)
t110 = t108 * t109
t111 = t13 * t10
t112 = t21 * t111
t113 = 0.1e1 / t70
t117 = t75 ** 2
t120 = 0.1e1 / (0.19711288999999999999e-2 * t110 * t112 * t113 - 0.2e1 * t117)
t121 = 9 ** (0.1e1 / 0.3e1)
t122 = t121 ** 2
t124 = math.pi ** (0.1e1 / 0.3e1)
t125 = t124 ** 2
t127 = 6 ** (0.1e1 / 0.3e1)
t128 = t127 ** 2
t129 = t89 ** (0.1e1 / 0.3e1)
t132 = math.sqrt(s0)
t136 = t128 / t129 * t132 * t78 * t39 / 0.12e2
t139 = math.sqrt(r0)
t142 = t132 * s0 / t139 / t91 / r0
t143 = t34 ** 2
t144 = lax_cond(t33, t143, 1)
t145 = t144 ** 2
t148 = math.sqrt(0.3e1)
t150 = math.sqrt(t2)
t151 = 0.1e1 / t150
t153 = t142 / t145 / t144 * t148 * t151
t160 = t136 ** ((0.854613e1 + t153 / 0.64e2) / (0.1e1 + t153 / 0.192e3))
t161 = t129 ** 2
t167 = t39 ** 2
t171 = 0.14709046e2 + t127 / t161 * s0 / t21 / t91 * t167 / 0.24e2
t173 = 0.1e1 + t160
t174 = 0.1e1 / t173
t180 = math.sqrt(0.4e1)
t185 = t6 * t21
t191 = t122 * t125
t194 = t21 * t171
t201 = t121 * t124 * math.pi
t202 = t160 ** 2
t205 = t171 ** 2
t206 = t61 * t205
t207 = t173 ** 2
t215 = (-t32 + t57 + 0.13265555555555555555e-1 * t60 * t62 * t104 * t120 * t122 * t125 * t160 * t171 * t174) / (0.1e1 + 0.16666666666666666667e0 * (0.61912500000000000000e-2 * t75 * t180 * t111 * t113 - 0.79593333333333333331e-1 * t108 * t185 * t102) * t120 * t191 * t160 * t108 * t194 * t174 - 0.25000000000000000001e0 * t104 * t120 * t201 * t202 * t60 * t206 / t207)
t216 = 0.2e1 <= p_a_zeta_threshold
t218 = lax_cond(t216, t35, 0.2e1 * t39)
t219 = 0.0e0 <= p_a_zeta_threshold
t220 = lax_cond(t219, t35, 0)
t222 = (t218 + t220 - 0.2e1) * t42
t233 = math.log(0.1e1 + 0.32164683177870697974e2 / (0.70594500000000000000e1 * t13 + 0.15494250000000000000e1 * t10 + 0.42077500000000000000e0 * t16 + 0.15629250000000000000e0 * t24))
t238 = t222 * (-0.31090e-1 * (0.1e1 + 0.51370000000000000000e-1 * t10) * t233 + t32 - 0.19751789702565206229e-1 * t55)
t240 = 0.19751789702565206229e-1 * t222 * t55
t246 = 0.1e1 + t13 * (0.149676e1 + 0.89527000000000000000e-3 * t13 + 0.11799625000000000000e-1 * t10) / 0.2e1
t247 = t246 ** 2
t251 = -t32 + t238 + t240
t257 = -0.24306825000000000000e-1 * t64 + 0.18749587500000000000e-2 * t80 - 0.36278062500000000000e-3 * t87 + 0.10075387500000000000e-3 * t93 - 0.86596593750000000000e-6 * t100
t259 = 0.33415476033750000000e-2 * t64 / t247 - t251 * t257
t262 = 0.1e1 / t246
t266 = t251 ** 2
t269 = 0.1e1 / (0.50765919958333333334e-3 * t110 * t112 * t262 - 0.2e1 * t266)
t272 = lax_cond(t216, t143, t167)
t273 = lax_cond(t219, t143, 0)
t275 = t272 / 0.2e1 + t273 / 0.2e1
t276 = t275 ** 2
t281 = t142 / t276 / t275 * t148 * t151
t288 = t136 ** ((0.854613e1 + t281 / 0.64e2) / (0.1e1 + t281 / 0.192e3))
t290 = 0.1e1 + t288
t291 = 0.1e1 / t290
t313 = t288 ** 2
t316 = t290 ** 2
res = t215 + t43 * ((-t32 + t238 + t240 + 0.35852777777777777779e-2 * t60 * t62 * t259 * t269 * t122 * t125 * t288 * t171 * t291) / (0.1e1 + 0.16666666666666666667e0 * (0.58998125000000000000e-2 * t251 * t180 * t111 * t262 - 0.21511666666666666667e-1 * t108 * t185 * t257) * t269 * t191 * t288 * t108 * t194 * t291 - 0.25000000000000000001e0 * t259 * t269 * t201 * t313 * t60 * t206 / t316) - t215)
"

/- gen_repo/impl/prebuilt/pol/gga_c_hcth_a.py and gen_repo/impl/prebuilt/unpol/gga_c_hcth_a.py -/
formula gga_c_hcth_a pol "t2 = r0 - r1
t3 = r0 + r1
t5 = t2 / t3
t6 = 0.1e1 + t5
t7 = t6 <= p_a_zeta_threshold
t8 = jnp.logical_or(r0 <= p_a_dens_threshold, t7)
t9 = lax_cond(t7, p_a_zeta_threshold, t6)
t10 = 3 ** (0.1e1 / 0.3e1)
t12 = (0.1e1 / math.pi) ** (0.1e1 / 0.3e1)
t13 = t10 * t12
t14 = 4 ** (0.1e1 / 0.3e1)
t15 = t14 ** 2
t16 = t13 * t15
t17 = t3 ** (0.1e1 / 0.3e1)
t18 = 0.1e1 / t17
t19 = 2 ** (0.1e1 / 0.3e1)
t20 = t18 * t19
t21 = p_a_zeta_threshold ** (0.1e1 / 0.3e1)
t22 = 0.1e1 / t21
t23 = t6 ** (0.1e1 / 0.3e1)
t25 = lax_cond(t7, t22, 0.1e1 / t23)
t27 = t16 * t20 * t25
t28 = t27 / 0.4e1
t29 = math.sqrt(t27)
t32 = 0.1e1 / (t28 + 0.18637200000000000000e1 * t29 + 0.129352e2)
t37 = math.log(t16 * t20 * t25 * t32 / 0.4e1)
t38 = 0.310907e-1 * t37
t42 = math.atan(0.61519908197590802322e1 / (t29 + 0.372744e1))
t43 = 0.38783294878113014393e-1 * t42
t44 = t29 / 0.2e1
t46 = (t44 + 0.10498e0) ** 2
t48 = math.log(t46 * t32)
t49 = 0.96902277115443742139e-3 * t48
t52 = 0.1e1 / (t28 + 0.35302100000000000000e1 * t29 + 0.180578e2)
t57 = math.log(t16 * t20 * t25 * t52 / 0.4e1)
t62 = math.atan(0.47309269095601128300e1 / (t29 + 0.706042e1))
t65 = (t44 + 0.32500e0) ** 2
t67 = math.log(t65 * t52)
t71 = t21 * p_a_zeta_threshold
t73 = lax_cond(0.2e1 <= p_a_zeta_threshold, t71, 0.2e1 * t19)
t75 = lax_cond(0.0e0 <= p_a_zeta_threshold, t71, 0)
t76 = t73 + t75 - 0.2e1
t78 = t19 - 0.1e1
t80 = 0.1e1 / t78 / 0.2e1
t85 = lax_cond(t8, 0, t9 * (t38 + t43 + t49 + (0.1554535e-1 * t57 + 0.52491393169780936218e-1 * t62 + 0.22478670955426118383e-2 * t67 - t38 - t43 - t49) * t76 * t80) / 0.2e1)
t86 = r0 ** 2
t87 = r0 ** (0.1e1 / 0.3e1)
t88 = t87 ** 2
t91 = s0 / t88 / t86
t93 = 0.1e1 + 0.2e0 * t91
t97 = s0 ** 2
t98 = t86 ** 2
t103 = t93 ** 2
t108 = t98 ** 2
t118 = 0.1e1 - t5
t119 = t118 <= p_a_zeta_threshold
t120 = jnp.logical_or(r1 <= p_a_dens_threshold, t119)
t121 = lax_cond(t119, p_a_zeta_threshold, t118)
t122 = t118 ** (0.1e1 / 0.3e1)
t124 = lax_cond(t119, t22, 0.1e1 / t122)
t126 = t16 * t20 * t124
t127 = t126 / 0.4e1
t128 = math.sqrt(t126)
t131 = 0.1e1 / (t127 + 0.18637200000000000000e1 * t128 + 0.129352e2)
t136 = math.log(t16 * t20 * t124 * t131 / 0.4e1)
t137 = 0.310907e-1 * t136
t141 = math.atan(0.61519908197590802322e1 / (t128 + 0.372744e1))
t142 = 0.38783294878113014393e-1 * t141
t143 = t128 / 0.2e1
t145 = (t143 + 0.10498e0) ** 2
t147 = math.log(t145 * t131)
t148 = 0.96902277115443742139e-3 * t147
t151 = 0.1e1 / (t127 + 0.35302100000000000000e1 * t128 + 0.180578e2)
t156 = math.log(t16 * t20 * t124 * t151 / 0.4e1)
t161 = math.atan(0.47309269095601128300e1 / (t128 + 0.706042e1))
t164 = (t143 + 0.32500e0) ** 2
t166 = math.log(t164 * t151)
t174 = lax_cond(t120, 0, t121 * (t137 + t142 + t148 + (0.1554535e-1 * t156 + 0.52491393169780936218e-1 * t161 + 0.22478670955426118383e-2 * t166 - t137 - t142 - t148) * t76 * t80) / 0.2e1)
t175 = r1 ** 2
t176 = r1 ** (0.1e1 / 0.3e1)
t177 = t176 ** 2
t180 = s2 / t177 / t175
t182 = 0.1e1 + 0.2e0 * t180
t186 = s2 ** 2
t187 = t175 ** 2
t192 = t182 ** 2
t197 = t187 ** 2
t206 = t15 * t18
t207 = t13 * t206
t208 = t207 / 0.4e1
t209 = math.sqrt(t207)
t212 = 0.1e1 / (t208 + 0.18637200000000000000e1 * t209 + 0.129352e2)
t216 = math.log(t13 * t206 * t212 / 0.4e1)
t217 = 0.310907e-1 * t216
t221 = math.atan(0.61519908197590802322e1 / (t209 + 0.372744e1))
t222 = 0.38783294878113014393e-1 * t221
t223 = t209 / 0.2e1
t225 = (t223 + 0.10498e0) ** 2
t227 = math.log(t225 * t212)
t228 = 0.96902277115443742139e-3 * t227
t229 = math.pi ** 2
t233 = 0.1e1 / (t208 + 0.56553500000000000000e0 * t209 + 0.130045e2)
t237 = math.log(t13 * t206 * t233 / 0.4e1)
t241 = math.atan(0.71231089178181179908e1 / (t209 + 0.113107e1))
t244 = (t223 + 0.47584e-2) ** 2
t246 = math.log(t244 * t233)
t251 = lax_cond(t7, t71, t23 * t6)
t253 = lax_cond(t119, t71, t122 * t118)
t254 = t251 + t253 - 0.2e1
t256 = t2 ** 2
t257 = t256 ** 2
t258 = t3 ** 2
t259 = t258 ** 2
t260 = 0.1e1 / t259
t270 = 0.1e1 / (t208 + 0.35302100000000000000e1 * t209 + 0.180578e2)
t274 = math.log(t13 * t206 * t270 / 0.4e1)
t279 = math.atan(0.47309269095601128300e1 / (t209 + 0.706042e1))
t282 = (t223 + 0.32500e0) ** 2
t284 = math.log(t282 * t270)
t292 = t91 + t180
t295 = 0.1e1 + 0.30000000000000000000e-2 * t91 + 0.30000000000000000000e-2 * t180
t299 = t292 ** 2
t300 = t295 ** 2
res = t85 * (0.136823e-1 + 0.537840e-1 * t91 / t93 - 0.2203076e-1 * t97 / t87 / t98 / r0 / t103 + 0.831576e-2 * t97 * s0 / t108 / t103 / t93) + t174 * (0.136823e-1 + 0.537840e-1 * t180 / t182 - 0.2203076e-1 * t186 / t176 / t187 / r1 / t192 + 0.831576e-2 * t186 * s2 / t197 / t192 / t182) + (t217 + t222 + t228 - 0.3e1 / 0.8e1 / t229 * (t237 + 0.31770800474394146400e0 * t241 + 0.41403379428206274608e-3 * t246) * t254 * t80 * (-t257 * t260 + 0.1e1) * t78 + (0.1554535e-1 * t274 + 0.52491393169780936218e-1 * t279 + 0.22478670955426118383e-2 * t284 - t217 - t222 - t228) * t254 * t80 * t257 * t260 - t85 - t174) * (0.836897e0 + 0.51615300000000000000e-2 * t292 / t295 - 0.25064820000000000000e-4 * t299 / t300 - 0.12352608000000000000e-6 * t299 * t292 / t300 / t295)
" unpol "t3 = 0.1e1 <= p_a_zeta_threshold
t4 = jnp.logical_or(r0 / 0.2e1 <= p_a_dens_threshold, t3)
t5 = lax_cond(t3, p_a_zeta_threshold, 1)
t6 = 3 ** (0.1e1 / 0.3e1)
t8 = (0.1e1 / math.pi) ** (0.1e1 / 0.3e1)
t9 = t6 * t8
t10 = 4 ** (0.1e1 / 0.3e1)
t11 = t10 ** 2
t12 = t9 * t11
t13 = r0 ** (0.1e1 / 0.3e1)
t14 = 0.1e1 / t13
t15 = 2 ** (0.1e1 / 0.3e1)
t16 = t14 * t15
t17 = p_a_zeta_threshold ** (0.1e1 / 0.3e1)
t19 = lax_cond(t3, 0.1e1 / t17, 1)
t21 = t12 * t16 * t19
t22 = t21 / 0.4e1
t23 = math.sqrt(t21)
t26 = 0.1e1 / (t22 + 0.18637200000000000000e1 * t23 + 0.129352e2)
t31 = math.log(t12 * t16 * t19 * t26 / 0.4e1)
t32 = 0.310907e-1 * t31
t36 = math.atan(0.61519908197590802322e1 / (t23 + 0.372744e1))
t37 = 0.38783294878113014393e-1 * t36
t38 = t23 / 0.2e1
t40 = (t38 + 0.10498e0) ** 2
t42 = math.log(t40 * t26)
t43 = 0.96902277115443742139e-3 * t42
t46 = 0.1e1 / (t22 + 0.35302100000000000000e1 * t23 + 0.180578e2)
t51 = math.log(t12 * t16 * t19 * t46 / 0.4e1)
t56 = math.atan(0.47309269095601128300e1 / (t23 + 0.706042e1))
t59 = (t38 + 0.32500e0) ** 2
t61 = math.log(t59 * t46)
t65 = t17 * p_a_zeta_threshold
t67 = lax_cond(0.2e1 <= p_a_zeta_threshold, t65, 0.2e1 * t15)
t69 = lax_cond(0.0e0 <= p_a_zeta_threshold, t65, 0)
t72 = t15 - 0.1e1
t74 = 0.1e1 / t72 / 0.2e1
t79 = lax_cond(t4, 0, t5 * (t32 + t37 + t43 + (0.1554535e-1 * t51 + 0.52491393169780936218e-1 * t56 + 0.22478670955426118383e-2 * t61 - t32 - t37 - t43) * (t67 + t69 - 0.2e1) * t74) / 0.2e1)
t80 = t15 ** 2
t81 = s0 * t80
t82 = r0 ** 2
t83 = t13 ** 2
t85 = 0.1e1 / t83 / t82
t86 = t81 * t85
t88 = 0.1e1 + 0.2e0 * t86
t93 = s0 ** 2
t94 = t93 * t15
t95 = t82 ** 2
t98 = 0.1e1 / t13 / t95 / r0
t99 = t88 ** 2
t105 = t95 ** 2
t107 = t93 * s0 / t105
t115 = t11 * t14
t116 = t9 * t115
t117 = t116 / 0.4e1
t118 = math.sqrt(t116)
t121 = 0.1e1 / (t117 + 0.18637200000000000000e1 * t118 + 0.129352e2)
t125 = math.log(t9 * t115 * t121 / 0.4e1)
t130 = math.atan(0.61519908197590802322e1 / (t118 + 0.372744e1))
t132 = t118 / 0.2e1
t134 = (t132 + 0.10498e0) ** 2
t136 = math.log(t134 * t121)
t138 = math.pi ** 2
t142 = 0.1e1 / (t117 + 0.56553500000000000000e0 * t118 + 0.130045e2)
t146 = math.log(t9 * t115 * t142 / 0.4e1)
t150 = math.atan(0.71231089178181179908e1 / (t118 + 0.113107e1))
t153 = (t132 + 0.47584e-2) ** 2
t155 = math.log(t153 * t142)
t159 = lax_cond(t3, t65, 1)
t170 = 0.1e1 + 0.6e-2 * t86
t175 = t170 ** 2
res = 0.2e1 * t79 * (0.136823e-1 + 0.537840e-1 * t81 * t85 / t88 - 0.4406152e-1 * t94 * t98 / t99 + 0.3326304e-1 * t107 / t99 / t88) + (0.310907e-1 * t125 + 0.38783294878113014393e-1 * t130 + 0.96902277115443742139e-3 * t136 - 0.3e1 / 0.8e1 / t138 * (t146 + 0.31770800474394146400e0 * t150 + 0.41403379428206274608e-3 * t155) * (0.2e1 * t159 - 0.2e1) * t74 * t72 - 0.2e1 * t79) * (0.836897e0 + 0.1032306e-1 * t81 * t85 / t170 - 0.20051856e-3 * t94 * t98 / t175 - 0.395283456e-5 * t107 / t175 / t170)
"

/- gen_repo/impl/prebuilt/pol/gga_c_lm.py and gen_repo/impl/prebuilt/unpol/gga_c_lm.py -/
formula gga_c_lm pol "t1 = 0.1e1 / math.pi
t2 = r0 + r1
t3 = 0.1e1 / t2
t4 = t1 * t3
t7 = 3 ** (0.1e1 / 0.3e1)
t8 = t7 ** 2
t9 = t1 ** (0.1e1 / 0.3e1)
t12 = 4 ** (0.1e1 / 0.3e1)
t13 = t2 ** (0.1e1 / 0.3e1)
t15 = t8 / t9 * t12 * t13
t18 = math.log(0.1e1 + 0.10e2 * t15)
t20 = 0.252e-1 * (0.1e1 + t4 / 0.36000e5) * t18
t21 = t9 ** 2
t23 = t13 ** 2
t26 = t8 * t21 * t12 / t23
t29 = t12 ** 2
t32 = t7 * t9 * t29 / t13
t35 = (r0 - r1) * t3
t36 = 0.1e1 + t35
t37 = t36 <= p_a_zeta_threshold
t38 = p_a_zeta_threshold ** (0.1e1 / 0.3e1)
t39 = t38 * p_a_zeta_threshold
t40 = t36 ** (0.1e1 / 0.3e1)
t42 = lax_cond(t37, t39, t40 * t36)
t43 = 0.1e1 - t35
t44 = t43 <= p_a_zeta_threshold
t45 = t43 ** (0.1e1 / 0.3e1)
t47 = lax_cond(t44, t39, t45 * t43)
t49 = 2 ** (0.1e1 / 0.3e1)
t58 = math.log(0.1e1 + 0.25000000000000000000e2 * t15)
t66 = math.pi ** 2
t67 = t66 ** (0.1e1 / 0.3e1)
t70 = r0 ** 2
t71 = r0 ** (0.1e1 / 0.3e1)
t72 = t71 ** 2
t77 = r1 ** 2
t78 = r1 ** (0.1e1 / 0.3e1)
t79 = t78 ** 2
t87 = t38 ** 2
t88 = t87 * p_a_zeta_threshold
t89 = t40 ** 2
t91 = lax_cond(t37, t88, t89 * t36)
t92 = t45 ** 2
t94 = lax_cond(t44, t88, t92 * t43)
t96 = math.sqrt(t91 + t94)
t98 = math.sqrt(0.2e1)
t101 = t1 ** (0.1e1 / 0.6e1)
t104 = s0 + 0.2e1 * s1 + s2
t105 = math.sqrt(t104)
t107 = t2 ** (0.1e1 / 0.6e1)
t112 = math.exp(-t7 * params_a_lm_f / t101 * t105 / t107 / t2)
t114 = t2 ** 2
res = -t20 + 0.70000000000000000000e-5 * t26 - 0.10500000000000000000e-3 * t32 + 0.84000000000000000000e-2 + (t42 + t47 - 0.2e1) / (0.2e1 * t49 - 0.2e1) * (-0.127e-1 * (0.1e1 + 0.17777777777777777778e-5 * t4) * t58 - 0.64355555555555555556e-5 * t26 + 0.83833333333333333334e-4 * t32 - 0.41666666666666666667e-2 + t20) + math.pi * t8 / t67 / t66 * (-0.7e1 / 0.36e2 * t49 * (s0 / t72 / t70 * t42 + s2 / t79 / t77 * t47) + 0.2e1 / t96 * t98 * t112 * t104 / t23 / t114) * t13 / 0.144e3
" unpol "t1 = 0.1e1 / math.pi
t3 = t1 / r0
t6 = 3 ** (0.1e1 / 0.3e1)
t7 = t6 ** 2
t8 = t1 ** (0.1e1 / 0.3e1)
t11 = 4 ** (0.1e1 / 0.3e1)
t12 = r0 ** (0.1e1 / 0.3e1)
t14 = t7 / t8 * t11 * t12
t17 = math.log(0.1e1 + 0.10e2 * t14)
t19 = 0.252e-1 * (0.1e1 + t3 / 0.36000e5) * t17
t20 = t8 ** 2
t22 = t12 ** 2
t25 = t7 * t20 * t11 / t22
t28 = t11 ** 2
t31 = t6 * t8 * t28 / t12
t33 = 0.1e1 <= p_a_zeta_threshold
t34 = p_a_zeta_threshold ** (0.1e1 / 0.3e1)
t36 = lax_cond(t33, t34 * p_a_zeta_threshold, 1)
t39 = 2 ** (0.1e1 / 0.3e1)
t48 = math.log(0.1e1 + 0.25000000000000000000e2 * t14)
t56 = math.pi ** 2
t57 = t56 ** (0.1e1 / 0.3e1)
t60 = r0 ** 2
t63 = s0 / t22 / t60
t66 = t34 ** 2
t68 = lax_cond(t33, t66 * p_a_zeta_threshold, 1)
t69 = math.sqrt(t68)
t72 = t1 ** (0.1e1 / 0.6e1)
t74 = math.sqrt(s0)
t76 = r0 ** (0.1e1 / 0.6e1)
t81 = math.exp(-t6 * params_a_lm_f / t72 * t74 / t76 / r0)
res = -t19 + 0.70000000000000000000e-5 * t25 - 0.10500000000000000000e-3 * t31 + 0.84000000000000000000e-2 + (0.2e1 * t36 - 0.2e1) / (0.2e1 * t39 - 0.2e1) * (-0.127e-1 * (0.1e1 + 0.17777777777777777778e-5 * t3) * t48 - 0.64355555555555555556e-5 * t25 + 0.83833333333333333334e-4 * t31 - 0.41666666666666666667e-2 + t19) + math.pi * t7 / t57 / t56 * (-0.7e1 / 0.9e1 * t63 * t36 + 0.2e1 / t69 * t81 * t63) * t12 / 0.144e3
"

/- gen_repo/impl/prebuilt/pol/gga_c_lyp.py and gen_repo/impl/prebuilt/unpol/gga_c_lyp.py -/
formula gga_c_lyp pol "t1 = r0 - r1
t2 = t1 ** 2
t3 = r0 + r1
t4 = t3 ** 2
t7 = 0.1e1 - t2 / t4
t8 = t3 ** (0.1e1 / 0.3e1)
t9 = 0.1e1 / t8
t12 = 0.1e1 / (params_a_d * t9 + 0.1e1)
t15 = math.exp(-params_a_c * t9)
t19 = t8 ** 2
t25 = (params_a_d * t12 + params_a_c) * t9
t32 = 3 ** (0.1e1 / 0.3e1)
t33 = t32 ** 2
t34 = math.pi ** 2
t35 = t34 ** (0.1e1 / 0.3e1)
t36 = t35 ** 2
t39 = t1 / t3
t40 = 0.1e1 + t39
t41 = t40 <= p_a_zeta_threshold
t42 = p_a_zeta_threshold ** 2
t43 = p_a_zeta_threshold ** (0.1e1 / 0.3e1)
t44 = t43 ** 2
t45 = t44 * t42
t46 = t40 ** 2
t47 = t40 ** (0.1e1 / 0.3e1)
t48 = t47 ** 2
t50 = lax_cond(t41, t45, t48 * t46)
t51 = 0.1e1 - t39
t52 = t51 <= p_a_zeta_threshold
t53 = t51 ** 2
t54 = t51 ** (0.1e1 / 0.3e1)
t55 = t54 ** 2
t57 = lax_cond(t52, t45, t55 * t53)
t62 = 2 ** (0.1e1 / 0.3e1)
t63 = t62 * t7
t66 = r0 ** 2
t67 = r0 ** (0.1e1 / 0.3e1)
t68 = t67 ** 2
t70 = 0.1e1 / t68 / t66
t71 = s0 * t70
t72 = t71 * t50
t73 = r1 ** 2
t74 = r1 ** (0.1e1 / 0.3e1)
t75 = t74 ** 2
t77 = 0.1e1 / t75 / t73
t78 = s2 * t77
t79 = t78 * t57
t86 = t44 * t42 * p_a_zeta_threshold
t89 = lax_cond(t41, t86, t48 * t46 * t40)
t93 = lax_cond(t52, t86, t55 * t53 * t51)
t101 = lax_cond(t41, t42, t46)
t106 = lax_cond(t52, t42, t53)
res = params_a_a * (-t7 * t12 + params_a_b * t15 * t12 * (-(s0 + 0.2e1 * s1 + s2) / t19 / t4 * (t7 * (0.47e2 - 0.7e1 * t25) / 0.72e2 - 0.2e1 / 0.3e1) - 0.3e1 / 0.20e2 * t33 * t36 * t7 * (t50 + t57) + t63 * (0.5e1 / 0.2e1 - t25 / 0.18e2) * (t72 + t79) / 0.32e2 + t63 * (t25 - 0.11e2) * (t71 * t89 + t78 * t93) / 0.576e3 - t62 * (0.2e1 / 0.3e1 * t72 + 0.2e1 / 0.3e1 * t79 - t101 * s2 * t77 * t57 / 0.4e1 - t106 * s0 * t70 * t50 / 0.4e1) / 0.8e1))
" unpol "t1 = r0 ** (0.1e1 / 0.3e1)
t2 = 0.1e1 / t1
t5 = 0.1e1 / (params_a_d * t2 + 0.1e1)
t7 = math.exp(-params_a_c * t2)
t9 = r0 ** 2
t10 = t1 ** 2
t12 = 0.1e1 / t10 / t9
t16 = (params_a_d * t5 + params_a_c) * t2
t20 = 3 ** (0.1e1 / 0.3e1)
t21 = t20 ** 2
t22 = math.pi ** 2
t23 = t22 ** (0.1e1 / 0.3e1)
t24 = t23 ** 2
t26 = 0.1e1 <= p_a_zeta_threshold
t27 = p_a_zeta_threshold ** 2
t28 = p_a_zeta_threshold ** (0.1e1 / 0.3e1)
t29 = t28 ** 2
t31 = lax_cond(t26, t29 * t27, 1)
t37 = t12 * t31
t44 = lax_cond(t26, t29 * t27 * p_a_zeta_threshold, 1)
t48 = 2 ** (0.1e1 / 0.3e1)
t49 = t48 ** 2
t53 = lax_cond(t26, t27, 1)
res = params_a_a * (-t5 + params_a_b * t7 * t5 * (-s0 * t12 * (-0.1e1 / 0.72e2 - 0.7e1 / 0.72e2 * t16) - 0.3e1 / 0.10e2 * t21 * t24 * t31 + (0.5e1 / 0.2e1 - t16 / 0.18e2) * s0 * t37 / 0.8e1 + (t16 - 0.11e2) * s0 * t12 * t44 / 0.144e3 - t48 * (0.4e1 / 0.3e1 * s0 * t49 * t37 - t53 * s0 * t49 * t12 * t31 / 0.2e1) / 0.8e1))
"

/- gen_repo/impl/prebuilt/pol/gga_c_lypr.py and gen_repo/impl/prebuilt/unpol/gga_c_lypr.py -/
formula gga_c_lypr pol "t2 = r0 + r1
t3 = t2 ** (0.1e1 / 0.3e1)
t4 = 0.1e1 / t3
t6 = math.erfc(params_a_m1 * params_a_omega * t4)
t7 = r0 - r1
t8 = t7 ** 2
t9 = t2 ** 2
t12 = 0.1e1 - t8 / t9
t16 = 0.1e1 / (params_a_d * t4 + 0.1e1)
t20 = math.erfc(params_a_m2 * params_a_omega * t4)
t23 = math.exp(-params_a_c * t4)
t27 = t3 ** 2
t30 = (s0 + 0.2e1 * s1 + s2) / t27 / t9
t33 = (params_a_d * t16 + params_a_c) * t4
t40 = 3 ** (0.1e1 / 0.3e1)
t41 = t40 ** 2
t42 = math.pi ** 2
t43 = t42 ** (0.1e1 / 0.3e1)
t44 = t43 ** 2
t47 = t7 / t2
t48 = 0.1e1 + t47
t49 = t48 <= p_a_zeta_threshold
t50 = p_a_zeta_threshold ** 2
t51 = p_a_zeta_threshold ** (0.1e1 / 0.3e1)
t52 = t51 ** 2
t53 = t52 * t50
t54 = t48 ** 2
t55 = t48 ** (0.1e1 / 0.3e1)
t56 = t55 ** 2
t58 = lax_cond(t49, t53, t56 * t54)
t59 = 0.1e1 - t47
t60 = t59 <= p_a_zeta_threshold
t61 = t59 ** 2
t62 = t59 ** (0.1e1 / 0.3e1)
t63 = t62 ** 2
t65 = lax_cond(t60, t53, t63 * t61)
t70 = 2 ** (0.1e1 / 0.3e1)
t71 = t70 * t12
t74 = r0 ** 2
t75 = r0 ** (0.1e1 / 0.3e1)
t76 = t75 ** 2
t78 = 0.1e1 / t76 / t74
t79 = s0 * t78
t80 = t79 * t58
t81 = r1 ** 2
t82 = r1 ** (0.1e1 / 0.3e1)
t83 = t82 ** 2
t85 = 0.1e1 / t83 / t81
t86 = s2 * t85
t87 = t86 * t65
t88 = t80 + t87
t94 = t52 * t50 * p_a_zeta_threshold
t97 = lax_cond(t49, t94, t56 * t54 * t48)
t101 = lax_cond(t60, t94, t63 * t61 * t59)
t109 = lax_cond(t49, t50, t54)
t114 = lax_cond(t60, t50, t61)
t126 = math.sqrt(math.pi)
t131 = params_a_m2 ** 2
t132 = params_a_omega ** 2
t136 = math.exp(-t131 * t132 / t27)
t142 = t47 / 0.6e1
res = params_a_a * (-t6 * t12 * t16 + t20 * params_a_b * t23 * t16 * (-t30 * (t12 * (0.47e2 - 0.7e1 * t33) / 0.72e2 - 0.2e1 / 0.3e1) - 0.3e1 / 0.20e2 * t41 * t44 * t12 * (t58 + t65) + t71 * (0.5e1 / 0.2e1 - t33 / 0.18e2) * t88 / 0.32e2 + t71 * (t33 - 0.11e2) * (t86 * t101 + t79 * t97) / 0.576e3 - t70 * (0.2e1 / 0.3e1 * t80 + 0.2e1 / 0.3e1 * t87 - t109 * s2 * t85 * t65 / 0.4e1 - t114 * s0 * t78 * t58 / 0.4e1) / 0.8e1) + params_a_b * t23 * t16 / t126 * params_a_m2 * params_a_omega * t136 * t4 * t12 * (0.7e1 / 0.6e1 * t30 - 0.7e1 / 0.48e2 * t70 * t88 + (0.7e1 / 0.6e1 + t142) * s0 * t78 * t70 * t58 / 0.8e1 + (0.7e1 / 0.6e1 - t142) * s2 * t85 * t70 * t65 / 0.8e1) / 0.6e1)
" unpol "t2 = r0 ** (0.1e1 / 0.3e1)
t3 = 0.1e1 / t2
t5 = math.erfc(params_a_m1 * params_a_omega * t3)
t8 = 0.1e1 / (params_a_d * t3 + 0.1e1)
t10 = params_a_m2 * params_a_omega
t12 = math.erfc(t10 * t3)
t15 = math.exp(-params_a_c * t3)
t17 = r0 ** 2
t18 = t2 ** 2
t20 = 0.1e1 / t18 / t17
t24 = (params_a_d * t8 + params_a_c) * t3
t28 = 3 ** (0.1e1 / 0.3e1)
t29 = t28 ** 2
t30 = math.pi ** 2
t31 = t30 ** (0.1e1 / 0.3e1)
t32 = t31 ** 2
t34 = 0.1e1 <= p_a_zeta_threshold
t35 = p_a_zeta_threshold ** 2
t36 = p_a_zeta_threshold ** (0.1e1 / 0.3e1)
t37 = t36 ** 2
t39 = lax_cond(t34, t37 * t35, 1)
t45 = t20 * t39
t52 = lax_cond(t34, t37 * t35 * p_a_zeta_threshold, 1)
t56 = 2 ** (0.1e1 / 0.3e1)
t57 = t56 ** 2
t61 = lax_cond(t34, t35, 1)
t74 = math.sqrt(math.pi)
t78 = params_a_m2 ** 2
t79 = params_a_omega ** 2
t83 = math.exp(-t78 * t79 / t18)
res = params_a_a * (-t5 * t8 + t12 * params_a_b * t15 * t8 * (-s0 * t20 * (-0.1e1 / 0.72e2 - 0.7e1 / 0.72e2 * t24) - 0.3e1 / 0.10e2 * t29 * t32 * t39 + (0.5e1 / 0.2e1 - t24 / 0.18e2) * s0 * t45 / 0.8e1 + (t24 - 0.11e2) * s0 * t20 * t52 / 0.144e3 - t56 * (0.4e1 / 0.3e1 * s0 * t57 * t45 - t61 * s0 * t57 * t20 * t39 / 0.2e1) / 0.8e1) + 0.7e1 / 0.36e2 * params_a_b * t15 * t8 / t74 * t10 * t83 / t17 / r0 * s0)
"

/- gen_repo/impl/prebuilt/pol/gga_c_op_b88.py and gen_repo/impl/prebuilt/unpol/gga_c_op_b88.py -/
formula gga_c_op_b88 pol "t2 = r0 + r1
t3 = 0.1e1 / t2
t4 = (r0 - r1) * t3
t5 = abs(t4)
t10 = jnp.logical_and(r0 <= p_a_dens_threshold, r1 <= p_a_dens_threshold)
t11 = jnp.logical_or(0.1e1 - t5 <= p_a_zeta_threshold, t10)
t14 = p_a_zeta_threshold - 0.1e1
t17 = -t14
t18 = lax_cond(0.1e1 - t4 <= p_a_zeta_threshold, t17, t4)
t19 = lax_cond(0.1e1 + t4 <= p_a_zeta_threshold, t14, t18)
t20 = t19 ** 2
t29 = lax_cond(0.2e1 * r1 * t3 <= p_a_zeta_threshold, t17, t4)
t30 = lax_cond(0.2e1 * r0 * t3 <= p_a_zeta_threshold, t14, t29)
t31 = 0.1e1 + t30
t35 = 3 ** (0.1e1 / 0.3e1)
t36 = t35 ** 2
t38 = (0.1e1 / math.pi) ** (0.1e1 / 0.3e1)
t41 = 4 ** (0.1e1 / 0.3e1)
t42 = t36 / t38 * t41
t43 = 2 ** (0.1e1 / 0.3e1)
t44 = t31 <= p_a_zeta_threshold
t45 = 0.1e1 - t30
t46 = t45 <= p_a_zeta_threshold
t47 = lax_cond(t46, t17, t30)
t48 = lax_cond(t44, t14, t47)
t51 = ((0.1e1 + t48) * t2) ** (0.1e1 / 0.3e1)
t54 = r0 ** 2
t55 = r0 ** (0.1e1 / 0.3e1)
t56 = t55 ** 2
t60 = math.sqrt(s0)
t63 = t60 / t55 / r0
t64 = math.asinh(t63)
t77 = lax_cond(t31 * t2 / 0.2e1 <= p_a_dens_threshold, 0, t42 * t43 / t51 / (0.1e1 + 0.93333333333333333332e-3 * t42 * s0 / t56 / t54 / (0.1e1 + 0.2520e-1 * t63 * t64)) / 0.9e1)
t82 = lax_cond(t44, t17, -t30)
t83 = lax_cond(t46, t14, t82)
t86 = ((0.1e1 + t83) * t2) ** (0.1e1 / 0.3e1)
t89 = r1 ** 2
t90 = r1 ** (0.1e1 / 0.3e1)
t91 = t90 ** 2
t95 = math.sqrt(s2)
t98 = t95 / t90 / r1
t99 = math.asinh(t98)
t112 = lax_cond(t45 * t2 / 0.2e1 <= p_a_dens_threshold, 0, t42 * t43 / t86 / (0.1e1 + 0.93333333333333333332e-3 * t42 * s2 / t91 / t89 / (0.1e1 + 0.2520e-1 * t98 * t99)) / 0.9e1)
t113 = t77 + t112
t115 = lax_cond(t113 == 0.0e0, DBL_EPSILON, t113)
t119 = t115 ** 2
t120 = t119 ** 2
res = lax_cond(t11, 0, -0.25000000000000000000e0 * (0.1e1 - t20) * t2 * (0.360115380e1 / t115 + 0.5764e0) / (0.313901240307210000e2 / t120 + 0.149643497914092000e2 / t119 / t115 + 0.1783335908700e1 / t119))
" unpol "t1 = 0.1e1 <= p_a_zeta_threshold
t3 = r0 / 0.2e1 <= p_a_dens_threshold
t4 = jnp.logical_and(t3, t3)
t5 = jnp.logical_or(t1, t4)
t6 = p_a_zeta_threshold - 0.1e1
t7 = -t6
t8 = lax_cond(t1, t7, 0)
t9 = lax_cond(t1, t6, t8)
t10 = t9 ** 2
t13 = 0.1e1 + t9
t17 = 3 ** (0.1e1 / 0.3e1)
t18 = t17 ** 2
t20 = (0.1e1 / math.pi) ** (0.1e1 / 0.3e1)
t23 = 4 ** (0.1e1 / 0.3e1)
t24 = t18 / t20 * t23
t25 = 2 ** (0.1e1 / 0.3e1)
t26 = t13 <= p_a_zeta_threshold
t27 = 0.1e1 - t9
t28 = t27 <= p_a_zeta_threshold
t29 = lax_cond(t28, t7, t9)
t30 = lax_cond(t26, t6, t29)
t33 = ((0.1e1 + t30) * r0) ** (0.1e1 / 0.3e1)
t36 = t25 ** 2
t38 = r0 ** 2
t39 = r0 ** (0.1e1 / 0.3e1)
t40 = t39 ** 2
t43 = math.sqrt(s0)
t44 = t43 * t25
t46 = 0.1e1 / t39 / r0
t48 = math.asinh(t44 * t46)
t59 = 0.1e1 / (0.1e1 + 0.93333333333333333332e-3 * t24 * s0 * t36 / t40 / t38 / (0.1e1 + 0.2520e-1 * t44 * t46 * t48))
t63 = lax_cond(t13 * r0 / 0.2e1 <= p_a_dens_threshold, 0, t24 * t25 / t33 * t59 / 0.9e1)
t68 = lax_cond(t26, t7, -t9)
t69 = lax_cond(t28, t6, t68)
t72 = ((0.1e1 + t69) * r0) ** (0.1e1 / 0.3e1)
t78 = lax_cond(t27 * r0 / 0.2e1 <= p_a_dens_threshold, 0, t24 * t25 / t72 * t59 / 0.9e1)
t79 = t63 + t78
t81 = lax_cond(t79 == 0.0e0, DBL_EPSILON, t79)
t85 = t81 ** 2
t86 = t85 ** 2
res = lax_cond(t5, 0, -0.25000000000000000000e0 * (0.1e1 - t10) * r0 * (0.360115380e1 / t81 + 0.5764e0) / (0.313901240307210000e2 / t86 + 0.149643497914092000e2 / t85 / t81 + 0.1783335908700e1 / t85))
"

end Verif.Data


/-!
# Shipped formulas, verbatim from `gen_repo/impl/prebuilt/{pol,unpol}/NAME.py`
-/
namespace Verif.Data

/- gen_repo/impl/prebuilt/pol/gga_c_op_g96.py and gen_repo/impl/prebuilt/unpol/gga_c_op_g96.py -/
formula gga_c_op_g96 pol "t2 = r0 + r1
t3 = 0.1e1 / t2
t4 = (r0 - r1) * t3
t5 = abs(t4)
t10 = jnp.logical_and(r0 <= p_a_dens_threshold, r1 <= p_a_dens_threshold)
t11 = jnp.logical_or(0.1e1 - t5 <= p_a_zeta_threshold, t10)
t14 = p_a_zeta_threshold - 0.1e1
t17 = -t14
t18 = lax_cond(0.1e1 - t4 <= p_a_zeta_threshold, t17, t4)
t19 = lax_cond(0.1e1 + t4 <= p_a_zeta_threshold, t14, t18)
t20 = t19 ** 2
t29 = lax_cond(0.2e1 * r1 * t3 <= p_a_zeta_threshold, t17, t4)
t30 = lax_cond(0.2e1 * r0 * t3 <= p_a_zeta_threshold, t14, t29)
t31 = 0.1e1 + t30
t35 = 3 ** (0.1e1 / 0.3e1)
t36 = t35 ** 2
t38 = (0.1e1 / math.pi) ** (0.1e1 / 0.3e1)
t40 = t36 / t38
t41 = 4 ** (0.1e1 / 0.3e1)
t42 = t40 * t41
t43 = 2 ** (0.1e1 / 0.3e1)
t44 = t31 <= p_a_zeta_threshold
t45 = 0.1e1 - t30
t46 = t45 <= p_a_zeta_threshold
t47 = lax_cond(t46, t17, t30)
t48 = lax_cond(t44, t14, t47)
t51 = ((0.1e1 + t48) * t2) ** (0.1e1 / 0.3e1)
t54 = math.sqrt(s0)
t55 = r0 ** (0.1e1 / 0.3e1)
t58 = t54 / t55 / r0
t59 = math.sqrt(t58)
t69 = lax_cond(t31 * t2 / 0.2e1 <= p_a_dens_threshold, 0, t42 * t43 / t51 / (0.1e1 + 0.2e1 / 0.1233e4 * t40 * t41 * t59 * t58) / 0.9e1)
t74 = lax_cond(t44, t17, -t30)
t75 = lax_cond(t46, t14, t74)
t78 = ((0.1e1 + t75) * t2) ** (0.1e1 / 0.3e1)
t81 = math.sqrt(s2)
t82 = r1 ** (0.1e1 / 0.3e1)
t85 = t81 / t82 / r1
t86 = math.sqrt(t85)
t96 = lax_cond(t45 * t2 / 0.2e1 <= p_a_dens_threshold, 0, t42 * t43 / t78 / (0.1e1 + 0.2e1 / 0.1233e4 * t40 * t41 * t86 * t85) / 0.9e1)
t97 = t69 + t96
t99 = lax_cond(t97 == 0.0e0, DBL_EPSILON, t97)
t103 = t99 ** 2
t104 = t103 ** 2
res = lax_cond(t11, 0, -0.25000000000000000000e0 * (0.1e1 - t20) * t2 * (0.359628532e1 / t99 + 0.5764e0) / (0.312207199195441936e2 / t104 + 0.149037398922132448e2 / t103 / t99 + 0.1778517305052e1 / t103))
" unpol "t1 = 0.1e1 <= p_a_zeta_threshold
t3 = r0 / 0.2e1 <= p_a_dens_threshold
t4 = jnp.logical_and(t3, t3)
t5 = jnp.logical_or(t1, t4)
t6 = p_a_zeta_threshold - 0.1e1
t7 = -t6
t8 = lax_cond(t1, t7, 0)
t9 = lax_cond(t1, t6, t8)
t10 = t9 ** 2
t13 = 0.1e1 + t9
t17 = 3 ** (0.1e1 / 0.3e1)
t18 = t17 ** 2
t20 = (0.1e1 / math.pi) ** (0.1e1 / 0.3e1)
t22 = t18 / t20
t23 = 4 ** (0.1e1 / 0.3e1)
t24 = t22 * t23
t25 = 2 ** (0.1e1 / 0.3e1)
t26 = t13 <= p_a_zeta_threshold
t27 = 0.1e1 - t9
t28 = t27 <= p_a_zeta_threshold
t29 = lax_cond(t28, t7, t9)
t30 = lax_cond(t26, t6, t29)
t33 = ((0.1e1 + t30) * r0) ** (0.1e1 / 0.3e1)
t36 = math.sqrt(s0)
t38 = r0 ** (0.1e1 / 0.3e1)
t41 = t36 * t25 / t38 / r0
t42 = math.sqrt(t41)
t48 = 0.1e1 / (0.1e1 + 0.2e1 / 0.1233e4 * t22 * t23 * t42 * t41)
t52 = lax_cond(t13 * r0 / 0.2e1 <= p_a_dens_threshold, 0, t24 * t25 / t33 * t48 / 0.9e1)
t57 = lax_cond(t26, t7, -t9)
t58 = lax_cond(t28, t6, t57)
t61 = ((0.1e1 + t58) * r0) ** (0.1e1 / 0.3e1)
t67 = lax_cond(t27 * r0 / 0.2e1 <= p_a_dens_threshold, 0, t24 * t25 / t61 * t48 / 0.9e1)
t68 = t52 + t67
t70 = lax_cond(t68 == 0.0e0, DBL_EPSILON, t68)
t74 = t70 ** 2
t75 = t74 ** 2
res = lax_cond(t5, 0, -0.25000000000000000000e0 * (0.1e1 - t10) * r0 * (0.359628532e1 / t70 + 0.5764e0) / (0.312207199195441936e2 / t75 + 0.149037398922132448e2 / t74 / t70 + 0.1778517305052e1 / t74))
"

/- gen_repo/impl/prebuilt/pol/gga_c_op_pbe.py and gen_repo/impl/prebuilt/unpol/gga_c_op_pbe.py -/
formula gga_c_op_pbe pol "t2 = r0 + r1
t3 = 0.1e1 / t2
t4 = (r0 - r1) * t3
t5 = abs(t4)
t10 = jnp.logical_and(r0 <= p_a_dens_threshold, r1 <= p_a_dens_threshold)
t11 = jnp.logical_or(0.1e1 - t5 <= p_a_zeta_threshold, t10)
t14 = p_a_zeta_threshold - 0.1e1
t17 = -t14
t18 = lax_cond(0.1e1 - t4 <= p_a_zeta_threshold, t17, t4)
t19 = lax_cond(0.1e1 + t4 <= p_a_zeta_threshold, t14, t18)
t20 = t19 ** 2
t29 = lax_cond(0.2e1 * r1 * t3 <= p_a_zeta_threshold, t17, t4)
t30 = lax_cond(0.2e1 * r0 * t3 <= p_a_zeta_threshold, t14, t29)
t31 = 0.1e1 + t30
t35 = 3 ** (0.1e1 / 0.3e1)
t36 = t35 ** 2
t38 = (0.1e1 / math.pi) ** (0.1e1 / 0.3e1)
t41 = 4 ** (0.1e1 / 0.3e1)
t42 = t36 / t38 * t41
t43 = 2 ** (0.1e1 / 0.3e1)
t44 = t31 <= p_a_zeta_threshold
t45 = 0.1e1 - t30
t46 = t45 <= p_a_zeta_threshold
t47 = lax_cond(t46, t17, t30)
t48 = lax_cond(t44, t14, t47)
t51 = ((0.1e1 + t48) * t2) ** (0.1e1 / 0.3e1)
t54 = 6 ** (0.1e1 / 0.3e1)
t55 = math.pi ** 2
t56 = t55 ** (0.1e1 / 0.3e1)
t57 = t56 ** 2
t59 = t54 / t57
t60 = r0 ** 2
t61 = r0 ** (0.1e1 / 0.3e1)
t62 = t61 ** 2
t76 = lax_cond(t31 * t2 / 0.2e1 <= p_a_dens_threshold, 0, t42 * t43 / t51 / (0.18040e1 - 0.64641600e0 / (0.8040e0 + 0.91464571985215458336e-2 * t59 * s0 / t62 / t60)) / 0.9e1)
t81 = lax_cond(t44, t17, -t30)
t82 = lax_cond(t46, t14, t81)
t85 = ((0.1e1 + t82) * t2) ** (0.1e1 / 0.3e1)
t88 = r1 ** 2
t89 = r1 ** (0.1e1 / 0.3e1)
t90 = t89 ** 2
t104 = lax_cond(t45 * t2 / 0.2e1 <= p_a_dens_threshold, 0, t42 * t43 / t85 / (0.18040e1 - 0.64641600e0 / (0.8040e0 + 0.91464571985215458336e-2 * t59 * s2 / t90 / t88)) / 0.9e1)
t105 = t76 + t104
t107 = lax_cond(t105 == 0.0e0, DBL_EPSILON, t105)
t111 = t107 ** 2
t112 = t111 ** 2
res = lax_cond(t11, 0, -0.25000000000000000000e0 * (0.1e1 - t20) * t2 * (0.361925846e1 / t107 + 0.5764e0) / (0.320261508740743441e2 / t112 + 0.151911844324290596e2 / t111 / t107 + 0.1801312286343e1 / t111))
" unpol "t1 = 0.1e1 <= p_a_zeta_threshold
t3 = r0 / 0.2e1 <= p_a_dens_threshold
t4 = jnp.logical_and(t3, t3)
t5 = jnp.logical_or(t1, t4)
t6 = p_a_zeta_threshold - 0.1e1
t7 = -t6
t8 = lax_cond(t1, t7, 0)
t9 = lax_cond(t1, t6, t8)
t10 = t9 ** 2
t13 = 0.1e1 + t9
t17 = 3 ** (0.1e1 / 0.3e1)
t18 = t17 ** 2
t20 = (0.1e1 / math.pi) ** (0.1e1 / 0.3e1)
t23 = 4 ** (0.1e1 / 0.3e1)
t24 = t18 / t20 * t23
t25 = 2 ** (0.1e1 / 0.3e1)
t26 = t13 <= p_a_zeta_threshold
t27 = 0.1e1 - t9
t28 = t27 <= p_a_zeta_threshold
t29 = lax_cond(t28, t7, t9)
t30 = lax_cond(t26, t6, t29)
t33 = ((0.1e1 + t30) * r0) ** (0.1e1 / 0.3e1)
t36 = 6 ** (0.1e1 / 0.3e1)
t37 = math.pi ** 2
t38 = t37 ** (0.1e1 / 0.3e1)
t39 = t38 ** 2
t42 = t25 ** 2
t44 = r0 ** 2
t45 = r0 ** (0.1e1 / 0.3e1)
t46 = t45 ** 2
t56 = 0.1e1 / (0.18040e1 - 0.64641600e0 / (0.8040e0 + 0.91464571985215458336e-2 * t36 / t39 * s0 * t42 / t46 / t44))
t60 = lax_cond(t13 * r0 / 0.2e1 <= p_a_dens_threshold, 0, t24 * t25 / t33 * t56 / 0.9e1)
t65 = lax_cond(t26, t7, -t9)
t66 = lax_cond(t28, t6, t65)
t69 = ((0.1e1 + t66) * r0) ** (0.1e1 / 0.3e1)
t75 = lax_cond(t27 * r0 / 0.2e1 <= p_a_dens_threshold, 0, t24 * t25 / t69 * t56 / 0.9e1)
t76 = t60 + t75
t78 = lax_cond(t76 == 0.0e0, DBL_EPSILON, t76)
t82 = t78 ** 2
t83 = t82 ** 2
res = lax_cond(t5, 0, -0.25000000000000000000e0 * (0.1e1 - t10) * r0 * (0.361925846e1 / t78 + 0.5764e0) / (0.320261508740743441e2 / t83 + 0.151911844324290596e2 / t82 / t78 + 0.1801312286343e1 / t82))
"

/- gen_repo/impl/prebuilt/pol/gga_c_op_pw91.py and gen_repo/impl/prebuilt/unpol/gga_c_op_pw91.py -/
formula gga_c_op_pw91 pol "t2 = r0 + r1
t3 = 0.1e1 / t2
t4 = (r0 - r1) * t3
t5 = abs(t4)
t10 = jnp.logical_and(r0 <= p_a_dens_threshold, r1 <= p_a_dens_threshold)
t11 = jnp.logical_or(0.1e1 - t5 <= p_a_zeta_threshold, t10)
t14 = p_a_zeta_threshold - 0.1e1
t17 = -t14
t18 = lax_cond(0.1e1 - t4 <= p_a_zeta_threshold, t17, t4)
t19 = lax_cond(0.1e1 + t4 <= p_a_zeta_threshold, t14, t18)
t20 = t19 ** 2
t29 = lax_cond(0.2e1 * r1 * t3 <= p_a_zeta_threshold, t17, t4)
t30 = lax_cond(0.2e1 * r0 * t3 <= p_a_zeta_threshold, t14, t29)
t31 = 0.1e1 + t30
t35 = 3 ** (0.1e1 / 0.3e1)
t36 = t35 ** 2
t38 = (0.1e1 / math.pi) ** (0.1e1 / 0.3e1)
t41 = 4 ** (0.1e1 / 0.3e1)
t42 = t36 / t38 * t41
t43 = 2 ** (0.1e1 / 0.3e1)
t44 = t31 <= p_a_zeta_threshold
t45 = 0.1e1 - t30
t46 = t45 <= p_a_zeta_threshold
t47 = lax_cond(t46, t17, t30)
t48 = lax_cond(t44, t14, t47)
t51 = ((0.1e1 + t48) * t2) ** (0.1e1 / 0.3e1)
t54 = 6 ** (0.1e1 / 0.3e1)
t55 = math.pi ** 2
t56 = t55 ** (0.1e1 / 0.3e1)
t57 = t56 ** 2
t58 = 0.1e1 / t57
t59 = t54 * t58
t60 = r0 ** 2
t61 = r0 ** (0.1e1 / 0.3e1)
t62 = t61 ** 2
t64 = 0.1e1 / t62 / t60
t68 = math.exp(-0.25e2 / 0.6e1 * t59 * s0 * t64)
t76 = t54 ** 2
t79 = t76 / t56 / t55
t80 = s0 ** 2
t81 = t60 ** 2
t87 = 0.69444444444444444444e-5 * t79 * t80 / t61 / t81 / r0
t90 = t76 / t56
t91 = math.sqrt(s0)
t94 = t91 / t61 / r0
t97 = math.asinh(0.64963333333333333333e0 * t90 * t94)
t109 = lax_cond(t31 * t2 / 0.2e1 <= p_a_dens_threshold, 0, t42 * t43 / t51 / (0.1e1 + ((0.2743e0 - 0.1508e0 * t68) * t54 * t58 * s0 * t64 / 0.24e2 - t87) / (0.1e1 + 0.16370833333333333333e-1 * t90 * t94 * t97 + t87)) / 0.9e1)
t114 = lax_cond(t44, t17, -t30)
t115 = lax_cond(t46, t14, t114)
t118 = ((0.1e1 + t115) * t2) ** (0.1e1 / 0.3e1)
t121 = r1 ** 2
t122 = r1 ** (0.1e1 / 0.3e1)
t123 = t122 ** 2
t125 = 0.1e1 / t123 / t121
t129 = math.exp(-0.25e2 / 0.6e1 * t59 * s2 * t125)
t137 = s2 ** 2
t138 = t121 ** 2
t144 = 0.69444444444444444444e-5 * t79 * t137 / t122 / t138 / r1
t146 = math.sqrt(s2)
t149 = t146 / t122 / r1
t152 = math.asinh(0.64963333333333333333e0 * t90 * t149)
t164 = lax_cond(t45 * t2 / 0.2e1 <= p_a_dens_threshold, 0, t42 * t43 / t118 / (0.1e1 + ((0.2743e0 - 0.1508e0 * t129) * t54 * t58 * s2 * t125 / 0.24e2 - t144) / (0.1e1 + 0.16370833333333333333e-1 * t90 * t149 * t152 + t144)) / 0.9e1)
t165 = t109 + t164
t167 = lax_cond(t165 == 0.0e0, DBL_EPSILON, t165)
t171 = t167 ** 2
t172 = t171 ** 2
res = lax_cond(t11, 0, -0.25000000000000000000e0 * (0.1e1 - t20) * t2 * (0.360663084e1 / t167 + 0.5764e0) / (0.315815266717518096e2 / t172 + 0.150327320916243744e2 / t171 / t167 + 0.1788764629788e1 / t171))
" unpol "t1 = 0.1e1 <= p_a_zeta_threshold
t3 = r0 / 0.2e1 <= p_a_dens_threshold
t4 = jnp.logical_and(t3, t3)
t5 = jnp.logical_or(t1, t4)
t6 = p_a_zeta_threshold - 0.1e1
t7 = -t6
t8 = lax_cond(t1, t7, 0)
t9 = lax_cond(t1, t6, t8)
t10 = t9 ** 2
t13 = 0.1e1 + t9
t17 = 3 ** (0.1e1 / 0.3e1)
t18 = t17 ** 2
t20 = (0.1e1 / math.pi) ** (0.1e1 / 0.3e1)
t23 = 4 ** (0.1e1 / 0.3e1)
t24 = t18 / t20 * t23
t25 = 2 ** (0.1e1 / 0.3e1)
t26 = t13 <= p_a_zeta_threshold
t27 = 0.1e1 - t9
t28 = t27 <= p_a_zeta_threshold
t29 = lax_cond(t28, t7, t9)
t30 = lax_cond(t26, t6, t29)
t33 = ((0.1e1 + t30) * r0) ** (0.1e1 / 0.3e1)
t36 = 6 ** (0.1e1 / 0.3e1)
t37 = math.pi ** 2
t38 = t37 ** (0.1e1 / 0.3e1)
t39 = t38 ** 2
t40 = 0.1e1 / t39
t42 = t25 ** 2
t44 = r0 ** 2
t45 = r0 ** (0.1e1 / 0.3e1)
t46 = t45 ** 2
t49 = s0 * t42 / t46 / t44
t52 = math.exp(-0.25e2 / 0.6e1 * t36 * t40 * t49)
t59 = t36 ** 2
t63 = s0 ** 2
t65 = t44 ** 2
t71 = 0.13888888888888888889e-4 * t59 / t38 / t37 * t63 * t25 / t45 / t65 / r0
t74 = t59 / t38
t75 = math.sqrt(s0)
t78 = 0.1e1 / t45 / r0
t84 = math.asinh(0.64963333333333333333e0 * t74 * t75 * t25 * t78)
t92 = 0.1e1 / (0.1e1 + ((0.2743e0 - 0.1508e0 * t52) * t36 * t40 * t49 / 0.24e2 - t71) / (0.1e1 + 0.16370833333333333333e-1 * t74 * t75 * t25 * t78 * t84 + t71))
t96 = lax_cond(t13 * r0 / 0.2e1 <= p_a_dens_threshold, 0, t24 * t25 / t33 * t92 / 0.9e1)
t101 = lax_cond(t26, t7, -t9)
t102 = lax_cond(t28, t6, t101)
t105 = ((0.1e1 + t102) * r0) ** (0.1e1 / 0.3e1)
t111 = lax_cond(t27 * r0 / 0.2e1 <= p_a_dens_threshold, 0, t24 * t25 / t105 * t92 / 0.9e1)
t112 = t96 + t111
t114 = lax_cond(t112 == 0.0e0, DBL_EPSILON, t112)
t118 = t114 ** 2
t119 = t118 ** 2
res = lax_cond(t5, 0, -0.25000000000000000000e0 * (0.1e1 - t10) * r0 * (0.360663084e1 / t114 + 0.5764e0) / (0.315815266717518096e2 / t119 + 0.150327320916243744e2 / t118 / t114 + 0.1788764629788e1 / t118))
"

/- gen_repo/impl/prebuilt/pol/gga_c_op_xalpha.py and gen_repo/impl/prebuilt/unpol/gga_c_op_xalpha.py -/
formula gga_c_op_xalpha pol "t2 = r0 + r1
t3 = 0.1e1 / t2
t4 = (r0 - r1) * t3
t5 = abs(t4)
t10 = jnp.logical_and(r0 <= p_a_dens_threshold, r1 <= p_a_dens_threshold)
t11 = jnp.logical_or(0.1e1 - t5 <= p_a_zeta_threshold, t10)
t14 = p_a_zeta_threshold - 0.1e1
t17 = -t14
t18 = lax_cond(0.1e1 - t4 <= p_a_zeta_threshold, t17, t4)
t19 = lax_cond(0.1e1 + t4 <= p_a_zeta_threshold, t14, t18)
t20 = t19 ** 2
t29 = lax_cond(0.2e1 * r1 * t3 <= p_a_zeta_threshold, t17, t4)
t30 = lax_cond(0.2e1 * r0 * t3 <= p_a_zeta_threshold, t14, t29)
t31 = 0.1e1 + t30
t35 = 3 ** (0.1e1 / 0.3e1)
t36 = t35 ** 2
t38 = (0.1e1 / math.pi) ** (0.1e1 / 0.3e1)
t40 = t36 / t38
t41 = 4 ** (0.1e1 / 0.3e1)
t42 = 2 ** (0.1e1 / 0.3e1)
t43 = t41 * t42
t44 = t31 <= p_a_zeta_threshold
t45 = 0.1e1 - t30
t46 = t45 <= p_a_zeta_threshold
t47 = lax_cond(t46, t17, t30)
t48 = lax_cond(t44, t14, t47)
t51 = ((0.1e1 + t48) * t2) ** (0.1e1 / 0.3e1)
t56 = lax_cond(t31 * t2 / 0.2e1 <= p_a_dens_threshold, 0, t40 * t43 / t51 / 0.9e1)
t61 = lax_cond(t44, t17, -t30)
t62 = lax_cond(t46, t14, t61)
t65 = ((0.1e1 + t62) * t2) ** (0.1e1 / 0.3e1)
t70 = lax_cond(t45 * t2 / 0.2e1 <= p_a_dens_threshold, 0, t40 * t43 / t65 / 0.9e1)
t71 = t56 + t70
t73 = lax_cond(t71 == 0.0e0, DBL_EPSILON, t71)
t77 = t73 ** 2
t78 = t77 ** 2
res = lax_cond(t11, 0, -0.25000000000000000000e0 * (0.1e1 - t20) * t2 * (0.390299956e1 / t73 + 0.5764e0) / (0.433132090567376656e2 / t78 + 0.190514637481962976e2 / t77 / t73 + 0.2094820520028e1 / t77))
" unpol "t1 = 0.1e1 <= p_a_zeta_threshold
t3 = r0 / 0.2e1 <= p_a_dens_threshold
t4 = jnp.logical_and(t3, t3)
t5 = jnp.logical_or(t1, t4)
t6 = p_a_zeta_threshold - 0.1e1
t7 = -t6
t8 = lax_cond(t1, t7, 0)
t9 = lax_cond(t1, t6, t8)
t10 = t9 ** 2
t13 = 0.1e1 + t9
t17 = 3 ** (0.1e1 / 0.3e1)
t18 = t17 ** 2
t20 = (0.1e1 / math.pi) ** (0.1e1 / 0.3e1)
t22 = t18 / t20
t23 = 4 ** (0.1e1 / 0.3e1)
t24 = 2 ** (0.1e1 / 0.3e1)
t25 = t23 * t24
t26 = t13 <= p_a_zeta_threshold
t27 = 0.1e1 - t9
t28 = t27 <= p_a_zeta_threshold
t29 = lax_cond(t28, t7, t9)
t30 = lax_cond(t26, t6, t29)
t33 = ((0.1e1 + t30) * r0) ** (0.1e1 / 0.3e1)
t38 = lax_cond(t13 * r0 / 0.2e1 <= p_a_dens_threshold, 0, t22 * t25 / t33 / 0.9e1)
t43 = lax_cond(t26, t7, -t9)
t44 = lax_cond(t28, t6, t43)
t47 = ((0.1e1 + t44) * r0) ** (0.1e1 / 0.3e1)
t52 = lax_cond(t27 * r0 / 0.2e1 <= p_a_dens_threshold, 0, t22 * t25 / t47 / 0.9e1)
t53 = t38 + t52
t55 = lax_cond(t53 == 0.0e0, DBL_EPSILON, t53)
t59 = t55 ** 2
t60 = t59 ** 2
res = lax_cond(t5, 0, -0.25000000000000000000e0 * (0.1e1 - t10) * r0 * (0.390299956e1 / t55 + 0.5764e0) / (0.433132090567376656e2 / t60 + 0.190514637481962976e2 / t59 / t55 + 0.2094820520028e1 / t59))
"

/- gen_repo/impl/prebuilt/pol/gga_c_optc.py and gen_repo/impl/prebuilt/unpol/gga_c_optc.py -/
formula gga_c_optc pol "t1 = 3 ** (0.1e1 / 0.3e1)
t2 = 0.1e1 / math.pi
t3 = t2 ** (0.1e1 / 0.3e1)
t4 = t1 * t3
t5 = 4 ** (0.1e1 / 0.3e1)
t6 = t5 ** 2
t7 = r0 + r1
t8 = t7 ** (0.1e1 / 0.3e1)
t9 = 0.1e1 / t8
t11 = t4 * t6 * t9
t14 = math.sqrt(t11)
t17 = t11 ** 0.15e1
t19 = t1 ** 2
t20 = t3 ** 2
t21 = t19 * t20
t22 = t8 ** 2
t23 = 0.1e1 / t22
t25 = t21 * t5 * t23
t31 = math.log(0.1e1 + 0.16081824322151104822e2 / (0.37978500000000000000e1 * t14 + 0.89690000000000000000e0 * t11 + 0.20477500000000000000e0 * t17 + 0.12323500000000000000e0 * t25))
t33 = 0.62182e-1 * (0.1e1 + 0.53425000000000000000e-1 * t11) * t31
t34 = r0 - r1
t35 = t34 ** 2
t36 = t35 ** 2
t37 = t7 ** 2
t38 = t37 ** 2
t42 = t34 / t7
t43 = 0.1e1 + t42
t44 = t43 <= p_a_zeta_threshold
t45 = p_a_zeta_threshold ** (0.1e1 / 0.3e1)
t46 = t45 * p_a_zeta_threshold
t47 = t43 ** (0.1e1 / 0.3e1)
t49 = lax_cond(t44, t46, t47 * t43)
t50 = 0.1e1 - t42
t51 = t50 <= p_a_zeta_threshold
t52 = t50 ** (0.1e1 / 0.3e1)
t54 = lax_cond(t51, t46, t52 * t50)
t56 = 2 ** (0.1e1 / 0.3e1)
t59 = 0.1e1 / (0.2e1 * t56 - 0.2e1)
t60 = (t49 + t54 - 0.2e1) * t59
t71 = math.log(0.1e1 + 0.32164683177870697974e2 / (0.70594500000000000000e1 * t14 + 0.15494250000000000000e1 * t11 + 0.42077500000000000000e0 * t17 + 0.15629250000000000000e0 * t25))
t84 = math.log(0.1e1 + 0.29608574643216675549e2 / (0.51785000000000000000e1 * t14 + 0.90577500000000000000e0 * t11 + 0.11003250000000000000e0 * t17 + 0.12417750000000000000e0 * t25))
t85 = (0.1e1 + 0.27812500000000000000e-1 * t11) * t84
t89 = t36 / t38 * t60 * (-0.31090e-1 * (0.1e1 + 0.51370000000000000000e-1 * t11) * t71 + t33 - 0.19751789702565206229e-1 * t85)
t91 = 0.19751789702565206229e-1 * t60 * t85
t92 = math.pi ** 2
t94 = 0.1e1 / t92 * t19
t95 = t92 ** (0.1e1 / 0.3e1)
t96 = t95 ** 2
t97 = t45 ** 2
t98 = t47 ** 2
t99 = lax_cond(t44, t97, t98)
t100 = t52 ** 2
t101 = lax_cond(t51, t97, t100)
t103 = t99 / 0.2e1 + t101 / 0.2e1
t104 = t103 ** 2
t105 = t104 * t103
t107 = math.pi * t19
t108 = 0.1e1 / t95
t110 = s0 + 0.2e1 * s1 + s2
t112 = 0.1e1 / t8 / t37
t115 = 0.1e1 / t104
t117 = 0.1e1 / t3
t118 = t117 * t5
t122 = math.pi * t108
t127 = 0.1e1 / t96
t128 = t92 * t1 * t127
t131 = math.exp(-0.13067859477648036197e2 * (-t33 + t89 + t91) / t105 * t128)
t132 = t131 - 0.1e1
t133 = 0.1e1 / t132
t134 = t110 ** 2
t139 = t56 ** 2
t141 = t104 ** 2
t143 = 0.1e1 / t20
t146 = 0.1e1 / t22 / t38 * t139 / t141 * t143 * t6
t151 = math.pi * t1
t155 = t112 * t56
t161 = t92 * t19
t162 = t132 ** 2
t175 = math.log(0.1e1 + 0.88547815820543093274e0 * t107 * t108 * (t110 * t112 * t56 * t115 * t19 * t118 / 0.96e2 + 0.86472476387249114526e-3 * t122 * t133 * t134 * t146) / (0.1e1 + 0.27671192443919716648e-1 * t151 * t108 * t133 * t110 * t155 * t115 * t117 * t5 + 0.76569489126843962094e-3 * t161 * t127 / t162 * t134 * t146))
t179 = t2 * t95
t193 = 9 ** (0.1e1 / 0.3e1)
t194 = t193 ** 2
t196 = t2 * t5 * t194 * t3
t204 = math.exp(-0.25e2 / 0.18e2 * t196 / t22 / t37 * t104 * t110 * t56)
t212 = t4 * t6
t213 = t9 * t56
t215 = (0.1e1 / t43) ** (0.1e1 / 0.3e1)
t217 = t212 * t213 * t215
t220 = math.sqrt(t217)
t223 = t217 ** 0.15e1
t225 = t21 * t5
t226 = t23 * t139
t227 = t215 ** 2
t229 = t225 * t226 * t227
t235 = math.log(0.1e1 + 0.16081824322151104822e2 / (0.37978500000000000000e1 * t220 + 0.89690000000000000000e0 * t217 + 0.20477500000000000000e0 * t223 + 0.12323500000000000000e0 * t229))
t237 = 0.62182e-1 * (0.1e1 + 0.53425000000000000000e-1 * t217) * t235
t238 = 0.2e1 <= p_a_zeta_threshold
t240 = lax_cond(t238, t46, 0.2e1 * t56)
t241 = 0.0e0 <= p_a_zeta_threshold
t242 = lax_cond(t241, t46, 0)
t244 = (t240 + t242 - 0.2e1) * t59
t255 = math.log(0.1e1 + 0.32164683177870697974e2 / (0.70594500000000000000e1 * t220 + 0.15494250000000000000e1 * t217 + 0.42077500000000000000e0 * t223 + 0.15629250000000000000e0 * t229))
t268 = math.log(0.1e1 + 0.29608574643216675549e2 / (0.51785000000000000000e1 * t220 + 0.90577500000000000000e0 * t217 + 0.11003250000000000000e0 * t223 + 0.12417750000000000000e0 * t229))
t269 = (0.1e1 + 0.27812500000000000000e-1 * t217) * t268
t272 = t244 * (-0.31090e-1 * (0.1e1 + 0.51370000000000000000e-1 * t217) * t255 + t237 - 0.19751789702565206229e-1 * t269)
t274 = 0.19751789702565206229e-1 * t244 * t269
t275 = lax_cond(t238, t97, t139)
t276 = lax_cond(t241, t97, 0)
t278 = t275 / 0.2e1 + t276 / 0.2e1
t279 = t278 ** 2
t280 = t279 * t278
t281 = t96 * t280
t282 = r0 ** 2
t283 = r0 ** (0.1e1 / 0.3e1)
t284 = t283 ** 2
t286 = 0.1e1 / t284 / t282
t287 = s0 * t286
t288 = 0.1e1 / t279
t289 = t288 * t19
t291 = 0.1e1 / t215
t292 = t8 * t291
t297 = 0.1e1 / t280
t301 = math.exp(-0.13067859477648036197e2 * (-t237 + t272 + t274) * t297 * t128)
t302 = t301 - 0.1e1
t303 = 0.1e1 / t302
t304 = s0 ** 2
t306 = t282 ** 2
t309 = 0.1e1 / t283 / t306 / r0
t312 = t279 ** 2
t313 = 0.1e1 / t312
t314 = t313 * t143
t315 = t6 * t22
t317 = t315 / t227
t328 = t5 * t8
t333 = t302 ** 2
t349 = math.log(0.1e1 + 0.88547815820543093274e0 * t107 * t108 * (t287 * t289 * t118 * t292 / 0.96e2 + 0.86472476387249114526e-3 * t122 * t303 * t304 * t309 * t314 * t317) / (0.1e1 + 0.27671192443919716648e-1 * t151 * t108 * t303 * s0 * t286 * t288 * t117 * t328 * t291 + 0.76569489126843962094e-3 * t161 * t127 / t333 * t304 * t309 * t313 * t143 * t317))
t367 = t56 * t279
t371 = math.exp(-0.25e2 / 0.18e2 * t196 * t367 * t287)
t377 = lax_cond(t44, p_a_zeta_threshold, t43)
t380 = (0.1e1 / t50) ** (0.1e1 / 0.3e1)
t382 = t212 * t213 * t380
t385 = math.sqrt(t382)
t388 = t382 ** 0.15e1
t390 = t380 ** 2
t392 = t225 * t226 * t390
t398 = math.log(0.1e1 + 0.16081824322151104822e2 / (0.37978500000000000000e1 * t385 + 0.89690000000000000000e0 * t382 + 0.20477500000000000000e0 * t388 + 0.12323500000000000000e0 * t392))
t400 = 0.62182e-1 * (0.1e1 + 0.53425000000000000000e-1 * t382) * t398
t411 = math.log(0.1e1 + 0.32164683177870697974e2 / (0.70594500000000000000e1 * t385 + 0.15494250000000000000e1 * t382 + 0.42077500000000000000e0 * t388 + 0.15629250000000000000e0 * t392))
t424 = math.log(0.1e1 + 0.29608574643216675549e2 / (0.51785000000000000000e1 * t385 + 0.90577500000000000000e0 * t382 + 0.11003250000000000000e0 * t388 + 0.12417750000000000000e0 * t392))
t425 = (0.1e1 + 0.27812500000000000000e-1 * t382) * t424
t428 = t244 * (-0.31090e-1 * (0.1e1 + 0.51370000000000000000e-1 * t382) * t411 + t400 - 0.19751789702565206229e-1 * t425)
t430 = 0.19751789702565206229e-1 * t244 * t425
t431 = r1 ** 2
t432 = r1 ** (0.1e1 / 0.3e1)
t433 = t432 ** 2
t435 = 0.1e1 / t433 / t431
t436 = s2 * t435
t438 = 0.1e1 / t380
t439 = t8 * t438
t447 = math.exp(-0.13067859477648036197e2 * (-t400 + t428 + t430) * t297 * t128)
t448 = t447 - 0.1e1
t449 = 0.1e1 / t448
t450 = s2 ** 2
t452 = t431 ** 2
t455 = 0.1e1 / t432 / t452 / r1
t459 = t315 / t390
t474 = t448 ** 2
t490 = math.log(0.1e1 + 0.88547815820543093274e0 * t107 * t108 * (t436 * t289 * t118 * t439 / 0.96e2 + 0.86472476387249114526e-3 * t122 * t449 * t450 * t455 * t314 * t459) / (0.1e1 + 0.27671192443919716648e-1 * t151 * t108 * t449 * s2 * t435 * t288 * t117 * t328 * t438 + 0.76569489126843962094e-3 * t161 * t127 / t474 * t450 * t455 * t313 * t143 * t459))
t511 = math.exp(-0.25e2 / 0.18e2 * t196 * t367 * t436)
t517 = lax_cond(t51, p_a_zeta_threshold, t50)
res = params_a_c1 * (-t33 + t89 + t91 + 0.25507875555555555556e-1 * t94 * t96 * t105 * t175 + t179 * ((0.2568e1 + 0.58165000000000000000e1 * t11 + 0.18472500000000000000e-2 * t25) / (0.1000e4 + 0.21807500000000000000e4 * t11 + 0.11800000000000000000e3 * t25) - 0.18535714285714285714e-2) * t103 * t110 * t155 * t118 * t204 / 0.2e1) + (params_a_c2 - params_a_c1) * ((-t237 + t272 + t274 + 0.25507875555555555556e-1 * t94 * t281 * t349 + t179 * ((0.2568e1 + 0.58165000000000000000e1 * t217 + 0.18472500000000000000e-2 * t229) / (0.1000e4 + 0.21807500000000000000e4 * t217 + 0.11800000000000000000e3 * t229) - 0.18535714285714285714e-2) * t278 * s0 * t286 * t117 * t5 * t292 * t371 / 0.2e1) * t377 / 0.2e1 + (-t400 + t428 + t430 + 0.25507875555555555556e-1 * t94 * t281 * t490 + t179 * ((0.2568e1 + 0.58165000000000000000e1 * t382 + 0.18472500000000000000e-2 * t392) / (0.1000e4 + 0.21807500000000000000e4 * t382 + 0.11800000000000000000e3 * t392) - 0.18535714285714285714e-2) * t278 * s2 * t435 * t117 * t5 * t439 * t511 / 0.2e1) * t517 / 0.2e1)
" unpol "t1 = 3 ** (0.1e1 / 0.3e1)
t2 = 0.1e1 / math.pi
t3 = t2 ** (0.1e1 / 0.3e1)
t4 = t1 * t3
t5 = 4 ** (0.1e1 / 0.3e1)
t6 = t5 ** 2
t7 = r0 ** (0.1e1 / 0.3e1)
t9 = t6 / t7
t10 = t4 * t9
t13 = math.sqrt(t10)
t16 = t10 ** 0.15e1
t18 = t1 ** 2
t19 = t3 ** 2
t20 = t18 * t19
t21 = t7 ** 2
t23 = t5 / t21
t24 = t20 * t23
t30 = math.log(0.1e1 + 0.16081824322151104822e2 / (0.37978500000000000000e1 * t13 + 0.89690000000000000000e0 * t10 + 0.20477500000000000000e0 * t16 + 0.12323500000000000000e0 * t24))
t32 = 0.62182e-1 * (0.1e1 + 0.53425000000000000000e-1 * t10) * t30
t33 = 0.1e1 <= p_a_zeta_threshold
t34 = p_a_zeta_threshold ** (0.1e1 / 0.3e1)
t35 = t34 * p_a_zeta_threshold
t36 = lax_cond(t33, t35, 1)
t39 = 2 ** (0.1e1 / 0.3e1)
t42 = 0.1e1 / (0.2e1 * t39 - 0.2e1)
t54 = math.log(0.1e1 + 0.29608574643216675549e2 / (0.51785000000000000000e1 * t13 + 0.90577500000000000000e0 * t10 + 0.11003250000000000000e0 * t16 + 0.12417750000000000000e0 * t24))
t57 = 0.19751789702565206229e-1 * (0.2e1 * t36 - 0.2e1) * t42 * (0.1e1 + 0.27812500000000000000e-1 * t10) * t54
t58 = math.pi ** 2
t60 = 0.1e1 / t58 * t18
t61 = t58 ** (0.1e1 / 0.3e1)
t62 = t61 ** 2
t63 = t34 ** 2
t64 = lax_cond(t33, t63, 1)
t65 = t64 ** 2
t66 = t65 * t64
t68 = math.pi * t18
t69 = 0.1e1 / t61
t70 = r0 ** 2
t72 = 0.1e1 / t7 / t70
t73 = s0 * t72
t75 = 0.1e1 / t65
t77 = 0.1e1 / t3
t78 = t77 * t5
t82 = math.pi * t69
t87 = 0.1e1 / t62
t88 = t58 * t1 * t87
t91 = math.exp(-0.13067859477648036197e2 * (-t32 + t57) / t66 * t88)
t92 = t91 - 0.1e1
t93 = 0.1e1 / t92
t94 = s0 ** 2
t97 = t70 ** 2
t99 = 0.1e1 / t21 / t97
t100 = t39 ** 2
t102 = t65 ** 2
t104 = 0.1e1 / t19
t107 = t99 * t100 / t102 * t104 * t6
t112 = math.pi * t1
t116 = t72 * t39
t122 = t58 * t18
t123 = t92 ** 2
t136 = math.log(0.1e1 + 0.88547815820543093274e0 * t68 * t69 * (t73 * t39 * t75 * t18 * t78 / 0.96e2 + 0.86472476387249114526e-3 * t82 * t93 * t94 * t107) / (0.1e1 + 0.27671192443919716648e-1 * t112 * t69 * t93 * s0 * t116 * t75 * t77 * t5 + 0.76569489126843962094e-3 * t122 * t87 / t123 * t94 * t107))
t140 = t2 * t61
t153 = t2 * t5
t154 = 9 ** (0.1e1 / 0.3e1)
t155 = t154 ** 2
t159 = 0.1e1 / t21 / t70
t165 = math.exp(-0.25e2 / 0.18e2 * t153 * t155 * t3 * t159 * t65 * s0 * t39)
t174 = t4 * t9 * t39
t177 = math.sqrt(t174)
t180 = t174 ** 0.15e1
t183 = t20 * t23 * t100
t189 = math.log(0.1e1 + 0.16081824322151104822e2 / (0.37978500000000000000e1 * t177 + 0.89690000000000000000e0 * t174 + 0.20477500000000000000e0 * t180 + 0.12323500000000000000e0 * t183))
t191 = 0.62182e-1 * (0.1e1 + 0.53425000000000000000e-1 * t174) * t189
t192 = 0.2e1 <= p_a_zeta_threshold
t194 = lax_cond(t192, t35, 0.2e1 * t39)
t195 = 0.0e0 <= p_a_zeta_threshold
t196 = lax_cond(t195, t35, 0)
t198 = (t194 + t196 - 0.2e1) * t42
t209 = math.log(0.1e1 + 0.32164683177870697974e2 / (0.70594500000000000000e1 * t177 + 0.15494250000000000000e1 * t174 + 0.42077500000000000000e0 * t180 + 0.15629250000000000000e0 * t183))
t222 = math.log(0.1e1 + 0.29608574643216675549e2 / (0.51785000000000000000e1 * t177 + 0.90577500000000000000e0 * t174 + 0.11003250000000000000e0 * t180 + 0.12417750000000000000e0 * t183))
t223 = (0.1e1 + 0.27812500000000000000e-1 * t174) * t222
t226 = t198 * (-0.31090e-1 * (0.1e1 + 0.51370000000000000000e-1 * t174) * t209 + t191 - 0.19751789702565206229e-1 * t223)
t228 = 0.19751789702565206229e-1 * t198 * t223
t229 = lax_cond(t192, t63, t100)
t230 = lax_cond(t195, t63, 0)
t232 = t229 / 0.2e1 + t230 / 0.2e1
t233 = t232 ** 2
t234 = t233 * t232
t236 = 0.1e1 / t233
t239 = t5 * t100
t248 = math.exp(-0.13067859477648036197e2 * (-t191 + t226 + t228) / t234 * t88)
t249 = t248 - 0.1e1
t250 = 0.1e1 / t249
t253 = t233 ** 2
t258 = t99 / t253 * t104 * t6 * t39
t271 = t249 ** 2
t284 = math.log(0.1e1 + 0.88547815820543093274e0 * t68 * t69 * (t73 * t236 * t18 * t77 * t239 / 0.96e2 + 0.17294495277449822906e-2 * t82 * t250 * t94 * t258) / (0.1e1 + 0.27671192443919716647e-1 * t112 * t69 * t250 * s0 * t72 * t236 * t78 * t100 + 0.15313897825368792419e-2 * t122 * t87 / t271 * t94 * t258))
t307 = math.exp(-0.25e2 / 0.9e1 * t153 * t155 * t3 * t159 * t233 * s0)
t314 = lax_cond(t33, p_a_zeta_threshold, 1)
res = params_a_c1 * (-t32 + t57 + 0.25507875555555555556e-1 * t60 * t62 * t66 * t136 + t140 * ((0.2568e1 + 0.58165000000000000000e1 * t10 + 0.18472500000000000000e-2 * t24) / (0.1000e4 + 0.21807500000000000000e4 * t10 + 0.11800000000000000000e3 * t24) - 0.18535714285714285714e-2) * t64 * s0 * t116 * t78 * t165 / 0.2e1) + (params_a_c2 - params_a_c1) * (-t191 + t226 + t228 + 0.25507875555555555556e-1 * t60 * t62 * t234 * t284 + t140 * ((0.2568e1 + 0.58165000000000000000e1 * t174 + 0.18472500000000000000e-2 * t183) / (0.1000e4 + 0.21807500000000000000e4 * t174 + 0.11800000000000000000e3 * t183) - 0.18535714285714285714e-2) * t232 * s0 * t72 * t77 * t239 * t307 / 0.2e1) * t314
"

/- gen_repo/impl/prebuilt/pol/gga_c_p86.py and gen_repo/impl/prebuilt/unpol/gga_c_p86.py -/
formula gga_c_p86 pol "t1 = 3 ** (0.1e1 / 0.3e1)
t2 = 0.1e1 / math.pi
t3 = t2 ** (0.1e1 / 0.3e1)
t4 = t1 * t3
t5 = 4 ** (0.1e1 / 0.3e1)
t6 = t5 ** 2
t7 = r0 + r1
t8 = t7 ** (0.1e1 / 0.3e1)
t9 = 0.1e1 / t8
t10 = t6 * t9
t11 = t4 * t10
t12 = t11 / 0.4e1
t13 = 0.1e1 <= t12
t14 = math.sqrt(t11)
t20 = math.log(t12)
t23 = t4 * t10 * t20
t27 = lax_cond(t13, -0.1423e0 / (0.1e1 + 0.52645000000000000000e0 * t14 + 0.83350000000000000000e-1 * t11), 0.311e-1 * t20 - 0.48e-1 + 0.50000000000000000000e-3 * t23 - 0.29000000000000000000e-2 * t11)
t37 = lax_cond(t13, -0.843e-1 / (0.1e1 + 0.69905000000000000000e0 * t14 + 0.65275000000000000000e-1 * t11), 0.1555e-1 * t20 - 0.269e-1 + 0.17500000000000000000e-3 * t23 - 0.12000000000000000000e-2 * t11)
t40 = 0.1e1 / t7
t41 = (r0 - r1) * t40
t42 = 0.1e1 + t41
t43 = t42 <= p_a_zeta_threshold
t44 = p_a_zeta_threshold ** (0.1e1 / 0.3e1)
t45 = t44 * p_a_zeta_threshold
t46 = t42 ** (0.1e1 / 0.3e1)
t48 = lax_cond(t43, t45, t46 * t42)
t49 = 0.1e1 - t41
t50 = t49 <= p_a_zeta_threshold
t51 = t49 ** (0.1e1 / 0.3e1)
t53 = lax_cond(t50, t45, t51 * t49)
t56 = 2 ** (0.1e1 / 0.3e1)
t62 = s0 + 0.2e1 * s1 + s2
t63 = t7 ** 2
t71 = t3 * t6 * t9
t74 = t1 ** 2
t76 = t3 ** 2
t78 = t8 ** 2
t80 = t76 * t5 / t78
t96 = params_a_aa + (params_a_bb + params_a_malpha * t1 * t71 / 0.4e1 + params_a_mbeta * t74 * t80 / 0.4e1) / (0.1e1 + params_a_mgamma * t1 * t71 / 0.4e1 + params_a_mdelta * t74 * t80 / 0.4e1 + 0.75000000000000000000e4 * params_a_mbeta * t2 * t40)
t98 = math.sqrt(t62)
t100 = t7 ** (0.1e1 / 0.6e1)
t105 = math.exp(-params_a_ftilde * (params_a_aa + params_a_bb) / t96 * t98 / t100 / t7)
t107 = t44 ** 2
t108 = t107 * p_a_zeta_threshold
t109 = t46 ** 2
t111 = lax_cond(t43, t108, t109 * t42)
t112 = t51 ** 2
t114 = lax_cond(t50, t108, t112 * t49)
t116 = math.sqrt(t111 + t114)
t119 = math.sqrt(0.2e1)
res = t27 + (t37 - t27) * (t48 + t53 - 0.2e1) / (0.2e1 * t56 - 0.2e1) + t62 / t8 / t63 * t105 * t96 / t116 * t119
" unpol "t1 = 3 ** (0.1e1 / 0.3e1)
t2 = 0.1e1 / math.pi
t3 = t2 ** (0.1e1 / 0.3e1)
t4 = t1 * t3
t5 = 4 ** (0.1e1 / 0.3e1)
t6 = t5 ** 2
t7 = r0 ** (0.1e1 / 0.3e1)
t8 = 0.1e1 / t7
t9 = t6 * t8
t10 = t4 * t9
t11 = t10 / 0.4e1
t12 = 0.1e1 <= t11
t13 = math.sqrt(t10)
t19 = math.log(t11)
t22 = t4 * t9 * t19
t26 = lax_cond(t12, -0.1423e0 / (0.1e1 + 0.52645000000000000000e0 * t13 + 0.83350000000000000000e-1 * t10), 0.311e-1 * t19 - 0.48e-1 + 0.50000000000000000000e-3 * t22 - 0.29000000000000000000e-2 * t10)
t36 = lax_cond(t12, -0.843e-1 / (0.1e1 + 0.69905000000000000000e0 * t13 + 0.65275000000000000000e-1 * t10), 0.1555e-1 * t19 - 0.269e-1 + 0.17500000000000000000e-3 * t22 - 0.12000000000000000000e-2 * t10)
t38 = 0.1e1 <= p_a_zeta_threshold
t39 = p_a_zeta_threshold ** (0.1e1 / 0.3e1)
t41 = lax_cond(t38, t39 * p_a_zeta_threshold, 1)
t45 = 2 ** (0.1e1 / 0.3e1)
t50 = r0 ** 2
t58 = t3 * t6 * t8
t61 = t1 ** 2
t63 = t3 ** 2
t65 = t7 ** 2
t67 = t63 * t5 / t65
t84 = params_a_aa + (params_a_bb + params_a_malpha * t1 * t58 / 0.4e1 + params_a_mbeta * t61 * t67 / 0.4e1) / (0.1e1 + params_a_mgamma * t1 * t58 / 0.4e1 + params_a_mdelta * t61 * t67 / 0.4e1 + 0.75000000000000000000e4 * params_a_mbeta * t2 / r0)
t86 = math.sqrt(s0)
t88 = r0 ** (0.1e1 / 0.6e1)
t93 = math.exp(-params_a_ftilde * (params_a_aa + params_a_bb) / t84 * t86 / t88 / r0)
t95 = t39 ** 2
t97 = lax_cond(t38, t95 * p_a_zeta_threshold, 1)
t98 = math.sqrt(t97)
res = t26 + (t36 - t26) * (0.2e1 * t41 - 0.2e1) / (0.2e1 * t45 - 0.2e1) + s0 / t7 / t50 * t93 * t84 / t98
"

/- gen_repo/impl/prebuilt/pol/gga_c_p86vwn.py and gen_repo/impl/prebuilt/unpol/gga_c_p86vwn.py -/
formula gga_c_p86vwn pol "t1 = 3 ** (0.1e1 / 0.3e1)
t2 = 0.1e1 / math.pi
t3 = t2 ** (0.1e1 / 0.3e1)
t4 = t1 * t3
t5 = 4 ** (0.1e1 / 0.3e1)
t6 = t5 ** 2
t7 = r0 + r1
t8 = t7 ** (0.1e1 / 0.3e1)
t9 = 0.1e1 / t8
t10 = t6 * t9
t11 = t4 * t10
t12 = t11 / 0.4e1
t13 = math.sqrt(t11)
t16 = 0.1e1 / (t12 + 0.18637200000000000000e1 * t13 + 0.129352e2)
t20 = math.log(t4 * t10 * t16 / 0.4e1)
t21 = 0.310907e-1 * t20
t25 = math.atan(0.61519908197590802322e1 / (t13 + 0.372744e1))
t26 = 0.38783294878113014393e-1 * t25
t27 = t13 / 0.2e1
t29 = (t27 + 0.10498e0) ** 2
t31 = math.log(t29 * t16)
t32 = 0.96902277115443742139e-3 * t31
t33 = math.pi ** 2
t37 = 0.1e1 / (t12 + 0.56553500000000000000e0 * t13 + 0.130045e2)
t41 = math.log(t4 * t10 * t37 / 0.4e1)
t45 = math.atan(0.71231089178181179908e1 / (t13 + 0.113107e1))
t48 = (t27 + 0.47584e-2) ** 2
t50 = math.log(t48 * t37)
t54 = r0 - r1
t55 = 0.1e1 / t7
t56 = t54 * t55
t57 = 0.1e1 + t56
t58 = t57 <= p_a_zeta_threshold
t59 = p_a_zeta_threshold ** (0.1e1 / 0.3e1)
t60 = t59 * p_a_zeta_threshold
t61 = t57 ** (0.1e1 / 0.3e1)
t63 = lax_cond(t58, t60, t61 * t57)
t64 = 0.1e1 - t56
t65 = t64 <= p_a_zeta_threshold
t66 = t64 ** (0.1e1 / 0.3e1)
t68 = lax_cond(t65, t60, t66 * t64)
t69 = t63 + t68 - 0.2e1
t71 = 2 ** (0.1e1 / 0.3e1)
t72 = t71 - 0.1e1
t74 = 0.1e1 / t72 / 0.2e1
t75 = t54 ** 2
t76 = t75 ** 2
t77 = t7 ** 2
t78 = t77 ** 2
t79 = 0.1e1 / t78
t89 = 0.1e1 / (t12 + 0.35302100000000000000e1 * t13 + 0.180578e2)
t93 = math.log(t4 * t10 * t89 / 0.4e1)
t98 = math.atan(0.47309269095601128300e1 / (t13 + 0.706042e1))
t101 = (t27 + 0.32500e0) ** 2
t103 = math.log(t101 * t89)
t111 = s0 + 0.2e1 * s1 + s2
t119 = t3 * t6 * t9
t122 = t1 ** 2
t124 = t3 ** 2
t126 = t8 ** 2
t128 = t124 * t5 / t126
t144 = params_a_aa + (params_a_bb + params_a_malpha * t1 * t119 / 0.4e1 + params_a_mbeta * t122 * t128 / 0.4e1) / (0.1e1 + params_a_mgamma * t1 * t119 / 0.4e1 + params_a_mdelta * t122 * t128 / 0.4e1 + 0.75000000000000000000e4 * params_a_mbeta * t2 * t55)
t146 = math.sqrt(t111)
t148 = t7 ** (0.1e1 / 0.6e1)
t153 = math.exp(-params_a_ftilde * (params_a_aa + params_a_bb) / t144 * t146 / t148 / t7)
t155 = t59 ** 2
t156 = t155 * p_a_zeta_threshold
t157 = t61 ** 2
t159 = lax_cond(t58, t156, t157 * t57)
t160 = t66 ** 2
t162 = lax_cond(t65, t156, t160 * t64)
t164 = math.sqrt(t159 + t162)
t167 = math.sqrt(0.2e1)
res = t21 + t26 + t32 - 0.3e1 / 0.8e1 / t33 * (t41 + 0.31770800474394146400e0 * t45 + 0.41403379428206274608e-3 * t50) * t69 * t74 * (-t76 * t79 + 0.1e1) * t72 + (0.1554535e-1 * t93 + 0.52491393169780936218e-1 * t98 + 0.22478670955426118383e-2 * t103 - t21 - t26 - t32) * t69 * t74 * t76 * t79 + t111 / t8 / t77 * t153 * t144 / t164 * t167
" unpol "t1 = 3 ** (0.1e1 / 0.3e1)
t2 = 0.1e1 / math.pi
t3 = t2 ** (0.1e1 / 0.3e1)
t4 = t1 * t3
t5 = 4 ** (0.1e1 / 0.3e1)
t6 = t5 ** 2
t7 = r0 ** (0.1e1 / 0.3e1)
t8 = 0.1e1 / t7
t9 = t6 * t8
t10 = t4 * t9
t11 = t10 / 0.4e1
t12 = math.sqrt(t10)
t15 = 0.1e1 / (t11 + 0.18637200000000000000e1 * t12 + 0.129352e2)
t19 = math.log(t4 * t9 * t15 / 0.4e1)
t24 = math.atan(0.61519908197590802322e1 / (t12 + 0.372744e1))
t26 = t12 / 0.2e1
t28 = (t26 + 0.10498e0) ** 2
t30 = math.log(t28 * t15)
t32 = math.pi ** 2
t36 = 0.1e1 / (t11 + 0.56553500000000000000e0 * t12 + 0.130045e2)
t40 = math.log(t4 * t9 * t36 / 0.4e1)
t44 = math.atan(0.71231089178181179908e1 / (t12 + 0.113107e1))
t47 = (t26 + 0.47584e-2) ** 2
t49 = math.log(t47 * t36)
t53 = 0.1e1 <= p_a_zeta_threshold
t54 = p_a_zeta_threshold ** (0.1e1 / 0.3e1)
t56 = lax_cond(t53, t54 * p_a_zeta_threshold, 1)
t59 = 2 ** (0.1e1 / 0.3e1)
t60 = t59 - 0.1e1
t68 = r0 ** 2
t76 = t3 * t6 * t8
t79 = t1 ** 2
t81 = t3 ** 2
t83 = t7 ** 2
t85 = t81 * t5 / t83
t102 = params_a_aa + (params_a_bb + params_a_malpha * t1 * t76 / 0.4e1 + params_a_mbeta * t79 * t85 / 0.4e1) / (0.1e1 + params_a_mgamma * t1 * t76 / 0.4e1 + params_a_mdelta * t79 * t85 / 0.4e1 + 0.75000000000000000000e4 * params_a_mbeta * t2 / r0)
t104 = math.sqrt(s0)
t106 = r0 ** (0.1e1 / 0.6e1)
t111 = math.exp(-params_a_ftilde * (params_a_aa + params_a_bb) / t102 * t104 / t106 / r0)
t113 = t54 ** 2
t115 = lax_cond(t53, t113 * p_a_zeta_threshold, 1)
t116 = math.sqrt(t115)
res = 0.310907e-1 * t19 + 0.38783294878113014393e-1 * t24 + 0.96902277115443742139e-3 * t30 - 0.1e1 / t32 * (t40 + 0.31770800474394146400e0 * t44 + 0.41403379428206274608e-3 * t49) * (0.9e1 * t56 - 0.9e1) / 0.24e2 + s0 / t7 / t68 * t111 * t102 / t116
"

/- gen_repo/impl/prebuilt/pol/gga_c_pbe.py and gen_repo/impl/prebuilt/unpol/gga_c_pbe.py -/
formula gga_c_pbe pol "t1 = 3 ** (0.1e1 / 0.3e1)
t3 = (0.1e1 / math.pi) ** (0.1e1 / 0.3e1)
t5 = 4 ** (0.1e1 / 0.3e1)
t6 = t5 ** 2
t7 = r0 + r1
t8 = t7 ** (0.1e1 / 0.3e1)
t11 = t1 * t3 * t6 / t8
t14 = math.sqrt(t11)
t17 = t11 ** 0.15e1
t19 = t1 ** 2
t20 = t3 ** 2
t22 = t8 ** 2
t25 = t19 * t20 * t5 / t22
t31 = math.log(0.1e1 + 0.16081979498692535067e2 / (0.37978500000000000000e1 * t14 + 0.89690000000000000000e0 * t11 + 0.20477500000000000000e0 * t17 + 0.12323500000000000000e0 * t25))
t33 = 0.621814e-1 * (0.1e1 + 0.53425000000000000000e-1 * t11) * t31
t34 = r0 - r1
t35 = t34 ** 2
t36 = t35 ** 2
t37 = t7 ** 2
t38 = t37 ** 2
t42 = t34 / t7
t43 = 0.1e1 + t42
t44 = t43 <= p_a_zeta_threshold
t45 = p_a_zeta_threshold ** (0.1e1 / 0.3e1)
t46 = t45 * p_a_zeta_threshold
t47 = t43 ** (0.1e1 / 0.3e1)
t49 = lax_cond(t44, t46, t47 * t43)
t50 = 0.1e1 - t42
t51 = t50 <= p_a_zeta_threshold
t52 = t50 ** (0.1e1 / 0.3e1)
t54 = lax_cond(t51, t46, t52 * t50)
t56 = 2 ** (0.1e1 / 0.3e1)
t60 = (t49 + t54 - 0.2e1) / (0.2e1 * t56 - 0.2e1)
t71 = math.log(0.1e1 + 0.32163958997385070134e2 / (0.70594500000000000000e1 * t14 + 0.15494250000000000000e1 * t11 + 0.42077500000000000000e0 * t17 + 0.15629250000000000000e0 * t25))
t84 = math.log(0.1e1 + 0.29608749977793437516e2 / (0.51785000000000000000e1 * t14 + 0.90577500000000000000e0 * t11 + 0.11003250000000000000e0 * t17 + 0.12417750000000000000e0 * t25))
t85 = (0.1e1 + 0.27812500000000000000e-1 * t11) * t84
t89 = t36 / t38 * t60 * (-0.3109070e-1 * (0.1e1 + 0.51370000000000000000e-1 * t11) * t71 + t33 - 0.19751673498613801407e-1 * t85)
t91 = 0.19751673498613801407e-1 * t60 * t85
t92 = t45 ** 2
t93 = t47 ** 2
t94 = lax_cond(t44, t92, t93)
t95 = t52 ** 2
t96 = lax_cond(t51, t92, t95)
t98 = t94 / 0.2e1 + t96 / 0.2e1
t99 = t98 ** 2
t100 = t99 * t98
t103 = s0 + 0.2e1 * s1 + s2
t116 = 0.1e1 / params_a_gamma
t121 = math.exp(-(-t33 + t89 + t91) * t116 / t100)
t123 = 0.1e1 / (t121 - 0.1e1)
t125 = t103 ** 2
t130 = t56 ** 2
t132 = t99 ** 2
t141 = t103 / t8 / t37 * t56 / t99 * t19 / t3 * t5 / 0.96e2 + params_a_BB * params_a_beta * t116 * t123 * t125 / t22 / t38 * t130 / t132 * t1 / t20 * t6 / 0.3072e4
t151 = math.log(0.1e1 + params_a_beta * t141 * t116 / (params_a_beta * t116 * t123 * t141 + 0.1e1))
res = params_a_gamma * t100 * t151 - t33 + t89 + t91
" unpol "t1 = 3 ** (0.1e1 / 0.3e1)
t3 = (0.1e1 / math.pi) ** (0.1e1 / 0.3e1)
t5 = 4 ** (0.1e1 / 0.3e1)
t6 = t5 ** 2
t7 = r0 ** (0.1e1 / 0.3e1)
t10 = t1 * t3 * t6 / t7
t13 = math.sqrt(t10)
t16 = t10 ** 0.15e1
t18 = t1 ** 2
t19 = t3 ** 2
t21 = t7 ** 2
t24 = t18 * t19 * t5 / t21
t30 = math.log(0.1e1 + 0.16081979498692535067e2 / (0.37978500000000000000e1 * t13 + 0.89690000000000000000e0 * t10 + 0.20477500000000000000e0 * t16 + 0.12323500000000000000e0 * t24))
t32 = 0.621814e-1 * (0.1e1 + 0.53425000000000000000e-1 * t10) * t30
t33 = 0.1e1 <= p_a_zeta_threshold
t34 = p_a_zeta_threshold ** (0.1e1 / 0.3e1)
t36 = lax_cond(t33, t34 * p_a_zeta_threshold, 1)
t39 = 2 ** (0.1e1 / 0.3e1)
t54 = math.log(0.1e1 + 0.29608749977793437516e2 / (0.51785000000000000000e1 * t13 + 0.90577500000000000000e0 * t10 + 0.11003250000000000000e0 * t16 + 0.12417750000000000000e0 * t24))
t57 = 0.19751673498613801407e-1 * (0.2e1 * t36 - 0.2e1) / (0.2e1 * t39 - 0.2e1) * (0.1e1 + 0.27812500000000000000e-1 * t10) * t54
t58 = t34 ** 2
t59 = lax_cond(t33, t58, 1)
t60 = t59 ** 2
t61 = t60 * t59
t63 = r0 ** 2
t76 = 0.1e1 / params_a_gamma
t81 = math.exp(-(-t32 + t57) * t76 / t61)
t83 = 0.1e1 / (t81 - 0.1e1)
t85 = s0 ** 2
t88 = t63 ** 2
t91 = t39 ** 2
t93 = t60 ** 2
t102 = s0 / t7 / t63 * t39 / t60 * t18 / t3 * t5 / 0.96e2 + params_a_BB * params_a_beta * t76 * t83 * t85 / t21 / t88 * t91 / t93 * t1 / t19 * t6 / 0.3072e4
t112 = math.log(0.1e1 + params_a_beta * t102 * t76 / (params_a_beta * t76 * t83 * t102 + 0.1e1))
res = params_a_gamma * t61 * t112 - t32 + t57
"

/- gen_repo/impl/prebuilt/pol/gga_c_pbe_vwn.py and gen_repo/impl/prebuilt/unpol/gga_c_pbe_vwn.py -/
formula gga_c_pbe_vwn pol "t1 = 3 ** (0.1e1 / 0.3e1)
t3 = (0.1e1 / math.pi) ** (0.1e1 / 0.3e1)
t4 = t1 * t3
t5 = 4 ** (0.1e1 / 0.3e1)
t6 = t5 ** 2
t7 = r0 + r1
t8 = t7 ** (0.1e1 / 0.3e1)
t10 = t6 / t8
t11 = t4 * t10
t12 = t11 / 0.4e1
t13 = math.sqrt(t11)
t16 = 0.1e1 / (t12 + 0.18637200000000000000e1 * t13 + 0.129352e2)
t20 = math.log(t4 * t10 * t16 / 0.4e1)
t21 = 0.310907e-1 * t20
t25 = math.atan(0.61519908197590802322e1 / (t13 + 0.372744e1))
t26 = 0.38783294878113014393e-1 * t25
t27 = t13 / 0.2e1
t29 = (t27 + 0.10498e0) ** 2
t31 = math.log(t29 * t16)
t32 = 0.96902277115443742139e-3 * t31
t33 = math.pi ** 2
t37 = 0.1e1 / (t12 + 0.56553500000000000000e0 * t13 + 0.130045e2)
t41 = math.log(t4 * t10 * t37 / 0.4e1)
t45 = math.atan(0.71231089178181179908e1 / (t13 + 0.113107e1))
t48 = (t27 + 0.47584e-2) ** 2
t50 = math.log(t48 * t37)
t54 = r0 - r1
t56 = t54 / t7
t57 = 0.1e1 + t56
t58 = t57 <= p_a_zeta_threshold
t59 = p_a_zeta_threshold ** (0.1e1 / 0.3e1)
t60 = t59 * p_a_zeta_threshold
t61 = t57 ** (0.1e1 / 0.3e1)
t63 = lax_cond(t58, t60, t61 * t57)
t64 = 0.1e1 - t56
t65 = t64 <= p_a_zeta_threshold
t66 = t64 ** (0.1e1 / 0.3e1)
t68 = lax_cond(t65, t60, t66 * t64)
t69 = t63 + t68 - 0.2e1
t71 = 2 ** (0.1e1 / 0.3e1)
t72 = t71 - 0.1e1
t74 = 0.1e1 / t72 / 0.2e1
t75 = t54 ** 2
t76 = t75 ** 2
t77 = t7 ** 2
t78 = t77 ** 2
t79 = 0.1e1 / t78
t86 = 0.3e1 / 0.8e1 / t33 * (t41 + 0.31770800474394146400e0 * t45 + 0.41403379428206274608e-3 * t50) * t69 * t74 * (-t76 * t79 + 0.1e1) * t72
t89 = 0.1e1 / (t12 + 0.35302100000000000000e1 * t13 + 0.180578e2)
t93 = math.log(t4 * t10 * t89 / 0.4e1)
t98 = math.atan(0.47309269095601128300e1 / (t13 + 0.706042e1))
t101 = (t27 + 0.32500e0) ** 2
t103 = math.log(t101 * t89)
t109 = (0.1554535e-1 * t93 + 0.52491393169780936218e-1 * t98 + 0.22478670955426118383e-2 * t103 - t21 - t26 - t32) * t69 * t74 * t76 * t79
t110 = t59 ** 2
t111 = t61 ** 2
t112 = lax_cond(t58, t110, t111)
t113 = t66 ** 2
t114 = lax_cond(t65, t110, t113)
t116 = t112 / 0.2e1 + t114 / 0.2e1
t117 = t116 ** 2
t118 = t117 * t116
t121 = s0 + 0.2e1 * s1 + s2
t127 = t1 ** 2
t135 = 0.1e1 / params_a_gamma
t140 = math.exp(-(t21 + t26 + t32 - t86 + t109) * t135 / t118)
t142 = 0.1e1 / (t140 - 0.1e1)
t144 = t121 ** 2
t147 = t8 ** 2
t150 = t71 ** 2
t152 = t117 ** 2
t155 = t3 ** 2
t162 = t121 / t8 / t77 * t71 / t117 * t127 / t3 * t5 / 0.96e2 + params_a_BB * params_a_beta * t135 * t142 * t144 / t147 / t78 * t150 / t152 * t1 / t155 * t6 / 0.3072e4
t172 = math.log(0.1e1 + params_a_beta * t162 * t135 / (params_a_beta * t135 * t142 * t162 + 0.1e1))
res = params_a_gamma * t118 * t172 + t109 + t21 + t26 + t32 - t86
" unpol "t1 = 3 ** (0.1e1 / 0.3e1)
t3 = (0.1e1 / math.pi) ** (0.1e1 / 0.3e1)
t4 = t1 * t3
t5 = 4 ** (0.1e1 / 0.3e1)
t6 = t5 ** 2
t7 = r0 ** (0.1e1 / 0.3e1)
t9 = t6 / t7
t10 = t4 * t9
t11 = t10 / 0.4e1
t12 = math.sqrt(t10)
t15 = 0.1e1 / (t11 + 0.18637200000000000000e1 * t12 + 0.129352e2)
t19 = math.log(t4 * t9 * t15 / 0.4e1)
t20 = 0.310907e-1 * t19
t24 = math.atan(0.61519908197590802322e1 / (t12 + 0.372744e1))
t25 = 0.38783294878113014393e-1 * t24
t26 = t12 / 0.2e1
t28 = (t26 + 0.10498e0) ** 2
t30 = math.log(t28 * t15)
t31 = 0.96902277115443742139e-3 * t30
t32 = math.pi ** 2
t36 = 0.1e1 / (t11 + 0.56553500000000000000e0 * t12 + 0.130045e2)
t40 = math.log(t4 * t9 * t36 / 0.4e1)
t44 = math.atan(0.71231089178181179908e1 / (t12 + 0.113107e1))
t47 = (t26 + 0.47584e-2) ** 2
t49 = math.log(t47 * t36)
t53 = 0.1e1 <= p_a_zeta_threshold
t54 = p_a_zeta_threshold ** (0.1e1 / 0.3e1)
t56 = lax_cond(t53, t54 * p_a_zeta_threshold, 1)
t59 = 2 ** (0.1e1 / 0.3e1)
t60 = t59 - 0.1e1
t67 = 0.1e1 / t32 * (t40 + 0.31770800474394146400e0 * t44 + 0.41403379428206274608e-3 * t49) * (0.9e1 * t56 - 0.9e1) / 0.24e2
t68 = t54 ** 2
t69 = lax_cond(t53, t68, 1)
t70 = t69 ** 2
t71 = t70 * t69
t73 = r0 ** 2
t79 = t1 ** 2
t87 = 0.1e1 / params_a_gamma
t92 = math.exp(-(t20 + t25 + t31 - t67) * t87 / t71)
t94 = 0.1e1 / (t92 - 0.1e1)
t96 = s0 ** 2
t99 = t73 ** 2
t100 = t7 ** 2
t103 = t59 ** 2
t105 = t70 ** 2
t108 = t3 ** 2
t115 = s0 / t7 / t73 * t59 / t70 * t79 / t3 * t5 / 0.96e2 + params_a_BB * params_a_beta * t87 * t94 * t96 / t100 / t99 * t103 / t105 * t1 / t108 * t6 / 0.3072e4
t125 = math.log(0.1e1 + params_a_beta * t115 * t87 / (params_a_beta * t87 * t94 * t115 + 0.1e1))
res = params_a_gamma * t71 * t125 + t20 + t25 + t31 - t67
"

/- gen_repo/impl/prebuilt/pol/gga_c_pbeloc.py and gen_repo/impl/prebuilt/unpol/gga_c_pbeloc.py -/
formula gga_c_pbeloc pol "t1 = 3 ** (0.1e1 / 0.3e1)
t3 = (0.1e1 / math.pi) ** (0.1e1 / 0.3e1)
t5 = 4 ** (0.1e1 / 0.3e1)
t6 = t5 ** 2
t7 = r0 + r1
t8 = t7 ** (0.1e1 / 0.3e1)
t11 = t1 * t3 * t6 / t8
t14 = math.sqrt(t11)
t17 = t11 ** 0.15e1
t19 = t1 ** 2
t20 = t3 ** 2
t22 = t8 ** 2
t25 = t19 * t20 * t5 / t22
t31 = math.log(0.1e1 + 0.16081979498692535067e2 / (0.37978500000000000000e1 * t14 + 0.89690000000000000000e0 * t11 + 0.20477500000000000000e0 * t17 + 0.12323500000000000000e0 * t25))
t33 = 0.621814e-1 * (0.1e1 + 0.53425000000000000000e-1 * t11) * t31
t34 = r0 - r1
t35 = t34 ** 2
t36 = t35 ** 2
t37 = t7 ** 2
t38 = t37 ** 2
t42 = t34 / t7
t43 = 0.1e1 + t42
t44 = t43 <= p_a_zeta_threshold
t45 = p_a_zeta_threshold ** (0.1e1 / 0.3e1)
t46 = t45 * p_a_zeta_threshold
t47 = t43 ** (0.1e1 / 0.3e1)
t49 = lax_cond(t44, t46, t47 * t43)
t50 = 0.1e1 - t42
t51 = t50 <= p_a_zeta_threshold
t52 = t50 ** (0.1e1 / 0.3e1)
t54 = lax_cond(t51, t46, t52 * t50)
t56 = 2 ** (0.1e1 / 0.3e1)
t60 = (t49 + t54 - 0.2e1) / (0.2e1 * t56 - 0.2e1)
t71 = math.log(0.1e1 + 0.32163958997385070134e2 / (0.70594500000000000000e1 * t14 + 0.15494250000000000000e1 * t11 + 0.42077500000000000000e0 * t17 + 0.15629250000000000000e0 * t25))
t84 = math.log(0.1e1 + 0.29608749977793437516e2 / (0.51785000000000000000e1 * t14 + 0.90577500000000000000e0 * t11 + 0.11003250000000000000e0 * t17 + 0.12417750000000000000e0 * t25))
t85 = (0.1e1 + 0.27812500000000000000e-1 * t11) * t84
t89 = t36 / t38 * t60 * (-0.3109070e-1 * (0.1e1 + 0.51370000000000000000e-1 * t11) * t71 + t33 - 0.19751673498613801407e-1 * t85)
t91 = 0.19751673498613801407e-1 * t60 * t85
t92 = math.log(0.2e1)
t93 = 0.1e1 - t92
t94 = math.pi ** 2
t97 = t45 ** 2
t98 = t47 ** 2
t99 = lax_cond(t44, t97, t98)
t100 = t52 ** 2
t101 = lax_cond(t51, t97, t100)
t103 = t99 / 0.2e1 + t101 / 0.2e1
t104 = t103 ** 2
t105 = t104 * t103
t107 = s0 + 0.2e1 * s1 + s2
t110 = t107 / t8 / t37
t111 = 0.1e1 / t104
t114 = 0.1e1 / t3
t117 = math.exp(-t25 / 0.4e1)
t123 = 0.375e-1 + 0.83333333333333333332e-3 * t110 * t56 * t111 * t19 * t114 * t5 * (0.1e1 - t117)
t130 = 0.1e1 / t93
t131 = t123 * t130
t137 = math.exp(-(-t33 + t89 + t91) * t130 * t94 / t105)
t140 = t94 / (t137 - 0.1e1)
t141 = t107 ** 2
t146 = t56 ** 2
t148 = t104 ** 2
t157 = t110 * t56 * t111 * t19 * t114 * t5 / 0.96e2 + t131 * t140 * t141 / t22 / t38 * t146 / t148 * t1 / t20 * t6 / 0.3072e4
t167 = math.log(0.1e1 + t123 * t157 * t130 * t94 / (t131 * t140 * t157 + 0.1e1))
res = -t33 + t89 + t91 + t93 / t94 * t105 * t167
" unpol "t1 = 3 ** (0.1e1 / 0.3e1)
t3 = (0.1e1 / math.pi) ** (0.1e1 / 0.3e1)
t5 = 4 ** (0.1e1 / 0.3e1)
t6 = t5 ** 2
t7 = r0 ** (0.1e1 / 0.3e1)
t10 = t1 * t3 * t6 / t7
t13 = math.sqrt(t10)
t16 = t10 ** 0.15e1
t18 = t1 ** 2
t19 = t3 ** 2
t21 = t7 ** 2
t24 = t18 * t19 * t5 / t21
t30 = math.log(0.1e1 + 0.16081979498692535067e2 / (0.37978500000000000000e1 * t13 + 0.89690000000000000000e0 * t10 + 0.20477500000000000000e0 * t16 + 0.12323500000000000000e0 * t24))
t32 = 0.621814e-1 * (0.1e1 + 0.53425000000000000000e-1 * t10) * t30
t33 = 0.1e1 <= p_a_zeta_threshold
t34 = p_a_zeta_threshold ** (0.1e1 / 0.3e1)
t36 = lax_cond(t33, t34 * p_a_zeta_threshold, 1)
t39 = 2 ** (0.1e1 / 0.3e1)
t54 = math.log(0.1e1 + 0.29608749977793437516e2 / (0.51785000000000000000e1 * t13 + 0.90577500000000000000e0 * t10 + 0.11003250000000000000e0 * t16 + 0.12417750000000000000e0 * t24))
t57 = 0.19751673498613801407e-1 * (0.2e1 * t36 - 0.2e1) / (0.2e1 * t39 - 0.2e1) * (0.1e1 + 0.27812500000000000000e-1 * t10) * t54
t58 = math.log(0.2e1)
t59 = 0.1e1 - t58
t60 = math.pi ** 2
t63 = t34 ** 2
t64 = lax_cond(t33, t63, 1)
t65 = t64 ** 2
t66 = t65 * t64
t67 = r0 ** 2
t70 = s0 / t7 / t67
t71 = 0.1e1 / t65
t74 = 0.1e1 / t3
t77 = math.exp(-t24 / 0.4e1)
t83 = 0.375e-1 + 0.83333333333333333332e-3 * t70 * t39 * t71 * t18 * t74 * t5 * (0.1e1 - t77)
t90 = 0.1e1 / t59
t91 = t83 * t90
t97 = math.exp(-(-t32 + t57) * t90 * t60 / t66)
t100 = t60 / (t97 - 0.1e1)
t101 = s0 ** 2
t104 = t67 ** 2
t107 = t39 ** 2
t109 = t65 ** 2
t118 = t70 * t39 * t71 * t18 * t74 * t5 / 0.96e2 + t91 * t100 * t101 / t21 / t104 * t107 / t109 * t1 / t19 * t6 / 0.3072e4
t128 = math.log(0.1e1 + t83 * t118 * t90 * t60 / (t91 * t100 * t118 + 0.1e1))
res = -t32 + t57 + t59 / t60 * t66 * t128
"

/- gen_repo/impl/prebuilt/pol/gga_c_pw91.py and gen_repo/impl/prebuilt/unpol/gga_c_pw91.py -/
formula gga_c_pw91 pol "t1 = 3 ** (0.1e1 / 0.3e1)
t2 = 0.1e1 / math.pi
t3 = t2 ** (0.1e1 / 0.3e1)
t5 = 4 ** (0.1e1 / 0.3e1)
t6 = t5 ** 2
t7 = r0 + r1
t8 = t7 ** (0.1e1 / 0.3e1)
t11 = t1 * t3 * t6 / t8
t14 = math.sqrt(t11)
t17 = t11 ** 0.15e1
t19 = t1 ** 2
t20 = t3 ** 2
t22 = t8 ** 2
t25 = t19 * t20 * t5 / t22
t31 = math.log(0.1e1 + 0.16081824322151104822e2 / (0.37978500000000000000e1 * t14 + 0.89690000000000000000e0 * t11 + 0.20477500000000000000e0 * t17 + 0.12323500000000000000e0 * t25))
t33 = 0.62182e-1 * (0.1e1 + 0.53425000000000000000e-1 * t11) * t31
t34 = r0 - r1
t35 = t34 ** 2
t36 = t35 ** 2
t37 = t7 ** 2
t38 = t37 ** 2
t42 = t34 / t7
t43 = 0.1e1 + t42
t44 = t43 <= p_a_zeta_threshold
t45 = p_a_zeta_threshold ** (0.1e1 / 0.3e1)
t46 = t45 * p_a_zeta_threshold
t47 = t43 ** (0.1e1 / 0.3e1)
t49 = lax_cond(t44, t46, t47 * t43)
t50 = 0.1e1 - t42
t51 = t50 <= p_a_zeta_threshold
t52 = t50 ** (0.1e1 / 0.3e1)
t54 = lax_cond(t51, t46, t52 * t50)
t56 = 2 ** (0.1e1 / 0.3e1)
t60 = (t49 + t54 - 0.2e1) / (0.2e1 * t56 - 0.2e1)
t71 = math.log(0.1e1 + 0.32164683177870697974e2 / (0.70594500000000000000e1 * t14 + 0.15494250000000000000e1 * t11 + 0.42077500000000000000e0 * t17 + 0.15629250000000000000e0 * t25))
t84 = math.log(0.1e1 + 0.29608574643216675549e2 / (0.51785000000000000000e1 * t14 + 0.90577500000000000000e0 * t11 + 0.11003250000000000000e0 * t17 + 0.12417750000000000000e0 * t25))
t85 = (0.1e1 + 0.27812500000000000000e-1 * t11) * t84
t89 = t36 / t38 * t60 * (-0.31090e-1 * (0.1e1 + 0.51370000000000000000e-1 * t11) * t71 + t33 - 0.19751789702565206229e-1 * t85)
t91 = 0.19751789702565206229e-1 * t60 * t85
t92 = math.pi ** 2
t95 = t92 ** (0.1e1 / 0.3e1)
t96 = t95 ** 2
t97 = t45 ** 2
t98 = t47 ** 2
t99 = lax_cond(t44, t97, t98)
t100 = t52 ** 2
t101 = lax_cond(t51, t97, t100)
t103 = t99 / 0.2e1 + t101 / 0.2e1
t104 = t103 ** 2
t105 = t104 * t103
t108 = 0.1e1 / t95
t110 = s0 + 0.2e1 * s1 + s2
t112 = 0.1e1 / t8 / t37
t115 = 0.1e1 / t104
t117 = 0.1e1 / t3
t118 = t117 * t5
t127 = 0.1e1 / t96
t131 = math.exp(-0.13067859477648036197e2 * (-t33 + t89 + t91) / t105 * t92 * t1 * t127)
t132 = t131 - 0.1e1
t133 = 0.1e1 / t132
t134 = t110 ** 2
t139 = t56 ** 2
t141 = t104 ** 2
t146 = 0.1e1 / t22 / t38 * t139 / t141 / t20 * t6
t155 = t112 * t56
t162 = t132 ** 2
t175 = math.log(0.1e1 + 0.88547815820543093274e0 * math.pi * t19 * t108 * (t110 * t112 * t56 * t115 * t19 * t118 / 0.96e2 + 0.86472476387249114526e-3 * math.pi * t108 * t133 * t134 * t146) / (0.1e1 + 0.27671192443919716648e-1 * math.pi * t1 * t108 * t133 * t110 * t155 * t115 * t117 * t5 + 0.76569489126843962094e-3 * t92 * t19 * t127 / t162 * t134 * t146))
t193 = 9 ** (0.1e1 / 0.3e1)
t194 = t193 ** 2
t204 = math.exp(-0.25e2 / 0.18e2 * t2 * t5 * t194 * t3 / t22 / t37 * t104 * t110 * t56)
res = -t33 + t89 + t91 + 0.25507875555555555556e-1 / t92 * t19 * t96 * t105 * t175 + t2 * t95 * ((0.2568e1 + 0.58165000000000000000e1 * t11 + 0.18472500000000000000e-2 * t25) / (0.1000e4 + 0.21807500000000000000e4 * t11 + 0.11800000000000000000e3 * t25) - 0.18535714285714285714e-2) * t103 * t110 * t155 * t118 * t204 / 0.2e1
" unpol "t1 = 3 ** (0.1e1 / 0.3e1)
t2 = 0.1e1 / math.pi
t3 = t2 ** (0.1e1 / 0.3e1)
t5 = 4 ** (0.1e1 / 0.3e1)
t6 = t5 ** 2
t7 = r0 ** (0.1e1 / 0.3e1)
t10 = t1 * t3 * t6 / t7
t13 = math.sqrt(t10)
t16 = t10 ** 0.15e1
t18 = t1 ** 2
t19 = t3 ** 2
t21 = t7 ** 2
t24 = t18 * t19 * t5 / t21
t30 = math.log(0.1e1 + 0.16081824322151104822e2 / (0.37978500000000000000e1 * t13 + 0.89690000000000000000e0 * t10 + 0.20477500000000000000e0 * t16 + 0.12323500000000000000e0 * t24))
t32 = 0.62182e-1 * (0.1e1 + 0.53425000000000000000e-1 * t10) * t30
t33 = 0.1e1 <= p_a_zeta_threshold
t34 = p_a_zeta_threshold ** (0.1e1 / 0.3e1)
t36 = lax_cond(t33, t34 * p_a_zeta_threshold, 1)
t39 = 2 ** (0.1e1 / 0.3e1)
t54 = math.log(0.1e1 + 0.29608574643216675549e2 / (0.51785000000000000000e1 * t13 + 0.90577500000000000000e0 * t10 + 0.11003250000000000000e0 * t16 + 0.12417750000000000000e0 * t24))
t57 = 0.19751789702565206229e-1 * (0.2e1 * t36 - 0.2e1) / (0.2e1 * t39 - 0.2e1) * (0.1e1 + 0.27812500000000000000e-1 * t10) * t54
t58 = math.pi ** 2
t61 = t58 ** (0.1e1 / 0.3e1)
t62 = t61 ** 2
t63 = t34 ** 2
t64 = lax_cond(t33, t63, 1)
t65 = t64 ** 2
t66 = t65 * t64
t69 = 0.1e1 / t61
t70 = r0 ** 2
t72 = 0.1e1 / t7 / t70
t75 = 0.1e1 / t65
t77 = 0.1e1 / t3
t78 = t77 * t5
t87 = 0.1e1 / t62
t91 = math.exp(-0.13067859477648036197e2 * (-t32 + t57) / t66 * t58 * t1 * t87)
t92 = t91 - 0.1e1
t93 = 0.1e1 / t92
t94 = s0 ** 2
t97 = t70 ** 2
t100 = t39 ** 2
t102 = t65 ** 2
t107 = 0.1e1 / t21 / t97 * t100 / t102 / t19 * t6
t116 = t72 * t39
t123 = t92 ** 2
t136 = math.log(0.1e1 + 0.88547815820543093274e0 * math.pi * t18 * t69 * (s0 * t72 * t39 * t75 * t18 * t78 / 0.96e2 + 0.86472476387249114526e-3 * math.pi * t69 * t93 * t94 * t107) / (0.1e1 + 0.27671192443919716648e-1 * math.pi * t1 * t69 * t93 * s0 * t116 * t75 * t77 * t5 + 0.76569489126843962094e-3 * t58 * t18 * t87 / t123 * t94 * t107))
t154 = 9 ** (0.1e1 / 0.3e1)
t155 = t154 ** 2
t165 = math.exp(-0.25e2 / 0.18e2 * t2 * t5 * t155 * t3 / t21 / t70 * t65 * s0 * t39)
res = -t32 + t57 + 0.25507875555555555556e-1 / t58 * t18 * t62 * t66 * t136 + t2 * t61 * ((0.2568e1 + 0.58165000000000000000e1 * t10 + 0.18472500000000000000e-2 * t24) / (0.1000e4 + 0.21807500000000000000e4 * t10 + 0.11800000000000000000e3 * t24) - 0.18535714285714285714e-2) * t64 * s0 * t116 * t78 * t165 / 0.2e1
"

/- gen_repo/impl/prebuilt/pol/gga_c_q2d.py and gen_repo/impl/prebuilt/unpol/gga_c_q2d.py -/
formula gga_c_q2d pol "t2 = s0 + 0.2e1 * s1 + s2
t3 = t2 ** 2
t4 = r0 + r1
t5 = t4 ** 2
t6 = t5 ** 2
t7 = t4 ** (0.1e1 / 0.3e1)
t8 = t7 ** 2
t10 = 0.1e1 / t8 / t6
t11 = t3 * t10
t12 = 2 ** (0.1e1 / 0.3e1)
t13 = t12 ** 2
t14 = r0 - r1
t15 = 0.1e1 / t4
t16 = t14 * t15
t17 = 0.1e1 + t16
t18 = t17 <= p_a_zeta_threshold
t19 = p_a_zeta_threshold ** (0.1e1 / 0.3e1)
t20 = t19 ** 2
t21 = t17 ** (0.1e1 / 0.3e1)
t22 = t21 ** 2
t23 = lax_cond(t18, t20, t22)
t24 = 0.1e1 - t16
t25 = t24 <= p_a_zeta_threshold
t26 = t24 ** (0.1e1 / 0.3e1)
t27 = t26 ** 2
t28 = lax_cond(t25, t20, t27)
t30 = t23 / 0.2e1 + t28 / 0.2e1
t31 = t30 ** 2
t32 = t31 ** 2
t34 = t13 / t32
t36 = 3 ** (0.1e1 / 0.3e1)
t37 = 0.1e1 / math.pi
t38 = t37 ** (0.1e1 / 0.3e1)
t39 = t38 ** 2
t40 = 0.1e1 / t39
t41 = t36 * t40
t42 = 4 ** (0.1e1 / 0.3e1)
t43 = t42 ** 2
t49 = t36 ** 2
t55 = t2 / t7 / t5 * t12 / t31 * t49 / t38 * t42 / 0.96e2
t56 = 0.1e1 + t55
t69 = 0.1e1 / (0.1e7 + t3 * t2 / t6 / t5 / t4 / t32 / t31 * math.pi / 0.12288e5)
t76 = 0.1e1 / t7
t78 = t36 * t38 * t43 * t76
t81 = math.sqrt(t78)
t84 = t78 ** 0.15e1
t89 = t49 * t39 * t42 / t8
t95 = math.log(0.1e1 + 0.16081979498692535067e2 / (0.37978500000000000000e1 * t81 + 0.89690000000000000000e0 * t78 + 0.20477500000000000000e0 * t84 + 0.12323500000000000000e0 * t89))
t97 = 0.621814e-1 * (0.1e1 + 0.53425000000000000000e-1 * t78) * t95
t98 = t14 ** 2
t99 = t98 ** 2
t100 = 0.1e1 / t6
t101 = t99 * t100
t102 = t19 * p_a_zeta_threshold
t104 = lax_cond(t18, t102, t21 * t17)
t106 = lax_cond(t25, t102, t26 * t24)
t111 = (t104 + t106 - 0.2e1) / (0.2e1 * t12 - 0.2e1)
t122 = math.log(0.1e1 + 0.32163958997385070134e2 / (0.70594500000000000000e1 * t81 + 0.15494250000000000000e1 * t78 + 0.42077500000000000000e0 * t84 + 0.15629250000000000000e0 * t89))
t135 = math.log(0.1e1 + 0.29608749977793437516e2 / (0.51785000000000000000e1 * t81 + 0.90577500000000000000e0 * t78 + 0.11003250000000000000e0 * t84 + 0.12417750000000000000e0 * t89))
t136 = (0.1e1 + 0.27812500000000000000e-1 * t78) * t135
t140 = t101 * t111 * (-0.3109070e-1 * (0.1e1 + 0.51370000000000000000e-1 * t78) * t122 + t97 - 0.19751673498613801407e-1 * t136)
t142 = 0.19751673498613801407e-1 * t111 * t136
t143 = math.log(0.2e1)
t144 = 0.1e1 - t143
t145 = math.pi ** 2
t148 = t31 * t30
t149 = 0.1e1 / t144
t150 = t149 * t145
t156 = math.exp(-(-t97 + t140 + t142) * t149 * t145 / t148)
t158 = 0.1e1 / (t156 - 0.1e1)
t166 = t55 + 0.21720231316129303386e-4 * t150 * t158 * t3 * t10 * t34 * t41 * t43
t177 = math.log(0.1e1 + 0.6672455060314922e-1 * t166 * t149 * t145 / (0.1e1 + 0.6672455060314922e-1 * t150 * t158 * t166))
t186 = math.sqrt(0.3e1)
t188 = 6 ** (0.1e1 / 0.3e1)
t189 = t188 ** 2
t190 = t145 ** (0.1e1 / 0.3e1)
t191 = 0.1e1 / t190
t193 = math.sqrt(t2)
t197 = t189 * t191 * t193 / t7 / t4
t198 = math.sqrt(t197)
t199 = t186 * t76 * t198
t201 = 0.1e1 / t5
t204 = t201 * t189 * t191 * t193
t208 = t186 * t15 * t198 * t197
t212 = t199 ** 0.15e1
t219 = math.log(0.1e1 + 0.1e1 / (0.28462480000000000000e0 * t199 - 0.31313960595450713442e-2 * t212 + 0.82261860960000000000e-1 * t204 + 0.12005193926400000000e-2 * t208))
t231 = math.log(0.1e1 + 0.1e1 / (0.11737720000000000000e0 * t199 + 0.16174762305600000000e-1 * t204 + 0.53593879468800000000e-4 * t208))
t245 = math.log(0.1e1 + 0.1e1 / (0.40450148400000000000e0 * t199 + 0.79926897828288000000e-1 * t208))
t251 = math.exp(-0.38016240000000000000e0 * t199)
t253 = math.sqrt(0.2e1)
t258 = math.sqrt(p_a_zeta_threshold)
t259 = t258 * p_a_zeta_threshold
t260 = math.sqrt(t17)
t262 = lax_cond(t18, t259, t260 * t17)
t264 = math.sqrt(t24)
t266 = lax_cond(t25, t259, t264 * t24)
res = (0.1e1 - t11 * t34 * t41 * t43 * t56 * t69 / 0.3072e4) * (-t97 + t140 + t142 + t144 / t145 * t148 * t177) + t11 * t34 * t36 * t40 * t43 * t56 * t69 * (-0.1925e0 + (0.24513062400000000000e-1 * t199 + 0.13849861171200000000e-1 * t204 + 0.23109998308320000000e-3 * t208) * t219 + (0.117331e0 + (-0.96389600000000000000e-2 * t199 - 0.18553259352000000000e-2 * t204 - 0.62882234719537728000e-5 * t208) * t231) * t98 * t201 + (0.234188e-1 + (-0.10534412000000000000e-1 * t199 + 0.39590320224000000000e-2 * t204 - 0.18717920348611110144e-2 * t208) * t245) * t99 * t100 - 0.15649452269170579029e1 * (t251 - 0.1e1) * t253 * t37 * t186 * t7 / t198 * (t262 / 0.2e1 + t266 / 0.2e1 - 0.1e1 - 0.3e1 / 0.8e1 * t98 * t201 - 0.3e1 / 0.128e3 * t101)) / 0.3072e4
" unpol "t1 = s0 ** 2
t2 = r0 ** 2
t3 = t2 ** 2
t4 = r0 ** (0.1e1 / 0.3e1)
t5 = t4 ** 2
t7 = 0.1e1 / t5 / t3
t8 = t1 * t7
t9 = 2 ** (0.1e1 / 0.3e1)
t10 = t9 ** 2
t11 = 0.1e1 <= p_a_zeta_threshold
t12 = p_a_zeta_threshold ** (0.1e1 / 0.3e1)
t13 = t12 ** 2
t14 = lax_cond(t11, t13, 1)
t15 = t14 ** 2
t16 = t15 ** 2
t18 = t10 / t16
t20 = 3 ** (0.1e1 / 0.3e1)
t21 = 0.1e1 / math.pi
t22 = t21 ** (0.1e1 / 0.3e1)
t23 = t22 ** 2
t24 = 0.1e1 / t23
t25 = t20 * t24
t26 = 4 ** (0.1e1 / 0.3e1)
t27 = t26 ** 2
t33 = t20 ** 2
t39 = s0 / t4 / t2 * t9 / t15 * t33 / t22 * t26 / 0.96e2
t40 = 0.1e1 + t39
t53 = 0.1e1 / (0.1e7 + t1 * s0 / t3 / t2 / r0 / t16 / t15 * math.pi / 0.12288e5)
t60 = 0.1e1 / t4
t62 = t20 * t22 * t27 * t60
t65 = math.sqrt(t62)
t68 = t62 ** 0.15e1
t73 = t33 * t23 * t26 / t5
t79 = math.log(0.1e1 + 0.16081979498692535067e2 / (0.37978500000000000000e1 * t65 + 0.89690000000000000000e0 * t62 + 0.20477500000000000000e0 * t68 + 0.12323500000000000000e0 * t73))
t81 = 0.621814e-1 * (0.1e1 + 0.53425000000000000000e-1 * t62) * t79
t83 = lax_cond(t11, t12 * p_a_zeta_threshold, 1)
t100 = math.log(0.1e1 + 0.29608749977793437516e2 / (0.51785000000000000000e1 * t65 + 0.90577500000000000000e0 * t62 + 0.11003250000000000000e0 * t68 + 0.12417750000000000000e0 * t73))
t103 = 0.19751673498613801407e-1 * (0.2e1 * t83 - 0.2e1) / (0.2e1 * t9 - 0.2e1) * (0.1e1 + 0.27812500000000000000e-1 * t62) * t100
t104 = math.log(0.2e1)
t105 = 0.1e1 - t104
t106 = math.pi ** 2
t109 = t15 * t14
t110 = 0.1e1 / t105
t111 = t110 * t106
t117 = math.exp(-(-t81 + t103) * t110 * t106 / t109)
t119 = 0.1e1 / (t117 - 0.1e1)
t127 = t39 + 0.21720231316129303386e-4 * t111 * t119 * t1 * t7 * t18 * t25 * t27
t138 = math.log(0.1e1 + 0.6672455060314922e-1 * t127 * t110 * t106 / (0.1e1 + 0.6672455060314922e-1 * t111 * t119 * t127))
t147 = math.sqrt(0.3e1)
t149 = 6 ** (0.1e1 / 0.3e1)
t150 = t149 ** 2
t151 = t106 ** (0.1e1 / 0.3e1)
t152 = 0.1e1 / t151
t154 = math.sqrt(s0)
t158 = t150 * t152 * t154 / t4 / r0
t159 = math.sqrt(t158)
t160 = t147 * t60 * t159
t165 = 0.1e1 / t2 * t150 * t152 * t154
t170 = t147 / r0 * t159 * t158
t174 = t160 ** 0.15e1
t181 = math.log(0.1e1 + 0.1e1 / (0.28462480000000000000e0 * t160 - 0.31313960595450713442e-2 * t174 + 0.82261860960000000000e-1 * t165 + 0.12005193926400000000e-2 * t170))
t184 = math.exp(-0.38016240000000000000e0 * t160)
t186 = math.sqrt(0.2e1)
t191 = math.sqrt(p_a_zeta_threshold)
t193 = lax_cond(t11, t191 * p_a_zeta_threshold, 1)
res = (0.1e1 - t8 * t18 * t25 * t27 * t40 * t53 / 0.3072e4) * (-t81 + t103 + t105 / t106 * t109 * t138) + t8 * t18 * t20 * t24 * t27 * t40 * t53 * (-0.1925e0 + (0.24513062400000000000e-1 * t160 + 0.13849861171200000000e-1 * t165 + 0.23109998308320000000e-3 * t170) * t181 - 0.15649452269170579029e1 * (t184 - 0.1e1) * t186 * t21 * t147 * t4 / t159 * (t193 - 0.1e1)) / 0.3072e4
"

/- gen_repo/impl/prebuilt/pol/gga_c_regtpss.py and gen_repo/impl/prebuilt/unpol/gga_c_regtpss.py -/
formula gga_c_regtpss pol "t1 = 3 ** (0.1e1 / 0.3e1)
t3 = (0.1e1 / math.pi) ** (0.1e1 / 0.3e1)
t5 = 4 ** (0.1e1 / 0.3e1)
t6 = t5 ** 2
t7 = r0 + r1
t8 = t7 ** (0.1e1 / 0.3e1)
t11 = t1 * t3 * t6 / t8
t14 = math.sqrt(t11)
t17 = t11 ** 0.15e1
t19 = t1 ** 2
t20 = t3 ** 2
t22 = t8 ** 2
t25 = t19 * t20 * t5 / t22
t31 = math.log(0.1e1 + 0.16081979498692535067e2 / (0.37978500000000000000e1 * t14 + 0.89690000000000000000e0 * t11 + 0.20477500000000000000e0 * t17 + 0.12323500000000000000e0 * t25))
t33 = 0.621814e-1 * (0.1e1 + 0.53425000000000000000e-1 * t11) * t31
t34 = r0 - r1
t35 = t34 ** 2
t36 = t35 ** 2
t37 = t7 ** 2
t38 = t37 ** 2
t42 = t34 / t7
t43 = 0.1e1 + t42
t44 = t43 <= p_a_zeta_threshold
t45 = p_a_zeta_threshold ** (0.1e1 / 0.3e1)
t46 = t45 * p_a_zeta_threshold
t47 = t43 ** (0.1e1 / 0.3e1)
t49 = lax_cond(t44, t46, t47 * t43)
t50 = 0.1e1 - t42
t51 = t50 <= p_a_zeta_threshold
t52 = t50 ** (0.1e1 / 0.3e1)
t54 = lax_cond(t51, t46, t52 * t50)
t56 = 2 ** (0.1e1 / 0.3e1)
t60 = (t49 + t54 - 0.2e1) / (0.2e1 * t56 - 0.2e1)
t71 = math.log(0.1e1 + 0.32163958997385070134e2 / (0.70594500000000000000e1 * t14 + 0.15494250000000000000e1 * t11 + 0.42077500000000000000e0 * t17 + 0.15629250000000000000e0 * t25))
t84 = math.log(0.1e1 + 0.29608749977793437516e2 / (0.51785000000000000000e1 * t14 + 0.90577500000000000000e0 * t11 + 0.11003250000000000000e0 * t17 + 0.12417750000000000000e0 * t25))
t85 = (0.1e1 + 0.27812500000000000000e-1 * t11) * t84
t89 = t36 / t38 * t60 * (-0.3109070e-1 * (0.1e1 + 0.51370000000000000000e-1 * t11) * t71 + t33 - 0.19751673498613801407e-1 * t85)
t91 = 0.19751673498613801407e-1 * t60 * t85
t92 = math.log(0.2e1)
t93 = 0.1e1 - t92
t94 = math.pi ** 2
t97 = t45 ** 2
t98 = t47 ** 2
t99 = lax_cond(t44, t97, t98)
t100 = t52 ** 2
t101 = lax_cond(t51, t97, t100)
t103 = t99 / 0.2e1 + t101 / 0.2e1
t104 = t103 ** 2
t105 = t104 * t103
t111 = (0.1e1 + 0.25000000000000000000e-1 * t11) / (0.1e1 + 0.44450000000000000000e-1 * t11)
t113 = s0 + 0.2e1 * s1 + s2
t125 = 0.1e1 / t93
t126 = t111 * t125
t132 = math.exp(-(-t33 + t89 + t91) * t125 * t94 / t105)
t135 = t94 / (t132 - 0.1e1)
t136 = t113 ** 2
t141 = t56 ** 2
t143 = t104 ** 2
t152 = t113 / t8 / t37 * t56 / t104 * t19 / t3 * t5 / 0.96e2 + 0.21720231316129303386e-4 * t126 * t135 * t136 / t22 / t38 * t141 / t143 * t1 / t20 * t6
t164 = math.log(0.1e1 + 0.66724550603149220e-1 * t111 * t152 * t125 * t94 / (0.1e1 + 0.66724550603149220e-1 * t126 * t135 * t152))
res = -t33 + t89 + t91 + t93 / t94 * t105 * t164
" unpol "t1 = 3 ** (0.1e1 / 0.3e1)
t3 = (0.1e1 / math.pi) ** (0.1e1 / 0.3e1)
t5 = 4 ** (0.1e1 / 0.3e1)
t6 = t5 ** 2
t7 = r0 ** (0.1e1 / 0.3e1)
t10 = t1 * t3 * t6 / t7
t13 = math.sqrt(t10)
t16 = t10 ** 0.15e1
t18 = t1 ** 2
t19 = t3 ** 2
t21 = t7 ** 2
t24 = t18 * t19 * t5 / t21
t30 = math.log(0.1e1 + 0.16081979498692535067e2 / (0.37978500000000000000e1 * t13 + 0.89690000000000000000e0 * t10 + 0.20477500000000000000e0 * t16 + 0.12323500000000000000e0 * t24))
t32 = 0.621814e-1 * (0.1e1 + 0.53425000000000000000e-1 * t10) * t30
t33 = 0.1e1 <= p_a_zeta_threshold
t34 = p_a_zeta_threshold ** (0.1e1 / 0.3e1)
t36 = lax_cond(t33, t34 * p_a_zeta_threshold, 1)
t39 = 2 ** (0.1e1 / 0.3e1)
t54 = math.log(0.1e1 + 0.29608749977793437516e2 / (0.51785000000000000000e1 * t13 + 0.90577500000000000000e0 * t10 + 0.11003250000000000000e0 * t16 + 0.12417750000000000000e0 * t24))
t57 = 0.19751673498613801407e-1 * (0.2e1 * t36 - 0.2e1) / (0.2e1 * t39 - 0.2e1) * (0.1e1 + 0.27812500000000000000e-1 * t10) * t54
t58 = math.log(0.2e1)
t59 = 0.1e1 - t58
t60 = math.pi ** 2
t63 = t34 ** 2
t64 = lax_cond(t33, t63, 1)
t65 = t64 ** 2
t66 = t65 * t64
t72 = (0.1e1 + 0.25000000000000000000e-1 * t10) / (0.1e1 + 0.44450000000000000000e-1 * t10)
t73 = r0 ** 2
t85 = 0.1e1 / t59
t86 = t72 * t85
t92 = math.exp(-(-t32 + t57) * t85 * t60 / t66)
t95 = t60 / (t92 - 0.1e1)
t96 = s0 ** 2
t99 = t73 ** 2
t102 = t39 ** 2
t104 = t65 ** 2
t113 = s0 / t7 / t73 * t39 / t65 * t18 / t3 * t5 / 0.96e2 + 0.21720231316129303386e-4 * t86 * t95 * t96 / t21 / t99 * t102 / t104 * t1 / t19 * t6
t125 = math.log(0.1e1 + 0.66724550603149220e-1 * t72 * t113 * t85 * t60 / (0.1e1 + 0.66724550603149220e-1 * t86 * t95 * t113))
res = -t32 + t57 + t59 / t60 * t66 * t125
"

/- gen_repo/impl/prebuilt/pol/gga_c_revtca.py and gen_repo/impl/prebuilt/unpol/gga_c_revtca.py -/
formula gga_c_revtca pol "t1 = r0 - r1
t2 = r0 + r1
t3 = 0.1e1 / t2
t4 = t1 * t3
t5 = 0.1e1 + t4
t7 = p_a_zeta_threshold ** (0.1e1 / 0.3e1)
t8 = t7 ** 2
t9 = t5 ** (0.1e1 / 0.3e1)
t10 = t9 ** 2
t11 = lax_cond(t5 <= p_a_zeta_threshold, t8, t10)
t12 = 0.1e1 - t4
t14 = t12 ** (0.1e1 / 0.3e1)
t15 = t14 ** 2
t16 = lax_cond(t12 <= p_a_zeta_threshold, t8, t15)
t18 = t11 / 0.2e1 + t16 / 0.2e1
t19 = t18 ** 2
t21 = 3 ** (0.1e1 / 0.3e1)
t22 = 0.1e1 / math.pi
t23 = t22 ** (0.1e1 / 0.3e1)
t25 = 4 ** (0.1e1 / 0.3e1)
t26 = t25 ** 2
t27 = t2 ** (0.1e1 / 0.3e1)
t33 = math.atan(0.4888270e1 + 0.79425925000000000000e0 * t21 * t23 * t26 / t27)
t37 = t21 ** 2
t38 = 0.1e1 / t23
t42 = 6 ** (0.1e1 / 0.3e1)
t43 = t42 ** 2
t44 = math.pi ** 2
t45 = t44 ** (0.1e1 / 0.3e1)
t47 = t43 / t45
t48 = 2 ** (0.1e1 / 0.3e1)
t50 = s0 + 0.2e1 * s1 + s2
t51 = math.sqrt(t50)
t52 = t48 * t51
t57 = (t47 * t52 / t27 / t2) ** 0.230e1
t61 = t1 ** 2
t62 = t61 ** 2
t63 = t2 ** 2
t64 = t63 ** 2
t65 = 0.1e1 / t64
t67 = math.pi ** (0.1e1 / 0.3e1)
t69 = 9 ** (0.1e1 / 0.3e1)
t76 = t67 * math.pi * t69 * t47 * t52 * t3 * t37 * t38 / 0.36e2
t77 = DBL_EPSILON ** (0.1e1 / 0.4e1)
t79 = t67 ** 2
t81 = t69 ** 2
t83 = t45 ** 2
t87 = t48 ** 2
t91 = t23 ** 2
t97 = t44 ** 2
t105 = t50 ** 2
t116 = lax_cond(t77 < t76, t76, t77)
t117 = math.sin(t116)
t120 = lax_cond(t76 <= t77, 0.1e1 - t79 * t44 * t81 * t42 / t83 * t87 * t50 / t63 * t21 / t91 / 0.432e3 + t67 * t97 * math.pi * t69 * t43 / t45 / t44 * t48 * t105 * t65 * t37 / t23 / t22 / 0.34560e5, t117 / t116)
t121 = t120 ** 2
res = t19 * t18 * (-0.655868e0 * t33 + 0.897889e0) * t37 * t38 * t25 * t27 / (0.1e1 + 0.47121507034422759993e-2 * t57) * (0.1e1 - t62 * t65 * (0.1e1 - t121)) / 0.3e1
" unpol "t2 = p_a_zeta_threshold ** (0.1e1 / 0.3e1)
t3 = t2 ** 2
t4 = lax_cond(0.1e1 <= p_a_zeta_threshold, t3, 1)
t5 = t4 ** 2
t7 = 3 ** (0.1e1 / 0.3e1)
t9 = (0.1e1 / math.pi) ** (0.1e1 / 0.3e1)
t11 = 4 ** (0.1e1 / 0.3e1)
t12 = t11 ** 2
t13 = r0 ** (0.1e1 / 0.3e1)
t19 = math.atan(0.4888270e1 + 0.79425925000000000000e0 * t7 * t9 * t12 / t13)
t23 = t7 ** 2
t27 = 6 ** (0.1e1 / 0.3e1)
t28 = t27 ** 2
t29 = math.pi ** 2
t30 = t29 ** (0.1e1 / 0.3e1)
t33 = 2 ** (0.1e1 / 0.3e1)
t34 = math.sqrt(s0)
t40 = (t28 / t30 * t33 * t34 / t13 / r0) ** 0.230e1
res = t5 * t4 * (-0.655868e0 * t19 + 0.897889e0) * t23 / t9 * t11 * t13 / (0.1e1 + 0.47121507034422759993e-2 * t40) / 0.3e1
"

/- gen_repo/impl/prebuilt/pol/gga_c_scan_e0.py and gen_repo/impl/prebuilt/unpol/gga_c_scan_e0.py -/
formula gga_c_scan_e0 pol "t1 = 3 ** (0.1e1 / 0.3e1)
t3 = (0.1e1 / math.pi) ** (0.1e1 / 0.3e1)
t5 = 4 ** (0.1e1 / 0.3e1)
t6 = t5 ** 2
t7 = r0 + r1
t8 = t7 ** (0.1e1 / 0.3e1)
t11 = t1 * t3 * t6 / t8
t14 = math.sqrt(t11)
t17 = t11 ** 0.15e1
t19 = t1 ** 2
t20 = t3 ** 2
t22 = t8 ** 2
t25 = t19 * t20 * t5 / t22
t31 = math.log(0.1e1 + 0.16081979498692535067e2 / (0.37978500000000000000e1 * t14 + 0.89690000000000000000e0 * t11 + 0.20477500000000000000e0 * t17 + 0.12323500000000000000e0 * t25))
t33 = 0.621814e-1 * (0.1e1 + 0.53425000000000000000e-1 * t11) * t31
t34 = r0 - r1
t35 = t34 ** 2
t36 = t35 ** 2
t37 = t7 ** 2
t38 = t37 ** 2
t42 = t34 / t7
t43 = 0.1e1 + t42
t44 = t43 <= p_a_zeta_threshold
t45 = p_a_zeta_threshold ** (0.1e1 / 0.3e1)
t46 = t45 * p_a_zeta_threshold
t47 = t43 ** (0.1e1 / 0.3e1)
t49 = lax_cond(t44, t46, t47 * t43)
t50 = 0.1e1 - t42
t51 = t50 <= p_a_zeta_threshold
t52 = t50 ** (0.1e1 / 0.3e1)
t54 = lax_cond(t51, t46, t52 * t50)
t56 = 2 ** (0.1e1 / 0.3e1)
t60 = (t49 + t54 - 0.2e1) / (0.2e1 * t56 - 0.2e1)
t71 = math.log(0.1e1 + 0.32163958997385070134e2 / (0.70594500000000000000e1 * t14 + 0.15494250000000000000e1 * t11 + 0.42077500000000000000e0 * t17 + 0.15629250000000000000e0 * t25))
t84 = math.log(0.1e1 + 0.29608749977793437516e2 / (0.51785000000000000000e1 * t14 + 0.90577500000000000000e0 * t11 + 0.11003250000000000000e0 * t17 + 0.12417750000000000000e0 * t25))
t85 = (0.1e1 + 0.27812500000000000000e-1 * t11) * t84
t89 = t36 / t38 * t60 * (-0.3109070e-1 * (0.1e1 + 0.51370000000000000000e-1 * t11) * t71 + t33 - 0.19751673498613801407e-1 * t85)
t91 = 0.19751673498613801407e-1 * t60 * t85
t92 = math.log(0.2e1)
t93 = 0.1e1 - t92
t94 = math.pi ** 2
t97 = t45 ** 2
t98 = t47 ** 2
t99 = lax_cond(t44, t97, t98)
t100 = t52 ** 2
t101 = lax_cond(t51, t97, t100)
t103 = t99 / 0.2e1 + t101 / 0.2e1
t104 = t103 ** 2
t105 = t104 * t103
t112 = 0.1e1 / t93
t119 = math.exp(-(-t33 + t89 + t91) * t112 * t94 / t105)
t120 = t119 - 0.1e1
t139 = (0.1e1 + 0.27801896084645508333e-2 * (0.1e1 + 0.25000000000000000000e-1 * t11) / (0.1e1 + 0.44450000000000000000e-1 * t11) * t112 * t94 / t120 * (s0 + 0.2e1 * s1 + s2) / t8 / t37 * t56 / t104 * t19 / t3 * t5) ** (0.1e1 / 0.4e1)
t145 = math.log(0.1e1 + 0.10000000000000000000e1 * (0.1e1 - 0.1e1 / t139) * t120)
res = -t33 + t89 + t91 + t93 / t94 * t105 * t145
" unpol "t1 = 3 ** (0.1e1 / 0.3e1)
t3 = (0.1e1 / math.pi) ** (0.1e1 / 0.3e1)
t5 = 4 ** (0.1e1 / 0.3e1)
t6 = t5 ** 2
t7 = r0 ** (0.1e1 / 0.3e1)
t10 = t1 * t3 * t6 / t7
t13 = math.sqrt(t10)
t16 = t10 ** 0.15e1
t18 = t1 ** 2
t19 = t3 ** 2
t21 = t7 ** 2
t24 = t18 * t19 * t5 / t21
t30 = math.log(0.1e1 + 0.16081979498692535067e2 / (0.37978500000000000000e1 * t13 + 0.89690000000000000000e0 * t10 + 0.20477500000000000000e0 * t16 + 0.12323500000000000000e0 * t24))
t32 = 0.621814e-1 * (0.1e1 + 0.53425000000000000000e-1 * t10) * t30
t33 = 0.1e1 <= p_a_zeta_threshold
t34 = p_a_zeta_threshold ** (0.1e1 / 0.3e1)
t36 = lax_cond(t33, t34 * p_a_zeta_threshold, 1)
t39 = 2 ** (0.1e1 / 0.3e1)
t54 = math.log(0.1e1 + 0.29608749977793437516e2 / (0.51785000000000000000e1 * t13 + 0.90577500000000000000e0 * t10 + 0.11003250000000000000e0 * t16 + 0.12417750000000000000e0 * t24))
t57 = 0.19751673498613801407e-1 * (0.2e1 * t36 - 0.2e1) / (0.2e1 * t39 - 0.2e1) * (0.1e1 + 0.27812500000000000000e-1 * t10) * t54
t58 = math.log(0.2e1)
t59 = 0.1e1 - t58
t60 = math.pi ** 2
t63 = t34 ** 2
t64 = lax_cond(t33, t63, 1)
t65 = t64 ** 2
t66 = t65 * t64
t73 = 0.1e1 / t59
t80 = math.exp(-(-t32 + t57) * t73 * t60 / t66)
t81 = t80 - 0.1e1
t86 = r0 ** 2
t99 = (0.1e1 + 0.27801896084645508333e-2 * (0.1e1 + 0.25000000000000000000e-1 * t10) / (0.1e1 + 0.44450000000000000000e-1 * t10) * t73 * t60 / t81 * s0 / t7 / t86 * t39 / t65 * t18 / t3 * t5) ** (0.1e1 / 0.4e1)
t105 = math.log(0.1e1 + 0.10000000000000000000e1 * (0.1e1 - 0.1e1 / t99) * t81)
res = -t32 + t57 + t59 / t60 * t66 * t105
"

/- gen_repo/impl/prebuilt/pol/gga_c_sg4.py and gen_repo/impl/prebuilt/unpol/gga_c_sg4.py -/
formula gga_c_sg4 pol "t1 = 3 ** (0.1e1 / 0.3e1)
t3 = (0.1e1 / math.pi) ** (0.1e1 / 0.3e1)
t5 = 4 ** (0.1e1 / 0.3e1)
t6 = t5 ** 2
t7 = r0 + r1
t8 = t7 ** (0.1e1 / 0.3e1)
t11 = t1 * t3 * t6 / t8
t14 = math.sqrt(t11)
t17 = t11 ** 0.15e1
t19 = t1 ** 2
t20 = t3 ** 2
t22 = t8 ** 2
t25 = t19 * t20 * t5 / t22
t31 = math.log(0.1e1 + 0.16081979498692535067e2 / (0.37978500000000000000e1 * t14 + 0.89690000000000000000e0 * t11 + 0.20477500000000000000e0 * t17 + 0.12323500000000000000e0 * t25))
t33 = 0.621814e-1 * (0.1e1 + 0.53425000000000000000e-1 * t11) * t31
t34 = r0 - r1
t35 = t34 ** 2
t36 = t35 ** 2
t37 = t7 ** 2
t38 = t37 ** 2
t39 = 0.1e1 / t38
t42 = t34 / t7
t43 = 0.1e1 + t42
t44 = t43 <= p_a_zeta_threshold
t45 = p_a_zeta_threshold ** (0.1e1 / 0.3e1)
t46 = t45 * p_a_zeta_threshold
t47 = t43 ** (0.1e1 / 0.3e1)
t49 = lax_cond(t44, t46, t47 * t43)
t50 = 0.1e1 - t42
t51 = t50 <= p_a_zeta_threshold
t52 = t50 ** (0.1e1 / 0.3e1)
t54 = lax_cond(t51, t46, t52 * t50)
t56 = 2 ** (0.1e1 / 0.3e1)
t60 = (t49 + t54 - 0.2e1) / (0.2e1 * t56 - 0.2e1)
t71 = math.log(0.1e1 + 0.32163958997385070134e2 / (0.70594500000000000000e1 * t14 + 0.15494250000000000000e1 * t11 + 0.42077500000000000000e0 * t17 + 0.15629250000000000000e0 * t25))
t84 = math.log(0.1e1 + 0.29608749977793437516e2 / (0.51785000000000000000e1 * t14 + 0.90577500000000000000e0 * t11 + 0.11003250000000000000e0 * t17 + 0.12417750000000000000e0 * t25))
t85 = (0.1e1 + 0.27812500000000000000e-1 * t11) * t84
t89 = t36 * t39 * t60 * (-0.3109070e-1 * (0.1e1 + 0.51370000000000000000e-1 * t11) * t71 + t33 - 0.19751673498613801407e-1 * t85)
t91 = 0.19751673498613801407e-1 * t60 * t85
t92 = t45 ** 2
t93 = t47 ** 2
t94 = lax_cond(t44, t92, t93)
t95 = t52 ** 2
t96 = lax_cond(t51, t92, t95)
t98 = t94 / 0.2e1 + t96 / 0.2e1
t100 = s0 + 0.2e1 * s1 + s2
t101 = math.sqrt(t100)
t104 = t98 ** 2
t105 = t104 * t98
t106 = 0.1e1 / t105
t112 = t98 ** (0.50000000000000000000e-1 * t101 * t100 * t39 * t106 / t14 / t11)
t113 = math.log(0.2e1)
t114 = 0.1e1 - t113
t116 = math.pi ** 2
t117 = 0.1e1 / t116
t123 = t56 ** 2
t129 = math.exp(-t25 / 0.4e1)
t134 = 0.786e0 * t117 + 0.17500000000000000000e-1 * t101 / t8 / t7 * t123 / t98 / t14 * (0.1e1 - t129)
t146 = 0.1e1 / t114
t147 = t134 * t146
t152 = math.exp(-(-t33 + t89 + t91) * t146 * t116 * t106)
t155 = t116 / (t152 - 0.1e1)
t156 = t100 ** 2
t162 = t104 ** 2
t171 = t100 / t8 / t37 * t56 / t104 * t19 / t3 * t5 / 0.96e2 + t147 * t155 * t156 / t22 / t38 * t123 / t162 * t1 / t20 * t6 / 0.3072e4
t181 = math.log(0.1e1 + t134 * t171 * t146 * t116 / (t147 * t155 * t171 + 0.1e1))
res = t112 * t114 * t117 * t105 * t181 - t33 + t89 + t91
" unpol "t1 = 3 ** (0.1e1 / 0.3e1)
t3 = (0.1e1 / math.pi) ** (0.1e1 / 0.3e1)
t5 = 4 ** (0.1e1 / 0.3e1)
t6 = t5 ** 2
t7 = r0 ** (0.1e1 / 0.3e1)
t10 = t1 * t3 * t6 / t7
t13 = math.sqrt(t10)
t16 = t10 ** 0.15e1
t18 = t1 ** 2
t19 = t3 ** 2
t21 = t7 ** 2
t24 = t18 * t19 * t5 / t21
t30 = math.log(0.1e1 + 0.16081979498692535067e2 / (0.37978500000000000000e1 * t13 + 0.89690000000000000000e0 * t10 + 0.20477500000000000000e0 * t16 + 0.12323500000000000000e0 * t24))
t32 = 0.621814e-1 * (0.1e1 + 0.53425000000000000000e-1 * t10) * t30
t33 = 0.1e1 <= p_a_zeta_threshold
t34 = p_a_zeta_threshold ** (0.1e1 / 0.3e1)
t36 = lax_cond(t33, t34 * p_a_zeta_threshold, 1)
t39 = 2 ** (0.1e1 / 0.3e1)
t54 = math.log(0.1e1 + 0.29608749977793437516e2 / (0.51785000000000000000e1 * t13 + 0.90577500000000000000e0 * t10 + 0.11003250000000000000e0 * t16 + 0.12417750000000000000e0 * t24))
t57 = 0.19751673498613801407e-1 * (0.2e1 * t36 - 0.2e1) / (0.2e1 * t39 - 0.2e1) * (0.1e1 + 0.27812500000000000000e-1 * t10) * t54
t58 = t34 ** 2
t59 = lax_cond(t33, t58, 1)
t60 = math.sqrt(s0)
t62 = r0 ** 2
t63 = t62 ** 2
t66 = t59 ** 2
t67 = t66 * t59
t68 = 0.1e1 / t67
t74 = t59 ** (0.50000000000000000000e-1 * t60 * s0 / t63 * t68 / t13 / t10)
t75 = math.log(0.2e1)
t76 = 0.1e1 - t75
t78 = math.pi ** 2
t79 = 0.1e1 / t78
t85 = t39 ** 2
t91 = math.exp(-t24 / 0.4e1)
t96 = 0.786e0 * t79 + 0.17500000000000000000e-1 * t60 / t7 / r0 * t85 / t59 / t13 * (0.1e1 - t91)
t108 = 0.1e1 / t76
t109 = t96 * t108
t114 = math.exp(-(-t32 + t57) * t108 * t78 * t68)
t117 = t78 / (t114 - 0.1e1)
t118 = s0 ** 2
t124 = t66 ** 2
t133 = s0 / t7 / t62 * t39 / t66 * t18 / t3 * t5 / 0.96e2 + t109 * t117 * t118 / t21 / t63 * t85 / t124 * t1 / t19 * t6 / 0.3072e4
t143 = math.log(0.1e1 + t96 * t133 * t108 * t78 / (t109 * t117 * t133 + 0.1e1))
res = t74 * t76 * t79 * t67 * t143 - t32 + t57
"

end Verif.Data


/-!
# Shipped formulas, verbatim from `gen_repo/impl/prebuilt/{pol,unpol}/NAME.py`
-/
namespace Verif.Data

/- gen_repo/impl/prebuilt/pol/gga_c_sogga11.py and gen_repo/impl/prebuilt/unpol/gga_c_sogga11.py -/
formula gga_c_sogga11 pol "t1 = 3 ** (0.1e1 / 0.3e1)
t3 = (0.1e1 / math.pi) ** (0.1e1 / 0.3e1)
t5 = 4 ** (0.1e1 / 0.3e1)
t6 = t5 ** 2
t7 = r0 + r1
t8 = t7 ** (0.1e1 / 0.3e1)
t11 = t1 * t3 * t6 / t8
t14 = math.sqrt(t11)
t17 = t11 ** 0.15e1
t19 = t1 ** 2
t20 = t3 ** 2
t22 = t8 ** 2
t25 = t19 * t20 * t5 / t22
t31 = math.log(0.1e1 + 0.16081979498692535067e2 / (0.37978500000000000000e1 * t14 + 0.89690000000000000000e0 * t11 + 0.20477500000000000000e0 * t17 + 0.12323500000000000000e0 * t25))
t33 = 0.621814e-1 * (0.1e1 + 0.53425000000000000000e-1 * t11) * t31
t34 = r0 - r1
t35 = t34 ** 2
t36 = t35 ** 2
t37 = t7 ** 2
t38 = t37 ** 2
t42 = t34 / t7
t43 = 0.1e1 + t42
t44 = t43 <= p_a_zeta_threshold
t45 = p_a_zeta_threshold ** (0.1e1 / 0.3e1)
t46 = t45 * p_a_zeta_threshold
t47 = t43 ** (0.1e1 / 0.3e1)
t49 = lax_cond(t44, t46, t47 * t43)
t50 = 0.1e1 - t42
t51 = t50 <= p_a_zeta_threshold
t52 = t50 ** (0.1e1 / 0.3e1)
t54 = lax_cond(t51, t46, t52 * t50)
t56 = 2 ** (0.1e1 / 0.3e1)
t60 = (t49 + t54 - 0.2e1) / (0.2e1 * t56 - 0.2e1)
t71 = math.log(0.1e1 + 0.32163958997385070134e2 / (0.70594500000000000000e1 * t14 + 0.15494250000000000000e1 * t11 + 0.42077500000000000000e0 * t17 + 0.15629250000000000000e0 * t25))
t84 = math.log(0.1e1 + 0.29608749977793437516e2 / (0.51785000000000000000e1 * t14 + 0.90577500000000000000e0 * t11 + 0.11003250000000000000e0 * t17 + 0.12417750000000000000e0 * t25))
t85 = (0.1e1 + 0.27812500000000000000e-1 * t11) * t84
t92 = -t33 + t36 / t38 * t60 * (-0.3109070e-1 * (0.1e1 + 0.51370000000000000000e-1 * t11) * t71 + t33 - 0.19751673498613801407e-1 * t85) + 0.19751673498613801407e-1 * t60 * t85
t95 = t45 ** 2
t96 = t47 ** 2
t97 = lax_cond(t44, t95, t96)
t98 = t52 ** 2
t99 = lax_cond(t51, t95, t98)
t115 = 0.69506584583333333332e-3 * t56 * (t97 / 0.2e1 + t99 / 0.2e1) * (s0 + 0.2e1 * s1 + s2) / t8 / t37 * t19 / t3 * t5 / t92
t118 = 0.1e1 - 0.1e1 / (0.1e1 - t115)
t121 = t118 ** 2
t127 = t121 ** 2
t134 = math.exp(t115)
t135 = 0.1e1 - t134
t138 = t135 ** 2
t144 = t138 ** 2
t149 = params_a_sogga11_a[3] * t121 * t118 + params_a_sogga11_a[5] * t127 * t118 + params_a_sogga11_b[3] * t138 * t135 + params_a_sogga11_b[5] * t144 * t135 + params_a_sogga11_a[1] * t118 + params_a_sogga11_a[2] * t121 + params_a_sogga11_a[4] * t127 + params_a_sogga11_b[1] * t135 + params_a_sogga11_b[2] * t138 + params_a_sogga11_b[4] * t144 + params_a_sogga11_a[0] + params_a_sogga11_b[0]
res = t92 * t149
" unpol "t1 = 3 ** (0.1e1 / 0.3e1)
t3 = (0.1e1 / math.pi) ** (0.1e1 / 0.3e1)
t5 = 4 ** (0.1e1 / 0.3e1)
t6 = t5 ** 2
t7 = r0 ** (0.1e1 / 0.3e1)
t10 = t1 * t3 * t6 / t7
t13 = math.sqrt(t10)
t16 = t10 ** 0.15e1
t18 = t1 ** 2
t19 = t3 ** 2
t21 = t7 ** 2
t24 = t18 * t19 * t5 / t21
t30 = math.log(0.1e1 + 0.16081979498692535067e2 / (0.37978500000000000000e1 * t13 + 0.89690000000000000000e0 * t10 + 0.20477500000000000000e0 * t16 + 0.12323500000000000000e0 * t24))
t33 = 0.1e1 <= p_a_zeta_threshold
t34 = p_a_zeta_threshold ** (0.1e1 / 0.3e1)
t36 = lax_cond(t33, t34 * p_a_zeta_threshold, 1)
t39 = 2 ** (0.1e1 / 0.3e1)
t54 = math.log(0.1e1 + 0.29608749977793437516e2 / (0.51785000000000000000e1 * t13 + 0.90577500000000000000e0 * t10 + 0.11003250000000000000e0 * t16 + 0.12417750000000000000e0 * t24))
t58 = -0.621814e-1 * (0.1e1 + 0.53425000000000000000e-1 * t10) * t30 + 0.19751673498613801407e-1 * (0.2e1 * t36 - 0.2e1) / (0.2e1 * t39 - 0.2e1) * (0.1e1 + 0.27812500000000000000e-1 * t10) * t54
t61 = t34 ** 2
t62 = lax_cond(t33, t61, 1)
t64 = r0 ** 2
t75 = 0.69506584583333333332e-3 * t39 * t62 * s0 / t7 / t64 * t18 / t3 * t5 / t58
t78 = 0.1e1 - 0.1e1 / (0.1e1 - t75)
t81 = t78 ** 2
t87 = t81 ** 2
t94 = math.exp(t75)
t95 = 0.1e1 - t94
t98 = t95 ** 2
t104 = t98 ** 2
t109 = params_a_sogga11_b[5] * t104 * t95 + params_a_sogga11_a[3] * t81 * t78 + params_a_sogga11_a[5] * t87 * t78 + params_a_sogga11_b[3] * t98 * t95 + params_a_sogga11_b[4] * t104 + params_a_sogga11_a[1] * t78 + params_a_sogga11_a[2] * t81 + params_a_sogga11_a[4] * t87 + params_a_sogga11_b[1] * t95 + params_a_sogga11_b[2] * t98 + params_a_sogga11_a[0] + params_a_sogga11_b[0]
res = t58 * t109
"

/- gen_repo/impl/prebuilt/pol/gga_c_tca.py and gen_repo/impl/prebuilt/unpol/gga_c_tca.py -/
formula gga_c_tca pol "t2 = r0 + r1
t4 = (r0 - r1) / t2
t5 = 0.1e1 + t4
t7 = p_a_zeta_threshold ** (0.1e1 / 0.3e1)
t8 = t7 ** 2
t9 = t5 ** (0.1e1 / 0.3e1)
t10 = t9 ** 2
t11 = lax_cond(t5 <= p_a_zeta_threshold, t8, t10)
t12 = 0.1e1 - t4
t14 = t12 ** (0.1e1 / 0.3e1)
t15 = t14 ** 2
t16 = lax_cond(t12 <= p_a_zeta_threshold, t8, t15)
t18 = t11 / 0.2e1 + t16 / 0.2e1
t19 = t18 ** 2
t21 = 3 ** (0.1e1 / 0.3e1)
t23 = (0.1e1 / math.pi) ** (0.1e1 / 0.3e1)
t25 = 4 ** (0.1e1 / 0.3e1)
t26 = t25 ** 2
t27 = t2 ** (0.1e1 / 0.3e1)
t33 = math.atan(0.4888270e1 + 0.79425925000000000000e0 * t21 * t23 * t26 / t27)
t37 = t21 ** 2
t41 = 6 ** (0.1e1 / 0.3e1)
t42 = t41 ** 2
t43 = math.pi ** 2
t44 = t43 ** (0.1e1 / 0.3e1)
t47 = 2 ** (0.1e1 / 0.3e1)
t50 = math.sqrt(s0 + 0.2e1 * s1 + s2)
t56 = (t42 / t44 * t47 * t50 / t27 / t2) ** 0.230e1
res = t19 * t18 * (-0.655868e0 * t33 + 0.897889e0) * t37 / t23 * t25 * t27 / (0.1e1 + 0.47121507034422759993e-2 * t56) / 0.3e1
" unpol "t2 = p_a_zeta_threshold ** (0.1e1 / 0.3e1)
t3 = t2 ** 2
t4 = lax_cond(0.1e1 <= p_a_zeta_threshold, t3, 1)
t5 = t4 ** 2
t7 = 3 ** (0.1e1 / 0.3e1)
t9 = (0.1e1 / math.pi) ** (0.1e1 / 0.3e1)
t11 = 4 ** (0.1e1 / 0.3e1)
t12 = t11 ** 2
t13 = r0 ** (0.1e1 / 0.3e1)
t19 = math.atan(0.4888270e1 + 0.79425925000000000000e0 * t7 * t9 * t12 / t13)
t23 = t7 ** 2
t27 = 6 ** (0.1e1 / 0.3e1)
t28 = t27 ** 2
t29 = math.pi ** 2
t30 = t29 ** (0.1e1 / 0.3e1)
t33 = 2 ** (0.1e1 / 0.3e1)
t34 = math.sqrt(s0)
t40 = (t28 / t30 * t33 * t34 / t13 / r0) ** 0.230e1
res = t5 * t4 * (-0.655868e0 * t19 + 0.897889e0) * t23 / t9 * t11 * t13 / (0.1e1 + 0.47121507034422759993e-2 * t40) / 0.3e1
"

/- gen_repo/impl/prebuilt/pol/gga_c_w94.py and gen_repo/impl/prebuilt/unpol/gga_c_w94.py -/
formula gga_c_w94 pol "t2 = r0 + r1
t4 = (r0 - r1) / t2
t6 = lax_cond(0.0e0 < t4, t4, -t4)
t8 = lax_cond(0.1e-9 < t6, t6, 0.1e-9)
t9 = t8 ** (0.1e1 / 0.3e1)
t10 = t9 ** 2
t13 = math.sqrt(-t10 * t8 + 0.1e1)
t15 = s0 + 0.2e1 * s1 + s2
t16 = math.sqrt(t15)
t18 = t2 ** 2
t19 = t18 ** 2
t22 = t2 ** (0.1e1 / 0.3e1)
t26 = (t16 / t22 / t2) ** (0.1e1 / 0.16e2)
t27 = t26 ** 2
t35 = 3 ** (0.1e1 / 0.3e1)
t37 = (0.1e1 / math.pi) ** (0.1e1 / 0.3e1)
t39 = 4 ** (0.1e1 / 0.3e1)
t40 = t39 ** 2
res = -t13 / (0.118e2 + 0.150670e0 * t27 * t26 * t16 * t15 / t19 + 0.11020000000000000000e-1 * t15 / t18 / t2 + t35 * t37 * t40 / t22 / 0.4e1)
" unpol "t2 = lax_cond(0 < 0, 0, 0)
t4 = lax_cond(0.1e-9 < t2, t2, 0.1e-9)
t5 = t4 ** (0.1e1 / 0.3e1)
t6 = t5 ** 2
t9 = math.sqrt(-t6 * t4 + 0.1e1)
t10 = math.sqrt(s0)
t12 = r0 ** 2
t13 = t12 ** 2
t16 = r0 ** (0.1e1 / 0.3e1)
t20 = (t10 / t16 / r0) ** (0.1e1 / 0.16e2)
t21 = t20 ** 2
t29 = 3 ** (0.1e1 / 0.3e1)
t31 = (0.1e1 / math.pi) ** (0.1e1 / 0.3e1)
t33 = 4 ** (0.1e1 / 0.3e1)
t34 = t33 ** 2
res = -t9 / (0.118e2 + 0.150670e0 * t21 * t20 * t10 * s0 / t13 + 0.11020000000000000000e-1 * s0 / t12 / r0 + t29 * t31 * t34 / t16 / 0.4e1)
"

/- gen_repo/impl/prebuilt/pol/gga_c_wi.py and gen_repo/impl/prebuilt/unpol/gga_c_wi.py -/
formula gga_c_wi pol "t2 = s0 + 0.2e1 * s1 + s2
t4 = r0 + r1
t5 = t4 ** 2
t6 = t4 ** (0.1e1 / 0.3e1)
t7 = t6 ** 2
t9 = 0.1e1 / t7 / t5
t12 = math.exp(-params_a_k * t2 * t9)
t16 = 3 ** (0.1e1 / 0.3e1)
t18 = (0.1e1 / math.pi) ** (0.1e1 / 0.3e1)
t20 = 4 ** (0.1e1 / 0.3e1)
t21 = t20 ** 2
t25 = t16 ** 2
t26 = math.pi ** (0.1e1 / 0.3e1)
t28 = math.sqrt(t2)
t30 = t5 ** 2
t36 = math.sqrt(t28 / t6 / t4)
res = (params_a_b * t2 * t9 * t12 + params_a_a) / (params_a_c + t16 * t18 * t21 / t6 * (0.1e1 + params_a_d * t20 * t25 * t26 * t36 * t28 * t2 / t30 / 0.3e1) / 0.4e1)
" unpol "t2 = r0 ** 2
t3 = r0 ** (0.1e1 / 0.3e1)
t4 = t3 ** 2
t6 = 0.1e1 / t4 / t2
t9 = math.exp(-params_a_k * s0 * t6)
t13 = 3 ** (0.1e1 / 0.3e1)
t15 = (0.1e1 / math.pi) ** (0.1e1 / 0.3e1)
t17 = 4 ** (0.1e1 / 0.3e1)
t18 = t17 ** 2
t22 = t13 ** 2
t23 = math.pi ** (0.1e1 / 0.3e1)
t25 = math.sqrt(s0)
t27 = t2 ** 2
t33 = math.sqrt(t25 / t3 / r0)
res = (params_a_b * s0 * t6 * t9 + params_a_a) / (params_a_c + t13 * t15 * t18 / t3 * (0.1e1 + params_a_d * t17 * t22 * t23 * t33 * t25 * s0 / t27 / 0.3e1) / 0.4e1)
"

/- gen_repo/impl/prebuilt/pol/gga_c_wl.py and gen_repo/impl/prebuilt/unpol/gga_c_wl.py -/
formula gga_c_wl pol "t2 = (r0 - r1) ** 2
t3 = r0 + r1
t4 = t3 ** 2
t8 = math.sqrt(0.1e1 - t2 / t4)
t11 = math.sqrt(s0 + 0.2e1 * s1 + s2)
t12 = t3 ** (0.1e1 / 0.3e1)
t19 = math.sqrt(s0)
t20 = r0 ** (0.1e1 / 0.3e1)
t25 = math.sqrt(s2)
t26 = r1 ** (0.1e1 / 0.3e1)
t31 = 3 ** (0.1e1 / 0.3e1)
t33 = (0.1e1 / math.pi) ** (0.1e1 / 0.3e1)
t35 = 4 ** (0.1e1 / 0.3e1)
t36 = t35 ** 2
res = t8 * (-0.74860e0 + 0.6001e-1 * t11 / t12 / t3) / (0.360073e1 + 0.90000e0 * t19 / t20 / r0 + 0.90000e0 * t25 / t26 / r1 + t31 * t33 * t36 / t12 / 0.4e1)
" unpol "t1 = math.sqrt(s0)
t2 = r0 ** (0.1e1 / 0.3e1)
t4 = 0.1e1 / t2 / r0
t8 = 2 ** (0.1e1 / 0.3e1)
t12 = 3 ** (0.1e1 / 0.3e1)
t14 = (0.1e1 / math.pi) ** (0.1e1 / 0.3e1)
t16 = 4 ** (0.1e1 / 0.3e1)
t17 = t16 ** 2
res = (-0.74860e0 + 0.6001e-1 * t1 * t4) / (0.360073e1 + 0.180000e1 * t1 * t8 * t4 + t12 * t14 * t17 / t2 / 0.4e1)
"

/- gen_repo/impl/prebuilt/pol/gga_c_zpbeint.py and gen_repo/impl/prebuilt/unpol/gga_c_zpbeint.py -/
formula gga_c_zpbeint pol "t1 = 3 ** (0.1e1 / 0.3e1)
t3 = (0.1e1 / math.pi) ** (0.1e1 / 0.3e1)
t5 = 4 ** (0.1e1 / 0.3e1)
t6 = t5 ** 2
t7 = r0 + r1
t8 = t7 ** (0.1e1 / 0.3e1)
t11 = t1 * t3 * t6 / t8
t14 = math.sqrt(t11)
t17 = t11 ** 0.15e1
t19 = t1 ** 2
t20 = t3 ** 2
t22 = t8 ** 2
t25 = t19 * t20 * t5 / t22
t31 = math.log(0.1e1 + 0.16081979498692535067e2 / (0.37978500000000000000e1 * t14 + 0.89690000000000000000e0 * t11 + 0.20477500000000000000e0 * t17 + 0.12323500000000000000e0 * t25))
t33 = 0.621814e-1 * (0.1e1 + 0.53425000000000000000e-1 * t11) * t31
t34 = r0 - r1
t35 = t34 ** 2
t36 = t35 ** 2
t37 = t7 ** 2
t38 = t37 ** 2
t39 = 0.1e1 / t38
t42 = t34 / t7
t43 = 0.1e1 + t42
t44 = t43 <= p_a_zeta_threshold
t45 = p_a_zeta_threshold ** (0.1e1 / 0.3e1)
t46 = t45 * p_a_zeta_threshold
t47 = t43 ** (0.1e1 / 0.3e1)
t49 = lax_cond(t44, t46, t47 * t43)
t50 = 0.1e1 - t42
t51 = t50 <= p_a_zeta_threshold
t52 = t50 ** (0.1e1 / 0.3e1)
t54 = lax_cond(t51, t46, t52 * t50)
t56 = 2 ** (0.1e1 / 0.3e1)
t60 = (t49 + t54 - 0.2e1) / (0.2e1 * t56 - 0.2e1)
t71 = math.log(0.1e1 + 0.32163958997385070134e2 / (0.70594500000000000000e1 * t14 + 0.15494250000000000000e1 * t11 + 0.42077500000000000000e0 * t17 + 0.15629250000000000000e0 * t25))
t84 = math.log(0.1e1 + 0.29608749977793437516e2 / (0.51785000000000000000e1 * t14 + 0.90577500000000000000e0 * t11 + 0.11003250000000000000e0 * t17 + 0.12417750000000000000e0 * t25))
t85 = (0.1e1 + 0.27812500000000000000e-1 * t11) * t84
t89 = t36 * t39 * t60 * (-0.3109070e-1 * (0.1e1 + 0.51370000000000000000e-1 * t11) * t71 + t33 - 0.19751673498613801407e-1 * t85)
t91 = 0.19751673498613801407e-1 * t60 * t85
t92 = t45 ** 2
t93 = t47 ** 2
t94 = lax_cond(t44, t92, t93)
t95 = t52 ** 2
t96 = lax_cond(t51, t92, t95)
t98 = t94 / 0.2e1 + t96 / 0.2e1
t100 = s0 + 0.2e1 * s1 + s2
t101 = math.sqrt(t100)
t104 = t98 ** 2
t105 = t104 * t98
t106 = 0.1e1 / t105
t113 = t98 ** (params_a_alpha * t101 * t100 * t39 * t106 / t14 / t11 / 0.16e2)
t114 = math.log(0.2e1)
t115 = 0.1e1 - t114
t117 = math.pi ** 2
t131 = 0.1e1 / t115
t132 = params_a_beta * t131
t137 = math.exp(-(-t33 + t89 + t91) * t131 * t117 * t106)
t140 = t117 / (t137 - 0.1e1)
t141 = t100 ** 2
t146 = t56 ** 2
t148 = t104 ** 2
t157 = t100 / t8 / t37 * t56 / t104 * t19 / t3 * t5 / 0.96e2 + t132 * t140 * t141 / t22 / t38 * t146 / t148 * t1 / t20 * t6 / 0.3072e4
t167 = math.log(0.1e1 + params_a_beta * t157 * t131 * t117 / (t132 * t140 * t157 + 0.1e1))
res = -t33 + t89 + t91 + t113 * t115 / t117 * t105 * t167
" unpol "t1 = 3 ** (0.1e1 / 0.3e1)
t3 = (0.1e1 / math.pi) ** (0.1e1 / 0.3e1)
t5 = 4 ** (0.1e1 / 0.3e1)
t6 = t5 ** 2
t7 = r0 ** (0.1e1 / 0.3e1)
t10 = t1 * t3 * t6 / t7
t13 = math.sqrt(t10)
t16 = t10 ** 0.15e1
t18 = t1 ** 2
t19 = t3 ** 2
t21 = t7 ** 2
t24 = t18 * t19 * t5 / t21
t30 = math.log(0.1e1 + 0.16081979498692535067e2 / (0.37978500000000000000e1 * t13 + 0.89690000000000000000e0 * t10 + 0.20477500000000000000e0 * t16 + 0.12323500000000000000e0 * t24))
t32 = 0.621814e-1 * (0.1e1 + 0.53425000000000000000e-1 * t10) * t30
t33 = 0.1e1 <= p_a_zeta_threshold
t34 = p_a_zeta_threshold ** (0.1e1 / 0.3e1)
t36 = lax_cond(t33, t34 * p_a_zeta_threshold, 1)
t39 = 2 ** (0.1e1 / 0.3e1)
t54 = math.log(0.1e1 + 0.29608749977793437516e2 / (0.51785000000000000000e1 * t13 + 0.90577500000000000000e0 * t10 + 0.11003250000000000000e0 * t16 + 0.12417750000000000000e0 * t24))
t57 = 0.19751673498613801407e-1 * (0.2e1 * t36 - 0.2e1) / (0.2e1 * t39 - 0.2e1) * (0.1e1 + 0.27812500000000000000e-1 * t10) * t54
t58 = t34 ** 2
t59 = lax_cond(t33, t58, 1)
t60 = math.sqrt(s0)
t63 = r0 ** 2
t64 = t63 ** 2
t66 = t59 ** 2
t67 = t66 * t59
t68 = 0.1e1 / t67
t75 = t59 ** (params_a_alpha * t60 * s0 / t64 * t68 / t13 / t10 / 0.16e2)
t76 = math.log(0.2e1)
t77 = 0.1e1 - t76
t79 = math.pi ** 2
t93 = 0.1e1 / t77
t94 = params_a_beta * t93
t99 = math.exp(-(-t32 + t57) * t93 * t79 * t68)
t102 = t79 / (t99 - 0.1e1)
t103 = s0 ** 2
t108 = t39 ** 2
t110 = t66 ** 2
t119 = s0 / t7 / t63 * t39 / t66 * t18 / t3 * t5 / 0.96e2 + t94 * t102 * t103 / t21 / t64 * t108 / t110 * t1 / t19 * t6 / 0.3072e4
t129 = math.log(0.1e1 + params_a_beta * t119 * t93 * t79 / (t94 * t102 * t119 + 0.1e1))
res = -t32 + t57 + t75 * t77 / t79 * t67 * t129
"

/- gen_repo/impl/prebuilt/pol/gga_c_zvpbeint.py and gen_repo/impl/prebuilt/unpol/gga_c_zvpbeint.py -/
formula gga_c_zvpbeint pol "t1 = 3 ** (0.1e1 / 0.3e1)
t3 = (0.1e1 / math.pi) ** (0.1e1 / 0.3e1)
t5 = 4 ** (0.1e1 / 0.3e1)
t6 = t5 ** 2
t7 = r0 + r1
t8 = t7 ** (0.1e1 / 0.3e1)
t11 = t1 * t3 * t6 / t8
t14 = math.sqrt(t11)
t17 = t11 ** 0.15e1
t19 = t1 ** 2
t20 = t3 ** 2
t22 = t8 ** 2
t25 = t19 * t20 * t5 / t22
t31 = math.log(0.1e1 + 0.16081979498692535067e2 / (0.37978500000000000000e1 * t14 + 0.89690000000000000000e0 * t11 + 0.20477500000000000000e0 * t17 + 0.12323500000000000000e0 * t25))
t33 = 0.621814e-1 * (0.1e1 + 0.53425000000000000000e-1 * t11) * t31
t34 = r0 - r1
t35 = t34 ** 2
t36 = t35 ** 2
t37 = t7 ** 2
t38 = t37 ** 2
t39 = 0.1e1 / t38
t42 = t34 / t7
t43 = 0.1e1 + t42
t44 = t43 <= p_a_zeta_threshold
t45 = p_a_zeta_threshold ** (0.1e1 / 0.3e1)
t46 = t45 * p_a_zeta_threshold
t47 = t43 ** (0.1e1 / 0.3e1)
t49 = lax_cond(t44, t46, t47 * t43)
t50 = 0.1e1 - t42
t51 = t50 <= p_a_zeta_threshold
t52 = t50 ** (0.1e1 / 0.3e1)
t54 = lax_cond(t51, t46, t52 * t50)
t56 = 2 ** (0.1e1 / 0.3e1)
t60 = (t49 + t54 - 0.2e1) / (0.2e1 * t56 - 0.2e1)
t71 = math.log(0.1e1 + 0.32163958997385070134e2 / (0.70594500000000000000e1 * t14 + 0.15494250000000000000e1 * t11 + 0.42077500000000000000e0 * t17 + 0.15629250000000000000e0 * t25))
t84 = math.log(0.1e1 + 0.29608749977793437516e2 / (0.51785000000000000000e1 * t14 + 0.90577500000000000000e0 * t11 + 0.11003250000000000000e0 * t17 + 0.12417750000000000000e0 * t25))
t85 = (0.1e1 + 0.27812500000000000000e-1 * t11) * t84
t89 = t36 * t39 * t60 * (-0.3109070e-1 * (0.1e1 + 0.51370000000000000000e-1 * t11) * t71 + t33 - 0.19751673498613801407e-1 * t85)
t91 = 0.19751673498613801407e-1 * t60 * t85
t93 = s0 + 0.2e1 * s1 + s2
t94 = math.sqrt(t93)
t100 = 0.1e1 / t3
t104 = math.sqrt(t19 * t100 * t5 * t8)
t107 = t35 / t37
t109 = lax_cond(0.1e-19 < t107, t107, 0.1e-19)
t111 = t109 ** (params_a_omega / 0.2e1)
t115 = math.exp(-params_a_alpha * t94 * t93 * t39 / t14 / t11 * t104 * t111 / 0.16e2)
t116 = math.log(0.2e1)
t117 = 0.1e1 - t116
t119 = math.pi ** 2
t121 = t45 ** 2
t122 = t47 ** 2
t123 = lax_cond(t44, t121, t122)
t124 = t52 ** 2
t125 = lax_cond(t51, t121, t124)
t127 = t123 / 0.2e1 + t125 / 0.2e1
t128 = t127 ** 2
t129 = t128 * t127
t141 = 0.1e1 / t117
t142 = params_a_beta * t141
t148 = math.exp(-(-t33 + t89 + t91) * t141 * t119 / t129)
t151 = t119 / (t148 - 0.1e1)
t152 = t93 ** 2
t157 = t56 ** 2
t159 = t128 ** 2
t168 = t93 / t8 / t37 * t56 / t128 * t19 * t100 * t5 / 0.96e2 + t142 * t151 * t152 / t22 / t38 * t157 / t159 * t1 / t20 * t6 / 0.3072e4
t178 = math.log(0.1e1 + params_a_beta * t168 * t141 * t119 / (t142 * t151 * t168 + 0.1e1))
res = -t33 + t89 + t91 + t115 * t117 / t119 * t129 * t178
" unpol "t1 = 3 ** (0.1e1 / 0.3e1)
t3 = (0.1e1 / math.pi) ** (0.1e1 / 0.3e1)
t5 = 4 ** (0.1e1 / 0.3e1)
t6 = t5 ** 2
t7 = r0 ** (0.1e1 / 0.3e1)
t10 = t1 * t3 * t6 / t7
t13 = math.sqrt(t10)
t16 = t10 ** 0.15e1
t18 = t1 ** 2
t19 = t3 ** 2
t21 = t7 ** 2
t24 = t18 * t19 * t5 / t21
t30 = math.log(0.1e1 + 0.16081979498692535067e2 / (0.37978500000000000000e1 * t13 + 0.89690000000000000000e0 * t10 + 0.20477500000000000000e0 * t16 + 0.12323500000000000000e0 * t24))
t32 = 0.621814e-1 * (0.1e1 + 0.53425000000000000000e-1 * t10) * t30
t33 = 0.1e1 <= p_a_zeta_threshold
t34 = p_a_zeta_threshold ** (0.1e1 / 0.3e1)
t36 = lax_cond(t33, t34 * p_a_zeta_threshold, 1)
t39 = 2 ** (0.1e1 / 0.3e1)
t54 = math.log(0.1e1 + 0.29608749977793437516e2 / (0.51785000000000000000e1 * t13 + 0.90577500000000000000e0 * t10 + 0.11003250000000000000e0 * t16 + 0.12417750000000000000e0 * t24))
t57 = 0.19751673498613801407e-1 * (0.2e1 * t36 - 0.2e1) / (0.2e1 * t39 - 0.2e1) * (0.1e1 + 0.27812500000000000000e-1 * t10) * t54
t58 = math.sqrt(s0)
t61 = r0 ** 2
t62 = t61 ** 2
t67 = 0.1e1 / t3
t71 = math.sqrt(t18 * t67 * t5 * t7)
t74 = lax_cond(0.1e-19 < 0.0e0, 0, 0.1e-19)
t76 = t74 ** (params_a_omega / 0.2e1)
t80 = math.exp(-params_a_alpha * t58 * s0 / t62 / t13 / t10 * t71 * t76 / 0.16e2)
t81 = math.log(0.2e1)
t82 = 0.1e1 - t81
t84 = math.pi ** 2
t86 = t34 ** 2
t87 = lax_cond(t33, t86, 1)
t88 = t87 ** 2
t89 = t88 * t87
t101 = 0.1e1 / t82
t102 = params_a_beta * t101
t108 = math.exp(-(-t32 + t57) * t101 * t84 / t89)
t111 = t84 / (t108 - 0.1e1)
t112 = s0 ** 2
t117 = t39 ** 2
t119 = t88 ** 2
t128 = s0 / t7 / t61 * t39 / t88 * t18 * t67 * t5 / 0.96e2 + t102 * t111 * t112 / t21 / t62 * t117 / t119 * t1 / t19 * t6 / 0.3072e4
t138 = math.log(0.1e1 + params_a_beta * t128 * t101 * t84 / (t102 * t111 * t128 + 0.1e1))
res = -t32 + t57 + t80 * t82 / t84 * t89 * t138
"

/- gen_repo/impl/prebuilt/pol/gga_c_zvpbeloc.py and gen_repo/impl/prebuilt/unpol/gga_c_zvpbeloc.py -/
formula gga_c_zvpbeloc pol "t1 = 4 ** (0.1e1 / 0.6e1)
t2 = t1 ** 2
t3 = t2 ** 2
t5 = 3 ** (0.1e1 / 0.6e1)
t7 = math.pi ** 2
t8 = 0.1e1 / t7
t9 = t8 ** (0.1e1 / 0.6e1)
t12 = (0.1e1 / math.pi) ** (0.1e1 / 0.3e1)
t13 = r0 + r1
t14 = t13 ** (0.1e1 / 0.3e1)
t15 = 0.1e1 / t14
t17 = r0 - r1
t18 = t17 ** 2
t19 = t13 ** 2
t21 = t18 / t19
t23 = lax_cond(0.1e-19 < t21, t21, 0.1e-19)
t27 = math.exp(-0.99999999999999999999e0 * t3 * t1 * t5 * t9 * t12 * t15 * t23)
t28 = 3 ** (0.1e1 / 0.3e1)
t30 = 4 ** (0.1e1 / 0.3e1)
t31 = t30 ** 2
t33 = t28 * t12 * t31 * t15
t36 = math.sqrt(t33)
t39 = t33 ** 0.15e1
t41 = t28 ** 2
t42 = t12 ** 2
t44 = t14 ** 2
t47 = t41 * t42 * t30 / t44
t53 = math.log(0.1e1 + 0.16081979498692535067e2 / (0.37978500000000000000e1 * t36 + 0.89690000000000000000e0 * t33 + 0.20477500000000000000e0 * t39 + 0.12323500000000000000e0 * t47))
t55 = 0.621814e-1 * (0.1e1 + 0.53425000000000000000e-1 * t33) * t53
t56 = t18 ** 2
t57 = t19 ** 2
t61 = t17 / t13
t62 = 0.1e1 + t61
t63 = t62 <= p_a_zeta_threshold
t64 = p_a_zeta_threshold ** (0.1e1 / 0.3e1)
t65 = t64 * p_a_zeta_threshold
t66 = t62 ** (0.1e1 / 0.3e1)
t68 = lax_cond(t63, t65, t66 * t62)
t69 = 0.1e1 - t61
t70 = t69 <= p_a_zeta_threshold
t71 = t69 ** (0.1e1 / 0.3e1)
t73 = lax_cond(t70, t65, t71 * t69)
t75 = 2 ** (0.1e1 / 0.3e1)
t79 = (t68 + t73 - 0.2e1) / (0.2e1 * t75 - 0.2e1)
t90 = math.log(0.1e1 + 0.32163958997385070134e2 / (0.70594500000000000000e1 * t36 + 0.15494250000000000000e1 * t33 + 0.42077500000000000000e0 * t39 + 0.15629250000000000000e0 * t47))
t103 = math.log(0.1e1 + 0.29608749977793437516e2 / (0.51785000000000000000e1 * t36 + 0.90577500000000000000e0 * t33 + 0.11003250000000000000e0 * t39 + 0.12417750000000000000e0 * t47))
t104 = (0.1e1 + 0.27812500000000000000e-1 * t33) * t103
t108 = t56 / t57 * t79 * (-0.3109070e-1 * (0.1e1 + 0.51370000000000000000e-1 * t33) * t90 + t55 - 0.19751673498613801407e-1 * t104)
t110 = 0.19751673498613801407e-1 * t79 * t104
t111 = math.log(0.2e1)
t112 = 0.1e1 - t111
t114 = t64 ** 2
t115 = t66 ** 2
t116 = lax_cond(t63, t114, t115)
t117 = t71 ** 2
t118 = lax_cond(t70, t114, t117)
t120 = t116 / 0.2e1 + t118 / 0.2e1
t121 = t120 ** 2
t122 = t121 * t120
t124 = s0 + 0.2e1 * s1 + s2
t127 = t124 / t14 / t19
t128 = 0.1e1 / t121
t131 = 0.1e1 / t12
t134 = math.exp(-t47 / 0.4e1)
t140 = 0.375e-1 + 0.83333333333333333332e-3 * t127 * t75 * t128 * t41 * t131 * t30 * (0.1e1 - t134)
t147 = 0.1e1 / t112
t148 = t140 * t147
t154 = math.exp(-(-t55 + t108 + t110) * t147 * t7 / t122)
t157 = t7 / (t154 - 0.1e1)
t158 = t124 ** 2
t163 = t75 ** 2
t165 = t121 ** 2
t174 = t127 * t75 * t128 * t41 * t131 * t30 / 0.96e2 + t148 * t157 * t158 / t44 / t57 * t163 / t165 * t28 / t42 * t31 / 0.3072e4
t184 = math.log(0.1e1 + t140 * t174 * t147 * t7 / (t148 * t157 * t174 + 0.1e1))
res = t27 * (t112 * t8 * t122 * t184 + t108 + t110 - t55)
" unpol "t1 = 4 ** (0.1e1 / 0.6e1)
t2 = t1 ** 2
t3 = t2 ** 2
t5 = 3 ** (0.1e1 / 0.6e1)
t7 = math.pi ** 2
t8 = 0.1e1 / t7
t9 = t8 ** (0.1e1 / 0.6e1)
t12 = (0.1e1 / math.pi) ** (0.1e1 / 0.3e1)
t13 = r0 ** (0.1e1 / 0.3e1)
t14 = 0.1e1 / t13
t17 = lax_cond(0.1e-19 < 0.0e0, 0, 0.1e-19)
t21 = math.exp(-0.99999999999999999999e0 * t3 * t1 * t5 * t9 * t12 * t14 * t17)
t22 = 3 ** (0.1e1 / 0.3e1)
t24 = 4 ** (0.1e1 / 0.3e1)
t25 = t24 ** 2
t27 = t22 * t12 * t25 * t14
t30 = math.sqrt(t27)
t33 = t27 ** 0.15e1
t35 = t22 ** 2
t36 = t12 ** 2
t38 = t13 ** 2
t41 = t35 * t36 * t24 / t38
t47 = math.log(0.1e1 + 0.16081979498692535067e2 / (0.37978500000000000000e1 * t30 + 0.89690000000000000000e0 * t27 + 0.20477500000000000000e0 * t33 + 0.12323500000000000000e0 * t41))
t49 = 0.621814e-1 * (0.1e1 + 0.53425000000000000000e-1 * t27) * t47
t50 = 0.1e1 <= p_a_zeta_threshold
t51 = p_a_zeta_threshold ** (0.1e1 / 0.3e1)
t53 = lax_cond(t50, t51 * p_a_zeta_threshold, 1)
t56 = 2 ** (0.1e1 / 0.3e1)
t71 = math.log(0.1e1 + 0.29608749977793437516e2 / (0.51785000000000000000e1 * t30 + 0.90577500000000000000e0 * t27 + 0.11003250000000000000e0 * t33 + 0.12417750000000000000e0 * t41))
t74 = 0.19751673498613801407e-1 * (0.2e1 * t53 - 0.2e1) / (0.2e1 * t56 - 0.2e1) * (0.1e1 + 0.27812500000000000000e-1 * t27) * t71
t75 = math.log(0.2e1)
t76 = 0.1e1 - t75
t78 = t51 ** 2
t79 = lax_cond(t50, t78, 1)
t80 = t79 ** 2
t81 = t80 * t79
t82 = r0 ** 2
t85 = s0 / t13 / t82
t86 = 0.1e1 / t80
t89 = 0.1e1 / t12
t92 = math.exp(-t41 / 0.4e1)
t98 = 0.375e-1 + 0.83333333333333333332e-3 * t85 * t56 * t86 * t35 * t89 * t24 * (0.1e1 - t92)
t105 = 0.1e1 / t76
t106 = t98 * t105
t112 = math.exp(-(-t49 + t74) * t105 * t7 / t81)
t115 = t7 / (t112 - 0.1e1)
t116 = s0 ** 2
t119 = t82 ** 2
t122 = t56 ** 2
t124 = t80 ** 2
t133 = t85 * t56 * t86 * t35 * t89 * t24 / 0.96e2 + t106 * t115 * t116 / t38 / t119 * t122 / t124 * t22 / t36 * t25 / 0.3072e4
t143 = math.log(0.1e1 + t98 * t133 * t105 * t7 / (t106 * t115 * t133 + 0.1e1))
res = t21 * (t76 * t8 * t81 * t143 - t49 + t74)
"

/- gen_repo/impl/prebuilt/pol/gga_k_apbe.py and gen_repo/impl/prebuilt/unpol/gga_k_apbe.py -/
formula gga_k_apbe pol "t2 = 3 ** (0.1e1 / 0.3e1)
t3 = t2 ** 2
t4 = math.pi ** (0.1e1 / 0.3e1)
t6 = t3 * t4 * math.pi
t7 = r0 + r1
t8 = 0.1e1 / t7
t11 = 0.2e1 * r0 * t8 <= p_a_zeta_threshold
t12 = p_a_zeta_threshold - 0.1e1
t15 = 0.2e1 * r1 * t8 <= p_a_zeta_threshold
t16 = -t12
t18 = (r0 - r1) * t8
t19 = lax_cond(t15, t16, t18)
t20 = lax_cond(t11, t12, t19)
t21 = 0.1e1 + t20
t23 = p_a_zeta_threshold ** (0.1e1 / 0.3e1)
t24 = t23 ** 2
t25 = t24 * p_a_zeta_threshold
t26 = t21 ** (0.1e1 / 0.3e1)
t27 = t26 ** 2
t29 = lax_cond(t21 <= p_a_zeta_threshold, t25, t27 * t21)
t30 = t7 ** (0.1e1 / 0.3e1)
t31 = t30 ** 2
t33 = 6 ** (0.1e1 / 0.3e1)
t34 = params_a_mu * t33
t35 = math.pi ** 2
t36 = t35 ** (0.1e1 / 0.3e1)
t37 = t36 ** 2
t38 = 0.1e1 / t37
t40 = r0 ** 2
t41 = r0 ** (0.1e1 / 0.3e1)
t42 = t41 ** 2
t57 = lax_cond(r0 <= p_a_dens_threshold, 0, 0.3e1 / 0.20e2 * t6 * t29 * t31 * (0.1e1 + params_a_kappa * (0.1e1 - params_a_kappa / (params_a_kappa + t34 * t38 * s0 / t42 / t40 / 0.24e2))))
t59 = lax_cond(t11, t16, -t18)
t60 = lax_cond(t15, t12, t59)
t61 = 0.1e1 + t60
t63 = t61 ** (0.1e1 / 0.3e1)
t64 = t63 ** 2
t66 = lax_cond(t61 <= p_a_zeta_threshold, t25, t64 * t61)
t69 = r1 ** 2
t70 = r1 ** (0.1e1 / 0.3e1)
t71 = t70 ** 2
t86 = lax_cond(r1 <= p_a_dens_threshold, 0, 0.3e1 / 0.20e2 * t6 * t66 * t31 * (0.1e1 + params_a_kappa * (0.1e1 - params_a_kappa / (params_a_kappa + t34 * t38 * s2 / t71 / t69 / 0.24e2))))
res = t57 + t86
" unpol "t3 = 3 ** (0.1e1 / 0.3e1)
t4 = t3 ** 2
t5 = math.pi ** (0.1e1 / 0.3e1)
t8 = 0.1e1 <= p_a_zeta_threshold
t9 = p_a_zeta_threshold - 0.1e1
t11 = lax_cond(t8, -t9, 0)
t12 = lax_cond(t8, t9, t11)
t13 = 0.1e1 + t12
t15 = p_a_zeta_threshold ** (0.1e1 / 0.3e1)
t16 = t15 ** 2
t18 = t13 ** (0.1e1 / 0.3e1)
t19 = t18 ** 2
t21 = lax_cond(t13 <= p_a_zeta_threshold, t16 * p_a_zeta_threshold, t19 * t13)
t22 = r0 ** (0.1e1 / 0.3e1)
t23 = t22 ** 2
t25 = 6 ** (0.1e1 / 0.3e1)
t27 = math.pi ** 2
t28 = t27 ** (0.1e1 / 0.3e1)
t29 = t28 ** 2
t32 = 2 ** (0.1e1 / 0.3e1)
t33 = t32 ** 2
t35 = r0 ** 2
t50 = lax_cond(r0 / 0.2e1 <= p_a_dens_threshold, 0, 0.3e1 / 0.20e2 * t4 * t5 * math.pi * t21 * t23 * (0.1e1 + params_a_kappa * (0.1e1 - params_a_kappa / (params_a_kappa + params_a_mu * t25 / t29 * s0 * t33 / t23 / t35 / 0.24e2))))
res = 0.2e1 * t50
"

/- gen_repo/impl/prebuilt/pol/gga_k_apbeint.py and gen_repo/impl/prebuilt/unpol/gga_k_apbeint.py -/
formula gga_k_apbeint pol "t2 = 3 ** (0.1e1 / 0.3e1)
t3 = t2 ** 2
t4 = math.pi ** (0.1e1 / 0.3e1)
t6 = t3 * t4 * math.pi
t7 = r0 + r1
t8 = 0.1e1 / t7
t11 = 0.2e1 * r0 * t8 <= p_a_zeta_threshold
t12 = p_a_zeta_threshold - 0.1e1
t15 = 0.2e1 * r1 * t8 <= p_a_zeta_threshold
t16 = -t12
t18 = (r0 - r1) * t8
t19 = lax_cond(t15, t16, t18)
t20 = lax_cond(t11, t12, t19)
t21 = 0.1e1 + t20
t23 = p_a_zeta_threshold ** (0.1e1 / 0.3e1)
t24 = t23 ** 2
t25 = t24 * p_a_zeta_threshold
t26 = t21 ** (0.1e1 / 0.3e1)
t27 = t26 ** 2
t29 = lax_cond(t21 <= p_a_zeta_threshold, t25, t27 * t21)
t30 = t7 ** (0.1e1 / 0.3e1)
t31 = t30 ** 2
t35 = 6 ** (0.1e1 / 0.3e1)
t36 = (params_a_muPBE - params_a_muGE) * params_a_alpha * t35
t37 = math.pi ** 2
t38 = t37 ** (0.1e1 / 0.3e1)
t39 = t38 ** 2
t40 = 0.1e1 / t39
t41 = t40 * s0
t42 = r0 ** 2
t43 = r0 ** (0.1e1 / 0.3e1)
t44 = t43 ** 2
t46 = 0.1e1 / t44 / t42
t47 = params_a_alpha * t35
t48 = t41 * t46
t70 = lax_cond(r0 <= p_a_dens_threshold, 0, 0.3e1 / 0.20e2 * t6 * t29 * t31 * (0.1e1 + params_a_kappa * (0.1e1 - params_a_kappa / (params_a_kappa + (params_a_muGE + t36 * t41 * t46 / (0.1e1 + t47 * t48 / 0.24e2) / 0.24e2) * t35 * t48 / 0.24e2))))
t72 = lax_cond(t11, t16, -t18)
t73 = lax_cond(t15, t12, t72)
t74 = 0.1e1 + t73
t76 = t74 ** (0.1e1 / 0.3e1)
t77 = t76 ** 2
t79 = lax_cond(t74 <= p_a_zeta_threshold, t25, t77 * t74)
t81 = t40 * s2
t82 = r1 ** 2
t83 = r1 ** (0.1e1 / 0.3e1)
t84 = t83 ** 2
t86 = 0.1e1 / t84 / t82
t87 = t81 * t86
t109 = lax_cond(r1 <= p_a_dens_threshold, 0, 0.3e1 / 0.20e2 * t6 * t79 * t31 * (0.1e1 + params_a_kappa * (0.1e1 - params_a_kappa / (params_a_kappa + (params_a_muGE + t36 * t81 * t86 / (0.1e1 + t47 * t87 / 0.24e2) / 0.24e2) * t35 * t87 / 0.24e2))))
res = t70 + t109
" unpol "t3 = 3 ** (0.1e1 / 0.3e1)
t4 = t3 ** 2
t5 = math.pi ** (0.1e1 / 0.3e1)
t8 = 0.1e1 <= p_a_zeta_threshold
t9 = p_a_zeta_threshold - 0.1e1
t11 = lax_cond(t8, -t9, 0)
t12 = lax_cond(t8, t9, t11)
t13 = 0.1e1 + t12
t15 = p_a_zeta_threshold ** (0.1e1 / 0.3e1)
t16 = t15 ** 2
t18 = t13 ** (0.1e1 / 0.3e1)
t19 = t18 ** 2
t21 = lax_cond(t13 <= p_a_zeta_threshold, t16 * p_a_zeta_threshold, t19 * t13)
t22 = r0 ** (0.1e1 / 0.3e1)
t23 = t22 ** 2
t27 = 6 ** (0.1e1 / 0.3e1)
t28 = math.pi ** 2
t29 = t28 ** (0.1e1 / 0.3e1)
t30 = t29 ** 2
t31 = 0.1e1 / t30
t34 = 2 ** (0.1e1 / 0.3e1)
t35 = t34 ** 2
t36 = s0 * t35
t37 = r0 ** 2
t39 = 0.1e1 / t23 / t37
t42 = t36 * t39
t65 = lax_cond(r0 / 0.2e1 <= p_a_dens_threshold, 0, 0.3e1 / 0.20e2 * t4 * t5 * math.pi * t21 * t23 * (0.1e1 + params_a_kappa * (0.1e1 - params_a_kappa / (params_a_kappa + (params_a_muGE + (params_a_muPBE - params_a_muGE) * params_a_alpha * t27 * t31 * t36 * t39 / (0.1e1 + params_a_alpha * t27 * t31 * t42 / 0.24e2) / 0.24e2) * t27 * t31 * t42 / 0.24e2))))
res = 0.2e1 * t65
"

/- gen_repo/impl/prebuilt/pol/gga_k_dk.py and gen_repo/impl/prebuilt/unpol/gga_k_dk.py -/
formula gga_k_dk pol "t2 = 3 ** (0.1e1 / 0.3e1)
t3 = t2 ** 2
t4 = math.pi ** (0.1e1 / 0.3e1)
t6 = t3 * t4 * math.pi
t7 = r0 + r1
t8 = 0.1e1 / t7
t11 = 0.2e1 * r0 * t8 <= p_a_zeta_threshold
t12 = p_a_zeta_threshold - 0.1e1
t15 = 0.2e1 * r1 * t8 <= p_a_zeta_threshold
t16 = -t12
t18 = (r0 - r1) * t8
t19 = lax_cond(t15, t16, t18)
t20 = lax_cond(t11, t12, t19)
t21 = 0.1e1 + t20
t23 = p_a_zeta_threshold ** (0.1e1 / 0.3e1)
t24 = t23 ** 2
t25 = t24 * p_a_zeta_threshold
t26 = t21 ** (0.1e1 / 0.3e1)
t27 = t26 ** 2
t29 = lax_cond(t21 <= p_a_zeta_threshold, t25, t27 * t21)
t31 = t7 ** (0.1e1 / 0.3e1)
t32 = t31 ** 2
t33 = params_a_aa[0]
t34 = params_a_aa[1]
t36 = r0 ** 2
t37 = r0 ** (0.1e1 / 0.3e1)
t38 = t37 ** 2
t40 = 0.1e1 / t38 / t36
t42 = params_a_aa[2]
t43 = s0 ** 2
t45 = t36 ** 2
t48 = 0.1e1 / t37 / t45 / r0
t50 = params_a_aa[3]
t51 = t43 * s0
t53 = t45 ** 2
t54 = 0.1e1 / t53
t56 = params_a_aa[4]
t57 = t43 ** 2
t61 = 0.1e1 / t38 / t53 / t36
t65 = params_a_bb[0]
t66 = params_a_bb[1]
t69 = params_a_bb[2]
t72 = params_a_bb[3]
t75 = params_a_bb[4]
t83 = lax_cond(r0 <= p_a_dens_threshold, 0, 0.3e1 / 0.20e2 * t6 * t29 * t32 * (t34 * s0 * t40 + t42 * t43 * t48 + t50 * t51 * t54 + t56 * t57 * t61 + t33) / (t66 * s0 * t40 + t69 * t43 * t48 + t72 * t51 * t54 + t75 * t57 * t61 + t65))
t85 = lax_cond(t11, t16, -t18)
t86 = lax_cond(t15, t12, t85)
t87 = 0.1e1 + t86
t89 = t87 ** (0.1e1 / 0.3e1)
t90 = t89 ** 2
t92 = lax_cond(t87 <= p_a_zeta_threshold, t25, t90 * t87)
t95 = r1 ** 2
t96 = r1 ** (0.1e1 / 0.3e1)
t97 = t96 ** 2
t99 = 0.1e1 / t97 / t95
t101 = s2 ** 2
t103 = t95 ** 2
t106 = 0.1e1 / t96 / t103 / r1
t108 = t101 * s2
t110 = t103 ** 2
t111 = 0.1e1 / t110
t113 = t101 ** 2
t117 = 0.1e1 / t97 / t110 / t95
t134 = lax_cond(r1 <= p_a_dens_threshold, 0, 0.3e1 / 0.20e2 * t6 * t92 * t32 * (t34 * s2 * t99 + t42 * t101 * t106 + t50 * t108 * t111 + t56 * t113 * t117 + t33) / (t66 * s2 * t99 + t69 * t101 * t106 + t72 * t108 * t111 + t75 * t113 * t117 + t65))
res = t83 + t134
" unpol "t3 = 3 ** (0.1e1 / 0.3e1)
t4 = t3 ** 2
t5 = math.pi ** (0.1e1 / 0.3e1)
t8 = 0.1e1 <= p_a_zeta_threshold
t9 = p_a_zeta_threshold - 0.1e1
t11 = lax_cond(t8, -t9, 0)
t12 = lax_cond(t8, t9, t11)
t13 = 0.1e1 + t12
t15 = p_a_zeta_threshold ** (0.1e1 / 0.3e1)
t16 = t15 ** 2
t18 = t13 ** (0.1e1 / 0.3e1)
t19 = t18 ** 2
t21 = lax_cond(t13 <= p_a_zeta_threshold, t16 * p_a_zeta_threshold, t19 * t13)
t23 = r0 ** (0.1e1 / 0.3e1)
t24 = t23 ** 2
t28 = 2 ** (0.1e1 / 0.3e1)
t29 = t28 ** 2
t30 = r0 ** 2
t33 = t29 / t24 / t30
t36 = s0 ** 2
t38 = t30 ** 2
t42 = t28 / t23 / t38 / r0
t46 = t36 * s0
t48 = t38 ** 2
t49 = 0.1e1 / t48
t53 = t36 ** 2
t58 = t29 / t24 / t48 / t30
t84 = lax_cond(r0 / 0.2e1 <= p_a_dens_threshold, 0, 0.3e1 / 0.20e2 * t4 * t5 * math.pi * t21 * t24 * (params_a_aa[1] * s0 * t33 + 0.2e1 * params_a_aa[2] * t36 * t42 + 0.4e1 * params_a_aa[3] * t46 * t49 + 0.4e1 * params_a_aa[4] * t53 * t58 + params_a_aa[0]) / (params_a_bb[1] * s0 * t33 + 0.2e1 * params_a_bb[2] * t36 * t42 + 0.4e1 * params_a_bb[3] * t46 * t49 + 0.4e1 * params_a_bb[4] * t53 * t58 + params_a_bb[0]))
res = 0.2e1 * t84
"

/- gen_repo/impl/prebuilt/pol/gga_k_exp4.py and gen_repo/impl/prebuilt/unpol/gga_k_exp4.py -/
formula gga_k_exp4 pol "t2 = 3 ** (0.1e1 / 0.3e1)
t3 = t2 ** 2
t4 = math.pi ** (0.1e1 / 0.3e1)
t6 = t3 * t4 * math.pi
t7 = r0 + r1
t8 = 0.1e1 / t7
t11 = 0.2e1 * r0 * t8 <= p_a_zeta_threshold
t12 = p_a_zeta_threshold - 0.1e1
t15 = 0.2e1 * r1 * t8 <= p_a_zeta_threshold
t16 = -t12
t18 = (r0 - r1) * t8
t19 = lax_cond(t15, t16, t18)
t20 = lax_cond(t11, t12, t19)
t21 = 0.1e1 + t20
t23 = p_a_zeta_threshold ** (0.1e1 / 0.3e1)
t24 = t23 ** 2
t25 = t24 * p_a_zeta_threshold
t26 = t21 ** (0.1e1 / 0.3e1)
t27 = t26 ** 2
t29 = lax_cond(t21 <= p_a_zeta_threshold, t25, t27 * t21)
t30 = t7 ** (0.1e1 / 0.3e1)
t31 = t30 ** 2
t33 = 6 ** (0.1e1 / 0.3e1)
t34 = math.pi ** 2
t35 = t34 ** (0.1e1 / 0.3e1)
t36 = t35 ** 2
t38 = t33 / t36
t39 = r0 ** 2
t40 = r0 ** (0.1e1 / 0.3e1)
t41 = t40 ** 2
t47 = math.exp(-0.83254166666666666664e1 * t38 * s0 / t41 / t39)
t49 = t33 ** 2
t52 = t49 / t35 / t34
t53 = s0 ** 2
t54 = t39 ** 2
t61 = math.exp(-0.75479166666666666666e-2 * t52 * t53 / t40 / t54 / r0)
t67 = lax_cond(r0 <= p_a_dens_threshold, 0, 0.3e1 / 0.20e2 * t6 * t29 * t31 * (0.20788e1 - 0.8524e0 * t47 - 0.12264e1 * t61))
t69 = lax_cond(t11, t16, -t18)
t70 = lax_cond(t15, t12, t69)
t71 = 0.1e1 + t70
t73 = t71 ** (0.1e1 / 0.3e1)
t74 = t73 ** 2
t76 = lax_cond(t71 <= p_a_zeta_threshold, t25, t74 * t71)
t78 = r1 ** 2
t79 = r1 ** (0.1e1 / 0.3e1)
t80 = t79 ** 2
t86 = math.exp(-0.83254166666666666664e1 * t38 * s2 / t80 / t78)
t88 = s2 ** 2
t89 = t78 ** 2
t96 = math.exp(-0.75479166666666666666e-2 * t52 * t88 / t79 / t89 / r1)
t102 = lax_cond(r1 <= p_a_dens_threshold, 0, 0.3e1 / 0.20e2 * t6 * t76 * t31 * (0.20788e1 - 0.8524e0 * t86 - 0.12264e1 * t96))
res = t67 + t102
" unpol "t3 = 3 ** (0.1e1 / 0.3e1)
t4 = t3 ** 2
t5 = math.pi ** (0.1e1 / 0.3e1)
t8 = 0.1e1 <= p_a_zeta_threshold
t9 = p_a_zeta_threshold - 0.1e1
t11 = lax_cond(t8, -t9, 0)
t12 = lax_cond(t8, t9, t11)
t13 = 0.1e1 + t12
t15 = p_a_zeta_threshold ** (0.1e1 / 0.3e1)
t16 = t15 ** 2
t18 = t13 ** (0.1e1 / 0.3e1)
t19 = t18 ** 2
t21 = lax_cond(t13 <= p_a_zeta_threshold, t16 * p_a_zeta_threshold, t19 * t13)
t22 = r0 ** (0.1e1 / 0.3e1)
t23 = t22 ** 2
t25 = 6 ** (0.1e1 / 0.3e1)
t26 = math.pi ** 2
t27 = t26 ** (0.1e1 / 0.3e1)
t28 = t27 ** 2
t31 = 2 ** (0.1e1 / 0.3e1)
t32 = t31 ** 2
t34 = r0 ** 2
t40 = math.exp(-0.83254166666666666664e1 * t25 / t28 * s0 * t32 / t23 / t34)
t42 = t25 ** 2
t46 = s0 ** 2
t48 = t34 ** 2
t55 = math.exp(-0.15095833333333333333e-1 * t42 / t27 / t26 * t46 * t31 / t22 / t48 / r0)
t61 = lax_cond(r0 / 0.2e1 <= p_a_dens_threshold, 0, 0.3e1 / 0.20e2 * t4 * t5 * math.pi * t21 * t23 * (0.20788e1 - 0.8524e0 * t40 - 0.12264e1 * t55))
res = 0.2e1 * t61
"

/- gen_repo/impl/prebuilt/pol/gga_k_lc94.py and gen_repo/impl/prebuilt/unpol/gga_k_lc94.py -/
formula gga_k_lc94 pol "t2 = 3 ** (0.1e1 / 0.3e1)
t3 = t2 ** 2
t4 = math.pi ** (0.1e1 / 0.3e1)
t6 = t3 * t4 * math.pi
t7 = r0 + r1
t8 = 0.1e1 / t7
t11 = 0.2e1 * r0 * t8 <= p_a_zeta_threshold
t12 = p_a_zeta_threshold - 0.1e1
t15 = 0.2e1 * r1 * t8 <= p_a_zeta_threshold
t16 = -t12
t18 = (r0 - r1) * t8
t19 = lax_cond(t15, t16, t18)
t20 = lax_cond(t11, t12, t19)
t21 = 0.1e1 + t20
t23 = p_a_zeta_threshold ** (0.1e1 / 0.3e1)
t24 = t23 ** 2
t25 = t24 * p_a_zeta_threshold
t26 = t21 ** (0.1e1 / 0.3e1)
t27 = t26 ** 2
t29 = lax_cond(t21 <= p_a_zeta_threshold, t25, t27 * t21)
t30 = t7 ** (0.1e1 / 0.3e1)
t31 = t30 ** 2
t33 = 6 ** (0.1e1 / 0.3e1)
t34 = params_a_alpha * t33
t35 = math.pi ** 2
t36 = t35 ** (0.1e1 / 0.3e1)
t37 = t36 ** 2
t38 = 0.1e1 / t37
t40 = r0 ** 2
t41 = r0 ** (0.1e1 / 0.3e1)
t42 = t41 ** 2
t45 = t38 * s0 / t42 / t40
t48 = math.exp(-t34 * t45 / 0.24e2)
t54 = t33 ** 2
t55 = 0.1e1 / t36
t56 = t54 * t55
t57 = math.sqrt(s0)
t59 = 0.1e1 / t41 / r0
t63 = (t56 * t57 * t59 / 0.12e2) ** params_a_expo
t64 = params_a_f * t63
t68 = params_a_b * t54
t73 = math.asinh(t68 * t55 * t57 * t59 / 0.12e2)
t84 = lax_cond(r0 <= p_a_dens_threshold, 0, 0.3e1 / 0.20e2 * t6 * t29 * t31 * (0.1e1 + ((params_a_d * t48 + params_a_c) * t33 * t45 / 0.24e2 - t64) / (0.1e1 + t56 * t57 * t59 * params_a_a * t73 / 0.12e2 + t64)))
t86 = lax_cond(t11, t16, -t18)
t87 = lax_cond(t15, t12, t86)
t88 = 0.1e1 + t87
t90 = t88 ** (0.1e1 / 0.3e1)
t91 = t90 ** 2
t93 = lax_cond(t88 <= p_a_zeta_threshold, t25, t91 * t88)
t96 = r1 ** 2
t97 = r1 ** (0.1e1 / 0.3e1)
t98 = t97 ** 2
t101 = t38 * s2 / t98 / t96
t104 = math.exp(-t34 * t101 / 0.24e2)
t110 = math.sqrt(s2)
t112 = 0.1e1 / t97 / r1
t116 = (t56 * t110 * t112 / 0.12e2) ** params_a_expo
t117 = params_a_f * t116
t125 = math.asinh(t68 * t55 * t110 * t112 / 0.12e2)
t136 = lax_cond(r1 <= p_a_dens_threshold, 0, 0.3e1 / 0.20e2 * t6 * t93 * t31 * (0.1e1 + ((params_a_d * t104 + params_a_c) * t33 * t101 / 0.24e2 - t117) / (0.1e1 + t56 * t110 * t112 * params_a_a * t125 / 0.12e2 + t117)))
res = t84 + t136
" unpol "t3 = 3 ** (0.1e1 / 0.3e1)
t4 = t3 ** 2
t5 = math.pi ** (0.1e1 / 0.3e1)
t8 = 0.1e1 <= p_a_zeta_threshold
t9 = p_a_zeta_threshold - 0.1e1
t11 = lax_cond(t8, -t9, 0)
t12 = lax_cond(t8, t9, t11)
t13 = 0.1e1 + t12
t15 = p_a_zeta_threshold ** (0.1e1 / 0.3e1)
t16 = t15 ** 2
t18 = t13 ** (0.1e1 / 0.3e1)
t19 = t18 ** 2
t21 = lax_cond(t13 <= p_a_zeta_threshold, t16 * p_a_zeta_threshold, t19 * t13)
t22 = r0 ** (0.1e1 / 0.3e1)
t23 = t22 ** 2
t25 = 6 ** (0.1e1 / 0.3e1)
t27 = math.pi ** 2
t28 = t27 ** (0.1e1 / 0.3e1)
t29 = t28 ** 2
t30 = 0.1e1 / t29
t32 = 2 ** (0.1e1 / 0.3e1)
t33 = t32 ** 2
t35 = r0 ** 2
t38 = s0 * t33 / t23 / t35
t41 = math.exp(-params_a_alpha * t25 * t30 * t38 / 0.24e2)
t48 = t25 ** 2
t49 = 0.1e1 / t28
t50 = t48 * t49
t51 = math.sqrt(s0)
t54 = 0.1e1 / t22 / r0
t55 = t51 * t32 * t54
t58 = (t50 * t55 / 0.12e2) ** params_a_expo
t59 = params_a_f * t58
t67 = math.asinh(params_a_b * t48 * t49 * t55 / 0.12e2)
t79 = lax_cond(r0 / 0.2e1 <= p_a_dens_threshold, 0, 0.3e1 / 0.20e2 * t4 * t5 * math.pi * t21 * t23 * (0.1e1 + ((params_a_d * t41 + params_a_c) * t25 * t30 * t38 / 0.24e2 - t59) / (0.1e1 + t50 * t51 * t32 * t54 * params_a_a * t67 / 0.12e2 + t59)))
res = 0.2e1 * t79
"

/- gen_repo/impl/prebuilt/pol/gga_k_lgap.py and gen_repo/impl/prebuilt/unpol/gga_k_lgap.py -/
formula gga_k_lgap pol "t2 = 3 ** (0.1e1 / 0.3e1)
t3 = t2 ** 2
t4 = math.pi ** (0.1e1 / 0.3e1)
t6 = t3 * t4 * math.pi
t7 = r0 + r1
t8 = 0.1e1 / t7
t11 = 0.2e1 * r0 * t8 <= p_a_zeta_threshold
t12 = p_a_zeta_threshold - 0.1e1
t15 = 0.2e1 * r1 * t8 <= p_a_zeta_threshold
t16 = -t12
t18 = (r0 - r1) * t8
t19 = lax_cond(t15, t16, t18)
t20 = lax_cond(t11, t12, t19)
t21 = 0.1e1 + t20
t23 = p_a_zeta_threshold ** (0.1e1 / 0.3e1)
t24 = t23 ** 2
t25 = t24 * p_a_zeta_threshold
t26 = t21 ** (0.1e1 / 0.3e1)
t27 = t26 ** 2
t29 = lax_cond(t21 <= p_a_zeta_threshold, t25, t27 * t21)
t30 = t7 ** (0.1e1 / 0.3e1)
t31 = t30 ** 2
t34 = 6 ** (0.1e1 / 0.3e1)
t35 = t34 ** 2
t36 = params_a_mu[0] * t35
t37 = math.pi ** 2
t38 = t37 ** (0.1e1 / 0.3e1)
t39 = 0.1e1 / t38
t40 = math.sqrt(s0)
t42 = r0 ** (0.1e1 / 0.3e1)
t49 = params_a_mu[1] * t34
t50 = t38 ** 2
t51 = 0.1e1 / t50
t53 = r0 ** 2
t54 = t42 ** 2
t62 = params_a_mu[2] / t37
t64 = t53 ** 2
t70 = math.exp(-t36 * t39 * t40 / t42 / r0 / 0.12e2 - t49 * t51 * s0 / t54 / t53 / 0.24e2 - t62 * t40 * s0 / t64 / 0.48e2)
t77 = lax_cond(r0 <= p_a_dens_threshold, 0, 0.3e1 / 0.20e2 * t6 * t29 * t31 * (0.1e1 + params_a_kappa * (0.1e1 - t70)))
t79 = lax_cond(t11, t16, -t18)
t80 = lax_cond(t15, t12, t79)
t81 = 0.1e1 + t80
t83 = t81 ** (0.1e1 / 0.3e1)
t84 = t83 ** 2
t86 = lax_cond(t81 <= p_a_zeta_threshold, t25, t84 * t81)
t88 = math.sqrt(s2)
t90 = r1 ** (0.1e1 / 0.3e1)
t97 = r1 ** 2
t98 = t90 ** 2
t105 = t97 ** 2
t111 = math.exp(-t36 * t39 * t88 / t90 / r1 / 0.12e2 - t49 * t51 * s2 / t98 / t97 / 0.24e2 - t62 * t88 * s2 / t105 / 0.48e2)
t118 = lax_cond(r1 <= p_a_dens_threshold, 0, 0.3e1 / 0.20e2 * t6 * t86 * t31 * (0.1e1 + params_a_kappa * (0.1e1 - t111)))
res = t77 + t118
" unpol "t3 = 3 ** (0.1e1 / 0.3e1)
t4 = t3 ** 2
t5 = math.pi ** (0.1e1 / 0.3e1)
t8 = 0.1e1 <= p_a_zeta_threshold
t9 = p_a_zeta_threshold - 0.1e1
t11 = lax_cond(t8, -t9, 0)
t12 = lax_cond(t8, t9, t11)
t13 = 0.1e1 + t12
t15 = p_a_zeta_threshold ** (0.1e1 / 0.3e1)
t16 = t15 ** 2
t18 = t13 ** (0.1e1 / 0.3e1)
t19 = t18 ** 2
t21 = lax_cond(t13 <= p_a_zeta_threshold, t16 * p_a_zeta_threshold, t19 * t13)
t22 = r0 ** (0.1e1 / 0.3e1)
t23 = t22 ** 2
t26 = 6 ** (0.1e1 / 0.3e1)
t27 = t26 ** 2
t29 = math.pi ** 2
t30 = t29 ** (0.1e1 / 0.3e1)
t33 = math.sqrt(s0)
t34 = 2 ** (0.1e1 / 0.3e1)
t43 = t30 ** 2
t46 = t34 ** 2
t48 = r0 ** 2
t58 = t48 ** 2
t64 = math.exp(-params_a_mu[0] * t27 / t30 * t33 * t34 / t22 / r0 / 0.12e2 - params_a_mu[1] * t26 / t43 * s0 * t46 / t23 / t48 / 0.24e2 - params_a_mu[2] / t29 * t33 * s0 / t58 / 0.24e2)
t71 = lax_cond(r0 / 0.2e1 <= p_a_dens_threshold, 0, 0.3e1 / 0.20e2 * t4 * t5 * math.pi * t21 * t23 * (0.1e1 + params_a_kappa * (0.1e1 - t64)))
res = 0.2e1 * t71
"

/- gen_repo/impl/prebuilt/pol/gga_k_lgap_ge.py and gen_repo/impl/prebuilt/unpol/gga_k_lgap_ge.py -/
formula gga_k_lgap_ge pol "t2 = 3 ** (0.1e1 / 0.3e1)
t3 = t2 ** 2
t4 = math.pi ** (0.1e1 / 0.3e1)
t6 = t3 * t4 * math.pi
t7 = r0 + r1
t8 = 0.1e1 / t7
t11 = 0.2e1 * r0 * t8 <= p_a_zeta_threshold
t12 = p_a_zeta_threshold - 0.1e1
t15 = 0.2e1 * r1 * t8 <= p_a_zeta_threshold
t16 = -t12
t18 = (r0 - r1) * t8
t19 = lax_cond(t15, t16, t18)
t20 = lax_cond(t11, t12, t19)
t21 = 0.1e1 + t20
t23 = p_a_zeta_threshold ** (0.1e1 / 0.3e1)
t24 = t23 ** 2
t25 = t24 * p_a_zeta_threshold
t26 = t21 ** (0.1e1 / 0.3e1)
t27 = t26 ** 2
t29 = lax_cond(t21 <= p_a_zeta_threshold, t25, t27 * t21)
t30 = t7 ** (0.1e1 / 0.3e1)
t31 = t30 ** 2
t34 = 6 ** (0.1e1 / 0.3e1)
t35 = t34 ** 2
t36 = params_a_mu[0] * t35
t37 = math.pi ** 2
t38 = t37 ** (0.1e1 / 0.3e1)
t39 = 0.1e1 / t38
t40 = math.sqrt(s0)
t42 = r0 ** (0.1e1 / 0.3e1)
t49 = params_a_mu[1] * t34
t50 = t38 ** 2
t51 = 0.1e1 / t50
t53 = r0 ** 2
t54 = t42 ** 2
t62 = params_a_mu[2] / t37
t64 = t53 ** 2
t73 = lax_cond(r0 <= p_a_dens_threshold, 0, 0.3e1 / 0.20e2 * t6 * t29 * t31 * (0.1e1 + t36 * t39 * t40 / t42 / r0 / 0.12e2 + t49 * t51 * s0 / t54 / t53 / 0.24e2 + t62 * t40 * s0 / t64 / 0.48e2))
t75 = lax_cond(t11, t16, -t18)
t76 = lax_cond(t15, t12, t75)
t77 = 0.1e1 + t76
t79 = t77 ** (0.1e1 / 0.3e1)
t80 = t79 ** 2
t82 = lax_cond(t77 <= p_a_zeta_threshold, t25, t80 * t77)
t84 = math.sqrt(s2)
t86 = r1 ** (0.1e1 / 0.3e1)
t93 = r1 ** 2
t94 = t86 ** 2
t101 = t93 ** 2
t110 = lax_cond(r1 <= p_a_dens_threshold, 0, 0.3e1 / 0.20e2 * t6 * t82 * t31 * (0.1e1 + t36 * t39 * t84 / t86 / r1 / 0.12e2 + t49 * t51 * s2 / t94 / t93 / 0.24e2 + t62 * t84 * s2 / t101 / 0.48e2))
res = t73 + t110
" unpol "t3 = 3 ** (0.1e1 / 0.3e1)
t4 = t3 ** 2
t5 = math.pi ** (0.1e1 / 0.3e1)
t8 = 0.1e1 <= p_a_zeta_threshold
t9 = p_a_zeta_threshold - 0.1e1
t11 = lax_cond(t8, -t9, 0)
t12 = lax_cond(t8, t9, t11)
t13 = 0.1e1 + t12
t15 = p_a_zeta_threshold ** (0.1e1 / 0.3e1)
t16 = t15 ** 2
t18 = t13 ** (0.1e1 / 0.3e1)
t19 = t18 ** 2
t21 = lax_cond(t13 <= p_a_zeta_threshold, t16 * p_a_zeta_threshold, t19 * t13)
t22 = r0 ** (0.1e1 / 0.3e1)
t23 = t22 ** 2
t26 = 6 ** (0.1e1 / 0.3e1)
t27 = t26 ** 2
t29 = math.pi ** 2
t30 = t29 ** (0.1e1 / 0.3e1)
t33 = math.sqrt(s0)
t34 = 2 ** (0.1e1 / 0.3e1)
t43 = t30 ** 2
t46 = t34 ** 2
t48 = r0 ** 2
t58 = t48 ** 2
t67 = lax_cond(r0 / 0.2e1 <= p_a_dens_threshold, 0, 0.3e1 / 0.20e2 * t4 * t5 * math.pi * t21 * t23 * (0.1e1 + params_a_mu[0] * t27 / t30 * t33 * t34 / t22 / r0 / 0.12e2 + params_a_mu[1] * t26 / t43 * s0 * t46 / t23 / t48 / 0.24e2 + params_a_mu[2] / t29 * t33 * s0 / t58 / 0.24e2))
res = 0.2e1 * t67
"

/- gen_repo/impl/prebuilt/pol/gga_k_lkt.py and gen_repo/impl/prebuilt/unpol/gga_k_lkt.py -/
formula gga_k_lkt pol "t2 = 3 ** (0.1e1 / 0.3e1)
t3 = t2 ** 2
t4 = math.pi ** (0.1e1 / 0.3e1)
t6 = t3 * t4 * math.pi
t7 = r0 + r1
t8 = 0.1e1 / t7
t11 = 0.2e1 * r0 * t8 <= p_a_zeta_threshold
t12 = p_a_zeta_threshold - 0.1e1
t15 = 0.2e1 * r1 * t8 <= p_a_zeta_threshold
t16 = -t12
t18 = (r0 - r1) * t8
t19 = lax_cond(t15, t16, t18)
t20 = lax_cond(t11, t12, t19)
t21 = 0.1e1 + t20
t23 = p_a_zeta_threshold ** (0.1e1 / 0.3e1)
t24 = t23 ** 2
t25 = t24 * p_a_zeta_threshold
t26 = t21 ** (0.1e1 / 0.3e1)
t27 = t26 ** 2
t29 = lax_cond(t21 <= p_a_zeta_threshold, t25, t27 * t21)
t30 = t7 ** (0.1e1 / 0.3e1)
t31 = t30 ** 2
t33 = 6 ** (0.1e1 / 0.3e1)
t34 = t33 ** 2
t35 = math.pi ** 2
t36 = t35 ** (0.1e1 / 0.3e1)
t38 = t34 / t36
t39 = math.sqrt(s0)
t40 = r0 ** (0.1e1 / 0.3e1)
t45 = t38 * t39 / t40 / r0 / 0.12e2
t47 = lax_cond(t45 < 0.200e3, t45, 200)
t49 = math.cosh(params_a_a * t47)
t51 = t36 ** 2
t53 = t33 / t51
t54 = r0 ** 2
t55 = t40 ** 2
t65 = lax_cond(r0 <= p_a_dens_threshold, 0, 0.3e1 / 0.20e2 * t6 * t29 * t31 * (0.1e1 / t49 + 0.5e1 / 0.72e2 * t53 * s0 / t55 / t54))
t67 = lax_cond(t11, t16, -t18)
t68 = lax_cond(t15, t12, t67)
t69 = 0.1e1 + t68
t71 = t69 ** (0.1e1 / 0.3e1)
t72 = t71 ** 2
t74 = lax_cond(t69 <= p_a_zeta_threshold, t25, t72 * t69)
t76 = math.sqrt(s2)
t77 = r1 ** (0.1e1 / 0.3e1)
t82 = t38 * t76 / t77 / r1 / 0.12e2
t84 = lax_cond(t82 < 0.200e3, t82, 200)
t86 = math.cosh(params_a_a * t84)
t88 = r1 ** 2
t89 = t77 ** 2
t99 = lax_cond(r1 <= p_a_dens_threshold, 0, 0.3e1 / 0.20e2 * t6 * t74 * t31 * (0.1e1 / t86 + 0.5e1 / 0.72e2 * t53 * s2 / t89 / t88))
res = t65 + t99
" unpol "t3 = 3 ** (0.1e1 / 0.3e1)
t4 = t3 ** 2
t5 = math.pi ** (0.1e1 / 0.3e1)
t8 = 0.1e1 <= p_a_zeta_threshold
t9 = p_a_zeta_threshold - 0.1e1
t11 = lax_cond(t8, -t9, 0)
t12 = lax_cond(t8, t9, t11)
t13 = 0.1e1 + t12
t15 = p_a_zeta_threshold ** (0.1e1 / 0.3e1)
t16 = t15 ** 2
t18 = t13 ** (0.1e1 / 0.3e1)
t19 = t18 ** 2
t21 = lax_cond(t13 <= p_a_zeta_threshold, t16 * p_a_zeta_threshold, t19 * t13)
t22 = r0 ** (0.1e1 / 0.3e1)
t23 = t22 ** 2
t25 = 6 ** (0.1e1 / 0.3e1)
t26 = t25 ** 2
t27 = math.pi ** 2
t28 = t27 ** (0.1e1 / 0.3e1)
t31 = math.sqrt(s0)
t32 = 2 ** (0.1e1 / 0.3e1)
t38 = t26 / t28 * t31 * t32 / t22 / r0 / 0.12e2
t40 = lax_cond(t38 < 0.200e3, t38, 200)
t42 = math.cosh(params_a_a * t40)
t44 = t28 ** 2
t47 = t32 ** 2
t49 = r0 ** 2
t59 = lax_cond(r0 / 0.2e1 <= p_a_dens_threshold, 0, 0.3e1 / 0.20e2 * t4 * t5 * math.pi * t21 * t23 * (0.1e1 / t42 + 0.5e1 / 0.72e2 * t25 / t44 * s0 * t47 / t23 / t49))
res = 0.2e1 * t59
"

/- gen_repo/impl/prebuilt/pol/gga_k_llp.py and gen_repo/impl/prebuilt/unpol/gga_k_llp.py -/
formula gga_k_llp pol "t2 = 3 ** (0.1e1 / 0.3e1)
t3 = t2 ** 2
t4 = math.pi ** (0.1e1 / 0.3e1)
t6 = t3 * t4 * math.pi
t7 = r0 + r1
t8 = 0.1e1 / t7
t11 = 0.2e1 * r0 * t8 <= p_a_zeta_threshold
t12 = p_a_zeta_threshold - 0.1e1
t15 = 0.2e1 * r1 * t8 <= p_a_zeta_threshold
t16 = -t12
t18 = (r0 - r1) * t8
t19 = lax_cond(t15, t16, t18)
t20 = lax_cond(t11, t12, t19)
t21 = 0.1e1 + t20
t23 = p_a_zeta_threshold ** (0.1e1 / 0.3e1)
t24 = t23 ** 2
t25 = t24 * p_a_zeta_threshold
t26 = t21 ** (0.1e1 / 0.3e1)
t27 = t26 ** 2
t29 = lax_cond(t21 <= p_a_zeta_threshold, t25, t27 * t21)
t30 = t7 ** (0.1e1 / 0.3e1)
t31 = t30 ** 2
t35 = (0.1e1 / math.pi) ** (0.1e1 / 0.3e1)
t37 = params_a_beta * t3 / t35
t38 = 4 ** (0.1e1 / 0.3e1)
t40 = r0 ** 2
t41 = r0 ** (0.1e1 / 0.3e1)
t42 = t41 ** 2
t45 = params_a_gamma * params_a_beta
t46 = math.sqrt(s0)
t49 = t46 / t41 / r0
t50 = math.asinh(t49)
t63 = lax_cond(r0 <= p_a_dens_threshold, 0, 0.3e1 / 0.20e2 * t6 * t29 * t31 * (0.10e1 + 0.2e1 / 0.9e1 * t37 * t38 * s0 / t42 / t40 / (0.10e1 + t45 * t49 * t50)))
t65 = lax_cond(t11, t16, -t18)
t66 = lax_cond(t15, t12, t65)
t67 = 0.1e1 + t66
t69 = t67 ** (0.1e1 / 0.3e1)
t70 = t69 ** 2
t72 = lax_cond(t67 <= p_a_zeta_threshold, t25, t70 * t67)
t75 = r1 ** 2
t76 = r1 ** (0.1e1 / 0.3e1)
t77 = t76 ** 2
t80 = math.sqrt(s2)
t83 = t80 / t76 / r1
t84 = math.asinh(t83)
t97 = lax_cond(r1 <= p_a_dens_threshold, 0, 0.3e1 / 0.20e2 * t6 * t72 * t31 * (0.10e1 + 0.2e1 / 0.9e1 * t37 * t38 * s2 / t77 / t75 / (0.10e1 + t45 * t83 * t84)))
res = t63 + t97
" unpol "t3 = 3 ** (0.1e1 / 0.3e1)
t4 = t3 ** 2
t5 = math.pi ** (0.1e1 / 0.3e1)
t8 = 0.1e1 <= p_a_zeta_threshold
t9 = p_a_zeta_threshold - 0.1e1
t11 = lax_cond(t8, -t9, 0)
t12 = lax_cond(t8, t9, t11)
t13 = 0.1e1 + t12
t15 = p_a_zeta_threshold ** (0.1e1 / 0.3e1)
t16 = t15 ** 2
t18 = t13 ** (0.1e1 / 0.3e1)
t19 = t18 ** 2
t21 = lax_cond(t13 <= p_a_zeta_threshold, t16 * p_a_zeta_threshold, t19 * t13)
t22 = r0 ** (0.1e1 / 0.3e1)
t23 = t22 ** 2
t27 = (0.1e1 / math.pi) ** (0.1e1 / 0.3e1)
t29 = 4 ** (0.1e1 / 0.3e1)
t32 = 2 ** (0.1e1 / 0.3e1)
t33 = t32 ** 2
t35 = r0 ** 2
t39 = math.sqrt(s0)
t42 = 0.1e1 / t22 / r0
t46 = math.asinh(t39 * t32 * t42)
t59 = lax_cond(r0 / 0.2e1 <= p_a_dens_threshold, 0, 0.3e1 / 0.20e2 * t4 * t5 * math.pi * t21 * t23 * (0.10e1 + 0.2e1 / 0.9e1 * params_a_beta * t4 / t27 * t29 * s0 * t33 / t23 / t35 / (0.10e1 + params_a_gamma * params_a_beta * t39 * t32 * t42 * t46)))
res = 0.2e1 * t59
"

/- gen_repo/impl/prebuilt/pol/gga_k_meyer.py and gen_repo/impl/prebuilt/unpol/gga_k_meyer.py -/
formula gga_k_meyer pol "t2 = 3 ** (0.1e1 / 0.3e1)
t3 = t2 ** 2
t4 = math.pi ** (0.1e1 / 0.3e1)
t6 = t3 * t4 * math.pi
t7 = r0 + r1
t8 = 0.1e1 / t7
t11 = 0.2e1 * r0 * t8 <= p_a_zeta_threshold
t12 = p_a_zeta_threshold - 0.1e1
t15 = 0.2e1 * r1 * t8 <= p_a_zeta_threshold
t16 = -t12
t18 = (r0 - r1) * t8
t19 = lax_cond(t15, t16, t18)
t20 = lax_cond(t11, t12, t19)
t21 = 0.1e1 + t20
t23 = p_a_zeta_threshold ** (0.1e1 / 0.3e1)
t24 = t23 ** 2
t25 = t24 * p_a_zeta_threshold
t26 = t21 ** (0.1e1 / 0.3e1)
t27 = t26 ** 2
t29 = lax_cond(t21 <= p_a_zeta_threshold, t25, t27 * t21)
t30 = t7 ** (0.1e1 / 0.3e1)
t31 = t30 ** 2
t33 = 6 ** (0.1e1 / 0.3e1)
t34 = math.pi ** 2
t35 = t34 ** (0.1e1 / 0.3e1)
t36 = t35 ** 2
t38 = t33 / t36
t39 = r0 ** 2
t40 = r0 ** (0.1e1 / 0.3e1)
t41 = t40 ** 2
t48 = t33 ** 2
t50 = t48 / t35
t51 = math.sqrt(s0)
t52 = t40 * r0
t56 = t50 * t51 / t52 / 0.72e2
t59 = abs(0.1e1 - t56)
t62 = math.log((0.1e1 + t56) / t59)
t69 = 0.3e1 * (0.1e1 - t38 * s0 / t41 / t39 / 0.864e3) * t62 * t33 * t35 / t51 * t52
t79 = lax_cond(r0 <= p_a_dens_threshold, 0, 0.3e1 / 0.20e2 * t6 * t29 * t31 * (0.1e1 + 0.20e2 * (0.1e1 / 0.2e1 - t69) / (0.1e1 / 0.2e1 + t69)))
t81 = lax_cond(t11, t16, -t18)
t82 = lax_cond(t15, t12, t81)
t83 = 0.1e1 + t82
t85 = t83 ** (0.1e1 / 0.3e1)
t86 = t85 ** 2
t88 = lax_cond(t83 <= p_a_zeta_threshold, t25, t86 * t83)
t90 = r1 ** 2
t91 = r1 ** (0.1e1 / 0.3e1)
t92 = t91 ** 2
t99 = math.sqrt(s2)
t100 = t91 * r1
t104 = t50 * t99 / t100 / 0.72e2
t107 = abs(0.1e1 - t104)
t110 = math.log((0.1e1 + t104) / t107)
t117 = 0.3e1 * (0.1e1 - t38 * s2 / t92 / t90 / 0.864e3) * t110 * t33 * t35 / t99 * t100
t127 = lax_cond(r1 <= p_a_dens_threshold, 0, 0.3e1 / 0.20e2 * t6 * t88 * t31 * (0.1e1 + 0.20e2 * (0.1e1 / 0.2e1 - t117) / (0.1e1 / 0.2e1 + t117)))
res = t79 + t127
" unpol "t3 = 3 ** (0.1e1 / 0.3e1)
t4 = t3 ** 2
t5 = math.pi ** (0.1e1 / 0.3e1)
t8 = 0.1e1 <= p_a_zeta_threshold
t9 = p_a_zeta_threshold - 0.1e1
t11 = lax_cond(t8, -t9, 0)
t12 = lax_cond(t8, t9, t11)
t13 = 0.1e1 + t12
t15 = p_a_zeta_threshold ** (0.1e1 / 0.3e1)
t16 = t15 ** 2
t18 = t13 ** (0.1e1 / 0.3e1)
t19 = t18 ** 2
t21 = lax_cond(t13 <= p_a_zeta_threshold, t16 * p_a_zeta_threshold, t19 * t13)
t22 = r0 ** (0.1e1 / 0.3e1)
t23 = t22 ** 2
t25 = 6 ** (0.1e1 / 0.3e1)
t26 = math.pi ** 2
t27 = t26 ** (0.1e1 / 0.3e1)
t28 = t27 ** 2
t31 = 2 ** (0.1e1 / 0.3e1)
t32 = t31 ** 2
t34 = r0 ** 2
t41 = t25 ** 2
t44 = math.sqrt(s0)
t46 = t22 * r0
t50 = t41 / t27 * t44 * t31 / t46 / 0.72e2
t53 = abs(0.1e1 - t50)
t56 = math.log((0.1e1 + t50) / t53)
t64 = 0.3e1 / 0.2e1 * (0.1e1 - t25 / t28 * s0 * t32 / t23 / t34 / 0.864e3) * t56 * t25 * t27 / t44 * t32 * t46
t74 = lax_cond(r0 / 0.2e1 <= p_a_dens_threshold, 0, 0.3e1 / 0.20e2 * t4 * t5 * math.pi * t21 * t23 * (0.1e1 + 0.20e2 * (0.1e1 / 0.2e1 - t64) / (0.1e1 / 0.2e1 + t64)))
res = 0.2e1 * t74
"

/- gen_repo/impl/prebuilt/pol/gga_k_mpbe.py and gen_repo/impl/prebuilt/unpol/gga_k_mpbe.py -/
formula gga_k_mpbe pol "t2 = 3 ** (0.1e1 / 0.3e1)
t3 = t2 ** 2
t4 = math.pi ** (0.1e1 / 0.3e1)
t6 = t3 * t4 * math.pi
t7 = r0 + r1
t8 = 0.1e1 / t7
t11 = 0.2e1 * r0 * t8 <= p_a_zeta_threshold
t12 = p_a_zeta_threshold - 0.1e1
t15 = 0.2e1 * r1 * t8 <= p_a_zeta_threshold
t16 = -t12
t18 = (r0 - r1) * t8
t19 = lax_cond(t15, t16, t18)
t20 = lax_cond(t11, t12, t19)
t21 = 0.1e1 + t20
t23 = p_a_zeta_threshold ** (0.1e1 / 0.3e1)
t24 = t23 ** 2
t25 = t24 * p_a_zeta_threshold
t26 = t21 ** (0.1e1 / 0.3e1)
t27 = t26 ** 2
t29 = lax_cond(t21 <= p_a_zeta_threshold, t25, t27 * t21)
t30 = t7 ** (0.1e1 / 0.3e1)
t31 = t30 ** 2
t33 = 6 ** (0.1e1 / 0.3e1)
t35 = math.pi ** 2
t36 = t35 ** (0.1e1 / 0.3e1)
t37 = t36 ** 2
t38 = 0.1e1 / t37
t39 = params_a_c1 * t33 * t38
t40 = r0 ** 2
t41 = r0 ** (0.1e1 / 0.3e1)
t42 = t41 ** 2
t44 = 0.1e1 / t42 / t40
t46 = params_a_a * t33
t51 = 0.1e1 + t46 * t38 * s0 * t44 / 0.24e2
t56 = t33 ** 2
t60 = params_a_c2 * t56 / t36 / t35
t61 = s0 ** 2
t62 = t40 ** 2
t67 = t51 ** 2
t72 = t35 ** 2
t74 = params_a_c3 / t72
t76 = t62 ** 2
t88 = lax_cond(r0 <= p_a_dens_threshold, 0, 0.3e1 / 0.20e2 * t6 * t29 * t31 * (0.1e1 + t39 * s0 * t44 / t51 / 0.24e2 + t60 * t61 / t41 / t62 / r0 / t67 / 0.576e3 + t74 * t61 * s0 / t76 / t67 / t51 / 0.2304e4))
t90 = lax_cond(t11, t16, -t18)
t91 = lax_cond(t15, t12, t90)
t92 = 0.1e1 + t91
t94 = t92 ** (0.1e1 / 0.3e1)
t95 = t94 ** 2
t97 = lax_cond(t92 <= p_a_zeta_threshold, t25, t95 * t92)
t99 = r1 ** 2
t100 = r1 ** (0.1e1 / 0.3e1)
t101 = t100 ** 2
t103 = 0.1e1 / t101 / t99
t109 = 0.1e1 + t46 * t38 * s2 * t103 / 0.24e2
t114 = s2 ** 2
t115 = t99 ** 2
t120 = t109 ** 2
t126 = t115 ** 2
t138 = lax_cond(r1 <= p_a_dens_threshold, 0, 0.3e1 / 0.20e2 * t6 * t97 * t31 * (0.1e1 + t39 * s2 * t103 / t109 / 0.24e2 + t60 * t114 / t100 / t115 / r1 / t120 / 0.576e3 + t74 * t114 * s2 / t126 / t120 / t109 / 0.2304e4))
res = t88 + t138
" unpol "t3 = 3 ** (0.1e1 / 0.3e1)
t4 = t3 ** 2
t5 = math.pi ** (0.1e1 / 0.3e1)
t8 = 0.1e1 <= p_a_zeta_threshold
t9 = p_a_zeta_threshold - 0.1e1
t11 = lax_cond(t8, -t9, 0)
t12 = lax_cond(t8, t9, t11)
t13 = 0.1e1 + t12
t15 = p_a_zeta_threshold ** (0.1e1 / 0.3e1)
t16 = t15 ** 2
t18 = t13 ** (0.1e1 / 0.3e1)
t19 = t18 ** 2
t21 = lax_cond(t13 <= p_a_zeta_threshold, t16 * p_a_zeta_threshold, t19 * t13)
t22 = r0 ** (0.1e1 / 0.3e1)
t23 = t22 ** 2
t25 = 6 ** (0.1e1 / 0.3e1)
t27 = math.pi ** 2
t28 = t27 ** (0.1e1 / 0.3e1)
t29 = t28 ** 2
t30 = 0.1e1 / t29
t32 = 2 ** (0.1e1 / 0.3e1)
t33 = t32 ** 2
t34 = s0 * t33
t35 = r0 ** 2
t37 = 0.1e1 / t23 / t35
t43 = 0.1e1 + params_a_a * t25 * t30 * t34 * t37 / 0.24e2
t49 = t25 ** 2
t54 = s0 ** 2
t56 = t35 ** 2
t60 = t43 ** 2
t66 = t27 ** 2
t70 = t56 ** 2
t82 = lax_cond(r0 / 0.2e1 <= p_a_dens_threshold, 0, 0.3e1 / 0.20e2 * t4 * t5 * math.pi * t21 * t23 * (0.1e1 + params_a_c1 * t25 * t30 * t34 * t37 / t43 / 0.24e2 + params_a_c2 * t49 / t28 / t27 * t54 * t32 / t22 / t56 / r0 / t60 / 0.288e3 + params_a_c3 / t66 * t54 * s0 / t70 / t60 / t43 / 0.576e3))
res = 0.2e1 * t82
"

/- gen_repo/impl/prebuilt/pol/gga_k_ol1.py and gen_repo/impl/prebuilt/unpol/gga_k_ol1.py -/
formula gga_k_ol1 pol "t2 = 3 ** (0.1e1 / 0.3e1)
t3 = t2 ** 2
t4 = math.pi ** (0.1e1 / 0.3e1)
t6 = t3 * t4 * math.pi
t7 = r0 + r1
t8 = 0.1e1 / t7
t11 = 0.2e1 * r0 * t8 <= p_a_zeta_threshold
t12 = p_a_zeta_threshold - 0.1e1
t15 = 0.2e1 * r1 * t8 <= p_a_zeta_threshold
t16 = -t12
t18 = (r0 - r1) * t8
t19 = lax_cond(t15, t16, t18)
t20 = lax_cond(t11, t12, t19)
t21 = 0.1e1 + t20
t23 = p_a_zeta_threshold ** (0.1e1 / 0.3e1)
t24 = t23 ** 2
t25 = t24 * p_a_zeta_threshold
t26 = t21 ** (0.1e1 / 0.3e1)
t27 = t26 ** 2
t29 = lax_cond(t21 <= p_a_zeta_threshold, t25, t27 * t21)
t30 = t7 ** (0.1e1 / 0.3e1)
t31 = t30 ** 2
t33 = r0 ** 2
t34 = r0 ** (0.1e1 / 0.3e1)
t35 = t34 ** 2
t40 = 2 ** (0.1e1 / 0.3e1)
t41 = math.sqrt(s0)
t48 = 6 ** (0.1e1 / 0.3e1)
t50 = math.pi ** 2
t51 = t50 ** (0.1e1 / 0.3e1)
t52 = t51 ** 2
t53 = 0.1e1 / t52
t60 = lax_cond(r0 <= p_a_dens_threshold, 0, 0.3e1 / 0.20e2 * t6 * t29 * t31 * (0.1e1 + 0.5e1 / 0.9e1 * (s0 / t35 / t33 / 0.72e2 + 0.677e-2 * t40 * t41 / t34 / r0) * t48 * t53))
t62 = lax_cond(t11, t16, -t18)
t63 = lax_cond(t15, t12, t62)
t64 = 0.1e1 + t63
t66 = t64 ** (0.1e1 / 0.3e1)
t67 = t66 ** 2
t69 = lax_cond(t64 <= p_a_zeta_threshold, t25, t67 * t64)
t71 = r1 ** 2
t72 = r1 ** (0.1e1 / 0.3e1)
t73 = t72 ** 2
t78 = math.sqrt(s2)
t92 = lax_cond(r1 <= p_a_dens_threshold, 0, 0.3e1 / 0.20e2 * t6 * t69 * t31 * (0.1e1 + 0.5e1 / 0.9e1 * (s2 / t73 / t71 / 0.72e2 + 0.677e-2 * t40 * t78 / t72 / r1) * t48 * t53))
res = t60 + t92
" unpol "t3 = 3 ** (0.1e1 / 0.3e1)
t4 = t3 ** 2
t5 = math.pi ** (0.1e1 / 0.3e1)
t8 = 0.1e1 <= p_a_zeta_threshold
t9 = p_a_zeta_threshold - 0.1e1
t11 = lax_cond(t8, -t9, 0)
t12 = lax_cond(t8, t9, t11)
t13 = 0.1e1 + t12
t15 = p_a_zeta_threshold ** (0.1e1 / 0.3e1)
t16 = t15 ** 2
t18 = t13 ** (0.1e1 / 0.3e1)
t19 = t18 ** 2
t21 = lax_cond(t13 <= p_a_zeta_threshold, t16 * p_a_zeta_threshold, t19 * t13)
t22 = r0 ** (0.1e1 / 0.3e1)
t23 = t22 ** 2
t25 = 2 ** (0.1e1 / 0.3e1)
t26 = t25 ** 2
t28 = r0 ** 2
t33 = math.sqrt(s0)
t40 = 6 ** (0.1e1 / 0.3e1)
t42 = math.pi ** 2
t43 = t42 ** (0.1e1 / 0.3e1)
t44 = t43 ** 2
t52 = lax_cond(r0 / 0.2e1 <= p_a_dens_threshold, 0, 0.3e1 / 0.20e2 * t4 * t5 * math.pi * t21 * t23 * (0.1e1 + 0.5e1 / 0.9e1 * (s0 * t26 / t23 / t28 / 0.72e2 + 0.677e-2 * t26 * t33 / t22 / r0) * t40 / t44))
res = 0.2e1 * t52
"

/- gen_repo/impl/prebuilt/pol/gga_k_ol2.py and gen_repo/impl/prebuilt/unpol/gga_k_ol2.py -/
formula gga_k_ol2 pol "t2 = 3 ** (0.1e1 / 0.3e1)
t3 = t2 ** 2
t4 = math.pi ** (0.1e1 / 0.3e1)
t6 = t3 * t4 * math.pi
t7 = r0 + r1
t8 = 0.1e1 / t7
t11 = 0.2e1 * r0 * t8 <= p_a_zeta_threshold
t12 = p_a_zeta_threshold - 0.1e1
t15 = 0.2e1 * r1 * t8 <= p_a_zeta_threshold
t16 = -t12
t18 = (r0 - r1) * t8
t19 = lax_cond(t15, t16, t18)
t20 = lax_cond(t11, t12, t19)
t21 = 0.1e1 + t20
t23 = p_a_zeta_threshold ** (0.1e1 / 0.3e1)
t24 = t23 ** 2
t25 = t24 * p_a_zeta_threshold
t26 = t21 ** (0.1e1 / 0.3e1)
t27 = t26 ** 2
t29 = lax_cond(t21 <= p_a_zeta_threshold, t25, t27 * t21)
t30 = t7 ** (0.1e1 / 0.3e1)
t31 = t30 ** 2
t34 = r0 ** 2
t35 = r0 ** (0.1e1 / 0.3e1)
t36 = t35 ** 2
t41 = math.sqrt(s0)
t44 = 0.1e1 / t35 / r0
t45 = 2 ** (0.1e1 / 0.3e1)
t56 = lax_cond(r0 <= p_a_dens_threshold, 0, 0.3e1 / 0.20e2 * t6 * t29 * t31 * (params_a_aa + 0.13888888888888888889e-1 * params_a_bb * s0 / t36 / t34 + params_a_cc * t41 * t44 / (0.4e1 * t41 * t44 + t45)))
t58 = lax_cond(t11, t16, -t18)
t59 = lax_cond(t15, t12, t58)
t60 = 0.1e1 + t59
t62 = t60 ** (0.1e1 / 0.3e1)
t63 = t62 ** 2
t65 = lax_cond(t60 <= p_a_zeta_threshold, t25, t63 * t60)
t68 = r1 ** 2
t69 = r1 ** (0.1e1 / 0.3e1)
t70 = t69 ** 2
t75 = math.sqrt(s2)
t78 = 0.1e1 / t69 / r1
t89 = lax_cond(r1 <= p_a_dens_threshold, 0, 0.3e1 / 0.20e2 * t6 * t65 * t31 * (params_a_aa + 0.13888888888888888889e-1 * params_a_bb * s2 / t70 / t68 + params_a_cc * t75 * t78 / (0.4e1 * t75 * t78 + t45)))
res = t56 + t89
" unpol "t3 = 3 ** (0.1e1 / 0.3e1)
t4 = t3 ** 2
t5 = math.pi ** (0.1e1 / 0.3e1)
t8 = 0.1e1 <= p_a_zeta_threshold
t9 = p_a_zeta_threshold - 0.1e1
t11 = lax_cond(t8, -t9, 0)
t12 = lax_cond(t8, t9, t11)
t13 = 0.1e1 + t12
t15 = p_a_zeta_threshold ** (0.1e1 / 0.3e1)
t16 = t15 ** 2
t18 = t13 ** (0.1e1 / 0.3e1)
t19 = t18 ** 2
t21 = lax_cond(t13 <= p_a_zeta_threshold, t16 * p_a_zeta_threshold, t19 * t13)
t22 = r0 ** (0.1e1 / 0.3e1)
t23 = t22 ** 2
t26 = 2 ** (0.1e1 / 0.3e1)
t27 = t26 ** 2
t28 = r0 ** 2
t34 = math.sqrt(s0)
t37 = 0.1e1 / t22 / r0
t50 = lax_cond(r0 / 0.2e1 <= p_a_dens_threshold, 0, 0.3e1 / 0.20e2 * t4 * t5 * math.pi * t21 * t23 * (params_a_aa + 0.13888888888888888889e-1 * params_a_bb * s0 * t27 / t23 / t28 + params_a_cc * t34 * t26 * t37 / (0.4e1 * t34 * t26 * t37 + t26)))
res = 0.2e1 * t50
"

/- gen_repo/impl/prebuilt/pol/gga_k_pearson.py and gen_repo/impl/prebuilt/unpol/gga_k_pearson.py -/
formula gga_k_pearson pol "t2 = 3 ** (0.1e1 / 0.3e1)
t3 = t2 ** 2
t4 = math.pi ** (0.1e1 / 0.3e1)
t6 = t3 * t4 * math.pi
t7 = r0 + r1
t8 = 0.1e1 / t7
t11 = 0.2e1 * r0 * t8 <= p_a_zeta_threshold
t12 = p_a_zeta_threshold - 0.1e1
t15 = 0.2e1 * r1 * t8 <= p_a_zeta_threshold
t16 = -t12
t18 = (r0 - r1) * t8
t19 = lax_cond(t15, t16, t18)
t20 = lax_cond(t11, t12, t19)
t21 = 0.1e1 + t20
t23 = p_a_zeta_threshold ** (0.1e1 / 0.3e1)
t24 = t23 ** 2
t25 = t24 * p_a_zeta_threshold
t26 = t21 ** (0.1e1 / 0.3e1)
t27 = t26 ** 2
t29 = lax_cond(t21 <= p_a_zeta_threshold, t25, t27 * t21)
t30 = t7 ** (0.1e1 / 0.3e1)
t31 = t30 ** 2
t33 = 6 ** (0.1e1 / 0.3e1)
t34 = math.pi ** 2
t35 = t34 ** (0.1e1 / 0.3e1)
t36 = t35 ** 2
t38 = t33 / t36
t39 = r0 ** 2
t40 = r0 ** (0.1e1 / 0.3e1)
t41 = t40 ** 2
t45 = t34 ** 2
t46 = 0.1e1 / t45
t47 = s0 ** 2
t50 = t39 ** 2
t51 = t50 ** 2
t64 = lax_cond(r0 <= p_a_dens_threshold, 0, 0.3e1 / 0.20e2 * t6 * t29 * t31 * (0.1e1 + 0.5e1 / 0.648e3 * t38 * s0 / t41 / t39 / (0.1e1 + t46 * t47 * s0 / t51 / 0.2304e4)))
t66 = lax_cond(t11, t16, -t18)
t67 = lax_cond(t15, t12, t66)
t68 = 0.1e1 + t67
t70 = t68 ** (0.1e1 / 0.3e1)
t71 = t70 ** 2
t73 = lax_cond(t68 <= p_a_zeta_threshold, t25, t71 * t68)
t75 = r1 ** 2
t76 = r1 ** (0.1e1 / 0.3e1)
t77 = t76 ** 2
t81 = s2 ** 2
t84 = t75 ** 2
t85 = t84 ** 2
t98 = lax_cond(r1 <= p_a_dens_threshold, 0, 0.3e1 / 0.20e2 * t6 * t73 * t31 * (0.1e1 + 0.5e1 / 0.648e3 * t38 * s2 / t77 / t75 / (0.1e1 + t46 * t81 * s2 / t85 / 0.2304e4)))
res = t64 + t98
" unpol "t3 = 3 ** (0.1e1 / 0.3e1)
t4 = t3 ** 2
t5 = math.pi ** (0.1e1 / 0.3e1)
t8 = 0.1e1 <= p_a_zeta_threshold
t9 = p_a_zeta_threshold - 0.1e1
t11 = lax_cond(t8, -t9, 0)
t12 = lax_cond(t8, t9, t11)
t13 = 0.1e1 + t12
t15 = p_a_zeta_threshold ** (0.1e1 / 0.3e1)
t16 = t15 ** 2
t18 = t13 ** (0.1e1 / 0.3e1)
t19 = t18 ** 2
t21 = lax_cond(t13 <= p_a_zeta_threshold, t16 * p_a_zeta_threshold, t19 * t13)
t22 = r0 ** (0.1e1 / 0.3e1)
t23 = t22 ** 2
t25 = 6 ** (0.1e1 / 0.3e1)
t26 = math.pi ** 2
t27 = t26 ** (0.1e1 / 0.3e1)
t28 = t27 ** 2
t32 = 2 ** (0.1e1 / 0.3e1)
t33 = t32 ** 2
t34 = r0 ** 2
t38 = t26 ** 2
t40 = s0 ** 2
t43 = t34 ** 2
t44 = t43 ** 2
t57 = lax_cond(r0 / 0.2e1 <= p_a_dens_threshold, 0, 0.3e1 / 0.20e2 * t4 * t5 * math.pi * t21 * t23 * (0.1e1 + 0.5e1 / 0.648e3 * t25 / t28 * s0 * t33 / t23 / t34 / (0.1e1 + 0.1e1 / t38 * t40 * s0 / t44 / 0.576e3)))
res = 0.2e1 * t57
"

/- gen_repo/impl/prebuilt/pol/gga_k_pg.py and gen_repo/impl/prebuilt/unpol/gga_k_pg.py -/
formula gga_k_pg pol "t2 = 3 ** (0.1e1 / 0.3e1)
t3 = t2 ** 2
t4 = math.pi ** (0.1e1 / 0.3e1)
t6 = t3 * t4 * math.pi
t7 = r0 + r1
t8 = 0.1e1 / t7
t11 = 0.2e1 * r0 * t8 <= p_a_zeta_threshold
t12 = p_a_zeta_threshold - 0.1e1
t15 = 0.2e1 * r1 * t8 <= p_a_zeta_threshold
t16 = -t12
t18 = (r0 - r1) * t8
t19 = lax_cond(t15, t16, t18)
t20 = lax_cond(t11, t12, t19)
t21 = 0.1e1 + t20
t23 = p_a_zeta_threshold ** (0.1e1 / 0.3e1)
t24 = t23 ** 2
t25 = t24 * p_a_zeta_threshold
t26 = t21 ** (0.1e1 / 0.3e1)
t27 = t26 ** 2
t29 = lax_cond(t21 <= p_a_zeta_threshold, t25, t27 * t21)
t30 = t7 ** (0.1e1 / 0.3e1)
t31 = t30 ** 2
t33 = 6 ** (0.1e1 / 0.3e1)
t34 = math.pi ** 2
t35 = t34 ** (0.1e1 / 0.3e1)
t36 = t35 ** 2
t37 = 0.1e1 / t36
t38 = t33 * t37
t39 = r0 ** 2
t40 = r0 ** (0.1e1 / 0.3e1)
t41 = t40 ** 2
t43 = 0.1e1 / t41 / t39
t47 = params_a_pg_mu * t33
t52 = math.exp(-t47 * t37 * s0 * t43 / 0.24e2)
t57 = lax_cond(r0 <= p_a_dens_threshold, 0, 0.3e1 / 0.20e2 * t6 * t29 * t31 * (0.5e1 / 0.72e2 * t38 * s0 * t43 + t52))
t59 = lax_cond(t11, t16, -t18)
t60 = lax_cond(t15, t12, t59)
t61 = 0.1e1 + t60
t63 = t61 ** (0.1e1 / 0.3e1)
t64 = t63 ** 2
t66 = lax_cond(t61 <= p_a_zeta_threshold, t25, t64 * t61)
t68 = r1 ** 2
t69 = r1 ** (0.1e1 / 0.3e1)
t70 = t69 ** 2
t72 = 0.1e1 / t70 / t68
t80 = math.exp(-t47 * t37 * s2 * t72 / 0.24e2)
t85 = lax_cond(r1 <= p_a_dens_threshold, 0, 0.3e1 / 0.20e2 * t6 * t66 * t31 * (0.5e1 / 0.72e2 * t38 * s2 * t72 + t80))
res = t57 + t85
" unpol "t3 = 3 ** (0.1e1 / 0.3e1)
t4 = t3 ** 2
t5 = math.pi ** (0.1e1 / 0.3e1)
t8 = 0.1e1 <= p_a_zeta_threshold
t9 = p_a_zeta_threshold - 0.1e1
t11 = lax_cond(t8, -t9, 0)
t12 = lax_cond(t8, t9, t11)
t13 = 0.1e1 + t12
t15 = p_a_zeta_threshold ** (0.1e1 / 0.3e1)
t16 = t15 ** 2
t18 = t13 ** (0.1e1 / 0.3e1)
t19 = t18 ** 2
t21 = lax_cond(t13 <= p_a_zeta_threshold, t16 * p_a_zeta_threshold, t19 * t13)
t22 = r0 ** (0.1e1 / 0.3e1)
t23 = t22 ** 2
t25 = 6 ** (0.1e1 / 0.3e1)
t26 = math.pi ** 2
t27 = t26 ** (0.1e1 / 0.3e1)
t28 = t27 ** 2
t29 = 0.1e1 / t28
t31 = 2 ** (0.1e1 / 0.3e1)
t32 = t31 ** 2
t34 = r0 ** 2
t37 = s0 * t32 / t23 / t34
t44 = math.exp(-params_a_pg_mu * t25 * t29 * t37 / 0.24e2)
t49 = lax_cond(r0 / 0.2e1 <= p_a_dens_threshold, 0, 0.3e1 / 0.20e2 * t4 * t5 * math.pi * t21 * t23 * (0.5e1 / 0.72e2 * t25 * t29 * t37 + t44))
res = 0.2e1 * t49
"

/- gen_repo/impl/prebuilt/pol/gga_k_pw86.py and gen_repo/impl/prebuilt/unpol/gga_k_pw86.py -/
formula gga_k_pw86 pol "t2 = 3 ** (0.1e1 / 0.3e1)
t3 = t2 ** 2
t4 = math.pi ** (0.1e1 / 0.3e1)
t6 = t3 * t4 * math.pi
t7 = r0 + r1
t8 = 0.1e1 / t7
t11 = 0.2e1 * r0 * t8 <= p_a_zeta_threshold
t12 = p_a_zeta_threshold - 0.1e1
t15 = 0.2e1 * r1 * t8 <= p_a_zeta_threshold
t16 = -t12
t18 = (r0 - r1) * t8
t19 = lax_cond(t15, t16, t18)
t20 = lax_cond(t11, t12, t19)
t21 = 0.1e1 + t20
t23 = p_a_zeta_threshold ** (0.1e1 / 0.3e1)
t24 = t23 ** 2
t25 = t24 * p_a_zeta_threshold
t26 = t21 ** (0.1e1 / 0.3e1)
t27 = t26 ** 2
t29 = lax_cond(t21 <= p_a_zeta_threshold, t25, t27 * t21)
t30 = t7 ** (0.1e1 / 0.3e1)
t31 = t30 ** 2
t33 = 6 ** (0.1e1 / 0.3e1)
t34 = math.pi ** 2
t35 = t34 ** (0.1e1 / 0.3e1)
t36 = t35 ** 2
t38 = t33 / t36
t39 = r0 ** 2
t40 = r0 ** (0.1e1 / 0.3e1)
t41 = t40 ** 2
t47 = t33 ** 2
t50 = t47 / t35 / t34
t51 = s0 ** 2
t52 = t39 ** 2
t59 = t34 ** 2
t60 = 0.1e1 / t59
t63 = t52 ** 2
t68 = (0.1e1 + 0.91999999999999999998e-1 * t38 * s0 / t41 / t39 + 0.16093750000000000000e-1 * t50 * t51 / t40 / t52 / r0 + 0.86805555555555555555e-4 * t60 * t51 * s0 / t63) ** (0.1e1 / 0.15e2)
t72 = lax_cond(r0 <= p_a_dens_threshold, 0, 0.3e1 / 0.20e2 * t6 * t29 * t31 * t68)
t74 = lax_cond(t11, t16, -t18)
t75 = lax_cond(t15, t12, t74)
t76 = 0.1e1 + t75
t78 = t76 ** (0.1e1 / 0.3e1)
t79 = t78 ** 2
t81 = lax_cond(t76 <= p_a_zeta_threshold, t25, t79 * t76)
t83 = r1 ** 2
t84 = r1 ** (0.1e1 / 0.3e1)
t85 = t84 ** 2
t91 = s2 ** 2
t92 = t83 ** 2
t101 = t92 ** 2
t106 = (0.1e1 + 0.91999999999999999998e-1 * t38 * s2 / t85 / t83 + 0.16093750000000000000e-1 * t50 * t91 / t84 / t92 / r1 + 0.86805555555555555555e-4 * t60 * t91 * s2 / t101) ** (0.1e1 / 0.15e2)
t110 = lax_cond(r1 <= p_a_dens_threshold, 0, 0.3e1 / 0.20e2 * t6 * t81 * t31 * t106)
res = t72 + t110
" unpol "t3 = 3 ** (0.1e1 / 0.3e1)
t4 = t3 ** 2
t5 = math.pi ** (0.1e1 / 0.3e1)
t8 = 0.1e1 <= p_a_zeta_threshold
t9 = p_a_zeta_threshold - 0.1e1
t11 = lax_cond(t8, -t9, 0)
t12 = lax_cond(t8, t9, t11)
t13 = 0.1e1 + t12
t15 = p_a_zeta_threshold ** (0.1e1 / 0.3e1)
t16 = t15 ** 2
t18 = t13 ** (0.1e1 / 0.3e1)
t19 = t18 ** 2
t21 = lax_cond(t13 <= p_a_zeta_threshold, t16 * p_a_zeta_threshold, t19 * t13)
t22 = r0 ** (0.1e1 / 0.3e1)
t23 = t22 ** 2
t25 = 6 ** (0.1e1 / 0.3e1)
t26 = math.pi ** 2
t27 = t26 ** (0.1e1 / 0.3e1)
t28 = t27 ** 2
t31 = 2 ** (0.1e1 / 0.3e1)
t32 = t31 ** 2
t34 = r0 ** 2
t40 = t25 ** 2
t44 = s0 ** 2
t46 = t34 ** 2
t53 = t26 ** 2
t57 = t46 ** 2
t62 = (0.1e1 + 0.91999999999999999998e-1 * t25 / t28 * s0 * t32 / t23 / t34 + 0.32187500000000000000e-1 * t40 / t27 / t26 * t44 * t31 / t22 / t46 / r0 + 0.34722222222222222222e-3 / t53 * t44 * s0 / t57) ** (0.1e1 / 0.15e2)
t66 = lax_cond(r0 / 0.2e1 <= p_a_dens_threshold, 0, 0.3e1 / 0.20e2 * t4 * t5 * math.pi * t21 * t23 * t62)
res = 0.2e1 * t66
"

/- gen_repo/impl/prebuilt/pol/gga_k_rational_p.py and gen_repo/impl/prebuilt/unpol/gga_k_rational_p.py -/
formula gga_k_rational_p pol "t2 = 3 ** (0.1e1 / 0.3e1)
t3 = t2 ** 2
t4 = math.pi ** (0.1e1 / 0.3e1)
t6 = t3 * t4 * math.pi
t7 = r0 + r1
t8 = 0.1e1 / t7
t11 = 0.2e1 * r0 * t8 <= p_a_zeta_threshold
t12 = p_a_zeta_threshold - 0.1e1
t15 = 0.2e1 * r1 * t8 <= p_a_zeta_threshold
t16 = -t12
t18 = (r0 - r1) * t8
t19 = lax_cond(t15, t16, t18)
t20 = lax_cond(t11, t12, t19)
t21 = 0.1e1 + t20
t23 = p_a_zeta_threshold ** (0.1e1 / 0.3e1)
t24 = t23 ** 2
t25 = t24 * p_a_zeta_threshold
t26 = t21 ** (0.1e1 / 0.3e1)
t27 = t26 ** 2
t29 = lax_cond(t21 <= p_a_zeta_threshold, t25, t27 * t21)
t30 = t7 ** (0.1e1 / 0.3e1)
t31 = t30 ** 2
t35 = 6 ** (0.1e1 / 0.3e1)
t36 = params_a_C2 / params_a_p * t35
t37 = math.pi ** 2
t38 = t37 ** (0.1e1 / 0.3e1)
t39 = t38 ** 2
t40 = 0.1e1 / t39
t42 = r0 ** 2
t43 = r0 ** (0.1e1 / 0.3e1)
t44 = t43 ** 2
t51 = (0.1e1 + t36 * t40 * s0 / t44 / t42 / 0.24e2) ** (-params_a_p)
t55 = lax_cond(r0 <= p_a_dens_threshold, 0, 0.3e1 / 0.20e2 * t6 * t29 * t31 * t51)
t57 = lax_cond(t11, t16, -t18)
t58 = lax_cond(t15, t12, t57)
t59 = 0.1e1 + t58
t61 = t59 ** (0.1e1 / 0.3e1)
t62 = t61 ** 2
t64 = lax_cond(t59 <= p_a_zeta_threshold, t25, t62 * t59)
t67 = r1 ** 2
t68 = r1 ** (0.1e1 / 0.3e1)
t69 = t68 ** 2
t76 = (0.1e1 + t36 * t40 * s2 / t69 / t67 / 0.24e2) ** (-params_a_p)
t80 = lax_cond(r1 <= p_a_dens_threshold, 0, 0.3e1 / 0.20e2 * t6 * t64 * t31 * t76)
res = t55 + t80
" unpol "t3 = 3 ** (0.1e1 / 0.3e1)
t4 = t3 ** 2
t5 = math.pi ** (0.1e1 / 0.3e1)
t8 = 0.1e1 <= p_a_zeta_threshold
t9 = p_a_zeta_threshold - 0.1e1
t11 = lax_cond(t8, -t9, 0)
t12 = lax_cond(t8, t9, t11)
t13 = 0.1e1 + t12
t15 = p_a_zeta_threshold ** (0.1e1 / 0.3e1)
t16 = t15 ** 2
t18 = t13 ** (0.1e1 / 0.3e1)
t19 = t18 ** 2
t21 = lax_cond(t13 <= p_a_zeta_threshold, t16 * p_a_zeta_threshold, t19 * t13)
t22 = r0 ** (0.1e1 / 0.3e1)
t23 = t22 ** 2
t27 = 6 ** (0.1e1 / 0.3e1)
t29 = math.pi ** 2
t30 = t29 ** (0.1e1 / 0.3e1)
t31 = t30 ** 2
t34 = 2 ** (0.1e1 / 0.3e1)
t35 = t34 ** 2
t36 = r0 ** 2
t44 = (0.1e1 + params_a_C2 / params_a_p * t27 / t31 * s0 * t35 / t23 / t36 / 0.24e2) ** (-params_a_p)
t48 = lax_cond(r0 / 0.2e1 <= p_a_dens_threshold, 0, 0.3e1 / 0.20e2 * t4 * t5 * math.pi * t21 * t23 * t44)
res = 0.2e1 * t48
"

/- gen_repo/impl/prebuilt/pol/gga_k_tflw.py and gen_repo/impl/prebuilt/unpol/gga_k_tflw.py -/
formula gga_k_tflw pol "t2 = 3 ** (0.1e1 / 0.3e1)
t3 = t2 ** 2
t4 = math.pi ** (0.1e1 / 0.3e1)
t6 = t3 * t4 * math.pi
t7 = r0 + r1
t8 = 0.1e1 / t7
t11 = 0.2e1 * r0 * t8 <= p_a_zeta_threshold
t12 = p_a_zeta_threshold - 0.1e1
t15 = 0.2e1 * r1 * t8 <= p_a_zeta_threshold
t16 = -t12
t18 = (r0 - r1) * t8
t19 = lax_cond(t15, t16, t18)
t20 = lax_cond(t11, t12, t19)
t21 = 0.1e1 + t20
t23 = p_a_zeta_threshold ** (0.1e1 / 0.3e1)
t24 = t23 ** 2
t25 = t24 * p_a_zeta_threshold
t26 = t21 ** (0.1e1 / 0.3e1)
t27 = t26 ** 2
t29 = lax_cond(t21 <= p_a_zeta_threshold, t25, t27 * t21)
t30 = t7 ** (0.1e1 / 0.3e1)
t31 = t30 ** 2
t34 = r0 ** 2
t35 = r0 ** (0.1e1 / 0.3e1)
t36 = t35 ** 2
t39 = 6 ** (0.1e1 / 0.3e1)
t41 = math.pi ** 2
t42 = t41 ** (0.1e1 / 0.3e1)
t43 = t42 ** 2
t44 = 0.1e1 / t43
t52 = lax_cond(r0 <= p_a_dens_threshold, 0, 0.3e1 / 0.20e2 * t6 * t29 * t31 * (params_a_gamma + 0.5e1 / 0.72e2 * params_a_lambda * s0 / t36 / t34 * t39 * t44))
t54 = lax_cond(t11, t16, -t18)
t55 = lax_cond(t15, t12, t54)
t56 = 0.1e1 + t55
t58 = t56 ** (0.1e1 / 0.3e1)
t59 = t58 ** 2
t61 = lax_cond(t56 <= p_a_zeta_threshold, t25, t59 * t56)
t64 = r1 ** 2
t65 = r1 ** (0.1e1 / 0.3e1)
t66 = t65 ** 2
t77 = lax_cond(r1 <= p_a_dens_threshold, 0, 0.3e1 / 0.20e2 * t6 * t61 * t31 * (params_a_gamma + 0.5e1 / 0.72e2 * params_a_lambda * s2 / t66 / t64 * t39 * t44))
res = t52 + t77
" unpol "t3 = 3 ** (0.1e1 / 0.3e1)
t4 = t3 ** 2
t5 = math.pi ** (0.1e1 / 0.3e1)
t8 = 0.1e1 <= p_a_zeta_threshold
t9 = p_a_zeta_threshold - 0.1e1
t11 = lax_cond(t8, -t9, 0)
t12 = lax_cond(t8, t9, t11)
t13 = 0.1e1 + t12
t15 = p_a_zeta_threshold ** (0.1e1 / 0.3e1)
t16 = t15 ** 2
t18 = t13 ** (0.1e1 / 0.3e1)
t19 = t18 ** 2
t21 = lax_cond(t13 <= p_a_zeta_threshold, t16 * p_a_zeta_threshold, t19 * t13)
t22 = r0 ** (0.1e1 / 0.3e1)
t23 = t22 ** 2
t26 = 2 ** (0.1e1 / 0.3e1)
t27 = t26 ** 2
t29 = r0 ** 2
t32 = 6 ** (0.1e1 / 0.3e1)
t34 = math.pi ** 2
t35 = t34 ** (0.1e1 / 0.3e1)
t36 = t35 ** 2
t45 = lax_cond(r0 / 0.2e1 <= p_a_dens_threshold, 0, 0.3e1 / 0.20e2 * t4 * t5 * math.pi * t21 * t23 * (params_a_gamma + 0.5e1 / 0.72e2 * params_a_lambda * s0 * t27 / t23 / t29 * t32 / t36))
res = 0.2e1 * t45
"

/- gen_repo/impl/prebuilt/pol/gga_k_thakkar.py and gen_repo/impl/prebuilt/unpol/gga_k_thakkar.py -/
formula gga_k_thakkar pol "t2 = 3 ** (0.1e1 / 0.3e1)
t3 = t2 ** 2
t4 = math.pi ** (0.1e1 / 0.3e1)
t6 = t3 * t4 * math.pi
t7 = r0 + r1
t8 = 0.1e1 / t7
t11 = 0.2e1 * r0 * t8 <= p_a_zeta_threshold
t12 = p_a_zeta_threshold - 0.1e1
t15 = 0.2e1 * r1 * t8 <= p_a_zeta_threshold
t16 = -t12
t18 = (r0 - r1) * t8
t19 = lax_cond(t15, t16, t18)
t20 = lax_cond(t11, t12, t19)
t21 = 0.1e1 + t20
t23 = p_a_zeta_threshold ** (0.1e1 / 0.3e1)
t24 = t23 ** 2
t25 = t24 * p_a_zeta_threshold
t26 = t21 ** (0.1e1 / 0.3e1)
t27 = t26 ** 2
t29 = lax_cond(t21 <= p_a_zeta_threshold, t25, t27 * t21)
t30 = t7 ** (0.1e1 / 0.3e1)
t31 = t30 ** 2
t33 = r0 ** 2
t34 = r0 ** (0.1e1 / 0.3e1)
t35 = t34 ** 2
t39 = math.sqrt(s0)
t41 = 0.1e1 / t34 / r0
t42 = t39 * t41
t43 = math.asinh(t42)
t50 = 4 ** (0.1e1 / 0.3e1)
t62 = lax_cond(r0 <= p_a_dens_threshold, 0, 0.3e1 / 0.20e2 * t6 * t29 * t31 * (0.1e1 + 0.55e-2 * s0 / t35 / t33 / (0.1e1 + 0.253e-1 * t42 * t43) - 0.72e-1 * t42 / (0.2e1 * t50 * t39 * t41 + 0.1e1)))
t64 = lax_cond(t11, t16, -t18)
t65 = lax_cond(t15, t12, t64)
t66 = 0.1e1 + t65
t68 = t66 ** (0.1e1 / 0.3e1)
t69 = t68 ** 2
t71 = lax_cond(t66 <= p_a_zeta_threshold, t25, t69 * t66)
t73 = r1 ** 2
t74 = r1 ** (0.1e1 / 0.3e1)
t75 = t74 ** 2
t79 = math.sqrt(s2)
t81 = 0.1e1 / t74 / r1
t82 = t79 * t81
t83 = math.asinh(t82)
t101 = lax_cond(r1 <= p_a_dens_threshold, 0, 0.3e1 / 0.20e2 * t6 * t71 * t31 * (0.1e1 + 0.55e-2 * s2 / t75 / t73 / (0.1e1 + 0.253e-1 * t82 * t83) - 0.72e-1 * t82 / (0.2e1 * t50 * t79 * t81 + 0.1e1)))
res = t62 + t101
" unpol "t3 = 3 ** (0.1e1 / 0.3e1)
t4 = t3 ** 2
t5 = math.pi ** (0.1e1 / 0.3e1)
t8 = 0.1e1 <= p_a_zeta_threshold
t9 = p_a_zeta_threshold - 0.1e1
t11 = lax_cond(t8, -t9, 0)
t12 = lax_cond(t8, t9, t11)
t13 = 0.1e1 + t12
t15 = p_a_zeta_threshold ** (0.1e1 / 0.3e1)
t16 = t15 ** 2
t18 = t13 ** (0.1e1 / 0.3e1)
t19 = t18 ** 2
t21 = lax_cond(t13 <= p_a_zeta_threshold, t16 * p_a_zeta_threshold, t19 * t13)
t22 = r0 ** (0.1e1 / 0.3e1)
t23 = t22 ** 2
t25 = 2 ** (0.1e1 / 0.3e1)
t26 = t25 ** 2
t28 = r0 ** 2
t31 = math.sqrt(s0)
t32 = t31 * t25
t34 = 0.1e1 / t22 / r0
t36 = math.asinh(t32 * t34)
t45 = 4 ** (0.1e1 / 0.3e1)
t59 = lax_cond(r0 / 0.2e1 <= p_a_dens_threshold, 0, 0.3e1 / 0.20e2 * t4 * t5 * math.pi * t21 * t23 * (0.1e1 + 0.55e-2 * s0 * t26 / t23 / t28 / (0.1e1 + 0.253e-1 * t32 * t34 * t36) - 0.72e-1 * t32 * t34 / (0.2e1 * t45 * t31 * t25 * t34 + 0.1e1)))
res = 0.2e1 * t59
"

end Verif.Data


/-!
# Shipped formulas, verbatim from `gen_repo/impl/prebuilt/{pol,unpol}/NAME.py`
-/
namespace Verif.Data

/- gen_repo/impl/prebuilt/pol/gga_k_vt84f.py and gen_repo/impl/prebuilt/unpol/gga_k_vt84f.py -/
formula gga_k_vt84f pol "t2 = 3 ** (0.1e1 / 0.3e1)
t3 = t2 ** 2
t4 = math.pi ** (0.1e1 / 0.3e1)
t6 = t3 * t4 * math.pi
t7 = r0 + r1
t8 = 0.1e1 / t7
t11 = 0.2e1 * r0 * t8 <= p_a_zeta_threshold
t12 = p_a_zeta_threshold - 0.1e1
t15 = 0.2e1 * r1 * t8 <= p_a_zeta_threshold
t16 = -t12
t18 = (r0 - r1) * t8
t19 = lax_cond(t15, t16, t18)
t20 = lax_cond(t11, t12, t19)
t21 = 0.1e1 + t20
t23 = p_a_zeta_threshold ** (0.1e1 / 0.3e1)
t24 = t23 ** 2
t25 = t24 * p_a_zeta_threshold
t26 = t21 ** (0.1e1 / 0.3e1)
t27 = t26 ** 2
t29 = lax_cond(t21 <= p_a_zeta_threshold, t25, t27 * t21)
t30 = t7 ** (0.1e1 / 0.3e1)
t31 = t30 ** 2
t33 = 6 ** (0.1e1 / 0.3e1)
t34 = t33 ** 2
t35 = math.pi ** 2
t36 = t35 ** (0.1e1 / 0.3e1)
t38 = t34 / t36
t39 = math.sqrt(s0)
t40 = r0 ** (0.1e1 / 0.3e1)
t45 = t38 * t39 / t40 / r0 / 0.12e2
t46 = math.sqrt(DBL_EPSILON)
t49 = (-params_a_mu + params_a_alpha + 0.5e1 / 0.3e1) * t33
t50 = t36 ** 2
t51 = 0.1e1 / t50
t53 = r0 ** 2
t54 = t40 ** 2
t61 = params_a_mu ** 2
t63 = (params_a_mu * params_a_alpha + t61 - params_a_alpha) * t34
t65 = 0.1e1 / t36 / t35
t66 = s0 ** 2
t68 = t53 ** 2
t77 = lax_cond(t46 < t45, t45, t46)
t78 = t77 ** 2
t79 = params_a_mu * t78
t81 = math.exp(-params_a_alpha * t78)
t86 = t78 ** 2
t88 = math.exp(-params_a_alpha * t86)
t95 = lax_cond(t45 <= t46, 0.1e1 + t49 * t51 * s0 / t54 / t53 / 0.24e2 + t63 * t65 * t66 / t40 / t68 / r0 / 0.576e3, 0.1e1 - t79 * t81 / (0.1e1 + t79) + (0.1e1 - t88) * (0.1e1 / t78 - 0.1e1) + 0.5e1 / 0.3e1 * t78)
t99 = lax_cond(r0 <= p_a_dens_threshold, 0, 0.3e1 / 0.20e2 * t6 * t29 * t31 * t95)
t101 = lax_cond(t11, t16, -t18)
t102 = lax_cond(t15, t12, t101)
t103 = 0.1e1 + t102
t105 = t103 ** (0.1e1 / 0.3e1)
t106 = t105 ** 2
t108 = lax_cond(t103 <= p_a_zeta_threshold, t25, t106 * t103)
t110 = math.sqrt(s2)
t111 = r1 ** (0.1e1 / 0.3e1)
t116 = t38 * t110 / t111 / r1 / 0.12e2
t119 = r1 ** 2
t120 = t111 ** 2
t126 = s2 ** 2
t128 = t119 ** 2
t137 = lax_cond(t46 < t116, t116, t46)
t138 = t137 ** 2
t139 = params_a_mu * t138
t141 = math.exp(-params_a_alpha * t138)
t146 = t138 ** 2
t148 = math.exp(-params_a_alpha * t146)
t155 = lax_cond(t116 <= t46, 0.1e1 + t49 * t51 * s2 / t120 / t119 / 0.24e2 + t63 * t65 * t126 / t111 / t128 / r1 / 0.576e3, 0.1e1 - t139 * t141 / (0.1e1 + t139) + (0.1e1 - t148) * (0.1e1 / t138 - 0.1e1) + 0.5e1 / 0.3e1 * t138)
t159 = lax_cond(r1 <= p_a_dens_threshold, 0, 0.3e1 / 0.20e2 * t6 * t108 * t31 * t155)
res = t99 + t159
" unpol "t3 = 3 ** (0.1e1 / 0.3e1)
t4 = t3 ** 2
t5 = math.pi ** (0.1e1 / 0.3e1)
t8 = 0.1e1 <= p_a_zeta_threshold
t9 = p_a_zeta_threshold - 0.1e1
t11 = lax_cond(t8, -t9, 0)
t12 = lax_cond(t8, t9, t11)
t13 = 0.1e1 + t12
t15 = p_a_zeta_threshold ** (0.1e1 / 0.3e1)
t16 = t15 ** 2
t18 = t13 ** (0.1e1 / 0.3e1)
t19 = t18 ** 2
t21 = lax_cond(t13 <= p_a_zeta_threshold, t16 * p_a_zeta_threshold, t19 * t13)
t22 = r0 ** (0.1e1 / 0.3e1)
t23 = t22 ** 2
t25 = 6 ** (0.1e1 / 0.3e1)
t26 = t25 ** 2
t27 = math.pi ** 2
t28 = t27 ** (0.1e1 / 0.3e1)
t31 = math.sqrt(s0)
t32 = 2 ** (0.1e1 / 0.3e1)
t38 = t26 / t28 * t31 * t32 / t22 / r0 / 0.12e2
t39 = math.sqrt(DBL_EPSILON)
t43 = t28 ** 2
t46 = t32 ** 2
t48 = r0 ** 2
t55 = params_a_mu ** 2
t61 = s0 ** 2
t63 = t48 ** 2
t72 = lax_cond(t39 < t38, t38, t39)
t73 = t72 ** 2
t74 = params_a_mu * t73
t76 = math.exp(-params_a_alpha * t73)
t81 = t73 ** 2
t83 = math.exp(-params_a_alpha * t81)
t90 = lax_cond(t38 <= t39, 0.1e1 + (-params_a_mu + params_a_alpha + 0.5e1 / 0.3e1) * t25 / t43 * s0 * t46 / t23 / t48 / 0.24e2 + (params_a_mu * params_a_alpha + t55 - params_a_alpha) * t26 / t28 / t27 * t61 * t32 / t22 / t63 / r0 / 0.288e3, 0.1e1 - t74 * t76 / (0.1e1 + t74) + (0.1e1 - t83) * (0.1e1 / t73 - 0.1e1) + 0.5e1 / 0.3e1 * t73)
t94 = lax_cond(r0 / 0.2e1 <= p_a_dens_threshold, 0, 0.3e1 / 0.20e2 * t4 * t5 * math.pi * t21 * t23 * t90)
res = 0.2e1 * t94
"

/- gen_repo/impl/prebuilt/pol/gga_x_2d_b86.py and gen_repo/impl/prebuilt/unpol/gga_x_2d_b86.py -/
formula gga_x_2d_b86 pol "t2 = math.sqrt(math.pi)
t3 = 0.1e1 / t2
t4 = r0 + r1
t5 = 0.1e1 / t4
t8 = 0.2e1 * r0 * t5 <= p_a_zeta_threshold
t9 = p_a_zeta_threshold - 0.1e1
t12 = 0.2e1 * r1 * t5 <= p_a_zeta_threshold
t13 = -t9
t15 = (r0 - r1) * t5
t16 = lax_cond(t12, t13, t15)
t17 = lax_cond(t8, t9, t16)
t18 = 0.1e1 + t17
t20 = math.sqrt(p_a_zeta_threshold)
t21 = t20 * p_a_zeta_threshold
t22 = math.sqrt(t18)
t24 = lax_cond(t18 <= p_a_zeta_threshold, t21, t22 * t18)
t26 = math.sqrt(0.2e1)
t28 = math.sqrt(t4)
t29 = r0 ** 2
t32 = s0 / t29 / r0
t42 = lax_cond(r0 <= p_a_dens_threshold, 0, -0.2e1 / 0.3e1 * t3 * t24 * t26 * t28 * (0.1e1 + 0.2105e-2 * t32) / (0.1e1 + 0.119e-3 * t32))
t44 = lax_cond(t8, t13, -t15)
t45 = lax_cond(t12, t9, t44)
t46 = 0.1e1 + t45
t48 = math.sqrt(t46)
t50 = lax_cond(t46 <= p_a_zeta_threshold, t21, t48 * t46)
t53 = r1 ** 2
t56 = s2 / t53 / r1
t66 = lax_cond(r1 <= p_a_dens_threshold, 0, -0.2e1 / 0.3e1 * t3 * t50 * t26 * t28 * (0.1e1 + 0.2105e-2 * t56) / (0.1e1 + 0.119e-3 * t56))
res = t42 + t66
" unpol "t3 = math.sqrt(math.pi)
t5 = 0.1e1 <= p_a_zeta_threshold
t6 = p_a_zeta_threshold - 0.1e1
t8 = lax_cond(t5, -t6, 0)
t9 = lax_cond(t5, t6, t8)
t10 = 0.1e1 + t9
t12 = math.sqrt(p_a_zeta_threshold)
t14 = math.sqrt(t10)
t16 = lax_cond(t10 <= p_a_zeta_threshold, t12 * p_a_zeta_threshold, t14 * t10)
t18 = math.sqrt(0.2e1)
t20 = math.sqrt(r0)
t21 = r0 ** 2
t24 = s0 / t21 / r0
t34 = lax_cond(r0 / 0.2e1 <= p_a_dens_threshold, 0, -0.2e1 / 0.3e1 / t3 * t16 * t18 * t20 * (0.1e1 + 0.4210e-2 * t24) / (0.1e1 + 0.238e-3 * t24))
res = 0.2e1 * t34
"

/- gen_repo/impl/prebuilt/pol/gga_x_2d_b86_mgc.py and gen_repo/impl/prebuilt/unpol/gga_x_2d_b86_mgc.py -/
formula gga_x_2d_b86_mgc pol "t2 = math.sqrt(math.pi)
t3 = 0.1e1 / t2
t4 = r0 + r1
t5 = 0.1e1 / t4
t8 = 0.2e1 * r0 * t5 <= p_a_zeta_threshold
t9 = p_a_zeta_threshold - 0.1e1
t12 = 0.2e1 * r1 * t5 <= p_a_zeta_threshold
t13 = -t9
t15 = (r0 - r1) * t5
t16 = lax_cond(t12, t13, t15)
t17 = lax_cond(t8, t9, t16)
t18 = 0.1e1 + t17
t20 = math.sqrt(p_a_zeta_threshold)
t21 = t20 * p_a_zeta_threshold
t22 = math.sqrt(t18)
t24 = lax_cond(t18 <= p_a_zeta_threshold, t21, t22 * t18)
t26 = math.sqrt(0.2e1)
t27 = math.sqrt(t4)
t28 = t26 * t27
t30 = r0 ** 2
t32 = 0.1e1 / t30 / r0
t36 = (0.1e1 + 0.8323e-2 * s0 * t32) ** (0.1e1 / 0.4e1)
t37 = t36 ** 2
t47 = lax_cond(r0 <= p_a_dens_threshold, 0, -0.2e1 / 0.3e1 * t3 * t24 * t28 * (0.1e1 + 0.12438750000000000000e-2 * t2 * s0 * t32 / t37 / t36))
t49 = lax_cond(t8, t13, -t15)
t50 = lax_cond(t12, t9, t49)
t51 = 0.1e1 + t50
t53 = math.sqrt(t51)
t55 = lax_cond(t51 <= p_a_zeta_threshold, t21, t53 * t51)
t58 = r1 ** 2
t60 = 0.1e1 / t58 / r1
t64 = (0.1e1 + 0.8323e-2 * s2 * t60) ** (0.1e1 / 0.4e1)
t65 = t64 ** 2
t75 = lax_cond(r1 <= p_a_dens_threshold, 0, -0.2e1 / 0.3e1 * t3 * t55 * t28 * (0.1e1 + 0.12438750000000000000e-2 * t2 * s2 * t60 / t65 / t64))
res = t47 + t75
" unpol "t3 = math.sqrt(math.pi)
t5 = 0.1e1 <= p_a_zeta_threshold
t6 = p_a_zeta_threshold - 0.1e1
t8 = lax_cond(t5, -t6, 0)
t9 = lax_cond(t5, t6, t8)
t10 = 0.1e1 + t9
t12 = math.sqrt(p_a_zeta_threshold)
t14 = math.sqrt(t10)
t16 = lax_cond(t10 <= p_a_zeta_threshold, t12 * p_a_zeta_threshold, t14 * t10)
t18 = math.sqrt(0.2e1)
t19 = math.sqrt(r0)
t22 = r0 ** 2
t24 = 0.1e1 / t22 / r0
t28 = (0.1e1 + 0.16646e-1 * s0 * t24) ** (0.1e1 / 0.4e1)
t29 = t28 ** 2
t39 = lax_cond(r0 / 0.2e1 <= p_a_dens_threshold, 0, -0.2e1 / 0.3e1 / t3 * t16 * t18 * t19 * (0.1e1 + 0.24877500000000000000e-2 * t3 * s0 * t24 / t29 / t28))
res = 0.2e1 * t39
"

/- gen_repo/impl/prebuilt/pol/gga_x_2d_b88.py and gen_repo/impl/prebuilt/unpol/gga_x_2d_b88.py -/
formula gga_x_2d_b88 pol "t2 = math.sqrt(math.pi)
t3 = 0.1e1 / t2
t4 = r0 + r1
t5 = 0.1e1 / t4
t8 = 0.2e1 * r0 * t5 <= p_a_zeta_threshold
t9 = p_a_zeta_threshold - 0.1e1
t12 = 0.2e1 * r1 * t5 <= p_a_zeta_threshold
t13 = -t9
t15 = (r0 - r1) * t5
t16 = lax_cond(t12, t13, t15)
t17 = lax_cond(t8, t9, t16)
t18 = 0.1e1 + t17
t20 = math.sqrt(p_a_zeta_threshold)
t21 = t20 * p_a_zeta_threshold
t22 = math.sqrt(t18)
t24 = lax_cond(t18 <= p_a_zeta_threshold, t21, t22 * t18)
t26 = math.sqrt(0.2e1)
t27 = math.sqrt(t4)
t28 = t26 * t27
t30 = r0 ** 2
t33 = math.sqrt(s0)
t34 = math.sqrt(r0)
t37 = t33 / t34 / r0
t38 = math.asinh(t37)
t50 = lax_cond(r0 <= p_a_dens_threshold, 0, -0.2e1 / 0.3e1 * t3 * t24 * t28 * (0.1e1 + 0.26250000000000000000e-2 * t2 * s0 / t30 / r0 / (0.1e1 + 0.56e-1 * t37 * t38)))
t52 = lax_cond(t8, t13, -t15)
t53 = lax_cond(t12, t9, t52)
t54 = 0.1e1 + t53
t56 = math.sqrt(t54)
t58 = lax_cond(t54 <= p_a_zeta_threshold, t21, t56 * t54)
t61 = r1 ** 2
t64 = math.sqrt(s2)
t65 = math.sqrt(r1)
t68 = t64 / t65 / r1
t69 = math.asinh(t68)
t81 = lax_cond(r1 <= p_a_dens_threshold, 0, -0.2e1 / 0.3e1 * t3 * t58 * t28 * (0.1e1 + 0.26250000000000000000e-2 * t2 * s2 / t61 / r1 / (0.1e1 + 0.56e-1 * t68 * t69)))
res = t50 + t81
" unpol "t3 = math.sqrt(math.pi)
t5 = 0.1e1 <= p_a_zeta_threshold
t6 = p_a_zeta_threshold - 0.1e1
t8 = lax_cond(t5, -t6, 0)
t9 = lax_cond(t5, t6, t8)
t10 = 0.1e1 + t9
t12 = math.sqrt(p_a_zeta_threshold)
t14 = math.sqrt(t10)
t16 = lax_cond(t10 <= p_a_zeta_threshold, t12 * p_a_zeta_threshold, t14 * t10)
t18 = math.sqrt(0.2e1)
t19 = math.sqrt(r0)
t22 = r0 ** 2
t25 = math.sqrt(s0)
t26 = t25 * t18
t28 = 0.1e1 / t19 / r0
t30 = math.asinh(t26 * t28)
t43 = lax_cond(r0 / 0.2e1 <= p_a_dens_threshold, 0, -0.2e1 / 0.3e1 / t3 * t16 * t18 * t19 * (0.1e1 + 0.52500000000000000000e-2 * t3 * s0 / t22 / r0 / (0.1e1 + 0.56e-1 * t26 * t28 * t30)))
res = 0.2e1 * t43
"

/- gen_repo/impl/prebuilt/pol/gga_x_2d_pbe.py and gen_repo/impl/prebuilt/unpol/gga_x_2d_pbe.py -/
formula gga_x_2d_pbe pol "t2 = math.sqrt(math.pi)
t3 = 0.1e1 / t2
t4 = r0 + r1
t5 = 0.1e1 / t4
t8 = 0.2e1 * r0 * t5 <= p_a_zeta_threshold
t9 = p_a_zeta_threshold - 0.1e1
t12 = 0.2e1 * r1 * t5 <= p_a_zeta_threshold
t13 = -t9
t15 = (r0 - r1) * t5
t16 = lax_cond(t12, t13, t15)
t17 = lax_cond(t8, t9, t16)
t18 = 0.1e1 + t17
t20 = math.sqrt(p_a_zeta_threshold)
t21 = t20 * p_a_zeta_threshold
t22 = math.sqrt(t18)
t24 = lax_cond(t18 <= p_a_zeta_threshold, t21, t22 * t18)
t26 = math.sqrt(0.2e1)
t27 = math.sqrt(t4)
t28 = t26 * t27
t29 = 0.1e1 / math.pi
t31 = r0 ** 2
t43 = lax_cond(r0 <= p_a_dens_threshold, 0, -0.2e1 / 0.3e1 * t3 * t24 * t28 * (0.14604e1 - 0.21196816e0 / (0.4604e0 + 0.22159179687500000000e-1 * t29 * s0 / t31 / r0)))
t45 = lax_cond(t8, t13, -t15)
t46 = lax_cond(t12, t9, t45)
t47 = 0.1e1 + t46
t49 = math.sqrt(t47)
t51 = lax_cond(t47 <= p_a_zeta_threshold, t21, t49 * t47)
t54 = r1 ** 2
t66 = lax_cond(r1 <= p_a_dens_threshold, 0, -0.2e1 / 0.3e1 * t3 * t51 * t28 * (0.14604e1 - 0.21196816e0 / (0.4604e0 + 0.22159179687500000000e-1 * t29 * s2 / t54 / r1)))
res = t43 + t66
" unpol "t3 = math.sqrt(math.pi)
t5 = 0.1e1 <= p_a_zeta_threshold
t6 = p_a_zeta_threshold - 0.1e1
t8 = lax_cond(t5, -t6, 0)
t9 = lax_cond(t5, t6, t8)
t10 = 0.1e1 + t9
t12 = math.sqrt(p_a_zeta_threshold)
t14 = math.sqrt(t10)
t16 = lax_cond(t10 <= p_a_zeta_threshold, t12 * p_a_zeta_threshold, t14 * t10)
t18 = math.sqrt(0.2e1)
t19 = math.sqrt(r0)
t23 = r0 ** 2
t35 = lax_cond(r0 / 0.2e1 <= p_a_dens_threshold, 0, -0.2e1 / 0.3e1 / t3 * t16 * t18 * t19 * (0.14604e1 - 0.21196816e0 / (0.4604e0 + 0.44318359375000000000e-1 / math.pi * s0 / t23 / r0)))
res = 0.2e1 * t35
"

/- gen_repo/impl/prebuilt/pol/gga_x_airy.py and gen_repo/impl/prebuilt/unpol/gga_x_airy.py -/
formula gga_x_airy pol "t2 = 3 ** (0.1e1 / 0.3e1)
t3 = math.pi ** (0.1e1 / 0.3e1)
t5 = t2 / t3
t6 = r0 + r1
t7 = 0.1e1 / t6
t10 = 0.2e1 * r0 * t7 <= p_a_zeta_threshold
t11 = p_a_zeta_threshold - 0.1e1
t14 = 0.2e1 * r1 * t7 <= p_a_zeta_threshold
t15 = -t11
t17 = (r0 - r1) * t7
t18 = lax_cond(t14, t15, t17)
t19 = lax_cond(t10, t11, t18)
t20 = 0.1e1 + t19
t22 = p_a_zeta_threshold ** (0.1e1 / 0.3e1)
t23 = t22 * p_a_zeta_threshold
t24 = t20 ** (0.1e1 / 0.3e1)
t26 = lax_cond(t20 <= p_a_zeta_threshold, t23, t24 * t20)
t27 = t6 ** (0.1e1 / 0.3e1)
t29 = 6 ** (0.1e1 / 0.3e1)
t30 = t29 ** 2
t31 = math.pi ** 2
t32 = t31 ** (0.1e1 / 0.3e1)
t34 = t30 / t32
t35 = math.sqrt(s0)
t36 = r0 ** (0.1e1 / 0.3e1)
t40 = t34 * t35 / t36 / r0
t41 = t40 ** 0.2626712e1
t44 = (0.1e1 + 0.13471619689594796103e-3 * t41) ** (-0.657946e0)
t47 = t40 ** 0.3217063e1
t49 = t40 ** 0.3223476e1
t52 = t40 ** 0.3473804e1
t61 = lax_cond(r0 <= p_a_dens_threshold, 0, -0.3e1 / 0.8e1 * t5 * t26 * t27 * (0.60146019220211109872e-4 * t41 * t44 + (0.1e1 - 0.45212413010769857073e-1 * t47 + 0.45402221956620378581e-1 * t49) / (0.1e1 + 0.47702180224903349918e-3 * t52)))
t63 = lax_cond(t10, t15, -t17)
t64 = lax_cond(t14, t11, t63)
t65 = 0.1e1 + t64
t67 = t65 ** (0.1e1 / 0.3e1)
t69 = lax_cond(t65 <= p_a_zeta_threshold, t23, t67 * t65)
t71 = math.sqrt(s2)
t72 = r1 ** (0.1e1 / 0.3e1)
t76 = t34 * t71 / t72 / r1
t77 = t76 ** 0.2626712e1
t80 = (0.1e1 + 0.13471619689594796103e-3 * t77) ** (-0.657946e0)
t83 = t76 ** 0.3217063e1
t85 = t76 ** 0.3223476e1
t88 = t76 ** 0.3473804e1
t97 = lax_cond(r1 <= p_a_dens_threshold, 0, -0.3e1 / 0.8e1 * t5 * t69 * t27 * (0.60146019220211109872e-4 * t77 * t80 + (0.1e1 - 0.45212413010769857073e-1 * t83 + 0.45402221956620378581e-1 * t85) / (0.1e1 + 0.47702180224903349918e-3 * t88)))
res = t61 + t97
" unpol "t3 = 3 ** (0.1e1 / 0.3e1)
t4 = math.pi ** (0.1e1 / 0.3e1)
t7 = 0.1e1 <= p_a_zeta_threshold
t8 = p_a_zeta_threshold - 0.1e1
t10 = lax_cond(t7, -t8, 0)
t11 = lax_cond(t7, t8, t10)
t12 = 0.1e1 + t11
t14 = p_a_zeta_threshold ** (0.1e1 / 0.3e1)
t16 = t12 ** (0.1e1 / 0.3e1)
t18 = lax_cond(t12 <= p_a_zeta_threshold, t14 * p_a_zeta_threshold, t16 * t12)
t19 = r0 ** (0.1e1 / 0.3e1)
t21 = 6 ** (0.1e1 / 0.3e1)
t22 = t21 ** 2
t23 = math.pi ** 2
t24 = t23 ** (0.1e1 / 0.3e1)
t27 = math.sqrt(s0)
t28 = 2 ** (0.1e1 / 0.3e1)
t33 = t22 / t24 * t27 * t28 / t19 / r0
t34 = t33 ** 0.2626712e1
t37 = (0.1e1 + 0.13471619689594796103e-3 * t34) ** (-0.657946e0)
t40 = t33 ** 0.3217063e1
t42 = t33 ** 0.3223476e1
t45 = t33 ** 0.3473804e1
t54 = lax_cond(r0 / 0.2e1 <= p_a_dens_threshold, 0, -0.3e1 / 0.8e1 * t3 / t4 * t18 * t19 * (0.60146019220211109872e-4 * t34 * t37 + (0.1e1 - 0.45212413010769857073e-1 * t40 + 0.45402221956620378581e-1 * t42) / (0.1e1 + 0.47702180224903349918e-3 * t45)))
res = 0.2e1 * t54
"

/- gen_repo/impl/prebuilt/pol/gga_x_ak13.py and gen_repo/impl/prebuilt/unpol/gga_x_ak13.py -/
formula gga_x_ak13 pol "t2 = 3 ** (0.1e1 / 0.3e1)
t3 = math.pi ** (0.1e1 / 0.3e1)
t5 = t2 / t3
t6 = r0 + r1
t7 = 0.1e1 / t6
t10 = 0.2e1 * r0 * t7 <= p_a_zeta_threshold
t11 = p_a_zeta_threshold - 0.1e1
t14 = 0.2e1 * r1 * t7 <= p_a_zeta_threshold
t15 = -t11
t17 = (r0 - r1) * t7
t18 = lax_cond(t14, t15, t17)
t19 = lax_cond(t10, t11, t18)
t20 = 0.1e1 + t19
t22 = p_a_zeta_threshold ** (0.1e1 / 0.3e1)
t23 = t22 * p_a_zeta_threshold
t24 = t20 ** (0.1e1 / 0.3e1)
t26 = lax_cond(t20 <= p_a_zeta_threshold, t23, t24 * t20)
t27 = t6 ** (0.1e1 / 0.3e1)
t29 = 6 ** (0.1e1 / 0.3e1)
t30 = t29 ** 2
t32 = math.pi ** 2
t33 = t32 ** (0.1e1 / 0.3e1)
t34 = 0.1e1 / t33
t35 = params_a_B1 * t30 * t34
t36 = math.sqrt(s0)
t37 = r0 ** (0.1e1 / 0.3e1)
t40 = t36 / t37 / r0
t41 = t30 * t34
t45 = math.log(0.1e1 + t41 * t40 / 0.12e2)
t50 = params_a_B2 * t30 * t34
t52 = math.log(0.1e1 + t45)
t60 = lax_cond(r0 <= p_a_dens_threshold, 0, -0.3e1 / 0.8e1 * t5 * t26 * t27 * (0.1e1 + t35 * t40 * t45 / 0.12e2 + t50 * t40 * t52 / 0.12e2))
t62 = lax_cond(t10, t15, -t17)
t63 = lax_cond(t14, t11, t62)
t64 = 0.1e1 + t63
t66 = t64 ** (0.1e1 / 0.3e1)
t68 = lax_cond(t64 <= p_a_zeta_threshold, t23, t66 * t64)
t70 = math.sqrt(s2)
t71 = r1 ** (0.1e1 / 0.3e1)
t74 = t70 / t71 / r1
t78 = math.log(0.1e1 + t41 * t74 / 0.12e2)
t83 = math.log(0.1e1 + t78)
t91 = lax_cond(r1 <= p_a_dens_threshold, 0, -0.3e1 / 0.8e1 * t5 * t68 * t27 * (0.1e1 + t35 * t74 * t78 / 0.12e2 + t50 * t74 * t83 / 0.12e2))
res = t60 + t91
" unpol "t3 = 3 ** (0.1e1 / 0.3e1)
t4 = math.pi ** (0.1e1 / 0.3e1)
t7 = 0.1e1 <= p_a_zeta_threshold
t8 = p_a_zeta_threshold - 0.1e1
t10 = lax_cond(t7, -t8, 0)
t11 = lax_cond(t7, t8, t10)
t12 = 0.1e1 + t11
t14 = p_a_zeta_threshold ** (0.1e1 / 0.3e1)
t16 = t12 ** (0.1e1 / 0.3e1)
t18 = lax_cond(t12 <= p_a_zeta_threshold, t14 * p_a_zeta_threshold, t16 * t12)
t19 = r0 ** (0.1e1 / 0.3e1)
t21 = 6 ** (0.1e1 / 0.3e1)
t22 = t21 ** 2
t24 = math.pi ** 2
t25 = t24 ** (0.1e1 / 0.3e1)
t26 = 0.1e1 / t25
t28 = math.sqrt(s0)
t29 = 2 ** (0.1e1 / 0.3e1)
t30 = t28 * t29
t32 = 0.1e1 / t19 / r0
t38 = math.log(0.1e1 + t22 * t26 * t30 * t32 / 0.12e2)
t46 = math.log(0.1e1 + t38)
t55 = lax_cond(r0 / 0.2e1 <= p_a_dens_threshold, 0, -0.3e1 / 0.8e1 * t3 / t4 * t18 * t19 * (0.1e1 + params_a_B1 * t22 * t26 * t30 * t32 * t38 / 0.12e2 + params_a_B2 * t22 * t26 * t30 * t32 * t46 / 0.12e2))
res = 0.2e1 * t55
"

/- gen_repo/impl/prebuilt/pol/gga_x_am05.py and gen_repo/impl/prebuilt/unpol/gga_x_am05.py -/
formula gga_x_am05 pol "t2 = 3 ** (0.1e1 / 0.3e1)
t3 = math.pi ** (0.1e1 / 0.3e1)
t5 = t2 / t3
t6 = r0 + r1
t7 = 0.1e1 / t6
t10 = 0.2e1 * r0 * t7 <= p_a_zeta_threshold
t11 = p_a_zeta_threshold - 0.1e1
t14 = 0.2e1 * r1 * t7 <= p_a_zeta_threshold
t15 = -t11
t17 = (r0 - r1) * t7
t18 = lax_cond(t14, t15, t17)
t19 = lax_cond(t10, t11, t18)
t20 = 0.1e1 + t19
t22 = p_a_zeta_threshold ** (0.1e1 / 0.3e1)
t23 = t22 * p_a_zeta_threshold
t24 = t20 ** (0.1e1 / 0.3e1)
t26 = lax_cond(t20 <= p_a_zeta_threshold, t23, t24 * t20)
t27 = t6 ** (0.1e1 / 0.3e1)
t29 = 6 ** (0.1e1 / 0.3e1)
t30 = params_a_alpha * t29
t31 = math.pi ** 2
t32 = t31 ** (0.1e1 / 0.3e1)
t33 = t32 ** 2
t34 = 0.1e1 / t33
t35 = t30 * t34
t36 = r0 ** 2
t37 = r0 ** (0.1e1 / 0.3e1)
t38 = t37 ** 2
t40 = 0.1e1 / t38 / t36
t42 = t34 * s0
t43 = t42 * t40
t47 = 0.1e1 / (0.1e1 + t30 * t43 / 0.24e2)
t53 = params_a_c * t29
t57 = t29 ** 2
t58 = params_a_c * t57
t59 = 0.1e1 / t32
t60 = math.sqrt(s0)
t63 = 0.1e1 / t37 / r0
t67 = t2 ** 2
t68 = 0.1e1 / math.pi * t67
t69 = 2 ** (0.1e1 / 0.3e1)
t70 = math.sqrt(0.12e2)
t71 = t57 * t59
t73 = t71 * t60 * t63
t74 = math.sqrt(t73)
t77 = math.sqrt(0.6e1)
t80 = scipy.special.lambertw(t70 * t74 * t73 * t77 / 0.1728e4)
t81 = t80 ** (0.1e1 / 0.3e1)
t82 = t81 ** 2
t84 = t69 ** 2
t85 = t2 * t84
t90 = (0.2823705740248932030511071641312341561894e2 + 0.3e1 / 0.4e1 * t85 * t81 * t80) ** (0.1e1 / 0.4e1)
t105 = lax_cond(r0 <= p_a_dens_threshold, 0, -0.3e1 / 0.8e1 * t5 * t26 * t27 * (0.1e1 - t35 * s0 * t40 * t47 / 0.24e2 + t30 * t42 * t40 * t47 * (0.1e1 + t53 * t43 / 0.24e2) / (0.1e1 + t58 * t59 * t60 * t63 * t68 * t69 * t82 * t90 / 0.8e1) / 0.24e2))
t107 = lax_cond(t10, t15, -t17)
t108 = lax_cond(t14, t11, t107)
t109 = 0.1e1 + t108
t111 = t109 ** (0.1e1 / 0.3e1)
t113 = lax_cond(t109 <= p_a_zeta_threshold, t23, t111 * t109)
t115 = r1 ** 2
t116 = r1 ** (0.1e1 / 0.3e1)
t117 = t116 ** 2
t119 = 0.1e1 / t117 / t115
t121 = t34 * s2
t122 = t121 * t119
t126 = 0.1e1 / (0.1e1 + t30 * t122 / 0.24e2)
t135 = math.sqrt(s2)
t138 = 0.1e1 / t116 / r1
t142 = t71 * t135 * t138
t143 = math.sqrt(t142)
t148 = scipy.special.lambertw(t70 * t143 * t142 * t77 / 0.1728e4)
t149 = t148 ** (0.1e1 / 0.3e1)
t150 = t149 ** 2
t156 = (0.2823705740248932030511071641312341561894e2 + 0.3e1 / 0.4e1 * t85 * t149 * t148) ** (0.1e1 / 0.4e1)
t171 = lax_cond(r1 <= p_a_dens_threshold, 0, -0.3e1 / 0.8e1 * t5 * t113 * t27 * (0.1e1 - t35 * s2 * t119 * t126 / 0.24e2 + t30 * t121 * t119 * t126 * (0.1e1 + t53 * t122 / 0.24e2) / (0.1e1 + t58 * t59 * t135 * t138 * t68 * t69 * t150 * t156 / 0.8e1) / 0.24e2))
res = t105 + t171
" unpol "t3 = 3 ** (0.1e1 / 0.3e1)
t4 = math.pi ** (0.1e1 / 0.3e1)
t7 = 0.1e1 <= p_a_zeta_threshold
t8 = p_a_zeta_threshold - 0.1e1
t10 = lax_cond(t7, -t8, 0)
t11 = lax_cond(t7, t8, t10)
t12 = 0.1e1 + t11
t14 = p_a_zeta_threshold ** (0.1e1 / 0.3e1)
t16 = t12 ** (0.1e1 / 0.3e1)
t18 = lax_cond(t12 <= p_a_zeta_threshold, t14 * p_a_zeta_threshold, t16 * t12)
t19 = r0 ** (0.1e1 / 0.3e1)
t21 = 6 ** (0.1e1 / 0.3e1)
t22 = params_a_alpha * t21
t23 = math.pi ** 2
t24 = t23 ** (0.1e1 / 0.3e1)
t25 = t24 ** 2
t26 = 0.1e1 / t25
t27 = t22 * t26
t28 = 2 ** (0.1e1 / 0.3e1)
t29 = t28 ** 2
t30 = s0 * t29
t31 = r0 ** 2
t32 = t19 ** 2
t34 = 0.1e1 / t32 / t31
t35 = t30 * t34
t39 = 0.1e1 / (0.1e1 + t27 * t35 / 0.24e2)
t53 = t21 ** 2
t55 = 0.1e1 / t24
t56 = math.sqrt(s0)
t61 = 0.1e1 / t19 / r0
t64 = t3 ** 2
t65 = math.sqrt(0.12e2)
t69 = t53 * t55 * t56 * t28 * t61
t70 = math.sqrt(t69)
t73 = math.sqrt(0.6e1)
t76 = scipy.special.lambertw(t65 * t70 * t69 * t73 / 0.1728e4)
t77 = t76 ** (0.1e1 / 0.3e1)
t78 = t77 ** 2
t85 = (0.2823705740248932030511071641312341561894e2 + 0.3e1 / 0.4e1 * t3 * t29 * t77 * t76) ** (0.1e1 / 0.4e1)
t100 = lax_cond(r0 / 0.2e1 <= p_a_dens_threshold, 0, -0.3e1 / 0.8e1 * t3 / t4 * t18 * t19 * (0.1e1 - t27 * t30 * t34 * t39 / 0.24e2 + t22 * t26 * s0 * t29 * t34 * t39 * (0.1e1 + params_a_c * t21 * t26 * t35 / 0.24e2) / (0.1e1 + params_a_c * t53 * t55 * t56 * t29 * t61 / math.pi * t64 * t78 * t85 / 0.8e1) / 0.24e2))
res = 0.2e1 * t100
"

/- gen_repo/impl/prebuilt/pol/gga_x_b86.py and gen_repo/impl/prebuilt/unpol/gga_x_b86.py -/
formula gga_x_b86 pol "t2 = 3 ** (0.1e1 / 0.3e1)
t3 = math.pi ** (0.1e1 / 0.3e1)
t5 = t2 / t3
t6 = r0 + r1
t7 = 0.1e1 / t6
t10 = 0.2e1 * r0 * t7 <= p_a_zeta_threshold
t11 = p_a_zeta_threshold - 0.1e1
t14 = 0.2e1 * r1 * t7 <= p_a_zeta_threshold
t15 = -t11
t17 = (r0 - r1) * t7
t18 = lax_cond(t14, t15, t17)
t19 = lax_cond(t10, t11, t18)
t20 = 0.1e1 + t19
t22 = p_a_zeta_threshold ** (0.1e1 / 0.3e1)
t23 = t22 * p_a_zeta_threshold
t24 = t20 ** (0.1e1 / 0.3e1)
t26 = lax_cond(t20 <= p_a_zeta_threshold, t23, t24 * t20)
t27 = t6 ** (0.1e1 / 0.3e1)
t30 = r0 ** 2
t31 = r0 ** (0.1e1 / 0.3e1)
t32 = t31 ** 2
t34 = 0.1e1 / t32 / t30
t38 = (params_a_gamma * s0 * t34 + 0.1e1) ** params_a_omega
t46 = lax_cond(r0 <= p_a_dens_threshold, 0, -0.3e1 / 0.8e1 * t5 * t26 * t27 * (0.1e1 + params_a_beta * s0 * t34 / t38))
t48 = lax_cond(t10, t15, -t17)
t49 = lax_cond(t14, t11, t48)
t50 = 0.1e1 + t49
t52 = t50 ** (0.1e1 / 0.3e1)
t54 = lax_cond(t50 <= p_a_zeta_threshold, t23, t52 * t50)
t57 = r1 ** 2
t58 = r1 ** (0.1e1 / 0.3e1)
t59 = t58 ** 2
t61 = 0.1e1 / t59 / t57
t65 = (params_a_gamma * s2 * t61 + 0.1e1) ** params_a_omega
t73 = lax_cond(r1 <= p_a_dens_threshold, 0, -0.3e1 / 0.8e1 * t5 * t54 * t27 * (0.1e1 + params_a_beta * s2 * t61 / t65))
res = t46 + t73
" unpol "t3 = 3 ** (0.1e1 / 0.3e1)
t4 = math.pi ** (0.1e1 / 0.3e1)
t7 = 0.1e1 <= p_a_zeta_threshold
t8 = p_a_zeta_threshold - 0.1e1
t10 = lax_cond(t7, -t8, 0)
t11 = lax_cond(t7, t8, t10)
t12 = 0.1e1 + t11
t14 = p_a_zeta_threshold ** (0.1e1 / 0.3e1)
t16 = t12 ** (0.1e1 / 0.3e1)
t18 = lax_cond(t12 <= p_a_zeta_threshold, t14 * p_a_zeta_threshold, t16 * t12)
t19 = r0 ** (0.1e1 / 0.3e1)
t22 = 2 ** (0.1e1 / 0.3e1)
t23 = t22 ** 2
t24 = r0 ** 2
t25 = t19 ** 2
t28 = t23 / t25 / t24
t32 = (params_a_gamma * s0 * t28 + 0.1e1) ** params_a_omega
t40 = lax_cond(r0 / 0.2e1 <= p_a_dens_threshold, 0, -0.3e1 / 0.8e1 * t3 / t4 * t18 * t19 * (0.1e1 + params_a_beta * s0 * t28 / t32))
res = 0.2e1 * t40
"

/- gen_repo/impl/prebuilt/pol/gga_x_b88.py and gen_repo/impl/prebuilt/unpol/gga_x_b88.py -/
formula gga_x_b88 pol "t2 = 3 ** (0.1e1 / 0.3e1)
t3 = math.pi ** (0.1e1 / 0.3e1)
t5 = t2 / t3
t6 = r0 + r1
t7 = 0.1e1 / t6
t10 = 0.2e1 * r0 * t7 <= p_a_zeta_threshold
t11 = p_a_zeta_threshold - 0.1e1
t14 = 0.2e1 * r1 * t7 <= p_a_zeta_threshold
t15 = -t11
t17 = (r0 - r1) * t7
t18 = lax_cond(t14, t15, t17)
t19 = lax_cond(t10, t11, t18)
t20 = 0.1e1 + t19
t22 = p_a_zeta_threshold ** (0.1e1 / 0.3e1)
t23 = t22 * p_a_zeta_threshold
t24 = t20 ** (0.1e1 / 0.3e1)
t26 = lax_cond(t20 <= p_a_zeta_threshold, t23, t24 * t20)
t27 = t6 ** (0.1e1 / 0.3e1)
t29 = t2 ** 2
t32 = (0.1e1 / math.pi) ** (0.1e1 / 0.3e1)
t34 = params_a_beta * t29 / t32
t35 = 4 ** (0.1e1 / 0.3e1)
t37 = r0 ** 2
t38 = r0 ** (0.1e1 / 0.3e1)
t39 = t38 ** 2
t42 = params_a_gamma * params_a_beta
t43 = math.sqrt(s0)
t46 = t43 / t38 / r0
t47 = math.asinh(t46)
t60 = lax_cond(r0 <= p_a_dens_threshold, 0, -0.3e1 / 0.8e1 * t5 * t26 * t27 * (0.1e1 + 0.2e1 / 0.9e1 * t34 * t35 * s0 / t39 / t37 / (t42 * t46 * t47 + 0.1e1)))
t62 = lax_cond(t10, t15, -t17)
t63 = lax_cond(t14, t11, t62)
t64 = 0.1e1 + t63
t66 = t64 ** (0.1e1 / 0.3e1)
t68 = lax_cond(t64 <= p_a_zeta_threshold, t23, t66 * t64)
t71 = r1 ** 2
t72 = r1 ** (0.1e1 / 0.3e1)
t73 = t72 ** 2
t76 = math.sqrt(s2)
t79 = t76 / t72 / r1
t80 = math.asinh(t79)
t93 = lax_cond(r1 <= p_a_dens_threshold, 0, -0.3e1 / 0.8e1 * t5 * t68 * t27 * (0.1e1 + 0.2e1 / 0.9e1 * t34 * t35 * s2 / t73 / t71 / (t42 * t79 * t80 + 0.1e1)))
res = t60 + t93
" unpol "t3 = 3 ** (0.1e1 / 0.3e1)
t4 = math.pi ** (0.1e1 / 0.3e1)
t7 = 0.1e1 <= p_a_zeta_threshold
t8 = p_a_zeta_threshold - 0.1e1
t10 = lax_cond(t7, -t8, 0)
t11 = lax_cond(t7, t8, t10)
t12 = 0.1e1 + t11
t14 = p_a_zeta_threshold ** (0.1e1 / 0.3e1)
t16 = t12 ** (0.1e1 / 0.3e1)
t18 = lax_cond(t12 <= p_a_zeta_threshold, t14 * p_a_zeta_threshold, t16 * t12)
t19 = r0 ** (0.1e1 / 0.3e1)
t21 = t3 ** 2
t24 = (0.1e1 / math.pi) ** (0.1e1 / 0.3e1)
t26 = 4 ** (0.1e1 / 0.3e1)
t29 = 2 ** (0.1e1 / 0.3e1)
t30 = t29 ** 2
t32 = r0 ** 2
t33 = t19 ** 2
t37 = math.sqrt(s0)
t40 = 0.1e1 / t19 / r0
t44 = math.asinh(t37 * t29 * t40)
t57 = lax_cond(r0 / 0.2e1 <= p_a_dens_threshold, 0, -0.3e1 / 0.8e1 * t3 / t4 * t18 * t19 * (0.1e1 + 0.2e1 / 0.9e1 * params_a_beta * t21 / t24 * t26 * s0 * t30 / t33 / t32 / (params_a_gamma * params_a_beta * t37 * t29 * t40 * t44 + 0.1e1)))
res = 0.2e1 * t57
"

/- gen_repo/impl/prebuilt/pol/gga_x_bayesian.py and gen_repo/impl/prebuilt/unpol/gga_x_bayesian.py -/
formula gga_x_bayesian pol "t2 = 3 ** (0.1e1 / 0.3e1)
t3 = math.pi ** (0.1e1 / 0.3e1)
t5 = t2 / t3
t6 = r0 + r1
t7 = 0.1e1 / t6
t10 = 0.2e1 * r0 * t7 <= p_a_zeta_threshold
t11 = p_a_zeta_threshold - 0.1e1
t14 = 0.2e1 * r1 * t7 <= p_a_zeta_threshold
t15 = -t11
t17 = (r0 - r1) * t7
t18 = lax_cond(t14, t15, t17)
t19 = lax_cond(t10, t11, t18)
t20 = 0.1e1 + t19
t22 = p_a_zeta_threshold ** (0.1e1 / 0.3e1)
t23 = t22 * p_a_zeta_threshold
t24 = t20 ** (0.1e1 / 0.3e1)
t26 = lax_cond(t20 <= p_a_zeta_threshold, t23, t24 * t20)
t27 = t6 ** (0.1e1 / 0.3e1)
t29 = 6 ** (0.1e1 / 0.3e1)
t30 = math.pi ** 2
t31 = t30 ** (0.1e1 / 0.3e1)
t32 = t31 ** 2
t34 = t29 / t32
t36 = r0 ** 2
t37 = r0 ** (0.1e1 / 0.3e1)
t38 = t37 ** 2
t40 = 0.1e1 / t38 / t36
t41 = t29 ** 2
t43 = t41 / t31
t44 = math.sqrt(s0)
t51 = (0.1e1 + t43 * t44 / t37 / r0 / 0.12e2) ** 2
t52 = 0.1e1 / t51
t66 = lax_cond(r0 <= p_a_dens_threshold, 0, -0.3e1 / 0.8e1 * t5 * t26 * t27 * (0.10008e1 + t34 * s0 * t40 * t52 * (0.1926e0 + 0.79008333333333333333e-1 * t34 * s0 * t40 * t52) / 0.24e2))
t68 = lax_cond(t10, t15, -t17)
t69 = lax_cond(t14, t11, t68)
t70 = 0.1e1 + t69
t72 = t70 ** (0.1e1 / 0.3e1)
t74 = lax_cond(t70 <= p_a_zeta_threshold, t23, t72 * t70)
t77 = r1 ** 2
t78 = r1 ** (0.1e1 / 0.3e1)
t79 = t78 ** 2
t81 = 0.1e1 / t79 / t77
t82 = math.sqrt(s2)
t89 = (0.1e1 + t43 * t82 / t78 / r1 / 0.12e2) ** 2
t90 = 0.1e1 / t89
t104 = lax_cond(r1 <= p_a_dens_threshold, 0, -0.3e1 / 0.8e1 * t5 * t74 * t27 * (0.10008e1 + t34 * s2 * t81 * t90 * (0.1926e0 + 0.79008333333333333333e-1 * t34 * s2 * t81 * t90) / 0.24e2))
res = t66 + t104
" unpol "t3 = 3 ** (0.1e1 / 0.3e1)
t4 = math.pi ** (0.1e1 / 0.3e1)
t7 = 0.1e1 <= p_a_zeta_threshold
t8 = p_a_zeta_threshold - 0.1e1
t10 = lax_cond(t7, -t8, 0)
t11 = lax_cond(t7, t8, t10)
t12 = 0.1e1 + t11
t14 = p_a_zeta_threshold ** (0.1e1 / 0.3e1)
t16 = t12 ** (0.1e1 / 0.3e1)
t18 = lax_cond(t12 <= p_a_zeta_threshold, t14 * p_a_zeta_threshold, t16 * t12)
t19 = r0 ** (0.1e1 / 0.3e1)
t21 = 6 ** (0.1e1 / 0.3e1)
t22 = math.pi ** 2
t23 = t22 ** (0.1e1 / 0.3e1)
t24 = t23 ** 2
t27 = t21 / t24 * s0
t28 = 2 ** (0.1e1 / 0.3e1)
t29 = t28 ** 2
t30 = r0 ** 2
t31 = t19 ** 2
t34 = t29 / t31 / t30
t35 = t21 ** 2
t38 = math.sqrt(s0)
t46 = (0.1e1 + t35 / t23 * t38 * t28 / t19 / r0 / 0.12e2) ** 2
t47 = 0.1e1 / t46
t60 = lax_cond(r0 / 0.2e1 <= p_a_dens_threshold, 0, -0.3e1 / 0.8e1 * t3 / t4 * t18 * t19 * (0.10008e1 + t27 * t34 * t47 * (0.1926e0 + 0.79008333333333333333e-1 * t27 * t34 * t47) / 0.24e2))
res = 0.2e1 * t60
"

/- gen_repo/impl/prebuilt/pol/gga_x_beefvdw.py and gen_repo/impl/prebuilt/unpol/gga_x_beefvdw.py -/
formula gga_x_beefvdw pol "t2 = 3 ** (0.1e1 / 0.3e1)
t3 = math.pi ** (0.1e1 / 0.3e1)
t5 = t2 / t3
t6 = r0 + r1
t7 = 0.1e1 / t6
t10 = 0.2e1 * r0 * t7 <= p_a_zeta_threshold
t11 = p_a_zeta_threshold - 0.1e1
t14 = 0.2e1 * r1 * t7 <= p_a_zeta_threshold
t15 = -t11
t17 = (r0 - r1) * t7
t18 = lax_cond(t14, t15, t17)
t19 = lax_cond(t10, t11, t18)
t20 = t19 + 0.1e1
t22 = p_a_zeta_threshold ** (0.1e1 / 0.3e1)
t23 = t22 * p_a_zeta_threshold
t24 = t20 ** (0.1e1 / 0.3e1)
t26 = lax_cond(t20 <= p_a_zeta_threshold, t23, t24 * t20)
t27 = t6 ** (0.1e1 / 0.3e1)
t29 = 6 ** (0.1e1 / 0.3e1)
t30 = math.pi ** 2
t31 = t30 ** (0.1e1 / 0.3e1)
t32 = t31 ** 2
t34 = t29 / t32
t35 = r0 ** 2
t36 = r0 ** (0.1e1 / 0.3e1)
t37 = t36 ** 2
t40 = s0 / t37 / t35
t46 = t34 * t40 / (0.4e1 + t34 * t40 / 0.24e2)
t48 = t46 / 0.12e2 - 0.1e1
t49 = t48 ** 2
t50 = t49 ** 2
t51 = t50 * t48
t52 = t50 ** 2
t53 = t52 * t51
t54 = t52 ** 2
t57 = t49 * t48
t58 = t52 * t57
t61 = t52 * t50
t64 = t52 * t48
t67 = t52 * t49
t72 = t50 * t49
t75 = t50 * t57
t91 = 0.41355861880146538750e4 * t54 * t53 - 0.29150193011493262292e5 * t54 * t58 - 0.54277774626371860320e4 * t54 * t61 + 0.90365611108522808258e5 * t54 * t64 + 0.40074935854432390114e5 * t54 * t67 - 0.13204466182182150467e6 * t54 * t52 + 0.25589479526235334610e6 * t54 * t72 - 0.16114215399846280595e6 * t54 * t75 - 0.32352403136049329184e6 * t54 * t50 + 0.18078200670879145336e6 * t54 * t51 + 0.27967048856303053872e6 * t54 * t49 - 0.12981481812794983922e6 * t54 * t57 + 0.56174007979372666951e5 * t54 * t48 - 0.10276426607863824397e5 * t52 * t75 - 0.16837084139014120539e6 * t54
t107 = 0.11313514630621233134e1 - 0.2810240180568462990e4 * t53 + 0.70504541869034010051e5 * t52 * t72 + 0.22748997850816485208e4 * t58 - 0.20148245175625047025e5 * t61 + 0.37835396407252402359e4 * t67 - 0.44233229018433803622e3 * t52 - 0.61754786104528599731e3 * t64 + 0.30542034959315850168e2 * t72 + 0.86005730499279641299e2 * t75 - 0.69459735177638985466e0 * t50 - 0.72975787893717136018e1 * t51 - 0.38916037779196815969e0 * t49 + 0.52755620115589800943e0 * t57 + 0.37534251004296526981e-1 * t46
t112 = lax_cond(r0 <= p_a_dens_threshold, 0, -0.3e1 / 0.8e1 * t5 * t26 * t27 * (t91 + t107))
t114 = lax_cond(t10, t15, -t17)
t115 = lax_cond(t14, t11, t114)
t116 = t115 + 0.1e1
t118 = t116 ** (0.1e1 / 0.3e1)
t120 = lax_cond(t116 <= p_a_zeta_threshold, t23, t118 * t116)
t122 = r1 ** 2
t123 = r1 ** (0.1e1 / 0.3e1)
t124 = t123 ** 2
t127 = s2 / t124 / t122
t133 = t34 * t127 / (0.4e1 + t34 * t127 / 0.24e2)
t135 = t133 / 0.12e2 - 0.1e1
t136 = t135 ** 2
t137 = t136 ** 2
t138 = t137 * t135
t142 = t136 * t135
t144 = t137 * t142
t146 = t137 ** 2
t148 = t146 * t142
t150 = t137 * t136
t152 = t146 * t135
t154 = t146 * t136
t156 = t146 * t138
t160 = t146 * t137
t162 = t146 ** 2
t167 = -0.72975787893717136018e1 * t138 - 0.69459735177638985466e0 * t137 - 0.38916037779196815969e0 * t136 + 0.52755620115589800943e0 * t142 + 0.86005730499279641299e2 * t144 - 0.44233229018433803622e3 * t146 + 0.22748997850816485208e4 * t148 + 0.30542034959315850168e2 * t150 - 0.61754786104528599731e3 * t152 + 0.37835396407252402359e4 * t154 - 0.2810240180568462990e4 * t156 - 0.10276426607863824397e5 * t146 * t144 - 0.20148245175625047025e5 * t160 + 0.56174007979372666951e5 * t162 * t135 + 0.70504541869034010051e5 * t146 * t150
t194 = 0.11313514630621233134e1 + 0.27967048856303053872e6 * t162 * t136 - 0.16837084139014120539e6 * t162 - 0.32352403136049329184e6 * t162 * t137 + 0.18078200670879145336e6 * t162 * t138 - 0.12981481812794983922e6 * t162 * t142 + 0.25589479526235334610e6 * t162 * t150 - 0.16114215399846280595e6 * t162 * t144 + 0.40074935854432390114e5 * t162 * t154 - 0.13204466182182150467e6 * t162 * t146 - 0.29150193011493262292e5 * t162 * t148 + 0.90365611108522808258e5 * t162 * t152 - 0.54277774626371860320e4 * t162 * t160 + 0.41355861880146538750e4 * t162 * t156 + 0.37534251004296526981e-1 * t133
t199 = lax_cond(r1 <= p_a_dens_threshold, 0, -0.3e1 / 0.8e1 * t5 * t120 * t27 * (t167 + t194))
res = t112 + t199
" unpol "t3 = 3 ** (0.1e1 / 0.3e1)
t4 = math.pi ** (0.1e1 / 0.3e1)
t7 = 0.1e1 <= p_a_zeta_threshold
t8 = p_a_zeta_threshold - 0.1e1
t10 = lax_cond(t7, -t8, 0)
t11 = lax_cond(t7, t8, t10)
t12 = t11 + 0.1e1
t14 = p_a_zeta_threshold ** (0.1e1 / 0.3e1)
t16 = t12 ** (0.1e1 / 0.3e1)
t18 = lax_cond(t12 <= p_a_zeta_threshold, t14 * p_a_zeta_threshold, t16 * t12)
t19 = r0 ** (0.1e1 / 0.3e1)
t21 = 6 ** (0.1e1 / 0.3e1)
t22 = math.pi ** 2
t23 = t22 ** (0.1e1 / 0.3e1)
t24 = t23 ** 2
t26 = t21 / t24
t28 = 2 ** (0.1e1 / 0.3e1)
t29 = t28 ** 2
t30 = r0 ** 2
t31 = t19 ** 2
t33 = 0.1e1 / t31 / t30
t42 = t26 * s0 * t29 * t33 / (0.4e1 + t26 * s0 * t29 * t33 / 0.24e2)
t44 = t42 / 0.12e2 - 0.1e1
t45 = t44 ** 2
t46 = t45 ** 2
t47 = t46 * t44
t48 = t46 ** 2
t49 = t48 * t47
t50 = t48 ** 2
t53 = t48 * t46
t56 = t48 * t45
t59 = t45 * t44
t60 = t48 * t59
t63 = t48 * t44
t66 = t46 * t59
t71 = t46 * t45
t87 = 0.41355861880146538750e4 * t50 * t49 - 0.54277774626371860320e4 * t50 * t53 + 0.40074935854432390114e5 * t50 * t56 - 0.29150193011493262292e5 * t50 * t60 + 0.90365611108522808258e5 * t50 * t63 - 0.16114215399846280595e6 * t50 * t66 - 0.13204466182182150467e6 * t50 * t48 + 0.25589479526235334610e6 * t50 * t71 - 0.32352403136049329184e6 * t50 * t46 + 0.18078200670879145336e6 * t50 * t47 - 0.12981481812794983922e6 * t50 * t59 + 0.56174007979372666951e5 * t50 * t44 + 0.27967048856303053872e6 * t50 * t45 - 0.16837084139014120539e6 * t50 + 0.70504541869034010051e5 * t48 * t71
t103 = 0.11313514630621233134e1 - 0.10276426607863824397e5 * t48 * t66 - 0.2810240180568462990e4 * t49 + 0.22748997850816485208e4 * t60 - 0.20148245175625047025e5 * t53 + 0.37835396407252402359e4 * t56 - 0.44233229018433803622e3 * t48 - 0.61754786104528599731e3 * t63 + 0.86005730499279641299e2 * t66 - 0.72975787893717136018e1 * t47 + 0.30542034959315850168e2 * t71 - 0.69459735177638985466e0 * t46 - 0.38916037779196815969e0 * t45 + 0.52755620115589800943e0 * t59 + 0.37534251004296526981e-1 * t42
t108 = lax_cond(r0 / 0.2e1 <= p_a_dens_threshold, 0, -0.3e1 / 0.8e1 * t3 / t4 * t18 * t19 * (t87 + t103))
res = 0.2e1 * t108
"

/- gen_repo/impl/prebuilt/pol/gga_x_bpccac.py and gen_repo/impl/prebuilt/unpol/gga_x_bpccac.py -/
formula gga_x_bpccac pol "t2 = 3 ** (0.1e1 / 0.3e1)
t3 = math.pi ** (0.1e1 / 0.3e1)
t5 = t2 / t3
t6 = r0 + r1
t7 = 0.1e1 / t6
t10 = 0.2e1 * r0 * t7 <= p_a_zeta_threshold
t11 = p_a_zeta_threshold - 0.1e1
t14 = 0.2e1 * r1 * t7 <= p_a_zeta_threshold
t15 = -t11
t17 = (r0 - r1) * t7
t18 = lax_cond(t14, t15, t17)
t19 = lax_cond(t10, t11, t18)
t20 = 0.1e1 + t19
t22 = p_a_zeta_threshold ** (0.1e1 / 0.3e1)
t23 = t22 * p_a_zeta_threshold
t24 = t20 ** (0.1e1 / 0.3e1)
t26 = lax_cond(t20 <= p_a_zeta_threshold, t23, t24 * t20)
t27 = t6 ** (0.1e1 / 0.3e1)
t29 = math.sqrt(s0)
t30 = r0 ** (0.1e1 / 0.3e1)
t33 = t29 / t30 / r0
t35 = math.exp(-t33 + 0.19e2)
t37 = 0.1e1 / (0.1e1 + t35)
t39 = 6 ** (0.1e1 / 0.3e1)
t40 = math.pi ** 2
t41 = t40 ** (0.1e1 / 0.3e1)
t42 = t41 ** 2
t43 = 0.1e1 / t42
t44 = t39 * t43
t45 = r0 ** 2
t46 = t30 ** 2
t48 = 0.1e1 / t46 / t45
t50 = t44 * s0 * t48
t58 = math.exp(-0.25e2 / 0.6e1 * t50)
t66 = t39 ** 2
t69 = t66 / t41 / t40
t70 = s0 ** 2
t71 = t45 ** 2
t77 = 0.69444444444444444444e-5 * t69 * t70 / t30 / t71 / r0
t80 = t66 / t41
t83 = math.asinh(0.64963333333333333333e0 * t80 * t33)
t96 = lax_cond(r0 <= p_a_dens_threshold, 0, -0.3e1 / 0.8e1 * t5 * t26 * t27 * ((0.1e1 - t37) * (0.2227e1 - 0.1505529e1 / (0.1227e1 + 0.91464571985215458336e-2 * t50)) + t37 * (0.1e1 + ((0.2743e0 - 0.1508e0 * t58) * t39 * t43 * s0 * t48 / 0.24e2 - t77) / (0.1e1 + 0.16370833333333333333e-1 * t80 * t33 * t83 + t77))))
t98 = lax_cond(t10, t15, -t17)
t99 = lax_cond(t14, t11, t98)
t100 = 0.1e1 + t99
t102 = t100 ** (0.1e1 / 0.3e1)
t104 = lax_cond(t100 <= p_a_zeta_threshold, t23, t102 * t100)
t106 = math.sqrt(s2)
t107 = r1 ** (0.1e1 / 0.3e1)
t110 = t106 / t107 / r1
t112 = math.exp(-t110 + 0.19e2)
t114 = 0.1e1 / (0.1e1 + t112)
t116 = r1 ** 2
t117 = t107 ** 2
t119 = 0.1e1 / t117 / t116
t121 = t44 * s2 * t119
t129 = math.exp(-0.25e2 / 0.6e1 * t121)
t137 = s2 ** 2
t138 = t116 ** 2
t144 = 0.69444444444444444444e-5 * t69 * t137 / t107 / t138 / r1
t148 = math.asinh(0.64963333333333333333e0 * t80 * t110)
t161 = lax_cond(r1 <= p_a_dens_threshold, 0, -0.3e1 / 0.8e1 * t5 * t104 * t27 * ((0.1e1 - t114) * (0.2227e1 - 0.1505529e1 / (0.1227e1 + 0.91464571985215458336e-2 * t121)) + t114 * (0.1e1 + ((0.2743e0 - 0.1508e0 * t129) * t39 * t43 * s2 * t119 / 0.24e2 - t144) / (0.1e1 + 0.16370833333333333333e-1 * t80 * t110 * t148 + t144))))
res = t96 + t161
" unpol "t3 = 3 ** (0.1e1 / 0.3e1)
t4 = math.pi ** (0.1e1 / 0.3e1)
t7 = 0.1e1 <= p_a_zeta_threshold
t8 = p_a_zeta_threshold - 0.1e1
t10 = lax_cond(t7, -t8, 0)
t11 = lax_cond(t7, t8, t10)
t12 = 0.1e1 + t11
t14 = p_a_zeta_threshold ** (0.1e1 / 0.3e1)
t16 = t12 ** (0.1e1 / 0.3e1)
t18 = lax_cond(t12 <= p_a_zeta_threshold, t14 * p_a_zeta_threshold, t16 * t12)
t19 = r0 ** (0.1e1 / 0.3e1)
t21 = math.sqrt(s0)
t22 = 2 ** (0.1e1 / 0.3e1)
t25 = 0.1e1 / t19 / r0
t26 = t21 * t22 * t25
t28 = math.exp(-t26 + 0.19e2)
t30 = 0.1e1 / (0.1e1 + t28)
t32 = 6 ** (0.1e1 / 0.3e1)
t33 = math.pi ** 2
t34 = t33 ** (0.1e1 / 0.3e1)
t35 = t34 ** 2
t36 = 0.1e1 / t35
t38 = t22 ** 2
t40 = r0 ** 2
t41 = t19 ** 2
t44 = s0 * t38 / t41 / t40
t45 = t32 * t36 * t44
t53 = math.exp(-0.25e2 / 0.6e1 * t45)
t60 = t32 ** 2
t64 = s0 ** 2
t66 = t40 ** 2
t72 = 0.13888888888888888889e-4 * t60 / t34 / t33 * t64 * t22 / t19 / t66 / r0
t75 = t60 / t34
t80 = math.asinh(0.64963333333333333333e0 * t75 * t26)
t93 = lax_cond(r0 / 0.2e1 <= p_a_dens_threshold, 0, -0.3e1 / 0.8e1 * t3 / t4 * t18 * t19 * ((0.1e1 - t30) * (0.2227e1 - 0.1505529e1 / (0.1227e1 + 0.91464571985215458336e-2 * t45)) + t30 * (0.1e1 + ((0.2743e0 - 0.1508e0 * t53) * t32 * t36 * t44 / 0.24e2 - t72) / (0.1e1 + 0.16370833333333333333e-1 * t75 * t21 * t22 * t25 * t80 + t72))))
res = 0.2e1 * t93
"

/- gen_repo/impl/prebuilt/pol/gga_x_c09x.py and gen_repo/impl/prebuilt/unpol/gga_x_c09x.py -/
formula gga_x_c09x pol "t2 = 3 ** (0.1e1 / 0.3e1)
t3 = math.pi ** (0.1e1 / 0.3e1)
t5 = t2 / t3
t6 = r0 + r1
t7 = 0.1e1 / t6
t10 = 0.2e1 * r0 * t7 <= p_a_zeta_threshold
t11 = p_a_zeta_threshold - 0.1e1
t14 = 0.2e1 * r1 * t7 <= p_a_zeta_threshold
t15 = -t11
t17 = (r0 - r1) * t7
t18 = lax_cond(t14, t15, t17)
t19 = lax_cond(t10, t11, t18)
t20 = 0.1e1 + t19
t22 = p_a_zeta_threshold ** (0.1e1 / 0.3e1)
t23 = t22 * p_a_zeta_threshold
t24 = t20 ** (0.1e1 / 0.3e1)
t26 = lax_cond(t20 <= p_a_zeta_threshold, t23, t24 * t20)
t27 = t6 ** (0.1e1 / 0.3e1)
t29 = 6 ** (0.1e1 / 0.3e1)
t30 = math.pi ** 2
t31 = t30 ** (0.1e1 / 0.3e1)
t32 = t31 ** 2
t34 = t29 / t32
t35 = r0 ** 2
t36 = r0 ** (0.1e1 / 0.3e1)
t37 = t36 ** 2
t40 = s0 / t37 / t35
t41 = t34 * t40
t43 = math.exp(-0.20125000000000000000e-2 * t41)
t48 = math.exp(-0.10062500000000000000e-2 * t41)
t54 = lax_cond(r0 <= p_a_dens_threshold, 0, -0.3e1 / 0.8e1 * t5 * t26 * t27 * (0.2245e1 + 0.25708333333333333333e-2 * t34 * t40 * t43 - 0.1245e1 * t48))
t56 = lax_cond(t10, t15, -t17)
t57 = lax_cond(t14, t11, t56)
t58 = 0.1e1 + t57
t60 = t58 ** (0.1e1 / 0.3e1)
t62 = lax_cond(t58 <= p_a_zeta_threshold, t23, t60 * t58)
t64 = r1 ** 2
t65 = r1 ** (0.1e1 / 0.3e1)
t66 = t65 ** 2
t69 = s2 / t66 / t64
t70 = t34 * t69
t72 = math.exp(-0.20125000000000000000e-2 * t70)
t77 = math.exp(-0.10062500000000000000e-2 * t70)
t83 = lax_cond(r1 <= p_a_dens_threshold, 0, -0.3e1 / 0.8e1 * t5 * t62 * t27 * (0.2245e1 + 0.25708333333333333333e-2 * t34 * t69 * t72 - 0.1245e1 * t77))
res = t54 + t83
" unpol "t3 = 3 ** (0.1e1 / 0.3e1)
t4 = math.pi ** (0.1e1 / 0.3e1)
t7 = 0.1e1 <= p_a_zeta_threshold
t8 = p_a_zeta_threshold - 0.1e1
t10 = lax_cond(t7, -t8, 0)
t11 = lax_cond(t7, t8, t10)
t12 = 0.1e1 + t11
t14 = p_a_zeta_threshold ** (0.1e1 / 0.3e1)
t16 = t12 ** (0.1e1 / 0.3e1)
t18 = lax_cond(t12 <= p_a_zeta_threshold, t14 * p_a_zeta_threshold, t16 * t12)
t19 = r0 ** (0.1e1 / 0.3e1)
t21 = 6 ** (0.1e1 / 0.3e1)
t22 = math.pi ** 2
t23 = t22 ** (0.1e1 / 0.3e1)
t24 = t23 ** 2
t26 = t21 / t24
t28 = 2 ** (0.1e1 / 0.3e1)
t29 = t28 ** 2
t30 = r0 ** 2
t31 = t19 ** 2
t33 = 0.1e1 / t31 / t30
t37 = t26 * s0 * t29 * t33
t39 = math.exp(-0.20125000000000000000e-2 * t37)
t44 = math.exp(-0.10062500000000000000e-2 * t37)
t50 = lax_cond(r0 / 0.2e1 <= p_a_dens_threshold, 0, -0.3e1 / 0.8e1 * t3 / t4 * t18 * t19 * (0.2245e1 + 0.25708333333333333333e-2 * t26 * s0 * t29 * t33 * t39 - 0.1245e1 * t44))
res = 0.2e1 * t50
"

/- gen_repo/impl/prebuilt/pol/gga_x_cap.py and gen_repo/impl/prebuilt/unpol/gga_x_cap.py -/
formula gga_x_cap pol "t2 = 3 ** (0.1e1 / 0.3e1)
t3 = math.pi ** (0.1e1 / 0.3e1)
t5 = t2 / t3
t6 = r0 + r1
t7 = 0.1e1 / t6
t10 = 0.2e1 * r0 * t7 <= p_a_zeta_threshold
t11 = p_a_zeta_threshold - 0.1e1
t14 = 0.2e1 * r1 * t7 <= p_a_zeta_threshold
t15 = -t11
t17 = (r0 - r1) * t7
t18 = lax_cond(t14, t15, t17)
t19 = lax_cond(t10, t11, t18)
t20 = 0.1e1 + t19
t22 = p_a_zeta_threshold ** (0.1e1 / 0.3e1)
t23 = t22 * p_a_zeta_threshold
t24 = t20 ** (0.1e1 / 0.3e1)
t26 = lax_cond(t20 <= p_a_zeta_threshold, t23, t24 * t20)
t27 = t6 ** (0.1e1 / 0.3e1)
t29 = 6 ** (0.1e1 / 0.3e1)
t30 = t29 ** 2
t32 = math.pi ** 2
t33 = t32 ** (0.1e1 / 0.3e1)
t34 = 0.1e1 / t33
t35 = params_a_alphaoAx * t30 * t34
t36 = math.sqrt(s0)
t37 = r0 ** (0.1e1 / 0.3e1)
t40 = t36 / t37 / r0
t41 = t30 * t34
t45 = math.log(0.1e1 + t41 * t40 / 0.12e2)
t57 = lax_cond(r0 <= p_a_dens_threshold, 0, -0.3e1 / 0.8e1 * t5 * t26 * t27 * (0.1e1 - t35 * t40 * t45 / (params_a_c * t45 + 0.1e1) / 0.12e2))
t59 = lax_cond(t10, t15, -t17)
t60 = lax_cond(t14, t11, t59)
t61 = 0.1e1 + t60
t63 = t61 ** (0.1e1 / 0.3e1)
t65 = lax_cond(t61 <= p_a_zeta_threshold, t23, t63 * t61)
t67 = math.sqrt(s2)
t68 = r1 ** (0.1e1 / 0.3e1)
t71 = t67 / t68 / r1
t75 = math.log(0.1e1 + t41 * t71 / 0.12e2)
t87 = lax_cond(r1 <= p_a_dens_threshold, 0, -0.3e1 / 0.8e1 * t5 * t65 * t27 * (0.1e1 - t35 * t71 * t75 / (params_a_c * t75 + 0.1e1) / 0.12e2))
res = t57 + t87
" unpol "t3 = 3 ** (0.1e1 / 0.3e1)
t4 = math.pi ** (0.1e1 / 0.3e1)
t7 = 0.1e1 <= p_a_zeta_threshold
t8 = p_a_zeta_threshold - 0.1e1
t10 = lax_cond(t7, -t8, 0)
t11 = lax_cond(t7, t8, t10)
t12 = 0.1e1 + t11
t14 = p_a_zeta_threshold ** (0.1e1 / 0.3e1)
t16 = t12 ** (0.1e1 / 0.3e1)
t18 = lax_cond(t12 <= p_a_zeta_threshold, t14 * p_a_zeta_threshold, t16 * t12)
t19 = r0 ** (0.1e1 / 0.3e1)
t21 = 6 ** (0.1e1 / 0.3e1)
t22 = t21 ** 2
t24 = math.pi ** 2
t25 = t24 ** (0.1e1 / 0.3e1)
t26 = 0.1e1 / t25
t27 = math.sqrt(s0)
t30 = 2 ** (0.1e1 / 0.3e1)
t32 = 0.1e1 / t19 / r0
t40 = math.log(0.1e1 + t22 * t26 * t27 * t30 * t32 / 0.12e2)
t52 = lax_cond(r0 / 0.2e1 <= p_a_dens_threshold, 0, -0.3e1 / 0.8e1 * t3 / t4 * t18 * t19 * (0.1e1 - params_a_alphaoAx * t22 * t26 * t27 * t30 * t32 * t40 / (params_a_c * t40 + 0.1e1) / 0.12e2))
res = 0.2e1 * t52
"

/- gen_repo/impl/prebuilt/pol/gga_x_chachiyo.py and gen_repo/impl/prebuilt/unpol/gga_x_chachiyo.py -/
formula gga_x_chachiyo pol "t2 = 3 ** (0.1e1 / 0.3e1)
t3 = math.pi ** (0.1e1 / 0.3e1)
t5 = t2 / t3
t6 = r0 + r1
t7 = 0.1e1 / t6
t10 = 0.2e1 * r0 * t7 <= p_a_zeta_threshold
t11 = p_a_zeta_threshold - 0.1e1
t14 = 0.2e1 * r1 * t7 <= p_a_zeta_threshold
t15 = -t11
t17 = (r0 - r1) * t7
t18 = lax_cond(t14, t15, t17)
t19 = lax_cond(t10, t11, t18)
t20 = t19 + 0.1e1
t22 = p_a_zeta_threshold ** (0.1e1 / 0.3e1)
t23 = t22 * p_a_zeta_threshold
t24 = t20 ** (0.1e1 / 0.3e1)
t26 = lax_cond(t20 <= p_a_zeta_threshold, t23, t24 * t20)
t28 = t6 ** (0.1e1 / 0.3e1)
t29 = t3 ** 2
t30 = t2 * t29
t31 = 2 ** (0.1e1 / 0.3e1)
t33 = r0 ** 2
t34 = r0 ** (0.1e1 / 0.3e1)
t35 = t34 ** 2
t41 = math.pi ** 2
t42 = t2 ** 2
t43 = t42 * t3
t44 = t31 ** 2
t45 = math.sqrt(s0)
t50 = t43 * t44 * t45 / t34 / r0
t53 = math.log(t50 / 0.27e2 + 0.1e1)
t65 = lax_cond(r0 <= p_a_dens_threshold, 0, -0.3e1 / 0.8e1 * t5 * t26 * t28 * (0.2e1 / 0.81e2 * t30 * t31 * s0 / t35 / t33 + t41 * t53) / (t50 / 0.9e1 + t41) / t53)
t67 = lax_cond(t10, t15, -t17)
t68 = lax_cond(t14, t11, t67)
t69 = t68 + 0.1e1
t71 = t69 ** (0.1e1 / 0.3e1)
t73 = lax_cond(t69 <= p_a_zeta_threshold, t23, t71 * t69)
t76 = r1 ** 2
t77 = r1 ** (0.1e1 / 0.3e1)
t78 = t77 ** 2
t84 = math.sqrt(s2)
t89 = t43 * t44 * t84 / t77 / r1
t92 = math.log(t89 / 0.27e2 + 0.1e1)
t104 = lax_cond(r1 <= p_a_dens_threshold, 0, -0.3e1 / 0.8e1 * t5 * t73 * t28 * (0.2e1 / 0.81e2 * t30 * t31 * s2 / t78 / t76 + t41 * t92) / (t89 / 0.9e1 + t41) / t92)
res = t65 + t104
" unpol "t3 = 3 ** (0.1e1 / 0.3e1)
t4 = math.pi ** (0.1e1 / 0.3e1)
t7 = 0.1e1 <= p_a_zeta_threshold
t8 = p_a_zeta_threshold - 0.1e1
t10 = lax_cond(t7, -t8, 0)
t11 = lax_cond(t7, t8, t10)
t12 = t11 + 0.1e1
t14 = p_a_zeta_threshold ** (0.1e1 / 0.3e1)
t16 = t12 ** (0.1e1 / 0.3e1)
t18 = lax_cond(t12 <= p_a_zeta_threshold, t14 * p_a_zeta_threshold, t16 * t12)
t20 = r0 ** (0.1e1 / 0.3e1)
t21 = t4 ** 2
t23 = r0 ** 2
t24 = t20 ** 2
t30 = math.pi ** 2
t31 = t3 ** 2
t33 = math.sqrt(s0)
t37 = t31 * t4 * t33 / t20 / r0
t40 = math.log(0.2e1 / 0.27e2 * t37 + 0.1e1)
t52 = lax_cond(r0 / 0.2e1 <= p_a_dens_threshold, 0, -0.3e1 / 0.8e1 * t3 / t4 * t18 * t20 * (0.4e1 / 0.81e2 * t3 * t21 * s0 / t24 / t23 + t30 * t40) / (0.2e1 / 0.9e1 * t37 + t30) / t40)
res = 0.2e1 * t52
"

/- gen_repo/impl/prebuilt/pol/gga_x_dk87.py and gen_repo/impl/prebuilt/unpol/gga_x_dk87.py -/
formula gga_x_dk87 pol "t2 = 3 ** (0.1e1 / 0.3e1)
t3 = math.pi ** (0.1e1 / 0.3e1)
t5 = t2 / t3
t6 = r0 + r1
t7 = 0.1e1 / t6
t10 = 0.2e1 * r0 * t7 <= p_a_zeta_threshold
t11 = p_a_zeta_threshold - 0.1e1
t14 = 0.2e1 * r1 * t7 <= p_a_zeta_threshold
t15 = -t11
t17 = (r0 - r1) * t7
t18 = lax_cond(t14, t15, t17)
t19 = lax_cond(t10, t11, t18)
t20 = 0.1e1 + t19
t22 = p_a_zeta_threshold ** (0.1e1 / 0.3e1)
t23 = t22 * p_a_zeta_threshold
t24 = t20 ** (0.1e1 / 0.3e1)
t26 = lax_cond(t20 <= p_a_zeta_threshold, t23, t24 * t20)
t27 = t6 ** (0.1e1 / 0.3e1)
t29 = 0.1e1 / math.pi
t30 = 6 ** (0.1e1 / 0.3e1)
t31 = t30 ** 2
t33 = math.pi ** 2
t34 = t33 ** (0.1e1 / 0.3e1)
t36 = t2 ** 2
t38 = t29 ** (0.1e1 / 0.3e1)
t41 = t29 * t31 / t34 * t36 / t38
t42 = 4 ** (0.1e1 / 0.3e1)
t44 = r0 ** 2
t45 = r0 ** (0.1e1 / 0.3e1)
t46 = t45 ** 2
t48 = 0.1e1 / t46 / t44
t49 = math.sqrt(s0)
t53 = (t49 / t45 / r0) ** params_a_alpha
t69 = lax_cond(r0 <= p_a_dens_threshold, 0, -0.3e1 / 0.8e1 * t5 * t26 * t27 * (0.1e1 + 0.7e1 / 0.11664e5 * t41 * t42 * s0 * t48 * (params_a_a1 * t53 + 0.1e1) / (params_a_b1 * s0 * t48 + 0.1e1)))
t71 = lax_cond(t10, t15, -t17)
t72 = lax_cond(t14, t11, t71)
t73 = 0.1e1 + t72
t75 = t73 ** (0.1e1 / 0.3e1)
t77 = lax_cond(t73 <= p_a_zeta_threshold, t23, t75 * t73)
t80 = r1 ** 2
t81 = r1 ** (0.1e1 / 0.3e1)
t82 = t81 ** 2
t84 = 0.1e1 / t82 / t80
t85 = math.sqrt(s2)
t89 = (t85 / t81 / r1) ** params_a_alpha
t105 = lax_cond(r1 <= p_a_dens_threshold, 0, -0.3e1 / 0.8e1 * t5 * t77 * t27 * (0.1e1 + 0.7e1 / 0.11664e5 * t41 * t42 * s2 * t84 * (params_a_a1 * t89 + 0.1e1) / (params_a_b1 * s2 * t84 + 0.1e1)))
res = t69 + t105
" unpol "t3 = 3 ** (0.1e1 / 0.3e1)
t4 = math.pi ** (0.1e1 / 0.3e1)
t7 = 0.1e1 <= p_a_zeta_threshold
t8 = p_a_zeta_threshold - 0.1e1
t10 = lax_cond(t7, -t8, 0)
t11 = lax_cond(t7, t8, t10)
t12 = 0.1e1 + t11
t14 = p_a_zeta_threshold ** (0.1e1 / 0.3e1)
t16 = t12 ** (0.1e1 / 0.3e1)
t18 = lax_cond(t12 <= p_a_zeta_threshold, t14 * p_a_zeta_threshold, t16 * t12)
t19 = r0 ** (0.1e1 / 0.3e1)
t21 = 0.1e1 / math.pi
t22 = 6 ** (0.1e1 / 0.3e1)
t23 = t22 ** 2
t25 = math.pi ** 2
t26 = t25 ** (0.1e1 / 0.3e1)
t28 = t3 ** 2
t30 = t21 ** (0.1e1 / 0.3e1)
t34 = 4 ** (0.1e1 / 0.3e1)
t36 = 2 ** (0.1e1 / 0.3e1)
t37 = t36 ** 2
t39 = r0 ** 2
t40 = t19 ** 2
t42 = 0.1e1 / t40 / t39
t43 = math.sqrt(s0)
t48 = (t43 * t36 / t19 / r0) ** params_a_alpha
t65 = lax_cond(r0 / 0.2e1 <= p_a_dens_threshold, 0, -0.3e1 / 0.8e1 * t3 / t4 * t18 * t19 * (0.1e1 + 0.7e1 / 0.11664e5 * t21 * t23 / t26 * t28 / t30 * t34 * s0 * t37 * t42 * (params_a_a1 * t48 + 0.1e1) / (params_a_b1 * s0 * t37 * t42 + 0.1e1)))
res = 0.2e1 * t65
"

/- gen_repo/impl/prebuilt/pol/gga_x_ev93.py and gen_repo/impl/prebuilt/unpol/gga_x_ev93.py -/
formula gga_x_ev93 pol "t2 = 3 ** (0.1e1 / 0.3e1)
t3 = math.pi ** (0.1e1 / 0.3e1)
t5 = t2 / t3
t6 = r0 + r1
t7 = 0.1e1 / t6
t10 = 0.2e1 * r0 * t7 <= p_a_zeta_threshold
t11 = p_a_zeta_threshold - 0.1e1
t14 = 0.2e1 * r1 * t7 <= p_a_zeta_threshold
t15 = -t11
t17 = (r0 - r1) * t7
t18 = lax_cond(t14, t15, t17)
t19 = lax_cond(t10, t11, t18)
t20 = 0.1e1 + t19
t22 = p_a_zeta_threshold ** (0.1e1 / 0.3e1)
t23 = t22 * p_a_zeta_threshold
t24 = t20 ** (0.1e1 / 0.3e1)
t26 = lax_cond(t20 <= p_a_zeta_threshold, t23, t24 * t20)
t28 = t6 ** (0.1e1 / 0.3e1)
t29 = 6 ** (0.1e1 / 0.3e1)
t30 = params_a_a1 * t29
t31 = math.pi ** 2
t32 = t31 ** (0.1e1 / 0.3e1)
t33 = t32 ** 2
t34 = 0.1e1 / t33
t36 = r0 ** 2
t37 = r0 ** (0.1e1 / 0.3e1)
t38 = t37 ** 2
t41 = t34 * s0 / t38 / t36
t44 = t29 ** 2
t45 = params_a_a2 * t44
t47 = 0.1e1 / t32 / t31
t48 = s0 ** 2
t50 = t36 ** 2
t54 = t47 * t48 / t37 / t50 / r0
t57 = t31 ** 2
t58 = 0.1e1 / t57
t59 = params_a_a3 * t58
t61 = t50 ** 2
t63 = t48 * s0 / t61
t68 = params_a_b1 * t29
t71 = params_a_b2 * t44
t74 = params_a_b3 * t58
t82 = lax_cond(r0 <= p_a_dens_threshold, 0, -0.3e1 / 0.8e1 * t5 * t26 * t28 * (0.1e1 + t30 * t41 / 0.24e2 + t45 * t54 / 0.576e3 + t59 * t63 / 0.2304e4) / (0.1e1 + t68 * t41 / 0.24e2 + t71 * t54 / 0.576e3 + t74 * t63 / 0.2304e4))
t84 = lax_cond(t10, t15, -t17)
t85 = lax_cond(t14, t11, t84)
t86 = 0.1e1 + t85
t88 = t86 ** (0.1e1 / 0.3e1)
t90 = lax_cond(t86 <= p_a_zeta_threshold, t23, t88 * t86)
t93 = r1 ** 2
t94 = r1 ** (0.1e1 / 0.3e1)
t95 = t94 ** 2
t98 = t34 * s2 / t95 / t93
t101 = s2 ** 2
t103 = t93 ** 2
t107 = t47 * t101 / t94 / t103 / r1
t111 = t103 ** 2
t113 = t101 * s2 / t111
t129 = lax_cond(r1 <= p_a_dens_threshold, 0, -0.3e1 / 0.8e1 * t5 * t90 * t28 * (0.1e1 + t30 * t98 / 0.24e2 + t45 * t107 / 0.576e3 + t59 * t113 / 0.2304e4) / (0.1e1 + t68 * t98 / 0.24e2 + t71 * t107 / 0.576e3 + t74 * t113 / 0.2304e4))
res = t82 + t129
" unpol "t3 = 3 ** (0.1e1 / 0.3e1)
t4 = math.pi ** (0.1e1 / 0.3e1)
t7 = 0.1e1 <= p_a_zeta_threshold
t8 = p_a_zeta_threshold - 0.1e1
t10 = lax_cond(t7, -t8, 0)
t11 = lax_cond(t7, t8, t10)
t12 = 0.1e1 + t11
t14 = p_a_zeta_threshold ** (0.1e1 / 0.3e1)
t16 = t12 ** (0.1e1 / 0.3e1)
t18 = lax_cond(t12 <= p_a_zeta_threshold, t14 * p_a_zeta_threshold, t16 * t12)
t20 = r0 ** (0.1e1 / 0.3e1)
t21 = 6 ** (0.1e1 / 0.3e1)
t23 = math.pi ** 2
t24 = t23 ** (0.1e1 / 0.3e1)
t25 = t24 ** 2
t26 = 0.1e1 / t25
t28 = 2 ** (0.1e1 / 0.3e1)
t29 = t28 ** 2
t31 = r0 ** 2
t32 = t20 ** 2
t35 = s0 * t29 / t32 / t31
t38 = t21 ** 2
t41 = 0.1e1 / t24 / t23
t43 = s0 ** 2
t45 = t31 ** 2
t49 = t43 * t28 / t20 / t45 / r0
t52 = t23 ** 2
t53 = 0.1e1 / t52
t56 = t45 ** 2
t58 = t43 * s0 / t56
t79 = lax_cond(r0 / 0.2e1 <= p_a_dens_threshold, 0, -0.3e1 / 0.8e1 * t3 / t4 * t18 * t20 * (0.1e1 + params_a_a1 * t21 * t26 * t35 / 0.24e2 + params_a_a2 * t38 * t41 * t49 / 0.288e3 + params_a_a3 * t53 * t58 / 0.576e3) / (0.1e1 + params_a_b1 * t21 * t26 * t35 / 0.24e2 + params_a_b2 * t38 * t41 * t49 / 0.288e3 + params_a_b3 * t53 * t58 / 0.576e3))
res = 0.2e1 * t79
"

/- gen_repo/impl/prebuilt/pol/gga_x_fd_lb94.py and gen_repo/impl/prebuilt/unpol/gga_x_fd_lb94.py -/
formula gga_x_fd_lb94 pol "t2 = 3 ** (0.1e1 / 0.3e1)
t3 = math.pi ** (0.1e1 / 0.3e1)
t5 = t2 / t3
t6 = r0 + r1
t7 = 0.1e1 / t6
t10 = 0.2e1 * r0 * t7 <= p_a_zeta_threshold
t11 = p_a_zeta_threshold - 0.1e1
t14 = 0.2e1 * r1 * t7 <= p_a_zeta_threshold
t15 = -t11
t17 = (r0 - r1) * t7
t18 = lax_cond(t14, t15, t17)
t19 = lax_cond(t10, t11, t18)
t20 = 0.1e1 + t19
t22 = p_a_zeta_threshold ** (0.1e1 / 0.3e1)
t23 = t22 * p_a_zeta_threshold
t24 = t20 ** (0.1e1 / 0.3e1)
t26 = lax_cond(t20 <= p_a_zeta_threshold, t23, t24 * t20)
t27 = t6 ** (0.1e1 / 0.3e1)
t29 = 6 ** (0.1e1 / 0.3e1)
t30 = t29 ** 2
t31 = math.pi ** 2
t32 = t31 ** (0.1e1 / 0.3e1)
t34 = t30 / t32
t35 = math.sqrt(s0)
t36 = r0 ** (0.1e1 / 0.3e1)
t39 = t35 / t36 / r0
t41 = t34 * t39 / 0.12e2
t42 = fd_int0(t41)
t43 = math.log(t41)
t45 = fd_int1(t41)
t54 = lax_cond(r0 <= p_a_dens_threshold, 0, -0.3e1 / 0.8e1 * t5 * t26 * t27 * (0.1e1 - t34 * t39 * (t42 * t43 - t45) / 0.12e2))
t56 = lax_cond(t10, t15, -t17)
t57 = lax_cond(t14, t11, t56)
t58 = 0.1e1 + t57
t60 = t58 ** (0.1e1 / 0.3e1)
t62 = lax_cond(t58 <= p_a_zeta_threshold, t23, t60 * t58)
t64 = math.sqrt(s2)
t65 = r1 ** (0.1e1 / 0.3e1)
t68 = t64 / t65 / r1
t70 = t34 * t68 / 0.12e2
t71 = fd_int0(t70)
t72 = math.log(t70)
t74 = fd_int1(t70)
t83 = lax_cond(r1 <= p_a_dens_threshold, 0, -0.3e1 / 0.8e1 * t5 * t62 * t27 * (0.1e1 - t34 * t68 * (t71 * t72 - t74) / 0.12e2))
res = t54 + t83
" unpol "t3 = 3 ** (0.1e1 / 0.3e1)
t4 = math.pi ** (0.1e1 / 0.3e1)
t7 = 0.1e1 <= p_a_zeta_threshold
t8 = p_a_zeta_threshold - 0.1e1
t10 = lax_cond(t7, -t8, 0)
t11 = lax_cond(t7, t8, t10)
t12 = 0.1e1 + t11
t14 = p_a_zeta_threshold ** (0.1e1 / 0.3e1)
t16 = t12 ** (0.1e1 / 0.3e1)
t18 = lax_cond(t12 <= p_a_zeta_threshold, t14 * p_a_zeta_threshold, t16 * t12)
t19 = r0 ** (0.1e1 / 0.3e1)
t21 = 6 ** (0.1e1 / 0.3e1)
t22 = t21 ** 2
t23 = math.pi ** 2
t24 = t23 ** (0.1e1 / 0.3e1)
t26 = t22 / t24
t27 = math.sqrt(s0)
t29 = 2 ** (0.1e1 / 0.3e1)
t31 = 0.1e1 / t19 / r0
t36 = t26 * t27 * t29 * t31 / 0.12e2
t37 = fd_int0(t36)
t38 = math.log(t36)
t40 = fd_int1(t36)
t49 = lax_cond(r0 / 0.2e1 <= p_a_dens_threshold, 0, -0.3e1 / 0.8e1 * t3 / t4 * t18 * t19 * (0.1e1 - t26 * t27 * t29 * t31 * (t37 * t38 - t40) / 0.12e2))
res = 0.2e1 * t49
"

/- gen_repo/impl/prebuilt/pol/gga_x_ft97.py and gen_repo/impl/prebuilt/unpol/gga_x_ft97.py -/
formula gga_x_ft97 pol "t2 = 3 ** (0.1e1 / 0.3e1)
t3 = math.pi ** (0.1e1 / 0.3e1)
t5 = t2 / t3
t6 = r0 + r1
t7 = 0.1e1 / t6
t10 = 0.2e1 * r0 * t7 <= p_a_zeta_threshold
t11 = p_a_zeta_threshold - 0.1e1
t14 = 0.2e1 * r1 * t7 <= p_a_zeta_threshold
t15 = -t11
t17 = (r0 - r1) * t7
t18 = lax_cond(t14, t15, t17)
t19 = lax_cond(t10, t11, t18)
t20 = 0.1e1 + t19
t22 = p_a_zeta_threshold ** (0.1e1 / 0.3e1)
t23 = t22 * p_a_zeta_threshold
t24 = t20 ** (0.1e1 / 0.3e1)
t26 = lax_cond(t20 <= p_a_zeta_threshold, t23, t24 * t20)
t27 = t6 ** (0.1e1 / 0.3e1)
t30 = r0 ** 2
t31 = r0 ** (0.1e1 / 0.3e1)
t32 = t31 ** 2
t34 = 0.1e1 / t32 / t30
t35 = 2 ** (0.1e1 / 0.3e1)
t38 = t20 ** 2
t39 = t6 ** 2
t40 = t38 * t39
t42 = (t20 * t6) ** (0.1e1 / 0.3e1)
t43 = t42 ** 2
t44 = s0 * t34
t55 = params_a_beta0 + params_a_beta1 * s0 * t34 * t35 * t40 * t43 / (params_a_beta2 + t44 * t35 * t40 * t43 / 0.8e1) / 0.8e1
t58 = t2 ** 2
t60 = (0.1e1 / math.pi) ** (0.1e1 / 0.3e1)
t62 = t58 / t60
t63 = 4 ** (0.1e1 / 0.3e1)
t64 = t55 ** 2
t65 = math.asinh(t44)
t66 = t65 ** 2
t71 = math.sqrt(0.9e1 * t44 * t64 * t66 + 0.1e1)
t81 = lax_cond(r0 <= p_a_dens_threshold, 0, -0.3e1 / 0.8e1 * t5 * t26 * t27 * (0.1e1 + 0.2e1 / 0.9e1 * t55 * s0 * t34 * t62 * t63 / t71))
t83 = lax_cond(t10, t15, -t17)
t84 = lax_cond(t14, t11, t83)
t85 = 0.1e1 + t84
t87 = t85 ** (0.1e1 / 0.3e1)
t89 = lax_cond(t85 <= p_a_zeta_threshold, t23, t87 * t85)
t92 = r1 ** 2
t93 = r1 ** (0.1e1 / 0.3e1)
t94 = t93 ** 2
t96 = 0.1e1 / t94 / t92
t99 = t85 ** 2
t100 = t99 * t39
t102 = (t85 * t6) ** (0.1e1 / 0.3e1)
t103 = t102 ** 2
t104 = s2 * t96
t115 = params_a_beta0 + params_a_beta1 * s2 * t96 * t35 * t100 * t103 / (params_a_beta2 + t104 * t35 * t100 * t103 / 0.8e1) / 0.8e1
t118 = t115 ** 2
t119 = math.asinh(t104)
t120 = t119 ** 2
t125 = math.sqrt(0.9e1 * t104 * t118 * t120 + 0.1e1)
t135 = lax_cond(r1 <= p_a_dens_threshold, 0, -0.3e1 / 0.8e1 * t5 * t89 * t27 * (0.1e1 + 0.2e1 / 0.9e1 * t115 * s2 * t96 * t62 * t63 / t125))
res = t81 + t135
" unpol "t3 = 3 ** (0.1e1 / 0.3e1)
t4 = math.pi ** (0.1e1 / 0.3e1)
t7 = 0.1e1 <= p_a_zeta_threshold
t8 = p_a_zeta_threshold - 0.1e1
t10 = lax_cond(t7, -t8, 0)
t11 = lax_cond(t7, t8, t10)
t12 = 0.1e1 + t11
t14 = p_a_zeta_threshold ** (0.1e1 / 0.3e1)
t16 = t12 ** (0.1e1 / 0.3e1)
t18 = lax_cond(t12 <= p_a_zeta_threshold, t14 * p_a_zeta_threshold, t16 * t12)
t19 = r0 ** (0.1e1 / 0.3e1)
t22 = t19 ** 2
t23 = 0.1e1 / t22
t25 = t12 ** 2
t27 = (t12 * r0) ** (0.1e1 / 0.3e1)
t28 = t27 ** 2
t29 = t25 * t28
t38 = params_a_beta0 + params_a_beta1 * s0 * t23 * t29 / (params_a_beta2 + s0 * t23 * t29 / 0.4e1) / 0.4e1
t40 = 2 ** (0.1e1 / 0.3e1)
t41 = t40 ** 2
t42 = r0 ** 2
t44 = 0.1e1 / t22 / t42
t47 = t3 ** 2
t49 = (0.1e1 / math.pi) ** (0.1e1 / 0.3e1)
t52 = 4 ** (0.1e1 / 0.3e1)
t53 = s0 * t41
t54 = t38 ** 2
t57 = math.asinh(t53 * t44)
t58 = t57 ** 2
t63 = math.sqrt(0.9e1 * t53 * t44 * t54 * t58 + 0.1e1)
t73 = lax_cond(r0 / 0.2e1 <= p_a_dens_threshold, 0, -0.3e1 / 0.8e1 * t3 / t4 * t18 * t19 * (0.1e1 + 0.2e1 / 0.9e1 * t38 * s0 * t41 * t44 * t47 / t49 * t52 / t63))
res = 0.2e1 * t73
"

/- gen_repo/impl/prebuilt/pol/gga_x_g96.py and gen_repo/impl/prebuilt/unpol/gga_x_g96.py -/
formula gga_x_g96 pol "t2 = 3 ** (0.1e1 / 0.3e1)
t3 = math.pi ** (0.1e1 / 0.3e1)
t5 = t2 / t3
t6 = r0 + r1
t7 = 0.1e1 / t6
t10 = 0.2e1 * r0 * t7 <= p_a_zeta_threshold
t11 = p_a_zeta_threshold - 0.1e1
t14 = 0.2e1 * r1 * t7 <= p_a_zeta_threshold
t15 = -t11
t17 = (r0 - r1) * t7
t18 = lax_cond(t14, t15, t17)
t19 = lax_cond(t10, t11, t18)
t20 = 0.1e1 + t19
t22 = p_a_zeta_threshold ** (0.1e1 / 0.3e1)
t23 = t22 * p_a_zeta_threshold
t24 = t20 ** (0.1e1 / 0.3e1)
t26 = lax_cond(t20 <= p_a_zeta_threshold, t23, t24 * t20)
t27 = t6 ** (0.1e1 / 0.3e1)
t29 = t2 ** 2
t31 = (0.1e1 / math.pi) ** (0.1e1 / 0.3e1)
t33 = t29 / t31
t34 = 4 ** (0.1e1 / 0.3e1)
t35 = math.sqrt(s0)
t36 = r0 ** (0.1e1 / 0.3e1)
t39 = t35 / t36 / r0
t40 = math.sqrt(t39)
t49 = lax_cond(r0 <= p_a_dens_threshold, 0, -0.3e1 / 0.8e1 * t5 * t26 * t27 * (0.1e1 + 0.2e1 / 0.1233e4 * t33 * t34 * t40 * t39))
t51 = lax_cond(t10, t15, -t17)
t52 = lax_cond(t14, t11, t51)
t53 = 0.1e1 + t52
t55 = t53 ** (0.1e1 / 0.3e1)
t57 = lax_cond(t53 <= p_a_zeta_threshold, t23, t55 * t53)
t59 = math.sqrt(s2)
t60 = r1 ** (0.1e1 / 0.3e1)
t63 = t59 / t60 / r1
t64 = math.sqrt(t63)
t73 = lax_cond(r1 <= p_a_dens_threshold, 0, -0.3e1 / 0.8e1 * t5 * t57 * t27 * (0.1e1 + 0.2e1 / 0.1233e4 * t33 * t34 * t64 * t63))
res = t49 + t73
" unpol "t3 = 3 ** (0.1e1 / 0.3e1)
t4 = math.pi ** (0.1e1 / 0.3e1)
t7 = 0.1e1 <= p_a_zeta_threshold
t8 = p_a_zeta_threshold - 0.1e1
t10 = lax_cond(t7, -t8, 0)
t11 = lax_cond(t7, t8, t10)
t12 = 0.1e1 + t11
t14 = p_a_zeta_threshold ** (0.1e1 / 0.3e1)
t16 = t12 ** (0.1e1 / 0.3e1)
t18 = lax_cond(t12 <= p_a_zeta_threshold, t14 * p_a_zeta_threshold, t16 * t12)
t19 = r0 ** (0.1e1 / 0.3e1)
t21 = t3 ** 2
t23 = (0.1e1 / math.pi) ** (0.1e1 / 0.3e1)
t26 = 4 ** (0.1e1 / 0.3e1)
t27 = math.sqrt(s0)
t28 = 2 ** (0.1e1 / 0.3e1)
t32 = t27 * t28 / t19 / r0
t33 = math.sqrt(t32)
t42 = lax_cond(r0 / 0.2e1 <= p_a_dens_threshold, 0, -0.3e1 / 0.8e1 * t3 / t4 * t18 * t19 * (0.1e1 + 0.2e1 / 0.1233e4 * t21 / t23 * t26 * t33 * t32))
res = 0.2e1 * t42
"

/- gen_repo/impl/prebuilt/pol/gga_x_gg99.py and gen_repo/impl/prebuilt/unpol/gga_x_gg99.py -/
formula gga_x_gg99 pol "t2 = 3 ** (0.1e1 / 0.3e1)
t3 = t2 ** 2
t4 = math.pi ** (0.1e1 / 0.3e1)
t7 = t3 / t4 / math.pi
t8 = r0 + r1
t9 = 0.1e1 / t8
t12 = 0.2e1 * r0 * t9 <= p_a_zeta_threshold
t13 = p_a_zeta_threshold - 0.1e1
t16 = 0.2e1 * r1 * t9 <= p_a_zeta_threshold
t17 = -t13
t19 = (r0 - r1) * t9
t20 = lax_cond(t16, t17, t19)
t21 = lax_cond(t12, t13, t20)
t22 = 0.1e1 + t21
t24 = p_a_zeta_threshold ** (0.1e1 / 0.3e1)
t25 = t24 * p_a_zeta_threshold
t26 = t22 ** (0.1e1 / 0.3e1)
t28 = lax_cond(t22 <= p_a_zeta_threshold, t25, t26 * t22)
t29 = t8 ** (0.1e1 / 0.3e1)
t32 = math.pi ** 2
t33 = math.sqrt(s0)
t34 = r0 ** (0.1e1 / 0.3e1)
t37 = t33 / t34 / r0
t38 = 4 ** (0.1e1 / 0.3e1)
t39 = math.sqrt(0.3e1)
t41 = t39 * t32 * math.pi
t42 = t41 ** (0.1e1 / 0.3e1)
t43 = t38 * t42
t45 = 3 ** (0.1e1 / 0.4e1)
t46 = math.sqrt(0.2e1)
t48 = math.sqrt(math.pi)
t51 = t45 * t46 / t48 / math.pi
t52 = t43 - 0.1e-9
t54 = lax_cond(t52 < t37, t52, t37)
t55 = t54 ** 2
t56 = 0.4e1 * t41
t57 = t32 ** 2
t58 = t57 * t32
t59 = 0.48e2 * t58
t60 = t55 ** 2
t63 = math.sqrt(-t60 * t55 + t59)
t64 = t56 + t63
t65 = t64 ** (0.1e1 / 0.3e1)
t66 = t65 ** 2
t68 = math.sqrt(t55 + t66)
t70 = t64 ** (0.1e1 / 0.6e1)
t75 = math.asinh(t51 * t54 * t68 / t70 / 0.4e1)
t76 = 0.1e1 / math.pi
t77 = t43 + 0.1e-9
t79 = lax_cond(t77 < t37, t37, t77)
t80 = t79 ** 2
t83 = 0.1e1 / t58
t84 = t80 ** 2
t89 = math.sqrt(0.3e1 * t83 * t84 * t80 - 0.144e3)
t91 = math.atan(t89 / 0.12e2)
t93 = math.cos(t91 / 0.3e1)
t96 = math.sqrt(t80 * t79 * t39 * t76 * t93)
t99 = math.asinh(t76 * t96 / 0.2e1)
t100 = lax_cond(t37 < t43, t75, t99)
t102 = math.exp(-0.2e1 * t100)
t104 = math.log(0.1e1 + t102)
t107 = my_dilog(-t102)
t112 = 0.1e1 / math.cosh(t100)
t113 = t112 ** (0.1e1 / 0.3e1)
t114 = t113 ** 2
t116 = t76 ** (0.1e1 / 0.3e1)
t117 = 0.1e1 / t116
t123 = lax_cond(r0 <= p_a_dens_threshold, 0, -t7 * t28 * t29 * (-0.12e2 * t100 * t104 + 0.12e2 * t107 + t32) / t100 / t114 * t117 * t38 / 0.24e2)
t125 = lax_cond(t12, t17, -t19)
t126 = lax_cond(t16, t13, t125)
t127 = 0.1e1 + t126
t129 = t127 ** (0.1e1 / 0.3e1)
t131 = lax_cond(t127 <= p_a_zeta_threshold, t25, t129 * t127)
t134 = math.sqrt(s2)
t135 = r1 ** (0.1e1 / 0.3e1)
t138 = t134 / t135 / r1
t141 = lax_cond(t52 < t138, t52, t138)
t142 = t141 ** 2
t143 = t142 ** 2
t146 = math.sqrt(-t143 * t142 + t59)
t147 = t56 + t146
t148 = t147 ** (0.1e1 / 0.3e1)
t149 = t148 ** 2
t151 = math.sqrt(t142 + t149)
t153 = t147 ** (0.1e1 / 0.6e1)
t158 = math.asinh(t51 * t141 * t151 / t153 / 0.4e1)
t160 = lax_cond(t77 < t138, t138, t77)
t161 = t160 ** 2
t164 = t161 ** 2
t169 = math.sqrt(0.3e1 * t83 * t164 * t161 - 0.144e3)
t171 = math.atan(t169 / 0.12e2)
t173 = math.cos(t171 / 0.3e1)
t176 = math.sqrt(t161 * t160 * t39 * t76 * t173)
t179 = math.asinh(t76 * t176 / 0.2e1)
t180 = lax_cond(t138 < t43, t158, t179)
t182 = math.exp(-0.2e1 * t180)
t184 = math.log(0.1e1 + t182)
t187 = my_dilog(-t182)
t192 = 0.1e1 / math.cosh(t180)
t193 = t192 ** (0.1e1 / 0.3e1)
t194 = t193 ** 2
t201 = lax_cond(r1 <= p_a_dens_threshold, 0, -t7 * t131 * t29 * (-0.12e2 * t180 * t184 + 0.12e2 * t187 + t32) / t180 / t194 * t117 * t38 / 0.24e2)
res = t123 + t201
" unpol "t3 = 3 ** (0.1e1 / 0.3e1)
t4 = t3 ** 2
t5 = math.pi ** (0.1e1 / 0.3e1)
t9 = 0.1e1 <= p_a_zeta_threshold
t10 = p_a_zeta_threshold - 0.1e1
t12 = lax_cond(t9, -t10, 0)
t13 = lax_cond(t9, t10, t12)
t14 = 0.1e1 + t13
t16 = p_a_zeta_threshold ** (0.1e1 / 0.3e1)
t18 = t14 ** (0.1e1 / 0.3e1)
t20 = lax_cond(t14 <= p_a_zeta_threshold, t16 * p_a_zeta_threshold, t18 * t14)
t21 = r0 ** (0.1e1 / 0.3e1)
t24 = math.pi ** 2
t25 = math.sqrt(s0)
t26 = 2 ** (0.1e1 / 0.3e1)
t30 = t25 * t26 / t21 / r0
t31 = 4 ** (0.1e1 / 0.3e1)
t32 = math.sqrt(0.3e1)
t34 = t32 * t24 * math.pi
t35 = t34 ** (0.1e1 / 0.3e1)
t36 = t31 * t35
t38 = 3 ** (0.1e1 / 0.4e1)
t39 = math.sqrt(0.2e1)
t41 = math.sqrt(math.pi)
t45 = t36 - 0.1e-9
t47 = lax_cond(t45 < t30, t45, t30)
t48 = t47 ** 2
t50 = t24 ** 2
t51 = t50 * t24
t53 = t48 ** 2
t56 = math.sqrt(-t53 * t48 + 0.48e2 * t51)
t57 = 0.4e1 * t34 + t56
t58 = t57 ** (0.1e1 / 0.3e1)
t59 = t58 ** 2
t61 = math.sqrt(t48 + t59)
t63 = t57 ** (0.1e1 / 0.6e1)
t68 = math.asinh(t38 * t39 / t41 / math.pi * t47 * t61 / t63 / 0.4e1)
t69 = 0.1e1 / math.pi
t70 = t36 + 0.1e-9
t72 = lax_cond(t70 < t30, t30, t70)
t73 = t72 ** 2
t77 = t73 ** 2
t82 = math.sqrt(0.3e1 / t51 * t77 * t73 - 0.144e3)
t84 = math.atan(t82 / 0.12e2)
t86 = math.cos(t84 / 0.3e1)
t89 = math.sqrt(t73 * t72 * t32 * t69 * t86)
t92 = math.asinh(t69 * t89 / 0.2e1)
t93 = lax_cond(t30 < t36, t68, t92)
t95 = math.exp(-0.2e1 * t93)
t97 = math.log(0.1e1 + t95)
t100 = my_dilog(-t95)
t105 = 0.1e1 / math.cosh(t93)
t106 = t105 ** (0.1e1 / 0.3e1)
t107 = t106 ** 2
t109 = t69 ** (0.1e1 / 0.3e1)
t116 = lax_cond(r0 / 0.2e1 <= p_a_dens_threshold, 0, -t4 / t5 / math.pi * t20 * t21 * (-0.12e2 * t93 * t97 + 0.12e2 * t100 + t24) / t93 / t107 / t109 * t31 / 0.24e2)
res = 0.2e1 * t116
"

/- gen_repo/impl/prebuilt/pol/gga_x_hcth_a.py and gen_repo/impl/prebuilt/unpol/gga_x_hcth_a.py -/
formula gga_x_hcth_a pol "t2 = 3 ** (0.1e1 / 0.3e1)
t3 = math.pi ** (0.1e1 / 0.3e1)
t5 = t2 / t3
t6 = r0 + r1
t7 = 0.1e1 / t6
t10 = 0.2e1 * r0 * t7 <= p_a_zeta_threshold
t11 = p_a_zeta_threshold - 0.1e1
t14 = 0.2e1 * r1 * t7 <= p_a_zeta_threshold
t15 = -t11
t17 = (r0 - r1) * t7
t18 = lax_cond(t14, t15, t17)
t19 = lax_cond(t10, t11, t18)
t20 = 0.1e1 + t19
t22 = p_a_zeta_threshold ** (0.1e1 / 0.3e1)
t23 = t22 * p_a_zeta_threshold
t24 = t20 ** (0.1e1 / 0.3e1)
t26 = lax_cond(t20 <= p_a_zeta_threshold, t23, t24 * t20)
t27 = t6 ** (0.1e1 / 0.3e1)
t29 = t2 ** 2
t31 = (0.1e1 / math.pi) ** (0.1e1 / 0.3e1)
t34 = 4 ** (0.1e1 / 0.3e1)
t35 = t29 / t31 * t34
t36 = r0 ** 2
t37 = r0 ** (0.1e1 / 0.3e1)
t38 = t37 ** 2
t42 = math.sqrt(s0)
t45 = t42 / t37 / r0
t46 = math.asinh(t45)
t49 = 0.1e1 + 0.252e-1 * t45 * t46
t52 = t49 ** 2
t63 = lax_cond(r0 <= p_a_dens_threshold, 0, -0.3e1 / 0.8e1 * t5 * t26 * t27 * (0.109878e1 + 0.93333333333333333332e-3 * t35 * s0 / t38 / t36 * (-0.251173e1 / t49 + 0.37198333333333333333e1 / t52)))
t65 = lax_cond(t10, t15, -t17)
t66 = lax_cond(t14, t11, t65)
t67 = 0.1e1 + t66
t69 = t67 ** (0.1e1 / 0.3e1)
t71 = lax_cond(t67 <= p_a_zeta_threshold, t23, t69 * t67)
t73 = r1 ** 2
t74 = r1 ** (0.1e1 / 0.3e1)
t75 = t74 ** 2
t79 = math.sqrt(s2)
t82 = t79 / t74 / r1
t83 = math.asinh(t82)
t86 = 0.1e1 + 0.252e-1 * t82 * t83
t89 = t86 ** 2
t100 = lax_cond(r1 <= p_a_dens_threshold, 0, -0.3e1 / 0.8e1 * t5 * t71 * t27 * (0.109878e1 + 0.93333333333333333332e-3 * t35 * s2 / t75 / t73 * (-0.251173e1 / t86 + 0.37198333333333333333e1 / t89)))
res = t63 + t100
" unpol "t3 = 3 ** (0.1e1 / 0.3e1)
t4 = math.pi ** (0.1e1 / 0.3e1)
t7 = 0.1e1 <= p_a_zeta_threshold
t8 = p_a_zeta_threshold - 0.1e1
t10 = lax_cond(t7, -t8, 0)
t11 = lax_cond(t7, t8, t10)
t12 = 0.1e1 + t11
t14 = p_a_zeta_threshold ** (0.1e1 / 0.3e1)
t16 = t12 ** (0.1e1 / 0.3e1)
t18 = lax_cond(t12 <= p_a_zeta_threshold, t14 * p_a_zeta_threshold, t16 * t12)
t19 = r0 ** (0.1e1 / 0.3e1)
t21 = t3 ** 2
t23 = (0.1e1 / math.pi) ** (0.1e1 / 0.3e1)
t26 = 4 ** (0.1e1 / 0.3e1)
t28 = 2 ** (0.1e1 / 0.3e1)
t29 = t28 ** 2
t31 = r0 ** 2
t32 = t19 ** 2
t35 = math.sqrt(s0)
t36 = t35 * t28
t38 = 0.1e1 / t19 / r0
t40 = math.asinh(t36 * t38)
t44 = 0.1e1 + 0.252e-1 * t36 * t38 * t40
t47 = t44 ** 2
t59 = lax_cond(r0 / 0.2e1 <= p_a_dens_threshold, 0, -0.3e1 / 0.8e1 * t3 / t4 * t18 * t19 * (0.109878e1 + 0.93333333333333333332e-3 * t21 / t23 * t26 * s0 * t29 / t32 / t31 * (-0.251173e1 / t44 + 0.37198333333333333333e1 / t47)))
res = 0.2e1 * t59
"

/- gen_repo/impl/prebuilt/pol/gga_x_herman.py and gen_repo/impl/prebuilt/unpol/gga_x_herman.py -/
formula gga_x_herman pol "t2 = 3 ** (0.1e1 / 0.3e1)
t3 = math.pi ** (0.1e1 / 0.3e1)
t5 = t2 / t3
t6 = r0 + r1
t7 = 0.1e1 / t6
t10 = 0.2e1 * r0 * t7 <= p_a_zeta_threshold
t11 = p_a_zeta_threshold - 0.1e1
t14 = 0.2e1 * r1 * t7 <= p_a_zeta_threshold
t15 = -t11
t17 = (r0 - r1) * t7
t18 = lax_cond(t14, t15, t17)
t19 = lax_cond(t10, t11, t18)
t20 = 0.1e1 + t19
t22 = p_a_zeta_threshold ** (0.1e1 / 0.3e1)
t23 = t22 * p_a_zeta_threshold
t24 = t20 ** (0.1e1 / 0.3e1)
t26 = lax_cond(t20 <= p_a_zeta_threshold, t23, t24 * t20)
t27 = t6 ** (0.1e1 / 0.3e1)
t29 = t2 ** 2
t31 = (0.1e1 / math.pi) ** (0.1e1 / 0.3e1)
t33 = t29 / t31
t34 = 4 ** (0.1e1 / 0.3e1)
t36 = r0 ** 2
t37 = r0 ** (0.1e1 / 0.3e1)
t38 = t37 ** 2
t48 = lax_cond(r0 <= p_a_dens_threshold, 0, -0.3e1 / 0.8e1 * t5 * t26 * t27 * (0.1e1 + 0.66666666666666666668e-3 * t33 * t34 * s0 / t38 / t36))
t50 = lax_cond(t10, t15, -t17)
t51 = lax_cond(t14, t11, t50)
t52 = 0.1e1 + t51
t54 = t52 ** (0.1e1 / 0.3e1)
t56 = lax_cond(t52 <= p_a_zeta_threshold, t23, t54 * t52)
t59 = r1 ** 2
t60 = r1 ** (0.1e1 / 0.3e1)
t61 = t60 ** 2
t71 = lax_cond(r1 <= p_a_dens_threshold, 0, -0.3e1 / 0.8e1 * t5 * t56 * t27 * (0.1e1 + 0.66666666666666666668e-3 * t33 * t34 * s2 / t61 / t59))
res = t48 + t71
" unpol "t3 = 3 ** (0.1e1 / 0.3e1)
t4 = math.pi ** (0.1e1 / 0.3e1)
t7 = 0.1e1 <= p_a_zeta_threshold
t8 = p_a_zeta_threshold - 0.1e1
t10 = lax_cond(t7, -t8, 0)
t11 = lax_cond(t7, t8, t10)
t12 = 0.1e1 + t11
t14 = p_a_zeta_threshold ** (0.1e1 / 0.3e1)
t16 = t12 ** (0.1e1 / 0.3e1)
t18 = lax_cond(t12 <= p_a_zeta_threshold, t14 * p_a_zeta_threshold, t16 * t12)
t19 = r0 ** (0.1e1 / 0.3e1)
t21 = t3 ** 2
t23 = (0.1e1 / math.pi) ** (0.1e1 / 0.3e1)
t26 = 4 ** (0.1e1 / 0.3e1)
t28 = 2 ** (0.1e1 / 0.3e1)
t29 = t28 ** 2
t31 = r0 ** 2
t32 = t19 ** 2
t42 = lax_cond(r0 / 0.2e1 <= p_a_dens_threshold, 0, -0.3e1 / 0.8e1 * t3 / t4 * t18 * t19 * (0.1e1 + 0.66666666666666666668e-3 * t21 / t23 * t26 * s0 * t29 / t32 / t31))
res = 0.2e1 * t42
"

/- gen_repo/impl/prebuilt/pol/gga_x_hjs.py and gen_repo/impl/prebuilt/unpol/gga_x_hjs.py -/
formula gga_x_hjs pol "t2 = 3 ** (0.1e1 / 0.3e1)
t3 = math.pi ** (0.1e1 / 0.3e1)
t5 = t2 / t3
t6 = r0 + r1
t7 = 0.1e1 / t6
t10 = 0.2e1 * r0 * t7 <= p_a_zeta_threshold
t11 = p_a_zeta_threshold - 0.1e1
t14 = 0.2e1 * r1 * t7 <= p_a_zeta_threshold
t15 = -t11
t17 = (r0 - r1) * t7
t18 = lax_cond(t14, t15, t17)
t19 = lax_cond(t10, t11, t18)
t20 = 0.1e1 + t19
t22 = p_a_zeta_threshold ** (0.1e1 / 0.3e1)
t23 = t22 * p_a_zeta_threshold
t24 = t20 ** (0.1e1 / 0.3e1)
t26 = lax_cond(t20 <= p_a_zeta_threshold, t23, t24 * t20)
t27 = t6 ** (0.1e1 / 0.3e1)
t29 = t2 ** 2
t30 = p_a_cam_omega * t29
t31 = math.pi ** 2
t32 = t31 ** (0.1e1 / 0.3e1)
t33 = 0.1e1 / t32
t34 = t30 * t33
t36 = 0.1e1 + t17 <= p_a_zeta_threshold
t38 = 0.1e1 - t17 <= p_a_zeta_threshold
t39 = lax_cond(t38, t15, t17)
t40 = lax_cond(t36, t11, t39)
t41 = 0.1e1 + t40
t43 = t41 ** (0.1e1 / 0.3e1)
t44 = lax_cond(t41 <= p_a_zeta_threshold, t22, t43)
t45 = 0.1e1 / t44
t46 = 0.1e1 / t27
t47 = t45 * t46
t48 = 6 ** (0.1e1 / 0.3e1)
t49 = t32 ** 2
t50 = 0.1e1 / t49
t51 = t48 * t50
t53 = r0 ** 2
t54 = r0 ** (0.1e1 / 0.3e1)
t55 = t54 ** 2
t57 = 0.1e1 / t55 / t53
t59 = params_a_a[0] * t48
t61 = t50 * s0 * t57
t65 = 0.1e1 / t31
t66 = params_a_a[1] * t65
t67 = math.sqrt(s0)
t69 = t53 ** 2
t71 = t67 * s0 / t69
t75 = t48 ** 2
t76 = params_a_a[2] * t75
t78 = 0.1e1 / t32 / t31
t79 = s0 ** 2
t84 = t78 * t79 / t54 / t69 / r0
t88 = params_a_a[3] * t48
t90 = 0.1e1 / t49 / t31
t96 = t90 * t67 * t79 / t55 / t69 / t53
t100 = t31 ** 2
t101 = 0.1e1 / t100
t102 = params_a_a[4] * t101
t103 = t79 * s0
t104 = t69 ** 2
t106 = t103 / t104
t110 = params_a_a[5] * t75
t112 = 0.1e1 / t32 / t100
t118 = t112 * t67 * t103 / t54 / t104 / r0
t124 = params_a_b[0] * t75
t132 = params_a_b[1] * t48
t136 = params_a_b[2] * t65
t140 = params_a_b[3] * t75
t144 = params_a_b[4] * t48
t148 = params_a_b[5] * t101
t152 = params_a_b[6] * t75
t156 = params_a_b[7] * t48
t158 = 0.1e1 / t49 / t100
t159 = t79 ** 2
t170 = params_a_b[8] / t100 / t31
t181 = t51 * s0 * t57 * (t59 * t61 / 0.24e2 + t66 * t71 / 0.48e2 + t76 * t84 / 0.576e3 + t88 * t96 / 0.1152e4 + t102 * t106 / 0.2304e4 + t110 * t118 / 0.27648e5) / (0.1e1 + t124 * t33 * t67 / t54 / r0 / 0.12e2 + t132 * t61 / 0.24e2 + t136 * t71 / 0.48e2 + t140 * t84 / 0.576e3 + t144 * t96 / 0.1152e4 + t148 * t106 / 0.2304e4 + t152 * t118 / 0.27648e5 + t156 * t158 * t159 / t55 / t104 / t53 / 0.55296e5 + t170 * t67 * t159 / t104 / t69 / 0.110592e6) / 0.24e2
t183 = lax_cond(0.1e-9 < t181, t181, 0.1e-9)
t184 = p_a_cam_omega ** 2
t185 = t184 * t2
t186 = t44 ** 2
t189 = t27 ** 2
t190 = 0.1e1 / t189
t192 = t185 * t50 / t186 * t190
t194 = 0.609650e0 + t183 + t192 / 0.3e1
t195 = math.sqrt(t194)
t198 = t34 * t47 / t195
t201 = 0.609650e0 + t183
t205 = s0 * t57
t214 = 0.1e1 + 0.13006513974354692214e-1 * t51 * t205 / (0.1e1 + t51 * t205 / 0.96e2) + 0.42141105276909202774e1 * t183
t216 = t184 * p_a_cam_omega * t65
t223 = t216 / t186 / t44 * t7 / t195 / t194
t227 = t201 ** 2
t234 = t227 * t201
t236 = math.sqrt(t201)
t238 = math.sqrt(math.pi)
t239 = 0.4e1 / 0.5e1 * t238
t240 = math.sqrt(t183)
t245 = lax_cond(0.0e0 < 0.7572109999e0 + t183, 0.757211e0 + t183, 0.1e-9)
t246 = math.sqrt(t245)
t253 = t184 ** 2
t256 = t253 * p_a_cam_omega * t2 * t90
t257 = t186 ** 2
t261 = 0.1e1 / t189 / t6
t263 = t194 ** 2
t275 = 0.3e1 * t192
t277 = math.sqrt(0.9e1 * t183 + t275)
t280 = math.sqrt(0.9e1 * t245 + t275)
t288 = t30 * t33 * t45 * t46
t293 = 0.1e1 / (t288 / 0.3e1 + t195)
t295 = math.log((t288 / 0.3e1 + t277 / 0.3e1) * t293)
t301 = math.log((t288 / 0.3e1 + t280 / 0.3e1) * t293)
t308 = lax_cond(r0 <= p_a_dens_threshold, 0, -0.3e1 / 0.8e1 * t5 * t26 * t27 * (0.757211e0 + 0.47272888888888888889e-1 * (0.1e1 - t198 / 0.3e1) / t201 + 0.26366444444444444444e-1 * t214 * (0.2e1 - t198 + t223 / 0.3e1) / t227 - (0.47459600000000000000e-1 * t214 * t201 + 0.28363733333333333333e-1 * t227 - 0.90865320000000000000e0 * t234 - t236 * t234 * (t239 + 0.12e2 / 0.5e1 * t240 - 0.12e2 / 0.5e1 * t246)) * (0.8e1 - 0.5e1 * t198 + 0.10e2 / 0.3e1 * t223 - t256 / t257 / t44 * t261 / t195 / t263 / 0.3e1) / t234 / 0.9e1 + 0.2e1 / 0.3e1 * t34 * t47 * (t277 / 0.3e1 - t280 / 0.3e1) + 0.2e1 * t183 * t295 - 0.2e1 * t245 * t301))
t310 = lax_cond(t10, t15, -t17)
t311 = lax_cond(t14, t11, t310)
t312 = 0.1e1 + t311
t314 = t312 ** (0.1e1 / 0.3e1)
t316 = lax_cond(t312 <= p_a_zeta_threshold, t23, t314 * t312)
t318 = lax_cond(t36, t15, -t17)
t319 = lax_cond(t38, t11, t318)
t320 = 0.1e1 + t319
t322 = t320 ** (0.1e1 / 0.3e1)
t323 = lax_cond(t320 <= p_a_zeta_threshold, t22, t322)
t324 = 0.1e1 / t323
t325 = t324 * t46
t327 = r1 ** 2
t328 = r1 ** (0.1e1 / 0.3e1)
t329 = t328 ** 2
t331 = 0.1e1 / t329 / t327
t333 = t50 * s2 * t331
t336 = math.sqrt(s2)
t338 = t327 ** 2
t340 = t336 * s2 / t338
t343 = s2 ** 2
t348 = t78 * t343 / t328 / t338 / r1
t356 = t90 * t336 * t343 / t329 / t338 / t327
t359 = t343 * s2
t360 = t338 ** 2
t362 = t359 / t360
t370 = t112 * t336 * t359 / t328 / t360 / r1
t393 = t343 ** 2
t411 = t51 * s2 * t331 * (t59 * t333 / 0.24e2 + t66 * t340 / 0.48e2 + t76 * t348 / 0.576e3 + t88 * t356 / 0.1152e4 + t102 * t362 / 0.2304e4 + t110 * t370 / 0.27648e5) / (0.1e1 + t124 * t33 * t336 / t328 / r1 / 0.12e2 + t132 * t333 / 0.24e2 + t136 * t340 / 0.48e2 + t140 * t348 / 0.576e3 + t144 * t356 / 0.1152e4 + t148 * t362 / 0.2304e4 + t152 * t370 / 0.27648e5 + t156 * t158 * t393 / t329 / t360 / t327 / 0.55296e5 + t170 * t336 * t393 / t360 / t338 / 0.110592e6) / 0.24e2
t413 = lax_cond(0.1e-9 < t411, t411, 0.1e-9)
t414 = t323 ** 2
t418 = t185 * t50 / t414 * t190
t420 = 0.609650e0 + t413 + t418 / 0.3e1
t421 = math.sqrt(t420)
t424 = t34 * t325 / t421
t427 = 0.609650e0 + t413
t431 = s2 * t331
t440 = 0.1e1 + 0.13006513974354692214e-1 * t51 * t431 / (0.1e1 + t51 * t431 / 0.96e2) + 0.42141105276909202774e1 * t413
t447 = t216 / t414 / t323 * t7 / t421 / t420
t451 = t427 ** 2
t458 = t451 * t427
t460 = math.sqrt(t427)
t462 = math.sqrt(t413)
t467 = lax_cond(0.0e0 < 0.7572109999e0 + t413, 0.757211e0 + t413, 0.1e-9)
t468 = math.sqrt(t467)
t475 = t414 ** 2
t479 = t420 ** 2
t491 = 0.3e1 * t418
t493 = math.sqrt(0.9e1 * t413 + t491)
t496 = math.sqrt(0.9e1 * t467 + t491)
t504 = t30 * t33 * t324 * t46
t509 = 0.1e1 / (t504 / 0.3e1 + t421)
t511 = math.log((t504 / 0.3e1 + t493 / 0.3e1) * t509)
t517 = math.log((t504 / 0.3e1 + t496 / 0.3e1) * t509)
t524 = lax_cond(r1 <= p_a_dens_threshold, 0, -0.3e1 / 0.8e1 * t5 * t316 * t27 * (0.757211e0 + 0.47272888888888888889e-1 * (0.1e1 - t424 / 0.3e1) / t427 + 0.26366444444444444444e-1 * t440 * (0.2e1 - t424 + t447 / 0.3e1) / t451 - (0.47459600000000000000e-1 * t440 * t427 + 0.28363733333333333333e-1 * t451 - 0.90865320000000000000e0 * t458 - t460 * t458 * (t239 + 0.12e2 / 0.5e1 * t462 - 0.12e2 / 0.5e1 * t468)) * (0.8e1 - 0.5e1 * t424 + 0.10e2 / 0.3e1 * t447 - t256 / t475 / t323 * t261 / t421 / t479 / 0.3e1) / t458 / 0.9e1 + 0.2e1 / 0.3e1 * t34 * t325 * (t493 / 0.3e1 - t496 / 0.3e1) + 0.2e1 * t413 * t511 - 0.2e1 * t467 * t517))
res = t308 + t524
" unpol "t3 = 3 ** (0.1e1 / 0.3e1)
t4 = math.pi ** (0.1e1 / 0.3e1)
t7 = 0.1e1 <= p_a_zeta_threshold
t8 = p_a_zeta_threshold - 0.1e1
t10 = lax_cond(t7, -t8, 0)
t11 = lax_cond(t7, t8, t10)
t12 = 0.1e1 + t11
t13 = t12 <= p_a_zeta_threshold
t14 = p_a_zeta_threshold ** (0.1e1 / 0.3e1)
t16 = t12 ** (0.1e1 / 0.3e1)
t18 = lax_cond(t13, t14 * p_a_zeta_threshold, t16 * t12)
t19 = r0 ** (0.1e1 / 0.3e1)
t21 = t3 ** 2
t22 = p_a_cam_omega * t21
t23 = math.pi ** 2
t24 = t23 ** (0.1e1 / 0.3e1)
t25 = 0.1e1 / t24
t26 = t22 * t25
t27 = lax_cond(t13, t14, t16)
t28 = 0.1e1 / t27
t29 = 0.1e1 / t19
t30 = t28 * t29
t31 = 6 ** (0.1e1 / 0.3e1)
t32 = t24 ** 2
t33 = 0.1e1 / t32
t34 = t31 * t33
t35 = t34 * s0
t36 = 2 ** (0.1e1 / 0.3e1)
t37 = t36 ** 2
t38 = r0 ** 2
t39 = t19 ** 2
t41 = 0.1e1 / t39 / t38
t42 = t37 * t41
t47 = s0 * t37 * t41
t51 = 0.1e1 / t23
t53 = math.sqrt(s0)
t55 = t38 ** 2
t57 = t53 * s0 / t55
t61 = t31 ** 2
t64 = 0.1e1 / t24 / t23
t66 = s0 ** 2
t71 = t66 * t36 / t19 / t55 / r0
t77 = 0.1e1 / t32 / t23
t84 = t53 * t66 * t37 / t39 / t55 / t38
t88 = t23 ** 2
t89 = 0.1e1 / t88
t91 = t66 * s0
t92 = t55 ** 2
t94 = t91 / t92
t100 = 0.1e1 / t24 / t88
t107 = t53 * t91 * t36 / t19 / t92 / r0
t153 = t66 ** 2
t176 = t35 * t42 * (params_a_a[0] * t31 * t33 * t47 / 0.24e2 + params_a_a[1] * t51 * t57 / 0.24e2 + params_a_a[2] * t61 * t64 * t71 / 0.288e3 + params_a_a[3] * t31 * t77 * t84 / 0.576e3 + params_a_a[4] * t89 * t94 / 0.576e3 + params_a_a[5] * t61 * t100 * t107 / 0.6912e4) / (0.1e1 + params_a_b[0] * t61 * t25 * t53 * t36 / t19 / r0 / 0.12e2 + params_a_b[1] * t31 * t33 * t47 / 0.24e2 + params_a_b[2] * t51 * t57 / 0.24e2 + params_a_b[3] * t61 * t64 * t71 / 0.288e3 + params_a_b[4] * t31 * t77 * t84 / 0.576e3 + params_a_b[5] * t89 * t94 / 0.576e3 + params_a_b[6] * t61 * t100 * t107 / 0.6912e4 + params_a_b[7] * t31 / t32 / t88 * t153 * t37 / t39 / t92 / t38 / 0.13824e5 + params_a_b[8] / t88 / t23 * t53 * t153 / t92 / t55 / 0.13824e5) / 0.24e2
t178 = lax_cond(0.1e-9 < t176, t176, 0.1e-9)
t179 = p_a_cam_omega ** 2
t181 = t27 ** 2
t186 = t179 * t3 * t33 / t181 / t39
t188 = 0.609650e0 + t178 + t186 / 0.3e1
t189 = math.sqrt(t188)
t192 = t26 * t30 / t189
t195 = 0.609650e0 + t178
t207 = 0.1e1 + 0.13006513974354692214e-1 * t35 * t42 / (0.1e1 + t34 * t47 / 0.96e2) + 0.42141105276909202774e1 * t178
t217 = t179 * p_a_cam_omega * t51 / t181 / t27 / r0 / t189 / t188
t221 = t195 ** 2
t228 = t221 * t195
t230 = math.sqrt(t195)
t232 = math.sqrt(math.pi)
t234 = math.sqrt(t178)
t239 = lax_cond(0.0e0 < 0.7572109999e0 + t178, 0.757211e0 + t178, 0.1e-9)
t240 = math.sqrt(t239)
t247 = t179 ** 2
t251 = t181 ** 2
t257 = t188 ** 2
t269 = 0.3e1 * t186
t271 = math.sqrt(0.9e1 * t178 + t269)
t274 = math.sqrt(0.9e1 * t239 + t269)
t282 = t22 * t25 * t28 * t29
t287 = 0.1e1 / (t282 / 0.3e1 + t189)
t289 = math.log((t282 / 0.3e1 + t271 / 0.3e1) * t287)
t295 = math.log((t282 / 0.3e1 + t274 / 0.3e1) * t287)
t302 = lax_cond(r0 / 0.2e1 <= p_a_dens_threshold, 0, -0.3e1 / 0.8e1 * t3 / t4 * t18 * t19 * (0.757211e0 + 0.47272888888888888889e-1 * (0.1e1 - t192 / 0.3e1) / t195 + 0.26366444444444444444e-1 * t207 * (0.2e1 - t192 + t217 / 0.3e1) / t221 - (0.47459600000000000000e-1 * t207 * t195 + 0.28363733333333333333e-1 * t221 - 0.90865320000000000000e0 * t228 - t230 * t228 * (0.4e1 / 0.5e1 * t232 + 0.12e2 / 0.5e1 * t234 - 0.12e2 / 0.5e1 * t240)) * (0.8e1 - 0.5e1 * t192 + 0.10e2 / 0.3e1 * t217 - t247 * p_a_cam_omega * t3 * t77 / t251 / t27 / t39 / r0 / t189 / t257 / 0.3e1) / t228 / 0.9e1 + 0.2e1 / 0.3e1 * t26 * t30 * (t271 / 0.3e1 - t274 / 0.3e1) + 0.2e1 * t178 * t289 - 0.2e1 * t239 * t295))
res = 0.2e1 * t302
"

end Verif.Data
