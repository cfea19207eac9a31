import Verif.Py.Elab

/-!
# Shipped formulas, verbatim from `gen_repo/impl/prebuilt/{pol,unpol}/NAME.py`
-/
namespace Verif.Data

/- gen_repo/impl/prebuilt/pol/lda_c_pz.py and gen_repo/impl/prebuilt/unpol/lda_c_pz.py -/
formula lda_c_pz pol "t1 = 3 ** (0.1e1 / 0.3e1)
t3 = (0.1e1 / math.pi) ** (0.1e1 / 0.3e1)
t5 = 4 ** (0.1e1 / 0.3e1)
t6 = t5 ** 2
t7 = r0 + r1
t8 = t7 ** (0.1e1 / 0.3e1)
t9 = 0.1e1 / t8
t10 = t6 * t9
t11 = t1 * t3 * t10
t12 = t11 / 0.4e1
t13 = 0.1e1 <= t12
t16 = math.sqrt(t11)
t22 = t3 * t6 * t9
t29 = math.log(t12)
t35 = t10 * t29
t43 = lax_cond(t13, params_a_gamma[0] / (0.1e1 + params_a_beta1[0] * t16 / 0.2e1 + params_a_beta2[0] * t1 * t22 / 0.4e1), params_a_a[0] * t29 + params_a_b[0] + params_a_c[0] * t1 * t3 * t35 / 0.4e1 + params_a_d[0] * t1 * t22 / 0.4e1)
t68 = lax_cond(t13, params_a_gamma[1] / (0.1e1 + params_a_beta1[1] * t16 / 0.2e1 + params_a_beta2[1] * t1 * t22 / 0.4e1), params_a_a[1] * t29 + params_a_b[1] + params_a_c[1] * t1 * t3 * t35 / 0.4e1 + params_a_d[1] * t1 * t22 / 0.4e1)
t72 = (r0 - r1) / t7
t73 = 0.1e1 + t72
t75 = p_a_zeta_threshold ** (0.1e1 / 0.3e1)
t76 = t75 * p_a_zeta_threshold
t77 = t73 ** (0.1e1 / 0.3e1)
t79 = lax_cond(t73 <= p_a_zeta_threshold, t76, t77 * t73)
t80 = 0.1e1 - t72
t82 = t80 ** (0.1e1 / 0.3e1)
t84 = lax_cond(t80 <= p_a_zeta_threshold, t76, t82 * t80)
t87 = 2 ** (0.1e1 / 0.3e1)
res = t43 + (t68 - t43) * (t79 + t84 - 0.2e1) / (0.2e1 * t87 - 0.2e1)
" unpol "t1 = 3 ** (0.1e1 / 0.3e1)
t3 = (0.1e1 / math.pi) ** (0.1e1 / 0.3e1)
t5 = 4 ** (0.1e1 / 0.3e1)
t6 = t5 ** 2
t7 = r0 ** (0.1e1 / 0.3e1)
t8 = 0.1e1 / t7
t9 = t6 * t8
t10 = t1 * t3 * t9
t11 = t10 / 0.4e1
t12 = 0.1e1 <= t11
t15 = math.sqrt(t10)
t21 = t3 * t6 * t8
t28 = math.log(t11)
t34 = t9 * t28
t42 = lax_cond(t12, params_a_gamma[0] / (0.1e1 + params_a_beta1[0] * t15 / 0.2e1 + params_a_beta2[0] * t1 * t21 / 0.4e1), params_a_a[0] * t28 + params_a_b[0] + params_a_c[0] * t1 * t3 * t34 / 0.4e1 + params_a_d[0] * t1 * t21 / 0.4e1)
t67 = lax_cond(t12, params_a_gamma[1] / (0.1e1 + params_a_beta1[1] * t15 / 0.2e1 + params_a_beta2[1] * t1 * t21 / 0.4e1), params_a_a[1] * t28 + params_a_b[1] + params_a_c[1] * t1 * t3 * t34 / 0.4e1 + params_a_d[1] * t1 * t21 / 0.4e1)
t70 = p_a_zeta_threshold ** (0.1e1 / 0.3e1)
t72 = lax_cond(0.1e1 <= p_a_zeta_threshold, t70 * p_a_zeta_threshold, 1)
t76 = 2 ** (0.1e1 / 0.3e1)
res = t42 + (t67 - t42) * (0.2e1 * t72 - 0.2e1) / (0.2e1 * t76 - 0.2e1)
"

/- gen_repo/impl/prebuilt/pol/lda_c_rc04.py and gen_repo/impl/prebuilt/unpol/lda_c_rc04.py -/
formula lda_c_rc04 pol "t2 = r0 + r1
t4 = (r0 - r1) / t2
t5 = 0.1e1 + t4
t7 = p_a_zeta_threshold ** (0.1e1 / 0.3e1)
t8 = t7 ** 2
t9 = t5 ** (0.1e1 / 0.3e1)
t10 = t9 ** 2
t11 = lax_cond(t5 <= p_a_zeta_threshold, t8, t10)
t12 = 0.1e1 - t4
t14 = t12 ** (0.1e1 / 0.3e1)
t15 = t14 ** 2
t16 = lax_cond(t12 <= p_a_zeta_threshold, t8, t15)
t18 = t11 / 0.2e1 + t16 / 0.2e1
t19 = t18 ** 2
t21 = 3 ** (0.1e1 / 0.3e1)
t23 = (0.1e1 / math.pi) ** (0.1e1 / 0.3e1)
t25 = 4 ** (0.1e1 / 0.3e1)
t26 = t25 ** 2
t27 = t2 ** (0.1e1 / 0.3e1)
t33 = math.atan(0.4888270e1 + 0.79425925000000000000e0 * t21 * t23 * t26 / t27)
t37 = t21 ** 2
res = t19 * t18 * (-0.655868e0 * t33 + 0.897889e0) * t37 / t23 * t25 * t27 / 0.3e1
" unpol "t2 = p_a_zeta_threshold ** (0.1e1 / 0.3e1)
t3 = t2 ** 2
t4 = lax_cond(0.1e1 <= p_a_zeta_threshold, t3, 1)
t5 = t4 ** 2
t7 = 3 ** (0.1e1 / 0.3e1)
t9 = (0.1e1 / math.pi) ** (0.1e1 / 0.3e1)
t11 = 4 ** (0.1e1 / 0.3e1)
t12 = t11 ** 2
t13 = r0 ** (0.1e1 / 0.3e1)
t19 = math.atan(0.4888270e1 + 0.79425925000000000000e0 * t7 * t9 * t12 / t13)
t23 = t7 ** 2
res = t5 * t4 * (-0.655868e0 * t19 + 0.897889e0) * t23 / t9 * t11 * t13 / 0.3e1
"

/- gen_repo/impl/prebuilt/pol/lda_c_rpa.py and gen_repo/impl/prebuilt/unpol/lda_c_rpa.py -/
formula lda_c_rpa pol "t1 = 3 ** (0.1e1 / 0.3e1)
t3 = (0.1e1 / math.pi) ** (0.1e1 / 0.3e1)
t4 = t1 * t3
t5 = 4 ** (0.1e1 / 0.3e1)
t6 = t5 ** 2
t8 = (r0 + r1) ** (0.1e1 / 0.3e1)
t10 = t6 / t8
t11 = t4 * t10
t13 = math.log(t11 / 0.4e1)
res = 0.311e-1 * t13 - 0.48e-1 + 0.22500000000000000000e-2 * t4 * t10 * t13 - 0.42500000000000000000e-2 * t11
" unpol "t1 = 3 ** (0.1e1 / 0.3e1)
t3 = (0.1e1 / math.pi) ** (0.1e1 / 0.3e1)
t4 = t1 * t3
t5 = 4 ** (0.1e1 / 0.3e1)
t6 = t5 ** 2
t7 = r0 ** (0.1e1 / 0.3e1)
t9 = t6 / t7
t10 = t4 * t9
t12 = math.log(t10 / 0.4e1)
res = 0.311e-1 * t12 - 0.48e-1 + 0.22500000000000000000e-2 * t4 * t9 * t12 - 0.42500000000000000000e-2 * t10
"

/- gen_repo/impl/prebuilt/pol/lda_c_vwn.py and gen_repo/impl/prebuilt/unpol/lda_c_vwn.py -/
formula lda_c_vwn pol "t1 = 3 ** (0.1e1 / 0.3e1)
t3 = (0.1e1 / math.pi) ** (0.1e1 / 0.3e1)
t4 = t1 * t3
t5 = 4 ** (0.1e1 / 0.3e1)
t6 = t5 ** 2
t7 = r0 + r1
t8 = t7 ** (0.1e1 / 0.3e1)
t10 = t6 / t8
t11 = t4 * t10
t12 = t11 / 0.4e1
t13 = math.sqrt(t11)
t16 = 0.1e1 / (t12 + 0.18637200000000000000e1 * t13 + 0.129352e2)
t20 = math.log(t4 * t10 * t16 / 0.4e1)
t21 = 0.310907e-1 * t20
t25 = math.atan(0.61519908197590802322e1 / (t13 + 0.372744e1))
t26 = 0.38783294878113014393e-1 * t25
t27 = t13 / 0.2e1
t29 = (t27 + 0.10498e0) ** 2
t31 = math.log(t29 * t16)
t32 = 0.96902277115443742139e-3 * t31
t33 = math.pi ** 2
t37 = 0.1e1 / (t12 + 0.56553500000000000000e0 * t13 + 0.130045e2)
t41 = math.log(t4 * t10 * t37 / 0.4e1)
t45 = math.atan(0.71231089178181179908e1 / (t13 + 0.113107e1))
t48 = (t27 + 0.47584e-2) ** 2
t50 = math.log(t48 * t37)
t54 = r0 - r1
t56 = t54 / t7
t57 = 0.1e1 + t56
t59 = p_a_zeta_threshold ** (0.1e1 / 0.3e1)
t60 = t59 * p_a_zeta_threshold
t61 = t57 ** (0.1e1 / 0.3e1)
t63 = lax_cond(t57 <= p_a_zeta_threshold, t60, t61 * t57)
t64 = 0.1e1 - t56
t66 = t64 ** (0.1e1 / 0.3e1)
t68 = lax_cond(t64 <= p_a_zeta_threshold, t60, t66 * t64)
t69 = t63 + t68 - 0.2e1
t71 = 2 ** (0.1e1 / 0.3e1)
t72 = t71 - 0.1e1
t74 = 0.1e1 / t72 / 0.2e1
t75 = t54 ** 2
t76 = t75 ** 2
t77 = t7 ** 2
t78 = t77 ** 2
t79 = 0.1e1 / t78
t89 = 0.1e1 / (t12 + 0.35302100000000000000e1 * t13 + 0.180578e2)
t93 = math.log(t4 * t10 * t89 / 0.4e1)
t98 = math.atan(0.47309269095601128300e1 / (t13 + 0.706042e1))
t101 = (t27 + 0.32500e0) ** 2
t103 = math.log(t101 * t89)
res = t21 + t26 + t32 - 0.3e1 / 0.8e1 / t33 * (t41 + 0.31770800474394146400e0 * t45 + 0.41403379428206274608e-3 * t50) * t69 * t74 * (-t76 * t79 + 0.1e1) * t72 + (0.1554535e-1 * t93 + 0.52491393169780936218e-1 * t98 + 0.22478670955426118383e-2 * t103 - t21 - t26 - t32) * t69 * t74 * t76 * t79
" unpol "t1 = 3 ** (0.1e1 / 0.3e1)
t3 = (0.1e1 / math.pi) ** (0.1e1 / 0.3e1)
t4 = t1 * t3
t5 = 4 ** (0.1e1 / 0.3e1)
t6 = t5 ** 2
t7 = r0 ** (0.1e1 / 0.3e1)
t9 = t6 / t7
t10 = t4 * t9
t11 = t10 / 0.4e1
t12 = math.sqrt(t10)
t15 = 0.1e1 / (t11 + 0.18637200000000000000e1 * t12 + 0.129352e2)
t19 = math.log(t4 * t9 * t15 / 0.4e1)
t24 = math.atan(0.61519908197590802322e1 / (t12 + 0.372744e1))
t26 = t12 / 0.2e1
t28 = (t26 + 0.10498e0) ** 2
t30 = math.log(t28 * t15)
t32 = math.pi ** 2
t36 = 0.1e1 / (t11 + 0.56553500000000000000e0 * t12 + 0.130045e2)
t40 = math.log(t4 * t9 * t36 / 0.4e1)
t44 = math.atan(0.71231089178181179908e1 / (t12 + 0.113107e1))
t47 = (t26 + 0.47584e-2) ** 2
t49 = math.log(t47 * t36)
t54 = p_a_zeta_threshold ** (0.1e1 / 0.3e1)
t56 = lax_cond(0.1e1 <= p_a_zeta_threshold, t54 * p_a_zeta_threshold, 1)
t59 = 2 ** (0.1e1 / 0.3e1)
t60 = t59 - 0.1e1
res = 0.310907e-1 * t19 + 0.38783294878113014393e-1 * t24 + 0.96902277115443742139e-3 * t30 - 0.1e1 / t32 * (t40 + 0.31770800474394146400e0 * t44 + 0.41403379428206274608e-3 * t49) * (0.9e1 * t56 - 0.9e1) / 0.24e2
"

/- gen_repo/impl/prebuilt/pol/lda_c_vwn_1.py and gen_repo/impl/prebuilt/unpol/lda_c_vwn_1.py -/
formula lda_c_vwn_1 pol "t1 = 3 ** (0.1e1 / 0.3e1)
t3 = (0.1e1 / math.pi) ** (0.1e1 / 0.3e1)
t4 = t1 * t3
t5 = 4 ** (0.1e1 / 0.3e1)
t6 = t5 ** 2
t7 = r0 + r1
t8 = t7 ** (0.1e1 / 0.3e1)
t10 = t6 / t8
t11 = t4 * t10
t12 = t11 / 0.4e1
t13 = math.sqrt(t11)
t16 = 0.1e1 / (t12 + 0.18637200000000000000e1 * t13 + 0.129352e2)
t20 = math.log(t4 * t10 * t16 / 0.4e1)
t25 = math.atan(0.61519908197590802322e1 / (t13 + 0.372744e1))
t27 = t13 / 0.2e1
t29 = (t27 + 0.10498e0) ** 2
t31 = math.log(t29 * t16)
t36 = (r0 - r1) / t7
t37 = 0.1e1 + t36
t39 = p_a_zeta_threshold ** (0.1e1 / 0.3e1)
t40 = t39 * p_a_zeta_threshold
t41 = t37 ** (0.1e1 / 0.3e1)
t43 = lax_cond(t37 <= p_a_zeta_threshold, t40, t41 * t37)
t44 = 0.1e1 - t36
t46 = t44 ** (0.1e1 / 0.3e1)
t48 = lax_cond(t44 <= p_a_zeta_threshold, t40, t46 * t44)
t49 = t43 + t48 - 0.2e1
t50 = 2 ** (0.1e1 / 0.3e1)
t53 = 0.1e1 / (0.2e1 * t50 - 0.2e1)
t59 = 0.1e1 / (t12 + 0.35302100000000000000e1 * t13 + 0.180578e2)
t63 = math.log(t4 * t10 * t59 / 0.4e1)
t68 = math.atan(0.47309269095601128300e1 / (t13 + 0.706042e1))
t71 = (t27 + 0.32500e0) ** 2
t73 = math.log(t71 * t59)
res = (0.310907e-1 * t20 + 0.38783294878113014393e-1 * t25 + 0.96902277115443742139e-3 * t31) * (-t49 * t53 + 0.1e1) + (0.1554535e-1 * t63 + 0.52491393169780936218e-1 * t68 + 0.22478670955426118383e-2 * t73) * t49 * t53
" unpol "t1 = 3 ** (0.1e1 / 0.3e1)
t3 = (0.1e1 / math.pi) ** (0.1e1 / 0.3e1)
t4 = t1 * t3
t5 = 4 ** (0.1e1 / 0.3e1)
t6 = t5 ** 2
t7 = r0 ** (0.1e1 / 0.3e1)
t9 = t6 / t7
t10 = t4 * t9
t11 = t10 / 0.4e1
t12 = math.sqrt(t10)
t15 = 0.1e1 / (t11 + 0.18637200000000000000e1 * t12 + 0.129352e2)
t19 = math.log(t4 * t9 * t15 / 0.4e1)
t24 = math.atan(0.61519908197590802322e1 / (t12 + 0.372744e1))
t26 = t12 / 0.2e1
t28 = (t26 + 0.10498e0) ** 2
t30 = math.log(t28 * t15)
t34 = p_a_zeta_threshold ** (0.1e1 / 0.3e1)
t36 = lax_cond(0.1e1 <= p_a_zeta_threshold, t34 * p_a_zeta_threshold, 1)
t38 = 0.2e1 * t36 - 0.2e1
t39 = 2 ** (0.1e1 / 0.3e1)
t42 = 0.1e1 / (0.2e1 * t39 - 0.2e1)
t48 = 0.1e1 / (t11 + 0.35302100000000000000e1 * t12 + 0.180578e2)
t52 = math.log(t4 * t9 * t48 / 0.4e1)
t57 = math.atan(0.47309269095601128300e1 / (t12 + 0.706042e1))
t60 = (t26 + 0.32500e0) ** 2
t62 = math.log(t60 * t48)
res = (0.310907e-1 * t19 + 0.38783294878113014393e-1 * t24 + 0.96902277115443742139e-3 * t30) * (-t38 * t42 + 0.1e1) + (0.1554535e-1 * t52 + 0.52491393169780936218e-1 * t57 + 0.22478670955426118383e-2 * t62) * t38 * t42
"

/- gen_repo/impl/prebuilt/pol/lda_c_vwn_2.py and gen_repo/impl/prebuilt/unpol/lda_c_vwn_2.py -/
formula lda_c_vwn_2 pol "t1 = 3 ** (0.1e1 / 0.3e1)
t3 = (0.1e1 / math.pi) ** (0.1e1 / 0.3e1)
t4 = t1 * t3
t5 = 4 ** (0.1e1 / 0.3e1)
t6 = t5 ** 2
t7 = r0 + r1
t8 = t7 ** (0.1e1 / 0.3e1)
t10 = t6 / t8
t11 = t4 * t10
t12 = t11 / 0.4e1
t13 = math.sqrt(t11)
t16 = 0.1e1 / (t12 + 0.18637200000000000000e1 * t13 + 0.129352e2)
t20 = math.log(t4 * t10 * t16 / 0.4e1)
t21 = 0.310907e-1 * t20
t25 = math.atan(0.61519908197590802322e1 / (t13 + 0.372744e1))
t26 = 0.38783294878113014393e-1 * t25
t27 = t13 / 0.2e1
t29 = (t27 + 0.10498e0) ** 2
t31 = math.log(t29 * t16)
t32 = 0.96902277115443742139e-3 * t31
t33 = math.pi ** 2
t37 = 0.1e1 / (t12 + 0.53417500000000000000e0 * t13 + 0.114813e2)
t41 = math.log(t4 * t10 * t37 / 0.4e1)
t45 = math.atan(0.66920720466459414830e1 / (t13 + 0.106835e1))
t48 = (t27 + 0.228344e0) ** 2
t50 = math.log(t48 * t37)
t54 = r0 - r1
t56 = t54 / t7
t57 = 0.1e1 + t56
t59 = p_a_zeta_threshold ** (0.1e1 / 0.3e1)
t60 = t59 * p_a_zeta_threshold
t61 = t57 ** (0.1e1 / 0.3e1)
t63 = lax_cond(t57 <= p_a_zeta_threshold, t60, t61 * t57)
t64 = 0.1e1 - t56
t66 = t64 ** (0.1e1 / 0.3e1)
t68 = lax_cond(t64 <= p_a_zeta_threshold, t60, t66 * t64)
t69 = t63 + t68 - 0.2e1
t71 = 2 ** (0.1e1 / 0.3e1)
t72 = t71 - 0.1e1
t74 = 0.1e1 / t72 / 0.2e1
t75 = t54 ** 2
t76 = t75 ** 2
t77 = t7 ** 2
t78 = t77 ** 2
t82 = t74 * (0.1e1 - t76 / t78)
t89 = 0.1e1 / (t12 + 0.10061550000000000000e2 * t13 + 0.101578e3)
t93 = math.log(t4 * t10 * t89 / 0.4e1)
t98 = math.atan(0.11716852777089929792e1 / (t13 + 0.201231e2))
t101 = (t27 + 0.743294e0) ** 2
t103 = math.log(t101 * t89)
t107 = 0.1e1 / (t12 + 0.65360000000000000000e1 * t13 + 0.427198e2)
t111 = math.log(t4 * t10 * t107 / 0.4e1)
t116 = math.atan(0.44899888641287296627e-1 / (t13 + 0.130720e2))
t119 = (t27 + 0.409286e0) ** 2
t121 = math.log(t119 * t107)
t128 = 0.1e1 / (t12 + 0.35302100000000000000e1 * t13 + 0.180578e2)
t132 = math.log(t4 * t10 * t128 / 0.4e1)
t137 = math.atan(0.47309269095601128300e1 / (t13 + 0.706042e1))
t140 = (t27 + 0.32500e0) ** 2
t142 = math.log(t140 * t128)
res = t21 + t26 + t32 - 0.3e1 / 0.8e1 / t33 * (t41 + 0.32323836906055067299e0 * t45 + 0.21608710360898267022e-1 * t50) * t69 * t82 * t72 - (0.1554535e-1 * t93 + 0.61881802979060631482e0 * t98 + 0.26673100072733151594e-2 * t103 - 0.310907e-1 * t111 - 0.20521972937837502661e2 * t116 - 0.44313737677495382697e-2 * t121) * t69 * t82 + (0.1554535e-1 * t132 + 0.52491393169780936218e-1 * t137 + 0.22478670955426118383e-2 * t142 - t21 - t26 - t32) * t69 * t74
" unpol "t1 = 3 ** (0.1e1 / 0.3e1)
t3 = (0.1e1 / math.pi) ** (0.1e1 / 0.3e1)
t4 = t1 * t3
t5 = 4 ** (0.1e1 / 0.3e1)
t6 = t5 ** 2
t7 = r0 ** (0.1e1 / 0.3e1)
t9 = t6 / t7
t10 = t4 * t9
t11 = t10 / 0.4e1
t12 = math.sqrt(t10)
t15 = 0.1e1 / (t11 + 0.18637200000000000000e1 * t12 + 0.129352e2)
t19 = math.log(t4 * t9 * t15 / 0.4e1)
t20 = 0.310907e-1 * t19
t24 = math.atan(0.61519908197590802322e1 / (t12 + 0.372744e1))
t25 = 0.38783294878113014393e-1 * t24
t26 = t12 / 0.2e1
t28 = (t26 + 0.10498e0) ** 2
t30 = math.log(t28 * t15)
t31 = 0.96902277115443742139e-3 * t30
t32 = math.pi ** 2
t36 = 0.1e1 / (t11 + 0.53417500000000000000e0 * t12 + 0.114813e2)
t40 = math.log(t4 * t9 * t36 / 0.4e1)
t44 = math.atan(0.66920720466459414830e1 / (t12 + 0.106835e1))
t47 = (t26 + 0.228344e0) ** 2
t49 = math.log(t47 * t36)
t54 = p_a_zeta_threshold ** (0.1e1 / 0.3e1)
t56 = lax_cond(0.1e1 <= p_a_zeta_threshold, t54 * p_a_zeta_threshold, 1)
t58 = 0.2e1 * t56 - 0.2e1
t59 = 2 ** (0.1e1 / 0.3e1)
t60 = t59 - 0.1e1
t62 = 0.1e1 / t60 / 0.2e1
t70 = 0.1e1 / (t11 + 0.10061550000000000000e2 * t12 + 0.101578e3)
t74 = math.log(t4 * t9 * t70 / 0.4e1)
t79 = math.atan(0.11716852777089929792e1 / (t12 + 0.201231e2))
t82 = (t26 + 0.743294e0) ** 2
t84 = math.log(t82 * t70)
t88 = 0.1e1 / (t11 + 0.65360000000000000000e1 * t12 + 0.427198e2)
t92 = math.log(t4 * t9 * t88 / 0.4e1)
t97 = math.atan(0.44899888641287296627e-1 / (t12 + 0.130720e2))
t100 = (t26 + 0.409286e0) ** 2
t102 = math.log(t100 * t88)
t109 = 0.1e1 / (t11 + 0.35302100000000000000e1 * t12 + 0.180578e2)
t113 = math.log(t4 * t9 * t109 / 0.4e1)
t118 = math.atan(0.47309269095601128300e1 / (t12 + 0.706042e1))
t121 = (t26 + 0.32500e0) ** 2
t123 = math.log(t121 * t109)
res = t20 + t25 + t31 - 0.3e1 / 0.8e1 / t32 * (t40 + 0.32323836906055067299e0 * t44 + 0.21608710360898267022e-1 * t49) * t58 * t62 * t60 - (0.1554535e-1 * t74 + 0.61881802979060631482e0 * t79 + 0.26673100072733151594e-2 * t84 - 0.310907e-1 * t92 - 0.20521972937837502661e2 * t97 - 0.44313737677495382697e-2 * t102) * t58 * t62 + (0.1554535e-1 * t113 + 0.52491393169780936218e-1 * t118 + 0.22478670955426118383e-2 * t123 - t20 - t25 - t31) * t58 * t62
"

/- gen_repo/impl/prebuilt/pol/lda_c_vwn_3.py and gen_repo/impl/prebuilt/unpol/lda_c_vwn_3.py -/
formula lda_c_vwn_3 pol "t1 = 3 ** (0.1e1 / 0.3e1)
t3 = (0.1e1 / math.pi) ** (0.1e1 / 0.3e1)
t4 = t1 * t3
t5 = 4 ** (0.1e1 / 0.3e1)
t6 = t5 ** 2
t7 = r0 + r1
t8 = t7 ** (0.1e1 / 0.3e1)
t10 = t6 / t8
t11 = t4 * t10
t12 = t11 / 0.4e1
t13 = math.sqrt(t11)
t16 = 0.1e1 / (t12 + 0.18637200000000000000e1 * t13 + 0.129352e2)
t20 = math.log(t4 * t10 * t16 / 0.4e1)
t21 = 0.310907e-1 * t20
t25 = math.atan(0.61519908197590802322e1 / (t13 + 0.372744e1))
t26 = 0.38783294878113014393e-1 * t25
t27 = t13 / 0.2e1
t29 = (t27 + 0.10498e0) ** 2
t31 = math.log(t29 * t16)
t32 = 0.96902277115443742139e-3 * t31
t35 = 0.1e1 / (t12 + 0.35302100000000000000e1 * t13 + 0.180578e2)
t39 = math.log(t4 * t10 * t35 / 0.4e1)
t44 = math.atan(0.47309269095601128300e1 / (t13 + 0.706042e1))
t47 = (t27 + 0.32500e0) ** 2
t49 = math.log(t47 * t35)
t51 = 0.1554535e-1 * t39 + 0.52491393169780936218e-1 * t44 + 0.22478670955426118383e-2 * t49 - t21 - t26 - t32
t54 = 0.1e1 / (t12 + 0.10061550000000000000e2 * t13 + 0.101578e3)
t58 = math.log(t4 * t10 * t54 / 0.4e1)
t63 = math.atan(0.11716852777089929792e1 / (t13 + 0.201231e2))
t66 = (t27 + 0.743294e0) ** 2
t68 = math.log(t66 * t54)
t72 = 0.1e1 / (t12 + 0.65360000000000000000e1 * t13 + 0.427198e2)
t76 = math.log(t4 * t10 * t72 / 0.4e1)
t81 = math.atan(0.44899888641287296627e-1 / (t13 + 0.130720e2))
t84 = (t27 + 0.409286e0) ** 2
t86 = math.log(t84 * t72)
t91 = math.pi ** 2
t95 = 0.1e1 / (t12 + 0.53417500000000000000e0 * t13 + 0.114813e2)
t99 = math.log(t4 * t10 * t95 / 0.4e1)
t103 = math.atan(0.66920720466459414830e1 / (t13 + 0.106835e1))
t106 = (t27 + 0.228344e0) ** 2
t108 = math.log(t106 * t95)
t113 = r0 - r1
t115 = t113 / t7
t116 = 0.1e1 + t115
t118 = p_a_zeta_threshold ** (0.1e1 / 0.3e1)
t119 = t118 * p_a_zeta_threshold
t120 = t116 ** (0.1e1 / 0.3e1)
t122 = lax_cond(t116 <= p_a_zeta_threshold, t119, t120 * t116)
t123 = 0.1e1 - t115
t125 = t123 ** (0.1e1 / 0.3e1)
t127 = lax_cond(t123 <= p_a_zeta_threshold, t119, t125 * t123)
t128 = t122 + t127 - 0.2e1
t129 = 2 ** (0.1e1 / 0.3e1)
t130 = t129 - 0.1e1
t132 = 0.1e1 / t130 / 0.2e1
t134 = t113 ** 2
t135 = t134 ** 2
t136 = t7 ** 2
t137 = t136 ** 2
t138 = 0.1e1 / t137
res = t21 + t26 + t32 - 0.3e1 / 0.8e1 * t51 / (0.1554535e-1 * t58 + 0.61881802979060631482e0 * t63 + 0.26673100072733151594e-2 * t68 - 0.310907e-1 * t76 - 0.20521972937837502661e2 * t81 - 0.44313737677495382697e-2 * t86) / t91 * (t99 + 0.32323836906055067299e0 * t103 + 0.21608710360898267022e-1 * t108) * t128 * t132 * (-t135 * t138 + 0.1e1) * t130 + t51 * t128 * t132 * t135 * t138
" unpol "t1 = 3 ** (0.1e1 / 0.3e1)
t3 = (0.1e1 / math.pi) ** (0.1e1 / 0.3e1)
t4 = t1 * t3
t5 = 4 ** (0.1e1 / 0.3e1)
t6 = t5 ** 2
t7 = r0 ** (0.1e1 / 0.3e1)
t9 = t6 / t7
t10 = t4 * t9
t11 = t10 / 0.4e1
t12 = math.sqrt(t10)
t15 = 0.1e1 / (t11 + 0.18637200000000000000e1 * t12 + 0.129352e2)
t19 = math.log(t4 * t9 * t15 / 0.4e1)
t20 = 0.310907e-1 * t19
t24 = math.atan(0.61519908197590802322e1 / (t12 + 0.372744e1))
t25 = 0.38783294878113014393e-1 * t24
t26 = t12 / 0.2e1
t28 = (t26 + 0.10498e0) ** 2
t30 = math.log(t28 * t15)
t31 = 0.96902277115443742139e-3 * t30
t34 = 0.1e1 / (t11 + 0.35302100000000000000e1 * t12 + 0.180578e2)
t38 = math.log(t4 * t9 * t34 / 0.4e1)
t43 = math.atan(0.47309269095601128300e1 / (t12 + 0.706042e1))
t46 = (t26 + 0.32500e0) ** 2
t48 = math.log(t46 * t34)
t53 = 0.1e1 / (t11 + 0.10061550000000000000e2 * t12 + 0.101578e3)
t57 = math.log(t4 * t9 * t53 / 0.4e1)
t62 = math.atan(0.11716852777089929792e1 / (t12 + 0.201231e2))
t65 = (t26 + 0.743294e0) ** 2
t67 = math.log(t65 * t53)
t71 = 0.1e1 / (t11 + 0.65360000000000000000e1 * t12 + 0.427198e2)
t75 = math.log(t4 * t9 * t71 / 0.4e1)
t80 = math.atan(0.44899888641287296627e-1 / (t12 + 0.130720e2))
t83 = (t26 + 0.409286e0) ** 2
t85 = math.log(t83 * t71)
t90 = math.pi ** 2
t95 = 0.1e1 / (t11 + 0.53417500000000000000e0 * t12 + 0.114813e2)
t99 = math.log(t4 * t9 * t95 / 0.4e1)
t103 = math.atan(0.66920720466459414830e1 / (t12 + 0.106835e1))
t106 = (t26 + 0.228344e0) ** 2
t108 = math.log(t106 * t95)
t112 = p_a_zeta_threshold ** (0.1e1 / 0.3e1)
t114 = lax_cond(0.1e1 <= p_a_zeta_threshold, t112 * p_a_zeta_threshold, 1)
t118 = 2 ** (0.1e1 / 0.3e1)
t119 = t118 - 0.1e1
res = t20 + t25 + t31 - 0.3e1 / 0.16e2 * (0.1554535e-1 * t38 + 0.52491393169780936218e-1 * t43 + 0.22478670955426118383e-2 * t48 - t20 - t25 - t31) / (0.1554535e-1 * t57 + 0.61881802979060631482e0 * t62 + 0.26673100072733151594e-2 * t67 - 0.310907e-1 * t75 - 0.20521972937837502661e2 * t80 - 0.44313737677495382697e-2 * t85) / t90 * (t99 + 0.32323836906055067299e0 * t103 + 0.21608710360898267022e-1 * t108) * (0.2e1 * t114 - 0.2e1)
"

/- gen_repo/impl/prebuilt/pol/lda_c_vwn_4.py and gen_repo/impl/prebuilt/unpol/lda_c_vwn_4.py -/
formula lda_c_vwn_4 pol "t1 = 3 ** (0.1e1 / 0.3e1)
t3 = (0.1e1 / math.pi) ** (0.1e1 / 0.3e1)
t4 = t1 * t3
t5 = 4 ** (0.1e1 / 0.3e1)
t6 = t5 ** 2
t7 = r0 + r1
t8 = t7 ** (0.1e1 / 0.3e1)
t10 = t6 / t8
t11 = t4 * t10
t12 = t11 / 0.4e1
t13 = math.sqrt(t11)
t16 = 0.1e1 / (t12 + 0.18637200000000000000e1 * t13 + 0.129352e2)
t20 = math.log(t4 * t10 * t16 / 0.4e1)
t21 = 0.310907e-1 * t20
t25 = math.atan(0.61519908197590802322e1 / (t13 + 0.372744e1))
t26 = 0.38783294878113014393e-1 * t25
t27 = t13 / 0.2e1
t29 = (t27 + 0.10498e0) ** 2
t31 = math.log(t29 * t16)
t32 = 0.96902277115443742139e-3 * t31
t33 = math.pi ** 2
t37 = 0.1e1 / (t12 + 0.53417500000000000000e0 * t13 + 0.114813e2)
t41 = math.log(t4 * t10 * t37 / 0.4e1)
t45 = math.atan(0.66920720466459414830e1 / (t13 + 0.106835e1))
t48 = (t27 + 0.228344e0) ** 2
t50 = math.log(t48 * t37)
t54 = r0 - r1
t56 = t54 / t7
t57 = 0.1e1 + t56
t59 = p_a_zeta_threshold ** (0.1e1 / 0.3e1)
t60 = t59 * p_a_zeta_threshold
t61 = t57 ** (0.1e1 / 0.3e1)
t63 = lax_cond(t57 <= p_a_zeta_threshold, t60, t61 * t57)
t64 = 0.1e1 - t56
t66 = t64 ** (0.1e1 / 0.3e1)
t68 = lax_cond(t64 <= p_a_zeta_threshold, t60, t66 * t64)
t69 = t63 + t68 - 0.2e1
t71 = 2 ** (0.1e1 / 0.3e1)
t72 = t71 - 0.1e1
t74 = 0.1e1 / t72 / 0.2e1
t75 = t54 ** 2
t76 = t75 ** 2
t77 = t7 ** 2
t78 = t77 ** 2
t79 = 0.1e1 / t78
t89 = 0.1e1 / (t12 + 0.35302100000000000000e1 * t13 + 0.180578e2)
t93 = math.log(t4 * t10 * t89 / 0.4e1)
t98 = math.atan(0.47309269095601128300e1 / (t13 + 0.706042e1))
t101 = (t27 + 0.32500e0) ** 2
t103 = math.log(t101 * t89)
res = t21 + t26 + t32 - 0.3e1 / 0.8e1 / t33 * (t41 + 0.32323836906055067299e0 * t45 + 0.21608710360898267022e-1 * t50) * t69 * t74 * (-t76 * t79 + 0.1e1) * t72 + (0.1554535e-1 * t93 + 0.52491393169780936218e-1 * t98 + 0.22478670955426118383e-2 * t103 - t21 - t26 - t32) * t69 * t74 * t76 * t79
" unpol "t1 = 3 ** (0.1e1 / 0.3e1)
t3 = (0.1e1 / math.pi) ** (0.1e1 / 0.3e1)
t4 = t1 * t3
t5 = 4 ** (0.1e1 / 0.3e1)
t6 = t5 ** 2
t7 = r0 ** (0.1e1 / 0.3e1)
t9 = t6 / t7
t10 = t4 * t9
t11 = t10 / 0.4e1
t12 = math.sqrt(t10)
t15 = 0.1e1 / (t11 + 0.18637200000000000000e1 * t12 + 0.129352e2)
t19 = math.log(t4 * t9 * t15 / 0.4e1)
t24 = math.atan(0.61519908197590802322e1 / (t12 + 0.372744e1))
t26 = t12 / 0.2e1
t28 = (t26 + 0.10498e0) ** 2
t30 = math.log(t28 * t15)
t32 = math.pi ** 2
t36 = 0.1e1 / (t11 + 0.53417500000000000000e0 * t12 + 0.114813e2)
t40 = math.log(t4 * t9 * t36 / 0.4e1)
t44 = math.atan(0.66920720466459414830e1 / (t12 + 0.106835e1))
t47 = (t26 + 0.228344e0) ** 2
t49 = math.log(t47 * t36)
t54 = p_a_zeta_threshold ** (0.1e1 / 0.3e1)
t56 = lax_cond(0.1e1 <= p_a_zeta_threshold, t54 * p_a_zeta_threshold, 1)
t59 = 2 ** (0.1e1 / 0.3e1)
t60 = t59 - 0.1e1
res = 0.310907e-1 * t19 + 0.38783294878113014393e-1 * t24 + 0.96902277115443742139e-3 * t30 - 0.1e1 / t32 * (t40 + 0.32323836906055067299e0 * t44 + 0.21608710360898267022e-1 * t49) * (0.9e1 * t56 - 0.9e1) / 0.24e2
"

/- gen_repo/impl/prebuilt/pol/lda_c_vwn_rpa.py and gen_repo/impl/prebuilt/unpol/lda_c_vwn_rpa.py -/
formula lda_c_vwn_rpa pol "t1 = 3 ** (0.1e1 / 0.3e1)
t3 = (0.1e1 / math.pi) ** (0.1e1 / 0.3e1)
t4 = t1 * t3
t5 = 4 ** (0.1e1 / 0.3e1)
t6 = t5 ** 2
t7 = r0 + r1
t8 = t7 ** (0.1e1 / 0.3e1)
t10 = t6 / t8
t11 = t4 * t10
t12 = t11 / 0.4e1
t13 = math.sqrt(t11)
t16 = 0.1e1 / (t12 + 0.65360000000000000000e1 * t13 + 0.427198e2)
t20 = math.log(t4 * t10 * t16 / 0.4e1)
t25 = math.atan(0.44899888641287296627e-1 / (t13 + 0.130720e2))
t27 = t13 / 0.2e1
t29 = (t27 + 0.409286e0) ** 2
t31 = math.log(t29 * t16)
t36 = (r0 - r1) / t7
t37 = 0.1e1 + t36
t39 = p_a_zeta_threshold ** (0.1e1 / 0.3e1)
t40 = t39 * p_a_zeta_threshold
t41 = t37 ** (0.1e1 / 0.3e1)
t43 = lax_cond(t37 <= p_a_zeta_threshold, t40, t41 * t37)
t44 = 0.1e1 - t36
t46 = t44 ** (0.1e1 / 0.3e1)
t48 = lax_cond(t44 <= p_a_zeta_threshold, t40, t46 * t44)
t49 = t43 + t48 - 0.2e1
t50 = 2 ** (0.1e1 / 0.3e1)
t53 = 0.1e1 / (0.2e1 * t50 - 0.2e1)
t59 = 0.1e1 / (t12 + 0.10061550000000000000e2 * t13 + 0.101578e3)
t63 = math.log(t4 * t10 * t59 / 0.4e1)
t68 = math.atan(0.11716852777089929792e1 / (t13 + 0.201231e2))
t71 = (t27 + 0.743294e0) ** 2
t73 = math.log(t71 * t59)
res = (0.310907e-1 * t20 + 0.20521972937837502661e2 * t25 + 0.44313737677495382697e-2 * t31) * (-t49 * t53 + 0.1e1) + (0.1554535e-1 * t63 + 0.61881802979060631482e0 * t68 + 0.26673100072733151594e-2 * t73) * t49 * t53
" unpol "t1 = 3 ** (0.1e1 / 0.3e1)
t3 = (0.1e1 / math.pi) ** (0.1e1 / 0.3e1)
t4 = t1 * t3
t5 = 4 ** (0.1e1 / 0.3e1)
t6 = t5 ** 2
t7 = r0 ** (0.1e1 / 0.3e1)
t9 = t6 / t7
t10 = t4 * t9
t11 = t10 / 0.4e1
t12 = math.sqrt(t10)
t15 = 0.1e1 / (t11 + 0.65360000000000000000e1 * t12 + 0.427198e2)
t19 = math.log(t4 * t9 * t15 / 0.4e1)
t24 = math.atan(0.44899888641287296627e-1 / (t12 + 0.130720e2))
t26 = t12 / 0.2e1
t28 = (t26 + 0.409286e0) ** 2
t30 = math.log(t28 * t15)
t34 = p_a_zeta_threshold ** (0.1e1 / 0.3e1)
t36 = lax_cond(0.1e1 <= p_a_zeta_threshold, t34 * p_a_zeta_threshold, 1)
t38 = 0.2e1 * t36 - 0.2e1
t39 = 2 ** (0.1e1 / 0.3e1)
t42 = 0.1e1 / (0.2e1 * t39 - 0.2e1)
t48 = 0.1e1 / (t11 + 0.10061550000000000000e2 * t12 + 0.101578e3)
t52 = math.log(t4 * t9 * t48 / 0.4e1)
t57 = math.atan(0.11716852777089929792e1 / (t12 + 0.201231e2))
t60 = (t26 + 0.743294e0) ** 2
t62 = math.log(t60 * t48)
res = (0.310907e-1 * t19 + 0.20521972937837502661e2 * t24 + 0.44313737677495382697e-2 * t30) * (-t38 * t42 + 0.1e1) + (0.1554535e-1 * t52 + 0.61881802979060631482e0 * t57 + 0.26673100072733151594e-2 * t62) * t38 * t42
"

/- gen_repo/impl/prebuilt/pol/lda_c_w20.py and gen_repo/impl/prebuilt/unpol/lda_c_w20.py -/
formula lda_c_w20 pol "t1 = math.log(0.2e1)
t2 = 0.1e1 - t1
t3 = math.pi ** 2
t4 = 0.1e1 / t3
t5 = t2 * t4
t6 = t1 / 0.6e1
t7 = 0.90154267736969571405e0 * t4
t9 = 0.1e1 / t2
t13 = math.exp(-0.2e1 * (-0.71100e-1 + t6 - t7) * t9 * t3)
t14 = 3 ** (0.1e1 / 0.3e1)
t15 = t14 ** 2
t17 = (0.1e1 / math.pi) ** (0.1e1 / 0.3e1)
t18 = t17 ** 2
t20 = 4 ** (0.1e1 / 0.3e1)
t21 = r0 + r1
t22 = t21 ** (0.1e1 / 0.3e1)
t23 = t22 ** 2
t28 = math.exp(-t15 * t18 * t20 / t23 / 0.40000e5)
t29 = 0.1e1 - t28
t30 = math.pi ** (0.1e1 / 0.3e1)
t31 = t30 ** 2
t33 = 9 ** (0.1e1 / 0.3e1)
t34 = 0.1e1 / t31 * t33
t35 = t20 ** 2
t41 = t13 / 0.2e1
t47 = 0.1e1 / t17
t49 = t47 * t20 * t22
t53 = math.sqrt(0.4e1)
t55 = t14 * t17
t56 = 0.1e1 / t22
t58 = t55 * t35 * t56
t59 = math.sqrt(t58)
t63 = t29 * t9 * t3 * t53 / t59 / t58
t65 = t33 ** 2
t66 = t65 * t20
t67 = t31 * t3
t78 = 0.1e1 / t18 * t35 * t23
t82 = math.log(0.1e1 + (t13 - 0.2e1 * t29 * ((-0.9e0 + 0.3e1 / 0.16e2 * t34 * t35) * t9 * t3 + t41)) * t15 * t49 / 0.3e1 - 0.120e2 * t63 + (t13 - 0.2e1 * t29 * (-0.3e1 / 0.40e2 * t66 * t67 * t9 + t41)) * t14 * t78 / 0.3e1)
t84 = t5 * t82 / 0.2e1
t86 = t56 * t28
t87 = 4 ** (0.1e1 / 0.4e1)
t88 = t87 ** 2
t90 = t58 ** (0.1e1 / 0.4e1)
t95 = 0.1e1 / (t28 + 0.5e1 / 0.8e1 * t88 * t87 * t90 * t58)
t98 = 0.1e1 / t30 / t3 / math.pi
t100 = 0.12e2 * t1
t108 = math.log(0.1e1 + t15 * t47 * t20 * t22 / 0.3e1)
t116 = t55 * t35 * t86 * t95 * (-t66 * t98 * (0.7e1 / 0.6e1 * t3 - t100 - 0.1e1) * t108 / 0.36e2 - 0.1e-1) / 0.4e1
t121 = math.exp(-0.4e1 * (-0.49917e-1 + t6 - t7) * t9 * t3)
t122 = 2 ** (0.1e1 / 0.3e1)
t130 = t121 / 0.2e1
t139 = t122 ** 2
t152 = math.log(0.1e1 + (t121 - 0.2e1 * t29 * (0.2e1 * (-0.9e0 + 0.3e1 / 0.16e2 * t34 * t35 * t122) * t9 * t3 + t130)) * t15 * t49 / 0.3e1 - 0.240e2 * t63 + (t121 - 0.2e1 * t29 * (-0.3e1 / 0.20e2 * t66 * t67 * t139 * t9 + t130)) * t14 * t78 / 0.3e1)
t168 = (r0 - r1) / t21
t169 = 0.1e1 + t168
t171 = p_a_zeta_threshold ** (0.1e1 / 0.3e1)
t172 = t171 * p_a_zeta_threshold
t173 = t169 ** (0.1e1 / 0.3e1)
t175 = lax_cond(t169 <= p_a_zeta_threshold, t172, t173 * t169)
t176 = 0.1e1 - t168
t178 = t176 ** (0.1e1 / 0.3e1)
t180 = lax_cond(t176 <= p_a_zeta_threshold, t172, t178 * t176)
res = -t84 + t116 + (-t5 * t152 / 0.4e1 - t55 * t86 * t95 * t139 * t65 * t98 * (0.13e2 / 0.12e2 * t3 - t100 + 0.1e1 / 0.2e1) * t108 / 0.144e3 + t84 - t116) * (t175 + t180 - 0.2e1) / (0.2e1 * t122 - 0.2e1)
" unpol "t1 = math.log(0.2e1)
t2 = 0.1e1 - t1
t3 = math.pi ** 2
t4 = 0.1e1 / t3
t5 = t2 * t4
t6 = t1 / 0.6e1
t7 = 0.90154267736969571405e0 * t4
t9 = 0.1e1 / t2
t13 = math.exp(-0.2e1 * (-0.71100e-1 + t6 - t7) * t9 * t3)
t14 = 3 ** (0.1e1 / 0.3e1)
t15 = t14 ** 2
t17 = (0.1e1 / math.pi) ** (0.1e1 / 0.3e1)
t18 = t17 ** 2
t20 = 4 ** (0.1e1 / 0.3e1)
t21 = r0 ** (0.1e1 / 0.3e1)
t22 = t21 ** 2
t27 = math.exp(-t15 * t18 * t20 / t22 / 0.40000e5)
t28 = 0.1e1 - t27
t29 = math.pi ** (0.1e1 / 0.3e1)
t30 = t29 ** 2
t32 = 9 ** (0.1e1 / 0.3e1)
t33 = 0.1e1 / t30 * t32
t34 = t20 ** 2
t40 = t13 / 0.2e1
t46 = 0.1e1 / t17
t48 = t46 * t20 * t21
t52 = math.sqrt(0.4e1)
t54 = t14 * t17
t55 = 0.1e1 / t21
t57 = t54 * t34 * t55
t58 = math.sqrt(t57)
t62 = t28 * t9 * t3 * t52 / t58 / t57
t64 = t32 ** 2
t65 = t64 * t20
t66 = t30 * t3
t77 = 0.1e1 / t18 * t34 * t22
t81 = math.log(0.1e1 + (t13 - 0.2e1 * t28 * ((-0.9e0 + 0.3e1 / 0.16e2 * t33 * t34) * t9 * t3 + t40)) * t15 * t48 / 0.3e1 - 0.120e2 * t62 + (t13 - 0.2e1 * t28 * (-0.3e1 / 0.40e2 * t65 * t66 * t9 + t40)) * t14 * t77 / 0.3e1)
t83 = t5 * t81 / 0.2e1
t85 = t55 * t27
t86 = 4 ** (0.1e1 / 0.4e1)
t87 = t86 ** 2
t89 = t57 ** (0.1e1 / 0.4e1)
t94 = 0.1e1 / (t27 + 0.5e1 / 0.8e1 * t87 * t86 * t89 * t57)
t97 = 0.1e1 / t29 / t3 / math.pi
t99 = 0.12e2 * t1
t107 = math.log(0.1e1 + t15 * t46 * t20 * t21 / 0.3e1)
t115 = t54 * t34 * t85 * t94 * (-t65 * t97 * (0.7e1 / 0.6e1 * t3 - t99 - 0.1e1) * t107 / 0.36e2 - 0.1e-1) / 0.4e1
t120 = math.exp(-0.4e1 * (-0.49917e-1 + t6 - t7) * t9 * t3)
t121 = 2 ** (0.1e1 / 0.3e1)
t129 = t120 / 0.2e1
t138 = t121 ** 2
t151 = math.log(0.1e1 + (t120 - 0.2e1 * t28 * (0.2e1 * (-0.9e0 + 0.3e1 / 0.16e2 * t33 * t34 * t121) * t9 * t3 + t129)) * t15 * t48 / 0.3e1 - 0.240e2 * t62 + (t120 - 0.2e1 * t28 * (-0.3e1 / 0.20e2 * t65 * t66 * t138 * t9 + t129)) * t14 * t77 / 0.3e1)
t166 = p_a_zeta_threshold ** (0.1e1 / 0.3e1)
t168 = lax_cond(0.1e1 <= p_a_zeta_threshold, t166 * p_a_zeta_threshold, 1)
res = -t83 + t115 + (-t5 * t151 / 0.4e1 - t54 * t85 * t94 * t138 * t64 * t97 * (0.13e2 / 0.12e2 * t3 - t99 + 0.1e1 / 0.2e1) * t107 / 0.144e3 + t83 - t115) * (0.2e1 * t168 - 0.2e1) / (0.2e1 * t121 - 0.2e1)
"

/- gen_repo/impl/prebuilt/pol/lda_c_wigner.py and gen_repo/impl/prebuilt/unpol/lda_c_wigner.py -/
formula lda_c_wigner pol "t2 = (r0 - r1) ** 2
t3 = r0 + r1
t4 = t3 ** 2
t9 = 3 ** (0.1e1 / 0.3e1)
t11 = (0.1e1 / math.pi) ** (0.1e1 / 0.3e1)
t13 = 4 ** (0.1e1 / 0.3e1)
t14 = t13 ** 2
t15 = t3 ** (0.1e1 / 0.3e1)
res = (0.1e1 - t2 / t4) * params_a_a / (params_a_b + t9 * t11 * t14 / t15 / 0.4e1)
" unpol "t1 = 3 ** (0.1e1 / 0.3e1)
t3 = (0.1e1 / math.pi) ** (0.1e1 / 0.3e1)
t5 = 4 ** (0.1e1 / 0.3e1)
t6 = t5 ** 2
t7 = r0 ** (0.1e1 / 0.3e1)
res = params_a_a / (params_a_b + t1 * t3 * t6 / t7 / 0.4e1)
"

/- gen_repo/impl/prebuilt/pol/lda_k_gds08_worker.py and gen_repo/impl/prebuilt/unpol/lda_k_gds08_worker.py -/
formula lda_k_gds08_worker pol "t3 = r0 + r1
t4 = 0.1e1 / t3
t5 = (r0 - r1) * t4
t7 = 0.1e1 + t5 <= p_a_zeta_threshold
t8 = p_a_zeta_threshold - 0.1e1
t10 = 0.1e1 - t5 <= p_a_zeta_threshold
t11 = -t8
t12 = lax_cond(t10, t11, t5)
t13 = lax_cond(t7, t8, t12)
t17 = 0.2e1 * r0 * t4 <= p_a_zeta_threshold
t20 = 0.2e1 * r1 * t4 <= p_a_zeta_threshold
t21 = lax_cond(t20, t11, t5)
t22 = lax_cond(t17, t8, t21)
t25 = math.log((0.1e1 + t22) * t3)
t27 = t25 ** 2
t32 = lax_cond(r0 <= p_a_dens_threshold, 0, (0.1e1 + t13) * (params_a_B * t25 + params_a_C * t27 + params_a_A) / 0.2e1)
t34 = lax_cond(t7, t11, -t5)
t35 = lax_cond(t10, t8, t34)
t37 = lax_cond(t17, t11, -t5)
t38 = lax_cond(t20, t8, t37)
t41 = math.log((0.1e1 + t38) * t3)
t43 = t41 ** 2
t48 = lax_cond(r1 <= p_a_dens_threshold, 0, (0.1e1 + t35) * (params_a_B * t41 + params_a_C * t43 + params_a_A) / 0.2e1)
res = t32 + t48
" unpol "t3 = 0.1e1 <= p_a_zeta_threshold
t4 = p_a_zeta_threshold - 0.1e1
t6 = lax_cond(t3, -t4, 0)
t7 = lax_cond(t3, t4, t6)
t8 = 0.1e1 + t7
t10 = math.log(t8 * r0)
t12 = t10 ** 2
t17 = lax_cond(r0 / 0.2e1 <= p_a_dens_threshold, 0, t8 * (params_a_B * t10 + params_a_C * t12 + params_a_A) / 0.2e1)
res = 0.2e1 * t17
"

/- gen_repo/impl/prebuilt/pol/lda_k_tf.py and gen_repo/impl/prebuilt/unpol/lda_k_tf.py -/
formula lda_k_tf pol "t2 = r0 + r1
t4 = (r0 - r1) / t2
t5 = 0.1e1 + t4
t7 = p_a_zeta_threshold ** (0.1e1 / 0.3e1)
t8 = t7 ** 2
t9 = t8 * p_a_zeta_threshold
t10 = t5 ** (0.1e1 / 0.3e1)
t11 = t10 ** 2
t13 = lax_cond(t5 <= p_a_zeta_threshold, t9, t11 * t5)
t14 = 0.1e1 - t4
t16 = t14 ** (0.1e1 / 0.3e1)
t17 = t16 ** 2
t19 = lax_cond(t14 <= p_a_zeta_threshold, t9, t17 * t14)
t23 = 3 ** (0.1e1 / 0.3e1)
t26 = (0.1e1 / math.pi) ** (0.1e1 / 0.3e1)
t27 = t26 ** 2
t29 = 4 ** (0.1e1 / 0.3e1)
t30 = t29 ** 2
t32 = t2 ** (0.1e1 / 0.3e1)
t33 = t32 ** 2
res = params_a_ax * (t13 / 0.2e1 + t19 / 0.2e1) * t23 / t27 * t30 * t33 / 0.3e1
" unpol "t2 = p_a_zeta_threshold ** (0.1e1 / 0.3e1)
t3 = t2 ** 2
t5 = lax_cond(0.1e1 <= p_a_zeta_threshold, t3 * p_a_zeta_threshold, 1)
t7 = 3 ** (0.1e1 / 0.3e1)
t10 = (0.1e1 / math.pi) ** (0.1e1 / 0.3e1)
t11 = t10 ** 2
t13 = 4 ** (0.1e1 / 0.3e1)
t14 = t13 ** 2
t16 = r0 ** (0.1e1 / 0.3e1)
t17 = t16 ** 2
res = params_a_ax * t5 * t7 / t11 * t14 * t17 / 0.3e1
"

/- gen_repo/impl/prebuilt/pol/lda_k_zlp.py and gen_repo/impl/prebuilt/unpol/lda_k_zlp.py -/
formula lda_k_zlp pol "t1 = 3 ** (0.1e1 / 0.3e1)
t2 = t1 ** 2
t4 = (0.1e1 / math.pi) ** (0.1e1 / 0.3e1)
t7 = 4 ** (0.1e1 / 0.3e1)
t10 = r0 + r1
t12 = (r0 - r1) / t10
t13 = 0.1e1 + t12
t15 = p_a_zeta_threshold ** (0.1e1 / 0.3e1)
t16 = t15 ** 2
t17 = t16 * p_a_zeta_threshold
t18 = t13 ** (0.1e1 / 0.3e1)
t19 = t18 ** 2
t21 = lax_cond(t13 <= p_a_zeta_threshold, t17, t19 * t13)
t22 = 0.1e1 - t12
t24 = t22 ** (0.1e1 / 0.3e1)
t25 = t24 ** 2
t27 = lax_cond(t22 <= p_a_zeta_threshold, t17, t25 * t22)
t30 = t10 ** (0.1e1 / 0.3e1)
t31 = t30 ** 2
t36 = math.log(0.1e1 + 0.51020408163265306120e3 / t30)
res = 0.10790666666666666667e1 * t2 / t4 * t7 * (t21 / 0.2e1 + t27 / 0.2e1) * t31 * (0.1e1 - 0.19600000000000000000e-2 * t30 * t36)
" unpol "t1 = 3 ** (0.1e1 / 0.3e1)
t2 = t1 ** 2
t4 = (0.1e1 / math.pi) ** (0.1e1 / 0.3e1)
t7 = 4 ** (0.1e1 / 0.3e1)
t10 = p_a_zeta_threshold ** (0.1e1 / 0.3e1)
t11 = t10 ** 2
t13 = lax_cond(0.1e1 <= p_a_zeta_threshold, t11 * p_a_zeta_threshold, 1)
t14 = r0 ** (0.1e1 / 0.3e1)
t15 = t14 ** 2
t20 = math.log(0.1e1 + 0.51020408163265306120e3 / t14)
res = 0.10790666666666666667e1 * t2 / t4 * t7 * t13 * t15 * (0.1e1 - 0.19600000000000000000e-2 * t14 * t20)
"

/- gen_repo/impl/prebuilt/pol/lda_x.py and gen_repo/impl/prebuilt/unpol/lda_x.py -/
formula lda_x pol "t2 = 3 ** (0.1e1 / 0.3e1)
t3 = math.pi ** (0.1e1 / 0.3e1)
t5 = t2 / t3
t6 = r0 + r1
t7 = 0.1e1 / t6
t8 = r0 * t7
t11 = p_a_zeta_threshold ** (0.1e1 / 0.3e1)
t12 = t11 * p_a_zeta_threshold
t13 = 2 ** (0.1e1 / 0.3e1)
t15 = t8 ** (0.1e1 / 0.3e1)
t19 = lax_cond(0.2e1 * t8 <= p_a_zeta_threshold, t12, 0.2e1 * t13 * r0 * t7 * t15)
t20 = t6 ** (0.1e1 / 0.3e1)
t24 = lax_cond(r0 <= p_a_dens_threshold, 0, -0.3e1 / 0.8e1 * t5 * t19 * t20)
t27 = r1 * t7
t31 = t27 ** (0.1e1 / 0.3e1)
t35 = lax_cond(0.2e1 * t27 <= p_a_zeta_threshold, t12, 0.2e1 * t13 * r1 * t7 * t31)
t39 = lax_cond(r1 <= p_a_dens_threshold, 0, -0.3e1 / 0.8e1 * t5 * t35 * t20)
res = params_a_alpha * t24 + params_a_alpha * t39
" unpol "t3 = 3 ** (0.1e1 / 0.3e1)
t4 = math.pi ** (0.1e1 / 0.3e1)
t8 = p_a_zeta_threshold ** (0.1e1 / 0.3e1)
t10 = lax_cond(0.1e1 <= p_a_zeta_threshold, t8 * p_a_zeta_threshold, 1)
t11 = r0 ** (0.1e1 / 0.3e1)
t15 = lax_cond(r0 / 0.2e1 <= p_a_dens_threshold, 0, -0.3e1 / 0.8e1 * t3 / t4 * t10 * t11)
res = 0.2e1 * params_a_alpha * t15
"

/- gen_repo/impl/prebuilt/pol/lda_x_1d_exponential.py and gen_repo/impl/prebuilt/unpol/lda_x_1d_exponential.py -/
formula lda_x_1d_exponential pol "t3 = r0 + r1
t4 = 0.1e1 / t3
t5 = (r0 - r1) * t4
t7 = 0.1e1 + t5 <= p_a_zeta_threshold
t8 = jnp.logical_or(r0 <= p_a_dens_threshold, t7)
t9 = p_a_zeta_threshold - 0.1e1
t11 = 0.1e1 - t5 <= p_a_zeta_threshold
t12 = -t9
t13 = lax_cond(t11, t12, t5)
t14 = lax_cond(t7, t9, t13)
t15 = 0.1e1 + t14
t17 = params_a_beta * t3
t18 = t15 * math.pi * t17
t19 = int1(t18)
t21 = int2(t18)
t22 = 0.1e1 / math.pi
t24 = 0.1e1 / params_a_beta
t25 = t24 * t4
t31 = lax_cond(t8, 0, -0.25000000000000000000e0 * (-t21 * t22 * t25 + t15 * t19) * t22 * t24)
t33 = jnp.logical_or(r1 <= p_a_dens_threshold, t11)
t34 = lax_cond(t7, t12, -t5)
t35 = lax_cond(t11, t9, t34)
t36 = 0.1e1 + t35
t38 = t36 * math.pi * t17
t39 = int1(t38)
t41 = int2(t38)
t48 = lax_cond(t33, 0, -0.25000000000000000000e0 * (-t41 * t22 * t25 + t36 * t39) * t22 * t24)
res = t31 + t48
" unpol "t3 = 0.1e1 <= p_a_zeta_threshold
t4 = jnp.logical_or(r0 / 0.2e1 <= p_a_dens_threshold, t3)
t5 = p_a_zeta_threshold - 0.1e1
t7 = lax_cond(t3, -t5, 0)
t8 = lax_cond(t3, t5, t7)
t9 = 0.1e1 + t8
t12 = t9 * math.pi * params_a_beta * r0
t13 = int1(t12)
t15 = int2(t12)
t16 = 0.1e1 / math.pi
t18 = 0.1e1 / params_a_beta
t26 = lax_cond(t4, 0, -0.25000000000000000000e0 * (t9 * t13 - t15 * t16 * t18 / r0) * t16 * t18)
res = 0.2e1 * t26
"

/- gen_repo/impl/prebuilt/pol/lda_x_1d_soft.py and gen_repo/impl/prebuilt/unpol/lda_x_1d_soft.py -/
formula lda_x_1d_soft pol "t3 = r0 + r1
t4 = 0.1e1 / t3
t5 = (r0 - r1) * t4
t7 = 0.1e1 + t5 <= p_a_zeta_threshold
t8 = jnp.logical_or(r0 <= p_a_dens_threshold, t7)
t9 = p_a_zeta_threshold - 0.1e1
t11 = 0.1e1 - t5 <= p_a_zeta_threshold
t12 = -t9
t13 = lax_cond(t11, t12, t5)
t14 = lax_cond(t7, t9, t13)
t15 = 0.1e1 + t14
t17 = params_a_beta * t3
t18 = t15 * math.pi * t17
t19 = int1(t18)
t21 = int2(t18)
t22 = 0.1e1 / math.pi
t24 = 0.1e1 / params_a_beta
t25 = t24 * t4
t31 = lax_cond(t8, 0, -0.25000000000000000000e0 * (-t21 * t22 * t25 + t15 * t19) * t22 * t24)
t33 = jnp.logical_or(r1 <= p_a_dens_threshold, t11)
t34 = lax_cond(t7, t12, -t5)
t35 = lax_cond(t11, t9, t34)
t36 = 0.1e1 + t35
t38 = t36 * math.pi * t17
t39 = int1(t38)
t41 = int2(t38)
t48 = lax_cond(t33, 0, -0.25000000000000000000e0 * (-t41 * t22 * t25 + t36 * t39) * t22 * t24)
res = t31 + t48
" unpol "t3 = 0.1e1 <= p_a_zeta_threshold
t4 = jnp.logical_or(r0 / 0.2e1 <= p_a_dens_threshold, t3)
t5 = p_a_zeta_threshold - 0.1e1
t7 = lax_cond(t3, -t5, 0)
t8 = lax_cond(t3, t5, t7)
t9 = 0.1e1 + t8
t12 = t9 * math.pi * params_a_beta * r0
t13 = int1(t12)
t15 = int2(t12)
t16 = 0.1e1 / math.pi
t18 = 0.1e1 / params_a_beta
t26 = lax_cond(t4, 0, -0.25000000000000000000e0 * (t9 * t13 - t15 * t16 * t18 / r0) * t16 * t18)
res = 0.2e1 * t26
"

/- gen_repo/impl/prebuilt/pol/lda_x_2d.py and gen_repo/impl/prebuilt/unpol/lda_x_2d.py -/
formula lda_x_2d pol "t1 = math.sqrt(0.2e1)
t2 = math.sqrt(math.pi)
t6 = r0 + r1
t8 = (r0 - r1) / t6
t9 = 0.1e1 + t8
t11 = math.sqrt(p_a_zeta_threshold)
t12 = t11 * p_a_zeta_threshold
t13 = math.sqrt(t9)
t15 = lax_cond(t9 <= p_a_zeta_threshold, t12, t13 * t9)
t16 = 0.1e1 - t8
t18 = math.sqrt(t16)
t20 = lax_cond(t16 <= p_a_zeta_threshold, t12, t18 * t16)
t23 = math.sqrt(t6)
res = -0.4e1 / 0.3e1 * t1 / t2 * (t15 / 0.2e1 + t20 / 0.2e1) * t23
" unpol "t1 = math.sqrt(0.2e1)
t2 = math.sqrt(math.pi)
t6 = math.sqrt(p_a_zeta_threshold)
t8 = lax_cond(0.1e1 <= p_a_zeta_threshold, t6 * p_a_zeta_threshold, 1)
t9 = math.sqrt(r0)
res = -0.4e1 / 0.3e1 * t1 / t2 * t8 * t9
"

/- gen_repo/impl/prebuilt/pol/lda_x_erf.py and gen_repo/impl/prebuilt/unpol/lda_x_erf.py -/
formula lda_x_erf pol "t1 = 3 ** (0.1e1 / 0.3e1)
t3 = (0.1e1 / math.pi) ** (0.1e1 / 0.3e1)
t5 = 4 ** (0.1e1 / 0.3e1)
t6 = t5 ** 2
t7 = t1 * t3 * t6
t8 = 2 ** (0.1e1 / 0.3e1)
t9 = t8 ** 2
t11 = r0 + r1
t13 = (r0 - r1) / t11
t14 = 0.1e1 + t13
t15 = t14 <= p_a_zeta_threshold
t16 = p_a_zeta_threshold ** (0.1e1 / 0.3e1)
t17 = t16 * p_a_zeta_threshold
t18 = t14 ** (0.1e1 / 0.3e1)
t20 = lax_cond(t15, t17, t18 * t14)
t22 = t11 ** (0.1e1 / 0.3e1)
t23 = 9 ** (0.1e1 / 0.3e1)
t24 = t23 ** 2
t25 = t3 ** 2
t27 = t24 * t25 * p_a_cam_omega
t29 = t1 / t22
t30 = lax_cond(t15, t16, t18)
t34 = t27 * t29 / t30 / 0.18e2
t36 = 0.135e1 < t34
t37 = lax_cond(t36, t34, 0.135e1)
t38 = t37 ** 2
t41 = t38 ** 2
t44 = t41 * t38
t47 = t41 ** 2
t59 = t47 ** 2
t63 = lax_cond(t36, 0.135e1, t34)
t64 = math.sqrt(math.pi)
t67 = math.erf(0.1e1 / t63 / 0.2e1)
t69 = t63 ** 2
t72 = math.exp(-0.1e1 / t69 / 0.4e1)
t83 = lax_cond(0.135e1 <= t34, 0.1e1 / t38 / 0.36e2 - 0.1e1 / t41 / 0.960e3 + 0.1e1 / t44 / 0.26880e5 - 0.1e1 / t47 / 0.829440e6 + 0.1e1 / t47 / t38 / 0.28385280e8 - 0.1e1 / t47 / t41 / 0.1073479680e10 + 0.1e1 / t47 / t44 / 0.44590694400e11 - 0.1e1 / t59 / 0.2021444812800e13, 0.1e1 - 0.8e1 / 0.3e1 * t63 * (t64 * t67 + 0.2e1 * t63 * (t72 - 0.3e1 / 0.2e1 - 0.2e1 * t69 * (t72 - 0.1e1))))
t87 = 0.1e1 - t13
t88 = t87 <= p_a_zeta_threshold
t89 = t87 ** (0.1e1 / 0.3e1)
t91 = lax_cond(t88, t17, t89 * t87)
t93 = lax_cond(t88, t16, t89)
t97 = t27 * t29 / t93 / 0.18e2
t99 = 0.135e1 < t97
t100 = lax_cond(t99, t97, 0.135e1)
t101 = t100 ** 2
t104 = t101 ** 2
t107 = t104 * t101
t110 = t104 ** 2
t122 = t110 ** 2
t126 = lax_cond(t99, 0.135e1, t97)
t129 = math.erf(0.1e1 / t126 / 0.2e1)
t131 = t126 ** 2
t134 = math.exp(-0.1e1 / t131 / 0.4e1)
t145 = lax_cond(0.135e1 <= t97, 0.1e1 / t101 / 0.36e2 - 0.1e1 / t104 / 0.960e3 + 0.1e1 / t107 / 0.26880e5 - 0.1e1 / t110 / 0.829440e6 + 0.1e1 / t110 / t101 / 0.28385280e8 - 0.1e1 / t110 / t104 / 0.1073479680e10 + 0.1e1 / t110 / t107 / 0.44590694400e11 - 0.1e1 / t122 / 0.2021444812800e13, 0.1e1 - 0.8e1 / 0.3e1 * t126 * (t64 * t129 + 0.2e1 * t126 * (t134 - 0.3e1 / 0.2e1 - 0.2e1 * t131 * (t134 - 0.1e1))))
res = -0.3e1 / 0.32e2 * t7 * t9 * t91 * t22 * t145 - 0.3e1 / 0.32e2 * t7 * t9 * t20 * t22 * t83
" unpol "t1 = 3 ** (0.1e1 / 0.3e1)
t3 = (0.1e1 / math.pi) ** (0.1e1 / 0.3e1)
t5 = 4 ** (0.1e1 / 0.3e1)
t6 = t5 ** 2
t8 = 2 ** (0.1e1 / 0.3e1)
t9 = t8 ** 2
t10 = 0.1e1 <= p_a_zeta_threshold
t11 = p_a_zeta_threshold ** (0.1e1 / 0.3e1)
t13 = lax_cond(t10, t11 * p_a_zeta_threshold, 1)
t15 = r0 ** (0.1e1 / 0.3e1)
t16 = 9 ** (0.1e1 / 0.3e1)
t17 = t16 ** 2
t18 = t3 ** 2
t23 = lax_cond(t10, t11, 1)
t27 = t17 * t18 * p_a_cam_omega * t1 / t15 / t23 / 0.18e2
t29 = 0.135e1 < t27
t30 = lax_cond(t29, t27, 0.135e1)
t31 = t30 ** 2
t34 = t31 ** 2
t37 = t34 * t31
t40 = t34 ** 2
t52 = t40 ** 2
t56 = lax_cond(t29, 0.135e1, t27)
t57 = math.sqrt(math.pi)
t60 = math.erf(0.1e1 / t56 / 0.2e1)
t62 = t56 ** 2
t65 = math.exp(-0.1e1 / t62 / 0.4e1)
t76 = lax_cond(0.135e1 <= t27, 0.1e1 / t31 / 0.36e2 - 0.1e1 / t34 / 0.960e3 + 0.1e1 / t37 / 0.26880e5 - 0.1e1 / t40 / 0.829440e6 + 0.1e1 / t40 / t31 / 0.28385280e8 - 0.1e1 / t40 / t34 / 0.1073479680e10 + 0.1e1 / t40 / t37 / 0.44590694400e11 - 0.1e1 / t52 / 0.2021444812800e13, 0.1e1 - 0.8e1 / 0.3e1 * t56 * (t57 * t60 + 0.2e1 * t56 * (t65 - 0.3e1 / 0.2e1 - 0.2e1 * t62 * (t65 - 0.1e1))))
res = -0.3e1 / 0.16e2 * t1 * t3 * t6 * t9 * t13 * t15 * t76
"

/- gen_repo/impl/prebuilt/pol/lda_x_rel.py and gen_repo/impl/prebuilt/unpol/lda_x_rel.py -/
formula lda_x_rel pol "t2 = 3 ** (0.1e1 / 0.3e1)
t3 = math.pi ** (0.1e1 / 0.3e1)
t4 = 0.1e1 / t3
t5 = t2 * t4
t6 = r0 + r1
t7 = 0.1e1 / t6
t8 = r0 * t7
t11 = p_a_zeta_threshold ** (0.1e1 / 0.3e1)
t12 = t11 * p_a_zeta_threshold
t13 = 2 ** (0.1e1 / 0.3e1)
t15 = t8 ** (0.1e1 / 0.3e1)
t19 = lax_cond(0.2e1 * t8 <= p_a_zeta_threshold, t12, 0.2e1 * t13 * r0 * t7 * t15)
t20 = t6 ** (0.1e1 / 0.3e1)
t24 = lax_cond(r0 <= p_a_dens_threshold, 0, -0.3e1 / 0.8e1 * t5 * t19 * t20)
t26 = r1 * t7
t30 = t26 ** (0.1e1 / 0.3e1)
t34 = lax_cond(0.2e1 * t26 <= p_a_zeta_threshold, t12, 0.2e1 * t13 * r1 * t7 * t30)
t38 = lax_cond(r1 <= p_a_dens_threshold, 0, -0.3e1 / 0.8e1 * t5 * t34 * t20)
t40 = 9 ** (0.1e1 / 0.3e1)
t41 = t40 ** 2
t42 = t3 ** 2
t45 = (0.1e1 / math.pi) ** (0.1e1 / 0.3e1)
t46 = t45 ** 2
t49 = t20 ** 2
t54 = math.sqrt(0.1e1 + 0.17750451365686221606e-4 * t41 * t42 * t2 / t46 * t49)
t63 = t2 ** 2
t69 = math.asinh(0.24324508467583486202e-2 * t40 * t3 * t63 / t45 * t20)
t79 = (0.15226222180972388889e2 * t54 * t41 * t4 * t2 * t45 / t20 - 0.20865405771390201384e4 * t69 * t40 / t42 * t63 * t46 / t49) ** 2
res = (t24 + t38) * (0.1e1 - 0.15e1 * t79)
" unpol "t3 = 3 ** (0.1e1 / 0.3e1)
t4 = math.pi ** (0.1e1 / 0.3e1)
t5 = 0.1e1 / t4
t8 = p_a_zeta_threshold ** (0.1e1 / 0.3e1)
t10 = lax_cond(0.1e1 <= p_a_zeta_threshold, t8 * p_a_zeta_threshold, 1)
t11 = r0 ** (0.1e1 / 0.3e1)
t15 = lax_cond(r0 / 0.2e1 <= p_a_dens_threshold, 0, -0.3e1 / 0.8e1 * t3 * t5 * t10 * t11)
t16 = 9 ** (0.1e1 / 0.3e1)
t17 = t16 ** 2
t18 = t4 ** 2
t21 = (0.1e1 / math.pi) ** (0.1e1 / 0.3e1)
t22 = t21 ** 2
t25 = t11 ** 2
t30 = math.sqrt(0.1e1 + 0.17750451365686221606e-4 * t17 * t18 * t3 / t22 * t25)
t39 = t3 ** 2
t45 = math.asinh(0.24324508467583486202e-2 * t16 * t4 * t39 / t21 * t11)
t55 = (0.15226222180972388889e2 * t30 * t17 * t5 * t3 * t21 / t11 - 0.20865405771390201384e4 * t45 * t16 / t18 * t39 * t22 / t25) ** 2
res = 0.2e1 * t15 * (0.1e1 - 0.15e1 * t55)
"

/- gen_repo/impl/prebuilt/pol/lda_x_sloc.py and gen_repo/impl/prebuilt/unpol/lda_x_sloc.py -/
formula lda_x_sloc pol "t1 = params_a_b + 0.1e1
t5 = r0 + r1
t6 = t5 ** params_a_b
t9 = (r0 - r1) / t5
t10 = 0.1e1 + t9
t12 = p_a_zeta_threshold ** t1
t13 = t10 ** t1
t14 = lax_cond(t10 <= p_a_zeta_threshold, t12, t13)
t15 = 0.1e1 - t9
t17 = t15 ** t1
t18 = lax_cond(t15 <= p_a_zeta_threshold, t12, t17)
res = -params_a_a / t1 * t6 * (t14 + t18) / 0.2e1
" unpol "t1 = params_a_b + 0.1e1
t5 = r0 ** params_a_b
t7 = p_a_zeta_threshold ** t1
t8 = lax_cond(0.1e1 <= p_a_zeta_threshold, t7, 1)
res = -params_a_a / t1 * t5 * t8
"

/- gen_repo/impl/prebuilt/pol/lda_x_yukawa.py and gen_repo/impl/prebuilt/unpol/lda_x_yukawa.py -/
formula lda_x_yukawa pol "t1 = 3 ** (0.1e1 / 0.3e1)
t3 = (0.1e1 / math.pi) ** (0.1e1 / 0.3e1)
t5 = 4 ** (0.1e1 / 0.3e1)
t6 = t5 ** 2
t7 = t1 * t3 * t6
t8 = 2 ** (0.1e1 / 0.3e1)
t9 = t8 ** 2
t11 = r0 + r1
t13 = (r0 - r1) / t11
t14 = 0.1e1 + t13
t15 = t14 <= p_a_zeta_threshold
t16 = p_a_zeta_threshold ** (0.1e1 / 0.3e1)
t17 = t16 * p_a_zeta_threshold
t18 = t14 ** (0.1e1 / 0.3e1)
t20 = lax_cond(t15, t17, t18 * t14)
t22 = t11 ** (0.1e1 / 0.3e1)
t23 = 9 ** (0.1e1 / 0.3e1)
t24 = t23 ** 2
t25 = t3 ** 2
t27 = t24 * t25 * p_a_cam_omega
t29 = t1 / t22
t30 = lax_cond(t15, t16, t18)
t34 = t27 * t29 / t30 / 0.18e2
t36 = 0.192e1 < t34
t37 = lax_cond(t36, t34, 0.192e1)
t38 = t37 ** 2
t41 = t38 ** 2
t44 = t41 * t38
t47 = t41 ** 2
t50 = t47 * t38
t53 = t47 * t41
t56 = t47 * t44
t59 = t47 ** 2
t83 = t59 ** 2
t92 = 0.1e1 / t38 / 0.9e1 - 0.1e1 / t41 / 0.30e2 + 0.1e1 / t44 / 0.70e2 - 0.1e1 / t47 / 0.135e3 + 0.1e1 / t50 / 0.231e3 - 0.1e1 / t53 / 0.364e3 + 0.1e1 / t56 / 0.540e3 - 0.1e1 / t59 / 0.765e3 + 0.1e1 / t59 / t38 / 0.1045e4 - 0.1e1 / t59 / t41 / 0.1386e4 + 0.1e1 / t59 / t44 / 0.1794e4 - 0.1e1 / t59 / t47 / 0.2275e4 + 0.1e1 / t59 / t50 / 0.2835e4 - 0.1e1 / t59 / t53 / 0.3480e4 + 0.1e1 / t59 / t56 / 0.4216e4 - 0.1e1 / t83 / 0.5049e4 + 0.1e1 / t83 / t38 / 0.5985e4 - 0.1e1 / t83 / t41 / 0.7030e4
t93 = lax_cond(t36, 0.192e1, t34)
t94 = math.atan2(0.1e1, t93)
t95 = t93 ** 2
t99 = math.log(0.1e1 + 0.1e1 / t95)
t108 = lax_cond(0.192e1 <= t34, t92, 0.1e1 - 0.8e1 / 0.3e1 * t93 * (t94 + t93 * (0.1e1 - (t95 + 0.3e1) * t99) / 0.4e1))
t112 = 0.1e1 - t13
t113 = t112 <= p_a_zeta_threshold
t114 = t112 ** (0.1e1 / 0.3e1)
t116 = lax_cond(t113, t17, t114 * t112)
t118 = lax_cond(t113, t16, t114)
t122 = t27 * t29 / t118 / 0.18e2
t124 = 0.192e1 < t122
t125 = lax_cond(t124, t122, 0.192e1)
t126 = t125 ** 2
t129 = t126 ** 2
t132 = t129 * t126
t135 = t129 ** 2
t138 = t135 * t126
t141 = t135 * t129
t144 = t135 * t132
t147 = t135 ** 2
t171 = t147 ** 2
t180 = 0.1e1 / t126 / 0.9e1 - 0.1e1 / t129 / 0.30e2 + 0.1e1 / t132 / 0.70e2 - 0.1e1 / t135 / 0.135e3 + 0.1e1 / t138 / 0.231e3 - 0.1e1 / t141 / 0.364e3 + 0.1e1 / t144 / 0.540e3 - 0.1e1 / t147 / 0.765e3 + 0.1e1 / t147 / t126 / 0.1045e4 - 0.1e1 / t147 / t129 / 0.1386e4 + 0.1e1 / t147 / t132 / 0.1794e4 - 0.1e1 / t147 / t135 / 0.2275e4 + 0.1e1 / t147 / t138 / 0.2835e4 - 0.1e1 / t147 / t141 / 0.3480e4 + 0.1e1 / t147 / t144 / 0.4216e4 - 0.1e1 / t171 / 0.5049e4 + 0.1e1 / t171 / t126 / 0.5985e4 - 0.1e1 / t171 / t129 / 0.7030e4
t181 = lax_cond(t124, 0.192e1, t122)
t182 = math.atan2(0.1e1, t181)
t183 = t181 ** 2
t187 = math.log(0.1e1 + 0.1e1 / t183)
t196 = lax_cond(0.192e1 <= t122, t180, 0.1e1 - 0.8e1 / 0.3e1 * t181 * (t182 + t181 * (0.1e1 - (t183 + 0.3e1) * t187) / 0.4e1))
res = -0.3e1 / 0.32e2 * t7 * t9 * t20 * t22 * t108 - 0.3e1 / 0.32e2 * t7 * t9 * t116 * t22 * t196
" unpol "t1 = 3 ** (0.1e1 / 0.3e1)
t3 = (0.1e1 / math.pi) ** (0.1e1 / 0.3e1)
t5 = 4 ** (0.1e1 / 0.3e1)
t6 = t5 ** 2
t8 = 2 ** (0.1e1 / 0.3e1)
t9 = t8 ** 2
t10 = 0.1e1 <= p_a_zeta_threshold
t11 = p_a_zeta_threshold ** (0.1e1 / 0.3e1)
t13 = lax_cond(t10, t11 * p_a_zeta_threshold, 1)
t15 = r0 ** (0.1e1 / 0.3e1)
t16 = 9 ** (0.1e1 / 0.3e1)
t17 = t16 ** 2
t18 = t3 ** 2
t23 = lax_cond(t10, t11, 1)
t27 = t17 * t18 * p_a_cam_omega * t1 / t15 / t23 / 0.18e2
t29 = 0.192e1 < t27
t30 = lax_cond(t29, t27, 0.192e1)
t31 = t30 ** 2
t34 = t31 ** 2
t37 = t34 * t31
t40 = t34 ** 2
t43 = t40 * t31
t46 = t40 * t34
t49 = t40 * t37
t52 = t40 ** 2
t76 = t52 ** 2
t85 = 0.1e1 / t31 / 0.9e1 - 0.1e1 / t34 / 0.30e2 + 0.1e1 / t37 / 0.70e2 - 0.1e1 / t40 / 0.135e3 + 0.1e1 / t43 / 0.231e3 - 0.1e1 / t46 / 0.364e3 + 0.1e1 / t49 / 0.540e3 - 0.1e1 / t52 / 0.765e3 + 0.1e1 / t52 / t31 / 0.1045e4 - 0.1e1 / t52 / t34 / 0.1386e4 + 0.1e1 / t52 / t37 / 0.1794e4 - 0.1e1 / t52 / t40 / 0.2275e4 + 0.1e1 / t52 / t43 / 0.2835e4 - 0.1e1 / t52 / t46 / 0.3480e4 + 0.1e1 / t52 / t49 / 0.4216e4 - 0.1e1 / t76 / 0.5049e4 + 0.1e1 / t76 / t31 / 0.5985e4 - 0.1e1 / t76 / t34 / 0.7030e4
t86 = lax_cond(t29, 0.192e1, t27)
t87 = math.atan2(0.1e1, t86)
t88 = t86 ** 2
t92 = math.log(0.1e1 + 0.1e1 / t88)
t101 = lax_cond(0.192e1 <= t27, t85, 0.1e1 - 0.8e1 / 0.3e1 * t86 * (t87 + t86 * (0.1e1 - (t88 + 0.3e1) * t92) / 0.4e1))
res = -0.3e1 / 0.16e2 * t1 * t3 * t6 * t9 * t13 * t15 * t101
"

/- gen_repo/impl/prebuilt/pol/lda_xc_1d_ehwlrg.py and gen_repo/impl/prebuilt/unpol/lda_xc_1d_ehwlrg.py -/
formula lda_xc_1d_ehwlrg pol "t1 = r0 + r1
t3 = t1 ** 2
t6 = t1 ** params_a_alpha
res = (params_a_a2 * t1 + params_a_a3 * t3 + params_a_a1) * t6
" unpol "t1 = r0 ** 2
t5 = r0 ** params_a_alpha
res = (params_a_a2 * r0 + params_a_a3 * t1 + params_a_a1) * t5
"

/- gen_repo/impl/prebuilt/pol/lda_xc_ksdt.py and gen_repo/impl/prebuilt/unpol/lda_xc_ksdt.py -/
formula lda_xc_ksdt pol "t1 = 0.1e1 / math.pi
t2 = 4 ** (0.1e1 / 0.3e1)
t3 = t2 ** 2
t5 = 9 ** (0.1e1 / 0.3e1)
t7 = t1 ** (0.1e1 / 0.3e1)
t8 = 0.1e1 / t7
t9 = t5 ** 2
t10 = t7 * t1
t11 = 0.1e1 / t10
t13 = 0.1e1 / params_a_T
t14 = t9 * t11 * t13
t15 = 3 ** (0.1e1 / 0.3e1)
t16 = r0 + r1
t17 = t16 ** (0.1e1 / 0.3e1)
t18 = t17 ** 2
t19 = t15 * t18
t20 = r0 - r1
t22 = 0.1e1 / t16
t24 = params_a_thetaParam * t20 * t22 + 0.1e1
t25 = t24 ** (0.1e1 / 0.3e1)
t26 = t25 ** 2
t27 = 0.1e1 / t26
t31 = math.tanh(t14 * t19 * t27 / 0.6e1)
t33 = math.pi ** 2
t35 = t7 ** 2
t36 = t35 / t33
t38 = params_a_T ** 2
t39 = t9 * t36 * t38
t41 = 0.1e1 / t17 / t16
t42 = t15 * t41
t43 = t25 * t24
t45 = t39 * t42 * t43
t47 = t33 ** 2
t51 = t16 ** 2
t53 = t24 ** 2
t55 = 0.1e1 / t47 * t38 * params_a_T / t51 * t53
t59 = t7 / t47 / math.pi
t61 = t38 ** 2
t62 = t5 * t59 * t61
t63 = t15 ** 2
t65 = 0.1e1 / t18 / t51
t66 = t63 * t65
t67 = t26 * t53
t69 = t62 * t66 * t67
t80 = math.sqrt(0.2e1)
t82 = t5 * t10 * params_a_T
t84 = t63 / t18
t87 = math.sqrt(t82 * t84 * t26)
t91 = math.tanh(0.3e1 / 0.2e1 * t80 / t87)
t98 = t38 * t15 * t41 * t43
t106 = t61 * t63 * t65 * t67
t126 = t15 * t7 * t3 / t17
t127 = math.sqrt(t126)
t141 = math.exp(-params_a_c_0_[2] * t9 * t11 * t13 * t15 * t18 * t27 / 0.6e1)
t156 = params_a_e_0_[0] + 0.4e1 / 0.27e2 * params_a_e_0_[1] * t9 * t36 * t98 + 0.16e2 / 0.81e2 * params_a_e_0_[2] * t5 * t59 * t106
t168 = 0.1e1 / (0.1e1 + 0.4e1 / 0.27e2 * params_a_e_0_[3] * t9 * t36 * t98 + 0.16e2 / 0.81e2 * params_a_e_0_[4] * t5 * t59 * t106)
t211 = t20 * t22
t212 = 0.1e1 + t211
t229 = math.exp(-0.2e1 / 0.9e1 * t82 * t84 * t26 * (0.1064009e1 + 0.63618333333333333335e-1 * t82 * t84 * t26 * t127))
t231 = 0.2e1 - (0.2e1 / 0.3e1 - 0.34815250000000000000e-2 * t126) / (0.1e1 + 0.45802000000000000000e-1 * t126) * t229
t232 = p_a_zeta_threshold ** t231
t233 = t212 ** t231
t234 = lax_cond(t212 <= p_a_zeta_threshold, t232, t233)
t235 = 0.1e1 - t211
t237 = t235 ** t231
t238 = lax_cond(t235 <= p_a_zeta_threshold, t232, t237)
t240 = 2 ** t231
t243 = (t234 + t238 - 0.2e1) / (t240 - 0.2e1)
t248 = 2 ** (0.1e1 / 0.3e1)
t252 = t248 ** 2
t254 = t19 * t27 * t252
t257 = math.tanh(t14 * t254 / 0.6e1)
t260 = t42 * t43 * t252
t261 = t39 * t260
t265 = t66 * t67 * t248
t266 = t62 * t265
t280 = math.sqrt(t82 * t84 * t26 * t248)
t283 = math.tanh(0.3e1 / t280)
t287 = t36 * t38
t293 = t59 * t61
t322 = math.exp(-params_a_c_1_[2] * t9 * t11 * t13 * t254 / 0.6e1)
t337 = params_a_e_1_[0] + params_a_e_1_[1] * t9 * t287 * t260 / 0.27e2 + 0.2e1 / 0.81e2 * params_a_e_1_[2] * t5 * t293 * t265
t349 = 0.1e1 / (0.1e1 + params_a_e_1_[3] * t9 * t287 * t260 / 0.27e2 + 0.2e1 / 0.81e2 * params_a_e_1_[4] * t5 * t293 * t265)
res = -(t1 * t3 * t5 * t8 * t31 * (0.750e0 + 0.45090814814814814815e0 * t45 - 0.82017777777777777776e-1 * t55 + 0.33649382716049382717e0 * t69) / (0.1e1 + 0.12311866666666666667e1 * t45 + 0.10094814814814814815e1 * t69) / 0.4e1 + t91 * (params_a_b_0_[0] + 0.4e1 / 0.27e2 * params_a_b_0_[1] * t9 * t36 * t98 + 0.16e2 / 0.81e2 * params_a_b_0_[2] * t5 * t59 * t106) / (0.1e1 + 0.4e1 / 0.27e2 * params_a_b_0_[3] * t9 * t36 * t98 + 0.16e2 / 0.81e2 * params_a_b_0_[4] * t5 * t59 * t106) * t127 / 0.2e1 + (params_a_c_0_[1] * t141 + params_a_c_0_[0]) * t31 * t156 * t168 * t126 / 0.4e1) * t63 * t8 * t2 * t17 / (0.1e1 + t91 * (params_a_d_0_[0] + 0.4e1 / 0.27e2 * params_a_d_0_[1] * t9 * t36 * t98 + 0.16e2 / 0.81e2 * params_a_d_0_[2] * t5 * t59 * t106) / (0.1e1 + 0.4e1 / 0.27e2 * params_a_d_0_[3] * t9 * t36 * t98 + 0.16e2 / 0.81e2 * params_a_d_0_[4] * t5 * t59 * t106) * t127 / 0.2e1 + t31 * t156 * t168 * t126 / 0.4e1) * (0.1e1 - t243) / 0.3e1 - (t248 * t1 * t3 * t5 * t8 * t257 * (0.750e0 + 0.11272703703703703704e0 * t261 - 0.20504444444444444444e-1 * t55 + 0.42061728395061728396e-1 * t266) / (0.1e1 + 0.30779666666666666667e0 * t261 + 0.12618518518518518519e0 * t266) / 0.4e1 + t283 * (params_a_b_1_[0] + params_a_b_1_[1] * t9 * t287 * t260 / 0.27e2 + 0.2e1 / 0.81e2 * params_a_b_1_[2] * t5 * t293 * t265) / (0.1e1 + params_a_b_1_[3] * t9 * t287 * t260 / 0.27e2 + 0.2e1 / 0.81e2 * params_a_b_1_[4] * t5 * t293 * t265) * t127 / 0.2e1 + (params_a_c_1_[1] * t322 + params_a_c_1_[0]) * t257 * t337 * t349 * t126 / 0.4e1) * t63 * t8 * t2 * t17 / (0.1e1 + t283 * (params_a_d_1_[0] + params_a_d_1_[1] * t9 * t287 * t260 / 0.27e2 + 0.2e1 / 0.81e2 * params_a_d_1_[2] * t5 * t293 * t265) / (0.1e1 + params_a_d_1_[3] * t9 * t287 * t260 / 0.27e2 + 0.2e1 / 0.81e2 * params_a_d_1_[4] * t5 * t293 * t265) * t127 / 0.2e1 + t257 * t337 * t349 * t126 / 0.4e1) * t243 / 0.3e1
" unpol "t1 = 0.1e1 / math.pi
t2 = 4 ** (0.1e1 / 0.3e1)
t3 = t2 ** 2
t5 = 9 ** (0.1e1 / 0.3e1)
t7 = t1 ** (0.1e1 / 0.3e1)
t8 = 0.1e1 / t7
t9 = t5 ** 2
t10 = t7 * t1
t11 = 0.1e1 / t10
t12 = t9 * t11
t13 = 0.1e1 / params_a_T
t14 = 3 ** (0.1e1 / 0.3e1)
t15 = t13 * t14
t16 = r0 ** (0.1e1 / 0.3e1)
t17 = t16 ** 2
t18 = t15 * t17
t21 = math.tanh(t12 * t18 / 0.6e1)
t23 = math.pi ** 2
t25 = t7 ** 2
t26 = t25 / t23
t27 = t9 * t26
t28 = params_a_T ** 2
t29 = t28 * t14
t31 = 0.1e1 / t16 / r0
t32 = t29 * t31
t33 = t27 * t32
t35 = t23 ** 2
t39 = r0 ** 2
t41 = 0.1e1 / t35 * t28 * params_a_T / t39
t45 = t7 / t35 / math.pi
t46 = t5 * t45
t47 = t28 ** 2
t48 = t14 ** 2
t49 = t47 * t48
t51 = 0.1e1 / t17 / t39
t52 = t49 * t51
t53 = t46 * t52
t64 = math.sqrt(0.2e1)
t65 = t5 * t10
t67 = 0.1e1 / t17
t70 = math.sqrt(t65 * params_a_T * t48 * t67)
t74 = math.tanh(0.3e1 / 0.2e1 * t64 / t70)
t103 = t14 * t7 * t3 / t16
t104 = math.sqrt(t103)
t115 = math.exp(-params_a_c_0_[2] * t9 * t11 * t18 / 0.6e1)
t130 = params_a_e_0_[0] + 0.4e1 / 0.27e2 * params_a_e_0_[1] * t9 * t26 * t32 + 0.16e2 / 0.81e2 * params_a_e_0_[2] * t5 * t45 * t52
t142 = 0.1e1 / (0.1e1 + 0.4e1 / 0.27e2 * params_a_e_0_[3] * t9 * t26 * t32 + 0.16e2 / 0.81e2 * params_a_e_0_[4] * t5 * t45 * t52)
t192 = t65 * params_a_T
t193 = t48 * t67
t201 = math.exp(-0.2e1 / 0.9e1 * t192 * t193 * (0.1064009e1 + 0.63618333333333333335e-1 * t192 * t193 * t104))
t203 = 0.2e1 - (0.2e1 / 0.3e1 - 0.34815250000000000000e-2 * t103) / (0.1e1 + 0.45802000000000000000e-1 * t103) * t201
t204 = p_a_zeta_threshold ** t203
t205 = lax_cond(0.1e1 <= p_a_zeta_threshold, t204, 1)
t208 = 2 ** t203
t211 = (0.2e1 * t205 - 0.2e1) / (t208 - 0.2e1)
t216 = 2 ** (0.1e1 / 0.3e1)
t222 = t216 ** 2
t226 = math.tanh(t12 * t13 * t14 * t17 * t222 / 0.6e1)
t231 = t27 * t28 * t14 * t31 * t222
t237 = t46 * t47 * t48 * t51 * t216
t250 = math.sqrt(t192 * t193 * t216)
t253 = math.tanh(0.3e1 / t250)
t259 = t29 * t31 * t222
t266 = t49 * t51 * t216
t295 = math.exp(-params_a_c_1_[2] * t9 * t11 * t15 * t17 * t222 / 0.6e1)
t310 = params_a_e_1_[0] + params_a_e_1_[1] * t9 * t26 * t259 / 0.27e2 + 0.2e1 / 0.81e2 * params_a_e_1_[2] * t5 * t45 * t266
t322 = 0.1e1 / (0.1e1 + params_a_e_1_[3] * t9 * t26 * t259 / 0.27e2 + 0.2e1 / 0.81e2 * params_a_e_1_[4] * t5 * t45 * t266)
res = -(t1 * t3 * t5 * t8 * t21 * (0.750e0 + 0.45090814814814814815e0 * t33 - 0.82017777777777777776e-1 * t41 + 0.33649382716049382717e0 * t53) / (0.1e1 + 0.12311866666666666667e1 * t33 + 0.10094814814814814815e1 * t53) / 0.4e1 + t74 * (params_a_b_0_[0] + 0.4e1 / 0.27e2 * params_a_b_0_[1] * t9 * t26 * t32 + 0.16e2 / 0.81e2 * params_a_b_0_[2] * t5 * t45 * t52) / (0.1e1 + 0.4e1 / 0.27e2 * params_a_b_0_[3] * t9 * t26 * t32 + 0.16e2 / 0.81e2 * params_a_b_0_[4] * t5 * t45 * t52) * t104 / 0.2e1 + (params_a_c_0_[1] * t115 + params_a_c_0_[0]) * t21 * t130 * t142 * t103 / 0.4e1) * t48 * t8 * t2 * t16 / (0.1e1 + t74 * (params_a_d_0_[0] + 0.4e1 / 0.27e2 * params_a_d_0_[1] * t9 * t26 * t32 + 0.16e2 / 0.81e2 * params_a_d_0_[2] * t5 * t45 * t52) / (0.1e1 + 0.4e1 / 0.27e2 * params_a_d_0_[3] * t9 * t26 * t32 + 0.16e2 / 0.81e2 * params_a_d_0_[4] * t5 * t45 * t52) * t104 / 0.2e1 + t21 * t130 * t142 * t103 / 0.4e1) * (0.1e1 - t211) / 0.3e1 - (t216 * t1 * t3 * t5 * t8 * t226 * (0.750e0 + 0.11272703703703703704e0 * t231 - 0.20504444444444444444e-1 * t41 + 0.42061728395061728396e-1 * t237) / (0.1e1 + 0.30779666666666666667e0 * t231 + 0.12618518518518518519e0 * t237) / 0.4e1 + t253 * (params_a_b_1_[0] + params_a_b_1_[1] * t9 * t26 * t259 / 0.27e2 + 0.2e1 / 0.81e2 * params_a_b_1_[2] * t5 * t45 * t266) / (0.1e1 + params_a_b_1_[3] * t9 * t26 * t259 / 0.27e2 + 0.2e1 / 0.81e2 * params_a_b_1_[4] * t5 * t45 * t266) * t104 / 0.2e1 + (params_a_c_1_[1] * t295 + params_a_c_1_[0]) * t226 * t310 * t322 * t103 / 0.4e1) * t48 * t8 * t2 * t16 / (0.1e1 + t253 * (params_a_d_1_[0] + params_a_d_1_[1] * t9 * t26 * t259 / 0.27e2 + 0.2e1 / 0.81e2 * params_a_d_1_[2] * t5 * t45 * t266) / (0.1e1 + params_a_d_1_[3] * t9 * t26 * t259 / 0.27e2 + 0.2e1 / 0.81e2 * params_a_d_1_[4] * t5 * t45 * t266) * t104 / 0.2e1 + t226 * t310 * t322 * t103 / 0.4e1) * t211 / 0.3e1
"

/- gen_repo/impl/prebuilt/pol/lda_xc_teter93.py and gen_repo/impl/prebuilt/unpol/lda_xc_teter93.py -/
formula lda_xc_teter93 pol "t2 = r0 + r1
t3 = 0.1e1 / t2
t4 = (r0 - r1) * t3
t5 = 0.1e1 + t4
t7 = p_a_zeta_threshold ** (0.1e1 / 0.3e1)
t8 = t7 * p_a_zeta_threshold
t9 = t5 ** (0.1e1 / 0.3e1)
t11 = lax_cond(t5 <= p_a_zeta_threshold, t8, t9 * t5)
t12 = 0.1e1 - t4
t14 = t12 ** (0.1e1 / 0.3e1)
t16 = lax_cond(t12 <= p_a_zeta_threshold, t8, t14 * t12)
t18 = 2 ** (0.1e1 / 0.3e1)
t22 = (t11 + t16 - 0.2e1) / (0.2e1 * t18 - 0.2e1)
t26 = 3 ** (0.1e1 / 0.3e1)
t28 = 0.1e1 / math.pi
t29 = t28 ** (0.1e1 / 0.3e1)
t30 = 4 ** (0.1e1 / 0.3e1)
t31 = t30 ** 2
t33 = t2 ** (0.1e1 / 0.3e1)
t34 = 0.1e1 / t33
t40 = t26 ** 2
t42 = t29 ** 2
t44 = t33 ** 2
t46 = t42 * t30 / t44
res = -(0.4581652932831429e0 + 0.119086804055547e0 * t22 + (0.2217058676663745e1 + 0.6157402568883345e0 * t22) * t26 * t29 * t31 * t34 / 0.4e1 + (0.7405551735357053e0 + 0.1574201515892867e0 * t22) * t40 * t46 / 0.4e1 + 0.3e1 / 0.4e1 * (0.1968227878617998e-1 + 0.3532336663397157e-2 * t22) * t28 * t3) / (0.25000000000000000000e0 * t26 * t29 * t31 * t34 + (0.4504130959426697e1 + 0.2673612973836267e0 * t22) * t40 * t46 / 0.4e1 + 0.3e1 / 0.4e1 * (0.1110667363742916e1 + 0.2052004607777787e0 * t22) * t28 * t3 + 0.3e1 / 0.16e2 * (0.2359291751427506e-1 + 0.4200005045691381e-2 * t22) * t26 * t29 * t28 * t31 / t33 / t2)
" unpol "t2 = p_a_zeta_threshold ** (0.1e1 / 0.3e1)
t4 = lax_cond(0.1e1 <= p_a_zeta_threshold, t2 * p_a_zeta_threshold, 1)
t7 = 2 ** (0.1e1 / 0.3e1)
t11 = (0.2e1 * t4 - 0.2e1) / (0.2e1 * t7 - 0.2e1)
t15 = 3 ** (0.1e1 / 0.3e1)
t17 = 0.1e1 / math.pi
t18 = t17 ** (0.1e1 / 0.3e1)
t19 = 4 ** (0.1e1 / 0.3e1)
t20 = t19 ** 2
t22 = r0 ** (0.1e1 / 0.3e1)
t23 = 0.1e1 / t22
t29 = t15 ** 2
t31 = t18 ** 2
t33 = t22 ** 2
t35 = t31 * t19 / t33
t41 = 0.1e1 / r0
res = -(0.4581652932831429e0 + 0.119086804055547e0 * t11 + (0.2217058676663745e1 + 0.6157402568883345e0 * t11) * t15 * t18 * t20 * t23 / 0.4e1 + (0.7405551735357053e0 + 0.1574201515892867e0 * t11) * t29 * t35 / 0.4e1 + 0.3e1 / 0.4e1 * (0.1968227878617998e-1 + 0.3532336663397157e-2 * t11) * t17 * t41) / (0.25000000000000000000e0 * t15 * t18 * t20 * t23 + (0.4504130959426697e1 + 0.2673612973836267e0 * t11) * t29 * t35 / 0.4e1 + 0.3e1 / 0.4e1 * (0.1110667363742916e1 + 0.2052004607777787e0 * t11) * t17 * t41 + 0.3e1 / 0.16e2 * (0.2359291751427506e-1 + 0.4200005045691381e-2 * t11) * t15 * t18 * t17 * t20 / t22 / r0)
"

/- gen_repo/impl/prebuilt/pol/lda_xc_tih.py and gen_repo/impl/prebuilt/unpol/lda_xc_tih.py -/
formula lda_xc_tih pol "t4 = math.tanh(0.10953e1 + 0.334789e-1 * r0 + 0.334789e-1 * r1)
t9 = math.tanh(-0.414661e0 + 0.152399e0 * r0 + 0.152399e0 * r1)
t14 = math.tanh(-0.354691e0 + 0.390837e-1 * r0 + 0.390837e-1 * r1)
t19 = math.tanh(0.748531e-1 + 0.136598e0 * r0 + 0.136598e0 * r1)
t24 = math.tanh(-0.141063e1 + 0.496577e-2 * r0 + 0.496577e-2 * r1)
t29 = math.tanh(0.48315e0 + 0.402905e1 * r0 + 0.402905e1 * r1)
t34 = math.tanh(-0.420166e0 + 0.104352e-1 * r0 + 0.104352e-1 * r1)
t39 = math.tanh(0.147409e1 + 0.442455e0 * r0 + 0.442455e0 * r1)
res = 0.625039e0 - 0.130351e1 * t4 - 0.137026e1 * t9 - 0.129598e1 * t14 + 0.104305e1 * t19 - 0.909651e0 * t24 - 0.991782e0 * t29 - 0.915745e0 * t34 - 0.195026e1 * t39
" unpol "t3 = math.tanh(0.10953e1 + 0.334789e-1 * r0)
t7 = math.tanh(-0.414661e0 + 0.152399e0 * r0)
t11 = math.tanh(-0.354691e0 + 0.390837e-1 * r0)
t15 = math.tanh(0.748531e-1 + 0.136598e0 * r0)
t19 = math.tanh(-0.141063e1 + 0.496577e-2 * r0)
t23 = math.tanh(0.48315e0 + 0.402905e1 * r0)
t27 = math.tanh(-0.420166e0 + 0.104352e-1 * r0)
t31 = math.tanh(0.147409e1 + 0.442455e0 * r0)
res = 0.625039e0 - 0.130351e1 * t3 - 0.137026e1 * t7 - 0.129598e1 * t11 + 0.104305e1 * t15 - 0.909651e0 * t19 - 0.991782e0 * t23 - 0.915745e0 * t27 - 0.195026e1 * t31
"

/- gen_repo/impl/prebuilt/pol/lda_xc_zlp.py and gen_repo/impl/prebuilt/unpol/lda_xc_zlp.py -/
formula lda_xc_zlp pol "t2 = (r0 + r1) ** (0.1e1 / 0.3e1)
t6 = math.log(0.1e1 + 0.10555627099250339363e3 / t2)
res = -0.93222000000000000000e0 * (0.1e1 - 0.94736200000000000000e-2 * t6 * t2) * t2
" unpol "t1 = r0 ** (0.1e1 / 0.3e1)
t5 = math.log(0.1e1 + 0.10555627099250339363e3 / t1)
res = -0.93222000000000000000e0 * (0.1e1 - 0.94736200000000000000e-2 * t5 * t1) * t1
"

/- gen_repo/impl/prebuilt/pol/mgga_c_b88.py and gen_repo/impl/prebuilt/unpol/mgga_c_b88.py -/
formula mgga_c_b88 pol "t1 = r0 - r1
t2 = t1 ** 2
t3 = r0 + r1
t4 = t3 ** 2
t9 = r0 <= p_a_dens_threshold
t10 = 3 ** (0.1e1 / 0.3e1)
t11 = t10 ** 2
t12 = 0.1e1 / math.pi
t13 = t12 ** (0.1e1 / 0.3e1)
t16 = 4 ** (0.1e1 / 0.3e1)
t17 = t11 / t13 * t16
t18 = 2 ** (0.1e1 / 0.3e1)
t19 = 0.1e1 / t3
t22 = 0.2e1 * r0 * t19 <= p_a_zeta_threshold
t23 = p_a_zeta_threshold - 0.1e1
t26 = 0.2e1 * r1 * t19 <= p_a_zeta_threshold
t27 = -t23
t28 = t1 * t19
t29 = lax_cond(t26, t27, t28)
t30 = lax_cond(t22, t23, t29)
t32 = (0.1e1 + t30) * t3
t33 = t32 ** (0.1e1 / 0.3e1)
t36 = r0 ** 2
t37 = r0 ** (0.1e1 / 0.3e1)
t38 = t37 ** 2
t41 = s0 / t38 / t36
t44 = (0.1e1 + 0.7e-2 * t41) ** (0.1e1 / 0.5e1)
t45 = t44 ** 2
t46 = t45 ** 2
t51 = 0.1e1 + 0.83333333333333333333e-3 * t17 * t41 / t46
t54 = t17 * t18 / t33 / t51
t56 = lax_cond(t9, 0, t54 / 0.9e1)
t57 = 0.63e0 * t56
t58 = r1 <= p_a_dens_threshold
t59 = lax_cond(t22, t27, -t28)
t60 = lax_cond(t26, t23, t59)
t62 = (0.1e1 + t60) * t3
t63 = t62 ** (0.1e1 / 0.3e1)
t66 = r1 ** 2
t67 = r1 ** (0.1e1 / 0.3e1)
t68 = t67 ** 2
t71 = s2 / t68 / t66
t74 = (0.1e1 + 0.7e-2 * t71) ** (0.1e1 / 0.5e1)
t75 = t74 ** 2
t76 = t75 ** 2
t81 = 0.1e1 + 0.83333333333333333333e-3 * t17 * t71 / t76
t84 = t17 * t18 / t63 / t81
t86 = lax_cond(t58, 0, t84 / 0.9e1)
t87 = 0.63e0 * t86
t90 = math.log(0.1e1 + t57 + t87)
t96 = 0.1e1 + t28 <= p_a_zeta_threshold
t98 = 0.1e1 - t28 <= p_a_zeta_threshold
t99 = lax_cond(t98, t27, t28)
t100 = lax_cond(t96, t23, t99)
t101 = 0.1e1 + t100
t102 = t101 ** 2
t103 = t101 ** (0.1e1 / 0.3e1)
t104 = t103 ** 2
t106 = t18 ** 2
t108 = t3 ** (0.1e1 / 0.3e1)
t109 = t108 ** 2
t110 = t109 * t3
t122 = 0.1e1 / t13 / t12 * t16
t125 = t51 ** 2
t126 = t125 ** 2
t131 = math.log(0.1e1 + 0.10666666666666666667e0 * t54)
t134 = t16 ** 2
t135 = t134 * t106
t145 = lax_cond(t9, 0, -0.18641351111111111112e-3 * t104 * t102 * t106 * t110 * (0.2e1 * tau0 / t38 / r0 - t41 / 0.4e1) * t11 * t122 / t33 / t32 / t126 * (0.1e1 - 0.39062500000000000000e0 * t131 * t10 * t13 * t135 * t33 * t51))
t146 = lax_cond(t96, t27, -t28)
t147 = lax_cond(t98, t23, t146)
t148 = 0.1e1 + t147
t149 = t148 ** 2
t150 = t148 ** (0.1e1 / 0.3e1)
t151 = t150 ** 2
t165 = t81 ** 2
t166 = t165 ** 2
t171 = math.log(0.1e1 + 0.10666666666666666667e0 * t84)
t183 = lax_cond(t58, 0, -0.18641351111111111112e-3 * t151 * t149 * t106 * t110 * (0.2e1 * tau1 / t68 / r1 - t71 / 0.4e1) * t11 * t122 / t63 / t62 / t166 * (0.1e1 - 0.39062500000000000000e0 * t171 * t10 * t13 * t135 * t63 * t81))
res = -0.20000000000000000000e0 * (0.1e1 - t2 / t4) * t3 * (t57 + t87) * (t57 + t87 - t90) + t145 + t183
" unpol "t2 = r0 / 0.2e1 <= p_a_dens_threshold
t3 = 3 ** (0.1e1 / 0.3e1)
t4 = t3 ** 2
t5 = 0.1e1 / math.pi
t6 = t5 ** (0.1e1 / 0.3e1)
t9 = 4 ** (0.1e1 / 0.3e1)
t10 = t4 / t6 * t9
t11 = 2 ** (0.1e1 / 0.3e1)
t12 = 0.1e1 <= p_a_zeta_threshold
t13 = p_a_zeta_threshold - 0.1e1
t15 = lax_cond(t12, -t13, 0)
t16 = lax_cond(t12, t13, t15)
t17 = 0.1e1 + t16
t18 = t17 * r0
t19 = t18 ** (0.1e1 / 0.3e1)
t22 = t11 ** 2
t23 = s0 * t22
t24 = r0 ** 2
t25 = r0 ** (0.1e1 / 0.3e1)
t26 = t25 ** 2
t28 = 0.1e1 / t26 / t24
t29 = t23 * t28
t32 = (0.1e1 + 0.7e-2 * t29) ** (0.1e1 / 0.5e1)
t33 = t32 ** 2
t34 = t33 ** 2
t40 = 0.1e1 + 0.83333333333333333333e-3 * t10 * t23 * t28 / t34
t43 = t10 * t11 / t19 / t40
t45 = lax_cond(t2, 0, t43 / 0.9e1)
t47 = 0.126e1 * t45
t49 = math.log(0.1e1 + t47)
t53 = t17 ** 2
t54 = t17 ** (0.1e1 / 0.3e1)
t55 = t54 ** 2
t58 = t26 * r0
t73 = t40 ** 2
t74 = t73 ** 2
t79 = math.log(0.1e1 + 0.10666666666666666667e0 * t43)
t82 = t9 ** 2
t93 = lax_cond(t2, 0, -0.18641351111111111112e-3 * t55 * t53 * t22 * t58 * (0.2e1 * tau0 * t22 / t58 - t29 / 0.4e1) * t4 / t6 / t5 * t9 / t19 / t18 / t74 * (0.1e1 - 0.39062500000000000000e0 * t79 * t3 * t6 * t82 * t22 * t19 * t40))
res = -0.25200000000000000000e0 * r0 * t45 * (t47 - t49) + 0.2e1 * t93
"

/- gen_repo/impl/prebuilt/pol/mgga_c_b94.py and gen_repo/impl/prebuilt/unpol/mgga_c_b94.py -/
formula mgga_c_b94 pol "t1 = r0 - r1
t2 = t1 ** 2
t3 = r0 + r1
t4 = t3 ** 2
t9 = r0 <= p_a_dens_threshold
t10 = 2 ** (0.1e1 / 0.3e1)
t11 = 0.1e1 / t3
t14 = 0.2e1 * r0 * t11 <= p_a_zeta_threshold
t15 = p_a_zeta_threshold - 0.1e1
t18 = 0.2e1 * r1 * t11 <= p_a_zeta_threshold
t19 = -t15
t20 = t1 * t11
t21 = lax_cond(t18, t19, t20)
t22 = lax_cond(t14, t15, t21)
t24 = (0.1e1 + t22) * t3
t25 = t24 ** (0.1e1 / 0.3e1)
t26 = 0.1e1 / t25
t28 = math.pi ** (0.1e1 / 0.3e1)
t29 = 0.1e1 / t28
t31 = r0 ** (0.1e1 / 0.3e1)
t32 = t31 ** 2
t34 = 0.1e1 / t32 / r0
t41 = r0 ** 2
t43 = 0.1e1 / t32 / t41
t46 = l0 * t34 / 0.6e1 - 0.2e1 / 0.3e1 * params_a_gamma * tau0 * t34 + params_a_gamma * s0 * t43 / 0.12e2
t47 = abs(t46)
t50 = lax_cond(0.0e0 < t46, 0.50e-12, -0.50e-12)
t51 = lax_cond(t47 < 0.50e-12, t50, t46)
t52 = br89_x(t51)
t54 = math.exp(t52 / 0.3e1)
t55 = 0.1e1 / t54
t56 = math.exp(-t52)
t60 = 0.1e1 - t56 * (0.1e1 + t52 / 0.2e1)
t61 = 0.1e1 / t60
t66 = lax_cond(t9, 0, t10 * t26 * t29 * t55 * t61 * t52 / 0.2e1)
t67 = r1 <= p_a_dens_threshold
t68 = lax_cond(t14, t19, -t20)
t69 = lax_cond(t18, t15, t68)
t71 = (0.1e1 + t69) * t3
t72 = t71 ** (0.1e1 / 0.3e1)
t73 = 0.1e1 / t72
t76 = r1 ** (0.1e1 / 0.3e1)
t77 = t76 ** 2
t79 = 0.1e1 / t77 / r1
t86 = r1 ** 2
t88 = 0.1e1 / t77 / t86
t91 = l1 * t79 / 0.6e1 - 0.2e1 / 0.3e1 * params_a_gamma * tau1 * t79 + params_a_gamma * s2 * t88 / 0.12e2
t92 = abs(t91)
t95 = lax_cond(0.0e0 < t91, 0.50e-12, -0.50e-12)
t96 = lax_cond(t92 < 0.50e-12, t95, t91)
t97 = br89_x(t96)
t99 = math.exp(t97 / 0.3e1)
t100 = 0.1e1 / t99
t101 = math.exp(-t97)
t105 = 0.1e1 - t101 * (0.1e1 + t97 / 0.2e1)
t106 = 0.1e1 / t105
t111 = lax_cond(t67, 0, t10 * t73 * t29 * t100 * t106 * t97 / 0.2e1)
t113 = params_a_cab * (t66 + t111)
t115 = math.log(0.1e1 + t113)
t121 = 0.1e1 + t20 <= p_a_zeta_threshold
t123 = 0.1e1 - t20 <= p_a_zeta_threshold
t124 = lax_cond(t123, t19, t20)
t125 = lax_cond(t121, t15, t124)
t126 = 0.1e1 + t125
t127 = t126 ** 2
t128 = t126 ** (0.1e1 / 0.3e1)
t129 = t128 ** 2
t131 = t10 ** 2
t133 = t3 ** (0.1e1 / 0.3e1)
t134 = t133 ** 2
t135 = t134 * t3
t142 = params_a_css ** 2
t143 = t142 ** 2
t149 = 0.1e1 / t28 / math.pi
t151 = t54 ** 2
t152 = t151 ** 2
t155 = t60 ** 2
t156 = t155 ** 2
t158 = t52 ** 2
t159 = t158 ** 2
t161 = params_a_css * t10
t169 = math.log(0.1e1 + t161 * t26 * t29 * t55 * t61 * t52 / 0.2e1)
t170 = 0.1e1 / params_a_css
t184 = lax_cond(t9, 0, -0.25000000000000000000e-2 * t129 * t127 * t131 * t135 * (0.2e1 * tau0 * t34 - s0 * t43 / 0.4e1) * t143 / t25 / t24 * t149 / t152 / t156 * t159 * (0.1e1 - t169 * t170 * t131 * t25 * t28 * t54 * t60 / t52))
t185 = lax_cond(t121, t19, -t20)
t186 = lax_cond(t123, t15, t185)
t187 = 0.1e1 + t186
t188 = t187 ** 2
t189 = t187 ** (0.1e1 / 0.3e1)
t190 = t189 ** 2
t204 = t99 ** 2
t205 = t204 ** 2
t208 = t105 ** 2
t209 = t208 ** 2
t211 = t97 ** 2
t212 = t211 ** 2
t221 = math.log(0.1e1 + t161 * t73 * t29 * t100 * t106 * t97 / 0.2e1)
t235 = lax_cond(t67, 0, -0.25000000000000000000e-2 * t190 * t188 * t131 * t135 * (0.2e1 * tau1 * t79 - s2 * t88 / 0.4e1) * t143 / t72 / t71 * t149 / t205 / t209 * t212 * (0.1e1 - t221 * t170 * t131 * t72 * t28 * t99 * t105 / t97))
res = -0.20000000000000000000e0 * (0.1e1 - t2 / t4) * t3 * t113 * (t113 - t115) + t184 + t235
" unpol "t3 = r0 / 0.2e1 <= p_a_dens_threshold
t4 = 2 ** (0.1e1 / 0.3e1)
t5 = 0.1e1 <= p_a_zeta_threshold
t6 = p_a_zeta_threshold - 0.1e1
t8 = lax_cond(t5, -t6, 0)
t9 = lax_cond(t5, t6, t8)
t10 = 0.1e1 + t9
t11 = t10 * r0
t12 = t11 ** (0.1e1 / 0.3e1)
t13 = 0.1e1 / t12
t15 = math.pi ** (0.1e1 / 0.3e1)
t16 = 0.1e1 / t15
t18 = t4 ** 2
t20 = r0 ** (0.1e1 / 0.3e1)
t21 = t20 ** 2
t22 = t21 * r0
t23 = 0.1e1 / t22
t31 = r0 ** 2
t33 = 0.1e1 / t21 / t31
t37 = l0 * t18 * t23 / 0.6e1 - 0.2e1 / 0.3e1 * params_a_gamma * tau0 * t18 * t23 + params_a_gamma * s0 * t18 * t33 / 0.12e2
t38 = abs(t37)
t41 = lax_cond(0.0e0 < t37, 0.50e-12, -0.50e-12)
t42 = lax_cond(t38 < 0.50e-12, t41, t37)
t43 = br89_x(t42)
t45 = math.exp(t43 / 0.3e1)
t46 = 0.1e1 / t45
t47 = math.exp(-t43)
t51 = 0.1e1 - t47 * (0.1e1 + t43 / 0.2e1)
t52 = 0.1e1 / t51
t57 = lax_cond(t3, 0, t4 * t13 * t16 * t46 * t52 * t43 / 0.2e1)
t59 = 0.2e1 * params_a_cab * t57
t61 = math.log(0.1e1 + t59)
t66 = t10 ** 2
t67 = t10 ** (0.1e1 / 0.3e1)
t68 = t67 ** 2
t79 = params_a_css ** 2
t80 = t79 ** 2
t88 = t45 ** 2
t89 = t88 ** 2
t92 = t51 ** 2
t93 = t92 ** 2
t95 = t43 ** 2
t96 = t95 ** 2
t106 = math.log(0.1e1 + params_a_css * t4 * t13 * t16 * t46 * t52 * t43 / 0.2e1)
t121 = lax_cond(t3, 0, -0.25000000000000000000e-2 * t68 * t66 * t18 * t22 * (0.2e1 * tau0 * t18 * t23 - s0 * t18 * t33 / 0.4e1) * t80 / t12 / t11 / t15 / math.pi / t89 / t93 * t96 * (0.1e1 - t106 / params_a_css * t18 * t12 * t15 * t45 * t51 / t43))
res = -0.40000000000000000000e0 * r0 * params_a_cab * t57 * (t59 - t61) + 0.2e1 * t121
"

/- gen_repo/impl/prebuilt/pol/mgga_c_bc95.py and gen_repo/impl/prebuilt/unpol/mgga_c_bc95.py -/
formula mgga_c_bc95 pol "t2 = r0 - r1
t3 = r0 + r1
t5 = t2 / t3
t6 = 0.1e1 + t5
t7 = t6 <= p_a_zeta_threshold
t8 = jnp.logical_or(r0 <= p_a_dens_threshold, t7)
t9 = lax_cond(t7, p_a_zeta_threshold, t6)
t10 = 3 ** (0.1e1 / 0.3e1)
t12 = (0.1e1 / math.pi) ** (0.1e1 / 0.3e1)
t13 = t10 * t12
t14 = 4 ** (0.1e1 / 0.3e1)
t15 = t14 ** 2
t16 = t13 * t15
t17 = t3 ** (0.1e1 / 0.3e1)
t18 = 0.1e1 / t17
t19 = 2 ** (0.1e1 / 0.3e1)
t20 = t18 * t19
t21 = p_a_zeta_threshold ** (0.1e1 / 0.3e1)
t22 = 0.1e1 / t21
t23 = t6 ** (0.1e1 / 0.3e1)
t25 = lax_cond(t7, t22, 0.1e1 / t23)
t27 = t16 * t20 * t25
t30 = math.sqrt(t27)
t33 = t27 ** 0.15e1
t35 = t10 ** 2
t36 = t12 ** 2
t37 = t35 * t36
t38 = t37 * t14
t39 = t17 ** 2
t40 = 0.1e1 / t39
t41 = t19 ** 2
t42 = t40 * t41
t43 = t25 ** 2
t45 = t38 * t42 * t43
t51 = math.log(0.1e1 + 0.16081979498692535067e2 / (0.37978500000000000000e1 * t30 + 0.89690000000000000000e0 * t27 + 0.20477500000000000000e0 * t33 + 0.12323500000000000000e0 * t45))
t53 = 0.621814e-1 * (0.1e1 + 0.53425000000000000000e-1 * t27) * t51
t55 = t21 * p_a_zeta_threshold
t57 = lax_cond(0.2e1 <= p_a_zeta_threshold, t55, 0.2e1 * t19)
t59 = lax_cond(0.0e0 <= p_a_zeta_threshold, t55, 0)
t63 = 0.1e1 / (0.2e1 * t19 - 0.2e1)
t64 = (t57 + t59 - 0.2e1) * t63
t75 = math.log(0.1e1 + 0.32163958997385070134e2 / (0.70594500000000000000e1 * t30 + 0.15494250000000000000e1 * t27 + 0.42077500000000000000e0 * t33 + 0.15629250000000000000e0 * t45))
t88 = math.log(0.1e1 + 0.29608749977793437516e2 / (0.51785000000000000000e1 * t30 + 0.90577500000000000000e0 * t27 + 0.11003250000000000000e0 * t33 + 0.12417750000000000000e0 * t45))
t89 = (0.1e1 + 0.27812500000000000000e-1 * t27) * t88
t98 = lax_cond(t8, 0, t9 * (-t53 + t64 * (-0.3109070e-1 * (0.1e1 + 0.51370000000000000000e-1 * t27) * t75 + t53 - 0.19751673498613801407e-1 * t89) + 0.19751673498613801407e-1 * t64 * t89) / 0.2e1)
t100 = r0 ** (0.1e1 / 0.3e1)
t101 = t100 ** 2
t111 = 6 ** (0.1e1 / 0.3e1)
t113 = math.pi ** 2
t114 = t113 ** (0.1e1 / 0.3e1)
t115 = t114 ** 2
t116 = 0.1e1 / t115
t118 = r0 ** 2
t120 = 0.1e1 / t101 / t118
t123 = (params_a_css * s0 * t120 + 0.1e1) ** 2
t130 = 0.1e1 - t5
t131 = t130 <= p_a_zeta_threshold
t132 = jnp.logical_or(r1 <= p_a_dens_threshold, t131)
t133 = lax_cond(t131, p_a_zeta_threshold, t130)
t134 = t130 ** (0.1e1 / 0.3e1)
t136 = lax_cond(t131, t22, 0.1e1 / t134)
t138 = t16 * t20 * t136
t141 = math.sqrt(t138)
t144 = t138 ** 0.15e1
t146 = t136 ** 2
t148 = t38 * t42 * t146
t154 = math.log(0.1e1 + 0.16081979498692535067e2 / (0.37978500000000000000e1 * t141 + 0.89690000000000000000e0 * t138 + 0.20477500000000000000e0 * t144 + 0.12323500000000000000e0 * t148))
t156 = 0.621814e-1 * (0.1e1 + 0.53425000000000000000e-1 * t138) * t154
t167 = math.log(0.1e1 + 0.32163958997385070134e2 / (0.70594500000000000000e1 * t141 + 0.15494250000000000000e1 * t138 + 0.42077500000000000000e0 * t144 + 0.15629250000000000000e0 * t148))
t180 = math.log(0.1e1 + 0.29608749977793437516e2 / (0.51785000000000000000e1 * t141 + 0.90577500000000000000e0 * t138 + 0.11003250000000000000e0 * t144 + 0.12417750000000000000e0 * t148))
t181 = (0.1e1 + 0.27812500000000000000e-1 * t138) * t180
t190 = lax_cond(t132, 0, t133 * (-t156 + t64 * (-0.3109070e-1 * (0.1e1 + 0.51370000000000000000e-1 * t138) * t167 + t156 - 0.19751673498613801407e-1 * t181) + 0.19751673498613801407e-1 * t64 * t181) / 0.2e1)
t192 = r1 ** (0.1e1 / 0.3e1)
t193 = t192 ** 2
t205 = r1 ** 2
t207 = 0.1e1 / t193 / t205
t210 = (params_a_css * s2 * t207 + 0.1e1) ** 2
t217 = t13 * t15 * t18
t220 = math.sqrt(t217)
t223 = t217 ** 0.15e1
t226 = t37 * t14 * t40
t232 = math.log(0.1e1 + 0.16081979498692535067e2 / (0.37978500000000000000e1 * t220 + 0.89690000000000000000e0 * t217 + 0.20477500000000000000e0 * t223 + 0.12323500000000000000e0 * t226))
t234 = 0.621814e-1 * (0.1e1 + 0.53425000000000000000e-1 * t217) * t232
t235 = t2 ** 2
t236 = t235 ** 2
t237 = t3 ** 2
t238 = t237 ** 2
t242 = lax_cond(t7, t55, t23 * t6)
t244 = lax_cond(t131, t55, t134 * t130)
t246 = (t242 + t244 - 0.2e1) * t63
t257 = math.log(0.1e1 + 0.32163958997385070134e2 / (0.70594500000000000000e1 * t220 + 0.15494250000000000000e1 * t217 + 0.42077500000000000000e0 * t223 + 0.15629250000000000000e0 * t226))
t270 = math.log(0.1e1 + 0.29608749977793437516e2 / (0.51785000000000000000e1 * t220 + 0.90577500000000000000e0 * t217 + 0.11003250000000000000e0 * t223 + 0.12417750000000000000e0 * t226))
t271 = (0.1e1 + 0.27812500000000000000e-1 * t217) * t270
res = 0.5e1 / 0.9e1 * t98 * tau0 / t101 / r0 * (0.1e1 - s0 / r0 / tau0 / 0.8e1) * t111 * t116 / t123 + 0.5e1 / 0.9e1 * t190 * tau1 / t193 / r1 * (0.1e1 - s2 / r1 / tau1 / 0.8e1) * t111 * t116 / t210 + (-t234 + t236 / t238 * t246 * (-0.3109070e-1 * (0.1e1 + 0.51370000000000000000e-1 * t217) * t257 + t234 - 0.19751673498613801407e-1 * t271) + 0.19751673498613801407e-1 * t246 * t271 - t98 - t190) / (0.1e1 + params_a_copp * (s0 * t120 + s2 * t207))
" unpol "t3 = 0.1e1 <= p_a_zeta_threshold
t4 = jnp.logical_or(r0 / 0.2e1 <= p_a_dens_threshold, t3)
t5 = lax_cond(t3, p_a_zeta_threshold, 1)
t6 = 3 ** (0.1e1 / 0.3e1)
t8 = (0.1e1 / math.pi) ** (0.1e1 / 0.3e1)
t9 = t6 * t8
t10 = 4 ** (0.1e1 / 0.3e1)
t11 = t10 ** 2
t13 = r0 ** (0.1e1 / 0.3e1)
t14 = 0.1e1 / t13
t15 = 2 ** (0.1e1 / 0.3e1)
t17 = p_a_zeta_threshold ** (0.1e1 / 0.3e1)
t19 = lax_cond(t3, 0.1e1 / t17, 1)
t21 = t9 * t11 * t14 * t15 * t19
t24 = math.sqrt(t21)
t27 = t21 ** 0.15e1
t29 = t6 ** 2
t30 = t8 ** 2
t31 = t29 * t30
t33 = t13 ** 2
t34 = 0.1e1 / t33
t35 = t15 ** 2
t37 = t19 ** 2
t39 = t31 * t10 * t34 * t35 * t37
t45 = math.log(0.1e1 + 0.16081979498692535067e2 / (0.37978500000000000000e1 * t24 + 0.89690000000000000000e0 * t21 + 0.20477500000000000000e0 * t27 + 0.12323500000000000000e0 * t39))
t47 = 0.621814e-1 * (0.1e1 + 0.53425000000000000000e-1 * t21) * t45
t49 = t17 * p_a_zeta_threshold
t51 = lax_cond(0.2e1 <= p_a_zeta_threshold, t49, 0.2e1 * t15)
t53 = lax_cond(0.0e0 <= p_a_zeta_threshold, t49, 0)
t57 = 0.1e1 / (0.2e1 * t15 - 0.2e1)
t58 = (t51 + t53 - 0.2e1) * t57
t69 = math.log(0.1e1 + 0.32163958997385070134e2 / (0.70594500000000000000e1 * t24 + 0.15494250000000000000e1 * t21 + 0.42077500000000000000e0 * t27 + 0.15629250000000000000e0 * t39))
t82 = math.log(0.1e1 + 0.29608749977793437516e2 / (0.51785000000000000000e1 * t24 + 0.90577500000000000000e0 * t21 + 0.11003250000000000000e0 * t27 + 0.12417750000000000000e0 * t39))
t83 = (0.1e1 + 0.27812500000000000000e-1 * t21) * t82
t92 = lax_cond(t4, 0, t5 * (-t47 + t58 * (-0.3109070e-1 * (0.1e1 + 0.51370000000000000000e-1 * t21) * t69 + t47 - 0.19751673498613801407e-1 * t83) + 0.19751673498613801407e-1 * t58 * t83) / 0.2e1)
t104 = 6 ** (0.1e1 / 0.3e1)
t106 = math.pi ** 2
t107 = t106 ** (0.1e1 / 0.3e1)
t108 = t107 ** 2
t111 = r0 ** 2
t114 = t35 / t33 / t111
t117 = (params_a_css * s0 * t114 + 0.1e1) ** 2
t124 = t9 * t11 * t14
t127 = math.sqrt(t124)
t130 = t124 ** 0.15e1
t133 = t31 * t10 * t34
t139 = math.log(0.1e1 + 0.16081979498692535067e2 / (0.37978500000000000000e1 * t127 + 0.89690000000000000000e0 * t124 + 0.20477500000000000000e0 * t130 + 0.12323500000000000000e0 * t133))
t142 = lax_cond(t3, t49, 1)
t156 = math.log(0.1e1 + 0.29608749977793437516e2 / (0.51785000000000000000e1 * t127 + 0.90577500000000000000e0 * t124 + 0.11003250000000000000e0 * t130 + 0.12417750000000000000e0 * t133))
res = 0.10e2 / 0.9e1 * t92 * tau0 * t35 / t33 / r0 * (0.1e1 - s0 / r0 / tau0 / 0.8e1) * t104 / t108 / t117 + (-0.621814e-1 * (0.1e1 + 0.53425000000000000000e-1 * t124) * t139 + 0.19751673498613801407e-1 * (0.2e1 * t142 - 0.2e1) * t57 * (0.1e1 + 0.27812500000000000000e-1 * t124) * t156 - 0.2e1 * t92) / (0.2e1 * params_a_copp * s0 * t114 + 0.1e1)
"

end Verif.Data


/-!
# Shipped formulas, verbatim from `gen_repo/impl/prebuilt/{pol,unpol}/NAME.py`
-/
namespace Verif.Data

/- gen_repo/impl/prebuilt/pol/mgga_c_cc.py and gen_repo/impl/prebuilt/unpol/mgga_c_cc.py -/
formula mgga_c_cc pol "t3 = r0 + r1
t4 = t3 ** 2
t5 = t4 ** 2
t6 = t3 ** (0.1e1 / 0.3e1)
t7 = t6 ** 2
t11 = r0 ** (0.1e1 / 0.3e1)
t12 = t11 ** 2
t16 = r0 - r1
t18 = t16 / t3
t19 = 0.1e1 + t18
t20 = t19 / 0.2e1
t21 = t20 ** (0.1e1 / 0.3e1)
t22 = t21 ** 2
t25 = r1 ** (0.1e1 / 0.3e1)
t26 = t25 ** 2
t30 = 0.1e1 - t18
t31 = t30 / 0.2e1
t32 = t31 ** (0.1e1 / 0.3e1)
t33 = t32 ** 2
t38 = t16 ** 2
t43 = 3 ** (0.1e1 / 0.3e1)
t45 = (0.1e1 / math.pi) ** (0.1e1 / 0.3e1)
t47 = 4 ** (0.1e1 / 0.3e1)
t48 = t47 ** 2
t51 = t43 * t45 * t48 / t6
t54 = math.sqrt(t51)
t57 = t51 ** 0.15e1
t59 = t43 ** 2
t60 = t45 ** 2
t64 = t59 * t60 * t47 / t7
t70 = math.log(0.1e1 + 0.16081979498692535067e2 / (0.37978500000000000000e1 * t54 + 0.89690000000000000000e0 * t51 + 0.20477500000000000000e0 * t57 + 0.12323500000000000000e0 * t64))
t72 = 0.621814e-1 * (0.1e1 + 0.53425000000000000000e-1 * t51) * t70
t73 = t38 ** 2
t77 = p_a_zeta_threshold ** (0.1e1 / 0.3e1)
t78 = t77 * p_a_zeta_threshold
t79 = t19 ** (0.1e1 / 0.3e1)
t81 = lax_cond(t19 <= p_a_zeta_threshold, t78, t79 * t19)
t83 = t30 ** (0.1e1 / 0.3e1)
t85 = lax_cond(t30 <= p_a_zeta_threshold, t78, t83 * t30)
t87 = 2 ** (0.1e1 / 0.3e1)
t91 = (t81 + t85 - 0.2e1) / (0.2e1 * t87 - 0.2e1)
t102 = math.log(0.1e1 + 0.32163958997385070134e2 / (0.70594500000000000000e1 * t54 + 0.15494250000000000000e1 * t51 + 0.42077500000000000000e0 * t57 + 0.15629250000000000000e0 * t64))
t115 = math.log(0.1e1 + 0.29608749977793437516e2 / (0.51785000000000000000e1 * t54 + 0.90577500000000000000e0 * t51 + 0.11003250000000000000e0 * t57 + 0.12417750000000000000e0 * t64))
t116 = (0.1e1 + 0.27812500000000000000e-1 * t51) * t115
res = (0.1e1 - (s0 + 0.2e1 * s1 + s2) / t7 / t5 / (tau0 / t12 / r0 * t22 * t20 + tau1 / t26 / r1 * t33 * t31) * t38 / 0.8e1) * (-t72 + t73 / t5 * t91 * (-0.3109070e-1 * (0.1e1 + 0.51370000000000000000e-1 * t51) * t102 + t72 - 0.19751673498613801407e-1 * t116) + 0.19751673498613801407e-1 * t91 * t116)
" unpol "t1 = 3 ** (0.1e1 / 0.3e1)
t3 = (0.1e1 / math.pi) ** (0.1e1 / 0.3e1)
t5 = 4 ** (0.1e1 / 0.3e1)
t6 = t5 ** 2
t7 = r0 ** (0.1e1 / 0.3e1)
t10 = t1 * t3 * t6 / t7
t13 = math.sqrt(t10)
t16 = t10 ** 0.15e1
t18 = t1 ** 2
t19 = t3 ** 2
t21 = t7 ** 2
t24 = t18 * t19 * t5 / t21
t30 = math.log(0.1e1 + 0.16081979498692535067e2 / (0.37978500000000000000e1 * t13 + 0.89690000000000000000e0 * t10 + 0.20477500000000000000e0 * t16 + 0.12323500000000000000e0 * t24))
t34 = p_a_zeta_threshold ** (0.1e1 / 0.3e1)
t36 = lax_cond(0.1e1 <= p_a_zeta_threshold, t34 * p_a_zeta_threshold, 1)
t39 = 2 ** (0.1e1 / 0.3e1)
t54 = math.log(0.1e1 + 0.29608749977793437516e2 / (0.51785000000000000000e1 * t13 + 0.90577500000000000000e0 * t10 + 0.11003250000000000000e0 * t16 + 0.12417750000000000000e0 * t24))
res = -0.621814e-1 * (0.1e1 + 0.53425000000000000000e-1 * t10) * t30 + 0.19751673498613801407e-1 * (0.2e1 * t36 - 0.2e1) / (0.2e1 * t39 - 0.2e1) * (0.1e1 + 0.27812500000000000000e-1 * t10) * t54
"

/- gen_repo/impl/prebuilt/pol/mgga_c_ccalda.py and gen_repo/impl/prebuilt/unpol/mgga_c_ccalda.py -/
formula mgga_c_ccalda pol "t2 = r0 ** (0.1e1 / 0.3e1)
t3 = t2 ** 2
t7 = r0 - r1
t8 = r0 + r1
t10 = t7 / t8
t11 = 0.1e1 + t10
t12 = t11 / 0.2e1
t13 = t12 ** (0.1e1 / 0.3e1)
t14 = t13 ** 2
t16 = tau0 / t3 / r0 * t14 * t12
t17 = r1 ** (0.1e1 / 0.3e1)
t18 = t17 ** 2
t22 = 0.1e1 - t10
t23 = t22 / 0.2e1
t24 = t23 ** (0.1e1 / 0.3e1)
t25 = t24 ** 2
t27 = tau1 / t18 / r1 * t25 * t23
t29 = s0 + 0.2e1 * s1 + s2
t30 = t8 ** 2
t31 = t8 ** (0.1e1 / 0.3e1)
t32 = t31 ** 2
t37 = t16 + t27 - t29 / t32 / t30 / 0.8e1
t38 = (0.1e1 + params_a_c) * t37
t39 = 6 ** (0.1e1 / 0.3e1)
t40 = math.pi ** 2
t41 = t40 ** (0.1e1 / 0.3e1)
t42 = t41 ** 2
t43 = 0.1e1 / t42
t44 = t39 * t43
t46 = 2 ** (0.1e1 / 0.3e1)
t47 = t46 ** 2
t53 = 0.1e1 / (0.1e1 + 0.5e1 / 0.9e1 * params_a_c * t37 * t44 * t47)
t55 = t30 ** 2
t61 = t7 ** 2
t66 = 3 ** (0.1e1 / 0.3e1)
t68 = (0.1e1 / math.pi) ** (0.1e1 / 0.3e1)
t70 = 4 ** (0.1e1 / 0.3e1)
t71 = t70 ** 2
t74 = t66 * t68 * t71 / t31
t77 = math.sqrt(t74)
t80 = t74 ** 0.15e1
t82 = t66 ** 2
t83 = t68 ** 2
t87 = t82 * t83 * t70 / t32
t93 = math.log(0.1e1 + 0.16081979498692535067e2 / (0.37978500000000000000e1 * t77 + 0.89690000000000000000e0 * t74 + 0.20477500000000000000e0 * t80 + 0.12323500000000000000e0 * t87))
t95 = 0.621814e-1 * (0.1e1 + 0.53425000000000000000e-1 * t74) * t93
t96 = t61 ** 2
t100 = p_a_zeta_threshold ** (0.1e1 / 0.3e1)
t101 = t100 * p_a_zeta_threshold
t102 = t11 ** (0.1e1 / 0.3e1)
t104 = lax_cond(t11 <= p_a_zeta_threshold, t101, t102 * t11)
t106 = t22 ** (0.1e1 / 0.3e1)
t108 = lax_cond(t22 <= p_a_zeta_threshold, t101, t106 * t22)
t113 = (t104 + t108 - 0.2e1) / (0.2e1 * t46 - 0.2e1)
t124 = math.log(0.1e1 + 0.32163958997385070134e2 / (0.70594500000000000000e1 * t77 + 0.15494250000000000000e1 * t74 + 0.42077500000000000000e0 * t80 + 0.15629250000000000000e0 * t87))
t137 = math.log(0.1e1 + 0.29608749977793437516e2 / (0.51785000000000000000e1 * t77 + 0.90577500000000000000e0 * t74 + 0.11003250000000000000e0 * t80 + 0.12417750000000000000e0 * t87))
t138 = (0.1e1 + 0.27812500000000000000e-1 * t74) * t137
t145 = -t95 + t96 / t55 * t113 * (-0.3109070e-1 * (0.1e1 + 0.51370000000000000000e-1 * t74) * t124 + t95 - 0.19751673498613801407e-1 * t138) + 0.19751673498613801407e-1 * t113 * t138
res = 0.5e1 / 0.9e1 * t38 * t44 * t47 * t53 * (0.1e1 - t29 / t32 / t55 / (t16 + t27) * t61 / 0.8e1) * t145 + (0.1e1 - 0.5e1 / 0.9e1 * t38 * t39 * t43 * t47 * t53) * t145
" unpol "t2 = r0 ** (0.1e1 / 0.3e1)
t3 = t2 ** 2
t7 = r0 ** 2
t12 = tau0 / t3 / r0 - s0 / t3 / t7 / 0.8e1
t14 = 6 ** (0.1e1 / 0.3e1)
t15 = (0.1e1 + params_a_c) * t12 * t14
t16 = math.pi ** 2
t17 = t16 ** (0.1e1 / 0.3e1)
t18 = t17 ** 2
t19 = 0.1e1 / t18
t20 = 2 ** (0.1e1 / 0.3e1)
t21 = t20 ** 2
t22 = t19 * t21
t29 = 0.1e1 / (0.1e1 + 0.5e1 / 0.9e1 * params_a_c * t12 * t14 * t19 * t21)
t30 = 3 ** (0.1e1 / 0.3e1)
t32 = (0.1e1 / math.pi) ** (0.1e1 / 0.3e1)
t34 = 4 ** (0.1e1 / 0.3e1)
t35 = t34 ** 2
t38 = t30 * t32 * t35 / t2
t41 = math.sqrt(t38)
t44 = t38 ** 0.15e1
t46 = t30 ** 2
t47 = t32 ** 2
t51 = t46 * t47 * t34 / t3
t57 = math.log(0.1e1 + 0.16081979498692535067e2 / (0.37978500000000000000e1 * t41 + 0.89690000000000000000e0 * t38 + 0.20477500000000000000e0 * t44 + 0.12323500000000000000e0 * t51))
t61 = p_a_zeta_threshold ** (0.1e1 / 0.3e1)
t63 = lax_cond(0.1e1 <= p_a_zeta_threshold, t61 * p_a_zeta_threshold, 1)
t80 = math.log(0.1e1 + 0.29608749977793437516e2 / (0.51785000000000000000e1 * t41 + 0.90577500000000000000e0 * t38 + 0.11003250000000000000e0 * t44 + 0.12417750000000000000e0 * t51))
t84 = -0.621814e-1 * (0.1e1 + 0.53425000000000000000e-1 * t38) * t57 + 0.19751673498613801407e-1 * (0.2e1 * t63 - 0.2e1) / (0.2e1 * t20 - 0.2e1) * (0.1e1 + 0.27812500000000000000e-1 * t38) * t80
res = 0.5e1 / 0.9e1 * t15 * t22 * t29 * t84 + (0.1e1 - 0.5e1 / 0.9e1 * t15 * t22 * t29) * t84
"

/- gen_repo/impl/prebuilt/pol/mgga_c_cs.py and gen_repo/impl/prebuilt/unpol/mgga_c_cs.py -/
formula mgga_c_cs pol "t1 = r0 - r1
t2 = t1 ** 2
t3 = r0 + r1
t4 = t3 ** 2
t8 = t3 ** (0.1e1 / 0.3e1)
t9 = 0.1e1 / t8
t15 = math.exp(-0.25330000000000000000e0 * t9)
t17 = t1 / t3
t18 = 0.1e1 + t17
t20 = p_a_zeta_threshold ** 2
t21 = p_a_zeta_threshold ** (0.1e1 / 0.3e1)
t22 = t21 ** 2
t23 = t22 * t20
t24 = t18 ** 2
t25 = t18 ** (0.1e1 / 0.3e1)
t26 = t25 ** 2
t28 = lax_cond(t18 <= p_a_zeta_threshold, t23, t26 * t24)
t29 = 2 ** (0.1e1 / 0.3e1)
t31 = r0 ** (0.1e1 / 0.3e1)
t32 = t31 ** 2
t34 = 0.1e1 / t32 / r0
t36 = l0 * t34
t40 = 0.1e1 - t17
t42 = t40 ** 2
t43 = t40 ** (0.1e1 / 0.3e1)
t44 = t43 ** 2
t46 = lax_cond(t40 <= p_a_zeta_threshold, t23, t44 * t42)
t48 = r1 ** (0.1e1 / 0.3e1)
t49 = t48 ** 2
t51 = 0.1e1 / t49 / r1
t53 = l1 * t51
t59 = t8 ** 2
t63 = t18 / 0.2e1
t64 = t63 ** (0.1e1 / 0.3e1)
t65 = t64 ** 2
t68 = t40 / 0.2e1
t69 = t68 ** (0.1e1 / 0.3e1)
t70 = t69 ** 2
res = -0.4918e-1 * (0.1e1 - t2 / t4) / (0.1e1 + 0.34899999999999999998e0 * t9) * (0.1e1 + 0.264e0 * t15 * (t28 * t29 * (tau0 * t34 - t36 / 0.8e1) / 0.8e1 + t46 * t29 * (tau1 * t51 - t53 / 0.8e1) / 0.8e1 - (s0 + 0.2e1 * s1 + s2) / t59 / t4 / 0.8e1 + t36 * t65 * t63 / 0.8e1 + t53 * t70 * t68 / 0.8e1))
" unpol "t1 = r0 ** (0.1e1 / 0.3e1)
t2 = 0.1e1 / t1
t7 = math.exp(-0.25330000000000000000e0 * t2)
t9 = p_a_zeta_threshold ** 2
t10 = p_a_zeta_threshold ** (0.1e1 / 0.3e1)
t11 = t10 ** 2
t13 = lax_cond(0.1e1 <= p_a_zeta_threshold, t11 * t9, 1)
t14 = 2 ** (0.1e1 / 0.3e1)
t16 = t14 ** 2
t18 = t1 ** 2
t20 = 0.1e1 / t18 / r0
t28 = r0 ** 2
res = -0.4918e-1 / (0.1e1 + 0.34899999999999999998e0 * t2) * (0.1e1 + 0.264e0 * t7 * (t13 * t14 * (tau0 * t16 * t20 - l0 * t16 * t20 / 0.8e1) / 0.4e1 - s0 / t18 / t28 / 0.8e1 + l0 * t20 / 0.8e1))
"

/- gen_repo/impl/prebuilt/pol/mgga_c_kcis.py and gen_repo/impl/prebuilt/unpol/mgga_c_kcis.py -/
formula mgga_c_kcis pol "t1 = 3 ** (0.1e1 / 0.3e1)
t2 = 0.1e1 / math.pi
t3 = t2 ** (0.1e1 / 0.3e1)
t4 = t1 * t3
t5 = 4 ** (0.1e1 / 0.3e1)
t6 = t5 ** 2
t7 = r0 + r1
t8 = t7 ** (0.1e1 / 0.3e1)
t9 = 0.1e1 / t8
t11 = t4 * t6 * t9
t14 = math.sqrt(t11)
t17 = t11 ** 0.15e1
t19 = t1 ** 2
t20 = t3 ** 2
t21 = t19 * t20
t22 = t8 ** 2
t23 = 0.1e1 / t22
t25 = t21 * t5 * t23
t31 = math.log(0.1e1 + 0.16081824322151104822e2 / (0.37978500000000000000e1 * t14 + 0.89690000000000000000e0 * t11 + 0.20477500000000000000e0 * t17 + 0.12323500000000000000e0 * t25))
t33 = 0.62182e-1 * (0.1e1 + 0.53425000000000000000e-1 * t11) * t31
t35 = p_a_zeta_threshold ** (0.1e1 / 0.3e1)
t36 = t35 * p_a_zeta_threshold
t37 = lax_cond(0.1e1 <= p_a_zeta_threshold, t36, 1)
t40 = 2 ** (0.1e1 / 0.3e1)
t43 = 0.1e1 / (0.2e1 * t40 - 0.2e1)
t44 = (0.2e1 * t37 - 0.2e1) * t43
t55 = math.log(0.1e1 + 0.29608574643216675549e2 / (0.51785000000000000000e1 * t14 + 0.90577500000000000000e0 * t11 + 0.11003250000000000000e0 * t17 + 0.12417750000000000000e0 * t25))
t56 = (0.1e1 + 0.27812500000000000000e-1 * t11) * t55
t59 = -t33 + 0.19751789702565206229e-1 * t44 * t56
t61 = s0 + 0.2e1 * s1 + s2
t63 = t7 ** 2
t65 = 0.1e1 / t8 / t63
t67 = 0.1e1 / t3
t68 = t19 * t67
t71 = lax_cond(0.0e0 < t59, t59, -t59)
t78 = math.log(0.1e1 + t40 * t61 * t65 * t68 * t5 / t71 / 0.96e2)
t84 = t1 / t20
t85 = t84 * t6
t87 = 0.1e1 / t8 / t7
t88 = 0.1e1 / t7
t89 = t2 * t88
t95 = 0.1e1 + t14 * (0.107924e1 + 0.39640000000000000000e-1 * t14 + 0.12382500000000000000e-1 * t11) / 0.2e1
t96 = t95 ** 2
t102 = t1 * t3 * t2
t107 = t19 * t20 * t2
t109 = 0.1e1 / t22 / t7
t113 = math.pi ** 2
t114 = 0.1e1 / t113
t115 = 0.1e1 / t63
t116 = t114 * t115
t119 = t1 * t3 * t114
t123 = -0.18780000000000000000e-1 * t89 + 0.13173750000000000000e-2 * t102 * t6 * t87 - 0.23775000000000000000e-3 * t107 * t5 * t109 + 0.63900000000000000000e-4 * t116 - 0.54014062500000000000e-6 * t119 * t6 * t65
t125 = 0.36798313500000000000e-2 * t89 / t96 - t59 * t123
t127 = 4 ** (0.1e1 / 0.6e1)
t129 = t14 * t11
t131 = 0.1e1 / t95
t135 = t59 ** 2
t138 = 0.1e1 / (0.19711288999999999999e-2 * t84 * t127 * t22 * t129 * t131 - 0.2e1 * t135)
t141 = t85 * t87 * t125 * t138 * t61
t144 = math.sqrt(0.4e1)
t149 = t6 * t22
t156 = (0.61912500000000000000e-2 * t59 * t144 * t129 * t131 - 0.79593333333333333331e-1 * t84 * t149 * t123) * t138 * t61 * t115
t159 = t61 ** 2
t160 = t63 ** 2
t163 = t125 * t138 * t159 / t160
t167 = (t59 / (0.1e1 + 0.66725e-1 * t78) + 0.99491666666666666664e-2 * t141) / (0.1e1 + t156 / 0.8e1 - t163 / 0.64e2)
t169 = (r0 - r1) * t88
t170 = 0.1e1 + t169
t171 = t170 <= p_a_zeta_threshold
t172 = t170 ** (0.1e1 / 0.3e1)
t174 = lax_cond(t171, t36, t172 * t170)
t175 = 0.1e1 - t169
t176 = t175 <= p_a_zeta_threshold
t177 = t175 ** (0.1e1 / 0.3e1)
t179 = lax_cond(t176, t36, t177 * t175)
t184 = lax_cond(0.2e1 <= p_a_zeta_threshold, t36, 0.2e1 * t40)
t186 = lax_cond(0.0e0 <= p_a_zeta_threshold, t36, 0)
t188 = (t184 + t186 - 0.2e1) * t43
t199 = math.log(0.1e1 + 0.32164683177870697974e2 / (0.70594500000000000000e1 * t14 + 0.15494250000000000000e1 * t11 + 0.42077500000000000000e0 * t17 + 0.15629250000000000000e0 * t25))
t207 = -t33 + t188 * (-0.31090e-1 * (0.1e1 + 0.51370000000000000000e-1 * t11) * t199 + t33 - 0.19751789702565206229e-1 * t56) + 0.19751789702565206229e-1 * t188 * t56
t210 = t67 * t5
t213 = lax_cond(0.0e0 < t207, t207, -t207)
t219 = math.log(0.1e1 + t61 * t65 * t19 * t210 / t213 / 0.96e2)
t236 = lax_cond(t171, p_a_zeta_threshold, t170)
t238 = t4 * t6
t239 = t9 * t40
t240 = 0.1e1 / t170
t241 = t240 ** (0.1e1 / 0.3e1)
t243 = t238 * t239 * t241
t246 = math.sqrt(t243)
t249 = t243 ** 0.15e1
t251 = t21 * t5
t252 = t40 ** 2
t253 = t23 * t252
t254 = t241 ** 2
t256 = t251 * t253 * t254
t262 = math.log(0.1e1 + 0.16081824322151104822e2 / (0.37978500000000000000e1 * t246 + 0.89690000000000000000e0 * t243 + 0.20477500000000000000e0 * t249 + 0.12323500000000000000e0 * t256))
t264 = 0.62182e-1 * (0.1e1 + 0.53425000000000000000e-1 * t243) * t262
t275 = math.log(0.1e1 + 0.29608574643216675549e2 / (0.51785000000000000000e1 * t246 + 0.90577500000000000000e0 * t243 + 0.11003250000000000000e0 * t249 + 0.12417750000000000000e0 * t256))
t276 = (0.1e1 + 0.27812500000000000000e-1 * t243) * t275
t279 = -t264 + 0.19751789702565206229e-1 * t44 * t276
t280 = r0 ** 2
t281 = r0 ** (0.1e1 / 0.3e1)
t282 = t281 ** 2
t284 = 0.1e1 / t282 / t280
t285 = s0 * t284
t287 = t5 * t8
t288 = 0.1e1 / t241
t291 = lax_cond(0.0e0 < t279, t279, -t279)
t298 = math.log(0.1e1 + t285 * t68 * t287 * t288 / t291 / 0.96e2)
t304 = t84 * t149 * t252
t305 = 0.1e1 / t254
t311 = 0.1e1 + t246 * (0.107924e1 + 0.39640000000000000000e-1 * t246 + 0.12382500000000000000e-1 * t243) / 0.2e1
t312 = t311 ** 2
t319 = t102 * t6
t320 = t87 * t40
t325 = t107 * t5
t326 = t109 * t252
t331 = t170 ** 2
t332 = 0.1e1 / t331
t335 = t119 * t6
t336 = t65 * t40
t341 = -0.37560000000000000000e-1 * t89 * t240 + 0.26347500000000000000e-2 * t319 * t320 * t241 * t240 - 0.47550000000000000000e-3 * t325 * t326 * t254 * t240 + 0.25560000000000000000e-3 * t116 * t332 - 0.21605625000000000000e-5 * t335 * t336 * t241 * t332
t343 = 0.73596627000000000000e-2 * t89 * t240 / t312 - t279 * t341
t346 = t84 * t127 * t22
t350 = t246 * t243 / t311
t354 = t279 ** 2
t357 = 0.1e1 / (0.98556445000000000000e-3 * t346 * t40 * t305 * t350 - 0.2e1 * t354)
t359 = t7 * t170
t360 = t359 ** (0.1e1 / 0.3e1)
t361 = t360 ** 2
t364 = t304 * t305 * t343 * t357 * t285 * t361
t370 = t22 * t40
t380 = (0.61912500000000000000e-2 * t279 * t144 * t350 - 0.39796666666666666666e-1 * t85 * t370 * t305 * t341) * t357 * s0 * t284 * t40 * t361
t383 = s0 ** 2
t385 = t280 ** 2
t392 = t343 * t357 * t383 / t281 / t385 / r0 * t252 * t360 * t359
t396 = (t279 / (0.1e1 + 0.66725e-1 * t298) + 0.24872916666666666666e-2 * t364) / (0.1e1 + t380 / 0.16e2 - t392 / 0.256e3)
t407 = math.log(0.1e1 + 0.32164683177870697974e2 / (0.70594500000000000000e1 * t246 + 0.15494250000000000000e1 * t243 + 0.42077500000000000000e0 * t249 + 0.15629250000000000000e0 * t256))
t415 = -t264 + t188 * (-0.31090e-1 * (0.1e1 + 0.51370000000000000000e-1 * t243) * t407 + t264 - 0.19751789702565206229e-1 * t276) + 0.19751789702565206229e-1 * t188 * t276
t422 = lax_cond(0.0e0 < t415, t415, -t415)
t429 = math.log(0.1e1 + t252 * s0 * t284 * t19 * t210 * t8 * t288 / t422 / 0.192e3)
t450 = lax_cond(t176, p_a_zeta_threshold, t175)
t452 = 0.1e1 / t175
t453 = t452 ** (0.1e1 / 0.3e1)
t455 = t238 * t239 * t453
t458 = math.sqrt(t455)
t461 = t455 ** 0.15e1
t463 = t453 ** 2
t465 = t251 * t253 * t463
t471 = math.log(0.1e1 + 0.16081824322151104822e2 / (0.37978500000000000000e1 * t458 + 0.89690000000000000000e0 * t455 + 0.20477500000000000000e0 * t461 + 0.12323500000000000000e0 * t465))
t473 = 0.62182e-1 * (0.1e1 + 0.53425000000000000000e-1 * t455) * t471
t484 = math.log(0.1e1 + 0.29608574643216675549e2 / (0.51785000000000000000e1 * t458 + 0.90577500000000000000e0 * t455 + 0.11003250000000000000e0 * t461 + 0.12417750000000000000e0 * t465))
t485 = (0.1e1 + 0.27812500000000000000e-1 * t455) * t484
t488 = -t473 + 0.19751789702565206229e-1 * t44 * t485
t489 = r1 ** 2
t490 = r1 ** (0.1e1 / 0.3e1)
t491 = t490 ** 2
t493 = 0.1e1 / t491 / t489
t494 = s2 * t493
t496 = 0.1e1 / t453
t499 = lax_cond(0.0e0 < t488, t488, -t488)
t506 = math.log(0.1e1 + t494 * t68 * t287 * t496 / t499 / 0.96e2)
t511 = 0.1e1 / t463
t517 = 0.1e1 + t458 * (0.107924e1 + 0.39640000000000000000e-1 * t458 + 0.12382500000000000000e-1 * t455) / 0.2e1
t518 = t517 ** 2
t533 = t175 ** 2
t534 = 0.1e1 / t533
t541 = -0.37560000000000000000e-1 * t89 * t452 + 0.26347500000000000000e-2 * t319 * t320 * t453 * t452 - 0.47550000000000000000e-3 * t325 * t326 * t463 * t452 + 0.25560000000000000000e-3 * t116 * t534 - 0.21605625000000000000e-5 * t335 * t336 * t453 * t534
t543 = 0.73596627000000000000e-2 * t89 * t452 / t518 - t488 * t541
t548 = t458 * t455 / t517
t552 = t488 ** 2
t555 = 0.1e1 / (0.98556445000000000000e-3 * t346 * t40 * t511 * t548 - 0.2e1 * t552)
t557 = t7 * t175
t558 = t557 ** (0.1e1 / 0.3e1)
t559 = t558 ** 2
t562 = t304 * t511 * t543 * t555 * t494 * t559
t577 = (0.61912500000000000000e-2 * t488 * t144 * t548 - 0.39796666666666666666e-1 * t85 * t370 * t511 * t541) * t555 * s2 * t493 * t40 * t559
t580 = s2 ** 2
t582 = t489 ** 2
t589 = t543 * t555 * t580 / t490 / t582 / r1 * t252 * t558 * t557
t593 = (t488 / (0.1e1 + 0.66725e-1 * t506) + 0.24872916666666666666e-2 * t562) / (0.1e1 + t577 / 0.16e2 - t589 / 0.256e3)
t604 = math.log(0.1e1 + 0.32164683177870697974e2 / (0.70594500000000000000e1 * t458 + 0.15494250000000000000e1 * t455 + 0.42077500000000000000e0 * t461 + 0.15629250000000000000e0 * t465))
t612 = -t473 + t188 * (-0.31090e-1 * (0.1e1 + 0.51370000000000000000e-1 * t455) * t604 + t473 - 0.19751789702565206229e-1 * t485) + 0.19751789702565206229e-1 * t188 * t485
t619 = lax_cond(0.0e0 < t612, t612, -t612)
t626 = math.log(0.1e1 + t252 * s2 * t493 * t19 * t210 * t8 * t496 / t619 / 0.192e3)
res = t167 + (t174 + t179 - 0.2e1) * t43 * ((t207 / (0.1e1 + 0.66725e-1 * t219) + 0.69644166666666666665e-2 * t141) / (0.1e1 + 0.18750000000000000000e0 * t156 - 0.40468750000000000000e-1 * t163) - t167) - s0 / r0 / tau0 * t236 * (t396 + t188 * ((t415 / (0.1e1 + 0.66725e-1 * t429) + 0.17411041666666666666e-2 * t364) / (0.1e1 + 0.93750000000000000000e-1 * t380 - 0.10117187500000000000e-1 * t392) - t396)) / 0.16e2 - s2 / r1 / tau1 * t450 * (t593 + t188 * ((t612 / (0.1e1 + 0.66725e-1 * t626) + 0.17411041666666666666e-2 * t562) / (0.1e1 + 0.93750000000000000000e-1 * t577 - 0.10117187500000000000e-1 * t589) - t593)) / 0.16e2
" unpol "t1 = 3 ** (0.1e1 / 0.3e1)
t2 = 0.1e1 / math.pi
t3 = t2 ** (0.1e1 / 0.3e1)
t4 = t1 * t3
t5 = 4 ** (0.1e1 / 0.3e1)
t6 = t5 ** 2
t7 = r0 ** (0.1e1 / 0.3e1)
t9 = t6 / t7
t10 = t4 * t9
t13 = math.sqrt(t10)
t16 = t10 ** 0.15e1
t18 = t1 ** 2
t19 = t3 ** 2
t20 = t18 * t19
t21 = t7 ** 2
t23 = t5 / t21
t24 = t20 * t23
t30 = math.log(0.1e1 + 0.16081824322151104822e2 / (0.37978500000000000000e1 * t13 + 0.89690000000000000000e0 * t10 + 0.20477500000000000000e0 * t16 + 0.12323500000000000000e0 * t24))
t32 = 0.62182e-1 * (0.1e1 + 0.53425000000000000000e-1 * t10) * t30
t33 = 0.1e1 <= p_a_zeta_threshold
t34 = p_a_zeta_threshold ** (0.1e1 / 0.3e1)
t35 = t34 * p_a_zeta_threshold
t36 = lax_cond(t33, t35, 1)
t39 = 2 ** (0.1e1 / 0.3e1)
t42 = 0.1e1 / (0.2e1 * t39 - 0.2e1)
t43 = (0.2e1 * t36 - 0.2e1) * t42
t54 = math.log(0.1e1 + 0.29608574643216675549e2 / (0.51785000000000000000e1 * t13 + 0.90577500000000000000e0 * t10 + 0.11003250000000000000e0 * t16 + 0.12417750000000000000e0 * t24))
t55 = (0.1e1 + 0.27812500000000000000e-1 * t10) * t54
t58 = -t32 + 0.19751789702565206229e-1 * t43 * t55
t60 = r0 ** 2
t62 = 0.1e1 / t7 / t60
t63 = t39 * s0 * t62
t64 = 0.1e1 / t3
t65 = t18 * t64
t68 = lax_cond(0.0e0 < t58, t58, -t58)
t75 = math.log(0.1e1 + t63 * t65 * t5 / t68 / 0.96e2)
t81 = t1 / t19
t82 = t81 * t6
t84 = 0.1e1 / t7 / r0
t85 = 0.1e1 / r0
t86 = t2 * t85
t92 = 0.1e1 + t13 * (0.107924e1 + 0.39640000000000000000e-1 * t13 + 0.12382500000000000000e-1 * t10) / 0.2e1
t93 = t92 ** 2
t99 = t1 * t3 * t2
t100 = t6 * t84
t104 = t18 * t19 * t2
t107 = t5 / t21 / r0
t110 = math.pi ** 2
t111 = 0.1e1 / t110
t112 = 0.1e1 / t60
t113 = t111 * t112
t116 = t1 * t3 * t111
t117 = t6 * t62
t120 = -0.18780000000000000000e-1 * t86 + 0.13173750000000000000e-2 * t99 * t100 - 0.23775000000000000000e-3 * t104 * t107 + 0.63900000000000000000e-4 * t113 - 0.54014062500000000000e-6 * t116 * t117
t122 = 0.36798313500000000000e-2 * t86 / t93 - t58 * t120
t124 = 4 ** (0.1e1 / 0.6e1)
t125 = t81 * t124
t126 = t13 * t10
t128 = 0.1e1 / t92
t132 = t58 ** 2
t135 = 0.1e1 / (0.19711288999999999999e-2 * t125 * t21 * t126 * t128 - 0.2e1 * t132)
t138 = t82 * t84 * t122 * t135 * s0
t141 = math.sqrt(0.4e1)
t152 = s0 * t112
t153 = (0.61912500000000000000e-2 * t58 * t141 * t126 * t128 - 0.79593333333333333331e-1 * t81 * t6 * t21 * t120) * t135 * t152
t156 = s0 ** 2
t157 = t60 ** 2
t159 = t156 / t157
t160 = t122 * t135 * t159
t164 = (t58 / (0.1e1 + 0.66725e-1 * t75) + 0.99491666666666666664e-2 * t138) / (0.1e1 + t153 / 0.8e1 - t160 / 0.64e2)
t167 = lax_cond(0.2e1 <= p_a_zeta_threshold, t35, 0.2e1 * t39)
t169 = lax_cond(0.0e0 <= p_a_zeta_threshold, t35, 0)
t171 = (t167 + t169 - 0.2e1) * t42
t182 = math.log(0.1e1 + 0.32164683177870697974e2 / (0.70594500000000000000e1 * t13 + 0.15494250000000000000e1 * t10 + 0.42077500000000000000e0 * t16 + 0.15629250000000000000e0 * t24))
t190 = -t32 + t171 * (-0.31090e-1 * (0.1e1 + 0.51370000000000000000e-1 * t10) * t182 + t32 - 0.19751789702565206229e-1 * t55) + 0.19751789702565206229e-1 * t171 * t55
t192 = s0 * t62 * t18
t193 = t64 * t5
t196 = lax_cond(0.0e0 < t190, t190, -t190)
t202 = math.log(0.1e1 + t192 * t193 / t196 / 0.96e2)
t218 = lax_cond(t33, p_a_zeta_threshold, 1)
t221 = t4 * t9 * t39
t224 = math.sqrt(t221)
t227 = t221 ** 0.15e1
t229 = t39 ** 2
t231 = t20 * t23 * t229
t237 = math.log(0.1e1 + 0.16081824322151104822e2 / (0.37978500000000000000e1 * t224 + 0.89690000000000000000e0 * t221 + 0.20477500000000000000e0 * t227 + 0.12323500000000000000e0 * t231))
t239 = 0.62182e-1 * (0.1e1 + 0.53425000000000000000e-1 * t221) * t237
t250 = math.log(0.1e1 + 0.29608574643216675549e2 / (0.51785000000000000000e1 * t224 + 0.90577500000000000000e0 * t221 + 0.11003250000000000000e0 * t227 + 0.12417750000000000000e0 * t231))
t251 = (0.1e1 + 0.27812500000000000000e-1 * t221) * t250
t254 = -t239 + 0.19751789702565206229e-1 * t43 * t251
t257 = lax_cond(0.0e0 < t254, t254, -t254)
t264 = math.log(0.1e1 + t192 * t193 * t229 / t257 / 0.96e2)
t275 = 0.1e1 + t224 * (0.107924e1 + 0.39640000000000000000e-1 * t224 + 0.12382500000000000000e-1 * t221) / 0.2e1
t276 = t275 ** 2
t291 = -0.37560000000000000000e-1 * t86 + 0.26347500000000000000e-2 * t99 * t100 * t39 - 0.47550000000000000000e-3 * t104 * t107 * t229 + 0.25560000000000000000e-3 * t113 - 0.21605625000000000000e-5 * t116 * t117 * t39
t293 = 0.73596627000000000000e-2 * t86 / t276 - t254 * t291
t295 = t21 * t39
t298 = t224 * t221 / t275
t302 = t254 ** 2
t305 = 0.1e1 / (0.98556445000000000000e-3 * t125 * t295 * t298 - 0.2e1 * t302)
t308 = t81 * t100 * t39 * t293 * t305 * s0
t319 = (0.61912500000000000000e-2 * t254 * t141 * t298 - 0.39796666666666666666e-1 * t82 * t295 * t291) * t305 * t152
t322 = t293 * t305 * t159
t326 = (t254 / (0.1e1 + 0.66725e-1 * t264) + 0.49745833333333333332e-2 * t308) / (0.1e1 + t319 / 0.8e1 - t322 / 0.64e2)
t337 = math.log(0.1e1 + 0.32164683177870697974e2 / (0.70594500000000000000e1 * t224 + 0.15494250000000000000e1 * t221 + 0.42077500000000000000e0 * t227 + 0.15629250000000000000e0 * t231))
t345 = -t239 + t171 * (-0.31090e-1 * (0.1e1 + 0.51370000000000000000e-1 * t221) * t337 + t239 - 0.19751789702565206229e-1 * t251) + 0.19751789702565206229e-1 * t171 * t251
t348 = lax_cond(0.0e0 < t345, t345, -t345)
t355 = math.log(0.1e1 + t63 * t65 * t5 / t348 / 0.96e2)
res = t164 + t43 * ((t190 / (0.1e1 + 0.66725e-1 * t202) + 0.69644166666666666665e-2 * t138) / (0.1e1 + 0.18750000000000000000e0 * t153 - 0.40468750000000000000e-1 * t160) - t164) - s0 * t85 / tau0 * t218 * (t326 + t171 * ((t345 / (0.1e1 + 0.66725e-1 * t355) + 0.34822083333333333332e-2 * t308) / (0.1e1 + 0.18750000000000000000e0 * t319 - 0.40468750000000000000e-1 * t322) - t326)) / 0.8e1
"

/- gen_repo/impl/prebuilt/pol/mgga_c_kcisk.py and gen_repo/impl/prebuilt/unpol/mgga_c_kcisk.py -/
formula mgga_c_kcisk pol "t1 = 3 ** (0.1e1 / 0.3e1)
t2 = 0.1e1 / math.pi
t3 = t2 ** (0.1e1 / 0.3e1)
t4 = t1 * t3
t5 = 4 ** (0.1e1 / 0.3e1)
t6 = t5 ** 2
t7 = r0 + r1
t8 = t7 ** (0.1e1 / 0.3e1)
t9 = 0.1e1 / t8
t10 = t6 * t9
t11 = t4 * t10
t14 = math.sqrt(t11)
t17 = t11 ** 0.15e1
t19 = t1 ** 2
t20 = t3 ** 2
t21 = t19 * t20
t22 = t8 ** 2
t23 = 0.1e1 / t22
t24 = t5 * t23
t25 = t21 * t24
t31 = math.log(0.1e1 + 0.16081824322151104822e2 / (0.37978500000000000000e1 * t14 + 0.89690000000000000000e0 * t11 + 0.20477500000000000000e0 * t17 + 0.12323500000000000000e0 * t25))
t33 = 0.62182e-1 * (0.1e1 + 0.53425000000000000000e-1 * t11) * t31
t35 = p_a_zeta_threshold ** (0.1e1 / 0.3e1)
t36 = t35 * p_a_zeta_threshold
t37 = lax_cond(0.1e1 <= p_a_zeta_threshold, t36, 1)
t40 = 2 ** (0.1e1 / 0.3e1)
t43 = 0.1e1 / (0.2e1 * t40 - 0.2e1)
t44 = (0.2e1 * t37 - 0.2e1) * t43
t55 = math.log(0.1e1 + 0.29608574643216675549e2 / (0.51785000000000000000e1 * t14 + 0.90577500000000000000e0 * t11 + 0.11003250000000000000e0 * t17 + 0.12417750000000000000e0 * t25))
t56 = (0.1e1 + 0.27812500000000000000e-1 * t11) * t55
t59 = -t33 + 0.19751789702565206229e-1 * t44 * t56
t61 = 6 ** (0.1e1 / 0.3e1)
t62 = t61 ** 2
t64 = math.pi ** 2
t65 = t64 ** (0.1e1 / 0.3e1)
t66 = 0.1e1 / t65
t70 = t40 * t1 * t3 * t6 * t9
t73 = math.sqrt(t70)
t76 = t70 ** 0.15e1
t78 = t40 ** 2
t82 = t78 * t19 * t20 * t5 * t23
t88 = math.log(0.1e1 + 0.16081824322151104822e2 / (0.37978500000000000000e1 * t73 + 0.89690000000000000000e0 * t70 + 0.20477500000000000000e0 * t76 + 0.12323500000000000000e0 * t82))
t101 = math.log(0.1e1 + 0.29608574643216675549e2 / (0.51785000000000000000e1 * t73 + 0.90577500000000000000e0 * t70 + 0.11003250000000000000e0 * t76 + 0.12417750000000000000e0 * t82))
t109 = 0.10e2 / 0.9e1 * t40 * t2 * t62 * t66 * (-0.62182e-1 * (0.1e1 + 0.53425000000000000000e-1 * t70) * t88 + 0.19751789702565206229e-1 * t44 * (0.1e1 + 0.27812500000000000000e-1 * t70) * t101) * t9
t112 = lax_cond(t109 < -0.66725e-1, 0, 0.66725e-1 + t109)
t115 = s0 + 0.2e1 * s1 + s2
t116 = t7 ** 2
t118 = 0.1e1 / t8 / t116
t121 = 0.1e1 / t3
t122 = t19 * t121
t125 = lax_cond(0.0e0 < t59, t59, -t59)
t132 = math.log(0.1e1 + 0.53972366148531951642e-1 * t112 * t40 * t115 * t118 * t122 * t5 / t125)
t138 = t1 / t20
t139 = t138 * t6
t141 = 0.1e1 / t8 / t7
t142 = 0.1e1 / t7
t143 = t2 * t142
t149 = 0.1e1 + t14 * (0.107924e1 + 0.39640000000000000000e-1 * t14 + 0.12382500000000000000e-1 * t11) / 0.2e1
t150 = t149 ** 2
t156 = t1 * t3 * t2
t161 = t19 * t20 * t2
t163 = 0.1e1 / t22 / t7
t167 = 0.1e1 / t64
t168 = 0.1e1 / t116
t169 = t167 * t168
t172 = t1 * t3 * t167
t176 = -0.18780000000000000000e-1 * t143 + 0.13173750000000000000e-2 * t156 * t6 * t141 - 0.23775000000000000000e-3 * t161 * t5 * t163 + 0.63900000000000000000e-4 * t169 - 0.54014062500000000000e-6 * t172 * t6 * t118
t178 = 0.36798313500000000000e-2 * t143 / t150 - t59 * t176
t180 = 4 ** (0.1e1 / 0.6e1)
t182 = t14 * t11
t184 = 0.1e1 / t149
t188 = t59 ** 2
t191 = 0.1e1 / (0.19711288999999999999e-2 * t138 * t180 * t22 * t182 * t184 - 0.2e1 * t188)
t194 = t139 * t141 * t178 * t191 * t115
t197 = math.sqrt(0.4e1)
t202 = t6 * t22
t209 = (0.61912500000000000000e-2 * t59 * t197 * t182 * t184 - 0.79593333333333333331e-1 * t138 * t202 * t176) * t191 * t115 * t168
t212 = t115 ** 2
t213 = t116 ** 2
t216 = t178 * t191 * t212 / t213
t220 = (t59 / (0.1e1 + 0.193e0 * t132) + 0.99491666666666666664e-2 * t194) / (0.1e1 + t209 / 0.8e1 - t216 / 0.64e2)
t222 = (r0 - r1) * t142
t223 = 0.1e1 + t222
t224 = t223 <= p_a_zeta_threshold
t225 = t223 ** (0.1e1 / 0.3e1)
t227 = lax_cond(t224, t36, t225 * t223)
t228 = 0.1e1 - t222
t229 = t228 <= p_a_zeta_threshold
t230 = t228 ** (0.1e1 / 0.3e1)
t232 = lax_cond(t229, t36, t230 * t228)
t237 = lax_cond(0.2e1 <= p_a_zeta_threshold, t36, 0.2e1 * t40)
t239 = lax_cond(0.0e0 <= p_a_zeta_threshold, t36, 0)
t241 = (t237 + t239 - 0.2e1) * t43
t252 = math.log(0.1e1 + 0.32164683177870697974e2 / (0.70594500000000000000e1 * t14 + 0.15494250000000000000e1 * t11 + 0.42077500000000000000e0 * t17 + 0.15629250000000000000e0 * t25))
t260 = -t33 + t241 * (-0.31090e-1 * (0.1e1 + 0.51370000000000000000e-1 * t11) * t252 + t33 - 0.19751789702565206229e-1 * t56) + 0.19751789702565206229e-1 * t241 * t56
t261 = t2 * t62
t265 = 0.10e2 / 0.9e1 * t261 * t66 * t59 * t9
t268 = lax_cond(t265 < -0.66725e-1, 0, 0.66725e-1 + t265)
t273 = lax_cond(0.0e0 < t260, t260, -t260)
t280 = math.log(0.1e1 + 0.53972366148531951640e-1 * t268 * t115 * t118 * t122 * t5 / t273)
t297 = lax_cond(t224, p_a_zeta_threshold, t223)
t299 = t4 * t6
t300 = t9 * t40
t301 = 0.1e1 / t223
t302 = t301 ** (0.1e1 / 0.3e1)
t304 = t299 * t300 * t302
t307 = math.sqrt(t304)
t310 = t304 ** 0.15e1
t312 = t21 * t5
t313 = t23 * t78
t314 = t302 ** 2
t316 = t312 * t313 * t314
t322 = math.log(0.1e1 + 0.16081824322151104822e2 / (0.37978500000000000000e1 * t307 + 0.89690000000000000000e0 * t304 + 0.20477500000000000000e0 * t310 + 0.12323500000000000000e0 * t316))
t324 = 0.62182e-1 * (0.1e1 + 0.53425000000000000000e-1 * t304) * t322
t335 = math.log(0.1e1 + 0.29608574643216675549e2 / (0.51785000000000000000e1 * t307 + 0.90577500000000000000e0 * t304 + 0.11003250000000000000e0 * t310 + 0.12417750000000000000e0 * t316))
t336 = (0.1e1 + 0.27812500000000000000e-1 * t304) * t335
t339 = -t324 + 0.19751789702565206229e-1 * t44 * t336
t341 = t78 * t2 * t62
t343 = t78 * t1 * t3
t345 = t343 * t10 * t302
t348 = math.sqrt(t345)
t351 = t345 ** 0.15e1
t354 = t40 * t19 * t20
t356 = t354 * t24 * t314
t362 = math.log(0.1e1 + 0.16081824322151104822e2 / (0.37978500000000000000e1 * t348 + 0.89690000000000000000e0 * t345 + 0.20477500000000000000e0 * t351 + 0.24647000000000000000e0 * t356))
t375 = math.log(0.1e1 + 0.29608574643216675549e2 / (0.51785000000000000000e1 * t348 + 0.90577500000000000000e0 * t345 + 0.11003250000000000000e0 * t351 + 0.24835500000000000000e0 * t356))
t381 = t7 * t223
t382 = t381 ** (0.1e1 / 0.3e1)
t383 = 0.1e1 / t382
t386 = 0.10e2 / 0.9e1 * t341 * t66 * (-0.62182e-1 * (0.1e1 + 0.53425000000000000000e-1 * t345) * t362 + 0.19751789702565206229e-1 * t44 * (0.1e1 + 0.27812500000000000000e-1 * t345) * t375) * t383
t389 = lax_cond(t386 < -0.66725e-1, 0, 0.66725e-1 + t386)
t391 = r0 ** 2
t392 = r0 ** (0.1e1 / 0.3e1)
t393 = t392 ** 2
t395 = 0.1e1 / t393 / t391
t398 = t121 * t5
t400 = t8 / t302
t403 = lax_cond(0.0e0 < t339, t339, -t339)
t410 = math.log(0.1e1 + 0.53972366148531951640e-1 * t389 * s0 * t395 * t19 * t398 * t400 / t403)
t416 = t138 * t202 * t78
t417 = 0.1e1 / t314
t423 = 0.1e1 + t307 * (0.107924e1 + 0.39640000000000000000e-1 * t307 + 0.12382500000000000000e-1 * t304) / 0.2e1
t424 = t423 ** 2
t431 = t156 * t6
t432 = t141 * t40
t437 = t161 * t5
t438 = t163 * t78
t443 = t223 ** 2
t444 = 0.1e1 / t443
t447 = t172 * t6
t448 = t118 * t40
t453 = -0.37560000000000000000e-1 * t143 * t301 + 0.26347500000000000000e-2 * t431 * t432 * t302 * t301 - 0.47550000000000000000e-3 * t437 * t438 * t314 * t301 + 0.25560000000000000000e-3 * t169 * t444 - 0.21605625000000000000e-5 * t447 * t448 * t302 * t444
t455 = 0.73596627000000000000e-2 * t143 * t301 / t424 - t339 * t453
t458 = t138 * t180 * t22
t462 = t307 * t304 / t423
t466 = t339 ** 2
t469 = 0.1e1 / (0.98556445000000000000e-3 * t458 * t40 * t417 * t462 - 0.2e1 * t466)
t471 = s0 * t395
t472 = t382 ** 2
t475 = t416 * t417 * t455 * t469 * t471 * t472
t481 = t22 * t40
t491 = (0.61912500000000000000e-2 * t339 * t197 * t462 - 0.39796666666666666666e-1 * t139 * t481 * t417 * t453) * t469 * s0 * t395 * t40 * t472
t494 = s0 ** 2
t496 = t391 ** 2
t503 = t455 * t469 * t494 / t392 / t496 / r0 * t78 * t382 * t381
t507 = (t339 / (0.1e1 + 0.193e0 * t410) + 0.24872916666666666666e-2 * t475) / (0.1e1 + t491 / 0.16e2 - t503 / 0.256e3)
t518 = math.log(0.1e1 + 0.32164683177870697974e2 / (0.70594500000000000000e1 * t307 + 0.15494250000000000000e1 * t304 + 0.42077500000000000000e0 * t310 + 0.15629250000000000000e0 * t316))
t526 = -t324 + t241 * (-0.31090e-1 * (0.1e1 + 0.51370000000000000000e-1 * t304) * t518 + t324 - 0.19751789702565206229e-1 * t336) + 0.19751789702565206229e-1 * t241 * t336
t527 = t261 * t66
t531 = 0.10e2 / 0.9e1 * t527 * t339 * t40 * t383
t534 = lax_cond(t531 < -0.66725e-1, 0, 0.66725e-1 + t531)
t540 = lax_cond(0.0e0 < t526, t526, -t526)
t547 = math.log(0.1e1 + 0.26986183074265975820e-1 * t78 * t534 * t471 * t19 * t398 * t400 / t540)
t568 = lax_cond(t229, p_a_zeta_threshold, t228)
t570 = 0.1e1 / t228
t571 = t570 ** (0.1e1 / 0.3e1)
t573 = t299 * t300 * t571
t576 = math.sqrt(t573)
t579 = t573 ** 0.15e1
t581 = t571 ** 2
t583 = t312 * t313 * t581
t589 = math.log(0.1e1 + 0.16081824322151104822e2 / (0.37978500000000000000e1 * t576 + 0.89690000000000000000e0 * t573 + 0.20477500000000000000e0 * t579 + 0.12323500000000000000e0 * t583))
t591 = 0.62182e-1 * (0.1e1 + 0.53425000000000000000e-1 * t573) * t589
t602 = math.log(0.1e1 + 0.29608574643216675549e2 / (0.51785000000000000000e1 * t576 + 0.90577500000000000000e0 * t573 + 0.11003250000000000000e0 * t579 + 0.12417750000000000000e0 * t583))
t603 = (0.1e1 + 0.27812500000000000000e-1 * t573) * t602
t606 = -t591 + 0.19751789702565206229e-1 * t44 * t603
t608 = t343 * t10 * t571
t611 = math.sqrt(t608)
t614 = t608 ** 0.15e1
t617 = t354 * t24 * t581
t623 = math.log(0.1e1 + 0.16081824322151104822e2 / (0.37978500000000000000e1 * t611 + 0.89690000000000000000e0 * t608 + 0.20477500000000000000e0 * t614 + 0.24647000000000000000e0 * t617))
t636 = math.log(0.1e1 + 0.29608574643216675549e2 / (0.51785000000000000000e1 * t611 + 0.90577500000000000000e0 * t608 + 0.11003250000000000000e0 * t614 + 0.24835500000000000000e0 * t617))
t642 = t7 * t228
t643 = t642 ** (0.1e1 / 0.3e1)
t644 = 0.1e1 / t643
t647 = 0.10e2 / 0.9e1 * t341 * t66 * (-0.62182e-1 * (0.1e1 + 0.53425000000000000000e-1 * t608) * t623 + 0.19751789702565206229e-1 * t44 * (0.1e1 + 0.27812500000000000000e-1 * t608) * t636) * t644
t650 = lax_cond(t647 < -0.66725e-1, 0, 0.66725e-1 + t647)
t652 = r1 ** 2
t653 = r1 ** (0.1e1 / 0.3e1)
t654 = t653 ** 2
t656 = 0.1e1 / t654 / t652
t660 = t8 / t571
t663 = lax_cond(0.0e0 < t606, t606, -t606)
t670 = math.log(0.1e1 + 0.53972366148531951640e-1 * t650 * s2 * t656 * t19 * t398 * t660 / t663)
t675 = 0.1e1 / t581
t681 = 0.1e1 + t576 * (0.107924e1 + 0.39640000000000000000e-1 * t576 + 0.12382500000000000000e-1 * t573) / 0.2e1
t682 = t681 ** 2
t697 = t228 ** 2
t698 = 0.1e1 / t697
t705 = -0.37560000000000000000e-1 * t143 * t570 + 0.26347500000000000000e-2 * t431 * t432 * t571 * t570 - 0.47550000000000000000e-3 * t437 * t438 * t581 * t570 + 0.25560000000000000000e-3 * t169 * t698 - 0.21605625000000000000e-5 * t447 * t448 * t571 * t698
t707 = 0.73596627000000000000e-2 * t143 * t570 / t682 - t606 * t705
t712 = t576 * t573 / t681
t716 = t606 ** 2
t719 = 0.1e1 / (0.98556445000000000000e-3 * t458 * t40 * t675 * t712 - 0.2e1 * t716)
t721 = s2 * t656
t722 = t643 ** 2
t725 = t416 * t675 * t707 * t719 * t721 * t722
t740 = (0.61912500000000000000e-2 * t606 * t197 * t712 - 0.39796666666666666666e-1 * t139 * t481 * t675 * t705) * t719 * s2 * t656 * t40 * t722
t743 = s2 ** 2
t745 = t652 ** 2
t752 = t707 * t719 * t743 / t653 / t745 / r1 * t78 * t643 * t642
t756 = (t606 / (0.1e1 + 0.193e0 * t670) + 0.24872916666666666666e-2 * t725) / (0.1e1 + t740 / 0.16e2 - t752 / 0.256e3)
t767 = math.log(0.1e1 + 0.32164683177870697974e2 / (0.70594500000000000000e1 * t576 + 0.15494250000000000000e1 * t573 + 0.42077500000000000000e0 * t579 + 0.15629250000000000000e0 * t583))
t775 = -t591 + t241 * (-0.31090e-1 * (0.1e1 + 0.51370000000000000000e-1 * t573) * t767 + t591 - 0.19751789702565206229e-1 * t603) + 0.19751789702565206229e-1 * t241 * t603
t779 = 0.10e2 / 0.9e1 * t527 * t606 * t40 * t644
t782 = lax_cond(t779 < -0.66725e-1, 0, 0.66725e-1 + t779)
t788 = lax_cond(0.0e0 < t775, t775, -t775)
t795 = math.log(0.1e1 + 0.26986183074265975820e-1 * t78 * t782 * t721 * t19 * t398 * t660 / t788)
res = t220 + (t227 + t232 - 0.2e1) * t43 * ((t260 / (0.1e1 + 0.193e0 * t280) + 0.69644166666666666665e-2 * t194) / (0.1e1 + 0.18750000000000000000e0 * t209 - 0.40468750000000000000e-1 * t216) - t220) - s0 / r0 / tau0 * t297 * (t507 + t241 * ((t526 / (0.1e1 + 0.193e0 * t547) + 0.17411041666666666666e-2 * t475) / (0.1e1 + 0.93750000000000000000e-1 * t491 - 0.10117187500000000000e-1 * t503) - t507)) / 0.16e2 - s2 / r1 / tau1 * t568 * (t756 + t241 * ((t775 / (0.1e1 + 0.193e0 * t795) + 0.17411041666666666666e-2 * t725) / (0.1e1 + 0.93750000000000000000e-1 * t740 - 0.10117187500000000000e-1 * t752) - t756)) / 0.16e2
" unpol "t1 = 3 ** (0.1e1 / 0.3e1)
t2 = 0.1e1 / math.pi
t3 = t2 ** (0.1e1 / 0.3e1)
t5 = 4 ** (0.1e1 / 0.3e1)
t6 = t5 ** 2
t7 = r0 ** (0.1e1 / 0.3e1)
t8 = 0.1e1 / t7
t10 = t1 * t3 * t6 * t8
t13 = math.sqrt(t10)
t16 = t10 ** 0.15e1
t18 = t1 ** 2
t19 = t3 ** 2
t21 = t7 ** 2
t22 = 0.1e1 / t21
t24 = t18 * t19 * t5 * t22
t30 = math.log(0.1e1 + 0.16081824322151104822e2 / (0.37978500000000000000e1 * t13 + 0.89690000000000000000e0 * t10 + 0.20477500000000000000e0 * t16 + 0.12323500000000000000e0 * t24))
t32 = 0.62182e-1 * (0.1e1 + 0.53425000000000000000e-1 * t10) * t30
t33 = 0.1e1 <= p_a_zeta_threshold
t34 = p_a_zeta_threshold ** (0.1e1 / 0.3e1)
t35 = t34 * p_a_zeta_threshold
t36 = lax_cond(t33, t35, 1)
t39 = 2 ** (0.1e1 / 0.3e1)
t42 = 0.1e1 / (0.2e1 * t39 - 0.2e1)
t43 = (0.2e1 * t36 - 0.2e1) * t42
t54 = math.log(0.1e1 + 0.29608574643216675549e2 / (0.51785000000000000000e1 * t13 + 0.90577500000000000000e0 * t10 + 0.11003250000000000000e0 * t16 + 0.12417750000000000000e0 * t24))
t55 = (0.1e1 + 0.27812500000000000000e-1 * t10) * t54
t58 = -t32 + 0.19751789702565206229e-1 * t43 * t55
t60 = 6 ** (0.1e1 / 0.3e1)
t61 = t60 ** 2
t63 = math.pi ** 2
t64 = t63 ** (0.1e1 / 0.3e1)
t65 = 0.1e1 / t64
t66 = t39 * t1
t68 = t3 * t6 * t8
t69 = t66 * t68
t72 = math.sqrt(t69)
t75 = t69 ** 0.15e1
t77 = t39 ** 2
t78 = t77 * t18
t80 = t19 * t5 * t22
t81 = t78 * t80
t87 = math.log(0.1e1 + 0.16081824322151104822e2 / (0.37978500000000000000e1 * t72 + 0.89690000000000000000e0 * t69 + 0.20477500000000000000e0 * t75 + 0.12323500000000000000e0 * t81))
t89 = 0.62182e-1 * (0.1e1 + 0.53425000000000000000e-1 * t69) * t87
t100 = math.log(0.1e1 + 0.29608574643216675549e2 / (0.51785000000000000000e1 * t72 + 0.90577500000000000000e0 * t69 + 0.11003250000000000000e0 * t75 + 0.12417750000000000000e0 * t81))
t101 = (0.1e1 + 0.27812500000000000000e-1 * t69) * t100
t104 = -t89 + 0.19751789702565206229e-1 * t43 * t101
t108 = 0.10e2 / 0.9e1 * t39 * t2 * t61 * t65 * t104 * t8
t111 = lax_cond(t108 < -0.66725e-1, 0, 0.66725e-1 + t108)
t113 = r0 ** 2
t115 = 0.1e1 / t7 / t113
t117 = t111 * t39 * s0 * t115
t119 = t18 / t3
t122 = lax_cond(0.0e0 < t58, t58, -t58)
t129 = math.log(0.1e1 + 0.53972366148531951642e-1 * t117 * t119 * t5 / t122)
t134 = 0.1e1 / t19
t135 = t1 * t134
t138 = 0.1e1 / t7 / r0
t139 = 0.1e1 / r0
t140 = t2 * t139
t146 = 0.1e1 + t13 * (0.107924e1 + 0.39640000000000000000e-1 * t13 + 0.12382500000000000000e-1 * t10) / 0.2e1
t147 = t146 ** 2
t152 = t3 * t2
t157 = t19 * t2
t160 = 0.1e1 / t21 / r0
t164 = 0.1e1 / t63
t165 = 0.1e1 / t113
t166 = t164 * t165
t168 = t3 * t164
t173 = -0.18780000000000000000e-1 * t140 + 0.13173750000000000000e-2 * t1 * t152 * t6 * t138 - 0.23775000000000000000e-3 * t18 * t157 * t5 * t160 + 0.63900000000000000000e-4 * t166 - 0.54014062500000000000e-6 * t1 * t168 * t6 * t115
t175 = 0.36798313500000000000e-2 * t140 / t147 - t58 * t173
t177 = 4 ** (0.1e1 / 0.6e1)
t179 = t13 * t10
t181 = 0.1e1 / t146
t185 = t58 ** 2
t188 = 0.1e1 / (0.19711288999999999999e-2 * t135 * t177 * t21 * t179 * t181 - 0.2e1 * t185)
t191 = t135 * t6 * t138 * t175 * t188 * s0
t194 = math.sqrt(0.4e1)
t199 = t6 * t21
t205 = s0 * t165
t206 = (0.61912500000000000000e-2 * t58 * t194 * t179 * t181 - 0.79593333333333333331e-1 * t135 * t199 * t173) * t188 * t205
t209 = s0 ** 2
t210 = t113 ** 2
t212 = t209 / t210
t213 = t175 * t188 * t212
t217 = (t58 / (0.1e1 + 0.193e0 * t129) + 0.99491666666666666664e-2 * t191) / (0.1e1 + t206 / 0.8e1 - t213 / 0.64e2)
t220 = lax_cond(0.2e1 <= p_a_zeta_threshold, t35, 0.2e1 * t39)
t222 = lax_cond(0.0e0 <= p_a_zeta_threshold, t35, 0)
t224 = (t220 + t222 - 0.2e1) * t42
t235 = math.log(0.1e1 + 0.32164683177870697974e2 / (0.70594500000000000000e1 * t13 + 0.15494250000000000000e1 * t10 + 0.42077500000000000000e0 * t16 + 0.15629250000000000000e0 * t24))
t243 = -t32 + t224 * (-0.31090e-1 * (0.1e1 + 0.51370000000000000000e-1 * t10) * t235 + t32 - 0.19751789702565206229e-1 * t55) + 0.19751789702565206229e-1 * t224 * t55
t248 = 0.10e2 / 0.9e1 * t2 * t61 * t65 * t58 * t8
t251 = lax_cond(t248 < -0.66725e-1, 0, 0.66725e-1 + t248)
t256 = lax_cond(0.0e0 < t243, t243, -t243)
t263 = math.log(0.1e1 + 0.53972366148531951640e-1 * t251 * s0 * t115 * t119 * t5 / t256)
t279 = lax_cond(t33, p_a_zeta_threshold, 1)
t284 = t77 * t1 * t68
t287 = math.sqrt(t284)
t290 = t284 ** 0.15e1
t293 = t39 * t18 * t80
t299 = math.log(0.1e1 + 0.16081824322151104822e2 / (0.37978500000000000000e1 * t287 + 0.89690000000000000000e0 * t284 + 0.20477500000000000000e0 * t290 + 0.24647000000000000000e0 * t293))
t312 = math.log(0.1e1 + 0.29608574643216675549e2 / (0.51785000000000000000e1 * t287 + 0.90577500000000000000e0 * t284 + 0.11003250000000000000e0 * t290 + 0.24835500000000000000e0 * t293))
t320 = 0.10e2 / 0.9e1 * t77 * t2 * t61 * t65 * (-0.62182e-1 * (0.1e1 + 0.53425000000000000000e-1 * t284) * t299 + 0.19751789702565206229e-1 * t43 * (0.1e1 + 0.27812500000000000000e-1 * t284) * t312) * t8
t323 = lax_cond(t320 < -0.66725e-1, 0, 0.66725e-1 + t320)
t329 = lax_cond(0.0e0 < t104, t104, -t104)
t336 = math.log(0.1e1 + 0.53972366148531951642e-1 * t323 * s0 * t115 * t77 * t119 * t5 / t329)
t348 = 0.1e1 + t72 * (0.107924e1 + 0.39640000000000000000e-1 * t72 + 0.12382500000000000000e-1 * t69) / 0.2e1
t349 = t348 ** 2
t367 = -0.37560000000000000000e-1 * t140 + 0.26347500000000000000e-2 * t66 * t152 * t6 * t138 - 0.47550000000000000000e-3 * t78 * t157 * t5 * t160 + 0.25560000000000000000e-3 * t166 - 0.21605625000000000000e-5 * t66 * t168 * t6 * t115
t369 = 0.73596627000000000000e-2 * t140 / t349 - t104 * t367
t371 = t66 * t134
t375 = t72 * t69 / t348
t379 = t104 ** 2
t382 = 0.1e1 / (0.98556445000000000000e-3 * t371 * t177 * t21 * t375 - 0.2e1 * t379)
t385 = t66 * t134 * t6 * t138 * t369 * t382 * s0
t396 = (0.61912500000000000000e-2 * t104 * t194 * t375 - 0.39796666666666666667e-1 * t371 * t199 * t367) * t382 * t205
t399 = t369 * t382 * t212
t403 = (t104 / (0.1e1 + 0.193e0 * t336) + 0.49745833333333333334e-2 * t385) / (0.1e1 + t396 / 0.8e1 - t399 / 0.64e2)
t414 = math.log(0.1e1 + 0.32164683177870697974e2 / (0.70594500000000000000e1 * t72 + 0.15494250000000000000e1 * t69 + 0.42077500000000000000e0 * t75 + 0.15629250000000000000e0 * t81))
t422 = -t89 + t224 * (-0.31090e-1 * (0.1e1 + 0.51370000000000000000e-1 * t69) * t414 + t89 - 0.19751789702565206229e-1 * t101) + 0.19751789702565206229e-1 * t224 * t101
t425 = lax_cond(0.0e0 < t422, t422, -t422)
t432 = math.log(0.1e1 + 0.53972366148531951640e-1 * t117 * t119 * t5 / t425)
res = t217 + t43 * ((t243 / (0.1e1 + 0.193e0 * t263) + 0.69644166666666666665e-2 * t191) / (0.1e1 + 0.18750000000000000000e0 * t206 - 0.40468750000000000000e-1 * t213) - t217) - s0 * t139 / tau0 * t279 * (t403 + t224 * ((t422 / (0.1e1 + 0.193e0 * t432) + 0.34822083333333333334e-2 * t385) / (0.1e1 + 0.18750000000000000000e0 * t396 - 0.40468750000000000000e-1 * t399) - t403)) / 0.8e1
"

/- gen_repo/impl/prebuilt/pol/mgga_c_ltapw.py and gen_repo/impl/prebuilt/unpol/mgga_c_ltapw.py -/
formula mgga_c_ltapw pol "t1 = 3 ** (0.1e1 / 0.3e1)
t3 = (0.1e1 / math.pi) ** (0.1e1 / 0.3e1)
t5 = 4 ** (0.1e1 / 0.3e1)
t6 = t5 ** 2
t7 = r0 ** (0.1e1 / 0.3e1)
t8 = t7 ** 2
t12 = 6 ** (0.1e1 / 0.3e1)
t13 = math.pi ** 2
t14 = t13 ** (0.1e1 / 0.3e1)
t15 = t14 ** 2
t17 = t12 / t15
t20 = 0.3e1 / 0.5e1 * params_a_ltafrac
t21 = (0.5e1 / 0.9e1 * tau0 / t8 / r0 * t17) ** t20
t22 = r0 * t21
t23 = r1 ** (0.1e1 / 0.3e1)
t24 = t23 ** 2
t30 = (0.5e1 / 0.9e1 * tau1 / t24 / r1 * t17) ** t20
t31 = r1 * t30
t32 = t22 + t31
t33 = t32 ** (0.1e1 / 0.3e1)
t36 = t1 * t3 * t6 / t33
t39 = math.sqrt(t36)
t42 = t36 ** 0.15e1
t44 = t1 ** 2
t45 = t3 ** 2
t47 = t33 ** 2
t50 = t44 * t45 * t5 / t47
t56 = math.log(0.1e1 + 0.16081824322151104822e2 / (0.37978500000000000000e1 * t39 + 0.89690000000000000000e0 * t36 + 0.20477500000000000000e0 * t42 + 0.12323500000000000000e0 * t50))
t58 = 0.62182e-1 * (0.1e1 + 0.53425000000000000000e-1 * t36) * t56
t59 = t22 - t31
t60 = t59 ** 2
t61 = t60 ** 2
t62 = t32 ** 2
t63 = t62 ** 2
t67 = t59 / t32
t68 = 0.1e1 + t67
t70 = p_a_zeta_threshold ** (0.1e1 / 0.3e1)
t71 = t70 * p_a_zeta_threshold
t72 = t68 ** (0.1e1 / 0.3e1)
t74 = lax_cond(t68 <= p_a_zeta_threshold, t71, t72 * t68)
t75 = 0.1e1 - t67
t77 = t75 ** (0.1e1 / 0.3e1)
t79 = lax_cond(t75 <= p_a_zeta_threshold, t71, t77 * t75)
t81 = 2 ** (0.1e1 / 0.3e1)
t85 = (t74 + t79 - 0.2e1) / (0.2e1 * t81 - 0.2e1)
t96 = math.log(0.1e1 + 0.32164683177870697974e2 / (0.70594500000000000000e1 * t39 + 0.15494250000000000000e1 * t36 + 0.42077500000000000000e0 * t42 + 0.15629250000000000000e0 * t50))
t109 = math.log(0.1e1 + 0.29608574643216675549e2 / (0.51785000000000000000e1 * t39 + 0.90577500000000000000e0 * t36 + 0.11003250000000000000e0 * t42 + 0.12417750000000000000e0 * t50))
t110 = (0.1e1 + 0.27812500000000000000e-1 * t36) * t109
res = -t58 + t61 / t63 * t85 * (-0.31090e-1 * (0.1e1 + 0.51370000000000000000e-1 * t36) * t96 + t58 - 0.19751789702565206229e-1 * t110) + 0.19751789702565206229e-1 * t85 * t110
" unpol "t1 = 3 ** (0.1e1 / 0.3e1)
t3 = (0.1e1 / math.pi) ** (0.1e1 / 0.3e1)
t5 = 4 ** (0.1e1 / 0.3e1)
t6 = t5 ** 2
t7 = 2 ** (0.1e1 / 0.3e1)
t8 = t7 ** 2
t10 = r0 ** (0.1e1 / 0.3e1)
t11 = t10 ** 2
t14 = 6 ** (0.1e1 / 0.3e1)
t16 = math.pi ** 2
t17 = t16 ** (0.1e1 / 0.3e1)
t18 = t17 ** 2
t24 = (0.5e1 / 0.9e1 * tau0 * t8 / t11 / r0 * t14 / t18) ** (0.3e1 / 0.5e1 * params_a_ltafrac)
t26 = (r0 * t24) ** (0.1e1 / 0.3e1)
t29 = t1 * t3 * t6 / t26
t32 = math.sqrt(t29)
t35 = t29 ** 0.15e1
t37 = t1 ** 2
t38 = t3 ** 2
t40 = t26 ** 2
t43 = t37 * t38 * t5 / t40
t49 = math.log(0.1e1 + 0.16081824322151104822e2 / (0.37978500000000000000e1 * t32 + 0.89690000000000000000e0 * t29 + 0.20477500000000000000e0 * t35 + 0.12323500000000000000e0 * t43))
t53 = p_a_zeta_threshold ** (0.1e1 / 0.3e1)
t55 = lax_cond(0.1e1 <= p_a_zeta_threshold, t53 * p_a_zeta_threshold, 1)
t72 = math.log(0.1e1 + 0.29608574643216675549e2 / (0.51785000000000000000e1 * t32 + 0.90577500000000000000e0 * t29 + 0.11003250000000000000e0 * t35 + 0.12417750000000000000e0 * t43))
res = -0.62182e-1 * (0.1e1 + 0.53425000000000000000e-1 * t29) * t49 + 0.19751789702565206229e-1 * (0.2e1 * t55 - 0.2e1) / (0.2e1 * t7 - 0.2e1) * (0.1e1 + 0.27812500000000000000e-1 * t29) * t72
"

/- gen_repo/impl/prebuilt/pol/mgga_c_m05.py and gen_repo/impl/prebuilt/unpol/mgga_c_m05.py -/
formula mgga_c_m05 pol "t2 = r0 - r1
t3 = r0 + r1
t5 = t2 / t3
t6 = 0.1e1 + t5
t7 = t6 <= p_a_zeta_threshold
t8 = jnp.logical_or(r0 <= p_a_dens_threshold, t7)
t9 = lax_cond(t7, p_a_zeta_threshold, t6)
t10 = 3 ** (0.1e1 / 0.3e1)
t12 = (0.1e1 / math.pi) ** (0.1e1 / 0.3e1)
t13 = t10 * t12
t14 = 4 ** (0.1e1 / 0.3e1)
t15 = t14 ** 2
t16 = t13 * t15
t17 = t3 ** (0.1e1 / 0.3e1)
t18 = 0.1e1 / t17
t19 = 2 ** (0.1e1 / 0.3e1)
t20 = t18 * t19
t21 = p_a_zeta_threshold ** (0.1e1 / 0.3e1)
t22 = 0.1e1 / t21
t23 = t6 ** (0.1e1 / 0.3e1)
t25 = lax_cond(t7, t22, 0.1e1 / t23)
t27 = t16 * t20 * t25
t30 = math.sqrt(t27)
t33 = t27 ** 0.15e1
t35 = t10 ** 2
t36 = t12 ** 2
t37 = t35 * t36
t38 = t37 * t14
t39 = t17 ** 2
t40 = 0.1e1 / t39
t41 = t19 ** 2
t42 = t40 * t41
t43 = t25 ** 2
t45 = t38 * t42 * t43
t51 = math.log(0.1e1 + 0.16081979498692535067e2 / (0.37978500000000000000e1 * t30 + 0.89690000000000000000e0 * t27 + 0.20477500000000000000e0 * t33 + 0.12323500000000000000e0 * t45))
t53 = 0.621814e-1 * (0.1e1 + 0.53425000000000000000e-1 * t27) * t51
t55 = t21 * p_a_zeta_threshold
t57 = lax_cond(0.2e1 <= p_a_zeta_threshold, t55, 0.2e1 * t19)
t59 = lax_cond(0.0e0 <= p_a_zeta_threshold, t55, 0)
t63 = 0.1e1 / (0.2e1 * t19 - 0.2e1)
t64 = (t57 + t59 - 0.2e1) * t63
t75 = math.log(0.1e1 + 0.32163958997385070134e2 / (0.70594500000000000000e1 * t30 + 0.15494250000000000000e1 * t27 + 0.42077500000000000000e0 * t33 + 0.15629250000000000000e0 * t45))
t88 = math.log(0.1e1 + 0.29608749977793437516e2 / (0.51785000000000000000e1 * t30 + 0.90577500000000000000e0 * t27 + 0.11003250000000000000e0 * t33 + 0.12417750000000000000e0 * t45))
t89 = (0.1e1 + 0.27812500000000000000e-1 * t27) * t88
t98 = lax_cond(t8, 0, t9 * (-t53 + t64 * (-0.3109070e-1 * (0.1e1 + 0.51370000000000000000e-1 * t27) * t75 + t53 - 0.19751673498613801407e-1 * t89) + 0.19751673498613801407e-1 * t64 * t89) / 0.2e1)
t99 = params_a_css[0]
t101 = params_a_css[1] * params_a_gamma_ss
t102 = r0 ** 2
t103 = r0 ** (0.1e1 / 0.3e1)
t104 = t103 ** 2
t106 = 0.1e1 / t104 / t102
t107 = s0 * t106
t110 = params_a_gamma_ss * s0 * t106 + 0.1e1
t115 = params_a_gamma_ss ** 2
t116 = params_a_css[2] * t115
t117 = s0 ** 2
t118 = t102 ** 2
t123 = t110 ** 2
t129 = params_a_css[3] * t115 * params_a_gamma_ss
t131 = t118 ** 2
t139 = t115 ** 2
t140 = params_a_css[4] * t139
t141 = t117 ** 2
t146 = t123 ** 2
t158 = tau0 ** 2
t163 = params_a_Fermi_D_cnst ** 2
t164 = 0.1e1 / t163
t167 = math.exp(-0.4e1 * t158 / t103 / t102 / r0 * t164)
t172 = 0.1e1 - t5
t173 = t172 <= p_a_zeta_threshold
t174 = jnp.logical_or(r1 <= p_a_dens_threshold, t173)
t175 = lax_cond(t173, p_a_zeta_threshold, t172)
t176 = t172 ** (0.1e1 / 0.3e1)
t178 = lax_cond(t173, t22, 0.1e1 / t176)
t180 = t16 * t20 * t178
t183 = math.sqrt(t180)
t186 = t180 ** 0.15e1
t188 = t178 ** 2
t190 = t38 * t42 * t188
t196 = math.log(0.1e1 + 0.16081979498692535067e2 / (0.37978500000000000000e1 * t183 + 0.89690000000000000000e0 * t180 + 0.20477500000000000000e0 * t186 + 0.12323500000000000000e0 * t190))
t198 = 0.621814e-1 * (0.1e1 + 0.53425000000000000000e-1 * t180) * t196
t209 = math.log(0.1e1 + 0.32163958997385070134e2 / (0.70594500000000000000e1 * t183 + 0.15494250000000000000e1 * t180 + 0.42077500000000000000e0 * t186 + 0.15629250000000000000e0 * t190))
t222 = math.log(0.1e1 + 0.29608749977793437516e2 / (0.51785000000000000000e1 * t183 + 0.90577500000000000000e0 * t180 + 0.11003250000000000000e0 * t186 + 0.12417750000000000000e0 * t190))
t223 = (0.1e1 + 0.27812500000000000000e-1 * t180) * t222
t232 = lax_cond(t174, 0, t175 * (-t198 + t64 * (-0.3109070e-1 * (0.1e1 + 0.51370000000000000000e-1 * t180) * t209 + t198 - 0.19751673498613801407e-1 * t223) + 0.19751673498613801407e-1 * t64 * t223) / 0.2e1)
t233 = r1 ** 2
t234 = r1 ** (0.1e1 / 0.3e1)
t235 = t234 ** 2
t237 = 0.1e1 / t235 / t233
t238 = s2 * t237
t241 = params_a_gamma_ss * s2 * t237 + 0.1e1
t245 = s2 ** 2
t246 = t233 ** 2
t251 = t241 ** 2
t256 = t246 ** 2
t263 = t245 ** 2
t268 = t251 ** 2
t280 = tau1 ** 2
t287 = math.exp(-0.4e1 * t280 / t234 / t233 / r1 * t164)
t292 = t13 * t15 * t18
t295 = math.sqrt(t292)
t298 = t292 ** 0.15e1
t301 = t37 * t14 * t40
t307 = math.log(0.1e1 + 0.16081979498692535067e2 / (0.37978500000000000000e1 * t295 + 0.89690000000000000000e0 * t292 + 0.20477500000000000000e0 * t298 + 0.12323500000000000000e0 * t301))
t309 = 0.621814e-1 * (0.1e1 + 0.53425000000000000000e-1 * t292) * t307
t310 = t2 ** 2
t311 = t310 ** 2
t312 = t3 ** 2
t313 = t312 ** 2
t317 = lax_cond(t7, t55, t23 * t6)
t319 = lax_cond(t173, t55, t176 * t172)
t321 = (t317 + t319 - 0.2e1) * t63
t332 = math.log(0.1e1 + 0.32163958997385070134e2 / (0.70594500000000000000e1 * t295 + 0.15494250000000000000e1 * t292 + 0.42077500000000000000e0 * t298 + 0.15629250000000000000e0 * t301))
t345 = math.log(0.1e1 + 0.29608749977793437516e2 / (0.51785000000000000000e1 * t295 + 0.90577500000000000000e0 * t292 + 0.11003250000000000000e0 * t298 + 0.12417750000000000000e0 * t301))
t346 = (0.1e1 + 0.27812500000000000000e-1 * t292) * t345
t357 = t107 + t238
t359 = params_a_gamma_ab * t357 + 0.1e1
t364 = params_a_gamma_ab ** 2
t366 = t357 ** 2
t367 = t359 ** 2
t380 = t364 ** 2
t382 = t366 ** 2
t383 = t367 ** 2
res = t98 * (t99 + t101 * t107 / t110 + t116 * t117 / t103 / t118 / r0 / t123 + t129 * t117 * s0 / t131 / t123 / t110 + t140 * t141 / t104 / t131 / t102 / t146) * (0.1e1 - s0 / r0 / tau0 / 0.8e1) * (0.1e1 - t167) + t232 * (t99 + t101 * t238 / t241 + t116 * t245 / t234 / t246 / r1 / t251 + t129 * t245 * s2 / t256 / t251 / t241 + t140 * t263 / t235 / t256 / t233 / t268) * (0.1e1 - s2 / r1 / tau1 / 0.8e1) * (0.1e1 - t287) + (-t309 + t311 / t313 * t321 * (-0.3109070e-1 * (0.1e1 + 0.51370000000000000000e-1 * t292) * t332 + t309 - 0.19751673498613801407e-1 * t346) + 0.19751673498613801407e-1 * t321 * t346 - t98 - t232) * (params_a_cab[0] + params_a_cab[1] * params_a_gamma_ab * t357 / t359 + params_a_cab[2] * t364 * t366 / t367 + params_a_cab[3] * t364 * params_a_gamma_ab * t366 * t357 / t367 / t359 + params_a_cab[4] * t380 * t382 / t383)
" unpol "t3 = 0.1e1 <= p_a_zeta_threshold
t4 = jnp.logical_or(r0 / 0.2e1 <= p_a_dens_threshold, t3)
t5 = lax_cond(t3, p_a_zeta_threshold, 1)
t6 = 3 ** (0.1e1 / 0.3e1)
t8 = (0.1e1 / math.pi) ** (0.1e1 / 0.3e1)
t9 = t6 * t8
t10 = 4 ** (0.1e1 / 0.3e1)
t11 = t10 ** 2
t13 = r0 ** (0.1e1 / 0.3e1)
t14 = 0.1e1 / t13
t15 = 2 ** (0.1e1 / 0.3e1)
t17 = p_a_zeta_threshold ** (0.1e1 / 0.3e1)
t19 = lax_cond(t3, 0.1e1 / t17, 1)
t21 = t9 * t11 * t14 * t15 * t19
t24 = math.sqrt(t21)
t27 = t21 ** 0.15e1
t29 = t6 ** 2
t30 = t8 ** 2
t31 = t29 * t30
t33 = t13 ** 2
t34 = 0.1e1 / t33
t35 = t15 ** 2
t37 = t19 ** 2
t39 = t31 * t10 * t34 * t35 * t37
t45 = math.log(0.1e1 + 0.16081979498692535067e2 / (0.37978500000000000000e1 * t24 + 0.89690000000000000000e0 * t21 + 0.20477500000000000000e0 * t27 + 0.12323500000000000000e0 * t39))
t47 = 0.621814e-1 * (0.1e1 + 0.53425000000000000000e-1 * t21) * t45
t49 = t17 * p_a_zeta_threshold
t51 = lax_cond(0.2e1 <= p_a_zeta_threshold, t49, 0.2e1 * t15)
t53 = lax_cond(0.0e0 <= p_a_zeta_threshold, t49, 0)
t57 = 0.1e1 / (0.2e1 * t15 - 0.2e1)
t58 = (t51 + t53 - 0.2e1) * t57
t69 = math.log(0.1e1 + 0.32163958997385070134e2 / (0.70594500000000000000e1 * t24 + 0.15494250000000000000e1 * t21 + 0.42077500000000000000e0 * t27 + 0.15629250000000000000e0 * t39))
t82 = math.log(0.1e1 + 0.29608749977793437516e2 / (0.51785000000000000000e1 * t24 + 0.90577500000000000000e0 * t21 + 0.11003250000000000000e0 * t27 + 0.12417750000000000000e0 * t39))
t83 = (0.1e1 + 0.27812500000000000000e-1 * t21) * t82
t92 = lax_cond(t4, 0, t5 * (-t47 + t58 * (-0.3109070e-1 * (0.1e1 + 0.51370000000000000000e-1 * t21) * t69 + t47 - 0.19751673498613801407e-1 * t83) + 0.19751673498613801407e-1 * t58 * t83) / 0.2e1)
t97 = r0 ** 2
t100 = t35 / t33 / t97
t103 = params_a_gamma_ss * s0 * t100 + 0.1e1
t108 = params_a_gamma_ss ** 2
t110 = s0 ** 2
t112 = t97 ** 2
t116 = t15 / t13 / t112 / r0
t117 = t103 ** 2
t126 = t112 ** 2
t128 = t110 * s0 / t126
t135 = t108 ** 2
t137 = t110 ** 2
t142 = t35 / t33 / t126 / t97
t143 = t117 ** 2
t156 = tau0 ** 2
t161 = params_a_Fermi_D_cnst ** 2
t166 = math.exp(-0.8e1 * t156 * t15 / t13 / t97 / r0 / t161)
t172 = t9 * t11 * t14
t175 = math.sqrt(t172)
t178 = t172 ** 0.15e1
t181 = t31 * t10 * t34
t187 = math.log(0.1e1 + 0.16081979498692535067e2 / (0.37978500000000000000e1 * t175 + 0.89690000000000000000e0 * t172 + 0.20477500000000000000e0 * t178 + 0.12323500000000000000e0 * t181))
t190 = lax_cond(t3, t49, 1)
t204 = math.log(0.1e1 + 0.29608749977793437516e2 / (0.51785000000000000000e1 * t175 + 0.90577500000000000000e0 * t172 + 0.11003250000000000000e0 * t178 + 0.12417750000000000000e0 * t181))
t217 = 0.2e1 * params_a_gamma_ab * s0 * t100 + 0.1e1
t223 = params_a_gamma_ab ** 2
t226 = t217 ** 2
t240 = t223 ** 2
t243 = t226 ** 2
res = 0.2e1 * t92 * (params_a_css[0] + params_a_css[1] * params_a_gamma_ss * s0 * t100 / t103 + 0.2e1 * params_a_css[2] * t108 * t110 * t116 / t117 + 0.4e1 * params_a_css[3] * t108 * params_a_gamma_ss * t128 / t117 / t103 + 0.4e1 * params_a_css[4] * t135 * t137 * t142 / t143) * (0.1e1 - s0 / r0 / tau0 / 0.8e1) * (0.1e1 - t166) + (-0.621814e-1 * (0.1e1 + 0.53425000000000000000e-1 * t172) * t187 + 0.19751673498613801407e-1 * (0.2e1 * t190 - 0.2e1) * t57 * (0.1e1 + 0.27812500000000000000e-1 * t172) * t204 - 0.2e1 * t92) * (params_a_cab[0] + 0.2e1 * params_a_cab[1] * params_a_gamma_ab * s0 * t100 / t217 + 0.8e1 * params_a_cab[2] * t223 * t110 * t116 / t226 + 0.32e2 * params_a_cab[3] * t223 * params_a_gamma_ab * t128 / t226 / t217 + 0.64e2 * params_a_cab[4] * t240 * t137 * t142 / t243)
"

/- gen_repo/impl/prebuilt/pol/mgga_c_m06l.py and gen_repo/impl/prebuilt/unpol/mgga_c_m06l.py -/
formula mgga_c_m06l pol "t2 = r0 - r1
t3 = r0 + r1
t5 = t2 / t3
t6 = 0.1e1 + t5
t7 = t6 <= p_a_zeta_threshold
t8 = jnp.logical_or(r0 <= p_a_dens_threshold, t7)
t9 = lax_cond(t7, p_a_zeta_threshold, t6)
t10 = 3 ** (0.1e1 / 0.3e1)
t12 = (0.1e1 / math.pi) ** (0.1e1 / 0.3e1)
t13 = t10 * t12
t14 = 4 ** (0.1e1 / 0.3e1)
t15 = t14 ** 2
t16 = t13 * t15
t17 = t3 ** (0.1e1 / 0.3e1)
t18 = 0.1e1 / t17
t19 = 2 ** (0.1e1 / 0.3e1)
t20 = t18 * t19
t21 = p_a_zeta_threshold ** (0.1e1 / 0.3e1)
t22 = 0.1e1 / t21
t23 = t6 ** (0.1e1 / 0.3e1)
t25 = lax_cond(t7, t22, 0.1e1 / t23)
t27 = t16 * t20 * t25
t30 = math.sqrt(t27)
t33 = t27 ** 0.15e1
t35 = t10 ** 2
t36 = t12 ** 2
t37 = t35 * t36
t38 = t37 * t14
t39 = t17 ** 2
t40 = 0.1e1 / t39
t41 = t19 ** 2
t42 = t40 * t41
t43 = t25 ** 2
t45 = t38 * t42 * t43
t51 = math.log(0.1e1 + 0.16081979498692535067e2 / (0.37978500000000000000e1 * t30 + 0.89690000000000000000e0 * t27 + 0.20477500000000000000e0 * t33 + 0.12323500000000000000e0 * t45))
t53 = 0.621814e-1 * (0.1e1 + 0.53425000000000000000e-1 * t27) * t51
t55 = t21 * p_a_zeta_threshold
t57 = lax_cond(0.2e1 <= p_a_zeta_threshold, t55, 0.2e1 * t19)
t59 = lax_cond(0.0e0 <= p_a_zeta_threshold, t55, 0)
t63 = 0.1e1 / (0.2e1 * t19 - 0.2e1)
t64 = (t57 + t59 - 0.2e1) * t63
t75 = math.log(0.1e1 + 0.32163958997385070134e2 / (0.70594500000000000000e1 * t30 + 0.15494250000000000000e1 * t27 + 0.42077500000000000000e0 * t33 + 0.15629250000000000000e0 * t45))
t88 = math.log(0.1e1 + 0.29608749977793437516e2 / (0.51785000000000000000e1 * t30 + 0.90577500000000000000e0 * t27 + 0.11003250000000000000e0 * t33 + 0.12417750000000000000e0 * t45))
t89 = (0.1e1 + 0.27812500000000000000e-1 * t27) * t88
t98 = lax_cond(t8, 0, t9 * (-t53 + t64 * (-0.3109070e-1 * (0.1e1 + 0.51370000000000000000e-1 * t27) * t75 + t53 - 0.19751673498613801407e-1 * t89) + 0.19751673498613801407e-1 * t64 * t89) / 0.2e1)
t99 = params_a_css[0]
t101 = params_a_css[1] * params_a_gamma_ss
t102 = r0 ** 2
t103 = r0 ** (0.1e1 / 0.3e1)
t104 = t103 ** 2
t106 = 0.1e1 / t104 / t102
t107 = s0 * t106
t110 = params_a_gamma_ss * s0 * t106 + 0.1e1
t115 = params_a_gamma_ss ** 2
t116 = params_a_css[2] * t115
t117 = s0 ** 2
t118 = t102 ** 2
t121 = 0.1e1 / t103 / t118 / r0
t123 = t110 ** 2
t129 = params_a_css[3] * t115 * params_a_gamma_ss
t131 = t118 ** 2
t139 = t115 ** 2
t140 = params_a_css[4] * t139
t141 = t117 ** 2
t146 = t123 ** 2
t157 = 0.1e1 - s0 / r0 / tau0 / 0.8e1
t158 = tau0 ** 2
t163 = params_a_Fermi_D_cnst ** 2
t164 = 0.1e1 / t163
t167 = math.exp(-0.4e1 * t158 / t103 / t102 / r0 * t164)
t172 = 0.1e1 - t5
t173 = t172 <= p_a_zeta_threshold
t174 = jnp.logical_or(r1 <= p_a_dens_threshold, t173)
t175 = lax_cond(t173, p_a_zeta_threshold, t172)
t176 = t172 ** (0.1e1 / 0.3e1)
t178 = lax_cond(t173, t22, 0.1e1 / t176)
t180 = t16 * t20 * t178
t183 = math.sqrt(t180)
t186 = t180 ** 0.15e1
t188 = t178 ** 2
t190 = t38 * t42 * t188
t196 = math.log(0.1e1 + 0.16081979498692535067e2 / (0.37978500000000000000e1 * t183 + 0.89690000000000000000e0 * t180 + 0.20477500000000000000e0 * t186 + 0.12323500000000000000e0 * t190))
t198 = 0.621814e-1 * (0.1e1 + 0.53425000000000000000e-1 * t180) * t196
t209 = math.log(0.1e1 + 0.32163958997385070134e2 / (0.70594500000000000000e1 * t183 + 0.15494250000000000000e1 * t180 + 0.42077500000000000000e0 * t186 + 0.15629250000000000000e0 * t190))
t222 = math.log(0.1e1 + 0.29608749977793437516e2 / (0.51785000000000000000e1 * t183 + 0.90577500000000000000e0 * t180 + 0.11003250000000000000e0 * t186 + 0.12417750000000000000e0 * t190))
t223 = (0.1e1 + 0.27812500000000000000e-1 * t180) * t222
t232 = lax_cond(t174, 0, t175 * (-t198 + t64 * (-0.3109070e-1 * (0.1e1 + 0.51370000000000000000e-1 * t180) * t209 + t198 - 0.19751673498613801407e-1 * t223) + 0.19751673498613801407e-1 * t64 * t223) / 0.2e1)
t233 = r1 ** 2
t234 = r1 ** (0.1e1 / 0.3e1)
t235 = t234 ** 2
t237 = 0.1e1 / t235 / t233
t238 = s2 * t237
t241 = params_a_gamma_ss * s2 * t237 + 0.1e1
t245 = s2 ** 2
t246 = t233 ** 2
t249 = 0.1e1 / t234 / t246 / r1
t251 = t241 ** 2
t256 = t246 ** 2
t263 = t245 ** 2
t268 = t251 ** 2
t279 = 0.1e1 - s2 / r1 / tau1 / 0.8e1
t280 = tau1 ** 2
t287 = math.exp(-0.4e1 * t280 / t234 / t233 / r1 * t164)
t292 = t13 * t15 * t18
t295 = math.sqrt(t292)
t298 = t292 ** 0.15e1
t301 = t37 * t14 * t40
t307 = math.log(0.1e1 + 0.16081979498692535067e2 / (0.37978500000000000000e1 * t295 + 0.89690000000000000000e0 * t292 + 0.20477500000000000000e0 * t298 + 0.12323500000000000000e0 * t301))
t309 = 0.621814e-1 * (0.1e1 + 0.53425000000000000000e-1 * t292) * t307
t310 = t2 ** 2
t311 = t310 ** 2
t312 = t3 ** 2
t313 = t312 ** 2
t317 = lax_cond(t7, t55, t23 * t6)
t319 = lax_cond(t173, t55, t176 * t172)
t321 = (t317 + t319 - 0.2e1) * t63
t332 = math.log(0.1e1 + 0.32163958997385070134e2 / (0.70594500000000000000e1 * t295 + 0.15494250000000000000e1 * t292 + 0.42077500000000000000e0 * t298 + 0.15629250000000000000e0 * t301))
t345 = math.log(0.1e1 + 0.29608749977793437516e2 / (0.51785000000000000000e1 * t295 + 0.90577500000000000000e0 * t292 + 0.11003250000000000000e0 * t298 + 0.12417750000000000000e0 * t301))
t346 = (0.1e1 + 0.27812500000000000000e-1 * t292) * t345
t353 = -t309 + t311 / t313 * t321 * (-0.3109070e-1 * (0.1e1 + 0.51370000000000000000e-1 * t292) * t332 + t309 - 0.19751673498613801407e-1 * t346) + 0.19751673498613801407e-1 * t321 * t346 - t98 - t232
t357 = t107 + t238
t359 = params_a_gamma_ab * t357 + 0.1e1
t364 = params_a_gamma_ab ** 2
t366 = t357 ** 2
t367 = t359 ** 2
t380 = t364 ** 2
t382 = t366 ** 2
t383 = t367 ** 2
t389 = params_a_dss[0]
t393 = 0.2e1 * tau0 / t104 / r0
t394 = 6 ** (0.1e1 / 0.3e1)
t395 = t394 ** 2
t396 = math.pi ** 2
t397 = t396 ** (0.1e1 / 0.3e1)
t398 = t397 ** 2
t399 = t395 * t398
t400 = 0.3e1 / 0.5e1 * t399
t403 = 0.1e1 + params_a_alpha_ss * (t107 + t393 - t400)
t406 = params_a_dss[1]
t409 = params_a_dss[2]
t410 = t393 - t400
t413 = t403 ** 2
t416 = params_a_dss[3]
t419 = params_a_dss[4]
t423 = params_a_dss[5]
t424 = t410 ** 2
t436 = 0.2e1 * tau1 / t235 / r1
t439 = 0.1e1 + params_a_alpha_ss * (t238 + t436 - t400)
t444 = t436 - t400
t447 = t439 ** 2
t455 = t444 ** 2
t465 = 0.6e1 / 0.5e1 * t399
t468 = 0.1e1 + params_a_alpha_ab * (t107 + t238 + t393 + t436 - t465)
t474 = t393 + t436 - t465
t477 = t468 ** 2
t486 = t474 ** 2
res = t98 * (t99 + t101 * t107 / t110 + t116 * t117 * t121 / t123 + t129 * t117 * s0 / t131 / t123 / t110 + t140 * t141 / t104 / t131 / t102 / t146) * t157 * (0.1e1 - t167) + t232 * (t99 + t101 * t238 / t241 + t116 * t245 * t249 / t251 + t129 * t245 * s2 / t256 / t251 / t241 + t140 * t263 / t235 / t256 / t233 / t268) * t279 * (0.1e1 - t287) + t353 * (params_a_cab[0] + params_a_cab[1] * params_a_gamma_ab * t357 / t359 + params_a_cab[2] * t364 * t366 / t367 + params_a_cab[3] * t364 * params_a_gamma_ab * t366 * t357 / t367 / t359 + params_a_cab[4] * t380 * t382 / t383) + t98 * (t389 / t403 + (t406 * s0 * t106 + t409 * t410) / t413 + (t419 * s0 * t106 * t410 + t416 * t117 * t121 + t423 * t424) / t413 / t403) * t157 + t232 * (t389 / t439 + (t406 * s2 * t237 + t409 * t444) / t447 + (t419 * s2 * t237 * t444 + t416 * t245 * t249 + t423 * t455) / t447 / t439) * t279 + t353 * (params_a_dab[0] / t468 + (params_a_dab[1] * t357 + params_a_dab[2] * t474) / t477 + (params_a_dab[4] * t357 * t474 + params_a_dab[3] * t366 + params_a_dab[5] * t486) / t477 / t468)
" unpol "t3 = 0.1e1 <= p_a_zeta_threshold
t4 = jnp.logical_or(r0 / 0.2e1 <= p_a_dens_threshold, t3)
t5 = lax_cond(t3, p_a_zeta_threshold, 1)
t6 = 3 ** (0.1e1 / 0.3e1)
t8 = (0.1e1 / math.pi) ** (0.1e1 / 0.3e1)
t9 = t6 * t8
t10 = 4 ** (0.1e1 / 0.3e1)
t11 = t10 ** 2
t13 = r0 ** (0.1e1 / 0.3e1)
t14 = 0.1e1 / t13
t15 = 2 ** (0.1e1 / 0.3e1)
t17 = p_a_zeta_threshold ** (0.1e1 / 0.3e1)
t19 = lax_cond(t3, 0.1e1 / t17, 1)
t21 = t9 * t11 * t14 * t15 * t19
t24 = math.sqrt(t21)
t27 = t21 ** 0.15e1
t29 = t6 ** 2
t30 = t8 ** 2
t31 = t29 * t30
t33 = t13 ** 2
t34 = 0.1e1 / t33
t35 = t15 ** 2
t37 = t19 ** 2
t39 = t31 * t10 * t34 * t35 * t37
t45 = math.log(0.1e1 + 0.16081979498692535067e2 / (0.37978500000000000000e1 * t24 + 0.89690000000000000000e0 * t21 + 0.20477500000000000000e0 * t27 + 0.12323500000000000000e0 * t39))
t47 = 0.621814e-1 * (0.1e1 + 0.53425000000000000000e-1 * t21) * t45
t49 = t17 * p_a_zeta_threshold
t51 = lax_cond(0.2e1 <= p_a_zeta_threshold, t49, 0.2e1 * t15)
t53 = lax_cond(0.0e0 <= p_a_zeta_threshold, t49, 0)
t57 = 0.1e1 / (0.2e1 * t15 - 0.2e1)
t58 = (t51 + t53 - 0.2e1) * t57
t69 = math.log(0.1e1 + 0.32163958997385070134e2 / (0.70594500000000000000e1 * t24 + 0.15494250000000000000e1 * t21 + 0.42077500000000000000e0 * t27 + 0.15629250000000000000e0 * t39))
t82 = math.log(0.1e1 + 0.29608749977793437516e2 / (0.51785000000000000000e1 * t24 + 0.90577500000000000000e0 * t21 + 0.11003250000000000000e0 * t27 + 0.12417750000000000000e0 * t39))
t83 = (0.1e1 + 0.27812500000000000000e-1 * t21) * t82
t92 = lax_cond(t4, 0, t5 * (-t47 + t58 * (-0.3109070e-1 * (0.1e1 + 0.51370000000000000000e-1 * t21) * t69 + t47 - 0.19751673498613801407e-1 * t83) + 0.19751673498613801407e-1 * t58 * t83) / 0.2e1)
t97 = r0 ** 2
t99 = 0.1e1 / t33 / t97
t100 = t35 * t99
t103 = params_a_gamma_ss * s0 * t100 + 0.1e1
t108 = params_a_gamma_ss ** 2
t110 = s0 ** 2
t112 = t97 ** 2
t116 = t15 / t13 / t112 / r0
t117 = t103 ** 2
t126 = t112 ** 2
t128 = t110 * s0 / t126
t135 = t108 ** 2
t137 = t110 ** 2
t142 = t35 / t33 / t126 / t97
t143 = t117 ** 2
t155 = 0.1e1 - s0 / r0 / tau0 / 0.8e1
t156 = tau0 ** 2
t161 = params_a_Fermi_D_cnst ** 2
t166 = math.exp(-0.8e1 * t156 * t15 / t13 / t97 / r0 / t161)
t172 = t9 * t11 * t14
t175 = math.sqrt(t172)
t178 = t172 ** 0.15e1
t181 = t31 * t10 * t34
t187 = math.log(0.1e1 + 0.16081979498692535067e2 / (0.37978500000000000000e1 * t175 + 0.89690000000000000000e0 * t172 + 0.20477500000000000000e0 * t178 + 0.12323500000000000000e0 * t181))
t190 = lax_cond(t3, t49, 1)
t204 = math.log(0.1e1 + 0.29608749977793437516e2 / (0.51785000000000000000e1 * t175 + 0.90577500000000000000e0 * t172 + 0.11003250000000000000e0 * t178 + 0.12417750000000000000e0 * t181))
t209 = -0.621814e-1 * (0.1e1 + 0.53425000000000000000e-1 * t172) * t187 + 0.19751673498613801407e-1 * (0.2e1 * t190 - 0.2e1) * t57 * (0.1e1 + 0.27812500000000000000e-1 * t172) * t204 - 0.2e1 * t92
t217 = 0.2e1 * params_a_gamma_ab * s0 * t100 + 0.1e1
t223 = params_a_gamma_ab ** 2
t226 = t217 ** 2
t240 = t223 ** 2
t243 = t226 ** 2
t252 = s0 * t35 * t99
t256 = tau0 * t35 / t33 / r0
t257 = 0.2e1 * t256
t258 = 6 ** (0.1e1 / 0.3e1)
t259 = t258 ** 2
t260 = math.pi ** 2
t261 = t260 ** (0.1e1 / 0.3e1)
t262 = t261 ** 2
t263 = t259 * t262
t264 = 0.3e1 / 0.5e1 * t263
t267 = 0.1e1 + params_a_alpha_ss * (t252 + t257 - t264)
t274 = t257 - t264
t277 = t267 ** 2
t289 = t274 ** 2
t301 = 0.4e1 * t256
t302 = 0.6e1 / 0.5e1 * t263
t305 = 0.1e1 + params_a_alpha_ab * (0.2e1 * t252 + t301 - t302)
t313 = t301 - t302
t316 = t305 ** 2
t329 = t313 ** 2
res = 0.2e1 * t92 * (params_a_css[0] + params_a_css[1] * params_a_gamma_ss * s0 * t100 / t103 + 0.2e1 * params_a_css[2] * t108 * t110 * t116 / t117 + 0.4e1 * params_a_css[3] * t108 * params_a_gamma_ss * t128 / t117 / t103 + 0.4e1 * params_a_css[4] * t135 * t137 * t142 / t143) * t155 * (0.1e1 - t166) + t209 * (params_a_cab[0] + 0.2e1 * params_a_cab[1] * params_a_gamma_ab * s0 * t100 / t217 + 0.8e1 * params_a_cab[2] * t223 * t110 * t116 / t226 + 0.32e2 * params_a_cab[3] * t223 * params_a_gamma_ab * t128 / t226 / t217 + 0.64e2 * params_a_cab[4] * t240 * t137 * t142 / t243) + 0.2e1 * t92 * (params_a_dss[0] / t267 + (params_a_dss[1] * s0 * t100 + params_a_dss[2] * t274) / t277 + (params_a_dss[4] * s0 * t100 * t274 + 0.2e1 * params_a_dss[3] * t110 * t116 + params_a_dss[5] * t289) / t277 / t267) * t155 + t209 * (params_a_dab[0] / t305 + (0.2e1 * params_a_dab[1] * s0 * t100 + params_a_dab[2] * t313) / t316 + (0.2e1 * params_a_dab[4] * s0 * t100 * t313 + 0.8e1 * params_a_dab[3] * t110 * t116 + params_a_dab[5] * t329) / t316 / t305)
"

/- gen_repo/impl/prebuilt/pol/mgga_c_m08.py and gen_repo/impl/prebuilt/unpol/mgga_c_m08.py -/
formula mgga_c_m08 pol "t3 = 6 ** (0.1e1 / 0.3e1)
t4 = t3 ** 2
t5 = math.pi ** 2
t6 = t5 ** (0.1e1 / 0.3e1)
t7 = t6 ** 2
t9 = 0.3e1 / 0.10e2 * t4 * t7
t10 = 2 ** (0.1e1 / 0.3e1)
t11 = t10 ** 2
t12 = r0 ** (0.1e1 / 0.3e1)
t13 = t12 ** 2
t17 = r0 - r1
t18 = r0 + r1
t20 = t17 / t18
t21 = 0.1e1 + t20
t22 = t21 / 0.2e1
t23 = t22 ** (0.1e1 / 0.3e1)
t24 = t23 ** 2
t27 = r1 ** (0.1e1 / 0.3e1)
t28 = t27 ** 2
t32 = 0.1e1 - t20
t33 = t32 / 0.2e1
t34 = t33 ** (0.1e1 / 0.3e1)
t35 = t34 ** 2
t39 = t11 * (tau0 / t13 / r0 * t24 * t22 + tau1 / t28 / r1 * t35 * t33)
t40 = t9 - t39
t42 = t9 + t39
t43 = 0.1e1 / t42
t46 = t40 ** 2
t48 = t42 ** 2
t49 = 0.1e1 / t48
t52 = t46 * t40
t54 = t48 * t42
t55 = 0.1e1 / t54
t58 = t46 ** 2
t60 = t48 ** 2
t61 = 0.1e1 / t60
t64 = t58 * t40
t67 = 0.1e1 / t60 / t42
t70 = t58 * t46
t73 = 0.1e1 / t60 / t48
t76 = t58 * t52
t79 = 0.1e1 / t60 / t54
t82 = t58 ** 2
t84 = t60 ** 2
t85 = 0.1e1 / t84
t88 = t82 * t40
t91 = 0.1e1 / t84 / t42
t94 = t82 * t46
t97 = 0.1e1 / t84 / t48
t100 = t82 * t52
t103 = 0.1e1 / t84 / t54
t105 = params_a_m08_a[0] + params_a_m08_a[1] * t40 * t43 + params_a_m08_a[2] * t46 * t49 + params_a_m08_a[3] * t52 * t55 + params_a_m08_a[4] * t58 * t61 + params_a_m08_a[5] * t64 * t67 + params_a_m08_a[6] * t70 * t73 + params_a_m08_a[7] * t76 * t79 + params_a_m08_a[8] * t82 * t85 + params_a_m08_a[9] * t88 * t91 + params_a_m08_a[10] * t94 * t97 + params_a_m08_a[11] * t100 * t103
t106 = 3 ** (0.1e1 / 0.3e1)
t108 = (0.1e1 / math.pi) ** (0.1e1 / 0.3e1)
t110 = 4 ** (0.1e1 / 0.3e1)
t111 = t110 ** 2
t112 = t18 ** (0.1e1 / 0.3e1)
t115 = t106 * t108 * t111 / t112
t118 = math.sqrt(t115)
t121 = t115 ** 0.15e1
t123 = t106 ** 2
t124 = t108 ** 2
t126 = t112 ** 2
t129 = t123 * t124 * t110 / t126
t135 = math.log(0.1e1 + 0.16081979498692535067e2 / (0.37978500000000000000e1 * t118 + 0.89690000000000000000e0 * t115 + 0.20477500000000000000e0 * t121 + 0.12323500000000000000e0 * t129))
t137 = 0.621814e-1 * (0.1e1 + 0.53425000000000000000e-1 * t115) * t135
t138 = t17 ** 2
t139 = t138 ** 2
t140 = t18 ** 2
t141 = t140 ** 2
t144 = t21 <= p_a_zeta_threshold
t145 = p_a_zeta_threshold ** (0.1e1 / 0.3e1)
t146 = t145 * p_a_zeta_threshold
t147 = t21 ** (0.1e1 / 0.3e1)
t149 = lax_cond(t144, t146, t147 * t21)
t150 = t32 <= p_a_zeta_threshold
t151 = t32 ** (0.1e1 / 0.3e1)
t153 = lax_cond(t150, t146, t151 * t32)
t158 = (t149 + t153 - 0.2e1) / (0.2e1 * t10 - 0.2e1)
t169 = math.log(0.1e1 + 0.32163958997385070134e2 / (0.70594500000000000000e1 * t118 + 0.15494250000000000000e1 * t115 + 0.42077500000000000000e0 * t121 + 0.15629250000000000000e0 * t129))
t182 = math.log(0.1e1 + 0.29608749977793437516e2 / (0.51785000000000000000e1 * t118 + 0.90577500000000000000e0 * t115 + 0.11003250000000000000e0 * t121 + 0.12417750000000000000e0 * t129))
t183 = (0.1e1 + 0.27812500000000000000e-1 * t115) * t182
t190 = -t137 + t139 / t141 * t158 * (-0.3109070e-1 * (0.1e1 + 0.51370000000000000000e-1 * t115) * t169 + t137 - 0.19751673498613801407e-1 * t183) + 0.19751673498613801407e-1 * t158 * t183
t226 = params_a_m08_b[0] + params_a_m08_b[1] * t40 * t43 + params_a_m08_b[2] * t46 * t49 + params_a_m08_b[3] * t52 * t55 + params_a_m08_b[4] * t58 * t61 + params_a_m08_b[5] * t64 * t67 + params_a_m08_b[6] * t70 * t73 + params_a_m08_b[7] * t76 * t79 + params_a_m08_b[8] * t82 * t85 + params_a_m08_b[9] * t88 * t91 + params_a_m08_b[10] * t94 * t97 + params_a_m08_b[11] * t100 * t103
t227 = math.log(0.2e1)
t228 = 0.1e1 - t227
t231 = t145 ** 2
t232 = t147 ** 2
t233 = lax_cond(t144, t231, t232)
t234 = t151 ** 2
t235 = lax_cond(t150, t231, t234)
t237 = t233 / 0.2e1 + t235 / 0.2e1
t238 = t237 ** 2
t239 = t238 * t237
t242 = s0 + 0.2e1 * s1 + s2
t254 = 0.1e1 / t228
t255 = t254 * t5
t260 = math.exp(-t190 * t254 * t5 / t239)
t262 = 0.1e1 / (t260 - 0.1e1)
t263 = t242 ** 2
t269 = t238 ** 2
t278 = t242 / t112 / t140 * t10 / t238 * t123 / t108 * t110 / 0.96e2 + 0.21720231316129303386e-4 * t255 * t262 * t263 / t126 / t141 * t11 / t269 * t106 / t124 * t111
t289 = math.log(0.1e1 + 0.6672455060314922e-1 * t278 * t254 * t5 / (0.1e1 + 0.6672455060314922e-1 * t255 * t262 * t278))
res = t105 * t190 + t226 * t228 / t5 * t239 * t289
" unpol "t3 = 6 ** (0.1e1 / 0.3e1)
t4 = t3 ** 2
t5 = math.pi ** 2
t6 = t5 ** (0.1e1 / 0.3e1)
t7 = t6 ** 2
t9 = 0.3e1 / 0.10e2 * t4 * t7
t10 = 2 ** (0.1e1 / 0.3e1)
t11 = t10 ** 2
t13 = r0 ** (0.1e1 / 0.3e1)
t14 = t13 ** 2
t17 = tau0 * t11 / t14 / r0
t18 = t9 - t17
t20 = t9 + t17
t21 = 0.1e1 / t20
t24 = t18 ** 2
t26 = t20 ** 2
t27 = 0.1e1 / t26
t30 = t24 * t18
t32 = t26 * t20
t33 = 0.1e1 / t32
t36 = t24 ** 2
t38 = t26 ** 2
t39 = 0.1e1 / t38
t42 = t36 * t18
t45 = 0.1e1 / t38 / t20
t48 = t36 * t24
t51 = 0.1e1 / t38 / t26
t54 = t36 * t30
t57 = 0.1e1 / t38 / t32
t60 = t36 ** 2
t62 = t38 ** 2
t63 = 0.1e1 / t62
t66 = t60 * t18
t69 = 0.1e1 / t62 / t20
t72 = t60 * t24
t75 = 0.1e1 / t62 / t26
t78 = t60 * t30
t81 = 0.1e1 / t62 / t32
t83 = params_a_m08_a[0] + params_a_m08_a[1] * t18 * t21 + params_a_m08_a[2] * t24 * t27 + params_a_m08_a[3] * t30 * t33 + params_a_m08_a[4] * t36 * t39 + params_a_m08_a[5] * t42 * t45 + params_a_m08_a[6] * t48 * t51 + params_a_m08_a[7] * t54 * t57 + params_a_m08_a[8] * t60 * t63 + params_a_m08_a[9] * t66 * t69 + params_a_m08_a[10] * t72 * t75 + params_a_m08_a[11] * t78 * t81
t84 = 3 ** (0.1e1 / 0.3e1)
t86 = (0.1e1 / math.pi) ** (0.1e1 / 0.3e1)
t88 = 4 ** (0.1e1 / 0.3e1)
t89 = t88 ** 2
t92 = t84 * t86 * t89 / t13
t95 = math.sqrt(t92)
t98 = t92 ** 0.15e1
t100 = t84 ** 2
t101 = t86 ** 2
t105 = t100 * t101 * t88 / t14
t111 = math.log(0.1e1 + 0.16081979498692535067e2 / (0.37978500000000000000e1 * t95 + 0.89690000000000000000e0 * t92 + 0.20477500000000000000e0 * t98 + 0.12323500000000000000e0 * t105))
t114 = 0.1e1 <= p_a_zeta_threshold
t115 = p_a_zeta_threshold ** (0.1e1 / 0.3e1)
t117 = lax_cond(t114, t115 * p_a_zeta_threshold, 1)
t134 = math.log(0.1e1 + 0.29608749977793437516e2 / (0.51785000000000000000e1 * t95 + 0.90577500000000000000e0 * t92 + 0.11003250000000000000e0 * t98 + 0.12417750000000000000e0 * t105))
t138 = -0.621814e-1 * (0.1e1 + 0.53425000000000000000e-1 * t92) * t111 + 0.19751673498613801407e-1 * (0.2e1 * t117 - 0.2e1) / (0.2e1 * t10 - 0.2e1) * (0.1e1 + 0.27812500000000000000e-1 * t92) * t134
t174 = params_a_m08_b[0] + params_a_m08_b[1] * t18 * t21 + params_a_m08_b[2] * t24 * t27 + params_a_m08_b[3] * t30 * t33 + params_a_m08_b[4] * t36 * t39 + params_a_m08_b[5] * t42 * t45 + params_a_m08_b[6] * t48 * t51 + params_a_m08_b[7] * t54 * t57 + params_a_m08_b[8] * t60 * t63 + params_a_m08_b[9] * t66 * t69 + params_a_m08_b[10] * t72 * t75 + params_a_m08_b[11] * t78 * t81
t175 = math.log(0.2e1)
t176 = 0.1e1 - t175
t179 = t115 ** 2
t180 = lax_cond(t114, t179, 1)
t181 = t180 ** 2
t182 = t181 * t180
t184 = r0 ** 2
t196 = 0.1e1 / t176
t197 = t196 * t5
t202 = math.exp(-t138 * t196 * t5 / t182)
t204 = 0.1e1 / (t202 - 0.1e1)
t205 = s0 ** 2
t207 = t184 ** 2
t212 = t181 ** 2
t221 = s0 / t13 / t184 * t10 / t181 * t100 / t86 * t88 / 0.96e2 + 0.21720231316129303386e-4 * t197 * t204 * t205 / t14 / t207 * t11 / t212 * t84 / t101 * t89
t232 = math.log(0.1e1 + 0.6672455060314922e-1 * t221 * t196 * t5 / (0.1e1 + 0.6672455060314922e-1 * t197 * t204 * t221))
res = t83 * t138 + t174 * t176 / t5 * t182 * t232
"

end Verif.Data


/-!
# Shipped formulas, verbatim from `gen_repo/impl/prebuilt/{pol,unpol}/NAME.py`
-/
namespace Verif.Data

/- gen_repo/impl/prebuilt/pol/mgga_c_pkzb.py and gen_repo/impl/prebuilt/unpol/mgga_c_pkzb.py -/
formula mgga_c_pkzb pol "t1 = r0 ** 2
t2 = r0 ** (0.1e1 / 0.3e1)
t3 = t2 ** 2
t6 = s0 / t3 / t1
t7 = r0 - r1
t8 = r0 + r1
t10 = t7 / t8
t11 = 0.1e1 + t10
t12 = t11 / 0.2e1
t13 = t12 ** (0.1e1 / 0.3e1)
t14 = t13 ** 2
t15 = t14 * t12
t17 = r1 ** 2
t18 = r1 ** (0.1e1 / 0.3e1)
t19 = t18 ** 2
t22 = s2 / t19 / t17
t23 = 0.1e1 - t10
t24 = t23 / 0.2e1
t25 = t24 ** (0.1e1 / 0.3e1)
t26 = t25 ** 2
t27 = t26 * t24
t30 = (t6 * t15 + t22 * t27) ** 2
t40 = (tau0 / t3 / r0 * t15 + tau1 / t19 / r1 * t27) ** 2
t45 = 3 ** (0.1e1 / 0.3e1)
t47 = (0.1e1 / math.pi) ** (0.1e1 / 0.3e1)
t48 = t45 * t47
t49 = 4 ** (0.1e1 / 0.3e1)
t50 = t49 ** 2
t51 = t8 ** (0.1e1 / 0.3e1)
t52 = 0.1e1 / t51
t54 = t48 * t50 * t52
t57 = math.sqrt(t54)
t60 = t54 ** 0.15e1
t62 = t45 ** 2
t63 = t47 ** 2
t64 = t62 * t63
t65 = t51 ** 2
t66 = 0.1e1 / t65
t68 = t64 * t49 * t66
t74 = math.log(0.1e1 + 0.16081979498692535067e2 / (0.37978500000000000000e1 * t57 + 0.89690000000000000000e0 * t54 + 0.20477500000000000000e0 * t60 + 0.12323500000000000000e0 * t68))
t76 = 0.621814e-1 * (0.1e1 + 0.53425000000000000000e-1 * t54) * t74
t77 = t7 ** 2
t78 = t77 ** 2
t79 = t8 ** 2
t80 = t79 ** 2
t83 = t11 <= p_a_zeta_threshold
t84 = p_a_zeta_threshold ** (0.1e1 / 0.3e1)
t85 = t84 * p_a_zeta_threshold
t86 = t11 ** (0.1e1 / 0.3e1)
t88 = lax_cond(t83, t85, t86 * t11)
t89 = t23 <= p_a_zeta_threshold
t90 = t23 ** (0.1e1 / 0.3e1)
t92 = lax_cond(t89, t85, t90 * t23)
t94 = 2 ** (0.1e1 / 0.3e1)
t97 = 0.1e1 / (0.2e1 * t94 - 0.2e1)
t98 = (t88 + t92 - 0.2e1) * t97
t109 = math.log(0.1e1 + 0.32163958997385070134e2 / (0.70594500000000000000e1 * t57 + 0.15494250000000000000e1 * t54 + 0.42077500000000000000e0 * t60 + 0.15629250000000000000e0 * t68))
t122 = math.log(0.1e1 + 0.29608749977793437516e2 / (0.51785000000000000000e1 * t57 + 0.90577500000000000000e0 * t54 + 0.11003250000000000000e0 * t60 + 0.12417750000000000000e0 * t68))
t123 = (0.1e1 + 0.27812500000000000000e-1 * t54) * t122
t127 = t78 / t80 * t98 * (-0.3109070e-1 * (0.1e1 + 0.51370000000000000000e-1 * t54) * t109 + t76 - 0.19751673498613801407e-1 * t123)
t129 = 0.19751673498613801407e-1 * t98 * t123
t130 = math.log(0.2e1)
t131 = 0.1e1 - t130
t132 = math.pi ** 2
t134 = t131 / t132
t135 = t84 ** 2
t136 = t86 ** 2
t137 = lax_cond(t83, t135, t136)
t138 = t90 ** 2
t139 = lax_cond(t89, t135, t138)
t141 = t137 / 0.2e1 + t139 / 0.2e1
t142 = t141 ** 2
t143 = t142 * t141
t145 = s0 + 0.2e1 * s1 + s2
t153 = 0.1e1 / t47 * t49
t157 = 0.1e1 / t131
t158 = t157 * t132
t164 = math.exp(-(-t76 + t127 + t129) * t157 * t132 / t143)
t166 = 0.1e1 / (t164 - 0.1e1)
t167 = t145 ** 2
t173 = t94 ** 2
t174 = t142 ** 2
t177 = 0.1e1 / t63
t183 = t145 / t51 / t79 * t94 / t142 * t62 * t153 / 0.96e2 + 0.21720231316129303386e-4 * t158 * t166 * t167 / t65 / t80 * t173 / t174 * t45 * t177 * t50
t194 = math.log(0.1e1 + 0.6672455060314922e-1 * t183 * t157 * t132 / (0.1e1 + 0.6672455060314922e-1 * t158 * t166 * t183))
t199 = s0 ** 2
t202 = tau0 ** 2
t205 = jnp.logical_or(r0 <= p_a_dens_threshold, t83)
t206 = t48 * t50
t207 = t52 * t94
t208 = 0.1e1 / t84
t210 = lax_cond(t83, t208, 0.1e1 / t86)
t212 = t206 * t207 * t210
t215 = math.sqrt(t212)
t218 = t212 ** 0.15e1
t220 = t64 * t49
t221 = t66 * t173
t222 = t210 ** 2
t224 = t220 * t221 * t222
t230 = math.log(0.1e1 + 0.16081979498692535067e2 / (0.37978500000000000000e1 * t215 + 0.89690000000000000000e0 * t212 + 0.20477500000000000000e0 * t218 + 0.12323500000000000000e0 * t224))
t232 = 0.621814e-1 * (0.1e1 + 0.53425000000000000000e-1 * t212) * t230
t233 = 0.2e1 <= p_a_zeta_threshold
t235 = lax_cond(t233, t85, 0.2e1 * t94)
t236 = 0.0e0 <= p_a_zeta_threshold
t237 = lax_cond(t236, t85, 0)
t239 = (t235 + t237 - 0.2e1) * t97
t250 = math.log(0.1e1 + 0.32163958997385070134e2 / (0.70594500000000000000e1 * t215 + 0.15494250000000000000e1 * t212 + 0.42077500000000000000e0 * t218 + 0.15629250000000000000e0 * t224))
t263 = math.log(0.1e1 + 0.29608749977793437516e2 / (0.51785000000000000000e1 * t215 + 0.90577500000000000000e0 * t212 + 0.11003250000000000000e0 * t218 + 0.12417750000000000000e0 * t224))
t264 = (0.1e1 + 0.27812500000000000000e-1 * t212) * t263
t267 = t239 * (-0.3109070e-1 * (0.1e1 + 0.51370000000000000000e-1 * t212) * t250 + t232 - 0.19751673498613801407e-1 * t264)
t269 = 0.19751673498613801407e-1 * t239 * t264
t270 = lax_cond(t233, t135, t173)
t271 = lax_cond(t236, t135, 0)
t273 = t270 / 0.2e1 + t271 / 0.2e1
t274 = t273 ** 2
t275 = t274 * t273
t277 = 0.1e1 / t274 * t62
t287 = t132 / t275
t289 = math.exp(-(-t232 + t267 + t269) * t157 * t287)
t291 = 0.1e1 / (t289 - 0.1e1)
t293 = t1 ** 2
t299 = t274 ** 2
t302 = 0.1e1 / t299 * t45 * t177
t303 = t50 * t65
t309 = t6 * t277 * t153 * t51 / t210 / 0.96e2 + 0.21720231316129303386e-4 * t158 * t291 * t199 / t2 / t293 / r0 * t302 * t303 / t222
t320 = math.log(0.1e1 + 0.6672455060314922e-1 * t309 * t157 * t132 / (0.1e1 + 0.6672455060314922e-1 * t158 * t291 * t309))
t324 = lax_cond(t83, p_a_zeta_threshold, t11)
t327 = lax_cond(t205, 0, (t134 * t275 * t320 - t232 + t267 + t269) * t324 / 0.2e1)
t331 = s2 ** 2
t334 = tau1 ** 2
t337 = jnp.logical_or(r1 <= p_a_dens_threshold, t89)
t339 = lax_cond(t89, t208, 0.1e1 / t90)
t341 = t206 * t207 * t339
t344 = math.sqrt(t341)
t347 = t341 ** 0.15e1
t349 = t339 ** 2
t351 = t220 * t221 * t349
t357 = math.log(0.1e1 + 0.16081979498692535067e2 / (0.37978500000000000000e1 * t344 + 0.89690000000000000000e0 * t341 + 0.20477500000000000000e0 * t347 + 0.12323500000000000000e0 * t351))
t359 = 0.621814e-1 * (0.1e1 + 0.53425000000000000000e-1 * t341) * t357
t370 = math.log(0.1e1 + 0.32163958997385070134e2 / (0.70594500000000000000e1 * t344 + 0.15494250000000000000e1 * t341 + 0.42077500000000000000e0 * t347 + 0.15629250000000000000e0 * t351))
t383 = math.log(0.1e1 + 0.29608749977793437516e2 / (0.51785000000000000000e1 * t344 + 0.90577500000000000000e0 * t341 + 0.11003250000000000000e0 * t347 + 0.12417750000000000000e0 * t351))
t384 = (0.1e1 + 0.27812500000000000000e-1 * t341) * t383
t387 = t239 * (-0.3109070e-1 * (0.1e1 + 0.51370000000000000000e-1 * t341) * t370 + t359 - 0.19751673498613801407e-1 * t384)
t389 = 0.19751673498613801407e-1 * t239 * t384
t399 = math.exp(-(-t359 + t387 + t389) * t157 * t287)
t401 = 0.1e1 / (t399 - 0.1e1)
t403 = t17 ** 2
t414 = t22 * t277 * t153 * t51 / t339 / 0.96e2 + 0.21720231316129303386e-4 * t158 * t401 * t331 / t18 / t403 / r1 * t302 * t303 / t349
t425 = math.log(0.1e1 + 0.6672455060314922e-1 * t414 * t157 * t132 / (0.1e1 + 0.6672455060314922e-1 * t158 * t401 * t414))
t429 = lax_cond(t89, p_a_zeta_threshold, t23)
t432 = lax_cond(t337, 0, (t134 * t275 * t425 - t359 + t387 + t389) * t429 / 0.2e1)
res = (0.1e1 + 0.82812500000000000000e-2 * t30 / t40) * (t134 * t143 * t194 + t127 + t129 - t76) - 0.23906250000000000000e-1 * t199 / t1 / t202 * t327 - 0.23906250000000000000e-1 * t331 / t17 / t334 * t432
" unpol "t1 = s0 ** 2
t2 = r0 ** 2
t4 = t1 / t2
t5 = tau0 ** 2
t6 = 0.1e1 / t5
t10 = 3 ** (0.1e1 / 0.3e1)
t12 = (0.1e1 / math.pi) ** (0.1e1 / 0.3e1)
t13 = t10 * t12
t14 = 4 ** (0.1e1 / 0.3e1)
t15 = t14 ** 2
t16 = r0 ** (0.1e1 / 0.3e1)
t17 = 0.1e1 / t16
t19 = t13 * t15 * t17
t22 = math.sqrt(t19)
t25 = t19 ** 0.15e1
t27 = t10 ** 2
t28 = t12 ** 2
t29 = t27 * t28
t30 = t16 ** 2
t31 = 0.1e1 / t30
t33 = t29 * t14 * t31
t39 = math.log(0.1e1 + 0.16081979498692535067e2 / (0.37978500000000000000e1 * t22 + 0.89690000000000000000e0 * t19 + 0.20477500000000000000e0 * t25 + 0.12323500000000000000e0 * t33))
t41 = 0.621814e-1 * (0.1e1 + 0.53425000000000000000e-1 * t19) * t39
t42 = 0.1e1 <= p_a_zeta_threshold
t43 = p_a_zeta_threshold ** (0.1e1 / 0.3e1)
t44 = t43 * p_a_zeta_threshold
t45 = lax_cond(t42, t44, 1)
t48 = 2 ** (0.1e1 / 0.3e1)
t51 = 0.1e1 / (0.2e1 * t48 - 0.2e1)
t63 = math.log(0.1e1 + 0.29608749977793437516e2 / (0.51785000000000000000e1 * t22 + 0.90577500000000000000e0 * t19 + 0.11003250000000000000e0 * t25 + 0.12417750000000000000e0 * t33))
t66 = 0.19751673498613801407e-1 * (0.2e1 * t45 - 0.2e1) * t51 * (0.1e1 + 0.27812500000000000000e-1 * t19) * t63
t67 = math.log(0.2e1)
t68 = 0.1e1 - t67
t69 = math.pi ** 2
t71 = t68 / t69
t72 = t43 ** 2
t73 = lax_cond(t42, t72, 1)
t74 = t73 ** 2
t75 = t74 * t73
t78 = s0 / t16 / t2
t83 = 0.1e1 / t12 * t14
t87 = 0.1e1 / t68
t88 = t87 * t69
t94 = math.exp(-(-t41 + t66) * t87 * t69 / t75)
t96 = 0.1e1 / (t94 - 0.1e1)
t98 = t2 ** 2
t100 = 0.1e1 / t30 / t98
t103 = t48 ** 2
t104 = t74 ** 2
t107 = 0.1e1 / t28
t113 = t78 * t48 / t74 * t27 * t83 / 0.96e2 + 0.21720231316129303386e-4 * t88 * t96 * t1 * t100 * t103 / t104 * t10 * t107 * t15
t124 = math.log(0.1e1 + 0.6672455060314922e-1 * t113 * t87 * t69 / (0.1e1 + 0.6672455060314922e-1 * t88 * t96 * t113))
t131 = jnp.logical_or(r0 / 0.2e1 <= p_a_dens_threshold, t42)
t135 = lax_cond(t42, 0.1e1 / t43, 1)
t137 = t13 * t15 * t17 * t48 * t135
t140 = math.sqrt(t137)
t143 = t137 ** 0.15e1
t147 = t135 ** 2
t149 = t29 * t14 * t31 * t103 * t147
t155 = math.log(0.1e1 + 0.16081979498692535067e2 / (0.37978500000000000000e1 * t140 + 0.89690000000000000000e0 * t137 + 0.20477500000000000000e0 * t143 + 0.12323500000000000000e0 * t149))
t157 = 0.621814e-1 * (0.1e1 + 0.53425000000000000000e-1 * t137) * t155
t158 = 0.2e1 <= p_a_zeta_threshold
t160 = lax_cond(t158, t44, 0.2e1 * t48)
t161 = 0.0e0 <= p_a_zeta_threshold
t162 = lax_cond(t161, t44, 0)
t164 = (t160 + t162 - 0.2e1) * t51
t175 = math.log(0.1e1 + 0.32163958997385070134e2 / (0.70594500000000000000e1 * t140 + 0.15494250000000000000e1 * t137 + 0.42077500000000000000e0 * t143 + 0.15629250000000000000e0 * t149))
t188 = math.log(0.1e1 + 0.29608749977793437516e2 / (0.51785000000000000000e1 * t140 + 0.90577500000000000000e0 * t137 + 0.11003250000000000000e0 * t143 + 0.12417750000000000000e0 * t149))
t189 = (0.1e1 + 0.27812500000000000000e-1 * t137) * t188
t192 = t164 * (-0.3109070e-1 * (0.1e1 + 0.51370000000000000000e-1 * t137) * t175 + t157 - 0.19751673498613801407e-1 * t189)
t194 = 0.19751673498613801407e-1 * t164 * t189
t195 = lax_cond(t158, t72, t103)
t196 = lax_cond(t161, t72, 0)
t198 = t195 / 0.2e1 + t196 / 0.2e1
t199 = t198 ** 2
t200 = t199 * t198
t214 = math.exp(-(-t157 + t192 + t194) * t87 * t69 / t200)
t216 = 0.1e1 / (t214 - 0.1e1)
t220 = t199 ** 2
t230 = t78 / t199 * t27 * t83 * t103 / t135 / 0.96e2 + 0.43440462632258606772e-4 * t88 * t216 * t1 * t100 / t220 * t10 * t107 * t15 * t48 / t147
t241 = math.log(0.1e1 + 0.6672455060314922e-1 * t230 * t87 * t69 / (0.1e1 + 0.6672455060314922e-1 * t88 * t216 * t230))
t245 = lax_cond(t42, p_a_zeta_threshold, 1)
t248 = lax_cond(t131, 0, (t71 * t200 * t241 - t157 + t192 + t194) * t245 / 0.2e1)
res = (0.1e1 + 0.82812500000000000000e-2 * t4 * t6) * (t71 * t75 * t124 - t41 + t66) - 0.47812500000000000000e-1 * t4 * t6 * t248
"

/- gen_repo/impl/prebuilt/pol/mgga_c_r2scan.py and gen_repo/impl/prebuilt/unpol/mgga_c_r2scan.py -/
formula mgga_c_r2scan pol "t1 = 3 ** (0.1e1 / 0.3e1)
t3 = (0.1e1 / math.pi) ** (0.1e1 / 0.3e1)
t4 = t1 * t3
t5 = 4 ** (0.1e1 / 0.3e1)
t6 = t5 ** 2
t7 = r0 + r1
t8 = t7 ** (0.1e1 / 0.3e1)
t10 = t6 / t8
t11 = t4 * t10
t13 = 0.1e1 + 0.53425000000000000000e-1 * t11
t14 = math.sqrt(t11)
t16 = 0.89690000000000000000e0 * t11
t17 = t11 ** 0.15e1
t18 = 0.20477500000000000000e0 * t17
t19 = t1 ** 2
t20 = t3 ** 2
t22 = t8 ** 2
t25 = t19 * t20 * t5 / t22
t26 = 0.12323500000000000000e0 * t25
t31 = math.log(0.1e1 + 0.16081979498692535067e2 / (0.37978500000000000000e1 * t14 + t16 + t18 + t26))
t33 = 0.621814e-1 * t13 * t31
t34 = r0 - r1
t35 = t34 ** 2
t36 = t35 ** 2
t37 = t7 ** 2
t38 = t37 ** 2
t40 = t36 / t38
t42 = t34 / t7
t43 = 0.1e1 + t42
t44 = t43 <= p_a_zeta_threshold
t45 = p_a_zeta_threshold ** (0.1e1 / 0.3e1)
t46 = t45 * p_a_zeta_threshold
t47 = t43 ** (0.1e1 / 0.3e1)
t49 = lax_cond(t44, t46, t47 * t43)
t50 = 0.1e1 - t42
t51 = t50 <= p_a_zeta_threshold
t52 = t50 ** (0.1e1 / 0.3e1)
t54 = lax_cond(t51, t46, t52 * t50)
t55 = t49 + t54 - 0.2e1
t56 = 2 ** (0.1e1 / 0.3e1)
t57 = t56 - 0.1e1
t59 = 0.1e1 / t57 / 0.2e1
t60 = t55 * t59
t62 = 0.1e1 + 0.51370000000000000000e-1 * t11
t64 = 0.15494250000000000000e1 * t11
t65 = 0.42077500000000000000e0 * t17
t66 = 0.15629250000000000000e0 * t25
t71 = math.log(0.1e1 + 0.32163958997385070134e2 / (0.70594500000000000000e1 * t14 + t64 + t65 + t66))
t75 = 0.1e1 + 0.27812500000000000000e-1 * t11
t77 = 0.90577500000000000000e0 * t11
t78 = 0.11003250000000000000e0 * t17
t79 = 0.12417750000000000000e0 * t25
t84 = math.log(0.1e1 + 0.29608749977793437516e2 / (0.51785000000000000000e1 * t14 + t77 + t78 + t79))
t85 = t75 * t84
t89 = t40 * t60 * (-0.3109070e-1 * t62 * t71 + t33 - 0.19751673498613801407e-1 * t85)
t91 = 0.19751673498613801407e-1 * t60 * t85
t92 = math.log(0.2e1)
t93 = 0.1e1 - t92
t94 = math.pi ** 2
t97 = t45 ** 2
t98 = t47 ** 2
t99 = lax_cond(t44, t97, t98)
t100 = t52 ** 2
t101 = lax_cond(t51, t97, t100)
t103 = t99 / 0.2e1 + t101 / 0.2e1
t104 = t103 ** 2
t105 = t104 * t103
t107 = 0.1e1 / t93
t109 = 0.1e1 / t105
t112 = math.exp(-(-t33 + t89 + t91) * t107 * t94 * t109)
t113 = t112 - 0.1e1
t121 = s0 + 0.2e1 * s1 + s2
t132 = t107 * t94
t133 = 0.1e1 / t113
t138 = t97 * p_a_zeta_threshold
t140 = lax_cond(t44, t138, t98 * t43)
t142 = lax_cond(t51, t138, t100 * t50)
t148 = math.sqrt(0.4e1)
t149 = t148 * t14
t151 = 0.31385250000000000000e-1 * t11
t153 = (0.1e1 + 0.22225000000000000000e-1 * t149 + t151) ** 2
t158 = 0.1e1 - 0.2363e1 * t57 * t55 * t59
t160 = t36 ** 2
t162 = t38 ** 2
t166 = -t160 * t36 / t162 / t38 + 0.1e1
t168 = t148 / t14
t175 = 0.18989250000000000000e1 * t149 + t16 + t18 + t26
t178 = 0.1e1 + 0.16081979498692535067e2 / t175
t179 = math.log(t178)
t180 = 0.13288165180e-1 * t179
t181 = t175 ** 2
t185 = t11 ** 0.5e0
t192 = 0.10000000000000000000e1 * t13 / t181 * (0.37978500000000000000e1 * t168 + 0.35876e1 + 0.12286500000000000000e1 * t185 + 0.24647000000000000000e0 * t11) / t178
t194 = 0.35297250000000000000e1 * t149 + t64 + t65 + t66
t197 = 0.1e1 + 0.32163958997385070134e2 / t194
t198 = math.log(t197)
t200 = t194 ** 2
t212 = 0.25892500000000000000e1 * t149 + t77 + t78 + t79
t215 = 0.1e1 + 0.29608749977793437516e2 / t212
t216 = math.log(t215)
t218 = t212 ** 2
t219 = 0.1e1 / t218
t224 = 0.51785000000000000000e1 * t168 + 0.36231e1 + 0.66019500000000000000e0 * t185 + 0.24835500000000000000e0 * t11
t225 = 0.1e1 / t215
t245 = 0.1e1 / (0.1e1 + 0.44450000000000000000e-1 * t14 + t151)
t255 = 6 ** (0.1e1 / 0.3e1)
t256 = t94 ** (0.1e1 / 0.3e1)
t257 = t256 ** 2
t259 = t255 / t257
t260 = t56 ** 2
t263 = 0.1e1 / t22 / t37
t264 = t121 * t263
t265 = t255 ** 2
t269 = t121 ** 2
t277 = math.exp(-0.20444604078896369094e0 * t265 / t256 / t94 * t56 * t269 / t8 / t38 / t7)
t283 = (0.1e1 + 0.27801896084645508333e-2 * (0.1e1 + 0.25000000000000000000e-1 * t11) / (0.1e1 + 0.44450000000000000000e-1 * t11) * t121 / t8 / t37 * t56 / t104 * t19 / t3 * t5 * t132 * t133 + 0.43913724338827160496e-2 * t132 / (t140 / 0.2e1 + t142 / 0.2e1) * t109 * t133 * (0.5e1 * t4 * t10 * (0.285764e-1 / t153 * t158 * t166 * (0.44450000000000000000e-1 * t168 + 0.125541e0) + t180 - t192 - t40 * t60 * (-0.63885170360e-2 * t198 + 0.10000000000000000000e1 * t62 / t200 * (0.70594500000000000000e1 * t168 + 0.61977e1 + 0.25246500000000000000e1 * t185 + 0.31258500000000000000e0 * t11) / t197 + t180 - t192 - 0.21973736767207854065e-2 * t216 + 0.58482236226346462070e0 * t75 * t219 * t224 * t225) - 0.21973736767207854065e-2 * t60 * t216 + 0.58482236226346462070e0 * t60 * t75 * t219 * t224 * t225) - 0.45e2 * params_a_eta * (-0.285764e-1 * t245 * t158 * t166 + t33 - t89 - t91)) * t259 * t260 * t264 * t277) ** (0.1e1 / 0.4e1)
t288 = math.log(0.1e1 + t113 * (0.1e1 - 0.1e1 / t283))
t290 = t93 / t94 * t105 * t288
t291 = r0 ** (0.1e1 / 0.3e1)
t292 = t291 ** 2
t296 = t43 / 0.2e1
t297 = t296 ** (0.1e1 / 0.3e1)
t298 = t297 ** 2
t299 = t298 * t296
t301 = r1 ** (0.1e1 / 0.3e1)
t302 = t301 ** 2
t306 = t50 / 0.2e1
t307 = t306 ** (0.1e1 / 0.3e1)
t308 = t307 ** 2
t309 = t308 * t306
t322 = (tau0 / t292 / r0 * t299 + tau1 / t302 / r1 * t309 - t264 / 0.8e1) / (0.3e1 / 0.10e2 * t265 * t257 * (t299 + t309) + params_a_eta * t121 * t263 / 0.8e1)
t325 = lax_cond(0.0e0 < t322, 0, t322)
t330 = math.exp(-0.64e0 * t325 / (0.1e1 - t325))
t332 = 0.25e1 < t322
t333 = lax_cond(t332, 0.25e1, t322)
t335 = t333 ** 2
t337 = t335 * t333
t339 = t335 ** 2
t348 = lax_cond(t332, t322, 0.25e1)
t352 = math.exp(0.15e1 / (0.1e1 - t348))
t354 = lax_cond(t322 <= 0.25e1, 0.1e1 - 0.64e0 * t333 - 0.4352e0 * t335 - 0.1535685604549e1 * t337 + 0.3061560252175e1 * t339 - 0.1915710236206e1 * t339 * t333 + 0.516884468372e0 * t339 * t335 - 0.51848879792e-1 * t339 * t337, -0.7e0 * t352)
t355 = lax_cond(t322 <= 0.0e0, t330, t354)
t358 = math.exp(0.10000000000000000000e1 * t245)
t365 = (0.1e1 + 0.21337642104376358333e-1 * t259 * t260 * t121 * t263) ** (0.1e1 / 0.4e1)
t370 = math.log(0.1e1 + (t358 - 0.1e1) * (0.1e1 - 0.1e1 / t365))
res = -t33 + t89 + t91 + t290 + t355 * ((-0.285764e-1 * t245 + 0.285764e-1 * t370) * t158 * t166 + t33 - t89 - t91 - t290)
" unpol "t1 = 3 ** (0.1e1 / 0.3e1)
t3 = (0.1e1 / math.pi) ** (0.1e1 / 0.3e1)
t4 = t1 * t3
t5 = 4 ** (0.1e1 / 0.3e1)
t6 = t5 ** 2
t7 = r0 ** (0.1e1 / 0.3e1)
t9 = t6 / t7
t10 = t4 * t9
t12 = 0.1e1 + 0.53425000000000000000e-1 * t10
t13 = math.sqrt(t10)
t15 = 0.89690000000000000000e0 * t10
t16 = t10 ** 0.15e1
t17 = 0.20477500000000000000e0 * t16
t18 = t1 ** 2
t19 = t3 ** 2
t21 = t7 ** 2
t24 = t18 * t19 * t5 / t21
t25 = 0.12323500000000000000e0 * t24
t30 = math.log(0.1e1 + 0.16081979498692535067e2 / (0.37978500000000000000e1 * t13 + t15 + t17 + t25))
t32 = 0.621814e-1 * t12 * t30
t33 = 0.1e1 <= p_a_zeta_threshold
t34 = p_a_zeta_threshold ** (0.1e1 / 0.3e1)
t36 = lax_cond(t33, t34 * p_a_zeta_threshold, 1)
t38 = 0.2e1 * t36 - 0.2e1
t39 = 2 ** (0.1e1 / 0.3e1)
t40 = t39 - 0.1e1
t42 = 0.1e1 / t40 / 0.2e1
t43 = t38 * t42
t45 = 0.1e1 + 0.27812500000000000000e-1 * t10
t47 = 0.90577500000000000000e0 * t10
t48 = 0.11003250000000000000e0 * t16
t49 = 0.12417750000000000000e0 * t24
t54 = math.log(0.1e1 + 0.29608749977793437516e2 / (0.51785000000000000000e1 * t13 + t47 + t48 + t49))
t57 = 0.19751673498613801407e-1 * t43 * t45 * t54
t58 = math.log(0.2e1)
t59 = 0.1e1 - t58
t60 = math.pi ** 2
t63 = t34 ** 2
t64 = lax_cond(t33, t63, 1)
t65 = t64 ** 2
t66 = t65 * t64
t68 = 0.1e1 / t59
t70 = 0.1e1 / t66
t73 = math.exp(-(-t32 + t57) * t68 * t60 * t70)
t74 = t73 - 0.1e1
t82 = r0 ** 2
t92 = t68 * t60
t93 = 0.1e1 / t74
t99 = lax_cond(t33, t63 * p_a_zeta_threshold, 1)
t103 = math.sqrt(0.4e1)
t104 = t103 * t13
t106 = 0.31385250000000000000e-1 * t10
t108 = (0.1e1 + 0.22225000000000000000e-1 * t104 + t106) ** 2
t113 = 0.1e1 - 0.2363e1 * t40 * t38 * t42
t116 = t103 / t13
t122 = 0.18989250000000000000e1 * t104 + t15 + t17 + t25
t125 = 0.1e1 + 0.16081979498692535067e2 / t122
t126 = math.log(t125)
t128 = t122 ** 2
t132 = t10 ** 0.5e0
t141 = 0.25892500000000000000e1 * t104 + t47 + t48 + t49
t144 = 0.1e1 + 0.29608749977793437516e2 / t141
t145 = math.log(t144)
t149 = t141 ** 2
t166 = 0.1e1 / (0.1e1 + 0.44450000000000000000e-1 * t13 + t106)
t175 = 6 ** (0.1e1 / 0.3e1)
t176 = t60 ** (0.1e1 / 0.3e1)
t177 = t176 ** 2
t179 = t175 / t177
t180 = t39 ** 2
t183 = 0.1e1 / t21 / t82
t184 = s0 * t183
t185 = t175 ** 2
t189 = s0 ** 2
t191 = t82 ** 2
t198 = math.exp(-0.20444604078896369094e0 * t185 / t176 / t60 * t39 * t189 / t7 / t191 / r0)
t204 = (0.1e1 + 0.27801896084645508333e-2 * (0.1e1 + 0.25000000000000000000e-1 * t10) / (0.1e1 + 0.44450000000000000000e-1 * t10) * s0 / t7 / t82 * t39 / t65 * t18 / t3 * t5 * t92 * t93 + 0.43913724338827160496e-2 * t92 / t99 * t70 * t93 * (0.5e1 * t4 * t9 * (0.285764e-1 / t108 * t113 * (0.44450000000000000000e-1 * t116 + 0.125541e0) + 0.13288165180e-1 * t126 - 0.10000000000000000000e1 * t12 / t128 * (0.37978500000000000000e1 * t116 + 0.35876e1 + 0.12286500000000000000e1 * t132 + 0.24647000000000000000e0 * t10) / t125 - 0.21973736767207854065e-2 * t43 * t145 + 0.58482236226346462070e0 * t43 * t45 / t149 * (0.51785000000000000000e1 * t116 + 0.36231e1 + 0.66019500000000000000e0 * t132 + 0.24835500000000000000e0 * t10) / t144) - 0.45e2 * params_a_eta * (-0.285764e-1 * t166 * t113 + t32 - t57)) * t179 * t180 * t184 * t198) ** (0.1e1 / 0.4e1)
t209 = math.log(0.1e1 + t74 * (0.1e1 - 0.1e1 / t204))
t211 = t59 / t60 * t66 * t209
t225 = (tau0 / t21 / r0 - t184 / 0.8e1) / (0.3e1 / 0.20e2 * t185 * t177 * t39 + params_a_eta * s0 * t183 / 0.8e1)
t228 = lax_cond(0.0e0 < t225, 0, t225)
t233 = math.exp(-0.64e0 * t228 / (0.1e1 - t228))
t235 = 0.25e1 < t225
t236 = lax_cond(t235, 0.25e1, t225)
t238 = t236 ** 2
t240 = t238 * t236
t242 = t238 ** 2
t251 = lax_cond(t235, t225, 0.25e1)
t255 = math.exp(0.15e1 / (0.1e1 - t251))
t257 = lax_cond(t225 <= 0.25e1, 0.1e1 - 0.64e0 * t236 - 0.4352e0 * t238 - 0.1535685604549e1 * t240 + 0.3061560252175e1 * t242 - 0.1915710236206e1 * t242 * t236 + 0.516884468372e0 * t242 * t238 - 0.51848879792e-1 * t242 * t240, -0.7e0 * t255)
t258 = lax_cond(t225 <= 0.0e0, t233, t257)
t261 = math.exp(0.10000000000000000000e1 * t166)
t268 = (0.1e1 + 0.21337642104376358333e-1 * t179 * t180 * s0 * t183) ** (0.1e1 / 0.4e1)
t273 = math.log(0.1e1 + (t261 - 0.1e1) * (0.1e1 - 0.1e1 / t268))
res = -t32 + t57 + t211 + t258 * ((-0.285764e-1 * t166 + 0.285764e-1 * t273) * t113 + t32 - t57 - t211)
"

/- gen_repo/impl/prebuilt/pol/mgga_c_revscan.py and gen_repo/impl/prebuilt/unpol/mgga_c_revscan.py -/
formula mgga_c_revscan pol "t1 = 3 ** (0.1e1 / 0.3e1)
t3 = (0.1e1 / math.pi) ** (0.1e1 / 0.3e1)
t5 = 4 ** (0.1e1 / 0.3e1)
t6 = t5 ** 2
t7 = r0 + r1
t8 = t7 ** (0.1e1 / 0.3e1)
t11 = t1 * t3 * t6 / t8
t14 = math.sqrt(t11)
t17 = t11 ** 0.15e1
t19 = t1 ** 2
t20 = t3 ** 2
t22 = t8 ** 2
t25 = t19 * t20 * t5 / t22
t31 = math.log(0.1e1 + 0.16081979498692535067e2 / (0.37978500000000000000e1 * t14 + 0.89690000000000000000e0 * t11 + 0.20477500000000000000e0 * t17 + 0.12323500000000000000e0 * t25))
t33 = 0.621814e-1 * (0.1e1 + 0.53425000000000000000e-1 * t11) * t31
t34 = r0 - r1
t35 = t34 ** 2
t36 = t35 ** 2
t37 = t7 ** 2
t38 = t37 ** 2
t42 = t34 / t7
t43 = 0.1e1 + t42
t44 = t43 <= p_a_zeta_threshold
t45 = p_a_zeta_threshold ** (0.1e1 / 0.3e1)
t46 = t45 * p_a_zeta_threshold
t47 = t43 ** (0.1e1 / 0.3e1)
t49 = lax_cond(t44, t46, t47 * t43)
t50 = 0.1e1 - t42
t51 = t50 <= p_a_zeta_threshold
t52 = t50 ** (0.1e1 / 0.3e1)
t54 = lax_cond(t51, t46, t52 * t50)
t55 = t49 + t54 - 0.2e1
t56 = 2 ** (0.1e1 / 0.3e1)
t57 = t56 - 0.1e1
t59 = 0.1e1 / t57 / 0.2e1
t60 = t55 * t59
t71 = math.log(0.1e1 + 0.32163958997385070134e2 / (0.70594500000000000000e1 * t14 + 0.15494250000000000000e1 * t11 + 0.42077500000000000000e0 * t17 + 0.15629250000000000000e0 * t25))
t84 = math.log(0.1e1 + 0.29608749977793437516e2 / (0.51785000000000000000e1 * t14 + 0.90577500000000000000e0 * t11 + 0.11003250000000000000e0 * t17 + 0.12417750000000000000e0 * t25))
t85 = (0.1e1 + 0.27812500000000000000e-1 * t11) * t84
t89 = t36 / t38 * t60 * (-0.3109070e-1 * (0.1e1 + 0.51370000000000000000e-1 * t11) * t71 + t33 - 0.19751673498613801407e-1 * t85)
t91 = 0.19751673498613801407e-1 * t60 * t85
t92 = math.log(0.2e1)
t93 = 0.1e1 - t92
t94 = math.pi ** 2
t97 = t45 ** 2
t98 = t47 ** 2
t99 = lax_cond(t44, t97, t98)
t100 = t52 ** 2
t101 = lax_cond(t51, t97, t100)
t103 = t99 / 0.2e1 + t101 / 0.2e1
t104 = t103 ** 2
t105 = t104 * t103
t107 = 0.1e1 + 0.25000000000000000000e-1 * t11
t109 = 0.1e1 + 0.44450000000000000000e-1 * t11
t112 = 0.1e1 / t93
t119 = math.exp(-(-t33 + t89 + t91) * t112 * t94 / t105)
t120 = t119 - 0.1e1
t124 = s0 + 0.2e1 * s1 + s2
t139 = (0.1e1 + 0.55603792169291016666e-2 * t107 / t109 * t112 * t94 / t120 * t124 / t8 / t37 * t56 / t104 * t19 / t3 * t5) ** (0.1e1 / 0.4e1)
t142 = t107 ** 2
t143 = t109 ** 2
t146 = t93 ** 2
t149 = t94 ** 2
t150 = t120 ** 2
t153 = t124 ** 2
t158 = t56 ** 2
t160 = t104 ** 2
t170 = (0.1e1 + 0.11594181388521408694e-3 * t142 / t143 / t146 * t149 / t150 * t153 / t22 / t38 * t158 / t160 * t1 / t20 * t6) ** (0.1e1 / 0.8e1)
t177 = math.log(0.1e1 + 0.10000000000000000000e1 * (0.1e1 - 0.1e1 / t139 / 0.2e1 - 0.1e1 / t170 / 0.2e1) * t120)
t179 = t93 / t94 * t105 * t177
t180 = r0 ** (0.1e1 / 0.3e1)
t181 = t180 ** 2
t185 = t43 / 0.2e1
t186 = t185 ** (0.1e1 / 0.3e1)
t187 = t186 ** 2
t188 = t187 * t185
t190 = r1 ** (0.1e1 / 0.3e1)
t191 = t190 ** 2
t195 = t50 / 0.2e1
t196 = t195 ** (0.1e1 / 0.3e1)
t197 = t196 ** 2
t198 = t197 * t195
t201 = 0.1e1 / t22 / t37
t205 = 6 ** (0.1e1 / 0.3e1)
t207 = t94 ** (0.1e1 / 0.3e1)
t208 = t207 ** 2
t209 = 0.1e1 / t208
t214 = 0.5e1 / 0.9e1 * (tau0 / t181 / r0 * t188 + tau1 / t191 / r1 * t198 - t124 * t201 / 0.8e1) * t205 * t209 / (t188 + t198)
t216 = math.log(DBL_EPSILON)
t219 = t216 / (-t216 + 0.1131e1)
t222 = lax_cond(t214 < -t219, t214, -t219)
t227 = math.exp(-0.1131e1 * t222 / (0.1e1 - t222))
t228 = lax_cond(-t219 < t214, 0, t227)
t230 = math.log(0.72992700729927007299e0 * DBL_EPSILON)
t233 = (-t230 + 0.17e1) / t230
t234 = t214 < -t233
t235 = lax_cond(t234, -t233, t214)
t239 = math.exp(0.17e1 / (0.1e1 - t235))
t241 = lax_cond(t234, 0, -0.137e1 * t239)
t242 = lax_cond(t214 <= 0.1e1, t228, t241)
t246 = 0.1e1 / (0.1e1 - 0.33115000000000000000e-1 * t14 + 0.41680000000000000000e-1 * t11)
t249 = math.exp(0.10000000000000000000e1 * t246)
t257 = (0.1e1 + 0.21337642104376358333e-1 * t205 * t209 * t158 * t124 * t201) ** (0.1e1 / 0.4e1)
t260 = t205 ** 2
t272 = (0.1e1 + 0.45529497057445474566e-2 * t260 / t207 / t94 * t56 * t153 / t8 / t38 / t7) ** (0.1e1 / 0.8e1)
t277 = math.log(0.1e1 + (t249 - 0.1e1) * (0.1e1 - 0.1e1 / t257 / 0.2e1 - t272 / 0.2e1))
t285 = t36 ** 2
t287 = t38 ** 2
res = -t33 + t89 + t91 + t179 + t242 * ((-0.30197e-1 * t246 + 0.30197e-1 * t277) * (0.1e1 - 0.2363e1 * t57 * t55 * t59) * (0.1e1 - t285 * t36 / t287 / t38) + t33 - t89 - t91 - t179)
" unpol "t1 = 3 ** (0.1e1 / 0.3e1)
t3 = (0.1e1 / math.pi) ** (0.1e1 / 0.3e1)
t5 = 4 ** (0.1e1 / 0.3e1)
t6 = t5 ** 2
t7 = r0 ** (0.1e1 / 0.3e1)
t10 = t1 * t3 * t6 / t7
t13 = math.sqrt(t10)
t16 = t10 ** 0.15e1
t18 = t1 ** 2
t19 = t3 ** 2
t21 = t7 ** 2
t24 = t18 * t19 * t5 / t21
t30 = math.log(0.1e1 + 0.16081979498692535067e2 / (0.37978500000000000000e1 * t13 + 0.89690000000000000000e0 * t10 + 0.20477500000000000000e0 * t16 + 0.12323500000000000000e0 * t24))
t32 = 0.621814e-1 * (0.1e1 + 0.53425000000000000000e-1 * t10) * t30
t33 = 0.1e1 <= p_a_zeta_threshold
t34 = p_a_zeta_threshold ** (0.1e1 / 0.3e1)
t36 = lax_cond(t33, t34 * p_a_zeta_threshold, 1)
t38 = 0.2e1 * t36 - 0.2e1
t39 = 2 ** (0.1e1 / 0.3e1)
t40 = t39 - 0.1e1
t42 = 0.1e1 / t40 / 0.2e1
t54 = math.log(0.1e1 + 0.29608749977793437516e2 / (0.51785000000000000000e1 * t13 + 0.90577500000000000000e0 * t10 + 0.11003250000000000000e0 * t16 + 0.12417750000000000000e0 * t24))
t57 = 0.19751673498613801407e-1 * t38 * t42 * (0.1e1 + 0.27812500000000000000e-1 * t10) * t54
t58 = math.log(0.2e1)
t59 = 0.1e1 - t58
t60 = math.pi ** 2
t63 = t34 ** 2
t64 = lax_cond(t33, t63, 1)
t65 = t64 ** 2
t66 = t65 * t64
t68 = 0.1e1 + 0.25000000000000000000e-1 * t10
t70 = 0.1e1 + 0.44450000000000000000e-1 * t10
t73 = 0.1e1 / t59
t80 = math.exp(-(-t32 + t57) * t73 * t60 / t66)
t81 = t80 - 0.1e1
t86 = r0 ** 2
t99 = (0.1e1 + 0.55603792169291016666e-2 * t68 / t70 * t73 * t60 / t81 * s0 / t7 / t86 * t39 / t65 * t18 / t3 * t5) ** (0.1e1 / 0.4e1)
t102 = t68 ** 2
t103 = t70 ** 2
t106 = t59 ** 2
t109 = t60 ** 2
t110 = t81 ** 2
t113 = s0 ** 2
t116 = t86 ** 2
t119 = t39 ** 2
t121 = t65 ** 2
t131 = (0.1e1 + 0.11594181388521408694e-3 * t102 / t103 / t106 * t109 / t110 * t113 / t21 / t116 * t119 / t121 * t1 / t19 * t6) ** (0.1e1 / 0.8e1)
t138 = math.log(0.1e1 + 0.10000000000000000000e1 * (0.1e1 - 0.1e1 / t99 / 0.2e1 - 0.1e1 / t131 / 0.2e1) * t81)
t140 = t59 / t60 * t66 * t138
t145 = 0.1e1 / t21 / t86
t149 = 6 ** (0.1e1 / 0.3e1)
t151 = t60 ** (0.1e1 / 0.3e1)
t152 = t151 ** 2
t153 = 0.1e1 / t152
t156 = 0.5e1 / 0.9e1 * (tau0 / t21 / r0 - s0 * t145 / 0.8e1) * t149 * t153 * t119
t158 = math.log(DBL_EPSILON)
t161 = t158 / (-t158 + 0.1131e1)
t164 = lax_cond(t156 < -t161, t156, -t161)
t169 = math.exp(-0.1131e1 * t164 / (0.1e1 - t164))
t170 = lax_cond(-t161 < t156, 0, t169)
t172 = math.log(0.72992700729927007299e0 * DBL_EPSILON)
t175 = (-t172 + 0.17e1) / t172
t176 = t156 < -t175
t177 = lax_cond(t176, -t175, t156)
t181 = math.exp(0.17e1 / (0.1e1 - t177))
t183 = lax_cond(t176, 0, -0.137e1 * t181)
t184 = lax_cond(t156 <= 0.1e1, t170, t183)
t188 = 0.1e1 / (0.1e1 - 0.33115000000000000000e-1 * t13 + 0.41680000000000000000e-1 * t10)
t191 = math.exp(0.10000000000000000000e1 * t188)
t199 = (0.1e1 + 0.21337642104376358333e-1 * t149 * t153 * t119 * s0 * t145) ** (0.1e1 / 0.4e1)
t202 = t149 ** 2
t214 = (0.1e1 + 0.45529497057445474566e-2 * t202 / t151 / t60 * t39 * t113 / t7 / t116 / r0) ** (0.1e1 / 0.8e1)
t219 = math.log(0.1e1 + (t191 - 0.1e1) * (0.1e1 - 0.1e1 / t199 / 0.2e1 - t214 / 0.2e1))
res = -t32 + t57 + t140 + t184 * ((-0.30197e-1 * t188 + 0.30197e-1 * t219) * (0.1e1 - 0.2363e1 * t40 * t38 * t42) + t32 - t57 - t140)
"

/- gen_repo/impl/prebuilt/pol/mgga_c_revtpss.py and gen_repo/impl/prebuilt/unpol/mgga_c_revtpss.py -/
formula mgga_c_revtpss pol "t1 = r0 - r1
t2 = r0 + r1
t4 = t1 / t2
t6 = lax_cond(0.0e0 < t4, t4, -t4)
t8 = params_a_C0_c[0]
t9 = params_a_C0_c[1]
t10 = params_a_C0_c[2]
t11 = params_a_C0_c[3]
t13 = t1 ** 2
t15 = t2 ** 2
t18 = t13 ** 2
t20 = t15 ** 2
t21 = 0.1e1 / t20
t29 = 0.1e1 + t4
t30 = t29 <= p_a_zeta_threshold
t31 = p_a_zeta_threshold - 0.1e1
t32 = 0.1e1 - t4
t33 = t32 <= p_a_zeta_threshold
t35 = lax_cond(t33, -t31, t4)
t36 = lax_cond(t30, t31, t35)
t37 = t36 ** 2
t39 = r0 ** 2
t40 = r0 ** (0.1e1 / 0.3e1)
t41 = t40 ** 2
t44 = s0 / t41 / t39
t45 = 0.1e1 + t36
t46 = t45 / 0.2e1
t47 = t46 ** (0.1e1 / 0.3e1)
t48 = t47 ** 2
t51 = r1 ** 2
t52 = r1 ** (0.1e1 / 0.3e1)
t53 = t52 ** 2
t56 = s2 / t53 / t51
t57 = 0.1e1 - t36
t58 = t57 / 0.2e1
t59 = t58 ** (0.1e1 / 0.3e1)
t60 = t59 ** 2
t64 = s0 + 0.2e1 * s1 + s2
t65 = t2 ** (0.1e1 / 0.3e1)
t66 = t65 ** 2
t69 = t64 / t66 / t15
t72 = 3 ** (0.1e1 / 0.3e1)
t73 = math.pi ** 2
t74 = t73 ** (0.1e1 / 0.3e1)
t75 = t74 ** 2
t78 = t45 ** (0.1e1 / 0.3e1)
t79 = t78 * t45
t81 = t57 ** (0.1e1 / 0.3e1)
t82 = t81 * t57
t89 = (0.1e1 + (0.1e1 - t37) * (t44 * t48 * t46 + t56 * t60 * t58 - t69) * t72 / t75 * (0.1e1 / t79 + 0.1e1 / t82) / 0.24e2) ** 2
t90 = t89 ** 2
t93 = lax_cond(-t6 <= -0.999999999999e0, t8 + t9 + t10 + t11, (t8 + t9 * t13 / t15 + t10 * t18 * t21 + t11 * t18 * t13 / t20 / t15) / t90)
t98 = t29 / 0.2e1
t99 = t98 ** (0.1e1 / 0.3e1)
t100 = t99 ** 2
t106 = t32 / 0.2e1
t107 = t106 ** (0.1e1 / 0.3e1)
t108 = t107 ** 2
t114 = t69 / (tau0 / t41 / r0 * t100 * t98 + tau1 / t53 / r1 * t108 * t106) / 0.8e1
t116 = lax_cond(0.1e1 < t114, 1, t114)
t117 = t116 ** 2
t120 = jnp.logical_or(r0 <= p_a_dens_threshold, t30)
t122 = (0.1e1 / math.pi) ** (0.1e1 / 0.3e1)
t123 = t72 * t122
t124 = 4 ** (0.1e1 / 0.3e1)
t125 = t124 ** 2
t126 = 0.1e1 / t65
t128 = t123 * t125 * t126
t131 = math.sqrt(t128)
t134 = t128 ** 0.15e1
t136 = t72 ** 2
t137 = t122 ** 2
t138 = t136 * t137
t139 = 0.1e1 / t66
t141 = t138 * t124 * t139
t147 = math.log(0.1e1 + 0.16081979498692535067e2 / (0.37978500000000000000e1 * t131 + 0.89690000000000000000e0 * t128 + 0.20477500000000000000e0 * t134 + 0.12323500000000000000e0 * t141))
t149 = 0.621814e-1 * (0.1e1 + 0.53425000000000000000e-1 * t128) * t147
t150 = t37 ** 2
t151 = t45 <= p_a_zeta_threshold
t152 = p_a_zeta_threshold ** (0.1e1 / 0.3e1)
t153 = t152 * p_a_zeta_threshold
t154 = lax_cond(t151, t153, t79)
t155 = t57 <= p_a_zeta_threshold
t156 = lax_cond(t155, t153, t82)
t157 = t154 + t156 - 0.2e1
t159 = 2 ** (0.1e1 / 0.3e1)
t162 = 0.1e1 / (0.2e1 * t159 - 0.2e1)
t173 = math.log(0.1e1 + 0.32163958997385070134e2 / (0.70594500000000000000e1 * t131 + 0.15494250000000000000e1 * t128 + 0.42077500000000000000e0 * t134 + 0.15629250000000000000e0 * t141))
t186 = math.log(0.1e1 + 0.29608749977793437516e2 / (0.51785000000000000000e1 * t131 + 0.90577500000000000000e0 * t128 + 0.11003250000000000000e0 * t134 + 0.12417750000000000000e0 * t141))
t187 = (0.1e1 + 0.27812500000000000000e-1 * t128) * t186
t189 = -0.3109070e-1 * (0.1e1 + 0.51370000000000000000e-1 * t128) * t173 + t149 - 0.19751673498613801407e-1 * t187
t191 = t150 * t157 * t162 * t189
t194 = 0.19751673498613801407e-1 * t157 * t162 * t187
t195 = math.log(0.2e1)
t196 = 0.1e1 - t195
t198 = t196 / t73
t199 = t152 ** 2
t200 = t78 ** 2
t201 = lax_cond(t151, t199, t200)
t202 = t81 ** 2
t203 = lax_cond(t155, t199, t202)
t205 = t201 / 0.2e1 + t203 / 0.2e1
t206 = t205 ** 2
t207 = t206 * t205
t213 = (0.1e1 + 0.25000000000000000000e-1 * t128) / (0.1e1 + 0.44450000000000000000e-1 * t128)
t217 = t64 / t65 / t15 * t159
t221 = 0.1e1 / t122 * t124
t225 = 0.1e1 / t196
t226 = t213 * t225
t232 = math.exp(-(-t149 + t191 + t194) * t225 * t73 / t207)
t235 = t73 / (t232 - 0.1e1)
t236 = t64 ** 2
t241 = t159 ** 2
t242 = 0.1e1 / t66 / t20 * t241
t243 = t206 ** 2
t246 = 0.1e1 / t137
t248 = t72 * t246 * t125
t252 = t217 / t206 * t136 * t221 / 0.96e2 + 0.21720231316129303386e-4 * t226 * t235 * t236 * t242 / t243 * t248
t254 = t225 * t73
t264 = math.log(0.1e1 + 0.66724550603149220e-1 * t213 * t252 * t254 / (0.1e1 + 0.66724550603149220e-1 * t226 * t235 * t252))
t267 = t198 * t207 * t264 - t149 + t191 + t194
t270 = t123 * t125
t271 = t126 * t159
t273 = (0.1e1 / t45) ** (0.1e1 / 0.3e1)
t275 = t270 * t271 * t273
t278 = math.sqrt(t275)
t281 = t275 ** 0.15e1
t283 = t138 * t124
t284 = t139 * t241
t285 = t273 ** 2
t287 = t283 * t284 * t285
t293 = math.log(0.1e1 + 0.16081979498692535067e2 / (0.37978500000000000000e1 * t278 + 0.89690000000000000000e0 * t275 + 0.20477500000000000000e0 * t281 + 0.12323500000000000000e0 * t287))
t295 = 0.621814e-1 * (0.1e1 + 0.53425000000000000000e-1 * t275) * t293
t296 = 0.2e1 <= p_a_zeta_threshold
t298 = lax_cond(t296, t153, 0.2e1 * t159)
t299 = 0.0e0 <= p_a_zeta_threshold
t300 = lax_cond(t299, t153, 0)
t302 = (t298 + t300 - 0.2e1) * t162
t313 = math.log(0.1e1 + 0.32163958997385070134e2 / (0.70594500000000000000e1 * t278 + 0.15494250000000000000e1 * t275 + 0.42077500000000000000e0 * t281 + 0.15629250000000000000e0 * t287))
t326 = math.log(0.1e1 + 0.29608749977793437516e2 / (0.51785000000000000000e1 * t278 + 0.90577500000000000000e0 * t275 + 0.11003250000000000000e0 * t281 + 0.12417750000000000000e0 * t287))
t327 = (0.1e1 + 0.27812500000000000000e-1 * t275) * t326
t330 = t302 * (-0.3109070e-1 * (0.1e1 + 0.51370000000000000000e-1 * t275) * t313 + t295 - 0.19751673498613801407e-1 * t327)
t332 = 0.19751673498613801407e-1 * t302 * t327
t333 = lax_cond(t296, t199, t241)
t334 = lax_cond(t299, t199, 0)
t336 = t333 / 0.2e1 + t334 / 0.2e1
t337 = t336 ** 2
t338 = t337 * t336
t344 = (0.1e1 + 0.25000000000000000000e-1 * t275) / (0.1e1 + 0.44450000000000000000e-1 * t275)
t346 = 0.1e1 / t337 * t136
t353 = t344 * t225
t357 = t73 / t338
t359 = math.exp(-(-t295 + t330 + t332) * t225 * t357)
t362 = t73 / (t359 - 0.1e1)
t363 = s0 ** 2
t366 = t39 ** 2
t370 = t337 ** 2
t371 = 0.1e1 / t370
t374 = t246 * t125
t381 = t44 * t346 * t221 * t65 / t273 / 0.96e2 + 0.21720231316129303386e-4 * t353 * t362 * t363 / t40 / t366 / r0 * t371 * t72 * t374 * t66 / t285
t392 = math.log(0.1e1 + 0.66724550603149220e-1 * t344 * t381 * t254 / (0.1e1 + 0.66724550603149220e-1 * t353 * t362 * t381))
t395 = t198 * t338 * t392 - t295 + t330 + t332
t397 = lax_cond(t267 < t395, t395, t267)
t400 = lax_cond(t120, t267 * t29 / 0.2e1, t397 * t45 / 0.2e1)
t402 = jnp.logical_or(r1 <= p_a_dens_threshold, t33)
t406 = (0.1e1 / t57) ** (0.1e1 / 0.3e1)
t408 = t270 * t271 * t406
t411 = math.sqrt(t408)
t414 = t408 ** 0.15e1
t416 = t406 ** 2
t418 = t283 * t284 * t416
t424 = math.log(0.1e1 + 0.16081979498692535067e2 / (0.37978500000000000000e1 * t411 + 0.89690000000000000000e0 * t408 + 0.20477500000000000000e0 * t414 + 0.12323500000000000000e0 * t418))
t426 = 0.621814e-1 * (0.1e1 + 0.53425000000000000000e-1 * t408) * t424
t437 = math.log(0.1e1 + 0.32163958997385070134e2 / (0.70594500000000000000e1 * t411 + 0.15494250000000000000e1 * t408 + 0.42077500000000000000e0 * t414 + 0.15629250000000000000e0 * t418))
t450 = math.log(0.1e1 + 0.29608749977793437516e2 / (0.51785000000000000000e1 * t411 + 0.90577500000000000000e0 * t408 + 0.11003250000000000000e0 * t414 + 0.12417750000000000000e0 * t418))
t451 = (0.1e1 + 0.27812500000000000000e-1 * t408) * t450
t454 = t302 * (-0.3109070e-1 * (0.1e1 + 0.51370000000000000000e-1 * t408) * t437 + t426 - 0.19751673498613801407e-1 * t451)
t456 = 0.19751673498613801407e-1 * t302 * t451
t462 = (0.1e1 + 0.25000000000000000000e-1 * t408) / (0.1e1 + 0.44450000000000000000e-1 * t408)
t469 = t462 * t225
t473 = math.exp(-(-t426 + t454 + t456) * t225 * t357)
t476 = t73 / (t473 - 0.1e1)
t477 = s2 ** 2
t480 = t51 ** 2
t492 = t56 * t346 * t221 * t65 / t406 / 0.96e2 + 0.21720231316129303386e-4 * t469 * t476 * t477 / t52 / t480 / r1 * t371 * t72 * t374 * t66 / t416
t503 = math.log(0.1e1 + 0.66724550603149220e-1 * t462 * t492 * t254 / (0.1e1 + 0.66724550603149220e-1 * t469 * t476 * t492))
t506 = t198 * t338 * t503 - t426 + t454 + t456
t508 = lax_cond(t267 < t506, t506, t267)
t511 = lax_cond(t402, t267 * t32 / 0.2e1, t508 * t57 / 0.2e1)
t517 = t29 ** (0.1e1 / 0.3e1)
t519 = lax_cond(t30, t153, t517 * t29)
t520 = t32 ** (0.1e1 / 0.3e1)
t522 = lax_cond(t33, t153, t520 * t32)
t524 = (t519 + t522 - 0.2e1) * t162
t526 = t18 * t21 * t524 * t189
t528 = 0.19751673498613801407e-1 * t524 * t187
t529 = t517 ** 2
t530 = lax_cond(t30, t199, t529)
t531 = t520 ** 2
t532 = lax_cond(t33, t199, t531)
t534 = t530 / 0.2e1 + t532 / 0.2e1
t535 = t534 ** 2
t536 = t535 * t534
t547 = math.exp(-(-t149 + t526 + t528) * t225 * t73 / t536)
t550 = t73 / (t547 - 0.1e1)
t553 = t535 ** 2
t559 = t217 / t535 * t136 * t221 / 0.96e2 + 0.21720231316129303386e-4 * t226 * t550 * t236 * t242 / t553 * t248
t570 = math.log(0.1e1 + 0.66724550603149220e-1 * t213 * t559 * t254 / (0.1e1 + 0.66724550603149220e-1 * t226 * t550 * t559))
t575 = -(0.1e1 + t93) * t117 * (t400 + t511) + (t93 * t117 + 0.1e1) * (t198 * t536 * t570 - t149 + t526 + t528)
res = t575 * (params_a_d * t575 * t117 * t116 + 0.1e1)
" unpol "t2 = lax_cond(0 < 0, 0, 0)
t4 = params_a_C0_c[0]
t9 = 0.1e1 <= p_a_zeta_threshold
t10 = p_a_zeta_threshold - 0.1e1
t12 = lax_cond(t9, -t10, 0)
t13 = lax_cond(t9, t10, t12)
t14 = t13 ** 2
t16 = 2 ** (0.1e1 / 0.3e1)
t17 = t16 ** 2
t18 = s0 * t17
t19 = r0 ** 2
t20 = r0 ** (0.1e1 / 0.3e1)
t21 = t20 ** 2
t23 = 0.1e1 / t21 / t19
t24 = 0.1e1 + t13
t25 = t24 / 0.2e1
t26 = t25 ** (0.1e1 / 0.3e1)
t27 = t26 ** 2
t31 = 0.1e1 - t13
t32 = t31 / 0.2e1
t33 = t32 ** (0.1e1 / 0.3e1)
t34 = t33 ** 2
t41 = 3 ** (0.1e1 / 0.3e1)
t42 = math.pi ** 2
t43 = t42 ** (0.1e1 / 0.3e1)
t44 = t43 ** 2
t47 = t24 ** (0.1e1 / 0.3e1)
t48 = t47 * t24
t50 = t31 ** (0.1e1 / 0.3e1)
t51 = t50 * t31
t58 = (0.1e1 + (0.1e1 - t14) * (t18 * t23 * t27 * t25 + t18 * t23 * t34 * t32 - s0 * t23) * t41 / t44 * (0.1e1 / t48 + 0.1e1 / t51) / 0.24e2) ** 2
t59 = t58 ** 2
t62 = lax_cond(-t2 <= -0.999999999999e0, t4 + params_a_C0_c[1] + params_a_C0_c[2] + params_a_C0_c[3], t4 / t59)
t68 = s0 / r0 / tau0 / 0.8e1
t70 = lax_cond(0.1e1 < t68, 1, t68)
t71 = t70 ** 2
t75 = jnp.logical_or(r0 / 0.2e1 <= p_a_dens_threshold, t9)
t77 = (0.1e1 / math.pi) ** (0.1e1 / 0.3e1)
t78 = t41 * t77
t79 = 4 ** (0.1e1 / 0.3e1)
t80 = t79 ** 2
t81 = 0.1e1 / t20
t83 = t78 * t80 * t81
t86 = math.sqrt(t83)
t89 = t83 ** 0.15e1
t91 = t41 ** 2
t92 = t77 ** 2
t93 = t91 * t92
t94 = 0.1e1 / t21
t96 = t93 * t79 * t94
t102 = math.log(0.1e1 + 0.16081979498692535067e2 / (0.37978500000000000000e1 * t86 + 0.89690000000000000000e0 * t83 + 0.20477500000000000000e0 * t89 + 0.12323500000000000000e0 * t96))
t103 = (0.1e1 + 0.53425000000000000000e-1 * t83) * t102
t105 = t14 ** 2
t106 = t24 <= p_a_zeta_threshold
t107 = p_a_zeta_threshold ** (0.1e1 / 0.3e1)
t108 = t107 * p_a_zeta_threshold
t109 = lax_cond(t106, t108, t48)
t110 = t31 <= p_a_zeta_threshold
t111 = lax_cond(t110, t108, t51)
t112 = t109 + t111 - 0.2e1
t116 = 0.1e1 / (0.2e1 * t16 - 0.2e1)
t127 = math.log(0.1e1 + 0.32163958997385070134e2 / (0.70594500000000000000e1 * t86 + 0.15494250000000000000e1 * t83 + 0.42077500000000000000e0 * t89 + 0.15629250000000000000e0 * t96))
t130 = 0.621814e-1 * t103
t141 = math.log(0.1e1 + 0.29608749977793437516e2 / (0.51785000000000000000e1 * t86 + 0.90577500000000000000e0 * t83 + 0.11003250000000000000e0 * t89 + 0.12417750000000000000e0 * t96))
t142 = (0.1e1 + 0.27812500000000000000e-1 * t83) * t141
t146 = t105 * t112 * t116 * (-0.3109070e-1 * (0.1e1 + 0.51370000000000000000e-1 * t83) * t127 + t130 - 0.19751673498613801407e-1 * t142)
t149 = t112 * t116 * t142
t151 = math.log(0.2e1)
t152 = 0.1e1 - t151
t154 = t152 / t42
t155 = t107 ** 2
t156 = t47 ** 2
t157 = lax_cond(t106, t155, t156)
t158 = t50 ** 2
t159 = lax_cond(t110, t155, t158)
t161 = t157 / 0.2e1 + t159 / 0.2e1
t162 = t161 ** 2
t163 = t162 * t161
t169 = (0.1e1 + 0.25000000000000000000e-1 * t83) / (0.1e1 + 0.44450000000000000000e-1 * t83)
t172 = s0 / t20 / t19
t173 = t172 * t16
t177 = 0.1e1 / t77 * t79
t181 = 0.1e1 / t152
t182 = t169 * t181
t183 = 0.19751673498613801407e-1 * t149
t189 = math.exp(-(-t130 + t146 + t183) * t181 * t42 / t163)
t192 = t42 / (t189 - 0.1e1)
t193 = s0 ** 2
t196 = t19 ** 2
t198 = 0.1e1 / t21 / t196
t199 = t198 * t17
t200 = t162 ** 2
t203 = 0.1e1 / t92
t205 = t41 * t203 * t80
t209 = t173 / t162 * t91 * t177 / 0.96e2 + 0.21720231316129303386e-4 * t182 * t192 * t193 * t199 / t200 * t205
t211 = t181 * t42
t221 = math.log(0.1e1 + 0.66724550603149220e-1 * t169 * t209 * t211 / (0.1e1 + 0.66724550603149220e-1 * t182 * t192 * t209))
t223 = t154 * t163 * t221
t225 = -0.31090700000000000000e-1 * t103 + t146 / 0.2e1 + 0.98758367493069007035e-2 * t149 + t223 / 0.2e1
t226 = -t130 + t146 + t183 + t223
t227 = t78 * t80
t228 = t81 * t16
t230 = (0.1e1 / t24) ** (0.1e1 / 0.3e1)
t232 = t227 * t228 * t230
t235 = math.sqrt(t232)
t238 = t232 ** 0.15e1
t240 = t93 * t79
t241 = t94 * t17
t242 = t230 ** 2
t244 = t240 * t241 * t242
t250 = math.log(0.1e1 + 0.16081979498692535067e2 / (0.37978500000000000000e1 * t235 + 0.89690000000000000000e0 * t232 + 0.20477500000000000000e0 * t238 + 0.12323500000000000000e0 * t244))
t252 = 0.621814e-1 * (0.1e1 + 0.53425000000000000000e-1 * t232) * t250
t253 = 0.2e1 <= p_a_zeta_threshold
t255 = lax_cond(t253, t108, 0.2e1 * t16)
t256 = 0.0e0 <= p_a_zeta_threshold
t257 = lax_cond(t256, t108, 0)
t259 = (t255 + t257 - 0.2e1) * t116
t270 = math.log(0.1e1 + 0.32163958997385070134e2 / (0.70594500000000000000e1 * t235 + 0.15494250000000000000e1 * t232 + 0.42077500000000000000e0 * t238 + 0.15629250000000000000e0 * t244))
t283 = math.log(0.1e1 + 0.29608749977793437516e2 / (0.51785000000000000000e1 * t235 + 0.90577500000000000000e0 * t232 + 0.11003250000000000000e0 * t238 + 0.12417750000000000000e0 * t244))
t284 = (0.1e1 + 0.27812500000000000000e-1 * t232) * t283
t287 = t259 * (-0.3109070e-1 * (0.1e1 + 0.51370000000000000000e-1 * t232) * t270 + t252 - 0.19751673498613801407e-1 * t284)
t289 = 0.19751673498613801407e-1 * t259 * t284
t290 = lax_cond(t253, t155, t17)
t291 = lax_cond(t256, t155, 0)
t293 = t290 / 0.2e1 + t291 / 0.2e1
t294 = t293 ** 2
t295 = t294 * t293
t301 = (0.1e1 + 0.25000000000000000000e-1 * t232) / (0.1e1 + 0.44450000000000000000e-1 * t232)
t304 = t172 / t294 * t91
t310 = t301 * t181
t314 = t42 / t295
t316 = math.exp(-(-t252 + t287 + t289) * t181 * t314)
t319 = t42 / (t316 - 0.1e1)
t322 = t294 ** 2
t325 = t198 / t322 * t41
t326 = t203 * t80
t333 = t304 * t177 * t17 / t230 / 0.96e2 + 0.43440462632258606772e-4 * t310 * t319 * t193 * t325 * t326 * t16 / t242
t344 = math.log(0.1e1 + 0.66724550603149220e-1 * t301 * t333 * t211 / (0.1e1 + 0.66724550603149220e-1 * t310 * t319 * t333))
t347 = t154 * t295 * t344 - t252 + t287 + t289
t349 = lax_cond(t226 < t347, t347, t226)
t352 = lax_cond(t75, t225, t349 * t24 / 0.2e1)
t354 = (0.1e1 / t31) ** (0.1e1 / 0.3e1)
t356 = t227 * t228 * t354
t359 = math.sqrt(t356)
t362 = t356 ** 0.15e1
t364 = t354 ** 2
t366 = t240 * t241 * t364
t372 = math.log(0.1e1 + 0.16081979498692535067e2 / (0.37978500000000000000e1 * t359 + 0.89690000000000000000e0 * t356 + 0.20477500000000000000e0 * t362 + 0.12323500000000000000e0 * t366))
t374 = 0.621814e-1 * (0.1e1 + 0.53425000000000000000e-1 * t356) * t372
t385 = math.log(0.1e1 + 0.32163958997385070134e2 / (0.70594500000000000000e1 * t359 + 0.15494250000000000000e1 * t356 + 0.42077500000000000000e0 * t362 + 0.15629250000000000000e0 * t366))
t398 = math.log(0.1e1 + 0.29608749977793437516e2 / (0.51785000000000000000e1 * t359 + 0.90577500000000000000e0 * t356 + 0.11003250000000000000e0 * t362 + 0.12417750000000000000e0 * t366))
t399 = (0.1e1 + 0.27812500000000000000e-1 * t356) * t398
t402 = t259 * (-0.3109070e-1 * (0.1e1 + 0.51370000000000000000e-1 * t356) * t385 + t374 - 0.19751673498613801407e-1 * t399)
t404 = 0.19751673498613801407e-1 * t259 * t399
t410 = (0.1e1 + 0.25000000000000000000e-1 * t356) / (0.1e1 + 0.44450000000000000000e-1 * t356)
t416 = t410 * t181
t420 = math.exp(-(-t374 + t402 + t404) * t181 * t314)
t423 = t42 / (t420 - 0.1e1)
t432 = t304 * t177 * t17 / t354 / 0.96e2 + 0.43440462632258606772e-4 * t416 * t423 * t193 * t325 * t326 * t16 / t364
t443 = math.log(0.1e1 + 0.66724550603149220e-1 * t410 * t432 * t211 / (0.1e1 + 0.66724550603149220e-1 * t416 * t423 * t432))
t446 = t154 * t295 * t443 - t374 + t402 + t404
t448 = lax_cond(t226 < t446, t446, t226)
t451 = lax_cond(t75, t225, t448 * t31 / 0.2e1)
t456 = lax_cond(t9, t108, 1)
t461 = 0.19751673498613801407e-1 * (0.2e1 * t456 - 0.2e1) * t116 * t142
t462 = lax_cond(t9, t155, 1)
t463 = t462 ** 2
t464 = t463 * t462
t475 = math.exp(-(-t130 + t461) * t181 * t42 / t464)
t478 = t42 / (t475 - 0.1e1)
t481 = t463 ** 2
t487 = t173 / t463 * t91 * t177 / 0.96e2 + 0.21720231316129303386e-4 * t182 * t478 * t193 * t199 / t481 * t205
t498 = math.log(0.1e1 + 0.66724550603149220e-1 * t169 * t487 * t211 / (0.1e1 + 0.66724550603149220e-1 * t182 * t478 * t487))
t503 = -(0.1e1 + t62) * t71 * (t352 + t451) + (t62 * t71 + 0.1e1) * (t154 * t464 * t498 - t130 + t461)
res = t503 * (params_a_d * t503 * t71 * t70 + 0.1e1)
"

/- gen_repo/impl/prebuilt/pol/mgga_c_rmggac.py and gen_repo/impl/prebuilt/unpol/mgga_c_rmggac.py -/
formula mgga_c_rmggac pol "t1 = 3 ** (0.1e1 / 0.3e1)
t3 = (0.1e1 / math.pi) ** (0.1e1 / 0.3e1)
t5 = 4 ** (0.1e1 / 0.3e1)
t6 = t5 ** 2
t7 = r0 + r1
t8 = t7 ** (0.1e1 / 0.3e1)
t11 = t1 * t3 * t6 / t8
t12 = math.sqrt(t11)
t16 = 0.1e1 / (0.1e1 + 0.44450000000000000000e-1 * t12 + 0.31385250000000000000e-1 * t11)
t19 = math.exp(0.10000000000000000000e1 * t16)
t21 = 6 ** (0.1e1 / 0.3e1)
t22 = math.pi ** 2
t23 = t22 ** (0.1e1 / 0.3e1)
t24 = t23 ** 2
t26 = t21 / t24
t27 = 2 ** (0.1e1 / 0.3e1)
t28 = t27 ** 2
t30 = s0 + 0.2e1 * s1 + s2
t32 = t7 ** 2
t33 = t8 ** 2
t35 = 0.1e1 / t33 / t32
t37 = t26 * t28 * t30 * t35
t40 = (0.1e1 + 0.21337642104376358333e-1 * t37) ** (0.1e1 / 0.4e1)
t45 = math.log(0.1e1 + (t19 - 0.1e1) * (0.1e1 - 0.1e1 / t40))
t48 = t27 - 0.1e1
t49 = r0 - r1
t51 = t49 / t7
t52 = 0.1e1 + t51
t53 = t52 <= p_a_zeta_threshold
t54 = p_a_zeta_threshold ** (0.1e1 / 0.3e1)
t55 = t54 * p_a_zeta_threshold
t56 = t52 ** (0.1e1 / 0.3e1)
t58 = lax_cond(t53, t55, t56 * t52)
t59 = 0.1e1 - t51
t60 = t59 <= p_a_zeta_threshold
t61 = t59 ** (0.1e1 / 0.3e1)
t63 = lax_cond(t60, t55, t61 * t59)
t64 = t58 + t63 - 0.2e1
t67 = 0.1e1 / t48 / 0.2e1
t72 = t49 ** 2
t73 = t72 ** 2
t74 = t73 ** 2
t76 = t32 ** 2
t77 = t76 ** 2
t82 = r0 ** (0.1e1 / 0.3e1)
t83 = t82 ** 2
t87 = t52 / 0.2e1
t88 = t87 ** (0.1e1 / 0.3e1)
t89 = t88 ** 2
t93 = r1 ** (0.1e1 / 0.3e1)
t94 = t93 ** 2
t98 = t59 / 0.2e1
t99 = t98 ** (0.1e1 / 0.3e1)
t100 = t99 ** 2
t106 = 0.2e1 * tau0 / t83 / r0 * t89 * t87 + 0.2e1 * tau1 / t94 / r1 * t100 * t98 - t30 * t35 / 0.4e1
t107 = t106 ** 2
t108 = t107 * t106
t109 = t22 ** 2
t110 = 0.1e1 / t109
t111 = t108 * t110
t116 = 0.8e-1 + 0.5e1 / 0.18e2 * t106 * t28 * t26 + 0.12500000000000000000e-1 * t37
t117 = t116 ** 2
t119 = 0.1e1 / t117 / t116
t122 = t107 ** 2
t124 = t109 ** 2
t127 = t117 ** 2
t133 = 0.1e1 / (0.1e1 + 0.64800000000000000000e0 * t111 * t119 + 0.41990400000000000000e0 * t122 * t107 / t124 / t127 / t117)
t144 = t11 ** 0.15e1
t146 = t1 ** 2
t147 = t3 ** 2
t151 = t146 * t147 * t5 / t33
t157 = math.log(0.1e1 + 0.16081979498692535067e2 / (0.37978500000000000000e1 * t12 + 0.89690000000000000000e0 * t11 + 0.20477500000000000000e0 * t144 + 0.12323500000000000000e0 * t151))
t159 = 0.621814e-1 * (0.1e1 + 0.53425000000000000000e-1 * t11) * t157
t162 = t64 * t67
t173 = math.log(0.1e1 + 0.32163958997385070134e2 / (0.70594500000000000000e1 * t12 + 0.15494250000000000000e1 * t11 + 0.42077500000000000000e0 * t144 + 0.15629250000000000000e0 * t151))
t186 = math.log(0.1e1 + 0.29608749977793437516e2 / (0.51785000000000000000e1 * t12 + 0.90577500000000000000e0 * t11 + 0.11003250000000000000e0 * t144 + 0.12417750000000000000e0 * t151))
t187 = (0.1e1 + 0.27812500000000000000e-1 * t11) * t186
t191 = t73 / t76 * t162 * (-0.3109070e-1 * (0.1e1 + 0.51370000000000000000e-1 * t11) * t173 + t159 - 0.19751673498613801407e-1 * t187)
t193 = 0.19751673498613801407e-1 * t162 * t187
t194 = t54 ** 2
t195 = t56 ** 2
t196 = lax_cond(t53, t194, t195)
t197 = t61 ** 2
t198 = lax_cond(t60, t194, t197)
t200 = t196 / 0.2e1 + t198 / 0.2e1
t201 = t200 ** 2
t202 = t201 * t200
t203 = -t159 + t191 + t193
t204 = 0.1e1 / t202
t207 = math.exp(-0.32163648644302209643e2 * t203 * t204)
t209 = math.log(0.2e1)
t211 = 0.1e1 / (0.1e1 - t209)
t216 = math.exp(-t203 * t211 * t22 * t204)
t233 = (0.1e1 + 0.27802083333333333333e-2 * t211 * t22 / (t216 - 0.1e1) * t30 / t8 / t32 * t27 / t201 * t146 / t3 * t5) ** (0.1e1 / 0.4e1)
t238 = math.log(0.1e1 + (t207 - 0.1e1) * (0.1e1 - 0.1e1 / t233))
res = (-0.285764e-1 * t16 + 0.285764e-1 * t45) * (0.1e1 - 0.2363e1 * t48 * t64 * t67) * (0.1e1 - t74 * t73 / t77 / t76) * (0.1e1 - 0.19440000000000000000e1 * t111 * t119 * t133) + 0.19440000000000000000e1 * (-t159 + t191 + t193 + 0.31091e-1 * t202 * t238) * t108 * t110 * t119 * t133
" unpol "t1 = 3 ** (0.1e1 / 0.3e1)
t3 = (0.1e1 / math.pi) ** (0.1e1 / 0.3e1)
t5 = 4 ** (0.1e1 / 0.3e1)
t6 = t5 ** 2
t7 = r0 ** (0.1e1 / 0.3e1)
t10 = t1 * t3 * t6 / t7
t11 = math.sqrt(t10)
t15 = 0.1e1 / (0.1e1 + 0.44450000000000000000e-1 * t11 + 0.31385250000000000000e-1 * t10)
t18 = math.exp(0.10000000000000000000e1 * t15)
t20 = 6 ** (0.1e1 / 0.3e1)
t21 = math.pi ** 2
t22 = t21 ** (0.1e1 / 0.3e1)
t23 = t22 ** 2
t25 = t20 / t23
t26 = 2 ** (0.1e1 / 0.3e1)
t27 = t26 ** 2
t29 = r0 ** 2
t30 = t7 ** 2
t32 = 0.1e1 / t30 / t29
t34 = t25 * t27 * s0 * t32
t37 = (0.1e1 + 0.21337642104376358333e-1 * t34) ** (0.1e1 / 0.4e1)
t42 = math.log(0.1e1 + (t18 - 0.1e1) * (0.1e1 - 0.1e1 / t37))
t45 = t26 - 0.1e1
t46 = 0.1e1 <= p_a_zeta_threshold
t47 = p_a_zeta_threshold ** (0.1e1 / 0.3e1)
t49 = lax_cond(t46, t47 * p_a_zeta_threshold, 1)
t51 = 0.2e1 * t49 - 0.2e1
t54 = 0.1e1 / t45 / 0.2e1
t65 = 0.2e1 * tau0 / t30 / r0 - s0 * t32 / 0.4e1
t66 = t65 ** 2
t67 = t66 * t65
t68 = t21 ** 2
t69 = 0.1e1 / t68
t70 = t67 * t69
t75 = 0.8e-1 + 0.5e1 / 0.18e2 * t65 * t27 * t25 + 0.12500000000000000000e-1 * t34
t76 = t75 ** 2
t78 = 0.1e1 / t76 / t75
t81 = t66 ** 2
t83 = t68 ** 2
t86 = t76 ** 2
t92 = 0.1e1 / (0.1e1 + 0.64800000000000000000e0 * t70 * t78 + 0.41990400000000000000e0 * t81 * t66 / t83 / t86 / t76)
t102 = t10 ** 0.15e1
t104 = t1 ** 2
t105 = t3 ** 2
t109 = t104 * t105 * t5 / t30
t115 = math.log(0.1e1 + 0.16081979498692535067e2 / (0.37978500000000000000e1 * t11 + 0.89690000000000000000e0 * t10 + 0.20477500000000000000e0 * t102 + 0.12323500000000000000e0 * t109))
t117 = 0.621814e-1 * (0.1e1 + 0.53425000000000000000e-1 * t10) * t115
t129 = math.log(0.1e1 + 0.29608749977793437516e2 / (0.51785000000000000000e1 * t11 + 0.90577500000000000000e0 * t10 + 0.11003250000000000000e0 * t102 + 0.12417750000000000000e0 * t109))
t132 = 0.19751673498613801407e-1 * t51 * t54 * (0.1e1 + 0.27812500000000000000e-1 * t10) * t129
t133 = t47 ** 2
t134 = lax_cond(t46, t133, 1)
t135 = t134 ** 2
t136 = t135 * t134
t137 = -t117 + t132
t138 = 0.1e1 / t136
t141 = math.exp(-0.32163648644302209643e2 * t137 * t138)
t143 = math.log(0.2e1)
t145 = 0.1e1 / (0.1e1 - t143)
t150 = math.exp(-t137 * t145 * t21 * t138)
t167 = (0.1e1 + 0.27802083333333333333e-2 * t145 * t21 / (t150 - 0.1e1) * s0 / t7 / t29 * t26 / t135 * t104 / t3 * t5) ** (0.1e1 / 0.4e1)
t172 = math.log(0.1e1 + (t141 - 0.1e1) * (0.1e1 - 0.1e1 / t167))
res = (-0.285764e-1 * t15 + 0.285764e-1 * t42) * (0.1e1 - 0.2363e1 * t45 * t51 * t54) * (0.1e1 - 0.19440000000000000000e1 * t70 * t78 * t92) + 0.19440000000000000000e1 * (-t117 + t132 + 0.31091e-1 * t136 * t172) * t67 * t69 * t78 * t92
"

/- gen_repo/impl/prebuilt/pol/mgga_c_rppscan.py and gen_repo/impl/prebuilt/unpol/mgga_c_rppscan.py -/
formula mgga_c_rppscan pol "t1 = 3 ** (0.1e1 / 0.3e1)
t3 = (0.1e1 / math.pi) ** (0.1e1 / 0.3e1)
t5 = 4 ** (0.1e1 / 0.3e1)
t6 = t5 ** 2
t7 = r0 + r1
t8 = t7 ** (0.1e1 / 0.3e1)
t11 = t1 * t3 * t6 / t8
t14 = math.sqrt(t11)
t17 = t11 ** 0.15e1
t19 = t1 ** 2
t20 = t3 ** 2
t22 = t8 ** 2
t25 = t19 * t20 * t5 / t22
t31 = math.log(0.1e1 + 0.16081979498692535067e2 / (0.37978500000000000000e1 * t14 + 0.89690000000000000000e0 * t11 + 0.20477500000000000000e0 * t17 + 0.12323500000000000000e0 * t25))
t33 = 0.621814e-1 * (0.1e1 + 0.53425000000000000000e-1 * t11) * t31
t34 = r0 - r1
t35 = t34 ** 2
t36 = t35 ** 2
t37 = t7 ** 2
t38 = t37 ** 2
t42 = t34 / t7
t43 = 0.1e1 + t42
t44 = t43 <= p_a_zeta_threshold
t45 = p_a_zeta_threshold ** (0.1e1 / 0.3e1)
t46 = t45 * p_a_zeta_threshold
t47 = t43 ** (0.1e1 / 0.3e1)
t49 = lax_cond(t44, t46, t47 * t43)
t50 = 0.1e1 - t42
t51 = t50 <= p_a_zeta_threshold
t52 = t50 ** (0.1e1 / 0.3e1)
t54 = lax_cond(t51, t46, t52 * t50)
t55 = t49 + t54 - 0.2e1
t56 = 2 ** (0.1e1 / 0.3e1)
t57 = t56 - 0.1e1
t59 = 0.1e1 / t57 / 0.2e1
t60 = t55 * t59
t71 = math.log(0.1e1 + 0.32163958997385070134e2 / (0.70594500000000000000e1 * t14 + 0.15494250000000000000e1 * t11 + 0.42077500000000000000e0 * t17 + 0.15629250000000000000e0 * t25))
t84 = math.log(0.1e1 + 0.29608749977793437516e2 / (0.51785000000000000000e1 * t14 + 0.90577500000000000000e0 * t11 + 0.11003250000000000000e0 * t17 + 0.12417750000000000000e0 * t25))
t85 = (0.1e1 + 0.27812500000000000000e-1 * t11) * t84
t89 = t36 / t38 * t60 * (-0.3109070e-1 * (0.1e1 + 0.51370000000000000000e-1 * t11) * t71 + t33 - 0.19751673498613801407e-1 * t85)
t91 = 0.19751673498613801407e-1 * t60 * t85
t92 = math.log(0.2e1)
t93 = 0.1e1 - t92
t94 = math.pi ** 2
t97 = t45 ** 2
t98 = t47 ** 2
t99 = lax_cond(t44, t97, t98)
t100 = t52 ** 2
t101 = lax_cond(t51, t97, t100)
t103 = t99 / 0.2e1 + t101 / 0.2e1
t104 = t103 ** 2
t105 = t104 * t103
t112 = 0.1e1 / t93
t119 = math.exp(-(-t33 + t89 + t91) * t112 * t94 / t105)
t120 = t119 - 0.1e1
t124 = s0 + 0.2e1 * s1 + s2
t139 = (0.1e1 + 0.27801896084645508333e-2 * (0.1e1 + 0.25000000000000000000e-1 * t11) / (0.1e1 + 0.44450000000000000000e-1 * t11) * t112 * t94 / t120 * t124 / t8 / t37 * t56 / t104 * t19 / t3 * t5) ** (0.1e1 / 0.4e1)
t145 = math.log(0.1e1 + 0.10000000000000000000e1 * (0.1e1 - 0.1e1 / t139) * t120)
t147 = t93 / t94 * t105 * t145
t148 = r0 ** (0.1e1 / 0.3e1)
t149 = t148 ** 2
t153 = t43 / 0.2e1
t154 = t153 ** (0.1e1 / 0.3e1)
t155 = t154 ** 2
t156 = t155 * t153
t158 = r1 ** (0.1e1 / 0.3e1)
t159 = t158 ** 2
t163 = t50 / 0.2e1
t164 = t163 ** (0.1e1 / 0.3e1)
t165 = t164 ** 2
t166 = t165 * t163
t169 = 0.1e1 / t22 / t37
t173 = 6 ** (0.1e1 / 0.3e1)
t174 = t173 ** 2
t175 = t94 ** (0.1e1 / 0.3e1)
t176 = t175 ** 2
t186 = (tau0 / t149 / r0 * t156 + tau1 / t159 / r1 * t166 - t124 * t169 / 0.8e1) / (0.3e1 / 0.10e2 * t174 * t176 * (t156 + t166) + params_a_eta * t124 * t169 / 0.8e1)
t188 = 0.25e1 < t186
t189 = lax_cond(t188, 0.25e1, t186)
t191 = t189 ** 2
t193 = t191 * t189
t195 = t191 ** 2
t204 = lax_cond(t188, t186, 0.25e1)
t208 = math.exp(0.15e1 / (0.1e1 - t204))
t210 = lax_cond(t186 <= 0.25e1, 0.1e1 - 0.64e0 * t189 - 0.4352e0 * t191 - 0.1535685604549e1 * t193 + 0.3061560252175e1 * t195 - 0.1915710236206e1 * t195 * t189 + 0.516884468372e0 * t195 * t191 - 0.51848879792e-1 * t195 * t193, -0.7e0 * t208)
t214 = 0.1e1 / (0.1e1 + 0.44450000000000000000e-1 * t14 + 0.31385250000000000000e-1 * t11)
t217 = math.exp(0.10000000000000000000e1 * t214)
t221 = t56 ** 2
t227 = (0.1e1 + 0.21337642104376358333e-1 * t173 / t176 * t221 * t124 * t169) ** (0.1e1 / 0.4e1)
t232 = math.log(0.1e1 + (t217 - 0.1e1) * (0.1e1 - 0.1e1 / t227))
t240 = t36 ** 2
t242 = t38 ** 2
res = -t33 + t89 + t91 + t147 + t210 * ((-0.285764e-1 * t214 + 0.285764e-1 * t232) * (0.1e1 - 0.2363e1 * t57 * t55 * t59) * (0.1e1 - t240 * t36 / t242 / t38) + t33 - t89 - t91 - t147)
" unpol "t1 = 3 ** (0.1e1 / 0.3e1)
t3 = (0.1e1 / math.pi) ** (0.1e1 / 0.3e1)
t5 = 4 ** (0.1e1 / 0.3e1)
t6 = t5 ** 2
t7 = r0 ** (0.1e1 / 0.3e1)
t10 = t1 * t3 * t6 / t7
t13 = math.sqrt(t10)
t16 = t10 ** 0.15e1
t18 = t1 ** 2
t19 = t3 ** 2
t21 = t7 ** 2
t24 = t18 * t19 * t5 / t21
t30 = math.log(0.1e1 + 0.16081979498692535067e2 / (0.37978500000000000000e1 * t13 + 0.89690000000000000000e0 * t10 + 0.20477500000000000000e0 * t16 + 0.12323500000000000000e0 * t24))
t32 = 0.621814e-1 * (0.1e1 + 0.53425000000000000000e-1 * t10) * t30
t33 = 0.1e1 <= p_a_zeta_threshold
t34 = p_a_zeta_threshold ** (0.1e1 / 0.3e1)
t36 = lax_cond(t33, t34 * p_a_zeta_threshold, 1)
t38 = 0.2e1 * t36 - 0.2e1
t39 = 2 ** (0.1e1 / 0.3e1)
t40 = t39 - 0.1e1
t42 = 0.1e1 / t40 / 0.2e1
t54 = math.log(0.1e1 + 0.29608749977793437516e2 / (0.51785000000000000000e1 * t13 + 0.90577500000000000000e0 * t10 + 0.11003250000000000000e0 * t16 + 0.12417750000000000000e0 * t24))
t57 = 0.19751673498613801407e-1 * t38 * t42 * (0.1e1 + 0.27812500000000000000e-1 * t10) * t54
t58 = math.log(0.2e1)
t59 = 0.1e1 - t58
t60 = math.pi ** 2
t63 = t34 ** 2
t64 = lax_cond(t33, t63, 1)
t65 = t64 ** 2
t66 = t65 * t64
t73 = 0.1e1 / t59
t80 = math.exp(-(-t32 + t57) * t73 * t60 / t66)
t81 = t80 - 0.1e1
t86 = r0 ** 2
t99 = (0.1e1 + 0.27801896084645508333e-2 * (0.1e1 + 0.25000000000000000000e-1 * t10) / (0.1e1 + 0.44450000000000000000e-1 * t10) * t73 * t60 / t81 * s0 / t7 / t86 * t39 / t65 * t18 / t3 * t5) ** (0.1e1 / 0.4e1)
t105 = math.log(0.1e1 + 0.10000000000000000000e1 * (0.1e1 - 0.1e1 / t99) * t81)
t107 = t59 / t60 * t66 * t105
t112 = 0.1e1 / t21 / t86
t116 = 6 ** (0.1e1 / 0.3e1)
t117 = t116 ** 2
t118 = t60 ** (0.1e1 / 0.3e1)
t119 = t118 ** 2
t128 = (tau0 / t21 / r0 - s0 * t112 / 0.8e1) / (0.3e1 / 0.20e2 * t117 * t119 * t39 + params_a_eta * s0 * t112 / 0.8e1)
t130 = 0.25e1 < t128
t131 = lax_cond(t130, 0.25e1, t128)
t133 = t131 ** 2
t135 = t133 * t131
t137 = t133 ** 2
t146 = lax_cond(t130, t128, 0.25e1)
t150 = math.exp(0.15e1 / (0.1e1 - t146))
t152 = lax_cond(t128 <= 0.25e1, 0.1e1 - 0.64e0 * t131 - 0.4352e0 * t133 - 0.1535685604549e1 * t135 + 0.3061560252175e1 * t137 - 0.1915710236206e1 * t137 * t131 + 0.516884468372e0 * t137 * t133 - 0.51848879792e-1 * t137 * t135, -0.7e0 * t150)
t156 = 0.1e1 / (0.1e1 + 0.44450000000000000000e-1 * t13 + 0.31385250000000000000e-1 * t10)
t159 = math.exp(0.10000000000000000000e1 * t156)
t163 = t39 ** 2
t169 = (0.1e1 + 0.21337642104376358333e-1 * t116 / t119 * t163 * s0 * t112) ** (0.1e1 / 0.4e1)
t174 = math.log(0.1e1 + (t159 - 0.1e1) * (0.1e1 - 0.1e1 / t169))
res = -t32 + t57 + t107 + t152 * ((-0.285764e-1 * t156 + 0.285764e-1 * t174) * (0.1e1 - 0.2363e1 * t40 * t38 * t42) + t32 - t57 - t107)
"

/- gen_repo/impl/prebuilt/pol/mgga_c_rregtm.py and gen_repo/impl/prebuilt/unpol/mgga_c_rregtm.py -/
formula mgga_c_rregtm pol "t1 = 3 ** (0.1e1 / 0.3e1)
t3 = (0.1e1 / math.pi) ** (0.1e1 / 0.3e1)
t5 = 4 ** (0.1e1 / 0.3e1)
t6 = t5 ** 2
t7 = r0 + r1
t8 = t7 ** (0.1e1 / 0.3e1)
t11 = t1 * t3 * t6 / t8
t14 = math.sqrt(t11)
t17 = t11 ** 0.15e1
t19 = t1 ** 2
t20 = t3 ** 2
t22 = t8 ** 2
t25 = t19 * t20 * t5 / t22
t31 = math.log(0.1e1 + 0.16081979498692535067e2 / (0.37978500000000000000e1 * t14 + 0.89690000000000000000e0 * t11 + 0.20477500000000000000e0 * t17 + 0.12323500000000000000e0 * t25))
t33 = 0.621814e-1 * (0.1e1 + 0.53425000000000000000e-1 * t11) * t31
t34 = r0 - r1
t35 = t34 ** 2
t36 = t35 ** 2
t37 = t7 ** 2
t38 = t37 ** 2
t42 = t34 / t7
t43 = 0.1e1 + t42
t44 = t43 <= p_a_zeta_threshold
t45 = p_a_zeta_threshold ** (0.1e1 / 0.3e1)
t46 = t45 * p_a_zeta_threshold
t47 = t43 ** (0.1e1 / 0.3e1)
t49 = lax_cond(t44, t46, t47 * t43)
t50 = 0.1e1 - t42
t51 = t50 <= p_a_zeta_threshold
t52 = t50 ** (0.1e1 / 0.3e1)
t54 = lax_cond(t51, t46, t52 * t50)
t55 = t49 + t54 - 0.2e1
t56 = 2 ** (0.1e1 / 0.3e1)
t57 = t56 - 0.1e1
t59 = 0.1e1 / t57 / 0.2e1
t60 = t55 * t59
t71 = math.log(0.1e1 + 0.32163958997385070134e2 / (0.70594500000000000000e1 * t14 + 0.15494250000000000000e1 * t11 + 0.42077500000000000000e0 * t17 + 0.15629250000000000000e0 * t25))
t84 = math.log(0.1e1 + 0.29608749977793437516e2 / (0.51785000000000000000e1 * t14 + 0.90577500000000000000e0 * t11 + 0.11003250000000000000e0 * t17 + 0.12417750000000000000e0 * t25))
t85 = (0.1e1 + 0.27812500000000000000e-1 * t11) * t84
t89 = t36 / t38 * t60 * (-0.3109070e-1 * (0.1e1 + 0.51370000000000000000e-1 * t11) * t71 + t33 - 0.19751673498613801407e-1 * t85)
t91 = 0.19751673498613801407e-1 * t60 * t85
t92 = math.log(0.2e1)
t93 = 0.1e1 - t92
t94 = math.pi ** 2
t97 = t45 ** 2
t98 = t47 ** 2
t99 = lax_cond(t44, t97, t98)
t100 = t52 ** 2
t101 = lax_cond(t51, t97, t100)
t103 = t99 / 0.2e1 + t101 / 0.2e1
t104 = t103 ** 2
t105 = t104 * t103
t112 = 0.1e1 / t93
t119 = math.exp(-(-t33 + t89 + t91) * t112 * t94 / t105)
t120 = t119 - 0.1e1
t124 = s0 + 0.2e1 * s1 + s2
t139 = (0.1e1 + 0.27801896084645508333e-2 * (0.1e1 + 0.25000000000000000000e-1 * t11) / (0.1e1 + 0.44450000000000000000e-1 * t11) * t112 * t94 / t120 * t124 / t8 / t37 * t56 / t104 * t19 / t3 * t5) ** (0.1e1 / 0.4e1)
t145 = math.log(0.1e1 + 0.10000000000000000000e1 * (0.1e1 - 0.1e1 / t139) * t120)
t147 = t93 / t94 * t105 * t145
t148 = r0 ** (0.1e1 / 0.3e1)
t149 = t148 ** 2
t153 = t43 / 0.2e1
t154 = t153 ** (0.1e1 / 0.3e1)
t155 = t154 ** 2
t156 = t155 * t153
t158 = r1 ** (0.1e1 / 0.3e1)
t159 = t158 ** 2
t163 = t50 / 0.2e1
t164 = t163 ** (0.1e1 / 0.3e1)
t165 = t164 ** 2
t166 = t165 * t163
t169 = 0.1e1 / t22 / t37
t173 = 6 ** (0.1e1 / 0.3e1)
t175 = t94 ** (0.1e1 / 0.3e1)
t176 = t175 ** 2
t177 = 0.1e1 / t176
t182 = 0.5e1 / 0.9e1 * (tau0 / t149 / r0 * t156 + tau1 / t159 / r1 * t166 - t124 * t169 / 0.8e1) * t173 * t177 / (t156 + t166)
t184 = math.log(DBL_EPSILON)
t187 = t184 / (-t184 + 0.64e0)
t190 = lax_cond(t182 < -t187, t182, -t187)
t195 = math.exp(-0.64e0 * t190 / (0.1e1 - t190))
t196 = lax_cond(-t187 < t182, 0, t195)
t198 = math.log(0.14285714285714285714e1 * DBL_EPSILON)
t201 = (-t198 + 0.15e1) / t198
t202 = t182 < -t201
t203 = lax_cond(t202, -t201, t182)
t207 = math.exp(0.15e1 / (0.1e1 - t203))
t209 = lax_cond(t202, 0, -0.7e0 * t207)
t210 = lax_cond(t182 <= 0.1e1, t196, t209)
t214 = 0.1e1 / (0.1e1 + 0.44450000000000000000e-1 * t14 + 0.31385250000000000000e-1 * t11)
t217 = math.exp(0.10000000000000000000e1 * t214)
t220 = t56 ** 2
t226 = (0.1e1 + 0.21337642104376358333e-1 * t173 * t177 * t220 * t124 * t169) ** (0.1e1 / 0.4e1)
t231 = math.log(0.1e1 + (t217 - 0.1e1) * (0.1e1 - 0.1e1 / t226))
t239 = t36 ** 2
t241 = t38 ** 2
res = -t33 + t89 + t91 + t147 + t210 * ((-0.285764e-1 * t214 + 0.285764e-1 * t231) * (0.1e1 - 0.2363e1 * t57 * t55 * t59) * (0.1e1 - t239 * t36 / t241 / t38) + t33 - t89 - t91 - t147)
" unpol "t1 = 3 ** (0.1e1 / 0.3e1)
t3 = (0.1e1 / math.pi) ** (0.1e1 / 0.3e1)
t5 = 4 ** (0.1e1 / 0.3e1)
t6 = t5 ** 2
t7 = r0 ** (0.1e1 / 0.3e1)
t10 = t1 * t3 * t6 / t7
t13 = math.sqrt(t10)
t16 = t10 ** 0.15e1
t18 = t1 ** 2
t19 = t3 ** 2
t21 = t7 ** 2
t24 = t18 * t19 * t5 / t21
t30 = math.log(0.1e1 + 0.16081979498692535067e2 / (0.37978500000000000000e1 * t13 + 0.89690000000000000000e0 * t10 + 0.20477500000000000000e0 * t16 + 0.12323500000000000000e0 * t24))
t32 = 0.621814e-1 * (0.1e1 + 0.53425000000000000000e-1 * t10) * t30
t33 = 0.1e1 <= p_a_zeta_threshold
t34 = p_a_zeta_threshold ** (0.1e1 / 0.3e1)
t36 = lax_cond(t33, t34 * p_a_zeta_threshold, 1)
t38 = 0.2e1 * t36 - 0.2e1
t39 = 2 ** (0.1e1 / 0.3e1)
t40 = t39 - 0.1e1
t42 = 0.1e1 / t40 / 0.2e1
t54 = math.log(0.1e1 + 0.29608749977793437516e2 / (0.51785000000000000000e1 * t13 + 0.90577500000000000000e0 * t10 + 0.11003250000000000000e0 * t16 + 0.12417750000000000000e0 * t24))
t57 = 0.19751673498613801407e-1 * t38 * t42 * (0.1e1 + 0.27812500000000000000e-1 * t10) * t54
t58 = math.log(0.2e1)
t59 = 0.1e1 - t58
t60 = math.pi ** 2
t63 = t34 ** 2
t64 = lax_cond(t33, t63, 1)
t65 = t64 ** 2
t66 = t65 * t64
t73 = 0.1e1 / t59
t80 = math.exp(-(-t32 + t57) * t73 * t60 / t66)
t81 = t80 - 0.1e1
t86 = r0 ** 2
t99 = (0.1e1 + 0.27801896084645508333e-2 * (0.1e1 + 0.25000000000000000000e-1 * t10) / (0.1e1 + 0.44450000000000000000e-1 * t10) * t73 * t60 / t81 * s0 / t7 / t86 * t39 / t65 * t18 / t3 * t5) ** (0.1e1 / 0.4e1)
t105 = math.log(0.1e1 + 0.10000000000000000000e1 * (0.1e1 - 0.1e1 / t99) * t81)
t107 = t59 / t60 * t66 * t105
t112 = 0.1e1 / t21 / t86
t116 = 6 ** (0.1e1 / 0.3e1)
t118 = t60 ** (0.1e1 / 0.3e1)
t119 = t118 ** 2
t120 = 0.1e1 / t119
t121 = t39 ** 2
t124 = 0.5e1 / 0.9e1 * (tau0 / t21 / r0 - s0 * t112 / 0.8e1) * t116 * t120 * t121
t126 = math.log(DBL_EPSILON)
t129 = t126 / (-t126 + 0.64e0)
t132 = lax_cond(t124 < -t129, t124, -t129)
t137 = math.exp(-0.64e0 * t132 / (0.1e1 - t132))
t138 = lax_cond(-t129 < t124, 0, t137)
t140 = math.log(0.14285714285714285714e1 * DBL_EPSILON)
t143 = (-t140 + 0.15e1) / t140
t144 = t124 < -t143
t145 = lax_cond(t144, -t143, t124)
t149 = math.exp(0.15e1 / (0.1e1 - t145))
t151 = lax_cond(t144, 0, -0.7e0 * t149)
t152 = lax_cond(t124 <= 0.1e1, t138, t151)
t156 = 0.1e1 / (0.1e1 + 0.44450000000000000000e-1 * t13 + 0.31385250000000000000e-1 * t10)
t159 = math.exp(0.10000000000000000000e1 * t156)
t167 = (0.1e1 + 0.21337642104376358333e-1 * t116 * t120 * t121 * s0 * t112) ** (0.1e1 / 0.4e1)
t172 = math.log(0.1e1 + (t159 - 0.1e1) * (0.1e1 - 0.1e1 / t167))
res = -t32 + t57 + t107 + t152 * ((-0.285764e-1 * t156 + 0.285764e-1 * t172) * (0.1e1 - 0.2363e1 * t40 * t38 * t42) + t32 - t57 - t107)
"

/- gen_repo/impl/prebuilt/pol/mgga_c_rscan.py and gen_repo/impl/prebuilt/unpol/mgga_c_rscan.py -/
formula mgga_c_rscan pol "t1 = 3 ** (0.1e1 / 0.3e1)
t3 = (0.1e1 / math.pi) ** (0.1e1 / 0.3e1)
t5 = 4 ** (0.1e1 / 0.3e1)
t6 = t5 ** 2
t7 = r0 + r1
t8 = t7 ** (0.1e1 / 0.3e1)
t11 = t1 * t3 * t6 / t8
t14 = math.sqrt(t11)
t17 = t11 ** 0.15e1
t19 = t1 ** 2
t20 = t3 ** 2
t22 = t8 ** 2
t25 = t19 * t20 * t5 / t22
t31 = math.log(0.1e1 + 0.16081979498692535067e2 / (0.37978500000000000000e1 * t14 + 0.89690000000000000000e0 * t11 + 0.20477500000000000000e0 * t17 + 0.12323500000000000000e0 * t25))
t33 = 0.621814e-1 * (0.1e1 + 0.53425000000000000000e-1 * t11) * t31
t34 = r0 - r1
t35 = t34 ** 2
t36 = t35 ** 2
t37 = t7 ** 2
t38 = t37 ** 2
t42 = t34 / t7
t43 = 0.1e1 + t42
t44 = t43 <= p_a_zeta_threshold
t45 = p_a_zeta_threshold ** (0.1e1 / 0.3e1)
t46 = t45 * p_a_zeta_threshold
t47 = t43 ** (0.1e1 / 0.3e1)
t49 = lax_cond(t44, t46, t47 * t43)
t50 = 0.1e1 - t42
t51 = t50 <= p_a_zeta_threshold
t52 = t50 ** (0.1e1 / 0.3e1)
t54 = lax_cond(t51, t46, t52 * t50)
t55 = t49 + t54 - 0.2e1
t56 = 2 ** (0.1e1 / 0.3e1)
t57 = t56 - 0.1e1
t59 = 0.1e1 / t57 / 0.2e1
t60 = t55 * t59
t71 = math.log(0.1e1 + 0.32163958997385070134e2 / (0.70594500000000000000e1 * t14 + 0.15494250000000000000e1 * t11 + 0.42077500000000000000e0 * t17 + 0.15629250000000000000e0 * t25))
t84 = math.log(0.1e1 + 0.29608749977793437516e2 / (0.51785000000000000000e1 * t14 + 0.90577500000000000000e0 * t11 + 0.11003250000000000000e0 * t17 + 0.12417750000000000000e0 * t25))
t85 = (0.1e1 + 0.27812500000000000000e-1 * t11) * t84
t89 = t36 / t38 * t60 * (-0.3109070e-1 * (0.1e1 + 0.51370000000000000000e-1 * t11) * t71 + t33 - 0.19751673498613801407e-1 * t85)
t91 = 0.19751673498613801407e-1 * t60 * t85
t92 = math.log(0.2e1)
t93 = 0.1e1 - t92
t94 = math.pi ** 2
t97 = t45 ** 2
t98 = t47 ** 2
t99 = lax_cond(t44, t97, t98)
t100 = t52 ** 2
t101 = lax_cond(t51, t97, t100)
t103 = t99 / 0.2e1 + t101 / 0.2e1
t104 = t103 ** 2
t105 = t104 * t103
t112 = 0.1e1 / t93
t119 = math.exp(-(-t33 + t89 + t91) * t112 * t94 / t105)
t120 = t119 - 0.1e1
t124 = s0 + 0.2e1 * s1 + s2
t139 = (0.1e1 + 0.27801896084645508333e-2 * (0.1e1 + 0.25000000000000000000e-1 * t11) / (0.1e1 + 0.44450000000000000000e-1 * t11) * t112 * t94 / t120 * t124 / t8 / t37 * t56 / t104 * t19 / t3 * t5) ** (0.1e1 / 0.4e1)
t145 = math.log(0.1e1 + 0.10000000000000000000e1 * (0.1e1 - 0.1e1 / t139) * t120)
t147 = t93 / t94 * t105 * t145
t149 = r0 ** (0.1e1 / 0.3e1)
t150 = t149 ** 2
t154 = t43 / 0.2e1
t155 = t154 ** (0.1e1 / 0.3e1)
t156 = t155 ** 2
t157 = t156 * t154
t159 = r1 ** (0.1e1 / 0.3e1)
t160 = t159 ** 2
t164 = t50 / 0.2e1
t165 = t164 ** (0.1e1 / 0.3e1)
t166 = t165 ** 2
t167 = t166 * t164
t170 = 0.1e1 / t22 / t37
t173 = tau0 / t150 / r0 * t157 + tau1 / t160 / r1 * t167 - t124 * t170 / 0.8e1
t175 = lax_cond(0.0e0 < t173, t173, 0)
t176 = t175 ** 2
t179 = 6 ** (0.1e1 / 0.3e1)
t180 = t179 ** 2
t181 = t94 ** (0.1e1 / 0.3e1)
t182 = t181 ** 2
t187 = t56 ** 2
t189 = 0.3e1 / 0.10e2 * t180 * t182 * t22 * t7 + 0.1e-3 * t187
t190 = t189 ** 2
t193 = t157 + t167
t194 = t193 ** 2
t208 = t38 * t7 * t176 * t175 / t190 / t189 / t194 / t193 / (t8 * t37 * t7 * t176 / t190 / t194 + 0.1e-2)
t210 = 0.25e1 < t208
t211 = lax_cond(t210, 0.25e1, t208)
t213 = t211 ** 2
t215 = t213 * t211
t217 = t213 ** 2
t226 = lax_cond(t210, t208, 0.25e1)
t230 = math.exp(0.15e1 / (0.1e1 - t226))
t232 = lax_cond(t208 <= 0.25e1, 0.1e1 - 0.64e0 * t211 - 0.4352e0 * t213 - 0.1535685604549e1 * t215 + 0.3061560252175e1 * t217 - 0.1915710236206e1 * t217 * t211 + 0.516884468372e0 * t217 * t213 - 0.51848879792e-1 * t217 * t215, -0.7e0 * t230)
t236 = 0.1e1 / (0.1e1 + 0.44450000000000000000e-1 * t14 + 0.31385250000000000000e-1 * t11)
t239 = math.exp(0.10000000000000000000e1 * t236)
t248 = (0.1e1 + 0.21337642104376358333e-1 * t179 / t182 * t187 * t124 * t170) ** (0.1e1 / 0.4e1)
t253 = math.log(0.1e1 + (t239 - 0.1e1) * (0.1e1 - 0.1e1 / t248))
t261 = t36 ** 2
t263 = t38 ** 2
res = -t33 + t89 + t91 + t147 + t232 * ((-0.285764e-1 * t236 + 0.285764e-1 * t253) * (0.1e1 - 0.2363e1 * t57 * t55 * t59) * (0.1e1 - t261 * t36 / t263 / t38) + t33 - t89 - t91 - t147)
" unpol "t1 = 3 ** (0.1e1 / 0.3e1)
t3 = (0.1e1 / math.pi) ** (0.1e1 / 0.3e1)
t5 = 4 ** (0.1e1 / 0.3e1)
t6 = t5 ** 2
t7 = r0 ** (0.1e1 / 0.3e1)
t10 = t1 * t3 * t6 / t7
t13 = math.sqrt(t10)
t16 = t10 ** 0.15e1
t18 = t1 ** 2
t19 = t3 ** 2
t21 = t7 ** 2
t24 = t18 * t19 * t5 / t21
t30 = math.log(0.1e1 + 0.16081979498692535067e2 / (0.37978500000000000000e1 * t13 + 0.89690000000000000000e0 * t10 + 0.20477500000000000000e0 * t16 + 0.12323500000000000000e0 * t24))
t32 = 0.621814e-1 * (0.1e1 + 0.53425000000000000000e-1 * t10) * t30
t33 = 0.1e1 <= p_a_zeta_threshold
t34 = p_a_zeta_threshold ** (0.1e1 / 0.3e1)
t36 = lax_cond(t33, t34 * p_a_zeta_threshold, 1)
t38 = 0.2e1 * t36 - 0.2e1
t39 = 2 ** (0.1e1 / 0.3e1)
t40 = t39 - 0.1e1
t42 = 0.1e1 / t40 / 0.2e1
t54 = math.log(0.1e1 + 0.29608749977793437516e2 / (0.51785000000000000000e1 * t13 + 0.90577500000000000000e0 * t10 + 0.11003250000000000000e0 * t16 + 0.12417750000000000000e0 * t24))
t57 = 0.19751673498613801407e-1 * t38 * t42 * (0.1e1 + 0.27812500000000000000e-1 * t10) * t54
t58 = math.log(0.2e1)
t59 = 0.1e1 - t58
t60 = math.pi ** 2
t63 = t34 ** 2
t64 = lax_cond(t33, t63, 1)
t65 = t64 ** 2
t66 = t65 * t64
t73 = 0.1e1 / t59
t80 = math.exp(-(-t32 + t57) * t73 * t60 / t66)
t81 = t80 - 0.1e1
t86 = r0 ** 2
t99 = (0.1e1 + 0.27801896084645508333e-2 * (0.1e1 + 0.25000000000000000000e-1 * t10) / (0.1e1 + 0.44450000000000000000e-1 * t10) * t73 * t60 / t81 * s0 / t7 / t86 * t39 / t65 * t18 / t3 * t5) ** (0.1e1 / 0.4e1)
t105 = math.log(0.1e1 + 0.10000000000000000000e1 * (0.1e1 - 0.1e1 / t99) * t81)
t107 = t59 / t60 * t66 * t105
t108 = t86 ** 2
t110 = t21 * r0
t114 = 0.1e1 / t21 / t86
t117 = tau0 / t110 - s0 * t114 / 0.8e1
t119 = lax_cond(0.0e0 < t117, t117, 0)
t120 = t119 ** 2
t123 = 6 ** (0.1e1 / 0.3e1)
t124 = t123 ** 2
t125 = t60 ** (0.1e1 / 0.3e1)
t126 = t125 ** 2
t130 = t39 ** 2
t132 = 0.3e1 / 0.10e2 * t124 * t126 * t110 + 0.1e-3 * t130
t133 = t132 ** 2
t147 = 0.4e1 * t108 * r0 * t120 * t119 / t133 / t132 / (0.2e1 * t7 * t86 * r0 * t120 / t133 * t39 + 0.1e-2)
t149 = 0.25e1 < t147
t150 = lax_cond(t149, 0.25e1, t147)
t152 = t150 ** 2
t154 = t152 * t150
t156 = t152 ** 2
t165 = lax_cond(t149, t147, 0.25e1)
t169 = math.exp(0.15e1 / (0.1e1 - t165))
t171 = lax_cond(t147 <= 0.25e1, 0.1e1 - 0.64e0 * t150 - 0.4352e0 * t152 - 0.1535685604549e1 * t154 + 0.3061560252175e1 * t156 - 0.1915710236206e1 * t156 * t150 + 0.516884468372e0 * t156 * t152 - 0.51848879792e-1 * t156 * t154, -0.7e0 * t169)
t175 = 0.1e1 / (0.1e1 + 0.44450000000000000000e-1 * t13 + 0.31385250000000000000e-1 * t10)
t178 = math.exp(0.10000000000000000000e1 * t175)
t187 = (0.1e1 + 0.21337642104376358333e-1 * t123 / t126 * t130 * s0 * t114) ** (0.1e1 / 0.4e1)
t192 = math.log(0.1e1 + (t178 - 0.1e1) * (0.1e1 - 0.1e1 / t187))
res = -t32 + t57 + t107 + t171 * ((-0.285764e-1 * t175 + 0.285764e-1 * t192) * (0.1e1 - 0.2363e1 * t40 * t38 * t42) + t32 - t57 - t107)
"

end Verif.Data


/-!
# Shipped formulas, verbatim from `gen_repo/impl/prebuilt/{pol,unpol}/NAME.py`
-/
namespace Verif.Data

/- gen_repo/impl/prebuilt/pol/mgga_c_scan.py and gen_repo/impl/prebuilt/unpol/mgga_c_scan.py -/
formula mgga_c_scan pol "t1 = 3 ** (0.1e1 / 0.3e1)
t3 = (0.1e1 / math.pi) ** (0.1e1 / 0.3e1)
t5 = 4 ** (0.1e1 / 0.3e1)
t6 = t5 ** 2
t7 = r0 + r1
t8 = t7 ** (0.1e1 / 0.3e1)
t11 = t1 * t3 * t6 / t8
t14 = math.sqrt(t11)
t17 = t11 ** 0.15e1
t19 = t1 ** 2
t20 = t3 ** 2
t22 = t8 ** 2
t25 = t19 * t20 * t5 / t22
t31 = math.log(0.1e1 + 0.16081979498692535067e2 / (0.37978500000000000000e1 * t14 + 0.89690000000000000000e0 * t11 + 0.20477500000000000000e0 * t17 + 0.12323500000000000000e0 * t25))
t33 = 0.621814e-1 * (0.1e1 + 0.53425000000000000000e-1 * t11) * t31
t34 = r0 - r1
t35 = t34 ** 2
t36 = t35 ** 2
t37 = t7 ** 2
t38 = t37 ** 2
t42 = t34 / t7
t43 = 0.1e1 + t42
t44 = t43 <= p_a_zeta_threshold
t45 = p_a_zeta_threshold ** (0.1e1 / 0.3e1)
t46 = t45 * p_a_zeta_threshold
t47 = t43 ** (0.1e1 / 0.3e1)
t49 = lax_cond(t44, t46, t47 * t43)
t50 = 0.1e1 - t42
t51 = t50 <= p_a_zeta_threshold
t52 = t50 ** (0.1e1 / 0.3e1)
t54 = lax_cond(t51, t46, t52 * t50)
t55 = t49 + t54 - 0.2e1
t56 = 2 ** (0.1e1 / 0.3e1)
t57 = t56 - 0.1e1
t59 = 0.1e1 / t57 / 0.2e1
t60 = t55 * t59
t71 = math.log(0.1e1 + 0.32163958997385070134e2 / (0.70594500000000000000e1 * t14 + 0.15494250000000000000e1 * t11 + 0.42077500000000000000e0 * t17 + 0.15629250000000000000e0 * t25))
t84 = math.log(0.1e1 + 0.29608749977793437516e2 / (0.51785000000000000000e1 * t14 + 0.90577500000000000000e0 * t11 + 0.11003250000000000000e0 * t17 + 0.12417750000000000000e0 * t25))
t85 = (0.1e1 + 0.27812500000000000000e-1 * t11) * t84
t89 = t36 / t38 * t60 * (-0.3109070e-1 * (0.1e1 + 0.51370000000000000000e-1 * t11) * t71 + t33 - 0.19751673498613801407e-1 * t85)
t91 = 0.19751673498613801407e-1 * t60 * t85
t92 = math.log(0.2e1)
t93 = 0.1e1 - t92
t94 = math.pi ** 2
t97 = t45 ** 2
t98 = t47 ** 2
t99 = lax_cond(t44, t97, t98)
t100 = t52 ** 2
t101 = lax_cond(t51, t97, t100)
t103 = t99 / 0.2e1 + t101 / 0.2e1
t104 = t103 ** 2
t105 = t104 * t103
t112 = 0.1e1 / t93
t119 = math.exp(-(-t33 + t89 + t91) * t112 * t94 / t105)
t120 = t119 - 0.1e1
t124 = s0 + 0.2e1 * s1 + s2
t139 = (0.1e1 + 0.27801896084645508333e-2 * (0.1e1 + 0.25000000000000000000e-1 * t11) / (0.1e1 + 0.44450000000000000000e-1 * t11) * t112 * t94 / t120 * t124 / t8 / t37 * t56 / t104 * t19 / t3 * t5) ** (0.1e1 / 0.4e1)
t145 = math.log(0.1e1 + 0.10000000000000000000e1 * (0.1e1 - 0.1e1 / t139) * t120)
t147 = t93 / t94 * t105 * t145
t148 = r0 ** (0.1e1 / 0.3e1)
t149 = t148 ** 2
t153 = t43 / 0.2e1
t154 = t153 ** (0.1e1 / 0.3e1)
t155 = t154 ** 2
t156 = t155 * t153
t158 = r1 ** (0.1e1 / 0.3e1)
t159 = t158 ** 2
t163 = t50 / 0.2e1
t164 = t163 ** (0.1e1 / 0.3e1)
t165 = t164 ** 2
t166 = t165 * t163
t169 = 0.1e1 / t22 / t37
t173 = 6 ** (0.1e1 / 0.3e1)
t175 = t94 ** (0.1e1 / 0.3e1)
t176 = t175 ** 2
t177 = 0.1e1 / t176
t182 = 0.5e1 / 0.9e1 * (tau0 / t149 / r0 * t156 + tau1 / t159 / r1 * t166 - t124 * t169 / 0.8e1) * t173 * t177 / (t156 + t166)
t184 = math.log(DBL_EPSILON)
t187 = t184 / (-t184 + 0.64e0)
t190 = lax_cond(t182 < -t187, t182, -t187)
t195 = math.exp(-0.64e0 * t190 / (0.1e1 - t190))
t196 = lax_cond(-t187 < t182, 0, t195)
t198 = math.log(0.14285714285714285714e1 * DBL_EPSILON)
t201 = (-t198 + 0.15e1) / t198
t202 = t182 < -t201
t203 = lax_cond(t202, -t201, t182)
t207 = math.exp(0.15e1 / (0.1e1 - t203))
t209 = lax_cond(t202, 0, -0.7e0 * t207)
t210 = lax_cond(t182 <= 0.1e1, t196, t209)
t214 = 0.1e1 / (0.1e1 + 0.44450000000000000000e-1 * t14 + 0.31385250000000000000e-1 * t11)
t217 = math.exp(0.10000000000000000000e1 * t214)
t220 = t56 ** 2
t226 = (0.1e1 + 0.21337642104376358333e-1 * t173 * t177 * t220 * t124 * t169) ** (0.1e1 / 0.4e1)
t231 = math.log(0.1e1 + (t217 - 0.1e1) * (0.1e1 - 0.1e1 / t226))
t239 = t36 ** 2
t241 = t38 ** 2
res = -t33 + t89 + t91 + t147 + t210 * ((-0.285764e-1 * t214 + 0.285764e-1 * t231) * (0.1e1 - 0.2363e1 * t57 * t55 * t59) * (0.1e1 - t239 * t36 / t241 / t38) + t33 - t89 - t91 - t147)
" unpol "t1 = 3 ** (0.1e1 / 0.3e1)
t3 = (0.1e1 / math.pi) ** (0.1e1 / 0.3e1)
t5 = 4 ** (0.1e1 / 0.3e1)
t6 = t5 ** 2
t7 = r0 ** (0.1e1 / 0.3e1)
t10 = t1 * t3 * t6 / t7
t13 = math.sqrt(t10)
t16 = t10 ** 0.15e1
t18 = t1 ** 2
t19 = t3 ** 2
t21 = t7 ** 2
t24 = t18 * t19 * t5 / t21
t30 = math.log(0.1e1 + 0.16081979498692535067e2 / (0.37978500000000000000e1 * t13 + 0.89690000000000000000e0 * t10 + 0.20477500000000000000e0 * t16 + 0.12323500000000000000e0 * t24))
t32 = 0.621814e-1 * (0.1e1 + 0.53425000000000000000e-1 * t10) * t30
t33 = 0.1e1 <= p_a_zeta_threshold
t34 = p_a_zeta_threshold ** (0.1e1 / 0.3e1)
t36 = lax_cond(t33, t34 * p_a_zeta_threshold, 1)
t38 = 0.2e1 * t36 - 0.2e1
t39 = 2 ** (0.1e1 / 0.3e1)
t40 = t39 - 0.1e1
t42 = 0.1e1 / t40 / 0.2e1
t54 = math.log(0.1e1 + 0.29608749977793437516e2 / (0.51785000000000000000e1 * t13 + 0.90577500000000000000e0 * t10 + 0.11003250000000000000e0 * t16 + 0.12417750000000000000e0 * t24))
t57 = 0.19751673498613801407e-1 * t38 * t42 * (0.1e1 + 0.27812500000000000000e-1 * t10) * t54
t58 = math.log(0.2e1)
t59 = 0.1e1 - t58
t60 = math.pi ** 2
t63 = t34 ** 2
t64 = lax_cond(t33, t63, 1)
t65 = t64 ** 2
t66 = t65 * t64
t73 = 0.1e1 / t59
t80 = math.exp(-(-t32 + t57) * t73 * t60 / t66)
t81 = t80 - 0.1e1
t86 = r0 ** 2
t99 = (0.1e1 + 0.27801896084645508333e-2 * (0.1e1 + 0.25000000000000000000e-1 * t10) / (0.1e1 + 0.44450000000000000000e-1 * t10) * t73 * t60 / t81 * s0 / t7 / t86 * t39 / t65 * t18 / t3 * t5) ** (0.1e1 / 0.4e1)
t105 = math.log(0.1e1 + 0.10000000000000000000e1 * (0.1e1 - 0.1e1 / t99) * t81)
t107 = t59 / t60 * t66 * t105
t112 = 0.1e1 / t21 / t86
t116 = 6 ** (0.1e1 / 0.3e1)
t118 = t60 ** (0.1e1 / 0.3e1)
t119 = t118 ** 2
t120 = 0.1e1 / t119
t121 = t39 ** 2
t124 = 0.5e1 / 0.9e1 * (tau0 / t21 / r0 - s0 * t112 / 0.8e1) * t116 * t120 * t121
t126 = math.log(DBL_EPSILON)
t129 = t126 / (-t126 + 0.64e0)
t132 = lax_cond(t124 < -t129, t124, -t129)
t137 = math.exp(-0.64e0 * t132 / (0.1e1 - t132))
t138 = lax_cond(-t129 < t124, 0, t137)
t140 = math.log(0.14285714285714285714e1 * DBL_EPSILON)
t143 = (-t140 + 0.15e1) / t140
t144 = t124 < -t143
t145 = lax_cond(t144, -t143, t124)
t149 = math.exp(0.15e1 / (0.1e1 - t145))
t151 = lax_cond(t144, 0, -0.7e0 * t149)
t152 = lax_cond(t124 <= 0.1e1, t138, t151)
t156 = 0.1e1 / (0.1e1 + 0.44450000000000000000e-1 * t13 + 0.31385250000000000000e-1 * t10)
t159 = math.exp(0.10000000000000000000e1 * t156)
t167 = (0.1e1 + 0.21337642104376358333e-1 * t116 * t120 * t121 * s0 * t112) ** (0.1e1 / 0.4e1)
t172 = math.log(0.1e1 + (t159 - 0.1e1) * (0.1e1 - 0.1e1 / t167))
res = -t32 + t57 + t107 + t152 * ((-0.285764e-1 * t156 + 0.285764e-1 * t172) * (0.1e1 - 0.2363e1 * t40 * t38 * t42) + t32 - t57 - t107)
"

/- gen_repo/impl/prebuilt/pol/mgga_c_tpss.py and gen_repo/impl/prebuilt/unpol/mgga_c_tpss.py -/
formula mgga_c_tpss pol "t1 = r0 - r1
t2 = r0 + r1
t4 = t1 / t2
t6 = lax_cond(0.0e0 < t4, t4, -t4)
t8 = params_a_C0_c[0]
t9 = params_a_C0_c[1]
t10 = params_a_C0_c[2]
t11 = params_a_C0_c[3]
t13 = t1 ** 2
t15 = t2 ** 2
t18 = t13 ** 2
t20 = t15 ** 2
t21 = 0.1e1 / t20
t29 = 0.1e1 + t4
t30 = t29 <= p_a_zeta_threshold
t31 = p_a_zeta_threshold - 0.1e1
t32 = 0.1e1 - t4
t33 = t32 <= p_a_zeta_threshold
t35 = lax_cond(t33, -t31, t4)
t36 = lax_cond(t30, t31, t35)
t37 = t36 ** 2
t39 = r0 ** 2
t40 = r0 ** (0.1e1 / 0.3e1)
t41 = t40 ** 2
t44 = s0 / t41 / t39
t45 = 0.1e1 + t36
t46 = t45 / 0.2e1
t47 = t46 ** (0.1e1 / 0.3e1)
t48 = t47 ** 2
t51 = r1 ** 2
t52 = r1 ** (0.1e1 / 0.3e1)
t53 = t52 ** 2
t56 = s2 / t53 / t51
t57 = 0.1e1 - t36
t58 = t57 / 0.2e1
t59 = t58 ** (0.1e1 / 0.3e1)
t60 = t59 ** 2
t64 = s0 + 0.2e1 * s1 + s2
t65 = t2 ** (0.1e1 / 0.3e1)
t66 = t65 ** 2
t69 = t64 / t66 / t15
t72 = 3 ** (0.1e1 / 0.3e1)
t73 = math.pi ** 2
t74 = t73 ** (0.1e1 / 0.3e1)
t75 = t74 ** 2
t78 = t45 ** (0.1e1 / 0.3e1)
t79 = t78 * t45
t81 = t57 ** (0.1e1 / 0.3e1)
t82 = t81 * t57
t89 = (0.1e1 + (0.1e1 - t37) * (t44 * t48 * t46 + t56 * t60 * t58 - t69) * t72 / t75 * (0.1e1 / t79 + 0.1e1 / t82) / 0.24e2) ** 2
t90 = t89 ** 2
t93 = lax_cond(-t6 <= -0.999999999999e0, t8 + t9 + t10 + t11, (t8 + t9 * t13 / t15 + t10 * t18 * t21 + t11 * t18 * t13 / t20 / t15) / t90)
t98 = t29 / 0.2e1
t99 = t98 ** (0.1e1 / 0.3e1)
t100 = t99 ** 2
t106 = t32 / 0.2e1
t107 = t106 ** (0.1e1 / 0.3e1)
t108 = t107 ** 2
t114 = t69 / (tau0 / t41 / r0 * t100 * t98 + tau1 / t53 / r1 * t108 * t106) / 0.8e1
t116 = lax_cond(0.1e1 < t114, 1, t114)
t117 = t116 ** 2
t120 = jnp.logical_or(r0 <= p_a_dens_threshold, t30)
t122 = (0.1e1 / math.pi) ** (0.1e1 / 0.3e1)
t123 = t72 * t122
t124 = 4 ** (0.1e1 / 0.3e1)
t125 = t124 ** 2
t126 = 0.1e1 / t65
t128 = t123 * t125 * t126
t131 = math.sqrt(t128)
t134 = t128 ** 0.15e1
t136 = t72 ** 2
t137 = t122 ** 2
t138 = t136 * t137
t139 = 0.1e1 / t66
t141 = t138 * t124 * t139
t147 = math.log(0.1e1 + 0.16081979498692535067e2 / (0.37978500000000000000e1 * t131 + 0.89690000000000000000e0 * t128 + 0.20477500000000000000e0 * t134 + 0.12323500000000000000e0 * t141))
t149 = 0.621814e-1 * (0.1e1 + 0.53425000000000000000e-1 * t128) * t147
t150 = t37 ** 2
t151 = t45 <= p_a_zeta_threshold
t152 = p_a_zeta_threshold ** (0.1e1 / 0.3e1)
t153 = t152 * p_a_zeta_threshold
t154 = lax_cond(t151, t153, t79)
t155 = t57 <= p_a_zeta_threshold
t156 = lax_cond(t155, t153, t82)
t157 = t154 + t156 - 0.2e1
t159 = 2 ** (0.1e1 / 0.3e1)
t162 = 0.1e1 / (0.2e1 * t159 - 0.2e1)
t173 = math.log(0.1e1 + 0.32163958997385070134e2 / (0.70594500000000000000e1 * t131 + 0.15494250000000000000e1 * t128 + 0.42077500000000000000e0 * t134 + 0.15629250000000000000e0 * t141))
t186 = math.log(0.1e1 + 0.29608749977793437516e2 / (0.51785000000000000000e1 * t131 + 0.90577500000000000000e0 * t128 + 0.11003250000000000000e0 * t134 + 0.12417750000000000000e0 * t141))
t187 = (0.1e1 + 0.27812500000000000000e-1 * t128) * t186
t189 = -0.3109070e-1 * (0.1e1 + 0.51370000000000000000e-1 * t128) * t173 + t149 - 0.19751673498613801407e-1 * t187
t191 = t150 * t157 * t162 * t189
t194 = 0.19751673498613801407e-1 * t157 * t162 * t187
t195 = math.log(0.2e1)
t196 = 0.1e1 - t195
t198 = t196 / t73
t199 = t152 ** 2
t200 = t78 ** 2
t201 = lax_cond(t151, t199, t200)
t202 = t81 ** 2
t203 = lax_cond(t155, t199, t202)
t205 = t201 / 0.2e1 + t203 / 0.2e1
t206 = t205 ** 2
t207 = t206 * t205
t211 = t64 / t65 / t15 * t159
t215 = 0.1e1 / t122 * t124
t219 = 0.1e1 / t196
t220 = params_a_beta * t219
t226 = math.exp(-(-t149 + t191 + t194) * t219 * t73 / t207)
t229 = t73 / (t226 - 0.1e1)
t230 = t64 ** 2
t235 = t159 ** 2
t236 = 0.1e1 / t66 / t20 * t235
t237 = t206 ** 2
t240 = 0.1e1 / t137
t242 = t72 * t240 * t125
t246 = t211 / t206 * t136 * t215 / 0.96e2 + t220 * t229 * t230 * t236 / t237 * t242 / 0.3072e4
t248 = t219 * t73
t256 = math.log(0.1e1 + params_a_beta * t246 * t248 / (t220 * t229 * t246 + 0.1e1))
t259 = t198 * t207 * t256 - t149 + t191 + t194
t262 = t123 * t125
t263 = t126 * t159
t265 = (0.1e1 / t45) ** (0.1e1 / 0.3e1)
t267 = t262 * t263 * t265
t270 = math.sqrt(t267)
t273 = t267 ** 0.15e1
t275 = t138 * t124
t276 = t139 * t235
t277 = t265 ** 2
t279 = t275 * t276 * t277
t285 = math.log(0.1e1 + 0.16081979498692535067e2 / (0.37978500000000000000e1 * t270 + 0.89690000000000000000e0 * t267 + 0.20477500000000000000e0 * t273 + 0.12323500000000000000e0 * t279))
t287 = 0.621814e-1 * (0.1e1 + 0.53425000000000000000e-1 * t267) * t285
t288 = 0.2e1 <= p_a_zeta_threshold
t290 = lax_cond(t288, t153, 0.2e1 * t159)
t291 = 0.0e0 <= p_a_zeta_threshold
t292 = lax_cond(t291, t153, 0)
t294 = (t290 + t292 - 0.2e1) * t162
t305 = math.log(0.1e1 + 0.32163958997385070134e2 / (0.70594500000000000000e1 * t270 + 0.15494250000000000000e1 * t267 + 0.42077500000000000000e0 * t273 + 0.15629250000000000000e0 * t279))
t318 = math.log(0.1e1 + 0.29608749977793437516e2 / (0.51785000000000000000e1 * t270 + 0.90577500000000000000e0 * t267 + 0.11003250000000000000e0 * t273 + 0.12417750000000000000e0 * t279))
t319 = (0.1e1 + 0.27812500000000000000e-1 * t267) * t318
t322 = t294 * (-0.3109070e-1 * (0.1e1 + 0.51370000000000000000e-1 * t267) * t305 + t287 - 0.19751673498613801407e-1 * t319)
t324 = 0.19751673498613801407e-1 * t294 * t319
t325 = lax_cond(t288, t199, t235)
t326 = lax_cond(t291, t199, 0)
t328 = t325 / 0.2e1 + t326 / 0.2e1
t329 = t328 ** 2
t330 = t329 * t328
t332 = 0.1e1 / t329 * t136
t339 = t220 * t73
t343 = t73 / t330
t345 = math.exp(-(-t287 + t322 + t324) * t219 * t343)
t347 = 0.1e1 / (t345 - 0.1e1)
t348 = s0 ** 2
t350 = t39 ** 2
t356 = t329 ** 2
t359 = 0.1e1 / t356 * t72 * t240
t360 = t125 * t66
t366 = t44 * t332 * t215 * t65 / t265 / 0.96e2 + t339 * t347 * t348 / t40 / t350 / r0 * t359 * t360 / t277 / 0.3072e4
t376 = math.log(0.1e1 + params_a_beta * t366 * t248 / (t220 * t73 * t347 * t366 + 0.1e1))
t379 = t198 * t330 * t376 - t287 + t322 + t324
t381 = lax_cond(t259 < t379, t379, t259)
t384 = lax_cond(t120, t259 * t29 / 0.2e1, t381 * t45 / 0.2e1)
t386 = jnp.logical_or(r1 <= p_a_dens_threshold, t33)
t390 = (0.1e1 / t57) ** (0.1e1 / 0.3e1)
t392 = t262 * t263 * t390
t395 = math.sqrt(t392)
t398 = t392 ** 0.15e1
t400 = t390 ** 2
t402 = t275 * t276 * t400
t408 = math.log(0.1e1 + 0.16081979498692535067e2 / (0.37978500000000000000e1 * t395 + 0.89690000000000000000e0 * t392 + 0.20477500000000000000e0 * t398 + 0.12323500000000000000e0 * t402))
t410 = 0.621814e-1 * (0.1e1 + 0.53425000000000000000e-1 * t392) * t408
t421 = math.log(0.1e1 + 0.32163958997385070134e2 / (0.70594500000000000000e1 * t395 + 0.15494250000000000000e1 * t392 + 0.42077500000000000000e0 * t398 + 0.15629250000000000000e0 * t402))
t434 = math.log(0.1e1 + 0.29608749977793437516e2 / (0.51785000000000000000e1 * t395 + 0.90577500000000000000e0 * t392 + 0.11003250000000000000e0 * t398 + 0.12417750000000000000e0 * t402))
t435 = (0.1e1 + 0.27812500000000000000e-1 * t392) * t434
t438 = t294 * (-0.3109070e-1 * (0.1e1 + 0.51370000000000000000e-1 * t392) * t421 + t410 - 0.19751673498613801407e-1 * t435)
t440 = 0.19751673498613801407e-1 * t294 * t435
t450 = math.exp(-(-t410 + t438 + t440) * t219 * t343)
t452 = 0.1e1 / (t450 - 0.1e1)
t453 = s2 ** 2
t455 = t51 ** 2
t466 = t56 * t332 * t215 * t65 / t390 / 0.96e2 + t339 * t452 * t453 / t52 / t455 / r1 * t359 * t360 / t400 / 0.3072e4
t476 = math.log(0.1e1 + params_a_beta * t466 * t248 / (t220 * t73 * t452 * t466 + 0.1e1))
t479 = t198 * t330 * t476 - t410 + t438 + t440
t481 = lax_cond(t259 < t479, t479, t259)
t484 = lax_cond(t386, t259 * t32 / 0.2e1, t481 * t57 / 0.2e1)
t490 = t29 ** (0.1e1 / 0.3e1)
t492 = lax_cond(t30, t153, t490 * t29)
t493 = t32 ** (0.1e1 / 0.3e1)
t495 = lax_cond(t33, t153, t493 * t32)
t497 = (t492 + t495 - 0.2e1) * t162
t499 = t18 * t21 * t497 * t189
t501 = 0.19751673498613801407e-1 * t497 * t187
t502 = t490 ** 2
t503 = lax_cond(t30, t199, t502)
t504 = t493 ** 2
t505 = lax_cond(t33, t199, t504)
t507 = t503 / 0.2e1 + t505 / 0.2e1
t508 = t507 ** 2
t509 = t508 * t507
t520 = math.exp(-(-t149 + t499 + t501) * t219 * t73 / t509)
t523 = t73 / (t520 - 0.1e1)
t526 = t508 ** 2
t532 = t211 / t508 * t136 * t215 / 0.96e2 + t220 * t523 * t230 * t236 / t526 * t242 / 0.3072e4
t541 = math.log(0.1e1 + params_a_beta * t532 * t248 / (t220 * t523 * t532 + 0.1e1))
t546 = -(0.1e1 + t93) * t117 * (t384 + t484) + (t93 * t117 + 0.1e1) * (t198 * t509 * t541 - t149 + t499 + t501)
res = t546 * (params_a_d * t546 * t117 * t116 + 0.1e1)
" unpol "t2 = lax_cond(0 < 0, 0, 0)
t4 = params_a_C0_c[0]
t9 = 0.1e1 <= p_a_zeta_threshold
t10 = p_a_zeta_threshold - 0.1e1
t12 = lax_cond(t9, -t10, 0)
t13 = lax_cond(t9, t10, t12)
t14 = t13 ** 2
t16 = 2 ** (0.1e1 / 0.3e1)
t17 = t16 ** 2
t18 = s0 * t17
t19 = r0 ** 2
t20 = r0 ** (0.1e1 / 0.3e1)
t21 = t20 ** 2
t23 = 0.1e1 / t21 / t19
t24 = 0.1e1 + t13
t25 = t24 / 0.2e1
t26 = t25 ** (0.1e1 / 0.3e1)
t27 = t26 ** 2
t31 = 0.1e1 - t13
t32 = t31 / 0.2e1
t33 = t32 ** (0.1e1 / 0.3e1)
t34 = t33 ** 2
t41 = 3 ** (0.1e1 / 0.3e1)
t42 = math.pi ** 2
t43 = t42 ** (0.1e1 / 0.3e1)
t44 = t43 ** 2
t47 = t24 ** (0.1e1 / 0.3e1)
t48 = t47 * t24
t50 = t31 ** (0.1e1 / 0.3e1)
t51 = t50 * t31
t58 = (0.1e1 + (0.1e1 - t14) * (t18 * t23 * t27 * t25 + t18 * t23 * t34 * t32 - s0 * t23) * t41 / t44 * (0.1e1 / t48 + 0.1e1 / t51) / 0.24e2) ** 2
t59 = t58 ** 2
t62 = lax_cond(-t2 <= -0.999999999999e0, t4 + params_a_C0_c[1] + params_a_C0_c[2] + params_a_C0_c[3], t4 / t59)
t68 = s0 / r0 / tau0 / 0.8e1
t70 = lax_cond(0.1e1 < t68, 1, t68)
t71 = t70 ** 2
t75 = jnp.logical_or(r0 / 0.2e1 <= p_a_dens_threshold, t9)
t77 = (0.1e1 / math.pi) ** (0.1e1 / 0.3e1)
t78 = t41 * t77
t79 = 4 ** (0.1e1 / 0.3e1)
t80 = t79 ** 2
t81 = 0.1e1 / t20
t83 = t78 * t80 * t81
t86 = math.sqrt(t83)
t89 = t83 ** 0.15e1
t91 = t41 ** 2
t92 = t77 ** 2
t93 = t91 * t92
t94 = 0.1e1 / t21
t96 = t93 * t79 * t94
t102 = math.log(0.1e1 + 0.16081979498692535067e2 / (0.37978500000000000000e1 * t86 + 0.89690000000000000000e0 * t83 + 0.20477500000000000000e0 * t89 + 0.12323500000000000000e0 * t96))
t103 = (0.1e1 + 0.53425000000000000000e-1 * t83) * t102
t105 = t14 ** 2
t106 = t24 <= p_a_zeta_threshold
t107 = p_a_zeta_threshold ** (0.1e1 / 0.3e1)
t108 = t107 * p_a_zeta_threshold
t109 = lax_cond(t106, t108, t48)
t110 = t31 <= p_a_zeta_threshold
t111 = lax_cond(t110, t108, t51)
t112 = t109 + t111 - 0.2e1
t116 = 0.1e1 / (0.2e1 * t16 - 0.2e1)
t127 = math.log(0.1e1 + 0.32163958997385070134e2 / (0.70594500000000000000e1 * t86 + 0.15494250000000000000e1 * t83 + 0.42077500000000000000e0 * t89 + 0.15629250000000000000e0 * t96))
t130 = 0.621814e-1 * t103
t141 = math.log(0.1e1 + 0.29608749977793437516e2 / (0.51785000000000000000e1 * t86 + 0.90577500000000000000e0 * t83 + 0.11003250000000000000e0 * t89 + 0.12417750000000000000e0 * t96))
t142 = (0.1e1 + 0.27812500000000000000e-1 * t83) * t141
t146 = t105 * t112 * t116 * (-0.3109070e-1 * (0.1e1 + 0.51370000000000000000e-1 * t83) * t127 + t130 - 0.19751673498613801407e-1 * t142)
t149 = t112 * t116 * t142
t151 = math.log(0.2e1)
t152 = 0.1e1 - t151
t154 = t152 / t42
t155 = t107 ** 2
t156 = t47 ** 2
t157 = lax_cond(t106, t155, t156)
t158 = t50 ** 2
t159 = lax_cond(t110, t155, t158)
t161 = t157 / 0.2e1 + t159 / 0.2e1
t162 = t161 ** 2
t163 = t162 * t161
t166 = s0 / t20 / t19
t167 = t166 * t16
t171 = 0.1e1 / t77 * t79
t175 = 0.1e1 / t152
t176 = params_a_beta * t175
t177 = 0.19751673498613801407e-1 * t149
t183 = math.exp(-(-t130 + t146 + t177) * t175 * t42 / t163)
t186 = t42 / (t183 - 0.1e1)
t187 = s0 ** 2
t190 = t19 ** 2
t192 = 0.1e1 / t21 / t190
t193 = t192 * t17
t194 = t162 ** 2
t197 = 0.1e1 / t92
t199 = t41 * t197 * t80
t203 = t167 / t162 * t91 * t171 / 0.96e2 + t176 * t186 * t187 * t193 / t194 * t199 / 0.3072e4
t205 = t175 * t42
t213 = math.log(0.1e1 + params_a_beta * t203 * t205 / (t176 * t186 * t203 + 0.1e1))
t215 = t154 * t163 * t213
t217 = -0.31090700000000000000e-1 * t103 + t146 / 0.2e1 + 0.98758367493069007035e-2 * t149 + t215 / 0.2e1
t218 = -t130 + t146 + t177 + t215
t219 = t78 * t80
t220 = t81 * t16
t222 = (0.1e1 / t24) ** (0.1e1 / 0.3e1)
t224 = t219 * t220 * t222
t227 = math.sqrt(t224)
t230 = t224 ** 0.15e1
t232 = t93 * t79
t233 = t94 * t17
t234 = t222 ** 2
t236 = t232 * t233 * t234
t242 = math.log(0.1e1 + 0.16081979498692535067e2 / (0.37978500000000000000e1 * t227 + 0.89690000000000000000e0 * t224 + 0.20477500000000000000e0 * t230 + 0.12323500000000000000e0 * t236))
t244 = 0.621814e-1 * (0.1e1 + 0.53425000000000000000e-1 * t224) * t242
t245 = 0.2e1 <= p_a_zeta_threshold
t247 = lax_cond(t245, t108, 0.2e1 * t16)
t248 = 0.0e0 <= p_a_zeta_threshold
t249 = lax_cond(t248, t108, 0)
t251 = (t247 + t249 - 0.2e1) * t116
t262 = math.log(0.1e1 + 0.32163958997385070134e2 / (0.70594500000000000000e1 * t227 + 0.15494250000000000000e1 * t224 + 0.42077500000000000000e0 * t230 + 0.15629250000000000000e0 * t236))
t275 = math.log(0.1e1 + 0.29608749977793437516e2 / (0.51785000000000000000e1 * t227 + 0.90577500000000000000e0 * t224 + 0.11003250000000000000e0 * t230 + 0.12417750000000000000e0 * t236))
t276 = (0.1e1 + 0.27812500000000000000e-1 * t224) * t275
t279 = t251 * (-0.3109070e-1 * (0.1e1 + 0.51370000000000000000e-1 * t224) * t262 + t244 - 0.19751673498613801407e-1 * t276)
t281 = 0.19751673498613801407e-1 * t251 * t276
t282 = lax_cond(t245, t155, t17)
t283 = lax_cond(t248, t155, 0)
t285 = t282 / 0.2e1 + t283 / 0.2e1
t286 = t285 ** 2
t287 = t286 * t285
t290 = t166 / t286 * t91
t296 = t176 * t42
t300 = t42 / t287
t302 = math.exp(-(-t244 + t279 + t281) * t175 * t300)
t304 = 0.1e1 / (t302 - 0.1e1)
t308 = t286 ** 2
t311 = 0.1e1 / t308 * t41 * t197
t312 = t80 * t16
t318 = t290 * t171 * t17 / t222 / 0.96e2 + t296 * t304 * t187 * t192 * t311 * t312 / t234 / 0.1536e4
t328 = math.log(0.1e1 + params_a_beta * t318 * t205 / (t176 * t42 * t304 * t318 + 0.1e1))
t331 = t154 * t287 * t328 - t244 + t279 + t281
t333 = lax_cond(t218 < t331, t331, t218)
t336 = lax_cond(t75, t217, t333 * t24 / 0.2e1)
t338 = (0.1e1 / t31) ** (0.1e1 / 0.3e1)
t340 = t219 * t220 * t338
t343 = math.sqrt(t340)
t346 = t340 ** 0.15e1
t348 = t338 ** 2
t350 = t232 * t233 * t348
t356 = math.log(0.1e1 + 0.16081979498692535067e2 / (0.37978500000000000000e1 * t343 + 0.89690000000000000000e0 * t340 + 0.20477500000000000000e0 * t346 + 0.12323500000000000000e0 * t350))
t358 = 0.621814e-1 * (0.1e1 + 0.53425000000000000000e-1 * t340) * t356
t369 = math.log(0.1e1 + 0.32163958997385070134e2 / (0.70594500000000000000e1 * t343 + 0.15494250000000000000e1 * t340 + 0.42077500000000000000e0 * t346 + 0.15629250000000000000e0 * t350))
t382 = math.log(0.1e1 + 0.29608749977793437516e2 / (0.51785000000000000000e1 * t343 + 0.90577500000000000000e0 * t340 + 0.11003250000000000000e0 * t346 + 0.12417750000000000000e0 * t350))
t383 = (0.1e1 + 0.27812500000000000000e-1 * t340) * t382
t386 = t251 * (-0.3109070e-1 * (0.1e1 + 0.51370000000000000000e-1 * t340) * t369 + t358 - 0.19751673498613801407e-1 * t383)
t388 = 0.19751673498613801407e-1 * t251 * t383
t397 = math.exp(-(-t358 + t386 + t388) * t175 * t300)
t399 = 0.1e1 / (t397 - 0.1e1)
t408 = t290 * t171 * t17 / t338 / 0.96e2 + t296 * t399 * t187 * t192 * t311 * t312 / t348 / 0.1536e4
t418 = math.log(0.1e1 + params_a_beta * t408 * t205 / (t176 * t42 * t399 * t408 + 0.1e1))
t421 = t154 * t287 * t418 - t358 + t386 + t388
t423 = lax_cond(t218 < t421, t421, t218)
t426 = lax_cond(t75, t217, t423 * t31 / 0.2e1)
t431 = lax_cond(t9, t108, 1)
t436 = 0.19751673498613801407e-1 * (0.2e1 * t431 - 0.2e1) * t116 * t142
t437 = lax_cond(t9, t155, 1)
t438 = t437 ** 2
t439 = t438 * t437
t450 = math.exp(-(-t130 + t436) * t175 * t42 / t439)
t453 = t42 / (t450 - 0.1e1)
t456 = t438 ** 2
t462 = t167 / t438 * t91 * t171 / 0.96e2 + t176 * t453 * t187 * t193 / t456 * t199 / 0.3072e4
t471 = math.log(0.1e1 + params_a_beta * t462 * t205 / (t176 * t453 * t462 + 0.1e1))
t476 = -(0.1e1 + t62) * t71 * (t336 + t426) + (t62 * t71 + 0.1e1) * (t154 * t439 * t471 - t130 + t436)
res = t476 * (params_a_d * t476 * t71 * t70 + 0.1e1)
"

/- gen_repo/impl/prebuilt/pol/mgga_c_tpssloc.py and gen_repo/impl/prebuilt/unpol/mgga_c_tpssloc.py -/
formula mgga_c_tpssloc pol "t1 = r0 - r1
t2 = r0 + r1
t4 = t1 / t2
t6 = lax_cond(0.0e0 < t4, t4, -t4)
t8 = t1 ** 2
t9 = t2 ** 2
t13 = t8 ** 2
t14 = t9 ** 2
t16 = t13 / t14
t24 = 0.1e1 + t4
t25 = t24 <= p_a_zeta_threshold
t26 = p_a_zeta_threshold - 0.1e1
t27 = 0.1e1 - t4
t28 = t27 <= p_a_zeta_threshold
t30 = lax_cond(t28, -t26, t4)
t31 = lax_cond(t25, t26, t30)
t32 = t31 ** 2
t34 = r0 ** 2
t35 = r0 ** (0.1e1 / 0.3e1)
t36 = t35 ** 2
t39 = s0 / t36 / t34
t40 = 0.1e1 + t31
t41 = t40 / 0.2e1
t42 = t41 ** (0.1e1 / 0.3e1)
t43 = t42 ** 2
t46 = r1 ** 2
t47 = r1 ** (0.1e1 / 0.3e1)
t48 = t47 ** 2
t51 = s2 / t48 / t46
t52 = 0.1e1 - t31
t53 = t52 / 0.2e1
t54 = t53 ** (0.1e1 / 0.3e1)
t55 = t54 ** 2
t59 = s0 + 0.2e1 * s1 + s2
t60 = t2 ** (0.1e1 / 0.3e1)
t61 = t60 ** 2
t64 = t59 / t61 / t9
t67 = 3 ** (0.1e1 / 0.3e1)
t68 = math.pi ** 2
t69 = t68 ** (0.1e1 / 0.3e1)
t70 = t69 ** 2
t73 = t40 ** (0.1e1 / 0.3e1)
t74 = t73 * t40
t76 = t52 ** (0.1e1 / 0.3e1)
t77 = t76 * t52
t84 = (0.1e1 + (0.1e1 - t32) * (t39 * t43 * t41 + t51 * t55 * t53 - t64) * t67 / t70 * (0.1e1 / t74 + 0.1e1 / t77) / 0.24e2) ** 2
t85 = t84 ** 2
t88 = lax_cond(-t6 <= -0.999999999999e0, 0.398e1, (0.35e0 + 0.87e0 * t8 / t9 + 0.50e0 * t16 + 0.226e1 * t13 * t8 / t14 / t9) / t85)
t93 = t24 / 0.2e1
t94 = t93 ** (0.1e1 / 0.3e1)
t95 = t94 ** 2
t101 = t27 / 0.2e1
t102 = t101 ** (0.1e1 / 0.3e1)
t103 = t102 ** 2
t109 = t64 / (tau0 / t36 / r0 * t95 * t93 + tau1 / t48 / r1 * t103 * t101) / 0.8e1
t111 = lax_cond(0.1e1 < t109, 1, t109)
t112 = t111 ** 2
t115 = jnp.logical_or(r0 <= p_a_dens_threshold, t25)
t117 = (0.1e1 / math.pi) ** (0.1e1 / 0.3e1)
t118 = t67 * t117
t119 = 4 ** (0.1e1 / 0.3e1)
t120 = t119 ** 2
t121 = 0.1e1 / t60
t123 = t118 * t120 * t121
t126 = math.sqrt(t123)
t129 = t123 ** 0.15e1
t131 = t67 ** 2
t132 = t117 ** 2
t133 = t131 * t132
t134 = 0.1e1 / t61
t136 = t133 * t119 * t134
t142 = math.log(0.1e1 + 0.16081979498692535067e2 / (0.37978500000000000000e1 * t126 + 0.89690000000000000000e0 * t123 + 0.20477500000000000000e0 * t129 + 0.12323500000000000000e0 * t136))
t144 = 0.621814e-1 * (0.1e1 + 0.53425000000000000000e-1 * t123) * t142
t145 = t32 ** 2
t146 = t40 <= p_a_zeta_threshold
t147 = p_a_zeta_threshold ** (0.1e1 / 0.3e1)
t148 = t147 * p_a_zeta_threshold
t149 = lax_cond(t146, t148, t74)
t150 = t52 <= p_a_zeta_threshold
t151 = lax_cond(t150, t148, t77)
t152 = t149 + t151 - 0.2e1
t154 = 2 ** (0.1e1 / 0.3e1)
t157 = 0.1e1 / (0.2e1 * t154 - 0.2e1)
t168 = math.log(0.1e1 + 0.32163958997385070134e2 / (0.70594500000000000000e1 * t126 + 0.15494250000000000000e1 * t123 + 0.42077500000000000000e0 * t129 + 0.15629250000000000000e0 * t136))
t181 = math.log(0.1e1 + 0.29608749977793437516e2 / (0.51785000000000000000e1 * t126 + 0.90577500000000000000e0 * t123 + 0.11003250000000000000e0 * t129 + 0.12417750000000000000e0 * t136))
t182 = (0.1e1 + 0.27812500000000000000e-1 * t123) * t181
t184 = -0.3109070e-1 * (0.1e1 + 0.51370000000000000000e-1 * t123) * t168 + t144 - 0.19751673498613801407e-1 * t182
t186 = t145 * t152 * t157 * t184
t189 = 0.19751673498613801407e-1 * t152 * t157 * t182
t190 = math.log(0.2e1)
t191 = 0.1e1 - t190
t193 = t191 / t68
t194 = t147 ** 2
t195 = t73 ** 2
t196 = lax_cond(t146, t194, t195)
t197 = t76 ** 2
t198 = lax_cond(t150, t194, t197)
t200 = t196 / 0.2e1 + t198 / 0.2e1
t201 = t200 ** 2
t202 = t201 * t200
t205 = t59 / t60 / t9
t206 = 0.1e1 / t201
t209 = 0.1e1 / t117
t212 = math.exp(-t136 / 0.4e1)
t215 = t131 * t209 * t119 * (0.1e1 - t212)
t218 = 0.375e-1 + 0.83333333333333333332e-3 * t205 * t154 * t206 * t215
t219 = t205 * t154
t221 = t209 * t119
t225 = 0.1e1 / t191
t226 = t218 * t225
t232 = math.exp(-(-t144 + t186 + t189) * t225 * t68 / t202)
t235 = t68 / (t232 - 0.1e1)
t236 = t59 ** 2
t241 = t154 ** 2
t242 = 0.1e1 / t61 / t14 * t241
t243 = t201 ** 2
t246 = 0.1e1 / t132
t248 = t67 * t246 * t120
t252 = t219 * t206 * t131 * t221 / 0.96e2 + t226 * t235 * t236 * t242 / t243 * t248 / 0.3072e4
t254 = t225 * t68
t262 = math.log(0.1e1 + t218 * t252 * t254 / (t226 * t235 * t252 + 0.1e1))
t265 = t193 * t202 * t262 - t144 + t186 + t189
t268 = t118 * t120
t269 = t121 * t154
t271 = (0.1e1 / t40) ** (0.1e1 / 0.3e1)
t273 = t268 * t269 * t271
t276 = math.sqrt(t273)
t279 = t273 ** 0.15e1
t281 = t133 * t119
t282 = t134 * t241
t283 = t271 ** 2
t285 = t281 * t282 * t283
t291 = math.log(0.1e1 + 0.16081979498692535067e2 / (0.37978500000000000000e1 * t276 + 0.89690000000000000000e0 * t273 + 0.20477500000000000000e0 * t279 + 0.12323500000000000000e0 * t285))
t293 = 0.621814e-1 * (0.1e1 + 0.53425000000000000000e-1 * t273) * t291
t294 = 0.2e1 <= p_a_zeta_threshold
t296 = lax_cond(t294, t148, 0.2e1 * t154)
t297 = 0.0e0 <= p_a_zeta_threshold
t298 = lax_cond(t297, t148, 0)
t300 = (t296 + t298 - 0.2e1) * t157
t311 = math.log(0.1e1 + 0.32163958997385070134e2 / (0.70594500000000000000e1 * t276 + 0.15494250000000000000e1 * t273 + 0.42077500000000000000e0 * t279 + 0.15629250000000000000e0 * t285))
t324 = math.log(0.1e1 + 0.29608749977793437516e2 / (0.51785000000000000000e1 * t276 + 0.90577500000000000000e0 * t273 + 0.11003250000000000000e0 * t279 + 0.12417750000000000000e0 * t285))
t325 = (0.1e1 + 0.27812500000000000000e-1 * t273) * t324
t328 = t300 * (-0.3109070e-1 * (0.1e1 + 0.51370000000000000000e-1 * t273) * t311 + t293 - 0.19751673498613801407e-1 * t325)
t330 = 0.19751673498613801407e-1 * t300 * t325
t331 = lax_cond(t294, t194, t241)
t332 = lax_cond(t297, t194, 0)
t334 = t331 / 0.2e1 + t332 / 0.2e1
t335 = t334 ** 2
t336 = t335 * t334
t338 = 0.1e1 / t335 * t131
t339 = t39 * t338
t341 = t60 / t271
t343 = math.exp(-t285 / 0.4e1)
t349 = 0.375e-1 + 0.83333333333333333332e-3 * t339 * t221 * t341 * (0.1e1 - t343)
t353 = t349 * t225
t358 = t68 / t336
t360 = math.exp(-(-t293 + t328 + t330) * t225 * t358)
t362 = 0.1e1 / (t360 - 0.1e1)
t363 = s0 ** 2
t365 = t34 ** 2
t371 = t335 ** 2
t374 = 0.1e1 / t371 * t67 * t246
t375 = t120 * t61
t381 = t339 * t221 * t341 / 0.96e2 + t353 * t68 * t362 * t363 / t35 / t365 / r0 * t374 * t375 / t283 / 0.3072e4
t391 = math.log(0.1e1 + t349 * t381 * t254 / (t353 * t68 * t362 * t381 + 0.1e1))
t394 = t193 * t336 * t391 - t293 + t328 + t330
t396 = lax_cond(t265 < t394, t394, t265)
t399 = lax_cond(t115, t265 * t24 / 0.2e1, t396 * t40 / 0.2e1)
t401 = jnp.logical_or(r1 <= p_a_dens_threshold, t28)
t405 = (0.1e1 / t52) ** (0.1e1 / 0.3e1)
t407 = t268 * t269 * t405
t410 = math.sqrt(t407)
t413 = t407 ** 0.15e1
t415 = t405 ** 2
t417 = t281 * t282 * t415
t423 = math.log(0.1e1 + 0.16081979498692535067e2 / (0.37978500000000000000e1 * t410 + 0.89690000000000000000e0 * t407 + 0.20477500000000000000e0 * t413 + 0.12323500000000000000e0 * t417))
t425 = 0.621814e-1 * (0.1e1 + 0.53425000000000000000e-1 * t407) * t423
t436 = math.log(0.1e1 + 0.32163958997385070134e2 / (0.70594500000000000000e1 * t410 + 0.15494250000000000000e1 * t407 + 0.42077500000000000000e0 * t413 + 0.15629250000000000000e0 * t417))
t449 = math.log(0.1e1 + 0.29608749977793437516e2 / (0.51785000000000000000e1 * t410 + 0.90577500000000000000e0 * t407 + 0.11003250000000000000e0 * t413 + 0.12417750000000000000e0 * t417))
t450 = (0.1e1 + 0.27812500000000000000e-1 * t407) * t449
t453 = t300 * (-0.3109070e-1 * (0.1e1 + 0.51370000000000000000e-1 * t407) * t436 + t425 - 0.19751673498613801407e-1 * t450)
t455 = 0.19751673498613801407e-1 * t300 * t450
t456 = t51 * t338
t458 = t60 / t405
t460 = math.exp(-t417 / 0.4e1)
t466 = 0.375e-1 + 0.83333333333333333332e-3 * t456 * t221 * t458 * (0.1e1 - t460)
t470 = t466 * t225
t475 = math.exp(-(-t425 + t453 + t455) * t225 * t358)
t477 = 0.1e1 / (t475 - 0.1e1)
t478 = s2 ** 2
t480 = t46 ** 2
t491 = t456 * t221 * t458 / 0.96e2 + t470 * t68 * t477 * t478 / t47 / t480 / r1 * t374 * t375 / t415 / 0.3072e4
t501 = math.log(0.1e1 + t466 * t491 * t254 / (t470 * t68 * t477 * t491 + 0.1e1))
t504 = t193 * t336 * t501 - t425 + t453 + t455
t506 = lax_cond(t265 < t504, t504, t265)
t509 = lax_cond(t401, t265 * t27 / 0.2e1, t506 * t52 / 0.2e1)
t514 = t24 ** (0.1e1 / 0.3e1)
t516 = lax_cond(t25, t148, t514 * t24)
t517 = t27 ** (0.1e1 / 0.3e1)
t519 = lax_cond(t28, t148, t517 * t27)
t521 = (t516 + t519 - 0.2e1) * t157
t523 = t16 * t521 * t184
t525 = 0.19751673498613801407e-1 * t521 * t182
t526 = t514 ** 2
t527 = lax_cond(t25, t194, t526)
t528 = t517 ** 2
t529 = lax_cond(t28, t194, t528)
t531 = t527 / 0.2e1 + t529 / 0.2e1
t532 = t531 ** 2
t533 = t532 * t531
t534 = 0.1e1 / t532
t539 = 0.375e-1 + 0.83333333333333333332e-3 * t205 * t154 * t534 * t215
t544 = t539 * t225
t550 = math.exp(-(-t144 + t523 + t525) * t225 * t68 / t533)
t553 = t68 / (t550 - 0.1e1)
t556 = t532 ** 2
t562 = t219 * t534 * t131 * t221 / 0.96e2 + t544 * t553 * t236 * t242 / t556 * t248 / 0.3072e4
t571 = math.log(0.1e1 + t539 * t562 * t254 / (t544 * t553 * t562 + 0.1e1))
t576 = -(0.1e1 + t88) * t112 * (t399 + t509) + (t88 * t112 + 0.1e1) * (t193 * t533 * t571 - t144 + t523 + t525)
res = t576 * (0.1e1 + 0.45e1 * t576 * t112 * t111)
" unpol "t2 = lax_cond(0 < 0, 0, 0)
t4 = 0.1e1 <= p_a_zeta_threshold
t5 = p_a_zeta_threshold - 0.1e1
t7 = lax_cond(t4, -t5, 0)
t8 = lax_cond(t4, t5, t7)
t9 = t8 ** 2
t11 = 2 ** (0.1e1 / 0.3e1)
t12 = t11 ** 2
t13 = s0 * t12
t14 = r0 ** 2
t15 = r0 ** (0.1e1 / 0.3e1)
t16 = t15 ** 2
t18 = 0.1e1 / t16 / t14
t19 = 0.1e1 + t8
t20 = t19 / 0.2e1
t21 = t20 ** (0.1e1 / 0.3e1)
t22 = t21 ** 2
t26 = 0.1e1 - t8
t27 = t26 / 0.2e1
t28 = t27 ** (0.1e1 / 0.3e1)
t29 = t28 ** 2
t36 = 3 ** (0.1e1 / 0.3e1)
t37 = math.pi ** 2
t38 = t37 ** (0.1e1 / 0.3e1)
t39 = t38 ** 2
t42 = t19 ** (0.1e1 / 0.3e1)
t43 = t42 * t19
t45 = t26 ** (0.1e1 / 0.3e1)
t46 = t45 * t26
t53 = (0.1e1 + (0.1e1 - t9) * (t13 * t18 * t22 * t20 + t13 * t18 * t29 * t27 - s0 * t18) * t36 / t39 * (0.1e1 / t43 + 0.1e1 / t46) / 0.24e2) ** 2
t54 = t53 ** 2
t57 = lax_cond(-t2 <= -0.999999999999e0, 0.398e1, 0.35e0 / t54)
t63 = s0 / r0 / tau0 / 0.8e1
t65 = lax_cond(0.1e1 < t63, 1, t63)
t66 = t65 ** 2
t70 = jnp.logical_or(r0 / 0.2e1 <= p_a_dens_threshold, t4)
t72 = (0.1e1 / math.pi) ** (0.1e1 / 0.3e1)
t73 = t36 * t72
t74 = 4 ** (0.1e1 / 0.3e1)
t75 = t74 ** 2
t76 = 0.1e1 / t15
t78 = t73 * t75 * t76
t81 = math.sqrt(t78)
t84 = t78 ** 0.15e1
t86 = t36 ** 2
t87 = t72 ** 2
t88 = t86 * t87
t89 = 0.1e1 / t16
t91 = t88 * t74 * t89
t97 = math.log(0.1e1 + 0.16081979498692535067e2 / (0.37978500000000000000e1 * t81 + 0.89690000000000000000e0 * t78 + 0.20477500000000000000e0 * t84 + 0.12323500000000000000e0 * t91))
t98 = (0.1e1 + 0.53425000000000000000e-1 * t78) * t97
t100 = t9 ** 2
t101 = t19 <= p_a_zeta_threshold
t102 = p_a_zeta_threshold ** (0.1e1 / 0.3e1)
t103 = t102 * p_a_zeta_threshold
t104 = lax_cond(t101, t103, t43)
t105 = t26 <= p_a_zeta_threshold
t106 = lax_cond(t105, t103, t46)
t107 = t104 + t106 - 0.2e1
t111 = 0.1e1 / (0.2e1 * t11 - 0.2e1)
t122 = math.log(0.1e1 + 0.32163958997385070134e2 / (0.70594500000000000000e1 * t81 + 0.15494250000000000000e1 * t78 + 0.42077500000000000000e0 * t84 + 0.15629250000000000000e0 * t91))
t125 = 0.621814e-1 * t98
t136 = math.log(0.1e1 + 0.29608749977793437516e2 / (0.51785000000000000000e1 * t81 + 0.90577500000000000000e0 * t78 + 0.11003250000000000000e0 * t84 + 0.12417750000000000000e0 * t91))
t137 = (0.1e1 + 0.27812500000000000000e-1 * t78) * t136
t141 = t100 * t107 * t111 * (-0.3109070e-1 * (0.1e1 + 0.51370000000000000000e-1 * t78) * t122 + t125 - 0.19751673498613801407e-1 * t137)
t144 = t107 * t111 * t137
t146 = math.log(0.2e1)
t147 = 0.1e1 - t146
t149 = t147 / t37
t150 = t102 ** 2
t151 = t42 ** 2
t152 = lax_cond(t101, t150, t151)
t153 = t45 ** 2
t154 = lax_cond(t105, t150, t153)
t156 = t152 / 0.2e1 + t154 / 0.2e1
t157 = t156 ** 2
t158 = t157 * t156
t161 = s0 / t15 / t14
t162 = 0.1e1 / t157
t165 = 0.1e1 / t72
t168 = math.exp(-t91 / 0.4e1)
t171 = t86 * t165 * t74 * (0.1e1 - t168)
t174 = 0.375e-1 + 0.83333333333333333332e-3 * t161 * t11 * t162 * t171
t175 = t161 * t11
t177 = t165 * t74
t181 = 0.1e1 / t147
t182 = t174 * t181
t183 = 0.19751673498613801407e-1 * t144
t189 = math.exp(-(-t125 + t141 + t183) * t181 * t37 / t158)
t192 = t37 / (t189 - 0.1e1)
t193 = s0 ** 2
t196 = t14 ** 2
t198 = 0.1e1 / t16 / t196
t199 = t198 * t12
t200 = t157 ** 2
t203 = 0.1e1 / t87
t205 = t36 * t203 * t75
t209 = t175 * t162 * t86 * t177 / 0.96e2 + t182 * t192 * t193 * t199 / t200 * t205 / 0.3072e4
t211 = t181 * t37
t219 = math.log(0.1e1 + t174 * t209 * t211 / (t182 * t192 * t209 + 0.1e1))
t221 = t149 * t158 * t219
t223 = -0.31090700000000000000e-1 * t98 + t141 / 0.2e1 + 0.98758367493069007035e-2 * t144 + t221 / 0.2e1
t224 = -t125 + t141 + t183 + t221
t225 = t73 * t75
t226 = t76 * t11
t228 = (0.1e1 / t19) ** (0.1e1 / 0.3e1)
t230 = t225 * t226 * t228
t233 = math.sqrt(t230)
t236 = t230 ** 0.15e1
t238 = t88 * t74
t239 = t89 * t12
t240 = t228 ** 2
t242 = t238 * t239 * t240
t248 = math.log(0.1e1 + 0.16081979498692535067e2 / (0.37978500000000000000e1 * t233 + 0.89690000000000000000e0 * t230 + 0.20477500000000000000e0 * t236 + 0.12323500000000000000e0 * t242))
t250 = 0.621814e-1 * (0.1e1 + 0.53425000000000000000e-1 * t230) * t248
t251 = 0.2e1 <= p_a_zeta_threshold
t253 = lax_cond(t251, t103, 0.2e1 * t11)
t254 = 0.0e0 <= p_a_zeta_threshold
t255 = lax_cond(t254, t103, 0)
t257 = (t253 + t255 - 0.2e1) * t111
t268 = math.log(0.1e1 + 0.32163958997385070134e2 / (0.70594500000000000000e1 * t233 + 0.15494250000000000000e1 * t230 + 0.42077500000000000000e0 * t236 + 0.15629250000000000000e0 * t242))
t281 = math.log(0.1e1 + 0.29608749977793437516e2 / (0.51785000000000000000e1 * t233 + 0.90577500000000000000e0 * t230 + 0.11003250000000000000e0 * t236 + 0.12417750000000000000e0 * t242))
t282 = (0.1e1 + 0.27812500000000000000e-1 * t230) * t281
t285 = t257 * (-0.3109070e-1 * (0.1e1 + 0.51370000000000000000e-1 * t230) * t268 + t250 - 0.19751673498613801407e-1 * t282)
t287 = 0.19751673498613801407e-1 * t257 * t282
t288 = lax_cond(t251, t150, t12)
t289 = lax_cond(t254, t150, 0)
t291 = t288 / 0.2e1 + t289 / 0.2e1
t292 = t291 ** 2
t293 = t292 * t291
t296 = t161 / t292 * t86
t298 = t12 / t228
t300 = math.exp(-t242 / 0.4e1)
t306 = 0.375e-1 + 0.83333333333333333335e-3 * t296 * t177 * t298 * (0.1e1 - t300)
t310 = t306 * t181
t315 = t37 / t293
t317 = math.exp(-(-t250 + t285 + t287) * t181 * t315)
t319 = 0.1e1 / (t317 - 0.1e1)
t323 = t292 ** 2
t326 = 0.1e1 / t323 * t36 * t203
t327 = t75 * t11
t333 = t296 * t177 * t298 / 0.96e2 + t310 * t37 * t319 * t193 * t198 * t326 * t327 / t240 / 0.1536e4
t343 = math.log(0.1e1 + t306 * t333 * t211 / (t310 * t37 * t319 * t333 + 0.1e1))
t346 = t149 * t293 * t343 - t250 + t285 + t287
t348 = lax_cond(t224 < t346, t346, t224)
t351 = lax_cond(t70, t223, t348 * t19 / 0.2e1)
t353 = (0.1e1 / t26) ** (0.1e1 / 0.3e1)
t355 = t225 * t226 * t353
t358 = math.sqrt(t355)
t361 = t355 ** 0.15e1
t363 = t353 ** 2
t365 = t238 * t239 * t363
t371 = math.log(0.1e1 + 0.16081979498692535067e2 / (0.37978500000000000000e1 * t358 + 0.89690000000000000000e0 * t355 + 0.20477500000000000000e0 * t361 + 0.12323500000000000000e0 * t365))
t373 = 0.621814e-1 * (0.1e1 + 0.53425000000000000000e-1 * t355) * t371
t384 = math.log(0.1e1 + 0.32163958997385070134e2 / (0.70594500000000000000e1 * t358 + 0.15494250000000000000e1 * t355 + 0.42077500000000000000e0 * t361 + 0.15629250000000000000e0 * t365))
t397 = math.log(0.1e1 + 0.29608749977793437516e2 / (0.51785000000000000000e1 * t358 + 0.90577500000000000000e0 * t355 + 0.11003250000000000000e0 * t361 + 0.12417750000000000000e0 * t365))
t398 = (0.1e1 + 0.27812500000000000000e-1 * t355) * t397
t401 = t257 * (-0.3109070e-1 * (0.1e1 + 0.51370000000000000000e-1 * t355) * t384 + t373 - 0.19751673498613801407e-1 * t398)
t403 = 0.19751673498613801407e-1 * t257 * t398
t405 = t12 / t353
t407 = math.exp(-t365 / 0.4e1)
t413 = 0.375e-1 + 0.83333333333333333335e-3 * t296 * t177 * t405 * (0.1e1 - t407)
t417 = t413 * t181
t422 = math.exp(-(-t373 + t401 + t403) * t181 * t315)
t424 = 0.1e1 / (t422 - 0.1e1)
t433 = t296 * t177 * t405 / 0.96e2 + t417 * t37 * t424 * t193 * t198 * t326 * t327 / t363 / 0.1536e4
t443 = math.log(0.1e1 + t413 * t433 * t211 / (t417 * t37 * t424 * t433 + 0.1e1))
t446 = t149 * t293 * t443 - t373 + t401 + t403
t448 = lax_cond(t224 < t446, t446, t224)
t451 = lax_cond(t70, t223, t448 * t26 / 0.2e1)
t456 = lax_cond(t4, t103, 1)
t461 = 0.19751673498613801407e-1 * (0.2e1 * t456 - 0.2e1) * t111 * t137
t462 = lax_cond(t4, t150, 1)
t463 = t462 ** 2
t464 = t463 * t462
t465 = 0.1e1 / t463
t470 = 0.375e-1 + 0.83333333333333333332e-3 * t161 * t11 * t465 * t171
t475 = t470 * t181
t481 = math.exp(-(-t125 + t461) * t181 * t37 / t464)
t484 = t37 / (t481 - 0.1e1)
t487 = t463 ** 2
t493 = t175 * t465 * t86 * t177 / 0.96e2 + t475 * t484 * t193 * t199 / t487 * t205 / 0.3072e4
t502 = math.log(0.1e1 + t470 * t493 * t211 / (t475 * t484 * t493 + 0.1e1))
t507 = -(0.1e1 + t57) * t66 * (t351 + t451) + (t57 * t66 + 0.1e1) * (t149 * t464 * t502 - t125 + t461)
res = t507 * (0.1e1 + 0.45e1 * t507 * t66 * t65)
"

/- gen_repo/impl/prebuilt/pol/mgga_c_vsxc.py and gen_repo/impl/prebuilt/unpol/mgga_c_vsxc.py -/
formula mgga_c_vsxc pol "t2 = r0 - r1
t3 = r0 + r1
t5 = t2 / t3
t6 = 0.1e1 + t5
t7 = t6 <= p_a_zeta_threshold
t8 = jnp.logical_or(r0 <= p_a_dens_threshold, t7)
t9 = lax_cond(t7, p_a_zeta_threshold, t6)
t10 = 3 ** (0.1e1 / 0.3e1)
t12 = (0.1e1 / math.pi) ** (0.1e1 / 0.3e1)
t13 = t10 * t12
t14 = 4 ** (0.1e1 / 0.3e1)
t15 = t14 ** 2
t16 = t13 * t15
t17 = t3 ** (0.1e1 / 0.3e1)
t18 = 0.1e1 / t17
t19 = 2 ** (0.1e1 / 0.3e1)
t20 = t18 * t19
t21 = p_a_zeta_threshold ** (0.1e1 / 0.3e1)
t22 = 0.1e1 / t21
t23 = t6 ** (0.1e1 / 0.3e1)
t25 = lax_cond(t7, t22, 0.1e1 / t23)
t27 = t16 * t20 * t25
t30 = math.sqrt(t27)
t33 = t27 ** 0.15e1
t35 = t10 ** 2
t36 = t12 ** 2
t37 = t35 * t36
t38 = t37 * t14
t39 = t17 ** 2
t40 = 0.1e1 / t39
t41 = t19 ** 2
t42 = t40 * t41
t43 = t25 ** 2
t45 = t38 * t42 * t43
t51 = math.log(0.1e1 + 0.16081979498692535067e2 / (0.37978500000000000000e1 * t30 + 0.89690000000000000000e0 * t27 + 0.20477500000000000000e0 * t33 + 0.12323500000000000000e0 * t45))
t53 = 0.621814e-1 * (0.1e1 + 0.53425000000000000000e-1 * t27) * t51
t55 = t21 * p_a_zeta_threshold
t57 = lax_cond(0.2e1 <= p_a_zeta_threshold, t55, 0.2e1 * t19)
t59 = lax_cond(0.0e0 <= p_a_zeta_threshold, t55, 0)
t63 = 0.1e1 / (0.2e1 * t19 - 0.2e1)
t64 = (t57 + t59 - 0.2e1) * t63
t75 = math.log(0.1e1 + 0.32163958997385070134e2 / (0.70594500000000000000e1 * t30 + 0.15494250000000000000e1 * t27 + 0.42077500000000000000e0 * t33 + 0.15629250000000000000e0 * t45))
t88 = math.log(0.1e1 + 0.29608749977793437516e2 / (0.51785000000000000000e1 * t30 + 0.90577500000000000000e0 * t27 + 0.11003250000000000000e0 * t33 + 0.12417750000000000000e0 * t45))
t89 = (0.1e1 + 0.27812500000000000000e-1 * t27) * t88
t98 = lax_cond(t8, 0, t9 * (-t53 + t64 * (-0.3109070e-1 * (0.1e1 + 0.51370000000000000000e-1 * t27) * t75 + t53 - 0.19751673498613801407e-1 * t89) + 0.19751673498613801407e-1 * t64 * t89) / 0.2e1)
t99 = params_a_dss[0]
t100 = r0 ** 2
t101 = r0 ** (0.1e1 / 0.3e1)
t102 = t101 ** 2
t104 = 0.1e1 / t102 / t100
t105 = s0 * t104
t109 = 0.2e1 * tau0 / t102 / r0
t110 = 6 ** (0.1e1 / 0.3e1)
t111 = t110 ** 2
t112 = math.pi ** 2
t113 = t112 ** (0.1e1 / 0.3e1)
t114 = t113 ** 2
t115 = t111 * t114
t116 = 0.3e1 / 0.5e1 * t115
t119 = 0.1e1 + params_a_alpha_ss * (t105 + t109 - t116)
t122 = params_a_dss[1]
t125 = params_a_dss[2]
t126 = t109 - t116
t129 = t119 ** 2
t132 = params_a_dss[3]
t133 = s0 ** 2
t135 = t100 ** 2
t140 = params_a_dss[4]
t144 = params_a_dss[5]
t145 = t126 ** 2
t161 = 0.1e1 - t5
t162 = t161 <= p_a_zeta_threshold
t163 = jnp.logical_or(r1 <= p_a_dens_threshold, t162)
t164 = lax_cond(t162, p_a_zeta_threshold, t161)
t165 = t161 ** (0.1e1 / 0.3e1)
t167 = lax_cond(t162, t22, 0.1e1 / t165)
t169 = t16 * t20 * t167
t172 = math.sqrt(t169)
t175 = t169 ** 0.15e1
t177 = t167 ** 2
t179 = t38 * t42 * t177
t185 = math.log(0.1e1 + 0.16081979498692535067e2 / (0.37978500000000000000e1 * t172 + 0.89690000000000000000e0 * t169 + 0.20477500000000000000e0 * t175 + 0.12323500000000000000e0 * t179))
t187 = 0.621814e-1 * (0.1e1 + 0.53425000000000000000e-1 * t169) * t185
t198 = math.log(0.1e1 + 0.32163958997385070134e2 / (0.70594500000000000000e1 * t172 + 0.15494250000000000000e1 * t169 + 0.42077500000000000000e0 * t175 + 0.15629250000000000000e0 * t179))
t211 = math.log(0.1e1 + 0.29608749977793437516e2 / (0.51785000000000000000e1 * t172 + 0.90577500000000000000e0 * t169 + 0.11003250000000000000e0 * t175 + 0.12417750000000000000e0 * t179))
t212 = (0.1e1 + 0.27812500000000000000e-1 * t169) * t211
t221 = lax_cond(t163, 0, t164 * (-t187 + t64 * (-0.3109070e-1 * (0.1e1 + 0.51370000000000000000e-1 * t169) * t198 + t187 - 0.19751673498613801407e-1 * t212) + 0.19751673498613801407e-1 * t64 * t212) / 0.2e1)
t222 = r1 ** 2
t223 = r1 ** (0.1e1 / 0.3e1)
t224 = t223 ** 2
t226 = 0.1e1 / t224 / t222
t227 = s2 * t226
t231 = 0.2e1 * tau1 / t224 / r1
t234 = 0.1e1 + params_a_alpha_ss * (t227 + t231 - t116)
t239 = t231 - t116
t242 = t234 ** 2
t245 = s2 ** 2
t247 = t222 ** 2
t255 = t239 ** 2
t271 = t13 * t15 * t18
t274 = math.sqrt(t271)
t277 = t271 ** 0.15e1
t280 = t37 * t14 * t40
t286 = math.log(0.1e1 + 0.16081979498692535067e2 / (0.37978500000000000000e1 * t274 + 0.89690000000000000000e0 * t271 + 0.20477500000000000000e0 * t277 + 0.12323500000000000000e0 * t280))
t288 = 0.621814e-1 * (0.1e1 + 0.53425000000000000000e-1 * t271) * t286
t289 = t2 ** 2
t290 = t289 ** 2
t291 = t3 ** 2
t292 = t291 ** 2
t296 = lax_cond(t7, t55, t23 * t6)
t298 = lax_cond(t162, t55, t165 * t161)
t300 = (t296 + t298 - 0.2e1) * t63
t311 = math.log(0.1e1 + 0.32163958997385070134e2 / (0.70594500000000000000e1 * t274 + 0.15494250000000000000e1 * t271 + 0.42077500000000000000e0 * t277 + 0.15629250000000000000e0 * t280))
t324 = math.log(0.1e1 + 0.29608749977793437516e2 / (0.51785000000000000000e1 * t274 + 0.90577500000000000000e0 * t271 + 0.11003250000000000000e0 * t277 + 0.12417750000000000000e0 * t280))
t325 = (0.1e1 + 0.27812500000000000000e-1 * t271) * t324
t334 = 0.6e1 / 0.5e1 * t115
t337 = 0.1e1 + params_a_alpha_ab * (t105 + t227 + t109 + t231 - t334)
t341 = t105 + t227
t344 = t109 + t231 - t334
t347 = t337 ** 2
t351 = t341 ** 2
t357 = t344 ** 2
res = t98 * (t99 / t119 + (t122 * s0 * t104 + t125 * t126) / t129 + (t132 * t133 / t101 / t135 / r0 + t140 * s0 * t104 * t126 + t144 * t145) / t129 / t119) * (0.1e1 - s0 / r0 / tau0 / 0.8e1) + t221 * (t99 / t234 + (t122 * s2 * t226 + t125 * t239) / t242 + (t132 * t245 / t223 / t247 / r1 + t140 * s2 * t226 * t239 + t144 * t255) / t242 / t234) * (0.1e1 - s2 / r1 / tau1 / 0.8e1) + (-t288 + t290 / t292 * t300 * (-0.3109070e-1 * (0.1e1 + 0.51370000000000000000e-1 * t271) * t311 + t288 - 0.19751673498613801407e-1 * t325) + 0.19751673498613801407e-1 * t300 * t325 - t98 - t221) * (params_a_dab[0] / t337 + (params_a_dab[1] * t341 + params_a_dab[2] * t344) / t347 + (params_a_dab[4] * t341 * t344 + params_a_dab[3] * t351 + params_a_dab[5] * t357) / t347 / t337)
" unpol "t3 = 0.1e1 <= p_a_zeta_threshold
t4 = jnp.logical_or(r0 / 0.2e1 <= p_a_dens_threshold, t3)
t5 = lax_cond(t3, p_a_zeta_threshold, 1)
t6 = 3 ** (0.1e1 / 0.3e1)
t8 = (0.1e1 / math.pi) ** (0.1e1 / 0.3e1)
t9 = t6 * t8
t10 = 4 ** (0.1e1 / 0.3e1)
t11 = t10 ** 2
t13 = r0 ** (0.1e1 / 0.3e1)
t14 = 0.1e1 / t13
t15 = 2 ** (0.1e1 / 0.3e1)
t17 = p_a_zeta_threshold ** (0.1e1 / 0.3e1)
t19 = lax_cond(t3, 0.1e1 / t17, 1)
t21 = t9 * t11 * t14 * t15 * t19
t24 = math.sqrt(t21)
t27 = t21 ** 0.15e1
t29 = t6 ** 2
t30 = t8 ** 2
t31 = t29 * t30
t33 = t13 ** 2
t34 = 0.1e1 / t33
t35 = t15 ** 2
t37 = t19 ** 2
t39 = t31 * t10 * t34 * t35 * t37
t45 = math.log(0.1e1 + 0.16081979498692535067e2 / (0.37978500000000000000e1 * t24 + 0.89690000000000000000e0 * t21 + 0.20477500000000000000e0 * t27 + 0.12323500000000000000e0 * t39))
t47 = 0.621814e-1 * (0.1e1 + 0.53425000000000000000e-1 * t21) * t45
t49 = t17 * p_a_zeta_threshold
t51 = lax_cond(0.2e1 <= p_a_zeta_threshold, t49, 0.2e1 * t15)
t53 = lax_cond(0.0e0 <= p_a_zeta_threshold, t49, 0)
t57 = 0.1e1 / (0.2e1 * t15 - 0.2e1)
t58 = (t51 + t53 - 0.2e1) * t57
t69 = math.log(0.1e1 + 0.32163958997385070134e2 / (0.70594500000000000000e1 * t24 + 0.15494250000000000000e1 * t21 + 0.42077500000000000000e0 * t27 + 0.15629250000000000000e0 * t39))
t82 = math.log(0.1e1 + 0.29608749977793437516e2 / (0.51785000000000000000e1 * t24 + 0.90577500000000000000e0 * t21 + 0.11003250000000000000e0 * t27 + 0.12417750000000000000e0 * t39))
t83 = (0.1e1 + 0.27812500000000000000e-1 * t21) * t82
t92 = lax_cond(t4, 0, t5 * (-t47 + t58 * (-0.3109070e-1 * (0.1e1 + 0.51370000000000000000e-1 * t21) * t69 + t47 - 0.19751673498613801407e-1 * t83) + 0.19751673498613801407e-1 * t58 * t83) / 0.2e1)
t95 = r0 ** 2
t97 = 0.1e1 / t33 / t95
t98 = s0 * t35 * t97
t102 = tau0 * t35 / t33 / r0
t103 = 0.2e1 * t102
t104 = 6 ** (0.1e1 / 0.3e1)
t105 = t104 ** 2
t106 = math.pi ** 2
t107 = t106 ** (0.1e1 / 0.3e1)
t108 = t107 ** 2
t109 = t105 * t108
t110 = 0.3e1 / 0.5e1 * t109
t113 = 0.1e1 + params_a_alpha_ss * (t98 + t103 - t110)
t118 = t35 * t97
t121 = t103 - t110
t124 = t113 ** 2
t128 = s0 ** 2
t130 = t95 ** 2
t134 = t15 / t13 / t130 / r0
t142 = t121 ** 2
t159 = t9 * t11 * t14
t162 = math.sqrt(t159)
t165 = t159 ** 0.15e1
t168 = t31 * t10 * t34
t174 = math.log(0.1e1 + 0.16081979498692535067e2 / (0.37978500000000000000e1 * t162 + 0.89690000000000000000e0 * t159 + 0.20477500000000000000e0 * t165 + 0.12323500000000000000e0 * t168))
t177 = lax_cond(t3, t49, 1)
t191 = math.log(0.1e1 + 0.29608749977793437516e2 / (0.51785000000000000000e1 * t162 + 0.90577500000000000000e0 * t159 + 0.11003250000000000000e0 * t165 + 0.12417750000000000000e0 * t168))
t199 = 0.4e1 * t102
t200 = 0.6e1 / 0.5e1 * t109
t203 = 0.1e1 + params_a_alpha_ab * (0.2e1 * t98 + t199 - t200)
t211 = t199 - t200
t214 = t203 ** 2
t227 = t211 ** 2
res = 0.2e1 * t92 * (params_a_dss[0] / t113 + (params_a_dss[1] * s0 * t118 + params_a_dss[2] * t121) / t124 + (params_a_dss[4] * s0 * t118 * t121 + 0.2e1 * params_a_dss[3] * t128 * t134 + params_a_dss[5] * t142) / t124 / t113) * (0.1e1 - s0 / r0 / tau0 / 0.8e1) + (-0.621814e-1 * (0.1e1 + 0.53425000000000000000e-1 * t159) * t174 + 0.19751673498613801407e-1 * (0.2e1 * t177 - 0.2e1) * t57 * (0.1e1 + 0.27812500000000000000e-1 * t159) * t191 - 0.2e1 * t92) * (params_a_dab[0] / t203 + (0.2e1 * params_a_dab[1] * s0 * t118 + params_a_dab[2] * t211) / t214 + (0.2e1 * params_a_dab[4] * s0 * t118 * t211 + 0.8e1 * params_a_dab[3] * t128 * t134 + params_a_dab[5] * t227) / t214 / t203)
"

/- gen_repo/impl/prebuilt/pol/mgga_k_csk.py and gen_repo/impl/prebuilt/unpol/mgga_k_csk.py -/
formula mgga_k_csk pol "t2 = 3 ** (0.1e1 / 0.3e1)
t3 = t2 ** 2
t4 = math.pi ** (0.1e1 / 0.3e1)
t6 = t3 * t4 * math.pi
t7 = r0 + r1
t8 = 0.1e1 / t7
t11 = 0.2e1 * r0 * t8 <= p_a_zeta_threshold
t12 = p_a_zeta_threshold - 0.1e1
t15 = 0.2e1 * r1 * t8 <= p_a_zeta_threshold
t16 = -t12
t18 = (r0 - r1) * t8
t19 = lax_cond(t15, t16, t18)
t20 = lax_cond(t11, t12, t19)
t21 = 0.1e1 + t20
t23 = p_a_zeta_threshold ** (0.1e1 / 0.3e1)
t24 = t23 ** 2
t25 = t24 * p_a_zeta_threshold
t26 = t21 ** (0.1e1 / 0.3e1)
t27 = t26 ** 2
t29 = lax_cond(t21 <= p_a_zeta_threshold, t25, t27 * t21)
t30 = t7 ** (0.1e1 / 0.3e1)
t31 = t30 ** 2
t33 = 6 ** (0.1e1 / 0.3e1)
t34 = math.pi ** 2
t35 = t34 ** (0.1e1 / 0.3e1)
t36 = t35 ** 2
t38 = t33 / t36
t39 = r0 ** 2
t40 = r0 ** (0.1e1 / 0.3e1)
t41 = t40 ** 2
t45 = t38 * s0 / t41 / t39
t53 = 0.5e1 / 0.54e2 * t38 * l0 / t41 / r0 - 0.5e1 / 0.81e2 * t45
t55 = math.log(0.1e1 - DBL_EPSILON)
t56 = 0.1e1 / params_a_csk_a
t57 = (-t55) ** (-t56)
t59 = math.log(DBL_EPSILON)
t60 = (-t59) ** (-t56)
t61 = -t60 < t53
t62 = lax_cond(t61, -t60, t53)
t64 = lax_cond(-t57 < t62, t62, -t57)
t65 = abs(t64)
t66 = t65 ** params_a_csk_a
t68 = math.exp(-0.1e1 / t66)
t70 = (0.1e1 - t68) ** t56
t71 = lax_cond(t61, 1, t70)
t72 = lax_cond(t53 < -t57, 0, t71)
t78 = lax_cond(r0 <= p_a_dens_threshold, 0, 0.3e1 / 0.20e2 * t6 * t29 * t31 * (0.1e1 + 0.5e1 / 0.72e2 * t45 + t53 * t72))
t80 = lax_cond(t11, t16, -t18)
t81 = lax_cond(t15, t12, t80)
t82 = 0.1e1 + t81
t84 = t82 ** (0.1e1 / 0.3e1)
t85 = t84 ** 2
t87 = lax_cond(t82 <= p_a_zeta_threshold, t25, t85 * t82)
t89 = r1 ** 2
t90 = r1 ** (0.1e1 / 0.3e1)
t91 = t90 ** 2
t95 = t38 * s2 / t91 / t89
t103 = 0.5e1 / 0.54e2 * t38 * l1 / t91 / r1 - 0.5e1 / 0.81e2 * t95
t105 = -t60 < t103
t106 = lax_cond(t105, -t60, t103)
t108 = lax_cond(-t57 < t106, t106, -t57)
t109 = abs(t108)
t110 = t109 ** params_a_csk_a
t112 = math.exp(-0.1e1 / t110)
t114 = (0.1e1 - t112) ** t56
t115 = lax_cond(t105, 1, t114)
t116 = lax_cond(t103 < -t57, 0, t115)
t122 = lax_cond(r1 <= p_a_dens_threshold, 0, 0.3e1 / 0.20e2 * t6 * t87 * t31 * (0.1e1 + 0.5e1 / 0.72e2 * t95 + t103 * t116))
res = t78 + t122
" unpol "t3 = 3 ** (0.1e1 / 0.3e1)
t4 = t3 ** 2
t5 = math.pi ** (0.1e1 / 0.3e1)
t8 = 0.1e1 <= p_a_zeta_threshold
t9 = p_a_zeta_threshold - 0.1e1
t11 = lax_cond(t8, -t9, 0)
t12 = lax_cond(t8, t9, t11)
t13 = 0.1e1 + t12
t15 = p_a_zeta_threshold ** (0.1e1 / 0.3e1)
t16 = t15 ** 2
t18 = t13 ** (0.1e1 / 0.3e1)
t19 = t18 ** 2
t21 = lax_cond(t13 <= p_a_zeta_threshold, t16 * p_a_zeta_threshold, t19 * t13)
t22 = r0 ** (0.1e1 / 0.3e1)
t23 = t22 ** 2
t25 = 6 ** (0.1e1 / 0.3e1)
t26 = math.pi ** 2
t27 = t26 ** (0.1e1 / 0.3e1)
t28 = t27 ** 2
t30 = t25 / t28
t31 = 2 ** (0.1e1 / 0.3e1)
t32 = t31 ** 2
t34 = r0 ** 2
t38 = t30 * s0 * t32 / t23 / t34
t47 = 0.5e1 / 0.54e2 * t30 * l0 * t32 / t23 / r0 - 0.5e1 / 0.81e2 * t38
t49 = math.log(0.1e1 - DBL_EPSILON)
t50 = 0.1e1 / params_a_csk_a
t51 = (-t49) ** (-t50)
t53 = math.log(DBL_EPSILON)
t54 = (-t53) ** (-t50)
t55 = -t54 < t47
t56 = lax_cond(t55, -t54, t47)
t58 = lax_cond(-t51 < t56, t56, -t51)
t59 = abs(t58)
t60 = t59 ** params_a_csk_a
t62 = math.exp(-0.1e1 / t60)
t64 = (0.1e1 - t62) ** t50
t65 = lax_cond(t55, 1, t64)
t66 = lax_cond(t47 < -t51, 0, t65)
t72 = lax_cond(r0 / 0.2e1 <= p_a_dens_threshold, 0, 0.3e1 / 0.20e2 * t4 * t5 * math.pi * t21 * t23 * (0.1e1 + 0.5e1 / 0.72e2 * t38 + t47 * t66))
res = 0.2e1 * t72
"

/- gen_repo/impl/prebuilt/pol/mgga_k_csk_loc.py and gen_repo/impl/prebuilt/unpol/mgga_k_csk_loc.py -/
formula mgga_k_csk_loc pol "t2 = 3 ** (0.1e1 / 0.3e1)
t3 = t2 ** 2
t4 = math.pi ** (0.1e1 / 0.3e1)
t6 = t3 * t4 * math.pi
t7 = r0 + r1
t8 = 0.1e1 / t7
t11 = 0.2e1 * r0 * t8 <= p_a_zeta_threshold
t12 = p_a_zeta_threshold - 0.1e1
t15 = 0.2e1 * r1 * t8 <= p_a_zeta_threshold
t16 = -t12
t18 = (r0 - r1) * t8
t19 = lax_cond(t15, t16, t18)
t20 = lax_cond(t11, t12, t19)
t21 = 0.1e1 + t20
t23 = p_a_zeta_threshold ** (0.1e1 / 0.3e1)
t24 = t23 ** 2
t25 = t24 * p_a_zeta_threshold
t26 = t21 ** (0.1e1 / 0.3e1)
t27 = t26 ** 2
t29 = lax_cond(t21 <= p_a_zeta_threshold, t25, t27 * t21)
t30 = t7 ** (0.1e1 / 0.3e1)
t31 = t30 ** 2
t33 = 6 ** (0.1e1 / 0.3e1)
t34 = math.pi ** 2
t35 = t34 ** (0.1e1 / 0.3e1)
t36 = t35 ** 2
t37 = 0.1e1 / t36
t38 = t33 * t37
t39 = r0 ** 2
t40 = r0 ** (0.1e1 / 0.3e1)
t41 = t40 ** 2
t43 = 0.1e1 / t41 / t39
t46 = 0.5e1 / 0.72e2 * t38 * s0 * t43
t47 = params_a_csk_cp * t33
t52 = params_a_csk_cq * t33
t59 = t47 * t37 * s0 * t43 / 0.24e2 + t52 * t37 * l0 / t41 / r0 / 0.24e2 - t46
t61 = math.log(0.1e1 - DBL_EPSILON)
t62 = 0.1e1 / params_a_csk_a
t63 = (-t61) ** (-t62)
t65 = math.log(DBL_EPSILON)
t66 = (-t65) ** (-t62)
t67 = -t66 < t59
t68 = lax_cond(t67, -t66, t59)
t70 = lax_cond(-t63 < t68, t68, -t63)
t71 = abs(t70)
t72 = t71 ** params_a_csk_a
t74 = math.exp(-0.1e1 / t72)
t76 = (0.1e1 - t74) ** t62
t77 = lax_cond(t67, 1, t76)
t78 = lax_cond(t59 < -t63, 0, t77)
t84 = lax_cond(r0 <= p_a_dens_threshold, 0, 0.3e1 / 0.20e2 * t6 * t29 * t31 * (t59 * t78 + t46 + 0.1e1))
t86 = lax_cond(t11, t16, -t18)
t87 = lax_cond(t15, t12, t86)
t88 = 0.1e1 + t87
t90 = t88 ** (0.1e1 / 0.3e1)
t91 = t90 ** 2
t93 = lax_cond(t88 <= p_a_zeta_threshold, t25, t91 * t88)
t95 = r1 ** 2
t96 = r1 ** (0.1e1 / 0.3e1)
t97 = t96 ** 2
t99 = 0.1e1 / t97 / t95
t102 = 0.5e1 / 0.72e2 * t38 * s2 * t99
t113 = t47 * t37 * s2 * t99 / 0.24e2 + t52 * t37 * l1 / t97 / r1 / 0.24e2 - t102
t115 = -t66 < t113
t116 = lax_cond(t115, -t66, t113)
t118 = lax_cond(-t63 < t116, t116, -t63)
t119 = abs(t118)
t120 = t119 ** params_a_csk_a
t122 = math.exp(-0.1e1 / t120)
t124 = (0.1e1 - t122) ** t62
t125 = lax_cond(t115, 1, t124)
t126 = lax_cond(t113 < -t63, 0, t125)
t132 = lax_cond(r1 <= p_a_dens_threshold, 0, 0.3e1 / 0.20e2 * t6 * t93 * t31 * (t113 * t126 + t102 + 0.1e1))
res = t84 + t132
" unpol "t3 = 3 ** (0.1e1 / 0.3e1)
t4 = t3 ** 2
t5 = math.pi ** (0.1e1 / 0.3e1)
t8 = 0.1e1 <= p_a_zeta_threshold
t9 = p_a_zeta_threshold - 0.1e1
t11 = lax_cond(t8, -t9, 0)
t12 = lax_cond(t8, t9, t11)
t13 = 0.1e1 + t12
t15 = p_a_zeta_threshold ** (0.1e1 / 0.3e1)
t16 = t15 ** 2
t18 = t13 ** (0.1e1 / 0.3e1)
t19 = t18 ** 2
t21 = lax_cond(t13 <= p_a_zeta_threshold, t16 * p_a_zeta_threshold, t19 * t13)
t22 = r0 ** (0.1e1 / 0.3e1)
t23 = t22 ** 2
t25 = 6 ** (0.1e1 / 0.3e1)
t26 = math.pi ** 2
t27 = t26 ** (0.1e1 / 0.3e1)
t28 = t27 ** 2
t29 = 0.1e1 / t28
t31 = 2 ** (0.1e1 / 0.3e1)
t32 = t31 ** 2
t34 = r0 ** 2
t37 = s0 * t32 / t23 / t34
t39 = 0.5e1 / 0.72e2 * t25 * t29 * t37
t52 = params_a_csk_cp * t25 * t29 * t37 / 0.24e2 + params_a_csk_cq * t25 * t29 * l0 * t32 / t23 / r0 / 0.24e2 - t39
t54 = math.log(0.1e1 - DBL_EPSILON)
t55 = 0.1e1 / params_a_csk_a
t56 = (-t54) ** (-t55)
t58 = math.log(DBL_EPSILON)
t59 = (-t58) ** (-t55)
t60 = -t59 < t52
t61 = lax_cond(t60, -t59, t52)
t63 = lax_cond(-t56 < t61, t61, -t56)
t64 = abs(t63)
t65 = t64 ** params_a_csk_a
t67 = math.exp(-0.1e1 / t65)
t69 = (0.1e1 - t67) ** t55
t70 = lax_cond(t60, 1, t69)
t71 = lax_cond(t52 < -t56, 0, t70)
t77 = lax_cond(r0 / 0.2e1 <= p_a_dens_threshold, 0, 0.3e1 / 0.20e2 * t4 * t5 * math.pi * t21 * t23 * (t52 * t71 + t39 + 0.1e1))
res = 0.2e1 * t77
"

/- gen_repo/impl/prebuilt/pol/mgga_k_gea2.py and gen_repo/impl/prebuilt/unpol/mgga_k_gea2.py -/
formula mgga_k_gea2 pol "t2 = 3 ** (0.1e1 / 0.3e1)
t3 = t2 ** 2
t4 = math.pi ** (0.1e1 / 0.3e1)
t6 = t3 * t4 * math.pi
t7 = r0 + r1
t8 = 0.1e1 / t7
t11 = 0.2e1 * r0 * t8 <= p_a_zeta_threshold
t12 = p_a_zeta_threshold - 0.1e1
t15 = 0.2e1 * r1 * t8 <= p_a_zeta_threshold
t16 = -t12
t18 = (r0 - r1) * t8
t19 = lax_cond(t15, t16, t18)
t20 = lax_cond(t11, t12, t19)
t21 = 0.1e1 + t20
t23 = p_a_zeta_threshold ** (0.1e1 / 0.3e1)
t24 = t23 ** 2
t25 = t24 * p_a_zeta_threshold
t26 = t21 ** (0.1e1 / 0.3e1)
t27 = t26 ** 2
t29 = lax_cond(t21 <= p_a_zeta_threshold, t25, t27 * t21)
t30 = t7 ** (0.1e1 / 0.3e1)
t31 = t30 ** 2
t33 = 6 ** (0.1e1 / 0.3e1)
t34 = math.pi ** 2
t35 = t34 ** (0.1e1 / 0.3e1)
t36 = t35 ** 2
t38 = t33 / t36
t39 = r0 ** 2
t40 = r0 ** (0.1e1 / 0.3e1)
t41 = t40 ** 2
t56 = lax_cond(r0 <= p_a_dens_threshold, 0, 0.3e1 / 0.20e2 * t6 * t29 * t31 * (0.1e1 + 0.5e1 / 0.648e3 * t38 * s0 / t41 / t39 + 0.5e1 / 0.54e2 * t38 * l0 / t41 / r0))
t58 = lax_cond(t11, t16, -t18)
t59 = lax_cond(t15, t12, t58)
t60 = 0.1e1 + t59
t62 = t60 ** (0.1e1 / 0.3e1)
t63 = t62 ** 2
t65 = lax_cond(t60 <= p_a_zeta_threshold, t25, t63 * t60)
t67 = r1 ** 2
t68 = r1 ** (0.1e1 / 0.3e1)
t69 = t68 ** 2
t84 = lax_cond(r1 <= p_a_dens_threshold, 0, 0.3e1 / 0.20e2 * t6 * t65 * t31 * (0.1e1 + 0.5e1 / 0.648e3 * t38 * s2 / t69 / t67 + 0.5e1 / 0.54e2 * t38 * l1 / t69 / r1))
res = t56 + t84
" unpol "t3 = 3 ** (0.1e1 / 0.3e1)
t4 = t3 ** 2
t5 = math.pi ** (0.1e1 / 0.3e1)
t8 = 0.1e1 <= p_a_zeta_threshold
t9 = p_a_zeta_threshold - 0.1e1
t11 = lax_cond(t8, -t9, 0)
t12 = lax_cond(t8, t9, t11)
t13 = 0.1e1 + t12
t15 = p_a_zeta_threshold ** (0.1e1 / 0.3e1)
t16 = t15 ** 2
t18 = t13 ** (0.1e1 / 0.3e1)
t19 = t18 ** 2
t21 = lax_cond(t13 <= p_a_zeta_threshold, t16 * p_a_zeta_threshold, t19 * t13)
t22 = r0 ** (0.1e1 / 0.3e1)
t23 = t22 ** 2
t25 = 6 ** (0.1e1 / 0.3e1)
t26 = math.pi ** 2
t27 = t26 ** (0.1e1 / 0.3e1)
t28 = t27 ** 2
t30 = t25 / t28
t31 = 2 ** (0.1e1 / 0.3e1)
t32 = t31 ** 2
t34 = r0 ** 2
t50 = lax_cond(r0 / 0.2e1 <= p_a_dens_threshold, 0, 0.3e1 / 0.20e2 * t4 * t5 * math.pi * t21 * t23 * (0.1e1 + 0.5e1 / 0.648e3 * t30 * s0 * t32 / t23 / t34 + 0.5e1 / 0.54e2 * t30 * l0 * t32 / t23 / r0))
res = 0.2e1 * t50
"

/- gen_repo/impl/prebuilt/pol/mgga_k_gea4.py and gen_repo/impl/prebuilt/unpol/mgga_k_gea4.py -/
formula mgga_k_gea4 pol "t2 = 3 ** (0.1e1 / 0.3e1)
t3 = t2 ** 2
t4 = math.pi ** (0.1e1 / 0.3e1)
t6 = t3 * t4 * math.pi
t7 = r0 + r1
t8 = 0.1e1 / t7
t11 = 0.2e1 * r0 * t8 <= p_a_zeta_threshold
t12 = p_a_zeta_threshold - 0.1e1
t15 = 0.2e1 * r1 * t8 <= p_a_zeta_threshold
t16 = -t12
t18 = (r0 - r1) * t8
t19 = lax_cond(t15, t16, t18)
t20 = lax_cond(t11, t12, t19)
t21 = 0.1e1 + t20
t23 = p_a_zeta_threshold ** (0.1e1 / 0.3e1)
t24 = t23 ** 2
t25 = t24 * p_a_zeta_threshold
t26 = t21 ** (0.1e1 / 0.3e1)
t27 = t26 ** 2
t29 = lax_cond(t21 <= p_a_zeta_threshold, t25, t27 * t21)
t30 = t7 ** (0.1e1 / 0.3e1)
t31 = t30 ** 2
t33 = 6 ** (0.1e1 / 0.3e1)
t34 = math.pi ** 2
t35 = t34 ** (0.1e1 / 0.3e1)
t36 = t35 ** 2
t38 = t33 / t36
t39 = r0 ** 2
t40 = r0 ** (0.1e1 / 0.3e1)
t41 = t40 ** 2
t52 = t33 ** 2
t55 = t52 / t35 / t34
t56 = l0 ** 2
t63 = t39 ** 2
t70 = s0 ** 2
t81 = lax_cond(r0 <= p_a_dens_threshold, 0, 0.3e1 / 0.20e2 * t6 * t29 * t31 * (0.1e1 + 0.5e1 / 0.648e3 * t38 * s0 / t41 / t39 + 0.5e1 / 0.54e2 * t38 * l0 / t41 / r0 + t55 * t56 / t40 / t39 / r0 / 0.5832e4 - t55 * s0 / t40 / t63 * l0 / 0.5184e4 + t55 * t70 / t40 / t63 / r0 / 0.17496e5))
t83 = lax_cond(t11, t16, -t18)
t84 = lax_cond(t15, t12, t83)
t85 = 0.1e1 + t84
t87 = t85 ** (0.1e1 / 0.3e1)
t88 = t87 ** 2
t90 = lax_cond(t85 <= p_a_zeta_threshold, t25, t88 * t85)
t92 = r1 ** 2
t93 = r1 ** (0.1e1 / 0.3e1)
t94 = t93 ** 2
t105 = l1 ** 2
t112 = t92 ** 2
t119 = s2 ** 2
t130 = lax_cond(r1 <= p_a_dens_threshold, 0, 0.3e1 / 0.20e2 * t6 * t90 * t31 * (0.1e1 + 0.5e1 / 0.648e3 * t38 * s2 / t94 / t92 + 0.5e1 / 0.54e2 * t38 * l1 / t94 / r1 + t55 * t105 / t93 / t92 / r1 / 0.5832e4 - t55 * s2 / t93 / t112 * l1 / 0.5184e4 + t55 * t119 / t93 / t112 / r1 / 0.17496e5))
res = t81 + t130
" unpol "t3 = 3 ** (0.1e1 / 0.3e1)
t4 = t3 ** 2
t5 = math.pi ** (0.1e1 / 0.3e1)
t8 = 0.1e1 <= p_a_zeta_threshold
t9 = p_a_zeta_threshold - 0.1e1
t11 = lax_cond(t8, -t9, 0)
t12 = lax_cond(t8, t9, t11)
t13 = 0.1e1 + t12
t15 = p_a_zeta_threshold ** (0.1e1 / 0.3e1)
t16 = t15 ** 2
t18 = t13 ** (0.1e1 / 0.3e1)
t19 = t18 ** 2
t21 = lax_cond(t13 <= p_a_zeta_threshold, t16 * p_a_zeta_threshold, t19 * t13)
t22 = r0 ** (0.1e1 / 0.3e1)
t23 = t22 ** 2
t25 = 6 ** (0.1e1 / 0.3e1)
t26 = math.pi ** 2
t27 = t26 ** (0.1e1 / 0.3e1)
t28 = t27 ** 2
t30 = t25 / t28
t31 = 2 ** (0.1e1 / 0.3e1)
t32 = t31 ** 2
t34 = r0 ** 2
t46 = t25 ** 2
t49 = t46 / t27 / t26
t50 = l0 ** 2
t59 = t34 ** 2
t66 = s0 ** 2
t78 = lax_cond(r0 / 0.2e1 <= p_a_dens_threshold, 0, 0.3e1 / 0.20e2 * t4 * t5 * math.pi * t21 * t23 * (0.1e1 + 0.5e1 / 0.648e3 * t30 * s0 * t32 / t23 / t34 + 0.5e1 / 0.54e2 * t30 * l0 * t32 / t23 / r0 + t49 * t50 * t31 / t22 / t34 / r0 / 0.2916e4 - t49 * s0 * t31 / t22 / t59 * l0 / 0.2592e4 + t49 * t66 * t31 / t22 / t59 / r0 / 0.8748e4))
res = 0.2e1 * t78
"

/- gen_repo/impl/prebuilt/pol/mgga_k_lk.py and gen_repo/impl/prebuilt/unpol/mgga_k_lk.py -/
formula mgga_k_lk pol "t2 = 3 ** (0.1e1 / 0.3e1)
t3 = t2 ** 2
t4 = math.pi ** (0.1e1 / 0.3e1)
t6 = t3 * t4 * math.pi
t7 = r0 + r1
t8 = 0.1e1 / t7
t11 = 0.2e1 * r0 * t8 <= p_a_zeta_threshold
t12 = p_a_zeta_threshold - 0.1e1
t15 = 0.2e1 * r1 * t8 <= p_a_zeta_threshold
t16 = -t12
t18 = (r0 - r1) * t8
t19 = lax_cond(t15, t16, t18)
t20 = lax_cond(t11, t12, t19)
t21 = 0.1e1 + t20
t23 = p_a_zeta_threshold ** (0.1e1 / 0.3e1)
t24 = t23 ** 2
t25 = t24 * p_a_zeta_threshold
t26 = t21 ** (0.1e1 / 0.3e1)
t27 = t26 ** 2
t29 = lax_cond(t21 <= p_a_zeta_threshold, t25, t27 * t21)
t30 = t7 ** (0.1e1 / 0.3e1)
t31 = t30 ** 2
t33 = 6 ** (0.1e1 / 0.3e1)
t34 = math.pi ** 2
t35 = t34 ** (0.1e1 / 0.3e1)
t36 = t35 ** 2
t38 = t33 / t36
t39 = r0 ** 2
t40 = r0 ** (0.1e1 / 0.3e1)
t41 = t40 ** 2
t43 = 0.1e1 / t41 / t39
t47 = t33 ** 2
t50 = t47 / t35 / t34
t51 = l0 ** 2
t57 = t50 * t51 / t40 / t39 / r0 / 0.5832e4
t58 = t39 ** 2
t64 = t50 * s0 / t40 / t58 * l0 / 0.5184e4
t65 = s0 ** 2
t69 = t65 / t40 / t58 / r0
t71 = t50 * t69 / 0.17496e5
t72 = 0.1e1 / params_a_kappa
t86 = t34 ** 2
t87 = 0.1e1 / t86
t90 = t58 ** 2
t92 = params_a_kappa ** 2
t93 = 0.1e1 / t92
t107 = lax_cond(r0 <= p_a_dens_threshold, 0, 0.3e1 / 0.20e2 * t6 * t29 * t31 * (0.1e1 + params_a_kappa * (0.2e1 - 0.1e1 / (0.1e1 + (0.5e1 / 0.648e3 * t38 * s0 * t43 + t57 - t64 + t71 + 0.25e2 / 0.419904e6 * t50 * t69 * t72) * t72) - 0.1e1 / (0.1e1 + (0.5e1 / 0.324e3 * t38 * s0 * t43 * (t57 - t64 + t71) * t72 + 0.125e3 / 0.45349632e8 * t87 * t65 * s0 / t90 * t93) * t72))))
t109 = lax_cond(t11, t16, -t18)
t110 = lax_cond(t15, t12, t109)
t111 = 0.1e1 + t110
t113 = t111 ** (0.1e1 / 0.3e1)
t114 = t113 ** 2
t116 = lax_cond(t111 <= p_a_zeta_threshold, t25, t114 * t111)
t118 = r1 ** 2
t119 = r1 ** (0.1e1 / 0.3e1)
t120 = t119 ** 2
t122 = 0.1e1 / t120 / t118
t126 = l1 ** 2
t132 = t50 * t126 / t119 / t118 / r1 / 0.5832e4
t133 = t118 ** 2
t139 = t50 * s2 / t119 / t133 * l1 / 0.5184e4
t140 = s2 ** 2
t144 = t140 / t119 / t133 / r1
t146 = t50 * t144 / 0.17496e5
t162 = t133 ** 2
t177 = lax_cond(r1 <= p_a_dens_threshold, 0, 0.3e1 / 0.20e2 * t6 * t116 * t31 * (0.1e1 + params_a_kappa * (0.2e1 - 0.1e1 / (0.1e1 + (0.5e1 / 0.648e3 * t38 * s2 * t122 + t132 - t139 + t146 + 0.25e2 / 0.419904e6 * t50 * t144 * t72) * t72) - 0.1e1 / (0.1e1 + (0.5e1 / 0.324e3 * t38 * s2 * t122 * (t132 - t139 + t146) * t72 + 0.125e3 / 0.45349632e8 * t87 * t140 * s2 / t162 * t93) * t72))))
res = t107 + t177
" unpol "t3 = 3 ** (0.1e1 / 0.3e1)
t4 = t3 ** 2
t5 = math.pi ** (0.1e1 / 0.3e1)
t8 = 0.1e1 <= p_a_zeta_threshold
t9 = p_a_zeta_threshold - 0.1e1
t11 = lax_cond(t8, -t9, 0)
t12 = lax_cond(t8, t9, t11)
t13 = 0.1e1 + t12
t15 = p_a_zeta_threshold ** (0.1e1 / 0.3e1)
t16 = t15 ** 2
t18 = t13 ** (0.1e1 / 0.3e1)
t19 = t18 ** 2
t21 = lax_cond(t13 <= p_a_zeta_threshold, t16 * p_a_zeta_threshold, t19 * t13)
t22 = r0 ** (0.1e1 / 0.3e1)
t23 = t22 ** 2
t25 = 6 ** (0.1e1 / 0.3e1)
t26 = math.pi ** 2
t27 = t26 ** (0.1e1 / 0.3e1)
t28 = t27 ** 2
t30 = t25 / t28
t31 = 2 ** (0.1e1 / 0.3e1)
t32 = t31 ** 2
t34 = r0 ** 2
t36 = 0.1e1 / t23 / t34
t40 = t25 ** 2
t43 = t40 / t27 / t26
t44 = l0 ** 2
t51 = t43 * t44 * t31 / t22 / t34 / r0 / 0.2916e4
t53 = t34 ** 2
t59 = t43 * s0 * t31 / t22 / t53 * l0 / 0.2592e4
t60 = s0 ** 2
t64 = 0.1e1 / t22 / t53 / r0
t67 = t43 * t60 * t31 * t64 / 0.8748e4
t70 = 0.1e1 / params_a_kappa
t85 = t26 ** 2
t89 = t53 ** 2
t91 = params_a_kappa ** 2
t106 = lax_cond(r0 / 0.2e1 <= p_a_dens_threshold, 0, 0.3e1 / 0.20e2 * t4 * t5 * math.pi * t21 * t23 * (0.1e1 + params_a_kappa * (0.2e1 - 0.1e1 / (0.1e1 + (0.5e1 / 0.648e3 * t30 * s0 * t32 * t36 + t51 - t59 + t67 + 0.25e2 / 0.209952e6 * t43 * t60 * t31 * t64 * t70) * t70) - 0.1e1 / (0.1e1 + (0.5e1 / 0.324e3 * t30 * s0 * t32 * t36 * (t51 - t59 + t67) * t70 + 0.125e3 / 0.11337408e8 / t85 * t60 * s0 / t89 / t91) * t70))))
res = 0.2e1 * t106
"

/- gen_repo/impl/prebuilt/pol/mgga_k_pc07.py and gen_repo/impl/prebuilt/unpol/mgga_k_pc07.py -/
formula mgga_k_pc07 pol "t2 = 3 ** (0.1e1 / 0.3e1)
t3 = t2 ** 2
t4 = math.pi ** (0.1e1 / 0.3e1)
t6 = t3 * t4 * math.pi
t7 = r0 + r1
t8 = 0.1e1 / t7
t11 = 0.2e1 * r0 * t8 <= p_a_zeta_threshold
t12 = p_a_zeta_threshold - 0.1e1
t15 = 0.2e1 * r1 * t8 <= p_a_zeta_threshold
t16 = -t12
t18 = (r0 - r1) * t8
t19 = lax_cond(t15, t16, t18)
t20 = lax_cond(t11, t12, t19)
t21 = 0.1e1 + t20
t23 = p_a_zeta_threshold ** (0.1e1 / 0.3e1)
t24 = t23 ** 2
t25 = t24 * p_a_zeta_threshold
t26 = t21 ** (0.1e1 / 0.3e1)
t27 = t26 ** 2
t29 = lax_cond(t21 <= p_a_zeta_threshold, t25, t27 * t21)
t30 = t7 ** (0.1e1 / 0.3e1)
t31 = t30 ** 2
t33 = 6 ** (0.1e1 / 0.3e1)
t34 = math.pi ** 2
t35 = t34 ** (0.1e1 / 0.3e1)
t36 = t35 ** 2
t38 = t33 / t36
t39 = r0 ** 2
t40 = r0 ** (0.1e1 / 0.3e1)
t41 = t40 ** 2
t45 = t38 * s0 / t41 / t39
t46 = 0.5e1 / 0.72e2 * t45
t53 = t33 ** 2
t56 = t53 / t35 / t34
t57 = l0 ** 2
t63 = t56 * t57 / t40 / t39 / r0 / 0.5832e4
t64 = t39 ** 2
t70 = t56 * s0 / t40 / t64 * l0 / 0.5184e4
t71 = s0 ** 2
t77 = t56 * t71 / t40 / t64 / r0 / 0.17496e5
t80 = (t63 - t70 + t77) ** 2
t82 = (0.1e1 + t46) ** 2
t86 = math.sqrt(0.1e1 + t80 / t82)
t89 = (0.1e1 + 0.5e1 / 0.648e3 * t45 + 0.5e1 / 0.54e2 * t38 * l0 / t41 / r0 + t63 - t70 + t77) / t86 - t46
t90 = params_a_a / 0.40e2
t92 = 0.39e2 / 0.40e2 * params_a_a
t94 = params_a_a * params_a_b
t96 = lax_cond(t89 < t90, t90, t89)
t98 = lax_cond(t96 < t92, t96, t92)
t99 = 0.1e1 / t98
t101 = math.exp(-t94 * t99)
t105 = math.exp(-params_a_a / (params_a_a - t98))
t107 = (0.1e1 + t105) ** params_a_b
t110 = math.exp(-params_a_a * t99)
t112 = (t110 + t105) ** params_a_b
t115 = lax_cond(t92 <= t89, 1, t101 * t107 / t112)
t116 = lax_cond(t89 <= t90, 0, t115)
t122 = lax_cond(r0 <= p_a_dens_threshold, 0, 0.3e1 / 0.20e2 * t6 * t29 * t31 * (t89 * t116 + t46))
t124 = lax_cond(t11, t16, -t18)
t125 = lax_cond(t15, t12, t124)
t126 = 0.1e1 + t125
t128 = t126 ** (0.1e1 / 0.3e1)
t129 = t128 ** 2
t131 = lax_cond(t126 <= p_a_zeta_threshold, t25, t129 * t126)
t133 = r1 ** 2
t134 = r1 ** (0.1e1 / 0.3e1)
t135 = t134 ** 2
t139 = t38 * s2 / t135 / t133
t140 = 0.5e1 / 0.72e2 * t139
t147 = l1 ** 2
t153 = t56 * t147 / t134 / t133 / r1 / 0.5832e4
t154 = t133 ** 2
t160 = t56 * s2 / t134 / t154 * l1 / 0.5184e4
t161 = s2 ** 2
t167 = t56 * t161 / t134 / t154 / r1 / 0.17496e5
t170 = (t153 - t160 + t167) ** 2
t172 = (0.1e1 + t140) ** 2
t176 = math.sqrt(0.1e1 + t170 / t172)
t179 = (0.1e1 + 0.5e1 / 0.648e3 * t139 + 0.5e1 / 0.54e2 * t38 * l1 / t135 / r1 + t153 - t160 + t167) / t176 - t140
t183 = lax_cond(t179 < t90, t90, t179)
t185 = lax_cond(t183 < t92, t183, t92)
t186 = 0.1e1 / t185
t188 = math.exp(-t94 * t186)
t192 = math.exp(-params_a_a / (params_a_a - t185))
t194 = (0.1e1 + t192) ** params_a_b
t197 = math.exp(-params_a_a * t186)
t199 = (t197 + t192) ** params_a_b
t202 = lax_cond(t92 <= t179, 1, t188 * t194 / t199)
t203 = lax_cond(t179 <= t90, 0, t202)
t209 = lax_cond(r1 <= p_a_dens_threshold, 0, 0.3e1 / 0.20e2 * t6 * t131 * t31 * (t179 * t203 + t140))
res = t122 + t209
" unpol "t3 = 3 ** (0.1e1 / 0.3e1)
t4 = t3 ** 2
t5 = math.pi ** (0.1e1 / 0.3e1)
t8 = 0.1e1 <= p_a_zeta_threshold
t9 = p_a_zeta_threshold - 0.1e1
t11 = lax_cond(t8, -t9, 0)
t12 = lax_cond(t8, t9, t11)
t13 = 0.1e1 + t12
t15 = p_a_zeta_threshold ** (0.1e1 / 0.3e1)
t16 = t15 ** 2
t18 = t13 ** (0.1e1 / 0.3e1)
t19 = t18 ** 2
t21 = lax_cond(t13 <= p_a_zeta_threshold, t16 * p_a_zeta_threshold, t19 * t13)
t22 = r0 ** (0.1e1 / 0.3e1)
t23 = t22 ** 2
t25 = 6 ** (0.1e1 / 0.3e1)
t26 = math.pi ** 2
t27 = t26 ** (0.1e1 / 0.3e1)
t28 = t27 ** 2
t30 = t25 / t28
t31 = 2 ** (0.1e1 / 0.3e1)
t32 = t31 ** 2
t34 = r0 ** 2
t38 = t30 * s0 * t32 / t23 / t34
t39 = 0.5e1 / 0.72e2 * t38
t47 = t25 ** 2
t50 = t47 / t27 / t26
t51 = l0 ** 2
t58 = t50 * t51 * t31 / t22 / t34 / r0 / 0.2916e4
t60 = t34 ** 2
t66 = t50 * s0 * t31 / t22 / t60 * l0 / 0.2592e4
t67 = s0 ** 2
t74 = t50 * t67 * t31 / t22 / t60 / r0 / 0.8748e4
t77 = (t58 - t66 + t74) ** 2
t79 = (0.1e1 + t39) ** 2
t83 = math.sqrt(0.1e1 + t77 / t79)
t86 = (0.1e1 + 0.5e1 / 0.648e3 * t38 + 0.5e1 / 0.54e2 * t30 * l0 * t32 / t23 / r0 + t58 - t66 + t74) / t83 - t39
t87 = params_a_a / 0.40e2
t89 = 0.39e2 / 0.40e2 * params_a_a
t93 = lax_cond(t86 < t87, t87, t86)
t95 = lax_cond(t93 < t89, t93, t89)
t96 = 0.1e1 / t95
t98 = math.exp(-params_a_a * params_a_b * t96)
t102 = math.exp(-params_a_a / (params_a_a - t95))
t104 = (0.1e1 + t102) ** params_a_b
t107 = math.exp(-params_a_a * t96)
t109 = (t107 + t102) ** params_a_b
t112 = lax_cond(t89 <= t86, 1, t98 * t104 / t109)
t113 = lax_cond(t86 <= t87, 0, t112)
t119 = lax_cond(r0 / 0.2e1 <= p_a_dens_threshold, 0, 0.3e1 / 0.20e2 * t4 * t5 * math.pi * t21 * t23 * (t86 * t113 + t39))
res = 0.2e1 * t119
"

end Verif.Data
