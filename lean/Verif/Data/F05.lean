import Verif.Py.Elab

/-!
# Shipped formulas, verbatim from `gen_repo/impl/prebuilt/{pol,unpol}/NAME.py`
-/
namespace Verif.Data

/- gen_repo/impl/prebuilt/pol/gga_x_hjs_b88_v2.py and gen_repo/impl/prebuilt/unpol/gga_x_hjs_b88_v2.py -/
formula gga_x_hjs_b88_v2 pol "t2 = 3 ** (0.1e1 / 0.3e1)
t3 = math.pi ** (0.1e1 / 0.3e1)
t5 = t2 / t3
t6 = r0 + r1
t7 = 0.1e1 / t6
t10 = 0.2e1 * r0 * t7 <= p_a_zeta_threshold
t11 = p_a_zeta_threshold - 0.1e1
t14 = 0.2e1 * r1 * t7 <= p_a_zeta_threshold
t15 = -t11
t17 = (r0 - r1) * t7
t18 = lax_cond(t14, t15, t17)
t19 = lax_cond(t10, t11, t18)
t20 = 0.1e1 + t19
t22 = p_a_zeta_threshold ** (0.1e1 / 0.3e1)
t23 = t22 * p_a_zeta_threshold
t24 = t20 ** (0.1e1 / 0.3e1)
t26 = lax_cond(t20 <= p_a_zeta_threshold, t23, t24 * t20)
t27 = t6 ** (0.1e1 / 0.3e1)
t29 = t2 ** 2
t30 = p_a_cam_omega * t29
t31 = math.pi ** 2
t32 = t31 ** (0.1e1 / 0.3e1)
t33 = 0.1e1 / t32
t34 = t30 * t33
t36 = 0.1e1 + t17 <= p_a_zeta_threshold
t38 = 0.1e1 - t17 <= p_a_zeta_threshold
t39 = lax_cond(t38, t15, t17)
t40 = lax_cond(t36, t11, t39)
t41 = 0.1e1 + t40
t43 = t41 ** (0.1e1 / 0.3e1)
t44 = lax_cond(t41 <= p_a_zeta_threshold, t22, t43)
t45 = 0.1e1 / t44
t46 = 0.1e1 / t27
t47 = t45 * t46
t48 = 6 ** (0.1e1 / 0.3e1)
t49 = t48 ** 2
t50 = t49 * t33
t51 = math.sqrt(s0)
t52 = r0 ** (0.1e1 / 0.3e1)
t58 = math.exp(-t50 * t51 / t52 / r0 / 0.12e2)
t59 = math.exp(20)
t61 = 0.1e1 / (t59 - 0.1e1)
t64 = 0.1e1 / (0.1e1 + t61)
t66 = math.log((t58 + t61) * t64)
t67 = t66 ** 2
t68 = params_a_a[0]
t70 = params_a_a[1]
t71 = t67 * t66
t73 = params_a_a[2]
t74 = t67 ** 2
t76 = params_a_a[3]
t77 = t74 * t66
t79 = params_a_a[4]
t80 = t74 * t67
t82 = params_a_a[5]
t83 = t74 * t71
t87 = params_a_b[0]
t89 = params_a_b[1]
t91 = params_a_b[2]
t93 = params_a_b[3]
t95 = params_a_b[4]
t97 = params_a_b[5]
t99 = params_a_b[6]
t101 = params_a_b[7]
t102 = t74 ** 2
t104 = params_a_b[8]
t109 = t67 * (t68 * t67 - t70 * t71 + t73 * t74 - t76 * t77 + t79 * t80 - t82 * t83) / (-t104 * t102 * t66 + t101 * t102 - t87 * t66 + t89 * t67 - t91 * t71 + t93 * t74 - t95 * t77 + t97 * t80 - t99 * t83 + 0.1e1)
t111 = lax_cond(0.1e-9 < t109, t109, 0.1e-9)
t112 = p_a_cam_omega ** 2
t113 = t112 * t2
t114 = t32 ** 2
t115 = 0.1e1 / t114
t116 = t44 ** 2
t119 = t27 ** 2
t120 = 0.1e1 / t119
t122 = t113 * t115 / t116 * t120
t124 = 0.609650e0 + t111 + t122 / 0.3e1
t125 = math.sqrt(t124)
t128 = t34 * t47 / t125
t131 = 0.609650e0 + t111
t141 = 0.1e1 + 0.31215633538451261314e0 * t67 / (0.1e1 + t67 / 0.4e1) + 0.42141105276909202774e1 * t111
t144 = t112 * p_a_cam_omega / t31
t151 = t144 / t116 / t44 * t7 / t125 / t124
t155 = t131 ** 2
t162 = t155 * t131
t164 = math.sqrt(t131)
t166 = math.sqrt(math.pi)
t167 = 0.4e1 / 0.5e1 * t166
t168 = math.sqrt(t111)
t173 = lax_cond(0.0e0 < 0.7572109999e0 + t111, 0.757211e0 + t111, 0.1e-9)
t174 = math.sqrt(t173)
t181 = t112 ** 2
t186 = t181 * p_a_cam_omega * t2 / t114 / t31
t187 = t116 ** 2
t191 = 0.1e1 / t119 / t6
t193 = t124 ** 2
t205 = 0.3e1 * t122
t207 = math.sqrt(0.9e1 * t111 + t205)
t210 = math.sqrt(0.9e1 * t173 + t205)
t218 = t30 * t33 * t45 * t46
t223 = 0.1e1 / (t218 / 0.3e1 + t125)
t225 = math.log((t218 / 0.3e1 + t207 / 0.3e1) * t223)
t231 = math.log((t218 / 0.3e1 + t210 / 0.3e1) * t223)
t238 = lax_cond(r0 <= p_a_dens_threshold, 0, -0.3e1 / 0.8e1 * t5 * t26 * t27 * (0.757211e0 + 0.47272888888888888889e-1 * (0.1e1 - t128 / 0.3e1) / t131 + 0.26366444444444444444e-1 * t141 * (0.2e1 - t128 + t151 / 0.3e1) / t155 - (0.47459600000000000000e-1 * t141 * t131 + 0.28363733333333333333e-1 * t155 - 0.90865320000000000000e0 * t162 - t164 * t162 * (t167 + 0.12e2 / 0.5e1 * t168 - 0.12e2 / 0.5e1 * t174)) * (0.8e1 - 0.5e1 * t128 + 0.10e2 / 0.3e1 * t151 - t186 / t187 / t44 * t191 / t125 / t193 / 0.3e1) / t162 / 0.9e1 + 0.2e1 / 0.3e1 * t34 * t47 * (t207 / 0.3e1 - t210 / 0.3e1) + 0.2e1 * t111 * t225 - 0.2e1 * t173 * t231))
t240 = lax_cond(t10, t15, -t17)
t241 = lax_cond(t14, t11, t240)
t242 = 0.1e1 + t241
t244 = t242 ** (0.1e1 / 0.3e1)
t246 = lax_cond(t242 <= p_a_zeta_threshold, t23, t244 * t242)
t248 = lax_cond(t36, t15, -t17)
t249 = lax_cond(t38, t11, t248)
t250 = 0.1e1 + t249
t252 = t250 ** (0.1e1 / 0.3e1)
t253 = lax_cond(t250 <= p_a_zeta_threshold, t22, t252)
t254 = 0.1e1 / t253
t255 = t254 * t46
t256 = math.sqrt(s2)
t257 = r1 ** (0.1e1 / 0.3e1)
t263 = math.exp(-t50 * t256 / t257 / r1 / 0.12e2)
t266 = math.log((t263 + t61) * t64)
t267 = t266 ** 2
t269 = t267 * t266
t271 = t267 ** 2
t273 = t271 * t266
t275 = t271 * t267
t277 = t271 * t269
t288 = t271 ** 2
t294 = t267 * (t68 * t267 - t70 * t269 + t73 * t271 - t76 * t273 + t79 * t275 - t82 * t277) / (-t104 * t288 * t266 + t101 * t288 - t87 * t266 + t89 * t267 - t91 * t269 + t93 * t271 - t95 * t273 + t97 * t275 - t99 * t277 + 0.1e1)
t296 = lax_cond(0.1e-9 < t294, t294, 0.1e-9)
t297 = t253 ** 2
t301 = t113 * t115 / t297 * t120
t303 = 0.609650e0 + t296 + t301 / 0.3e1
t304 = math.sqrt(t303)
t307 = t34 * t255 / t304
t310 = 0.609650e0 + t296
t320 = 0.1e1 + 0.31215633538451261314e0 * t267 / (0.1e1 + t267 / 0.4e1) + 0.42141105276909202774e1 * t296
t327 = t144 / t297 / t253 * t7 / t304 / t303
t331 = t310 ** 2
t338 = t331 * t310
t340 = math.sqrt(t310)
t342 = math.sqrt(t296)
t347 = lax_cond(0.0e0 < 0.7572109999e0 + t296, 0.757211e0 + t296, 0.1e-9)
t348 = math.sqrt(t347)
t355 = t297 ** 2
t359 = t303 ** 2
t371 = 0.3e1 * t301
t373 = math.sqrt(0.9e1 * t296 + t371)
t376 = math.sqrt(0.9e1 * t347 + t371)
t384 = t30 * t33 * t254 * t46
t389 = 0.1e1 / (t384 / 0.3e1 + t304)
t391 = math.log((t384 / 0.3e1 + t373 / 0.3e1) * t389)
t397 = math.log((t384 / 0.3e1 + t376 / 0.3e1) * t389)
t404 = lax_cond(r1 <= p_a_dens_threshold, 0, -0.3e1 / 0.8e1 * t5 * t246 * t27 * (0.757211e0 + 0.47272888888888888889e-1 * (0.1e1 - t307 / 0.3e1) / t310 + 0.26366444444444444444e-1 * t320 * (0.2e1 - t307 + t327 / 0.3e1) / t331 - (0.47459600000000000000e-1 * t320 * t310 + 0.28363733333333333333e-1 * t331 - 0.90865320000000000000e0 * t338 - t340 * t338 * (t167 + 0.12e2 / 0.5e1 * t342 - 0.12e2 / 0.5e1 * t348)) * (0.8e1 - 0.5e1 * t307 + 0.10e2 / 0.3e1 * t327 - t186 / t355 / t253 * t191 / t304 / t359 / 0.3e1) / t338 / 0.9e1 + 0.2e1 / 0.3e1 * t34 * t255 * (t373 / 0.3e1 - t376 / 0.3e1) + 0.2e1 * t296 * t391 - 0.2e1 * t347 * t397))
res = t238 + t404
" unpol "t3 = 3 ** (0.1e1 / 0.3e1)
t4 = math.pi ** (0.1e1 / 0.3e1)
t7 = 0.1e1 <= p_a_zeta_threshold
t8 = p_a_zeta_threshold - 0.1e1
t10 = lax_cond(t7, -t8, 0)
t11 = lax_cond(t7, t8, t10)
t12 = 0.1e1 + t11
t13 = t12 <= p_a_zeta_threshold
t14 = p_a_zeta_threshold ** (0.1e1 / 0.3e1)
t16 = t12 ** (0.1e1 / 0.3e1)
t18 = lax_cond(t13, t14 * p_a_zeta_threshold, t16 * t12)
t19 = r0 ** (0.1e1 / 0.3e1)
t21 = t3 ** 2
t22 = p_a_cam_omega * t21
t23 = math.pi ** 2
t24 = t23 ** (0.1e1 / 0.3e1)
t25 = 0.1e1 / t24
t26 = t22 * t25
t27 = lax_cond(t13, t14, t16)
t28 = 0.1e1 / t27
t29 = 0.1e1 / t19
t30 = t28 * t29
t31 = 6 ** (0.1e1 / 0.3e1)
t32 = t31 ** 2
t34 = math.sqrt(s0)
t35 = 2 ** (0.1e1 / 0.3e1)
t42 = math.exp(-t32 * t25 * t34 * t35 / t19 / r0 / 0.12e2)
t43 = math.exp(20)
t45 = 0.1e1 / (t43 - 0.1e1)
t50 = math.log((t42 + t45) / (0.1e1 + t45))
t51 = t50 ** 2
t55 = t51 * t50
t58 = t51 ** 2
t61 = t58 * t50
t64 = t58 * t51
t67 = t58 * t55
t86 = t58 ** 2
t93 = t51 * (params_a_a[0] * t51 - params_a_a[1] * t55 + params_a_a[2] * t58 - params_a_a[3] * t61 + params_a_a[4] * t64 - params_a_a[5] * t67) / (-params_a_b[8] * t86 * t50 - params_a_b[0] * t50 + params_a_b[1] * t51 - params_a_b[2] * t55 + params_a_b[3] * t58 - params_a_b[4] * t61 + params_a_b[5] * t64 - params_a_b[6] * t67 + params_a_b[7] * t86 + 0.1e1)
t95 = lax_cond(0.1e-9 < t93, t93, 0.1e-9)
t96 = p_a_cam_omega ** 2
t98 = t24 ** 2
t100 = t27 ** 2
t103 = t19 ** 2
t106 = t96 * t3 / t98 / t100 / t103
t108 = 0.609650e0 + t95 + t106 / 0.3e1
t109 = math.sqrt(t108)
t112 = t26 * t30 / t109
t115 = 0.609650e0 + t95
t125 = 0.1e1 + 0.31215633538451261314e0 * t51 / (0.1e1 + t51 / 0.4e1) + 0.42141105276909202774e1 * t95
t136 = t96 * p_a_cam_omega / t23 / t100 / t27 / r0 / t109 / t108
t140 = t115 ** 2
t147 = t140 * t115
t149 = math.sqrt(t115)
t151 = math.sqrt(math.pi)
t153 = math.sqrt(t95)
t158 = lax_cond(0.0e0 < 0.7572109999e0 + t95, 0.757211e0 + t95, 0.1e-9)
t159 = math.sqrt(t158)
t166 = t96 ** 2
t172 = t100 ** 2
t178 = t108 ** 2
t190 = 0.3e1 * t106
t192 = math.sqrt(0.9e1 * t95 + t190)
t195 = math.sqrt(0.9e1 * t158 + t190)
t203 = t22 * t25 * t28 * t29
t208 = 0.1e1 / (t203 / 0.3e1 + t109)
t210 = math.log((t203 / 0.3e1 + t192 / 0.3e1) * t208)
t216 = math.log((t203 / 0.3e1 + t195 / 0.3e1) * t208)
t223 = lax_cond(r0 / 0.2e1 <= p_a_dens_threshold, 0, -0.3e1 / 0.8e1 * t3 / t4 * t18 * t19 * (0.757211e0 + 0.47272888888888888889e-1 * (0.1e1 - t112 / 0.3e1) / t115 + 0.26366444444444444444e-1 * t125 * (0.2e1 - t112 + t136 / 0.3e1) / t140 - (0.47459600000000000000e-1 * t125 * t115 + 0.28363733333333333333e-1 * t140 - 0.90865320000000000000e0 * t147 - t149 * t147 * (0.4e1 / 0.5e1 * t151 + 0.12e2 / 0.5e1 * t153 - 0.12e2 / 0.5e1 * t159)) * (0.8e1 - 0.5e1 * t112 + 0.10e2 / 0.3e1 * t136 - t166 * p_a_cam_omega * t3 / t98 / t23 / t172 / t27 / t103 / r0 / t109 / t178 / 0.3e1) / t147 / 0.9e1 + 0.2e1 / 0.3e1 * t26 * t30 * (t192 / 0.3e1 - t195 / 0.3e1) + 0.2e1 * t95 * t210 - 0.2e1 * t158 * t216))
res = 0.2e1 * t223
"

/- gen_repo/impl/prebuilt/pol/gga_x_htbs.py and gen_repo/impl/prebuilt/unpol/gga_x_htbs.py -/
formula gga_x_htbs pol "t2 = 3 ** (0.1e1 / 0.3e1)
t3 = math.pi ** (0.1e1 / 0.3e1)
t5 = t2 / t3
t6 = r0 + r1
t7 = 0.1e1 / t6
t10 = 0.2e1 * r0 * t7 <= p_a_zeta_threshold
t11 = p_a_zeta_threshold - 0.1e1
t14 = 0.2e1 * r1 * t7 <= p_a_zeta_threshold
t15 = -t11
t17 = (r0 - r1) * t7
t18 = lax_cond(t14, t15, t17)
t19 = lax_cond(t10, t11, t18)
t20 = 0.1e1 + t19
t22 = p_a_zeta_threshold ** (0.1e1 / 0.3e1)
t23 = t22 * p_a_zeta_threshold
t24 = t20 ** (0.1e1 / 0.3e1)
t26 = lax_cond(t20 <= p_a_zeta_threshold, t23, t24 * t20)
t27 = t6 ** (0.1e1 / 0.3e1)
t29 = 6 ** (0.1e1 / 0.3e1)
t30 = t29 ** 2
t31 = math.pi ** 2
t32 = t31 ** (0.1e1 / 0.3e1)
t34 = t30 / t32
t35 = math.sqrt(s0)
t36 = r0 ** (0.1e1 / 0.3e1)
t40 = t34 * t35 / t36 / r0
t41 = t40 / 0.12e2
t43 = t32 ** 2
t44 = 0.1e1 / t43
t45 = t29 * t44
t46 = r0 ** 2
t47 = t36 ** 2
t49 = 0.1e1 / t47 / t46
t50 = s0 * t49
t51 = t45 * t50
t54 = math.exp(-t51 / 0.24e2)
t60 = t30 / t32 / t31
t61 = s0 ** 2
t62 = t46 ** 2
t67 = t60 * t61 / t36 / t62 / r0
t70 = math.log(0.1e1 + 0.13780328706878157639e-4 * t67)
t74 = 0.18040e1 - 0.64641600e0 / (0.8040e0 + 0.5e1 / 0.972e3 * t51 + 0.40024242767108462450e-2 * t45 * t50 * t54 + t70)
t76 = t31 * t29
t81 = math.exp(-0.11526490914032134466e-2 * t76 * t44 * s0 * t49)
t83 = 0.18040e1 - 0.8040e0 * t81
t84 = 0.19012500000000000000e0 * t40
t85 = 0.19500000000000000000e0 * t51
t86 = 0.1e1 / t31
t91 = 0.86979166666666666668e-1 * t86 * t35 * s0 / t62
t92 = 0.26041666666666666667e-2 * t67
t95 = t29 / t43 / t31
t102 = 0.16276041666666666667e-3 * t95 * t35 * t61 / t47 / t62 / t46
t108 = lax_cond(0.26e1 < t41, t83, (-0.40608000000000000000e0 + t84 - t85 + t91 - t92 + t102) * t83 + (0.14060800000000000000e1 - t84 + t85 - t91 + t92 - t102) * t74)
t109 = lax_cond(t41 < 0.6e0, t74, t108)
t113 = lax_cond(r0 <= p_a_dens_threshold, 0, -0.3e1 / 0.8e1 * t5 * t26 * t27 * t109)
t115 = lax_cond(t10, t15, -t17)
t116 = lax_cond(t14, t11, t115)
t117 = 0.1e1 + t116
t119 = t117 ** (0.1e1 / 0.3e1)
t121 = lax_cond(t117 <= p_a_zeta_threshold, t23, t119 * t117)
t123 = math.sqrt(s2)
t124 = r1 ** (0.1e1 / 0.3e1)
t128 = t34 * t123 / t124 / r1
t129 = t128 / 0.12e2
t131 = r1 ** 2
t132 = t124 ** 2
t134 = 0.1e1 / t132 / t131
t135 = s2 * t134
t136 = t45 * t135
t139 = math.exp(-t136 / 0.24e2)
t143 = s2 ** 2
t144 = t131 ** 2
t149 = t60 * t143 / t124 / t144 / r1
t152 = math.log(0.1e1 + 0.13780328706878157639e-4 * t149)
t156 = 0.18040e1 - 0.64641600e0 / (0.8040e0 + 0.5e1 / 0.972e3 * t136 + 0.40024242767108462450e-2 * t45 * t135 * t139 + t152)
t162 = math.exp(-0.11526490914032134466e-2 * t76 * t44 * s2 * t134)
t164 = 0.18040e1 - 0.8040e0 * t162
t165 = 0.19012500000000000000e0 * t128
t166 = 0.19500000000000000000e0 * t136
t171 = 0.86979166666666666668e-1 * t86 * t123 * s2 / t144
t172 = 0.26041666666666666667e-2 * t149
t179 = 0.16276041666666666667e-3 * t95 * t123 * t143 / t132 / t144 / t131
t185 = lax_cond(0.26e1 < t129, t164, (-0.40608000000000000000e0 + t165 - t166 + t171 - t172 + t179) * t164 + (0.14060800000000000000e1 - t165 + t166 - t171 + t172 - t179) * t156)
t186 = lax_cond(t129 < 0.6e0, t156, t185)
t190 = lax_cond(r1 <= p_a_dens_threshold, 0, -0.3e1 / 0.8e1 * t5 * t121 * t27 * t186)
res = t113 + t190
" unpol "t3 = 3 ** (0.1e1 / 0.3e1)
t4 = math.pi ** (0.1e1 / 0.3e1)
t7 = 0.1e1 <= p_a_zeta_threshold
t8 = p_a_zeta_threshold - 0.1e1
t10 = lax_cond(t7, -t8, 0)
t11 = lax_cond(t7, t8, t10)
t12 = 0.1e1 + t11
t14 = p_a_zeta_threshold ** (0.1e1 / 0.3e1)
t16 = t12 ** (0.1e1 / 0.3e1)
t18 = lax_cond(t12 <= p_a_zeta_threshold, t14 * p_a_zeta_threshold, t16 * t12)
t19 = r0 ** (0.1e1 / 0.3e1)
t21 = 6 ** (0.1e1 / 0.3e1)
t22 = t21 ** 2
t23 = math.pi ** 2
t24 = t23 ** (0.1e1 / 0.3e1)
t27 = math.sqrt(s0)
t28 = 2 ** (0.1e1 / 0.3e1)
t33 = t22 / t24 * t27 * t28 / t19 / r0
t34 = t33 / 0.12e2
t36 = t24 ** 2
t37 = 0.1e1 / t36
t38 = t21 * t37
t39 = t28 ** 2
t41 = r0 ** 2
t42 = t19 ** 2
t44 = 0.1e1 / t42 / t41
t45 = s0 * t39 * t44
t46 = t38 * t45
t51 = math.exp(-t46 / 0.24e2)
t58 = s0 ** 2
t60 = t41 ** 2
t65 = t22 / t24 / t23 * t58 * t28 / t19 / t60 / r0
t68 = math.log(0.1e1 + 0.27560657413756315278e-4 * t65)
t72 = 0.18040e1 - 0.64641600e0 / (0.8040e0 + 0.5e1 / 0.972e3 * t46 + 0.40024242767108462450e-2 * t38 * s0 * t39 * t44 * t51 + t68)
t78 = math.exp(-0.11526490914032134466e-2 * t23 * t21 * t37 * t45)
t80 = 0.18040e1 - 0.8040e0 * t78
t81 = 0.19012500000000000000e0 * t33
t82 = 0.19500000000000000000e0 * t46
t88 = 0.17395833333333333334e0 / t23 * t27 * s0 / t60
t89 = 0.52083333333333333334e-2 * t65
t100 = 0.32552083333333333334e-3 * t21 / t36 / t23 * t27 * t58 * t39 / t42 / t60 / t41
t106 = lax_cond(0.26e1 < t34, t80, (-0.40608000000000000000e0 + t81 - t82 + t88 - t89 + t100) * t80 + (0.14060800000000000000e1 - t81 + t82 - t88 + t89 - t100) * t72)
t107 = lax_cond(t34 < 0.6e0, t72, t106)
t111 = lax_cond(r0 / 0.2e1 <= p_a_dens_threshold, 0, -0.3e1 / 0.8e1 * t3 / t4 * t18 * t19 * t107)
res = 0.2e1 * t111
"

/- gen_repo/impl/prebuilt/pol/gga_x_ityh.py and gen_repo/impl/prebuilt/unpol/gga_x_ityh.py -/
formula gga_x_ityh pol "t2 = 3 ** (0.1e1 / 0.3e1)
t3 = math.pi ** (0.1e1 / 0.3e1)
t5 = t2 / t3
t6 = r0 + r1
t7 = 0.1e1 / t6
t10 = 0.2e1 * r0 * t7 <= p_a_zeta_threshold
t11 = p_a_zeta_threshold - 0.1e1
t14 = 0.2e1 * r1 * t7 <= p_a_zeta_threshold
t15 = -t11
t17 = (r0 - r1) * t7
t18 = lax_cond(t14, t15, t17)
t19 = lax_cond(t10, t11, t18)
t20 = 0.1e1 + t19
t22 = p_a_zeta_threshold ** (0.1e1 / 0.3e1)
t23 = t22 * p_a_zeta_threshold
t24 = t20 ** (0.1e1 / 0.3e1)
t26 = lax_cond(t20 <= p_a_zeta_threshold, t23, t24 * t20)
t28 = t6 ** (0.1e1 / 0.3e1)
t29 = t2 ** 2
t30 = math.pi * t29
t32 = (0.1e1 / math.pi) ** (0.1e1 / 0.3e1)
t33 = 0.1e1 / t32
t34 = 4 ** (0.1e1 / 0.3e1)
t35 = t33 * t34
t37 = t29 * t33 * t34
t38 = r0 ** 2
t39 = r0 ** (0.1e1 / 0.3e1)
t40 = t39 ** 2
t44 = math.sqrt(s0)
t47 = t44 / t39 / r0
t48 = math.asinh(t47)
t56 = 0.1e1 + 0.93333333333333333332e-3 * t37 * s0 / t40 / t38 / (0.1e1 + 0.2520e-1 * t47 * t48)
t60 = math.sqrt(t30 * t35 / t56)
t63 = 2 ** (0.1e1 / 0.3e1)
t65 = (t20 * t6) ** (0.1e1 / 0.3e1)
t69 = p_a_cam_omega / t60 * t63 / t65 / 0.2e1
t71 = 0.135e1 < t69
t72 = lax_cond(t71, t69, 0.135e1)
t73 = t72 ** 2
t76 = t73 ** 2
t79 = t76 * t73
t82 = t76 ** 2
t94 = t82 ** 2
t98 = lax_cond(t71, 0.135e1, t69)
t99 = math.sqrt(math.pi)
t102 = math.erf(0.1e1 / t98 / 0.2e1)
t104 = t98 ** 2
t107 = math.exp(-0.1e1 / t104 / 0.4e1)
t118 = lax_cond(0.135e1 <= t69, 0.1e1 / t73 / 0.36e2 - 0.1e1 / t76 / 0.960e3 + 0.1e1 / t79 / 0.26880e5 - 0.1e1 / t82 / 0.829440e6 + 0.1e1 / t82 / t73 / 0.28385280e8 - 0.1e1 / t82 / t76 / 0.1073479680e10 + 0.1e1 / t82 / t79 / 0.44590694400e11 - 0.1e1 / t94 / 0.2021444812800e13, 0.1e1 - 0.8e1 / 0.3e1 * t98 * (t99 * t102 + 0.2e1 * t98 * (t107 - 0.3e1 / 0.2e1 - 0.2e1 * t104 * (t107 - 0.1e1))))
t123 = lax_cond(r0 <= p_a_dens_threshold, 0, -0.3e1 / 0.8e1 * t5 * t26 * t28 * t118 * t56)
t125 = lax_cond(t10, t15, -t17)
t126 = lax_cond(t14, t11, t125)
t127 = 0.1e1 + t126
t129 = t127 ** (0.1e1 / 0.3e1)
t131 = lax_cond(t127 <= p_a_zeta_threshold, t23, t129 * t127)
t133 = r1 ** 2
t134 = r1 ** (0.1e1 / 0.3e1)
t135 = t134 ** 2
t139 = math.sqrt(s2)
t142 = t139 / t134 / r1
t143 = math.asinh(t142)
t151 = 0.1e1 + 0.93333333333333333332e-3 * t37 * s2 / t135 / t133 / (0.1e1 + 0.2520e-1 * t142 * t143)
t155 = math.sqrt(t30 * t35 / t151)
t159 = (t127 * t6) ** (0.1e1 / 0.3e1)
t163 = p_a_cam_omega / t155 * t63 / t159 / 0.2e1
t165 = 0.135e1 < t163
t166 = lax_cond(t165, t163, 0.135e1)
t167 = t166 ** 2
t170 = t167 ** 2
t173 = t170 * t167
t176 = t170 ** 2
t188 = t176 ** 2
t192 = lax_cond(t165, 0.135e1, t163)
t195 = math.erf(0.1e1 / t192 / 0.2e1)
t197 = t192 ** 2
t200 = math.exp(-0.1e1 / t197 / 0.4e1)
t211 = lax_cond(0.135e1 <= t163, 0.1e1 / t167 / 0.36e2 - 0.1e1 / t170 / 0.960e3 + 0.1e1 / t173 / 0.26880e5 - 0.1e1 / t176 / 0.829440e6 + 0.1e1 / t176 / t167 / 0.28385280e8 - 0.1e1 / t176 / t170 / 0.1073479680e10 + 0.1e1 / t176 / t173 / 0.44590694400e11 - 0.1e1 / t188 / 0.2021444812800e13, 0.1e1 - 0.8e1 / 0.3e1 * t192 * (t99 * t195 + 0.2e1 * t192 * (t200 - 0.3e1 / 0.2e1 - 0.2e1 * t197 * (t200 - 0.1e1))))
t216 = lax_cond(r1 <= p_a_dens_threshold, 0, -0.3e1 / 0.8e1 * t5 * t131 * t28 * t211 * t151)
res = t123 + t216
" unpol "t3 = 3 ** (0.1e1 / 0.3e1)
t4 = math.pi ** (0.1e1 / 0.3e1)
t7 = 0.1e1 <= p_a_zeta_threshold
t8 = p_a_zeta_threshold - 0.1e1
t10 = lax_cond(t7, -t8, 0)
t11 = lax_cond(t7, t8, t10)
t12 = 0.1e1 + t11
t14 = p_a_zeta_threshold ** (0.1e1 / 0.3e1)
t16 = t12 ** (0.1e1 / 0.3e1)
t18 = lax_cond(t12 <= p_a_zeta_threshold, t14 * p_a_zeta_threshold, t16 * t12)
t20 = r0 ** (0.1e1 / 0.3e1)
t21 = t3 ** 2
t24 = (0.1e1 / math.pi) ** (0.1e1 / 0.3e1)
t25 = 0.1e1 / t24
t26 = 4 ** (0.1e1 / 0.3e1)
t30 = 2 ** (0.1e1 / 0.3e1)
t31 = t30 ** 2
t33 = r0 ** 2
t34 = t20 ** 2
t37 = math.sqrt(s0)
t38 = t37 * t30
t40 = 0.1e1 / t20 / r0
t42 = math.asinh(t38 * t40)
t52 = 0.1e1 + 0.93333333333333333332e-3 * t21 * t25 * t26 * s0 * t31 / t34 / t33 / (0.1e1 + 0.2520e-1 * t38 * t40 * t42)
t56 = math.sqrt(math.pi * t21 * t25 * t26 / t52)
t60 = (t12 * r0) ** (0.1e1 / 0.3e1)
t64 = p_a_cam_omega / t56 * t30 / t60 / 0.2e1
t66 = 0.135e1 < t64
t67 = lax_cond(t66, t64, 0.135e1)
t68 = t67 ** 2
t71 = t68 ** 2
t74 = t71 * t68
t77 = t71 ** 2
t89 = t77 ** 2
t93 = lax_cond(t66, 0.135e1, t64)
t94 = math.sqrt(math.pi)
t97 = math.erf(0.1e1 / t93 / 0.2e1)
t99 = t93 ** 2
t102 = math.exp(-0.1e1 / t99 / 0.4e1)
t113 = lax_cond(0.135e1 <= t64, 0.1e1 / t68 / 0.36e2 - 0.1e1 / t71 / 0.960e3 + 0.1e1 / t74 / 0.26880e5 - 0.1e1 / t77 / 0.829440e6 + 0.1e1 / t77 / t68 / 0.28385280e8 - 0.1e1 / t77 / t71 / 0.1073479680e10 + 0.1e1 / t77 / t74 / 0.44590694400e11 - 0.1e1 / t89 / 0.2021444812800e13, 0.1e1 - 0.8e1 / 0.3e1 * t93 * (t94 * t97 + 0.2e1 * t93 * (t102 - 0.3e1 / 0.2e1 - 0.2e1 * t99 * (t102 - 0.1e1))))
t118 = lax_cond(r0 / 0.2e1 <= p_a_dens_threshold, 0, -0.3e1 / 0.8e1 * t3 / t4 * t18 * t20 * t113 * t52)
res = 0.2e1 * t118
"

/- gen_repo/impl/prebuilt/pol/gga_x_ityh_optx.py and gen_repo/impl/prebuilt/unpol/gga_x_ityh_optx.py -/
formula gga_x_ityh_optx pol "t2 = 3 ** (0.1e1 / 0.3e1)
t3 = math.pi ** (0.1e1 / 0.3e1)
t5 = t2 / t3
t6 = r0 + r1
t7 = 0.1e1 / t6
t10 = 0.2e1 * r0 * t7 <= p_a_zeta_threshold
t11 = p_a_zeta_threshold - 0.1e1
t14 = 0.2e1 * r1 * t7 <= p_a_zeta_threshold
t15 = -t11
t17 = (r0 - r1) * t7
t18 = lax_cond(t14, t15, t17)
t19 = lax_cond(t10, t11, t18)
t20 = 0.1e1 + t19
t22 = p_a_zeta_threshold ** (0.1e1 / 0.3e1)
t23 = t22 * p_a_zeta_threshold
t24 = t20 ** (0.1e1 / 0.3e1)
t26 = lax_cond(t20 <= p_a_zeta_threshold, t23, t24 * t20)
t28 = t6 ** (0.1e1 / 0.3e1)
t29 = t2 ** 2
t30 = math.pi * t29
t32 = (0.1e1 / math.pi) ** (0.1e1 / 0.3e1)
t34 = 4 ** (0.1e1 / 0.3e1)
t35 = 0.1e1 / t32 * t34
t36 = s0 ** 2
t38 = r0 ** 2
t39 = t38 ** 2
t41 = r0 ** (0.1e1 / 0.3e1)
t44 = t41 ** 2
t50 = (0.1e1 + 0.60e1 * s0 / t44 / t38) ** 2
t55 = params_a_a + 0.3600e2 * params_a_b * t36 / t41 / t39 / r0 / t50
t59 = math.sqrt(t30 * t35 / t55)
t62 = 2 ** (0.1e1 / 0.3e1)
t64 = (t20 * t6) ** (0.1e1 / 0.3e1)
t68 = p_a_cam_omega / t59 * t62 / t64 / 0.2e1
t70 = 0.135e1 < t68
t71 = lax_cond(t70, t68, 0.135e1)
t72 = t71 ** 2
t75 = t72 ** 2
t78 = t75 * t72
t81 = t75 ** 2
t93 = t81 ** 2
t97 = lax_cond(t70, 0.135e1, t68)
t98 = math.sqrt(math.pi)
t101 = math.erf(0.1e1 / t97 / 0.2e1)
t103 = t97 ** 2
t106 = math.exp(-0.1e1 / t103 / 0.4e1)
t117 = lax_cond(0.135e1 <= t68, 0.1e1 / t72 / 0.36e2 - 0.1e1 / t75 / 0.960e3 + 0.1e1 / t78 / 0.26880e5 - 0.1e1 / t81 / 0.829440e6 + 0.1e1 / t81 / t72 / 0.28385280e8 - 0.1e1 / t81 / t75 / 0.1073479680e10 + 0.1e1 / t81 / t78 / 0.44590694400e11 - 0.1e1 / t93 / 0.2021444812800e13, 0.1e1 - 0.8e1 / 0.3e1 * t97 * (t98 * t101 + 0.2e1 * t97 * (t106 - 0.3e1 / 0.2e1 - 0.2e1 * t103 * (t106 - 0.1e1))))
t122 = lax_cond(r0 <= p_a_dens_threshold, 0, -0.3e1 / 0.8e1 * t5 * t26 * t28 * t117 * t55)
t124 = lax_cond(t10, t15, -t17)
t125 = lax_cond(t14, t11, t124)
t126 = 0.1e1 + t125
t128 = t126 ** (0.1e1 / 0.3e1)
t130 = lax_cond(t126 <= p_a_zeta_threshold, t23, t128 * t126)
t132 = s2 ** 2
t134 = r1 ** 2
t135 = t134 ** 2
t137 = r1 ** (0.1e1 / 0.3e1)
t140 = t137 ** 2
t146 = (0.1e1 + 0.60e1 * s2 / t140 / t134) ** 2
t151 = params_a_a + 0.3600e2 * params_a_b * t132 / t137 / t135 / r1 / t146
t155 = math.sqrt(t30 * t35 / t151)
t159 = (t126 * t6) ** (0.1e1 / 0.3e1)
t163 = p_a_cam_omega / t155 * t62 / t159 / 0.2e1
t165 = 0.135e1 < t163
t166 = lax_cond(t165, t163, 0.135e1)
t167 = t166 ** 2
t170 = t167 ** 2
t173 = t170 * t167
t176 = t170 ** 2
t188 = t176 ** 2
t192 = lax_cond(t165, 0.135e1, t163)
t195 = math.erf(0.1e1 / t192 / 0.2e1)
t197 = t192 ** 2
t200 = math.exp(-0.1e1 / t197 / 0.4e1)
t211 = lax_cond(0.135e1 <= t163, 0.1e1 / t167 / 0.36e2 - 0.1e1 / t170 / 0.960e3 + 0.1e1 / t173 / 0.26880e5 - 0.1e1 / t176 / 0.829440e6 + 0.1e1 / t176 / t167 / 0.28385280e8 - 0.1e1 / t176 / t170 / 0.1073479680e10 + 0.1e1 / t176 / t173 / 0.44590694400e11 - 0.1e1 / t188 / 0.2021444812800e13, 0.1e1 - 0.8e1 / 0.3e1 * t192 * (t98 * t195 + 0.2e1 * t192 * (t200 - 0.3e1 / 0.2e1 - 0.2e1 * t197 * (t200 - 0.1e1))))
t216 = lax_cond(r1 <= p_a_dens_threshold, 0, -0.3e1 / 0.8e1 * t5 * t130 * t28 * t211 * t151)
res = t122 + t216
" unpol "t3 = 3 ** (0.1e1 / 0.3e1)
t4 = math.pi ** (0.1e1 / 0.3e1)
t7 = 0.1e1 <= p_a_zeta_threshold
t8 = p_a_zeta_threshold - 0.1e1
t10 = lax_cond(t7, -t8, 0)
t11 = lax_cond(t7, t8, t10)
t12 = 0.1e1 + t11
t14 = p_a_zeta_threshold ** (0.1e1 / 0.3e1)
t16 = t12 ** (0.1e1 / 0.3e1)
t18 = lax_cond(t12 <= p_a_zeta_threshold, t14 * p_a_zeta_threshold, t16 * t12)
t20 = r0 ** (0.1e1 / 0.3e1)
t21 = t3 ** 2
t24 = (0.1e1 / math.pi) ** (0.1e1 / 0.3e1)
t26 = 4 ** (0.1e1 / 0.3e1)
t28 = s0 ** 2
t30 = 2 ** (0.1e1 / 0.3e1)
t31 = r0 ** 2
t32 = t31 ** 2
t37 = t30 ** 2
t39 = t20 ** 2
t45 = (0.1e1 + 0.60e1 * s0 * t37 / t39 / t31) ** 2
t50 = params_a_a + 0.7200e2 * params_a_b * t28 * t30 / t20 / t32 / r0 / t45
t54 = math.sqrt(math.pi * t21 / t24 * t26 / t50)
t58 = (t12 * r0) ** (0.1e1 / 0.3e1)
t62 = p_a_cam_omega / t54 * t30 / t58 / 0.2e1
t64 = 0.135e1 < t62
t65 = lax_cond(t64, t62, 0.135e1)
t66 = t65 ** 2
t69 = t66 ** 2
t72 = t69 * t66
t75 = t69 ** 2
t87 = t75 ** 2
t91 = lax_cond(t64, 0.135e1, t62)
t92 = math.sqrt(math.pi)
t95 = math.erf(0.1e1 / t91 / 0.2e1)
t97 = t91 ** 2
t100 = math.exp(-0.1e1 / t97 / 0.4e1)
t111 = lax_cond(0.135e1 <= t62, 0.1e1 / t66 / 0.36e2 - 0.1e1 / t69 / 0.960e3 + 0.1e1 / t72 / 0.26880e5 - 0.1e1 / t75 / 0.829440e6 + 0.1e1 / t75 / t66 / 0.28385280e8 - 0.1e1 / t75 / t69 / 0.1073479680e10 + 0.1e1 / t75 / t72 / 0.44590694400e11 - 0.1e1 / t87 / 0.2021444812800e13, 0.1e1 - 0.8e1 / 0.3e1 * t91 * (t92 * t95 + 0.2e1 * t91 * (t100 - 0.3e1 / 0.2e1 - 0.2e1 * t97 * (t100 - 0.1e1))))
t116 = lax_cond(r0 / 0.2e1 <= p_a_dens_threshold, 0, -0.3e1 / 0.8e1 * t3 / t4 * t18 * t20 * t111 * t50)
res = 0.2e1 * t116
"

/- gen_repo/impl/prebuilt/pol/gga_x_ityh_pbe.py and gen_repo/impl/prebuilt/unpol/gga_x_ityh_pbe.py -/
formula gga_x_ityh_pbe pol "t2 = 3 ** (0.1e1 / 0.3e1)
t3 = math.pi ** (0.1e1 / 0.3e1)
t5 = t2 / t3
t6 = r0 + r1
t7 = 0.1e1 / t6
t10 = 0.2e1 * r0 * t7 <= p_a_zeta_threshold
t11 = p_a_zeta_threshold - 0.1e1
t14 = 0.2e1 * r1 * t7 <= p_a_zeta_threshold
t15 = -t11
t17 = (r0 - r1) * t7
t18 = lax_cond(t14, t15, t17)
t19 = lax_cond(t10, t11, t18)
t20 = 0.1e1 + t19
t22 = p_a_zeta_threshold ** (0.1e1 / 0.3e1)
t23 = t22 * p_a_zeta_threshold
t24 = t20 ** (0.1e1 / 0.3e1)
t26 = lax_cond(t20 <= p_a_zeta_threshold, t23, t24 * t20)
t28 = t6 ** (0.1e1 / 0.3e1)
t29 = t2 ** 2
t30 = math.pi * t29
t32 = (0.1e1 / math.pi) ** (0.1e1 / 0.3e1)
t34 = 4 ** (0.1e1 / 0.3e1)
t35 = 0.1e1 / t32 * t34
t36 = 6 ** (0.1e1 / 0.3e1)
t37 = params_a_mu * t36
t38 = math.pi ** 2
t39 = t38 ** (0.1e1 / 0.3e1)
t40 = t39 ** 2
t41 = 0.1e1 / t40
t43 = r0 ** 2
t44 = r0 ** (0.1e1 / 0.3e1)
t45 = t44 ** 2
t56 = 0.1e1 + params_a_kappa * (0.1e1 - params_a_kappa / (params_a_kappa + t37 * t41 * s0 / t45 / t43 / 0.24e2))
t60 = math.sqrt(t30 * t35 / t56)
t63 = 2 ** (0.1e1 / 0.3e1)
t65 = (t20 * t6) ** (0.1e1 / 0.3e1)
t69 = p_a_cam_omega / t60 * t63 / t65 / 0.2e1
t71 = 0.135e1 < t69
t72 = lax_cond(t71, t69, 0.135e1)
t73 = t72 ** 2
t76 = t73 ** 2
t79 = t76 * t73
t82 = t76 ** 2
t94 = t82 ** 2
t98 = lax_cond(t71, 0.135e1, t69)
t99 = math.sqrt(math.pi)
t102 = math.erf(0.1e1 / t98 / 0.2e1)
t104 = t98 ** 2
t107 = math.exp(-0.1e1 / t104 / 0.4e1)
t118 = lax_cond(0.135e1 <= t69, 0.1e1 / t73 / 0.36e2 - 0.1e1 / t76 / 0.960e3 + 0.1e1 / t79 / 0.26880e5 - 0.1e1 / t82 / 0.829440e6 + 0.1e1 / t82 / t73 / 0.28385280e8 - 0.1e1 / t82 / t76 / 0.1073479680e10 + 0.1e1 / t82 / t79 / 0.44590694400e11 - 0.1e1 / t94 / 0.2021444812800e13, 0.1e1 - 0.8e1 / 0.3e1 * t98 * (t99 * t102 + 0.2e1 * t98 * (t107 - 0.3e1 / 0.2e1 - 0.2e1 * t104 * (t107 - 0.1e1))))
t123 = lax_cond(r0 <= p_a_dens_threshold, 0, -0.3e1 / 0.8e1 * t5 * t26 * t28 * t118 * t56)
t125 = lax_cond(t10, t15, -t17)
t126 = lax_cond(t14, t11, t125)
t127 = 0.1e1 + t126
t129 = t127 ** (0.1e1 / 0.3e1)
t131 = lax_cond(t127 <= p_a_zeta_threshold, t23, t129 * t127)
t134 = r1 ** 2
t135 = r1 ** (0.1e1 / 0.3e1)
t136 = t135 ** 2
t147 = 0.1e1 + params_a_kappa * (0.1e1 - params_a_kappa / (params_a_kappa + t37 * t41 * s2 / t136 / t134 / 0.24e2))
t151 = math.sqrt(t30 * t35 / t147)
t155 = (t127 * t6) ** (0.1e1 / 0.3e1)
t159 = p_a_cam_omega / t151 * t63 / t155 / 0.2e1
t161 = 0.135e1 < t159
t162 = lax_cond(t161, t159, 0.135e1)
t163 = t162 ** 2
t166 = t163 ** 2
t169 = t166 * t163
t172 = t166 ** 2
t184 = t172 ** 2
t188 = lax_cond(t161, 0.135e1, t159)
t191 = math.erf(0.1e1 / t188 / 0.2e1)
t193 = t188 ** 2
t196 = math.exp(-0.1e1 / t193 / 0.4e1)
t207 = lax_cond(0.135e1 <= t159, 0.1e1 / t163 / 0.36e2 - 0.1e1 / t166 / 0.960e3 + 0.1e1 / t169 / 0.26880e5 - 0.1e1 / t172 / 0.829440e6 + 0.1e1 / t172 / t163 / 0.28385280e8 - 0.1e1 / t172 / t166 / 0.1073479680e10 + 0.1e1 / t172 / t169 / 0.44590694400e11 - 0.1e1 / t184 / 0.2021444812800e13, 0.1e1 - 0.8e1 / 0.3e1 * t188 * (t99 * t191 + 0.2e1 * t188 * (t196 - 0.3e1 / 0.2e1 - 0.2e1 * t193 * (t196 - 0.1e1))))
t212 = lax_cond(r1 <= p_a_dens_threshold, 0, -0.3e1 / 0.8e1 * t5 * t131 * t28 * t207 * t147)
res = t123 + t212
" unpol "t3 = 3 ** (0.1e1 / 0.3e1)
t4 = math.pi ** (0.1e1 / 0.3e1)
t7 = 0.1e1 <= p_a_zeta_threshold
t8 = p_a_zeta_threshold - 0.1e1
t10 = lax_cond(t7, -t8, 0)
t11 = lax_cond(t7, t8, t10)
t12 = 0.1e1 + t11
t14 = p_a_zeta_threshold ** (0.1e1 / 0.3e1)
t16 = t12 ** (0.1e1 / 0.3e1)
t18 = lax_cond(t12 <= p_a_zeta_threshold, t14 * p_a_zeta_threshold, t16 * t12)
t20 = r0 ** (0.1e1 / 0.3e1)
t21 = t3 ** 2
t24 = (0.1e1 / math.pi) ** (0.1e1 / 0.3e1)
t26 = 4 ** (0.1e1 / 0.3e1)
t28 = 6 ** (0.1e1 / 0.3e1)
t30 = math.pi ** 2
t31 = t30 ** (0.1e1 / 0.3e1)
t32 = t31 ** 2
t35 = 2 ** (0.1e1 / 0.3e1)
t36 = t35 ** 2
t38 = r0 ** 2
t39 = t20 ** 2
t50 = 0.1e1 + params_a_kappa * (0.1e1 - params_a_kappa / (params_a_kappa + params_a_mu * t28 / t32 * s0 * t36 / t39 / t38 / 0.24e2))
t54 = math.sqrt(math.pi * t21 / t24 * t26 / t50)
t58 = (t12 * r0) ** (0.1e1 / 0.3e1)
t62 = p_a_cam_omega / t54 * t35 / t58 / 0.2e1
t64 = 0.135e1 < t62
t65 = lax_cond(t64, t62, 0.135e1)
t66 = t65 ** 2
t69 = t66 ** 2
t72 = t69 * t66
t75 = t69 ** 2
t87 = t75 ** 2
t91 = lax_cond(t64, 0.135e1, t62)
t92 = math.sqrt(math.pi)
t95 = math.erf(0.1e1 / t91 / 0.2e1)
t97 = t91 ** 2
t100 = math.exp(-0.1e1 / t97 / 0.4e1)
t111 = lax_cond(0.135e1 <= t62, 0.1e1 / t66 / 0.36e2 - 0.1e1 / t69 / 0.960e3 + 0.1e1 / t72 / 0.26880e5 - 0.1e1 / t75 / 0.829440e6 + 0.1e1 / t75 / t66 / 0.28385280e8 - 0.1e1 / t75 / t69 / 0.1073479680e10 + 0.1e1 / t75 / t72 / 0.44590694400e11 - 0.1e1 / t87 / 0.2021444812800e13, 0.1e1 - 0.8e1 / 0.3e1 * t91 * (t92 * t95 + 0.2e1 * t91 * (t100 - 0.3e1 / 0.2e1 - 0.2e1 * t97 * (t100 - 0.1e1))))
t116 = lax_cond(r0 / 0.2e1 <= p_a_dens_threshold, 0, -0.3e1 / 0.8e1 * t3 / t4 * t18 * t20 * t111 * t50)
res = 0.2e1 * t116
"

/- gen_repo/impl/prebuilt/pol/gga_x_kt.py and gen_repo/impl/prebuilt/unpol/gga_x_kt.py -/
formula gga_x_kt pol "t2 = 3 ** (0.1e1 / 0.3e1)
t3 = math.pi ** (0.1e1 / 0.3e1)
t5 = t2 / t3
t6 = r0 + r1
t7 = 0.1e1 / t6
t10 = 0.2e1 * r0 * t7 <= p_a_zeta_threshold
t11 = p_a_zeta_threshold - 0.1e1
t14 = 0.2e1 * r1 * t7 <= p_a_zeta_threshold
t15 = -t11
t17 = (r0 - r1) * t7
t18 = lax_cond(t14, t15, t17)
t19 = lax_cond(t10, t11, t18)
t20 = 0.1e1 + t19
t22 = p_a_zeta_threshold ** (0.1e1 / 0.3e1)
t23 = t22 * p_a_zeta_threshold
t24 = t20 ** (0.1e1 / 0.3e1)
t26 = lax_cond(t20 <= p_a_zeta_threshold, t23, t24 * t20)
t27 = t6 ** (0.1e1 / 0.3e1)
t29 = t2 ** 2
t32 = (0.1e1 / math.pi) ** (0.1e1 / 0.3e1)
t34 = 4 ** (0.1e1 / 0.3e1)
t36 = params_a_gamma * t29 / t32 * t34
t37 = 2 ** (0.1e1 / 0.3e1)
t38 = t37 ** 2
t39 = t20 * t6
t40 = t39 ** (0.1e1 / 0.3e1)
t42 = t38 * t40 * t39
t43 = r0 ** 2
t44 = r0 ** (0.1e1 / 0.3e1)
t45 = t44 ** 2
t60 = lax_cond(r0 <= p_a_dens_threshold, 0, -0.3e1 / 0.8e1 * t5 * t26 * t27 * (0.1e1 - t36 * t42 * s0 / t45 / t43 / (t42 / 0.4e1 + params_a_delta) / 0.18e2))
t62 = lax_cond(t10, t15, -t17)
t63 = lax_cond(t14, t11, t62)
t64 = 0.1e1 + t63
t66 = t64 ** (0.1e1 / 0.3e1)
t68 = lax_cond(t64 <= p_a_zeta_threshold, t23, t66 * t64)
t70 = t64 * t6
t71 = t70 ** (0.1e1 / 0.3e1)
t73 = t38 * t71 * t70
t74 = r1 ** 2
t75 = r1 ** (0.1e1 / 0.3e1)
t76 = t75 ** 2
t91 = lax_cond(r1 <= p_a_dens_threshold, 0, -0.3e1 / 0.8e1 * t5 * t68 * t27 * (0.1e1 - t36 * t73 * s2 / t76 / t74 / (t73 / 0.4e1 + params_a_delta) / 0.18e2))
res = t60 + t91
" unpol "t3 = 3 ** (0.1e1 / 0.3e1)
t4 = math.pi ** (0.1e1 / 0.3e1)
t7 = 0.1e1 <= p_a_zeta_threshold
t8 = p_a_zeta_threshold - 0.1e1
t10 = lax_cond(t7, -t8, 0)
t11 = lax_cond(t7, t8, t10)
t12 = 0.1e1 + t11
t14 = p_a_zeta_threshold ** (0.1e1 / 0.3e1)
t16 = t12 ** (0.1e1 / 0.3e1)
t18 = lax_cond(t12 <= p_a_zeta_threshold, t14 * p_a_zeta_threshold, t16 * t12)
t19 = r0 ** (0.1e1 / 0.3e1)
t21 = t3 ** 2
t24 = (0.1e1 / math.pi) ** (0.1e1 / 0.3e1)
t26 = 4 ** (0.1e1 / 0.3e1)
t29 = 2 ** (0.1e1 / 0.3e1)
t30 = t12 * r0
t31 = t30 ** (0.1e1 / 0.3e1)
t32 = t31 * t30
t34 = r0 ** 2
t35 = t19 ** 2
t39 = t29 ** 2
t52 = lax_cond(r0 / 0.2e1 <= p_a_dens_threshold, 0, -0.3e1 / 0.8e1 * t3 / t4 * t18 * t19 * (0.1e1 - params_a_gamma * t21 / t24 * t26 * t29 * t32 * s0 / t35 / t34 / (t39 * t32 / 0.4e1 + params_a_delta) / 0.9e1))
res = 0.2e1 * t52
"

/- gen_repo/impl/prebuilt/pol/gga_x_lag.py and gen_repo/impl/prebuilt/unpol/gga_x_lag.py -/
formula gga_x_lag pol "t2 = 3 ** (0.1e1 / 0.3e1)
t3 = math.pi ** (0.1e1 / 0.3e1)
t5 = t2 / t3
t6 = r0 + r1
t7 = 0.1e1 / t6
t10 = 0.2e1 * r0 * t7 <= p_a_zeta_threshold
t11 = p_a_zeta_threshold - 0.1e1
t14 = 0.2e1 * r1 * t7 <= p_a_zeta_threshold
t15 = -t11
t17 = (r0 - r1) * t7
t18 = lax_cond(t14, t15, t17)
t19 = lax_cond(t10, t11, t18)
t20 = 0.1e1 + t19
t22 = p_a_zeta_threshold ** (0.1e1 / 0.3e1)
t23 = t22 * p_a_zeta_threshold
t24 = t20 ** (0.1e1 / 0.3e1)
t26 = lax_cond(t20 <= p_a_zeta_threshold, t23, t24 * t20)
t28 = t6 ** (0.1e1 / 0.3e1)
t29 = 6 ** (0.1e1 / 0.3e1)
t30 = t29 ** 2
t31 = math.pi ** 2
t32 = t31 ** (0.1e1 / 0.3e1)
t34 = t30 / t32
t35 = math.sqrt(s0)
t36 = r0 ** (0.1e1 / 0.3e1)
t41 = (t34 * t35 / t36 / r0) ** 0.2626712e1
t45 = (0.1e1 + 0.13471619689594796103e-3 * t41) ** (-0.657946e0)
t49 = lax_cond(r0 <= p_a_dens_threshold, 0, -0.22554757207579166202e-4 * t5 * t26 * t28 * t41 * t45)
t51 = lax_cond(t10, t15, -t17)
t52 = lax_cond(t14, t11, t51)
t53 = 0.1e1 + t52
t55 = t53 ** (0.1e1 / 0.3e1)
t57 = lax_cond(t53 <= p_a_zeta_threshold, t23, t55 * t53)
t59 = math.sqrt(s2)
t60 = r1 ** (0.1e1 / 0.3e1)
t65 = (t34 * t59 / t60 / r1) ** 0.2626712e1
t69 = (0.1e1 + 0.13471619689594796103e-3 * t65) ** (-0.657946e0)
t73 = lax_cond(r1 <= p_a_dens_threshold, 0, -0.22554757207579166202e-4 * t5 * t57 * t28 * t65 * t69)
res = t49 + t73
" unpol "t3 = 3 ** (0.1e1 / 0.3e1)
t4 = math.pi ** (0.1e1 / 0.3e1)
t7 = 0.1e1 <= p_a_zeta_threshold
t8 = p_a_zeta_threshold - 0.1e1
t10 = lax_cond(t7, -t8, 0)
t11 = lax_cond(t7, t8, t10)
t12 = 0.1e1 + t11
t14 = p_a_zeta_threshold ** (0.1e1 / 0.3e1)
t16 = t12 ** (0.1e1 / 0.3e1)
t18 = lax_cond(t12 <= p_a_zeta_threshold, t14 * p_a_zeta_threshold, t16 * t12)
t20 = r0 ** (0.1e1 / 0.3e1)
t21 = 6 ** (0.1e1 / 0.3e1)
t22 = t21 ** 2
t23 = math.pi ** 2
t24 = t23 ** (0.1e1 / 0.3e1)
t27 = math.sqrt(s0)
t28 = 2 ** (0.1e1 / 0.3e1)
t34 = (t22 / t24 * t27 * t28 / t20 / r0) ** 0.2626712e1
t38 = (0.1e1 + 0.13471619689594796103e-3 * t34) ** (-0.657946e0)
t42 = lax_cond(r0 / 0.2e1 <= p_a_dens_threshold, 0, -0.22554757207579166202e-4 * t3 / t4 * t18 * t20 * t34 * t38)
res = 0.2e1 * t42
"

/- gen_repo/impl/prebuilt/pol/gga_x_lb.py and gen_repo/impl/prebuilt/unpol/gga_x_lb.py -/
formula gga_x_lb pol "t1 = 3 ** (0.1e1 / 0.3e1)
t4 = (0.1e1 / math.pi) ** (0.1e1 / 0.3e1)
t5 = 4 ** (0.1e1 / 0.3e1)
t6 = t5 ** 2
t10 = math.sqrt(s0)
t11 = r0 ** (0.1e1 / 0.3e1)
t13 = 0.1e1 / t11 / r0
t14 = t10 * t13
t17 = r0 ** 2
t18 = t11 ** 2
t23 = params_a_gamma * t10 * t13
t24 = math.asinh(t23)
t33 = math.log(0.2e1 * t23)
t37 = lax_cond(t14 < 0.300e3, params_a_beta * s0 / t18 / t17 / (0.3e1 * params_a_beta * t10 * t13 * t24 + 0.1e1), t14 / t33 / 0.3e1)
res = (-params_a_alpha * t1 * t4 * t6 / 0.2e1 - t37) * t11
" unpol "t1 = 3 ** (0.1e1 / 0.3e1)
t4 = (0.1e1 / math.pi) ** (0.1e1 / 0.3e1)
t5 = 4 ** (0.1e1 / 0.3e1)
t6 = t5 ** 2
t10 = math.sqrt(s0)
t11 = 2 ** (0.1e1 / 0.3e1)
t12 = t10 * t11
t13 = r0 ** (0.1e1 / 0.3e1)
t15 = 0.1e1 / t13 / r0
t19 = t11 ** 2
t20 = r0 ** 2
t21 = t13 ** 2
t26 = t11 * t15
t28 = params_a_gamma * t10 * t26
t29 = math.asinh(t28)
t38 = math.log(0.2e1 * t28)
t43 = lax_cond(t12 * t15 < 0.300e3, params_a_beta * s0 * t19 / t21 / t20 / (0.3e1 * params_a_beta * t10 * t26 * t29 + 0.1e1), t12 * t15 / t38 / 0.3e1)
res = (-params_a_alpha * t1 * t4 * t6 / 0.2e1 - t43) * t19 * t13 / 0.2e1
"

/- gen_repo/impl/prebuilt/pol/gga_x_lg93.py and gen_repo/impl/prebuilt/unpol/gga_x_lg93.py -/
formula gga_x_lg93 pol "t2 = 3 ** (0.1e1 / 0.3e1)
t3 = math.pi ** (0.1e1 / 0.3e1)
t5 = t2 / t3
t6 = r0 + r1
t7 = 0.1e1 / t6
t10 = 0.2e1 * r0 * t7 <= p_a_zeta_threshold
t11 = p_a_zeta_threshold - 0.1e1
t14 = 0.2e1 * r1 * t7 <= p_a_zeta_threshold
t15 = -t11
t17 = (r0 - r1) * t7
t18 = lax_cond(t14, t15, t17)
t19 = lax_cond(t10, t11, t18)
t20 = 0.1e1 + t19
t22 = p_a_zeta_threshold ** (0.1e1 / 0.3e1)
t23 = t22 * p_a_zeta_threshold
t24 = t20 ** (0.1e1 / 0.3e1)
t26 = lax_cond(t20 <= p_a_zeta_threshold, t23, t24 * t20)
t28 = t6 ** (0.1e1 / 0.3e1)
t29 = 6 ** (0.1e1 / 0.3e1)
t30 = math.pi ** 2
t31 = t30 ** (0.1e1 / 0.3e1)
t32 = t31 ** 2
t34 = t29 / t32
t35 = r0 ** 2
t36 = r0 ** (0.1e1 / 0.3e1)
t37 = t36 ** 2
t41 = t34 * s0 / t37 / t35
t43 = t29 ** 2
t46 = t43 / t31 / t30
t47 = s0 ** 2
t48 = t35 ** 2
t49 = t48 * r0
t55 = t30 ** 2
t56 = 0.1e1 / t55
t59 = t48 ** 2
t65 = t29 / t32 / t55
t66 = t47 ** 2
t76 = t43 / t31 / t55 / t30
t84 = t55 ** 2
t85 = 0.1e1 / t84
t88 = t59 ** 2
t93 = (0.1e1 + 0.20588079936467259283e0 * t41 + 0.51718749999999999998e-1 * t46 * t47 / t36 / t49 + 0.97296006944444444444e-2 * t56 * t47 * s0 / t59 + 0.21916594328703703703e-3 * t65 * t66 / t37 / t59 / t35 + 0.11831024546682098765e-2 * t76 * t66 * s0 / t36 / t59 / t49 + 0.10538736979166666667e-4 * t85 * t66 * t47 / t88) ** 0.24974e-1
t101 = lax_cond(r0 <= p_a_dens_threshold, 0, -0.3e1 / 0.8e1 * t5 * t26 * t28 * t93 / (0.1e1 + 0.41666666666666666666e-9 * t41))
t103 = lax_cond(t10, t15, -t17)
t104 = lax_cond(t14, t11, t103)
t105 = 0.1e1 + t104
t107 = t105 ** (0.1e1 / 0.3e1)
t109 = lax_cond(t105 <= p_a_zeta_threshold, t23, t107 * t105)
t111 = r1 ** 2
t112 = r1 ** (0.1e1 / 0.3e1)
t113 = t112 ** 2
t117 = t34 * s2 / t113 / t111
t119 = s2 ** 2
t120 = t111 ** 2
t121 = t120 * r1
t129 = t120 ** 2
t133 = t119 ** 2
t149 = t129 ** 2
t154 = (0.1e1 + 0.20588079936467259283e0 * t117 + 0.51718749999999999998e-1 * t46 * t119 / t112 / t121 + 0.97296006944444444444e-2 * t56 * t119 * s2 / t129 + 0.21916594328703703703e-3 * t65 * t133 / t113 / t129 / t111 + 0.11831024546682098765e-2 * t76 * t133 * s2 / t112 / t129 / t121 + 0.10538736979166666667e-4 * t85 * t133 * t119 / t149) ** 0.24974e-1
t162 = lax_cond(r1 <= p_a_dens_threshold, 0, -0.3e1 / 0.8e1 * t5 * t109 * t28 * t154 / (0.1e1 + 0.41666666666666666666e-9 * t117))
res = t101 + t162
" unpol "t3 = 3 ** (0.1e1 / 0.3e1)
t4 = math.pi ** (0.1e1 / 0.3e1)
t7 = 0.1e1 <= p_a_zeta_threshold
t8 = p_a_zeta_threshold - 0.1e1
t10 = lax_cond(t7, -t8, 0)
t11 = lax_cond(t7, t8, t10)
t12 = 0.1e1 + t11
t14 = p_a_zeta_threshold ** (0.1e1 / 0.3e1)
t16 = t12 ** (0.1e1 / 0.3e1)
t18 = lax_cond(t12 <= p_a_zeta_threshold, t14 * p_a_zeta_threshold, t16 * t12)
t20 = r0 ** (0.1e1 / 0.3e1)
t21 = 6 ** (0.1e1 / 0.3e1)
t22 = math.pi ** 2
t23 = t22 ** (0.1e1 / 0.3e1)
t24 = t23 ** 2
t27 = 2 ** (0.1e1 / 0.3e1)
t28 = t27 ** 2
t30 = r0 ** 2
t31 = t20 ** 2
t35 = t21 / t24 * s0 * t28 / t31 / t30
t37 = t21 ** 2
t41 = s0 ** 2
t43 = t30 ** 2
t44 = t43 * r0
t50 = t22 ** 2
t54 = t43 ** 2
t61 = t41 ** 2
t81 = t50 ** 2
t85 = t54 ** 2
t90 = (0.1e1 + 0.20588079936467259283e0 * t35 + 0.10343750000000000000e0 * t37 / t23 / t22 * t41 * t27 / t20 / t44 + 0.38918402777777777778e-1 / t50 * t41 * s0 / t54 + 0.87666377314814814812e-3 * t21 / t24 / t50 * t61 * t28 / t31 / t54 / t30 + 0.94648196373456790120e-2 * t37 / t23 / t50 / t22 * t61 * s0 * t27 / t20 / t54 / t44 + 0.16861979166666666667e-3 / t81 * t61 * t41 / t85) ** 0.24974e-1
t98 = lax_cond(r0 / 0.2e1 <= p_a_dens_threshold, 0, -0.3e1 / 0.8e1 * t3 / t4 * t18 * t20 * t90 / (0.1e1 + 0.41666666666666666666e-9 * t35))
res = 0.2e1 * t98
"

/- gen_repo/impl/prebuilt/pol/gga_x_lspbe.py and gen_repo/impl/prebuilt/unpol/gga_x_lspbe.py -/
formula gga_x_lspbe pol "t2 = 3 ** (0.1e1 / 0.3e1)
t3 = math.pi ** (0.1e1 / 0.3e1)
t5 = t2 / t3
t6 = r0 + r1
t7 = 0.1e1 / t6
t10 = 0.2e1 * r0 * t7 <= p_a_zeta_threshold
t11 = p_a_zeta_threshold - 0.1e1
t14 = 0.2e1 * r1 * t7 <= p_a_zeta_threshold
t15 = -t11
t17 = (r0 - r1) * t7
t18 = lax_cond(t14, t15, t17)
t19 = lax_cond(t10, t11, t18)
t20 = 0.1e1 + t19
t22 = p_a_zeta_threshold ** (0.1e1 / 0.3e1)
t23 = t22 * p_a_zeta_threshold
t24 = t20 ** (0.1e1 / 0.3e1)
t26 = lax_cond(t20 <= p_a_zeta_threshold, t23, t24 * t20)
t27 = t6 ** (0.1e1 / 0.3e1)
t29 = 6 ** (0.1e1 / 0.3e1)
t30 = params_a_mu * t29
t31 = math.pi ** 2
t32 = t31 ** (0.1e1 / 0.3e1)
t33 = t32 ** 2
t34 = 0.1e1 / t33
t36 = r0 ** 2
t37 = r0 ** (0.1e1 / 0.3e1)
t38 = t37 ** 2
t41 = t34 * s0 / t38 / t36
t49 = params_a_kappa + 0.1e1
t50 = params_a_alpha * t29
t53 = math.exp(-t50 * t41 / 0.24e2)
t60 = lax_cond(r0 <= p_a_dens_threshold, 0, -0.3e1 / 0.8e1 * t5 * t26 * t27 * (0.1e1 + params_a_kappa * (0.1e1 - params_a_kappa / (params_a_kappa + t30 * t41 / 0.24e2)) - t49 * (0.1e1 - t53)))
t62 = lax_cond(t10, t15, -t17)
t63 = lax_cond(t14, t11, t62)
t64 = 0.1e1 + t63
t66 = t64 ** (0.1e1 / 0.3e1)
t68 = lax_cond(t64 <= p_a_zeta_threshold, t23, t66 * t64)
t71 = r1 ** 2
t72 = r1 ** (0.1e1 / 0.3e1)
t73 = t72 ** 2
t76 = t34 * s2 / t73 / t71
t86 = math.exp(-t50 * t76 / 0.24e2)
t93 = lax_cond(r1 <= p_a_dens_threshold, 0, -0.3e1 / 0.8e1 * t5 * t68 * t27 * (0.1e1 + params_a_kappa * (0.1e1 - params_a_kappa / (params_a_kappa + t30 * t76 / 0.24e2)) - t49 * (0.1e1 - t86)))
res = t60 + t93
" unpol "t3 = 3 ** (0.1e1 / 0.3e1)
t4 = math.pi ** (0.1e1 / 0.3e1)
t7 = 0.1e1 <= p_a_zeta_threshold
t8 = p_a_zeta_threshold - 0.1e1
t10 = lax_cond(t7, -t8, 0)
t11 = lax_cond(t7, t8, t10)
t12 = 0.1e1 + t11
t14 = p_a_zeta_threshold ** (0.1e1 / 0.3e1)
t16 = t12 ** (0.1e1 / 0.3e1)
t18 = lax_cond(t12 <= p_a_zeta_threshold, t14 * p_a_zeta_threshold, t16 * t12)
t19 = r0 ** (0.1e1 / 0.3e1)
t21 = 6 ** (0.1e1 / 0.3e1)
t23 = math.pi ** 2
t24 = t23 ** (0.1e1 / 0.3e1)
t25 = t24 ** 2
t26 = 0.1e1 / t25
t28 = 2 ** (0.1e1 / 0.3e1)
t29 = t28 ** 2
t31 = r0 ** 2
t32 = t19 ** 2
t35 = s0 * t29 / t32 / t31
t48 = math.exp(-params_a_alpha * t21 * t26 * t35 / 0.24e2)
t55 = lax_cond(r0 / 0.2e1 <= p_a_dens_threshold, 0, -0.3e1 / 0.8e1 * t3 / t4 * t18 * t19 * (0.1e1 + params_a_kappa * (0.1e1 - params_a_kappa / (params_a_kappa + params_a_mu * t21 * t26 * t35 / 0.24e2)) - (params_a_kappa + 0.1e1) * (0.1e1 - t48)))
res = 0.2e1 * t55
"

/- gen_repo/impl/prebuilt/pol/gga_x_lsrpbe.py and gen_repo/impl/prebuilt/unpol/gga_x_lsrpbe.py -/
formula gga_x_lsrpbe pol "t2 = 3 ** (0.1e1 / 0.3e1)
t3 = math.pi ** (0.1e1 / 0.3e1)
t5 = t2 / t3
t6 = r0 + r1
t7 = 0.1e1 / t6
t10 = 0.2e1 * r0 * t7 <= p_a_zeta_threshold
t11 = p_a_zeta_threshold - 0.1e1
t14 = 0.2e1 * r1 * t7 <= p_a_zeta_threshold
t15 = -t11
t17 = (r0 - r1) * t7
t18 = lax_cond(t14, t15, t17)
t19 = lax_cond(t10, t11, t18)
t20 = 0.1e1 + t19
t22 = p_a_zeta_threshold ** (0.1e1 / 0.3e1)
t23 = t22 * p_a_zeta_threshold
t24 = t20 ** (0.1e1 / 0.3e1)
t26 = lax_cond(t20 <= p_a_zeta_threshold, t23, t24 * t20)
t27 = t6 ** (0.1e1 / 0.3e1)
t29 = 6 ** (0.1e1 / 0.3e1)
t31 = math.pi ** 2
t32 = t31 ** (0.1e1 / 0.3e1)
t33 = t32 ** 2
t34 = 0.1e1 / t33
t35 = params_a_mu * t29 * t34
t36 = r0 ** 2
t37 = r0 ** (0.1e1 / 0.3e1)
t38 = t37 ** 2
t40 = 0.1e1 / t38 / t36
t42 = 0.1e1 / params_a_kappa
t46 = math.exp(-t35 * s0 * t40 * t42 / 0.24e2)
t49 = params_a_kappa + 0.1e1
t50 = params_a_alpha * t29
t55 = math.exp(-t50 * t34 * s0 * t40 / 0.24e2)
t62 = lax_cond(r0 <= p_a_dens_threshold, 0, -0.3e1 / 0.8e1 * t5 * t26 * t27 * (0.1e1 + params_a_kappa * (0.1e1 - t46) - t49 * (0.1e1 - t55)))
t64 = lax_cond(t10, t15, -t17)
t65 = lax_cond(t14, t11, t64)
t66 = 0.1e1 + t65
t68 = t66 ** (0.1e1 / 0.3e1)
t70 = lax_cond(t66 <= p_a_zeta_threshold, t23, t68 * t66)
t72 = r1 ** 2
t73 = r1 ** (0.1e1 / 0.3e1)
t74 = t73 ** 2
t76 = 0.1e1 / t74 / t72
t81 = math.exp(-t35 * s2 * t76 * t42 / 0.24e2)
t88 = math.exp(-t50 * t34 * s2 * t76 / 0.24e2)
t95 = lax_cond(r1 <= p_a_dens_threshold, 0, -0.3e1 / 0.8e1 * t5 * t70 * t27 * (0.1e1 + params_a_kappa * (0.1e1 - t81) - t49 * (0.1e1 - t88)))
res = t62 + t95
" unpol "t3 = 3 ** (0.1e1 / 0.3e1)
t4 = math.pi ** (0.1e1 / 0.3e1)
t7 = 0.1e1 <= p_a_zeta_threshold
t8 = p_a_zeta_threshold - 0.1e1
t10 = lax_cond(t7, -t8, 0)
t11 = lax_cond(t7, t8, t10)
t12 = 0.1e1 + t11
t14 = p_a_zeta_threshold ** (0.1e1 / 0.3e1)
t16 = t12 ** (0.1e1 / 0.3e1)
t18 = lax_cond(t12 <= p_a_zeta_threshold, t14 * p_a_zeta_threshold, t16 * t12)
t19 = r0 ** (0.1e1 / 0.3e1)
t21 = 6 ** (0.1e1 / 0.3e1)
t23 = math.pi ** 2
t24 = t23 ** (0.1e1 / 0.3e1)
t25 = t24 ** 2
t26 = 0.1e1 / t25
t28 = 2 ** (0.1e1 / 0.3e1)
t29 = t28 ** 2
t30 = s0 * t29
t31 = r0 ** 2
t32 = t19 ** 2
t34 = 0.1e1 / t32 / t31
t40 = math.exp(-params_a_mu * t21 * t26 * t30 * t34 / params_a_kappa / 0.24e2)
t49 = math.exp(-params_a_alpha * t21 * t26 * t30 * t34 / 0.24e2)
t56 = lax_cond(r0 / 0.2e1 <= p_a_dens_threshold, 0, -0.3e1 / 0.8e1 * t3 / t4 * t18 * t19 * (0.1e1 + params_a_kappa * (0.1e1 - t40) - (params_a_kappa + 0.1e1) * (0.1e1 - t49)))
res = 0.2e1 * t56
"

/- gen_repo/impl/prebuilt/pol/gga_x_lv_rpw86.py and gen_repo/impl/prebuilt/unpol/gga_x_lv_rpw86.py -/
formula gga_x_lv_rpw86 pol "t2 = 3 ** (0.1e1 / 0.3e1)
t3 = math.pi ** (0.1e1 / 0.3e1)
t5 = t2 / t3
t6 = r0 + r1
t7 = 0.1e1 / t6
t10 = 0.2e1 * r0 * t7 <= p_a_zeta_threshold
t11 = p_a_zeta_threshold - 0.1e1
t14 = 0.2e1 * r1 * t7 <= p_a_zeta_threshold
t15 = -t11
t17 = (r0 - r1) * t7
t18 = lax_cond(t14, t15, t17)
t19 = lax_cond(t10, t11, t18)
t20 = 0.1e1 + t19
t22 = p_a_zeta_threshold ** (0.1e1 / 0.3e1)
t23 = t22 * p_a_zeta_threshold
t24 = t20 ** (0.1e1 / 0.3e1)
t26 = lax_cond(t20 <= p_a_zeta_threshold, t23, t24 * t20)
t27 = t6 ** (0.1e1 / 0.3e1)
t29 = 6 ** (0.1e1 / 0.3e1)
t30 = math.pi ** 2
t31 = t30 ** (0.1e1 / 0.3e1)
t32 = t31 ** 2
t34 = t29 / t32
t35 = r0 ** 2
t36 = r0 ** (0.1e1 / 0.3e1)
t37 = t36 ** 2
t41 = t34 * s0 / t37 / t35
t44 = t30 ** 2
t45 = 0.1e1 / t44
t46 = s0 ** 2
t48 = t45 * t46 * s0
t49 = t35 ** 2
t50 = t49 ** 2
t51 = 0.1e1 / t50
t52 = t48 * t51
t53 = 0.94531250000000000000e-5 * t52
t58 = t29 ** 2
t61 = t58 / t31 / t30
t70 = (0.1e1 + 0.77125000000000000002e-1 * t41 + 0.30086805555555555556e-1 * t61 * t46 / t36 / t49 / r0 + 0.70746527777777777778e-4 * t52) ** (0.1e1 / 0.15e2)
t81 = lax_cond(r0 <= p_a_dens_threshold, 0, -0.3e1 / 0.8e1 * t5 * t26 * t27 * ((0.1e1 + 0.39310185185185185185e-2 * t41) / (0.1e1 + t53) + 0.94531250000000000000e-5 * t48 * t51 * t70 / (0.115e1 + t53)))
t83 = lax_cond(t10, t15, -t17)
t84 = lax_cond(t14, t11, t83)
t85 = 0.1e1 + t84
t87 = t85 ** (0.1e1 / 0.3e1)
t89 = lax_cond(t85 <= p_a_zeta_threshold, t23, t87 * t85)
t91 = r1 ** 2
t92 = r1 ** (0.1e1 / 0.3e1)
t93 = t92 ** 2
t97 = t34 * s2 / t93 / t91
t100 = s2 ** 2
t102 = t45 * t100 * s2
t103 = t91 ** 2
t104 = t103 ** 2
t105 = 0.1e1 / t104
t106 = t102 * t105
t107 = 0.94531250000000000000e-5 * t106
t120 = (0.1e1 + 0.77125000000000000002e-1 * t97 + 0.30086805555555555556e-1 * t61 * t100 / t92 / t103 / r1 + 0.70746527777777777778e-4 * t106) ** (0.1e1 / 0.15e2)
t131 = lax_cond(r1 <= p_a_dens_threshold, 0, -0.3e1 / 0.8e1 * t5 * t89 * t27 * ((0.1e1 + 0.39310185185185185185e-2 * t97) / (0.1e1 + t107) + 0.94531250000000000000e-5 * t102 * t105 * t120 / (0.115e1 + t107)))
res = t81 + t131
" unpol "t3 = 3 ** (0.1e1 / 0.3e1)
t4 = math.pi ** (0.1e1 / 0.3e1)
t7 = 0.1e1 <= p_a_zeta_threshold
t8 = p_a_zeta_threshold - 0.1e1
t10 = lax_cond(t7, -t8, 0)
t11 = lax_cond(t7, t8, t10)
t12 = 0.1e1 + t11
t14 = p_a_zeta_threshold ** (0.1e1 / 0.3e1)
t16 = t12 ** (0.1e1 / 0.3e1)
t18 = lax_cond(t12 <= p_a_zeta_threshold, t14 * p_a_zeta_threshold, t16 * t12)
t19 = r0 ** (0.1e1 / 0.3e1)
t21 = 6 ** (0.1e1 / 0.3e1)
t22 = math.pi ** 2
t23 = t22 ** (0.1e1 / 0.3e1)
t24 = t23 ** 2
t27 = 2 ** (0.1e1 / 0.3e1)
t28 = t27 ** 2
t30 = r0 ** 2
t31 = t19 ** 2
t35 = t21 / t24 * s0 * t28 / t31 / t30
t38 = t22 ** 2
t40 = s0 ** 2
t42 = 0.1e1 / t38 * t40 * s0
t43 = t30 ** 2
t44 = t43 ** 2
t45 = 0.1e1 / t44
t46 = t42 * t45
t47 = 0.37812500000000000000e-4 * t46
t52 = t21 ** 2
t65 = (0.1e1 + 0.77125000000000000002e-1 * t35 + 0.60173611111111111112e-1 * t52 / t23 / t22 * t40 * t27 / t19 / t43 / r0 + 0.28298611111111111111e-3 * t46) ** (0.1e1 / 0.15e2)
t76 = lax_cond(r0 / 0.2e1 <= p_a_dens_threshold, 0, -0.3e1 / 0.8e1 * t3 / t4 * t18 * t19 * ((0.1e1 + 0.39310185185185185185e-2 * t35) / (0.1e1 + t47) + 0.37812500000000000000e-4 * t42 * t45 * t65 / (0.115e1 + t47)))
res = 0.2e1 * t76
"

/- gen_repo/impl/prebuilt/pol/gga_x_mpbe.py and gen_repo/impl/prebuilt/unpol/gga_x_mpbe.py -/
formula gga_x_mpbe pol "t2 = 3 ** (0.1e1 / 0.3e1)
t3 = math.pi ** (0.1e1 / 0.3e1)
t5 = t2 / t3
t6 = r0 + r1
t7 = 0.1e1 / t6
t10 = 0.2e1 * r0 * t7 <= p_a_zeta_threshold
t11 = p_a_zeta_threshold - 0.1e1
t14 = 0.2e1 * r1 * t7 <= p_a_zeta_threshold
t15 = -t11
t17 = (r0 - r1) * t7
t18 = lax_cond(t14, t15, t17)
t19 = lax_cond(t10, t11, t18)
t20 = 0.1e1 + t19
t22 = p_a_zeta_threshold ** (0.1e1 / 0.3e1)
t23 = t22 * p_a_zeta_threshold
t24 = t20 ** (0.1e1 / 0.3e1)
t26 = lax_cond(t20 <= p_a_zeta_threshold, t23, t24 * t20)
t27 = t6 ** (0.1e1 / 0.3e1)
t29 = 6 ** (0.1e1 / 0.3e1)
t31 = math.pi ** 2
t32 = t31 ** (0.1e1 / 0.3e1)
t33 = t32 ** 2
t34 = 0.1e1 / t33
t35 = params_a_c1 * t29 * t34
t36 = r0 ** 2
t37 = r0 ** (0.1e1 / 0.3e1)
t38 = t37 ** 2
t40 = 0.1e1 / t38 / t36
t42 = params_a_a * t29
t47 = 0.1e1 + t42 * t34 * s0 * t40 / 0.24e2
t52 = t29 ** 2
t56 = params_a_c2 * t52 / t32 / t31
t57 = s0 ** 2
t58 = t36 ** 2
t63 = t47 ** 2
t68 = t31 ** 2
t70 = params_a_c3 / t68
t72 = t58 ** 2
t84 = lax_cond(r0 <= p_a_dens_threshold, 0, -0.3e1 / 0.8e1 * t5 * t26 * t27 * (0.1e1 + t35 * s0 * t40 / t47 / 0.24e2 + t56 * t57 / t37 / t58 / r0 / t63 / 0.576e3 + t70 * t57 * s0 / t72 / t63 / t47 / 0.2304e4))
t86 = lax_cond(t10, t15, -t17)
t87 = lax_cond(t14, t11, t86)
t88 = 0.1e1 + t87
t90 = t88 ** (0.1e1 / 0.3e1)
t92 = lax_cond(t88 <= p_a_zeta_threshold, t23, t90 * t88)
t94 = r1 ** 2
t95 = r1 ** (0.1e1 / 0.3e1)
t96 = t95 ** 2
t98 = 0.1e1 / t96 / t94
t104 = 0.1e1 + t42 * t34 * s2 * t98 / 0.24e2
t109 = s2 ** 2
t110 = t94 ** 2
t115 = t104 ** 2
t121 = t110 ** 2
t133 = lax_cond(r1 <= p_a_dens_threshold, 0, -0.3e1 / 0.8e1 * t5 * t92 * t27 * (0.1e1 + t35 * s2 * t98 / t104 / 0.24e2 + t56 * t109 / t95 / t110 / r1 / t115 / 0.576e3 + t70 * t109 * s2 / t121 / t115 / t104 / 0.2304e4))
res = t84 + t133
" unpol "t3 = 3 ** (0.1e1 / 0.3e1)
t4 = math.pi ** (0.1e1 / 0.3e1)
t7 = 0.1e1 <= p_a_zeta_threshold
t8 = p_a_zeta_threshold - 0.1e1
t10 = lax_cond(t7, -t8, 0)
t11 = lax_cond(t7, t8, t10)
t12 = 0.1e1 + t11
t14 = p_a_zeta_threshold ** (0.1e1 / 0.3e1)
t16 = t12 ** (0.1e1 / 0.3e1)
t18 = lax_cond(t12 <= p_a_zeta_threshold, t14 * p_a_zeta_threshold, t16 * t12)
t19 = r0 ** (0.1e1 / 0.3e1)
t21 = 6 ** (0.1e1 / 0.3e1)
t23 = math.pi ** 2
t24 = t23 ** (0.1e1 / 0.3e1)
t25 = t24 ** 2
t26 = 0.1e1 / t25
t28 = 2 ** (0.1e1 / 0.3e1)
t29 = t28 ** 2
t30 = s0 * t29
t31 = r0 ** 2
t32 = t19 ** 2
t34 = 0.1e1 / t32 / t31
t40 = 0.1e1 + params_a_a * t21 * t26 * t30 * t34 / 0.24e2
t46 = t21 ** 2
t51 = s0 ** 2
t53 = t31 ** 2
t57 = t40 ** 2
t63 = t23 ** 2
t67 = t53 ** 2
t79 = lax_cond(r0 / 0.2e1 <= p_a_dens_threshold, 0, -0.3e1 / 0.8e1 * t3 / t4 * t18 * t19 * (0.1e1 + params_a_c1 * t21 * t26 * t30 * t34 / t40 / 0.24e2 + params_a_c2 * t46 / t24 / t23 * t51 * t28 / t19 / t53 / r0 / t57 / 0.288e3 + params_a_c3 / t63 * t51 * s0 / t67 / t57 / t40 / 0.576e3))
res = 0.2e1 * t79
"

/- gen_repo/impl/prebuilt/pol/gga_x_n12.py and gen_repo/impl/prebuilt/unpol/gga_x_n12.py -/
formula gga_x_n12 pol "t2 = 3 ** (0.1e1 / 0.3e1)
t3 = math.pi ** (0.1e1 / 0.3e1)
t5 = t2 / t3
t6 = r0 + r1
t7 = 0.1e1 / t6
t10 = 0.2e1 * r0 * t7 <= p_a_zeta_threshold
t11 = p_a_zeta_threshold - 0.1e1
t14 = 0.2e1 * r1 * t7 <= p_a_zeta_threshold
t15 = -t11
t17 = (r0 - r1) * t7
t18 = lax_cond(t14, t15, t17)
t19 = lax_cond(t10, t11, t18)
t20 = 0.1e1 + t19
t22 = p_a_zeta_threshold ** (0.1e1 / 0.3e1)
t23 = t22 * p_a_zeta_threshold
t24 = t20 ** (0.1e1 / 0.3e1)
t26 = lax_cond(t20 <= p_a_zeta_threshold, t23, t24 * t20)
t27 = t6 ** (0.1e1 / 0.3e1)
t29 = params_a_CC_0_[0]
t30 = params_a_CC_0_[1]
t32 = r0 ** 2
t33 = r0 ** (0.1e1 / 0.3e1)
t34 = t33 ** 2
t36 = 0.1e1 / t34 / t32
t39 = 0.1e1 + 0.4e-2 * s0 * t36
t41 = t36 / t39
t44 = params_a_CC_0_[2]
t45 = s0 ** 2
t47 = t32 ** 2
t51 = t39 ** 2
t53 = 0.1e1 / t33 / t47 / r0 / t51
t56 = params_a_CC_0_[3]
t57 = t45 * s0
t59 = t47 ** 2
t63 = 0.1e1 / t59 / t51 / t39
t66 = params_a_CC_1_[0]
t67 = params_a_CC_1_[1]
t71 = params_a_CC_1_[2]
t75 = params_a_CC_1_[3]
t81 = 2 ** (0.1e1 / 0.3e1)
t82 = 0.1e1 / t27 * t81
t84 = 0.1e1 + t17 <= p_a_zeta_threshold
t86 = 0.1e1 - t17 <= p_a_zeta_threshold
t87 = lax_cond(t86, t15, t17)
t88 = lax_cond(t84, t11, t87)
t89 = 0.1e1 + t88
t91 = 0.1e1 / t22
t92 = t89 ** (0.1e1 / 0.3e1)
t94 = lax_cond(t89 <= p_a_zeta_threshold, t91, 0.1e1 / t92)
t97 = 0.1e1 + 0.39999999999999999998e0 * t82 * t94
t100 = params_a_CC_2_[0]
t101 = params_a_CC_2_[1]
t105 = params_a_CC_2_[2]
t109 = params_a_CC_2_[3]
t114 = t97 ** 2
t117 = params_a_CC_3_[0]
t118 = params_a_CC_3_[1]
t122 = params_a_CC_3_[2]
t126 = params_a_CC_3_[3]
t138 = lax_cond(r0 <= p_a_dens_threshold, 0, -0.3e1 / 0.8e1 * t5 * t26 * t27 * (t29 + 0.4e-2 * t30 * s0 * t41 + 0.16e-4 * t44 * t45 * t53 + 0.64e-7 * t56 * t57 * t63 + (t66 + 0.4e-2 * t67 * s0 * t41 + 0.16e-4 * t71 * t45 * t53 + 0.64e-7 * t75 * t57 * t63) / t97 + (t100 + 0.4e-2 * t101 * s0 * t41 + 0.16e-4 * t105 * t45 * t53 + 0.64e-7 * t109 * t57 * t63) / t114 + (t117 + 0.4e-2 * t118 * s0 * t41 + 0.16e-4 * t122 * t45 * t53 + 0.64e-7 * t126 * t57 * t63) / t114 / t97))
t140 = lax_cond(t10, t15, -t17)
t141 = lax_cond(t14, t11, t140)
t142 = 0.1e1 + t141
t144 = t142 ** (0.1e1 / 0.3e1)
t146 = lax_cond(t142 <= p_a_zeta_threshold, t23, t144 * t142)
t149 = r1 ** 2
t150 = r1 ** (0.1e1 / 0.3e1)
t151 = t150 ** 2
t153 = 0.1e1 / t151 / t149
t156 = 0.1e1 + 0.4e-2 * s2 * t153
t158 = t153 / t156
t161 = s2 ** 2
t163 = t149 ** 2
t167 = t156 ** 2
t169 = 0.1e1 / t150 / t163 / r1 / t167
t172 = t161 * s2
t174 = t163 ** 2
t178 = 0.1e1 / t174 / t167 / t156
t191 = lax_cond(t84, t15, -t17)
t192 = lax_cond(t86, t11, t191)
t193 = 0.1e1 + t192
t195 = t193 ** (0.1e1 / 0.3e1)
t197 = lax_cond(t193 <= p_a_zeta_threshold, t91, 0.1e1 / t195)
t200 = 0.1e1 + 0.39999999999999999998e0 * t82 * t197
t213 = t200 ** 2
t233 = lax_cond(r1 <= p_a_dens_threshold, 0, -0.3e1 / 0.8e1 * t5 * t146 * t27 * (t29 + 0.4e-2 * t30 * s2 * t158 + 0.16e-4 * t44 * t161 * t169 + 0.64e-7 * t56 * t172 * t178 + (t66 + 0.4e-2 * t67 * s2 * t158 + 0.16e-4 * t71 * t161 * t169 + 0.64e-7 * t75 * t172 * t178) / t200 + (t100 + 0.4e-2 * t101 * s2 * t158 + 0.16e-4 * t105 * t161 * t169 + 0.64e-7 * t109 * t172 * t178) / t213 + (t117 + 0.4e-2 * t118 * s2 * t158 + 0.16e-4 * t122 * t161 * t169 + 0.64e-7 * t126 * t172 * t178) / t213 / t200))
res = t138 + t233
" unpol "t3 = 3 ** (0.1e1 / 0.3e1)
t4 = math.pi ** (0.1e1 / 0.3e1)
t7 = 0.1e1 <= p_a_zeta_threshold
t8 = p_a_zeta_threshold - 0.1e1
t10 = lax_cond(t7, -t8, 0)
t11 = lax_cond(t7, t8, t10)
t12 = 0.1e1 + t11
t13 = t12 <= p_a_zeta_threshold
t14 = p_a_zeta_threshold ** (0.1e1 / 0.3e1)
t16 = t12 ** (0.1e1 / 0.3e1)
t18 = lax_cond(t13, t14 * p_a_zeta_threshold, t16 * t12)
t19 = r0 ** (0.1e1 / 0.3e1)
t24 = 2 ** (0.1e1 / 0.3e1)
t25 = t24 ** 2
t26 = r0 ** 2
t27 = t19 ** 2
t29 = 0.1e1 / t27 / t26
t34 = 0.1e1 + 0.4e-2 * s0 * t25 * t29
t36 = t25 * t29 / t34
t40 = s0 ** 2
t42 = t26 ** 2
t47 = t34 ** 2
t49 = t24 / t19 / t42 / r0 / t47
t53 = t40 * s0
t55 = t42 ** 2
t59 = 0.1e1 / t55 / t47 / t34
t80 = lax_cond(t13, 0.1e1 / t14, 0.1e1 / t16)
t83 = 0.1e1 + 0.39999999999999999998e0 / t19 * t24 * t80
t100 = t83 ** 2
t124 = lax_cond(r0 / 0.2e1 <= p_a_dens_threshold, 0, -0.3e1 / 0.8e1 * t3 / t4 * t18 * t19 * (params_a_CC_0_[0] + 0.4e-2 * params_a_CC_0_[1] * s0 * t36 + 0.32e-4 * params_a_CC_0_[2] * t40 * t49 + 0.256e-6 * params_a_CC_0_[3] * t53 * t59 + (params_a_CC_1_[0] + 0.4e-2 * params_a_CC_1_[1] * s0 * t36 + 0.32e-4 * params_a_CC_1_[2] * t40 * t49 + 0.256e-6 * params_a_CC_1_[3] * t53 * t59) / t83 + (params_a_CC_2_[0] + 0.4e-2 * params_a_CC_2_[1] * s0 * t36 + 0.32e-4 * params_a_CC_2_[2] * t40 * t49 + 0.256e-6 * params_a_CC_2_[3] * t53 * t59) / t100 + (params_a_CC_3_[0] + 0.4e-2 * params_a_CC_3_[1] * s0 * t36 + 0.32e-4 * params_a_CC_3_[2] * t40 * t49 + 0.256e-6 * params_a_CC_3_[3] * t53 * t59) / t100 / t83))
res = 0.2e1 * t124
"

/- gen_repo/impl/prebuilt/pol/gga_x_ncap.py and gen_repo/impl/prebuilt/unpol/gga_x_ncap.py -/
formula gga_x_ncap pol "t2 = 3 ** (0.1e1 / 0.3e1)
t3 = math.pi ** (0.1e1 / 0.3e1)
t5 = t2 / t3
t6 = r0 + r1
t7 = 0.1e1 / t6
t10 = 0.2e1 * r0 * t7 <= p_a_zeta_threshold
t11 = p_a_zeta_threshold - 0.1e1
t14 = 0.2e1 * r1 * t7 <= p_a_zeta_threshold
t15 = -t11
t17 = (r0 - r1) * t7
t18 = lax_cond(t14, t15, t17)
t19 = lax_cond(t10, t11, t18)
t20 = 0.1e1 + t19
t22 = p_a_zeta_threshold ** (0.1e1 / 0.3e1)
t23 = t22 * p_a_zeta_threshold
t24 = t20 ** (0.1e1 / 0.3e1)
t26 = lax_cond(t20 <= p_a_zeta_threshold, t23, t24 * t20)
t27 = t6 ** (0.1e1 / 0.3e1)
t29 = 6 ** (0.1e1 / 0.3e1)
t30 = t29 ** 2
t31 = math.pi ** 2
t32 = t31 ** (0.1e1 / 0.3e1)
t33 = 0.1e1 / t32
t34 = t30 * t33
t35 = math.sqrt(s0)
t36 = r0 ** (0.1e1 / 0.3e1)
t38 = 0.1e1 / t36 / r0
t39 = t35 * t38
t41 = t34 * t39 / 0.12e2
t42 = math.tanh(t41)
t44 = math.asinh(t41)
t47 = (0.1e1 - params_a_zeta) * t30 * t33
t49 = math.log(0.1e1 + t41)
t52 = params_a_zeta * t30
t71 = lax_cond(r0 <= p_a_dens_threshold, 0, -0.3e1 / 0.8e1 * t5 * t26 * t27 * (0.1e1 + params_a_mu * t42 * t44 * (0.1e1 + params_a_alpha * (t52 * t33 * t35 * t38 / 0.12e2 + t47 * t39 * t49 / 0.12e2)) / (params_a_beta * t42 * t44 + 0.1e1)))
t73 = lax_cond(t10, t15, -t17)
t74 = lax_cond(t14, t11, t73)
t75 = 0.1e1 + t74
t77 = t75 ** (0.1e1 / 0.3e1)
t79 = lax_cond(t75 <= p_a_zeta_threshold, t23, t77 * t75)
t81 = math.sqrt(s2)
t82 = r1 ** (0.1e1 / 0.3e1)
t84 = 0.1e1 / t82 / r1
t85 = t81 * t84
t87 = t34 * t85 / 0.12e2
t88 = math.tanh(t87)
t90 = math.asinh(t87)
t92 = math.log(0.1e1 + t87)
t113 = lax_cond(r1 <= p_a_dens_threshold, 0, -0.3e1 / 0.8e1 * t5 * t79 * t27 * (0.1e1 + params_a_mu * t88 * t90 * (0.1e1 + params_a_alpha * (t52 * t33 * t81 * t84 / 0.12e2 + t47 * t85 * t92 / 0.12e2)) / (params_a_beta * t88 * t90 + 0.1e1)))
res = t71 + t113
" unpol "t3 = 3 ** (0.1e1 / 0.3e1)
t4 = math.pi ** (0.1e1 / 0.3e1)
t7 = 0.1e1 <= p_a_zeta_threshold
t8 = p_a_zeta_threshold - 0.1e1
t10 = lax_cond(t7, -t8, 0)
t11 = lax_cond(t7, t8, t10)
t12 = 0.1e1 + t11
t14 = p_a_zeta_threshold ** (0.1e1 / 0.3e1)
t16 = t12 ** (0.1e1 / 0.3e1)
t18 = lax_cond(t12 <= p_a_zeta_threshold, t14 * p_a_zeta_threshold, t16 * t12)
t19 = r0 ** (0.1e1 / 0.3e1)
t21 = 6 ** (0.1e1 / 0.3e1)
t22 = t21 ** 2
t23 = math.pi ** 2
t24 = t23 ** (0.1e1 / 0.3e1)
t25 = 0.1e1 / t24
t27 = math.sqrt(s0)
t28 = 2 ** (0.1e1 / 0.3e1)
t29 = t27 * t28
t31 = 0.1e1 / t19 / r0
t32 = t29 * t31
t34 = t22 * t25 * t32 / 0.12e2
t35 = math.tanh(t34)
t37 = math.asinh(t34)
t42 = math.log(0.1e1 + t34)
t64 = lax_cond(r0 / 0.2e1 <= p_a_dens_threshold, 0, -0.3e1 / 0.8e1 * t3 / t4 * t18 * t19 * (0.1e1 + params_a_mu * t35 * t37 * (0.1e1 + params_a_alpha * ((0.1e1 - params_a_zeta) * t22 * t25 * t29 * t31 * t42 / 0.12e2 + params_a_zeta * t22 * t25 * t32 / 0.12e2)) / (params_a_beta * t35 * t37 + 0.1e1)))
res = 0.2e1 * t64
"

/- gen_repo/impl/prebuilt/pol/gga_x_ol2.py and gen_repo/impl/prebuilt/unpol/gga_x_ol2.py -/
formula gga_x_ol2 pol "t2 = 3 ** (0.1e1 / 0.3e1)
t3 = math.pi ** (0.1e1 / 0.3e1)
t5 = t2 / t3
t6 = r0 + r1
t7 = 0.1e1 / t6
t10 = 0.2e1 * r0 * t7 <= p_a_zeta_threshold
t11 = p_a_zeta_threshold - 0.1e1
t14 = 0.2e1 * r1 * t7 <= p_a_zeta_threshold
t15 = -t11
t17 = (r0 - r1) * t7
t18 = lax_cond(t14, t15, t17)
t19 = lax_cond(t10, t11, t18)
t20 = 0.1e1 + t19
t22 = p_a_zeta_threshold ** (0.1e1 / 0.3e1)
t23 = t22 * p_a_zeta_threshold
t24 = t20 ** (0.1e1 / 0.3e1)
t26 = lax_cond(t20 <= p_a_zeta_threshold, t23, t24 * t20)
t27 = t6 ** (0.1e1 / 0.3e1)
t30 = r0 ** 2
t31 = r0 ** (0.1e1 / 0.3e1)
t32 = t31 ** 2
t37 = math.sqrt(s0)
t40 = 0.1e1 / t31 / r0
t41 = 2 ** (0.1e1 / 0.3e1)
t52 = lax_cond(r0 <= p_a_dens_threshold, 0, -0.3e1 / 0.8e1 * t5 * t26 * t27 * (params_a_aa + 0.13888888888888888889e-1 * params_a_bb * s0 / t32 / t30 + params_a_cc * t37 * t40 / (0.4e1 * t37 * t40 + t41)))
t54 = lax_cond(t10, t15, -t17)
t55 = lax_cond(t14, t11, t54)
t56 = 0.1e1 + t55
t58 = t56 ** (0.1e1 / 0.3e1)
t60 = lax_cond(t56 <= p_a_zeta_threshold, t23, t58 * t56)
t63 = r1 ** 2
t64 = r1 ** (0.1e1 / 0.3e1)
t65 = t64 ** 2
t70 = math.sqrt(s2)
t73 = 0.1e1 / t64 / r1
t84 = lax_cond(r1 <= p_a_dens_threshold, 0, -0.3e1 / 0.8e1 * t5 * t60 * t27 * (params_a_aa + 0.13888888888888888889e-1 * params_a_bb * s2 / t65 / t63 + params_a_cc * t70 * t73 / (0.4e1 * t70 * t73 + t41)))
res = t52 + t84
" unpol "t3 = 3 ** (0.1e1 / 0.3e1)
t4 = math.pi ** (0.1e1 / 0.3e1)
t7 = 0.1e1 <= p_a_zeta_threshold
t8 = p_a_zeta_threshold - 0.1e1
t10 = lax_cond(t7, -t8, 0)
t11 = lax_cond(t7, t8, t10)
t12 = 0.1e1 + t11
t14 = p_a_zeta_threshold ** (0.1e1 / 0.3e1)
t16 = t12 ** (0.1e1 / 0.3e1)
t18 = lax_cond(t12 <= p_a_zeta_threshold, t14 * p_a_zeta_threshold, t16 * t12)
t19 = r0 ** (0.1e1 / 0.3e1)
t22 = 2 ** (0.1e1 / 0.3e1)
t23 = t22 ** 2
t24 = r0 ** 2
t25 = t19 ** 2
t31 = math.sqrt(s0)
t34 = 0.1e1 / t19 / r0
t47 = lax_cond(r0 / 0.2e1 <= p_a_dens_threshold, 0, -0.3e1 / 0.8e1 * t3 / t4 * t18 * t19 * (params_a_aa + 0.13888888888888888889e-1 * params_a_bb * s0 * t23 / t25 / t24 + params_a_cc * t31 * t22 * t34 / (0.4e1 * t31 * t22 * t34 + t22)))
res = 0.2e1 * t47
"

/- gen_repo/impl/prebuilt/pol/gga_x_optx.py and gen_repo/impl/prebuilt/unpol/gga_x_optx.py -/
formula gga_x_optx pol "t2 = 3 ** (0.1e1 / 0.3e1)
t3 = math.pi ** (0.1e1 / 0.3e1)
t5 = t2 / t3
t6 = r0 + r1
t7 = 0.1e1 / t6
t10 = 0.2e1 * r0 * t7 <= p_a_zeta_threshold
t11 = p_a_zeta_threshold - 0.1e1
t14 = 0.2e1 * r1 * t7 <= p_a_zeta_threshold
t15 = -t11
t17 = (r0 - r1) * t7
t18 = lax_cond(t14, t15, t17)
t19 = lax_cond(t10, t11, t18)
t20 = 0.1e1 + t19
t22 = p_a_zeta_threshold ** (0.1e1 / 0.3e1)
t23 = t22 * p_a_zeta_threshold
t24 = t20 ** (0.1e1 / 0.3e1)
t26 = lax_cond(t20 <= p_a_zeta_threshold, t23, t24 * t20)
t27 = t6 ** (0.1e1 / 0.3e1)
t29 = params_a_gamma ** 2
t30 = params_a_b * t29
t31 = s0 ** 2
t32 = r0 ** 2
t33 = t32 ** 2
t35 = r0 ** (0.1e1 / 0.3e1)
t40 = t35 ** 2
t45 = (0.1e1 + params_a_gamma * s0 / t40 / t32) ** 2
t53 = lax_cond(r0 <= p_a_dens_threshold, 0, -0.3e1 / 0.8e1 * t5 * t26 * t27 * (params_a_a + t30 * t31 / t35 / t33 / r0 / t45))
t55 = lax_cond(t10, t15, -t17)
t56 = lax_cond(t14, t11, t55)
t57 = 0.1e1 + t56
t59 = t57 ** (0.1e1 / 0.3e1)
t61 = lax_cond(t57 <= p_a_zeta_threshold, t23, t59 * t57)
t63 = s2 ** 2
t64 = r1 ** 2
t65 = t64 ** 2
t67 = r1 ** (0.1e1 / 0.3e1)
t72 = t67 ** 2
t77 = (0.1e1 + params_a_gamma * s2 / t72 / t64) ** 2
t85 = lax_cond(r1 <= p_a_dens_threshold, 0, -0.3e1 / 0.8e1 * t5 * t61 * t27 * (params_a_a + t30 * t63 / t67 / t65 / r1 / t77))
res = t53 + t85
" unpol "t3 = 3 ** (0.1e1 / 0.3e1)
t4 = math.pi ** (0.1e1 / 0.3e1)
t7 = 0.1e1 <= p_a_zeta_threshold
t8 = p_a_zeta_threshold - 0.1e1
t10 = lax_cond(t7, -t8, 0)
t11 = lax_cond(t7, t8, t10)
t12 = 0.1e1 + t11
t14 = p_a_zeta_threshold ** (0.1e1 / 0.3e1)
t16 = t12 ** (0.1e1 / 0.3e1)
t18 = lax_cond(t12 <= p_a_zeta_threshold, t14 * p_a_zeta_threshold, t16 * t12)
t19 = r0 ** (0.1e1 / 0.3e1)
t21 = params_a_gamma ** 2
t23 = s0 ** 2
t25 = 2 ** (0.1e1 / 0.3e1)
t26 = r0 ** 2
t27 = t26 ** 2
t33 = t25 ** 2
t34 = t19 ** 2
t40 = (0.1e1 + params_a_gamma * s0 * t33 / t34 / t26) ** 2
t49 = lax_cond(r0 / 0.2e1 <= p_a_dens_threshold, 0, -0.3e1 / 0.8e1 * t3 / t4 * t18 * t19 * (params_a_a + 0.2e1 * params_a_b * t21 * t23 * t25 / t19 / t27 / r0 / t40))
res = 0.2e1 * t49
"

/- gen_repo/impl/prebuilt/pol/gga_x_pbe.py and gen_repo/impl/prebuilt/unpol/gga_x_pbe.py -/
formula gga_x_pbe pol "t2 = 3 ** (0.1e1 / 0.3e1)
t3 = math.pi ** (0.1e1 / 0.3e1)
t5 = t2 / t3
t6 = r0 + r1
t7 = 0.1e1 / t6
t10 = 0.2e1 * r0 * t7 <= p_a_zeta_threshold
t11 = p_a_zeta_threshold - 0.1e1
t14 = 0.2e1 * r1 * t7 <= p_a_zeta_threshold
t15 = -t11
t17 = (r0 - r1) * t7
t18 = lax_cond(t14, t15, t17)
t19 = lax_cond(t10, t11, t18)
t20 = 0.1e1 + t19
t22 = p_a_zeta_threshold ** (0.1e1 / 0.3e1)
t23 = t22 * p_a_zeta_threshold
t24 = t20 ** (0.1e1 / 0.3e1)
t26 = lax_cond(t20 <= p_a_zeta_threshold, t23, t24 * t20)
t27 = t6 ** (0.1e1 / 0.3e1)
t29 = 6 ** (0.1e1 / 0.3e1)
t30 = params_a_mu * t29
t31 = math.pi ** 2
t32 = t31 ** (0.1e1 / 0.3e1)
t33 = t32 ** 2
t34 = 0.1e1 / t33
t36 = r0 ** 2
t37 = r0 ** (0.1e1 / 0.3e1)
t38 = t37 ** 2
t53 = lax_cond(r0 <= p_a_dens_threshold, 0, -0.3e1 / 0.8e1 * t5 * t26 * t27 * (0.1e1 + params_a_kappa * (0.1e1 - params_a_kappa / (params_a_kappa + t30 * t34 * s0 / t38 / t36 / 0.24e2))))
t55 = lax_cond(t10, t15, -t17)
t56 = lax_cond(t14, t11, t55)
t57 = 0.1e1 + t56
t59 = t57 ** (0.1e1 / 0.3e1)
t61 = lax_cond(t57 <= p_a_zeta_threshold, t23, t59 * t57)
t64 = r1 ** 2
t65 = r1 ** (0.1e1 / 0.3e1)
t66 = t65 ** 2
t81 = lax_cond(r1 <= p_a_dens_threshold, 0, -0.3e1 / 0.8e1 * t5 * t61 * t27 * (0.1e1 + params_a_kappa * (0.1e1 - params_a_kappa / (params_a_kappa + t30 * t34 * s2 / t66 / t64 / 0.24e2))))
res = t53 + t81
" unpol "t3 = 3 ** (0.1e1 / 0.3e1)
t4 = math.pi ** (0.1e1 / 0.3e1)
t7 = 0.1e1 <= p_a_zeta_threshold
t8 = p_a_zeta_threshold - 0.1e1
t10 = lax_cond(t7, -t8, 0)
t11 = lax_cond(t7, t8, t10)
t12 = 0.1e1 + t11
t14 = p_a_zeta_threshold ** (0.1e1 / 0.3e1)
t16 = t12 ** (0.1e1 / 0.3e1)
t18 = lax_cond(t12 <= p_a_zeta_threshold, t14 * p_a_zeta_threshold, t16 * t12)
t19 = r0 ** (0.1e1 / 0.3e1)
t21 = 6 ** (0.1e1 / 0.3e1)
t23 = math.pi ** 2
t24 = t23 ** (0.1e1 / 0.3e1)
t25 = t24 ** 2
t28 = 2 ** (0.1e1 / 0.3e1)
t29 = t28 ** 2
t31 = r0 ** 2
t32 = t19 ** 2
t47 = lax_cond(r0 / 0.2e1 <= p_a_dens_threshold, 0, -0.3e1 / 0.8e1 * t3 / t4 * t18 * t19 * (0.1e1 + params_a_kappa * (0.1e1 - params_a_kappa / (params_a_kappa + params_a_mu * t21 / t25 * s0 * t29 / t32 / t31 / 0.24e2))))
res = 0.2e1 * t47
"

/- gen_repo/impl/prebuilt/pol/gga_x_pbea.py and gen_repo/impl/prebuilt/unpol/gga_x_pbea.py -/
formula gga_x_pbea pol "t2 = 3 ** (0.1e1 / 0.3e1)
t3 = math.pi ** (0.1e1 / 0.3e1)
t5 = t2 / t3
t6 = r0 + r1
t7 = 0.1e1 / t6
t10 = 0.2e1 * r0 * t7 <= p_a_zeta_threshold
t11 = p_a_zeta_threshold - 0.1e1
t14 = 0.2e1 * r1 * t7 <= p_a_zeta_threshold
t15 = -t11
t17 = (r0 - r1) * t7
t18 = lax_cond(t14, t15, t17)
t19 = lax_cond(t10, t11, t18)
t20 = 0.1e1 + t19
t22 = p_a_zeta_threshold ** (0.1e1 / 0.3e1)
t23 = t22 * p_a_zeta_threshold
t24 = t20 ** (0.1e1 / 0.3e1)
t26 = lax_cond(t20 <= p_a_zeta_threshold, t23, t24 * t20)
t27 = t6 ** (0.1e1 / 0.3e1)
t29 = r0 ** 2
t30 = r0 ** (0.1e1 / 0.3e1)
t31 = t30 ** 2
t37 = (0.1e1 + 0.86399408095363255118e-2 * s0 / t31 / t29) ** (-0.52e0)
t43 = lax_cond(r0 <= p_a_dens_threshold, 0, -0.3e1 / 0.8e1 * t5 * t26 * t27 * (0.18040e1 - 0.8040e0 * t37))
t45 = lax_cond(t10, t15, -t17)
t46 = lax_cond(t14, t11, t45)
t47 = 0.1e1 + t46
t49 = t47 ** (0.1e1 / 0.3e1)
t51 = lax_cond(t47 <= p_a_zeta_threshold, t23, t49 * t47)
t53 = r1 ** 2
t54 = r1 ** (0.1e1 / 0.3e1)
t55 = t54 ** 2
t61 = (0.1e1 + 0.86399408095363255118e-2 * s2 / t55 / t53) ** (-0.52e0)
t67 = lax_cond(r1 <= p_a_dens_threshold, 0, -0.3e1 / 0.8e1 * t5 * t51 * t27 * (0.18040e1 - 0.8040e0 * t61))
res = t43 + t67
" unpol "t3 = 3 ** (0.1e1 / 0.3e1)
t4 = math.pi ** (0.1e1 / 0.3e1)
t7 = 0.1e1 <= p_a_zeta_threshold
t8 = p_a_zeta_threshold - 0.1e1
t10 = lax_cond(t7, -t8, 0)
t11 = lax_cond(t7, t8, t10)
t12 = 0.1e1 + t11
t14 = p_a_zeta_threshold ** (0.1e1 / 0.3e1)
t16 = t12 ** (0.1e1 / 0.3e1)
t18 = lax_cond(t12 <= p_a_zeta_threshold, t14 * p_a_zeta_threshold, t16 * t12)
t19 = r0 ** (0.1e1 / 0.3e1)
t21 = 2 ** (0.1e1 / 0.3e1)
t22 = t21 ** 2
t24 = r0 ** 2
t25 = t19 ** 2
t31 = (0.1e1 + 0.86399408095363255118e-2 * s0 * t22 / t25 / t24) ** (-0.52e0)
t37 = lax_cond(r0 / 0.2e1 <= p_a_dens_threshold, 0, -0.3e1 / 0.8e1 * t3 / t4 * t18 * t19 * (0.18040e1 - 0.8040e0 * t31))
res = 0.2e1 * t37
"

/- gen_repo/impl/prebuilt/pol/gga_x_pbeint.py and gen_repo/impl/prebuilt/unpol/gga_x_pbeint.py -/
formula gga_x_pbeint pol "t2 = 3 ** (0.1e1 / 0.3e1)
t3 = math.pi ** (0.1e1 / 0.3e1)
t5 = t2 / t3
t6 = r0 + r1
t7 = 0.1e1 / t6
t10 = 0.2e1 * r0 * t7 <= p_a_zeta_threshold
t11 = p_a_zeta_threshold - 0.1e1
t14 = 0.2e1 * r1 * t7 <= p_a_zeta_threshold
t15 = -t11
t17 = (r0 - r1) * t7
t18 = lax_cond(t14, t15, t17)
t19 = lax_cond(t10, t11, t18)
t20 = 0.1e1 + t19
t22 = p_a_zeta_threshold ** (0.1e1 / 0.3e1)
t23 = t22 * p_a_zeta_threshold
t24 = t20 ** (0.1e1 / 0.3e1)
t26 = lax_cond(t20 <= p_a_zeta_threshold, t23, t24 * t20)
t27 = t6 ** (0.1e1 / 0.3e1)
t31 = 6 ** (0.1e1 / 0.3e1)
t32 = (params_a_muPBE - params_a_muGE) * params_a_alpha * t31
t33 = math.pi ** 2
t34 = t33 ** (0.1e1 / 0.3e1)
t35 = t34 ** 2
t36 = 0.1e1 / t35
t37 = t36 * s0
t38 = r0 ** 2
t39 = r0 ** (0.1e1 / 0.3e1)
t40 = t39 ** 2
t42 = 0.1e1 / t40 / t38
t43 = params_a_alpha * t31
t44 = t37 * t42
t66 = lax_cond(r0 <= p_a_dens_threshold, 0, -0.3e1 / 0.8e1 * t5 * t26 * t27 * (0.1e1 + params_a_kappa * (0.1e1 - params_a_kappa / (params_a_kappa + (params_a_muGE + t32 * t37 * t42 / (0.1e1 + t43 * t44 / 0.24e2) / 0.24e2) * t31 * t44 / 0.24e2))))
t68 = lax_cond(t10, t15, -t17)
t69 = lax_cond(t14, t11, t68)
t70 = 0.1e1 + t69
t72 = t70 ** (0.1e1 / 0.3e1)
t74 = lax_cond(t70 <= p_a_zeta_threshold, t23, t72 * t70)
t76 = t36 * s2
t77 = r1 ** 2
t78 = r1 ** (0.1e1 / 0.3e1)
t79 = t78 ** 2
t81 = 0.1e1 / t79 / t77
t82 = t76 * t81
t104 = lax_cond(r1 <= p_a_dens_threshold, 0, -0.3e1 / 0.8e1 * t5 * t74 * t27 * (0.1e1 + params_a_kappa * (0.1e1 - params_a_kappa / (params_a_kappa + (params_a_muGE + t32 * t76 * t81 / (0.1e1 + t43 * t82 / 0.24e2) / 0.24e2) * t31 * t82 / 0.24e2))))
res = t66 + t104
" unpol "t3 = 3 ** (0.1e1 / 0.3e1)
t4 = math.pi ** (0.1e1 / 0.3e1)
t7 = 0.1e1 <= p_a_zeta_threshold
t8 = p_a_zeta_threshold - 0.1e1
t10 = lax_cond(t7, -t8, 0)
t11 = lax_cond(t7, t8, t10)
t12 = 0.1e1 + t11
t14 = p_a_zeta_threshold ** (0.1e1 / 0.3e1)
t16 = t12 ** (0.1e1 / 0.3e1)
t18 = lax_cond(t12 <= p_a_zeta_threshold, t14 * p_a_zeta_threshold, t16 * t12)
t19 = r0 ** (0.1e1 / 0.3e1)
t23 = 6 ** (0.1e1 / 0.3e1)
t24 = math.pi ** 2
t25 = t24 ** (0.1e1 / 0.3e1)
t26 = t25 ** 2
t27 = 0.1e1 / t26
t30 = 2 ** (0.1e1 / 0.3e1)
t31 = t30 ** 2
t32 = s0 * t31
t33 = r0 ** 2
t34 = t19 ** 2
t36 = 0.1e1 / t34 / t33
t39 = t32 * t36
t62 = lax_cond(r0 / 0.2e1 <= p_a_dens_threshold, 0, -0.3e1 / 0.8e1 * t3 / t4 * t18 * t19 * (0.1e1 + params_a_kappa * (0.1e1 - params_a_kappa / (params_a_kappa + (params_a_muGE + (params_a_muPBE - params_a_muGE) * params_a_alpha * t23 * t27 * t32 * t36 / (0.1e1 + params_a_alpha * t23 * t27 * t39 / 0.24e2) / 0.24e2) * t23 * t27 * t39 / 0.24e2))))
res = 0.2e1 * t62
"

/- gen_repo/impl/prebuilt/pol/gga_x_pbepow.py and gen_repo/impl/prebuilt/unpol/gga_x_pbepow.py -/
formula gga_x_pbepow pol "t2 = 3 ** (0.1e1 / 0.3e1)
t3 = math.pi ** (0.1e1 / 0.3e1)
t5 = t2 / t3
t6 = r0 + r1
t7 = 0.1e1 / t6
t10 = 0.2e1 * r0 * t7 <= p_a_zeta_threshold
t11 = p_a_zeta_threshold - 0.1e1
t14 = 0.2e1 * r1 * t7 <= p_a_zeta_threshold
t15 = -t11
t17 = (r0 - r1) * t7
t18 = lax_cond(t14, t15, t17)
t19 = lax_cond(t10, t11, t18)
t20 = 0.1e1 + t19
t22 = p_a_zeta_threshold ** (0.1e1 / 0.3e1)
t23 = t22 * p_a_zeta_threshold
t24 = t20 ** (0.1e1 / 0.3e1)
t26 = lax_cond(t20 <= p_a_zeta_threshold, t23, t24 * t20)
t27 = t6 ** (0.1e1 / 0.3e1)
t29 = 6 ** (0.1e1 / 0.3e1)
t30 = math.pi ** 2
t31 = t30 ** (0.1e1 / 0.3e1)
t32 = t31 ** 2
t34 = t29 / t32
t35 = r0 ** 2
t36 = r0 ** (0.1e1 / 0.3e1)
t37 = t36 ** 2
t40 = s0 / t37 / t35
t47 = (t34 * t40 / (0.91464571985215458336e0 * t34 * t40 + 0.8040e0)) ** 0.1000e3
t57 = lax_cond(r0 <= p_a_dens_threshold, 0, -0.3e1 / 0.8e1 * t5 * t26 * t27 * (0.1e1 - 0.91464571985215458336e-2 * t34 * t40 * (0.13344141567995010044e-3 * t47 - 0.1e1)))
t59 = lax_cond(t10, t15, -t17)
t60 = lax_cond(t14, t11, t59)
t61 = 0.1e1 + t60
t63 = t61 ** (0.1e1 / 0.3e1)
t65 = lax_cond(t61 <= p_a_zeta_threshold, t23, t63 * t61)
t67 = r1 ** 2
t68 = r1 ** (0.1e1 / 0.3e1)
t69 = t68 ** 2
t72 = s2 / t69 / t67
t79 = (t34 * t72 / (0.91464571985215458336e0 * t34 * t72 + 0.8040e0)) ** 0.1000e3
t89 = lax_cond(r1 <= p_a_dens_threshold, 0, -0.3e1 / 0.8e1 * t5 * t65 * t27 * (0.1e1 - 0.91464571985215458336e-2 * t34 * t72 * (0.13344141567995010044e-3 * t79 - 0.1e1)))
res = t57 + t89
" unpol "t3 = 3 ** (0.1e1 / 0.3e1)
t4 = math.pi ** (0.1e1 / 0.3e1)
t7 = 0.1e1 <= p_a_zeta_threshold
t8 = p_a_zeta_threshold - 0.1e1
t10 = lax_cond(t7, -t8, 0)
t11 = lax_cond(t7, t8, t10)
t12 = 0.1e1 + t11
t14 = p_a_zeta_threshold ** (0.1e1 / 0.3e1)
t16 = t12 ** (0.1e1 / 0.3e1)
t18 = lax_cond(t12 <= p_a_zeta_threshold, t14 * p_a_zeta_threshold, t16 * t12)
t19 = r0 ** (0.1e1 / 0.3e1)
t21 = 6 ** (0.1e1 / 0.3e1)
t22 = math.pi ** 2
t23 = t22 ** (0.1e1 / 0.3e1)
t24 = t23 ** 2
t26 = t21 / t24
t27 = t26 * s0
t28 = 2 ** (0.1e1 / 0.3e1)
t29 = t28 ** 2
t30 = r0 ** 2
t31 = t19 ** 2
t33 = 0.1e1 / t31 / t30
t34 = t29 * t33
t43 = (t27 * t34 / (0.91464571985215458336e0 * t26 * s0 * t29 * t33 + 0.8040e0)) ** 0.1000e3
t53 = lax_cond(r0 / 0.2e1 <= p_a_dens_threshold, 0, -0.3e1 / 0.8e1 * t3 / t4 * t18 * t19 * (0.1e1 - 0.91464571985215458336e-2 * t27 * t34 * (0.13344141567995010044e-3 * t43 - 0.1e1)))
res = 0.2e1 * t53
"

end Verif.Data


/-!
# Shipped formulas, verbatim from `gen_repo/impl/prebuilt/{pol,unpol}/NAME.py`
-/
namespace Verif.Data

/- gen_repo/impl/prebuilt/pol/gga_x_pbetrans.py and gen_repo/impl/prebuilt/unpol/gga_x_pbetrans.py -/
formula gga_x_pbetrans pol "t2 = 3 ** (0.1e1 / 0.3e1)
t3 = math.pi ** (0.1e1 / 0.3e1)
t5 = t2 / t3
t6 = r0 + r1
t7 = 0.1e1 / t6
t10 = 0.2e1 * r0 * t7 <= p_a_zeta_threshold
t11 = p_a_zeta_threshold - 0.1e1
t14 = 0.2e1 * r1 * t7 <= p_a_zeta_threshold
t15 = -t11
t17 = (r0 - r1) * t7
t18 = lax_cond(t14, t15, t17)
t19 = lax_cond(t10, t11, t18)
t20 = 0.1e1 + t19
t22 = p_a_zeta_threshold ** (0.1e1 / 0.3e1)
t23 = t22 * p_a_zeta_threshold
t24 = t20 ** (0.1e1 / 0.3e1)
t26 = lax_cond(t20 <= p_a_zeta_threshold, t23, t24 * t20)
t27 = t6 ** (0.1e1 / 0.3e1)
t29 = math.pi ** 2
t30 = t29 ** (0.1e1 / 0.3e1)
t31 = t2 * t30
t32 = 6 ** (0.1e1 / 0.3e1)
t33 = t32 ** 2
t35 = t33 / t30
t36 = math.sqrt(s0)
t37 = r0 ** (0.1e1 / 0.3e1)
t46 = math.exp(-0.2e1 * t31 * (t35 * t36 / t37 / r0 / 0.12e2 - 0.3e1))
t49 = 0.413e0 / (0.1e1 + t46)
t50 = 0.1227e1 - t49
t51 = t30 ** 2
t53 = t32 / t51
t54 = r0 ** 2
t55 = t37 ** 2
t70 = lax_cond(r0 <= p_a_dens_threshold, 0, -0.3e1 / 0.8e1 * t5 * t26 * t27 * (0.1e1 + t50 * (0.1e1 - t50 / (0.1227e1 - t49 + 0.91249999999999999998e-2 * t53 * s0 / t55 / t54))))
t72 = lax_cond(t10, t15, -t17)
t73 = lax_cond(t14, t11, t72)
t74 = 0.1e1 + t73
t76 = t74 ** (0.1e1 / 0.3e1)
t78 = lax_cond(t74 <= p_a_zeta_threshold, t23, t76 * t74)
t80 = math.sqrt(s2)
t81 = r1 ** (0.1e1 / 0.3e1)
t90 = math.exp(-0.2e1 * t31 * (t35 * t80 / t81 / r1 / 0.12e2 - 0.3e1))
t93 = 0.413e0 / (0.1e1 + t90)
t94 = 0.1227e1 - t93
t95 = r1 ** 2
t96 = t81 ** 2
t111 = lax_cond(r1 <= p_a_dens_threshold, 0, -0.3e1 / 0.8e1 * t5 * t78 * t27 * (0.1e1 + t94 * (0.1e1 - t94 / (0.1227e1 - t93 + 0.91249999999999999998e-2 * t53 * s2 / t96 / t95))))
res = t70 + t111
" unpol "t3 = 3 ** (0.1e1 / 0.3e1)
t4 = math.pi ** (0.1e1 / 0.3e1)
t7 = 0.1e1 <= p_a_zeta_threshold
t8 = p_a_zeta_threshold - 0.1e1
t10 = lax_cond(t7, -t8, 0)
t11 = lax_cond(t7, t8, t10)
t12 = 0.1e1 + t11
t14 = p_a_zeta_threshold ** (0.1e1 / 0.3e1)
t16 = t12 ** (0.1e1 / 0.3e1)
t18 = lax_cond(t12 <= p_a_zeta_threshold, t14 * p_a_zeta_threshold, t16 * t12)
t19 = r0 ** (0.1e1 / 0.3e1)
t21 = math.pi ** 2
t22 = t21 ** (0.1e1 / 0.3e1)
t24 = 6 ** (0.1e1 / 0.3e1)
t25 = t24 ** 2
t28 = math.sqrt(s0)
t29 = 2 ** (0.1e1 / 0.3e1)
t39 = math.exp(-0.2e1 * t3 * t22 * (t25 / t22 * t28 * t29 / t19 / r0 / 0.12e2 - 0.3e1))
t42 = 0.413e0 / (0.1e1 + t39)
t43 = 0.1227e1 - t42
t44 = t22 ** 2
t47 = t29 ** 2
t49 = r0 ** 2
t50 = t19 ** 2
t65 = lax_cond(r0 / 0.2e1 <= p_a_dens_threshold, 0, -0.3e1 / 0.8e1 * t3 / t4 * t18 * t19 * (0.1e1 + t43 * (0.1e1 - t43 / (0.1227e1 - t42 + 0.91249999999999999998e-2 * t24 / t44 * s0 * t47 / t50 / t49))))
res = 0.2e1 * t65
"

/- gen_repo/impl/prebuilt/pol/gga_x_pw86.py and gen_repo/impl/prebuilt/unpol/gga_x_pw86.py -/
formula gga_x_pw86 pol "t2 = 3 ** (0.1e1 / 0.3e1)
t3 = math.pi ** (0.1e1 / 0.3e1)
t5 = t2 / t3
t6 = r0 + r1
t7 = 0.1e1 / t6
t10 = 0.2e1 * r0 * t7 <= p_a_zeta_threshold
t11 = p_a_zeta_threshold - 0.1e1
t14 = 0.2e1 * r1 * t7 <= p_a_zeta_threshold
t15 = -t11
t17 = (r0 - r1) * t7
t18 = lax_cond(t14, t15, t17)
t19 = lax_cond(t10, t11, t18)
t20 = 0.1e1 + t19
t22 = p_a_zeta_threshold ** (0.1e1 / 0.3e1)
t23 = t22 * p_a_zeta_threshold
t24 = t20 ** (0.1e1 / 0.3e1)
t26 = lax_cond(t20 <= p_a_zeta_threshold, t23, t24 * t20)
t27 = t6 ** (0.1e1 / 0.3e1)
t29 = 6 ** (0.1e1 / 0.3e1)
t30 = params_a_aa * t29
t31 = math.pi ** 2
t32 = t31 ** (0.1e1 / 0.3e1)
t33 = t32 ** 2
t34 = 0.1e1 / t33
t36 = r0 ** 2
t37 = r0 ** (0.1e1 / 0.3e1)
t38 = t37 ** 2
t44 = t29 ** 2
t45 = params_a_bb * t44
t47 = 0.1e1 / t32 / t31
t48 = s0 ** 2
t50 = t36 ** 2
t57 = t31 ** 2
t59 = params_a_cc / t57
t61 = t50 ** 2
t67 = (0.1e1 + t30 * t34 * s0 / t38 / t36 / 0.24e2 + t45 * t47 * t48 / t37 / t50 / r0 / 0.576e3 + t59 * t48 * s0 / t61 / 0.2304e4) ** (0.1e1 / 0.15e2)
t71 = lax_cond(r0 <= p_a_dens_threshold, 0, -0.3e1 / 0.8e1 * t5 * t26 * t27 * t67)
t73 = lax_cond(t10, t15, -t17)
t74 = lax_cond(t14, t11, t73)
t75 = 0.1e1 + t74
t77 = t75 ** (0.1e1 / 0.3e1)
t79 = lax_cond(t75 <= p_a_zeta_threshold, t23, t77 * t75)
t82 = r1 ** 2
t83 = r1 ** (0.1e1 / 0.3e1)
t84 = t83 ** 2
t90 = s2 ** 2
t92 = t82 ** 2
t100 = t92 ** 2
t106 = (0.1e1 + t30 * t34 * s2 / t84 / t82 / 0.24e2 + t45 * t47 * t90 / t83 / t92 / r1 / 0.576e3 + t59 * t90 * s2 / t100 / 0.2304e4) ** (0.1e1 / 0.15e2)
t110 = lax_cond(r1 <= p_a_dens_threshold, 0, -0.3e1 / 0.8e1 * t5 * t79 * t27 * t106)
res = t71 + t110
" unpol "t3 = 3 ** (0.1e1 / 0.3e1)
t4 = math.pi ** (0.1e1 / 0.3e1)
t7 = 0.1e1 <= p_a_zeta_threshold
t8 = p_a_zeta_threshold - 0.1e1
t10 = lax_cond(t7, -t8, 0)
t11 = lax_cond(t7, t8, t10)
t12 = 0.1e1 + t11
t14 = p_a_zeta_threshold ** (0.1e1 / 0.3e1)
t16 = t12 ** (0.1e1 / 0.3e1)
t18 = lax_cond(t12 <= p_a_zeta_threshold, t14 * p_a_zeta_threshold, t16 * t12)
t19 = r0 ** (0.1e1 / 0.3e1)
t21 = 6 ** (0.1e1 / 0.3e1)
t23 = math.pi ** 2
t24 = t23 ** (0.1e1 / 0.3e1)
t25 = t24 ** 2
t28 = 2 ** (0.1e1 / 0.3e1)
t29 = t28 ** 2
t31 = r0 ** 2
t32 = t19 ** 2
t38 = t21 ** 2
t43 = s0 ** 2
t45 = t31 ** 2
t52 = t23 ** 2
t56 = t45 ** 2
t62 = (0.1e1 + params_a_aa * t21 / t25 * s0 * t29 / t32 / t31 / 0.24e2 + params_a_bb * t38 / t24 / t23 * t43 * t28 / t19 / t45 / r0 / 0.288e3 + params_a_cc / t52 * t43 * s0 / t56 / 0.576e3) ** (0.1e1 / 0.15e2)
t66 = lax_cond(r0 / 0.2e1 <= p_a_dens_threshold, 0, -0.3e1 / 0.8e1 * t3 / t4 * t18 * t19 * t62)
res = 0.2e1 * t66
"

/- gen_repo/impl/prebuilt/pol/gga_x_pw91.py and gen_repo/impl/prebuilt/unpol/gga_x_pw91.py -/
formula gga_x_pw91 pol "t2 = 3 ** (0.1e1 / 0.3e1)
t3 = math.pi ** (0.1e1 / 0.3e1)
t5 = t2 / t3
t6 = r0 + r1
t7 = 0.1e1 / t6
t10 = 0.2e1 * r0 * t7 <= p_a_zeta_threshold
t11 = p_a_zeta_threshold - 0.1e1
t14 = 0.2e1 * r1 * t7 <= p_a_zeta_threshold
t15 = -t11
t17 = (r0 - r1) * t7
t18 = lax_cond(t14, t15, t17)
t19 = lax_cond(t10, t11, t18)
t20 = 0.1e1 + t19
t22 = p_a_zeta_threshold ** (0.1e1 / 0.3e1)
t23 = t22 * p_a_zeta_threshold
t24 = t20 ** (0.1e1 / 0.3e1)
t26 = lax_cond(t20 <= p_a_zeta_threshold, t23, t24 * t20)
t27 = t6 ** (0.1e1 / 0.3e1)
t29 = 6 ** (0.1e1 / 0.3e1)
t30 = params_a_alpha * t29
t31 = math.pi ** 2
t32 = t31 ** (0.1e1 / 0.3e1)
t33 = t32 ** 2
t34 = 0.1e1 / t33
t36 = r0 ** 2
t37 = r0 ** (0.1e1 / 0.3e1)
t38 = t37 ** 2
t41 = t34 * s0 / t38 / t36
t44 = math.exp(-t30 * t41 / 0.24e2)
t50 = t29 ** 2
t51 = 0.1e1 / t32
t52 = t50 * t51
t53 = math.sqrt(s0)
t55 = 0.1e1 / t37 / r0
t59 = (t52 * t53 * t55 / 0.12e2) ** params_a_expo
t60 = params_a_f * t59
t64 = params_a_b * t50
t69 = math.asinh(t64 * t51 * t53 * t55 / 0.12e2)
t80 = lax_cond(r0 <= p_a_dens_threshold, 0, -0.3e1 / 0.8e1 * t5 * t26 * t27 * (0.1e1 + ((params_a_d * t44 + params_a_c) * t29 * t41 / 0.24e2 - t60) / (0.1e1 + t52 * t53 * t55 * params_a_a * t69 / 0.12e2 + t60)))
t82 = lax_cond(t10, t15, -t17)
t83 = lax_cond(t14, t11, t82)
t84 = 0.1e1 + t83
t86 = t84 ** (0.1e1 / 0.3e1)
t88 = lax_cond(t84 <= p_a_zeta_threshold, t23, t86 * t84)
t91 = r1 ** 2
t92 = r1 ** (0.1e1 / 0.3e1)
t93 = t92 ** 2
t96 = t34 * s2 / t93 / t91
t99 = math.exp(-t30 * t96 / 0.24e2)
t105 = math.sqrt(s2)
t107 = 0.1e1 / t92 / r1
t111 = (t52 * t105 * t107 / 0.12e2) ** params_a_expo
t112 = params_a_f * t111
t120 = math.asinh(t64 * t51 * t105 * t107 / 0.12e2)
t131 = lax_cond(r1 <= p_a_dens_threshold, 0, -0.3e1 / 0.8e1 * t5 * t88 * t27 * (0.1e1 + ((params_a_d * t99 + params_a_c) * t29 * t96 / 0.24e2 - t112) / (0.1e1 + t52 * t105 * t107 * params_a_a * t120 / 0.12e2 + t112)))
res = t80 + t131
" unpol "t3 = 3 ** (0.1e1 / 0.3e1)
t4 = math.pi ** (0.1e1 / 0.3e1)
t7 = 0.1e1 <= p_a_zeta_threshold
t8 = p_a_zeta_threshold - 0.1e1
t10 = lax_cond(t7, -t8, 0)
t11 = lax_cond(t7, t8, t10)
t12 = 0.1e1 + t11
t14 = p_a_zeta_threshold ** (0.1e1 / 0.3e1)
t16 = t12 ** (0.1e1 / 0.3e1)
t18 = lax_cond(t12 <= p_a_zeta_threshold, t14 * p_a_zeta_threshold, t16 * t12)
t19 = r0 ** (0.1e1 / 0.3e1)
t21 = 6 ** (0.1e1 / 0.3e1)
t23 = math.pi ** 2
t24 = t23 ** (0.1e1 / 0.3e1)
t25 = t24 ** 2
t26 = 0.1e1 / t25
t28 = 2 ** (0.1e1 / 0.3e1)
t29 = t28 ** 2
t31 = r0 ** 2
t32 = t19 ** 2
t35 = s0 * t29 / t32 / t31
t38 = math.exp(-params_a_alpha * t21 * t26 * t35 / 0.24e2)
t45 = t21 ** 2
t46 = 0.1e1 / t24
t47 = t45 * t46
t48 = math.sqrt(s0)
t51 = 0.1e1 / t19 / r0
t52 = t48 * t28 * t51
t55 = (t47 * t52 / 0.12e2) ** params_a_expo
t56 = params_a_f * t55
t64 = math.asinh(params_a_b * t45 * t46 * t52 / 0.12e2)
t76 = lax_cond(r0 / 0.2e1 <= p_a_dens_threshold, 0, -0.3e1 / 0.8e1 * t3 / t4 * t18 * t19 * (0.1e1 + ((params_a_d * t38 + params_a_c) * t21 * t26 * t35 / 0.24e2 - t56) / (0.1e1 + t47 * t48 * t28 * t51 * params_a_a * t64 / 0.12e2 + t56)))
res = 0.2e1 * t76
"

/- gen_repo/impl/prebuilt/pol/gga_x_q1d.py and gen_repo/impl/prebuilt/unpol/gga_x_q1d.py -/
formula gga_x_q1d pol "t2 = 3 ** (0.1e1 / 0.3e1)
t3 = math.pi ** (0.1e1 / 0.3e1)
t5 = t2 / t3
t6 = r0 + r1
t7 = 0.1e1 / t6
t10 = 0.2e1 * r0 * t7 <= p_a_zeta_threshold
t11 = p_a_zeta_threshold - 0.1e1
t14 = 0.2e1 * r1 * t7 <= p_a_zeta_threshold
t15 = -t11
t17 = (r0 - r1) * t7
t18 = lax_cond(t14, t15, t17)
t19 = lax_cond(t10, t11, t18)
t20 = 0.1e1 + t19
t22 = p_a_zeta_threshold ** (0.1e1 / 0.3e1)
t23 = t22 * p_a_zeta_threshold
t24 = t20 ** (0.1e1 / 0.3e1)
t26 = lax_cond(t20 <= p_a_zeta_threshold, t23, t24 * t20)
t27 = t6 ** (0.1e1 / 0.3e1)
t29 = 6 ** (0.1e1 / 0.3e1)
t30 = math.pi ** 2
t31 = t30 ** (0.1e1 / 0.3e1)
t32 = t31 ** 2
t33 = 0.1e1 / t32
t34 = t29 * t33
t35 = r0 ** 2
t36 = r0 ** (0.1e1 / 0.3e1)
t37 = t36 ** 2
t39 = 0.1e1 / t37 / t35
t41 = t34 * s0 * t39
t45 = 0.64641600e0 / (0.8040e0 + 0.5e1 / 0.972e3 * t41)
t47 = t29 ** 2
t50 = t47 / t31 / t30
t51 = s0 ** 2
t52 = t35 ** 2
t58 = t50 * t51 / t36 / t52 / r0 / 0.576e3
t60 = t30 ** 2
t61 = 0.1e1 / t60
t64 = t52 ** 2
t83 = lax_cond(r0 <= p_a_dens_threshold, 0, -0.3e1 / 0.8e1 * t5 * t26 * t27 * (0.18040e1 - t45 + (t41 / 0.24e2 + t58) / (0.1e1 + t58 + t61 * t51 * s0 / t64 / 0.2304e4) * (-(0.18040e1 - t45) * t29 * t33 * s0 * t39 / 0.24e2 + 0.6525e-1)))
t85 = lax_cond(t10, t15, -t17)
t86 = lax_cond(t14, t11, t85)
t87 = 0.1e1 + t86
t89 = t87 ** (0.1e1 / 0.3e1)
t91 = lax_cond(t87 <= p_a_zeta_threshold, t23, t89 * t87)
t93 = r1 ** 2
t94 = r1 ** (0.1e1 / 0.3e1)
t95 = t94 ** 2
t97 = 0.1e1 / t95 / t93
t99 = t34 * s2 * t97
t103 = 0.64641600e0 / (0.8040e0 + 0.5e1 / 0.972e3 * t99)
t105 = s2 ** 2
t106 = t93 ** 2
t112 = t50 * t105 / t94 / t106 / r1 / 0.576e3
t116 = t106 ** 2
t135 = lax_cond(r1 <= p_a_dens_threshold, 0, -0.3e1 / 0.8e1 * t5 * t91 * t27 * (0.18040e1 - t103 + (t99 / 0.24e2 + t112) / (0.1e1 + t112 + t61 * t105 * s2 / t116 / 0.2304e4) * (-(0.18040e1 - t103) * t29 * t33 * s2 * t97 / 0.24e2 + 0.6525e-1)))
res = t83 + t135
" unpol "t3 = 3 ** (0.1e1 / 0.3e1)
t4 = math.pi ** (0.1e1 / 0.3e1)
t7 = 0.1e1 <= p_a_zeta_threshold
t8 = p_a_zeta_threshold - 0.1e1
t10 = lax_cond(t7, -t8, 0)
t11 = lax_cond(t7, t8, t10)
t12 = 0.1e1 + t11
t14 = p_a_zeta_threshold ** (0.1e1 / 0.3e1)
t16 = t12 ** (0.1e1 / 0.3e1)
t18 = lax_cond(t12 <= p_a_zeta_threshold, t14 * p_a_zeta_threshold, t16 * t12)
t19 = r0 ** (0.1e1 / 0.3e1)
t21 = 6 ** (0.1e1 / 0.3e1)
t22 = math.pi ** 2
t23 = t22 ** (0.1e1 / 0.3e1)
t24 = t23 ** 2
t25 = 0.1e1 / t24
t27 = 2 ** (0.1e1 / 0.3e1)
t28 = t27 ** 2
t30 = r0 ** 2
t31 = t19 ** 2
t34 = s0 * t28 / t31 / t30
t35 = t21 * t25 * t34
t39 = 0.64641600e0 / (0.8040e0 + 0.5e1 / 0.972e3 * t35)
t41 = t21 ** 2
t45 = s0 ** 2
t47 = t30 ** 2
t53 = t41 / t23 / t22 * t45 * t27 / t19 / t47 / r0 / 0.288e3
t55 = t22 ** 2
t59 = t47 ** 2
t77 = lax_cond(r0 / 0.2e1 <= p_a_dens_threshold, 0, -0.3e1 / 0.8e1 * t3 / t4 * t18 * t19 * (0.18040e1 - t39 + (t35 / 0.24e2 + t53) / (0.1e1 + t53 + 0.1e1 / t55 * t45 * s0 / t59 / 0.576e3) * (-(0.18040e1 - t39) * t21 * t25 * t34 / 0.24e2 + 0.6525e-1)))
res = 0.2e1 * t77
"

/- gen_repo/impl/prebuilt/pol/gga_x_q2d.py and gen_repo/impl/prebuilt/unpol/gga_x_q2d.py -/
formula gga_x_q2d pol "t2 = 3 ** (0.1e1 / 0.3e1)
t3 = math.pi ** (0.1e1 / 0.3e1)
t5 = t2 / t3
t6 = r0 + r1
t7 = 0.1e1 / t6
t10 = 0.2e1 * r0 * t7 <= p_a_zeta_threshold
t11 = p_a_zeta_threshold - 0.1e1
t14 = 0.2e1 * r1 * t7 <= p_a_zeta_threshold
t15 = -t11
t17 = (r0 - r1) * t7
t18 = lax_cond(t14, t15, t17)
t19 = lax_cond(t10, t11, t18)
t20 = 0.1e1 + t19
t22 = p_a_zeta_threshold ** (0.1e1 / 0.3e1)
t23 = t22 * p_a_zeta_threshold
t24 = t20 ** (0.1e1 / 0.3e1)
t26 = lax_cond(t20 <= p_a_zeta_threshold, t23, t24 * t20)
t28 = t6 ** (0.1e1 / 0.3e1)
t29 = 6 ** (0.1e1 / 0.3e1)
t30 = math.pi ** 2
t31 = t30 ** (0.1e1 / 0.3e1)
t32 = t31 ** 2
t34 = t29 / t32
t35 = r0 ** 2
t36 = r0 ** (0.1e1 / 0.3e1)
t37 = t36 ** 2
t41 = t34 * s0 / t37 / t35
t47 = t29 ** 2
t50 = t47 / t31 / t30
t51 = s0 ** 2
t52 = t35 ** 2
t62 = t47 / t31
t63 = math.sqrt(s0)
t68 = (t62 * t63 / t36 / r0) ** 0.35e1
t75 = t30 ** 2
t76 = 0.1e1 / t75
t79 = t52 ** 2
t88 = lax_cond(r0 <= p_a_dens_threshold, 0, -0.3e1 / 0.8e1 * t5 * t26 * t28 * ((0.18040e1 - 0.64641600e0 / (0.8040e0 + 0.5e1 / 0.972e3 * t41)) * (0.100e3 - t50 * t51 / t36 / t52 / r0 / 0.576e3) + 0.87153829697982569831e-4 * t68 * (0.1e1 + t41 / 0.24e2)) / (0.100e3 + t76 * t51 * s0 / t79 / 0.2304e4))
t90 = lax_cond(t10, t15, -t17)
t91 = lax_cond(t14, t11, t90)
t92 = 0.1e1 + t91
t94 = t92 ** (0.1e1 / 0.3e1)
t96 = lax_cond(t92 <= p_a_zeta_threshold, t23, t94 * t92)
t98 = r1 ** 2
t99 = r1 ** (0.1e1 / 0.3e1)
t100 = t99 ** 2
t104 = t34 * s2 / t100 / t98
t110 = s2 ** 2
t111 = t98 ** 2
t120 = math.sqrt(s2)
t125 = (t62 * t120 / t99 / r1) ** 0.35e1
t134 = t111 ** 2
t143 = lax_cond(r1 <= p_a_dens_threshold, 0, -0.3e1 / 0.8e1 * t5 * t96 * t28 * ((0.18040e1 - 0.64641600e0 / (0.8040e0 + 0.5e1 / 0.972e3 * t104)) * (0.100e3 - t50 * t110 / t99 / t111 / r1 / 0.576e3) + 0.87153829697982569831e-4 * t125 * (0.1e1 + t104 / 0.24e2)) / (0.100e3 + t76 * t110 * s2 / t134 / 0.2304e4))
res = t88 + t143
" unpol "t3 = 3 ** (0.1e1 / 0.3e1)
t4 = math.pi ** (0.1e1 / 0.3e1)
t7 = 0.1e1 <= p_a_zeta_threshold
t8 = p_a_zeta_threshold - 0.1e1
t10 = lax_cond(t7, -t8, 0)
t11 = lax_cond(t7, t8, t10)
t12 = 0.1e1 + t11
t14 = p_a_zeta_threshold ** (0.1e1 / 0.3e1)
t16 = t12 ** (0.1e1 / 0.3e1)
t18 = lax_cond(t12 <= p_a_zeta_threshold, t14 * p_a_zeta_threshold, t16 * t12)
t20 = r0 ** (0.1e1 / 0.3e1)
t21 = 6 ** (0.1e1 / 0.3e1)
t22 = math.pi ** 2
t23 = t22 ** (0.1e1 / 0.3e1)
t24 = t23 ** 2
t27 = 2 ** (0.1e1 / 0.3e1)
t28 = t27 ** 2
t30 = r0 ** 2
t31 = t20 ** 2
t35 = t21 / t24 * s0 * t28 / t31 / t30
t41 = t21 ** 2
t45 = s0 ** 2
t47 = t30 ** 2
t58 = math.sqrt(s0)
t64 = (t41 / t23 * t58 * t27 / t20 / r0) ** 0.35e1
t71 = t22 ** 2
t75 = t47 ** 2
t84 = lax_cond(r0 / 0.2e1 <= p_a_dens_threshold, 0, -0.3e1 / 0.8e1 * t3 / t4 * t18 * t20 * ((0.18040e1 - 0.64641600e0 / (0.8040e0 + 0.5e1 / 0.972e3 * t35)) * (0.100e3 - t41 / t23 / t22 * t45 * t27 / t20 / t47 / r0 / 0.288e3) + 0.87153829697982569831e-4 * t64 * (0.1e1 + t35 / 0.24e2)) / (0.100e3 + 0.1e1 / t71 * t45 * s0 / t75 / 0.576e3))
res = 0.2e1 * t84
"

/- gen_repo/impl/prebuilt/pol/gga_x_rge2.py and gen_repo/impl/prebuilt/unpol/gga_x_rge2.py -/
formula gga_x_rge2 pol "t2 = 3 ** (0.1e1 / 0.3e1)
t3 = math.pi ** (0.1e1 / 0.3e1)
t5 = t2 / t3
t6 = r0 + r1
t7 = 0.1e1 / t6
t10 = 0.2e1 * r0 * t7 <= p_a_zeta_threshold
t11 = p_a_zeta_threshold - 0.1e1
t14 = 0.2e1 * r1 * t7 <= p_a_zeta_threshold
t15 = -t11
t17 = (r0 - r1) * t7
t18 = lax_cond(t14, t15, t17)
t19 = lax_cond(t10, t11, t18)
t20 = 0.1e1 + t19
t22 = p_a_zeta_threshold ** (0.1e1 / 0.3e1)
t23 = t22 * p_a_zeta_threshold
t24 = t20 ** (0.1e1 / 0.3e1)
t26 = lax_cond(t20 <= p_a_zeta_threshold, t23, t24 * t20)
t27 = t6 ** (0.1e1 / 0.3e1)
t29 = 6 ** (0.1e1 / 0.3e1)
t30 = math.pi ** 2
t31 = t30 ** (0.1e1 / 0.3e1)
t32 = t31 ** 2
t34 = t29 / t32
t35 = r0 ** 2
t36 = r0 ** (0.1e1 / 0.3e1)
t37 = t36 ** 2
t43 = t29 ** 2
t46 = t43 / t31 / t30
t47 = s0 ** 2
t48 = t35 ** 2
t62 = lax_cond(r0 <= p_a_dens_threshold, 0, -0.3e1 / 0.8e1 * t5 * t26 * t27 * (0.18040e1 - 0.64641600e0 / (0.8040e0 + 0.5e1 / 0.972e3 * t34 * s0 / t37 / t35 + 0.32911784453572541027e-4 * t46 * t47 / t36 / t48 / r0)))
t64 = lax_cond(t10, t15, -t17)
t65 = lax_cond(t14, t11, t64)
t66 = 0.1e1 + t65
t68 = t66 ** (0.1e1 / 0.3e1)
t70 = lax_cond(t66 <= p_a_zeta_threshold, t23, t68 * t66)
t72 = r1 ** 2
t73 = r1 ** (0.1e1 / 0.3e1)
t74 = t73 ** 2
t80 = s2 ** 2
t81 = t72 ** 2
t95 = lax_cond(r1 <= p_a_dens_threshold, 0, -0.3e1 / 0.8e1 * t5 * t70 * t27 * (0.18040e1 - 0.64641600e0 / (0.8040e0 + 0.5e1 / 0.972e3 * t34 * s2 / t74 / t72 + 0.32911784453572541027e-4 * t46 * t80 / t73 / t81 / r1)))
res = t62 + t95
" unpol "t3 = 3 ** (0.1e1 / 0.3e1)
t4 = math.pi ** (0.1e1 / 0.3e1)
t7 = 0.1e1 <= p_a_zeta_threshold
t8 = p_a_zeta_threshold - 0.1e1
t10 = lax_cond(t7, -t8, 0)
t11 = lax_cond(t7, t8, t10)
t12 = 0.1e1 + t11
t14 = p_a_zeta_threshold ** (0.1e1 / 0.3e1)
t16 = t12 ** (0.1e1 / 0.3e1)
t18 = lax_cond(t12 <= p_a_zeta_threshold, t14 * p_a_zeta_threshold, t16 * t12)
t19 = r0 ** (0.1e1 / 0.3e1)
t21 = 6 ** (0.1e1 / 0.3e1)
t22 = math.pi ** 2
t23 = t22 ** (0.1e1 / 0.3e1)
t24 = t23 ** 2
t27 = 2 ** (0.1e1 / 0.3e1)
t28 = t27 ** 2
t30 = r0 ** 2
t31 = t19 ** 2
t37 = t21 ** 2
t41 = s0 ** 2
t43 = t30 ** 2
t57 = lax_cond(r0 / 0.2e1 <= p_a_dens_threshold, 0, -0.3e1 / 0.8e1 * t3 / t4 * t18 * t19 * (0.18040e1 - 0.64641600e0 / (0.8040e0 + 0.5e1 / 0.972e3 * t21 / t24 * s0 * t28 / t31 / t30 + 0.65823568907145082055e-4 * t37 / t23 / t22 * t41 * t27 / t19 / t43 / r0)))
res = 0.2e1 * t57
"

/- gen_repo/impl/prebuilt/pol/gga_x_rpbe.py and gen_repo/impl/prebuilt/unpol/gga_x_rpbe.py -/
formula gga_x_rpbe pol "t2 = 3 ** (0.1e1 / 0.3e1)
t3 = math.pi ** (0.1e1 / 0.3e1)
t5 = t2 / t3
t6 = r0 + r1
t7 = 0.1e1 / t6
t10 = 0.2e1 * r0 * t7 <= p_a_zeta_threshold
t11 = p_a_zeta_threshold - 0.1e1
t14 = 0.2e1 * r1 * t7 <= p_a_zeta_threshold
t15 = -t11
t17 = (r0 - r1) * t7
t18 = lax_cond(t14, t15, t17)
t19 = lax_cond(t10, t11, t18)
t20 = 0.1e1 + t19
t22 = p_a_zeta_threshold ** (0.1e1 / 0.3e1)
t23 = t22 * p_a_zeta_threshold
t24 = t20 ** (0.1e1 / 0.3e1)
t26 = lax_cond(t20 <= p_a_zeta_threshold, t23, t24 * t20)
t27 = t6 ** (0.1e1 / 0.3e1)
t29 = 6 ** (0.1e1 / 0.3e1)
t31 = math.pi ** 2
t32 = t31 ** (0.1e1 / 0.3e1)
t33 = t32 ** 2
t35 = params_a_rpbe_mu * t29 / t33
t36 = r0 ** 2
t37 = r0 ** (0.1e1 / 0.3e1)
t38 = t37 ** 2
t42 = 0.1e1 / params_a_rpbe_kappa
t46 = math.exp(-t35 * s0 / t38 / t36 * t42 / 0.24e2)
t53 = lax_cond(r0 <= p_a_dens_threshold, 0, -0.3e1 / 0.8e1 * t5 * t26 * t27 * (0.1e1 + params_a_rpbe_kappa * (0.1e1 - t46)))
t55 = lax_cond(t10, t15, -t17)
t56 = lax_cond(t14, t11, t55)
t57 = 0.1e1 + t56
t59 = t57 ** (0.1e1 / 0.3e1)
t61 = lax_cond(t57 <= p_a_zeta_threshold, t23, t59 * t57)
t63 = r1 ** 2
t64 = r1 ** (0.1e1 / 0.3e1)
t65 = t64 ** 2
t72 = math.exp(-t35 * s2 / t65 / t63 * t42 / 0.24e2)
t79 = lax_cond(r1 <= p_a_dens_threshold, 0, -0.3e1 / 0.8e1 * t5 * t61 * t27 * (0.1e1 + params_a_rpbe_kappa * (0.1e1 - t72)))
res = t53 + t79
" unpol "t3 = 3 ** (0.1e1 / 0.3e1)
t4 = math.pi ** (0.1e1 / 0.3e1)
t7 = 0.1e1 <= p_a_zeta_threshold
t8 = p_a_zeta_threshold - 0.1e1
t10 = lax_cond(t7, -t8, 0)
t11 = lax_cond(t7, t8, t10)
t12 = 0.1e1 + t11
t14 = p_a_zeta_threshold ** (0.1e1 / 0.3e1)
t16 = t12 ** (0.1e1 / 0.3e1)
t18 = lax_cond(t12 <= p_a_zeta_threshold, t14 * p_a_zeta_threshold, t16 * t12)
t19 = r0 ** (0.1e1 / 0.3e1)
t21 = 6 ** (0.1e1 / 0.3e1)
t23 = math.pi ** 2
t24 = t23 ** (0.1e1 / 0.3e1)
t25 = t24 ** 2
t28 = 2 ** (0.1e1 / 0.3e1)
t29 = t28 ** 2
t31 = r0 ** 2
t32 = t19 ** 2
t40 = math.exp(-params_a_rpbe_mu * t21 / t25 * s0 * t29 / t32 / t31 / params_a_rpbe_kappa / 0.24e2)
t47 = lax_cond(r0 / 0.2e1 <= p_a_dens_threshold, 0, -0.3e1 / 0.8e1 * t3 / t4 * t18 * t19 * (0.1e1 + params_a_rpbe_kappa * (0.1e1 - t40)))
res = 0.2e1 * t47
"

/- gen_repo/impl/prebuilt/pol/gga_x_s12.py and gen_repo/impl/prebuilt/unpol/gga_x_s12.py -/
formula gga_x_s12 pol "t2 = 3 ** (0.1e1 / 0.3e1)
t3 = math.pi ** (0.1e1 / 0.3e1)
t5 = t2 / t3
t6 = r0 + r1
t7 = 0.1e1 / t6
t10 = 0.2e1 * r0 * t7 <= p_a_zeta_threshold
t11 = p_a_zeta_threshold - 0.1e1
t14 = 0.2e1 * r1 * t7 <= p_a_zeta_threshold
t15 = -t11
t17 = (r0 - r1) * t7
t18 = lax_cond(t14, t15, t17)
t19 = lax_cond(t10, t11, t18)
t20 = 0.1e1 + t19
t22 = p_a_zeta_threshold ** (0.1e1 / 0.3e1)
t23 = t22 * p_a_zeta_threshold
t24 = t20 ** (0.1e1 / 0.3e1)
t26 = lax_cond(t20 <= p_a_zeta_threshold, t23, t24 * t20)
t28 = t6 ** (0.1e1 / 0.3e1)
t29 = t28 * params_a_bx
t31 = r0 ** 2
t32 = r0 ** (0.1e1 / 0.3e1)
t33 = t32 ** 2
t35 = 0.1e1 / t33 / t31
t37 = s0 ** 2
t39 = t31 ** 2
t58 = lax_cond(r0 <= p_a_dens_threshold, 0, -0.3e1 / 0.8e1 * t5 * t26 * t29 * (params_a_A + params_a_B * (0.1e1 - 0.1e1 / (0.1e1 + params_a_C * s0 * t35 + params_a_D * t37 / t32 / t39 / r0)) * (0.1e1 - 0.1e1 / (params_a_E * s0 * t35 + 0.1e1))))
t60 = lax_cond(t10, t15, -t17)
t61 = lax_cond(t14, t11, t60)
t62 = 0.1e1 + t61
t64 = t62 ** (0.1e1 / 0.3e1)
t66 = lax_cond(t62 <= p_a_zeta_threshold, t23, t64 * t62)
t69 = r1 ** 2
t70 = r1 ** (0.1e1 / 0.3e1)
t71 = t70 ** 2
t73 = 0.1e1 / t71 / t69
t75 = s2 ** 2
t77 = t69 ** 2
t96 = lax_cond(r1 <= p_a_dens_threshold, 0, -0.3e1 / 0.8e1 * t5 * t66 * t29 * (params_a_A + params_a_B * (0.1e1 - 0.1e1 / (0.1e1 + params_a_C * s2 * t73 + params_a_D * t75 / t70 / t77 / r1)) * (0.1e1 - 0.1e1 / (params_a_E * s2 * t73 + 0.1e1))))
res = t58 + t96
" unpol "t3 = 3 ** (0.1e1 / 0.3e1)
t4 = math.pi ** (0.1e1 / 0.3e1)
t7 = 0.1e1 <= p_a_zeta_threshold
t8 = p_a_zeta_threshold - 0.1e1
t10 = lax_cond(t7, -t8, 0)
t11 = lax_cond(t7, t8, t10)
t12 = 0.1e1 + t11
t14 = p_a_zeta_threshold ** (0.1e1 / 0.3e1)
t16 = t12 ** (0.1e1 / 0.3e1)
t18 = lax_cond(t12 <= p_a_zeta_threshold, t14 * p_a_zeta_threshold, t16 * t12)
t20 = r0 ** (0.1e1 / 0.3e1)
t23 = 2 ** (0.1e1 / 0.3e1)
t24 = t23 ** 2
t25 = r0 ** 2
t26 = t20 ** 2
t29 = t24 / t26 / t25
t31 = s0 ** 2
t33 = t25 ** 2
t54 = lax_cond(r0 / 0.2e1 <= p_a_dens_threshold, 0, -0.3e1 / 0.8e1 * t3 / t4 * t18 * t20 * params_a_bx * (params_a_A + params_a_B * (0.1e1 - 0.1e1 / (0.1e1 + params_a_C * s0 * t29 + 0.2e1 * params_a_D * t31 * t23 / t20 / t33 / r0)) * (0.1e1 - 0.1e1 / (params_a_E * s0 * t29 + 0.1e1))))
res = 0.2e1 * t54
"

/- gen_repo/impl/prebuilt/pol/gga_x_sfat.py and gen_repo/impl/prebuilt/unpol/gga_x_sfat.py -/
formula gga_x_sfat pol "t2 = 3 ** (0.1e1 / 0.3e1)
t3 = math.pi ** (0.1e1 / 0.3e1)
t5 = t2 / t3
t6 = r0 + r1
t7 = 0.1e1 / t6
t10 = 0.2e1 * r0 * t7 <= p_a_zeta_threshold
t11 = p_a_zeta_threshold - 0.1e1
t14 = 0.2e1 * r1 * t7 <= p_a_zeta_threshold
t15 = -t11
t17 = (r0 - r1) * t7
t18 = lax_cond(t14, t15, t17)
t19 = lax_cond(t10, t11, t18)
t20 = 0.1e1 + t19
t22 = p_a_zeta_threshold ** (0.1e1 / 0.3e1)
t23 = t22 * p_a_zeta_threshold
t24 = t20 ** (0.1e1 / 0.3e1)
t26 = lax_cond(t20 <= p_a_zeta_threshold, t23, t24 * t20)
t28 = t6 ** (0.1e1 / 0.3e1)
t29 = t2 ** 2
t30 = math.pi * t29
t32 = (0.1e1 / math.pi) ** (0.1e1 / 0.3e1)
t33 = 0.1e1 / t32
t34 = 4 ** (0.1e1 / 0.3e1)
t35 = t33 * t34
t37 = t29 * t33 * t34
t38 = r0 ** 2
t39 = r0 ** (0.1e1 / 0.3e1)
t40 = t39 ** 2
t44 = math.sqrt(s0)
t47 = t44 / t39 / r0
t48 = math.asinh(t47)
t56 = 0.1e1 + 0.93333333333333333332e-3 * t37 * s0 / t40 / t38 / (0.1e1 + 0.2520e-1 * t47 * t48)
t60 = math.sqrt(t30 * t35 / t56)
t63 = 2 ** (0.1e1 / 0.3e1)
t65 = (t20 * t6) ** (0.1e1 / 0.3e1)
t69 = p_a_cam_omega / t60 * t63 / t65 / 0.2e1
t71 = 0.192e1 < t69
t72 = lax_cond(t71, t69, 0.192e1)
t73 = t72 ** 2
t74 = t73 ** 2
t77 = t74 * t73
t80 = t74 ** 2
t83 = t80 * t73
t86 = t80 * t74
t89 = t80 * t77
t92 = t80 ** 2
t116 = t92 ** 2
t127 = -0.1e1 / t74 / 0.30e2 + 0.1e1 / t77 / 0.70e2 - 0.1e1 / t80 / 0.135e3 + 0.1e1 / t83 / 0.231e3 - 0.1e1 / t86 / 0.364e3 + 0.1e1 / t89 / 0.540e3 - 0.1e1 / t92 / 0.765e3 + 0.1e1 / t92 / t73 / 0.1045e4 - 0.1e1 / t92 / t74 / 0.1386e4 + 0.1e1 / t92 / t77 / 0.1794e4 - 0.1e1 / t92 / t80 / 0.2275e4 + 0.1e1 / t92 / t83 / 0.2835e4 - 0.1e1 / t92 / t86 / 0.3480e4 + 0.1e1 / t92 / t89 / 0.4216e4 - 0.1e1 / t116 / 0.5049e4 + 0.1e1 / t116 / t73 / 0.5985e4 - 0.1e1 / t116 / t74 / 0.7030e4 + 0.1e1 / t73 / 0.9e1
t128 = lax_cond(t71, 0.192e1, t69)
t129 = math.atan2(0.1e1, t128)
t130 = t128 ** 2
t134 = math.log(0.1e1 + 0.1e1 / t130)
t143 = lax_cond(0.192e1 <= t69, t127, 0.1e1 - 0.8e1 / 0.3e1 * t128 * (t129 + t128 * (0.1e1 - (t130 + 0.3e1) * t134) / 0.4e1))
t148 = lax_cond(r0 <= p_a_dens_threshold, 0, -0.3e1 / 0.8e1 * t5 * t26 * t28 * t143 * t56)
t150 = lax_cond(t10, t15, -t17)
t151 = lax_cond(t14, t11, t150)
t152 = 0.1e1 + t151
t154 = t152 ** (0.1e1 / 0.3e1)
t156 = lax_cond(t152 <= p_a_zeta_threshold, t23, t154 * t152)
t158 = r1 ** 2
t159 = r1 ** (0.1e1 / 0.3e1)
t160 = t159 ** 2
t164 = math.sqrt(s2)
t167 = t164 / t159 / r1
t168 = math.asinh(t167)
t176 = 0.1e1 + 0.93333333333333333332e-3 * t37 * s2 / t160 / t158 / (0.1e1 + 0.2520e-1 * t167 * t168)
t180 = math.sqrt(t30 * t35 / t176)
t184 = (t152 * t6) ** (0.1e1 / 0.3e1)
t188 = p_a_cam_omega / t180 * t63 / t184 / 0.2e1
t190 = 0.192e1 < t188
t191 = lax_cond(t190, t188, 0.192e1)
t192 = t191 ** 2
t193 = t192 ** 2
t196 = t193 * t192
t199 = t193 ** 2
t202 = t199 * t192
t205 = t199 * t193
t208 = t199 * t196
t211 = t199 ** 2
t235 = t211 ** 2
t246 = -0.1e1 / t193 / 0.30e2 + 0.1e1 / t196 / 0.70e2 - 0.1e1 / t199 / 0.135e3 + 0.1e1 / t202 / 0.231e3 - 0.1e1 / t205 / 0.364e3 + 0.1e1 / t208 / 0.540e3 - 0.1e1 / t211 / 0.765e3 + 0.1e1 / t211 / t192 / 0.1045e4 - 0.1e1 / t211 / t193 / 0.1386e4 + 0.1e1 / t211 / t196 / 0.1794e4 - 0.1e1 / t211 / t199 / 0.2275e4 + 0.1e1 / t211 / t202 / 0.2835e4 - 0.1e1 / t211 / t205 / 0.3480e4 + 0.1e1 / t211 / t208 / 0.4216e4 - 0.1e1 / t235 / 0.5049e4 + 0.1e1 / t235 / t192 / 0.5985e4 - 0.1e1 / t235 / t193 / 0.7030e4 + 0.1e1 / t192 / 0.9e1
t247 = lax_cond(t190, 0.192e1, t188)
t248 = math.atan2(0.1e1, t247)
t249 = t247 ** 2
t253 = math.log(0.1e1 + 0.1e1 / t249)
t262 = lax_cond(0.192e1 <= t188, t246, 0.1e1 - 0.8e1 / 0.3e1 * t247 * (t248 + t247 * (0.1e1 - (t249 + 0.3e1) * t253) / 0.4e1))
t267 = lax_cond(r1 <= p_a_dens_threshold, 0, -0.3e1 / 0.8e1 * t5 * t156 * t28 * t262 * t176)
res = t148 + t267
" unpol "t3 = 3 ** (0.1e1 / 0.3e1)
t4 = math.pi ** (0.1e1 / 0.3e1)
t7 = 0.1e1 <= p_a_zeta_threshold
t8 = p_a_zeta_threshold - 0.1e1
t10 = lax_cond(t7, -t8, 0)
t11 = lax_cond(t7, t8, t10)
t12 = 0.1e1 + t11
t14 = p_a_zeta_threshold ** (0.1e1 / 0.3e1)
t16 = t12 ** (0.1e1 / 0.3e1)
t18 = lax_cond(t12 <= p_a_zeta_threshold, t14 * p_a_zeta_threshold, t16 * t12)
t20 = r0 ** (0.1e1 / 0.3e1)
t21 = t3 ** 2
t24 = (0.1e1 / math.pi) ** (0.1e1 / 0.3e1)
t25 = 0.1e1 / t24
t26 = 4 ** (0.1e1 / 0.3e1)
t30 = 2 ** (0.1e1 / 0.3e1)
t31 = t30 ** 2
t33 = r0 ** 2
t34 = t20 ** 2
t37 = math.sqrt(s0)
t38 = t37 * t30
t40 = 0.1e1 / t20 / r0
t42 = math.asinh(t38 * t40)
t52 = 0.1e1 + 0.93333333333333333332e-3 * t21 * t25 * t26 * s0 * t31 / t34 / t33 / (0.1e1 + 0.2520e-1 * t38 * t40 * t42)
t56 = math.sqrt(math.pi * t21 * t25 * t26 / t52)
t60 = (t12 * r0) ** (0.1e1 / 0.3e1)
t64 = p_a_cam_omega / t56 * t30 / t60 / 0.2e1
t66 = 0.192e1 < t64
t67 = lax_cond(t66, t64, 0.192e1)
t68 = t67 ** 2
t69 = t68 ** 2
t72 = t69 * t68
t75 = t69 ** 2
t78 = t75 * t68
t81 = t75 * t69
t84 = t75 * t72
t87 = t75 ** 2
t111 = t87 ** 2
t122 = -0.1e1 / t69 / 0.30e2 + 0.1e1 / t72 / 0.70e2 - 0.1e1 / t75 / 0.135e3 + 0.1e1 / t78 / 0.231e3 - 0.1e1 / t81 / 0.364e3 + 0.1e1 / t84 / 0.540e3 - 0.1e1 / t87 / 0.765e3 + 0.1e1 / t87 / t68 / 0.1045e4 - 0.1e1 / t87 / t69 / 0.1386e4 + 0.1e1 / t87 / t72 / 0.1794e4 - 0.1e1 / t87 / t75 / 0.2275e4 + 0.1e1 / t87 / t78 / 0.2835e4 - 0.1e1 / t87 / t81 / 0.3480e4 + 0.1e1 / t87 / t84 / 0.4216e4 - 0.1e1 / t111 / 0.5049e4 + 0.1e1 / t111 / t68 / 0.5985e4 - 0.1e1 / t111 / t69 / 0.7030e4 + 0.1e1 / t68 / 0.9e1
t123 = lax_cond(t66, 0.192e1, t64)
t124 = math.atan2(0.1e1, t123)
t125 = t123 ** 2
t129 = math.log(0.1e1 + 0.1e1 / t125)
t138 = lax_cond(0.192e1 <= t64, t122, 0.1e1 - 0.8e1 / 0.3e1 * t123 * (t124 + t123 * (0.1e1 - (t125 + 0.3e1) * t129) / 0.4e1))
t143 = lax_cond(r0 / 0.2e1 <= p_a_dens_threshold, 0, -0.3e1 / 0.8e1 * t3 / t4 * t18 * t20 * t138 * t52)
res = 0.2e1 * t143
"

/- gen_repo/impl/prebuilt/pol/gga_x_sfat_pbe.py and gen_repo/impl/prebuilt/unpol/gga_x_sfat_pbe.py -/
formula gga_x_sfat_pbe pol "t2 = 3 ** (0.1e1 / 0.3e1)
t3 = math.pi ** (0.1e1 / 0.3e1)
t5 = t2 / t3
t6 = r0 + r1
t7 = 0.1e1 / t6
t10 = 0.2e1 * r0 * t7 <= p_a_zeta_threshold
t11 = p_a_zeta_threshold - 0.1e1
t14 = 0.2e1 * r1 * t7 <= p_a_zeta_threshold
t15 = -t11
t17 = (r0 - r1) * t7
t18 = lax_cond(t14, t15, t17)
t19 = lax_cond(t10, t11, t18)
t20 = 0.1e1 + t19
t22 = p_a_zeta_threshold ** (0.1e1 / 0.3e1)
t23 = t22 * p_a_zeta_threshold
t24 = t20 ** (0.1e1 / 0.3e1)
t26 = lax_cond(t20 <= p_a_zeta_threshold, t23, t24 * t20)
t28 = t6 ** (0.1e1 / 0.3e1)
t29 = t2 ** 2
t30 = math.pi * t29
t32 = (0.1e1 / math.pi) ** (0.1e1 / 0.3e1)
t34 = 4 ** (0.1e1 / 0.3e1)
t35 = 0.1e1 / t32 * t34
t36 = 6 ** (0.1e1 / 0.3e1)
t37 = math.pi ** 2
t38 = t37 ** (0.1e1 / 0.3e1)
t39 = t38 ** 2
t41 = t36 / t39
t42 = r0 ** 2
t43 = r0 ** (0.1e1 / 0.3e1)
t44 = t43 ** 2
t53 = 0.18040e1 - 0.64641600e0 / (0.8040e0 + 0.91464571985215458336e-2 * t41 * s0 / t44 / t42)
t57 = math.sqrt(t30 * t35 / t53)
t60 = 2 ** (0.1e1 / 0.3e1)
t62 = (t20 * t6) ** (0.1e1 / 0.3e1)
t66 = p_a_cam_omega / t57 * t60 / t62 / 0.2e1
t68 = 0.192e1 < t66
t69 = lax_cond(t68, t66, 0.192e1)
t70 = t69 ** 2
t71 = t70 ** 2
t74 = t71 * t70
t77 = t71 ** 2
t80 = t77 * t70
t83 = t77 * t71
t86 = t77 * t74
t89 = t77 ** 2
t113 = t89 ** 2
t124 = -0.1e1 / t71 / 0.30e2 + 0.1e1 / t74 / 0.70e2 - 0.1e1 / t77 / 0.135e3 + 0.1e1 / t80 / 0.231e3 - 0.1e1 / t83 / 0.364e3 + 0.1e1 / t86 / 0.540e3 - 0.1e1 / t89 / 0.765e3 + 0.1e1 / t89 / t70 / 0.1045e4 - 0.1e1 / t89 / t71 / 0.1386e4 + 0.1e1 / t89 / t74 / 0.1794e4 - 0.1e1 / t89 / t77 / 0.2275e4 + 0.1e1 / t89 / t80 / 0.2835e4 - 0.1e1 / t89 / t83 / 0.3480e4 + 0.1e1 / t89 / t86 / 0.4216e4 - 0.1e1 / t113 / 0.5049e4 + 0.1e1 / t113 / t70 / 0.5985e4 - 0.1e1 / t113 / t71 / 0.7030e4 + 0.1e1 / t70 / 0.9e1
t125 = lax_cond(t68, 0.192e1, t66)
t126 = math.atan2(0.1e1, t125)
t127 = t125 ** 2
t131 = math.log(0.1e1 + 0.1e1 / t127)
t140 = lax_cond(0.192e1 <= t66, t124, 0.1e1 - 0.8e1 / 0.3e1 * t125 * (t126 + t125 * (0.1e1 - (t127 + 0.3e1) * t131) / 0.4e1))
t145 = lax_cond(r0 <= p_a_dens_threshold, 0, -0.3e1 / 0.8e1 * t5 * t26 * t28 * t140 * t53)
t147 = lax_cond(t10, t15, -t17)
t148 = lax_cond(t14, t11, t147)
t149 = 0.1e1 + t148
t151 = t149 ** (0.1e1 / 0.3e1)
t153 = lax_cond(t149 <= p_a_zeta_threshold, t23, t151 * t149)
t155 = r1 ** 2
t156 = r1 ** (0.1e1 / 0.3e1)
t157 = t156 ** 2
t166 = 0.18040e1 - 0.64641600e0 / (0.8040e0 + 0.91464571985215458336e-2 * t41 * s2 / t157 / t155)
t170 = math.sqrt(t30 * t35 / t166)
t174 = (t149 * t6) ** (0.1e1 / 0.3e1)
t178 = p_a_cam_omega / t170 * t60 / t174 / 0.2e1
t180 = 0.192e1 < t178
t181 = lax_cond(t180, t178, 0.192e1)
t182 = t181 ** 2
t183 = t182 ** 2
t186 = t183 * t182
t189 = t183 ** 2
t192 = t189 * t182
t195 = t189 * t183
t198 = t189 * t186
t201 = t189 ** 2
t225 = t201 ** 2
t236 = -0.1e1 / t183 / 0.30e2 + 0.1e1 / t186 / 0.70e2 - 0.1e1 / t189 / 0.135e3 + 0.1e1 / t192 / 0.231e3 - 0.1e1 / t195 / 0.364e3 + 0.1e1 / t198 / 0.540e3 - 0.1e1 / t201 / 0.765e3 + 0.1e1 / t201 / t182 / 0.1045e4 - 0.1e1 / t201 / t183 / 0.1386e4 + 0.1e1 / t201 / t186 / 0.1794e4 - 0.1e1 / t201 / t189 / 0.2275e4 + 0.1e1 / t201 / t192 / 0.2835e4 - 0.1e1 / t201 / t195 / 0.3480e4 + 0.1e1 / t201 / t198 / 0.4216e4 - 0.1e1 / t225 / 0.5049e4 + 0.1e1 / t225 / t182 / 0.5985e4 - 0.1e1 / t225 / t183 / 0.7030e4 + 0.1e1 / t182 / 0.9e1
t237 = lax_cond(t180, 0.192e1, t178)
t238 = math.atan2(0.1e1, t237)
t239 = t237 ** 2
t243 = math.log(0.1e1 + 0.1e1 / t239)
t252 = lax_cond(0.192e1 <= t178, t236, 0.1e1 - 0.8e1 / 0.3e1 * t237 * (t238 + t237 * (0.1e1 - (t239 + 0.3e1) * t243) / 0.4e1))
t257 = lax_cond(r1 <= p_a_dens_threshold, 0, -0.3e1 / 0.8e1 * t5 * t153 * t28 * t252 * t166)
res = t145 + t257
" unpol "t3 = 3 ** (0.1e1 / 0.3e1)
t4 = math.pi ** (0.1e1 / 0.3e1)
t7 = 0.1e1 <= p_a_zeta_threshold
t8 = p_a_zeta_threshold - 0.1e1
t10 = lax_cond(t7, -t8, 0)
t11 = lax_cond(t7, t8, t10)
t12 = 0.1e1 + t11
t14 = p_a_zeta_threshold ** (0.1e1 / 0.3e1)
t16 = t12 ** (0.1e1 / 0.3e1)
t18 = lax_cond(t12 <= p_a_zeta_threshold, t14 * p_a_zeta_threshold, t16 * t12)
t20 = r0 ** (0.1e1 / 0.3e1)
t21 = t3 ** 2
t24 = (0.1e1 / math.pi) ** (0.1e1 / 0.3e1)
t26 = 4 ** (0.1e1 / 0.3e1)
t28 = 6 ** (0.1e1 / 0.3e1)
t29 = math.pi ** 2
t30 = t29 ** (0.1e1 / 0.3e1)
t31 = t30 ** 2
t34 = 2 ** (0.1e1 / 0.3e1)
t35 = t34 ** 2
t37 = r0 ** 2
t38 = t20 ** 2
t47 = 0.18040e1 - 0.64641600e0 / (0.8040e0 + 0.91464571985215458336e-2 * t28 / t31 * s0 * t35 / t38 / t37)
t51 = math.sqrt(math.pi * t21 / t24 * t26 / t47)
t55 = (t12 * r0) ** (0.1e1 / 0.3e1)
t59 = p_a_cam_omega / t51 * t34 / t55 / 0.2e1
t61 = 0.192e1 < t59
t62 = lax_cond(t61, t59, 0.192e1)
t63 = t62 ** 2
t64 = t63 ** 2
t67 = t64 * t63
t70 = t64 ** 2
t73 = t70 * t63
t76 = t70 * t64
t79 = t70 * t67
t82 = t70 ** 2
t106 = t82 ** 2
t117 = -0.1e1 / t64 / 0.30e2 + 0.1e1 / t67 / 0.70e2 - 0.1e1 / t70 / 0.135e3 + 0.1e1 / t73 / 0.231e3 - 0.1e1 / t76 / 0.364e3 + 0.1e1 / t79 / 0.540e3 - 0.1e1 / t82 / 0.765e3 + 0.1e1 / t82 / t63 / 0.1045e4 - 0.1e1 / t82 / t64 / 0.1386e4 + 0.1e1 / t82 / t67 / 0.1794e4 - 0.1e1 / t82 / t70 / 0.2275e4 + 0.1e1 / t82 / t73 / 0.2835e4 - 0.1e1 / t82 / t76 / 0.3480e4 + 0.1e1 / t82 / t79 / 0.4216e4 - 0.1e1 / t106 / 0.5049e4 + 0.1e1 / t106 / t63 / 0.5985e4 - 0.1e1 / t106 / t64 / 0.7030e4 + 0.1e1 / t63 / 0.9e1
t118 = lax_cond(t61, 0.192e1, t59)
t119 = math.atan2(0.1e1, t118)
t120 = t118 ** 2
t124 = math.log(0.1e1 + 0.1e1 / t120)
t133 = lax_cond(0.192e1 <= t59, t117, 0.1e1 - 0.8e1 / 0.3e1 * t118 * (t119 + t118 * (0.1e1 - (t120 + 0.3e1) * t124) / 0.4e1))
t138 = lax_cond(r0 / 0.2e1 <= p_a_dens_threshold, 0, -0.3e1 / 0.8e1 * t3 / t4 * t18 * t20 * t133 * t47)
res = 0.2e1 * t138
"

/- gen_repo/impl/prebuilt/pol/gga_x_sg4.py and gen_repo/impl/prebuilt/unpol/gga_x_sg4.py -/
formula gga_x_sg4 pol "t2 = 3 ** (0.1e1 / 0.3e1)
t3 = math.pi ** (0.1e1 / 0.3e1)
t5 = t2 / t3
t6 = r0 + r1
t7 = 0.1e1 / t6
t10 = 0.2e1 * r0 * t7 <= p_a_zeta_threshold
t11 = p_a_zeta_threshold - 0.1e1
t14 = 0.2e1 * r1 * t7 <= p_a_zeta_threshold
t15 = -t11
t17 = (r0 - r1) * t7
t18 = lax_cond(t14, t15, t17)
t19 = lax_cond(t10, t11, t18)
t20 = 0.1e1 + t19
t22 = p_a_zeta_threshold ** (0.1e1 / 0.3e1)
t23 = t22 * p_a_zeta_threshold
t24 = t20 ** (0.1e1 / 0.3e1)
t26 = lax_cond(t20 <= p_a_zeta_threshold, t23, t24 * t20)
t27 = t6 ** (0.1e1 / 0.3e1)
t29 = 6 ** (0.1e1 / 0.3e1)
t30 = math.pi ** 2
t31 = t30 ** (0.1e1 / 0.3e1)
t32 = t31 ** 2
t34 = t29 / t32
t35 = r0 ** 2
t36 = r0 ** (0.1e1 / 0.3e1)
t37 = t36 ** 2
t41 = t34 * s0 / t37 / t35
t44 = t29 ** 2
t45 = t30 ** 2
t49 = t44 / t31 / t45 / t30
t50 = s0 ** 2
t51 = t50 ** 2
t53 = t35 ** 2
t55 = t53 ** 2
t74 = lax_cond(r0 <= p_a_dens_threshold, 0, -0.3e1 / 0.8e1 * t5 * t26 * t27 * (0.18040000000000000000e1 - 0.56028717948717948718e0 * (0.1e1 - 0.31233982573039466940e-2 * t41) / (0.1e1 - 0.17835614159590036509e-11 * t49 * t51 * s0 / t36 / t55 / t53 / r0) - 0.24371282051282051282e0 / (0.1e1 + 0.37270642201834862386e-1 * t41)))
t76 = lax_cond(t10, t15, -t17)
t77 = lax_cond(t14, t11, t76)
t78 = 0.1e1 + t77
t80 = t78 ** (0.1e1 / 0.3e1)
t82 = lax_cond(t78 <= p_a_zeta_threshold, t23, t80 * t78)
t84 = r1 ** 2
t85 = r1 ** (0.1e1 / 0.3e1)
t86 = t85 ** 2
t90 = t34 * s2 / t86 / t84
t93 = s2 ** 2
t94 = t93 ** 2
t96 = t84 ** 2
t98 = t96 ** 2
t117 = lax_cond(r1 <= p_a_dens_threshold, 0, -0.3e1 / 0.8e1 * t5 * t82 * t27 * (0.18040000000000000000e1 - 0.56028717948717948718e0 * (0.1e1 - 0.31233982573039466940e-2 * t90) / (0.1e1 - 0.17835614159590036509e-11 * t49 * t94 * s2 / t85 / t98 / t96 / r1) - 0.24371282051282051282e0 / (0.1e1 + 0.37270642201834862386e-1 * t90)))
res = t74 + t117
" unpol "t3 = 3 ** (0.1e1 / 0.3e1)
t4 = math.pi ** (0.1e1 / 0.3e1)
t7 = 0.1e1 <= p_a_zeta_threshold
t8 = p_a_zeta_threshold - 0.1e1
t10 = lax_cond(t7, -t8, 0)
t11 = lax_cond(t7, t8, t10)
t12 = 0.1e1 + t11
t14 = p_a_zeta_threshold ** (0.1e1 / 0.3e1)
t16 = t12 ** (0.1e1 / 0.3e1)
t18 = lax_cond(t12 <= p_a_zeta_threshold, t14 * p_a_zeta_threshold, t16 * t12)
t19 = r0 ** (0.1e1 / 0.3e1)
t21 = 6 ** (0.1e1 / 0.3e1)
t22 = math.pi ** 2
t23 = t22 ** (0.1e1 / 0.3e1)
t24 = t23 ** 2
t27 = 2 ** (0.1e1 / 0.3e1)
t28 = t27 ** 2
t30 = r0 ** 2
t31 = t19 ** 2
t35 = t21 / t24 * s0 * t28 / t31 / t30
t38 = t21 ** 2
t39 = t22 ** 2
t44 = s0 ** 2
t45 = t44 ** 2
t48 = t30 ** 2
t50 = t48 ** 2
t69 = lax_cond(r0 / 0.2e1 <= p_a_dens_threshold, 0, -0.3e1 / 0.8e1 * t3 / t4 * t18 * t19 * (0.18040000000000000000e1 - 0.56028717948717948718e0 * (0.1e1 - 0.31233982573039466940e-2 * t35) / (0.1e1 - 0.14268491327672029207e-10 * t38 / t23 / t39 / t22 * t45 * s0 * t27 / t19 / t50 / t48 / r0) - 0.24371282051282051282e0 / (0.1e1 + 0.37270642201834862386e-1 * t35)))
res = 0.2e1 * t69
"

/- gen_repo/impl/prebuilt/pol/gga_x_sogga11.py and gen_repo/impl/prebuilt/unpol/gga_x_sogga11.py -/
formula gga_x_sogga11 pol "t2 = 3 ** (0.1e1 / 0.3e1)
t3 = math.pi ** (0.1e1 / 0.3e1)
t5 = t2 / t3
t6 = r0 + r1
t7 = 0.1e1 / t6
t10 = 0.2e1 * r0 * t7 <= p_a_zeta_threshold
t11 = p_a_zeta_threshold - 0.1e1
t14 = 0.2e1 * r1 * t7 <= p_a_zeta_threshold
t15 = -t11
t17 = (r0 - r1) * t7
t18 = lax_cond(t14, t15, t17)
t19 = lax_cond(t10, t11, t18)
t20 = 0.1e1 + t19
t22 = p_a_zeta_threshold ** (0.1e1 / 0.3e1)
t23 = t22 * p_a_zeta_threshold
t24 = t20 ** (0.1e1 / 0.3e1)
t26 = lax_cond(t20 <= p_a_zeta_threshold, t23, t24 * t20)
t27 = t6 ** (0.1e1 / 0.3e1)
t29 = params_a_a[0]
t30 = params_a_a[1]
t31 = 6 ** (0.1e1 / 0.3e1)
t33 = math.pi ** 2
t34 = t33 ** (0.1e1 / 0.3e1)
t35 = t34 ** 2
t37 = params_a_mu * t31 / t35
t38 = 0.1e1 / params_a_kappa
t40 = r0 ** 2
t41 = r0 ** (0.1e1 / 0.3e1)
t42 = t41 ** 2
t47 = t37 * t38 * s0 / t42 / t40 / 0.24e2
t50 = 0.1e1 - 0.1e1 / (0.1e1 + t47)
t52 = params_a_a[2]
t53 = t50 ** 2
t55 = params_a_a[3]
t58 = params_a_a[4]
t59 = t53 ** 2
t61 = params_a_a[5]
t64 = params_a_b[0]
t65 = params_a_b[1]
t66 = math.exp(-t47)
t67 = 0.1e1 - t66
t69 = params_a_b[2]
t70 = t67 ** 2
t72 = params_a_b[3]
t75 = params_a_b[4]
t76 = t70 ** 2
t78 = params_a_b[5]
t81 = t55 * t53 * t50 + t61 * t59 * t50 + t72 * t70 * t67 + t78 * t76 * t67 + t30 * t50 + t52 * t53 + t58 * t59 + t65 * t67 + t69 * t70 + t75 * t76 + t29 + t64
t85 = lax_cond(r0 <= p_a_dens_threshold, 0, -0.3e1 / 0.8e1 * t5 * t26 * t27 * t81)
t87 = lax_cond(t10, t15, -t17)
t88 = lax_cond(t14, t11, t87)
t89 = 0.1e1 + t88
t91 = t89 ** (0.1e1 / 0.3e1)
t93 = lax_cond(t89 <= p_a_zeta_threshold, t23, t91 * t89)
t96 = r1 ** 2
t97 = r1 ** (0.1e1 / 0.3e1)
t98 = t97 ** 2
t103 = t37 * t38 * s2 / t98 / t96 / 0.24e2
t106 = 0.1e1 - 0.1e1 / (0.1e1 + t103)
t108 = t106 ** 2
t112 = t108 ** 2
t116 = math.exp(-t103)
t117 = 0.1e1 - t116
t119 = t117 ** 2
t123 = t119 ** 2
t127 = t55 * t108 * t106 + t61 * t112 * t106 + t72 * t119 * t117 + t78 * t123 * t117 + t30 * t106 + t52 * t108 + t58 * t112 + t65 * t117 + t69 * t119 + t75 * t123 + t29 + t64
t131 = lax_cond(r1 <= p_a_dens_threshold, 0, -0.3e1 / 0.8e1 * t5 * t93 * t27 * t127)
res = t85 + t131
" unpol "t3 = 3 ** (0.1e1 / 0.3e1)
t4 = math.pi ** (0.1e1 / 0.3e1)
t7 = 0.1e1 <= p_a_zeta_threshold
t8 = p_a_zeta_threshold - 0.1e1
t10 = lax_cond(t7, -t8, 0)
t11 = lax_cond(t7, t8, t10)
t12 = 0.1e1 + t11
t14 = p_a_zeta_threshold ** (0.1e1 / 0.3e1)
t16 = t12 ** (0.1e1 / 0.3e1)
t18 = lax_cond(t12 <= p_a_zeta_threshold, t14 * p_a_zeta_threshold, t16 * t12)
t19 = r0 ** (0.1e1 / 0.3e1)
t23 = 6 ** (0.1e1 / 0.3e1)
t25 = math.pi ** 2
t26 = t25 ** (0.1e1 / 0.3e1)
t27 = t26 ** 2
t32 = 2 ** (0.1e1 / 0.3e1)
t33 = t32 ** 2
t34 = r0 ** 2
t35 = t19 ** 2
t41 = params_a_mu * t23 / t27 / params_a_kappa * s0 * t33 / t35 / t34 / 0.24e2
t44 = 0.1e1 - 0.1e1 / (0.1e1 + t41)
t47 = t44 ** 2
t53 = t47 ** 2
t60 = math.exp(-t41)
t61 = 0.1e1 - t60
t64 = t61 ** 2
t70 = t64 ** 2
t75 = params_a_a[3] * t47 * t44 + params_a_a[5] * t53 * t44 + params_a_b[3] * t64 * t61 + params_a_b[5] * t70 * t61 + params_a_a[1] * t44 + params_a_a[2] * t47 + params_a_a[4] * t53 + params_a_b[1] * t61 + params_a_b[2] * t64 + params_a_b[4] * t70 + params_a_a[0] + params_a_b[0]
t79 = lax_cond(r0 / 0.2e1 <= p_a_dens_threshold, 0, -0.3e1 / 0.8e1 * t3 / t4 * t18 * t19 * t75)
res = 0.2e1 * t79
"

/- gen_repo/impl/prebuilt/pol/gga_x_ssb_sw.py and gen_repo/impl/prebuilt/unpol/gga_x_ssb_sw.py -/
formula gga_x_ssb_sw pol "t2 = 3 ** (0.1e1 / 0.3e1)
t3 = math.pi ** (0.1e1 / 0.3e1)
t5 = t2 / t3
t6 = r0 + r1
t7 = 0.1e1 / t6
t10 = 0.2e1 * r0 * t7 <= p_a_zeta_threshold
t11 = p_a_zeta_threshold - 0.1e1
t14 = 0.2e1 * r1 * t7 <= p_a_zeta_threshold
t15 = -t11
t17 = (r0 - r1) * t7
t18 = lax_cond(t14, t15, t17)
t19 = lax_cond(t10, t11, t18)
t20 = 0.1e1 + t19
t22 = p_a_zeta_threshold ** (0.1e1 / 0.3e1)
t23 = t22 * p_a_zeta_threshold
t24 = t20 ** (0.1e1 / 0.3e1)
t26 = lax_cond(t20 <= p_a_zeta_threshold, t23, t24 * t20)
t27 = t6 ** (0.1e1 / 0.3e1)
t29 = 6 ** (0.1e1 / 0.3e1)
t31 = math.pi ** 2
t32 = t31 ** (0.1e1 / 0.3e1)
t33 = t32 ** 2
t34 = 0.1e1 / t33
t35 = params_a_B * t29 * t34
t36 = r0 ** 2
t37 = r0 ** (0.1e1 / 0.3e1)
t38 = t37 ** 2
t40 = 0.1e1 / t38 / t36
t41 = s0 * t40
t42 = params_a_C * t29
t53 = params_a_D * t29 * t34
t54 = t29 ** 2
t55 = params_a_E * t54
t57 = 0.1e1 / t32 / t31
t58 = s0 ** 2
t60 = t36 ** 2
t76 = lax_cond(r0 <= p_a_dens_threshold, 0, -0.3e1 / 0.8e1 * t5 * t26 * t27 * (params_a_A + t35 * t41 / (0.1e1 + t42 * t34 * s0 * t40 / 0.24e2) / 0.24e2 - t53 * t41 / (0.1e1 + t55 * t57 * t58 / t37 / t60 / r0 / 0.576e3) / 0.24e2))
t78 = lax_cond(t10, t15, -t17)
t79 = lax_cond(t14, t11, t78)
t80 = 0.1e1 + t79
t82 = t80 ** (0.1e1 / 0.3e1)
t84 = lax_cond(t80 <= p_a_zeta_threshold, t23, t82 * t80)
t86 = r1 ** 2
t87 = r1 ** (0.1e1 / 0.3e1)
t88 = t87 ** 2
t90 = 0.1e1 / t88 / t86
t91 = s2 * t90
t101 = s2 ** 2
t103 = t86 ** 2
t119 = lax_cond(r1 <= p_a_dens_threshold, 0, -0.3e1 / 0.8e1 * t5 * t84 * t27 * (params_a_A + t35 * t91 / (0.1e1 + t42 * t34 * s2 * t90 / 0.24e2) / 0.24e2 - t53 * t91 / (0.1e1 + t55 * t57 * t101 / t87 / t103 / r1 / 0.576e3) / 0.24e2))
res = t76 + t119
" unpol "t3 = 3 ** (0.1e1 / 0.3e1)
t4 = math.pi ** (0.1e1 / 0.3e1)
t7 = 0.1e1 <= p_a_zeta_threshold
t8 = p_a_zeta_threshold - 0.1e1
t10 = lax_cond(t7, -t8, 0)
t11 = lax_cond(t7, t8, t10)
t12 = 0.1e1 + t11
t14 = p_a_zeta_threshold ** (0.1e1 / 0.3e1)
t16 = t12 ** (0.1e1 / 0.3e1)
t18 = lax_cond(t12 <= p_a_zeta_threshold, t14 * p_a_zeta_threshold, t16 * t12)
t19 = r0 ** (0.1e1 / 0.3e1)
t21 = 6 ** (0.1e1 / 0.3e1)
t23 = math.pi ** 2
t24 = t23 ** (0.1e1 / 0.3e1)
t25 = t24 ** 2
t26 = 0.1e1 / t25
t28 = 2 ** (0.1e1 / 0.3e1)
t29 = t28 ** 2
t30 = s0 * t29
t31 = r0 ** 2
t32 = t19 ** 2
t34 = 0.1e1 / t32 / t31
t48 = t21 ** 2
t53 = s0 ** 2
t55 = t31 ** 2
t72 = lax_cond(r0 / 0.2e1 <= p_a_dens_threshold, 0, -0.3e1 / 0.8e1 * t3 / t4 * t18 * t19 * (params_a_A + params_a_B * t21 * t26 * t30 * t34 / (0.1e1 + params_a_C * t21 * t26 * t30 * t34 / 0.24e2) / 0.24e2 - params_a_D * t21 * t26 * t30 * t34 / (0.1e1 + params_a_E * t48 / t24 / t23 * t53 * t28 / t19 / t55 / r0 / 0.288e3) / 0.24e2))
res = 0.2e1 * t72
"

/- gen_repo/impl/prebuilt/pol/gga_x_vmt.py and gen_repo/impl/prebuilt/unpol/gga_x_vmt.py -/
formula gga_x_vmt pol "t2 = 3 ** (0.1e1 / 0.3e1)
t3 = math.pi ** (0.1e1 / 0.3e1)
t5 = t2 / t3
t6 = r0 + r1
t7 = 0.1e1 / t6
t10 = 0.2e1 * r0 * t7 <= p_a_zeta_threshold
t11 = p_a_zeta_threshold - 0.1e1
t14 = 0.2e1 * r1 * t7 <= p_a_zeta_threshold
t15 = -t11
t17 = (r0 - r1) * t7
t18 = lax_cond(t14, t15, t17)
t19 = lax_cond(t10, t11, t18)
t20 = 0.1e1 + t19
t22 = p_a_zeta_threshold ** (0.1e1 / 0.3e1)
t23 = t22 * p_a_zeta_threshold
t24 = t20 ** (0.1e1 / 0.3e1)
t26 = lax_cond(t20 <= p_a_zeta_threshold, t23, t24 * t20)
t27 = t6 ** (0.1e1 / 0.3e1)
t29 = 6 ** (0.1e1 / 0.3e1)
t30 = params_a_mu * t29
t31 = math.pi ** 2
t32 = t31 ** (0.1e1 / 0.3e1)
t33 = t32 ** 2
t34 = 0.1e1 / t33
t35 = t30 * t34
t36 = r0 ** 2
t37 = r0 ** (0.1e1 / 0.3e1)
t38 = t37 ** 2
t40 = 0.1e1 / t38 / t36
t42 = params_a_alpha * t29
t44 = t34 * s0 * t40
t47 = math.exp(-t42 * t44 / 0.24e2)
t60 = lax_cond(r0 <= p_a_dens_threshold, 0, -0.3e1 / 0.8e1 * t5 * t26 * t27 * (0.1e1 + t35 * s0 * t40 * t47 / (0.1e1 + t30 * t44 / 0.24e2) / 0.24e2))
t62 = lax_cond(t10, t15, -t17)
t63 = lax_cond(t14, t11, t62)
t64 = 0.1e1 + t63
t66 = t64 ** (0.1e1 / 0.3e1)
t68 = lax_cond(t64 <= p_a_zeta_threshold, t23, t66 * t64)
t70 = r1 ** 2
t71 = r1 ** (0.1e1 / 0.3e1)
t72 = t71 ** 2
t74 = 0.1e1 / t72 / t70
t77 = t34 * s2 * t74
t80 = math.exp(-t42 * t77 / 0.24e2)
t93 = lax_cond(r1 <= p_a_dens_threshold, 0, -0.3e1 / 0.8e1 * t5 * t68 * t27 * (0.1e1 + t35 * s2 * t74 * t80 / (0.1e1 + t30 * t77 / 0.24e2) / 0.24e2))
res = t60 + t93
" unpol "t3 = 3 ** (0.1e1 / 0.3e1)
t4 = math.pi ** (0.1e1 / 0.3e1)
t7 = 0.1e1 <= p_a_zeta_threshold
t8 = p_a_zeta_threshold - 0.1e1
t10 = lax_cond(t7, -t8, 0)
t11 = lax_cond(t7, t8, t10)
t12 = 0.1e1 + t11
t14 = p_a_zeta_threshold ** (0.1e1 / 0.3e1)
t16 = t12 ** (0.1e1 / 0.3e1)
t18 = lax_cond(t12 <= p_a_zeta_threshold, t14 * p_a_zeta_threshold, t16 * t12)
t19 = r0 ** (0.1e1 / 0.3e1)
t21 = 6 ** (0.1e1 / 0.3e1)
t22 = params_a_mu * t21
t23 = math.pi ** 2
t24 = t23 ** (0.1e1 / 0.3e1)
t25 = t24 ** 2
t26 = 0.1e1 / t25
t29 = 2 ** (0.1e1 / 0.3e1)
t30 = t29 ** 2
t31 = r0 ** 2
t32 = t19 ** 2
t34 = 0.1e1 / t32 / t31
t39 = s0 * t30 * t34
t42 = math.exp(-params_a_alpha * t21 * t26 * t39 / 0.24e2)
t56 = lax_cond(r0 / 0.2e1 <= p_a_dens_threshold, 0, -0.3e1 / 0.8e1 * t3 / t4 * t18 * t19 * (0.1e1 + t22 * t26 * s0 * t30 * t34 * t42 / (0.1e1 + t22 * t26 * t39 / 0.24e2) / 0.24e2))
res = 0.2e1 * t56
"

/- gen_repo/impl/prebuilt/pol/gga_x_vmt84.py and gen_repo/impl/prebuilt/unpol/gga_x_vmt84.py -/
formula gga_x_vmt84 pol "t2 = 3 ** (0.1e1 / 0.3e1)
t3 = math.pi ** (0.1e1 / 0.3e1)
t5 = t2 / t3
t6 = r0 + r1
t7 = 0.1e1 / t6
t10 = 0.2e1 * r0 * t7 <= p_a_zeta_threshold
t11 = p_a_zeta_threshold - 0.1e1
t14 = 0.2e1 * r1 * t7 <= p_a_zeta_threshold
t15 = -t11
t17 = (r0 - r1) * t7
t18 = lax_cond(t14, t15, t17)
t19 = lax_cond(t10, t11, t18)
t20 = 0.1e1 + t19
t22 = p_a_zeta_threshold ** (0.1e1 / 0.3e1)
t23 = t22 * p_a_zeta_threshold
t24 = t20 ** (0.1e1 / 0.3e1)
t26 = lax_cond(t20 <= p_a_zeta_threshold, t23, t24 * t20)
t27 = t6 ** (0.1e1 / 0.3e1)
t29 = 6 ** (0.1e1 / 0.3e1)
t30 = params_a_mu * t29
t31 = math.pi ** 2
t32 = t31 ** (0.1e1 / 0.3e1)
t33 = t32 ** 2
t34 = 0.1e1 / t33
t35 = t30 * t34
t36 = r0 ** 2
t37 = r0 ** (0.1e1 / 0.3e1)
t38 = t37 ** 2
t39 = t38 * t36
t40 = 0.1e1 / t39
t42 = params_a_alpha * t29
t44 = t34 * s0 * t40
t47 = math.exp(-t42 * t44 / 0.24e2)
t56 = t29 ** 2
t57 = params_a_alpha * t56
t59 = 0.1e1 / t32 / t31
t60 = s0 ** 2
t62 = t36 ** 2
t69 = math.exp(-t57 * t59 * t60 / t37 / t62 / r0 / 0.576e3)
t81 = lax_cond(r0 <= p_a_dens_threshold, 0, -0.3e1 / 0.8e1 * t5 * t26 * t27 * (t35 * s0 * t40 * t47 / (0.1e1 + t30 * t44 / 0.24e2) / 0.24e2 + 0.4e1 * (0.1e1 - t69) * t56 * t33 / s0 * t39 + t69))
t83 = lax_cond(t10, t15, -t17)
t84 = lax_cond(t14, t11, t83)
t85 = 0.1e1 + t84
t87 = t85 ** (0.1e1 / 0.3e1)
t89 = lax_cond(t85 <= p_a_zeta_threshold, t23, t87 * t85)
t91 = r1 ** 2
t92 = r1 ** (0.1e1 / 0.3e1)
t93 = t92 ** 2
t94 = t93 * t91
t95 = 0.1e1 / t94
t98 = t34 * s2 * t95
t101 = math.exp(-t42 * t98 / 0.24e2)
t110 = s2 ** 2
t112 = t91 ** 2
t119 = math.exp(-t57 * t59 * t110 / t92 / t112 / r1 / 0.576e3)
t131 = lax_cond(r1 <= p_a_dens_threshold, 0, -0.3e1 / 0.8e1 * t5 * t89 * t27 * (t35 * s2 * t95 * t101 / (0.1e1 + t30 * t98 / 0.24e2) / 0.24e2 + 0.4e1 * (0.1e1 - t119) * t56 * t33 / s2 * t94 + t119))
res = t81 + t131
" unpol "t3 = 3 ** (0.1e1 / 0.3e1)
t4 = math.pi ** (0.1e1 / 0.3e1)
t7 = 0.1e1 <= p_a_zeta_threshold
t8 = p_a_zeta_threshold - 0.1e1
t10 = lax_cond(t7, -t8, 0)
t11 = lax_cond(t7, t8, t10)
t12 = 0.1e1 + t11
t14 = p_a_zeta_threshold ** (0.1e1 / 0.3e1)
t16 = t12 ** (0.1e1 / 0.3e1)
t18 = lax_cond(t12 <= p_a_zeta_threshold, t14 * p_a_zeta_threshold, t16 * t12)
t19 = r0 ** (0.1e1 / 0.3e1)
t21 = 6 ** (0.1e1 / 0.3e1)
t22 = params_a_mu * t21
t23 = math.pi ** 2
t24 = t23 ** (0.1e1 / 0.3e1)
t25 = t24 ** 2
t26 = 0.1e1 / t25
t29 = 2 ** (0.1e1 / 0.3e1)
t30 = t29 ** 2
t31 = r0 ** 2
t32 = t19 ** 2
t33 = t32 * t31
t34 = 0.1e1 / t33
t39 = s0 * t30 * t34
t42 = math.exp(-params_a_alpha * t21 * t26 * t39 / 0.24e2)
t52 = t21 ** 2
t57 = s0 ** 2
t59 = t31 ** 2
t66 = math.exp(-params_a_alpha * t52 / t24 / t23 * t57 * t29 / t19 / t59 / r0 / 0.288e3)
t79 = lax_cond(r0 / 0.2e1 <= p_a_dens_threshold, 0, -0.3e1 / 0.8e1 * t3 / t4 * t18 * t19 * (t22 * t26 * s0 * t30 * t34 * t42 / (0.1e1 + t22 * t26 * t39 / 0.24e2) / 0.24e2 + 0.2e1 * (0.1e1 - t66) * t52 * t25 / s0 * t29 * t33 + t66))
res = 0.2e1 * t79
"

/- gen_repo/impl/prebuilt/pol/gga_x_wc.py and gen_repo/impl/prebuilt/unpol/gga_x_wc.py -/
formula gga_x_wc pol "t2 = 3 ** (0.1e1 / 0.3e1)
t3 = math.pi ** (0.1e1 / 0.3e1)
t5 = t2 / t3
t6 = r0 + r1
t7 = 0.1e1 / t6
t10 = 0.2e1 * r0 * t7 <= p_a_zeta_threshold
t11 = p_a_zeta_threshold - 0.1e1
t14 = 0.2e1 * r1 * t7 <= p_a_zeta_threshold
t15 = -t11
t17 = (r0 - r1) * t7
t18 = lax_cond(t14, t15, t17)
t19 = lax_cond(t10, t11, t18)
t20 = 0.1e1 + t19
t22 = p_a_zeta_threshold ** (0.1e1 / 0.3e1)
t23 = t22 * p_a_zeta_threshold
t24 = t20 ** (0.1e1 / 0.3e1)
t26 = lax_cond(t20 <= p_a_zeta_threshold, t23, t24 * t20)
t27 = t6 ** (0.1e1 / 0.3e1)
t29 = 6 ** (0.1e1 / 0.3e1)
t30 = math.pi ** 2
t31 = t30 ** (0.1e1 / 0.3e1)
t32 = t31 ** 2
t34 = t29 / t32
t35 = r0 ** 2
t36 = r0 ** (0.1e1 / 0.3e1)
t37 = t36 ** 2
t40 = s0 / t37 / t35
t41 = t34 * t40
t44 = math.exp(-t41 / 0.24e2)
t48 = t29 ** 2
t51 = t48 / t31 / t30
t52 = s0 ** 2
t53 = t35 ** 2
t61 = math.log(0.1e1 + 0.13780328706878157639e-4 * t51 * t52 / t36 / t53 / r0)
t69 = lax_cond(r0 <= p_a_dens_threshold, 0, -0.3e1 / 0.8e1 * t5 * t26 * t27 * (0.18040e1 - 0.64641600e0 / (0.8040e0 + 0.5e1 / 0.972e3 * t41 + 0.40024242767108462450e-2 * t34 * t40 * t44 + t61)))
t71 = lax_cond(t10, t15, -t17)
t72 = lax_cond(t14, t11, t71)
t73 = 0.1e1 + t72
t75 = t73 ** (0.1e1 / 0.3e1)
t77 = lax_cond(t73 <= p_a_zeta_threshold, t23, t75 * t73)
t79 = r1 ** 2
t80 = r1 ** (0.1e1 / 0.3e1)
t81 = t80 ** 2
t84 = s2 / t81 / t79
t85 = t34 * t84
t88 = math.exp(-t85 / 0.24e2)
t92 = s2 ** 2
t93 = t79 ** 2
t101 = math.log(0.1e1 + 0.13780328706878157639e-4 * t51 * t92 / t80 / t93 / r1)
t109 = lax_cond(r1 <= p_a_dens_threshold, 0, -0.3e1 / 0.8e1 * t5 * t77 * t27 * (0.18040e1 - 0.64641600e0 / (0.8040e0 + 0.5e1 / 0.972e3 * t85 + 0.40024242767108462450e-2 * t34 * t84 * t88 + t101)))
res = t69 + t109
" unpol "t3 = 3 ** (0.1e1 / 0.3e1)
t4 = math.pi ** (0.1e1 / 0.3e1)
t7 = 0.1e1 <= p_a_zeta_threshold
t8 = p_a_zeta_threshold - 0.1e1
t10 = lax_cond(t7, -t8, 0)
t11 = lax_cond(t7, t8, t10)
t12 = 0.1e1 + t11
t14 = p_a_zeta_threshold ** (0.1e1 / 0.3e1)
t16 = t12 ** (0.1e1 / 0.3e1)
t18 = lax_cond(t12 <= p_a_zeta_threshold, t14 * p_a_zeta_threshold, t16 * t12)
t19 = r0 ** (0.1e1 / 0.3e1)
t21 = 6 ** (0.1e1 / 0.3e1)
t22 = math.pi ** 2
t23 = t22 ** (0.1e1 / 0.3e1)
t24 = t23 ** 2
t26 = t21 / t24
t27 = 2 ** (0.1e1 / 0.3e1)
t28 = t27 ** 2
t30 = r0 ** 2
t31 = t19 ** 2
t33 = 0.1e1 / t31 / t30
t35 = t26 * s0 * t28 * t33
t40 = math.exp(-t35 / 0.24e2)
t44 = t21 ** 2
t48 = s0 ** 2
t50 = t30 ** 2
t58 = math.log(0.1e1 + 0.27560657413756315278e-4 * t44 / t23 / t22 * t48 * t27 / t19 / t50 / r0)
t66 = lax_cond(r0 / 0.2e1 <= p_a_dens_threshold, 0, -0.3e1 / 0.8e1 * t3 / t4 * t18 * t19 * (0.18040e1 - 0.64641600e0 / (0.8040e0 + 0.5e1 / 0.972e3 * t35 + 0.40024242767108462450e-2 * t26 * s0 * t28 * t33 * t40 + t58)))
res = 0.2e1 * t66
"

/- gen_repo/impl/prebuilt/pol/gga_x_wpbeh.py and gen_repo/impl/prebuilt/unpol/gga_x_wpbeh.py -/
formula gga_x_wpbeh pol "t3 = 3 ** (0.1e1 / 0.3e1)
t4 = math.pi ** (0.1e1 / 0.3e1)
t6 = t3 / t4
t7 = r0 + r1
t8 = 0.1e1 / t7
t12 = 0.2e1 * r0 * t8 <= p_a_zeta_threshold
t13 = p_a_zeta_threshold - 0.1e1
t16 = 0.2e1 * r1 * t8 <= p_a_zeta_threshold
t17 = -t13
t19 = (r0 - r1) * t8
t20 = lax_cond(t16, t17, t19)
t21 = lax_cond(t12, t13, t20)
t22 = 0.1e1 + t21
t24 = p_a_zeta_threshold ** (0.1e1 / 0.3e1)
t25 = t24 * p_a_zeta_threshold
t26 = t22 ** (0.1e1 / 0.3e1)
t28 = lax_cond(t22 <= p_a_zeta_threshold, t25, t26 * t22)
t29 = t7 ** (0.1e1 / 0.3e1)
t31 = t3 ** 2
t32 = p_a_cam_omega * t31
t33 = math.pi ** 2
t34 = t33 ** (0.1e1 / 0.3e1)
t35 = 0.1e1 / t34
t37 = 0.1e1 + t19 <= p_a_zeta_threshold
t39 = 0.1e1 - t19 <= p_a_zeta_threshold
t40 = lax_cond(t39, t17, t19)
t41 = lax_cond(t37, t13, t40)
t42 = 0.1e1 + t41
t44 = t42 ** (0.1e1 / 0.3e1)
t45 = lax_cond(t42 <= p_a_zeta_threshold, t24, t44)
t47 = t35 / t45
t48 = 0.1e1 / t29
t51 = t32 * t47 * t48 / 0.3e1
t52 = 0.14e2 < t51
t53 = 6 ** (0.1e1 / 0.3e1)
t54 = t53 ** 2
t55 = t54 * t35
t56 = math.sqrt(s0)
t57 = r0 ** (0.1e1 / 0.3e1)
t62 = t55 * t56 / t57 / r0 / 0.12e2
t64 = 0.15e2 < t62
t65 = lax_cond(t64, 15, t62)
t67 = lax_cond(0.1e1 < t65, t65, 1)
t69 = math.exp(t67 - 0.8572844e1)
t71 = math.log(0.1e1 + t69)
t73 = lax_cond(t64, 0.8572844e1, t67 - t71)
t74 = lax_cond(t62 < 0.1e1, t62, t73)
t76 = lax_cond(t74 < 0.1e-14, 0.1e-14, t74)
t77 = t76 ** 2
t79 = t77 ** 2
t81 = 0.979681e-2 * t77 + 0.410834e-1 * t79
t89 = 0.1e1 / (0.1e1 + 0.187440e0 * t79 + 0.120824e-2 * t79 * t76 + 0.347188e-1 * t79 * t77)
t90 = t77 * t81 * t89
t91 = 0.22143176004591608976e1 * t90
t93 = lax_cond(t51 < 0.14e2, 0.1455915450052607e1, 2)
t94 = p_a_cam_omega ** 2
t97 = t34 ** 2
t98 = 0.1e1 / t97
t99 = t45 ** 2
t102 = t29 ** 2
t103 = 0.1e1 / t102
t104 = t98 / t99 * t103
t105 = t93 * t94 * t3 * t104
t108 = xc_E1_scaled(t91 + 0.73810586681972029922e0 * t105)
t110 = t105 / 0.3e1
t112 = math.log(0.57786348e0 + t90 + t110)
t115 = math.log(t90 + t110)
t118 = lax_cond(t52, 14, t51)
t120 = t118 ** 2
t121 = t120 * t118
t123 = t120 ** 2
t124 = t123 * t118
t126 = t123 * t121
t131 = lax_cond(t118 < 0.14e2, 0.1455915450052607e1, 2)
t132 = t131 * t120
t134 = t91 + 0.22143176004591608976e1 * t132
t135 = math.sqrt(t134)
t136 = xc_erfcx(t135)
t141 = t123 * t120
t143 = t123 ** 2
t146 = xc_E1_scaled(t134)
t149 = math.sqrt(math.pi)
t150 = 0.57786348e0 + t90 + t132
t151 = math.sqrt(t150)
t156 = 0.1e1 / t150
t159 = t90 + t132
t160 = math.sqrt(t159)
t172 = t150 ** 2
t177 = t151 * t172
t183 = t160 * t159
t193 = t172 * t150
t198 = t159 ** 2
t204 = t160 * t198
t206 = t151 * t193
t221 = t172 ** 2
t225 = t198 * t159
t241 = math.log(t159 * t156)
t243 = (0.17059169152930056821e1 * t118 - 0.41622705406440396562e1 * t121 + 0.42174370348694648999e1 * t124 - 0.10676080470633097775e1 * t126) * math.pi * t136 / 0.2e1 - (-0.10161144e1 + 0.32686565979666847500e1 * t120 - 0.48418398881417585092e1 * t123 + 0.27236365685865660550e1 * t141 - 0.20524577845574895866e0 * t143) * t146 / 0.2e1 - 0.57320229933645902590e0 * t149 / t151 * t118 + 0.73807311952199090995e0 * t156 * t120 - 0.1243162299390327e1 * t149 * (-0.9e1 / 0.8e1 / t160 + 0.254028600e0 / t151 / t150) * t121 + (-0.10933029406300511250e1 / t159 + 0.49374260512735112038e0 / t172) * t123 - 0.52484962540331303985e-1 * t149 * (0.3e1 * t177 * (0.9e1 * t90 + 0.9e1 * t132 - 0.20322288e1) + 0.412995389554944e1 * t183) / t177 / t183 * t124 + (0.25085884618821050197e0 / t193 + 0.77150160881310000000e-2 * (-0.36e2 + 0.79715433616529792314e2 * t90) / t198) * t141 + 0.14762353927435135389e-2 * t149 * (-0.41965056246038818960e2 * t204 + 0.9e1 * t206 * (0.27e2 * t198 - 0.60966864e1 * t90 - 0.60966864e1 * t132 + 0.412995389554944e1)) / t206 / t204 * t126 + 0.75666704254679261017e-2 * (0.81278266164980202635e2 * t131 * t221 * t159 + 0.33847844843765416574e1 * t225 + 0.8401793031216e-2 * t221 * (-0.729e3 * t198 + 0.3292210656e3 * t90 + 0.3292210656e3 * t132 - 0.29735668047955968e3)) / t221 / t225 * t143 + 0.50805720000000000000e0 * t241
t244 = lax_cond(t52, 0.50805720000000000000e0 * t108 - 0.50805720000000000000e0 * t112 + 0.50805720000000000000e0 * t115, t243)
t246 = 0.57786348e0 + t90
t247 = t246 ** 2
t249 = 0.77215461e-1 * t90
t253 = 0.64753871e1 * t81 * t89 + 0.47965830e0
t257 = 0.3e1 / 0.4e1 * math.pi
t263 = t247 * t246
t267 = math.sqrt(t246)
t268 = t267 * t263
t272 = math.exp(t91)
t274 = math.sqrt(t90)
t276 = math.erf(0.14880583323442535321e1 * t274)
t281 = 0.1e1 / t149
t290 = lax_cond(0.8e-1 < t76, -0.16e2 / 0.15e2 * (t257 + t149 * (-0.779335965e0 - 0.463292766e0 * (t253 * t77 + 0.1e1) * t246 - 0.148683344e1 * t247 + 0.81289152e1 * t263) / t268 / 0.16e2 - 0.75601874976749088562e0 * math.pi * t272 * (0.1e1 - t276)) * t281 / t77 * t268, -0.2628417880e-1 - 0.7117647788e-1 * t77 + 0.8534541323e-1 * t79)
t291 = t77 * t290
t294 = 0.1e1 / t263
t298 = t94 * t3
t299 = t298 * t104
t301 = 0.57786348e0 + t90 + t299 / 0.3e1
t302 = t301 ** 2
t307 = t301 * t77 * t253
t313 = math.sqrt(t301)
t315 = 0.1e1 / t313 / t302
t322 = t94 * p_a_cam_omega / t33
t336 = t94 ** 2
t338 = t336 * p_a_cam_omega * t3
t340 = 0.1e1 / t97 / t33
t341 = t99 ** 2
t347 = 0.1e1 / t102 / t7
t358 = lax_cond(r0 <= p_a_dens_threshold, 0, -0.3e1 / 0.8e1 * t6 * t28 * t29 * (-0.8e1 / 0.9e1 * t244 - 0.4e1 / 0.9e1 * (-0.37170836e0 * t247 - 0.14853145700326428e0 - t249 - 0.77215461e-1 * t246 * t77 * t253 + 0.2e1 * t291) * t294 + t32 * t47 * t48 * (-0.148683344e1 * t302 - 0.104705593501958568e1 - 0.463292766e0 * t90 - 0.15443092200000000000e0 * t299 - 0.463292766e0 * t307 + 0.15e2 * t291) / t246 * t315 / 0.27e2 + 0.4e1 / 0.27e2 * t322 / t99 / t45 * t8 * (-0.30439865000326428e0 - t249 - 0.25738487000000000000e-1 * t299 - 0.77215461e-1 * t307 + 0.5e1 * t291) / t247 * t315 + 0.8e1 / 0.81e2 * t338 * t340 / t341 / t45 * t347 * (-0.51955731e-1 + t291) * t294 * t315))
t360 = lax_cond(t12, t17, -t19)
t361 = lax_cond(t16, t13, t360)
t362 = 0.1e1 + t361
t364 = t362 ** (0.1e1 / 0.3e1)
t366 = lax_cond(t362 <= p_a_zeta_threshold, t25, t364 * t362)
t368 = lax_cond(t37, t17, -t19)
t369 = lax_cond(t39, t13, t368)
t370 = 0.1e1 + t369
t372 = t370 ** (0.1e1 / 0.3e1)
t373 = lax_cond(t370 <= p_a_zeta_threshold, t24, t372)
t375 = t35 / t373
t378 = t32 * t375 * t48 / 0.3e1
t379 = 0.14e2 < t378
t380 = math.sqrt(s2)
t381 = r1 ** (0.1e1 / 0.3e1)
t386 = t55 * t380 / t381 / r1 / 0.12e2
t388 = 0.15e2 < t386
t389 = lax_cond(t388, 15, t386)
t391 = lax_cond(0.1e1 < t389, t389, 1)
t393 = math.exp(t391 - 0.8572844e1)
t395 = math.log(0.1e1 + t393)
t397 = lax_cond(t388, 0.8572844e1, t391 - t395)
t398 = lax_cond(t386 < 0.1e1, t386, t397)
t400 = lax_cond(t398 < 0.1e-14, 0.1e-14, t398)
t401 = t400 ** 2
t403 = t401 ** 2
t405 = 0.979681e-2 * t401 + 0.410834e-1 * t403
t413 = 0.1e1 / (0.1e1 + 0.187440e0 * t403 + 0.120824e-2 * t403 * t400 + 0.347188e-1 * t403 * t401)
t414 = t401 * t405 * t413
t415 = 0.22143176004591608976e1 * t414
t417 = lax_cond(t378 < 0.14e2, 0.1455915450052607e1, 2)
t420 = t373 ** 2
t423 = t98 / t420 * t103
t424 = t417 * t94 * t3 * t423
t427 = xc_E1_scaled(t415 + 0.73810586681972029922e0 * t424)
t429 = t424 / 0.3e1
t431 = math.log(0.57786348e0 + t414 + t429)
t434 = math.log(t414 + t429)
t437 = lax_cond(t379, 14, t378)
t439 = t437 ** 2
t440 = t439 * t437
t442 = t439 ** 2
t443 = t442 * t437
t445 = t442 * t440
t450 = lax_cond(t437 < 0.14e2, 0.1455915450052607e1, 2)
t451 = t450 * t439
t453 = t415 + 0.22143176004591608976e1 * t451
t454 = math.sqrt(t453)
t455 = xc_erfcx(t454)
t460 = t442 * t439
t462 = t442 ** 2
t465 = xc_E1_scaled(t453)
t468 = 0.57786348e0 + t414 + t451
t469 = math.sqrt(t468)
t474 = 0.1e1 / t468
t477 = t414 + t451
t478 = math.sqrt(t477)
t490 = t468 ** 2
t495 = t469 * t490
t501 = t478 * t477
t511 = t490 * t468
t516 = t477 ** 2
t522 = t478 * t516
t524 = t469 * t511
t539 = t490 ** 2
t543 = t516 * t477
t559 = math.log(t477 * t474)
t561 = (0.17059169152930056821e1 * t437 - 0.41622705406440396562e1 * t440 + 0.42174370348694648999e1 * t443 - 0.10676080470633097775e1 * t445) * math.pi * t455 / 0.2e1 - (-0.10161144e1 + 0.32686565979666847500e1 * t439 - 0.48418398881417585092e1 * t442 + 0.27236365685865660550e1 * t460 - 0.20524577845574895866e0 * t462) * t465 / 0.2e1 - 0.57320229933645902590e0 * t149 / t469 * t437 + 0.73807311952199090995e0 * t474 * t439 - 0.1243162299390327e1 * t149 * (-0.9e1 / 0.8e1 / t478 + 0.254028600e0 / t469 / t468) * t440 + (-0.10933029406300511250e1 / t477 + 0.49374260512735112038e0 / t490) * t442 - 0.52484962540331303985e-1 * t149 * (0.3e1 * t495 * (0.9e1 * t414 + 0.9e1 * t451 - 0.20322288e1) + 0.412995389554944e1 * t501) / t495 / t501 * t443 + (0.25085884618821050197e0 / t511 + 0.77150160881310000000e-2 * (-0.36e2 + 0.79715433616529792314e2 * t414) / t516) * t460 + 0.14762353927435135389e-2 * t149 * (-0.41965056246038818960e2 * t522 + 0.9e1 * t524 * (0.27e2 * t516 - 0.60966864e1 * t414 - 0.60966864e1 * t451 + 0.412995389554944e1)) / t524 / t522 * t445 + 0.75666704254679261017e-2 * (0.81278266164980202635e2 * t450 * t539 * t477 + 0.33847844843765416574e1 * t543 + 0.8401793031216e-2 * t539 * (-0.729e3 * t516 + 0.3292210656e3 * t414 + 0.3292210656e3 * t451 - 0.29735668047955968e3)) / t539 / t543 * t462 + 0.50805720000000000000e0 * t559
t562 = lax_cond(t379, 0.50805720000000000000e0 * t427 - 0.50805720000000000000e0 * t431 + 0.50805720000000000000e0 * t434, t561)
t564 = 0.57786348e0 + t414
t565 = t564 ** 2
t567 = 0.77215461e-1 * t414
t571 = 0.64753871e1 * t405 * t413 + 0.47965830e0
t580 = t565 * t564
t584 = math.sqrt(t564)
t585 = t584 * t580
t589 = math.exp(t415)
t591 = math.sqrt(t414)
t593 = math.erf(0.14880583323442535321e1 * t591)
t606 = lax_cond(0.8e-1 < t400, -0.16e2 / 0.15e2 * (t257 + t149 * (-0.779335965e0 - 0.463292766e0 * (t571 * t401 + 0.1e1) * t564 - 0.148683344e1 * t565 + 0.81289152e1 * t580) / t585 / 0.16e2 - 0.75601874976749088562e0 * math.pi * t589 * (0.1e1 - t593)) * t281 / t401 * t585, -0.2628417880e-1 - 0.7117647788e-1 * t401 + 0.8534541323e-1 * t403)
t607 = t401 * t606
t610 = 0.1e1 / t580
t614 = t298 * t423
t616 = 0.57786348e0 + t414 + t614 / 0.3e1
t617 = t616 ** 2
t622 = t616 * t401 * t571
t628 = math.sqrt(t616)
t630 = 0.1e1 / t628 / t617
t648 = t420 ** 2
t663 = lax_cond(r1 <= p_a_dens_threshold, 0, -0.3e1 / 0.8e1 * t6 * t366 * t29 * (-0.8e1 / 0.9e1 * t562 - 0.4e1 / 0.9e1 * (-0.37170836e0 * t565 - 0.14853145700326428e0 - t567 - 0.77215461e-1 * t564 * t401 * t571 + 0.2e1 * t607) * t610 + t32 * t375 * t48 * (-0.148683344e1 * t617 - 0.104705593501958568e1 - 0.463292766e0 * t414 - 0.15443092200000000000e0 * t614 - 0.463292766e0 * t622 + 0.15e2 * t607) / t564 * t630 / 0.27e2 + 0.4e1 / 0.27e2 * t322 / t420 / t373 * t8 * (-0.30439865000326428e0 - t567 - 0.25738487000000000000e-1 * t614 - 0.77215461e-1 * t622 + 0.5e1 * t607) / t565 * t630 + 0.8e1 / 0.81e2 * t338 * t340 / t648 / t373 * t347 * (-0.51955731e-1 + t607) * t610 * t630))
res = t358 + t663
" unpol "t4 = 3 ** (0.1e1 / 0.3e1)
t5 = math.pi ** (0.1e1 / 0.3e1)
t8 = 0.1e1 <= p_a_zeta_threshold
t9 = p_a_zeta_threshold - 0.1e1
t12 = lax_cond(t8, -t9, 0)
t13 = lax_cond(t8, t9, t12)
t14 = 0.1e1 + t13
t15 = t14 <= p_a_zeta_threshold
t16 = p_a_zeta_threshold ** (0.1e1 / 0.3e1)
t18 = t14 ** (0.1e1 / 0.3e1)
t20 = lax_cond(t15, t16 * p_a_zeta_threshold, t18 * t14)
t21 = r0 ** (0.1e1 / 0.3e1)
t23 = t4 ** 2
t24 = p_a_cam_omega * t23
t25 = math.pi ** 2
t26 = t25 ** (0.1e1 / 0.3e1)
t27 = 0.1e1 / t26
t28 = lax_cond(t15, t16, t18)
t30 = t27 / t28
t31 = 0.1e1 / t21
t34 = t24 * t30 * t31 / 0.3e1
t35 = 0.14e2 < t34
t36 = 6 ** (0.1e1 / 0.3e1)
t37 = t36 ** 2
t39 = math.sqrt(s0)
t40 = 2 ** (0.1e1 / 0.3e1)
t46 = t37 * t27 * t39 * t40 / t21 / r0 / 0.12e2
t48 = 0.15e2 < t46
t49 = lax_cond(t48, 15, t46)
t51 = lax_cond(0.1e1 < t49, t49, 1)
t53 = math.exp(t51 - 0.8572844e1)
t55 = math.log(0.1e1 + t53)
t57 = lax_cond(t48, 0.8572844e1, t51 - t55)
t58 = lax_cond(t46 < 0.1e1, t46, t57)
t60 = lax_cond(t58 < 0.1e-14, 0.1e-14, t58)
t61 = t60 ** 2
t63 = t61 ** 2
t65 = 0.979681e-2 * t61 + 0.410834e-1 * t63
t73 = 0.1e1 / (0.1e1 + 0.187440e0 * t63 + 0.120824e-2 * t63 * t60 + 0.347188e-1 * t63 * t61)
t74 = t61 * t65 * t73
t75 = 0.22143176004591608976e1 * t74
t77 = lax_cond(t34 < 0.14e2, 0.1455915450052607e1, 2)
t78 = p_a_cam_omega ** 2
t81 = t26 ** 2
t83 = t28 ** 2
t86 = t21 ** 2
t88 = 0.1e1 / t81 / t83 / t86
t89 = t77 * t78 * t4 * t88
t92 = xc_E1_scaled(t75 + 0.73810586681972029922e0 * t89)
t94 = t89 / 0.3e1
t96 = math.log(0.57786348e0 + t74 + t94)
t99 = math.log(t74 + t94)
t102 = lax_cond(t35, 14, t34)
t104 = t102 ** 2
t105 = t104 * t102
t107 = t104 ** 2
t108 = t107 * t102
t110 = t107 * t105
t115 = lax_cond(t102 < 0.14e2, 0.1455915450052607e1, 2)
t116 = t115 * t104
t118 = t75 + 0.22143176004591608976e1 * t116
t119 = math.sqrt(t118)
t120 = xc_erfcx(t119)
t125 = t107 * t104
t127 = t107 ** 2
t130 = xc_E1_scaled(t118)
t133 = math.sqrt(math.pi)
t134 = 0.57786348e0 + t74 + t116
t135 = math.sqrt(t134)
t140 = 0.1e1 / t134
t143 = t74 + t116
t144 = math.sqrt(t143)
t156 = t134 ** 2
t161 = t135 * t156
t167 = t144 * t143
t177 = t156 * t134
t182 = t143 ** 2
t188 = t144 * t182
t190 = t135 * t177
t205 = t156 ** 2
t209 = t182 * t143
t225 = math.log(t143 * t140)
t227 = (0.17059169152930056821e1 * t102 - 0.41622705406440396562e1 * t105 + 0.42174370348694648999e1 * t108 - 0.10676080470633097775e1 * t110) * math.pi * t120 / 0.2e1 - (-0.10161144e1 + 0.32686565979666847500e1 * t104 - 0.48418398881417585092e1 * t107 + 0.27236365685865660550e1 * t125 - 0.20524577845574895866e0 * t127) * t130 / 0.2e1 - 0.57320229933645902590e0 * t133 / t135 * t102 + 0.73807311952199090995e0 * t140 * t104 - 0.1243162299390327e1 * t133 * (-0.9e1 / 0.8e1 / t144 + 0.254028600e0 / t135 / t134) * t105 + (-0.10933029406300511250e1 / t143 + 0.49374260512735112038e0 / t156) * t107 - 0.52484962540331303985e-1 * t133 * (0.3e1 * t161 * (0.9e1 * t74 + 0.9e1 * t116 - 0.20322288e1) + 0.412995389554944e1 * t167) / t161 / t167 * t108 + (0.25085884618821050197e0 / t177 + 0.77150160881310000000e-2 * (-0.36e2 + 0.79715433616529792314e2 * t74) / t182) * t125 + 0.14762353927435135389e-2 * t133 * (-0.41965056246038818960e2 * t188 + 0.9e1 * t190 * (0.27e2 * t182 - 0.60966864e1 * t74 - 0.60966864e1 * t116 + 0.412995389554944e1)) / t190 / t188 * t110 + 0.75666704254679261017e-2 * (0.81278266164980202635e2 * t115 * t205 * t143 + 0.33847844843765416574e1 * t209 + 0.8401793031216e-2 * t205 * (-0.729e3 * t182 + 0.3292210656e3 * t74 + 0.3292210656e3 * t116 - 0.29735668047955968e3)) / t205 / t209 * t127 + 0.50805720000000000000e0 * t225
t228 = lax_cond(t35, 0.50805720000000000000e0 * t92 - 0.50805720000000000000e0 * t96 + 0.50805720000000000000e0 * t99, t227)
t230 = 0.57786348e0 + t74
t231 = t230 ** 2
t233 = 0.77215461e-1 * t74
t237 = 0.64753871e1 * t65 * t73 + 0.47965830e0
t247 = t231 * t230
t251 = math.sqrt(t230)
t252 = t251 * t247
t256 = math.exp(t75)
t258 = math.sqrt(t74)
t260 = math.erf(0.14880583323442535321e1 * t258)
t274 = lax_cond(0.8e-1 < t60, -0.16e2 / 0.15e2 * (0.3e1 / 0.4e1 * math.pi + t133 * (-0.779335965e0 - 0.463292766e0 * (t237 * t61 + 0.1e1) * t230 - 0.148683344e1 * t231 + 0.81289152e1 * t247) / t252 / 0.16e2 - 0.75601874976749088562e0 * math.pi * t256 * (0.1e1 - t260)) / t133 / t61 * t252, -0.2628417880e-1 - 0.7117647788e-1 * t61 + 0.8534541323e-1 * t63)
t275 = t61 * t274
t278 = 0.1e1 / t247
t283 = t78 * t4 * t88
t285 = 0.57786348e0 + t74 + t283 / 0.3e1
t286 = t285 ** 2
t291 = t285 * t61 * t237
t297 = math.sqrt(t285)
t299 = 0.1e1 / t297 / t286
t321 = t78 ** 2
t326 = t83 ** 2
t343 = lax_cond(r0 / 0.2e1 <= p_a_dens_threshold, 0, -0.3e1 / 0.8e1 * t4 / t5 * t20 * t21 * (-0.8e1 / 0.9e1 * t228 - 0.4e1 / 0.9e1 * (-0.37170836e0 * t231 - 0.14853145700326428e0 - t233 - 0.77215461e-1 * t230 * t61 * t237 + 0.2e1 * t275) * t278 + t24 * t30 * t31 * (-0.148683344e1 * t286 - 0.104705593501958568e1 - 0.463292766e0 * t74 - 0.15443092200000000000e0 * t283 - 0.463292766e0 * t291 + 0.15e2 * t275) / t230 * t299 / 0.27e2 + 0.4e1 / 0.27e2 * t78 * p_a_cam_omega / t25 / t83 / t28 / r0 * (-0.30439865000326428e0 - t233 - 0.25738487000000000000e-1 * t283 - 0.77215461e-1 * t291 + 0.5e1 * t275) / t231 * t299 + 0.8e1 / 0.81e2 * t321 * p_a_cam_omega * t4 / t81 / t25 / t326 / t28 / t86 / r0 * (-0.51955731e-1 + t275) * t278 * t299))
res = 0.2e1 * t343
"

/- gen_repo/impl/prebuilt/pol/gga_xc_b97.py and gen_repo/impl/prebuilt/unpol/gga_xc_b97.py -/
formula gga_xc_b97 pol "t2 = r0 - r1
t3 = r0 + r1
t4 = 0.1e1 / t3
t5 = t2 * t4
t6 = 0.1e1 + t5
t7 = t6 <= p_a_zeta_threshold
t8 = jnp.logical_or(r0 <= p_a_dens_threshold, t7)
t9 = lax_cond(t7, p_a_zeta_threshold, t6)
t10 = r0 * t4
t13 = p_a_zeta_threshold ** (0.1e1 / 0.3e1)
t14 = 0.1e1 / t13
t15 = 2 ** (0.1e1 / 0.3e1)
t16 = t15 ** 2
t17 = t10 ** (0.1e1 / 0.3e1)
t21 = lax_cond(0.2e1 * t10 <= p_a_zeta_threshold, t14, t16 / t17 / 0.2e1)
t22 = t21 ** 2
t28 = 3 ** (0.1e1 / 0.3e1)
t29 = math.pi ** (0.1e1 / 0.3e1)
t32 = t28 / t29 * t16
t34 = t13 * p_a_zeta_threshold
t36 = lax_cond(0.2e1 <= p_a_zeta_threshold, t34, 0.2e1 * t15)
t37 = t3 ** (0.1e1 / 0.3e1)
t38 = t36 * t37
t39 = 0.1e1 / t21
t43 = lax_cond(t3 / t22 / t21 / 0.2e1 <= p_a_dens_threshold, 0, -0.3e1 / 0.16e2 * t32 * t38 * t39)
t44 = 0.0e0 <= p_a_dens_threshold
t46 = lax_cond(0.0e0 <= p_a_zeta_threshold, t34, 0)
t47 = t46 * t37
t51 = lax_cond(t44, 0, -0.3e1 / 0.16e2 * t32 * t47 * t39)
t55 = lax_cond(t8, 0, t9 * (t43 + t51) / 0.2e1)
t56 = params_a_c_x[0]
t57 = params_a_c_x[1]
t59 = r0 ** 2
t60 = r0 ** (0.1e1 / 0.3e1)
t61 = t60 ** 2
t63 = 0.1e1 / t61 / t59
t64 = s0 * t63
t66 = 0.1e1 + 0.4e-2 * t64
t71 = params_a_c_x[2]
t72 = s0 ** 2
t74 = t59 ** 2
t77 = 0.1e1 / t60 / t74 / r0
t78 = t66 ** 2
t83 = params_a_c_x[3]
t84 = t72 * s0
t86 = t74 ** 2
t87 = 0.1e1 / t86
t93 = params_a_c_x[4]
t94 = t72 ** 2
t98 = 0.1e1 / t61 / t86 / t59
t99 = t78 ** 2
t107 = 0.1e1 - t5
t108 = t107 <= p_a_zeta_threshold
t109 = jnp.logical_or(r1 <= p_a_dens_threshold, t108)
t110 = lax_cond(t108, p_a_zeta_threshold, t107)
t111 = r1 * t4
t114 = t111 ** (0.1e1 / 0.3e1)
t118 = lax_cond(0.2e1 * t111 <= p_a_zeta_threshold, t14, t16 / t114 / 0.2e1)
t119 = t118 ** 2
t125 = 0.1e1 / t118
t129 = lax_cond(t3 / t119 / t118 / 0.2e1 <= p_a_dens_threshold, 0, -0.3e1 / 0.16e2 * t32 * t38 * t125)
t133 = lax_cond(t44, 0, -0.3e1 / 0.16e2 * t32 * t47 * t125)
t137 = lax_cond(t109, 0, t110 * (t129 + t133) / 0.2e1)
t139 = r1 ** 2
t140 = r1 ** (0.1e1 / 0.3e1)
t141 = t140 ** 2
t143 = 0.1e1 / t141 / t139
t144 = s2 * t143
t146 = 0.1e1 + 0.4e-2 * t144
t151 = s2 ** 2
t153 = t139 ** 2
t156 = 0.1e1 / t140 / t153 / r1
t157 = t146 ** 2
t162 = t151 * s2
t164 = t153 ** 2
t165 = 0.1e1 / t164
t171 = t151 ** 2
t175 = 0.1e1 / t141 / t164 / t139
t176 = t157 ** 2
t184 = (0.1e1 / math.pi) ** (0.1e1 / 0.3e1)
t185 = t28 * t184
t186 = 4 ** (0.1e1 / 0.3e1)
t187 = t186 ** 2
t188 = t185 * t187
t189 = 0.1e1 / t37
t190 = t189 * t15
t191 = t6 ** (0.1e1 / 0.3e1)
t193 = lax_cond(t7, t14, 0.1e1 / t191)
t195 = t188 * t190 * t193
t198 = math.sqrt(t195)
t201 = t195 ** 0.15e1
t203 = t28 ** 2
t204 = t184 ** 2
t205 = t203 * t204
t206 = t205 * t186
t207 = t37 ** 2
t208 = 0.1e1 / t207
t209 = t208 * t16
t210 = t193 ** 2
t212 = t206 * t209 * t210
t218 = math.log(0.1e1 + 0.16081824322151104822e2 / (0.37978500000000000000e1 * t198 + 0.89690000000000000000e0 * t195 + 0.20477500000000000000e0 * t201 + 0.12323500000000000000e0 * t212))
t220 = 0.62182e-1 * (0.1e1 + 0.53425000000000000000e-1 * t195) * t218
t224 = 0.1e1 / (0.2e1 * t15 - 0.2e1)
t225 = (t36 + t46 - 0.2e1) * t224
t236 = math.log(0.1e1 + 0.32164683177870697974e2 / (0.70594500000000000000e1 * t198 + 0.15494250000000000000e1 * t195 + 0.42077500000000000000e0 * t201 + 0.15629250000000000000e0 * t212))
t249 = math.log(0.1e1 + 0.29608574643216675549e2 / (0.51785000000000000000e1 * t198 + 0.90577500000000000000e0 * t195 + 0.11003250000000000000e0 * t201 + 0.12417750000000000000e0 * t212))
t250 = (0.1e1 + 0.27812500000000000000e-1 * t195) * t249
t259 = lax_cond(t8, 0, t9 * (-t220 + t225 * (-0.31090e-1 * (0.1e1 + 0.51370000000000000000e-1 * t195) * t236 + t220 - 0.19751789702565206229e-1 * t250) + 0.19751789702565206229e-1 * t225 * t250) / 0.2e1)
t260 = params_a_c_ss[0]
t261 = params_a_c_ss[1]
t264 = 0.1e1 + 0.2e0 * t64
t269 = params_a_c_ss[2]
t271 = t264 ** 2
t276 = params_a_c_ss[3]
t283 = params_a_c_ss[4]
t285 = t271 ** 2
t292 = t107 ** (0.1e1 / 0.3e1)
t294 = lax_cond(t108, t14, 0.1e1 / t292)
t296 = t188 * t190 * t294
t299 = math.sqrt(t296)
t302 = t296 ** 0.15e1
t304 = t294 ** 2
t306 = t206 * t209 * t304
t312 = math.log(0.1e1 + 0.16081824322151104822e2 / (0.37978500000000000000e1 * t299 + 0.89690000000000000000e0 * t296 + 0.20477500000000000000e0 * t302 + 0.12323500000000000000e0 * t306))
t314 = 0.62182e-1 * (0.1e1 + 0.53425000000000000000e-1 * t296) * t312
t325 = math.log(0.1e1 + 0.32164683177870697974e2 / (0.70594500000000000000e1 * t299 + 0.15494250000000000000e1 * t296 + 0.42077500000000000000e0 * t302 + 0.15629250000000000000e0 * t306))
t338 = math.log(0.1e1 + 0.29608574643216675549e2 / (0.51785000000000000000e1 * t299 + 0.90577500000000000000e0 * t296 + 0.11003250000000000000e0 * t302 + 0.12417750000000000000e0 * t306))
t339 = (0.1e1 + 0.27812500000000000000e-1 * t296) * t338
t348 = lax_cond(t109, 0, t110 * (-t314 + t225 * (-0.31090e-1 * (0.1e1 + 0.51370000000000000000e-1 * t296) * t325 + t314 - 0.19751789702565206229e-1 * t339) + 0.19751789702565206229e-1 * t225 * t339) / 0.2e1)
t351 = 0.1e1 + 0.2e0 * t144
t357 = t351 ** 2
t369 = t357 ** 2
t377 = t185 * t187 * t189
t380 = math.sqrt(t377)
t383 = t377 ** 0.15e1
t386 = t205 * t186 * t208
t392 = math.log(0.1e1 + 0.16081824322151104822e2 / (0.37978500000000000000e1 * t380 + 0.89690000000000000000e0 * t377 + 0.20477500000000000000e0 * t383 + 0.12323500000000000000e0 * t386))
t394 = 0.62182e-1 * (0.1e1 + 0.53425000000000000000e-1 * t377) * t392
t395 = t2 ** 2
t396 = t395 ** 2
t397 = t3 ** 2
t398 = t397 ** 2
t402 = lax_cond(t7, t34, t191 * t6)
t404 = lax_cond(t108, t34, t292 * t107)
t406 = (t402 + t404 - 0.2e1) * t224
t417 = math.log(0.1e1 + 0.32164683177870697974e2 / (0.70594500000000000000e1 * t380 + 0.15494250000000000000e1 * t377 + 0.42077500000000000000e0 * t383 + 0.15629250000000000000e0 * t386))
t430 = math.log(0.1e1 + 0.29608574643216675549e2 / (0.51785000000000000000e1 * t380 + 0.90577500000000000000e0 * t377 + 0.11003250000000000000e0 * t383 + 0.12417750000000000000e0 * t386))
t431 = (0.1e1 + 0.27812500000000000000e-1 * t377) * t430
t441 = t64 + t144
t445 = 0.1e1 + 0.30000000000000000000e-2 * t64 + 0.30000000000000000000e-2 * t144
t450 = t441 ** 2
t452 = t445 ** 2
t464 = t450 ** 2
t466 = t452 ** 2
res = t55 * (t56 + 0.4e-2 * t57 * s0 * t63 / t66 + 0.16e-4 * t71 * t72 * t77 / t78 + 0.64e-7 * t83 * t84 * t87 / t78 / t66 + 0.256e-9 * t93 * t94 * t98 / t99) + t137 * (t56 + 0.4e-2 * t57 * s2 * t143 / t146 + 0.16e-4 * t71 * t151 * t156 / t157 + 0.64e-7 * t83 * t162 * t165 / t157 / t146 + 0.256e-9 * t93 * t171 * t175 / t176) + t259 * (t260 + 0.2e0 * t261 * s0 * t63 / t264 + 0.4e-1 * t269 * t72 * t77 / t271 + 0.8e-2 * t276 * t84 * t87 / t271 / t264 + 0.16e-2 * t283 * t94 * t98 / t285) + t348 * (t260 + 0.2e0 * t261 * s2 * t143 / t351 + 0.4e-1 * t269 * t151 * t156 / t357 + 0.8e-2 * t276 * t162 * t165 / t357 / t351 + 0.16e-2 * t283 * t171 * t175 / t369) + (-t394 + t396 / t398 * t406 * (-0.31090e-1 * (0.1e1 + 0.51370000000000000000e-1 * t377) * t417 + t394 - 0.19751789702565206229e-1 * t431) + 0.19751789702565206229e-1 * t406 * t431 - t259 - t348) * (params_a_c_ab[0] + 0.30000000000000000000e-2 * params_a_c_ab[1] * t441 / t445 + 0.90000000000000000000e-5 * params_a_c_ab[2] * t450 / t452 + 0.27000000000000000000e-7 * params_a_c_ab[3] * t450 * t441 / t452 / t445 + 0.81000000000000000000e-10 * params_a_c_ab[4] * t464 / t466)
" unpol "t3 = 0.1e1 <= p_a_zeta_threshold
t4 = jnp.logical_or(r0 / 0.2e1 <= p_a_dens_threshold, t3)
t5 = lax_cond(t3, p_a_zeta_threshold, 1)
t6 = p_a_zeta_threshold ** (0.1e1 / 0.3e1)
t8 = lax_cond(t3, 0.1e1 / t6, 1)
t9 = t8 ** 2
t15 = 3 ** (0.1e1 / 0.3e1)
t16 = math.pi ** (0.1e1 / 0.3e1)
t19 = 2 ** (0.1e1 / 0.3e1)
t20 = t19 ** 2
t21 = t15 / t16 * t20
t23 = t6 * p_a_zeta_threshold
t25 = lax_cond(0.2e1 <= p_a_zeta_threshold, t23, 0.2e1 * t19)
t26 = r0 ** (0.1e1 / 0.3e1)
t28 = 0.1e1 / t8
t32 = lax_cond(r0 / t9 / t8 / 0.2e1 <= p_a_dens_threshold, 0, -0.3e1 / 0.16e2 * t21 * t25 * t26 * t28)
t35 = lax_cond(0.0e0 <= p_a_zeta_threshold, t23, 0)
t40 = lax_cond(0.0e0 <= p_a_dens_threshold, 0, -0.3e1 / 0.16e2 * t21 * t35 * t26 * t28)
t44 = lax_cond(t4, 0, t5 * (t32 + t40) / 0.2e1)
t48 = r0 ** 2
t49 = t26 ** 2
t51 = 0.1e1 / t49 / t48
t52 = t20 * t51
t54 = s0 * t20 * t51
t56 = 0.1e1 + 0.4e-2 * t54
t62 = s0 ** 2
t64 = t48 ** 2
t68 = t19 / t26 / t64 / r0
t69 = t56 ** 2
t75 = t62 * s0
t77 = t64 ** 2
t78 = 0.1e1 / t77
t85 = t62 ** 2
t90 = t20 / t49 / t77 / t48
t91 = t69 ** 2
t100 = (0.1e1 / math.pi) ** (0.1e1 / 0.3e1)
t101 = t15 * t100
t102 = 4 ** (0.1e1 / 0.3e1)
t103 = t102 ** 2
t105 = 0.1e1 / t26
t108 = t101 * t103 * t105 * t19 * t8
t111 = math.sqrt(t108)
t114 = t108 ** 0.15e1
t116 = t15 ** 2
t117 = t100 ** 2
t118 = t116 * t117
t120 = 0.1e1 / t49
t123 = t118 * t102 * t120 * t20 * t9
t129 = math.log(0.1e1 + 0.16081824322151104822e2 / (0.37978500000000000000e1 * t111 + 0.89690000000000000000e0 * t108 + 0.20477500000000000000e0 * t114 + 0.12323500000000000000e0 * t123))
t131 = 0.62182e-1 * (0.1e1 + 0.53425000000000000000e-1 * t108) * t129
t135 = 0.1e1 / (0.2e1 * t19 - 0.2e1)
t136 = (t25 + t35 - 0.2e1) * t135
t147 = math.log(0.1e1 + 0.32164683177870697974e2 / (0.70594500000000000000e1 * t111 + 0.15494250000000000000e1 * t108 + 0.42077500000000000000e0 * t114 + 0.15629250000000000000e0 * t123))
t160 = math.log(0.1e1 + 0.29608574643216675549e2 / (0.51785000000000000000e1 * t111 + 0.90577500000000000000e0 * t108 + 0.11003250000000000000e0 * t114 + 0.12417750000000000000e0 * t123))
t161 = (0.1e1 + 0.27812500000000000000e-1 * t108) * t160
t170 = lax_cond(t4, 0, t5 * (-t131 + t136 * (-0.31090e-1 * (0.1e1 + 0.51370000000000000000e-1 * t108) * t147 + t131 - 0.19751789702565206229e-1 * t161) + 0.19751789702565206229e-1 * t136 * t161) / 0.2e1)
t175 = 0.1e1 + 0.2e0 * t54
t182 = t175 ** 2
t196 = t182 ** 2
t205 = t101 * t103 * t105
t208 = math.sqrt(t205)
t211 = t205 ** 0.15e1
t214 = t118 * t102 * t120
t220 = math.log(0.1e1 + 0.16081824322151104822e2 / (0.37978500000000000000e1 * t208 + 0.89690000000000000000e0 * t205 + 0.20477500000000000000e0 * t211 + 0.12323500000000000000e0 * t214))
t223 = lax_cond(t3, t23, 1)
t237 = math.log(0.1e1 + 0.29608574643216675549e2 / (0.51785000000000000000e1 * t208 + 0.90577500000000000000e0 * t205 + 0.11003250000000000000e0 * t211 + 0.12417750000000000000e0 * t214))
t247 = 0.1e1 + 0.6e-2 * t54
t254 = t247 ** 2
t268 = t254 ** 2
res = 0.2e1 * t44 * (params_a_c_x[0] + 0.4e-2 * params_a_c_x[1] * s0 * t52 / t56 + 0.32e-4 * params_a_c_x[2] * t62 * t68 / t69 + 0.256e-6 * params_a_c_x[3] * t75 * t78 / t69 / t56 + 0.1024e-8 * params_a_c_x[4] * t85 * t90 / t91) + 0.2e1 * t170 * (params_a_c_ss[0] + 0.2e0 * params_a_c_ss[1] * s0 * t52 / t175 + 0.8e-1 * params_a_c_ss[2] * t62 * t68 / t182 + 0.32e-1 * params_a_c_ss[3] * t75 * t78 / t182 / t175 + 0.64e-2 * params_a_c_ss[4] * t85 * t90 / t196) + (-0.62182e-1 * (0.1e1 + 0.53425000000000000000e-1 * t205) * t220 + 0.19751789702565206229e-1 * (0.2e1 * t223 - 0.2e1) * t135 * (0.1e1 + 0.27812500000000000000e-1 * t205) * t237 - 0.2e1 * t170) * (params_a_c_ab[0] + 0.6e-2 * params_a_c_ab[1] * s0 * t52 / t247 + 0.72e-4 * params_a_c_ab[2] * t62 * t68 / t254 + 0.864e-6 * params_a_c_ab[3] * t75 * t78 / t254 / t247 + 0.5184e-8 * params_a_c_ab[4] * t85 * t90 / t268)
"

end Verif.Data


/-!
# Shipped formulas, verbatim from `gen_repo/impl/prebuilt/{pol,unpol}/NAME.py`
-/
namespace Verif.Data

/- gen_repo/impl/prebuilt/pol/gga_xc_th1.py and gen_repo/impl/prebuilt/unpol/gga_xc_th1.py -/
formula gga_xc_th1 pol "t2 = r0 ** (0.1e1 / 0.6e1)
t4 = r1 ** (0.1e1 / 0.6e1)
t6 = t2 * r0 + t4 * r1
t9 = r0 ** (0.1e1 / 0.3e1)
t10 = t9 * r0
t11 = r1 ** (0.1e1 / 0.3e1)
t12 = t11 * r1
t13 = t10 + t12
t16 = math.sqrt(r0)
t18 = math.sqrt(r1)
t20 = t16 * r0 + t18 * r1
t23 = t9 ** 2
t25 = t11 ** 2
t27 = t23 * r0 + t25 * r1
t31 = math.sqrt(s0)
t34 = r0 - r1
t35 = r0 + r1
t36 = 0.1e1 / t35
t37 = t34 * t36
t38 = 0.1e1 + t37
t40 = p_a_zeta_threshold ** (0.1e1 / 0.3e1)
t41 = t40 * p_a_zeta_threshold
t42 = t38 ** (0.1e1 / 0.3e1)
t44 = lax_cond(t38 <= p_a_zeta_threshold, t41, t42 * t38)
t45 = 2 ** (0.1e1 / 0.3e1)
t46 = t45 ** 2
t49 = math.sqrt(s2)
t52 = 0.1e1 - t37
t54 = t52 ** (0.1e1 / 0.3e1)
t56 = lax_cond(t52 <= p_a_zeta_threshold, t41, t54 * t52)
t60 = t31 / t10 * t44 * t46 / 0.4e1 + t49 / t12 * t56 * t46 / 0.4e1
t72 = t2 ** 2
t73 = t72 ** 2
t76 = t4 ** 2
t77 = t76 ** 2
t80 = t73 * t2 * r0 + t77 * t4 * r1
t86 = r0 ** 2
t90 = t44 ** 2
t92 = s0 / t23 / t86 * t90 * t45
t93 = r1 ** 2
t97 = t56 ** 2
t99 = s2 / t25 / t93 * t97 * t45
t101 = t92 / 0.8e1 + t99 / 0.8e1
t114 = t86 + t93
t124 = t35 ** 2
t125 = t35 ** (0.1e1 / 0.3e1)
t126 = t125 ** 2
t130 = t92 / 0.4e1 + t99 / 0.4e1 - (s0 + 0.2e1 * s1 + s2) / t126 / t124
t143 = t34 ** 2
t145 = t143 / t124
t158 = params_a_omega[10] * t80 * t101 / 0.2e1 + params_a_omega[11] * t114 * t101 / 0.2e1 + params_a_omega[12] * t20 * t130 + params_a_omega[13] * t27 * t130 + params_a_omega[14] * t80 * t130 + params_a_omega[15] * t114 * t130 + params_a_omega[16] * t6 * t145 + params_a_omega[17] * t13 * t145 + params_a_omega[18] * t20 * t145 + params_a_omega[19] * t27 * t145 + params_a_omega[20] * t35
res = (params_a_omega[0] * t6 + params_a_omega[1] * t13 + params_a_omega[2] * t20 + params_a_omega[3] * t27 + params_a_omega[4] * t13 * t60 / 0.2e1 + params_a_omega[5] * t20 * t60 / 0.2e1 + params_a_omega[6] * t27 * t60 / 0.2e1 + params_a_omega[7] * t80 * t60 / 0.2e1 + params_a_omega[8] * t20 * t101 / 0.2e1 + params_a_omega[9] * t27 * t101 / 0.2e1 + t158) * t36
" unpol "t2 = 2 ** (0.1e1 / 0.6e1)
t3 = t2 ** 2
t4 = t3 ** 2
t7 = r0 ** (0.1e1 / 0.6e1)
t8 = t7 * r0
t12 = 2 ** (0.1e1 / 0.3e1)
t13 = t12 ** 2
t15 = r0 ** (0.1e1 / 0.3e1)
t20 = math.sqrt(0.2e1)
t22 = math.sqrt(r0)
t23 = t22 * r0
t28 = t15 ** 2
t29 = t28 * r0
t34 = math.sqrt(s0)
t36 = p_a_zeta_threshold ** (0.1e1 / 0.3e1)
t38 = lax_cond(0.1e1 <= p_a_zeta_threshold, t36 * p_a_zeta_threshold, 1)
t64 = t38 ** 2
t70 = 0.1e1 / r0
t77 = t7 ** 2
t78 = t77 ** 2
t79 = t78 * t7
t93 = r0 ** 2
t96 = s0 / t28 / t93
t98 = t96 * t64 - t96
t119 = params_a_omega[0] * t4 * t2 * t8 / 0.2e1 + params_a_omega[1] * t13 * t15 * r0 / 0.2e1 + params_a_omega[2] * t20 * t23 / 0.2e1 + params_a_omega[3] * t12 * t29 / 0.2e1 + params_a_omega[4] * t13 * t34 * t38 / 0.4e1 + params_a_omega[5] * t20 * t7 * t34 * t38 / 0.4e1 + params_a_omega[6] * t12 * t15 * t34 * t38 / 0.4e1 + params_a_omega[7] * t2 * t22 * t34 * t38 / 0.4e1 + params_a_omega[8] * t20 / t8 * s0 * t64 / 0.8e1 + params_a_omega[9] * t12 * t70 * s0 * t64 / 0.8e1 + params_a_omega[10] * t2 / t79 * s0 * t64 / 0.8e1 + params_a_omega[11] / t28 * s0 * t64 / 0.8e1 + params_a_omega[12] * t20 * t23 * t98 / 0.2e1 + params_a_omega[13] * t12 * t29 * t98 / 0.2e1 + params_a_omega[14] * t2 * t79 * r0 * t98 / 0.2e1 + params_a_omega[15] * t93 * t98 / 0.2e1 + params_a_omega[20] * r0
res = t119 * t70
"

/- gen_repo/impl/prebuilt/pol/gga_xc_th2.py and gen_repo/impl/prebuilt/unpol/gga_xc_th2.py -/
formula gga_xc_th2 pol "t1 = r0 ** (0.1e1 / 0.12e2)
t4 = r1 ** (0.1e1 / 0.12e2)
t7 = r0 ** (0.1e1 / 0.6e1)
t8 = t7 * r0
t10 = r1 ** (0.1e1 / 0.6e1)
t11 = t10 * r1
t13 = r0 ** (0.1e1 / 0.3e1)
t14 = t13 * r0
t16 = r1 ** (0.1e1 / 0.3e1)
t17 = t16 * r1
t19 = math.sqrt(r0)
t20 = t19 * r0
t22 = math.sqrt(r1)
t23 = t22 * r1
t25 = t13 ** 2
t26 = t25 * r0
t28 = t16 ** 2
t29 = t28 * r1
t31 = t1 ** 2
t32 = t31 ** 2
t35 = t4 ** 2
t36 = t35 ** 2
t40 = math.sqrt(s0)
t43 = r0 - r1
t44 = r0 + r1
t45 = 0.1e1 / t44
t46 = t43 * t45
t47 = 0.1e1 + t46
t49 = p_a_zeta_threshold ** (0.1e1 / 0.3e1)
t50 = t49 * p_a_zeta_threshold
t51 = t47 ** (0.1e1 / 0.3e1)
t53 = lax_cond(t47 <= p_a_zeta_threshold, t50, t51 * t47)
t54 = 2 ** (0.1e1 / 0.3e1)
t55 = t54 ** 2
t58 = math.sqrt(s2)
t61 = 0.1e1 - t46
t63 = t61 ** (0.1e1 / 0.3e1)
t65 = lax_cond(t61 <= p_a_zeta_threshold, t50, t63 * t61)
t69 = t40 / t14 * t53 * t55 / 0.4e1 + t58 / t17 * t65 * t55 / 0.4e1
t72 = t20 + t23
t75 = 0.67883100000000000000e0 * t1 * r0 + 0.67883100000000000000e0 * t4 * r1 - 0.17582100000000000000e1 * t8 - 0.17582100000000000000e1 * t11 + 0.12767600000000000000e1 * t14 + 0.12767600000000000000e1 * t17 - 0.16078900000000000000e1 * t20 - 0.16078900000000000000e1 * t23 + 0.36561000000000000000e0 * t26 + 0.36561000000000000000e0 * t29 - 0.90663500000000000000e-1 * (t32 * t1 * r0 + t36 * t4 * r1) * t69 + 0.73486500000000000000e-1 * t72 * t69
t76 = t26 + t29
t79 = t7 ** 2
t80 = t79 ** 2
t83 = t10 ** 2
t84 = t83 ** 2
t87 = t80 * t7 * r0 + t84 * t10 * r1
t90 = r0 ** 2
t94 = t53 ** 2
t96 = s0 / t25 / t90 * t94 * t54
t97 = r1 ** 2
t101 = t65 ** 2
t103 = s2 / t28 / t97 * t101 * t54
t105 = t96 / 0.8e1 + t103 / 0.8e1
t110 = t90 + t97
t117 = t44 ** 2
t118 = t44 ** (0.1e1 / 0.3e1)
t119 = t118 ** 2
t123 = t96 / 0.4e1 + t103 / 0.4e1 - (s0 + 0.2e1 * s1 + s2) / t119 / t117
t131 = t43 ** 2
t133 = 0.1e1 / t117
t143 = r0 ** 0.16666666666666666667e1
t144 = r1 ** 0.16666666666666666667e1
t149 = 0.73570500000000000000e-1 * t76 * t69 - 0.35845850000000000000e-1 * t87 * t69 - 0.20358350000000000000e-1 * t76 * t105 + 0.10731250000000000000e-1 * t87 * t105 - 0.38407800000000000000e-3 * t110 * t105 + 0.31037700000000000000e-1 * t76 * t123 - 0.72032600000000000000e-1 * t87 * t123 + 0.44656200000000000000e-1 * t110 * t123 - 0.26680200000000000000e0 * (t8 + t11) * t131 * t133 + 0.15082200000000000000e1 * (t14 + t17) * t131 * t133 - 0.19451500000000000000e1 * t72 * t131 * t133 + 0.67907800000000000000e0 * (t143 + t144) * t131 * t133
res = (t75 + t149) * t45
" unpol "t1 = 2 ** (0.1e1 / 0.12e2)
t2 = t1 ** 2
t3 = t2 * t1
t4 = t2 ** 2
t5 = t4 ** 2
t7 = r0 ** (0.1e1 / 0.12e2)
t11 = 2 ** (0.1e1 / 0.6e1)
t12 = t11 ** 2
t13 = t12 ** 2
t15 = r0 ** (0.1e1 / 0.6e1)
t19 = 2 ** (0.1e1 / 0.3e1)
t20 = t19 ** 2
t21 = r0 ** (0.1e1 / 0.3e1)
t25 = math.sqrt(0.2e1)
t26 = math.sqrt(r0)
t30 = t21 ** 2
t32 = t19 * t30 * r0
t36 = math.sqrt(s0)
t38 = p_a_zeta_threshold ** (0.1e1 / 0.3e1)
t40 = lax_cond(0.1e1 <= p_a_zeta_threshold, t38 * p_a_zeta_threshold, 1)
t41 = t36 * t40
t53 = 0.1e1 / r0
t55 = t40 ** 2
t56 = s0 * t55
t59 = t15 ** 2
t60 = t59 ** 2
t61 = t60 * t15
t70 = r0 ** 2
t73 = s0 / t30 / t70
t75 = t73 * t55 - t73
t84 = 0.33941550000000000000e0 * t5 * t3 * t7 * r0 - 0.87910500000000000000e0 * t13 * t11 * t15 * r0 + 0.63838000000000000000e0 * t20 * t21 * r0 - 0.80394500000000000000e0 * t25 * t26 * r0 + 0.18280500000000000000e0 * t32 - 0.45331750000000000000e-1 * t4 * t3 * t7 * t41 + 0.36743250000000000000e-1 * t25 * t15 * t41 + 0.36785250000000000000e-1 * t19 * t21 * t41 - 0.17922925000000000000e-1 * t11 * t26 * t41 - 0.50895875000000000000e-2 * t19 * t53 * t56 + 0.26828125000000000000e-2 * t11 / t61 * t56 - 0.96019500000000000000e-4 / t30 * s0 * t55 + 0.15518850000000000000e-1 * t32 * t75 - 0.36016300000000000000e-1 * t11 * t61 * r0 * t75 + 0.22328100000000000000e-1 * t70 * t75
res = t84 * t53
"

/- gen_repo/impl/prebuilt/pol/gga_xc_th3.py and gen_repo/impl/prebuilt/unpol/gga_xc_th3.py -/
formula gga_xc_th3 pol "t2 = r0 ** (0.1e1 / 0.6e1)
t4 = r1 ** (0.1e1 / 0.6e1)
t6 = t2 * r0 + t4 * r1
t9 = r0 ** (0.1e1 / 0.3e1)
t10 = t9 * r0
t11 = r1 ** (0.1e1 / 0.3e1)
t12 = t11 * r1
t13 = t10 + t12
t16 = math.sqrt(r0)
t18 = math.sqrt(r1)
t20 = t16 * r0 + t18 * r1
t23 = t9 ** 2
t25 = t11 ** 2
t27 = t23 * r0 + t25 * r1
t30 = r0 ** (0.1e1 / 0.12e2)
t31 = t30 ** 2
t32 = t31 ** 2
t35 = r1 ** (0.1e1 / 0.12e2)
t36 = t35 ** 2
t37 = t36 ** 2
t42 = math.sqrt(s0)
t45 = r0 - r1
t46 = r0 + r1
t47 = 0.1e1 / t46
t48 = t45 * t47
t49 = 0.1e1 + t48
t51 = p_a_zeta_threshold ** (0.1e1 / 0.3e1)
t52 = t51 * p_a_zeta_threshold
t53 = t49 ** (0.1e1 / 0.3e1)
t55 = lax_cond(t49 <= p_a_zeta_threshold, t52, t53 * t49)
t56 = 2 ** (0.1e1 / 0.3e1)
t57 = t56 ** 2
t60 = math.sqrt(s2)
t63 = 0.1e1 - t48
t65 = t63 ** (0.1e1 / 0.3e1)
t67 = lax_cond(t63 <= p_a_zeta_threshold, t52, t65 * t63)
t71 = t42 / t10 * t55 * t57 / 0.4e1 + t60 / t12 * t67 * t57 / 0.4e1
t83 = t2 ** 2
t84 = t83 ** 2
t87 = t4 ** 2
t88 = t87 ** 2
t91 = t84 * t2 * r0 + t88 * t4 * r1
t97 = r0 ** 2
t101 = t55 ** 2
t103 = s0 / t23 / t97 * t101 * t56
t104 = r1 ** 2
t108 = t67 ** 2
t110 = s2 / t25 / t104 * t108 * t56
t112 = t103 / 0.8e1 + t110 / 0.8e1
t120 = t97 + t104
t130 = t46 ** 2
t131 = t46 ** (0.1e1 / 0.3e1)
t132 = t131 ** 2
t136 = t103 / 0.4e1 + t110 / 0.4e1 - (s0 + 0.2e1 * s1 + s2) / t132 / t130
t146 = t45 ** 2
t148 = t146 / t130
t160 = r0 ** 0.10833333333333333333e1
t161 = r1 ** 0.10833333333333333333e1
t164 = params_a_omega[0] * t6 + params_a_omega[1] * t13 + params_a_omega[2] * t20 + params_a_omega[3] * t27 + params_a_omega[4] * (t32 * t30 * r0 + t37 * t35 * r1) * t71 / 0.2e1 + params_a_omega[5] * t20 * t71 / 0.2e1 + params_a_omega[6] * t27 * t71 / 0.2e1 + params_a_omega[7] * t91 * t71 / 0.2e1 + params_a_omega[8] * t27 * t112 / 0.2e1 + params_a_omega[9] * t91 * t112 / 0.2e1 + params_a_omega[10] * t120 * t112 / 0.2e1 + params_a_omega[11] * t27 * t136 + params_a_omega[12] * t91 * t136 + params_a_omega[13] * t120 * t136 + params_a_omega[14] * t6 * t148 + params_a_omega[15] * t13 * t148 + params_a_omega[16] * t20 * t148 + params_a_omega[17] * t27 * t148 + params_a_omega[18] * (t160 + t161)
res = t164 * t47
" unpol "t2 = 2 ** (0.1e1 / 0.6e1)
t3 = t2 ** 2
t4 = t3 ** 2
t7 = r0 ** (0.1e1 / 0.6e1)
t12 = 2 ** (0.1e1 / 0.3e1)
t13 = t12 ** 2
t15 = r0 ** (0.1e1 / 0.3e1)
t20 = math.sqrt(0.2e1)
t22 = math.sqrt(r0)
t28 = t15 ** 2
t29 = t28 * r0
t33 = 2 ** (0.1e1 / 0.12e2)
t34 = t33 ** 2
t36 = t34 ** 2
t39 = r0 ** (0.1e1 / 0.12e2)
t40 = math.sqrt(s0)
t43 = p_a_zeta_threshold ** (0.1e1 / 0.3e1)
t45 = lax_cond(0.1e1 <= p_a_zeta_threshold, t43 * p_a_zeta_threshold, 1)
t69 = 0.1e1 / r0
t71 = t45 ** 2
t77 = t7 ** 2
t78 = t77 ** 2
t79 = t78 * t7
t93 = r0 ** 2
t96 = s0 / t28 / t93
t98 = t96 * t71 - t96
t113 = r0 ** 0.10833333333333333333e1
t116 = params_a_omega[0] * t4 * t2 * t7 * r0 / 0.2e1 + params_a_omega[1] * t13 * t15 * r0 / 0.2e1 + params_a_omega[2] * t20 * t22 * r0 / 0.2e1 + params_a_omega[3] * t12 * t29 / 0.2e1 + params_a_omega[4] * t36 * t34 * t33 * t39 * t40 * t45 / 0.4e1 + params_a_omega[5] * t20 * t7 * t40 * t45 / 0.4e1 + params_a_omega[6] * t12 * t15 * t40 * t45 / 0.4e1 + params_a_omega[7] * t2 * t22 * t40 * t45 / 0.4e1 + params_a_omega[8] * t12 * t69 * s0 * t71 / 0.8e1 + params_a_omega[9] * t2 / t79 * s0 * t71 / 0.8e1 + params_a_omega[10] / t28 * s0 * t71 / 0.8e1 + params_a_omega[11] * t12 * t29 * t98 / 0.2e1 + params_a_omega[12] * t2 * t79 * r0 * t98 / 0.2e1 + params_a_omega[13] * t93 * t98 / 0.2e1 + 0.94387431268169349665e0 * params_a_omega[18] * t113
res = t116 * t69
"

/- gen_repo/impl/prebuilt/pol/hyb_gga_x_cam_s12.py and gen_repo/impl/prebuilt/unpol/hyb_gga_x_cam_s12.py -/
formula hyb_gga_x_cam_s12 pol "t2 = 3 ** (0.1e1 / 0.3e1)
t3 = math.pi ** (0.1e1 / 0.3e1)
t5 = t2 / t3
t6 = r0 + r1
t7 = 0.1e1 / t6
t10 = 0.2e1 * r0 * t7 <= p_a_zeta_threshold
t11 = p_a_zeta_threshold - 0.1e1
t14 = 0.2e1 * r1 * t7 <= p_a_zeta_threshold
t15 = -t11
t17 = (r0 - r1) * t7
t18 = lax_cond(t14, t15, t17)
t19 = lax_cond(t10, t11, t18)
t20 = 0.1e1 + t19
t22 = p_a_zeta_threshold ** (0.1e1 / 0.3e1)
t23 = t22 * p_a_zeta_threshold
t24 = t20 ** (0.1e1 / 0.3e1)
t26 = lax_cond(t20 <= p_a_zeta_threshold, t23, t24 * t20)
t28 = t6 ** (0.1e1 / 0.3e1)
t30 = r0 ** 2
t31 = r0 ** (0.1e1 / 0.3e1)
t32 = t31 ** 2
t34 = 0.1e1 / t32 / t30
t36 = s0 ** 2
t38 = t30 ** 2
t53 = params_a_A + params_a_B * (0.1e1 - 0.1e1 / (0.1e1 + params_a_C * s0 * t34 + params_a_D * t36 / t31 / t38 / r0)) * (0.1e1 - 0.1e1 / (params_a_E * s0 * t34 + 0.1e1))
t55 = t2 ** 2
t56 = math.pi * t55
t58 = (0.1e1 / math.pi) ** (0.1e1 / 0.3e1)
t60 = 4 ** (0.1e1 / 0.3e1)
t61 = 0.1e1 / t58 * t60
t65 = math.sqrt(t56 * t61 / t53)
t68 = 2 ** (0.1e1 / 0.3e1)
t70 = (t20 * t6) ** (0.1e1 / 0.3e1)
t74 = p_a_cam_omega / t65 * t68 / t70 / 0.2e1
t76 = 0.135e1 < t74
t77 = lax_cond(t76, t74, 0.135e1)
t78 = t77 ** 2
t81 = t78 ** 2
t84 = t81 * t78
t87 = t81 ** 2
t99 = t87 ** 2
t103 = lax_cond(t76, 0.135e1, t74)
t104 = math.sqrt(math.pi)
t107 = math.erf(0.1e1 / t103 / 0.2e1)
t109 = t103 ** 2
t112 = math.exp(-0.1e1 / t109 / 0.4e1)
t123 = lax_cond(0.135e1 <= t74, 0.1e1 / t78 / 0.36e2 - 0.1e1 / t81 / 0.960e3 + 0.1e1 / t84 / 0.26880e5 - 0.1e1 / t87 / 0.829440e6 + 0.1e1 / t87 / t78 / 0.28385280e8 - 0.1e1 / t87 / t81 / 0.1073479680e10 + 0.1e1 / t87 / t84 / 0.44590694400e11 - 0.1e1 / t99 / 0.2021444812800e13, 0.1e1 - 0.8e1 / 0.3e1 * t103 * (t104 * t107 + 0.2e1 * t103 * (t112 - 0.3e1 / 0.2e1 - 0.2e1 * t109 * (t112 - 0.1e1))))
t129 = lax_cond(r0 <= p_a_dens_threshold, 0, -0.3e1 / 0.8e1 * t5 * t26 * t28 * t53 * (-p_a_cam_beta * t123 - p_a_cam_alpha + 0.1e1))
t131 = lax_cond(t10, t15, -t17)
t132 = lax_cond(t14, t11, t131)
t133 = 0.1e1 + t132
t135 = t133 ** (0.1e1 / 0.3e1)
t137 = lax_cond(t133 <= p_a_zeta_threshold, t23, t135 * t133)
t140 = r1 ** 2
t141 = r1 ** (0.1e1 / 0.3e1)
t142 = t141 ** 2
t144 = 0.1e1 / t142 / t140
t146 = s2 ** 2
t148 = t140 ** 2
t163 = params_a_A + params_a_B * (0.1e1 - 0.1e1 / (0.1e1 + params_a_C * s2 * t144 + params_a_D * t146 / t141 / t148 / r1)) * (0.1e1 - 0.1e1 / (params_a_E * s2 * t144 + 0.1e1))
t168 = math.sqrt(t56 * t61 / t163)
t172 = (t133 * t6) ** (0.1e1 / 0.3e1)
t176 = p_a_cam_omega / t168 * t68 / t172 / 0.2e1
t178 = 0.135e1 < t176
t179 = lax_cond(t178, t176, 0.135e1)
t180 = t179 ** 2
t183 = t180 ** 2
t186 = t183 * t180
t189 = t183 ** 2
t201 = t189 ** 2
t205 = lax_cond(t178, 0.135e1, t176)
t208 = math.erf(0.1e1 / t205 / 0.2e1)
t210 = t205 ** 2
t213 = math.exp(-0.1e1 / t210 / 0.4e1)
t224 = lax_cond(0.135e1 <= t176, 0.1e1 / t180 / 0.36e2 - 0.1e1 / t183 / 0.960e3 + 0.1e1 / t186 / 0.26880e5 - 0.1e1 / t189 / 0.829440e6 + 0.1e1 / t189 / t180 / 0.28385280e8 - 0.1e1 / t189 / t183 / 0.1073479680e10 + 0.1e1 / t189 / t186 / 0.44590694400e11 - 0.1e1 / t201 / 0.2021444812800e13, 0.1e1 - 0.8e1 / 0.3e1 * t205 * (t104 * t208 + 0.2e1 * t205 * (t213 - 0.3e1 / 0.2e1 - 0.2e1 * t210 * (t213 - 0.1e1))))
t230 = lax_cond(r1 <= p_a_dens_threshold, 0, -0.3e1 / 0.8e1 * t5 * t137 * t28 * t163 * (-p_a_cam_beta * t224 - p_a_cam_alpha + 0.1e1))
res = t129 + t230
" unpol "t3 = 3 ** (0.1e1 / 0.3e1)
t4 = math.pi ** (0.1e1 / 0.3e1)
t7 = 0.1e1 <= p_a_zeta_threshold
t8 = p_a_zeta_threshold - 0.1e1
t10 = lax_cond(t7, -t8, 0)
t11 = lax_cond(t7, t8, t10)
t12 = 0.1e1 + t11
t14 = p_a_zeta_threshold ** (0.1e1 / 0.3e1)
t16 = t12 ** (0.1e1 / 0.3e1)
t18 = lax_cond(t12 <= p_a_zeta_threshold, t14 * p_a_zeta_threshold, t16 * t12)
t20 = r0 ** (0.1e1 / 0.3e1)
t22 = 2 ** (0.1e1 / 0.3e1)
t23 = t22 ** 2
t24 = r0 ** 2
t25 = t20 ** 2
t28 = t23 / t25 / t24
t30 = s0 ** 2
t32 = t24 ** 2
t49 = params_a_A + params_a_B * (0.1e1 - 0.1e1 / (0.1e1 + params_a_C * s0 * t28 + 0.2e1 * params_a_D * t30 * t22 / t20 / t32 / r0)) * (0.1e1 - 0.1e1 / (params_a_E * s0 * t28 + 0.1e1))
t51 = t3 ** 2
t54 = (0.1e1 / math.pi) ** (0.1e1 / 0.3e1)
t56 = 4 ** (0.1e1 / 0.3e1)
t61 = math.sqrt(math.pi * t51 / t54 * t56 / t49)
t65 = (t12 * r0) ** (0.1e1 / 0.3e1)
t69 = p_a_cam_omega / t61 * t22 / t65 / 0.2e1
t71 = 0.135e1 < t69
t72 = lax_cond(t71, t69, 0.135e1)
t73 = t72 ** 2
t76 = t73 ** 2
t79 = t76 * t73
t82 = t76 ** 2
t94 = t82 ** 2
t98 = lax_cond(t71, 0.135e1, t69)
t99 = math.sqrt(math.pi)
t102 = math.erf(0.1e1 / t98 / 0.2e1)
t104 = t98 ** 2
t107 = math.exp(-0.1e1 / t104 / 0.4e1)
t118 = lax_cond(0.135e1 <= t69, 0.1e1 / t73 / 0.36e2 - 0.1e1 / t76 / 0.960e3 + 0.1e1 / t79 / 0.26880e5 - 0.1e1 / t82 / 0.829440e6 + 0.1e1 / t82 / t73 / 0.28385280e8 - 0.1e1 / t82 / t76 / 0.1073479680e10 + 0.1e1 / t82 / t79 / 0.44590694400e11 - 0.1e1 / t94 / 0.2021444812800e13, 0.1e1 - 0.8e1 / 0.3e1 * t98 * (t99 * t102 + 0.2e1 * t98 * (t107 - 0.3e1 / 0.2e1 - 0.2e1 * t104 * (t107 - 0.1e1))))
t124 = lax_cond(r0 / 0.2e1 <= p_a_dens_threshold, 0, -0.3e1 / 0.8e1 * t3 / t4 * t18 * t20 * t49 * (-p_a_cam_beta * t118 - p_a_cam_alpha + 0.1e1))
res = 0.2e1 * t124
"

/- gen_repo/impl/prebuilt/pol/hyb_gga_xc_case21.py and gen_repo/impl/prebuilt/unpol/hyb_gga_xc_case21.py -/
formula hyb_gga_xc_case21 pol "t3 = 3 ** (0.1e1 / 0.3e1)
t4 = math.pi ** (0.1e1 / 0.3e1)
t6 = t3 / t4
t7 = r0 + r1
t8 = 0.1e1 / t7
t11 = 0.2e1 * r0 * t8 <= p_a_zeta_threshold
t12 = p_a_zeta_threshold - 0.1e1
t15 = 0.2e1 * r1 * t8 <= p_a_zeta_threshold
t16 = -t12
t17 = r0 - r1
t18 = t17 * t8
t19 = lax_cond(t15, t16, t18)
t20 = lax_cond(t11, t12, t19)
t21 = 0.1e1 + t20
t23 = p_a_zeta_threshold ** (0.1e1 / 0.3e1)
t24 = t23 * p_a_zeta_threshold
t25 = t21 ** (0.1e1 / 0.3e1)
t27 = lax_cond(t21 <= p_a_zeta_threshold, t24, t25 * t21)
t28 = t7 ** (0.1e1 / 0.3e1)
t30 = 6 ** (0.1e1 / 0.3e1)
t31 = params_a_gammax * t30
t32 = math.pi ** 2
t33 = t32 ** (0.1e1 / 0.3e1)
t34 = t33 ** 2
t35 = 0.1e1 / t34
t36 = t31 * t35
t37 = r0 ** 2
t38 = r0 ** (0.1e1 / 0.3e1)
t39 = t38 ** 2
t41 = 0.1e1 / t39 / t37
t52 = xbspline(t36 * s0 * t41 / (0.1e1 + t31 * t35 * s0 * t41 / 0.24e2) / 0.24e2, 0, params)
t56 = lax_cond(r0 <= p_a_dens_threshold, 0, -0.3e1 / 0.8e1 * t6 * t27 * t28 * t52)
t58 = lax_cond(t11, t16, -t18)
t59 = lax_cond(t15, t12, t58)
t60 = 0.1e1 + t59
t62 = t60 ** (0.1e1 / 0.3e1)
t64 = lax_cond(t60 <= p_a_zeta_threshold, t24, t62 * t60)
t66 = r1 ** 2
t67 = r1 ** (0.1e1 / 0.3e1)
t68 = t67 ** 2
t70 = 0.1e1 / t68 / t66
t81 = xbspline(t36 * s2 * t70 / (0.1e1 + t31 * t35 * s2 * t70 / 0.24e2) / 0.24e2, 0, params)
t85 = lax_cond(r1 <= p_a_dens_threshold, 0, -0.3e1 / 0.8e1 * t6 * t64 * t28 * t81)
t88 = t18 + 0.1e1
t89 = t88 <= p_a_zeta_threshold
t90 = t23 ** 2
t91 = t88 ** (0.1e1 / 0.3e1)
t92 = t91 ** 2
t93 = lax_cond(t89, t90, t92)
t94 = 0.1e1 - t18
t95 = t94 <= p_a_zeta_threshold
t96 = t94 ** (0.1e1 / 0.3e1)
t97 = t96 ** 2
t98 = lax_cond(t95, t90, t97)
t101 = t3 ** 2
t102 = (t93 / 0.2e1 + t98 / 0.2e1) * t101
t104 = math.sqrt(s0)
t105 = math.sqrt(s2)
t107 = (t104 + t105) ** 2
t108 = t7 ** 2
t110 = 0.1e1 / t28 / t108
t117 = (0.1e1 / math.pi) ** (0.1e1 / 0.3e1)
t119 = 4 ** (0.1e1 / 0.3e1)
t120 = t119 ** 2
t123 = t3 * t117 * t120 / t28
t126 = math.sqrt(t123)
t129 = t123 ** 0.15e1
t131 = t117 ** 2
t133 = t28 ** 2
t136 = t101 * t131 * t119 / t133
t142 = math.log(0.1e1 + 0.16081979498692535067e2 / (0.37978500000000000000e1 * t126 + 0.89690000000000000000e0 * t123 + 0.20477500000000000000e0 * t129 + 0.12323500000000000000e0 * t136))
t144 = 0.621814e-1 * (0.1e1 + 0.53425000000000000000e-1 * t123) * t142
t145 = t17 ** 2
t146 = t145 ** 2
t147 = t108 ** 2
t151 = lax_cond(t89, t24, t91 * t88)
t153 = lax_cond(t95, t24, t96 * t94)
t155 = 2 ** (0.1e1 / 0.3e1)
t159 = (t151 + t153 - 0.2e1) / (0.2e1 * t155 - 0.2e1)
t170 = math.log(0.1e1 + 0.32163958997385070134e2 / (0.70594500000000000000e1 * t126 + 0.15494250000000000000e1 * t123 + 0.42077500000000000000e0 * t129 + 0.15629250000000000000e0 * t136))
t183 = math.log(0.1e1 + 0.29608749977793437516e2 / (0.51785000000000000000e1 * t126 + 0.90577500000000000000e0 * t123 + 0.11003250000000000000e0 * t129 + 0.12417750000000000000e0 * t136))
t184 = (0.1e1 + 0.27812500000000000000e-1 * t123) * t183
t191 = -t144 + t146 / t147 * t159 * (-0.3109070e-1 * (0.1e1 + 0.51370000000000000000e-1 * t123) * t170 + t144 - 0.19751673498613801407e-1 * t184) + 0.19751673498613801407e-1 * t159 * t184
t198 = cbspline(-t102 * t4 * t107 * t110 / (-t102 * t4 * t107 * t110 / 0.48e2 + params_a_gammac * t191) / 0.48e2, 0, params)
res = (0.1e1 - params_a_ax) * (t56 + t85) + t198 * t191
" unpol "t4 = 3 ** (0.1e1 / 0.3e1)
t5 = math.pi ** (0.1e1 / 0.3e1)
t8 = 0.1e1 <= p_a_zeta_threshold
t9 = p_a_zeta_threshold - 0.1e1
t11 = lax_cond(t8, -t9, 0)
t12 = lax_cond(t8, t9, t11)
t13 = 0.1e1 + t12
t15 = p_a_zeta_threshold ** (0.1e1 / 0.3e1)
t16 = t15 * p_a_zeta_threshold
t17 = t13 ** (0.1e1 / 0.3e1)
t19 = lax_cond(t13 <= p_a_zeta_threshold, t16, t17 * t13)
t20 = r0 ** (0.1e1 / 0.3e1)
t22 = 6 ** (0.1e1 / 0.3e1)
t24 = math.pi ** 2
t25 = t24 ** (0.1e1 / 0.3e1)
t26 = t25 ** 2
t28 = params_a_gammax * t22 / t26
t29 = 2 ** (0.1e1 / 0.3e1)
t30 = t29 ** 2
t31 = s0 * t30
t32 = r0 ** 2
t33 = t20 ** 2
t35 = 0.1e1 / t33 / t32
t45 = xbspline(t28 * t31 * t35 / (0.1e1 + t28 * t31 * t35 / 0.24e2) / 0.24e2, 0, params)
t49 = lax_cond(r0 / 0.2e1 <= p_a_dens_threshold, 0, -0.3e1 / 0.8e1 * t4 / t5 * t19 * t20 * t45)
t52 = t15 ** 2
t53 = lax_cond(t8, t52, 1)
t54 = t4 ** 2
t55 = t53 * t54
t58 = 0.1e1 / t20 / t32
t65 = (0.1e1 / math.pi) ** (0.1e1 / 0.3e1)
t67 = 4 ** (0.1e1 / 0.3e1)
t68 = t67 ** 2
t71 = t4 * t65 * t68 / t20
t74 = math.sqrt(t71)
t77 = t71 ** 0.15e1
t79 = t65 ** 2
t83 = t54 * t79 * t67 / t33
t89 = math.log(0.1e1 + 0.16081979498692535067e2 / (0.37978500000000000000e1 * t74 + 0.89690000000000000000e0 * t71 + 0.20477500000000000000e0 * t77 + 0.12323500000000000000e0 * t83))
t92 = lax_cond(t8, t16, 1)
t109 = math.log(0.1e1 + 0.29608749977793437516e2 / (0.51785000000000000000e1 * t74 + 0.90577500000000000000e0 * t71 + 0.11003250000000000000e0 * t77 + 0.12417750000000000000e0 * t83))
t113 = -0.621814e-1 * (0.1e1 + 0.53425000000000000000e-1 * t71) * t89 + 0.19751673498613801407e-1 * (0.2e1 * t92 - 0.2e1) / (0.2e1 * t29 - 0.2e1) * (0.1e1 + 0.27812500000000000000e-1 * t71) * t109
t120 = cbspline(-t55 * t5 * s0 * t58 / (-t55 * t5 * s0 * t58 / 0.48e2 + params_a_gammac * t113) / 0.48e2, 0, params)
res = 0.2e1 * (0.1e1 - params_a_ax) * t49 + t120 * t113
"

/- gen_repo/impl/prebuilt/pol/hyb_gga_xc_wb97.py and gen_repo/impl/prebuilt/unpol/hyb_gga_xc_wb97.py -/
formula hyb_gga_xc_wb97 pol "t2 = r0 - r1
t3 = r0 + r1
t5 = t2 / t3
t6 = 0.1e1 + t5
t7 = t6 <= p_a_zeta_threshold
t8 = jnp.logical_or(r0 <= p_a_dens_threshold, t7)
t9 = 3 ** (0.1e1 / 0.3e1)
t12 = (0.1e1 / math.pi) ** (0.1e1 / 0.3e1)
t13 = 4 ** (0.1e1 / 0.3e1)
t14 = t13 ** 2
t16 = 2 ** (0.1e1 / 0.3e1)
t17 = t12 * t14 * t16
t19 = 0.2e1 <= p_a_zeta_threshold
t20 = p_a_zeta_threshold ** (0.1e1 / 0.3e1)
t21 = t20 * p_a_zeta_threshold
t23 = lax_cond(t19, t21, 0.2e1 * t16)
t24 = t3 ** (0.1e1 / 0.3e1)
t25 = t23 * t24
t27 = (0.1e1 / t6) ** (0.1e1 / 0.3e1)
t29 = 9 ** (0.1e1 / 0.3e1)
t30 = t29 ** 2
t31 = t12 ** 2
t34 = t30 * t31 * p_a_cam_omega * t9
t35 = 0.1e1 / t24
t36 = t35 * t16
t37 = lax_cond(t19, t20, t16)
t38 = 0.1e1 / t37
t42 = t34 * t36 * t27 * t38 / 0.18e2
t44 = 0.135e1 < t42
t45 = lax_cond(t44, t42, 0.135e1)
t46 = t45 ** 2
t49 = t46 ** 2
t52 = t49 * t46
t55 = t49 ** 2
t67 = t55 ** 2
t71 = lax_cond(t44, 0.135e1, t42)
t72 = math.sqrt(math.pi)
t75 = math.erf(0.1e1 / t71 / 0.2e1)
t77 = t71 ** 2
t80 = math.exp(-0.1e1 / t77 / 0.4e1)
t91 = lax_cond(0.135e1 <= t42, 0.1e1 / t46 / 0.36e2 - 0.1e1 / t49 / 0.960e3 + 0.1e1 / t52 / 0.26880e5 - 0.1e1 / t55 / 0.829440e6 + 0.1e1 / t55 / t46 / 0.28385280e8 - 0.1e1 / t55 / t49 / 0.1073479680e10 + 0.1e1 / t55 / t52 / 0.44590694400e11 - 0.1e1 / t67 / 0.2021444812800e13, 0.1e1 - 0.8e1 / 0.3e1 * t71 * (t72 * t75 + 0.2e1 * t71 * (t80 - 0.3e1 / 0.2e1 - 0.2e1 * t77 * (t80 - 0.1e1))))
t93 = params_a_c_x[0]
t94 = params_a_c_x[1]
t96 = r0 ** 2
t97 = r0 ** (0.1e1 / 0.3e1)
t98 = t97 ** 2
t100 = 0.1e1 / t98 / t96
t101 = s0 * t100
t103 = 0.1e1 + 0.4e-2 * t101
t108 = params_a_c_x[2]
t109 = s0 ** 2
t111 = t96 ** 2
t114 = 0.1e1 / t97 / t111 / r0
t115 = t103 ** 2
t120 = params_a_c_x[3]
t121 = t109 * s0
t123 = t111 ** 2
t124 = 0.1e1 / t123
t130 = params_a_c_x[4]
t131 = t109 ** 2
t135 = 0.1e1 / t98 / t123 / t96
t136 = t115 ** 2
t146 = lax_cond(t8, 0, -0.3e1 / 0.64e2 * t6 * t9 * t17 * t25 / t27 * t91 * (t93 + 0.4e-2 * t94 * s0 * t100 / t103 + 0.16e-4 * t108 * t109 * t114 / t115 + 0.64e-7 * t120 * t121 * t124 / t115 / t103 + 0.256e-9 * t130 * t131 * t135 / t136))
t148 = 0.1e1 - t5
t149 = t148 <= p_a_zeta_threshold
t150 = jnp.logical_or(r1 <= p_a_dens_threshold, t149)
t154 = (0.1e1 / t148) ** (0.1e1 / 0.3e1)
t159 = t34 * t36 * t154 * t38 / 0.18e2
t161 = 0.135e1 < t159
t162 = lax_cond(t161, t159, 0.135e1)
t163 = t162 ** 2
t166 = t163 ** 2
t169 = t166 * t163
t172 = t166 ** 2
t184 = t172 ** 2
t188 = lax_cond(t161, 0.135e1, t159)
t191 = math.erf(0.1e1 / t188 / 0.2e1)
t193 = t188 ** 2
t196 = math.exp(-0.1e1 / t193 / 0.4e1)
t207 = lax_cond(0.135e1 <= t159, 0.1e1 / t163 / 0.36e2 - 0.1e1 / t166 / 0.960e3 + 0.1e1 / t169 / 0.26880e5 - 0.1e1 / t172 / 0.829440e6 + 0.1e1 / t172 / t163 / 0.28385280e8 - 0.1e1 / t172 / t166 / 0.1073479680e10 + 0.1e1 / t172 / t169 / 0.44590694400e11 - 0.1e1 / t184 / 0.2021444812800e13, 0.1e1 - 0.8e1 / 0.3e1 * t188 * (t72 * t191 + 0.2e1 * t188 * (t196 - 0.3e1 / 0.2e1 - 0.2e1 * t193 * (t196 - 0.1e1))))
t210 = r1 ** 2
t211 = r1 ** (0.1e1 / 0.3e1)
t212 = t211 ** 2
t214 = 0.1e1 / t212 / t210
t215 = s2 * t214
t217 = 0.1e1 + 0.4e-2 * t215
t222 = s2 ** 2
t224 = t210 ** 2
t227 = 0.1e1 / t211 / t224 / r1
t228 = t217 ** 2
t233 = t222 * s2
t235 = t224 ** 2
t236 = 0.1e1 / t235
t242 = t222 ** 2
t246 = 0.1e1 / t212 / t235 / t210
t247 = t228 ** 2
t257 = lax_cond(t150, 0, -0.3e1 / 0.64e2 * t148 * t9 * t17 * t25 / t154 * t207 * (t93 + 0.4e-2 * t94 * s2 * t214 / t217 + 0.16e-4 * t108 * t222 * t227 / t228 + 0.64e-7 * t120 * t233 * t236 / t228 / t217 + 0.256e-9 * t130 * t242 * t246 / t247))
t258 = lax_cond(t7, p_a_zeta_threshold, t6)
t259 = t9 * t12
t260 = t259 * t14
t261 = 0.1e1 / t20
t262 = t6 ** (0.1e1 / 0.3e1)
t264 = lax_cond(t7, t261, 0.1e1 / t262)
t266 = t260 * t36 * t264
t269 = math.sqrt(t266)
t272 = t266 ** 0.15e1
t274 = t9 ** 2
t275 = t274 * t31
t276 = t275 * t13
t277 = t24 ** 2
t278 = 0.1e1 / t277
t279 = t16 ** 2
t280 = t278 * t279
t281 = t264 ** 2
t283 = t276 * t280 * t281
t289 = math.log(0.1e1 + 0.16081824322151104822e2 / (0.37978500000000000000e1 * t269 + 0.89690000000000000000e0 * t266 + 0.20477500000000000000e0 * t272 + 0.12323500000000000000e0 * t283))
t291 = 0.62182e-1 * (0.1e1 + 0.53425000000000000000e-1 * t266) * t289
t293 = lax_cond(0.0e0 <= p_a_zeta_threshold, t21, 0)
t297 = 0.1e1 / (0.2e1 * t16 - 0.2e1)
t298 = (t23 + t293 - 0.2e1) * t297
t309 = math.log(0.1e1 + 0.32164683177870697974e2 / (0.70594500000000000000e1 * t269 + 0.15494250000000000000e1 * t266 + 0.42077500000000000000e0 * t272 + 0.15629250000000000000e0 * t283))
t322 = math.log(0.1e1 + 0.29608574643216675549e2 / (0.51785000000000000000e1 * t269 + 0.90577500000000000000e0 * t266 + 0.11003250000000000000e0 * t272 + 0.12417750000000000000e0 * t283))
t323 = (0.1e1 + 0.27812500000000000000e-1 * t266) * t322
t332 = lax_cond(t8, 0, t258 * (-t291 + t298 * (-0.31090e-1 * (0.1e1 + 0.51370000000000000000e-1 * t266) * t309 + t291 - 0.19751789702565206229e-1 * t323) + 0.19751789702565206229e-1 * t298 * t323) / 0.2e1)
t333 = params_a_c_ss[0]
t334 = params_a_c_ss[1]
t337 = 0.1e1 + 0.2e0 * t101
t342 = params_a_c_ss[2]
t344 = t337 ** 2
t349 = params_a_c_ss[3]
t356 = params_a_c_ss[4]
t358 = t344 ** 2
t365 = lax_cond(t149, p_a_zeta_threshold, t148)
t366 = t148 ** (0.1e1 / 0.3e1)
t368 = lax_cond(t149, t261, 0.1e1 / t366)
t370 = t260 * t36 * t368
t373 = math.sqrt(t370)
t376 = t370 ** 0.15e1
t378 = t368 ** 2
t380 = t276 * t280 * t378
t386 = math.log(0.1e1 + 0.16081824322151104822e2 / (0.37978500000000000000e1 * t373 + 0.89690000000000000000e0 * t370 + 0.20477500000000000000e0 * t376 + 0.12323500000000000000e0 * t380))
t388 = 0.62182e-1 * (0.1e1 + 0.53425000000000000000e-1 * t370) * t386
t399 = math.log(0.1e1 + 0.32164683177870697974e2 / (0.70594500000000000000e1 * t373 + 0.15494250000000000000e1 * t370 + 0.42077500000000000000e0 * t376 + 0.15629250000000000000e0 * t380))
t412 = math.log(0.1e1 + 0.29608574643216675549e2 / (0.51785000000000000000e1 * t373 + 0.90577500000000000000e0 * t370 + 0.11003250000000000000e0 * t376 + 0.12417750000000000000e0 * t380))
t413 = (0.1e1 + 0.27812500000000000000e-1 * t370) * t412
t422 = lax_cond(t150, 0, t365 * (-t388 + t298 * (-0.31090e-1 * (0.1e1 + 0.51370000000000000000e-1 * t370) * t399 + t388 - 0.19751789702565206229e-1 * t413) + 0.19751789702565206229e-1 * t298 * t413) / 0.2e1)
t425 = 0.1e1 + 0.2e0 * t215
t431 = t425 ** 2
t443 = t431 ** 2
t451 = t259 * t14 * t35
t454 = math.sqrt(t451)
t457 = t451 ** 0.15e1
t460 = t275 * t13 * t278
t466 = math.log(0.1e1 + 0.16081824322151104822e2 / (0.37978500000000000000e1 * t454 + 0.89690000000000000000e0 * t451 + 0.20477500000000000000e0 * t457 + 0.12323500000000000000e0 * t460))
t468 = 0.62182e-1 * (0.1e1 + 0.53425000000000000000e-1 * t451) * t466
t469 = t2 ** 2
t470 = t469 ** 2
t471 = t3 ** 2
t472 = t471 ** 2
t476 = lax_cond(t7, t21, t262 * t6)
t478 = lax_cond(t149, t21, t366 * t148)
t480 = (t476 + t478 - 0.2e1) * t297
t491 = math.log(0.1e1 + 0.32164683177870697974e2 / (0.70594500000000000000e1 * t454 + 0.15494250000000000000e1 * t451 + 0.42077500000000000000e0 * t457 + 0.15629250000000000000e0 * t460))
t504 = math.log(0.1e1 + 0.29608574643216675549e2 / (0.51785000000000000000e1 * t454 + 0.90577500000000000000e0 * t451 + 0.11003250000000000000e0 * t457 + 0.12417750000000000000e0 * t460))
t505 = (0.1e1 + 0.27812500000000000000e-1 * t451) * t504
t515 = t101 + t215
t519 = 0.1e1 + 0.30000000000000000000e-2 * t101 + 0.30000000000000000000e-2 * t215
t524 = t515 ** 2
t526 = t519 ** 2
t538 = t524 ** 2
t540 = t526 ** 2
res = t146 + t257 + t332 * (t333 + 0.2e0 * t334 * s0 * t100 / t337 + 0.4e-1 * t342 * t109 * t114 / t344 + 0.8e-2 * t349 * t121 * t124 / t344 / t337 + 0.16e-2 * t356 * t131 * t135 / t358) + t422 * (t333 + 0.2e0 * t334 * s2 * t214 / t425 + 0.4e-1 * t342 * t222 * t227 / t431 + 0.8e-2 * t349 * t233 * t236 / t431 / t425 + 0.16e-2 * t356 * t242 * t246 / t443) + (-t468 + t470 / t472 * t480 * (-0.31090e-1 * (0.1e1 + 0.51370000000000000000e-1 * t451) * t491 + t468 - 0.19751789702565206229e-1 * t505) + 0.19751789702565206229e-1 * t480 * t505 - t332 - t422) * (params_a_c_ab[0] + 0.30000000000000000000e-2 * params_a_c_ab[1] * t515 / t519 + 0.90000000000000000000e-5 * params_a_c_ab[2] * t524 / t526 + 0.27000000000000000000e-7 * params_a_c_ab[3] * t524 * t515 / t526 / t519 + 0.81000000000000000000e-10 * params_a_c_ab[4] * t538 / t540)
" unpol "t3 = 0.1e1 <= p_a_zeta_threshold
t4 = jnp.logical_or(r0 / 0.2e1 <= p_a_dens_threshold, t3)
t5 = 3 ** (0.1e1 / 0.3e1)
t7 = (0.1e1 / math.pi) ** (0.1e1 / 0.3e1)
t8 = t5 * t7
t9 = 4 ** (0.1e1 / 0.3e1)
t10 = t9 ** 2
t11 = 2 ** (0.1e1 / 0.3e1)
t14 = 0.2e1 <= p_a_zeta_threshold
t15 = p_a_zeta_threshold ** (0.1e1 / 0.3e1)
t16 = t15 * p_a_zeta_threshold
t18 = lax_cond(t14, t16, 0.2e1 * t11)
t19 = r0 ** (0.1e1 / 0.3e1)
t21 = 9 ** (0.1e1 / 0.3e1)
t22 = t21 ** 2
t23 = t7 ** 2
t26 = 0.1e1 / t19
t28 = lax_cond(t14, t15, t11)
t33 = t22 * t23 * p_a_cam_omega * t5 * t26 * t11 / t28 / 0.18e2
t35 = 0.135e1 < t33
t36 = lax_cond(t35, t33, 0.135e1)
t37 = t36 ** 2
t40 = t37 ** 2
t43 = t40 * t37
t46 = t40 ** 2
t58 = t46 ** 2
t62 = lax_cond(t35, 0.135e1, t33)
t63 = math.sqrt(math.pi)
t66 = math.erf(0.1e1 / t62 / 0.2e1)
t68 = t62 ** 2
t71 = math.exp(-0.1e1 / t68 / 0.4e1)
t82 = lax_cond(0.135e1 <= t33, 0.1e1 / t37 / 0.36e2 - 0.1e1 / t40 / 0.960e3 + 0.1e1 / t43 / 0.26880e5 - 0.1e1 / t46 / 0.829440e6 + 0.1e1 / t46 / t37 / 0.28385280e8 - 0.1e1 / t46 / t40 / 0.1073479680e10 + 0.1e1 / t46 / t43 / 0.44590694400e11 - 0.1e1 / t58 / 0.2021444812800e13, 0.1e1 - 0.8e1 / 0.3e1 * t62 * (t63 * t66 + 0.2e1 * t62 * (t71 - 0.3e1 / 0.2e1 - 0.2e1 * t68 * (t71 - 0.1e1))))
t86 = t11 ** 2
t87 = r0 ** 2
t88 = t19 ** 2
t90 = 0.1e1 / t88 / t87
t91 = t86 * t90
t93 = s0 * t86 * t90
t95 = 0.1e1 + 0.4e-2 * t93
t101 = s0 ** 2
t103 = t87 ** 2
t107 = t11 / t19 / t103 / r0
t108 = t95 ** 2
t114 = t101 * s0
t116 = t103 ** 2
t117 = 0.1e1 / t116
t124 = t101 ** 2
t129 = t86 / t88 / t116 / t87
t130 = t108 ** 2
t140 = lax_cond(t4, 0, -0.3e1 / 0.64e2 * t8 * t10 * t11 * t18 * t19 * t82 * (params_a_c_x[0] + 0.4e-2 * params_a_c_x[1] * s0 * t91 / t95 + 0.32e-4 * params_a_c_x[2] * t101 * t107 / t108 + 0.256e-6 * params_a_c_x[3] * t114 * t117 / t108 / t95 + 0.1024e-8 * params_a_c_x[4] * t124 * t129 / t130))
t142 = lax_cond(t3, p_a_zeta_threshold, 1)
t146 = lax_cond(t3, 0.1e1 / t15, 1)
t148 = t8 * t10 * t26 * t11 * t146
t151 = math.sqrt(t148)
t154 = t148 ** 0.15e1
t156 = t5 ** 2
t157 = t156 * t23
t159 = 0.1e1 / t88
t161 = t146 ** 2
t163 = t157 * t9 * t159 * t86 * t161
t169 = math.log(0.1e1 + 0.16081824322151104822e2 / (0.37978500000000000000e1 * t151 + 0.89690000000000000000e0 * t148 + 0.20477500000000000000e0 * t154 + 0.12323500000000000000e0 * t163))
t171 = 0.62182e-1 * (0.1e1 + 0.53425000000000000000e-1 * t148) * t169
t173 = lax_cond(0.0e0 <= p_a_zeta_threshold, t16, 0)
t177 = 0.1e1 / (0.2e1 * t11 - 0.2e1)
t178 = (t18 + t173 - 0.2e1) * t177
t189 = math.log(0.1e1 + 0.32164683177870697974e2 / (0.70594500000000000000e1 * t151 + 0.15494250000000000000e1 * t148 + 0.42077500000000000000e0 * t154 + 0.15629250000000000000e0 * t163))
t202 = math.log(0.1e1 + 0.29608574643216675549e2 / (0.51785000000000000000e1 * t151 + 0.90577500000000000000e0 * t148 + 0.11003250000000000000e0 * t154 + 0.12417750000000000000e0 * t163))
t203 = (0.1e1 + 0.27812500000000000000e-1 * t148) * t202
t212 = lax_cond(t4, 0, t142 * (-t171 + t178 * (-0.31090e-1 * (0.1e1 + 0.51370000000000000000e-1 * t148) * t189 + t171 - 0.19751789702565206229e-1 * t203) + 0.19751789702565206229e-1 * t178 * t203) / 0.2e1)
t217 = 0.1e1 + 0.2e0 * t93
t224 = t217 ** 2
t238 = t224 ** 2
t247 = t8 * t10 * t26
t250 = math.sqrt(t247)
t253 = t247 ** 0.15e1
t256 = t157 * t9 * t159
t262 = math.log(0.1e1 + 0.16081824322151104822e2 / (0.37978500000000000000e1 * t250 + 0.89690000000000000000e0 * t247 + 0.20477500000000000000e0 * t253 + 0.12323500000000000000e0 * t256))
t265 = lax_cond(t3, t16, 1)
t279 = math.log(0.1e1 + 0.29608574643216675549e2 / (0.51785000000000000000e1 * t250 + 0.90577500000000000000e0 * t247 + 0.11003250000000000000e0 * t253 + 0.12417750000000000000e0 * t256))
t289 = 0.1e1 + 0.6e-2 * t93
t296 = t289 ** 2
t310 = t296 ** 2
res = 0.2e1 * t140 + 0.2e1 * t212 * (params_a_c_ss[0] + 0.2e0 * params_a_c_ss[1] * s0 * t91 / t217 + 0.8e-1 * params_a_c_ss[2] * t101 * t107 / t224 + 0.32e-1 * params_a_c_ss[3] * t114 * t117 / t224 / t217 + 0.64e-2 * params_a_c_ss[4] * t124 * t129 / t238) + (-0.62182e-1 * (0.1e1 + 0.53425000000000000000e-1 * t247) * t262 + 0.19751789702565206229e-1 * (0.2e1 * t265 - 0.2e1) * t177 * (0.1e1 + 0.27812500000000000000e-1 * t247) * t279 - 0.2e1 * t212) * (params_a_c_ab[0] + 0.6e-2 * params_a_c_ab[1] * s0 * t91 / t289 + 0.72e-4 * params_a_c_ab[2] * t101 * t107 / t296 + 0.864e-6 * params_a_c_ab[3] * t114 * t117 / t296 / t289 + 0.5184e-8 * params_a_c_ab[4] * t124 * t129 / t310)
"

/- gen_repo/impl/prebuilt/pol/hyb_lda_xc_bn05.py and gen_repo/impl/prebuilt/unpol/hyb_lda_xc_bn05.py -/
formula hyb_lda_xc_bn05 pol "t1 = 3 ** (0.1e1 / 0.3e1)
t3 = (0.1e1 / math.pi) ** (0.1e1 / 0.3e1)
t4 = t1 * t3
t5 = 4 ** (0.1e1 / 0.3e1)
t6 = t5 ** 2
t7 = t4 * t6
t8 = 2 ** (0.1e1 / 0.3e1)
t9 = t8 ** 2
t10 = r0 - r1
t11 = r0 + r1
t13 = t10 / t11
t14 = 0.1e1 + t13
t15 = t14 <= p_a_zeta_threshold
t16 = p_a_zeta_threshold ** (0.1e1 / 0.3e1)
t17 = t16 * p_a_zeta_threshold
t18 = t14 ** (0.1e1 / 0.3e1)
t20 = lax_cond(t15, t17, t18 * t14)
t22 = t11 ** (0.1e1 / 0.3e1)
t23 = 9 ** (0.1e1 / 0.3e1)
t24 = t23 ** 2
t25 = t3 ** 2
t27 = t24 * t25 * p_a_cam_omega
t28 = 0.1e1 / t22
t29 = t1 * t28
t30 = lax_cond(t15, t16, t18)
t34 = t27 * t29 / t30 / 0.18e2
t36 = 0.192e1 < t34
t37 = lax_cond(t36, t34, 0.192e1)
t38 = t37 ** 2
t41 = t38 ** 2
t44 = t41 * t38
t47 = t41 ** 2
t50 = t47 * t38
t53 = t47 * t41
t56 = t47 * t44
t59 = t47 ** 2
t83 = t59 ** 2
t92 = 0.1e1 / t38 / 0.9e1 - 0.1e1 / t41 / 0.30e2 + 0.1e1 / t44 / 0.70e2 - 0.1e1 / t47 / 0.135e3 + 0.1e1 / t50 / 0.231e3 - 0.1e1 / t53 / 0.364e3 + 0.1e1 / t56 / 0.540e3 - 0.1e1 / t59 / 0.765e3 + 0.1e1 / t59 / t38 / 0.1045e4 - 0.1e1 / t59 / t41 / 0.1386e4 + 0.1e1 / t59 / t44 / 0.1794e4 - 0.1e1 / t59 / t47 / 0.2275e4 + 0.1e1 / t59 / t50 / 0.2835e4 - 0.1e1 / t59 / t53 / 0.3480e4 + 0.1e1 / t59 / t56 / 0.4216e4 - 0.1e1 / t83 / 0.5049e4 + 0.1e1 / t83 / t38 / 0.5985e4 - 0.1e1 / t83 / t41 / 0.7030e4
t93 = lax_cond(t36, 0.192e1, t34)
t94 = math.atan2(0.1e1, t93)
t95 = t93 ** 2
t99 = math.log(0.1e1 + 0.1e1 / t95)
t108 = lax_cond(0.192e1 <= t34, t92, 0.1e1 - 0.8e1 / 0.3e1 * t93 * (t94 + t93 * (0.1e1 - (t95 + 0.3e1) * t99) / 0.4e1))
t113 = 0.1e1 - t13
t114 = t113 <= p_a_zeta_threshold
t115 = t113 ** (0.1e1 / 0.3e1)
t117 = lax_cond(t114, t17, t115 * t113)
t119 = lax_cond(t114, t16, t115)
t123 = t27 * t29 / t119 / 0.18e2
t125 = 0.192e1 < t123
t126 = lax_cond(t125, t123, 0.192e1)
t127 = t126 ** 2
t130 = t127 ** 2
t133 = t130 * t127
t136 = t130 ** 2
t139 = t136 * t127
t142 = t136 * t130
t145 = t136 * t133
t148 = t136 ** 2
t172 = t148 ** 2
t181 = 0.1e1 / t127 / 0.9e1 - 0.1e1 / t130 / 0.30e2 + 0.1e1 / t133 / 0.70e2 - 0.1e1 / t136 / 0.135e3 + 0.1e1 / t139 / 0.231e3 - 0.1e1 / t142 / 0.364e3 + 0.1e1 / t145 / 0.540e3 - 0.1e1 / t148 / 0.765e3 + 0.1e1 / t148 / t127 / 0.1045e4 - 0.1e1 / t148 / t130 / 0.1386e4 + 0.1e1 / t148 / t133 / 0.1794e4 - 0.1e1 / t148 / t136 / 0.2275e4 + 0.1e1 / t148 / t139 / 0.2835e4 - 0.1e1 / t148 / t142 / 0.3480e4 + 0.1e1 / t148 / t145 / 0.4216e4 - 0.1e1 / t172 / 0.5049e4 + 0.1e1 / t172 / t127 / 0.5985e4 - 0.1e1 / t172 / t130 / 0.7030e4
t182 = lax_cond(t125, 0.192e1, t123)
t183 = math.atan2(0.1e1, t182)
t184 = t182 ** 2
t188 = math.log(0.1e1 + 0.1e1 / t184)
t197 = lax_cond(0.192e1 <= t123, t181, 0.1e1 - 0.8e1 / 0.3e1 * t182 * (t183 + t182 * (0.1e1 - (t184 + 0.3e1) * t188) / 0.4e1))
t203 = t4 * t6 * t28
t206 = math.sqrt(t203)
t209 = t203 ** 0.15e1
t211 = t1 ** 2
t213 = t22 ** 2
t216 = t211 * t25 * t5 / t213
t222 = math.log(0.1e1 + 0.16081979498692535067e2 / (0.37978500000000000000e1 * t206 + 0.89690000000000000000e0 * t203 + 0.20477500000000000000e0 * t209 + 0.12323500000000000000e0 * t216))
t224 = 0.621814e-1 * (0.1e1 + 0.53425000000000000000e-1 * t203) * t222
t225 = t10 ** 2
t226 = t225 ** 2
t227 = t11 ** 2
t228 = t227 ** 2
t235 = (t20 + t117 - 0.2e1) / (0.2e1 * t8 - 0.2e1)
t246 = math.log(0.1e1 + 0.32163958997385070134e2 / (0.70594500000000000000e1 * t206 + 0.15494250000000000000e1 * t203 + 0.42077500000000000000e0 * t209 + 0.15629250000000000000e0 * t216))
t259 = math.log(0.1e1 + 0.29608749977793437516e2 / (0.51785000000000000000e1 * t206 + 0.90577500000000000000e0 * t203 + 0.11003250000000000000e0 * t209 + 0.12417750000000000000e0 * t216))
t260 = (0.1e1 + 0.27812500000000000000e-1 * t203) * t259
res = -0.3e1 / 0.32e2 * t7 * t9 * t20 * t22 * t108 - 0.3e1 / 0.32e2 * t7 * t9 * t117 * t22 * t197 + 0.34602e1 * (-t224 + t226 / t228 * t235 * (-0.3109070e-1 * (0.1e1 + 0.51370000000000000000e-1 * t203) * t246 + t224 - 0.19751673498613801407e-1 * t260) + 0.19751673498613801407e-1 * t235 * t260) / (0.32e1 - 0.22500000000000000000e0 * t203 + t216 / 0.4e1)
" unpol "t1 = 3 ** (0.1e1 / 0.3e1)
t3 = (0.1e1 / math.pi) ** (0.1e1 / 0.3e1)
t4 = t1 * t3
t5 = 4 ** (0.1e1 / 0.3e1)
t6 = t5 ** 2
t8 = 2 ** (0.1e1 / 0.3e1)
t9 = t8 ** 2
t10 = 0.1e1 <= p_a_zeta_threshold
t11 = p_a_zeta_threshold ** (0.1e1 / 0.3e1)
t13 = lax_cond(t10, t11 * p_a_zeta_threshold, 1)
t15 = r0 ** (0.1e1 / 0.3e1)
t16 = 9 ** (0.1e1 / 0.3e1)
t17 = t16 ** 2
t18 = t3 ** 2
t21 = 0.1e1 / t15
t23 = lax_cond(t10, t11, 1)
t27 = t17 * t18 * p_a_cam_omega * t1 * t21 / t23 / 0.18e2
t29 = 0.192e1 < t27
t30 = lax_cond(t29, t27, 0.192e1)
t31 = t30 ** 2
t34 = t31 ** 2
t37 = t34 * t31
t40 = t34 ** 2
t43 = t40 * t31
t46 = t40 * t34
t49 = t40 * t37
t52 = t40 ** 2
t76 = t52 ** 2
t85 = 0.1e1 / t31 / 0.9e1 - 0.1e1 / t34 / 0.30e2 + 0.1e1 / t37 / 0.70e2 - 0.1e1 / t40 / 0.135e3 + 0.1e1 / t43 / 0.231e3 - 0.1e1 / t46 / 0.364e3 + 0.1e1 / t49 / 0.540e3 - 0.1e1 / t52 / 0.765e3 + 0.1e1 / t52 / t31 / 0.1045e4 - 0.1e1 / t52 / t34 / 0.1386e4 + 0.1e1 / t52 / t37 / 0.1794e4 - 0.1e1 / t52 / t40 / 0.2275e4 + 0.1e1 / t52 / t43 / 0.2835e4 - 0.1e1 / t52 / t46 / 0.3480e4 + 0.1e1 / t52 / t49 / 0.4216e4 - 0.1e1 / t76 / 0.5049e4 + 0.1e1 / t76 / t31 / 0.5985e4 - 0.1e1 / t76 / t34 / 0.7030e4
t86 = lax_cond(t29, 0.192e1, t27)
t87 = math.atan2(0.1e1, t86)
t88 = t86 ** 2
t92 = math.log(0.1e1 + 0.1e1 / t88)
t101 = lax_cond(0.192e1 <= t27, t85, 0.1e1 - 0.8e1 / 0.3e1 * t86 * (t87 + t86 * (0.1e1 - (t88 + 0.3e1) * t92) / 0.4e1))
t107 = t4 * t6 * t21
t110 = math.sqrt(t107)
t113 = t107 ** 0.15e1
t115 = t1 ** 2
t117 = t15 ** 2
t120 = t115 * t18 * t5 / t117
t126 = math.log(0.1e1 + 0.16081979498692535067e2 / (0.37978500000000000000e1 * t110 + 0.89690000000000000000e0 * t107 + 0.20477500000000000000e0 * t113 + 0.12323500000000000000e0 * t120))
t145 = math.log(0.1e1 + 0.29608749977793437516e2 / (0.51785000000000000000e1 * t110 + 0.90577500000000000000e0 * t107 + 0.11003250000000000000e0 * t113 + 0.12417750000000000000e0 * t120))
res = -0.3e1 / 0.16e2 * t4 * t6 * t9 * t13 * t15 * t101 + 0.34602e1 * (-0.621814e-1 * (0.1e1 + 0.53425000000000000000e-1 * t107) * t126 + 0.19751673498613801407e-1 * (0.2e1 * t13 - 0.2e1) / (0.2e1 * t8 - 0.2e1) * (0.1e1 + 0.27812500000000000000e-1 * t107) * t145) / (0.32e1 - 0.22500000000000000000e0 * t107 + t120 / 0.4e1)
"

/- gen_repo/impl/prebuilt/pol/hyb_mgga_x_dldf.py and gen_repo/impl/prebuilt/unpol/hyb_mgga_x_dldf.py -/
formula hyb_mgga_x_dldf pol "t2 = 3 ** (0.1e1 / 0.3e1)
t3 = math.pi ** (0.1e1 / 0.3e1)
t5 = t2 / t3
t6 = r0 + r1
t7 = 0.1e1 / t6
t10 = 0.2e1 * r0 * t7 <= p_a_zeta_threshold
t11 = p_a_zeta_threshold - 0.1e1
t14 = 0.2e1 * r1 * t7 <= p_a_zeta_threshold
t15 = -t11
t17 = (r0 - r1) * t7
t18 = lax_cond(t14, t15, t17)
t19 = lax_cond(t10, t11, t18)
t20 = 0.1e1 + t19
t22 = p_a_zeta_threshold ** (0.1e1 / 0.3e1)
t23 = t22 * p_a_zeta_threshold
t24 = t20 ** (0.1e1 / 0.3e1)
t26 = lax_cond(t20 <= p_a_zeta_threshold, t23, t24 * t20)
t28 = t6 ** (0.1e1 / 0.3e1)
t29 = 6 ** (0.1e1 / 0.3e1)
t30 = math.pi ** 2
t31 = t30 ** (0.1e1 / 0.3e1)
t32 = t31 ** 2
t34 = t29 / t32
t35 = r0 ** 2
t36 = r0 ** (0.1e1 / 0.3e1)
t37 = t36 ** 2
t48 = t29 ** 2
t50 = 0.3e1 / 0.10e2 * t48 * t32
t53 = tau0 / t37 / r0
t54 = t50 - t53
t55 = t50 + t53
t59 = t54 ** 2
t60 = t55 ** 2
t69 = t59 ** 2
t70 = t60 ** 2
t78 = lax_cond(r0 <= p_a_dens_threshold, 0, -0.14459516250000000000e0 * t5 * t26 * t28 * (0.58827323e1 - 0.2384107471346329e2 / (0.48827323e1 + 0.14629700000000000000e-1 * t34 * s0 / t37 / t35)) * (0.1e1 - 0.1637571e0 * t54 / t55 - 0.1880028e0 * t59 / t60 - 0.4490609e0 * t59 * t54 / t60 / t55 - 0.82359e-2 * t69 / t70))
t80 = lax_cond(t10, t15, -t17)
t81 = lax_cond(t14, t11, t80)
t82 = 0.1e1 + t81
t84 = t82 ** (0.1e1 / 0.3e1)
t86 = lax_cond(t82 <= p_a_zeta_threshold, t23, t84 * t82)
t88 = r1 ** 2
t89 = r1 ** (0.1e1 / 0.3e1)
t90 = t89 ** 2
t103 = tau1 / t90 / r1
t104 = t50 - t103
t105 = t50 + t103
t109 = t104 ** 2
t110 = t105 ** 2
t119 = t109 ** 2
t120 = t110 ** 2
t128 = lax_cond(r1 <= p_a_dens_threshold, 0, -0.14459516250000000000e0 * t5 * t86 * t28 * (0.58827323e1 - 0.2384107471346329e2 / (0.48827323e1 + 0.14629700000000000000e-1 * t34 * s2 / t90 / t88)) * (0.1e1 - 0.1637571e0 * t104 / t105 - 0.1880028e0 * t109 / t110 - 0.4490609e0 * t109 * t104 / t110 / t105 - 0.82359e-2 * t119 / t120))
res = t78 + t128
" unpol "t3 = 3 ** (0.1e1 / 0.3e1)
t4 = math.pi ** (0.1e1 / 0.3e1)
t7 = 0.1e1 <= p_a_zeta_threshold
t8 = p_a_zeta_threshold - 0.1e1
t10 = lax_cond(t7, -t8, 0)
t11 = lax_cond(t7, t8, t10)
t12 = 0.1e1 + t11
t14 = p_a_zeta_threshold ** (0.1e1 / 0.3e1)
t16 = t12 ** (0.1e1 / 0.3e1)
t18 = lax_cond(t12 <= p_a_zeta_threshold, t14 * p_a_zeta_threshold, t16 * t12)
t20 = r0 ** (0.1e1 / 0.3e1)
t21 = 6 ** (0.1e1 / 0.3e1)
t22 = math.pi ** 2
t23 = t22 ** (0.1e1 / 0.3e1)
t24 = t23 ** 2
t27 = 2 ** (0.1e1 / 0.3e1)
t28 = t27 ** 2
t30 = r0 ** 2
t31 = t20 ** 2
t42 = t21 ** 2
t44 = 0.3e1 / 0.10e2 * t42 * t24
t48 = tau0 * t28 / t31 / r0
t49 = t44 - t48
t50 = t44 + t48
t54 = t49 ** 2
t55 = t50 ** 2
t64 = t54 ** 2
t65 = t55 ** 2
t73 = lax_cond(r0 / 0.2e1 <= p_a_dens_threshold, 0, -0.14459516250000000000e0 * t3 / t4 * t18 * t20 * (0.58827323e1 - 0.2384107471346329e2 / (0.48827323e1 + 0.14629700000000000000e-1 * t21 / t24 * s0 * t28 / t31 / t30)) * (0.1e1 - 0.1637571e0 * t49 / t50 - 0.1880028e0 * t54 / t55 - 0.4490609e0 * t54 * t49 / t55 / t50 - 0.82359e-2 * t64 / t65))
res = 0.2e1 * t73
"

/- gen_repo/impl/prebuilt/pol/hyb_mgga_x_js18.py and gen_repo/impl/prebuilt/unpol/hyb_mgga_x_js18.py -/
formula hyb_mgga_x_js18 pol "t2 = 3 ** (0.1e1 / 0.3e1)
t3 = math.pi ** (0.1e1 / 0.3e1)
t5 = t2 / t3
t6 = r0 + r1
t7 = 0.1e1 / t6
t10 = 0.2e1 * r0 * t7 <= p_a_zeta_threshold
t11 = p_a_zeta_threshold - 0.1e1
t14 = 0.2e1 * r1 * t7 <= p_a_zeta_threshold
t15 = -t11
t17 = (r0 - r1) * t7
t18 = lax_cond(t14, t15, t17)
t19 = lax_cond(t10, t11, t18)
t20 = 0.1e1 + t19
t22 = p_a_zeta_threshold ** (0.1e1 / 0.3e1)
t23 = t22 * p_a_zeta_threshold
t24 = t20 ** (0.1e1 / 0.3e1)
t26 = lax_cond(t20 <= p_a_zeta_threshold, t23, t24 * t20)
t27 = t6 ** (0.1e1 / 0.3e1)
t33 = s0 / r0 / tau0 / 0.8e1
t35 = lax_cond(t33 < 0.10e1, t33, 0.10e1)
t36 = t35 ** 2
t37 = t36 * t35
t41 = (0.1e1 + t37) ** 2
t43 = (t36 + 0.3e1 * t37) / t41
t44 = 9 ** (0.1e1 / 0.3e1)
t45 = t44 ** 2
t47 = (0.1e1 / math.pi) ** (0.1e1 / 0.3e1)
t48 = t47 ** 2
t50 = t45 * t48 * p_a_cam_omega
t52 = t2 / t27
t53 = 6 ** (0.1e1 / 0.3e1)
t54 = math.pi ** 2
t55 = t54 ** (0.1e1 / 0.3e1)
t56 = t55 ** 2
t57 = 0.1e1 / t56
t58 = t53 * t57
t59 = r0 ** 2
t60 = r0 ** (0.1e1 / 0.3e1)
t61 = t60 ** 2
t63 = 0.1e1 / t61 / t59
t64 = s0 * t63
t65 = t58 * t64
t67 = t53 ** 2
t70 = t67 / t55 / t54
t71 = s0 ** 2
t72 = t59 ** 2
t79 = 0.1e1 + 0.15045488888888888889e0 * t65 + 0.26899490462262948000e-2 * t70 * t71 / t60 / t72 / r0
t80 = t79 ** (0.1e1 / 0.10e2)
t83 = 0.1e1 + t17 <= p_a_zeta_threshold
t85 = 0.1e1 - t17 <= p_a_zeta_threshold
t86 = lax_cond(t85, t15, t17)
t87 = lax_cond(t83, t11, t86)
t88 = 0.1e1 + t87
t90 = t88 ** (0.1e1 / 0.3e1)
t91 = lax_cond(t88 <= p_a_zeta_threshold, t22, t90)
t92 = 0.1e1 / t91
t96 = t50 * t52 / t80 * t92 / 0.18e2
t98 = lax_cond(t96 < 0.1e-9, 0.1e-9, t96)
t100 = 0.135e1 < t98
t101 = lax_cond(t100, t98, 0.135e1)
t102 = t101 ** 2
t105 = t102 ** 2
t108 = t105 * t102
t111 = t105 ** 2
t123 = t111 ** 2
t127 = lax_cond(t100, 0.135e1, t98)
t128 = math.sqrt(math.pi)
t131 = math.erf(0.1e1 / t127 / 0.2e1)
t133 = t127 ** 2
t136 = math.exp(-0.1e1 / t133 / 0.4e1)
t147 = lax_cond(0.135e1 <= t98, 0.1e1 / t102 / 0.36e2 - 0.1e1 / t105 / 0.960e3 + 0.1e1 / t108 / 0.26880e5 - 0.1e1 / t111 / 0.829440e6 + 0.1e1 / t111 / t102 / 0.28385280e8 - 0.1e1 / t111 / t105 / 0.1073479680e10 + 0.1e1 / t111 / t108 / 0.44590694400e11 - 0.1e1 / t123 / 0.2021444812800e13, 0.1e1 - 0.8e1 / 0.3e1 * t127 * (t128 * t131 + 0.2e1 * t127 * (t136 - 0.3e1 / 0.2e1 - 0.2e1 * t133 * (t136 - 0.1e1))))
t148 = t79 ** (0.1e1 / 0.5e1)
t149 = 0.1e1 / t148
t152 = 0.27e0 < t98
t153 = lax_cond(t152, t98, 0.27e0)
t154 = t153 ** 2
t155 = t154 ** 2
t156 = t155 ** 2
t157 = t156 * t155
t158 = t156 ** 2
t159 = t158 ** 2
t163 = t155 * t154
t164 = t156 * t163
t174 = t156 * t154
t189 = 0.1e1 / t159 / t157 / 0.33929038000650146833571361325056000000e38 - 0.1e1 / t159 / t164 / 0.3511556992918352140755776405766144000000e40 + 0.3e1 / 0.2240e4 / t155 - 0.1e1 / t163 / 0.11520e5 + 0.3e1 / 0.788480e6 / t156 - 0.1e1 / t174 / 0.7454720e7 + 0.1e1 / t157 / 0.247726080e9 - 0.1e1 / t164 / 0.9358540800e10 + 0.1e1 / t158 / 0.394474291200e12 - 0.1e1 / t158 / t154 / 0.18311911833600e14 + 0.1e1 / t158 / t155 / 0.927028425523200e15
t222 = -0.1e1 / t158 / t163 / 0.50785035485184000e17 + 0.1e1 / t158 / t156 / 0.2991700272218112000e19 - 0.1e1 / t158 / t174 / 0.188514051721003008000e21 + 0.1e1 / t158 / t157 / 0.12648942844388573184000e23 - 0.1e1 / t158 / t164 / 0.900231674141645733888000e24 + 0.1e1 / t159 / 0.67726520292999771979776000e26 - 0.1e1 / t159 / t154 / 0.5369745537516410492682240000e28 + 0.1e1 / t159 / t155 / 0.447473103488807905221672960000e30 - 0.1e1 / t159 / t163 / 0.39097165634742908368485089280000e32 + 0.1e1 / t159 / t156 / 0.3573852336994573837102806466560000e34 - 0.1e1 / t159 / t174 / 0.341095116070365837848137621831680000e36
t224 = lax_cond(t152, 0.27e0, t98)
t225 = t224 ** 2
t227 = t225 ** 2
t228 = 0.64e2 * t227
t232 = math.exp(-0.1e1 / t225 / 0.4e1)
t238 = math.erf(0.1e1 / t224 / 0.2e1)
t245 = lax_cond(0.27e0 <= t98, t189 + t222, 0.1e1 + 0.24e2 * t225 * ((0.20e2 * t225 - t228) * t232 - 0.3e1 - 0.36e2 * t225 + t228 + 0.10e2 * t224 * t128 * t238))
t248 = tau0 / t61 / r0
t249 = 0.14554132000000000000e0 * t248
t250 = t67 * t56
t251 = 0.4366239600000000000e-1 * t250
t255 = t148 ** 2
t256 = 0.1e1 / t255
t261 = 0.32e0 < t98
t262 = lax_cond(t261, t98, 0.32e0)
t263 = t262 ** 2
t264 = t263 ** 2
t267 = t264 * t263
t270 = t264 ** 2
t273 = t270 * t263
t276 = t270 * t264
t279 = t270 * t267
t282 = t270 ** 2
t306 = t282 ** 2
t318 = 0.3e1 / 0.7840e4 / t264 - 0.1e1 / t267 / 0.56448e5 + 0.5e1 / 0.8515584e7 / t270 - 0.1e1 / t273 / 0.61501440e8 + 0.1e1 / t276 / 0.2530344960e10 - 0.1e1 / t279 / 0.115811942400e12 + 0.1e1 / t282 / 0.5811921223680e13 - 0.1e1 / t282 / t263 / 0.316612955602944e15 + 0.1e1 / t282 / t264 / 0.18582706166169600e17 - 0.1e1 / t282 / t267 / 0.1168055816159232000e19 + 0.1e1 / t282 / t270 / 0.78244468658012160000e20 - 0.1e1 / t282 / t273 / 0.5562511054710453043200e22 + 0.1e1 / t282 / t276 / 0.418174050435486229463040e24 - 0.1e1 / t282 / t279 / 0.33139778504339333578752000e26 + 0.1e1 / t306 / 0.2760851680179343645999104000e28 - 0.1e1 / t306 / t263 / 0.241191070393445437962977280000e30 + 0.1e1 / t306 / t264 / 0.22046293272414372635684634624000e32 - 0.1e1 / t306 / t267 / 0.2104209454461863328391867505049600e34
t319 = lax_cond(t261, 0.32e0, t98)
t321 = t319 ** 2
t322 = t321 * t319
t324 = t321 ** 2
t329 = t324 ** 2
t335 = math.exp(-0.1e1 / t321 / 0.4e1)
t349 = math.erf(0.1e1 / t319 / 0.2e1)
t356 = lax_cond(0.32e0 <= t98, t318, 0.1e1 + 0.8e1 / 0.7e1 * t319 * ((-0.576e3 * t324 * t319 - 0.122880e6 * t329 * t319 + 0.3840e4 * t324 * t322 - 0.8e1 * t319 + 0.256e3 * t322) * t335 + 0.24e2 * t322 * (0.5120e4 * t324 * t321 + 0.224e3 * t321 - 0.1440e4 * t324 - 0.35e2) + 0.2e1 * t128 * (-0.2e1 + 0.60e2 * t321) * t349))
t364 = 0.1e1 - t43
t367 = t50 * t52 * t92 / 0.18e2
t369 = 0.135e1 < t367
t370 = lax_cond(t369, t367, 0.135e1)
t371 = t370 ** 2
t374 = t371 ** 2
t377 = t374 * t371
t380 = t374 ** 2
t392 = t380 ** 2
t396 = lax_cond(t369, 0.135e1, t367)
t399 = math.erf(0.1e1 / t396 / 0.2e1)
t401 = t396 ** 2
t404 = math.exp(-0.1e1 / t401 / 0.4e1)
t415 = lax_cond(0.135e1 <= t367, 0.1e1 / t371 / 0.36e2 - 0.1e1 / t374 / 0.960e3 + 0.1e1 / t377 / 0.26880e5 - 0.1e1 / t380 / 0.829440e6 + 0.1e1 / t380 / t371 / 0.28385280e8 - 0.1e1 / t380 / t374 / 0.1073479680e10 + 0.1e1 / t380 / t377 / 0.44590694400e11 - 0.1e1 / t392 / 0.2021444812800e13, 0.1e1 - 0.8e1 / 0.3e1 * t396 * (t128 * t399 + 0.2e1 * t396 * (t404 - 0.3e1 / 0.2e1 - 0.2e1 * t401 * (t404 - 0.1e1))))
t430 = (t248 - t64 / 0.8e1) * t53 * t57 / 0.4e1 - 0.9e1 / 0.20e2 + t65 / 0.36e2
t431 = t430 ** 2
t438 = (0.1e1 + 0.5e1 / 0.12e2 * (0.10e2 / 0.81e2 + 0.25e2 / 0.8748e4 * t65) * t53 * t57 * s0 * t63 + 0.292e3 / 0.405e3 * t431 - 0.146e3 / 0.135e3 * t430 * t35 * (0.1e1 - t35)) ** (0.1e1 / 0.10e2)
t443 = 0.25633760400000000000e0 * t250
t459 = lax_cond(r0 <= p_a_dens_threshold, 0, -0.3e1 / 0.8e1 * t5 * t26 * t27 * (-p_a_cam_beta * (t43 * (t147 * t149 + 0.35e2 / 0.81e2 * t245 * (-t249 + t251 + 0.42296278333333333333e-1 * t64) * t58 * t256 + 0.26329605555555555556e-1 * t356 * t53 * t57 * t64 * t256) + t364 * t415 * t438) + t43 * (t149 + 0.7e1 / 0.9e1 * (0.1e1 + 0.63943327777777777778e-1 * t65 - 0.5e1 / 0.9e1 * (t249 + t443 + 0.11867481666666666667e-1 * t64) * t53 * t57) * t256) + t364 * t438))
t461 = lax_cond(t10, t15, -t17)
t462 = lax_cond(t14, t11, t461)
t463 = 0.1e1 + t462
t465 = t463 ** (0.1e1 / 0.3e1)
t467 = lax_cond(t463 <= p_a_zeta_threshold, t23, t465 * t463)
t473 = s2 / r1 / tau1 / 0.8e1
t475 = lax_cond(t473 < 0.10e1, t473, 0.10e1)
t476 = t475 ** 2
t477 = t476 * t475
t481 = (0.1e1 + t477) ** 2
t483 = (t476 + 0.3e1 * t477) / t481
t484 = r1 ** 2
t485 = r1 ** (0.1e1 / 0.3e1)
t486 = t485 ** 2
t488 = 0.1e1 / t486 / t484
t489 = s2 * t488
t490 = t58 * t489
t492 = s2 ** 2
t493 = t484 ** 2
t500 = 0.1e1 + 0.15045488888888888889e0 * t490 + 0.26899490462262948000e-2 * t70 * t492 / t485 / t493 / r1
t501 = t500 ** (0.1e1 / 0.10e2)
t503 = lax_cond(t83, t15, -t17)
t504 = lax_cond(t85, t11, t503)
t505 = 0.1e1 + t504
t507 = t505 ** (0.1e1 / 0.3e1)
t508 = lax_cond(t505 <= p_a_zeta_threshold, t22, t507)
t509 = 0.1e1 / t508
t513 = t50 * t52 / t501 * t509 / 0.18e2
t515 = lax_cond(t513 < 0.1e-9, 0.1e-9, t513)
t517 = 0.135e1 < t515
t518 = lax_cond(t517, t515, 0.135e1)
t519 = t518 ** 2
t522 = t519 ** 2
t525 = t522 * t519
t528 = t522 ** 2
t540 = t528 ** 2
t544 = lax_cond(t517, 0.135e1, t515)
t547 = math.erf(0.1e1 / t544 / 0.2e1)
t549 = t544 ** 2
t552 = math.exp(-0.1e1 / t549 / 0.4e1)
t563 = lax_cond(0.135e1 <= t515, 0.1e1 / t519 / 0.36e2 - 0.1e1 / t522 / 0.960e3 + 0.1e1 / t525 / 0.26880e5 - 0.1e1 / t528 / 0.829440e6 + 0.1e1 / t528 / t519 / 0.28385280e8 - 0.1e1 / t528 / t522 / 0.1073479680e10 + 0.1e1 / t528 / t525 / 0.44590694400e11 - 0.1e1 / t540 / 0.2021444812800e13, 0.1e1 - 0.8e1 / 0.3e1 * t544 * (t128 * t547 + 0.2e1 * t544 * (t552 - 0.3e1 / 0.2e1 - 0.2e1 * t549 * (t552 - 0.1e1))))
t564 = t500 ** (0.1e1 / 0.5e1)
t565 = 0.1e1 / t564
t568 = 0.27e0 < t515
t569 = lax_cond(t568, t515, 0.27e0)
t570 = t569 ** 2
t571 = t570 ** 2
t572 = t571 ** 2
t573 = t572 * t571
t574 = t572 ** 2
t575 = t574 ** 2
t579 = t571 * t570
t580 = t572 * t579
t590 = t572 * t570
t605 = 0.1e1 / t575 / t573 / 0.33929038000650146833571361325056000000e38 - 0.1e1 / t575 / t580 / 0.3511556992918352140755776405766144000000e40 + 0.3e1 / 0.2240e4 / t571 - 0.1e1 / t579 / 0.11520e5 + 0.3e1 / 0.788480e6 / t572 - 0.1e1 / t590 / 0.7454720e7 + 0.1e1 / t573 / 0.247726080e9 - 0.1e1 / t580 / 0.9358540800e10 + 0.1e1 / t574 / 0.394474291200e12 - 0.1e1 / t574 / t570 / 0.18311911833600e14 + 0.1e1 / t574 / t571 / 0.927028425523200e15
t638 = -0.1e1 / t574 / t579 / 0.50785035485184000e17 + 0.1e1 / t574 / t572 / 0.2991700272218112000e19 - 0.1e1 / t574 / t590 / 0.188514051721003008000e21 + 0.1e1 / t574 / t573 / 0.12648942844388573184000e23 - 0.1e1 / t574 / t580 / 0.900231674141645733888000e24 + 0.1e1 / t575 / 0.67726520292999771979776000e26 - 0.1e1 / t575 / t570 / 0.5369745537516410492682240000e28 + 0.1e1 / t575 / t571 / 0.447473103488807905221672960000e30 - 0.1e1 / t575 / t579 / 0.39097165634742908368485089280000e32 + 0.1e1 / t575 / t572 / 0.3573852336994573837102806466560000e34 - 0.1e1 / t575 / t590 / 0.341095116070365837848137621831680000e36
t640 = lax_cond(t568, 0.27e0, t515)
t641 = t640 ** 2
t643 = t641 ** 2
t644 = 0.64e2 * t643
t648 = math.exp(-0.1e1 / t641 / 0.4e1)
t654 = math.erf(0.1e1 / t640 / 0.2e1)
t661 = lax_cond(0.27e0 <= t515, t605 + t638, 0.1e1 + 0.24e2 * t641 * ((0.20e2 * t641 - t644) * t648 - 0.3e1 - 0.36e2 * t641 + t644 + 0.10e2 * t640 * t128 * t654))
t664 = tau1 / t486 / r1
t665 = 0.14554132000000000000e0 * t664
t669 = t564 ** 2
t670 = 0.1e1 / t669
t675 = 0.32e0 < t515
t676 = lax_cond(t675, t515, 0.32e0)
t677 = t676 ** 2
t678 = t677 ** 2
t681 = t678 * t677
t684 = t678 ** 2
t687 = t684 * t677
t690 = t684 * t678
t693 = t684 * t681
t696 = t684 ** 2
t720 = t696 ** 2
t732 = 0.3e1 / 0.7840e4 / t678 - 0.1e1 / t681 / 0.56448e5 + 0.5e1 / 0.8515584e7 / t684 - 0.1e1 / t687 / 0.61501440e8 + 0.1e1 / t690 / 0.2530344960e10 - 0.1e1 / t693 / 0.115811942400e12 + 0.1e1 / t696 / 0.5811921223680e13 - 0.1e1 / t696 / t677 / 0.316612955602944e15 + 0.1e1 / t696 / t678 / 0.18582706166169600e17 - 0.1e1 / t696 / t681 / 0.1168055816159232000e19 + 0.1e1 / t696 / t684 / 0.78244468658012160000e20 - 0.1e1 / t696 / t687 / 0.5562511054710453043200e22 + 0.1e1 / t696 / t690 / 0.418174050435486229463040e24 - 0.1e1 / t696 / t693 / 0.33139778504339333578752000e26 + 0.1e1 / t720 / 0.2760851680179343645999104000e28 - 0.1e1 / t720 / t677 / 0.241191070393445437962977280000e30 + 0.1e1 / t720 / t678 / 0.22046293272414372635684634624000e32 - 0.1e1 / t720 / t681 / 0.2104209454461863328391867505049600e34
t733 = lax_cond(t675, 0.32e0, t515)
t735 = t733 ** 2
t736 = t735 * t733
t738 = t735 ** 2
t743 = t738 ** 2
t749 = math.exp(-0.1e1 / t735 / 0.4e1)
t763 = math.erf(0.1e1 / t733 / 0.2e1)
t770 = lax_cond(0.32e0 <= t515, t732, 0.1e1 + 0.8e1 / 0.7e1 * t733 * ((-0.576e3 * t738 * t733 - 0.122880e6 * t743 * t733 + 0.3840e4 * t738 * t736 - 0.8e1 * t733 + 0.256e3 * t736) * t749 + 0.24e2 * t736 * (0.5120e4 * t738 * t735 + 0.224e3 * t735 - 0.1440e4 * t738 - 0.35e2) + 0.2e1 * t128 * (-0.2e1 + 0.60e2 * t735) * t763))
t778 = 0.1e1 - t483
t781 = t50 * t52 * t509 / 0.18e2
t783 = 0.135e1 < t781
t784 = lax_cond(t783, t781, 0.135e1)
t785 = t784 ** 2
t788 = t785 ** 2
t791 = t788 * t785
t794 = t788 ** 2
t806 = t794 ** 2
t810 = lax_cond(t783, 0.135e1, t781)
t813 = math.erf(0.1e1 / t810 / 0.2e1)
t815 = t810 ** 2
t818 = math.exp(-0.1e1 / t815 / 0.4e1)
t829 = lax_cond(0.135e1 <= t781, 0.1e1 / t785 / 0.36e2 - 0.1e1 / t788 / 0.960e3 + 0.1e1 / t791 / 0.26880e5 - 0.1e1 / t794 / 0.829440e6 + 0.1e1 / t794 / t785 / 0.28385280e8 - 0.1e1 / t794 / t788 / 0.1073479680e10 + 0.1e1 / t794 / t791 / 0.44590694400e11 - 0.1e1 / t806 / 0.2021444812800e13, 0.1e1 - 0.8e1 / 0.3e1 * t810 * (t128 * t813 + 0.2e1 * t810 * (t818 - 0.3e1 / 0.2e1 - 0.2e1 * t815 * (t818 - 0.1e1))))
t844 = (t664 - t489 / 0.8e1) * t53 * t57 / 0.4e1 - 0.9e1 / 0.20e2 + t490 / 0.36e2
t845 = t844 ** 2
t852 = (0.1e1 + 0.5e1 / 0.12e2 * (0.10e2 / 0.81e2 + 0.25e2 / 0.8748e4 * t490) * t53 * t57 * s2 * t488 + 0.292e3 / 0.405e3 * t845 - 0.146e3 / 0.135e3 * t844 * t475 * (0.1e1 - t475)) ** (0.1e1 / 0.10e2)
t872 = lax_cond(r1 <= p_a_dens_threshold, 0, -0.3e1 / 0.8e1 * t5 * t467 * t27 * (-p_a_cam_beta * (t483 * (t563 * t565 + 0.35e2 / 0.81e2 * t661 * (-t665 + t251 + 0.42296278333333333333e-1 * t489) * t58 * t670 + 0.26329605555555555556e-1 * t770 * t53 * t57 * t489 * t670) + t778 * t829 * t852) + t483 * (t565 + 0.7e1 / 0.9e1 * (0.1e1 + 0.63943327777777777778e-1 * t490 - 0.5e1 / 0.9e1 * (t665 + t443 + 0.11867481666666666667e-1 * t489) * t53 * t57) * t670) + t778 * t852))
res = t459 + t872
" unpol "t3 = 3 ** (0.1e1 / 0.3e1)
t4 = math.pi ** (0.1e1 / 0.3e1)
t7 = 0.1e1 <= p_a_zeta_threshold
t8 = p_a_zeta_threshold - 0.1e1
t10 = lax_cond(t7, -t8, 0)
t11 = lax_cond(t7, t8, t10)
t12 = 0.1e1 + t11
t13 = t12 <= p_a_zeta_threshold
t14 = p_a_zeta_threshold ** (0.1e1 / 0.3e1)
t16 = t12 ** (0.1e1 / 0.3e1)
t18 = lax_cond(t13, t14 * p_a_zeta_threshold, t16 * t12)
t19 = r0 ** (0.1e1 / 0.3e1)
t25 = s0 / r0 / tau0 / 0.8e1
t27 = lax_cond(t25 < 0.10e1, t25, 0.10e1)
t28 = t27 ** 2
t29 = t28 * t27
t33 = (0.1e1 + t29) ** 2
t35 = (t28 + 0.3e1 * t29) / t33
t36 = 9 ** (0.1e1 / 0.3e1)
t37 = t36 ** 2
t39 = (0.1e1 / math.pi) ** (0.1e1 / 0.3e1)
t40 = t39 ** 2
t42 = t37 * t40 * p_a_cam_omega
t44 = t3 / t19
t45 = 6 ** (0.1e1 / 0.3e1)
t46 = math.pi ** 2
t47 = t46 ** (0.1e1 / 0.3e1)
t48 = t47 ** 2
t49 = 0.1e1 / t48
t50 = t45 * t49
t51 = 2 ** (0.1e1 / 0.3e1)
t52 = t51 ** 2
t53 = s0 * t52
t54 = r0 ** 2
t55 = t19 ** 2
t57 = 0.1e1 / t55 / t54
t58 = t53 * t57
t59 = t50 * t58
t61 = t45 ** 2
t65 = s0 ** 2
t67 = t54 ** 2
t74 = 0.1e1 + 0.15045488888888888889e0 * t59 + 0.53798980924525896000e-2 * t61 / t47 / t46 * t65 * t51 / t19 / t67 / r0
t75 = t74 ** (0.1e1 / 0.10e2)
t77 = lax_cond(t13, t14, t16)
t78 = 0.1e1 / t77
t82 = t42 * t44 / t75 * t78 / 0.18e2
t84 = lax_cond(t82 < 0.1e-9, 0.1e-9, t82)
t86 = 0.135e1 < t84
t87 = lax_cond(t86, t84, 0.135e1)
t88 = t87 ** 2
t91 = t88 ** 2
t94 = t91 * t88
t97 = t91 ** 2
t109 = t97 ** 2
t113 = lax_cond(t86, 0.135e1, t84)
t114 = math.sqrt(math.pi)
t117 = math.erf(0.1e1 / t113 / 0.2e1)
t119 = t113 ** 2
t122 = math.exp(-0.1e1 / t119 / 0.4e1)
t133 = lax_cond(0.135e1 <= t84, 0.1e1 / t88 / 0.36e2 - 0.1e1 / t91 / 0.960e3 + 0.1e1 / t94 / 0.26880e5 - 0.1e1 / t97 / 0.829440e6 + 0.1e1 / t97 / t88 / 0.28385280e8 - 0.1e1 / t97 / t91 / 0.1073479680e10 + 0.1e1 / t97 / t94 / 0.44590694400e11 - 0.1e1 / t109 / 0.2021444812800e13, 0.1e1 - 0.8e1 / 0.3e1 * t113 * (t114 * t117 + 0.2e1 * t113 * (t122 - 0.3e1 / 0.2e1 - 0.2e1 * t119 * (t122 - 0.1e1))))
t134 = t74 ** (0.1e1 / 0.5e1)
t135 = 0.1e1 / t134
t138 = 0.27e0 < t84
t139 = lax_cond(t138, t84, 0.27e0)
t140 = t139 ** 2
t141 = t140 ** 2
t142 = t141 ** 2
t143 = t142 * t141
t144 = t142 ** 2
t145 = t144 ** 2
t149 = t141 * t140
t150 = t142 * t149
t160 = t142 * t140
t175 = 0.1e1 / t145 / t143 / 0.33929038000650146833571361325056000000e38 - 0.1e1 / t145 / t150 / 0.3511556992918352140755776405766144000000e40 + 0.3e1 / 0.2240e4 / t141 - 0.1e1 / t149 / 0.11520e5 + 0.3e1 / 0.788480e6 / t142 - 0.1e1 / t160 / 0.7454720e7 + 0.1e1 / t143 / 0.247726080e9 - 0.1e1 / t150 / 0.9358540800e10 + 0.1e1 / t144 / 0.394474291200e12 - 0.1e1 / t144 / t140 / 0.18311911833600e14 + 0.1e1 / t144 / t141 / 0.927028425523200e15
t208 = -0.1e1 / t144 / t149 / 0.50785035485184000e17 + 0.1e1 / t144 / t142 / 0.2991700272218112000e19 - 0.1e1 / t144 / t160 / 0.188514051721003008000e21 + 0.1e1 / t144 / t143 / 0.12648942844388573184000e23 - 0.1e1 / t144 / t150 / 0.900231674141645733888000e24 + 0.1e1 / t145 / 0.67726520292999771979776000e26 - 0.1e1 / t145 / t140 / 0.5369745537516410492682240000e28 + 0.1e1 / t145 / t141 / 0.447473103488807905221672960000e30 - 0.1e1 / t145 / t149 / 0.39097165634742908368485089280000e32 + 0.1e1 / t145 / t142 / 0.3573852336994573837102806466560000e34 - 0.1e1 / t145 / t160 / 0.341095116070365837848137621831680000e36
t210 = lax_cond(t138, 0.27e0, t84)
t211 = t210 ** 2
t213 = t211 ** 2
t214 = 0.64e2 * t213
t218 = math.exp(-0.1e1 / t211 / 0.4e1)
t224 = math.erf(0.1e1 / t210 / 0.2e1)
t231 = lax_cond(0.27e0 <= t84, t175 + t208, 0.1e1 + 0.24e2 * t211 * ((0.20e2 * t211 - t214) * t218 - 0.3e1 - 0.36e2 * t211 + t214 + 0.10e2 * t210 * t114 * t224))
t235 = tau0 * t52 / t55 / r0
t236 = 0.14554132000000000000e0 * t235
t237 = t61 * t48
t242 = t134 ** 2
t243 = 0.1e1 / t242
t248 = 0.32e0 < t84
t249 = lax_cond(t248, t84, 0.32e0)
t250 = t249 ** 2
t251 = t250 ** 2
t254 = t251 * t250
t257 = t251 ** 2
t260 = t257 * t250
t263 = t257 * t251
t266 = t257 * t254
t269 = t257 ** 2
t293 = t269 ** 2
t305 = 0.3e1 / 0.7840e4 / t251 - 0.1e1 / t254 / 0.56448e5 + 0.5e1 / 0.8515584e7 / t257 - 0.1e1 / t260 / 0.61501440e8 + 0.1e1 / t263 / 0.2530344960e10 - 0.1e1 / t266 / 0.115811942400e12 + 0.1e1 / t269 / 0.5811921223680e13 - 0.1e1 / t269 / t250 / 0.316612955602944e15 + 0.1e1 / t269 / t251 / 0.18582706166169600e17 - 0.1e1 / t269 / t254 / 0.1168055816159232000e19 + 0.1e1 / t269 / t257 / 0.78244468658012160000e20 - 0.1e1 / t269 / t260 / 0.5562511054710453043200e22 + 0.1e1 / t269 / t263 / 0.418174050435486229463040e24 - 0.1e1 / t269 / t266 / 0.33139778504339333578752000e26 + 0.1e1 / t293 / 0.2760851680179343645999104000e28 - 0.1e1 / t293 / t250 / 0.241191070393445437962977280000e30 + 0.1e1 / t293 / t251 / 0.22046293272414372635684634624000e32 - 0.1e1 / t293 / t254 / 0.2104209454461863328391867505049600e34
t306 = lax_cond(t248, 0.32e0, t84)
t308 = t306 ** 2
t309 = t308 * t306
t311 = t308 ** 2
t316 = t311 ** 2
t322 = math.exp(-0.1e1 / t308 / 0.4e1)
t336 = math.erf(0.1e1 / t306 / 0.2e1)
t343 = lax_cond(0.32e0 <= t84, t305, 0.1e1 + 0.8e1 / 0.7e1 * t306 * ((-0.576e3 * t311 * t306 - 0.122880e6 * t316 * t306 + 0.3840e4 * t311 * t309 - 0.8e1 * t306 + 0.256e3 * t309) * t322 + 0.24e2 * t309 * (0.5120e4 * t311 * t308 + 0.224e3 * t308 - 0.1440e4 * t311 - 0.35e2) + 0.2e1 * t114 * (-0.2e1 + 0.60e2 * t308) * t336))
t352 = 0.1e1 - t35
t355 = t42 * t44 * t78 / 0.18e2
t357 = 0.135e1 < t355
t358 = lax_cond(t357, t355, 0.135e1)
t359 = t358 ** 2
t362 = t359 ** 2
t365 = t362 * t359
t368 = t362 ** 2
t380 = t368 ** 2
t384 = lax_cond(t357, 0.135e1, t355)
t387 = math.erf(0.1e1 / t384 / 0.2e1)
t389 = t384 ** 2
t392 = math.exp(-0.1e1 / t389 / 0.4e1)
t403 = lax_cond(0.135e1 <= t355, 0.1e1 / t359 / 0.36e2 - 0.1e1 / t362 / 0.960e3 + 0.1e1 / t365 / 0.26880e5 - 0.1e1 / t368 / 0.829440e6 + 0.1e1 / t368 / t359 / 0.28385280e8 - 0.1e1 / t368 / t362 / 0.1073479680e10 + 0.1e1 / t368 / t365 / 0.44590694400e11 - 0.1e1 / t380 / 0.2021444812800e13, 0.1e1 - 0.8e1 / 0.3e1 * t384 * (t114 * t387 + 0.2e1 * t384 * (t392 - 0.3e1 / 0.2e1 - 0.2e1 * t389 * (t392 - 0.1e1))))
t417 = (t235 - t58 / 0.8e1) * t45 * t49 / 0.4e1 - 0.9e1 / 0.20e2 + t59 / 0.36e2
t418 = t417 ** 2
t425 = (0.1e1 + 0.5e1 / 0.12e2 * (0.10e2 / 0.81e2 + 0.25e2 / 0.8748e4 * t59) * t45 * t49 * t58 + 0.292e3 / 0.405e3 * t418 - 0.146e3 / 0.135e3 * t417 * t27 * (0.1e1 - t27)) ** (0.1e1 / 0.10e2)
t446 = lax_cond(r0 / 0.2e1 <= p_a_dens_threshold, 0, -0.3e1 / 0.8e1 * t3 / t4 * t18 * t19 * (-p_a_cam_beta * (t35 * (t133 * t135 + 0.35e2 / 0.81e2 * t231 * (-t236 + 0.4366239600000000000e-1 * t237 + 0.42296278333333333333e-1 * t58) * t50 * t243 + 0.26329605555555555556e-1 * t343 * t45 * t49 * t53 * t57 * t243) + t352 * t403 * t425) + t35 * (t135 + 0.7e1 / 0.9e1 * (0.1e1 + 0.63943327777777777778e-1 * t59 - 0.5e1 / 0.9e1 * (t236 + 0.25633760400000000000e0 * t237 + 0.11867481666666666667e-1 * t58) * t45 * t49) * t243) + t352 * t425))
res = 0.2e1 * t446
"

/- gen_repo/impl/prebuilt/pol/hyb_mgga_x_m05.py and gen_repo/impl/prebuilt/unpol/hyb_mgga_x_m05.py -/
formula hyb_mgga_x_m05 pol "t2 = 3 ** (0.1e1 / 0.3e1)
t3 = math.pi ** (0.1e1 / 0.3e1)
t5 = t2 / t3
t6 = r0 + r1
t7 = 0.1e1 / t6
t10 = 0.2e1 * r0 * t7 <= p_a_zeta_threshold
t11 = p_a_zeta_threshold - 0.1e1
t14 = 0.2e1 * r1 * t7 <= p_a_zeta_threshold
t15 = -t11
t17 = (r0 - r1) * t7
t18 = lax_cond(t14, t15, t17)
t19 = lax_cond(t10, t11, t18)
t20 = 0.1e1 + t19
t22 = p_a_zeta_threshold ** (0.1e1 / 0.3e1)
t23 = t22 * p_a_zeta_threshold
t24 = t20 ** (0.1e1 / 0.3e1)
t26 = lax_cond(t20 <= p_a_zeta_threshold, t23, t24 * t20)
t28 = t6 ** (0.1e1 / 0.3e1)
t29 = t28 * params_a_csi_HF
t30 = 6 ** (0.1e1 / 0.3e1)
t31 = math.pi ** 2
t32 = t31 ** (0.1e1 / 0.3e1)
t33 = t32 ** 2
t35 = t30 / t33
t36 = r0 ** 2
t37 = r0 ** (0.1e1 / 0.3e1)
t38 = t37 ** 2
t48 = params_a_a[0]
t49 = params_a_a[1]
t50 = t30 ** 2
t52 = 0.3e1 / 0.10e2 * t50 * t33
t55 = tau0 / t38 / r0
t56 = t52 - t55
t58 = t52 + t55
t61 = params_a_a[2]
t62 = t56 ** 2
t64 = t58 ** 2
t67 = params_a_a[3]
t68 = t62 * t56
t70 = t64 * t58
t73 = params_a_a[4]
t74 = t62 ** 2
t76 = t64 ** 2
t79 = params_a_a[5]
t85 = params_a_a[6]
t91 = params_a_a[7]
t97 = params_a_a[8]
t98 = t74 ** 2
t100 = t76 ** 2
t103 = params_a_a[9]
t109 = params_a_a[10]
t115 = params_a_a[11]
t121 = t48 + t49 * t56 / t58 + t61 * t62 / t64 + t67 * t68 / t70 + t73 * t74 / t76 + t79 * t74 * t56 / t76 / t58 + t85 * t74 * t62 / t76 / t64 + t91 * t74 * t68 / t76 / t70 + t97 * t98 / t100 + t103 * t98 * t56 / t100 / t58 + t109 * t98 * t62 / t100 / t64 + t115 * t98 * t68 / t100 / t70
t126 = lax_cond(r0 <= p_a_dens_threshold, 0, -0.3e1 / 0.8e1 * t5 * t26 * t29 * (0.18040e1 - 0.64641600e0 / (0.8040e0 + 0.91464571985215458336e-2 * t35 * s0 / t38 / t36)) * t121)
t128 = lax_cond(t10, t15, -t17)
t129 = lax_cond(t14, t11, t128)
t130 = 0.1e1 + t129
t132 = t130 ** (0.1e1 / 0.3e1)
t134 = lax_cond(t130 <= p_a_zeta_threshold, t23, t132 * t130)
t136 = r1 ** 2
t137 = r1 ** (0.1e1 / 0.3e1)
t138 = t137 ** 2
t150 = tau1 / t138 / r1
t151 = t52 - t150
t153 = t52 + t150
t156 = t151 ** 2
t158 = t153 ** 2
t161 = t156 * t151
t163 = t158 * t153
t166 = t156 ** 2
t168 = t158 ** 2
t186 = t166 ** 2
t188 = t168 ** 2
t206 = t48 + t49 * t151 / t153 + t61 * t156 / t158 + t67 * t161 / t163 + t73 * t166 / t168 + t79 * t166 * t151 / t168 / t153 + t85 * t166 * t156 / t168 / t158 + t91 * t166 * t161 / t168 / t163 + t97 * t186 / t188 + t103 * t186 * t151 / t188 / t153 + t109 * t186 * t156 / t188 / t158 + t115 * t186 * t161 / t188 / t163
t211 = lax_cond(r1 <= p_a_dens_threshold, 0, -0.3e1 / 0.8e1 * t5 * t134 * t29 * (0.18040e1 - 0.64641600e0 / (0.8040e0 + 0.91464571985215458336e-2 * t35 * s2 / t138 / t136)) * t206)
res = t126 + t211
" unpol "t3 = 3 ** (0.1e1 / 0.3e1)
t4 = math.pi ** (0.1e1 / 0.3e1)
t7 = 0.1e1 <= p_a_zeta_threshold
t8 = p_a_zeta_threshold - 0.1e1
t10 = lax_cond(t7, -t8, 0)
t11 = lax_cond(t7, t8, t10)
t12 = 0.1e1 + t11
t14 = p_a_zeta_threshold ** (0.1e1 / 0.3e1)
t16 = t12 ** (0.1e1 / 0.3e1)
t18 = lax_cond(t12 <= p_a_zeta_threshold, t14 * p_a_zeta_threshold, t16 * t12)
t20 = r0 ** (0.1e1 / 0.3e1)
t22 = 6 ** (0.1e1 / 0.3e1)
t23 = math.pi ** 2
t24 = t23 ** (0.1e1 / 0.3e1)
t25 = t24 ** 2
t28 = 2 ** (0.1e1 / 0.3e1)
t29 = t28 ** 2
t31 = r0 ** 2
t32 = t20 ** 2
t44 = t22 ** 2
t46 = 0.3e1 / 0.10e2 * t44 * t25
t50 = tau0 * t29 / t32 / r0
t51 = t46 - t50
t53 = t46 + t50
t57 = t51 ** 2
t59 = t53 ** 2
t63 = t57 * t51
t65 = t59 * t53
t69 = t57 ** 2
t71 = t59 ** 2
t93 = t69 ** 2
t95 = t71 ** 2
t116 = params_a_a[0] + params_a_a[1] * t51 / t53 + params_a_a[2] * t57 / t59 + params_a_a[3] * t63 / t65 + params_a_a[4] * t69 / t71 + params_a_a[5] * t69 * t51 / t71 / t53 + params_a_a[6] * t69 * t57 / t71 / t59 + params_a_a[7] * t69 * t63 / t71 / t65 + params_a_a[8] * t93 / t95 + params_a_a[9] * t93 * t51 / t95 / t53 + params_a_a[10] * t93 * t57 / t95 / t59 + params_a_a[11] * t93 * t63 / t95 / t65
t121 = lax_cond(r0 / 0.2e1 <= p_a_dens_threshold, 0, -0.3e1 / 0.8e1 * t3 / t4 * t18 * t20 * params_a_csi_HF * (0.18040e1 - 0.64641600e0 / (0.8040e0 + 0.91464571985215458336e-2 * t22 / t25 * s0 * t29 / t32 / t31)) * t116)
res = 0.2e1 * t121
"

end Verif.Data


/-!
# Shipped formulas, verbatim from `gen_repo/impl/prebuilt/{pol,unpol}/NAME.py`
-/
namespace Verif.Data

/- gen_repo/impl/prebuilt/pol/hyb_mgga_x_pjs18.py and gen_repo/impl/prebuilt/unpol/hyb_mgga_x_pjs18.py -/
formula hyb_mgga_x_pjs18 pol "t2 = 3 ** (0.1e1 / 0.3e1)
t3 = math.pi ** (0.1e1 / 0.3e1)
t5 = t2 / t3
t6 = r0 + r1
t7 = 0.1e1 / t6
t10 = 0.2e1 * r0 * t7 <= p_a_zeta_threshold
t11 = p_a_zeta_threshold - 0.1e1
t14 = 0.2e1 * r1 * t7 <= p_a_zeta_threshold
t15 = -t11
t17 = (r0 - r1) * t7
t18 = lax_cond(t14, t15, t17)
t19 = lax_cond(t10, t11, t18)
t20 = 0.1e1 + t19
t22 = p_a_zeta_threshold ** (0.1e1 / 0.3e1)
t23 = t22 * p_a_zeta_threshold
t24 = t20 ** (0.1e1 / 0.3e1)
t26 = lax_cond(t20 <= p_a_zeta_threshold, t23, t24 * t20)
t27 = t6 ** (0.1e1 / 0.3e1)
t29 = 9 ** (0.1e1 / 0.3e1)
t30 = t29 ** 2
t32 = (0.1e1 / math.pi) ** (0.1e1 / 0.3e1)
t33 = t32 ** 2
t35 = t30 * t33 * p_a_cam_omega
t37 = t2 / t27
t38 = 6 ** (0.1e1 / 0.3e1)
t39 = math.pi ** 2
t40 = t39 ** (0.1e1 / 0.3e1)
t41 = t40 ** 2
t42 = 0.1e1 / t41
t43 = t38 * t42
t44 = r0 ** 2
t45 = r0 ** (0.1e1 / 0.3e1)
t46 = t45 ** 2
t49 = s0 / t46 / t44
t52 = t38 ** 2
t55 = t52 / t40 / t39
t56 = s0 ** 2
t57 = t44 ** 2
t64 = 0.1e1 + 0.15045488888888888889e0 * t43 * t49 + 0.26899490462262948000e-2 * t55 * t56 / t45 / t57 / r0
t65 = t64 ** (0.1e1 / 0.10e2)
t68 = 0.1e1 + t17 <= p_a_zeta_threshold
t70 = 0.1e1 - t17 <= p_a_zeta_threshold
t71 = lax_cond(t70, t15, t17)
t72 = lax_cond(t68, t11, t71)
t73 = 0.1e1 + t72
t75 = t73 ** (0.1e1 / 0.3e1)
t76 = lax_cond(t73 <= p_a_zeta_threshold, t22, t75)
t81 = t35 * t37 / t65 / t76 / 0.18e2
t83 = lax_cond(t81 < 0.1e-9, 0.1e-9, t81)
t85 = 0.135e1 < t83
t86 = lax_cond(t85, t83, 0.135e1)
t87 = t86 ** 2
t90 = t87 ** 2
t93 = t90 * t87
t96 = t90 ** 2
t108 = t96 ** 2
t112 = lax_cond(t85, 0.135e1, t83)
t113 = math.sqrt(math.pi)
t116 = math.erf(0.1e1 / t112 / 0.2e1)
t118 = t112 ** 2
t121 = math.exp(-0.1e1 / t118 / 0.4e1)
t132 = lax_cond(0.135e1 <= t83, 0.1e1 / t87 / 0.36e2 - 0.1e1 / t90 / 0.960e3 + 0.1e1 / t93 / 0.26880e5 - 0.1e1 / t96 / 0.829440e6 + 0.1e1 / t96 / t87 / 0.28385280e8 - 0.1e1 / t96 / t90 / 0.1073479680e10 + 0.1e1 / t96 / t93 / 0.44590694400e11 - 0.1e1 / t108 / 0.2021444812800e13, 0.1e1 - 0.8e1 / 0.3e1 * t112 * (t113 * t116 + 0.2e1 * t112 * (t121 - 0.3e1 / 0.2e1 - 0.2e1 * t118 * (t121 - 0.1e1))))
t133 = t64 ** (0.1e1 / 0.5e1)
t137 = 0.27e0 < t83
t138 = lax_cond(t137, t83, 0.27e0)
t139 = t138 ** 2
t140 = t139 ** 2
t141 = t140 ** 2
t142 = t141 * t140
t143 = t141 ** 2
t144 = t143 ** 2
t148 = t140 * t139
t149 = t141 * t148
t159 = t141 * t139
t174 = 0.1e1 / t144 / t142 / 0.33929038000650146833571361325056000000e38 - 0.1e1 / t144 / t149 / 0.3511556992918352140755776405766144000000e40 + 0.3e1 / 0.2240e4 / t140 - 0.1e1 / t148 / 0.11520e5 + 0.3e1 / 0.788480e6 / t141 - 0.1e1 / t159 / 0.7454720e7 + 0.1e1 / t142 / 0.247726080e9 - 0.1e1 / t149 / 0.9358540800e10 + 0.1e1 / t143 / 0.394474291200e12 - 0.1e1 / t143 / t139 / 0.18311911833600e14 + 0.1e1 / t143 / t140 / 0.927028425523200e15
t207 = -0.1e1 / t143 / t148 / 0.50785035485184000e17 + 0.1e1 / t143 / t141 / 0.2991700272218112000e19 - 0.1e1 / t143 / t159 / 0.188514051721003008000e21 + 0.1e1 / t143 / t142 / 0.12648942844388573184000e23 - 0.1e1 / t143 / t149 / 0.900231674141645733888000e24 + 0.1e1 / t144 / 0.67726520292999771979776000e26 - 0.1e1 / t144 / t139 / 0.5369745537516410492682240000e28 + 0.1e1 / t144 / t140 / 0.447473103488807905221672960000e30 - 0.1e1 / t144 / t148 / 0.39097165634742908368485089280000e32 + 0.1e1 / t144 / t141 / 0.3573852336994573837102806466560000e34 - 0.1e1 / t144 / t159 / 0.341095116070365837848137621831680000e36
t209 = lax_cond(t137, 0.27e0, t83)
t210 = t209 ** 2
t212 = t210 ** 2
t213 = 0.64e2 * t212
t217 = math.exp(-0.1e1 / t210 / 0.4e1)
t223 = math.erf(0.1e1 / t209 / 0.2e1)
t230 = lax_cond(0.27e0 <= t83, t174 + t207, 0.1e1 + 0.24e2 * t210 * ((0.20e2 * t210 - t213) * t217 - 0.3e1 - 0.36e2 * t210 + t213 + 0.10e2 * t209 * t113 * t223))
t236 = 0.4366239600000000000e-1 * t52 * t41
t240 = t133 ** 2
t241 = 0.1e1 / t240
t246 = 0.32e0 < t83
t247 = lax_cond(t246, t83, 0.32e0)
t248 = t247 ** 2
t249 = t248 ** 2
t252 = t249 * t248
t255 = t249 ** 2
t258 = t255 * t248
t261 = t255 * t249
t264 = t255 * t252
t267 = t255 ** 2
t291 = t267 ** 2
t303 = 0.3e1 / 0.7840e4 / t249 - 0.1e1 / t252 / 0.56448e5 + 0.5e1 / 0.8515584e7 / t255 - 0.1e1 / t258 / 0.61501440e8 + 0.1e1 / t261 / 0.2530344960e10 - 0.1e1 / t264 / 0.115811942400e12 + 0.1e1 / t267 / 0.5811921223680e13 - 0.1e1 / t267 / t248 / 0.316612955602944e15 + 0.1e1 / t267 / t249 / 0.18582706166169600e17 - 0.1e1 / t267 / t252 / 0.1168055816159232000e19 + 0.1e1 / t267 / t255 / 0.78244468658012160000e20 - 0.1e1 / t267 / t258 / 0.5562511054710453043200e22 + 0.1e1 / t267 / t261 / 0.418174050435486229463040e24 - 0.1e1 / t267 / t264 / 0.33139778504339333578752000e26 + 0.1e1 / t291 / 0.2760851680179343645999104000e28 - 0.1e1 / t291 / t248 / 0.241191070393445437962977280000e30 + 0.1e1 / t291 / t249 / 0.22046293272414372635684634624000e32 - 0.1e1 / t291 / t252 / 0.2104209454461863328391867505049600e34
t304 = lax_cond(t246, 0.32e0, t83)
t306 = t304 ** 2
t307 = t306 * t304
t309 = t306 ** 2
t314 = t309 ** 2
t320 = math.exp(-0.1e1 / t306 / 0.4e1)
t334 = math.erf(0.1e1 / t304 / 0.2e1)
t341 = lax_cond(0.32e0 <= t83, t303, 0.1e1 + 0.8e1 / 0.7e1 * t304 * ((-0.576e3 * t309 * t304 - 0.122880e6 * t314 * t304 + 0.3840e4 * t309 * t307 - 0.8e1 * t304 + 0.256e3 * t307) * t320 + 0.24e2 * t307 * (0.5120e4 * t309 * t306 + 0.224e3 * t306 - 0.1440e4 * t309 - 0.35e2) + 0.2e1 * t113 * (-0.2e1 + 0.60e2 * t306) * t334))
t351 = lax_cond(r0 <= p_a_dens_threshold, 0, -0.3e1 / 0.8e1 * t5 * t26 * t27 * (t132 / t133 + 0.35e2 / 0.81e2 * t230 * (-0.14554132000000000000e0 * tau0 / t46 / r0 + t236 + 0.42296278333333333333e-1 * t49) * t43 * t241 + 0.26329605555555555556e-1 * t341 * t38 * t42 * t49 * t241))
t353 = lax_cond(t10, t15, -t17)
t354 = lax_cond(t14, t11, t353)
t355 = 0.1e1 + t354
t357 = t355 ** (0.1e1 / 0.3e1)
t359 = lax_cond(t355 <= p_a_zeta_threshold, t23, t357 * t355)
t361 = r1 ** 2
t362 = r1 ** (0.1e1 / 0.3e1)
t363 = t362 ** 2
t366 = s2 / t363 / t361
t369 = s2 ** 2
t370 = t361 ** 2
t377 = 0.1e1 + 0.15045488888888888889e0 * t43 * t366 + 0.26899490462262948000e-2 * t55 * t369 / t362 / t370 / r1
t378 = t377 ** (0.1e1 / 0.10e2)
t380 = lax_cond(t68, t15, -t17)
t381 = lax_cond(t70, t11, t380)
t382 = 0.1e1 + t381
t384 = t382 ** (0.1e1 / 0.3e1)
t385 = lax_cond(t382 <= p_a_zeta_threshold, t22, t384)
t390 = t35 * t37 / t378 / t385 / 0.18e2
t392 = lax_cond(t390 < 0.1e-9, 0.1e-9, t390)
t394 = 0.135e1 < t392
t395 = lax_cond(t394, t392, 0.135e1)
t396 = t395 ** 2
t399 = t396 ** 2
t402 = t399 * t396
t405 = t399 ** 2
t417 = t405 ** 2
t421 = lax_cond(t394, 0.135e1, t392)
t424 = math.erf(0.1e1 / t421 / 0.2e1)
t426 = t421 ** 2
t429 = math.exp(-0.1e1 / t426 / 0.4e1)
t440 = lax_cond(0.135e1 <= t392, 0.1e1 / t396 / 0.36e2 - 0.1e1 / t399 / 0.960e3 + 0.1e1 / t402 / 0.26880e5 - 0.1e1 / t405 / 0.829440e6 + 0.1e1 / t405 / t396 / 0.28385280e8 - 0.1e1 / t405 / t399 / 0.1073479680e10 + 0.1e1 / t405 / t402 / 0.44590694400e11 - 0.1e1 / t417 / 0.2021444812800e13, 0.1e1 - 0.8e1 / 0.3e1 * t421 * (t113 * t424 + 0.2e1 * t421 * (t429 - 0.3e1 / 0.2e1 - 0.2e1 * t426 * (t429 - 0.1e1))))
t441 = t377 ** (0.1e1 / 0.5e1)
t445 = 0.27e0 < t392
t446 = lax_cond(t445, t392, 0.27e0)
t447 = t446 ** 2
t448 = t447 ** 2
t449 = t448 ** 2
t450 = t449 * t448
t451 = t449 ** 2
t452 = t451 ** 2
t456 = t448 * t447
t457 = t449 * t456
t467 = t449 * t447
t482 = 0.1e1 / t452 / t450 / 0.33929038000650146833571361325056000000e38 - 0.1e1 / t452 / t457 / 0.3511556992918352140755776405766144000000e40 + 0.3e1 / 0.2240e4 / t448 - 0.1e1 / t456 / 0.11520e5 + 0.3e1 / 0.788480e6 / t449 - 0.1e1 / t467 / 0.7454720e7 + 0.1e1 / t450 / 0.247726080e9 - 0.1e1 / t457 / 0.9358540800e10 + 0.1e1 / t451 / 0.394474291200e12 - 0.1e1 / t451 / t447 / 0.18311911833600e14 + 0.1e1 / t451 / t448 / 0.927028425523200e15
t515 = -0.1e1 / t451 / t456 / 0.50785035485184000e17 + 0.1e1 / t451 / t449 / 0.2991700272218112000e19 - 0.1e1 / t451 / t467 / 0.188514051721003008000e21 + 0.1e1 / t451 / t450 / 0.12648942844388573184000e23 - 0.1e1 / t451 / t457 / 0.900231674141645733888000e24 + 0.1e1 / t452 / 0.67726520292999771979776000e26 - 0.1e1 / t452 / t447 / 0.5369745537516410492682240000e28 + 0.1e1 / t452 / t448 / 0.447473103488807905221672960000e30 - 0.1e1 / t452 / t456 / 0.39097165634742908368485089280000e32 + 0.1e1 / t452 / t449 / 0.3573852336994573837102806466560000e34 - 0.1e1 / t452 / t467 / 0.341095116070365837848137621831680000e36
t517 = lax_cond(t445, 0.27e0, t392)
t518 = t517 ** 2
t520 = t518 ** 2
t521 = 0.64e2 * t520
t525 = math.exp(-0.1e1 / t518 / 0.4e1)
t531 = math.erf(0.1e1 / t517 / 0.2e1)
t538 = lax_cond(0.27e0 <= t392, t482 + t515, 0.1e1 + 0.24e2 * t518 * ((0.20e2 * t518 - t521) * t525 - 0.3e1 - 0.36e2 * t518 + t521 + 0.10e2 * t517 * t113 * t531))
t546 = t441 ** 2
t547 = 0.1e1 / t546
t552 = 0.32e0 < t392
t553 = lax_cond(t552, t392, 0.32e0)
t554 = t553 ** 2
t555 = t554 ** 2
t558 = t555 * t554
t561 = t555 ** 2
t564 = t561 * t554
t567 = t561 * t555
t570 = t561 * t558
t573 = t561 ** 2
t597 = t573 ** 2
t609 = 0.3e1 / 0.7840e4 / t555 - 0.1e1 / t558 / 0.56448e5 + 0.5e1 / 0.8515584e7 / t561 - 0.1e1 / t564 / 0.61501440e8 + 0.1e1 / t567 / 0.2530344960e10 - 0.1e1 / t570 / 0.115811942400e12 + 0.1e1 / t573 / 0.5811921223680e13 - 0.1e1 / t573 / t554 / 0.316612955602944e15 + 0.1e1 / t573 / t555 / 0.18582706166169600e17 - 0.1e1 / t573 / t558 / 0.1168055816159232000e19 + 0.1e1 / t573 / t561 / 0.78244468658012160000e20 - 0.1e1 / t573 / t564 / 0.5562511054710453043200e22 + 0.1e1 / t573 / t567 / 0.418174050435486229463040e24 - 0.1e1 / t573 / t570 / 0.33139778504339333578752000e26 + 0.1e1 / t597 / 0.2760851680179343645999104000e28 - 0.1e1 / t597 / t554 / 0.241191070393445437962977280000e30 + 0.1e1 / t597 / t555 / 0.22046293272414372635684634624000e32 - 0.1e1 / t597 / t558 / 0.2104209454461863328391867505049600e34
t610 = lax_cond(t552, 0.32e0, t392)
t612 = t610 ** 2
t613 = t612 * t610
t615 = t612 ** 2
t620 = t615 ** 2
t626 = math.exp(-0.1e1 / t612 / 0.4e1)
t640 = math.erf(0.1e1 / t610 / 0.2e1)
t647 = lax_cond(0.32e0 <= t392, t609, 0.1e1 + 0.8e1 / 0.7e1 * t610 * ((-0.576e3 * t615 * t610 - 0.122880e6 * t620 * t610 + 0.3840e4 * t615 * t613 - 0.8e1 * t610 + 0.256e3 * t613) * t626 + 0.24e2 * t613 * (0.5120e4 * t615 * t612 + 0.224e3 * t612 - 0.1440e4 * t615 - 0.35e2) + 0.2e1 * t113 * (-0.2e1 + 0.60e2 * t612) * t640))
t657 = lax_cond(r1 <= p_a_dens_threshold, 0, -0.3e1 / 0.8e1 * t5 * t359 * t27 * (t440 / t441 + 0.35e2 / 0.81e2 * t538 * (-0.14554132000000000000e0 * tau1 / t363 / r1 + t236 + 0.42296278333333333333e-1 * t366) * t43 * t547 + 0.26329605555555555556e-1 * t647 * t38 * t42 * t366 * t547))
res = t351 + t657
" unpol "t3 = 3 ** (0.1e1 / 0.3e1)
t4 = math.pi ** (0.1e1 / 0.3e1)
t7 = 0.1e1 <= p_a_zeta_threshold
t8 = p_a_zeta_threshold - 0.1e1
t10 = lax_cond(t7, -t8, 0)
t11 = lax_cond(t7, t8, t10)
t12 = 0.1e1 + t11
t13 = t12 <= p_a_zeta_threshold
t14 = p_a_zeta_threshold ** (0.1e1 / 0.3e1)
t16 = t12 ** (0.1e1 / 0.3e1)
t18 = lax_cond(t13, t14 * p_a_zeta_threshold, t16 * t12)
t19 = r0 ** (0.1e1 / 0.3e1)
t21 = 9 ** (0.1e1 / 0.3e1)
t22 = t21 ** 2
t24 = (0.1e1 / math.pi) ** (0.1e1 / 0.3e1)
t25 = t24 ** 2
t30 = 6 ** (0.1e1 / 0.3e1)
t31 = math.pi ** 2
t32 = t31 ** (0.1e1 / 0.3e1)
t33 = t32 ** 2
t34 = 0.1e1 / t33
t35 = t30 * t34
t36 = 2 ** (0.1e1 / 0.3e1)
t37 = t36 ** 2
t38 = s0 * t37
t39 = r0 ** 2
t40 = t19 ** 2
t42 = 0.1e1 / t40 / t39
t43 = t38 * t42
t46 = t30 ** 2
t50 = s0 ** 2
t52 = t39 ** 2
t59 = 0.1e1 + 0.15045488888888888889e0 * t35 * t43 + 0.53798980924525896000e-2 * t46 / t32 / t31 * t50 * t36 / t19 / t52 / r0
t60 = t59 ** (0.1e1 / 0.10e2)
t62 = lax_cond(t13, t14, t16)
t67 = t22 * t25 * p_a_cam_omega * t3 / t19 / t60 / t62 / 0.18e2
t69 = lax_cond(t67 < 0.1e-9, 0.1e-9, t67)
t71 = 0.135e1 < t69
t72 = lax_cond(t71, t69, 0.135e1)
t73 = t72 ** 2
t76 = t73 ** 2
t79 = t76 * t73
t82 = t76 ** 2
t94 = t82 ** 2
t98 = lax_cond(t71, 0.135e1, t69)
t99 = math.sqrt(math.pi)
t102 = math.erf(0.1e1 / t98 / 0.2e1)
t104 = t98 ** 2
t107 = math.exp(-0.1e1 / t104 / 0.4e1)
t118 = lax_cond(0.135e1 <= t69, 0.1e1 / t73 / 0.36e2 - 0.1e1 / t76 / 0.960e3 + 0.1e1 / t79 / 0.26880e5 - 0.1e1 / t82 / 0.829440e6 + 0.1e1 / t82 / t73 / 0.28385280e8 - 0.1e1 / t82 / t76 / 0.1073479680e10 + 0.1e1 / t82 / t79 / 0.44590694400e11 - 0.1e1 / t94 / 0.2021444812800e13, 0.1e1 - 0.8e1 / 0.3e1 * t98 * (t99 * t102 + 0.2e1 * t98 * (t107 - 0.3e1 / 0.2e1 - 0.2e1 * t104 * (t107 - 0.1e1))))
t119 = t59 ** (0.1e1 / 0.5e1)
t123 = 0.27e0 < t69
t124 = lax_cond(t123, t69, 0.27e0)
t125 = t124 ** 2
t126 = t125 ** 2
t127 = t126 ** 2
t128 = t127 * t126
t129 = t127 ** 2
t130 = t129 ** 2
t134 = t126 * t125
t135 = t127 * t134
t145 = t127 * t125
t160 = 0.1e1 / t130 / t128 / 0.33929038000650146833571361325056000000e38 - 0.1e1 / t130 / t135 / 0.3511556992918352140755776405766144000000e40 + 0.3e1 / 0.2240e4 / t126 - 0.1e1 / t134 / 0.11520e5 + 0.3e1 / 0.788480e6 / t127 - 0.1e1 / t145 / 0.7454720e7 + 0.1e1 / t128 / 0.247726080e9 - 0.1e1 / t135 / 0.9358540800e10 + 0.1e1 / t129 / 0.394474291200e12 - 0.1e1 / t129 / t125 / 0.18311911833600e14 + 0.1e1 / t129 / t126 / 0.927028425523200e15
t193 = -0.1e1 / t129 / t134 / 0.50785035485184000e17 + 0.1e1 / t129 / t127 / 0.2991700272218112000e19 - 0.1e1 / t129 / t145 / 0.188514051721003008000e21 + 0.1e1 / t129 / t128 / 0.12648942844388573184000e23 - 0.1e1 / t129 / t135 / 0.900231674141645733888000e24 + 0.1e1 / t130 / 0.67726520292999771979776000e26 - 0.1e1 / t130 / t125 / 0.5369745537516410492682240000e28 + 0.1e1 / t130 / t126 / 0.447473103488807905221672960000e30 - 0.1e1 / t130 / t134 / 0.39097165634742908368485089280000e32 + 0.1e1 / t130 / t127 / 0.3573852336994573837102806466560000e34 - 0.1e1 / t130 / t145 / 0.341095116070365837848137621831680000e36
t195 = lax_cond(t123, 0.27e0, t69)
t196 = t195 ** 2
t198 = t196 ** 2
t199 = 0.64e2 * t198
t203 = math.exp(-0.1e1 / t196 / 0.4e1)
t209 = math.erf(0.1e1 / t195 / 0.2e1)
t216 = lax_cond(0.27e0 <= t69, t160 + t193, 0.1e1 + 0.24e2 * t196 * ((0.20e2 * t196 - t199) * t203 - 0.3e1 - 0.36e2 * t196 + t199 + 0.10e2 * t195 * t99 * t209))
t227 = t119 ** 2
t228 = 0.1e1 / t227
t233 = 0.32e0 < t69
t234 = lax_cond(t233, t69, 0.32e0)
t235 = t234 ** 2
t236 = t235 ** 2
t239 = t236 * t235
t242 = t236 ** 2
t245 = t242 * t235
t248 = t242 * t236
t251 = t242 * t239
t254 = t242 ** 2
t278 = t254 ** 2
t290 = 0.3e1 / 0.7840e4 / t236 - 0.1e1 / t239 / 0.56448e5 + 0.5e1 / 0.8515584e7 / t242 - 0.1e1 / t245 / 0.61501440e8 + 0.1e1 / t248 / 0.2530344960e10 - 0.1e1 / t251 / 0.115811942400e12 + 0.1e1 / t254 / 0.5811921223680e13 - 0.1e1 / t254 / t235 / 0.316612955602944e15 + 0.1e1 / t254 / t236 / 0.18582706166169600e17 - 0.1e1 / t254 / t239 / 0.1168055816159232000e19 + 0.1e1 / t254 / t242 / 0.78244468658012160000e20 - 0.1e1 / t254 / t245 / 0.5562511054710453043200e22 + 0.1e1 / t254 / t248 / 0.418174050435486229463040e24 - 0.1e1 / t254 / t251 / 0.33139778504339333578752000e26 + 0.1e1 / t278 / 0.2760851680179343645999104000e28 - 0.1e1 / t278 / t235 / 0.241191070393445437962977280000e30 + 0.1e1 / t278 / t236 / 0.22046293272414372635684634624000e32 - 0.1e1 / t278 / t239 / 0.2104209454461863328391867505049600e34
t291 = lax_cond(t233, 0.32e0, t69)
t293 = t291 ** 2
t294 = t293 * t291
t296 = t293 ** 2
t301 = t296 ** 2
t307 = math.exp(-0.1e1 / t293 / 0.4e1)
t321 = math.erf(0.1e1 / t291 / 0.2e1)
t328 = lax_cond(0.32e0 <= t69, t290, 0.1e1 + 0.8e1 / 0.7e1 * t291 * ((-0.576e3 * t296 * t291 - 0.122880e6 * t301 * t291 + 0.3840e4 * t296 * t294 - 0.8e1 * t291 + 0.256e3 * t294) * t307 + 0.24e2 * t294 * (0.5120e4 * t296 * t293 + 0.224e3 * t293 - 0.1440e4 * t296 - 0.35e2) + 0.2e1 * t99 * (-0.2e1 + 0.60e2 * t293) * t321))
t339 = lax_cond(r0 / 0.2e1 <= p_a_dens_threshold, 0, -0.3e1 / 0.8e1 * t3 / t4 * t18 * t19 * (t118 / t119 + 0.35e2 / 0.81e2 * t216 * (-0.14554132000000000000e0 * tau0 * t37 / t40 / r0 + 0.4366239600000000000e-1 * t46 * t33 + 0.42296278333333333333e-1 * t43) * t35 * t228 + 0.26329605555555555556e-1 * t328 * t30 * t34 * t38 * t42 * t228))
res = 0.2e1 * t339
"

/- gen_repo/impl/prebuilt/pol/hyb_mgga_xc_wb97mv.py and gen_repo/impl/prebuilt/unpol/hyb_mgga_xc_wb97mv.py -/
formula hyb_mgga_xc_wb97mv pol "t2 = r0 - r1
t3 = r0 + r1
t5 = t2 / t3
t6 = 0.1e1 + t5
t7 = t6 <= p_a_zeta_threshold
t8 = jnp.logical_or(r0 <= p_a_dens_threshold, t7)
t9 = 3 ** (0.1e1 / 0.3e1)
t12 = (0.1e1 / math.pi) ** (0.1e1 / 0.3e1)
t13 = 4 ** (0.1e1 / 0.3e1)
t14 = t13 ** 2
t16 = 2 ** (0.1e1 / 0.3e1)
t17 = t12 * t14 * t16
t19 = 0.2e1 <= p_a_zeta_threshold
t20 = p_a_zeta_threshold ** (0.1e1 / 0.3e1)
t21 = t20 * p_a_zeta_threshold
t23 = lax_cond(t19, t21, 0.2e1 * t16)
t24 = t3 ** (0.1e1 / 0.3e1)
t25 = t23 * t24
t27 = (0.1e1 / t6) ** (0.1e1 / 0.3e1)
t29 = 9 ** (0.1e1 / 0.3e1)
t30 = t29 ** 2
t31 = t12 ** 2
t34 = t30 * t31 * p_a_cam_omega * t9
t35 = 0.1e1 / t24
t36 = t35 * t16
t37 = lax_cond(t19, t20, t16)
t38 = 0.1e1 / t37
t42 = t34 * t36 * t27 * t38 / 0.18e2
t44 = 0.135e1 < t42
t45 = lax_cond(t44, t42, 0.135e1)
t46 = t45 ** 2
t49 = t46 ** 2
t52 = t49 * t46
t55 = t49 ** 2
t67 = t55 ** 2
t71 = lax_cond(t44, 0.135e1, t42)
t72 = math.sqrt(math.pi)
t75 = math.erf(0.1e1 / t71 / 0.2e1)
t77 = t71 ** 2
t80 = math.exp(-0.1e1 / t77 / 0.4e1)
t91 = lax_cond(0.135e1 <= t42, 0.1e1 / t46 / 0.36e2 - 0.1e1 / t49 / 0.960e3 + 0.1e1 / t52 / 0.26880e5 - 0.1e1 / t55 / 0.829440e6 + 0.1e1 / t55 / t46 / 0.28385280e8 - 0.1e1 / t55 / t49 / 0.1073479680e10 + 0.1e1 / t55 / t52 / 0.44590694400e11 - 0.1e1 / t67 / 0.2021444812800e13, 0.1e1 - 0.8e1 / 0.3e1 * t71 * (t72 * t75 + 0.2e1 * t71 * (t80 - 0.3e1 / 0.2e1 - 0.2e1 * t77 * (t80 - 0.1e1))))
t93 = params_a_c_x[0]
t94 = params_a_c_x[1]
t96 = r0 ** 2
t97 = r0 ** (0.1e1 / 0.3e1)
t98 = t97 ** 2
t100 = 0.1e1 / t98 / t96
t101 = s0 * t100
t108 = params_a_c_x[2]
t109 = 6 ** (0.1e1 / 0.3e1)
t110 = t109 ** 2
t111 = math.pi ** 2
t112 = t111 ** (0.1e1 / 0.3e1)
t113 = t112 ** 2
t114 = t110 * t113
t115 = 0.3e1 / 0.10e2 * t114
t118 = tau0 / t98 / r0
t119 = t115 - t118
t121 = t115 + t118
t122 = 0.1e1 / t121
t129 = lax_cond(t8, 0, -0.3e1 / 0.64e2 * t6 * t9 * t17 * t25 / t27 * t91 * (t93 + 0.4e-2 * t94 * s0 * t100 / (0.1e1 + 0.4e-2 * t101) + t108 * t119 * t122))
t131 = 0.1e1 - t5
t132 = t131 <= p_a_zeta_threshold
t133 = jnp.logical_or(r1 <= p_a_dens_threshold, t132)
t137 = (0.1e1 / t131) ** (0.1e1 / 0.3e1)
t142 = t34 * t36 * t137 * t38 / 0.18e2
t144 = 0.135e1 < t142
t145 = lax_cond(t144, t142, 0.135e1)
t146 = t145 ** 2
t149 = t146 ** 2
t152 = t149 * t146
t155 = t149 ** 2
t167 = t155 ** 2
t171 = lax_cond(t144, 0.135e1, t142)
t174 = math.erf(0.1e1 / t171 / 0.2e1)
t176 = t171 ** 2
t179 = math.exp(-0.1e1 / t176 / 0.4e1)
t190 = lax_cond(0.135e1 <= t142, 0.1e1 / t146 / 0.36e2 - 0.1e1 / t149 / 0.960e3 + 0.1e1 / t152 / 0.26880e5 - 0.1e1 / t155 / 0.829440e6 + 0.1e1 / t155 / t146 / 0.28385280e8 - 0.1e1 / t155 / t149 / 0.1073479680e10 + 0.1e1 / t155 / t152 / 0.44590694400e11 - 0.1e1 / t167 / 0.2021444812800e13, 0.1e1 - 0.8e1 / 0.3e1 * t171 * (t72 * t174 + 0.2e1 * t171 * (t179 - 0.3e1 / 0.2e1 - 0.2e1 * t176 * (t179 - 0.1e1))))
t193 = r1 ** 2
t194 = r1 ** (0.1e1 / 0.3e1)
t195 = t194 ** 2
t197 = 0.1e1 / t195 / t193
t198 = s2 * t197
t207 = tau1 / t195 / r1
t208 = t115 - t207
t210 = t115 + t207
t211 = 0.1e1 / t210
t218 = lax_cond(t133, 0, -0.3e1 / 0.64e2 * t131 * t9 * t17 * t25 / t137 * t190 * (t93 + 0.4e-2 * t94 * s2 * t197 / (0.1e1 + 0.4e-2 * t198) + t108 * t208 * t211))
t219 = lax_cond(t7, p_a_zeta_threshold, t6)
t220 = t9 * t12
t221 = t220 * t14
t222 = 0.1e1 / t20
t223 = t6 ** (0.1e1 / 0.3e1)
t225 = lax_cond(t7, t222, 0.1e1 / t223)
t227 = t221 * t36 * t225
t230 = math.sqrt(t227)
t233 = t227 ** 0.15e1
t235 = t9 ** 2
t236 = t235 * t31
t237 = t236 * t13
t238 = t24 ** 2
t239 = 0.1e1 / t238
t240 = t16 ** 2
t241 = t239 * t240
t242 = t225 ** 2
t244 = t237 * t241 * t242
t250 = math.log(0.1e1 + 0.16081979498692535067e2 / (0.37978500000000000000e1 * t230 + 0.89690000000000000000e0 * t227 + 0.20477500000000000000e0 * t233 + 0.12323500000000000000e0 * t244))
t252 = 0.621814e-1 * (0.1e1 + 0.53425000000000000000e-1 * t227) * t250
t254 = lax_cond(0.0e0 <= p_a_zeta_threshold, t21, 0)
t258 = 0.1e1 / (0.2e1 * t16 - 0.2e1)
t259 = (t23 + t254 - 0.2e1) * t258
t270 = math.log(0.1e1 + 0.32163958997385070134e2 / (0.70594500000000000000e1 * t230 + 0.15494250000000000000e1 * t227 + 0.42077500000000000000e0 * t233 + 0.15629250000000000000e0 * t244))
t283 = math.log(0.1e1 + 0.29608749977793437516e2 / (0.51785000000000000000e1 * t230 + 0.90577500000000000000e0 * t227 + 0.11003250000000000000e0 * t233 + 0.12417750000000000000e0 * t244))
t284 = (0.1e1 + 0.27812500000000000000e-1 * t227) * t283
t293 = lax_cond(t8, 0, t219 * (-t252 + t259 * (-0.3109070e-1 * (0.1e1 + 0.51370000000000000000e-1 * t227) * t270 + t252 - 0.19751673498613801407e-1 * t284) + 0.19751673498613801407e-1 * t259 * t284) / 0.2e1)
t294 = params_a_c_ss[0]
t295 = params_a_c_ss[1]
t296 = s0 ** 2
t297 = t296 ** 2
t299 = t96 ** 2
t300 = t299 ** 2
t305 = 0.1e1 + 0.2e0 * t101
t306 = t305 ** 2
t307 = t306 ** 2
t312 = params_a_c_ss[2]
t315 = params_a_c_ss[3]
t316 = t119 ** 2
t318 = t121 ** 2
t321 = params_a_c_ss[4]
t322 = t316 ** 2
t324 = t318 ** 2
t337 = lax_cond(t132, p_a_zeta_threshold, t131)
t338 = t131 ** (0.1e1 / 0.3e1)
t340 = lax_cond(t132, t222, 0.1e1 / t338)
t342 = t221 * t36 * t340
t345 = math.sqrt(t342)
t348 = t342 ** 0.15e1
t350 = t340 ** 2
t352 = t237 * t241 * t350
t358 = math.log(0.1e1 + 0.16081979498692535067e2 / (0.37978500000000000000e1 * t345 + 0.89690000000000000000e0 * t342 + 0.20477500000000000000e0 * t348 + 0.12323500000000000000e0 * t352))
t360 = 0.621814e-1 * (0.1e1 + 0.53425000000000000000e-1 * t342) * t358
t371 = math.log(0.1e1 + 0.32163958997385070134e2 / (0.70594500000000000000e1 * t345 + 0.15494250000000000000e1 * t342 + 0.42077500000000000000e0 * t348 + 0.15629250000000000000e0 * t352))
t384 = math.log(0.1e1 + 0.29608749977793437516e2 / (0.51785000000000000000e1 * t345 + 0.90577500000000000000e0 * t342 + 0.11003250000000000000e0 * t348 + 0.12417750000000000000e0 * t352))
t385 = (0.1e1 + 0.27812500000000000000e-1 * t342) * t384
t394 = lax_cond(t133, 0, t337 * (-t360 + t259 * (-0.3109070e-1 * (0.1e1 + 0.51370000000000000000e-1 * t342) * t371 + t360 - 0.19751673498613801407e-1 * t385) + 0.19751673498613801407e-1 * t259 * t385) / 0.2e1)
t395 = s2 ** 2
t396 = t395 ** 2
t398 = t193 ** 2
t399 = t398 ** 2
t404 = 0.1e1 + 0.2e0 * t198
t405 = t404 ** 2
t406 = t405 ** 2
t413 = t208 ** 2
t415 = t210 ** 2
t418 = t413 ** 2
t420 = t415 ** 2
t434 = t220 * t14 * t35
t437 = math.sqrt(t434)
t440 = t434 ** 0.15e1
t443 = t236 * t13 * t239
t449 = math.log(0.1e1 + 0.16081979498692535067e2 / (0.37978500000000000000e1 * t437 + 0.89690000000000000000e0 * t434 + 0.20477500000000000000e0 * t440 + 0.12323500000000000000e0 * t443))
t451 = 0.621814e-1 * (0.1e1 + 0.53425000000000000000e-1 * t434) * t449
t452 = t2 ** 2
t453 = t452 ** 2
t454 = t3 ** 2
t455 = t454 ** 2
t459 = lax_cond(t7, t21, t223 * t6)
t461 = lax_cond(t132, t21, t338 * t131)
t463 = (t459 + t461 - 0.2e1) * t258
t474 = math.log(0.1e1 + 0.32163958997385070134e2 / (0.70594500000000000000e1 * t437 + 0.15494250000000000000e1 * t434 + 0.42077500000000000000e0 * t440 + 0.15629250000000000000e0 * t443))
t487 = math.log(0.1e1 + 0.29608749977793437516e2 / (0.51785000000000000000e1 * t437 + 0.90577500000000000000e0 * t434 + 0.11003250000000000000e0 * t440 + 0.12417750000000000000e0 * t443))
t488 = (0.1e1 + 0.27812500000000000000e-1 * t434) * t487
t500 = 0.3e1 / 0.10e2 * t114 * (t118 + t207)
t502 = 0.2e1 * t118 * t207
t503 = t500 - t502
t505 = t500 + t502
t509 = t503 ** 2
t511 = t505 ** 2
t512 = 0.1e1 / t511
t516 = t101 + t198
t521 = 0.1e1 / (0.1e1 + 0.30000000000000000000e-2 * t101 + 0.30000000000000000000e-2 * t198)
t526 = t509 ** 2
t527 = t526 * t509
t529 = t511 ** 2
t531 = 0.1e1 / t529 / t511
res = t129 + t218 + t293 * (t294 + 0.16e-2 * t295 * t297 / t98 / t300 / t96 / t307 + t312 * t119 * t122 + t315 * t316 / t318 + 0.8e-2 * t321 * t322 / t324 * t296 * s0 / t300 / t306 / t305) + t394 * (t294 + 0.16e-2 * t295 * t396 / t195 / t399 / t193 / t406 + t312 * t208 * t211 + t315 * t413 / t415 + 0.8e-2 * t321 * t418 / t420 * t395 * s2 / t399 / t405 / t404) + (-t451 + t453 / t455 * t463 * (-0.3109070e-1 * (0.1e1 + 0.51370000000000000000e-1 * t434) * t474 + t451 - 0.19751673498613801407e-1 * t488) + 0.19751673498613801407e-1 * t463 * t488 - t293 - t394) * (params_a_c_os[0] + params_a_c_os[1] * t503 / t505 + params_a_c_os[2] * t509 * t512 + 0.30000000000000000000e-2 * params_a_c_os[3] * t509 * t512 * t516 * t521 + params_a_c_os[4] * t527 * t531 + 0.30000000000000000000e-2 * params_a_c_os[5] * t527 * t531 * t516 * t521)
" unpol "t3 = 0.1e1 <= p_a_zeta_threshold
t4 = jnp.logical_or(r0 / 0.2e1 <= p_a_dens_threshold, t3)
t5 = 3 ** (0.1e1 / 0.3e1)
t7 = (0.1e1 / math.pi) ** (0.1e1 / 0.3e1)
t8 = t5 * t7
t9 = 4 ** (0.1e1 / 0.3e1)
t10 = t9 ** 2
t11 = 2 ** (0.1e1 / 0.3e1)
t14 = 0.2e1 <= p_a_zeta_threshold
t15 = p_a_zeta_threshold ** (0.1e1 / 0.3e1)
t16 = t15 * p_a_zeta_threshold
t18 = lax_cond(t14, t16, 0.2e1 * t11)
t19 = r0 ** (0.1e1 / 0.3e1)
t21 = 9 ** (0.1e1 / 0.3e1)
t22 = t21 ** 2
t23 = t7 ** 2
t26 = 0.1e1 / t19
t28 = lax_cond(t14, t15, t11)
t33 = t22 * t23 * p_a_cam_omega * t5 * t26 * t11 / t28 / 0.18e2
t35 = 0.135e1 < t33
t36 = lax_cond(t35, t33, 0.135e1)
t37 = t36 ** 2
t40 = t37 ** 2
t43 = t40 * t37
t46 = t40 ** 2
t58 = t46 ** 2
t62 = lax_cond(t35, 0.135e1, t33)
t63 = math.sqrt(math.pi)
t66 = math.erf(0.1e1 / t62 / 0.2e1)
t68 = t62 ** 2
t71 = math.exp(-0.1e1 / t68 / 0.4e1)
t82 = lax_cond(0.135e1 <= t33, 0.1e1 / t37 / 0.36e2 - 0.1e1 / t40 / 0.960e3 + 0.1e1 / t43 / 0.26880e5 - 0.1e1 / t46 / 0.829440e6 + 0.1e1 / t46 / t37 / 0.28385280e8 - 0.1e1 / t46 / t40 / 0.1073479680e10 + 0.1e1 / t46 / t43 / 0.44590694400e11 - 0.1e1 / t58 / 0.2021444812800e13, 0.1e1 - 0.8e1 / 0.3e1 * t62 * (t63 * t66 + 0.2e1 * t62 * (t71 - 0.3e1 / 0.2e1 - 0.2e1 * t68 * (t71 - 0.1e1))))
t86 = t11 ** 2
t87 = r0 ** 2
t88 = t19 ** 2
t90 = 0.1e1 / t88 / t87
t92 = s0 * t86
t93 = t92 * t90
t101 = 6 ** (0.1e1 / 0.3e1)
t102 = t101 ** 2
t103 = math.pi ** 2
t104 = t103 ** (0.1e1 / 0.3e1)
t105 = t104 ** 2
t106 = t102 * t105
t107 = 0.3e1 / 0.10e2 * t106
t111 = tau0 * t86 / t88 / r0
t112 = t107 - t111
t114 = t107 + t111
t115 = 0.1e1 / t114
t122 = lax_cond(t4, 0, -0.3e1 / 0.64e2 * t8 * t10 * t11 * t18 * t19 * t82 * (params_a_c_x[0] + 0.4e-2 * params_a_c_x[1] * s0 * t86 * t90 / (0.1e1 + 0.4e-2 * t93) + params_a_c_x[2] * t112 * t115))
t124 = lax_cond(t3, p_a_zeta_threshold, 1)
t128 = lax_cond(t3, 0.1e1 / t15, 1)
t130 = t8 * t10 * t26 * t11 * t128
t133 = math.sqrt(t130)
t136 = t130 ** 0.15e1
t138 = t5 ** 2
t139 = t138 * t23
t141 = 0.1e1 / t88
t143 = t128 ** 2
t145 = t139 * t9 * t141 * t86 * t143
t151 = math.log(0.1e1 + 0.16081979498692535067e2 / (0.37978500000000000000e1 * t133 + 0.89690000000000000000e0 * t130 + 0.20477500000000000000e0 * t136 + 0.12323500000000000000e0 * t145))
t153 = 0.621814e-1 * (0.1e1 + 0.53425000000000000000e-1 * t130) * t151
t155 = lax_cond(0.0e0 <= p_a_zeta_threshold, t16, 0)
t159 = 0.1e1 / (0.2e1 * t11 - 0.2e1)
t160 = (t18 + t155 - 0.2e1) * t159
t171 = math.log(0.1e1 + 0.32163958997385070134e2 / (0.70594500000000000000e1 * t133 + 0.15494250000000000000e1 * t130 + 0.42077500000000000000e0 * t136 + 0.15629250000000000000e0 * t145))
t184 = math.log(0.1e1 + 0.29608749977793437516e2 / (0.51785000000000000000e1 * t133 + 0.90577500000000000000e0 * t130 + 0.11003250000000000000e0 * t136 + 0.12417750000000000000e0 * t145))
t185 = (0.1e1 + 0.27812500000000000000e-1 * t130) * t184
t194 = lax_cond(t4, 0, t124 * (-t153 + t160 * (-0.3109070e-1 * (0.1e1 + 0.51370000000000000000e-1 * t130) * t171 + t153 - 0.19751673498613801407e-1 * t185) + 0.19751673498613801407e-1 * t160 * t185) / 0.2e1)
t197 = s0 ** 2
t198 = t197 ** 2
t200 = t87 ** 2
t201 = t200 ** 2
t207 = 0.1e1 + 0.2e0 * t93
t208 = t207 ** 2
t209 = t208 ** 2
t218 = t112 ** 2
t220 = t114 ** 2
t224 = t218 ** 2
t226 = t220 ** 2
t241 = t8 * t10 * t26
t244 = math.sqrt(t241)
t247 = t241 ** 0.15e1
t250 = t139 * t9 * t141
t256 = math.log(0.1e1 + 0.16081979498692535067e2 / (0.37978500000000000000e1 * t244 + 0.89690000000000000000e0 * t241 + 0.20477500000000000000e0 * t247 + 0.12323500000000000000e0 * t250))
t259 = lax_cond(t3, t16, 1)
t273 = math.log(0.1e1 + 0.29608749977793437516e2 / (0.51785000000000000000e1 * t244 + 0.90577500000000000000e0 * t241 + 0.11003250000000000000e0 * t247 + 0.12417750000000000000e0 * t250))
t282 = 0.3e1 / 0.5e1 * t106 * t111
t283 = tau0 ** 2
t289 = 0.4e1 * t283 * t11 / t19 / t87 / r0
t290 = t282 - t289
t292 = t282 + t289
t296 = t290 ** 2
t298 = t292 ** 2
t299 = 0.1e1 / t298
t308 = t92 * t90 / (0.1e1 + 0.6e-2 * t93)
t312 = t296 ** 2
t313 = t312 * t296
t315 = t298 ** 2
t317 = 0.1e1 / t315 / t298
res = 0.2e1 * t122 + 0.2e1 * t194 * (params_a_c_ss[0] + 0.64e-2 * params_a_c_ss[1] * t198 * t86 / t88 / t201 / t87 / t209 + params_a_c_ss[2] * t112 * t115 + params_a_c_ss[3] * t218 / t220 + 0.32e-1 * params_a_c_ss[4] * t224 / t226 * t197 * s0 / t201 / t208 / t207) + (-0.621814e-1 * (0.1e1 + 0.53425000000000000000e-1 * t241) * t256 + 0.19751673498613801407e-1 * (0.2e1 * t259 - 0.2e1) * t159 * (0.1e1 + 0.27812500000000000000e-1 * t241) * t273 - 0.2e1 * t194) * (params_a_c_os[0] + params_a_c_os[1] * t290 / t292 + params_a_c_os[2] * t296 * t299 + 0.6e-2 * params_a_c_os[3] * t296 * t299 * t308 + params_a_c_os[4] * t313 * t317 + 0.6e-2 * params_a_c_os[5] * t313 * t317 * t308)
"

/- gen_repo/impl/prebuilt/pol/lda_c_1d_csc.py and gen_repo/impl/prebuilt/unpol/lda_c_1d_csc.py -/
formula lda_c_1d_csc pol "t1 = r0 + r1
t2 = 0.1e1 / t1
t3 = t2 / 0.2e1
t5 = t1 ** 2
t6 = 0.1e1 / t5
t15 = t3 ** params_a_para[9]
t18 = math.log(0.1e1 + params_a_para[7] * t2 / 0.2e1 + params_a_para[8] * t15)
t26 = t3 ** params_a_para[5]
t31 = t3 ** params_a_para[6]
t36 = (t3 + params_a_para[4] * t6 / 0.4e1) * t18 / (params_a_para[1] * t2 + 0.2e1 * params_a_para[2] * t26 + 0.2e1 * params_a_para[3] * t31 + 0.2e1 * params_a_para[0])
t46 = t3 ** params_a_ferro[9]
t49 = math.log(0.1e1 + params_a_ferro[7] * t2 / 0.2e1 + params_a_ferro[8] * t46)
t57 = t3 ** params_a_ferro[5]
t62 = t3 ** params_a_ferro[6]
t70 = (r0 - r1) ** 2
res = -t36 + (-(t3 + params_a_ferro[4] * t6 / 0.4e1) * t49 / (params_a_ferro[1] * t2 + 0.2e1 * params_a_ferro[2] * t57 + 0.2e1 * params_a_ferro[3] * t62 + 0.2e1 * params_a_ferro[0]) + t36) * t70 * t6
" unpol "t1 = 0.1e1 / r0
t2 = t1 / 0.2e1
t4 = r0 ** 2
t14 = t2 ** params_a_para[9]
t17 = math.log(0.1e1 + params_a_para[7] * t1 / 0.2e1 + params_a_para[8] * t14)
t25 = t2 ** params_a_para[5]
t30 = t2 ** params_a_para[6]
res = -(t2 + params_a_para[4] / t4 / 0.4e1) * t17 / (params_a_para[1] * t1 + 0.2e1 * params_a_para[2] * t25 + 0.2e1 * params_a_para[3] * t30 + 0.2e1 * params_a_para[0])
"

/- gen_repo/impl/prebuilt/pol/lda_c_1d_loos.py and gen_repo/impl/prebuilt/unpol/lda_c_1d_loos.py -/
formula lda_c_1d_loos pol "t1 = r0 + r1
t5 = math.sqrt(0.1e1 + 0.61660000000000000000e0 / t1)
t6 = t5 - 0.1e1
t7 = t6 ** 2
t8 = t1 ** 2
t10 = math.sqrt(0.2e1)
t11 = math.sqrt(math.pi)
t13 = math.log(t10 * t11)
t18 = 0.1e1 - 0.32435939020434641583e1 * t6 * t1
t19 = t18 ** 2
t28 = math.pi ** 2
res = 0.10520901401373545762e2 * t7 * t8 * ((-0.3083e0 * t13 - 0.23122500000000000000e0) * t19 * t18 + 0.32435939020434641583e1 * (-0.12332e1 * t13 - 0.86328563835932653793e0) * t6 * t1 * t19 + 0.10520901401373545762e2 * (-t28 / 0.72e2 + 0.23159260460590334090e-1) * t7 * t8 * t18 + 0.24365629583459979481e0 * t7 * t6 * t8 * t1)
" unpol "t4 = math.sqrt(0.1e1 + 0.61660000000000000000e0 / r0)
t5 = t4 - 0.1e1
t6 = t5 ** 2
t7 = r0 ** 2
t9 = math.sqrt(0.2e1)
t10 = math.sqrt(math.pi)
t12 = math.log(t9 * t10)
t17 = 0.1e1 - 0.32435939020434641583e1 * t5 * r0
t18 = t17 ** 2
t27 = math.pi ** 2
res = 0.10520901401373545762e2 * t6 * t7 * ((-0.3083e0 * t12 - 0.23122500000000000000e0) * t18 * t17 + 0.32435939020434641583e1 * (-0.12332e1 * t12 - 0.86328563835932653793e0) * t5 * r0 * t18 + 0.10520901401373545762e2 * (-t27 / 0.72e2 + 0.23159260460590334090e-1) * t6 * t7 * t17 + 0.24365629583459979481e0 * t6 * t5 * t7 * r0)
"

/- gen_repo/impl/prebuilt/pol/lda_c_2d_amgb.py and gen_repo/impl/prebuilt/unpol/lda_c_2d_amgb.py -/
formula lda_c_2d_amgb pol "t1 = math.sqrt(math.pi)
t2 = 0.1e1 / t1
t3 = r0 + r1
t4 = math.sqrt(t3)
t6 = t2 / t4
t9 = 0.1e1 / t3
t10 = 0.1e1 / math.pi * t9
t16 = 0.1e1 / t1 / math.pi / t4 / t3
t20 = t6 ** 0.15e1
t27 = math.log(0.1e1 + 0.1e1 / (0.10022e1 * t6 - 0.2069e-1 * t20 + 0.33997e0 * t10 + 0.1747e-1 * t16))
t39 = math.log(0.1e1 + 0.1e1 / (0.4133e0 * t6 + 0.668467e-1 * t10 + 0.7799e-3 * t16))
t42 = r0 - r1
t43 = t42 ** 2
t45 = t3 ** 2
t46 = 0.1e1 / t45
t57 = math.log(0.1e1 + 0.1e1 / (0.1424301e1 * t6 + 0.1163099e1 * t16))
t60 = t43 ** 2
t62 = t45 ** 2
t63 = 0.1e1 / t62
t66 = math.exp(-0.13386e1 * t6)
t68 = math.sqrt(0.2e1)
t71 = t42 * t9
t72 = 0.1e1 + t71
t74 = math.sqrt(p_a_zeta_threshold)
t75 = t74 * p_a_zeta_threshold
t76 = math.sqrt(t72)
t78 = lax_cond(t72 <= p_a_zeta_threshold, t75, t76 * t72)
t80 = 0.1e1 - t71
t82 = math.sqrt(t80)
t84 = lax_cond(t80 <= p_a_zeta_threshold, t75, t82 * t80)
res = -0.1925e0 + (0.863136e-1 * t6 + 0.572384e-1 * t10 + 0.3362975e-2 * t16) * t27 + (0.117331e0 + (-0.3394e-1 * t6 - 0.766765e-2 * t10 - 0.915064469e-4 * t16) * t39) * t43 * t46 + (0.234188e-1 + (-0.37093e-1 * t6 + 0.163618e-1 * t10 - 0.272383828612e-1 * t16) * t57) * t60 * t63 - 0.4e1 / 0.3e1 * (t66 - 0.1e1) * t68 * t2 * t4 * (t78 / 0.2e1 + t84 / 0.2e1 - 0.1e1 - 0.3e1 / 0.8e1 * t43 * t46 - 0.3e1 / 0.128e3 * t60 * t63)
" unpol "t1 = math.sqrt(math.pi)
t2 = 0.1e1 / t1
t3 = math.sqrt(r0)
t5 = t2 / t3
t9 = 0.1e1 / math.pi / r0
t15 = 0.1e1 / t1 / math.pi / t3 / r0
t19 = t5 ** 0.15e1
t26 = math.log(0.1e1 + 0.1e1 / (0.10022e1 * t5 - 0.2069e-1 * t19 + 0.33997e0 * t9 + 0.1747e-1 * t15))
t29 = math.exp(-0.13386e1 * t5)
t31 = math.sqrt(0.2e1)
t35 = math.sqrt(p_a_zeta_threshold)
t37 = lax_cond(0.1e1 <= p_a_zeta_threshold, t35 * p_a_zeta_threshold, 1)
res = -0.1925e0 + (0.863136e-1 * t5 + 0.572384e-1 * t9 + 0.3362975e-2 * t15) * t26 - 0.4e1 / 0.3e1 * (t29 - 0.1e1) * t31 * t2 * t3 * (t37 - 0.1e1)
"

/- gen_repo/impl/prebuilt/pol/lda_c_2d_prm.py and gen_repo/impl/prebuilt/unpol/lda_c_2d_prm.py -/
formula lda_c_2d_prm pol "t1 = math.sqrt(math.pi)
t3 = math.sqrt(r0 + r1)
t4 = t1 * t3
t7 = 0.39274e1 * t3 + t1 / 0.2e1
t9 = t3 / t7
t11 = 0.39274e1 * t9 - 0.1e1
t12 = 0.2e1 + params_a_c
t13 = math.sqrt(t12)
t22 = t7 ** 2
t24 = t12 ** (-0.15e1)
t28 = 0.1e1 + params_a_c
t29 = math.sqrt(t28)
res = 0.32416023070084253575e-1 * (0.19637000000000000000e1 * t4 * t11 / t13 + 0.39274e1 * t9 * t11 / t12 + 0.98185000000000000000e0 * t4 / t22 * t24 + 0.39274e1 * t4 * t11 / t29 + 0.39274e1 * t9 / t28) * math.pi
" unpol "t1 = math.sqrt(math.pi)
t2 = math.sqrt(r0)
t3 = t1 * t2
t6 = 0.39274e1 * t2 + t1 / 0.2e1
t8 = t2 / t6
t10 = 0.39274e1 * t8 - 0.1e1
t11 = 0.2e1 + params_a_c
t12 = math.sqrt(t11)
t21 = t6 ** 2
t23 = t11 ** (-0.15e1)
t27 = 0.1e1 + params_a_c
t28 = math.sqrt(t27)
res = 0.32416023070084253575e-1 * (0.19637000000000000000e1 * t3 * t10 / t12 + 0.39274e1 * t8 * t10 / t11 + 0.98185000000000000000e0 * t3 / t21 * t23 + 0.39274e1 * t3 * t10 / t28 + 0.39274e1 * t8 / t27) * math.pi
"

/- gen_repo/impl/prebuilt/pol/lda_c_chachiyo.py and gen_repo/impl/prebuilt/unpol/lda_c_chachiyo.py -/
formula lda_c_chachiyo pol "t1 = 3 ** (0.1e1 / 0.3e1)
t2 = t1 ** 2
t5 = (0.1e1 / math.pi) ** (0.1e1 / 0.3e1)
t7 = 4 ** (0.1e1 / 0.3e1)
t9 = r0 + r1
t10 = t9 ** (0.1e1 / 0.3e1)
t11 = 0.1e1 / t5 * t7 * t10
t15 = t5 ** 2
t17 = t7 ** 2
t19 = t10 ** 2
t20 = 0.1e1 / t15 * t17 * t19
t24 = math.log(0.1e1 + params_a_bp * t2 * t11 / 0.3e1 + params_a_cp * t1 * t20 / 0.3e1)
t25 = params_a_ap * t24
t33 = math.log(0.1e1 + params_a_bf * t2 * t11 / 0.3e1 + params_a_cf * t1 * t20 / 0.3e1)
t38 = (r0 - r1) / t9
t39 = 0.1e1 + t38
t41 = p_a_zeta_threshold ** (0.1e1 / 0.3e1)
t42 = t41 * p_a_zeta_threshold
t43 = t39 ** (0.1e1 / 0.3e1)
t45 = lax_cond(t39 <= p_a_zeta_threshold, t42, t43 * t39)
t46 = 0.1e1 - t38
t48 = t46 ** (0.1e1 / 0.3e1)
t50 = lax_cond(t46 <= p_a_zeta_threshold, t42, t48 * t46)
t53 = 2 ** (0.1e1 / 0.3e1)
res = t25 + (params_a_af * t33 - t25) * (t45 + t50 - 0.2e1) / (0.2e1 * t53 - 0.2e1)
" unpol "t1 = 3 ** (0.1e1 / 0.3e1)
t2 = t1 ** 2
t5 = (0.1e1 / math.pi) ** (0.1e1 / 0.3e1)
t7 = 4 ** (0.1e1 / 0.3e1)
t9 = r0 ** (0.1e1 / 0.3e1)
t10 = 0.1e1 / t5 * t7 * t9
t14 = t5 ** 2
t16 = t7 ** 2
t18 = t9 ** 2
t19 = 0.1e1 / t14 * t16 * t18
t23 = math.log(0.1e1 + params_a_bp * t2 * t10 / 0.3e1 + params_a_cp * t1 * t19 / 0.3e1)
t24 = params_a_ap * t23
t32 = math.log(0.1e1 + params_a_bf * t2 * t10 / 0.3e1 + params_a_cf * t1 * t19 / 0.3e1)
t36 = p_a_zeta_threshold ** (0.1e1 / 0.3e1)
t38 = lax_cond(0.1e1 <= p_a_zeta_threshold, t36 * p_a_zeta_threshold, 1)
t42 = 2 ** (0.1e1 / 0.3e1)
res = t24 + (params_a_af * t32 - t24) * (0.2e1 * t38 - 0.2e1) / (0.2e1 * t42 - 0.2e1)
"

/- gen_repo/impl/prebuilt/pol/lda_c_chachiyo_mod.py and gen_repo/impl/prebuilt/unpol/lda_c_chachiyo_mod.py -/
formula lda_c_chachiyo_mod pol "t1 = 3 ** (0.1e1 / 0.3e1)
t2 = t1 ** 2
t5 = (0.1e1 / math.pi) ** (0.1e1 / 0.3e1)
t7 = 4 ** (0.1e1 / 0.3e1)
t9 = r0 + r1
t10 = t9 ** (0.1e1 / 0.3e1)
t11 = 0.1e1 / t5 * t7 * t10
t15 = t5 ** 2
t17 = t7 ** 2
t19 = t10 ** 2
t20 = 0.1e1 / t15 * t17 * t19
t24 = math.log(0.1e1 + params_a_bp * t2 * t11 / 0.3e1 + params_a_cp * t1 * t20 / 0.3e1)
t25 = params_a_ap * t24
t33 = math.log(0.1e1 + params_a_bf * t2 * t11 / 0.3e1 + params_a_cf * t1 * t20 / 0.3e1)
t38 = (r0 - r1) / t9
t39 = 0.1e1 + t38
t41 = p_a_zeta_threshold ** (0.1e1 / 0.3e1)
t42 = t41 ** 2
t43 = t39 ** (0.1e1 / 0.3e1)
t44 = t43 ** 2
t45 = lax_cond(t39 <= p_a_zeta_threshold, t42, t44)
t46 = 0.1e1 - t38
t48 = t46 ** (0.1e1 / 0.3e1)
t49 = t48 ** 2
t50 = lax_cond(t46 <= p_a_zeta_threshold, t42, t49)
t52 = t45 / 0.2e1 + t50 / 0.2e1
t53 = t52 ** 2
res = t25 + (params_a_af * t33 - t25) * (-0.2e1 * t53 * t52 + 0.2e1)
" unpol "t1 = 3 ** (0.1e1 / 0.3e1)
t2 = t1 ** 2
t5 = (0.1e1 / math.pi) ** (0.1e1 / 0.3e1)
t7 = 4 ** (0.1e1 / 0.3e1)
t9 = r0 ** (0.1e1 / 0.3e1)
t10 = 0.1e1 / t5 * t7 * t9
t14 = t5 ** 2
t16 = t7 ** 2
t18 = t9 ** 2
t19 = 0.1e1 / t14 * t16 * t18
t23 = math.log(0.1e1 + params_a_bp * t2 * t10 / 0.3e1 + params_a_cp * t1 * t19 / 0.3e1)
t24 = params_a_ap * t23
t32 = math.log(0.1e1 + params_a_bf * t2 * t10 / 0.3e1 + params_a_cf * t1 * t19 / 0.3e1)
t36 = p_a_zeta_threshold ** (0.1e1 / 0.3e1)
t37 = t36 ** 2
t38 = lax_cond(0.1e1 <= p_a_zeta_threshold, t37, 1)
t39 = t38 ** 2
res = t24 + (params_a_af * t32 - t24) * (-0.2e1 * t39 * t38 + 0.2e1)
"

/- gen_repo/impl/prebuilt/pol/lda_c_gk72.py and gen_repo/impl/prebuilt/unpol/lda_c_gk72.py -/
formula lda_c_gk72 pol "t1 = 3 ** (0.1e1 / 0.3e1)
t3 = (0.1e1 / math.pi) ** (0.1e1 / 0.3e1)
t4 = t1 * t3
t5 = 4 ** (0.1e1 / 0.3e1)
t6 = t5 ** 2
t8 = (r0 + r1) ** (0.1e1 / 0.3e1)
t10 = t6 / t8
t11 = t4 * t10
t12 = t11 / 0.4e1
t14 = math.log(t12)
t24 = t1 ** 2
t30 = math.sqrt(0.4e1)
t31 = math.sqrt(t11)
t36 = t3 ** 2
t39 = t8 ** 2
t53 = lax_cond(t12 < 0.10e2, -0.6156e-1 + 0.1898e-1 * t14, 0.14600000000000000000e0 * t24 / t3 * t5 * t8 + 0.53000000000000000000e1 * t30 / t31 / t11 - 0.49000000000000000000e0 * t1 / t36 * t6 * t39 - 0.16000000000000000000e1 * t30 / t31 / t24 / t36 / t5 * t39)
res = lax_cond(t12 < 0.7e0, 0.311e-1 * t14 - 0.48e-1 + 0.22500000000000000000e-2 * t4 * t10 * t14 - 0.42500000000000000000e-2 * t11, t53)
" unpol "t1 = 3 ** (0.1e1 / 0.3e1)
t3 = (0.1e1 / math.pi) ** (0.1e1 / 0.3e1)
t4 = t1 * t3
t5 = 4 ** (0.1e1 / 0.3e1)
t6 = t5 ** 2
t7 = r0 ** (0.1e1 / 0.3e1)
t9 = t6 / t7
t10 = t4 * t9
t11 = t10 / 0.4e1
t13 = math.log(t11)
t23 = t1 ** 2
t29 = math.sqrt(0.4e1)
t30 = math.sqrt(t10)
t35 = t3 ** 2
t38 = t7 ** 2
t52 = lax_cond(t11 < 0.10e2, -0.6156e-1 + 0.1898e-1 * t13, 0.14600000000000000000e0 * t23 / t3 * t5 * t7 + 0.53000000000000000000e1 * t29 / t30 / t10 - 0.49000000000000000000e0 * t1 / t35 * t6 * t38 - 0.16000000000000000000e1 * t29 / t30 / t23 / t35 / t5 * t38)
res = lax_cond(t11 < 0.7e0, 0.311e-1 * t13 - 0.48e-1 + 0.22500000000000000000e-2 * t4 * t9 * t13 - 0.42500000000000000000e-2 * t10, t52)
"

/- gen_repo/impl/prebuilt/pol/lda_c_gombas.py and gen_repo/impl/prebuilt/unpol/lda_c_gombas.py -/
formula lda_c_gombas pol "t2 = (r0 + r1) ** (0.1e1 / 0.3e1)
t3 = 0.1e1 / t2
t10 = math.log((t3 + 0.239e1) * t2)
res = -0.357e-1 / (0.1e1 + 0.56200000000000000000e-1 * t3) - 0.311e-1 * t10
" unpol "t1 = r0 ** (0.1e1 / 0.3e1)
t2 = 0.1e1 / t1
t9 = math.log((t2 + 0.239e1) * t1)
res = -0.357e-1 / (0.1e1 + 0.56200000000000000000e-1 * t2) - 0.311e-1 * t9
"

/- gen_repo/impl/prebuilt/pol/lda_c_hl.py and gen_repo/impl/prebuilt/unpol/lda_c_hl.py -/
formula lda_c_hl pol "t2 = 0.1e1 / math.pi
t3 = r0 + r1
t4 = 0.1e1 / t3
t5 = t2 * t4
t6 = params_a_hl_r[0]
t7 = t6 ** 2
t13 = 3 ** (0.1e1 / 0.3e1)
t14 = t13 ** 2
t15 = t2 ** (0.1e1 / 0.3e1)
t17 = t14 / t15
t18 = 4 ** (0.1e1 / 0.3e1)
t19 = t3 ** (0.1e1 / 0.3e1)
t20 = t18 * t19
t25 = math.log(0.1e1 + t17 * t20 * t6 / 0.3e1)
t27 = t15 ** 2
t28 = t14 * t27
t29 = t19 ** 2
t31 = t18 / t29
t36 = t13 * t15
t37 = t18 ** 2
t39 = t37 / t19
t45 = params_a_hl_c[0] * ((0.1e1 + 0.3e1 / 0.4e1 * t5 / t7 / t6) * t25 - t28 * t31 / t7 / 0.4e1 + t36 * t39 / t6 / 0.8e1 - 0.1e1 / 0.3e1)
t47 = (r0 - r1) * t4
t48 = 0.1e1 + t47
t50 = p_a_zeta_threshold ** (0.1e1 / 0.3e1)
t51 = t50 * p_a_zeta_threshold
t52 = t48 ** (0.1e1 / 0.3e1)
t54 = lax_cond(t48 <= p_a_zeta_threshold, t51, t52 * t48)
t55 = 0.1e1 - t47
t57 = t55 ** (0.1e1 / 0.3e1)
t59 = lax_cond(t55 <= p_a_zeta_threshold, t51, t57 * t55)
t61 = 2 ** (0.1e1 / 0.3e1)
t67 = params_a_hl_r[1]
t68 = t67 ** 2
t78 = math.log(0.1e1 + t17 * t20 * t67 / 0.3e1)
res = -t45 + (t54 + t59 - 0.2e1) / (0.2e1 * t61 - 0.2e1) * (-params_a_hl_c[1] * ((0.1e1 + 0.3e1 / 0.4e1 * t5 / t68 / t67) * t78 - t28 * t31 / t68 / 0.4e1 + t36 * t39 / t67 / 0.8e1 - 0.1e1 / 0.3e1) + t45)
" unpol "t2 = 0.1e1 / math.pi
t4 = t2 / r0
t5 = params_a_hl_r[0]
t6 = t5 ** 2
t12 = 3 ** (0.1e1 / 0.3e1)
t13 = t12 ** 2
t14 = t2 ** (0.1e1 / 0.3e1)
t16 = t13 / t14
t17 = 4 ** (0.1e1 / 0.3e1)
t18 = r0 ** (0.1e1 / 0.3e1)
t19 = t17 * t18
t24 = math.log(0.1e1 + t16 * t19 * t5 / 0.3e1)
t26 = t14 ** 2
t27 = t13 * t26
t28 = t18 ** 2
t30 = t17 / t28
t35 = t12 * t14
t36 = t17 ** 2
t38 = t36 / t18
t44 = params_a_hl_c[0] * ((0.1e1 + 0.3e1 / 0.4e1 * t4 / t6 / t5) * t24 - t27 * t30 / t6 / 0.4e1 + t35 * t38 / t5 / 0.8e1 - 0.1e1 / 0.3e1)
t46 = p_a_zeta_threshold ** (0.1e1 / 0.3e1)
t48 = lax_cond(0.1e1 <= p_a_zeta_threshold, t46 * p_a_zeta_threshold, 1)
t51 = 2 ** (0.1e1 / 0.3e1)
t57 = params_a_hl_r[1]
t58 = t57 ** 2
t68 = math.log(0.1e1 + t16 * t19 * t57 / 0.3e1)
res = -t44 + (0.2e1 * t48 - 0.2e1) / (0.2e1 * t51 - 0.2e1) * (-params_a_hl_c[1] * ((0.1e1 + 0.3e1 / 0.4e1 * t4 / t58 / t57) * t68 - t27 * t30 / t58 / 0.4e1 + t35 * t38 / t57 / 0.8e1 - 0.1e1 / 0.3e1) + t44)
"

/- gen_repo/impl/prebuilt/pol/lda_c_lp96.py and gen_repo/impl/prebuilt/unpol/lda_c_lp96.py -/
formula lda_c_lp96 pol "t2 = (r0 + r1) ** (0.1e1 / 0.3e1)
t5 = t2 ** 2
res = params_a_C1 + params_a_C2 / t2 + params_a_C3 / t5
" unpol "t1 = r0 ** (0.1e1 / 0.3e1)
t4 = t1 ** 2
res = params_a_C1 + params_a_C2 / t1 + params_a_C3 / t4
"

/- gen_repo/impl/prebuilt/pol/lda_c_ml1.py and gen_repo/impl/prebuilt/unpol/lda_c_ml1.py -/
formula lda_c_ml1 pol "t1 = r0 + r1
t2 = r0 - r1
t4 = t2 / t1
t5 = abs(t4)
t8 = t2 ** 2
t9 = t1 ** 2
t13 = t1 ** (0.1e1 / 0.3e1)
t17 = p_a_zeta_threshold - 0.1e1
t21 = lax_cond(0.1e1 - t4 <= p_a_zeta_threshold, -t17, t4)
t22 = lax_cond(0.1e1 + t4 <= p_a_zeta_threshold, t17, t21)
t23 = 0.1e1 + t22
t24 = t23 ** params_a_q
t25 = 0.1e1 - t22
t26 = t25 ** params_a_q
t27 = t24 + t26
t28 = t22 ** 2
t30 = (0.1e1 - t28) ** (0.1e1 / 0.3e1)
t32 = t23 ** (0.1e1 / 0.3e1)
t33 = t25 ** (0.1e1 / 0.3e1)
t34 = t32 + t33
t42 = 0.1e1 / t13
t43 = 0.1e1 / params_a_fc
t48 = 0.1e1 / t27 / t30 * t34
t49 = t42 * t43 * t48
t52 = math.log(0.1e1 + 0.91959623973811018799e-1 * t49)
t58 = t13 ** 2
t60 = params_a_fc ** 2
t63 = t27 ** 2
t65 = t30 ** 2
t68 = t34 ** 2
t75 = lax_cond(0.1e1 - t5 <= p_a_zeta_threshold, 0, (0.1e1 - t8 / t9) * (-0.2763169e1 / (0.1e1 + 0.10874334072525e2 * t13 * params_a_fc * t27 * t30 / t34) + 0.28144540420067767464e0 * t52 * t42 * t43 * t48 + 0.25410002852601321894e0 * t49 - 0.49248579417833934399e-1 / t58 / t60 / t63 / t65 * t68) / 0.4e1)
res = t1 * t75
" unpol "t1 = 0.1e1 <= p_a_zeta_threshold
t2 = r0 ** (0.1e1 / 0.3e1)
t4 = p_a_zeta_threshold - 0.1e1
t6 = lax_cond(t1, -t4, 0)
t7 = lax_cond(t1, t4, t6)
t8 = 0.1e1 + t7
t9 = t8 ** params_a_q
t10 = 0.1e1 - t7
t11 = t10 ** params_a_q
t12 = t9 + t11
t13 = t7 ** 2
t15 = (0.1e1 - t13) ** (0.1e1 / 0.3e1)
t17 = t8 ** (0.1e1 / 0.3e1)
t18 = t10 ** (0.1e1 / 0.3e1)
t19 = t17 + t18
t27 = 0.1e1 / t2
t28 = 0.1e1 / params_a_fc
t33 = 0.1e1 / t12 / t15 * t19
t34 = t27 * t28 * t33
t37 = math.log(0.1e1 + 0.91959623973811018799e-1 * t34)
t43 = t2 ** 2
t45 = params_a_fc ** 2
t48 = t12 ** 2
t50 = t15 ** 2
t53 = t19 ** 2
t58 = lax_cond(t1, 0, -0.69079225000000000000e0 / (0.1e1 + 0.10874334072525e2 * t2 * params_a_fc * t12 * t15 / t19) + 0.70361351050169418660e-1 * t37 * t27 * t28 * t33 + 0.63525007131503304735e-1 * t34 - 0.12312144854458483600e-1 / t43 / t45 / t48 / t50 * t53)
res = r0 * t58
"

/- gen_repo/impl/prebuilt/pol/lda_c_pk09.py and gen_repo/impl/prebuilt/unpol/lda_c_pk09.py -/
formula lda_c_pk09 pol "t1 = r0 + r1
t2 = r0 - r1
t3 = t2 ** 2
t4 = t1 ** 2
t6 = t3 / t4
t8 = 4 ** (0.1e1 / 0.3e1)
t9 = t8 ** 2
t10 = 3 ** (0.1e1 / 0.3e1)
t11 = 0.1e1 / math.pi
t12 = t11 ** (0.1e1 / 0.3e1)
t14 = t1 ** (0.1e1 / 0.3e1)
t15 = 0.1e1 / t14
t17 = t10 * t12 * t9 * t15
t18 = t17 ** (0.1e1 / 0.3e1)
t19 = t9 * t18
t21 = math.exp(-0.20932594558070200000e0 * t19)
t22 = 4 ** (0.1e1 / 0.4e1)
t23 = t22 ** 2
t26 = t17 ** (0.1e1 / 0.4e1)
t30 = math.exp(-0.25916439866088000000e0 * t19)
t34 = 0.538074483500437e0 - 0.55652374774629750000e0 * t21 * t23 * t22 * t26 + 0.65492746474079450000e0 * t30 * t9 * t18
t35 = t34 ** 2
t37 = math.pi ** 2
t38 = t37 ** (0.1e1 / 0.3e1)
t39 = t38 * t37
t41 = t14 * t1
t42 = 0.1e1 / t1
t43 = t2 * t42
t44 = 0.1e1 + t43
t45 = t44 <= p_a_zeta_threshold
t46 = p_a_zeta_threshold ** (0.1e1 / 0.3e1)
t47 = t44 ** (0.1e1 / 0.3e1)
t48 = lax_cond(t45, t46, t47)
t49 = t48 ** 2
t51 = 0.1e1 - t43
t52 = t51 <= p_a_zeta_threshold
t53 = t51 ** (0.1e1 / 0.3e1)
t54 = lax_cond(t52, t46, t53)
t55 = t54 ** 2
t56 = t10 * t38
t61 = t56 * t14 * t48 + t56 * t14 * t54
t62 = t61 ** 2
t66 = t35 * t10 * t39 * t41 * t49 * t55 / t62
t68 = t10 ** 2
t70 = t38 ** 2
t72 = t14 ** 2
t77 = t34 * t68 * t70 * t72 * t48 * t54 / t61
t79 = 0.3403111393738590780e0 * t66 + 0.452548339959390416e-1 * t77 + 0.531736155271654809e-2
t83 = math.atan(0.1187931309903801598e2 * t77 + 0.236958012866641818e1)
t88 = 0.1e1 / t34
t89 = t88 * t10
t91 = 0.1e1 / t70
t92 = 0.1e1 / t72
t93 = t91 * t92
t94 = 0.1e1 / t48
t95 = 0.1e1 / t54
t96 = t94 * t95
t98 = t93 * t96 * t61
t101 = math.log(t79)
t109 = 0.2e1 * t77
t110 = math.log(t109)
t122 = t92 * t94 * t95 * t61
t123 = t89 * t91 * t122
t125 = 0.1e1 / t35
t127 = 0.1e1 / t39
t129 = 0.1e1 / t41
t130 = 0.1e1 / t49
t132 = 0.1e1 / t55
t134 = t129 * t130 * t132 * t62
t135 = t125 * t68 * t127 * t134
t142 = t10 * t91
t149 = math.log(0.4812726287291520984e1 * t66 + 0.64e0 * t77 + 0.751988482389300153e-1)
t159 = math.log(t109 + 0.482257181994472723e0)
t168 = math.log(0.60000000000000000000e1 * t66 + 0.821419393556370918e0 * t77 + 0.105323524476768857e0)
t177 = math.atan(0.160041105570901272e0 / (0.156250e1 * t77 + 0.32086695060795739e0))
t187 = math.sqrt(0.30000000000000000000e1 * t66 + 0.505765839233979018e0 * t77 + 0.720485831127149779e-1)
t190 = math.atanh((0.268418671319107341e0 + 0.942121195869983724e0 * t77) / t187)
t198 = math.log(0.9375000000000000000e1 * t66 + 0.1246694626254477116e1 * t77 + 0.146484374999999999e0)
t208 = 0.1e1 / t79 * (-t83 * (0.22155652738222968e1 * t66 + 0.2946275542389858e0 * t77 + 0.3461820740347690e-1) * t89 * t98 / 0.6e1 - t101 * (0.114922710384051372e1 * t66 + 0.15282509383508946e0 * t77 + 0.1795667349750801e-1) * t89 * t98 / 0.6e1 + t110 * (0.22984542076810248e1 * t66 + 0.3056501876701794e0 * t77 + 0.3591334699501599e-1) * t89 * t98 / 0.6e1 - 0.102377731051917540e0 * t77 + 0.101508307543839117e1 + 0.14975624337724556833e0 * t123 + 0.61671487076709944167e-2 * t135) - 0.22079848381299059167e2 * t123 - 0.90004085699103157778e0 * t135 - 0.37610742193750634333e1 * t110 * t88 * t142 * t122 + 0.18805371096875317167e1 * t149 * t88 * t142 * t122 + 0.19489173774580151667e2 * t83 * t88 * t142 * t122 + 0.49373337174483548167e1 * t159 * t88 * t142 * t122 - 0.41150663529849592833e-1 * t89 * t93 * t96 * t61 * t168 + 0.18635258017632964667e2 * t177 * t88 * t142 * t122 - 0.22140749178833072667e1 * t190 * t88 * t142 * t122 - 0.24275161951943278333e1 * t198 * t88 * t142 * t122 - 0.11846959580306418694e1 * t187 * t125 * t68 * t127 * t134
t211 = p_a_zeta_threshold ** 2
t212 = t44 ** 2
t213 = lax_cond(t45, t211, t212)
t215 = math.exp(-0.42734869200542000000e0 * t19)
t217 = t18 ** 2
t221 = math.exp(-0.11739612251904750000e0 * t19)
t225 = 0.41081146652128e0 + 0.14983581422587875000e0 * t215 * t8 * t217 + 0.19280802104870250000e-1 * t221 * t9 * t18
t226 = t225 ** 2
t228 = t12 ** 2
t231 = t68 * t228 * t8 * t92
t233 = t11 * t42
t238 = t10 * t12 * t11 * t9 * t129
t254 = (-0.113693369789727190e3 + 0.60012553781967786000e1 * t17 + 0.12335328239599176875e2 * t231 - 0.17868177912628447650e2 * t233 + 0.17701513906783214888e0 * t238 + 0.54944839533438375000e-4 * t68 * t228 * t11 * t8 / t72 / t1) / (-0.10974263493216910e3 + 0.40665782361060603750e1 * t17 + 0.13600858284347709150e2 * t231 - 0.18865507428140992500e2 * t233 + 0.18750000000000000000e0 * t238)
t255 = 0.1180131465463191050e1 * t43
t256 = 0.142693041498421640e1 * t6
t260 = t3 * t2 / t4 / t1
t261 = 0.580344063812247980e0 * t260
t262 = t3 ** 2
t263 = t4 ** 2
t266 = 0.1099122367291440e-1 * t262 / t263
t268 = 0.209708505883490736e1 * t43
t269 = 0.252188183586948180e1 * t6
t270 = 0.10e1 * t260
t275 = 0.128e1 * t254 * (-0.32481568604919886e0 + t255 - t256 + t261 - t266) / (-0.57786103193239430e0 + t268 - t269 + t270)
t276 = p_a_zeta_threshold ** t275
t277 = t44 ** t275
t278 = lax_cond(t45, t276, t277)
t279 = t51 ** t275
t280 = lax_cond(t52, t276, t279)
t281 = t278 + t280
t282 = t281 ** 2
t286 = t70 * t72
t288 = t226 / t282 * t68 * t286 * t49
t293 = t38 * t14
t295 = t225 / t281 * t10 * t293 * t48
t297 = 0.1134370464579530260e0 * t288 + 0.452548339959390416e-1 * t295 + 0.531736155271654809e-2
t301 = math.atan(0.1187931309903801598e2 * t295 + 0.236958012866641818e1)
t306 = 0.1e1 / t225
t307 = t306 * t281
t309 = 0.1e1 / t38
t310 = t68 * t309
t312 = t310 * t15 * t94
t315 = math.log(t297)
t323 = 0.2e1 * t295
t324 = math.log(t323)
t333 = t307 * t68
t334 = t309 * t15
t336 = t333 * t334 * t94
t338 = 0.1e1 / t226
t342 = t338 * t282 * t10 * t93 * t130
t355 = math.log(0.1604242095763840328e1 * t288 + 0.64e0 * t295 + 0.751988482389300153e-1)
t365 = math.log(t323 + 0.482257181994472723e0)
t373 = math.log(0.20000000000000000000e1 * t288 + 0.821419393556370918e0 * t295 + 0.105323524476768857e0)
t382 = math.atan(0.160041105570901272e0 / (0.156250e1 * t295 + 0.32086695060795739e0))
t392 = math.sqrt(0.10000000000000000000e1 * t288 + 0.505765839233979018e0 * t295 + 0.720485831127149779e-1)
t395 = math.atanh((0.268418671319107341e0 + 0.942121195869983724e0 * t295) / t392)
t403 = math.log(0.3125000000000000000e1 * t288 + 0.1246694626254477116e1 * t295 + 0.146484374999999999e0)
t414 = 0.1e1 / t297 * (-t301 * (0.7385217579407656e0 * t288 + 0.2946275542389858e0 * t295 + 0.3461820740347690e-1) * t307 * t312 / 0.6e1 - t315 * (0.38307570128017124e0 * t288 + 0.15282509383508946e0 * t295 + 0.1795667349750801e-1) * t307 * t312 / 0.6e1 + t324 * (0.7661514025603416e0 * t288 + 0.3056501876701794e0 * t295 + 0.3591334699501599e-1) * t307 * t312 / 0.6e1 - 0.102377731051917540e0 * t295 + 0.101508307543839117e1 + 0.14975624337724556833e0 * t336 + 0.18501446123012983250e-1 * t342) - 0.22079848381299059167e2 * t336 - 0.27001225709730947333e1 * t342 - 0.37610742193750634333e1 * t324 * t306 * t281 * t312 + 0.18805371096875317167e1 * t355 * t306 * t281 * t312 + 0.19489173774580151667e2 * t301 * t306 * t281 * t312 + 0.49373337174483548167e1 * t365 * t306 * t281 * t312 - 0.41150663529849592833e-1 * t333 * t334 * t94 * t373 + 0.18635258017632964667e2 * t382 * t306 * t281 * t312 - 0.22140749178833072667e1 * t395 * t306 * t281 * t312 - 0.24275161951943278333e1 * t403 * t306 * t281 * t312 - 0.35540878740919256083e1 * t392 * t338 * t282 * t142 * t92 * t130
t417 = t51 ** 2
t418 = lax_cond(t52, t211, t417)
t424 = 0.128e1 * t254 * (-0.32481568604919886e0 - t255 - t256 - t261 - t266) / (-0.57786103193239430e0 - t268 - t269 - t270)
t425 = p_a_zeta_threshold ** t424
t426 = t51 ** t424
t427 = lax_cond(t52, t425, t426)
t428 = t44 ** t424
t429 = lax_cond(t45, t425, t428)
t430 = t427 + t429
t431 = t430 ** 2
t436 = t226 / t431 * t68 * t286 * t55
t442 = t225 / t430 * t10 * t293 * t54
t444 = 0.1134370464579530260e0 * t436 + 0.452548339959390416e-1 * t442 + 0.531736155271654809e-2
t448 = math.atan(0.1187931309903801598e2 * t442 + 0.236958012866641818e1)
t453 = t306 * t430
t456 = t310 * t15 * t95
t459 = math.log(t444)
t467 = 0.2e1 * t442
t468 = math.log(t467)
t477 = t453 * t68
t479 = t477 * t334 * t95
t484 = t338 * t431 * t10 * t93 * t132
t497 = math.log(0.1604242095763840328e1 * t436 + 0.64e0 * t442 + 0.751988482389300153e-1)
t507 = math.log(t467 + 0.482257181994472723e0)
t515 = math.log(0.20000000000000000000e1 * t436 + 0.821419393556370918e0 * t442 + 0.105323524476768857e0)
t524 = math.atan(0.160041105570901272e0 / (0.156250e1 * t442 + 0.32086695060795739e0))
t534 = math.sqrt(0.10000000000000000000e1 * t436 + 0.505765839233979018e0 * t442 + 0.720485831127149779e-1)
t537 = math.atanh((0.268418671319107341e0 + 0.942121195869983724e0 * t442) / t534)
t545 = math.log(0.3125000000000000000e1 * t436 + 0.1246694626254477116e1 * t442 + 0.146484374999999999e0)
t556 = 0.1e1 / t444 * (-t448 * (0.7385217579407656e0 * t436 + 0.2946275542389858e0 * t442 + 0.3461820740347690e-1) * t453 * t456 / 0.6e1 - t459 * (0.38307570128017124e0 * t436 + 0.15282509383508946e0 * t442 + 0.1795667349750801e-1) * t453 * t456 / 0.6e1 + t468 * (0.7661514025603416e0 * t436 + 0.3056501876701794e0 * t442 + 0.3591334699501599e-1) * t453 * t456 / 0.6e1 - 0.102377731051917540e0 * t442 + 0.101508307543839117e1 + 0.14975624337724556833e0 * t479 + 0.18501446123012983250e-1 * t484) - 0.22079848381299059167e2 * t479 - 0.27001225709730947333e1 * t484 - 0.37610742193750634333e1 * t468 * t306 * t430 * t456 + 0.18805371096875317167e1 * t497 * t306 * t430 * t456 + 0.19489173774580151667e2 * t448 * t306 * t430 * t456 + 0.49373337174483548167e1 * t507 * t306 * t430 * t456 - 0.41150663529849592833e-1 * t477 * t334 * t95 * t515 + 0.18635258017632964667e2 * t524 * t306 * t430 * t456 - 0.22140749178833072667e1 * t537 * t306 * t430 * t456 - 0.24275161951943278333e1 * t545 * t306 * t430 * t456 - 0.35540878740919256083e1 * t534 * t338 * t431 * t142 * t92 * t132
res = t1 * ((0.1e1 - t6) * t208 / 0.4e1 + t213 * t414 / 0.8e1 + t418 * t556 / 0.8e1)
" unpol "t1 = 4 ** (0.1e1 / 0.3e1)
t2 = t1 ** 2
t3 = 3 ** (0.1e1 / 0.3e1)
t4 = 0.1e1 / math.pi
t5 = t4 ** (0.1e1 / 0.3e1)
t7 = r0 ** (0.1e1 / 0.3e1)
t8 = 0.1e1 / t7
t10 = t3 * t5 * t2 * t8
t11 = t10 ** (0.1e1 / 0.3e1)
t12 = t2 * t11
t14 = math.exp(-0.20932594558070200000e0 * t12)
t15 = 4 ** (0.1e1 / 0.4e1)
t16 = t15 ** 2
t19 = t10 ** (0.1e1 / 0.4e1)
t23 = math.exp(-0.25916439866088000000e0 * t12)
t27 = 0.538074483500437e0 - 0.55652374774629750000e0 * t14 * t16 * t15 * t19 + 0.65492746474079450000e0 * t23 * t2 * t11
t28 = t27 ** 2
t29 = t3 ** 2
t31 = math.pi ** 2
t32 = t31 ** (0.1e1 / 0.3e1)
t33 = t32 ** 2
t34 = t7 ** 2
t36 = 0.1e1 <= p_a_zeta_threshold
t37 = p_a_zeta_threshold ** (0.1e1 / 0.3e1)
t38 = lax_cond(t36, t37, 1)
t39 = t38 ** 2
t40 = t33 * t34 * t39
t41 = t28 * t29 * t40
t45 = t32 * t7 * t38
t46 = t27 * t3 * t45
t48 = 0.283592616144882565e-1 * t41 + 0.226274169979695208e-1 * t46 + 0.531736155271654809e-2
t52 = math.atan(0.593965654951900799e1 * t46 + 0.236958012866641818e1)
t57 = 0.1e1 / t27
t59 = 0.1e1 / t32
t61 = 0.1e1 / t38
t62 = t8 * t61
t63 = t29 * t59 * t62
t66 = math.log(t48)
t74 = math.log(t46)
t83 = t57 * t29
t84 = t59 * t8
t85 = t84 * t61
t86 = t83 * t85
t88 = 0.1e1 / t28
t90 = 0.1e1 / t33
t91 = 0.1e1 / t34
t93 = 0.1e1 / t39
t94 = t90 * t91 * t93
t95 = t88 * t3 * t94
t109 = math.log(0.401060523940960082e0 * t41 + 0.32e0 * t46 + 0.751988482389300153e-1)
t119 = math.log(t46 + 0.482257181994472723e0)
t128 = math.log(0.50000000000000000000e0 * t41 + 0.410709696778185459e0 * t46 + 0.105323524476768857e0)
t136 = math.atan(0.160041105570901272e0 / (0.78125e0 * t46 + 0.32086695060795739e0))
t146 = math.sqrt(0.25000000000000000000e0 * t41 + 0.252882919616989509e0 * t46 + 0.720485831127149779e-1)
t149 = math.atanh((0.268418671319107341e0 + 0.471060597934991862e0 * t46) / t146)
t157 = math.log(0.781250000000000000e0 * t41 + 0.623347313127238558e0 * t46 + 0.146484374999999999e0)
t166 = p_a_zeta_threshold ** 2
t167 = lax_cond(t36, t166, 1)
t169 = math.exp(-0.42734869200542000000e0 * t12)
t171 = t11 ** 2
t175 = math.exp(-0.11739612251904750000e0 * t12)
t179 = 0.41081146652128e0 + 0.14983581422587875000e0 * t169 * t1 * t171 + 0.19280802104870250000e-1 * t175 * t2 * t11
t180 = t179 ** 2
t182 = t5 ** 2
t185 = t29 * t182 * t1 * t91
t188 = t4 / r0
t195 = t3 * t5 * t4 * t2 / t7 / r0
t213 = p_a_zeta_threshold ** (0.71948800000000005309e0 * (-0.113693369789727190e3 + 0.60012553781967786000e1 * t10 + 0.12335328239599176875e2 * t185 - 0.17868177912628447650e2 * t188 + 0.17701513906783214888e0 * t195 + 0.54944839533438375000e-4 * t29 * t182 * t4 * t1 / t34 / r0) / (-0.10974263493216910e3 + 0.40665782361060603750e1 * t10 + 0.13600858284347709150e2 * t185 - 0.18865507428140992500e2 * t188 + 0.18750000000000000000e0 * t195))
t214 = lax_cond(t36, t213, 1)
t215 = t214 ** 2
t219 = t180 / t215 * t29 * t40
t224 = t179 / t214 * t3 * t45
t226 = 0.283592616144882565e-1 * t219 + 0.226274169979695208e-1 * t224 + 0.531736155271654809e-2
t230 = math.atan(0.593965654951900799e1 * t224 + 0.236958012866641818e1)
t235 = 0.1e1 / t179
t236 = t235 * t214
t240 = math.log(t226)
t248 = math.log(t224)
t257 = t236 * t29
t258 = t257 * t85
t260 = 0.1e1 / t180
t263 = t260 * t215 * t3 * t94
t276 = math.log(0.401060523940960082e0 * t219 + 0.32e0 * t224 + 0.751988482389300153e-1)
t286 = math.log(t224 + 0.482257181994472723e0)
t294 = math.log(0.50000000000000000000e0 * t219 + 0.410709696778185459e0 * t224 + 0.105323524476768857e0)
t303 = math.atan(0.160041105570901272e0 / (0.78125e0 * t224 + 0.32086695060795739e0))
t313 = math.sqrt(0.25000000000000000000e0 * t219 + 0.252882919616989509e0 * t224 + 0.720485831127149779e-1)
t316 = math.atanh((0.268418671319107341e0 + 0.471060597934991862e0 * t224) / t313)
t324 = math.log(0.781250000000000000e0 * t219 + 0.623347313127238558e0 * t224 + 0.146484374999999999e0)
t336 = 0.1e1 / t226 * (-t230 * (0.1846304394851914e0 * t219 + 0.1473137771194929e0 * t224 + 0.3461820740347690e-1) * t236 * t63 / 0.3e1 - t240 * (0.9576892532004281e-1 * t219 + 0.7641254691754473e-1 * t224 + 0.1795667349750801e-1) * t236 * t63 / 0.3e1 + t248 * (0.1915378506400854e0 * t219 + 0.1528250938350897e0 * t224 + 0.3591334699501599e-1) * t236 * t63 / 0.3e1 - 0.51188865525958770e-1 * t224 + 0.101508307543839117e1 + 0.29951248675449113667e0 * t258 + 0.74005784492051933000e-1 * t263) - 0.44159696762598118333e2 * t258 - 0.10800490283892378933e2 * t263 - 0.75221484387501268667e1 * t248 * t235 * t214 * t63 + 0.37610742193750634333e1 * t276 * t235 * t214 * t63 + 0.38978347549160303333e2 * t230 * t235 * t214 * t63 + 0.98746674348967096333e1 * t286 * t235 * t214 * t63 - 0.82301327059699185667e-1 * t257 * t84 * t61 * t294 + 0.37270516035265929333e2 * t303 * t235 * t214 * t63 - 0.44281498357666145333e1 * t316 * t235 * t214 * t63 - 0.48550323903886556667e1 * t324 * t235 * t214 * t63 - 0.14216351496367702433e2 * t313 * t260 * t215 * t3 * t90 * t91 * t93
t339 = 0.1e1 / t48 * (-t52 * (0.1846304394851914e0 * t41 + 0.1473137771194929e0 * t46 + 0.3461820740347690e-1) * t57 * t63 / 0.3e1 - t66 * (0.9576892532004281e-1 * t41 + 0.7641254691754473e-1 * t46 + 0.1795667349750801e-1) * t57 * t63 / 0.3e1 + t74 * (0.1915378506400854e0 * t41 + 0.1528250938350897e0 * t46 + 0.3591334699501599e-1) * t57 * t63 / 0.3e1 - 0.51188865525958770e-1 * t46 + 0.101508307543839117e1 + 0.29951248675449113667e0 * t86 + 0.74005784492051933000e-1 * t95) / 0.4e1 - 0.11039924190649529583e2 * t86 - 0.27001225709730947332e1 * t95 - 0.18805371096875317167e1 * t74 * t57 * t29 * t85 + 0.94026855484376585832e0 * t109 * t57 * t29 * t85 + 0.97445868872900758332e1 * t52 * t57 * t29 * t85 + 0.24686668587241774083e1 * t119 * t57 * t29 * t85 - 0.20575331764924796417e-1 * t83 * t59 * t62 * t128 + 0.93176290088164823332e1 * t136 * t57 * t29 * t85 - 0.11070374589416536333e1 * t149 * t57 * t29 * t85 - 0.12137580975971639167e1 * t157 * t57 * t29 * t85 - 0.35540878740919256082e1 * t146 * t88 * t3 * t94 + t167 * t336 / 0.4e1
res = r0 * t339
"

/- gen_repo/impl/prebuilt/pol/lda_c_pmgb06.py and gen_repo/impl/prebuilt/unpol/lda_c_pmgb06.py -/
formula lda_c_pmgb06 pol "t1 = r0 - r1
t2 = r0 + r1
t3 = 0.1e1 / t2
t4 = t1 * t3
t5 = 0.1e1 + t4
t6 = t5 <= p_a_zeta_threshold
t7 = p_a_zeta_threshold ** (0.1e1 / 0.3e1)
t8 = t7 ** 2
t9 = t5 ** (0.1e1 / 0.3e1)
t10 = t9 ** 2
t11 = lax_cond(t6, t8, t10)
t12 = 0.1e1 - t4
t13 = t12 <= p_a_zeta_threshold
t14 = t12 ** (0.1e1 / 0.3e1)
t15 = t14 ** 2
t16 = lax_cond(t13, t8, t15)
t18 = t11 / 0.2e1 + t16 / 0.2e1
t19 = t18 ** 2
t20 = t19 * t18
t21 = math.log(0.2e1)
t22 = t21 - 0.1e1
t25 = math.pi ** 2
t26 = 0.1e1 / t25
t27 = 3 ** (0.1e1 / 0.3e1)
t28 = 0.1e1 / math.pi
t29 = t28 ** (0.1e1 / 0.3e1)
t30 = t27 * t29
t31 = 4 ** (0.1e1 / 0.3e1)
t32 = t31 ** 2
t33 = t2 ** (0.1e1 / 0.3e1)
t34 = 0.1e1 / t33
t35 = t32 * t34
t36 = t30 * t35
t37 = math.sqrt(t36)
t41 = 0.29230250000000000000e1 * p_a_cam_omega * t37 / t18
t43 = 9 ** (0.1e1 / 0.3e1)
t44 = t43 ** 2
t52 = p_a_cam_omega ** 2
t55 = t29 * t32
t56 = 0.1e1 / t19
t61 = t52 * p_a_cam_omega
t76 = math.log((0.1e1 + t41 + (0.344851e1 - math.pi * t31 * t44 * t29 / t22 / 0.12e2) * t52 * t27 * t55 * t34 * t56 / 0.4e1 + 0.48968000000000000000e0 * t61 * t37 * t36 / t20) / (0.1e1 + t41 + 0.86212750000000000000e0 * t52 * t27 * t29 * t35 * t56))
t79 = math.sqrt(math.pi)
t83 = t1 ** 2
t84 = t2 ** 2
t85 = 0.1e1 / t84
t86 = t83 * t85
t87 = 0.1e1 - t86
t101 = t27 ** 2
t102 = t29 ** 2
t103 = t101 * t102
t104 = t33 ** 2
t105 = 0.1e1 / t104
t106 = t31 * t105
t107 = t103 * t106
t109 = t28 * t3
t111 = t29 * t28
t112 = t27 * t111
t115 = t32 / t33 / t2
t120 = math.exp(-0.18810000000000000000e0 * t36)
t121 = (0.1e1 - (0.2e1 / 0.45e2 * t31 * t44 * t29 * (t25 + 0.6e1 * t21 - 0.3e1) * t28 - 0.7524e0) * t27 * t55 * t34 / 0.4e1 + 0.20482500000000000000e-1 * t107 - 0.95775000000000000000e-2 * t109 + 0.34856250000000000000e-3 * t112 * t115) * t120
t122 = math.sqrt(0.2e1)
t127 = t101 * t102 * t26
t128 = t127 * t31
t130 = 0.1e1 / t104 / t2
t131 = p_a_zeta_threshold ** 2
t132 = t5 ** 2
t133 = lax_cond(t6, t131, t132)
t136 = 0.1e1 / t111 * t27
t139 = (0.1e1 / t5) ** (0.1e1 / 0.3e1)
t140 = t139 ** 2
t143 = t30 * t32
t144 = 2 ** (0.1e1 / 0.3e1)
t145 = t34 * t144
t147 = t143 * t145 * t139
t151 = t103 * t31
t152 = t144 ** 2
t153 = t105 * t152
t162 = t133 * t44 * t136 * t104 / t140 * (0.1e1 - 0.56675000000000000000e-2 * t147) / (0.1e1 + 0.10797500000000000000e0 * t147 + 0.10000000000000000000e-1 * t151 * t153 * t140) / 0.30e2
t163 = t12 ** 2
t164 = lax_cond(t13, t131, t163)
t168 = (0.1e1 / t12) ** (0.1e1 / 0.3e1)
t169 = t168 ** 2
t173 = t143 * t145 * t168
t185 = t164 * t44 * t136 * t104 / t169 * (0.1e1 - 0.56675000000000000000e-2 * t173) / (0.1e1 + 0.10797500000000000000e0 * t173 + 0.10000000000000000000e-1 * t151 * t153 * t169) / 0.30e2
t191 = math.exp(-0.77500000000000000000e-1 * t36)
t198 = t122 * t79
t205 = t121 / 0.2e1 - 0.1e1 / 0.2e1 + t86 / 0.2e1
t214 = math.exp(-0.13675000000000000000e0 * t36)
t222 = t8 * t131
t224 = lax_cond(t6, t222, t10 * t132)
t226 = lax_cond(t13, t222, t15 * t163)
t242 = t36 ** 0.15e1
t249 = math.log(0.1e1 + 0.16081979498692535067e2 / (0.37978500000000000000e1 * t37 + 0.89690000000000000000e0 * t36 + 0.20477500000000000000e0 * t242 + 0.12323500000000000000e0 * t107))
t251 = 0.621814e-1 * (0.1e1 + 0.53425000000000000000e-1 * t36) * t249
t252 = t83 ** 2
t253 = t84 ** 2
t256 = t7 * p_a_zeta_threshold
t258 = lax_cond(t6, t256, t9 * t5)
t260 = lax_cond(t13, t256, t14 * t12)
t265 = (t258 + t260 - 0.2e1) / (0.2e1 * t144 - 0.2e1)
t276 = math.log(0.1e1 + 0.32163958997385070134e2 / (0.70594500000000000000e1 * t37 + 0.15494250000000000000e1 * t36 + 0.42077500000000000000e0 * t242 + 0.15629250000000000000e0 * t107))
t289 = math.log(0.1e1 + 0.29608749977793437516e2 / (0.51785000000000000000e1 * t37 + 0.90577500000000000000e0 * t36 + 0.11003250000000000000e0 * t242 + 0.12417750000000000000e0 * t107))
t290 = (0.1e1 + 0.27812500000000000000e-1 * t36) * t289
t297 = -t251 + t252 / t253 * t265 * (-0.3109070e-1 * (0.1e1 + 0.51370000000000000000e-1 * t36) * t276 + t251 - 0.19751673498613801407e-1 * t290) + 0.19751673498613801407e-1 * t265 * t290
t302 = t52 ** 2
t326 = t302 ** 2
t335 = (0.1e1 + 0.15403623315025000000e0 * t103 * t106 * t52) ** 2
t336 = t335 ** 2
res = (0.2e1 * t20 * t22 * t26 * t76 + (-0.17543244109220059985e0 / t79 / math.pi * t3 * t87 * t121 * t122 - 0.30400821447970174150e-2 * t128 * t130 * (t162 + t185 + 0.4e1 / 0.3e1 * t87 * (-0.12375000000000000000e1 * t36 + t107 / 0.4e1) * t191 * math.pi * t2) * t198) * t61 + (-0.26314866163830089978e0 * t109 * t87 * t205 - 0.38001026809962717688e-2 * t128 * t130 * (t162 + t185 + t87 * (-0.97000000000000000000e-1 * t36 + 0.16900000000000000000e0 * t107) * t214 * t27 / t102 * t32 * t104 / 0.3e1 - (t224 / 0.2e1 + t226 / 0.2e1) * t44 * t136 * t104 / 0.15e2) * math.pi + 0.42708890021612718669e0 * t112 * t115 * t297) * t302 - 0.67557380995489275890e-2 * t127 * t31 * t130 * t87 * t121 * t198 * t302 * p_a_cam_omega + (-0.10133607149323391384e-1 * t128 * t130 * t87 * t205 * math.pi + 0.52629732327660179956e0 * t26 * t85 * t297) * t302 * t52 + 0.20267214298646782767e-1 * t128 / t104 / t84 * t297 * t326) / t336
" unpol "t1 = 0.1e1 <= p_a_zeta_threshold
t2 = p_a_zeta_threshold ** (0.1e1 / 0.3e1)
t3 = t2 ** 2
t4 = lax_cond(t1, t3, 1)
t5 = t4 ** 2
t6 = t5 * t4
t7 = math.log(0.2e1)
t8 = t7 - 0.1e1
t11 = math.pi ** 2
t12 = 0.1e1 / t11
t13 = 3 ** (0.1e1 / 0.3e1)
t14 = 0.1e1 / math.pi
t15 = t14 ** (0.1e1 / 0.3e1)
t16 = t13 * t15
t17 = 4 ** (0.1e1 / 0.3e1)
t18 = t17 ** 2
t19 = r0 ** (0.1e1 / 0.3e1)
t20 = 0.1e1 / t19
t21 = t18 * t20
t22 = t16 * t21
t23 = math.sqrt(t22)
t27 = 0.29230250000000000000e1 * p_a_cam_omega * t23 / t4
t29 = 9 ** (0.1e1 / 0.3e1)
t30 = t29 ** 2
t38 = p_a_cam_omega ** 2
t41 = t15 * t18
t42 = 0.1e1 / t5
t47 = t38 * p_a_cam_omega
t62 = math.log((0.1e1 + t27 + (0.344851e1 - math.pi * t17 * t30 * t15 / t8 / 0.12e2) * t38 * t13 * t41 * t20 * t42 / 0.4e1 + 0.48968000000000000000e0 * t47 * t23 * t22 / t6) / (0.1e1 + t27 + 0.86212750000000000000e0 * t38 * t13 * t15 * t21 * t42))
t65 = math.sqrt(math.pi)
t68 = 0.1e1 / r0
t82 = t13 ** 2
t83 = t15 ** 2
t84 = t82 * t83
t85 = t19 ** 2
t87 = t17 / t85
t88 = t84 * t87
t90 = t14 * t68
t92 = t15 * t14
t93 = t13 * t92
t96 = t18 / t19 / r0
t101 = math.exp(-0.18810000000000000000e0 * t22)
t102 = (0.1e1 - (0.2e1 / 0.45e2 * t17 * t30 * t15 * (t11 + 0.6e1 * t7 - 0.3e1) * t14 - 0.7524e0) * t13 * t41 * t20 / 0.4e1 + 0.20482500000000000000e-1 * t88 - 0.95775000000000000000e-2 * t90 + 0.34856250000000000000e-3 * t93 * t96) * t101
t103 = math.sqrt(0.2e1)
t108 = t82 * t83 * t12
t109 = t108 * t17
t111 = 0.1e1 / t85 / r0
t112 = p_a_zeta_threshold ** 2
t113 = lax_cond(t1, t112, 1)
t115 = 0.1e1 / t92
t118 = 2 ** (0.1e1 / 0.3e1)
t120 = t16 * t21 * t118
t124 = t118 ** 2
t133 = t113 * t30 * t115 * t13 * t85 * (0.1e1 - 0.56675000000000000000e-2 * t120) / (0.1e1 + 0.10797500000000000000e0 * t120 + 0.10000000000000000000e-1 * t84 * t87 * t124) / 0.15e2
t138 = math.exp(-0.77500000000000000000e-1 * t22)
t145 = t103 * t65
t152 = t102 / 0.2e1 - 0.1e1 / 0.2e1
t159 = math.exp(-0.13675000000000000000e0 * t22)
t168 = lax_cond(t1, t3 * t112, 1)
t183 = t22 ** 0.15e1
t190 = math.log(0.1e1 + 0.16081979498692535067e2 / (0.37978500000000000000e1 * t23 + 0.89690000000000000000e0 * t22 + 0.20477500000000000000e0 * t183 + 0.12323500000000000000e0 * t88))
t194 = lax_cond(t1, t2 * p_a_zeta_threshold, 1)
t211 = math.log(0.1e1 + 0.29608749977793437516e2 / (0.51785000000000000000e1 * t23 + 0.90577500000000000000e0 * t22 + 0.11003250000000000000e0 * t183 + 0.12417750000000000000e0 * t88))
t215 = -0.621814e-1 * (0.1e1 + 0.53425000000000000000e-1 * t22) * t190 + 0.19751673498613801407e-1 * (0.2e1 * t194 - 0.2e1) / (0.2e1 * t118 - 0.2e1) * (0.1e1 + 0.27812500000000000000e-1 * t22) * t211
t220 = t38 ** 2
t233 = r0 ** 2
t244 = t220 ** 2
t253 = (0.1e1 + 0.15403623315025000000e0 * t84 * t87 * t38) ** 2
t254 = t253 ** 2
res = (0.2e1 * t6 * t8 * t12 * t62 + (-0.17543244109220059985e0 / t65 / math.pi * t68 * t102 * t103 - 0.30400821447970174150e-2 * t109 * t111 * (t133 + 0.4e1 / 0.3e1 * (-0.12375000000000000000e1 * t22 + t88 / 0.4e1) * t138 * math.pi * r0) * t145) * t47 + (-0.26314866163830089978e0 * t90 * t152 - 0.38001026809962717688e-2 * t109 * t111 * (t133 + (-0.97000000000000000000e-1 * t22 + 0.16900000000000000000e0 * t88) * t159 * t13 / t83 * t18 * t85 / 0.3e1 - t168 * t30 * t115 * t13 * t85 / 0.15e2) * math.pi + 0.42708890021612718669e0 * t93 * t96 * t215) * t220 - 0.67557380995489275890e-2 * t108 * t17 * t111 * t102 * t145 * t220 * p_a_cam_omega + (-0.10133607149323391384e-1 * t109 * t111 * t152 * math.pi + 0.52629732327660179956e0 * t12 / t233 * t215) * t220 * t38 + 0.20267214298646782767e-1 * t109 / t85 / t233 * t215 * t244) / t254
"

/- gen_repo/impl/prebuilt/pol/lda_c_pw.py and gen_repo/impl/prebuilt/unpol/lda_c_pw.py -/
formula lda_c_pw pol "t1 = params_a_a[0]
t3 = 3 ** (0.1e1 / 0.3e1)
t6 = (0.1e1 / math.pi) ** (0.1e1 / 0.3e1)
t7 = 4 ** (0.1e1 / 0.3e1)
t8 = t7 ** 2
t10 = r0 + r1
t11 = t10 ** (0.1e1 / 0.3e1)
t12 = 0.1e1 / t11
t13 = t6 * t8 * t12
t22 = t3 * t6 * t8 * t12
t23 = math.sqrt(t22)
t31 = t22 ** 0.15e1
t35 = t22 / 0.4e1
t38 = t35 ** (params_a_pp[0] + 0.1e1)
t45 = math.log(0.1e1 + 0.1e1 / t1 / (params_a_beta1[0] * t23 / 0.2e1 + params_a_beta2[0] * t3 * t13 / 0.4e1 + 0.12500000000000000000e0 * params_a_beta3[0] * t31 + params_a_beta4[0] * t38) / 0.2e1)
t46 = t1 * (0.1e1 + params_a_alpha1[0] * t3 * t13 / 0.4e1) * t45
t48 = r0 - r1
t49 = t48 ** 2
t50 = t49 ** 2
t51 = t10 ** 2
t52 = t51 ** 2
t56 = t48 / t10
t57 = 0.1e1 + t56
t59 = p_a_zeta_threshold ** (0.1e1 / 0.3e1)
t60 = t59 * p_a_zeta_threshold
t61 = t57 ** (0.1e1 / 0.3e1)
t63 = lax_cond(t57 <= p_a_zeta_threshold, t60, t61 * t57)
t64 = 0.1e1 - t56
t66 = t64 ** (0.1e1 / 0.3e1)
t68 = lax_cond(t64 <= p_a_zeta_threshold, t60, t66 * t64)
t70 = 2 ** (0.1e1 / 0.3e1)
t74 = (t63 + t68 - 0.2e1) / (0.2e1 * t70 - 0.2e1)
t75 = params_a_a[1]
t96 = t35 ** (params_a_pp[1] + 0.1e1)
t103 = math.log(0.1e1 + 0.1e1 / t75 / (params_a_beta1[1] * t23 / 0.2e1 + params_a_beta2[1] * t3 * t13 / 0.4e1 + 0.12500000000000000000e0 * params_a_beta3[1] * t31 + params_a_beta4[1] * t96) / 0.2e1)
t105 = params_a_a[2]
t110 = 0.1e1 + params_a_alpha1[2] * t3 * t13 / 0.4e1
t126 = t35 ** (params_a_pp[2] + 0.1e1)
t133 = math.log(0.1e1 + 0.1e1 / t105 / (params_a_beta1[2] * t23 / 0.2e1 + params_a_beta2[2] * t3 * t13 / 0.4e1 + 0.12500000000000000000e0 * params_a_beta3[2] * t31 + params_a_beta4[2] * t126) / 0.2e1)
t134 = 0.1e1 / params_a_fz20
res = -0.2e1 * t46 + t50 / t52 * t74 * (-0.2e1 * t75 * (0.1e1 + params_a_alpha1[1] * t3 * t13 / 0.4e1) * t103 + 0.2e1 * t46 - 0.2e1 * t105 * t110 * t133 * t134) + 0.2e1 * t74 * t105 * t110 * t133 * t134
" unpol "t1 = params_a_a[0]
t3 = 3 ** (0.1e1 / 0.3e1)
t6 = (0.1e1 / math.pi) ** (0.1e1 / 0.3e1)
t7 = 4 ** (0.1e1 / 0.3e1)
t8 = t7 ** 2
t10 = r0 ** (0.1e1 / 0.3e1)
t11 = 0.1e1 / t10
t12 = t6 * t8 * t11
t21 = t3 * t6 * t8 * t11
t22 = math.sqrt(t21)
t30 = t21 ** 0.15e1
t34 = t21 / 0.4e1
t37 = t34 ** (params_a_pp[0] + 0.1e1)
t44 = math.log(0.1e1 + 0.1e1 / t1 / (params_a_beta1[0] * t22 / 0.2e1 + params_a_beta2[0] * t3 * t12 / 0.4e1 + 0.12500000000000000000e0 * params_a_beta3[0] * t30 + params_a_beta4[0] * t37) / 0.2e1)
t47 = p_a_zeta_threshold ** (0.1e1 / 0.3e1)
t49 = lax_cond(0.1e1 <= p_a_zeta_threshold, t47 * p_a_zeta_threshold, 1)
t52 = 2 ** (0.1e1 / 0.3e1)
t57 = params_a_a[2]
t78 = t34 ** (params_a_pp[2] + 0.1e1)
t85 = math.log(0.1e1 + 0.1e1 / t57 / (params_a_beta1[2] * t22 / 0.2e1 + params_a_beta2[2] * t3 * t12 / 0.4e1 + 0.12500000000000000000e0 * params_a_beta3[2] * t30 + params_a_beta4[2] * t78) / 0.2e1)
res = -0.2e1 * t1 * (0.1e1 + params_a_alpha1[0] * t3 * t12 / 0.4e1) * t44 + 0.2e1 * (0.2e1 * t49 - 0.2e1) / (0.2e1 * t52 - 0.2e1) * t57 * (0.1e1 + params_a_alpha1[2] * t3 * t12 / 0.4e1) * t85 / params_a_fz20
"

end Verif.Data
