import Verif.Lib.ClosedForm
import Verif.Py.KernelRfl
import Verif.Spec.Scaling
import Verif.Data.F05
/-!
# C42 for `gga_x_wpbeh`

`gen_repo/impl/prebuilt/pol/gga_x_wpbeh.py` is the sum of one `select` per spin; the condition of each is whether that spin is screened.
-/
namespace Verif.Props
open Verif.Py Verif.Model Verif.Spec Verif.Data Verif.Lib
noncomputable section
open Classical

set_option maxRecDepth 100000
set_option linter.unusedVariables false

/-- `t358` of `gen_repo/impl/prebuilt/pol/gga_x_wpbeh.py`. -/
def wpbehFirst (P : Prims) (p : Rec) (r0 r1 s0 : ℝ) : ℝ :=
  let t3 := (fn1Val P .cbrt (N 3 (0)))
  let t4 := (fn1Val P .cbrt Real.pi)
  let t6 := (t3 / t4)
  let t7 := (r0 + r1)
  let t8 := ((N 1 (0)) / t7)
  let t12 := ((((N 2 (0)) * r0) * t8) ≤ (p.fld .zetaThreshold))
  let t13 := ((p.fld .zetaThreshold) - (N 1 (0)))
  let t16 := ((((N 2 (0)) * r1) * t8) ≤ (p.fld .zetaThreshold))
  let t17 := (-t13)
  let t19 := ((r0 - r1) * t8)
  let t20 := (cnd t16 t17 t19)
  let t21 := (cnd t12 t13 t20)
  let t22 := ((N 1 (0)) + t21)
  let t24 := (fn1Val P .cbrt (p.fld .zetaThreshold))
  let t25 := (t24 * (p.fld .zetaThreshold))
  let t26 := (fn1Val P .cbrt t22)
  let t28 := (cnd (t22 ≤ (p.fld .zetaThreshold)) t25 (t26 * t22))
  let t29 := (fn1Val P .cbrt t7)
  let t31 := (t3 ^ (N 2 (0)))
  let t32 := ((p.fld .camOmega) * t31)
  let t33 := (Real.pi ^ (N 2 (0)))
  let t34 := (fn1Val P .cbrt t33)
  let t35 := ((N 1 (0)) / t34)
  let t37 := (((N 1 (0)) + t19) ≤ (p.fld .zetaThreshold))
  let t39 := (((N 1 (0)) - t19) ≤ (p.fld .zetaThreshold))
  let t40 := (cnd t39 t17 t19)
  let t41 := (cnd t37 t13 t40)
  let t42 := ((N 1 (0)) + t41)
  let t44 := (fn1Val P .cbrt t42)
  let t45 := (cnd (t42 ≤ (p.fld .zetaThreshold)) t24 t44)
  let t47 := (t35 / t45)
  let t48 := ((N 1 (0)) / t29)
  let t51 := (((t32 * t47) * t48) / (N 3 (0)))
  let t52 := ((N 14 (0)) < t51)
  let t53 := (fn1Val P .cbrt (N 6 (0)))
  let t54 := (t53 ^ (N 2 (0)))
  let t55 := (t54 * t35)
  let t56 := (fn1Val P .sqrt s0)
  let t57 := (fn1Val P .cbrt r0)
  let t62 := ((((t55 * t56) / t57) / r0) / (N 12 (0)))
  let t64 := ((N 15 (0)) < t62)
  let t65 := (cnd t64 (N 15 (0)) t62)
  let t67 := (cnd ((N 1 (0)) < t65) t65 (N 1 (0)))
  let t69 := (fn1Val P .exp (t67 - (N 8572844 (-6))))
  let t71 := (fn1Val P .log ((N 1 (0)) + t69))
  let t73 := (cnd t64 (N 8572844 (-6)) (t67 - t71))
  let t74 := (cnd (t62 < (N 1 (0))) t62 t73)
  let t76 := (cnd (t74 < (N 1 (-15))) (N 1 (-15)) t74)
  let t77 := (t76 ^ (N 2 (0)))
  let t79 := (t77 ^ (N 2 (0)))
  let t81 := (((N 979681 (-8)) * t77) + ((N 410834 (-7)) * t79))
  let t89 := ((N 1 (0)) / ((((N 1 (0)) + ((N 18744 (-5)) * t79)) + (((N 120824 (-8)) * t79) * t76)) + (((N 347188 (-7)) * t79) * t77)))
  let t90 := ((t77 * t81) * t89)
  let t91 := ((N 22143176004591608976 (-19)) * t90)
  let t93 := (cnd (t51 < (N 14 (0))) (N 1455915450052607 (-15)) (N 2 (0)))
  let t94 := ((p.fld .camOmega) ^ (N 2 (0)))
  let t97 := (t34 ^ (N 2 (0)))
  let t98 := ((N 1 (0)) / t97)
  let t99 := (t45 ^ (N 2 (0)))
  let t102 := (t29 ^ (N 2 (0)))
  let t103 := ((N 1 (0)) / t102)
  let t104 := ((t98 / t99) * t103)
  let t105 := (((t93 * t94) * t3) * t104)
  let t108 := (fn1Val P .e1Scaled (t91 + ((N 73810586681972029922 (-20)) * t105)))
  let t110 := (t105 / (N 3 (0)))
  let t112 := (fn1Val P .log (((N 57786348 (-8)) + t90) + t110))
  let t115 := (fn1Val P .log (t90 + t110))
  let t118 := (cnd t52 (N 14 (0)) t51)
  let t120 := (t118 ^ (N 2 (0)))
  let t121 := (t120 * t118)
  let t123 := (t120 ^ (N 2 (0)))
  let t124 := (t123 * t118)
  let t126 := (t123 * t121)
  let t131 := (cnd (t118 < (N 14 (0))) (N 1455915450052607 (-15)) (N 2 (0)))
  let t132 := (t131 * t120)
  let t134 := (t91 + ((N 22143176004591608976 (-19)) * t132))
  let t135 := (fn1Val P .sqrt t134)
  let t136 := (fn1Val P .erfcx t135)
  let t141 := (t123 * t120)
  let t143 := (t123 ^ (N 2 (0)))
  let t146 := (fn1Val P .e1Scaled t134)
  let t149 := (fn1Val P .sqrt Real.pi)
  let t150 := (((N 57786348 (-8)) + t90) + t132)
  let t151 := (fn1Val P .sqrt t150)
  let t156 := ((N 1 (0)) / t150)
  let t159 := (t90 + t132)
  let t160 := (fn1Val P .sqrt t159)
  let t172 := (t150 ^ (N 2 (0)))
  let t177 := (t151 * t172)
  let t183 := (t160 * t159)
  let t193 := (t172 * t150)
  let t198 := (t159 ^ (N 2 (0)))
  let t204 := (t160 * t198)
  let t206 := (t151 * t193)
  let t221 := (t172 ^ (N 2 (0)))
  let t225 := (t198 * t159)
  let t241 := (fn1Val P .log (t159 * t156))
  let t243 := ((((((((((((((((((N 17059169152930056821 (-19)) * t118) - ((N 41622705406440396562 (-19)) * t121)) + ((N 42174370348694648999 (-19)) * t124)) - ((N 10676080470633097775 (-19)) * t126)) * Real.pi) * t136) / (N 2 (0))) - (((((((-(N 10161144 (-7))) + ((N 326865659796668475 (-17)) * t120)) - ((N 48418398881417585092 (-19)) * t123)) + ((N 2723636568586566055 (-18)) * t141)) - ((N 20524577845574895866 (-20)) * t143)) * t146) / (N 2 (0)))) - ((((N 5732022993364590259 (-19)) * t149) / t151) * t118)) + (((N 73807311952199090995 (-20)) * t156) * t120)) - ((((N 1243162299390327 (-15)) * t149) * ((((-(N 9 (0))) / (N 8 (0))) / t160) + (((N 2540286 (-7)) / t151) / t150))) * t121)) + ((((-(N 1093302940630051125 (-18))) / t159) + ((N 49374260512735112038 (-20)) / t172)) * t123)) - ((((((N 52484962540331303985 (-21)) * t149) * ((((N 3 (0)) * t177) * ((((N 9 (0)) * t90) + ((N 9 (0)) * t132)) - (N 20322288 (-7)))) + ((N 412995389554944 (-14)) * t183))) / t177) / t183) * t124)) + ((((N 25085884618821050197 (-20)) / t193) + (((N 7715016088131 (-15)) * ((-(N 36 (0))) + ((N 79715433616529792314 (-18)) * t90))) / t198)) * t141)) + ((((((N 14762353927435135389 (-22)) * t149) * (((-(N 4196505624603881896 (-17))) * t204) + (((N 9 (0)) * t206) * (((((N 27 (0)) * t198) - ((N 60966864 (-7)) * t90)) - ((N 60966864 (-7)) * t132)) + (N 412995389554944 (-14)))))) / t206) / t204) * t126)) + (((((N 75666704254679261017 (-22)) * ((((((N 81278266164980202635 (-18)) * t131) * t221) * t159) + ((N 33847844843765416574 (-19)) * t225)) + (((N 8401793031216 (-15)) * t221) * (((((-(N 729 (0))) * t198) + ((N 3292210656 (-7)) * t90)) + ((N 3292210656 (-7)) * t132)) - (N 29735668047955968 (-14)))))) / t221) / t225) * t143)) + ((N 5080572 (-7)) * t241))
  let t244 := (cnd t52 ((((N 5080572 (-7)) * t108) - ((N 5080572 (-7)) * t112)) + ((N 5080572 (-7)) * t115)) t243)
  let t246 := ((N 57786348 (-8)) + t90)
  let t247 := (t246 ^ (N 2 (0)))
  let t249 := ((N 77215461 (-9)) * t90)
  let t253 := ((((N 64753871 (-7)) * t81) * t89) + (N 4796583 (-7)))
  let t257 := (((N 3 (0)) / (N 4 (0))) * Real.pi)
  let t263 := (t247 * t246)
  let t267 := (fn1Val P .sqrt t246)
  let t268 := (t267 * t263)
  let t272 := (fn1Val P .exp t91)
  let t274 := (fn1Val P .sqrt t90)
  let t276 := (fn1Val P .erf ((N 14880583323442535321 (-19)) * t274))
  let t281 := ((N 1 (0)) / t149)
  let t290 := (cnd ((N 8 (-2)) < t76) ((((((-(N 16 (0))) / (N 15 (0))) * ((t257 + (((t149 * ((((-(N 779335965 (-9))) - (((N 463292766 (-9)) * ((t253 * t77) + (N 1 (0)))) * t246)) - ((N 148683344 (-8)) * t247)) + ((N 81289152 (-7)) * t263))) / t268) / (N 16 (0)))) - ((((N 75601874976749088562 (-20)) * Real.pi) * t272) * ((N 1 (0)) - t276)))) * t281) / t77) * t268) (((-(N 262841788 (-10))) - ((N 7117647788 (-11)) * t77)) + ((N 8534541323 (-11)) * t79)))
  let t291 := (t77 * t290)
  let t294 := ((N 1 (0)) / t263)
  let t298 := (t94 * t3)
  let t299 := (t298 * t104)
  let t301 := (((N 57786348 (-8)) + t90) + (t299 / (N 3 (0))))
  let t302 := (t301 ^ (N 2 (0)))
  let t307 := ((t301 * t77) * t253)
  let t313 := (fn1Val P .sqrt t301)
  let t315 := (((N 1 (0)) / t313) / t302)
  let t322 := ((t94 * (p.fld .camOmega)) / t33)
  let t336 := (t94 ^ (N 2 (0)))
  let t338 := ((t336 * (p.fld .camOmega)) * t3)
  let t340 := (((N 1 (0)) / t97) / t33)
  let t341 := (t99 ^ (N 2 (0)))
  let t347 := (((N 1 (0)) / t102) / t7)
  (cnd (r0 ≤ (p.fld .densThreshold)) (N 0 (0)) ((((((-(N 3 (0))) / (N 8 (0))) * t6) * t28) * t29) * (((((((-(N 8 (0))) / (N 9 (0))) * t244) - ((((N 4 (0)) / (N 9 (0))) * ((((((-(N 37170836 (-8))) * t247) - (N 14853145700326428 (-17))) - t249) - ((((N 77215461 (-9)) * t246) * t77) * t253)) + ((N 2 (0)) * t291))) * t294)) + ((((((t32 * t47) * t48) * (((((((-(N 148683344 (-8))) * t302) - (N 104705593501958568 (-17))) - ((N 463292766 (-9)) * t90)) - ((N 154430922 (-9)) * t299)) - ((N 463292766 (-9)) * t307)) + ((N 15 (0)) * t291))) / t246) * t315) / (N 27 (0)))) + (((((((((N 4 (0)) / (N 27 (0))) * t322) / t99) / t45) * t8) * (((((-(N 30439865000326428 (-17))) - t249) - ((N 25738487 (-9)) * t299)) - ((N 77215461 (-9)) * t307)) + ((N 5 (0)) * t291))) / t247) * t315)) + ((((((((((N 8 (0)) / (N 81 (0))) * t338) * t340) / t341) / t45) * t347) * ((-(N 51955731 (-9))) + t291)) * t294) * t315))))

/-- `t663` of `gen_repo/impl/prebuilt/pol/gga_x_wpbeh.py`. -/
def wpbehSecond (P : Prims) (p : Rec) (r0 r1 s2 : ℝ) : ℝ :=
  let t3 := (fn1Val P .cbrt (N 3 (0)))
  let t4 := (fn1Val P .cbrt Real.pi)
  let t6 := (t3 / t4)
  let t7 := (r0 + r1)
  let t8 := ((N 1 (0)) / t7)
  let t12 := ((((N 2 (0)) * r0) * t8) ≤ (p.fld .zetaThreshold))
  let t13 := ((p.fld .zetaThreshold) - (N 1 (0)))
  let t16 := ((((N 2 (0)) * r1) * t8) ≤ (p.fld .zetaThreshold))
  let t17 := (-t13)
  let t19 := ((r0 - r1) * t8)
  let t24 := (fn1Val P .cbrt (p.fld .zetaThreshold))
  let t25 := (t24 * (p.fld .zetaThreshold))
  let t29 := (fn1Val P .cbrt t7)
  let t31 := (t3 ^ (N 2 (0)))
  let t32 := ((p.fld .camOmega) * t31)
  let t33 := (Real.pi ^ (N 2 (0)))
  let t34 := (fn1Val P .cbrt t33)
  let t35 := ((N 1 (0)) / t34)
  let t37 := (((N 1 (0)) + t19) ≤ (p.fld .zetaThreshold))
  let t39 := (((N 1 (0)) - t19) ≤ (p.fld .zetaThreshold))
  let t48 := ((N 1 (0)) / t29)
  let t53 := (fn1Val P .cbrt (N 6 (0)))
  let t54 := (t53 ^ (N 2 (0)))
  let t55 := (t54 * t35)
  let t94 := ((p.fld .camOmega) ^ (N 2 (0)))
  let t97 := (t34 ^ (N 2 (0)))
  let t98 := ((N 1 (0)) / t97)
  let t102 := (t29 ^ (N 2 (0)))
  let t103 := ((N 1 (0)) / t102)
  let t149 := (fn1Val P .sqrt Real.pi)
  let t257 := (((N 3 (0)) / (N 4 (0))) * Real.pi)
  let t281 := ((N 1 (0)) / t149)
  let t298 := (t94 * t3)
  let t322 := ((t94 * (p.fld .camOmega)) / t33)
  let t336 := (t94 ^ (N 2 (0)))
  let t338 := ((t336 * (p.fld .camOmega)) * t3)
  let t340 := (((N 1 (0)) / t97) / t33)
  let t347 := (((N 1 (0)) / t102) / t7)
  let t360 := (cnd t12 t17 (-t19))
  let t361 := (cnd t16 t13 t360)
  let t362 := ((N 1 (0)) + t361)
  let t364 := (fn1Val P .cbrt t362)
  let t366 := (cnd (t362 ≤ (p.fld .zetaThreshold)) t25 (t364 * t362))
  let t368 := (cnd t37 t17 (-t19))
  let t369 := (cnd t39 t13 t368)
  let t370 := ((N 1 (0)) + t369)
  let t372 := (fn1Val P .cbrt t370)
  let t373 := (cnd (t370 ≤ (p.fld .zetaThreshold)) t24 t372)
  let t375 := (t35 / t373)
  let t378 := (((t32 * t375) * t48) / (N 3 (0)))
  let t379 := ((N 14 (0)) < t378)
  let t380 := (fn1Val P .sqrt s2)
  let t381 := (fn1Val P .cbrt r1)
  let t386 := ((((t55 * t380) / t381) / r1) / (N 12 (0)))
  let t388 := ((N 15 (0)) < t386)
  let t389 := (cnd t388 (N 15 (0)) t386)
  let t391 := (cnd ((N 1 (0)) < t389) t389 (N 1 (0)))
  let t393 := (fn1Val P .exp (t391 - (N 8572844 (-6))))
  let t395 := (fn1Val P .log ((N 1 (0)) + t393))
  let t397 := (cnd t388 (N 8572844 (-6)) (t391 - t395))
  let t398 := (cnd (t386 < (N 1 (0))) t386 t397)
  let t400 := (cnd (t398 < (N 1 (-15))) (N 1 (-15)) t398)
  let t401 := (t400 ^ (N 2 (0)))
  let t403 := (t401 ^ (N 2 (0)))
  let t405 := (((N 979681 (-8)) * t401) + ((N 410834 (-7)) * t403))
  let t413 := ((N 1 (0)) / ((((N 1 (0)) + ((N 18744 (-5)) * t403)) + (((N 120824 (-8)) * t403) * t400)) + (((N 347188 (-7)) * t403) * t401)))
  let t414 := ((t401 * t405) * t413)
  let t415 := ((N 22143176004591608976 (-19)) * t414)
  let t417 := (cnd (t378 < (N 14 (0))) (N 1455915450052607 (-15)) (N 2 (0)))
  let t420 := (t373 ^ (N 2 (0)))
  let t423 := ((t98 / t420) * t103)
  let t424 := (((t417 * t94) * t3) * t423)
  let t427 := (fn1Val P .e1Scaled (t415 + ((N 73810586681972029922 (-20)) * t424)))
  let t429 := (t424 / (N 3 (0)))
  let t431 := (fn1Val P .log (((N 57786348 (-8)) + t414) + t429))
  let t434 := (fn1Val P .log (t414 + t429))
  let t437 := (cnd t379 (N 14 (0)) t378)
  let t439 := (t437 ^ (N 2 (0)))
  let t440 := (t439 * t437)
  let t442 := (t439 ^ (N 2 (0)))
  let t443 := (t442 * t437)
  let t445 := (t442 * t440)
  let t450 := (cnd (t437 < (N 14 (0))) (N 1455915450052607 (-15)) (N 2 (0)))
  let t451 := (t450 * t439)
  let t453 := (t415 + ((N 22143176004591608976 (-19)) * t451))
  let t454 := (fn1Val P .sqrt t453)
  let t455 := (fn1Val P .erfcx t454)
  let t460 := (t442 * t439)
  let t462 := (t442 ^ (N 2 (0)))
  let t465 := (fn1Val P .e1Scaled t453)
  let t468 := (((N 57786348 (-8)) + t414) + t451)
  let t469 := (fn1Val P .sqrt t468)
  let t474 := ((N 1 (0)) / t468)
  let t477 := (t414 + t451)
  let t478 := (fn1Val P .sqrt t477)
  let t490 := (t468 ^ (N 2 (0)))
  let t495 := (t469 * t490)
  let t501 := (t478 * t477)
  let t511 := (t490 * t468)
  let t516 := (t477 ^ (N 2 (0)))
  let t522 := (t478 * t516)
  let t524 := (t469 * t511)
  let t539 := (t490 ^ (N 2 (0)))
  let t543 := (t516 * t477)
  let t559 := (fn1Val P .log (t477 * t474))
  let t561 := ((((((((((((((((((N 17059169152930056821 (-19)) * t437) - ((N 41622705406440396562 (-19)) * t440)) + ((N 42174370348694648999 (-19)) * t443)) - ((N 10676080470633097775 (-19)) * t445)) * Real.pi) * t455) / (N 2 (0))) - (((((((-(N 10161144 (-7))) + ((N 326865659796668475 (-17)) * t439)) - ((N 48418398881417585092 (-19)) * t442)) + ((N 2723636568586566055 (-18)) * t460)) - ((N 20524577845574895866 (-20)) * t462)) * t465) / (N 2 (0)))) - ((((N 5732022993364590259 (-19)) * t149) / t469) * t437)) + (((N 73807311952199090995 (-20)) * t474) * t439)) - ((((N 1243162299390327 (-15)) * t149) * ((((-(N 9 (0))) / (N 8 (0))) / t478) + (((N 2540286 (-7)) / t469) / t468))) * t440)) + ((((-(N 1093302940630051125 (-18))) / t477) + ((N 49374260512735112038 (-20)) / t490)) * t442)) - ((((((N 52484962540331303985 (-21)) * t149) * ((((N 3 (0)) * t495) * ((((N 9 (0)) * t414) + ((N 9 (0)) * t451)) - (N 20322288 (-7)))) + ((N 412995389554944 (-14)) * t501))) / t495) / t501) * t443)) + ((((N 25085884618821050197 (-20)) / t511) + (((N 7715016088131 (-15)) * ((-(N 36 (0))) + ((N 79715433616529792314 (-18)) * t414))) / t516)) * t460)) + ((((((N 14762353927435135389 (-22)) * t149) * (((-(N 4196505624603881896 (-17))) * t522) + (((N 9 (0)) * t524) * (((((N 27 (0)) * t516) - ((N 60966864 (-7)) * t414)) - ((N 60966864 (-7)) * t451)) + (N 412995389554944 (-14)))))) / t524) / t522) * t445)) + (((((N 75666704254679261017 (-22)) * ((((((N 81278266164980202635 (-18)) * t450) * t539) * t477) + ((N 33847844843765416574 (-19)) * t543)) + (((N 8401793031216 (-15)) * t539) * (((((-(N 729 (0))) * t516) + ((N 3292210656 (-7)) * t414)) + ((N 3292210656 (-7)) * t451)) - (N 29735668047955968 (-14)))))) / t539) / t543) * t462)) + ((N 5080572 (-7)) * t559))
  let t562 := (cnd t379 ((((N 5080572 (-7)) * t427) - ((N 5080572 (-7)) * t431)) + ((N 5080572 (-7)) * t434)) t561)
  let t564 := ((N 57786348 (-8)) + t414)
  let t565 := (t564 ^ (N 2 (0)))
  let t567 := ((N 77215461 (-9)) * t414)
  let t571 := ((((N 64753871 (-7)) * t405) * t413) + (N 4796583 (-7)))
  let t580 := (t565 * t564)
  let t584 := (fn1Val P .sqrt t564)
  let t585 := (t584 * t580)
  let t589 := (fn1Val P .exp t415)
  let t591 := (fn1Val P .sqrt t414)
  let t593 := (fn1Val P .erf ((N 14880583323442535321 (-19)) * t591))
  let t606 := (cnd ((N 8 (-2)) < t400) ((((((-(N 16 (0))) / (N 15 (0))) * ((t257 + (((t149 * ((((-(N 779335965 (-9))) - (((N 463292766 (-9)) * ((t571 * t401) + (N 1 (0)))) * t564)) - ((N 148683344 (-8)) * t565)) + ((N 81289152 (-7)) * t580))) / t585) / (N 16 (0)))) - ((((N 75601874976749088562 (-20)) * Real.pi) * t589) * ((N 1 (0)) - t593)))) * t281) / t401) * t585) (((-(N 262841788 (-10))) - ((N 7117647788 (-11)) * t401)) + ((N 8534541323 (-11)) * t403)))
  let t607 := (t401 * t606)
  let t610 := ((N 1 (0)) / t580)
  let t614 := (t298 * t423)
  let t616 := (((N 57786348 (-8)) + t414) + (t614 / (N 3 (0))))
  let t617 := (t616 ^ (N 2 (0)))
  let t622 := ((t616 * t401) * t571)
  let t628 := (fn1Val P .sqrt t616)
  let t630 := (((N 1 (0)) / t628) / t617)
  let t648 := (t420 ^ (N 2 (0)))
  (cnd (r1 ≤ (p.fld .densThreshold)) (N 0 (0)) ((((((-(N 3 (0))) / (N 8 (0))) * t6) * t366) * t29) * (((((((-(N 8 (0))) / (N 9 (0))) * t562) - ((((N 4 (0)) / (N 9 (0))) * ((((((-(N 37170836 (-8))) * t565) - (N 14853145700326428 (-17))) - t567) - ((((N 77215461 (-9)) * t564) * t401) * t571)) + ((N 2 (0)) * t607))) * t610)) + ((((((t32 * t375) * t48) * (((((((-(N 148683344 (-8))) * t617) - (N 104705593501958568 (-17))) - ((N 463292766 (-9)) * t414)) - ((N 154430922 (-9)) * t614)) - ((N 463292766 (-9)) * t622)) + ((N 15 (0)) * t607))) / t564) * t630) / (N 27 (0)))) + (((((((((N 4 (0)) / (N 27 (0))) * t322) / t420) / t373) * t8) * (((((-(N 30439865000326428 (-17))) - t567) - ((N 25738487 (-9)) * t614)) - ((N 77215461 (-9)) * t622)) + ((N 5 (0)) * t607))) / t565) * t630)) + ((((((((((N 8 (0)) / (N 81 (0))) * t338) * t340) / t648) / t373) * t347) * ((-(N 51955731 (-9))) + t607)) * t610) * t630))))

theorem wpbeh_pol_eq (P : Prims) (p : Rec) (r0 r1 s0 s1 s2 : ℝ) : gga_x_wpbeh.pol P p (r0, r1) (some (s0, s1, s2)) none none =
    .ok (wpbehFirst P p r0 r1 s0 + wpbehSecond P p r0 r1 s2) := by kernel_rfl

theorem wpbehFirst_screened (P : Prims) (p : Rec) (r0 r1 s0 : ℝ) (h : r0 ≤ p.fld .densThreshold) : wpbehFirst P p r0 r1 s0 = N 0 0 := if_pos h

theorem wpbehSecond_screened (P : Prims) (p : Rec) (r0 r1 s2 : ℝ) (h : r1 ≤ p.fld .densThreshold) : wpbehSecond P p r0 r1 s2 = N 0 0 := if_pos h

theorem gga_x_wpbeh_screenedOne : ScreenedOne .gga gga_x_wpbeh := by
  intro P p r0 r1 s0 s1 s2 l0 l1 t0 t1 _ _ _ _ _ _ _
  refine ⟨fun h s1' s2' l1' t1' _ _ => ⟨_, wpbeh_pol_eq P p r0 r1 s0 s1 s2, ?_⟩, fun h s0' s1' l0' t0' _ _ => ⟨_, wpbeh_pol_eq P p r0 r1 s0 s1 s2, ?_⟩⟩
  · rw [show gga_x_wpbeh.pol P p (r0, r1) (Fam.gga.grad (s0, s1', s2')) (Fam.gga.meta (l0, l1')) (Fam.gga.meta (t0, t1')) = _ from wpbeh_pol_eq P p r0 r1 s0 s1' s2',
      wpbehSecond_screened P p r0 r1 s2 h, wpbehSecond_screened P p r0 r1 s2' h]
  · rw [show gga_x_wpbeh.pol P p (r0, r1) (Fam.gga.grad (s0', s1', s2)) (Fam.gga.meta (l0', l1)) (Fam.gga.meta (t0', t1)) = _ from wpbeh_pol_eq P p r0 r1 s0' s1' s2,
      wpbehFirst_screened P p r0 r1 s0 h, wpbehFirst_screened P p r0 r1 s0' h]

end
end Verif.Props
