import Verif.Lib.ClosedForm
import Verif.Py.KernelRfl
import Verif.Spec.Formula
import Verif.Data.F05
import Verif.Data.F09
import Verif.Data.F13
/-!
# Some shipped files as real expressions

Each definition repeats the assignments of one file under `gen_repo/impl/prebuilt/` after `post_process`; the theorem beside it states that running
the model of that file gives exactly this expression.
-/
namespace Verif.Props
open Verif.Py Verif.Model Verif.Spec Verif.Data Verif.Lib
noncomputable section
open Classical

set_option maxRecDepth 100000
set_option linter.unusedVariables false

/-- `gen_repo/impl/prebuilt/unpol/lda_x_rel.py`. -/
def lda_x_rel_unpolExpr (P : Prims) (p : Rec) (r0 : ℝ) : ℝ :=
  let t3 := (fn1Val P .cbrt (N 3 (0)))
  let t4 := (fn1Val P .cbrt Real.pi)
  let t5 := ((N 1 (0)) / t4)
  let t8 := (fn1Val P .cbrt (p.fld .zetaThreshold))
  let t10 := (cnd ((N 1 (0)) ≤ (p.fld .zetaThreshold)) (t8 * (p.fld .zetaThreshold)) (N 1 (0)))
  let t11 := (fn1Val P .cbrt r0)
  let t15 := (cnd ((r0 / (N 2 (0))) ≤ (p.fld .densThreshold)) (N 0 (0)) ((((((-(N 3 (0))) / (N 8 (0))) * t3) * t5) * t10) * t11))
  let t16 := (fn1Val P .cbrt (N 9 (0)))
  let t17 := (t16 ^ (N 2 (0)))
  let t18 := (t4 ^ (N 2 (0)))
  let t21 := (fn1Val P .cbrt ((N 1 (0)) / Real.pi))
  let t22 := (t21 ^ (N 2 (0)))
  let t25 := (t11 ^ (N 2 (0)))
  let t30 := (fn1Val P .sqrt ((N 1 (0)) + ((((((N 17750451365686221606 (-24)) * t17) * t18) * t3) / t22) * t25)))
  let t39 := (t3 ^ (N 2 (0)))
  let t45 := (fn1Val P .arcsinh ((((((N 24324508467583486202 (-22)) * t16) * t4) * t39) / t21) * t11))
  let t55 := (((((((((N 15226222180972388889 (-18)) * t30) * t17) * t5) * t3) * t21) / t11) - (((((((N 20865405771390201384 (-16)) * t45) * t16) / t18) * t39) * t22) / t25)) ^ (N 2 (0)))
  (((N 2 (0)) * t15) * ((N 1 (0)) - ((N 15 (-1)) * t55)))

theorem lda_x_rel_unpolExpr_eq (P : Prims) (p : Rec) (r0 : ℝ) : lda_x_rel.unpol P p r0 none none none = .ok (lda_x_rel_unpolExpr P p r0) := by kernel_rfl

/-- `gen_repo/impl/prebuilt/pol/lda_x_rel.py`. -/
def lda_x_rel_polExpr (P : Prims) (p : Rec) (r0 r1 : ℝ) : ℝ :=
  let t2 := (fn1Val P .cbrt (N 3 (0)))
  let t3 := (fn1Val P .cbrt Real.pi)
  let t4 := ((N 1 (0)) / t3)
  let t5 := (t2 * t4)
  let t6 := (r0 + r1)
  let t7 := ((N 1 (0)) / t6)
  let t8 := (r0 * t7)
  let t11 := (fn1Val P .cbrt (p.fld .zetaThreshold))
  let t12 := (t11 * (p.fld .zetaThreshold))
  let t13 := (fn1Val P .cbrt (N 2 (0)))
  let t15 := (fn1Val P .cbrt t8)
  let t19 := (cnd (((N 2 (0)) * t8) ≤ (p.fld .zetaThreshold)) t12 (((((N 2 (0)) * t13) * r0) * t7) * t15))
  let t20 := (fn1Val P .cbrt t6)
  let t24 := (cnd (r0 ≤ (p.fld .densThreshold)) (N 0 (0)) (((((-(N 3 (0))) / (N 8 (0))) * t5) * t19) * t20))
  let t26 := (r1 * t7)
  let t30 := (fn1Val P .cbrt t26)
  let t34 := (cnd (((N 2 (0)) * t26) ≤ (p.fld .zetaThreshold)) t12 (((((N 2 (0)) * t13) * r1) * t7) * t30))
  let t38 := (cnd (r1 ≤ (p.fld .densThreshold)) (N 0 (0)) (((((-(N 3 (0))) / (N 8 (0))) * t5) * t34) * t20))
  let t40 := (fn1Val P .cbrt (N 9 (0)))
  let t41 := (t40 ^ (N 2 (0)))
  let t42 := (t3 ^ (N 2 (0)))
  let t45 := (fn1Val P .cbrt ((N 1 (0)) / Real.pi))
  let t46 := (t45 ^ (N 2 (0)))
  let t49 := (t20 ^ (N 2 (0)))
  let t54 := (fn1Val P .sqrt ((N 1 (0)) + ((((((N 17750451365686221606 (-24)) * t41) * t42) * t2) / t46) * t49)))
  let t63 := (t2 ^ (N 2 (0)))
  let t69 := (fn1Val P .arcsinh ((((((N 24324508467583486202 (-22)) * t40) * t3) * t63) / t45) * t20))
  let t79 := (((((((((N 15226222180972388889 (-18)) * t54) * t41) * t4) * t2) * t45) / t20) - (((((((N 20865405771390201384 (-16)) * t69) * t40) / t42) * t63) * t46) / t49)) ^ (N 2 (0)))
  ((t24 + t38) * ((N 1 (0)) - ((N 15 (-1)) * t79)))

theorem lda_x_rel_polExpr_eq (P : Prims) (p : Rec) (r0 r1 : ℝ) : lda_x_rel.pol P p (r0, r1) none none none = .ok (lda_x_rel_polExpr P p r0 r1) := by kernel_rfl

/-- `gen_repo/impl/prebuilt/unpol/mgga_x_task.py`. -/
def mgga_x_task_unpolExpr (P : Prims) (p : Rec) (r0 s0 l0 tau0 : ℝ) : ℝ :=
  let t3 := (fn1Val P .cbrt (N 3 (0)))
  let t4 := (fn1Val P .cbrt Real.pi)
  let t7 := ((N 1 (0)) ≤ (p.fld .zetaThreshold))
  let t8 := ((p.fld .zetaThreshold) - (N 1 (0)))
  let t10 := (cnd t7 (-t8) (N 0 (0)))
  let t11 := (cnd t7 t8 t10)
  let t12 := (t11 + (N 1 (0)))
  let t14 := (fn1Val P .cbrt (p.fld .zetaThreshold))
  let t16 := (fn1Val P .cbrt t12)
  let t18 := (cnd (t12 ≤ (p.fld .zetaThreshold)) (t14 * (p.fld .zetaThreshold)) (t16 * t12))
  let t19 := (fn1Val P .cbrt r0)
  let t21 := (fn1Val P .cbrt (N 6 (0)))
  let t22 := (Real.pi ^ (N 2 (0)))
  let t23 := (fn1Val P .cbrt t22)
  let t24 := (t23 ^ (N 2 (0)))
  let t27 := (fn1Val P .cbrt (N 2 (0)))
  let t28 := (t27 ^ (N 2 (0)))
  let t30 := (r0 ^ (N 2 (0)))
  let t31 := (t19 ^ (N 2 (0)))
  let t32 := (t31 * t30)
  let t36 := (((((t21 / t24) * s0) * t28) / t32) / (N 24 (0)))
  let t37 := ((N 0 (0)) < t36)
  let t38 := (cnd t37 t36 (N 0 (0)))
  let t39 := (t38 ^ ((N 1 (0)) / (N 4 (0))))
  let t42 := (fn1Val P .exp ((-(p.param 127961897066339)) / t39))
  let t44 := (cnd t37 ((N 1 (0)) - t42) (N 0 (0)))
  let t46 := (p.param 140695593736714727850717277)
  let t47 := (t30 ^ (N 2 (0)))
  let t49 := ((t31 * t47) * t30)
  let t52 := (t47 * r0)
  let t54 := (r0 * tau0)
  let t57 := ((N 1 (0)) / r0)
  let t59 := ((N 1 (0)) / tau0)
  let t68 := (cnd ((N 0 (0)) < ((((N 125 (-3)) * (((N 79999999992 (-10)) * t54) - s0)) * t57) * t59)) ((((((N 8 (0)) * t54) - s0) * t57) * t59) / (N 8 (0))) (N 1 (-10)))
  let t69 := (tau0 * t68)
  let t73 := ((t19 * t30) * r0)
  let t75 := (tau0 ^ (N 2 (0)))
  let t76 := (t68 ^ (N 2 (0)))
  let t77 := (t75 * t76)
  let t80 := (t31 * r0)
  let t84 := (((t75 * tau0) * t76) * t68)
  let t87 := (t75 ^ (N 2 (0)))
  let t89 := (t76 ^ (N 2 (0)))
  let t92 := (p.param 140695593736714727850717533)
  let t104 := (p.param 140695593736714727850717789)
  let t113 := ((((((((((((((N 47049607861172565388 (-12)) * t46) * t49) + ((((N 65546183777551744717 (-12)) * t46) * t52) * t69)) + ((((N 34242864099506828874 (-12)) * t46) * t73) * t77)) + ((((N 79507891258050066525 (-13)) * t46) * t80) * t84)) + ((((N 69227979374755602348 (-14)) * t46) * t87) * t89)) - (((N 47049607861172565388 (-12)) * t92) * t49)) - ((((N 32773091888775872359 (-12)) * t92) * t52) * t69)) + ((((N 39753945629025033263 (-13)) * t92) * t80) * t84)) + ((((N 69227979374755602348 (-14)) * t92) * t87) * t89)) + (((N 47049607861172565386 (-12)) * t104) * t49)) - ((((N 65546183777551744717 (-12)) * t104) * t52) * t69)) - ((((N 57071440165844714789 (-12)) * t104) * t73) * t77))
  let t120 := (p.param 140695593736714727850718045)
  let t135 := (p.param 140695593736714727850718301)
  let t150 := (((((((((((((((-(N 79507891258050066526 (-13))) * t104) * t80) * t84) + ((((N 69227979374755602349 (-14)) * t104) * t87) * t89)) - (((N 47049607861172565384 (-12)) * t120) * t49)) + ((((N 22941164322143110651 (-11)) * t120) * t52) * t69)) - ((((N 4 (-12)) * t120) * t73) * t77)) - ((((N 27827761940317523285 (-12)) * t120) * t80) * t84)) + ((((N 69227979374755602348 (-14)) * t120) * t87) * t89)) + (((N 4704960786117256539 (-11)) * t135) * t49)) - ((((N 45882328644286221302 (-11)) * t135) * t52) * t69)) + ((((N 39950008116091300353 (-11)) * t135) * t73) * t77)) - ((((N 55655523880635046568 (-12)) * t135) * t80) * t84)) + ((((N 6922797937475560235 (-13)) * t135) * t87) * t89))
  let t155 := ((((N 828207200604688193 (-16)) * t80) + ((N 28844991406148167646 (-18)) * t69)) ^ (N 2 (0)))
  let t156 := (t155 ^ (N 2 (0)))
  let t161 := (t4 ^ (N 2 (0)))
  let t163 := (((t19 * t52) * t161) * t22)
  let t164 := (p.param 140695593736713628339089501)
  let t167 := (p.param 140695593736713628339089757)
  let t170 := (p.param 140695593736713628339090013)
  let t173 := (t3 * t32)
  let t174 := (t4 * Real.pi)
  let t175 := (t174 * s0)
  let t182 := (t3 ^ (N 2 (0)))
  let t183 := (s0 ^ (N 2 (0)))
  let t184 := (t182 * t183)
  let t193 := (((t3 * s0) + (((N 12 (0)) * t174) * t32)) ^ (N 2 (0)))
  let t198 := (t44 ^ (p.param 127961897066340))
  let t204 := (cnd ((r0 / (N 2 (0))) ≤ (p.fld .densThreshold)) (N 0 (0)) (((((((-(N 3 (0))) / (N 8 (0))) * t3) / t4) * t18) * t19) * (((p.param 8386110886139932792) * t44) + ((((N 1 (0)) - ((t113 + t150) / t156)) * (((((((((((((N 24 (0)) * t173) * t175) * t164) - ((((N 72 (0)) * t173) * t175) * t170)) + (((N 144 (0)) * t163) * t164)) - (((N 144 (0)) * t163) * t167)) + (((N 144 (0)) * t163) * t170)) + (t184 * t164)) + (t184 * t167)) + (t184 * t170)) / t193) - (p.param 8386110886139932792))) * t198))))
  ((N 2 (0)) * t204)

theorem mgga_x_task_unpolExpr_eq (P : Prims) (p : Rec) (r0 s0 l0 tau0 : ℝ) : mgga_x_task.unpol P p r0 (some s0) (some l0) (some tau0) = .ok (mgga_x_task_unpolExpr P p r0 s0 l0 tau0) := by kernel_rfl

/-- `gen_repo/impl/prebuilt/pol/mgga_x_task.py`. -/
def mgga_x_task_polExpr (P : Prims) (p : Rec) (r0 r1 s0 s1 s2 l0 l1 tau0 tau1 : ℝ) : ℝ :=
  let t2 := (fn1Val P .cbrt (N 3 (0)))
  let t3 := (fn1Val P .cbrt Real.pi)
  let t5 := (t2 / t3)
  let t6 := (r0 + r1)
  let t7 := ((N 1 (0)) / t6)
  let t10 := ((((N 2 (0)) * r0) * t7) ≤ (p.fld .zetaThreshold))
  let t11 := ((p.fld .zetaThreshold) - (N 1 (0)))
  let t14 := ((((N 2 (0)) * r1) * t7) ≤ (p.fld .zetaThreshold))
  let t15 := (-t11)
  let t17 := ((r0 - r1) * t7)
  let t18 := (cnd t14 t15 t17)
  let t19 := (cnd t10 t11 t18)
  let t20 := (t19 + (N 1 (0)))
  let t22 := (fn1Val P .cbrt (p.fld .zetaThreshold))
  let t23 := (t22 * (p.fld .zetaThreshold))
  let t24 := (fn1Val P .cbrt t20)
  let t26 := (cnd (t20 ≤ (p.fld .zetaThreshold)) t23 (t24 * t20))
  let t27 := (fn1Val P .cbrt t6)
  let t29 := (fn1Val P .cbrt (N 6 (0)))
  let t30 := (Real.pi ^ (N 2 (0)))
  let t31 := (fn1Val P .cbrt t30)
  let t32 := (t31 ^ (N 2 (0)))
  let t34 := (t29 / t32)
  let t35 := (r0 ^ (N 2 (0)))
  let t36 := (fn1Val P .cbrt r0)
  let t37 := (t36 ^ (N 2 (0)))
  let t38 := (t37 * t35)
  let t42 := (((t34 * s0) / t38) / (N 24 (0)))
  let t43 := ((N 0 (0)) < t42)
  let t44 := (cnd t43 t42 (N 0 (0)))
  let t45 := (t44 ^ ((N 1 (0)) / (N 4 (0))))
  let t48 := (fn1Val P .exp ((-(p.param 127961897066339)) / t45))
  let t50 := (cnd t43 ((N 1 (0)) - t48) (N 0 (0)))
  let t52 := (p.param 140695593736714727850717277)
  let t53 := (t35 ^ (N 2 (0)))
  let t55 := ((t37 * t53) * t35)
  let t58 := (t53 * r0)
  let t60 := (r0 * tau0)
  let t63 := ((N 1 (0)) / r0)
  let t65 := ((N 1 (0)) / tau0)
  let t74 := (cnd ((N 0 (0)) < ((((N 125 (-3)) * (((N 79999999992 (-10)) * t60) - s0)) * t63) * t65)) ((((((N 8 (0)) * t60) - s0) * t63) * t65) / (N 8 (0))) (N 1 (-10)))
  let t75 := (t74 * tau0)
  let t79 := ((t36 * t35) * r0)
  let t81 := (t74 ^ (N 2 (0)))
  let t82 := (tau0 ^ (N 2 (0)))
  let t83 := (t81 * t82)
  let t86 := (t37 * r0)
  let t90 := (((t81 * t74) * t82) * tau0)
  let t93 := (t81 ^ (N 2 (0)))
  let t95 := (t82 ^ (N 2 (0)))
  let t98 := (p.param 140695593736714727850717533)
  let t110 := (p.param 140695593736714727850717789)
  let t119 := ((((((((((((((N 47049607861172565388 (-12)) * t52) * t55) + ((((N 41291508340807648886 (-12)) * t52) * t58) * t75)) + ((((N 13589289623490307943 (-12)) * t52) * t79) * t83)) + ((((N 19876972814512516632 (-13)) * t52) * t86) * t90)) + ((((N 10902723556992837954 (-14)) * t52) * t93) * t95)) - (((N 47049607861172565388 (-12)) * t98) * t55)) - ((((N 20645754170403824442 (-12)) * t98) * t58) * t75)) + ((((N 99384864072562583159 (-14)) * t98) * t86) * t90)) + ((((N 10902723556992837954 (-14)) * t98) * t93) * t95)) + (((N 47049607861172565386 (-12)) * t110) * t55)) - ((((N 41291508340807648885 (-12)) * t110) * t58) * t75)) - ((((N 22648816039150513236 (-12)) * t110) * t79) * t83))
  let t126 := (p.param 140695593736714727850718045)
  let t141 := (p.param 140695593736714727850718301)
  let t156 := (((((((((((((((-(N 19876972814512516631 (-13))) * t110) * t86) * t90) + ((((N 10902723556992837954 (-14)) * t110) * t93) * t95)) - (((N 47049607861172565384 (-12)) * t126) * t55)) + ((((N 14452027919282677111 (-11)) * t126) * t58) * t75)) + ((((N 1 (-12)) * t126) * t79) * t83)) - ((((N 69569404850793808212 (-13)) * t126) * t86) * t90)) + ((((N 10902723556992837955 (-14)) * t126) * t93) * t95)) + (((N 4704960786117256539 (-11)) * t141) * t55)) - ((((N 2890405583856535422 (-10)) * t141) * t58) * t75)) + ((((N 15854171227405359266 (-11)) * t141) * t79) * t83)) - ((((N 13913880970158761643 (-12)) * t141) * t86) * t90)) + ((((N 10902723556992837954 (-14)) * t141) * t93) * t95))
  let t161 := ((((N 828207200604688193 (-16)) * t86) + ((N 18171205928321396589 (-18)) * t75)) ^ (N 2 (0)))
  let t162 := (t161 ^ (N 2 (0)))
  let t167 := (t3 ^ (N 2 (0)))
  let t168 := (t167 * t30)
  let t169 := ((t36 * t58) * t168)
  let t170 := (p.param 140695593736713628339089501)
  let t173 := (p.param 140695593736713628339089757)
  let t176 := (p.param 140695593736713628339090013)
  let t179 := (t38 * t29)
  let t180 := (t3 * Real.pi)
  let t181 := (t180 * s0)
  let t188 := (t29 ^ (N 2 (0)))
  let t189 := (s0 ^ (N 2 (0)))
  let t190 := (t188 * t189)
  let t199 := (((t29 * s0) + (((N 24 (0)) * t180) * t38)) ^ (N 2 (0)))
  let t204 := (t50 ^ (p.param 127961897066340))
  let t210 := (cnd (r0 ≤ (p.fld .densThreshold)) (N 0 (0)) ((((((-(N 3 (0))) / (N 8 (0))) * t5) * t26) * t27) * (((p.param 8386110886139932792) * t50) + ((((N 1 (0)) - ((t119 + t156) / t162)) * (((((((((((((N 48 (0)) * t179) * t181) * t170) - ((((N 144 (0)) * t179) * t181) * t176)) + (((N 576 (0)) * t169) * t170)) - (((N 576 (0)) * t169) * t173)) + (((N 576 (0)) * t169) * t176)) + (t190 * t170)) + (t190 * t173)) + (t190 * t176)) / t199) - (p.param 8386110886139932792))) * t204))))
  let t212 := (cnd t10 t15 (-t17))
  let t213 := (cnd t14 t11 t212)
  let t214 := (t213 + (N 1 (0)))
  let t216 := (fn1Val P .cbrt t214)
  let t218 := (cnd (t214 ≤ (p.fld .zetaThreshold)) t23 (t216 * t214))
  let t220 := (r1 ^ (N 2 (0)))
  let t221 := (fn1Val P .cbrt r1)
  let t222 := (t221 ^ (N 2 (0)))
  let t223 := (t222 * t220)
  let t227 := (((t34 * s2) / t223) / (N 24 (0)))
  let t228 := ((N 0 (0)) < t227)
  let t229 := (cnd t228 t227 (N 0 (0)))
  let t230 := (t229 ^ ((N 1 (0)) / (N 4 (0))))
  let t233 := (fn1Val P .exp ((-(p.param 127961897066339)) / t230))
  let t235 := (cnd t228 ((N 1 (0)) - t233) (N 0 (0)))
  let t237 := (t220 ^ (N 2 (0)))
  let t239 := ((t222 * t237) * t220)
  let t242 := (t237 * r1)
  let t244 := (r1 * tau1)
  let t247 := ((N 1 (0)) / r1)
  let t249 := ((N 1 (0)) / tau1)
  let t258 := (cnd ((N 0 (0)) < ((((N 125 (-3)) * (((N 79999999992 (-10)) * t244) - s2)) * t247) * t249)) ((((((N 8 (0)) * t244) - s2) * t247) * t249) / (N 8 (0))) (N 1 (-10)))
  let t259 := (tau1 * t258)
  let t263 := ((t221 * t220) * r1)
  let t265 := (tau1 ^ (N 2 (0)))
  let t266 := (t258 ^ (N 2 (0)))
  let t267 := (t265 * t266)
  let t270 := (t222 * r1)
  let t274 := (((t265 * tau1) * t266) * t258)
  let t277 := (t265 ^ (N 2 (0)))
  let t279 := (t266 ^ (N 2 (0)))
  let t301 := ((((((((((((((N 47049607861172565388 (-12)) * t52) * t239) + ((((N 41291508340807648886 (-12)) * t52) * t242) * t259)) + ((((N 13589289623490307943 (-12)) * t52) * t263) * t267)) + ((((N 19876972814512516632 (-13)) * t52) * t270) * t274)) + ((((N 10902723556992837954 (-14)) * t52) * t277) * t279)) - (((N 47049607861172565388 (-12)) * t98) * t239)) - ((((N 20645754170403824442 (-12)) * t98) * t242) * t259)) + ((((N 99384864072562583159 (-14)) * t98) * t270) * t274)) + ((((N 10902723556992837954 (-14)) * t98) * t277) * t279)) + (((N 47049607861172565386 (-12)) * t110) * t239)) - ((((N 41291508340807648885 (-12)) * t110) * t242) * t259)) - ((((N 22648816039150513236 (-12)) * t110) * t263) * t267))
  let t336 := (((((((((((((((-(N 19876972814512516631 (-13))) * t110) * t270) * t274) + ((((N 10902723556992837954 (-14)) * t110) * t277) * t279)) - (((N 47049607861172565384 (-12)) * t126) * t239)) + ((((N 14452027919282677111 (-11)) * t126) * t242) * t259)) + ((((N 1 (-12)) * t126) * t263) * t267)) - ((((N 69569404850793808212 (-13)) * t126) * t270) * t274)) + ((((N 10902723556992837955 (-14)) * t126) * t277) * t279)) + (((N 4704960786117256539 (-11)) * t141) * t239)) - ((((N 2890405583856535422 (-10)) * t141) * t242) * t259)) + ((((N 15854171227405359266 (-11)) * t141) * t263) * t267)) - ((((N 13913880970158761643 (-12)) * t141) * t270) * t274)) + ((((N 10902723556992837954 (-14)) * t141) * t277) * t279))
  let t341 := ((((N 828207200604688193 (-16)) * t270) + ((N 18171205928321396589 (-18)) * t259)) ^ (N 2 (0)))
  let t342 := (t341 ^ (N 2 (0)))
  let t347 := ((t221 * t242) * t168)
  let t354 := (t223 * t29)
  let t355 := (t180 * s2)
  let t362 := (s2 ^ (N 2 (0)))
  let t363 := (t188 * t362)
  let t372 := (((t29 * s2) + (((N 24 (0)) * t180) * t223)) ^ (N 2 (0)))
  let t377 := (t235 ^ (p.param 127961897066340))
  let t383 := (cnd (r1 ≤ (p.fld .densThreshold)) (N 0 (0)) ((((((-(N 3 (0))) / (N 8 (0))) * t5) * t218) * t27) * (((p.param 8386110886139932792) * t235) + ((((N 1 (0)) - ((t301 + t336) / t342)) * (((((((((((((N 48 (0)) * t354) * t355) * t170) - ((((N 144 (0)) * t354) * t355) * t176)) + (((N 576 (0)) * t347) * t170)) + (t363 * t170)) - (((N 576 (0)) * t347) * t173)) + (t363 * t173)) + (((N 576 (0)) * t347) * t176)) + (t363 * t176)) / t372) - (p.param 8386110886139932792))) * t377))))
  (t210 + t383)

theorem mgga_x_task_polExpr_eq (P : Prims) (p : Rec) (r0 r1 s0 s1 s2 l0 l1 tau0 tau1 : ℝ) : mgga_x_task.pol P p (r0, r1) (some (s0, s1, s2)) (some (l0, l1)) (some (tau0, tau1)) = .ok (mgga_x_task_polExpr P p r0 r1 s0 s1 s2 l0 l1 tau0 tau1) := by kernel_rfl

/-- `gen_repo/impl/prebuilt/unpol/gga_xc_th3.py`. -/
def gga_xc_th3_unpolExpr (P : Prims) (p : Rec) (r0 s0 : ℝ) : ℝ :=
  let t2 := ((N 2 (0)) ^ ((N 1 (0)) / (N 6 (0))))
  let t3 := (t2 ^ (N 2 (0)))
  let t4 := (t3 ^ (N 2 (0)))
  let t7 := (r0 ^ ((N 1 (0)) / (N 6 (0))))
  let t12 := (fn1Val P .cbrt (N 2 (0)))
  let t13 := (t12 ^ (N 2 (0)))
  let t15 := (fn1Val P .cbrt r0)
  let t20 := (fn1Val P .sqrt (N 2 (0)))
  let t22 := (fn1Val P .sqrt r0)
  let t28 := (t15 ^ (N 2 (0)))
  let t29 := (t28 * r0)
  let t33 := ((N 2 (0)) ^ ((N 1 (0)) / (N 12 (0))))
  let t34 := (t33 ^ (N 2 (0)))
  let t36 := (t34 ^ (N 2 (0)))
  let t39 := (r0 ^ ((N 1 (0)) / (N 12 (0))))
  let t40 := (fn1Val P .sqrt s0)
  let t43 := (fn1Val P .cbrt (p.fld .zetaThreshold))
  let t45 := (cnd ((N 1 (0)) ≤ (p.fld .zetaThreshold)) (t43 * (p.fld .zetaThreshold)) (N 1 (0)))
  let t69 := ((N 1 (0)) / r0)
  let t71 := (t45 ^ (N 2 (0)))
  let t77 := (t7 ^ (N 2 (0)))
  let t78 := (t77 ^ (N 2 (0)))
  let t79 := (t78 * t7)
  let t93 := (r0 ^ (N 2 (0)))
  let t96 := ((s0 / t28) / t93)
  let t98 := ((t96 * t71) - t96)
  let t113 := (r0 ^ (N 10833333333333333333 (-19)))
  let t116 := ((((((((((((((((((((p.param 8029185205360865373) * t4) * t2) * t7) * r0) / (N 2 (0))) + (((((p.param 8029185205360865629) * t13) * t15) * r0) / (N 2 (0)))) + (((((p.param 8029185205360865885) * t20) * t22) * r0) / (N 2 (0)))) + ((((p.param 8029185205360866141) * t12) * t29) / (N 2 (0)))) + ((((((((p.param 8029185205360866397) * t36) * t34) * t33) * t39) * t40) * t45) / (N 4 (0)))) + ((((((p.param 8029185205360866653) * t20) * t7) * t40) * t45) / (N 4 (0)))) + ((((((p.param 8029185205360866909) * t12) * t15) * t40) * t45) / (N 4 (0)))) + ((((((p.param 8029185205360867165) * t2) * t22) * t40) * t45) / (N 4 (0)))) + ((((((p.param 8029185205360867421) * t12) * t69) * s0) * t71) / (N 8 (0)))) + ((((((p.param 8029185205360867677) * t2) / t79) * s0) * t71) / (N 8 (0)))) + (((((p.param 2055471412572381589597) / t28) * s0) * t71) / (N 8 (0)))) + (((((p.param 2055471412572381589853) * t12) * t29) * t98) / (N 2 (0)))) + ((((((p.param 2055471412572381590109) * t2) * t79) * r0) * t98) / (N 2 (0)))) + ((((p.param 2055471412572381590365) * t93) * t98) / (N 2 (0)))) + (((N 94387431268169349665 (-20)) * (p.param 2055471412572381591645)) * t113))
  (t116 * t69)

theorem gga_xc_th3_unpolExpr_eq (P : Prims) (p : Rec) (r0 s0 : ℝ) : gga_xc_th3.unpol P p r0 (some s0) none none = .ok (gga_xc_th3_unpolExpr P p r0 s0) := by kernel_rfl

/-- `gen_repo/impl/prebuilt/pol/gga_xc_th3.py`. -/
def gga_xc_th3_polExpr (P : Prims) (p : Rec) (r0 r1 s0 s1 s2 : ℝ) : ℝ :=
  let t2 := (r0 ^ ((N 1 (0)) / (N 6 (0))))
  let t4 := (r1 ^ ((N 1 (0)) / (N 6 (0))))
  let t6 := ((t2 * r0) + (t4 * r1))
  let t9 := (fn1Val P .cbrt r0)
  let t10 := (t9 * r0)
  let t11 := (fn1Val P .cbrt r1)
  let t12 := (t11 * r1)
  let t13 := (t10 + t12)
  let t16 := (fn1Val P .sqrt r0)
  let t18 := (fn1Val P .sqrt r1)
  let t20 := ((t16 * r0) + (t18 * r1))
  let t23 := (t9 ^ (N 2 (0)))
  let t25 := (t11 ^ (N 2 (0)))
  let t27 := ((t23 * r0) + (t25 * r1))
  let t30 := (r0 ^ ((N 1 (0)) / (N 12 (0))))
  let t31 := (t30 ^ (N 2 (0)))
  let t32 := (t31 ^ (N 2 (0)))
  let t35 := (r1 ^ ((N 1 (0)) / (N 12 (0))))
  let t36 := (t35 ^ (N 2 (0)))
  let t37 := (t36 ^ (N 2 (0)))
  let t42 := (fn1Val P .sqrt s0)
  let t45 := (r0 - r1)
  let t46 := (r0 + r1)
  let t47 := ((N 1 (0)) / t46)
  let t48 := (t45 * t47)
  let t49 := ((N 1 (0)) + t48)
  let t51 := (fn1Val P .cbrt (p.fld .zetaThreshold))
  let t52 := (t51 * (p.fld .zetaThreshold))
  let t53 := (fn1Val P .cbrt t49)
  let t55 := (cnd (t49 ≤ (p.fld .zetaThreshold)) t52 (t53 * t49))
  let t56 := (fn1Val P .cbrt (N 2 (0)))
  let t57 := (t56 ^ (N 2 (0)))
  let t60 := (fn1Val P .sqrt s2)
  let t63 := ((N 1 (0)) - t48)
  let t65 := (fn1Val P .cbrt t63)
  let t67 := (cnd (t63 ≤ (p.fld .zetaThreshold)) t52 (t65 * t63))
  let t71 := (((((t42 / t10) * t55) * t57) / (N 4 (0))) + ((((t60 / t12) * t67) * t57) / (N 4 (0))))
  let t83 := (t2 ^ (N 2 (0)))
  let t84 := (t83 ^ (N 2 (0)))
  let t87 := (t4 ^ (N 2 (0)))
  let t88 := (t87 ^ (N 2 (0)))
  let t91 := (((t84 * t2) * r0) + ((t88 * t4) * r1))
  let t97 := (r0 ^ (N 2 (0)))
  let t101 := (t55 ^ (N 2 (0)))
  let t103 := ((((s0 / t23) / t97) * t101) * t56)
  let t104 := (r1 ^ (N 2 (0)))
  let t108 := (t67 ^ (N 2 (0)))
  let t110 := ((((s2 / t25) / t104) * t108) * t56)
  let t112 := ((t103 / (N 8 (0))) + (t110 / (N 8 (0))))
  let t120 := (t97 + t104)
  let t130 := (t46 ^ (N 2 (0)))
  let t131 := (fn1Val P .cbrt t46)
  let t132 := (t131 ^ (N 2 (0)))
  let t136 := (((t103 / (N 4 (0))) + (t110 / (N 4 (0)))) - ((((s0 + ((N 2 (0)) * s1)) + s2) / t132) / t130))
  let t146 := (t45 ^ (N 2 (0)))
  let t148 := (t146 / t130)
  let t160 := (r0 ^ (N 10833333333333333333 (-19)))
  let t161 := (r1 ^ (N 10833333333333333333 (-19)))
  let t164 := ((((((((((((((((((((p.param 8029185205360865373) * t6) + ((p.param 8029185205360865629) * t13)) + ((p.param 8029185205360865885) * t20)) + ((p.param 8029185205360866141) * t27)) + ((((p.param 8029185205360866397) * (((t32 * t30) * r0) + ((t37 * t35) * r1))) * t71) / (N 2 (0)))) + ((((p.param 8029185205360866653) * t20) * t71) / (N 2 (0)))) + ((((p.param 8029185205360866909) * t27) * t71) / (N 2 (0)))) + ((((p.param 8029185205360867165) * t91) * t71) / (N 2 (0)))) + ((((p.param 8029185205360867421) * t27) * t112) / (N 2 (0)))) + ((((p.param 8029185205360867677) * t91) * t112) / (N 2 (0)))) + ((((p.param 2055471412572381589597) * t120) * t112) / (N 2 (0)))) + (((p.param 2055471412572381589853) * t27) * t136)) + (((p.param 2055471412572381590109) * t91) * t136)) + (((p.param 2055471412572381590365) * t120) * t136)) + (((p.param 2055471412572381590621) * t6) * t148)) + (((p.param 2055471412572381590877) * t13) * t148)) + (((p.param 2055471412572381591133) * t20) * t148)) + (((p.param 2055471412572381591389) * t27) * t148)) + ((p.param 2055471412572381591645) * (t160 + t161)))
  (t164 * t47)

theorem gga_xc_th3_polExpr_eq (P : Prims) (p : Rec) (r0 r1 s0 s1 s2 : ℝ) : gga_xc_th3.pol P p (r0, r1) (some (s0, s1, s2)) none none = .ok (gga_xc_th3_polExpr P p r0 r1 s0 s1 s2) := by kernel_rfl

end
end Verif.Props
