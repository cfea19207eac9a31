import Verif.Lib.ClosedForm
import Verif.Py.KernelRfl
import Verif.Spec.Formula
import Verif.Data.F05
import Verif.Data.F09
import Verif.Data.F13
/-!
# Some shipped files as real expressions

Each definition repeats the assignments of one file under `gen_repo/impl/prebuilt/` after `post_process`; the theorem beside it states that running
the model of that file gives exactly this expression.
-/
namespace Verif.Props
open Verif.Py Verif.Model Verif.Spec Verif.Data Verif.Lib
noncomputable section
open Classical

set_option maxRecDepth 100000
set_option linter.unusedVariables false

/-- `gen_repo/impl/prebuilt/unpol/lda_k_zlp.py`. -/
def lda_k_zlp_unpolExpr (P : Prims) (p : Rec) (r0 : ℝ) : ℝ :=
  let t1 := (fn1Val P .cbrt (N 3 (0)))
  let t2 := (t1 ^ (N 2 (0)))
  let t4 := (fn1Val P .cbrt ((N 1 (0)) / Real.pi))
  let t7 := (fn1Val P .cbrt (N 4 (0)))
  let t10 := (fn1Val P .cbrt (p.fld .zetaThreshold))
  let t11 := (t10 ^ (N 2 (0)))
  let t13 := (cnd ((N 1 (0)) ≤ (p.fld .zetaThreshold)) (t11 * (p.fld .zetaThreshold)) (N 1 (0)))
  let t14 := (fn1Val P .cbrt r0)
  let t15 := (t14 ^ (N 2 (0)))
  let t20 := (fn1Val P .log ((N 1 (0)) + ((N 5102040816326530612 (-16)) / t14)))
  (((((((N 10790666666666666667 (-19)) * t2) / t4) * t7) * t13) * t15) * ((N 1 (0)) - (((N 196 (-5)) * t14) * t20)))

theorem lda_k_zlp_unpolExpr_eq (P : Prims) (p : Rec) (r0 : ℝ) : lda_k_zlp.unpol P p r0 none none none = .ok (lda_k_zlp_unpolExpr P p r0) := by kernel_rfl

/-- `gen_repo/impl/prebuilt/pol/lda_k_zlp.py`. -/
def lda_k_zlp_polExpr (P : Prims) (p : Rec) (r0 r1 : ℝ) : ℝ :=
  let t1 := (fn1Val P .cbrt (N 3 (0)))
  let t2 := (t1 ^ (N 2 (0)))
  let t4 := (fn1Val P .cbrt ((N 1 (0)) / Real.pi))
  let t7 := (fn1Val P .cbrt (N 4 (0)))
  let t10 := (r0 + r1)
  let t12 := ((r0 - r1) / t10)
  let t13 := ((N 1 (0)) + t12)
  let t15 := (fn1Val P .cbrt (p.fld .zetaThreshold))
  let t16 := (t15 ^ (N 2 (0)))
  let t17 := (t16 * (p.fld .zetaThreshold))
  let t18 := (fn1Val P .cbrt t13)
  let t19 := (t18 ^ (N 2 (0)))
  let t21 := (cnd (t13 ≤ (p.fld .zetaThreshold)) t17 (t19 * t13))
  let t22 := ((N 1 (0)) - t12)
  let t24 := (fn1Val P .cbrt t22)
  let t25 := (t24 ^ (N 2 (0)))
  let t27 := (cnd (t22 ≤ (p.fld .zetaThreshold)) t17 (t25 * t22))
  let t30 := (fn1Val P .cbrt t10)
  let t31 := (t30 ^ (N 2 (0)))
  let t36 := (fn1Val P .log ((N 1 (0)) + ((N 5102040816326530612 (-16)) / t30)))
  (((((((N 10790666666666666667 (-19)) * t2) / t4) * t7) * ((t21 / (N 2 (0))) + (t27 / (N 2 (0))))) * t31) * ((N 1 (0)) - (((N 196 (-5)) * t30) * t36)))

theorem lda_k_zlp_polExpr_eq (P : Prims) (p : Rec) (r0 r1 : ℝ) : lda_k_zlp.pol P p (r0, r1) none none none = .ok (lda_k_zlp_polExpr P p r0 r1) := by kernel_rfl

/-- `gen_repo/impl/prebuilt/pol/lda_k_tf.py`. -/
def lda_k_tf_polExpr (P : Prims) (p : Rec) (r0 r1 : ℝ) : ℝ :=
  let t2 := (r0 + r1)
  let t4 := ((r0 - r1) / t2)
  let t5 := ((N 1 (0)) + t4)
  let t7 := (fn1Val P .cbrt (p.fld .zetaThreshold))
  let t8 := (t7 ^ (N 2 (0)))
  let t9 := (t8 * (p.fld .zetaThreshold))
  let t10 := (fn1Val P .cbrt t5)
  let t11 := (t10 ^ (N 2 (0)))
  let t13 := (cnd (t5 ≤ (p.fld .zetaThreshold)) t9 (t11 * t5))
  let t14 := ((N 1 (0)) - t4)
  let t16 := (fn1Val P .cbrt t14)
  let t17 := (t16 ^ (N 2 (0)))
  let t19 := (cnd (t14 ≤ (p.fld .zetaThreshold)) t9 (t17 * t14))
  let t23 := (fn1Val P .cbrt (N 3 (0)))
  let t26 := (fn1Val P .cbrt ((N 1 (0)) / Real.pi))
  let t27 := (t26 ^ (N 2 (0)))
  let t29 := (fn1Val P .cbrt (N 4 (0)))
  let t30 := (t29 ^ (N 2 (0)))
  let t32 := (fn1Val P .cbrt t2)
  let t33 := (t32 ^ (N 2 (0)))
  (((((((p.param 24952) * ((t13 / (N 2 (0))) + (t19 / (N 2 (0))))) * t23) / t27) * t30) * t33) / (N 3 (0)))

theorem lda_k_tf_polExpr_eq (P : Prims) (p : Rec) (r0 r1 : ℝ) : lda_k_tf.pol P p (r0, r1) none none none = .ok (lda_k_tf_polExpr P p r0 r1) := by kernel_rfl

/-- `gen_repo/impl/prebuilt/pol/lda_x_2d.py`. -/
def lda_x_2d_polExpr (P : Prims) (p : Rec) (r0 r1 : ℝ) : ℝ :=
  let t1 := (fn1Val P .sqrt (N 2 (0)))
  let t2 := (fn1Val P .sqrt Real.pi)
  let t6 := (r0 + r1)
  let t8 := ((r0 - r1) / t6)
  let t9 := ((N 1 (0)) + t8)
  let t11 := (fn1Val P .sqrt (p.fld .zetaThreshold))
  let t12 := (t11 * (p.fld .zetaThreshold))
  let t13 := (fn1Val P .sqrt t9)
  let t15 := (cnd (t9 ≤ (p.fld .zetaThreshold)) t12 (t13 * t9))
  let t16 := ((N 1 (0)) - t8)
  let t18 := (fn1Val P .sqrt t16)
  let t20 := (cnd (t16 ≤ (p.fld .zetaThreshold)) t12 (t18 * t16))
  let t23 := (fn1Val P .sqrt t6)
  ((((((-(N 4 (0))) / (N 3 (0))) * t1) / t2) * ((t15 / (N 2 (0))) + (t20 / (N 2 (0))))) * t23)

theorem lda_x_2d_polExpr_eq (P : Prims) (p : Rec) (r0 r1 : ℝ) : lda_x_2d.pol P p (r0, r1) none none none = .ok (lda_x_2d_polExpr P p r0 r1) := by kernel_rfl

/-- `gen_repo/impl/prebuilt/unpol/lda_x_sloc.py`. -/
def lda_x_sloc_unpolExpr (P : Prims) (p : Rec) (r0 : ℝ) : ℝ :=
  let t1 := ((p.param 98) + (N 1 (0)))
  let t5 := (r0 ^ (p.param 98))
  let t7 := ((p.fld .zetaThreshold) ^ t1)
  let t8 := (cnd ((N 1 (0)) ≤ (p.fld .zetaThreshold)) t7 (N 1 (0)))
  ((((-(p.param 97)) / t1) * t5) * t8)

theorem lda_x_sloc_unpolExpr_eq (P : Prims) (p : Rec) (r0 : ℝ) : lda_x_sloc.unpol P p r0 none none none = .ok (lda_x_sloc_unpolExpr P p r0) := by kernel_rfl

/-- `gen_repo/impl/prebuilt/pol/lda_x_sloc.py`. -/
def lda_x_sloc_polExpr (P : Prims) (p : Rec) (r0 r1 : ℝ) : ℝ :=
  let t1 := ((p.param 98) + (N 1 (0)))
  let t5 := (r0 + r1)
  let t6 := (t5 ^ (p.param 98))
  let t9 := ((r0 - r1) / t5)
  let t10 := ((N 1 (0)) + t9)
  let t12 := ((p.fld .zetaThreshold) ^ t1)
  let t13 := (t10 ^ t1)
  let t14 := (cnd (t10 ≤ (p.fld .zetaThreshold)) t12 t13)
  let t15 := ((N 1 (0)) - t9)
  let t17 := (t15 ^ t1)
  let t18 := (cnd (t15 ≤ (p.fld .zetaThreshold)) t12 t17)
  (((((-(p.param 97)) / t1) * t6) * (t14 + t18)) / (N 2 (0)))

theorem lda_x_sloc_polExpr_eq (P : Prims) (p : Rec) (r0 r1 : ℝ) : lda_x_sloc.pol P p (r0, r1) none none none = .ok (lda_x_sloc_polExpr P p r0 r1) := by kernel_rfl

/-- `gen_repo/impl/prebuilt/unpol/lda_x_erf.py`. -/
def lda_x_erf_unpolExpr (P : Prims) (p : Rec) (r0 : ℝ) : ℝ :=
  let t1 := (fn1Val P .cbrt (N 3 (0)))
  let t3 := (fn1Val P .cbrt ((N 1 (0)) / Real.pi))
  let t5 := (fn1Val P .cbrt (N 4 (0)))
  let t6 := (t5 ^ (N 2 (0)))
  let t8 := (fn1Val P .cbrt (N 2 (0)))
  let t9 := (t8 ^ (N 2 (0)))
  let t10 := ((N 1 (0)) ≤ (p.fld .zetaThreshold))
  let t11 := (fn1Val P .cbrt (p.fld .zetaThreshold))
  let t13 := (cnd t10 (t11 * (p.fld .zetaThreshold)) (N 1 (0)))
  let t15 := (fn1Val P .cbrt r0)
  let t16 := (fn1Val P .cbrt (N 9 (0)))
  let t17 := (t16 ^ (N 2 (0)))
  let t18 := (t3 ^ (N 2 (0)))
  let t23 := (cnd t10 t11 (N 1 (0)))
  let t27 := ((((((t17 * t18) * (p.fld .camOmega)) * t1) / t15) / t23) / (N 18 (0)))
  let t29 := ((N 135 (-2)) < t27)
  let t30 := (cnd t29 t27 (N 135 (-2)))
  let t31 := (t30 ^ (N 2 (0)))
  let t34 := (t31 ^ (N 2 (0)))
  let t37 := (t34 * t31)
  let t40 := (t34 ^ (N 2 (0)))
  let t52 := (t40 ^ (N 2 (0)))
  let t56 := (cnd t29 (N 135 (-2)) t27)
  let t57 := (fn1Val P .sqrt Real.pi)
  let t60 := (fn1Val P .erf (((N 1 (0)) / t56) / (N 2 (0))))
  let t62 := (t56 ^ (N 2 (0)))
  let t65 := (fn1Val P .exp (((-(N 1 (0))) / t62) / (N 4 (0))))
  let t76 := (cnd ((N 135 (-2)) ≤ t27) ((((((((((N 1 (0)) / t31) / (N 36 (0))) - (((N 1 (0)) / t34) / (N 96 (1)))) + (((N 1 (0)) / t37) / (N 2688 (1)))) - (((N 1 (0)) / t40) / (N 82944 (1)))) + ((((N 1 (0)) / t40) / t31) / (N 2838528 (1)))) - ((((N 1 (0)) / t40) / t34) / (N 107347968 (1)))) + ((((N 1 (0)) / t40) / t37) / (N 445906944 (2)))) - (((N 1 (0)) / t52) / (N 20214448128 (2)))) ((N 1 (0)) - ((((N 8 (0)) / (N 3 (0))) * t56) * ((t57 * t60) + (((N 2 (0)) * t56) * ((t65 - ((N 3 (0)) / (N 2 (0)))) - (((N 2 (0)) * t62) * (t65 - (N 1 (0))))))))))
  (((((((((-(N 3 (0))) / (N 16 (0))) * t1) * t3) * t6) * t9) * t13) * t15) * t76)

theorem lda_x_erf_unpolExpr_eq (P : Prims) (p : Rec) (r0 : ℝ) : lda_x_erf.unpol P p r0 none none none = .ok (lda_x_erf_unpolExpr P p r0) := by kernel_rfl

/-- `gen_repo/impl/prebuilt/pol/lda_x_erf.py`. -/
def lda_x_erf_polExpr (P : Prims) (p : Rec) (r0 r1 : ℝ) : ℝ :=
  let t1 := (fn1Val P .cbrt (N 3 (0)))
  let t3 := (fn1Val P .cbrt ((N 1 (0)) / Real.pi))
  let t5 := (fn1Val P .cbrt (N 4 (0)))
  let t6 := (t5 ^ (N 2 (0)))
  let t7 := ((t1 * t3) * t6)
  let t8 := (fn1Val P .cbrt (N 2 (0)))
  let t9 := (t8 ^ (N 2 (0)))
  let t11 := (r0 + r1)
  let t13 := ((r0 - r1) / t11)
  let t14 := ((N 1 (0)) + t13)
  let t15 := (t14 ≤ (p.fld .zetaThreshold))
  let t16 := (fn1Val P .cbrt (p.fld .zetaThreshold))
  let t17 := (t16 * (p.fld .zetaThreshold))
  let t18 := (fn1Val P .cbrt t14)
  let t20 := (cnd t15 t17 (t18 * t14))
  let t22 := (fn1Val P .cbrt t11)
  let t23 := (fn1Val P .cbrt (N 9 (0)))
  let t24 := (t23 ^ (N 2 (0)))
  let t25 := (t3 ^ (N 2 (0)))
  let t27 := ((t24 * t25) * (p.fld .camOmega))
  let t29 := (t1 / t22)
  let t30 := (cnd t15 t16 t18)
  let t34 := (((t27 * t29) / t30) / (N 18 (0)))
  let t36 := ((N 135 (-2)) < t34)
  let t37 := (cnd t36 t34 (N 135 (-2)))
  let t38 := (t37 ^ (N 2 (0)))
  let t41 := (t38 ^ (N 2 (0)))
  let t44 := (t41 * t38)
  let t47 := (t41 ^ (N 2 (0)))
  let t59 := (t47 ^ (N 2 (0)))
  let t63 := (cnd t36 (N 135 (-2)) t34)
  let t64 := (fn1Val P .sqrt Real.pi)
  let t67 := (fn1Val P .erf (((N 1 (0)) / t63) / (N 2 (0))))
  let t69 := (t63 ^ (N 2 (0)))
  let t72 := (fn1Val P .exp (((-(N 1 (0))) / t69) / (N 4 (0))))
  let t83 := (cnd ((N 135 (-2)) ≤ t34) ((((((((((N 1 (0)) / t38) / (N 36 (0))) - (((N 1 (0)) / t41) / (N 96 (1)))) + (((N 1 (0)) / t44) / (N 2688 (1)))) - (((N 1 (0)) / t47) / (N 82944 (1)))) + ((((N 1 (0)) / t47) / t38) / (N 2838528 (1)))) - ((((N 1 (0)) / t47) / t41) / (N 107347968 (1)))) + ((((N 1 (0)) / t47) / t44) / (N 445906944 (2)))) - (((N 1 (0)) / t59) / (N 20214448128 (2)))) ((N 1 (0)) - ((((N 8 (0)) / (N 3 (0))) * t63) * ((t64 * t67) + (((N 2 (0)) * t63) * ((t72 - ((N 3 (0)) / (N 2 (0)))) - (((N 2 (0)) * t69) * (t72 - (N 1 (0))))))))))
  let t87 := ((N 1 (0)) - t13)
  let t88 := (t87 ≤ (p.fld .zetaThreshold))
  let t89 := (fn1Val P .cbrt t87)
  let t91 := (cnd t88 t17 (t89 * t87))
  let t93 := (cnd t88 t16 t89)
  let t97 := (((t27 * t29) / t93) / (N 18 (0)))
  let t99 := ((N 135 (-2)) < t97)
  let t100 := (cnd t99 t97 (N 135 (-2)))
  let t101 := (t100 ^ (N 2 (0)))
  let t104 := (t101 ^ (N 2 (0)))
  let t107 := (t104 * t101)
  let t110 := (t104 ^ (N 2 (0)))
  let t122 := (t110 ^ (N 2 (0)))
  let t126 := (cnd t99 (N 135 (-2)) t97)
  let t129 := (fn1Val P .erf (((N 1 (0)) / t126) / (N 2 (0))))
  let t131 := (t126 ^ (N 2 (0)))
  let t134 := (fn1Val P .exp (((-(N 1 (0))) / t131) / (N 4 (0))))
  let t145 := (cnd ((N 135 (-2)) ≤ t97) ((((((((((N 1 (0)) / t101) / (N 36 (0))) - (((N 1 (0)) / t104) / (N 96 (1)))) + (((N 1 (0)) / t107) / (N 2688 (1)))) - (((N 1 (0)) / t110) / (N 82944 (1)))) + ((((N 1 (0)) / t110) / t101) / (N 2838528 (1)))) - ((((N 1 (0)) / t110) / t104) / (N 107347968 (1)))) + ((((N 1 (0)) / t110) / t107) / (N 445906944 (2)))) - (((N 1 (0)) / t122) / (N 20214448128 (2)))) ((N 1 (0)) - ((((N 8 (0)) / (N 3 (0))) * t126) * ((t64 * t129) + (((N 2 (0)) * t126) * ((t134 - ((N 3 (0)) / (N 2 (0)))) - (((N 2 (0)) * t131) * (t134 - (N 1 (0))))))))))
  ((((((((-(N 3 (0))) / (N 32 (0))) * t7) * t9) * t91) * t22) * t145) - (((((((N 3 (0)) / (N 32 (0))) * t7) * t9) * t20) * t22) * t83))

theorem lda_x_erf_polExpr_eq (P : Prims) (p : Rec) (r0 r1 : ℝ) : lda_x_erf.pol P p (r0, r1) none none none = .ok (lda_x_erf_polExpr P p r0 r1) := by kernel_rfl

/-- `gen_repo/impl/prebuilt/unpol/lda_x_yukawa.py`. -/
def lda_x_yukawa_unpolExpr (P : Prims) (p : Rec) (r0 : ℝ) : ℝ :=
  let t1 := (fn1Val P .cbrt (N 3 (0)))
  let t3 := (fn1Val P .cbrt ((N 1 (0)) / Real.pi))
  let t5 := (fn1Val P .cbrt (N 4 (0)))
  let t6 := (t5 ^ (N 2 (0)))
  let t8 := (fn1Val P .cbrt (N 2 (0)))
  let t9 := (t8 ^ (N 2 (0)))
  let t10 := ((N 1 (0)) ≤ (p.fld .zetaThreshold))
  let t11 := (fn1Val P .cbrt (p.fld .zetaThreshold))
  let t13 := (cnd t10 (t11 * (p.fld .zetaThreshold)) (N 1 (0)))
  let t15 := (fn1Val P .cbrt r0)
  let t16 := (fn1Val P .cbrt (N 9 (0)))
  let t17 := (t16 ^ (N 2 (0)))
  let t18 := (t3 ^ (N 2 (0)))
  let t23 := (cnd t10 t11 (N 1 (0)))
  let t27 := ((((((t17 * t18) * (p.fld .camOmega)) * t1) / t15) / t23) / (N 18 (0)))
  let t29 := ((N 192 (-2)) < t27)
  let t30 := (cnd t29 t27 (N 192 (-2)))
  let t31 := (t30 ^ (N 2 (0)))
  let t34 := (t31 ^ (N 2 (0)))
  let t37 := (t34 * t31)
  let t40 := (t34 ^ (N 2 (0)))
  let t43 := (t40 * t31)
  let t46 := (t40 * t34)
  let t49 := (t40 * t37)
  let t52 := (t40 ^ (N 2 (0)))
  let t76 := (t52 ^ (N 2 (0)))
  let t85 := ((((((((((((((((((((N 1 (0)) / t31) / (N 9 (0))) - (((N 1 (0)) / t34) / (N 3 (1)))) + (((N 1 (0)) / t37) / (N 7 (1)))) - (((N 1 (0)) / t40) / (N 135 (0)))) + (((N 1 (0)) / t43) / (N 231 (0)))) - (((N 1 (0)) / t46) / (N 364 (0)))) + (((N 1 (0)) / t49) / (N 54 (1)))) - (((N 1 (0)) / t52) / (N 765 (0)))) + ((((N 1 (0)) / t52) / t31) / (N 1045 (0)))) - ((((N 1 (0)) / t52) / t34) / (N 1386 (0)))) + ((((N 1 (0)) / t52) / t37) / (N 1794 (0)))) - ((((N 1 (0)) / t52) / t40) / (N 2275 (0)))) + ((((N 1 (0)) / t52) / t43) / (N 2835 (0)))) - ((((N 1 (0)) / t52) / t46) / (N 348 (1)))) + ((((N 1 (0)) / t52) / t49) / (N 4216 (0)))) - (((N 1 (0)) / t76) / (N 5049 (0)))) + ((((N 1 (0)) / t76) / t31) / (N 5985 (0)))) - ((((N 1 (0)) / t76) / t34) / (N 703 (1))))
  let t86 := (cnd t29 (N 192 (-2)) t27)
  let t87 := (fn2Val P .arctan2 (N 1 (0)) t86)
  let t88 := (t86 ^ (N 2 (0)))
  let t92 := (fn1Val P .log ((N 1 (0)) + ((N 1 (0)) / t88)))
  let t101 := (cnd ((N 192 (-2)) ≤ t27) t85 ((N 1 (0)) - ((((N 8 (0)) / (N 3 (0))) * t86) * (t87 + ((t86 * ((N 1 (0)) - ((t88 + (N 3 (0))) * t92))) / (N 4 (0)))))))
  (((((((((-(N 3 (0))) / (N 16 (0))) * t1) * t3) * t6) * t9) * t13) * t15) * t101)

theorem lda_x_yukawa_unpolExpr_eq (P : Prims) (p : Rec) (r0 : ℝ) : lda_x_yukawa.unpol P p r0 none none none = .ok (lda_x_yukawa_unpolExpr P p r0) := by kernel_rfl

/-- `gen_repo/impl/prebuilt/pol/lda_x_yukawa.py`. -/
def lda_x_yukawa_polExpr (P : Prims) (p : Rec) (r0 r1 : ℝ) : ℝ :=
  let t1 := (fn1Val P .cbrt (N 3 (0)))
  let t3 := (fn1Val P .cbrt ((N 1 (0)) / Real.pi))
  let t5 := (fn1Val P .cbrt (N 4 (0)))
  let t6 := (t5 ^ (N 2 (0)))
  let t7 := ((t1 * t3) * t6)
  let t8 := (fn1Val P .cbrt (N 2 (0)))
  let t9 := (t8 ^ (N 2 (0)))
  let t11 := (r0 + r1)
  let t13 := ((r0 - r1) / t11)
  let t14 := ((N 1 (0)) + t13)
  let t15 := (t14 ≤ (p.fld .zetaThreshold))
  let t16 := (fn1Val P .cbrt (p.fld .zetaThreshold))
  let t17 := (t16 * (p.fld .zetaThreshold))
  let t18 := (fn1Val P .cbrt t14)
  let t20 := (cnd t15 t17 (t18 * t14))
  let t22 := (fn1Val P .cbrt t11)
  let t23 := (fn1Val P .cbrt (N 9 (0)))
  let t24 := (t23 ^ (N 2 (0)))
  let t25 := (t3 ^ (N 2 (0)))
  let t27 := ((t24 * t25) * (p.fld .camOmega))
  let t29 := (t1 / t22)
  let t30 := (cnd t15 t16 t18)
  let t34 := (((t27 * t29) / t30) / (N 18 (0)))
  let t36 := ((N 192 (-2)) < t34)
  let t37 := (cnd t36 t34 (N 192 (-2)))
  let t38 := (t37 ^ (N 2 (0)))
  let t41 := (t38 ^ (N 2 (0)))
  let t44 := (t41 * t38)
  let t47 := (t41 ^ (N 2 (0)))
  let t50 := (t47 * t38)
  let t53 := (t47 * t41)
  let t56 := (t47 * t44)
  let t59 := (t47 ^ (N 2 (0)))
  let t83 := (t59 ^ (N 2 (0)))
  let t92 := ((((((((((((((((((((N 1 (0)) / t38) / (N 9 (0))) - (((N 1 (0)) / t41) / (N 3 (1)))) + (((N 1 (0)) / t44) / (N 7 (1)))) - (((N 1 (0)) / t47) / (N 135 (0)))) + (((N 1 (0)) / t50) / (N 231 (0)))) - (((N 1 (0)) / t53) / (N 364 (0)))) + (((N 1 (0)) / t56) / (N 54 (1)))) - (((N 1 (0)) / t59) / (N 765 (0)))) + ((((N 1 (0)) / t59) / t38) / (N 1045 (0)))) - ((((N 1 (0)) / t59) / t41) / (N 1386 (0)))) + ((((N 1 (0)) / t59) / t44) / (N 1794 (0)))) - ((((N 1 (0)) / t59) / t47) / (N 2275 (0)))) + ((((N 1 (0)) / t59) / t50) / (N 2835 (0)))) - ((((N 1 (0)) / t59) / t53) / (N 348 (1)))) + ((((N 1 (0)) / t59) / t56) / (N 4216 (0)))) - (((N 1 (0)) / t83) / (N 5049 (0)))) + ((((N 1 (0)) / t83) / t38) / (N 5985 (0)))) - ((((N 1 (0)) / t83) / t41) / (N 703 (1))))
  let t93 := (cnd t36 (N 192 (-2)) t34)
  let t94 := (fn2Val P .arctan2 (N 1 (0)) t93)
  let t95 := (t93 ^ (N 2 (0)))
  let t99 := (fn1Val P .log ((N 1 (0)) + ((N 1 (0)) / t95)))
  let t108 := (cnd ((N 192 (-2)) ≤ t34) t92 ((N 1 (0)) - ((((N 8 (0)) / (N 3 (0))) * t93) * (t94 + ((t93 * ((N 1 (0)) - ((t95 + (N 3 (0))) * t99))) / (N 4 (0)))))))
  let t112 := ((N 1 (0)) - t13)
  let t113 := (t112 ≤ (p.fld .zetaThreshold))
  let t114 := (fn1Val P .cbrt t112)
  let t116 := (cnd t113 t17 (t114 * t112))
  let t118 := (cnd t113 t16 t114)
  let t122 := (((t27 * t29) / t118) / (N 18 (0)))
  let t124 := ((N 192 (-2)) < t122)
  let t125 := (cnd t124 t122 (N 192 (-2)))
  let t126 := (t125 ^ (N 2 (0)))
  let t129 := (t126 ^ (N 2 (0)))
  let t132 := (t129 * t126)
  let t135 := (t129 ^ (N 2 (0)))
  let t138 := (t135 * t126)
  let t141 := (t135 * t129)
  let t144 := (t135 * t132)
  let t147 := (t135 ^ (N 2 (0)))
  let t171 := (t147 ^ (N 2 (0)))
  let t180 := ((((((((((((((((((((N 1 (0)) / t126) / (N 9 (0))) - (((N 1 (0)) / t129) / (N 3 (1)))) + (((N 1 (0)) / t132) / (N 7 (1)))) - (((N 1 (0)) / t135) / (N 135 (0)))) + (((N 1 (0)) / t138) / (N 231 (0)))) - (((N 1 (0)) / t141) / (N 364 (0)))) + (((N 1 (0)) / t144) / (N 54 (1)))) - (((N 1 (0)) / t147) / (N 765 (0)))) + ((((N 1 (0)) / t147) / t126) / (N 1045 (0)))) - ((((N 1 (0)) / t147) / t129) / (N 1386 (0)))) + ((((N 1 (0)) / t147) / t132) / (N 1794 (0)))) - ((((N 1 (0)) / t147) / t135) / (N 2275 (0)))) + ((((N 1 (0)) / t147) / t138) / (N 2835 (0)))) - ((((N 1 (0)) / t147) / t141) / (N 348 (1)))) + ((((N 1 (0)) / t147) / t144) / (N 4216 (0)))) - (((N 1 (0)) / t171) / (N 5049 (0)))) + ((((N 1 (0)) / t171) / t126) / (N 5985 (0)))) - ((((N 1 (0)) / t171) / t129) / (N 703 (1))))
  let t181 := (cnd t124 (N 192 (-2)) t122)
  let t182 := (fn2Val P .arctan2 (N 1 (0)) t181)
  let t183 := (t181 ^ (N 2 (0)))
  let t187 := (fn1Val P .log ((N 1 (0)) + ((N 1 (0)) / t183)))
  let t196 := (cnd ((N 192 (-2)) ≤ t122) t180 ((N 1 (0)) - ((((N 8 (0)) / (N 3 (0))) * t181) * (t182 + ((t181 * ((N 1 (0)) - ((t183 + (N 3 (0))) * t187))) / (N 4 (0)))))))
  ((((((((-(N 3 (0))) / (N 32 (0))) * t7) * t9) * t20) * t22) * t108) - (((((((N 3 (0)) / (N 32 (0))) * t7) * t9) * t116) * t22) * t196))

theorem lda_x_yukawa_polExpr_eq (P : Prims) (p : Rec) (r0 r1 : ℝ) : lda_x_yukawa.pol P p (r0, r1) none none none = .ok (lda_x_yukawa_polExpr P p r0 r1) := by kernel_rfl

/-- `gen_repo/impl/prebuilt/unpol/gga_x_lb.py`. -/
def gga_x_lb_unpolExpr (P : Prims) (p : Rec) (r0 s0 : ℝ) : ℝ :=
  let t1 := (fn1Val P .cbrt (N 3 (0)))
  let t4 := (fn1Val P .cbrt ((N 1 (0)) / Real.pi))
  let t5 := (fn1Val P .cbrt (N 4 (0)))
  let t6 := (t5 ^ (N 2 (0)))
  let t10 := (fn1Val P .sqrt s0)
  let t11 := (fn1Val P .cbrt (N 2 (0)))
  let t12 := (t10 * t11)
  let t13 := (fn1Val P .cbrt r0)
  let t15 := (((N 1 (0)) / t13) / r0)
  let t19 := (t11 ^ (N 2 (0)))
  let t20 := (r0 ^ (N 2 (0)))
  let t21 := (t13 ^ (N 2 (0)))
  let t26 := (t11 * t15)
  let t28 := (((p.param 444016192865) * t10) * t26)
  let t29 := (fn1Val P .arcsinh t28)
  let t38 := (fn1Val P .log ((N 2 (0)) * t28))
  let t43 := (cnd ((t12 * t15) < (N 3 (2))) ((((((p.param 1650816097) * s0) * t19) / t21) / t20) / ((((((N 3 (0)) * (p.param 1650816097)) * t10) * t26) * t29) + (N 1 (0)))) (((t12 * t15) / t38) / (N 3 (0))))
  (((((((((-(p.param 418431133793)) * t1) * t4) * t6) / (N 2 (0))) - t43) * t19) * t13) / (N 2 (0)))

theorem gga_x_lb_unpolExpr_eq (P : Prims) (p : Rec) (r0 s0 : ℝ) : gga_x_lb.unpol P p r0 (some s0) none none = .ok (gga_x_lb_unpolExpr P p r0 s0) := by kernel_rfl

/-- `gen_repo/impl/prebuilt/unpol/mgga_x_2d_prp10.py`. -/
def mgga_x_2d_prp10_unpolExpr (P : Prims) (p : Rec) (r0 s0 l0 tau0 : ℝ) : ℝ :=
  let t1 := (r0 ^ (N 2 (0)))
  let t2 := ((N 1 (0)) / t1)
  let t6 := (((N 2 (0)) * tau0) * t2)
  let t10 := (((s0 / t1) / r0) / (N 4 (0)))
  let t12 := ((N 1 (0)) / Real.pi)
  let t13 := (((((l0 * t2) / (N 2 (0))) - t6) + t10) * t12)
  let t15 := (cnd ((-(N 9999999999 (-10))) < t13) t13 (-(N 9999999999 (-10))))
  let t16 := (fn1Val P .exp (-(N 1 (0))))
  let t18 := (fn1Val P .lambertw (t15 * t16))
  let t21 := (fn1Val P .i0 ((t18 / (N 2 (0))) + ((N 1 (0)) / (N 2 (0)))))
  let t23 := (t6 - t10)
  let t25 := (cnd ((N 1 (-10)) < t23) t23 (N 1 (-10)))
  let t26 := (fn1Val P .sqrt t25)
  let t30 := (fn1Val P .sqrt (N 2 (0)))
  let t32 := (fn1Val P .sqrt r0)
  ((((-((Real.pi * t21) - ((((N 4 (0)) / (N 3 (0))) * t12) * t26))) * t30) * t32) / (N 2 (0)))

theorem mgga_x_2d_prp10_unpolExpr_eq (P : Prims) (p : Rec) (r0 s0 l0 tau0 : ℝ) : mgga_x_2d_prp10.unpol P p r0 (some s0) (some l0) (some tau0) = .ok (mgga_x_2d_prp10_unpolExpr P p r0 s0 l0 tau0) := by kernel_rfl

end
end Verif.Props
