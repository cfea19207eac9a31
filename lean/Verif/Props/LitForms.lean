import Verif.Lib.ClosedForm
import Verif.Py.KernelRfl
import Verif.Spec.Formula
import Verif.Data.F01
import Verif.Data.F05
import Verif.Data.F09
/-!
# Some shipped files as real expressions

Each definition repeats the assignments of one file under `gen_repo/impl/prebuilt/` after `post_process`; the theorem beside it states that running
the model of that file gives exactly this expression.
-/
namespace Verif.Props
open Verif.Py Verif.Model Verif.Spec Verif.Data Verif.Lib
noncomputable section
open Classical

set_option maxRecDepth 100000
set_option linter.unusedVariables false

/-- `gen_repo/impl/prebuilt/unpol/lda_x.py`. -/
def lda_x_unpolExpr (P : Prims) (p : Rec) (r0 : ℝ) : ℝ :=
  let t3 := (fn1Val P .cbrt (N 3 (0)))
  let t4 := (fn1Val P .cbrt Real.pi)
  let t8 := (fn1Val P .cbrt (p.fld .zetaThreshold))
  let t10 := (cnd ((N 1 (0)) ≤ (p.fld .zetaThreshold)) (t8 * (p.fld .zetaThreshold)) (N 1 (0)))
  let t11 := (fn1Val P .cbrt r0)
  let t15 := (cnd ((r0 / (N 2 (0))) ≤ (p.fld .densThreshold)) (N 0 (0)) ((((((-(N 3 (0))) / (N 8 (0))) * t3) / t4) * t10) * t11))
  (((N 2 (0)) * (p.param 418431133793)) * t15)

theorem lda_x_unpolExpr_eq (P : Prims) (p : Rec) (r0 : ℝ) : lda_x.unpol P p r0 none none none = .ok (lda_x_unpolExpr P p r0) := by kernel_rfl

/-- `gen_repo/impl/prebuilt/pol/lda_x.py`. -/
def lda_x_polExpr (P : Prims) (p : Rec) (r0 r1 : ℝ) : ℝ :=
  let t2 := (fn1Val P .cbrt (N 3 (0)))
  let t3 := (fn1Val P .cbrt Real.pi)
  let t5 := (t2 / t3)
  let t6 := (r0 + r1)
  let t7 := ((N 1 (0)) / t6)
  let t8 := (r0 * t7)
  let t11 := (fn1Val P .cbrt (p.fld .zetaThreshold))
  let t12 := (t11 * (p.fld .zetaThreshold))
  let t13 := (fn1Val P .cbrt (N 2 (0)))
  let t15 := (fn1Val P .cbrt t8)
  let t19 := (cnd (((N 2 (0)) * t8) ≤ (p.fld .zetaThreshold)) t12 (((((N 2 (0)) * t13) * r0) * t7) * t15))
  let t20 := (fn1Val P .cbrt t6)
  let t24 := (cnd (r0 ≤ (p.fld .densThreshold)) (N 0 (0)) (((((-(N 3 (0))) / (N 8 (0))) * t5) * t19) * t20))
  let t27 := (r1 * t7)
  let t31 := (fn1Val P .cbrt t27)
  let t35 := (cnd (((N 2 (0)) * t27) ≤ (p.fld .zetaThreshold)) t12 (((((N 2 (0)) * t13) * r1) * t7) * t31))
  let t39 := (cnd (r1 ≤ (p.fld .densThreshold)) (N 0 (0)) (((((-(N 3 (0))) / (N 8 (0))) * t5) * t35) * t20))
  (((p.param 418431133793) * t24) + ((p.param 418431133793) * t39))

theorem lda_x_polExpr_eq (P : Prims) (p : Rec) (r0 r1 : ℝ) : lda_x.pol P p (r0, r1) none none none = .ok (lda_x_polExpr P p r0 r1) := by kernel_rfl

/-- `gen_repo/impl/prebuilt/unpol/gga_x_pbe.py`. -/
def gga_x_pbe_unpolExpr (P : Prims) (p : Rec) (r0 s0 : ℝ) : ℝ :=
  let t3 := (fn1Val P .cbrt (N 3 (0)))
  let t4 := (fn1Val P .cbrt Real.pi)
  let t7 := ((N 1 (0)) ≤ (p.fld .zetaThreshold))
  let t8 := ((p.fld .zetaThreshold) - (N 1 (0)))
  let t10 := (cnd t7 (-t8) (N 0 (0)))
  let t11 := (cnd t7 t8 t10)
  let t12 := ((N 1 (0)) + t11)
  let t14 := (fn1Val P .cbrt (p.fld .zetaThreshold))
  let t16 := (fn1Val P .cbrt t12)
  let t18 := (cnd (t12 ≤ (p.fld .zetaThreshold)) (t14 * (p.fld .zetaThreshold)) (t16 * t12))
  let t19 := (fn1Val P .cbrt r0)
  let t21 := (fn1Val P .cbrt (N 6 (0)))
  let t23 := (Real.pi ^ (N 2 (0)))
  let t24 := (fn1Val P .cbrt t23)
  let t25 := (t24 ^ (N 2 (0)))
  let t28 := (fn1Val P .cbrt (N 2 (0)))
  let t29 := (t28 ^ (N 2 (0)))
  let t31 := (r0 ^ (N 2 (0)))
  let t32 := (t19 ^ (N 2 (0)))
  let t47 := (cnd ((r0 / (N 2 (0))) ≤ (p.fld .densThreshold)) (N 0 (0)) (((((((-(N 3 (0))) / (N 8 (0))) * t3) / t4) * t18) * t19) * ((N 1 (0)) + ((p.param 461196259425) * ((N 1 (0)) - ((p.param 461196259425) / ((p.param 461196259425) + ((((((((p.param 28021) * t21) / t25) * s0) * t29) / t32) / t31) / (N 24 (0))))))))))
  ((N 2 (0)) * t47)

theorem gga_x_pbe_unpolExpr_eq (P : Prims) (p : Rec) (r0 s0 : ℝ) : gga_x_pbe.unpol P p r0 (some s0) none none = .ok (gga_x_pbe_unpolExpr P p r0 s0) := by kernel_rfl

/-- `gen_repo/impl/prebuilt/pol/gga_x_pbe.py`. -/
def gga_x_pbe_polExpr (P : Prims) (p : Rec) (r0 r1 s0 s1 s2 : ℝ) : ℝ :=
  let t2 := (fn1Val P .cbrt (N 3 (0)))
  let t3 := (fn1Val P .cbrt Real.pi)
  let t5 := (t2 / t3)
  let t6 := (r0 + r1)
  let t7 := ((N 1 (0)) / t6)
  let t10 := ((((N 2 (0)) * r0) * t7) ≤ (p.fld .zetaThreshold))
  let t11 := ((p.fld .zetaThreshold) - (N 1 (0)))
  let t14 := ((((N 2 (0)) * r1) * t7) ≤ (p.fld .zetaThreshold))
  let t15 := (-t11)
  let t17 := ((r0 - r1) * t7)
  let t18 := (cnd t14 t15 t17)
  let t19 := (cnd t10 t11 t18)
  let t20 := ((N 1 (0)) + t19)
  let t22 := (fn1Val P .cbrt (p.fld .zetaThreshold))
  let t23 := (t22 * (p.fld .zetaThreshold))
  let t24 := (fn1Val P .cbrt t20)
  let t26 := (cnd (t20 ≤ (p.fld .zetaThreshold)) t23 (t24 * t20))
  let t27 := (fn1Val P .cbrt t6)
  let t29 := (fn1Val P .cbrt (N 6 (0)))
  let t30 := ((p.param 28021) * t29)
  let t31 := (Real.pi ^ (N 2 (0)))
  let t32 := (fn1Val P .cbrt t31)
  let t33 := (t32 ^ (N 2 (0)))
  let t34 := ((N 1 (0)) / t33)
  let t36 := (r0 ^ (N 2 (0)))
  let t37 := (fn1Val P .cbrt r0)
  let t38 := (t37 ^ (N 2 (0)))
  let t53 := (cnd (r0 ≤ (p.fld .densThreshold)) (N 0 (0)) ((((((-(N 3 (0))) / (N 8 (0))) * t5) * t26) * t27) * ((N 1 (0)) + ((p.param 461196259425) * ((N 1 (0)) - ((p.param 461196259425) / ((p.param 461196259425) + (((((t30 * t34) * s0) / t38) / t36) / (N 24 (0))))))))))
  let t55 := (cnd t10 t15 (-t17))
  let t56 := (cnd t14 t11 t55)
  let t57 := ((N 1 (0)) + t56)
  let t59 := (fn1Val P .cbrt t57)
  let t61 := (cnd (t57 ≤ (p.fld .zetaThreshold)) t23 (t59 * t57))
  let t64 := (r1 ^ (N 2 (0)))
  let t65 := (fn1Val P .cbrt r1)
  let t66 := (t65 ^ (N 2 (0)))
  let t81 := (cnd (r1 ≤ (p.fld .densThreshold)) (N 0 (0)) ((((((-(N 3 (0))) / (N 8 (0))) * t5) * t61) * t27) * ((N 1 (0)) + ((p.param 461196259425) * ((N 1 (0)) - ((p.param 461196259425) / ((p.param 461196259425) + (((((t30 * t34) * s2) / t66) / t64) / (N 24 (0))))))))))
  (t53 + t81)

theorem gga_x_pbe_polExpr_eq (P : Prims) (p : Rec) (r0 r1 s0 s1 s2 : ℝ) : gga_x_pbe.pol P p (r0, r1) (some (s0, s1, s2)) none none = .ok (gga_x_pbe_polExpr P p r0 r1 s0 s1 s2) := by kernel_rfl

/-- `gen_repo/impl/prebuilt/unpol/gga_x_rpbe.py`. -/
def gga_x_rpbe_unpolExpr (P : Prims) (p : Rec) (r0 s0 : ℝ) : ℝ :=
  let t3 := (fn1Val P .cbrt (N 3 (0)))
  let t4 := (fn1Val P .cbrt Real.pi)
  let t7 := ((N 1 (0)) ≤ (p.fld .zetaThreshold))
  let t8 := ((p.fld .zetaThreshold) - (N 1 (0)))
  let t10 := (cnd t7 (-t8) (N 0 (0)))
  let t11 := (cnd t7 t8 t10)
  let t12 := ((N 1 (0)) + t11)
  let t14 := (fn1Val P .cbrt (p.fld .zetaThreshold))
  let t16 := (fn1Val P .cbrt t12)
  let t18 := (cnd (t12 ≤ (p.fld .zetaThreshold)) (t14 * (p.fld .zetaThreshold)) (t16 * t12))
  let t19 := (fn1Val P .cbrt r0)
  let t21 := (fn1Val P .cbrt (N 6 (0)))
  let t23 := (Real.pi ^ (N 2 (0)))
  let t24 := (fn1Val P .cbrt t23)
  let t25 := (t24 ^ (N 2 (0)))
  let t28 := (fn1Val P .cbrt (N 2 (0)))
  let t29 := (t28 ^ (N 2 (0)))
  let t31 := (r0 ^ (N 2 (0)))
  let t32 := (t19 ^ (N 2 (0)))
  let t40 := (fn1Val P .exp (((((((((-(p.param 32211715254873461)) * t21) / t25) * s0) * t29) / t32) / t31) / (p.param 540422904561498189754465)) / (N 24 (0))))
  let t47 := (cnd ((r0 / (N 2 (0))) ≤ (p.fld .densThreshold)) (N 0 (0)) (((((((-(N 3 (0))) / (N 8 (0))) * t3) / t4) * t18) * t19) * ((N 1 (0)) + ((p.param 540422904561498189754465) * ((N 1 (0)) - t40)))))
  ((N 2 (0)) * t47)

theorem gga_x_rpbe_unpolExpr_eq (P : Prims) (p : Rec) (r0 s0 : ℝ) : gga_x_rpbe.unpol P p r0 (some s0) none none = .ok (gga_x_rpbe_unpolExpr P p r0 s0) := by kernel_rfl

/-- `gen_repo/impl/prebuilt/unpol/gga_x_b88.py`. -/
def gga_x_b88_unpolExpr (P : Prims) (p : Rec) (r0 s0 : ℝ) : ℝ :=
  let t3 := (fn1Val P .cbrt (N 3 (0)))
  let t4 := (fn1Val P .cbrt Real.pi)
  let t7 := ((N 1 (0)) ≤ (p.fld .zetaThreshold))
  let t8 := ((p.fld .zetaThreshold) - (N 1 (0)))
  let t10 := (cnd t7 (-t8) (N 0 (0)))
  let t11 := (cnd t7 t8 t10)
  let t12 := ((N 1 (0)) + t11)
  let t14 := (fn1Val P .cbrt (p.fld .zetaThreshold))
  let t16 := (fn1Val P .cbrt t12)
  let t18 := (cnd (t12 ≤ (p.fld .zetaThreshold)) (t14 * (p.fld .zetaThreshold)) (t16 * t12))
  let t19 := (fn1Val P .cbrt r0)
  let t21 := (t3 ^ (N 2 (0)))
  let t24 := (fn1Val P .cbrt ((N 1 (0)) / Real.pi))
  let t26 := (fn1Val P .cbrt (N 4 (0)))
  let t29 := (fn1Val P .cbrt (N 2 (0)))
  let t30 := (t29 ^ (N 2 (0)))
  let t32 := (r0 ^ (N 2 (0)))
  let t33 := (t19 ^ (N 2 (0)))
  let t37 := (fn1Val P .sqrt s0)
  let t40 := (((N 1 (0)) / t19) / r0)
  let t44 := (fn1Val P .arcsinh ((t37 * t29) * t40))
  let t57 := (cnd ((r0 / (N 2 (0))) ≤ (p.fld .densThreshold)) (N 0 (0)) (((((((-(N 3 (0))) / (N 8 (0))) * t3) / t4) * t18) * t19) * ((N 1 (0)) + (((((((((((N 2 (0)) / (N 9 (0))) * (p.param 1650816097)) * t21) / t24) * t26) * s0) * t30) / t33) / t32) / (((((((p.param 444016192865) * (p.param 1650816097)) * t37) * t29) * t40) * t44) + (N 1 (0)))))))
  ((N 2 (0)) * t57)

theorem gga_x_b88_unpolExpr_eq (P : Prims) (p : Rec) (r0 s0 : ℝ) : gga_x_b88.unpol P p r0 (some s0) none none = .ok (gga_x_b88_unpolExpr P p r0 s0) := by kernel_rfl

/-- `gen_repo/impl/prebuilt/unpol/gga_x_b86.py`. -/
def gga_x_b86_unpolExpr (P : Prims) (p : Rec) (r0 s0 : ℝ) : ℝ :=
  let t3 := (fn1Val P .cbrt (N 3 (0)))
  let t4 := (fn1Val P .cbrt Real.pi)
  let t7 := ((N 1 (0)) ≤ (p.fld .zetaThreshold))
  let t8 := ((p.fld .zetaThreshold) - (N 1 (0)))
  let t10 := (cnd t7 (-t8) (N 0 (0)))
  let t11 := (cnd t7 t8 t10)
  let t12 := ((N 1 (0)) + t11)
  let t14 := (fn1Val P .cbrt (p.fld .zetaThreshold))
  let t16 := (fn1Val P .cbrt t12)
  let t18 := (cnd (t12 ≤ (p.fld .zetaThreshold)) (t14 * (p.fld .zetaThreshold)) (t16 * t12))
  let t19 := (fn1Val P .cbrt r0)
  let t22 := (fn1Val P .cbrt (N 2 (0)))
  let t23 := (t22 ^ (N 2 (0)))
  let t24 := (r0 ^ (N 2 (0)))
  let t25 := (t19 ^ (N 2 (0)))
  let t28 := ((t23 / t25) / t24)
  let t32 := (((((p.param 444016192865) * s0) * t28) + (N 1 (0))) ^ (p.param 478576732001))
  let t40 := (cnd ((r0 / (N 2 (0))) ≤ (p.fld .densThreshold)) (N 0 (0)) (((((((-(N 3 (0))) / (N 8 (0))) * t3) / t4) * t18) * t19) * ((N 1 (0)) + ((((p.param 1650816097) * s0) * t28) / t32))))
  ((N 2 (0)) * t40)

theorem gga_x_b86_unpolExpr_eq (P : Prims) (p : Rec) (r0 s0 : ℝ) : gga_x_b86.unpol P p r0 (some s0) none none = .ok (gga_x_b86_unpolExpr P p r0 s0) := by kernel_rfl

/-- `gen_repo/impl/prebuilt/unpol/gga_x_g96.py`. -/
def gga_x_g96_unpolExpr (P : Prims) (p : Rec) (r0 s0 : ℝ) : ℝ :=
  let t3 := (fn1Val P .cbrt (N 3 (0)))
  let t4 := (fn1Val P .cbrt Real.pi)
  let t7 := ((N 1 (0)) ≤ (p.fld .zetaThreshold))
  let t8 := ((p.fld .zetaThreshold) - (N 1 (0)))
  let t10 := (cnd t7 (-t8) (N 0 (0)))
  let t11 := (cnd t7 t8 t10)
  let t12 := ((N 1 (0)) + t11)
  let t14 := (fn1Val P .cbrt (p.fld .zetaThreshold))
  let t16 := (fn1Val P .cbrt t12)
  let t18 := (cnd (t12 ≤ (p.fld .zetaThreshold)) (t14 * (p.fld .zetaThreshold)) (t16 * t12))
  let t19 := (fn1Val P .cbrt r0)
  let t21 := (t3 ^ (N 2 (0)))
  let t23 := (fn1Val P .cbrt ((N 1 (0)) / Real.pi))
  let t26 := (fn1Val P .cbrt (N 4 (0)))
  let t27 := (fn1Val P .sqrt s0)
  let t28 := (fn1Val P .cbrt (N 2 (0)))
  let t32 := (((t27 * t28) / t19) / r0)
  let t33 := (fn1Val P .sqrt t32)
  let t42 := (cnd ((r0 / (N 2 (0))) ≤ (p.fld .densThreshold)) (N 0 (0)) (((((((-(N 3 (0))) / (N 8 (0))) * t3) / t4) * t18) * t19) * ((N 1 (0)) + (((((((N 2 (0)) / (N 1233 (0))) * t21) / t23) * t26) * t33) * t32))))
  ((N 2 (0)) * t42)

theorem gga_x_g96_unpolExpr_eq (P : Prims) (p : Rec) (r0 s0 : ℝ) : gga_x_g96.unpol P p r0 (some s0) none none = .ok (gga_x_g96_unpolExpr P p r0 s0) := by kernel_rfl

/-- `gen_repo/impl/prebuilt/unpol/gga_x_optx.py`. -/
def gga_x_optx_unpolExpr (P : Prims) (p : Rec) (r0 s0 : ℝ) : ℝ :=
  let t3 := (fn1Val P .cbrt (N 3 (0)))
  let t4 := (fn1Val P .cbrt Real.pi)
  let t7 := ((N 1 (0)) ≤ (p.fld .zetaThreshold))
  let t8 := ((p.fld .zetaThreshold) - (N 1 (0)))
  let t10 := (cnd t7 (-t8) (N 0 (0)))
  let t11 := (cnd t7 t8 t10)
  let t12 := ((N 1 (0)) + t11)
  let t14 := (fn1Val P .cbrt (p.fld .zetaThreshold))
  let t16 := (fn1Val P .cbrt t12)
  let t18 := (cnd (t12 ≤ (p.fld .zetaThreshold)) (t14 * (p.fld .zetaThreshold)) (t16 * t12))
  let t19 := (fn1Val P .cbrt r0)
  let t21 := ((p.param 444016192865) ^ (N 2 (0)))
  let t23 := (s0 ^ (N 2 (0)))
  let t25 := (fn1Val P .cbrt (N 2 (0)))
  let t26 := (r0 ^ (N 2 (0)))
  let t27 := (t26 ^ (N 2 (0)))
  let t33 := (t25 ^ (N 2 (0)))
  let t34 := (t19 ^ (N 2 (0)))
  let t40 := (((N 1 (0)) + (((((p.param 444016192865) * s0) * t33) / t34) / t26)) ^ (N 2 (0)))
  let t49 := (cnd ((r0 / (N 2 (0))) ≤ (p.fld .densThreshold)) (N 0 (0)) (((((((-(N 3 (0))) / (N 8 (0))) * t3) / t4) * t18) * t19) * ((p.param 97) + (((((((((N 2 (0)) * (p.param 98)) * t21) * t23) * t25) / t19) / t27) / r0) / t40))))
  ((N 2 (0)) * t49)

theorem gga_x_optx_unpolExpr_eq (P : Prims) (p : Rec) (r0 s0 : ℝ) : gga_x_optx.unpol P p r0 (some s0) none none = .ok (gga_x_optx_unpolExpr P p r0 s0) := by kernel_rfl

/-- `gen_repo/impl/prebuilt/unpol/gga_x_pw86.py`. -/
def gga_x_pw86_unpolExpr (P : Prims) (p : Rec) (r0 s0 : ℝ) : ℝ :=
  let t3 := (fn1Val P .cbrt (N 3 (0)))
  let t4 := (fn1Val P .cbrt Real.pi)
  let t7 := ((N 1 (0)) ≤ (p.fld .zetaThreshold))
  let t8 := ((p.fld .zetaThreshold) - (N 1 (0)))
  let t10 := (cnd t7 (-t8) (N 0 (0)))
  let t11 := (cnd t7 t8 t10)
  let t12 := ((N 1 (0)) + t11)
  let t14 := (fn1Val P .cbrt (p.fld .zetaThreshold))
  let t16 := (fn1Val P .cbrt t12)
  let t18 := (cnd (t12 ≤ (p.fld .zetaThreshold)) (t14 * (p.fld .zetaThreshold)) (t16 * t12))
  let t19 := (fn1Val P .cbrt r0)
  let t21 := (fn1Val P .cbrt (N 6 (0)))
  let t23 := (Real.pi ^ (N 2 (0)))
  let t24 := (fn1Val P .cbrt t23)
  let t25 := (t24 ^ (N 2 (0)))
  let t28 := (fn1Val P .cbrt (N 2 (0)))
  let t29 := (t28 ^ (N 2 (0)))
  let t31 := (r0 ^ (N 2 (0)))
  let t32 := (t19 ^ (N 2 (0)))
  let t38 := (t21 ^ (N 2 (0)))
  let t43 := (s0 ^ (N 2 (0)))
  let t45 := (t31 ^ (N 2 (0)))
  let t52 := (t23 ^ (N 2 (0)))
  let t56 := (t45 ^ (N 2 (0)))
  let t62 := (((((N 1 (0)) + ((((((((p.param 24929) * t21) / t25) * s0) * t29) / t32) / t31) / (N 24 (0)))) + ((((((((((p.param 25186) * t38) / t24) / t23) * t43) * t28) / t19) / t45) / r0) / (N 288 (0)))) + ((((((p.param 25443) / t52) * t43) * s0) / t56) / (N 576 (0)))) ^ ((N 1 (0)) / (N 15 (0))))
  let t66 := (cnd ((r0 / (N 2 (0))) ≤ (p.fld .densThreshold)) (N 0 (0)) (((((((-(N 3 (0))) / (N 8 (0))) * t3) / t4) * t18) * t19) * t62))
  ((N 2 (0)) * t66)

theorem gga_x_pw86_unpolExpr_eq (P : Prims) (p : Rec) (r0 s0 : ℝ) : gga_x_pw86.unpol P p r0 (some s0) none none = .ok (gga_x_pw86_unpolExpr P p r0 s0) := by kernel_rfl

/-- `gen_repo/impl/prebuilt/unpol/gga_x_ev93.py`. -/
def gga_x_ev93_unpolExpr (P : Prims) (p : Rec) (r0 s0 : ℝ) : ℝ :=
  let t3 := (fn1Val P .cbrt (N 3 (0)))
  let t4 := (fn1Val P .cbrt Real.pi)
  let t7 := ((N 1 (0)) ≤ (p.fld .zetaThreshold))
  let t8 := ((p.fld .zetaThreshold) - (N 1 (0)))
  let t10 := (cnd t7 (-t8) (N 0 (0)))
  let t11 := (cnd t7 t8 t10)
  let t12 := ((N 1 (0)) + t11)
  let t14 := (fn1Val P .cbrt (p.fld .zetaThreshold))
  let t16 := (fn1Val P .cbrt t12)
  let t18 := (cnd (t12 ≤ (p.fld .zetaThreshold)) (t14 * (p.fld .zetaThreshold)) (t16 * t12))
  let t20 := (fn1Val P .cbrt r0)
  let t21 := (fn1Val P .cbrt (N 6 (0)))
  let t23 := (Real.pi ^ (N 2 (0)))
  let t24 := (fn1Val P .cbrt t23)
  let t25 := (t24 ^ (N 2 (0)))
  let t26 := ((N 1 (0)) / t25)
  let t28 := (fn1Val P .cbrt (N 2 (0)))
  let t29 := (t28 ^ (N 2 (0)))
  let t31 := (r0 ^ (N 2 (0)))
  let t32 := (t20 ^ (N 2 (0)))
  let t35 := (((s0 * t29) / t32) / t31)
  let t38 := (t21 ^ (N 2 (0)))
  let t41 := (((N 1 (0)) / t24) / t23)
  let t43 := (s0 ^ (N 2 (0)))
  let t45 := (t31 ^ (N 2 (0)))
  let t49 := ((((t43 * t28) / t20) / t45) / r0)
  let t52 := (t23 ^ (N 2 (0)))
  let t53 := ((N 1 (0)) / t52)
  let t56 := (t45 ^ (N 2 (0)))
  let t58 := ((t43 * s0) / t56)
  let t79 := (cnd ((r0 / (N 2 (0))) ≤ (p.fld .densThreshold)) (N 0 (0)) ((((((((-(N 3 (0))) / (N 8 (0))) * t3) / t4) * t18) * t20) * ((((N 1 (0)) + (((((p.param 24881) * t21) * t26) * t35) / (N 24 (0)))) + (((((p.param 24882) * t38) * t41) * t49) / (N 288 (0)))) + ((((p.param 24883) * t53) * t58) / (N 576 (0))))) / ((((N 1 (0)) + (((((p.param 25137) * t21) * t26) * t35) / (N 24 (0)))) + (((((p.param 25138) * t38) * t41) * t49) / (N 288 (0)))) + ((((p.param 25139) * t53) * t58) / (N 576 (0))))))
  ((N 2 (0)) * t79)

theorem gga_x_ev93_unpolExpr_eq (P : Prims) (p : Rec) (r0 s0 : ℝ) : gga_x_ev93.unpol P p r0 (some s0) none none = .ok (gga_x_ev93_unpolExpr P p r0 s0) := by kernel_rfl

/-- `gen_repo/impl/prebuilt/unpol/gga_k_tflw.py`. -/
def gga_k_tflw_unpolExpr (P : Prims) (p : Rec) (r0 s0 : ℝ) : ℝ :=
  let t3 := (fn1Val P .cbrt (N 3 (0)))
  let t4 := (t3 ^ (N 2 (0)))
  let t5 := (fn1Val P .cbrt Real.pi)
  let t8 := ((N 1 (0)) ≤ (p.fld .zetaThreshold))
  let t9 := ((p.fld .zetaThreshold) - (N 1 (0)))
  let t11 := (cnd t8 (-t9) (N 0 (0)))
  let t12 := (cnd t8 t9 t11)
  let t13 := ((N 1 (0)) + t12)
  let t15 := (fn1Val P .cbrt (p.fld .zetaThreshold))
  let t16 := (t15 ^ (N 2 (0)))
  let t18 := (fn1Val P .cbrt t13)
  let t19 := (t18 ^ (N 2 (0)))
  let t21 := (cnd (t13 ≤ (p.fld .zetaThreshold)) (t16 * (p.fld .zetaThreshold)) (t19 * t13))
  let t22 := (fn1Val P .cbrt r0)
  let t23 := (t22 ^ (N 2 (0)))
  let t26 := (fn1Val P .cbrt (N 2 (0)))
  let t27 := (t26 ^ (N 2 (0)))
  let t29 := (r0 ^ (N 2 (0)))
  let t32 := (fn1Val P .cbrt (N 6 (0)))
  let t34 := (Real.pi ^ (N 2 (0)))
  let t35 := (fn1Val P .cbrt t34)
  let t36 := (t35 ^ (N 2 (0)))
  let t45 := (cnd ((r0 / (N 2 (0))) ≤ (p.fld .densThreshold)) (N 0 (0)) ((((((((N 3 (0)) / (N 2 (1))) * t4) * t5) * Real.pi) * t21) * t23) * ((p.param 444016192865) + (((((((((N 5 (0)) / (N 72 (0))) * (p.param 30506419914826079)) * s0) * t27) / t23) / t29) * t32) / t36))))
  ((N 2 (0)) * t45)

theorem gga_k_tflw_unpolExpr_eq (P : Prims) (p : Rec) (r0 s0 : ℝ) : gga_k_tflw.unpol P p r0 (some s0) none none = .ok (gga_k_tflw_unpolExpr P p r0 s0) := by kernel_rfl

/-- `gen_repo/impl/prebuilt/unpol/lda_k_tf.py`. -/
def lda_k_tf_unpolExpr (P : Prims) (p : Rec) (r0 : ℝ) : ℝ :=
  let t2 := (fn1Val P .cbrt (p.fld .zetaThreshold))
  let t3 := (t2 ^ (N 2 (0)))
  let t5 := (cnd ((N 1 (0)) ≤ (p.fld .zetaThreshold)) (t3 * (p.fld .zetaThreshold)) (N 1 (0)))
  let t7 := (fn1Val P .cbrt (N 3 (0)))
  let t10 := (fn1Val P .cbrt ((N 1 (0)) / Real.pi))
  let t11 := (t10 ^ (N 2 (0)))
  let t13 := (fn1Val P .cbrt (N 4 (0)))
  let t14 := (t13 ^ (N 2 (0)))
  let t16 := (fn1Val P .cbrt r0)
  let t17 := (t16 ^ (N 2 (0)))
  (((((((p.param 24952) * t5) * t7) / t11) * t14) * t17) / (N 3 (0)))

theorem lda_k_tf_unpolExpr_eq (P : Prims) (p : Rec) (r0 : ℝ) : lda_k_tf.unpol P p r0 none none none = .ok (lda_k_tf_unpolExpr P p r0) := by kernel_rfl

/-- `gen_repo/impl/prebuilt/unpol/lda_x_2d.py`. -/
def lda_x_2d_unpolExpr (P : Prims) (p : Rec) (r0 : ℝ) : ℝ :=
  let t1 := (fn1Val P .sqrt (N 2 (0)))
  let t2 := (fn1Val P .sqrt Real.pi)
  let t6 := (fn1Val P .sqrt (p.fld .zetaThreshold))
  let t8 := (cnd ((N 1 (0)) ≤ (p.fld .zetaThreshold)) (t6 * (p.fld .zetaThreshold)) (N 1 (0)))
  let t9 := (fn1Val P .sqrt r0)
  ((((((-(N 4 (0))) / (N 3 (0))) * t1) / t2) * t8) * t9)

theorem lda_x_2d_unpolExpr_eq (P : Prims) (p : Rec) (r0 : ℝ) : lda_x_2d.unpol P p r0 none none none = .ok (lda_x_2d_unpolExpr P p r0) := by kernel_rfl

/-- `gen_repo/impl/prebuilt/unpol/lda_c_wigner.py`. -/
def lda_c_wigner_unpolExpr (P : Prims) (p : Rec) (r0 : ℝ) : ℝ :=
  let t1 := (fn1Val P .cbrt (N 3 (0)))
  let t3 := (fn1Val P .cbrt ((N 1 (0)) / Real.pi))
  let t5 := (fn1Val P .cbrt (N 4 (0)))
  let t6 := (t5 ^ (N 2 (0)))
  let t7 := (fn1Val P .cbrt r0)
  ((p.param 97) / ((p.param 98) + ((((t1 * t3) * t6) / t7) / (N 4 (0)))))

theorem lda_c_wigner_unpolExpr_eq (P : Prims) (p : Rec) (r0 : ℝ) : lda_c_wigner.unpol P p r0 none none none = .ok (lda_c_wigner_unpolExpr P p r0) := by kernel_rfl

/-- `gen_repo/impl/prebuilt/unpol/lda_c_rpa.py`. -/
def lda_c_rpa_unpolExpr (P : Prims) (p : Rec) (r0 : ℝ) : ℝ :=
  let t1 := (fn1Val P .cbrt (N 3 (0)))
  let t3 := (fn1Val P .cbrt ((N 1 (0)) / Real.pi))
  let t4 := (t1 * t3)
  let t5 := (fn1Val P .cbrt (N 4 (0)))
  let t6 := (t5 ^ (N 2 (0)))
  let t7 := (fn1Val P .cbrt r0)
  let t9 := (t6 / t7)
  let t10 := (t4 * t9)
  let t12 := (fn1Val P .log (t10 / (N 4 (0))))
  (((((N 311 (-4)) * t12) - (N 48 (-3))) + ((((N 225 (-5)) * t4) * t9) * t12)) - ((N 425 (-5)) * t10))

theorem lda_c_rpa_unpolExpr_eq (P : Prims) (p : Rec) (r0 : ℝ) : lda_c_rpa.unpol P p r0 none none none = .ok (lda_c_rpa_unpolExpr P p r0) := by kernel_rfl

/-- `gen_repo/impl/prebuilt/unpol/lda_c_pz.py`. -/
def lda_c_pz_unpolExpr (P : Prims) (p : Rec) (r0 : ℝ) : ℝ :=
  let t1 := (fn1Val P .cbrt (N 3 (0)))
  let t3 := (fn1Val P .cbrt ((N 1 (0)) / Real.pi))
  let t5 := (fn1Val P .cbrt (N 4 (0)))
  let t6 := (t5 ^ (N 2 (0)))
  let t7 := (fn1Val P .cbrt r0)
  let t8 := ((N 1 (0)) / t7)
  let t9 := (t6 * t8)
  let t10 := ((t1 * t3) * t9)
  let t11 := (t10 / (N 4 (0)))
  let t12 := ((N 1 (0)) ≤ t11)
  let t15 := (fn1Val P .sqrt t10)
  let t21 := ((t3 * t6) * t8)
  let t28 := (fn1Val P .log t11)
  let t34 := (t9 * t28)
  let t42 := (cnd t12 ((p.param 7449355575199739997) / (((N 1 (0)) + (((p.param 7090201149153423453) * t15) / (N 2 (0)))) + ((((p.param 7090201149170200669) * t1) * t21) / (N 4 (0))))) (((((p.param 1633366109) * t28) + (p.param 1650143325)) + (((((p.param 1666920541) * t1) * t3) * t34) / (N 4 (0)))) + ((((p.param 1683697757) * t1) * t21) / (N 4 (0)))))
  let t67 := (cnd t12 ((p.param 7449355575199740253) / (((N 1 (0)) + (((p.param 7090201149153423709) * t15) / (N 2 (0)))) + ((((p.param 7090201149170200925) * t1) * t21) / (N 4 (0))))) (((((p.param 1633366365) * t28) + (p.param 1650143581)) + (((((p.param 1666920797) * t1) * t3) * t34) / (N 4 (0)))) + ((((p.param 1683698013) * t1) * t21) / (N 4 (0)))))
  let t70 := (fn1Val P .cbrt (p.fld .zetaThreshold))
  let t72 := (cnd ((N 1 (0)) ≤ (p.fld .zetaThreshold)) (t70 * (p.fld .zetaThreshold)) (N 1 (0)))
  let t76 := (fn1Val P .cbrt (N 2 (0)))
  (t42 + (((t67 - t42) * (((N 2 (0)) * t72) - (N 2 (0)))) / (((N 2 (0)) * t76) - (N 2 (0)))))

theorem lda_c_pz_unpolExpr_eq (P : Prims) (p : Rec) (r0 : ℝ) : lda_c_pz.unpol P p r0 none none none = .ok (lda_c_pz_unpolExpr P p r0) := by kernel_rfl

/-- `gen_repo/impl/prebuilt/unpol/lda_c_pw.py`. -/
def lda_c_pw_unpolExpr (P : Prims) (p : Rec) (r0 : ℝ) : ℝ :=
  let t1 := (p.param 1633366109)
  let t3 := (fn1Val P .cbrt (N 3 (0)))
  let t6 := (fn1Val P .cbrt ((N 1 (0)) / Real.pi))
  let t7 := (fn1Val P .cbrt (N 4 (0)))
  let t8 := (t7 ^ (N 2 (0)))
  let t10 := (fn1Val P .cbrt r0)
  let t11 := ((N 1 (0)) / t10)
  let t12 := ((t6 * t8) * t11)
  let t21 := (((t3 * t6) * t8) * t11)
  let t22 := (fn1Val P .sqrt t21)
  let t30 := (t21 ^ (N 15 (-1)))
  let t34 := (t21 / (N 4 (0)))
  let t37 := (t34 ^ ((p.param 482921361501) + (N 1 (0))))
  let t44 := (fn1Val P .log ((N 1 (0)) + ((((N 1 (0)) / t1) / ((((((p.param 7090201149153423453) * t22) / (N 2 (0))) + ((((p.param 7090201149170200669) * t3) * t12) / (N 4 (0)))) + (((N 125 (-3)) * (p.param 7090201149186977885)) * t30)) + ((p.param 7090201149203755101) * t37))) / (N 2 (0)))))
  let t47 := (fn1Val P .cbrt (p.fld .zetaThreshold))
  let t49 := (cnd ((N 1 (0)) ≤ (p.fld .zetaThreshold)) (t47 * (p.fld .zetaThreshold)) (N 1 (0)))
  let t52 := (fn1Val P .cbrt (N 2 (0)))
  let t57 := (p.param 1633366621)
  let t78 := (t34 ^ ((p.param 482921362013) + (N 1 (0))))
  let t85 := (fn1Val P .log ((N 1 (0)) + ((((N 1 (0)) / t57) / ((((((p.param 7090201149153423965) * t22) / (N 2 (0))) + ((((p.param 7090201149170201181) * t3) * t12) / (N 4 (0)))) + (((N 125 (-3)) * (p.param 7090201149186978397)) * t30)) + ((p.param 7090201149203755613) * t78))) / (N 2 (0)))))
  (((((-(N 2 (0))) * t1) * ((N 1 (0)) + ((((p.param 1797148035269963493469) * t3) * t12) / (N 4 (0))))) * t44) + (((((((N 2 (0)) * (((N 2 (0)) * t49) - (N 2 (0)))) / (((N 2 (0)) * t52) - (N 2 (0)))) * t57) * ((N 1 (0)) + ((((p.param 1797148035269963493981) * t3) * t12) / (N 4 (0))))) * t85) / (p.param 1719284272)))

theorem lda_c_pw_unpolExpr_eq (P : Prims) (p : Rec) (r0 : ℝ) : lda_c_pw.unpol P p r0 none none none = .ok (lda_c_pw_unpolExpr P p r0) := by kernel_rfl

/-- `gen_repo/impl/prebuilt/unpol/lda_c_hl.py`. -/
def lda_c_hl_unpolExpr (P : Prims) (p : Rec) (r0 : ℝ) : ℝ :=
  let t2 := ((N 1 (0)) / Real.pi)
  let t4 := (t2 / r0)
  let t5 := (p.param 29392554774179933)
  let t6 := (t5 ^ (N 2 (0)))
  let t12 := (fn1Val P .cbrt (N 3 (0)))
  let t13 := (t12 ^ (N 2 (0)))
  let t14 := (fn1Val P .cbrt t2)
  let t16 := (t13 / t14)
  let t17 := (fn1Val P .cbrt (N 4 (0)))
  let t18 := (fn1Val P .cbrt r0)
  let t19 := (t17 * t18)
  let t24 := (fn1Val P .log ((N 1 (0)) + (((t16 * t19) * t5) / (N 3 (0)))))
  let t26 := (t14 ^ (N 2 (0)))
  let t27 := (t13 * t26)
  let t28 := (t18 ^ (N 2 (0)))
  let t30 := (t17 / t28)
  let t35 := (t12 * t14)
  let t36 := (t17 ^ (N 2 (0)))
  let t38 := (t36 / t18)
  let t44 := ((p.param 29392554522521693) * ((((((N 1 (0)) + (((((N 3 (0)) / (N 4 (0))) * t4) / t6) / t5)) * t24) - (((t27 * t30) / t6) / (N 4 (0)))) + (((t35 * t38) / t5) / (N 8 (0)))) - ((N 1 (0)) / (N 3 (0)))))
  let t46 := (fn1Val P .cbrt (p.fld .zetaThreshold))
  let t48 := (cnd ((N 1 (0)) ≤ (p.fld .zetaThreshold)) (t46 * (p.fld .zetaThreshold)) (N 1 (0)))
  let t51 := (fn1Val P .cbrt (N 2 (0)))
  let t57 := (p.param 29392554774180189)
  let t58 := (t57 ^ (N 2 (0)))
  let t68 := (fn1Val P .log ((N 1 (0)) + (((t16 * t19) * t57) / (N 3 (0)))))
  ((-t44) + (((((N 2 (0)) * t48) - (N 2 (0))) / (((N 2 (0)) * t51) - (N 2 (0)))) * (((-(p.param 29392554522521949)) * ((((((N 1 (0)) + (((((N 3 (0)) / (N 4 (0))) * t4) / t58) / t57)) * t68) - (((t27 * t30) / t58) / (N 4 (0)))) + (((t35 * t38) / t57) / (N 8 (0)))) - ((N 1 (0)) / (N 3 (0))))) + t44)))

theorem lda_c_hl_unpolExpr_eq (P : Prims) (p : Rec) (r0 : ℝ) : lda_c_hl.unpol P p r0 none none none = .ok (lda_c_hl_unpolExpr P p r0) := by kernel_rfl

/-- `gen_repo/impl/prebuilt/unpol/lda_c_chachiyo.py`. -/
def lda_c_chachiyo_unpolExpr (P : Prims) (p : Rec) (r0 : ℝ) : ℝ :=
  let t1 := (fn1Val P .cbrt (N 3 (0)))
  let t2 := (t1 ^ (N 2 (0)))
  let t5 := (fn1Val P .cbrt ((N 1 (0)) / Real.pi))
  let t7 := (fn1Val P .cbrt (N 4 (0)))
  let t9 := (fn1Val P .cbrt r0)
  let t10 := ((((N 1 (0)) / t5) * t7) * t9)
  let t14 := (t5 ^ (N 2 (0)))
  let t16 := (t7 ^ (N 2 (0)))
  let t18 := (t9 ^ (N 2 (0)))
  let t19 := ((((N 1 (0)) / t14) * t16) * t18)
  let t23 := (fn1Val P .log (((N 1 (0)) + ((((p.param 25200) * t2) * t10) / (N 3 (0)))) + ((((p.param 25456) * t1) * t19) / (N 3 (0)))))
  let t24 := ((p.param 24944) * t23)
  let t32 := (fn1Val P .log (((N 1 (0)) + ((((p.param 25190) * t2) * t10) / (N 3 (0)))) + ((((p.param 25446) * t1) * t19) / (N 3 (0)))))
  let t36 := (fn1Val P .cbrt (p.fld .zetaThreshold))
  let t38 := (cnd ((N 1 (0)) ≤ (p.fld .zetaThreshold)) (t36 * (p.fld .zetaThreshold)) (N 1 (0)))
  let t42 := (fn1Val P .cbrt (N 2 (0)))
  (t24 + (((((p.param 24934) * t32) - t24) * (((N 2 (0)) * t38) - (N 2 (0)))) / (((N 2 (0)) * t42) - (N 2 (0)))))

theorem lda_c_chachiyo_unpolExpr_eq (P : Prims) (p : Rec) (r0 : ℝ) : lda_c_chachiyo.unpol P p r0 none none none = .ok (lda_c_chachiyo_unpolExpr P p r0) := by kernel_rfl

/-- `gen_repo/impl/prebuilt/unpol/gga_c_lyp.py`. -/
def gga_c_lyp_unpolExpr (P : Prims) (p : Rec) (r0 s0 : ℝ) : ℝ :=
  let t1 := (fn1Val P .cbrt r0)
  let t2 := ((N 1 (0)) / t1)
  let t5 := ((N 1 (0)) / (((p.param 100) * t2) + (N 1 (0))))
  let t7 := (fn1Val P .exp ((-(p.param 99)) * t2))
  let t9 := (r0 ^ (N 2 (0)))
  let t10 := (t1 ^ (N 2 (0)))
  let t12 := (((N 1 (0)) / t10) / t9)
  let t16 := ((((p.param 100) * t5) + (p.param 99)) * t2)
  let t20 := (fn1Val P .cbrt (N 3 (0)))
  let t21 := (t20 ^ (N 2 (0)))
  let t22 := (Real.pi ^ (N 2 (0)))
  let t23 := (fn1Val P .cbrt t22)
  let t24 := (t23 ^ (N 2 (0)))
  let t26 := ((N 1 (0)) ≤ (p.fld .zetaThreshold))
  let t27 := ((p.fld .zetaThreshold) ^ (N 2 (0)))
  let t28 := (fn1Val P .cbrt (p.fld .zetaThreshold))
  let t29 := (t28 ^ (N 2 (0)))
  let t31 := (cnd t26 (t29 * t27) (N 1 (0)))
  let t37 := (t12 * t31)
  let t44 := (cnd t26 ((t29 * t27) * (p.fld .zetaThreshold)) (N 1 (0)))
  let t48 := (fn1Val P .cbrt (N 2 (0)))
  let t49 := (t48 ^ (N 2 (0)))
  let t53 := (cnd t26 t27 (N 1 (0)))
  ((p.param 97) * ((-t5) + ((((p.param 98) * t7) * t5) * (((((((-s0) * t12) * (((-(N 1 (0))) / (N 72 (0))) - (((N 7 (0)) / (N 72 (0))) * t16))) - (((((N 3 (0)) / (N 1 (1))) * t21) * t24) * t31)) + ((((((N 5 (0)) / (N 2 (0))) - (t16 / (N 18 (0)))) * s0) * t37) / (N 8 (0)))) + (((((t16 - (N 11 (0))) * s0) * t12) * t44) / (N 144 (0)))) - ((t48 * ((((((N 4 (0)) / (N 3 (0))) * s0) * t49) * t37) - (((((t53 * s0) * t49) * t12) * t31) / (N 2 (0))))) / (N 8 (0)))))))

theorem gga_c_lyp_unpolExpr_eq (P : Prims) (p : Rec) (r0 s0 : ℝ) : gga_c_lyp.unpol P p r0 (some s0) none none = .ok (gga_c_lyp_unpolExpr P p r0 s0) := by kernel_rfl

end
end Verif.Props
