import Verif.Lib.ClosedForm
import Verif.Spec.Scaling
import Verif.Py.KernelRfl
import Verif.Data.F05
import Verif.Data.F13
import Verif.Data.F09
import Mathlib.Tactic.FieldSimp
import Mathlib.Analysis.SpecialFunctions.Pow.NNReal
/-!
# C22 is false of three shipped formulas
-/
namespace Verif.Props
open Verif.Py Verif.Model Verif.Spec Verif.Data Verif.Lib
noncomputable section
open Classical

set_option maxRecDepth 100000

/-- `gen_repo/impl/prebuilt/pol/gga_x_lb.py` as a real expression. -/
def lbPol (P : Prims) (p : Rec) (r0 s0 : ℝ) : ℝ :=
  let t1 := (fn1Val P .cbrt (N 3 (0)))
  let t4 := (fn1Val P .cbrt ((N 1 (0)) / Real.pi))
  let t5 := (fn1Val P .cbrt (N 4 (0)))
  let t6 := (t5 ^ (N 2 (0)))
  let t10 := (fn1Val P .sqrt s0)
  let t11 := (fn1Val P .cbrt r0)
  let t13 := (((N 1 (0)) / t11) / r0)
  let t14 := (t10 * t13)
  let t17 := (r0 ^ (N 2 (0)))
  let t18 := (t11 ^ (N 2 (0)))
  let t23 := (((p.param 444016192865) * t10) * t13)
  let t24 := (fn1Val P .arcsinh t23)
  let t33 := (fn1Val P .log ((N 2 (0)) * t23))
  let t37 := (cnd (t14 < (N 3 (2))) (((((p.param 1650816097) * s0) / t18) / t17) / ((((((N 3 (0)) * (p.param 1650816097)) * t10) * t13) * t24) + (N 1 (0)))) ((t14 / t33) / (N 3 (0))))
  (((((((-(p.param 418431133793)) * t1) * t4) * t6) / (N 2 (0))) - t37) * t11)

theorem lbPol_eq (P : Prims) (p : Rec) (r0 r1 s0 s1 s2 : ℝ) :
    gga_x_lb.pol P p (r0, r1) (some (s0, s1, s2)) none none = .ok (lbPol P p r0 s0) := by kernel_rfl

/-- `gen_repo/impl/prebuilt/pol/mgga_x_2d_prp10.py` as a real expression. -/
def prpPol (P : Prims) (r0 s0 l0 tau0 : ℝ) : ℝ :=
  let t1 := (r0 ^ (N 2 (0)))
  let t2 := ((N 1 (0)) / t1)
  let t5 := (tau0 * t2)
  let t9 := (((s0 / t1) / r0) / (N 8 (0)))
  let t11 := ((N 1 (0)) / Real.pi)
  let t12 := (((((l0 * t2) / (N 4 (0))) - t5) + t9) * t11)
  let t14 := (cnd ((-(N 9999999999 (-10))) < t12) t12 (-(N 9999999999 (-10))))
  let t15 := (fn1Val P .exp (-(N 1 (0))))
  let t17 := (fn1Val P .lambertw (t14 * t15))
  let t20 := (fn1Val P .i0 ((t17 / (N 2 (0))) + ((N 1 (0)) / (N 2 (0)))))
  let t22 := (t5 - t9)
  let t24 := (cnd ((N 1 (-10)) < t22) t22 (N 1 (-10)))
  let t25 := (fn1Val P .sqrt t24)
  let t29 := (fn1Val P .sqrt r0)
  ((-((Real.pi * t20) - ((((N 4 (0)) / (N 3 (0))) * t11) * t25))) * t29)

theorem prpPol_eq (P : Prims) (p : Rec) (r0 r1 s0 s1 s2 l0 l1 tau0 tau1 : ℝ) :
    mgga_x_2d_prp10.pol P p (r0, r1) (some (s0, s1, s2)) (some (l0, l1)) (some (tau0, tau1)) = .ok (prpPol P r0 s0 l0 tau0) := by kernel_rfl

/-- Thresholds and parameters used below. -/
def someRec (a : ℝ) : Rec := ⟨fun _ => 1 / 10, fun _ => a⟩

theorem lbPol_zero (P : Prims) (p : Rec) (r0 : ℝ) : lbPol P p r0 0 =
    -(p.param (nameCode "alpha") * cbrtR 3 * cbrtR (1 / Real.pi) * cbrtR 4 ^ (2 : ℝ) / 2) * cbrtR r0 := by
  simp [lbPol, fn1Val, N, cnd, nameCode, nameCodeChars]
  ring

/-- C22 fails for `gga_x_lb`: the code only looks at the first spin. -/
theorem gga_x_lb_not_spinFlipZ : ¬ SpinFlipZ .gga gga_x_lb := by
  intro h
  obtain ⟨e, h1, h2⟩ := h ⟨id, id, id, id, id, fun _ => id⟩ (someRec 1) 8 1 0 0 0 0 0 0 0 ⟨by norm_num [someRec], by norm_num [someRec]⟩ (by norm_num [someRec])
    (by norm_num) (by norm_num) le_rfl le_rfl le_rfl le_rfl
  have h3 := (lbPol_eq _ _ _ _ _ _ _).symm.trans (h1.trans (h2.symm.trans (lbPol_eq _ _ _ _ _ _ _)))
  rw [lbPol_zero, lbPol_zero, cbrtR_eight, cbrtR_one] at h3
  have h4 : 0 < (someRec 1).param (nameCode "alpha") * cbrtR 3 * cbrtR (1 / Real.pi) * cbrtR 4 ^ (2 : ℝ) / 2 := by
    have a1 := cbrtR_pos (x := 3) (by norm_num)
    have a2 := cbrtR_pos (x := 1 / Real.pi) (by positivity)
    have a3 := cbrtR_pos (x := 4) (by norm_num)
    have a4 : 0 < (someRec 1).param (nameCode "alpha") := by norm_num [someRec]
    positivity
  injection h3 with h3
  linarith

theorem prpPol_special (P : Prims) (x a : ℝ) (hx : 0 < x) (ha : 1 ≤ a) : prpPol P (x ^ 2) 0 (4 * (x ^ 4 * a)) (x ^ 4 * a) =
    -(Real.pi * P.i0 (P.lambertw 0 / 2 + 1 / 2) - 4 / 3 * (1 / Real.pi) * Real.sqrt a) * x := by
  have h1 : x ^ 4 * a / x ^ 4 = a := by field_simp
  have h2 : 4 * (x ^ 4 * a) / x ^ 4 / 4 = a := by field_simp
  have h3 : (x ^ 2) ^ 2 = x ^ 4 := by ring
  have h4 : (1 / 10000000000 : ℝ) < a := by linarith
  simp only [prpPol, fn1Val, N, cnd]
  norm_num [← div_eq_mul_inv, h3, h1, h2, h4, Real.sqrt_sq hx.le]

/-- C22 fails for `mgga_x_2d_prp10`, whatever the values of the special functions are: the code only looks at the first spin. -/
theorem mgga_x_2d_prp10_not_spinFlip (P : Prims) (p : Rec) : ∃ r0 r1 s0 s1 s2 l0 l1 t0 t1 : ℝ, 0 < r0 ∧ 0 < r1 ∧ 0 ≤ s0 ∧ 0 ≤ s2 ∧ 0 ≤ t0 ∧ 0 ≤ t1 ∧
    mgga_x_2d_prp10.pol P p (r0, r1) (some (s0, s1, s2)) (some (l0, l1)) (some (t0, t1)) ≠
      mgga_x_2d_prp10.pol P p (r1, r0) (some (s2, s1, s0)) (some (l1, l0)) (some (t1, t0)) := by
  by_contra hc
  push Not at hc
  have key : ∀ a : ℝ, 1 ≤ a → Real.pi * P.i0 (P.lambertw 0 / 2 + 1 / 2) = 4 / 3 * (1 / Real.pi) * Real.sqrt a := by
    intro a ha
    have h := hc (2 ^ 2) (1 ^ 2) 0 0 0 (4 * (2 ^ 4 * a)) (4 * (1 ^ 4 * a)) (2 ^ 4 * a) (1 ^ 4 * a) (by norm_num) (by norm_num) le_rfl le_rfl
      (by positivity) (by positivity)
    rw [prpPol_eq, prpPol_eq, prpPol_special P 2 a (by norm_num) ha, prpPol_special P 1 a (by norm_num) ha] at h
    injection h with h
    linarith
  have h1 := (key 1 le_rfl).symm.trans (key 4 (by norm_num))
  rw [show (4 : ℝ) = 2 ^ 2 by norm_num, Real.sqrt_sq (by norm_num), Real.sqrt_one] at h1
  have := Real.pi_pos
  field_simp at h1
  norm_num at h1

theorem mgga_x_2d_prp10_not_spinFlipZ : ¬ SpinFlipZ .mgga mgga_x_2d_prp10 := by
  intro h
  obtain ⟨r0, r1, s0, s1, s2, l0, l1, t0, t1, a, b, c, d, e, f, hn⟩ := mgga_x_2d_prp10_not_spinFlip ⟨id, id, id, id, id, fun _ => id⟩ (someRec 1)
  obtain ⟨v, h1, h2⟩ := h ⟨id, id, id, id, id, fun _ => id⟩ (someRec 1) r0 r1 s0 s1 s2 l0 l1 t0 t1 ⟨by norm_num [someRec], by norm_num [someRec]⟩
    (by norm_num [someRec]) a b c d e f
  exact hn (h1.trans h2.symm)

/-- Intermediate results of `gen_repo/impl/prebuilt/pol/lda_xc_ksdt.py` that do not depend on the parameters `b`, `c`, `d`, `e`. -/
structure KsdtPre where
  (t1 t2 t3 t5 t8 t9 t11 t13 t15 t17 t18 t27 t31 t36 t45 t55 t59 t63 t69 t91 t98 t106 t126 t127 t243 t248 t254 t257 t260 t261 t265 t266 t283 t287 t293 : ℝ)

/-- First part of `gen_repo/impl/prebuilt/pol/lda_xc_ksdt.py` as real expressions. -/
def ksdtPre (P : Prims) (p : Rec) (r0 r1 : ℝ) : KsdtPre :=
  let t1 := ((N 1 (0)) / Real.pi)
  let t2 := (fn1Val P .cbrt (N 4 (0)))
  let t3 := (t2 ^ (N 2 (0)))
  let t5 := (fn1Val P .cbrt (N 9 (0)))
  let t7 := (fn1Val P .cbrt t1)
  let t8 := ((N 1 (0)) / t7)
  let t9 := (t5 ^ (N 2 (0)))
  let t10 := (t7 * t1)
  let t11 := ((N 1 (0)) / t10)
  let t13 := ((N 1 (0)) / (p.param 84))
  let t14 := ((t9 * t11) * t13)
  let t15 := (fn1Val P .cbrt (N 3 (0)))
  let t16 := (r0 + r1)
  let t17 := (fn1Val P .cbrt t16)
  let t18 := (t17 ^ (N 2 (0)))
  let t19 := (t15 * t18)
  let t20 := (r0 - r1)
  let t22 := ((N 1 (0)) / t16)
  let t24 := ((((p.param 549720283971637627478381) * t20) * t22) + (N 1 (0)))
  let t25 := (fn1Val P .cbrt t24)
  let t26 := (t25 ^ (N 2 (0)))
  let t27 := ((N 1 (0)) / t26)
  let t31 := (fn1Val P .tanh (((t14 * t19) * t27) / (N 6 (0))))
  let t33 := (Real.pi ^ (N 2 (0)))
  let t35 := (t7 ^ (N 2 (0)))
  let t36 := (t35 / t33)
  let t38 := ((p.param 84) ^ (N 2 (0)))
  let t39 := ((t9 * t36) * t38)
  let t41 := (((N 1 (0)) / t17) / t16)
  let t42 := (t15 * t41)
  let t43 := (t25 * t24)
  let t45 := ((t39 * t42) * t43)
  let t47 := (t33 ^ (N 2 (0)))
  let t51 := (t16 ^ (N 2 (0)))
  let t53 := (t24 ^ (N 2 (0)))
  let t55 := ((((((N 1 (0)) / t47) * t38) * (p.param 84)) / t51) * t53)
  let t59 := ((t7 / t47) / Real.pi)
  let t61 := (t38 ^ (N 2 (0)))
  let t62 := ((t5 * t59) * t61)
  let t63 := (t15 ^ (N 2 (0)))
  let t65 := (((N 1 (0)) / t18) / t51)
  let t66 := (t63 * t65)
  let t67 := (t26 * t53)
  let t69 := ((t62 * t66) * t67)
  let t80 := (fn1Val P .sqrt (N 2 (0)))
  let t82 := ((t5 * t10) * (p.param 84))
  let t84 := (t63 / t18)
  let t87 := (fn1Val P .sqrt ((t82 * t84) * t26))
  let t91 := (fn1Val P .tanh ((((N 3 (0)) / (N 2 (0))) * t80) / t87))
  let t98 := (((t38 * t15) * t41) * t43)
  let t106 := (((t61 * t63) * t65) * t67)
  let t126 := (((t15 * t7) * t3) / t17)
  let t127 := (fn1Val P .sqrt t126)
  let t211 := (t20 * t22)
  let t212 := ((N 1 (0)) + t211)
  let t229 := (fn1Val P .exp ((((((-(N 2 (0))) / (N 9 (0))) * t82) * t84) * t26) * ((N 1064009 (-6)) + (((((N 63618333333333333335 (-21)) * t82) * t84) * t26) * t127))))
  let t231 := ((N 2 (0)) - (((((N 2 (0)) / (N 3 (0))) - ((N 3481525 (-9)) * t126)) / ((N 1 (0)) + ((N 45802 (-6)) * t126))) * t229))
  let t232 := ((p.fld .zetaThreshold) ^ t231)
  let t233 := (t212 ^ t231)
  let t234 := (cnd (t212 ≤ (p.fld .zetaThreshold)) t232 t233)
  let t235 := ((N 1 (0)) - t211)
  let t237 := (t235 ^ t231)
  let t238 := (cnd (t235 ≤ (p.fld .zetaThreshold)) t232 t237)
  let t240 := ((N 2 (0)) ^ t231)
  let t243 := (((t234 + t238) - (N 2 (0))) / (t240 - (N 2 (0))))
  let t248 := (fn1Val P .cbrt (N 2 (0)))
  let t252 := (t248 ^ (N 2 (0)))
  let t254 := ((t19 * t27) * t252)
  let t257 := (fn1Val P .tanh ((t14 * t254) / (N 6 (0))))
  let t260 := ((t42 * t43) * t252)
  let t261 := (t39 * t260)
  let t265 := ((t66 * t67) * t248)
  let t266 := (t62 * t265)
  let t280 := (fn1Val P .sqrt (((t82 * t84) * t26) * t248))
  let t283 := (fn1Val P .tanh ((N 3 (0)) / t280))
  let t287 := (t36 * t38)
  let t293 := (t59 * t61)
  ⟨t1, t2, t3, t5, t8, t9, t11, t13, t15, t17, t18, t27, t31, t36, t45, t55, t59, t63, t69, t91, t98, t106, t126, t127, t243, t248, t254, t257, t260, t261, t265, t266, t283, t287, t293⟩

/-- Second part of `gen_repo/impl/prebuilt/pol/lda_xc_ksdt.py` as real expressions. -/
def ksdtFin (P : Prims) (p : Rec) (a : KsdtPre) : ℝ :=
  let t141 := (fn1Val P .exp ((((((((-(p.param 27966285977170525)) * a.t9) * a.t11) * a.t13) * a.t15) * a.t18) * a.t27) / (N 6 (0))))
  let t156 := (((p.param 28529235930591325) + ((((((N 4 (0)) / (N 27 (0))) * (p.param 28529235930591581)) * a.t9) * a.t36) * a.t98)) + ((((((N 16 (0)) / (N 81 (0))) * (p.param 28529235930591837)) * a.t5) * a.t59) * a.t106))
  let t168 := ((N 1 (0)) / (((N 1 (0)) + ((((((N 4 (0)) / (N 27 (0))) * (p.param 28529235930592093)) * a.t9) * a.t36) * a.t98)) + ((((((N 16 (0)) / (N 81 (0))) * (p.param 28529235930592349)) * a.t5) * a.t59) * a.t106)))
  let t322 := (fn1Val P .exp ((((((-(p.param 27966290272137821)) * a.t9) * a.t11) * a.t13) * a.t254) / (N 6 (0))))
  let t337 := (((p.param 28529240225558621) + (((((p.param 28529240225558877) * a.t9) * a.t287) * a.t260) / (N 27 (0)))) + ((((((N 2 (0)) / (N 81 (0))) * (p.param 28529240225559133)) * a.t5) * a.t293) * a.t265))
  let t349 := ((N 1 (0)) / (((N 1 (0)) + (((((p.param 28529240225559389) * a.t9) * a.t287) * a.t260) / (N 27 (0)))) + ((((((N 2 (0)) / (N 81 (0))) * (p.param 28529240225559645)) * a.t5) * a.t293) * a.t265)))
  (((((((((-(((((((((a.t1 * a.t3) * a.t5) * a.t8) * a.t31) * ((((N 75 (-2)) + ((N 45090814814814814815 (-20)) * a.t45)) - ((N 82017777777777777776 (-21)) * a.t55)) + ((N 33649382716049382717 (-20)) * a.t69))) / (((N 1 (0)) + ((N 12311866666666666667 (-19)) * a.t45)) + ((N 10094814814814814815 (-19)) * a.t69))) / (N 4 (0))) + ((((a.t91 * (((p.param 27684811000459357) + ((((((N 4 (0)) / (N 27 (0))) * (p.param 27684811000459613)) * a.t9) * a.t36) * a.t98)) + ((((((N 16 (0)) / (N 81 (0))) * (p.param 27684811000459869)) * a.t5) * a.t59) * a.t106))) / (((N 1 (0)) + ((((((N 4 (0)) / (N 27 (0))) * (p.param 27684811000460125)) * a.t9) * a.t36) * a.t98)) + ((((((N 16 (0)) / (N 81 (0))) * (p.param 27684811000460381)) * a.t5) * a.t59) * a.t106))) * a.t127) / (N 2 (0)))) + ((((((((p.param 27966285977170269) * t141) + (p.param 27966285977170013)) * a.t31) * t156) * t168) * a.t126) / (N 4 (0))))) * a.t63) * a.t8) * a.t2) * a.t17) / (((N 1 (0)) + ((((a.t91 * (((p.param 28247760953880669) + ((((((N 4 (0)) / (N 27 (0))) * (p.param 28247760953880925)) * a.t9) * a.t36) * a.t98)) + ((((((N 16 (0)) / (N 81 (0))) * (p.param 28247760953881181)) * a.t5) * a.t59) * a.t106))) / (((N 1 (0)) + ((((((N 4 (0)) / (N 27 (0))) * (p.param 28247760953881437)) * a.t9) * a.t36) * a.t98)) + ((((((N 16 (0)) / (N 81 (0))) * (p.param 28247760953881693)) * a.t5) * a.t59) * a.t106))) * a.t127) / (N 2 (0)))) + ((((a.t31 * t156) * t168) * a.t126) / (N 4 (0))))) * ((N 1 (0)) - a.t243)) / (N 3 (0))) - (((((((((((((((((a.t248 * a.t1) * a.t3) * a.t5) * a.t8) * a.t257) * ((((N 75 (-2)) + ((N 11272703703703703704 (-20)) * a.t261)) - ((N 20504444444444444444 (-21)) * a.t55)) + ((N 42061728395061728396 (-21)) * a.t266))) / (((N 1 (0)) + ((N 30779666666666666667 (-20)) * a.t261)) + ((N 12618518518518518519 (-20)) * a.t266))) / (N 4 (0))) + ((((a.t283 * (((p.param 27684815295426653) + (((((p.param 27684815295426909) * a.t9) * a.t287) * a.t260) / (N 27 (0)))) + ((((((N 2 (0)) / (N 81 (0))) * (p.param 27684815295427165)) * a.t5) * a.t293) * a.t265))) / (((N 1 (0)) + (((((p.param 27684815295427421) * a.t9) * a.t287) * a.t260) / (N 27 (0)))) + ((((((N 2 (0)) / (N 81 (0))) * (p.param 27684815295427677)) * a.t5) * a.t293) * a.t265))) * a.t127) / (N 2 (0)))) + ((((((((p.param 27966290272137565) * t322) + (p.param 27966290272137309)) * a.t257) * t337) * t349) * a.t126) / (N 4 (0)))) * a.t63) * a.t8) * a.t2) * a.t17) / (((N 1 (0)) + ((((a.t283 * (((p.param 28247765248847965) + (((((p.param 28247765248848221) * a.t9) * a.t287) * a.t260) / (N 27 (0)))) + ((((((N 2 (0)) / (N 81 (0))) * (p.param 28247765248848477)) * a.t5) * a.t293) * a.t265))) / (((N 1 (0)) + (((((p.param 28247765248848733) * a.t9) * a.t287) * a.t260) / (N 27 (0)))) + ((((((N 2 (0)) / (N 81 (0))) * (p.param 28247765248848989)) * a.t5) * a.t293) * a.t265))) * a.t127) / (N 2 (0)))) + ((((a.t257 * t337) * t349) * a.t126) / (N 4 (0))))) * a.t243) / (N 3 (0))))

theorem ksdtPol_eq (P : Prims) (p : Rec) (r0 r1 : ℝ) :
    lda_xc_ksdt.pol P p (r0, r1) none none none = .ok (ksdtFin P p (ksdtPre P p r0 r1)) := by kernel_rfl

/-- Parameters: `T = 1`, `thetaParam = 1`, and four free ones. -/
def ksdtRec (A B e e' : ℝ) : Rec := ⟨fun _ => 1 / 10, fun c =>
  if c = nameCode "T" then 1 else if c = nameCode "thetaParam" then 1 else if c = nameCode "c[0][0]" then A else if c = nameCode "c[1][0]" then B
  else if c = nameCode "e[0][0]" then e else if c = nameCode "e[1][0]" then e' else 0⟩

theorem ksdtPre_rec (P : Prims) (A B e e' r0 r1 : ℝ) : ksdtPre P (ksdtRec A B e e') r0 r1 = ksdtPre P (ksdtRec 0 0 0 0) r0 r1 := by
  simp [ksdtPre, ksdtRec, nameCode, nameCodeChars]

theorem ksdtFin_rec (P : Prims) (a : KsdtPre) : ∃ q q' : ℝ, ∀ A B e e', ksdtFin P (ksdtRec A B e e') a =
    -(q + A * (a.t31 * e * (a.t126 / 4))) * (a.t63 * a.t8 * a.t2 * a.t17) / (1 + a.t31 * e * (a.t126 / 4)) * (1 - a.t243) / 3
    - (q' + B * (a.t257 * e' * (a.t126 / 4))) * (a.t63 * a.t8 * a.t2 * a.t17) / (1 + a.t257 * e' * (a.t126 / 4)) * a.t243 / 3 := by
  refine ⟨a.t1 * a.t3 * a.t5 * a.t8 * a.t31 * (N 75 (-2) + N 45090814814814814815 (-20) * a.t45 - N 82017777777777777776 (-21) * a.t55 + N 33649382716049382717 (-20) * a.t69) / (N 1 0 + N 12311866666666666667 (-19) * a.t45 + N 10094814814814814815 (-19) * a.t69) / 4,
    a.t248 * a.t1 * a.t3 * a.t5 * a.t8 * a.t257 * (N 75 (-2) + N 11272703703703703704 (-20) * a.t261 - N 20504444444444444444 (-21) * a.t55 + N 42061728395061728396 (-21) * a.t266) / (N 1 0 + N 30779666666666666667 (-20) * a.t261 + N 12618518518518518519 (-20) * a.t266) / 4, fun A B e e' => ?_⟩
  simp [ksdtFin, ksdtRec, nameCode, nameCodeChars, N]
  ring

theorem tanh_pos {x : ℝ} (h : 0 < x) : 0 < Real.tanh x := by
  rw [Real.tanh_eq_sinh_div_cosh]; exact div_pos (Real.sinh_pos_iff.mpr h) (Real.cosh_pos x)

/-- A positive constant. -/
def c31 : ℝ := cbrtR 9 ^ 2 * (cbrtR (1 / Real.pi) * (1 / Real.pi))⁻¹ * (cbrtR 3 * cbrtR 4 ^ 2) / 6

theorem c31_pos : 0 < c31 := by
  have a1 := cbrtR_pos (x := 9) (by norm_num)
  have a2 := cbrtR_pos (x := 1 / Real.pi) (by positivity)
  have a3 := cbrtR_pos (x := 4) (by norm_num)
  have a4 := cbrtR_pos (x := 3) (by norm_num)
  unfold c31
  positivity

theorem ksdt_t31 (P : Prims) (r0 r1 : ℝ) (h : r0 + r1 = 4) :
    (ksdtPre P (ksdtRec 0 0 0 0) r0 r1).t31 = Real.tanh (c31 * (cbrtR ((r0 - r1) / 4 + 1) ^ 2)⁻¹) := by
  simp [ksdtPre, ksdtRec, nameCode, nameCodeChars, fn1Val, N, h, c31, ← div_eq_mul_inv]
  congr 1
  ring

theorem ksdt_t257 (P : Prims) (r0 r1 : ℝ) (h : r0 + r1 = 4) :
    (ksdtPre P (ksdtRec 0 0 0 0) r0 r1).t257 = Real.tanh (c31 * cbrtR 2 ^ 2 * (cbrtR ((r0 - r1) / 4 + 1) ^ 2)⁻¹) := by
  simp [ksdtPre, ksdtRec, nameCode, nameCodeChars, fn1Val, N, h, c31, ← div_eq_mul_inv]
  congr 1
  ring

/-- Another positive constant. -/
def c126 : ℝ := cbrtR 3 * cbrtR (1 / Real.pi) * cbrtR 4 ^ 2 / cbrtR 4
/-- Another positive constant. -/
def c63 : ℝ := cbrtR 3 ^ 2 * (1 / cbrtR (1 / Real.pi)) * cbrtR 4 * cbrtR 4

theorem ksdt_t126 (P : Prims) (r0 r1 : ℝ) (h : r0 + r1 = 4) : (ksdtPre P (ksdtRec 0 0 0 0) r0 r1).t126 = c126 := by
  simp [ksdtPre, fn1Val, N, h, c126]

theorem ksdt_c (P : Prims) (r0 r1 : ℝ) (h : r0 + r1 = 4) :
    (ksdtPre P (ksdtRec 0 0 0 0) r0 r1).t63 * (ksdtPre P (ksdtRec 0 0 0 0) r0 r1).t8 * (ksdtPre P (ksdtRec 0 0 0 0) r0 r1).t2 *
      (ksdtPre P (ksdtRec 0 0 0 0) r0 r1).t17 = c63 := by
  simp [ksdtPre, fn1Val, N, h, c63]

theorem c126_pos : 0 < c126 := by
  have a2 := cbrtR_pos (x := 1 / Real.pi) (by positivity)
  have a3 := cbrtR_pos (x := 4) (by norm_num)
  have a4 := cbrtR_pos (x := 3) (by norm_num)
  unfold c126
  positivity

theorem c63_pos : 0 < c63 := by
  have a2 := cbrtR_pos (x := 1 / Real.pi) (by positivity)
  have a3 := cbrtR_pos (x := 4) (by norm_num)
  have a4 := cbrtR_pos (x := 3) (by norm_num)
  unfold c63
  positivity

/-- The weights vanish if the two expressions agree for two values of `e`. -/
theorem weight_zero {t t' k w w' : ℝ} (ht : 0 < t) (ht' : 0 < t') (hk : 0 < k) (hne : t ≠ t')
    (h1 : t * 1 * k / (1 + t * 1 * k) * w = t' * 1 * k / (1 + t' * 1 * k) * w')
    (h2 : t * 2 * k / (1 + t * 2 * k) * w = t' * 2 * k / (1 + t' * 2 * k) * w') : w = 0 := by
  have p1 : 0 < 1 + t * k := by positivity
  have p2 : 0 < 1 + t' * k := by positivity
  have p3 : 0 < 1 + t * 2 * k := by positivity
  have p4 : 0 < 1 + t' * 2 * k := by positivity
  rw [mul_one, mul_one] at h1
  field_simp at h1 h2
  have e1 : t * w * (1 + t' * k) = t' * w' * (1 + t * k) := by linarith
  have e2 : t * w * (1 + t' * 2 * k) = t' * w' * (1 + t * 2 * k) := by linarith
  have e3 : t * w = t' * w' := by linarith
  rw [← e3] at e1
  have e4 : t * w * (k * (t' - t)) = 0 := by linarith
  rcases mul_eq_zero.mp e4 with h | h
  · exact (mul_eq_zero.mp h).resolve_left ht.ne'
  · exact absurd (mul_eq_zero.mp h) (by push Not; exact ⟨hk.ne', sub_ne_zero.mpr hne.symm⟩)

theorem tanh_arg_ne {c : ℝ} (hc : 0 < c) : Real.tanh (c * (cbrtR ((3 - 1) / 4 + 1) ^ 2)⁻¹) ≠ Real.tanh (c * (cbrtR ((1 - 3) / 4 + 1) ^ 2)⁻¹) := by
  intro h
  have h := mul_left_cancel₀ hc.ne' (Real.tanh_injective h)
  have a := cbrtR_pos (x := (1 - 3) / 4 + 1) (by norm_num)
  have b := cbrtR_lt (x := (1 - 3) / 4 + 1) (y := (3 - 1) / 4 + 1) (by norm_num) (by norm_num)
  have := inv_injective h
  nlinarith

/-- C22 fails for `lda_xc_ksdt`, whatever the values of the special functions are: `thetaParam` multiplies the spin polarization itself. -/
theorem lda_xc_ksdt_not_spinFlip (P : Prims) : ∃ p : Rec, Thresholds p ∧ p.fld .zetaThreshold < 1 ∧
    lda_xc_ksdt.pol P p (3, 1) none none none ≠ lda_xc_ksdt.pol P p (1, 3) none none none := by
  by_contra hc
  push Not at hc
  have key : ∀ A B e e', ksdtFin P (ksdtRec A B e e') (ksdtPre P (ksdtRec 0 0 0 0) 3 1) = ksdtFin P (ksdtRec A B e e') (ksdtPre P (ksdtRec 0 0 0 0) 1 3) := by
    intro A B e e'
    have h := hc (ksdtRec A B e e') ⟨by norm_num [ksdtRec], by norm_num [ksdtRec]⟩ (by norm_num [ksdtRec])
    rw [ksdtPol_eq, ksdtPol_eq, ksdtPre_rec, ksdtPre_rec P A B e e' 1 3] at h
    injection h
  obtain ⟨q, q', hq⟩ := ksdtFin_rec P (ksdtPre P (ksdtRec 0 0 0 0) 3 1)
  obtain ⟨u, u', hu⟩ := ksdtFin_rec P (ksdtPre P (ksdtRec 0 0 0 0) 1 3)
  simp only [hq, hu, ksdt_c P 3 1 (by norm_num), ksdt_c P 1 3 (by norm_num), ksdt_t126 P 3 1 (by norm_num), ksdt_t126 P 1 3 (by norm_num),
    ksdt_t31 P 3 1 (by norm_num), ksdt_t31 P 1 3 (by norm_num), ksdt_t257 P 3 1 (by norm_num), ksdt_t257 P 1 3 (by norm_num)] at key
  have hk : 0 < c126 / 4 := by have := c126_pos; positivity
  have p1 : 0 < Real.tanh (c31 * (cbrtR ((3 - 1) / 4 + 1) ^ 2)⁻¹) := by
    have := cbrtR_pos (x := (3 - 1) / 4 + 1) (by norm_num); have := c31_pos; exact tanh_pos (by positivity)
  have p2 : 0 < Real.tanh (c31 * (cbrtR ((1 - 3) / 4 + 1) ^ 2)⁻¹) := by
    have := cbrtR_pos (x := (1 - 3) / 4 + 1) (by norm_num); have := c31_pos; exact tanh_pos (by positivity)
  have c2 := cbrtR_pos (x := 2) (by norm_num)
  have p3 : 0 < Real.tanh (c31 * cbrtR 2 ^ 2 * (cbrtR ((3 - 1) / 4 + 1) ^ 2)⁻¹) := by
    have := cbrtR_pos (x := (3 - 1) / 4 + 1) (by norm_num); have := c31_pos; exact tanh_pos (by positivity)
  have p4 : 0 < Real.tanh (c31 * cbrtR 2 ^ 2 * (cbrtR ((1 - 3) / 4 + 1) ^ 2)⁻¹) := by
    have := cbrtR_pos (x := (1 - 3) / 4 + 1) (by norm_num); have := c31_pos; exact tanh_pos (by positivity)
  have n1 := tanh_arg_ne c31_pos
  have n2 := tanh_arg_ne (c := c31 * cbrtR 2 ^ 2) (by have := c31_pos; positivity)
  have hC := c63_pos
  generalize Real.tanh (c31 * (cbrtR ((3 - 1) / 4 + 1) ^ 2)⁻¹) = t at *
  generalize Real.tanh (c31 * (cbrtR ((1 - 3) / 4 + 1) ^ 2)⁻¹) = t' at *
  generalize Real.tanh (c31 * cbrtR 2 ^ 2 * (cbrtR ((3 - 1) / 4 + 1) ^ 2)⁻¹) = v at *
  generalize Real.tanh (c31 * cbrtR 2 ^ 2 * (cbrtR ((1 - 3) / 4 + 1) ^ 2)⁻¹) = v' at *
  generalize (ksdtPre P (ksdtRec 0 0 0 0) 3 1).t243 = w at *
  generalize (ksdtPre P (ksdtRec 0 0 0 0) 1 3).t243 = w' at *
  generalize c126 / 4 = k at *
  generalize c63 = C at *
  have hA : ∀ e, t * e * k / (1 + t * e * k) * (1 - w) = t' * e * k / (1 + t' * e * k) * (1 - w') := by
    intro e
    have a := key 1 0 e 0
    have b := key 0 0 e 0
    have : C / 3 * (t * e * k / (1 + t * e * k) * (1 - w)) = C / 3 * (t' * e * k / (1 + t' * e * k) * (1 - w')) := by
      simp only [div_eq_mul_inv] at a b ⊢
      linear_combination b - a
    exact mul_left_cancel₀ (by positivity) this
  have hB : ∀ e, v * e * k / (1 + v * e * k) * w = v' * e * k / (1 + v' * e * k) * w' := by
    intro e
    have a := key 0 1 0 e
    have b := key 0 0 0 e
    have : C / 3 * (v * e * k / (1 + v * e * k) * w) = C / 3 * (v' * e * k / (1 + v' * e * k) * w') := by
      simp only [div_eq_mul_inv] at a b ⊢
      linear_combination b - a
    exact mul_left_cancel₀ (by positivity) this
  have z1 := weight_zero p1 p2 hk n1 (hA 1) (hA 2)
  have z2 := weight_zero p3 p4 hk n2 (hB 1) (hB 2)
  linarith

theorem lda_xc_ksdt_not_spinFlipZ : ¬ SpinFlipZ .lda lda_xc_ksdt := by
  intro h
  obtain ⟨p, hp, hz, hn⟩ := lda_xc_ksdt_not_spinFlip ⟨id, id, id, id, id, fun _ => id⟩
  obtain ⟨e, h1, h2⟩ := h _ p 3 1 0 0 0 0 0 0 0 hp hz (by norm_num) (by norm_num) le_rfl le_rfl le_rfl le_rfl
  exact hn (h1.trans h2.symm)

end
end Verif.Props
