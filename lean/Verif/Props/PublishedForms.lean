import Verif.Norm.Published
import Verif.Lib.ClosedForm
import Verif.Py.KernelRfl
import Verif.Spec.Literature
import Verif.Data.F01
import Verif.Data.F05
import Verif.Data.F09
import Verif.Data.F13
/-!
# Shipped files against programs written after the published formulas

Proof machinery for C58.  `…_q` is a program written after the formula of the literature, `…_qE` the same as a real expression; the theorem states that
the shipped file computes it away from the thresholds.
-/
set_option maxRecDepth 100000
set_option Elab.async false
set_option linter.unusedVariables false
namespace Verif.Norm
open Verif.Py Verif.Model Verif.Spec Verif.Data Verif.Lib
noncomputable section
open Classical

prog lda_c_pw_q "t1 = r0 + r1
t2 = (3 / (4 * math.pi * t1)) ** (1 / 3)
t3 = (r0 - r1) / t1
t4 = ((1 + t3) ** (4 / 3) + (1 - t3) ** (4 / 3) - 2) / (2 ** (4 / 3) - 2)
t5 = -2 * params_a_a[0] * (1 + params_a_alpha1[0] * t2) * math.log(1 + 1 / 2 / params_a_a[0] / (params_a_beta1[0] * math.sqrt(t2) + params_a_beta2[0] * t2 + params_a_beta3[0] * t2 ** (3 / 2) + params_a_beta4[0] * t2 ** (params_a_pp[0] + 1)))
t6 = -2 * params_a_a[1] * (1 + params_a_alpha1[1] * t2) * math.log(1 + 1 / 2 / params_a_a[1] / (params_a_beta1[1] * math.sqrt(t2) + params_a_beta2[1] * t2 + params_a_beta3[1] * t2 ** (3 / 2) + params_a_beta4[1] * t2 ** (params_a_pp[1] + 1)))
t7 = -2 * params_a_a[2] * (1 + params_a_alpha1[2] * t2) * math.log(1 + 1 / 2 / params_a_a[2] / (params_a_beta1[2] * math.sqrt(t2) + params_a_beta2[2] * t2 + params_a_beta3[2] * t2 ** (3 / 2) + params_a_beta4[2] * t2 ** (params_a_pp[2] + 1)))
res = t5 + -t7 * t4 / params_a_fz20 * (1 - t3 ** 4) + (t6 - t5) * t4 * t3 ** 4"

theorem lda_c_pw_ok : pubPol 1000 .lda lda_c_pw.polBody lda_c_pw_q = true := by decide +kernel

def lda_c_pw_qE (P : Prims) (p : Rec) (r0 r1 : ℝ) : ℝ :=
  let t1 := (r0 + r1)
  let t2 := (((N 3 (0)) / (((N 4 (0)) * Real.pi) * t1)) ^ ((N 1 (0)) / (N 3 (0))))
  let t3 := ((r0 - r1) / t1)
  let t4 := ((((((N 1 (0)) + t3) ^ ((N 4 (0)) / (N 3 (0)))) + (((N 1 (0)) - t3) ^ ((N 4 (0)) / (N 3 (0))))) - (N 2 (0))) / (((N 2 (0)) ^ ((N 4 (0)) / (N 3 (0)))) - (N 2 (0))))
  let t5 := ((((-(N 2 (0))) * (par p "a[0]")) * ((N 1 (0)) + ((par p "alpha1[0]") * t2))) * (fn1Val P .log ((N 1 (0)) + ((((N 1 (0)) / (N 2 (0))) / (par p "a[0]")) / (((((par p "beta1[0]") * (fn1Val P .sqrt t2)) + ((par p "beta2[0]") * t2)) + ((par p "beta3[0]") * (t2 ^ ((N 3 (0)) / (N 2 (0)))))) + ((par p "beta4[0]") * (t2 ^ ((par p "pp[0]") + (N 1 (0))))))))))
  let t6 := ((((-(N 2 (0))) * (par p "a[1]")) * ((N 1 (0)) + ((par p "alpha1[1]") * t2))) * (fn1Val P .log ((N 1 (0)) + ((((N 1 (0)) / (N 2 (0))) / (par p "a[1]")) / (((((par p "beta1[1]") * (fn1Val P .sqrt t2)) + ((par p "beta2[1]") * t2)) + ((par p "beta3[1]") * (t2 ^ ((N 3 (0)) / (N 2 (0)))))) + ((par p "beta4[1]") * (t2 ^ ((par p "pp[1]") + (N 1 (0))))))))))
  let t7 := ((((-(N 2 (0))) * (par p "a[2]")) * ((N 1 (0)) + ((par p "alpha1[2]") * t2))) * (fn1Val P .log ((N 1 (0)) + ((((N 1 (0)) / (N 2 (0))) / (par p "a[2]")) / (((((par p "beta1[2]") * (fn1Val P .sqrt t2)) + ((par p "beta2[2]") * t2)) + ((par p "beta3[2]") * (t2 ^ ((N 3 (0)) / (N 2 (0)))))) + ((par p "beta4[2]") * (t2 ^ ((par p "pp[2]") + (N 1 (0))))))))))
  ((t5 + ((((-t7) * t4) / (par p "fz20")) * ((N 1 (0)) - (t3 ^ (N 4 (0)))))) + (((t6 - t5) * t4) * (t3 ^ (N 4 (0)))))

theorem lda_c_pw_qE_eq (P : Prims) (p : Rec) (r0 r1 : ℝ) : run P (polEnv p (r0, r1) none none none) lda_c_pw_q = .ok (lda_c_pw_qE P p r0 r1) := by kernel_rfl

theorem lda_c_pw_eq (P : Prims) (p : Rec) (r0 r1 : ℝ) (ht : Thresholds p) (h0 : 0 < r0) (h1 : 0 < r1) (hu : Unscreened p r0 r1) :
    lda_c_pw.pol P p (r0, r1) none none none = .ok (lda_c_pw_qE P p r0 r1) := by
  obtain ⟨x, e, e'⟩ := pubPol_of lda_c_pw_ok P p r0 r1 0 0 0 0 0 0 0 ht h0 h1 le_rfl le_rfl le_rfl le_rfl hu
  rw [lda_c_pw_qE_eq P p r0 r1 |>.symm.trans e' |> Except.ok.inj]
  exact e

prog lda_c_pz_q "t1 = r0 + r1
t2 = (3 / (4 * math.pi * t1)) ** (1 / 3)
t3 = (r0 - r1) / t1
t4 = ((1 + t3) ** (4 / 3) + (1 - t3) ** (4 / 3) - 2) / (2 ** (4 / 3) - 2)
t5 = lax_cond(1 <= t2, params_a_gamma[0] / (1 + params_a_beta1[0] * math.sqrt(t2) + params_a_beta2[0] * t2), params_a_a[0] * math.log(t2) + params_a_b[0] + params_a_c[0] * (t2 * math.log(t2)) + params_a_d[0] * t2)
t6 = lax_cond(1 <= t2, params_a_gamma[1] / (1 + params_a_beta1[1] * math.sqrt(t2) + params_a_beta2[1] * t2), params_a_a[1] * math.log(t2) + params_a_b[1] + params_a_c[1] * (t2 * math.log(t2)) + params_a_d[1] * t2)
res = t5 + (t6 - t5) * t4"

theorem lda_c_pz_ok : pubPol 1000 .lda lda_c_pz.polBody lda_c_pz_q = true := by decide +kernel

def lda_c_pz_qE (P : Prims) (p : Rec) (r0 r1 : ℝ) : ℝ :=
  let t1 := (r0 + r1)
  let t2 := (((N 3 (0)) / (((N 4 (0)) * Real.pi) * t1)) ^ ((N 1 (0)) / (N 3 (0))))
  let t3 := ((r0 - r1) / t1)
  let t4 := ((((((N 1 (0)) + t3) ^ ((N 4 (0)) / (N 3 (0)))) + (((N 1 (0)) - t3) ^ ((N 4 (0)) / (N 3 (0))))) - (N 2 (0))) / (((N 2 (0)) ^ ((N 4 (0)) / (N 3 (0)))) - (N 2 (0))))
  let t5 := (cnd ((N 1 (0)) ≤ t2) ((par p "gamma[0]") / (((N 1 (0)) + ((par p "beta1[0]") * (fn1Val P .sqrt t2))) + ((par p "beta2[0]") * t2))) (((((par p "a[0]") * (fn1Val P .log t2)) + (par p "b[0]")) + ((par p "c[0]") * (t2 * (fn1Val P .log t2)))) + ((par p "d[0]") * t2)))
  let t6 := (cnd ((N 1 (0)) ≤ t2) ((par p "gamma[1]") / (((N 1 (0)) + ((par p "beta1[1]") * (fn1Val P .sqrt t2))) + ((par p "beta2[1]") * t2))) (((((par p "a[1]") * (fn1Val P .log t2)) + (par p "b[1]")) + ((par p "c[1]") * (t2 * (fn1Val P .log t2)))) + ((par p "d[1]") * t2)))
  (t5 + ((t6 - t5) * t4))

theorem lda_c_pz_qE_eq (P : Prims) (p : Rec) (r0 r1 : ℝ) : run P (polEnv p (r0, r1) none none none) lda_c_pz_q = .ok (lda_c_pz_qE P p r0 r1) := by kernel_rfl

theorem lda_c_pz_eq (P : Prims) (p : Rec) (r0 r1 : ℝ) (ht : Thresholds p) (h0 : 0 < r0) (h1 : 0 < r1) (hu : Unscreened p r0 r1) :
    lda_c_pz.pol P p (r0, r1) none none none = .ok (lda_c_pz_qE P p r0 r1) := by
  obtain ⟨x, e, e'⟩ := pubPol_of lda_c_pz_ok P p r0 r1 0 0 0 0 0 0 0 ht h0 h1 le_rfl le_rfl le_rfl le_rfl hu
  rw [lda_c_pz_qE_eq P p r0 r1 |>.symm.trans e' |> Except.ok.inj]
  exact e

prog gga_c_pbe_q "t1 = r0 + r1
t2 = (3 / (4 * math.pi * t1)) ** (1 / 3)
t3 = (r0 - r1) / t1
t4 = ((1 + t3) ** (4 / 3) + (1 - t3) ** (4 / 3) - 2) / (2 ** (4 / 3) - 2)
t5 = -(621814 / 10000000) * (1 + 2137 / 10000 * t2) * math.log(1 + (16081979498692535067 / 1000000000000000000) / (75957 / 10000 * t2 ** (1 / 2) + 35876 / 10000 * t2 + 16382 / 10000 * t2 ** (3 / 2) + 49294 / 100000 * t2 ** 2))
t6 = -(310907 / 10000000) * (1 + 20548 / 100000 * t2) * math.log(1 + (32163958997385070134 / 1000000000000000000) / (141189 / 10000 * t2 ** (1 / 2) + 61977 / 10000 * t2 + 33662 / 10000 * t2 ** (3 / 2) + 62517 / 100000 * t2 ** 2))
t7 = (19751673498613801407 / 1000000000000000000000) * (1 + 11125 / 100000 * t2) * math.log(1 + (29608749977793437516 / 1000000000000000000) / (10357 / 1000 * t2 ** (1 / 2) + 36231 / 10000 * t2 + 88026 / 100000 * t2 ** (3 / 2) + 49671 / 100000 * t2 ** 2))
t8 = t5 + t7 * t4 * (1 - t3 ** 4) + (t6 - t5) * t4 * t3 ** 4
t9 = ((1 + t3) ** (2 / 3) + (1 - t3) ** (2 / 3)) / 2
t10 = s0 + 2 * s1 + s2
t11 = (3 * math.pi ** 2 * t1) ** (1 / 3)
t12 = t10 / t9 ** 2 / (16 * t11 / math.pi * t1 ** 2)
t14 = t10 ** 2 / t9 ** 4 / (16 * t11 / math.pi * t1 ** 2) ** 2
t13 = params_a_beta / params_a_gamma / (math.exp(-t8 / params_a_gamma / t9 ** 3) - 1)
res = t8 + params_a_gamma * t9 ** 3 * math.log(1 + params_a_beta / params_a_gamma * (t12 + params_a_BB * t13 * t14) / (1 + t13 * (t12 + params_a_BB * t13 * t14)))"

theorem gga_c_pbe_ok : pubPol 1000 .gga gga_c_pbe.polBody gga_c_pbe_q = true := by decide +kernel

def gga_c_pbe_qE (P : Prims) (p : Rec) (r0 r1 s0 s1 s2 : ℝ) : ℝ :=
  let t1 := (r0 + r1)
  let t2 := (((N 3 (0)) / (((N 4 (0)) * Real.pi) * t1)) ^ ((N 1 (0)) / (N 3 (0))))
  let t3 := ((r0 - r1) / t1)
  let t4 := ((((((N 1 (0)) + t3) ^ ((N 4 (0)) / (N 3 (0)))) + (((N 1 (0)) - t3) ^ ((N 4 (0)) / (N 3 (0))))) - (N 2 (0))) / (((N 2 (0)) ^ ((N 4 (0)) / (N 3 (0)))) - (N 2 (0))))
  let t5 := (((-((N 621814 (0)) / (N 10000000 (0)))) * ((N 1 (0)) + (((N 2137 (0)) / (N 10000 (0))) * t2))) * (fn1Val P .log ((N 1 (0)) + (((N 16081979498692535067 (0)) / (N 1000000000000000000 (0))) / ((((((N 75957 (0)) / (N 10000 (0))) * (t2 ^ ((N 1 (0)) / (N 2 (0))))) + (((N 35876 (0)) / (N 10000 (0))) * t2)) + (((N 16382 (0)) / (N 10000 (0))) * (t2 ^ ((N 3 (0)) / (N 2 (0)))))) + (((N 49294 (0)) / (N 100000 (0))) * (t2 ^ (N 2 (0)))))))))
  let t6 := (((-((N 310907 (0)) / (N 10000000 (0)))) * ((N 1 (0)) + (((N 20548 (0)) / (N 100000 (0))) * t2))) * (fn1Val P .log ((N 1 (0)) + (((N 32163958997385070134 (0)) / (N 1000000000000000000 (0))) / ((((((N 141189 (0)) / (N 10000 (0))) * (t2 ^ ((N 1 (0)) / (N 2 (0))))) + (((N 61977 (0)) / (N 10000 (0))) * t2)) + (((N 33662 (0)) / (N 10000 (0))) * (t2 ^ ((N 3 (0)) / (N 2 (0)))))) + (((N 62517 (0)) / (N 100000 (0))) * (t2 ^ (N 2 (0)))))))))
  let t7 := ((((N 19751673498613801407 (0)) / (N 1000000000000000000000 (0))) * ((N 1 (0)) + (((N 11125 (0)) / (N 100000 (0))) * t2))) * (fn1Val P .log ((N 1 (0)) + (((N 29608749977793437516 (0)) / (N 1000000000000000000 (0))) / ((((((N 10357 (0)) / (N 1000 (0))) * (t2 ^ ((N 1 (0)) / (N 2 (0))))) + (((N 36231 (0)) / (N 10000 (0))) * t2)) + (((N 88026 (0)) / (N 100000 (0))) * (t2 ^ ((N 3 (0)) / (N 2 (0)))))) + (((N 49671 (0)) / (N 100000 (0))) * (t2 ^ (N 2 (0)))))))))
  let t8 := ((t5 + ((t7 * t4) * ((N 1 (0)) - (t3 ^ (N 4 (0)))))) + (((t6 - t5) * t4) * (t3 ^ (N 4 (0)))))
  let t9 := (((((N 1 (0)) + t3) ^ ((N 2 (0)) / (N 3 (0)))) + (((N 1 (0)) - t3) ^ ((N 2 (0)) / (N 3 (0))))) / (N 2 (0)))
  let t10 := ((s0 + ((N 2 (0)) * s1)) + s2)
  let t11 := ((((N 3 (0)) * (Real.pi ^ (N 2 (0)))) * t1) ^ ((N 1 (0)) / (N 3 (0))))
  let t12 := ((t10 / (t9 ^ (N 2 (0)))) / ((((N 16 (0)) * t11) / Real.pi) * (t1 ^ (N 2 (0)))))
  let t14 := (((t10 ^ (N 2 (0))) / (t9 ^ (N 4 (0)))) / (((((N 16 (0)) * t11) / Real.pi) * (t1 ^ (N 2 (0)))) ^ (N 2 (0))))
  let t13 := (((par p "beta") / (par p "gamma")) / ((fn1Val P .exp (((-t8) / (par p "gamma")) / (t9 ^ (N 3 (0))))) - (N 1 (0))))
  (t8 + (((par p "gamma") * (t9 ^ (N 3 (0)))) * (fn1Val P .log ((N 1 (0)) + ((((par p "beta") / (par p "gamma")) * (t12 + (((par p "BB") * t13) * t14))) / ((N 1 (0)) + (t13 * (t12 + (((par p "BB") * t13) * t14)))))))))

theorem gga_c_pbe_qE_eq (P : Prims) (p : Rec) (r0 r1 s0 s1 s2 : ℝ) : run P (polEnv p (r0, r1) (some (s0, s1, s2)) none none) gga_c_pbe_q = .ok (gga_c_pbe_qE P p r0 r1 s0 s1 s2) := by kernel_rfl

theorem gga_c_pbe_eq (P : Prims) (p : Rec) (r0 r1 s0 s1 s2 : ℝ) (ht : Thresholds p) (h0 : 0 < r0) (h1 : 0 < r1) (hs0 : 0 ≤ s0) (hs2 : 0 ≤ s2) (hu : Unscreened p r0 r1) :
    gga_c_pbe.pol P p (r0, r1) (some (s0, s1, s2)) none none = .ok (gga_c_pbe_qE P p r0 r1 s0 s1 s2) := by
  obtain ⟨x, e, e'⟩ := pubPol_of gga_c_pbe_ok P p r0 r1 s0 s1 s2 0 0 0 0 ht h0 h1 hs0 hs2 le_rfl le_rfl hu
  rw [gga_c_pbe_qE_eq P p r0 r1 s0 s1 s2 |>.symm.trans e' |> Except.ok.inj]
  exact e

prog gga_c_lyp_q "t1 = r0 + r1
t2 = 1 / t1 ** (1 / 3)
t3 = math.exp(-params_a_c * t2) / (1 + params_a_d * t2) / t1 ** (11 / 3)
t4 = params_a_c * t2 + params_a_d * t2 / (1 + params_a_d * t2)
t5 = 3 / 10 * (3 * math.pi ** 2) ** (2 / 3)
t6 = s0 + 2 * s1 + s2
t7 = 2 ** (11 / 3) * t5 * (r0 ** (8 / 3) + r1 ** (8 / 3)) + (47 / 18 - 7 * t4 / 18) * t6 - (5 / 2 - t4 / 18) * (s0 + s2) - (t4 - 11) / 9 * (r0 / t1 * s0 + r1 / t1 * s2)
t9 = (1 - (r0 - r1) ** 2 / t1 ** 2) / 4 * t1 ** 2
t8 = t9 * t7 - 2 / 3 * t1 ** 2 * t6 + (2 / 3 * t1 ** 2 - r0 ** 2) * s2 + (2 / 3 * t1 ** 2 - r1 ** 2) * s0
res = (-params_a_a * (4 / (1 + params_a_d * t2)) * (t9 / t1) - params_a_a * params_a_b * t3 * t8) / t1"

theorem gga_c_lyp_ok : pubPol 1000 .gga gga_c_lyp.polBody gga_c_lyp_q = true := by decide +kernel

def gga_c_lyp_qE (P : Prims) (p : Rec) (r0 r1 s0 s1 s2 : ℝ) : ℝ :=
  let t1 := (r0 + r1)
  let t2 := ((N 1 (0)) / (t1 ^ ((N 1 (0)) / (N 3 (0)))))
  let t3 := (((fn1Val P .exp ((-(par p "c")) * t2)) / ((N 1 (0)) + ((par p "d") * t2))) / (t1 ^ ((N 11 (0)) / (N 3 (0)))))
  let t4 := (((par p "c") * t2) + (((par p "d") * t2) / ((N 1 (0)) + ((par p "d") * t2))))
  let t5 := (((N 3 (0)) / (N 10 (0))) * (((N 3 (0)) * (Real.pi ^ (N 2 (0)))) ^ ((N 2 (0)) / (N 3 (0)))))
  let t6 := ((s0 + ((N 2 (0)) * s1)) + s2)
  let t7 := (((((((N 2 (0)) ^ ((N 11 (0)) / (N 3 (0)))) * t5) * ((r0 ^ ((N 8 (0)) / (N 3 (0)))) + (r1 ^ ((N 8 (0)) / (N 3 (0)))))) + ((((N 47 (0)) / (N 18 (0))) - (((N 7 (0)) * t4) / (N 18 (0)))) * t6)) - ((((N 5 (0)) / (N 2 (0))) - (t4 / (N 18 (0)))) * (s0 + s2))) - (((t4 - (N 11 (0))) / (N 9 (0))) * (((r0 / t1) * s0) + ((r1 / t1) * s2))))
  let t9 := ((((N 1 (0)) - (((r0 - r1) ^ (N 2 (0))) / (t1 ^ (N 2 (0))))) / (N 4 (0))) * (t1 ^ (N 2 (0))))
  let t8 := ((((t9 * t7) - ((((N 2 (0)) / (N 3 (0))) * (t1 ^ (N 2 (0)))) * t6)) + (((((N 2 (0)) / (N 3 (0))) * (t1 ^ (N 2 (0)))) - (r0 ^ (N 2 (0)))) * s2)) + (((((N 2 (0)) / (N 3 (0))) * (t1 ^ (N 2 (0)))) - (r1 ^ (N 2 (0)))) * s0))
  (((((-(par p "a")) * ((N 4 (0)) / ((N 1 (0)) + ((par p "d") * t2)))) * (t9 / t1)) - ((((par p "a") * (par p "b")) * t3) * t8)) / t1)

theorem gga_c_lyp_qE_eq (P : Prims) (p : Rec) (r0 r1 s0 s1 s2 : ℝ) : run P (polEnv p (r0, r1) (some (s0, s1, s2)) none none) gga_c_lyp_q = .ok (gga_c_lyp_qE P p r0 r1 s0 s1 s2) := by kernel_rfl

theorem gga_c_lyp_eq (P : Prims) (p : Rec) (r0 r1 s0 s1 s2 : ℝ) (ht : Thresholds p) (h0 : 0 < r0) (h1 : 0 < r1) (hs0 : 0 ≤ s0) (hs2 : 0 ≤ s2) (hu : Unscreened p r0 r1) :
    gga_c_lyp.pol P p (r0, r1) (some (s0, s1, s2)) none none = .ok (gga_c_lyp_qE P p r0 r1 s0 s1 s2) := by
  obtain ⟨x, e, e'⟩ := pubPol_of gga_c_lyp_ok P p r0 r1 s0 s1 s2 0 0 0 0 ht h0 h1 hs0 hs2 le_rfl le_rfl hu
  rw [gga_c_lyp_qE_eq P p r0 r1 s0 s1 s2 |>.symm.trans e' |> Except.ok.inj]
  exact e

prog lda_c_vwn_q "t1 = r0 + r1
t2 = (3 / (4 * math.pi * t1)) ** (1 / 3)
t3 = (r0 - r1) / t1
t4 = ((1 + t3) ** (4 / 3) + (1 - t3) ** (4 / 3) - 2) / (2 ** (4 / 3) - 2)
t8 = math.sqrt(t2)
t5 = (310907 / 10000000) * math.log(t8 ** 2 / (t8 ** 2 + (372744 / 100000) * t8 + (129352 / 10000))) + (38783294878113014393 / 1000000000000000000000) * math.atan((61519908197590802322 / 10000000000000000000) / (2 * t8 + (372744 / 100000))) + (96902277115443742139 / 100000000000000000000000) * math.log((t8 + (10498 / 100000)) ** 2 / (t8 ** 2 + (372744 / 100000) * t8 + (129352 / 10000)))
t6 = (1554535 / 100000000) * math.log(t8 ** 2 / (t8 ** 2 + (706042 / 100000) * t8 + (180578 / 10000))) + (52491393169780936218 / 1000000000000000000000) * math.atan((47309269095601128300 / 10000000000000000000) / (2 * t8 + (706042 / 100000))) + (22478670955426118383 / 10000000000000000000000) * math.log((t8 + (32500 / 100000)) ** 2 / (t8 ** 2 + (706042 / 100000) * t8 + (180578 / 10000)))
t7 = -(1 / (6 * math.pi ** 2)) * (math.log(t8 ** 2 / (t8 ** 2 + (113107 / 100000) * t8 + (130045 / 10000))) + (31770800474394146400 / 100000000000000000000) * math.atan((71231089178181179908 / 10000000000000000000) / (2 * t8 + (113107 / 100000))) + (41403379428206274608 / 100000000000000000000000) * math.log((t8 + (47584 / 10000000)) ** 2 / (t8 ** 2 + (113107 / 100000) * t8 + (130045 / 10000))))
res = t5 + t7 * t4 * (9 / 4 * (2 ** (1 / 3) - 1)) * (1 - t3 ** 4) + (t6 - t5) * t4 * t3 ** 4"

theorem lda_c_vwn_ok : pubPol 1000 .lda lda_c_vwn.polBody lda_c_vwn_q = true := by decide +kernel

def lda_c_vwn_qE (P : Prims) (p : Rec) (r0 r1 : ℝ) : ℝ :=
  let t1 := (r0 + r1)
  let t2 := (((N 3 (0)) / (((N 4 (0)) * Real.pi) * t1)) ^ ((N 1 (0)) / (N 3 (0))))
  let t3 := ((r0 - r1) / t1)
  let t4 := ((((((N 1 (0)) + t3) ^ ((N 4 (0)) / (N 3 (0)))) + (((N 1 (0)) - t3) ^ ((N 4 (0)) / (N 3 (0))))) - (N 2 (0))) / (((N 2 (0)) ^ ((N 4 (0)) / (N 3 (0)))) - (N 2 (0))))
  let t8 := (fn1Val P .sqrt t2)
  let t5 := (((((N 310907 (0)) / (N 10000000 (0))) * (fn1Val P .log ((t8 ^ (N 2 (0))) / (((t8 ^ (N 2 (0))) + (((N 372744 (0)) / (N 100000 (0))) * t8)) + ((N 129352 (0)) / (N 10000 (0))))))) + (((N 38783294878113014393 (0)) / (N 1000000000000000000000 (0))) * (fn1Val P .arctan (((N 61519908197590802322 (0)) / (N 10000000000000000000 (0))) / (((N 2 (0)) * t8) + ((N 372744 (0)) / (N 100000 (0)))))))) + (((N 96902277115443742139 (0)) / (N 100000000000000000000000 (0))) * (fn1Val P .log (((t8 + ((N 10498 (0)) / (N 100000 (0)))) ^ (N 2 (0))) / (((t8 ^ (N 2 (0))) + (((N 372744 (0)) / (N 100000 (0))) * t8)) + ((N 129352 (0)) / (N 10000 (0))))))))
  let t6 := (((((N 1554535 (0)) / (N 100000000 (0))) * (fn1Val P .log ((t8 ^ (N 2 (0))) / (((t8 ^ (N 2 (0))) + (((N 706042 (0)) / (N 100000 (0))) * t8)) + ((N 180578 (0)) / (N 10000 (0))))))) + (((N 52491393169780936218 (0)) / (N 1000000000000000000000 (0))) * (fn1Val P .arctan (((N 47309269095601128300 (0)) / (N 10000000000000000000 (0))) / (((N 2 (0)) * t8) + ((N 706042 (0)) / (N 100000 (0)))))))) + (((N 22478670955426118383 (0)) / (N 10000000000000000000000 (0))) * (fn1Val P .log (((t8 + ((N 32500 (0)) / (N 100000 (0)))) ^ (N 2 (0))) / (((t8 ^ (N 2 (0))) + (((N 706042 (0)) / (N 100000 (0))) * t8)) + ((N 180578 (0)) / (N 10000 (0))))))))
  let t7 := ((-((N 1 (0)) / ((N 6 (0)) * (Real.pi ^ (N 2 (0)))))) * (((fn1Val P .log ((t8 ^ (N 2 (0))) / (((t8 ^ (N 2 (0))) + (((N 113107 (0)) / (N 100000 (0))) * t8)) + ((N 130045 (0)) / (N 10000 (0)))))) + (((N 31770800474394146400 (0)) / (N 100000000000000000000 (0))) * (fn1Val P .arctan (((N 71231089178181179908 (0)) / (N 10000000000000000000 (0))) / (((N 2 (0)) * t8) + ((N 113107 (0)) / (N 100000 (0)))))))) + (((N 41403379428206274608 (0)) / (N 100000000000000000000000 (0))) * (fn1Val P .log (((t8 + ((N 47584 (0)) / (N 10000000 (0)))) ^ (N 2 (0))) / (((t8 ^ (N 2 (0))) + (((N 113107 (0)) / (N 100000 (0))) * t8)) + ((N 130045 (0)) / (N 10000 (0)))))))))
  ((t5 + (((t7 * t4) * (((N 9 (0)) / (N 4 (0))) * (((N 2 (0)) ^ ((N 1 (0)) / (N 3 (0)))) - (N 1 (0))))) * ((N 1 (0)) - (t3 ^ (N 4 (0)))))) + (((t6 - t5) * t4) * (t3 ^ (N 4 (0)))))

theorem lda_c_vwn_qE_eq (P : Prims) (p : Rec) (r0 r1 : ℝ) : run P (polEnv p (r0, r1) none none none) lda_c_vwn_q = .ok (lda_c_vwn_qE P p r0 r1) := by kernel_rfl

theorem lda_c_vwn_eq (P : Prims) (p : Rec) (r0 r1 : ℝ) (ht : Thresholds p) (h0 : 0 < r0) (h1 : 0 < r1) (hu : Unscreened p r0 r1) :
    lda_c_vwn.pol P p (r0, r1) none none none = .ok (lda_c_vwn_qE P p r0 r1) := by
  obtain ⟨x, e, e'⟩ := pubPol_of lda_c_vwn_ok P p r0 r1 0 0 0 0 0 0 0 ht h0 h1 le_rfl le_rfl le_rfl le_rfl hu
  rw [lda_c_vwn_qE_eq P p r0 r1 |>.symm.trans e' |> Except.ok.inj]
  exact e

prog gga_c_p86_q "t1 = r0 + r1
t2 = (3 / (4 * math.pi * t1)) ** (1 / 3)
t3 = (r0 - r1) / t1
t4 = ((1 + t3) ** (4 / 3) + (1 - t3) ** (4 / 3) - 2) / (2 ** (4 / 3) - 2)
t5 = lax_cond(1 <= t2, -(1423 / 10000) / (1 + (10529 / 10000) * math.sqrt(t2) + (3334 / 10000) * t2), (311 / 10000) * math.log(t2) + -(48 / 1000) + (20 / 10000) * (t2 * math.log(t2)) + -(116 / 10000) * t2)
t6 = lax_cond(1 <= t2, -(843 / 10000) / (1 + (13981 / 10000) * math.sqrt(t2) + (2611 / 10000) * t2), (1555 / 100000) * math.log(t2) + -(269 / 10000) + (7 / 10000) * (t2 * math.log(t2)) + -(48 / 10000) * t2)
t7 = t5 + (t6 - t5) * t4
t8 = params_a_aa + (params_a_bb + params_a_malpha * t2 + params_a_mbeta * t2 ** 2) / (1 + params_a_mgamma * t2 + params_a_mdelta * t2 ** 2 + 10000 * params_a_mbeta * t2 ** 3)
t9 = s0 + 2 * s1 + s2
t10 = params_a_ftilde * ((params_a_aa + params_a_bb) / t8) * math.sqrt(t9) / t1 ** (7 / 6)
t11 = 2 ** (1 / 3) * math.sqrt(((1 + t3) / 2) ** (5 / 3) + ((1 - t3) / 2) ** (5 / 3))
res = t7 + math.exp(-t10) * t8 * t9 / (t11 * t1 ** (7 / 3))"

theorem gga_c_p86_ok : pubPol 1000 .gga gga_c_p86.polBody gga_c_p86_q = true := by decide +kernel

def gga_c_p86_qE (P : Prims) (p : Rec) (r0 r1 s0 s1 s2 : ℝ) : ℝ :=
  let t1 := (r0 + r1)
  let t2 := (((N 3 (0)) / (((N 4 (0)) * Real.pi) * t1)) ^ ((N 1 (0)) / (N 3 (0))))
  let t3 := ((r0 - r1) / t1)
  let t4 := ((((((N 1 (0)) + t3) ^ ((N 4 (0)) / (N 3 (0)))) + (((N 1 (0)) - t3) ^ ((N 4 (0)) / (N 3 (0))))) - (N 2 (0))) / (((N 2 (0)) ^ ((N 4 (0)) / (N 3 (0)))) - (N 2 (0))))
  let t5 := (cnd ((N 1 (0)) ≤ t2) ((-((N 1423 (0)) / (N 10000 (0)))) / (((N 1 (0)) + (((N 10529 (0)) / (N 10000 (0))) * (fn1Val P .sqrt t2))) + (((N 3334 (0)) / (N 10000 (0))) * t2))) ((((((N 311 (0)) / (N 10000 (0))) * (fn1Val P .log t2)) + (-((N 48 (0)) / (N 1000 (0))))) + (((N 20 (0)) / (N 10000 (0))) * (t2 * (fn1Val P .log t2)))) + ((-((N 116 (0)) / (N 10000 (0)))) * t2)))
  let t6 := (cnd ((N 1 (0)) ≤ t2) ((-((N 843 (0)) / (N 10000 (0)))) / (((N 1 (0)) + (((N 13981 (0)) / (N 10000 (0))) * (fn1Val P .sqrt t2))) + (((N 2611 (0)) / (N 10000 (0))) * t2))) ((((((N 1555 (0)) / (N 100000 (0))) * (fn1Val P .log t2)) + (-((N 269 (0)) / (N 10000 (0))))) + (((N 7 (0)) / (N 10000 (0))) * (t2 * (fn1Val P .log t2)))) + ((-((N 48 (0)) / (N 10000 (0)))) * t2)))
  let t7 := (t5 + ((t6 - t5) * t4))
  let t8 := ((par p "aa") + ((((par p "bb") + ((par p "malpha") * t2)) + ((par p "mbeta") * (t2 ^ (N 2 (0))))) / ((((N 1 (0)) + ((par p "mgamma") * t2)) + ((par p "mdelta") * (t2 ^ (N 2 (0))))) + (((N 10000 (0)) * (par p "mbeta")) * (t2 ^ (N 3 (0)))))))
  let t9 := ((s0 + ((N 2 (0)) * s1)) + s2)
  let t10 := ((((par p "ftilde") * (((par p "aa") + (par p "bb")) / t8)) * (fn1Val P .sqrt t9)) / (t1 ^ ((N 7 (0)) / (N 6 (0)))))
  let t11 := (((N 2 (0)) ^ ((N 1 (0)) / (N 3 (0)))) * (fn1Val P .sqrt (((((N 1 (0)) + t3) / (N 2 (0))) ^ ((N 5 (0)) / (N 3 (0)))) + ((((N 1 (0)) - t3) / (N 2 (0))) ^ ((N 5 (0)) / (N 3 (0)))))))
  (t7 + ((((fn1Val P .exp (-t10)) * t8) * t9) / (t11 * (t1 ^ ((N 7 (0)) / (N 3 (0)))))))

theorem gga_c_p86_qE_eq (P : Prims) (p : Rec) (r0 r1 s0 s1 s2 : ℝ) : run P (polEnv p (r0, r1) (some (s0, s1, s2)) none none) gga_c_p86_q = .ok (gga_c_p86_qE P p r0 r1 s0 s1 s2) := by kernel_rfl

theorem gga_c_p86_eq (P : Prims) (p : Rec) (r0 r1 s0 s1 s2 : ℝ) (ht : Thresholds p) (h0 : 0 < r0) (h1 : 0 < r1) (hs0 : 0 ≤ s0) (hs2 : 0 ≤ s2) (hu : Unscreened p r0 r1) :
    gga_c_p86.pol P p (r0, r1) (some (s0, s1, s2)) none none = .ok (gga_c_p86_qE P p r0 r1 s0 s1 s2) := by
  obtain ⟨x, e, e'⟩ := pubPol_of gga_c_p86_ok P p r0 r1 s0 s1 s2 0 0 0 0 ht h0 h1 hs0 hs2 le_rfl le_rfl hu
  rw [gga_c_p86_qE_eq P p r0 r1 s0 s1 s2 |>.symm.trans e' |> Except.ok.inj]
  exact e

prog mgga_x_tpss_q "t1 = s0 / (4 * (3 * math.pi ** 2) ** (2 / 3) * r0 ** (8 / 3))
t2 = s0 / (8 * r0)
t3 = 3 / 10 * (3 * math.pi ** 2) ** (2 / 3) * r0 ** (5 / 3)
t4 = (tau0 - t2) / t3
t5 = t2 / tau0
t6 = 9 / 20 * (t4 - 1) / math.sqrt(1 + params_a_b * t4 * (t4 - 1)) + 2 * t1 / 3
t7 = ((10 / 81 + params_a_c * t5 ** (params_a_BLOC_a + params_a_BLOC_b * t5) / (1 + t5 ** 2) ** 2) * t1 + 146 / 2025 * t6 ** 2 - 73 / 405 * t6 * math.sqrt(1 / 2 * (3 / 5 * t5) ** 2 + 1 / 2 * t1 ** 2) + 1 / params_a_kappa * (10 / 81) ** 2 * t1 ** 2 + 2 * math.sqrt(params_a_e) * (10 / 81) * (3 / 5 * t5) ** 2 + params_a_e * params_a_mu * t1 ** 3) / (1 + math.sqrt(params_a_e) * t1) ** 2
res = -(3 / 4) * (3 / math.pi) ** (1 / 3) * r0 ** (1 / 3) * (1 + params_a_kappa * (1 - params_a_kappa / (params_a_kappa + t7)))"

theorem mgga_x_tpss_ok : pubUnpol 1000 .mgga mgga_x_tpss.unpolBody mgga_x_tpss_q = true := by decide +kernel

def mgga_x_tpss_qE (P : Prims) (p : Rec) (r0 s0 l0 tau0 : ℝ) : ℝ :=
  let t1 := (s0 / (((N 4 (0)) * (((N 3 (0)) * (Real.pi ^ (N 2 (0)))) ^ ((N 2 (0)) / (N 3 (0))))) * (r0 ^ ((N 8 (0)) / (N 3 (0))))))
  let t2 := (s0 / ((N 8 (0)) * r0))
  let t3 := ((((N 3 (0)) / (N 10 (0))) * (((N 3 (0)) * (Real.pi ^ (N 2 (0)))) ^ ((N 2 (0)) / (N 3 (0))))) * (r0 ^ ((N 5 (0)) / (N 3 (0)))))
  let t4 := ((tau0 - t2) / t3)
  let t5 := (t2 / tau0)
  let t6 := (((((N 9 (0)) / (N 20 (0))) * (t4 - (N 1 (0)))) / (fn1Val P .sqrt ((N 1 (0)) + (((par p "b") * t4) * (t4 - (N 1 (0))))))) + (((N 2 (0)) * t1) / (N 3 (0))))
  let t7 := ((((((((((N 10 (0)) / (N 81 (0))) + (((par p "c") * (t5 ^ ((par p "BLOC_a") + ((par p "BLOC_b") * t5)))) / (((N 1 (0)) + (t5 ^ (N 2 (0)))) ^ (N 2 (0))))) * t1) + (((N 146 (0)) / (N 2025 (0))) * (t6 ^ (N 2 (0))))) - ((((N 73 (0)) / (N 405 (0))) * t6) * (fn1Val P .sqrt ((((N 1 (0)) / (N 2 (0))) * ((((N 3 (0)) / (N 5 (0))) * t5) ^ (N 2 (0)))) + (((N 1 (0)) / (N 2 (0))) * (t1 ^ (N 2 (0)))))))) + ((((N 1 (0)) / (par p "kappa")) * (((N 10 (0)) / (N 81 (0))) ^ (N 2 (0)))) * (t1 ^ (N 2 (0))))) + ((((N 2 (0)) * (fn1Val P .sqrt (par p "e"))) * ((N 10 (0)) / (N 81 (0)))) * ((((N 3 (0)) / (N 5 (0))) * t5) ^ (N 2 (0))))) + (((par p "e") * (par p "mu")) * (t1 ^ (N 3 (0))))) / (((N 1 (0)) + ((fn1Val P .sqrt (par p "e")) * t1)) ^ (N 2 (0))))
  ((((-((N 3 (0)) / (N 4 (0)))) * (((N 3 (0)) / Real.pi) ^ ((N 1 (0)) / (N 3 (0))))) * (r0 ^ ((N 1 (0)) / (N 3 (0))))) * ((N 1 (0)) + ((par p "kappa") * ((N 1 (0)) - ((par p "kappa") / ((par p "kappa") + t7))))))

theorem mgga_x_tpss_qE_eq (P : Prims) (p : Rec) (r0 s0 l0 tau0 : ℝ) : run P (unpolEnv p r0 (some s0) (some l0) (some tau0)) mgga_x_tpss_q = .ok (mgga_x_tpss_qE P p r0 s0 l0 tau0) := by kernel_rfl

theorem mgga_x_tpss_eq (P : Prims) (p : Rec) (r0 s0 l0 tau0 : ℝ) (ht : Thresholds p) (h : Above p r0) (hs : 0 ≤ s0) (hτ : 0 ≤ tau0) :
    mgga_x_tpss.unpol P p r0 (some s0) (some l0) (some tau0) = .ok (mgga_x_tpss_qE P p r0 s0 l0 tau0) := by
  obtain ⟨x, e, e'⟩ := pubUnpol_of mgga_x_tpss_ok P p r0 s0 l0 tau0 ht h.pos hs hτ h.zeta h.dens
  rw [mgga_x_tpss_qE_eq P p r0 s0 l0 tau0 |>.symm.trans e' |> Except.ok.inj]
  exact e

prog mgga_x_scan_q "t1 = s0 / (4 * (3 * math.pi ** 2) ** (2 / 3) * r0 ** (8 / 3))
t2 = s0 / (8 * r0)
t3 = 3 / 10 * (3 * math.pi ** 2) ** (2 / 3) * r0 ** (5 / 3)
t4 = (tau0 - t2) / t3
t15 = math.log(DBL_EPSILON)
t16 = -(t15 / (-t15 + params_a_c1))
t17 = math.log(DBL_EPSILON / abs(params_a_d))
t18 = -((-t17 + params_a_c2) / t17)
t19 = lax_cond(t16 < t4, 0, math.exp(-params_a_c1 * lax_cond(t4 < t16, t4, t16) / (1 - lax_cond(t4 < t16, t4, t16))))
t20 = lax_cond(t4 < t18, 0, -params_a_d * math.exp(params_a_c2 / (1 - lax_cond(t4 < t18, t18, t4))))
t21 = lax_cond(t4 <= 1, t19, t20)
t5 = 10 / 81
t6 = math.sqrt(146) / 100
t7 = 7 / 540 * math.sqrt(146)
t8 = t5 ** 2 / params_a_k1 - 73 / 648
t9 = t5 * t1 * (1 + t8 * t1 / t5 * math.exp(-(t8 * t1 / t5))) + (t7 * t1 + t6 * (1 - t4) * math.exp(-(1 / 2) * (1 - t4) ** 2)) ** 2
t10 = 1 + params_a_k1 * (1 - params_a_k1 / (params_a_k1 + t9))
t11 = 1 - math.exp(-(49479 / 10000) / math.sqrt(math.sqrt(t1)))
res = -(3 / 4) * (3 / math.pi) ** (1 / 3) * r0 ** (1 / 3) * ((t10 + t21 * (1174 / 1000 - t10)) * t11)"

theorem mgga_x_scan_ok : pubUnpol 1000 .mgga mgga_x_scan.unpolBody mgga_x_scan_q = true := by decide +kernel

def mgga_x_scan_qE (P : Prims) (p : Rec) (r0 s0 l0 tau0 : ℝ) : ℝ :=
  let t1 := (s0 / (((N 4 (0)) * (((N 3 (0)) * (Real.pi ^ (N 2 (0)))) ^ ((N 2 (0)) / (N 3 (0))))) * (r0 ^ ((N 8 (0)) / (N 3 (0))))))
  let t2 := (s0 / ((N 8 (0)) * r0))
  let t3 := ((((N 3 (0)) / (N 10 (0))) * (((N 3 (0)) * (Real.pi ^ (N 2 (0)))) ^ ((N 2 (0)) / (N 3 (0))))) * (r0 ^ ((N 5 (0)) / (N 3 (0)))))
  let t4 := ((tau0 - t2) / t3)
  let t15 := (fn1Val P .log (N 2220446049250313 (-31)))
  let t16 := (-(t15 / ((-t15) + (par p "c1"))))
  let t17 := (fn1Val P .log ((N 2220446049250313 (-31)) / (fn1Val P .abs (par p "d"))))
  let t18 := (-(((-t17) + (par p "c2")) / t17))
  let t19 := (cnd (t16 < t4) (N 0 (0)) (fn1Val P .exp (((-(par p "c1")) * (cnd (t4 < t16) t4 t16)) / ((N 1 (0)) - (cnd (t4 < t16) t4 t16)))))
  let t20 := (cnd (t4 < t18) (N 0 (0)) ((-(par p "d")) * (fn1Val P .exp ((par p "c2") / ((N 1 (0)) - (cnd (t4 < t18) t18 t4))))))
  let t21 := (cnd (t4 ≤ (N 1 (0))) t19 t20)
  let t5 := ((N 10 (0)) / (N 81 (0)))
  let t6 := ((fn1Val P .sqrt (N 146 (0))) / (N 100 (0)))
  let t7 := (((N 7 (0)) / (N 540 (0))) * (fn1Val P .sqrt (N 146 (0))))
  let t8 := (((t5 ^ (N 2 (0))) / (par p "k1")) - ((N 73 (0)) / (N 648 (0))))
  let t9 := (((t5 * t1) * ((N 1 (0)) + (((t8 * t1) / t5) * (fn1Val P .exp (-((t8 * t1) / t5)))))) + (((t7 * t1) + ((t6 * ((N 1 (0)) - t4)) * (fn1Val P .exp ((-((N 1 (0)) / (N 2 (0)))) * (((N 1 (0)) - t4) ^ (N 2 (0))))))) ^ (N 2 (0))))
  let t10 := ((N 1 (0)) + ((par p "k1") * ((N 1 (0)) - ((par p "k1") / ((par p "k1") + t9)))))
  let t11 := ((N 1 (0)) - (fn1Val P .exp ((-((N 49479 (0)) / (N 10000 (0)))) / (fn1Val P .sqrt (fn1Val P .sqrt t1)))))
  ((((-((N 3 (0)) / (N 4 (0)))) * (((N 3 (0)) / Real.pi) ^ ((N 1 (0)) / (N 3 (0))))) * (r0 ^ ((N 1 (0)) / (N 3 (0))))) * ((t10 + (t21 * (((N 1174 (0)) / (N 1000 (0))) - t10))) * t11))

theorem mgga_x_scan_qE_eq (P : Prims) (p : Rec) (r0 s0 l0 tau0 : ℝ) : run P (unpolEnv p r0 (some s0) (some l0) (some tau0)) mgga_x_scan_q = .ok (mgga_x_scan_qE P p r0 s0 l0 tau0) := by kernel_rfl

theorem mgga_x_scan_eq (P : Prims) (p : Rec) (r0 s0 l0 tau0 : ℝ) (ht : Thresholds p) (h : Above p r0) (hs : 0 ≤ s0) (hτ : 0 ≤ tau0) :
    mgga_x_scan.unpol P p r0 (some s0) (some l0) (some tau0) = .ok (mgga_x_scan_qE P p r0 s0 l0 tau0) := by
  obtain ⟨x, e, e'⟩ := pubUnpol_of mgga_x_scan_ok P p r0 s0 l0 tau0 ht h.pos hs hτ h.zeta h.dens
  rw [mgga_x_scan_qE_eq P p r0 s0 l0 tau0 |>.symm.trans e' |> Except.ok.inj]
  exact e

prog gga_x_pw91_q "t1 = math.sqrt(s0) / (2 * (3 * math.pi ** 2 * r0) ** (1 / 3) * r0)
res = -(3 / 4) * (3 / math.pi) ** (1 / 3) * r0 ** (1 / 3) * (1 + ((params_a_c + params_a_d * math.exp(-params_a_alpha * t1 ** 2)) * t1 ** 2 - params_a_f * t1 ** params_a_expo) / (1 + params_a_a * t1 * math.asinh(params_a_b * t1) + params_a_f * t1 ** params_a_expo))"

theorem gga_x_pw91_ok : pubUnpol 1000 .gga gga_x_pw91.unpolBody gga_x_pw91_q = true := by decide +kernel

def gga_x_pw91_qE (P : Prims) (p : Rec) (r0 s0 : ℝ) : ℝ :=
  let t1 := ((fn1Val P .sqrt s0) / (((N 2 (0)) * ((((N 3 (0)) * (Real.pi ^ (N 2 (0)))) * r0) ^ ((N 1 (0)) / (N 3 (0))))) * r0))
  ((((-((N 3 (0)) / (N 4 (0)))) * (((N 3 (0)) / Real.pi) ^ ((N 1 (0)) / (N 3 (0))))) * (r0 ^ ((N 1 (0)) / (N 3 (0))))) * ((N 1 (0)) + (((((par p "c") + ((par p "d") * (fn1Val P .exp ((-(par p "alpha")) * (t1 ^ (N 2 (0))))))) * (t1 ^ (N 2 (0)))) - ((par p "f") * (t1 ^ (par p "expo")))) / (((N 1 (0)) + (((par p "a") * t1) * (fn1Val P .arcsinh ((par p "b") * t1)))) + ((par p "f") * (t1 ^ (par p "expo")))))))

theorem gga_x_pw91_qE_eq (P : Prims) (p : Rec) (r0 s0 : ℝ) : run P (unpolEnv p r0 (some s0) none none) gga_x_pw91_q = .ok (gga_x_pw91_qE P p r0 s0) := by kernel_rfl

theorem gga_x_pw91_eq (P : Prims) (p : Rec) (r0 s0 : ℝ) (ht : Thresholds p) (h : Above p r0) (hs : 0 ≤ s0) :
    gga_x_pw91.unpol P p r0 (some s0) none none = .ok (gga_x_pw91_qE P p r0 s0) := by
  obtain ⟨x, e, e'⟩ := pubUnpol_of gga_x_pw91_ok P p r0 s0 0 0 ht h.pos hs le_rfl h.zeta h.dens
  rw [gga_x_pw91_qE_eq P p r0 s0 |>.symm.trans e' |> Except.ok.inj]
  exact e

prog gga_x_ak13_q "t1 = math.sqrt(s0) / (2 * (3 * math.pi ** 2 * r0) ** (1 / 3) * r0)
res = -(3 / 4) * (3 / math.pi) ** (1 / 3) * r0 ** (1 / 3) * (1 + params_a_B1 * t1 * math.log(1 + t1) + params_a_B2 * t1 * math.log(1 + math.log(1 + t1)))"

theorem gga_x_ak13_ok : pubUnpol 1000 .gga gga_x_ak13.unpolBody gga_x_ak13_q = true := by decide +kernel

def gga_x_ak13_qE (P : Prims) (p : Rec) (r0 s0 : ℝ) : ℝ :=
  let t1 := ((fn1Val P .sqrt s0) / (((N 2 (0)) * ((((N 3 (0)) * (Real.pi ^ (N 2 (0)))) * r0) ^ ((N 1 (0)) / (N 3 (0))))) * r0))
  ((((-((N 3 (0)) / (N 4 (0)))) * (((N 3 (0)) / Real.pi) ^ ((N 1 (0)) / (N 3 (0))))) * (r0 ^ ((N 1 (0)) / (N 3 (0))))) * (((N 1 (0)) + (((par p "B1") * t1) * (fn1Val P .log ((N 1 (0)) + t1)))) + (((par p "B2") * t1) * (fn1Val P .log ((N 1 (0)) + (fn1Val P .log ((N 1 (0)) + t1)))))))

theorem gga_x_ak13_qE_eq (P : Prims) (p : Rec) (r0 s0 : ℝ) : run P (unpolEnv p r0 (some s0) none none) gga_x_ak13_q = .ok (gga_x_ak13_qE P p r0 s0) := by kernel_rfl

theorem gga_x_ak13_eq (P : Prims) (p : Rec) (r0 s0 : ℝ) (ht : Thresholds p) (h : Above p r0) (hs : 0 ≤ s0) :
    gga_x_ak13.unpol P p r0 (some s0) none none = .ok (gga_x_ak13_qE P p r0 s0) := by
  obtain ⟨x, e, e'⟩ := pubUnpol_of gga_x_ak13_ok P p r0 s0 0 0 ht h.pos hs le_rfl h.zeta h.dens
  rw [gga_x_ak13_qE_eq P p r0 s0 |>.symm.trans e' |> Except.ok.inj]
  exact e

prog gga_x_vmt_q "t1 = math.sqrt(s0) / (2 * (3 * math.pi ** 2 * r0) ** (1 / 3) * r0)
res = -(3 / 4) * (3 / math.pi) ** (1 / 3) * r0 ** (1 / 3) * (1 + params_a_mu * t1 ** 2 * math.exp(-params_a_alpha * t1 ** 2) / (1 + params_a_mu * t1 ** 2))"

theorem gga_x_vmt_ok : pubUnpol 1000 .gga gga_x_vmt.unpolBody gga_x_vmt_q = true := by decide +kernel

def gga_x_vmt_qE (P : Prims) (p : Rec) (r0 s0 : ℝ) : ℝ :=
  let t1 := ((fn1Val P .sqrt s0) / (((N 2 (0)) * ((((N 3 (0)) * (Real.pi ^ (N 2 (0)))) * r0) ^ ((N 1 (0)) / (N 3 (0))))) * r0))
  ((((-((N 3 (0)) / (N 4 (0)))) * (((N 3 (0)) / Real.pi) ^ ((N 1 (0)) / (N 3 (0))))) * (r0 ^ ((N 1 (0)) / (N 3 (0))))) * ((N 1 (0)) + ((((par p "mu") * (t1 ^ (N 2 (0)))) * (fn1Val P .exp ((-(par p "alpha")) * (t1 ^ (N 2 (0)))))) / ((N 1 (0)) + ((par p "mu") * (t1 ^ (N 2 (0))))))))

theorem gga_x_vmt_qE_eq (P : Prims) (p : Rec) (r0 s0 : ℝ) : run P (unpolEnv p r0 (some s0) none none) gga_x_vmt_q = .ok (gga_x_vmt_qE P p r0 s0) := by kernel_rfl

theorem gga_x_vmt_eq (P : Prims) (p : Rec) (r0 s0 : ℝ) (ht : Thresholds p) (h : Above p r0) (hs : 0 ≤ s0) :
    gga_x_vmt.unpol P p r0 (some s0) none none = .ok (gga_x_vmt_qE P p r0 s0) := by
  obtain ⟨x, e, e'⟩ := pubUnpol_of gga_x_vmt_ok P p r0 s0 0 0 ht h.pos hs le_rfl h.zeta h.dens
  rw [gga_x_vmt_qE_eq P p r0 s0 |>.symm.trans e' |> Except.ok.inj]
  exact e

prog gga_x_vmt84_q "t1 = math.sqrt(s0) / (2 * (3 * math.pi ** 2 * r0) ** (1 / 3) * r0)
res = -(3 / 4) * (3 / math.pi) ** (1 / 3) * r0 ** (1 / 3) * (1 + params_a_mu * t1 ** 2 * math.exp(-params_a_alpha * t1 ** 2) / (1 + params_a_mu * t1 ** 2) + (1 - math.exp(-params_a_alpha * t1 ** 4)) * (1 / t1 ** 2 - 1))"

theorem gga_x_vmt84_ok : pubUnpol 1000 .gga gga_x_vmt84.unpolBody gga_x_vmt84_q = true := by decide +kernel

def gga_x_vmt84_qE (P : Prims) (p : Rec) (r0 s0 : ℝ) : ℝ :=
  let t1 := ((fn1Val P .sqrt s0) / (((N 2 (0)) * ((((N 3 (0)) * (Real.pi ^ (N 2 (0)))) * r0) ^ ((N 1 (0)) / (N 3 (0))))) * r0))
  ((((-((N 3 (0)) / (N 4 (0)))) * (((N 3 (0)) / Real.pi) ^ ((N 1 (0)) / (N 3 (0))))) * (r0 ^ ((N 1 (0)) / (N 3 (0))))) * (((N 1 (0)) + ((((par p "mu") * (t1 ^ (N 2 (0)))) * (fn1Val P .exp ((-(par p "alpha")) * (t1 ^ (N 2 (0)))))) / ((N 1 (0)) + ((par p "mu") * (t1 ^ (N 2 (0))))))) + (((N 1 (0)) - (fn1Val P .exp ((-(par p "alpha")) * (t1 ^ (N 4 (0)))))) * (((N 1 (0)) / (t1 ^ (N 2 (0)))) - (N 1 (0))))))

theorem gga_x_vmt84_qE_eq (P : Prims) (p : Rec) (r0 s0 : ℝ) : run P (unpolEnv p r0 (some s0) none none) gga_x_vmt84_q = .ok (gga_x_vmt84_qE P p r0 s0) := by kernel_rfl

theorem gga_x_vmt84_eq (P : Prims) (p : Rec) (r0 s0 : ℝ) (ht : Thresholds p) (h : Above p r0) (hs : 0 ≤ s0) :
    gga_x_vmt84.unpol P p r0 (some s0) none none = .ok (gga_x_vmt84_qE P p r0 s0) := by
  obtain ⟨x, e, e'⟩ := pubUnpol_of gga_x_vmt84_ok P p r0 s0 0 0 ht h.pos hs le_rfl h.zeta h.dens
  rw [gga_x_vmt84_qE_eq P p r0 s0 |>.symm.trans e' |> Except.ok.inj]
  exact e

prog gga_x_dk87_q "t1 = math.sqrt(s0 / 4) / (r0 / 2) ** (4 / 3)
res = -(3 / 4) * (3 / math.pi) ** (1 / 3) * r0 ** (1 / 3) * (1 + 7 / (432 * math.pi * (6 * math.pi ** 2) ** (1 / 3)) * t1 ** 2 * (1 + params_a_a1 * t1 ** params_a_alpha) / (1 + params_a_b1 * t1 ** 2) / (3 / 2 * (3 / (4 * math.pi)) ** (1 / 3)))"

theorem gga_x_dk87_ok : pubUnpol 1000 .gga gga_x_dk87.unpolBody gga_x_dk87_q = true := by decide +kernel

def gga_x_dk87_qE (P : Prims) (p : Rec) (r0 s0 : ℝ) : ℝ :=
  let t1 := ((fn1Val P .sqrt (s0 / (N 4 (0)))) / ((r0 / (N 2 (0))) ^ ((N 4 (0)) / (N 3 (0)))))
  ((((-((N 3 (0)) / (N 4 (0)))) * (((N 3 (0)) / Real.pi) ^ ((N 1 (0)) / (N 3 (0))))) * (r0 ^ ((N 1 (0)) / (N 3 (0))))) * ((N 1 (0)) + ((((((N 7 (0)) / (((N 432 (0)) * Real.pi) * (((N 6 (0)) * (Real.pi ^ (N 2 (0)))) ^ ((N 1 (0)) / (N 3 (0)))))) * (t1 ^ (N 2 (0)))) * ((N 1 (0)) + ((par p "a1") * (t1 ^ (par p "alpha"))))) / ((N 1 (0)) + ((par p "b1") * (t1 ^ (N 2 (0)))))) / (((N 3 (0)) / (N 2 (0))) * (((N 3 (0)) / ((N 4 (0)) * Real.pi)) ^ ((N 1 (0)) / (N 3 (0))))))))

theorem gga_x_dk87_qE_eq (P : Prims) (p : Rec) (r0 s0 : ℝ) : run P (unpolEnv p r0 (some s0) none none) gga_x_dk87_q = .ok (gga_x_dk87_qE P p r0 s0) := by kernel_rfl

theorem gga_x_dk87_eq (P : Prims) (p : Rec) (r0 s0 : ℝ) (ht : Thresholds p) (h : Above p r0) (hs : 0 ≤ s0) :
    gga_x_dk87.unpol P p r0 (some s0) none none = .ok (gga_x_dk87_qE P p r0 s0) := by
  obtain ⟨x, e, e'⟩ := pubUnpol_of gga_x_dk87_ok P p r0 s0 0 0 ht h.pos hs le_rfl h.zeta h.dens
  rw [gga_x_dk87_qE_eq P p r0 s0 |>.symm.trans e' |> Except.ok.inj]
  exact e

prog gga_x_ssb_sw_q "t1 = math.sqrt(s0) / (2 * (3 * math.pi ** 2 * r0) ** (1 / 3) * r0)
res = -(3 / 4) * (3 / math.pi) ** (1 / 3) * r0 ** (1 / 3) * (params_a_A + params_a_B * t1 ** 2 / (1 + params_a_C * t1 ** 2) - params_a_D * t1 ** 2 / (1 + params_a_E * t1 ** 4))"

theorem gga_x_ssb_sw_ok : pubUnpol 1000 .gga gga_x_ssb_sw.unpolBody gga_x_ssb_sw_q = true := by decide +kernel

def gga_x_ssb_sw_qE (P : Prims) (p : Rec) (r0 s0 : ℝ) : ℝ :=
  let t1 := ((fn1Val P .sqrt s0) / (((N 2 (0)) * ((((N 3 (0)) * (Real.pi ^ (N 2 (0)))) * r0) ^ ((N 1 (0)) / (N 3 (0))))) * r0))
  ((((-((N 3 (0)) / (N 4 (0)))) * (((N 3 (0)) / Real.pi) ^ ((N 1 (0)) / (N 3 (0))))) * (r0 ^ ((N 1 (0)) / (N 3 (0))))) * (((par p "A") + (((par p "B") * (t1 ^ (N 2 (0)))) / ((N 1 (0)) + ((par p "C") * (t1 ^ (N 2 (0))))))) - (((par p "D") * (t1 ^ (N 2 (0)))) / ((N 1 (0)) + ((par p "E") * (t1 ^ (N 4 (0))))))))

theorem gga_x_ssb_sw_qE_eq (P : Prims) (p : Rec) (r0 s0 : ℝ) : run P (unpolEnv p r0 (some s0) none none) gga_x_ssb_sw_q = .ok (gga_x_ssb_sw_qE P p r0 s0) := by kernel_rfl

theorem gga_x_ssb_sw_eq (P : Prims) (p : Rec) (r0 s0 : ℝ) (ht : Thresholds p) (h : Above p r0) (hs : 0 ≤ s0) :
    gga_x_ssb_sw.unpol P p r0 (some s0) none none = .ok (gga_x_ssb_sw_qE P p r0 s0) := by
  obtain ⟨x, e, e'⟩ := pubUnpol_of gga_x_ssb_sw_ok P p r0 s0 0 0 ht h.pos hs le_rfl h.zeta h.dens
  rw [gga_x_ssb_sw_qE_eq P p r0 s0 |>.symm.trans e' |> Except.ok.inj]
  exact e

prog gga_x_chachiyo_q "t1 = math.sqrt(s0) / (2 * (3 * math.pi ** 2 * r0) ** (1 / 3) * r0)
t2 = 4 * math.pi / 9 * t1
res = -(3 / 4) * (3 / math.pi) ** (1 / 3) * r0 ** (1 / 3) * ((3 * t2 ** 2 + math.pi ** 2 * math.log(t2 + 1)) / (3 * t2 + math.pi ** 2) / math.log(t2 + 1))"

theorem gga_x_chachiyo_ok : pubUnpol 1000 .gga gga_x_chachiyo.unpolBody gga_x_chachiyo_q = true := by decide +kernel

def gga_x_chachiyo_qE (P : Prims) (p : Rec) (r0 s0 : ℝ) : ℝ :=
  let t1 := ((fn1Val P .sqrt s0) / (((N 2 (0)) * ((((N 3 (0)) * (Real.pi ^ (N 2 (0)))) * r0) ^ ((N 1 (0)) / (N 3 (0))))) * r0))
  let t2 := ((((N 4 (0)) * Real.pi) / (N 9 (0))) * t1)
  ((((-((N 3 (0)) / (N 4 (0)))) * (((N 3 (0)) / Real.pi) ^ ((N 1 (0)) / (N 3 (0))))) * (r0 ^ ((N 1 (0)) / (N 3 (0))))) * (((((N 3 (0)) * (t2 ^ (N 2 (0)))) + ((Real.pi ^ (N 2 (0))) * (fn1Val P .log (t2 + (N 1 (0)))))) / (((N 3 (0)) * t2) + (Real.pi ^ (N 2 (0))))) / (fn1Val P .log (t2 + (N 1 (0))))))

theorem gga_x_chachiyo_qE_eq (P : Prims) (p : Rec) (r0 s0 : ℝ) : run P (unpolEnv p r0 (some s0) none none) gga_x_chachiyo_q = .ok (gga_x_chachiyo_qE P p r0 s0) := by kernel_rfl

theorem gga_x_chachiyo_eq (P : Prims) (p : Rec) (r0 s0 : ℝ) (ht : Thresholds p) (h : Above p r0) (hs : 0 ≤ s0) :
    gga_x_chachiyo.unpol P p r0 (some s0) none none = .ok (gga_x_chachiyo_qE P p r0 s0) := by
  obtain ⟨x, e, e'⟩ := pubUnpol_of gga_x_chachiyo_ok P p r0 s0 0 0 ht h.pos hs le_rfl h.zeta h.dens
  rw [gga_x_chachiyo_qE_eq P p r0 s0 |>.symm.trans e' |> Except.ok.inj]
  exact e

prog gga_x_mpbe_q "t1 = math.sqrt(s0) / (2 * (3 * math.pi ** 2 * r0) ** (1 / 3) * r0)
res = -(3 / 4) * (3 / math.pi) ** (1 / 3) * r0 ** (1 / 3) * (1 + params_a_c1 * t1 ** 2 / (1 + params_a_a * t1 ** 2) + params_a_c2 * t1 ** 4 / (1 + params_a_a * t1 ** 2) ** 2 + params_a_c3 * t1 ** 6 / (1 + params_a_a * t1 ** 2) ** 2 / (1 + params_a_a * t1 ** 2))"

theorem gga_x_mpbe_ok : pubUnpol 1000 .gga gga_x_mpbe.unpolBody gga_x_mpbe_q = true := by decide +kernel

def gga_x_mpbe_qE (P : Prims) (p : Rec) (r0 s0 : ℝ) : ℝ :=
  let t1 := ((fn1Val P .sqrt s0) / (((N 2 (0)) * ((((N 3 (0)) * (Real.pi ^ (N 2 (0)))) * r0) ^ ((N 1 (0)) / (N 3 (0))))) * r0))
  ((((-((N 3 (0)) / (N 4 (0)))) * (((N 3 (0)) / Real.pi) ^ ((N 1 (0)) / (N 3 (0))))) * (r0 ^ ((N 1 (0)) / (N 3 (0))))) * ((((N 1 (0)) + (((par p "c1") * (t1 ^ (N 2 (0)))) / ((N 1 (0)) + ((par p "a") * (t1 ^ (N 2 (0))))))) + (((par p "c2") * (t1 ^ (N 4 (0)))) / (((N 1 (0)) + ((par p "a") * (t1 ^ (N 2 (0))))) ^ (N 2 (0))))) + ((((par p "c3") * (t1 ^ (N 6 (0)))) / (((N 1 (0)) + ((par p "a") * (t1 ^ (N 2 (0))))) ^ (N 2 (0)))) / ((N 1 (0)) + ((par p "a") * (t1 ^ (N 2 (0))))))))

theorem gga_x_mpbe_qE_eq (P : Prims) (p : Rec) (r0 s0 : ℝ) : run P (unpolEnv p r0 (some s0) none none) gga_x_mpbe_q = .ok (gga_x_mpbe_qE P p r0 s0) := by kernel_rfl

theorem gga_x_mpbe_eq (P : Prims) (p : Rec) (r0 s0 : ℝ) (ht : Thresholds p) (h : Above p r0) (hs : 0 ≤ s0) :
    gga_x_mpbe.unpol P p r0 (some s0) none none = .ok (gga_x_mpbe_qE P p r0 s0) := by
  obtain ⟨x, e, e'⟩ := pubUnpol_of gga_x_mpbe_ok P p r0 s0 0 0 ht h.pos hs le_rfl h.zeta h.dens
  rw [gga_x_mpbe_qE_eq P p r0 s0 |>.symm.trans e' |> Except.ok.inj]
  exact e

prog gga_x_cap_q "t1 = math.sqrt(s0) / (2 * (3 * math.pi ** 2 * r0) ** (1 / 3) * r0)
res = -(3 / 4) * (3 / math.pi) ** (1 / 3) * r0 ** (1 / 3) * (1 - params_a_alphaoAx * t1 * math.log(1 + t1) / (1 + params_a_c * math.log(1 + t1)))"

theorem gga_x_cap_ok : pubUnpol 1000 .gga gga_x_cap.unpolBody gga_x_cap_q = true := by decide +kernel

def gga_x_cap_qE (P : Prims) (p : Rec) (r0 s0 : ℝ) : ℝ :=
  let t1 := ((fn1Val P .sqrt s0) / (((N 2 (0)) * ((((N 3 (0)) * (Real.pi ^ (N 2 (0)))) * r0) ^ ((N 1 (0)) / (N 3 (0))))) * r0))
  ((((-((N 3 (0)) / (N 4 (0)))) * (((N 3 (0)) / Real.pi) ^ ((N 1 (0)) / (N 3 (0))))) * (r0 ^ ((N 1 (0)) / (N 3 (0))))) * ((N 1 (0)) - ((((par p "alphaoAx") * t1) * (fn1Val P .log ((N 1 (0)) + t1))) / ((N 1 (0)) + ((par p "c") * (fn1Val P .log ((N 1 (0)) + t1)))))))

theorem gga_x_cap_qE_eq (P : Prims) (p : Rec) (r0 s0 : ℝ) : run P (unpolEnv p r0 (some s0) none none) gga_x_cap_q = .ok (gga_x_cap_qE P p r0 s0) := by kernel_rfl

theorem gga_x_cap_eq (P : Prims) (p : Rec) (r0 s0 : ℝ) (ht : Thresholds p) (h : Above p r0) (hs : 0 ≤ s0) :
    gga_x_cap.unpol P p r0 (some s0) none none = .ok (gga_x_cap_qE P p r0 s0) := by
  obtain ⟨x, e, e'⟩ := pubUnpol_of gga_x_cap_ok P p r0 s0 0 0 ht h.pos hs le_rfl h.zeta h.dens
  rw [gga_x_cap_qE_eq P p r0 s0 |>.symm.trans e' |> Except.ok.inj]
  exact e

prog gga_x_lspbe_q "t1 = math.sqrt(s0) / (2 * (3 * math.pi ** 2 * r0) ** (1 / 3) * r0)
res = -(3 / 4) * (3 / math.pi) ** (1 / 3) * r0 ** (1 / 3) * (1 + params_a_kappa * (1 - params_a_kappa / (params_a_kappa + params_a_mu * t1 ** 2)) - (params_a_kappa + 1) * (1 - math.exp(-params_a_alpha * t1 ** 2)))"

theorem gga_x_lspbe_ok : pubUnpol 1000 .gga gga_x_lspbe.unpolBody gga_x_lspbe_q = true := by decide +kernel

def gga_x_lspbe_qE (P : Prims) (p : Rec) (r0 s0 : ℝ) : ℝ :=
  let t1 := ((fn1Val P .sqrt s0) / (((N 2 (0)) * ((((N 3 (0)) * (Real.pi ^ (N 2 (0)))) * r0) ^ ((N 1 (0)) / (N 3 (0))))) * r0))
  ((((-((N 3 (0)) / (N 4 (0)))) * (((N 3 (0)) / Real.pi) ^ ((N 1 (0)) / (N 3 (0))))) * (r0 ^ ((N 1 (0)) / (N 3 (0))))) * (((N 1 (0)) + ((par p "kappa") * ((N 1 (0)) - ((par p "kappa") / ((par p "kappa") + ((par p "mu") * (t1 ^ (N 2 (0))))))))) - (((par p "kappa") + (N 1 (0))) * ((N 1 (0)) - (fn1Val P .exp ((-(par p "alpha")) * (t1 ^ (N 2 (0)))))))))

theorem gga_x_lspbe_qE_eq (P : Prims) (p : Rec) (r0 s0 : ℝ) : run P (unpolEnv p r0 (some s0) none none) gga_x_lspbe_q = .ok (gga_x_lspbe_qE P p r0 s0) := by kernel_rfl

theorem gga_x_lspbe_eq (P : Prims) (p : Rec) (r0 s0 : ℝ) (ht : Thresholds p) (h : Above p r0) (hs : 0 ≤ s0) :
    gga_x_lspbe.unpol P p r0 (some s0) none none = .ok (gga_x_lspbe_qE P p r0 s0) := by
  obtain ⟨x, e, e'⟩ := pubUnpol_of gga_x_lspbe_ok P p r0 s0 0 0 ht h.pos hs le_rfl h.zeta h.dens
  rw [gga_x_lspbe_qE_eq P p r0 s0 |>.symm.trans e' |> Except.ok.inj]
  exact e

prog gga_x_lsrpbe_q "t1 = math.sqrt(s0) / (2 * (3 * math.pi ** 2 * r0) ** (1 / 3) * r0)
res = -(3 / 4) * (3 / math.pi) ** (1 / 3) * r0 ** (1 / 3) * (1 + params_a_kappa * (1 - math.exp(-params_a_mu * t1 ** 2 / params_a_kappa)) - (params_a_kappa + 1) * (1 - math.exp(-params_a_alpha * t1 ** 2)))"

theorem gga_x_lsrpbe_ok : pubUnpol 1000 .gga gga_x_lsrpbe.unpolBody gga_x_lsrpbe_q = true := by decide +kernel

def gga_x_lsrpbe_qE (P : Prims) (p : Rec) (r0 s0 : ℝ) : ℝ :=
  let t1 := ((fn1Val P .sqrt s0) / (((N 2 (0)) * ((((N 3 (0)) * (Real.pi ^ (N 2 (0)))) * r0) ^ ((N 1 (0)) / (N 3 (0))))) * r0))
  ((((-((N 3 (0)) / (N 4 (0)))) * (((N 3 (0)) / Real.pi) ^ ((N 1 (0)) / (N 3 (0))))) * (r0 ^ ((N 1 (0)) / (N 3 (0))))) * (((N 1 (0)) + ((par p "kappa") * ((N 1 (0)) - (fn1Val P .exp (((-(par p "mu")) * (t1 ^ (N 2 (0)))) / (par p "kappa")))))) - (((par p "kappa") + (N 1 (0))) * ((N 1 (0)) - (fn1Val P .exp ((-(par p "alpha")) * (t1 ^ (N 2 (0)))))))))

theorem gga_x_lsrpbe_qE_eq (P : Prims) (p : Rec) (r0 s0 : ℝ) : run P (unpolEnv p r0 (some s0) none none) gga_x_lsrpbe_q = .ok (gga_x_lsrpbe_qE P p r0 s0) := by kernel_rfl

theorem gga_x_lsrpbe_eq (P : Prims) (p : Rec) (r0 s0 : ℝ) (ht : Thresholds p) (h : Above p r0) (hs : 0 ≤ s0) :
    gga_x_lsrpbe.unpol P p r0 (some s0) none none = .ok (gga_x_lsrpbe_qE P p r0 s0) := by
  obtain ⟨x, e, e'⟩ := pubUnpol_of gga_x_lsrpbe_ok P p r0 s0 0 0 ht h.pos hs le_rfl h.zeta h.dens
  rw [gga_x_lsrpbe_qE_eq P p r0 s0 |>.symm.trans e' |> Except.ok.inj]
  exact e

prog gga_x_pbeint_q "t1 = math.sqrt(s0) / (2 * (3 * math.pi ** 2 * r0) ** (1 / 3) * r0)
res = -(3 / 4) * (3 / math.pi) ** (1 / 3) * r0 ** (1 / 3) * (1 + params_a_kappa * (1 - params_a_kappa / (params_a_kappa + (params_a_muGE + (params_a_muPBE - params_a_muGE) * params_a_alpha * t1 ** 2 / (1 + params_a_alpha * t1 ** 2)) * t1 ** 2)))"

theorem gga_x_pbeint_ok : pubUnpol 1000 .gga gga_x_pbeint.unpolBody gga_x_pbeint_q = true := by decide +kernel

def gga_x_pbeint_qE (P : Prims) (p : Rec) (r0 s0 : ℝ) : ℝ :=
  let t1 := ((fn1Val P .sqrt s0) / (((N 2 (0)) * ((((N 3 (0)) * (Real.pi ^ (N 2 (0)))) * r0) ^ ((N 1 (0)) / (N 3 (0))))) * r0))
  ((((-((N 3 (0)) / (N 4 (0)))) * (((N 3 (0)) / Real.pi) ^ ((N 1 (0)) / (N 3 (0))))) * (r0 ^ ((N 1 (0)) / (N 3 (0))))) * ((N 1 (0)) + ((par p "kappa") * ((N 1 (0)) - ((par p "kappa") / ((par p "kappa") + (((par p "muGE") + (((((par p "muPBE") - (par p "muGE")) * (par p "alpha")) * (t1 ^ (N 2 (0)))) / ((N 1 (0)) + ((par p "alpha") * (t1 ^ (N 2 (0))))))) * (t1 ^ (N 2 (0))))))))))

theorem gga_x_pbeint_qE_eq (P : Prims) (p : Rec) (r0 s0 : ℝ) : run P (unpolEnv p r0 (some s0) none none) gga_x_pbeint_q = .ok (gga_x_pbeint_qE P p r0 s0) := by kernel_rfl

theorem gga_x_pbeint_eq (P : Prims) (p : Rec) (r0 s0 : ℝ) (ht : Thresholds p) (h : Above p r0) (hs : 0 ≤ s0) :
    gga_x_pbeint.unpol P p r0 (some s0) none none = .ok (gga_x_pbeint_qE P p r0 s0) := by
  obtain ⟨x, e, e'⟩ := pubUnpol_of gga_x_pbeint_ok P p r0 s0 0 0 ht h.pos hs le_rfl h.zeta h.dens
  rw [gga_x_pbeint_qE_eq P p r0 s0 |>.symm.trans e' |> Except.ok.inj]
  exact e

prog gga_x_s12_q "t1 = math.sqrt(s0 / 4) / (r0 / 2) ** (4 / 3)
res = -(3 / 4) * (3 / math.pi) ** (1 / 3) * r0 ** (1 / 3) * (params_a_bx * (params_a_A + params_a_B * (1 - 1 / (1 + params_a_C * t1 ** 2 + params_a_D * t1 ** 4)) * (1 - 1 / (1 + params_a_E * t1 ** 2))))"

theorem gga_x_s12_ok : pubUnpol 1000 .gga gga_x_s12.unpolBody gga_x_s12_q = true := by decide +kernel

def gga_x_s12_qE (P : Prims) (p : Rec) (r0 s0 : ℝ) : ℝ :=
  let t1 := ((fn1Val P .sqrt (s0 / (N 4 (0)))) / ((r0 / (N 2 (0))) ^ ((N 4 (0)) / (N 3 (0)))))
  ((((-((N 3 (0)) / (N 4 (0)))) * (((N 3 (0)) / Real.pi) ^ ((N 1 (0)) / (N 3 (0))))) * (r0 ^ ((N 1 (0)) / (N 3 (0))))) * ((par p "bx") * ((par p "A") + (((par p "B") * ((N 1 (0)) - ((N 1 (0)) / (((N 1 (0)) + ((par p "C") * (t1 ^ (N 2 (0))))) + ((par p "D") * (t1 ^ (N 4 (0)))))))) * ((N 1 (0)) - ((N 1 (0)) / ((N 1 (0)) + ((par p "E") * (t1 ^ (N 2 (0)))))))))))

theorem gga_x_s12_qE_eq (P : Prims) (p : Rec) (r0 s0 : ℝ) : run P (unpolEnv p r0 (some s0) none none) gga_x_s12_q = .ok (gga_x_s12_qE P p r0 s0) := by kernel_rfl

theorem gga_x_s12_eq (P : Prims) (p : Rec) (r0 s0 : ℝ) (ht : Thresholds p) (h : Above p r0) (hs : 0 ≤ s0) :
    gga_x_s12.unpol P p r0 (some s0) none none = .ok (gga_x_s12_qE P p r0 s0) := by
  obtain ⟨x, e, e'⟩ := pubUnpol_of gga_x_s12_ok P p r0 s0 0 0 ht h.pos hs le_rfl h.zeta h.dens
  rw [gga_x_s12_qE_eq P p r0 s0 |>.symm.trans e' |> Except.ok.inj]
  exact e

prog gga_x_ncap_q "t1 = math.sqrt(s0) / (2 * (3 * math.pi ** 2 * r0) ** (1 / 3) * r0)
res = -(3 / 4) * (3 / math.pi) ** (1 / 3) * r0 ** (1 / 3) * (1 + params_a_mu * math.tanh(t1) * math.asinh(t1) * (1 + params_a_alpha * ((1 - params_a_zeta) * t1 * math.log(1 + t1) + params_a_zeta * t1)) / (1 + params_a_beta * math.tanh(t1) * math.asinh(t1)))"

theorem gga_x_ncap_ok : pubUnpol 1000 .gga gga_x_ncap.unpolBody gga_x_ncap_q = true := by decide +kernel

def gga_x_ncap_qE (P : Prims) (p : Rec) (r0 s0 : ℝ) : ℝ :=
  let t1 := ((fn1Val P .sqrt s0) / (((N 2 (0)) * ((((N 3 (0)) * (Real.pi ^ (N 2 (0)))) * r0) ^ ((N 1 (0)) / (N 3 (0))))) * r0))
  ((((-((N 3 (0)) / (N 4 (0)))) * (((N 3 (0)) / Real.pi) ^ ((N 1 (0)) / (N 3 (0))))) * (r0 ^ ((N 1 (0)) / (N 3 (0))))) * ((N 1 (0)) + (((((par p "mu") * (fn1Val P .tanh t1)) * (fn1Val P .arcsinh t1)) * ((N 1 (0)) + ((par p "alpha") * (((((N 1 (0)) - (par p "zeta")) * t1) * (fn1Val P .log ((N 1 (0)) + t1))) + ((par p "zeta") * t1))))) / ((N 1 (0)) + (((par p "beta") * (fn1Val P .tanh t1)) * (fn1Val P .arcsinh t1))))))

theorem gga_x_ncap_qE_eq (P : Prims) (p : Rec) (r0 s0 : ℝ) : run P (unpolEnv p r0 (some s0) none none) gga_x_ncap_q = .ok (gga_x_ncap_qE P p r0 s0) := by kernel_rfl

theorem gga_x_ncap_eq (P : Prims) (p : Rec) (r0 s0 : ℝ) (ht : Thresholds p) (h : Above p r0) (hs : 0 ≤ s0) :
    gga_x_ncap.unpol P p r0 (some s0) none none = .ok (gga_x_ncap_qE P p r0 s0) := by
  obtain ⟨x, e, e'⟩ := pubUnpol_of gga_x_ncap_ok P p r0 s0 0 0 ht h.pos hs le_rfl h.zeta h.dens
  rw [gga_x_ncap_qE_eq P p r0 s0 |>.symm.trans e' |> Except.ok.inj]
  exact e

prog gga_k_apbe_q "t1 = math.sqrt(s0) / (2 * (3 * math.pi ** 2 * r0) ** (1 / 3) * r0)
res = 3 / 10 * (3 * math.pi ** 2) ** (2 / 3) * r0 ** (2 / 3) * (1 + params_a_kappa * (1 - params_a_kappa / (params_a_kappa + params_a_mu * t1 ** 2)))"

theorem gga_k_apbe_ok : pubUnpol 1000 .gga gga_k_apbe.unpolBody gga_k_apbe_q = true := by decide +kernel

def gga_k_apbe_qE (P : Prims) (p : Rec) (r0 s0 : ℝ) : ℝ :=
  let t1 := ((fn1Val P .sqrt s0) / (((N 2 (0)) * ((((N 3 (0)) * (Real.pi ^ (N 2 (0)))) * r0) ^ ((N 1 (0)) / (N 3 (0))))) * r0))
  (((((N 3 (0)) / (N 10 (0))) * (((N 3 (0)) * (Real.pi ^ (N 2 (0)))) ^ ((N 2 (0)) / (N 3 (0))))) * (r0 ^ ((N 2 (0)) / (N 3 (0))))) * ((N 1 (0)) + ((par p "kappa") * ((N 1 (0)) - ((par p "kappa") / ((par p "kappa") + ((par p "mu") * (t1 ^ (N 2 (0))))))))))

theorem gga_k_apbe_qE_eq (P : Prims) (p : Rec) (r0 s0 : ℝ) : run P (unpolEnv p r0 (some s0) none none) gga_k_apbe_q = .ok (gga_k_apbe_qE P p r0 s0) := by kernel_rfl

theorem gga_k_apbe_eq (P : Prims) (p : Rec) (r0 s0 : ℝ) (ht : Thresholds p) (h : Above p r0) (hs : 0 ≤ s0) :
    gga_k_apbe.unpol P p r0 (some s0) none none = .ok (gga_k_apbe_qE P p r0 s0) := by
  obtain ⟨x, e, e'⟩ := pubUnpol_of gga_k_apbe_ok P p r0 s0 0 0 ht h.pos hs le_rfl h.zeta h.dens
  rw [gga_k_apbe_qE_eq P p r0 s0 |>.symm.trans e' |> Except.ok.inj]
  exact e

prog gga_k_apbeint_q "t1 = math.sqrt(s0) / (2 * (3 * math.pi ** 2 * r0) ** (1 / 3) * r0)
res = 3 / 10 * (3 * math.pi ** 2) ** (2 / 3) * r0 ** (2 / 3) * (1 + params_a_kappa * (1 - params_a_kappa / (params_a_kappa + (params_a_muGE + (params_a_muPBE - params_a_muGE) * params_a_alpha * t1 ** 2 / (1 + params_a_alpha * t1 ** 2)) * t1 ** 2)))"

theorem gga_k_apbeint_ok : pubUnpol 1000 .gga gga_k_apbeint.unpolBody gga_k_apbeint_q = true := by decide +kernel

def gga_k_apbeint_qE (P : Prims) (p : Rec) (r0 s0 : ℝ) : ℝ :=
  let t1 := ((fn1Val P .sqrt s0) / (((N 2 (0)) * ((((N 3 (0)) * (Real.pi ^ (N 2 (0)))) * r0) ^ ((N 1 (0)) / (N 3 (0))))) * r0))
  (((((N 3 (0)) / (N 10 (0))) * (((N 3 (0)) * (Real.pi ^ (N 2 (0)))) ^ ((N 2 (0)) / (N 3 (0))))) * (r0 ^ ((N 2 (0)) / (N 3 (0))))) * ((N 1 (0)) + ((par p "kappa") * ((N 1 (0)) - ((par p "kappa") / ((par p "kappa") + (((par p "muGE") + (((((par p "muPBE") - (par p "muGE")) * (par p "alpha")) * (t1 ^ (N 2 (0)))) / ((N 1 (0)) + ((par p "alpha") * (t1 ^ (N 2 (0))))))) * (t1 ^ (N 2 (0))))))))))

theorem gga_k_apbeint_qE_eq (P : Prims) (p : Rec) (r0 s0 : ℝ) : run P (unpolEnv p r0 (some s0) none none) gga_k_apbeint_q = .ok (gga_k_apbeint_qE P p r0 s0) := by kernel_rfl

theorem gga_k_apbeint_eq (P : Prims) (p : Rec) (r0 s0 : ℝ) (ht : Thresholds p) (h : Above p r0) (hs : 0 ≤ s0) :
    gga_k_apbeint.unpol P p r0 (some s0) none none = .ok (gga_k_apbeint_qE P p r0 s0) := by
  obtain ⟨x, e, e'⟩ := pubUnpol_of gga_k_apbeint_ok P p r0 s0 0 0 ht h.pos hs le_rfl h.zeta h.dens
  rw [gga_k_apbeint_qE_eq P p r0 s0 |>.symm.trans e' |> Except.ok.inj]
  exact e

prog gga_k_lc94_q "t1 = math.sqrt(s0) / (2 * (3 * math.pi ** 2 * r0) ** (1 / 3) * r0)
res = 3 / 10 * (3 * math.pi ** 2) ** (2 / 3) * r0 ** (2 / 3) * (1 + ((params_a_c + params_a_d * math.exp(-params_a_alpha * t1 ** 2)) * t1 ** 2 - params_a_f * t1 ** params_a_expo) / (1 + params_a_a * t1 * math.asinh(params_a_b * t1) + params_a_f * t1 ** params_a_expo))"

theorem gga_k_lc94_ok : pubUnpol 1000 .gga gga_k_lc94.unpolBody gga_k_lc94_q = true := by decide +kernel

def gga_k_lc94_qE (P : Prims) (p : Rec) (r0 s0 : ℝ) : ℝ :=
  let t1 := ((fn1Val P .sqrt s0) / (((N 2 (0)) * ((((N 3 (0)) * (Real.pi ^ (N 2 (0)))) * r0) ^ ((N 1 (0)) / (N 3 (0))))) * r0))
  (((((N 3 (0)) / (N 10 (0))) * (((N 3 (0)) * (Real.pi ^ (N 2 (0)))) ^ ((N 2 (0)) / (N 3 (0))))) * (r0 ^ ((N 2 (0)) / (N 3 (0))))) * ((N 1 (0)) + (((((par p "c") + ((par p "d") * (fn1Val P .exp ((-(par p "alpha")) * (t1 ^ (N 2 (0))))))) * (t1 ^ (N 2 (0)))) - ((par p "f") * (t1 ^ (par p "expo")))) / (((N 1 (0)) + (((par p "a") * t1) * (fn1Val P .arcsinh ((par p "b") * t1)))) + ((par p "f") * (t1 ^ (par p "expo")))))))

theorem gga_k_lc94_qE_eq (P : Prims) (p : Rec) (r0 s0 : ℝ) : run P (unpolEnv p r0 (some s0) none none) gga_k_lc94_q = .ok (gga_k_lc94_qE P p r0 s0) := by kernel_rfl

theorem gga_k_lc94_eq (P : Prims) (p : Rec) (r0 s0 : ℝ) (ht : Thresholds p) (h : Above p r0) (hs : 0 ≤ s0) :
    gga_k_lc94.unpol P p r0 (some s0) none none = .ok (gga_k_lc94_qE P p r0 s0) := by
  obtain ⟨x, e, e'⟩ := pubUnpol_of gga_k_lc94_ok P p r0 s0 0 0 ht h.pos hs le_rfl h.zeta h.dens
  rw [gga_k_lc94_qE_eq P p r0 s0 |>.symm.trans e' |> Except.ok.inj]
  exact e

prog gga_k_mpbe_q "t1 = math.sqrt(s0) / (2 * (3 * math.pi ** 2 * r0) ** (1 / 3) * r0)
res = 3 / 10 * (3 * math.pi ** 2) ** (2 / 3) * r0 ** (2 / 3) * (1 + params_a_c1 * t1 ** 2 / (1 + params_a_a * t1 ** 2) + params_a_c2 * t1 ** 4 / (1 + params_a_a * t1 ** 2) ** 2 + params_a_c3 * t1 ** 6 / (1 + params_a_a * t1 ** 2) ** 2 / (1 + params_a_a * t1 ** 2))"

theorem gga_k_mpbe_ok : pubUnpol 1000 .gga gga_k_mpbe.unpolBody gga_k_mpbe_q = true := by decide +kernel

def gga_k_mpbe_qE (P : Prims) (p : Rec) (r0 s0 : ℝ) : ℝ :=
  let t1 := ((fn1Val P .sqrt s0) / (((N 2 (0)) * ((((N 3 (0)) * (Real.pi ^ (N 2 (0)))) * r0) ^ ((N 1 (0)) / (N 3 (0))))) * r0))
  (((((N 3 (0)) / (N 10 (0))) * (((N 3 (0)) * (Real.pi ^ (N 2 (0)))) ^ ((N 2 (0)) / (N 3 (0))))) * (r0 ^ ((N 2 (0)) / (N 3 (0))))) * ((((N 1 (0)) + (((par p "c1") * (t1 ^ (N 2 (0)))) / ((N 1 (0)) + ((par p "a") * (t1 ^ (N 2 (0))))))) + (((par p "c2") * (t1 ^ (N 4 (0)))) / (((N 1 (0)) + ((par p "a") * (t1 ^ (N 2 (0))))) ^ (N 2 (0))))) + ((((par p "c3") * (t1 ^ (N 6 (0)))) / (((N 1 (0)) + ((par p "a") * (t1 ^ (N 2 (0))))) ^ (N 2 (0)))) / ((N 1 (0)) + ((par p "a") * (t1 ^ (N 2 (0))))))))

theorem gga_k_mpbe_qE_eq (P : Prims) (p : Rec) (r0 s0 : ℝ) : run P (unpolEnv p r0 (some s0) none none) gga_k_mpbe_q = .ok (gga_k_mpbe_qE P p r0 s0) := by kernel_rfl

theorem gga_k_mpbe_eq (P : Prims) (p : Rec) (r0 s0 : ℝ) (ht : Thresholds p) (h : Above p r0) (hs : 0 ≤ s0) :
    gga_k_mpbe.unpol P p r0 (some s0) none none = .ok (gga_k_mpbe_qE P p r0 s0) := by
  obtain ⟨x, e, e'⟩ := pubUnpol_of gga_k_mpbe_ok P p r0 s0 0 0 ht h.pos hs le_rfl h.zeta h.dens
  rw [gga_k_mpbe_qE_eq P p r0 s0 |>.symm.trans e' |> Except.ok.inj]
  exact e

prog gga_k_llp_q "t1 = math.sqrt(s0 / 4) / (r0 / 2) ** (4 / 3)
res = 3 / 10 * (3 * math.pi ** 2) ** (2 / 3) * r0 ** (2 / 3) * (1 + params_a_beta * t1 ** 2 / (1 + params_a_gamma * params_a_beta * t1 * math.asinh(t1)) / (3 / 2 * (3 / (4 * math.pi)) ** (1 / 3)))"

theorem gga_k_llp_ok : pubUnpol 1000 .gga gga_k_llp.unpolBody gga_k_llp_q = true := by decide +kernel

def gga_k_llp_qE (P : Prims) (p : Rec) (r0 s0 : ℝ) : ℝ :=
  let t1 := ((fn1Val P .sqrt (s0 / (N 4 (0)))) / ((r0 / (N 2 (0))) ^ ((N 4 (0)) / (N 3 (0)))))
  (((((N 3 (0)) / (N 10 (0))) * (((N 3 (0)) * (Real.pi ^ (N 2 (0)))) ^ ((N 2 (0)) / (N 3 (0))))) * (r0 ^ ((N 2 (0)) / (N 3 (0))))) * ((N 1 (0)) + ((((par p "beta") * (t1 ^ (N 2 (0)))) / ((N 1 (0)) + ((((par p "gamma") * (par p "beta")) * t1) * (fn1Val P .arcsinh t1)))) / (((N 3 (0)) / (N 2 (0))) * (((N 3 (0)) / ((N 4 (0)) * Real.pi)) ^ ((N 1 (0)) / (N 3 (0))))))))

theorem gga_k_llp_qE_eq (P : Prims) (p : Rec) (r0 s0 : ℝ) : run P (unpolEnv p r0 (some s0) none none) gga_k_llp_q = .ok (gga_k_llp_qE P p r0 s0) := by kernel_rfl

theorem gga_k_llp_eq (P : Prims) (p : Rec) (r0 s0 : ℝ) (ht : Thresholds p) (h : Above p r0) (hs : 0 ≤ s0) :
    gga_k_llp.unpol P p r0 (some s0) none none = .ok (gga_k_llp_qE P p r0 s0) := by
  obtain ⟨x, e, e'⟩ := pubUnpol_of gga_k_llp_ok P p r0 s0 0 0 ht h.pos hs le_rfl h.zeta h.dens
  rw [gga_k_llp_qE_eq P p r0 s0 |>.symm.trans e' |> Except.ok.inj]
  exact e

prog gga_k_pearson_q "t1 = math.sqrt(s0) / (2 * (3 * math.pi ** 2 * r0) ** (1 / 3) * r0)
res = 3 / 10 * (3 * math.pi ** 2) ** (2 / 3) * r0 ** (2 / 3) * (1 + 5 / 27 * t1 ** 2 / (1 + t1 ** 6))"

theorem gga_k_pearson_ok : pubUnpol 1000 .gga gga_k_pearson.unpolBody gga_k_pearson_q = true := by decide +kernel

def gga_k_pearson_qE (P : Prims) (p : Rec) (r0 s0 : ℝ) : ℝ :=
  let t1 := ((fn1Val P .sqrt s0) / (((N 2 (0)) * ((((N 3 (0)) * (Real.pi ^ (N 2 (0)))) * r0) ^ ((N 1 (0)) / (N 3 (0))))) * r0))
  (((((N 3 (0)) / (N 10 (0))) * (((N 3 (0)) * (Real.pi ^ (N 2 (0)))) ^ ((N 2 (0)) / (N 3 (0))))) * (r0 ^ ((N 2 (0)) / (N 3 (0))))) * ((N 1 (0)) + ((((N 5 (0)) / (N 27 (0))) * (t1 ^ (N 2 (0)))) / ((N 1 (0)) + (t1 ^ (N 6 (0)))))))

theorem gga_k_pearson_qE_eq (P : Prims) (p : Rec) (r0 s0 : ℝ) : run P (unpolEnv p r0 (some s0) none none) gga_k_pearson_q = .ok (gga_k_pearson_qE P p r0 s0) := by kernel_rfl

theorem gga_k_pearson_eq (P : Prims) (p : Rec) (r0 s0 : ℝ) (ht : Thresholds p) (h : Above p r0) (hs : 0 ≤ s0) :
    gga_k_pearson.unpol P p r0 (some s0) none none = .ok (gga_k_pearson_qE P p r0 s0) := by
  obtain ⟨x, e, e'⟩ := pubUnpol_of gga_k_pearson_ok P p r0 s0 0 0 ht h.pos hs le_rfl h.zeta h.dens
  rw [gga_k_pearson_qE_eq P p r0 s0 |>.symm.trans e' |> Except.ok.inj]
  exact e

prog gga_k_pg_q "t1 = math.sqrt(s0) / (2 * (3 * math.pi ** 2 * r0) ** (1 / 3) * r0)
res = 3 / 10 * (3 * math.pi ** 2) ** (2 / 3) * r0 ** (2 / 3) * (5 / 3 * t1 ** 2 + math.exp(-params_a_pg_mu * t1 ** 2))"

theorem gga_k_pg_ok : pubUnpol 1000 .gga gga_k_pg.unpolBody gga_k_pg_q = true := by decide +kernel

def gga_k_pg_qE (P : Prims) (p : Rec) (r0 s0 : ℝ) : ℝ :=
  let t1 := ((fn1Val P .sqrt s0) / (((N 2 (0)) * ((((N 3 (0)) * (Real.pi ^ (N 2 (0)))) * r0) ^ ((N 1 (0)) / (N 3 (0))))) * r0))
  (((((N 3 (0)) / (N 10 (0))) * (((N 3 (0)) * (Real.pi ^ (N 2 (0)))) ^ ((N 2 (0)) / (N 3 (0))))) * (r0 ^ ((N 2 (0)) / (N 3 (0))))) * ((((N 5 (0)) / (N 3 (0))) * (t1 ^ (N 2 (0)))) + (fn1Val P .exp ((-(par p "pg_mu")) * (t1 ^ (N 2 (0)))))))

theorem gga_k_pg_qE_eq (P : Prims) (p : Rec) (r0 s0 : ℝ) : run P (unpolEnv p r0 (some s0) none none) gga_k_pg_q = .ok (gga_k_pg_qE P p r0 s0) := by kernel_rfl

theorem gga_k_pg_eq (P : Prims) (p : Rec) (r0 s0 : ℝ) (ht : Thresholds p) (h : Above p r0) (hs : 0 ≤ s0) :
    gga_k_pg.unpol P p r0 (some s0) none none = .ok (gga_k_pg_qE P p r0 s0) := by
  obtain ⟨x, e, e'⟩ := pubUnpol_of gga_k_pg_ok P p r0 s0 0 0 ht h.pos hs le_rfl h.zeta h.dens
  rw [gga_k_pg_qE_eq P p r0 s0 |>.symm.trans e' |> Except.ok.inj]
  exact e

prog gga_k_rational_p_q "t1 = math.sqrt(s0) / (2 * (3 * math.pi ** 2 * r0) ** (1 / 3) * r0)
res = 3 / 10 * (3 * math.pi ** 2) ** (2 / 3) * r0 ** (2 / 3) * ((1 + params_a_C2 / params_a_p * t1 ** 2) ** (-params_a_p))"

theorem gga_k_rational_p_ok : pubUnpol 1000 .gga gga_k_rational_p.unpolBody gga_k_rational_p_q = true := by decide +kernel

def gga_k_rational_p_qE (P : Prims) (p : Rec) (r0 s0 : ℝ) : ℝ :=
  let t1 := ((fn1Val P .sqrt s0) / (((N 2 (0)) * ((((N 3 (0)) * (Real.pi ^ (N 2 (0)))) * r0) ^ ((N 1 (0)) / (N 3 (0))))) * r0))
  (((((N 3 (0)) / (N 10 (0))) * (((N 3 (0)) * (Real.pi ^ (N 2 (0)))) ^ ((N 2 (0)) / (N 3 (0))))) * (r0 ^ ((N 2 (0)) / (N 3 (0))))) * (((N 1 (0)) + (((par p "C2") / (par p "p")) * (t1 ^ (N 2 (0))))) ^ (-(par p "p"))))

theorem gga_k_rational_p_qE_eq (P : Prims) (p : Rec) (r0 s0 : ℝ) : run P (unpolEnv p r0 (some s0) none none) gga_k_rational_p_q = .ok (gga_k_rational_p_qE P p r0 s0) := by kernel_rfl

theorem gga_k_rational_p_eq (P : Prims) (p : Rec) (r0 s0 : ℝ) (ht : Thresholds p) (h : Above p r0) (hs : 0 ≤ s0) :
    gga_k_rational_p.unpol P p r0 (some s0) none none = .ok (gga_k_rational_p_qE P p r0 s0) := by
  obtain ⟨x, e, e'⟩ := pubUnpol_of gga_k_rational_p_ok P p r0 s0 0 0 ht h.pos hs le_rfl h.zeta h.dens
  rw [gga_k_rational_p_qE_eq P p r0 s0 |>.symm.trans e' |> Except.ok.inj]
  exact e

prog gga_k_dk_q "t1 = math.sqrt(s0 / 4) / (r0 / 2) ** (4 / 3)
res = 3 / 10 * (3 * math.pi ** 2) ** (2 / 3) * r0 ** (2 / 3) * ((params_a_aa[0] + params_a_aa[1] * t1 ** 2 + params_a_aa[2] * t1 ** 4 + params_a_aa[3] * t1 ** 6 + params_a_aa[4] * t1 ** 8) / (params_a_bb[0] + params_a_bb[1] * t1 ** 2 + params_a_bb[2] * t1 ** 4 + params_a_bb[3] * t1 ** 6 + params_a_bb[4] * t1 ** 8))"

theorem gga_k_dk_ok : pubUnpol 1000 .gga gga_k_dk.unpolBody gga_k_dk_q = true := by decide +kernel

def gga_k_dk_qE (P : Prims) (p : Rec) (r0 s0 : ℝ) : ℝ :=
  let t1 := ((fn1Val P .sqrt (s0 / (N 4 (0)))) / ((r0 / (N 2 (0))) ^ ((N 4 (0)) / (N 3 (0)))))
  (((((N 3 (0)) / (N 10 (0))) * (((N 3 (0)) * (Real.pi ^ (N 2 (0)))) ^ ((N 2 (0)) / (N 3 (0))))) * (r0 ^ ((N 2 (0)) / (N 3 (0))))) * ((((((par p "aa[0]") + ((par p "aa[1]") * (t1 ^ (N 2 (0))))) + ((par p "aa[2]") * (t1 ^ (N 4 (0))))) + ((par p "aa[3]") * (t1 ^ (N 6 (0))))) + ((par p "aa[4]") * (t1 ^ (N 8 (0))))) / (((((par p "bb[0]") + ((par p "bb[1]") * (t1 ^ (N 2 (0))))) + ((par p "bb[2]") * (t1 ^ (N 4 (0))))) + ((par p "bb[3]") * (t1 ^ (N 6 (0))))) + ((par p "bb[4]") * (t1 ^ (N 8 (0)))))))

theorem gga_k_dk_qE_eq (P : Prims) (p : Rec) (r0 s0 : ℝ) : run P (unpolEnv p r0 (some s0) none none) gga_k_dk_q = .ok (gga_k_dk_qE P p r0 s0) := by kernel_rfl

theorem gga_k_dk_eq (P : Prims) (p : Rec) (r0 s0 : ℝ) (ht : Thresholds p) (h : Above p r0) (hs : 0 ≤ s0) :
    gga_k_dk.unpol P p r0 (some s0) none none = .ok (gga_k_dk_qE P p r0 s0) := by
  obtain ⟨x, e, e'⟩ := pubUnpol_of gga_k_dk_ok P p r0 s0 0 0 ht h.pos hs le_rfl h.zeta h.dens
  rw [gga_k_dk_qE_eq P p r0 s0 |>.symm.trans e' |> Except.ok.inj]
  exact e

prog gga_k_thakkar_q "t1 = math.sqrt(s0 / 4) / (r0 / 2) ** (4 / 3)
res = 3 / 10 * (3 * math.pi ** 2) ** (2 / 3) * r0 ** (2 / 3) * (1 + 55 / 10000 * t1 ** 2 / (1 + 253 / 10000 * t1 * math.asinh(t1)) - 72 / 1000 * t1 / (1 + 2 ** (5 / 3) * t1))"

theorem gga_k_thakkar_ok : pubUnpol 1000 .gga gga_k_thakkar.unpolBody gga_k_thakkar_q = true := by decide +kernel

def gga_k_thakkar_qE (P : Prims) (p : Rec) (r0 s0 : ℝ) : ℝ :=
  let t1 := ((fn1Val P .sqrt (s0 / (N 4 (0)))) / ((r0 / (N 2 (0))) ^ ((N 4 (0)) / (N 3 (0)))))
  (((((N 3 (0)) / (N 10 (0))) * (((N 3 (0)) * (Real.pi ^ (N 2 (0)))) ^ ((N 2 (0)) / (N 3 (0))))) * (r0 ^ ((N 2 (0)) / (N 3 (0))))) * (((N 1 (0)) + ((((N 55 (0)) / (N 10000 (0))) * (t1 ^ (N 2 (0)))) / ((N 1 (0)) + ((((N 253 (0)) / (N 10000 (0))) * t1) * (fn1Val P .arcsinh t1))))) - ((((N 72 (0)) / (N 1000 (0))) * t1) / ((N 1 (0)) + (((N 2 (0)) ^ ((N 5 (0)) / (N 3 (0)))) * t1)))))

theorem gga_k_thakkar_qE_eq (P : Prims) (p : Rec) (r0 s0 : ℝ) : run P (unpolEnv p r0 (some s0) none none) gga_k_thakkar_q = .ok (gga_k_thakkar_qE P p r0 s0) := by kernel_rfl

theorem gga_k_thakkar_eq (P : Prims) (p : Rec) (r0 s0 : ℝ) (ht : Thresholds p) (h : Above p r0) (hs : 0 ≤ s0) :
    gga_k_thakkar.unpol P p r0 (some s0) none none = .ok (gga_k_thakkar_qE P p r0 s0) := by
  obtain ⟨x, e, e'⟩ := pubUnpol_of gga_k_thakkar_ok P p r0 s0 0 0 ht h.pos hs le_rfl h.zeta h.dens
  rw [gga_k_thakkar_qE_eq P p r0 s0 |>.symm.trans e' |> Except.ok.inj]
  exact e

prog mgga_x_lta_q "t1 = s0 / (4 * (3 * math.pi ** 2) ** (2 / 3) * r0 ** (8 / 3))
t2 = s0 / (8 * r0)
t3 = 3 / 10 * (3 * math.pi ** 2) ** (2 / 3) * r0 ** (5 / 3)
t4 = (tau0 - t2) / t3
res = -(3 / 4) * (3 / math.pi) ** (1 / 3) * r0 ** (1 / 3) * ((tau0 / t3) ** (4 / 5 * params_a_ltafrac))"

theorem mgga_x_lta_ok : pubUnpol 1000 .mgga mgga_x_lta.unpolBody mgga_x_lta_q = true := by decide +kernel

def mgga_x_lta_qE (P : Prims) (p : Rec) (r0 s0 l0 tau0 : ℝ) : ℝ :=
  let t1 := (s0 / (((N 4 (0)) * (((N 3 (0)) * (Real.pi ^ (N 2 (0)))) ^ ((N 2 (0)) / (N 3 (0))))) * (r0 ^ ((N 8 (0)) / (N 3 (0))))))
  let t2 := (s0 / ((N 8 (0)) * r0))
  let t3 := ((((N 3 (0)) / (N 10 (0))) * (((N 3 (0)) * (Real.pi ^ (N 2 (0)))) ^ ((N 2 (0)) / (N 3 (0))))) * (r0 ^ ((N 5 (0)) / (N 3 (0)))))
  let t4 := ((tau0 - t2) / t3)
  ((((-((N 3 (0)) / (N 4 (0)))) * (((N 3 (0)) / Real.pi) ^ ((N 1 (0)) / (N 3 (0))))) * (r0 ^ ((N 1 (0)) / (N 3 (0))))) * ((tau0 / t3) ^ (((N 4 (0)) / (N 5 (0))) * (par p "ltafrac"))))

theorem mgga_x_lta_qE_eq (P : Prims) (p : Rec) (r0 s0 l0 tau0 : ℝ) : run P (unpolEnv p r0 (some s0) (some l0) (some tau0)) mgga_x_lta_q = .ok (mgga_x_lta_qE P p r0 s0 l0 tau0) := by kernel_rfl

theorem mgga_x_lta_eq (P : Prims) (p : Rec) (r0 s0 l0 tau0 : ℝ) (ht : Thresholds p) (h : Above p r0) (hs : 0 ≤ s0) (hτ : 0 ≤ tau0) :
    mgga_x_lta.unpol P p r0 (some s0) (some l0) (some tau0) = .ok (mgga_x_lta_qE P p r0 s0 l0 tau0) := by
  obtain ⟨x, e, e'⟩ := pubUnpol_of mgga_x_lta_ok P p r0 s0 l0 tau0 ht h.pos hs hτ h.zeta h.dens
  rw [mgga_x_lta_qE_eq P p r0 s0 l0 tau0 |>.symm.trans e' |> Except.ok.inj]
  exact e

prog mgga_x_ms_q "t1 = s0 / (4 * (3 * math.pi ** 2) ** (2 / 3) * r0 ** (8 / 3))
t2 = s0 / (8 * r0)
t3 = 3 / 10 * (3 * math.pi ** 2) ** (2 / 3) * r0 ** (5 / 3)
t4 = (tau0 - t2) / t3
t5 = 1 + params_a_kappa * (1 - params_a_kappa / (params_a_kappa + 10 / 81 * t1))
t6 = 1 + params_a_kappa * (1 - params_a_kappa / (params_a_kappa + 10 / 81 * t1 + params_a_c))
res = -(3 / 4) * (3 / math.pi) ** (1 / 3) * r0 ** (1 / 3) * (t5 + (1 - t4 ** 2) ** 3 / (1 + t4 ** 3 + params_a_b * t4 ** 6) * (t6 - t5))"

theorem mgga_x_ms_ok : pubUnpol 1000 .mgga mgga_x_ms.unpolBody mgga_x_ms_q = true := by decide +kernel

def mgga_x_ms_qE (P : Prims) (p : Rec) (r0 s0 l0 tau0 : ℝ) : ℝ :=
  let t1 := (s0 / (((N 4 (0)) * (((N 3 (0)) * (Real.pi ^ (N 2 (0)))) ^ ((N 2 (0)) / (N 3 (0))))) * (r0 ^ ((N 8 (0)) / (N 3 (0))))))
  let t2 := (s0 / ((N 8 (0)) * r0))
  let t3 := ((((N 3 (0)) / (N 10 (0))) * (((N 3 (0)) * (Real.pi ^ (N 2 (0)))) ^ ((N 2 (0)) / (N 3 (0))))) * (r0 ^ ((N 5 (0)) / (N 3 (0)))))
  let t4 := ((tau0 - t2) / t3)
  let t5 := ((N 1 (0)) + ((par p "kappa") * ((N 1 (0)) - ((par p "kappa") / ((par p "kappa") + (((N 10 (0)) / (N 81 (0))) * t1))))))
  let t6 := ((N 1 (0)) + ((par p "kappa") * ((N 1 (0)) - ((par p "kappa") / (((par p "kappa") + (((N 10 (0)) / (N 81 (0))) * t1)) + (par p "c"))))))
  ((((-((N 3 (0)) / (N 4 (0)))) * (((N 3 (0)) / Real.pi) ^ ((N 1 (0)) / (N 3 (0))))) * (r0 ^ ((N 1 (0)) / (N 3 (0))))) * (t5 + (((((N 1 (0)) - (t4 ^ (N 2 (0)))) ^ (N 3 (0))) / (((N 1 (0)) + (t4 ^ (N 3 (0)))) + ((par p "b") * (t4 ^ (N 6 (0)))))) * (t6 - t5))))

theorem mgga_x_ms_qE_eq (P : Prims) (p : Rec) (r0 s0 l0 tau0 : ℝ) : run P (unpolEnv p r0 (some s0) (some l0) (some tau0)) mgga_x_ms_q = .ok (mgga_x_ms_qE P p r0 s0 l0 tau0) := by kernel_rfl

theorem mgga_x_ms_eq (P : Prims) (p : Rec) (r0 s0 l0 tau0 : ℝ) (ht : Thresholds p) (h : Above p r0) (hs : 0 ≤ s0) (hτ : 0 ≤ tau0) :
    mgga_x_ms.unpol P p r0 (some s0) (some l0) (some tau0) = .ok (mgga_x_ms_qE P p r0 s0 l0 tau0) := by
  obtain ⟨x, e, e'⟩ := pubUnpol_of mgga_x_ms_ok P p r0 s0 l0 tau0 ht h.pos hs hτ h.zeta h.dens
  rw [mgga_x_ms_qE_eq P p r0 s0 l0 tau0 |>.symm.trans e' |> Except.ok.inj]
  exact e

prog mgga_x_mvs_q "t1 = s0 / (4 * (3 * math.pi ** 2) ** (2 / 3) * r0 ** (8 / 3))
t2 = s0 / (8 * r0)
t3 = 3 / 10 * (3 * math.pi ** 2) ** (2 / 3) * r0 ** (5 / 3)
t4 = (tau0 - t2) / t3
t5 = (1 - t4) / ((1 + params_a_e1 * t4 ** 2) ** 2 + params_a_c1 * t4 ** 4) ** (1 / 4)
res = -(3 / 4) * (3 / math.pi) ** (1 / 3) * r0 ** (1 / 3) * ((1 + params_a_k0 * t5) / (1 + params_a_b * t1 ** 2) ** (1 / 8))"

theorem mgga_x_mvs_ok : pubUnpol 1000 .mgga mgga_x_mvs.unpolBody mgga_x_mvs_q = true := by decide +kernel

def mgga_x_mvs_qE (P : Prims) (p : Rec) (r0 s0 l0 tau0 : ℝ) : ℝ :=
  let t1 := (s0 / (((N 4 (0)) * (((N 3 (0)) * (Real.pi ^ (N 2 (0)))) ^ ((N 2 (0)) / (N 3 (0))))) * (r0 ^ ((N 8 (0)) / (N 3 (0))))))
  let t2 := (s0 / ((N 8 (0)) * r0))
  let t3 := ((((N 3 (0)) / (N 10 (0))) * (((N 3 (0)) * (Real.pi ^ (N 2 (0)))) ^ ((N 2 (0)) / (N 3 (0))))) * (r0 ^ ((N 5 (0)) / (N 3 (0)))))
  let t4 := ((tau0 - t2) / t3)
  let t5 := (((N 1 (0)) - t4) / (((((N 1 (0)) + ((par p "e1") * (t4 ^ (N 2 (0))))) ^ (N 2 (0))) + ((par p "c1") * (t4 ^ (N 4 (0))))) ^ ((N 1 (0)) / (N 4 (0)))))
  ((((-((N 3 (0)) / (N 4 (0)))) * (((N 3 (0)) / Real.pi) ^ ((N 1 (0)) / (N 3 (0))))) * (r0 ^ ((N 1 (0)) / (N 3 (0))))) * (((N 1 (0)) + ((par p "k0") * t5)) / (((N 1 (0)) + ((par p "b") * (t1 ^ (N 2 (0))))) ^ ((N 1 (0)) / (N 8 (0))))))

theorem mgga_x_mvs_qE_eq (P : Prims) (p : Rec) (r0 s0 l0 tau0 : ℝ) : run P (unpolEnv p r0 (some s0) (some l0) (some tau0)) mgga_x_mvs_q = .ok (mgga_x_mvs_qE P p r0 s0 l0 tau0) := by kernel_rfl

theorem mgga_x_mvs_eq (P : Prims) (p : Rec) (r0 s0 l0 tau0 : ℝ) (ht : Thresholds p) (h : Above p r0) (hs : 0 ≤ s0) (hτ : 0 ≤ tau0) :
    mgga_x_mvs.unpol P p r0 (some s0) (some l0) (some tau0) = .ok (mgga_x_mvs_qE P p r0 s0 l0 tau0) := by
  obtain ⟨x, e, e'⟩ := pubUnpol_of mgga_x_mvs_ok P p r0 s0 l0 tau0 ht h.pos hs hτ h.zeta h.dens
  rw [mgga_x_mvs_qE_eq P p r0 s0 l0 tau0 |>.symm.trans e' |> Except.ok.inj]
  exact e

prog mgga_x_th_q "t1 = s0 / (4 * (3 * math.pi ** 2) ** (2 / 3) * r0 ** (8 / 3))
t2 = s0 / (8 * r0)
t3 = 3 / 10 * (3 * math.pi ** 2) ** (2 / 3) * r0 ** (5 / 3)
t4 = (tau0 - t2) / t3
res = -(3 / 4) * (3 / math.pi) ** (1 / 3) * r0 ** (1 / 3) * ((t3 / tau0) * (1 + 7 / 27 * (t2 / tau0)))"

theorem mgga_x_th_ok : pubUnpol 1000 .mgga mgga_x_th.unpolBody mgga_x_th_q = true := by decide +kernel

def mgga_x_th_qE (P : Prims) (p : Rec) (r0 s0 l0 tau0 : ℝ) : ℝ :=
  let t1 := (s0 / (((N 4 (0)) * (((N 3 (0)) * (Real.pi ^ (N 2 (0)))) ^ ((N 2 (0)) / (N 3 (0))))) * (r0 ^ ((N 8 (0)) / (N 3 (0))))))
  let t2 := (s0 / ((N 8 (0)) * r0))
  let t3 := ((((N 3 (0)) / (N 10 (0))) * (((N 3 (0)) * (Real.pi ^ (N 2 (0)))) ^ ((N 2 (0)) / (N 3 (0))))) * (r0 ^ ((N 5 (0)) / (N 3 (0)))))
  let t4 := ((tau0 - t2) / t3)
  ((((-((N 3 (0)) / (N 4 (0)))) * (((N 3 (0)) / Real.pi) ^ ((N 1 (0)) / (N 3 (0))))) * (r0 ^ ((N 1 (0)) / (N 3 (0))))) * ((t3 / tau0) * ((N 1 (0)) + (((N 7 (0)) / (N 27 (0))) * (t2 / tau0)))))

theorem mgga_x_th_qE_eq (P : Prims) (p : Rec) (r0 s0 l0 tau0 : ℝ) : run P (unpolEnv p r0 (some s0) (some l0) (some tau0)) mgga_x_th_q = .ok (mgga_x_th_qE P p r0 s0 l0 tau0) := by kernel_rfl

theorem mgga_x_th_eq (P : Prims) (p : Rec) (r0 s0 l0 tau0 : ℝ) (ht : Thresholds p) (h : Above p r0) (hs : 0 ≤ s0) (hτ : 0 ≤ tau0) :
    mgga_x_th.unpol P p r0 (some s0) (some l0) (some tau0) = .ok (mgga_x_th_qE P p r0 s0 l0 tau0) := by
  obtain ⟨x, e, e'⟩ := pubUnpol_of mgga_x_th_ok P p r0 s0 l0 tau0 ht h.pos hs hτ h.zeta h.dens
  rw [mgga_x_th_qE_eq P p r0 s0 l0 tau0 |>.symm.trans e' |> Except.ok.inj]
  exact e

prog mgga_x_tau_hcth_q "t1 = s0 / (4 * (3 * math.pi ** 2) ** (2 / 3) * r0 ** (8 / 3))
t2 = s0 / (8 * r0)
t3 = 3 / 10 * (3 * math.pi ** 2) ** (2 / 3) * r0 ** (5 / 3)
t4 = (tau0 - t2) / t3
t5 = t3 - tau0
t6 = t3 + tau0
t7 = 4 / 1000 * (s0 / 4 / (r0 / 2) ** (8 / 3))
t8 = 1 + t7
res = -(3 / 4) * (3 / math.pi) ** (1 / 3) * r0 ** (1 / 3) * (params_a_cx_local[0] + params_a_cx_local[1] * (t7 ** 1 / t8) + params_a_cx_local[2] * (t7 ** 2 / t8 ** 2) + params_a_cx_local[3] * (t7 ** 3 / t8 ** 2 / t8) + (params_a_cx_nlocal[0] + params_a_cx_nlocal[1] * (t7 ** 1 / t8) + params_a_cx_nlocal[2] * (t7 ** 2 / t8 ** 2) + params_a_cx_nlocal[3] * (t7 ** 3 / t8 ** 2 / t8)) * (t5 / t6 - 2 * (t5 ** 3 / t6 ** 2 / t6) + t5 ** 5 / t6 ** 4 / t6))"

theorem mgga_x_tau_hcth_ok : pubUnpol 1000 .mgga mgga_x_tau_hcth.unpolBody mgga_x_tau_hcth_q = true := by decide +kernel

def mgga_x_tau_hcth_qE (P : Prims) (p : Rec) (r0 s0 l0 tau0 : ℝ) : ℝ :=
  let t1 := (s0 / (((N 4 (0)) * (((N 3 (0)) * (Real.pi ^ (N 2 (0)))) ^ ((N 2 (0)) / (N 3 (0))))) * (r0 ^ ((N 8 (0)) / (N 3 (0))))))
  let t2 := (s0 / ((N 8 (0)) * r0))
  let t3 := ((((N 3 (0)) / (N 10 (0))) * (((N 3 (0)) * (Real.pi ^ (N 2 (0)))) ^ ((N 2 (0)) / (N 3 (0))))) * (r0 ^ ((N 5 (0)) / (N 3 (0)))))
  let t4 := ((tau0 - t2) / t3)
  let t5 := (t3 - tau0)
  let t6 := (t3 + tau0)
  let t7 := (((N 4 (0)) / (N 1000 (0))) * ((s0 / (N 4 (0))) / ((r0 / (N 2 (0))) ^ ((N 8 (0)) / (N 3 (0))))))
  let t8 := ((N 1 (0)) + t7)
  ((((-((N 3 (0)) / (N 4 (0)))) * (((N 3 (0)) / Real.pi) ^ ((N 1 (0)) / (N 3 (0))))) * (r0 ^ ((N 1 (0)) / (N 3 (0))))) * (((((par p "cx_local[0]") + ((par p "cx_local[1]") * ((t7 ^ (N 1 (0))) / t8))) + ((par p "cx_local[2]") * ((t7 ^ (N 2 (0))) / (t8 ^ (N 2 (0)))))) + ((par p "cx_local[3]") * (((t7 ^ (N 3 (0))) / (t8 ^ (N 2 (0)))) / t8))) + (((((par p "cx_nlocal[0]") + ((par p "cx_nlocal[1]") * ((t7 ^ (N 1 (0))) / t8))) + ((par p "cx_nlocal[2]") * ((t7 ^ (N 2 (0))) / (t8 ^ (N 2 (0)))))) + ((par p "cx_nlocal[3]") * (((t7 ^ (N 3 (0))) / (t8 ^ (N 2 (0)))) / t8))) * (((t5 / t6) - ((N 2 (0)) * (((t5 ^ (N 3 (0))) / (t6 ^ (N 2 (0)))) / t6))) + (((t5 ^ (N 5 (0))) / (t6 ^ (N 4 (0)))) / t6)))))

theorem mgga_x_tau_hcth_qE_eq (P : Prims) (p : Rec) (r0 s0 l0 tau0 : ℝ) : run P (unpolEnv p r0 (some s0) (some l0) (some tau0)) mgga_x_tau_hcth_q = .ok (mgga_x_tau_hcth_qE P p r0 s0 l0 tau0) := by kernel_rfl

theorem mgga_x_tau_hcth_eq (P : Prims) (p : Rec) (r0 s0 l0 tau0 : ℝ) (ht : Thresholds p) (h : Above p r0) (hs : 0 ≤ s0) (hτ : 0 ≤ tau0) :
    mgga_x_tau_hcth.unpol P p r0 (some s0) (some l0) (some tau0) = .ok (mgga_x_tau_hcth_qE P p r0 s0 l0 tau0) := by
  obtain ⟨x, e, e'⟩ := pubUnpol_of mgga_x_tau_hcth_ok P p r0 s0 l0 tau0 ht h.pos hs hτ h.zeta h.dens
  rw [mgga_x_tau_hcth_qE_eq P p r0 s0 l0 tau0 |>.symm.trans e' |> Except.ok.inj]
  exact e

prog lda_c_chachiyo_q "t1 = r0 + r1
t2 = (3 / (4 * math.pi * t1)) ** (1 / 3)
t3 = (r0 - r1) / t1
t4 = ((1 + t3) ** (4 / 3) + (1 - t3) ** (4 / 3) - 2) / (2 ** (4 / 3) - 2)
t5 = params_a_ap * math.log(1 + params_a_bp / t2 + params_a_cp / t2 ** 2)
t6 = params_a_af * math.log(1 + params_a_bf / t2 + params_a_cf / t2 ** 2)
res = t5 + (t6 - t5) * t4"

theorem lda_c_chachiyo_ok : pubPol 1000 .lda lda_c_chachiyo.polBody lda_c_chachiyo_q = true := by decide +kernel

def lda_c_chachiyo_qE (P : Prims) (p : Rec) (r0 r1 : ℝ) : ℝ :=
  let t1 := (r0 + r1)
  let t2 := (((N 3 (0)) / (((N 4 (0)) * Real.pi) * t1)) ^ ((N 1 (0)) / (N 3 (0))))
  let t3 := ((r0 - r1) / t1)
  let t4 := ((((((N 1 (0)) + t3) ^ ((N 4 (0)) / (N 3 (0)))) + (((N 1 (0)) - t3) ^ ((N 4 (0)) / (N 3 (0))))) - (N 2 (0))) / (((N 2 (0)) ^ ((N 4 (0)) / (N 3 (0)))) - (N 2 (0))))
  let t5 := ((par p "ap") * (fn1Val P .log (((N 1 (0)) + ((par p "bp") / t2)) + ((par p "cp") / (t2 ^ (N 2 (0)))))))
  let t6 := ((par p "af") * (fn1Val P .log (((N 1 (0)) + ((par p "bf") / t2)) + ((par p "cf") / (t2 ^ (N 2 (0)))))))
  (t5 + ((t6 - t5) * t4))

theorem lda_c_chachiyo_qE_eq (P : Prims) (p : Rec) (r0 r1 : ℝ) : run P (polEnv p (r0, r1) none none none) lda_c_chachiyo_q = .ok (lda_c_chachiyo_qE P p r0 r1) := by kernel_rfl

theorem lda_c_chachiyo_eq (P : Prims) (p : Rec) (r0 r1 : ℝ) (ht : Thresholds p) (h0 : 0 < r0) (h1 : 0 < r1) (hu : Unscreened p r0 r1) :
    lda_c_chachiyo.pol P p (r0, r1) none none none = .ok (lda_c_chachiyo_qE P p r0 r1) := by
  obtain ⟨x, e, e'⟩ := pubPol_of lda_c_chachiyo_ok P p r0 r1 0 0 0 0 0 0 0 ht h0 h1 le_rfl le_rfl le_rfl le_rfl hu
  rw [lda_c_chachiyo_qE_eq P p r0 r1 |>.symm.trans e' |> Except.ok.inj]
  exact e

prog gga_c_chachiyo_q "t1 = r0 + r1
t2 = (3 / (4 * math.pi * t1)) ** (1 / 3)
t3 = (r0 - r1) / t1
t9 = ((1 + t3) ** (2 / 3) + (1 - t3) ** (2 / 3)) / 2
t5 = params_a_ap * math.log(1 + params_a_bp / t2 + params_a_cp / t2 ** 2)
t6 = params_a_af * math.log(1 + params_a_bf / t2 + params_a_cf / t2 ** 2)
t7 = t5 + (t6 - t5) * (2 * (1 - t9 ** 3))
t8 = (math.pi / 3) ** (1 / 3) / 16 * (s0 + 2 * s1 + s2) / t1 ** (7 / 3)
res = t7 * (1 + t8) ** (params_a_h / t7)"

theorem gga_c_chachiyo_ok : pubPol 1000 .gga gga_c_chachiyo.polBody gga_c_chachiyo_q = true := by decide +kernel

def gga_c_chachiyo_qE (P : Prims) (p : Rec) (r0 r1 s0 s1 s2 : ℝ) : ℝ :=
  let t1 := (r0 + r1)
  let t2 := (((N 3 (0)) / (((N 4 (0)) * Real.pi) * t1)) ^ ((N 1 (0)) / (N 3 (0))))
  let t3 := ((r0 - r1) / t1)
  let t9 := (((((N 1 (0)) + t3) ^ ((N 2 (0)) / (N 3 (0)))) + (((N 1 (0)) - t3) ^ ((N 2 (0)) / (N 3 (0))))) / (N 2 (0)))
  let t5 := ((par p "ap") * (fn1Val P .log (((N 1 (0)) + ((par p "bp") / t2)) + ((par p "cp") / (t2 ^ (N 2 (0)))))))
  let t6 := ((par p "af") * (fn1Val P .log (((N 1 (0)) + ((par p "bf") / t2)) + ((par p "cf") / (t2 ^ (N 2 (0)))))))
  let t7 := (t5 + ((t6 - t5) * ((N 2 (0)) * ((N 1 (0)) - (t9 ^ (N 3 (0)))))))
  let t8 := (((((Real.pi / (N 3 (0))) ^ ((N 1 (0)) / (N 3 (0)))) / (N 16 (0))) * ((s0 + ((N 2 (0)) * s1)) + s2)) / (t1 ^ ((N 7 (0)) / (N 3 (0)))))
  (t7 * (((N 1 (0)) + t8) ^ ((par p "h") / t7)))

theorem gga_c_chachiyo_qE_eq (P : Prims) (p : Rec) (r0 r1 s0 s1 s2 : ℝ) : run P (polEnv p (r0, r1) (some (s0, s1, s2)) none none) gga_c_chachiyo_q = .ok (gga_c_chachiyo_qE P p r0 r1 s0 s1 s2) := by kernel_rfl

theorem gga_c_chachiyo_eq (P : Prims) (p : Rec) (r0 r1 s0 s1 s2 : ℝ) (ht : Thresholds p) (h0 : 0 < r0) (h1 : 0 < r1) (hs0 : 0 ≤ s0) (hs2 : 0 ≤ s2) (hu : Unscreened p r0 r1) :
    gga_c_chachiyo.pol P p (r0, r1) (some (s0, s1, s2)) none none = .ok (gga_c_chachiyo_qE P p r0 r1 s0 s1 s2) := by
  obtain ⟨x, e, e'⟩ := pubPol_of gga_c_chachiyo_ok P p r0 r1 s0 s1 s2 0 0 0 0 ht h0 h1 hs0 hs2 le_rfl le_rfl hu
  rw [gga_c_chachiyo_qE_eq P p r0 r1 s0 s1 s2 |>.symm.trans e' |> Except.ok.inj]
  exact e

prog lda_c_hl_q "t1 = r0 + r1
t2 = (3 / (4 * math.pi * t1)) ** (1 / 3)
t3 = (r0 - r1) / t1
t4 = ((1 + t3) ** (4 / 3) + (1 - t3) ** (4 / 3) - 2) / (2 ** (4 / 3) - 2)
t5 = -params_a_hl_c[0] * ((1 + (t2 / params_a_hl_r[0]) ** 3) * math.log(1 + params_a_hl_r[0] / t2) - (t2 / params_a_hl_r[0]) ** 2 + t2 / params_a_hl_r[0] / 2 - 1 / 3)
t6 = -params_a_hl_c[1] * ((1 + (t2 / params_a_hl_r[1]) ** 3) * math.log(1 + params_a_hl_r[1] / t2) - (t2 / params_a_hl_r[1]) ** 2 + t2 / params_a_hl_r[1] / 2 - 1 / 3)
res = t5 + (t6 - t5) * t4"

theorem lda_c_hl_ok : pubPol 1000 .lda lda_c_hl.polBody lda_c_hl_q = true := by decide +kernel

def lda_c_hl_qE (P : Prims) (p : Rec) (r0 r1 : ℝ) : ℝ :=
  let t1 := (r0 + r1)
  let t2 := (((N 3 (0)) / (((N 4 (0)) * Real.pi) * t1)) ^ ((N 1 (0)) / (N 3 (0))))
  let t3 := ((r0 - r1) / t1)
  let t4 := ((((((N 1 (0)) + t3) ^ ((N 4 (0)) / (N 3 (0)))) + (((N 1 (0)) - t3) ^ ((N 4 (0)) / (N 3 (0))))) - (N 2 (0))) / (((N 2 (0)) ^ ((N 4 (0)) / (N 3 (0)))) - (N 2 (0))))
  let t5 := ((-(par p "hl_c[0]")) * ((((((N 1 (0)) + ((t2 / (par p "hl_r[0]")) ^ (N 3 (0)))) * (fn1Val P .log ((N 1 (0)) + ((par p "hl_r[0]") / t2)))) - ((t2 / (par p "hl_r[0]")) ^ (N 2 (0)))) + ((t2 / (par p "hl_r[0]")) / (N 2 (0)))) - ((N 1 (0)) / (N 3 (0)))))
  let t6 := ((-(par p "hl_c[1]")) * ((((((N 1 (0)) + ((t2 / (par p "hl_r[1]")) ^ (N 3 (0)))) * (fn1Val P .log ((N 1 (0)) + ((par p "hl_r[1]") / t2)))) - ((t2 / (par p "hl_r[1]")) ^ (N 2 (0)))) + ((t2 / (par p "hl_r[1]")) / (N 2 (0)))) - ((N 1 (0)) / (N 3 (0)))))
  (t5 + ((t6 - t5) * t4))

theorem lda_c_hl_qE_eq (P : Prims) (p : Rec) (r0 r1 : ℝ) : run P (polEnv p (r0, r1) none none none) lda_c_hl_q = .ok (lda_c_hl_qE P p r0 r1) := by kernel_rfl

theorem lda_c_hl_eq (P : Prims) (p : Rec) (r0 r1 : ℝ) (ht : Thresholds p) (h0 : 0 < r0) (h1 : 0 < r1) (hu : Unscreened p r0 r1) :
    lda_c_hl.pol P p (r0, r1) none none none = .ok (lda_c_hl_qE P p r0 r1) := by
  obtain ⟨x, e, e'⟩ := pubPol_of lda_c_hl_ok P p r0 r1 0 0 0 0 0 0 0 ht h0 h1 le_rfl le_rfl le_rfl le_rfl hu
  rw [lda_c_hl_qE_eq P p r0 r1 |>.symm.trans e' |> Except.ok.inj]
  exact e

prog lda_c_wigner_q "t1 = r0 + r1
t2 = (3 / (4 * math.pi * t1)) ** (1 / 3)
t3 = (r0 - r1) / t1
res = (1 - t3 ** 2) * params_a_a / (params_a_b + t2)"

theorem lda_c_wigner_ok : pubPol 1000 .lda lda_c_wigner.polBody lda_c_wigner_q = true := by decide +kernel

def lda_c_wigner_qE (P : Prims) (p : Rec) (r0 r1 : ℝ) : ℝ :=
  let t1 := (r0 + r1)
  let t2 := (((N 3 (0)) / (((N 4 (0)) * Real.pi) * t1)) ^ ((N 1 (0)) / (N 3 (0))))
  let t3 := ((r0 - r1) / t1)
  ((((N 1 (0)) - (t3 ^ (N 2 (0)))) * (par p "a")) / ((par p "b") + t2))

theorem lda_c_wigner_qE_eq (P : Prims) (p : Rec) (r0 r1 : ℝ) : run P (polEnv p (r0, r1) none none none) lda_c_wigner_q = .ok (lda_c_wigner_qE P p r0 r1) := by kernel_rfl

theorem lda_c_wigner_eq (P : Prims) (p : Rec) (r0 r1 : ℝ) (ht : Thresholds p) (h0 : 0 < r0) (h1 : 0 < r1) (hu : Unscreened p r0 r1) :
    lda_c_wigner.pol P p (r0, r1) none none none = .ok (lda_c_wigner_qE P p r0 r1) := by
  obtain ⟨x, e, e'⟩ := pubPol_of lda_c_wigner_ok P p r0 r1 0 0 0 0 0 0 0 ht h0 h1 le_rfl le_rfl le_rfl le_rfl hu
  rw [lda_c_wigner_qE_eq P p r0 r1 |>.symm.trans e' |> Except.ok.inj]
  exact e

prog lda_c_gombas_q "t1 = r0 + r1
t2 = 1 / t1 ** (1 / 3)
res = -(357 / 10000) / (1 + 562 / 10000 * t2) - 311 / 10000 * math.log((t2 + 239 / 100) / t2)"

theorem lda_c_gombas_ok : pubPol 1000 .lda lda_c_gombas.polBody lda_c_gombas_q = true := by decide +kernel

def lda_c_gombas_qE (P : Prims) (p : Rec) (r0 r1 : ℝ) : ℝ :=
  let t1 := (r0 + r1)
  let t2 := ((N 1 (0)) / (t1 ^ ((N 1 (0)) / (N 3 (0)))))
  (((-((N 357 (0)) / (N 10000 (0)))) / ((N 1 (0)) + (((N 562 (0)) / (N 10000 (0))) * t2))) - (((N 311 (0)) / (N 10000 (0))) * (fn1Val P .log ((t2 + ((N 239 (0)) / (N 100 (0)))) / t2))))

theorem lda_c_gombas_qE_eq (P : Prims) (p : Rec) (r0 r1 : ℝ) : run P (polEnv p (r0, r1) none none none) lda_c_gombas_q = .ok (lda_c_gombas_qE P p r0 r1) := by kernel_rfl

theorem lda_c_gombas_eq (P : Prims) (p : Rec) (r0 r1 : ℝ) (ht : Thresholds p) (h0 : 0 < r0) (h1 : 0 < r1) (hu : Unscreened p r0 r1) :
    lda_c_gombas.pol P p (r0, r1) none none none = .ok (lda_c_gombas_qE P p r0 r1) := by
  obtain ⟨x, e, e'⟩ := pubPol_of lda_c_gombas_ok P p r0 r1 0 0 0 0 0 0 0 ht h0 h1 le_rfl le_rfl le_rfl le_rfl hu
  rw [lda_c_gombas_qE_eq P p r0 r1 |>.symm.trans e' |> Except.ok.inj]
  exact e

prog lda_c_rc04_q "t1 = r0 + r1
t2 = (3 / (4 * math.pi * t1)) ** (1 / 3)
t3 = (r0 - r1) / t1
t9 = ((1 + t3) ** (2 / 3) + (1 - t3) ** (2 / 3)) / 2
res = t9 ** 3 * (-(655868 / 1000000) * math.atan(488827 / 100000 + 3177037 / 1000000 * t2) + 897889 / 1000000) / t2"

theorem lda_c_rc04_ok : pubPol 1000 .lda lda_c_rc04.polBody lda_c_rc04_q = true := by decide +kernel

def lda_c_rc04_qE (P : Prims) (p : Rec) (r0 r1 : ℝ) : ℝ :=
  let t1 := (r0 + r1)
  let t2 := (((N 3 (0)) / (((N 4 (0)) * Real.pi) * t1)) ^ ((N 1 (0)) / (N 3 (0))))
  let t3 := ((r0 - r1) / t1)
  let t9 := (((((N 1 (0)) + t3) ^ ((N 2 (0)) / (N 3 (0)))) + (((N 1 (0)) - t3) ^ ((N 2 (0)) / (N 3 (0))))) / (N 2 (0)))
  (((t9 ^ (N 3 (0))) * (((-((N 655868 (0)) / (N 1000000 (0)))) * (fn1Val P .arctan (((N 488827 (0)) / (N 100000 (0))) + (((N 3177037 (0)) / (N 1000000 (0))) * t2)))) + ((N 897889 (0)) / (N 1000000 (0))))) / t2)

theorem lda_c_rc04_qE_eq (P : Prims) (p : Rec) (r0 r1 : ℝ) : run P (polEnv p (r0, r1) none none none) lda_c_rc04_q = .ok (lda_c_rc04_qE P p r0 r1) := by kernel_rfl

theorem lda_c_rc04_eq (P : Prims) (p : Rec) (r0 r1 : ℝ) (ht : Thresholds p) (h0 : 0 < r0) (h1 : 0 < r1) (hu : Unscreened p r0 r1) :
    lda_c_rc04.pol P p (r0, r1) none none none = .ok (lda_c_rc04_qE P p r0 r1) := by
  obtain ⟨x, e, e'⟩ := pubPol_of lda_c_rc04_ok P p r0 r1 0 0 0 0 0 0 0 ht h0 h1 le_rfl le_rfl le_rfl le_rfl hu
  rw [lda_c_rc04_qE_eq P p r0 r1 |>.symm.trans e' |> Except.ok.inj]
  exact e

prog lda_xc_teter93_q "t1 = r0 + r1
t2 = (3 / (4 * math.pi * t1)) ** (1 / 3)
t3 = (r0 - r1) / t1
t4 = ((1 + t3) ** (4 / 3) + (1 - t3) ** (4 / 3) - 2) / (2 ** (4 / 3) - 2)
res = -(((4581652932831429 / 10000000000000000) + (119086804055547 / 1000000000000000) * t4) + ((2217058676663745 / 1000000000000000) + (6157402568883345 / 10000000000000000) * t4) * t2 + ((7405551735357053 / 10000000000000000) + (1574201515892867 / 10000000000000000) * t4) * t2 ** 2 + ((1968227878617998 / 100000000000000000) + (3532336663397157 / 1000000000000000000) * t4) * t2 ** 3) / (t2 + ((4504130959426697 / 1000000000000000) + (2673612973836267 / 10000000000000000) * t4) * t2 ** 2 + ((1110667363742916 / 1000000000000000) + (2052004607777787 / 10000000000000000) * t4) * t2 ** 3 + ((2359291751427506 / 100000000000000000) + (4200005045691381 / 1000000000000000000) * t4) * t2 ** 4)"

theorem lda_xc_teter93_ok : pubPol 1000 .lda lda_xc_teter93.polBody lda_xc_teter93_q = true := by decide +kernel

def lda_xc_teter93_qE (P : Prims) (p : Rec) (r0 r1 : ℝ) : ℝ :=
  let t1 := (r0 + r1)
  let t2 := (((N 3 (0)) / (((N 4 (0)) * Real.pi) * t1)) ^ ((N 1 (0)) / (N 3 (0))))
  let t3 := ((r0 - r1) / t1)
  let t4 := ((((((N 1 (0)) + t3) ^ ((N 4 (0)) / (N 3 (0)))) + (((N 1 (0)) - t3) ^ ((N 4 (0)) / (N 3 (0))))) - (N 2 (0))) / (((N 2 (0)) ^ ((N 4 (0)) / (N 3 (0)))) - (N 2 (0))))
  ((-((((((N 4581652932831429 (0)) / (N 10000000000000000 (0))) + (((N 119086804055547 (0)) / (N 1000000000000000 (0))) * t4)) + ((((N 2217058676663745 (0)) / (N 1000000000000000 (0))) + (((N 6157402568883345 (0)) / (N 10000000000000000 (0))) * t4)) * t2)) + ((((N 7405551735357053 (0)) / (N 10000000000000000 (0))) + (((N 1574201515892867 (0)) / (N 10000000000000000 (0))) * t4)) * (t2 ^ (N 2 (0))))) + ((((N 1968227878617998 (0)) / (N 100000000000000000 (0))) + (((N 3532336663397157 (0)) / (N 1000000000000000000 (0))) * t4)) * (t2 ^ (N 3 (0)))))) / (((t2 + ((((N 4504130959426697 (0)) / (N 1000000000000000 (0))) + (((N 2673612973836267 (0)) / (N 10000000000000000 (0))) * t4)) * (t2 ^ (N 2 (0))))) + ((((N 1110667363742916 (0)) / (N 1000000000000000 (0))) + (((N 2052004607777787 (0)) / (N 10000000000000000 (0))) * t4)) * (t2 ^ (N 3 (0))))) + ((((N 2359291751427506 (0)) / (N 100000000000000000 (0))) + (((N 4200005045691381 (0)) / (N 1000000000000000000 (0))) * t4)) * (t2 ^ (N 4 (0))))))

theorem lda_xc_teter93_qE_eq (P : Prims) (p : Rec) (r0 r1 : ℝ) : run P (polEnv p (r0, r1) none none none) lda_xc_teter93_q = .ok (lda_xc_teter93_qE P p r0 r1) := by kernel_rfl

theorem lda_xc_teter93_eq (P : Prims) (p : Rec) (r0 r1 : ℝ) (ht : Thresholds p) (h0 : 0 < r0) (h1 : 0 < r1) (hu : Unscreened p r0 r1) :
    lda_xc_teter93.pol P p (r0, r1) none none none = .ok (lda_xc_teter93_qE P p r0 r1) := by
  obtain ⟨x, e, e'⟩ := pubPol_of lda_xc_teter93_ok P p r0 r1 0 0 0 0 0 0 0 ht h0 h1 le_rfl le_rfl le_rfl le_rfl hu
  rw [lda_xc_teter93_qE_eq P p r0 r1 |>.symm.trans e' |> Except.ok.inj]
  exact e

prog gga_c_wl_q "t1 = r0 + r1
t2 = (3 / (4 * math.pi * t1)) ** (1 / 3)
t3 = (r0 - r1) / t1
res = math.sqrt(1 - t3 ** 2) * (-(7486 / 10000) + 6001 / 100000 * (math.sqrt(s0 + 2 * s1 + s2) / t1 ** (4 / 3))) / (360073 / 100000 + 9 / 10 * (math.sqrt(s0) / r0 ** (4 / 3)) + 9 / 10 * (math.sqrt(s2) / r1 ** (4 / 3)) + t2)"

theorem gga_c_wl_ok : pubPol 1000 .gga gga_c_wl.polBody gga_c_wl_q = true := by decide +kernel

def gga_c_wl_qE (P : Prims) (p : Rec) (r0 r1 s0 s1 s2 : ℝ) : ℝ :=
  let t1 := (r0 + r1)
  let t2 := (((N 3 (0)) / (((N 4 (0)) * Real.pi) * t1)) ^ ((N 1 (0)) / (N 3 (0))))
  let t3 := ((r0 - r1) / t1)
  (((fn1Val P .sqrt ((N 1 (0)) - (t3 ^ (N 2 (0))))) * ((-((N 7486 (0)) / (N 10000 (0)))) + (((N 6001 (0)) / (N 100000 (0))) * ((fn1Val P .sqrt ((s0 + ((N 2 (0)) * s1)) + s2)) / (t1 ^ ((N 4 (0)) / (N 3 (0)))))))) / (((((N 360073 (0)) / (N 100000 (0))) + (((N 9 (0)) / (N 10 (0))) * ((fn1Val P .sqrt s0) / (r0 ^ ((N 4 (0)) / (N 3 (0))))))) + (((N 9 (0)) / (N 10 (0))) * ((fn1Val P .sqrt s2) / (r1 ^ ((N 4 (0)) / (N 3 (0))))))) + t2))

theorem gga_c_wl_qE_eq (P : Prims) (p : Rec) (r0 r1 s0 s1 s2 : ℝ) : run P (polEnv p (r0, r1) (some (s0, s1, s2)) none none) gga_c_wl_q = .ok (gga_c_wl_qE P p r0 r1 s0 s1 s2) := by kernel_rfl

theorem gga_c_wl_eq (P : Prims) (p : Rec) (r0 r1 s0 s1 s2 : ℝ) (ht : Thresholds p) (h0 : 0 < r0) (h1 : 0 < r1) (hs0 : 0 ≤ s0) (hs2 : 0 ≤ s2) (hu : Unscreened p r0 r1) :
    gga_c_wl.pol P p (r0, r1) (some (s0, s1, s2)) none none = .ok (gga_c_wl_qE P p r0 r1 s0 s1 s2) := by
  obtain ⟨x, e, e'⟩ := pubPol_of gga_c_wl_ok P p r0 r1 s0 s1 s2 0 0 0 0 ht h0 h1 hs0 hs2 le_rfl le_rfl hu
  rw [gga_c_wl_qE_eq P p r0 r1 s0 s1 s2 |>.symm.trans e' |> Except.ok.inj]
  exact e

prog gga_c_wi_q "t1 = r0 + r1
t2 = (3 / (4 * math.pi * t1)) ** (1 / 3)
t3 = s0 + 2 * s1 + s2
t4 = math.sqrt(t3) / t1 ** (4 / 3)
res = (params_a_a + params_a_b * (t3 / t1 ** (8 / 3)) * math.exp(-params_a_k * (t3 / t1 ** (8 / 3)))) / (params_a_c + t2 * (1 + params_a_d * (4 * math.pi / 3) ** (1 / 3) * (math.sqrt(t4) * (math.sqrt(t3) * t3 / t1 ** 4))))"

theorem gga_c_wi_ok : pubPol 1000 .gga gga_c_wi.polBody gga_c_wi_q = true := by decide +kernel

def gga_c_wi_qE (P : Prims) (p : Rec) (r0 r1 s0 s1 s2 : ℝ) : ℝ :=
  let t1 := (r0 + r1)
  let t2 := (((N 3 (0)) / (((N 4 (0)) * Real.pi) * t1)) ^ ((N 1 (0)) / (N 3 (0))))
  let t3 := ((s0 + ((N 2 (0)) * s1)) + s2)
  let t4 := ((fn1Val P .sqrt t3) / (t1 ^ ((N 4 (0)) / (N 3 (0)))))
  (((par p "a") + (((par p "b") * (t3 / (t1 ^ ((N 8 (0)) / (N 3 (0)))))) * (fn1Val P .exp ((-(par p "k")) * (t3 / (t1 ^ ((N 8 (0)) / (N 3 (0))))))))) / ((par p "c") + (t2 * ((N 1 (0)) + (((par p "d") * ((((N 4 (0)) * Real.pi) / (N 3 (0))) ^ ((N 1 (0)) / (N 3 (0))))) * ((fn1Val P .sqrt t4) * (((fn1Val P .sqrt t3) * t3) / (t1 ^ (N 4 (0))))))))))

theorem gga_c_wi_qE_eq (P : Prims) (p : Rec) (r0 r1 s0 s1 s2 : ℝ) : run P (polEnv p (r0, r1) (some (s0, s1, s2)) none none) gga_c_wi_q = .ok (gga_c_wi_qE P p r0 r1 s0 s1 s2) := by kernel_rfl

theorem gga_c_wi_eq (P : Prims) (p : Rec) (r0 r1 s0 s1 s2 : ℝ) (ht : Thresholds p) (h0 : 0 < r0) (h1 : 0 < r1) (hs0 : 0 ≤ s0) (hs2 : 0 ≤ s2) (hu : Unscreened p r0 r1) :
    gga_c_wi.pol P p (r0, r1) (some (s0, s1, s2)) none none = .ok (gga_c_wi_qE P p r0 r1 s0 s1 s2) := by
  obtain ⟨x, e, e'⟩ := pubPol_of gga_c_wi_ok P p r0 r1 s0 s1 s2 0 0 0 0 ht h0 h1 hs0 hs2 le_rfl le_rfl hu
  rw [gga_c_wi_qE_eq P p r0 r1 s0 s1 s2 |>.symm.trans e' |> Except.ok.inj]
  exact e

end
end Verif.Norm
