import Verif.Norm.Overflow
import Verif.Norm.HintsSound
import Verif.Lib.ClosedForm
import Verif.Py.KernelRfl
import Verif.Data.F01
import Verif.Data.F05
import Mathlib.Analysis.SpecialFunctions.ImproperIntegrals
import Mathlib.Analysis.Complex.ExponentialBounds
/-!
# C64: the scaled special functions overflow, and two formulas with them
-/
namespace Verif.Props
open Verif.Py Verif.Model Verif.Spec Verif.Data Verif.Lib Verif.Norm
noncomputable section

set_option maxRecDepth 100000
set_option Elab.async false

/-! ## Bounds for the two functions -/

open MeasureTheory in
theorem expInt_nonneg {x : ℝ} (hx : 0 ≤ x) : 0 ≤ expInt x :=
  setIntegral_nonneg measurableSet_Ioi fun t ht => by have : 0 < t := lt_of_le_of_lt hx ht; positivity

open MeasureTheory in
theorem expInt_le {x : ℝ} (hx : 1 ≤ x) : expInt x ≤ Real.exp (-x) := by
  rw [← integral_exp_neg_Ioi x]
  refine integral_mono_of_nonneg (ae_restrict_of_forall_mem measurableSet_Ioi fun t ht => ?_) (integrableOn_exp_neg_Ioi x)
    (ae_restrict_of_forall_mem measurableSet_Ioi fun t ht => ?_)
  · have : 0 < t := lt_trans (by linarith) (Set.mem_Ioi.mp ht)
    show 0 ≤ Real.exp (-t) / t
    positivity
  · have : 1 ≤ t := le_trans hx (le_of_lt ht)
    exact div_le_self (Real.exp_pos _).le this

open MeasureTheory in
theorem errC_nonneg (x : ℝ) : 0 ≤ errC x :=
  mul_nonneg (by positivity) (setIntegral_nonneg measurableSet_Ioi fun t _ => (Real.exp_pos _).le)

open MeasureTheory in
theorem errC_le {x : ℝ} (hx : 2 ≤ x) : errC x ≤ Real.exp (-x ^ 2) := by
  have h1 : ∫ t in Set.Ioi x, Real.exp (-t ^ 2) ≤ Real.exp (-x ^ 2) / x := by
    have := integral_exp_mul_Ioi (a := -x) (by linarith) x
    rw [show Real.exp (-x ^ 2) / x = -Real.exp (-x * x) / -x by rw [neg_div_neg_eq]; congr 2; ring, ← this]
    refine integral_mono_of_nonneg (ae_restrict_of_forall_mem measurableSet_Ioi fun t _ => (Real.exp_pos _).le) (integrableOn_exp_mul_Ioi (by linarith) x)
      (ae_restrict_of_forall_mem measurableSet_Ioi fun t ht => ?_)
    have : x < t := ht
    exact Real.exp_le_exp.mpr (by nlinarith)
  have h2 : 1 ≤ Real.sqrt Real.pi := by rw [Real.one_le_sqrt]; linarith [Real.pi_gt_three]
  have h3 : 2 / Real.sqrt Real.pi ≤ 2 := div_le_self (by norm_num) h2
  have hx0 : 0 < x := by linarith
  have he := Real.exp_pos (-x ^ 2)
  calc errC x ≤ 2 / Real.sqrt Real.pi * (Real.exp (-x ^ 2) / x) := mul_le_mul_of_nonneg_left h1 (by positivity)
    _ ≤ 2 * (Real.exp (-x ^ 2) / x) := mul_le_mul_of_nonneg_right h3 (by positivity)
    _ ≤ Real.exp (-x ^ 2) := by rw [mul_div_assoc', div_le_iff₀ hx0]; nlinarith

/-! ## The two functions -/

/-- Large enough for the range: the exponential is too large and its inverse too small. -/
def Range.Out (R : Range) (x : ℝ) : Prop := R.big ≤ Real.exp x ∧ Real.exp (-x) ≤ R.tiny

theorem exp_ge {x : ℝ} {n : ℕ} (h : (n : ℝ) * 0.6931471808 ≤ x) : (2 : ℝ) ^ n ≤ Real.exp x := by
  rw [← Real.rpow_natCast, Real.rpow_def_of_pos two_pos]
  refine Real.exp_le_exp.mpr (le_trans ?_ h)
  rw [mul_comm]
  exact mul_le_mul_of_nonneg_left Real.log_two_lt_d9.le (Nat.cast_nonneg n)

theorem out_double {R : Range} (hR : R.Double) {x : ℝ} (h : 746 ≤ x) : Range.Out R x := by
  refine ⟨hR.big.trans (exp_ge (by norm_num; linarith)), le_trans ?_ hR.tiny⟩
  rw [Real.exp_neg]
  exact inv_anti₀ (by positivity) (exp_ge (by norm_num; linarith))

theorem out_single {R : Range} (hR : R.Single) {x : ℝ} (h : 104 ≤ x) : Range.Out R x := by
  refine ⟨hR.big.trans (exp_ge (by norm_num; linarith)), le_trans ?_ hR.tiny⟩
  rw [Real.exp_neg]
  exact inv_anti₀ (by positivity) (exp_ge (by norm_num; linarith))

theorem e1Scaled_out {R : Range} {P : Prims} (hP : Special P) {x : ℝ} (h1 : 1 ≤ x) (h : Range.Out R x) : e1ScaledF R P x = .nan := by
  have h0 : 0 < x := by linarith
  rw [e1ScaledF, R.over (Real.exp x) (by rw [abs_of_pos (Real.exp_pos x)]; exact h.1),
    R.under (P.e1 x) (by rw [hP.e1 x h0, abs_of_nonneg (expInt_nonneg h0.le)]; exact (expInt_le h1).trans h.2)]
  exact if_pos rfl

theorem erfcx_out {R : Range} {P : Prims} (hP : Special P) {x : ℝ} (h2 : 2 ≤ x) (h : Range.Out R (x ^ 2)) : erfcxF R P x = .nan := by
  rw [erfcxF, R.over (Real.exp (x ^ 2)) (by rw [abs_of_pos (Real.exp_pos _)]; exact h.1),
    R.under _ (by rw [hP.erfc x, abs_of_nonneg (errC_nonneg x)]; exact (errC_le h2).trans h.2)]
  exact if_pos rfl

/-- C64: in double precision `xc_E1_scaled` gives `nan` from 746 on, -/
theorem c64_e1Scaled_double {R : Range} (hR : R.Double) {P : Prims} (hP : Special P) {x : ℝ} (h : 746 ≤ x) : e1ScaledF R P x = .nan :=
  e1Scaled_out hP (by linarith) (out_double hR h)
/-- in single precision from 104 on, -/
theorem c64_e1Scaled_single {R : Range} (hR : R.Single) {P : Prims} (hP : Special P) {x : ℝ} (h : 104 ≤ x) : e1ScaledF R P x = .nan :=
  e1Scaled_out hP (by linarith) (out_single hR h)
/-- and so does `xc_erfcx` from 28 on, -/
theorem c64_erfcx_double {R : Range} (hR : R.Double) {P : Prims} (hP : Special P) {x : ℝ} (h : 28 ≤ x) : erfcxF R P x = .nan :=
  erfcx_out hP (by linarith) (out_double hR (by nlinarith))
/-- in single precision from 11 on; -/
theorem c64_erfcx_single {R : Range} (hR : R.Single) {P : Prims} (hP : Special P) {x : ℝ} (h : 11 ≤ x) : erfcxF R P x = .nan :=
  erfcx_out hP (by linarith) (out_single hR (by nlinarith))
/-- although the numbers that they should give lie between 0 and 1. -/
theorem c64_in_range {P : Prims} (hP : Special P) {x : ℝ} (h : 2 ≤ x) :
    0 ≤ fn1Val P .e1Scaled x ∧ fn1Val P .e1Scaled x ≤ 1 ∧ 0 ≤ fn1Val P .erfcx x ∧ fn1Val P .erfcx x ≤ 1 := by
  have h0 : 0 < x := by linarith
  have e1 : Real.exp (-x) * Real.exp x = 1 := by rw [← Real.exp_add, neg_add_cancel, Real.exp_zero]
  have e2 : Real.exp (x ^ 2) * Real.exp (-x ^ 2) = 1 := by rw [← Real.exp_add, add_neg_cancel, Real.exp_zero]
  refine ⟨?_, ?_, ?_, ?_⟩
  · show 0 ≤ P.e1 x * Real.exp x
    rw [hP.e1 x h0]
    exact mul_nonneg (expInt_nonneg h0.le) (Real.exp_pos _).le
  · show P.e1 x * Real.exp x ≤ 1
    rw [hP.e1 x h0, ← e1]
    exact mul_le_mul_of_nonneg_right (expInt_le (by linarith)) (Real.exp_pos _).le
  · show 0 ≤ Real.exp (x ^ 2) * P.erfc x
    rw [hP.erfc x]
    exact mul_nonneg (Real.exp_pos _).le (errC_nonneg _)
  · show Real.exp (x ^ 2) * P.erfc x ≤ 1
    rw [hP.erfc x, ← e2]
    exact mul_le_mul_of_nonneg_left (errC_le h) (Real.exp_pos _).le

/-- There are such functions and such a format: numbers out of range become an infinity or zero, others stay. -/
def demoPrims : Prims := ⟨id, errC, id, id, expInt, fun _ => id⟩
theorem demoPrims_ok : Special demoPrims := ⟨fun _ _ => rfl, fun _ => rfl⟩
open Classical in
def demoRange : Range where
  rnd x := if 2 ^ 1024 ≤ |x| then .inf else if |x| ≤ (2 ^ 1075)⁻¹ then .val (.num 0) else .val (.num x)
  big := 2 ^ 1024
  tiny := (2 ^ 1075)⁻¹
  over x h := if_pos h
  under x h := by
    rw [if_neg (not_le.mpr (lt_of_le_of_lt h (lt_of_le_of_lt (inv_le_one_of_one_le₀ (one_le_pow₀ one_le_two)) (one_lt_pow₀ one_lt_two (by norm_num))))), if_pos h]
theorem demoRange_ok : demoRange.Double := ⟨le_rfl, le_rfl⟩

example : e1ScaledF demoRange demoPrims 1000 = .nan := c64_e1Scaled_double demoRange_ok demoPrims_ok (by norm_num)
example : erfcxF demoRange demoPrims 30 = .nan := c64_erfcx_double demoRange_ok demoPrims_ok (by norm_num)

/-! ## HSE exchange -/

theorem oeval_e1 {R : Range} {P : Prims} (hP : Special P) {E : Env} {N : Nat → NVal} {a : Py.Expr} {x : ℝ} (ha : oeval R P E N a = .val (.num x)) (h1 : 1 ≤ x)
    (h : Range.Out R x) : oeval R P E N (.call1 .e1Scaled a) = .nan := by
  show oFn1 R P .e1Scaled (oeval R P E N a) = .nan
  rw [ha]
  exact (if_pos (by linarith)).trans (e1Scaled_out hP h1 h)

/-- A part of a body that can be computed without the two functions has a value within the bounds. -/
theorem slice_ex {R : Range} {P : Prims} {E : Env} {V : Vars} {C : ACfg} (G : Good C E V) {b : List (Nat × Py.Expr)} {e : Py.Expr} {I : Itv}
    (hc : hres C [] ⟨blank b, e⟩ I = true) (hp : plain e = true) : ∃ x, oeval R P E (oexec R P E b fun _ => .wild) e = .val (.num x) ∧ I.Has x := by
  obtain ⟨x, hx, hI⟩ := hres_ok (P := P) G (fun _ h => absurd h List.not_mem_nil) hc
  exact ⟨x, oeval_agree (oexec_blank b (fun _ => none) _ fun _ _ h => by cases h) e hp _ (sNum_some hx), hI⟩

/-- The Fermi wave number of the electron gas. -/
def kF (ρ : ℝ) : ℝ := (3 * Real.pi ^ 2 * ρ) ^ (1 / 3 : ℝ)

/-- `t34` of `gen_repo/impl/prebuilt/unpol/gga_x_wpbeh.py:21`. -/
def wNu (P : Prims) (p : Model.Rec) (r0 : ℝ) : ℝ :=
  let t4 := (fn1Val P .cbrt (N 3 (0)))
  let t8 := ((N 1 (0)) ≤ (p.fld .zetaThreshold))
  let t9 := ((p.fld .zetaThreshold) - (N 1 (0)))
  let t12 := (cnd t8 (-t9) (N 0 (0)))
  let t13 := (cnd t8 t9 t12)
  let t14 := ((N 1 (0)) + t13)
  let t15 := (t14 ≤ (p.fld .zetaThreshold))
  let t16 := (fn1Val P .cbrt (p.fld .zetaThreshold))
  let t18 := (fn1Val P .cbrt t14)
  let t21 := (fn1Val P .cbrt r0)
  let t23 := (t4 ^ (N 2 (0)))
  let t24 := ((p.fld .camOmega) * t23)
  let t25 := (Real.pi ^ (N 2 (0)))
  let t26 := (fn1Val P .cbrt t25)
  let t27 := ((N 1 (0)) / t26)
  let t28 := (cnd t15 t16 t18)
  let t30 := (t27 / t28)
  let t31 := ((N 1 (0)) / t21)
  (((t24 * t30) * t31) / (N 3 (0)))

/-- `t89` of `gen_repo/impl/prebuilt/unpol/gga_x_wpbeh.py:48`. -/
def wEta (P : Prims) (p : Model.Rec) (r0 : ℝ) : ℝ :=
  let t4 := (fn1Val P .cbrt (N 3 (0)))
  let t8 := ((N 1 (0)) ≤ (p.fld .zetaThreshold))
  let t9 := ((p.fld .zetaThreshold) - (N 1 (0)))
  let t12 := (cnd t8 (-t9) (N 0 (0)))
  let t13 := (cnd t8 t9 t12)
  let t14 := ((N 1 (0)) + t13)
  let t15 := (t14 ≤ (p.fld .zetaThreshold))
  let t16 := (fn1Val P .cbrt (p.fld .zetaThreshold))
  let t18 := (fn1Val P .cbrt t14)
  let t21 := (fn1Val P .cbrt r0)
  let t25 := (Real.pi ^ (N 2 (0)))
  let t26 := (fn1Val P .cbrt t25)
  let t28 := (cnd t15 t16 t18)
  let t77 := (cnd (wNu P p r0 < (N 14 (0))) (N 1455915450052607 (-15)) (N 2 (0)))
  let t78 := ((p.fld .camOmega) ^ (N 2 (0)))
  let t81 := (t26 ^ (N 2 (0)))
  let t83 := (t28 ^ (N 2 (0)))
  let t86 := (t21 ^ (N 2 (0)))
  let t88 := ((((N 1 (0)) / t81) / t83) / t86)
  (((t77 * t78) * t4) * t88)

theorem wNu_run (P : Prims) (p : Model.Rec) (ρ σ : ℝ) :
    run P (unpolEnv p ρ (some σ) none none) ⟨gga_x_wpbeh.unpolBody.body.take 21, .tmp 34⟩ = .ok (wNu P p ρ) := by kernel_rfl
theorem wEta_run (P : Prims) (p : Model.Rec) (ρ σ : ℝ) :
    run P (unpolEnv p ρ (some σ) none none) ⟨gga_x_wpbeh.unpolBody.body.take 48, .tmp 89⟩ = .ok (wEta P p ρ) := by kernel_rfl

theorem cbrt_pi2 : cbrtR (Real.pi ^ 2) ^ 3 = Real.pi ^ 2 := cbrtR_pow3 (by positivity)

theorem kF_eq {ρ : ℝ} (hρ : 0 < ρ) : kF ρ = cbrtR 3 * cbrtR (Real.pi ^ 2) * cbrtR ρ := by
  rw [kF, ← Lib.cbrtR_of_nonneg (by positivity), Lib.cbrtR_mul (by positivity) hρ.le, Lib.cbrtR_mul (by norm_num) (by positivity)]

theorem wNu_eq {P : Prims} {p : Model.Rec} {ρ : ℝ} (hz : p.fld .zetaThreshold < 1) (hρ : 0 < ρ) : wNu P p ρ = p.fld .camOmega / kF ρ := by
  have h3 := cbrtR_pow3 (x := 3) (by norm_num)
  have p3 := cbrtR_pos (x := 3) (by norm_num)
  have p1 := cbrtR_pos (x := Real.pi ^ 2) (by positivity)
  have p2 := cbrtR_pos hρ
  have hk := kF_eq hρ
  rw [hk]
  simp only [wNu, fn1Val, N, cnd]
  norm_num [not_le.mpr hz, cbrtR_one]
  field_simp
  rw [h3]

theorem wEta_eq {P : Prims} {p : Model.Rec} {ρ : ℝ} (hz : p.fld .zetaThreshold < 1) (hρ : 0 < ρ) (h : 14 < wNu P p ρ) : wEta P p ρ = 6 * (wNu P p ρ) ^ 2 := by
  have h3 := cbrtR_pow3 (x := 3) (by norm_num)
  have p3 := cbrtR_pos (x := 3) (by norm_num)
  have p1 := cbrtR_pos (x := Real.pi ^ 2) (by positivity)
  have p2 := cbrtR_pos hρ
  have hk := kF_eq hρ
  have hn : ¬ wNu P p ρ < 14 := not_lt.mpr h.le
  have e := wNu_eq (P := P) hz hρ
  rw [e, hk] at hn ⊢
  simp only [wEta, fn1Val, N, cnd, e, hk]
  norm_num [not_le.mpr hz, cbrtR_one, hn]
  field_simp
  rw [h3]
  ring

theorem hse_out {R : Range} (hR : ∀ x, 746 ≤ x → Range.Out R x) {P : Prims} (hP : Special P) {p : Model.Rec} {ρ σ : ℝ} (hp : ({} : Assume).Rec p) (hρ : p.fld .densThreshold < ρ / 2) (hσ : 0 ≤ σ)
    (h : 14 * kF ρ < p.fld .camOmega) : orun R P (unpolEnv p ρ (some σ) none none) gga_x_wpbeh.unpolBody = .nan := by
  have hρ0 : 0 < ρ := by linarith [hp.dens]
  have hk : 0 < kF ρ := by unfold kF; positivity
  have hnu : 14 < wNu P p ρ := by rw [wNu_eq hp.zeta1 hρ0, lt_div_iff₀ hk]; exact h
  have G := ugood (fam := .gga) (l := 0) hp hρ0 hσ le_rfl (fun h => nomatch h) (fun h => nomatch h)
  have g34 : oeval R P (unpolEnv p ρ (some σ) none none) (oexec R P (unpolEnv p ρ (some σ) none none) (gga_x_wpbeh.unpolBody.body.take 21) fun _ => .wild) (.tmp 34) =
    .val (.num (wNu P p ρ)) := slice_ok G (by decide +kernel) rfl (wNu_run P p ρ σ)
  have g89 : oeval R P (unpolEnv p ρ (some σ) none none) (oexec R P (unpolEnv p ρ (some σ) none none) (gga_x_wpbeh.unpolBody.body.take 48) fun _ => .wild) (.tmp 89) =
    .val (.num (wEta P p ρ)) := slice_ok G (by decide +kernel) rfl (wEta_run P p ρ σ)
  obtain ⟨x, g75, hx⟩ := slice_ex (R := R) (P := P) G (b := gga_x_wpbeh.unpolBody.body.take 48) (e := .tmp 75) (I := pos) (by decide +kernel) rfl
  have hx := pos_of_has hx
  rw [wEta_eq hp.zeta1 hρ0 hnu] at g89
  refine kcheck_ok (obs := [⟨21, .lt (.num 14 0) (.tmp 34), true⟩, ⟨105, .le (.div (.inp .r0) (.num 2 0)) (.fld .densThreshold), false⟩]) (sd := [48]) ?_ ?_ (by decide +kernel)
  · refine fc ?_ (fc ?_ fn)
    · exact lt_true rfl g34 (by norm_num; exact hnu)
    · exact le_false (x := ρ / (((2 : ℕ) : ℝ) * 10 ^ (0 : ℤ))) (if_neg (by norm_num)) rfl (by norm_num; exact hρ)
  · intro i hi ne he
    obtain rfl := List.mem_singleton.mp hi
    obtain rfl := (Option.some.inj he)
    have hbig : 746 ≤ x + ((73810586681972029922 : ℕ) : ℝ) * 10 ^ (-20 : ℤ) * (6 * wNu P p ρ ^ 2) := by
      norm_num
      nlinarith
    refine oeval_e1 hP (x := x + ((73810586681972029922 : ℕ) : ℝ) * 10 ^ (-20 : ℤ) * (6 * wNu P p ρ ^ 2)) ?_ (by linarith) (hR _ hbig)
    exact (congrArg₂ (fun a b => nAdd (· + ·) a (nMul (.val (.num (((73810586681972029922 : ℕ) : ℝ) * 10 ^ (-20 : ℤ)))) b)) g75 g89).trans rfl

/-- C64: the exchange of HSE gives `nan` wherever the Fermi wave number is less than `omega / 14` (and the density above the threshold). -/
theorem c64_hse {R : Range} (hR : R.Double) {P : Prims} (hP : Special P) {p : Model.Rec} {ρ σ : ℝ} (hp : ({} : Assume).Rec p) (hρ : p.fld .densThreshold < ρ / 2) (hσ : 0 ≤ σ)
    (h : 14 * kF ρ < p.fld .camOmega) : orun R P (unpolEnv p ρ (some σ) none none) gga_x_wpbeh.unpolBody = .nan :=
  hse_out (fun _ hx => out_double hR hx) hP hp hρ hσ h

theorem lt_false {R : Range} {P : Prims} {E : Env} {N : Nat → NVal} {a b : Py.Expr} {x y : ℝ} (h1 : oeval R P E N a = .val (.num x)) (h2 : oeval R P E N b = .val (.num y))
    (h : y ≤ x) : KOk .ff (oeval R P E N (.lt a b)) := ⟨x < y, by simp only [oeval, h1, h2]; rfl, not_lt.mpr h⟩

/-- `t116` of `gen_repo/impl/prebuilt/unpol/gga_x_wpbeh.py:60`. -/
def wEta' (P : Prims) (p : Model.Rec) (r0 : ℝ) : ℝ :=
  let t34 := wNu P p r0
  let t102 := (cnd ((N 14 (0)) < t34) (N 14 (0)) t34)
  let t104 := (t102 ^ (N 2 (0)))
  let t115 := (cnd (t102 < (N 14 (0))) (N 1455915450052607 (-15)) (N 2 (0)))
  (t115 * t104)

theorem wEta'_run (P : Prims) (p : Model.Rec) (ρ σ : ℝ) :
    run P (unpolEnv p ρ (some σ) none none) ⟨gga_x_wpbeh.unpolBody.body.take 60, .tmp 116⟩ = .ok (wEta' P p ρ) := by kernel_rfl

theorem wEta'_ge {P : Prims} {p : Model.Rec} {ρ : ℝ} (h : 6 < wNu P p ρ) : 52 ≤ wEta' P p ρ := by
  have key : ∀ x : ℝ, 6 < x → 52 ≤ (if x < 14 then 1455915450052607 / 10 ^ 15 else 2) * x ^ 2 := by
    intro x hx
    split_ifs <;> nlinarith
  simp only [wEta', N, cnd]
  by_cases h1 : 14 < wNu P p ρ
  · norm_num [h1]
  · have := key _ h
    norm_num [h1] at this ⊢
    exact this

/-- C64: in single precision the exchange of HSE gives `nan` wherever the Fermi wave number is less than `omega / 6` (and the density above the threshold). -/
theorem c64_hse_single {R : Range} (hR : R.Single) {P : Prims} (hP : Special P) {p : Model.Rec} {ρ σ : ℝ} (hp : ({} : Assume).Rec p)
    (hρ : p.fld .densThreshold < ρ / 2) (hσ : 0 ≤ σ) (h : 6 * kF ρ < p.fld .camOmega) : orun R P (unpolEnv p ρ (some σ) none none) gga_x_wpbeh.unpolBody = .nan := by
  have hρ0 : 0 < ρ := by linarith [hp.dens]
  have hk : 0 < kF ρ := by unfold kF; positivity
  by_cases h14 : 14 * kF ρ < p.fld .camOmega
  · exact hse_out (fun x hx => out_single hR (by linarith)) hP hp hρ hσ h14
  have hnu : 6 < wNu P p ρ := by rw [wNu_eq hp.zeta1 hρ0, lt_div_iff₀ hk]; exact h
  have hnu' : wNu P p ρ ≤ 14 := by rw [wNu_eq hp.zeta1 hρ0, div_le_iff₀ hk]; exact not_lt.mp h14
  have G := ugood (fam := .gga) (l := 0) hp hρ0 hσ le_rfl (fun h => nomatch h) (fun h => nomatch h)
  have g34 : oeval R P (unpolEnv p ρ (some σ) none none) (oexec R P (unpolEnv p ρ (some σ) none none) (gga_x_wpbeh.unpolBody.body.take 21) fun _ => .wild) (.tmp 34) =
    .val (.num (wNu P p ρ)) := slice_ok G (by decide +kernel) rfl (wNu_run P p ρ σ)
  have g116 : oeval R P (unpolEnv p ρ (some σ) none none) (oexec R P (unpolEnv p ρ (some σ) none none) (gga_x_wpbeh.unpolBody.body.take 60) fun _ => .wild) (.tmp 116) =
    .val (.num (wEta' P p ρ)) := slice_ok G (by decide +kernel) rfl (wEta'_run P p ρ σ)
  obtain ⟨x, g75, hx⟩ := slice_ex (R := R) (P := P) G (b := gga_x_wpbeh.unpolBody.body.take 60) (e := .tmp 75) (I := pos) (by decide +kernel) rfl
  have hx := pos_of_has hx
  have g118 : oexec R P (unpolEnv p ρ (some σ) none none) (gga_x_wpbeh.unpolBody.body.take 65) (fun _ => .wild) 118 =
    .val (.num (x + ((22143176004591608976 : ℕ) : ℝ) * 10 ^ (-19 : ℤ) * wEta' P p ρ)) :=
    (congrArg₂ (fun a b => nAdd (· + ·) a (nMul (.val (.num (((22143176004591608976 : ℕ) : ℝ) * 10 ^ (-19 : ℤ)))) b)) g75 g116).trans rfl
  refine kcheck_ok (obs := [⟨21, .lt (.num 14 0) (.tmp 34), false⟩, ⟨105, .le (.div (.inp .r0) (.num 2 0)) (.fld .densThreshold), false⟩]) (sd := [65]) ?_ ?_ (by decide +kernel)
  · refine fc ?_ (fc ?_ fn)
    · exact lt_false rfl g34 (by norm_num; exact hnu')
    · exact le_false (x := ρ / (((2 : ℕ) : ℝ) * 10 ^ (0 : ℤ))) (if_neg (by norm_num)) rfl (by norm_num; exact hρ)
  · intro i hi ne he
    obtain rfl := List.mem_singleton.mp hi
    obtain rfl := (Option.some.inj he)
    have hbig : 104 ≤ x + ((22143176004591608976 : ℕ) : ℝ) * 10 ^ (-19 : ℤ) * wEta' P p ρ := by
      have := wEta'_ge hnu
      norm_num
      linarith
    exact oeval_e1 hP g118 (by linarith) (out_single hR hbig)

/-- The density at which it begins, with `omega = 0.11` (HSE06) in double precision: all densities below `1.5e-8`. -/
example {R : Range} (hR : R.Double) {P : Prims} (hP : Special P) (ρ σ : ℝ) (h1 : 3 / 10 ^ 15 ≤ ρ) (h2 : ρ ≤ 15 / 10 ^ 9) (hσ : 0 ≤ σ) :
    orun R P (unpolEnv ⟨fun f => match f with | .zetaThreshold => 2 ^ (-52 : ℤ) | .densThreshold => 1 / 10 ^ 15 | _ => 11 / 100, fun _ => 1⟩ ρ (some σ) none none)
      gga_x_wpbeh.unpolBody = .nan := by
  refine c64_hse hR hP ⟨by norm_num, by norm_num, by norm_num, fn, fn, fn, (fun h => nomatch h), fn, fn⟩ (by norm_num at h1 ⊢; linarith) hσ ?_
  show 14 * kF ρ < 11 / 100
  have h0 : 0 < ρ := lt_of_lt_of_le (by norm_num) h1
  have hk : 0 ≤ kF ρ := by unfold kF; positivity
  have h3 : kF ρ ^ 3 = 3 * Real.pi ^ 2 * ρ := by
    rw [kF, ← Lib.cbrtR_of_nonneg (by positivity), Lib.cbrtR_pow3 (by positivity)]
  have h4 : Real.pi ^ 2 < 10 := by nlinarith [Real.pi_lt_d2, Real.pi_gt_three]
  by_contra hc
  have h5 : (11 / 1400 : ℝ) ≤ kF ρ := by linarith
  have h6 : (11 / 1400 : ℝ) ^ 3 ≤ kF ρ ^ 3 := pow_le_pow_left₀ (by norm_num) h5 3
  rw [h3] at h6
  have h7 : 3 * Real.pi ^ 2 * ρ ≤ 3 * 10 * (15 / 10 ^ 9) := by
    have := mul_le_mul h4.le h2 h0.le (by norm_num)
    linarith
  norm_num at h6 h7
  linarith

/-! ## FT97 correlation -/

/-- `t76` of `gen_repo/impl/prebuilt/unpol/gga_c_ft97.py:43`. -/
def ftArg (P : Prims) (r0 s0 : ℝ) : ℝ :=
  let t1 := (fn1Val P .log (N 2 (0)))
  let t2 := ((N 1 (0)) - t1)
  let t3 := (Real.pi ^ (N 2 (0)))
  let t5 := (t2 / t3)
  let t6 := (fn1Val P .cbrt (N 3 (0)))
  let t7 := ((N 1 (0)) / Real.pi)
  let t8 := (fn1Val P .cbrt t7)
  let t9 := (t6 * t8)
  let t10 := (t5 * t9)
  let t11 := (fn1Val P .cbrt (N 4 (0)))
  let t12 := (t11 ^ (N 2 (0)))
  let t13 := (fn1Val P .cbrt r0)
  let t14 := ((N 1 (0)) / t13)
  let t15 := (t12 * t14)
  let t16 := (fn1Val P .cbrt (N 2 (0)))
  let t17 := ((N 4 (0)) ^ ((N 1 (0)) / (N 5 (0))))
  let t19 := ((t9 * t15) * t16)
  let t20 := (t19 ^ ((N 1 (0)) / (N 5 (0))))
  let t21 := (t20 ^ (N 2 (0)))
  let t22 := (t21 ^ (N 2 (0)))
  let t25 := (fn1Val P .exp (((-(N 2081897 (-8))) * t17) * t22))
  let t28 := (((N 942486901 (-9)) + ((N 349064173 (-9)) * t25)) ^ (N 2 (0)))
  let t29 := (t6 ^ (N 2 (0)))
  let t30 := (t8 ^ (N 2 (0)))
  let t32 := ((t29 * t30) * t11)
  let t33 := (t16 ^ (N 2 (0)))
  let t35 := (r0 ^ (N 2 (0)))
  let t36 := (t13 ^ (N 2 (0)))
  let t45 := (s0 ^ (N 2 (0)))
  let t47 := (t35 ^ (N 2 (0)))
  let t52 := ((((((((t6 * t8) * t7) * t12) * t45) * t16) / t13) / t47) / r0)
  let t53 := ((N 11113838714704711852 (-22)) * t52)
  let t55 := ((((N 1 (0)) + ((((((N 45058854638888888889 (-21)) * t32) * s0) * t33) / t36) / t35)) + t53) ^ (N 2 (0)))
  let t57 := (fn1Val P .exp (-t53))
  let t58 := (t57 ^ (N 2 (0)))
  let t59 := (t9 * t12)
  let t64 := ((((t59 * s0) * t16) / t13) / t35)
  let t69 := (((t28 * t55) * t58) / ((N 1 (0)) + ((N 38306165027777777778 (-21)) * t64)))
  let t71 := (cnd ((N 1 (-60)) < t69) t69 (N 1 (-60)))
  let t72 := ((N 1 (0)) / t71)
  let t74 := ((t15 * t16) * t72)
  let t75 := (t10 * t74)
  (t75 / (N 6 (0)))

theorem ftArg_run (P : Prims) (p : Model.Rec) (ρ σ : ℝ) :
    run P (unpolEnv p ρ (some σ) none none) ⟨gga_c_ft97.unpolBody.body.take 43, .tmp 76⟩ = .ok (ftArg P ρ σ) := by kernel_rfl
theorem ftArg_run' (P : Prims) (p : Model.Rec) (ρ σ : ℝ) :
    run P (unpolEnv p ρ (some σ) none none) ⟨gga_c_ft97.unpolBody.body.take 53, .tmp 76⟩ = .ok (ftArg P ρ σ) := by kernel_rfl

theorem ft97_nan {R : Range} (hR : R.Double) {P : Prims} (hP : Special P) {p : Model.Rec} {ρ σ : ℝ} (hp : ({} : Assume).Rec p) (hρ : 0 < ρ) (hσ : 0 ≤ σ)
    (h1 : 746 ≤ ftArg P ρ σ) (h2 : ftArg P ρ σ < 10 ^ 7) : orun R P (unpolEnv p ρ (some σ) none none) gga_c_ft97.unpolBody = .nan := by
  have G := ugood (fam := .gga) (l := 0) hp hρ hσ le_rfl (fun h => nomatch h) (fun h => nomatch h)
  have g : oeval R P (unpolEnv p ρ (some σ) none none) (oexec R P (unpolEnv p ρ (some σ) none none) (gga_c_ft97.unpolBody.body.take 43) fun _ => .wild) (.tmp 76) =
    .val (.num (ftArg P ρ σ)) := slice_ok G (by decide +kernel) rfl (ftArg_run P p ρ σ)
  have g' : oeval R P (unpolEnv p ρ (some σ) none none) (oexec R P (unpolEnv p ρ (some σ) none none) (gga_c_ft97.unpolBody.body.take 53) fun _ => .wild) (.tmp 76) =
    .val (.num (ftArg P ρ σ)) := slice_ok G (by decide +kernel) rfl (ftArg_run' P p ρ σ)
  refine kcheck_ok (obs := [⟨53, .le (.num 1 7) (.tmp 76), false⟩]) (sd := [43]) ?_ ?_ (by decide +kernel)
  · exact fc (le_false rfl g' (by norm_num at h2 ⊢; exact h2)) fn
  · intro i hi ne he
    obtain rfl := List.mem_singleton.mp hi
    obtain rfl := (Option.some.inj he)
    exact oeval_e1 hP g (by linarith) (out_double hR h1)

/-- A function of that shape takes all values between 0 and its first one. -/
theorem bump {M a c d v : ℝ} (hM : 0 < M) (ha : 0 ≤ a) (hc : 0 < c) (hd : 0 ≤ d) (hv : 0 < v) (hvM : v ≤ M) :
    ∃ σ, 0 ≤ σ ∧ M * (1 + a * σ + c * σ ^ 2) ^ 2 * Real.exp (-(c * σ ^ 2)) ^ 2 / (1 + d * σ) = v := by
  set K := 1 + a + a / c with hK
  have hK1 : 1 ≤ K := by have : 0 ≤ a / c := by positivity
                         linarith
  set Y := 16 * M * K ^ 2 / v + 1 with hY
  have hY1 : 1 ≤ Y := by have : 0 ≤ 16 * M * K ^ 2 / v := by positivity
                         linarith
  have hs : c * Real.sqrt (Y / c) ^ 2 = Y := by rw [Real.sq_sqrt (by positivity)]; field_simp
  have hcont : ContinuousOn (fun σ => M * (1 + a * σ + c * σ ^ 2) ^ 2 * Real.exp (-(c * σ ^ 2)) ^ 2 / (1 + d * σ)) (Set.Icc 0 (Real.sqrt (Y / c))) := by
    refine ContinuousOn.div (by fun_prop) (by fun_prop) fun σ hσ => ?_
    have := mul_nonneg hd hσ.1
    positivity
  have hend : M * (1 + a * Real.sqrt (Y / c) + c * Real.sqrt (Y / c) ^ 2) ^ 2 * Real.exp (-(c * Real.sqrt (Y / c) ^ 2)) ^ 2 / (1 + d * Real.sqrt (Y / c)) ≤ v := by
    set σ := Real.sqrt (Y / c)
    have hσ : 0 ≤ σ := Real.sqrt_nonneg _
    have e1 : 1 + a * σ + c * σ ^ 2 ≤ K * (1 + Y) := by
      have : a * σ ≤ a + a / c * Y := by
        rw [← hs]
        have : a / c * (c * σ ^ 2) = a * σ ^ 2 := by field_simp
        rw [this]
        nlinarith [mul_nonneg ha (sq_nonneg (σ - 1))]
      rw [hs, hK]
      have : 0 ≤ a / c := by positivity
      nlinarith
    have e2 : (1 + Y) * Real.exp (-Y) ≤ 4 / Y := by
      have := Real.quadratic_le_exp_of_nonneg (x := Y) (by linarith)
      rw [Real.exp_neg, ← div_eq_mul_inv, div_le_div_iff₀ (Real.exp_pos _) (by linarith)]
      nlinarith
    have e3 : (1 + a * σ + c * σ ^ 2) * Real.exp (-Y) ≤ K * (4 / Y) := by
      calc (1 + a * σ + c * σ ^ 2) * Real.exp (-Y) ≤ K * (1 + Y) * Real.exp (-Y) := mul_le_mul_of_nonneg_right e1 (Real.exp_pos _).le
        _ = K * ((1 + Y) * Real.exp (-Y)) := by ring
        _ ≤ K * (4 / Y) := mul_le_mul_of_nonneg_left e2 (by linarith)
    have e0 : 0 ≤ (1 + a * σ + c * σ ^ 2) * Real.exp (-Y) := by positivity
    have e4 : M * (1 + a * σ + c * σ ^ 2) ^ 2 * Real.exp (-(c * σ ^ 2)) ^ 2 ≤ v := by
      rw [show M * (1 + a * σ + c * σ ^ 2) ^ 2 * Real.exp (-(c * σ ^ 2)) ^ 2 = M * ((1 + a * σ + c * σ ^ 2) * Real.exp (-Y)) ^ 2 by rw [hs]; ring]
      refine (mul_le_mul_of_nonneg_left (pow_le_pow_left₀ e0 e3 2) hM.le).trans ?_
      rw [show M * (K * (4 / Y)) ^ 2 = 16 * M * K ^ 2 / Y ^ 2 by rw [mul_pow, div_pow]; ring, div_le_iff₀ (by positivity)]
      have : v * (Y - 1) = 16 * M * K ^ 2 := by rw [hY, add_sub_cancel_right, mul_div_cancel₀ _ hv.ne']
      have : 0 ≤ v * (Y ^ 2 - (Y - 1)) := mul_nonneg hv.le (by nlinarith)
      linarith
    refine (div_le_self (by positivity) ?_).trans e4
    have := mul_nonneg hd hσ
    linarith
  have := intermediate_value_Icc' (Real.sqrt_nonneg (Y / c)) hcont (show v ∈ Set.Icc _ _ from ⟨hend, by simpa using hvM⟩)
  obtain ⟨σ, hσ, e⟩ := this
  exact ⟨σ, hσ.1, e⟩

/-- `t69` of `gen_repo/impl/prebuilt/unpol/gga_c_ft97.py:38`. -/
def ftT69 (P : Prims) (r0 s0 : ℝ) : ℝ :=
  let t6 := (fn1Val P .cbrt (N 3 (0)))
  let t7 := ((N 1 (0)) / Real.pi)
  let t8 := (fn1Val P .cbrt t7)
  let t9 := (t6 * t8)
  let t11 := (fn1Val P .cbrt (N 4 (0)))
  let t12 := (t11 ^ (N 2 (0)))
  let t13 := (fn1Val P .cbrt r0)
  let t14 := ((N 1 (0)) / t13)
  let t15 := (t12 * t14)
  let t16 := (fn1Val P .cbrt (N 2 (0)))
  let t17 := ((N 4 (0)) ^ ((N 1 (0)) / (N 5 (0))))
  let t19 := ((t9 * t15) * t16)
  let t20 := (t19 ^ ((N 1 (0)) / (N 5 (0))))
  let t21 := (t20 ^ (N 2 (0)))
  let t22 := (t21 ^ (N 2 (0)))
  let t25 := (fn1Val P .exp (((-(N 2081897 (-8))) * t17) * t22))
  let t28 := (((N 942486901 (-9)) + ((N 349064173 (-9)) * t25)) ^ (N 2 (0)))
  let t29 := (t6 ^ (N 2 (0)))
  let t30 := (t8 ^ (N 2 (0)))
  let t32 := ((t29 * t30) * t11)
  let t33 := (t16 ^ (N 2 (0)))
  let t35 := (r0 ^ (N 2 (0)))
  let t36 := (t13 ^ (N 2 (0)))
  let t45 := (s0 ^ (N 2 (0)))
  let t47 := (t35 ^ (N 2 (0)))
  let t52 := ((((((((t6 * t8) * t7) * t12) * t45) * t16) / t13) / t47) / r0)
  let t53 := ((N 11113838714704711852 (-22)) * t52)
  let t55 := ((((N 1 (0)) + ((((((N 45058854638888888889 (-21)) * t32) * s0) * t33) / t36) / t35)) + t53) ^ (N 2 (0)))
  let t57 := (fn1Val P .exp (-t53))
  let t58 := (t57 ^ (N 2 (0)))
  let t59 := (t9 * t12)
  let t64 := ((((t59 * s0) * t16) / t13) / t35)
  (((t28 * t55) * t58) / ((N 1 (0)) + ((N 38306165027777777778 (-21)) * t64)))

theorem ftArg_eq (P : Prims) (ρ σ : ℝ) : ftArg P ρ σ =
    (fn1Val P .cbrt (N 4 0) ^ (N 2 0) * (N 1 0 / fn1Val P .cbrt ρ) * fn1Val P .cbrt (N 2 0) |> fun u =>
      (N 1 0 - fn1Val P .log (N 2 0)) / Real.pi ^ (N 2 0) * (fn1Val P .cbrt (N 3 0) * fn1Val P .cbrt (N 1 0 / Real.pi)) *
        (u * (N 1 0 / cnd (N 1 (-60) < ftT69 P ρ σ) (ftT69 P ρ σ) (N 1 (-60)))) / N 6 0) := rfl

/-- The shape of `t69`. -/
theorem ftT69_eq (P : Prims) {ρ : ℝ} (hρ : 0 < ρ) : ∃ M a c d : ℝ, 88 / 100 ≤ M ∧ 0 ≤ a ∧ 0 < c ∧ 0 ≤ d ∧
    ∀ σ, ftT69 P ρ σ = M * (1 + a * σ + c * σ ^ 2) ^ 2 * Real.exp (-(c * σ ^ 2)) ^ 2 / (1 + d * σ) := by
  have p1 := cbrtR_pos hρ
  have p2 := cbrtR_pos (x := 2) (by norm_num)
  have p3 := cbrtR_pos (x := 3) (by norm_num)
  have p4 := cbrtR_pos (x := 4) (by norm_num)
  have p5 := cbrtR_pos (x := Real.pi⁻¹) (by positivity)
  refine ⟨(942486901 / 1000000000 + 349064173 / 1000000000 * Real.exp (-(2081897 / 100000000 * (4 : ℝ) ^ (1 / 5 : ℝ) *
      (((cbrtR 3 * cbrtR Real.pi⁻¹ * (cbrtR 4 ^ 2 * (cbrtR ρ)⁻¹) * cbrtR 2) ^ (1 / 5 : ℝ)) ^ 2) ^ 2))) ^ 2,
    45058854638888888889 / 1000000000000000000000 * (cbrtR 3 ^ 2 * cbrtR Real.pi⁻¹ ^ 2 * cbrtR 4) * cbrtR 2 ^ 2 / cbrtR ρ ^ 2 / ρ ^ 2,
    2778459678676177963 / 2500000000000000000000 * (cbrtR 3 * cbrtR Real.pi⁻¹ * Real.pi⁻¹ * cbrtR 4 ^ 2 * cbrtR 2 / cbrtR ρ / (ρ ^ 2) ^ 2 / ρ),
    19153082513888888889 / 500000000000000000000 * (cbrtR 3 * cbrtR Real.pi⁻¹ * cbrtR 4 ^ 2 * cbrtR 2 / cbrtR ρ / ρ ^ 2), ?_, by positivity, by positivity, by positivity, fun σ => ?_⟩
  · have : ∀ x : ℝ, 88 / 100 ≤ (942486901 / 1000000000 + 349064173 / 1000000000 * Real.exp x) ^ 2 := fun x => by
      have := Real.exp_pos x
      nlinarith
    exact this _
  · obtain ⟨y, hy⟩ : ∃ y, y = ftT69 P ρ σ := ⟨_, rfl⟩
    rw [← hy]
    simp only [ftT69, fn1Val, N] at hy
    norm_num at hy
    rw [hy,
      show 45058854638888888889 / 1000000000000000000000 * (cbrtR 3 ^ 2 * cbrtR Real.pi⁻¹ ^ 2 * cbrtR 4) * σ * cbrtR 2 ^ 2 / cbrtR ρ ^ 2 / ρ ^ 2 =
        45058854638888888889 / 1000000000000000000000 * (cbrtR 3 ^ 2 * cbrtR Real.pi⁻¹ ^ 2 * cbrtR 4) * cbrtR 2 ^ 2 / cbrtR ρ ^ 2 / ρ ^ 2 * σ by ring,
      show 2778459678676177963 / 2500000000000000000000 * (cbrtR 3 * cbrtR Real.pi⁻¹ * Real.pi⁻¹ * cbrtR 4 ^ 2 * σ ^ 2 * cbrtR 2 / cbrtR ρ / (ρ ^ 2) ^ 2 / ρ) =
        2778459678676177963 / 2500000000000000000000 * (cbrtR 3 * cbrtR Real.pi⁻¹ * Real.pi⁻¹ * cbrtR 4 ^ 2 * cbrtR 2 / cbrtR ρ / (ρ ^ 2) ^ 2 / ρ) * σ ^ 2 by ring,
      show 19153082513888888889 / 500000000000000000000 * (cbrtR 3 * cbrtR Real.pi⁻¹ * cbrtR 4 ^ 2 * σ * cbrtR 2 / cbrtR ρ / ρ ^ 2) =
        19153082513888888889 / 500000000000000000000 * (cbrtR 3 * cbrtR Real.pi⁻¹ * cbrtR 4 ^ 2 * cbrtR 2 / cbrtR ρ / ρ ^ 2) * σ by ring]

/-- The factor before it. -/
theorem ftPre_eq (P : Prims) {ρ : ℝ} (h1 : 1 / 10 ^ 12 ≤ ρ) (h2 : ρ ≤ 10 ^ 12) : ∃ A : ℝ, 1 / 10 ^ 7 ≤ A ∧ A ≤ 880 ∧
    ∀ σ, ftArg P ρ σ = A / cnd (N 1 (-60) < ftT69 P ρ σ) (ftT69 P ρ σ) (N 1 (-60)) := by
  have hρ : 0 < ρ := lt_of_lt_of_le (by norm_num) h1
  have hpi := Real.pi_gt_three
  have p1 := cbrtR_pos hρ
  have c1 : cbrtR ρ ≤ 10 ^ 4 := by
    refine (Lib.cbrtR_le hρ.le h2).trans (le_of_eq ?_)
    rw [show (10 : ℝ) ^ 12 = (10 ^ 4) ^ 3 by norm_num, Lib.cbrtR_cube (by norm_num)]
  have c2 : 1 / 10 ^ 4 ≤ cbrtR ρ := by
    refine le_trans (le_of_eq ?_) (Lib.cbrtR_le (by norm_num) h1)
    rw [show (1 : ℝ) / 10 ^ 12 = (1 / 10 ^ 4) ^ 3 by norm_num, Lib.cbrtR_cube (by norm_num)]
  have b2 : 1 ≤ cbrtR 2 ∧ cbrtR 2 ≤ 2 :=
    ⟨Lib.cbrtR_one ▸ Lib.cbrtR_le (by norm_num) (by norm_num), (Lib.cbrtR_le (y := 8) (by norm_num) (by norm_num)).trans cbrtR_eight.le⟩
  have b4 : 1 ≤ cbrtR 4 ∧ cbrtR 4 ≤ 2 :=
    ⟨Lib.cbrtR_one ▸ Lib.cbrtR_le (by norm_num) (by norm_num), (Lib.cbrtR_le (y := 8) (by norm_num) (by norm_num)).trans cbrtR_eight.le⟩
  have b3 : 1 / 2 ≤ cbrtR 3 * cbrtR Real.pi⁻¹ ∧ cbrtR 3 * cbrtR Real.pi⁻¹ ≤ 1 := by
    rw [← Lib.cbrtR_mul (by norm_num) (by positivity)]
    have e : (3 : ℝ) * Real.pi⁻¹ ≤ 1 := by rw [← div_eq_mul_inv, div_le_one (by positivity)]; linarith
    have e' : (1 / 2 : ℝ) ^ 3 ≤ 3 * Real.pi⁻¹ := by rw [← div_eq_mul_inv, le_div_iff₀ (by positivity)]; linarith [Real.pi_lt_d2]
    have := Lib.cbrtR_le (by norm_num) e'
    rw [Lib.cbrtR_cube (by norm_num)] at this
    exact ⟨this, Lib.cbrtR_one ▸ Lib.cbrtR_le (by positivity) e⟩
  have bl : 3 / 100 ≤ (1 - Real.log 2) / Real.pi ^ 2 ∧ (1 - Real.log 2) / Real.pi ^ 2 ≤ 4 / 100 := by
    have l1 := Real.log_two_gt_d9
    have l2 := Real.log_two_lt_d9
    have q1 : 9 < Real.pi ^ 2 := by nlinarith
    have q2 : Real.pi ^ 2 < 10 := by nlinarith [Real.pi_lt_d2]
    constructor
    · rw [le_div_iff₀ (by positivity)]; linarith
    · rw [div_le_iff₀ (by positivity)]; linarith
  have bi : 1 / 10 ^ 4 ≤ (cbrtR ρ)⁻¹ ∧ (cbrtR ρ)⁻¹ ≤ 10 ^ 4 := by
    constructor
    · rw [one_div]; exact inv_anti₀ p1 c1
    · have := inv_anti₀ (by norm_num) c2; rwa [one_div, inv_inv] at this
  have mulB : ∀ {x y a b c d : ℝ}, 0 ≤ a → 0 ≤ c → a ≤ x ∧ x ≤ b → c ≤ y ∧ y ≤ d → a * c ≤ x * y ∧ x * y ≤ b * d := fun ha hc hx hy =>
    ⟨mul_le_mul hx.1 hy.1 hc (ha.trans hx.1), mul_le_mul hx.2 hy.2 (hc.trans hy.1) (ha.trans (hx.1.trans hx.2))⟩
  have b := mulB (by norm_num) (by norm_num) (mulB (by norm_num) (by norm_num) bl b3) (mulB (by norm_num) (by norm_num)
    (mulB (by norm_num) (by norm_num) (mulB (by norm_num) (by norm_num) b4 b4) bi) b2)
  refine ⟨(1 - Real.log 2) / Real.pi ^ 2 * (cbrtR 3 * cbrtR Real.pi⁻¹) * (cbrtR 4 * cbrtR 4 * (cbrtR ρ)⁻¹ * cbrtR 2) / 6, ?_, ?_, fun σ => ?_⟩
  · have := b.1; norm_num at this ⊢; linarith
  · have := b.2; norm_num at this ⊢; linarith
  · rw [ftArg_eq]
    generalize cnd (N 1 (-60) < ftT69 P ρ σ) (ftT69 P ρ σ) (N 1 (-60)) = m
    have e2 : (N 2 0 : ℝ) = 2 := by norm_num [N]
    have e1 : (N 1 0 : ℝ) = 1 := by norm_num [N]
    have e3 : (N 3 0 : ℝ) = 3 := by norm_num [N]
    have e4 : (N 4 0 : ℝ) = 4 := by norm_num [N]
    have e6 : (N 6 0 : ℝ) = 6 := by norm_num [N]
    rw [e1, e2, e3, e4, e6]
    simp only [fn1Val, Real.rpow_two, one_div]
    rw [div_eq_mul_inv _ m]
    ring

/-- C64: the correlation of FT97 gives `nan` at every density, for some gradient. -/
theorem c64_ft97 {R : Range} (hR : R.Double) {P : Prims} (hP : Special P) {p : Model.Rec} (hp : ({} : Assume).Rec p) {ρ : ℝ} (h1 : 1 / 10 ^ 12 ≤ ρ) (h2 : ρ ≤ 10 ^ 12) :
    ∃ σ, 0 ≤ σ ∧ orun R P (unpolEnv p ρ (some σ) none none) gga_c_ft97.unpolBody = .nan := by
  have hρ : 0 < ρ := lt_of_lt_of_le (by norm_num) h1
  obtain ⟨M, a, c, d, hM, ha, hc, hd, hF⟩ := ftT69_eq P hρ
  obtain ⟨A, hA1, hA2, hA⟩ := ftPre_eq P h1 h2
  have hA0 : 0 < A := lt_of_lt_of_le (by norm_num) hA1
  obtain ⟨σ, hσ, e⟩ := bump (v := A / 1000) (lt_of_lt_of_le (by norm_num) hM) ha hc hd (by positivity) (by linarith)
  have hk : ftArg P ρ σ = 1000 := by
    rw [hA, hF, e, cnd, if_pos]
    · field_simp
    · norm_num [N] at hA1 ⊢; linarith
  exact ⟨σ, hσ, ft97_nan hR hP hp hρ hσ (by rw [hk]; norm_num) (by rw [hk]; norm_num)⟩

end
end Verif.Props
