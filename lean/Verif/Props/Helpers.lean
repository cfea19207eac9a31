import Verif.Model.Helpers
import Mathlib.Analysis.SpecialFunctions.Gaussian.GaussianIntegral
import Mathlib.Analysis.SpecialFunctions.ImproperIntegrals
import Mathlib.MeasureTheory.Integral.IntegralEqImproper
/-!
# C41: helper functions
-/
namespace Verif.Props
open Verif.Py Verif.Model MeasureTheory Set

/-! ### `lax_cond` -/

/-- A number that a formula produces: a Python number, or an array of floats. -/
def Numeric : PyObj → Prop
  | .arr d _ => d = .float
  | _ => True

/-- C41: `lax_cond` on numbers returns the second argument if the condition holds and the third otherwise, as a float, whatever mixture of Python
integers, Python floats and float arrays it is given. -/
theorem c41_lax_cond (a : Prop) [Decidable a] (b c : PyObj) (hb : Numeric b) (hc : Numeric c) :
    laxCond a b c = .ok (.arr .float (if a then b.val else c.val)) := by
  have key : ∀ x, Numeric x → (toFloat x).dtype = .float ∧ (toFloat x).val = x.val := by
    intro x hx
    cases x with
    | arr d x => exact ⟨hx, rfl⟩
    | _ => exact ⟨rfl, rfl⟩
  unfold laxCond laxCondPrim
  rw [(key b hb).1, (key c hc).1, (key b hb).2, (key c hc).2, if_pos rfl]

/-- Without the conversion, `lax.cond` fails when an integer meets a float: this is why `lax_cond` exists. -/
theorem c41_conversion_needed (a : Prop) [Decidable a] (n : ℤ) (x : ℝ) : laxCondPrim a (.int n) (.arr .float x) = .error .typeError := rfl

/-- Arrays of integers are not converted: such a call fails. (No formula makes one.) -/
theorem c41_int_array (a : Prop) [Decidable a] (n x : ℝ) : laxCond a (.arr .int n) (.arr .float x) = .error .typeError := rfl

open Classical in
/-- The semantics of expressions agrees with `lax_cond`. -/
theorem c41_eval (P : Prims) (E : Env) (T : ℕ → Option Val) (c a b : Expr) (z : Prop) (x y : ℝ) (hc : eval P E T c = .ok (.bool z)) (ha : eval P E T a = .ok (.num x))
    (hb : eval P E T b = .ok (.num y)) :
    ∃ w, eval P E T (.cond c a b) = .ok (.num w) ∧ laxCond z (.arr .float x) (.arr .float y) = .ok (.arr .float w) := by
  refine ⟨if z then x else y, ?_, c41_lax_cond _ _ _ rfl rfl⟩
  rw [eval, hc, ha, hb]
  rfl

/-! ### `Heaviside` -/

/-- C41: `Heaviside` is 1 for `x ≥ 0` and 0 otherwise. -/
theorem c41_heaviside (P : Prims) (x : ℝ) : fn1Val P .heaviside x = heaviside x ∧ (0 ≤ x → heaviside x = 1) ∧ (x < 0 → heaviside x = 0) := by
  unfold heaviside jnpHeaviside
  refine ⟨?_, fun h => ?_, fun h => if_pos h⟩
  · change heavisideR x = _
    unfold heavisideR
    split
    · rfl
    · split <;> rfl
  · rw [if_neg (not_lt.2 h)]
    split <;> rfl

/-! ### Cube root -/

/-- C41: `jnp.cbrt` as modelled is the inverse of the cube on all reals. -/
theorem c41_cbrt (P : Prims) (x y : ℝ) : fn1Val P .cbrt x = y ↔ y ^ 3 = x := by
  change cbrtR x = y ↔ _
  have cube : cbrtR x ^ 3 = x := by
    unfold cbrtR
    have pos : ∀ z : ℝ, 0 ≤ z → (z ^ (1 / 3 : ℝ)) ^ 3 = z := by
      intro z hz
      rw [← Real.rpow_natCast, ← Real.rpow_mul hz]
      norm_num
    split
    · rename_i h
      exact pos x h
    · rename_i h
      have := pos (-x) (by linarith)
      rw [neg_pow, this]
      norm_num
  constructor
  · rintro rfl
    exact cube
  · intro h
    have : cbrtR x ^ 3 = y ^ 3 := by rw [cube, h]
    exact (Odd.strictMono_pow (by decide : Odd 3)).injective this

/-! ### Scaled functions -/

/-- The complementary error function. -/
noncomputable def erfcR (x : ℝ) : ℝ := 2 / √Real.pi * ∫ t in Ioi x, Real.exp (-t ^ 2)

/-- The exponential integral. -/
noncomputable def e1R (x : ℝ) : ℝ := ∫ t in Ioi x, Real.exp (-t) / t

theorem integral_shift (f : ℝ → ℝ) (x : ℝ) : ∫ t in Ioi x, f t = ∫ s in Ioi (0 : ℝ), f (s + x) := by
  have h := (measurePreserving_add_right volume x).setIntegral_preimage_emb (measurableEmbedding_addRight x) f (Ioi x)
  rw [← h]
  congr 1
  ext s
  simp

/-- C41: `xc_erfcx`, evaluated with the complementary error function, is the scaled function `(2/√π) ∫₀^∞ exp(-t² - 2xt) dt`. -/
theorem c41_erfcx (x : ℝ) : xcErfcx erfcR x = 2 / √Real.pi * ∫ t in Ioi (0 : ℝ), Real.exp (-t ^ 2 - 2 * x * t) := by
  unfold xcErfcx erfcR
  rw [integral_shift, mul_left_comm, ← integral_const_mul]
  congr 2
  ext t
  rw [← Real.exp_add]
  congr 1
  ring

/-- … it is 1 at 0. -/
theorem c41_erfcx_zero : xcErfcx erfcR 0 = 1 := by
  rw [c41_erfcx]
  have := integral_gaussian_Ioi 1
  simp only [div_one] at this
  have e : (fun t : ℝ => Real.exp (-t ^ 2 - 2 * 0 * t)) = fun t : ℝ => Real.exp (-1 * t ^ 2) := by ext t; congr 1; ring
  rw [e, this]
  have : √Real.pi ≠ 0 := by positivity
  field_simp

/-- C41: `xc_E1_scaled`, evaluated with the exponential integral, is the scaled function `∫₀^∞ exp(-t) / (t + x) dt`. -/
theorem c41_e1_scaled (x : ℝ) : xcE1Scaled e1R x = ∫ t in Ioi (0 : ℝ), Real.exp (-t) / (t + x) := by
  unfold xcE1Scaled e1R
  rw [integral_shift, mul_comm, ← integral_const_mul]
  congr 1
  ext t
  rw [← mul_div_assoc, ← Real.exp_add]
  congr 2
  ring

/-- … for `x > 0` it is positive and at most `1 / x`. -/
theorem c41_e1_bounds (x : ℝ) (hx : 0 < x) : 0 < xcE1Scaled e1R x ∧ xcE1Scaled e1R x ≤ 1 / x := by
  rw [c41_e1_scaled]
  have hi : IntegrableOn (fun t : ℝ => Real.exp (-t) * (1 / x)) (Ioi 0) := (integrableOn_exp_neg_Ioi 0).mul_const _
  have hle : ∀ t ∈ Ioi (0 : ℝ), Real.exp (-t) / (t + x) ≤ Real.exp (-t) * (1 / x) := by
    intro t ht
    rw [mem_Ioi] at ht
    rw [div_eq_mul_one_div]
    exact mul_le_mul_of_nonneg_left (one_div_le_one_div_of_le hx (by linarith)) (Real.exp_pos _).le
  have hpos : ∀ t ∈ Ioi (0 : ℝ), 0 < Real.exp (-t) / (t + x) := by
    intro t ht
    rw [mem_Ioi] at ht
    exact div_pos (Real.exp_pos _) (by linarith)
  have hint : IntegrableOn (fun t : ℝ => Real.exp (-t) / (t + x)) (Ioi 0) := by
    refine Integrable.mono' hi ?_ ?_
    · refine (ContinuousOn.div (by fun_prop) (by fun_prop) ?_).aestronglyMeasurable measurableSet_Ioi
      intro t ht
      rw [mem_Ioi] at ht
      exact ne_of_gt (by linarith)
    · refine (ae_restrict_iff' measurableSet_Ioi).2 (Filter.Eventually.of_forall fun t ht => ?_)
      rw [Real.norm_of_nonneg (hpos t ht).le]
      exact hle t ht
  constructor
  · rw [setIntegral_pos_iff_support_of_nonneg_ae]
    · have : Function.support (fun t : ℝ => Real.exp (-t) / (t + x)) ∩ Ioi 0 = Ioi 0 := by
        ext t
        refine ⟨fun h => h.2, fun h => ⟨(hpos t h).ne', h⟩⟩
      rw [this]
      simp
    · exact (ae_restrict_iff' measurableSet_Ioi).2 (Filter.Eventually.of_forall fun t ht => (hpos t ht).le)
    · exact hint
  · calc ∫ t in Ioi (0 : ℝ), Real.exp (-t) / (t + x) ≤ ∫ t in Ioi (0 : ℝ), Real.exp (-t) * (1 / x) := setIntegral_mono_on hint hi measurableSet_Ioi hle
      _ = 1 / x := by rw [integral_mul_const, integral_exp_neg_Ioi_zero, one_mul]

/-- The semantics of expressions agrees with the helpers, whatever `erfc` and `exp1` are. -/
theorem c41_scaled_eval (P : Prims) (x : ℝ) : fn1Val P .erfcx x = xcErfcx P.erfc x ∧ fn1Val P .e1Scaled x = xcE1Scaled P.e1 x := ⟨rfl, rfl⟩

/-! ### Instances -/

example : laxCond ((2 : ℝ) < 3) (.int 0) (.arr .float 7) = .ok (.arr .float 0) := by
  rw [c41_lax_cond _ (.int 0) (.arr .float 7) trivial rfl, if_pos (by norm_num)]
  simp [PyObj.val]
example (P : Prims) : fn1Val P .cbrt (-8) = -2 := (c41_cbrt P _ _).2 (by norm_num)
example : heaviside 0 = 1 := (c41_heaviside ⟨id, id, id, id, id, fun x _ => x⟩ 0).2.1 le_rfl

end Verif.Props
