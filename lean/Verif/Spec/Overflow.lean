import Verif.Spec.Strict
import Mathlib.MeasureTheory.Integral.Bochner.Set
import Mathlib.MeasureTheory.Measure.Lebesgue.Basic
/-!
# Overflow and underflow of the scaled special functions

`xc_E1_scaled(x)` and `xc_erfcx(x)` (`gen_repo/impl/utils.py:26-31,38-39`) multiply a number that grows without bound by one that goes to zero:

    return jax.scipy.special.exp1(x) * jnp.exp(x)
    return jnp.exp(x**2) * jax.scipy.special.erfc(x)

The products are bounded (`1 / x` and `1 / (x sqrt pi)`, nearly), but the factors leave the range of floating-point numbers.  The semantics below is the one with `nan` of
`Verif.Spec.Strict` (exact arithmetic), except that the two factors are brought into a floating-point format before they are multiplied.
-/
namespace Verif.Spec
open Verif.Py Verif.Model

noncomputable section

/-- What is used of a floating-point format: a number of magnitude at least `big` becomes an infinity, one of magnitude at most `tiny` becomes zero.
Nothing is said of the numbers between. -/
structure Range where
  rnd : ℝ → NVal
  big : ℝ
  tiny : ℝ
  over : ∀ x, big ≤ |x| → rnd x = .inf
  under : ∀ x, |x| ≤ tiny → rnd x = .val (.num 0)

/-- Double precision: `2 ^ 1024` is too large, half of the least subnormal number `2 ^ (-1074)` becomes zero. -/
structure Range.Double (R : Range) : Prop where
  big : R.big ≤ 2 ^ 1024
  tiny : (2 ^ 1075)⁻¹ ≤ R.tiny

/-- Single precision (the default of `jax.numpy`): `2 ^ 128` is too large, half of the least subnormal number `2 ^ (-149)` becomes zero. -/
structure Range.Single (R : Range) : Prop where
  big : R.big ≤ 2 ^ 128
  tiny : (2 ^ 150)⁻¹ ≤ R.tiny

/-- The exponential integral and the complementary error function: what they are. -/
def expInt (x : ℝ) : ℝ := ∫ t in Set.Ioi x, Real.exp (-t) / t
def errC (x : ℝ) : ℝ := 2 / Real.sqrt Real.pi * ∫ t in Set.Ioi x, Real.exp (-t ^ 2)

/-- The library functions `exp1` and `erfc` compute these. -/
structure Special (P : Prims) : Prop where
  e1 : ∀ x, 0 < x → P.e1 x = expInt x
  erfc : ∀ x, P.erfc x = errC x

/-- `exp1(x) * exp(x)`, with the factors in the format. -/
def e1ScaledF (R : Range) (P : Prims) (x : ℝ) : NVal := nMul (R.rnd (P.e1 x)) (R.rnd (Real.exp x))

/-- `exp(x**2) * erfc(x)`, with the factors in the format. -/
def erfcxF (R : Range) (P : Prims) (x : ℝ) : NVal := nMul (R.rnd (Real.exp (x ^ 2))) (R.rnd (P.erfc x))

open Classical in
/-- One-argument functions. -/
def oFn1 (R : Range) (P : Prims) (f : Fn1) (a : NVal) : NVal :=
  match f, a with
  | .e1Scaled, .val (.num x) => if 0 < x then e1ScaledF R P x else .wild
  | .erfcx, .val (.num x) => erfcxF R P x
  | f, a => nFn1 P f a

open Classical in
/-- The value of an expression, with `nan` and with the range of the two functions. -/
def oeval (R : Range) (P : Prims) (E : Env) (T : Nat → NVal) : Expr → NVal
  | .num m e => .val (.num ((m : ℝ) * (10 : ℝ) ^ e))
  | .pi => .val (.num Real.pi)
  | .inp i => match E.inp i with
    | .ok x => .val (.num x)
    | .error _ => .wild
  | .fld f => .val (.num (E.fld f))
  | .param c => .val (.num (E.param c))
  | .tmp n => T n
  | .neg a => match oeval R P E T a with
    | .val (.num x) => .val (.num (-x))
    | .val (.bool _) => .wild
    | v => v
  | .add a b => nAdd (· + ·) (oeval R P E T a) (oeval R P E T b)
  | .sub a b => nAdd (· - ·) (oeval R P E T a) (oeval R P E T b)
  | .mul a b => nMul (oeval R P E T a) (oeval R P E T b)
  | .div a b => nDiv (oeval R P E T a) (oeval R P E T b)
  | .pow a b => nPow (oeval R P E T a) (oeval R P E T b)
  | .le a b => nCmp (· ≤ ·) (oeval R P E T a) (oeval R P E T b)
  | .lt a b => nCmp (· < ·) (oeval R P E T a) (oeval R P E T b)
  | .eq a b => nCmp (· = ·) (oeval R P E T a) (oeval R P E T b)
  | .lor a b => nBool (· ∨ ·) (oeval R P E T a) (oeval R P E T b)
  | .land a b => nBool (· ∧ ·) (oeval R P E T a) (oeval R P E T b)
  | .cond c a b => match oeval R P E T c with
    | .val (.bool z) => nNum (if z then oeval R P E T a else oeval R P E T b)
    | _ => .wild
  | .call1 f a => oFn1 R P f (oeval R P E T a)
  | .call2 f a b => match oeval R P E T a, oeval R P E T b with
    | .val (.num x), .val (.num y) => .val (.num (fn2Val P f x y))
    | _, _ => .wild
  | .undef _ => .wild

/-- Run the assignments. -/
def oexec (R : Range) (P : Prims) (E : Env) : List (Nat × Expr) → (Nat → NVal) → Nat → NVal
  | [], T => T
  | (n, e) :: r, T => oexec R P E r (Function.update T n (oeval R P E T e))

/-- The value of a formula body. -/
def orun (R : Range) (P : Prims) (E : Env) (p : Prog) : NVal := oeval R P E (oexec R P E p.body fun _ => .wild) p.res

end

end Verif.Spec
