import Verif.Py.Ast
import Verif.Py.Err
import Mathlib.Analysis.SpecialFunctions.Pow.Real
import Mathlib.Analysis.SpecialFunctions.Trigonometric.Arctan
import Mathlib.Analysis.SpecialFunctions.Arsinh
import Mathlib.Analysis.SpecialFunctions.Artanh
/-!
# Semantics of the generated formulas

Numbers are exact reals (simplification: no rounding, overflow, NaN).  `x / 0` is `0` as in Mathlib, `log`, `sqrt` and `**` outside
their domain have Mathlib's values (simplification: Python would give `inf` or `nan`).
-/
namespace Verif.Py

noncomputable section

/-- Special functions that Mathlib does not define.  All theorems hold whatever they are. -/
structure Prims where
  erf : ℝ → ℝ
  erfc : ℝ → ℝ
  i0 : ℝ → ℝ
  lambertw : ℝ → ℝ
  /-- the exponential integral `E₁` (`jax.scipy.special.exp1`) -/
  e1 : ℝ → ℝ
  arctan2 : ℝ → ℝ → ℝ

/-- `jnp.cbrt`: the real cube root, odd. -/
def cbrtR (x : ℝ) : ℝ := if 0 ≤ x then x ^ (1 / 3 : ℝ) else -((-x) ^ (1 / 3 : ℝ))

/-- `Heaviside` of `gen_repo/impl/utils.py:22-23`: `jnp.heaviside(x, 1.)`. -/
def heavisideR (x : ℝ) : ℝ := if x < 0 then 0 else 1

/-- One-argument functions.  `jnp.*` have their mathematical meaning;
`xc_E1_scaled`, `xc_erfcx`, `Heaviside` follow `gen_repo/impl/utils.py:22-39`. -/
def fn1Val (P : Prims) (f : Fn1) (x : ℝ) : ℝ :=
  match f with
  | .cbrt => cbrtR x
  | .log => Real.log x
  | .sqrt => Real.sqrt x
  | .exp => Real.exp x
  | .arctan => Real.arctan x
  | .arcsinh => Real.arsinh x
  | .arctanh => Real.artanh x
  | .abs => |x|
  | .tanh => Real.tanh x
  | .cosh => Real.cosh x
  | .cos => Real.cos x
  | .sin => Real.sin x
  | .erf => P.erf x
  | .erfc => P.erfc x
  | .i0 => P.i0 x
  | .lambertw => P.lambertw x
  | .e1Scaled => P.e1 x * Real.exp x
  | .erfcx => Real.exp (x ^ 2) * P.erfc x
  | .heaviside => heavisideR x

/-- Two-argument functions. -/
def fn2Val (P : Prims) (f : Fn2) (x y : ℝ) : ℝ :=
  match f with
  | .arctan2 => P.arctan2 x y

/-- Python values that occur: numbers and truth values. -/
inductive Val
  | num (x : ℝ)
  | bool (b : Prop)

/-- What a formula body can see: the unpacked inputs (`gen_repo/impl/python_template.jinja:15,22`), the record `p`, and
`params = p.params` by name.
An input is an error if the name is not bound (`r1` in `unpol`: `NameError`) or bound to `None` (`TypeError` when used in arithmetic). -/
structure Env where
  inp : Inp → Except PyErr ℝ
  fld : Fld → ℝ
  param : Nat → ℝ

/-- Arithmetic needs numbers.  (Python also allows arithmetic on booleans; no shipped formula does it.) -/
def Val.toNum : Val → Except PyErr ℝ
  | .num x => .ok x
  | .bool _ => .error .unmodelled

/-- Conditions need truth values.  (Python also allows numbers; no shipped formula does it.) -/
def Val.toBool : Val → Except PyErr Prop
  | .bool b => .ok b
  | .num _ => .error .unmodelled

open Classical in
/-- Evaluate an expression; `T` holds the temporaries assigned so far.  Operands are evaluated left to right.
`lax_cond(c, a, b)` (`gen_repo/impl/utils.py:42-47`) is a Python call, so both branches are evaluated first. -/
def eval (P : Prims) (E : Env) (T : Nat → Option Val) : Expr → Except PyErr Val
  | .num m e => .ok (.num ((m : ℝ) * (10 : ℝ) ^ e))
  | .pi => .ok (.num Real.pi)
  | .inp i => do let x ← E.inp i; .ok (.num x)
  | .fld f => .ok (.num (E.fld f))
  | .param c => .ok (.num (E.param c))
  | .tmp n => match T n with
    | some v => .ok v
    | none => .error .nameError
  | .neg a => do
    let x ← (← eval P E T a).toNum
    .ok (.num (-x))
  | .add a b => do
    let x ← (← eval P E T a).toNum
    let y ← (← eval P E T b).toNum
    .ok (.num (x + y))
  | .sub a b => do
    let x ← (← eval P E T a).toNum
    let y ← (← eval P E T b).toNum
    .ok (.num (x - y))
  | .mul a b => do
    let x ← (← eval P E T a).toNum
    let y ← (← eval P E T b).toNum
    .ok (.num (x * y))
  | .div a b => do
    let x ← (← eval P E T a).toNum
    let y ← (← eval P E T b).toNum
    .ok (.num (x / y))
  | .pow a b => do
    let x ← (← eval P E T a).toNum
    let y ← (← eval P E T b).toNum
    .ok (.num (x ^ y))
  | .le a b => do
    let x ← (← eval P E T a).toNum
    let y ← (← eval P E T b).toNum
    .ok (.bool (x ≤ y))
  | .lt a b => do
    let x ← (← eval P E T a).toNum
    let y ← (← eval P E T b).toNum
    .ok (.bool (x < y))
  | .eq a b => do
    let x ← (← eval P E T a).toNum
    let y ← (← eval P E T b).toNum
    .ok (.bool (x = y))
  | .lor a b => do
    let x ← (← eval P E T a).toBool
    let y ← (← eval P E T b).toBool
    .ok (.bool (x ∨ y))
  | .land a b => do
    let x ← (← eval P E T a).toBool
    let y ← (← eval P E T b).toBool
    .ok (.bool (x ∧ y))
  | .cond c a b => do
    let z ← (← eval P E T c).toBool
    let x ← (← eval P E T a).toNum
    let y ← (← eval P E T b).toNum
    .ok (.num (if z then x else y))
  | .call1 f a => do
    let x ← (← eval P E T a).toNum
    .ok (.num (fn1Val P f x))
  | .call2 f a b => do
    let x ← (← eval P E T a).toNum
    let y ← (← eval P E T b).toNum
    .ok (.num (fn2Val P f x y))
  | .undef _ => .error .nameError

/-- Run the assignments. -/
def exec (P : Prims) (E : Env) : List (Nat × Expr) → (Nat → Option Val) → Except PyErr (Nat → Option Val)
  | [], T => .ok T
  | (n, e) :: r, T => do
    let v ← eval P E T e
    exec P E r (Function.update T n (some v))

/-- Run a formula body: the value of `res`. -/
def run (P : Prims) (E : Env) (p : Prog) : Except PyErr ℝ := do
  let T ← exec P E p.body (fun _ => none)
  (← eval P E T p.res).toNum

end

end Verif.Py
