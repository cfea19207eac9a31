import Verif.Py.Sem
/-!
# Helper functions of the formulas

Model of `gen_repo/impl/utils.py:22-47`, in more detail than the semantics of expressions (`Verif.Py.Sem`), which `Verif.Props.Helpers` ties to it.
-/
namespace Verif.Model
open Verif.Py

/-- Kinds of numbers that JAX distinguishes. (Widths are not modelled.) -/
inductive DType | float | int | bool
  deriving DecidableEq

/-- Python objects that a formula can pass to `lax_cond`. -/
inductive PyObj
  | int (n : ℤ)
  | bool (b : Bool)
  | float (x : ℝ)
  /-- a JAX array of shape `()` -/
  | arr (d : DType) (x : ℝ)

/-- What JAX makes of it. -/
def PyObj.dtype : PyObj → DType
  | .int _ => .int
  | .bool _ => .bool
  | .float _ => .float
  | .arr d _ => d

/-- The number. -/
def PyObj.val : PyObj → ℝ
  | .int n => n
  | .bool b => if b then 1 else 0
  | .float x => x
  | .arr _ x => x

/-- `lax.cond(a, lambda _: b, lambda _: c, None)`: both branches must have the same type. -/
noncomputable def laxCondPrim (a : Prop) [Decidable a] (b c : PyObj) : Except PyErr PyObj :=
  if b.dtype = c.dtype then .ok (.arr b.dtype (if a then b.val else c.val)) else .error .typeError

/-- `if isinstance(b, int): b = float(b)`; a Python `bool` is an `int`. -/
def toFloat : PyObj → PyObj
  | .int n => .float n
  | .bool b => .float (if b then 1 else 0)
  | x => x

/-- `lax_cond` (`gen_repo/impl/utils.py:42-47`). -/
noncomputable def laxCond (a : Prop) [Decidable a] (b c : PyObj) : Except PyErr PyObj := laxCondPrim a (toFloat b) (toFloat c)

/-- `jnp.heaviside(x1, x2)`. -/
noncomputable def jnpHeaviside (x1 x2 : ℝ) : ℝ := if x1 < 0 then 0 else if x1 = 0 then x2 else 1

/-- `Heaviside` (`gen_repo/impl/utils.py:22-23`). -/
noncomputable def heaviside (x : ℝ) : ℝ := jnpHeaviside x 1

/-- `xc_E1_scaled` (`gen_repo/impl/utils.py:26-31`). -/
noncomputable def xcE1Scaled (exp1 : ℝ → ℝ) (x : ℝ) : ℝ := exp1 x * Real.exp x

/-- `xc_erfcx` (`gen_repo/impl/utils.py:38-39`). -/
noncomputable def xcErfcx (erfc : ℝ → ℝ) (x : ℝ) : ℝ := Real.exp (x ^ 2) * erfc x

end Verif.Model
