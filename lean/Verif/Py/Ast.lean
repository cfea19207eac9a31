/-!
# Abstract syntax of the generated formula code

The bodies of `pol` and `unpol` in every generated module (`gen_repo/impl/python_template.jinja:13-24`) are
straight-line Python: a list of assignments `tN = expr` followed by `res = expr`
(see any file in `gen_repo/impl/prebuilt/{pol,unpol}`).  This file gives their abstract syntax,
*after* `post_process` (`gen_repo/impl/gen_py.py:20-50`) has been applied.
-/
namespace Verif.Py

/-- The names bound by the destructuring assignment at the top of `pol` / `unpol`
(`gen_repo/impl/python_template.jinja:15,22`). -/
inductive Inp
  | r0 | r1 | s0 | s1 | s2 | l0 | l1 | tau0 | tau1
  deriving DecidableEq, Repr, Inhabited

/-- The scalar attributes of the record `p` that formulas read (`p.zeta_threshold`, …);
they are put there by `gen_repo/libxc/libxc.cc:91-101`. -/
inductive Fld
  | zetaThreshold | densThreshold | camOmega | camAlpha | camBeta
  deriving DecidableEq, Repr, Inhabited

/-- The functions that are in scope of a generated module: `jnp.*`, `jax.*` and the helpers of
`gen_repo/impl/utils.py:22-47` (imported with `from .utils import *`). -/
inductive Fn1
  | cbrt | log | sqrt | exp | arctan | arcsinh | arctanh | abs | tanh | cosh | cos | sin
  | erf | erfc | i0 | lambertw | e1Scaled | erfcx | heaviside
  deriving DecidableEq, Repr, Inhabited

/-- Two-argument functions in scope. -/
inductive Fn2
  | arctan2
  deriving DecidableEq, Repr, Inhabited

/-- Expressions.  Identifiers that stand for `params.X` or `params.X[i]` are kept as the base-256 number of
their text (`nameCode`), so that comparing two of them is one operation on numbers. -/
inductive Expr
  /-- decimal literal `m * 10^e` -/
  | num (m : Nat) (e : Int)
  | pi
  | inp (i : Inp)
  | fld (f : Fld)
  | param (code : Nat)
  /-- temporary `tN` -/
  | tmp (n : Nat)
  | neg (a : Expr)
  | add (a b : Expr)
  | sub (a b : Expr)
  | mul (a b : Expr)
  | div (a b : Expr)
  | pow (a b : Expr)
  | le (a b : Expr)
  | lt (a b : Expr)
  | eq (a b : Expr)
  | lor (a b : Expr)
  | land (a b : Expr)
  /-- `lax_cond(c, a, b)` -/
  | cond (c a b : Expr)
  | call1 (f : Fn1) (a : Expr)
  | call2 (f : Fn2) (a b : Expr)
  /-- a call to a function that is not in scope; `code` is the base-256 number of its name -/
  | undef (code : Nat)
  deriving DecidableEq, Repr, Inhabited

/-- A formula body: assignments to temporaries in order, then the expression assigned to `res`. -/
structure Prog where
  body : List (Nat × Expr)
  res : Expr
  deriving Repr, Inhabited

/-- Identifier text as a base-256 number. -/
def nameCodeChars : List Char → Nat → Nat
  | [], n => n
  | c :: cs, n => nameCodeChars cs (n * 256 + c.toNat)

/-- Identifier text as a base-256 number. -/
def nameCode (s : String) : Nat := nameCodeChars s.toList 0

end Verif.Py
