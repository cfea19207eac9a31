import Verif.Model.Formula
import Verif.Spec.Scaling
/-!
# Properties up to the rounding of decimal literals

The formula texts were printed by Maple with twenty significant digits (`gen_repo/impl/maple_template.jinja:1` sets `Digits := 20`), so that a
number which is not a short decimal appears rounded, and the rounded copies in `pol` and in `unpol` need not be exact multiples of one
another.  `UpToLiterals Q f` says that the code `f` has the property `Q` after each of its literals has been moved by at most one part in
10^17 (the same literal is moved in the same way wherever it occurs in `pol` and in `unpol`); this is below the resolution of a double (1.1e-16).
-/
namespace Verif.Spec
open Verif.Py Verif.Model

/-- Replace every literal `m * 10^e`. -/
def reExpr (g : ℕ → ℤ → ℕ × ℤ) : Expr → Expr
  | .num m e => .num (g m e).1 (g m e).2
  | .pi => .pi
  | .inp i => .inp i
  | .fld f => .fld f
  | .param c => .param c
  | .tmp n => .tmp n
  | .neg a => .neg (reExpr g a)
  | .add a b => .add (reExpr g a) (reExpr g b)
  | .sub a b => .sub (reExpr g a) (reExpr g b)
  | .mul a b => .mul (reExpr g a) (reExpr g b)
  | .div a b => .div (reExpr g a) (reExpr g b)
  | .pow a b => .pow (reExpr g a) (reExpr g b)
  | .le a b => .le (reExpr g a) (reExpr g b)
  | .lt a b => .lt (reExpr g a) (reExpr g b)
  | .eq a b => .eq (reExpr g a) (reExpr g b)
  | .lor a b => .lor (reExpr g a) (reExpr g b)
  | .land a b => .land (reExpr g a) (reExpr g b)
  | .cond c a b => .cond (reExpr g c) (reExpr g a) (reExpr g b)
  | .call1 f a => .call1 f (reExpr g a)
  | .call2 f a b => .call2 f (reExpr g a) (reExpr g b)
  | .undef c => .undef c

/-- Replace every literal of a body. -/
def reProg (g : ℕ → ℤ → ℕ × ℤ) (p : Prog) : Prog := ⟨p.body.map fun x => (x.1, reExpr g x.2), reExpr g p.res⟩

/-- Replace every literal of `pol` and of `unpol`. -/
def reFormula (g : ℕ → ℤ → ℕ × ℤ) (f : Formula) : Formula := ⟨reProg g f.polBody, reProg g f.unpolBody⟩

/-- The value of a literal. -/
noncomputable def litVal (x : ℕ × ℤ) : ℝ := (x.1 : ℝ) * (10 : ℝ) ^ x.2

/-- `f` has property `Q` after moving each literal by at most one part in 10^17. -/
def UpToLiterals (Q : Formula → Prop) (f : Formula) : Prop :=
  ∃ g : ℕ → ℤ → ℕ × ℤ, (∀ m e, |litVal (g m e) - litVal (m, e)| ≤ (10 : ℝ) ^ (-17 : ℤ) * litVal (m, e)) ∧ Q (reFormula g f)

end Verif.Spec
