import Verif.Py.Sem
/-!
# Calling the generated `pol` and `unpol`

Model of `gen_repo/impl/python_template.jinja:13-24`.
-/
namespace Verif.Model
open Verif.Py

/-- The three families (`p.type`), `gen_repo/libxc/libxc.cc:74-84`. -/
inductive Fam
  | lda | gga | mgga
  deriving DecidableEq, Repr

/-- Values that are passed only for some families: the gradient to all but LDA (`gen_repo/impl/utils.py:89-103`). -/
def Fam.grad {α : Type} : Fam → α → Option α
  | .lda, _ => none
  | _, x => some x

/-- Values that are passed only for some families: Laplacian and kinetic energy density to mGGA (`gen_repo/impl/utils.py:102-127`). -/
def Fam.meta {α : Type} : Fam → α → Option α
  | .mgga, x => some x
  | _, _ => none

/-- The part of the record `p` (`gen_repo/utils.py:14-50`) that formula code reads: scalar fields, and `p.params` by (coded) name.
Simplification: every name read from `params` is present and is a number. -/
structure Rec where
  fld : Fld → ℝ
  param : Nat → ℝ

/-- An input that may be `None`: using it in arithmetic is a `TypeError`. -/
def optInp {α : Type} (x : Option α) (f : α → ℝ) : Except PyErr ℝ :=
  match x with
  | some a => .ok (f a)
  | none => .error .typeError

/-- Names bound in `pol(p, r, s=(None, None, None), l=(None, None), tau=(None, None))`
(`gen_repo/impl/python_template.jinja:13-15`); `none` is the default. -/
def polEnv (p : Rec) (r : ℝ × ℝ) (s : Option (ℝ × ℝ × ℝ)) (l tau : Option (ℝ × ℝ)) : Env where
  inp
    | .r0 => .ok r.1
    | .r1 => .ok r.2
    | .s0 => optInp s (·.1)
    | .s1 => optInp s (·.2.1)
    | .s2 => optInp s (·.2.2)
    | .l0 => optInp l (·.1)
    | .l1 => optInp l (·.2)
    | .tau0 => optInp tau (·.1)
    | .tau1 => optInp tau (·.2)
  fld := p.fld
  param := p.param

/-- Names bound in `unpol(p, r, s=None, l=None, tau=None)` (`gen_repo/impl/python_template.jinja:20-22`);
`r1`, `s1`, … are not bound. -/
def unpolEnv (p : Rec) (r : ℝ) (s l tau : Option ℝ) : Env where
  inp
    | .r0 => .ok r
    | .s0 => optInp s id
    | .l0 => optInp l id
    | .tau0 => optInp tau id
    | _ => .error .nameError
  fld := p.fld
  param := p.param

/-- A generated module: the bodies of `pol` and `unpol` (`gen_repo/impl/gen_py.py:53-78` renders one per Maple file). -/
structure Formula where
  polBody : Prog
  unpolBody : Prog

/-- `pol(p, r, s, l, tau)`. -/
noncomputable def Formula.pol (P : Prims) (f : Formula) (p : Rec) (r : ℝ × ℝ) (s : Option (ℝ × ℝ × ℝ)) (l tau : Option (ℝ × ℝ)) : Except PyErr ℝ :=
  run P (polEnv p r s l tau) f.polBody

/-- `unpol(p, r, s, l, tau)`. -/
noncomputable def Formula.unpol (P : Prims) (f : Formula) (p : Rec) (r : ℝ) (s l tau : Option ℝ) : Except PyErr ℝ :=
  run P (unpolEnv p r s l tau) f.unpolBody

end Verif.Model
