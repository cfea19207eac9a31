import Verif.Model.RhoArgs
/-!
# Generated formula modules: `invoke`

Model of `gen_repo/impl/python_template.jinja`.
-/
namespace Verif.Model
open Verif.Py

noncomputable section

/-- Unpacking `(a, b) = v` (`gen_repo/impl/python_template.jinja:15`). -/
def unpack2 : AVal → Except PyErr (ℝ × ℝ)
  | .vec2 x y => .ok (x, y)
  | .scal _ => .error .typeError
  | .tup3 _ _ _ => .error .valueError

/-- Unpacking `(a, b, c) = v` (`gen_repo/impl/python_template.jinja:15`). -/
def unpack3 : AVal → Except PyErr (ℝ × ℝ × ℝ)
  | .tup3 x y z => .ok (x, y, z)
  | .scal _ => .error .typeError
  | .vec2 _ _ => .error .valueError

/-- A value used as a number.  Simplification: code running elementwise on a whole array is not modelled
(it never happens, see `Verif.Lib.Args`). -/
def asScalar : AVal → Except PyErr ℝ
  | .scal x => .ok x
  | .vec2 _ _ => .error .unmodelled
  | .tup3 _ _ _ => .error .unmodelled

/-- `pol(p, *args)` (`gen_repo/impl/python_template.jinja:13-17`): arguments are matched by position. -/
def callPol (P : Prims) (f : Formula) (p : Rec) (args : List AVal) : Except PyErr ℝ :=
  match args with
  | [r] => do f.pol P p (← unpack2 r) none none none
  | [r, s] => do f.pol P p (← unpack2 r) (some (← unpack3 s)) none none
  | [r, s, l] => do f.pol P p (← unpack2 r) (some (← unpack3 s)) (some (← unpack2 l)) none
  | [r, s, l, t] => do f.pol P p (← unpack2 r) (some (← unpack3 s)) (some (← unpack2 l)) (some (← unpack2 t))
  | _ => .error .typeError

/-- `unpol(p, *args)` (`gen_repo/impl/python_template.jinja:20-24`). -/
def callUnpol (P : Prims) (f : Formula) (p : Rec) (args : List AVal) : Except PyErr ℝ :=
  match args with
  | [r] => do f.unpol P p (← asScalar r) none none none
  | [r, s] => do f.unpol P p (← asScalar r) (some (← asScalar s)) none none
  | [r, s, l] => do f.unpol P p (← asScalar r) (some (← asScalar s)) (some (← asScalar l)) none
  | [r, s, l, t] => do f.unpol P p (← asScalar r) (some (← asScalar s)) (some (← asScalar l)) (some (← asScalar t))
  | _ => .error .typeError

/-- `sum(v)` (`gen_repo/impl/python_template.jinja:33`). -/
def sumVal : AVal → Except PyErr ℝ
  | .vec2 x y => .ok (x + y)
  | .tup3 x y z => .ok (x + y + z)
  | .scal _ => .error .typeError

/-- `dens = args[0] if p.nspin == 1 else sum(args[0])` (`gen_repo/impl/python_template.jinja:33`). -/
def totalDens (nspin : ℕ) : List AVal → Except PyErr ℝ
  | [] => .error .indexError
  | a :: _ => if nspin = 1 then asScalar a else sumVal a

/-- `lax.cond(dens < p.dens_threshold, lambda *_: 0., lambda *_: code(p, *args), None)` (`gen_repo/impl/python_template.jinja:34-35`).
Both branches are traced, so an exception in `code` is raised even when its value is not used. -/
def screened (dens thr : ℝ) (code : Except PyErr ℝ) : Except PyErr ℝ := do
  let v ← code
  .ok (if dens < thr then 0 else v)

/-- `invoke(p, rho, r, mo, deorbitalize)` of a generated module (`gen_repo/impl/python_template.jinja:27-36`). -/
def implInvoke (P : Prims) (f : Formula) {n : ℕ} (p : PInfo) (rho : Callable n ℝ) (r : Coord n) (mo : Option (Callable n ℂ))
    (deorbitalize : Option ℝ) : Except PyErr ℝ := do
  let args ← rhoToArguments p rho r mo deorbitalize
  let dens ← totalDens p.nspin args
  screened dens (p.vals.fld .densThreshold) (if p.nspin = 2 then callPol P f p.vals args else callUnpol P f p.vals args)

end

end Verif.Model
