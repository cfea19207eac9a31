import Verif.Model.Impl
/-!
# The public functionals

Model of `gen_repo/python_template.jinja` (and of the generated wrappers).
-/
namespace Verif.Model
open Verif.Py

noncomputable section

/-- The record tree `p`; the attribute `func_aux` (and `mix_coef`) is missing iff the list is empty (`gen_repo/libxc/libxc.cc:119-127`). -/
inductive PTree
  | node (info : PInfo) (aux : List PTree)

/-- The record without its components. -/
def PTree.info : PTree → PInfo
  | .node i _ => i

/-- `p.func_aux`. -/
def PTree.aux : PTree → List PTree
  | .node _ a => a

/-- The modules of the package `impl` by name: `getattr(impl, name)`. -/
abbrev Impls := String → Option Formula

/-- Python's `sum(list)`: starts from 0, adds from the left. -/
def pySum (l : List ℝ) : ℝ := l.foldl (· + ·) 0

section
variable (P : Prims) (I : Impls) {n : ℕ} (rho : Callable n ℝ) (r : Coord n) (mo : Option (Callable n ℂ))

mutual
/-- `invoke(p, rho, r, mo)` (`gen_repo/python_template.jinja:9-22`). -/
def invoke : PTree → Except PyErr ℝ
  | .node p aux =>
    if p.mapleName = "DEORBITALIZE" then
      match aux with
      | [] => .error .attributeError
      | [_] => .error .indexError
      | _ :: p1 :: _ => do
        let _deo ← invoke p1
        -- line 13 calls `invoke` with five arguments, but it takes at most four
        .error .typeError
    else if p.mapleName = "" then
      match aux with
      | [] => .error .attributeError
      | a :: as => do
        let l ← invokeMix (a :: as) p.mixCoef
        .ok (pySum l)
    else
      match I p.mapleName with
      | none => .error .attributeError
      | some m => implInvoke P m p rho r mo none

/-- `[coeff * invoke(fn_p, rho, r, mo) for fn_p, coeff in zip(p.func_aux, p.mix_coef)]` (`gen_repo/python_template.jinja:15-20`). -/
def invokeMix : List PTree → List ℝ → Except PyErr (List ℝ)
  | t :: ts, c :: cs => do
    let x ← invoke t
    let xs ← invokeMix ts cs
    .ok (c * x :: xs)
  | [], _ => .ok []
  | _ :: _, [] => .ok []
end
end

/-- What the generator knows about a functional when it renders a wrapper (`gen_repo/gen_py.py:57-88`). -/
structure GenInfo where
  name : String
  mapleName : String
  type : String
  /-- sanitised names and defaults, in order (`gen_repo/gen_py.py:32-40`) -/
  extParams : List (String × ℝ)

/-- The function that a wrapper returns, with its attributes. -/
structure EpsFn where
  /-- `eps(rho, r, mo=None)` -/
  call : ∀ {n : ℕ}, Callable n ℝ → Coord n → Option (Callable n ℂ) → Except PyErr ℝ
  attrs : List (String × ℝ)

open Classical in
/-- Python's `x or d` for `x: Optional[float]`: `None` and `0.0` are false (`gen_repo/python_template.jinja:59`). -/
def pyOr (x : Option ℝ) (d : ℝ) : ℝ :=
  match x with
  | none => d
  | some v => if v = 0 then d else v

/-- The values that a wrapper sends to `get_p` (`gen_repo/python_template.jinja:58-61`).  `given` has one entry per parameter. -/
def extValues (ps : List (String × ℝ)) (given : List (Option ℝ)) : List ℝ := List.zipWith (fun d x => pyOr x d.2) ps given

/-- The attributes set by a wrapper (`gen_repo/python_template.jinja:83-89`). -/
def epsAttrs (g : GenInfo) (p : PInfo) : List (String × ℝ) :=
  if g.mapleName = "" then
    [("cam_alpha", p.vals.fld .camAlpha), ("cam_beta", p.vals.fld .camBeta), ("cam_omega", p.vals.fld .camOmega), ("nlc_b", p.nlcB), ("nlc_C", p.nlcC)]
  else []

/-- A generated wrapper called with `polarized` and the external parameters (`gen_repo/python_template.jinja:26-91`);
`getP` is `gen_repo/utils.py:43-50`. -/
def wrapper (P : Prims) (I : Impls) (getP : String → Bool → List ℝ → Except PyErr PTree) (g : GenInfo) (polarized : Bool)
    (given : List (Option ℝ)) : Except PyErr EpsFn := do
  let p ← getP g.name polarized (extValues g.extParams given)
  .ok { call := fun rho r mo => invoke P I rho r (if g.type = "mgga" then mo else none) p
        attrs := epsAttrs g p.info }

end

end Verif.Model
