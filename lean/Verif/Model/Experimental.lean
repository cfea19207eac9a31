import Verif.Model.Functionals
/-!
# The experimental API

Model of `gen_repo/experimental.jinja`.  Simplifications: the operators of `autofd` (`o.compose`, `o.nabla`, products of functions) have their
mathematical meaning; errors when a functional is built and errors when it is called are not distinguished: what is modelled is the value of
`f(rho, mo)(r)`.
-/
namespace Verif.Model
open Verif.Py

noncomputable section

/-- `check_mo_shape`/`is_polarized` first evaluate shapes with `float32` input and, if this raises anything, with `float64` input
(`gen_repo/experimental.jinja:97-100,109-112`). -/
def evalShape (f32 f64 : Except PyErr (List ℕ)) : Except PyErr (List ℕ) :=
  match f32 with
  | .ok s => .ok s
  | .error _ => f64

/-- `is_polarized` (`gen_repo/experimental.jinja:96-105`). -/
def isPolarized (f32 f64 : Except PyErr (List ℕ)) : Except PyErr Bool := do
  let s ← evalShape f32 f64
  if s ≠ [2] ∧ s ≠ [] then .error .valueError else .ok (s = [2])

/-- `check_mo_shape` (`gen_repo/experimental.jinja:108-126`). -/
def checkMoShape (f32 f64 : Except PyErr (List ℕ)) (polarized : Bool) : Except PyErr Unit := do
  let s ← evalShape f32 f64
  if polarized then
    (if s.length ≠ 2 ∨ s[0]? ≠ some 2 then .error .valueError else .ok ())
  else
    (if s.length ≠ 1 then .error .valueError else .ok ())

/-- The value of `rho(r)`. -/
def rhoVal {n : ℕ} (rho : ArrFn n ℝ) (r : Coord n) : Except PyErr AVal :=
  if rho.shape = [] then .ok (.scal (rho.ent r []))
  else if rho.shape = [2] then .ok (.vec2 (rho.ent r [0]) (rho.ent r [1]))
  else .error .unmodelled

/-- `compute_s(nabla_rho(r))` (`gen_repo/experimental.jinja:54-60`); for other shapes it returns `None`, which the formulas cannot use.
The coordinate has three entries. -/
def computeS (rho : ArrFn 3 ℝ) (r : Coord 3) : Except PyErr AVal :=
  if rho.jacShape = [2, 3] then .ok (.tup3 (rho.jacDot r [0] [0]) (rho.jacDot r [0] [1]) (rho.jacDot r [1] [1]))
  else if rho.jacShape = [3] then .ok (.scal (rho.jacDot r [] []))
  else .error .typeError

/-- Entry `[idx..., i, j]` of `hess_rho(r)`, `hess_rho = o.nabla(o.nabla(rho, jacrev), jacfwd)` (`gen_repo/experimental.jinja:54,63`). -/
def ArrFn.hessEnt {n : ℕ} (f : ArrFn n ℝ) (r : Coord n) (idx : List ℕ) (i j : Fin n) : ℝ :=
  fderiv ℝ (fun x => f.jacEnt x idx i) r (eyeRow j)

/-- `jnp.trace(hess_rho, axis1=-2, axis2=-1)` (`gen_repo/experimental.jinja:65-66`). -/
def ArrFn.trace {n : ℕ} (f : ArrFn n ℝ) (r : Coord n) (idx : List ℕ) : ℝ := ∑ i, f.hessEnt r idx i i

/-- `compute_l(hess_rho(r))`. -/
def computeL {n : ℕ} (rho : ArrFn n ℝ) (r : Coord n) : Except PyErr AVal :=
  if rho.shape = [] then .ok (.scal (rho.trace r []))
  else if rho.shape = [2] then .ok (.vec2 (rho.trace r [0]) (rho.trace r [1]))
  else .error .unmodelled

/-- `compute_tau(nabla_mo(r))` (`gen_repo/experimental.jinja:76-83`). -/
def computeTau {n : ℕ} (mo : Option (Callable n ℂ)) (r : Coord n) : Except PyErr AVal :=
  match mo with
  | none => .error .typeError
  | some mo => do
    let mo ← mo
    match mo.shape with
    | [N] => .ok (.scal (mo.tau r [] N))
    | [2, N] => .ok (.vec2 (mo.tau r [0] N) (mo.tau r [1] N))
    | _ => .error .unmodelled

/-- `r.sum()` of an array (`gen_repo/experimental.jinja:15`). -/
def arrSum : AVal → ℝ
  | .scal x => x
  | .vec2 x y => x + y
  | .tup3 x y z => x + y + z

/-- `_filter_small_density(p, code, r, *args)` (`gen_repo/experimental.jinja:14-20`). -/
def filterSmall (p : PInfo) (code : List AVal → Except PyErr ℝ) (args : List AVal) : Except PyErr ℝ :=
  match args with
  | [] => .error .typeError
  | r :: _ => do
    let dens ← (if p.nspin = 1 then asScalar r else .ok (arrSum r))
    screened dens (p.vals.fld .densThreshold) (code args)

/-- `make_epsilon_xc(p, rho, mo, deorbitalize)(r)` for a single functional (`gen_repo/experimental.jinja:45-93`);
`deo` is `deorbitalize(rho, mo)(r)`. -/
def expLeaf (P : Prims) (f : Formula) (p : PInfo) (rho : Callable 3 ℝ) (mo : Option (Callable 3 ℂ)) (r : Coord 3) (deo : Option (Except PyErr ℝ)) :
    Except PyErr ℝ := do
  -- lines 46-51
  let code ← (
    if p.nspin = 1 then .ok (callUnpol P f p.vals)
    else if p.nspin = 2 then .ok (callPol P f p.vals)
    else .error .nameError)
  let rho ← rho
  if p.type = "lda" then do
    let d ← rhoVal rho r
    filterSmall p code [d]
  else if p.type = "gga" then do
    let d ← rhoVal rho r
    let s ← computeS rho r
    filterSmall p code [d, s]
  else if p.type = "mgga" then do
    let d ← rhoVal rho r
    let s ← computeS rho r
    let l ← computeL rho r
    -- line 76: `o.nabla(None)`
    if mo.isNone then .error .typeError else
    -- lines 82-85
    let tau ← (match deo with
      | none => computeTau mo r
      | some e => do
        let d ← rhoVal rho r
        let x ← e
        .ok (d.smul x))
    filterSmall p code [d, s, l, tau]
  else .error .typeError

section
variable (P : Prims) (I : Impls) (rho : Callable 3 ℝ) (mo : Option (Callable 3 ℂ)) (r : Coord 3)

mutual
/-- `make_epsilon_xc(p, rho, mo, deorbitalize)(r)` (`gen_repo/experimental.jinja:23-93`). -/
def makeEps (deo : Option (Except PyErr ℝ)) : PTree → Except PyErr ℝ
  | .node p aux =>
    if p.mapleName = "DEORBITALIZE" then
      match aux with
      | [] => .error .attributeError
      | [_] => .error .indexError
      | p0 :: p1 :: _ => makeEps (some (makeEps none p1)) p0
    else if p.mapleName = "" then
      match aux with
      | [] => .error .attributeError
      | a :: as => do
        let l ← makeMix (a :: as)
        -- `mix`, lines 33-34
        .ok (pySum (List.zipWith (fun a c => c * a) l p.mixCoef))
    else
      match I p.mapleName with
      | none => .error .attributeError
      | some m => expLeaf P m p rho mo r deo

/-- The values of all components (`gen_repo/experimental.jinja:36-37`). -/
def makeMix : List PTree → Except PyErr (List ℝ)
  | [] => .ok []
  | t :: ts => do
    let x ← makeEps none t
    let xs ← makeMix ts
    .ok (x :: xs)
end
end

/-- A function that a user passes to the experimental API: what tracing it with `float32` and with `float64` coordinates gives. -/
structure Traced (K : Type) where
  f32 : Callable 3 K
  f64 : Callable 3 K

/-- The function itself (the real number idealisation does not see the precision): the one that can be traced. -/
def Traced.fn {K : Type} (f : Traced K) : Callable 3 K :=
  match f.f32 with
  | .ok g => .ok g
  | .error _ => f.f64

/-- The shape of the result, or the exception. -/
def shapeOf {K : Type} (f : Callable 3 K) : Except PyErr (List ℕ) := f.map (·.shape)

/-- `f(rho[, mo], *, params…)(r)` of the experimental API (`gen_repo/experimental.jinja:129-177`).
`mo` is a required argument of mGGA functionals, and not accepted by the others. -/
def expWrapper (P : Prims) (I : Impls) (getP : String → Bool → List ℝ → Except PyErr PTree) (g : GenInfo) (rho : Traced ℝ) (mo : Option (Traced ℂ))
    (given : List (Option ℝ)) (r : Coord 3) : Except PyErr ℝ := do
  if (g.type = "mgga") ≠ mo.isSome then .error .typeError else
  let polarized ← isPolarized (shapeOf rho.f32) (shapeOf rho.f64)
  match mo with
  | some m => checkMoShape (shapeOf m.f32) (shapeOf m.f64) polarized
  | none => .ok ()
  let p ← getP g.name polarized (extValues g.extParams given)
  makeEps P I rho.fn (mo.map (·.fn)) r none p

end

end Verif.Model
