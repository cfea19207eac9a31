import Verif.Model.Formula
import Mathlib.Analysis.Calculus.FDeriv.Basic
import Mathlib.Analysis.InnerProductSpace.PiL2
import Mathlib.Analysis.Complex.Basic
/-!
# From a density function to the arguments of a formula

Model of `gen_repo/impl/utils.py:50-127` (`rho_to_arguments`).
-/
namespace Verif.Model
open Verif.Py

noncomputable section

/-- Coordinates: `r` is a vector with `n` entries (the code takes any `n`; users pass `n = 3`).
Simplification: `r` has exactly one axis. -/
abbrev Coord (n : ℕ) := EuclideanSpace ℝ (Fin n)

/-- A function from coordinates to arrays.  JAX traces functions, so the shape of the result is the same at every coordinate.
`ent r idx` is the entry with multi-index `idx`; only multi-indices inside `shape` mean anything. -/
structure ArrFn (n : ℕ) (K : Type) where
  shape : List ℕ
  ent : Coord n → List ℕ → K

/-- What the user passes: calling (tracing) it may raise. -/
abbrev Callable (n : ℕ) (K : Type) := Except PyErr (ArrFn n K)

/-- A row of `jnp.eye(n)`. -/
def eyeRow {n : ℕ} (i : Fin n) : Coord n := EuclideanSpace.single i 1

/-- Entry `[idx..., i]` of `jax.jacrev(f)(r)` and of `jax.jacfwd(f)(r)`: the partial derivative in direction `i`.
Simplification: automatic differentiation is the mathematical derivative (and `0` where there is none). -/
def ArrFn.jacEnt {n : ℕ} {K : Type} [NormedAddCommGroup K] [NormedSpace ℝ K] (f : ArrFn n K) (r : Coord n) (idx : List ℕ) (i : Fin n) : K :=
  fderiv ℝ (fun x => f.ent x idx) r (eyeRow i)

/-- The shape of `jax.jacrev(f)(r)` and of `jax.jacfwd(f)(r)`. -/
def ArrFn.jacShape {n : ℕ} {K : Type} (f : ArrFn n K) : List ℕ := f.shape ++ [n]

/-- Entry `[idx..., i]` of `hvp(v)` where `_, hvp = jax.linearize(jax.jacrev(f), r)` (`gen_repo/impl/utils.py:93`). -/
def ArrFn.hvp {n : ℕ} (f : ArrFn n ℝ) (r v : Coord n) (idx : List ℕ) (i : Fin n) : ℝ :=
  fderiv ℝ (fun x => f.jacEnt x idx i) r v

/-- `jnp.dot(jac[idx], jac[idx'])` (`gen_repo/impl/utils.py:95-97,100`). -/
def ArrFn.jacDot {n : ℕ} (f : ArrFn n ℝ) (r : Coord n) (idx idx' : List ℕ) : ℝ :=
  ∑ i, f.jacEnt r idx i * f.jacEnt r idx' i

/-- Entry `idx` of `sum([hvp(eye[i])[..., i] for i in range(r.shape[-1])])` (`gen_repo/impl/utils.py:107-108`). -/
def ArrFn.lapl {n : ℕ} (f : ArrFn n ℝ) (r : Coord n) (idx : List ℕ) : ℝ :=
  ∑ i, f.hvp r (eyeRow i) idx i

/-- Entry of `jnp.sum(jnp.real(jnp.conj(mo_jac) * mo_jac), axis=[-1, -2]) / 2` (`gen_repo/impl/utils.py:124`): the sum over the `N`
orbitals (axis `-2`) and the directions (axis `-1`); `pre` is the spin index, if there is one. -/
def ArrFn.tau {n : ℕ} (f : ArrFn n ℂ) (r : Coord n) (pre : List ℕ) (N : ℕ) : ℝ :=
  (∑ k ∈ Finset.range N, ∑ i, ((starRingEnd ℂ) (f.jacEnt r (pre ++ [k]) i) * f.jacEnt r (pre ++ [k]) i).re) / 2

/-- The values that are passed to formulas: a scalar array, an array of shape `(2,)`, or the tuple `(s0, s1, s2)`. -/
inductive AVal
  | scal (x : ℝ)
  | vec2 (x y : ℝ)
  | tup3 (x y z : ℝ)

/-- `density * deorbitalize` (`gen_repo/impl/utils.py:126`). -/
def AVal.smul (c : ℝ) : AVal → AVal
  | .scal x => .scal (x * c)
  | .vec2 x y => .vec2 (x * c) (y * c)
  | .tup3 x y z => .tup3 (x * c) (y * c) (z * c)

/-- The record `p` (a namedtuple made by `gen_repo/utils.py:14-50` from the dict of `gen_repo/libxc/libxc.cc:86-129`), without `func_aux`. -/
structure PInfo where
  name : String
  mapleName : String
  type : String
  nspin : ℕ
  /-- the thresholds, the `cam_*` fields and `params` -/
  vals : Rec
  nlcB : ℝ
  nlcC : ℝ
  /-- `mix_coef`; the attribute is there iff `func_aux` is -/
  mixCoef : List ℝ

/-- `rho_to_arguments(p, rho, r, mo, deorbitalize)` (`gen_repo/impl/utils.py:50-127`), branch by branch. -/
def rhoToArguments {n : ℕ} (p : PInfo) (rho : Callable n ℝ) (r : Coord n) (mo : Option (Callable n ℂ)) (deorbitalize : Option ℝ) :
    Except PyErr (List AVal) := do
  -- lines 61-65
  if ¬(p.type = "lda" ∨ p.type = "gga" ∨ p.type = "mgga") then .error .valueError else
  -- lines 67-71
  if p.type = "mgga" ∧ mo.isNone then .error .valueError else
  -- lines 74-80
  let rho ← rho
  if ¬(rho.shape = [] ∨ rho.shape = [2]) then .error .runtimeError else
  let polarized : Bool := rho.shape = [2]
  -- lines 83-87
  if (p.nspin = 1 ∧ polarized) ∨ (p.nspin = 2 ∧ ¬polarized) then .error .valueError else
  let density : AVal := if polarized then .vec2 (rho.ent r [0]) (rho.ent r [1]) else .scal (rho.ent r [])
  -- lines 89-90
  if p.type = "lda" then .ok [density] else
  -- lines 93-100
  let s : AVal := if polarized then .tup3 (rho.jacDot r [0] [0]) (rho.jacDot r [0] [1]) (rho.jacDot r [1] [1]) else .scal (rho.jacDot r [] [])
  -- lines 102-103
  if p.type = "gga" then .ok [density, s] else
  -- lines 107-108
  let ll : AVal := if polarized then .vec2 (rho.lapl r [0]) (rho.lapl r [1]) else .scal (rho.lapl r [])
  -- line 111 (`mo` is not `None` here)
  match mo with
  | none => .error .typeError
  | some mo => do
    let mo ← mo
    -- lines 112-123
    let tau : AVal ← (
      if polarized then
        match mo.jacShape[1]? with
        | none => .error .indexError
        | some k => if mo.jacShape ≠ [2, k, n] then .error .valueError else .ok (.vec2 (mo.tau r [0] k) (mo.tau r [1] k))
      else
        match mo.jacShape[0]? with
        | none => .error .indexError
        | some k => if mo.jacShape ≠ [k, n] then .error .valueError else .ok (.scal (mo.tau r [] k)))
    -- lines 125-127
    match deorbitalize with
    | none => .ok [density, s, ll, tau]
    | some d => .ok [density, s, ll, density.smul d]

end

end Verif.Model
