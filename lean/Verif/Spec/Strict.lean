import Verif.Model.Formula
/-!
# Formulas in strict arithmetic

`Verif.Py.Sem` gives every operation a value: `x / 0` is `0`, `log` of a negative number is Mathlib's value, and so on.  In the floating-point code
these operations give `inf` or `nan`.  The strict semantics below has no value for an operation outside its domain, so that "the formula has a strict
value" says that no `inf` or `nan` comes from a domain error (numbers are still exact: overflow is not modelled).  A temporary may have no
value; the formula has none only if one without value is used.  `lax_cond` (`gen_repo/impl/utils.py:42-47`, a `lax.cond` between two
values already computed) uses the selected one only.
-/
namespace Verif.Spec
open Verif.Py Verif.Model

noncomputable section

/-- Where a one-argument function is defined. -/
def dom1 (f : Fn1) (x : ℝ) : Prop :=
  match f with
  | .log => 0 < x
  | .sqrt => 0 ≤ x
  | .arctanh => -1 < x ∧ x < 1
  | .lambertw => -Real.exp (-1) ≤ x
  | .e1Scaled => 0 < x
  | _ => True

/-- Where `x ** y` is defined. -/
def domPow (x y : ℝ) : Prop := 0 < x ∨ (x = 0 ∧ 0 ≤ y) ∨ (x < 0 ∧ ∃ n : ℤ, y = n)

/-- The number, if the value is a number. -/
def sNum : Option Val → Option ℝ
  | some (.num x) => some x
  | _ => none

/-- The truth value, if the value is a truth value. -/
def sBool : Option Val → Option Prop
  | some (.bool b) => some b
  | _ => none

open Classical in
/-- The value of an expression in strict arithmetic; `T` holds the values of the temporaries. -/
def seval (P : Prims) (E : Env) (T : Nat → Option Val) : Expr → Option Val
  | .num m e => some (.num ((m : ℝ) * (10 : ℝ) ^ e))
  | .pi => some (.num Real.pi)
  | .inp i => match E.inp i with
    | .ok x => some (.num x)
    | .error _ => none
  | .fld f => some (.num (E.fld f))
  | .param c => some (.num (E.param c))
  | .tmp n => T n
  | .neg a => do
    let x ← sNum (seval P E T a)
    some (.num (-x))
  | .add a b => do
    let x ← sNum (seval P E T a)
    let y ← sNum (seval P E T b)
    some (.num (x + y))
  | .sub a b => do
    let x ← sNum (seval P E T a)
    let y ← sNum (seval P E T b)
    some (.num (x - y))
  | .mul a b => do
    let x ← sNum (seval P E T a)
    let y ← sNum (seval P E T b)
    some (.num (x * y))
  | .div a b => do
    let x ← sNum (seval P E T a)
    let y ← sNum (seval P E T b)
    if y = 0 then none else some (.num (x / y))
  | .pow a b => do
    let x ← sNum (seval P E T a)
    let y ← sNum (seval P E T b)
    if domPow x y then some (.num (x ^ y)) else none
  | .le a b => do
    let x ← sNum (seval P E T a)
    let y ← sNum (seval P E T b)
    some (.bool (x ≤ y))
  | .lt a b => do
    let x ← sNum (seval P E T a)
    let y ← sNum (seval P E T b)
    some (.bool (x < y))
  | .eq a b => do
    let x ← sNum (seval P E T a)
    let y ← sNum (seval P E T b)
    some (.bool (x = y))
  | .lor a b => do
    let x ← sBool (seval P E T a)
    let y ← sBool (seval P E T b)
    some (.bool (x ∨ y))
  | .land a b => do
    let x ← sBool (seval P E T a)
    let y ← sBool (seval P E T b)
    some (.bool (x ∧ y))
  | .cond c a b => do
    let z ← sBool (seval P E T c)
    let x ← sNum (if z then seval P E T a else seval P E T b)
    some (.num x)
  | .call1 f a => do
    let x ← sNum (seval P E T a)
    if dom1 f x then some (.num (fn1Val P f x)) else none
  | .call2 f a b => do
    let x ← sNum (seval P E T a)
    let y ← sNum (seval P E T b)
    some (.num (fn2Val P f x y))
  | .undef _ => none

/-- Run the assignments. -/
def sexec (P : Prims) (E : Env) : List (Nat × Expr) → (Nat → Option Val) → Nat → Option Val
  | [], T => T
  | (n, e) :: r, T => sexec P E r (Function.update T n (seval P E T e))

/-- The strict value of a formula body. -/
def srun (P : Prims) (E : Env) (p : Prog) : Option ℝ := sNum (seval P E (sexec P E p.body fun _ => none) p.res)

/-- The strict value of `pol(p, r, s, l, tau)`. -/
def polStrict (P : Prims) (f : Formula) (p : Rec) (r : ℝ × ℝ) (s : Option (ℝ × ℝ × ℝ)) (l tau : Option (ℝ × ℝ)) : Option ℝ :=
  srun P (polEnv p r s l tau) f.polBody

/-- The strict value of `unpol(p, r, s, l, tau)`. -/
def unpolStrict (P : Prims) (f : Formula) (p : Rec) (r : ℝ) (s l tau : Option ℝ) : Option ℝ :=
  srun P (unpolEnv p r s l tau) f.unpolBody

/-! ## Not a number

The strict semantics does not tell `inf` from `nan`.  The following one does, as in IEEE 754 with exact arithmetic: `0 / 0`, `0 * inf`, `inf / inf`, the logarithm and
the square root of a negative number are `nan`; `nan` goes through arithmetic and makes comparisons false.  The sign of an infinity is not tracked; what depends on it
is `wild`, and so is everything else that is not modelled. -/

/-- A value, an infinity, `nan`, or something that is not modelled. -/
inductive NVal
  | val (v : Val)
  | inf
  | nan
  | wild

/-- Sum or difference. -/
def nAdd (f : ℝ → ℝ → ℝ) : NVal → NVal → NVal
  | .nan, _ => .nan
  | _, .nan => .nan
  | .val (.num x), .val (.num y) => .val (.num (f x y))
  | .inf, .val (.num _) => .inf
  | .val (.num _), .inf => .inf
  | _, _ => .wild

open Classical in
/-- Product. -/
def nMul : NVal → NVal → NVal
  | .nan, _ => .nan
  | _, .nan => .nan
  | .val (.num x), .val (.num y) => .val (.num (x * y))
  | .inf, .val (.num y) => if y = 0 then .nan else .inf
  | .val (.num x), .inf => if x = 0 then .nan else .inf
  | .inf, .inf => .inf
  | _, _ => .wild

open Classical in
/-- Quotient. -/
def nDiv : NVal → NVal → NVal
  | .nan, _ => .nan
  | _, .nan => .nan
  | .val (.num x), .val (.num y) => if y = 0 then (if x = 0 then .nan else .inf) else .val (.num (x / y))
  | .inf, .val (.num _) => .inf
  | .val (.num _), .inf => .val (.num 0)
  | .inf, .inf => .nan
  | _, _ => .wild

/-- A comparison: false if a side is `nan`. -/
def nCmp (f : ℝ → ℝ → Prop) : NVal → NVal → NVal
  | .nan, .nan => .val (.bool False)
  | .nan, .val (.num _) => .val (.bool False)
  | .val (.num _), .nan => .val (.bool False)
  | .val (.num x), .val (.num y) => .val (.bool (f x y))
  | _, _ => .wild

/-- A connective. -/
def nBool (f : Prop → Prop → Prop) : NVal → NVal → NVal
  | .val (.bool x), .val (.bool y) => .val (.bool (f x y))
  | _, _ => .wild

/-- A truth value is not a number. -/
def nNum : NVal → NVal
  | .val (.bool _) => .wild
  | v => v

open Classical in
/-- `x ** y`; `nan ** y` is `nan` unless `y` is zero. -/
def nPow : NVal → NVal → NVal
  | .val (.num x), .val (.num y) => if domPow x y then .val (.num (x ^ y)) else .wild
  | .nan, .val (.num y) => if y = 0 then .wild else .nan
  | .nan, .nan => .nan
  | _, _ => .wild

open Classical in
/-- One-argument functions (nothing is said of `lambertw` and `xc_E1_scaled` at `nan`, nor of any function at an infinity). -/
def nFn1 (P : Prims) (f : Fn1) (a : NVal) : NVal :=
  match f, a with
  | .lambertw, .nan => .wild
  | .e1Scaled, .nan => .wild
  | _, .nan => .nan
  | .log, .val (.num x) => if 0 < x then .val (.num (Real.log x)) else if x < 0 then .nan else .wild
  | .sqrt, .val (.num x) => if 0 ≤ x then .val (.num (Real.sqrt x)) else .nan
  | f, .val (.num x) => if dom1 f x then .val (.num (fn1Val P f x)) else .wild
  | _, _ => .wild

open Classical in
/-- The value of an expression with `nan`; `T` holds the values of the temporaries. -/
def neval (P : Prims) (E : Env) (T : Nat → NVal) : Expr → NVal
  | .num m e => .val (.num ((m : ℝ) * (10 : ℝ) ^ e))
  | .pi => .val (.num Real.pi)
  | .inp i => match E.inp i with
    | .ok x => .val (.num x)
    | .error _ => .wild
  | .fld f => .val (.num (E.fld f))
  | .param c => .val (.num (E.param c))
  | .tmp n => T n
  | .neg a => match neval P E T a with
    | .val (.num x) => .val (.num (-x))
    | .val (.bool _) => .wild
    | v => v
  | .add a b => nAdd (· + ·) (neval P E T a) (neval P E T b)
  | .sub a b => nAdd (· - ·) (neval P E T a) (neval P E T b)
  | .mul a b => nMul (neval P E T a) (neval P E T b)
  | .div a b => nDiv (neval P E T a) (neval P E T b)
  | .pow a b => nPow (neval P E T a) (neval P E T b)
  | .le a b => nCmp (· ≤ ·) (neval P E T a) (neval P E T b)
  | .lt a b => nCmp (· < ·) (neval P E T a) (neval P E T b)
  | .eq a b => nCmp (· = ·) (neval P E T a) (neval P E T b)
  | .lor a b => nBool (· ∨ ·) (neval P E T a) (neval P E T b)
  | .land a b => nBool (· ∧ ·) (neval P E T a) (neval P E T b)
  | .cond c a b => match neval P E T c with
    | .val (.bool z) => nNum (if z then neval P E T a else neval P E T b)
    | _ => .wild
  | .call1 f a => nFn1 P f (neval P E T a)
  | .call2 f a b => match neval P E T a, neval P E T b with
    | .val (.num x), .val (.num y) => .val (.num (fn2Val P f x y))
    | _, _ => .wild
  | .undef _ => .wild

/-- Run the assignments. -/
def nexec (P : Prims) (E : Env) : List (Nat × Expr) → (Nat → NVal) → Nat → NVal
  | [], T => T
  | (n, e) :: r, T => nexec P E r (Function.update T n (neval P E T e))

/-- The value of a formula body, with `nan`. -/
def nrun (P : Prims) (E : Env) (p : Prog) : NVal := neval P E (nexec P E p.body fun _ => .wild) p.res

/-! ## Claims -/

/-- What a definedness claim assumes besides positive densities and nonnegative gradients and kinetic energy densities. -/
structure Assume where
  /-- the gradient does not vanish -/
  sPos : Bool := false
  /-- the kinetic energy density does not vanish -/
  tPos : Bool := false
  /-- these external parameters are positive -/
  params : List String := []
  /-- these external parameters are negative -/
  neg : List String := []
  /-- these fields of the record are positive -/
  flds : List Fld := []
  /-- `zeta_threshold` is at most 1/10 (libxc sets it to the machine precision) -/
  zetaSmall : Bool := false
  /-- the kinetic energy density of each spin is at least that of von Weizsäcker, `|∇ρ|² ≤ 8 ρ τ` -/
  vw : Bool := false
  /-- these external parameters are at most the given numbers -/
  le : List (String × ℚ) := []
  /-- these external parameters are at least the given numbers -/
  ge : List (String × ℚ) := []

/-- The assumptions about the record: thresholds as libxc sets them, signs of parameters. -/
structure Assume.Rec (a : Assume) (p : Model.Rec) : Prop where
  dens : 0 < p.fld .densThreshold
  zeta : 0 < p.fld .zetaThreshold
  zeta1 : p.fld .zetaThreshold < 1
  params : ∀ n ∈ a.params, 0 < p.param (nameCode n)
  neg : ∀ n ∈ a.neg, p.param (nameCode n) < 0
  flds : ∀ f ∈ a.flds, 0 < p.fld f
  zetaSmall : a.zetaSmall = true → p.fld .zetaThreshold ≤ 1 / 10
  le : ∀ x ∈ a.le, p.param (nameCode x.1) ≤ x.2
  ge : ∀ x ∈ a.ge, x.2 ≤ p.param (nameCode x.1)

/-- C49: the unpolarized code returns a number and no operation that contributes to it is outside its domain. -/
def DefinedUnpol (a : Assume) (fam : Fam) (f : Formula) : Prop :=
  ∀ (P : Prims) (p : Model.Rec) (ρ σ l τ : ℝ), a.Rec p → 0 < ρ → 0 ≤ σ → 0 ≤ τ → (a.sPos = true → 0 < σ) → (a.tPos = true → 0 < τ) →
    (a.vw = true → σ ≤ 8 * ρ * τ) →
    ∃ e, unpolStrict P f p ρ (fam.grad σ) (fam.meta l) (fam.meta τ) = some e ∧ f.unpol P p ρ (fam.grad σ) (fam.meta l) (fam.meta τ) = .ok e

/-- C49: the polarized code returns a number and no operation that contributes to it is outside its domain.  The total gradient
`|∇ρ↑ + ∇ρ↓|²` is not negative (C06). -/
def DefinedPol (a : Assume) (fam : Fam) (f : Formula) : Prop :=
  ∀ (P : Prims) (p : Model.Rec) (r0 r1 s0 s1 s2 l0 l1 t0 t1 : ℝ), a.Rec p → 0 < r0 → 0 < r1 → 0 ≤ s0 → 0 ≤ s2 → 0 ≤ s0 + 2 * s1 + s2 → 0 ≤ t0 → 0 ≤ t1 →
    (a.sPos = true → 0 < s0 ∧ 0 < s2 ∧ 0 < s0 + 2 * s1 + s2) → (a.tPos = true → 0 < t0 ∧ 0 < t1) →
    (a.vw = true → s0 ≤ 8 * r0 * t0 ∧ s2 ≤ 8 * r1 * t1) →
    ∃ e, polStrict P f p (r0, r1) (fam.grad (s0, s1, s2)) (fam.meta (l0, l1)) (fam.meta (t0, t1)) = some e ∧
      f.pol P p (r0, r1) (fam.grad (s0, s1, s2)) (fam.meta (l0, l1)) (fam.meta (t0, t1)) = .ok e

/-- C51: where there are electrons of one spin only, the polarized code returns a number and no operation that contributes to it is outside its domain. -/
def DefinedFull (a : Assume) (fam : Fam) (f : Formula) : Prop :=
  ∀ (P : Prims) (p : Model.Rec) (r s l t : ℝ), a.Rec p → p.fld .densThreshold < r → 0 < s → 0 < t →
    ∃ e, polStrict P f p (r, 0) (fam.grad (s, 0, 0)) (fam.meta (l, 0)) (fam.meta (t, 0)) = some e ∧
      f.pol P p (r, 0) (fam.grad (s, 0, 0)) (fam.meta (l, 0)) (fam.meta (t, 0)) = .ok e

/-- C51: where there are electrons of one spin only, the polarized code gives `nan`. -/
def NanFull (fam : Fam) (f : Formula) : Prop :=
  ∀ (P : Prims) (p : Model.Rec) (r s l t : ℝ), ({} : Assume).Rec p → p.fld .densThreshold < r ∧ 0 < s → 0 < t →
    nrun P (polEnv p (r, 0) (fam.grad (s, 0, 0)) (fam.meta (l, 0)) (fam.meta (t, 0))) f.polBody = .nan

/-- C50: wherever the gradient vanishes and the density is above the threshold, the unpolarized code gives `nan`.
With `tau0`, the kinetic energy density vanishes too; otherwise it is positive. -/
def NanUnpol (tau0 : Bool) (fam : Fam) (f : Formula) : Prop :=
  ∀ (P : Prims) (p : Model.Rec) (ρ l τ : ℝ), ({} : Assume).Rec p → p.fld .densThreshold < ρ / 2 → (if tau0 then τ = 0 else 0 < τ) →
    nrun P (unpolEnv p ρ (fam.grad 0) (fam.meta l) (fam.meta τ)) f.unpolBody = .nan

/-- C50: wherever the gradients of both spin densities vanish and both densities are above the threshold, the polarized code gives `nan`. -/
def NanPol (tau0 : Bool) (fam : Fam) (f : Formula) : Prop :=
  ∀ (P : Prims) (p : Model.Rec) (r0 r1 l0 l1 t0 t1 : ℝ), ({} : Assume).Rec p → p.fld .densThreshold < r0 → p.fld .densThreshold < r1 →
    (if tau0 then t0 = 0 ∧ t1 = 0 else 0 < t0 ∧ 0 < t1) →
    nrun P (polEnv p (r0, r1) (fam.grad (0, 0, 0)) (fam.meta (l0, l1)) (fam.meta (t0, t1))) f.polBody = .nan

end

end Verif.Spec
