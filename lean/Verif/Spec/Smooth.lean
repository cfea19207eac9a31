import Verif.Spec.Strict
import Mathlib.Analysis.Calculus.ContDiff.Defs
/-!
# Where a formula can be differentiated

Users differentiate energy densities (`jax.grad`, `tests/test_grad.py`).  This file says where that makes sense: the *regular* value of a formula exists where
every operation that contributes to it is inside the open set where it is smooth, and no comparison that contributes is between equal numbers (literals excepted).
-/
namespace Verif.Spec
open Verif.Py Verif.Model
open scoped ContDiff

noncomputable section

/-- The special functions that Mathlib does not define are smooth where they should be. -/
structure SmoothPrims (P : Prims) : Prop where
  erf : ContDiff ℝ ∞ P.erf
  erfc : ContDiff ℝ ∞ P.erfc
  i0 : ContDiff ℝ ∞ P.i0
  lambertw : ∀ x, -Real.exp (-1) < x → ContDiffAt ℝ ∞ P.lambertw x
  e1 : ∀ x, 0 < x → ContDiffAt ℝ ∞ P.e1 x
  arctan2 : ∀ x y, x ≠ 0 ∨ 0 < y → ContDiffAt ℝ ∞ (fun z : ℝ × ℝ => P.arctan2 z.1 z.2) (x, y)

/-- Where a one-argument function is smooth. -/
def reg1 (f : Fn1) (x : ℝ) : Prop :=
  match f with
  | .log => 0 < x
  | .sqrt => 0 < x
  | .cbrt => x ≠ 0
  | .abs => x ≠ 0
  | .heaviside => x ≠ 0
  | .arctanh => -1 < x ∧ x < 1
  | .lambertw => -Real.exp (-1) < x
  | .e1Scaled => 0 < x
  | _ => True

/-- The exponent is written as a natural number. -/
def NatLit (b : Expr) : Prop := ∃ (m : ℕ) (e : ℤ) (n : ℕ), b = .num m e ∧ (m : ℝ) * (10 : ℝ) ^ e = n

/-- Where `x ** y` is smooth (`b` is the text of the exponent). -/
def regPow (x y : ℝ) (b : Expr) : Prop := 0 < x ∨ (x < 0 ∧ ∃ n : ℤ, y = n) ∨ NatLit b

/-- The number, if the value is a number. -/
def rNum : Option Val → Option ℝ
  | some (.num x) => some x
  | _ => none

/-- The truth value, if the value is a truth value. -/
def rBool : Option Val → Option Prop
  | some (.bool b) => some b
  | _ => none

/-- Both sides of a comparison are literals, as in `0 < 0` (`gen_repo/impl/prebuilt/unpol/gga_c_w94.py`). -/
def literals : Expr → Expr → Prop
  | .num _ _, .num _ _ => True
  | _, _ => False

open Classical in
/-- The regular value of an expression; `T` holds those of the temporaries. -/
def reval (P : Prims) (E : Env) (T : Nat → Option Val) : Expr → Option Val
  | .num m e => some (.num ((m : ℝ) * (10 : ℝ) ^ e))
  | .pi => some (.num Real.pi)
  | .inp i => match E.inp i with
    | .ok x => some (.num x)
    | .error _ => none
  | .fld f => some (.num (E.fld f))
  | .param c => some (.num (E.param c))
  | .tmp n => T n
  | .neg a => do
    let x ← rNum (reval P E T a)
    some (.num (-x))
  | .add a b => do
    let x ← rNum (reval P E T a)
    let y ← rNum (reval P E T b)
    some (.num (x + y))
  | .sub a b => do
    let x ← rNum (reval P E T a)
    let y ← rNum (reval P E T b)
    some (.num (x - y))
  | .mul a b => do
    let x ← rNum (reval P E T a)
    let y ← rNum (reval P E T b)
    some (.num (x * y))
  | .div a b => do
    let x ← rNum (reval P E T a)
    let y ← rNum (reval P E T b)
    if y = 0 then none else some (.num (x / y))
  | .pow a b => do
    let x ← rNum (reval P E T a)
    let y ← rNum (reval P E T b)
    if regPow x y b then some (.num (x ^ y)) else none
  | .le a b => do
    let x ← rNum (reval P E T a)
    let y ← rNum (reval P E T b)
    if x = y ∧ ¬literals a b then none else some (.bool (x ≤ y))
  | .lt a b => do
    let x ← rNum (reval P E T a)
    let y ← rNum (reval P E T b)
    if x = y ∧ ¬literals a b then none else some (.bool (x < y))
  | .eq a b => do
    let x ← rNum (reval P E T a)
    let y ← rNum (reval P E T b)
    if x = y ∧ ¬literals a b then none else some (.bool (x = y))
  | .lor a b => do
    let x ← rBool (reval P E T a)
    let y ← rBool (reval P E T b)
    some (.bool (x ∨ y))
  | .land a b => do
    let x ← rBool (reval P E T a)
    let y ← rBool (reval P E T b)
    some (.bool (x ∧ y))
  | .cond c a b => do
    let z ← rBool (reval P E T c)
    let x ← rNum (if z then reval P E T a else reval P E T b)
    some (.num x)
  | .call1 f a => do
    let x ← rNum (reval P E T a)
    if reg1 f x then some (.num (fn1Val P f x)) else none
  | .call2 f a b => do
    let x ← rNum (reval P E T a)
    let y ← rNum (reval P E T b)
    if x ≠ 0 ∨ 0 < y then some (.num (fn2Val P f x y)) else none
  | .undef _ => none

/-- Run the assignments. -/
def rexec (P : Prims) (E : Env) : List (Nat × Expr) → (Nat → Option Val) → Nat → Option Val
  | [], T => T
  | (n, e) :: r, T => rexec P E r (Function.update T n (reval P E T e))

/-- The regular value of a formula body. -/
def rrun (P : Prims) (E : Env) (p : Prog) : Option ℝ := rNum (reval P E (rexec P E p.body fun _ => none) p.res)

/-- A formula is regular at these arguments (polarized code). -/
def PolRegular (P : Prims) (f : Formula) (p : Rec) (r : ℝ × ℝ) (s : Option (ℝ × ℝ × ℝ)) (l tau : Option (ℝ × ℝ)) : Prop :=
  (rrun P (polEnv p r s l tau) f.polBody).isSome

/-- A formula is regular at these arguments (unpolarized code). -/
def UnpolRegular (P : Prims) (f : Formula) (p : Rec) (r : ℝ) (s l tau : Option ℝ) : Prop :=
  (rrun P (unpolEnv p r s l tau) f.unpolBody).isSome

/-! ## Claims -/

/-- Some comparison in the expression is between equal numbers that are not both literals (whether it contributes to the value or not). -/
def tied (P : Prims) (E : Env) (T : Nat → Option Val) : Expr → Prop
  | .num _ _ => False
  | .pi => False
  | .inp _ => False
  | .fld _ => False
  | .param _ => False
  | .tmp _ => False
  | .undef _ => False
  | .neg a => tied P E T a
  | .call1 _ a => tied P E T a
  | .add a b => tied P E T a ∨ tied P E T b
  | .sub a b => tied P E T a ∨ tied P E T b
  | .mul a b => tied P E T a ∨ tied P E T b
  | .div a b => tied P E T a ∨ tied P E T b
  | .pow a b => tied P E T a ∨ tied P E T b
  | .lor a b => tied P E T a ∨ tied P E T b
  | .land a b => tied P E T a ∨ tied P E T b
  | .call2 _ a b => tied P E T a ∨ tied P E T b
  | .le a b => tied P E T a ∨ tied P E T b ∨ ¬literals a b ∧ ∃ x, seval P E T a = some (.num x) ∧ seval P E T b = some (.num x)
  | .lt a b => tied P E T a ∨ tied P E T b ∨ ¬literals a b ∧ ∃ x, seval P E T a = some (.num x) ∧ seval P E T b = some (.num x)
  | .eq a b => tied P E T a ∨ tied P E T b ∨ ¬literals a b ∧ ∃ x, seval P E T a = some (.num x) ∧ seval P E T b = some (.num x)
  | .cond c a b => tied P E T c ∨ tied P E T a ∨ tied P E T b

/-- Some comparison in the assignments is between equal numbers. -/
def tiedBody (P : Prims) (E : Env) : List (Nat × Expr) → (Nat → Option Val) → Prop
  | [], _ => False
  | (n, e) :: r, T => tied P E T e ∨ tiedBody P E r (Function.update T n (seval P E T e))

/-- Some comparison in the formula body is between equal numbers. -/
def Tied (P : Prims) (E : Env) (p : Prog) : Prop := tiedBody P E p.body (fun _ => none) ∨ tied P E (sexec P E p.body fun _ => none) p.res

/-- C52: wherever no comparison is between equal numbers, the unpolarized code is regular. -/
def RegularUnpol (a : Assume) (fam : Fam) (f : Formula) : Prop :=
  ∀ (P : Prims) (p : Model.Rec) (ρ σ l τ : ℝ), a.Rec p → 0 < ρ → 0 ≤ σ → 0 ≤ τ → (a.sPos = true → 0 < σ) → (a.tPos = true → 0 < τ) →
    ¬Tied P (unpolEnv p ρ (fam.grad σ) (fam.meta l) (fam.meta τ)) f.unpolBody → UnpolRegular P f p ρ (fam.grad σ) (fam.meta l) (fam.meta τ)

/-- C52: wherever no comparison is between equal numbers, the polarized code is regular. -/
def RegularPol (a : Assume) (fam : Fam) (f : Formula) : Prop :=
  ∀ (P : Prims) (p : Model.Rec) (r0 r1 s0 s1 s2 l0 l1 t0 t1 : ℝ), a.Rec p → 0 < r0 → 0 < r1 → 0 ≤ s0 → 0 ≤ s2 → 0 ≤ s0 + 2 * s1 + s2 → 0 ≤ t0 → 0 ≤ t1 →
    (a.sPos = true → 0 < s0 ∧ 0 < s2 ∧ 0 < s0 + 2 * s1 + s2) → (a.tPos = true → 0 < t0 ∧ 0 < t1) →
    ¬Tied P (polEnv p (r0, r1) (fam.grad (s0, s1, s2)) (fam.meta (l0, l1)) (fam.meta (t0, t1))) f.polBody →
    PolRegular P f p (r0, r1) (fam.grad (s0, s1, s2)) (fam.meta (l0, l1)) (fam.meta (t0, t1))

end

end Verif.Spec
