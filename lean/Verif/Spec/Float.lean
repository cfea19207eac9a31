import Verif.Spec.Strict
/-!
# Formulas in floating-point arithmetic

`Verif.Py.Sem` and `Verif.Spec.Strict` compute with exact reals.  The code computes with floating-point numbers.  The relation below says which numbers a
floating-point evaluation may return: each literal, each arithmetic operation and each call of an elementary function returns a number within relative error `u` of
the exact result for the operands it was given (`u = 2^-53` for the correctly rounded operations of binary64; the theorems allow `u ≤ 2^-50`, which leaves elementary
functions an error of four units in the last place).  Natural numbers up to `2^53` and changes of sign are exact.  Inputs and fields of the record are floating-point numbers.

Two things are assumed by the relation.  No operation that contributes overflows or underflows: results are zero or between `2^-1022` and `2^1024` in absolute value.  And
comparisons come out as they do in exact arithmetic (they may not, very close to a threshold).
-/
namespace Verif.Spec
open Verif.Py Verif.Model

noncomputable section

/-- Zero, or in the range of the normal numbers of binary64. -/
def Normal (x : ℝ) : Prop := x = 0 ∨ (2 : ℝ) ^ (-1022 : ℤ) ≤ |x| ∧ |x| ≤ 2 ^ (1024 : ℤ)

/-- `z` is `x` rounded, with relative error at most `u`. -/
def Rnd (u x z : ℝ) : Prop := |z - x| ≤ u * |x| ∧ Normal z

/-- The values that a floating-point evaluation of an expression may return.  `T` holds the exact values of the temporaries, `F` those of the evaluation. -/
def fl (u : ℝ) (P : Prims) (E : Env) (T F : Nat → Option Val) : Expr → Val → Prop
  | .num m e, v => ∃ z, v = .num z ∧ Rnd u ((m : ℝ) * (10 : ℝ) ^ e) z ∧ ((∃ n : ℕ, n ≤ 2 ^ 53 ∧ (m : ℝ) * (10 : ℝ) ^ e = n) → z = (m : ℝ) * (10 : ℝ) ^ e)
  | .pi, v => ∃ z, v = .num z ∧ Rnd u Real.pi z
  | .inp i, v => ∃ x, E.inp i = .ok x ∧ Normal x ∧ v = .num x
  | .fld f, v => Normal (E.fld f) ∧ v = .num (E.fld f)
  | .param c, v => Normal (E.param c) ∧ v = .num (E.param c)
  | .tmp n, v => F n = some v
  | .neg a, v => ∃ x, fl u P E T F a (.num x) ∧ v = .num (-x)
  | .add a b, v => ∃ x y z, fl u P E T F a (.num x) ∧ fl u P E T F b (.num y) ∧ Rnd u (x + y) z ∧ v = .num z
  | .sub a b, v => ∃ x y z, fl u P E T F a (.num x) ∧ fl u P E T F b (.num y) ∧ Rnd u (x - y) z ∧ v = .num z
  | .mul a b, v => ∃ x y z, fl u P E T F a (.num x) ∧ fl u P E T F b (.num y) ∧ Rnd u (x * y) z ∧ v = .num z
  | .div a b, v => ∃ x y z, fl u P E T F a (.num x) ∧ fl u P E T F b (.num y) ∧ y ≠ 0 ∧ Rnd u (x / y) z ∧ v = .num z
  | .pow a b, v => ∃ x y z, fl u P E T F a (.num x) ∧ fl u P E T F b (.num y) ∧ domPow x y ∧ Rnd u (x ^ y) z ∧ v = .num z
  | .le a b, v => ∃ x y, fl u P E T F a (.num x) ∧ fl u P E T F b (.num y) ∧ v = .bool (x ≤ y)
  | .lt a b, v => ∃ x y, fl u P E T F a (.num x) ∧ fl u P E T F b (.num y) ∧ v = .bool (x < y)
  | .eq a b, v => ∃ x y, fl u P E T F a (.num x) ∧ fl u P E T F b (.num y) ∧ v = .bool (x = y)
  | .lor a b, v => ∃ x y, fl u P E T F a (.bool x) ∧ fl u P E T F b (.bool y) ∧ v = .bool (x ∨ y)
  | .land a b, v => ∃ x y, fl u P E T F a (.bool x) ∧ fl u P E T F b (.bool y) ∧ v = .bool (x ∧ y)
  | .cond c a b, v => ∃ p q : Prop, fl u P E T F c (.bool p) ∧ seval P E T c = some (.bool q) ∧ (p ↔ q) ∧ (p ∧ fl u P E T F a v ∨ ¬p ∧ fl u P E T F b v)
  | .call1 f a, v => ∃ x z, fl u P E T F a (.num x) ∧ dom1 f x ∧ Rnd u (fn1Val P f x) z ∧ v = .num z
  | .call2 f a b, v => ∃ x y z, fl u P E T F a (.num x) ∧ fl u P E T F b (.num y) ∧ Rnd u (fn2Val P f x y) z ∧ v = .num z
  | .undef _, _ => False

/-- `z` may be returned after the assignments.  A temporary whose evaluation returns no number (`nan`, an infinity) is left without a value. -/
def flRun (u : ℝ) (P : Prims) (E : Env) (res : Expr) (z : ℝ) : List (Nat × Expr) → (T F : Nat → Option Val) → Prop
  | [], T, F => fl u P E T F res (.num z)
  | (n, e) :: r, T, F => ∃ o : Option Val, (∀ v, o = some v → fl u P E T F e v) ∧ flRun u P E res z r (Function.update T n (seval P E T e)) (Function.update F n o)

/-- `z` may be returned by a floating-point evaluation of a formula body. -/
def FloatRun (u : ℝ) (P : Prims) (E : Env) (p : Prog) (z : ℝ) : Prop := flRun u P E p.res z p.body (fun _ => none) fun _ => none

/-- C61: every floating-point evaluation of the unpolarized code is within relative error `K u` of the exact value. -/
def AccurateUnpol (K : ℕ) (a : Assume) (fam : Fam) (f : Formula) : Prop :=
  ∀ (u : ℝ) (P : Prims) (p : Model.Rec) (ρ σ l τ : ℝ), 0 ≤ u → u ≤ 1 / 2 ^ 50 → a.Rec p → 0 < ρ → 0 ≤ σ → 0 ≤ τ → (a.sPos = true → 0 < σ) → (a.tPos = true → 0 < τ) →
    ∃ e, unpolStrict P f p ρ (fam.grad σ) (fam.meta l) (fam.meta τ) = some e ∧
      ∀ z, FloatRun u P (unpolEnv p ρ (fam.grad σ) (fam.meta l) (fam.meta τ)) f.unpolBody z → |z - e| ≤ K * u * |e|

/-- C61: the same for the polarized code. -/
def AccuratePol (K : ℕ) (a : Assume) (fam : Fam) (f : Formula) : Prop :=
  ∀ (u : ℝ) (P : Prims) (p : Model.Rec) (r0 r1 s0 s1 s2 l0 l1 t0 t1 : ℝ), 0 ≤ u → u ≤ 1 / 2 ^ 50 → a.Rec p → 0 < r0 → 0 < r1 → 0 ≤ s0 → 0 ≤ s2 → 0 ≤ s0 + 2 * s1 + s2 →
    0 ≤ t0 → 0 ≤ t1 → (a.sPos = true → 0 < s0 ∧ 0 < s2 ∧ 0 < s0 + 2 * s1 + s2) → (a.tPos = true → 0 < t0 ∧ 0 < t1) →
    ∃ e, polStrict P f p (r0, r1) (fam.grad (s0, s1, s2)) (fam.meta (l0, l1)) (fam.meta (t0, t1)) = some e ∧
      ∀ z, FloatRun u P (polEnv p (r0, r1) (fam.grad (s0, s1, s2)) (fam.meta (l0, l1)) (fam.meta (t0, t1))) f.polBody z → |z - e| ≤ K * u * |e|

/-- Between `2^-k` and `2^k`. -/
def InBox (k : ℕ) (x : ℝ) : Prop := 1 / 2 ^ k ≤ x ∧ x ≤ 2 ^ k

/-- Parameters are not larger than `2^q`; those that are assumed positive or negative are not smaller than `2^-q`. The thresholds are out of reach of densities between
`2^-k` and `2^k`. -/
structure Assume.BoxRec (a : Assume) (k q : ℕ) (p : Model.Rec) : Prop extends a.Rec p where
  zetaLe : p.fld .zetaThreshold ≤ 1 / 2 ^ (2 * k + 1)
  densLe : p.fld .densThreshold ≤ 1 / 2 ^ (k + 2)
  size : ∀ c, |p.param c| ≤ 2 ^ q
  par : ∀ n ∈ a.params, InBox q (p.param (nameCode n))
  npar : ∀ n ∈ a.neg, InBox q (-p.param (nameCode n))
  cam : ∀ f, |p.fld f| ≤ 2 ^ q
  camPos : ∀ f ∈ a.flds, InBox q (p.fld f)

/-- `x` is accurate: within relative error `K u`, or (`rel = false`) within absolute error `K u`. -/
def Close (rel : Bool) (K : ℕ) (u e z : ℝ) : Prop := |z - e| ≤ if rel then K * u * |e| else K * u

/-- C61: every floating-point evaluation of the unpolarized code is close to the exact value, for inputs between
`2^-k` and `2^k` and parameters between `2^-q` and `2^q`. -/
def AccurateUnpolBox (rel : Bool) (k q K : ℕ) (a : Assume) (fam : Fam) (f : Formula) : Prop :=
  ∀ (u : ℝ) (P : Prims) (p : Model.Rec) (ρ σ l τ : ℝ), 0 ≤ u → u ≤ 1 / 2 ^ 50 → a.BoxRec k q p → InBox k ρ → 0 ≤ σ → σ ≤ 2 ^ k → |l| ≤ 2 ^ k → 0 ≤ τ → τ ≤ 2 ^ k →
    (a.sPos = true → InBox k σ) → (a.tPos = true → InBox k τ) →
    ∃ e, unpolStrict P f p ρ (fam.grad σ) (fam.meta l) (fam.meta τ) = some e ∧
      ∀ z, FloatRun u P (unpolEnv p ρ (fam.grad σ) (fam.meta l) (fam.meta τ)) f.unpolBody z → Close rel K u e z

/-- C61: the same for the polarized code. -/
def AccuratePolBox (rel : Bool) (k q K : ℕ) (a : Assume) (fam : Fam) (f : Formula) : Prop :=
  ∀ (u : ℝ) (P : Prims) (p : Model.Rec) (r0 r1 s0 s1 s2 l0 l1 t0 t1 : ℝ), 0 ≤ u → u ≤ 1 / 2 ^ 50 → a.BoxRec k q p → InBox k r0 → InBox k r1 → 0 ≤ s0 → s0 ≤ 2 ^ k →
    |s1| ≤ 2 ^ k → 0 ≤ s2 → s2 ≤ 2 ^ k → 0 ≤ s0 + 2 * s1 + s2 → |l0| ≤ 2 ^ k → |l1| ≤ 2 ^ k → 0 ≤ t0 → t0 ≤ 2 ^ k → 0 ≤ t1 → t1 ≤ 2 ^ k →
    (a.sPos = true → InBox k s0 ∧ InBox k s2 ∧ 1 / 2 ^ k ≤ s0 + 2 * s1 + s2) → (a.tPos = true → InBox k t0 ∧ InBox k t1) →
    ∃ e, polStrict P f p (r0, r1) (fam.grad (s0, s1, s2)) (fam.meta (l0, l1)) (fam.meta (t0, t1)) = some e ∧
      ∀ z, FloatRun u P (polEnv p (r0, r1) (fam.grad (s0, s1, s2)) (fam.meta (l0, l1)) (fam.meta (t0, t1))) f.polBody z → Close rel K u e z

end

end Verif.Spec
