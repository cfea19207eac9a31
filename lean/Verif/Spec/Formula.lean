import Verif.Model.Formula
/-!
# What is claimed of single formulas

These statements only mention calls of `pol` and `unpol`.
-/
namespace Verif.Spec
open Verif.Py Verif.Model

/-- The sign conditions under which formulas are compared: positive thresholds (libxc always sets positive ones). -/
structure Thresholds (p : Rec) : Prop where
  dens : 0 < p.fld .densThreshold
  zeta : 0 < p.fld .zetaThreshold

/-- C21: the unpolarized code on a closed shell agrees with the polarized code on its two equal halves, and neither raises. -/
def ClosedShell (fam : Fam) (f : Formula) : Prop :=
  ∀ (P : Prims) (p : Rec) (ρ σ l τ : ℝ), Thresholds p → 0 < ρ → 0 ≤ σ → 0 ≤ τ →
    ∃ e, f.unpol P p ρ (fam.grad σ) (fam.meta l) (fam.meta τ) = .ok e ∧
      f.pol P p (ρ / 2, ρ / 2) (fam.grad (σ / 4, σ / 4, σ / 4)) (fam.meta (l / 2, l / 2)) (fam.meta (τ / 2, τ / 2)) = .ok e

/-- C22: the polarized code does not change under exchange of the spin labels, and does not raise. -/
def SpinFlip (fam : Fam) (f : Formula) : Prop :=
  ∀ (P : Prims) (p : Rec) (r0 r1 s0 s1 s2 l0 l1 t0 t1 : ℝ), Thresholds p → 0 < r0 → 0 < r1 → 0 ≤ s0 → 0 ≤ s2 → 0 ≤ t0 → 0 ≤ t1 →
    ∃ e, f.pol P p (r0, r1) (fam.grad (s0, s1, s2)) (fam.meta (l0, l1)) (fam.meta (t0, t1)) = .ok e ∧
      f.pol P p (r1, r0) (fam.grad (s2, s1, s0)) (fam.meta (l1, l0)) (fam.meta (t1, t0)) = .ok e

/-- C35: the code never raises when called with the inputs of its family (whatever their values). -/
def NeverRaises (fam : Fam) (f : Formula) : Prop :=
  (∀ (P : Prims) (p : Rec) (r : ℝ × ℝ) (s : ℝ × ℝ × ℝ) (l tau : ℝ × ℝ), ∃ e, f.pol P p r (fam.grad s) (fam.meta l) (fam.meta tau) = .ok e) ∧
    ∀ (P : Prims) (p : Rec) (r s l tau : ℝ), ∃ e, f.unpol P p r (fam.grad s) (fam.meta l) (fam.meta tau) = .ok e

/-- C35: the code raises `NameError` whatever the inputs of its family are. -/
def AlwaysNameError (fam : Fam) (f : Formula) : Prop :=
  (∀ (P : Prims) (p : Rec) (r : ℝ × ℝ) (s : ℝ × ℝ × ℝ) (l tau : ℝ × ℝ), f.pol P p r (fam.grad s) (fam.meta l) (fam.meta tau) = .error .nameError) ∧
    ∀ (P : Prims) (p : Rec) (r s l tau : ℝ), f.unpol P p r (fam.grad s) (fam.meta l) (fam.meta tau) = .error .nameError

/-- C36: the polarized code does not depend on the cross term `∇ρ↑ · ∇ρ↓`. -/
def IgnoresCross (fam : Fam) (f : Formula) : Prop :=
  ∀ (P : Prims) (p : Rec) (r : ℝ × ℝ) (s0 s1 s1' s2 : ℝ) (l tau : ℝ × ℝ),
    f.pol P p r (fam.grad (s0, s1, s2)) (fam.meta l) (fam.meta tau) = f.pol P p r (fam.grad (s0, s1', s2)) (fam.meta l) (fam.meta tau)

/-- C36: the code does not depend on the Laplacian. -/
def IgnoresLapl (fam : Fam) (f : Formula) : Prop :=
  (∀ (P : Prims) (p : Rec) (r : ℝ × ℝ) (s : ℝ × ℝ × ℝ) (l l' tau : ℝ × ℝ),
    f.pol P p r (fam.grad s) (fam.meta l) (fam.meta tau) = f.pol P p r (fam.grad s) (fam.meta l') (fam.meta tau)) ∧
    ∀ (P : Prims) (p : Rec) (r s l l' tau : ℝ),
      f.unpol P p r (fam.grad s) (fam.meta l) (fam.meta tau) = f.unpol P p r (fam.grad s) (fam.meta l') (fam.meta tau)

/-- C44: the code does not depend on the kinetic energy density. -/
def IgnoresTau (fam : Fam) (f : Formula) : Prop :=
  (∀ (P : Prims) (p : Rec) (r : ℝ × ℝ) (s : ℝ × ℝ × ℝ) (l tau tau' : ℝ × ℝ),
    f.pol P p r (fam.grad s) (fam.meta l) (fam.meta tau) = f.pol P p r (fam.grad s) (fam.meta l) (fam.meta tau')) ∧
    ∀ (P : Prims) (p : Rec) (r s l tau tau' : ℝ),
      f.unpol P p r (fam.grad s) (fam.meta l) (fam.meta tau) = f.unpol P p r (fam.grad s) (fam.meta l) (fam.meta tau')

/-- Does the text contain the pattern? -/
def hasInfix (pat : List Char) : List Char → Bool
  | [] => pat.isEmpty
  | c :: cs => pat.isPrefixOf (c :: cs) || hasInfix pat cs

/-- Names of exchange and of kinetic-energy functionals, in libxc's naming scheme (`lda_x_…`, `mgga_k_…`). -/
def isExchange (name : String) : Bool := hasInfix "_x_".toList (name.toList ++ ['_']) || hasInfix "_k_".toList (name.toList ++ ['_'])

end Verif.Spec
