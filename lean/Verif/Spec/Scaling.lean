import Verif.Spec.Formula
/-!
# What is claimed of single formulas away from or below the thresholds
-/
namespace Verif.Spec
open Verif.Py Verif.Model

/-- Above all thresholds: each spin density exceeds `dens_threshold`, and its share of the total exceeds `zeta_threshold` (which is below 1). -/
structure Unscreened (p : Rec) (r0 r1 : ℝ) : Prop where
  zeta : p.fld .zetaThreshold < 1
  dens0 : p.fld .densThreshold < r0
  dens1 : p.fld .densThreshold < r1
  share0 : p.fld .zetaThreshold * (r0 + r1) < 2 * r0
  share1 : p.fld .zetaThreshold * (r0 + r1) < 2 * r1

/-- C37: the spin-scaling relation `E[ρ↑, ρ↓] = (E[2ρ↑] + E[2ρ↓])/2`, for energies per volume. -/
def SpinScaling (fam : Fam) (f : Formula) : Prop :=
  ∀ (P : Prims) (p : Rec) (r0 r1 s0 s1 s2 l0 l1 t0 t1 : ℝ), Thresholds p → 0 < r0 → 0 < r1 → 0 ≤ s0 → 0 ≤ s2 → 0 ≤ t0 → 0 ≤ t1 →
    Unscreened p r0 r1 →
    ∃ e e0 e1, f.pol P p (r0, r1) (fam.grad (s0, s1, s2)) (fam.meta (l0, l1)) (fam.meta (t0, t1)) = .ok e ∧
      f.unpol P p (2 * r0) (fam.grad (4 * s0)) (fam.meta (2 * l0)) (fam.meta (2 * t0)) = .ok e0 ∧
      f.unpol P p (2 * r1) (fam.grad (4 * s2)) (fam.meta (2 * l1)) (fam.meta (2 * t1)) = .ok e1 ∧
      (r0 + r1) * e = r0 * e0 + r1 * e1

/-- C38: behaviour of the polarized code under a change of the unit of length by the factor `x⁻¹` in `dim` space dimensions, away from the
density threshold: the energy per particle is multiplied by `x^k`. -/
def UniformScaling (dim k : ℕ) (fam : Fam) (f : Formula) : Prop :=
  ∀ (P : Prims) (p : Rec) (x r0 r1 s0 s1 s2 l0 l1 t0 t1 : ℝ), Thresholds p → 0 < x → 0 < r0 → 0 < r1 → 0 ≤ s0 → 0 ≤ s2 → 0 ≤ t0 → 0 ≤ t1 →
    p.fld .zetaThreshold < 1 → p.fld .densThreshold < r0 → p.fld .densThreshold < r1 →
    p.fld .densThreshold < x ^ dim * r0 → p.fld .densThreshold < x ^ dim * r1 →
    ∃ e, f.pol P p (r0, r1) (fam.grad (s0, s1, s2)) (fam.meta (l0, l1)) (fam.meta (t0, t1)) = .ok e ∧
      f.pol P p (x ^ dim * r0, x ^ dim * r1) (fam.grad (x ^ (2 * dim + 2) * s0, x ^ (2 * dim + 2) * s1, x ^ (2 * dim + 2) * s2))
        (fam.meta (x ^ (dim + 2) * l0, x ^ (dim + 2) * l1)) (fam.meta (x ^ (dim + 2) * t0, x ^ (dim + 2) * t1)) = .ok (x ^ k * e)

/-- C38 for the unpolarized code. -/
def UniformScalingUnpol (dim k : ℕ) (fam : Fam) (f : Formula) : Prop :=
  ∀ (P : Prims) (p : Rec) (x r s l t : ℝ), Thresholds p → 0 < x → 0 < r → 0 ≤ s → 0 ≤ t →
    p.fld .zetaThreshold < 1 → p.fld .densThreshold < r / 2 → p.fld .densThreshold < x ^ dim * r / 2 →
    ∃ e, f.unpol P p r (fam.grad s) (fam.meta l) (fam.meta t) = .ok e ∧
      f.unpol P p (x ^ dim * r) (fam.grad (x ^ (2 * dim + 2) * s)) (fam.meta (x ^ (dim + 2) * l)) (fam.meta (x ^ (dim + 2) * t)) = .ok (x ^ k * e)

/-- C42: if both spin densities are at or below `dens_threshold` the energy is zero. -/
def ScreenedBoth (fam : Fam) (f : Formula) : Prop :=
  ∀ (P : Prims) (p : Rec) (r0 r1 s0 s1 s2 l0 l1 t0 t1 : ℝ), Thresholds p → 0 < r0 → 0 < r1 → 0 ≤ s0 → 0 ≤ s2 → 0 ≤ t0 → 0 ≤ t1 →
    r0 ≤ p.fld .densThreshold → r1 ≤ p.fld .densThreshold →
    f.pol P p (r0, r1) (fam.grad (s0, s1, s2)) (fam.meta (l0, l1)) (fam.meta (t0, t1)) = .ok 0

/-- C42: if one spin density is at or below `dens_threshold` then the gradient, Laplacian and kinetic energy density of that spin do not matter. -/
def ScreenedOne (fam : Fam) (f : Formula) : Prop :=
  ∀ (P : Prims) (p : Rec) (r0 r1 s0 s1 s2 l0 l1 t0 t1 : ℝ), Thresholds p → 0 < r0 → 0 < r1 → 0 ≤ s0 → 0 ≤ s2 → 0 ≤ t0 → 0 ≤ t1 →
    (r1 ≤ p.fld .densThreshold → ∀ s1' s2' l1' t1', 0 ≤ s2' → 0 ≤ t1' →
      ∃ e, f.pol P p (r0, r1) (fam.grad (s0, s1, s2)) (fam.meta (l0, l1)) (fam.meta (t0, t1)) = .ok e ∧
        f.pol P p (r0, r1) (fam.grad (s0, s1', s2')) (fam.meta (l0, l1')) (fam.meta (t0, t1')) = .ok e) ∧
    (r0 ≤ p.fld .densThreshold → ∀ s0' s1' l0' t0', 0 ≤ s0' → 0 ≤ t0' →
      ∃ e, f.pol P p (r0, r1) (fam.grad (s0, s1, s2)) (fam.meta (l0, l1)) (fam.meta (t0, t1)) = .ok e ∧
        f.pol P p (r0, r1) (fam.grad (s0', s1', s2)) (fam.meta (l0', l1)) (fam.meta (t0', t1)) = .ok e)

/-- C42: what remains if one spin density is at or below `dens_threshold` is exactly the term of the other spin in C37. -/
def ScreenedRest (fam : Fam) (f : Formula) : Prop :=
  ∀ (P : Prims) (p : Rec) (r0 r1 s0 s1 s2 l0 l1 t0 t1 : ℝ), Thresholds p → 0 < r0 → 0 < r1 → 0 ≤ s0 → 0 ≤ s2 → 0 ≤ t0 → 0 ≤ t1 →
    p.fld .zetaThreshold < 1 → p.fld .zetaThreshold * (r0 + r1) < 2 * r0 → p.fld .zetaThreshold * (r0 + r1) < 2 * r1 →
    (r1 ≤ p.fld .densThreshold → p.fld .densThreshold < r0 →
      ∃ e e0, f.pol P p (r0, r1) (fam.grad (s0, s1, s2)) (fam.meta (l0, l1)) (fam.meta (t0, t1)) = .ok e ∧
        f.unpol P p (2 * r0) (fam.grad (4 * s0)) (fam.meta (2 * l0)) (fam.meta (2 * t0)) = .ok e0 ∧ (r0 + r1) * e = r0 * e0) ∧
    (r0 ≤ p.fld .densThreshold → p.fld .densThreshold < r1 →
      ∃ e e1, f.pol P p (r0, r1) (fam.grad (s0, s1, s2)) (fam.meta (l0, l1)) (fam.meta (t0, t1)) = .ok e ∧
        f.unpol P p (2 * r1) (fam.grad (4 * s2)) (fam.meta (2 * l1)) (fam.meta (2 * t1)) = .ok e1 ∧ (r0 + r1) * e = r1 * e1)

/-- C21 for `zeta_threshold < 1`. -/
def ClosedShellZ (fam : Fam) (f : Formula) : Prop :=
  ∀ (P : Prims) (p : Rec) (ρ σ l τ : ℝ), Thresholds p → p.fld .zetaThreshold < 1 → 0 < ρ → 0 ≤ σ → 0 ≤ τ →
    ∃ e, f.unpol P p ρ (fam.grad σ) (fam.meta l) (fam.meta τ) = .ok e ∧
      f.pol P p (ρ / 2, ρ / 2) (fam.grad (σ / 4, σ / 4, σ / 4)) (fam.meta (l / 2, l / 2)) (fam.meta (τ / 2, τ / 2)) = .ok e

/-- C22 for `zeta_threshold < 1`. -/
def SpinFlipZ (fam : Fam) (f : Formula) : Prop :=
  ∀ (P : Prims) (p : Rec) (r0 r1 s0 s1 s2 l0 l1 t0 t1 : ℝ), Thresholds p → p.fld .zetaThreshold < 1 →
    0 < r0 → 0 < r1 → 0 ≤ s0 → 0 ≤ s2 → 0 ≤ t0 → 0 ≤ t1 →
    ∃ e, f.pol P p (r0, r1) (fam.grad (s0, s1, s2)) (fam.meta (l0, l1)) (fam.meta (t0, t1)) = .ok e ∧
      f.pol P p (r1, r0) (fam.grad (s2, s1, s0)) (fam.meta (l1, l0)) (fam.meta (t1, t0)) = .ok e

end Verif.Spec
