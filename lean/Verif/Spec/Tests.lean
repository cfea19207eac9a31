import Verif.Model.Tests
import Verif.Spec.Scaling
import Mathlib.MeasureTheory.Integral.Pi
/-!
# What the helper functions of the tests are, and what the tests reach (C65, C66)
-/
namespace Verif.Spec
open Verif.Py Verif.Model

noncomputable section

/-- A Cartesian Gaussian: a positive multiple of `(x - c₀)^l₀ (y - c₁)^l₁ (z - c₂)^l₂ exp(-α |r - c|²)`. -/
def CartesianGaussian (c : Fin 3 → ℝ) (α : ℝ) (l : Fin 3 → ℕ) (φ : (Fin 3 → ℝ) → ℝ) : Prop :=
  ∃ C, 0 < C ∧ ∀ r, φ r = C * ((r 0 - c 0) ^ l 0 * (r 1 - c 1) ^ l 1 * (r 2 - c 2) ^ l 2) *
    Real.exp (-(α * ((r 0 - c 0) ^ 2 + (r 1 - c 1) ^ 2 + (r 2 - c 2) ^ 2)))

/-- The scalar product of two wave functions. -/
def overlap (φ ψ : (Fin 3 → ℝ) → ℝ) : ℝ := ∫ r, φ r * ψ r

/-- Thresholds that are not large (libxc: `dens_threshold` is mostly between 1e-25 and 1e-9, `zeta_threshold` is 2^-52). -/
structure SmallThresholds (p : Rec) : Prop extends Thresholds p where
  dens_le : p.fld .densThreshold ≤ 1 / 10 ^ 8
  zeta_le : p.fld .zetaThreshold ≤ 1 / 10 ^ 6

/-- Two formulas agree where no density and no polarization reaches its threshold. -/
structure AgreeAbove (fam : Fam) (f g : Formula) : Prop where
  polarized : ∀ (P : Prims) (p : Rec) (r0 r1 s0 s1 s2 l0 l1 t0 t1 : ℝ), Thresholds p → 0 < r0 → 0 < r1 → 0 ≤ s0 → 0 ≤ s2 → 0 ≤ t0 → 0 ≤ t1 → Unscreened p r0 r1 →
    f.pol P p (r0, r1) (fam.grad (s0, s1, s2)) (fam.meta (l0, l1)) (fam.meta (t0, t1)) = g.pol P p (r0, r1) (fam.grad (s0, s1, s2)) (fam.meta (l0, l1)) (fam.meta (t0, t1))
  unpolarized : ∀ (P : Prims) (p : Rec) (ρ σ l τ : ℝ), Thresholds p → 0 < ρ → 0 ≤ σ → 0 ≤ τ → p.fld .zetaThreshold < 1 → p.fld .densThreshold < ρ / 2 →
    f.unpol P p ρ (fam.grad σ) (fam.meta l) (fam.meta τ) = g.unpol P p ρ (fam.grad σ) (fam.meta l) (fam.meta τ)

/-- `tests/test_against_libxc.py` sees no difference between two formulas: they return the same at all points it may draw, for both of its densities. -/
structure SameInTest (fam : Fam) (f g : Formula) : Prop where
  polarized : ∀ (P : Prims) (p : Rec) (r : Coord 3) (s0 s1 s2 l0 l1 t0 t1 : ℝ), SmallThresholds p → TestPoint r → 0 ≤ s0 → 0 ≤ s2 → 0 ≤ t0 → 0 ≤ t1 →
    f.pol P p (rho3.ent r [0], rho3.ent r [1]) (fam.grad (s0, s1, s2)) (fam.meta (l0, l1)) (fam.meta (t0, t1)) =
      g.pol P p (rho3.ent r [0], rho3.ent r [1]) (fam.grad (s0, s1, s2)) (fam.meta (l0, l1)) (fam.meta (t0, t1))
  unpolarized : ∀ (P : Prims) (p : Rec) (r : Coord 3) (σ l τ : ℝ), SmallThresholds p → TestPoint r → 0 ≤ σ → 0 ≤ τ →
    f.unpol P p (rho1.ent r []) (fam.grad σ) (fam.meta l) (fam.meta τ) = g.unpol P p (rho1.ent r []) (fam.grad σ) (fam.meta l) (fam.meta τ)

end

end Verif.Spec
