import Verif.Spec.Scaling
/-!
# The spin-scaling relation on the whole domain (C62)

C37 gives the spin-scaling relation away from the thresholds.  Here the thresholds are part of the claim: both density thresholds and the
polarization threshold, at which the formulas replace `ζ` by `±(1 - zeta_threshold)`.
-/
namespace Verif.Spec
open Verif.Py Verif.Model

noncomputable section

/-- `1 ± ζ = 2 r / (r + r')` with `ζ` kept in `[-(1 - zt), 1 - zt]`. -/
def keptShare (zt r r' : ℝ) : ℝ := max zt (min (2 - zt) (2 * r / (r + r')))

/-- `1 ± ζ = 2 r / (r + r')`, but at least `zt`. -/
def keptBelow (zt r r' : ℝ) : ℝ := max zt (2 * r / (r + r'))

/-- The factor at the term of a spin with density `r`: `(kept / (1 ± ζ)) ^ α`. -/
def keptFactor (share : ℝ → ℝ → ℝ → ℝ) (α zt r r' : ℝ) : ℝ := (share zt r r' / (2 * r / (r + r'))) ^ α

/-- C62: the energy per volume is a sum of a term for each spin; the term is half the unpolarized energy at twice the density of that spin
(which is zero if the spin density is at or below `dens_threshold`), times `(kept / (1 ± ζ)) ^ α`. -/
def FullSpinScaling (share : ℝ → ℝ → ℝ → ℝ) (α : ℝ) (fam : Fam) (f : Formula) : Prop :=
  ∀ (P : Prims) (p : Rec) (r0 r1 s0 s1 s2 l0 l1 t0 t1 : ℝ), Thresholds p → p.fld .zetaThreshold < 1 →
    0 < r0 → 0 < r1 → 0 ≤ s0 → 0 ≤ s2 → 0 ≤ t0 → 0 ≤ t1 →
    ∃ e e0 e1, f.pol P p (r0, r1) (fam.grad (s0, s1, s2)) (fam.meta (l0, l1)) (fam.meta (t0, t1)) = .ok e ∧
      f.unpol P p (2 * r0) (fam.grad (4 * s0)) (fam.meta (2 * l0)) (fam.meta (2 * t0)) = .ok e0 ∧
      f.unpol P p (2 * r1) (fam.grad (4 * s2)) (fam.meta (2 * l1)) (fam.meta (2 * t1)) = .ok e1 ∧
      (r0 + r1) * e = r0 * keptFactor share α (p.fld .zetaThreshold) r0 r1 * e0 + r1 * keptFactor share α (p.fld .zetaThreshold) r1 r0 * e1

end

end Verif.Spec
