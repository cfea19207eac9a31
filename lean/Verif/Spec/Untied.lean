import Verif.Spec.Smooth
import Verif.Spec.Scaling
/-!
# Where comparisons are between equal numbers

C52 speaks about points where no comparison in a formula is between equal numbers.  The claims here are about formulas whose only comparisons are those with the two thresholds
(`dens_threshold`, `zeta_threshold`): they say where such a comparison can be between equal numbers.
-/
namespace Verif.Spec
open Verif.Py Verif.Model

/-- C63: a comparison in the unpolarized code is between equal numbers only at `ρ / 2 = dens_threshold`. -/
def UntiedUnpol (fam : Fam) (f : Formula) : Prop :=
  ∀ (P : Prims) (p : Rec) (ρ σ l τ : ℝ), Thresholds p → 0 < ρ → 0 ≤ σ → 0 ≤ τ → p.fld .zetaThreshold < 1 → ρ / 2 ≠ p.fld .densThreshold →
    ¬Tied P (unpolEnv p ρ (fam.grad σ) (fam.meta l) (fam.meta τ)) f.unpolBody

/-- C63: above the thresholds, no comparison in the polarized code is between equal numbers. -/
def UntiedPol (fam : Fam) (f : Formula) : Prop :=
  ∀ (P : Prims) (p : Rec) (r0 r1 s0 s1 s2 l0 l1 t0 t1 : ℝ), Thresholds p → 0 < r0 → 0 < r1 → 0 ≤ s0 → 0 ≤ s2 → 0 ≤ t0 → 0 ≤ t1 → Unscreened p r0 r1 →
    ¬Tied P (polEnv p (r0, r1) (fam.grad (s0, s1, s2)) (fam.meta (l0, l1)) (fam.meta (t0, t1))) f.polBody

end Verif.Spec
