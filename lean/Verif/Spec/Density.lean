import Verif.Model.RhoArgs
import Mathlib.Analysis.Calculus.Gradient.Basic
import Mathlib.Analysis.InnerProductSpace.Laplacian
/-!
# The quantities of density functional theory, in textbook form
-/
namespace Verif.Spec
open Verif.Model InnerProductSpace

noncomputable section

/-- `∇f · ∇g` at `r`. -/
def gradDot {n : ℕ} (f g : Coord n → ℝ) (r : Coord n) : ℝ := inner ℝ (gradient f r) (gradient g r)

/-- `|∇f|²` at `r`. -/
def gradSq {n : ℕ} (f : Coord n → ℝ) (r : Coord n) : ℝ := ‖gradient f r‖ ^ 2

/-- The Laplacian of `f` at `r` (Mathlib's, basis free). -/
def lapl {n : ℕ} (f : Coord n → ℝ) (r : Coord n) : ℝ := Laplacian.laplacian f r

/-- The kinetic energy density `½ Σ_k Σ_i |∂_i φ_k|²` of a family of orbitals at `r`. -/
def kinetic {n : ℕ} {ι : Type} [Fintype ι] (φ : ι → Coord n → ℂ) (r : Coord n) : ℝ :=
  (1 / 2) * ∑ k, ∑ i : Fin n, ‖fderiv ℝ (φ k) r (EuclideanSpace.single i 1)‖ ^ 2

/-- A density is smooth enough at `r` for its Laplacian to make sense. -/
def Twice {n : ℕ} (f : Coord n → ℝ) (r : Coord n) : Prop := ContDiffAt ℝ 2 f r

end

end Verif.Spec
