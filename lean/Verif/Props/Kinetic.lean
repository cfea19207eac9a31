import Verif.Lib.Demo
import Mathlib.LinearAlgebra.UnitaryGroup
import Mathlib.Analysis.Calculus.FDeriv.Mul
import Mathlib.Analysis.InnerProductSpace.Calculus
/-!
# C08, C09: the kinetic energy density

That the value passed to mGGA formulas is `kinetic` is `c05_mgga_unpolarized`, `c05_mgga_polarized`.
-/
namespace Verif.Props
open Verif.Py Verif.Model Verif.Spec Verif.Lib InnerProductSpace

variable {n : ℕ} {ι κ : Type} [Fintype ι] [Fintype κ]

/-- C08: `τ ≥ 0`. -/
theorem c08_nonneg (φ : ι → Coord n → ℂ) (r : Coord n) : 0 ≤ kinetic φ r := by
  unfold kinetic; positivity

/-- C08: additive over orbitals. -/
theorem c08_additive (φ : ι → Coord n → ℂ) (ψ : κ → Coord n → ℂ) (r : Coord n) : kinetic (Sum.elim φ ψ) r = kinetic φ r + kinetic ψ r := by
  unfold kinetic
  rw [Fintype.sum_sum_type, mul_add]
  rfl

/-- C08: a single orbital contributes half its squared gradient; `τ` is the sum of these. -/
theorem c08_single (φ : Coord n → ℂ) (r : Coord n) :
    kinetic (fun _ : Unit => φ) r = (∑ i : Fin n, ‖fderiv ℝ φ r (EuclideanSpace.single i 1)‖ ^ 2) / 2 := by
  unfold kinetic; simp; ring

/-- A unitary matrix preserves the sum of squares. -/
theorem sum_sq_unitary [DecidableEq ι] (U : Matrix ι ι ℂ) (hU : U ∈ Matrix.unitaryGroup ι ℂ) (d : ι → ℂ) :
    ∑ k, ‖∑ j, U k j * d j‖ ^ 2 = ∑ k, ‖d k‖ ^ 2 := by
  have key : ∀ v : ι → ℂ, ((∑ k, ‖v k‖ ^ 2 : ℝ) : ℂ) = star v ⬝ᵥ v := fun v => by
    simp only [dotProduct, Pi.star_apply, Complex.ofReal_sum, RCLike.star_def]
    exact Finset.sum_congr rfl fun k _ => by rw [← Complex.normSq_eq_conj_mul_self, Complex.normSq_eq_norm_sq]
  have h1 := key (U.mulVec d)
  have h2 : star (U.mulVec d) ⬝ᵥ U.mulVec d = star d ⬝ᵥ d := by
    rw [Matrix.star_mulVec, Matrix.dotProduct_mulVec, Matrix.vecMul_vecMul, ← Matrix.star_eq_conjTranspose,
      (Matrix.mem_unitaryGroup_iff'.1 hU), Matrix.vecMul_one]
  rw [h2, ← key] at h1
  exact_mod_cast h1

/-- C08: `τ` does not change when the orbitals are rotated among each other by a unitary matrix. -/
theorem c08_unitary [DecidableEq ι] (U : Matrix ι ι ℂ) (hU : U ∈ Matrix.unitaryGroup ι ℂ) (φ : ι → Coord n → ℂ) (r : Coord n)
    (hφ : ∀ k, DifferentiableAt ℝ (φ k) r) : kinetic (fun k x => ∑ j, U k j * φ j x) r = kinetic φ r := by
  unfold kinetic
  congr 1
  refine Finset.sum_comm.trans (Eq.trans ?_ Finset.sum_comm)
  refine Finset.sum_congr rfl fun i _ => ?_
  refine Eq.trans ?_ (sum_sq_unitary U hU _)
  refine Finset.sum_congr rfl fun k _ => ?_
  rw [fderiv_fun_sum (fun j _ => (hφ j).const_mul _), _root_.sum_apply]
  congr 2
  refine Finset.sum_congr rfl fun j _ => ?_
  rw [fderiv_const_mul (hφ j)]
  rfl

/-- C09: the von Weizsäcker bound `|∇ρ|² ≤ 8 ρ τ` for the density of the orbitals. -/
theorem c09_von_weizsaecker (φ : ι → Coord n → ℂ) (r : Coord n) (hφ : ∀ k, DifferentiableAt ℝ (φ k) r) :
    gradSq (fun x => ∑ k, ‖φ k x‖ ^ 2) r ≤ 8 * (∑ k, ‖φ k r‖ ^ 2) * kinetic φ r := by
  set ρ : Coord n → ℝ := fun x => ∑ k, ‖φ k x‖ ^ 2
  have hd : ∀ v, fderiv ℝ ρ r v = ∑ k, 2 * inner ℝ (φ k r) (fderiv ℝ (φ k) r v) := fun v => by
    have : fderiv ℝ ρ r = ∑ k, 2 • (innerSL ℝ (φ k r)).comp (fderiv ℝ (φ k) r) := by
      refine HasFDerivAt.fderiv ?_
      exact HasFDerivAt.fun_sum fun k _ => (hφ k).hasFDerivAt.norm_sq
    rw [this, _root_.sum_apply]
    refine Finset.sum_congr rfl fun k _ => ?_
    simp
    ring
  have hi : ∀ v, (fderiv ℝ ρ r v) ^ 2 ≤ 4 * ((∑ k, ‖φ k r‖ ^ 2) * ∑ k, ‖fderiv ℝ (φ k) r v‖ ^ 2) := fun v => by
    rw [hd, ← Finset.mul_sum, mul_pow]
    have h1 : |∑ k, inner ℝ (φ k r) (fderiv ℝ (φ k) r v)| ≤ ∑ k, ‖φ k r‖ * ‖fderiv ℝ (φ k) r v‖ :=
      (Finset.abs_sum_le_sum_abs _ _).trans (Finset.sum_le_sum fun k _ => abs_real_inner_le_norm _ _)
    have h2 : (∑ k, inner ℝ (φ k r) (fderiv ℝ (φ k) r v)) ^ 2 ≤ (∑ k, ‖φ k r‖ * ‖fderiv ℝ (φ k) r v‖) ^ 2 := by
      rw [← sq_abs]; exact pow_le_pow_left₀ (abs_nonneg _) h1 2
    have h3 := Finset.sum_mul_sq_le_sq_mul_sq Finset.univ (fun k => ‖φ k r‖) (fun k => ‖fderiv ℝ (φ k) r v‖)
    linarith [h2.trans h3]
  have hs : gradSq ρ r = ∑ i : Fin n, (fderiv ℝ ρ r (EuclideanSpace.single i 1)) ^ 2 := by
    rw [← gradDot_self, gradDot, ← sum_eyeRow]
    refine Finset.sum_congr rfl fun i _ => ?_
    rw [fderiv_eq_inner, sq]; rfl
  rw [hs]
  refine (Finset.sum_le_sum fun i _ => hi _).trans (le_of_eq ?_)
  rw [← Finset.mul_sum, ← Finset.mul_sum]
  unfold kinetic
  rw [Finset.sum_comm]
  ring

/-- Instance: two orbitals `x₀` and `i x₀`; here `ρ = 2 x₀²`, `τ = 1`, `|∇ρ|² = 16 x₀² = 8 ρ τ`: the bound is attained. -/
example (r : Coord 3) := c09_von_weizsaecker (orb (Demo.orbs [2] 2) 2) r (fun k => by
  have h : DifferentiableAt ℝ (fun x : Coord 3 => ((x 0 : ℝ) : ℂ)) r :=
    Complex.ofRealCLM.differentiableAt.comp r (EuclideanSpace.proj (𝕜 := ℝ) (0 : Fin 3)).differentiableAt
  fin_cases k
  · exact h
  · exact h.const_mul Complex.I)

end Verif.Props
