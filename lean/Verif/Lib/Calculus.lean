import Verif.Spec.Density
/-!
# Calculus lemmas: the code's sums of partial derivatives and Mathlib's basis-free notions
-/
namespace Verif.Lib
open Verif.Model Verif.Spec InnerProductSpace

theorem fderiv_eq_inner {n : ℕ} (f : Coord n → ℝ) (r v : Coord n) : fderiv ℝ f r v = inner ℝ (gradient f r) v := by
  rw [← toDual_gradient, toDual_apply_apply]

theorem sum_eyeRow {n : ℕ} (u v : Coord n) : ∑ i, inner ℝ u (eyeRow i) * inner ℝ v (eyeRow i) = inner ℝ u v := by
  have h := (EuclideanSpace.basisFun (Fin n) ℝ).sum_inner_mul_inner u v
  rw [← h]
  refine Finset.sum_congr rfl fun i _ => ?_
  rw [EuclideanSpace.basisFun_apply, real_inner_comm v]
  rfl

theorem jacDot_eq {n : ℕ} (f : ArrFn n ℝ) (r : Coord n) (a b : List ℕ) :
    f.jacDot r a b = gradDot (fun x => f.ent x a) (fun x => f.ent x b) r := by
  unfold ArrFn.jacDot ArrFn.jacEnt gradDot
  rw [← sum_eyeRow]
  simp only [fderiv_eq_inner]

theorem gradDot_self {n : ℕ} (f : Coord n → ℝ) (r : Coord n) : gradDot f f r = gradSq f r := real_inner_self_eq_norm_sq _

theorem lapl_eq {n : ℕ} (f : ArrFn n ℝ) (r : Coord n) (idx : List ℕ) (h : Twice (fun x => f.ent x idx) r) :
    f.lapl r idx = lapl (fun x => f.ent x idx) r := by
  unfold ArrFn.lapl ArrFn.hvp ArrFn.jacEnt lapl
  rw [laplacian_eq_iteratedFDeriv_orthonormalBasis (fun x => f.ent x idx) (EuclideanSpace.basisFun (Fin n) ℝ)]
  refine Finset.sum_congr rfl fun i _ => ?_
  have hd : DifferentiableAt ℝ (fderiv ℝ (fun x => f.ent x idx)) r :=
    (ContDiffAt.fderiv_right (m := 1) h (by norm_num)).differentiableAt (by norm_num)
  rw [iteratedFDeriv_two_apply, fderiv_clm_apply hd (differentiableAt_const _)]
  simp [eyeRow]

theorem tau_eq {n N : ℕ} (f : ArrFn n ℂ) (r : Coord n) (pre : List ℕ) :
    f.tau r pre N = kinetic (fun (k : Fin N) x => f.ent x (pre ++ [(k : ℕ)])) r := by
  unfold ArrFn.tau kinetic ArrFn.jacEnt eyeRow
  rw [Finset.sum_range, div_eq_mul_inv, mul_comm, one_div]
  congr 1
  refine Finset.sum_congr rfl fun k _ => Finset.sum_congr rfl fun i _ => ?_
  rw [← Complex.normSq_eq_conj_mul_self, Complex.ofReal_re, Complex.normSq_eq_norm_sq]

end Verif.Lib
