import Verif.Lib.Congr
import Verif.Lib.Demo
/-!
# C25, C26: rigid motions and semilocality
-/
namespace Verif.Props
open Verif.Py Verif.Model Verif.Spec Verif.Lib Topology

variable {n : ℕ} {P : Prims} {I : Impls} {g : GenInfo} {polarized : Bool} {p : PTree} {eps : EpsFn}

/-! ## C26 -/

theorem jacEnt_near {K : Type} [NormedAddCommGroup K] [NormedSpace ℝ K] {f f' : ArrFn n K} {r : Coord n} {i : List ℕ}
    (h : (f.ent · i) =ᶠ[𝓝 r] (f'.ent · i)) (j : Fin n) : (fun x => f.jacEnt x i j) =ᶠ[𝓝 r] fun x => f'.jacEnt x i j := by
  filter_upwards [h.fderiv (𝕜 := ℝ)] with x hx
  exact DFunLike.congr_fun hx _

theorem sameAt_near {rho rho' : ArrFn n ℝ} {r : Coord n} (hs : rho.shape = rho'.shape) (h : ∀ i, (rho.ent · i) =ᶠ[𝓝 r] (rho'.ent · i)) :
    SameAt rho rho' r r where
  shape := hs
  ent i := (h i).eq_of_nhds
  jacDot i j := by
    unfold ArrFn.jacDot
    refine Finset.sum_congr rfl fun k _ => ?_
    rw [(jacEnt_near (h i) k).eq_of_nhds, (jacEnt_near (h j) k).eq_of_nhds]
  lapl i := by
    unfold ArrFn.lapl ArrFn.hvp
    refine Finset.sum_congr rfl fun k _ => ?_
    rw [(jacEnt_near (h i) k).fderiv_eq]

/-- C26: the energy density at `r` depends only on what the density and the orbitals are in a neighbourhood of `r`
(for every functional, mixtures included). -/
theorem c26_semilocal (hc : Created P I g polarized p eps) (rho rho' : ArrFn n ℝ) (m m' : ArrFn n ℂ) (r : Coord n)
    (hs : rho.shape = rho'.shape) (hm : m.shape = m'.shape) (h : ∀ i, (rho.ent · i) =ᶠ[𝓝 r] (rho'.ent · i))
    (h' : ∀ i, (m.ent · i) =ᶠ[𝓝 r] (m'.ent · i)) :
    eps.call (.ok rho) r (some (.ok m)) = eps.call (.ok rho') r (some (.ok m')) := by
  refine call_congr hc (sameAt_near hs h) (.ok m m' hm fun pre k => ?_)
  unfold ArrFn.tau
  congr 1
  refine Finset.sum_congr rfl fun a _ => Finset.sum_congr rfl fun b _ => ?_
  rw [(jacEnt_near (h' _) b).eq_of_nhds]

/-- C26, without orbitals. -/
theorem c26_semilocal_no_orbitals (hc : Created P I g polarized p eps) (rho rho' : ArrFn n ℝ) (r : Coord n)
    (hs : rho.shape = rho'.shape) (h : ∀ i, (rho.ent · i) =ᶠ[𝓝 r] (rho'.ent · i)) : eps.call (.ok rho) r none = eps.call (.ok rho') r none :=
  call_congr hc (sameAt_near hs h) .none

/-- Instance: a density that is replaced by something else outside the ball of radius 2. -/
example : (Demo.mixEps false).call (.ok (Demo.quad 3 5)) 0 none =
    (Demo.mixEps false).call (.ok ⟨[], fun x _ => if ‖x‖ < 2 then ‖x‖ ^ 2 + 5 else 0⟩) (0 : Coord 3) none := by
  refine c26_semilocal_no_orbitals (Demo.mixCreated false) _ _ 0 rfl fun i => ?_
  filter_upwards [Metric.ball_mem_nhds (0 : Coord 3) (by norm_num : (0 : ℝ) < 2)] with x hx
  simp [Demo.quad, mem_ball_zero_iff.1 hx]

/-! ## C25 -/

/-- The function, moved by a rigid motion. -/
noncomputable def moved {K : Type} (T : Coord n ≃ᵃⁱ[ℝ] Coord n) (f : ArrFn n K) : ArrFn n K := ⟨f.shape, fun x i => f.ent (T x) i⟩

theorem fderiv_moved {K : Type} [NormedAddCommGroup K] [NormedSpace ℝ K] (T : Coord n ≃ᵃⁱ[ℝ] Coord n) (f : Coord n → K) (r v : Coord n) :
    fderiv ℝ (fun x => f (T x)) r v = fderiv ℝ f (T r) (T.linearIsometryEquiv v) := by
  have hT : ∀ x, T x = T.linearIsometryEquiv x + T 0 := fun x => by
    have := T.map_vadd 0 x
    simpa using this
  have e : (fun x => f (T x)) = (fun y => f (y + T 0)) ∘ (T.linearIsometryEquiv.toContinuousLinearEquiv) := by
    funext x; simp only [Function.comp_apply]; rw [hT]; rfl
  rw [e, ContinuousLinearEquiv.comp_right_fderiv, fderiv_comp_add_right, hT r]
  rfl

theorem jacEnt_moved {K : Type} [NormedAddCommGroup K] [NormedSpace ℝ K] (T : Coord n ≃ᵃⁱ[ℝ] Coord n) (f : ArrFn n K) (x : Coord n) (i : List ℕ)
    (j : Fin n) : (moved T f).jacEnt x i j = fderiv ℝ (fun y => f.ent y i) (T x) (T.linearIsometryEquiv (eyeRow j)) :=
  fderiv_moved T (fun y => f.ent y i) x _

/-- The Hilbert–Schmidt norm of a linear form does not depend on the orthonormal basis. -/
theorem sum_sq_rot (L : Coord n ≃ₗᵢ[ℝ] Coord n) (A : Coord n →L[ℝ] ℝ) (B : Coord n →L[ℝ] ℝ) :
    ∑ i, A (L (eyeRow i)) * B (L (eyeRow i)) = ∑ i, A (eyeRow i) * B (eyeRow i) := by
  have hA : ∀ v, A v = inner ℝ ((InnerProductSpace.toDual ℝ _).symm A) v := fun v => by simp
  have hB : ∀ v, B v = inner ℝ ((InnerProductSpace.toDual ℝ _).symm B) v := fun v => by simp
  simp only [hA, hB]
  rw [sum_eyeRow]
  have h := ((EuclideanSpace.basisFun (Fin n) ℝ).map L).sum_inner_mul_inner ((InnerProductSpace.toDual ℝ _).symm A) ((InnerProductSpace.toDual ℝ _).symm B)
  rw [← h]
  refine Finset.sum_congr rfl fun i _ => ?_
  rw [real_inner_comm ((InnerProductSpace.toDual ℝ _).symm B)]
  simp [eyeRow]

theorem sameAt_moved (T : Coord n ≃ᵃⁱ[ℝ] Coord n) (rho : ArrFn n ℝ) (r : Coord n) (h : ∀ i, Twice (rho.ent · i) (T r)) :
    SameAt (moved T rho) rho r (T r) where
  shape := rfl
  ent i := rfl
  jacDot i j := by
    unfold ArrFn.jacDot
    simp only [jacEnt_moved]
    exact sum_sq_rot _ _ _
  lapl i := by
    have hd : DifferentiableAt ℝ (fderiv ℝ (fun x => rho.ent x i)) (T r) :=
      (ContDiffAt.fderiv_right (m := 1) (h i) (by norm_num)).differentiableAt (by norm_num)
    rw [lapl_eq rho (T r) i (h i), lapl, InnerProductSpace.laplacian_eq_iteratedFDeriv_orthonormalBasis (fun x => rho.ent x i)
      ((EuclideanSpace.basisFun (Fin n) ℝ).map T.linearIsometryEquiv)]
    unfold ArrFn.lapl ArrFn.hvp
    refine Finset.sum_congr rfl fun k _ => ?_
    simp only [jacEnt_moved]
    rw [fderiv_moved T (fun y => fderiv ℝ (fun x => rho.ent x i) y (T.linearIsometryEquiv (eyeRow k)))]
    rw [iteratedFDeriv_two_apply, fderiv_clm_apply hd (differentiableAt_const _)]
    simp [eyeRow]

theorem tau_moved (T : Coord n ≃ᵃⁱ[ℝ] Coord n) (m : ArrFn n ℂ) (r : Coord n) (pre : List ℕ) (k : ℕ) :
    (moved T m).tau r pre k = m.tau (T r) pre k := by
  unfold ArrFn.tau
  congr 1
  refine Finset.sum_congr rfl fun a _ => ?_
  simp only [jacEnt_moved]
  unfold ArrFn.jacEnt
  set A := fderiv ℝ (fun x => m.ent x (pre ++ [a])) (T r)
  have key : ∀ z : ℂ, ((starRingEnd ℂ) z * z).re = z.re * z.re + z.im * z.im := fun z => by simp
  simp only [key, Finset.sum_add_distrib]
  have h1 := sum_sq_rot T.linearIsometryEquiv (Complex.reCLM.comp A) (Complex.reCLM.comp A)
  have h2 := sum_sq_rot T.linearIsometryEquiv (Complex.imCLM.comp A) (Complex.imCLM.comp A)
  exact congrArg₂ (· + ·) h1 h2

/-- C25: moving the density and the orbitals by a rigid motion (rotation, reflection, translation) moves the energy density with them,
for every functional. -/
theorem c25_rigid_motion (hc : Created P I g polarized p eps) (T : Coord n ≃ᵃⁱ[ℝ] Coord n) (rho : ArrFn n ℝ) (m : ArrFn n ℂ) (r : Coord n)
    (h : ∀ i, Twice (rho.ent · i) (T r)) :
    eps.call (.ok (moved T rho)) r (some (.ok (moved T m))) = eps.call (.ok rho) (T r) (some (.ok m)) :=
  call_congr hc (sameAt_moved T rho r h) (.ok _ _ rfl fun pre k => tau_moved T m r pre k)

/-- C25, without orbitals. -/
theorem c25_rigid_motion_no_orbitals (hc : Created P I g polarized p eps) (T : Coord n ≃ᵃⁱ[ℝ] Coord n) (rho : ArrFn n ℝ) (r : Coord n)
    (h : ∀ i, Twice (rho.ent · i) (T r)) : eps.call (.ok (moved T rho)) r none = eps.call (.ok rho) (T r) none :=
  call_congr hc (sameAt_moved T rho r h) .none

/-- Instance: a translation of `ρ = |x|² + 5` by `v`. -/
example (v r : Coord 3) : (Demo.mixEps false).call (.ok (moved (AffineIsometryEquiv.constVAdd ℝ (Coord 3) v) (Demo.quad 3 5))) r none =
    (Demo.mixEps false).call (.ok (Demo.quad 3 5)) (v + r) none :=
  c25_rigid_motion_no_orbitals (Demo.mixCreated false) _ _ r fun _ => Demo.quad_twice 3 5 _

end Verif.Props
