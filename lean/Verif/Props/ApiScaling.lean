import Verif.Props.Values
import Verif.Props.ExchangeAll
import Verif.Lib.Solo
import Verif.Lib.Demo
import Mathlib.MeasureTheory.Measure.Haar.NormedSpace
/-!
# C53: spin scaling and uniform scaling of the functionals that users call
-/
namespace Verif.Props
open Verif.Py Verif.Model Verif.Spec Verif.Lib Verif.Data

variable {n : ℕ}

/-! ## Densities under a change of scale -/

/-- The density `x^n ρ(x r)`: the same particles, in a space shrunk by the factor `x`. -/
noncomputable def dilate (x : ℝ) (rho : ArrFn n ℝ) : ArrFn n ℝ := ⟨rho.shape, fun r i => x ^ n * rho.ent (x • r) i⟩

/-- The orbitals `√(x^n) φ(x r)`. -/
noncomputable def dilateOrb (x : ℝ) (m : ArrFn n ℂ) : ArrFn n ℂ := ⟨m.shape, fun r i => (√(x ^ n) : ℂ) * m.ent (x • r) i⟩

theorem fderiv_dilate {K : Type} [NormedAddCommGroup K] [NormedSpace ℝ K] (c x : ℝ) (f : Coord n → K) (r v : Coord n) :
    fderiv ℝ (fun y => c • f (x • y)) r v = (c * x) • fderiv ℝ f (x • r) v := by
  have h := congrFun (fderiv_const_smul_field (𝕜 := ℝ) (f := fun y => f (x • y)) c) r
  have e : (c • fun y => f (x • y)) = fun y => c • f (x • y) := rfl
  rw [e] at h
  rw [h, Pi.smul_apply, fderiv_comp_smul, smul_apply, smul_apply, smul_smul]

theorem gradient_dilate (c x : ℝ) (f : Coord n → ℝ) (r : Coord n) : gradient (fun y => c * f (x • y)) r = (c * x) • gradient f (x • r) := by
  unfold gradient
  rw [← map_smul]
  congr 1
  ext v
  exact fderiv_dilate c x f r v

theorem gradDot_dilate (c x : ℝ) (f g : Coord n → ℝ) (r : Coord n) :
    gradDot (fun y => c * f (x • y)) (fun y => c * g (x • y)) r = (c * x) ^ 2 * gradDot f g (x • r) := by
  unfold gradDot
  rw [gradient_dilate, gradient_dilate, real_inner_smul_left, real_inner_smul_right]
  ring

theorem gradSq_dilate (c x : ℝ) (f : Coord n → ℝ) (r : Coord n) : gradSq (fun y => c * f (x • y)) r = (c * x) ^ 2 * gradSq f (x • r) := by
  unfold gradSq
  rw [gradient_dilate, norm_smul, mul_pow, Real.norm_eq_abs, sq_abs]

theorem twice_dilate (c x : ℝ) (f : Coord n → ℝ) (r : Coord n) (h : Twice f (x • r)) : Twice (fun y => c * f (x • y)) r := by
  unfold Twice at *
  exact contDiffAt_const.mul (ContDiffAt.comp (g := f) (f := fun y => x • y) r h (contDiff_const_smul x).contDiffAt)

theorem lapl_dilate (c x : ℝ) (f : Coord n → ℝ) (r : Coord n) (h : Twice f (x • r)) :
    lapl (fun y => c * f (x • y)) r = c * x ^ 2 * lapl f (x • r) := by
  rw [c07_coordinates _ _ (twice_dilate c x f r h), c07_coordinates _ _ h, Finset.mul_sum]
  refine Finset.sum_congr rfl fun i _ => ?_
  have e : (fun y => fderiv ℝ (fun y => c * f (x • y)) y (EuclideanSpace.single i 1)) =
      fun y => (c * x) • (fun z => fderiv ℝ f z (EuclideanSpace.single i 1)) (x • y) := funext fun y => fderiv_dilate c x f y _
  rw [e, fderiv_dilate (c * x) x (fun z => fderiv ℝ f z (EuclideanSpace.single i 1))]
  simp only [smul_eq_mul]
  ring

theorem kinetic_dilate {ι : Type} [Fintype ι] (c x : ℝ) (φ : ι → Coord n → ℂ) (r : Coord n) :
    kinetic (fun k y => (c : ℂ) * φ k (x • y)) r = (c * x) ^ 2 * kinetic φ (x • r) := by
  have h : ∀ k (i : Fin n), ‖fderiv ℝ (fun y => (c : ℂ) * φ k (x • y)) r (EuclideanSpace.single i 1)‖ ^ 2 =
      (c * x) ^ 2 * ‖fderiv ℝ (φ k) (x • r) (EuclideanSpace.single i 1)‖ ^ 2 := fun k i => by
    have e : (fun y => (c : ℂ) * φ k (x • y)) = fun y => c • φ k (x • y) := funext fun y => by simp
    rw [e, fderiv_dilate, norm_smul, mul_pow, Real.norm_eq_abs, sq_abs]
  unfold kinetic
  simp only [h, ← Finset.mul_sum]
  ring

variable {P : Prims} {I : Impls} {g : GenInfo} {p : PTree} {eps : EpsFn} {fam : Fam} {f : Formula} {rho : ArrFn n ℝ} {mo : Option (Callable n ℂ)} {r : Coord n} {x : ℝ} {k : ℕ}

/-- C53, uniform scaling, unpolarized: where `ρ` and the shrunk density are above twice the threshold, `ε[ρ_x](r) = x^k ε[ρ](x r)`. -/
theorem c53_uniform_unpol (hu : UniformScalingUnpol n k fam f) (hc : Created P I g false p eps) (hs : Single I p fam f) (hp : Thresholds p.info.vals)
    (hz : p.info.vals.fld .zetaThreshold < 1) (hsh : rho.shape = []) (hx : 0 < x) {m : ArrFn n ℂ} {N : ℕ}
    (hm : fam = .mgga → Twice (rho.ent · []) (x • r) ∧ m.shape = [N])
    (h1 : 2 * thr p < rho.ent (x • r) []) (h2 : 2 * thr p < x ^ n * rho.ent (x • r) []) :
    ∃ e, eps.call (.ok rho) (x • r) (some (.ok m)) = .ok e ∧ eps.call (.ok (dilate x rho)) r (some (.ok (dilateOrb x m))) = .ok (x ^ k * e) := by
  have ht : 0 < thr p := hp.dens
  have hx2 : √(x ^ n) ^ 2 = x ^ n := Real.sq_sqrt (by positivity)
  obtain ⟨e, h3, h4⟩ := hu P p.info.vals x (rho.ent (x • r) []) (gradSq (rho.ent · []) (x • r)) (lapl (rho.ent · []) (x • r)) (kinetic (orb m N) (x • r)) hp hx (by linarith)
    (c06_nonneg _ _) (by unfold kinetic; positivity) hz (by change thr p < _; linarith) (by change thr p < _; linarith)
  refine ⟨e, ?_, ?_⟩
  · rw [c10_above_unpolarized hc hs rho hsh (x • r) _ N (orb m N) (fun h => ⟨(hm h).1, m, rfl, (hm h).2, rfl⟩) (by linarith)]
    exact h3
  · rw [c10_above_unpolarized hc hs (dilate x rho) hsh r _ N (orb (dilateOrb x m) N)
      (fun h => ⟨twice_dilate _ _ _ _ (hm h).1, dilateOrb x m, rfl, (hm h).2, rfl⟩) (by change _ ≤ x ^ n * _; linarith)]
    rw [← h4]
    have e1 : (dilate x rho).ent r [] = x ^ n * rho.ent (x • r) [] := rfl
    have e2 : gradSq ((dilate x rho).ent · []) r = x ^ (2 * n + 2) * gradSq (rho.ent · []) (x • r) := by
      change gradSq (fun y => x ^ n * rho.ent (x • y) []) r = _
      rw [gradSq_dilate (x ^ n) x (rho.ent · []) r]; ring
    have e4 : kinetic (orb (dilateOrb x m) N) r = x ^ (n + 2) * kinetic (orb m N) (x • r) := by
      have := kinetic_dilate (√(x ^ n)) x (orb m N) r
      rw [mul_pow, hx2] at this
      rw [pow_add, ← this]
      rfl
    rw [e1, e2, e4]
    by_cases hf : fam = .mgga
    · have e3 : lapl ((dilate x rho).ent · []) r = x ^ (n + 2) * lapl (rho.ent · []) (x • r) := by
        change lapl (fun y => x ^ n * rho.ent (x • y) []) r = _
        rw [lapl_dilate (x ^ n) x (rho.ent · []) r (hm hf).1]; ring
      rw [e3]
    · cases fam <;> first | rfl | exact absurd rfl hf

/-- C53, uniform scaling, polarized: where the spin densities and the shrunk ones are above the threshold, `ε[ρ_x](r) = x^k ε[ρ](x r)`. -/
theorem c53_uniform_pol (hu : UniformScaling n k fam f) (hc : Created P I g true p eps) (hs : Single I p fam f) (hp : Thresholds p.info.vals)
    (hz : p.info.vals.fld .zetaThreshold < 1) (hsh : rho.shape = [2]) (hx : 0 < x) {m : ArrFn n ℂ} {N : ℕ}
    (hm : fam = .mgga → Twice (rho.ent · [0]) (x • r) ∧ Twice (rho.ent · [1]) (x • r) ∧ m.shape = [2, N])
    (h0 : thr p < rho.ent (x • r) [0]) (h1 : thr p < rho.ent (x • r) [1]) (h0' : thr p < x ^ n * rho.ent (x • r) [0]) (h1' : thr p < x ^ n * rho.ent (x • r) [1]) :
    ∃ e, eps.call (.ok rho) (x • r) (some (.ok m)) = .ok e ∧ eps.call (.ok (dilate x rho)) r (some (.ok (dilateOrb x m))) = .ok (x ^ k * e) := by
  have ht : 0 < thr p := hp.dens
  have hx2 : √(x ^ n) ^ 2 = x ^ n := Real.sq_sqrt (by positivity)
  obtain ⟨e, h3, h4⟩ := hu P p.info.vals x (rho.ent (x • r) [0]) (rho.ent (x • r) [1]) (gradSq (rho.ent · [0]) (x • r)) (gradDot (rho.ent · [0]) (rho.ent · [1]) (x • r))
    (gradSq (rho.ent · [1]) (x • r)) (lapl (rho.ent · [0]) (x • r)) (lapl (rho.ent · [1]) (x • r)) (kinetic (spinOrb m N 0) (x • r)) (kinetic (spinOrb m N 1) (x • r))
    hp hx (by linarith) (by linarith) (c06_nonneg _ _) (c06_nonneg _ _) (by unfold kinetic; positivity) (by unfold kinetic; positivity) hz h0 h1 h0' h1'
  refine ⟨e, ?_, ?_⟩
  · rw [c10_above_polarized hc hs rho hsh (x • r) _ N (fun s => spinOrb m N s) (fun h => ⟨(hm h).1, (hm h).2.1, m, rfl, (hm h).2.2, rfl, rfl⟩) (by linarith)]
    exact h3
  · rw [c10_above_polarized hc hs (dilate x rho) hsh r _ N (fun s => spinOrb (dilateOrb x m) N s)
      (fun h => ⟨twice_dilate _ _ _ _ (hm h).1, twice_dilate _ _ _ _ (hm h).2.1, dilateOrb x m, rfl, (hm h).2.2, rfl, rfl⟩) (by change _ ≤ x ^ n * _ + x ^ n * _; linarith)]
    rw [← h4]
    have e1 : ∀ s, (dilate x rho).ent r [s] = x ^ n * rho.ent (x • r) [s] := fun s => rfl
    have e2 : ∀ s, gradSq ((dilate x rho).ent · [s]) r = x ^ (2 * n + 2) * gradSq (rho.ent · [s]) (x • r) := fun s => by
      change gradSq (fun y => x ^ n * rho.ent (x • y) [s]) r = _
      rw [gradSq_dilate (x ^ n) x (rho.ent · [s]) r]; ring
    have e3 : gradDot ((dilate x rho).ent · [0]) ((dilate x rho).ent · [1]) r = x ^ (2 * n + 2) * gradDot (rho.ent · [0]) (rho.ent · [1]) (x • r) := by
      change gradDot (fun y => x ^ n * rho.ent (x • y) [0]) (fun y => x ^ n * rho.ent (x • y) [1]) r = _
      rw [gradDot_dilate (x ^ n) x (rho.ent · [0]) (rho.ent · [1]) r]; ring
    have e4 : ∀ s, kinetic (spinOrb (dilateOrb x m) N s) r = x ^ (n + 2) * kinetic (spinOrb m N s) (x • r) := fun s => by
      have := kinetic_dilate (√(x ^ n)) x (spinOrb m N s) r
      rw [mul_pow, hx2] at this
      rw [pow_add, ← this]
      rfl
    simp only [e1, e2, e3, Fin.val_zero, Fin.val_one, e4]
    by_cases hf : fam = .mgga
    · have e5 : ∀ s, Twice (rho.ent · [s]) (x • r) → lapl ((dilate x rho).ent · [s]) r = x ^ (n + 2) * lapl (rho.ent · [s]) (x • r) := fun s h => by
        change lapl (fun y => x ^ n * rho.ent (x • y) [s]) r = _
        rw [lapl_dilate (x ^ n) x (rho.ent · [s]) r h]; ring
      rw [e5 0 (hm hf).1, e5 1 (hm hf).2.1]
    · cases fam <;> first | rfl | exact absurd rfl hf

open MeasureTheory Pointwise in
/-- C53 for energies: the energy in a region `A` of the shrunk density is `x^k` times that of the density in the region `x A` (unpolarized). -/
theorem c53_energy (hu : UniformScalingUnpol n k fam f) (hc : Created P I g false p eps) (hs : Single I p fam f) (hp : Thresholds p.info.vals)
    (hz : p.info.vals.fld .zetaThreshold < 1) (hsh : rho.shape = []) (hx : 0 < x) {m : ArrFn n ℂ} {N : ℕ} {A : Set (Coord n)} (hA : MeasurableSet A)
    (hm : fam = .mgga → m.shape = [N] ∧ ∀ r ∈ A, Twice (rho.ent · []) (x • r))
    (h1 : ∀ r ∈ A, 2 * thr p < rho.ent (x • r) []) (h2 : ∀ r ∈ A, 2 * thr p < x ^ n * rho.ent (x • r) []) {e e' : Coord n → ℝ}
    (he : ∀ y ∈ x • A, eps.call (.ok rho) y (some (.ok m)) = .ok (e y))
    (he' : ∀ r ∈ A, eps.call (.ok (dilate x rho)) r (some (.ok (dilateOrb x m))) = .ok (e' r)) :
    ∫ r in A, (dilate x rho).ent r [] * e' r = x ^ k * ∫ y in x • A, rho.ent y [] * e y := by
  have h3 : ∀ r ∈ A, (dilate x rho).ent r [] * e' r = x ^ n * x ^ k * (fun y => rho.ent y [] * e y) (x • r) := fun r hr => by
    obtain ⟨v, hv, hv'⟩ := c53_uniform_unpol hu hc hs hp hz hsh hx (m := m) (N := N) (fun h => ⟨(hm h).2 r hr, (hm h).1⟩) (h1 r hr) (h2 r hr)
    rw [he _ (Set.smul_mem_smul_set hr)] at hv
    rw [he' r hr] at hv'
    cases hv
    rw [Except.ok.inj hv']
    change x ^ n * rho.ent (x • r) [] * _ = _
    ring
  rw [setIntegral_congr_fun hA h3, integral_const_mul, Measure.setIntegral_comp_smul volume (fun y => rho.ent y [] * e y) A hx.ne']
  have hn : Module.finrank ℝ (Coord n) = n := finrank_euclideanSpace_fin
  rw [hn, abs_of_pos (inv_pos.2 (pow_pos hx n)), smul_eq_mul, ← mul_assoc, mul_comm (x ^ n), mul_assoc (x ^ k), mul_inv_cancel₀ (pow_pos hx n).ne', mul_one]

/-! ## Spin scaling -/

/-- Twice the density of one spin. -/
noncomputable def twiceSpin (rho : ArrFn n ℝ) (s : ℕ) : ArrFn n ℝ := ⟨[], fun x _ => 2 * rho.ent x [s]⟩

/-- The orbitals of one spin, each occupied twice. -/
noncomputable def twiceOrb (m : ArrFn n ℂ) (N s : ℕ) : ArrFn n ℂ := ⟨[2 * N], fun x i => m.ent x (s :: i.map (· / 2))⟩

theorem twiceSpin_gradSq (rho : ArrFn n ℝ) (s : ℕ) (r : Coord n) : gradSq ((twiceSpin rho s).ent · []) r = 4 * gradSq (rho.ent · [s]) r := by
  have := gradSq_dilate 2 1 (rho.ent · [s]) r
  simp only [one_smul] at this
  exact this.trans (by norm_num)

theorem twiceSpin_twice (rho : ArrFn n ℝ) (s : ℕ) (r : Coord n) (h : Twice (rho.ent · [s]) r) : Twice ((twiceSpin rho s).ent · []) r := by
  have := twice_dilate 2 1 (rho.ent · [s]) r (by rwa [one_smul])
  simp only [one_smul] at this
  exact this

theorem twiceSpin_lapl (rho : ArrFn n ℝ) (s : ℕ) (r : Coord n) (h : Twice (rho.ent · [s]) r) :
    lapl ((twiceSpin rho s).ent · []) r = 2 * lapl (rho.ent · [s]) r := by
  have := lapl_dilate 2 1 (rho.ent · [s]) r (by rwa [one_smul])
  simp only [one_smul] at this
  exact this.trans (by norm_num)

theorem sum_pairs (N : ℕ) (a : ℕ → ℝ) : ∑ k : Fin (2 * N), a ((k : ℕ) / 2) = 2 * ∑ k : Fin N, a k := by
  rw [Fin.sum_univ_eq_sum_range (fun k => a (k / 2)), Fin.sum_univ_eq_sum_range a]
  induction N with
  | zero => simp
  | succ N ih =>
    rw [show 2 * (N + 1) = 2 * N + 1 + 1 by ring, Finset.sum_range_succ, Finset.sum_range_succ, ih, Finset.sum_range_succ]
    rw [show 2 * N / 2 = N by omega, show (2 * N + 1) / 2 = N by omega]
    ring

theorem twiceOrb_kinetic (m : ArrFn n ℂ) (N s : ℕ) (r : Coord n) : kinetic (orb (twiceOrb m N s) (2 * N)) r = 2 * kinetic (spinOrb m N s) r := by
  unfold kinetic
  have := sum_pairs N fun k => ∑ i : Fin n, ‖fderiv ℝ (fun x => m.ent x [s, k]) r (EuclideanSpace.single i 1)‖ ^ 2
  refine (congrArg (fun z : ℝ => 1 / 2 * z) this).trans ?_
  change (1 / 2 : ℝ) * (2 * ∑ k : Fin N, ∑ i : Fin n, ‖fderiv ℝ (spinOrb m N s k) r (EuclideanSpace.single i 1)‖ ^ 2) = _
  ring

/-- C53, spin scaling: the polarized functional is the average of the unpolarized one at twice the density of either spin, as energies per volume,
where both spin densities are above the thresholds. -/
theorem c53_spin {I' : Impls} {g' : GenInfo} {p' : PTree} {eps' : EpsFn} (hf : SpinScaling fam f) (hc : Created P I g true p eps) (hs : Single I p fam f)
    (hc' : Created P I' g' false p' eps') (hs' : Single I' p' fam f) (hv : p'.info.vals = p.info.vals) (hp : Thresholds p.info.vals) (hsh : rho.shape = [2])
    {m : ArrFn n ℂ} {N : ℕ} (hm : fam = .mgga → Twice (rho.ent · [0]) r ∧ Twice (rho.ent · [1]) r ∧ m.shape = [2, N])
    (hu : Unscreened p.info.vals (rho.ent r [0]) (rho.ent r [1])) :
    ∃ e e0 e1, eps.call (.ok rho) r (some (.ok m)) = .ok e ∧ eps'.call (.ok (twiceSpin rho 0)) r (some (.ok (twiceOrb m N 0))) = .ok e0 ∧
      eps'.call (.ok (twiceSpin rho 1)) r (some (.ok (twiceOrb m N 1))) = .ok e1 ∧
      (rho.ent r [0] + rho.ent r [1]) * e = ((twiceSpin rho 0).ent r [] * e0 + (twiceSpin rho 1).ent r [] * e1) / 2 := by
  have ht : 0 < thr p := hp.dens
  have u0 : thr p < rho.ent r [0] := hu.dens0
  have u1 : thr p < rho.ent r [1] := hu.dens1
  have ht' : thr p' = thr p := congrArg (fun v : Rec => v.fld .densThreshold) hv
  obtain ⟨e, e0, e1, h, h0, h1, hsum⟩ := hf P p.info.vals (rho.ent r [0]) (rho.ent r [1]) (gradSq (rho.ent · [0]) r) (gradDot (rho.ent · [0]) (rho.ent · [1]) r)
    (gradSq (rho.ent · [1]) r) (lapl (rho.ent · [0]) r) (lapl (rho.ent · [1]) r) (kinetic (spinOrb m N 0) r) (kinetic (spinOrb m N 1) r) hp (by linarith) (by linarith)
    (c06_nonneg _ _) (c06_nonneg _ _) (by unfold kinetic; positivity) (by unfold kinetic; positivity) hu
  have one : ∀ s v, Twice (rho.ent · [s]) r ∨ fam ≠ .mgga → thr p < rho.ent r [s] →
      f.unpol P p.info.vals (2 * rho.ent r [s]) (fam.grad (4 * gradSq (rho.ent · [s]) r)) (fam.meta (2 * lapl (rho.ent · [s]) r)) (fam.meta (2 * kinetic (spinOrb m N s) r)) = .ok v →
      eps'.call (.ok (twiceSpin rho s)) r (some (.ok (twiceOrb m N s))) = .ok v := fun s v h2 h3 h4 => by
    rw [c10_above_unpolarized hc' hs' (twiceSpin rho s) rfl r _ (2 * N) (orb (twiceOrb m N s) (2 * N))
      (fun h => ⟨twiceSpin_twice _ _ _ (h2.resolve_right (absurd h)), _, rfl, rfl, rfl⟩) (by rw [ht']; change _ ≤ 2 * _; linarith), hv, ← h4, twiceSpin_gradSq, twiceOrb_kinetic]
    by_cases hg : fam = .mgga
    · rw [twiceSpin_lapl _ _ _ (h2.resolve_right (absurd hg))]
      rfl
    · cases fam <;> first | rfl | exact absurd rfl hg
  refine ⟨e, e0, e1, ?_, one 0 e0 ?_ u0 h0, one 1 e1 ?_ u1 h1, ?_⟩
  · rw [c10_above_polarized hc hs rho hsh r _ N (fun s => spinOrb m N s) (fun h => ⟨(hm h).1, (hm h).2.1, m, rfl, (hm h).2.2, rfl, rfl⟩) (by linarith)]
    exact h
  · by_cases hg : fam = .mgga
    · exact .inl (hm hg).1
    · exact .inr hg
  · by_cases hg : fam = .mgga
    · exact .inl (hm hg).2.1
    · exact .inr hg
  · rw [hsum]
    change _ = (2 * rho.ent r [0] * e0 + 2 * rho.ent r [1] * e1) / 2
    ring

/-! ## Instances -/

/-- PBE exchange of `8 ρ(2 r)` for `ρ = |x|² + 5`. -/
example (P : Prims) (r : Coord 3) : ∃ e, (soloEps P .gga gga_x_pbe false soloRec).call (.ok (Demo.quad 3 5)) ((2 : ℝ) • r) (some (.ok ⟨[0], fun _ _ => 0⟩)) = .ok e ∧
    (soloEps P .gga gga_x_pbe false soloRec).call (.ok (dilate 2 (Demo.quad 3 5))) r (some (.ok (dilateOrb 2 ⟨[0], fun _ _ => 0⟩))) = .ok (2 ^ 1 * e) := by
  have h : 0 ≤ ‖(2 : ℝ) • r‖ ^ 2 := by positivity
  have h5 : (Demo.quad 3 5).ent ((2 : ℝ) • r) [] = ‖(2 : ℝ) • r‖ ^ 2 + 5 := rfl
  have ht : thr (soloTree .gga false soloRec) = 1 / 10 ^ 15 := rfl
  refine c53_uniform_unpol gga_x_pbe_scalingUnpol (solo_created P .gga gga_x_pbe false soloRec) (solo_single .gga gga_x_pbe false soloRec) soloRec_ok soloRec_zeta rfl two_pos
    (N := 0) (fun h => nomatch h) ?_ ?_
  · rw [h5, ht]; norm_num; linarith
  · rw [h5, ht]; norm_num; linarith

/-- TPSS exchange of `8 ρ(2 r)` for the spin densities `|x|² + 5`, `|x|² + 6` and the orbitals `x₀`, `i x₀`, …. -/
example (P : Prims) (r : Coord 3) : ∃ e, (soloEps P .mgga mgga_x_tpss true soloRec).call (.ok (Demo.quad2 3 5)) ((2 : ℝ) • r) (some (.ok (Demo.orbs [2, 2] 2))) = .ok e ∧
    (soloEps P .mgga mgga_x_tpss true soloRec).call (.ok (dilate 2 (Demo.quad2 3 5))) r (some (.ok (dilateOrb 2 (Demo.orbs [2, 2] 2)))) = .ok (2 ^ 1 * e) := by
  have h : 0 ≤ ‖(2 : ℝ) • r‖ ^ 2 := by positivity
  have h0 : (Demo.quad2 3 5).ent ((2 : ℝ) • r) [0] = ‖(2 : ℝ) • r‖ ^ 2 + 5 := rfl
  have h1 : (Demo.quad2 3 5).ent ((2 : ℝ) • r) [1] = ‖(2 : ℝ) • r‖ ^ 2 + 5 + 1 := rfl
  have ht : thr (soloTree .mgga true soloRec) = 1 / 10 ^ 15 := rfl
  refine c53_uniform_pol mgga_x_tpss_scaling (solo_created P .mgga mgga_x_tpss true soloRec) (solo_single .mgga mgga_x_tpss true soloRec) soloRec_ok soloRec_zeta rfl two_pos
    (N := 2) (fun _ => ⟨Demo.quad2_twice _ _ _ _, Demo.quad2_twice _ _ _ _, rfl⟩) ?_ ?_ ?_ ?_
  · rw [h0, ht]; norm_num; linarith
  · rw [h1, ht]; norm_num; linarith
  · rw [h0, ht]; norm_num; linarith
  · rw [h1, ht]; norm_num; linarith

/-- TPSS exchange of the spin densities `|x|² + 5`, `|x|² + 6` is the average over the doubled spin densities. -/
example (P : Prims) (r : Coord 3) : ∃ e e0 e1, (soloEps P .mgga mgga_x_tpss true soloRec).call (.ok (Demo.quad2 3 5)) r (some (.ok (Demo.orbs [2, 2] 2))) = .ok e ∧
    (soloEps P .mgga mgga_x_tpss false soloRec).call (.ok (twiceSpin (Demo.quad2 3 5) 0)) r (some (.ok (twiceOrb (Demo.orbs [2, 2] 2) 2 0))) = .ok e0 ∧
    (soloEps P .mgga mgga_x_tpss false soloRec).call (.ok (twiceSpin (Demo.quad2 3 5) 1)) r (some (.ok (twiceOrb (Demo.orbs [2, 2] 2) 2 1))) = .ok e1 ∧
    (‖r‖ ^ 2 + 5 + (‖r‖ ^ 2 + 5 + 1)) * e = (2 * (‖r‖ ^ 2 + 5) * e0 + 2 * (‖r‖ ^ 2 + 5 + 1) * e1) / 2 := by
  have h : 0 ≤ ‖r‖ ^ 2 := by positivity
  refine c53_spin mgga_x_tpss_spinScaling (solo_created P .mgga mgga_x_tpss true soloRec) (solo_single .mgga mgga_x_tpss true soloRec)
    (solo_created P .mgga mgga_x_tpss false soloRec) (solo_single .mgga mgga_x_tpss false soloRec) rfl soloRec_ok (rho := Demo.quad2 3 5) rfl
    (fun _ => ⟨Demo.quad2_twice _ _ _ _, Demo.quad2_twice _ _ _ _, rfl⟩) ?_
  change Unscreened soloRec (‖r‖ ^ 2 + 5) (‖r‖ ^ 2 + 5 + 1)
  constructor <;> norm_num [soloRec] <;> linarith

end Verif.Props
