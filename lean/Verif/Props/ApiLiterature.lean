import Verif.Props.LiteratureBounds
import Verif.Props.Values
import Verif.Props.Mixtures
import Verif.Lib.Solo
import Verif.Lib.Demo
import Mathlib.MeasureTheory.Measure.Haar.NormedSpace
import Mathlib.Analysis.Calculus.LocalExtr.Basic
/-!
# C54: the functionals that users call are the published ones
-/
namespace Verif.Props
open Verif.Py Verif.Model Verif.Spec Verif.Lib Verif.Data

variable {n : ℕ} {P : Prims} {I : Impls} {g : GenInfo} {p : PTree} {eps : EpsFn} {f : Formula} {rho : ArrFn n ℝ} {mo : Option (Callable n ℂ)} {r : Coord n}

theorem above_of (hp : Thresholds p.info.vals) (hz : p.info.vals.fld .zetaThreshold < 1) {x : ℝ} (h : 2 * thr p < x) : Above p.info.vals x where
  pos := by have : 0 < thr p := hp.dens; linarith
  zeta := hz
  dens := by change thr p < _; linarith

/-- C54, local density functionals: the energy density at `r` is the published function of the density at `r`. -/
theorem c54_lda {e : Rec → ℝ → ℝ} (hf : IsLDA f e) (hc : Created P I g false p eps) (hs : Single I p .lda f) (hp : Thresholds p.info.vals)
    (hz : p.info.vals.fld .zetaThreshold < 1) (hsh : rho.shape = []) (ht : 2 * thr p < rho.ent r []) :
    eps.call (.ok rho) r mo = .ok (e p.info.vals (rho.ent r [])) := by
  have h0 : 0 < thr p := hp.dens
  rw [c10_above_unpolarized hc hs rho hsh r mo 0 (fun _ _ => 0) (fun h => nomatch h) (by linarith)]
  exact hf P _ _ (above_of hp hz ht)

/-- C54, gradient-corrected exchange: the energy density at `r` is Dirac's times the published factor, a function of the density at `r` and of
the length of its gradient at `r`. -/
theorem c54_gga {F : Rec → ℝ → ℝ → ℝ} (hf : IsExchangeGGA f F) (hc : Created P I g false p eps) (hs : Single I p .gga f) (hp : Thresholds p.info.vals)
    (hz : p.info.vals.fld .zetaThreshold < 1) (hsh : rho.shape = []) (ht : 2 * thr p < rho.ent r []) :
    eps.call (.ok rho) r mo = .ok (diracExchange (rho.ent r []) * F p.info.vals (rho.ent r []) (‖gradient (rho.ent · []) r‖ ^ 2)) := by
  have h0 : 0 < thr p := hp.dens
  rw [c10_above_unpolarized hc hs rho hsh r mo 0 (fun _ _ => 0) (fun h => nomatch h) (by linarith)]
  exact hf P _ _ _ (above_of hp hz ht) (c06_nonneg _ _)

/-- C54, gradient-corrected exchange, polarized: the energy per volume is the sum over the spins of the published expression for a closed shell
of density `2 ρ_σ`, halved. -/
theorem c54_gga_pol {F : Rec → ℝ → ℝ → ℝ} (hf : IsExchangeGGA f F) (hsc : SpinScaling .gga f) (hc : Created P I g true p eps) (hs : Single I p .gga f)
    (hp : Thresholds p.info.vals) (hz : p.info.vals.fld .zetaThreshold < 1) (hsh : rho.shape = [2]) (hu : Unscreened p.info.vals (rho.ent r [0]) (rho.ent r [1])) :
    ∃ e, eps.call (.ok rho) r mo = .ok e ∧ (rho.ent r [0] + rho.ent r [1]) * e =
      rho.ent r [0] * (diracExchange (2 * rho.ent r [0]) * F p.info.vals (2 * rho.ent r [0]) (4 * ‖gradient (rho.ent · [0]) r‖ ^ 2)) +
      rho.ent r [1] * (diracExchange (2 * rho.ent r [1]) * F p.info.vals (2 * rho.ent r [1]) (4 * ‖gradient (rho.ent · [1]) r‖ ^ 2)) := by
  have ht : 0 < thr p := hp.dens
  have u0 : thr p < rho.ent r [0] := hu.dens0
  have u1 : thr p < rho.ent r [1] := hu.dens1
  obtain ⟨e, e0, e1, h, h0, h1, hsum⟩ := hsc P p.info.vals (rho.ent r [0]) (rho.ent r [1]) (gradSq (rho.ent · [0]) r) (gradDot (rho.ent · [0]) (rho.ent · [1]) r)
    (gradSq (rho.ent · [1]) r) 0 0 0 0 hp (by linarith) (by linarith) (c06_nonneg _ _) (c06_nonneg _ _) le_rfl le_rfl hu
  refine ⟨e, ?_, ?_⟩
  · rw [c10_above_polarized hc hs rho hsh r mo 0 (fun _ _ _ => 0) (fun h => nomatch h) (by linarith)]
    exact h
  · have a0 := hf P p.info.vals (2 * rho.ent r [0]) (4 * gradSq (rho.ent · [0]) r) (above_of hp hz (by linarith)) (mul_nonneg (by norm_num) (c06_nonneg _ _))
    have a1 := hf P p.info.vals (2 * rho.ent r [1]) (4 * gradSq (rho.ent · [1]) r) (above_of hp hz (by linarith)) (mul_nonneg (by norm_num) (c06_nonneg _ _))
    rw [hsum, Except.ok.inj (h0.symm.trans a0), Except.ok.inj (h1.symm.trans a1)]
    rfl

/-- C54: where the gradient of the density vanishes, PBE exchange is Dirac's. -/
theorem c54_pbe_stationary (hc : Created P I g false p eps) (hs : Single I p .gga gga_x_pbe) (hp : Thresholds p.info.vals)
    (hz : p.info.vals.fld .zetaThreshold < 1) (hk : par p.info.vals "kappa" ≠ 0) (hsh : rho.shape = []) (ht : 2 * thr p < rho.ent r [])
    (hg : gradient (rho.ent · []) r = 0) : eps.call (.ok rho) r mo = .ok (diracExchange (rho.ent r [])) := by
  rw [c54_gga gga_x_pbe_is hc hs hp hz hsh ht, hg, norm_zero]
  have : reducedGradient (rho.ent r []) (0 ^ 2) = 0 := by rw [reducedGradient]; norm_num
  rw [this, pbeFactor]
  have e : par p.info.vals "kappa" / (par p.info.vals "kappa" + par p.info.vals "mu" * 0 ^ 2) = 1 := by
    rw [zero_pow (by norm_num), mul_zero, add_zero, div_self hk]
  rw [e, sub_self, mul_zero, add_zero, mul_one]

/-- C54: PBE exchange at a point lies between Dirac's exchange and `1 + κ` times it. -/
theorem c54_pbe_bounds (hc : Created P I g false p eps) (hs : Single I p .gga gga_x_pbe) (hp : Thresholds p.info.vals)
    (hz : p.info.vals.fld .zetaThreshold < 1) (hk : 0 < par p.info.vals "kappa") (hm : 0 ≤ par p.info.vals "mu") (hsh : rho.shape = []) (ht : 2 * thr p < rho.ent r []) :
    ∃ e, eps.call (.ok rho) r mo = .ok e ∧ (1 + par p.info.vals "kappa") * diracExchange (rho.ent r []) < e ∧ e ≤ diracExchange (rho.ent r []) := by
  have h0 : 0 < thr p := hp.dens
  rw [c10_above_unpolarized hc hs rho hsh r mo 0 (fun _ _ => 0) (fun h => nomatch h) (by linarith)]
  exact gga_x_pbe_bounds P p.info.vals _ _ (above_of hp hz ht) (c06_nonneg _ _) hk hm

open MeasureTheory in
/-- C54, for energies: in any region where the density is above the threshold, the PBE exchange energy of a density lies between the local exchange
energy and `1 + κ` times it. -/
theorem c54_pbe_energy (hc : Created P I g false p eps) (hs : Single I p .gga gga_x_pbe) (hp : Thresholds p.info.vals)
    (hz : p.info.vals.fld .zetaThreshold < 1) (hk : 0 < par p.info.vals "kappa") (hm : 0 ≤ par p.info.vals "mu") (hsh : rho.shape = []) {A : Set (Coord n)}
    (hA : MeasurableSet A) (ht : ∀ r ∈ A, 2 * thr p < rho.ent r []) {e : Coord n → ℝ} (he : ∀ r ∈ A, eps.call (.ok rho) r mo = .ok (e r))
    (hi : IntegrableOn (fun r => rho.ent r [] * e r) A) (hd : IntegrableOn (fun r => rho.ent r [] * diracExchange (rho.ent r [])) A) :
    (1 + par p.info.vals "kappa") * ∫ r in A, rho.ent r [] * diracExchange (rho.ent r []) ≤ ∫ r in A, rho.ent r [] * e r ∧
      ∫ r in A, rho.ent r [] * e r ≤ ∫ r in A, rho.ent r [] * diracExchange (rho.ent r []) := by
  have key : ∀ r ∈ A, 0 < rho.ent r [] ∧ (1 + par p.info.vals "kappa") * diracExchange (rho.ent r []) < e r ∧ e r ≤ diracExchange (rho.ent r []) := fun r hr => by
    obtain ⟨e', h1, h2⟩ := c54_pbe_bounds (mo := mo) hc hs hp hz hk hm hsh (ht r hr)
    rw [he r hr] at h1
    cases h1
    have h0 : 0 < thr p := hp.dens
    exact ⟨by have := ht r hr; linarith, h2⟩
  constructor
  · rw [← integral_const_mul]
    refine setIntegral_mono_on (hd.const_mul _) hi hA fun r hr => ?_
    obtain ⟨h1, h2, _⟩ := key r hr
    nlinarith
  · exact setIntegral_mono_on hi hd hA fun r hr => mul_le_mul_of_nonneg_left (key r hr).2.2 (key r hr).1.le

/-! ## Mixtures -/

/-- The energy density `v` that the literature gives for a component with the record `i`, at density `x` and squared gradient `y`. -/
inductive Published (I : Impls) (i : PInfo) (x y : ℝ) : ℝ → Prop
  | lda {f : Formula} {e : Rec → ℝ → ℝ} (hi : I i.mapleName = some f) (hf : i.type = "lda") (he : IsLDA f e) : Published I i x y (e i.vals x)
  | gga {f : Formula} {F : Rec → ℝ → ℝ → ℝ} (hi : I i.mapleName = some f) (hf : i.type = "gga") (he : IsExchangeGGA f F) :
    Published I i x y (diracExchange x * F i.vals x y)

theorem Published.type {i : PInfo} {x y v : ℝ} (h : Published I i x y v) : i.type ≠ "mgga" := by
  cases h with
  | lda _ hf => rw [hf]; decide
  | gga _ hf => rw [hf]; decide

/-- C54, mixtures: the energy density is the sum of the published energy densities of the components, each multiplied by its coefficients. -/
theorem c54_mixture (hc : Created P I g false p eps) (hs : Sound I p) (hsh : rho.shape = []) (v : PInfo → ℝ)
    (hv : ∀ x ∈ leaves p, x.2.nspin = 1 ∧ Thresholds x.2.vals ∧ x.2.vals.fld .zetaThreshold < 1 ∧ 2 * x.2.vals.fld .densThreshold < rho.ent r [] ∧
      Published I x.2 (rho.ent r []) (‖gradient (rho.ent · []) r‖ ^ 2) (v x.2)) :
    eps.call (.ok rho) r mo = .ok ((leaves p).map fun x => x.1 * v x.2).sum := by
  let epsOf (i : PInfo) : EpsFn := { call := fun rho r mo => invoke P I rho r (if i.type = "mgga" then mo else none) (.node i []), attrs := [] }
  have hn : ∀ x ∈ leaves p, Created P I ⟨"", "x", x.2.type, []⟩ false (.node x.2 []) (epsOf x.2) := fun x hx =>
    ⟨⟨fun _ _ _ => .ok (.node x.2 []), [], rfl, rfl⟩, (hv x hx).1, rfl⟩
  refine c13_linear_combination hc hs (.inr fun x hx => ?_) epsOf (fun x hx => ⟨_, _, hn x hx⟩) _ _ _ v fun x hx => ?_
  · exact (hv x hx).2.2.2.2.type
  · obtain ⟨h1, h2⟩ := leaves_names p hs x hx
    obtain ⟨_, h4, h5, h6, h7⟩ := hv x hx
    generalize hy : v x.2 = y at h7
    cases h7 with
    | lda hi hf he => exact c54_lda he (hn x hx) ⟨h1, h2, hi, hf⟩ h4 h5 hsh h6
    | gga hi hf he => exact c54_gga he (hn x hx) ⟨h1, h2, hi, hf⟩ h4 h5 hsh h6

/-! ## Instances -/

/-- Slater exchange (`alpha = 1`) of the density `|x|² + 5`. -/
example (P : Prims) (r : Coord 3) : (soloEps P .lda lda_x false soloRec).call (.ok (Demo.quad 3 5)) r none =
    .ok (-(3 / 4) * (3 / Real.pi) ^ (1 / 3 : ℝ) * (‖r‖ ^ 2 + 5) ^ (1 / 3 : ℝ)) := by
  have ht : thr (soloTree .lda false soloRec) = 1 / 10 ^ 15 := rfl
  have h := c54_lda (r := r) (mo := none) lda_x_is (solo_created P .lda lda_x false soloRec) (solo_single .lda lda_x false soloRec) soloRec_ok soloRec_zeta
    (rho := Demo.quad 3 5) rfl (by rw [ht]; change _ < ‖r‖ ^ 2 + 5; have : 0 ≤ ‖r‖ ^ 2 := by positivity
                                   norm_num; linarith)
  rw [h]
  change Except.ok ((1 : ℝ) * diracExchange (‖r‖ ^ 2 + 5)) = _
  rw [one_mul, diracExchange]

/-- PBE exchange of the density `|x|² + 5` at its minimum. -/
example (P : Prims) : (soloEps P .gga gga_x_pbe false soloRec).call (.ok (Demo.quad 3 5)) 0 none = .ok (diracExchange 5) := by
  have ht : thr (soloTree .gga false soloRec) = 1 / 10 ^ 15 := rfl
  have e0 : (Demo.quad 3 5).ent 0 [] = 5 := by change ‖(0 : Coord 3)‖ ^ 2 + 5 = 5; norm_num
  have h := c54_pbe_stationary (r := 0) (mo := none) (solo_created P .gga gga_x_pbe false soloRec) (solo_single .gga gga_x_pbe false soloRec) soloRec_ok soloRec_zeta
    one_ne_zero (rho := Demo.quad 3 5) rfl (by rw [ht, e0]; norm_num) ?_
  · rw [h, e0]
  · have hm : IsLocalMin (fun x : Coord 3 => (Demo.quad 3 5).ent x []) 0 := Filter.Eventually.of_forall fun x => by
      change ‖(0 : Coord 3)‖ ^ 2 + 5 ≤ ‖x‖ ^ 2 + 5
      rw [norm_zero]
      have : 0 ≤ ‖x‖ ^ 2 := by positivity
      linarith
    rw [gradient, hm.fderiv_eq_zero, map_zero]

/-- PBE exchange of the spin densities `|x|² + 5`, `|x|² + 6`. -/
example (P : Prims) (r : Coord 3) : ∃ e, (soloEps P .gga gga_x_pbe true soloRec).call (.ok (Demo.quad2 3 5)) r none = .ok e := by
  have h : 0 ≤ ‖r‖ ^ 2 := by positivity
  obtain ⟨e, he, _⟩ := c54_gga_pol (r := r) (mo := none) gga_x_pbe_is gga_x_pbe_spinScaling (solo_created P .gga gga_x_pbe true soloRec) (solo_single .gga gga_x_pbe true soloRec)
    soloRec_ok soloRec_zeta (rho := Demo.quad2 3 5) rfl (by
      change Unscreened soloRec (‖r‖ ^ 2 + 5) (‖r‖ ^ 2 + 5 + 1)
      constructor <;> norm_num [soloRec] <;> linarith)
  exact ⟨e, he⟩

open MeasureTheory in
/-- The PBE exchange energy of the uniform density 5 in the unit ball. -/
example (P : Prims) : (1 + 1) * ∫ _ in Metric.closedBall (0 : Coord 3) 1, (5 : ℝ) * diracExchange 5 ≤ ∫ _ in Metric.closedBall (0 : Coord 3) 1, (5 : ℝ) * diracExchange 5 ∧
    ∀ r : Coord 3, (soloEps P .gga gga_x_pbe false soloRec).call (.ok ⟨[], fun _ _ => 5⟩) r none = .ok (diracExchange 5) := by
  have ht : thr (soloTree .gga false soloRec) = 1 / 10 ^ 15 := rfl
  have h : ∀ r : Coord 3, (soloEps P .gga gga_x_pbe false soloRec).call (.ok ⟨[], fun _ _ => 5⟩) r none = .ok (diracExchange 5) := fun r =>
    c54_pbe_stationary (solo_created P .gga gga_x_pbe false soloRec) (solo_single .gga gga_x_pbe false soloRec) soloRec_ok soloRec_zeta
      one_ne_zero (rho := ⟨[], fun _ _ => 5⟩) rfl (by rw [ht]; norm_num) (by rw [gradient, fderiv_fun_const]; exact map_zero _)
  have hi : IntegrableOn (fun _ : Coord 3 => (5 : ℝ) * diracExchange 5) (Metric.closedBall 0 1) :=
    integrableOn_const measure_closedBall_lt_top.ne
  exact ⟨(c54_pbe_energy (solo_created P .gga gga_x_pbe false soloRec) (solo_single .gga gga_x_pbe false soloRec) soloRec_ok soloRec_zeta
      (by change (0 : ℝ) < 1; norm_num) (zero_le_one) (rho := ⟨[], fun _ _ => 5⟩) rfl Metric.isClosed_closedBall.measurableSet (fun _ _ => by rw [ht]; norm_num) (fun r _ => h r) hi hi).1, h⟩

/-- The record of a mixture of three quarters of PBE exchange and a fifth of Slater exchange. -/
noncomputable def mixRec : PTree :=
  .node ⟨"mix", "", "gga", 1, soloRec, 0, 0, [3 / 4, 1 / 5]⟩ [.node ⟨"x", "x", "gga", 1, soloRec, 0, 0, []⟩ [], .node ⟨"y", "y", "lda", 1, soloRec, 0, 0, []⟩ []]

noncomputable def mixImpls : Impls := fun s => if s = "x" then some gga_x_pbe else if s = "y" then some lda_x else none

theorem mixRec_leaves : leaves mixRec = [(3 / 4 * 1, ⟨"x", "x", "gga", 1, soloRec, 0, 0, []⟩), (1 / 5 * 1, ⟨"y", "y", "lda", 1, soloRec, 0, 0, []⟩)] := by
  simp [leaves, leavesMix, mixRec]

/-- That mixture for `|x|² + 5`. -/
example (P : Prims) (r : Coord 3) (eps : EpsFn) (h : wrapper P mixImpls (fun _ _ _ => .ok mixRec) ⟨"mix", "", "gga", []⟩ false [] = .ok eps) :
    eps.call (.ok (Demo.quad 3 5)) r none = .ok (3 / 4 * (diracExchange (‖r‖ ^ 2 + 5) *
      pbeFactor 1 1 (reducedGradient (‖r‖ ^ 2 + 5) (‖gradient (fun x : Coord 3 => ‖x‖ ^ 2 + 5) r‖ ^ 2))) + 1 / 5 * diracExchange (‖r‖ ^ 2 + 5)) := by
  have hr : 0 ≤ ‖r‖ ^ 2 := by positivity
  have h5 : (Demo.quad 3 5).ent r [] = ‖r‖ ^ 2 + 5 := rfl
  have ht : 2 * soloRec.fld .densThreshold < (Demo.quad 3 5).ent r [] := by rw [h5]; norm_num [soloRec]; linarith
  have := c54_mixture (r := r) (mo := none) (rho := Demo.quad 3 5) (g := ⟨"mix", "", "gga", []⟩) (p := mixRec) ⟨⟨_, _, rfl, h⟩, rfl, rfl⟩
    (by simp [Sound, SoundAll, mixRec, mixImpls]) rfl
    (fun i => if i.type = "lda" then diracExchange (‖r‖ ^ 2 + 5) else diracExchange (‖r‖ ^ 2 + 5) *
      pbeFactor 1 1 (reducedGradient (‖r‖ ^ 2 + 5) (‖gradient (fun x : Coord 3 => ‖x‖ ^ 2 + 5) r‖ ^ 2))) (by
      rw [mixRec_leaves]
      intro x hx
      rcases List.mem_cons.1 hx with rfl | hx
      · exact ⟨rfl, soloRec_ok, soloRec_zeta, ht, .gga (F := fun p n g => pbeFactor (par p "kappa") (par p "mu") (reducedGradient n g)) rfl rfl gga_x_pbe_is⟩
      · rw [List.mem_singleton.1 hx]
        refine ⟨rfl, soloRec_ok, soloRec_zeta, ht, ?_⟩
        have := Published.lda (I := mixImpls) (i := ⟨"y", "y", "lda", 1, soloRec, 0, 0, []⟩) (x := (Demo.quad 3 5).ent r [])
          (y := ‖gradient (fun x => (Demo.quad 3 5).ent x []) r‖ ^ 2) rfl rfl lda_x_is
        rw [show par soloRec "alpha" = 1 from rfl, one_mul] at this
        exact this)
  rw [this, mixRec_leaves]
  simp

end Verif.Props
