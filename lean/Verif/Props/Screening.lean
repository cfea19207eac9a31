import Verif.Props.Values
/-!
# C11: the energy density is flat in the screened region
-/
namespace Verif.Props
open Verif.Py Verif.Model Verif.Spec Verif.Lib Topology

variable {n : ℕ} {P : Prims} {I : Impls} {g : GenInfo} {p : PTree} {eps : EpsFn} {fam : Fam} {f : Formula}

/-- C11, unpolarized: around a point of continuity with density below the threshold, the energy density is `0` everywhere. -/
theorem c11_locally_zero_unpolarized (hc : Created P I g false p eps) (hs : Single I p fam f) (hf : NeverRaises fam f) (rho : ArrFn n ℝ)
    (hr : rho.shape = []) (r : Coord n) (mo : Option (Callable n ℂ)) (hm : fam = .mgga → ∃ m N, mo = some (.ok m) ∧ m.shape = [N])
    (hcont : ContinuousAt (rho.ent · []) r) (ht : rho.ent r [] < thr p) : ∀ᶠ x in 𝓝 r, eps.call (.ok rho) x mo = .ok 0 := by
  filter_upwards [hcont.eventually (gt_mem_nhds ht)] with x hx
  exact c10_below_unpolarized hc hs hf rho hr x mo hm hx

/-- C11, polarized. -/
theorem c11_locally_zero_polarized (hc : Created P I g true p eps) (hs : Single I p fam f) (hf : NeverRaises fam f) (rho : ArrFn n ℝ)
    (hr : rho.shape = [2]) (r : Coord n) (mo : Option (Callable n ℂ)) (hm : fam = .mgga → ∃ m N, mo = some (.ok m) ∧ m.shape = [2, N])
    (h0 : ContinuousAt (rho.ent · [0]) r) (h1 : ContinuousAt (rho.ent · [1]) r) (ht : rho.ent r [0] + rho.ent r [1] < thr p) :
    ∀ᶠ x in 𝓝 r, eps.call (.ok rho) x mo = .ok 0 := by
  filter_upwards [(h0.add h1).eventually (gt_mem_nhds ht)] with x hx
  exact c10_below_polarized hc hs hf rho hr x mo hm hx

/-- C11: hence, whatever function `E` the energy density is near `r`, its derivative at `r` exists and is zero. -/
theorem c11_derivative_unpolarized (hc : Created P I g false p eps) (hs : Single I p fam f) (hf : NeverRaises fam f) (rho : ArrFn n ℝ)
    (hr : rho.shape = []) (r : Coord n) (mo : Option (Callable n ℂ)) (hm : fam = .mgga → ∃ m N, mo = some (.ok m) ∧ m.shape = [N])
    (hcont : ContinuousAt (rho.ent · []) r) (ht : rho.ent r [] < thr p) (E : Coord n → ℝ)
    (hE : ∀ᶠ x in 𝓝 r, eps.call (.ok rho) x mo = .ok (E x)) : HasFDerivAt E (0 : Coord n →L[ℝ] ℝ) r := by
  have : E =ᶠ[𝓝 r] fun _ => 0 := by
    filter_upwards [hE, c11_locally_zero_unpolarized hc hs hf rho hr r mo hm hcont ht] with x h1 h2
    rw [h1] at h2; exact Except.ok.inj h2
  exact (hasFDerivAt_const 0 r).congr_of_eventuallyEq this

/-- C11, polarized. -/
theorem c11_derivative_polarized (hc : Created P I g true p eps) (hs : Single I p fam f) (hf : NeverRaises fam f) (rho : ArrFn n ℝ)
    (hr : rho.shape = [2]) (r : Coord n) (mo : Option (Callable n ℂ)) (hm : fam = .mgga → ∃ m N, mo = some (.ok m) ∧ m.shape = [2, N])
    (h0 : ContinuousAt (rho.ent · [0]) r) (h1 : ContinuousAt (rho.ent · [1]) r) (ht : rho.ent r [0] + rho.ent r [1] < thr p) (E : Coord n → ℝ)
    (hE : ∀ᶠ x in 𝓝 r, eps.call (.ok rho) x mo = .ok (E x)) : HasFDerivAt E (0 : Coord n →L[ℝ] ℝ) r := by
  have : E =ᶠ[𝓝 r] fun _ => 0 := by
    filter_upwards [hE, c11_locally_zero_polarized hc hs hf rho hr r mo hm h0 h1 ht] with x h1 h2
    rw [h1] at h2; exact Except.ok.inj h2
  exact (hasFDerivAt_const 0 r).congr_of_eventuallyEq this

/-- Instance: `ρ = |x|² + ½` at the origin. -/
example (E : Coord 3 → ℝ) (hE : ∀ᶠ x in 𝓝 (0 : Coord 3), (Demo.eps .gga false).call (.ok (Demo.quad 3 (1 / 2))) x none = .ok (E x)) :
    HasFDerivAt E (0 : Coord 3 →L[ℝ] ℝ) 0 :=
  c11_derivative_unpolarized (Demo.created .gga false) (Demo.single .gga false) (Demo.neverRaises .gga) _ rfl 0 none (fun h => by cases h)
    (Demo.quad_twice 3 (1 / 2) 0).continuousAt (by simp only [thr, Demo.tree, Demo.info, Demo.vals, PTree.info, Demo.quad]; norm_num) E hE

end Verif.Props
