import Verif.Lib.Smooth
import Verif.Lib.Tree
import Verif.Lib.Demo
import Verif.Props.Mixtures
import Mathlib.Analysis.Calculus.ContDiff.FTaylorSeries
/-!
# C52: energy densities can be differentiated

Users differentiate what the API returns (`tests/test_grad.py` checks that a gradient is not `nan`).  Where the density and the orbitals are smooth, and the formula
is regular at their values (`Verif.Spec.Smooth`), the energy density is an infinitely differentiable function of the position; where the density is screened it
vanishes in a neighbourhood, and so do its derivatives.
-/
namespace Verif.Props
open Verif.Py Verif.Model Verif.Spec Verif.Lib Topology Filter
open scoped ContDiff

/-! ### Formulas -/

theorem grad_cases {X α : Type} (fam : Fam) (a : X → α) : (∀ x, fam.grad (a x) = none) ∨ ∀ x, fam.grad (a x) = some (a x) := by
  cases fam
  · exact .inl fun _ => rfl
  · exact .inr fun _ => rfl
  · exact .inr fun _ => rfl

theorem meta_cases {X α : Type} (fam : Fam) (a : X → α) : (∀ x, fam.meta (a x) = none) ∨ (fam = .mgga ∧ ∀ x, fam.meta (a x) = some (a x)) := by
  cases fam
  · exact .inl fun _ => rfl
  · exact .inl fun _ => rfl
  · exact .inr ⟨rfl, fun _ => rfl⟩

section
variable {X : Type} [NormedAddCommGroup X] [NormedSpace ℝ X] {x₀ : X}

theorem optInp_smooth {α : Type} (o : X → Option α) (f : α → ℝ) (a : X → α) (h : (∀ x, o x = none) ∨ ((∀ x, o x = some (a x)) ∧ ContDiffAt ℝ ∞ (fun x => f (a x)) x₀)) :
    (∃ e, optInp (o x₀) f = .error e) ∨ ∃ g : X → ℝ, ContDiffAt ℝ ∞ g x₀ ∧ ∀ᶠ x in 𝓝 x₀, optInp (o x) f = .ok (g x) := by
  rcases h with h | ⟨h, hs⟩
  · left; rw [h]; exact ⟨_, rfl⟩
  · right; exact ⟨_, hs, .of_forall fun x => by rw [h]; rfl⟩

/-- C52, unpolarized code: a formula of smooth arguments is smooth where it is regular. -/
theorem c52_unpol {P : Prims} (hP : SmoothPrims P) {fam : Fam} {f : Formula} (hf : NeverRaises fam f) (p : Rec) {ρ σ l τ : X → ℝ}
    (hρ : ContDiffAt ℝ ∞ ρ x₀) (hσ : ContDiffAt ℝ ∞ σ x₀) (hl : ContDiffAt ℝ ∞ l x₀) (hτ : fam = .mgga → ContDiffAt ℝ ∞ τ x₀)
    (hr : UnpolRegular P f p (ρ x₀) (fam.grad (σ x₀)) (fam.meta (l x₀)) (fam.meta (τ x₀))) :
    ∃ g : X → ℝ, ContDiffAt ℝ ∞ g x₀ ∧ ∀ᶠ x in 𝓝 x₀, f.unpol P p (ρ x) (fam.grad (σ x)) (fam.meta (l x)) (fam.meta (τ x)) = .ok (g x) := by
  refine run_smooth hP (E := fun x => unpolEnv p (ρ x) (fam.grad (σ x)) (fam.meta (l x)) (fam.meta (τ x))) ⟨fun i => ?_, fun _ => rfl, fun _ => rfl⟩ f.unpolBody
    (.of_forall fun x => hf.2 P p _ _ _ _) hr
  cases i with
  | r0 => exact .inr ⟨ρ, hρ, .of_forall fun _ => rfl⟩
  | s0 => exact optInp_smooth (fun x => fam.grad (σ x)) id σ ((grad_cases fam σ).imp_right fun h => ⟨h, hσ⟩)
  | l0 => exact optInp_smooth (fun x => fam.meta (l x)) id l ((meta_cases fam l).imp_right fun h => ⟨h.2, hl⟩)
  | tau0 => exact optInp_smooth (fun x => fam.meta (τ x)) id τ ((meta_cases fam τ).imp_right fun h => ⟨h.2, hτ h.1⟩)
  | r1 => exact .inl ⟨_, rfl⟩
  | s1 => exact .inl ⟨_, rfl⟩
  | s2 => exact .inl ⟨_, rfl⟩
  | l1 => exact .inl ⟨_, rfl⟩
  | tau1 => exact .inl ⟨_, rfl⟩

/-- C52, polarized code. -/
theorem c52_pol {P : Prims} (hP : SmoothPrims P) {fam : Fam} {f : Formula} (hf : NeverRaises fam f) (p : Rec) {ρ l τ : X → ℝ × ℝ} {σ : X → ℝ × ℝ × ℝ}
    (hρ : ContDiffAt ℝ ∞ ρ x₀) (hσ : ContDiffAt ℝ ∞ σ x₀) (hl : ContDiffAt ℝ ∞ l x₀) (hτ : fam = .mgga → ContDiffAt ℝ ∞ τ x₀)
    (hr : PolRegular P f p (ρ x₀) (fam.grad (σ x₀)) (fam.meta (l x₀)) (fam.meta (τ x₀))) :
    ∃ g : X → ℝ, ContDiffAt ℝ ∞ g x₀ ∧ ∀ᶠ x in 𝓝 x₀, f.pol P p (ρ x) (fam.grad (σ x)) (fam.meta (l x)) (fam.meta (τ x)) = .ok (g x) := by
  refine run_smooth hP (E := fun x => polEnv p (ρ x) (fam.grad (σ x)) (fam.meta (l x)) (fam.meta (τ x))) ⟨fun i => ?_, fun _ => rfl, fun _ => rfl⟩ f.polBody
    (.of_forall fun x => hf.1 P p _ _ _ _) hr
  cases i with
  | r0 => exact .inr ⟨_, hρ.fst, .of_forall fun _ => rfl⟩
  | r1 => exact .inr ⟨_, hρ.snd, .of_forall fun _ => rfl⟩
  | s0 => exact optInp_smooth (fun x => fam.grad (σ x)) (·.1) σ ((grad_cases fam σ).imp_right fun h => ⟨h, hσ.fst⟩)
  | s1 => exact optInp_smooth (fun x => fam.grad (σ x)) (·.2.1) σ ((grad_cases fam σ).imp_right fun h => ⟨h, hσ.snd.fst⟩)
  | s2 => exact optInp_smooth (fun x => fam.grad (σ x)) (·.2.2) σ ((grad_cases fam σ).imp_right fun h => ⟨h, hσ.snd.snd⟩)
  | l0 => exact optInp_smooth (fun x => fam.meta (l x)) (·.1) l ((meta_cases fam l).imp_right fun h => ⟨h.2, hl.fst⟩)
  | l1 => exact optInp_smooth (fun x => fam.meta (l x)) (·.2) l ((meta_cases fam l).imp_right fun h => ⟨h.2, hl.snd⟩)
  | tau0 => exact optInp_smooth (fun x => fam.meta (τ x)) (·.1) τ ((meta_cases fam τ).imp_right fun h => ⟨h.2, (hτ h.1).fst⟩)
  | tau1 => exact optInp_smooth (fun x => fam.meta (τ x)) (·.2) τ ((meta_cases fam τ).imp_right fun h => ⟨h.2, (hτ h.1).snd⟩)

end

/-! ### The arguments of formulas are smooth -/

section
variable {n : ℕ}

theorem jacEnt_smooth {K : Type} [NormedAddCommGroup K] [NormedSpace ℝ K] {f : Coord n → K} {r : Coord n} (h : ContDiffAt ℝ ∞ f r) (v : Coord n) :
    ContDiffAt ℝ ∞ (fun x => fderiv ℝ f x v) r :=
  (h.fderiv_right (m := ∞) (by simp)).clm_apply contDiffAt_const

theorem jacDot_smooth {rho : ArrFn n ℝ} {r : Coord n} {a b : List ℕ} (ha : ContDiffAt ℝ ∞ (rho.ent · a) r) (hb : ContDiffAt ℝ ∞ (rho.ent · b) r) :
    ContDiffAt ℝ ∞ (fun x => rho.jacDot x a b) r := by
  unfold ArrFn.jacDot ArrFn.jacEnt
  exact ContDiffAt.sum fun i _ => (jacEnt_smooth ha _).mul (jacEnt_smooth hb _)

theorem lapl_smooth {rho : ArrFn n ℝ} {r : Coord n} {a : List ℕ} (ha : ContDiffAt ℝ ∞ (rho.ent · a) r) :
    ContDiffAt ℝ ∞ (fun x => rho.lapl x a) r := by
  unfold ArrFn.lapl ArrFn.hvp ArrFn.jacEnt
  exact ContDiffAt.sum fun i _ => jacEnt_smooth (jacEnt_smooth ha _) _

theorem tau_smooth {m : ArrFn n ℂ} {r : Coord n} {pre : List ℕ} {N : ℕ} (h : ∀ k < N, ContDiffAt ℝ ∞ (m.ent · (pre ++ [k])) r) :
    ContDiffAt ℝ ∞ (fun x => m.tau x pre N) r := by
  unfold ArrFn.tau ArrFn.jacEnt
  refine ContDiffAt.div_const (ContDiffAt.sum fun k hk => ContDiffAt.sum fun i _ => ?_) 2
  have h1 := jacEnt_smooth (h k (Finset.mem_range.1 hk)) (eyeRow i)
  exact Complex.reCLM.contDiff.contDiffAt.comp r ((Complex.conjCLE.contDiff.contDiffAt.comp r h1).mul h1)

end

/-! ### The API -/

theorem two_le_smooth : (2 : WithTop ℕ∞) ≤ ∞ := WithTop.coe_le_coe.2 (le_top : (2 : ℕ∞) ≤ ⊤)

section
variable {n : ℕ} {P : Prims} {I : Impls} {g : GenInfo} {p : PTree} {eps : EpsFn} {fam : Fam} {f : Formula} {rho : ArrFn n ℝ} {mo : Option (Callable n ℂ)} {r : Coord n}

theorem screened_smooth {X : Type} [NormedAddCommGroup X] [NormedSpace ℝ X] {x₀ : X} {dens : X → ℝ} {t : ℝ} {v : X → Except PyErr ℝ} (hd : ContinuousAt dens x₀)
    (hok : ∀ x, ∃ e, v x = .ok e) (h : dens x₀ < t ∨ (t < dens x₀ ∧ ∃ g : X → ℝ, ContDiffAt ℝ ∞ g x₀ ∧ ∀ᶠ x in 𝓝 x₀, v x = .ok (g x))) :
    ∃ g : X → ℝ, ContDiffAt ℝ ∞ g x₀ ∧ ∀ᶠ x in 𝓝 x₀, screened (dens x) t (v x) = .ok (g x) := by
  rcases h with h | ⟨h, g, hg, he⟩
  · refine ⟨fun _ => 0, contDiffAt_const, ?_⟩
    filter_upwards [hd.eventually_lt_const h] with x hx
    obtain ⟨e, he⟩ := hok x
    rw [he]
    exact congrArg Except.ok (if_pos hx)
  · refine ⟨g, hg, ?_⟩
    filter_upwards [hd.eventually_const_lt h, he] with x hx he
    rw [he]
    exact congrArg Except.ok (if_neg (not_lt.2 hx.le))

/-- C52, unpolarized: the energy density that a functional returns is an infinitely differentiable function of the position near every point where the density (and, for a
mGGA, every orbital) is, provided that the density is not at the threshold and, when it is above, that the formula is regular at `ρ`, `|∇ρ|²`, `∇²ρ`, `τ`. -/
theorem c52_smooth_unpol (hP : SmoothPrims P) (hc : Created P I g false p eps) (hs : Single I p fam f) (hf : NeverRaises fam f) (hsh : rho.shape = [])
    (hρ : ContDiffAt ℝ ∞ (rho.ent · []) r) {m : ArrFn n ℂ} {N : ℕ} (hm : fam = .mgga → mo = some (.ok m) ∧ m.shape = [N] ∧ ∀ k, ContDiffAt ℝ ∞ (orb m N k) r)
    (h : rho.ent r [] < thr p ∨ (thr p < rho.ent r [] ∧ UnpolRegular P f p.info.vals (rho.ent r []) (fam.grad (gradSq (rho.ent · []) r))
      (fam.meta (lapl (rho.ent · []) r)) (fam.meta (kinetic (orb m N) r)))) :
    ∃ e : Coord n → ℝ, ContDiffAt ℝ ∞ e r ∧ ∀ᶠ x in 𝓝 r, eps.call (.ok rho) x mo = .ok (e x) := by
  have key : ∀ x, eps.call (.ok rho) x mo = screened (rho.ent x []) (thr p) (f.unpol P p.info.vals (rho.ent x []) (fam.grad (rho.jacDot x [] []))
      (fam.meta (rho.lapl x [])) (fam.meta (m.tau x [] N))) := fun x => by
    rw [call_single hc hs, invoke_unpol P f hs.fam (by rw [hc.nspin]; rfl) hsh (m.tau x [] N)]
    · rfl
    · intro e
      rw [if_pos e]
      exact ⟨m, N, (hm e).1, (hm e).2.1, rfl⟩
  simp only [key]
  refine screened_smooth hρ.continuousAt (fun x => hf.2 P _ _ _ _ _) (h.imp_right fun h => ⟨h.1, ?_⟩)
  refine c52_unpol hP hf p.info.vals hρ (jacDot_smooth hρ hρ) (lapl_smooth hρ) (fun e => tau_smooth fun k hk => (hm e).2.2 ⟨k, hk⟩) ?_
  rw [jacDot_eq, gradDot_self, lapl_eq rho r [] (hρ.of_le two_le_smooth), tau_eq]
  exact h.2

/-- C52, polarized. -/
theorem c52_smooth_pol (hP : SmoothPrims P) (hc : Created P I g true p eps) (hs : Single I p fam f) (hf : NeverRaises fam f) (hsh : rho.shape = [2])
    (hρ : ∀ s < 2, ContDiffAt ℝ ∞ (rho.ent · [s]) r) {m : ArrFn n ℂ} {N : ℕ}
    (hm : fam = .mgga → mo = some (.ok m) ∧ m.shape = [2, N] ∧ ∀ s < 2, ∀ k, ContDiffAt ℝ ∞ (spinOrb m N s k) r)
    (h : rho.ent r [0] + rho.ent r [1] < thr p ∨ (thr p < rho.ent r [0] + rho.ent r [1] ∧ PolRegular P f p.info.vals (rho.ent r [0], rho.ent r [1])
      (fam.grad (gradSq (rho.ent · [0]) r, gradDot (rho.ent · [0]) (rho.ent · [1]) r, gradSq (rho.ent · [1]) r))
      (fam.meta (lapl (rho.ent · [0]) r, lapl (rho.ent · [1]) r)) (fam.meta (kinetic (spinOrb m N 0) r, kinetic (spinOrb m N 1) r)))) :
    ∃ e : Coord n → ℝ, ContDiffAt ℝ ∞ e r ∧ ∀ᶠ x in 𝓝 r, eps.call (.ok rho) x mo = .ok (e x) := by
  have key : ∀ x, eps.call (.ok rho) x mo = screened (rho.ent x [0] + rho.ent x [1]) (thr p) (f.pol P p.info.vals (rho.ent x [0], rho.ent x [1])
      (fam.grad (rho.jacDot x [0] [0], rho.jacDot x [0] [1], rho.jacDot x [1] [1])) (fam.meta (rho.lapl x [0], rho.lapl x [1]))
      (fam.meta (m.tau x [0] N, m.tau x [1] N))) := fun x => by
    rw [call_single hc hs, invoke_pol P f hs.fam (by rw [hc.nspin]; rfl) hsh (m.tau x [0] N, m.tau x [1] N)]
    · rfl
    · intro e
      rw [if_pos e]
      exact ⟨m, N, (hm e).1, (hm e).2.1, rfl⟩
  have h0 := hρ 0 (by norm_num)
  have h1 := hρ 1 (by norm_num)
  simp only [key]
  refine screened_smooth (h0.continuousAt.add h1.continuousAt) (fun x => hf.1 P _ _ _ _ _) (h.imp_right fun h => ⟨h.1, ?_⟩)
  refine c52_pol hP hf p.info.vals (h0.prodMk h1) ((jacDot_smooth h0 h0).prodMk ((jacDot_smooth h0 h1).prodMk (jacDot_smooth h1 h1)))
    ((lapl_smooth h0).prodMk (lapl_smooth h1))
    (fun e => (tau_smooth fun k hk => (hm e).2.2 0 (by norm_num) ⟨k, hk⟩).prodMk (tau_smooth fun k hk => (hm e).2.2 1 (by norm_num) ⟨k, hk⟩)) ?_
  rw [jacDot_eq, jacDot_eq, jacDot_eq, gradDot_self, gradDot_self, lapl_eq rho r [0] (h0.of_le two_le_smooth),
    lapl_eq rho r [1] (h1.of_le two_le_smooth), tau_eq, tau_eq]
  exact h.2

/-- C52, mixtures: if every component functional is smooth near `r`, so is the mixture. -/
theorem c52_smooth_mix {polarized : Bool} (hc : Created P I g polarized p eps) (hs : Sound I p) (hm : p.info.type = "mgga" ∨ ∀ x ∈ leaves p, x.2.type ≠ "mgga")
    (epsOf : PInfo → EpsFn) (hcs : ∀ x ∈ leaves p, ∃ gi aux, Created P I gi polarized (.node x.2 aux) (epsOf x.2)) (rho : Callable n ℝ)
    (h : ∀ x ∈ leaves p, ∃ e : Coord n → ℝ, ContDiffAt ℝ ∞ e r ∧ ∀ᶠ y in 𝓝 r, (epsOf x.2).call rho y mo = .ok (e y)) :
    ∃ e : Coord n → ℝ, ContDiffAt ℝ ∞ e r ∧ ∀ᶠ y in 𝓝 r, eps.call rho y mo = .ok (e y) := by
  classical
  have h' : ∀ i : PInfo, ∃ e : Coord n → ℝ, (∃ w, (w, i) ∈ leaves p) → ContDiffAt ℝ ∞ e r ∧ ∀ᶠ y in 𝓝 r, (epsOf i).call rho y mo = .ok (e y) := fun i => by
    by_cases hi : ∃ w, (w, i) ∈ leaves p
    · obtain ⟨w, hw⟩ := hi
      obtain ⟨e, he⟩ := h _ hw
      exact ⟨e, fun _ => he⟩
    · exact ⟨fun _ => 0, fun h => absurd h hi⟩
  choose e he using h'
  refine ⟨fun y => ((leaves p).map fun x => x.1 * e x.2 y).sum, ?_, ?_⟩
  · have : ∀ l : List (ℝ × PInfo), (∀ x ∈ l, x ∈ leaves p) → ContDiffAt ℝ ∞ (fun y => (l.map fun x => x.1 * e x.2 y).sum) r := fun l => by
      induction l with
      | nil => intro _; exact contDiffAt_const
      | cons a l ih =>
        intro hl
        simp only [List.map_cons, List.sum_cons]
        exact (contDiffAt_const.mul (he a.2 ⟨a.1, hl a List.mem_cons_self⟩).1).add (ih fun x hx => hl x (List.mem_cons_of_mem _ hx))
    exact this _ fun _ h => h
  · have : ∀ᶠ y in 𝓝 r, ∀ x ∈ (leaves p).toFinset, (epsOf x.2).call rho y mo = .ok (e x.2 y) := by
      rw [Filter.eventually_all_finset]
      exact fun x hx => (he x.2 ⟨x.1, List.mem_toFinset.1 hx⟩).2
    filter_upwards [this] with y hy
    exact c13_linear_combination hc hs hm epsOf hcs rho y mo (fun i => e i y) fun x hx => hy x (List.mem_toFinset.2 hx)

/-- C52, vacuum: near a point where the density is below the threshold (and continuous) the energy density is zero, hence so are all its derivatives. -/
theorem c52_vacuum (hc : Created P I g false p eps) (hs : Single I p fam f) (hf : NeverRaises fam f) (hsh : rho.shape = [])
    (hρ : ContinuousAt (rho.ent · []) r) {m : ArrFn n ℂ} {N : ℕ} (hm : fam = .mgga → mo = some (.ok m) ∧ m.shape = [N]) (h : rho.ent r [] < thr p) :
    (∀ᶠ x in 𝓝 r, eps.call (.ok rho) x mo = .ok 0) ∧ ∀ (e : Coord n → ℝ), (∀ x, eps.call (.ok rho) x mo = .ok (e x)) → ∀ k : ℕ, iteratedFDeriv ℝ k e r = 0 := by
  have key : ∀ᶠ x in 𝓝 r, eps.call (.ok rho) x mo = .ok 0 := by
    filter_upwards [hρ.eventually_lt_const h] with x hx
    rw [call_single hc hs, invoke_unpol P f hs.fam (by rw [hc.nspin]; rfl) hsh (m.tau x [] N)]
    · obtain ⟨v, hv⟩ := hf.2 P p.info.vals (rho.ent x []) (rho.jacDot x [] []) (rho.lapl x []) (m.tau x [] N)
      rw [hv]
      exact congrArg Except.ok (if_pos hx)
    · intro e
      rw [if_pos e]
      exact ⟨m, N, (hm e).1, (hm e).2, rfl⟩
  refine ⟨key, fun e he k => ?_⟩
  have h0 : e =ᶠ[𝓝 r] fun _ => 0 := by
    filter_upwards [key] with x hx
    rw [he x] at hx
    exact Except.ok.inj hx
  rw [(h0.iteratedFDeriv ℝ k).self_of_nhds]
  simp

/-- C52, at the threshold: where the density is exactly the threshold, the formula is not zero, and there are points of lower density nearby, the energy density
is not even continuous.  So the hypothesis that the density is not at the threshold cannot be dropped. -/
theorem c52_jump (hc : Created P I g false p eps) (hs : Single I p fam f) (hf : NeverRaises fam f) (hsh : rho.shape = [])
    {m : ArrFn n ℂ} {N : ℕ} (hm : fam = .mgga → mo = some (.ok m) ∧ m.shape = [N])
    (hd : ∃ᶠ x in 𝓝 r, rho.ent x [] < thr p) (e : Coord n → ℝ) (he : ∀ x, eps.call (.ok rho) x mo = .ok (e x)) (h0 : e r ≠ 0) : ¬ContinuousAt e r := by
  intro hcont
  have h1 : ∃ᶠ x in 𝓝 r, e x = 0 := hd.mono fun x hx => by
    have := he x
    rw [call_single hc hs, invoke_unpol P f hs.fam (by rw [hc.nspin]; rfl) hsh (m.tau x [] N)] at this
    · obtain ⟨v, hv⟩ := hf.2 P p.info.vals (rho.ent x []) (rho.jacDot x [] []) (rho.lapl x []) (m.tau x [] N)
      rw [hv] at this
      exact (Except.ok.inj this).symm.trans (if_pos hx)
    · intro e
      rw [if_pos e]
      exact ⟨m, N, (hm e).1, (hm e).2, rfl⟩
  exact h1 (hcont.eventually_ne h0)

end

end Verif.Props
