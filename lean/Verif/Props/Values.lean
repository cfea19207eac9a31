import Verif.Lib.Demo
/-!
# C05–C08, C10, C12: what the public API computes
-/
namespace Verif.Props
open Verif.Py Verif.Model Verif.Spec Verif.Lib InnerProductSpace

variable {n : ℕ}

/-! ## C05: which quantities are passed, and which they are -/

/-- C05, unpolarized LDA: the density alone. -/
theorem c05_lda_unpolarized (p : PInfo) (ht : p.type = "lda") (hn : p.nspin = 1) (rho : ArrFn n ℝ) (hr : rho.shape = []) (r : Coord n)
    (mo : Option (Callable n ℂ)) : rhoToArguments p (.ok rho) r mo none = .ok [.scal (rho.ent r [])] :=
  args_unpol (fam := .lda) ht hn hr 0 (fun h => by cases h)

/-- C05, polarized LDA: the pair of spin densities. -/
theorem c05_lda_polarized (p : PInfo) (ht : p.type = "lda") (hn : p.nspin = 2) (rho : ArrFn n ℝ) (hr : rho.shape = [2]) (r : Coord n)
    (mo : Option (Callable n ℂ)) : rhoToArguments p (.ok rho) r mo none = .ok [.vec2 (rho.ent r [0]) (rho.ent r [1])] :=
  args_pol (fam := .lda) ht hn hr 0 (fun h => by cases h)

/-- C05, unpolarized GGA: the density and its squared gradient. -/
theorem c05_gga_unpolarized (p : PInfo) (ht : p.type = "gga") (hn : p.nspin = 1) (rho : ArrFn n ℝ) (hr : rho.shape = []) (r : Coord n)
    (mo : Option (Callable n ℂ)) : rhoToArguments p (.ok rho) r mo none = .ok [.scal (rho.ent r []), .scal (gradSq (rho.ent · []) r)] := by
  rw [args_unpol (fam := .gga) ht hn hr 0 (fun h => by cases h), ← gradDot_self, ← jacDot_eq]; rfl

/-- Instance: `ρ = |x|² + 5` (at any point of any space). -/
example (r : Coord n) : rhoToArguments (Demo.info .gga false) (.ok (Demo.quad n 5)) r none none =
    .ok [.scal (‖r‖ ^ 2 + 5), .scal (gradSq (fun x => ‖x‖ ^ 2 + 5) r)] := c05_gga_unpolarized _ rfl rfl _ rfl r none

/-- C05, polarized GGA: the spin densities and the triple `(∇ρ↑·∇ρ↑, ∇ρ↑·∇ρ↓, ∇ρ↓·∇ρ↓)`. -/
theorem c05_gga_polarized (p : PInfo) (ht : p.type = "gga") (hn : p.nspin = 2) (rho : ArrFn n ℝ) (hr : rho.shape = [2]) (r : Coord n)
    (mo : Option (Callable n ℂ)) : rhoToArguments p (.ok rho) r mo none = .ok [.vec2 (rho.ent r [0]) (rho.ent r [1]),
      .tup3 (gradSq (rho.ent · [0]) r) (gradDot (rho.ent · [0]) (rho.ent · [1]) r) (gradSq (rho.ent · [1]) r)] := by
  rw [args_pol (fam := .gga) ht hn hr 0 (fun h => by cases h), ← gradDot_self, ← gradDot_self, ← jacDot_eq, ← jacDot_eq, ← jacDot_eq]; rfl

/-- C05, C07, C08, unpolarized mGGA: density, squared gradient, Laplacian, kinetic energy density. -/
theorem c05_mgga_unpolarized (p : PInfo) (ht : p.type = "mgga") (hn : p.nspin = 1) (rho : ArrFn n ℝ) (hr : rho.shape = []) (r : Coord n)
    (h2 : Twice (rho.ent · []) r) (mo : ArrFn n ℂ) (N : ℕ) (hm : mo.shape = [N]) :
    rhoToArguments p (.ok rho) r (some (.ok mo)) none =
      .ok [.scal (rho.ent r []), .scal (gradSq (rho.ent · []) r), .scal (lapl (rho.ent · []) r), .scal (kinetic (orb mo N) r)] := by
  rw [args_unpol (fam := .mgga) ht hn hr (mo.tau r [] N) (fun _ => ⟨mo, N, rfl, hm, rfl⟩), ← gradDot_self, ← jacDot_eq, ← lapl_eq _ _ _ h2, tau_eq]; rfl

/-- Instance. -/
example (r : Coord 3) : rhoToArguments (Demo.info .mgga false) (.ok (Demo.quad 3 5)) r (some (.ok (Demo.orbs [7] 2))) none =
    .ok [.scal (‖r‖ ^ 2 + 5), .scal (gradSq (fun x => ‖x‖ ^ 2 + 5) r), .scal (lapl (fun x => ‖x‖ ^ 2 + 5) r), .scal (kinetic (orb (Demo.orbs [7] 2) 7) r)] :=
  c05_mgga_unpolarized _ rfl rfl _ rfl r (Demo.quad_twice 3 5 r) _ 7 rfl

/-- C05, C07, C08, polarized mGGA. -/
theorem c05_mgga_polarized (p : PInfo) (ht : p.type = "mgga") (hn : p.nspin = 2) (rho : ArrFn n ℝ) (hr : rho.shape = [2]) (r : Coord n)
    (h0 : Twice (rho.ent · [0]) r) (h1 : Twice (rho.ent · [1]) r) (mo : ArrFn n ℂ) (N : ℕ) (hm : mo.shape = [2, N]) :
    rhoToArguments p (.ok rho) r (some (.ok mo)) none =
      .ok [.vec2 (rho.ent r [0]) (rho.ent r [1]),
        .tup3 (gradSq (rho.ent · [0]) r) (gradDot (rho.ent · [0]) (rho.ent · [1]) r) (gradSq (rho.ent · [1]) r),
        .vec2 (lapl (rho.ent · [0]) r) (lapl (rho.ent · [1]) r),
        .vec2 (kinetic (spinOrb mo N 0) r) (kinetic (spinOrb mo N 1) r)] := by
  rw [args_pol (fam := .mgga) ht hn hr (mo.tau r [0] N, mo.tau r [1] N) (fun _ => ⟨mo, N, rfl, hm, rfl⟩), ← gradDot_self, ← gradDot_self,
    ← jacDot_eq, ← jacDot_eq, ← jacDot_eq, ← lapl_eq _ _ _ h0, ← lapl_eq _ _ _ h1, tau_eq, tau_eq]; rfl

/-- Instance: the hypotheses can be met. -/
example (r : Coord 3) := c05_mgga_polarized (Demo.info .mgga true) rfl rfl (Demo.quad2 3 5) rfl r (Demo.quad2_twice 3 5 r _) (Demo.quad2_twice 3 5 r _)
  (Demo.orbs [2, 7] 2) 7 rfl

/-! ## C05 with a value for `deorbitalize`: the fourth argument is replaced, and nothing else -/

/-- C05, C18, unpolarized mGGA called with `deorbitalize = d`: the kinetic energy density becomes `ρ·d`. -/
theorem c05_deorbitalize_unpolarized (p : PInfo) (ht : p.type = "mgga") (hn : p.nspin = 1) (rho : ArrFn n ℝ) (hr : rho.shape = []) (r : Coord n)
    (h2 : Twice (rho.ent · []) r) (mo : ArrFn n ℂ) (N : ℕ) (hm : mo.shape = [N]) (d : ℝ) :
    rhoToArguments p (.ok rho) r (some (.ok mo)) (some d) =
      .ok [.scal (rho.ent r []), .scal (gradSq (rho.ent · []) r), .scal (lapl (rho.ent · []) r), .scal (rho.ent r [] * d)] := by
  rw [← gradDot_self, ← jacDot_eq, ← lapl_eq _ _ _ h2]
  simp [rhoToArguments, ht, hn, hr, bind, Except.bind, hm, ArrFn.jacShape, AVal.smul]

/-- Instance. -/
example (r : Coord 3) : rhoToArguments (Demo.info .mgga false) (.ok (Demo.quad 3 5)) r (some (.ok (Demo.orbs [7] 2))) (some 11) =
    .ok [.scal (‖r‖ ^ 2 + 5), .scal (gradSq (fun x => ‖x‖ ^ 2 + 5) r), .scal (lapl (fun x => ‖x‖ ^ 2 + 5) r), .scal ((‖r‖ ^ 2 + 5) * 11)] :=
  c05_deorbitalize_unpolarized _ rfl rfl _ rfl r (Demo.quad_twice 3 5 r) _ 7 rfl 11

/-- C05, C18, polarized mGGA called with `deorbitalize = d`. -/
theorem c05_deorbitalize_polarized (p : PInfo) (ht : p.type = "mgga") (hn : p.nspin = 2) (rho : ArrFn n ℝ) (hr : rho.shape = [2]) (r : Coord n)
    (h0 : Twice (rho.ent · [0]) r) (h1 : Twice (rho.ent · [1]) r) (mo : ArrFn n ℂ) (N : ℕ) (hm : mo.shape = [2, N]) (d : ℝ) :
    rhoToArguments p (.ok rho) r (some (.ok mo)) (some d) =
      .ok [.vec2 (rho.ent r [0]) (rho.ent r [1]),
        .tup3 (gradSq (rho.ent · [0]) r) (gradDot (rho.ent · [0]) (rho.ent · [1]) r) (gradSq (rho.ent · [1]) r),
        .vec2 (lapl (rho.ent · [0]) r) (lapl (rho.ent · [1]) r), .vec2 (rho.ent r [0] * d) (rho.ent r [1] * d)] := by
  rw [← gradDot_self, ← gradDot_self, ← jacDot_eq, ← jacDot_eq, ← jacDot_eq, ← lapl_eq _ _ _ h0, ← lapl_eq _ _ _ h1]
  simp [rhoToArguments, ht, hn, hr, bind, Except.bind, hm, ArrFn.jacShape, AVal.smul]

/-- Instance. -/
example (r : Coord 3) := c05_deorbitalize_polarized (Demo.info .mgga true) rfl rfl (Demo.quad2 3 5) rfl r (Demo.quad2_twice 3 5 r _)
  (Demo.quad2_twice 3 5 r _) (Demo.orbs [2, 7] 2) 7 rfl 11

/-- C05: an LDA or a GGA ignores `deorbitalize`. -/
theorem c05_deorbitalize_ignored (p : PInfo) (ht : p.type ≠ "mgga") (rho : Callable n ℝ) (r : Coord n) (mo : Option (Callable n ℂ)) (d : ℝ) :
    rhoToArguments p rho r mo (some d) = rhoToArguments p rho r mo none := by
  unfold rhoToArguments
  split
  · rfl
  · rename_i h
    have : p.type = "lda" ∨ p.type = "gga" := by tauto
    rcases this with e | e <;> simp [e]

/-- C05: a call with `deorbitalize` raises exactly when the call without raises, and the same exception: the orbitals are required and checked
although they are not used. -/
theorem c05_deorbitalize_errors (p : PInfo) (rho : Callable n ℝ) (r : Coord n) (mo : Option (Callable n ℂ)) (d : ℝ) (e : PyErr) :
    rhoToArguments p rho r mo (some d) = .error e ↔ rhoToArguments p rho r mo none = .error e := by
  unfold rhoToArguments
  cases mo with
  | none => rfl
  | some mo =>
    cases mo with
    | error x => rfl
    | ok m =>
      simp only [bind, Except.bind]
      split
      · rfl
      split
      · rfl
      cases rho with
      | error x => rfl
      | ok rho =>
        simp only
        split
        · rfl
        split
        · rfl
        split
        · rfl
        split
        · rfl
        generalize (if (decide (rho.shape = [2]) : Bool) = true then _ else _ : Except PyErr AVal) = t
        cases t with
        | error x => rfl
        | ok t => simp only [reduceCtorEq]

/-! ## C06: `σ` is physically consistent -/

/-- C06: the diagonal contractions are not negative (`σ` is a squared norm). -/
theorem c06_nonneg (f : Coord n → ℝ) (r : Coord n) : 0 ≤ gradSq f r := sq_nonneg _

/-- C06: Cauchy–Schwarz, `σ↑↓² ≤ σ↑↑ σ↓↓`. -/
theorem c06_cauchy_schwarz (f g : Coord n → ℝ) (r : Coord n) : gradDot f g r ^ 2 ≤ gradSq f r * gradSq g r := by
  unfold gradDot gradSq
  rw [← mul_pow, ← sq_abs]
  exact pow_le_pow_left₀ (abs_nonneg _) (abs_real_inner_le_norm _ _) 2

/-- C06: the total `σ↑↑ + 2 σ↑↓ + σ↓↓` is the squared gradient of the total density. -/
theorem c06_total (f g : Coord n → ℝ) (r : Coord n) (hf : DifferentiableAt ℝ f r) (hg : DifferentiableAt ℝ g r) :
    gradSq f r + 2 * gradDot f g r + gradSq g r = gradSq (fun x => f x + g x) r := by
  have : gradient (fun x => f x + g x) r = gradient f r + gradient g r := by
    unfold gradient
    rw [fderiv_fun_add hf hg, map_add]
  unfold gradSq gradDot
  rw [this, norm_add_sq_real]

/-- C06: even without differentiability the total is not negative. -/
theorem c06_total_nonneg (f g : Coord n → ℝ) (r : Coord n) : 0 ≤ gradSq f r + 2 * gradDot f g r + gradSq g r := by
  unfold gradSq gradDot
  rw [← norm_add_sq_real]
  exact sq_nonneg _

/-! ## C07: `lapl` is the Laplacian -/

/-- C07: in coordinates, the sum of the second partial derivatives. -/
theorem c07_coordinates (f : Coord n → ℝ) (r : Coord n) (h : Twice f r) :
    lapl f r = ∑ i, fderiv ℝ (fun x => fderiv ℝ f x (EuclideanSpace.single i 1)) r (EuclideanSpace.single i 1) :=
  (lapl_eq ⟨[], fun x _ => f x⟩ r [] h).symm

/-! ## C10, C12: screening, and which code runs -/

variable {P : Prims} {I : Impls} {g : GenInfo} {p : PTree} {eps : EpsFn} {fam : Fam} {f : Formula}

/-- C05, C10, C12: at or above the threshold, an unpolarized functional returns what its unpolarized code computes from the textbook quantities. -/
theorem c10_above_unpolarized (hc : Created P I g false p eps) (hs : Single I p fam f) (rho : ArrFn n ℝ) (hr : rho.shape = []) (r : Coord n)
    (mo : Option (Callable n ℂ)) (N : ℕ) (φ : Fin N → Coord n → ℂ)
    (hm : fam = .mgga → Twice (rho.ent · []) r ∧ ∃ m, mo = some (.ok m) ∧ m.shape = [N] ∧ φ = orb m N) (ht : thr p ≤ rho.ent r []) :
    eps.call (.ok rho) r mo = f.unpol P p.info.vals (rho.ent r []) (fam.grad (gradSq (rho.ent · []) r)) (fam.meta (lapl (rho.ent · []) r))
      (fam.meta (kinetic φ r)) := by
  have key : ∀ c : Except PyErr ℝ, screened (rho.ent r []) (thr p) c = c := fun c => by
    cases c
    · rfl
    · simp [screened, bind, Except.bind, not_lt.2 ht]
  have e1 : rho.jacDot r [] [] = gradSq (rho.ent · []) r := by rw [← gradDot_self, ← jacDot_eq]
  rw [call_single hc hs]
  by_cases hfam : fam = .mgga
  · obtain ⟨h2, m, rfl, hsh, rfl⟩ := hm hfam
    rw [if_pos hfam, invoke_unpol P f hs.fam hc.nspin hr (m.tau r [] N) (fun _ => ⟨m, N, rfl, hsh, rfl⟩), tau_eq]
    refine (key _).trans ?_
    rw [e1, lapl_eq _ _ _ h2]; rfl
  · rw [if_neg hfam, invoke_unpol P f hs.fam hc.nspin hr 0 (fun h => absurd h hfam)]
    refine (key _).trans ?_
    rw [e1]
    cases fam
    · rfl
    · rfl
    · exact absurd rfl hfam

/-- Instance: `ρ = |x|² + 5` is above the threshold `1`. -/
example (r : Coord 3) : (Demo.eps .gga false).call (.ok (Demo.quad 3 5)) r none = .ok ((‖r‖ ^ 2 + 5) * (‖r‖ ^ 2 + 5)) :=
  c10_above_unpolarized (Demo.created .gga false) (Demo.single .gga false) (Demo.quad 3 5) rfl r none 0 (fun k => k.elim0) (fun h => by cases h)
    (by simp only [thr, Demo.tree, Demo.info, Demo.vals, PTree.info, Demo.quad]; nlinarith [sq_nonneg ‖r‖])

/-- C05, C10, C12: at or above the threshold (compared with the *sum* of the spins), a polarized functional returns what its polarized code
computes from the textbook quantities. -/
theorem c10_above_polarized (hc : Created P I g true p eps) (hs : Single I p fam f) (rho : ArrFn n ℝ) (hr : rho.shape = [2]) (r : Coord n)
    (mo : Option (Callable n ℂ)) (N : ℕ) (φ : Fin 2 → Fin N → Coord n → ℂ)
    (hm : fam = .mgga → Twice (rho.ent · [0]) r ∧ Twice (rho.ent · [1]) r ∧
      ∃ m, mo = some (.ok m) ∧ m.shape = [2, N] ∧ φ 0 = spinOrb m N 0 ∧ φ 1 = spinOrb m N 1)
    (ht : thr p ≤ rho.ent r [0] + rho.ent r [1]) :
    eps.call (.ok rho) r mo = f.pol P p.info.vals (rho.ent r [0], rho.ent r [1])
      (fam.grad (gradSq (rho.ent · [0]) r, gradDot (rho.ent · [0]) (rho.ent · [1]) r, gradSq (rho.ent · [1]) r))
      (fam.meta (lapl (rho.ent · [0]) r, lapl (rho.ent · [1]) r)) (fam.meta (kinetic (φ 0) r, kinetic (φ 1) r)) := by
  have key : ∀ c : Except PyErr ℝ, screened (rho.ent r [0] + rho.ent r [1]) (thr p) c = c := fun c => by
    cases c
    · rfl
    · simp [screened, bind, Except.bind, not_lt.2 ht]
  have e : (rho.jacDot r [0] [0], rho.jacDot r [0] [1], rho.jacDot r [1] [1]) =
      (gradSq (rho.ent · [0]) r, gradDot (rho.ent · [0]) (rho.ent · [1]) r, gradSq (rho.ent · [1]) r) := by
    rw [← gradDot_self, ← gradDot_self, ← jacDot_eq, ← jacDot_eq, ← jacDot_eq]
  rw [call_single hc hs]
  by_cases hfam : fam = .mgga
  · obtain ⟨h0, h1, m, rfl, hsh, e0, e1⟩ := hm hfam
    rw [if_pos hfam, invoke_pol P f hs.fam hc.nspin hr (m.tau r [0] N, m.tau r [1] N) (fun _ => ⟨m, N, rfl, hsh, rfl⟩), tau_eq, tau_eq, e0, e1]
    refine (key _).trans ?_
    rw [e, lapl_eq _ _ _ h0, lapl_eq _ _ _ h1]; rfl
  · rw [if_neg hfam, invoke_pol P f hs.fam hc.nspin hr 0 (fun h => absurd h hfam)]
    refine (key _).trans ?_
    rw [e]
    cases fam
    · rfl
    · rfl
    · exact absurd rfl hfam

/-- Instance. -/
example (r : Coord 3) : (Demo.eps .gga true).call (.ok (Demo.quad2 3 5)) r none = .ok ((‖r‖ ^ 2 + 5) * (‖r‖ ^ 2 + 5 + 1)) :=
  c10_above_polarized (Demo.created .gga true) (Demo.single .gga true) (Demo.quad2 3 5) rfl r none 0 (fun _ k => k.elim0) (fun h => by cases h)
    (by simp only [thr, Demo.tree, Demo.info, Demo.vals, PTree.info, Demo.quad2]; simp; nlinarith [sq_nonneg ‖r‖])

/-- C10: strictly below the threshold the result is exactly `0`.
(The code is still traced, so it has to be code that does not raise; no smoothness is needed.) -/
theorem c10_below_unpolarized (hc : Created P I g false p eps) (hs : Single I p fam f) (hf : NeverRaises fam f) (rho : ArrFn n ℝ)
    (hr : rho.shape = []) (r : Coord n) (mo : Option (Callable n ℂ)) (hm : fam = .mgga → ∃ m N, mo = some (.ok m) ∧ m.shape = [N])
    (ht : rho.ent r [] < thr p) : eps.call (.ok rho) r mo = .ok 0 := by
  rw [call_single hc hs]
  obtain ⟨t, htau⟩ : ∃ t, fam = .mgga → ∃ m N, (if fam = .mgga then mo else none) = some (.ok m) ∧ m.shape = [N] ∧ t = m.tau r [] N := by
    by_cases h : fam = .mgga
    · obtain ⟨m, N, h1, h2⟩ := hm h
      exact ⟨_, fun _ => ⟨m, N, by rw [if_pos h, h1], h2, rfl⟩⟩
    · exact ⟨0, fun h' => absurd h' h⟩
  rw [invoke_unpol P f hs.fam hc.nspin hr t htau]
  obtain ⟨e, he⟩ := hf.2 P p.info.vals (rho.ent r []) (rho.jacDot r [] []) (rho.lapl r []) t
  rw [he]
  simp only [screened, bind, Except.bind]
  rw [if_pos]
  exact ht

/-- Instance: `ρ = |x|² + ½` at the origin, where the code itself would return `¼`. -/
example : (Demo.eps .gga false).call (.ok (Demo.quad 3 (1 / 2))) 0 none = .ok 0 :=
  c10_below_unpolarized (Demo.created .gga false) (Demo.single .gga false) (Demo.neverRaises .gga) _ rfl 0 none (fun h => by cases h)
    (by simp only [thr, Demo.tree, Demo.info, Demo.vals, PTree.info, Demo.quad]; norm_num)

/-- C10: … in the polarized case when the sum of the spin densities is below the threshold. -/
theorem c10_below_polarized (hc : Created P I g true p eps) (hs : Single I p fam f) (hf : NeverRaises fam f) (rho : ArrFn n ℝ)
    (hr : rho.shape = [2]) (r : Coord n) (mo : Option (Callable n ℂ)) (hm : fam = .mgga → ∃ m N, mo = some (.ok m) ∧ m.shape = [2, N])
    (ht : rho.ent r [0] + rho.ent r [1] < thr p) : eps.call (.ok rho) r mo = .ok 0 := by
  rw [call_single hc hs]
  obtain ⟨t, htau⟩ : ∃ t, fam = .mgga → ∃ m N, (if fam = .mgga then mo else none) = some (.ok m) ∧ m.shape = [2, N] ∧
      t = (m.tau r [0] N, m.tau r [1] N) := by
    by_cases h : fam = .mgga
    · obtain ⟨m, N, h1, h2⟩ := hm h
      exact ⟨_, fun _ => ⟨m, N, by rw [if_pos h, h1], h2, rfl⟩⟩
    · exact ⟨0, fun h' => absurd h' h⟩
  rw [invoke_pol P f hs.fam hc.nspin hr t htau]
  obtain ⟨e, he⟩ := hf.1 P p.info.vals (rho.ent r [0], rho.ent r [1]) (rho.jacDot r [0] [0], rho.jacDot r [0] [1], rho.jacDot r [1] [1])
    (rho.lapl r [0], rho.lapl r [1]) t
  rw [he]
  simp only [screened, bind, Except.bind]
  rw [if_pos]
  exact ht

/-- Instance: spin densities `(-¼, ¾)` at the origin; only their sum counts. -/
example : (Demo.eps .gga true).call (.ok (Demo.quad2 3 (-1 / 4))) 0 none = .ok 0 :=
  c10_below_polarized (Demo.created .gga true) (Demo.single .gga true) (Demo.neverRaises .gga) _ rfl 0 none (fun h => by cases h)
    (by simp only [thr, Demo.tree, Demo.info, Demo.vals, PTree.info, Demo.quad2]; simp; norm_num)

/-- C12: `polarized=False` never runs the polarized code: the result does not depend on it. -/
theorem c12_unpolarized_code_only {I' : Impls} {f' : Formula} {eps' : EpsFn} (hc : Created P I g false p eps) (hs : Single I p fam f)
    (hc' : Created P I' g false p eps') (hs' : Single I' p fam f') (h : f.unpolBody = f'.unpolBody) (rho : Callable n ℝ) (r : Coord n)
    (mo : Option (Callable n ℂ)) : eps.call rho r mo = eps'.call rho r mo := by
  rw [call_single hc hs, call_single hc' hs']
  have hn : p.info.nspin = 1 := hc.nspin
  have : ∀ args, callUnpol P f p.info.vals args = callUnpol P f' p.info.vals args := fun args => by
    simp only [callUnpol, Formula.unpol, h]
  simp only [implInvoke, hn, this, OfNat.one_ne_ofNat, if_false]

/-- C12: `polarized=True` never runs the unpolarized code. -/
theorem c12_polarized_code_only {I' : Impls} {f' : Formula} {eps' : EpsFn} (hc : Created P I g true p eps) (hs : Single I p fam f)
    (hc' : Created P I' g true p eps') (hs' : Single I' p fam f') (h : f.polBody = f'.polBody) (rho : Callable n ℝ) (r : Coord n)
    (mo : Option (Callable n ℂ)) : eps.call rho r mo = eps'.call rho r mo := by
  rw [call_single hc hs, call_single hc' hs']
  have hn : p.info.nspin = 2 := hc.nspin
  have : ∀ args, callPol P f p.info.vals args = callPol P f' p.info.vals args := fun args => by
    simp only [callPol, Formula.pol, h]
  simp only [implInvoke, hn, this, if_true]

end Verif.Props
