import Verif.Lib.Demo
/-!
# C01–C04: what the public API accepts

`eps` is always a function returned by a generated wrapper (`Created`), for a functional with its own formula (`Single`).
-/
namespace Verif.Props
open Verif.Py Verif.Model Verif.Spec Verif.Lib

variable {P : Prims} {I : Impls} {g : GenInfo} {polarized : Bool} {p : PTree} {eps : EpsFn} {fam : Fam} {f : Formula} {n : ℕ}

/-- C01: a density whose shape is neither `()` nor `(2,)` is a `RuntimeError` (for an mGGA: when orbitals are given at all, see C03). -/
theorem c01_density_shape (hc : Created P I g polarized p eps) (hs : Single I p fam f) (rho : ArrFn n ℝ) (r : Coord n) (mo : Option (Callable n ℂ))
    (h1 : rho.shape ≠ []) (h2 : rho.shape ≠ [2]) (hmo : fam = .mgga → mo.isSome) : eps.call (.ok rho) r mo = .error .runtimeError := by
  rw [call_single hc hs]
  have ht := hs.fam
  cases fam
  · simp [implInvoke, rhoToArguments, ht, famName, h1, h2, bind, Except.bind]
  · simp [implInvoke, rhoToArguments, ht, famName, h1, h2, bind, Except.bind]
  · obtain ⟨m, rfl⟩ := Option.isSome_iff_exists.1 (hmo rfl)
    simp [implInvoke, rhoToArguments, ht, famName, h1, h2, bind, Except.bind]

/-- Instance: a density returning three numbers. -/
example (r : Coord 3) : (Demo.eps .gga true).call (.ok ⟨[3], fun _ _ => 1⟩) r none = .error .runtimeError :=
  c01_density_shape (Demo.created .gga true) (Demo.single .gga true) _ r none (by simp) (by simp) (fun h => by cases h)

/-- C01: … and in no case is an energy returned. -/
theorem c01_no_energy (hc : Created P I g polarized p eps) (hs : Single I p fam f) (rho : ArrFn n ℝ) (r : Coord n) (mo : Option (Callable n ℂ))
    (h1 : rho.shape ≠ []) (h2 : rho.shape ≠ [2]) (e : ℝ) : eps.call (.ok rho) r mo ≠ .ok e := by
  by_cases h : fam = .mgga → mo.isSome
  · rw [c01_density_shape hc hs rho r mo h1 h2 h]; simp
  · rw [call_single hc hs]
    have ht := hs.fam
    simp only [Classical.not_imp, Bool.not_eq_true, Option.isSome_eq_false_iff, Option.isNone_iff_eq_none] at h
    obtain ⟨rfl, rfl⟩ := h
    simp [implInvoke, rhoToArguments, ht, famName, bind, Except.bind]

/-- C02: a density of the wrong polarization is a `ValueError`. -/
theorem c02_mismatch (hc : Created P I g polarized p eps) (hs : Single I p fam f) (rho : ArrFn n ℝ) (r : Coord n) (mo : Option (Callable n ℂ))
    (h : rho.shape = if polarized then [] else [2]) : eps.call (.ok rho) r mo = .error .valueError := by
  rw [call_single hc hs]
  have ht := hs.fam
  have hn := hc.nspin
  cases polarized <;> cases fam <;> cases mo <;>
    simp_all [implInvoke, rhoToArguments, famName, bind, Except.bind]

/-- Instance: a scalar density for a polarized functional. -/
example (r : Coord 3) : (Demo.eps .gga true).call (.ok (Demo.quad 3 5)) r none = .error .valueError :=
  c02_mismatch (Demo.created .gga true) (Demo.single .gga true) _ r none rfl

/-- C02: a density of the right polarization is never rejected by an LDA or GGA: the call returns a number (for code that does not raise, C35). -/
theorem c02_agree (hc : Created P I g polarized p eps) (hs : Single I p fam f) (hf : NeverRaises fam f) (hfam : fam ≠ .mgga) (rho : ArrFn n ℝ)
    (r : Coord n) (mo : Option (Callable n ℂ)) (h : rho.shape = if polarized then [2] else []) : ∃ e, eps.call (.ok rho) r mo = .ok e := by
  rw [call_single hc hs, if_neg hfam]
  cases polarized
  · rw [invoke_unpol P f hs.fam hc.nspin h 0 (fun h => absurd h hfam)]
    obtain ⟨e, he⟩ := hf.2 P p.info.vals (rho.ent r []) (rho.jacDot r [] []) (rho.lapl r []) 0
    rw [he]; exact ⟨_, rfl⟩
  · rw [invoke_pol P f hs.fam hc.nspin h 0 (fun h => absurd h hfam)]
    obtain ⟨e, he⟩ := hf.1 P p.info.vals (rho.ent r [0], rho.ent r [1]) (rho.jacDot r [0] [0], rho.jacDot r [0] [1], rho.jacDot r [1] [1]) (rho.lapl r [0], rho.lapl r [1]) 0
    rw [he]; exact ⟨_, rfl⟩

/-- Instance. -/
example (r : Coord 3) : ∃ e, (Demo.eps .gga true).call (.ok (Demo.quad2 3 5)) r none = .ok e :=
  c02_agree (Demo.created .gga true) (Demo.single .gga true) (Demo.neverRaises .gga) (by simp) _ r none rfl

/-- C03: an mGGA called without orbitals is a `ValueError`, whatever the density is (even one that itself raises something else). -/
theorem c03_needs_orbitals (hc : Created P I g polarized p eps) (hs : Single I p .mgga f) (rho : Callable n ℝ) (r : Coord n) :
    eps.call rho r none = .error .valueError := by
  rw [call_single hc hs]
  simp [implInvoke, rhoToArguments, hs.fam, famName, bind, Except.bind]

/-- Instance: the density itself would raise `IndexError`. -/
example (r : Coord 3) : (Demo.eps .mgga true).call (.error .indexError) r none = .error .valueError :=
  c03_needs_orbitals (Demo.created .mgga true) (Demo.single .mgga true) _ r

/-- C03: an LDA or GGA never looks at the orbitals. -/
theorem c03_ignores_orbitals (hc : Created P I g polarized p eps) (hs : Single I p fam f) (hfam : fam ≠ .mgga) (rho : Callable n ℝ) (r : Coord n)
    (mo mo' : Option (Callable n ℂ)) : eps.call rho r mo = eps.call rho r mo' := by
  rw [call_single hc hs, call_single hc hs, if_neg hfam, if_neg hfam]

/-- Instance: orbitals that raise are not noticed. -/
example (r : Coord 3) : (Demo.eps .lda false).call (.ok (Demo.quad 3 5)) r (some (.error .indexError)) = (Demo.eps .lda false).call (.ok (Demo.quad 3 5)) r none :=
  c03_ignores_orbitals (Demo.created .lda false) (Demo.single .lda false) (by simp) _ r _ _

/-- C04, polarized: orbitals of shape `(2, N)` are accepted. -/
theorem c04_polarized_accepts (hc : Created P I g true p eps) (hs : Single I p .mgga f) (hf : NeverRaises .mgga f) (rho : ArrFn n ℝ) (r : Coord n)
    (mo : ArrFn n ℂ) (hr : rho.shape = [2]) (N : ℕ) (hm : mo.shape = [2, N]) : ∃ e, eps.call (.ok rho) r (some (.ok mo)) = .ok e := by
  rw [call_single hc hs, if_pos rfl, invoke_pol P f hs.fam hc.nspin hr (mo.tau r [0] N, mo.tau r [1] N) (fun _ => ⟨mo, N, rfl, hm, rfl⟩)]
  obtain ⟨e, he⟩ := hf.1 P p.info.vals (rho.ent r [0], rho.ent r [1]) (rho.jacDot r [0] [0], rho.jacDot r [0] [1], rho.jacDot r [1] [1])
    (rho.lapl r [0], rho.lapl r [1]) (mo.tau r [0] N, mo.tau r [1] N)
  rw [he]; exact ⟨_, rfl⟩

/-- Instance. -/
example (r : Coord 3) : ∃ e, (Demo.eps .mgga true).call (.ok (Demo.quad2 3 5)) r (some (.ok (Demo.orbs [2, 7] 2))) = .ok e :=
  c04_polarized_accepts (Demo.created .mgga true) (Demo.single .mgga true) (Demo.neverRaises .mgga) _ r _ rfl 7 rfl

/-- C04, polarized: every other shape is rejected; a scalar with an `IndexError`, the others with a `ValueError`. -/
theorem c04_polarized_rejects (hc : Created P I g true p eps) (hs : Single I p .mgga f) (rho : ArrFn n ℝ) (r : Coord n)
    (mo : ArrFn n ℂ) (hr : rho.shape = [2]) (hm : ∀ N, mo.shape ≠ [2, N]) :
    eps.call (.ok rho) r (some (.ok mo)) = .error (if mo.shape = [] then .indexError else .valueError) := by
  rw [call_single hc hs, if_pos rfl]
  have hn : p.info.nspin = 2 := hc.nspin
  rcases e : mo.shape with _ | ⟨a, _ | ⟨b, _ | ⟨c, l⟩⟩⟩
  · simp [implInvoke, rhoToArguments, hs.fam, hn, hr, famName, bind, Except.bind, ArrFn.jacShape, e]
  · simp [implInvoke, rhoToArguments, hs.fam, hn, hr, famName, bind, Except.bind, ArrFn.jacShape, e]
  · have : a ≠ 2 := fun h => hm b (by rw [e, h])
    simp [implInvoke, rhoToArguments, hs.fam, hn, hr, famName, bind, Except.bind, ArrFn.jacShape, e, this]
  · simp [implInvoke, rhoToArguments, hs.fam, hn, hr, famName, bind, Except.bind, ArrFn.jacShape, e]

/-- Instance: three axes. -/
example (r : Coord 3) : (Demo.eps .mgga true).call (.ok (Demo.quad2 3 5)) r (some (.ok (Demo.orbs [2, 7, 1] 2))) = .error .valueError :=
  c04_polarized_rejects (Demo.created .mgga true) (Demo.single .mgga true) _ r (Demo.orbs [2, 7, 1] 2) rfl (by simp [Demo.orbs])

/-- C04: hence the layout `(N, 2)` that README.rst documents is rejected, unless it happens to be `(2, 2)`. -/
theorem c04_readme_layout (hc : Created P I g true p eps) (hs : Single I p .mgga f) (rho : ArrFn n ℝ) (r : Coord n)
    (mo : ArrFn n ℂ) (hr : rho.shape = [2]) (N : ℕ) (hN : N ≠ 2) (hm : mo.shape = [N, 2]) :
    eps.call (.ok rho) r (some (.ok mo)) = .error .valueError := by
  rw [c04_polarized_rejects hc hs rho r mo hr (by rw [hm]; simp [hN]), hm]; simp

/-- Instance: seven orbitals in the documented layout. -/
example (r : Coord 3) : (Demo.eps .mgga true).call (.ok (Demo.quad2 3 5)) r (some (.ok (Demo.orbs [7, 2] 2))) = .error .valueError :=
  c04_readme_layout (Demo.created .mgga true) (Demo.single .mgga true) _ r _ rfl 7 (by simp) rfl

/-- C04, unpolarized: orbitals of shape `(N,)` are accepted. -/
theorem c04_unpolarized_accepts (hc : Created P I g false p eps) (hs : Single I p .mgga f) (hf : NeverRaises .mgga f) (rho : ArrFn n ℝ) (r : Coord n)
    (mo : ArrFn n ℂ) (hr : rho.shape = []) (N : ℕ) (hm : mo.shape = [N]) : ∃ e, eps.call (.ok rho) r (some (.ok mo)) = .ok e := by
  rw [call_single hc hs, if_pos rfl, invoke_unpol P f hs.fam hc.nspin hr (mo.tau r [] N) (fun _ => ⟨mo, N, rfl, hm, rfl⟩)]
  obtain ⟨e, he⟩ := hf.2 P p.info.vals (rho.ent r []) (rho.jacDot r [] []) (rho.lapl r []) (mo.tau r [] N)
  rw [he]; exact ⟨_, rfl⟩

/-- Instance. -/
example (r : Coord 3) : ∃ e, (Demo.eps .mgga false).call (.ok (Demo.quad 3 5)) r (some (.ok (Demo.orbs [7] 2))) = .ok e :=
  c04_unpolarized_accepts (Demo.created .mgga false) (Demo.single .mgga false) (Demo.neverRaises .mgga) _ r _ rfl 7 rfl

/-- C04, unpolarized: every other shape is a `ValueError`. -/
theorem c04_unpolarized_rejects (hc : Created P I g false p eps) (hs : Single I p .mgga f) (rho : ArrFn n ℝ) (r : Coord n)
    (mo : ArrFn n ℂ) (hr : rho.shape = []) (hm : ∀ N, mo.shape ≠ [N]) : eps.call (.ok rho) r (some (.ok mo)) = .error .valueError := by
  rw [call_single hc hs, if_pos rfl]
  have hn : p.info.nspin = 1 := hc.nspin
  rcases e : mo.shape with _ | ⟨a, _ | ⟨b, l⟩⟩
  · simp [implInvoke, rhoToArguments, hs.fam, hn, hr, famName, bind, Except.bind, ArrFn.jacShape, e]
  · exact absurd e (hm a)
  · simp [implInvoke, rhoToArguments, hs.fam, hn, hr, famName, bind, Except.bind, ArrFn.jacShape, e]

/-- Instance: a single orbital returned as a scalar. -/
example (r : Coord 3) : (Demo.eps .mgga false).call (.ok (Demo.quad 3 5)) r (some (.ok (Demo.orbs [] 2))) = .error .valueError :=
  c04_unpolarized_rejects (Demo.created .mgga false) (Demo.single .mgga false) _ r _ rfl (by simp [Demo.orbs])

end Verif.Props
