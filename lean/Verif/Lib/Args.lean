import Verif.Spec.Api
import Verif.Lib.Calculus
/-!
# Lemmas about `rho_to_arguments` and `invoke`
-/
namespace Verif.Lib
open Verif.Py Verif.Model Verif.Spec

noncomputable section

/-- The arguments of an unpolarized call. -/
def unpolArgs (fam : Fam) (d s l t : ℝ) : List AVal :=
  match fam with
  | .lda => [.scal d]
  | .gga => [.scal d, .scal s]
  | .mgga => [.scal d, .scal s, .scal l, .scal t]

/-- The arguments of a polarized call. -/
def polArgs (fam : Fam) (d : ℝ × ℝ) (s : ℝ × ℝ × ℝ) (l t : ℝ × ℝ) : List AVal :=
  match fam with
  | .lda => [.vec2 d.1 d.2]
  | .gga => [.vec2 d.1 d.2, .tup3 s.1 s.2.1 s.2.2]
  | .mgga => [.vec2 d.1 d.2, .tup3 s.1 s.2.1 s.2.2, .vec2 l.1 l.2, .vec2 t.1 t.2]

theorem callUnpol_args (P : Prims) (f : Formula) (p : Rec) (fam : Fam) (d s l t : ℝ) :
    callUnpol P f p (unpolArgs fam d s l t) = f.unpol P p d (fam.grad s) (fam.meta l) (fam.meta t) := by cases fam <;> rfl

theorem callPol_args (P : Prims) (f : Formula) (p : Rec) (fam : Fam) (d : ℝ × ℝ) (s : ℝ × ℝ × ℝ) (l t : ℝ × ℝ) :
    callPol P f p (polArgs fam d s l t) = f.pol P p d (fam.grad s) (fam.meta l) (fam.meta t) := by cases fam <;> rfl

variable {n : ℕ} {p : PInfo} {fam : Fam} {rho : ArrFn n ℝ} {r : Coord n} {mo : Option (Callable n ℂ)}

theorem args_unpol (ht : p.type = famName fam) (hn : p.nspin = 1) (hs : rho.shape = []) (t : ℝ)
    (hm : fam = .mgga → ∃ m N, mo = some (.ok m) ∧ m.shape = [N] ∧ t = m.tau r [] N) :
    rhoToArguments p (.ok rho) r mo none = .ok (unpolArgs fam (rho.ent r []) (rho.jacDot r [] []) (rho.lapl r []) t) := by
  cases fam
  · simp [rhoToArguments, ht, hn, hs, famName, unpolArgs, bind, Except.bind]
  · simp [rhoToArguments, ht, hn, hs, famName, unpolArgs, bind, Except.bind]
  · obtain ⟨m, N, rfl, h1, rfl⟩ := hm rfl
    simp [rhoToArguments, ht, hn, hs, famName, unpolArgs, bind, Except.bind, h1, ArrFn.jacShape]

theorem args_pol (ht : p.type = famName fam) (hn : p.nspin = 2) (hs : rho.shape = [2]) (t : ℝ × ℝ)
    (hm : fam = .mgga → ∃ m N, mo = some (.ok m) ∧ m.shape = [2, N] ∧ t = (m.tau r [0] N, m.tau r [1] N)) :
    rhoToArguments p (.ok rho) r mo none = .ok (polArgs fam (rho.ent r [0], rho.ent r [1])
      (rho.jacDot r [0] [0], rho.jacDot r [0] [1], rho.jacDot r [1] [1]) (rho.lapl r [0], rho.lapl r [1]) t) := by
  cases fam
  · simp [rhoToArguments, ht, hn, hs, famName, polArgs, bind, Except.bind]
  · simp [rhoToArguments, ht, hn, hs, famName, polArgs, bind, Except.bind]
  · obtain ⟨m, N, rfl, h1, rfl⟩ := hm rfl
    simp [rhoToArguments, ht, hn, hs, famName, polArgs, bind, Except.bind, h1, ArrFn.jacShape]

theorem invoke_unpol (P : Prims) (f : Formula) (ht : p.type = famName fam) (hn : p.nspin = 1) (hs : rho.shape = []) (t : ℝ)
    (hm : fam = .mgga → ∃ m N, mo = some (.ok m) ∧ m.shape = [N] ∧ t = m.tau r [] N) :
    implInvoke P f p (.ok rho) r mo none =
      screened (rho.ent r []) (p.vals.fld .densThreshold) (f.unpol P p.vals (rho.ent r []) (fam.grad (rho.jacDot r [] [])) (fam.meta (rho.lapl r [])) (fam.meta t)) := by
  unfold implInvoke
  rw [args_unpol ht hn hs t hm, hn]
  simp only [bind, Except.bind, callUnpol_args]
  cases fam <;> rfl

theorem invoke_pol (P : Prims) (f : Formula) (ht : p.type = famName fam) (hn : p.nspin = 2) (hs : rho.shape = [2]) (t : ℝ × ℝ)
    (hm : fam = .mgga → ∃ m N, mo = some (.ok m) ∧ m.shape = [2, N] ∧ t = (m.tau r [0] N, m.tau r [1] N)) :
    implInvoke P f p (.ok rho) r mo none =
      screened (rho.ent r [0] + rho.ent r [1]) (p.vals.fld .densThreshold) (f.pol P p.vals (rho.ent r [0], rho.ent r [1])
        (fam.grad (rho.jacDot r [0] [0], rho.jacDot r [0] [1], rho.jacDot r [1] [1])) (fam.meta (rho.lapl r [0], rho.lapl r [1])) (fam.meta t)) := by
  unfold implInvoke
  rw [args_pol ht hn hs t hm, hn]
  simp only [bind, Except.bind, callPol_args]
  cases fam <;> rfl

end

section
variable {P : Prims} {I : Impls} {g : GenInfo} {polarized : Bool} {p : PTree} {eps : EpsFn}

theorem call_eq (hc : Created P I g polarized p eps) {n : ℕ} (rho : Callable n ℝ) (r : Coord n) (mo : Option (Callable n ℂ)) :
    eps.call rho r mo = invoke P I rho r (if p.info.type = "mgga" then mo else none) p := by
  obtain ⟨getP, given, h1, h2⟩ := hc.made
  simp only [wrapper, h1, bind, Except.bind, Except.ok.injEq] at h2
  rw [← h2, hc.type]

theorem call_single (hc : Created P I g polarized p eps) {fam : Fam} {f : Formula} (hs : Single I p fam f) {n : ℕ} (rho : Callable n ℝ) (r : Coord n)
    (mo : Option (Callable n ℂ)) : eps.call rho r mo = implInvoke P f p.info rho r (if fam = .mgga then mo else none) none := by
  rw [call_eq hc, hs.fam]
  obtain ⟨i, aux⟩ := p
  have e : (if famName fam = "mgga" then mo else none) = if fam = .mgga then mo else none := by cases fam <;> simp [famName]
  have h1 : i.mapleName ≠ "DEORBITALIZE" := hs.notDeo
  have h2 : i.mapleName ≠ "" := hs.notMix
  have h3 : I i.mapleName = some f := hs.impl
  rw [e, invoke.eq_def]
  simp only [if_neg h1, if_neg h2, h3]
  rfl
end

end Verif.Lib
