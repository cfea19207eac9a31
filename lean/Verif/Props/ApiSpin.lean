import Verif.Lib.Congr
import Verif.Lib.Demo
/-!
# C23, C24: spin symmetry of the public API
-/
namespace Verif.Props
open Verif.Py Verif.Model Verif.Spec Verif.Lib Topology

variable {n : ℕ} {P : Prims} {I : Impls}

/-- Every record of the tree that has a formula belongs to a family, has positive thresholds, and its formula has the property `Q`. -/
def AllFormulas (I : Impls) (Q : Fam → Formula → Prop) (t : PTree) : Prop :=
  ∀ i ∈ nodes t, i.mapleName ≠ "" → i.mapleName ≠ "DEORBITALIZE" → ∃ fam f, i.type = famName fam ∧ I i.mapleName = some f ∧ Thresholds i.vals ∧ Q fam f

/-- `p` with `nspin` set everywhere (what `polarized` changes, see C29). -/
def withSpin (k : ℕ) (t : PTree) : PTree := mapInfo (fun i => { i with nspin := k }) t

theorem withSpin_info (k : ℕ) (t : PTree) : (withSpin k t).info.type = t.info.type := by
  cases t; rfl

/-! ## C23 -/

/-- The density split evenly over the two spins. -/
noncomputable def halves (rho : ArrFn n ℝ) : ArrFn n ℝ := ⟨[2], fun x _ => rho.ent x [] / 2⟩

/-- Orbitals for the two spins which carry half the kinetic energy each. -/
inductive SplitMo (r : Coord n) : Option (Callable n ℂ) → Option (Callable n ℂ) → Prop
  | none : SplitMo r none none
  | ok (m m' : ArrFn n ℂ) (N M : ℕ) (h : m.shape = [N]) (h' : m'.shape = [2, M]) (h0 : kinetic (spinOrb m' M 0) r = kinetic (orb m N) r / 2)
      (h1 : kinetic (spinOrb m' M 1) r = kinetic (orb m N) r / 2) : SplitMo r (some (.ok m)) (some (.ok m'))

theorem jacEnt_halves (rho : ArrFn n ℝ) (x : Coord n) (i : List ℕ) (k : Fin n) : (halves rho).jacEnt x i k = rho.jacEnt x [] k / 2 := by
  unfold ArrFn.jacEnt halves
  have : (fun y => rho.ent y [] / 2) = (1 / 2 : ℝ) • fun y => rho.ent y [] := by funext y; simp [div_eq_inv_mul]
  simp only [this]
  rw [fderiv_const_smul_field]
  simp [div_eq_inv_mul]

theorem jacDot_halves (rho : ArrFn n ℝ) (r : Coord n) (i j : List ℕ) : (halves rho).jacDot r i j = rho.jacDot r [] [] / 4 := by
  unfold ArrFn.jacDot
  simp only [jacEnt_halves]
  rw [Finset.sum_div]
  exact Finset.sum_congr rfl fun k _ => by ring

theorem lapl_halves (rho : ArrFn n ℝ) (r : Coord n) (i : List ℕ) : (halves rho).lapl r i = rho.lapl r [] / 2 := by
  unfold ArrFn.lapl ArrFn.hvp
  rw [Finset.sum_div]
  refine Finset.sum_congr rfl fun k _ => ?_
  have : (fun x => (halves rho).jacEnt x i k) = (1 / 2 : ℝ) • fun x => rho.jacEnt x [] k := by
    funext y; rw [jacEnt_halves]; simp [div_eq_inv_mul]
  rw [this, fderiv_const_smul_field]
  simp [div_eq_inv_mul]

theorem jacDot_self_nonneg (rho : ArrFn n ℝ) (r : Coord n) (i : List ℕ) : 0 ≤ rho.jacDot r i i :=
  Finset.sum_nonneg fun _ _ => mul_self_nonneg _

theorem kinetic_nonneg {N : ℕ} (φ : Fin N → Coord n → ℂ) (r : Coord n) : 0 ≤ kinetic φ r := by
  unfold kinetic; positivity

theorem leaf_closedShell (i : PInfo) (fam : Fam) (f : Formula) (ht : i.type = famName fam) (hI : I i.mapleName = some f) (hv : Thresholds i.vals)
    (hf : ClosedShell fam f) (rho : ArrFn n ℝ) (hs : rho.shape = []) (r : Coord n) (hpos : 0 < rho.ent r []) (mo mo' : Option (Callable n ℂ))
    (hm : SplitMo r mo mo') :
    leafCall P I (.ok rho) r mo { i with nspin := 1 } = leafCall P I (.ok (halves rho)) r mo' { i with nspin := 2 } := by
  unfold leafCall
  simp only [hI]
  by_cases hfam : fam = .mgga → mo.isSome
  · obtain ⟨t, t', h1, h2, h3, h4⟩ : ∃ (t : ℝ) (t' : ℝ × ℝ), (fam = .mgga → ∃ m N, mo = some (.ok m) ∧ m.shape = [N] ∧ t = m.tau r [] N) ∧
        (fam = .mgga → ∃ m N, mo' = some (.ok m) ∧ m.shape = [2, N] ∧ t' = (m.tau r [0] N, m.tau r [1] N)) ∧ t' = (t / 2, t / 2) ∧ 0 ≤ t := by
      cases hm with
      | none => exact ⟨0, (0, 0), fun h => by simpa using hfam h, fun h => by simpa using hfam h, by simp, le_refl _⟩
      | ok m m' N M h h' h0 h1 =>
        refine ⟨m.tau r [] N, (m'.tau r [0] M, m'.tau r [1] M), fun _ => ⟨m, N, rfl, h, rfl⟩, fun _ => ⟨m', M, rfl, h', rfl⟩, ?_, ?_⟩
        · rw [tau_eq, tau_eq, tau_eq]
          exact Prod.ext h0 h1
        · rw [tau_eq]; exact kinetic_nonneg _ _
    rw [invoke_unpol P f (p := { i with nspin := 1 }) (fam := fam) ht rfl hs t h1,
      invoke_pol P f (p := { i with nspin := 2 }) (fam := fam) ht rfl rfl t' h2]
    simp only [jacDot_halves, lapl_halves, h3]
    obtain ⟨e, he, he'⟩ := hf P i.vals (rho.ent r []) (rho.jacDot r [] []) (rho.lapl r []) t hv hpos (jacDot_self_nonneg _ _ _) h4
    simp only [halves]
    rw [he, he']
    simp
  · have hfam' : fam = .mgga ∧ mo = none := by
      rw [Classical.not_imp] at hfam
      exact ⟨hfam.1, by simpa using hfam.2⟩
    obtain ⟨rfl, rfl⟩ := hfam'
    cases hm
    simp [implInvoke, rhoToArguments, ht, famName, bind, Except.bind]

/-- C23: a functional made with `polarized=True`, evaluated on a closed shell given as two equal spin densities, returns what the same functional made
with `polarized=False` returns on the total density; for mixtures of any depth, if all their formulas are closed-shell consistent (C21). -/
theorem c23_closedShell {g : GenInfo} {t : PTree} {epsU epsP : EpsFn} (hu : Created P I g false (withSpin 1 t) epsU)
    (hp : Created P I g true (withSpin 2 t) epsP) (hall : AllFormulas I ClosedShell t) (rho : ArrFn n ℝ) (hs : rho.shape = []) (r : Coord n)
    (hpos : 0 < rho.ent r []) (mo mo' : Option (Callable n ℂ)) (hm : SplitMo r mo mo') :
    epsU.call (.ok rho) r mo = epsP.call (.ok (halves rho)) r mo' := by
  rw [call_eq hu, call_eq hp, withSpin_info, withSpin_info]
  refine invoke_map (fun i => { i with nspin := 1 }) (fun i => { i with nspin := 2 }) (fun _ => ⟨rfl, rfl⟩) (fun _ => ⟨rfl, rfl⟩) t fun i hi h1 h2 => ?_
  obtain ⟨fam, f, ht, hI, hv, hf⟩ := hall i hi h1 h2
  refine leaf_closedShell i fam f ht hI hv hf rho hs r hpos _ _ ?_
  split
  · exact hm
  · exact .none

/-- A way to split orbitals: give both spins the orbitals `φ_k / √2`. -/
noncomputable def halfOrbs (m : ArrFn n ℂ) (N : ℕ) : ArrFn n ℂ := ⟨[2, N], fun x i => ((Real.sqrt (1 / 2) : ℝ) : ℂ) * m.ent x i.tail⟩

theorem splitMo_halfOrbs (r : Coord n) (m : ArrFn n ℂ) (N : ℕ) (h : m.shape = [N]) : SplitMo r (some (.ok m)) (some (.ok (halfOrbs m N))) := by
  have key : ∀ s : ℕ, kinetic (spinOrb (halfOrbs m N) N s) r = kinetic (orb m N) r / 2 := fun s => by
    unfold kinetic spinOrb orb halfOrbs
    rw [mul_div_assoc, Finset.sum_div]
    congr 1
    refine Finset.sum_congr rfl fun k _ => ?_
    rw [Finset.sum_div]
    refine Finset.sum_congr rfl fun j _ => ?_
    have : (fun x => ((Real.sqrt (1 / 2) : ℝ) : ℂ) * m.ent x [(k : ℕ)]) = (Real.sqrt (1 / 2)) • fun x => m.ent x [(k : ℕ)] := by
      funext x; simp
    simp only [List.tail_cons]
    rw [this, fderiv_const_smul_field]
    simp only [Pi.smul_apply, _root_.smul_apply, norm_smul, mul_pow, Real.norm_eq_abs, sq_abs]
    rw [Real.sq_sqrt (by norm_num)]
    ring
  exact .ok m _ N N h rfl (key 0) (key 1)

/-- Instance of the orbital hypothesis: two orbitals in three dimensions. -/
example (r : Coord 3) : SplitMo r (some (.ok (Demo.orbs [2] 2))) (some (.ok (halfOrbs (Demo.orbs [2] 2) 2))) := splitMo_halfOrbs r _ 2 rfl

/-! ## C24 -/

/-- The two spins exchanged (in a density of shape `(2,)` or orbitals of shape `(2, N)`). -/
def flipSpin {K : Type} (f : ArrFn n K) : ArrFn n K := ⟨f.shape, fun x i => match i with
  | 0 :: l => f.ent x (1 :: l)
  | 1 :: l => f.ent x (0 :: l)
  | l => f.ent x l⟩

/-- Orbitals as they may be passed: none, or something of shape `(2, N)`. -/
inductive FlipMo : Option (Callable n ℂ) → Option (Callable n ℂ) → Prop
  | none : FlipMo none none
  | ok (m : ArrFn n ℂ) (N : ℕ) (h : m.shape = [2, N]) : FlipMo (some (.ok m)) (some (.ok (flipSpin m)))

theorem leaf_spinFlip (i : PInfo) (fam : Fam) (f : Formula) (ht : i.type = famName fam) (hn : i.nspin = 2) (hI : I i.mapleName = some f)
    (hv : Thresholds i.vals) (hf : SpinFlip fam f) (rho : ArrFn n ℝ) (hs : rho.shape = [2]) (r : Coord n) (h0 : 0 < rho.ent r [0]) (h1 : 0 < rho.ent r [1])
    (mo mo' : Option (Callable n ℂ)) (hm : FlipMo mo mo') : leafCall P I (.ok rho) r mo i = leafCall P I (.ok (flipSpin rho)) r mo' i := by
  unfold leafCall
  simp only [hI]
  by_cases hfam : fam = .mgga → mo.isSome
  · obtain ⟨a, b, h2, h3, h4, h5⟩ : ∃ (a b : ℝ), (fam = .mgga → ∃ m N, mo = some (.ok m) ∧ m.shape = [2, N] ∧ (a, b) = (m.tau r [0] N, m.tau r [1] N)) ∧
        (fam = .mgga → ∃ m N, mo' = some (.ok m) ∧ m.shape = [2, N] ∧ (b, a) = (m.tau r [0] N, m.tau r [1] N)) ∧ 0 ≤ a ∧ 0 ≤ b := by
      cases hm with
      | none => exact ⟨0, 0, fun h => by simpa using hfam h, fun h => by simpa using hfam h, le_refl _, le_refl _⟩
      | ok m N h =>
        refine ⟨m.tau r [0] N, m.tau r [1] N, fun _ => ⟨m, N, rfl, h, rfl⟩, fun _ => ⟨flipSpin m, N, rfl, h, rfl⟩, ?_, ?_⟩
        · rw [tau_eq]; exact kinetic_nonneg _ _
        · rw [tau_eq]; exact kinetic_nonneg _ _
    rw [invoke_pol P f (p := i) (fam := fam) ht hn hs (a, b) h2, invoke_pol P f (p := i) (fam := fam) ht hn (rho := flipSpin rho) hs (b, a) h3]
    have e00 : (flipSpin rho).jacDot r [0] [0] = rho.jacDot r [1] [1] := rfl
    have e11 : (flipSpin rho).jacDot r [1] [1] = rho.jacDot r [0] [0] := rfl
    have e01 : (flipSpin rho).jacDot r [0] [1] = rho.jacDot r [0] [1] := by
      show rho.jacDot r [1] [0] = _
      unfold ArrFn.jacDot
      exact Finset.sum_congr rfl fun _ _ => mul_comm _ _
    have l0 : (flipSpin rho).lapl r [0] = rho.lapl r [1] := rfl
    have l1 : (flipSpin rho).lapl r [1] = rho.lapl r [0] := rfl
    obtain ⟨e, he, he'⟩ := hf P i.vals (rho.ent r [0]) (rho.ent r [1]) (rho.jacDot r [0] [0]) (rho.jacDot r [0] [1]) (rho.jacDot r [1] [1])
      (rho.lapl r [0]) (rho.lapl r [1]) a b hv h0 h1 (jacDot_self_nonneg _ _ _) (jacDot_self_nonneg _ _ _) h4 h5
    have d0 : (flipSpin rho).ent r [0] = rho.ent r [1] := rfl
    have d1 : (flipSpin rho).ent r [1] = rho.ent r [0] := rfl
    rw [e00, e11, e01, l0, l1, d0, d1, he, he', add_comm]
  · have hfam' : fam = .mgga ∧ mo = none := by
      rw [Classical.not_imp] at hfam
      exact ⟨hfam.1, by simpa using hfam.2⟩
    obtain ⟨rfl, rfl⟩ := hfam'
    cases hm
    simp [implInvoke, rhoToArguments, ht, famName, bind, Except.bind]

/-- C24: exchanging the two spins of density and orbitals does not change the value; for mixtures of any depth, if all their formulas are spin-flip
symmetric (C22). -/
theorem c24_spinFlip {g : GenInfo} {t : PTree} {eps : EpsFn} (hc : Created P I g true (withSpin 2 t) eps) (hall : AllFormulas I SpinFlip t)
    (rho : ArrFn n ℝ) (hs : rho.shape = [2]) (r : Coord n) (h0 : 0 < rho.ent r [0]) (h1 : 0 < rho.ent r [1])
    (mo mo' : Option (Callable n ℂ)) (hm : FlipMo mo mo') : eps.call (.ok rho) r mo = eps.call (.ok (flipSpin rho)) r mo' := by
  rw [call_eq hc, call_eq hc]
  refine invoke_map (fun i => { i with nspin := 2 }) (fun i => { i with nspin := 2 }) (fun _ => ⟨rfl, rfl⟩) (fun _ => ⟨rfl, rfl⟩) t fun i hi h2 h3 => ?_
  obtain ⟨fam, f, ht, hI, hv, hf⟩ := hall i hi h2 h3
  refine leaf_spinFlip { i with nspin := 2 } fam f ht rfl hI hv hf rho hs r h0 h1 _ _ ?_
  split
  · exact hm
  · exact .none

end Verif.Props
