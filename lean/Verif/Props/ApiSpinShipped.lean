import Verif.Props.ApiSpin
import Verif.Props.ClosedShellAll
import Verif.Props.SpinFlipAll
/-!
# C23, C24 for functionals made of shipped formulas
-/
namespace Verif.Props
open Verif.Py Verif.Model Verif.Spec Verif.Lib Verif.Data

/-- Every formula of the tree is a shipped one that is not in the list `excl`, and the thresholds are positive. -/
def UsesShipped (I : Impls) (excl : List String) (t : PTree) : Prop :=
  ∀ i ∈ nodes t, i.mapleName ≠ "" → i.mapleName ≠ "DEORBITALIZE" →
    ∃ s ∈ shipped, i.type = famName s.fam ∧ I i.mapleName = some s.code ∧ s.name ∉ excl ∧ Thresholds i.vals

/-- C23 for functionals made of shipped formulas (all but those in `closedShellOpen`). -/
theorem c23_shipped {n : ℕ} {P : Prims} {I : Impls} {g : GenInfo} {t : PTree} {epsU epsP : EpsFn} (hu : Created P I g false (withSpin 1 t) epsU)
    (hp : Created P I g true (withSpin 2 t) epsP) (hall : UsesShipped I closedShellOpen t) (rho : ArrFn n ℝ) (hs : rho.shape = []) (r : Coord n)
    (hpos : 0 < rho.ent r []) (mo mo' : Option (Callable n ℂ)) (hm : SplitMo r mo mo') :
    epsU.call (.ok rho) r mo = epsP.call (.ok (halves rho)) r mo' := by
  refine c23_closedShell hu hp (fun i hi h1 h2 => ?_) rho hs r hpos mo mo' hm
  obtain ⟨s, h3, h4, h5, h6, h7⟩ := hall i hi h1 h2
  exact ⟨s.fam, s.code, h4, h5, h7, closedShell_shipped_partial s h3 h6⟩

/-- C24 for functionals made of shipped formulas (all but those in `spinFlipOpen`). -/
theorem c24_shipped {n : ℕ} {P : Prims} {I : Impls} {g : GenInfo} {t : PTree} {eps : EpsFn} (hc : Created P I g true (withSpin 2 t) eps)
    (hall : UsesShipped I spinFlipOpen t) (rho : ArrFn n ℝ) (hs : rho.shape = [2]) (r : Coord n) (h0 : 0 < rho.ent r [0]) (h1 : 0 < rho.ent r [1])
    (mo mo' : Option (Callable n ℂ)) (hm : FlipMo mo mo') : eps.call (.ok rho) r mo = eps.call (.ok (flipSpin rho)) r mo' := by
  refine c24_spinFlip hc (fun i hi h1 h2 => ?_) rho hs r h0 h1 mo mo' hm
  obtain ⟨s, h3, h4, h5, h6, h7⟩ := hall i hi h1 h2
  exact ⟨s.fam, s.code, h4, h5, h7, spinFlip_shipped_partial s h3 h6⟩

/-! ## Instance: `¾ gga_x_pbe + gga_c_pbe` -/

/-- The two formulas. -/
noncomputable def pbe0Impls : Impls := fun s => if s = "gga_x_pbe" then some gga_x_pbe else if s = "gga_c_pbe" then some gga_c_pbe else none

noncomputable def pbe0 : PTree :=
  .node ⟨"hyb_gga_xc_pbeh", "", "gga", 1, Demo.vals, 0, 0, [3 / 4, 1]⟩
    [.node ⟨"gga_x_pbe", "gga_x_pbe", "gga", 1, Demo.vals, 0, 0, []⟩ [], .node ⟨"gga_c_pbe", "gga_c_pbe", "gga", 1, Demo.vals, 0, 0, []⟩ []]

theorem pbe0_uses (excl : List String) (h1 : "gga_x_pbe" ∉ excl) (h2 : "gga_c_pbe" ∉ excl) : UsesShipped pbe0Impls excl pbe0 := by
  intro i hi ha hb
  simp only [pbe0, nodes, nodesAll, List.mem_append, List.mem_cons, List.not_mem_nil, or_false, false_or] at hi
  rcases hi with rfl | rfl | rfl
  · exact absurd rfl ha
  · refine ⟨⟨"gga_x_pbe", .gga, gga_x_pbe⟩, ?_, rfl, rfl, h1, ⟨zero_lt_one, zero_lt_one⟩⟩
    simp [shipped, shipped03, shipped04, shipped05, shipped06, shipped07]
  · refine ⟨⟨"gga_c_pbe", .gga, gga_c_pbe⟩, ?_, rfl, rfl, h2, ⟨zero_lt_one, zero_lt_one⟩⟩
    simp [shipped, shipped02]

noncomputable def pbe0Gen : GenInfo := ⟨"hyb_gga_xc_pbeh", "", "gga", []⟩

/-- What the wrapper returns when `get_p` returns the tree above. -/
theorem pbe0_created (b : Bool) : ∃ eps, Created Demo.prims pbe0Impls pbe0Gen b (withSpin (if b then 2 else 1) pbe0) eps := by
  refine ⟨_, ⟨⟨fun _ _ _ => .ok (withSpin (if b then 2 else 1) pbe0), [], rfl, rfl⟩, rfl, rfl⟩⟩

/-- Instance of C23: the hypotheses can be met. -/
example (r : Coord 3) : ∃ epsU epsP : EpsFn, epsU.call (.ok (Demo.quad 3 5)) r none = epsP.call (.ok (halves (Demo.quad 3 5))) r none := by
  obtain ⟨epsU, hu⟩ := pbe0_created false
  obtain ⟨epsP, hp⟩ := pbe0_created true
  exact ⟨epsU, epsP, c23_shipped hu hp (pbe0_uses _ (by decide) (by decide)) _ rfl r (by simp only [Demo.quad]; positivity) none none .none⟩

/-- Instance of C24. -/
example (r : Coord 3) : ∃ eps : EpsFn, eps.call (.ok (Demo.quad2 3 5)) r none = eps.call (.ok (flipSpin (Demo.quad2 3 5))) r none := by
  obtain ⟨eps, hc⟩ := pbe0_created true
  exact ⟨eps, c24_shipped hc (pbe0_uses _ (by decide) (by decide)) _ rfl r (by simp [Demo.quad2]; positivity) (by simp [Demo.quad2]; positivity) none none .none⟩

end Verif.Props
