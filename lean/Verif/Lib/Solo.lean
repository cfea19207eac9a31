import Verif.Lib.Args
/-!
# A functional with a given formula, to state concrete instances
-/
namespace Verif.Lib
open Verif.Py Verif.Model Verif.Spec

/-- A functional with a given formula and record. -/
noncomputable def soloTree (fam : Fam) (polarized : Bool) (v : Rec) : PTree := .node ⟨"solo", "solo", famName fam, if polarized then 2 else 1, v, 0, 0, []⟩ []

def soloImpls (f : Formula) : Impls := fun s => if s = "solo" then some f else none

def soloGen (fam : Fam) : GenInfo := ⟨"solo", "solo", famName fam, []⟩

noncomputable def soloEps (P : Prims) (fam : Fam) (f : Formula) (polarized : Bool) (v : Rec) : EpsFn :=
  { call := fun rho r mo => invoke P (soloImpls f) rho r (if famName fam = "mgga" then mo else none) (soloTree fam polarized v), attrs := [] }

theorem solo_created (P : Prims) (fam : Fam) (f : Formula) (polarized : Bool) (v : Rec) :
    Created P (soloImpls f) (soloGen fam) polarized (soloTree fam polarized v) (soloEps P fam f polarized v) where
  made := ⟨fun _ _ _ => .ok (soloTree fam polarized v), [], rfl, by
    simp only [wrapper, bind, Except.bind, soloGen, epsAttrs, soloTree, PTree.info]
    rfl⟩
  nspin := by cases polarized <;> rfl
  type := rfl

theorem solo_single (fam : Fam) (f : Formula) (polarized : Bool) (v : Rec) : Single (soloImpls f) (soloTree fam polarized v) fam f where
  notMix := by simp [soloTree, PTree.info]
  notDeo := by simp [soloTree, PTree.info]
  impl := by simp [soloTree, PTree.info, soloImpls]
  fam := rfl

/-- Thresholds as in libxc, all parameters `1`. -/
noncomputable def soloRec : Rec where
  fld f := match f with
    | .zetaThreshold => 2 ^ (-52 : ℤ)
    | .densThreshold => 1 / 10 ^ 15
    | _ => 1
  param _ := 1

theorem soloRec_ok : Thresholds soloRec := ⟨by norm_num [soloRec], by norm_num [soloRec]⟩

theorem soloRec_zeta : soloRec.fld .zetaThreshold < 1 := by norm_num [soloRec]

end Verif.Lib
