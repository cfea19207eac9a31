import Verif.Model.Functionals
import Verif.Spec.Density
import Verif.Spec.Formula
/-!
# Vocabulary for claims about the public API
-/
namespace Verif.Spec
open Verif.Py Verif.Model

/-- The string used for a family in `p.type`. -/
def famName : Fam → String
  | .lda => "lda"
  | .gga => "gga"
  | .mgga => "mgga"

/-- `eps` was made by calling the wrapper of the functional `g` with the given `polarized`, and `p` is the record that libxc returned.
(`nspin` and `type` of libxc's records are what C29 says; they are assumed here.) -/
structure Created (P : Prims) (I : Impls) (g : GenInfo) (polarized : Bool) (p : PTree) (eps : EpsFn) : Prop where
  made : ∃ getP given, getP g.name polarized (extValues g.extParams given) = .ok p ∧ wrapper P I getP g polarized given = .ok eps
  nspin : p.info.nspin = if polarized then 2 else 1
  type : p.info.type = g.type

/-- The functional has its own formula `f` (it is not a mixture), and belongs to the family `fam`. -/
structure Single (I : Impls) (p : PTree) (fam : Fam) (f : Formula) : Prop where
  notMix : p.info.mapleName ≠ ""
  notDeo : p.info.mapleName ≠ "DEORBITALIZE"
  impl : I p.info.mapleName = some f
  fam : p.info.type = famName fam

/-- The threshold below which densities are screened. -/
def thr (p : PTree) : ℝ := p.info.vals.fld .densThreshold

/-- The orbitals that an unpolarized (one axis) / one spin of a polarized (two axes) orbital function returns. -/
def orb {n : ℕ} (mo : ArrFn n ℂ) (N : ℕ) : Fin N → Coord n → ℂ := fun k x => mo.ent x [(k : ℕ)]
def spinOrb {n : ℕ} (mo : ArrFn n ℂ) (N : ℕ) (spin : ℕ) : Fin N → Coord n → ℂ := fun k x => mo.ent x [spin, (k : ℕ)]

end Verif.Spec
