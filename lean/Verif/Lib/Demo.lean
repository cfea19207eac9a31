import Verif.Lib.Args
import Mathlib.Analysis.InnerProductSpace.Calculus
/-!
# A concrete functional, to show that the hypotheses of the theorems can be met

`demo fam polarized` has the formula `res = r0 * r0` and the threshold `1`.
-/
namespace Verif.Demo
open Verif.Py Verif.Model Verif.Spec

noncomputable section

def prims : Prims := ⟨fun _ => 0, fun _ => 0, fun _ => 0, fun _ => 0, fun _ => 0, fun _ _ => 0⟩

/-- `res = r0 * r0`, polarized `res = r0 * r1`. -/
def code : Formula := ⟨⟨[], .mul (.inp .r0) (.inp .r1)⟩, ⟨[], .mul (.inp .r0) (.inp .r0)⟩⟩

def vals : Rec := ⟨fun _ => 1, fun _ => 0⟩

def info (fam : Fam) (polarized : Bool) : PInfo := ⟨"demo", "demo", famName fam, if polarized then 2 else 1, vals, 0, 0, []⟩

def tree (fam : Fam) (polarized : Bool) : PTree := .node (info fam polarized) []

def impls : Impls := fun s => if s = "demo" then some code else none

def gen (fam : Fam) : GenInfo := ⟨"demo", "demo", famName fam, []⟩

/-- The functional that the wrapper returns. -/
def eps (fam : Fam) (polarized : Bool) : EpsFn :=
  { call := fun rho r mo => invoke prims impls rho r (if famName fam = "mgga" then mo else none) (tree fam polarized), attrs := [] }

theorem created (fam : Fam) (polarized : Bool) : Created prims impls (gen fam) polarized (tree fam polarized) (eps fam polarized) where
  made := ⟨fun _ _ _ => .ok (tree fam polarized), [], rfl, by
    simp only [wrapper, bind, Except.bind, gen, epsAttrs, tree, PTree.info]
    rfl⟩
  nspin := by cases polarized <;> rfl
  type := rfl

theorem single (fam : Fam) (polarized : Bool) : Single impls (tree fam polarized) fam code where
  notMix := by simp [tree, info, PTree.info]
  notDeo := by simp [tree, info, PTree.info]
  impl := by simp [tree, info, PTree.info, impls]
  fam := rfl

theorem neverRaises (fam : Fam) : NeverRaises fam code :=
  ⟨fun _ _ _ _ _ _ => ⟨_, rfl⟩, fun _ _ _ _ _ _ => ⟨_, rfl⟩⟩

theorem unpol (fam : Fam) (P : Prims) (p : Rec) (r s l t : ℝ) : code.unpol P p r (fam.grad s) (fam.meta l) (fam.meta t) = .ok (r * r) := rfl

/-- The density `|x|² + c`. -/
def quad (n : ℕ) (c : ℝ) : ArrFn n ℝ := ⟨[], fun x _ => ‖x‖ ^ 2 + c⟩

/-- The spin densities `(|x|² + c, |x|² + c + 1)`. -/
def quad2 (n : ℕ) (c : ℝ) : ArrFn n ℝ := ⟨[2], fun x i => if i = [0] then ‖x‖ ^ 2 + c else ‖x‖ ^ 2 + c + 1⟩

/-- The orbitals `x₀, i x₀` (one per spin when polarized). -/
def orbs (shape : List ℕ) (n : ℕ) : ArrFn (n + 1) ℂ := ⟨shape, fun x i => if i.getLast? = some 0 then (x 0 : ℂ) else Complex.I * (x 0 : ℂ)⟩

theorem quad_twice (n : ℕ) (c : ℝ) (r : Coord n) : Twice ((quad n c).ent · []) r := by
  unfold Twice quad
  exact ((contDiff_norm_sq ℝ).add contDiff_const).contDiffAt

theorem quad2_twice (n : ℕ) (c : ℝ) (r : Coord n) (i : List ℕ) : Twice ((quad2 n c).ent · i) r := by
  unfold Twice quad2
  by_cases h : i = [0]
  · simp only [h, if_true]
    exact ((contDiff_norm_sq ℝ).add contDiff_const).contDiffAt
  · simp only [h, if_false]
    exact (((contDiff_norm_sq ℝ).add contDiff_const).add contDiff_const).contDiffAt

/-- A mixture: twice an LDA plus three times a mixture of a GGA and half an LDA. -/
def mixTree (polarized : Bool) : PTree :=
  .node ⟨"mix", "", "gga", if polarized then 2 else 1, vals, 0, 0, [2, 3]⟩ [tree .lda polarized,
    .node ⟨"inner", "", "gga", if polarized then 2 else 1, vals, 0, 0, [1, 1 / 2]⟩ [tree .gga polarized, tree .lda polarized]]

def mixGen : GenInfo := ⟨"mix", "", "gga", []⟩

def mixEps (polarized : Bool) : EpsFn :=
  { call := fun rho r _ => invoke prims impls rho r none (mixTree polarized),
    attrs := [("cam_alpha", 1), ("cam_beta", 1), ("cam_omega", 1), ("nlc_b", 0), ("nlc_C", 0)] }

theorem mixCreated (polarized : Bool) : Created prims impls mixGen polarized (mixTree polarized) (mixEps polarized) where
  made := ⟨fun _ _ _ => .ok (mixTree polarized), [], rfl, by
    simp only [wrapper, bind, Except.bind, mixGen, epsAttrs, mixTree, PTree.info]
    rfl⟩
  nspin := by cases polarized <;> rfl
  type := rfl

end

end Verif.Demo
