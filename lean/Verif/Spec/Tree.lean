import Verif.Spec.Api
/-!
# Mixtures, flattened
-/
namespace Verif.Spec
open Verif.Py Verif.Model

noncomputable section

mutual
/-- The formulas a record tree is made of, each with the product of the coefficients on the way to it. -/
def leaves : PTree → List (ℝ × PInfo)
  | .node i aux => if i.mapleName = "" then leavesMix aux i.mixCoef else [(1, i)]
/-- The leaves of the components of a mixture. -/
def leavesMix : List PTree → List ℝ → List (ℝ × PInfo)
  | t :: ts, c :: cs => (leaves t).map (fun x => (c * x.1, x.2)) ++ leavesMix ts cs
  | [], _ => []
  | _ :: _, [] => []
end

mutual
/-- A tree whose inner nodes are mixtures with one coefficient per component, and whose leaves have a formula. -/
def Sound (I : Impls) : PTree → Prop
  | .node i aux => (i.mapleName = "" ∧ aux ≠ [] ∧ aux.length = i.mixCoef.length ∧ SoundAll I aux) ∨
      (i.mapleName ≠ "" ∧ i.mapleName ≠ "DEORBITALIZE" ∧ (I i.mapleName).isSome)
/-- All components are sound. -/
def SoundAll (I : Impls) : List PTree → Prop
  | [] => True
  | t :: ts => Sound I t ∧ SoundAll I ts
end

mutual
/-- Every mixture in the tree has a coefficient for every component. -/
def Coefs : PTree → Prop
  | .node i aux => (i.mapleName = "" → aux.length ≤ i.mixCoef.length) ∧ CoefsAll aux
/-- All components have that property. -/
def CoefsAll : List PTree → Prop
  | [] => True
  | t :: ts => Coefs t ∧ CoefsAll ts
end

/-- What the formula of a leaf returns. -/
def leafCall (P : Prims) (I : Impls) {n : ℕ} (rho : Callable n ℝ) (r : Coord n) (mo : Option (Callable n ℂ)) (i : PInfo) : Except PyErr ℝ :=
  match I i.mapleName with
  | some f => implInvoke P f i rho r mo none
  | none => .error .attributeError

end

end Verif.Spec
