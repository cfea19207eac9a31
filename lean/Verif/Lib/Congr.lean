import Verif.Lib.Tree
/-!
# When two calls of a functional agree
-/
namespace Verif.Lib
open Verif.Py Verif.Model Verif.Spec Topology

variable {n : ℕ}

/-- Two density functions look the same to the code, at `r` and at `r'`. -/
structure SameAt (rho rho' : ArrFn n ℝ) (r r' : Coord n) : Prop where
  shape : rho.shape = rho'.shape
  ent : ∀ i, rho.ent r i = rho'.ent r' i
  jacDot : ∀ i j, rho.jacDot r i j = rho'.jacDot r' i j
  lapl : ∀ i, rho.lapl r i = rho'.lapl r' i

/-- Two orbital functions look the same to the code. -/
inductive SameMo (r r' : Coord n) : Option (Callable n ℂ) → Option (Callable n ℂ) → Prop
  | none : SameMo r r' none none
  | error (e : PyErr) : SameMo r r' (some (.error e)) (some (.error e))
  | ok (m m' : ArrFn n ℂ) (hs : m.shape = m'.shape) (ht : ∀ pre k, m.tau r pre k = m'.tau r' pre k) : SameMo r r' (some (.ok m)) (some (.ok m'))

theorem rhoToArguments_congr (p : PInfo) {rho rho' : ArrFn n ℝ} {r r' : Coord n} {mo mo' : Option (Callable n ℂ)} (h : SameAt rho rho' r r')
    (hm : SameMo r r' mo mo') (d : Option ℝ) : rhoToArguments p (.ok rho) r mo d = rhoToArguments p (.ok rho') r' mo' d := by
  cases hm with
  | none => simp only [rhoToArguments, h.shape, h.ent, h.jacDot, h.lapl, bind, Except.bind]
  | error e => simp only [rhoToArguments, h.shape, h.ent, h.jacDot, h.lapl, bind, Except.bind, Option.isNone]
  | ok m m' hs ht =>
    have hj : m.jacShape = m'.jacShape := by unfold ArrFn.jacShape; rw [hs]
    simp only [rhoToArguments, h.shape, h.ent, h.jacDot, h.lapl, bind, Except.bind, Option.isNone, ht]
    rw [hj]

mutual
/-- All records in a tree. -/
def nodes : PTree → List PInfo
  | .node i aux => i :: nodesAll aux
def nodesAll : List PTree → List PInfo
  | [] => []
  | t :: ts => nodes t ++ nodesAll ts
end

mutual
/-- Change every record. -/
def mapInfo (F : PInfo → PInfo) : PTree → PTree
  | .node i aux => .node (F i) (mapAll F aux)
def mapAll (F : PInfo → PInfo) : List PTree → List PTree
  | [] => []
  | t :: ts => mapInfo F t :: mapAll F ts
end

section
variable {P : Prims} {I : Impls} {rho rho' : Callable n ℝ} {r r' : Coord n} {mo mo' : Option (Callable n ℂ)}

theorem invokeMix_map (F F' : PInfo → PInfo) : ∀ (aux : List PTree) (cs : List ℝ),
    (∀ t ∈ aux, invoke P I rho r mo (mapInfo F t) = invoke P I rho' r' mo' (mapInfo F' t)) →
    invokeMix P I rho r mo (mapAll F aux) cs = invokeMix P I rho' r' mo' (mapAll F' aux) cs
  | [], cs, _ => by simp only [mapAll, invokeMix_nil]
  | t :: ts, [], _ => by simp only [mapAll, invokeMix_short]
  | t :: ts, c :: cs, h => by
    simp only [mapAll, invokeMix_cons]
    rw [h t List.mem_cons_self, invokeMix_map F F' ts cs (fun t ht => h t (List.mem_cons_of_mem _ ht))]

theorem mem_nodesAll {t : PTree} : ∀ {aux : List PTree}, t ∈ aux → ∀ i ∈ nodes t, i ∈ nodesAll aux
  | u :: us, h, i, hi => by
    rw [nodesAll, List.mem_append]
    rcases List.mem_cons.1 h with rfl | h
    · exact Or.inl hi
    · exact Or.inr (mem_nodesAll h i hi)

/-- Two calls agree if all formulas agree. -/
theorem invoke_map (F F' : PInfo → PInfo) (hF : ∀ i, (F i).mapleName = i.mapleName ∧ (F i).mixCoef = i.mixCoef)
    (hF' : ∀ i, (F' i).mapleName = i.mapleName ∧ (F' i).mixCoef = i.mixCoef) (t : PTree)
    (h : ∀ i ∈ nodes t, i.mapleName ≠ "" → i.mapleName ≠ "DEORBITALIZE" → leafCall P I rho r mo (F i) = leafCall P I rho' r' mo' (F' i)) :
    invoke P I rho r mo (mapInfo F t) = invoke P I rho' r' mo' (mapInfo F' t) := by
  induction t using PTree.ind with
  | h i aux ih =>
    have ih' : ∀ t ∈ aux, invoke P I rho r mo (mapInfo F t) = invoke P I rho' r' mo' (mapInfo F' t) := fun t ht =>
      ih t ht fun j hj => h j (by rw [nodes]; exact List.mem_cons_of_mem _ (mem_nodesAll ht j hj))
    have e : (F i).mapleName = i.mapleName := (hF i).1
    have e' : (F' i).mapleName = i.mapleName := (hF' i).1
    by_cases h1 : i.mapleName = "DEORBITALIZE"
    · simp only [mapInfo]
      rw [invoke.eq_def, invoke.eq_def]
      simp only [e, e', if_pos h1]
      match aux with
      | [] => simp [mapAll]
      | [_] => simp [mapAll]
      | a :: b :: c =>
        simp only [mapAll]
        rw [ih' b (by simp)]
    · by_cases h2 : i.mapleName = ""
      · match aux with
        | [] =>
          simp only [mapInfo, mapAll]
          rw [invoke.eq_def, invoke.eq_def]
          simp [e, e', h2]
        | a :: as =>
          simp only [mapInfo]
          rw [invoke_mix _ _ (by rw [e, h2]) (by simp [mapAll]), invoke_mix _ _ (by rw [e', h2]) (by simp [mapAll]), (hF i).2, (hF' i).2,
            invokeMix_map F F' _ _ ih']
      · simp only [mapInfo]
        rw [invoke_leaf _ _ (by rw [e]; exact h2) (by rw [e]; exact h1), invoke_leaf _ _ (by rw [e']; exact h2) (by rw [e']; exact h1)]
        exact h i (by rw [nodes]; exact List.mem_cons_self) h2 h1

theorem mapAll_id : ∀ (aux : List PTree), (∀ t ∈ aux, mapInfo id t = t) → mapAll id aux = aux
  | [], _ => rfl
  | t :: ts, h => by rw [mapAll, h t List.mem_cons_self, mapAll_id ts (fun t ht => h t (List.mem_cons_of_mem _ ht))]

theorem mapInfo_id (t : PTree) : mapInfo id t = t := by
  induction t using PTree.ind with
  | h i aux ih => rw [mapInfo, mapAll_id aux ih]; rfl

/-- Two calls of the same functional agree if all formulas agree. -/
theorem invoke_congr (t : PTree)
    (h : ∀ i ∈ nodes t, i.mapleName ≠ "" → i.mapleName ≠ "DEORBITALIZE" → leafCall P I rho r mo i = leafCall P I rho' r' mo' i) :
    invoke P I rho r mo t = invoke P I rho' r' mo' t := by
  have := invoke_map (P := P) (I := I) (rho := rho) (rho' := rho') (r := r) (r' := r') (mo := mo) (mo' := mo') id id (fun _ => ⟨rfl, rfl⟩) (fun _ => ⟨rfl, rfl⟩) t h
  rwa [mapInfo_id] at this

end

theorem leafCall_congr {P : Prims} {I : Impls} {rho rho' : ArrFn n ℝ} {r r' : Coord n} {mo mo' : Option (Callable n ℂ)} (h : SameAt rho rho' r r')
    (hm : SameMo r r' mo mo') (i : PInfo) : leafCall P I (.ok rho) r mo i = leafCall P I (.ok rho') r' mo' i := by
  unfold leafCall implInvoke
  simp only [rhoToArguments_congr i h hm]

theorem call_congr {P : Prims} {I : Impls} {g : GenInfo} {polarized : Bool} {p : PTree} {eps : EpsFn} (hc : Created P I g polarized p eps)
    {rho rho' : ArrFn n ℝ} {r r' : Coord n} {mo mo' : Option (Callable n ℂ)} (h : SameAt rho rho' r r') (hm : SameMo r r' mo mo') :
    eps.call (.ok rho) r mo = eps.call (.ok rho') r' mo' := by
  rw [call_eq hc, call_eq hc]
  refine invoke_congr p fun i _ _ _ => leafCall_congr h ?_ i
  split
  · exact hm
  · exact .none

end Verif.Lib
