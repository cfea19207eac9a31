import Verif.Model.Experimental
import Verif.Lib.Congr
import Verif.Lib.Demo
/-!
# C19, C20: the experimental API; C18: deorbitalized functionals
-/
namespace Verif.Props
open Verif.Py Verif.Model Verif.Spec Verif.Lib

/-! ## C20 -/

/-- What the experimental API decides from the shape of a density. -/
def inferred (s : List ℕ) : Except PyErr Bool :=
  match s with
  | [] => .ok false
  | [2] => .ok true
  | _ => .error .valueError

theorem isPolarized_eq (f32 f64 : Except PyErr (List ℕ)) : isPolarized f32 f64 = (evalShape f32 f64).bind inferred := by
  unfold isPolarized
  cases evalShape f32 f64 with
  | error e => rfl
  | ok s =>
    simp only [bind, Except.bind]
    by_cases h0 : s = []
    · subst h0; rfl
    · by_cases h2 : s = [2]
      · subst h2; rfl
      · rw [if_pos ⟨h2, h0⟩]
        unfold inferred
        split
        · exact absurd rfl h0
        · exact absurd rfl h2
        · rfl

/-- Polarization is inferred from the shape found with `float32`, if the density can be evaluated with `float32`. -/
theorem c20_float32 (s : List ℕ) (f64 : Except PyErr (List ℕ)) : isPolarized (.ok s) f64 = inferred s := isPolarized_eq _ _

/-- Otherwise it is inferred from the shape found with `float64`. -/
theorem c20_float64 (e : PyErr) (s : List ℕ) : isPolarized (.error e) (.ok s) = inferred s := isPolarized_eq _ _

/-- If that fails too, its exception is the result. -/
theorem c20_fails (e e' : PyErr) : isPolarized (.error e) (.error e') = .error e' := isPolarized_eq _ _

/-- Every shape except `()` and `(2,)` is rejected with `ValueError`. -/
theorem c20_rejects (f32 f64 : Except PyErr (List ℕ)) (s : List ℕ) (h : evalShape f32 f64 = .ok s) (h0 : s ≠ []) (h2 : s ≠ [2]) :
    isPolarized f32 f64 = .error .valueError := by
  rw [isPolarized_eq, h]
  show inferred s = _
  unfold inferred
  split
  · exact absurd rfl h0
  · exact absurd rfl h2
  · rfl

example : isPolarized (.error .typeError) (.ok [3]) = .error .valueError := c20_rejects _ _ [3] rfl (by simp) (by simp)

/-- Orbitals are accepted iff their shape is `(2, N)` for a polarized and `(N,)` for an unpolarized density; otherwise `ValueError`. -/
theorem c20_orbitals (f32 f64 : Except PyErr (List ℕ)) (s : List ℕ) (h : evalShape f32 f64 = .ok s) (polarized : Bool) :
    (checkMoShape f32 f64 polarized = .ok () ↔ ∃ N, s = if polarized then [2, N] else [N]) ∧
    ((∀ N, s ≠ if polarized then [2, N] else [N]) → checkMoShape f32 f64 polarized = .error .valueError) := by
  unfold checkMoShape
  rw [h]
  simp only [bind, Except.bind]
  cases polarized with
  | false =>
    match s with
    | [] => simp
    | [a] => simp
    | a :: b :: c => simp
  | true =>
    match s with
    | [] => simp
    | [a] => simp
    | [a, b] =>
      by_cases ha : a = 2
      · simp [ha]
      · simp [ha]
    | a :: b :: c :: d => simp

example : checkMoShape (.error .typeError) (.ok [2, 7]) true = .ok () := (c20_orbitals _ _ [2, 7] rfl true).1.2 ⟨7, rfl⟩

section
variable {P : Prims} {I : Impls} {getP : String → Bool → List ℝ → Except PyErr PTree} {g : GenInfo} {given : List (Option ℝ)}

/-- A functional of the experimental API yields an energy only for a density of shape `()` or `(2,)`, with the polarization that the shape says. -/
theorem c20_energy (rho : Traced ℝ) (mo : Option (Traced ℂ)) (r : Coord 3) (v : ℝ) (h : expWrapper P I getP g rho mo given r = .ok v) :
    ∃ s polarized p, evalShape (shapeOf rho.f32) (shapeOf rho.f64) = .ok s ∧ s = (if polarized then [2] else []) ∧
      getP g.name polarized (extValues g.extParams given) = .ok p ∧
      (∀ m, mo = some m → ∃ N, evalShape (shapeOf m.f32) (shapeOf m.f64) = .ok (if polarized then [2, N] else [N])) ∧
      makeEps P I rho.fn (mo.map (·.fn)) r none p = .ok v := by
  unfold expWrapper at h
  split at h
  · cases h
  rw [isPolarized_eq] at h
  cases hs : evalShape (shapeOf rho.f32) (shapeOf rho.f64) with
  | error e => rw [hs] at h; cases h
  | ok s =>
    rw [hs] at h
    have key : ∀ pol : Bool, inferred s = .ok pol → s = if pol then [2] else [] := by
      intro pol hp
      unfold inferred at hp
      split at hp <;> cases hp <;> rfl
    simp only [bind, Except.bind] at h
    cases hp : inferred s with
    | error e => rw [hp] at h; cases h
    | ok pol =>
      rw [hp] at h
      simp only at h
      refine ⟨s, pol, ?_⟩
      have hm : ∀ m, mo = some m → checkMoShape (shapeOf m.f32) (shapeOf m.f64) pol = .ok () := by
        rintro m rfl
        simp only at h
        cases hc : checkMoShape (shapeOf m.f32) (shapeOf m.f64) pol with
        | error e => rw [hc] at h; cases h
        | ok _ => rfl
      cases hg : getP g.name pol (extValues g.extParams given) with
      | error e => 
        rw [hg] at h
        cases mo with
        | none => cases h
        | some m => simp only [hm m rfl] at h; cases h
      | ok p =>
        refine ⟨p, rfl, key pol hp, rfl, ?_, ?_⟩
        · intro m e
          have := hm m e
          cases hes : evalShape (shapeOf m.f32) (shapeOf m.f64) with
          | error e => unfold checkMoShape at this; rw [hes] at this; cases this
          | ok s' =>
            obtain ⟨N, hN⟩ := (c20_orbitals _ _ s' hes pol).1.1 this
            exact ⟨N, by rw [hN]⟩
        · rw [hg] at h
          cases mo with
          | none => exact h
          | some m => simp only [hm m rfl] at h; exact h

/-- A density (or orbitals) that can only be traced with `float64` gives the same energies as one that can be traced with either. -/
theorem c20_float64_energy (e : PyErr) (f : Callable 3 ℝ) (mo : Option (Traced ℂ)) (r : Coord 3) :
    expWrapper P I getP g ⟨.error e, f⟩ mo given r = expWrapper P I getP g ⟨f, f⟩ mo given r ∧
    ∀ (m : Callable 3 ℂ), expWrapper P I getP g ⟨f, f⟩ (some ⟨.error e, m⟩) given r = expWrapper P I getP g ⟨f, f⟩ (some ⟨m, m⟩) given r := by
  have hs : ∀ {K : Type} (f : Callable 3 K), evalShape (shapeOf (.error e : Callable 3 K)) (shapeOf f) = evalShape (shapeOf f) (shapeOf f) := by
    intro K f; cases f <;> rfl
  have hf : ∀ {K : Type} (f : Callable 3 K), (⟨.error e, f⟩ : Traced K).fn = (⟨f, f⟩ : Traced K).fn := by
    intro K f; cases f <;> rfl
  refine ⟨?_, fun m => ?_⟩
  · unfold expWrapper
    rw [hf]
    simp only [isPolarized_eq, hs]
  · unfold expWrapper
    simp only [Option.map_some, hf]
    unfold checkMoShape
    simp only [hs]
    rfl
end

/-! ## C19 -/

section
variable {P : Prims} {I : Impls}

theorem ok_of_bind {α β : Type} {x : Except PyErr α} {f : α → Except PyErr β} {v : β} (h : x.bind f = .ok v) : ∃ a, x = .ok a ∧ f a = .ok v := by
  cases x with
  | error e => cases h
  | ok a => exact ⟨a, rfl, h⟩

/-- Both APIs evaluate a formula alike. -/
theorem leaf_agree (f : Formula) (i : PInfo) (polarized : Bool) (hn : i.nspin = if polarized then 2 else 1) (rho : ArrFn 3 ℝ)
    (hs : rho.shape = if polarized then [2] else []) (mo : Option (ArrFn 3 ℂ)) (hm : ∀ m ∈ mo, ∃ N, m.shape = if polarized then [2, N] else [N])
    (r : Coord 3) (v : ℝ) :
    implInvoke P f i (.ok rho) r (mo.map .ok) none = .ok v ↔ expLeaf P f i (.ok rho) (mo.map .ok) r none = .ok v := by
  have hbad : ¬(i.type = "lda" ∨ i.type = "gga" ∨ i.type = "mgga") →
      (implInvoke P f i (.ok rho) r (mo.map .ok) none = .ok v ↔ expLeaf P f i (.ok rho) (mo.map .ok) r none = .ok v) := by
    intro h
    constructor
    · intro e
      simp [implInvoke, rhoToArguments, h, bind, Except.bind] at e
    · intro e
      push Not at h
      unfold expLeaf at e
      simp only [h.1, h.2.1, h.2.2, if_false, bind, Except.bind] at e
      split at e <;> cases e
  have hnone : i.type = "mgga" → mo = none →
      (implInvoke P f i (.ok rho) r (mo.map .ok) none = .ok v ↔ expLeaf P f i (.ok rho) (mo.map .ok) r none = .ok v) := by
    rintro h rfl
    cases polarized
    · simp only [Bool.false_eq_true, if_false] at hn hs
      simp [implInvoke, rhoToArguments, expLeaf, h, bind, Except.bind, hn, hs, rhoVal, computeS, computeL, ArrFn.jacShape]
    · simp only [if_true] at hn hs
      simp [implInvoke, rhoToArguments, expLeaf, h, bind, Except.bind, hn, hs, rhoVal, computeS, computeL, ArrFn.jacShape]
  have hgood : ∀ fam, i.type = famName fam → (fam = .mgga → mo ≠ none) →
      implInvoke P f i (.ok rho) r (mo.map .ok) none = expLeaf P f i (.ok rho) (mo.map .ok) r none := by
    intro fam ht hmm
    cases polarized
    · simp only [Bool.false_eq_true, if_false] at hn hs hm
      cases fam
      · rw [invoke_unpol P f ht hn hs 0 (by simp)]
        simp [expLeaf, ht, famName, bind, Except.bind, hn, hs, rhoVal, filterSmall, callUnpol, asScalar, Fam.grad, Fam.meta]
      · rw [invoke_unpol P f ht hn hs 0 (by simp)]
        simp [expLeaf, ht, famName, bind, Except.bind, hn, hs, rhoVal, filterSmall, callUnpol, asScalar, Fam.grad, Fam.meta, computeS, ArrFn.jacShape]
      · cases mo with
        | none => exact absurd rfl (hmm rfl)
        | some m =>
          obtain ⟨N, hN⟩ := hm m rfl
          rw [Option.map_some, invoke_unpol P f ht hn hs (m.tau r [] N) (fun _ => ⟨m, N, rfl, hN, rfl⟩)]
          simp only [expLeaf, ht, famName, bind, Except.bind, hn, hs, rhoVal, filterSmall, callUnpol, asScalar, Fam.grad, Fam.meta, computeS, ArrFn.jacShape,
            computeL, computeTau, hN, Option.map]
          rfl
    · simp only [if_true] at hn hs hm
      cases fam
      · rw [invoke_pol P f ht hn hs (0, 0) (by simp)]
        simp [expLeaf, ht, famName, bind, Except.bind, hn, hs, rhoVal, filterSmall, callPol, unpack2, unpack3, arrSum, Fam.grad, Fam.meta]
      · rw [invoke_pol P f ht hn hs (0, 0) (by simp)]
        simp [expLeaf, ht, famName, bind, Except.bind, hn, hs, rhoVal, filterSmall, callPol, unpack2, unpack3, arrSum, Fam.grad, Fam.meta, computeS,
          ArrFn.jacShape]
      · cases mo with
        | none => exact absurd rfl (hmm rfl)
        | some m =>
          obtain ⟨N, hN⟩ := hm m rfl
          rw [Option.map_some, invoke_pol P f ht hn hs (m.tau r [0] N, m.tau r [1] N) (fun _ => ⟨m, N, rfl, hN, rfl⟩)]
          simp only [expLeaf, ht, famName, bind, Except.bind, hn, hs, rhoVal, filterSmall, callPol, unpack2, unpack3, arrSum, Fam.grad, Fam.meta, computeS,
            ArrFn.jacShape, computeL, computeTau, hN, Option.map]
          rfl
  by_cases h : i.type = "lda" ∨ i.type = "gga" ∨ i.type = "mgga"
  · rcases h with h | h | h
    · rw [hgood .lda h (by simp)]
    · rw [hgood .gga h (by simp)]
    · by_cases hmo : mo = none
      · exact hnone h hmo
      · rw [hgood .mgga h (fun _ => hmo)]
  · exact hbad h

section
variable {rho : Callable 3 ℝ} {r : Coord 3} {mo : Option (Callable 3 ℂ)}

theorem makeMix_cons (t : PTree) (ts : List PTree) :
    makeMix P I rho mo r (t :: ts) = (makeEps P I rho mo r none t).bind fun x => (makeMix P I rho mo r ts).bind fun xs => .ok (x :: xs) := by
  rw [makeMix.eq_def]; rfl

theorem makeMix_nil : makeMix P I rho mo r [] = .ok [] := by rw [makeMix.eq_def]

theorem makeEps_mix (d : Option (Except PyErr ℝ)) (i : PInfo) (aux : List PTree) (h : i.mapleName = "") (ha : aux ≠ []) :
    makeEps P I rho mo r d (.node i aux) = (makeMix P I rho mo r aux).bind fun l => .ok (List.zipWith (fun a c => c * a) l i.mixCoef).sum := by
  rw [makeEps.eq_def]
  simp only [h]
  cases aux with
  | nil => exact absurd rfl ha
  | cons a as => simp only [pySum_eq]; rfl

theorem makeEps_leaf (d : Option (Except PyErr ℝ)) (i : PInfo) (aux : List PTree) (h : i.mapleName ≠ "") (hd : i.mapleName ≠ "DEORBITALIZE") :
    makeEps P I rho mo r d (.node i aux) = match I i.mapleName with
      | none => .error .attributeError
      | some m => expLeaf P m i rho mo r d := by
  rw [makeEps.eq_def]
  simp only [if_neg h, if_neg hd]
  cases I i.mapleName <;> rfl

theorem mix_agree : ∀ (aux : List PTree) (cs : List ℝ), aux.length ≤ cs.length →
    (∀ t ∈ aux, ∀ v, invoke P I rho r mo t = .ok v ↔ makeEps P I rho mo r none t = .ok v) → ∀ l,
    (invokeMix P I rho r mo aux cs = .ok l ↔ ∃ xs, makeMix P I rho mo r aux = .ok xs ∧ l = List.zipWith (fun a c => c * a) xs cs)
  | [], cs, _, _, l => by
    rw [invokeMix_nil, makeMix_nil]
    constructor
    · intro h; cases h; exact ⟨[], rfl, rfl⟩
    · rintro ⟨xs, h, rfl⟩; cases h; rfl
  | t :: ts, [], h, _, _ => by simp at h
  | t :: ts, c :: cs, hl, h, l => by
    have ih := mix_agree ts cs (by simpa using hl) (fun t ht => h t (List.mem_cons_of_mem _ ht))
    have ht := h t List.mem_cons_self
    rw [invokeMix_cons, makeMix_cons]
    constructor
    · intro e
      obtain ⟨x, h1, e⟩ := ok_of_bind e
      obtain ⟨xs, h2, e⟩ := ok_of_bind e
      cases e
      obtain ⟨ys, h3, rfl⟩ := (ih xs).1 h2
      exact ⟨x :: ys, by rw [(ht x).1 h1, h3]; rfl, rfl⟩
    · rintro ⟨xs, e, rfl⟩
      obtain ⟨x, h1, e⟩ := ok_of_bind e
      obtain ⟨ys, h2, e⟩ := ok_of_bind e
      cases e
      rw [(ht x).2 h1, (ih _).2 ⟨ys, h2, rfl⟩]
      rfl
end

/-- Both APIs evaluate a record tree alike. -/
theorem tree_agree (polarized : Bool) (rho : ArrFn 3 ℝ) (hs : rho.shape = if polarized then [2] else []) (mo : Option (ArrFn 3 ℂ))
    (hm : ∀ m ∈ mo, ∃ N, m.shape = if polarized then [2, N] else [N]) (r : Coord 3) (t : PTree) (hc : Coefs t)
    (hn : ∀ i ∈ nodes t, i.nspin = (if polarized then 2 else 1) ∧ i.mapleName ≠ "DEORBITALIZE") :
    ∀ v, invoke P I (.ok rho) r (mo.map .ok) t = .ok v ↔ makeEps P I (.ok rho) (mo.map .ok) r none t = .ok v := by
  induction t using PTree.ind with
  | h i aux ih =>
    intro v
    have hi := hn i (by rw [nodes]; exact List.mem_cons_self)
    by_cases h : i.mapleName = ""
    · rcases List.eq_nil_or_concat aux with rfl | ⟨_, _, ha⟩
      · rw [invoke.eq_def, makeEps.eq_def]; simp [h]
      · have ha : aux ≠ [] := by rw [ha]; simp
        rw [Coefs] at hc
        have := mix_agree aux i.mixCoef (hc.1 h) (fun t ht => ih t ht ((coefsAll_iff _).1 hc.2 t ht)
          (fun j hj => hn j (by rw [nodes]; exact List.mem_cons_of_mem _ (mem_nodesAll ht j hj))))
        rw [invoke_mix i aux h ha, makeEps_mix none i aux h ha]
        constructor
        · intro e
          obtain ⟨l, h1, e⟩ := ok_of_bind e
          cases e
          obtain ⟨xs, h2, rfl⟩ := (this l).1 h1
          rw [h2]; rfl
        · intro e
          obtain ⟨xs, h1, e⟩ := ok_of_bind e
          cases e
          rw [(this _).2 ⟨xs, h1, rfl⟩]; rfl
    · rw [invoke_leaf i aux h hi.2, makeEps_leaf none i aux h hi.2]
      unfold leafCall
      cases I i.mapleName with
      | none => simp
      | some f => exact leaf_agree f i polarized hi.1 rho hs mo hm r v

variable {getP : String → Bool → List ℝ → Except PyErr PTree} {g : GenInfo} {given : List (Option ℝ)} {polarized : Bool} {p : PTree} {eps : EpsFn}

/-- The two APIs agree in three dimensions: for the same record (no deorbitalized functional in it), density and orbitals
(of shapes that the functional takes), one yields an energy iff the other does, and it is the same energy. -/
theorem c19_agree (hg : getP g.name polarized (extValues g.extParams given) = .ok p) (hw : wrapper P I getP g polarized given = .ok eps)
    (hn : ∀ i ∈ nodes p, i.nspin = (if polarized then 2 else 1) ∧ i.mapleName ≠ "DEORBITALIZE") (hc : Coefs p)
    (rho : ArrFn 3 ℝ) (hs : rho.shape = if polarized then [2] else []) (mo : Option (ArrFn 3 ℂ)) (hmo : g.type = "mgga" ↔ mo.isSome)
    (hm : ∀ m ∈ mo, ∃ N, m.shape = if polarized then [2, N] else [N]) (r : Coord 3) (v : ℝ) :
    eps.call (.ok rho) r (mo.map .ok) = .ok v ↔
      expWrapper P I getP g ⟨.ok rho, .ok rho⟩ (mo.map fun m => ⟨.ok m, .ok m⟩) given r = .ok v := by
  have h1 : eps.call (.ok rho) r (mo.map .ok) = invoke P I (.ok rho) r (mo.map .ok) p := by
    simp only [wrapper, hg, bind, Except.bind, Except.ok.injEq] at hw
    rw [← hw]
    by_cases e : g.type = "mgga"
    · simp only [if_pos e]
    · simp only [if_neg e]
      cases mo with
      | none => rfl
      | some m => exact absurd (hmo.2 rfl) e
  have h2 : expWrapper P I getP g ⟨.ok rho, .ok rho⟩ (mo.map fun m => ⟨.ok m, .ok m⟩) given r = makeEps P I (.ok rho) (mo.map .ok) r none p := by
    unfold expWrapper
    rw [if_neg (by cases mo <;> simpa using hmo), isPolarized_eq]
    have e : evalShape (shapeOf (Except.ok rho)) (shapeOf (Except.ok rho)) = .ok rho.shape := rfl
    rw [e, hs]
    have e2 : (Except.ok (if polarized then [2] else [] : List ℕ) : Except PyErr (List ℕ)).bind inferred = .ok polarized := by cases polarized <;> rfl
    rw [e2]
    cases mo with
    | none => simp only [bind, Except.bind, hg, Option.map]; rfl
    | some m =>
      have e3 := (c20_orbitals (shapeOf (Except.ok m)) (shapeOf (Except.ok m)) m.shape rfl polarized).1.2 (hm m rfl)
      simp only [bind, Except.bind, hg, Option.map, e3]; rfl
  rw [h1, h2]
  exact tree_agree polarized rho hs mo hm r p hc hn v

/-- The mixture of `Verif.Demo`, on a density of shape `()`. -/
example (r : Coord 3) (v : ℝ) : (Demo.mixEps false).call (.ok (Demo.quad 3 2)) r none = .ok v ↔
    expWrapper Demo.prims Demo.impls (fun _ _ _ => .ok (Demo.mixTree false)) Demo.mixGen ⟨.ok (Demo.quad 3 2), .ok (Demo.quad 3 2)⟩ none [] r = .ok v :=
  c19_agree (polarized := false) (p := Demo.mixTree false) (mo := none) rfl
    (by simp only [wrapper, bind, Except.bind, Demo.mixGen, epsAttrs, Demo.mixTree, PTree.info]; rfl)
    (by simp [Demo.mixTree, nodes, nodesAll, Demo.tree, Demo.info])
    (by simp [Demo.mixTree, Coefs, CoefsAll, Demo.tree, Demo.info]) _ rfl (by simp [Demo.mixGen]) (by simp) r v

/-! ## C18 -/

/-- In the main API a functional tagged `DEORBITALIZE` never yields an energy. -/
theorem c18_main_never {n : ℕ} (hc : Created P I g polarized p eps) (hd : p.info.mapleName = "DEORBITALIZE") (rho : Callable n ℝ) (r : Coord n)
    (mo : Option (Callable n ℂ)) (v : ℝ) : eps.call rho r mo ≠ .ok v := by
  rw [call_eq hc]
  obtain ⟨i, aux⟩ := p
  have hd : i.mapleName = "DEORBITALIZE" := hd
  rw [invoke.eq_def]
  simp only [if_pos hd]
  match aux with
  | [] => simp
  | [_] => simp
  | _ :: p1 :: _ =>
    simp only [bind, Except.bind]
    split <;> simp

/-- It raises `TypeError` as soon as the second component can be evaluated. -/
theorem c18_main_typeError {n : ℕ} (hc : Created P I g polarized p eps) (hd : p.info.mapleName = "DEORBITALIZE") (p0 p1 : PTree) (rest : List PTree)
    (ha : p.aux = p0 :: p1 :: rest) (rho : Callable n ℝ) (r : Coord n) (mo : Option (Callable n ℂ)) (x : ℝ)
    (hx : invoke P I rho r (if p.info.type = "mgga" then mo else none) p1 = .ok x) : eps.call rho r mo = .error .typeError := by
  rw [call_eq hc]
  obtain ⟨i, aux⟩ := p
  have ha : aux = p0 :: p1 :: rest := ha
  subst ha
  have hd' : i.mapleName = "DEORBITALIZE" := hd
  rw [invoke.eq_def]
  simp only [if_pos hd', hx, bind, Except.bind]

/-- In the experimental API such a functional is the formula of the first component (an mGGA), with `tau` replaced by the density times
the value of the second component (unpolarized). -/
theorem c18_experimental_unpolarized (i : PInfo) (hd : i.mapleName = "DEORBITALIZE") (i0 : PInfo) (aux0 : List PTree) (p1 : PTree) (rest : List PTree)
    (f : Formula) (hs : Single I (.node i0 aux0) .mgga f) (hn : i0.nspin = 1) (rho : ArrFn 3 ℝ) (hrho : rho.shape = []) (mo : Callable 3 ℂ) (r : Coord 3)
    (x : ℝ) (hx : makeEps P I (.ok rho) (some mo) r none p1 = .ok x) :
    makeEps P I (.ok rho) (some mo) r none (.node i (.node i0 aux0 :: p1 :: rest)) =
      screened (rho.ent r []) (i0.vals.fld .densThreshold)
        (f.unpol P i0.vals (rho.ent r []) (some (rho.jacDot r [] [])) (some (rho.trace r [])) (some (rho.ent r [] * x))) := by
  have h1 : i0.mapleName ≠ "" := hs.notMix
  have h2 : i0.mapleName ≠ "DEORBITALIZE" := hs.notDeo
  have h3 : I i0.mapleName = some f := hs.impl
  have h4 : i0.type = "mgga" := hs.fam
  rw [makeEps.eq_def]
  simp only [if_pos hd]
  rw [hx, makeEps_leaf _ _ _ h1 h2, h3]
  simp [expLeaf, h4, hn, hrho, bind, Except.bind, rhoVal, computeS, ArrFn.jacShape, computeL, filterSmall, callUnpol, asScalar, AVal.smul]

/-- The same for a polarized density. -/
theorem c18_experimental_polarized (i : PInfo) (hd : i.mapleName = "DEORBITALIZE") (i0 : PInfo) (aux0 : List PTree) (p1 : PTree) (rest : List PTree)
    (f : Formula) (hs : Single I (.node i0 aux0) .mgga f) (hn : i0.nspin = 2) (rho : ArrFn 3 ℝ) (hrho : rho.shape = [2]) (mo : Callable 3 ℂ) (r : Coord 3)
    (x : ℝ) (hx : makeEps P I (.ok rho) (some mo) r none p1 = .ok x) :
    makeEps P I (.ok rho) (some mo) r none (.node i (.node i0 aux0 :: p1 :: rest)) =
      screened (rho.ent r [0] + rho.ent r [1]) (i0.vals.fld .densThreshold)
        (f.pol P i0.vals (rho.ent r [0], rho.ent r [1]) (some (rho.jacDot r [0] [0], rho.jacDot r [0] [1], rho.jacDot r [1] [1]))
          (some (rho.trace r [0], rho.trace r [1])) (some (rho.ent r [0] * x, rho.ent r [1] * x))) := by
  have h1 : i0.mapleName ≠ "" := hs.notMix
  have h2 : i0.mapleName ≠ "DEORBITALIZE" := hs.notDeo
  have h3 : I i0.mapleName = some f := hs.impl
  have h4 : i0.type = "mgga" := hs.fam
  rw [makeEps.eq_def]
  simp only [if_pos hd]
  rw [hx, makeEps_leaf _ _ _ h1 h2, h3]
  simp [expLeaf, h4, hn, hrho, bind, Except.bind, rhoVal, computeS, ArrFn.jacShape, computeL, filterSmall, callPol, unpack2, unpack3, arrSum, AVal.smul]

/-- A deorbitalized record needs two components: `p.func_aux` does not exist without any, and has no entry `[1]` with one
(`gen_repo/experimental.jinja:27-28`). -/
theorem c18_experimental_components (i : PInfo) (hd : i.mapleName = "DEORBITALIZE") (rho : Callable 3 ℝ) (mo : Option (Callable 3 ℂ)) (r : Coord 3)
    (d : Option (Except PyErr ℝ)) (p0 : PTree) :
    makeEps P I rho mo r d (.node i []) = .error .attributeError ∧ makeEps P I rho mo r d (.node i [p0]) = .error .indexError := by
  constructor <;> (rw [makeEps.eq_def]; simp only [if_pos hd])

/-- An mGGA formula without orbitals raises `TypeError`, whether or not `tau` would have been replaced. -/
theorem c20_needs_orbitals {t : PTree} {f : Formula} (hs : Single I t .mgga f) (hn : t.info.nspin = 1 ∨ t.info.nspin = 2) (rho : ArrFn 3 ℝ)
    (hrho : rho.shape = [] ∨ rho.shape = [2]) (r : Coord 3) (d : Option (Except PyErr ℝ)) :
    makeEps P I (.ok rho) none r d t = .error .typeError := by
  obtain ⟨i, aux⟩ := t
  have h1 : i.mapleName ≠ "" := hs.notMix
  have h2 : i.mapleName ≠ "DEORBITALIZE" := hs.notDeo
  have h3 : I i.mapleName = some f := hs.impl
  have h4 : i.type = "mgga" := hs.fam
  rw [makeEps_leaf _ _ _ h1 h2, h3]
  rcases hn with (hn : i.nspin = 1) | (hn : i.nspin = 2) <;> rcases hrho with hr | hr <;>
    simp [expLeaf, h4, hn, hr, bind, Except.bind, rhoVal, computeS, ArrFn.jacShape, computeL]

/-- So a mixture that libxc lists as a GGA but that starts with an mGGA cannot be evaluated: the function takes no orbitals. -/
theorem c20_mgga_component {i : PInfo} {t : PTree} {ts : List PTree} {f : Formula} (hi : i.mapleName = "") (hs : Single I t .mgga f)
    (hn : t.info.nspin = 1 ∨ t.info.nspin = 2) (hg : g.type ≠ "mgga") (rho : Traced ℝ) (a : ArrFn 3 ℝ) (ha : rho.fn = .ok a) (hrho : a.shape = [] ∨ a.shape = [2])
    (hp : ∀ b, getP g.name b (extValues g.extParams given) = .ok (.node i (t :: ts))) (r : Coord 3) :
    expWrapper P I getP g rho none given r = .error .typeError := by
  have hb : ∃ b, isPolarized (shapeOf rho.f32) (shapeOf rho.f64) = .ok b := by
    have e : evalShape (shapeOf rho.f32) (shapeOf rho.f64) = .ok a.shape := by
      unfold Traced.fn at ha
      cases h : rho.f32 with
      | ok g => rw [h] at ha; cases ha; rfl
      | error _ => rw [h] at ha; have ha : rho.f64 = .ok a := ha; rw [ha]; rfl
    rw [isPolarized_eq, e]
    rcases hrho with h | h <;> rw [h] <;> exact ⟨_, rfl⟩
  obtain ⟨b, hb⟩ := hb
  have hm := c20_needs_orbitals (P := P) hs hn a hrho r none
  simp only [expWrapper, hg, hb, hp, bind, Except.bind, Option.map, ha, Option.isSome]
  rw [makeEps_mix _ _ _ hi (by simp), makeMix_cons, hm]
  simp [Except.bind]

/-- A deorbitalized functional made of two copies of the demo formula. -/
noncomputable def deoTree (polarized : Bool) : PTree :=
  .node ⟨"deo", "DEORBITALIZE", "mgga", if polarized then 2 else 1, Demo.vals, 0, 0, []⟩ [Demo.tree .mgga polarized, Demo.tree .lda polarized]

theorem deoTree_second (r : Coord 3) (mo : Callable 3 ℂ) :
    makeEps Demo.prims Demo.impls (.ok (Demo.quad 3 2)) (some mo) r none (Demo.tree .lda false) = .ok (((‖r‖ ^ 2 + 2) * (‖r‖ ^ 2 + 2))) := by
  rw [Demo.tree, makeEps_leaf _ _ _ (by simp [Demo.info]) (by simp [Demo.info])]
  have e : Demo.impls (Demo.info .lda false).mapleName = some Demo.code := by simp [Demo.impls, Demo.info]
  rw [e]
  have hx : ¬ ((‖r‖ ^ 2 + 2 : ℝ) < 1) := by nlinarith [sq_nonneg ‖r‖]
  simp [expLeaf, Demo.info, famName, bind, Except.bind, rhoVal, Demo.quad, filterSmall, asScalar, callUnpol, screened, Demo.vals, hx, Formula.unpol, Demo.code]
  rfl

/-- The experimental functional on it, and the main one. -/
example (r : Coord 3) (mo : Callable 3 ℂ) := c18_experimental_unpolarized (deoTree false).info rfl _ _ _ []
    Demo.code (Demo.single .mgga false) rfl (Demo.quad 3 2) rfl mo r _ (deoTree_second r mo)

/-- What the wrapper of the main API makes of it. -/
noncomputable def deoEps : EpsFn := { call := fun rho r mo => invoke Demo.prims Demo.impls rho r mo (deoTree false), attrs := [] }

theorem deoCreated : Created Demo.prims Demo.impls ⟨"deo", "DEORBITALIZE", "mgga", []⟩ false (deoTree false) deoEps where
  made := ⟨fun _ _ _ => .ok (deoTree false), [], rfl, by simp only [wrapper, bind, Except.bind, epsAttrs, deoTree, PTree.info]; rfl⟩
  nspin := rfl
  type := rfl

example (r : Coord 3) : ∀ v, deoEps.call (.ok (Demo.quad 3 2)) r (some (.ok (Demo.orbs [2] 2))) ≠ .ok v := c18_main_never deoCreated rfl _ _ _

/-- The situation occurs: the demo formula as an mGGA, one and two components. -/
example (r : Coord 3) : makeEps Demo.prims Demo.impls (.ok (Demo.quad 3 2)) none r none (Demo.tree .mgga false) = .error .typeError :=
  c20_needs_orbitals (Demo.single .mgga false) (Or.inl rfl) _ (Or.inl rfl) r none

end

end Verif.Props
