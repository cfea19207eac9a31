import Verif.Lib.Tree
import Verif.Lib.Demo
/-!
# C13, C14: mixtures
-/
namespace Verif.Props
open Verif.Py Verif.Model Verif.Spec Verif.Lib

section
variable {P : Prims} {I : Impls} {n : ℕ} {rho : Callable n ℝ} {r : Coord n} {mo : Option (Callable n ℂ)}

theorem leavesMix_ok (v : PInfo → ℝ) : ∀ (aux : List PTree) (cs : List ℝ),
    (∀ t ∈ aux, (∀ x ∈ leaves t, leafCall P I rho r mo x.2 = .ok (v x.2)) → invoke P I rho r mo t = .ok ((leaves t).map fun x => x.1 * v x.2).sum) →
    (∀ x ∈ leavesMix aux cs, leafCall P I rho r mo x.2 = .ok (v x.2)) →
    ∃ l, invokeMix P I rho r mo aux cs = .ok l ∧ l.sum = ((leavesMix aux cs).map fun x => x.1 * v x.2).sum
  | [], cs, _, _ => ⟨[], invokeMix_nil cs, by simp [leavesMix]⟩
  | _ :: _, [], _, _ => ⟨[], invokeMix_short _ _, by simp [leavesMix]⟩
  | t :: ts, c :: cs, h, hv => by
    rw [leavesMix] at hv
    obtain ⟨l, h1, h2⟩ := leavesMix_ok v ts cs (fun t ht => h t (List.mem_cons_of_mem _ ht)) (fun x hx => hv x (List.mem_append_right _ hx))
    have h3 := h t List.mem_cons_self (fun x hx => hv (c * x.1, x.2) (List.mem_append_left _ (List.mem_map_of_mem hx)))
    refine ⟨_, by rw [invokeMix_cons, h3, h1]; rfl, ?_⟩
    rw [leavesMix, List.sum_cons, h2, List.map_append, List.sum_append, List.map_map]
    congr 1
    rw [← List.sum_map_mul_left]
    congr 1
    refine List.map_congr_left fun x _ => ?_
    simp [mul_assoc]

theorem invoke_ok (v : PInfo → ℝ) (t : PTree) (hs : Sound I t) (hv : ∀ x ∈ leaves t, leafCall P I rho r mo x.2 = .ok (v x.2)) :
    invoke P I rho r mo t = .ok ((leaves t).map fun x => x.1 * v x.2).sum := by
  induction t using PTree.ind with
  | h i aux ih =>
    rw [leaves] at hv ⊢
    rw [Sound] at hs
    rcases hs with ⟨h1, h2, _, h4⟩ | ⟨h1, h2, h3⟩
    · rw [if_pos h1] at hv ⊢
      rw [soundAll_iff] at h4
      obtain ⟨l, h5, h6⟩ := leavesMix_ok v aux i.mixCoef (fun t ht => ih t ht (h4 t ht)) hv
      rw [invoke_mix i aux h1 h2, h5, ← h6]; rfl
    · rw [if_neg h1] at hv ⊢
      rw [invoke_leaf i aux h1 h2, hv (1, i) (List.mem_singleton.2 rfl)]
      simp

theorem leavesMix_error : ∀ (aux : List PTree) (cs : List ℝ),
    (∀ t ∈ aux, (∃ x ∈ leaves t, ∃ e, leafCall P I rho r mo x.2 = .error e) → ∃ e, invoke P I rho r mo t = .error e) →
    (∃ x ∈ leavesMix aux cs, ∃ e, leafCall P I rho r mo x.2 = .error e) → ∃ e, invokeMix P I rho r mo aux cs = .error e
  | [], _, _, ⟨x, hx, _⟩ => by simp [leavesMix] at hx
  | _ :: _, [], _, ⟨x, hx, _⟩ => by simp [leavesMix] at hx
  | t :: ts, c :: cs, h, ⟨x, hx, e, he⟩ => by
    rw [leavesMix, List.mem_append] at hx
    rw [invokeMix_cons]
    rcases hx with hx | hx
    · obtain ⟨y, hy, rfl⟩ := List.mem_map.1 hx
      obtain ⟨e', he'⟩ := h t List.mem_cons_self ⟨y, hy, e, he⟩
      exact ⟨e', by rw [he']; rfl⟩
    · obtain ⟨e', he'⟩ := leavesMix_error ts cs (fun t ht => h t (List.mem_cons_of_mem _ ht)) ⟨x, hx, e, he⟩
      cases hi : invoke P I rho r mo t with
      | error e'' => exact ⟨e'', rfl⟩
      | ok y => exact ⟨e', by rw [he']; rfl⟩

theorem invoke_error (t : PTree) (hs : Sound I t) (hv : ∃ x ∈ leaves t, ∃ e, leafCall P I rho r mo x.2 = .error e) :
    ∃ e, invoke P I rho r mo t = .error e := by
  induction t using PTree.ind with
  | h i aux ih =>
    rw [leaves] at hv
    rw [Sound] at hs
    rcases hs with ⟨h1, h2, _, h4⟩ | ⟨h1, h2, h3⟩
    · rw [if_pos h1] at hv
      rw [soundAll_iff] at h4
      obtain ⟨e, he⟩ := leavesMix_error aux i.mixCoef (fun t ht => ih t ht (h4 t ht)) hv
      exact ⟨e, by rw [invoke_mix i aux h1 h2, he]; rfl⟩
    · rw [if_neg h1] at hv
      obtain ⟨x, hx, e, he⟩ := hv
      rw [List.mem_singleton.1 hx] at he
      exact ⟨e, by rw [invoke_leaf i aux h1 h2, he]⟩

/-- A formula of a family other than mGGA does not look at the orbitals. -/
theorem leafCall_mo (i : PInfo) (h : i.type ≠ "mgga") (mo mo' : Option (Callable n ℂ)) :
    leafCall P I rho r mo i = leafCall P I rho r mo' i := by
  have : ∀ d, rhoToArguments i rho r mo d = rhoToArguments i rho r mo' d := fun d => by
    unfold rhoToArguments
    by_cases h1 : i.type = "lda"
    · simp [h1]
    · by_cases h2 : i.type = "gga"
      · simp [h2]
      · simp [h, h1, h2]
  unfold leafCall implInvoke
  simp only [this]

end

variable {P : Prims} {I : Impls} {g : GenInfo} {polarized : Bool} {p : PTree} {eps : EpsFn}

/-- The leaves of a sound tree have formulas. -/
theorem leaves_names (t : PTree) : Sound I t → ∀ x ∈ leaves t, x.2.mapleName ≠ "" ∧ x.2.mapleName ≠ "DEORBITALIZE" := by
  induction t using PTree.ind with
  | h i aux ih =>
    intro hs x hx
    rw [leaves] at hx
    rw [Sound] at hs
    rcases hs with ⟨h1, h2, hlen, h4⟩ | ⟨h1, h2, h3⟩
    · rw [if_pos h1] at hx
      rw [soundAll_iff] at h4
      clear h1 h2 hlen
      generalize i.mixCoef = cs at *
      induction aux generalizing cs with
      | nil => simp [leavesMix] at hx
      | cons t ts ihl =>
        cases cs with
        | nil => simp [leavesMix] at hx
        | cons c cs =>
          rw [leavesMix, List.mem_append] at hx
          rcases hx with hx | hx
          · obtain ⟨y, hy, rfl⟩ := List.mem_map.1 hx
            exact ih t List.mem_cons_self (h4 t List.mem_cons_self) y hy
          · exact ihl (fun t ht => ih t (List.mem_cons_of_mem _ ht)) (fun t ht => h4 t (List.mem_cons_of_mem _ ht)) cs hx
    · rw [if_neg h1] at hx
      rw [List.mem_singleton.1 hx]
      exact ⟨h1, h2⟩

/-- A component of a mixture is called with what the mixture was called with. -/
theorem leaf_call_eq {n : ℕ} {rho : Callable n ℝ} {r : Coord n} {mo : Option (Callable n ℂ)} (hs : Sound I p) (i : PInfo) (w : ℝ) (hi : (w, i) ∈ leaves p)
    (hm : p.info.type = "mgga" ∨ ∀ x ∈ leaves p, x.2.type ≠ "mgga") {gi : GenInfo} {aux : List PTree} {epsi : EpsFn}
    (hci : Created P I gi polarized (.node i aux) epsi) :
    leafCall P I rho r (if p.info.type = "mgga" then mo else none) i = epsi.call rho r mo := by
  obtain ⟨h1, h2⟩ := leaves_names p hs _ hi
  rw [call_eq hci, invoke_leaf i aux h1 h2]
  rcases hm with hm | hm
  · rw [if_pos hm]
    by_cases hmi : i.type = "mgga"
    · simp [PTree.info, hmi]
    · exact leafCall_mo i hmi _ _
  · exact leafCall_mo i (hm _ hi) _ _

/-- C13: a mixture, of any depth, returns the sum of what its component functionals return (each with its own screening), each multiplied by
its coefficients.  `epsOf i` is the functional that the wrapper of the component `i` would have returned. -/
theorem c13_linear_combination (hc : Created P I g polarized p eps) (hs : Sound I p)
    (hm : p.info.type = "mgga" ∨ ∀ x ∈ leaves p, x.2.type ≠ "mgga") (epsOf : PInfo → EpsFn)
    (hcs : ∀ x ∈ leaves p, ∃ gi aux, Created P I gi polarized (.node x.2 aux) (epsOf x.2))
    {n : ℕ} (rho : Callable n ℝ) (r : Coord n) (mo : Option (Callable n ℂ)) (v : PInfo → ℝ)
    (hv : ∀ x ∈ leaves p, (epsOf x.2).call rho r mo = .ok (v x.2)) :
    eps.call rho r mo = .ok ((leaves p).map fun x => x.1 * v x.2).sum := by
  rw [call_eq hc]
  refine invoke_ok v p hs fun x hx => ?_
  obtain ⟨gi, aux, hci⟩ := hcs x hx
  rw [leaf_call_eq hs x.2 x.1 hx hm hci]
  exact hv x hx

/-- Instance: a mixture of depth two has three leaves, with weights `2`, `3 * 1`, `3 * ½`. -/
theorem demo_leaves (b : Bool) : leaves (Demo.mixTree b) = [(2 * 1, Demo.info .lda b), (3 * (1 * 1), Demo.info .gga b), (3 * (1 / 2 * 1), Demo.info .lda b)] := by
  simp [leaves, leavesMix, Demo.mixTree, Demo.tree, Demo.info]

/-- Instance. -/
theorem demo_sound (b : Bool) : Sound Demo.impls (Demo.mixTree b) := by
  simp [Sound, SoundAll, Demo.mixTree, Demo.tree, Demo.info, Demo.impls]

open Classical in
/-- Instance: the value of that mixture, in terms of its components. -/
example (r : Coord 3) (x y : ℝ) (hx : (Demo.eps .lda false).call (.ok (Demo.quad 3 5)) r none = .ok x)
    (hy : (Demo.eps .gga false).call (.ok (Demo.quad 3 5)) r none = .ok y) :
    (Demo.mixEps false).call (.ok (Demo.quad 3 5)) r none = .ok (2 * x + (3 * y + 3 / 2 * x)) := by
  have hne : Demo.info .lda false ≠ Demo.info .gga false := fun h => by simpa [Demo.info, famName] using congrArg PInfo.type h
  rw [c13_linear_combination (Demo.mixCreated false) (demo_sound false) (Or.inr (by rw [demo_leaves]; simp [Demo.info, famName]))
    (fun i => if i = Demo.info .lda false then Demo.eps .lda false else Demo.eps .gga false) ?_ _ r none
    (fun i => if i = Demo.info .lda false then x else y) ?_, demo_leaves]
  · simp [hne.symm]; norm_num
  · rw [demo_leaves]
    simp only [List.mem_cons, List.not_mem_nil, or_false]
    rintro z (rfl | rfl | rfl)
    · simp only [if_true]; exact ⟨_, _, Demo.created .lda false⟩
    · simp only [if_neg hne.symm]; exact ⟨_, _, Demo.created .gga false⟩
    · simp only [if_true]; exact ⟨_, _, Demo.created .lda false⟩
  · rw [demo_leaves]
    simp only [List.mem_cons, List.not_mem_nil, or_false]
    rintro z (rfl | rfl | rfl)
    · simp only [if_true]; exact hx
    · simp only [if_neg hne.symm]; exact hy
    · simp only [if_true]; exact hx

/-- C13: if a component raises, the mixture raises. -/
theorem c13_raises (hc : Created P I g polarized p eps) (hs : Sound I p)
    (hm : p.info.type = "mgga" ∨ ∀ x ∈ leaves p, x.2.type ≠ "mgga") (epsOf : PInfo → EpsFn)
    (hcs : ∀ x ∈ leaves p, ∃ gi aux, Created P I gi polarized (.node x.2 aux) (epsOf x.2))
    {n : ℕ} (rho : Callable n ℝ) (r : Coord n) (mo : Option (Callable n ℂ)) (x : ℝ × PInfo) (hx : x ∈ leaves p) (e : PyErr)
    (he : (epsOf x.2).call rho r mo = .error e) : ∃ e', eps.call rho r mo = .error e' := by
  rw [call_eq hc]
  refine invoke_error p hs ⟨x, hx, e, ?_⟩
  obtain ⟨gi, aux, hci⟩ := hcs x hx
  rw [leaf_call_eq hs x.2 x.1 hx hm hci]
  exact he

/-- C13, one level: the value is `Σᵢ mix_coef[i] · εᵢ`. -/
theorem c13_one_level (hc : Created P I g polarized p eps) (h1 : p.info.mapleName = "") (h2 : p.aux ≠ []) (h3 : p.aux.length = p.info.mixCoef.length)
    {n : ℕ} (rho : Callable n ℝ) (r : Coord n) (mo : Option (Callable n ℂ)) (v : Fin p.aux.length → ℝ)
    (hv : ∀ k, invoke P I rho r (if p.info.type = "mgga" then mo else none) (p.aux[k]) = .ok (v k)) :
    eps.call rho r mo = .ok (∑ k : Fin p.aux.length, p.info.mixCoef[k] * v k) := by
  rw [call_eq hc]
  generalize (if p.info.type = "mgga" then mo else none) = mo' at hv
  obtain ⟨i, aux⟩ := p
  simp only [PTree.info, PTree.aux] at h1 h2 h3 hv ⊢
  rw [invoke_mix i aux h1 h2]
  have key : ∀ (aux : List PTree) (cs : List ℝ) (h3 : aux.length = cs.length) (v : Fin aux.length → ℝ),
      (∀ k : Fin aux.length, invoke P I rho r mo' aux[k] = .ok (v k)) →
      ∃ l, invokeMix P I rho r mo' aux cs = .ok l ∧ l.sum = ∑ k : Fin aux.length, cs[k] * v k := by
    intro aux
    induction aux with
    | nil => exact fun cs _ _ _ => ⟨[], invokeMix_nil cs, by simp⟩
    | cons t ts ih =>
      intro cs h3 v hv
      cases cs with
      | nil => simp at h3
      | cons c cs =>
        obtain ⟨l, h4, h5⟩ := ih cs (by simpa using h3) (fun k => v k.succ) (fun k => hv k.succ)
        have h6 := hv ⟨0, by simp⟩
        refine ⟨c * v ⟨0, by simp⟩ :: l, ?_, ?_⟩
        · rw [invokeMix_cons, h4]
          simp only [Fin.getElem_fin, List.getElem_cons_zero] at h6
          rw [h6]; rfl
        · rw [List.sum_cons, h5]
          exact (Fin.sum_univ_succ (n := ts.length) (fun k => (c :: cs)[(k : ℕ)]'(h3 ▸ k.2) * v k)).symm
  obtain ⟨l, h4, h5⟩ := key aux i.mixCoef h3 v hv
  rw [h4]; exact congrArg Except.ok h5

/-! ## C14 -/

/-- The result of a mixture is `ok e` iff all components return and `e` is the sum. -/
theorem invokeMix_iff {n : ℕ} {rho : Callable n ℝ} {r : Coord n} {mo : Option (Callable n ℂ)} : ∀ (aux : List PTree) (cs : List ℝ) (l : List ℝ),
    invokeMix P I rho r mo aux cs = .ok l ↔ List.Forall₂ (fun x y => ∃ e, invoke P I rho r mo x.1 = .ok e ∧ y = x.2 * e) (aux.zip cs) l
  | [], cs, l => by rw [invokeMix_nil]; simp [eq_comm]
  | t :: ts, [], l => by rw [invokeMix_short]; simp [eq_comm]
  | t :: ts, c :: cs, l => by
    rw [invokeMix_cons, List.zip_cons_cons]
    cases hi : invoke P I rho r mo t with
    | error e => constructor
                 · intro h; cases h
                 · rintro (_ | ⟨⟨e', h1, h2⟩, _⟩)
                   simp only [hi] at h1; cases h1
    | ok x =>
      cases hj : invokeMix P I rho r mo ts cs with
      | error e => constructor
                   · intro h; cases h
                   · rintro (_ | ⟨_, h2⟩)
                     rw [← invokeMix_iff ts cs, hj] at h2; cases h2
      | ok xs =>
        constructor
        · intro h
          obtain rfl : c * x :: xs = l := Except.ok.inj h
          exact .cons ⟨x, hi, rfl⟩ ((invokeMix_iff ts cs xs).1 hj)
        · rintro (_ | ⟨⟨e', h1, h2⟩, h3⟩)
          rw [← invokeMix_iff ts cs, hj] at h3
          simp only [hi] at h1
          cases h1; cases h3; rw [h2]; rfl

/-- C14: permuting the (component, coefficient) pairs of a mixture does not change the value it returns. -/
theorem c14_permutation (i i' : PInfo) (aux aux' : List PTree) (hi : i.mapleName = "") (hi' : i'.mapleName = "") (ha : aux ≠ []) (ha' : aux' ≠ [])
    (hperm : (aux.zip i.mixCoef).Perm (aux'.zip i'.mixCoef)) {n : ℕ} (rho : Callable n ℝ) (r : Coord n) (mo : Option (Callable n ℂ)) (e : ℝ) :
    invoke P I rho r mo (.node i aux) = .ok e ↔ invoke P I rho r mo (.node i' aux') = .ok e := by
  have key : ∀ {aux aux' : List PTree} {cs cs' : List ℝ}, (aux.zip cs).Perm (aux'.zip cs') →
      (∃ l, invokeMix P I rho r mo aux cs = .ok l ∧ l.sum = e) → ∃ l, invokeMix P I rho r mo aux' cs' = .ok l ∧ l.sum = e := by
    rintro aux aux' cs cs' hp ⟨l, h1, h2⟩
    rw [invokeMix_iff] at h1
    obtain ⟨l', h3, h4⟩ := List.perm_comp_forall₂ hp.symm h1
    exact ⟨l', (invokeMix_iff _ _ _).2 h3, by rw [h4.sum_eq, h2]⟩
  have red : ∀ (i : PInfo) (aux : List PTree), i.mapleName = "" → aux ≠ [] →
      (invoke P I rho r mo (.node i aux) = .ok e ↔ ∃ l, invokeMix P I rho r mo aux i.mixCoef = .ok l ∧ l.sum = e) := by
    intro i aux hi ha
    rw [invoke_mix i aux hi ha]
    cases invokeMix P I rho r mo aux i.mixCoef with
    | error e => simp [Except.bind]
    | ok l => simp [Except.bind]
  rw [red i aux hi ha, red i' aux' hi' ha']
  exact ⟨key hperm, key hperm.symm⟩

end Verif.Props
