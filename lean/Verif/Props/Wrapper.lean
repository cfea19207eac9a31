import Verif.Model.Gen
import Verif.Model.Experimental
import Verif.Lib.Demo
import Mathlib.Data.List.Nodup
import Mathlib.Tactic.NormNum
/-!
# C15, C16, C17: external parameters and attributes
-/
namespace Verif.Props
open Verif.Py Verif.Model Verif.Spec Verif.Text

/-! ## C15 -/

/-- The values that a call sends to libxc when it passes external parameters by keyword. -/
noncomputable def sent (ps : List (String × ℝ)) (kwargs : String → Option ℝ) : List ℝ := extValues ps (givenOf ps kwargs)

theorem sent_eq (ps : List (String × ℝ)) (kwargs : String → Option ℝ) : sent ps kwargs = ps.map fun x => pyOr (kwargs x.1) x.2 := by
  unfold sent extValues givenOf
  induction ps with
  | nil => rfl
  | cons a l ih => simp only [List.map_cons, List.zipWith_cons_cons, ih]

/-- The number of values sent is the number of parameters. -/
theorem c15_length (ps : List (String × ℝ)) (kwargs : String → Option ℝ) : (sent ps kwargs).length = ps.length := by simp [sent_eq]

/-- A parameter that is passed, and is not `0`, is sent as it is.  Missing for the full claim: the value `0`, for which it is false (`c15_zero_false`). -/
theorem c15_passed_partial (ps : List (String × ℝ)) (kwargs : String → Option ℝ) (k : ℕ) (name : String) (default v : ℝ) (hk : ps[k]? = some (name, default))
    (hv : kwargs name = some v) (h0 : v ≠ 0) : (sent ps kwargs)[k]? = some v := by
  rw [sent_eq, List.getElem?_map, hk, Option.map_some, hv]
  simp [pyOr, h0]

/-- A parameter that is not passed gets its default. -/
theorem c15_omitted (ps : List (String × ℝ)) (kwargs : String → Option ℝ) (k : ℕ) (name : String) (default : ℝ) (hk : ps[k]? = some (name, default))
    (hv : kwargs name = none) : (sent ps kwargs)[k]? = some default := by
  rw [sent_eq, List.getElem?_map, hk, Option.map_some, hv]
  simp [pyOr]

/-- A parameter that is passed as `0` gets its default, whatever it is. -/
theorem c15_zero (ps : List (String × ℝ)) (kwargs : String → Option ℝ) (k : ℕ) (name : String) (default : ℝ) (hk : ps[k]? = some (name, default))
    (hv : kwargs name = some 0) : (sent ps kwargs)[k]? = some default := by
  rw [sent_eq, List.getElem?_map, hk, Option.map_some, hv]
  simp [pyOr]

/-- The claim that every passed value is sent is false: a functional with the parameter `_omega = 0.3`, called with `_omega = 0`, sends `0.3`. -/
theorem c15_zero_false : ¬∀ (ps : List (String × ℝ)) (kwargs : String → Option ℝ) (k : ℕ) (name : String) (default v : ℝ),
    ps[k]? = some (name, default) → kwargs name = some v → (sent ps kwargs)[k]? = some v := by
  intro h
  have h1 := h [("_omega", 0.3)] (fun _ => some 0) 0 "_omega" 0.3 0 rfl rfl
  rw [c15_zero [("_omega", 0.3)] (fun _ => some 0) 0 "_omega" 0.3 rfl rfl] at h1
  norm_num at h1

/-- The wrapper calls `get_p` with exactly these values, and no other: a wrapper that succeeds used the record of `get_p`
for them (`eps` is what it would be with a `get_p` that returns this record). -/
theorem c15_wrapper {P : Prims} {I : Impls} {getP : String → Bool → List ℝ → Except PyErr PTree} {g : GenInfo} {polarized : Bool}
    {kwargs : String → Option ℝ} {eps : EpsFn} (h : wrapper P I getP g polarized (givenOf g.extParams kwargs) = .ok eps) :
    ∃ p, getP g.name polarized (sent g.extParams kwargs) = .ok p ∧
      ∀ {n : ℕ} (rho : Callable n ℝ) r mo, eps.call rho r mo = invoke P I rho r (if g.type = "mgga" then mo else none) p := by
  unfold wrapper at h
  unfold sent
  cases hp : getP g.name polarized (extValues g.extParams (givenOf g.extParams kwargs)) with
  | error e => rw [hp] at h; cases h
  | ok p =>
    rw [hp] at h
    simp only [bind, Except.bind, Except.ok.injEq] at h
    exact ⟨p, rfl, by intros; rw [← h]⟩

example : (sent [("_alpha", 0.2), ("_omega", 0.3)] (fun s => if s = "_omega" then some 7 else none))[1]? = some 7 :=
  c15_passed_partial _ _ 1 "_omega" 0.3 7 rfl (by simp) (by norm_num)
example : (sent [("_alpha", 0.2), ("_omega", 0.3)] (fun s => if s = "_omega" then some 7 else none))[0]? = some (0.2 : ℝ) :=
  c15_omitted _ _ 0 "_alpha" 0.2 rfl (by simp)

/-! ## C16 -/

theorem dictSet_new {α : Type} (k : String) (v : α) : ∀ (d : List (String × α)), k ∉ d.map (·.1) → dictSet k v d = d ++ [(k, v)]
  | [], _ => rfl
  | (k', v') :: d, h => by
    simp only [List.map_cons, List.mem_cons, not_or] at h
    rw [dictSet, if_neg (Ne.symm h.1), dictSet_new k v d h.2]
    rfl

theorem dictSet_length {α : Type} (k : String) (v : α) : ∀ (d : List (String × α)),
    (dictSet k v d).length = if k ∈ d.map (·.1) then d.length else d.length + 1
  | [] => by simp [dictSet]
  | (k', v') :: d => by
    rw [dictSet]
    by_cases h : k' = k
    · simp [h]
    · simp only [if_neg h, List.length_cons, dictSet_length k v d, List.map_cons, List.mem_cons, Ne.symm h, false_or]
      split <;> rfl

theorem dictSet_keys {α : Type} (k : String) (v : α) : ∀ (d : List (String × α)),
    (dictSet k v d).map (·.1) = if k ∈ d.map (·.1) then d.map (·.1) else d.map (·.1) ++ [k]
  | [] => by simp [dictSet]
  | (k', v') :: d => by
    rw [dictSet]
    by_cases h : k' = k
    · simp [h]
    · simp only [if_neg h, List.map_cons, dictSet_keys k v d, List.mem_cons, Ne.symm h, false_or]
      split <;> rfl

theorem pyDict_go {α : Type} : ∀ (l d : List (String × α)), ((d ++ l).map (·.1)).Nodup → l.foldl (fun d x => dictSet x.1 x.2 d) d = d ++ l
  | [], d, _ => by simp
  | x :: l, d, h => by
    have hx : x.1 ∉ d.map (·.1) := by
      rw [List.map_append, List.nodup_append] at h
      intro hm
      exact h.2.2 _ hm _ (by simp) rfl
    rw [List.foldl_cons, dictSet_new _ _ _ hx, pyDict_go l (d ++ [x]) (by rw [List.append_assoc]; exact h), List.append_assoc]
    rfl

theorem pyDict_len {α : Type} : ∀ (l d : List (String × α)), (l.foldl (fun d x => dictSet x.1 x.2 d) d).length ≤ d.length + l.length
  | [], d => by simp
  | x :: l, d => by
    rw [List.foldl_cons]
    refine (pyDict_len l _).trans ?_
    rw [dictSet_length, List.length_cons]
    split <;> omega

theorem pyDict_short {α : Type} : ∀ (l d : List (String × α)), ((d.map (·.1)).Nodup) → ¬((d ++ l).map (·.1)).Nodup →
    (l.foldl (fun d x => dictSet x.1 x.2 d) d).length < d.length + l.length
  | [], d, h, h' => by simp [h] at h'
  | x :: l, d, h, h' => by
    rw [List.foldl_cons]
    by_cases hx : x.1 ∈ d.map (·.1)
    · refine (pyDict_len l _).trans_lt ?_
      rw [dictSet_length, List.length_cons, if_pos hx]
      omega
    · rw [dictSet_new _ _ _ hx, Prod.mk.eta]
      have := pyDict_short l (d ++ [x]) (by
        rw [List.map_append, List.nodup_append]
        exact ⟨h, by simp, by
          intro a ha b hb
          simp only [List.map_cons, List.map_nil, List.mem_singleton] at hb
          rw [hb]
          exact fun e => hx (e ▸ ha)⟩) (by rw [List.append_assoc]; exact h')
      simp only [List.length_append, List.length_cons, List.length_nil] at this ⊢
      omega

theorem zip_fst (names : List String) (defaults : List ℝ) (hl : names.length = defaults.length) : ((names.zip defaults).map (·.1)) = names := by
  induction names generalizing defaults with
  | nil => simp
  | cons a l ih =>
    cases defaults with
    | nil => simp at hl
    | cons b m => simp only [List.zip_cons_cons, List.map_cons, ih m (by simpa using hl)]

/-- If the sanitised names are pairwise distinct, the `k`-th value sent belongs to the `k`-th external parameter of libxc:
it is what the call passes under its sanitised name, or else its default. -/
theorem c16_position (names : List String) (defaults : List ℝ) (hl : names.length = defaults.length) (hd : (names.map sanitise).Nodup)
    (kwargs : String → Option ℝ) : sent (getExtParams (some (names, defaults))) kwargs =
      (names.zip defaults).map fun x => pyOr (kwargs (sanitise x.1)) x.2 := by
  have hz : ((names.map sanitise).zip defaults).map (·.1) = names.map sanitise := zip_fst _ _ (by simpa using hl)
  have e : getExtParams (some (names, defaults)) = (names.map sanitise).zip defaults := by
    unfold getExtParams pyDict
    simp only
    rw [pyDict_go _ [] (by rw [List.nil_append, hz]; exact hd)]
    rfl
  rw [sent_eq, e, List.zip_map_left, List.map_map]
  rfl

/-- In particular libxc gets as many values as it has external parameters. -/
theorem c16_count (names : List String) (defaults : List ℝ) (hl : names.length = defaults.length) (hd : (names.map sanitise).Nodup)
    (kwargs : String → Option ℝ) : (sent (getExtParams (some (names, defaults))) kwargs).length = names.length := by
  rw [c16_position names defaults hl hd]
  simp [hl]

/-- If two sanitised names collide, fewer values are sent than libxc has external parameters. -/
theorem c16_collision (names : List String) (defaults : List ℝ) (hl : names.length = defaults.length) (hd : ¬(names.map sanitise).Nodup)
    (kwargs : String → Option ℝ) : (sent (getExtParams (some (names, defaults))) kwargs).length < names.length := by
  have hz : ((names.map sanitise).zip defaults).map (·.1) = names.map sanitise := zip_fst _ _ (by simpa using hl)
  rw [c15_length]
  unfold getExtParams pyDict
  simp only
  have := pyDict_short ((names.map sanitise).zip defaults) [] (by simp) (by rw [List.nil_append, hz]; exact hd)
  simpa [hl] using this

/-- `c[0]`, `c[1]` and `_lambda` are sanitised to distinct names. -/
example (kwargs : String → Option ℝ) : (sent (getExtParams (some (["c[0]", "c[1]", "_lambda"], [1, 2, 3]))) kwargs).length = 3 :=
  c16_count ["c[0]", "c[1]", "_lambda"] [1, 2, 3] rfl (by decide) kwargs
/-- `c[0]` and `c_0_` collide. -/
example (kwargs : String → Option ℝ) : (sent (getExtParams (some (["c[0]", "c_0_", "_lambda"], [1, 2, 3]))) kwargs).length < 3 :=
  c16_collision ["c[0]", "c_0_", "_lambda"] [1, 2, 3] rfl (by decide) kwargs

/-! ## C17 -/

section
variable {P : Prims} {I : Impls} {g : GenInfo} {polarized : Bool} {p : PTree} {eps : EpsFn}

theorem attrs_eq (hc : Created P I g polarized p eps) : eps.attrs = epsAttrs g p.info := by
  obtain ⟨getP, given, h1, h2⟩ := hc.made
  simp only [wrapper, h1, bind, Except.bind, Except.ok.injEq] at h2
  rw [← h2]

/-- The functional that a mixture's wrapper returns carries these five attributes of the record that libxc returned for this call
(so they reflect the external parameters of the call), and no others. -/
theorem c17_mixture (hc : Created P I g polarized p eps) (hm : g.mapleName = "") (a : String) : eps.attrs.lookup a =
    if a = "cam_alpha" then some (p.info.vals.fld .camAlpha) else if a = "cam_beta" then some (p.info.vals.fld .camBeta)
    else if a = "cam_omega" then some (p.info.vals.fld .camOmega) else if a = "nlc_b" then some p.info.nlcB
    else if a = "nlc_C" then some p.info.nlcC else none := by
  rw [attrs_eq hc, epsAttrs, if_pos hm]
  simp only [List.lookup]
  repeat' split
  all_goals simp_all

/-- A functional with its own formula carries none of them, even if it is a hybrid. -/
theorem c17_single (hc : Created P I g polarized p eps) (hm : g.mapleName ≠ "") (a : String) : eps.attrs.lookup a = none := by
  rw [attrs_eq hc, epsAttrs, if_neg hm]
  rfl

example : (Demo.mixEps true).attrs.lookup "cam_beta" = some 1 := by
  rw [c17_mixture (Demo.mixCreated true) rfl]; simp [Demo.mixTree, PTree.info, Demo.vals]
example : (Demo.eps .gga true).attrs.lookup "cam_beta" = none := c17_single (Demo.created .gga true) (by simp [Demo.gen]) _
end

end Verif.Props
