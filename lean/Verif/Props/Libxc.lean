import Verif.Model.Libxc
import Verif.Spec.Api
import Verif.Props.Record
/-!
# C27, C30: classification of functionals and selection of formulas
-/
namespace Verif.Props
open Verif.Py Verif.Model Verif.Spec

/-! ## C27 -/

/-- A name of the family `fam`: it starts with the family's name, possibly after `hyb_`. -/
def InFamily (fam : Fam) (s : String) : Prop := ∃ rest, s = famName fam ++ rest ∨ s = "hyb_" ++ famName fam ++ rest

theorem startsWith_iff (pre s : String) : startsWith pre s = true ↔ ∃ rest, s = pre ++ rest := by
  unfold startsWith
  rw [List.isPrefixOf_iff_prefix]
  constructor
  · rintro ⟨r, h⟩
    exact ⟨String.ofList r, by rw [← String.toList_inj, String.toList_append, String.toList_ofList, h]⟩
  · rintro ⟨r, rfl⟩
    rw [String.toList_append]
    exact List.prefix_append _ _

theorem family_test (fam : Fam) (s : String) : (startsWith (famName fam) s || startsWith ("hyb_" ++ famName fam) s) = true ↔ InFamily fam s := by
  rw [Bool.or_eq_true, startsWith_iff, startsWith_iff]
  constructor
  · rintro (⟨r, h⟩ | ⟨r, h⟩)
    · exact ⟨r, Or.inl h⟩
    · exact ⟨r, Or.inr h⟩
  · rintro ⟨r, h | h⟩
    · exact Or.inl ⟨r, h⟩
    · exact Or.inr ⟨r, h⟩

/-- The six prefixes. -/
def famPre : Fam → Bool → List Char
  | .lda, false => ['l', 'd', 'a']
  | .gga, false => ['g', 'g', 'a']
  | .mgga, false => ['m', 'g', 'g', 'a']
  | .lda, true => ['h', 'y', 'b', '_', 'l', 'd', 'a']
  | .gga, true => ['h', 'y', 'b', '_', 'g', 'g', 'a']
  | .mgga, true => ['h', 'y', 'b', '_', 'm', 'g', 'g', 'a']

theorem famPre_false (fam : Fam) : (famName fam).toList = famPre fam false := by cases fam <;> rfl
theorem famPre_true (fam : Fam) : ("hyb_" ++ famName fam).toList = famPre fam true := by
  rw [String.toList_append, famPre_false]; cases fam <;> rfl

theorem inFamily_pre (fam : Fam) (s : String) (h : InFamily fam s) : ∃ b m, s.toList = famPre fam b ++ m := by
  obtain ⟨r, h | h⟩ := h
  · exact ⟨false, r.toList, by rw [h, String.toList_append, famPre_false]⟩
  · exact ⟨true, r.toList, by rw [h, String.toList_append, famPre_true]⟩

/-- At most one family applies. -/
theorem c27_unique (fam fam' : Fam) (s : String) (h : InFamily fam s) (h' : InFamily fam' s) : fam = fam' := by
  obtain ⟨b, m, h⟩ := inFamily_pre fam s h
  obtain ⟨b', m', h'⟩ := inFamily_pre fam' s h'
  rw [h] at h'
  cases fam <;> cases fam' <;> cases b <;> cases b' <;> first | rfl | (simp [famPre] at h')

/-- The C++ code gives a name the type of its family. -/
theorem c27_cpp (fam : Fam) (s : String) : nameToType s = .ok (famName fam) ↔ InFamily fam s := by
  have h1 := family_test .lda s
  have h2 := family_test .gga s
  have h3 := family_test .mgga s
  have e : ∀ f : Fam, (famName f) = (famName fam) ↔ f = fam := by intro f; cases f <;> cases fam <;> decide
  unfold nameToType
  constructor
  · intro h
    split at h
    · rename_i c
      have := (e .lda).1 (by simpa [famName] using h)
      rw [← this]; exact h1.1 c
    split at h
    · rename_i c
      have := (e .gga).1 (by simpa [famName] using h)
      rw [← this]; exact h2.1 c
    split at h
    · rename_i c
      have := (e .mgga).1 (by simpa [famName] using h)
      rw [← this]; exact h3.1 c
    · cases h
  · intro h
    split
    · rename_i c
      rw [c27_unique fam .lda s h (h1.1 c)]; rfl
    split
    · rename_i c
      rw [c27_unique fam .gga s h (h2.1 c)]; rfl
    split
    · rename_i c
      rw [c27_unique fam .mgga s h (h3.1 c)]; rfl
    · rename_i c1 c2 c3
      cases fam
      · exact absurd (h1.2 h) c1
      · exact absurd (h2.2 h) c2
      · exact absurd (h3.2 h) c3

/-- A name of no family is an error in C++. -/
theorem c27_cpp_error (s : String) (h : ∀ fam, ¬InFamily fam s) : nameToType s = .error .runtimeError := by
  have h1 : ¬(startsWith "lda" s || startsWith "hyb_lda" s) = true := mt (family_test .lda s).1 (h .lda)
  have h2 : ¬(startsWith "gga" s || startsWith "hyb_gga" s) = true := mt (family_test .gga s).1 (h .gga)
  have h3 : ¬(startsWith "mgga" s || startsWith "hyb_mgga" s) = true := mt (family_test .mgga s).1 (h .mgga)
  unfold nameToType
  rw [if_neg h1, if_neg h2, if_neg h3]

/-- The classification by the code that generates Maple scripts is the same, except for the exception. -/
theorem c27_maple (s : String) : genMapleType s = match nameToType s with
    | .ok t => .ok t
    | .error _ => .error .nameError := by
  unfold genMapleType nameToType
  repeat' split
  all_goals first | rfl | simp_all

/-- So is the classification by the code that generates Python modules, which looks at the stem of the file name. -/
theorem c27_py (s : String) : genPyType s = genMapleType (stem s) := rfl

theorem takeWhile_append (l m : List Char) (h : '.' ∉ l) : (l ++ '.' :: m).takeWhile (fun c => c ≠ '.') = l := by
  induction l with
  | nil => simp
  | cons c l ih =>
    simp only [List.mem_cons, not_or] at h
    rw [List.cons_append, List.takeWhile_cons, if_pos (by simpa using Ne.symm h.1), ih h.2]

theorem stem_ext (s ext : String) (h : '.' ∉ s.toList) : stem (s ++ "." ++ ext) = s := by
  unfold stem
  rw [String.toList_append, String.toList_append]
  have e : (".".toList : List Char) = ['.'] := rfl
  rw [e, List.append_assoc, List.singleton_append, takeWhile_append _ _ h, String.ofList_toList]

theorem prefix_ext (p l m : List Char) (hp : '.' ∉ p) : p.isPrefixOf (l ++ '.' :: m) = p.isPrefixOf l := by
  induction p generalizing l with
  | nil => simp
  | cons a p ih =>
    simp only [List.mem_cons, not_or] at hp
    cases l with
    | nil =>
      simp only [List.nil_append, List.isPrefixOf]
      rw [Bool.and_eq_false_iff.2 (Or.inl (by simpa using Ne.symm hp.1))]
    | cons b l => simp only [List.cons_append, List.isPrefixOf, ih l hp.2]

theorem startsWith_ext (pre s ext : String) (hp : '.' ∉ pre.toList) : startsWith pre (s ++ "." ++ ext) = startsWith pre s := by
  unfold startsWith
  rw [String.toList_append, String.toList_append]
  have e : (".".toList : List Char) = ['.'] := rfl
  rw [e, List.append_assoc, List.singleton_append, prefix_ext _ _ _ hp]

/-- For the files of one functional, `s.mpl` and `s.py`, the two generators agree. -/
theorem c27_agree (s : String) (h : '.' ∉ s.toList) : genMapleType (s ++ "." ++ "mpl") = genPyType (s ++ "." ++ "py") := by
  rw [c27_py, stem_ext s "py" h]
  unfold genMapleType
  simp only [startsWith_ext _ s "mpl" (show '.' ∉ "lda".toList by decide), startsWith_ext _ s "mpl" (show '.' ∉ "gga".toList by decide),
    startsWith_ext _ s "mpl" (show '.' ∉ "mgga".toList by decide), startsWith_ext _ s "mpl" (show '.' ∉ "hyb_lda".toList by decide),
    startsWith_ext _ s "mpl" (show '.' ∉ "hyb_gga".toList by decide), startsWith_ext _ s "mpl" (show '.' ∉ "hyb_mgga".toList by decide)]

/-- A prefix `hyb_` does not change the family (unless there is one already). -/
theorem c27_hyb (s : String) (h : startsWith "hyb_" s = false) (fam : Fam) : InFamily fam ("hyb_" ++ s) ↔ InFamily fam s := by
  constructor
  · rintro ⟨r, e | e⟩
    · rw [← String.toList_inj, String.toList_append, String.toList_append] at e
      exfalso
      cases fam <;> simp [famName] at e
    · refine ⟨r, Or.inl ?_⟩
      rw [String.append_assoc] at e
      rw [← String.toList_inj, String.toList_append, String.toList_append] at e
      rw [← String.toList_inj]
      exact List.append_cancel_left e
  · rintro ⟨r, e | e⟩
    · exact ⟨r, Or.inr (by rw [e, String.append_assoc])⟩
    · have : startsWith "hyb_" s = true := (startsWith_iff _ _).2 ⟨famName fam ++ r, by rw [e, String.append_assoc]⟩
      rw [h] at this; cases this

example : InFamily .mgga "hyb_mgga_x_m05" := ⟨"_x_m05", Or.inr rfl⟩
example : genPyType "gga_x_pbe.py" = .ok "gga" := by rw [c27_py, c27_maple, (c27_cpp .gga _).2 ⟨"_x_pbe", Or.inl (by decide)⟩]; rfl
example : ∀ fam, ¬InFamily fam "k_tfvw" := by
  intro fam h
  have := (c27_cpp fam _).2 h
  have e : nameToType "k_tfvw" = .error .runtimeError := by decide
  rw [e] at this; cases this

/-! ## C30 -/

/-- The last name registered for an address. -/
def lastName (history : List (ℕ × String)) (k : ℕ) : Option String := (history.reverse.find? fun x => x.1 = k).map Prod.snd

theorem workMap_eq (history : List (ℕ × String)) (k : ℕ) : workMap history k = lastName history k := by
  unfold lastName workMap
  induction history using List.reverseRecOn with
  | nil => rfl
  | append_singleton l x ih =>
    rw [List.foldl_append, List.reverse_append]
    simp only [List.foldl_cons, List.foldl_nil, List.reverse_cons, List.reverse_nil, List.nil_append, List.singleton_append, registerMaple]
    by_cases h : k = x.1
    · rw [if_pos h, List.find?_cons_of_pos (by simpa using h.symm)]; rfl
    · rw [if_neg h, List.find?_cons_of_neg (by simpa using Ne.symm h), ih]

/-- The work function of a functional: the first of `lda`, `gga`, `mgga` that is not null. -/
def firstWork (i : CInfo) : Option ℕ := i.lda <|> i.gga <|> i.mgga

/-- The formula of a functional: the two hard-wired names first, then the empty name (a mixture) for a functional with components, then the last
name registered for its work function. -/
theorem c30_formula (history : List (ℕ × String)) (c : CFields) : getMapleName (workMap history) c =
    if c.info.name = "mgga_x_2d_prhg07_prp10" then .ok "mgga_x_2d_prp10" else if c.info.name = "hyb_mgga_xc_b98" then .ok "mgga_xc_b98"
    else if c.hasAux then .ok "" else
      match (firstWork c.info).bind (lastName history) with
      | some name => .ok name
      | none => .error .runtimeError := by
  unfold getMapleName
  have e : workKey c.info = firstWork c.info := by
    unfold workKey firstWork
    cases c.info.lda <;> cases c.info.gga <;> rfl
  simp only [e]
  split
  · rfl
  split
  · rfl
  split
  · rfl
  cases firstWork c.info with
  | none => rfl
  | some k =>
    simp only [workMap_eq, Option.bind_some]
    cases lastName history k <;> rfl

/-- A functional with components is never evaluated as `DEORBITALIZE`. -/
theorem c30_components_not_deorbitalized (history : List (ℕ × String)) (c : CFields) (h : c.hasAux = true) :
    getMapleName (workMap history) c ≠ .ok "DEORBITALIZE" := by
  rw [c30_formula, h]
  split
  · decide
  split
  · decide
  · simp

/-- A functional without components whose work function is not registered, or that has none, raises. -/
theorem c30_raises (history : List (ℕ × String)) (c : CFields) (h : c.hasAux = false) (h1 : c.info.name ≠ "mgga_x_2d_prhg07_prp10")
    (h2 : c.info.name ≠ "hyb_mgga_xc_b98") (hk : ∀ k, firstWork c.info = some k → ∀ x ∈ history, x.1 ≠ k) :
    getMapleName (workMap history) c = .error .runtimeError := by
  rw [c30_formula, if_neg h1, if_neg h2, h]
  cases hf : firstWork c.info with
  | none => rfl
  | some k =>
    have : lastName history k = none := by
      unfold lastName
      rw [List.find?_eq_none.2]
      · rfl
      · intro x hx
        simpa using hk k hf x (List.mem_reverse.1 hx)
    simp [this]

/-- A functional with components, and one without. -/
def demoFields (name : String) (hasAux : Bool) (nspin : ℕ) : CFields :=
  ⟨⟨name, none, some 7, some 8, 3⟩, nspin, 0, 0, 0, 0, 0, 1, 1, 1, 1, fun _ => ⟨[], [1]⟩, hasAux, fun n => n⟩

example : getMapleName (workMap [(7, "a"), (8, "b"), (7, "gga_x_pbe")]) (demoFields "gga_x_pbe_sol" false 1) = .ok "gga_x_pbe" := by
  rw [c30_formula]
  simp [demoFields, firstWork, lastName]
example : getMapleName (workMap []) (demoFields "gga_x_pbe_sol" true 1) ≠ .ok "DEORBITALIZE" := c30_components_not_deorbitalized _ _ rfl
example : getMapleName (workMap [(8, "b")]) (demoFields "gga_x_pbe_sol" false 1) = .error .runtimeError :=
  c30_raises _ _ rfl (by simp [demoFields]) (by simp [demoFields]) (by simp [demoFields, firstWork])

end Verif.Props
