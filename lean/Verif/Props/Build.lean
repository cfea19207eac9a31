import Verif.Model.Build
import Mathlib.Data.List.Nodup
import Mathlib.Tactic.NormNum
/-!
# C43: the build covers every Maple file and every C file
-/
namespace Verif.Props
open Verif.Model

theorem stem_mpl (s : List Char) (hs : '.' ∉ s) : fileStem (s ++ ".mpl".toList) = s := by
  unfold fileStem
  rw [List.takeWhile_append_of_pos (fun c hc => by simpa using fun e : c = '.' => hs (e ▸ hc))]
  simp

theorem glob_mpl (s ext : List Char) (h1 : s ≠ []) (h2 : '.' ∉ s) : globExt ext (s ++ ext) = true := by
  unfold globExt
  rw [Bool.and_eq_true]
  refine ⟨List.isSuffixOf_iff_suffix.2 (List.suffix_append _ _), ?_⟩
  cases s with
  | nil => exact absurd rfl h1
  | cons c s =>
    simp only [List.mem_cons, not_or] at h2
    simpa using fun e => h2.1 e.symm

theorem mem_names (ls : List Char → List (List Char)) (folder s : List Char) (hf : folder ∈ folders) (hs : s ++ ".mpl".toList ∈ ls folder) (h1 : s ≠ [])
    (h2 : '.' ∉ s) : (s, folder ++ '/' :: (s ++ ".mpl".toList)) ∈ namesAndFiles ls := by
  unfold namesAndFiles
  rw [List.mem_flatMap]
  refine ⟨folder, hf, List.mem_map.2 ⟨s ++ ".mpl".toList, List.mem_filter.2 ⟨hs, glob_mpl s _ h1 h2⟩, ?_⟩⟩
  rw [stem_mpl s h2]

/-- C43: for every Maple file `s.mpl` of one of the six folders, in both modes, the library contains a module `s.py` generated from `pol/s.py` and
`unpol/s.py`, and each of these is generated by a rule: without prebuilt files by running Maple on a script that includes exactly that file with the right
polarization, with prebuilt files by copying the shipped file of that name. -/
theorem c43_covers (env : Option (List Char)) (ls : List Char → List (List Char)) (folder s : List Char)
    (hf : folder ∈ ["lda_exc".toList, "gga_exc".toList, "mgga_exc".toList, "lda_vxc".toList, "gga_vxc".toList, "mgga_vxc".toList])
    (hs : s ++ ".mpl".toList ∈ ls folder) (h1 : s ≠ []) (h2 : '.' ∉ s) :
    let B := implBuild env ls
    let pol := "pol/".toList ++ (s ++ ".py".toList)
    let unpol := "unpol/".toList ++ (s ++ ".py".toList)
    (∃ R ∈ B.rules, R.outs = [s ++ ".py".toList] ∧ R.srcs = [pol, unpol] ∧ R.action = .genPy pol unpol ∧ ':' :: R.name ∈ B.library) ∧
    (env = none → ∀ p : Bool, ∃ R ∈ B.rules, ∃ M ∈ B.rules, R.outs = [if p then pol else unpol] ∧ R.action = .maple ∧ R.srcs = M.outs ∧
      M.action = .genMaple p (folder ++ '/' :: (s ++ ".mpl".toList))) ∧
    (env ≠ none → ∀ p : Bool, ∃ R ∈ B.rules, R.outs = [if p then pol else unpol] ∧ R.action = .copy ∧
      R.srcs = [(if p then "@build_jax_xc//gen_repo/impl/prebuilt/pol:".toList else "@build_jax_xc//gen_repo/impl/prebuilt/unpol:".toList) ++ (s ++ ".py".toList)]) := by
  have hm := mem_names ls folder s hf hs h1 h2
  have mem : ∀ R, R ∈ formulaRules env.isSome (s, folder ++ '/' :: (s ++ ".mpl".toList)) → R ∈ (implBuild env ls).rules :=
    fun R hR => List.mem_flatMap.2 ⟨_, hm, hR⟩
  refine ⟨?_, ?_, ?_⟩
  · exact ⟨_, mem _ (List.mem_append_right _ List.mem_cons_self), rfl, rfl, rfl, List.mem_append_right _ (List.mem_map.2 ⟨_, hm, rfl⟩)⟩
  · rintro rfl p
    cases p with
    | true => exact ⟨_, mem _ (List.mem_append_left _ (List.mem_cons_of_mem _ (List.mem_cons_of_mem _ List.mem_cons_self))), _,
        mem _ (List.mem_append_left _ List.mem_cons_self), rfl, rfl, rfl, rfl⟩
    | false => exact ⟨_, mem _ (List.mem_append_left _ (List.mem_cons_of_mem _ (List.mem_cons_of_mem _ (List.mem_cons_of_mem _ List.mem_cons_self)))), _,
        mem _ (List.mem_append_left _ (List.mem_cons_of_mem _ List.mem_cons_self)), rfl, rfl, rfl, rfl⟩
  · intro hn p
    obtain ⟨v, rfl⟩ := Option.ne_none_iff_exists'.1 hn
    cases p with
    | true => exact ⟨_, mem _ (List.mem_append_left _ List.mem_cons_self), rfl, rfl, rfl⟩
    | false => exact ⟨_, mem _ (List.mem_append_left _ (List.mem_cons_of_mem _ List.mem_cons_self)), rfl, rfl, rfl⟩

/-- … and nothing else: every module of the library is the one of a Maple file (the text before the first dot of its name), or one of the two
files that are always there. -/
theorem c43_only (env : Option (List Char)) (ls : List Char → List (List Char)) (x : List Char) (hx : x ∈ (implBuild env ls).library) :
    x = "__init__.py".toList ∨ x = "utils.py".toList ∨
      ∃ folder ∈ folders, ∃ f ∈ ls folder, ".mpl".toList <:+ f ∧ x = ':' :: (f.takeWhile (· != '.') ++ "_gen_py".toList) := by
  rcases List.mem_append.1 hx with hx | hx
  · simp only [List.mem_cons, List.not_mem_nil, or_false] at hx
    rcases hx with hx | hx
    · exact Or.inl hx
    · exact Or.inr (Or.inl hx)
  · right; right
    obtain ⟨y, hy, rfl⟩ := List.mem_map.1 hx
    obtain ⟨folder, hf, hy⟩ := List.mem_flatMap.1 hy
    obtain ⟨f, hff, rfl⟩ := List.mem_map.1 hy
    obtain ⟨h1, h2⟩ := List.mem_filter.1 hff
    refine ⟨folder, hf, f, h1, ?_, rfl⟩
    unfold globExt at h2
    rw [Bool.and_eq_true] at h2
    exact List.isSuffixOf_iff_suffix.1 h2.1

/-! ### Names of the rules -/

/-- The endings of the names of rules. -/
def endings (prebuilt : Bool) : List (List Char) :=
  if prebuilt then ["_pol".toList, "_unpol".toList, "_gen_py".toList] else ["_maple_pol".toList, "_maple_unpol".toList, "_pol".toList, "_unpol".toList, "_gen_py".toList]

theorem names_formula (pre : Bool) (x : List Char × List Char) : (formulaRules pre x).map Rule.name = (endings pre).map (x.1 ++ ·) := by
  cases pre <;> rfl

/-- Two names with the same text have the same fileStem and the same ending, unless one fileStem is the other followed by `_maple`. -/
theorem names_disjoint (s t e f : List Char) (he : e ∈ endings false) (hf : f ∈ endings false) (hs : ¬ "_maple".toList <:+ s) (ht : ¬ "_maple".toList <:+ t)
    (h : s ++ e = t ++ f) : s = t ∧ e = f := by
  have key : ∀ (s t e f : List Char), e ∈ endings false → f ∈ endings false → ¬ "_maple".toList <:+ s → s ++ e = t ++ f → e.length ≤ f.length → s = t ∧ e = f := by
    intro s t e f he hf hs h hl
    have hsuf : e <:+ f := by
      refine List.suffix_of_suffix_length_le (l₃ := s ++ e) (List.suffix_append _ _) ?_ hl
      rw [h]
      exact List.suffix_append _ _
    by_cases hef : e = f
    · subst hef
      exact ⟨List.append_cancel_right h, rfl⟩
    exfalso
    have hd : ∀ e ∈ endings false, ∀ f ∈ endings false, e <:+ f → e ≠ f → f = "_maple".toList ++ e := by decide
    rw [hd e he f hf hsuf hef, ← List.append_assoc] at h
    exact hs ⟨t, (List.append_cancel_right h).symm⟩
  rcases Nat.le_total e.length f.length with hl | hl
  · exact key s t e f he hf hs h hl
  · obtain ⟨h1, h2⟩ := key t s f e hf he ht h.symm hl
    exact ⟨h1.symm, h2.symm⟩

/-- The other targets of the BUILD file (`gen_repo/impl/build.jinja:3-19,93-94`). -/
def otherTargets : List (List Char) := ["maple_files".toList, "gen_maple".toList, "gen_py".toList, "impl".toList]

/-- C43: if the stems of the Maple files are distinct and none of them ends in `_maple`, no two targets of the generated BUILD file have the same name
(Bazel rejects a file where they do). -/
theorem c43_unique (env : Option (List Char)) (ls : List Char → List (List Char)) (hd : ((namesAndFiles ls).map Prod.fst).Nodup)
    (hm : ∀ x ∈ namesAndFiles ls, ¬ "_maple".toList <:+ x.1) : (otherTargets ++ (implBuild env ls).rules.map Rule.name).Nodup := by
  have sub : ∀ e ∈ endings env.isSome, e ∈ endings false := by cases env.isSome <;> decide
  have hnd : ∀ pre, (endings pre).Nodup := by decide
  have names : (implBuild env ls).rules.map Rule.name = (namesAndFiles ls).flatMap fun x => (endings env.isSome).map (x.1 ++ ·) := by
    unfold implBuild
    simp only
    rw [List.map_flatMap]
    simp only [names_formula]
  rw [names]
  refine List.Nodup.append (by decide) ?_ ?_
  · rw [List.nodup_flatMap]
    refine ⟨fun x _ => (hnd _).map (List.append_right_injective x.1), ?_⟩
    have hd' := List.pairwise_map.1 hd
    refine hd'.imp_of_mem fun {x y} hx hy hne => ?_
    intro n h1 h2
    obtain ⟨e, he, rfl⟩ := List.mem_map.1 h1
    obtain ⟨f, hf, h3⟩ := List.mem_map.1 h2
    exact hne (names_disjoint _ _ _ _ (sub e he) (sub f hf) (hm x hx) (hm y hy) h3.symm).1
  · intro n h1 h2
    obtain ⟨x, -, h3⟩ := List.mem_flatMap.1 h2
    obtain ⟨e, he, rfl⟩ := List.mem_map.1 h3
    have : ∀ t ∈ otherTargets, ∀ e ∈ endings false, ¬ e <:+ t := by decide
    exact this _ h1 e (sub e he) (List.suffix_append _ _)

/-- The condition on `_maple` is needed. -/
theorem c43_clash : ¬ (((implBuild none fun d => if d = "lda_exc".toList then ["a.mpl".toList, "a_maple.mpl".toList] else []).rules.map Rule.name).Nodup) := by decide +kernel

/-- A dot in the name: the script includes another file than the one that was found. -/
theorem c43_dot : namesAndFiles (fun d => if d = "lda_exc".toList then ["a.v2.mpl".toList] else []) = [("a".toList, "lda_exc/a.mpl".toList)] := by decide +kernel

/-! ### C files -/

/-- C43: a C file is wrapped, compiled and linked unless its name starts with `funcs_` or `work_` (or with a dot). -/
theorem c43_wrapped (files : List (List Char)) (b : List Char) (hb : b ∈ files) (hc : ".c".toList <:+ b) (h1 : ¬ "funcs_".toList <+: b) (h2 : ¬ "work_".toList <+: b)
    (h3 : b.head? ≠ some '.') :
    let B := libxcBuild files
    ∃ W ∈ B.rules, ∃ O ∈ B.rules, W.action = .wrap ∧ W.srcs = ["src/".toList ++ b] ∧ O.action = .compile ∧ O.srcs = W.outs ∧ ':' :: O.name ∈ B.library := by
  have hm : b ∈ wrappedFiles files := by
    unfold wrappedFiles globExt
    rw [List.mem_filter, List.mem_filter]
    refine ⟨⟨hb, ?_⟩, ?_⟩
    · rw [Bool.and_eq_true]
      exact ⟨List.isSuffixOf_iff_suffix.2 hc, by simpa using h3⟩
    · rw [Bool.not_eq_true', Bool.or_eq_false_iff]
      exact ⟨by rw [← Bool.not_eq_true, List.isPrefixOf_iff_prefix]; exact h1, by rw [← Bool.not_eq_true, List.isPrefixOf_iff_prefix]; exact h2⟩
  exact ⟨_, List.mem_flatMap.2 ⟨b, hm, List.mem_cons_self⟩, _, List.mem_flatMap.2 ⟨b, hm, List.mem_cons_of_mem _ List.mem_cons_self⟩, rfl, rfl, rfl, rfl,
    List.mem_map.2 ⟨b, hm, rfl⟩⟩

/-- … and no file whose name starts with `funcs_` or `work_` is. -/
theorem c43_skipped (files : List (List Char)) (R : Rule) (hR : R ∈ (libxcBuild files).rules) (hw : R.action = .wrap) :
    ∃ b ∈ files, R.srcs = ["src/".toList ++ b] ∧ ".c".toList <:+ b ∧ ¬ "funcs_".toList <+: b ∧ ¬ "work_".toList <+: b := by
  obtain ⟨b, hb, hR⟩ := List.mem_flatMap.1 hR
  unfold wrappedFiles globExt at hb
  rw [List.mem_filter, List.mem_filter] at hb
  obtain ⟨⟨h1, h2⟩, h3⟩ := hb
  rw [Bool.and_eq_true] at h2
  rw [Bool.not_eq_true', Bool.or_eq_false_iff, ← Bool.not_eq_true, List.isPrefixOf_iff_prefix, ← Bool.not_eq_true, List.isPrefixOf_iff_prefix] at h3
  refine ⟨b, h1, ?_, List.isSuffixOf_iff_suffix.1 h2.1, h3.1, h3.2⟩
  simp only [wrapRules, List.mem_cons, List.not_mem_nil, or_false] at hR
  rcases hR with rfl | rfl
  · rfl
  · cases hw

/-! ### Instances -/

/-- A small listing. -/
def demoLs (d : List Char) : List (List Char) :=
  if d = "lda_exc".toList then ["lda_x.mpl".toList, "README".toList] else if d = "gga_exc".toList then ["gga_x_pbe.mpl".toList, ".x.mpl".toList] else []

example : ((implBuild none demoLs).rules.map Rule.name).Nodup :=
  (List.nodup_append.1 (c43_unique none demoLs (by decide +kernel) (by decide +kernel))).2.1
example := c43_covers none demoLs "gga_exc".toList "gga_x_pbe".toList (by decide) (by decide +kernel) (by decide) (by decide)
example := c43_covers (some "true".toList) demoLs "lda_exc".toList "lda_x".toList (by decide) (by decide +kernel) (by decide) (by decide)
example := c43_wrapped ["gga_x_pbe.c".toList, "work_gga.c".toList] "gga_x_pbe.c".toList (by decide) (by decide) (by decide) (by decide) (by decide)
example : wrappedFiles ["gga_x_pbe.c".toList, "work_gga.c".toList, "funcs_gga.c".toList, "xc.h".toList] = ["gga_x_pbe.c".toList] := by decide +kernel

end Verif.Props
