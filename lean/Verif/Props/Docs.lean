import Verif.Model.Docs
import Verif.Spec.Docs
import Verif.Props.Module
import Verif.Props.Wrapper
/-!
# C56: references and parameters in the docstrings
-/
namespace Verif.Props
open Verif.Model Verif.Text Verif.Spec

/-! ## Escapes -/

theorem unescape_escaped {s : Char → Prop} {enc u : List Char} (h : Escaped s enc u) (hn : '\n' ∉ u) : unescape enc = u := by
  induction h with
  | nil => rfl
  | plain c enc u hc _ _ ih =>
    have := ih fun m => hn (List.mem_cons_of_mem _ m)
    cases enc with
    | nil =>
      rw [← this]
      rfl
    | cons d enc => rw [unescape, if_neg fun h => hc h.1, this]
  | escaped c enc u _ ih =>
    have hc : c ≠ '\n' := fun e => hn (e ▸ List.mem_cons_self)
    rw [unescape, if_pos ⟨rfl, hc⟩, ih fun m => hn (List.mem_cons_of_mem _ m)]

theorem escapeAngle_cons (c : Char) (u : List Char) : escapeAngle (c :: u) = (if c = '<' ∨ c = '>' then ['\\', c] else [c]) ++ escapeAngle u := by
  rw [escapeAngle, escapeAngle, List.flatMap_cons, List.flatMap_append]
  congr 1
  by_cases h1 : c = '<'
  · subst h1; decide
  · by_cases h2 : c = '>'
    · subst h2; decide
    · simp [h1, h2]

theorem escapeAngle_escaped : ∀ u : List Char, '\\' ∉ u → Escaped Angle (escapeAngle u) u
  | [], _ => .nil
  | c :: u, h => by
    have ih := escapeAngle_escaped u fun m => h (List.mem_cons_of_mem _ m)
    rw [escapeAngle_cons]
    split
    · exact .escaped c _ _ ih
    · rename_i hc
      exact .plain c _ _ (fun e => h (e ▸ List.mem_cons_self)) hc ih

theorem strip_trimmed (l : List Char) (h : Trimmed l) : strip l = l := by
  rw [strip_eq]
  have h1 : l.dropWhile (fun c => decide (White c)) = l := by
    cases l with
    | nil => rfl
    | cons c l => exact List.dropWhile_cons_of_neg (by simpa using h.1 c (by simp))
  rw [h1]
  rcases List.eq_nil_or_concat l with rfl | ⟨t, c, rfl⟩
  · rfl
  · rw [List.concat_eq_append]
    exact List.rdropWhile_concat_neg _ _ _ (by simpa using h.2 c (by simp))

theorem escapeAngle_trimmed (u : List Char) (h : Trimmed u) : Trimmed (escapeAngle u) := by
  constructor
  · cases u with
    | nil => simp [escapeAngle]
    | cons c u =>
      rw [escapeAngle_cons]
      split
      · intro d hd
        obtain rfl : '\\' = d := by simpa using hd
        decide
      · intro d hd
        exact h.1 d (by simpa using hd)
  · rcases List.eq_nil_or_concat u with rfl | ⟨t, c, rfl⟩
    · simp [escapeAngle]
    · rw [List.concat_eq_append] at h ⊢
      have : escapeAngle (t ++ [c]) = escapeAngle t ++ escapeAngle [c] := by simp [escapeAngle]
      rw [this, escapeAngle_cons]
      have hl : ∀ x : List Char, (x ++ [c]).getLast? = some c := fun x => by simp
      intro d hd
      have hd' : d = c := by
        split at hd
        · rw [show escapeAngle t ++ (['\\', c] ++ escapeAngle []) = (escapeAngle t ++ ['\\']) ++ [c] by simp [escapeAngle], hl] at hd
          simpa using hd.symm
        · rw [show escapeAngle t ++ ([c] ++ escapeAngle []) = escapeAngle t ++ [c] by simp [escapeAngle], hl] at hd
          simpa using hd.symm
      rw [hd']
      exact h.2 c (by simp)

/-! ## Finding the URL -/

theorem afterPrefix_iff : ∀ p t r : List Char, afterPrefix p t = some r ↔ t = p ++ r
  | [], t, r => by simp [afterPrefix]
  | p :: ps, [], r => by simp [afterPrefix]
  | p :: ps, c :: cs, r => by
    rw [afterPrefix]
    split
    · rename_i h
      rw [afterPrefix_iff ps cs r, h]
      simp
    · rename_i h
      simp only [List.cons_append, List.cons.injEq, reduceCtorEq, false_iff]
      exact fun e => h e.1.symm

theorem lazyBrace_eq : ∀ u r : List Char, '}' ∉ u → '\n' ∉ u → lazyBrace (u ++ '}' :: r) = some u
  | [], r, _, _ => by simp [lazyBrace]
  | c :: u, r, h1, h2 => by
    rw [List.cons_append, lazyBrace, if_neg fun e : c = '}' => h1 (e ▸ List.mem_cons_self), if_neg fun e : c = '\n' => h2 (e ▸ List.mem_cons_self),
      lazyBrace_eq u r (fun m => h1 (List.mem_cons_of_mem _ m)) (fun m => h2 (List.mem_cons_of_mem _ m))]
    rfl

theorem lazyBrace_some : ∀ t u : List Char, lazyBrace t = some u → '}' ∉ u ∧ '\n' ∉ u ∧ ∃ r, t = u ++ '}' :: r
  | [], u, h => by simp [lazyBrace] at h
  | c :: t, u, h => by
    rw [lazyBrace] at h
    split at h
    · rename_i e
      obtain rfl : [] = u := by simpa using h
      exact ⟨by simp, by simp, t, by rw [e]; rfl⟩
    · split at h
      · simp at h
      · rename_i h1 h2
        obtain ⟨v, hv, rfl⟩ := Option.map_eq_some_iff.1 h
        obtain ⟨a, b, r, hr⟩ := lazyBrace_some t v hv
        refine ⟨?_, ?_, r, by rw [hr]; rfl⟩
        · intro hm
          rcases List.mem_cons.1 hm with e | hm
          · exact h1 e.symm
          · exact a hm
        · intro hm
          rcases List.mem_cons.1 hm with e | hm
          · exact h2 e.symm
          · exact b hm

/-- The first field `url = {…}` of the text that is complete on its line; what follows the first closing brace does not matter: -/
theorem c56_find (pre u post : List Char) (h1 : '}' ∉ u) (h2 : '\n' ∉ u)
    (hp : ∀ a b, pre = a ++ b → b ≠ [] → ¬ "url = {".toList <+: b ++ "url = {".toList ++ u ++ '}' :: post) :
    findUrl (pre ++ "url = {".toList ++ u ++ '}' :: post) = u := by
  induction pre with
  | nil =>
    have : afterPrefix "url = {".toList ("url = {".toList ++ (u ++ '}' :: post)) = some (u ++ '}' :: post) := (afterPrefix_iff _ _ _).2 rfl
    have e : ([] : List Char) ++ "url = {".toList ++ u ++ '}' :: post = "url = {".toList ++ (u ++ '}' :: post) := by simp only [List.nil_append, List.append_assoc]
    rw [e]
    generalize hw : "url = {".toList = w at this ⊢
    cases w with
    | nil => exact absurd hw (by decide)
    | cons c w =>
      rw [List.cons_append] at this ⊢
      rw [findUrl, hw, this, Option.bind_some, lazyBrace_eq u post h1 h2]
  | cons c pre ih =>
    have hn : afterPrefix "url = {".toList (c :: (pre ++ "url = {".toList ++ u ++ '}' :: post)) = none := by
      rw [Option.eq_none_iff_forall_ne_some]
      intro r hr
      rw [afterPrefix_iff] at hr
      exact hp [] (c :: pre) rfl (by simp) ⟨r, by rw [← hr]; simp⟩
    rw [List.cons_append, List.cons_append, List.cons_append, findUrl, hn, Option.bind_none]
    exact ih fun a b e hb => hp (c :: a) b (by rw [e]; rfl) hb

/-- A reference without such a field has no URL: -/
theorem c56_none (bib : List Char) (h : ¬ "url = {".toList <:+: bib) : urlOf bib = [] := by
  have : findUrl bib = [] := by
    induction bib with
    | nil => rfl
    | cons c bib ih =>
      have hn : afterPrefix "url = {".toList (c :: bib) = none := by
        rw [Option.eq_none_iff_forall_ne_some]
        intro r hr
        rw [afterPrefix_iff] at hr
        exact h ⟨[], r, by rw [hr]; simp⟩
      rw [findUrl, hn, Option.bind_none]
      exact ih fun hi => h (hi.trans (List.suffix_cons c bib).isInfix)
  rw [urlOf, this]
  decide

/-- The URL `u` of a reference of libxc, escaped in the BibTeX text in any way, is the target of the link in the docstring, provided that it contains no closing
brace, no line end, no backslash and no white space at its ends: -/
theorem c56_link (pre enc u post doi ref : List Char) (he : Escaped (fun _ => False) enc u) (hb : '}' ∉ enc) (hn : '\n' ∉ enc) (hs : '\\' ∉ u) (ht : Trimmed u)
    (hne : u ≠ [])
    (hp : ∀ a b, pre = a ++ b → b ≠ [] → ¬ "url = {".toList <+: b ++ "url = {".toList ++ enc ++ '}' :: post) :
    ∃ link, renderInfo (urlOf (pre ++ "url = {".toList ++ enc ++ '}' :: post), doi, ref) = [ref, link] ∧ IsLink link doi u := by
  have hun : '\n' ∉ u := by
    clear hb hs ht hne hp
    induction he with
    | nil => simp
    | plain c enc u _ _ _ ih =>
      rw [List.mem_cons, not_or] at hn ⊢
      exact ⟨hn.1, ih hn.2⟩
    | escaped c enc u _ ih =>
      rw [List.mem_cons, List.mem_cons, not_or, not_or] at hn
      rw [List.mem_cons, not_or]
      exact ⟨hn.2.1, ih hn.2.2⟩
  have hu : urlOf (pre ++ "url = {".toList ++ enc ++ '}' :: post) = escapeAngle u := by
    rw [urlOf, c56_find pre enc post hb hn hp, unescape_escaped he hun, strip_trimmed _ (escapeAngle_trimmed u ht)]
  have hne' : escapeAngle u ≠ [] := by
    cases u with
    | nil => exact absurd rfl hne
    | cons c u => rw [escapeAngle_cons]; split <;> simp
  rw [hu, renderInfo, if_pos hne']
  exact ⟨_, rfl, escapeAngle u, by simp only [List.append_assoc]; rfl, escapeAngle_escaped u hs⟩

/-- Without a URL the DOI is printed as it is: -/
theorem c56_plain (bib doi ref : List Char) (h : ¬ "url = {".toList <:+: bib) : renderInfo (urlOf bib, doi, ref) = [ref, doi] := by
  rw [c56_none bib h, renderInfo, if_neg (by simp)]

/-- An escaped closing brace ends the URL: of `url = {http://a/\{b\}c}` the link has only `http://a/{b\`. -/
theorem c56_brace : Escaped (fun _ => False) "http://a/\\{b\\}c".toList "http://a/{b}c".toList ∧ urlOf "url = {http://a/\\{b\\}c}".toList = "http://a/{b\\".toList := by
  refine ⟨?_, by decide +kernel⟩
  have h : ∀ w : List Char, '\\' ∉ w → ∀ e u, Escaped (fun _ => False) e u → Escaped (fun _ => False) (w ++ e) (w ++ u) := by
    intro w hw e u he
    induction w with
    | nil => exact he
    | cons c w ih =>
      rw [List.mem_cons, not_or] at hw
      exact .plain c _ _ (fun e => hw.1 e.symm) not_false (ih hw.2)
  exact h "http://a/".toList (by decide) _ _ (.escaped '{' _ _ (h "b".toList (by decide) _ _ (.escaped '}' _ _ (h "c".toList (by decide) _ _ .nil))))

/-- A backslash of the URL itself is lost: the target of the link for `a\b` is `ab`. -/
theorem c56_backslash : Escaped (fun _ => False) ['a', '\\', '\\', 'b'] ['a', '\\', 'b'] ∧
    Escaped Angle (urlOf ("url = {".toList ++ ['a', '\\', '\\', 'b', '}'])) ['a', 'b'] := by
  refine ⟨.plain _ _ _ (by decide) not_false (.escaped _ _ _ (.plain _ _ _ (by decide) not_false .nil)), ?_⟩
  rw [show urlOf ("url = {".toList ++ ['a', '\\', '\\', 'b', '}']) = ['a', '\\', 'b'] by decide +kernel]
  exact .plain _ _ _ (by decide) (by unfold Angle; decide) (.escaped _ _ _ .nil)

/-- The `k`-th reference combines the `k`-th BibTeX entry, DOI and citation of libxc: -/
theorem c56_info (bibs dois refs : List (List Char)) (k : ℕ) (b d r : List Char) (hb : bibs[k]? = some b) (hd : dois[k]? = some d) (hr : refs[k]? = some r) :
    (infoOf bibs dois refs)[k]? = some (urlOf b, strip d, strip r) := by
  have h : ((bibs.map fun b => escapeAngle (unescape (findUrl b))).zip (dois.zip refs))[k]? = some (escapeAngle (unescape (findUrl b)), d, r) :=
    List.getElem?_zip_eq_some.2 ⟨by rw [List.getElem?_map, hb]; rfl, List.getElem?_zip_eq_some.2 ⟨hd, hr⟩⟩
  rw [infoOf, List.getElem?_map, h]
  rfl

/-! ## Parameters -/

/-- Distinct names: every external parameter is documented with its own default value and description. -/
theorem c56_params (names : List String) (defaults : List ℝ) (descr : List String) (hl : names.length = defaults.length)
    (hnd : (names.map sanitise).Nodup) (k : ℕ) (n : String) (v : ℝ) (d : String) (hn : names[k]? = some n) (hv : defaults[k]? = some v) (hd : descr[k]? = some d) :
    (paramDocs (some (names, defaults)) descr)[k]? = some ((sanitise n, v), d) := by
  have : getExtParams (some (names, defaults)) = (names.map sanitise).zip defaults := by
    rw [getExtParams, pyDict, pyDict_go, List.nil_append]
    rw [List.nil_append, zip_fst _ _ (by simpa using hl)]
    exact hnd
  rw [paramDocs, this]
  exact List.getElem?_zip_eq_some.2 ⟨List.getElem?_zip_eq_some.2 ⟨by rw [List.getElem?_map, hn]; rfl, hv⟩, hd⟩

/-- Names that collide: some description at the end of the list is not printed. -/
theorem c56_params_lost (names : List String) (defaults : List ℝ) (descr : List String) (hl : names.length = defaults.length)
    (hd : descr.length = names.length) (hnd : ¬ (names.map sanitise).Nodup) : (paramDocs (some (names, defaults)) descr).length < descr.length := by
  have h := pyDict_short ((names.map sanitise).zip defaults) [] (by simp) (by rw [List.nil_append, zip_fst _ _ (by simpa using hl)]; exact hnd)
  rw [paramDocs, getExtParams, pyDict, List.length_zip, hd]
  simp only [List.length_nil, List.length_zip, List.length_map, ← hl, Nat.min_self, Nat.zero_add] at h
  omega

/-- … and other parameters get wrong descriptions: the third parameter of this functional is documented with the text for the second. -/
theorem c56_params_shifted : paramDocs (some (["c[0]", "c_0_", "d"], [1, 2, 3])) ["first", "second", "third"] = [(("c_0_", 2), "first"), (("d", 3), "second")] := by
  have h0 : sanitise "c[0]" = "c_0_" := by decide +kernel
  have h1 : sanitise "c_0_" = "c_0_" := by decide +kernel
  have h2 : sanitise "d" = "d" := by decide +kernel
  simp [paramDocs, getExtParams, pyDict, dictSet, h0, h1, h2]

/-- A functional without external parameters has none documented, whatever the list of descriptions. -/
theorem c56_params_none (descr : List String) : paramDocs none descr = [] := rfl

/-- A URL with an escaped underscore and an angle bracket. -/
example : ∃ link, renderInfo (urlOf ("@article{A, doi = {10.1/x}, url = {".toList ++ "http://d/a\\_b<1>".toList ++ "}}".toList), "10.1/x".toList, "A. Author".toList) = ["A. Author".toList, link] ∧
    IsLink link "10.1/x".toList "http://d/a_b<1>".toList := by
  have h : ∀ w : List Char, '\\' ∉ w → ∀ e u, Escaped (fun _ => False) e u → Escaped (fun _ => False) (w ++ e) (w ++ u) := by
    intro w hw e u he
    induction w with
    | nil => exact he
    | cons c w ih =>
      rw [List.mem_cons, not_or] at hw
      exact .plain c _ _ (fun e => hw.1 e.symm) not_false (ih hw.2)
  exact c56_link "@article{A, doi = {10.1/x}, ".toList "http://d/a\\_b<1>".toList "http://d/a_b<1>".toList "}".toList _ _
    (h "http://d/a".toList (by decide) _ _ (.escaped '_' _ _ (h "b<1>".toList (by decide) _ _ .nil))) (by decide) (by decide) (by decide)
    (by unfold Trimmed; decide) (by decide) (by
      intro a b e hb hp
      have hall : ∀ b ∈ "@article{A, doi = {10.1/x}, ".toList.tails, b ≠ [] →
          ¬ "url = {".toList <+: b ++ "url = {".toList ++ "http://d/a\\_b<1>".toList ++ '}' :: "}".toList := by decide +kernel
      exact hall b ((List.mem_tails _ _).2 ⟨a, e.symm⟩) hb hp)

/-- Two parameters. -/
example : (paramDocs (some (["_kappa", "c[1]"], [0.8, 2])) ["Asymptotic value", "Coefficient"])[1]? = some (("c_1_", 2), "Coefficient") := by
  have := c56_params ["_kappa", "c[1]"] [0.8, 2] ["Asymptotic value", "Coefficient"] rfl (by decide +kernel) 1 "c[1]" 2 "Coefficient" rfl rfl rfl
  rwa [show sanitise "c[1]" = "c_1_" by decide +kernel] at this

end Verif.Props
