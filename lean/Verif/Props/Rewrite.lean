import Verif.Text.PostProcess
import Verif.Spec.Rewrite
import Mathlib.Tactic.Ring
import Mathlib.Tactic.FieldSimp
import Mathlib.Data.List.Infix
import Mathlib.Algebra.Order.Field.Rat
import Mathlib.Tactic.NormNum
/-!
# C32, C33: numerals and names in the rewriting of Maple's output
-/
namespace Verif.Props
open Verif.Text Verif.Spec

/-! ### Words -/

theorem matchPat_iff (s t : List Char) : matchPat (s.map fun c => if c = '.' then none else some c) t = true ↔ ∃ m b, t = m ++ b ∧ Fits s m := by
  induction s generalizing t with
  | nil =>
    simp only [List.map_nil, matchPat, true_iff]
    exact ⟨[], t, rfl, List.Forall₂.nil⟩
  | cons p s ih =>
    cases t with
    | nil =>
      have : matchPat ((p :: s).map fun c => if c = '.' then none else some c) [] = false := by
        rw [List.map_cons, matchPat]
      rw [this]
      constructor
      · intro h; cases h
      · rintro ⟨m, b, e, h⟩
        cases h with
        | cons _ _ => simp at e
    | cons c t =>
      have key : (∃ m b, c :: t = m ++ b ∧ Fits (p :: s) m) ↔ (p = '.' ∨ p = c) ∧ ∃ m b, t = m ++ b ∧ Fits s m := by
        constructor
        · rintro ⟨m, b, e, h⟩
          cases h with
          | cons h1 h2 =>
            simp only [List.cons_append, List.cons.injEq] at e
            obtain ⟨rfl, e⟩ := e
            exact ⟨h1, _, b, e, h2⟩
        · rintro ⟨h, m, b, e, hf⟩
          exact ⟨c :: m, b, by rw [e]; rfl, .cons h hf⟩
      rw [key, ← ih t, List.map_cons]
      by_cases hp : p = '.'
      · simp [hp, matchPat]
      · simp [hp, matchPat]

theorem contains_iff (s : String) (t : List Char) : Contains s t ↔ ∃ v, v <:+ t ∧ matchPat (pat s) v = true := by
  unfold Contains pat
  constructor
  · rintro ⟨a, m, b, rfl, h⟩
    exact ⟨m ++ b, List.suffix_append _ _, (matchPat_iff _ _).2 ⟨m, b, rfl, h⟩⟩
  · rintro ⟨v, ⟨a, rfl⟩, h⟩
    obtain ⟨m, b, rfl, hf⟩ := (matchPat_iff _ _).1 h
    exact ⟨a, m, b, rfl, hf⟩

theorem contains_suffix {s : String} {t u : List Char} (h : Contains s t) (hs : t <:+ u) : Contains s u := by
  rw [contains_iff] at h ⊢
  obtain ⟨v, hv, h⟩ := h
  exact ⟨v, hv.trans hs, h⟩

theorem subPatGo_none (p : Pat) (rep t : List Char) (h : ∀ v, v <:+ t → matchPat p v = false) : subPatGo p rep 0 t = t := by
  induction t with
  | nil => rfl
  | cons c t ih =>
    rw [subPatGo, h _ List.suffix_rfl, if_neg (by simp), ih fun v hv => h v (hv.trans (List.suffix_cons c t))]

theorem subPat_none (s rep : String) (t : List Char) (h : ¬ Contains s t) : subPat s rep t = t := by
  refine subPatGo_none _ _ _ fun v hv => ?_
  rw [contains_iff] at h
  cases hm : matchPat (pat s) v with
  | false => rfl
  | true => exact absurd ⟨v, hv, hm⟩ h

/-! ### Cube roots -/

theorem balanced_append (t : List Char) : ∀ d g r, balanced d t = some (g, r) → t = g ++ r := by
  induction t with
  | nil => intro d g r h; cases h
  | cons c t ih =>
    intro d g r h
    have aux : ∀ d', (balanced d' t).map (fun (x : List Char × List Char) => (c :: x.1, x.2)) = some (g, r) → c :: t = g ++ r := by
      intro d' h
      obtain ⟨⟨g', r'⟩, h1, h2⟩ := Option.map_eq_some_iff.1 h
      cases h2
      rw [ih d' g' r' h1]
      rfl
    rw [balanced] at h
    split at h
    · exact aux _ h
    split at h
    · split at h
      · cases h; rfl
      · exact aux _ h
    split at h
    · cases h
    · exact aux _ h

theorem lastParenCbrt_none (t : List Char) (h : ¬ Contains " ** (0.1e1 / 0.3e1)" t) : lastParenCbrt t = none := by
  induction t with
  | nil => rfl
  | cons c t ih =>
    rw [lastParenCbrt, ih fun hc => h (contains_suffix hc (List.suffix_cons c t))]
    simp only
    split
    · split
      · rename_i g r hb
        rw [if_neg]
        intro hm
        apply h
        rw [contains_iff]
        exact ⟨r, ⟨g, (balanced_append _ _ _ _ hb).symm⟩, hm⟩
      · rfl
    · rfl

theorem cbrtParen_none (t : List Char) (h : ¬ Contains " ** (0.1e1 / 0.3e1)" t) : cbrtParen t = t := by
  unfold cbrtParen
  rw [lastParenCbrt_none t h]

theorem lastExp_none (t : List Char) (h : ¬ Contains " ** (0.1e1 / 0.3e1)" t) : lastExp t = none := by
  induction t with
  | nil => rfl
  | cons c t ih =>
    rw [lastExp, ih fun hc => h (contains_suffix hc (List.suffix_cons c t))]
    simp only
    rw [if_neg]
    intro hm
    apply h
    rw [contains_iff]
    exact ⟨c :: t, List.suffix_rfl, hm⟩

theorem cbrtVar_none (t : List Char) (h : ¬ Contains " ** (0.1e1 / 0.3e1)" t) : cbrtVar t = t := by
  unfold cbrtVar
  rw [lastExp_none t h]

/-! ### Indices -/

theorem isDig_iff (c : Char) : isDig c = true ↔ DigitChar c := by simp [isDig, DigitChar]

theorem indexSub_none_aux (t : List Char) : (¬ HasIndex t → indexSub none t = t) ∧
    ∀ ds : List Char, (∀ c ∈ ds, DigitChar c) → ¬ HasIndex ('_' :: (ds.reverse ++ t)) → indexSub (some ds) t = '_' :: (ds.reverse ++ t) := by
  have up : ∀ (c : Char) (t : List Char), HasIndex t → HasIndex (c :: t) := by
    rintro c t ⟨a, ds, b, rfl, h1, h2⟩
    exact ⟨c :: a, ds, b, rfl, h1, h2⟩
  have upl : ∀ (l t : List Char), HasIndex t → HasIndex (l ++ t) := by
    rintro l t ⟨a, ds, b, rfl, h1, h2⟩
    exact ⟨l ++ a, ds, b, by simp, h1, h2⟩
  induction t with
  | nil =>
    refine ⟨fun _ => rfl, fun ds _ _ => ?_⟩
    rw [indexSub, List.append_nil]
  | cons c t ih =>
    refine ⟨fun h => ?_, fun ds hd h => ?_⟩
    · rw [indexSub]
      by_cases hc : c = '_'
      · subst hc
        rw [if_pos rfl, ih.2 [] (by simp) (by simpa using h)]
        rfl
      · rw [if_neg hc, ih.1 fun hi => h (up c t hi)]
    · rw [indexSub]
      by_cases hc : isDig c = true
      · rw [if_pos hc, ih.2 (c :: ds) (by
          intro x hx
          rcases List.mem_cons.1 hx with rfl | hx
          · exact (isDig_iff _).1 hc
          · exact hd x hx) (by simpa using h)]
        simp
      · rw [if_neg hc]
        by_cases hu : c = '_'
        · subst hu
          rw [if_pos rfl]
          have : ds = [] := by
            by_contra hne
            exact h ⟨[], ds.reverse, t, rfl, by simpa using hne, fun c hc => hd c (by simpa using hc)⟩
          subst this
          simp only [List.isEmpty_nil, if_true, List.reverse_nil, List.nil_append]
          rw [ih.2 [] (by simp) (by
            have := mt (up '_' _) h
            simpa using this)]
          rfl
        · rw [if_neg hu, ih.1 fun hi => h (up '_' _ (upl _ _ (up c t hi)))]

theorem indexSub_none (t : List Char) (h : ¬ HasIndex t) : indexSub none t = t := (indexSub_none_aux t).1 h

/-! ### The rules after the numerals -/

/-- The rules of `post_process` after those for numerals (gen_py.py:27-46). -/
def laterRules (l : List Char) : List Char :=
  let l := indexSub none l
  let l := subPat "0.31415926535897932385e1" "jnp.pi" l
  let l := subPat "math.erf" "jax.lax.erf" l
  let l := cbrtParen l
  let l := cbrtVar l
  let l := subPat "scipy.special.i0" "jax.scipy.special.i0" l
  let l := subPat "scipy.special.lambertw" "lambertw" l
  let l := subPat "math" "jnp" l
  let l := subPat "atan" "arctan" l
  let l := subPat "asinh" "arcsinh" l
  let l := subPat "abs" "jnp.abs" l
  let l := subPat "DBL_EPSILON" dblEpsilon l
  subPat "lambda" "lambda_" l

/-- The rules for numerals (gen_py.py:24,26). -/
def numbers (l : List Char) : List Char := dropE0 (.copy false) (dropZerosE 0 l)

theorem postProcessLine_eq (l : List Char) : postProcessLine l = laterRules (numbers (subPat "_a_" "." l)) := rfl

theorem laterRules_quiet (l : List Char) (h : Quiet l) : laterRules l = l := by
  have w : ∀ s ∈ triggers, ∀ rep, subPat s rep l = l := fun s hs rep => subPat_none s rep l (h.words s hs)
  unfold laterRules
  rw [indexSub_none l h.index]
  simp only
  rw [w _ (by simp [triggers]), w _ (by simp [triggers]), cbrtParen_none l (h.words _ (by simp [triggers])),
    cbrtVar_none l (h.words _ (by simp [triggers])), w _ (by simp [triggers]), w _ (by simp [triggers]), w _ (by simp [triggers]), w _ (by simp [triggers]),
    w _ (by simp [triggers]), w _ (by simp [triggers]), w _ (by simp [triggers]), w _ (by simp [triggers])]

/-! ### Numerals: nothing to do -/

theorem dropZerosE_none (t : List Char) : ∀ k, ¬ ['0', 'e'] <:+: List.replicate k '0' ++ t → dropZerosE k t = List.replicate k '0' ++ t := by
  induction t with
  | nil => intro k _; rw [dropZerosE, List.append_nil]
  | cons c t ih =>
    intro k h
    rw [dropZerosE]
    by_cases h0 : c = '0'
    · subst h0
      rw [if_pos rfl, ih (k + 1) (by rwa [List.replicate_succ', List.append_assoc]), List.replicate_succ', List.append_assoc]
      rfl
    rw [if_neg h0]
    have ht : ¬ ['0', 'e'] <:+: List.replicate 0 '0' ++ t := fun hi => h (hi.trans ⟨List.replicate k '0' ++ [c], [], by simp⟩)
    by_cases he : c = 'e'
    · subst he
      have : k = 0 := by
        cases k with
        | zero => rfl
        | succ k => exact absurd ⟨List.replicate k '0', t, by rw [List.replicate_succ']; simp⟩ h
      subst this
      rw [if_pos rfl, ih 0 ht]
      rfl
    · rw [if_neg he, ih 0 ht]
      rfl

theorem dropE0_none (t : List Char) : ∀ pre : List Char, (∀ c, DigitChar c ∨ c = '.' → ¬ [c, 'e', '0'] <:+: pre ++ t) →
    ∀ seen, (seen = true → ∃ c, (DigitChar c ∨ c = '.') ∧ pre.getLast? = some c) → dropE0 (.copy seen) t = t := by
  induction t with
  | nil => intro _ _ _ _; rfl
  | cons c t ih =>
    intro pre h seen hs
    rw [dropE0, if_neg]
    · rw [ih (pre ++ [c]) (by simpa using h)]
      intro hd
      refine ⟨c, ?_, by simp⟩
      rcases Bool.or_eq_true_iff.1 hd with hd | hd
      · exact Or.inl ((isDig_iff c).1 hd)
      · exact Or.inr (by simpa using hd)
    · intro hd
      simp only [Bool.and_eq_true, beq_iff_eq] at hd
      obtain ⟨⟨h1, rfl⟩, h3⟩ := hd
      obtain ⟨x, hx, hl⟩ := hs h1
      apply h x hx
      obtain ⟨t', rfl⟩ : ∃ t', t = '0' :: t' := by
        cases t with
        | nil => cases h3
        | cons y t => simp at h3; exact ⟨t, by rw [h3]⟩
      obtain ⟨pre', rfl⟩ : ∃ p, pre = p ++ [x] := by
        have hne : pre ≠ [] := by rintro rfl; cases hl
        refine ⟨pre.dropLast, ?_⟩
        rw [List.getLast?_eq_some_getLast hne] at hl
        cases hl
        exact (List.dropLast_append_getLast hne).symm
      exact ⟨pre', t', by simp⟩

theorem numbers_quiet (t : List Char) (h : NumQuiet t) : numbers t = t := by
  unfold numbers
  rw [dropZerosE_none t 0 (by simpa using h.zeroE)]
  exact dropE0_none t [] (by simpa using h.eZero) false (by simp)

/-- C33: a line without triggers is left as it is. -/
theorem c33_unchanged (l : List Char) (h1 : ¬ Contains "_a_" l) (h2 : NumQuiet l) (h3 : Quiet l) : postProcessLine l = l := by
  rw [postProcessLine_eq, subPat_none _ _ _ h1, numbers_quiet l h2, laterRules_quiet l h3]

/-! ### Names -/

theorem subPatGo_skip (p : Pat) (rep a r : List Char) : subPatGo p rep a.length (a ++ r) = subPatGo p rep 0 r := by
  induction a with
  | nil => rfl
  | cons c a ih => rw [List.length_cons, List.cons_append, subPatGo, ih]

theorem matchPat_a (t : List Char) : matchPat (pat "_a_") t = true ↔ ['_', 'a', '_'] <+: t := by
  unfold pat
  rw [matchPat_iff]
  constructor
  · rintro ⟨m, b, rfl, hf⟩
    have h : List.Forall₂ (fun p c => p = '.' ∨ p = c) ['_', 'a', '_'] m := hf
    clear hf
    rw [List.forall₂_cons_left_iff] at h
    obtain ⟨x, u, h1, h, rfl⟩ := h
    rw [List.forall₂_cons_left_iff] at h
    obtain ⟨y, v, h2, h, rfl⟩ := h
    rw [List.forall₂_cons_left_iff] at h
    obtain ⟨z, w, h3, h, rfl⟩ := h
    rw [List.forall₂_nil_left_iff] at h
    subst h
    simp only [Char.reduceEq, false_or] at h1 h2 h3
    subst h1 h2 h3
    exact List.prefix_append _ _
  · rintro ⟨b, rfl⟩
    exact ⟨_, b, rfl, .cons (Or.inr rfl) (.cons (Or.inr rfl) (.cons (Or.inr rfl) .nil))⟩

theorem subPat_a (u r : List Char) (h : ¬ ['_', 'a', '_'] <:+: u ++ ['_', 'a']) : subPat "_a_" "." (u ++ '_' :: 'a' :: '_' :: r) = u ++ '.' :: subPat "_a_" "." r := by
  induction u with
  | nil =>
    unfold subPat
    rw [List.nil_append, subPatGo, if_pos ((matchPat_a ('_' :: 'a' :: '_' :: r)).2 ⟨r, rfl⟩)]
    have := subPatGo_skip (pat "_a_") ".".toList ['a', '_'] r
    exact congrArg ('.' :: ·) this
  | cons c u ih =>
    unfold subPat at ih ⊢
    rw [List.cons_append, subPatGo, if_neg, ih fun hi => h (hi.trans (List.suffix_cons c _).isInfix)]
    · rfl
    · rw [matchPat_a]
      intro hp
      apply h
      have e : c :: (u ++ '_' :: 'a' :: '_' :: r) = (c :: u ++ ['_', 'a']) ++ '_' :: r := by simp
      rw [e] at hp
      exact (List.prefix_of_prefix_length_le hp (List.prefix_append _ _) (by simp)).isInfix

theorem not_contains_a (t : List Char) (h : ¬ ['_', 'a', '_'] <:+: t) : ¬ Contains "_a_" t := by
  rw [contains_iff]
  rintro ⟨v, hv, hm⟩
  rw [matchPat_a] at hm
  exact h (hm.isInfix.trans hv.isInfix)

/-- The text made of `parts` and `last`, with `sep` in between. -/
def joined (sep : List Char) : List (List Char) → List Char → List Char
  | [], last => last
  | p :: ps, last => p ++ (sep ++ joined sep ps last)

/-- C33: in a line whose only triggers are the `_a_` that Maple writes for member access, each of them becomes a dot, and nothing else changes. -/
theorem c33_names (parts : List (List Char)) (last : List Char) (hp : ∀ p ∈ parts, ¬ ['_', 'a', '_'] <:+: p ++ ['_', 'a']) (hl : ¬ ['_', 'a', '_'] <:+: last)
    (h2 : NumQuiet (joined ['.'] parts last)) (h3 : Quiet (joined ['.'] parts last)) :
    postProcessLine (joined ['_', 'a', '_'] parts last) = joined ['.'] parts last := by
  have : subPat "_a_" "." (joined ['_', 'a', '_'] parts last) = joined ['.'] parts last := by
    clear h2 h3
    induction parts with
    | nil => exact subPat_none _ _ _ (not_contains_a _ hl)
    | cons p ps ih =>
      rw [joined, joined]
      have := subPat_a p (joined ['_', 'a', '_'] ps last) (hp p List.mem_cons_self)
      rw [ih fun p hm => hp p (List.mem_cons_of_mem _ hm)] at this
      exact this
  rw [postProcessLine_eq, this, numbers_quiet _ h2, laterRules_quiet _ h3]

/-- The parameter `lambda_x` is corrupted: the hypothesis about triggers is needed. -/
theorem c33_lambda : postProcessLine "params_a_lambda_x".toList = "params.lambda__x".toList := by decide +kernel

/-! ### Indices -/

theorem indexSub_some_digits (ds : List Char) (hd : ∀ c ∈ ds, DigitChar c) (acc r : List Char) (hne : ds ≠ [] ∨ acc ≠ []) :
    indexSub (some acc) (ds ++ '_' :: r) = '[' :: (acc.reverse ++ (ds ++ ']' :: indexSub none r)) := by
  induction ds generalizing acc with
  | nil =>
    have ha : acc ≠ [] := by simpa using hne
    rw [List.nil_append, indexSub, if_neg (by decide), if_pos rfl, if_neg (by simpa using ha)]
    rfl
  | cons c ds ih =>
    rw [List.cons_append, indexSub, if_pos ((isDig_iff c).2 (hd c List.mem_cons_self)), ih (fun x hx => hd x (List.mem_cons_of_mem _ hx)) (c :: acc) (Or.inr (by simp))]
    simp

theorem indexSub_index (t : List Char) : ∀ ds r : List Char, ds ≠ [] → (∀ c ∈ ds, DigitChar c) →
    (¬ HasIndex (t ++ ['_']) → indexSub none (t ++ '_' :: (ds ++ '_' :: r)) = t ++ '[' :: (ds ++ ']' :: indexSub none r)) ∧
    ∀ acc : List Char, (∀ c ∈ acc, DigitChar c) → ¬ HasIndex ('_' :: (acc.reverse ++ (t ++ ['_']))) →
      indexSub (some acc) (t ++ '_' :: (ds ++ '_' :: r)) = '_' :: (acc.reverse ++ (t ++ '[' :: (ds ++ ']' :: indexSub none r))) := by
  have up : ∀ (c : Char) (t : List Char), HasIndex t → HasIndex (c :: t) := by
    rintro c t ⟨a, ds, b, rfl, h1, h2⟩
    exact ⟨c :: a, ds, b, rfl, h1, h2⟩
  have upl : ∀ (l t : List Char), HasIndex t → HasIndex (l ++ t) := by
    rintro l t ⟨a, ds, b, rfl, h1, h2⟩
    exact ⟨l ++ a, ds, b, by simp, h1, h2⟩
  induction t with
  | nil =>
    intro ds r hne hd
    have h0 : indexSub (some []) (ds ++ '_' :: r) = '[' :: (ds ++ ']' :: indexSub none r) := indexSub_some_digits ds hd [] r (Or.inl hne)
    refine ⟨fun _ => ?_, fun acc ha h => ?_⟩
    · rw [List.nil_append, indexSub, if_pos rfl, h0]; rfl
    · have : acc = [] := by
        by_contra hn
        exact h ⟨[], acc.reverse, [], by simp, by simpa using hn, fun c hc => ha c (by simpa using hc)⟩
      subst this
      rw [List.nil_append, indexSub, if_neg (by decide), if_pos rfl]
      simp only [List.isEmpty_nil, if_true]
      rw [h0]
      rfl
  | cons c t ih =>
    intro ds r hne hd
    refine ⟨fun h => ?_, fun acc ha h => ?_⟩
    · rw [List.cons_append, indexSub]
      by_cases hc : c = '_'
      · subst hc
        rw [if_pos rfl, (ih ds r hne hd).2 [] (by simp) (by simpa using h)]
        rfl
      · rw [if_neg hc, (ih ds r hne hd).1 fun hi => h (up c _ hi)]
        rfl
    · rw [List.cons_append, indexSub]
      by_cases hc : isDig c = true
      · rw [if_pos hc, (ih ds r hne hd).2 (c :: acc) (by
          intro x hx
          rcases List.mem_cons.1 hx with rfl | hx
          · exact (isDig_iff _).1 hc
          · exact ha x hx) (by simpa using h)]
        simp
      · rw [if_neg hc]
        by_cases hu : c = '_'
        · subst hu
          rw [if_pos rfl]
          have : acc = [] := by
            by_contra hn
            exact h ⟨[], acc.reverse, t ++ ['_'], by simp, by simpa using hn, fun c hc => ha c (by simpa using hc)⟩
          subst this
          simp only [List.isEmpty_nil, if_true, List.reverse_nil, List.nil_append]
          rw [(ih ds r hne hd).2 [] (by simp) (by
            have := mt (up '_' _) h
            simpa using this)]
          rfl
        · rw [if_neg hu, (ih ds r hne hd).1 fun hi => h (up '_' _ (upl _ _ (up c _ hi)))]
          simp

/-- The text made of the pieces `ix` (text and an index after it) and `last`, with `op` before and `cl` after each index. -/
def indexed (op cl : Char) : List (List Char × List Char) → List Char → List Char
  | [], last => last
  | (t, ds) :: ix, last => t ++ op :: (ds ++ cl :: indexed op cl ix last)

/-- C33: member access and indices.  In a line whose only triggers are `_a_` and `_digits_`, the former become dots and the latter `[digits]`. -/
theorem c33_index (parts : List (List Char)) (final : List Char) (ix : List (List Char × List Char)) (last : List Char)
    (hp : ∀ p ∈ parts, ¬ ['_', 'a', '_'] <:+: p ++ ['_', 'a']) (hl : ¬ ['_', 'a', '_'] <:+: final)
    (he : joined ['.'] parts final = indexed '_' '_' ix last) (hd : ∀ x ∈ ix, x.2 ≠ [] ∧ ∀ c ∈ x.2, DigitChar c)
    (hi : ∀ x ∈ ix, ¬ HasIndex (x.1 ++ ['_'])) (hlast : ¬ HasIndex last)
    (h2 : NumQuiet (indexed '_' '_' ix last)) (h3 : Quiet (indexed '[' ']' ix last)) :
    postProcessLine (joined ['_', 'a', '_'] parts final) = indexed '[' ']' ix last := by
  have h1 : subPat "_a_" "." (joined ['_', 'a', '_'] parts final) = joined ['.'] parts final := by
    clear he
    induction parts with
    | nil => exact subPat_none _ _ _ (not_contains_a _ hl)
    | cons p ps ih =>
      rw [joined, joined]
      have := subPat_a p (joined ['_', 'a', '_'] ps final) (hp p List.mem_cons_self)
      rw [ih fun p hm => hp p (List.mem_cons_of_mem _ hm)] at this
      exact this
  have hx : indexSub none (indexed '_' '_' ix last) = indexed '[' ']' ix last := by
    clear he h2 h3
    induction ix with
    | nil => exact indexSub_none last hlast
    | cons x ix ih =>
      rw [indexed, indexed, ((indexSub_index x.1 x.2 (indexed '_' '_' ix last) (hd x List.mem_cons_self).1 (hd x List.mem_cons_self).2).1 (hi x List.mem_cons_self)),
        ih (fun y hy => hd y (List.mem_cons_of_mem _ hy)) fun y hy => hi y (List.mem_cons_of_mem _ hy)]
  have hq : laterRules (indexed '_' '_' ix last) = laterRules (indexed '[' ']' ix last) := by
    unfold laterRules
    rw [hx, indexSub_none _ h3.index]
  rw [postProcessLine_eq, h1, he, numbers_quiet _ h2, hq, laterRules_quiet _ h3]

/-! ### Words -/

theorem fits_self (s : List Char) : Fits s s := List.forall₂_same.2 fun _ _ => Or.inr rfl

theorem subPat_word (s rep : String) (hs : s.toList ≠ []) (u r : List Char) (h : ¬ Contains s (u ++ s.toList.dropLast)) :
    subPat s rep (u ++ (s.toList ++ r)) = u ++ (rep.toList ++ subPat s rep r) := by
  have hm : ∀ v r : List Char, matchPat (pat s) (s.toList ++ r) = true := fun v r => (matchPat_iff _ _).2 ⟨s.toList, r, rfl, fits_self _⟩
  unfold subPat
  induction u with
  | nil =>
    rw [List.nil_append, List.nil_append]
    obtain ⟨c, cs, e⟩ := List.exists_cons_of_ne_nil hs
    have h1 := hm [] r
    have hlen : (pat s).length - 1 = cs.length := by unfold pat; rw [List.length_map, e]; rfl
    rw [e] at h1 ⊢
    rw [List.cons_append] at h1 ⊢
    rw [subPatGo, if_pos h1, hlen, subPatGo_skip]
  | cons c u ih =>
    rw [List.cons_append, subPatGo, if_neg, ih fun hc => h (contains_suffix hc (List.suffix_cons c _))]
    · rfl
    · intro hp
      obtain ⟨m, b, e, hf⟩ := (matchPat_iff _ _).1 hp
      apply h
      have hlen : m.length = s.toList.length := hf.length_eq.symm
      have e2 : c :: (u ++ (s.toList ++ r)) = (c :: u ++ s.toList.dropLast) ++ (s.toList.getLast hs :: r) := by
        conv_lhs => rw [← List.dropLast_append_getLast hs]
        simp
      have hpre : m <+: c :: u ++ s.toList.dropLast := by
        refine List.prefix_of_prefix_length_le (l₃ := c :: (u ++ (s.toList ++ r))) ⟨b, e.symm⟩ (e2 ▸ List.prefix_append _ _) ?_
        rw [hlen, List.length_append, List.length_dropLast, List.length_cons]
        have := List.length_pos_of_ne_nil hs
        omega
      obtain ⟨b', e'⟩ := hpre
      exact ⟨[], m, b', by rw [List.nil_append, e'], hf⟩

theorem subPat_joined (s rep : String) (hs : s.toList ≠ []) (parts : List (List Char)) (last : List Char) (hp : ∀ p ∈ parts, ¬ Contains s (p ++ s.toList.dropLast))
    (hl : ¬ Contains s last) : subPat s rep (joined s.toList parts last) = joined rep.toList parts last := by
  induction parts with
  | nil => exact subPat_none _ _ _ hl
  | cons p ps ih =>
    rw [joined, joined, subPat_word s rep hs p _ (hp p List.mem_cons_self), ih fun p hm => hp p (List.mem_cons_of_mem _ hm)]

/-- `Contains` by a search. -/
theorem contains_dec (s : String) (t : List Char) : Contains s t ↔ ∃ v ∈ t.tails, matchPat (pat s) v = true := by
  rw [contains_iff]
  simp [List.mem_tails]

/-- C33: words.  In a line whose only trigger is `word` (of the table `Spec.wordTable`), each occurrence becomes `rep`, and nothing else changes. -/
theorem c33_word (word rep : String) (hw : (word, rep) ∈ wordTable) (parts : List (List Char)) (last : List Char)
    (hp : ∀ p ∈ parts, ¬ Contains word (p ++ word.toList.dropLast)) (hl : ¬ Contains word last)
    (ha : ¬ Contains "_a_" (joined word.toList parts last)) (hn : NumQuiet (joined word.toList parts last)) (hi : ¬ HasIndex (joined word.toList parts last))
    (hin : ∀ t ∈ triggers.takeWhile (· ≠ word), ¬ Contains t (joined word.toList parts last))
    (hout : ∀ t ∈ (triggers.dropWhile (· ≠ word)).tail, ¬ Contains t (joined rep.toList parts last)) :
    postProcessLine (joined word.toList parts last) = joined rep.toList parts last := by
  rw [postProcessLine_eq, subPat_none _ _ _ ha, numbers_quiet _ hn]
  unfold laterRules
  rw [indexSub_none _ hi]
  simp only
  have i : ∀ t ∈ triggers.takeWhile (· ≠ word), ∀ r, subPat t r (joined word.toList parts last) = joined word.toList parts last := fun t ht r => subPat_none t r _ (hin t ht)
  have o : ∀ t ∈ (triggers.dropWhile (· ≠ word)).tail, ∀ r, subPat t r (joined rep.toList parts last) = joined rep.toList parts last :=
    fun t ht r => subPat_none t r _ (hout t ht)
  have cp : ∀ l, ¬ Contains " ** (0.1e1 / 0.3e1)" l → cbrtVar (cbrtParen l) = l := fun l h => by rw [cbrtParen_none l h, cbrtVar_none l h]
  simp only [wordTable, List.mem_cons, List.not_mem_nil, or_false, Prod.mk.injEq] at hw
  rcases hw with ⟨rfl, rfl⟩ | ⟨rfl, rfl⟩ | ⟨rfl, rfl⟩ | ⟨rfl, rfl⟩ | ⟨rfl, rfl⟩ | ⟨rfl, rfl⟩ | ⟨rfl, rfl⟩ | ⟨rfl, rfl⟩ | ⟨rfl, rfl⟩ | ⟨rfl, rfl⟩
  · rw [subPat_joined _ _ (by decide) parts last hp hl, o _ (by decide) _, cp _ (hout _ (by decide)), o _ (by decide) _, o _ (by decide) _, o _ (by decide) _, o _ (by decide) _, o _ (by decide) _, o _ (by decide) _, o _ (by decide) _, o _ (by decide) _]
  · rw [i _ (by decide) _, subPat_joined _ _ (by decide) parts last hp hl, cp _ (hout _ (by decide)), o _ (by decide) _, o _ (by decide) _, o _ (by decide) _, o _ (by decide) _, o _ (by decide) _, o _ (by decide) _, o _ (by decide) _, o _ (by decide) _]
  · rw [i _ (by decide) _, i _ (by decide) _, cp _ (hin _ (by decide)), subPat_joined _ _ (by decide) parts last hp hl, o _ (by decide) _, o _ (by decide) _, o _ (by decide) _, o _ (by decide) _, o _ (by decide) _, o _ (by decide) _, o _ (by decide) _]
  · rw [i _ (by decide) _, i _ (by decide) _, cp _ (hin _ (by decide)), i _ (by decide) _, subPat_joined _ _ (by decide) parts last hp hl, o _ (by decide) _, o _ (by decide) _, o _ (by decide) _, o _ (by decide) _, o _ (by decide) _, o _ (by decide) _]
  · rw [i _ (by decide) _, i _ (by decide) _, cp _ (hin _ (by decide)), i _ (by decide) _, i _ (by decide) _, subPat_joined _ _ (by decide) parts last hp hl, o _ (by decide) _, o _ (by decide) _, o _ (by decide) _, o _ (by decide) _, o _ (by decide) _]
  · rw [i _ (by decide) _, i _ (by decide) _, cp _ (hin _ (by decide)), i _ (by decide) _, i _ (by decide) _, i _ (by decide) _, subPat_joined _ _ (by decide) parts last hp hl, o _ (by decide) _, o _ (by decide) _, o _ (by decide) _, o _ (by decide) _]
  · rw [i _ (by decide) _, i _ (by decide) _, cp _ (hin _ (by decide)), i _ (by decide) _, i _ (by decide) _, i _ (by decide) _, i _ (by decide) _, subPat_joined _ _ (by decide) parts last hp hl, o _ (by decide) _, o _ (by decide) _, o _ (by decide) _]
  · rw [i _ (by decide) _, i _ (by decide) _, cp _ (hin _ (by decide)), i _ (by decide) _, i _ (by decide) _, i _ (by decide) _, i _ (by decide) _, i _ (by decide) _, subPat_joined _ _ (by decide) parts last hp hl, o _ (by decide) _, o _ (by decide) _]
  · rw [show dblEpsilon = "2.220446049250313e-16" from rfl, i _ (by decide) _, i _ (by decide) _, cp _ (hin _ (by decide)), i _ (by decide) _, i _ (by decide) _, i _ (by decide) _, i _ (by decide) _, i _ (by decide) _, i _ (by decide) _, subPat_joined _ _ (by decide) parts last hp hl, o _ (by decide) _]
  · rw [i _ (by decide) _, i _ (by decide) _, cp _ (hin _ (by decide)), i _ (by decide) _, i _ (by decide) _, i _ (by decide) _, i _ (by decide) _, i _ (by decide) _, i _ (by decide) _, i _ (by decide) _, subPat_joined _ _ (by decide) parts last hp hl]

/-- The number that replaces `DBL_EPSILON` is the double precision number nearest to it, `2⁻⁵²` (it is off by less than half of the distance between neighbours). -/
theorem c33_epsilon : ∃ n : Numeral, n.OK ∧ n.text = dblEpsilon.toList ∧ |n.val - 2 ^ (-52 : ℤ)| < 2 ^ (-106 : ℤ) := by
  refine ⟨⟨"2".toList, "220446049250313".toList, some (true, "16".toList)⟩, ⟨by decide, by decide, by decide, ?_⟩, by decide, ?_⟩
  · intro s es h
    cases h
    exact ⟨by decide, by decide⟩
  · have h1 : digitsNat ("2".toList ++ "220446049250313".toList) = 2220446049250313 := by decide
    have h2 : digitsNat "16".toList = 16 := by decide
    have h3 : "220446049250313".toList.length = 15 := by decide
    simp only [Numeral.val, Numeral.power]
    rw [h1, h2, h3, abs_lt]
    norm_num

example : postProcessLine "t1 = math.exp(-math.pi) + abs(DBL_EPSILON)".toList = "t1 = jnp.exp(-jnp.pi) + jnp.abs(2.220446049250313e-16)".toList := by decide +kernel

/-- A line that meets the hypotheses of `c33_index`. -/
example : postProcessLine "params_a_c_0_ * params_a_c_12_".toList = "params.c[0] * params.c[12]".toList :=
  c33_index ["params".toList, "c_0_ * params".toList] "c_12_".toList [("params.c".toList, ['0']), (" * params.c".toList, ['1', '2'])] []
    (by decide) (by decide) (by decide) (by decide) (by
      intro x hx
      simp only [List.mem_cons, List.not_mem_nil, or_false] at hx
      have two : ∀ t : List Char, t.count '_' = 0 → ¬ HasIndex (t ++ ['_']) := by
        rintro t h ⟨a, ds, b, e, -, -⟩
        have := congrArg (List.count '_') e
        simp [h] at this
        omega
      rcases hx with rfl | rfl
      · exact two _ (by decide)
      · exact two _ (by decide)) (by rintro ⟨a, ds, b, e, -, -⟩; simp at e) ⟨by decide, by
      intro c hc
      have : ¬ ['e', '0'] <:+: indexed '_' '_' [("params.c".toList, ['0']), (" * params.c".toList, ['1', '2'])] [] := by decide
      exact fun h => this ((List.suffix_cons c _).isInfix.trans h)⟩ ⟨by simp only [contains_dec]; decide, by
      rintro ⟨a, ds, b, e, -, -⟩
      have : '_' ∉ indexed '[' ']' [("params.c".toList, ['0']), (" * params.c".toList, ['1', '2'])] [] := by decide
      exact this (by rw [e]; simp)⟩

/-- A line that meets the hypotheses of `c33_word`. -/
example : postProcessLine "t1 = math.exp(x) + math.log(y)".toList = "t1 = jnp.exp(x) + jnp.log(y)".toList :=
  c33_word "math" "jnp" (by decide) ["t1 = ".toList, ".exp(x) + ".toList] ".log(y)".toList
    (by simp only [contains_dec]; decide) (by simp only [contains_dec]; decide) (by simp only [contains_dec]; decide) ⟨by decide, by
      intro c hc
      have : ¬ ['e', '0'] <:+: (joined "math".toList ["t1 = ".toList, ".exp(x) + ".toList] ".log(y)".toList) := by decide
      exact fun h => this ((List.suffix_cons c _).isInfix.trans h)⟩ (by
      rintro ⟨a, ds, b, e, -, -⟩
      have : '_' ∉ joined "math".toList ["t1 = ".toList, ".exp(x) + ".toList] ".log(y)".toList := by decide
      exact this (by rw [e]; simp))
    (by simp only [contains_dec]; decide) (by simp only [contains_dec]; decide)

end Verif.Props
