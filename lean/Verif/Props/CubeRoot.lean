import Verif.Props.Numerals
import Verif.Py.Sem
import Mathlib.Tactic.IntervalCases
/-!
# C34: cube roots
-/
namespace Verif.Props
open Verif.Text Verif.Spec

/-- The exponent, as Maple writes it. -/
def expText : List Char := " ** (0.1e1 / 0.3e1)".toList

/-! ### The only occurrence of the exponent -/

theorem matchPat_append (p : Pat) (u w : List Char) (h : matchPat p (u ++ w) = true) : matchPat (p.drop u.length) w = true := by
  induction u generalizing p with
  | nil => exact h
  | cons c u ih =>
    cases p with
    | nil => rfl
    | cons q p =>
      rw [List.length_cons, List.drop_succ_cons]
      apply ih
      rw [List.cons_append] at h
      cases q with
      | none => rwa [matchPat] at h
      | some q =>
        rw [matchPat, Bool.and_eq_true] at h
        exact h.2

theorem matchPat_prefix (p : Pat) (u w : List Char) (hl : p.length ≤ u.length) (h : matchPat p (u ++ w) = true) : matchPat p u = true := by
  induction u generalizing p with
  | nil =>
    cases p with
    | nil => rfl
    | cons q p => simp at hl
  | cons c u ih =>
    cases p with
    | nil => rfl
    | cons q p =>
      rw [List.cons_append] at h
      simp only [List.length_cons, Nat.add_le_add_iff_right] at hl
      cases q with
      | none => rw [matchPat] at h ⊢; exact ih p hl h
      | some q =>
        rw [matchPat, Bool.and_eq_true] at h ⊢
        exact ⟨h.1, ih p hl h.2⟩

/-- In a line with one exponent, it is the only match of the pattern. -/
theorem only_exp (pre post v : List Char) (h1 : ¬ Contains " ** (0.1e1 / 0.3e1)" pre) (h2 : ¬ Contains " ** (0.1e1 / 0.3e1)" post)
    (hv : v <:+ pre ++ (expText ++ post)) (hm : matchPat cbrtExp v = true) : v = expText ++ post := by
  obtain ⟨t, ht⟩ := hv
  have inside : ∀ k, 0 < k → k < 19 → matchPat cbrtExp (expText.drop k ++ post) = false := by
    intro k h0 hk
    interval_cases k <;> rfl
  have before : ∀ k, 0 < k → k < 19 → matchPat (cbrtExp.drop k) (expText ++ post) = false := by
    intro k h0 hk
    interval_cases k <;> rfl
  rcases List.append_eq_append_iff.1 ht with ⟨w, h3, h4⟩ | ⟨w, h3, h4⟩
  · -- the match starts in `pre`
    subst h4
    by_cases hw : w = []
    · rw [hw]; rfl
    exfalso
    by_cases hl : 19 ≤ w.length
    · apply h1
      rw [contains_iff]
      exact ⟨w, ⟨t, h3.symm⟩, matchPat_prefix _ _ _ (by exact hl) hm⟩
    · have h5 := matchPat_append _ _ _ hm
      rw [before _ (List.length_pos_iff.2 hw) (by omega)] at h5
      cases h5
  · -- the match starts in the exponent or later
    rcases List.append_eq_append_iff.1 h4 with ⟨x, h5, h6⟩ | ⟨x, h5, h6⟩
    · exfalso
      apply h2
      rw [contains_iff]
      exact ⟨v, ⟨x, h6.symm⟩, hm⟩
    · subst h6
      by_cases hw : w = []
      · rw [h5, hw]; rfl
      exfalso
      have hx : x = expText.drop w.length := by rw [h5, List.drop_left]
      by_cases hl : w.length < 19
      · have h7 := inside w.length (List.length_pos_iff.2 hw) hl
        rw [← hx, hm] at h7
        cases h7
      · have : x = [] := by rw [hx]; exact List.drop_eq_nil_of_le (by change 19 ≤ _; omega)
        subst this
        apply h2
        rw [contains_iff]
        exact ⟨post, List.suffix_rfl, hm⟩

theorem lastExp_only (pre post : List Char) (h1 : ¬ Contains " ** (0.1e1 / 0.3e1)" pre) (h2 : ¬ Contains " ** (0.1e1 / 0.3e1)" post) :
    lastExp (pre ++ (expText ++ post)) = some (pre, post) := by
  induction pre with
  | nil =>
    have e : expText = ' ' :: expText.tail := rfl
    have : lastExp (expText.tail ++ post) = none := by
      have key : ∀ u, u <:+ expText.tail ++ post → matchPat cbrtExp u = false := by
        intro u hu
        cases hm : matchPat cbrtExp u with
        | false => rfl
        | true =>
          have h3 := only_exp [] post u (fun hc => h1 hc) h2 (hu.trans (by rw [List.nil_append, e, List.cons_append]; exact List.suffix_cons _ _)) hm
          have := hu.length_le
          rw [h3, List.length_append, List.length_append] at this
          have e1 : expText.length = 19 := rfl
          have e2 : expText.tail.length = 18 := rfl
          omega
      generalize expText.tail ++ post = y at key ⊢
      induction y with
      | nil => rfl
      | cons c y ih => rw [lastExp, ih fun u hu => key u (hu.trans (List.suffix_cons _ _)), key _ List.suffix_rfl]; rfl
    rw [List.nil_append]
    have e3 : expText ++ post = ' ' :: (expText.tail ++ post) := rfl
    rw [e3, lastExp, this]
    rfl
  | cons c pre ih =>
    rw [List.cons_append, lastExp, ih fun hc => h1 (contains_suffix hc (List.suffix_cons _ _))]

/-! ### Parentheses -/

/-- The number of opening minus the number of closing parentheses. -/
def depth (l : List Char) : ℤ := l.count '(' - l.count ')'

theorem depth_append (a b : List Char) : depth (a ++ b) = depth a + depth b := by
  unfold depth
  rw [List.count_append, List.count_append]
  push_cast
  ring

theorem depth_other (c : Char) (t : List Char) (h1 : c ≠ '(') (h2 : c ≠ ')') : depth (c :: t) = depth t := by
  unfold depth
  rw [List.count_cons_of_ne h1, List.count_cons_of_ne h2]

theorem depth_open (t : List Char) : depth ('(' :: t) = 1 + depth t := by
  unfold depth
  rw [List.count_cons_self, List.count_cons_of_ne (by decide)]
  push_cast
  ring

theorem depth_close (t : List Char) : depth (')' :: t) = -1 + depth t := by
  unfold depth
  rw [List.count_cons_self, List.count_cons_of_ne (by decide)]
  push_cast
  ring

theorem balanced_depth (t : List Char) : ∀ d g r, balanced (d + 1) t = some (g, r) → depth g = -(d + 1 : ℤ) := by
  induction t with
  | nil => intro d g r h; cases h
  | cons c t ih =>
    intro d g r h
    rw [balanced] at h
    by_cases ho : c = '('
    · subst ho
      rw [if_pos rfl] at h
      obtain ⟨⟨g', r'⟩, h1, h2⟩ := Option.map_eq_some_iff.1 h
      cases h2
      rw [depth_open, ih (d + 1) g' _ h1]
      push_cast
      ring
    rw [if_neg ho] at h
    by_cases hc : c = ')'
    · subst hc
      rw [if_pos rfl] at h
      by_cases hd : d = 0
      · subst hd
        rw [if_pos rfl] at h
        cases h
        rfl
      · rw [if_neg (by omega)] at h
        obtain ⟨⟨g', r'⟩, h1, h2⟩ := Option.map_eq_some_iff.1 h
        cases h2
        obtain ⟨e, rfl⟩ := Nat.exists_eq_succ_of_ne_zero hd
        rw [depth_close, ih e g' _ h1]
        push_cast
        ring
    · rw [if_neg hc, if_neg (by omega)] at h
      obtain ⟨⟨g', r'⟩, h1, h2⟩ := Option.map_eq_some_iff.1 h
      cases h2
      rw [depth_other _ _ ho hc, ih d g' _ h1]

theorem balanced_last (t : List Char) : ∀ d g r, balanced d t = some (g, r) → g.getLast? = some ')' := by
  induction t with
  | nil => intro d g r h; cases h
  | cons c t ih =>
    intro d g r h
    have aux : ∀ d', (balanced d' t).map (fun (x : List Char × List Char) => (c :: x.1, x.2)) = some (g, r) → g.getLast? = some ')' := by
      intro d' h
      obtain ⟨⟨g', r'⟩, h1, h2⟩ := Option.map_eq_some_iff.1 h
      cases h2
      have := ih d' g' _ h1
      cases g' with
      | nil => cases this
      | cons x g' => rw [List.getLast?_cons_cons]; exact this
    rw [balanced] at h
    split at h
    · exact aux _ h
    split at h
    · rename_i hc
      split at h
      · cases h; rw [hc]; rfl
      · exact aux _ h
    split at h
    · cases h
    · exact aux _ h

theorem bal_depth {t : List Char} (h : Bal t) : depth t = 0 ∧ ∀ p x, t = p ++ x → 0 ≤ depth p := by
  induction h with
  | nil =>
    refine ⟨rfl, fun p x h => ?_⟩
    rw [(List.append_eq_nil_iff.1 h.symm).1]
    rfl
  | char c t h1 h2 _ ih =>
    refine ⟨by rw [depth_other _ _ h1 h2, ih.1], fun p x h => ?_⟩
    cases p with
    | nil => rfl
    | cons d p =>
      cases h
      rw [depth_other _ _ h1 h2]
      exact ih.2 p x rfl
  | group t u _ _ ih ih' =>
    refine ⟨by rw [depth_open, depth_append, depth_close, ih.1, ih'.1]; rfl, fun p x h => ?_⟩
    cases p with
    | nil => rfl
    | cons d p =>
      rw [List.cons_append] at h
      injection h with hd h
      subst hd
      rw [depth_open]
      rcases List.append_eq_append_iff.1 h with ⟨w, h3, h4⟩ | ⟨w, h3, h4⟩
      · rw [h3, depth_append, ih.1]
        cases w with
        | nil => simp [depth]
        | cons e w =>
          rw [List.cons_append] at h4
          injection h4 with he h4
          subst he
          rw [depth_close]
          have := ih'.2 w x h4
          omega
      · have := ih.2 p w h3
        omega

theorem bal_balanced {t : List Char} (h : Bal t) : ∀ d r, balanced (d + 1) (t ++ r) = (balanced (d + 1) r).map fun x => (t ++ x.1, x.2) := by
  induction h with
  | nil => intro d r; simp
  | char c t h1 h2 _ ih =>
    intro d r
    rw [List.cons_append, balanced, if_neg h1, if_neg h2, if_neg (by omega), ih]
    cases balanced (d + 1) r <;> rfl
  | group t u _ _ ih ih' =>
    intro d r
    rw [List.cons_append, balanced, if_pos rfl, List.append_assoc, ih (d + 1), List.cons_append, balanced, if_neg (by decide), if_pos rfl, if_neg (by omega)]
    have e : d + 1 + 1 - 1 = d + 1 := rfl
    rw [e, ih' d]
    cases balanced (d + 1) r <;> simp

/-! ### The two rules -/

/-- A line with one exponent, after a balanced group: the rule for groups turns it into a cube root. -/
theorem cbrtParen_group (a inner b : List Char) (hi : Bal inner) (h1 : ¬ Contains " ** (0.1e1 / 0.3e1)" (a ++ '(' :: (inner ++ [')'])))
    (h2 : ¬ Contains " ** (0.1e1 / 0.3e1)" b) :
    cbrtParen (a ++ '(' :: (inner ++ ')' :: (expText ++ b))) = a ++ ("jnp.cbrt".toList ++ '(' :: (inner ++ ')' :: b)) := by
  have here : balanced 0 ('(' :: (inner ++ ')' :: (expText ++ b))) = some ('(' :: (inner ++ [')']), expText ++ b) := by
    rw [balanced, if_pos rfl, bal_balanced hi, balanced, if_neg (by decide), if_pos rfl, if_pos rfl]
    rfl
  have whole : ∀ y : List Char, y ++ '(' :: (inner ++ ')' :: (expText ++ b)) = y ++ '(' :: (inner ++ [')']) ++ (expText ++ b) := by
    intro y; simp
  -- no later group is followed by the exponent
  have later : ∀ u, u <:+ inner ++ ')' :: (expText ++ b) → lastParenCbrt u = none := by
    intro u
    induction u with
    | nil => intro _; rfl
    | cons c u ih =>
      intro hu
      rw [lastParenCbrt, ih ((List.suffix_cons _ _).trans hu)]
      simp only
      by_cases hc : c = '('
      · subst hc
        rw [if_pos rfl]
        cases hb : balanced 0 ('(' :: u) with
        | none => rfl
        | some x =>
          obtain ⟨g, r⟩ := x
          simp only
          rw [if_neg]
          intro hm
          have e := balanced_append _ _ _ _ hb
          obtain ⟨t, ht⟩ := hu
          have hr : r = expText ++ b := by
            refine only_exp (a ++ '(' :: (inner ++ [')'])) b r h1 h2 ⟨a ++ ('(' :: t) ++ g, ?_⟩ hm
            rw [List.append_assoc, ← e, List.append_assoc, List.cons_append, ht]
            simp
          subst hr
          have e6 : inner ++ ')' :: (expText ++ b) = (inner ++ [')']) ++ (expText ++ b) := by simp
          rw [e, ← List.append_assoc, e6] at ht
          have hg := List.append_cancel_right ht
          -- the depth of `g` is 0, but it is what remains of a group after its opening parenthesis
          rw [balanced, if_pos rfl] at hb
          obtain ⟨⟨g', r'⟩, h3, h4⟩ := Option.map_eq_some_iff.1 hb
          cases h4
          have hd : depth ('(' :: g') = 0 := by rw [depth_open, balanced_depth _ 0 _ _ h3]; rfl
          have hd2 := congrArg depth hg
          rw [depth_append, hd, depth_append, (bal_depth hi).1] at hd2
          have e5 : depth [')'] = -1 := rfl
          rw [e5] at hd2
          have hl : ('(' :: g').getLast? = some ')' := balanced_last _ _ _ _ (by rw [balanced, if_pos rfl, h3]; rfl : balanced 0 ('(' :: u) = some ('(' :: g', expText ++ b))
          rcases List.append_eq_append_iff.1 hg with ⟨w, h5, h6⟩ | ⟨w, h5, h6⟩
          · have := (bal_depth hi).2 t w h5
            omega
          · have h7 := congrArg List.length h6
            simp only [List.length_append, List.length_cons, List.length_nil] at h7
            have hw : w = [] := List.length_eq_zero_iff.1 (by omega)
            rw [hw, List.nil_append] at h6
            cases h6
      · rw [if_neg hc]
  have main : ∀ y, y <:+ a → lastParenCbrt (y ++ '(' :: (inner ++ ')' :: (expText ++ b))) = some (y, '(' :: (inner ++ [')']), b) := by
    intro y
    induction y with
    | nil =>
      intro _
      rw [List.nil_append, lastParenCbrt, later _ List.suffix_rfl]
      rw [here]
      simp only [if_true]
      have : matchPat cbrtExp (expText ++ b) = true := rfl
      rw [if_pos this]
      rfl
    | cons c y ih =>
      intro hy
      rw [List.cons_append, lastParenCbrt, ih ((List.suffix_cons _ _).trans hy)]
  unfold cbrtParen
  rw [main a List.suffix_rfl]
  simp

/-- If the exponent does not follow a parenthesis, the rule for groups does nothing. -/
theorem cbrtParen_var (pre b : List Char) (h1 : ¬ Contains " ** (0.1e1 / 0.3e1)" pre) (h2 : ¬ Contains " ** (0.1e1 / 0.3e1)" b)
    (hl : pre.getLast? ≠ some ')') : cbrtParen (pre ++ (expText ++ b)) = pre ++ (expText ++ b) := by
  have none_ : ∀ u, u <:+ pre ++ (expText ++ b) → lastParenCbrt u = none := by
    intro u
    induction u with
    | nil => intro _; rfl
    | cons c u ih =>
      intro hu
      rw [lastParenCbrt, ih ((List.suffix_cons _ _).trans hu)]
      simp only
      by_cases hc : c = '('
      · subst hc
        rw [if_pos rfl]
        cases hb : balanced 0 ('(' :: u) with
        | none => rfl
        | some x =>
          obtain ⟨g, r⟩ := x
          simp only
          rw [if_neg]
          intro hm
          have e := balanced_append _ _ _ _ hb
          have hr : r = expText ++ b := only_exp pre b r h1 h2 (List.IsSuffix.trans ⟨g, e.symm⟩ hu) hm
          subst hr
          obtain ⟨t, ht⟩ := hu
          rw [e, ← List.append_assoc] at ht
          have hg := List.append_cancel_right ht
          have := balanced_last _ _ _ _ hb
          apply hl
          rw [← hg, List.getLast?_append, this]
          rfl
      · rw [if_neg hc]
  unfold cbrtParen
  rw [none_ _ List.suffix_rfl]

theorem lastSpace_eq (a v : List Char) (h : ' ' ∉ v) : lastSpace (a ++ ' ' :: v) = some (a, v) := by
  have hv : ∀ v : List Char, ' ' ∉ v → lastSpace v = none := by
    intro v
    induction v with
    | nil => intro _; rfl
    | cons c v ih =>
      intro h
      rw [List.mem_cons, not_or] at h
      rw [lastSpace, ih h.2]
      simp only
      rw [if_neg fun e => h.1 e.symm]
  induction a with
  | nil => rw [List.nil_append, lastSpace, hv v h]; rfl
  | cons c a ih => rw [List.cons_append, lastSpace, ih]

theorem cbrtVar_var (a v b : List Char) (hv : ' ' ∉ v) (h1 : ¬ Contains " ** (0.1e1 / 0.3e1)" (a ++ ' ' :: v)) (h2 : ¬ Contains " ** (0.1e1 / 0.3e1)" b) :
    cbrtVar (a ++ ' ' :: (v ++ (expText ++ b))) = a ++ (" jnp.cbrt(".toList ++ (v ++ ')' :: b)) := by
  have e : a ++ ' ' :: (v ++ (expText ++ b)) = (a ++ ' ' :: v) ++ (expText ++ b) := by simp
  unfold cbrtVar
  rw [e, lastExp_only _ _ h1 h2]
  simp only
  rw [lastSpace_eq a v hv]
  simp

/-! ### Whole lines -/

/-- The triggers that act before the rules for cube roots. -/
def earlyTriggers : List String := ["0.31415926535897932385e1", "math.erf"]

/-- Nothing to do before the rules for cube roots. -/
structure Before (l : List Char) : Prop where
  member : ¬ Contains "_a_" l
  numbers : NumQuiet l
  index : ¬ HasIndex l
  words : ∀ s ∈ earlyTriggers, ¬ Contains s l

/-- The triggers that act after the rules for cube roots. -/
def lateTriggers : List String := ["scipy.special.i0", "scipy.special.lambertw", "math", "atan", "asinh", "abs", "DBL_EPSILON", "lambda"]

theorem line_cbrt (l r : List Char) (h : Before l) (hr : cbrtVar (cbrtParen l) = r) (hq : ∀ s ∈ lateTriggers, ¬ Contains s r) : postProcessLine l = r := by
  have w : ∀ s ∈ earlyTriggers, ∀ rep, subPat s rep l = l := fun s hs rep => subPat_none s rep l (h.words s hs)
  have w2 : ∀ s ∈ lateTriggers, ∀ rep, subPat s rep r = r := fun s hs rep => subPat_none s rep r (hq s hs)
  rw [postProcessLine_eq, subPat_none _ _ _ h.member, numbers_quiet l h.numbers]
  unfold laterRules
  rw [indexSub_none l h.index]
  simp only
  rw [w _ (by simp [earlyTriggers]), w _ (by simp [earlyTriggers]), hr, w2 _ (by simp [lateTriggers]), w2 _ (by simp [lateTriggers]), w2 _ (by simp [lateTriggers]),
    w2 _ (by simp [lateTriggers]), w2 _ (by simp [lateTriggers]), w2 _ (by simp [lateTriggers]), w2 _ (by simp [lateTriggers]), w2 _ (by simp [lateTriggers])]

/-- C34: the cube root of a name. The line contains one exponent, after a name `v` that follows a space. -/
theorem c34_var (a v b : List Char) (hv : ∀ c ∈ v, c ≠ ' ' ∧ c ≠ '(' ∧ c ≠ ')') (hv2 : v ≠ []) (h1 : ¬ Contains " ** (0.1e1 / 0.3e1)" (a ++ ' ' :: v))
    (h2 : ¬ Contains " ** (0.1e1 / 0.3e1)" b) (hb : Before (a ++ ' ' :: (v ++ (" ** (0.1e1 / 0.3e1)".toList ++ b))))
    (hq : ∀ s ∈ lateTriggers, ¬ Contains s (a ++ (" jnp.cbrt(".toList ++ (v ++ ')' :: b)))) :
    postProcessLine (a ++ ' ' :: (v ++ (" ** (0.1e1 / 0.3e1)".toList ++ b))) = a ++ (" jnp.cbrt(".toList ++ (v ++ ')' :: b)) := by
  refine line_cbrt _ _ hb ?_ hq
  change cbrtVar (cbrtParen (a ++ ' ' :: (v ++ (expText ++ b)))) = _
  have e : a ++ ' ' :: (v ++ (expText ++ b)) = (a ++ ' ' :: v) ++ (expText ++ b) := by rw [List.append_assoc, List.cons_append]
  rw [e, cbrtParen_var _ _ h1 h2, ← e]
  · exact cbrtVar_var a v b (fun h => (hv _ h).1 rfl) h1 h2
  · intro hl
    have : v.getLast? = some ')' := by
      rw [List.getLast?_append, List.getLast?_cons, List.getLast?_eq_some_getLast hv2] at hl
      rw [List.getLast?_eq_some_getLast hv2]
      simpa using hl
    exact (hv ')' (List.mem_of_getLast? this)).2.2 rfl

/-- C34: the cube root of a parenthesised expression. The line contains one exponent, after a group with balanced parentheses inside. -/
theorem c34_group (a inner b : List Char) (hi : Bal inner) (h1 : ¬ Contains " ** (0.1e1 / 0.3e1)" (a ++ '(' :: (inner ++ [')'])))
    (h2 : ¬ Contains " ** (0.1e1 / 0.3e1)" b) (hb : Before (a ++ '(' :: (inner ++ ')' :: (" ** (0.1e1 / 0.3e1)".toList ++ b))))
    (h3 : ¬ Contains " ** (0.1e1 / 0.3e1)" (a ++ ("jnp.cbrt".toList ++ '(' :: (inner ++ ')' :: b))))
    (hq : ∀ s ∈ lateTriggers, ¬ Contains s (a ++ ("jnp.cbrt".toList ++ '(' :: (inner ++ ')' :: b)))) :
    postProcessLine (a ++ '(' :: (inner ++ ')' :: (" ** (0.1e1 / 0.3e1)".toList ++ b))) = a ++ ("jnp.cbrt".toList ++ '(' :: (inner ++ ')' :: b)) := by
  refine line_cbrt _ _ hb ?_ hq
  have := cbrtParen_group a inner b hi h1 h2
  unfold expText at this
  rw [this, cbrtVar_none _ h3]

/-- The value: on non-negative numbers `jnp.cbrt` is the power with the exponent that Maple wrote. -/
theorem c34_value (x : ℝ) (hx : 0 ≤ x) :
    Py.cbrtR x = x ^ ((Numeral.val ⟨['0'], ['1'], some (false, ['1'])⟩ / Numeral.val ⟨['0'], ['3'], some (false, ['1'])⟩ : ℚ) : ℝ) := by
  have e1 : Numeral.val ⟨['0'], ['1'], some (false, ['1'])⟩ = 1 := by
    have d1 : digitsNat (['0'] ++ ['1']) = 1 := by decide
    have d2 : digitsNat ['1'] = 1 := by decide
    simp only [Numeral.val, Numeral.power, d1, d2]
    norm_num
  have e2 : Numeral.val ⟨['0'], ['3'], some (false, ['1'])⟩ = 3 := by
    have d1 : digitsNat (['0'] ++ ['3']) = 3 := by decide
    have d2 : digitsNat ['1'] = 1 := by decide
    simp only [Numeral.val, Numeral.power, d1, d2]
    norm_num
  rw [e1, e2, Py.cbrtR, if_pos hx]
  norm_num

/-- With two parenthesised cube roots on a line, the rule for groups rewrites the last one only, and the rule for names then takes the last word
of the first group: the meaning changes. -/
theorem c34_wrong : postProcessLine "t = (a + b) ** (0.1e1 / 0.3e1) + (c + d) ** (0.1e1 / 0.3e1)".toList =
    "t = (a + jnp.cbrt(b)) + jnp.cbrt(c + d)".toList := by decide +kernel

/-- With two names, the first exponent stays: harmless. -/
theorem c34_two_names : postProcessLine "t = a ** (0.1e1 / 0.3e1) + b ** (0.1e1 / 0.3e1)".toList =
    "t = a ** (0.1e1 / 0.3e1) + jnp.cbrt(b)".toList := by decide +kernel

/-- The power of a call is not recognised: the text is no longer a call of `exp` (here it is no longer Python with a known name). -/
theorem c34_call_wrong : postProcessLine "t = math.exp(x) ** (0.1e1 / 0.3e1)".toList = "t = jnp.expjnp.cbrt(x)".toList := by decide +kernel

/-- A power as an argument: the call ends up inside the cube root (the hypothesis on `v` in `c34_var` is needed). -/
theorem c34_argument_wrong : postProcessLine "t = math.exp(x ** (0.1e1 / 0.3e1))".toList = "t = jnp.cbrt(jnp.exp(x))".toList := by decide +kernel

/-! ### Instances -/

theorem before_of (l : List Char) (h1 : (l.tails.all fun v => !matchPat (pat "_a_") v) = true) (h2 : numQuietB l = true)
    (h3 : (l.tails.all fun v => !indexAt v) = true) (h4 : (earlyTriggers.all fun s => l.tails.all fun v => !matchPat (pat s) v) = true) : Before l where
  member := containsB _ _ h1
  numbers := numQuietB_sound _ h2
  index := by
    rintro ⟨a, ds, b, rfl, hne, hd⟩
    have := List.all_eq_true.1 h3 ('_' :: (ds ++ '_' :: b)) ((List.mem_tails _ _).2 (List.suffix_append _ _))
    have hd' : ∀ c ∈ ds, isDig c = true := fun c hc => (isDig_iff c).2 (hd c hc)
    rw [indexAt, List.takeWhile_append_of_pos hd', List.takeWhile_cons_of_neg (by decide), List.append_nil, List.dropWhile_append_of_pos hd',
      List.dropWhile_cons_of_neg (by decide)] at this
    cases ds with
    | nil => exact hne rfl
    | cons c ds => simp at this
  words := fun s hs => containsB _ _ (List.all_eq_true.1 h4 s hs)

theorem late_of (l : List Char) (h : (lateTriggers.all fun s => l.tails.all fun v => !matchPat (pat s) v) = true) : ∀ s ∈ lateTriggers, ¬ Contains s l :=
  fun s hs => containsB _ _ (List.all_eq_true.1 h s hs)

example : postProcessLine "t2 = t1 * r0 ** (0.1e1 / 0.3e1) + 1".toList = "t2 = t1 * jnp.cbrt(r0) + 1".toList :=
  c34_var "t2 = t1 *".toList "r0".toList " + 1".toList (by decide) (by decide) (containsB _ _ (by decide +kernel)) (containsB _ _ (by decide +kernel))
    (before_of _ (by decide +kernel) (by decide +kernel) (by decide +kernel) (by decide +kernel))
    (late_of _ (by decide +kernel))

theorem demoBal : Bal "r0 + (r1 * t)".toList := by
  refine .char _ _ (by decide) (by decide) (.char _ _ (by decide) (by decide) (.char _ _ (by decide) (by decide) (.char _ _ (by decide) (by decide) (.char _ _ (by decide) (by decide) ?_))))
  refine .group "r1 * t".toList [] ?_ .nil
  exact .char _ _ (by decide) (by decide) (.char _ _ (by decide) (by decide) (.char _ _ (by decide) (by decide) (.char _ _ (by decide) (by decide)
    (.char _ _ (by decide) (by decide) (.char _ _ (by decide) (by decide) .nil)))))

example : postProcessLine "t2 = (r0 + (r1 * t)) ** (0.1e1 / 0.3e1)".toList = "t2 = jnp.cbrt(r0 + (r1 * t))".toList :=
  c34_group "t2 = ".toList "r0 + (r1 * t)".toList [] demoBal (containsB _ _ (by decide +kernel)) (containsB _ _ (by decide +kernel))
    (before_of _ (by decide +kernel) (by decide +kernel) (by decide +kernel) (by decide +kernel)) (containsB _ _ (by decide +kernel))
    (late_of _ (by decide +kernel))

end Verif.Props
