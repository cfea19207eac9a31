import Verif.Model.Gen
import Verif.Model.Record
import Verif.Props.Wrap
/-!
# C16, C18, C28, C31: names of external parameters, deorbitalized records, comments that are never closed
-/
namespace Verif.Props
open Verif.Py Verif.Model Verif.Spec Verif.Text

/-! ## Names of external parameters (`gen_repo/gen_py.py:21-29`) -/

theorem match_lambda (t : List Char) : matchPat (pat "lambda") t = true ↔ "lambda".toList <+: t := by
  have e : pat "lambda" = ("lambda".toList).map some := by decide
  rw [e]
  generalize "lambda".toList = p
  induction p generalizing t with
  | nil => simp [matchPat]
  | cons a p ih =>
    cases t with
    | nil => simp [matchPat]
    | cons c t => simp [matchPat, ih, List.cons_prefix_cons]

theorem sub_lambda_none (t : List Char) (h : ¬ "lambda".toList <:+: t) : subPat "lambda" "lambda_" t = t := by
  unfold subPat
  induction t with
  | nil => rfl
  | cons c t ih =>
    rw [subPatGo, if_neg (fun e => h ((match_lambda _).1 e).isInfix), ih fun hi => h (hi.trans (List.suffix_cons c t).isInfix)]

theorem sub_lambda_some (t : List Char) (h : "lambda".toList <:+: t) : '_' ∈ subPat "lambda" "lambda_" t := by
  unfold subPat
  induction t with
  | nil => exact absurd (List.infix_nil.1 h) (by decide)
  | cons c t ih =>
    rw [subPatGo]
    split
    · exact List.mem_append_left _ (by decide)
    · rename_i hm
      rcases List.infix_cons_iff.1 h with hp | hi
      · exact absurd ((match_lambda _).2 hp) hm
      · exact List.mem_cons_of_mem _ (ih hi)

/-- No external parameter ends up with the name `lambda`, which Python would reject as the name of an argument. -/
theorem c16_not_lambda (name : String) : sanitise name ≠ "lambda" := by
  intro e
  have e' : subPat "lambda" "lambda_" (bracketSub none name.toList) = "lambda".toList := by
    have := congrArg String.toList e
    rwa [sanitise, String.toList_ofList] at this
  by_cases h : "lambda".toList <:+: bracketSub none name.toList
  · have := sub_lambda_some _ h
    rw [e'] at this
    exact absurd this (by decide)
  · rw [sub_lambda_none _ h] at e'
    exact h (e' ▸ List.infix_rfl)

theorem bracketSub_word (w r : List Char) (h : '[' ∉ w) : bracketSub none (w ++ r) = w ++ bracketSub none r := by
  induction w with
  | nil => rfl
  | cons c w ih =>
    simp only [List.mem_cons, not_or] at h
    rw [List.cons_append, bracketSub, if_neg (fun e => h.1 e.symm), ih h.2, List.cons_append]

theorem bracketSub_digits (ds acc r : List Char) (h : ∀ d ∈ ds, isDig d = true) : bracketSub (some acc) (ds ++ r) = bracketSub (some (ds.reverse ++ acc)) r := by
  induction ds generalizing acc with
  | nil => rfl
  | cons d ds ih =>
    rw [List.cons_append, bracketSub, if_pos (h d (by simp)), ih _ fun x hx => h x (by simp [hx])]
    simp

/-- A name without brackets and without `lambda` is kept. -/
theorem c16_plain (name : String) (hb : '[' ∉ name.toList) (hl : ¬ "lambda".toList <:+: name.toList) : sanitise name = name := by
  have : bracketSub none name.toList = name.toList := by simpa [bracketSub] using bracketSub_word name.toList [] hb
  rw [sanitise, this, sub_lambda_none _ hl, String.ofList_toList]

/-- An indexed name `w[ds]` becomes `w_ds_`. -/
theorem c16_indexed (w ds : List Char) (hw : '[' ∉ w) (h0 : ds ≠ []) (hd : ∀ d ∈ ds, isDig d = true)
    (hl : ¬ "lambda".toList <:+: w ++ '_' :: (ds ++ ['_'])) : sanitise (String.ofList (w ++ '[' :: (ds ++ [']']))) = String.ofList (w ++ '_' :: (ds ++ ['_'])) := by
  have : bracketSub none (w ++ '[' :: (ds ++ [']'])) = w ++ '_' :: (ds ++ ['_']) := by
    rw [bracketSub_word _ _ hw, bracketSub, if_pos rfl, bracketSub_digits _ _ _ hd, bracketSub, if_neg (by decide), if_pos ⟨rfl, by simpa using h0⟩]
    simp [bracketSub]
  rw [sanitise, String.toList_ofList, this, sub_lambda_none _ hl]

/-- Every `lambda` gets an underscore. -/
theorem c16_lambda : sanitise "lambda" = "lambda_" ∧ sanitise "_lambda" = "_lambda_" ∧ sanitise "lambda[0]" = "lambda__0_" := by decide +kernel

example : sanitise "_omega" = "_omega" := c16_plain _ (by decide) (by decide)
example : sanitise "c[12]" = "c_12_" := c16_indexed ['c'] ['1', '2'] (by decide) (by decide) (by decide) (by decide)

/-! ## Deorbitalized records (`gen_repo/gen_py.py:43-54`) -/

/-- The generator accepts a deorbitalized record exactly if it has two components and both are meta-GGAs. -/
theorem c18_generator (p : PTree) : checkDeorbitalize p = .ok () ↔ ∃ a b, p.aux = [a, b] ∧ a.info.type = "mgga" ∧ b.info.type = "mgga" := by
  unfold checkDeorbitalize
  match h : p.aux with
  | [] => simp
  | [a] => simp
  | [a, b] =>
    simp only [List.cons_ne_nil, if_false, List.length_cons, List.length_nil, List.mem_cons, List.not_mem_nil, or_false, forall_eq_or_imp, forall_eq]
    constructor
    · intro e
      split at e
      · contradiction
      · split at e
        · rename_i h; exact ⟨a, b, rfl, h⟩
        · contradiction
    · rintro ⟨a', b', e, ha, hb⟩
      simp only [List.cons.injEq, and_true] at e
      obtain ⟨rfl, rfl⟩ := e
      rw [if_neg (by simp), if_pos ⟨ha, hb⟩]
  | a :: b :: c :: l => simp

/-- Otherwise it raises: `AttributeError` for a record without components, `ValueError` for any other. -/
theorem c18_generator_raises (p : PTree) (h : checkDeorbitalize p ≠ .ok ()) : checkDeorbitalize p = .error (if p.aux = [] then .attributeError else .valueError) := by
  revert h
  unfold checkDeorbitalize
  split
  · simp
  · split
    · simp
    · split <;> simp

/-! ## Comments that are never closed (`wrap.py:59`) -/

theorem closeComment_none (t : List Char) (h : ¬ "*/".toList <:+: t) : closeComment t = none := by
  induction t with
  | nil => rfl
  | cons c t ih =>
    have h2 : ¬ (c = '*' ∧ t.head? = some '/') := by
      rintro ⟨rfl, e⟩
      cases t with
      | nil => simp at e
      | cons d t =>
        simp at e
        subst e
        exact h ⟨[], t, rfl⟩
    rw [closeComment, if_neg h2, ih fun hi => h (hi.trans (List.suffix_cons c t).isInfix)]
    rfl

/-- A text in which no comment is closed is kept, also after an opening `/*`. -/
theorem c31_unclosed (t : List Char) (h : ¬ "*/".toList <:+: t) : rmComments t = t := by
  unfold rmComments
  induction t with
  | nil => rfl
  | cons c t ih =>
    have h1 : ¬ "*/".toList <:+: t := fun hi => h (hi.trans (List.suffix_cons c t).isInfix)
    have h3 : closeComment t.tail = none := closeComment_none _ fun hi => h1 (hi.trans (List.tail_suffix t).isInfix)
    rw [rmCommentsGo, h3, ih h1]
    simp

example : rmComments "double a; /* b".toList = "double a; /* b".toList := c31_unclosed _ (by decide)

/-! ## Keywords -/

/-- Python 3's keywords, in the order of its language reference (section 2.3.1). -/
def reserved : String :=
  "False await else import pass None break except in raise True class finally is return and continue for lambda try as def from nonlocal while " ++
  "assert del global not with async elif if or yield"

/-- A name is refused as the name of a namedtuple class exactly if it is no identifier or is one of the reserved words. -/
theorem c28_keywords (s : String) : typeOK s = true ↔ isIdentifier s = true ∧ s ∉ (splitOnP (· == ' ') reserved.toList).map String.ofList := by
  have h1 : ∀ x ∈ keywords, x ∈ (splitOnP (· == ' ') reserved.toList).map String.ofList := by decide +kernel
  have h2 : ∀ x ∈ (splitOnP (· == ' ') reserved.toList).map String.ofList, x ∈ keywords := by decide +kernel
  simp only [typeOK, Bool.and_eq_true, Bool.not_eq_true', List.contains_eq_mem, decide_eq_false_iff_not]
  exact and_congr_right fun _ => not_congr ⟨h1 s, h2 s⟩

/-- What a conversion raises: `TypeError` for a number in a list, `AttributeError` for any other element that is no dict, `ValueError` for a name that
cannot be a field. -/
theorem c28_raises (k name : String) (hk : k ≠ "lambda") (x : PyVal) :
    ((∃ r, x = .num r) ∨ (∃ n, x = .int n) → dictToNT [(k, .list [x])] name = .error .typeError) ∧
    ((∃ s, x = .str s) ∨ (∃ a, x = .arr a) ∨ (∃ l, x = .list l) → dictToNT [(k, .list [x])] name = .error .attributeError) ∧
    (fieldOK k = false → ∀ n, dictToNT [(k, .int n)] name = .error .valueError) := by
  have hb : ("lambda" == k) = false := by simpa using fun e => hk e.symm
  refine ⟨?_, ?_, ?_⟩
  · rintro (⟨r, rfl⟩ | ⟨n, rfl⟩) <;>
      simp [dictToNT, convVal, convDict, convItem, convList, popLambda, List.lookup, hb, seqFields, bind, Except.bind]
  · rintro (⟨r, rfl⟩ | ⟨n, rfl⟩ | ⟨l, rfl⟩) <;>
      simp [dictToNT, convVal, convDict, convItem, convList, popLambda, List.lookup, hb, seqFields, bind, Except.bind]
  · intro h n
    simp [dictToNT, convVal, convDict, convItem, popLambda, List.lookup, hb, seqFields, bind, Except.bind, namedtuple, h]

example : dictToNT [("_x", .int 1)] "P" = .error .valueError := (c28_raises "_x" "P" (by decide) (.int 1)).2.2 (by decide) 1

end Verif.Props
