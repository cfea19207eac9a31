import Verif.Props.Rewrite
import Mathlib.Analysis.Real.Pi.Bounds
/-!
# C32: numerals keep their value
-/
namespace Verif.Props
open Verif.Text Verif.Spec

/-! ### Values -/

theorem digitsNat_append (a : List Char) (c : Char) : digitsNat (a ++ [c]) = digitsNat a * 10 + (c.toNat - '0'.toNat) := by simp [digitsNat]

theorem digitsNat_zeros (a : List Char) (k : ℕ) : digitsNat (a ++ List.replicate k '0') = digitsNat a * 10 ^ k := by
  induction k with
  | zero => simp
  | succ k ih =>
    rw [List.replicate_succ', ← List.append_assoc, digitsNat_append, ih]
    simp [pow_succ, mul_assoc]

/-- Without the zeros at the end. -/
def rstrip0 (l : List Char) : List Char := (l.reverse.dropWhile (· == '0')).reverse

theorem rstrip0_zeros (l : List Char) : ∃ k, l = rstrip0 l ++ List.replicate k '0' := by
  refine ⟨(l.reverse.takeWhile (· == '0')).length, ?_⟩
  have h := List.takeWhile_append_dropWhile (p := (· == '0')) (l := l.reverse)
  have h2 : l.reverse.takeWhile (· == '0') = List.replicate (l.reverse.takeWhile (· == '0')).length '0' := by
    refine List.eq_replicate_of_mem fun c hc => ?_
    have := List.all_takeWhile (p := (· == '0')) (l := l.reverse)
    rw [List.all_eq_true] at this
    simpa using this c hc
  unfold rstrip0
  have h3 := congrArg List.reverse h
  rw [List.reverse_append, List.reverse_reverse] at h3
  conv_lhs => rw [← h3]
  congr 1
  rw [h2]
  simp

theorem rstrip0_cons (a : List Char) (c : Char) (b : List Char) (h : c ≠ '0') : rstrip0 (a ++ c :: b) = a ++ c :: rstrip0 b := by
  unfold rstrip0
  rw [List.reverse_append, List.reverse_cons, List.append_assoc, List.dropWhile_append]
  split
  · rename_i he
    have : b.reverse.dropWhile (· == '0') = [] := by simpa using he
    rw [this]
    simp [h]
  · simp

/-! ### `dropZerosE` -/

theorem dropZerosE_append (pre x : List Char) : ∀ k, (∃ c, pre.getLast? = some c ∧ c ≠ '0') → dropZerosE k (pre ++ x) = dropZerosE k pre ++ dropZerosE 0 x := by
  induction pre with
  | nil => rintro k ⟨c, h, -⟩; cases h
  | cons a pre ih =>
    rintro k ⟨c, h, hc⟩
    cases pre with
    | nil =>
      simp at h
      subst h
      rw [List.singleton_append, dropZerosE, if_neg hc, dropZerosE, if_neg hc]
      split
      · simp [dropZerosE]
      · simp [dropZerosE]
    | cons b pre =>
      have ih := fun k => ih k ⟨c, by simpa using h, hc⟩
      rw [List.cons_append, dropZerosE, dropZerosE]
      split
      · exact ih _
      split
      · rw [ih]; rfl
      · rw [ih]; simp

theorem dropZerosE_frac (frac r : List Char) : ∀ k, (∀ c ∈ frac, DigitChar c) → dropZerosE k (frac ++ 'e' :: r) = rstrip0 (List.replicate k '0' ++ frac) ++ 'e' :: dropZerosE 0 r := by
  induction frac with
  | nil =>
    intro k _
    rw [List.nil_append, List.append_nil, dropZerosE, if_neg (by decide), if_pos rfl]
    have : rstrip0 (List.replicate k '0') = [] := by
      unfold rstrip0
      rw [List.reverse_replicate]
      have := List.dropWhile_append_of_pos (p := (· == '0')) (l₁ := List.replicate k '0') (l₂ := []) (by intro c hc; simp [List.eq_of_mem_replicate hc])
      rw [List.append_nil] at this
      rw [this]; rfl
    rw [this]; rfl
  | cons c frac ih =>
    intro k h
    have ih := fun k => ih k fun c hc => h c (List.mem_cons_of_mem _ hc)
    rw [List.cons_append, dropZerosE]
    by_cases h0 : c = '0'
    · subst h0
      rw [if_pos rfl, ih (k + 1), List.replicate_succ', List.append_assoc]
      rfl
    · rw [if_neg h0, if_neg (by rintro rfl; exact absurd (h 'e' List.mem_cons_self) (by decide)), ih 0, rstrip0_cons _ _ _ h0]
      simp

theorem dropZerosE_exp (es post : List Char) : ∀ k, (∀ c ∈ es, DigitChar c) → (∀ c ∈ post.head?, ¬ DigitChar c ∧ c ≠ 'e') →
    dropZerosE k (es ++ post) = List.replicate k '0' ++ es ++ dropZerosE 0 post := by
  induction es with
  | nil =>
    intro k _ hp
    rw [List.nil_append, List.append_nil]
    cases post with
    | nil => simp [dropZerosE]
    | cons c post =>
      obtain ⟨h1, h2⟩ := hp c rfl
      have h0 : c ≠ '0' := by rintro rfl; exact h1 (by decide)
      rw [dropZerosE, if_neg h0, if_neg h2, dropZerosE, if_neg h0, if_neg h2]
      rfl
  | cons c es ih =>
    intro k h hp
    have ih := fun k => ih k (fun c hc => h c (List.mem_cons_of_mem _ hc)) hp
    rw [List.cons_append, dropZerosE]
    by_cases h0 : c = '0'
    · subst h0
      rw [if_pos rfl, ih (k + 1), List.replicate_succ']
      simp
    · rw [if_neg h0, if_neg (by rintro rfl; exact absurd (h 'e' List.mem_cons_self) (by decide)), ih 0]
      simp

theorem dropZerosE_last (pre : List Char) : ∀ k, (∃ c, pre.getLast? = some c ∧ c ≠ '0') → (dropZerosE k pre).getLast? = pre.getLast? := by
  intro k ⟨c, h, hc⟩
  have hne : pre ≠ [] := by rintro rfl; cases h
  obtain ⟨p, rfl⟩ : ∃ p, pre = p ++ [c] := by
    refine ⟨pre.dropLast, ?_⟩
    rw [List.getLast?_eq_some_getLast hne] at h
    cases h
    exact (List.dropLast_append_getLast hne).symm
  have : ∀ k, ∃ q, dropZerosE k (p ++ [c]) = q ++ [c] := by
    clear h hne
    induction p with
    | nil =>
      intro k
      rw [List.nil_append, dropZerosE, if_neg hc]
      split
      · rename_i he
        exact ⟨[], by simp [dropZerosE, he]⟩
      · exact ⟨List.replicate k '0', by simp [dropZerosE]⟩
    | cons a p ih =>
      intro k
      rw [List.cons_append, dropZerosE]
      split
      · exact ih _
      split
      · obtain ⟨q, hq⟩ := ih 0
        exact ⟨'e' :: q, by rw [hq]; rfl⟩
      · obtain ⟨q, hq⟩ := ih 0
        exact ⟨List.replicate k '0' ++ a :: q, by rw [hq]; simp⟩
  obtain ⟨q, hq⟩ := this k
  rw [hq]
  simp

theorem dropZerosE_head (post : List Char) (hp : ∀ c ∈ post.head?, ¬ DigitChar c ∧ c ≠ 'e') : (dropZerosE 0 post).head? = post.head? := by
  cases post with
  | nil => rfl
  | cons c post =>
    obtain ⟨h1, h2⟩ := hp c rfl
    have h0 : c ≠ '0' := by rintro rfl; exact h1 (by decide)
    rw [dropZerosE, if_neg h0, if_neg h2]
    rfl

/-! ### `dropE0` -/

theorem dropE0_append (pre x : List Char) : ∀ st, (∃ c, pre.getLast? = some c ∧ ¬ DigitChar c ∧ c ≠ '.' ∧ c ≠ 'e') →
    dropE0 st (pre ++ x) = dropE0 st pre ++ dropE0 (.copy false) x := by
  induction pre with
  | nil => rintro st ⟨c, h, -⟩; cases h
  | cons a pre ih =>
    rintro st ⟨c, h, hc⟩
    cases pre with
    | nil =>
      simp at h
      subst h
      have hd : (isDig a || a == '.') = false := by
        rw [Bool.or_eq_false_iff]
        refine ⟨?_, by simpa using hc.2.1⟩
        cases he : isDig a with
        | false => rfl
        | true => exact absurd ((isDig_iff a).1 he) hc.1
      have h0 : a ≠ '0' := by rintro rfl; exact hc.1 (by decide)
      rw [List.singleton_append]
      cases st with
      | drop => rw [dropE0, if_neg h0, hd, dropE0, if_neg h0, hd]; simp [dropE0]
      | copy seen =>
        rw [dropE0, if_neg (by simp [hc.2.2]), hd, dropE0, if_neg (by simp [hc.2.2]), hd]
        simp [dropE0]
    | cons b pre =>
      have ih := fun st => ih st ⟨c, by simpa using h, hc⟩
      rw [List.cons_append]
      cases st with
      | drop =>
        rw [dropE0, dropE0]
        split
        · exact ih _
        · rw [ih]; rfl
      | copy seen =>
        rw [dropE0, dropE0]
        have hh : (b :: pre ++ x).head? = (b :: pre).head? := rfl
        rw [hh]
        by_cases hi : (seen && a == 'e' && (b :: pre).head? == some '0') = true
        · rw [if_pos hi, if_pos hi]
          exact ih _
        · rw [if_neg hi, if_neg hi, ih]
          rfl

theorem dropE0_digits (ds x : List Char) : ∀ seen, (∀ c ∈ ds, DigitChar c) → dropE0 (.copy seen) (ds ++ x) = ds ++ dropE0 (.copy (seen && ds.isEmpty || !ds.isEmpty)) x := by
  induction ds with
  | nil => intro seen _; simp
  | cons c ds ih =>
    intro seen h
    have hc := h c List.mem_cons_self
    have hi : isDig c = true := (isDig_iff c).2 hc
    have he : c ≠ 'e' := by rintro rfl; exact absurd hc (by decide)
    rw [List.cons_append, dropE0, if_neg (by simp [he]), hi, Bool.true_or, ih true fun c hc => h c (List.mem_cons_of_mem _ hc)]
    simp

theorem dropE0_state (q : List Char) (hq : ∀ c ∈ q.head?, ¬ DigitChar c ∧ c ≠ 'e') (st : E0) : dropE0 st q = dropE0 (.copy false) q := by
  cases q with
  | nil => simp [dropE0]
  | cons c q =>
    obtain ⟨h1, h2⟩ := hq c rfl
    have h0 : c ≠ '0' := by rintro rfl; exact h1 (by decide)
    cases st with
    | drop => rw [dropE0, if_neg h0, dropE0, if_neg (by simp)]
    | copy seen => rw [dropE0, if_neg (by simp [h2]), dropE0, if_neg (by simp)]

theorem dropE0_zeros (es q : List Char) (h : ∀ c ∈ es, c = '0') (hq : ∀ c ∈ q.head?, ¬ DigitChar c ∧ c ≠ 'e') : dropE0 .drop (es ++ q) = dropE0 (.copy false) q := by
  induction es with
  | nil => exact dropE0_state q hq _
  | cons c es ih =>
    rw [List.cons_append, dropE0, if_pos (h c List.mem_cons_self), ih fun c hc => h c (List.mem_cons_of_mem _ hc)]

/-! ### Numerals -/

/-- What a numeral of Maple becomes. -/
def rewritten (n : Numeral) : Numeral :=
  { int := ['0']
    frac := rstrip0 n.frac
    exp := match n.exp with
      | some (true, es) => some (true, es)
      | some (false, es) => if es.head? = some '0' then none else some (false, es)
      | none => none }

theorem rewritten_ok (n : Numeral) (h : MapleNumeral n) : (rewritten n).OK where
  int := by simp [rewritten]
  intDigits := by
    intro c hc
    simp only [rewritten, List.mem_singleton] at hc
    subst hc
    decide
  fracDigits := by
    intro c hc
    obtain ⟨k, hk⟩ := rstrip0_zeros n.frac
    exact h.ok.fracDigits c (by rw [hk]; exact List.mem_append_left _ hc)
  exp := by
    intro s es he
    obtain ⟨s', es', h1, -⟩ := h.exp
    have h2 := h.ok.exp s' es' h1
    simp only [rewritten, h1] at he
    cases s' with
    | true => cases he; exact h2
    | false =>
      simp only at he
      split at he
      · cases he
      · cases he; exact h2

theorem rewritten_val (n : Numeral) (h : MapleNumeral n) : (rewritten n).val = n.val := by
  obtain ⟨s, es, h1, h2⟩ := h.exp
  have hp : (rewritten n).power = n.power := by
    unfold Numeral.power
    simp only [rewritten, h1]
    cases s with
    | true => rfl
    | false =>
      by_cases h0 : es.head? = some '0'
      · have hz : ∀ c ∈ es, c = '0' := by
          rcases h2 with h2 | h2 | h2
          · exact absurd h0 h2
          · cases h2
          · exact h2
        have := digitsNat_zeros [] es.length
        rw [List.nil_append, ← List.eq_replicate_of_mem hz] at this
        simp only [if_pos h0]
        rw [this]
        simp [digitsNat]
      · simp only [if_neg h0]
  unfold Numeral.val
  rw [hp]
  congr 1
  obtain ⟨k, hk⟩ := rstrip0_zeros n.frac
  have hf : n.frac.length = (rstrip0 n.frac).length + k := by
    conv_lhs => rw [hk]
    simp
  have hd : digitsNat (n.int ++ n.frac) = digitsNat (['0'] ++ rstrip0 n.frac) * 10 ^ k := by
    rw [h.zero, ← digitsNat_zeros, List.append_assoc, ← hk]
  rw [hf, hd]
  simp only [rewritten]
  push_cast
  rw [pow_add]
  have : (10 : ℚ) ^ k ≠ 0 := by positivity
  have : (10 : ℚ) ^ (rstrip0 n.frac).length ≠ 0 := by positivity
  field_simp

/-- C32: the rules for numerals rewrite a numeral of Maple to one with the same value, wherever it is in a line, and independently of what is
around it (as long as it is not part of a longer word or numeral). -/
theorem c32_numeral (n : Numeral) (h : MapleNumeral n) (pre post : List Char) (hpre : ∀ c ∈ pre.getLast?, ¬ DigitChar c ∧ c ≠ '.' ∧ c ≠ 'e')
    (hpost : ∀ c ∈ post.head?, ¬ DigitChar c ∧ c ≠ 'e') :
    ∃ n' : Numeral, n'.OK ∧ n'.val = n.val ∧ numbers (pre ++ (n.text ++ post)) = numbers pre ++ (n'.text ++ numbers post) := by
  refine ⟨rewritten n, rewritten_ok n h, rewritten_val n h, ?_⟩
  have key : numbers (n.text ++ post) = (rewritten n).text ++ numbers post := by
    obtain ⟨s, es, h1, h2⟩ := h.exp
    obtain ⟨hne, hes⟩ := h.ok.exp s es h1
    have hq : ∀ c ∈ (dropZerosE 0 post).head?, ¬ DigitChar c ∧ c ≠ 'e' := by rw [dropZerosE_head post hpost]; exact hpost
    have hfd : ∀ c ∈ rstrip0 n.frac, DigitChar c := fun c hc => (rewritten_ok n h).fracDigits c hc
    have e0 : n.text = '0' :: '.' :: (n.frac ++ bif s then 'e' :: '-' :: es else 'e' :: es) := by
      unfold Numeral.text
      rw [h.zero]
      simp only [h1]
      cases s <;> rfl
    have start : ∀ x, dropZerosE 0 ('0' :: '.' :: x) = '0' :: '.' :: dropZerosE 0 x := by
      intro x; rw [dropZerosE, if_pos rfl, dropZerosE, if_neg (by decide), if_neg (by decide)]; rfl
    have start2 : ∀ x, dropE0 (.copy false) ('0' :: '.' :: x) = '0' :: '.' :: dropE0 (.copy true) x := by
      intro x; rw [dropE0, if_neg (by simp), dropE0, if_neg (by simp)]; rfl
    have hfr : ∀ x, dropE0 (.copy true) (rstrip0 n.frac ++ x) = rstrip0 n.frac ++ dropE0 (.copy true) x := by
      intro x
      rw [dropE0_digits _ _ _ hfd]
      congr 2
      cases (rstrip0 n.frac).isEmpty <;> rfl
    have hexp : ∀ seen, dropE0 (.copy seen) (es ++ dropZerosE 0 post) = es ++ dropE0 (.copy false) (dropZerosE 0 post) := by
      intro seen
      rw [dropE0_digits _ _ _ hes, dropE0_state _ hq]
    unfold numbers
    rw [e0, List.cons_append, List.cons_append, start]
    cases s with
    | true =>
      have e1 : dropZerosE 0 (n.frac ++ 'e' :: '-' :: es ++ post) = rstrip0 n.frac ++ 'e' :: '-' :: (es ++ dropZerosE 0 post) := by
        rw [List.append_assoc, List.cons_append, List.cons_append, dropZerosE_frac _ _ 0 h.ok.fracDigits, dropZerosE, if_neg (by decide), if_neg (by decide), dropZerosE_exp _ _ 0 hes hpost]
        rfl
      simp only [cond_true, cond_false]
      rw [e1, start2, hfr, dropE0, if_neg (by simp), dropE0, if_neg (by simp), hexp]
      unfold Numeral.text rewritten
      rw [h1]
      simp
    | false =>
      have e1 : dropZerosE 0 (n.frac ++ 'e' :: es ++ post) = rstrip0 n.frac ++ 'e' :: (es ++ dropZerosE 0 post) := by
        rw [List.append_assoc, List.cons_append, dropZerosE_frac _ _ 0 h.ok.fracDigits, dropZerosE_exp _ _ 0 hes hpost]
        rfl
      have hh : (es ++ dropZerosE 0 post).head? = es.head? := by
        cases es with
        | nil => exact absurd rfl hne
        | cons c es => rfl
      simp only [cond_true, cond_false]
      rw [e1, start2, hfr, dropE0, hh]
      by_cases h0 : es.head? = some '0'
      · have hz : ∀ c ∈ es, c = '0' := by
          rcases h2 with h2 | h2 | h2
          · exact absurd h0 h2
          · cases h2
          · exact h2
        rw [if_pos (by simp [h0]), dropE0_zeros es _ hz hq]
        unfold Numeral.text rewritten
        rw [h1]
        simp [h0]
      · rw [if_neg (by simp [h0]), hexp]
        unfold Numeral.text rewritten
        rw [h1]
        simp [h0]
  by_cases hp : pre = []
  · subst hp
    rw [List.nil_append, key]
    rfl
  · obtain ⟨c, hc⟩ : ∃ c, pre.getLast? = some c := ⟨_, List.getLast?_eq_some_getLast hp⟩
    have hcc := hpre c hc
    have h0 : c ≠ '0' := by rintro rfl; exact hcc.1 (by decide)
    unfold numbers at key ⊢
    rw [dropZerosE_append _ _ 0 ⟨c, hc, h0⟩, dropE0_append _ _ _ ⟨c, by rw [dropZerosE_last _ 0 ⟨c, hc, h0⟩]; exact hc, hcc⟩, key]

/-- In a line with no other triggers, that is all that happens. -/
theorem c32_line (n : Numeral) (h : MapleNumeral n) (pre post : List Char) (hpre : ∀ c ∈ pre.getLast?, ¬ DigitChar c ∧ c ≠ '.' ∧ c ≠ 'e')
    (hpost : ∀ c ∈ post.head?, ¬ DigitChar c ∧ c ≠ 'e') (ha : ¬ Contains "_a_" (pre ++ (n.text ++ post))) (hq : Quiet (numbers (pre ++ (n.text ++ post)))) :
    ∃ n' : Numeral, n'.OK ∧ n'.val = n.val ∧ postProcessLine (pre ++ (n.text ++ post)) = numbers pre ++ (n'.text ++ numbers post) := by
  obtain ⟨n', h1, h2, h3⟩ := c32_numeral n h pre post hpre hpost
  refine ⟨n', h1, h2, ?_⟩
  rw [postProcessLine_eq, subPat_none _ _ _ ha, laterRules_quiet _ hq, h3]

/-- The numeral that is replaced by `jnp.pi` differs from π by less than `4 * 10 ^ -20`. -/
theorem c32_pi : |((Numeral.val ⟨['0'], "31415926535897932385".toList, some (false, ['1'])⟩ : ℚ) : ℝ) - Real.pi| < 4 / 10 ^ 20 := by
  have e : Numeral.val ⟨['0'], "31415926535897932385".toList, some (false, ['1'])⟩ = 31415926535897932385 / 10 ^ 19 := by
    have e1 : digitsNat (['0'] ++ "31415926535897932385".toList) = 31415926535897932385 := by decide
    have e2 : digitsNat ['1'] = 1 := by decide
    have e3 : ("31415926535897932385".toList).length = 20 := by decide
    unfold Numeral.val Numeral.power
    simp only [e1, e2, e3]
    norm_num
  rw [e]
  push_cast
  have h1 := Real.pi_gt_d20
  have h2 := Real.pi_lt_d20
  rw [abs_lt]
  constructor <;> norm_num at h1 h2 ⊢ <;> linarith

/-- A longer exponent is not recognised as such: outside `c32_line`, because of its hypothesis `Quiet`. -/
theorem c32_pi_wrong : postProcessLine "0.31415926535897932385e12".toList = "jnp.pi2".toList := by decide +kernel

/-- A leading zero in an exponent changes the value: the hypothesis `MapleNumeral.exp` is needed. -/
theorem c32_leading_zero : numbers "0.5e05".toList = "0.55".toList := by decide +kernel

/-- Zeros at the end of an integer part too: `10e5` becomes `1e5` (`MapleNumeral` requires a dot and the integer part `0`). -/
theorem c32_integer : numbers "10e5".toList = "1e5".toList := by decide +kernel

/-! ### Instances -/

/-- `0.22500e0` -/
def demoNumeral : Numeral := ⟨['0'], "22500".toList, some (false, ['0'])⟩

theorem demoNumeral_ok : MapleNumeral demoNumeral where
  ok := ⟨by decide, by decide, by decide, by
    intro s es h
    cases h
    exact ⟨by decide, by decide⟩⟩
  zero := rfl
  exp := ⟨false, ['0'], rfl, Or.inr (Or.inr (by decide))⟩

example : ∃ n' : Numeral, n'.OK ∧ n'.val = demoNumeral.val ∧ numbers "t3 = 0.22500e0 * t2".toList = "t3 = ".toList ++ (n'.text ++ " * t2".toList) :=
  c32_numeral demoNumeral demoNumeral_ok "t3 = ".toList " * t2".toList (by decide) (by decide)
example : demoNumeral.val = 225 / 1000 := by
  have e1 : digitsNat (demoNumeral.int ++ demoNumeral.frac) = 22500 := by decide
  have e2 : demoNumeral.frac.length = 5 := by decide
  have e3 : demoNumeral.power = 0 := by decide
  unfold Numeral.val
  rw [e1, e2, e3]
  norm_num

/-- Is there an index at the head of the text? -/
def indexAt : List Char → Bool
  | '_' :: cs => !(cs.takeWhile isDig).isEmpty && (cs.dropWhile isDig).head? == some '_'
  | _ => false

/-- A test for `Quiet`. -/
def quietB (t : List Char) : Bool := (triggers.all fun s => t.tails.all fun v => !matchPat (pat s) v) && t.tails.all fun v => !indexAt v

theorem containsB (s : String) (t : List Char) (h : (t.tails.all fun v => !matchPat (pat s) v) = true) : ¬ Contains s t := by
  rw [contains_iff]
  rintro ⟨v, hv, hm⟩
  have := List.all_eq_true.1 h v ((List.mem_tails v t).2 hv)
  rw [hm] at this
  cases this

theorem quietB_sound (t : List Char) (h : quietB t = true) : Quiet t := by
  obtain ⟨h1, h2⟩ := Bool.and_eq_true_iff.1 h
  refine ⟨fun s hs => containsB s t (List.all_eq_true.1 h1 s hs), ?_⟩
  rintro ⟨a, ds, b, rfl, hne, hd⟩
  have := List.all_eq_true.1 h2 ('_' :: (ds ++ '_' :: b)) ((List.mem_tails _ _).2 (List.suffix_append _ _))
  have hd' : ∀ c ∈ ds, isDig c = true := fun c hc => (isDig_iff c).2 (hd c hc)
  have e1 : (ds ++ '_' :: b).takeWhile isDig = ds := by
    rw [List.takeWhile_append_of_pos hd', List.takeWhile_cons_of_neg (by decide), List.append_nil]
  have e2 : (ds ++ '_' :: b).dropWhile isDig = '_' :: b := by
    rw [List.dropWhile_append_of_pos hd', List.dropWhile_cons_of_neg (by decide)]
  rw [indexAt, e1, e2] at this
  cases ds with
  | nil => exact hne rfl
  | cons c ds => simp at this

/-- A test for `NumQuiet`. -/
def numQuietB (t : List Char) : Bool := t.tails.all fun v => match v with
  | '0' :: 'e' :: _ => false
  | c :: 'e' :: '0' :: _ => !(isDig c || c == '.')
  | _ => true

theorem numQuietB_sound (t : List Char) (h : numQuietB t = true) : NumQuiet t := by
  have key : ∀ v, v <:+ t → _ := fun v hv => List.all_eq_true.1 h v ((List.mem_tails _ _).2 hv)
  constructor
  · rintro ⟨a, b, rfl⟩
    have := key ('0' :: 'e' :: b) (by rw [List.append_assoc]; exact List.suffix_append _ _)
    simp at this
  · rintro c hc ⟨a, b, rfl⟩
    have := key (c :: 'e' :: '0' :: b) (by rw [List.append_assoc]; exact List.suffix_append _ _)
    by_cases h0 : c = '0'
    · subst h0
      simp at this
    · have hd : (isDig c || c == '.') = true := by
        rcases hc with hc | rfl
        · rw [(isDig_iff c).2 hc]; rfl
        · decide
      have h2 : (!(isDig c || c == '.')) = true := by
        split at this
        · simp_all
        · simp_all
        · simp_all
      rw [hd] at h2
      cases h2

example : postProcessLine "t7 = 0.45e-1 * jnp_sqrt(r0) + t6 ** 2".toList = "t7 = 0.45e-1 * jnp_sqrt(r0) + t6 ** 2".toList :=
  c33_unchanged _ (containsB _ _ (by decide +kernel)) (numQuietB_sound _ (by decide +kernel)) (quietB_sound _ (by decide +kernel))

example : postProcessLine "t3 = params_a_mu * p_a_dens_threshold".toList = "t3 = params.mu * p.dens_threshold".toList :=
  c33_names ["t3 = params".toList, "mu * p".toList] "dens_threshold".toList (by decide +kernel) (by decide +kernel) (numQuietB_sound _ (by decide +kernel))
    (quietB_sound _ (by decide +kernel))

example : ∃ n' : Numeral, n'.OK ∧ n'.val = demoNumeral.val ∧ postProcessLine "t3 = 0.22500e0 * t2".toList = "t3 = ".toList ++ (n'.text ++ " * t2".toList) :=
  c32_line demoNumeral demoNumeral_ok "t3 = ".toList " * t2".toList (by decide) (by decide) (containsB _ _ (by decide +kernel)) (quietB_sound _ (by decide +kernel))

end Verif.Props
