import Verif.Model.Module
import Verif.Spec.PySource
import Verif.Props.Rewrite
/-!
# C55: the module written for a formula

`gen_repo/impl/gen_py.py:main` pastes the rewritten output of Maple into `python_template.jinja`.  The functions `pol` and `unpol` of the module that
results have as their bodies the two lines of the template, the lines of the file, and `return res`; no text of Maple's output ends up outside of its
function or in the wrong one.
-/
namespace Verif.Props
open Verif.Model Verif.Text Verif.Spec

/-! ## Lines -/

theorem splitLines_ne (t : List Char) : splitLines t ≠ [] := by
  cases t with
  | nil => simp [splitLines]
  | cons c cs =>
    rw [splitLines]
    split
    · simp
    · split <;> simp

theorem splitLines_nl (t : List Char) : splitLines ('\n' :: t) = [] :: splitLines t := by
  rw [splitLines]
  cases h : splitLines t with
  | nil => exact absurd h (splitLines_ne t)
  | cons l ls => simp

theorem splitLines_append : ∀ a b : List Char, splitLines (a ++ '\n' :: b) = splitLines a ++ splitLines b
  | [], b => by rw [List.nil_append, splitLines_nl]; rfl
  | c :: a, b => by
    rw [List.cons_append, splitLines, splitLines, splitLines_append a b]
    cases h : splitLines a with
    | nil => exact absurd h (splitLines_ne a)
    | cons l ls =>
      simp only [List.cons_append]
      split <;> rfl

theorem splitLines_single : ∀ l : List Char, '\n' ∉ l → splitLines l = [l]
  | [], _ => rfl
  | c :: l, h => by
    rw [splitLines, splitLines_single l fun m => h (List.mem_cons_of_mem _ m)]
    simp only
    rw [if_neg fun e : c = '\n' => h (e ▸ List.mem_cons_self)]

theorem splitLines_lines : ∀ t : List Char, ∀ l ∈ splitLines t, '\n' ∉ l
  | [], l, h => by
    rw [splitLines, List.mem_singleton] at h
    simp [h]
  | c :: t, l, h => by
    rw [splitLines] at h
    have ih := splitLines_lines t
    cases e : splitLines t with
    | nil => exact absurd e (splitLines_ne t)
    | cons m ms =>
      rw [e] at h ih
      simp only at h
      split at h
      · rcases List.mem_cons.1 h with rfl | h
        · simp
        · exact ih l h
      · rename_i hc
        rcases List.mem_cons.1 h with rfl | h
        · intro hm
          rcases List.mem_cons.1 hm with e | hm
          · exact hc e.symm
          · exact ih m List.mem_cons_self hm
        · exact ih l (List.mem_cons_of_mem _ h)

/-- A prefix without line ends goes to the first line. -/
theorem splitLines_prefix : ∀ a t : List Char, '\n' ∉ a → ∀ l ls, splitLines t = l :: ls → splitLines (a ++ t) = (a ++ l) :: ls
  | [], _, _, _, _, h => h
  | c :: a, t, ha, l, ls, h => by
    rw [List.cons_append, splitLines, splitLines_prefix a t (fun m => ha (List.mem_cons_of_mem _ m)) l ls h]
    simp only
    rw [if_neg fun e : c = '\n' => ha (e ▸ List.mem_cons_self)]
    rfl

theorem splitLines_join : ∀ ls : List (List Char), ls ≠ [] → (∀ l ∈ ls, '\n' ∉ l) → splitLines (joinLines ls) = ls
  | [], h, _ => absurd rfl h
  | [l], _, h => splitLines_single l (h l List.mem_cons_self)
  | l :: m :: ls, _, h => by
    rw [joinLines, splitLines_append, splitLines_single l (h l List.mem_cons_self),
      splitLines_join (m :: ls) (by simp) fun x hx => h x (List.mem_cons_of_mem _ hx)]
    · rfl
    · simp

/-- Two spaces, unless the line is empty. -/
def ind (l : List Char) : List Char := if l = [] then l else ' ' :: ' ' :: l

theorem splitLines_indent (s l : List Char) (ls : List (List Char)) (h : splitLines s = l :: ls) : splitLines (indentFilter s) = l :: ls.map ind := by
  have hs := splitLines_lines s
  rw [h] at hs
  rw [indentFilter, h]
  refine splitLines_join _ (by simp) fun m hm => ?_
  rcases List.mem_cons.1 hm with rfl | hm
  · exact hs _ List.mem_cons_self
  · obtain ⟨k, hk, rfl⟩ := List.mem_map.1 hm
    have := hs k (List.mem_cons_of_mem _ hk)
    by_cases hk : k = []
    · simp [hk]
    · simp only [hk, if_false, List.mem_cons]
      rintro (e | e | e)
      · exact absurd e (by decide)
      · exact absurd e (by decide)
      · exact this e

/-! ## White space -/

theorem isSpaceC_iff (c : Char) : isSpaceC c = decide (White c) := by
  rw [Bool.eq_iff_iff, decide_eq_true_iff]
  simp [isSpaceC, White, or_assoc]

theorem strip_eq (t : List Char) : strip t = (t.dropWhile fun c => decide (White c)).rdropWhile fun c => decide (White c) := by
  have : isSpaceC = fun c => decide (White c) := funext isSpaceC_iff
  rw [strip, this]
  rfl

/-- White space at the end of a line. -/
abbrev trim (l : List Char) : List Char := l.rdropWhile fun c => decide (White c)

theorem trim_snoc (l : List Char) (c : Char) (h : White c) : trim (l ++ [c]) = trim l := List.rdropWhile_concat_pos _ _ _ (by simpa using h)

theorem trim_eq_nil (l : List Char) : trim l = [] ↔ ∀ c ∈ l, White c := by
  rw [trim, List.rdropWhile_eq_nil_iff]
  simp

theorem trim_append (a l : List Char) (h : trim l ≠ []) : trim (a ++ l) = a ++ trim l := by
  rw [trim, trim, List.rdropWhile, List.rdropWhile, List.reverse_append, List.dropWhile_append, if_neg, List.reverse_append, List.reverse_reverse]
  intro e
  exact h (by simpa [trim, List.rdropWhile] using e)

theorem codeLines_cons (l : List Char) (ls : List (List Char)) : codeLines (l :: ls) = (if trim l = [] then [] else [trim l]) ++ codeLines ls := by
  rw [codeLines, codeLines, List.map_cons, List.filter_cons]
  by_cases h : trim l = []
  · rw [if_pos h]; simp [h]
  · rw [if_neg h]; simp [h]

theorem codeLines_append (a b : List (List Char)) : codeLines (a ++ b) = codeLines a ++ codeLines b := by simp [codeLines]

theorem codeLines_snoc : ∀ (t : List Char) (c : Char), White c → codeLines (splitLines (t ++ [c])) = codeLines (splitLines t)
  | [], c, h => by
    by_cases hc : c = '\n'
    · subst hc; decide
    · rw [List.nil_append, splitLines_single [c] (by simpa using fun e => hc e.symm), codeLines_cons, show trim [c] = [] from by
        rw [trim_eq_nil]; simpa using h]
      decide
  | d :: t, c, h => by
    have ih := codeLines_snoc t c h
    rw [List.cons_append, splitLines, splitLines]
    cases e : splitLines t with
    | nil => exact absurd e (splitLines_ne t)
    | cons l ls =>
      by_cases hc : c = '\n'
      · subst hc
        rw [splitLines_append t [], e] at ih ⊢
        simp only [List.cons_append]
        split
        · rw [codeLines_cons, codeLines_cons []]
          exact congrArg _ ih
        · rw [codeLines_cons, codeLines_cons, codeLines_append]
          simp [splitLines, codeLines]
      · have hsn : ∃ l' ls', splitLines (t ++ [c]) = l' :: ls' ∧ ((ls = [] ∧ l' = l ++ [c] ∧ ls' = []) ∨ (l' = l ∧ codeLines ls' = codeLines ls)) := by
          clear ih
          induction t generalizing l ls with
          | nil =>
            rw [splitLines] at e
            obtain ⟨rfl, rfl⟩ : [] = l ∧ [] = ls := by simpa using e
            exact ⟨[c], [], splitLines_single [c] (by simpa using fun e => hc e.symm), .inl ⟨rfl, rfl, rfl⟩⟩
          | cons a t ih =>
            cases e' : splitLines t with
            | nil => exact absurd e' (splitLines_ne t)
            | cons m ms =>
              obtain ⟨m', ms', h1, h2⟩ := ih m ms e'
              rw [splitLines, e'] at e
              rw [List.cons_append, splitLines, h1]
              by_cases ha : a = '\n'
              · simp only [ha, if_true] at e ⊢
                obtain ⟨rfl, rfl⟩ : [] = l ∧ m :: ms = ls := by simpa using e
                refine ⟨[], m' :: ms', rfl, .inr ⟨rfl, ?_⟩⟩
                rcases h2 with ⟨rfl, rfl, rfl⟩ | ⟨rfl, h2⟩
                · rw [codeLines_cons, codeLines_cons, trim_snoc _ _ h]
                · rw [codeLines_cons, codeLines_cons, h2]
              · simp only [ha, if_false] at e ⊢
                obtain ⟨rfl, rfl⟩ : a :: m = l ∧ ms = ls := by simpa using e
                refine ⟨a :: m', ms', rfl, ?_⟩
                rcases h2 with ⟨rfl, rfl, rfl⟩ | ⟨rfl, h2⟩
                · exact .inl ⟨rfl, rfl, rfl⟩
                · exact .inr ⟨rfl, h2⟩
        obtain ⟨l', ls', h1, h2⟩ := hsn
        rw [h1]
        simp only
        split
        · rw [codeLines_cons [], codeLines_cons []]
          congr 1
          rcases h2 with ⟨rfl, rfl, rfl⟩ | ⟨rfl, h2⟩
          · rw [codeLines_cons, codeLines_cons, trim_snoc _ _ h]
          · rw [codeLines_cons, codeLines_cons, h2]
        · rcases h2 with ⟨rfl, rfl, rfl⟩ | ⟨rfl, h2⟩
          · rw [codeLines_cons, codeLines_cons, ← List.cons_append, trim_snoc _ _ h]
          · rw [codeLines_cons, codeLines_cons, h2]

theorem codeLines_trim (t : List Char) : codeLines (splitLines (trim t)) = codeLines (splitLines t) := by
  induction t using List.reverseRecOn with
  | nil => rfl
  | append_singleton t c ih =>
    by_cases h : White c
    · rw [trim_snoc _ _ h, ih, codeLines_snoc _ _ h]
    · rw [trim, List.rdropWhile_concat_neg _ _ _ (by simpa using h)]

/-- The first characters of the lines. -/
theorem flush_head (c : Char) (t : List Char) (h : ∀ l ∈ splitLines (c :: t), Flush l) (hc : White c) : c = '\n' := by
  by_contra hn
  rw [splitLines] at h
  cases e : splitLines t with
  | nil => exact absurd e (splitLines_ne t)
  | cons l ls =>
    rw [e] at h
    simp only [hn, if_false] at h
    exact h _ List.mem_cons_self c (by simp) hc

theorem codeLines_drop : ∀ t : List Char, (∀ l ∈ splitLines t, Flush l) →
    codeLines (splitLines (t.dropWhile fun c => decide (White c))) = codeLines (splitLines t) ∧
      ∀ l ∈ splitLines (t.dropWhile fun c => decide (White c)), Flush l
  | [], h => ⟨rfl, h⟩
  | c :: t, h => by
    by_cases hc : White c
    · have := flush_head c t h hc
      subst this
      rw [splitLines_nl] at h ⊢
      have ih := codeLines_drop t fun l hl => h l (List.mem_cons_of_mem _ hl)
      rw [List.dropWhile_cons_of_pos (by simpa using hc), codeLines_cons]
      exact ⟨by rw [ih.1]; rfl, ih.2⟩
    · rw [List.dropWhile_cons_of_neg (by simpa using hc)]
      exact ⟨rfl, h⟩

theorem codeLines_strip (t : List Char) (h : ∀ l ∈ splitLines t, Flush l) : codeLines (splitLines (strip t)) = codeLines (splitLines t) := by
  rw [strip_eq]
  exact (codeLines_trim _).trans (codeLines_drop t h).1

theorem trim_ind (l : List Char) : (if trim (' ' :: ' ' :: l) = [] then [] else [trim (' ' :: ' ' :: l)]) =
    (if trim l = [] then [] else [trim l]).map (fun l => ' ' :: ' ' :: l) := by
  by_cases h : trim l = []
  · have : trim (' ' :: ' ' :: l) = [] := by
      rw [trim_eq_nil] at h ⊢
      intro c hc
      rcases List.mem_cons.1 hc with rfl | hc
      · exact .inl rfl
      · rcases List.mem_cons.1 hc with rfl | hc
        · exact .inl rfl
        · exact h c hc
    rw [if_pos this, if_pos h]
    rfl
  · have : trim (' ' :: ' ' :: l) = ' ' :: ' ' :: trim l := trim_append [' ', ' '] l h
    rw [this, if_neg h, if_neg (by simp)]
    rfl

theorem codeLines_ind (ls : List (List Char)) : codeLines (ls.map ind) = (codeLines ls).map (fun l => ' ' :: ' ' :: l) := by
  induction ls with
  | nil => rfl
  | cons l ls ih =>
    rw [List.map_cons, codeLines_cons, codeLines_cons, ih, List.map_append]
    congr 1
    rw [ind]
    by_cases h : l = []
    · subst h; rfl
    · rw [if_neg h]; exact trim_ind l

theorem flush_trim (l : List Char) (h : Flush l) : Flush (trim l) := by
  intro c hc
  by_cases e : trim l = []
  · rw [e] at hc; simp at hc
  · have hp : trim l <+: l := List.rdropWhile_prefix _ _
    obtain ⟨t, ht⟩ := hp
    apply h
    rw [← ht]
    cases hl : trim l with
    | nil => exact absurd hl e
    | cons a b => rw [hl] at hc; exact hc

theorem codeLines_flush (ls : List (List Char)) (h : ∀ l ∈ ls, Flush l) : ∀ l ∈ codeLines ls, Flush l ∧ l ≠ [] := by
  intro l hl
  rw [codeLines, List.mem_filter, List.mem_map] at hl
  obtain ⟨⟨m, hm, rfl⟩, hne⟩ := hl
  exact ⟨flush_trim m (h m hm), by simpa using hne⟩

/-! ## Rewriting keeps lines -/

/-- No line end, and no white space at the beginning. -/
def Line (l : List Char) : Prop := '\n' ∉ l ∧ Flush l

theorem flush_cons (c : Char) (l : List Char) : Flush (c :: l) ↔ ¬ White c := by simp [Flush]

theorem subPatGo_mem (p : Pat) (rep : List Char) : ∀ (t : List Char) (k : ℕ), ∀ c ∈ subPatGo p rep k t, c ∈ t ∨ c ∈ rep
  | [], k, c, h => by cases k <;> simp [subPatGo] at h
  | a :: t, k + 1, c, h => by
    rw [subPatGo] at h
    exact (subPatGo_mem p rep t k c h).imp_left (List.mem_cons_of_mem _)
  | a :: t, 0, c, h => by
    rw [subPatGo] at h
    split at h
    · rcases List.mem_append.1 h with h | h
      · exact .inr h
      · exact (subPatGo_mem p rep t _ c h).imp_left (List.mem_cons_of_mem _)
    · rcases List.mem_cons.1 h with rfl | h
      · exact .inl List.mem_cons_self
      · exact (subPatGo_mem p rep t _ c h).imp_left (List.mem_cons_of_mem _)

theorem subPat_line (p rep : String) (h : ∃ c t, rep.toList = c :: t ∧ ¬ White c ∧ c ≠ '\n' ∧ '\n' ∉ t) (l : List Char) (hl : Line l) : Line (subPat p rep l) := by
  obtain ⟨c, t, e, hw, hc, ht⟩ := h
  rw [subPat, e]
  constructor
  · intro hm
    rcases subPatGo_mem _ _ _ _ _ hm with hm | hm
    · exact hl.1 hm
    · rcases List.mem_cons.1 hm with hm | hm
      · exact hc hm.symm
      · exact ht hm
  · cases l with
    | nil => simp [subPatGo, Flush]
    | cons a l =>
      rw [subPatGo]
      split
      · rw [List.cons_append, flush_cons]; exact hw
      · rw [flush_cons]; exact (flush_cons _ _).1 hl.2

theorem dropZerosE_mem : ∀ (t : List Char) (k : ℕ), ∀ c ∈ dropZerosE k t, c ∈ t ∨ c = '0'
  | [], k, c, h => .inr (List.eq_of_mem_replicate h)
  | a :: t, k, c, h => by
    rw [dropZerosE] at h
    split at h
    · exact (dropZerosE_mem t _ c h).imp_left (List.mem_cons_of_mem _)
    · split at h
      · rename_i e
        rcases List.mem_cons.1 h with rfl | h
        · exact .inl (e ▸ List.mem_cons_self)
        · exact (dropZerosE_mem t _ c h).imp_left (List.mem_cons_of_mem _)
      · rcases List.mem_append.1 h with h | h
        · exact .inr (List.eq_of_mem_replicate h)
        · rcases List.mem_cons.1 h with rfl | h
          · exact .inl List.mem_cons_self
          · exact (dropZerosE_mem t _ c h).imp_left (List.mem_cons_of_mem _)

theorem dropZerosE_pending : ∀ (t : List Char) (k : ℕ), Flush (dropZerosE (k + 1) t)
  | [], k => by rw [dropZerosE, List.replicate_succ, flush_cons]; decide
  | a :: t, k => by
    rw [dropZerosE]
    split
    · exact dropZerosE_pending t _
    · split
      · rw [flush_cons]; decide
      · rw [List.replicate_succ, List.cons_append, flush_cons]; decide

theorem dropZerosE_line (l : List Char) (hl : Line l) : Line (dropZerosE 0 l) := by
  constructor
  · intro hm
    rcases dropZerosE_mem _ _ _ hm with hm | hm
    · exact hl.1 hm
    · exact absurd hm (by decide)
  · cases l with
    | nil => simp [dropZerosE, Flush]
    | cons a l =>
      rw [dropZerosE]
      split
      · exact dropZerosE_pending _ _
      · split
        · rw [flush_cons]; decide
        · rw [List.replicate_zero, List.nil_append, flush_cons]; exact (flush_cons _ _).1 hl.2

theorem dropE0_mem : ∀ (t : List Char) (st : E0), ∀ c ∈ dropE0 st t, c ∈ t
  | [], st, c, h => by cases st <;> simp [dropE0] at h
  | a :: t, .drop, c, h => by
    rw [dropE0] at h
    split at h
    · exact List.mem_cons_of_mem _ (dropE0_mem t _ c h)
    · rcases List.mem_cons.1 h with rfl | h
      · exact List.mem_cons_self
      · exact List.mem_cons_of_mem _ (dropE0_mem t _ c h)
  | a :: t, .copy b, c, h => by
    rw [dropE0] at h
    split at h
    · exact List.mem_cons_of_mem _ (dropE0_mem t _ c h)
    · rcases List.mem_cons.1 h with rfl | h
      · exact List.mem_cons_self
      · exact List.mem_cons_of_mem _ (dropE0_mem t _ c h)

theorem dropE0_line (l : List Char) (hl : Line l) : Line (dropE0 (.copy false) l) := by
  refine ⟨fun hm => hl.1 (dropE0_mem _ _ _ hm), ?_⟩
  cases l with
  | nil => simp [dropE0, Flush]
  | cons a l =>
    rw [dropE0, if_neg (by simp), flush_cons]
    exact (flush_cons _ _).1 hl.2

theorem indexSub_mem : ∀ (t : List Char) (st : Option (List Char)), ∀ c ∈ indexSub st t, c ∈ t ∨ (∃ ds, st = some ds ∧ c ∈ ds) ∨ c = '_' ∨ c = '[' ∨ c = ']'
  | [], none, c, h => by simp [indexSub] at h
  | [], some ds, c, h => by
    rw [indexSub, List.mem_cons, List.mem_reverse] at h
    rcases h with h | h
    · exact .inr (.inr (.inl h))
    · exact .inr (.inl ⟨ds, rfl, h⟩)
  | a :: t, none, c, h => by
    rw [indexSub] at h
    split at h
    · rcases indexSub_mem t _ c h with h | ⟨ds, e, h⟩ | h
      · exact .inl (List.mem_cons_of_mem _ h)
      · obtain rfl : [] = ds := by simpa using e
        simp at h
      · exact .inr (.inr h)
    · rcases List.mem_cons.1 h with rfl | h
      · exact .inl List.mem_cons_self
      · rcases indexSub_mem t _ c h with h | ⟨ds, e, h⟩ | h
        · exact .inl (List.mem_cons_of_mem _ h)
        · simp at e
        · exact .inr (.inr h)
  | a :: t, some ds, c, h => by
    rw [indexSub] at h
    split at h
    · rcases indexSub_mem t _ c h with h | ⟨ds', e, h⟩ | h
      · exact .inl (List.mem_cons_of_mem _ h)
      · obtain rfl : a :: ds = ds' := by simpa using e
        rcases List.mem_cons.1 h with rfl | h
        · exact .inl List.mem_cons_self
        · exact .inr (.inl ⟨ds, rfl, h⟩)
      · exact .inr (.inr h)
    · split at h
      · split at h
        · rcases List.mem_cons.1 h with rfl | h
          · exact .inr (.inr (.inl rfl))
          · rcases indexSub_mem t _ c h with h | ⟨ds', e, h⟩ | h
            · exact .inl (List.mem_cons_of_mem _ h)
            · obtain rfl : [] = ds' := by simpa using e
              simp at h
            · exact .inr (.inr h)
        · simp only [List.mem_cons, List.mem_append, List.mem_reverse] at h
          rcases h with h | h | h | h
          · exact .inr (.inr (.inr (.inl h)))
          · exact .inr (.inl ⟨ds, rfl, h⟩)
          · exact .inr (.inr (.inr (.inr h)))
          · rcases indexSub_mem t _ c h with h | ⟨ds', e, h⟩ | h
            · exact .inl (List.mem_cons_of_mem _ h)
            · simp at e
            · exact .inr (.inr h)
      · simp only [List.mem_cons, List.mem_append, List.mem_reverse] at h
        rcases h with h | h | h | h
        · exact .inr (.inr (.inl h))
        · exact .inr (.inl ⟨ds, rfl, h⟩)
        · exact .inl (h ▸ List.mem_cons_self)
        · rcases indexSub_mem t _ c h with h | ⟨ds', e, h⟩ | h
          · exact .inl (List.mem_cons_of_mem _ h)
          · simp at e
          · exact .inr (.inr h)

theorem indexSub_pending : ∀ (t ds : List Char), Flush (indexSub (some ds) t)
  | [], ds => by rw [indexSub, flush_cons]; decide
  | a :: t, ds => by
    rw [indexSub]
    split
    · exact indexSub_pending t _
    · split
      · split
        · rw [flush_cons]; decide
        · rw [flush_cons]; decide
      · rw [flush_cons]; decide

theorem indexSub_line (l : List Char) (hl : Line l) : Line (indexSub none l) := by
  constructor
  · intro hm
    rcases indexSub_mem _ _ _ hm with hm | ⟨_, e, _⟩ | hm | hm | hm
    · exact hl.1 hm
    · simp at e
    · exact absurd hm (by decide)
    · exact absurd hm (by decide)
    · exact absurd hm (by decide)
  · cases l with
    | nil => simp [indexSub, Flush]
    | cons a l =>
      rw [indexSub]
      split
      · exact indexSub_pending _ _
      · rw [flush_cons]; exact (flush_cons _ _).1 hl.2

theorem lastParenCbrt_mem : ∀ (t a g b : List Char), lastParenCbrt t = some (a, g, b) → (∀ c ∈ a ++ (g ++ b), c ∈ t) ∧ (a ≠ [] → a.head? = t.head?)
  | [], a, g, b, h => by simp [lastParenCbrt] at h
  | c :: t, a, g, b, h => by
    rw [lastParenCbrt] at h
    cases e : lastParenCbrt t with
    | some x =>
      obtain ⟨a', g', b'⟩ := x
      rw [e] at h
      obtain ⟨rfl, rfl, rfl⟩ : c :: a' = a ∧ g' = g ∧ b' = b := by simpa using h
      refine ⟨fun d hd => ?_, fun _ => rfl⟩
      rcases List.mem_cons.1 hd with rfl | hd
      · exact List.mem_cons_self
      · exact List.mem_cons_of_mem _ ((lastParenCbrt_mem t _ _ _ e).1 d hd)
    | none =>
      rw [e] at h
      simp only at h
      split at h
      · split at h
        · rename_i g' r hb
          split at h
          · obtain ⟨rfl, rfl, rfl⟩ : [] = a ∧ g' = g ∧ r.drop cbrtExp.length = b := by simpa using h
            refine ⟨fun d hd => ?_, fun h => absurd rfl h⟩
            rw [balanced_append _ _ _ _ hb]
            rw [List.nil_append, List.mem_append] at hd
            rcases hd with hd | hd
            · exact List.mem_append_left _ hd
            · exact List.mem_append_right _ (List.mem_of_mem_drop hd)
          · simp at h
        · simp at h
      · simp at h

theorem cbrtParen_line (l : List Char) (hl : Line l) : Line (cbrtParen l) := by
  rw [cbrtParen]
  cases e : lastParenCbrt l with
  | none => exact hl
  | some x =>
    obtain ⟨a, g, b⟩ := x
    obtain ⟨h1, h2⟩ := lastParenCbrt_mem _ _ _ _ e
    simp only [List.append_assoc]
    constructor
    · simp only [List.mem_append, not_or]
      exact ⟨fun h => hl.1 (h1 _ (by simp [h])), by decide, fun h => hl.1 (h1 _ (by simp [h])), fun h => hl.1 (h1 _ (by simp [h]))⟩
    · cases a with
      | nil => rw [List.nil_append]; intro c hc; revert c; change ∀ c ∈ some 'j', ¬ White c; decide
      | cons c a =>
        intro d hd
        exact hl.2 d (by rw [← h2 (by simp)]; exact hd)

theorem lastExp_mem : ∀ (t a b : List Char), lastExp t = some (a, b) → (∀ c ∈ a ++ b, c ∈ t) ∧ (a ≠ [] → a.head? = t.head?)
  | [], a, b, h => by simp [lastExp] at h
  | c :: t, a, b, h => by
    rw [lastExp] at h
    cases e : lastExp t with
    | some x =>
      obtain ⟨a', b'⟩ := x
      rw [e] at h
      obtain ⟨rfl, rfl⟩ : c :: a' = a ∧ b' = b := by simpa using h
      refine ⟨fun d hd => ?_, fun _ => rfl⟩
      rcases List.mem_cons.1 hd with rfl | hd
      · exact List.mem_cons_self
      · exact List.mem_cons_of_mem _ ((lastExp_mem t _ _ e).1 d hd)
    | none =>
      rw [e] at h
      simp only at h
      split at h
      · obtain ⟨rfl, rfl⟩ : [] = a ∧ (c :: t).drop cbrtExp.length = b := by simpa using h
        exact ⟨fun d hd => List.mem_of_mem_drop hd, fun h => absurd rfl h⟩
      · simp at h

theorem lastSpace_split : ∀ (t a b : List Char), lastSpace t = some (a, b) → t = a ++ ' ' :: b
  | [], a, b, h => by simp [lastSpace] at h
  | c :: t, a, b, h => by
    rw [lastSpace] at h
    cases e : lastSpace t with
    | some x =>
      obtain ⟨a', b'⟩ := x
      rw [e] at h
      obtain ⟨rfl, rfl⟩ : c :: a' = a ∧ b' = b := by simpa using h
      rw [lastSpace_split t _ _ e]
      rfl
    | none =>
      rw [e] at h
      simp only at h
      split at h
      · rename_i hc
        obtain ⟨rfl, rfl⟩ : [] = a ∧ t = b := by simpa using h
        rw [hc]
        rfl
      · simp at h

theorem cbrtVar_line (l : List Char) (hl : Line l) : Line (cbrtVar l) := by
  rw [cbrtVar]
  cases e : lastExp l with
  | none => exact hl
  | some x =>
    obtain ⟨p, b⟩ := x
    obtain ⟨h1, h2⟩ := lastExp_mem _ _ _ e
    simp only
    cases e' : lastSpace p with
    | none => exact hl
    | some y =>
      obtain ⟨a, v⟩ := y
      have hp := lastSpace_split _ _ _ e'
      simp only [List.append_assoc]
      constructor
      · simp only [List.mem_append, not_or]
        exact ⟨fun h => hl.1 (h1 _ (by simp [hp, h])), by decide, fun h => hl.1 (h1 _ (by simp [hp, h])), by decide, fun h => hl.1 (h1 _ (by simp [h]))⟩
      · cases a with
        | nil =>
          exfalso
          refine hl.2 ' ' ?_ (.inl rfl)
          rw [← h2 (by rw [hp]; simp), hp]
          rfl
        | cons c a =>
          intro d hd
          refine hl.2 d ?_
          rw [← h2 (by rw [hp]; simp), hp]
          exact hd

theorem postProcessLine_line (l : List Char) (hl : Line l) : Line (postProcessLine l) := by
  unfold postProcessLine
  refine subPat_line _ _ ⟨_, _, rfl, by decide +kernel, by decide +kernel, by decide +kernel⟩ _ ?_
  refine subPat_line _ _ ⟨_, _, rfl, by decide +kernel, by decide +kernel, by decide +kernel⟩ _ ?_
  refine subPat_line _ _ ⟨_, _, rfl, by decide +kernel, by decide +kernel, by decide +kernel⟩ _ ?_
  refine subPat_line _ _ ⟨_, _, rfl, by decide +kernel, by decide +kernel, by decide +kernel⟩ _ ?_
  refine subPat_line _ _ ⟨_, _, rfl, by decide +kernel, by decide +kernel, by decide +kernel⟩ _ ?_
  refine subPat_line _ _ ⟨_, _, rfl, by decide +kernel, by decide +kernel, by decide +kernel⟩ _ ?_
  refine subPat_line _ _ ⟨_, _, rfl, by decide +kernel, by decide +kernel, by decide +kernel⟩ _ ?_
  refine subPat_line _ _ ⟨_, _, rfl, by decide +kernel, by decide +kernel, by decide +kernel⟩ _ ?_
  refine cbrtVar_line _ (cbrtParen_line _ ?_)
  refine subPat_line _ _ ⟨_, _, rfl, by decide +kernel, by decide +kernel, by decide +kernel⟩ _ ?_
  refine subPat_line _ _ ⟨_, _, rfl, by decide +kernel, by decide +kernel, by decide +kernel⟩ _ ?_
  refine indexSub_line _ (dropE0_line _ (dropZerosE_line _ ?_))
  exact subPat_line _ _ ⟨_, _, rfl, by decide +kernel, by decide +kernel, by decide +kernel⟩ _ hl

theorem postProcess_lines (t : List Char) (h : ∀ l ∈ splitLines t, Flush l) : ∀ l ∈ postProcess t, Line l := by
  intro l hl
  obtain ⟨m, hm, rfl⟩ := List.mem_map.1 hl
  exact postProcessLine_line m ⟨splitLines_lines t m hm, h m hm⟩

/-! ## The module -/

/-- The lines that come from one file. -/
def pasted (file : List Char) : List (List Char) :=
  match splitLines (strip (joinLines (postProcess file))) with
  | [] => []
  | l :: ls => (' ' :: ' ' :: l) :: ls.map ind

def polHeader : List Char := chars! "def pol(p, r, s=(None, None, None), l=(None, None), tau=(None, None)):"
def unpolHeader : List Char := chars! "def unpol(p, r, s=None, l=None, tau=None):"

def importLines : List (List Char) := [chars! "", chars! "import jax", chars! "import jax.lax as lax", chars! "import jax.numpy as jnp", chars! "from jax.numpy import array as array", chars! "from jax.numpy import int32 as int32", chars! "from jax.numpy import nan as nan", chars! "from typing import Callable, Optional", chars! "from .utils import *", chars! "", chars! ""]

def nameLine (name : List Char) : List Char := template0 ++ (name ++ (chars! ".mpl.\"\"\""))

def polStart : List (List Char) := [chars! "  params = p.params", chars! "  (r0, r1), (s0, s1, s2), (l0, l1), (tau0, tau1) = r, s, l, tau"]
def unpolStart : List (List Char) := [chars! "  params = p.params", chars! "  r0, s0, l0, tau0 = r, s, l, tau"]
def funEnd : List (List Char) := [chars! "  return res", chars! "", chars! ""]
def invokeHeader : List Char := chars! "def invoke("
def invokeBody : List (List Char) := [chars! "  p: NamedTuple, rho: Callable, r: jnp.ndarray, mo: Optional[Callable] = None,", chars! "  deorbitalize: Optional[float] = None,", chars! "):", chars! "  args = rho_to_arguments(p, rho, r, mo, deorbitalize)", chars! "  code = pol if p.nspin == 2 else unpol", chars! "  dens = args[0] if p.nspin == 1 else sum(args[0])", chars! "  ret = lax.cond((dens < p.dens_threshold), lambda *_: 0.,", chars! "                 lambda *_: code(p, *args), None)", chars! "  return ret"]

theorem pasted_split (file rest : List Char) :
    splitLines (' ' :: ' ' :: (indentFilter (strip (joinLines (postProcess file))) ++ '\n' :: rest)) = pasted file ++ splitLines rest := by
  rw [← List.cons_append, ← List.cons_append, splitLines_append]
  congr 1
  rw [pasted]
  cases h : splitLines (strip (joinLines (postProcess file))) with
  | nil => exact absurd h (splitLines_ne _)
  | cons l ls => exact splitLines_prefix [' ', ' '] _ (by decide) _ _ (splitLines_indent _ _ _ h)

theorem template1_eq : template1 = (chars! ".mpl.\"\"\"") ++ '\n' :: (joinLines (importLines ++ polHeader :: polStart) ++ ['\n', ' ', ' ']) := by decide +kernel
theorem template2_eq : template2 = '\n' :: (joinLines (funEnd ++ unpolHeader :: unpolStart) ++ ['\n', ' ', ' ']) := by decide +kernel
theorem template3_eq : template3 = '\n' :: joinLines (funEnd ++ invokeHeader :: invokeBody) := by decide +kernel
theorem split1 : splitLines (joinLines (importLines ++ polHeader :: polStart)) = importLines ++ polHeader :: polStart := by decide +kernel
theorem split2 : splitLines (joinLines (funEnd ++ unpolHeader :: unpolStart)) = funEnd ++ unpolHeader :: unpolStart := by decide +kernel
theorem split3 : splitLines (joinLines (funEnd ++ invokeHeader :: invokeBody)) = funEnd ++ invokeHeader :: invokeBody := by decide +kernel

theorem nameLine_single (name : List Char) (hn : '\n' ∉ name) : splitLines (nameLine name) = [nameLine name] := by
  refine splitLines_single _ ?_
  rw [nameLine, List.mem_append, List.mem_append, not_or, not_or]
  exact ⟨by decide +kernel, hn, by decide +kernel⟩

theorem nameLine_head (name : List Char) : ∃ t, nameLine name = '"' :: t := ⟨_, rfl⟩

section
attribute [local irreducible] template0 template1 template2 template3 importLines polHeader unpolHeader polStart unpolStart funEnd invokeHeader invokeBody

/-- The lines of the module. -/
theorem module_lines (name pf uf : List Char) (hn : '\n' ∉ name) : splitLines (moduleText name pf uf) =
    nameLine name :: (importLines ++ polHeader :: (polStart ++ (pasted pf ++ (funEnd ++ unpolHeader :: (unpolStart ++ (pasted uf ++ (funEnd ++ invokeHeader :: invokeBody))))))) := by
  have e0 : moduleText name pf uf = nameLine name ++ '\n' :: (joinLines (importLines ++ polHeader :: polStart) ++ '\n' ::
      ' ' :: ' ' :: (indentFilter (strip (joinLines (postProcess pf))) ++ '\n' :: (joinLines (funEnd ++ unpolHeader :: unpolStart) ++ '\n' ::
      ' ' :: ' ' :: (indentFilter (strip (joinLines (postProcess uf))) ++ '\n' :: joinLines (funEnd ++ invokeHeader :: invokeBody))))) := by
    rw [moduleText, template1_eq, template2_eq, template3_eq, nameLine]
    generalize (chars! ".mpl.\"\"\"") = m
    simp only [List.append_assoc, List.cons_append, List.nil_append]
  rw [e0, splitLines_append, splitLines_append, pasted_split, splitLines_append, pasted_split, nameLine_single name hn, split1, split2, split3]
  simp only [List.append_assoc, List.cons_append, List.nil_append]

end

theorem pasted_lines (file : List Char) : ∀ l ∈ pasted file, l = [] ∨ l.head? = some ' ' := by
  intro l hl
  rw [pasted] at hl
  split at hl
  · cases hl
  · rcases List.mem_cons.1 hl with rfl | hl
    · exact .inr rfl
    · obtain ⟨m, _, rfl⟩ := List.mem_map.1 hl
      rw [ind]
      split
      · exact .inl ‹_›
      · exact .inr rfl

theorem not_pasted (file : List Char) (h : List Char) (hh : h.head? = some 'd') : h ∉ pasted file := by
  intro hm
  rcases pasted_lines file h hm with e | e
  · simp [e] at hh
  · rw [e] at hh; exact absurd hh (by decide)

theorem not_name (name : List Char) (h : List Char) (hh : h.head? = some 'd') : h ≠ nameLine name := by
  obtain ⟨t, ht⟩ := nameLine_head name
  rw [ht]
  rintro rfl
  exact absurd hh (by simp)

theorem pasted_code (file : List Char) (hf : ∀ l ∈ splitLines file, Flush l) :
    codeLines (pasted file) = (codeLines (postProcess file)).map (fun l => ' ' :: ' ' :: l) := by
  have hpp := postProcess_lines file hf
  have hnl : ∀ l ∈ postProcess file, '\n' ∉ l := fun l hl => (hpp l hl).1
  replace hf : ∀ l ∈ postProcess file, Flush l := fun l hl => (hpp l hl).2
  have hne : postProcess file ≠ [] := by simp [postProcess, splitLines_ne]
  have hs := codeLines_strip (joinLines (postProcess file)) (by rw [splitLines_join _ hne hnl]; exact hf)
  rw [splitLines_join _ hne hnl] at hs
  rw [← hs, pasted]
  cases h : splitLines (strip (joinLines (postProcess file))) with
  | nil => exact absurd h (splitLines_ne _)
  | cons l ls =>
    simp only
    rw [codeLines_cons, codeLines_cons l, codeLines_ind, List.map_append, trim_ind]

/-- If Maple's output for spin-polarized densities begins every line in the first column, the function `pol` of the module has as its body
`params = p.params`, the unpacking of the arguments, the rewritten lines of that output in their order, and `return res`: -/
theorem c55_pol (name pf uf : List Char) (hn : '\n' ∉ name) (hf : ∀ l ∈ splitLines pf, Flush l) :
    HasFunction (splitLines (moduleText name pf uf)) "def pol(p, r, s=(None, None, None), l=(None, None), tau=(None, None)):".toList
      ("params = p.params".toList :: "(r0, r1), (s0, s1, s2), (l0, l1), (tau0, tau1) = r, s, l, tau".toList ::
        (codeLines (postProcess pf) ++ ["return res".toList])) where
  flush := by
    intro l hl
    rw [List.mem_cons, List.mem_cons, List.mem_append, List.mem_singleton] at hl
    rcases hl with rfl | rfl | hl | rfl
    · decide
    · decide
    · exact codeLines_flush _ (fun m hm => (postProcess_lines _ hf m hm).2) l hl
    · decide
  block := by
    refine ⟨nameLine name :: importLines, polStart ++ (pasted pf ++ funEnd), unpolHeader :: (unpolStart ++ (pasted uf ++ (funEnd ++ invokeHeader :: invokeBody))), ?_, ?_, ?_, ?_, ?_, ?_⟩
    · rw [module_lines _ _ _ hn]
      simp only [List.append_assoc, List.cons_append]
      rfl
    · rw [List.mem_cons, not_or]
      exact ⟨not_name name _ (by decide), by decide +kernel⟩
    · simp only [List.mem_append, not_or]
      exact ⟨by decide +kernel, not_pasted _ _ (by decide), by decide +kernel⟩
    · simp only [List.mem_append, List.mem_cons, not_or]
      exact ⟨by decide +kernel, by decide +kernel, not_pasted _ _ (by decide), by decide +kernel, by decide +kernel, by decide +kernel⟩
    · rw [codeLines_append, codeLines_append, pasted_code pf hf, show codeLines polStart = polStart by decide +kernel,
        show codeLines funEnd = ["  return res".toList] by decide +kernel, List.map_cons, List.map_cons, List.map_append]
      rfl
    · intro l hl
      obtain rfl : unpolHeader = l := by simpa using hl
      decide +kernel

/-- The same for the output of Maple for unpolarized densities and `unpol`: -/
theorem c55_unpol (name pf uf : List Char) (hn : '\n' ∉ name) (hf : ∀ l ∈ splitLines uf, Flush l) :
    HasFunction (splitLines (moduleText name pf uf)) "def unpol(p, r, s=None, l=None, tau=None):".toList
      ("params = p.params".toList :: "r0, s0, l0, tau0 = r, s, l, tau".toList :: (codeLines (postProcess uf) ++ ["return res".toList])) where
  flush := by
    intro l hl
    rw [List.mem_cons, List.mem_cons, List.mem_append, List.mem_singleton] at hl
    rcases hl with rfl | rfl | hl | rfl
    · decide
    · decide
    · exact codeLines_flush _ (fun m hm => (postProcess_lines _ hf m hm).2) l hl
    · decide
  block := by
    refine ⟨nameLine name :: importLines ++ polHeader :: (polStart ++ (pasted pf ++ funEnd)), unpolStart ++ (pasted uf ++ funEnd), invokeHeader :: invokeBody, ?_, ?_, ?_, ?_, ?_, ?_⟩
    · rw [module_lines _ _ _ hn]
      simp only [List.append_assoc, List.cons_append]
      rfl
    · simp only [List.mem_append, List.mem_cons, not_or]
      exact ⟨⟨not_name name _ (by decide), by decide +kernel⟩, by decide +kernel, by decide +kernel,
        not_pasted _ _ (by decide), by decide +kernel⟩
    · simp only [List.mem_append, not_or]
      exact ⟨by decide +kernel, not_pasted _ _ (by decide), by decide +kernel⟩
    · decide +kernel
    · rw [codeLines_append, codeLines_append, pasted_code uf hf, show codeLines unpolStart = unpolStart by decide +kernel,
        show codeLines funEnd = ["  return res".toList] by decide +kernel, List.map_cons, List.map_cons, List.map_append]
      rfl
    · intro l hl
      obtain rfl : invokeHeader = l := by simpa using hl
      decide +kernel

/-- Whatever the two files contain, the module defines three functions at its top level: -/
theorem c55_defs (name pf uf : List Char) (hn : '\n' ∉ name) : (splitLines (moduleText name pf uf)).filter (fun l => "def ".toList.isPrefixOf l) =
    ["def pol(p, r, s=(None, None, None), l=(None, None), tau=(None, None)):".toList, "def unpol(p, r, s=None, l=None, tau=None):".toList, "def invoke(".toList] := by
  have hp : ∀ f : List Char, (pasted f).filter (fun l => "def ".toList.isPrefixOf l) = [] := by
    intro f
    rw [List.filter_eq_nil_iff]
    intro l hl
    rcases pasted_lines f l hl with e | e
    · rw [e]; decide
    · cases l with
      | nil => decide
      | cons c l =>
        obtain rfl : c = ' ' := by simpa using e
        change ¬ ((('d' == ' ') && _) = true)
        simp
  have hb : ¬ ("def ".toList.isPrefixOf (nameLine name) = true) := by
    obtain ⟨t, ht⟩ := nameLine_head name
    rw [ht]
    change ¬ ((('d' == '"') && _) = true)
    simp
  rw [module_lines _ _ _ hn, List.filter_cons_of_neg hb, List.filter_append, List.filter_cons_of_pos (by decide +kernel), List.filter_append, List.filter_append,
    List.filter_append, hp, List.filter_cons_of_pos (by decide +kernel), List.filter_append, List.filter_append, List.filter_append, hp]
  decide +kernel

/-- The first line of the file loses its indentation (`strip`), the others do not: an indented file gives a module that is not Python. -/
theorem c55_indented : ∃ pf : List Char, ∀ name uf : List Char, '\n' ∉ name →
    "  t = r0".toList ∈ splitLines (moduleText name pf uf) ∧ "    res = t".toList ∈ splitLines (moduleText name pf uf) := by
  refine ⟨"  t = r0\n  res = t".toList, fun name uf hn => ?_⟩
  have h : pasted "  t = r0\n  res = t".toList = ["  t = r0".toList, "    res = t".toList] := by decide +kernel
  rw [module_lines _ _ _ hn, h]
  generalize "  t = r0".toList = a
  generalize "    res = t".toList = b
  simp only [List.mem_cons, List.mem_append, true_or, or_true, and_self]

/-- Two lines, a blank one in between: -/
example : ∃ pf : List Char, (∀ l ∈ splitLines pf, Flush l) ∧
    codeLines (postProcess pf) = ["t1 = p.zeta_threshold * r0".toList, "res = jnp.cbrt(t1) + params.c[2]".toList] :=
  ⟨"t1 = p_a_zeta_threshold * r0\n\nres = t1 ** (0.1e1 / 0.3e1) + params_a_c_2_\n".toList, by decide +kernel, by decide +kernel⟩

end Verif.Props
