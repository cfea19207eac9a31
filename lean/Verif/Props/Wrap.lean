import Verif.Model.Wrap
import Verif.Spec.Wrap
/-!
# C31: parameter structs are exported completely
-/
namespace Verif.Props
open Verif.Py Verif.Model Verif.Spec

/-! ### Comments -/

theorem closeComment_append (t : List Char) (h : ¬ "*/".toList <:+: t) (r : List Char) : closeComment (t ++ '*' :: '/' :: r) = some (t.length + 2) := by
  induction t with
  | nil => simp [closeComment]
  | cons c t ih =>
    have h1 : ¬ "*/".toList <:+: t := fun hi => h (hi.trans (List.suffix_cons c t).isInfix)
    have h2 : ¬ (c = '*' ∧ (t ++ '*' :: '/' :: r).head? = some '/') := by
      rintro ⟨rfl, e⟩
      cases t with
      | nil => simp at e
      | cons d t =>
        simp at e
        subst e
        exact h ⟨[], t, rfl⟩
    rw [List.cons_append, closeComment, if_neg h2, ih h1]
    simp

theorem rmCommentsGo_skip (t r : List Char) : rmCommentsGo t.length (t ++ r) = rmCommentsGo 0 r := by
  induction t with
  | nil => rfl
  | cons c t ih => rw [List.length_cons, List.cons_append, rmCommentsGo, ih]

theorem rmComments_code (t r : List Char) (h : '/' ∉ t) : rmComments (t ++ r) = t ++ rmComments r := by
  induction t with
  | nil => rfl
  | cons c t ih =>
    simp only [List.mem_cons, not_or] at h
    unfold rmComments at ih ⊢
    rw [List.cons_append, rmCommentsGo, if_neg (fun e => h.1 e.1.symm), ih h.2, List.cons_append]

theorem rmComments_comment (t r : List Char) (h : ¬ "*/".toList <:+: t) : rmComments ("/*".toList ++ t ++ "*/".toList ++ r) = rmComments r := by
  have e : "/*".toList ++ t ++ "*/".toList ++ r = '/' :: '*' :: (t ++ '*' :: '/' :: r) := by
    show (['/', '*'] ++ t ++ ['*', '/'] ++ r) = _
    simp
  rw [e]
  unfold rmComments
  rw [rmCommentsGo, if_pos ⟨rfl, rfl⟩]
  simp only [List.tail_cons]
  rw [closeComment_append t h]
  have := rmCommentsGo_skip ('*' :: (t ++ ['*', '/'])) r
  simp only [List.length_cons, List.length_append, List.length_nil, List.cons_append, List.append_assoc, List.nil_append] at this
  simpa using this

/-- Comments are removed, and nothing else. -/
theorem rmComments_pieces (ps : List Piece) (h : ∀ p ∈ ps, p.OK) (hs : '/' ∉ ps.flatMap Piece.bare) : rmComments (ps.flatMap Piece.text) = ps.flatMap Piece.bare := by
  induction ps with
  | nil => rfl
  | cons p ps ih =>
    rw [List.flatMap_cons, List.mem_append, not_or] at hs
    have ih := ih (fun q hq => h q (List.mem_cons_of_mem _ hq)) hs.2
    rw [List.flatMap_cons, List.flatMap_cons]
    cases p with
    | code t => rw [Piece.text, Piece.bare, rmComments_code t _ hs.1, ih]
    | comment t =>
      rw [Piece.text, Piece.bare, rmComments_comment t _ (h _ List.mem_cons_self), ih]
      rfl

/-! ### Dimensions -/

theorem rmDims_code (t r : List Char) (h : '[' ∉ t) : rmDims none (t ++ r) = t ++ rmDims none r := by
  induction t with
  | nil => rfl
  | cons c t ih =>
    simp only [List.mem_cons, not_or] at h
    rw [List.cons_append, rmDims, if_neg (Ne.symm h.1), ih h.2, List.cons_append]

theorem rmDims_pending (ds : List Char) (h : ∀ c ∈ ds, '0' ≤ c ∧ c ≤ '9') : ∀ (acc r : List Char), rmDims (some acc) (ds ++ ']' :: r) = rmDims none r := by
  induction ds with
  | nil => intro acc r; simp [rmDims, isDigitC]
  | cons c ds ih =>
    intro acc r
    have hc : isDigitC c = true := by simp [isDigitC, h c List.mem_cons_self]
    rw [List.cons_append, rmDims, if_pos hc, ih (fun c hc => h c (List.mem_cons_of_mem _ hc))]

theorem rmDims_dim (ds r : List Char) (h : ∀ c ∈ ds, '0' ≤ c ∧ c ≤ '9') : rmDims none ('[' :: ds ++ ']' :: r) = rmDims none r := by
  rw [List.cons_append, rmDims, if_pos rfl, rmDims_pending ds h]

theorem ident_facts {c : Char} (h : IdentChar c) : c ≠ '[' ∧ c ≠ ';' ∧ c ≠ ',' ∧ c ≠ ' ' ∧ c ≠ '/' ∧ isSpaceC c = false := by
  have : ∀ d : Char, ¬ IdentChar d → c ≠ d := fun d hd e => hd (e ▸ h)
  refine ⟨this _ (by decide), this _ (by decide), this _ (by decide), this _ (by decide), this _ (by decide), ?_⟩
  have h1 := this ' ' (by decide)
  have h2 := this '\n' (by decide)
  have h3 := this '\t' (by decide)
  have h4 := this '\r' (by decide)
  have h5 := this '\x0b' (by decide)
  have h6 := this '\x0c' (by decide)
  simp [isSpaceC, h1, h2, h3, h4, h5, h6]

theorem ws_facts {c : Char} (h : WsChar c) : c ≠ '[' ∧ c ≠ ';' ∧ c ≠ '/' ∧ isSpaceC c = true := by
  rcases h with rfl | rfl | rfl | rfl <;> decide

/-- A member without its dimensions. -/
def memberBare (m : Member) : List Char := List.replicate m.lead ' ' ++ m.name ++ (List.replicate m.gap ' ' ++ m.dims.flatMap fun d => List.replicate d.2 ' ')

theorem not_mem_replicate {c d : Char} (h : c ≠ d) (n : ℕ) : c ∉ List.replicate n d := fun hm => h (List.eq_of_mem_replicate hm)

theorem rmDims_member (m : Member) (h : m.OK) (r : List Char) : rmDims none (m.text ++ r) = memberBare m ++ rmDims none r := by
  unfold Member.text memberBare
  have hd : ∀ ds : List (List Char × ℕ), (∀ d ∈ ds, ∀ c ∈ d.1, '0' ≤ c ∧ c ≤ '9') → rmDims none ((ds.flatMap fun d => '[' :: d.1 ++ ']' :: List.replicate d.2 ' ') ++ r) =
      (ds.flatMap fun d => List.replicate d.2 ' ') ++ rmDims none r := by
    intro ds
    induction ds with
    | nil => intro _; rfl
    | cons d ds ih =>
      intro h
      rw [List.flatMap_cons, List.flatMap_cons, List.append_assoc, List.append_assoc, List.append_assoc, List.cons_append (as := List.replicate d.2 ' '), rmDims_dim _ _ (h d List.mem_cons_self),
        rmDims_code _ _ (not_mem_replicate (by decide) _), ih fun d hd => h d (List.mem_cons_of_mem _ hd)]
  rw [List.append_assoc, List.append_assoc, List.append_assoc, rmDims_code _ _ (not_mem_replicate (by decide) _),
    rmDims_code _ _ (fun hm => (ident_facts (h.chars _ hm)).1 rfl), rmDims_code _ _ (not_mem_replicate (by decide) _), hd m.dims h.dims]
  simp only [List.append_assoc]

/-- A declaration without dimensions and without the semicolon. -/
def declCore (d : Decl) : List Char :=
  constText d.const ++ (d.type ++ ' ' :: (memberBare d.first ++ (d.others.flatMap fun m => ',' :: memberBare m)))

theorem constText_chars (c : Option ℕ) (x : Char) (h : x ∈ constText c) : x ∈ "const ".toList := by
  cases c with
  | none => cases h
  | some k =>
    rcases List.mem_append.1 h with h | h
    · exact h
    · rw [List.eq_of_mem_replicate h]; decide

theorem rmDims_decl (d : Decl) (h : d.OK) (r : List Char) : rmDims none (d.text ++ r) = d.before ++ (declCore d ++ (d.after ++ ';' :: rmDims none r)) := by
  unfold Decl.text declCore
  have ho : ∀ (ms : List Member) (r : List Char), (∀ m ∈ ms, m.OK) → rmDims none ((ms.flatMap fun m => ',' :: m.text) ++ r) = (ms.flatMap fun m => ',' :: memberBare m) ++ rmDims none r := by
    intro ms r
    induction ms with
    | nil => intro _; rfl
    | cons m ms ih =>
      intro h
      rw [List.flatMap_cons, List.flatMap_cons, List.append_assoc, List.append_assoc, List.cons_append, List.cons_append, rmDims, if_neg (by decide),
        rmDims_member m (h m List.mem_cons_self), ih fun m hm => h m (List.mem_cons_of_mem _ hm)]
  simp only [List.append_assoc, List.cons_append, List.nil_append]
  rw [rmDims_code _ _ (fun hm => (ws_facts (h.before _ hm)).1 rfl),
    rmDims_code _ _ (fun hm => absurd (constText_chars _ _ hm) (by decide)),
    rmDims_code _ _ (fun hm => (ident_facts (h.chars _ hm)).1 rfl), rmDims, if_neg (by decide), rmDims_member _ h.first, ho _ _ h.others,
    rmDims_code _ _ (fun hm => (ws_facts (h.after _ hm)).1 rfl), rmDims, if_neg (by decide)]

theorem rmDims_decls (ds : List Decl) (h : ∀ d ∈ ds, d.OK) (tail : List Char) (ht : ∀ c ∈ tail, WsChar c) : rmDims none (ds.flatMap Decl.text ++ tail) =
    (ds.flatMap fun d => d.before ++ (declCore d ++ (d.after ++ [';']))) ++ tail := by
  induction ds with
  | nil =>
    have := rmDims_code tail [] (fun hm => (ws_facts (ht _ hm)).1 rfl)
    simpa [rmDims] using this
  | cons d ds ih =>
    rw [List.flatMap_cons, List.append_assoc, rmDims_decl d (h d List.mem_cons_self), ih fun d hd => h d (List.mem_cons_of_mem _ hd), List.flatMap_cons]
    simp [List.append_assoc]

/-! ### Splitting -/

theorem splitOnP_ne (sep : Char → Bool) (t : List Char) : splitOnP sep t ≠ [] := by
  cases t with
  | nil => simp [splitOnP]
  | cons c t =>
    rw [splitOnP]
    split
    · simp
    · split <;> simp

theorem splitOnP_append (sep : Char → Bool) (a b : List Char) (s : Char) (hs : sep s = true) : splitOnP sep (a ++ s :: b) = splitOnP sep a ++ splitOnP sep b := by
  induction a with
  | nil => simp [splitOnP, hs]
  | cons c a ih =>
    rw [List.cons_append, splitOnP, ih, splitOnP]
    by_cases hc : sep c = true
    · rw [if_pos hc, if_pos hc]; rfl
    · rw [if_neg hc, if_neg hc]
      have := splitOnP_ne sep a
      cases h : splitOnP sep a with
      | nil => exact absurd h this
      | cons l ls => rfl

theorem splitOnP_word (sep : Char → Bool) (w : List Char) (h : ∀ c ∈ w, sep c = false) : splitOnP sep w = [w] := by
  induction w with
  | nil => rfl
  | cons c w ih =>
    rw [splitOnP, if_neg (by rw [h c List.mem_cons_self]; simp), ih fun c hc => h c (List.mem_cons_of_mem _ hc)]

theorem words_sep (a b : List Char) (s : Char) (hs : s = ',' ∨ s = ' ') : words (a ++ s :: b) = words a ++ words b := by
  unfold words
  rw [splitOnP_append _ a b s (by rcases hs with rfl | rfl <;> rfl), List.filter_append]

theorem words_nil : words [] = [] := rfl

theorem words_word (w : List Char) (hn : w ≠ []) (h : ∀ c ∈ w, IdentChar c) : words w = [w] := by
  unfold words
  rw [splitOnP_word _ w fun c hc => by simp [(ident_facts (h c hc)).2.2.1, (ident_facts (h c hc)).2.2.2.1]]
  simp [hn]

theorem words_spaces (n : ℕ) (t : List Char) : words (List.replicate n ' ' ++ t) = words t := by
  induction n with
  | zero => rfl
  | succ n ih =>
    rw [List.replicate_succ, List.cons_append]
    have := words_sep [] (List.replicate n ' ' ++ t) ' ' (Or.inr rfl)
    rw [List.nil_append, words_nil, List.nil_append] at this
    rw [this, ih]

theorem words_member (m : Member) (h : m.OK) : words (memberBare m) = [m.name] := by
  have hr : ∀ n : ℕ, words (m.name ++ List.replicate n ' ') = [m.name] := by
    intro n
    cases n with
    | zero => rw [List.replicate_zero, List.append_nil, words_word _ h.name h.chars]
    | succ n =>
      rw [List.replicate_succ, words_sep _ _ _ (Or.inr rfl), words_word _ h.name h.chars]
      have := words_spaces n []
      rw [List.append_nil] at this
      rw [this, words_nil, List.append_nil]
  have hd : ∃ n, List.replicate m.gap ' ' ++ (m.dims.flatMap fun d => List.replicate d.2 ' ') = List.replicate n ' ' := by
    refine ⟨(List.replicate m.gap ' ' ++ (m.dims.flatMap fun d => List.replicate d.2 ' ')).length, ?_⟩
    refine List.eq_replicate_of_mem fun c hc => ?_
    rcases List.mem_append.1 hc with hc | hc
    · exact List.eq_of_mem_replicate hc
    · obtain ⟨d, -, hc⟩ := List.mem_flatMap.1 hc
      exact List.eq_of_mem_replicate hc
  obtain ⟨n, hn⟩ := hd
  unfold memberBare
  rw [List.append_assoc, words_spaces, hn, hr]

theorem words_members (ms : List Member) : ∀ (m : Member), m.OK → (∀ m ∈ ms, m.OK) →
    words (memberBare m ++ (ms.flatMap fun m => ',' :: memberBare m)) = m.name :: ms.map Member.name := by
  induction ms with
  | nil => intro m h _; rw [List.flatMap_nil, List.append_nil, words_member m h]; rfl
  | cons m' ms ih =>
    intro m h hs
    rw [List.flatMap_cons, List.cons_append, words_sep _ _ _ (Or.inl rfl), words_member m h,
      ih m' (hs m' List.mem_cons_self) fun m hm => hs m (List.mem_cons_of_mem _ hm)]
    rfl

theorem groupFields_core (d : Decl) (h : d.OK) : groupFields (declCore d) = d.names := by
  have e : words (d.type ++ ' ' :: (memberBare d.first ++ (d.others.flatMap fun m => ',' :: memberBare m))) = d.type :: d.names := by
    rw [words_sep _ _ _ (Or.inr rfl), words_word _ h.type h.chars, words_members _ _ h.first h.others]
    rfl
  unfold groupFields declCore
  cases d.const with
  | none =>
    simp only [constText, List.nil_append]
    rw [e]
    simp only [if_neg h.notConst]
  | some k =>
    have e2 : words (("const ".toList ++ List.replicate k ' ') ++ (d.type ++ ' ' :: (memberBare d.first ++ (d.others.flatMap fun m => ',' :: memberBare m)))) =
        "const".toList :: d.type :: d.names := by
      have : "const ".toList = "const".toList ++ [' '] := by decide
      rw [this, List.append_assoc, List.append_assoc, List.singleton_append, words_sep _ _ _ (Or.inr rfl), words_spaces, e, words_word _ (by decide) (by decide)]
      rfl
    simp only [constText]
    rw [e2]
    rfl

/-! ### Stripping -/

/-- `text.rstrip()`. -/
def rstrip (t : List Char) : List Char := (t.reverse.dropWhile isSpaceC).reverse

theorem rstrip_ws (t a : List Char) (h : ∀ c ∈ a, isSpaceC c = true) : rstrip (t ++ a) = rstrip t := by
  unfold rstrip
  rw [List.reverse_append, List.dropWhile_append_of_pos (by simpa using h)]

theorem words_rstrip (t : List Char) (h : ∀ c ∈ t, isSpaceC c = true → c = ' ') : words (rstrip t) = words t := by
  induction t using List.reverseRecOn with
  | nil => rfl
  | append_singleton t c ih =>
    by_cases hc : isSpaceC c = true
    · rw [rstrip_ws t [c] (by simpa using hc), ih fun c hc => h c (by simp [hc])]
      obtain rfl := h c (by simp) hc
      rw [words_sep _ _ _ (Or.inr rfl), words_nil, List.append_nil]
    · unfold rstrip
      rw [List.reverse_append, List.reverse_singleton, List.singleton_append, List.dropWhile_cons_of_neg hc]
      simp

theorem core_spaces (d : Decl) (h : d.OK) (c : Char) (hc : c ∈ declCore d) : isSpaceC c = true → c = ' ' := by
  have hi : ∀ {c}, IdentChar c → isSpaceC c = true → c = ' ' := fun h1 h2 => by rw [(ident_facts h1).2.2.2.2.2] at h2; cases h2
  have hm : ∀ m : Member, m.OK → ∀ c ∈ memberBare m, isSpaceC c = true → c = ' ' := by
    intro m hm c hc
    unfold memberBare at hc
    rcases List.mem_append.1 hc with hc | hc
    · rcases List.mem_append.1 hc with hc | hc
      · exact fun _ => List.eq_of_mem_replicate hc
      · exact hi (hm.chars c hc)
    · rcases List.mem_append.1 hc with hc | hc
      · exact fun _ => List.eq_of_mem_replicate hc
      · obtain ⟨d, -, hc⟩ := List.mem_flatMap.1 hc
        exact fun _ => List.eq_of_mem_replicate hc
  unfold declCore at hc
  rcases List.mem_append.1 hc with hc | hc
  · have := constText_chars _ _ hc
    revert this
    intro h1 h2
    have h3 : c ∈ ['c', 'o', 'n', 's', 't', ' '] := h1
    simp only [List.mem_cons, List.not_mem_nil, or_false] at h3
    rcases h3 with rfl | rfl | rfl | rfl | rfl | rfl <;> revert h2 <;> decide
  rcases List.mem_append.1 hc with hc | hc
  · exact hi (h.chars c hc)
  rcases List.mem_cons.1 hc with rfl | hc
  · exact fun _ => rfl
  rcases List.mem_append.1 hc with hc | hc
  · exact hm _ h.first c hc
  obtain ⟨m, h1, h2⟩ := List.mem_flatMap.1 hc
  rcases List.mem_cons.1 h2 with rfl | h2
  · decide
  · exact hm m (h.others m h1) c h2

theorem groupFields_decl (d : Decl) (h : d.OK) : groupFields (strip (d.before ++ (declCore d ++ d.after))) = d.names := by
  have hh : ∃ c t, declCore d = c :: t ∧ isSpaceC c = false := by
    unfold declCore
    cases d.const with
    | none =>
      obtain ⟨c, t, e⟩ := List.exists_cons_of_ne_nil h.type
      refine ⟨c, _, by rw [e]; rfl, (ident_facts (h.chars c (by rw [e]; exact List.mem_cons_self))).2.2.2.2.2⟩
    | some k => exact ⟨'c', _, rfl, rfl⟩
  obtain ⟨c, t, e, hc⟩ := hh
  have e1 : strip (d.before ++ (declCore d ++ d.after)) = rstrip (declCore d) := by
    unfold strip
    rw [List.dropWhile_append_of_pos fun c hc => (ws_facts (h.before c hc)).2.2.2]
    rw [show (declCore d ++ d.after).dropWhile isSpaceC = declCore d ++ d.after by rw [e, List.cons_append, List.dropWhile_cons_of_neg (by simp [hc])]]
    exact rstrip_ws _ _ fun c hc => (ws_facts (h.after c hc)).2.2.2
  rw [e1]
  have := groupFields_core d h
  unfold groupFields at this ⊢
  rw [words_rstrip _ (core_spaces d h)]
  exact this

theorem core_semicolon (d : Decl) (h : d.OK) : ';' ∉ declCore d := by
  have hm : ∀ m : Member, m.OK → ';' ∉ memberBare m := by
    intro m hm hc
    unfold memberBare at hc
    rcases List.mem_append.1 hc with hc | hc
    · rcases List.mem_append.1 hc with hc | hc
      · exact not_mem_replicate (by decide) _ hc
      · exact (ident_facts (hm.chars _ hc)).2.1 rfl
    · rcases List.mem_append.1 hc with hc | hc
      · exact not_mem_replicate (by decide) _ hc
      · obtain ⟨d, -, hc⟩ := List.mem_flatMap.1 hc
        exact not_mem_replicate (by decide) _ hc
  intro hc
  unfold declCore at hc
  rcases List.mem_append.1 hc with hc | hc
  · exact absurd (constText_chars _ _ hc) (by decide)
  rcases List.mem_append.1 hc with hc | hc
  · exact (ident_facts (h.chars _ hc)).2.1 rfl
  rcases List.mem_cons.1 hc with hc | hc
  · exact absurd hc (by decide)
  rcases List.mem_append.1 hc with hc | hc
  · exact hm _ h.first hc
  obtain ⟨m, h1, h2⟩ := List.mem_flatMap.1 hc
  rcases List.mem_cons.1 h2 with h2 | h2
  · exact absurd h2 (by decide)
  · exact hm m (h.others m h1) h2

theorem fields_of_text (ds : List Decl) (h : ∀ d ∈ ds, d.OK) (tail : List Char) (ht : ∀ c ∈ tail, WsChar c) :
    ((splitOnP (· == ';') ((ds.flatMap fun d => d.before ++ (declCore d ++ (d.after ++ [';']))) ++ tail)).map strip).flatMap groupFields = ds.flatMap Decl.names := by
  induction ds with
  | nil =>
    rw [List.flatMap_nil, List.nil_append, splitOnP_word _ _ (fun c hc => by simpa using (ws_facts (ht c hc)).2.1)]
    have : strip tail = [] := by
      unfold strip
      have := List.dropWhile_append_of_pos (l₂ := []) fun c hc => (ws_facts (ht c hc)).2.2.2
      rw [List.append_nil] at this
      rw [this]
      rfl
    simp [this, groupFields, words_nil]
  | cons d ds ih =>
    have hd := h d List.mem_cons_self
    have e : (List.flatMap (fun d => d.before ++ (declCore d ++ (d.after ++ [';']))) (d :: ds)) ++ tail =
        (d.before ++ (declCore d ++ d.after)) ++ ';' :: ((ds.flatMap fun d => d.before ++ (declCore d ++ (d.after ++ [';']))) ++ tail) := by
      simp [List.flatMap_cons, List.append_assoc]
    have hno : ∀ c ∈ d.before ++ (declCore d ++ d.after), (c == ';') = false := by
      intro c hc
      rw [beq_eq_false_iff_ne]
      rintro rfl
      rcases List.mem_append.1 hc with hc | hc
      · exact (ws_facts (hd.before _ hc)).2.1 rfl
      rcases List.mem_append.1 hc with hc | hc
      · exact core_semicolon d hd hc
      · exact (ws_facts (hd.after _ hc)).2.1 rfl
    rw [e, splitOnP_append _ _ _ ';' rfl, splitOnP_word _ _ hno, List.singleton_append, List.map_cons, List.flatMap_cons, groupFields_decl d hd,
      ih fun d hd => h d (List.mem_cons_of_mem _ hd), List.flatMap_cons]

theorem text_slash (d : Decl) (h : d.OK) : '/' ∉ d.text := by
  have hm : ∀ m : Member, m.OK → '/' ∉ m.text := by
    intro m hm hc
    unfold Member.text at hc
    simp only [List.append_assoc, List.mem_append] at hc
    rcases hc with hc | hc | hc | hc
    · exact not_mem_replicate (by decide) _ hc
    · exact (ident_facts (hm.chars _ hc)).2.2.2.2.1 rfl
    · exact not_mem_replicate (by decide) _ hc
    · obtain ⟨d, hd, hc⟩ := List.mem_flatMap.1 hc
      simp only [List.cons_append, List.mem_cons, List.mem_append] at hc
      rcases hc with hc | hc | hc | hc
      · exact absurd hc (by decide)
      · exact absurd (hm.dims d hd _ hc) (by decide)
      · exact absurd hc (by decide)
      · exact not_mem_replicate (by decide) _ hc
  intro hc
  unfold Decl.text at hc
  simp only [List.append_assoc, List.mem_append, List.cons_append, List.mem_cons, List.nil_append] at hc
  rcases hc with hc | hc | hc | hc | hc | hc | hc | hc | hc
  · exact (ws_facts (h.before _ hc)).2.2.1 rfl
  · exact absurd (constText_chars _ _ hc) (by decide)
  · exact (ident_facts (h.chars _ hc)).2.2.2.2.1 rfl
  · exact absurd hc (by decide)
  · exact hm _ h.first hc
  · obtain ⟨m, h1, h2⟩ := List.mem_flatMap.1 hc
    rcases List.mem_cons.1 h2 with h2 | h2
    · exact absurd h2 (by decide)
    · exact hm m (h.others m h1) h2
  · exact (ws_facts (h.after _ hc)).2.2.1 rfl
  · exact absurd hc (by decide)
  · cases hc

/-- C31: the members found in the text of a struct are the declared ones, in order. -/
theorem c31_fields (ds : List Decl) (body : List Char) (h : BodyText ds body) : structFields body = ds.flatMap Decl.names := by
  obtain ⟨ps, tail, hp, ht, rfl, e⟩ := h.split
  have hs : '/' ∉ ps.flatMap Piece.bare := by
    rw [e]
    intro hc
    rcases List.mem_append.1 hc with hc | hc
    · obtain ⟨d, h1, h2⟩ := List.mem_flatMap.1 hc
      exact text_slash d (h.ok d h1) h2
    · exact (ws_facts (ht _ hc)).2.2.1 rfl
  unfold structFields
  rw [rmComments_pieces ps hp hs, e, rmDims_decls ds h.ok tail ht, fields_of_text ds h.ok tail ht]

/-! ### A struct with two declarations and two comments -/

/-- `double a, b [3];` -/
def demoDecl1 : Decl := ⟨"\n  ".toList, none, "double".toList, ⟨0, "a".toList, 0, []⟩, [⟨1, "b".toList, 1, [("3".toList, 0)]⟩], []⟩
/-- `const int c[2][];` -/
def demoDecl2 : Decl := ⟨"  ".toList, some 0, "int".toList, ⟨0, "c".toList, 0, [("2".toList, 0), ([], 0)]⟩, [], "\n".toList⟩

def demoBody : List Char := "\n  double a, b [3];/* two; things */  const int c[2][]\n;\n/**/".toList

theorem demoBody_ok : BodyText [demoDecl1, demoDecl2] demoBody where
  ok := by
    intro d hd
    simp only [List.mem_cons, List.not_mem_nil, or_false] at hd
    rcases hd with rfl | rfl
    · exact ⟨by unfold WsChar; decide, by unfold WsChar; decide, by decide, by decide, by decide, ⟨by decide, by decide, by decide⟩, by
        intro m hm
        simp only [demoDecl1, List.mem_cons, List.not_mem_nil, or_false] at hm
        subst hm
        exact ⟨by decide, by decide, by decide⟩⟩
    · exact ⟨by unfold WsChar; decide, by unfold WsChar; decide, by decide, by decide, by decide, ⟨by decide, by decide, by decide⟩, by
        intro m hm
        simp [demoDecl2] at hm⟩
  split := ⟨[.code "\n  double a, b [3];".toList, .comment " two; things ".toList, .code "  const int c[2][]\n;\n".toList, .comment []], "\n".toList, by
    intro p hp
    simp only [List.mem_cons, List.not_mem_nil, or_false] at hp
    rcases hp with rfl | rfl | rfl | rfl
    · trivial
    · show ¬ _ <:+: _
      decide
    · trivial
    · show ¬ _ <:+: _
      decide, by unfold WsChar; decide, by decide, by decide⟩

example : structFields demoBody = ["a".toList, "b".toList, "c".toList] := by
  rw [c31_fields _ _ demoBody_ok]
  decide

/-- A line break inside a declaration is outside the grammar: it is taken for a member. -/
theorem c31_linebreak : structFields "double a,\n b;".toList = ["a".toList, "\n".toList, "b".toList] := by decide

/-- What the records expose: the registered members, in order, or nothing. -/
theorem c31_exposes (R : ParamMap) (c : CFields) : (getParams R c).map Prod.fst = (R c.info.init).getD [] := by
  unfold getParams
  cases R c.info.init with
  | none => rfl
  | some fields => simp [Function.comp_def]

/-! ## C45: init functions and structs -/

theorem isWordC_iff (c : Char) : isWordC c = true ↔ IdentChar c := by
  simp only [isWordC, isDigitC, IdentChar, Bool.or_eq_true, Bool.and_eq_true, decide_eq_true_eq, beq_iff_eq]
  tauto

theorem isWordC_false {c : Char} (h : ¬ IdentChar c) : isWordC c = false := by
  rw [← isWordC_iff] at h
  simpa using h

/-- A word followed by an opening parenthesis. -/
theorem prefix_paren {i p w r : List Char} (hi : '(' ∉ i) (hw : '(' ∉ w) (h : i ++ '(' :: p <+: w ++ '(' :: r) : i = w ∧ p <+: r := by
  induction i generalizing w with
  | nil =>
    cases w with
    | nil => simpa using h
    | cons c w =>
      simp only [List.nil_append, List.cons_append, List.cons_prefix_cons] at h
      exact absurd h.1 (by simp at hw; exact hw.1)
  | cons a i ih =>
    cases w with
    | nil =>
      simp only [List.nil_append, List.cons_append, List.cons_prefix_cons] at h
      exact absurd h.1.symm (by simp at hi; exact hi.1)
    | cons c w =>
      simp only [List.cons_append, List.cons_prefix_cons, List.mem_cons, not_or] at h hi hw
      obtain ⟨rfl, h2⟩ := ih hi.2 hw.2 h.2
      exact ⟨by rw [h.1], h2⟩

theorem initHead_eq : initHead = "_init".toList ++ '(' :: "xc_func_type *p)".toList := by decide

theorem ident_noParen {t : List Char} (h : ∀ c ∈ t, IdentChar c) : '(' ∉ t := fun hm => absurd (h _ hm) (by decide)

theorem lazyInit_eq (t : List Char) : lazyInit t = match t with
    | [] => none
    | c :: cs => if initHead <+: c :: cs then some ("_init".toList, (c :: cs).drop initHead.length)
      else if isWordC c then (lazyInit cs).map fun x => (c :: x.1, x.2) else none := by
  cases t with
  | nil => rfl
  | cons c cs =>
    rw [lazyInit]
    simp only [List.isPrefixOf_iff_prefix]
    rfl

/-- The name of the function is found. -/
theorem lazyInit_name (name r : List Char) (h : ∀ c ∈ name, IdentChar c) : lazyInit (name ++ (initHead ++ r)) = some (name ++ "_init".toList, r) := by
  induction name with
  | nil =>
    have e : ∃ c cs, [] ++ (initHead ++ r) = c :: cs := ⟨'_', _, rfl⟩
    obtain ⟨c, cs, e⟩ := e
    rw [lazyInit_eq, e]
    simp only
    rw [← e, if_pos (by simp)]
    simp
  | cons c name ih =>
    have ih := ih fun c hc => h c (List.mem_cons_of_mem _ hc)
    have hw : ∀ x ∈ c :: (name ++ "_init".toList), IdentChar x := by
      intro x hx
      rcases List.mem_cons.1 hx with rfl | hx
      · exact h _ List.mem_cons_self
      rcases List.mem_append.1 hx with hx | hx
      · exact h _ (List.mem_cons_of_mem _ hx)
      · exact (by decide : ∀ x ∈ "_init".toList, IdentChar x) x hx
    rw [List.cons_append, lazyInit_eq]
    simp only
    rw [if_neg, if_pos ((isWordC_iff c).2 (h c List.mem_cons_self)), ih]
    · rfl
    · intro hp
      rw [initHead_eq, show c :: (name ++ ("_init".toList ++ '(' :: "xc_func_type *p)".toList ++ r)) = (c :: (name ++ "_init".toList)) ++ '(' :: ("xc_func_type *p)".toList ++ r) by simp] at hp
      have := (prefix_paren (by decide) (ident_noParen hw) hp).1
      have hl := congrArg List.length this
      simp at hl

/-- Nothing is found in the gap. -/
theorem lazyInit_gap (u r : List Char) (hu : ∃ c ∈ u, ¬ IdentChar c) (hp : ∀ v, v ≠ [] → v <:+ u → ¬ initHead <+: v ++ r) : lazyInit (u ++ r) = none := by
  induction u with
  | nil => obtain ⟨c, hc, -⟩ := hu; cases hc
  | cons c u ih =>
    rw [List.cons_append, lazyInit_eq]
    simp only
    rw [if_neg (by simpa using hp (c :: u) (by simp) List.suffix_rfl)]
    by_cases hc : IdentChar c
    · rw [if_pos ((isWordC_iff c).2 hc), ih]
      · rfl
      · obtain ⟨x, hx, hn⟩ := hu
        rcases List.mem_cons.1 hx with rfl | hx
        · exact absurd hc hn
        · exact ⟨x, hx, hn⟩
      · exact fun v hv hs => hp v hv (hs.trans (List.suffix_cons c u))
    · rw [isWordC_false hc]
      rfl

theorem afterFirst_eq (w t : List Char) (h : ¬ w <:+: t ++ w.dropLast) (r : List Char) (hw : w ≠ []) : afterFirst w (t ++ (w ++ r)) = some r := by
  induction t with
  | nil =>
    obtain ⟨c, cs, e⟩ := List.exists_cons_of_ne_nil hw
    subst e
    show afterFirst (c :: cs) (c :: (cs ++ r)) = _
    rw [afterFirst, if_pos (by simp)]
    simp
  | cons c t ih =>
    rw [List.cons_append, afterFirst, if_neg, ih]
    · exact fun hi => h (hi.trans (List.suffix_cons c _).isInfix)
    · rw [List.isPrefixOf_iff_prefix]
      intro hp
      apply h
      have e : c :: (t ++ (w ++ r)) = (c :: t ++ w.dropLast) ++ (w.getLast hw :: r) := by
        conv_lhs => rw [← List.dropLast_append_getLast hw]
        simp
      rw [e] at hp
      have hl : w.length ≤ (c :: t ++ w.dropLast).length := by
        have := List.length_pos_of_ne_nil hw
        simp
        omega
      exact (List.prefix_of_prefix_length_le hp (List.prefix_append _ _) hl).isInfix

theorem afterFirst_none (w t : List Char) (h : ¬ w <:+: t) (hw : w ≠ []) : afterFirst w t = none := by
  induction t with
  | nil => rw [afterFirst, if_neg hw]
  | cons c t ih =>
    rw [afterFirst, if_neg, ih fun hi => h (hi.trans (List.suffix_cons c t).isInfix)]
    rw [List.isPrefixOf_iff_prefix]
    exact fun hp => h hp.isInfix

theorem findInitsGo_skip (a r : List Char) : findInitsGo a.length (a ++ r) = findInitsGo 0 r := by
  induction a with
  | nil => rfl
  | cons c a ih => rw [List.length_cons, List.cons_append, findInitsGo, ih]

theorem findInitsGo_gap (u r : List Char) (h : ∀ v, v ≠ [] → v <:+ u → matchInit (v ++ r) = none) : findInitsGo 0 (u ++ r) = findInitsGo 0 r := by
  induction u with
  | nil => rfl
  | cons c u ih =>
    have := h (c :: u) (by simp) List.suffix_rfl
    rw [List.cons_append] at this
    rw [List.cons_append, findInitsGo, this]
    exact ih fun v hv hs => h v hv (hs.trans (List.suffix_cons c u))

theorem paren_in_head : ∀ k, initHead[k]? = some '(' → k = 5 := by
  intro k hk
  have hk' : k < initHead.length := (List.getElem?_eq_some_iff.1 hk).1
  have : ∀ k < initHead.length, initHead[k]? = some '(' → k = 5 := by decide
  exact this k hk' hk

theorem matchInit_gap (d : InitDef) (h : d.OK) (r : List Char) (v : List Char) (hv : v ≠ []) (hs : v <:+ d.gap) : matchInit (v ++ (d.name ++ (initHead ++ r))) = none := by
  have : lazyInit (v ++ (d.name ++ (initHead ++ r))) = none := by
    refine lazyInit_gap v _ ?_ ?_
    · obtain ⟨c, hc, hn⟩ := h.gapLast
      refine ⟨c, ?_, hn⟩
      obtain ⟨a, e⟩ := hs
      rw [← e, List.getLast?_append_of_ne_nil _ hv] at hc
      exact List.mem_of_getLast? hc
    · intro w hw hws hp
      have hsuf := hws.trans hs
      apply h.gap
      have e : w ++ (d.name ++ (initHead ++ r)) = (w ++ (d.name ++ "_init".toList)) ++ '(' :: ("xc_func_type *p)".toList ++ r) := by
        rw [initHead_eq]; simp
      rw [e] at hp
      by_cases hl : initHead.length ≤ (w ++ (d.name ++ "_init".toList)).length
      · have h1 := List.prefix_of_prefix_length_le hp (List.prefix_append _ _) hl
        obtain ⟨a, ea⟩ := hsuf
        refine h1.isInfix.trans ?_
        rw [← ea, List.append_assoc]
        exact (List.suffix_append _ _).isInfix
      · exfalso
        obtain ⟨t, et⟩ := hp
        have hk := congrArg (fun l => l[(w ++ (d.name ++ "_init".toList)).length]?) et
        rw [List.getElem?_append_left (by omega), List.getElem?_append_right (by omega)] at hk
        simp only [Nat.sub_self, List.getElem?_cons_zero] at hk
        have h5 := paren_in_head _ hk
        have := List.length_pos_of_ne_nil hw
        simp at h5
        omega
  unfold matchInit
  rw [this]
  rfl

theorem matchInit_def (d : InitDef) (h : d.OK) (r : List Char) (hr : ∀ c ∈ r.head?, ¬ IdentChar c) :
    matchInit (d.name ++ (initHead ++ (d.body ++ (allocHead ++ (d.struct ++ r))))) = some (d.name ++ "_init".toList, d.struct, r) := by
  unfold matchInit
  rw [lazyInit_name _ _ h.name]
  simp only [bind, Option.bind]
  have := afterFirst_eq allocHead d.body h.body (d.struct ++ r) (by decide)
  rw [show "libxc_malloc(sizeof(".toList = allocHead from rfl, this]
  have hp : ∀ c ∈ d.struct, isWordC c = true := fun c hc => (isWordC_iff c).2 (h.struct c hc)
  simp only
  rw [List.takeWhile_append_of_pos hp, List.dropWhile_append_of_pos hp]
  cases r with
  | nil => simp
  | cons c r =>
    have hc := isWordC_false (hr c rfl)
    rw [List.takeWhile_cons_of_neg (by simp [hc]), List.dropWhile_cons_of_neg (by simp [hc]), List.append_nil]

theorem findInitsGo_def (d : InitDef) (h : d.OK) (r : List Char) (hr : ∀ c ∈ r.head?, ¬ IdentChar c) :
    findInitsGo 0 (d.text ++ r) = (d.name ++ "_init".toList, d.struct) :: findInitsGo 0 r := by
  have e : d.text ++ r = d.gap ++ (d.name ++ (initHead ++ (d.body ++ (allocHead ++ (d.struct ++ r))))) := by
    unfold InitDef.text; simp only [List.append_assoc]
  rw [e, findInitsGo_gap]
  · have hm := matchInit_def d h r hr
    obtain ⟨c, cs, ec⟩ : ∃ c cs, d.name ++ (initHead ++ (d.body ++ (allocHead ++ d.struct))) = c :: cs := by
      cases d.name with
      | nil => exact ⟨'_', _, rfl⟩
      | cons c cs => exact ⟨c, _, rfl⟩
    have e2 : d.name ++ (initHead ++ (d.body ++ (allocHead ++ (d.struct ++ r)))) = c :: (cs ++ r) := by
      rw [← List.cons_append, ← ec]; simp only [List.append_assoc]
    rw [e2] at hm ⊢
    rw [findInitsGo, hm]
    simp only
    have : (c :: (cs ++ r)).length - r.length - 1 = cs.length := by simp; omega
    rw [this, findInitsGo_skip]
  · exact fun v hv hs => matchInit_gap d h _ v hv hs

/-- C45: if every init function before the last allocation allocates its parameters, each is paired with the struct that it allocates. -/
theorem c45_inits (ds : List InitDef) (h : ∀ d ∈ ds, d.OK) (tail : List Char) (hh : ∀ c ∈ tail.head?, ¬ IdentChar c)
    (ht : ¬ initHead <:+: tail ∨ ¬ allocHead <:+: tail) : findInits (ds.flatMap InitDef.text ++ tail) = ds.map fun d => (d.name ++ "_init".toList, d.struct) := by
  unfold findInits
  induction ds with
  | nil =>
    rw [List.flatMap_nil, List.nil_append]
    have := findInitsGo_gap tail [] (fun v hv hs => ?_)
    · rw [List.append_nil] at this
      rw [this]; rfl
    rw [List.append_nil]
    unfold matchInit
    rcases ht with ht | ht
    · have hn : lazyInit v = none := by
        clear hv
        induction v with
        | nil => rfl
        | cons c v ih =>
          rw [lazyInit_eq]
          simp only
          rw [if_neg fun hp => ht (hp.isInfix.trans hs.isInfix), ih ((List.suffix_cons c v).trans hs)]
          split <;> rfl
      rw [hn]; rfl
    · have hm : ∀ x : List Char × List Char, lazyInit v = some x → afterFirst allocHead x.2 = none := by
        intro x hx
        refine afterFirst_none _ _ (fun hi => ht (hi.trans ?_)) (by decide)
        have hsuf : ∀ (v : List Char) x, lazyInit v = some x → x.2 <:+ v := by
          intro v
          induction v with
          | nil => intro x hx; cases hx
          | cons c v ih =>
            intro x hx
            rw [lazyInit_eq] at hx
            simp only at hx
            split at hx
            · cases hx; exact List.drop_suffix _ _
            split at hx
            · obtain ⟨y, hy, rfl⟩ := Option.map_eq_some_iff.1 hx
              exact (ih y hy).trans (List.suffix_cons c v)
            · cases hx
        exact ((hsuf v x hx).trans hs).isInfix
      cases hl : lazyInit v with
      | none => rfl
      | some x =>
        have := hm x hl
        simp only [bind, Option.bind]
        rw [show "libxc_malloc(sizeof(".toList = allocHead from rfl, this]
  | cons d ds ih =>
    rw [List.flatMap_cons, List.append_assoc, findInitsGo_def d (h d List.mem_cons_self), ih fun d hd => h d (List.mem_cons_of_mem _ hd), List.map_cons]
    intro c hc
    cases ds with
    | nil => exact hh c hc
    | cons d' ds =>
      obtain ⟨c', h1, h2⟩ := (h d' (by simp)).gapFirst
      have : (List.flatMap InitDef.text (d' :: ds) ++ tail).head? = some c' := by
        rw [List.flatMap_cons]
        unfold InitDef.text
        cases hg : d'.gap with
        | nil => rw [hg] at h1; cases h1
        | cons a l => rw [hg] at h1; simpa using h1
      rw [this] at hc
      cases hc
      exact h2

/-- Two init functions that allocate the same struct, and one at the end that allocates nothing. -/
def demoInits : List InitDef := [⟨"\nstatic void\n".toList, "gga_x_a".toList, "\n{ p->params = ".toList, "a_params".toList⟩,
  ⟨")); }\nstatic void ".toList, "gga_x_b".toList, "{ assert(p != NULL); p->params = ".toList, "a_params".toList⟩]

example : findInits (demoInits.flatMap InitDef.text ++ ")); } void c_init(xc_func_type *p) { }".toList) =
    [("gga_x_a_init".toList, "a_params".toList), ("gga_x_b_init".toList, "a_params".toList)] := by
  have := c45_inits demoInits (by
    intro d hd
    simp only [demoInits, List.mem_cons, List.not_mem_nil, or_false] at hd
    rcases hd with rfl | rfl
    · exact ⟨by decide, by decide, ⟨'\n', by decide, by decide⟩, ⟨'\n', by decide, by decide⟩, by decide, by decide⟩
    · exact ⟨by decide, by decide, ⟨')', by decide, by decide⟩, ⟨' ', by decide, by decide⟩, by decide, by decide⟩)
    ")); } void c_init(xc_func_type *p) { }".toList (by decide) (Or.inr (by decide))
  rw [this]
  decide

/-- An init function that allocates nothing is paired with the struct of the next one, which is then missing. -/
theorem c45_wrong : findInits "a_init(xc_func_type *p) {} b_init(xc_func_type *p) { p->params = libxc_malloc(sizeof(b_params)); }".toList =
    [("a_init".toList, "b_params".toList)] := by decide +kernel

end Verif.Props
