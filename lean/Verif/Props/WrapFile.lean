import Verif.Props.Wrap
/-!
# C45, C46: definitions of structs, and registration of formulas (`gen_repo/libxc/wrap.py`)
-/
namespace Verif.Props
open Verif.Py Verif.Model Verif.Spec

/-- `typedef struct` -/
def tdef : List Char := "typedef struct".toList

/-- The text that defines the struct `s`. -/
structure StructText (s body content : List Char) : Prop where
  ident : ∀ c ∈ s, IdentChar c
  nonempty : s ≠ []
  closed : '}' ∉ body
  split : ∃ pre ws ws' post : List Char, (∀ c ∈ ws, WsChar c) ∧ (∀ c ∈ ws', WsChar c) ∧ ¬ tdef <:+: pre ++ tdef.dropLast ∧ ¬ tdef <:+: post ∧
    content = pre ++ (tdef ++ (ws ++ '{' :: (body ++ '}' :: (ws' ++ (s ++ post)))))

theorem lazyBody_eq (s body ws' post : List Char) (hi : ∀ c ∈ s, IdentChar c) (hn : s ≠ []) (hb : '}' ∉ body) (hw : ∀ c ∈ ws', WsChar c) :
    lazyBody s (body ++ '}' :: (ws' ++ (s ++ post))) = some (body, post) := by
  induction body with
  | nil =>
    obtain ⟨c, cs, rfl⟩ := List.exists_cons_of_ne_nil hn
    have e : (ws' ++ (c :: cs ++ post)).dropWhile isSpaceC = c :: cs ++ post := by
      rw [List.dropWhile_append_of_pos fun c hc => (ws_facts (hw c hc)).2.2.2, List.cons_append,
        List.dropWhile_cons_of_neg (by simp [(ident_facts (hi c List.mem_cons_self)).2.2.2.2.2])]
    rw [List.nil_append, lazyBody, e, if_pos ⟨rfl, by rw [List.isPrefixOf_iff_prefix]; exact List.prefix_append _ _⟩]
    simp
  | cons c body ih =>
    simp only [List.mem_cons, not_or] at hb
    rw [List.cons_append, lazyBody, if_neg (fun e => hb.1 e.1.symm), ih hb.2]
    rfl

theorem matchStruct_none (s t : List Char) (h : ¬ tdef <+: t) : matchStruct s t = none := by
  unfold matchStruct
  rw [if_neg]
  rw [List.isPrefixOf_iff_prefix]
  exact h

theorem findStructsGo_skip (s a r : List Char) : findStructsGo s a.length (a ++ r) = findStructsGo s 0 r := by
  induction a with
  | nil => rfl
  | cons c a ih => rw [List.length_cons, List.cons_append, findStructsGo, ih]

theorem findStructsGo_gap (s u r : List Char) (h : ∀ v, v ≠ [] → v <:+ u → matchStruct s (v ++ r) = none) :
    findStructsGo s 0 (u ++ r) = findStructsGo s 0 r := by
  induction u with
  | nil => rfl
  | cons c u ih =>
    have := h (c :: u) (by simp) List.suffix_rfl
    rw [List.cons_append] at this
    rw [List.cons_append, findStructsGo, this]
    exact ih fun v hv hs => h v hv (hs.trans (List.suffix_cons c u))

/-- The first definition of `s`, and what is found after it. -/
theorem findStructs_cons (s body pre ws ws' post : List Char) (hi : ∀ c ∈ s, IdentChar c) (hn : s ≠ []) (hb : '}' ∉ body) (hw : ∀ c ∈ ws, WsChar c)
    (hw' : ∀ c ∈ ws', WsChar c) (hpre : ¬ tdef <:+: pre ++ tdef.dropLast) :
    findStructs s (pre ++ (tdef ++ (ws ++ '{' :: (body ++ '}' :: (ws' ++ (s ++ post)))))) = body :: findStructs s post := by
  unfold findStructs
  rw [findStructsGo_gap]
  · have hm : matchStruct s (tdef ++ (ws ++ '{' :: (body ++ '}' :: (ws' ++ (s ++ post))))) = some (body, post) := by
      unfold matchStruct
      rw [if_pos (by rw [List.isPrefixOf_iff_prefix]; exact List.prefix_append _ _)]
      have e : (tdef ++ (ws ++ '{' :: (body ++ '}' :: (ws' ++ (s ++ post))))).drop "typedef struct".length = ws ++ '{' :: (body ++ '}' :: (ws' ++ (s ++ post))) :=
        List.drop_left
      rw [e, List.dropWhile_append_of_pos fun c hc => (ws_facts (hw c hc)).2.2.2, List.dropWhile_cons_of_neg (by decide)]
      exact lazyBody_eq s body ws' post hi hn hb hw'
    have e2 : tdef ++ (ws ++ '{' :: (body ++ '}' :: (ws' ++ (s ++ post)))) = 't' :: (("ypedef struct".toList ++ (ws ++ '{' :: (body ++ '}' :: (ws' ++ s)))) ++ post) := by
      rw [show tdef = 't' :: "ypedef struct".toList by decide]
      simp
    rw [e2] at hm ⊢
    rw [findStructsGo, hm]
    simp only
    have hl : ('t' :: (("ypedef struct".toList ++ (ws ++ '{' :: (body ++ '}' :: (ws' ++ s)))) ++ post)).length - post.length - 1 =
        ("ypedef struct".toList ++ (ws ++ '{' :: (body ++ '}' :: (ws' ++ s)))).length := by
      simp only [List.length_cons, List.length_append]; omega
    rw [hl, findStructsGo_skip]
  · intro v hv hs
    refine matchStruct_none s _ fun hp => hpre ?_
    have e : v ++ (tdef ++ (ws ++ '{' :: (body ++ '}' :: (ws' ++ (s ++ post))))) = (v ++ tdef.dropLast) ++ ('t' :: (ws ++ '{' :: (body ++ '}' :: (ws' ++ (s ++ post))))) := by
      rw [show tdef = tdef.dropLast ++ ['t'] by decide]
      simp
    rw [e] at hp
    have hl : tdef.length ≤ (v ++ tdef.dropLast).length := by
      have := List.length_pos_of_ne_nil hv
      rw [List.length_append, List.length_dropLast]
      omega
    have h1 := List.prefix_of_prefix_length_le hp (List.prefix_append _ _) hl
    obtain ⟨a, ea⟩ := hs
    refine h1.isInfix.trans ?_
    rw [← ea, List.append_assoc]
    exact (List.suffix_append _ _).isInfix

/-- C45: the definition of a struct is found if it is the only `typedef struct` of the file. -/
theorem c45_struct (s body content : List Char) (h : StructText s body content) : findStructs s content = [body] := by
  obtain ⟨pre, ws, ws', post, hw, hw', hpre, hpost, rfl⟩ := h.split
  rw [findStructs_cons s body pre ws ws' post h.ident h.nonempty h.closed hw hw' hpre]
  have := findStructsGo_gap s post [] fun v _ hs => by
    rw [List.append_nil]
    exact matchStruct_none s v fun hp => hpost (hp.isInfix.trans hs.isInfix)
  rw [List.append_nil] at this
  unfold findStructs
  rw [this]
  rfl

/-- A file that defines a struct twice is rejected, if an init function allocates it. -/
theorem c45_twice (s body pre ws ws' post body' content : List Char) (hi : ∀ c ∈ s, IdentChar c) (hn : s ≠ []) (hb : '}' ∉ body) (hw : ∀ c ∈ ws, WsChar c)
    (hw' : ∀ c ∈ ws', WsChar c) (hpre : ¬ tdef <:+: pre ++ tdef.dropLast) (h2 : StructText s body' post)
    (hc : content = pre ++ (tdef ++ (ws ++ '{' :: (body ++ '}' :: (ws' ++ (s ++ post)))))) (f : List Char) (hf : (f, s) ∈ findInits content) :
    ∃ e, wrapFile content = .error e := by
  have h : findStructs s content = [body, body'] := by
    rw [hc, findStructs_cons s body pre ws ws' post hi hn hb hw hw' hpre, c45_struct s body' post h2]
  unfold wrapFile
  simp only [bind, Except.bind]
  split
  · exact ⟨_, rfl⟩
  have key : ∀ l : List (List Char), s ∈ l → ∃ e, l.mapM (registerStruct content (findInits content)) = .error e := by
    intro l
    induction l with
    | nil => intro h; cases h
    | cons x l ih =>
      intro hm
      rw [List.mapM_cons]
      by_cases hx : x = s
      · subst hx
        refine ⟨.runtimeError, ?_⟩
        unfold registerStruct
        rw [h]
        rfl
      · obtain ⟨e, he⟩ := ih ((List.mem_cons.1 hm).resolve_left fun e => hx e.symm)
        simp only [bind, Except.bind, he]
        split
        · exact ⟨_, rfl⟩
        · exact ⟨_, rfl⟩
  obtain ⟨e, he⟩ := key ((findInits content).map (·.2)).dedup (List.mem_dedup.2 (List.mem_map.2 ⟨_, hf, rfl⟩))
  rw [he]
  exact ⟨e, rfl⟩

/-- With two structs in a file, the text found for the second one starts at the first one. -/
theorem c45_struct_wrong : findStructs "B".toList "typedef struct { double a; } A; typedef struct { double b; } B;".toList =
    [" double a; } A; typedef struct { double b; ".toList] := by decide +kernel

/-- C31 and C45 for a file: what is registered for the struct `s` are its members and the init functions that allocate it. -/
theorem c31_file (content s body : List Char) (ds : List Decl) (fs : List InitDef) (tail : List Char) (hs : StructText s body content) (hb : BodyText ds body)
    (hc : content = fs.flatMap InitDef.text ++ tail) (hf : ∀ d ∈ fs, d.OK) (hh : ∀ c ∈ tail.head?, ¬ IdentChar c)
    (ht : ¬ initHead <:+: tail ∨ ¬ allocHead <:+: tail) :
    registerStruct content (findInits content) s = .ok (s, ds.flatMap Decl.names, (fs.filter fun d => d.struct = s).map fun d => d.name ++ "_init".toList) := by
  unfold registerStruct
  rw [c45_struct s body content hs]
  simp only
  rw [c31_fields ds body hb, hc, c45_inits fs hf tail hh ht]
  simp only [List.filter_map, List.map_map, Function.comp_def]

/-- C45: each struct that an init function of the file allocates is registered once, and no other. -/
theorem c45_once (content : List Char) (fs : List InitDef) (tail : List Char) (R : Registrations) (h : wrapFile content = .ok R)
    (hc : content = fs.flatMap InitDef.text ++ tail) (hf : ∀ d ∈ fs, d.OK) (hh : ∀ c ∈ tail.head?, ¬ IdentChar c)
    (ht : ¬ initHead <:+: tail ∨ ¬ allocHead <:+: tail) :
    (R.structs.map (·.1)).Nodup ∧ ∀ s, s ∈ R.structs.map (·.1) ↔ ∃ d ∈ fs, d.struct = s := by
  have key : ∀ (l : List (List Char)) (res : List (List Char × List Char)) (o : List _), l.mapM (registerStruct content res) = .ok o → o.map (·.1) = l := by
    intro l res
    induction l with
    | nil => intro o h; cases h; rfl
    | cons x l ih =>
      intro o h
      rw [List.mapM_cons] at h
      simp only [bind, Except.bind] at h
      split at h
      · cases h
      rename_i y hy
      split at h
      · cases h
      rename_i ys hys
      cases h
      rw [List.map_cons, ih ys hys]
      congr 1
      unfold registerStruct at hy
      split at hy
      · cases hy; rfl
      · cases hy
  unfold wrapFile at h
  simp only [bind, Except.bind] at h
  split at h
  · cases h
  split at h
  · cases h
  rename_i o ho
  cases h
  rw [key _ _ _ ho]
  refine ⟨List.nodup_dedup _, fun s => ?_⟩
  rw [List.mem_dedup, hc, c45_inits fs hf tail hh ht]
  simp only [List.map_map, List.mem_map, Function.comp_apply]

/-! ## C46 -/

theorem lastSlashC_none (t : List Char) (h : '/' ∉ t) : lastSlashC t = none := by
  induction t with
  | nil => rfl
  | cons c t ih =>
    simp only [List.mem_cons, not_or] at h
    rw [lastSlashC, ih h.2]
    simp only
    rw [if_neg (Ne.symm h.1)]

theorem lastAnyC_eq (t : List Char) : lastAnyC (t ++ ".c\"".toList) = some t := by
  induction t with
  | nil => decide
  | cons c t ih => rw [List.cons_append, lastAnyC, ih]

theorem lastSlashC_eq (dir name : List Char) (h : '/' ∉ name) : lastSlashC (dir ++ '/' :: (name ++ ".c\"".toList)) = some name := by
  induction dir with
  | nil =>
    rw [List.nil_append, lastSlashC, lastSlashC_none]
    · simp only [if_true]
      exact lastAnyC_eq name
    · intro hm
      rcases List.mem_append.1 hm with hm | hm
      · exact h hm
      · exact absurd hm (by decide)
  | cons c dir ih => rw [List.cons_append, lastSlashC, ih]

theorem lastDotC_eq (t : List Char) : lastDotC (t ++ ".c\"".toList) = some t := by
  induction t with
  | nil => decide
  | cons c t ih => rw [List.cons_append, lastDotC, ih]

/-- The line that includes the formula `name`. -/
def mapleInclude (dir name : List Char) : List Char := "#include \"maple2c/".toList ++ (dir ++ '/' :: (name ++ ".c\"".toList))
/-- The line that includes the work table `work_w`. -/
def workInclude (w : List Char) : List Char := "#include \"work_".toList ++ (w ++ ".c\"".toList)

/-- A line that includes neither. -/
def Other (l : List Char) : Prop := ¬ "#include \"maple2c/".toList <:+: l ∧ ¬ "#include \"work_".toList <:+: l

theorem mapleLine_eq (dir name : List Char) (h : '/' ∉ name) : mapleLine (mapleInclude dir name) = some name := by
  unfold mapleLine mapleInclude
  have := afterFirst_eq "#include \"maple2c/".toList [] (by decide) (dir ++ '/' :: (name ++ ".c\"".toList)) (by decide)
  rw [List.nil_append] at this
  rw [this]
  exact lastSlashC_eq dir name h

theorem workLine_eq (w : List Char) : workLine (workInclude w) = some ("work_".toList ++ w) := by
  unfold workLine workInclude
  have := afterFirst_eq "#include \"work_".toList [] (by decide) (w ++ ".c\"".toList) (by decide)
  rw [List.nil_append] at this
  rw [this, Option.bind_some, lastDotC_eq]
  rfl

/-- A word that starts with `#` occurs only where there is a `#`. -/
theorem not_infix_hash (p a r : List Char) (hp : ¬ '#' :: p <+: '#' :: (a ++ r)) (h : '#' ∉ a ++ r) : ¬ '#' :: p <:+: '#' :: (a ++ r) := by
  rintro ⟨x, y, e⟩
  cases x with
  | nil => exact hp ⟨y, e⟩
  | cons c x =>
    simp only [List.cons_append, List.cons.injEq, List.append_assoc] at e
    apply h
    rw [← e.2]
    simp

theorem mapleLine_work (w : List Char) (h : '#' ∉ w) : mapleLine (workInclude w) = none := by
  unfold mapleLine
  rw [afterFirst_none]
  · rfl
  · unfold workInclude
    have := not_infix_hash "include \"maple2c/".toList "include \"work_".toList (w ++ ".c\"".toList) (by
        intro hp
        have := List.prefix_of_prefix_length_le (l₁ := "#include \"m".toList) (l₂ := "#include \"w".toList) (l₃ := '#' :: ("include \"work_".toList ++ (w ++ ".c\"".toList)))
          ((by decide : "#include \"m".toList <+: '#' :: "include \"maple2c/".toList).trans hp) ⟨"ork_".toList ++ (w ++ ".c\"".toList), rfl⟩ (by decide)
        exact absurd this (by decide)) (by
        intro hm
        rcases List.mem_append.1 hm with hm | hm
        · exact absurd hm (by decide)
        rcases List.mem_append.1 hm with hm | hm
        · exact h hm
        · exact absurd hm (by decide))
    exact this
  · decide

theorem workLine_maple (dir name : List Char) (h : '#' ∉ dir) (h' : '#' ∉ name) : workLine (mapleInclude dir name) = none := by
  unfold workLine
  rw [afterFirst_none]
  · rfl
  · unfold mapleInclude
    have := not_infix_hash "include \"work_".toList "include \"maple2c/".toList (dir ++ '/' :: (name ++ ".c\"".toList)) (by
        intro hp
        have := List.prefix_of_prefix_length_le (l₁ := "#include \"w".toList) (l₂ := "#include \"m".toList) (l₃ := '#' :: ("include \"maple2c/".toList ++ (dir ++ '/' :: (name ++ ".c\"".toList))))
          ((by decide : "#include \"w".toList <+: '#' :: "include \"work_".toList).trans hp) ⟨"aple2c/".toList ++ (dir ++ '/' :: (name ++ ".c\"".toList)), rfl⟩ (by decide)
        exact absurd this (by decide)) (by
        intro hm
        rcases List.mem_append.1 hm with hm | hm
        · exact absurd hm (by decide)
        rcases List.mem_append.1 hm with hm | hm
        · exact h hm
        rcases List.mem_cons.1 hm with hm | hm
        · exact absurd hm (by decide)
        rcases List.mem_append.1 hm with hm | hm
        · exact h' hm
        · exact absurd hm (by decide))
    exact this
  · decide

theorem other_maple {l : List Char} (h : Other l) : mapleLine l = none := by
  unfold mapleLine
  rw [afterFirst_none _ _ h.1 (by decide)]
  rfl

theorem other_work {l : List Char} (h : Other l) : workLine l = none := by
  unfold workLine
  rw [afterFirst_none _ _ h.2 (by decide)]
  rfl

theorem filterMap_one {α β : Type} (f : α → Option β) (a : List α) (x : α) (b : List α) (ha : ∀ y ∈ a, f y = none) (hb : ∀ y ∈ b, f y = none) :
    (a ++ x :: b).filterMap f = (f x).toList := by
  rw [List.filterMap_append, List.filterMap_cons, List.filterMap_eq_nil_iff.2 ha, List.filterMap_eq_nil_iff.2 hb]
  cases f x <;> rfl

/-- The registration of the formula, on its own. -/
theorem wrapFile_maple (content : List Char) (R : Registrations) (h : wrapFile content = .ok R) :
    registerMapleOf ((Text.splitLines content).filterMap mapleLine) ((Text.splitLines content).filterMap workLine) = .ok R.maple := by
  unfold wrapFile at h
  simp only [bind, Except.bind] at h
  split at h
  · cases h
  rename_i m hm
  split at h
  · cases h
  cases h
  exact hm

/-- C46: a file that includes one formula and, before or after it, one work table, registers that formula for that table. -/
theorem c46_registers (content dir name w : List Char) (a b c : List (List Char)) (swap : Bool) (R : Registrations) (h : wrapFile content = .ok R)
    (hl : Text.splitLines content = a ++ (if swap then workInclude w else mapleInclude dir name) :: (b ++ (if swap then mapleInclude dir name else workInclude w) :: c))
    (ha : ∀ l ∈ a, Other l) (hb : ∀ l ∈ b, Other l) (hc : ∀ l ∈ c, Other l) (h1 : '#' ∉ dir) (h2 : '#' ∉ name) (h3 : '/' ∉ name) (h4 : '#' ∉ w) :
    R.maple = some ("work_".toList ++ w, name) := by
  have := wrapFile_maple content R h
  rw [hl] at this
  have e1 : (a ++ (if swap then workInclude w else mapleInclude dir name) :: (b ++ (if swap then mapleInclude dir name else workInclude w) :: c)).filterMap mapleLine = [name] := by
    cases swap with
    | true =>
      have : a ++ workInclude w :: (b ++ mapleInclude dir name :: c) = (a ++ workInclude w :: b) ++ mapleInclude dir name :: c := by simp
      simp only [if_true]
      rw [this, filterMap_one, mapleLine_eq _ _ h3]
      · rfl
      · intro y hy
        simp only [List.mem_append, List.mem_cons] at hy
        rcases hy with hy | rfl | hy
        · exact other_maple (ha _ hy)
        · exact mapleLine_work w h4
        · exact other_maple (hb _ hy)
      · exact fun y hy => other_maple (hc y hy)
    | false =>
      simp only [Bool.false_eq_true, if_false]
      rw [filterMap_one, mapleLine_eq _ _ h3]
      · rfl
      · exact fun y hy => other_maple (ha y hy)
      · intro y hy
        simp only [List.mem_append, List.mem_cons] at hy
        rcases hy with hy | rfl | hy
        · exact other_maple (hb _ hy)
        · exact mapleLine_work w h4
        · exact other_maple (hc _ hy)
  have e2 : (a ++ (if swap then workInclude w else mapleInclude dir name) :: (b ++ (if swap then mapleInclude dir name else workInclude w) :: c)).filterMap workLine =
      ["work_".toList ++ w] := by
    cases swap with
    | true =>
      simp only [if_true]
      rw [filterMap_one, workLine_eq]
      · rfl
      · exact fun y hy => other_work (ha y hy)
      · intro y hy
        simp only [List.mem_append, List.mem_cons] at hy
        rcases hy with hy | rfl | hy
        · exact other_work (hb _ hy)
        · exact workLine_maple dir name h1 h2
        · exact other_work (hc _ hy)
    | false =>
      have : a ++ mapleInclude dir name :: (b ++ workInclude w :: c) = (a ++ mapleInclude dir name :: b) ++ workInclude w :: c := by simp
      simp only [Bool.false_eq_true, if_false]
      rw [this, filterMap_one, workLine_eq]
      · rfl
      · intro y hy
        simp only [List.mem_append, List.mem_cons] at hy
        rcases hy with hy | rfl | hy
        · exact other_work (ha _ hy)
        · exact workLine_maple dir name h1 h2
        · exact other_work (hb _ hy)
      · exact fun y hy => other_work (hc y hy)
  rw [e1, e2] at this
  simp [registerMapleOf] at this
  exact this.symm

/-- A file that includes no work table registers no formula (even if it includes one). -/
theorem c46_none (content : List Char) (R : Registrations) (h : wrapFile content = .ok R) (hl : ∀ l ∈ Text.splitLines content, ¬ "#include \"work_".toList <:+: l) :
    R.maple = none := by
  have := wrapFile_maple content R h
  have hn : (Text.splitLines content).filterMap workLine = [] := List.filterMap_eq_nil_iff.2 fun l hm => by
    unfold workLine
    rw [afterFirst_none _ _ (hl l hm) (by decide)]
    rfl
  rw [hn] at this
  unfold registerMapleOf at this
  split at this
  · cases this
  simp at this
  exact this.symm

/-- Two formulas, or two work tables, are rejected. -/
theorem c46_two (content : List Char) (h : 1 < ((Text.splitLines content).filterMap mapleLine).length ∨ 1 < ((Text.splitLines content).filterMap workLine).length) :
    wrapFile content = .error .valueError := by
  unfold wrapFile registerMapleOf
  by_cases h1 : ((Text.splitLines content).filterMap mapleLine).length > 1
  · simp only [if_pos h1]; rfl
  · have h2 : ((Text.splitLines content).filterMap workLine).length > 1 := h.resolve_left h1
    simp only [if_neg h1, if_pos h2]; rfl

/-- A work table without a formula is an `IndexError`. -/
theorem c46_index (content w : List Char) (a b : List (List Char)) (hl : Text.splitLines content = a ++ workInclude w :: b)
    (ha : ∀ l ∈ a, Other l) (hb : ∀ l ∈ b, Other l) (hw : '#' ∉ w) : wrapFile content = .error .indexError := by
  unfold wrapFile
  simp only
  rw [hl, filterMap_one mapleLine _ _ _ (fun y hy => other_maple (ha y hy)) fun y hy => other_maple (hb y hy),
    filterMap_one workLine _ _ _ (fun y hy => other_work (ha y hy)) fun y hy => other_work (hb y hy), workLine_eq, mapleLine_work w hw]
  rfl

/-- A small file of libxc. -/
def demoFile : List Char := "#include \"util.h\"\ntypedef struct {\n  double a, b[3];\n} x_params;\n\nstatic void\ngga_x_a_init(xc_func_type *p) {\n  p->params = libxc_malloc(sizeof(x_params));\n}\n#include \"maple2c/gga_exc/gga_x_a.c\"\n#include \"work_gga.c\"\n".toList

example : (wrapFile demoFile).toOption = some ⟨[("x_params".toList, ["a".toList, "b".toList], ["gga_x_a_init".toList])], some ("work_gga".toList, "gga_x_a".toList)⟩ := by
  decide +kernel

/-- It meets the hypotheses of `c31_file` and `c46_registers`. -/
theorem demoFile_struct : StructText "x_params".toList "\n  double a, b[3];\n".toList demoFile where
  ident := by decide
  nonempty := by decide
  closed := by decide
  split := ⟨"#include \"util.h\"\n".toList, " ".toList, " ".toList, ";\n\nstatic void\ngga_x_a_init(xc_func_type *p) {\n  p->params = libxc_malloc(sizeof(x_params));\n}\n#include \"maple2c/gga_exc/gga_x_a.c\"\n#include \"work_gga.c\"\n".toList,
    by unfold WsChar; decide, by unfold WsChar; decide, by decide +kernel, by decide +kernel, by decide +kernel⟩

theorem demoFile_body : BodyText [⟨"\n  ".toList, none, "double".toList, ⟨0, "a".toList, 0, []⟩, [⟨1, "b".toList, 0, [("3".toList, 0)]⟩], []⟩] "\n  double a, b[3];\n".toList where
  ok := by
    intro d hd
    simp only [List.mem_cons, List.not_mem_nil, or_false] at hd
    subst hd
    exact ⟨by unfold WsChar; decide, by unfold WsChar; decide, by decide, by decide, by decide, ⟨by decide, by decide, by decide⟩, by
        intro m hm
        simp only [List.mem_cons, List.not_mem_nil, or_false] at hm
        subst hm
        exact ⟨by decide, by decide, by decide⟩⟩
  split := ⟨[.code "\n  double a, b[3];\n".toList], "\n".toList, by simp [Piece.OK], by unfold WsChar; decide, by decide, by decide⟩

example := c31_file demoFile "x_params".toList _ _
  [⟨"#include \"util.h\"\ntypedef struct {\n  double a, b[3];\n} x_params;\n\nstatic void\n".toList, "gga_x_a".toList, " {\n  p->params = ".toList, "x_params".toList⟩]
  "));\n}\n#include \"maple2c/gga_exc/gga_x_a.c\"\n#include \"work_gga.c\"\n".toList demoFile_struct demoFile_body (by decide +kernel) (by
    intro d hd
    simp only [List.mem_cons, List.not_mem_nil, or_false] at hd
    subst hd
    exact ⟨by decide, by decide, ⟨'#', by decide, by decide⟩, ⟨'\n', by decide +kernel, by decide⟩, by decide +kernel, by decide +kernel⟩) (by decide) (Or.inl (by decide +kernel))

/-- A file with two definitions of the same struct. -/
def twiceFile : List Char := "typedef struct { double a; } x; typedef struct { double b; } x; static void f_init(xc_func_type *p) { p->params = libxc_malloc(sizeof(x)); }".toList

example : ∃ e, wrapFile twiceFile = .error e := c45_twice "x".toList " double a; ".toList [] " ".toList " ".toList
  "; typedef struct { double b; } x; static void f_init(xc_func_type *p) { p->params = libxc_malloc(sizeof(x)); }".toList " double b; ".toList twiceFile
  (by decide) (by decide) (by decide) (by unfold WsChar; decide) (by unfold WsChar; decide) (by decide)
  ⟨by decide, by decide, by decide, "; ".toList, " ".toList, " ".toList, "; static void f_init(xc_func_type *p) { p->params = libxc_malloc(sizeof(x)); }".toList,
    by unfold WsChar; decide, by unfold WsChar; decide, by decide +kernel, by decide +kernel, by decide +kernel⟩
  (by decide +kernel) "f_init".toList (by decide +kernel)

example (R : Registrations) (h : wrapFile demoFile = .ok R) := c46_registers demoFile "gga_exc".toList "gga_x_a".toList "gga".toList
  ((Text.splitLines demoFile).take 9) [] [[]] false R h (by decide +kernel) (by unfold Other; decide +kernel) (by simp) (by unfold Other; decide) (by decide) (by decide) (by decide) (by decide)

end Verif.Props
