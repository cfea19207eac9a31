import Verif.Spec.Record
import Mathlib.Data.List.Nodup
import Mathlib.Data.List.Forall2
/-!
# C28: `dict_to_namedtuple` loses nothing
-/
namespace Verif.Props
open Verif.Py Verif.Model Verif.Spec

/-- Induction over Python values. -/
theorem PyVal.ind {Q : PyVal → Prop} (hs : ∀ s, Q (.str s)) (hn : ∀ x, Q (.num x)) (hi : ∀ n, Q (.int n)) (ha : ∀ a, Q (.arr a))
    (hd : ∀ d : List (String × PyVal), (∀ x ∈ d, Q x.2) → Q (.dict d)) (hl : ∀ l : List PyVal, (∀ x ∈ l, Q x) → Q (.list l)) (v : PyVal) : Q v :=
  PyVal.rec (motive_1 := Q) (motive_2 := fun d => ∀ x ∈ d, Q x.2) (motive_3 := fun l => ∀ x ∈ l, Q x) (motive_4 := fun x => Q x.2)
    hs hn hi ha hd hl (fun _ h => absurd h List.not_mem_nil) (fun _ _ h1 h2 _ h => (List.mem_cons.1 h).elim (fun e => e ▸ h1) (h2 _))
    (fun _ h => absurd h List.not_mem_nil) (fun _ _ h1 h2 _ h => (List.mem_cons.1 h).elim (fun e => e ▸ h1) (h2 _)) (fun _ _ h => h) v

theorem convDict_eq : ∀ d : List (String × PyVal), convDict d = d.map fun x => (x.1, convVal (ren x.1) x.2)
  | [] => by simp [convDict]
  | (k, v) :: d => by simp [convDict, convItem, convDict_eq d]

/-! ### `popLambda` -/

theorem lookup_mem {α : Type} (k : String) (v : α) : ∀ d : List (String × α), d.lookup k = some v → (k, v) ∈ d
  | (k', v') :: d, h => by
    rw [List.lookup_cons] at h
    by_cases e : k = k'
    · subst e; simp only [beq_self_eq_true, Option.some.injEq] at h; subst h; exact List.mem_cons_self
    · rw [beq_eq_false_iff_ne.2 e] at h
      exact List.mem_cons_of_mem _ (lookup_mem k v d h)

theorem lookup_none {α : Type} (k : String) : ∀ d : List (String × α), d.lookup k = none → k ∉ d.map Prod.fst
  | [], _ => by simp
  | (k', v') :: d, h => by
    rw [List.lookup_cons] at h
    by_cases e : k = k'
    · subst e; simp at h
    · rw [beq_eq_false_iff_ne.2 e] at h
      have := lookup_none k d h
      simp only [List.map_cons, List.mem_cons, not_or]
      exact ⟨e, this⟩

theorem lookup_nodup {α : Type} (k : String) (v : α) : ∀ d : List (String × α), (d.map Prod.fst).Nodup → (k, v) ∈ d → d.lookup k = some v
  | (k', v') :: d, hn, h => by
    rw [List.lookup_cons]
    rw [List.map_cons, List.nodup_cons] at hn
    rcases List.mem_cons.1 h with e | hm
    · cases e; simp
    · have : k ≠ k' := by
        rintro rfl
        exact hn.1 (List.mem_map.2 ⟨(k, v), hm, rfl⟩)
      rw [beq_eq_false_iff_ne.2 this]
      exact lookup_nodup k v d hn.2 hm

theorem setNew {α : Type} (k : String) (v : α) : ∀ (d : List (String × α)), k ∉ d.map Prod.fst → dictSet k v d = d ++ [(k, v)]
  | [], _ => rfl
  | (k', v') :: d, h => by
    simp only [List.map_cons, List.mem_cons, not_or] at h
    rw [dictSet, if_neg (Ne.symm h.1), setNew k v d h.2]
    rfl

section
variable {α : Type} {d : List (String × α)} (hd : (d.map Prod.fst).Nodup) (hl : "lambda" ∈ d.map Prod.fst → "lambda_" ∉ d.map Prod.fst)
include hd hl

omit hd in
theorem popLambda_some {v : α} (h : d.lookup "lambda" = some v) : popLambda d = (d.filter fun x => x.1 ≠ "lambda") ++ [("lambda_", v)] := by
  unfold popLambda
  rw [h]
  simp only
  refine setNew _ _ _ fun hm => ?_
  obtain ⟨x, hx, e⟩ := List.mem_map.1 hm
  exact hl (List.mem_map_of_mem (f := Prod.fst) (lookup_mem _ _ _ h)) (e ▸ List.mem_map_of_mem (f := Prod.fst) (List.mem_filter.1 hx).1)

theorem mem_popLambda (k : String) (v : α) : (k, v) ∈ popLambda d ↔ ∃ k', (k', v) ∈ d ∧ ren k' = k := by
  cases h : d.lookup "lambda" with
  | none =>
    have h0 := lookup_none _ _ h
    have e : popLambda d = d := by unfold popLambda; rw [h]
    rw [e]
    constructor
    · intro hm
      refine ⟨k, hm, ?_⟩
      unfold ren
      rw [if_neg]
      rintro rfl
      exact h0 (List.mem_map_of_mem (f := Prod.fst) hm)
    · rintro ⟨k', hm, rfl⟩
      unfold ren
      rw [if_neg]
      · exact hm
      · rintro rfl
        exact h0 (List.mem_map_of_mem (f := Prod.fst) hm)
  | some w =>
    rw [popLambda_some hl h, List.mem_append, List.mem_filter, List.mem_singleton]
    constructor
    · rintro (⟨hm, hk⟩ | e)
      · exact ⟨k, hm, by unfold ren; rw [if_neg (by simpa using hk)]⟩
      · cases e
        exact ⟨"lambda", lookup_mem _ _ _ h, rfl⟩
    · rintro ⟨k', hm, rfl⟩
      by_cases e : k' = "lambda"
      · subst e
        right
        have := lookup_nodup _ _ _ hd hm
        rw [h] at this
        cases this
        rfl
      · left
        unfold ren
        rw [if_neg e]
        exact ⟨hm, by simpa using e⟩

theorem keys_popLambda : ((popLambda d).map Prod.fst).Nodup := by
  cases h : d.lookup "lambda" with
  | none =>
    have e : popLambda d = d := by unfold popLambda; rw [h]
    rw [e]; exact hd
  | some w =>
    rw [popLambda_some hl h, List.map_append, List.nodup_append]
    refine ⟨(List.filter_sublist.map _).nodup hd, by simp, ?_⟩
    intro a ha b hb
    simp only [List.map_cons, List.map_nil, List.mem_singleton] at hb
    subst hb
    obtain ⟨x, hx, rfl⟩ := List.mem_map.1 ha
    intro e
    exact hl (List.mem_map_of_mem (f := Prod.fst) (lookup_mem _ _ _ h)) (e ▸ List.mem_map_of_mem (f := Prod.fst) (List.mem_filter.1 hx).1)

omit hl hd in
theorem filter_length : ∀ (d : List (String × α)), (d.map Prod.fst).Nodup → "lambda" ∈ d.map Prod.fst →
    (d.filter fun x => x.1 ≠ "lambda").length + 1 = d.length
  | (k, v) :: d, hd, hm => by
    rw [List.map_cons, List.nodup_cons] at hd
    by_cases e : k = "lambda"
    · subst e
      rw [List.filter_cons_of_neg (by simp)]
      rw [List.filter_eq_self.2]
      · rfl
      · intro x hx
        have : x.1 ≠ "lambda" := by
          intro e
          apply hd.1
          exact List.mem_map.2 ⟨x, hx, e⟩
        simpa using this
    · rw [List.filter_cons_of_pos (by simpa using e), List.length_cons, List.length_cons, filter_length d hd.2 ?_]
      rw [List.map_cons, List.mem_cons] at hm
      exact hm.resolve_left (Ne.symm e)

theorem length_popLambda : (popLambda d).length = d.length := by
  cases h : d.lookup "lambda" with
  | none =>
    have e : popLambda d = d := by unfold popLambda; rw [h]
    rw [e]
  | some w =>
    rw [popLambda_some hl h, List.length_append]
    exact filter_length d hd (List.mem_map_of_mem (f := Prod.fst) (lookup_mem _ _ _ h))
end

theorem seqFields_ok : ∀ (l : List (String × Except PyErr NT)) (fs : List (String × NT)),
    seqFields l = .ok fs ↔ l = fs.map fun x => (x.1, Except.ok x.2)
  | [], fs => by
    simp only [seqFields, Except.ok.injEq]
    constructor
    · rintro rfl; rfl
    · intro h; symm at h; rw [List.map_eq_nil_iff] at h; exact h.symm
  | (k, .error e) :: l, fs => by
    simp only [seqFields, bind, Except.bind]
    constructor
    · rintro ⟨⟩
    · intro h; cases fs <;> simp at h
  | (k, .ok x) :: l, fs => by
    simp only [seqFields, bind, Except.bind]
    cases hl : seqFields l with
    | error e =>
      constructor
      · rintro ⟨⟩
      · intro h
        cases fs with
        | nil => simp at h
        | cons a b =>
          simp only [List.map_cons, List.cons.injEq] at h
          rw [(seqFields_ok l b).2 h.2] at hl
          cases hl
    | ok gs =>
      have := (seqFields_ok l gs).1 hl
      simp only [Except.ok.injEq]
      constructor
      · rintro rfl; rw [this]; rfl
      · intro h
        cases fs with
        | nil => simp at h
        | cons a b =>
          simp only [List.map_cons, List.cons.injEq, Prod.mk.injEq, Except.ok.injEq] at h
          have h2 := (seqFields_ok l b).2 h.2
          rw [hl, Except.ok.injEq] at h2
          subst h2
          obtain ⟨⟨h1, h3⟩, _⟩ := h
          subst h1 h3
          rfl

theorem seqFields_all : ∀ (l : List (String × Except PyErr NT)), (∀ x ∈ l, ∃ w, x.2 = .ok w) → ∃ fs, seqFields l = .ok fs
  | [], _ => ⟨[], rfl⟩
  | (k, x) :: l, h => by
    obtain ⟨w, hw⟩ := h (k, x) List.mem_cons_self
    obtain ⟨fs, hf⟩ := seqFields_all l fun y hy => h y (List.mem_cons_of_mem _ hy)
    have hw : x = .ok w := hw
    exact ⟨(k, w) :: fs, by simp only [seqFields, hw, hf, bind, Except.bind]⟩

theorem convVal_dict (k : String) (d : List (String × PyVal)) :
    convVal k (.dict d) = (seqFields (popLambda (d.map fun x => (x.1, convVal (ren x.1) x.2)))).bind (namedtuple k) := by
  rw [convVal, convDict_eq]
  rfl

theorem convList_cons (k : String) (d : List (String × PyVal)) (l : List PyVal) :
    convList k (.dict d :: l) = (convVal k (.dict d)).bind fun y => (convList k l).bind fun l => .ok (y :: l) := by
  rw [convList, convVal]
  rfl

theorem convList_bad (k : String) (x : PyVal) (l : List PyVal) (h : ∀ d, x ≠ .dict d) : ∃ e, convList k (x :: l) = .error e := by
  cases x with
  | dict d => exact absurd rfl (h d)
  | _ => rw [convList.eq_def]; exact ⟨_, rfl⟩

theorem map_keys {α β : Type} (g : String × α → β) (d : List (String × α)) : (d.map fun x => (x.1, g x)).map Prod.fst = d.map Prod.fst := by
  rw [List.map_map]; rfl

/-- A successful conversion of a proper dict loses nothing. -/
theorem conv_keeps (v : PyVal) (hp : Proper v) : ∀ k w, convVal k v = .ok w → Keeps v w := by
  induction v using PyVal.ind with
  | hs s => intro k w h; rw [convVal] at h; cases h; exact .str s
  | hn s => intro k w h; rw [convVal] at h; cases h; exact .num s
  | hi s => intro k w h; rw [convVal] at h; cases h; exact .int s
  | ha s => intro k w h; rw [convVal] at h; cases h; exact .arr s
  | hd d ih =>
    intro k w h
    cases hp with
    | dict _ hd hl hp =>
      rw [convVal_dict] at h
      set c := d.map fun x => (x.1, convVal (ren x.1) x.2) with hc
      have hck : c.map Prod.fst = d.map Prod.fst := map_keys _ d
      have hd' : (c.map Prod.fst).Nodup := by rw [hck]; exact hd
      have hl' : "lambda" ∈ c.map Prod.fst → "lambda_" ∉ c.map Prod.fst := by rw [hck]; exact hl
      cases hs : seqFields (popLambda c) with
      | error e => rw [hs] at h; cases h
      | ok fs =>
        rw [hs] at h
        have hfs := (seqFields_ok _ _).1 hs
        have hkeys : fs.map Prod.fst = (popLambda c).map Prod.fst := by rw [hfs, List.map_map]; rfl
        have hnod : (fs.map Prod.fst).Nodup := by rw [hkeys]; exact keys_popLambda hd' hl'
        have h : namedtuple k fs = .ok w := h
        unfold namedtuple at h
        split at h
        · cases h
          have key : ∀ key v, (key, v) ∈ d → ∃ w, fs.lookup (ren key) = some w ∧ Keeps v w := by
            intro key v hm
            have hm' : (key, convVal (ren key) v) ∈ c := List.mem_map_of_mem (f := fun x : String × PyVal => (x.1, convVal (ren x.1) x.2)) hm
            have := (mem_popLambda hd' hl' (ren key) (convVal (ren key) v)).2 ⟨key, hm', rfl⟩
            rw [hfs] at this
            obtain ⟨⟨k1, w1⟩, h1, h2⟩ := List.mem_map.1 this
            simp only [Prod.mk.injEq] at h2
            obtain ⟨rfl, h2⟩ := h2
            refine ⟨w1, lookup_nodup _ _ _ hnod h1, ?_⟩
            exact ih (key, v) hm (hp _ hm) _ _ h2.symm
          refine .dict d k fs hnod ?_ ?_ ?_
          · have := length_popLambda hd' hl'
            rw [hfs, List.length_map] at this
            rw [this, hc, List.length_map]
          · intro k' v hm
            obtain ⟨w, h1, _⟩ := key k' v hm
            unfold ren at h1
            rw [h1]; rfl
          · intro k' v w hm hw
            obtain ⟨w', h1, h2⟩ := key k' v hm
            unfold ren at h1
            rw [hw, Option.some.injEq] at h1
            subst h1
            exact h2
        · cases h
  | hl l ih =>
    intro k w h
    cases hp with
    | list _ hp =>
      rw [convVal] at h
      cases hc : convList k l with
      | error e => rw [hc] at h; cases h
      | ok ws =>
        rw [hc] at h
        cases h
        induction l generalizing ws with
        | nil => rw [convList] at hc; cases hc; exact .list [] [] rfl (by simp)
        | cons x l ihl =>
          by_cases hx : ∃ d, x = .dict d
          · obtain ⟨d, rfl⟩ := hx
            rw [convList_cons] at hc
            cases h1 : convVal k (.dict d) with
            | error e => rw [h1] at hc; cases hc
            | ok y =>
              rw [h1] at hc
              cases h2 : convList k l with
              | error e => simp only [Except.bind, h2] at hc; cases hc
              | ok ys =>
                simp only [Except.bind, h2] at hc
                cases hc
                have h3 := ihl (fun x hx => ih x (List.mem_cons_of_mem _ hx)) (fun x hx => hp x (List.mem_cons_of_mem _ hx)) ys h2
                cases h3 with
                | list _ _ hl' h' =>
                  refine .list _ _ (by simp [hl']) ?_
                  intro n v w hv hw
                  cases n with
                  | zero => simp at hv hw; subst hv hw; exact ih _ List.mem_cons_self (hp _ List.mem_cons_self) _ _ h1
                  | succ n => exact h' n v w (by simpa using hv) (by simpa using hw)
          · obtain ⟨e, he⟩ := convList_bad k x l (fun d e => hx ⟨d, e⟩)
            rw [he] at hc; cases hc

theorem fieldOK_ren (k : String) (h : k = "lambda" ∨ fieldOK k = true) : fieldOK (ren k) = true := by
  unfold ren
  by_cases e : k = "lambda"
  · rw [if_pos e]; decide
  · rw [if_neg e]; exact h.resolve_left e

theorem fieldOK_of_ren (k : String) (h : fieldOK (ren k) = true) : k = "lambda" ∨ fieldOK k = true := by
  unfold ren at h
  by_cases e : k = "lambda"
  · exact Or.inl e
  · rw [if_neg e] at h; exact Or.inr h

theorem typeOK_of_field (k : String) (h : fieldOK k = true) : typeOK k = true := by
  unfold fieldOK at h
  exact (Bool.and_eq_true_iff.1 h).1

/-- Values under a usable key can be converted iff they are convertible. -/
theorem conv_ok (v : PyVal) (hp : Proper v) : ∀ k, typeOK k = true → ((∃ w, convVal k v = .ok w) ↔ Convertible v) := by
  induction v using PyVal.ind with
  | hs s => intro k _; rw [convVal]; exact ⟨fun _ => .str s, fun _ => ⟨_, rfl⟩⟩
  | hn s => intro k _; rw [convVal]; exact ⟨fun _ => .num s, fun _ => ⟨_, rfl⟩⟩
  | hi s => intro k _; rw [convVal]; exact ⟨fun _ => .int s, fun _ => ⟨_, rfl⟩⟩
  | ha s => intro k _; rw [convVal]; exact ⟨fun _ => .arr s, fun _ => ⟨_, rfl⟩⟩
  | hd d ih =>
    intro k hk
    cases hp with
    | dict _ hd hl hp =>
      rw [convVal_dict]
      set c := d.map fun x => (x.1, convVal (ren x.1) x.2) with hc
      have hck : c.map Prod.fst = d.map Prod.fst := map_keys _ d
      have hd' : (c.map Prod.fst).Nodup := by rw [hck]; exact hd
      have hl' : "lambda" ∈ c.map Prod.fst → "lambda_" ∉ c.map Prod.fst := by rw [hck]; exact hl
      have mem : ∀ x ∈ d, (ren x.1, convVal (ren x.1) x.2) ∈ popLambda c := fun x hx =>
        (mem_popLambda hd' hl' _ _).2 ⟨x.1, List.mem_map_of_mem (f := fun x : String × PyVal => (x.1, convVal (ren x.1) x.2)) hx, rfl⟩
      constructor
      · rintro ⟨w, h⟩
        cases hs : seqFields (popLambda c) with
        | error e => rw [hs] at h; cases h
        | ok fs =>
          rw [hs] at h
          have hfs := (seqFields_ok _ _).1 hs
          have h : namedtuple k fs = .ok w := h
          unfold namedtuple at h
          split at h
          · rename_i hn
            have fields : ∀ x ∈ d, fieldOK (ren x.1) = true ∧ ∃ w, convVal (ren x.1) x.2 = .ok w := by
              intro x hx
              have := mem x hx
              rw [hfs] at this
              obtain ⟨⟨k1, w1⟩, h1, h2⟩ := List.mem_map.1 this
              simp only [Prod.mk.injEq] at h2
              refine ⟨?_, w1, h2.2.symm⟩
              rw [← h2.1]
              exact hn.2.1 k1 (List.mem_map_of_mem (f := Prod.fst) h1)
            refine .dict d (fun x hx => fieldOK_of_ren _ (fields x hx).1) fun x hx => ?_
            exact (ih x hx (hp x hx) _ (typeOK_of_field _ (fields x hx).1)).1 (fields x hx).2
          · cases h
      · intro h
        cases h with
        | dict _ hkeys hv =>
          obtain ⟨fs, hs⟩ := seqFields_all (popLambda c) (by
            rintro ⟨k1, x⟩ hx
            obtain ⟨k2, h2, rfl⟩ := (mem_popLambda hd' hl' _ _).1 hx
            obtain ⟨y, hy, e⟩ := List.mem_map.1 h2
            simp only [Prod.mk.injEq] at e
            obtain ⟨rfl, rfl⟩ := e
            exact (ih y hy (hp y hy) _ (typeOK_of_field _ (fieldOK_ren _ (hkeys y hy)))).2 (hv y hy))
          rw [hs]
          have hfs := (seqFields_ok _ _).1 hs
          have hkk : fs.map Prod.fst = (popLambda c).map Prod.fst := by rw [hfs, List.map_map]; rfl
          refine ⟨.tup k fs, ?_⟩
          show namedtuple k fs = _
          unfold namedtuple
          rw [if_pos]
          refine ⟨hk, ?_, by rw [hkk]; exact keys_popLambda hd' hl'⟩
          intro k1 hk1
          rw [hkk] at hk1
          obtain ⟨⟨k2, x⟩, hx, rfl⟩ := List.mem_map.1 hk1
          obtain ⟨k3, h3, rfl⟩ := (mem_popLambda hd' hl' _ _).1 hx
          obtain ⟨y, hy, e⟩ := List.mem_map.1 h3
          simp only [Prod.mk.injEq] at e
          obtain ⟨rfl, _⟩ := e
          exact fieldOK_ren _ (hkeys y hy)
  | hl l ih =>
    intro k hk
    cases hp with
    | list _ hp =>
      rw [convVal]
      have main : (∃ ws, convList k l = .ok ws) ↔ Convertible (.list l) := by
        induction l with
        | nil => rw [convList]; exact ⟨fun _ => .list [] (by simp) (by simp), fun _ => ⟨_, rfl⟩⟩
        | cons x l ihl =>
          have ihl := ihl (fun x hx => ih x (List.mem_cons_of_mem _ hx)) (fun x hx => hp x (List.mem_cons_of_mem _ hx))
          have ihx := ih x List.mem_cons_self (hp x List.mem_cons_self) k hk
          by_cases hx : ∃ d, x = .dict d
          · obtain ⟨d, rfl⟩ := hx
            rw [convList_cons]
            constructor
            · rintro ⟨ws, hw⟩
              cases h1 : convVal k (.dict d) with
              | error e => rw [h1] at hw; cases hw
              | ok y =>
                rw [h1] at hw
                cases h2 : convList k l with
                | error e => simp only [Except.bind, h2] at hw; cases hw
                | ok ys =>
                  have a := ihx.1 ⟨y, h1⟩
                  have b := ihl.1 ⟨ys, h2⟩
                  cases b with
                  | list _ b1 b2 =>
                    exact .list _ (fun z hz => (List.mem_cons.1 hz).elim (fun e => ⟨d, e⟩) (b1 z)) (fun z hz => (List.mem_cons.1 hz).elim (fun e => e ▸ a) (b2 z))
            · intro h
              cases h with
              | list _ b1 b2 =>
                obtain ⟨y, h1⟩ := ihx.2 (b2 _ List.mem_cons_self)
                obtain ⟨ys, h2⟩ := ihl.2 (.list l (fun z hz => b1 z (List.mem_cons_of_mem _ hz)) (fun z hz => b2 z (List.mem_cons_of_mem _ hz)))
                exact ⟨y :: ys, by rw [h1, h2]; rfl⟩
          · obtain ⟨e, he⟩ := convList_bad k x l (fun d e => hx ⟨d, e⟩)
            rw [he]
            constructor
            · rintro ⟨_, ⟨⟩⟩
            · intro h
              cases h with
              | list _ b1 _ => exact absurd (b1 x List.mem_cons_self) hx
      rw [← main]
      constructor
      · rintro ⟨w, h⟩
        cases hc : convList k l with
        | error e => rw [hc] at h; cases h
        | ok ws => exact ⟨ws, rfl⟩
      · rintro ⟨ws, h⟩
        rw [h]; exact ⟨_, rfl⟩

/-- C28: what `dict_to_namedtuple` returns keeps every key and every value, recursively and in the order of lists. -/
theorem c28_keeps (d : List (String × PyVal)) (hp : Proper (.dict d)) (name : String) (w : NT) (h : dictToNT d name = .ok w) : Keeps (.dict d) w :=
  conv_keeps _ hp _ _ h

/-- It succeeds exactly when all keys are usable as field names and all elements of lists are dicts. -/
theorem c28_succeeds (d : List (String × PyVal)) (hp : Proper (.dict d)) (name : String) (hn : typeOK name = true) :
    (∃ w, dictToNT d name = .ok w) ↔ Convertible (.dict d) := conv_ok _ hp _ hn

/-- With both keys `lambda` and `lambda_` in a dict a value is lost: the hypothesis of `c28_keeps` is needed. -/
theorem c28_clash : dictToNT [("lambda", .int 1), ("lambda_", .int 2)] "P" = .ok (.tup "P" [("lambda_", .int 1)]) := by
  simp only [dictToNT, convVal, convDict, convItem, popLambda, List.lookup, List.filter]
  simp only [show ("lambda" == "lambda") = true from rfl, show decide ("lambda" ≠ "lambda") = false from rfl, show decide ("lambda_" ≠ "lambda") = true from rfl,
    dictSet, seqFields, bind, Except.bind, namedtuple, if_true]
  rw [if_pos (by decide)]

/-- A record with a component and parameters, one of which is called `lambda`. -/
def demoDict : List (String × PyVal) :=
  [("name", .str "f"), ("params", .dict [("lambda", .num 2), ("mu", .num 3)]), ("func_aux", .list [.dict [("name", .str "g")], .dict [("nspin", .int 2)]])]

theorem demoDict_proper : Proper (.dict demoDict) := by
  refine .dict _ (by decide) (by decide) ?_
  intro x hx
  simp only [demoDict, List.mem_cons, List.not_mem_nil, or_false] at hx
  rcases hx with rfl | rfl | rfl
  · exact .str _
  · refine .dict _ (by decide) (by decide) ?_
    intro x hx
    simp only [List.mem_cons, List.not_mem_nil, or_false] at hx
    rcases hx with rfl | rfl <;> exact .num _
  · refine .list _ ?_
    intro x hx
    simp only [List.mem_cons, List.not_mem_nil, or_false] at hx
    rcases hx with rfl | rfl
    · exact .dict _ (by decide) (by decide) (by simp; exact .str _)
    · exact .dict _ (by decide) (by decide) (by simp; exact .int _)

theorem demoDict_convertible : Convertible (.dict demoDict) := by
  refine .dict _ (by decide) ?_
  intro x hx
  simp only [demoDict, List.mem_cons, List.not_mem_nil, or_false] at hx
  rcases hx with rfl | rfl | rfl
  · exact .str _
  · refine .dict _ (by decide) ?_
    intro x hx
    simp only [List.mem_cons, List.not_mem_nil, or_false] at hx
    rcases hx with rfl | rfl <;> exact .num _
  · refine .list _ (by simp) ?_
    intro x hx
    simp only [List.mem_cons, List.not_mem_nil, or_false] at hx
    rcases hx with rfl | rfl
    · exact .dict _ (by decide) (by simp; exact .str _)
    · exact .dict _ (by decide) (by simp; exact .int _)

example : ∃ w, dictToNT demoDict "P" = .ok w ∧ Keeps (.dict demoDict) w := by
  obtain ⟨w, hw⟩ := (c28_succeeds demoDict demoDict_proper "P" (by decide)).2 demoDict_convertible
  exact ⟨w, hw, c28_keeps _ demoDict_proper _ _ hw⟩

end Verif.Props
