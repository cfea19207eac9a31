import Verif.Norm.Regular
import Verif.Norm.HintsMore
import Verif.Norm.Untied
/-!
# Regularity of formulas, by interval analysis with hints

Proof machinery for C52: `rhcheck` is to `rcheck` what `hcheck` is to `acheck`.
-/
namespace Verif.Norm
open Verif.Py Verif.Model Verif.Spec

noncomputable section

/-- Is the expression free of comparisons? -/
def noCmp (e : Expr) : Bool := List.rec true (fun _ _ _ => false) (cmps e [])

/-- Is the expression regular, by a hint? -/
def regH (C : ACfg) (A : Trie AV) (D : Trie Bool) (h : Hint) (e : Expr) : Bool :=
  band (band (Expr.free hintTmp e) (noCmp h.e))
    (((aev C A h.e).meet h.I).force fun v => regE C (Trie.set v 20 A hintTmp) (Trie.set (regE C A D h.e) 20 D hintTmp) (Expr.put h.e e))

/-- Is the right-hand side of statement `i` regular? -/
def regHs (C : ACfg) (A : Trie AV) (D : Trie Bool) (hs : List Hint) (i : Nat) (e : Expr) : Bool :=
  List.rec (regE C A D e) (fun h _ ih => kif Nat.beq h.pos i then regH C A D h e else ih) hs

def rhbody (C : ACfg) (hs : List Hint) (b : List (Nat × Expr)) : Nat → Trie AV → Trie Bool → (Nat → Trie AV → Trie Bool → Bool) → Bool :=
  List.rec (fun i A D k => k i A D) (fun ne _ ih i A D k =>
    Prod.rec (fun n e => Option.rec ((aevHs C A hs i e).force fun v =>
        kif regHs C A D hs i e then ih (Nat.succ i) (Trie.set v 20 A n) (Trie.set true 20 D n) k else ih (Nat.succ i) (Trie.set v 20 A n) D k)
      (fun _ => false) (kif Nat.ble n 499999 then Trie.get 20 A n else some .undef)) ne) b

/-- Is `res` regular, given the hints? -/
def rhcheck (C : ACfg) (hs : List Hint) (p : Prog) : Bool :=
  Prog.rec (fun body res => rhbody C hs body 0 .leaf .leaf fun i A D =>
    band (regHs C A D hs i res) (AV.rec false (fun _ _ => true) (fun _ _ => false) (aevHs C A hs i res))) p

/-! ## Soundness -/

theorem noCmp_ok {P : Prims} {E : Env} {T : Nat → Option Val} {e : Expr} (h : noCmp e = true) : ¬tied P E T e := by
  intro ht
  obtain ⟨ab, hm, -⟩ := (cmps_mem e []).2 ht
  unfold noCmp at h
  revert h hm
  cases cmps e [] with
  | nil => exact fun _ hm => nomatch hm
  | cons => exact fun h => absurd h Bool.false_ne_true

theorem free_reval {P : Prims} {E : Env} {T T' : Nat → Option Val} (hT : ∀ n, n ≠ hintTmp → T' n = T n) (e : Expr) (he : Expr.free hintTmp e = true) :
    reval P E T' e = reval P E T e := by
  induction e with
  | num _ _ => rfl
  | pi => rfl
  | inp _ => rfl
  | fld _ => rfl
  | param _ => rfl
  | tmp m =>
    refine hT m ?_
    rintro rfl
    exact absurd he (by decide)
  | undef _ => rfl
  | neg a ih => have h := ih he; simp only [reval, h]
  | call1 f a ih => have h := ih he; simp only [reval, h]
  | cond c a b ihc iha ihb =>
    simp only [Expr.free, Bool.and_eq_true] at he
    have h1 := ihc he.1; have h2 := iha he.2.1; have h3 := ihb he.2.2
    simp only [reval, h1, h2, h3]
  | add a b iha ihb | sub a b iha ihb | mul a b iha ihb | div a b iha ihb | pow a b iha ihb | le a b iha ihb | lt a b iha ihb | eq a b iha ihb
  | lor a b iha ihb | land a b iha ihb | call2 f a b iha ihb =>
    simp only [Expr.free, Bool.and_eq_true] at he
    have h1 := iha he.1; have h2 := ihb he.2
    simp only [reval, h1, h2]

theorem isLit_put (h e : Expr) : isLit (Expr.put h e) = isLit e := by
  cases e <;> simp only [Expr.put] <;> first | rfl | (split_ifs <;> rfl)

theorem literals_iff (a b : Expr) : literals a b ↔ isLit a = true ∧ isLit b = true := by
  cases a <;> cases b <;> simp [literals, isLit]

theorem literals_put (h a b : Expr) : literals (Expr.put h a) (Expr.put h b) ↔ literals a b := by
  rw [literals_iff, literals_iff, isLit_put, isLit_put]

theorem put_reval {P : Prims} {E : Env} {T T' : Nat → Option Val} {h : Expr} (hT : ∀ n, n ≠ hintTmp → T' n = T n) (h0 : T' hintTmp = reval P E T h) (e : Expr)
    (he : Expr.free hintTmp e = true) : reval P E T' (Expr.put h e) = reval P E T e := by
  have key : ∀ e, h = e → reval P E T' (.tmp hintTmp) = reval P E T e := fun e hh => by rw [← hh]; exact h0
  have fr : ∀ e, Expr.free hintTmp e = true → reval P E T' e = reval P E T e := fun e he => free_reval hT e he
  induction e with
  | num _ _ => rfl
  | pi => rfl
  | inp _ => rfl
  | fld f =>
    simp only [Expr.put]
    split_ifs with h1
    · exact key _ h1
    · rfl
  | param c =>
    simp only [Expr.put]
    split_ifs with h1
    · exact key _ h1
    · rfl
  | undef _ => rfl
  | tmp m =>
    have hm : m ≠ hintTmp := by rintro rfl; exact absurd he (by decide)
    simp only [Expr.put]
    split_ifs with h1
    · exact key _ h1
    · exact hT m hm
  | eq a b _ _ | lor a b _ _ | land a b _ _ | call2 f a b _ _ => exact fr _ he
  | neg a ih =>
    simp only [Expr.put]
    split_ifs with h1
    · exact key _ h1
    · have h := ih he; simp only [reval, h]
  | call1 f a ih =>
    simp only [Expr.put]
    split_ifs with h1
    · exact key _ h1
    · have h := ih he; simp only [reval, h]
  | cond c a b ihc iha ihb =>
    simp only [Expr.put]
    split_ifs with h1
    · exact key _ h1
    · simp only [Expr.free, Bool.and_eq_true] at he
      have h1 := ihc he.1; have h2 := iha he.2.1; have h3 := ihb he.2.2
      simp only [reval, h1, h2, h3]
  | pow a b iha _ =>
    simp only [Expr.put]
    split_ifs with h1
    · exact key _ h1
    · simp only [Expr.free, Bool.and_eq_true] at he
      have h1 := iha he.1; have h2 := fr _ he.2
      simp only [reval, h1, h2]
  | le a b iha ihb | lt a b iha ihb =>
    simp only [Expr.put]
    split_ifs with h1
    · exact key _ h1
    · simp only [Expr.free, Bool.and_eq_true] at he
      have h1 := iha he.1; have h2 := ihb he.2
      simp only [reval, h1, h2]
      rw [propext (literals_put h a b)]
  | add a b iha ihb | sub a b iha ihb | mul a b iha ihb | div a b iha ihb =>
    simp only [Expr.put]
    split_ifs with h1
    · exact key _ h1
    · simp only [Expr.free, Bool.and_eq_true] at he
      have h1 := iha he.1; have h2 := ihb he.2
      simp only [reval, h1, h2]

theorem free_tied {P : Prims} {E : Env} {T T' : Nat → Option Val} (hT : ∀ n, n ≠ hintTmp → T' n = T n) (e : Expr) (he : Expr.free hintTmp e = true) :
    tied P E T' e → tied P E T e := by
  induction e with
  | num | pi | inp | fld | param | tmp | undef => exact fun h => h
  | neg a ih => exact ih he
  | call1 f a ih => exact ih he
  | cond c a b ihc iha ihb =>
    simp only [Expr.free, Bool.and_eq_true] at he
    exact Or.imp (ihc he.1) (Or.imp (iha he.2.1) (ihb he.2.2))
  | le a b iha ihb | lt a b iha ihb | eq a b iha ihb =>
    simp only [Expr.free, Bool.and_eq_true] at he
    refine Or.imp (iha he.1) (Or.imp (ihb he.2) ?_)
    rw [free_seval hT a he.1, free_seval hT b he.2]
    exact fun h => h
  | add a b iha ihb | sub a b iha ihb | mul a b iha ihb | div a b iha ihb | pow a b iha ihb | lor a b iha ihb | land a b iha ihb | call2 f a b iha ihb =>
    simp only [Expr.free, Bool.and_eq_true] at he
    exact Or.imp (iha he.1) (ihb he.2)

theorem put_tied {P : Prims} {E : Env} {T T' : Nat → Option Val} {h : Expr} (hT : ∀ n, n ≠ hintTmp → T' n = T n) (h0 : T' hintTmp = seval P E T h) (e : Expr)
    (he : Expr.free hintTmp e = true) : tied P E T' (Expr.put h e) → tied P E T e := by
  have fr : ∀ e, Expr.free hintTmp e = true → tied P E T' e → tied P E T e := fun e he => free_tied hT e he
  induction e with
  | num | pi | inp | undef => exact fun h => h
  | fld | param | tmp =>
    simp only [Expr.put]
    split_ifs <;> exact fun h => h.elim
  | eq a b _ _ | lor a b _ _ | land a b _ _ | call2 f a b _ _ => exact fr _ he
  | neg a ih =>
    simp only [Expr.put]
    split_ifs
    · exact fun h => h.elim
    · exact ih he
  | call1 f a ih =>
    simp only [Expr.put]
    split_ifs
    · exact fun h => h.elim
    · exact ih he
  | cond c a b ihc iha ihb =>
    simp only [Expr.put]
    split_ifs
    · exact fun h => h.elim
    · simp only [Expr.free, Bool.and_eq_true] at he
      exact Or.imp (ihc he.1) (Or.imp (iha he.2.1) (ihb he.2.2))
  | pow a b iha _ =>
    simp only [Expr.put]
    split_ifs
    · exact fun h => h.elim
    · simp only [Expr.free, Bool.and_eq_true] at he
      exact Or.imp (iha he.1) (fr _ he.2)
  | le a b iha ihb | lt a b iha ihb =>
    simp only [Expr.put]
    split_ifs
    · exact fun h => h.elim
    · simp only [Expr.free, Bool.and_eq_true] at he
      refine Or.imp (iha he.1) (Or.imp (ihb he.2) ?_)
      rw [put_seval hT h0 a he.1, put_seval hT h0 b he.2, literals_put]
      exact fun h => h
  | add a b iha ihb | sub a b iha ihb | mul a b iha ihb | div a b iha ihb =>
    simp only [Expr.put]
    split_ifs
    · exact fun h => h.elim
    · simp only [Expr.free, Bool.and_eq_true] at he
      exact Or.imp (iha he.1) (ihb he.2)

section
variable {P : Prims} {E : Env} {V : Vars} {C : ACfg} (G : Good C E V)

include G in
theorem regH_ok {A : Trie AV} {D : Trie Bool} {S R : Nat → Option Val} (hT : TrieOk P E V A S) (hD : RegOk A D S R) (hf : Trie.get 20 A hintTmp = none) {h : Hint}
    (hh : ∀ x, sNum (seval P E S h.e) = some x → h.I.Has x) {e : Expr} (hr : regH C A D h e = true) (ht : ¬tied P E S e) : reval P E R e = seval P E S e := by
  obtain ⟨h1, h2⟩ := band_t.mp hr
  obtain ⟨h1, h3⟩ := band_t.mp h1
  rw [AV.force_eq] at h2
  have hm : AVOk P E V S ((aev C A h.e).meet h.I) (seval P E S h.e) := by
    have := aev_ok G hT h.e
    revert this
    cases aev C A h.e with
    | undef => exact fun _ => trivial
    | bool _ _ => exact fun _ => trivial
    | num J t =>
      rintro ⟨x, hx, hJ, ht⟩
      exact ⟨x, hx, hJ.meet (hh x (by rw [hx]; rfl)), ht⟩
  have hT' := trie_set hT (n := hintTmp) le_rfl hf hm
  have hD' : RegOk (Trie.set ((aev C A h.e).meet h.I) 20 A hintTmp) (Trie.set (regE C A D h.e) 20 D hintTmp) (Function.update S hintTmp (seval P E S h.e))
      (Function.update R hintTmp (reval P E R h.e)) := by
    intro m x hm
    rcases Trie.get_set _ _ _ _ _ _ hm with ⟨e1, e2⟩ | ⟨e1, e2⟩
    · subst e1; subst e2
      rw [Function.update_self, Function.update_self]
      exact ⟨by rw [Trie.get_set_self _ 19 _ _ (by decide)]; exact Option.some_ne_none _, fun hr => regE_ok G hT hD h.e hr (noCmp_ok h3)⟩
    · rw [Function.update_of_ne e1, Function.update_of_ne e1]
      exact ⟨fun h => (hD m x e2).1 (Trie.get_set_none _ _ _ _ _ h), (hD m x e2).2⟩
  have hS : ∀ n, n ≠ hintTmp → Function.update S hintTmp (seval P E S h.e) n = S n := fun n hn => Function.update_of_ne hn _ _
  have key := regE_ok G hT' hD' _ h2 fun h4 => ht (put_tied hS (Function.update_self _ _ _) e h1 h4)
  rwa [put_reval (T := R) (h := h.e) (fun n hn => Function.update_of_ne hn _ _) (Function.update_self _ _ _) e h1,
    put_seval (T := S) (h := h.e) hS (Function.update_self _ _ _) e h1] at key

include G in
theorem regHs_ok {A : Trie AV} {D : Trie Bool} {S R : Nat → Option Val} (hT : TrieOk P E V A S) (hD : RegOk A D S R) (hf : Trie.get 20 A hintTmp = none) {hs : List Hint}
    {i : Nat} (hh : ∀ h ∈ hs, h.pos = i → ∀ x, sNum (seval P E S h.e) = some x → h.I.Has x) {e : Expr} (hr : regHs C A D hs i e = true) (ht : ¬tied P E S e) :
    reval P E R e = seval P E S e := by
  induction hs with
  | nil => exact regE_ok G hT hD e hr ht
  | cons h hs ih =>
    change (kif Nat.beq h.pos i then regH C A D h e else regHs C A D hs i e) = true at hr
    rw [kif_beq] at hr
    split_ifs at hr with h1
    · exact regH_ok G hT hD hf (hh h List.mem_cons_self h1) hr ht
    · exact ih (fun g hg => hh g (List.mem_cons_of_mem _ hg)) hr

theorem rexec_append (a b : List (Nat × Expr)) (T : Nat → Option Val) : rexec P E (a ++ b) T = rexec P E b (rexec P E a T) := by
  induction a generalizing T with
  | nil => rfl
  | cons x a ih => obtain ⟨n, e⟩ := x; exact ih _

include G in
theorem rhbody_ok {p : Prog} {hs : List Hint} (hh : ∀ h ∈ hs, h.Ok P E p) (b : List (Nat × Expr)) :
    ∀ (pre : List (Nat × Expr)) (A : Trie AV) (D : Trie Bool) (k : Nat → Trie AV → Trie Bool → Bool), p.body = pre ++ b → TrieOk P E V A (sexec P E pre fun _ => none) →
      RegOk A D (sexec P E pre fun _ => none) (rexec P E pre fun _ => none) → Trie.get 20 A hintTmp = none → ¬tiedBody P E b (sexec P E pre fun _ => none) →
      rhbody C hs b pre.length A D k = true →
      ∃ A' D', TrieOk P E V A' (sexec P E p.body fun _ => none) ∧ RegOk A' D' (sexec P E p.body fun _ => none) (rexec P E p.body fun _ => none) ∧
        Trie.get 20 A' hintTmp = none ∧ k p.body.length A' D' = true := by
  induction b with
  | nil =>
    intro pre A D k hp hT hD hf _ h
    rw [List.append_nil] at hp
    exact ⟨A, D, by rw [hp]; exact hT, by rw [hp]; exact hD, hf, by rw [hp]; exact h⟩
  | cons ne r ih =>
    obtain ⟨n, e⟩ := ne
    intro pre A D k hp hT hD hf ht h
    change Option.rec ((aevHs C A hs pre.length e).force fun v =>
        kif regHs C A D hs pre.length e then rhbody C hs r (Nat.succ pre.length) (Trie.set v 20 A n) (Trie.set true 20 D n) k
          else rhbody C hs r (Nat.succ pre.length) (Trie.set v 20 A n) D k)
      (fun _ => false) (kif Nat.ble n 499999 then Trie.get 20 A n else some .undef) = true at h
    rw [kif_ble] at h
    split_ifs at h with hn
    cases hg : Trie.get 20 A n with
    | some a => rw [hg] at h; cases h
    | none =>
      rw [hg] at h
      change ((aevHs C A hs pre.length e).force fun v =>
        kif regHs C A D hs pre.length e then rhbody C hs r (Nat.succ pre.length) (Trie.set v 20 A n) (Trie.set true 20 D n) k
          else rhbody C hs r (Nat.succ pre.length) (Trie.set v 20 A n) D k) = true at h
      rw [AV.force_eq, kif_eq] at h
      have hh' : ∀ g ∈ hs, g.pos = pre.length → ∀ x, sNum (seval P E (sexec P E pre fun _ => none) g.e) = some x → g.I.Has x := fun g hg hpos x hx => hh g hg x (by
        show sNum (seval P E (sexec P E (p.body.take g.pos) fun _ => none) g.e) = some x
        rw [hpos, hp, List.take_left]; exact hx)
      have hv := aevHs_ok G hT hf hh' e
      have hT' : TrieOk P E V (Trie.set (aevHs C A hs pre.length e) 20 A n) (sexec P E (pre ++ [(n, e)]) fun _ => none) := by
        rw [sexec_append]
        exact trie_set hT (by omega) hg hv
      have hf' : Trie.get 20 (Trie.set (aevHs C A hs pre.length e) 20 A n) hintTmp = none := by
        cases hm : Trie.get 20 (Trie.set (aevHs C A hs pre.length e) 20 A n) hintTmp with
        | none => rfl
        | some a =>
          rcases Trie.get_set _ _ _ _ _ _ hm with ⟨e1, _⟩ | ⟨_, e2⟩
          · exact absurd e1 (by unfold hintTmp; omega)
          · rw [hf] at e2; cases e2
      have ht' : ¬tiedBody P E r (sexec P E (pre ++ [(n, e)]) fun _ => none) := by
        rw [sexec_append]
        exact fun h => ht (.inr h)
      have hp' : p.body = (pre ++ [(n, e)]) ++ r := by rw [hp, List.append_assoc]; rfl
      have hl : (pre ++ [(n, e)]).length = Nat.succ pre.length := by rw [List.length_append]; rfl
      have same : RegOk (Trie.set (aevHs C A hs pre.length e) 20 A n) D (sexec P E (pre ++ [(n, e)]) fun _ => none) (rexec P E (pre ++ [(n, e)]) fun _ => none) := by
        rw [sexec_append, rexec_append]
        intro m x hm
        have hne : m ≠ n := by rintro rfl; exact (hD m x hm).1 hg
        simp only [sexec, rexec]
        rw [Function.update_of_ne hne, Function.update_of_ne hne]
        exact ⟨fun h => (hD m x hm).1 (Trie.get_set_none _ _ _ _ _ h), (hD m x hm).2⟩
      split_ifs at h with hr
      · refine ih (pre ++ [(n, e)]) _ _ k hp' hT' ?_ hf' ht' (by rw [hl]; exact h)
        intro m x hm
        rcases Trie.get_set _ _ _ _ _ _ hm with ⟨e1, e2⟩ | ⟨e1, e2⟩
        · subst e1
          rw [sexec_append, rexec_append]
          simp only [sexec, rexec]
          rw [Function.update_self, Function.update_self]
          exact ⟨by rw [Trie.get_set_self _ 19 _ _ (by omega)]; exact Option.some_ne_none _, fun _ => regHs_ok G hT hD hf hh' hr fun h => ht (.inl h)⟩
        · exact same m x e2
      · exact ih (pre ++ [(n, e)]) _ _ k hp' hT' same hf' ht' (by rw [hl]; exact h)

include G in
theorem rhcheck_ok {p : Prog} {hs : List Hint} (hh : ∀ h ∈ hs, h.Ok P E p) (h : rhcheck C hs p = true) (ht : ¬Tied P E p) : (rrun P E p).isSome := by
  obtain ⟨body, res⟩ := p
  have h0 : TrieOk P E V .leaf (sexec P E [] fun _ => none) := fun n => by rw [Trie.get_leaf]; rfl
  obtain ⟨A, D, hA, hD, hf, hr⟩ := rhbody_ok G hh body [] .leaf .leaf _ rfl h0 (fun n x h => by rw [Trie.get_leaf] at h; cases h) (Trie.get_leaf _ _) (fun h => ht (.inl h)) h
  obtain ⟨h1, h2⟩ := band_t.mp hr
  have hh' : ∀ g ∈ hs, g.pos = body.length → ∀ x, sNum (seval P E (sexec P E body fun _ => none) g.e) = some x → g.I.Has x := fun g hg hpos x hx => hh g hg x (by
    show sNum (seval P E (sexec P E (body.take g.pos) fun _ => none) g.e) = some x
    rw [hpos, List.take_length]; exact hx)
  have key := regHs_ok G hA hD hf hh' h1 fun h => ht (.inr h)
  have ha := aevHs_ok G hA hf hh' res
  unfold rrun
  rw [key]
  revert h2 ha
  cases aevHs C A hs body.length res with
  | undef => exact fun h => nomatch h
  | bool _ _ => exact fun h => nomatch h
  | num I t =>
    rintro - ⟨x, hx, -⟩
    rw [hx]
    rfl

end

/-- More is assumed. -/
theorem PolHint.strong {a : Assume} {fam : Fam} {q : Prog} {h : Hint} (hh : PolHint a fam q h) : PolHint {a with sPos := true} fam q h :=
  fun P E p r0 r1 s0 s1 s2 l0 l1 t0 t1 c =>
    have r := c.hrec
    hh P E p r0 r1 s0 s1 s2 l0 l1 t0 t1 {c with hrec := ⟨r.dens, r.zeta, r.zeta1, r.params, r.neg, r.flds, r.zetaSmall, r.le, r.ge⟩, hs := fun _ => c.hs rfl}

/-- More is assumed. -/
theorem UnpolHint.strong {a : Assume} {fam : Fam} {q : Prog} {h : Hint} (hh : UnpolHint a fam q h) : UnpolHint {a with sPos := true} fam q h :=
  fun P E p ρ σ l τ c =>
    have r := c.hrec
    hh P E p ρ σ l τ {c with hrec := ⟨r.dens, r.zeta, r.zeta1, r.params, r.neg, r.flds, r.zetaSmall, r.le, r.ge⟩, hs := fun _ => c.hs rfl}

theorem regularPolH_of (a : Assume) (hv : a.vw = false) {fam : Fam} {f : Formula} {hs : List Hint} (hh : ∀ h ∈ hs, PolHint a fam f.polBody h)
    {par npar flds : List Nat} (hp : a.params.map nameCode = par) (hn : a.neg.map nameCode = npar) (hf : a.flds.map fldNo = flds)
    (h : rhcheck (acfg true fam a.sPos a.tPos par npar flds) hs f.polBody = true) : RegularPol a fam f := by
  intro P p r0 r1 s0 s1 s2 l0 l1 t0 t1 hrec h0 h1 hs0 hs2 hst ht0 ht1 hs' ht
  subst hp; subst hn; subst hf
  have c : PolCtx a fam _ p r0 r1 s0 s1 s2 l0 l1 t0 t1 := ⟨rfl, hrec, h0, h1, hs0, hs2, hst, ht0, ht1, hs', ht, fun h => by rw [hv] at h; cases h⟩
  exact rhcheck_ok (P := P) c.good (fun g hg => hh g hg P _ p r0 r1 s0 s1 s2 l0 l1 t0 t1 c) h

theorem regularUnpolH_of (a : Assume) (hv : a.vw = false) {fam : Fam} {f : Formula} {hs : List Hint} (hh : ∀ h ∈ hs, UnpolHint a fam f.unpolBody h)
    {par npar flds : List Nat} (hp : a.params.map nameCode = par) (hn : a.neg.map nameCode = npar) (hf : a.flds.map fldNo = flds)
    (h : rhcheck (acfg false fam a.sPos a.tPos par npar flds) hs f.unpolBody = true) : RegularUnpol a fam f := by
  intro P p ρ σ l τ hrec hρ hσ hτ hs' ht
  subst hp; subst hn; subst hf
  have c : UnpolCtx a fam _ p ρ σ l τ := ⟨rfl, hrec, hρ, hσ, hτ, hs', ht, fun h => by rw [hv] at h; cases h⟩
  exact rhcheck_ok (P := P) c.good (fun g hg => hh g hg P _ p ρ σ l τ c) h

end

end Verif.Norm
