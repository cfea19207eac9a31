import Verif.Norm.Published
import Verif.Spec.Untied
/-!
# Checks for the absence of ties

Proof machinery for C63: the comparisons of a body are collected, and the difference of the two sides of each of them is shown not to vanish.
-/
namespace Verif.Norm
open Verif.Py Verif.Model Verif.Spec

set_option linter.unusedSimpArgs false

noncomputable section

/-- The expression is a literal. -/
def isLit (e : Expr) : Bool :=
  match e with
  | .num _ _ => true
  | _ => false

/-- The comparison `a ? b`, unless both sides are literals. -/
def cmp1 (a b : Expr) (l : List (Expr × Expr)) : List (Expr × Expr) := kif (kif isLit a then isLit b else false) then l else (a, b) :: l

/-- The comparisons in an expression, put before `l`. -/
def cmps (e : Expr) : List (Expr × Expr) → List (Expr × Expr) :=
  Expr.rec (fun _ _ l => l) (fun l => l) (fun _ l => l) (fun _ l => l) (fun _ l => l) (fun _ l => l) (fun _ ia l => ia l)
    (fun _ _ ia ib l => ia (ib l)) (fun _ _ ia ib l => ia (ib l)) (fun _ _ ia ib l => ia (ib l)) (fun _ _ ia ib l => ia (ib l)) (fun _ _ ia ib l => ia (ib l))
    (fun a b ia ib l => ia (ib (cmp1 a b l))) (fun a b ia ib l => ia (ib (cmp1 a b l))) (fun a b ia ib l => ia (ib (cmp1 a b l)))
    (fun _ _ ia ib l => ia (ib l)) (fun _ _ ia ib l => ia (ib l)) (fun _ _ _ ic ia ib l => ic (ia (ib l))) (fun _ _ ia l => ia l) (fun _ _ _ ia ib l => ia (ib l))
    (fun _ l => l) e

/-- Continue if the truth value is `False`. -/
def isFalse (v : V) (k : Bool) : Bool := V.rec (fun _ => false) (fun t b => kif isOne t then (kif b then k else false) else false) v

def tieList (C : Cfg) (S : Sub) (T : Trie V) (l : List (Expr × Expr)) : St → (St → Bool) → Bool :=
  List.rec (fun s k => k s) (fun ab _ ih s k => Prod.rec (fun a b => ev C S T (.eq a b) s fun v s => isFalse v (ih s k)) ab) l

def tieBody (C : Cfg) (S : Sub) (b : List (Nat × Expr)) : Trie V → St → (Trie V → St → Bool) → Bool :=
  List.rec (fun T s k => k T s) (fun ne _ ih T s k =>
    Prod.rec (fun n e => tieList C S T (cmps e []) s fun s => ev C S T e s fun v s => ih (Trie.set v 20 T n) s k) ne) b

def tieProg (pr : List Nat) (C : Cfg) (S : Sub) (P : Prog) : Bool :=
  Prog.rec (fun body res => tieBody C S body .leaf (st0 pr) fun T s => tieList C S T (cmps res []) s fun s => ordChk s.tab 1) P

theorem not_literals {a b : Expr} (h : ¬literals a b) : (kif isLit a then isLit b else false) = false := by
  cases a <;> cases b <;> first | rfl | exact absurd trivial h

theorem cmps_mem {P : Prims} {E : Env} {T : Nat → Option Val} (e : Expr) :
    ∀ l : List (Expr × Expr), l ⊆ cmps e l ∧ (tied P E T e → ∃ ab ∈ cmps e l, ∃ x, seval P E T ab.1 = some (.num x) ∧ seval P E T ab.2 = some (.num x)) := by
  have bin : ∀ (a b : Expr), (∀ l : List (Expr × Expr), l ⊆ cmps a l ∧ (tied P E T a → ∃ ab ∈ cmps a l, ∃ x, seval P E T ab.1 = some (.num x) ∧ seval P E T ab.2 = some (.num x))) →
      (∀ l : List (Expr × Expr), l ⊆ cmps b l ∧ (tied P E T b → ∃ ab ∈ cmps b l, ∃ x, seval P E T ab.1 = some (.num x) ∧ seval P E T ab.2 = some (.num x))) →
      ∀ l : List (Expr × Expr), l ⊆ cmps a (cmps b l) ∧ (tied P E T a ∨ tied P E T b →
        ∃ ab ∈ cmps a (cmps b l), ∃ x, seval P E T ab.1 = some (.num x) ∧ seval P E T ab.2 = some (.num x)) := by
    intro a b ia ib l
    refine ⟨fun _ h => (ia _).1 ((ib l).1 h), ?_⟩
    rintro (h | h)
    · exact (ia _).2 h
    · obtain ⟨ab, h1, h2⟩ := (ib l).2 h
      exact ⟨ab, (ia _).1 h1, h2⟩
  have cmp : ∀ (a b : Expr), (∀ l : List (Expr × Expr), l ⊆ cmps a l ∧ (tied P E T a → ∃ ab ∈ cmps a l, ∃ x, seval P E T ab.1 = some (.num x) ∧ seval P E T ab.2 = some (.num x))) →
      (∀ l : List (Expr × Expr), l ⊆ cmps b l ∧ (tied P E T b → ∃ ab ∈ cmps b l, ∃ x, seval P E T ab.1 = some (.num x) ∧ seval P E T ab.2 = some (.num x))) →
      ∀ l : List (Expr × Expr), l ⊆ cmps a (cmps b (cmp1 a b l)) ∧
        (tied P E T a ∨ tied P E T b ∨ ¬literals a b ∧ (∃ x, seval P E T a = some (.num x) ∧ seval P E T b = some (.num x)) →
        ∃ ab ∈ cmps a (cmps b (cmp1 a b l)), ∃ x, seval P E T ab.1 = some (.num x) ∧ seval P E T ab.2 = some (.num x)) := by
    intro a b ia ib l
    obtain ⟨h1, h2⟩ := bin a b ia ib (cmp1 a b l)
    have hl : l ⊆ cmp1 a b l := by
      unfold cmp1
      cases (kif isLit a then isLit b else false)
      · exact List.subset_cons_self _ _
      · exact fun _ h => h
    refine ⟨fun _ h => h1 (hl h), ?_⟩
    rintro (h | h | ⟨h, x, hx⟩)
    · exact h2 (.inl h)
    · exact h2 (.inr h)
    · refine ⟨(a, b), h1 ?_, x, hx⟩
      unfold cmp1
      rw [not_literals h]
      exact List.mem_cons_self
  induction e with
  | num | pi | inp | fld | param | tmp | undef => exact fun l => ⟨fun _ h => h, fun h => h.elim⟩
  | neg a ia => exact ia
  | call1 f a ia => exact ia
  | add a b ia ib => exact bin a b ia ib
  | sub a b ia ib => exact bin a b ia ib
  | mul a b ia ib => exact bin a b ia ib
  | div a b ia ib => exact bin a b ia ib
  | pow a b ia ib => exact bin a b ia ib
  | lor a b ia ib => exact bin a b ia ib
  | land a b ia ib => exact bin a b ia ib
  | call2 f a b ia ib => exact bin a b ia ib
  | le a b ia ib => exact cmp a b ia ib
  | lt a b ia ib => exact cmp a b ia ib
  | eq a b ia ib => exact cmp a b ia ib
  | cond c a b ic ia ib =>
    intro l
    obtain ⟨h1, h2⟩ := bin a b ia ib l
    refine ⟨fun _ h => (ic _).1 (h1 h), ?_⟩
    rintro (h | h)
    · exact (ic _).2 h
    · obtain ⟨ab, h3, h4⟩ := h2 h
      exact ⟨ab, (ic _).1 h3, h4⟩

section
variable {C : Cfg} {K : Ctx} {S : Sub} {E : Env}

theorem eq_vals {P : Prims} {T : Nat → Option Val} {a b : Expr} {w : Val} (h : eval P E T (.eq a b) = .ok w) :
    ∃ x y, eval P E T a = .ok (.num x) ∧ eval P E T b = .ok (.num y) ∧ w = .bool (x = y) := by
  obtain ⟨u, e1, h⟩ := ebind h
  obtain ⟨x, e2, h⟩ := ebind h
  obtain ⟨v, e3, h⟩ := ebind h
  obtain ⟨y, e4, h⟩ := ebind h
  obtain rfl := toNum_ok e2
  obtain rfl := toNum_ok e4
  exact ⟨x, y, e1, e3, (Except.ok.inj h).symm⟩

theorem isFalse_eq {v : V} {k : Bool} (h : isFalse v k = true) : v = .bool one true ∧ k = true := by
  cases v with
  | num p => exact absurd h Bool.false_ne_true
  | bool t b =>
    change (kif isOne t then (kif b then k else false) else false) = true at h
    rw [kand] at h
    obtain ⟨h1, h⟩ := h
    rw [kand] at h
    obtain ⟨rfl, h⟩ := h
    exact ⟨by rw [isOne_eq h1], h⟩

theorem tieList_spec (hp : PosOk C.U K.vp) (hC : C.facts = K.facts) {T : Trie V} {T' : Nat → Option Val} (l : List (Expr × Expr)) {s : St} {k : St → Bool}
    (hS : SubOk C K S E s) (hT : TOk K s T T') (hw : s.WF) (h : tieList C S T l s k = true) :
    ∃ s1, Step s s1 ∧ k s1 = true ∧ ∀ vc, Ok K vc s1 → ∀ ab ∈ l, ∃ x y, eval K.P E T' ab.1 = .ok (.num x) ∧ eval K.P E T' ab.2 = .ok (.num y) ∧ x ≠ y := by
  induction l generalizing s with
  | nil => exact ⟨s, Step.refl hw, h, fun _ _ _ h => nomatch h⟩
  | cons ab l ih =>
    obtain ⟨a, b⟩ := ab
    change ev C S T (.eq a b) s (fun v s => isFalse v (tieList C S T l s k)) = true at h
    obtain ⟨v, s1, hs1, ⟨w, hwv, hv⟩, h⟩ := ev_spec hp hC _ s _ hS hT hw h
    obtain ⟨rfl, h⟩ := isFalse_eq h
    obtain ⟨x, y, ex, ey, rfl⟩ := eq_vals hwv
    obtain ⟨s2, hs2, hk, h⟩ := ih (hS.mono hs1) (hT.mono hs1) hs1.wf h
    refine ⟨s2, hs1.trans hs2, hk, fun vc ho ab hab => ?_⟩
    rcases List.mem_cons.1 hab with rfl | hab
    · exact ⟨x, y, ex, ey, fun e => tr_one_true (K := K) vc ((hv vc (hs2.ok ho)).2 e)⟩
    · exact h vc ho ab hab

theorem not_tied {P : Prims} {T T' : Nat → Option Val} (hT : Ext T T') {e : Expr}
    (h : ∀ ab ∈ cmps e [], ∃ x y, eval P E T' ab.1 = .ok (.num x) ∧ eval P E T' ab.2 = .ok (.num y) ∧ x ≠ y) : ¬tied P E T e := by
  intro ht
  obtain ⟨ab, hm, z, h1, h2⟩ := (cmps_mem e []).2 ht
  obtain ⟨x, y, e1, e2, hn⟩ := h ab hm
  have a1 := eval_agree hT _ _ _ h1 e1
  have a2 := eval_agree hT _ _ _ h2 e2
  exact hn ((Val.num.inj a1).symm.trans (Val.num.inj a2))

theorem tieBody_spec (hp : PosOk C.U K.vp) (hC : C.facts = K.facts) (b : List (Nat × Expr)) {T : Trie V} {T' : Nat → Option Val} {s : St}
    {k : Trie V → St → Bool} (hS : SubOk C K S E s) (hT : TOk K s T T') (hw : s.WF) (h : tieBody C S b T s k = true) :
    ∃ T1 s1 T1', Step s s1 ∧ exec K.P E b T' = .ok T1' ∧ TOk K s1 T1 T1' ∧ k T1 s1 = true ∧
      ∀ vc, Ok K vc s1 → ∀ T0, Ext T0 T' → ¬tiedBody K.P E b T0 := by
  induction b generalizing T T' s with
  | nil => exact ⟨T, s, T', Step.refl hw, rfl, hT, h, fun _ _ _ _ h => h⟩
  | cons ne b ih =>
    obtain ⟨n, e⟩ := ne
    change tieList C S T (cmps e []) s (fun s => ev C S T e s fun v s => tieBody C S b (Trie.set v 20 T n) s k) = true at h
    obtain ⟨s0, hs0, h, hl⟩ := tieList_spec hp hC _ hS hT hw h
    obtain ⟨v, s1, hs1, ⟨w, hwv, hv⟩, h⟩ := ev_spec hp hC e s0 _ (hS.mono hs0) (hT.mono hs0) hs0.wf h
    have hT1 : TOk K s1 (Trie.set v 20 T n) (Function.update T' n (some w)) := by
      intro n' v' hg
      rcases Trie.get_set _ _ _ _ _ _ hg with ⟨rfl, rfl⟩ | ⟨h1, h2⟩
      · exact ⟨w, by simp, hv⟩
      · obtain ⟨w', h3, h4⟩ := hT n' v' h2
        exact ⟨w', by rw [Function.update_of_ne h1]; exact h3, h4.mono (hs0.trans hs1)⟩
    obtain ⟨T1, s2, T1', hs2, hex, hT2, h, hb⟩ := ih (hS.mono (hs0.trans hs1)) hT1 hs1.wf h
    refine ⟨T1, s2, T1', (hs0.trans hs1).trans hs2, by simp [exec, hwv, ok_bind, hex], hT2, h, fun vc ho T0 hE => ?_⟩
    rintro (ht | ht)
    · exact not_tied hE (hl vc ((hs1.trans hs2).ok ho)) ht
    · refine hb vc ho _ ?_ ht
      intro m u hm
      by_cases hmn : m = n
      · subst hmn
        rw [Function.update_self] at hm ⊢
        rw [eval_agree hE e _ _ hm hwv]
      · rw [Function.update_of_ne hmn] at hm ⊢
        exact hE m u hm

/-- **Soundness of the check.** -/
theorem tieProg_sound {pr : List Nat} (hpr : ∀ p ∈ pr, p.Prime) (hp : PosOk C.U K.vp) (hC : C.facts = K.facts) (h0 : NnOk K.vb) (hf : FactsHold K (st0 pr))
    {P : Prog} (hS : SubOk C K S E (st0 pr)) (h : tieProg pr C S P = true) : ¬Tied K.P E P := by
  obtain ⟨body, res⟩ := P
  change tieBody C S body .leaf (st0 pr) (fun T s => tieList C S T (cmps res []) s fun s => ordChk s.tab 1) = true at h
  have hT0 : TOk K (st0 pr) .leaf (fun _ => none) := by
    intro n v hv
    rw [Trie.get_leaf] at hv
    cases hv
  obtain ⟨T1, s1, T1', hs1, hex, hT1, h, hb⟩ := tieBody_spec hp hC body hS hT0 (st0_wf hpr) h
  obtain ⟨s2, hs2, ho, hl⟩ := tieList_spec hp hC _ (hS.mono hs1) hT1 hs1.wf h
  obtain ⟨vc, hvc⟩ := exists_ok hs2.wf ho h0 (hf.mono (hs1.trans hs2))
  rintro (ht | ht)
  · exact hb vc (hs2.ok hvc) _ (fun _ _ h => h) ht
  · exact not_tied (exec_agree body _ _ _ (fun _ _ h => h) hex) (hl vc hvc) ht

end

/-! ## Claims -/

/-- `zeta_threshold < 1`, and `dens_threshold` is below (`true`) or above `r / 2`. -/
def tuFacts (U : Nat) (b : Bool) : Facts :=
  fZ U (kif b then fNeg (lin2 (Nat.pow 2 U) (Nat.pow 31 U) 0 1 1 2 0 1) .nil else fNeg (lin2 (Nat.pow 2 U) (Nat.pow 31 U) 1 0 1 0 2 1) .nil)

def tieUnpol (cap : Nat) (fam : Fam) (f : Formula) (b : Bool) : Bool := tieProg primes ⟨12, cap, tuFacts 12 b⟩ (subUnpol 12 fam) f.unpolBody

theorem untiedUnpol_of {cap : Nat} {fam : Fam} {f : Formula} (h : tieUnpol cap fam f true = true) (h' : tieUnpol cap fam f false = true) : UntiedUnpol fam f := by
  intro P p ρ σ l τ ht hρ hσ hτ hz hd
  let c : Base := ⟨P, ρ, 1, σ, 0, 0, l, 0, τ, 0, 1, p⟩
  have hb : c.Pos := ⟨hρ, one_pos, hσ, le_rfl, hτ, le_rfl, one_pos, ht.zeta, ht.dens⟩
  have hU : (12 : ℕ) ≠ 0 := by norm_num
  have key : ∀ b : Bool, (if b then p.fld .densThreshold < ρ / 2 else ρ / 2 < p.fld .densThreshold) → tieUnpol cap fam f b = true →
      ¬Tied P (unpolEnv p ρ (fam.grad σ) (fam.meta l) (fam.meta τ)) f.unpolBody := by
    intro b hd h
    have hf : FactsHold (c.ctx 12 (tuFacts 12 b)) (st0 primes) := by
      intro vc _ _
      have v := posVals (F := tuFacts 12 b) hb hU
      cases b
      · refine fZ_ok v hz (fNeg_ok ?_ trivial)
        rw [lin2_den]; simp only [v.a2, v.a31, c, if_false, Bool.false_eq_true] at hd ⊢; norm_num; linarith
      · refine fZ_ok v hz (fNeg_ok ?_ trivial)
        rw [lin2_den]; simp only [v.a2, v.a31, c, if_true] at hd ⊢; norm_num; linarith
    exact tieProg_sound (K := c.ctx 12 (tuFacts 12 b)) primes_prime (ctx_pos hb hU) rfl (ctx_nn hb) hf (subUnpol_ok hb hU fam) h
  rcases lt_or_gt_of_ne hd with hd | hd
  · exact key false hd h'
  · exact key true hd h

def tiePol (cap : Nat) (fam : Fam) (f : Formula) : Bool := tieProg primes ⟨12, cap, ssFacts 12⟩ (subId fam) f.polBody

theorem untiedPol_of {cap : Nat} {fam : Fam} {f : Formula} (h : tiePol cap fam f = true) : UntiedPol fam f := by
  intro P p r0 r1 s0 s1 s2 l0 l1 t0 t1 ht h0 h1 hs0 hs2 ht0 ht1 hu
  let c : Base := ⟨P, r0, r1, s0, s1, s2, l0, l1, t0, t1, r0 + r1, p⟩
  have hb : c.Pos := ⟨h0, h1, hs0, hs2, ht0, ht1, add_pos h0 h1, ht.zeta, ht.dens⟩
  have hU : (12 : ℕ) ≠ 0 := by norm_num
  have hP := fun (p : Poly) vc => postN_den (F := ssFacts 12) hb hU rfl p vc
  have hs := subP_ok (F := ssFacts 12) (cap := cap) (pr := primes) (R0 := r0) (R1 := r1) (S0 := s0) (S1 := s1) (S2 := s2) (L0 := l0) (L1 := l1) (T0 := t0) (T1 := t1)
    hb hU fam hP (idVals (b := c))
  exact tieProg_sound (K := c.ctx 12 (ssFacts 12)) primes_prime (ctx_pos hb hU) rfl (ctx_nn hb) (ssFacts_hold hb hU rfl hu _) hs h

end
end Verif.Norm
