import Verif.Norm.IntervalSound
/-!
# Interval analysis with hints

Proof machinery for C49.  A hint says that at a certain statement a certain part of the right-hand side lies in a certain interval; this is proved separately
(`Hint.Ok`).  `hcheck` is `acheck` with hints.
-/
namespace Verif.Norm
open Verif.Py Verif.Spec Verif.Model

noncomputable section

/-- At statement number `pos` (counted from 0, the last one is `res`) the value of `e` lies in `I`. -/
structure Hint where
  pos : Nat
  e : Expr
  I : Itv

/-- The temporary that stands for the part with the hint. -/
def hintTmp : Nat := 500000

/-- `e` with `hintTmp` for `h`. -/
def Expr.put (h : Expr) : Expr → Expr
  | .num m e => .num m e
  | .pi => .pi
  | .inp i => .inp i
  | .fld f => if h = .fld f then .tmp hintTmp else .fld f
  | .param c => if h = .param c then .tmp hintTmp else .param c
  | .tmp n => if h = .tmp n then .tmp hintTmp else if n = hintTmp then .undef 0 else .tmp n
  | .neg a => if h = .neg a then .tmp hintTmp else .neg (put h a)
  | .add a b => if h = .add a b then .tmp hintTmp else .add (put h a) (put h b)
  | .sub a b => if h = .sub a b then .tmp hintTmp else .sub (put h a) (put h b)
  | .mul a b => if h = .mul a b then .tmp hintTmp else .mul (put h a) (put h b)
  | .div a b => if h = .div a b then .tmp hintTmp else .div (put h a) (put h b)
  | .pow a b => if h = .pow a b then .tmp hintTmp else .pow (put h a) b
  | .le a b => if h = .le a b then .tmp hintTmp else .le (put h a) (put h b)
  | .lt a b => if h = .lt a b then .tmp hintTmp else .lt (put h a) (put h b)
  | .eq a b => .eq a b
  | .lor a b => .lor a b
  | .land a b => .land a b
  | .cond c a b => if h = .cond c a b then .tmp hintTmp else .cond (put h c) (put h a) (put h b)
  | .call1 f a => if h = .call1 f a then .tmp hintTmp else .call1 f (put h a)
  | .call2 f a b => .call2 f a b
  | .undef c => .undef c

/-- Does the expression not contain the temporary? -/
def Expr.free (n : Nat) : Expr → Bool
  | .num _ _ => true
  | .pi => true
  | .inp _ => true
  | .fld _ => true
  | .param _ => true
  | .tmp m => !(Nat.beq m n)
  | .neg a => free n a
  | .add a b => free n a && free n b
  | .sub a b => free n a && free n b
  | .mul a b => free n a && free n b
  | .div a b => free n a && free n b
  | .pow a b => free n a && free n b
  | .le a b => free n a && free n b
  | .lt a b => free n a && free n b
  | .eq a b => free n a && free n b
  | .lor a b => free n a && free n b
  | .land a b => free n a && free n b
  | .cond c a b => free n c && (free n a && free n b)
  | .call1 _ a => free n a
  | .call2 _ a b => free n a && free n b
  | .undef _ => true

/-- A number that also lies in `I`. -/
def AV.meet (a : AV) (I : Itv) : AV := AV.rec .undef (fun J t => .num (J.meet I) t) (fun _ _ => .undef) a

/-- A number. -/
def AV.onlyNum (a : AV) : AV := AV.rec .undef (fun J t => .num J t) (fun _ _ => .undef) a

/-- Abstract value of `e` by a hint. -/
def aevH (C : ACfg) (A : Trie AV) (h : Hint) (e : Expr) : AV :=
  kif Expr.free hintTmp e then (((aev C A h.e).meet h.I).force fun v => (aev C (Trie.set v 20 A hintTmp) (Expr.put h.e e)).onlyNum) else .undef

/-- Abstract value of the right-hand side of statement `i`. -/
def aevHs (C : ACfg) (A : Trie AV) (hs : List Hint) (i : Nat) (e : Expr) : AV :=
  List.rec (aev C A e) (fun h _ ih => kif Nat.beq h.pos i then aevH C A h e else ih) hs

/-- Run through a body; every temporary must be assigned once. -/
def hbody (C : ACfg) (hs : List Hint) (b : List (Nat × Expr)) : Nat → Trie AV → (Nat → Trie AV → Bool) → Bool :=
  List.rec (fun i T k => k i T) (fun ne _ ih i T k =>
    Prod.rec (fun n e => Option.rec ((aevHs C T hs i e).force fun v => ih (Nat.succ i) (Trie.set v 20 T n) k) (fun _ => false)
      (kif Nat.ble n 499999 then Trie.get 20 T n else some .undef)) ne) b

/-- Is the value of `res` defined, given the hints? -/
def hcheck (C : ACfg) (hs : List Hint) (p : Prog) : Bool :=
  Prog.rec (fun body res => hbody C hs body 0 .leaf fun i T => AV.rec false (fun _ _ => true) (fun _ _ => false) (aevHs C T hs i res)) p

/-- Is `a` at least as strong a bound as `b`? -/
def bdImp (a b : Bd) : Bool :=
  Bd.rec true (fun m t => Bd.rec false (fun n s => Int.rec (fun k => kif Nat.beq k 0 then (kif t then s else true) else true) (fun _ => false) (Int.sub n m)) a) b

/-- Does the value of `res` lie in `I`, given the hints? -/
def hres (C : ACfg) (hs : List Hint) (p : Prog) (I : Itv) : Bool :=
  Prog.rec (fun body res => hbody C hs body 0 .leaf fun i T =>
    AV.rec false (fun J _ => band (bdImp J.lo I.lo) (bdImp J.hi I.hi)) (fun _ _ => false) (aevHs C T hs i res)) p

/-- What a hint says of a program and an environment. -/
def Hint.Ok (P : Prims) (E : Env) (p : Prog) (h : Hint) : Prop := ∀ x, srun P E ⟨p.body.take h.pos, h.e⟩ = some x → h.I.Has x

/-! ## Soundness -/

theorem free_seval {P : Prims} {E : Env} {T T' : Nat → Option Val} (hT : ∀ n, n ≠ hintTmp → T' n = T n) (e : Expr) (he : Expr.free hintTmp e = true) :
    seval P E T' e = seval P E T e := by
  induction e with
  | num _ _ => rfl
  | pi => rfl
  | inp _ => rfl
  | fld _ => rfl
  | param _ => rfl
  | tmp m =>
    refine hT m ?_
    rintro rfl
    exact absurd he (by decide)
  | undef _ => rfl
  | neg a ih => have h := ih he; simp only [seval, h]
  | call1 f a ih => have h := ih he; simp only [seval, h]
  | cond c a b ihc iha ihb =>
    simp only [Expr.free, Bool.and_eq_true] at he
    have h1 := ihc he.1; have h2 := iha he.2.1; have h3 := ihb he.2.2
    simp only [seval, h1, h2, h3]
  | add a b iha ihb | sub a b iha ihb | mul a b iha ihb | div a b iha ihb | pow a b iha ihb | le a b iha ihb | lt a b iha ihb | eq a b iha ihb
  | lor a b iha ihb | land a b iha ihb | call2 f a b iha ihb =>
    simp only [Expr.free, Bool.and_eq_true] at he
    have h1 := iha he.1; have h2 := ihb he.2
    simp only [seval, h1, h2]

theorem put_seval {P : Prims} {E : Env} {T T' : Nat → Option Val} {h : Expr} (hT : ∀ n, n ≠ hintTmp → T' n = T n) (h0 : T' hintTmp = seval P E T h) (e : Expr)
    (he : Expr.free hintTmp e = true) : seval P E T' (Expr.put h e) = seval P E T e := by
  have key : ∀ e, h = e → seval P E T' (.tmp hintTmp) = seval P E T e := fun e hh => by rw [← hh]; exact h0
  have fr : ∀ e, Expr.free hintTmp e = true → seval P E T' e = seval P E T e := fun e he => free_seval hT e he
  induction e with
  | num _ _ => rfl
  | pi => rfl
  | inp _ => rfl
  | fld f =>
    simp only [Expr.put]
    split_ifs with h1
    · exact key _ h1
    · rfl
  | param c =>
    simp only [Expr.put]
    split_ifs with h1
    · exact key _ h1
    · rfl
  | undef _ => rfl
  | tmp m =>
    have hm : m ≠ hintTmp := by rintro rfl; exact absurd he (by decide)
    simp only [Expr.put]
    split_ifs with h1
    · exact key _ h1
    · exact hT m hm
  | eq a b _ _ | lor a b _ _ | land a b _ _ | call2 f a b _ _ => exact fr _ he
  | neg a ih =>
    simp only [Expr.put]
    split_ifs with h1
    · exact key _ h1
    · have h := ih he; simp only [seval, h]
  | call1 f a ih =>
    simp only [Expr.put]
    split_ifs with h1
    · exact key _ h1
    · have h := ih he; simp only [seval, h]
  | cond c a b ihc iha ihb =>
    simp only [Expr.put]
    split_ifs with h1
    · exact key _ h1
    · simp only [Expr.free, Bool.and_eq_true] at he
      have h1 := ihc he.1; have h2 := iha he.2.1; have h3 := ihb he.2.2
      simp only [seval, h1, h2, h3]
  | pow a b iha _ =>
    simp only [Expr.put]
    split_ifs with h1
    · exact key _ h1
    · simp only [Expr.free, Bool.and_eq_true] at he
      have h1 := iha he.1; have h2 := fr _ he.2
      simp only [seval, h1, h2]
  | add a b iha ihb | sub a b iha ihb | mul a b iha ihb | div a b iha ihb | le a b iha ihb | lt a b iha ihb =>
    simp only [Expr.put]
    split_ifs with h1
    · exact key _ h1
    · simp only [Expr.free, Bool.and_eq_true] at he
      have h1 := iha he.1; have h2 := ihb he.2
      simp only [seval, h1, h2]

theorem trie_set {P : Prims} {E : Env} {V : Vars} {A : Trie AV} {T : Nat → Option Val} (hT : TrieOk P E V A T) {n : Nat}
    (hn : n ≤ 500000) (hg : Trie.get 20 A n = none) {a : AV} {v : Option Val} (ha : AVOk P E V T a v) : TrieOk P E V (Trie.set a 20 A n) (Function.update T n v) := by
  have hTn : T n = none := by have := hT n; rw [hg] at this; exact this
  have hext : Ext T (Function.update T n v) := fun m v hm => by
    rw [Function.update_of_ne]
    · exact hm
    · rintro rfl; rw [hTn] at hm; cases hm
  intro m
  cases hm : Trie.get 20 (Trie.set a 20 A n) m with
  | none =>
    have h1 := Trie.get_set_none _ _ _ _ _ hm
    have h2 : m ≠ n := by
      rintro rfl
      rw [Trie.get_set_self _ 19 _ _ (by omega)] at hm
      cases hm
    have := hT m
    rw [h1] at this
    simp only [Function.update_of_ne h2]
    exact this
  | some a =>
    rcases Trie.get_set _ _ _ _ _ _ hm with ⟨e1, e2⟩ | ⟨e1, e2⟩
    · subst e1; subst e2
      simp only [Function.update_self]
      exact ha.mono hext
    · have := hT m
      rw [e2] at this
      simp only [Function.update_of_ne e1]
      exact this.mono hext

theorem onlyNum_ok {P : Prims} {E : Env} {V : Vars} {T T' : Nat → Option Val} {a : AV} {v : Option Val} (h : AVOk P E V T' a v) : AVOk P E V T a.onlyNum v := by
  cases a with
  | undef => trivial
  | num I t => exact h
  | bool _ _ => trivial

theorem aevH_ok {P : Prims} {E : Env} {V : Vars} {C : ACfg} (G : Good C E V) {A : Trie AV} {T : Nat → Option Val} (hT : TrieOk P E V A T)
    (hf : Trie.get 20 A hintTmp = none) {h : Hint} (hh : ∀ x, sNum (seval P E T h.e) = some x → h.I.Has x) (e : Expr) :
    AVOk P E V T (aevH C A h e) (seval P E T e) := by
  unfold aevH
  simp only [kif_eq]
  split_ifs with he
  · rw [AV.force_eq]
    have hm : AVOk P E V T ((aev C A h.e).meet h.I) (seval P E T h.e) := by
      have := aev_ok G hT h.e
      revert this
      cases aev C A h.e with
      | undef => exact fun _ => trivial
      | bool _ _ => exact fun _ => trivial
      | num J t =>
        rintro ⟨x, hx, hJ, ht⟩
        exact ⟨x, hx, hJ.meet (hh x (by rw [hx]; rfl)), ht⟩
    have hT' := trie_set hT (n := hintTmp) le_rfl hf hm
    have := aev_ok G hT' (Expr.put h.e e)
    rw [put_seval (T := T) (h := h.e) (fun n hn => Function.update_of_ne hn _ _) (Function.update_self _ _ _) e he] at this
    exact onlyNum_ok this
  · trivial

theorem aevHs_ok {P : Prims} {E : Env} {V : Vars} {C : ACfg} (G : Good C E V) {A : Trie AV} {T : Nat → Option Val} (hT : TrieOk P E V A T)
    (hf : Trie.get 20 A hintTmp = none) {hs : List Hint} {i : Nat} (hh : ∀ h ∈ hs, h.pos = i → ∀ x, sNum (seval P E T h.e) = some x → h.I.Has x) (e : Expr) :
    AVOk P E V T (aevHs C A hs i e) (seval P E T e) := by
  induction hs with
  | nil => exact aev_ok G hT e
  | cons h hs ih =>
    change AVOk P E V T (kif Nat.beq h.pos i then aevH C A h e else aevHs C A hs i e) _
    rw [kif_beq]
    split_ifs with h1
    · exact aevH_ok G hT hf (hh h List.mem_cons_self h1) e
    · exact ih fun g hg => hh g (List.mem_cons_of_mem _ hg)

theorem sexec_append {P : Prims} {E : Env} (a b : List (Nat × Expr)) (T : Nat → Option Val) : sexec P E (a ++ b) T = sexec P E b (sexec P E a T) := by
  induction a generalizing T with
  | nil => rfl
  | cons x a ih => obtain ⟨n, e⟩ := x; exact ih _

theorem hbody_ok {P : Prims} {E : Env} {V : Vars} {C : ACfg} (G : Good C E V) {p : Prog} {hs : List Hint} (hh : ∀ h ∈ hs, h.Ok P E p) (b : List (Nat × Expr)) :
    ∀ (pre : List (Nat × Expr)) (A : Trie AV) (k : Nat → Trie AV → Bool), p.body = pre ++ b → TrieOk P E V A (sexec P E pre fun _ => none) →
      Trie.get 20 A hintTmp = none → hbody C hs b pre.length A k = true →
      ∃ A', TrieOk P E V A' (sexec P E p.body fun _ => none) ∧ Trie.get 20 A' hintTmp = none ∧ k p.body.length A' = true := by
  induction b with
  | nil =>
    intro pre A k hp hT hf h
    rw [List.append_nil] at hp
    exact ⟨A, by rw [hp]; exact hT, hf, by rw [hp]; exact h⟩
  | cons ne r ih =>
    obtain ⟨n, e⟩ := ne
    intro pre A k hp hT hf h
    change Option.rec ((aevHs C A hs pre.length e).force fun v => hbody C hs r (Nat.succ pre.length) (Trie.set v 20 A n) k) (fun _ => false)
      (kif Nat.ble n 499999 then Trie.get 20 A n else some .undef) = true at h
    rw [kif_ble] at h
    split_ifs at h with hn
    cases hg : Trie.get 20 A n with
    | some a => rw [hg] at h; cases h
    | none =>
      rw [hg] at h
      change ((aevHs C A hs pre.length e).force fun v => hbody C hs r (Nat.succ pre.length) (Trie.set v 20 A n) k) = true at h
      rw [AV.force_eq] at h
      have hv : AVOk P E V (sexec P E pre fun _ => none) (aevHs C A hs pre.length e) (seval P E (sexec P E pre fun _ => none) e) := by
        refine aevHs_ok G hT hf (fun g hg hpos x hx => hh g hg x ?_) e
        show sNum (seval P E (sexec P E (p.body.take g.pos) fun _ => none) g.e) = some x
        rw [hpos, hp, List.take_left]; exact hx
      have hT' : TrieOk P E V (Trie.set (aevHs C A hs pre.length e) 20 A n) (sexec P E (pre ++ [(n, e)]) fun _ => none) := by
        rw [sexec_append]
        exact trie_set hT (by omega) hg hv
      have hf' : Trie.get 20 (Trie.set (aevHs C A hs pre.length e) 20 A n) hintTmp = none := by
        cases hm : Trie.get 20 (Trie.set (aevHs C A hs pre.length e) 20 A n) hintTmp with
        | none => rfl
        | some a =>
          rcases Trie.get_set _ _ _ _ _ _ hm with ⟨e1, _⟩ | ⟨_, e2⟩
          · exact absurd e1 (by unfold hintTmp; omega)
          · rw [hf] at e2; cases e2
      refine ih (pre ++ [(n, e)]) _ k (by rw [hp, List.append_assoc]; rfl) hT' hf' ?_
      rw [List.length_append]
      exact h

theorem hcheck_ok {P : Prims} {E : Env} {V : Vars} {C : ACfg} (G : Good C E V) {p : Prog} {hs : List Hint} (hh : ∀ h ∈ hs, h.Ok P E p)
    (h : hcheck C hs p = true) : ∃ x, srun P E p = some x := by
  obtain ⟨body, res⟩ := p
  have h0 : TrieOk P E V .leaf (sexec P E [] fun _ => none) := fun n => by rw [Trie.get_leaf]; rfl
  obtain ⟨A, hA, hf, hr⟩ := hbody_ok G hh body [] .leaf _ rfl h0 (Trie.get_leaf _ _) h
  have := aevHs_ok G hA hf (hs := hs) (i := body.length) (fun g hg hpos x hx => hh g hg x (by
    show sNum (seval P E (sexec P E (body.take g.pos) fun _ => none) g.e) = some x
    rw [hpos, List.take_length]; exact hx)) res
  revert hr this
  cases aevHs C A hs body.length res with
  | undef => exact fun hr => nomatch hr
  | bool _ _ => exact fun hr => nomatch hr
  | num I t =>
    rintro - ⟨x, hx, -⟩
    exact ⟨x, by simp only [srun, hx, sNum]⟩

theorem bdImp_ok {a b : Bd} {x : ℝ} (h : bdImp a b = true) (ha : LB a x) : LB b x := by
  cases b with
  | inf => trivial
  | fin m t =>
    cases a with
    | inf => cases h
    | fin n s =>
      change Int.rec (fun k => kif Nat.beq k 0 then (kif t then s else true) else true) (fun _ => false) (n - m) = true at h
      obtain ⟨h1, h2⟩ := ha
      cases hd : n - m with
      | negSucc k => rw [hd] at h; cases h
      | ofNat k =>
        rw [hd] at h
        change (kif Nat.beq k 0 then (kif t then s else true) else true) = true at h
        rw [kif_beq, kif_eq] at h
        have hnm : (n : ℝ) = m + k := by
          have : n = m + k := by have : n - m = (k : Int) := hd; omega
          exact_mod_cast this
        have hk : (0 : ℝ) ≤ k := Nat.cast_nonneg k
        refine ⟨by linarith, fun ht => ?_⟩
        split_ifs at h with h0
        · have := h2 h
          linarith
        · have : (0 : ℝ) < k := Nat.cast_pos.mpr (Nat.pos_of_ne_zero h0)
          linarith

theorem hres_ok {P : Prims} {E : Env} {V : Vars} {C : ACfg} (G : Good C E V) {p : Prog} {hs : List Hint} (hh : ∀ h ∈ hs, h.Ok P E p) {I : Itv}
    (h : hres C hs p I = true) : ∃ x, srun P E p = some x ∧ I.Has x := by
  obtain ⟨body, res⟩ := p
  have h0 : TrieOk P E V .leaf (sexec P E [] fun _ => none) := fun n => by rw [Trie.get_leaf]; rfl
  obtain ⟨A, hA, hf, hr⟩ := hbody_ok G hh body [] .leaf _ rfl h0 (Trie.get_leaf _ _) h
  have := aevHs_ok G hA hf (hs := hs) (i := body.length) (fun g hg hpos x hx => hh g hg x (by
    show sNum (seval P E (sexec P E (body.take g.pos) fun _ => none) g.e) = some x
    rw [hpos, List.take_length]; exact hx)) res
  revert hr this
  cases aevHs C A hs body.length res with
  | undef => exact fun hr => nomatch hr
  | bool _ _ => exact fun hr => nomatch hr
  | num J t =>
    intro hr
    rintro ⟨x, hx, hJ, -⟩
    change band (bdImp J.lo I.lo) (bdImp J.hi I.hi) = true at hr
    rw [band_t] at hr
    exact ⟨x, by simp only [srun, hx, sNum], bdImp_ok hr.1 hJ.1, bdImp_ok hr.2 hJ.2⟩

/-- A hint by another program with the same value. -/
theorem hint_rw {P : Prims} {E : Env} {V : Vars} {C : ACfg} (G : Good C E V) {p q : Prog} {h : Hint} {hs : List Hint}
    (he : ∃ x, run P E ⟨p.body.take h.pos, h.e⟩ = .ok x ∧ run P E q = .ok x) (hh : ∀ h ∈ hs, h.Ok P E q) (hc : hres C hs q h.I = true) : h.Ok P E p := by
  obtain ⟨y, h1, h2⟩ := he
  obtain ⟨z, h3, h4⟩ := hres_ok G hh hc
  intro x hx
  rw [run_agree hx h1, ← run_agree h3 h2]
  exact h4

/-- A hint about a parameter. -/
theorem hint_par {P : Prims} {E : Env} {p : Prog} {n c m : Nat} {b : ℚ} (h : E.param c ≤ (b : ℝ)) (hb : b * sc ≤ m) :
    (Hint.mk n (.param c) ⟨.inf, .fin (Int.negOfNat m) false⟩).Ok P E p := by
  intro x hx
  obtain rfl : E.param c = x := Option.some.inj hx
  refine ⟨trivial, .negOfNat ?_ fun e => nomatch e⟩
  have h1 : ((b * sc : ℚ) : ℝ) ≤ ((m : ℚ) : ℝ) := Rat.cast_le.mpr hb
  push_cast at h1
  exact (mul_le_mul_of_nonneg_right h rS_pos.le).trans h1

/-- A parameter with a lower bound. -/
theorem hint_ge {P : Prims} {E : Env} {p : Prog} {n c k : Nat} {a : ℚ} (h0 : (a : ℝ) ≤ E.param c) (ha : (k : ℚ) ≤ a * sc) :
    (Hint.mk n (.param c) ⟨.fin (Int.ofNat k) false, .inf⟩).Ok P E p := by
  intro x hx
  obtain rfl : E.param c = x := Option.some.inj hx
  refine ⟨LB.ofNat ?_ (fun e => nomatch e), trivial⟩
  have h1 : ((k : ℚ) : ℝ) ≤ ((a * sc : ℚ) : ℝ) := Rat.cast_le.mpr ha
  push_cast at h1
  exact h1.trans (mul_le_mul_of_nonneg_right h0 rS_pos.le)

/-- A parameter between two numbers. -/
theorem hint_between {P : Prims} {E : Env} {p : Prog} {n c k m : Nat} {a b : ℚ} (h0 : (a : ℝ) ≤ E.param c) (ha : (k : ℚ) ≤ a * sc) (h : E.param c ≤ (b : ℝ)) (hb : b * sc ≤ m) :
    (Hint.mk n (.param c) ⟨.fin (Int.ofNat k) false, .fin (Int.negOfNat m) false⟩).Ok P E p := by
  intro x hx
  exact ⟨(hint_ge (P := P) (p := p) (n := n) h0 ha x hx).1, (hint_par (P := P) (p := p) (n := n) h hb x hx).2⟩

end

end Verif.Norm
