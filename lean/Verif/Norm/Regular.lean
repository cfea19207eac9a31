import Verif.Norm.IntervalSound
import Verif.Spec.Smooth
/-!
# Regularity of formulas, by interval analysis

Proof machinery for C52.  `rcheck` runs through a formula body with the abstract values of `Verif.Norm.Interval` and succeeds if every operation that contributes to `res` is
inside the open set where it is smooth (comparisons aside).
-/
namespace Verif.Norm
open Verif.Py Verif.Model Verif.Spec

noncomputable section

/-- Is `x ** y` smooth, where `b` is the text of `y`? -/
def rPow (b : Expr) (a : AV) : Bool := AV.rec false (fun I _ => kif bdPos I.lo then true else litNat b false fun _ => true) (fun _ _ => false) a

def nzI (I : Itv) : Bool := bor (bdPos I.lo) (bdPos I.hi)

def rFn1 (f : Fn1) (a : AV) : Bool :=
  AV.rec false (fun I _ => Fn1.rec
    /- cbrt -/ (nzI I) /- log -/ (bdPos I.lo) /- sqrt -/ (bdPos I.lo) /- exp, arctan, arcsinh -/ true true true
    /- arctanh -/ (band (bdPos (bdAdd I.lo oneB)) (bdPos (bdAdd I.hi oneB))) /- abs -/ (nzI I) /- tanh, cosh, cos, sin, erf, erfc, i0 -/ true true true true true true true
    /- lambertw -/ (bdNN I.lo) /- e1Scaled -/ (bdPos I.lo) /- erfcx -/ true /- heaviside -/ (nzI I) f) (fun _ _ => false) a

def r2 (a b : AV) : Bool :=
  AV.rec false (fun I _ => AV.rec false (fun J _ => bor (nzI I) (bdPos J.lo)) (fun _ _ => false) b) (fun _ _ => false) a

/-- Is the expression regular? `D` says which temporaries are. -/
def regE (C : ACfg) (A : Trie AV) (D : Trie Bool) (e : Expr) : Bool :=
  Expr.rec (fun _ _ => true) true (fun _ => true) (fun _ => true) (fun _ => true)
    (fun n => Option.rec false (fun b => b) (Trie.get 20 D n))
    (fun _ a => a)
    (fun _ _ a b => band a b)
    (fun _ _ a b => band a b)
    (fun _ _ a b => band a b)
    (fun _ _ a b => band a b)
    (fun ea eb a b => band (band a b) (rPow eb (aev C A ea)))
    (fun _ _ a b => band a b)
    (fun _ _ a b => band a b)
    (fun _ _ a b => band a b)
    (fun _ _ a b => band a b)
    (fun _ _ a b => band a b)
    (fun ec _ _ c a b => band c (AV.rec false (fun _ _ => false) (fun t _ => Tri.rec a b (band a b) t) (aev C A ec)))
    (fun f ea a => band a (rFn1 f (aev C A ea)))
    (fun _ ea eb a b => band (band a b) (r2 (aev C A ea) (aev C A eb)))
    (fun _ => false)
    e

/-- Run through a body, noting regular temporaries; every temporary must be assigned once. -/
def rbody (C : ACfg) (b : List (Nat × Expr)) : Trie AV → Trie Bool → (Trie AV → Trie Bool → Bool) → Bool :=
  List.rec (fun A D k => k A D) (fun ne _ ih A D k =>
    Prod.rec (fun n e => Option.rec ((aev C A e).force fun v =>
        kif regE C A D e then ih (Trie.set v 20 A n) (Trie.set true 20 D n) k else ih (Trie.set v 20 A n) D k)
      (fun _ => false) (kif Nat.ble n 500000 then Trie.get 20 A n else some .undef)) ne) b

/-- Is `res` regular? -/
def rcheck (C : ACfg) (p : Prog) : Bool :=
  Prog.rec (fun body res => rbody C body .leaf .leaf fun A D => band (regE C A D res) (AV.rec false (fun _ _ => true) (fun _ _ => false) (aev C A res))) p

/-! ## Soundness -/

/-- The regular value of a regular temporary is its strict value. -/
def RegOk (A : Trie AV) (D : Trie Bool) (S R : Nat → Option Val) : Prop := ∀ n b, Trie.get 20 D n = some b → Trie.get 20 A n ≠ none ∧ (b = true → R n = S n)

theorem rnum_eq (v : Option Val) : rNum v = sNum v := by
  match v with
  | none => rfl
  | some (.num _) => rfl
  | some (.bool _) => rfl

theorem rbool_eq (v : Option Val) : rBool v = sBool v := by
  match v with
  | none => rfl
  | some (.num _) => rfl
  | some (.bool _) => rfl

theorem nzI_ok {I : Itv} {x : ℝ} (h : nzI I = true) (hx : I.Has x) : x ≠ 0 := by
  rcases bor_t.mp h with h | h
  · exact (bdPos_ok h hx.lo).ne'
  · have := bdPos_ok h hx.hi
    intro e; linarith

theorem litNat_true {b : Expr} (h : litNat b false (fun _ => true) = true) : NatLit b := by
  cases b with
  | num n e =>
    cases e with
    | ofNat e => exact ⟨n, _, n * 10 ^ e, rfl, by push_cast; simp⟩
    | negSucc e =>
      change (kif Nat.beq (Nat.mod n (Nat.pow 10 (Nat.succ e))) 0 then true else false) = true at h
      rw [kif_beq] at h
      split_ifs at h with h1
      refine ⟨n, _, n / 10 ^ (e + 1), rfl, ?_⟩
      have h2 : (10 : ℕ) ^ (e + 1) ∣ n := Nat.dvd_of_mod_eq_zero h1
      obtain ⟨k, rfl⟩ := h2
      have h3 : (10 : ℝ) ^ (e + 1) ≠ 0 := by positivity
      rw [Nat.mul_div_cancel_left _ (by positivity), zpow_negSucc]
      push_cast
      field_simp
  | _ => exact absurd h Bool.false_ne_true

theorem natLit_val {P : Prims} {E : Env} {T : Nat → Option Val} {b : Expr} {y : ℝ} (h : NatLit b) (hy : seval P E T b = some (.num y)) : ∃ n : ℕ, y = n := by
  obtain ⟨m, e, n, rfl, hn⟩ := h
  simp only [seval, Option.some.injEq, Val.num.injEq] at hy
  exact ⟨n, by rw [← hy, hn]⟩

theorem reg1_dom {f : Fn1} {x : ℝ} (h : reg1 f x) : dom1 f x := by
  cases f <;> first
    | exact h
    | exact le_of_lt h
    | trivial

section
variable {P : Prims} {E : Env} {V : Vars} {C : ACfg} (G : Good C E V) {A : Trie AV} {D : Trie Bool} {S R : Nat → Option Val} (hT : TrieOk P E V A S) (hD : RegOk A D S R)

open Classical in
include G hT hD in
theorem regE_ok (e : Expr) : regE C A D e = true → ¬tied P E S e → reval P E R e = seval P E S e := by
  have two : ∀ {a b : Expr}, (regE C A D a = true → ¬tied P E S a → reval P E R a = seval P E S a) →
      (regE C A D b = true → ¬tied P E S b → reval P E R b = seval P E S b) → band (regE C A D a) (regE C A D b) = true → ¬(tied P E S a ∨ tied P E S b) →
      reval P E R a = seval P E S a ∧ reval P E R b = seval P E S b := fun ha hb h ht =>
    ⟨ha (band_t.mp h).1 fun h => ht (.inl h), hb (band_t.mp h).2 fun h => ht (.inr h)⟩
  have cmp : ∀ {a b : Expr}, (regE C A D a = true → ¬tied P E S a → reval P E R a = seval P E S a) →
      (regE C A D b = true → ¬tied P E S b → reval P E R b = seval P E S b) → band (regE C A D a) (regE C A D b) = true →
      ¬(tied P E S a ∨ tied P E S b ∨ ¬literals a b ∧ ∃ x, seval P E S a = some (.num x) ∧ seval P E S b = some (.num x)) →
      reval P E R a = seval P E S a ∧ reval P E R b = seval P E S b ∧ ∀ x y, sNum (seval P E S a) = some x → sNum (seval P E S b) = some y → ¬(x = y ∧ ¬literals a b) := fun ha hb h ht => by
    refine ⟨ha (band_t.mp h).1 fun h => ht (.inl h), hb (band_t.mp h).2 fun h => ht (.inr (.inl h)), ?_⟩
    rintro x y h1 h2 ⟨rfl, hl⟩
    exact ht (.inr (.inr ⟨hl, x, sNum_some h1, sNum_some h2⟩))
  induction e with
  | num n e => exact fun _ _ => rfl
  | pi => exact fun _ _ => rfl
  | inp i => exact fun _ _ => rfl
  | fld f => exact fun _ _ => rfl
  | param c => exact fun _ _ => rfl
  | tmp n =>
    intro h _
    change Option.rec false (fun b => b) (Trie.get 20 D n) = true at h
    cases hg : Trie.get 20 D n with
    | none => rw [hg] at h; cases h
    | some b => rw [hg] at h; exact (hD n b hg).2 h
  | neg a ih =>
    intro h ht
    simp only [reval, seval, ih h ht, rnum_eq]
  | add a b iha ihb =>
    intro h ht
    obtain ⟨h1, h2⟩ := two iha ihb h ht
    simp only [reval, seval, h1, h2, rnum_eq]
  | sub a b iha ihb =>
    intro h ht
    obtain ⟨h1, h2⟩ := two iha ihb h ht
    simp only [reval, seval, h1, h2, rnum_eq]
  | mul a b iha ihb =>
    intro h ht
    obtain ⟨h1, h2⟩ := two iha ihb h ht
    simp only [reval, seval, h1, h2, rnum_eq]
  | div a b iha ihb =>
    intro h ht
    obtain ⟨h1, h2⟩ := two iha ihb h ht
    simp only [reval, seval, h1, h2, rnum_eq]
  | pow a b iha ihb =>
    intro h ht
    change band (band (regE C A D a) (regE C A D b)) (rPow b (aev C A a)) = true at h
    obtain ⟨h, h3⟩ := band_t.mp h
    obtain ⟨h1, h2⟩ := two iha ihb h ht
    simp only [reval, seval, h1, h2, rnum_eq]
    cases hx : sNum (seval P E S a) with
    | none => rfl
    | some x =>
      cases hy : sNum (seval P E S b) with
      | none => rfl
      | some y =>
        simp only [Option.bind_eq_bind, Option.bind_some]
        have hr : regPow x y b ∧ domPow x y := by
          have ha := aev_ok (P := P) G hT a
          revert h3 ha
          cases aev C A a with
          | undef => exact fun h => nomatch h
          | bool _ _ => exact fun h => nomatch h
          | num I t =>
            rintro h3 ⟨x', e1, e2, -⟩
            rw [e1] at hx
            cases hx
            change (kif bdPos I.lo then true else litNat b false fun _ => true) = true at h3
            rw [kif_eq] at h3
            split_ifs at h3 with hp
            · have := bdPos_ok hp e2.lo
              exact ⟨.inl this, .inl this⟩
            · have hl := litNat_true h3
              obtain ⟨n, rfl⟩ := natLit_val hl (sNum_some hy)
              refine ⟨.inr (.inr hl), ?_⟩
              rcases lt_trichotomy x 0 with hx0 | hx0 | hx0
              · exact .inr (.inr ⟨hx0, n, by simp⟩)
              · exact .inr (.inl ⟨hx0, by positivity⟩)
              · exact .inl hx0
        rw [if_pos hr.1, if_pos hr.2]
  | le a b iha ihb =>
    intro h ht
    obtain ⟨h1, h2, h3⟩ := cmp iha ihb h ht
    simp only [reval, seval, h1, h2, rnum_eq]
    cases hx : sNum (seval P E S a) with
    | none => rfl
    | some x =>
      cases hy : sNum (seval P E S b) with
      | none => rfl
      | some y => simp only [Option.bind_eq_bind, Option.bind_some, if_neg (h3 x y hx hy)]
  | lt a b iha ihb =>
    intro h ht
    obtain ⟨h1, h2, h3⟩ := cmp iha ihb h ht
    simp only [reval, seval, h1, h2, rnum_eq]
    cases hx : sNum (seval P E S a) with
    | none => rfl
    | some x =>
      cases hy : sNum (seval P E S b) with
      | none => rfl
      | some y => simp only [Option.bind_eq_bind, Option.bind_some, if_neg (h3 x y hx hy)]
  | eq a b iha ihb =>
    intro h ht
    obtain ⟨h1, h2, h3⟩ := cmp iha ihb h ht
    simp only [reval, seval, h1, h2, rnum_eq]
    cases hx : sNum (seval P E S a) with
    | none => rfl
    | some x =>
      cases hy : sNum (seval P E S b) with
      | none => rfl
      | some y => simp only [Option.bind_eq_bind, Option.bind_some, if_neg (h3 x y hx hy)]
  | lor a b iha ihb =>
    intro h ht
    obtain ⟨h1, h2⟩ := two iha ihb h ht
    simp only [reval, seval, h1, h2, rbool_eq]
  | land a b iha ihb =>
    intro h ht
    obtain ⟨h1, h2⟩ := two iha ihb h ht
    simp only [reval, seval, h1, h2, rbool_eq]
  | cond c a b ihc iha ihb =>
    intro h ht
    change band (regE C A D c) (AV.rec false (fun _ _ => false) (fun t _ => Tri.rec (regE C A D a) (regE C A D b) (band (regE C A D a) (regE C A D b)) t) (aev C A c)) = true at h
    obtain ⟨h1, h2⟩ := band_t.mp h
    have hc := ihc h1 fun h => ht (.inl h)
    have ta : ¬tied P E S a := fun h => ht (.inr (.inl h))
    have tb : ¬tied P E S b := fun h => ht (.inr (.inr h))
    have ho := aev_ok (P := P) G hT c
    simp only [reval, seval, hc, rbool_eq, rnum_eq]
    revert ho h2
    cases aev C A c with
    | undef => exact fun h => nomatch h
    | num _ _ => exact fun h => nomatch h
    | bool t f =>
      rintro h2 ⟨z, e1, e2, -⟩
      simp only [e1, sBool, Option.bind_eq_bind, Option.bind_some]
      cases t with
      | tt =>
        have hz : z := e2
        rw [if_pos hz, if_pos hz, iha h2 ta]
      | ff =>
        have hz : ¬z := e2
        rw [if_neg hz, if_neg hz, ihb h2 tb]
      | unk =>
        obtain ⟨h3, h4⟩ := band_t.mp h2
        rw [iha h3 ta, ihb h4 tb]
  | call1 f a ih =>
    intro h ht
    change band (regE C A D a) (rFn1 f (aev C A a)) = true at h
    obtain ⟨h1, h2⟩ := band_t.mp h
    simp only [reval, seval, ih h1 ht, rnum_eq]
    cases hx : sNum (seval P E S a) with
    | none => rfl
    | some x =>
      simp only [Option.bind_eq_bind, Option.bind_some]
      have hr : reg1 f x := by
        have ha := aev_ok (P := P) G hT a
        revert h2 ha
        cases aev C A a with
        | undef => exact fun h => nomatch h
        | bool _ _ => exact fun h => nomatch h
        | num I t =>
          rintro h2 ⟨x', e1, e2, -⟩
          rw [e1] at hx
          cases hx
          cases f with
          | cbrt => exact nzI_ok h2 e2
          | log => exact bdPos_ok h2 e2.lo
          | sqrt => exact bdPos_ok h2 e2.lo
          | arctanh =>
            obtain ⟨h3, h4⟩ := band_t.mp h2
            have h5 := bdPos_ok h3 (bdAdd_ok e2.lo (oneB_ok le_rfl))
            have h6 := bdPos_ok h4 (bdAdd_ok e2.hi (oneB_ok le_rfl))
            exact ⟨by linarith, by linarith⟩
          | abs => exact nzI_ok h2 e2
          | lambertw => exact lt_of_lt_of_le (neg_neg_of_pos (Real.exp_pos _)) (bdNN_ok h2 e2.lo)
          | e1Scaled => exact bdPos_ok h2 e2.lo
          | heaviside => exact nzI_ok h2 e2
          | _ => trivial
      rw [if_pos hr, if_pos (reg1_dom hr)]
  | call2 f a b iha ihb =>
    intro h ht
    change band (band (regE C A D a) (regE C A D b)) (r2 (aev C A a) (aev C A b)) = true at h
    obtain ⟨h, h3⟩ := band_t.mp h
    obtain ⟨h1, h2⟩ := two iha ihb h ht
    simp only [reval, seval, h1, h2, rnum_eq]
    cases hx : sNum (seval P E S a) with
    | none => rfl
    | some x =>
      cases hy : sNum (seval P E S b) with
      | none => rfl
      | some y =>
        simp only [Option.bind_eq_bind, Option.bind_some]
        refine if_pos ?_
        have ha := aev_ok (P := P) G hT a
        have hb := aev_ok (P := P) G hT b
        revert h3 ha hb
        cases aev C A a with
        | undef => exact fun h => nomatch h
        | bool _ _ => exact fun h => nomatch h
        | num I t =>
          cases aev C A b with
          | undef => exact fun h => nomatch h
          | bool _ _ => exact fun h => nomatch h
          | num J t' =>
            rintro h3 ⟨x', e1, e2, -⟩ ⟨y', e3, e4, -⟩
            rw [e1] at hx
            rw [e3] at hy
            cases hx; cases hy
            rcases bor_t.mp h3 with h | h
            · exact .inl (nzI_ok h e2)
            · exact .inr (bdPos_ok h e4.lo)
  | undef c => exact fun h => nomatch h

end

theorem rbody_ok {P : Prims} {E : Env} {V : Vars} {C : ACfg} (G : Good C E V) (b : List (Nat × Expr)) :
    ∀ (A : Trie AV) (D : Trie Bool) (S R : Nat → Option Val) (k : Trie AV → Trie Bool → Bool), TrieOk P E V A S → RegOk A D S R → ¬tiedBody P E b S →
      rbody C b A D k = true → ∃ A' D', TrieOk P E V A' (sexec P E b S) ∧ RegOk A' D' (sexec P E b S) (rexec P E b R) ∧ k A' D' = true := by
  induction b with
  | nil => exact fun A D S R k hT hD _ h => ⟨A, D, hT, hD, h⟩
  | cons ne r ih =>
    obtain ⟨n, e⟩ := ne
    intro A D S R k hT hD ht h
    change Option.rec ((aev C A e).force fun v =>
        kif regE C A D e then rbody C r (Trie.set v 20 A n) (Trie.set true 20 D n) k else rbody C r (Trie.set v 20 A n) D k)
      (fun _ => false) (kif Nat.ble n 500000 then Trie.get 20 A n else some .undef) = true at h
    rw [kif_ble] at h
    split_ifs at h with hn
    cases hg : Trie.get 20 A n with
    | some a => rw [hg] at h; cases h
    | none =>
      rw [hg] at h
      change ((aev C A e).force fun v =>
        kif regE C A D e then rbody C r (Trie.set v 20 A n) (Trie.set true 20 D n) k else rbody C r (Trie.set v 20 A n) D k) = true at h
      rw [AV.force_eq, kif_eq] at h
      have same : RegOk (Trie.set (aev C A e) 20 A n) D (Function.update S n (seval P E S e)) (Function.update R n (reval P E R e)) := by
        intro m x hm
        have hne : m ≠ n := by rintro rfl; exact (hD m x hm).1 hg
        rw [Function.update_of_ne hne, Function.update_of_ne hne]
        exact ⟨fun h => (hD m x hm).1 (Trie.get_set_none _ _ _ _ _ h), (hD m x hm).2⟩
      have st := trie_step G hT hn hg e
      split_ifs at h with hr
      · refine ih _ _ _ _ k st ?_ (fun h => ht (.inr h)) h
        intro m x hm
        rcases Trie.get_set _ _ _ _ _ _ hm with ⟨e1, e2⟩ | ⟨e1, e2⟩
        · subst e1
          rw [Function.update_self, Function.update_self]
          exact ⟨by rw [Trie.get_set_self _ 19 _ _ (by omega)]; exact Option.some_ne_none _, fun _ => regE_ok G hT hD e hr fun h => ht (.inl h)⟩
        · exact same m x e2
      · exact ih _ _ _ _ k st same (fun h => ht (.inr h)) h

theorem rcheck_ok {P : Prims} {E : Env} {V : Vars} {C : ACfg} (G : Good C E V) {p : Prog} (h : rcheck C p = true) (ht : ¬Tied P E p) : (rrun P E p).isSome := by
  obtain ⟨body, res⟩ := p
  have h0 : TrieOk P E V .leaf fun _ => none := fun n => by rw [Trie.get_leaf]
  obtain ⟨A, D, hA, hD, hr⟩ := rbody_ok (P := P) G body .leaf .leaf _ (fun _ => none) _ h0 (fun n x h => by rw [Trie.get_leaf] at h; cases h) (fun h => ht (.inl h)) h
  obtain ⟨h1, h2⟩ := band_t.mp hr
  have key := regE_ok G hA hD res h1 fun h => ht (.inr h)
  have ha := aev_ok (P := P) G hA res
  unfold rrun
  rw [key]
  revert h2 ha
  cases aev C A res with
  | undef => exact fun h => nomatch h
  | bool _ _ => exact fun h => nomatch h
  | num I t =>
    rintro - ⟨x, hx, -⟩
    rw [hx]
    rfl

/-- A regular formula is defined. -/
theorem acheck_of_rcheck {C : ACfg} {p : Prog} (h : rcheck C p = true) : acheck C p = true := by
  obtain ⟨body, res⟩ := p
  have key : ∀ (b : List (Nat × Expr)) (A : Trie AV) (D : Trie Bool) (k : Trie AV → Trie Bool → Bool) (k' : Trie AV → Bool), (∀ A D, k A D = true → k' A = true) →
      rbody C b A D k = true → abody C b A k' = true := by
    intro b
    induction b with
    | nil => exact fun A D k k' hk h => hk A D h
    | cons ne r ih =>
      obtain ⟨n, e⟩ := ne
      intro A D k k' hk h
      change Option.rec ((aev C A e).force fun v =>
          kif regE C A D e then rbody C r (Trie.set v 20 A n) (Trie.set true 20 D n) k else rbody C r (Trie.set v 20 A n) D k)
        (fun _ => false) (kif Nat.ble n 500000 then Trie.get 20 A n else some .undef) = true at h
      change Option.rec ((aev C A e).force fun v => abody C r (Trie.set v 20 A n) k') (fun _ => false)
        (kif Nat.ble n 500000 then Trie.get 20 A n else some .undef) = true
      revert h
      cases (kif Nat.ble n 500000 then Trie.get 20 A n else some .undef) with
      | some a => exact fun h => h
      | none =>
        intro h
        change ((aev C A e).force fun v =>
          kif regE C A D e then rbody C r (Trie.set v 20 A n) (Trie.set true 20 D n) k else rbody C r (Trie.set v 20 A n) D k) = true at h
        change ((aev C A e).force fun v => abody C r (Trie.set v 20 A n) k') = true
        rw [AV.force_eq, kif_eq] at h
        rw [AV.force_eq]
        split_ifs at h
        · exact ih _ _ k k' hk h
        · exact ih _ _ k k' hk h
  exact key body .leaf .leaf _ _ (fun A D h => (band_t.mp h).2) h

theorem regularUnpol_of (a : Assume) {fam : Fam} {f : Formula} {par npar flds : List Nat} (hp : a.params.map nameCode = par)
    (hn : a.neg.map nameCode = npar) (hf : a.flds.map fldNo = flds) (h : rcheck (acfg false fam a.sPos a.tPos par npar flds) f.unpolBody = true) :
    RegularUnpol a fam f := by
  intro P p ρ σ l τ hrec hρ hσ hτ hs ht
  subst hp; subst hn; subst hf
  exact rcheck_ok (ugood hrec hρ hσ hτ hs ht) h

theorem regularPol_of (a : Assume) {fam : Fam} {f : Formula} {par npar flds : List Nat} (hp : a.params.map nameCode = par)
    (hn : a.neg.map nameCode = npar) (hf : a.flds.map fldNo = flds) (h : rcheck (acfg true fam a.sPos a.tPos par npar flds) f.polBody = true) :
    RegularPol a fam f := by
  intro P p r0 r1 s0 s1 s2 l0 l1 t0 t1 hrec h0 h1 hs0 hs2 hst ht0 ht1 hs ht
  subst hp; subst hn; subst hf
  exact rcheck_ok (pgood hrec h0 h1 hs0 hs2 hst ht0 ht1 hs ht) h

end

end Verif.Norm
