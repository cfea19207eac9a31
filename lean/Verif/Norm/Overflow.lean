import Verif.Spec.Overflow
import Verif.Norm.Hints
/-!
# Where `nan` goes in a formula body

`kcheck obs sd p`: if the assignments at the places `sd` give `nan` and the comparisons `obs` are as noted, then the body `p` gives `nan`.
-/
namespace Verif.Norm
open Verif.Py Verif.Model Verif.Spec

/-! ## Expressions without the two functions -/

/-- Neither `xc_E1_scaled` nor `xc_erfcx` occurs. -/
def plain : Expr → Bool
  | .neg a => plain a
  | .add a b | .sub a b | .mul a b | .div a b | .pow a b | .le a b | .lt a b | .eq a b | .lor a b | .land a b | .call2 _ a b => plain a && plain b
  | .cond c a b => plain c && (plain a && plain b)
  | .call1 .e1Scaled _ => false
  | .call1 .erfcx _ => false
  | .call1 _ a => plain a
  | _ => true

/-- Forget the assignments where they occur. -/
def blank (b : List (Nat × Expr)) : List (Nat × Expr) := b.map fun ne => (ne.1, if plain ne.2 then ne.2 else .undef 0)

open Classical in
theorem oFn1_dom {R : Range} {P : Prims} {f : Fn1} {x : ℝ} (h1 : f ≠ .e1Scaled) (h2 : f ≠ .erfcx) (hd : dom1 f x) :
    oFn1 R P f (.val (.num x)) = .val (.num (fn1Val P f x)) := by
  cases f <;> first | exact absurd rfl h1 | exact absurd rfl h2 | exact if_pos hd

theorem plain_call {f : Fn1} {a : Expr} (h : plain (.call1 f a) = true) : f ≠ .e1Scaled ∧ f ≠ .erfcx ∧ plain a = true := by
  cases f <;> first | exact ⟨nofun, nofun, h⟩ | cases h

open Classical in
theorem oeval_agree {R : Range} {P : Prims} {E : Env} {S : Nat → Option Val} {N : Nat → NVal} (hT : NExt S N) (e : Expr) :
    plain e = true → ∀ v, seval P E S e = some v → oeval R P E N e = .val v := by
  have bin : ∀ (a b : Expr) (f : ℝ → ℝ → Option Val) (g : ℝ → ℝ → NVal), (∀ v, seval P E S a = some v → oeval R P E N a = .val v) →
      (∀ v, seval P E S b = some v → oeval R P E N b = .val v) → (∀ x y u, f x y = some u → g x y = .val u) →
      ∀ v, (do let x ← sNum (seval P E S a); let y ← sNum (seval P E S b); f x y) = some v →
      ∃ x y, oeval R P E N a = .val (.num x) ∧ oeval R P E N b = .val (.num y) ∧ g x y = .val v := by
    intro a b f g iha ihb hfg v h1
    obtain ⟨x, e1, h1⟩ := obind h1
    obtain ⟨y, e2, h1⟩ := obind h1
    exact ⟨x, y, iha _ (sNum_some e1), ihb _ (sNum_some e2), hfg _ _ _ h1⟩
  have binB : ∀ (a b : Expr) (f : Prop → Prop → Prop), (∀ v, seval P E S a = some v → oeval R P E N a = .val v) →
      (∀ v, seval P E S b = some v → oeval R P E N b = .val v) →
      ∀ v, (do let x ← sBool (seval P E S a); let y ← sBool (seval P E S b); some (Val.bool (f x y))) = some v →
      nBool f (oeval R P E N a) (oeval R P E N b) = .val v := by
    intro a b f iha ihb v h1
    obtain ⟨x, e1, h1⟩ := obind h1
    obtain ⟨y, e2, h1⟩ := obind h1
    rw [iha _ (sBool_some e1), ihb _ (sBool_some e2), ← Option.some.inj h1]
    rfl
  have val : ∀ {u v : Val}, some u = some v → NVal.val u = .val v := fun h => congrArg _ (Option.some.inj h)
  have two : ∀ {a b : Expr}, (plain a && plain b) = true → plain a = true ∧ plain b = true := fun h => by simpa using h
  induction e with
  | num n e => exact fun _ v h => val h
  | pi => exact fun _ v h => val h
  | inp i =>
    intro _ v h
    simp only [seval] at h
    simp only [oeval]
    cases hi : E.inp i with
    | error => rw [hi] at h; cases h
    | ok x => rw [hi] at h; exact val h
  | fld f => exact fun _ v h => val h
  | param c => exact fun _ v h => val h
  | tmp n => exact fun _ v h => hT n v h
  | neg a ih =>
    intro hp v h
    obtain ⟨x, e1, h⟩ := obind h
    simp only [oeval, ih hp _ (sNum_some e1)]
    exact val h
  | add a b iha ihb =>
    intro hp v h
    obtain ⟨x, y, h1, h2, h3⟩ := bin a b _ _ (iha (two hp).1) (ihb (two hp).2) (fun x y u => val) v h
    simp only [oeval, h1, h2]; exact h3
  | sub a b iha ihb =>
    intro hp v h
    obtain ⟨x, y, h1, h2, h3⟩ := bin a b _ _ (iha (two hp).1) (ihb (two hp).2) (fun x y u => val) v h
    simp only [oeval, h1, h2]; exact h3
  | mul a b iha ihb =>
    intro hp v h
    obtain ⟨x, y, h1, h2, h3⟩ := bin a b _ _ (iha (two hp).1) (ihb (two hp).2) (fun x y u => val) v h
    simp only [oeval, h1, h2]; exact h3
  | div a b iha ihb =>
    intro hp v h
    obtain ⟨x, y, h1, h2, h3⟩ := bin a b _ (fun x y => if y = 0 then (if x = 0 then .nan else .inf) else .val (.num (x / y))) (iha (two hp).1) (ihb (two hp).2)
      (fun x y u h => by split_ifs at h with h0; simp only [if_neg h0]; exact val h) v h
    simp only [oeval, h1, h2]; exact h3
  | pow a b iha ihb =>
    intro hp v h
    obtain ⟨x, y, h1, h2, h3⟩ := bin a b _ (fun x y => if domPow x y then .val (.num (x ^ y)) else .wild) (iha (two hp).1) (ihb (two hp).2)
      (fun x y u h => by split_ifs at h with h0; simp only [if_pos h0]; exact val h) v h
    simp only [oeval, h1, h2]; exact h3
  | le a b iha ihb =>
    intro hp v h
    obtain ⟨x, y, h1, h2, h3⟩ := bin a b _ _ (iha (two hp).1) (ihb (two hp).2) (fun x y u => val) v h
    simp only [oeval, h1, h2]; exact h3
  | lt a b iha ihb =>
    intro hp v h
    obtain ⟨x, y, h1, h2, h3⟩ := bin a b _ _ (iha (two hp).1) (ihb (two hp).2) (fun x y u => val) v h
    simp only [oeval, h1, h2]; exact h3
  | eq a b iha ihb =>
    intro hp v h
    obtain ⟨x, y, h1, h2, h3⟩ := bin a b _ _ (iha (two hp).1) (ihb (two hp).2) (fun x y u => val) v h
    simp only [oeval, h1, h2]; exact h3
  | lor a b iha ihb => exact fun hp => binB a b _ (iha (two hp).1) (ihb (two hp).2)
  | land a b iha ihb => exact fun hp => binB a b _ (iha (two hp).1) (ihb (two hp).2)
  | cond c a b ihc iha ihb =>
    intro hp v h
    have hp' : plain c = true ∧ plain a = true ∧ plain b = true := by simpa [plain] using hp
    obtain ⟨z, e0, h⟩ := obind h
    obtain ⟨x, e1, h⟩ := obind h
    simp only [oeval, ihc hp'.1 _ (sBool_some e0)]
    rw [← Option.some.inj h]
    by_cases hz : z
    · rw [if_pos hz] at e1 ⊢
      rw [iha hp'.2.1 _ (sNum_some e1)]; rfl
    · rw [if_neg hz] at e1 ⊢
      rw [ihb hp'.2.2 _ (sNum_some e1)]; rfl
  | call1 f a ih =>
    intro hp v h
    obtain ⟨g1, g2, hp⟩ := plain_call hp
    obtain ⟨x, e1, h⟩ := obind h
    split_ifs at h with hd
    simp only [oeval, ih hp _ (sNum_some e1)]
    rw [← Option.some.inj h]
    exact oFn1_dom g1 g2 hd
  | call2 f a b iha ihb =>
    intro hp v h
    obtain ⟨x, y, h1, h2, h3⟩ := bin a b _ _ (iha (two hp).1) (ihb (two hp).2) (fun x y u => val) v h
    simp only [oeval, h1, h2]; exact h3
  | undef c => intro _ v h; cases h

theorem oexec_blank {R : Range} {P : Prims} {E : Env} (b : List (Nat × Expr)) : ∀ (S : Nat → Option Val) (N : Nat → NVal), NExt S N →
    NExt (sexec P E (blank b) S) (oexec R P E b N) := by
  induction b with
  | nil => exact fun S N h => h
  | cons ne r ih =>
    obtain ⟨n, e⟩ := ne
    intro S N hN
    refine ih _ _ fun m v hm => ?_
    by_cases hmn : m = n
    · subst hmn
      rw [Function.update_self] at hm ⊢
      by_cases hp : plain e = true
      · rw [if_pos hp] at hm
        exact oeval_agree hN e hp v hm
      · rw [if_neg hp] at hm; cases hm
    · rw [Function.update_of_ne hmn] at hm ⊢
      exact hN m v hm

open Classical in
theorem sexec_congr_lt {P : Prims} {E : Env} {S S' : Nat → Option Val} (h : ∀ n v, S n = some v → S' n = some v) (e : Expr) :
    ∀ v, seval P E S e = some v → seval P E S' e = some v := by
  have bin : ∀ (a b : Expr) (f : ℝ → ℝ → Option Val), (∀ v, seval P E S a = some v → seval P E S' a = some v) →
      (∀ v, seval P E S b = some v → seval P E S' b = some v) →
      ∀ v, (do let x ← sNum (seval P E S a); let y ← sNum (seval P E S b); f x y) = some v →
        (do let x ← sNum (seval P E S' a); let y ← sNum (seval P E S' b); f x y) = some v := by
    intro a b f iha ihb v h1
    obtain ⟨x, e1, h1⟩ := obind h1
    obtain ⟨y, e2, h1⟩ := obind h1
    rw [iha _ (sNum_some e1), ihb _ (sNum_some e2)]
    exact h1
  have binB : ∀ (a b : Expr) (f : Prop → Prop → Option Val), (∀ v, seval P E S a = some v → seval P E S' a = some v) →
      (∀ v, seval P E S b = some v → seval P E S' b = some v) →
      ∀ v, (do let x ← sBool (seval P E S a); let y ← sBool (seval P E S b); f x y) = some v →
        (do let x ← sBool (seval P E S' a); let y ← sBool (seval P E S' b); f x y) = some v := by
    intro a b f iha ihb v h1
    obtain ⟨x, e1, h1⟩ := obind h1
    obtain ⟨y, e2, h1⟩ := obind h1
    rw [iha _ (sBool_some e1), ihb _ (sBool_some e2)]
    exact h1
  induction e with
  | num n e => exact fun v h => h
  | pi => exact fun v h => h
  | inp i => exact fun v h => h
  | fld f => exact fun v h => h
  | param c => exact fun v h => h
  | tmp n => exact fun v hv => h n v hv
  | neg a ih =>
    intro v h
    obtain ⟨x, e1, h⟩ := obind h
    simp only [seval, ih _ (sNum_some e1)]
    exact h
  | add a b iha ihb => exact bin a b _ iha ihb
  | sub a b iha ihb => exact bin a b _ iha ihb
  | mul a b iha ihb => exact bin a b _ iha ihb
  | div a b iha ihb => exact bin a b _ iha ihb
  | pow a b iha ihb => exact bin a b _ iha ihb
  | le a b iha ihb => exact bin a b _ iha ihb
  | lt a b iha ihb => exact bin a b _ iha ihb
  | eq a b iha ihb => exact bin a b _ iha ihb
  | lor a b iha ihb => exact binB a b _ iha ihb
  | land a b iha ihb => exact binB a b _ iha ihb
  | cond c a b ihc iha ihb =>
    intro v h
    obtain ⟨z, e0, h⟩ := obind h
    obtain ⟨x, e1, h⟩ := obind h
    simp only [seval, ihc _ (sBool_some e0)]
    by_cases hz : z
    · rw [if_pos hz] at e1
      show (do let x ← sNum (if z then seval P E S' a else seval P E S' b); some (Val.num x)) = some v
      rw [if_pos hz, iha _ (sNum_some e1)]; exact h
    · rw [if_neg hz] at e1
      show (do let x ← sNum (if z then seval P E S' a else seval P E S' b); some (Val.num x)) = some v
      rw [if_neg hz, ihb _ (sNum_some e1)]; exact h
  | call1 f a ih =>
    intro v h
    obtain ⟨x, e1, h⟩ := obind h
    simp only [seval, ih _ (sNum_some e1)]
    exact h
  | call2 f a b iha ihb => exact bin a b _ iha ihb
  | undef c => exact fun v h => h

theorem sexec_blank {P : Prims} {E : Env} (b : List (Nat × Expr)) : ∀ (S S' : Nat → Option Val), (∀ n v, S n = some v → S' n = some v) →
    ∀ n v, sexec P E (blank b) S n = some v → sexec P E b S' n = some v := by
  induction b with
  | nil => exact fun S S' h => h
  | cons ne r ih =>
    obtain ⟨n, e⟩ := ne
    intro S N hN
    refine ih _ _ fun m v hm => ?_
    by_cases hmn : m = n
    · subst hmn
      rw [Function.update_self] at hm ⊢
      by_cases hp : plain e = true
      · rw [if_pos hp] at hm
        exact sexec_congr_lt hN e v hm
      · rw [if_neg hp] at hm; cases hm
    · rw [Function.update_of_ne hmn] at hm ⊢
      exact hN m v hm

/-- A part of a body that can be computed without the two functions has the value of the Python semantics. -/
theorem slice_ok {R : Range} {P : Prims} {E : Env} {V : Vars} {C : ACfg} (G : Good C E V) {b : List (Nat × Expr)} {e : Expr} {y : ℝ}
    (hc : acheck C ⟨blank b, e⟩ = true) (hp : plain e = true) (hr : run P E ⟨b, e⟩ = .ok y) : oeval R P E (oexec R P E b fun _ => .wild) e = .val (.num y) := by
  obtain ⟨x, hx⟩ := acheck_ok (P := P) G hc
  have h1 : srun P E ⟨b, e⟩ = some x := by
    have := sexec_congr_lt (sexec_blank (P := P) (E := E) b (fun _ => none) (fun _ => none) fun _ _ h => h) e _ (sNum_some hx)
    show sNum (seval P E (sexec P E b fun _ => none) e) = some x
    rw [this]; rfl
  rw [← run_agree h1 hr]
  exact oeval_agree (oexec_blank b (fun _ => none) _ fun _ _ h => by cases h) e hp _ (sNum_some hx)

/-! ## The way of `nan` -/

/-- What is known of a value. -/
inductive Kn
  | nan | tt | ff | unk

def Kn.num : Kn → Kn
  | .nan => .nan
  | _ => .unk

/-- `nan` if one of the two is. -/
def Kn.or : Kn → Kn → Kn
  | .nan, _ => .nan
  | _, .nan => .nan
  | _, _ => .unk

/-- A comparison `e`, at the place `pos`, is true or false. -/
structure Ob where
  pos : Nat
  e : Expr
  b : Bool

def obGet (obs : List Ob) (i : Nat) (e : Expr) : Kn :=
  match obs with
  | [] => .unk
  | o :: r => if o.pos = i ∧ o.e = e then (if o.b then .tt else .ff) else obGet r i e

noncomputable def kE (obs : List Ob) (i : Nat) (T : Trie Kn) : Expr → Kn
  | .tmp n => (Trie.get 20 T n).getD .unk
  | .neg a => (kE obs i T a).num
  | .add a b | .sub a b | .mul a b | .div a b => (kE obs i T a).or (kE obs i T b)
  | .le a b => obGet obs i (.le a b)
  | .lt a b => obGet obs i (.lt a b)
  | .cond c a b => match kE obs i T c with
    | .tt => (kE obs i T a).num
    | .ff => (kE obs i T b).num
    | _ => .unk
  | _ => .unk

noncomputable def kbody (obs : List Ob) (sd : List Nat) : List (Nat × Expr) → Nat → Trie Kn → (Nat → Trie Kn → Bool) → Bool
  | [], i, T, k => k i T
  | (n, e) :: r, i, T, k => kbody obs sd r (i + 1) (Trie.set (if i ∈ sd then .nan else kE obs i T e) 20 T n) k

noncomputable def kcheck (obs : List Ob) (sd : List Nat) (p : Prog) : Bool :=
  kbody obs sd p.body 0 .leaf fun i T => match kE obs i T p.res with
    | .nan => true
    | _ => false

def KOk : Kn → NVal → Prop
  | .nan, v => v = .nan
  | .tt, v => ∃ b : Prop, v = .val (.bool b) ∧ b
  | .ff, v => ∃ b : Prop, v = .val (.bool b) ∧ ¬ b
  | .unk, _ => True

theorem KOk.num {k : Kn} {v : NVal} (h : KOk k v) : KOk k.num (nNum v) := by
  cases k <;> first | trivial | (obtain rfl : v = _ := h; rfl)

/-- What is required of a comparison. -/
def Ob.Ok (R : Range) (P : Prims) (E : Env) (p : Prog) (o : Ob) : Prop :=
  KOk (if o.b then .tt else .ff) (oeval R P E (oexec R P E (p.body.take o.pos) fun _ => .wild) o.e)

theorem obGet_ok {R : Range} {P : Prims} {E : Env} {p : Prog} {obs : List Ob} (h : ∀ o ∈ obs, o.Ok R P E p) (i : Nat) (e : Expr) :
    KOk (obGet obs i e) (oeval R P E (oexec R P E (p.body.take i) fun _ => .wild) e) := by
  induction obs with
  | nil => trivial
  | cons o r ih =>
    rw [obGet]
    split_ifs with h1 hb
    all_goals first
      | (obtain ⟨rfl, rfl⟩ := h1
         have := h o List.mem_cons_self
         rw [Ob.Ok] at this
         simp only [hb] at this
         exact this)
      | exact ih fun o ho => h o (List.mem_cons_of_mem _ ho)

theorem kE_ok {R : Range} {P : Prims} {E : Env} {p : Prog} {obs : List Ob} (h : ∀ o ∈ obs, o.Ok R P E p) (i : Nat) {T : Trie Kn} {N : Nat → NVal}
    (hN : N = oexec R P E (p.body.take i) fun _ => .wild) (hT : ∀ n k, Trie.get 20 T n = some k → KOk k (N n)) (e : Expr) : KOk (kE obs i T e) (oeval R P E N e) := by
  have orOk : ∀ (op : NVal → NVal → NVal) (ka kb : Kn) (a b : NVal), (∀ a, op .nan a = .nan) → (∀ a, op a .nan = .nan) → KOk ka a → KOk kb b →
      KOk (ka.or kb) (op a b) := by
    intro op ka kb a b h1 h2 ha hb
    cases ka <;> cases kb <;> first
      | trivial
      | (obtain rfl : a = _ := ha; exact h1 _)
      | (obtain rfl : b = _ := hb; exact h2 _)
  induction e with
  | tmp n =>
    show KOk ((Trie.get 20 T n).getD .unk) (N n)
    cases hg : Trie.get 20 T n with
    | none => trivial
    | some k => exact hT n k hg
  | neg a ih =>
    show KOk (kE obs i T a).num _
    revert ih
    simp only [oeval]
    cases kE obs i T a <;> first | exact fun _ => trivial | (intro ih; obtain ih : oeval R P E N a = .nan := ih; rw [ih]; rfl)
  | add a b iha ihb => exact orOk (nAdd (· + ·)) _ _ _ _ (fun _ => rfl) (fun _ => nAdd_right) iha ihb
  | sub a b iha ihb => exact orOk (nAdd (· - ·)) _ _ _ _ (fun _ => rfl) (fun _ => nAdd_right) iha ihb
  | mul a b iha ihb => exact orOk nMul _ _ _ _ (fun _ => rfl) (fun _ => nMul_right) iha ihb
  | div a b iha ihb => exact orOk nDiv _ _ _ _ (fun _ => rfl) (fun _ => nDiv_right) iha ihb
  | le a b _ _ => subst hN; exact obGet_ok h i _
  | lt a b _ _ => subst hN; exact obGet_ok h i _
  | cond c a b ihc iha ihb =>
    simp only [kE, oeval]
    revert ihc
    cases kE obs i T c with
    | tt =>
      rintro ⟨z, hz, hb⟩
      simp only [hz, if_pos hb]
      exact iha.num
    | ff =>
      rintro ⟨z, hz, hb⟩
      simp only [hz, if_neg hb]
      exact ihb.num
    | nan => exact fun _ => trivial
    | unk => exact fun _ => trivial
  | _ => trivial

theorem oexec_append {R : Range} {P : Prims} {E : Env} (a b : List (Nat × Expr)) (T : Nat → NVal) : oexec R P E (a ++ b) T = oexec R P E b (oexec R P E a T) := by
  induction a generalizing T with
  | nil => rfl
  | cons x a ih => obtain ⟨n, e⟩ := x; exact ih _

theorem kbody_ok {R : Range} {P : Prims} {E : Env} {p : Prog} {obs : List Ob} {sd : List Nat} (h : ∀ o ∈ obs, o.Ok R P E p)
    (hs : ∀ i ∈ sd, ∀ ne, p.body[i]? = some ne → oeval R P E (oexec R P E (p.body.take i) fun _ => .wild) ne.2 = .nan) (b : List (Nat × Expr)) :
    ∀ (pre : List (Nat × Expr)) (T : Trie Kn) (k : Nat → Trie Kn → Bool), p.body = pre ++ b →
      (∀ n x, Trie.get 20 T n = some x → KOk x (oexec R P E pre (fun _ => .wild) n)) → kbody obs sd b pre.length T k = true →
      ∃ T', (∀ n x, Trie.get 20 T' n = some x → KOk x (oexec R P E p.body (fun _ => .wild) n)) ∧ k p.body.length T' = true := by
  induction b with
  | nil =>
    intro pre T k he hT hk
    rw [List.append_nil] at he
    subst he
    exact ⟨T, hT, hk⟩
  | cons ne r ih =>
    obtain ⟨n, e⟩ := ne
    intro pre T k he hT hk
    have htake : p.body.take pre.length = pre := by rw [he, List.take_left]
    have hget : p.body[pre.length]? = some (n, e) := by rw [he]; simp
    have hk' := ih (pre ++ [(n, e)]) (Trie.set (if pre.length ∈ sd then .nan else kE obs pre.length T e) 20 T n) k (by rw [he]; simp) ?_
      (by rw [List.length_append]; exact hk)
    · exact hk'
    · intro m x hm
      rw [oexec_append]
      show KOk x (Function.update (oexec R P E pre fun _ => .wild) n (oeval R P E (oexec R P E pre fun _ => .wild) e) m)
      rcases Trie.get_set _ _ _ _ _ _ hm with ⟨rfl, rfl⟩ | ⟨hmn, hm⟩
      · rw [Function.update_self]
        split_ifs with hi
        · have := hs _ hi _ hget
          rwa [htake] at this
        · exact kE_ok h pre.length (by rw [htake]) hT e
      · rw [Function.update_of_ne hmn]
        exact hT m x hm

/-- The check is sound. -/
theorem kcheck_ok {R : Range} {P : Prims} {E : Env} {p : Prog} {obs : List Ob} {sd : List Nat} (h : ∀ o ∈ obs, o.Ok R P E p)
    (hs : ∀ i ∈ sd, ∀ ne, p.body[i]? = some ne → oeval R P E (oexec R P E (p.body.take i) fun _ => .wild) ne.2 = .nan) (hc : kcheck obs sd p = true) :
    orun R P E p = .nan := by
  obtain ⟨T, hT, hk⟩ := kbody_ok h hs p.body [] .leaf _ rfl (fun n x hx => by rw [Trie.get_leaf] at hx; cases hx) hc
  have := kE_ok h p.body.length (by rw [List.take_length]) hT p.res
  revert hk this
  cases kE obs p.body.length T p.res with
  | nan => exact fun _ h => h
  | _ => simp

/-- A comparison of two numbers. -/
theorem lt_true {R : Range} {P : Prims} {E : Env} {N : Nat → NVal} {a b : Expr} {x y : ℝ} (h1 : oeval R P E N a = .val (.num x)) (h2 : oeval R P E N b = .val (.num y))
    (h : x < y) : KOk .tt (oeval R P E N (.lt a b)) := ⟨x < y, by simp only [oeval, h1, h2]; rfl, h⟩
theorem le_false {R : Range} {P : Prims} {E : Env} {N : Nat → NVal} {a b : Expr} {x y : ℝ} (h1 : oeval R P E N a = .val (.num x)) (h2 : oeval R P E N b = .val (.num y))
    (h : y < x) : KOk .ff (oeval R P E N (.le a b)) := ⟨x ≤ y, by simp only [oeval, h1, h2]; rfl, not_le.mpr h⟩

end Verif.Norm
