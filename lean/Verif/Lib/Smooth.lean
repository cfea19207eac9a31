import Verif.Spec.Smooth
import Mathlib.Analysis.SpecialFunctions.Pow.Deriv
import Mathlib.Analysis.SpecialFunctions.Sqrt
import Mathlib.Analysis.SpecialFunctions.Log.Deriv
import Mathlib.Analysis.SpecialFunctions.Trigonometric.ArctanDeriv
import Mathlib.Analysis.SpecialFunctions.Trigonometric.DerivHyp
import Mathlib.Analysis.Calculus.ContDiff.Operations
/-!
# A formula is smooth where it is regular
-/
namespace Verif.Lib
open Verif.Py Verif.Model Verif.Spec Topology Filter
open scoped ContDiff

/-! ### Functions -/

theorem contDiffAt_cbrt {x : ℝ} (hx : x ≠ 0) : ContDiffAt ℝ ∞ cbrtR x := by
  rcases lt_or_gt_of_ne hx with h | h
  · have e : cbrtR =ᶠ[𝓝 x] fun y => -((-y) ^ (1 / 3 : ℝ)) := by
      filter_upwards [Iio_mem_nhds h] with y hy
      exact if_neg (not_le.2 hy)
    refine ContDiffAt.congr_of_eventuallyEq ?_ e
    exact ((Real.contDiffAt_rpow_const_of_ne (neg_ne_zero.2 hx)).comp x contDiffAt_id.neg).neg
  · have e : cbrtR =ᶠ[𝓝 x] fun y => y ^ (1 / 3 : ℝ) := by
      filter_upwards [Ioi_mem_nhds h] with y hy
      exact if_pos (le_of_lt hy)
    exact (Real.contDiffAt_rpow_const_of_ne hx).congr_of_eventuallyEq e

theorem contDiffAt_absR {x : ℝ} (hx : x ≠ 0) : ContDiffAt ℝ ∞ (fun y : ℝ => |y|) x := by
  rcases lt_or_gt_of_ne hx with h | h
  · refine contDiffAt_id.neg.congr_of_eventuallyEq ?_
    filter_upwards [Iio_mem_nhds h] with y hy
    exact abs_of_neg hy
  · refine contDiffAt_id.congr_of_eventuallyEq ?_
    filter_upwards [Ioi_mem_nhds h] with y hy
    exact abs_of_pos hy

theorem contDiffAt_heaviside {x : ℝ} (hx : x ≠ 0) : ContDiffAt ℝ ∞ heavisideR x := by
  rcases lt_or_gt_of_ne hx with h | h
  · refine (contDiffAt_const (c := (0 : ℝ))).congr_of_eventuallyEq ?_
    filter_upwards [Iio_mem_nhds h] with y hy
    exact if_pos hy
  · refine (contDiffAt_const (c := (1 : ℝ))).congr_of_eventuallyEq ?_
    filter_upwards [Ioi_mem_nhds h] with y hy
    exact if_neg (not_lt.2 (le_of_lt hy))

theorem contDiffAt_artanh {x : ℝ} (h1 : -1 < x) (h2 : x < 1) : ContDiffAt ℝ ∞ Real.artanh x := by
  have e : Real.artanh =ᶠ[𝓝 x] fun y => Real.log ((1 + y) / (1 - y)) / 2 := by
    filter_upwards [Ioo_mem_nhds h1 h2] with y hy
    rw [Real.artanh_eq_half_log ⟨hy.1.le, hy.2.le⟩]
    ring
  refine ContDiffAt.congr_of_eventuallyEq ?_ e
  have h3 : (1 - x) ≠ 0 := by linarith
  have h4 : (1 + x) / (1 - x) ≠ 0 := div_ne_zero (by linarith) h3
  exact (((contDiffAt_const.add contDiffAt_id).div (contDiffAt_const.sub contDiffAt_id) h3).log h4).div_const 2

theorem contDiff_tanh' : ContDiff ℝ ∞ Real.tanh := by
  have e : Real.tanh = fun x => Real.sinh x / Real.cosh x := funext Real.tanh_eq_sinh_div_cosh
  rw [e]
  exact Real.contDiff_sinh.div Real.contDiff_cosh fun x => (Real.cosh_pos x).ne'

theorem contDiffAt_fn1 {P : Prims} (hP : SmoothPrims P) (f : Fn1) (x : ℝ) (h : reg1 f x) : ContDiffAt ℝ ∞ (fn1Val P f) x := by
  cases f with
  | cbrt => exact contDiffAt_cbrt h
  | log => exact Real.contDiffAt_log.2 (ne_of_gt h)
  | sqrt => exact Real.contDiffAt_sqrt (ne_of_gt h)
  | exp => exact Real.contDiff_exp.contDiffAt
  | arctan => exact Real.contDiff_arctan.contDiffAt
  | arcsinh => exact Real.contDiff_arsinh.contDiffAt
  | arctanh => exact contDiffAt_artanh h.1 h.2
  | abs => exact contDiffAt_absR h
  | tanh => exact contDiff_tanh'.contDiffAt
  | cosh => exact Real.contDiff_cosh.contDiffAt
  | cos => exact Real.contDiff_cos.contDiffAt
  | sin => exact Real.contDiff_sin.contDiffAt
  | erf => exact hP.erf.contDiffAt
  | erfc => exact hP.erfc.contDiffAt
  | i0 => exact hP.i0.contDiffAt
  | lambertw => exact hP.lambertw x h
  | e1Scaled => exact (hP.e1 x h).mul Real.contDiff_exp.contDiffAt
  | erfcx => exact (Real.contDiff_exp.comp (contDiff_id.pow 2)).contDiffAt.mul hP.erfc.contDiffAt
  | heaviside => exact contDiffAt_heaviside h

/-! ### Expressions -/

section
variable {X : Type} [NormedAddCommGroup X] [NormedSpace ℝ X] {x₀ : X} {P : Prims} {E : X → Env}

/-- The values `v` are near `x₀` what the regular value `v0` says. -/
def Near (x₀ : X) (v0 : Option Val) (v : X → Except PyErr Val) : Prop :=
  match v0 with
  | none => True
  | some (.num c) => ∃ g : X → ℝ, ContDiffAt ℝ ∞ g x₀ ∧ g x₀ = c ∧ ∀ᶠ x in 𝓝 x₀, v x = .ok (.num (g x))
  | some (.bool b) => ∀ᶠ x in 𝓝 x₀, ∃ b', v x = .ok (.bool b') ∧ (b' ↔ b)

/-- The environments `E x` depend smoothly on `x`. -/
structure SmoothEnv (x₀ : X) (E : X → Env) : Prop where
  inp : ∀ i, (∃ e, (E x₀).inp i = .error e) ∨ ∃ g : X → ℝ, ContDiffAt ℝ ∞ g x₀ ∧ ∀ᶠ x in 𝓝 x₀, (E x).inp i = .ok (g x)
  fld : ∀ x, (E x).fld = (E x₀).fld
  param : ∀ x, (E x).param = (E x₀).param

theorem near_num {v0 : Option Val} {v : X → Except PyErr Val} {c : ℝ} (h : Near x₀ v0 v) (hc : rNum v0 = some c) :
    ∃ g : X → ℝ, ContDiffAt ℝ ∞ g x₀ ∧ g x₀ = c ∧ ∀ᶠ x in 𝓝 x₀, v x = .ok (.num (g x)) := by
  match v0, hc with
  | some (.num _), rfl => exact h

theorem near_bool {v0 : Option Val} {v : X → Except PyErr Val} {b : Prop} (h : Near x₀ v0 v) (hb : rBool v0 = some b) :
    ∀ᶠ x in 𝓝 x₀, ∃ b', v x = .ok (.bool b') ∧ (b' ↔ b) := by
  match v0, hb with
  | some (.bool _), rfl => exact h

theorem bind_ok {ε α β : Type} {x : Except ε α} {f : α → Except ε β} {v : β} (h : (x >>= f) = .ok v) : ∃ y, x = .ok y ∧ f y = .ok v := by
  cases x with
  | error e => cases h
  | ok y => exact ⟨y, rfl, h⟩

theorem two_ok {a b : Expr} {T : Nat → Option Val} {Ex : Env} {k : ℝ → ℝ → Except PyErr Val} {v : Val}
    (h : (do let x ← (← eval P Ex T a).toNum; let y ← (← eval P Ex T b).toNum; k x y) = .ok v) :
    (∃ v, eval P Ex T a = .ok v) ∧ ∃ v, eval P Ex T b = .ok v := by
  obtain ⟨va, h1, h⟩ := bind_ok h
  obtain ⟨x, -, h⟩ := bind_ok h
  obtain ⟨vb, h2, -⟩ := bind_ok h
  exact ⟨⟨va, h1⟩, ⟨vb, h2⟩⟩

theorem two_okB {a b : Expr} {T : Nat → Option Val} {Ex : Env} {k : Prop → Prop → Except PyErr Val} {v : Val}
    (h : (do let x ← (← eval P Ex T a).toBool; let y ← (← eval P Ex T b).toBool; k x y) = .ok v) :
    (∃ v, eval P Ex T a = .ok v) ∧ ∃ v, eval P Ex T b = .ok v := by
  obtain ⟨va, h1, h⟩ := bind_ok h
  obtain ⟨x, -, h⟩ := bind_ok h
  obtain ⟨vb, h2, -⟩ := bind_ok h
  exact ⟨⟨va, h1⟩, ⟨vb, h2⟩⟩

/-- An operation of two numbers. -/
theorem near_op {a0 b0 : Option Val} {va vb : X → Except PyErr Val} (ha : Near x₀ a0 va) (hb : Near x₀ b0 vb) (op : ℝ → ℝ → ℝ) (R : ℝ → ℝ → Prop)
    (hop : ∀ g h : X → ℝ, ContDiffAt ℝ ∞ g x₀ → ContDiffAt ℝ ∞ h x₀ → R (g x₀) (h x₀) → (∀ᶠ x in 𝓝 x₀, vb x = .ok (.num (h x))) →
      ContDiffAt ℝ ∞ (fun x => op (g x) (h x)) x₀)
    {r0 : Option Val} (hr : ∀ c d, rNum a0 = some c → rNum b0 = some d → r0 = none ∨ (R c d ∧ r0 = some (.num (op c d))))
    (hr' : rNum a0 = none ∨ rNum b0 = none → r0 = none) :
    Near x₀ r0 (fun x => do let x1 ← (← va x).toNum; let y1 ← (← vb x).toNum; .ok (.num (op x1 y1))) := by
  cases h1 : rNum a0 with
  | none => rw [hr' (Or.inl h1)]; trivial
  | some c =>
    cases h2 : rNum b0 with
    | none => rw [hr' (Or.inr h2)]; trivial
    | some d =>
      rcases hr c d h1 h2 with e | ⟨hR, e⟩
      · rw [e]; trivial
      · rw [e]
        obtain ⟨g, hg, rfl, eg⟩ := near_num ha h1
        obtain ⟨h, hh, rfl, eh⟩ := near_num hb h2
        refine ⟨_, hop g h hg hh hR eh, rfl, ?_⟩
        filter_upwards [eg, eh] with x e1 e2
        simp only [e1, e2]
        rfl

/-- A comparison of two numbers. -/
theorem near_cmp {a0 b0 : Option Val} {va vb : X → Except PyErr Val} (ha : Near x₀ a0 va) (hb : Near x₀ b0 vb) (op : ℝ → ℝ → Prop) (op0 : ℝ → ℝ → Prop)
    (h1 : ∀ x y, x < y → ((op x y ↔ op0 x y) ∧ ∀ x' y', x' < y' → (op x y ↔ op x' y')))
    (h2 : ∀ x y, y < x → ((op x y ↔ op0 x y) ∧ ∀ x' y', y' < x' → (op x y ↔ op x' y')))
    {r0 : Option Val} (hr : ∀ c d, rNum a0 = some c → rNum b0 = some d → r0 = none ∨ (c ≠ d ∧ r0 = some (.bool (op0 c d))))
    (hr' : rNum a0 = none ∨ rNum b0 = none → r0 = none) :
    Near x₀ r0 (fun x => do let x1 ← (← va x).toNum; let y1 ← (← vb x).toNum; .ok (.bool (op x1 y1))) := by
  cases e1 : rNum a0 with
  | none => rw [hr' (Or.inl e1)]; trivial
  | some c =>
    cases e2 : rNum b0 with
    | none => rw [hr' (Or.inr e2)]; trivial
    | some d =>
      rcases hr c d e1 e2 with e | ⟨hR, e⟩
      · rw [e]; trivial
      · rw [e]
        obtain ⟨g, hg, rfl, eg⟩ := near_num ha e1
        obtain ⟨h, hh, rfl, eh⟩ := near_num hb e2
        rcases lt_or_gt_of_ne hR with hlt | hlt
        · filter_upwards [eg, eh, hg.continuousAt.eventually_lt hh.continuousAt hlt] with x a b hx
          refine ⟨op (g x) (h x), ?_, ?_⟩
          · simp only [a, b]; rfl
          · rw [← (h1 _ _ hlt).1]
            exact ((h1 _ _ hlt).2 _ _ hx).symm
        · filter_upwards [eg, eh, hh.continuousAt.eventually_lt hg.continuousAt hlt] with x a b hx
          refine ⟨op (g x) (h x), ?_, ?_⟩
          · simp only [a, b]; rfl
          · rw [← (h2 _ _ hlt).1]
            exact ((h2 _ _ hlt).2 _ _ hx).symm

open Classical in
/-- A comparison of two literals. -/
theorem near_literals {a b : Expr} (hl : literals a b) {T0 : Nat → Option Val} {T : X → Nat → Option Val} (op : ℝ → ℝ → Prop) :
    Near x₀ (do let x ← rNum (reval P (E x₀) T0 a); let y ← rNum (reval P (E x₀) T0 b); if x = y ∧ ¬literals a b then none else some (.bool (op x y)))
      (fun x => do let x1 ← (← eval P (E x) (T x) a).toNum; let y1 ← (← eval P (E x) (T x) b).toNum; .ok (.bool (op x1 y1))) := by
  cases a with
  | num m e =>
    cases b with
    | num m' e' =>
      simp only [reval, rNum, Option.bind_eq_bind, Option.bind_some]
      rw [if_neg (fun h => h.2 hl)]
      exact .of_forall fun x => ⟨_, rfl, Iff.rfl⟩
    | _ => exact hl.elim
  | _ => exact hl.elim

/-- A connective. -/
theorem near_con {a0 b0 : Option Val} {va vb : X → Except PyErr Val} (ha : Near x₀ a0 va) (hb : Near x₀ b0 vb) (op : Prop → Prop → Prop)
    {r0 : Option Val} (hr : ∀ c d, rBool a0 = some c → rBool b0 = some d → r0 = some (.bool (op c d)))
    (hr' : rBool a0 = none ∨ rBool b0 = none → r0 = none) :
    Near x₀ r0 (fun x => do let x1 ← (← va x).toBool; let y1 ← (← vb x).toBool; .ok (.bool (op x1 y1))) := by
  cases e1 : rBool a0 with
  | none => rw [hr' (Or.inl e1)]; trivial
  | some c =>
    cases e2 : rBool b0 with
    | none => rw [hr' (Or.inr e2)]; trivial
    | some d =>
      rw [hr c d e1 e2]
      filter_upwards [near_bool ha e1, near_bool hb e2] with x hx hy
      obtain ⟨b1, h1, i1⟩ := hx
      obtain ⟨b2, h2, i2⟩ := hy
      refine ⟨op b1 b2, ?_, ?_⟩
      · simp only [h1, h2]; rfl
      · rw [propext i1, propext i2]

theorem reval2 {a0 b0 : Option Val} {k : ℝ → ℝ → Option Val} (h : rNum a0 = none ∨ rNum b0 = none) :
    (do let x ← rNum a0; let y ← rNum b0; k x y) = none := by
  rcases h with h | h
  · rw [h]; rfl
  · rw [h]; cases rNum a0 <;> rfl

theorem reval2B {a0 b0 : Option Val} {k : Prop → Prop → Option Val} (h : rBool a0 = none ∨ rBool b0 = none) :
    (do let x ← rBool a0; let y ← rBool b0; k x y) = none := by
  rcases h with h | h
  · rw [h]; rfl
  · rw [h]; cases rBool a0 <;> rfl

theorem eval_near (hP : SmoothPrims P) (hE : SmoothEnv x₀ E) {T0 : Nat → Option Val} {T : X → Nat → Option Val}
    (hT : ∀ n, Near x₀ (T0 n) fun x => match T x n with | some v => .ok v | none => .error .nameError) (e : Expr)
    (hok : ∀ᶠ x in 𝓝 x₀, ∃ v, eval P (E x) (T x) e = .ok v) : Near x₀ (reval P (E x₀) T0 e) fun x => eval P (E x) (T x) e := by
  induction e with
  | num m e => exact ⟨fun _ => _, contDiffAt_const, rfl, .of_forall fun _ => rfl⟩
  | pi => exact ⟨fun _ => _, contDiffAt_const, rfl, .of_forall fun _ => rfl⟩
  | inp i =>
    rcases hE.inp i with ⟨e, he⟩ | ⟨g, hg, he⟩
    · simp only [reval, he]; trivial
    · have h0 := he.self_of_nhds
      simp only [reval, h0]
      refine ⟨g, hg, rfl, ?_⟩
      filter_upwards [he] with x hx
      simp only [eval, hx]
      rfl
  | fld f => exact ⟨fun _ => _, contDiffAt_const, rfl, .of_forall fun x => by simp only [eval, hE.fld x]⟩
  | param c => exact ⟨fun _ => _, contDiffAt_const, rfl, .of_forall fun x => by simp only [eval, hE.param x]⟩
  | tmp n => exact hT n
  | neg a ih =>
    have ha := ih (hok.mono fun x ⟨v, h⟩ => by obtain ⟨va, h1, -⟩ := bind_ok h; exact ⟨va, h1⟩)
    simp only [reval]
    cases h1 : rNum (reval P (E x₀) T0 a) with
    | none => trivial
    | some c =>
      obtain ⟨g, hg, rfl, eg⟩ := near_num ha h1
      refine ⟨_, hg.neg, rfl, ?_⟩
      filter_upwards [eg] with x e1
      simp only [eval, e1]
      rfl
  | add a b iha ihb =>
    refine near_op (iha (hok.mono fun x ⟨v, h⟩ => (two_ok h).1)) (ihb (hok.mono fun x ⟨v, h⟩ => (two_ok h).2)) (· + ·) (fun _ _ => True)
      (fun g h hg hh _ _ => hg.add hh) (fun c d h1 h2 => Or.inr ⟨trivial, ?_⟩) reval2
    simp only [reval, h1, h2]; rfl
  | sub a b iha ihb =>
    refine near_op (iha (hok.mono fun x ⟨v, h⟩ => (two_ok h).1)) (ihb (hok.mono fun x ⟨v, h⟩ => (two_ok h).2)) (· - ·) (fun _ _ => True)
      (fun g h hg hh _ _ => hg.sub hh) (fun c d h1 h2 => Or.inr ⟨trivial, ?_⟩) reval2
    simp only [reval, h1, h2]; rfl
  | mul a b iha ihb =>
    refine near_op (iha (hok.mono fun x ⟨v, h⟩ => (two_ok h).1)) (ihb (hok.mono fun x ⟨v, h⟩ => (two_ok h).2)) (· * ·) (fun _ _ => True)
      (fun g h hg hh _ _ => hg.mul hh) (fun c d h1 h2 => Or.inr ⟨trivial, ?_⟩) reval2
    simp only [reval, h1, h2]; rfl
  | div a b iha ihb =>
    refine near_op (iha (hok.mono fun x ⟨v, h⟩ => (two_ok h).1)) (ihb (hok.mono fun x ⟨v, h⟩ => (two_ok h).2)) (· / ·) (fun _ y => y ≠ 0)
      (fun g h hg hh hR _ => hg.div hh hR) (fun c d h1 h2 => ?_) reval2
    simp only [reval, h1, h2]
    by_cases hd : d = 0
    · left; simp [hd]
    · right; exact ⟨hd, by simp [hd]⟩
  | pow a b iha ihb =>
    refine near_op (iha (hok.mono fun x ⟨v, h⟩ => (two_ok h).1)) (ihb (hok.mono fun x ⟨v, h⟩ => (two_ok h).2)) (· ^ ·) (fun x y => regPow x y b)
      (fun g h hg hh hR eh => ?_) (fun c d h1 h2 => ?_) reval2
    · have hne : g x₀ ≠ 0 → ContDiffAt ℝ ∞ (fun x => g x ^ h x) x₀ := fun hn => hg.rpow hh hn
      rcases hR with hp | ⟨hn, -⟩ | ⟨m, e, n, rfl, hv⟩
      · exact hne (ne_of_gt hp)
      · exact hne (ne_of_lt hn)
      · refine (hg.pow n).congr_of_eventuallyEq ?_
        filter_upwards [eh] with x hx
        have : h x = (n : ℝ) := by
          simp only [eval] at hx
          injection hx with hx
          injection hx with hx
          rw [← hx, hv]
        rw [this, Real.rpow_natCast]
    · simp only [reval, h1, h2]
      by_cases hd : regPow c d b
      · right; exact ⟨hd, by simp [hd]⟩
      · left; simp [hd]
  | le a b iha ihb =>
    by_cases hl : literals a b
    · exact near_literals (x₀ := x₀) (P := P) (E := E) (T0 := T0) (T := T) hl (· ≤ ·)
    refine near_cmp (iha (hok.mono fun x ⟨v, h⟩ => (two_ok h).1)) (ihb (hok.mono fun x ⟨v, h⟩ => (two_ok h).2)) (· ≤ ·) (· ≤ ·)
      (fun x y h => ⟨Iff.rfl, fun x' y' h' => iff_of_true h.le h'.le⟩) (fun x y h => ⟨Iff.rfl, fun x' y' h' => iff_of_false (not_le.2 h) (not_le.2 h')⟩) (fun c d h1 h2 => ?_) reval2
    simp only [reval, h1, h2]
    by_cases hd : c = d
    · left; simp [hd, hl]
    · right; exact ⟨hd, by simp [hd]⟩
  | lt a b iha ihb =>
    by_cases hl : literals a b
    · exact near_literals (x₀ := x₀) (P := P) (E := E) (T0 := T0) (T := T) hl (· < ·)
    refine near_cmp (iha (hok.mono fun x ⟨v, h⟩ => (two_ok h).1)) (ihb (hok.mono fun x ⟨v, h⟩ => (two_ok h).2)) (· < ·) (· < ·)
      (fun x y h => ⟨Iff.rfl, fun x' y' h' => iff_of_true h h'⟩) (fun x y h => ⟨Iff.rfl, fun x' y' h' => iff_of_false (not_lt.2 h.le) (not_lt.2 h'.le)⟩) (fun c d h1 h2 => ?_) reval2
    simp only [reval, h1, h2]
    by_cases hd : c = d
    · left; simp [hd, hl]
    · right; exact ⟨hd, by simp [hd]⟩
  | eq a b iha ihb =>
    by_cases hl : literals a b
    · exact near_literals (x₀ := x₀) (P := P) (E := E) (T0 := T0) (T := T) hl (· = ·)
    refine near_cmp (iha (hok.mono fun x ⟨v, h⟩ => (two_ok h).1)) (ihb (hok.mono fun x ⟨v, h⟩ => (two_ok h).2)) (· = ·) (· = ·)
      (fun x y h => ⟨Iff.rfl, fun x' y' h' => by simp [h.ne, h'.ne]⟩) (fun x y h => ⟨Iff.rfl, fun x' y' h' => by simp [h.ne', h'.ne']⟩)
      (fun c d h1 h2 => ?_) reval2
    simp only [reval, h1, h2]
    by_cases hd : c = d
    · left; simp [hd, hl]
    · right; exact ⟨hd, by simp [hd]⟩
  | lor a b iha ihb =>
    refine near_con (iha (hok.mono fun x ⟨v, h⟩ => (two_okB h).1)) (ihb (hok.mono fun x ⟨v, h⟩ => (two_okB h).2)) (· ∨ ·) (fun c d h1 h2 => ?_) reval2B
    simp only [reval, h1, h2]; rfl
  | land a b iha ihb =>
    refine near_con (iha (hok.mono fun x ⟨v, h⟩ => (two_okB h).1)) (ihb (hok.mono fun x ⟨v, h⟩ => (two_okB h).2)) (· ∧ ·) (fun c d h1 h2 => ?_) reval2B
    simp only [reval, h1, h2]; rfl
  | cond c a b ihc iha ihb =>
    have hsub : ∀ᶠ x in 𝓝 x₀, (∃ v, eval P (E x) (T x) c = .ok v) ∧ (∃ y, eval P (E x) (T x) a = .ok (.num y)) ∧ ∃ y, eval P (E x) (T x) b = .ok (.num y) :=
      hok.mono fun x ⟨v, h⟩ => by
        have tn : ∀ {v : Val} {y : ℝ}, v.toNum = .ok y → v = .num y := by
          intro v y h
          cases v with
          | num _ => cases h; rfl
          | bool _ => cases h
        simp only [eval] at h
        obtain ⟨vc, h1, h⟩ := bind_ok h
        obtain ⟨z, -, h⟩ := bind_ok h
        obtain ⟨va, h2, h⟩ := bind_ok h
        obtain ⟨y, h3, h⟩ := bind_ok h
        obtain ⟨vb, h4, h⟩ := bind_ok h
        obtain ⟨w, h5, h⟩ := bind_ok h
        rw [tn h3] at h2
        rw [tn h5] at h4
        exact ⟨⟨vc, h1⟩, ⟨y, h2⟩, ⟨w, h4⟩⟩
    have hc := ihc (hsub.mono fun x h => h.1)
    have ha := iha (hsub.mono fun x h => let ⟨y, e⟩ := h.2.1; ⟨_, e⟩)
    have hb := ihb (hsub.mono fun x h => let ⟨y, e⟩ := h.2.2; ⟨_, e⟩)
    simp only [reval]
    cases h1 : rBool (reval P (E x₀) T0 c) with
    | none => trivial
    | some z =>
      have hz := near_bool hc h1
      by_cases hzt : z
      · simp only [Option.bind_eq_bind, Option.bind_some, if_pos hzt]
        cases h2 : rNum (reval P (E x₀) T0 a) with
        | none => trivial
        | some v =>
          obtain ⟨g, hg, rfl, eg⟩ := near_num ha h2
          refine ⟨g, hg, rfl, ?_⟩
          filter_upwards [eg, hz, hsub] with x e1 e2 e3
          obtain ⟨b', e2, i2⟩ := e2
          obtain ⟨y, e4⟩ := e3.2.2
          simp only [eval, e1, e2, e4]
          exact congrArg (fun v => Except.ok (Val.num v)) (if_pos (i2.2 hzt))
      · simp only [Option.bind_eq_bind, Option.bind_some, if_neg hzt]
        cases h2 : rNum (reval P (E x₀) T0 b) with
        | none => trivial
        | some v =>
          obtain ⟨g, hg, rfl, eg⟩ := near_num hb h2
          refine ⟨g, hg, rfl, ?_⟩
          filter_upwards [eg, hz, hsub] with x e1 e2 e3
          obtain ⟨b', e2, i2⟩ := e2
          obtain ⟨y, e4⟩ := e3.2.1
          simp only [eval, e1, e2, e4]
          exact congrArg (fun v => Except.ok (Val.num v)) (if_neg fun h => hzt (i2.1 h))
  | call1 f a ih =>
    have ha := ih (hok.mono fun x ⟨v, h⟩ => by obtain ⟨va, h1, -⟩ := bind_ok h; exact ⟨va, h1⟩)
    simp only [reval]
    cases h1 : rNum (reval P (E x₀) T0 a) with
    | none => trivial
    | some c =>
      obtain ⟨g, hg, rfl, eg⟩ := near_num ha h1
      simp only [Option.bind_eq_bind, Option.bind_some]
      by_cases hr : reg1 f (g x₀)
      · rw [if_pos hr]
        refine ⟨_, (contDiffAt_fn1 hP f _ hr).comp x₀ hg, rfl, ?_⟩
        filter_upwards [eg] with x e1
        simp only [eval, e1]
        rfl
      · rw [if_neg hr]; trivial
  | call2 f a b iha ihb =>
    refine near_op (iha (hok.mono fun x ⟨v, h⟩ => (two_ok h).1)) (ihb (hok.mono fun x ⟨v, h⟩ => (two_ok h).2)) (fn2Val P f) (fun x y => x ≠ 0 ∨ 0 < y)
      (fun g h hg hh hR _ => ?_) (fun c d h1 h2 => ?_) reval2
    · cases f
      exact ContDiffAt.comp (g := fun z : ℝ × ℝ => P.arctan2 z.1 z.2) (f := fun x => (g x, h x)) x₀ (hP.arctan2 _ _ hR) (hg.prodMk hh)
    · simp only [reval, h1, h2]
      by_cases hd : c ≠ 0 ∨ 0 < d
      · right; exact ⟨hd, by simp only [Option.bind_eq_bind, Option.bind_some, if_pos hd]⟩
      · left; simp only [Option.bind_eq_bind, Option.bind_some, if_neg hd]
  | undef c => trivial

theorem exec_near (hP : SmoothPrims P) (hE : SmoothEnv x₀ E) (body : List (Nat × Expr)) : ∀ {T0 : Nat → Option Val} {T T' : X → Nat → Option Val},
    (∀ n, Near x₀ (T0 n) fun x => match T x n with | some v => .ok v | none => .error .nameError) →
    (∀ᶠ x in 𝓝 x₀, exec P (E x) body (T x) = .ok (T' x)) →
    ∀ n, Near x₀ (rexec P (E x₀) body T0 n) fun x => match T' x n with | some v => .ok v | none => .error .nameError := by
  have congr : ∀ {v0 : Option Val} {v v' : X → Except PyErr Val}, Near x₀ v0 v → (∀ᶠ x in 𝓝 x₀, v x = v' x) → Near x₀ v0 v' := by
    intro v0 v v' h e
    match v0, h with
    | none, _ => trivial
    | some (.num c), ⟨g, hg, h0, hv⟩ => exact ⟨g, hg, h0, by filter_upwards [hv, e] with x h1 h2; rw [← h2, h1]⟩
    | some (.bool b), hv => exact show ∀ᶠ x in 𝓝 x₀, _ by filter_upwards [show ∀ᶠ x in 𝓝 x₀, _ from hv, e] with x h1 h2; rwa [← h2]
  induction body with
  | nil =>
    intro T0 T T' hT h n
    refine congr (hT n) ?_
    filter_upwards [h] with x hx
    have : T x = T' x := by simpa [exec] using hx
    rw [this]
  | cons s body ih =>
    intro T0 T T' hT h n
    obtain ⟨m, e⟩ := s
    have hv := eval_near hP hE hT e (h.mono fun x hx => by
      obtain ⟨v, hv, -⟩ := bind_ok hx
      exact ⟨v, hv⟩)
    have hch : ∀ x, ∃ T1 : Nat → Option Val, ∀ v, eval P (E x) (T x) e = .ok v → T1 = Function.update (T x) m (some v) := fun x => by
      cases hx : eval P (E x) (T x) e with
      | error _ => exact ⟨T x, fun v h => by cases h⟩
      | ok v => exact ⟨_, fun v' h => by cases h; rfl⟩
    choose T1 hT1 using hch
    refine ih (T := T1) (T' := T') (T0 := Function.update T0 m (reval P (E x₀) T0 e)) (fun k => ?_) ?_ n
    · by_cases hk : k = m
      · subst hk
        rw [Function.update_self]
        refine congr hv ?_
        filter_upwards [h] with x hx
        obtain ⟨v, hv, -⟩ := bind_ok hx
        simp only [hT1 x v hv, Function.update_self, hv]
      · rw [Function.update_of_ne hk]
        refine congr (hT k) ?_
        filter_upwards [h] with x hx
        obtain ⟨v, hv, -⟩ := bind_ok hx
        simp only [hT1 x v hv, Function.update_of_ne hk]
    · filter_upwards [h] with x hx
      obtain ⟨v, hv, hx⟩ := bind_ok hx
      rw [hT1 x v hv]
      exact hx

/-- A formula body that runs is smooth where it is regular. -/
theorem run_smooth (hP : SmoothPrims P) (hE : SmoothEnv x₀ E) (p : Prog) (hok : ∀ᶠ x in 𝓝 x₀, ∃ v, run P (E x) p = .ok v)
    (hr : (rrun P (E x₀) p).isSome) : ∃ g : X → ℝ, ContDiffAt ℝ ∞ g x₀ ∧ ∀ᶠ x in 𝓝 x₀, run P (E x) p = .ok (g x) := by
  have hch : ∀ x, ∃ T' : Nat → Option Val, ∀ T1, exec P (E x) p.body (fun _ => none) = .ok T1 → T' = T1 := fun x => by
    cases hx : exec P (E x) p.body (fun _ => none) with
    | error _ => exact ⟨fun _ => none, fun v h => by cases h⟩
    | ok v => exact ⟨_, fun v' h => by cases h; rfl⟩
  choose T' hT' using hch
  have hex : ∀ᶠ x in 𝓝 x₀, exec P (E x) p.body (fun _ => none) = .ok (T' x) := hok.mono fun x ⟨v, h⟩ => by
    obtain ⟨T1, h1, -⟩ := bind_ok h
    rw [hT' x T1 h1, h1]
  have hT := exec_near hP hE p.body (T0 := fun _ => none) (T := fun _ _ => none) (fun _ => trivial) hex
  have hv := eval_near hP hE hT p.res (hok.mono fun x ⟨v, h⟩ => by
    obtain ⟨T1, h1, h⟩ := bind_ok h
    obtain ⟨w, h2, -⟩ := bind_ok h
    rw [hT' x T1 h1]
    exact ⟨w, h2⟩)
  obtain ⟨c, hc⟩ := Option.isSome_iff_exists.1 hr
  obtain ⟨g, hg, -, eg⟩ := near_num hv hc
  refine ⟨g, hg, ?_⟩
  filter_upwards [eg, hex] with x e1 e2
  unfold run
  rw [e2]
  show (do let v ← eval P (E x) (T' x) p.res; v.toNum) = _
  rw [e1]
  rfl

end

end Verif.Lib
