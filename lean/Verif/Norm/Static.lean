import Verif.Py.Sem
import Verif.Norm.Core
import Verif.Norm.Sound
import Mathlib.Tactic.IntervalCases
import Verif.Spec.Formula

/-!
# Static analysis of formula code

Proof machinery.  Formula code is straight-line, so whether it raises does not depend on numbers.  `stP mask p` computes a status:
`0` = returns a number, `2` = raises `NameError`, anything else = don't know.  Only the inputs whose bit is set in `mask` may be read.
-/
namespace Verif.Norm
open Verif.Py

noncomputable section

/-- Position of an input in a mask. -/
def inpIdx (i : Inp) : Nat := Inp.rec 0 1 2 3 4 5 6 7 8 i

/-- The status of `x.toNum` from that of `x` (0 number, 1 truth value, 2 `NameError`, 4 unknown). -/
def n1 (a : Nat) : Nat := Nat.lor (Nat.land a 6) (Nat.shiftLeft (Nat.land a 1) 2)
/-- The status of `x.toBool` (0 is success). -/
def b1 (a : Nat) : Nat := Nat.lor (Nat.land a 6) (Nat.shiftLeft (Nat.sub 1 a) 2)
/-- Status of a truth value whose operands have the given status. -/
def tb (a : Nat) : Nat := kif Nat.beq a 0 then 1 else a

/-- Status of a temporary: two bits per temporary, 1 = number, 2 = truth value, 0 = unassigned. -/
def tmpSt (env n : Nat) : Nat := kif Nat.beq (Nat.land (Nat.shiftRight env (Nat.mul 2 n)) 3) 1 then 0 else
  kif Nat.beq (Nat.land (Nat.shiftRight env (Nat.mul 2 n)) 3) 2 then 1 else
  kif Nat.beq (Nat.land (Nat.shiftRight env (Nat.mul 2 n)) 3) 0 then 2 else 4

def stE (mask env : Nat) (e : Expr) : Nat :=
  Expr.rec
    (fun _ _ => 0) 0 (fun i => kif Nat.beq (Nat.land (Nat.shiftRight mask (inpIdx i)) 1) 1 then 0 else 4) (fun _ => 0) (fun _ => 0)
    (fun n => tmpSt env n) (fun _ a => n1 a)
    (fun _ _ a b => Nat.lor (n1 a) (n1 b)) (fun _ _ a b => Nat.lor (n1 a) (n1 b)) (fun _ _ a b => Nat.lor (n1 a) (n1 b))
    (fun _ _ a b => Nat.lor (n1 a) (n1 b)) (fun _ _ a b => Nat.lor (n1 a) (n1 b))
    (fun _ _ a b => tb (Nat.lor (n1 a) (n1 b))) (fun _ _ a b => tb (Nat.lor (n1 a) (n1 b))) (fun _ _ a b => tb (Nat.lor (n1 a) (n1 b)))
    (fun _ _ a b => tb (Nat.lor (b1 a) (b1 b))) (fun _ _ a b => tb (Nat.lor (b1 a) (b1 b)))
    (fun _ _ _ c a b => Nat.lor (b1 c) (Nat.lor (n1 a) (n1 b)))
    (fun _ _ a => n1 a) (fun _ _ _ a b => Nat.lor (n1 a) (n1 b)) (fun _ => 2) e

/-- Status of the rest of a program. -/
def stB (mask : Nat) (res : Expr) (l : List (Nat × Expr)) : Nat → Nat :=
  List.rec (fun env => n1 (stE mask env res))
    (fun x _ ih env => Prod.rec (fun n e =>
      (fun s => kif Nat.ble s 1 then
          (kif Nat.beq (Nat.land (Nat.shiftRight env (Nat.mul 2 n)) 3) 0 then ih (Nat.lor env (Nat.shiftLeft (Nat.add s 1) (Nat.mul 2 n))) else 4)
        else s) (stE mask env e)) x) l

/-- Status of a program. -/
def stP (mask : Nat) (p : Prog) : Nat := Prog.rec (fun b r => stB mask r b 0) p

end

end Verif.Norm


/-!
# Soundness of the static analysis
-/
namespace Verif.Norm
open Verif.Py

/-- What a status says about two evaluations. -/
def SRel (s : Nat) (r r' : Except PyErr Val) : Prop :=
  (s = 0 → ∃ x, r = .ok (.num x) ∧ r' = .ok (.num x)) ∧ (s = 1 → ∃ b, r = .ok (.bool b) ∧ r' = .ok (.bool b)) ∧
    (s = 2 → r = .error .nameError ∧ r' = .error .nameError)

/-- The same for a converted value. -/
def SRelC {α : Type} (s : Nat) (r r' : Except PyErr α) : Prop :=
  (s = 0 → ∃ x, r = .ok x ∧ r' = .ok x) ∧ (s = 2 → r = .error .nameError ∧ r' = .error .nameError)

theorem n1_fin : ∀ a < 8, n1 a < 8 ∧ n1 a % 2 = 0 ∧ (n1 a = 0 → a = 0) ∧ (n1 a = 2 → a = 2) := by decide
theorem b1_fin : ∀ a < 8, (a = 1 ∨ a % 2 = 0) → b1 a < 8 ∧ b1 a % 2 = 0 ∧ (b1 a = 0 → a = 1) ∧ (b1 a = 2 → a = 2) := by decide
theorem lor_fin (a b : Nat) (ha : a < 8) (hb : b < 8) (ha2 : a % 2 = 0) (hb2 : b % 2 = 0) : Nat.lor a b < 8 ∧ Nat.lor a b % 2 = 0 ∧
    (Nat.lor a b = 0 → a = 0 ∧ b = 0) ∧ (Nat.lor a b = 2 → (a = 0 ∨ a = 2) ∧ (b = 0 ∨ b = 2) ∧ (a = 2 ∨ b = 2)) := by
  interval_cases a <;> interval_cases b <;> simp_all <;> decide
theorem tb_fin : ∀ a < 8, a % 2 = 0 → tb a < 8 ∧ (tb a = 1 ∨ tb a % 2 = 0) ∧ tb a ≠ 0 ∧ (tb a = 1 → a = 0) ∧ (tb a = 2 → a = 2) := by decide

/-- A status with its bound. -/
structure SOk (s : Nat) (r r' : Except PyErr Val) : Prop where
  lt : s < 8
  shape : s = 1 ∨ s % 2 = 0
  rel : SRel s r r'

structure COk {α : Type} (s : Nat) (r r' : Except PyErr α) : Prop where
  lt : s < 8
  even : s % 2 = 0
  rel : SRelC s r r'

theorem SOk.num {s : Nat} {r r' : Except PyErr Val} (h : SOk s r r') : COk (n1 s) (r >>= Val.toNum) (r' >>= Val.toNum) where
  lt := (n1_fin s h.lt).1
  even := (n1_fin s h.lt).2.1
  rel := by
    obtain ⟨-, -, h0, h2⟩ := n1_fin s h.lt
    refine ⟨fun hs => ?_, fun hs => ?_⟩
    · obtain ⟨x, rfl, rfl⟩ := h.rel.1 (h0 hs); exact ⟨x, rfl, rfl⟩
    · obtain ⟨rfl, rfl⟩ := h.rel.2.2 (h2 hs); exact ⟨rfl, rfl⟩

theorem SOk.bool {s : Nat} {r r' : Except PyErr Val} (h : SOk s r r') : COk (b1 s) (r >>= Val.toBool) (r' >>= Val.toBool) where
  lt := (b1_fin s h.lt h.shape).1
  even := (b1_fin s h.lt h.shape).2.1
  rel := by
    obtain ⟨-, -, h0, h2⟩ := b1_fin s h.lt h.shape
    refine ⟨fun hs => ?_, fun hs => ?_⟩
    · obtain ⟨x, rfl, rfl⟩ := h.rel.2.1 (h0 hs); exact ⟨x, rfl, rfl⟩
    · obtain ⟨rfl, rfl⟩ := h.rel.2.2 (h2 hs); exact ⟨rfl, rfl⟩

theorem COk.pair {α β : Type} {s t : Nat} {r r' : Except PyErr α} {q q' : Except PyErr β} (h : COk s r r') (g : COk t q q') :
    COk (Nat.lor s t) (do let x ← r; let y ← q; pure (x, y)) (do let x ← r'; let y ← q'; pure (x, y)) := by
  obtain ⟨e1, e2, e3, e4⟩ := lor_fin s t h.lt g.lt h.even g.even
  refine ⟨e1, e2, fun hs => ?_, fun hs => ?_⟩
  · obtain ⟨x, rfl, rfl⟩ := h.rel.1 (e3 hs).1
    obtain ⟨y, rfl, rfl⟩ := g.rel.1 (e3 hs).2
    exact ⟨(x, y), rfl, rfl⟩
  · obtain ⟨ha, hb, hc⟩ := e4 hs
    rcases ha with ha | ha
    · obtain ⟨x, rfl, rfl⟩ := h.rel.1 ha
      obtain ⟨rfl, rfl⟩ := g.rel.2 (hc.resolve_left (by omega))
      exact ⟨rfl, rfl⟩
    · obtain ⟨rfl, rfl⟩ := h.rel.2 ha
      exact ⟨rfl, rfl⟩

theorem COk.mapNum {α : Type} {s : Nat} {r r' : Except PyErr α} (h : COk s r r') (f : α → ℝ) :
    SOk s (do let x ← r; .ok (.num (f x))) (do let x ← r'; .ok (.num (f x))) := by
  refine ⟨h.lt, .inr h.even, fun hs => ?_, fun hs => ?_, fun hs => ?_⟩
  · obtain ⟨x, rfl, rfl⟩ := h.rel.1 hs; exact ⟨_, rfl, rfl⟩
  · have := h.even; omega
  · obtain ⟨rfl, rfl⟩ := h.rel.2 hs; exact ⟨rfl, rfl⟩

theorem COk.mapBool {α : Type} {s : Nat} {r r' : Except PyErr α} (h : COk s r r') (f : α → Prop) :
    SOk (tb s) (do let x ← r; .ok (.bool (f x))) (do let x ← r'; .ok (.bool (f x))) := by
  obtain ⟨e1, e0, e2, e3, e4⟩ := tb_fin s h.lt h.even
  refine ⟨e1, e0, fun hs => absurd hs e2, fun hs => ?_, fun hs => ?_⟩
  · obtain ⟨x, rfl, rfl⟩ := h.rel.1 (e3 hs); exact ⟨_, rfl, rfl⟩
  · obtain ⟨rfl, rfl⟩ := h.rel.2 (e4 hs); exact ⟨rfl, rfl⟩

/-- Agreement of two environments on the inputs of a mask. -/
structure Agree (mask : Nat) (E E' : Env) : Prop where
  inp : ∀ i, Nat.land (Nat.shiftRight mask (inpIdx i)) 1 = 1 → ∃ x, E.inp i = .ok x ∧ E'.inp i = .ok x
  fld : E.fld = E'.fld
  param : E.param = E'.param

/-- The two bits of a temporary. -/
def bits (env n : Nat) : Nat := Nat.land (Nat.shiftRight env (Nat.mul 2 n)) 3

/-- What the bits of temporaries say. -/
structure TAgree (env : Nat) (T T' : Nat → Option Val) : Prop where
  num : ∀ n, bits env n = 1 → ∃ x, T n = some (.num x) ∧ T' n = some (.num x)
  bool : ∀ n, bits env n = 2 → ∃ b, T n = some (.bool b) ∧ T' n = some (.bool b)
  none : ∀ n, bits env n = 0 → T n = none ∧ T' n = none

theorem toNum_bind {α : Type} (r : Except PyErr Val) (k : ℝ → Except PyErr α) :
    (do let x ← (← r).toNum; k x) = (do let x ← (r >>= Val.toNum); k x) := by
  cases r <;> rfl

theorem toBool_bind {α : Type} (r : Except PyErr Val) (k : Prop → Except PyErr α) :
    (do let x ← (← r).toBool; k x) = (do let x ← (r >>= Val.toBool); k x) := by
  cases r <;> rfl

theorem pair_bind {α β γ : Type} (r : Except PyErr α) (q : Except PyErr β) (k : α × β → Except PyErr γ) :
    (do let x ← r; let y ← q; k (x, y)) = (do let z ← (do let x ← r; let y ← q; pure (x, y)); k z) := by
  cases r <;> cases q <;> rfl

theorem triple_bind {α β γ δ : Type} (r : Except PyErr α) (q : Except PyErr β) (s : Except PyErr γ) (k : α × β × γ → Except PyErr δ) :
    (do let x ← r; let y ← q; let z ← s; k (x, y, z)) = (do let w ← (do let x ← r; let v ← (do let y ← q; let z ← s; pure (y, z)); pure (x, v)); k w) := by
  cases r <;> cases q <;> cases s <;> rfl

theorem tmp_sok {env : Nat} {T T' : Nat → Option Val} (h : TAgree env T T') (n : Nat) :
    SOk (tmpSt env n) (match T n with | some v => .ok v | none => .error .nameError) (match T' n with | some v => .ok v | none => .error .nameError) := by
  have hd : tmpSt env n = if bits env n = 1 then 0 else if bits env n = 2 then 1 else if bits env n = 0 then 2 else 4 := by
    unfold tmpSt bits
    rw [kif_beq, kif_beq, kif_beq]
  rw [hd]
  split_ifs with h1 h2 h3
  · obtain ⟨x, e1, e2⟩ := h.num n h1
    rw [e1, e2]
    exact ⟨by norm_num, by norm_num, fun _ => ⟨x, rfl, rfl⟩, by omega, by omega⟩
  · obtain ⟨x, e1, e2⟩ := h.bool n h2
    rw [e1, e2]
    exact ⟨by norm_num, by norm_num, by omega, fun _ => ⟨x, rfl, rfl⟩, by omega⟩
  · obtain ⟨e1, e2⟩ := h.none n h3
    rw [e1, e2]
    exact ⟨by norm_num, by norm_num, by omega, by omega, fun _ => ⟨rfl, rfl⟩⟩
  · exact ⟨by norm_num, by norm_num, by omega, by omega, by omega⟩

theorem stE_sound (P : Prims) {mask env : Nat} {E E' : Env} (hE : Agree mask E E') {T T' : Nat → Option Val} (hT : TAgree env T T') (e : Expr) :
    SOk (stE mask env e) (eval P E T e) (eval P E' T' e) := by
  have ok0 : ∀ x : ℝ, SOk 0 (.ok (.num x)) (.ok (.num x)) := fun x => ⟨by norm_num, by norm_num, fun _ => ⟨x, rfl, rfl⟩, by omega, by omega⟩
  have bin : ∀ {a b : Expr} (f : ℝ × ℝ → ℝ), SOk (stE mask env a) (eval P E T a) (eval P E' T' a) → SOk (stE mask env b) (eval P E T b) (eval P E' T' b) →
      SOk (Nat.lor (n1 (stE mask env a)) (n1 (stE mask env b)))
        (do let x ← (← eval P E T a).toNum; let y ← (← eval P E T b).toNum; .ok (.num (f (x, y))))
        (do let x ← (← eval P E' T' a).toNum; let y ← (← eval P E' T' b).toNum; .ok (.num (f (x, y)))) := by
    intro a b f ha hb
    have := (ha.num.pair hb.num).mapNum f
    rw [← pair_bind, ← pair_bind] at this
    simp only [toNum_bind]
    exact this
  have cmp : ∀ {a b : Expr} (f : ℝ × ℝ → Prop), SOk (stE mask env a) (eval P E T a) (eval P E' T' a) → SOk (stE mask env b) (eval P E T b) (eval P E' T' b) →
      SOk (tb (Nat.lor (n1 (stE mask env a)) (n1 (stE mask env b))))
        (do let x ← (← eval P E T a).toNum; let y ← (← eval P E T b).toNum; .ok (.bool (f (x, y))))
        (do let x ← (← eval P E' T' a).toNum; let y ← (← eval P E' T' b).toNum; .ok (.bool (f (x, y)))) := by
    intro a b f ha hb
    have := (ha.num.pair hb.num).mapBool f
    rw [← pair_bind, ← pair_bind] at this
    simp only [toNum_bind]
    exact this
  have log : ∀ {a b : Expr} (f : Prop × Prop → Prop), SOk (stE mask env a) (eval P E T a) (eval P E' T' a) → SOk (stE mask env b) (eval P E T b) (eval P E' T' b) →
      SOk (tb (Nat.lor (b1 (stE mask env a)) (b1 (stE mask env b))))
        (do let x ← (← eval P E T a).toBool; let y ← (← eval P E T b).toBool; .ok (.bool (f (x, y))))
        (do let x ← (← eval P E' T' a).toBool; let y ← (← eval P E' T' b).toBool; .ok (.bool (f (x, y)))) := by
    intro a b f ha hb
    have := (ha.bool.pair hb.bool).mapBool f
    rw [← pair_bind, ← pair_bind] at this
    simp only [toBool_bind]
    exact this
  have un : ∀ {a : Expr} (f : ℝ → ℝ), SOk (stE mask env a) (eval P E T a) (eval P E' T' a) →
      SOk (n1 (stE mask env a)) (do let x ← (← eval P E T a).toNum; .ok (.num (f x))) (do let x ← (← eval P E' T' a).toNum; .ok (.num (f x))) := by
    intro a f ha
    have := ha.num.mapNum f
    simp only [toNum_bind]
    exact this
  induction e with
  | num m k => exact ok0 _
  | pi => exact ok0 _
  | inp i =>
    have : stE mask env (.inp i) = if Nat.land (Nat.shiftRight mask (inpIdx i)) 1 = 1 then 0 else 4 := kif_beq _ _ _ _
    rw [this]
    split_ifs with h
    · obtain ⟨x, h1, h2⟩ := hE.inp i h
      have e1 : eval P E T (.inp i) = .ok (.num x) := by rw [eval, h1]; rfl
      have e2 : eval P E' T' (.inp i) = .ok (.num x) := by rw [eval, h2]; rfl
      rw [e1, e2]; exact ok0 x
    · exact ⟨by norm_num, by norm_num, by omega, by omega, by omega⟩
  | fld f =>
    have := ok0 (E.fld f)
    rw [eval, eval, ← hE.fld]; exact this
  | param c =>
    have := ok0 (E.param c)
    rw [eval, eval, ← hE.param]; exact this
  | tmp n => rw [eval, eval]; exact tmp_sok hT n
  | neg a ha => exact un (fun x => -x) ha
  | add a b ha hb => exact bin (fun z => z.1 + z.2) ha hb
  | sub a b ha hb => exact bin (fun z => z.1 - z.2) ha hb
  | mul a b ha hb => exact bin (fun z => z.1 * z.2) ha hb
  | div a b ha hb => exact bin (fun z => z.1 / z.2) ha hb
  | pow a b ha hb => exact bin (fun z => z.1 ^ z.2) ha hb
  | le a b ha hb => exact cmp (fun z => z.1 ≤ z.2) ha hb
  | lt a b ha hb => exact cmp (fun z => z.1 < z.2) ha hb
  | eq a b ha hb => exact cmp (fun z => z.1 = z.2) ha hb
  | lor a b ha hb => exact log (fun z => z.1 ∨ z.2) ha hb
  | land a b ha hb => exact log (fun z => z.1 ∧ z.2) ha hb
  | cond c a b hc ha hb =>
    classical
    have := (hc.bool.pair (ha.num.pair hb.num)).mapNum (fun z => if z.1 then z.2.1 else z.2.2)
    rw [← triple_bind, ← triple_bind] at this
    simp only [eval, toNum_bind, toBool_bind]
    exact this
  | call1 f a ha => exact un (fn1Val P f) ha
  | call2 f a b ha hb => exact bin (fun z => fn2Val P f z.1 z.2) ha hb
  | undef c => exact ⟨by norm_num [stE], by norm_num [stE], fun h => absurd h (by norm_num [stE]), fun h => absurd h (by norm_num [stE]), fun _ => ⟨rfl, rfl⟩⟩

theorem bits_eq (env n : Nat) : bits env n = (env >>> (2 * n)) % 4 := by
  unfold bits
  have := Nat.and_two_pow_sub_one_eq_mod (env >>> (2 * n)) 2
  exact this

theorem bits_set {env n s : Nat} (hs : s < 4) (h0 : bits env n = 0) (m : Nat) :
    bits (Nat.lor env (Nat.shiftLeft s (Nat.mul 2 n))) m = if m = n then s else bits env m := by
  have hb : ∀ (x k i : Nat), (bits x k).testBit i = (decide (i < 2) && x.testBit (2 * k + i)) := by
    intro x k i
    rw [bits_eq, show 4 = 2 ^ 2 from rfl, Nat.testBit_mod_two_pow, Nat.testBit_shiftRight]
  apply Nat.eq_of_testBit_eq
  intro i
  rw [hb]
  have e1 : (Nat.lor env (Nat.shiftLeft s (Nat.mul 2 n))).testBit (2 * m + i) = (env.testBit (2 * m + i) || (s <<< (2 * n)).testBit (2 * m + i)) := Nat.testBit_or _ _ _
  rw [e1, Nat.testBit_shiftLeft]
  have hz : ∀ i < 2, env.testBit (2 * n + i) = false := by
    intro i hi
    have := hb env n i
    rw [h0] at this
    simpa [hi] using this.symm
  have hs4 : ∀ i, 2 ≤ i → s.testBit i = false := fun i hi => Nat.testBit_lt_two_pow (lt_of_lt_of_le hs (by
    calc 4 = 2 ^ 2 := rfl
      _ ≤ 2 ^ i := Nat.pow_le_pow_right (by norm_num) hi))
  split_ifs with hm
  · subst hm
    by_cases hi : i < 2
    · simp [hi, hz i hi]
    · simp [hi, hs4 i (by omega)]
  · rw [hb]
    by_cases hi : i < 2
    · simp only [hi, decide_true, Bool.true_and]
      by_cases hle : 2 * n ≤ 2 * m + i
      · rw [hs4 (2 * m + i - 2 * n) (by omega)]; simp
      · simp [hle]
    · simp [hi]

theorem stB_sound (P : Prims) {mask : Nat} {E E' : Env} (hE : Agree mask E E') (res : Expr) :
    ∀ (l : List (Nat × Expr)) (env : Nat) (T T' : Nat → Option Val), TAgree env T T' →
      COk (stB mask res l env) (do let T ← exec P E l T; (← eval P E T res).toNum) (do let T ← exec P E' l T'; (← eval P E' T res).toNum) := by
  intro l
  induction l with
  | nil => intro env T T' hT; exact (stE_sound P hE hT res).num
  | cons x l ih =>
    obtain ⟨n, e⟩ := x
    intro env T T' hT
    have he := stE_sound P hE hT e
    have hd : stB mask res ((n, e) :: l) env = if stE mask env e ≤ 1 then
        (if bits env n = 0 then stB mask res l (Nat.lor env (Nat.shiftLeft (Nat.add (stE mask env e) 1) (Nat.mul 2 n))) else 4) else stE mask env e := by
      change (kif Nat.ble (stE mask env e) 1 then
          (kif Nat.beq (Nat.land (Nat.shiftRight env (Nat.mul 2 n)) 3) 0 then stB mask res l (Nat.lor env (Nat.shiftLeft (Nat.add (stE mask env e) 1) (Nat.mul 2 n))) else 4)
        else (stE mask env e)) = _
      rw [kif_ble, kif_beq]; rfl
    rw [hd]
    simp only [exec]
    generalize stE mask env e = s at he
    have giveup : ∀ {r r' : Except PyErr ℝ}, COk 4 r r' := ⟨by norm_num, by norm_num, by omega, by omega⟩
    split_ifs with h1 h2
    · have hset := bits_set (env := env) (n := n) (s := s + 1) (by omega) h2
      have key : ∀ v : Val, eval P E T e = .ok v → eval P E' T' e = .ok v → (s = 0 → ∃ x, v = .num x) → (s = 1 → ∃ b, v = .bool b) → _ :=
        fun v hv1 hv2 h0 hb => ih (Nat.lor env (Nat.shiftLeft (Nat.add s 1) (Nat.mul 2 n))) (Function.update T n (some v)) (Function.update T' n (some v)) (by
          refine ⟨fun m hm => ?_, fun m hm => ?_, fun m hm => ?_⟩ <;> rw [show Nat.add s 1 = s + 1 from rfl, hset m] at hm <;> by_cases hmn : m = n
          · subst hmn
            simp at hm
            obtain ⟨x, rfl⟩ := h0 hm
            exact ⟨x, by simp, by simp⟩
          · rw [if_neg hmn] at hm; simp [hmn]; exact hT.num m hm
          · subst hmn
            simp at hm
            obtain ⟨x, rfl⟩ := hb hm
            exact ⟨x, by simp, by simp⟩
          · rw [if_neg hmn] at hm; simp [hmn]; exact hT.bool m hm
          · subst hmn; simp at hm
          · rw [if_neg hmn] at hm; simp [hmn]; exact hT.none m hm)
      have hs : s = 0 ∨ s = 1 := by omega
      rcases hs with rfl | rfl
      · obtain ⟨x, e1, e2⟩ := he.rel.1 rfl
        have := key (.num x) e1 e2 (fun _ => ⟨x, rfl⟩) (by omega)
        rw [e1, e2]; exact this
      · obtain ⟨x, e1, e2⟩ := he.rel.2.1 rfl
        have := key (.bool x) e1 e2 (by omega) (fun _ => ⟨x, rfl⟩)
        rw [e1, e2]; exact this
    · exact giveup
    · by_cases h2 : s = 2
      · obtain ⟨e1, e2⟩ := he.rel.2.2 h2
        rw [e1, e2, h2]
        exact ⟨by norm_num, by norm_num, by omega, fun _ => ⟨rfl, rfl⟩⟩
      · exact ⟨he.lt, he.shape.resolve_left (by omega), by omega, by omega⟩

theorem stP_sound (P : Prims) {mask : Nat} {E E' : Env} (hE : Agree mask E E') (p : Prog) : COk (stP mask p) (run P E p) (run P E' p) := by
  obtain ⟨l, r⟩ := p
  refine stB_sound P hE r l 0 _ _ ⟨fun n h => ?_, fun n h => ?_, fun n _ => ⟨rfl, rfl⟩⟩ <;> simp [bits_eq] at h

end Verif.Norm


/-!
# Static checks that establish claims about single formulas
-/
namespace Verif.Norm
open Verif.Py Verif.Model Verif.Spec

noncomputable section

/-- Inputs of the polarized / unpolarized code of a family, as masks. -/
def polMask (fam : Fam) : Nat := Fam.rec 3 31 511 fam
def unpolMask (fam : Fam) : Nat := Fam.rec 1 5 165 fam

/-- Both bodies have the given status when only the inputs in the masks are read. -/
def stChk (pm um st : Nat) (f : Formula) : Bool := kif Nat.beq (stP pm f.polBody) st then Nat.beq (stP um f.unpolBody) st else false

theorem stChk_spec {pm um st : Nat} {f : Formula} (h : stChk pm um st f = true) : stP pm f.polBody = st ∧ stP um f.unpolBody = st := by
  unfold stChk at h
  rw [kif_beq] at h
  split_ifs at h with h1
  exact ⟨h1, Nat.eq_of_beq_eq_true h⟩

theorem pol_agree {mask : Nat} (fam : Fam) (p : Rec) (r : ℝ × ℝ) (s s' : ℝ × ℝ × ℝ) (l l' tau tau' : ℝ × ℝ)
    (h0 : polMask fam &&& mask = mask)
    (h2 : mask.testBit 2 = true → s.1 = s'.1) (h3 : mask.testBit 3 = true → s.2.1 = s'.2.1) (h4 : mask.testBit 4 = true → s.2.2 = s'.2.2)
    (h5 : mask.testBit 5 = true → l.1 = l'.1) (h6 : mask.testBit 6 = true → l.2 = l'.2)
    (h7 : mask.testBit 7 = true → tau.1 = tau'.1) (h8 : mask.testBit 8 = true → tau.2 = tau'.2) :
    Agree mask (polEnv p r (fam.grad s) (fam.meta l) (fam.meta tau)) (polEnv p r (fam.grad s') (fam.meta l') (fam.meta tau')) := by
  refine ⟨fun i hi => ?_, rfl, rfl⟩
  have hb : mask.testBit (inpIdx i) = true := by
    have : (mask >>> inpIdx i) &&& 1 = 1 := hi
    rw [Nat.testBit, Nat.and_comm, this]; rfl
  have hm : (polMask fam).testBit (inpIdx i) = true := by
    have := congrArg (Nat.testBit · (inpIdx i)) h0
    simp only [Nat.testBit_and, hb, Bool.and_true] at this
    exact this
  cases fam <;> cases i <;> first
    | exact absurd hm (by decide)
    | exact ⟨_, rfl, rfl⟩
    | exact ⟨_, rfl, congrArg Except.ok (h2 hb).symm⟩
    | exact ⟨_, rfl, congrArg Except.ok (h3 hb).symm⟩
    | exact ⟨_, rfl, congrArg Except.ok (h4 hb).symm⟩
    | exact ⟨_, rfl, congrArg Except.ok (h5 hb).symm⟩
    | exact ⟨_, rfl, congrArg Except.ok (h6 hb).symm⟩
    | exact ⟨_, rfl, congrArg Except.ok (h7 hb).symm⟩
    | exact ⟨_, rfl, congrArg Except.ok (h8 hb).symm⟩

theorem unpol_agree {mask : Nat} (fam : Fam) (p : Rec) (r s s' l l' tau tau' : ℝ) (h0 : unpolMask fam &&& mask = mask)
    (h2 : mask.testBit 2 = true → s = s') (h5 : mask.testBit 5 = true → l = l') (h7 : mask.testBit 7 = true → tau = tau') :
    Agree mask (unpolEnv p r (fam.grad s) (fam.meta l) (fam.meta tau)) (unpolEnv p r (fam.grad s') (fam.meta l') (fam.meta tau')) := by
  refine ⟨fun i hi => ?_, rfl, rfl⟩
  have hb : mask.testBit (inpIdx i) = true := by
    have : (mask >>> inpIdx i) &&& 1 = 1 := hi
    rw [Nat.testBit, Nat.and_comm, this]; rfl
  have hm : (unpolMask fam).testBit (inpIdx i) = true := by
    have := congrArg (Nat.testBit · (inpIdx i)) h0
    simp only [Nat.testBit_and, hb, Bool.and_true] at this
    exact this
  cases fam <;> cases i <;> first
    | exact absurd hm (by decide)
    | exact ⟨_, rfl, rfl⟩
    | exact ⟨_, rfl, congrArg Except.ok (h2 hb).symm⟩
    | exact ⟨_, rfl, congrArg Except.ok (h5 hb).symm⟩
    | exact ⟨_, rfl, congrArg Except.ok (h7 hb).symm⟩

theorem COk.eq {α : Type} {s : Nat} {r r' : Except PyErr α} (h : COk s r r') (hs : s = 0 ∨ s = 2) : r = r' := by
  rcases hs with hs | hs
  · obtain ⟨x, h1, h2⟩ := h.rel.1 hs; rw [h1, h2]
  · obtain ⟨h1, h2⟩ := h.rel.2 hs; rw [h1, h2]

theorem neverRaises_of {fam : Fam} {f : Formula} (h : stChk (polMask fam) (unpolMask fam) 0 f = true) : NeverRaises fam f := by
  obtain ⟨h1, h2⟩ := stChk_spec h
  refine ⟨fun P p r s l tau => ?_, fun P p r s l tau => ?_⟩
  · obtain ⟨x, hx, -⟩ := (stP_sound P (pol_agree fam p r s s l l tau tau (Nat.and_self _) (fun _ => rfl) (fun _ => rfl) (fun _ => rfl) (fun _ => rfl)
      (fun _ => rfl) (fun _ => rfl) (fun _ => rfl)) f.polBody).rel.1 h1
    exact ⟨x, hx⟩
  · obtain ⟨x, hx, -⟩ := (stP_sound P (unpol_agree fam p r s s l l tau tau (Nat.and_self _) (fun _ => rfl) (fun _ => rfl) (fun _ => rfl)) f.unpolBody).rel.1 h2
    exact ⟨x, hx⟩

theorem alwaysNameError_of {fam : Fam} {f : Formula} (h : stChk (polMask fam) (unpolMask fam) 2 f = true) : AlwaysNameError fam f := by
  obtain ⟨h1, h2⟩ := stChk_spec h
  refine ⟨fun P p r s l tau => ?_, fun P p r s l tau => ?_⟩
  · exact ((stP_sound P (pol_agree fam p r s s l l tau tau (Nat.and_self _) (fun _ => rfl) (fun _ => rfl) (fun _ => rfl) (fun _ => rfl)
      (fun _ => rfl) (fun _ => rfl) (fun _ => rfl)) f.polBody).rel.2 h1).1
  · exact ((stP_sound P (unpol_agree fam p r s s l l tau tau (Nat.and_self _) (fun _ => rfl) (fun _ => rfl) (fun _ => rfl)) f.unpolBody).rel.2 h2).1

theorem ignoresCross_of {fam : Fam} {f : Formula} (st : Nat) (hs : st = 0 ∨ st = 2) (h : Nat.beq (stP (polMask fam &&& 503) f.polBody) st = true) :
    IgnoresCross fam f := by
  intro P p r s0 s1 s1' s2 l tau
  have h3 : (polMask fam &&& 503).testBit 3 = false := by cases fam <;> decide
  exact (stP_sound P (pol_agree (mask := polMask fam &&& 503) fam p r (s0, s1, s2) (s0, s1', s2) l l tau tau (by cases fam <;> decide)
    (fun _ => rfl) (fun h => by rw [h3] at h; cases h) (fun _ => rfl) (fun _ => rfl) (fun _ => rfl) (fun _ => rfl) (fun _ => rfl)) f.polBody).eq
    (by rw [Nat.eq_of_beq_eq_true h]; exact hs)

theorem ignoresLapl_of {fam : Fam} {f : Formula} (st : Nat) (hs : st = 0 ∨ st = 2) (h : stChk (polMask fam &&& 415) (unpolMask fam &&& 133) st f = true) :
    IgnoresLapl fam f := by
  obtain ⟨h1, h2⟩ := stChk_spec h
  have h5 : (polMask fam &&& 415).testBit 5 = false := by cases fam <;> decide
  have h6 : (polMask fam &&& 415).testBit 6 = false := by cases fam <;> decide
  have h5' : (unpolMask fam &&& 133).testBit 5 = false := by cases fam <;> decide
  refine ⟨fun P p r s l l' tau => ?_, fun P p r s l l' tau => ?_⟩
  · exact (stP_sound P (pol_agree (mask := polMask fam &&& 415) fam p r s s l l' tau tau (by cases fam <;> decide)
      (fun _ => rfl) (fun _ => rfl) (fun _ => rfl) (fun h => by rw [h5] at h; cases h) (fun h => by rw [h6] at h; cases h) (fun _ => rfl) (fun _ => rfl))
      f.polBody).eq (by rw [h1]; exact hs)
  · exact (stP_sound P (unpol_agree (mask := unpolMask fam &&& 133) fam p r s s l l' tau tau (by cases fam <;> decide)
      (fun _ => rfl) (fun h => by rw [h5'] at h; cases h) (fun _ => rfl)) f.unpolBody).eq (by rw [h2]; exact hs)

theorem ignoresTau_of {fam : Fam} {f : Formula} (st : Nat) (hs : st = 0 ∨ st = 2) (h : stChk (polMask fam &&& 127) (unpolMask fam &&& 37) st f = true) :
    IgnoresTau fam f := by
  obtain ⟨h1, h2⟩ := stChk_spec h
  have h7 : (polMask fam &&& 127).testBit 7 = false := by cases fam <;> decide
  have h8 : (polMask fam &&& 127).testBit 8 = false := by cases fam <;> decide
  have h7' : (unpolMask fam &&& 37).testBit 7 = false := by cases fam <;> decide
  refine ⟨fun P p r s l tau tau' => ?_, fun P p r s l tau tau' => ?_⟩
  · exact (stP_sound P (pol_agree (mask := polMask fam &&& 127) fam p r s s l l tau tau' (by cases fam <;> decide)
      (fun _ => rfl) (fun _ => rfl) (fun _ => rfl) (fun _ => rfl) (fun _ => rfl) (fun h => by rw [h7] at h; cases h) (fun h => by rw [h8] at h; cases h))
      f.polBody).eq (by rw [h1]; exact hs)
  · exact (stP_sound P (unpol_agree (mask := unpolMask fam &&& 37) fam p r s s l l tau tau' (by cases fam <;> decide)
      (fun _ => rfl) (fun _ => rfl) (fun h => by rw [h7'] at h; cases h)) f.unpolBody).eq (by rw [h2]; exact hs)

end

end Verif.Norm
