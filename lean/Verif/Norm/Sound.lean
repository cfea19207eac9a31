import Verif.Norm.Core
import Verif.Norm.Hom
import Mathlib.Tactic.NormNum
import Mathlib.Data.Nat.Cast.Field
import Mathlib.Tactic.LinearCombination
import Verif.Py.Sem
import Mathlib.Tactic.NormNum.Prime

/-!
# Soundness of the normaliser: arithmetic of terms and sums
-/
namespace Verif.Norm
open Verif.Py

noncomputable section

theorem kif_eq {α : Type} (c : Bool) (t e : α) : (@Bool.rec (fun _ => α) e t c) = if c = true then t else e := by
  cases c <;> rfl

theorem beq_t {a b : Nat} : Nat.beq a b = true ↔ a = b := ⟨Nat.eq_of_beq_eq_true, fun h => by simp [h]⟩
theorem ble_t {a b : Nat} : Nat.ble a b = true ↔ a ≤ b := iff_of_eq Nat.ble_eq
theorem kif_beq {α : Type} (a b : Nat) (t e : α) : (@Bool.rec (fun _ => α) e t (Nat.beq a b)) = if a = b then t else e := by
  rw [kif_eq]; simp only [beq_t]
theorem kif_ble {α : Type} (a b : Nat) (t e : α) : (@Bool.rec (fun _ => α) e t (Nat.ble a b)) = if a ≤ b then t else e := by
  rw [kif_eq]; simp only [ble_t]

/-- Values of the Gödel primes of positive quantities. -/
structure PosOk (U : Nat) (vp : Nat → ℝ) : Prop where
  pos : ∀ p, 0 < vp p
  n2 : H vp 5 ^ U = 2
  n3 : H vp 7 ^ U = 3
  n5 : H vp 17 ^ U = 5
  n7 : H vp 19 ^ U = 7
  n11 : H vp 23 ^ U = 11
  n13 : H vp 29 ^ U = 13

/-- Value of a term. -/
def tm (vp vc : Nat → ℝ) (a b c p m d : Nat) : ℝ := ((p : ℝ) - m) / d * (H vp a / H vp b) * H vc c

/-- Value of a sum. -/
def den (vp vc : Nat → ℝ) : Poly → ℝ
  | .nil => 0
  | .cons a b c p m d tl => tm vp vc a b c p m d + den vp vc tl

@[simp] theorem den_nil (vp vc) : den vp vc .nil = 0 := rfl
@[simp] theorem den_cons (vp vc a b c p m d tl) : den vp vc (.cons a b c p m d tl) = tm vp vc a b c p m d + den vp vc tl := rfl

theorem polyBeq_eq {x y : Poly} (h : polyBeq x y = true) : x = y := by
  induction x generalizing y with
  | nil =>
    cases y with
    | nil => rfl
    | cons => simp [polyBeq] at h
  | cons a b c p m d tl ih =>
    cases y with
    | nil => simp [polyBeq] at h
    | cons a' b' c' p' m' d' tl' =>
      have h' : (kif Nat.beq c c' then kif Nat.beq a a' then kif Nat.beq b b' then kif Nat.beq p p' then
          kif Nat.beq m m' then kif Nat.beq d d' then polyBeq tl tl' else false else false else false else false else false else false) = true := h
      simp only [kif_eq, beq_t] at h'
      rw [Bool.eq_iff_iff] at h'
      by_cases h1 : c = c' <;> by_cases h2 : a = a' <;> by_cases h3 : b = b' <;> by_cases h4 : p = p' <;>
        by_cases h5 : m = m' <;> by_cases h6 : d = d' <;> simp [*] at h'
      subst_vars
      rw [ih h']

section
variable {U : Nat} {vp vc : Nat → ℝ}

theorem redQ_spec {β : Type} (p m d : Nat) (k : Nat → Nat → Nat → β) :
    ∃ p' m' d', redQ p m d k = k p' m' d' ∧ ((p' : ℝ) - m') / d' = ((p : ℝ) - m) / d := by
  have key : ((p - m : Nat) : ℝ) - ((m - p : Nat) : ℝ) = (p : ℝ) - m := by
    rcases le_total p m with h | h
    · rw [Nat.sub_eq_zero_of_le h, Nat.cast_sub h]; push_cast; ring
    · rw [Nat.sub_eq_zero_of_le h, Nat.cast_sub h]; push_cast; ring
  have hz : p - m = 0 ∨ m - p = 0 := by omega
  unfold redQ
  simp only [kif_eq, beq_t]
  by_cases hd : d = 1
  · rw [if_pos hd]
    exact ⟨_, _, _, rfl, by rw [← key]; rfl⟩
  · rw [if_neg hd]
    refine ⟨_, _, _, rfl, ?_⟩
    change (((Nat.sub p m) / (Nat.gcd (Nat.sub p m + Nat.sub m p) d) : Nat) - (((Nat.sub m p) / (Nat.gcd (Nat.sub p m + Nat.sub m p) d) : Nat)) : ℝ) / ((d / (Nat.gcd (Nat.sub p m + Nat.sub m p) d) : Nat) : ℝ) = _
    set P := Nat.sub p m with hP
    set M := Nat.sub m p with hM
    have hz : P = 0 ∨ M = 0 := hz
    have key : (P : ℝ) - M = (p : ℝ) - m := key
    set g := Nat.gcd (P + M) d with hg
    by_cases hd0 : d = 0
    · simp [hd0]
    have hg0 : g ≠ 0 := by
      rw [hg]; exact Nat.gcd_ne_zero_right hd0
    have h1 : g ∣ P + M := Nat.gcd_dvd_left _ _
    have h2 : g ∣ d := Nat.gcd_dvd_right _ _
    have hP' : g ∣ P := by rcases hz with h | h <;> simp [h] at h1 ⊢; exact h1
    have hM' : g ∣ M := by rcases hz with h | h <;> simp [h] at h1 ⊢; exact h1
    have hgr : (g : ℝ) ≠ 0 := by exact_mod_cast hg0
    rw [Nat.cast_div hP' hgr, Nat.cast_div hM' hgr, Nat.cast_div h2 hgr, ← sub_div, key, div_div_div_cancel_right₀ hgr]

/-- Value of a term without its atoms. -/
def tv (vp : Nat → ℝ) (a b p m d : Nat) : ℝ := ((p : ℝ) - m) / d * (H vp a / H vp b)

theorem tm_eq_tv (a b c p m d : Nat) : tm vp vc a b c p m d = tv vp a b p m d * H vc c := rfl

theorem relNum_spec {β : Type} (hp : ∀ p, 0 < vp p) {g l : Nat} (hl : l ≠ 0) (hg : H vp g ^ U = l) (f : Nat)
    (k : Nat → Nat → Nat → Nat → Nat → β) (a b p m d : Nat) :
    ∃ a' b' p' m' d', relNum U g l f k a b p m d = k a' b' p' m' d' ∧ tv vp a' b' p' m' d' = tv vp a b p m d := by
  have hlr : (l : ℝ) ≠ 0 := by exact_mod_cast hl
  induction f generalizing a b p m d with
  | zero => exact ⟨a, b, p, m, d, rfl, rfl⟩
  | succ f ih =>
    have e : relNum U g l (f + 1) k a b p m d =
        if a % g ^ U = 0 then relNum U g l f k (a / g ^ U) b (p * l) (m * l) d
        else if b % g = 0 then
          relNum U g l f k (a * g ^ U / Nat.gcd (a * g ^ U) b) (b / Nat.gcd (a * g ^ U) b) p m (d * l)
        else k a b p m d := by
      conv_rhs => simp only [← beq_t]
      simp only [← kif_eq]
      rfl
    rw [e]
    split_ifs with h1 h2
    · obtain ⟨a', b', p', m', d', h, hv⟩ := ih (a / g ^ U) b (p * l) (m * l) d
      refine ⟨a', b', p', m', d', h, hv.trans ?_⟩
      have := H_div (v := vp) (Nat.dvd_of_mod_eq_zero h1)
      rw [H_pow, hg] at this
      unfold tv
      rw [this]
      push_cast
      ring
    · obtain ⟨a', b', p', m', d', h, hv⟩ := ih (a * g ^ U / Nat.gcd (a * g ^ U) b) (b / Nat.gcd (a * g ^ U) b) p m (d * l)
      refine ⟨a', b', p', m', d', h, hv.trans ?_⟩
      unfold tv
      rw [H_red hp, H_mul, H_pow, hg]
      push_cast
      field_simp
    · exact ⟨a, b, p, m, d, rfl, rfl⟩

theorem redT_spec {β : Type} (hp : PosOk U vp) (f a b c p m d : Nat) (k : TmK β) :
    ∃ a' b' p' m' d', redT U f a b c p m d k = k a' b' c p' m' d' ∧ tv vp a' b' p' m' d' = tv vp a b p m d := by
  have h0 : tv vp (a / Nat.gcd a b) (b / Nat.gcd a b) p m d = tv vp a b p m d := by
    unfold tv; rw [H_red hp.pos]
  -- innermost continuation
  have s3 : ∀ a b p m d, ∃ a' b' p' m' d', (redQ p m d fun p m d => k a b c p m d) = k a' b' c p' m' d' ∧ tv vp a' b' p' m' d' = tv vp a b p m d := by
    intro a b p m d
    obtain ⟨p', m', d', h, hv⟩ := redQ_spec p m d (fun p m d => k a b c p m d)
    exact ⟨a, b, p', m', d', h, by unfold tv; rw [hv]⟩
  have s2 : ∀ a b p m d, ∃ a' b' p' m' d', (kif Nat.beq (Nat.gcd (Nat.mul a b) 215441) 1 then (redQ p m d fun p m d => k a b c p m d)
        else relNum U 17 5 f (fun a b p m d => relNum U 19 7 f
          (fun a b p m d => relNum U 23 11 f (fun a b p m d => relNum U 29 13 f (fun a b p m d => redQ p m d fun p m d => k a b c p m d) a b p m d) a b p m d) a b p m d) a b p m d)
        = k a' b' c p' m' d' ∧ tv vp a' b' p' m' d' = tv vp a b p m d := by
    intro a b p m d
    rw [kif_eq]
    split
    · exact s3 a b p m d
    · obtain ⟨a1, b1, p1, m1, d1, e1, v1⟩ := relNum_spec hp.pos (l := 5) (by norm_num) (by exact_mod_cast hp.n5) f (fun a b p m d => relNum U 19 7 f
          (fun a b p m d => relNum U 23 11 f (fun a b p m d => relNum U 29 13 f (fun a b p m d => redQ p m d fun p m d => k a b c p m d) a b p m d) a b p m d) a b p m d) a b p m d
      obtain ⟨a2, b2, p2, m2, d2, e2, v2⟩ := relNum_spec hp.pos (l := 7) (by norm_num) (by exact_mod_cast hp.n7) f
          (fun a b p m d => relNum U 23 11 f (fun a b p m d => relNum U 29 13 f (fun a b p m d => redQ p m d fun p m d => k a b c p m d) a b p m d) a b p m d) a1 b1 p1 m1 d1
      obtain ⟨a3, b3, p3, m3, d3, e3, v3⟩ := relNum_spec hp.pos (l := 11) (by norm_num) (by exact_mod_cast hp.n11) f
          (fun a b p m d => relNum U 29 13 f (fun a b p m d => redQ p m d fun p m d => k a b c p m d) a b p m d) a2 b2 p2 m2 d2
      obtain ⟨a4, b4, p4, m4, d4, e4, v4⟩ := relNum_spec hp.pos (l := 13) (by norm_num) (by exact_mod_cast hp.n13) f
          (fun a b p m d => redQ p m d fun p m d => k a b c p m d) a3 b3 p3 m3 d3
      obtain ⟨a5, b5, p5, m5, d5, e5, v5⟩ := s3 a4 b4 p4 m4 d4
      exact ⟨a5, b5, p5, m5, d5, by rw [e1, e2, e3, e4, e5], by rw [v5, v4, v3, v2, v1]⟩
  unfold redT
  simp only []
  rw [kif_eq]
  split
  · obtain ⟨a', b', p', m', d', e, v⟩ := s2 (Nat.div a (Nat.gcd a b)) (Nat.div b (Nat.gcd a b)) p m d
    exact ⟨a', b', p', m', d', e, v.trans h0⟩
  · obtain ⟨a1, b1, p1, m1, d1, e1, v1⟩ := relNum_spec hp.pos (l := 2) (by norm_num) (by exact_mod_cast hp.n2) f _ (Nat.div a (Nat.gcd a b)) (Nat.div b (Nat.gcd a b)) p m d
    rw [e1]
    obtain ⟨a2, b2, p2, m2, d2, e2, v2⟩ := relNum_spec hp.pos (l := 3) (by norm_num) (by exact_mod_cast hp.n3) f _ a1 b1 p1 m1 d1
    rw [e2]
    obtain ⟨a', b', p', m', d', e, v⟩ := s2 a2 b2 p2 m2 d2
    exact ⟨a', b', p', m', d', e, by rw [v, v2, v1]; exact h0⟩

theorem mulT_spec {β : Type} (hp : PosOk U vp) (a b c p m d a' b' c' p' m' d' : Nat) (k : TmK β) :
    ∃ a2 b2 p2 m2 d2, mulT U a b c p m d a' b' c' p' m' d' k = k a2 b2 (c * c') p2 m2 d2 ∧
      ∀ vc, tm vp vc a2 b2 (c * c') p2 m2 d2 = tm vp vc a b c p m d * tm vp vc a' b' c' p' m' d' := by
  obtain ⟨a2, b2, p2, m2, d2, e, v⟩ := redT_spec hp 8 (a * a') (b * b') (c * c') (p * p' + m * m') (p * m' + m * p') (d * d') k
  refine ⟨a2, b2, p2, m2, d2, e, fun vc => ?_⟩
  rw [tm_eq_tv, v]
  unfold tv tm
  simp only [H_mul]
  push_cast
  rw [show ((p : ℝ) * p' + m * m' - (p * m' + m * p')) = (p - m) * (p' - m') by ring]
  rw [mul_div_mul_comm, mul_div_mul_comm]
  ring

theorem cmpM_eq {β : Type} (a b c a' b' c' : Nat) (e l g : β) :
    (cmpM a b c a' b' c' e l g = e ∧ a = a' ∧ b = b' ∧ c = c') ∨ cmpM a b c a' b' c' e l g = l ∨ cmpM a b c a' b' c' e l g = g := by
  unfold cmpM
  simp only [kif_eq, beq_t]
  split_ifs with h1 h2 h3
  · exact Or.inl ⟨rfl, h2, h3, h1⟩
  all_goals simp

theorem consSum_den (a b c p m d p' m' d' : Nat) (r : Poly) :
    den vp vc (consSum a b c p m d p' m' d' r) = tm vp vc a b c p m d + tm vp vc a b c p' m' d' + den vp vc r := by
  unfold consSum
  rw [kif_eq]
  split
  · simp only [den_cons]; ring
  · rename_i h
    rw [beq_t] at h
    have hdd : d * d' ≠ 0 := h
    have hd : (d : ℝ) ≠ 0 := by
      intro h0; apply hdd; have : d = 0 := by exact_mod_cast h0
      simp [this]
    have hd' : (d' : ℝ) ≠ 0 := by
      intro h0; apply hdd; have : d' = 0 := by exact_mod_cast h0
      simp [this]
    obtain ⟨p2, m2, d2, e, v⟩ := redQ_spec (Nat.add (Nat.mul p d') (Nat.mul p' d)) (Nat.add (Nat.mul m d') (Nat.mul m' d)) (Nat.mul d d')
      (fun p m d => kif Nat.beq (Nat.add p m) 0 then r else Poly.cons a b c p m d r)
    rw [e]
    have v' : ((p2 : ℝ) - m2) / d2 = ((p : ℝ) - m) / d + ((p' : ℝ) - m') / d' := by
      rw [v]
      change (((p * d' + p' * d : Nat) : ℝ) - ((m * d' + m' * d : Nat) : ℝ)) / ((d * d' : Nat) : ℝ) = _
      push_cast
      field_simp
      ring
    have hs : tm vp vc a b c p m d + tm vp vc a b c p' m' d' = tm vp vc a b c p2 m2 d2 := by
      unfold tm; rw [v']; ring
    rw [hs]
    simp only [kif_eq, beq_t]
    split_ifs with h0
    · have hp0 : p2 = 0 := by have : p2 + m2 = 0 := h0; omega
      have hm0 : m2 = 0 := by have : p2 + m2 = 0 := h0; omega
      simp [tm, hp0, hm0]
    · simp

theorem addP_den (x y : Poly) : den vp vc (addP x y) = den vp vc x + den vp vc y := by
  induction x generalizing y with
  | nil => simp [addP]
  | cons a b c p m d xs ih =>
    induction y with
    | nil => change den vp vc (.cons a b c p m d xs) = _; simp
    | cons a' b' c' p' m' d' ys ih2 =>
      change den vp vc (cmpM a b c a' b' c' (consSum a b c p m d p' m' d' (addP xs ys))
        (.cons a b c p m d (addP xs (.cons a' b' c' p' m' d' ys)))
        (.cons a' b' c' p' m' d' (addP (.cons a b c p m d xs) ys))) = _
      rcases cmpM_eq a b c a' b' c' (consSum a b c p m d p' m' d' (addP xs ys))
        (.cons a b c p m d (addP xs (.cons a' b' c' p' m' d' ys)))
        (.cons a' b' c' p' m' d' (addP (.cons a b c p m d xs) ys)) with ⟨h, ha, hb, hc⟩ | h | h
      · rw [h, consSum_den, ih]
        subst ha hb hc
        simp only [den_cons]
        ring
      · rw [h, den_cons, ih]
        simp only [den_cons]
        ring
      · rw [h, den_cons, ih2]
        simp only [den_cons]
        ring

theorem insT_den (a b c p m d : Nat) (y : Poly) : den vp vc (insT a b c p m d y) = tm vp vc a b c p m d + den vp vc y := by
  induction y with
  | nil => change den vp vc (.cons a b c p m d .nil) = _; simp
  | cons a' b' c' p' m' d' ys ih2 =>
    change den vp vc (cmpM a b c a' b' c' (consSum a b c p m d p' m' d' ys)
      (.cons a b c p m d (.cons a' b' c' p' m' d' ys)) (.cons a' b' c' p' m' d' (insT a b c p m d ys))) = _
    rcases cmpM_eq a b c a' b' c' (consSum a b c p m d p' m' d' ys)
      (.cons a b c p m d (.cons a' b' c' p' m' d' ys)) (.cons a' b' c' p' m' d' (insT a b c p m d ys)) with ⟨h, ha, hb, hc⟩ | h | h
    · rw [h, consSum_den]
      subst ha hb hc
      simp only [den_cons]
      ring
    · rw [h]; simp only [den_cons]
    · rw [h, den_cons, ih2]
      simp only [den_cons]
      ring

theorem mulTP_den (hp : PosOk U vp) (a b c p m d : Nat) (y : Poly) :
    den vp vc (mulTP U a b c p m d y) = tm vp vc a b c p m d * den vp vc y := by
  induction y with
  | nil => change den vp vc .nil = _; simp
  | cons a' b' c' p' m' d' ys ih =>
    change den vp vc (mulT U a b c p m d a' b' c' p' m' d' fun a2 b2 c2 p2 m2 d2 => insT a2 b2 c2 p2 m2 d2 (mulTP U a b c p m d ys)) = _
    obtain ⟨a2, b2, p2, m2, d2, e, v⟩ := mulT_spec hp a b c p m d a' b' c' p' m' d' fun a2 b2 c2 p2 m2 d2 => insT a2 b2 c2 p2 m2 d2 (mulTP U a b c p m d ys)
    rw [e, insT_den, ih, v, den_cons]
    ring

theorem mulRaw_den (hp : PosOk U vp) (x y : Poly) : den vp vc (mulRaw U x y) = den vp vc x * den vp vc y := by
  induction x with
  | nil => change den vp vc .nil = _; simp
  | cons a b c p m d xs ih =>
    change den vp vc (addP (mulTP U a b c p m d y) (mulRaw U xs y)) = _
    rw [addP_den, ih, mulTP_den hp, den_cons]
    ring

theorem negP_den (x : Poly) : den vp vc (negP x) = - den vp vc x := by
  induction x with
  | nil => change den vp vc .nil = _; simp
  | cons a b c p m d xs ih =>
    change den vp vc (.cons a b c m p d (negP xs)) = _
    rw [den_cons, ih, den_cons]
    unfold tm
    ring

@[simp] theorem one_den : den vp vc one = 1 := by simp [one, tm]

theorem ofQ_den (p m d : Nat) : den vp vc (ofQ p m d) = ((p : ℝ) - m) / d := by
  unfold ofQ
  obtain ⟨p2, m2, d2, e, v⟩ := redQ_spec p m d (fun p m d => kif Nat.beq (Nat.add p m) 0 then Poly.nil else .cons 1 1 1 p m d .nil)
  rw [e, ← v]
  simp only [kif_eq, beq_t]
  split_ifs with h0
  · have hp0 : p2 = 0 := by have : p2 + m2 = 0 := h0; omega
    have hm0 : m2 = 0 := by have : p2 + m2 = 0 := h0; omega
    simp [hp0, hm0]
  · simp [tm]

@[simp] theorem ofC_den (c : Nat) : den vp vc (ofC c) = H vc c := by simp [ofC, tm]

theorem isNil_eq {x : Poly} (h : isNil x = true) : x = .nil := by
  cases x with
  | nil => rfl
  | cons => exact absurd h (by simp [isNil])

theorem isOne_eq {x : Poly} (h : isOne x = true) : x = one := polyBeq_eq h

end

end

end Verif.Norm


/-!
# Soundness of the normaliser: the table of atoms, products, inverses
-/
namespace Verif.Norm
open Verif.Py

noncomputable section

/-! ## Tries -/

theorem Trie.get_succ_leaf {α : Type} (f k : Nat) : Trie.get (α := α) (f + 1) .leaf k = none := rfl
theorem Trie.get_succ_node {α : Type} (f k : Nat) (v : Option α) (l r : Trie α) :
    Trie.get (f + 1) (.node v l r) k = if k = 0 then v else if k % 2 = 0 then Trie.get f l (k / 2) else Trie.get f r (k / 2) := by
  simp only [← beq_t, ← kif_eq]
  rfl
theorem Trie.set_succ_leaf {α : Type} (x : α) (f k : Nat) :
    Trie.set x (f + 1) .leaf k = if k = 0 then .node (some x) .leaf .leaf else if k % 2 = 0 then .node none (Trie.set x f .leaf (k / 2)) .leaf
      else .node none .leaf (Trie.set x f .leaf (k / 2)) := by
  simp only [← beq_t, ← kif_eq]
  rfl
theorem Trie.set_succ_node {α : Type} (x : α) (f k : Nat) (v : Option α) (l r : Trie α) :
    Trie.set x (f + 1) (.node v l r) k = if k = 0 then .node (some x) l r else if k % 2 = 0 then .node v (Trie.set x f l (k / 2)) r
      else .node v l (Trie.set x f r (k / 2)) := by
  simp only [← beq_t, ← kif_eq]
  rfl

theorem Trie.get_leaf {α : Type} (f k : Nat) : Trie.get (α := α) f .leaf k = none := by
  cases f <;> rfl

theorem Trie.get_set {α : Type} (x : α) (f : Nat) (t : Trie α) (k k' : Nat) (y : α)
    (h : Trie.get f (Trie.set x f t k) k' = some y) : (k' = k ∧ y = x) ∨ (k' ≠ k ∧ Trie.get f t k' = some y) := by
  induction f generalizing t k k' with
  | zero => exact absurd h (by simp [Trie.get])
  | succ f ih =>
    cases t with
    | leaf =>
      rw [Trie.set_succ_leaf] at h
      split_ifs at h with h1 h2
      · rw [Trie.get_succ_node] at h
        simp only [Trie.get_leaf, ite_self] at h
        split_ifs at h with h3
        · left; simp at h; exact ⟨by omega, h.symm⟩
      · rw [Trie.get_succ_node] at h
        simp only [Trie.get_leaf] at h
        split_ifs at h with h3 h4
        · rcases ih _ _ _ h with ⟨e1, e2⟩ | ⟨e1, e2⟩
          · left; exact ⟨by omega, e2⟩
          · rw [Trie.get_leaf] at e2; cases e2
      · rw [Trie.get_succ_node] at h
        simp only [Trie.get_leaf] at h
        split_ifs at h with h3 h4
        · rcases ih _ _ _ h with ⟨e1, e2⟩ | ⟨e1, e2⟩
          · left; exact ⟨by omega, e2⟩
          · rw [Trie.get_leaf] at e2; cases e2
    | node v l r =>
      rw [Trie.set_succ_node] at h
      rw [Trie.get_succ_node]
      split_ifs at h with h1 h2
      · rw [Trie.get_succ_node] at h
        split_ifs at h ⊢ with h3 h4
        · left; simp at h; exact ⟨by omega, h.symm⟩
        · right; exact ⟨by omega, h⟩
        · right; exact ⟨by omega, h⟩
      · rw [Trie.get_succ_node] at h
        split_ifs at h ⊢ with h3 h4
        · right; exact ⟨by omega, h⟩
        · rcases ih _ _ _ h with ⟨e1, e2⟩ | ⟨e1, e2⟩
          · left; exact ⟨by omega, e2⟩
          · right; exact ⟨by omega, e2⟩
        · right; exact ⟨by omega, h⟩
      · rw [Trie.get_succ_node] at h
        split_ifs at h ⊢ with h3 h4
        · right; exact ⟨by omega, h⟩
        · right; exact ⟨by omega, h⟩
        · rcases ih _ _ _ h with ⟨e1, e2⟩ | ⟨e1, e2⟩
          · left; exact ⟨by omega, e2⟩
          · right; exact ⟨by omega, e2⟩

/-! ## The meaning of atoms -/

/-- What the symbols of a normal form stand for. -/
structure Ctx where
  P : Prims
  /-- values of the Gödel primes of positive quantities -/
  vp : Nat → ℝ
  /-- base quantities without sign condition, by kind and code -/
  sym : Nat → Nat → ℝ
  /-- assumed comparisons -/
  facts : Facts
  /-- values of the codes of nonnegative quantities and their inverses -/
  vb : Nat → ℝ

/-- `fn1Val` by code. -/
def fnByCode (P : Prims) (c : Nat) (x : ℝ) : ℝ :=
  match c with
  | 0 => fn1Val P .cbrt x | 1 => fn1Val P .log x | 2 => fn1Val P .sqrt x | 3 => fn1Val P .exp x | 4 => fn1Val P .arctan x
  | 5 => fn1Val P .arcsinh x | 6 => fn1Val P .arctanh x | 7 => fn1Val P .abs x | 8 => fn1Val P .tanh x | 9 => fn1Val P .cosh x
  | 10 => fn1Val P .cos x | 11 => fn1Val P .sin x | 12 => fn1Val P .erf x | 13 => fn1Val P .erfc x | 14 => fn1Val P .i0 x
  | 15 => fn1Val P .lambertw x | 16 => fn1Val P .e1Scaled x | 17 => fn1Val P .erfcx x | 18 => fn1Val P .heaviside x
  | _ => 0

theorem fnByCode_eq (P : Prims) (f : Fn1) (x : ℝ) : fnByCode P (fn1Code f) x = fn1Val P f x := by
  cases f <;> rfl

/-- Truth of a flagged polynomial. -/
def tr (vp vc : Nat → ℝ) (t : Poly) (b : Bool) : Prop := if b then den vp vc t = 0 else den vp vc t ≠ 0

open Classical in
/-- Value of an atom. -/
def atomVal (K : Ctx) (vc : Nat → ℝ) (tag x y : Nat) (b p q : Poly) : ℝ :=
  match tag with
  | 0 => K.sym x y
  | 1 => den K.vp vc p
  | 2 => den K.vp vc p ^ ((x : ℝ) / y)
  | 3 => den K.vp vc p ^ (-((x : ℝ) / y))
  | 4 => cbrtR (den K.vp vc p)
  | 5 => den K.vp vc p ^ den K.vp vc q
  | 6 => if den K.vp vc b ≠ 0 then den K.vp vc p else den K.vp vc q
  | 7 => fnByCode K.P x (den K.vp vc p)
  | 8 => K.P.arctan2 (den K.vp vc p) (den K.vp vc q)
  | 9 => if 0 ≤ den K.vp vc p then 1 else 0
  | 10 => if den K.vp vc p = 0 then 1 else 0
  | 11 => if tr K.vp vc p (Nat.ble 2 x) ∨ tr K.vp vc q (Nat.beq (x % 2) 1) then 1 else 0
  | 12 => if tr K.vp vc p (Nat.ble 2 x) ∧ tr K.vp vc q (Nat.beq (x % 2) 1) then 1 else 0
  | _ => 0

/-- A table entry. -/
structure Ent where
  pr : Nat
  qr : Nat
  tag : Nat
  x : Nat
  y : Nat
  b : Poly
  p : Poly
  q : Poly

def Tab.ents : Tab → List Ent
  | .nil => []
  | .cons pr qr _ tag x y b p q tl => ⟨pr, qr, tag, x, y, b, p, q⟩ :: tl.ents

def Ent.val (K : Ctx) (vc : Nat → ℝ) (e : Ent) : ℝ := atomVal K vc e.tag e.x e.y e.b e.p e.q

/-- Values of the primes of nonnegative quantities. -/
structure NnOk (vc : Nat → ℝ) : Prop where
  nn : ∀ p ∈ nnPrimes, 0 ≤ vc p
  i2 : H vc 11 = (H vc 2)⁻¹
  i3 : H vc 13 = (H vc 3)⁻¹
  i5 : H vc 17 = (H vc 5)⁻¹
  i7 : H vc 19 = (H vc 7)⁻¹

/-- Truth of the assumed comparisons. -/
def FactsOk (vp vc : Nat → ℝ) : Facts → Prop
  | .nil => True
  | .cons tag p v tl => (v = true ↔ if tag = 0 then 0 ≤ den vp vc p else den vp vc p = 0) ∧ FactsOk vp vc tl

/-- `vc` gives every atom of the table its value. -/
structure Ok (K : Ctx) (vc : Nat → ℝ) (s : St) : Prop where
  nn : NnOk vc
  base : ∀ p ∈ nnPrimes, vc p = K.vb p
  facts : FactsOk K.vp vc K.facts
  atoms : ∀ e ∈ s.tab.ents, H vc e.pr = e.val K vc ∧ H vc e.qr = (e.val K vc)⁻¹

/-- The index only contains table entries, and all codes are prime. -/
structure St.WF (s : St) : Prop where
  idx : ∀ k t, Trie.get 7 s.idx k = some t → ∀ e ∈ t.ents, e ∈ s.tab.ents
  used : ∀ e ∈ s.tab.ents, e.pr.Prime ∧ e.qr.Prime
  free : ∀ p ∈ s.free, p.Prime

/-- The state has been extended. -/
structure Step (s s' : St) : Prop where
  wf : s'.WF
  sub : ∀ e ∈ s.tab.ents, e ∈ s'.tab.ents

theorem Step.refl {s : St} (h : s.WF) : Step s s := ⟨h, fun _ h => h⟩
theorem Step.trans {s s' s'' : St} (h : Step s s') (h' : Step s' s'') : Step s s'' := ⟨h'.wf, fun e he => h'.sub e (h.sub e he)⟩
theorem Step.ok {K : Ctx} {vc : Nat → ℝ} {s s' : St} (h : Step s s') (ho : Ok K vc s') : Ok K vc s :=
  ⟨ho.nn, ho.base, ho.facts, fun e he => ho.atoms e (h.sub e he)⟩

theorem findE_spec {h tag x y : Nat} {b p q : Poly} {k : Nat → Nat → Bool} {z : Bool} {t : Tab}
    (hf : findE h tag x y b p q k z t = true) :
    (∃ pr qr, (⟨pr, qr, tag, x, y, b, p, q⟩ : Ent) ∈ t.ents ∧ k pr qr = true) ∨ z = true := by
  induction t with
  | nil => exact Or.inr hf
  | cons pr qr h' tag' x' y' b' p' q' tl ih =>
    have lift : findE h tag x y b p q k z tl = true → (∃ pr1 qr1, (⟨pr1, qr1, tag, x, y, b, p, q⟩ : Ent) ∈ (Tab.cons pr qr h' tag' x' y' b' p' q' tl).ents ∧ k pr1 qr1 = true) ∨ z = true := by
      intro h
      rcases ih h with ⟨pr1, qr1, hm, hk⟩ | hz
      · exact Or.inl ⟨pr1, qr1, List.mem_cons_of_mem _ hm, hk⟩
      · exact Or.inr hz
    have e : findE h tag x y b p q k z (Tab.cons pr qr h' tag' x' y' b' p' q' tl) =
      if h = h' then if tag = tag' then if x = x' then if y = y' then if polyBeq p p' = true then if polyBeq q q' = true then if polyBeq b b' = true then k pr qr
        else findE h tag x y b p q k z tl else findE h tag x y b p q k z tl else findE h tag x y b p q k z tl else findE h tag x y b p q k z tl
        else findE h tag x y b p q k z tl else findE h tag x y b p q k z tl else findE h tag x y b p q k z tl := by
      simp only [← beq_t]
      simp only [← kif_eq]
      rfl
    rw [e] at hf
    split_ifs at hf with h1 h2 h3 h4 h5 h6 h7
    · have h5 := polyBeq_eq h5
      have h6 := polyBeq_eq h6
      have h7 := polyBeq_eq h7
      subst_vars
      exact Or.inl ⟨pr, qr, List.mem_cons_self .., hf⟩
    all_goals exact lift hf

theorem mkAtom_spec {tag x y : Nat} {b p q : Poly} {s : St} {k : Nat → Nat → St → Bool} (hw : s.WF)
    (h : mkAtom tag x y b p q s k = true) :
    ∃ pr qr s', Step s s' ∧ (⟨pr, qr, tag, x, y, b, p, q⟩ : Ent) ∈ s'.tab.ents ∧ k pr qr s' = true := by
  unfold mkAtom at h
  simp only [] at h
  set hh := hashA tag x y b p q with hhd
  have hbucket : ∀ e ∈ (Option.rec Tab.nil (fun t => t) (Trie.get 7 s.idx (Nat.mod hh idxSize)) : Tab).ents, e ∈ s.tab.ents := by
    intro e he
    cases hg : Trie.get 7 s.idx (Nat.mod hh idxSize) with
    | none => rw [hg] at he; exact absurd he (by simp [Tab.ents])
    | some t => rw [hg] at he; exact hw.idx _ _ hg e he
  rcases findE_spec h with ⟨pr, qr, hm, hk⟩ | hz
  · exact ⟨pr, qr, s, Step.refl hw, hbucket _ hm, hk⟩
  · rcases hfr : s.free with _ | ⟨pr, fr⟩
    · rw [hfr] at hz; exact absurd hz (by simp)
    · rcases fr with _ | ⟨qr, fr'⟩
      · rw [hfr] at hz; exact absurd hz (by simp)
      · rw [hfr] at hz
        have hfp := hw.free
        rw [hfr] at hfp
        refine ⟨pr, qr, _, ⟨⟨?_, ?_, ?_⟩, ?_⟩, ?_, hz⟩
        · intro k' t ht e he
          rcases Trie.get_set _ _ _ _ _ _ ht with ⟨_, e2⟩ | ⟨_, e2⟩
          · subst e2
            simp only [Tab.ents, List.mem_cons] at he ⊢
            rcases he with he | he
            · exact Or.inl he
            · exact Or.inr (hbucket e he)
          · exact List.mem_cons_of_mem _ (hw.idx _ _ e2 e he)
        · intro e he
          simp only [Tab.ents, List.mem_cons] at he
          rcases he with rfl | he
          · exact ⟨hfp pr (by simp), hfp qr (by simp)⟩
          · exact hw.used e he
        · intro p hp
          exact hfp p (by simp [hp])
        · intro e he
          exact List.mem_cons_of_mem _ he
        · exact List.mem_cons_self ..

section
variable {U : Nat} {K : Ctx}

theorem tv_pos (hp : PosOk U K.vp) {a b n d : Nat} (h : 1 ≤ (a * b) * (n * d)) : 0 < tv K.vp a b n 0 d := by
  have ha : a ≠ 0 := by rintro rfl; simp at h
  have hb : b ≠ 0 := by rintro rfl; simp at h
  have hn : n ≠ 0 := by rintro rfl; simp at h
  have hd : d ≠ 0 := by rintro rfl; simp at h
  have h1 := H_pos hp.pos ha
  have h2 := H_pos hp.pos hb
  have h3 : (0 : ℝ) < n := by exact_mod_cast Nat.pos_of_ne_zero hn
  have h4 : (0 : ℝ) < d := by exact_mod_cast Nat.pos_of_ne_zero hd
  unfold tv
  simp only [Nat.cast_zero, sub_zero]
  positivity

theorem splitPos_spec (hp : PosOk U K.vp) {x : Poly} {k : Nat → Nat → Nat → Nat → Poly → Bool → Bool}
    (h : splitPos U x k = true) :
    ∃ a b n d rest sg, 0 < tv K.vp a b n 0 d ∧ (∀ vc, den K.vp vc x = tv K.vp a b n 0 d * den K.vp vc rest) ∧ k a b n d rest sg = true := by
  cases x with
  | nil => exact absurd h (by simp [splitPos])
  | cons a b c p m d tl =>
    unfold splitPos at h
    simp only [] at h
    rw [kif_ble] at h
    split_ifs at h with h1
    set x := Poly.cons a b c p m d tl
    set A := gcdA tl a
    set B := lcmB tl b
    have hpos := tv_pos hp h1
    refine ⟨A, B, Nat.add p m, d, _, _, hpos, fun vc => ?_, h⟩
    rw [mulTP_den hp, ← mul_assoc]
    have : tv K.vp A B (Nat.add p m) 0 d * tm K.vp vc B A 1 d 0 (Nat.add p m) = 1 := by
      unfold tv at hpos ⊢
      unfold tm
      simp only [Nat.cast_zero, sub_zero, H_one, mul_one] at hpos ⊢
      rw [← inv_div (d : ℝ), ← inv_div (H K.vp B)]
      rw [← inv_div (d : ℝ), ← inv_div (H K.vp B)] at hpos
      have h1 : ((d : ℝ) / ((p.add m : Nat) : ℝ)) ≠ 0 := by
        intro h0; rw [h0] at hpos; simp at hpos
      have h2 : (H K.vp B / H K.vp A) ≠ 0 := by
        intro h0; rw [h0] at hpos; simp at hpos
      rw [mul_mul_mul_comm, inv_mul_cancel₀ h1, inv_mul_cancel₀ h2, one_mul]
    rw [this, one_mul]

theorem wrapE_spec (hp : PosOk U K.vp) {x : Poly} {s : St} {k : Nat → Nat → Nat → Nat → Nat → Nat → Nat → St → Bool} (hw : s.WF)
    (h : wrapE U x s k = true) :
    ∃ a b p m d pr qr s', Step s s' ∧
      (∀ vc, Ok K vc s' → den K.vp vc x = tv K.vp a b p m d * H vc pr ∧ H vc qr = (H vc pr)⁻¹) ∧ k a b p m d pr qr s' = true := by
  obtain ⟨a, b, n, d, rest, sg, hpos, hx, h⟩ := splitPos_spec hp h
  rw [kif_eq] at h
  split_ifs at h with hs
  · obtain ⟨pr, qr, s', hst, hm, hk⟩ := mkAtom_spec hw h
    refine ⟨a, b, 0, n, d, pr, qr, s', hst, fun vc ho => ?_, hk⟩
    have := ho.atoms _ hm
    simp only [Ent.val, atomVal] at this
    refine ⟨?_, by rw [this.2, this.1]⟩
    rw [this.1, negP_den, hx]
    unfold tv
    push_cast
    ring
  · obtain ⟨pr, qr, s', hst, hm, hk⟩ := mkAtom_spec hw h
    refine ⟨a, b, n, 0, d, pr, qr, s', hst, fun vc ho => ?_, hk⟩
    have := ho.atoms _ hm
    simp only [Ent.val, atomVal] at this
    refine ⟨?_, by rw [this.2, this.1]⟩
    rw [this.1, hx]

/-- Outcome of an operation that produces a polynomial with value `f`. -/
def Post (K : Ctx) (s : St) (k : Poly → St → Bool) (f : (Nat → ℝ) → ℝ) : Prop :=
  ∃ r s', Step s s' ∧ (∀ vc, Ok K vc s' → den K.vp vc r = f vc) ∧ k r s' = true

theorem Post.pure {s : St} {k : Poly → St → Bool} {f : (Nat → ℝ) → ℝ} {r : Poly} (hw : s.WF) (h : k r s = true)
    (hf : ∀ vc, Ok K vc s → den K.vp vc r = f vc) : Post K s k f := ⟨r, s, Step.refl hw, hf, h⟩

theorem Post.mono {s s1 : St} {k : Poly → St → Bool} {f g : (Nat → ℝ) → ℝ} (hst : Step s s1) (h : Post K s1 k f)
    (hfg : ∀ vc, Ok K vc s1 → f vc = g vc) : Post K s k g := by
  obtain ⟨r, s', h1, h2, h3⟩ := h
  exact ⟨r, s', hst.trans h1, fun vc ho => (h2 vc ho).trans (hfg vc (h1.ok ho)), h3⟩

/-- An atom as a polynomial. -/
theorem atomPost {tag x y : Nat} {b p q : Poly} {s : St} {k : Poly → St → Bool} (hw : s.WF)
    (h : (mkAtom tag x y b p q s fun pr _ s => k (ofC pr) s) = true) :
    Post K s k fun vc => atomVal K vc tag x y b p q := by
  obtain ⟨pr, qr, s', hst, hm, hk⟩ := mkAtom_spec hw h
  exact ⟨_, s', hst, fun vc ho => by rw [ofC_den]; exact (ho.atoms _ hm).1, hk⟩

theorem wrap_spec (hp : PosOk U K.vp) {x : Poly} {s : St} {k : Poly → St → Bool} (hw : s.WF) (h : wrap U x s k = true) :
    Post K s k fun vc => den K.vp vc x := by
  cases x with
  | nil => exact Post.pure hw h fun _ _ => rfl
  | cons a b c p m d tl =>
    cases tl with
    | nil => exact Post.pure hw h fun _ _ => rfl
    | cons a' b' c' p' m' d' tl' =>
      change wrapE U (.cons a b c p m d (.cons a' b' c' p' m' d' tl')) s (fun a b p m d pr _ s => k (.cons a b pr p m d .nil) s) = true at h
      obtain ⟨a, b, p, m, d, pr, qr, s', hst, hv, hk⟩ := wrapE_spec hp hw h
      refine ⟨_, s', hst, fun vc ho => ?_, hk⟩
      beta_reduce
      rw [(hv vc ho).1, den_cons, den_nil, tm_eq_tv, add_zero]

theorem mulP_spec {C : Cfg} (hp : PosOk C.U K.vp) {x y : Poly} {s : St} {k : Poly → St → Bool} (hw : s.WF) (h : mulP C x y s k = true) :
    Post K s k fun vc => den K.vp vc x * den K.vp vc y := by
  unfold mulP at h
  rw [kif_eq] at h
  split_ifs at h with h1
  · exact Post.pure hw h fun vc _ => mulRaw_den hp x y
  · obtain ⟨x', s1, hs1, hx, h⟩ := wrap_spec hp hw h
    obtain ⟨y', s2, hs2, hy, h⟩ := wrap_spec hp hs1.wf h
    refine ⟨_, s2, hs1.trans hs2, fun vc ho => ?_, h⟩
    rw [mulRaw_den hp, hx vc (hs2.ok ho), hy vc ho]

/-! ## Inverses -/

theorem divAll_spec {β : Type} (p q f : Nat) (k : Nat → Nat → β) (c o : Nat) :
    ∃ c' o', divAll p q f k c o = k c' o' ∧
      ∀ vc, H vc q = (H vc p)⁻¹ → H vc o' * (H vc c')⁻¹ = H vc o * (H vc c)⁻¹ := by
  induction f generalizing c o with
  | zero => exact ⟨c, o, rfl, fun _ _ => rfl⟩
  | succ f ih =>
    have e : divAll p q (f + 1) k c o = if c % p = 0 then divAll p q f k (c / p) (o * q) else k c o := by
      simp only [← beq_t, ← kif_eq]; rfl
    rw [e]
    split_ifs with h
    · obtain ⟨c', o', h1, h2⟩ := ih (c / p) (o * q)
      refine ⟨c', o', h1, fun vc hq => (h2 vc hq).trans ?_⟩
      rw [H_div (v := vc) (Nat.dvd_of_mod_eq_zero h), H_mul, hq, mul_inv]
      ring
    · exact ⟨c, o, rfl, fun _ _ => rfl⟩

theorem divPair_spec {β : Type} (p q c o : Nat) (k : Nat → Nat → β) :
    ∃ c' o', divPair p q c o k = k c' o' ∧
      ∀ vc, H vc q = (H vc p)⁻¹ → H vc o' * (H vc c')⁻¹ = H vc o * (H vc c)⁻¹ := by
  unfold divPair
  rw [kif_eq]
  split_ifs with h
  · exact ⟨c, o, rfl, fun _ _ => rfl⟩
  · obtain ⟨c1, o1, h1, h2⟩ := divAll_spec p q 4000 (fun c o => divAll q p 4000 k c o) c o
    obtain ⟨c2, o2, h3, h4⟩ := divAll_spec q p 4000 k c1 o1
    exact ⟨c2, o2, h1.trans h3, fun vc hq => (h4 vc (by rw [hq, inv_inv])).trans (h2 vc hq)⟩

theorem invTab_spec {β : Type} (t : Tab) (k : Nat → Nat → β) (c o : Nat) :
    ∃ c' o', invTab t k c o = k c' o' ∧
      ∀ vc, (∀ e ∈ t.ents, H vc e.qr = (H vc e.pr)⁻¹) → H vc o' * (H vc c')⁻¹ = H vc o * (H vc c)⁻¹ := by
  induction t generalizing c o with
  | nil => exact ⟨c, o, rfl, fun _ _ => rfl⟩
  | cons pr qr h tag x y b p q tl ih =>
    have e : invTab (Tab.cons pr qr h tag x y b p q tl) k c o = if c = 1 then k c o else divPair pr qr c o (invTab tl k) := by
      simp only [← beq_t, ← kif_eq]; rfl
    rw [e]
    split_ifs with h
    · exact ⟨c, o, rfl, fun _ _ => rfl⟩
    · obtain ⟨c1, o1, h1, h2⟩ := divPair_spec pr qr c o (invTab tl k)
      obtain ⟨c2, o2, h3, h4⟩ := ih c1 o1
      refine ⟨c2, o2, h1.trans h3, fun vc hq => ?_⟩
      rw [h4 vc (fun e he => hq e (List.mem_cons_of_mem _ he)), h2 vc (hq _ (List.mem_cons_self ..))]

theorem invC_spec {c : Nat} {s : St} {k : Nat → Bool} (h : invC c s k = true) :
    ∃ o, k o = true ∧ ∀ vc, Ok K vc s → H vc o = (H vc c)⁻¹ := by
  unfold invC at h
  rw [kif_beq] at h
  split_ifs at h with h1
  · exact ⟨1, h, fun vc _ => by rw [h1]; simp⟩
  · obtain ⟨c1, o1, e1, v1⟩ := divPair_spec 2 11 c 1 (fun c o => divPair 3 13 c o fun c o => divPair 5 17 c o fun c o => divPair 7 19 c o fun c o =>
      invTab s.tab (fun c o => kif Nat.beq c 1 then k o else false) c o)
    rw [e1] at h
    obtain ⟨c2, o2, e2, v2⟩ := divPair_spec 3 13 c1 o1 (fun c o => divPair 5 17 c o fun c o => divPair 7 19 c o fun c o =>
      invTab s.tab (fun c o => kif Nat.beq c 1 then k o else false) c o)
    rw [e2] at h
    obtain ⟨c3, o3, e3, v3⟩ := divPair_spec 5 17 c2 o2 (fun c o => divPair 7 19 c o fun c o =>
      invTab s.tab (fun c o => kif Nat.beq c 1 then k o else false) c o)
    rw [e3] at h
    obtain ⟨c4, o4, e4, v4⟩ := divPair_spec 7 19 c3 o3 (fun c o =>
      invTab s.tab (fun c o => kif Nat.beq c 1 then k o else false) c o)
    rw [e4] at h
    obtain ⟨c5, o5, e5, v5⟩ := invTab_spec s.tab (fun c o => kif Nat.beq c 1 then k o else false) c4 o4
    rw [e5] at h
    simp only [kif_eq, beq_t] at h
    split_ifs at h with h6
    refine ⟨o5, h, fun vc ho => ?_⟩
    have := v5 vc (fun e he => by rw [(ho.atoms e he).2, (ho.atoms e he).1])
    rw [v4 vc ho.nn.i7, v3 vc ho.nn.i5, v2 vc ho.nn.i3, v1 vc ho.nn.i2, h6] at this
    simpa using this

theorem invT_spec (hp : PosOk U K.vp) {a b c p m d : Nat} {s : St} {k : TmK Bool} (h : invT U a b c p m d s k = true) :
    ∃ a' b' c' p' m' d', k a' b' c' p' m' d' = true ∧ tv K.vp a' b' p' m' d' = (tv K.vp a b p m d)⁻¹ ∧
      ∀ vc, Ok K vc s → H vc c' = (H vc c)⁻¹ := by
  obtain ⟨o, h, ho⟩ := invC_spec (K := K) h
  simp only [kif_eq, beq_t] at h
  split_ifs at h with h1 h2 h3
  · obtain ⟨a', b', p', m', d', e, v⟩ := redT_spec hp 8 b a o 0 d m k
    refine ⟨a', b', o, p', m', d', e ▸ h, v.trans ?_, ho⟩
    unfold tv
    subst h1
    rw [mul_inv, inv_div, inv_div]
    push_cast
    rw [zero_sub, zero_sub, neg_div, div_neg]
  · obtain ⟨a', b', p', m', d', e, v⟩ := redT_spec hp 8 b a o d 0 p k
    refine ⟨a', b', o, p', m', d', e ▸ h, v.trans ?_, ho⟩
    unfold tv
    subst h3
    rw [mul_inv, inv_div, inv_div]
    push_cast
    rw [sub_zero, sub_zero]

theorem invP_spec (hp : PosOk U K.vp) {x : Poly} {s : St} {k : Poly → St → Bool} (hw : s.WF) (h : invP U x s k = true) :
    Post K s k fun vc => (den K.vp vc x)⁻¹ := by
  cases x with
  | nil => exact absurd h (by simp [invP])
  | cons a b c p m d tl =>
    cases tl with
    | nil =>
      obtain ⟨a', b', c', p', m', d', h, hv, ho⟩ := invT_spec (K := K) hp h
      refine Post.pure hw h fun vc hok => ?_
      simp only [den_cons, den_nil, add_zero, tm_eq_tv]
      rw [hv, ho vc hok, mul_inv]
    | cons a' b' c' p' m' d' tl' =>
      change wrapE U (.cons a b c p m d (.cons a' b' c' p' m' d' tl')) s
        (fun a b p m d _ qr s => invT U a b 1 p m d s fun a b _ p m d => k (.cons a b qr p m d .nil) s) = true at h
      obtain ⟨a, b, p, m, d, pr, qr, s', hst, hv, h⟩ := wrapE_spec hp hw h
      obtain ⟨a', b', c', p', m', d', h, hv', ho⟩ := invT_spec (K := K) hp h
      refine ⟨_, s', hst, fun vc hok => ?_, h⟩
      beta_reduce
      rw [(hv vc hok).1]
      simp only [den_cons, den_nil, add_zero, tm_eq_tv]
      rw [hv', (hv vc hok).2, mul_inv]

end

end

end Verif.Norm


/-!
# Soundness of the normaliser: powers
-/
namespace Verif.Norm
open Verif.Py

noncomputable section

section
variable {U : Nat} {K : Ctx}

/-! ## Natural powers -/

theorem npowP_spec {C : Cfg} (hp : PosOk C.U K.vp) {x : Poly} (n : Nat) {s : St} {k : Poly → St → Bool} (hw : s.WF)
    (h : npowP C x n s k = true) : Post K s k fun vc => den K.vp vc x ^ n := by
  induction n generalizing s k with
  | zero => exact Post.pure hw h fun vc _ => by simp
  | succ n ih =>
    change npowP C x n s (fun r s => mulP C r x s k) = true at h
    obtain ⟨r, s1, hs1, hr, h⟩ := ih hw h
    obtain ⟨r2, s2, hs2, hr2, h⟩ := mulP_spec hp hs1.wf h
    refine ⟨r2, s2, hs1.trans hs2, fun vc ho => ?_, h⟩
    rw [hr2 vc ho]
    beta_reduce
    rw [hr vc (hs2.ok ho), pow_succ]

theorem powT_spec (hp : PosOk U K.vp) {a b c p m d n : Nat} {k : Poly → Bool} (h : powT U a b c p m d n k = true) :
    ∃ r, k r = true ∧ ∀ vc, den K.vp vc r = tm K.vp vc a b c p m d ^ n := by
  unfold powT at h
  rw [kif_beq, kif_beq, kif_beq] at h
  split_ifs at h with h1 h2 h3
  · obtain ⟨a', b', p', m', d', e, v⟩ := redT_spec hp (n + 2) (a ^ n) (b ^ n) (c ^ n) (p ^ n) 0 (d ^ n) fun a b c p m d => k (.cons a b c p m d .nil)
    refine ⟨_, e ▸ h, fun vc => ?_⟩
    simp only [den_cons, den_nil, add_zero, tm_eq_tv, v]
    subst h1
    unfold tv
    simp only [H_pow]
    push_cast
    rw [sub_zero, sub_zero, mul_pow, mul_pow, div_pow, div_pow]
  · obtain ⟨a', b', p', m', d', e, v⟩ := redT_spec hp (n + 2) (a ^ n) (b ^ n) (c ^ n) (m ^ n) 0 (d ^ n) fun a b c p m d => k (.cons a b c p m d .nil)
    refine ⟨_, e ▸ h, fun vc => ?_⟩
    simp only [den_cons, den_nil, add_zero, tm_eq_tv, v]
    subst h2
    unfold tv
    simp only [H_pow]
    have he : Even n := Nat.even_iff.mpr h3
    push_cast
    rw [sub_zero, zero_sub, mul_pow, mul_pow, div_pow, div_pow, he.neg_pow]
  · obtain ⟨a', b', p', m', d', e, v⟩ := redT_spec hp (n + 2) (a ^ n) (b ^ n) (c ^ n) 0 (m ^ n) (d ^ n) fun a b c p m d => k (.cons a b c p m d .nil)
    refine ⟨_, e ▸ h, fun vc => ?_⟩
    simp only [den_cons, den_nil, add_zero, tm_eq_tv, v]
    subst h2
    unfold tv
    simp only [H_pow]
    have ho : Odd n := by
      rw [Nat.odd_iff]
      have : ¬ n % 2 = 0 := h3
      omega
    push_cast
    rw [zero_sub, zero_sub, mul_pow, mul_pow, div_pow, div_pow, ho.neg_pow]

theorem natPow_spec {C : Cfg} (hp : PosOk C.U K.vp) {x : Poly} {n : Nat} {s : St} {k : Poly → St → Bool} (hw : s.WF)
    (h : natPow C x n s k = true) : Post K s k fun vc => den K.vp vc x ^ n := by
  cases x with
  | nil =>
    change (kif Nat.beq n 0 then k one s else k .nil s) = true at h
    rw [kif_beq] at h
    split_ifs at h with h1
    · exact Post.pure hw h fun vc _ => by simp [h1]
    · exact Post.pure hw h fun vc _ => by simp [h1]
  | cons a b c p m d tl =>
    cases tl with
    | nil =>
      obtain ⟨r, h, hr⟩ := powT_spec (K := K) hp (show powT C.U a b c p m d n (fun r => k r s) = true from h)
      exact Post.pure hw h fun vc _ => by simp [hr]
    | cons a' b' c' p' m' d' tl' =>
      change (kif Nat.ble n 8 then npowP C (.cons a b c p m d (.cons a' b' c' p' m' d' tl')) n s k
        else wrapE C.U (.cons a b c p m d (.cons a' b' c' p' m' d' tl')) s fun a b p m d pr _ s => powT C.U a b pr p m d n fun r => k r s) = true at h
      rw [kif_ble] at h
      split_ifs at h with h1
      · exact npowP_spec hp n hw h
      · obtain ⟨a, b, p, m, d, pr, qr, s', hst, hv, h⟩ := wrapE_spec hp hw h
        obtain ⟨r, h, hr⟩ := powT_spec (K := K) hp h
        refine ⟨r, s', hst, fun vc ho => ?_, h⟩
        beta_reduce
        rw [hr, (hv vc ho).1, tm_eq_tv]

/-! ## Facts about real powers -/

theorem rpow_mul_of_nonneg {y : ℝ} (hy : 0 ≤ y) (z : ℝ) {q : ℝ} (hq : q ≠ 0) : (y * z) ^ q = y ^ q * z ^ q := by
  rcases hy.eq_or_lt with rfl | hy
  · rw [zero_mul, Real.zero_rpow hq, zero_mul]
  · rcases le_or_gt 0 z with hz | hz
    · exact Real.mul_rpow hy.le hz
    · rw [Real.rpow_def_of_neg (mul_neg_of_pos_of_neg hy hz), Real.rpow_def_of_neg hz, Real.rpow_def_of_pos hy, ← mul_assoc,
        ← Real.exp_add, Real.log_mul hy.ne' hz.ne, add_mul]

theorem cbrtR_of_nonneg {x : ℝ} (h : 0 ≤ x) : cbrtR x = x ^ (1 / 3 : ℝ) := if_pos h

theorem cbrtR_neg (x : ℝ) : cbrtR (-x) = - cbrtR x := by
  unfold cbrtR
  rcases lt_trichotomy x 0 with h | h | h
  · rw [if_pos (by linarith), if_neg (by linarith), neg_neg]
  · subst h
    simp
  · rw [if_neg (by linarith), if_pos h.le, neg_neg]

theorem cbrtR_mul {y : ℝ} (hy : 0 ≤ y) (z : ℝ) : cbrtR (y * z) = cbrtR y * cbrtR z := by
  have key : ∀ z : ℝ, 0 ≤ z → cbrtR (y * z) = cbrtR y * cbrtR z := fun z hz => by
    rw [cbrtR_of_nonneg (mul_nonneg hy hz), cbrtR_of_nonneg hy, cbrtR_of_nonneg hz, Real.mul_rpow hy hz]
  rcases le_or_gt 0 z with hz | hz
  · exact key z hz
  · have := key (-z) (by linarith)
    rw [mul_neg, cbrtR_neg, cbrtR_neg, mul_neg] at this
    linarith

theorem rpow_of_pow_eq {y y' : ℝ} (hy : 0 ≤ y) (hy' : 0 ≤ y') {n m : Nat} (hm : m ≠ 0) (h : y' ^ m = y ^ n) : y ^ ((n : ℝ) / m) = y' := by
  rw [div_eq_mul_inv, Real.rpow_mul hy, Real.rpow_natCast, ← h, Real.pow_rpow_inv_natCast hy' hm]

/-- What `ratPow` computes for each tag. -/
def rootFn (tag n m : Nat) (x : ℝ) : ℝ :=
  if tag = 3 then x ^ (-((n : ℝ) / m)) else if tag = 2 then x ^ ((n : ℝ) / m) else cbrtR x

/-- The tags and exponents in use. -/
def TagOk (tag n m : Nat) : Prop := tag = 2 ∨ tag = 3 ∨ (tag = 4 ∧ n = 1 ∧ m = 3)

theorem rootFn_mul {tag n m : Nat} (hn : n ≠ 0) (hm : m ≠ 0) {y : ℝ} (hy : 0 ≤ y) (z : ℝ) :
    rootFn tag n m (y * z) = rootFn tag n m y * rootFn tag n m z := by
  have hq : ((n : ℝ) / m) ≠ 0 := div_ne_zero (by exact_mod_cast hn) (by exact_mod_cast hm)
  unfold rootFn
  split_ifs
  · exact rpow_mul_of_nonneg hy z (neg_ne_zero.mpr hq)
  · exact rpow_mul_of_nonneg hy z hq
  · exact cbrtR_mul hy z

theorem rootFn_one {tag n m : Nat} : rootFn tag n m 1 = 1 := by
  unfold rootFn cbrtR
  split_ifs <;> simp_all

theorem rootFn_eq {tag n m : Nat} (ht : TagOk tag n m) (hm : m ≠ 0) {y y' : ℝ} (hy : 0 ≤ y) (hy' : 0 ≤ y') (h : y' ^ m = y ^ n) :
    rootFn tag n m y = if tag = 3 then y'⁻¹ else y' := by
  have h1 := rpow_of_pow_eq hy hy' hm h
  unfold rootFn
  split_ifs with h3 h2
  · rw [Real.rpow_neg hy, h1]
  · exact h1
  · rcases ht with rfl | rfl | ⟨rfl, rfl, rfl⟩
    · exact absurd rfl h2
    · exact absurd rfl h3
    · rw [cbrtR_of_nonneg hy, ← h1]; norm_num

theorem rootFn_atom {tag n m : Nat} (ht : TagOk tag n m) (vc : Nat → ℝ) (b p q : Poly) :
    atomVal K vc tag n m b p q = rootFn tag n m (den K.vp vc p) := by
  rcases ht with rfl | rfl | ⟨rfl, rfl, rfl⟩
  · simp [atomVal, rootFn]
  · simp [atomVal, rootFn]
  · simp [atomVal, rootFn]

/-! ## Rational powers -/

theorem divC_spec {c : Nat} {x : Poly} {k : Poly → Bool} (h : divC c false x k = true) :
    ∃ r, k r = true ∧ ∀ vp vc, den vp vc x = H vc c * den vp vc r := by
  induction x generalizing k with
  | nil => exact ⟨.nil, h, fun _ _ => by simp⟩
  | cons a b c' p m d tl ih =>
    change (kif Nat.beq (Nat.mul (Nat.div c' c) c) c' then divC c false tl (fun r => k (.cons a b (Nat.div c' c) p m d r)) else false) = true at h
    rw [kif_beq] at h
    split_ifs at h with h1
    obtain ⟨r, h, hr⟩ := ih h
    refine ⟨_, h, fun vp vc => ?_⟩
    have h2 : H vc c' = H vc (Nat.div c' c) * H vc c := by
      conv_lhs => rw [← h1]
      exact H_mul vc _ _
    rw [den_cons, den_cons, hr, tm, tm, h2]
    ring

theorem nnOnly_spec {c : Nat} (h : nnOnly c = true) {vc : Nat → ℝ} (hn : NnOk vc) : 0 ≤ H vc c := by
  unfold nnOnly at h
  rw [kif_beq] at h
  split_ifs at h with h1
  · rw [h1, H_one]; exact zero_le_one
  · rw [beq_t] at h
    have hd : c ∣ 9699690 ^ (Nat.log2 c).succ := Nat.dvd_of_mod_eq_zero h
    refine H_nonneg fun p hp hpc => hn.nn p ?_
    have h2 : p ∣ 9699690 := hp.dvd_of_dvd_pow (hpc.trans hd)
    have e : 9699690 = 2 * 3 * 5 * 7 * 11 * 13 * 17 * 19 := by norm_num
    rw [e] at h2
    simp only [Nat.Prime.dvd_mul hp] at h2
    have q : ∀ r : Nat, r.Prime → p ∣ r → p = r := fun r hr h => (Nat.prime_dvd_prime_iff_eq hp hr).mp h
    rcases h2 with ((((((h2 | h2) | h2) | h2) | h2) | h2) | h2) | h2
    · rw [q 2 (by norm_num) h2]; simp [nnPrimes]
    · rw [q 3 (by norm_num) h2]; simp [nnPrimes]
    · rw [q 5 (by norm_num) h2]; simp [nnPrimes]
    · rw [q 7 (by norm_num) h2]; simp [nnPrimes]
    · rw [q 11 (by norm_num) h2]; simp [nnPrimes]
    · rw [q 13 (by norm_num) h2]; simp [nnPrimes]
    · rw [q 17 (by norm_num) h2]; simp [nnPrimes]
    · rw [q 19 (by norm_num) h2]; simp [nnPrimes]

theorem rootOk_spec {n m x y : Nat} (h : rootOk n m x y = true) : x ≠ 0 ∧ y ≠ 0 ∧ y ^ m = x ^ n := by
  unfold rootOk at h
  rw [kif_beq, kif_beq, kif_ble, kif_ble] at h
  split_ifs at h with h1 h2 h3 h4
  · subst h1; subst h2; simp
  · exact ⟨by omega, by omega, beq_t.mp h⟩

/-- Continuations of the untrusted search are called with something. -/
theorem rootLoop_some {β : Type} (gm gn f : Nat) (k : Nat → Nat → Nat → β) (a x y : Nat) : ∃ a' x' y', rootLoop gm gn f k a x y = k a' x' y' := by
  induction f generalizing a x y with
  | zero => exact ⟨a, x, y, rfl⟩
  | succ f ih =>
    change ∃ a' x' y', (kif Nat.beq (Nat.mod a gm) 0 then rootLoop gm gn f k (Nat.div a gm) (Nat.mul x gm) (Nat.mul y gn) else k a x y) = k a' x' y'
    rw [kif_beq]
    split_ifs
    · exact ih _ _ _
    · exact ⟨a, x, y, rfl⟩

theorem rootPrime_some {β : Type} (n m g : Nat) (k : Nat → Nat → Nat → β) (a x y : Nat) : ∃ a' x' y', rootPrime n m g k a x y = k a' x' y' := by
  unfold rootPrime
  rw [kif_beq]
  split_ifs
  · obtain ⟨a', x', y', h⟩ := rootLoop_some (g.pow (Nat.mul 4 m)) (g.pow (Nat.mul 4 n)) 40 (fun a x y => rootLoop (Nat.pow g m) (Nat.pow g n) 40 k a x y) a x y
    rw [h]
    exact rootLoop_some _ _ _ _ _ _ _
  · exact ⟨a, x, y, rfl⟩

theorem rootGo_some {β : Type} (n m : Nat) (gs : List Nat) (k : Nat → Nat → β) (a x y : Nat) : ∃ x' y', rootGo n m gs k a x y = k x' y' := by
  induction gs generalizing a x y with
  | nil => exact ⟨x, y, rfl⟩
  | cons g gs ih =>
    change ∃ x' y', (kif Nat.beq a 1 then k x y else rootPrime n m g (rootGo n m gs k) a x y) = k x' y'
    rw [kif_beq]
    split_ifs
    · exact ⟨x, y, rfl⟩
    · obtain ⟨a', x', y', h⟩ := rootPrime_some n m g (rootGo n m gs k) a x y
      rw [h]
      exact ih _ _ _

theorem absorb_some {β : Type} (U n a : Nat) (k : Nat → β) : ∃ a', absorb U n a k = k a' := by
  have key : ∀ (p q f : Nat) (k' : Nat → Nat → β), (∀ n a, ∃ a', k' n a = k a') → ∀ n a, ∃ a', (kif Nat.beq n 1 then k a else divAll p q f k' n a) = k a' := by
    intro p q f k' hk' n a
    rw [kif_beq]
    split_ifs
    · exact ⟨a, rfl⟩
    · obtain ⟨c', o', e, _⟩ := divAll_spec p q f k' n a
      rw [e]
      exact hk' _ _
  exact key _ _ _ _ (key _ _ _ _ (key _ _ _ _ (key _ _ _ _ (key _ _ _ _ (key _ _ _ _ fun _ a => ⟨a, rfl⟩))))) n a

theorem rootPieces_some {β : Type} (U n m : Nat) (x : Poly) (k : TmK β) : ∃ a b c d e f, rootPieces U n m x k = k a b c d e f := by
  unfold rootPieces
  rw [kif_ble, kif_ble]
  split_ifs
  · exact ⟨_, _, _, _, _, _, rfl⟩
  · exact ⟨_, _, _, _, _, _, rfl⟩
  · cases x with
    | nil => exact ⟨_, _, _, _, _, _, rfl⟩
    | cons a b c p mm d tl =>
      dsimp only
      obtain ⟨a1, e⟩ := absorb_some U (Nat.add p mm) (gcdA tl a) (fun a1 =>
        absorb U d (lcmB tl b) fun b1 =>
        (fun g => rootGo n m posPrimes (fun x y =>
          rootGo n m posPrimes (fun u v =>
            (fun gc =>
              kif Nat.beq (Nat.gcd gc 9699690) 1 then k x y u v 1 1
              else rootGo n m nnPrimes (fun w z => k x y u v w z) gc 1 1) (gcdC tl c))
            (Nat.div b1 g) 1 1) (Nat.div a1 g) 1 1) (Nat.gcd a1 b1))
      dsimp only at e
      rw [e]
      obtain ⟨b1, e⟩ := absorb_some U d (lcmB tl b) (fun b1 =>
        (fun g => rootGo n m posPrimes (fun x y =>
          rootGo n m posPrimes (fun u v =>
            (fun gc =>
              kif Nat.beq (Nat.gcd gc 9699690) 1 then k x y u v 1 1
              else rootGo n m nnPrimes (fun w z => k x y u v w z) gc 1 1) (gcdC tl c))
            (Nat.div b1 g) 1 1) (Nat.div a1 g) 1 1) (Nat.gcd a1 b1))
      dsimp only at e
      rw [e]
      obtain ⟨x, y, e⟩ := rootGo_some n m posPrimes (fun x y =>
          rootGo n m posPrimes (fun u v =>
            (fun gc =>
              kif Nat.beq (Nat.gcd gc 9699690) 1 then k x y u v 1 1
              else rootGo n m nnPrimes (fun w z => k x y u v w z) gc 1 1) (gcdC tl c))
            (Nat.div b1 (Nat.gcd a1 b1)) 1 1) (Nat.div a1 (Nat.gcd a1 b1)) 1 1
      dsimp only at e
      rw [e]
      obtain ⟨u, v, e⟩ := rootGo_some n m posPrimes (fun u v =>
            (fun gc =>
              kif Nat.beq (Nat.gcd gc 9699690) 1 then k x y u v 1 1
              else rootGo n m nnPrimes (fun w z => k x y u v w z) gc 1 1) (gcdC tl c))
            (Nat.div b1 (Nat.gcd a1 b1)) 1 1
      dsimp only at e
      rw [e, kif_beq]
      split_ifs
      · exact ⟨_, _, _, _, _, _, rfl⟩
      · obtain ⟨w, z, e⟩ := rootGo_some n m nnPrimes (fun w z => k x y u v w z) (gcdC tl c) 1 1
        exact ⟨_, _, _, _, _, _, e⟩

theorem powRest_spec (hp : PosOk U K.vp) {tag n m : Nat} (ht : TagOk tag n m) {x : Poly} {a b c : Nat} {s : St} {k : Poly → St → Bool} (hw : s.WF)
    (h : powRest U tag n m x a b c s k = true) :
    Post K s k fun vc => H K.vp a / H K.vp b * H vc c * rootFn tag n m (den K.vp vc x) := by
  unfold powRest at h
  obtain ⟨a', b', p', m', d', e, v⟩ := redT_spec hp 40 a b c 1 0 1 (fun a b c p mm d =>
    kif isOne x then k (.cons a b c p mm d .nil) s
    else mkAtom tag n m .nil x .nil s fun pr _ s => k (.cons a b (Nat.mul c pr) p mm d .nil) s)
  rw [e, kif_eq] at h
  have v' : tv K.vp a' b' p' m' d' = H K.vp a / H K.vp b := by rw [v]; unfold tv; simp
  split_ifs at h with h1
  · refine Post.pure hw h fun vc _ => ?_
    rw [isOne_eq h1, one_den, rootFn_one]
    simp only [den_cons, den_nil, tm_eq_tv, v']
    ring
  · obtain ⟨pr, qr, s', hst, hm, hk⟩ := mkAtom_spec hw h
    refine ⟨_, s', hst, fun vc ho => ?_, hk⟩
    have ha := (ho.atoms _ hm).1
    simp only [Ent.val] at ha
    rw [rootFn_atom ht] at ha
    have hmul : H vc (Nat.mul c pr) = H vc c * H vc pr := H_mul vc c pr
    simp only [den_cons, den_nil, tm_eq_tv, v', hmul, ha]
    ring

theorem ratPow_spec {C : Cfg} (hp : PosOk C.U K.vp) {tag : Nat} {x : Poly} {n m : Nat} (ht : TagOk tag n m) {s : St} {k : Poly → St → Bool} (hw : s.WF)
    (h : ratPow C tag x n m s k = true) : n ≠ 0 ∧ m ≠ 0 ∧ Post K s k fun vc => rootFn tag n m (den K.vp vc x) := by
  unfold ratPow at h
  rw [kif_ble] at h
  split_ifs at h with h0
  have hn : n ≠ 0 := by rintro rfl; simp at h0
  have hm : m ≠ 0 := by rintro rfl; simp at h0
  refine ⟨hn, hm, ?_⟩
  obtain ⟨xa, xa', xb, xb', w, w', e⟩ := rootPieces_some C.U n m x fun xa xa' xb xb' w w' =>
      kif rootOk n m xa xa' then
        kif rootOk n m xb xb' then
          kif rootOk n m w w' then
            kif nnOnly w then
              kif nnOnly w' then
                divC w false x fun p1 =>
                  (fun p2 =>
                    kif Nat.beq tag 3 then invC w' s fun c => powRest C.U tag n m p2 xb' xa' c s k
                    else powRest C.U tag n m p2 xa' xb' w' s k)
                  (mulTP C.U xb xa 1 1 0 1 p1)
              else false
            else false
          else false
        else false
      else false
  rw [e, kif_eq, kif_eq, kif_eq, kif_eq, kif_eq] at h
  split_ifs at h with h1 h2 h3 h4 h5
  obtain ⟨p1, h, hp1⟩ := divC_spec h
  dsimp only at h
  rw [kif_beq] at h
  obtain ⟨xa0, xa0', exa⟩ := rootOk_spec h1
  obtain ⟨xb0, xb0', exb⟩ := rootOk_spec h2
  obtain ⟨w0, w0', ew⟩ := rootOk_spec h3
  have pA := H_pos hp.pos xa0
  have pA' := H_pos hp.pos xa0'
  have pB := H_pos hp.pos xb0
  have pB' := H_pos hp.pos xb0'
  have key : ∀ vc, NnOk vc → rootFn tag n m (den K.vp vc x) =
      (if tag = 3 then (H K.vp xa' / H K.vp xb' * H vc w')⁻¹ else H K.vp xa' / H K.vp xb' * H vc w') *
        rootFn tag n m (den K.vp vc (mulTP C.U xb xa 1 1 0 1 p1)) := by
    intro vc hnn
    have pW := nnOnly_spec h4 hnn
    have pW' := nnOnly_spec h5 hnn
    have hx : den K.vp vc x = (H K.vp xa / H K.vp xb * H vc w) * den K.vp vc (mulTP C.U xb xa 1 1 0 1 p1) := by
      rw [mulTP_den hp, hp1]
      unfold tm
      simp only [H_one, Nat.cast_one, Nat.cast_zero]
      field_simp
      ring
    rw [hx, rootFn_mul hn hm (by positivity), rootFn_eq ht hm (y' := H K.vp xa' / H K.vp xb' * H vc w') (by positivity) (by positivity)]
    rw [mul_pow, mul_pow, div_pow, div_pow]
    simp only [← H_pow, exa, exb, ew]
  split_ifs at h with h6
  · obtain ⟨c, h, hc⟩ := invC_spec (K := K) h
    refine Post.mono (Step.refl hw) (powRest_spec hp ht hw h) fun vc ho => ?_
    rw [key vc ho.nn, if_pos h6, hc vc ho, mul_inv, inv_div]
  · refine Post.mono (Step.refl hw) (powRest_spec hp ht hw h) fun vc ho => ?_
    rw [key vc ho.nn, if_neg h6]

theorem powP_spec {C : Cfg} (hp : PosOk C.U K.vp) {x y : Poly} {s : St} {k : Poly → St → Bool} (hw : s.WF)
    (h : powP C x y s k = true) : Post K s k fun vc => den K.vp vc x ^ den K.vp vc y := by
  have hgen : (kif isOne x then k one s else mkAtom 5 0 0 .nil x y s fun pr _ s => k (ofC pr) s) = true →
      Post K s k fun vc => den K.vp vc x ^ den K.vp vc y := by
    intro h
    rw [kif_eq] at h
    split_ifs at h with h1
    · exact Post.pure hw h fun vc _ => by simp [isOne_eq h1]
    · exact Post.mono (Step.refl hw) (atomPost hw h) fun vc _ => rfl
  cases y with
  | nil => exact Post.pure hw h fun vc _ => by simp
  | cons a b c p m d tl =>
    cases tl with
    | cons a' b' c' p' m' d' tl' => exact hgen h
    | nil =>
      change (kif Nat.beq (Nat.mul a (Nat.mul b c)) 1 then
        kif Nat.beq d 1 then
          kif Nat.beq m 0 then
            kif Nat.ble p 200 then natPow C x p s k else false
          else kif Nat.beq p 0 then
            kif Nat.ble m 200 then natPow C x m s fun r s => invP C.U r s k else false
          else false
        else kif Nat.beq m 0 then ratPow C 2 x p d s k
        else kif Nat.beq p 0 then ratPow C 3 x m d s k
        else false
      else (kif isOne x then k one s else mkAtom 5 0 0 .nil x (.cons a b c p m d .nil) s fun pr _ s => k (ofC pr) s)) = true at h
      rw [kif_beq] at h
      split_ifs at h with h1
      · have ha : a = 1 := Nat.eq_one_of_mul_eq_one_right h1
        have hbc : b * c = 1 := Nat.eq_one_of_mul_eq_one_left h1
        have hb : b = 1 := Nat.eq_one_of_mul_eq_one_right hbc
        have hc : c = 1 := Nat.eq_one_of_mul_eq_one_left hbc
        subst ha hb hc
        have hy : ∀ vc, den K.vp vc (.cons 1 1 1 p m d .nil) = ((p : ℝ) - m) / d := fun vc => by simp [tm]
        simp only [hy]
        simp only [kif_beq, kif_ble] at h
        split_ifs at h with h2 h3 h4 h5 h6 h7 h8
        · subst h2 h3
          exact Post.mono (Step.refl hw) (natPow_spec hp hw h) fun vc _ => by simp
        · subst h2 h5
          obtain ⟨r, s1, hs1, hr, h⟩ := natPow_spec (K := K) hp hw h
          obtain ⟨r2, s2, hs2, hr2, h⟩ := invP_spec (K := K) hp hs1.wf h
          refine ⟨r2, s2, hs1.trans hs2, fun vc ho => ?_, h⟩
          rw [hr2 vc ho]
          beta_reduce
          rw [hr vc (hs2.ok ho)]
          have : (((0 : ℕ) : ℝ) - m) / ((1 : ℕ) : ℝ) = ((-(m : ℤ) : ℤ) : ℝ) := by push_cast; ring
          rw [this, Real.rpow_intCast, zpow_neg, zpow_natCast]
        · subst h7
          obtain ⟨_, _, hP⟩ := ratPow_spec (K := K) hp (Or.inl rfl) hw h
          exact Post.mono (Step.refl hw) hP fun vc _ => by simp [rootFn]
        · subst h8
          obtain ⟨_, _, hP⟩ := ratPow_spec (K := K) hp (Or.inr (Or.inl rfl)) hw h
          refine Post.mono (Step.refl hw) hP fun vc _ => ?_
          simp only [rootFn, if_true, Nat.cast_zero, zero_sub, neg_div]
      · exact hgen h

end

end

end Verif.Norm


/-!
# Soundness of the normaliser: comparisons, functions, programs
-/
namespace Verif.Norm
open Verif.Py

noncomputable section

section
variable {U : Nat} {K : Ctx}

/-! ## Comparisons -/

/-- Outcome of an operation that produces a truth value. -/
def BPost (K : Ctx) (s : St) (k : Poly → Bool → St → Bool) (f : (Nat → ℝ) → Prop) : Prop :=
  ∃ t b s', Step s s' ∧ (∀ vc, Ok K vc s' → (tr K.vp vc t b ↔ f vc)) ∧ k t b s' = true

theorem BPost.pure {s : St} {k : Poly → Bool → St → Bool} {f : (Nat → ℝ) → Prop} {t : Poly} {b : Bool} (hw : s.WF) (h : k t b s = true)
    (hf : ∀ vc, Ok K vc s → (tr K.vp vc t b ↔ f vc)) : BPost K s k f := ⟨t, b, s, Step.refl hw, hf, h⟩

theorem tr_one_true (vc) : ¬ tr K.vp vc one true := by simp [tr]
theorem tr_one_false (vc) : tr K.vp vc one false := by simp [tr]

theorem allNN_spec (hp : PosOk U K.vp) {x : Poly} (h : allNN x = true) {vc : Nat → ℝ} (hn : NnOk vc) : 0 ≤ den K.vp vc x := by
  induction x with
  | nil => exact le_rfl
  | cons a b c p m d tl ih =>
    change (kif Nat.beq m 0 then kif nnOnly c then allNN tl else false else false) = true at h
    rw [kif_beq, kif_eq] at h
    split_ifs at h with h1 h2
    subst h1
    have hc := nnOnly_spec h2 hn
    have ha : 0 ≤ H K.vp a := H_nonneg fun p _ _ => (hp.pos p).le
    have hb : 0 ≤ H K.vp b := H_nonneg fun p _ _ => (hp.pos p).le
    have := ih h
    rw [den_cons, tm]
    simp only [Nat.cast_zero, sub_zero]
    positivity

theorem somePos_spec (hp : PosOk U K.vp) {x : Poly} (h0 : allNN x = true) (h : somePos x = true) {vc : Nat → ℝ} (hn : NnOk vc) : 0 < den K.vp vc x := by
  induction x with
  | nil => exact absurd h (by simp [somePos])
  | cons a b c p m d tl ih =>
    change (kif Nat.beq m 0 then kif nnOnly c then allNN tl else false else false) = true at h0
    rw [kif_beq, kif_eq] at h0
    split_ifs at h0 with h1 h2
    subst h1
    have hc := nnOnly_spec h2 hn
    have ha : 0 ≤ H K.vp a := H_nonneg fun p _ _ => (hp.pos p).le
    have hb : 0 ≤ H K.vp b := H_nonneg fun p _ _ => (hp.pos p).le
    have htl := allNN_spec hp h0 hn
    change (kif Nat.beq c 1 then
      kif Nat.beq 0 0 then
        kif Nat.ble 1 (Nat.mul (Nat.mul a b) (Nat.mul p d)) then true else somePos tl
      else somePos tl
    else somePos tl) = true at h
    rw [kif_beq, kif_beq, kif_ble] at h
    have hnn : 0 ≤ tm K.vp vc a b c p 0 d := by
      rw [tm]; simp only [Nat.cast_zero, sub_zero]; positivity
    rw [den_cons]
    split_ifs at h with h3 h4 h5
    · have := tv_pos hp h5
      rw [tm_eq_tv, h3, H_one, mul_one]
      linarith
    all_goals (have := ih h0 h; linarith)

theorem kand {a b : Bool} : (@Bool.rec (fun _ => Bool) false b a) = true ↔ a = true ∧ b = true := by
  cases a <;> cases b <;> simp

theorem tr_ofC (vc : Nat → ℝ) (pr : Nat) : tr K.vp vc (ofC pr) false ↔ H vc pr ≠ 0 := by simp [tr]

theorem findFact_spec {tag : Nat} {x : Poly} {fs : Facts} {k : Bool → Bool} {z : Bool} (h : findFact tag x fs k z = true) :
    (∃ v, k v = true ∧ ∀ vp vc, FactsOk vp vc fs → (v = true ↔ if tag = 0 then 0 ≤ den vp vc x else den vp vc x = 0)) ∨ z = true := by
  induction fs with
  | nil => exact Or.inr h
  | cons tag' p v tl ih =>
    have lift : findFact tag x tl k z = true → (∃ v', k v' = true ∧ ∀ vp vc, FactsOk vp vc (.cons tag' p v tl) →
        (v' = true ↔ if tag = 0 then 0 ≤ den vp vc x else den vp vc x = 0)) ∨ z = true := by
      intro h
      rcases ih h with ⟨v', h1, h2⟩ | h1
      · exact Or.inl ⟨v', h1, fun vp vc hf => h2 vp vc hf.2⟩
      · exact Or.inr h1
    change (kif Nat.beq tag tag' then kif polyBeq x p then k v else findFact tag x tl k z else findFact tag x tl k z) = true at h
    rw [kif_beq, kif_eq] at h
    split_ifs at h with h1 h2
    · have := polyBeq_eq h2
      subst this h1
      exact Or.inl ⟨v, h, fun vp vc hf => hf.1⟩
    · exact lift h
    · exact lift h

theorem mkNN_spec {C : Cfg} (hp : PosOk C.U K.vp) (hC : C.facts = K.facts) {x : Poly} {s : St} {k : Poly → Bool → St → Bool} (hw : s.WF)
    (h : mkNN C x s k = true) : BPost K s k fun vc => 0 ≤ den K.vp vc x := by
  unfold mkNN at h
  rw [kif_eq] at h
  split_ifs at h with h1
  · exact BPost.pure hw h fun vc ho => iff_of_true (tr_one_false vc) (allNN_spec hp h1 ho.nn)
  · dsimp only at h
    rw [kif_eq] at h
    split_ifs at h with h2
    · obtain ⟨h2, h3⟩ := kand.mp h2
      refine BPost.pure hw h fun vc ho => iff_of_false (tr_one_true vc) ?_
      have := somePos_spec hp h2 h3 ho.nn
      rw [negP_den] at this
      linarith
    all_goals
      obtain ⟨a, b, n, d, rest, sg, hpos, hx, h⟩ := splitPos_spec (K := K) hp h
      have hxr : ∀ vc, 0 ≤ den K.vp vc x ↔ 0 ≤ den K.vp vc rest := fun vc => by
        rw [hx vc]; exact mul_nonneg_iff_of_pos_left hpos
      rcases findFact_spec h with ⟨v, h, hv⟩ | h
      · rw [kif_eq] at h
        split_ifs at h with h4
        · refine BPost.pure hw h fun vc ho => iff_of_true (tr_one_false vc) ?_
          have := hv _ _ (hC ▸ ho.facts)
          rw [hxr]; simpa [h4] using this
        · refine BPost.pure hw h fun vc ho => iff_of_false (tr_one_true vc) ?_
          have := hv _ _ (hC ▸ ho.facts)
          rw [hxr]; simpa [h4] using this
      · obtain ⟨pr, qr, s', hst, hm, hk⟩ := mkAtom_spec hw h
        refine ⟨_, _, s', hst, fun vc ho => ?_, hk⟩
        have ha := (ho.atoms _ hm).1
        simp only [Ent.val, atomVal] at ha
        simp only [tr, ofC_den, ha, hxr]
        simp

theorem mkIsz_spec {C : Cfg} (hp : PosOk C.U K.vp) (hC : C.facts = K.facts) {x : Poly} {s : St} {k : Poly → Bool → St → Bool} (hw : s.WF)
    (h : mkIsz C x s k = true) : BPost K s k fun vc => den K.vp vc x = 0 := by
  unfold mkIsz at h
  rw [kif_eq] at h
  split_ifs at h with h1
  · exact BPost.pure hw h fun vc ho => iff_of_true (tr_one_false vc) (by rw [isNil_eq h1]; rfl)
  · obtain ⟨a, b, n, d, rest, sg, hpos, hx, h⟩ := splitPos_spec (K := K) hp h
    dsimp only at h
    set rest' : Poly := (kif sg then negP rest else rest) with hr'
    have hxr : ∀ vc, den K.vp vc x = 0 ↔ den K.vp vc rest' = 0 := fun vc => by
      rw [hx vc, hr', mul_eq_zero, or_iff_right hpos.ne']
      cases sg
      · rfl
      · change _ ↔ den K.vp vc (negP rest) = 0
        rw [negP_den, neg_eq_zero]
    rw [kif_eq] at h
    split_ifs at h with h2
    · obtain ⟨h2, h3⟩ := kand.mp h2
      exact BPost.pure hw h fun vc ho => iff_of_false (tr_one_true vc) (by rw [hxr]; exact (somePos_spec hp h2 h3 ho.nn).ne')
    all_goals
      rcases findFact_spec h with ⟨v, h, hv⟩ | h
      · rw [kif_eq] at h
        split_ifs at h with h4
        · refine BPost.pure hw h fun vc ho => iff_of_true (tr_one_false vc) ?_
          have := hv _ _ (hC ▸ ho.facts)
          rw [hxr]; simpa [h4] using this
        · refine BPost.pure hw h fun vc ho => iff_of_false (tr_one_true vc) ?_
          have := hv _ _ (hC ▸ ho.facts)
          rw [hxr]; simpa [h4] using this
      · obtain ⟨pr, qr, s', hst, hm, hk⟩ := mkAtom_spec hw h
        refine ⟨_, _, s', hst, fun vc ho => ?_, hk⟩
        have ha := (ho.atoms _ hm).1
        simp only [Ent.val, atomVal] at ha
        simp only [tr, ofC_den, ha, hxr]
        simp

theorem tr_notB (vc : Nat → ℝ) (t : Poly) (b : Bool) : tr K.vp vc t (notB b) ↔ ¬ tr K.vp vc t b := by
  cases b <;> simp [tr, notB]

theorem flags_spec (a b : Bool) : Nat.ble 2 (flags a b) = a ∧ Nat.beq (flags a b % 2) 1 = b := by
  cases a <;> cases b <;> exact ⟨rfl, rfl⟩

theorem mkOr0_spec {p q : Poly} {a b : Bool} {s : St} {k : Poly → Bool → St → Bool} (hw : s.WF) (h : mkOr0 p a q b s k = true) :
    BPost K s k fun vc => tr K.vp vc p a ∨ tr K.vp vc q b := by
  unfold mkOr0 at h
  simp only [kif_eq] at h
  split_ifs at h with h1 h2 h3 h4
  · exact BPost.pure hw h fun vc _ => by rw [isOne_eq h1, h2, or_iff_right (tr_one_true vc)]
  · exact BPost.pure hw h fun vc _ => by
      rw [isOne_eq h1, Bool.eq_false_iff.mpr h2]; exact iff_of_true (tr_one_false vc) (Or.inl (tr_one_false vc))
  · exact BPost.pure hw h fun vc _ => by rw [isOne_eq h3, h4, or_iff_left (tr_one_true vc)]
  · exact BPost.pure hw h fun vc _ => by
      rw [isOne_eq h3, Bool.eq_false_iff.mpr h4]; exact iff_of_true (tr_one_false vc) (Or.inr (tr_one_false vc))
  · obtain ⟨pr, qr, s', hst, hm, hk⟩ := mkAtom_spec hw h
    refine ⟨_, _, s', hst, fun vc ho => ?_, hk⟩
    classical
    have ha := (ho.atoms _ hm).1
    have e : atomVal K vc 11 (flags a b) 0 .nil p q = if tr K.vp vc p a ∨ tr K.vp vc q b then 1 else 0 := by
      simp only [atomVal]
      rw [(flags_spec a b).1, (flags_spec a b).2]
    rw [tr_ofC, ha, Ent.val, e]
    split_ifs with h5 <;> simp [h5]

theorem mkAnd0_spec {p q : Poly} {a b : Bool} {s : St} {k : Poly → Bool → St → Bool} (hw : s.WF) (h : mkAnd0 p a q b s k = true) :
    BPost K s k fun vc => tr K.vp vc p a ∧ tr K.vp vc q b := by
  unfold mkAnd0 at h
  simp only [kif_eq] at h
  split_ifs at h with h1 h2 h3 h4
  · exact BPost.pure hw h fun vc _ => by
      rw [isOne_eq h1, h2]; exact iff_of_false (tr_one_true vc) fun h => tr_one_true vc h.1
  · exact BPost.pure hw h fun vc _ => by rw [isOne_eq h1, Bool.eq_false_iff.mpr h2, and_iff_right (tr_one_false vc)]
  · exact BPost.pure hw h fun vc _ => by
      rw [isOne_eq h3, h4]; exact iff_of_false (tr_one_true vc) fun h => tr_one_true vc h.2
  · exact BPost.pure hw h fun vc _ => by rw [isOne_eq h3, Bool.eq_false_iff.mpr h4, and_iff_left (tr_one_false vc)]
  · obtain ⟨pr, qr, s', hst, hm, hk⟩ := mkAtom_spec hw h
    refine ⟨_, _, s', hst, fun vc ho => ?_, hk⟩
    classical
    have ha := (ho.atoms _ hm).1
    have e : atomVal K vc 12 (flags a b) 0 .nil p q = if tr K.vp vc p a ∧ tr K.vp vc q b then 1 else 0 := by
      simp only [atomVal]
      rw [(flags_spec a b).1, (flags_spec a b).2]
    rw [tr_ofC, ha, Ent.val, e]
    split_ifs with h5 <;> simp [h5]

theorem mkOr_spec {p q : Poly} {a b : Bool} {s : St} {k : Poly → Bool → St → Bool} (hw : s.WF) (h : mkOr p a q b s k = true) :
    BPost K s k fun vc => tr K.vp vc p a ∨ tr K.vp vc q b := by
  unfold mkOr at h
  simp only [kif_eq] at h
  split_ifs at h with h1
  · exact mkOr0_spec hw h
  · obtain ⟨t, c, s', hs, hv, hk⟩ := mkOr0_spec (K := K) hw h
    exact ⟨t, c, s', hs, fun vc ho => (hv vc ho).trans or_comm, hk⟩

theorem mkAnd_spec {p q : Poly} {a b : Bool} {s : St} {k : Poly → Bool → St → Bool} (hw : s.WF) (h : mkAnd p a q b s k = true) :
    BPost K s k fun vc => tr K.vp vc p a ∧ tr K.vp vc q b := by
  unfold mkAnd at h
  simp only [kif_eq] at h
  split_ifs at h with h1
  · exact mkAnd0_spec hw h
  · obtain ⟨t, c, s', hs, hv, hk⟩ := mkAnd0_spec (K := K) hw h
    exact ⟨t, c, s', hs, fun vc ho => (hv vc ho).trans and_comm, hk⟩

open Classical in
theorem mkCond_spec {t : Poly} {a : Bool} {p q : Poly} {s : St} {k : Poly → St → Bool} (hw : s.WF) (h : mkCond t a p q s k = true) :
    Post K s k fun vc => if tr K.vp vc t a then den K.vp vc p else den K.vp vc q := by
  unfold mkCond at h
  simp only [kif_eq] at h
  split_ifs at h with h1 h2 h3 h4
  · exact Post.pure hw h fun vc _ => by rw [isOne_eq h1, h2, if_neg (tr_one_true vc)]
  · exact Post.pure hw h fun vc _ => by rw [isOne_eq h1, Bool.eq_false_iff.mpr h2, if_pos (tr_one_false vc)]
  · exact Post.pure hw h fun vc _ => by rw [polyBeq_eq h3, ite_self]
  · refine Post.mono (Step.refl hw) (atomPost hw h) fun vc _ => ?_
    subst h4
    simp only [atomVal, tr, if_true]
    by_cases h0 : den K.vp vc t = 0 <;> simp [h0]
  · refine Post.mono (Step.refl hw) (atomPost hw h) fun vc _ => ?_
    rw [Bool.eq_false_iff.mpr h4]
    simp only [atomVal, tr]
    by_cases h0 : den K.vp vc t = 0 <;> simp [h0]

/-! ## Functions -/

theorem mkAbs_spec {C : Cfg} (hp : PosOk C.U K.vp) {x : Poly} {s : St} {k : Poly → St → Bool} (hw : s.WF) (h : mkAbs C x s k = true) :
    Post K s k fun vc => |den K.vp vc x| := by
  unfold mkAbs at h
  rw [kif_eq] at h
  split_ifs at h with h1
  · exact Post.pure hw h fun vc ho => (abs_of_nonneg (allNN_spec hp h1 ho.nn)).symm
  · obtain ⟨a, b, n, d, rest, sg, hpos, hx, h⟩ := splitPos_spec (K := K) hp h
    dsimp only at h
    set rest' : Poly := (kif sg then negP rest else rest) with hr'
    have hxr : ∀ vc, |den K.vp vc x| = tv K.vp a b n 0 d * |den K.vp vc rest'| := fun vc => by
      rw [hx vc, hr', abs_mul, abs_of_pos hpos]
      cases sg
      · rfl
      · change _ = tv K.vp a b n 0 d * |den K.vp vc (negP rest)|
        rw [negP_den, abs_neg]
    rw [kif_eq] at h
    split_ifs at h with h2
    · refine Post.pure hw h fun vc ho => ?_
      rw [mulTP_den hp, tm_eq_tv, H_one, mul_one, hxr, abs_of_nonneg (allNN_spec hp h2 ho.nn)]
    · obtain ⟨pr, qr, s', hst, hm, hk⟩ := mkAtom_spec hw h
      refine ⟨_, s', hst, fun vc ho => ?_, hk⟩
      have ha := (ho.atoms _ hm).1
      simp only [Ent.val, atomVal, fnByCode, fn1Val] at ha
      rw [mulTP_den hp, tm_eq_tv, H_one, mul_one, ofC_den, ha]; exact (hxr vc).symm

theorem mkFn1_spec {C : Cfg} (hp : PosOk C.U K.vp) {f : Fn1} {x : Poly} {s : St} {k : Poly → St → Bool} (hw : s.WF) (h : mkFn1 C f x s k = true) :
    Post K s k fun vc => fn1Val K.P f (den K.vp vc x) := by
  have hgen : (mkAtom 7 (fn1Code f) 0 .nil x .nil s fun pr _ s => k (ofC pr) s) = true → Post K s k fun vc => fn1Val K.P f (den K.vp vc x) :=
    fun h => Post.mono (Step.refl hw) (atomPost hw h) fun vc _ => by simp only [atomVal, fnByCode_eq]
  cases f with
  | cbrt =>
    change (kif isNil x then k .nil s else ratPow C 4 x 1 3 s k) = true at h
    rw [kif_eq] at h
    split_ifs at h with h2
    · exact Post.pure hw h fun vc _ => by rw [isNil_eq h2]; simp [fn1Val, cbrtR]
    · obtain ⟨_, _, hP⟩ := ratPow_spec (K := K) hp (Or.inr (Or.inr ⟨rfl, rfl, rfl⟩)) hw h
      exact Post.mono (Step.refl hw) hP fun vc _ => by simp [rootFn, fn1Val]
  | sqrt =>
    change (kif isNil x then k .nil s else ratPow C 2 x 1 2 s k) = true at h
    rw [kif_eq] at h
    split_ifs at h with h2
    · exact Post.pure hw h fun vc _ => by rw [isNil_eq h2]; simp [fn1Val]
    · obtain ⟨_, _, hP⟩ := ratPow_spec (K := K) hp (Or.inl rfl) hw h
      exact Post.mono (Step.refl hw) hP fun vc _ => by simp [rootFn, fn1Val, Real.sqrt_eq_rpow]
  | abs => exact mkAbs_spec hp hw h
  | exp =>
    change (kif isNil x then k one s else mkAtom 7 (fn1Code .exp) 0 .nil x .nil s fun pr _ s => k (ofC pr) s) = true at h
    rw [kif_eq] at h
    split_ifs at h with h2
    · exact Post.pure hw h fun vc _ => by rw [isNil_eq h2]; simp [fn1Val]
    · exact hgen h
  | log =>
    change (kif isOne x then k .nil s else mkAtom 7 (fn1Code .log) 0 .nil x .nil s fun pr _ s => k (ofC pr) s) = true at h
    rw [kif_eq] at h
    split_ifs at h with h2
    · exact Post.pure hw h fun vc _ => by rw [isOne_eq h2]; simp [fn1Val]
    · exact hgen h
  | _ => exact hgen h

/-! ## Programs -/

theorem litP_den (vp vc : Nat → ℝ) (n : Nat) (e : Int) : den vp vc (litP n e) = (n : ℝ) * (10 : ℝ) ^ e := by
  cases e with
  | ofNat e =>
    change den vp vc (ofQ (Nat.mul n (Nat.pow 10 e)) 0 1) = _
    rw [ofQ_den]
    have : ((Nat.mul n (Nat.pow 10 e) : Nat) : ℝ) = (n : ℝ) * 10 ^ e := by
      change ((n * 10 ^ e : Nat) : ℝ) = _
      push_cast; ring
    rw [this]
    simp
  | negSucc e =>
    change den vp vc (ofQ n 0 (Nat.pow 10 (Nat.succ e))) = _
    rw [ofQ_den, zpow_negSucc]
    have : ((Nat.pow 10 (Nat.succ e) : Nat) : ℝ) = 10 ^ (e + 1) := by
      change ((10 ^ (e + 1) : Nat) : ℝ) = _
      push_cast; ring
    rw [this]
    simp [div_eq_mul_inv]

/-- The normal form of a value. -/
def VRel (K : Ctx) (s : St) : V → Val → Prop
  | .num p, .num x => ∀ vc, Ok K vc s → x = den K.vp vc p
  | .bool t b, .bool φ => ∀ vc, Ok K vc s → (tr K.vp vc t b ↔ φ)
  | _, _ => False

theorem VRel.mono {s s' : St} (h : Step s s') {v : V} {w : Val} (hv : VRel K s v w) : VRel K s' v w := by
  cases v <;> cases w <;> first | exact hv | exact fun vc ho => hv vc (h.ok ho)

/-- Normal forms of the inputs. -/
structure SubOk (C : Cfg) (K : Ctx) (S : Sub) (E : Env) (s : St) : Prop where
  inp : ∀ i p, S.inp i = some p → ∃ x, E.inp i = .ok x ∧ ∀ vc, Ok K vc s → x = den K.vp vc p
  fld : ∀ f p, S.fld f = some p → ∀ vc, Ok K vc s → E.fld f = den K.vp vc p
  fldSym : ∀ f, S.fld f = none → K.sym 1 (fldCode f) = E.fld f
  param : ∀ c, K.sym 0 c = E.param c
  pi : H K.vp 11 ^ C.U = Real.pi
  post : ∀ p vc, den K.vp vc (S.post p) = den K.vp vc p

theorem SubOk.mono {C : Cfg} {S : Sub} {E : Env} {s s' : St} (h : Step s s') (hS : SubOk C K S E s) : SubOk C K S E s' :=
  ⟨fun i p hi => by
      obtain ⟨x, h1, h2⟩ := hS.inp i p hi
      exact ⟨x, h1, fun vc ho => h2 vc (h.ok ho)⟩,
   fun f p hf vc ho => hS.fld f p hf vc (h.ok ho), hS.fldSym, hS.param, hS.pi, hS.post⟩

/-- Normal forms of the temporaries. -/
def TOk (K : Ctx) (s : St) (T : Trie V) (T' : Nat → Option Val) : Prop :=
  ∀ n v, Trie.get 20 T n = some v → ∃ w, T' n = some w ∧ VRel K s v w

theorem TOk.mono {s s' : St} (h : Step s s') {T : Trie V} {T' : Nat → Option Val} (hT : TOk K s T T') : TOk K s' T T' := by
  intro n v hv
  obtain ⟨w, h1, h2⟩ := hT n v hv
  exact ⟨w, h1, h2.mono h⟩

/-- Outcome of evaluation. -/
def EPost (K : Ctx) (s : St) (k : V → St → Bool) (r : Except PyErr Val) : Prop :=
  ∃ v s', Step s s' ∧ (∃ w, r = .ok w ∧ VRel K s' v w) ∧ k v s' = true

theorem asNum_spec {v : V} {k : Poly → Bool} (h : asNum v k = true) : ∃ p, v = .num p ∧ k p = true := by
  cases v with
  | num p => exact ⟨p, rfl, h⟩
  | bool p b => exact absurd h (by simp [asNum])

theorem asBool_spec {v : V} {k : Poly → Bool → Bool} (h : asBool v k = true) : ∃ p b, v = .bool p b ∧ k p b = true := by
  cases v with
  | num p => exact absurd h (by simp [asBool])
  | bool p b => exact ⟨p, b, rfl, h⟩

theorem VRel.num {s : St} {p : Poly} {w : Val} (h : VRel K s (.num p) w) : ∃ x, w = .num x ∧ ∀ vc, Ok K vc s → x = den K.vp vc p := by
  cases w with
  | num x => exact ⟨x, rfl, h⟩
  | bool φ => exact absurd h (by simp [VRel])

theorem VRel.bool {s : St} {p : Poly} {b : Bool} {w : Val} (h : VRel K s (.bool p b) w) :
    ∃ φ, w = .bool φ ∧ ∀ vc, Ok K vc s → (tr K.vp vc p b ↔ φ) := by
  cases w with
  | num x => exact absurd h (by simp [VRel])
  | bool φ => exact ⟨φ, rfl, h⟩

theorem num_post {s : St} {k : V → St → Bool} {f : (Nat → ℝ) → ℝ} {x : ℝ} (h : Post K s (fun r s => k (.num r) s) f)
    (hx : ∀ vc, Ok K vc s → x = f vc) : EPost K s k (.ok (.num x)) := by
  obtain ⟨r, s', h1, h2, h3⟩ := h
  exact ⟨.num r, s', h1, ⟨_, rfl, fun vc ho => (hx vc (h1.ok ho)).trans (h2 vc ho).symm⟩, h3⟩

theorem bool_post {s : St} {k : V → St → Bool} {f : (Nat → ℝ) → Prop} {φ : Prop} (h : BPost K s (fun t b s => k (.bool t b) s) f)
    (hx : ∀ vc, Ok K vc s → (f vc ↔ φ)) : EPost K s k (.ok (.bool φ)) := by
  obtain ⟨t, b, s', h1, h2, h3⟩ := h
  exact ⟨.bool t b, s', h1, ⟨_, rfl, fun vc ho => (h2 vc ho).trans (hx vc (h1.ok ho))⟩, h3⟩

theorem EPost.mono {s s1 : St} (hst : Step s s1) {k : V → St → Bool} {r : Except PyErr Val} (h : EPost K s1 k r) : EPost K s k r := by
  obtain ⟨v, s', h1, h2, h3⟩ := h
  exact ⟨v, s', hst.trans h1, h2, h3⟩

/-- Evaluation of an operand that must be a number. -/
theorem num_arg {s : St} {k : Poly → St → Bool} {r : Except PyErr Val} (h : EPost K s (fun v s => asNum v fun p => k p s) r) :
    ∃ p s' x, Step s s' ∧ r = .ok (.num x) ∧ (∀ vc, Ok K vc s' → x = den K.vp vc p) ∧ k p s' = true := by
  obtain ⟨v, s', h1, ⟨w, hw, hv⟩, h3⟩ := h
  obtain ⟨p, rfl, h3⟩ := asNum_spec h3
  obtain ⟨x, rfl, hx⟩ := hv.num
  exact ⟨p, s', x, h1, hw, hx, h3⟩

theorem bool_arg {s : St} {k : Poly → Bool → St → Bool} {r : Except PyErr Val} (h : EPost K s (fun v s => asBool v fun p b => k p b s) r) :
    ∃ p b s' φ, Step s s' ∧ r = .ok (.bool φ) ∧ (∀ vc, Ok K vc s' → (tr K.vp vc p b ↔ φ)) ∧ k p b s' = true := by
  obtain ⟨v, s', h1, ⟨w, hw, hv⟩, h3⟩ := h
  obtain ⟨p, b, rfl, h3⟩ := asBool_spec h3
  obtain ⟨x, rfl, hx⟩ := hv.bool
  exact ⟨p, b, s', x, h1, hw, hx, h3⟩

variable {C : Cfg} {S : Sub} {E : Env} {T : Trie V} {T' : Nat → Option Val}

/-- What is proved of an expression. -/
def EvOk (C : Cfg) (K : Ctx) (S : Sub) (E : Env) (T : Trie V) (T' : Nat → Option Val) (e : Expr) : Prop :=
  ∀ (s : St) (k : V → St → Bool), SubOk C K S E s → TOk K s T T' → s.WF → ev C S T e s k = true → EPost K s k (eval K.P E T' e)

theorem ev2_spec {a b : Expr} (ha : EvOk C K S E T T' a) (hb : EvOk C K S E T T' b) {s : St} {k : Poly → Poly → St → Bool}
    (hS : SubOk C K S E s) (hT : TOk K s T T') (hw : s.WF) (h : ev2 (ev C S T a) (ev C S T b) s k = true) :
    ∃ p q s' x y, Step s s' ∧ eval K.P E T' a = .ok (.num x) ∧ eval K.P E T' b = .ok (.num y) ∧
      (∀ vc, Ok K vc s' → x = den K.vp vc p) ∧ (∀ vc, Ok K vc s' → y = den K.vp vc q) ∧ k p q s' = true := by
  obtain ⟨p, s1, x, hs1, ex, hx, h⟩ := num_arg (ha s _ hS hT hw h)
  obtain ⟨q, s2, y, hs2, ey, hy, h⟩ := num_arg (hb s1 _ (hS.mono hs1) (hT.mono hs1) hs1.wf h)
  exact ⟨p, q, s2, x, y, hs1.trans hs2, ex, ey, fun vc ho => hx vc (hs2.ok ho), hy, h⟩

theorem ok_bind {α β : Type} (x : α) (f : α → Except PyErr β) : ((Except.ok x : Except PyErr α) >>= f) = f x := rfl

theorem ev_spec (hp : PosOk C.U K.vp) (hC : C.facts = K.facts) (e : Expr) : EvOk C K S E T T' e := by
  induction e with
  | num m e =>
    intro s k hS hT hw h
    exact ⟨.num (litP m e), s, Step.refl hw, ⟨_, rfl, fun vc _ => (litP_den _ _ _ _).symm⟩, h⟩
  | pi =>
    intro s k hS hT hw h
    refine ⟨.num (.cons (Nat.pow 11 C.U) 1 1 1 0 1 .nil), s, Step.refl hw, ⟨.num Real.pi, rfl, fun vc _ => ?_⟩, h⟩
    rw [← hS.pi]
    simp [tm]
  | inp i =>
    intro s k hS hT hw h
    change (Option.rec false (fun p => k (.num p) s) (S.inp i) : Bool) = true at h
    cases hi : S.inp i with
    | none => rw [hi] at h; exact absurd h (by simp)
    | some p =>
      rw [hi] at h
      obtain ⟨x, h1, h2⟩ := hS.inp i p hi
      exact ⟨.num p, s, Step.refl hw, ⟨.num x, by simp [eval, h1, ok_bind], h2⟩, h⟩
  | fld f =>
    intro s k hS hT hw h
    change (Option.rec (mkAtom 0 1 (fldCode f) .nil .nil .nil s fun pr _ s => k (.num (ofC pr)) s) (fun p => k (.num p) s) (S.fld f) : Bool) = true at h
    cases hi : S.fld f with
    | none =>
      rw [hi] at h
      exact num_post (atomPost (k := fun r s => k (.num r) s) hw h) fun vc _ => (hS.fldSym f hi).symm
    | some p =>
      rw [hi] at h
      exact ⟨.num p, s, Step.refl hw, ⟨.num (E.fld f), rfl, hS.fld f p hi⟩, h⟩
  | param c =>
    intro s k hS hT hw h
    exact num_post (atomPost (k := fun r s => k (.num r) s) hw h) fun vc _ => (hS.param c).symm
  | tmp n =>
    intro s k hS hT hw h
    change (Option.rec false (fun v => k v s) (Trie.get 20 T n) : Bool) = true at h
    cases hi : Trie.get 20 T n with
    | none => rw [hi] at h; exact absurd h (by simp)
    | some v =>
      rw [hi] at h
      obtain ⟨w, h1, h2⟩ := hT n v hi
      exact ⟨v, s, Step.refl hw, ⟨w, by simp [eval, h1], h2⟩, h⟩
  | neg a ia =>
    intro s k hS hT hw h
    obtain ⟨p, s1, x, hs1, ex, hx, h⟩ := num_arg (ia s _ hS hT hw h)
    refine ⟨.num (negP p), s1, hs1, ⟨.num (-x), by simp [eval, ex, ok_bind, Val.toNum], fun vc ho => ?_⟩, h⟩
    rw [negP_den, hx vc ho]
  | add a b ia ib =>
    intro s k hS hT hw h
    obtain ⟨p, q, s1, x, y, hs1, ex, ey, hx, hy, h⟩ := ev2_spec ia ib hS hT hw h
    refine ⟨.num (S.post (addP p q)), s1, hs1, ⟨.num (x + y), by simp [eval, ex, ey, ok_bind, Val.toNum], fun vc ho => ?_⟩, h⟩
    rw [hS.post, addP_den, hx vc ho, hy vc ho]
  | sub a b ia ib =>
    intro s k hS hT hw h
    obtain ⟨p, q, s1, x, y, hs1, ex, ey, hx, hy, h⟩ := ev2_spec ia ib hS hT hw h
    refine ⟨.num (S.post (addP p (negP q))), s1, hs1, ⟨.num (x - y), by simp [eval, ex, ey, ok_bind, Val.toNum], fun vc ho => ?_⟩, h⟩
    rw [hS.post, addP_den, negP_den, hx vc ho, hy vc ho, sub_eq_add_neg]
  | mul a b ia ib =>
    intro s k hS hT hw h
    obtain ⟨p, q, s1, x, y, hs1, ex, ey, hx, hy, h⟩ := ev2_spec ia ib hS hT hw h
    have e : eval K.P E T' (.mul a b) = .ok (.num (x * y)) := by simp [eval, ex, ey, ok_bind, Val.toNum]
    rw [e]
    exact EPost.mono hs1 (num_post (mulP_spec hp hs1.wf h) fun vc ho => by rw [hx vc ho, hy vc ho])
  | div a b ia ib =>
    intro s k hS hT hw h
    obtain ⟨p, q, s1, x, y, hs1, ex, ey, hx, hy, h⟩ := ev2_spec ia ib hS hT hw h
    have e : eval K.P E T' (.div a b) = .ok (.num (x / y)) := by simp [eval, ex, ey, ok_bind, Val.toNum]
    rw [e]
    obtain ⟨r, s2, hs2, hr, h⟩ := invP_spec (K := K) hp hs1.wf h
    refine EPost.mono (hs1.trans hs2) (num_post (mulP_spec hp hs2.wf h) fun vc ho => ?_)
    rw [hx vc (hs2.ok ho), hy vc (hs2.ok ho), hr vc ho, div_eq_mul_inv]
  | pow a b ia ib =>
    intro s k hS hT hw h
    obtain ⟨p, q, s1, x, y, hs1, ex, ey, hx, hy, h⟩ := ev2_spec ia ib hS hT hw h
    have e : eval K.P E T' (.pow a b) = .ok (.num (x ^ y)) := by simp [eval, ex, ey, ok_bind, Val.toNum]
    rw [e]
    exact EPost.mono hs1 (num_post (powP_spec hp hs1.wf h) fun vc ho => by rw [hx vc ho, hy vc ho])
  | le a b ia ib =>
    intro s k hS hT hw h
    obtain ⟨p, q, s1, x, y, hs1, ex, ey, hx, hy, h⟩ := ev2_spec ia ib hS hT hw h
    have e : eval K.P E T' (.le a b) = .ok (.bool (x ≤ y)) := by simp [eval, ex, ey, ok_bind, Val.toNum]
    rw [e]
    refine EPost.mono hs1 (bool_post (mkNN_spec hp hC hs1.wf h) fun vc ho => ?_)
    rw [hS.post, addP_den, negP_den, hx vc ho, hy vc ho, ← sub_eq_add_neg, sub_nonneg]
  | lt a b ia ib =>
    intro s k hS hT hw h
    obtain ⟨p, q, s1, x, y, hs1, ex, ey, hx, hy, h⟩ := ev2_spec ia ib hS hT hw h
    have e : eval K.P E T' (.lt a b) = .ok (.bool (x < y)) := by simp [eval, ex, ey, ok_bind, Val.toNum]
    rw [e]
    obtain ⟨t, b', s2, hs2, hb, h⟩ := mkNN_spec (K := K) hp hC hs1.wf h
    refine ⟨.bool t (notB b'), s2, hs1.trans hs2, ⟨_, rfl, fun vc ho => ?_⟩, h⟩
    rw [tr_notB, hb vc ho]
    beta_reduce
    rw [hS.post, addP_den, negP_den, hx vc (hs2.ok ho), hy vc (hs2.ok ho), ← sub_eq_add_neg, sub_nonneg, not_le]
  | eq a b ia ib =>
    intro s k hS hT hw h
    obtain ⟨p, q, s1, x, y, hs1, ex, ey, hx, hy, h⟩ := ev2_spec ia ib hS hT hw h
    have e : eval K.P E T' (.eq a b) = .ok (.bool (x = y)) := by simp [eval, ex, ey, ok_bind, Val.toNum]
    rw [e]
    refine EPost.mono hs1 (bool_post (mkIsz_spec hp hC hs1.wf h) fun vc ho => ?_)
    rw [hS.post, addP_den, negP_den, hx vc ho, hy vc ho, ← sub_eq_add_neg, sub_eq_zero]
  | lor a b ia ib =>
    intro s k hS hT hw h
    obtain ⟨p, ba, s1, φ, hs1, ex, hx, h⟩ := bool_arg (ia s _ hS hT hw h)
    obtain ⟨q, bb, s2, ψ, hs2, ey, hy, h⟩ := bool_arg (ib s1 _ (hS.mono hs1) (hT.mono hs1) hs1.wf h)
    have e : eval K.P E T' (.lor a b) = .ok (.bool (φ ∨ ψ)) := by simp [eval, ex, ey, ok_bind, Val.toBool]
    rw [e]
    exact EPost.mono (hs1.trans hs2) (bool_post (mkOr_spec hs2.wf h) fun vc ho => or_congr (hx vc (hs2.ok ho)) (hy vc ho))
  | land a b ia ib =>
    intro s k hS hT hw h
    obtain ⟨p, ba, s1, φ, hs1, ex, hx, h⟩ := bool_arg (ia s _ hS hT hw h)
    obtain ⟨q, bb, s2, ψ, hs2, ey, hy, h⟩ := bool_arg (ib s1 _ (hS.mono hs1) (hT.mono hs1) hs1.wf h)
    have e : eval K.P E T' (.land a b) = .ok (.bool (φ ∧ ψ)) := by simp [eval, ex, ey, ok_bind, Val.toBool]
    rw [e]
    exact EPost.mono (hs1.trans hs2) (bool_post (mkAnd_spec hs2.wf h) fun vc ho => and_congr (hx vc (hs2.ok ho)) (hy vc ho))
  | cond c a b ic ia ib =>
    intro s k hS hT hw h
    obtain ⟨t, bt, s1, φ, hs1, ez, hz, h⟩ := bool_arg (ic s _ hS hT hw h)
    obtain ⟨p, q, s2, x, y, hs2, ex, ey, hx, hy, h⟩ := ev2_spec ia ib (hS.mono hs1) (hT.mono hs1) hs1.wf h
    classical
    have e : eval K.P E T' (.cond c a b) = .ok (.num (if φ then x else y)) := by
      simp only [eval, ez, ex, ey, ok_bind, Val.toNum, Val.toBool]
    rw [e]
    refine EPost.mono (hs1.trans hs2) (num_post (mkCond_spec hs2.wf h) fun vc ho => ?_)
    have := hz vc (hs2.ok ho)
    rw [hx vc ho, hy vc ho]
    by_cases hφ : φ
    · rw [if_pos hφ, if_pos (this.mpr hφ)]
    · rw [if_neg hφ, if_neg (fun h => hφ (this.mp h))]
  | call1 f a ia =>
    intro s k hS hT hw h
    obtain ⟨p, s1, x, hs1, ex, hx, h⟩ := num_arg (ia s _ hS hT hw h)
    have e : eval K.P E T' (.call1 f a) = .ok (.num (fn1Val K.P f x)) := by simp [eval, ex, ok_bind, Val.toNum]
    rw [e]
    exact EPost.mono hs1 (num_post (mkFn1_spec hp hs1.wf h) fun vc ho => by rw [hx vc ho])
  | call2 f a b ia ib =>
    cases f
    intro s k hS hT hw h
    obtain ⟨p, q, s1, x, y, hs1, ex, ey, hx, hy, h⟩ := ev2_spec ia ib hS hT hw h
    have e : eval K.P E T' (.call2 .arctan2 a b) = .ok (.num (fn2Val K.P .arctan2 x y)) := by simp [eval, ex, ey, ok_bind, Val.toNum]
    rw [e]
    exact EPost.mono hs1 (num_post (atomPost (k := fun r s => k (.num r) s) hs1.wf h) fun vc ho => by simp only [fn2Val, atomVal]; rw [hx vc ho, hy vc ho])
  | undef c =>
    intro s k hS hT hw h
    exact absurd h (by simp [ev])

theorem evBody_spec (hp : PosOk C.U K.vp) (hC : C.facts = K.facts) (b : List (Nat × Expr)) {T : Trie V} {T' : Nat → Option Val} {s : St}
    {k : Trie V → St → Bool} (hS : SubOk C K S E s) (hT : TOk K s T T') (hw : s.WF) (h : evBody C S b T s k = true) :
    ∃ T1 s1 T1', Step s s1 ∧ exec K.P E b T' = .ok T1' ∧ TOk K s1 T1 T1' ∧ k T1 s1 = true := by
  induction b generalizing T T' s with
  | nil => exact ⟨T, s, T', Step.refl hw, rfl, hT, h⟩
  | cons ne b ih =>
    obtain ⟨n, e⟩ := ne
    change ev C S T e s (fun v s => evBody C S b (Trie.set v 20 T n) s k) = true at h
    obtain ⟨v, s1, hs1, ⟨w, hwv, hv⟩, h⟩ := ev_spec hp hC e s _ hS hT hw h
    have hT1 : TOk K s1 (Trie.set v 20 T n) (Function.update T' n (some w)) := by
      intro n' v' hg
      rcases Trie.get_set _ _ _ _ _ _ hg with ⟨rfl, rfl⟩ | ⟨h1, h2⟩
      · exact ⟨w, by simp, hv⟩
      · obtain ⟨w', h3, h4⟩ := hT n' v' h2
        exact ⟨w', by rw [Function.update_of_ne h1]; exact h3, h4.mono hs1⟩
    obtain ⟨T1, s2, T1', hs2, hex, hT2, h⟩ := ih (hS.mono hs1) hT1 hs1.wf h
    exact ⟨T1, s2, T1', hs1.trans hs2, by simp [exec, hwv, ok_bind, hex], hT2, h⟩

/-- **Soundness of normalisation.** -/
theorem evProg_spec (hp : PosOk C.U K.vp) (hC : C.facts = K.facts) {P : Prog} {s : St} {k : Poly → St → Bool} (hS : SubOk C K S E s) (hw : s.WF)
    (h : evProg C S P s k = true) :
    ∃ r s' x, Step s s' ∧ run K.P E P = .ok x ∧ (∀ vc, Ok K vc s' → x = den K.vp vc r) ∧ k r s' = true := by
  obtain ⟨body, res⟩ := P
  change evBody C S body .leaf s (fun T s => ev C S T res s fun v s => asNum v fun r => k r s) = true at h
  have hT0 : TOk K s .leaf (fun _ => none) := by
    intro n v hv
    rw [Trie.get_leaf] at hv
    cases hv
  obtain ⟨T1, s1, T1', hs1, hex, hT1, h⟩ := evBody_spec hp hC body hS hT0 hw h
  obtain ⟨r, s2, x, hs2, ex, hx, h⟩ := num_arg (ev_spec hp hC res s1 _ (hS.mono hs1) hT1 hs1.wf h)
  refine ⟨r, s2, x, hs1.trans hs2, ?_, hx, h⟩
  simp [run, hex, ex, ok_bind, Val.toNum]

end

end

end Verif.Norm
