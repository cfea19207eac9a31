import Verif.Spec.Float
import Verif.Norm.IntervalSound
import Mathlib.Analysis.Complex.ExponentialBounds
import Mathlib.Analysis.SpecialFunctions.Arsinh
import Mathlib.Analysis.Convex.Deriv
/-!
# Propagation of rounding errors

Proof machinery for C61: how relative and absolute errors go through single operations.
-/
namespace Verif.Norm
open Verif.Py Verif.Model Verif.Spec

noncomputable section

/-- Relative error `k u`. -/
def RelOk (u : ℝ) (k : ℕ) (v z : ℝ) : Prop := |z - v| ≤ k * u * |v|
/-- Absolute error `a u / 2^64`. -/
def AbsOk (u : ℝ) (a : ℕ) (v z : ℝ) : Prop := |z - v| * rS ≤ a * u

theorem rS_val : rS = 2 ^ 64 := by norm_num [rS, sc]

theorem exp_sub_one_le {x : ℝ} (h : |x| ≤ 1) : |Real.exp x - 1| ≤ |x| + x ^ 2 := by
  have := Real.abs_exp_sub_one_sub_id_le h
  calc |Real.exp x - 1| = |(Real.exp x - 1 - x) + x| := by ring_nf
    _ ≤ |Real.exp x - 1 - x| + |x| := abs_add_le _ _
    _ ≤ |x| + x ^ 2 := by linarith

theorem log_one_add {d : ℝ} (h : |d| ≤ 1 / 2) : |Real.log (1 + d)| ≤ |d| + 2 * d ^ 2 := by
  obtain ⟨h1, h2⟩ := abs_le.1 h
  have hp : 0 < 1 + d := by linarith
  rw [abs_le]
  constructor
  · have := Real.one_sub_inv_le_log_of_pos hp
    refine le_trans ?_ this
    have e : 1 - (1 + d)⁻¹ = d / (1 + d) := by field_simp; ring
    rw [e, le_div_iff₀ hp]
    rcases le_or_gt 0 d with hd | hd
    · rw [abs_of_nonneg hd]; nlinarith [sq_nonneg d]
    · rw [abs_of_neg hd]; nlinarith [sq_nonneg d]
  · have := Real.log_le_sub_one_of_pos hp
    have h3 : d ≤ |d| := le_abs_self d
    nlinarith [sq_nonneg d]

section
variable {u : ℝ} (hu0 : 0 ≤ u) (hu : u ≤ 1 / 2 ^ 50)

include hu0 in
theorem RelOk.mono {k k' : ℕ} {v z : ℝ} (h : RelOk u k v z) (hk : k ≤ k') : RelOk u k' v z := by
  refine h.trans ?_
  have : (k : ℝ) ≤ k' := by exact_mod_cast hk
  gcongr

include hu0 in
theorem AbsOk.mono {k k' : ℕ} {v z : ℝ} (h : AbsOk u k v z) (hk : k ≤ k') : AbsOk u k' v z := by
  refine h.trans ?_
  have : (k : ℝ) ≤ k' := by exact_mod_cast hk
  gcongr

theorem RelOk.refl (v : ℝ) : RelOk u 0 v v := by simp [RelOk]
theorem AbsOk.refl (v : ℝ) : AbsOk u 0 v v := by simp [AbsOk]

theorem RelOk.eq {v z : ℝ} (h : RelOk u 0 v z) : z = v := by
  have : |z - v| ≤ 0 := by simpa [RelOk] using h
  linarith [abs_nonpos_iff.1 this]

include hu0 hu in
theorem ku_le {k : ℕ} (hk : k ≤ 16777216) : (k : ℝ) * u ≤ 1 / 2 ^ 26 := by
  have : (k : ℝ) ≤ 16777216 := by exact_mod_cast hk
  calc (k : ℝ) * u ≤ 16777216 * (1 / 2 ^ 50) := by gcongr
    _ = 1 / 2 ^ 26 := by norm_num

include hu0 hu in
theorem ku_sq {k : ℕ} (hk : k ≤ 16777216) : ((k : ℝ) * u) ^ 2 ≤ u / 2 ^ 2 := by
  have : (k : ℝ) ≤ 16777216 := by exact_mod_cast hk
  have h0 : (0 : ℝ) ≤ k := Nat.cast_nonneg _
  calc ((k : ℝ) * u) ^ 2 = k * k * u * u := by ring
    _ ≤ 16777216 * 16777216 * (1 / 2 ^ 50) * u := by gcongr
    _ = u / 2 ^ 2 := by ring

include hu0 in
/-- A factor close to one. -/
theorem RelOk.factor {k : ℕ} {v z : ℝ} (h : RelOk u k v z) : ∃ d : ℝ, |d| ≤ k * u ∧ z = v * (1 + d) := by
  by_cases hv : v = 0
  · subst hv
    have : |z - 0| ≤ 0 := by simpa [RelOk] using h
    have hz : z = 0 := by simpa using abs_nonpos_iff.1 this
    exact ⟨0, by simpa using by positivity, by simp [hz]⟩
  · refine ⟨(z - v) / v, ?_, by field_simp; ring⟩
    rw [abs_div, div_le_iff₀ (abs_pos.2 hv)]
    exact h

theorem relOk_of_factor {k : ℕ} {v d : ℝ} (h : |d| ≤ k * u) : RelOk u k v (v * (1 + d)) := by
  rw [RelOk, show v * (1 + d) - v = d * v by ring, abs_mul]
  gcongr

/-! ## Rounding -/

/-- Relative error after rounding. -/
def rnd1 (k : Nat) : Nat := kif Nat.beq k 0 then 1 else Nat.add k 2

include hu0 hu in
theorem rnd_rel {k : ℕ} {v y z : ℝ} (hk : k ≤ 16777216) (h : RelOk u k v y) (hz : |z - y| ≤ u * |y|) : RelOk u (rnd1 k) v z := by
  rw [rnd1, kif_beq]
  split_ifs with h0
  · subst h0
    rw [h.eq] at hz
    simpa [RelOk] using hz
  · have h1 : |y| ≤ |v| + k * u * |v| := by
      calc |y| = |(y - v) + v| := by ring_nf
        _ ≤ |y - v| + |v| := abs_add_le _ _
        _ ≤ |v| + k * u * |v| := by have : |y - v| ≤ k * u * |v| := h; linarith
    have h2 := ku_le hu0 hu hk
    have hv := abs_nonneg v
    have h3 : |z - v| ≤ |z - y| + |y - v| := by
      calc |z - v| = |(z - y) + (y - v)| := by ring_nf
        _ ≤ _ := abs_add_le _ _
    have h4 : u * |y| ≤ u * (2 * |v|) := by
      gcongr
      nlinarith
    have h5 : |y - v| ≤ k * u * |v| := h
    change |z - v| ≤ ((k + 2 : ℕ) : ℝ) * u * |v|
    push_cast
    nlinarith

include hu in
theorem au_le (a : ℕ) : (a : ℝ) * u ≤ ((a / 2 ^ 50 + 1 : ℕ) : ℝ) := by
  have h1 : (a : ℝ) * u ≤ a * (1 / 2 ^ 50) := by gcongr
  have h2 : (a : ℝ) ≤ ((a / 2 ^ 50 + 1 : ℕ) : ℝ) * 2 ^ 50 := by
    have : a ≤ (a / 2 ^ 50 + 1) * 2 ^ 50 := by omega
    exact_mod_cast this
  linarith

include hu0 hu in
theorem rnd_abs {a m : ℕ} {v y z : ℝ} (h : AbsOk u a v y) (hm : |v| * rS ≤ m) (hz : |z - y| ≤ u * |y|) : AbsOk u (a + m + (a / 2 ^ 50 + 1)) v z := by
  have h1 : |y| ≤ |y - v| + |v| := by
    calc |y| = |(y - v) + v| := by ring_nf
      _ ≤ _ := abs_add_le _ _
  have h2 : |z - v| ≤ |z - y| + |y - v| := by
    calc |z - v| = |(z - y) + (y - v)| := by ring_nf
      _ ≤ _ := abs_add_le _ _
  have h3 := au_le hu a
  have hr := rS_pos
  have h4 : |y - v| * rS ≤ a * u := h
  have h5 : |y| * rS ≤ a * u + m := by nlinarith
  have h6 : |z - y| * rS ≤ u * (a * u + m) := by
    calc |z - y| * rS ≤ u * |y| * rS := by gcongr
      _ = u * (|y| * rS) := by ring
      _ ≤ _ := by gcongr
  have h7 : u * (a * u) ≤ u * ((a / 2 ^ 50 + 1 : ℕ) : ℝ) := by gcongr
  change |z - v| * rS ≤ ((a + m + (a / 2 ^ 50 + 1) : ℕ) : ℝ) * u
  have h8 : |z - v| * rS ≤ |z - y| * rS + |y - v| * rS := by nlinarith
  rw [Nat.cast_add (a + m), Nat.cast_add a m]
  nlinarith

include hu0 in
theorem rnd_abs' {a m : ℕ} {v y z : ℝ} (h : AbsOk u a v y) (hm : |y| * rS ≤ m) (hz : |z - y| ≤ u * |y|) : AbsOk u (a + m) v z := by
  have h2 : |z - v| ≤ |z - y| + |y - v| := by
    calc |z - v| = |(z - y) + (y - v)| := by ring_nf
      _ ≤ _ := abs_add_le _ _
  have hr := rS_pos
  have h4 : |y - v| * rS ≤ a * u := h
  have h6 : |z - y| * rS ≤ u * m := by
    calc |z - y| * rS ≤ u * |y| * rS := by gcongr
      _ = u * (|y| * rS) := by ring
      _ ≤ _ := by gcongr
  change |z - v| * rS ≤ ((a + m : ℕ) : ℝ) * u
  push_cast
  nlinarith

/-! ## From one error to the other -/

include hu0 in
theorem RelOk.abs {k m : ℕ} {v z : ℝ} (h : RelOk u k v z) (hm : |v| * rS ≤ m) : AbsOk u (k * m) v z := by
  have hr := rS_pos
  have h1 : |z - v| ≤ k * u * |v| := h
  change |z - v| * rS ≤ ((k * m : ℕ) : ℝ) * u
  push_cast
  calc |z - v| * rS ≤ k * u * |v| * rS := by gcongr
    _ = k * u * (|v| * rS) := by ring
    _ ≤ k * u * m := by gcongr
    _ = _ := by ring

include hu0 in
theorem AbsOk.rel {a l : ℕ} {v z : ℝ} (h : AbsOk u a v z) (hl : (l : ℝ) ≤ |v| * rS) (hl0 : 0 < l) : RelOk u (a / l + 1) v z := by
  have hr := rS_pos
  have h1 : |z - v| * rS ≤ a * u := h
  have hl' : (0 : ℝ) < l := by exact_mod_cast hl0
  have h2 : (a : ℝ) ≤ ((a / l + 1 : ℕ) : ℝ) * l := by
    have : a ≤ (a / l + 1) * l := by
      have := Nat.lt_div_mul_add (a := a) hl0
      nlinarith
    exact_mod_cast this
  have h3 : |z - v| * rS ≤ ((a / l + 1 : ℕ) : ℝ) * u * |v| * rS := by
    calc |z - v| * rS ≤ a * u := h1
      _ ≤ ((a / l + 1 : ℕ) : ℝ) * l * u := by gcongr
      _ ≤ ((a / l + 1 : ℕ) : ℝ) * (|v| * rS) * u := by gcongr
      _ = _ := by ring
  exact le_of_mul_le_mul_right h3 hr

/-! ## Operations -/

theorem RelOk.neg {k : ℕ} {v z : ℝ} (h : RelOk u k v z) : RelOk u k (-v) (-z) := by
  rw [RelOk, abs_neg, show -z - -v = -(z - v) by ring, abs_neg]; exact h

theorem AbsOk.neg {k : ℕ} {v z : ℝ} (h : AbsOk u k v z) : AbsOk u k (-v) (-z) := by
  rw [AbsOk, show -z - -v = -(z - v) by ring, abs_neg]; exact h

include hu0 in
theorem RelOk.add {k l : ℕ} {x y x' y' : ℝ} (h : RelOk u k x x') (h' : RelOk u l y y') (hs : 0 ≤ x ∧ 0 ≤ y ∨ x ≤ 0 ∧ y ≤ 0) :
    RelOk u (max k l) (x + y) (x' + y') := by
  have e : |x + y| = |x| + |y| := by
    rcases hs with ⟨h1, h2⟩ | ⟨h1, h2⟩
    · rw [abs_of_nonneg h1, abs_of_nonneg h2, abs_of_nonneg (add_nonneg h1 h2)]
    · rw [abs_of_nonpos h1, abs_of_nonpos h2, abs_of_nonpos (add_nonpos h1 h2)]; ring
  have h1 := h.mono hu0 (le_max_left k l)
  have h2 := h'.mono hu0 (le_max_right k l)
  rw [RelOk, e]
  calc |x' + y' - (x + y)| = |(x' - x) + (y' - y)| := by ring_nf
    _ ≤ |x' - x| + |y' - y| := abs_add_le _ _
    _ ≤ _ := by have a1 : _ ≤ _ := h1; have a2 : _ ≤ _ := h2; linarith

theorem AbsOk.add {k l : ℕ} {x y x' y' : ℝ} (h : AbsOk u k x x') (h' : AbsOk u l y y') : AbsOk u (k + l) (x + y) (x' + y') := by
  have hr := rS_pos
  have h1 : |x' - x| * rS ≤ k * u := h
  have h2 : |y' - y| * rS ≤ l * u := h'
  rw [AbsOk]; push_cast
  have : |x' + y' - (x + y)| ≤ |x' - x| + |y' - y| := by
    calc |x' + y' - (x + y)| = |(x' - x) + (y' - y)| := by ring_nf
      _ ≤ _ := abs_add_le _ _
  nlinarith

/-- Relative error of a product or quotient, before rounding. -/
def prodW (a b : Nat) : Nat := kif Nat.beq a 0 then b else kif Nat.beq b 0 then a else Nat.add (Nat.add a b) 1

include hu0 hu in
theorem RelOk.mul {k l : ℕ} {x y x' y' : ℝ} (hk : k ≤ 16777216) (hl : l ≤ 16777216) (h : RelOk u k x x') (h' : RelOk u l y y') : RelOk u (prodW k l) (x * y) (x' * y') := by
  rw [prodW, kif_beq, kif_beq]
  split_ifs with h1 h2
  · subst h1; rw [h.eq]
    have a : |y' - y| ≤ l * u * |y| := h'
    rw [RelOk, ← mul_sub, abs_mul, abs_mul]
    nlinarith [abs_nonneg x]
  · subst h2; rw [h'.eq]
    have a : |x' - x| ≤ k * u * |x| := h
    rw [RelOk, ← sub_mul, abs_mul, abs_mul]
    nlinarith [abs_nonneg y]
  · obtain ⟨d, hd, rfl⟩ := h.factor hu0
    obtain ⟨e, he, rfl⟩ := h'.factor hu0
    rw [show x * (1 + d) * (y * (1 + e)) = x * y * (1 + (d + e + d * e)) by ring]
    refine relOk_of_factor ?_
    have hd0 := abs_nonneg d
    have b1 := ku_le hu0 hu hk
    have b2 : (l : ℝ) ≤ 16777216 := by exact_mod_cast hl
    have : |d * e| ≤ u := by
      rw [abs_mul]
      calc |d| * |e| ≤ (1 / 2 ^ 26) * (l * u) := by gcongr; linarith
        _ ≤ (1 / 2 ^ 26) * (16777216 * u) := by gcongr
        _ ≤ u := by nlinarith
    change |d + e + d * e| ≤ ((k + l + 1 : ℕ) : ℝ) * u
    push_cast
    calc |d + e + d * e| ≤ |d + e| + |d * e| := abs_add_le _ _
      _ ≤ |d| + |e| + |d * e| := by gcongr; exact abs_add_le _ _
      _ ≤ _ := by linarith

include hu0 hu in
theorem AbsOk.mul {k l A B : ℕ} {x y x' y' : ℝ} (h : AbsOk u k x x') (h' : AbsOk u l y y') (hA : |x| * rS ≤ A) (hB : |y| * rS ≤ B) :
    AbsOk u ((k * B + A * l + k * (l / 2 ^ 50 + 1)) / sc + 1) (x * y) (x' * y') := by
  have hr := rS_pos
  have h1 : |x' - x| * rS ≤ k * u := h
  have h2 : |y' - y| * rS ≤ l * u := h'
  have h3 := au_le hu l
  have h0 : |x' * y' - x * y| ≤ |x' - x| * (|y| + |y' - y|) + |x| * |y' - y| := by
    calc |x' * y' - x * y| = |(x' - x) * y' + x * (y' - y)| := by ring_nf
      _ ≤ |(x' - x) * y'| + |x * (y' - y)| := abs_add_le _ _
      _ = |x' - x| * |y'| + |x| * |y' - y| := by rw [abs_mul, abs_mul]
      _ ≤ _ := by
        gcongr
        calc |y'| = |y + (y' - y)| := by ring_nf
          _ ≤ _ := abs_add_le _ _
  have n1 := abs_nonneg (x' - x)
  have n2 := abs_nonneg (y' - y)
  have n3 := abs_nonneg x
  have n4 := abs_nonneg y
  have h5 : (|y| + |y' - y|) * rS ≤ B + ((l / 2 ^ 50 + 1 : ℕ) : ℝ) := by nlinarith
  have h6 : |x' * y' - x * y| * rS * rS ≤ k * u * (B + ((l / 2 ^ 50 + 1 : ℕ) : ℝ)) + A * (l * u) := by
    calc |x' * y' - x * y| * rS * rS ≤ (|x' - x| * (|y| + |y' - y|) + |x| * |y' - y|) * rS * rS := by gcongr
      _ = (|x' - x| * rS) * ((|y| + |y' - y|) * rS) + (|x| * rS) * (|y' - y| * rS) := by ring
      _ ≤ _ := by gcongr
  set N := k * B + A * l + k * (l / 2 ^ 50 + 1) with hN
  have h7 : |x' * y' - x * y| * rS * rS ≤ (N : ℝ) * u := by
    refine h6.trans (le_of_eq ?_)
    rw [hN]; push_cast; ring
  have h8 : (N : ℝ) ≤ ((N / sc + 1 : ℕ) : ℝ) * rS := by
    have : N ≤ (N / sc + 1) * sc := by unfold sc; omega
    rw [rS]; exact_mod_cast this
  refine le_of_mul_le_mul_right ?_ hr
  calc |x' * y' - x * y| * rS * rS ≤ (N : ℝ) * u := h7
    _ ≤ ((N / sc + 1 : ℕ) : ℝ) * rS * u := by gcongr
    _ = _ := by ring

include hu0 hu in
theorem RelOk.inv {l : ℕ} {y y' : ℝ} (hl : l ≤ 16777216) (h' : RelOk u l y y') : RelOk u (if l = 0 then 0 else l + 1) y⁻¹ y'⁻¹ := by
  split_ifs with h0
  · subst h0; rw [h'.eq]; exact RelOk.refl _
  · obtain ⟨e, he, rfl⟩ := h'.factor hu0
    have b1 := ku_le hu0 hu hl
    have b3 := ku_sq hu0 hu hl
    have he1 : |e| ≤ 1 / 2 ^ 26 := he.trans b1
    obtain ⟨e1, e2⟩ := abs_le.1 he1
    have hp : 0 < 1 + e := by norm_num at e1; linarith
    rw [show (y * (1 + e))⁻¹ = y⁻¹ * (1 + -e / (1 + e)) by rw [mul_inv]; congr 1; field_simp; ring]
    refine relOk_of_factor ?_
    rw [abs_div, abs_neg, abs_of_pos hp, div_le_iff₀ hp]
    push_cast
    have hl0 : (0 : ℝ) ≤ l := Nat.cast_nonneg _
    have h1 : -(1 / 2 ^ 26 : ℝ) ≤ e := e1
    have n1 := abs_nonneg e
    have h2 : -|e| ≤ e := neg_abs_le e
    have h3 : ((l : ℝ) + 1) * u * (1 + e) ≥ ((l : ℝ) + 1) * u * (1 - |e|) := by gcongr; linarith
    have h4 : (l : ℝ) * u * |e| ≤ (l * u) ^ 2 := by nlinarith [mul_nonneg hl0 hu0]
    nlinarith

include hu0 hu in
theorem RelOk.div {k l : ℕ} {x y x' y' : ℝ} (hk : k ≤ 16777216) (hl : l + 1 ≤ 16777216) (h : RelOk u k x x') (h' : RelOk u l y y') :
    RelOk u (prodW k (kif Nat.beq l 0 then 0 else Nat.succ l)) (x / y) (x' / y') := by
  rw [div_eq_mul_inv, div_eq_mul_inv, kif_beq]
  refine h.mul hu0 hu hk ?_ (h'.inv hu0 hu (by omega))
  split_ifs <;> omega

include hu0 hu in
theorem AbsOk.div {k l L Q : ℕ} {x y x' y' : ℝ} (hl : l ≤ 16777216) (h : AbsOk u k x x') (h' : RelOk u l y y') (hL : (L : ℝ) ≤ |y| * rS) (hL0 : 0 < L) (hQ : |x / y| * rS ≤ Q) :
    AbsOk u (2 * (k * sc / L + 1 + Q * l)) (x / y) (x' / y') := by
  have hr := rS_pos
  have hy0 : 0 < |y| := by
    have : (0 : ℝ) < L := by exact_mod_cast hL0
    by_contra hh
    have : |y| = 0 := le_antisymm (not_lt.1 hh) (abs_nonneg _)
    rw [this] at hL; linarith
  have hy : y ≠ 0 := abs_pos.1 hy0
  obtain ⟨e, he, rfl⟩ := h'.factor hu0
  have b1 := ku_le hu0 hu hl
  have he1 : |e| ≤ 1 / 2 ^ 26 := he.trans b1
  obtain ⟨e1, e2⟩ := abs_le.1 he1
  have hp : 1 / 2 ≤ 1 + e := by norm_num at e1; linarith
  have hp0 : 0 < 1 + e := by linarith
  have h1 : |x' - x| * rS ≤ k * u := h
  have key : |x' / (y * (1 + e)) - x / y| ≤ 2 * (|x' - x| / |y| + |x / y| * |e|) := by
    have e3 : x' / (y * (1 + e)) - x / y = ((x' - x) / y - x / y * e) / (1 + e) := by field_simp; ring
    rw [e3, abs_div, abs_of_pos hp0, div_le_iff₀ hp0]
    have : |(x' - x) / y - x / y * e| ≤ |x' - x| / |y| + |x / y| * |e| := by
      calc |(x' - x) / y - x / y * e| ≤ |(x' - x) / y| + |x / y * e| := abs_sub _ _
        _ = _ := by rw [abs_div, abs_mul]
    have n : 0 ≤ |x' - x| / |y| + |x / y| * |e| := by positivity
    nlinarith
  have h2 : (k : ℝ) * rS ≤ ((k * sc / L + 1 : ℕ) : ℝ) * L := by
    have : k * sc ≤ (k * sc / L + 1) * L := by
      have := Nat.lt_div_mul_add (a := k * sc) hL0
      nlinarith
    rw [rS]; exact_mod_cast this
  have h3 : |x' - x| / |y| * rS ≤ ((k * sc / L + 1 : ℕ) : ℝ) * u := by
    rw [div_mul_eq_mul_div, div_le_iff₀ hy0]
    refine le_of_mul_le_mul_right ?_ hr
    calc |x' - x| * rS * rS ≤ k * u * rS := by gcongr
      _ = k * rS * u := by ring
      _ ≤ ((k * sc / L + 1 : ℕ) : ℝ) * L * u := by gcongr
      _ ≤ ((k * sc / L + 1 : ℕ) : ℝ) * (|y| * rS) * u := by gcongr
      _ = _ := by ring
  have h4 : |x / y| * |e| * rS ≤ Q * l * u := by
    calc |x / y| * |e| * rS = (|x / y| * rS) * |e| := by ring
      _ ≤ Q * (l * u) := by gcongr
      _ = _ := by ring
  have h5 : |x' / (y * (1 + e)) - x / y| * rS ≤ 2 * (|x' - x| / |y| + |x / y| * |e|) * rS := by gcongr
  rw [AbsOk]
  push_cast at h3 ⊢
  nlinarith

include hu0 hu in
theorem RelOk.npow {k n : ℕ} {x x' : ℝ} (hk : n * k ≤ 16777216) (h : RelOk u k x x') : RelOk u (if k = 0 then 0 else n * k + 1) (x ^ n) (x' ^ n) := by
  split_ifs with h0
  · subst h0; rw [h.eq]; exact RelOk.refl _
  · obtain ⟨d, hd, rfl⟩ := h.factor hu0
    rw [mul_pow, show x ^ n * (1 + d) ^ n = x ^ n * (1 + ((1 + d) ^ n - 1)) by ring]
    refine relOk_of_factor ?_
    have c : ((n * k : ℕ) : ℝ) * u ≤ 1 / 2 ^ 26 := ku_le hu0 hu hk
    have c2 := ku_sq hu0 hu hk
    by_cases hn : n = 0
    · subst hn; simp [hu0]
    have hk' : (k : ℝ) * u ≤ 1 / 2 ^ 26 := by
      have : (k : ℝ) ≤ ((n * k : ℕ) : ℝ) := by exact_mod_cast Nat.le_mul_of_pos_left k (Nat.pos_of_ne_zero hn)
      exact le_trans (by gcongr) c
    have hd1 : |d| ≤ 1 / 2 ^ 26 := hd.trans hk'
    obtain ⟨d1, d2⟩ := abs_le.1 hd1
    have hnd : (n : ℝ) * |d| ≤ ((n * k : ℕ) : ℝ) * u := by
      push_cast
      calc (n : ℝ) * |d| ≤ n * (k * u) := by gcongr
        _ = _ := by ring
    have lo : 1 + (n : ℝ) * d ≤ (1 + d) ^ n := one_add_mul_le_pow (by norm_num at d1; linarith) n
    have hi : (1 + d) ^ n ≤ Real.exp (n * |d|) := by
      rw [Real.exp_nat_mul]
      have : 1 + d ≤ Real.exp |d| := by
        have := Real.add_one_le_exp |d|
        linarith [le_abs_self d]
      refine pow_le_pow_left₀ ?_ this n
      norm_num at d1; linarith
    have n0 : 0 ≤ (n : ℝ) * |d| := by positivity
    have hx1 : |(n : ℝ) * (|d|)| ≤ 1 := by
      rw [abs_of_nonneg n0]
      refine hnd.trans (c.trans (by norm_num))
    have ex := exp_sub_one_le hx1
    rw [abs_of_nonneg n0] at ex
    have ex2 : Real.exp (n * |d|) - 1 ≤ n * |d| + (n * |d|) ^ 2 := le_trans (le_abs_self _) ex
    have sq : ((n : ℝ) * |d|) ^ 2 ≤ u / 2 ^ 2 := by
      refine le_trans ?_ c2
      gcongr
    rw [Nat.cast_add, Nat.cast_one, abs_le]
    have nd : -((n : ℝ) * |d|) ≤ n * d := by
      have := neg_abs_le d
      have hn0 : (0 : ℝ) ≤ n := Nat.cast_nonneg _
      nlinarith
    constructor
    · nlinarith
    · nlinarith

include hu0 hu in
theorem AbsOk.npow {k A n : ℕ} {x x' : ℝ} (h : AbsOk u k x x') (hA : |x| * rS ≤ A) :
    AbsOk u (n * k * (A + (k / 2 ^ 50 + 1)) ^ (n - 1) / sc ^ (n - 1) + 1) (x ^ n) (x' ^ n) := by
  have hr := rS_pos
  have h1 : |x' - x| * rS ≤ k * u := h
  have h3 := au_le hu k
  set M := A + (k / 2 ^ 50 + 1) with hM
  have hm : max |x'| |x| * rS ≤ M := by
    rw [max_mul_of_nonneg _ _ hr.le, max_le_iff]
    have : |x'| ≤ |x| + |x' - x| := by
      calc |x'| = |x + (x' - x)| := by ring_nf
        _ ≤ _ := abs_add_le _ _
    rw [hM]; push_cast at h3 ⊢
    constructor
    · nlinarith
    · have : (0 : ℝ) ≤ ((k / 2 ^ 50 : ℕ) : ℝ) := Nat.cast_nonneg _
      push_cast at this
      linarith
  have key := abs_pow_sub_pow_le (a := x') (b := x) (n := n)
  have hmn : 0 ≤ max |x'| |x| := le_max_of_le_left (abs_nonneg _)
  set N := n * k * M ^ (n - 1) with hN
  have h8 : (N : ℝ) ≤ ((N / sc ^ (n - 1) + 1 : ℕ) : ℝ) * rS ^ (n - 1) := by
    have h0 : 0 < sc ^ (n - 1) := by unfold sc; positivity
    have : N ≤ (N / sc ^ (n - 1) + 1) * sc ^ (n - 1) := by
      have := Nat.lt_div_mul_add (a := N) h0
      nlinarith
    rw [rS]; exact_mod_cast this
  have hrn : 0 < rS ^ (n - 1) := by positivity
  refine le_of_mul_le_mul_right ?_ hrn
  calc |x' ^ n - x ^ n| * rS * rS ^ (n - 1) ≤ |x' - x| * n * max |x'| |x| ^ (n - 1) * rS * rS ^ (n - 1) := by gcongr
    _ = (|x' - x| * rS) * n * (max |x'| |x| * rS) ^ (n - 1) := by rw [mul_pow]; ring
    _ ≤ (k * u) * n * (M : ℝ) ^ (n - 1) := by gcongr
    _ = (N : ℝ) * u := by rw [hN]; push_cast; ring
    _ ≤ ((N / sc ^ (n - 1) + 1 : ℕ) : ℝ) * rS ^ (n - 1) * u := by gcongr
    _ = _ := by ring

/-- Logarithms of normal numbers. -/
theorem normal_log {x : ℝ} (h : Normal x) (hx : 0 < x) : |Real.log x| ≤ 710 := by
  rcases h with h | ⟨h1, h2⟩
  · exact absurd h hx.ne'
  rw [abs_of_pos hx] at h1 h2
  have l2 := Real.log_two_lt_d9
  have a1 := Real.log_le_log (by positivity) h1
  have a2 := Real.log_le_log hx h2
  rw [Real.log_zpow] at a1 a2
  push_cast at a1 a2
  have := Real.log_pos (one_lt_two)
  rw [abs_le]; constructor <;> nlinarith

include hu0 hu in
theorem RelOk.log_sub {k : ℕ} {x x' : ℝ} (hk : k ≤ 16777216) (h : RelOk u k x x') (hx : 0 < x) :
    0 < x' ∧ |Real.log x' - Real.log x| ≤ ((kif Nat.beq k 0 then 0 else Nat.succ k : ℕ) : ℝ) * u := by
  rw [kif_beq]
  split_ifs with h0
  · subst h0; rw [h.eq]; simp [hx]
  · obtain ⟨d, hd, rfl⟩ := h.factor hu0
    have b1 := ku_le hu0 hu hk
    have b2 := ku_sq hu0 hu hk
    have hd1 : |d| ≤ 1 / 2 ^ 26 := hd.trans b1
    obtain ⟨d1, d2⟩ := abs_le.1 hd1
    have hp : 0 < 1 + d := by norm_num at d1; linarith
    refine ⟨mul_pos hx hp, ?_⟩
    rw [Real.log_mul hx.ne' hp.ne', add_sub_cancel_left]
    refine (log_one_add (hd1.trans (by norm_num))).trans ?_
    have : d ^ 2 ≤ (k * u) ^ 2 := by
      rw [← sq_abs]; gcongr
    push_cast
    nlinarith

include hu0 hu in
/-- Powers with real exponents. -/
theorem RelOk.rpow {k a m : ℕ} {x y x' y' : ℝ} (hk : k ≤ 16777216) (h : RelOk u k x x') (hx : 0 < x) (hx' : Normal x') (h' : AbsOk u a y y') (hm : |y| * rS ≤ m)
    (hw : (m * (k + 1) + 710 * a) / sc + 1 ≤ 16777216) : RelOk u ((m * (k + 1) + 710 * a) / sc + 2) (x ^ y) (x' ^ y') := by
  have hr := rS_pos
  obtain ⟨hp, hl⟩ := h.log_sub hu0 hu hk hx
  have hl' : |Real.log x' - Real.log x| ≤ (k + 1) * u := by
    refine hl.trans ?_
    rw [kif_beq]
    gcongr
    split_ifs with h0
    · push_cast; positivity
    · push_cast; exact le_rfl
  have hn := normal_log hx' hp
  have h2 : |y' - y| * rS ≤ a * u := h'
  set L := Real.log x' * y' - Real.log x * y with hL
  set N := m * (k + 1) + 710 * a with hN
  have hLr : |L| * rS ≤ (N : ℝ) * u := by
    have e : L = y * (Real.log x' - Real.log x) + Real.log x' * (y' - y) := by rw [hL]; ring
    rw [e, hN]; push_cast
    calc |y * (Real.log x' - Real.log x) + Real.log x' * (y' - y)| * rS
        ≤ (|y| * |Real.log x' - Real.log x| + |Real.log x'| * |y' - y|) * rS := by
          gcongr
          refine (abs_add_le _ _).trans (le_of_eq ?_)
          rw [abs_mul, abs_mul]
      _ = (|y| * rS) * |Real.log x' - Real.log x| + |Real.log x'| * (|y' - y| * rS) := by ring
      _ ≤ m * ((k + 1) * u) + 710 * (a * u) := by gcongr
      _ = _ := by ring
  set W := N / sc + 1 with hW
  have h8 : (N : ℝ) ≤ (W : ℝ) * rS := by
    have : N ≤ W * sc := by rw [hW]; unfold sc; omega
    rw [rS]; exact_mod_cast this
  have hLW : |L| ≤ W * u := by
    refine le_of_mul_le_mul_right ?_ hr
    calc |L| * rS ≤ (N : ℝ) * u := hLr
      _ ≤ W * rS * u := by gcongr
      _ = _ := by ring
  have b1 := ku_le hu0 hu hw
  have b2 := ku_sq hu0 hu hw
  have e : x' ^ y' = x ^ y * (1 + (Real.exp L - 1)) := by
    rw [Real.rpow_def_of_pos hp, Real.rpow_def_of_pos hx, hL, show Real.exp (Real.log x * y) * (1 + (Real.exp (Real.log x' * y' - Real.log x * y) - 1)) =
      Real.exp (Real.log x * y) * Real.exp (Real.log x' * y' - Real.log x * y) by ring, ← Real.exp_add]
    ring_nf
  rw [e]
  refine relOk_of_factor ?_
  refine (exp_sub_one_le (hLW.trans (b1.trans (by norm_num)))).trans ?_
  have : L ^ 2 ≤ (W * u) ^ 2 := by rw [← sq_abs]; gcongr
  change |L| + L ^ 2 ≤ ((W + 1 : ℕ) : ℝ) * u
  push_cast at b2 ⊢
  nlinarith

include hu0 hu in
theorem RelOk.exp {a : ℕ} {x x' : ℝ} (h : AbsOk u a x x') (hw : a / sc + 1 ≤ 16777216) : RelOk u (a / sc + 2) (Real.exp x) (Real.exp x') := by
  have hr := rS_pos
  have h2 : |x' - x| * rS ≤ a * u := h
  set W := a / sc + 1 with hW
  have h8 : (a : ℝ) ≤ (W : ℝ) * rS := by
    have : a ≤ W * sc := by rw [hW]; unfold sc; omega
    rw [rS]; exact_mod_cast this
  have hLW : |x' - x| ≤ W * u := by
    refine le_of_mul_le_mul_right ?_ hr
    calc |x' - x| * rS ≤ (a : ℝ) * u := h2
      _ ≤ W * rS * u := by gcongr
      _ = _ := by ring
  have b1 := ku_le hu0 hu hw
  have b2 := ku_sq hu0 hu hw
  have e : Real.exp x' = Real.exp x * (1 + (Real.exp (x' - x) - 1)) := by
    rw [show Real.exp x * (1 + (Real.exp (x' - x) - 1)) = Real.exp x * Real.exp (x' - x) by ring, ← Real.exp_add]; ring_nf
  rw [e]
  refine relOk_of_factor ?_
  refine (exp_sub_one_le (hLW.trans (b1.trans (by norm_num)))).trans ?_
  have : (x' - x) ^ 2 ≤ (W * u) ^ 2 := by rw [← sq_abs]; gcongr
  change |x' - x| + (x' - x) ^ 2 ≤ ((W + 1 : ℕ) : ℝ) * u
  push_cast at b2 ⊢
  nlinarith

include hu in
/-- The argument of an exponential that neither overflows nor underflows. -/
theorem exp_range {x z : ℝ} (h : Rnd u (Real.exp x) z) : |x| ≤ 711 := by
  obtain ⟨h1, h2⟩ := h
  have hp := Real.exp_pos x
  rw [abs_of_pos hp] at h1
  have hu1 : u ≤ 1 / 2 := hu.trans (by norm_num)
  obtain ⟨a1, a2⟩ := abs_le.1 h1
  have hz : 0 < z := by nlinarith
  have hl := normal_log h2 hz
  have l1 : Real.log z ≤ Real.log (Real.exp x * 2) := Real.log_le_log hz (by nlinarith)
  have l2 : Real.log (Real.exp x / 2) ≤ Real.log z := Real.log_le_log (by positivity) (by nlinarith)
  rw [Real.log_mul hp.ne' two_ne_zero, Real.log_exp] at l1
  rw [Real.log_div hp.ne' two_ne_zero, Real.log_exp] at l2
  have := Real.log_two_lt_d9
  obtain ⟨b1, b2⟩ := abs_le.1 hl
  rw [abs_le]; constructor <;> linarith

include hu0 hu in
theorem RelOk.exp' {k : ℕ} {x x' z : ℝ} (hk : k ≤ 16777216) (h : RelOk u k x x') (hz : Rnd u (Real.exp x') z) : AbsOk u (712 * k * sc) x x' := by
  have hr := exp_range hu hz
  obtain ⟨d, hd, rfl⟩ := h.factor hu0
  have b1 := ku_le hu0 hu hk
  have hd1 : |d| ≤ 1 / 2 ^ 26 := hd.trans b1
  obtain ⟨d1, d2⟩ := abs_le.1 hd1
  have hp : 1 - 1 / 2 ^ 26 ≤ 1 + d := by norm_num at d1 ⊢; linarith
  rw [abs_mul] at hr
  have hp' : 0 < 1 + d := by norm_num at hp; linarith
  rw [abs_of_pos hp'] at hr
  have hx : |x| ≤ 712 := by
    have := abs_nonneg x
    norm_num at hp
    nlinarith
  rw [AbsOk, show x * (1 + d) - x = x * d by ring, abs_mul]
  push_cast
  have hr0 := rS_pos
  calc |x| * |d| * rS ≤ 712 * (k * u) * rS := by gcongr
    _ = _ := by rw [rS]; ring

theorem RelOk.sqrt {k : ℕ} (hu0 : 0 ≤ u) (hu : u ≤ 1 / 2 ^ 50) {x x' : ℝ} (hk : k ≤ 16777216) (h : RelOk u k x x') (hx : 0 ≤ x) : RelOk u k (√x) (√x') := by
  obtain ⟨d, hd, rfl⟩ := h.factor hu0
  have b1 := ku_le hu0 hu hk
  have hd1 : |d| ≤ 1 / 2 ^ 26 := hd.trans b1
  obtain ⟨d1, d2⟩ := abs_le.1 hd1
  have hp : 0 < 1 + d := by norm_num at d1; linarith
  rw [Real.sqrt_mul hx, show √x * √(1 + d) = √x * (1 + (√(1 + d) - 1)) by ring]
  refine relOk_of_factor (le_trans ?_ hd)
  have s1 : √(1 + d) ^ 2 = 1 + d := Real.sq_sqrt hp.le
  have s0 := Real.sqrt_nonneg (1 + d)
  rw [show |√(1 + d) - 1| = |d| / (√(1 + d) + 1) by
    rw [eq_div_iff (by positivity), ← abs_of_pos (show 0 < √(1 + d) + 1 by positivity), ← abs_mul]
    congr 1; nlinarith]
  exact div_le_self (abs_nonneg d) (by linarith)

theorem RelOk.cbrt {k : ℕ} (hu0 : 0 ≤ u) (hu : u ≤ 1 / 2 ^ 50) {x x' : ℝ} (hk : k ≤ 16777216) (h : RelOk u k x x') : RelOk u k (cbrtR x) (cbrtR x') := by
  obtain ⟨d, hd, rfl⟩ := h.factor hu0
  have b1 := ku_le hu0 hu hk
  have hd1 : |d| ≤ 1 / 2 ^ 26 := hd.trans b1
  obtain ⟨d1, d2⟩ := abs_le.1 hd1
  have hp : 0 < 1 + d := by norm_num at d1; linarith
  rw [mul_comm, cbrtR_mul hp.le, mul_comm, show cbrtR x * cbrtR (1 + d) = cbrtR x * (1 + (cbrtR (1 + d) - 1)) by ring]
  refine relOk_of_factor (le_trans ?_ hd)
  set c := cbrtR (1 + d) with hc
  have s1 : c ^ 3 = 1 + d := cbrtR_cubed _
  have c0 : 0 < c := by
    by_contra hh
    have : c ^ 3 ≤ 0 := by
      nlinarith [sq_nonneg c, not_lt.1 hh]
    linarith
  have e : d = (c - 1) * (c ^ 2 + c + 1) := by linarith [s1, (by ring : (c - 1) * (c ^ 2 + c + 1) = c ^ 3 - 1)]
  rw [e, abs_mul, abs_of_pos (show 0 < c ^ 2 + c + 1 by positivity)]
  nlinarith [abs_nonneg (c - 1), sq_nonneg c]

/-- Odd functions that are concave on the positive numbers do not enlarge relative errors. -/
theorem RelOk.concave {f : ℝ → ℝ} (hodd : ∀ x, f (-x) = -f x) (hf : ConcaveOn ℝ (Set.Ici 0) f) (hnn : ∀ x, 0 ≤ x → 0 ≤ f x) (hmono : Monotone f)
    {k : ℕ} (hu0 : 0 ≤ u) (hu : u ≤ 1 / 2 ^ 50) {x x' : ℝ} (hk : k ≤ 16777216) (h : RelOk u k x x') : RelOk u k (f x) (f x') := by
  have f0 : f 0 = 0 := by have := hodd 0; rw [neg_zero] at this; linarith
  -- scaling by a number between 0 and 1
  have sub : ∀ x t : ℝ, 0 ≤ x → 0 ≤ t → t ≤ 1 → t * f x ≤ f (t * x) := fun x t hx h0 h1 => by
    have := hf.2 (Set.mem_Ici.2 hx) (Set.mem_Ici.2 le_rfl) h0 (show 0 ≤ 1 - t by linarith) (by ring)
    simpa [f0] using this
  have pos : ∀ x d : ℝ, 0 ≤ x → |d| ≤ 1 / 2 → |f (x * (1 + d)) - f x| ≤ |d| * |f x| := fun x d hx hd => by
    obtain ⟨d1, d2⟩ := abs_le.1 hd
    rw [abs_of_nonneg (hnn x hx)]
    rcases le_or_gt 0 d with h0 | h0
    · have m : f x ≤ f (x * (1 + d)) := hmono (by nlinarith)
      rw [abs_of_nonneg h0, abs_of_nonneg (by linarith)]
      have hp : 0 < 1 + d := by linarith
      have := sub (x * (1 + d)) (1 / (1 + d)) (by positivity) (by positivity) (by rw [div_le_one hp]; linarith)
      rw [show 1 / (1 + d) * (x * (1 + d)) = x by field_simp, div_mul_eq_mul_div, one_mul, div_le_iff₀ hp] at this
      linarith
    · have m : f (x * (1 + d)) ≤ f x := hmono (by nlinarith)
      rw [abs_of_neg h0, abs_of_nonpos (by linarith)]
      have := sub x (1 + d) hx (by linarith) (by linarith)
      rw [mul_comm x]
      linarith
  obtain ⟨d, hd, rfl⟩ := h.factor hu0
  have b1 := ku_le hu0 hu hk
  have hd1 : |d| ≤ 1 / 2 := hd.trans (b1.trans (by norm_num))
  have key : |f (x * (1 + d)) - f x| ≤ |d| * |f x| := by
    rcases le_or_gt 0 x with hx | hx
    · exact pos x d hx hd1
    · have := pos (-x) d (by linarith) hd1
      rw [show -x * (1 + d) = -(x * (1 + d)) by ring, hodd, hodd, abs_neg, ← neg_sub', abs_neg] at this
      exact this
  exact key.trans (by gcongr)

theorem arctan_concave : ConcaveOn ℝ (Set.Ici 0) Real.arctan := by
  refine AntitoneOn.concaveOn_of_deriv (convex_Ici 0) Real.continuous_arctan.continuousOn Real.differentiable_arctan.differentiableOn ?_
  rw [interior_Ici]
  intro x hx y hy hxy
  simp only [Set.mem_Ioi] at hx hy
  rw [Real.deriv_arctan]
  have : 0 < 1 + x ^ 2 := by positivity
  apply one_div_le_one_div_of_le this
  nlinarith

theorem arsinh_concave : ConcaveOn ℝ (Set.Ici 0) Real.arsinh := by
  refine AntitoneOn.concaveOn_of_deriv (convex_Ici 0) Real.continuous_arsinh.continuousOn Real.differentiable_arsinh.differentiableOn ?_
  rw [interior_Ici]
  intro x hx y hy hxy
  simp only [Set.mem_Ioi] at hx hy
  rw [(Real.hasDerivAt_arsinh x).deriv, (Real.hasDerivAt_arsinh y).deriv]
  have h1 : 0 < √(1 + x ^ 2) := Real.sqrt_pos.2 (by positivity)
  apply inv_anti₀ h1
  apply Real.sqrt_le_sqrt
  nlinarith

theorem arctan_lip (a b : ℝ) : |Real.arctan a - Real.arctan b| ≤ |a - b| := by
  have := Convex.norm_image_sub_le_of_norm_deriv_le (f := Real.arctan) (s := Set.univ) (C := 1) (x := b) (y := a) (fun x _ => Real.differentiable_arctan x)
    (fun x _ => by
      rw [Real.deriv_arctan, Real.norm_eq_abs, abs_of_pos (by positivity), div_le_one (by positivity)]
      nlinarith [sq_nonneg x]) convex_univ trivial trivial
  simpa [Real.norm_eq_abs] using this

theorem arsinh_lip (a b : ℝ) : |Real.arsinh a - Real.arsinh b| ≤ |a - b| := by
  have := Convex.norm_image_sub_le_of_norm_deriv_le (f := Real.arsinh) (s := Set.univ) (C := 1) (x := b) (y := a) (fun x _ => Real.differentiable_arsinh x)
    (fun x _ => by
      rw [(Real.hasDerivAt_arsinh x).deriv, Real.norm_eq_abs, abs_of_pos (by positivity)]
      apply inv_le_one_of_one_le₀
      rw [Real.one_le_sqrt]
      nlinarith [sq_nonneg x]) convex_univ trivial trivial
  simpa [Real.norm_eq_abs] using this

theorem AbsOk.lip {k : ℕ} {x x' : ℝ} {f : ℝ → ℝ} (hf : ∀ a b, |f a - f b| ≤ |a - b|) (h : AbsOk u k x x') : AbsOk u k (f x) (f x') :=
  le_trans (mul_le_mul_of_nonneg_right (hf _ _) rS_pos.le) h

end
end
end Verif.Norm
