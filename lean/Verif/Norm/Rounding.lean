import Verif.Norm.Check2
import Verif.Spec.Rounding
/-!
# Checking a property up to the rounding of literals

`Fix` is a table of replacements; an entry `⟨m, k, d, m'⟩` turns the literal `m * 10^(-k)` into `m' * 10^(-k-d)`.
-/
namespace Verif.Norm
open Verif.Py Verif.Model Verif.Spec

/-- One replacement of a literal `m * 10^(-k)` by `m' * 10^(-k-d)`. -/
structure Fix where
  m : ℕ
  k : ℕ
  d : ℕ
  m' : ℕ

/-- The function given by a table. -/
def fixes : List Fix → ℕ → ℤ → ℕ × ℤ
  | [], m, e => (m, e)
  | x :: xs, m, e => if m = x.m ∧ e = -(x.k : ℤ) then (x.m', -((x.k + x.d : ℕ) : ℤ)) else fixes xs m e

/-- Every entry moves its literal by at most one part in 10^17. -/
def small (xs : List Fix) : Bool :=
  xs.all fun x => decide ((x.m' - x.m * 10 ^ x.d) * 10 ^ 17 ≤ x.m * 10 ^ x.d) && decide ((x.m * 10 ^ x.d - x.m') * 10 ^ 17 ≤ x.m * 10 ^ x.d)

theorem small_sound {xs : List Fix} (h : small xs = true) (m : ℕ) (e : ℤ) :
    |litVal (fixes xs m e) - litVal (m, e)| ≤ (10 : ℝ) ^ (-17 : ℤ) * litVal (m, e) := by
  induction xs with
  | nil => simp only [fixes, sub_self, abs_zero, litVal]; positivity
  | cons x xs ih =>
    simp only [small, List.all_cons, Bool.and_eq_true, decide_eq_true_eq] at h
    simp only [fixes]
    split
    · rename_i hx
      obtain ⟨rfl, rfl⟩ := hx
      have hd : (10 : ℝ) ^ (-(x.k : ℤ)) = 10 ^ x.d * (10 : ℝ) ^ (-((x.k + x.d : ℕ) : ℤ)) := by
        rw [← zpow_natCast, ← zpow_add₀ (by norm_num)]; congr 1; push_cast; ring
      simp only [litVal, hd]
      set t : ℝ := (10 : ℝ) ^ (-((x.k + x.d : ℕ) : ℤ)) with ht
      have ht0 : 0 < t := by positivity
      obtain ⟨⟨h1, h2⟩, -⟩ := h
      generalize hy : x.m * 10 ^ x.d = y at h1 h2
      have hy' : (x.m : ℝ) * (10 ^ x.d * t) = y * t := by rw [← hy]; push_cast; ring
      rw [hy', ← sub_mul, abs_mul, abs_of_pos ht0, ← mul_assoc]
      refine mul_le_mul_of_nonneg_right ?_ ht0.le
      have h1' : ((x.m' : ℝ) - y) * 10 ^ 17 ≤ y := by
        have : (x.m' : ℝ) - y ≤ ((x.m' - y : ℕ) : ℝ) := by
          rw [sub_le_iff_le_add]; exact_mod_cast (le_tsub_add)
        calc ((x.m' : ℝ) - y) * 10 ^ 17 ≤ ((x.m' - y : ℕ) : ℝ) * 10 ^ 17 := by gcongr
          _ ≤ (y : ℝ) := by exact_mod_cast h1
      have h2' : ((y : ℝ) - x.m') * 10 ^ 17 ≤ y := by
        have : (y : ℝ) - x.m' ≤ ((y - x.m' : ℕ) : ℝ) := by
          rw [sub_le_iff_le_add]; exact_mod_cast (le_tsub_add)
        calc ((y : ℝ) - x.m') * 10 ^ 17 ≤ ((y - x.m' : ℕ) : ℝ) * 10 ^ 17 := by gcongr
          _ ≤ (y : ℝ) := by exact_mod_cast h2
      rw [abs_le]
      have : (10 : ℝ) ^ (-17 : ℤ) * y = y / 10 ^ 17 := by
        rw [show (-17 : ℤ) = -((17 : ℕ) : ℤ) by norm_num, zpow_neg, zpow_natCast]; field_simp
      rw [this]
      constructor
      · rw [neg_le, neg_sub, le_div_iff₀ (by positivity)]; exact h2'
      · rw [le_div_iff₀ (by positivity)]; exact h1'
    · exact ih h.2

/-- A property of the code with replaced literals. -/
theorem upTo_of {Q : Formula → Prop} {f : Formula} (xs : List Fix) (hs : small xs = true) (h : Q (reFormula (fixes xs) f)) : UpToLiterals Q f :=
  ⟨fixes xs, small_sound hs, h⟩

end Verif.Norm
