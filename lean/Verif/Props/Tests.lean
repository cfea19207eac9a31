import Verif.Spec.Tests
import Verif.Norm.Published
import Verif.Props.LiteratureBounds
import Mathlib.MeasureTheory.Integral.Gamma
import Mathlib.Analysis.SpecialFunctions.Gaussian.GaussianIntegral
import Mathlib.Analysis.Complex.ExponentialBounds
/-!
# C65, C66: the tests
-/
namespace Verif.Props
open Verif.Py Verif.Model Verif.Spec Verif.Data Verif.Lib Verif.Norm MeasureTheory
noncomputable section

set_option maxRecDepth 100000

/-! ## C65: Gaussian type orbitals -/

theorem perm2nn_succ (n : ℕ) : perm2nn (n + 1) = 2 * (2 * n + 1) * perm2nn n := by
  have a := Nat.factorial_mul_descFactorial (show n ≤ 2 * n by omega)
  have b := Nat.factorial_mul_descFactorial (show n + 1 ≤ 2 * (n + 1) by omega)
  rw [show 2 * n - n = n by omega] at a
  rw [show 2 * (n + 1) - (n + 1) = n + 1 by omega] at b
  have : (2 * (n + 1)).descFactorial (n + 1) = 2 * (2 * n + 1) * (2 * n).descFactorial n := by
    refine Nat.eq_of_mul_eq_mul_left (Nat.factorial_pos (n + 1)) ?_
    rw [b, show 2 * (n + 1) = 2 * n + 1 + 1 by ring, Nat.factorial_succ, Nat.factorial_succ, ← a, Nat.factorial_succ n]
    ring
  rw [perm2nn, perm2nn, this]
  push_cast
  ring

theorem perm2nn_pos (n : ℕ) : 0 < perm2nn n := by
  induction n with
  | zero => simp [perm2nn]
  | succ n ih => rw [perm2nn_succ]; positivity

theorem gamma_half (n : ℕ) : Real.Gamma (n + 1 / 2) = perm2nn n * Real.sqrt Real.pi / 4 ^ n := by
  induction n with
  | zero => simpa [perm2nn] using Real.Gamma_one_half_eq
  | succ n ih =>
    rw [show ((n + 1 : ℕ) : ℝ) + 1 / 2 = (n + 1 / 2) + 1 by push_cast; ring, Real.Gamma_add_one (by positivity), ih, perm2nn_succ, pow_succ]
    field_simp
    ring

theorem gauss_moment {b : ℝ} (hb : 0 < b) (n : ℕ) :
    ∫ x : ℝ, x ^ (2 * n) * Real.exp (-b * x ^ 2) = perm2nn n / (4 * b) ^ n * Real.sqrt (Real.pi / b) := by
  have h1 := integral_comp_abs (f := fun x => x ^ (2 * n) * Real.exp (-b * x ^ 2))
  have h2 : ∀ x : ℝ, |x| ^ (2 * n) * Real.exp (-b * |x| ^ 2) = x ^ (2 * n) * Real.exp (-b * x ^ 2) := fun x => by
    rw [pow_mul, sq_abs, ← pow_mul]
  simp only [h2] at h1
  have h3 := integral_rpow_mul_exp_neg_mul_rpow (p := 2) (q := 2 * n) (by norm_num) (by have : (0 : ℝ) ≤ n := n.cast_nonneg; linarith) hb
  have h4 : ∫ x in Set.Ioi (0 : ℝ), x ^ (2 * n) * Real.exp (-b * x ^ 2) = ∫ x in Set.Ioi (0 : ℝ), x ^ (2 * n : ℝ) * Real.exp (-b * x ^ (2 : ℝ)) := by
    refine setIntegral_congr_fun measurableSet_Ioi fun x _ => ?_
    rw [Real.rpow_two, show (2 * n : ℝ) = ((2 * n : ℕ) : ℝ) by push_cast; rfl, Real.rpow_natCast]
  rw [h1, h4, h3, show ((2 * n : ℝ) + 1) / 2 = n + 1 / 2 by ring, show (-(2 * n + 1 : ℝ)) / 2 = -(n : ℝ) + -(1 / 2) by ring, gamma_half, Real.rpow_add hb,
    Real.rpow_neg hb.le, Real.rpow_neg hb.le, Real.rpow_natCast, ← Real.sqrt_eq_rpow, Real.sqrt_div Real.pi_pos.le, mul_pow]
  have : 0 < Real.sqrt b := Real.sqrt_pos.mpr hb
  field_simp

/-- The value that `gto` returns. -/
def gtoC (α : ℝ) (l : Fin 3 → ℕ) : ℝ := (2 * α / Real.pi) ^ (3 / 4 : ℝ) * Real.sqrt ((8 * α) ^ (∑ i, l i) / ∏ i, perm2nn (l i))

theorem gto_eq (c : Fin 3 → ℝ) (α : ℝ) (l : Fin 3 → ℕ) (hl : ∀ i, l i < 50) :
    gto c α l = .ok fun r => gtoC α l * ∏ i, (r i - c i) ^ l i * Real.exp (-α * (r i - c i) ^ 2) := by
  rw [gto, if_pos hl]
  refine congrArg Except.ok ?_
  funext r
  simp only
  rw [Real.sq_sqrt (Finset.sum_nonneg fun i _ => sq_nonneg _), Finset.mul_sum, Real.exp_sum, Finset.prod_mul_distrib, gtoC]
  ring

theorem gtoC_pos {α : ℝ} (hα : 0 < α) (l : Fin 3 → ℕ) : 0 < gtoC α l := by
  have : 0 < ∏ i, perm2nn (l i) := Finset.prod_pos fun i _ => perm2nn_pos _
  unfold gtoC
  have := Real.pi_pos
  positivity

/-- C65: the function that `gto` returns is a Cartesian Gaussian of norm 1. -/
theorem c65_gto (c : Fin 3 → ℝ) (α : ℝ) (l : Fin 3 → ℕ) (hα : 0 < α) (hl : ∀ i, l i < 50) :
    ∃ φ, gto c α l = .ok φ ∧ CartesianGaussian c α l φ ∧ overlap φ φ = 1 := by
  refine ⟨_, gto_eq c α l hl, ⟨gtoC α l, gtoC_pos hα l, fun r => ?_⟩, ?_⟩
  · simp only [Fin.prod_univ_three]
    rw [show -(α * ((r 0 - c 0) ^ 2 + (r 1 - c 1) ^ 2 + (r 2 - c 2) ^ 2)) = -α * (r 0 - c 0) ^ 2 + -α * (r 1 - c 1) ^ 2 + -α * (r 2 - c 2) ^ 2 by ring,
      Real.exp_add, Real.exp_add]
    ring
  · unfold overlap
    have e : ∀ r : Fin 3 → ℝ, (gtoC α l * ∏ i, (r i - c i) ^ l i * Real.exp (-α * (r i - c i) ^ 2)) * (gtoC α l * ∏ i, (r i - c i) ^ l i * Real.exp (-α * (r i - c i) ^ 2)) =
        gtoC α l ^ 2 * ∏ i, (fun x => (x - c i) ^ (2 * l i) * Real.exp (-(2 * α) * (x - c i) ^ 2)) (r i) := fun r => by
      rw [mul_mul_mul_comm, ← Finset.prod_mul_distrib, sq]
      congr 1
      refine Finset.prod_congr rfl fun i _ => ?_
      simp only
      rw [mul_mul_mul_comm, ← Real.exp_add, ← pow_add]
      congr 2 <;> ring
    simp only [e]
    rw [integral_const_mul, integral_fintype_prod_volume_eq_prod (fun i x => (x - c i) ^ (2 * l i) * Real.exp (-(2 * α) * (x - c i) ^ 2))]
    have m : ∀ i, ∫ x : ℝ, (x - c i) ^ (2 * l i) * Real.exp (-(2 * α) * (x - c i) ^ 2) = perm2nn (l i) / (8 * α) ^ l i * Real.sqrt (Real.pi / (2 * α)) := fun i => by
      rw [integral_sub_right_eq_self (fun x : ℝ => x ^ (2 * l i) * Real.exp (-(2 * α) * x ^ 2)) (c i), gauss_moment (by linarith)]
      ring_nf
    simp only [m]
    have hp : 0 < ∏ i, perm2nn (l i) := Finset.prod_pos fun i _ => perm2nn_pos _
    have h8 : 0 < (8 * α) ^ (∑ i, l i) := by positivity
    rw [Finset.prod_mul_distrib, Finset.prod_div_distrib, Finset.prod_pow_eq_pow_sum, Finset.prod_const, Finset.card_univ, Fintype.card_fin, gtoC, mul_pow,
      Real.sq_sqrt (by positivity)]
    have q : ((2 * α / Real.pi) ^ (3 / 4 : ℝ)) ^ 2 = Real.sqrt (2 * α / Real.pi) ^ 3 := by
      rw [← Real.rpow_natCast, ← Real.rpow_mul (by positivity), Real.sqrt_eq_rpow, ← Real.rpow_natCast, ← Real.rpow_mul (by positivity)]
      norm_num
    have s : Real.sqrt (2 * α / Real.pi) * Real.sqrt (Real.pi / (2 * α)) = 1 := by
      rw [← Real.sqrt_mul (by positivity), div_mul_div_comm, mul_comm, div_self (by positivity), Real.sqrt_one]
    rw [q]
    calc _ = (Real.sqrt (2 * α / Real.pi) * Real.sqrt (Real.pi / (2 * α))) ^ 3 * ((8 * α) ^ (∑ i, l i) / (8 * α) ^ (∑ i, l i)) * ((∏ i, perm2nn (l i)) / ∏ i, perm2nn (l i)) := by
          ring
      _ = 1 := by rw [s, div_self h8.ne', div_self hp.ne']; norm_num

/-- C65: two of them with the same centre are orthogonal if they differ in parity along an axis. -/
theorem c65_orthogonal (c : Fin 3 → ℝ) (α β : ℝ) (l m : Fin 3 → ℕ) (hl : ∀ i, l i < 50) (hm : ∀ i, m i < 50) (h : ∃ i, Odd (l i + m i)) :
    ∃ φ ψ, gto c α l = .ok φ ∧ gto c β m = .ok ψ ∧ overlap φ ψ = 0 := by
  refine ⟨_, _, gto_eq c α l hl, gto_eq c β m hm, ?_⟩
  unfold overlap
  have e : ∀ r : Fin 3 → ℝ, (gtoC α l * ∏ i, (r i - c i) ^ l i * Real.exp (-α * (r i - c i) ^ 2)) * (gtoC β m * ∏ i, (r i - c i) ^ m i * Real.exp (-β * (r i - c i) ^ 2)) =
      gtoC α l * gtoC β m * ∏ i, (fun x => (x - c i) ^ (l i + m i) * Real.exp (-(α + β) * (x - c i) ^ 2)) (r i) := fun r => by
    rw [mul_mul_mul_comm, ← Finset.prod_mul_distrib]
    congr 1
    refine Finset.prod_congr rfl fun i _ => ?_
    simp only
    rw [mul_mul_mul_comm, ← Real.exp_add, ← pow_add]
    congr 2
    ring
  simp only [e]
  rw [integral_const_mul, integral_fintype_prod_volume_eq_prod (fun i x => (x - c i) ^ (l i + m i) * Real.exp (-(α + β) * (x - c i) ^ 2))]
  obtain ⟨i, hi⟩ := h
  rw [Finset.prod_eq_zero (Finset.mem_univ i), mul_zero]
  rw [integral_sub_right_eq_self (fun x : ℝ => x ^ (l i + m i) * Real.exp (-(α + β) * x ^ 2)) (c i)]
  have a := integral_neg_eq_self (fun x : ℝ => x ^ (l i + m i) * Real.exp (-(α + β) * x ^ 2)) volume
  simp only [hi.neg_pow, neg_mul, even_two, Even.neg_pow] at a ⊢
  rw [integral_neg] at a
  linarith

/-- C65: `IndexError` exactly if an entry of `angular` is beyond the table. -/
theorem c65_raises (c : Fin 3 → ℝ) (α : ℝ) (l : Fin 3 → ℕ) : gto c α l = .error .indexError ↔ ∃ i, 50 ≤ l i := by
  by_cases h : ∀ i, l i < 50
  · rw [gto_eq c α l h]
    simpa using h
  · rw [gto, if_neg h]
    simpa using h

/-- A `p` orbital, whose value at `(1, 0, 0)` is not zero. -/
example : ∃ φ, gto 0 1 ![1, 0, 0] = .ok φ ∧ overlap φ φ = 1 ∧ 0 < φ ![1, 0, 0] := by
  obtain ⟨φ, a, ⟨C, hC, b⟩, d⟩ := c65_gto 0 1 ![1, 0, 0] one_pos (by intro i; fin_cases i <;> norm_num)
  refine ⟨φ, a, d, ?_⟩
  rw [b]
  have := Real.exp_pos (-(1 * ((![(1 : ℝ), 0, 0] 0 - (0 : Fin 3 → ℝ) 0) ^ 2 + (![(1 : ℝ), 0, 0] 1 - (0 : Fin 3 → ℝ) 1) ^ 2 + (![(1 : ℝ), 0, 0] 2 - (0 : Fin 3 → ℝ) 2) ^ 2)))
  refine mul_pos (mul_pos hC ?_) this
  simp

/-! ## C66: what the tests reach -/

theorem sqrt_two_pi_lt : Real.sqrt (2 * Real.pi) ≤ 251 / 100 := by
  rw [Real.sqrt_le_iff]
  exact ⟨by norm_num, by nlinarith [Real.pi_lt_d2]⟩

theorem sqrt_two_pi_gt : 5 / 2 ≤ Real.sqrt (2 * Real.pi) := by
  refine Real.le_sqrt_of_sq_le ?_
  nlinarith [Real.pi_gt_d2]

theorem exp_nine_half : Real.exp (9 / 2) ≤ 91 := by
  refine le_of_sq_le_sq ?_ (by norm_num)
  rw [← Real.exp_nat_mul, show ((2 : ℕ) : ℝ) * (9 / 2) = ((9 : ℕ) : ℝ) * 1 by norm_num, Real.exp_nat_mul]
  calc Real.exp 1 ^ 9 ≤ (2.7182818286 : ℝ) ^ 9 := pow_le_pow_left₀ (Real.exp_pos _).le Real.exp_one_lt_d9.le 9
    _ ≤ 91 ^ 2 := by norm_num

theorem normPdf_bounds {x : ℝ} (h : -3 ≤ x ∧ x < 3) : 1 / (91 * (251 / 100)) ≤ normPdf x ∧ normPdf x ≤ 2 / 5 := by
  have s1 := sqrt_two_pi_lt
  have s2 := sqrt_two_pi_gt
  have hx : x ^ 2 ≤ 9 := by nlinarith
  constructor
  · rw [normPdf, div_le_div_iff₀ (by norm_num) (by linarith)]
    have : 1 / 91 ≤ Real.exp (-x ^ 2 / 2) := by
      refine le_trans ?_ (Real.exp_le_exp.mpr (show -(9 / 2) ≤ -x ^ 2 / 2 by linarith))
      rw [Real.exp_neg, ← one_div]
      exact one_div_le_one_div_of_le (Real.exp_pos _) exp_nine_half
    nlinarith
  · rw [normPdf, div_le_div_iff₀ (by linarith) (by norm_num)]
    have : Real.exp (-x ^ 2 / 2) ≤ 1 := Real.exp_le_one_iff.mpr (by nlinarith [sq_nonneg x])
    nlinarith

theorem cauchyPdf_bounds {x : ℝ} (h : -3 ≤ x ∧ x < 3) : 1 / 32 ≤ cauchyPdf x ∧ cauchyPdf x ≤ 1 / 3 := by
  have hx : x ^ 2 ≤ 9 := by nlinarith
  have h0 := sq_nonneg x
  have p1 := Real.pi_lt_d2
  have p2 := Real.pi_gt_three
  constructor
  · exact one_div_le_one_div_of_le (by positivity) (by nlinarith)
  · exact one_div_le_one_div_of_le (by norm_num) (by nlinarith)

theorem rho1_bounds {r : Coord 3} (h : TestPoint r) : 8 / 10 ^ 8 ≤ rho1.ent r [] ∧ rho1.ent r [] ≤ 64 / 1000 := by
  simp only [rho1, Fin.prod_univ_three]
  obtain ⟨a0, b0⟩ := normPdf_bounds (h 0)
  obtain ⟨a1, b1⟩ := normPdf_bounds (h 1)
  obtain ⟨a2, b2⟩ := normPdf_bounds (h 2)
  have q : (0 : ℝ) < 1 / (91 * (251 / 100)) := by norm_num
  constructor
  · refine le_trans ?_ (mul_le_mul (mul_le_mul a0 a1 q.le (q.le.trans a0)) a2 q.le (mul_nonneg (q.le.trans a0) (q.le.trans a1)))
    norm_num
  · refine (mul_le_mul (mul_le_mul b0 b1 (q.le.trans a1) (by norm_num)) b2 (q.le.trans a2) (by norm_num)).trans ?_
    norm_num

theorem rho2_bounds {r : Coord 3} (h : TestPoint r) : 3 / 10 ^ 5 ≤ rho2.ent r [] ∧ rho2.ent r [] ≤ 1 / 27 := by
  simp only [rho2, Fin.prod_univ_three]
  obtain ⟨a0, b0⟩ := cauchyPdf_bounds (h 0)
  obtain ⟨a1, b1⟩ := cauchyPdf_bounds (h 1)
  obtain ⟨a2, b2⟩ := cauchyPdf_bounds (h 2)
  have q : (0 : ℝ) < 1 / 32 := by norm_num
  constructor
  · refine le_trans ?_ (mul_le_mul (mul_le_mul a0 a1 q.le (q.le.trans a0)) a2 q.le (mul_nonneg (q.le.trans a0) (q.le.trans a1)))
    norm_num
  · refine (mul_le_mul (mul_le_mul b0 b1 (q.le.trans a1) (by norm_num)) b2 (q.le.trans a2) (by norm_num)).trans ?_
    norm_num

theorem test_unscreened {p : Model.Rec} (hp : SmallThresholds p) {r : Coord 3} (h : TestPoint r) : Unscreened p (rho1.ent r []) (rho2.ent r []) := by
  obtain ⟨a, b⟩ := rho1_bounds h
  obtain ⟨c, d⟩ := rho2_bounds h
  have h1 := hp.dens_le
  have h2 := hp.zeta_le
  have h3 := hp.zeta
  refine ⟨by norm_num at h2 ⊢; linarith, by norm_num at h1 a ⊢; linarith, by norm_num at h1 c ⊢; linarith, ?_, ?_⟩
  · have : p.fld .zetaThreshold * (rho1.ent r [] + rho2.ent r []) ≤ 1 / 10 ^ 6 * (64 / 1000 + 1 / 27) := mul_le_mul h2 (by linarith) (by norm_num at a c; linarith) (by norm_num)
    norm_num at this a ⊢
    linarith
  · have : p.fld .zetaThreshold * (rho1.ent r [] + rho2.ent r []) ≤ 1 / 10 ^ 6 * (64 / 1000 + 1 / 27) := mul_le_mul h2 (by linarith) (by norm_num at a c; linarith) (by norm_num)
    norm_num at this c ⊢
    linarith

/-- C66: whatever arguments `rho_to_arguments` makes of the densities of `test_against_libxc` at its points, none of them reaches a threshold. -/
theorem c66_points {p : PInfo} (hp : SmallThresholds p.vals) {r : Coord 3} (h : TestPoint r) (mo : Option (Callable 3 ℂ)) (d : Option ℝ) (args : List AVal) :
    (rhoToArguments p (.ok rho3) r mo d = .ok args → ∃ a b rest, args = .vec2 a b :: rest ∧ 0 < a ∧ 0 < b ∧ Unscreened p.vals a b) ∧
      (rhoToArguments p (.ok rho1) r mo d = .ok args → ∃ n rest, args = .scal n :: rest ∧ 0 < n ∧ p.vals.fld .densThreshold < n / 2) := by
  obtain ⟨a, b⟩ := rho1_bounds h
  obtain ⟨c, _⟩ := rho2_bounds h
  constructor
  · intro e
    have key : ∃ rest, args = .vec2 (rho3.ent r [0]) (rho3.ent r [1]) :: rest := by
      have hsh : rho3.shape = [2] := rfl
      simp only [rhoToArguments, bind, Except.bind, hsh, decide_true, if_true] at e
      repeat' split at e
      all_goals first
        | cases e; done
        | (injection e with e; exact ⟨_, e.symm⟩)
    obtain ⟨rest, rfl⟩ := key
    exact ⟨_, _, rest, rfl, lt_of_lt_of_le (by norm_num) a, lt_of_lt_of_le (by norm_num) c, test_unscreened hp h⟩
  · intro e
    have key : ∃ rest, args = .scal (rho1.ent r []) :: rest := by
      have hsh : rho1.shape = [] := rfl
      have hno : decide (([] : List ℕ) = [2]) = false := rfl
      simp only [rhoToArguments, bind, Except.bind, hsh, hno, Bool.false_eq_true, if_false] at e
      repeat' split at e
      all_goals first
        | cases e; done
        | (injection e with e; exact ⟨_, e.symm⟩)
    obtain ⟨rest, rfl⟩ := key
    refine ⟨_, rest, rfl, lt_of_lt_of_le (by norm_num) a, ?_⟩
    have := hp.dens_le
    norm_num at this a ⊢
    linarith

/-- C66: so `test_against_libxc` cannot see an error in what a formula does at or below a threshold. -/
theorem c66_blind {fam : Fam} {f g : Formula} (h : AgreeAbove fam f g) : SameInTest fam f g where
  polarized P p r s0 s1 s2 l0 l1 t0 t1 hp hr hs0 hs2 ht0 ht1 :=
    h.polarized P p _ _ s0 s1 s2 l0 l1 t0 t1 hp.toThresholds (lt_of_lt_of_le (by norm_num) (rho1_bounds hr).1) (lt_of_lt_of_le (by norm_num) (rho2_bounds hr).1) hs0 hs2 ht0 ht1
      (test_unscreened hp hr)
  unpolarized P p r σ l τ hp hr hσ hτ := by
    have a := (rho1_bounds hr).1
    have h1 := hp.dens_le
    have h2 := hp.zeta_le
    refine h.unpolarized P p _ σ l τ hp.toThresholds (lt_of_lt_of_le (by norm_num) a) hσ hτ ?_ ?_
    · norm_num at h2 ⊢; linarith
    · norm_num at h1 a ⊢; linarith

/- `lda_x` (`gen_repo/impl/prebuilt/{pol,unpol}/lda_x.py`) with errors in all branches that a threshold selects. -/
formula lda_x_wrong pol "t2 = 3 ** (0.1e1 / 0.3e1)
t3 = math.pi ** (0.1e1 / 0.3e1)
t5 = t2 / t3
t6 = r0 + r1
t7 = 0.1e1 / t6
t8 = r0 * t7
t12 = p_a_zeta_threshold
t13 = 2 ** (0.1e1 / 0.3e1)
t15 = t8 ** (0.1e1 / 0.3e1)
t19 = lax_cond(0.2e1 * t8 <= p_a_zeta_threshold, t12, 0.2e1 * t13 * r0 * t7 * t15)
t20 = t6 ** (0.1e1 / 0.3e1)
t24 = lax_cond(r0 <= p_a_dens_threshold, 1, -0.3e1 / 0.8e1 * t5 * t19 * t20)
t27 = r1 * t7
t31 = t27 ** (0.1e1 / 0.3e1)
t35 = lax_cond(0.2e1 * t27 <= p_a_zeta_threshold, t12, 0.2e1 * t13 * r1 * t7 * t31)
t39 = lax_cond(r1 <= p_a_dens_threshold, 1, -0.3e1 / 0.8e1 * t5 * t35 * t20)
res = params_a_alpha * t24 + params_a_alpha * t39" unpol "t3 = 3 ** (0.1e1 / 0.3e1)
t4 = math.pi ** (0.1e1 / 0.3e1)
t10 = lax_cond(0.1e1 <= p_a_zeta_threshold, p_a_zeta_threshold, 1)
t11 = r0 ** (0.1e1 / 0.3e1)
t15 = lax_cond(r0 / 0.2e1 <= p_a_dens_threshold, 1, -0.3e1 / 0.8e1 * t3 / t4 * t10 * t11)
res = 0.2e1 * params_a_alpha * t15"

theorem agreeAbove_of {cap : Nat} {fam : Fam} {f g : Formula} (h : pubPol cap fam f.polBody g.polBody = true) (h' : pubUnpol cap fam f.unpolBody g.unpolBody = true) :
    AgreeAbove fam f g where
  polarized P p r0 r1 s0 s1 s2 l0 l1 t0 t1 ht h0 h1 hs0 hs2 ht0 ht1 hu := by
    obtain ⟨x, a, b⟩ := pubPol_of h P p r0 r1 s0 s1 s2 l0 l1 t0 t1 ht h0 h1 hs0 hs2 ht0 ht1 hu
    exact a.trans b.symm
  unpolarized P p ρ σ l τ ht hρ hσ hτ hz hd := by
    obtain ⟨x, a, b⟩ := pubUnpol_of h' P p ρ σ l τ ht hρ hσ hτ hz hd
    exact a.trans b.symm

theorem lda_x_wrong_screened (P : Prims) (p : Model.Rec) (n : ℝ) (h : n / 2 ≤ p.fld .densThreshold) : lda_x_wrong.unpol P p n none none none = .ok (2 * p.param 418431133793) := by
  have : lda_x_wrong.unpol P p n none none none = .ok (
    let t3 := fn1Val P .cbrt (N 3 0)
    let t4 := fn1Val P .cbrt Real.pi
    let t10 := cnd (N 1 0 ≤ p.fld .zetaThreshold) (p.fld .zetaThreshold) (N 1 0)
    let t11 := fn1Val P .cbrt n
    let t15 := cnd (n / N 2 0 ≤ p.fld .densThreshold) (N 1 0) (-N 3 0 / N 8 0 * t3 / t4 * t10 * t11)
    N 2 0 * p.param 418431133793 * t15) := by kernel_rfl
  rw [this]
  simp [N, h]

/-- C66: such an error.  The test cannot see it, although the energies differ at every density at or below the threshold (if `alpha ≠ 0`). -/
theorem c66_wrong : SameInTest .lda lda_x_wrong lda_x ∧
    ∀ (P : Prims) (p : Model.Rec) (n : ℝ), n / 2 ≤ p.fld .densThreshold → p.param 418431133793 ≠ 0 →
      lda_x_wrong.unpol P p n none none none ≠ lda_x.unpol P p n none none none := by
  refine ⟨c66_blind (agreeAbove_of (cap := 1) (by decide +kernel) (by decide +kernel)), fun P p n h ha e => ?_⟩
  rw [lda_x_wrong_screened P p n h, lda_x_screened P p n h] at e
  have := Except.ok.inj e
  exact ha (by linarith)

theorem normPdf_small {x : ℝ} (h : 8 ≤ x) : normPdf x ≤ 1 / 10 ^ 12 := by
  have s2 := sqrt_two_pi_gt
  rw [normPdf, div_le_div_iff₀ (by linarith) (by norm_num)]
  have a : (10 : ℝ) ^ 13 ≤ Real.exp 32 := by
    rw [show (32 : ℝ) = ((32 : ℕ) : ℝ) * 1 by norm_num, Real.exp_nat_mul]
    calc (10 : ℝ) ^ 13 ≤ (2.7182818283 : ℝ) ^ 32 := by norm_num
      _ ≤ Real.exp 1 ^ 32 := pow_le_pow_left₀ (by norm_num) Real.exp_one_gt_d9.le 32
  have b : Real.exp (-x ^ 2 / 2) ≤ 1 / 10 ^ 13 := by
    refine (Real.exp_le_exp.mpr (show -x ^ 2 / 2 ≤ -32 by nlinarith)).trans ?_
    rw [Real.exp_neg, ← one_div]
    exact one_div_le_one_div_of_le (by norm_num) a
  have : Real.exp (-x ^ 2 / 2) * 10 ^ 12 ≤ 1 / 10 ^ 13 * 10 ^ 12 := mul_le_mul_of_nonneg_right b (by norm_num)
  refine this.trans ?_
  rw [one_mul]
  exact le_trans (by norm_num) s2

/-- C66: `test_grad` looks only at points where the density is below the threshold: the energy of `lda_x` is constant around them, so the gradient is zero. -/
theorem c66_grad (P : Prims) (p : Model.Rec) (hp : 1 / 10 ^ 36 ≤ p.fld .densThreshold) (r : Coord 3) (hr : r ∈ gradPoints) :
    ∃ e : Coord 3 → ℝ, (∀ x, lda_x.unpol P p (rho1.ent x []) none none none = .ok (e x)) ∧ HasFDerivAt e (0 : Coord 3 →L[ℝ] ℝ) r := by
  refine ⟨fun x => lda_x_unpolExpr P p (rho1.ent x []), fun x => lda_x_unpolExpr_eq P p _, ?_⟩
  have h8 : ∀ i, 8 < r i := fun i => by
    simp only [gradPoints, List.mem_cons, List.not_mem_nil, or_false] at hr
    rcases hr with rfl | rfl <;> simp <;> norm_num
  have near : ∀ᶠ x in nhds r, ∀ i, 8 < x i := Filter.eventually_all.mpr fun i =>
    (isOpen_lt continuous_const (EuclideanSpace.proj (𝕜 := ℝ) i).continuous).mem_nhds (h8 i)
  refine (hasFDerivAt_const (0 : ℝ) r).congr_of_eventuallyEq (near.mono fun x hx => ?_)
  have n0 : ∀ y, 0 ≤ normPdf y := fun y => by unfold normPdf; positivity
  have small : rho1.ent x [] ≤ 1 / 10 ^ 36 := by
    simp only [rho1, Fin.prod_univ_three]
    refine (mul_le_mul (mul_le_mul (normPdf_small (hx 0).le) (normPdf_small (hx 1).le) (n0 _) (by norm_num)) (normPdf_small (hx 2).le) (n0 _) (by norm_num)).trans ?_
    norm_num
  have pos : 0 ≤ rho1.ent x [] := by simp only [rho1]; exact Finset.prod_nonneg fun i _ => n0 _
  have := lda_x_screened P p (rho1.ent x []) (by linarith)
  rw [lda_x_unpolExpr_eq] at this
  exact Except.ok.inj this

/-- Thresholds, a test point and a call that meet the hypotheses. -/
def smallVals : Model.Rec := ⟨fun f => match f with
  | .densThreshold => 1 / 10 ^ 15
  | .zetaThreshold => 1 / 2 ^ 52
  | _ => 0, fun _ => 1⟩

theorem smallVals_ok : SmallThresholds smallVals where
  dens := by simp [smallVals]
  zeta := by simp [smallVals]
  dens_le := by simp only [smallVals]; norm_num
  zeta_le := by simp only [smallVals]; norm_num

example : ∃ a b rest, rhoToArguments ⟨"lda_x", "lda_x", "lda", 2, smallVals, 0, 0, []⟩ (.ok rho3) (WithLp.toLp 2 fun _ => 1) none none = .ok (.vec2 a b :: rest) ∧
    Unscreened smallVals a b := by
  have h : TestPoint (WithLp.toLp 2 fun _ => 1) := fun i => by norm_num
  have e : rhoToArguments ⟨"lda_x", "lda_x", "lda", 2, smallVals, 0, 0, []⟩ (.ok rho3) (WithLp.toLp 2 fun _ => 1) none none =
      .ok [.vec2 (rho3.ent (WithLp.toLp 2 fun _ => 1) [0]) (rho3.ent (WithLp.toLp 2 fun _ => 1) [1])] := by
    simp [rhoToArguments, bind, Except.bind, rho3]
  obtain ⟨a, b, rest, rfl', _, _, u⟩ := (c66_points (p := ⟨"lda_x", "lda_x", "lda", 2, smallVals, 0, 0, []⟩) smallVals_ok h none none _).1 e
  exact ⟨a, b, rest, e.trans (congrArg _ rfl'), u⟩

/-- The two programs differ at this density. -/
example (P : Prims) : lda_x_wrong.unpol P smallVals (1 / 10 ^ 16) none none none ≠ lda_x.unpol P smallVals (1 / 10 ^ 16) none none none :=
  c66_wrong.2 P smallVals _ (by simp only [smallVals]; norm_num) (by simp [smallVals])

end
end Verif.Props
