import Verif.Props.RoundedForms
import Verif.Props.NotExchange
/-!
# C21, C37, C42 refuted where rounded constants or the total density make them fail
-/
namespace Verif.Props
open Verif.Py Verif.Model Verif.Spec Verif.Data Verif.Lib
noncomputable section
open Classical

set_option linter.unusedVariables false
set_option linter.unusedSimpArgs false

/-! ### `gga_xc_th3`: a rounded power of two -/

/-- Parameter `omega[18]` one, the others zero. -/
def th3Rec : Rec := ⟨fun _ => 1 / 10, fun n => if n = 2055471412572381591645 then 1 else 0⟩

example : nameCode "omega[18]" = 2055471412572381591645 := by decide +kernel

theorem th3_two_pow : (94387431268169349665 / 10 ^ 20) * (2 : ℝ) ^ (10833333333333333333 / 10 ^ 19 : ℝ) < 2 := by
  have h1 : (2 : ℝ) ^ (10833333333333333333 / 10 ^ 19 : ℝ) * (2 : ℝ) ^ (1 / (3 * 10 ^ 19) : ℝ) = 2 * (2 : ℝ) ^ ((12 : ℕ)⁻¹ : ℝ) := by
    have h : (10833333333333333333 / 10 ^ 19 + 1 / (3 * 10 ^ 19) : ℝ) = 1 + ((12 : ℕ)⁻¹ : ℝ) := by norm_num
    rw [← Real.rpow_add two_pos, h, Real.rpow_add two_pos, Real.rpow_one]
  have h2 : 1 + 69 / 100 * (1 / (3 * 10 ^ 19)) ≤ (2 : ℝ) ^ (1 / (3 * 10 ^ 19) : ℝ) := by
    rw [Real.rpow_def_of_pos two_pos]
    refine le_trans ?_ (Real.add_one_le_exp _)
    clear h1
    have := Real.log_two_gt_d9
    generalize Real.log 2 = x at this ⊢
    norm_num at this ⊢
    linarith
  have h3 : (2 : ℝ) ^ ((12 : ℕ)⁻¹ : ℝ) ≤ (1 + 68 / 100 * (1 / (3 * 10 ^ 19))) * (10 ^ 20 / 94387431268169349665) := by
    clear h1 h2
    refine le_of_pow_le_pow_left₀ (n := 12) (by norm_num) (by norm_num) ?_
    rw [Real.rpow_inv_natCast_pow (by norm_num) (by norm_num)]
    norm_num
  have h4 : 0 < (2 : ℝ) ^ (10833333333333333333 / 10 ^ 19 : ℝ) := Real.rpow_pos_of_pos (by norm_num) _
  generalize (2 : ℝ) ^ (10833333333333333333 / 10 ^ 19 : ℝ) = x at *
  generalize (2 : ℝ) ^ (1 / (3 * 10 ^ 19) : ℝ) = y at *
  generalize (2 : ℝ) ^ ((12 : ℕ)⁻¹ : ℝ) = z at *
  have : x * (1 + 69 / 100 * (1 / (3 * 10 ^ 19))) ≤ 2 * z := by rw [← h1]; exact mul_le_mul_of_nonneg_left h2 h4.le
  norm_num at *
  linarith

theorem gga_xc_th3_not_closedShellZ : ¬ ClosedShellZ .gga gga_xc_th3 := by
  intro h
  obtain ⟨e, k1, k2⟩ := h noPrims th3Rec 2 0 0 0 ⟨by norm_num [th3Rec], by norm_num [th3Rec]⟩ (by norm_num [th3Rec]) (by norm_num) le_rfl le_rfl
  have h1 := (gga_xc_th3_unpolExpr_eq _ _ _ _).symm.trans k1
  have h2 := (gga_xc_th3_polExpr_eq _ _ _ _ _ _ _).symm.trans k2
  injection h1 with h1
  injection h2 with h2
  have a1 : gga_xc_th3_unpolExpr noPrims th3Rec 2 0 = N 94387431268169349665 (-20) * (2 : ℝ) ^ N 10833333333333333333 (-19) / 2 := by
    simp [gga_xc_th3_unpolExpr, th3Rec]
    generalize (2 : ℝ) ^ N 10833333333333333333 (-19) = x
    norm_num [N]
    ring
  have b1 : N 94387431268169349665 (-20) = 94387431268169349665 / 10 ^ 20 := by norm_num [N]
  have b2 : N 10833333333333333333 (-19) = 10833333333333333333 / 10 ^ 19 := by norm_num [N]
  rw [b1, b2] at a1
  have a2 : gga_xc_th3_polExpr noPrims th3Rec (2 / 2) (2 / 2) (0 / 4) (0 / 4) (0 / 4) = 1 := by
    have : (2 / 2 : ℝ) = 1 := by norm_num
    rw [this]
    simp [gga_xc_th3_polExpr, th3Rec]
    norm_num [N]
  have h3 := th3_two_pow
  rw [a1] at h1
  rw [a2] at h2
  clear a1 a2 b1 b2 k1 k2
  revert h1 h3
  generalize (2 : ℝ) ^ (10833333333333333333 / 10 ^ 19 : ℝ) = x
  intro h1 h3
  linarith

/-! ### `lda_x_rel`: the relativistic factor is a function of the total density -/

/-- The bracket that is squared in the relativistic factor of `lda_x_rel`, as a function of the cube root of the density. -/
def relG (c : ℝ) : ℝ :=
  3 * (15226222180972388889 / 10 ^ 18) * cbrtR 3 ^ 2 / cbrtR Real.pi ^ 2 * Real.sqrt (1 + 3 * (17750451365686221606 / 10 ^ 24) * cbrtR 3 ^ 2 * cbrtR Real.pi ^ 4 * c ^ 2) / c -
    3 * (20865405771390201384 / 10 ^ 16) * cbrtR 3 / cbrtR Real.pi ^ 4 * Real.arsinh (3 * (24324508467583486202 / 10 ^ 22) * cbrtR 3 * cbrtR Real.pi ^ 2 * c) / c ^ 2

theorem cbrt9 : cbrtR 9 = cbrtR 3 ^ 2 := by
  have h := cbrtR_pos (x := 3) (by norm_num)
  have h3 := cbrtR_pow3 (x := 3) (by norm_num)
  rw [show (9 : ℝ) = (cbrtR 3 ^ 2) ^ 3 by rw [← pow_mul, mul_comm, pow_mul, h3]; norm_num, cbrtR_cube (by positivity)]

theorem cbrtPiInv : cbrtR (1 / Real.pi) = 1 / cbrtR Real.pi := by
  have h := cbrtR_pos Real.pi_pos
  have h3 := cbrtR_pow3 Real.pi_pos.le
  conv_lhs => rw [show 1 / Real.pi = (1 / cbrtR Real.pi) ^ 3 by rw [div_pow, h3, one_pow]]
  rw [cbrtR_cube (by positivity)]

/-- The relativistic factor in both files of `lda_x_rel` (`t40` to `t79` of the polarized one), as a function of `t20`. -/
def relFactor (P : Prims) (t20 : ℝ) : ℝ :=
  let t2 := (fn1Val P .cbrt (N 3 (0)))
  let t3 := (fn1Val P .cbrt Real.pi)
  let t4 := ((N 1 (0)) / t3)
  let t40 := (fn1Val P .cbrt (N 9 (0)))
  let t41 := (t40 ^ (N 2 (0)))
  let t42 := (t3 ^ (N 2 (0)))
  let t45 := (fn1Val P .cbrt ((N 1 (0)) / Real.pi))
  let t46 := (t45 ^ (N 2 (0)))
  let t49 := (t20 ^ (N 2 (0)))
  let t54 := (fn1Val P .sqrt ((N 1 (0)) + ((((((N 17750451365686221606 (-24)) * t41) * t42) * t2) / t46) * t49)))
  let t63 := (t2 ^ (N 2 (0)))
  let t69 := (fn1Val P .arcsinh ((((((N 24324508467583486202 (-22)) * t40) * t3) * t63) / t45) * t20))
  let t79 := (((((((((N 15226222180972388889 (-18)) * t54) * t41) * t4) * t2) * t45) / t20) - (((((((N 20865405771390201384 (-16)) * t69) * t40) / t42) * t63) * t46) / t49)) ^ (N 2 (0)))
  ((N 1 (0)) - ((N 15 (-1)) * t79))

theorem relFactor_eq (P : Prims) {c : ℝ} (hc : 0 < c) : relFactor P c = 1 - 3 / 2 * relG c ^ 2 := by
  have h3 := cbrtR_pow3 (x := 3) (by norm_num)
  have hs := cbrtR_pos Real.pi_pos
  have hq := cbrtR_pos (x := 3) (by norm_num)
  simp only [relFactor, fn1Val, N, relG]
  norm_num only [zpow_zero, mul_one, Nat.cast_one, Nat.cast_ofNat, Real.rpow_ofNat]
  rw [cbrt9, cbrtPiInv]
  generalize cbrtR 3 = q at *
  generalize cbrtR Real.pi = s at *
  have e1 : 8875225682843110803 / 500000000000000000000000 * (q ^ 2) ^ 2 * s ^ 2 * q / (1 / s) ^ 2 * c ^ 2 =
      26625677048529332409 / 500000000000000000000000 * q ^ 2 * s ^ 4 * c ^ 2 := by
    field_simp
    linear_combination 8875225682843110803 * h3
  have e2 : 12162254233791743101 / 5000000000000000000000 * q ^ 2 * s * q ^ 2 / (1 / s) * c = 36486762701375229303 / 5000000000000000000000 * q * s ^ 2 * c := by
    field_simp
    linear_combination (12162254233791743101) * h3
  rw [e1, e2]
  generalize √(1 + 26625677048529332409 / 500000000000000000000000 * q ^ 2 * s ^ 4 * c ^ 2) = X
  generalize Real.arsinh (36486762701375229303 / 5000000000000000000000 * q * s ^ 2 * c) = Y
  have e3 : 15226222180972388889 / 1000000000000000000 * X * (q ^ 2) ^ 2 * (1 / s) * q * (1 / s) / c - 2608175721423775173 / 1250000000000000 * Y * q ^ 2 / s ^ 2 * q ^ 2 * (1 / s) ^ 2 / c ^ 2 =
     (45678666542917166667 / 1000000000000000000 * q ^ 2 / s ^ 2 * X / c - 7824527164271325519 / 1250000000000000 * q / s ^ 4 * Y / c ^ 2) := by
    field_simp
    linear_combination (19032777726215486111250000000000000 * c * s ^ 2 * q * X - 2608175721423775173000000000000000000 * Y) * h3
  rw [e3]

/-- The constants of `lda_x_rel` in units in which the argument of the inverse hyperbolic sine is `b`. -/
theorem relG_eq {b : ℝ} (hb : 0 < b) : relG (b / (3 * (24324508467583486202 / 10 ^ 22) * cbrtR 3 * cbrtR Real.pi ^ 2)) =
    27 * (15226222180972388889 / 10 ^ 18) * (24324508467583486202 / 10 ^ 22) *
      Real.sqrt (1 + 17750451365686221606 / 10 ^ 24 / (3 * (24324508467583486202 / 10 ^ 22) ^ 2) * b ^ 2) / b -
    81 * (20865405771390201384 / 10 ^ 16) * (24324508467583486202 / 10 ^ 22) ^ 2 * Real.arsinh b / b ^ 2 := by
  have h3 := cbrtR_pow3 (x := 3) (by norm_num)
  have hs := cbrtR_pos Real.pi_pos
  have hq := cbrtR_pos (x := 3) (by norm_num)
  unfold relG
  generalize cbrtR 3 = q at *
  generalize cbrtR Real.pi = s at *
  have e1 : 3 * (17750451365686221606 / 10 ^ 24) * q ^ 2 * s ^ 4 * (b / (3 * (24324508467583486202 / 10 ^ 22) * q * s ^ 2)) ^ 2 =
      17750451365686221606 / 10 ^ 24 / (3 * (24324508467583486202 / 10 ^ 22) ^ 2) * b ^ 2 := by
    field_simp
  have e2 : 3 * (24324508467583486202 / 10 ^ 22) * q * s ^ 2 * (b / (3 * (24324508467583486202 / 10 ^ 22) * q * s ^ 2)) = b := by
    field_simp
  rw [e1, e2]
  generalize √(1 + 17750451365686221606 / 10 ^ 24 / (3 * (24324508467583486202 / 10 ^ 22) ^ 2) * b ^ 2) = X
  generalize Real.arsinh b = Y
  have e3 : 3 * (15226222180972388889 / 10 ^ 18) * q ^ 2 / s ^ 2 * X / (b / (3 * (24324508467583486202 / 10 ^ 22) * q * s ^ 2)) =
      27 * (15226222180972388889 / 10 ^ 18) * (24324508467583486202 / 10 ^ 22) * X / b := by
    field_simp
    linear_combination 9 * X * h3
  have e4 : 3 * (20865405771390201384 / 10 ^ 16) * q / s ^ 4 * Y / (b / (3 * (24324508467583486202 / 10 ^ 22) * q * s ^ 2)) ^ 2 =
      81 * (20865405771390201384 / 10 ^ 16) * (24324508467583486202 / 10 ^ 22) ^ 2 * Y / b ^ 2 := by
    field_simp
    linear_combination 27 * Y * h3
  rw [e3, e4]

/-- The unit of the cube root of the density for `lda_x_rel`. -/
def relB : ℝ := 3 * (24324508467583486202 / 10 ^ 22) * cbrtR 3 * cbrtR Real.pi ^ 2

theorem relB_pos : 0 < relB := by
  have hs := cbrtR_pos Real.pi_pos
  have hq := cbrtR_pos (x := 3) (by norm_num)
  unfold relB
  positivity

theorem arsinh_one_le : Real.arsinh 1 ≤ 9 / 10 := by
  rw [← Real.exp_le_exp, Real.exp_arsinh]
  have h1 := Real.sum_le_exp_of_nonneg (x := 9 / 10) (by norm_num) 6
  have h2 : √(1 + 1 ^ 2) ≤ 1415 / 1000 := by rw [Real.sqrt_le_left (by norm_num)]; norm_num
  norm_num [Finset.sum_range_succ, Nat.factorial] at h1 h2 ⊢
  linarith

theorem le_arsinh : 72 / 100 ≤ Real.arsinh (79 / 100) := by
  rw [← Real.exp_le_exp, Real.exp_arsinh]
  have h1 := Real.exp_bound' (x := 72 / 100) (by norm_num) (by norm_num) (n := 6) (by norm_num)
  have h2 : 1274 / 1000 ≤ √(1 + (79 / 100) ^ 2) := Real.le_sqrt_of_sq_le (by norm_num)
  norm_num [Finset.sum_range_succ, Nat.factorial] at h1 h2 ⊢
  linarith

theorem relG_one : 1 / 2 ≤ relG (1 / relB) := by
  have h1 : 141 / 100 ≤ √(1 + 17750451365686221606 / 10 ^ 24 / (3 * (24324508467583486202 / 10 ^ 22) ^ 2) * 1 ^ 2) := Real.le_sqrt_of_sq_le (by norm_num)
  have h2 := arsinh_one_le
  rw [relB, relG_eq one_pos]
  generalize √(1 + 17750451365686221606 / 10 ^ 24 / (3 * (24324508467583486202 / 10 ^ 22) ^ 2) * 1 ^ 2) = X at *
  generalize Real.arsinh 1 = Y at *
  norm_num at *
  linarith

theorem relG_mid {b : ℝ} (h1 : 79 / 100 ≤ b) (h2 : b ≤ 8 / 10) : 0 ≤ relG (b / relB) ∧ relG (b / relB) ≤ 4996 / 10000 := by
  have hb : 0 < b := by linarith
  have u1 : √(1 + 17750451365686221606 / 10 ^ 24 / (3 * (24324508467583486202 / 10 ^ 22) ^ 2) * b ^ 2) ≤ 12807 / 10000 := by
    rw [Real.sqrt_le_left (by norm_num)]
    have : b ^ 2 ≤ (8 / 10) ^ 2 := by gcongr
    norm_num at *
    linarith
  have u2 : 127 / 100 ≤ √(1 + 17750451365686221606 / 10 ^ 24 / (3 * (24324508467583486202 / 10 ^ 22) ^ 2) * b ^ 2) := by
    refine Real.le_sqrt_of_sq_le ?_
    have : (79 / 100) ^ 2 ≤ b ^ 2 := by gcongr
    norm_num at *
    linarith
  have u3 : 72 / 100 ≤ Real.arsinh b := le_arsinh.trans (Real.arsinh_le_arsinh.mpr h1)
  have u4 : Real.arsinh b ≤ 8 / 10 := by
    refine (Real.arsinh_le_arsinh.mpr h2).trans ?_
    rw [← Real.sinh_le_sinh, Real.sinh_arsinh]
    exact Real.self_le_sinh_iff.mpr (by norm_num)
  rw [relB, relG_eq hb]
  generalize √(1 + 17750451365686221606 / 10 ^ 24 / (3 * (24324508467583486202 / 10 ^ 22) ^ 2) * b ^ 2) = X at *
  generalize Real.arsinh b = Y at *
  have v1 : X / b ≤ 12807 / 10000 / (79 / 100) := by gcongr
  have v2 : 127 / 100 / (8 / 10) ≤ X / b := by gcongr
  have v3 : 72 / 100 / (8 / 10) ^ 2 ≤ Y / b ^ 2 := by gcongr
  have v4 : Y / b ^ 2 ≤ 8 / 10 / (79 / 100) ^ 2 := by gcongr
  rw [mul_div_assoc, mul_div_assoc _ Y]
  generalize X / b = X' at *
  generalize Y / b ^ 2 = Y' at *
  norm_num at *
  constructor <;> linarith

theorem rel_unpol (P : Prims) (p : Rec) {x : ℝ} (hx : 0 < x) (hz : p.fld .zetaThreshold < 1) (hd : p.fld .densThreshold < x ^ 3 / 2) :
    lda_x_rel_unpolExpr P p (x ^ 3) = -(3 / 4) * (cbrtR 3 / cbrtR Real.pi) * x * (1 - 3 / 2 * relG x ^ 2) := by
  have e : lda_x_rel_unpolExpr P p (x ^ 3) = N 2 0 * cnd (x ^ 3 / N 2 0 ≤ p.fld .densThreshold) (N 0 0)
      (((-(N 3 0)) / N 8 0 * cbrtR (N 3 0) * (N 1 0 / cbrtR Real.pi) *
        cnd (N 1 0 ≤ p.fld .zetaThreshold) (cbrtR (p.fld .zetaThreshold) * p.fld .zetaThreshold) (N 1 0)) * cbrtR (x ^ 3)) * relFactor P (cbrtR (x ^ 3)) := rfl
  rw [e, cbrtR_cube hx.le, relFactor_eq P hx]
  norm_num [N, cnd, hz.not_ge, hd.not_ge, -mul_eq_mul_left_iff, -mul_eq_mul_right_iff]
  ring

/-- The value of the polarized code with the densities given by the cubes of their doubles' roots; `a` and `b` say which spins count. -/
theorem rel_pol (P : Prims) (p : Rec) {x y : ℝ} (hx : 0 < x) (hy : 0 < y)
    (h0 : p.fld .zetaThreshold * (x ^ 3 / 2 + y ^ 3 / 2) < 2 * (x ^ 3 / 2)) (h1 : p.fld .zetaThreshold * (x ^ 3 / 2 + y ^ 3 / 2) < 2 * (y ^ 3 / 2)) :
    (x ^ 3 / 2 + y ^ 3 / 2) * lda_x_rel_polExpr P p (x ^ 3 / 2) (y ^ 3 / 2) =
      -(3 / 8) * (cbrtR 3 / cbrtR Real.pi) * ((if x ^ 3 / 2 ≤ p.fld .densThreshold then 0 else x ^ 4) + (if y ^ 3 / 2 ≤ p.fld .densThreshold then 0 else y ^ 4)) *
        (1 - 3 / 2 * relG (cbrtR (x ^ 3 / 2 + y ^ 3 / 2)) ^ 2) := by
  have hn : 0 < x ^ 3 / 2 + y ^ 3 / 2 := by positivity
  obtain ⟨c, hc, hcn⟩ : ∃ c, 0 < c ∧ x ^ 3 / 2 + y ^ 3 / 2 = c ^ 3 := ⟨_, cbrtR_pos hn, (cbrtR_pow3 hn.le).symm⟩
  let half (r : ℝ) : ℝ := cnd (r ≤ p.fld .densThreshold) (N 0 0) (((-(N 3 0)) / N 8 0 * (cbrtR (N 3 0) * (N 1 0 / cbrtR Real.pi)) *
      cnd (N 2 0 * (r * (N 1 0 / c ^ 3)) ≤ p.fld .zetaThreshold) (cbrtR (p.fld .zetaThreshold) * p.fld .zetaThreshold)
        (((N 2 0 * cbrtR (N 2 0) * r) * (N 1 0 / c ^ 3)) * cbrtR (r * (N 1 0 / c ^ 3)))) * cbrtR (c ^ 3))
  have e : lda_x_rel_polExpr P p (x ^ 3 / 2) (y ^ 3 / 2) = (half (x ^ 3 / 2) + half (y ^ 3 / 2)) * relFactor P (cbrtR (c ^ 3)) := by
    show _ = ((cnd _ _ _) + (cnd _ _ _)) * _
    rw [← hcn]
    rfl
  have hh {z : ℝ} (hz : 0 < z) (h : p.fld .zetaThreshold * c ^ 3 < 2 * (z ^ 3 / 2)) :
      c ^ 3 * half (z ^ 3 / 2) = -(3 / 8) * (cbrtR 3 / cbrtR Real.pi) * (if z ^ 3 / 2 ≤ p.fld .densThreshold then 0 else z ^ 4) := by
    simp only [half]
    by_cases hd : z ^ 3 / 2 ≤ p.fld .densThreshold
    · simp [cnd, hd, N]
    · have k1 : ¬ z ^ 3 / c ^ 3 ≤ p.fld .zetaThreshold := by
        rw [not_le, lt_div_iff₀ (by positivity)]; linarith
      have k1' : ¬ N 2 0 * (z ^ 3 / 2 * (N 1 0 / c ^ 3)) ≤ p.fld .zetaThreshold := by
        rw [show N 2 0 * (z ^ 3 / 2 * (N 1 0 / c ^ 3)) = z ^ 3 / c ^ 3 by norm_num [N]; ring]; exact k1
      have k2 : cbrtR (N 2 0) * cbrtR (z ^ 3 / 2 * (N 1 0 / c ^ 3)) = z / c := by
        rw [← cbrtR_mul (by norm_num [N]) (by have := N 1 0; positivity), show N 2 0 * (z ^ 3 / 2 * (N 1 0 / c ^ 3)) = (z / c) ^ 3 by norm_num [N]; ring,
          cbrtR_cube (by positivity)]
      simp only [cnd, hd, k1', if_false, cbrtR_cube hc.le]
      have k3 : N 2 0 * cbrtR (N 2 0) * (z ^ 3 / 2) * (N 1 0 / c ^ 3) * cbrtR (z ^ 3 / 2 * (N 1 0 / c ^ 3)) = z ^ 4 / c ^ 4 := by
        calc _ = N 2 0 * (z ^ 3 / 2) * (N 1 0 / c ^ 3) * (cbrtR (N 2 0) * cbrtR (z ^ 3 / 2 * (N 1 0 / c ^ 3))) := by ring
          _ = _ := by rw [k2]; norm_num [N]; field_simp
      rw [k3]
      have hs := cbrtR_pos Real.pi_pos
      norm_num [N]
      field_simp
  rw [e, hcn, cbrtR_cube hc.le, relFactor_eq P hc]
  rw [hcn] at h0 h1
  have q0 := hh hx h0
  have q1 := hh hy h1
  linear_combination (1 - 3 / 2 * relG c ^ 2) * (q0 + q1)

/-- Thresholds for `lda_x_rel`. -/
def relRec (d : ℝ) : Rec := ⟨fun | .densThreshold => d | _ => 1 / 10 ^ 6, fun _ => 1⟩

theorem rel_root : ∃ b, 79 / 100 ≤ b ∧ b ≤ 8 / 10 ∧ cbrtR ((1 / relB) ^ 3 / 2 + (1 / 10 / relB) ^ 3 / 2) = b / relB := by
  have hB := relB_pos
  refine ⟨cbrtR (1001 / 2000), le_cbrtR (by norm_num) (by norm_num), cbrtR_le' (by norm_num) (by norm_num), ?_⟩
  rw [show (1 / relB) ^ 3 / 2 + (1 / 10 / relB) ^ 3 / 2 = 1001 / 2000 / relB ^ 3 by field_simp; norm_num, cbrtR_div (by norm_num) (by positivity), cbrtR_cube hB.le]

theorem lda_x_rel_not_spinScaling : ¬ SpinScaling .lda lda_x_rel := by
  intro h
  have hB := relB_pos
  have hq : 0 < cbrtR 3 / cbrtR Real.pi := div_pos (cbrtR_pos (by norm_num)) (cbrtR_pos Real.pi_pos)
  have hd : 0 < (1 / 10 / relB) ^ 3 / 4 := by positivity
  have hd1 : (1 / 10 / relB) ^ 3 / 4 < (1 / 10 / relB) ^ 3 / 2 := by linarith
  have hd2 : (1 / 10 / relB) ^ 3 / 2 < (1 / relB) ^ 3 / 2 := by gcongr; norm_num
  have z0 : 1 / 10 ^ 6 * ((1 / relB) ^ 3 / 2 + (1 / 10 / relB) ^ 3 / 2) < 2 * ((1 / relB) ^ 3 / 2) := by field_simp; norm_num
  have z1 : 1 / 10 ^ 6 * ((1 / relB) ^ 3 / 2 + (1 / 10 / relB) ^ 3 / 2) < 2 * ((1 / 10 / relB) ^ 3 / 2) := by field_simp; norm_num
  have p0 : 0 < (1 / relB) ^ 3 / 2 := by positivity
  have p1 : 0 < (1 / 10 / relB) ^ 3 / 2 := by positivity
  obtain ⟨e, e0, e1, k1, k2, k3, k4⟩ := h noPrims (relRec ((1 / 10 / relB) ^ 3 / 4)) ((1 / relB) ^ 3 / 2) ((1 / 10 / relB) ^ 3 / 2) 0 0 0 0 0 0 0
    ⟨hd, by norm_num [relRec]⟩ p0 p1 le_rfl le_rfl le_rfl le_rfl
    ⟨by norm_num [relRec], hd1.trans hd2, hd1, z0, z1⟩
  have h1 := (lda_x_rel_polExpr_eq _ _ _ _).symm.trans k1
  have h2 := (lda_x_rel_unpolExpr_eq _ _ _).symm.trans k2
  have h3 := (lda_x_rel_unpolExpr_eq _ _ _).symm.trans k3
  injection h1 with h1
  injection h2 with h2
  injection h3 with h3
  rw [mul_div_cancel₀ _ (by norm_num)] at h2 h3
  rw [rel_unpol _ _ (by positivity) (by norm_num [relRec]) (hd1.trans hd2)] at h2
  rw [rel_unpol _ _ (by positivity) (by norm_num [relRec]) hd1] at h3
  have w := rel_pol noPrims (relRec ((1 / 10 / relB) ^ 3 / 4)) (x := 1 / relB) (y := 1 / 10 / relB) (by positivity) (by positivity) z0 z1
  rw [h1, k4, ← h2, ← h3, show (relRec ((1 / 10 / relB) ^ 3 / 4)).fld .densThreshold = (1 / 10 / relB) ^ 3 / 4 from rfl, if_neg (not_le.mpr (hd1.trans hd2)), if_neg (not_le.mpr hd1)] at w
  obtain ⟨b, b1, b2, hb⟩ := rel_root
  rw [hb] at w
  obtain ⟨g1, g2⟩ := relG_mid b1 b2
  have g3 := relG_one
  generalize relG (b / relB) = X at *
  generalize relG (1 / relB) = Y at *
  generalize relG (1 / 10 / relB) = Z at *
  have w' : (1 - 3 / 2 * Y ^ 2) + 1 / 10 ^ 4 * (1 - 3 / 2 * Z ^ 2) = (1 + 1 / 10 ^ 4) * (1 - 3 / 2 * X ^ 2) := by
    have c0 : -(3 / 8) * (cbrtR 3 / cbrtR Real.pi) * (1 / relB) ^ 4 ≠ 0 := by
      have : 0 < (1 / relB) ^ 4 := by positivity
      nlinarith [mul_pos hq this]
    refine mul_left_cancel₀ c0 ?_
    generalize cbrtR 3 / cbrtR Real.pi = k at *
    clear * - w hB
    linear_combination w
  nlinarith [sq_nonneg Z, mul_nonneg g1 (sub_nonneg.mpr g2)]

theorem lda_x_rel_not_screenedRest : ¬ ScreenedRest .lda lda_x_rel := by
  intro h
  have hB := relB_pos
  have hq : 0 < cbrtR 3 / cbrtR Real.pi := div_pos (cbrtR_pos (by norm_num)) (cbrtR_pos Real.pi_pos)
  have hd2 : (1 / 10 / relB) ^ 3 / 2 < (1 / relB) ^ 3 / 2 := by gcongr; norm_num
  have z0 : 1 / 10 ^ 6 * ((1 / relB) ^ 3 / 2 + (1 / 10 / relB) ^ 3 / 2) < 2 * ((1 / relB) ^ 3 / 2) := by field_simp; norm_num
  have z1 : 1 / 10 ^ 6 * ((1 / relB) ^ 3 / 2 + (1 / 10 / relB) ^ 3 / 2) < 2 * ((1 / 10 / relB) ^ 3 / 2) := by field_simp; norm_num
  have p0 : 0 < (1 / relB) ^ 3 / 2 := by positivity
  have p1 : 0 < (1 / 10 / relB) ^ 3 / 2 := by positivity
  obtain ⟨e, e0, k1, k2, k3⟩ := (h noPrims (relRec ((1 / 10 / relB) ^ 3 / 2)) ((1 / relB) ^ 3 / 2) ((1 / 10 / relB) ^ 3 / 2) 0 0 0 0 0 0 0
    ⟨p1, by norm_num [relRec]⟩ p0 p1 le_rfl le_rfl le_rfl le_rfl (by norm_num [relRec]) z0 z1).1 le_rfl hd2
  have h1 := (lda_x_rel_polExpr_eq _ _ _ _).symm.trans k1
  have h2 := (lda_x_rel_unpolExpr_eq _ _ _).symm.trans k2
  injection h1 with h1
  injection h2 with h2
  rw [mul_div_cancel₀ _ (by norm_num)] at h2
  rw [rel_unpol _ _ (by positivity) (by norm_num [relRec]) hd2] at h2
  have w := rel_pol noPrims (relRec ((1 / 10 / relB) ^ 3 / 2)) (x := 1 / relB) (y := 1 / 10 / relB) (by positivity) (by positivity) z0 z1
  rw [h1, k3, ← h2, show (relRec ((1 / 10 / relB) ^ 3 / 2)).fld .densThreshold = (1 / 10 / relB) ^ 3 / 2 from rfl, if_neg (not_le.mpr hd2), if_pos le_rfl] at w
  obtain ⟨b, b1, b2, hb⟩ := rel_root
  rw [hb] at w
  obtain ⟨g1, g2⟩ := relG_mid b1 b2
  have g3 := relG_one
  generalize relG (b / relB) = X at *
  generalize relG (1 / relB) = Y at *
  have w' : (1 - 3 / 2 * Y ^ 2) = (1 - 3 / 2 * X ^ 2) := by
    have c0 : -(3 / 8) * (cbrtR 3 / cbrtR Real.pi) * (1 / relB) ^ 4 ≠ 0 := by
      have : 0 < (1 / relB) ^ 4 := by positivity
      nlinarith [mul_pos hq this]
    refine mul_left_cancel₀ c0 ?_
    generalize cbrtR 3 / cbrtR Real.pi = k at *
    clear * - w hB
    linear_combination w
  nlinarith [mul_nonneg g1 (sub_nonneg.mpr g2)]

/-! ### `mgga_x_task`: a coefficient that should vanish is rounded differently in the two files -/

/-- Parameters `task_bnu[3]` and `task_anu[0]` one, the others zero. -/
def taskRec (d : ℝ) : Rec :=
  ⟨fun | .densThreshold => d | _ => 1 / 10, fun n => if n = 140695593736714727850718045 then 1 else if n = 140695593736713628339089501 then 1 else 0⟩

example : nameCode "task_bnu[3]" = 140695593736714727850718045 ∧ nameCode "task_anu[0]" = 140695593736713628339089501 := by decide +kernel

theorem two_root : 0 < cbrtR 2 ∧ cbrtR 2 ^ 3 = 2 := ⟨cbrtR_pos two_pos, cbrtR_pow3 two_pos.le⟩

/-- The ratio of polynomials in the unpolarized file at the chosen point. -/
def taskU : ℝ := (-(47049607861172565384 / 10 ^ 12) + 22941164322143110651 / 10 ^ 11 - 4 / 10 ^ 12 - 27827761940317523285 / 10 ^ 12 + 69227979374755602348 / 10 ^ 14) /
  (828207200604688193 / 10 ^ 16 + 28844991406148167646 / 10 ^ 18) ^ 4

/-- The ratio of polynomials in the polarized file at the chosen point; `t` is `2 ^ (2 / 3)`. -/
def taskP (t : ℝ) : ℝ :=
  (-(47049607861172565384 / 10 ^ 12) + 14452027919282677111 / 10 ^ 11 * t + 1 / 10 ^ 12 * t ^ 2 - 69569404850793808212 / 10 ^ 13 * t ^ 3 +
    10902723556992837955 / 10 ^ 14 * t ^ 4) / (828207200604688193 / 10 ^ 16 + 18171205928321396589 / 10 ^ 18 * t) ^ 4

theorem task_unpol (l d : ℝ) (hd : d < 1) :
    mgga_x_task_unpolExpr noPrims (taskRec d) 2 0 l (2 * cbrtR 2 ^ 2) = -(3 / 4) * (cbrtR 3 / cbrtR Real.pi) * cbrtR 2 * (1 - taskU) := by
  obtain ⟨hw, hw3⟩ := two_root
  have hs := cbrtR_pos Real.pi_pos
  have hpi := Real.pi_pos
  unfold mgga_x_task_unpolExpr
  extract_lets -merge t3 t4 t7 t8 t10 t11 t12 t14 t16 t18 t19 t21 t22 t23 t24 t27 t28 t30 t31 t32 t36 t37 t38 t39 t42 t44 t46 t47 t49 t52 t54 t57 t59 t68 t69 t73 t75 t76 t77 t80 t84 t87 t89 t92 t104 t113 t120 t135 t150 t155 t156 t161 t163 t164 t167 t170 t173 t174 t175 t182 t183 t184 t193 t198 t204
  have h18 : t18 = 1 := by
    norm_num [t18, t12, t11, t10, t7, t16, N, cnd, taskRec, fn1Val, cbrtR_one]
  have h19 : t19 = cbrtR 2 := rfl
  have h30 : t30 = 4 := by norm_num [t30, N]
  have h31 : t31 = cbrtR 2 ^ 2 := by norm_num [t31, h19, N]
  have h32 : t32 = 4 * cbrtR 2 ^ 2 := by rw [show t32 = t31 * t30 from rfl, h30, h31]; ring
  have h36 : t36 = 0 := by simp [t36]
  have h44 : t44 = 0 := by simp [t44, cnd, t37, h36, N]
  have h47 : t47 = 16 := by norm_num [t47, h30, N]
  have h49 : t49 = 64 * cbrtR 2 ^ 2 := by rw [show t49 = (t31 * t47) * t30 from rfl, h31, h47, h30]; ring
  have h52 : t52 = 32 := by norm_num [t52, h47]
  have h54 : t54 = 4 * cbrtR 2 ^ 2 := by simp only [t54]; ring
  have h68 : t68 = 1 := by
    have hc : N 0 0 < N 125 (-3) * (N 79999999992 (-10) * t54 - 0) * t57 * t59 := by
      norm_num [t57, t59, h54, N]
      positivity
    simp only [t68, if_pos hc]
    norm_num [t57, t59, h54, N]
    field_simp
    norm_num
  have h69 : t69 = 2 * cbrtR 2 ^ 2 := by simp only [t69, h68, mul_one]
  have h73 : t73 = 8 * cbrtR 2 := by simp only [t73, h19, h30]; ring
  have h75 : t75 = 8 * cbrtR 2 := by
    have : t75 = (2 * cbrtR 2 ^ 2) ^ 2 := by norm_num [t75, N]
    rw [this]; linear_combination 4 * cbrtR 2 * hw3
  have h76 : t76 = 1 := by norm_num [t76, h68, N]
  have h77 : t77 = 8 * cbrtR 2 := by simp only [t77, h75, h76, mul_one]
  have h80 : t80 = 2 * cbrtR 2 ^ 2 := by simp only [t80, h31]; ring
  have h84 : t84 = 32 := by
    simp only [t84, h75, h76, h68, mul_one]; linear_combination 16 * hw3
  have h87 : t87 = 64 * cbrtR 2 ^ 2 := by
    have : t87 = t75 ^ 2 := by norm_num [t87, N]
    rw [this, h75]; ring
  have h89 : t89 = 1 := by norm_num [t89, h76, N]
  have p46 : t46 = 0 := by norm_num [t46, taskRec]
  have p92 : t92 = 0 := by norm_num [t92, taskRec]
  have p104 : t104 = 0 := by norm_num [t104, taskRec]
  have p120 : t120 = 1 := by norm_num [t120, taskRec]
  have p135 : t135 = 0 := by norm_num [t135, taskRec]
  have p164 : t164 = 1 := by norm_num [t164, taskRec]
  have p167 : t167 = 0 := by norm_num [t167, taskRec]
  have p170 : t170 = 0 := by norm_num [t170, taskRec]
  have pc : (taskRec d).param 8386110886139932792 = 0 := by norm_num [taskRec]
  have pd : (taskRec d).param 127961897066340 = 0 := by norm_num [taskRec]
  have h113 : t113 = 0 := by simp only [t113, p46, p92, p104]; ring
  have h150 : t150 = 64 * cbrtR 2 ^ 2 * (-(47049607861172565384 / 10 ^ 12) + 22941164322143110651 / 10 ^ 11 - 4 / 10 ^ 12 - 27827761940317523285 / 10 ^ 12 + 69227979374755602348 / 10 ^ 14) := by
    simp only [t150, p104, p120, p135, h49, h52, h69, h73, h77, h80, h84, h87, h89]
    norm_num [N]
    ring
  have h155 : t155 = (2 * cbrtR 2 ^ 2 * (828207200604688193 / 10 ^ 16 + 28844991406148167646 / 10 ^ 18)) ^ 2 := by
    simp only [t155, h80, h69]
    norm_num [N]
    ring
  have h156 : t156 = 64 * cbrtR 2 ^ 2 * (828207200604688193 / 10 ^ 16 + 28844991406148167646 / 10 ^ 18) ^ 4 := by
    have : t156 = t155 ^ 2 := by norm_num [t156, N]
    rw [this, h155]
    linear_combination (828207200604688193 / 10 ^ 16 + 28844991406148167646 / 10 ^ 18 : ℝ) ^ 4 * 16 * cbrtR 2 ^ 2 * (cbrtR 2 ^ 3 + 2) * hw3
  have hPQ : (t113 + t150) / t156 = taskU := by
    rw [h113, h150, h156, zero_add, taskU, mul_div_mul_left _ _ (by positivity)]
  have h198 : t198 = 1 := by rw [show t198 = t44 ^ (taskRec d).param 127961897066340 from rfl, pd, Real.rpow_zero]
  have h163 : t163 = 32 * cbrtR 2 * cbrtR Real.pi ^ 2 * Real.pi ^ 2 := by
    have a : t161 = cbrtR Real.pi ^ 2 := by norm_num [t161, t4, fn1Val, N]
    have b : t22 = Real.pi ^ 2 := by norm_num [t22, N]
    simp only [t163, a, b, h19, h52]; ring
  have h193 : t193 = 144 * 32 * cbrtR 2 * cbrtR Real.pi ^ 2 * Real.pi ^ 2 := by
    have a : t193 = (12 * (cbrtR Real.pi * Real.pi) * (4 * cbrtR 2 ^ 2)) ^ 2 := by
      simp only [t193, t174, h32, t4, fn1Val]; norm_num [N]
    rw [a]
    linear_combination (144 * 16 * cbrtR 2 * cbrtR Real.pi ^ 2 * Real.pi ^ 2) * hw3
  have hc : ¬ (2 : ℝ) / N 2 0 ≤ (taskRec d).fld .densThreshold := by
    rw [not_le]; norm_num [N, taskRec]; exact hd
  rw [show t204 = _ from if_neg hc, hPQ, h198, p164, p167, p170, pc, h44, h18, h19, h163, h193]
  norm_num [t3, t4, t173, t175, t184, t183, fn1Val, N, -mul_eq_mul_left_iff, -mul_eq_mul_right_iff]
  field_simp
  norm_num
  ring

/-- `t210` of `gen_repo/impl/prebuilt/pol/mgga_x_task.py`. -/
def taskFirst (P : Prims) (p : Rec) (r0 r1 s0 tau0 : ℝ) : ℝ :=
  let t2 := (fn1Val P .cbrt (N 3 (0)))
  let t3 := (fn1Val P .cbrt Real.pi)
  let t5 := (t2 / t3)
  let t6 := (r0 + r1)
  let t7 := ((N 1 (0)) / t6)
  let t10 := ((((N 2 (0)) * r0) * t7) ≤ (p.fld .zetaThreshold))
  let t11 := ((p.fld .zetaThreshold) - (N 1 (0)))
  let t14 := ((((N 2 (0)) * r1) * t7) ≤ (p.fld .zetaThreshold))
  let t15 := (-t11)
  let t17 := ((r0 - r1) * t7)
  let t18 := (cnd t14 t15 t17)
  let t19 := (cnd t10 t11 t18)
  let t20 := (t19 + (N 1 (0)))
  let t22 := (fn1Val P .cbrt (p.fld .zetaThreshold))
  let t23 := (t22 * (p.fld .zetaThreshold))
  let t24 := (fn1Val P .cbrt t20)
  let t26 := (cnd (t20 ≤ (p.fld .zetaThreshold)) t23 (t24 * t20))
  let t27 := (fn1Val P .cbrt t6)
  let t29 := (fn1Val P .cbrt (N 6 (0)))
  let t30 := (Real.pi ^ (N 2 (0)))
  let t31 := (fn1Val P .cbrt t30)
  let t32 := (t31 ^ (N 2 (0)))
  let t34 := (t29 / t32)
  let t35 := (r0 ^ (N 2 (0)))
  let t36 := (fn1Val P .cbrt r0)
  let t37 := (t36 ^ (N 2 (0)))
  let t38 := (t37 * t35)
  let t42 := (((t34 * s0) / t38) / (N 24 (0)))
  let t43 := ((N 0 (0)) < t42)
  let t44 := (cnd t43 t42 (N 0 (0)))
  let t45 := (t44 ^ ((N 1 (0)) / (N 4 (0))))
  let t48 := (fn1Val P .exp ((-(p.param 127961897066339)) / t45))
  let t50 := (cnd t43 ((N 1 (0)) - t48) (N 0 (0)))
  let t52 := (p.param 140695593736714727850717277)
  let t53 := (t35 ^ (N 2 (0)))
  let t55 := ((t37 * t53) * t35)
  let t58 := (t53 * r0)
  let t60 := (r0 * tau0)
  let t63 := ((N 1 (0)) / r0)
  let t65 := ((N 1 (0)) / tau0)
  let t74 := (cnd ((N 0 (0)) < ((((N 125 (-3)) * (((N 79999999992 (-10)) * t60) - s0)) * t63) * t65)) ((((((N 8 (0)) * t60) - s0) * t63) * t65) / (N 8 (0))) (N 1 (-10)))
  let t75 := (t74 * tau0)
  let t79 := ((t36 * t35) * r0)
  let t81 := (t74 ^ (N 2 (0)))
  let t82 := (tau0 ^ (N 2 (0)))
  let t83 := (t81 * t82)
  let t86 := (t37 * r0)
  let t90 := (((t81 * t74) * t82) * tau0)
  let t93 := (t81 ^ (N 2 (0)))
  let t95 := (t82 ^ (N 2 (0)))
  let t98 := (p.param 140695593736714727850717533)
  let t110 := (p.param 140695593736714727850717789)
  let t119 := ((((((((((((((N 47049607861172565388 (-12)) * t52) * t55) + ((((N 41291508340807648886 (-12)) * t52) * t58) * t75)) + ((((N 13589289623490307943 (-12)) * t52) * t79) * t83)) + ((((N 19876972814512516632 (-13)) * t52) * t86) * t90)) + ((((N 10902723556992837954 (-14)) * t52) * t93) * t95)) - (((N 47049607861172565388 (-12)) * t98) * t55)) - ((((N 20645754170403824442 (-12)) * t98) * t58) * t75)) + ((((N 99384864072562583159 (-14)) * t98) * t86) * t90)) + ((((N 10902723556992837954 (-14)) * t98) * t93) * t95)) + (((N 47049607861172565386 (-12)) * t110) * t55)) - ((((N 41291508340807648885 (-12)) * t110) * t58) * t75)) - ((((N 22648816039150513236 (-12)) * t110) * t79) * t83))
  let t126 := (p.param 140695593736714727850718045)
  let t141 := (p.param 140695593736714727850718301)
  let t156 := (((((((((((((((-(N 19876972814512516631 (-13))) * t110) * t86) * t90) + ((((N 10902723556992837954 (-14)) * t110) * t93) * t95)) - (((N 47049607861172565384 (-12)) * t126) * t55)) + ((((N 14452027919282677111 (-11)) * t126) * t58) * t75)) + ((((N 1 (-12)) * t126) * t79) * t83)) - ((((N 69569404850793808212 (-13)) * t126) * t86) * t90)) + ((((N 10902723556992837955 (-14)) * t126) * t93) * t95)) + (((N 4704960786117256539 (-11)) * t141) * t55)) - ((((N 2890405583856535422 (-10)) * t141) * t58) * t75)) + ((((N 15854171227405359266 (-11)) * t141) * t79) * t83)) - ((((N 13913880970158761643 (-12)) * t141) * t86) * t90)) + ((((N 10902723556992837954 (-14)) * t141) * t93) * t95))
  let t161 := ((((N 828207200604688193 (-16)) * t86) + ((N 18171205928321396589 (-18)) * t75)) ^ (N 2 (0)))
  let t162 := (t161 ^ (N 2 (0)))
  let t167 := (t3 ^ (N 2 (0)))
  let t168 := (t167 * t30)
  let t169 := ((t36 * t58) * t168)
  let t170 := (p.param 140695593736713628339089501)
  let t173 := (p.param 140695593736713628339089757)
  let t176 := (p.param 140695593736713628339090013)
  let t179 := (t38 * t29)
  let t180 := (t3 * Real.pi)
  let t181 := (t180 * s0)
  let t188 := (t29 ^ (N 2 (0)))
  let t189 := (s0 ^ (N 2 (0)))
  let t190 := (t188 * t189)
  let t199 := (((t29 * s0) + (((N 24 (0)) * t180) * t38)) ^ (N 2 (0)))
  let t204 := (t50 ^ (p.param 127961897066340))
  (cnd (r0 ≤ (p.fld .densThreshold)) (N 0 (0)) ((((((-(N 3 (0))) / (N 8 (0))) * t5) * t26) * t27) * (((p.param 8386110886139932792) * t50) + ((((N 1 (0)) - ((t119 + t156) / t162)) * (((((((((((((N 48 (0)) * t179) * t181) * t170) - ((((N 144 (0)) * t179) * t181) * t176)) + (((N 576 (0)) * t169) * t170)) - (((N 576 (0)) * t169) * t173)) + (((N 576 (0)) * t169) * t176)) + (t190 * t170)) + (t190 * t173)) + (t190 * t176)) / t199) - (p.param 8386110886139932792))) * t204))))

/-- `t383` of `gen_repo/impl/prebuilt/pol/mgga_x_task.py`. -/
def taskSecond (P : Prims) (p : Rec) (r0 r1 s2 tau1 : ℝ) : ℝ :=
  let t2 := (fn1Val P .cbrt (N 3 (0)))
  let t3 := (fn1Val P .cbrt Real.pi)
  let t5 := (t2 / t3)
  let t6 := (r0 + r1)
  let t7 := ((N 1 (0)) / t6)
  let t10 := ((((N 2 (0)) * r0) * t7) ≤ (p.fld .zetaThreshold))
  let t11 := ((p.fld .zetaThreshold) - (N 1 (0)))
  let t14 := ((((N 2 (0)) * r1) * t7) ≤ (p.fld .zetaThreshold))
  let t15 := (-t11)
  let t17 := ((r0 - r1) * t7)
  let t22 := (fn1Val P .cbrt (p.fld .zetaThreshold))
  let t23 := (t22 * (p.fld .zetaThreshold))
  let t27 := (fn1Val P .cbrt t6)
  let t29 := (fn1Val P .cbrt (N 6 (0)))
  let t30 := (Real.pi ^ (N 2 (0)))
  let t31 := (fn1Val P .cbrt t30)
  let t32 := (t31 ^ (N 2 (0)))
  let t34 := (t29 / t32)
  let t52 := (p.param 140695593736714727850717277)
  let t98 := (p.param 140695593736714727850717533)
  let t110 := (p.param 140695593736714727850717789)
  let t126 := (p.param 140695593736714727850718045)
  let t141 := (p.param 140695593736714727850718301)
  let t167 := (t3 ^ (N 2 (0)))
  let t168 := (t167 * t30)
  let t170 := (p.param 140695593736713628339089501)
  let t173 := (p.param 140695593736713628339089757)
  let t176 := (p.param 140695593736713628339090013)
  let t180 := (t3 * Real.pi)
  let t188 := (t29 ^ (N 2 (0)))
  let t212 := (cnd t10 t15 (-t17))
  let t213 := (cnd t14 t11 t212)
  let t214 := (t213 + (N 1 (0)))
  let t216 := (fn1Val P .cbrt t214)
  let t218 := (cnd (t214 ≤ (p.fld .zetaThreshold)) t23 (t216 * t214))
  let t220 := (r1 ^ (N 2 (0)))
  let t221 := (fn1Val P .cbrt r1)
  let t222 := (t221 ^ (N 2 (0)))
  let t223 := (t222 * t220)
  let t227 := (((t34 * s2) / t223) / (N 24 (0)))
  let t228 := ((N 0 (0)) < t227)
  let t229 := (cnd t228 t227 (N 0 (0)))
  let t230 := (t229 ^ ((N 1 (0)) / (N 4 (0))))
  let t233 := (fn1Val P .exp ((-(p.param 127961897066339)) / t230))
  let t235 := (cnd t228 ((N 1 (0)) - t233) (N 0 (0)))
  let t237 := (t220 ^ (N 2 (0)))
  let t239 := ((t222 * t237) * t220)
  let t242 := (t237 * r1)
  let t244 := (r1 * tau1)
  let t247 := ((N 1 (0)) / r1)
  let t249 := ((N 1 (0)) / tau1)
  let t258 := (cnd ((N 0 (0)) < ((((N 125 (-3)) * (((N 79999999992 (-10)) * t244) - s2)) * t247) * t249)) ((((((N 8 (0)) * t244) - s2) * t247) * t249) / (N 8 (0))) (N 1 (-10)))
  let t259 := (tau1 * t258)
  let t263 := ((t221 * t220) * r1)
  let t265 := (tau1 ^ (N 2 (0)))
  let t266 := (t258 ^ (N 2 (0)))
  let t267 := (t265 * t266)
  let t270 := (t222 * r1)
  let t274 := (((t265 * tau1) * t266) * t258)
  let t277 := (t265 ^ (N 2 (0)))
  let t279 := (t266 ^ (N 2 (0)))
  let t301 := ((((((((((((((N 47049607861172565388 (-12)) * t52) * t239) + ((((N 41291508340807648886 (-12)) * t52) * t242) * t259)) + ((((N 13589289623490307943 (-12)) * t52) * t263) * t267)) + ((((N 19876972814512516632 (-13)) * t52) * t270) * t274)) + ((((N 10902723556992837954 (-14)) * t52) * t277) * t279)) - (((N 47049607861172565388 (-12)) * t98) * t239)) - ((((N 20645754170403824442 (-12)) * t98) * t242) * t259)) + ((((N 99384864072562583159 (-14)) * t98) * t270) * t274)) + ((((N 10902723556992837954 (-14)) * t98) * t277) * t279)) + (((N 47049607861172565386 (-12)) * t110) * t239)) - ((((N 41291508340807648885 (-12)) * t110) * t242) * t259)) - ((((N 22648816039150513236 (-12)) * t110) * t263) * t267))
  let t336 := (((((((((((((((-(N 19876972814512516631 (-13))) * t110) * t270) * t274) + ((((N 10902723556992837954 (-14)) * t110) * t277) * t279)) - (((N 47049607861172565384 (-12)) * t126) * t239)) + ((((N 14452027919282677111 (-11)) * t126) * t242) * t259)) + ((((N 1 (-12)) * t126) * t263) * t267)) - ((((N 69569404850793808212 (-13)) * t126) * t270) * t274)) + ((((N 10902723556992837955 (-14)) * t126) * t277) * t279)) + (((N 4704960786117256539 (-11)) * t141) * t239)) - ((((N 2890405583856535422 (-10)) * t141) * t242) * t259)) + ((((N 15854171227405359266 (-11)) * t141) * t263) * t267)) - ((((N 13913880970158761643 (-12)) * t141) * t270) * t274)) + ((((N 10902723556992837954 (-14)) * t141) * t277) * t279))
  let t341 := ((((N 828207200604688193 (-16)) * t270) + ((N 18171205928321396589 (-18)) * t259)) ^ (N 2 (0)))
  let t342 := (t341 ^ (N 2 (0)))
  let t347 := ((t221 * t242) * t168)
  let t354 := (t223 * t29)
  let t355 := (t180 * s2)
  let t362 := (s2 ^ (N 2 (0)))
  let t363 := (t188 * t362)
  let t372 := (((t29 * s2) + (((N 24 (0)) * t180) * t223)) ^ (N 2 (0)))
  let t377 := (t235 ^ (p.param 127961897066340))
  (cnd (r1 ≤ (p.fld .densThreshold)) (N 0 (0)) ((((((-(N 3 (0))) / (N 8 (0))) * t5) * t218) * t27) * (((p.param 8386110886139932792) * t235) + ((((N 1 (0)) - ((t301 + t336) / t342)) * (((((((((((((N 48 (0)) * t354) * t355) * t170) - ((((N 144 (0)) * t354) * t355) * t176)) + (((N 576 (0)) * t347) * t170)) + (t363 * t170)) - (((N 576 (0)) * t347) * t173)) + (t363 * t173)) + (((N 576 (0)) * t347) * t176)) + (t363 * t176)) / t372) - (p.param 8386110886139932792))) * t377))))

theorem task_pol (P : Prims) (p : Rec) (r0 r1 s0 s1 s2 l0 l1 tau0 tau1 : ℝ) :
    mgga_x_task_polExpr P p r0 r1 s0 s1 s2 l0 l1 tau0 tau1 = taskFirst P p r0 r1 s0 tau0 + taskSecond P p r0 r1 s2 tau1 := rfl

theorem taskSecond_screened (P : Prims) (p : Rec) (r0 r1 s2 tau1 : ℝ) (h : r1 ≤ p.fld .densThreshold) : taskSecond P p r0 r1 s2 tau1 = N 0 0 := if_pos h

theorem taskFirst_val (r1 d : ℝ) (h1 : 0 < r1) (hd : d < 1) (hz : 1 / 10 * (1 + r1) < 2) (hz1 : 1 / 10 * (1 + r1) < 2 * r1) :
    taskFirst noPrims (taskRec d) 1 r1 0 (cbrtR 2 ^ 2) = (-(3 / 8) * (cbrtR 3 / cbrtR Real.pi) * (2 / (1 + r1) * cbrtR 2) * (1 - taskP (cbrtR 2 ^ 2))) := by
  obtain ⟨hw, hw3⟩ := two_root
  have hs := cbrtR_pos Real.pi_pos
  have hpi := Real.pi_pos
  unfold taskFirst
  extract_lets -merge t2 t3 t5 t6 t7 t10 t11 t14 t15 t17 t18 t19 t20 t22 t23 t24 t26 t27 t29 t30 t31 t32 t34 t35 t36 t37 t38 t42 t43 t44 t45 t48 t50 t52 t53 t55 t58 t60 t63 t65 t74 t75 t79 t81 t82 t83 t86 t90 t93 t95 t98 t110 t119 t126 t141 t156 t161 t162 t167 t168 t169 t170 t173 t176 t179 t180 t181 t188 t189 t190 t199 t204
  have hz43 : t26 * t27 = 2 / (1 + r1) * cbrtR 2 := by
    have a : t20 = 2 / (1 + r1) := by
      have c1 : ¬ t10 := by simp only [t10, t7, t6]; norm_num [N, taskRec]; rw [← div_eq_mul_inv, lt_div_iff₀ (by positivity)]; linarith
      have c2 : ¬ t14 := by
        simp only [t14, t7, t6]; norm_num [N, taskRec]; rw [← div_eq_mul_inv, lt_div_iff₀ (by positivity)]; linarith
      have b : t19 = t17 := by rw [show t19 = t18 from if_neg c1, show t18 = t17 from if_neg c2]
      simp only [t20, b, t17, t7, t6]
      norm_num [N]
      field_simp
      ring
    have c3 : ¬ t20 ≤ (taskRec d).fld .zetaThreshold := by
      rw [a, not_le]; norm_num [taskRec]; rw [lt_div_iff₀ (by positivity)]; linarith
    have b : t26 = t24 * t20 := if_neg c3
    have e : t24 * t27 = cbrtR 2 := by
      simp only [t24, t27, fn1Val]
      rw [← cbrtR_mul (by rw [a]; positivity) (by simp only [t6]; positivity), a]
      congr 1
      simp only [t6]
      field_simp
    rw [b, mul_right_comm, e, a]
    ring
  have hr2 : t35 = 1 := by norm_num [t35, N]
  have hrt : t36 = 1 := cbrtR_one
  have hrt2 : t37 = 1 := by norm_num [t37, hrt, N]
  have hr83 : t38 = 1 := by simp only [t38, hr2, hrt2, mul_one]
  have hx : t42 = 0 := by simp [t42]
  have hh : t50 = 0 := by simp [t50, cnd, t43, hx, N]
  have hr4 : t53 = 1 := by norm_num [t53, hr2, N]
  have hr203 : t55 = 1 := by simp only [t55, hrt2, hr4, hr2, mul_one]
  have hr5 : t58 = 1 := by simp only [t58, hr4, mul_one]
  have hal : t74 = 1 := by
    have hc : N 0 0 < N 125 (-3) * (N 79999999992 (-10) * t60 - 0) * t63 * t65 := by
      norm_num [t63, t65, t60, N]
      positivity
    simp only [t74, if_pos hc]
    norm_num [t63, t65, t60, N]
    field_simp
  have hat : t75 = cbrtR 2 ^ 2 := by simp only [t75, hal, mul_one, one_mul]
  have hr103 : t79 = 1 := by simp only [t79, hrt, hr2, mul_one]
  have hal2 : t81 = 1 := by norm_num [t81, hal, N]
  have htau2 : t82 = (cbrtR 2 ^ 2) ^ 2 := by norm_num [t82, N]
  have hat2 : t83 = (cbrtR 2 ^ 2) ^ 2 := by simp only [t83, hal2, htau2, one_mul, mul_one]
  have hr53 : t86 = 1 := by simp only [t86, hrt2, mul_one]
  have hat3 : t90 = (cbrtR 2 ^ 2) ^ 3 := by simp only [t90, hal2, hal, htau2, one_mul, mul_one]; ring
  have hal4 : t93 = 1 := by norm_num [t93, hal2, N]
  have htau4 : t95 = (cbrtR 2 ^ 2) ^ 4 := by
    have : t95 = t82 ^ 2 := by norm_num [t95, N]
    rw [this, htau2]; ring
  have p52 : t52 = 0 := by norm_num [t52, taskRec]
  have p98 : t98 = 0 := by norm_num [t98, taskRec]
  have p110 : t110 = 0 := by norm_num [t110, taskRec]
  have p126 : t126 = 1 := by norm_num [t126, taskRec]
  have p141 : t141 = 0 := by norm_num [t141, taskRec]
  have p170 : t170 = 1 := by norm_num [t170, taskRec]
  have p173 : t173 = 0 := by norm_num [t173, taskRec]
  have p176 : t176 = 0 := by norm_num [t176, taskRec]
  have pc : (taskRec d).param 8386110886139932792 = 0 := by norm_num [taskRec]
  have pd : (taskRec d).param 127961897066340 = 0 := by norm_num [taskRec]
  have hP1 : t119 = 0 := by simp only [t119, p52, p98, p110]; ring
  have hPQ : (t119 + t156) / t162 = taskP (cbrtR 2 ^ 2) := by
    have hq2 : t162 = t161 ^ 2 := by norm_num [t162, N]
    rw [hP1, hq2]
    simp only [t156, t161, p110, p126, p141, hr203, hr5, hat, hr103, hat2, hr53, hat3, hal4, htau4, taskP]
    norm_num [N]
    ring
  have hhd : t204 = 1 := by rw [show t204 = t50 ^ (taskRec d).param 127961897066340 from rfl, pd, Real.rpow_zero]
  have hc7 : t169 = cbrtR Real.pi ^ 2 * Real.pi ^ 2 := by
    have a : t167 = cbrtR Real.pi ^ 2 := by norm_num [t167, t3, fn1Val, N]
    have b : t30 = Real.pi ^ 2 := by norm_num [t30, N]
    simp only [t169, t168, a, b, hrt, hr5]; ring
  have hden : t199 = 576 * (cbrtR Real.pi ^ 2 * Real.pi ^ 2) := by
    have a : t199 = (24 * (cbrtR Real.pi * Real.pi)) ^ 2 := by
      simp only [t199, t180, hr83, t3, fn1Val]; norm_num [N]
    rw [a]; ring
  have hc : ¬ (1 : ℝ) ≤ (taskRec d).fld .densThreshold := not_le.mpr hd
  refine (if_neg hc).trans ?_
  rw [hPQ, hhd, p170, p173, p176, pc, hh, hc7, hden, mul_assoc _ t26 t27, hz43]
  norm_num [t5, t2, t3, t179, t181, t190, t189, fn1Val, N, -mul_eq_mul_left_iff, -mul_eq_mul_right_iff]
  field_simp

theorem taskSecond_val (d : ℝ) (hd : d < 1) :
    taskSecond noPrims (taskRec d) 1 1 0 (cbrtR 2 ^ 2) = (-(3 / 8) * (cbrtR 3 / cbrtR Real.pi) * cbrtR 2 * (1 - taskP (cbrtR 2 ^ 2))) := by
  obtain ⟨hw, hw3⟩ := two_root
  have hs := cbrtR_pos Real.pi_pos
  have hpi := Real.pi_pos
  unfold taskSecond
  extract_lets -merge t2 t3 t5 t6 t7 t10 t11 t14 t15 t17 t22 t23 t27 t29 t30 t31 t32 t34 t52 t98 t110 t126 t141 t167 t168 t170 t173 t176 t180 t188 t212 t213 t214 t216 t218 t220 t221 t222 t223 t227 t228 t229 t230 t233 t235 t237 t239 t242 t244 t247 t249 t258 t259 t263 t265 t266 t267 t270 t274 t277 t279 t301 t336 t341 t342 t347 t354 t355 t362 t363 t372 t377
  have hz43 : t218 * t27 = cbrtR 2 := by
    have a : t214 = 1 := by
      have c1 : ¬ t10 := by simp only [t10, t7, t6]; norm_num [N, taskRec]
      have c2 : ¬ t14 := by simp only [t14, t7, t6]; norm_num [N, taskRec]
      have b : t213 = -t17 := by rw [show t213 = t212 from if_neg c2, show t212 = -t17 from if_neg c1]
      simp only [t214, b, t17, t7, t6]
      norm_num [N]
    have c3 : ¬ t214 ≤ (taskRec d).fld .zetaThreshold := by rw [a]; norm_num [taskRec]
    have b : t218 = t216 * t214 := if_neg c3
    rw [b, show t216 = cbrtR t214 from rfl, a, cbrtR_one, show t27 = cbrtR t6 from rfl, show t6 = 2 by simp only [t6]; norm_num]
    ring
  have hr2 : t220 = 1 := by norm_num [t220, N]
  have hrt : t221 = 1 := cbrtR_one
  have hrt2 : t222 = 1 := by norm_num [t222, hrt, N]
  have hr83 : t223 = 1 := by simp only [t223, hr2, hrt2, mul_one]
  have hx : t227 = 0 := by simp [t227]
  have hh : t235 = 0 := by simp [t235, cnd, t228, hx, N]
  have hr4 : t237 = 1 := by norm_num [t237, hr2, N]
  have hr203 : t239 = 1 := by simp only [t239, hrt2, hr4, hr2, mul_one]
  have hr5 : t242 = 1 := by simp only [t242, hr4, mul_one]
  have hal : t258 = 1 := by
    have hc : N 0 0 < N 125 (-3) * (N 79999999992 (-10) * t244 - 0) * t247 * t249 := by
      norm_num [t247, t249, t244, N]
      positivity
    simp only [t258, if_pos hc]
    norm_num [t247, t249, t244, N]
    field_simp
  have hat : t259 = cbrtR 2 ^ 2 := by simp only [t259, hal, mul_one, one_mul]
  have hr103 : t263 = 1 := by simp only [t263, hrt, hr2, mul_one]
  have hal2 : t266 = 1 := by norm_num [t266, hal, N]
  have htau2 : t265 = (cbrtR 2 ^ 2) ^ 2 := by norm_num [t265, N]
  have hat2 : t267 = (cbrtR 2 ^ 2) ^ 2 := by simp only [t267, hal2, htau2, one_mul, mul_one]
  have hr53 : t270 = 1 := by simp only [t270, hrt2, mul_one]
  have hat3 : t274 = (cbrtR 2 ^ 2) ^ 3 := by simp only [t274, hal2, hal, htau2, one_mul, mul_one]; ring
  have hal4 : t279 = 1 := by norm_num [t279, hal2, N]
  have htau4 : t277 = (cbrtR 2 ^ 2) ^ 4 := by
    have : t277 = t265 ^ 2 := by norm_num [t277, N]
    rw [this, htau2]; ring
  have p52 : t52 = 0 := by norm_num [t52, taskRec]
  have p98 : t98 = 0 := by norm_num [t98, taskRec]
  have p110 : t110 = 0 := by norm_num [t110, taskRec]
  have p126 : t126 = 1 := by norm_num [t126, taskRec]
  have p141 : t141 = 0 := by norm_num [t141, taskRec]
  have p170 : t170 = 1 := by norm_num [t170, taskRec]
  have p173 : t173 = 0 := by norm_num [t173, taskRec]
  have p176 : t176 = 0 := by norm_num [t176, taskRec]
  have pc : (taskRec d).param 8386110886139932792 = 0 := by norm_num [taskRec]
  have pd : (taskRec d).param 127961897066340 = 0 := by norm_num [taskRec]
  have hP1 : t301 = 0 := by simp only [t301, p52, p98, p110]; ring
  have hPQ : (t301 + t336) / t342 = taskP (cbrtR 2 ^ 2) := by
    have hq2 : t342 = t341 ^ 2 := by norm_num [t342, N]
    rw [hP1, hq2]
    simp only [t336, t341, p110, p126, p141, hr203, hr5, hat, hr103, hat2, hr53, hat3, hal4, htau4, taskP]
    norm_num [N]
    ring
  have hhd : t377 = 1 := by rw [show t377 = t235 ^ (taskRec d).param 127961897066340 from rfl, pd, Real.rpow_zero]
  have hc7 : t347 = cbrtR Real.pi ^ 2 * Real.pi ^ 2 := by
    have a : t167 = cbrtR Real.pi ^ 2 := by norm_num [t167, t3, fn1Val, N]
    have b : t30 = Real.pi ^ 2 := by norm_num [t30, N]
    simp only [t347, t168, a, b, hrt, hr5]; ring
  have hden : t372 = 576 * (cbrtR Real.pi ^ 2 * Real.pi ^ 2) := by
    have a : t372 = (24 * (cbrtR Real.pi * Real.pi)) ^ 2 := by
      simp only [t372, t180, hr83, t3, fn1Val]; norm_num [N]
    rw [a]; ring
  have hc : ¬ (1 : ℝ) ≤ (taskRec d).fld .densThreshold := not_le.mpr hd
  refine (if_neg hc).trans ?_
  rw [hPQ, hhd, p170, p173, p176, pc, hh, hc7, hden, mul_assoc _ t218 t27, hz43]
  norm_num [t5, t2, t3, t354, t355, t363, t362, fn1Val, N, -mul_eq_mul_left_iff, -mul_eq_mul_right_iff]
  field_simp

theorem taskP_ne_taskU : taskP (cbrtR 2 ^ 2) ≠ taskU := by
  obtain ⟨hw, hw3⟩ := two_root
  have l1 : (125992104989487316476721060727822835057025146470150 / 10 ^ 50 : ℝ) ≤ cbrtR 2 := le_cbrtR (by norm_num) (by norm_num)
  have l2 : cbrtR 2 ≤ 125992104989487316476721060727822835057025146470151 / 10 ^ 50 := cbrtR_le' (by norm_num) (by norm_num)
  generalize cbrtR 2 = w at *
  have m1 : (125992104989487316476721060727822835057025146470150 / 10 ^ 50 : ℝ) ^ 2 ≤ w ^ 2 := by gcongr
  have m2 : w ^ 2 ≤ (125992104989487316476721060727822835057025146470151 / 10 ^ 50 : ℝ) ^ 2 := by gcongr
  unfold taskP taskU
  intro h
  rw [div_eq_div_iff (by positivity) (by norm_num)] at h
  have e4 : w ^ 4 = 2 * w := by linear_combination w * hw3
  have e6 : w ^ 6 = 4 := by linear_combination (w ^ 3 + 2) * hw3
  have e8 : w ^ 8 = 4 * w ^ 2 := by linear_combination (w ^ 5 + 2 * w ^ 2) * hw3
  ring_nf at h
  rw [e4, e6, e8] at h
  norm_num at h m1 m2
  linarith

theorem mgga_x_task_not_closedShellZ : ¬ ClosedShellZ .mgga mgga_x_task := by
  intro h
  obtain ⟨hw, hw3⟩ := two_root
  obtain ⟨e, k1, k2⟩ := h noPrims (taskRec (1 / 2)) 2 0 0 (2 * cbrtR 2 ^ 2) ⟨by norm_num [taskRec], by norm_num [taskRec]⟩ (by norm_num [taskRec]) two_pos le_rfl (by positivity)
  have h1 := (mgga_x_task_unpolExpr_eq _ _ _ _ _ _).symm.trans k1
  have h2 := (mgga_x_task_polExpr_eq _ _ _ _ _ _ _ _ _ _ _).symm.trans k2
  injection h1 with h1
  injection h2 with h2
  rw [task_unpol _ _ (by norm_num)] at h1
  rw [show (2 / 2 : ℝ) = 1 by norm_num, show (0 / 4 : ℝ) = 0 by norm_num, mul_div_cancel_left₀ _ (two_ne_zero' ℝ), zero_div, task_pol, taskFirst_val _ _ one_pos (by norm_num) (by norm_num) (by norm_num),
    taskSecond_val _ (by norm_num)] at h2
  refine taskP_ne_taskU ?_
  have hk : 0 < cbrtR 3 / cbrtR Real.pi * cbrtR 2 := mul_pos (div_pos (cbrtR_pos (by norm_num)) (cbrtR_pos Real.pi_pos)) hw
  refine mul_left_cancel₀ hk.ne' ?_
  linarith

theorem mgga_x_task_not_spinScaling : ¬ SpinScaling .mgga mgga_x_task := by
  intro h
  obtain ⟨hw, hw3⟩ := two_root
  obtain ⟨e, e0, e1, k1, k2, k3, k4⟩ := h noPrims (taskRec (1 / 2)) 1 1 0 0 0 0 0 (cbrtR 2 ^ 2) (cbrtR 2 ^ 2) ⟨by norm_num [taskRec], by norm_num [taskRec]⟩ one_pos one_pos le_rfl le_rfl
    (by positivity) (by positivity) ⟨by norm_num [taskRec], by norm_num [taskRec], by norm_num [taskRec], by norm_num [taskRec], by norm_num [taskRec]⟩
  have h1 := (mgga_x_task_polExpr_eq _ _ _ _ _ _ _ _ _ _ _).symm.trans k1
  have h2 := (mgga_x_task_unpolExpr_eq _ _ _ _ _ _).symm.trans k2
  have h3 := (mgga_x_task_unpolExpr_eq _ _ _ _ _ _).symm.trans k3
  injection h1 with h1
  injection h2 with h2
  injection h3 with h3
  rw [mul_one, mul_zero, task_unpol _ _ (by norm_num)] at h2 h3
  rw [task_pol, taskFirst_val _ _ one_pos (by norm_num) (by norm_num) (by norm_num), taskSecond_val _ (by norm_num)] at h1
  refine taskP_ne_taskU ?_
  have hk : 0 < cbrtR 3 / cbrtR Real.pi * cbrtR 2 := mul_pos (div_pos (cbrtR_pos (by norm_num)) (cbrtR_pos Real.pi_pos)) hw
  refine mul_left_cancel₀ hk.ne' ?_
  linarith

theorem mgga_x_task_not_screenedRest : ¬ ScreenedRest .mgga mgga_x_task := by
  intro h
  obtain ⟨hw, hw3⟩ := two_root
  obtain ⟨e, e0, k1, k2, k3⟩ := (h noPrims (taskRec (1 / 2)) 1 (1 / 2) 0 0 0 0 0 (cbrtR 2 ^ 2) 0 ⟨by norm_num [taskRec], by norm_num [taskRec]⟩ one_pos (by norm_num) le_rfl le_rfl
    (by positivity) le_rfl (by norm_num [taskRec]) (by norm_num [taskRec]) (by norm_num [taskRec])).1 le_rfl (by norm_num [taskRec])
  have h1 := (mgga_x_task_polExpr_eq _ _ _ _ _ _ _ _ _ _ _).symm.trans k1
  have h2 := (mgga_x_task_unpolExpr_eq _ _ _ _ _ _).symm.trans k2
  injection h1 with h1
  injection h2 with h2
  rw [mul_one, mul_zero, task_unpol _ _ (by norm_num)] at h2
  rw [task_pol, taskFirst_val _ _ (by norm_num) (by norm_num) (by norm_num) (by norm_num), taskSecond_screened noPrims (taskRec (1 / 2)) 1 (1 / 2) 0 0 le_rfl] at h1
  refine taskP_ne_taskU ?_
  have hk : 0 < cbrtR 3 / cbrtR Real.pi * cbrtR 2 := mul_pos (div_pos (cbrtR_pos (by norm_num)) (cbrtR_pos Real.pi_pos)) hw
  refine mul_left_cancel₀ hk.ne' ?_
  norm_num [N] at h1
  linarith

end
end Verif.Props
