import Verif.Model.MapleTemplate
import Verif.Props.LiteratureBounds
import Verif.Props.Values
/-!
# C57: the Maple program behind the formulas

Statements for every formula `f` of libxc, every Wigner–Seitz radius `rws` and every dimension `D`.
-/
namespace Verif.Props
open Verif.Py Verif.Model Verif.Spec Verif.Lib Verif.Data Real

/-- Powers of a half. -/
theorem half_rpow {r : ℝ} (hr : 0 ≤ r) (a : ℝ) : (r / 2) ^ (1 + a) = r ^ (1 + a) / (2 * 2 ^ a) := by
  rw [div_rpow hr (by norm_num), rpow_add (by norm_num : (0 : ℝ) < 2), rpow_one]

theorem half_xs {r s D : ℝ} (hr : 0 ≤ r) : √(s / 4) / (r / 2) ^ (1 + 1 / D) = 2 ^ (1 / D) * (√s / r ^ (1 + 1 / D)) := by
  have h4 : √(s / 4) = √s / 2 := by
    rw [sqrt_div' s (by norm_num), show (4 : ℝ) = 2 ^ 2 by norm_num, sqrt_sq (by norm_num)]
  rw [half_rpow hr, h4]
  have : (2 : ℝ) ^ (1 / D) ≠ 0 := (rpow_pos_of_pos (by norm_num) _).ne'
  by_cases h0 : r ^ (1 + 1 / D) = 0
  · rw [h0]; simp
  · field_simp

theorem half_u {r l D : ℝ} (hr : 0 ≤ r) : l / 2 / (r / 2) ^ (1 + 2 / D) = 2 ^ (2 / D) * (l / r ^ (1 + 2 / D)) := by
  rw [half_rpow hr]
  have : (2 : ℝ) ^ (2 / D) ≠ 0 := (rpow_pos_of_pos (by norm_num) _).ne'
  by_cases h0 : r ^ (1 + 2 / D) = 0
  · rw [h0]; simp
  · field_simp

/-- The code for unpolarized densities evaluates libxc's formula without polarization, with the total reduced gradient, and with the reduced variables of
both spins, which are `2^(1/D)` and `2^(2/D)` times the total ones: -/
theorem c57_closed (D : ℝ) (rws : ℝ → ℝ) (f : ℝ → ℝ → ℝ → ℝ → ℝ → ℝ → ℝ → ℝ → ℝ → ℝ) (n s l t : ℝ) (hn : 0 < n) :
    mzkUnpolMgga D rws f n s l t = f (rws n) 0 (√s / n ^ (1 + 1 / D)) (2 ^ (1 / D) * (√s / n ^ (1 + 1 / D))) (2 ^ (1 / D) * (√s / n ^ (1 + 1 / D)))
      (2 ^ (2 / D) * (l / n ^ (1 + 2 / D))) (2 ^ (2 / D) * (l / n ^ (1 + 2 / D))) (2 ^ (2 / D) * (t / n ^ (1 + 2 / D))) (2 ^ (2 / D) * (t / n ^ (1 + 2 / D))) := by
  rw [mzkUnpolMgga, mzkPolMgga, mXs0, mXs1, mU0, mU1, mTt0, mTt1, half_xs hn.le, half_u hn.le, half_u hn.le, mDens, mZeta, mXt, sub_self, zero_div, add_halves,
    show s / 4 + 2 * (s / 4) + s / 4 = s by ring]

theorem c57_closed_gga (D : ℝ) (rws : ℝ → ℝ) (f : ℝ → ℝ → ℝ → ℝ → ℝ → ℝ) (n s : ℝ) (hn : 0 < n) :
    mzkUnpolGga D rws f n s = f (rws n) 0 (√s / n ^ (1 + 1 / D)) (2 ^ (1 / D) * (√s / n ^ (1 + 1 / D))) (2 ^ (1 / D) * (√s / n ^ (1 + 1 / D))) := by
  rw [mzkUnpolGga, mzkPolGga, mXs0, mXs1, half_xs hn.le, mDens, mZeta, mXt, sub_self, zero_div, add_halves, show s / 4 + 2 * (s / 4) + s / 4 = s by ring]

theorem c57_closed_lda (rws : ℝ → ℝ) (f : ℝ → ℝ → ℝ) (n : ℝ) : mzkUnpolLda rws f n = f (rws n) 0 := by
  rw [mzkUnpolLda, mzkPolLda, mDens, mZeta, sub_self, zero_div, add_halves]

/-- The code for spin-polarized densities is symmetric if libxc's formula is symmetric under a change of sign of `ζ` together with an exchange of the spins: -/
theorem c57_flip (D : ℝ) (rws : ℝ → ℝ) (f : ℝ → ℝ → ℝ → ℝ → ℝ → ℝ → ℝ → ℝ → ℝ → ℝ)
    (hf : ∀ rs z xt x0 x1 u0 u1 t0 t1, f rs (-z) xt x1 x0 u1 u0 t1 t0 = f rs z xt x0 x1 u0 u1 t0 t1) (r0 r1 s0 s1 s2 l0 l1 t0 t1 : ℝ) :
    mzkPolMgga D rws f r1 r0 s2 s1 s0 l1 l0 t1 t0 = mzkPolMgga D rws f r0 r1 s0 s1 s2 l0 l1 t0 t1 := by
  simp only [mzkPolMgga, mXs0, mXs1, mU0, mU1, mTt0, mTt1]
  rw [← hf]
  congr 1
  · rw [mDens, mDens, add_comm]
  · rw [mZeta, mZeta, add_comm r1, ← neg_div, neg_sub]
  · rw [mXt, mXt, add_comm r1, show s2 + 2 * s1 + s0 = s0 + 2 * s1 + s2 by ring]

theorem c57_flip_gga (D : ℝ) (rws : ℝ → ℝ) (f : ℝ → ℝ → ℝ → ℝ → ℝ → ℝ) (hf : ∀ rs z xt x0 x1, f rs (-z) xt x1 x0 = f rs z xt x0 x1) (r0 r1 s0 s1 s2 : ℝ) :
    mzkPolGga D rws f r1 r0 s2 s1 s0 = mzkPolGga D rws f r0 r1 s0 s1 s2 :=
  c57_flip D rws (fun rs z xt x0 x1 _ _ _ _ => f rs z xt x0 x1) (fun _ _ _ _ _ _ _ _ _ => hf _ _ _ _ _) r0 r1 s0 s1 s2 0 0 0 0

theorem scale_xs {x D r s : ℝ} (hx : 0 < x) (hD : D ≠ 0) (hr : 0 < r) : √(x ^ (2 * D + 2) * s) / (x ^ D * r) ^ (1 + 1 / D) = √s / r ^ (1 + 1 / D) := by
  have h1 : √(x ^ (2 * D + 2) * s) = x ^ (D + 1) * √s := by
    rw [show 2 * D + 2 = (D + 1) + (D + 1) by ring, rpow_add hx, sqrt_mul (by positivity), sqrt_mul_self (rpow_nonneg hx.le _)]
  have h2 : (x ^ D * r) ^ (1 + 1 / D) = x ^ (D + 1) * r ^ (1 + 1 / D) := by
    rw [mul_rpow (by positivity) hr.le, ← rpow_mul hx.le]
    congr 2
    field_simp
  rw [h1, h2]
  exact mul_div_mul_left _ _ (rpow_pos_of_pos hx _).ne'

theorem scale_u {x D r l : ℝ} (hx : 0 < x) (hD : D ≠ 0) (hr : 0 < r) : x ^ (D + 2) * l / (x ^ D * r) ^ (1 + 2 / D) = l / r ^ (1 + 2 / D) := by
  have h2 : (x ^ D * r) ^ (1 + 2 / D) = x ^ (D + 2) * r ^ (1 + 2 / D) := by
    rw [mul_rpow (by positivity) hr.le, ← rpow_mul hx.le]
    congr 2
    field_simp
  rw [h2]
  exact mul_div_mul_left _ _ (rpow_pos_of_pos hx _).ne'

/-- Uniform scaling of the inputs (`ρ ↦ x^D ρ`, `σ ↦ x^(2D+2) σ`, `Δρ, τ ↦ x^(D+2) ·`) changes nothing but the Wigner–Seitz radius; so `f` and `rws` alone decide how
a functional scales: -/
theorem c57_scaling (D : ℝ) (hD : D ≠ 0) (rws : ℝ → ℝ) (f : ℝ → ℝ → ℝ → ℝ → ℝ → ℝ → ℝ → ℝ → ℝ → ℝ) (x r0 r1 s0 s1 s2 l0 l1 t0 t1 : ℝ) (hx : 0 < x) (h0 : 0 < r0) (h1 : 0 < r1) :
    mzkPolMgga D rws f (x ^ D * r0) (x ^ D * r1) (x ^ (2 * D + 2) * s0) (x ^ (2 * D + 2) * s1) (x ^ (2 * D + 2) * s2) (x ^ (D + 2) * l0) (x ^ (D + 2) * l1)
        (x ^ (D + 2) * t0) (x ^ (D + 2) * t1) =
      mzkPolMgga D (fun n => rws (x ^ D * n)) f r0 r1 s0 s1 s2 l0 l1 t0 t1 := by
  have hz : mZeta (x ^ D * r0) (x ^ D * r1) = mZeta r0 r1 := by
    rw [mZeta, mZeta, ← mul_sub, ← mul_add]
    exact mul_div_mul_left _ _ (rpow_pos_of_pos hx _).ne'
  have hxt : mXt D (x ^ D * r0) (x ^ D * r1) (x ^ (2 * D + 2) * s0) (x ^ (2 * D + 2) * s1) (x ^ (2 * D + 2) * s2) = mXt D r0 r1 s0 s1 s2 := by
    rw [mXt, mXt, ← scale_xs hx hD (add_pos h0 h1)]
    congr 2 <;> ring
  simp only [mzkPolMgga, hz, hxt, mXs0, mXs1, mU0, mU1, mTt0, mTt1, mDens, ← mul_add, scale_xs hx hD h0, scale_xs hx hD h1, scale_u hx hD h0, scale_u hx hD h1]

/-- For the Wigner–Seitz radius in three dimensions the radius is divided by `x`: -/
theorem c57_radius (x n : ℝ) (hx : 0 < x) (hn : 0 < n) : wsRadius (x ^ (3 : ℝ) * n) = wsRadius n / x := by
  rw [wsRadius, wsRadius, show 3 / (4 * π * (x ^ (3 : ℝ) * n)) = 3 / (4 * π * n) / x ^ (3 : ℝ) by field_simp, div_rpow (by positivity) (by positivity), ← rpow_mul hx.le]
  norm_num

variable {n : ℕ}

/-- For a density the reduced variables are those of the textbooks: `‖∇ρ‖/ρ^(4/3)`, `‖∇ρ↑‖/ρ↑^(4/3)`, `Δρ↑/ρ↑^(5/3)`, …, where the arguments of the formula are the ones that
`rho_to_arguments` computes (C06–C08): -/
theorem c57_density (rws : ℝ → ℝ) (f : ℝ → ℝ → ℝ → ℝ → ℝ → ℝ → ℝ → ℝ → ℝ → ℝ) (a b : Coord n → ℝ) (r : Coord n) (ha : DifferentiableAt ℝ a r) (hb : DifferentiableAt ℝ b r)
    (t0 t1 : ℝ) :
    mzkPolMgga 3 rws f (a r) (b r) (gradSq a r) (gradDot a b r) (gradSq b r) (lapl a r) (lapl b r) t0 t1 =
      f (rws (a r + b r)) ((a r - b r) / (a r + b r)) (‖gradient (fun x => a x + b x) r‖ / (a r + b r) ^ (4 / 3 : ℝ)) (‖gradient a r‖ / a r ^ (4 / 3 : ℝ))
        (‖gradient b r‖ / b r ^ (4 / 3 : ℝ)) (lapl a r / a r ^ (5 / 3 : ℝ)) (lapl b r / b r ^ (5 / 3 : ℝ)) (t0 / a r ^ (5 / 3 : ℝ)) (t1 / b r ^ (5 / 3 : ℝ)) := by
  rw [mzkPolMgga, mXt, mXs0, mXs1, mU0, mU1, mTt0, mTt1, mDens, mZeta, c06_total a b r ha hb, gradSq, gradSq, gradSq, sqrt_sq (norm_nonneg _), sqrt_sq (norm_nonneg _),
    sqrt_sq (norm_nonneg _)]
  norm_num

/-- Slater exchange as a function of the Wigner–Seitz radius and the polarization (von Barth, Hedin 1972). -/
noncomputable def slaterF (alpha rs z : ℝ) : ℝ := alpha * (-(3 / 4) * (9 / (4 * π ^ 2)) ^ (1 / 3 : ℝ) / rs * (((1 + z) ^ (4 / 3 : ℝ) + (1 - z) ^ (4 / 3 : ℝ)) / 2))

/-- The same for a GGA. -/
theorem c57_density_gga (rws : ℝ → ℝ) (f : ℝ → ℝ → ℝ → ℝ → ℝ → ℝ) (a b : Coord n → ℝ) (r : Coord n) (ha : DifferentiableAt ℝ a r) (hb : DifferentiableAt ℝ b r) :
    mzkPolGga 3 rws f (a r) (b r) (gradSq a r) (gradDot a b r) (gradSq b r) =
      f (rws (a r + b r)) ((a r - b r) / (a r + b r)) (‖gradient (fun x => a x + b x) r‖ / (a r + b r) ^ (4 / 3 : ℝ)) (‖gradient a r‖ / a r ^ (4 / 3 : ℝ))
        (‖gradient b r‖ / b r ^ (4 / 3 : ℝ)) :=
  c57_density rws (fun rs z xt x0 x1 _ _ _ _ => f rs z xt x0 x1) a b r ha hb 0 0

/-- The scaling relation for a GGA. -/
theorem c57_scaling_gga (D : ℝ) (hD : D ≠ 0) (rws : ℝ → ℝ) (f : ℝ → ℝ → ℝ → ℝ → ℝ → ℝ) (x r0 r1 s0 s1 s2 : ℝ) (hx : 0 < x) (h0 : 0 < r0) (h1 : 0 < r1) :
    mzkPolGga D rws f (x ^ D * r0) (x ^ D * r1) (x ^ (2 * D + 2) * s0) (x ^ (2 * D + 2) * s1) (x ^ (2 * D + 2) * s2) =
      mzkPolGga D (fun n => rws (x ^ D * n)) f r0 r1 s0 s1 s2 :=
  c57_scaling D hD rws (fun rs z xt x0 x1 _ _ _ _ => f rs z xt x0 x1) x r0 r1 s0 s1 s2 0 0 0 0 hx h0 h1

/-- The code for `lda_x` that is shipped is what the template gives for this function: -/
theorem c57_lda_x (P : Prims) (p : Rec) (r0 r1 : ℝ) (hp : Thresholds p) (h0 : 0 < r0) (h1 : 0 < r1) (hu : Unscreened p r0 r1) :
    lda_x.pol P p (r0, r1) none none none = .ok (mzkPolLda wsRadius (slaterF (par p "alpha")) r0 r1) := by
  obtain ⟨e, he, hs⟩ := lda_x_pol_is P p r0 r1 hp h0 h1 hu
  rw [he]
  congr 1
  have hd : 0 < r0 + r1 := by linarith
  refine mul_left_cancel₀ hd.ne' (hs.trans ?_)
  rw [mzkPolLda, slaterF, mDens, mZeta]
  have e1 : 1 + (r0 - r1) / (r0 + r1) = 2 * r0 / (r0 + r1) := by field_simp; ring
  have e2 : 1 - (r0 - r1) / (r0 + r1) = 2 * r1 / (r0 + r1) := by field_simp; ring
  rw [e1, e2, div_rpow (by positivity) hd.le, div_rpow (by positivity) hd.le, mul_rpow (by norm_num) h0.le, mul_rpow (by norm_num) h1.le, wsRadius]
  have e3 : (r0 + r1) ^ (4 / 3 : ℝ) = (r0 + r1) * (r0 + r1) ^ (1 / 3 : ℝ) := by
    rw [show (4 / 3 : ℝ) = 1 + 1 / 3 by norm_num, rpow_add hd, rpow_one]
  have e4 : (2 : ℝ) ^ (4 / 3 : ℝ) = 2 * 2 ^ (1 / 3 : ℝ) := by
    rw [show (4 / 3 : ℝ) = 1 + 1 / 3 by norm_num, rpow_add (by norm_num), rpow_one]
  have e5 : (9 / (4 * π ^ 2)) ^ (1 / 3 : ℝ) * 2 ^ (1 / 3 : ℝ) = (6 / π) ^ (1 / 3 : ℝ) * (3 / (4 * π * (r0 + r1))) ^ (1 / 3 : ℝ) * (r0 + r1) ^ (1 / 3 : ℝ) := by
    rw [← mul_rpow (by positivity) (by norm_num), ← mul_rpow (by positivity) (by positivity), ← mul_rpow (by positivity) hd.le]
    congr 1
    field_simp
    norm_num
  have p1 : (3 / (4 * π * (r0 + r1))) ^ (1 / 3 : ℝ) ≠ 0 := (rpow_pos_of_pos (by positivity) _).ne'
  have p2 : (r0 + r1) ^ (1 / 3 : ℝ) ≠ 0 := (rpow_pos_of_pos hd _).ne'
  rw [e3, e4]
  generalize (3 / (4 * π * (r0 + r1))) ^ (1 / 3 : ℝ) = A at *
  generalize (r0 + r1) ^ (1 / 3 : ℝ) = B at *
  generalize (9 / (4 * π ^ 2)) ^ (1 / 3 : ℝ) = C at *
  generalize (2 : ℝ) ^ (1 / 3 : ℝ) = E at *
  generalize (6 / π) ^ (1 / 3 : ℝ) = G at *
  generalize r0 ^ (4 / 3 : ℝ) = X at *
  generalize r1 ^ (4 / 3 : ℝ) = Y at *
  field_simp
  linear_combination (X + Y) * par p "alpha" * e5

/-- A symmetric formula that depends on all variables, at different densities. -/
example (r0 r1 s0 s1 s2 l0 l1 t0 t1 : ℝ) (rws : ℝ → ℝ) :
    mzkPolMgga 3 rws (fun rs z xt x0 x1 u0 u1 t0 t1 => rs * z ^ 2 + xt + x0 * x1 + u0 + u1 + t0 * t1) r1 r0 s2 s1 s0 l1 l0 t1 t0 =
      mzkPolMgga 3 rws (fun rs z xt x0 x1 u0 u1 t0 t1 => rs * z ^ 2 + xt + x0 * x1 + u0 + u1 + t0 * t1) r0 r1 s0 s1 s2 l0 l1 t0 t1 :=
  c57_flip 3 rws _ (fun _ _ _ _ _ _ _ _ _ => by ring) _ _ _ _ _ _ _ _ _

/-- A formula that is not: `f = x0`. -/
example : mzkPolGga 3 id (fun _ _ _ x0 _ => x0) 1 4 1 0 0 ≠ mzkPolGga 3 id (fun _ _ _ x0 _ => x0) 4 1 0 0 1 := by
  simp [mzkPolGga, mXs0]

end Verif.Props
