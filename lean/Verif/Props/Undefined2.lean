import Verif.Props.Undefined
/-!
# C60: SG4 exchange, regTM exchange, the kinetic functional RDA
-/
set_option maxRecDepth 100000
set_option Elab.async false
namespace Verif.Norm
open Verif.Py Verif.Model Verif.Spec Verif.Data Verif.Lib
noncomputable section
open Classical

/-! ## SG4 exchange -/

prog sg4_e "res = 0.1e1 - 0.14268491327672029207e-10 * t38 / t23 / t39 / t22 * t45 * s0 * t27 / t19 / t50 / t48 / r0"
prog sg4_q "t1 = s0 / (4 * (3 * math.pi ** 2) ** (2 / 3) * r0 ** (8 / 3))
res = 1 - 14268491327672029207 * 165888 / 1000000000000000000000000000000 * t1 ** 5"
theorem sg4_qE_eq (P : Prims) (p : Rec) (r0 s0 : ℝ) : run P (unpolEnv p r0 (some s0) none none) sg4_q =
    .ok (N 1 0 - N 14268491327672029207 0 * N 165888 0 / N 1000000000000000000000000000000 0 * (s0 / (N 4 0 * (N 3 0 * Real.pi ^ N 2 0) ^ (N 2 0 / N 3 0) * r0 ^ (N 8 0 / N 3 0))) ^ N 5 0) := by kernel_rfl
theorem sg4_ok : pubUnpol 1000 .gga ⟨gga_x_sg4.unpolBody.body.take 26, sg4_e.res⟩ sg4_q = true := by decide +kernel
prog sg4_d "res = 0.56028717948717948718e0 * (0.1e1 - 0.31233982573039466940e-2 * t35) / (0.1e1 - 0.14268491327672029207e-10 * t38 / t23 / t39 / t22 * t45 * s0 * t27 / t19 / t50 / t48 / r0)"
theorem sg4_dead : deadAt 26 sg4_d.res scrU gga_x_sg4.unpolBody = true := by decide +kernel

prog sg4_p_e "res = 0.1e1 - 0.17835614159590036509e-11 * t49 * t51 * s0 / t36 / t55 / t53 / r0"
prog sg4_p_q "t1 = 4 * s0 / (4 * (3 * math.pi ** 2) ** (2 / 3) * (2 * r0) ** (8 / 3))
res = 1 - 17835614159590036509 * 1327104 / 10000000000000000000000000000000 * t1 ** 5"
theorem sg4_p_qE_eq (P : Prims) (p : Rec) (r0 r1 s0 s1 s2 : ℝ) : run P (polEnv p (r0, r1) (some (s0, s1, s2)) none none) sg4_p_q =
    .ok (N 1 0 - N 17835614159590036509 0 * N 1327104 0 / N 10000000000000000000000000000000 0 *
      (N 4 0 * s0 / (N 4 0 * (N 3 0 * Real.pi ^ N 2 0) ^ (N 2 0 / N 3 0) * (N 2 0 * r0) ^ (N 8 0 / N 3 0))) ^ N 5 0) := by kernel_rfl
theorem sg4_p_ok : pubPol 1000 .gga ⟨gga_x_sg4.polBody.body.take 34, sg4_p_e.res⟩ sg4_p_q = true := by decide +kernel
prog sg4_p_d "res = 0.56028717948717948718e0 * (0.1e1 - 0.31233982573039466940e-2 * t41) / (0.1e1 - 0.17835614159590036509e-11 * t49 * t51 * s0 / t36 / t55 / t53 / r0)"
theorem sg4_p_dead : deadAt 34 sg4_p_d.res scrP gga_x_sg4.polBody = true := by decide +kernel

/-! ## The kinetic functional RDA -/

prog rda_e "res = params_a_beta3 * t96 + 0.1e1"
prog rda_q "res = params_a_beta3 * (s0 / (4 * (3 * math.pi ** 2) ** (2 / 3) * r0 ** (8 / 3)) + params_a_c * (l0 / (4 * (3 * math.pi ** 2) ** (2 / 3) * r0 ** (5 / 3)))) + 1"
theorem rda_qE_eq (P : Prims) (p : Rec) (r0 s0 l0 tau0 : ℝ) : run P (unpolEnv p r0 (some s0) (some l0) (some tau0)) rda_q =
    .ok (par p "beta3" * (s0 / (N 4 0 * (N 3 0 * Real.pi ^ N 2 0) ^ (N 2 0 / N 3 0) * r0 ^ (N 8 0 / N 3 0)) +
      par p "c" * (l0 / (N 4 0 * (N 3 0 * Real.pi ^ N 2 0) ^ (N 2 0 / N 3 0) * r0 ^ (N 5 0 / N 3 0)))) + N 1 0) := by kernel_rfl
theorem rda_ok : pubUnpol 1000 .mgga ⟨mgga_k_rda.unpolBody.body.take 40, rda_e.res⟩ rda_q = true := by decide +kernel
prog rda_d "res = params_a_A3 * t96 / (params_a_beta3 * t96 + 0.1e1)"
theorem rda_dead : deadAt 40 rda_d.res scrU mgga_k_rda.unpolBody = true := by decide +kernel

/-! ## regTM exchange -/

prog regtm_e "res = t42 / 0.24e2 + t47 * t46 / t57 / t56 * t62"
prog regtm_q "t1 = s0 / (4 * (3 * math.pi ** 2) ** (2 / 3) * r0 ** (8 / 3))
t2 = tau0 * 2 ** (2 / 3) / r0 ** (5 / 3) - s0 * 2 ** (2 / 3) / r0 ** (8 / 3) / 8
t3 = 1 - 5 / 9 * (t2 * 6 ** (1 / 3) / (math.pi ** 2) ** (2 / 3))
t4 = 1 + 0.67148919753086419753e0 * t2 ** 2 * 6 ** (2 / 3) / (math.pi ** 2) ** (4 / 3)
res = t1 + t3 ** 2 * t3 / math.sqrt(t4) / t4 * math.exp(-3 * t1)"
def regtm_qE (P : Prims) (r0 s0 tau0 : ℝ) : ℝ :=
  let t1 := s0 / (N 4 0 * (N 3 0 * Real.pi ^ N 2 0) ^ (N 2 0 / N 3 0) * r0 ^ (N 8 0 / N 3 0))
  let t2 := tau0 * N 2 0 ^ (N 2 0 / N 3 0) / r0 ^ (N 5 0 / N 3 0) - s0 * N 2 0 ^ (N 2 0 / N 3 0) / r0 ^ (N 8 0 / N 3 0) / N 8 0
  let t3 := N 1 0 - N 5 0 / N 9 0 * (t2 * N 6 0 ^ (N 1 0 / N 3 0) / (Real.pi ^ N 2 0) ^ (N 2 0 / N 3 0))
  let t4 := N 1 0 + N 67148919753086419753 (-20) * t2 ^ N 2 0 * N 6 0 ^ (N 2 0 / N 3 0) / (Real.pi ^ N 2 0) ^ (N 4 0 / N 3 0)
  t1 + t3 ^ N 2 0 * t3 / fn1Val P .sqrt t4 / t4 * fn1Val P .exp (-N 3 0 * t1)
theorem regtm_qE_eq (P : Prims) (p : Rec) (r0 s0 l0 tau0 : ℝ) : run P (unpolEnv p r0 (some s0) (some l0) (some tau0)) regtm_q = .ok (regtm_qE P r0 s0 tau0) := by kernel_rfl
theorem regtm_ok : pubUnpol 1 .mgga ⟨mgga_x_regtm.unpolBody.body.take 34, regtm_e.res⟩ regtm_q = true := by decide +kernel
prog regtm_d "res = t36 * t40 / (t42 / 0.24e2 + t47 * t46 / t57 / t56 * t62)"
theorem regtm_dead : deadAt 34 regtm_d.res scrU mgga_x_regtm.unpolBody = true := by decide +kernel

prog regtm_p_e "res = t47 / 0.24e2 + t52 * t51 / t62 / t61 * t67"
prog regtm_p_q "t1 = 4 * s0 / (4 * (3 * math.pi ** 2) ** (2 / 3) * (2 * r0) ** (8 / 3))
t2 = 2 * tau0 * 2 ** (2 / 3) / (2 * r0) ** (5 / 3) - 4 * s0 * 2 ** (2 / 3) / (2 * r0) ** (8 / 3) / 8
t3 = 1 - 5 / 9 * (t2 * 6 ** (1 / 3) / (math.pi ** 2) ** (2 / 3))
t4 = 1 + 0.67148919753086419753e0 * t2 ** 2 * 6 ** (2 / 3) / (math.pi ** 2) ** (4 / 3)
res = t1 + t3 ** 2 * t3 / math.sqrt(t4) / t4 * math.exp(-3 * t1)"
theorem regtm_p_qE_eq (P : Prims) (p : Rec) (r0 r1 s0 s1 s2 l0 l1 tau0 tau1 : ℝ) :
    run P (polEnv p (r0, r1) (some (s0, s1, s2)) (some (l0, l1)) (some (tau0, tau1))) regtm_p_q = .ok (regtm_qE P (N 2 0 * r0) (N 4 0 * s0) (N 2 0 * tau0)) := by kernel_rfl
theorem regtm_p_ok : pubPol 1 .mgga ⟨mgga_x_regtm.polBody.body.take 42, regtm_p_e.res⟩ regtm_p_q = true := by decide +kernel
prog regtm_p_d "res = t41 * t45 / (t47 / 0.24e2 + t52 * t51 / t62 / t61 * t67)"
theorem regtm_p_dead : deadAt 42 regtm_p_d.res scrP mgga_x_regtm.polBody = true := by decide +kernel

end
end Verif.Norm

namespace Verif.Props
open Verif.Py Verif.Model Verif.Spec Verif.Data Verif.Lib Verif.Norm Real
noncomputable section
open Classical

theorem sg4_zero {c n g : ℝ} (hn : 0 < n) (hg : 0 ≤ g) (hs : c * reducedGradient n g ^ 10 = 1) :
    1 - c * (g / (4 * (3 * π ^ (2 : ℝ)) ^ (2 / 3 : ℝ) * n ^ (8 / 3 : ℝ))) ^ (5 : ℝ) = 0 := by
  rw [Real.rpow_two, ← redGrad_sq hn hg, show (5 : ℝ) = ((5 : ℕ) : ℝ) by norm_num, Real.rpow_natCast, ← pow_mul, hs, sub_self]

/-- C60: SG4 exchange as shipped has no value at one reduced gradient (between 3.65 and 3.66, see `sg4_reached`), where `1 - (μ s²)⁵` vanishes; the published
function is continuous there. -/
theorem gga_x_sg4_undefined (P : Prims) (p : Rec) (n g : ℝ) (ht : Thresholds p) (h : Above p n) (hg : 0 ≤ g)
    (hs : 14268491327672029207 * 165888 / 10 ^ 30 * reducedGradient n g ^ 10 = 1) : unpolStrict P gga_x_sg4 p n (some g) none none = none := by
  obtain ⟨x, e, e'⟩ := pubUnpol_of sg4_ok P p n g 0 0 ht h.pos hg le_rfl h.zeta h.dens
  have hx := (sg4_qE_eq P p n g).symm.trans e' |> Except.ok.inj
  have : x = 0 := by
    rw [← hx, ← sg4_zero h.pos hg hs]
    norm_num [N]
  rw [this] at e
  exact undefined_of sg4_dead (scrU_false h.dens) (div_none e)

/-- C60: the same for two spin densities; the reduced gradient is that of the first spin. -/
theorem gga_x_sg4_undefined_pol (P : Prims) (p : Rec) (a b saa sab sbb : ℝ) (ht : Thresholds p) (ha : 0 < a) (hb : 0 < b) (haa : 0 ≤ saa) (hbb : 0 ≤ sbb)
    (hu : Unscreened p a b) (hs : 17835614159590036509 * 1327104 / 10 ^ 31 * reducedGradient (2 * a) (4 * saa) ^ 10 = 1) :
    polStrict P gga_x_sg4 p (a, b) (some (saa, sab, sbb)) none none = none := by
  obtain ⟨x, e, e'⟩ := pubPol_of sg4_p_ok P p a b saa sab sbb 0 0 0 0 ht ha hb haa hbb le_rfl le_rfl hu
  have hx := (sg4_p_qE_eq P p a b saa sab sbb).symm.trans e' |> Except.ok.inj
  have : x = 0 := by
    rw [← hx, ← sg4_zero (mul_pos two_pos ha) (mul_nonneg (by norm_num) haa) hs]
    norm_num [N]
  rw [this] at e
  exact undefined_of sg4_p_dead (scrP_false hu.dens0) (div_none e)

/-- Each density has such a gradient; the reduced gradient is between 3.65 and 3.66. -/
theorem sg4_reached (n : ℝ) (hn : 0 < n) : ∃ g, 0 ≤ g ∧ 14268491327672029207 * 165888 / 10 ^ 30 * reducedGradient n g ^ 10 = 1 ∧
    3.65 < reducedGradient n g ∧ reducedGradient n g < 3.66 := by
  have hk : 0 < fermiK n := by unfold fermiK; positivity
  set c : ℝ := 14268491327672029207 * 165888 / 10 ^ 30 with hc
  have hc0 : 0 < c := by rw [hc]; norm_num
  set s : ℝ := (1 / c) ^ (1 / 10 : ℝ) with hsd
  have hs0 : 0 < s := by positivity
  have hs : s ^ 10 = 1 / c := by
    rw [hsd, ← Real.rpow_natCast, ← Real.rpow_mul (by positivity)]; norm_num
  refine ⟨(s * (2 * fermiK n * n)) ^ 2, sq_nonneg _, ?_⟩
  have e : reducedGradient n ((s * (2 * fermiK n * n)) ^ 2) = s := by
    rw [reducedGradient, Real.sqrt_sq (by positivity)]
    field_simp
  rw [e]
  refine ⟨by rw [hs]; field_simp, lt_of_pow_lt_pow_left₀ 10 hs0.le ?_, lt_of_pow_lt_pow_left₀ 10 (by norm_num) ?_⟩
  · rw [hs, hc]; norm_num
  · rw [hs, hc]; norm_num

/-- C60: the kinetic functional RDA has no value where its last reduced gradient `s² + c q` is `-1/β₃` (`q` the reduced Laplacian); `rda_reached`: for each density and gradient
some Laplacian does that. -/
theorem mgga_k_rda_undefined (P : Prims) (p : Rec) (n g l t : ℝ) (ht : Thresholds p) (h : Above p n) (hg : 0 ≤ g) (hτ : 0 ≤ t)
    (hl : par p "beta3" * (reducedGradient n g ^ 2 + par p "c" * (l / (4 * (3 * π ^ 2) ^ (2 / 3 : ℝ) * n ^ (5 / 3 : ℝ)))) = -1) :
    unpolStrict P mgga_k_rda p n (some g) (some l) (some t) = none := by
  obtain ⟨x, e, e'⟩ := pubUnpol_of rda_ok P p n g l t ht h.pos hg hτ h.zeta h.dens
  have hx := (rda_qE_eq P p n g l t).symm.trans e' |> Except.ok.inj
  have : x = 0 := by
    rw [← hx]
    rw [redGrad_sq h.pos hg] at hl
    simp only [N, zpow_zero, mul_one, Nat.cast_ofNat, Nat.cast_one, Real.rpow_two]
    rw [hl]; norm_num
  rw [this] at e
  exact undefined_of rda_dead (scrU_false h.dens) (div_none e)

theorem rda_reached (p : Rec) (n g : ℝ) (hn : 0 < n) (h3 : par p "beta3" ≠ 0) (hc : par p "c" ≠ 0) :
    ∃ l, par p "beta3" * (reducedGradient n g ^ 2 + par p "c" * (l / (4 * (3 * π ^ 2) ^ (2 / 3 : ℝ) * n ^ (5 / 3 : ℝ)))) = -1 := by
  have hd : 0 < 4 * (3 * π ^ 2) ^ (2 / 3 : ℝ) * n ^ (5 / 3 : ℝ) := by positivity
  refine ⟨(-1 / par p "beta3" - reducedGradient n g ^ 2) / par p "c" * (4 * (3 * π ^ 2) ^ (2 / 3 : ℝ) * n ^ (5 / 3 : ℝ)), ?_⟩
  rw [mul_div_assoc, div_self hd.ne']
  field_simp
  ring

theorem regtm_value {P : Prims} {n : ℝ} (hn : 0 < n) : regtm_qE P n 0 (n * thomasFermi n) = 0 := by
  have e2 : n * thomasFermi n * (2 : ℝ) ^ (2 / 3 : ℝ) / n ^ (5 / 3 : ℝ) = 3 / 10 * (6 * π ^ 2) ^ (2 / 3 : ℝ) := by
    rw [← two_six_rpow, thomasFermi, show (5 / 3 : ℝ) = 2 / 3 + 1 by norm_num, Real.rpow_add hn, Real.rpow_one]
    field_simp
  have e3 : (6 * π ^ 2 : ℝ) ^ (2 / 3 : ℝ) * (6 : ℝ) ^ (1 / 3 : ℝ) / (π ^ 2) ^ (2 / 3 : ℝ) = 6 := by
    rw [Real.mul_rpow (by norm_num) (by positivity), mul_right_comm, mul_div_assoc, div_self (by positivity), mul_one, ← Real.rpow_add (by norm_num)]
    norm_num
  simp only [regtm_qE, N, zpow_zero, mul_one, Nat.cast_ofNat, Nat.cast_one, zero_div, zero_mul, sub_zero, Real.rpow_two, e2]
  rw [show (1 : ℝ) - 5 / 9 * (3 / 10 * (6 * π ^ 2) ^ (2 / 3 : ℝ) * 6 ^ (1 / 3 : ℝ) / (π ^ 2) ^ (2 / 3 : ℝ)) =
    1 - 1 / 6 * ((6 * π ^ 2 : ℝ) ^ (2 / 3 : ℝ) * (6 : ℝ) ^ (1 / 3 : ℝ) / (π ^ 2) ^ (2 / 3 : ℝ)) by ring, e3]
  norm_num

/-- C60: regTM exchange as shipped has no value for the uniform electron gas. -/
theorem mgga_x_regtm_undefined (P : Prims) (p : Rec) (n l : ℝ) (ht : Thresholds p) (h : Above p n) :
    unpolStrict P mgga_x_regtm p n (some 0) (some l) (some (n * thomasFermi n)) = none := by
  have hn := h.pos
  obtain ⟨x, e, e'⟩ := pubUnpol_of regtm_ok P p n 0 l (n * thomasFermi n) ht h.pos le_rfl (by unfold thomasFermi; positivity) h.zeta h.dens
  have hx := (regtm_qE_eq P p n 0 l _).symm.trans e' |> Except.ok.inj
  rw [← hx, regtm_value hn] at e
  exact undefined_of regtm_dead (scrU_false h.dens) (div_none e)

/-- C60: nor where the first spin density is uniform. -/
theorem mgga_x_regtm_undefined_pol (P : Prims) (p : Rec) (a b sab sbb la lb tb : ℝ) (ht : Thresholds p) (ha : 0 < a) (hb : 0 < b) (hbb : 0 ≤ sbb)
    (htb : 0 ≤ tb) (hu : Unscreened p a b) :
    polStrict P mgga_x_regtm p (a, b) (some (0, sab, sbb)) (some (la, lb)) (some (a * thomasFermi (2 * a), tb)) = none := by
  have hta : 0 ≤ a * thomasFermi (2 * a) := by unfold thomasFermi; positivity
  obtain ⟨x, e, e'⟩ := pubPol_of regtm_p_ok P p a b 0 sab sbb la lb _ tb ht ha hb le_rfl hbb hta htb hu
  have hx := (regtm_p_qE_eq P p a b 0 sab sbb la lb _ tb).symm.trans e' |> Except.ok.inj
  rw [← hx, show N 4 0 * 0 = 0 by simp, show N 2 0 * (a * thomasFermi (2 * a)) = 2 * a * thomasFermi (2 * a) by norm_num [N]; ring,
    show N 2 0 * a = 2 * a by norm_num [N], regtm_value (mul_pos two_pos ha)] at e
  exact undefined_of regtm_p_dead (scrP_false hu.dens0) (div_none e)

/-! ### Instances -/

example (P : Prims) : ∃ g, 0 < g ∧ unpolStrict P gga_x_sg4 soloRec 1 (some g) none none = none := by
  obtain ⟨g, hg, h, h', _⟩ := sg4_reached 1 one_pos
  refine ⟨g, lt_of_le_of_ne hg fun e => ?_, gga_x_sg4_undefined P soloRec 1 g soloRec_ok solo_above hg h⟩
  rw [← e, reducedGradient, Real.sqrt_zero, zero_div] at h'
  norm_num at h'

example (P : Prims) : unpolStrict P mgga_x_regtm soloRec 1 (some 0) (some 0) (some (1 * thomasFermi 1)) = none :=
  mgga_x_regtm_undefined P soloRec 1 0 soloRec_ok solo_above

example (P : Prims) : ∃ l, unpolStrict P mgga_k_rda soloRec 1 (some 1) (some l) (some 1) = none := by
  have e : ∀ s, par soloRec s = 1 := fun _ => rfl
  obtain ⟨l, hl⟩ := rda_reached soloRec 1 1 one_pos (by rw [e]; norm_num) (by rw [e]; norm_num)
  exact ⟨l, mgga_k_rda_undefined P soloRec 1 1 l 1 soloRec_ok solo_above one_pos.le one_pos.le hl⟩

end
end Verif.Props
