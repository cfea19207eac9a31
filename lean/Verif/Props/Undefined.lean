import Verif.Norm.Published
import Verif.Lib.ClosedForm
import Verif.Lib.Solo
import Verif.Py.KernelRfl
import Verif.Spec.Literature
import Verif.Props.Published
/-!
# C60: formulas that are undefined somewhere inside their domain
-/
set_option maxRecDepth 100000
set_option Elab.async false
namespace Verif.Norm
open Verif.Py Verif.Model Verif.Spec Verif.Data Verif.Lib
noncomputable section
open Classical

/-! ## Parts without a value -/

/-- Has the expression no value, if `bad` and the temporaries `ns` have none and `scr` is false? -/
def dead (bad scr : Expr) (ns : List Nat) (e : Expr) : Bool :=
  if e = bad then true else
  match e with
  | .tmp n => ns.contains n
  | .neg a => dead bad scr ns a
  | .add a b => dead bad scr ns a || dead bad scr ns b
  | .sub a b => dead bad scr ns a || dead bad scr ns b
  | .mul a b => dead bad scr ns a || dead bad scr ns b
  | .div a b => dead bad scr ns a || dead bad scr ns b
  | .pow a b => dead bad scr ns a || dead bad scr ns b
  | .cond c _ b => decide (c = scr) && dead bad scr ns b
  | .call1 _ a => dead bad scr ns a
  | _ => false

theorem dead_seval {P : Prims} {E : Env} {T : Nat → Option Val} {bad scr : Expr} {ns : List Nat} (hb : seval P E T bad = none)
    (hs : seval P E T scr = some (.bool False)) (hn : ∀ n ∈ ns, T n = none) (e : Expr) (h : dead bad scr ns e = true) : seval P E T e = none := by
  have two : ∀ {a b : Expr}, (dead bad scr ns a = true → seval P E T a = none) → (dead bad scr ns b = true → seval P E T b = none) →
      (dead bad scr ns a || dead bad scr ns b) = true → sNum (seval P E T a) = none ∨ sNum (seval P E T b) = none := fun ia ib h => by
    rcases Bool.or_eq_true_iff.1 h with h | h
    · exact .inl (by rw [ia h]; rfl)
    · exact .inr (by rw [ib h]; rfl)
  have bind2 : ∀ {u v : Option ℝ} {k : ℝ → ℝ → Option Val}, u = none ∨ v = none → (do let x ← u; let y ← v; k x y) = none := fun h => by
    rcases h with rfl | rfl
    · rfl
    · rename_i u k; cases u <;> rfl
  induction e with
  | tmp n =>
    rw [dead] at h
    split_ifs at h with h'
    · rw [h']; exact hb
    · exact hn n (by simpa using h)
  | neg a ih =>
    rw [dead] at h
    split_ifs at h with h'
    · rw [h']; exact hb
    · simp only [seval]; rw [ih h]; rfl
  | add a b ia ib =>
    rw [dead] at h
    split_ifs at h with h'
    · rw [h']; exact hb
    · exact bind2 (two ia ib h)
  | sub a b ia ib =>
    rw [dead] at h
    split_ifs at h with h'
    · rw [h']; exact hb
    · exact bind2 (two ia ib h)
  | mul a b ia ib =>
    rw [dead] at h
    split_ifs at h with h'
    · rw [h']; exact hb
    · exact bind2 (two ia ib h)
  | div a b ia ib =>
    rw [dead] at h
    split_ifs at h with h'
    · rw [h']; exact hb
    · exact bind2 (two ia ib h)
  | pow a b ia ib =>
    rw [dead] at h
    split_ifs at h with h'
    · rw [h']; exact hb
    · exact bind2 (two ia ib h)
  | cond c a b _ _ ib =>
    rw [dead] at h
    split_ifs at h with h'
    · rw [h']; exact hb
    · obtain ⟨h1, h2⟩ := Bool.and_eq_true_iff.1 h
      simp only [seval]
      rw [of_decide_eq_true h1, hs, ib h2]
      simp [sBool, sNum]
  | call1 f a ih =>
    rw [dead] at h
    split_ifs at h with h'
    · rw [h']; exact hb
    · simp only [seval]; rw [ih h]; rfl
  | _ =>
    have h' := h
    by_contra hh
    unfold dead at h'
    simp at h'
    rw [h'] at hh
    exact hh hb

/-- The temporaries without value after the assignments. -/
def deadBody (scr : Expr) : List (Nat × Expr) → List Nat → List Nat
  | [], ns => ns
  | (n, e) :: r, ns => deadBody scr r (if dead (.undef 0) scr ns e then n :: ns else ns.filter (· ≠ n))

theorem deadBody_sexec {P : Prims} {E : Env} {scr : Expr} (hs : ∀ T, seval P E T scr = some (.bool False)) (b : List (Nat × Expr)) (ns : List Nat) (T : Nat → Option Val)
    (hn : ∀ n ∈ ns, T n = none) : ∀ n ∈ deadBody scr b ns, sexec P E b T n = none := by
  induction b generalizing ns T with
  | nil => exact hn
  | cons x b ih =>
    obtain ⟨n, e⟩ := x
    refine ih _ _ fun m hm => ?_
    split_ifs at hm with h
    · rcases List.mem_cons.1 hm with rfl | hm
      · rw [Function.update_self]; exact dead_seval rfl (hs T) hn e h
      · by_cases e' : m = n
        · subst e'; rw [Function.update_self]; exact dead_seval rfl (hs T) hn e h
        · rw [Function.update_of_ne e']; exact hn m hm
    · rw [List.mem_filter] at hm
      have : m ≠ n := by simpa using hm.2
      rw [Function.update_of_ne this]; exact hn m hm.1

/-- The check: `bad`, a part of assignment number `k` (of the result, if there are `k` assignments), has no value; nor has the result. -/
def deadAt (k : Nat) (bad scr : Expr) (p : Prog) : Bool :=
  match p.body.drop k with
  | [] => dead bad scr [] p.res
  | (n, e) :: r => dead bad scr [] e && dead (.undef 0) scr (deadBody scr r [n]) p.res

theorem undefined_of {P : Prims} {E : Env} {k : Nat} {bad scr : Expr} {p : Prog} (h : deadAt k bad scr p = true) (hs : ∀ T, seval P E T scr = some (.bool False))
    (hb : seval P E (sexec P E (p.body.take k) fun _ => none) bad = none) : srun P E p = none := by
  rw [deadAt] at h
  split at h
  · rename_i hd
    have hx : p.body.take k = p.body := by simpa [hd] using List.take_append_drop k p.body
    rw [hx] at hb
    rw [srun, dead_seval hb (hs _) (fun _ h => absurd h List.not_mem_nil) p.res h]
    rfl
  · rename_i n e r hd
    obtain ⟨h1, h2⟩ := Bool.and_eq_true_iff.1 h
    rw [srun]
    have hx : p.body = p.body.take k ++ (n, e) :: r := by rw [← hd, List.take_append_drop]
    rw [hx, sexec_append]
    rw [dead_seval (T := sexec P E ((n, e) :: r) (sexec P E (p.body.take k) fun _ => none)) rfl (hs _) ?_ p.res h2]
    · rfl
    · refine deadBody_sexec hs r [n] _ fun m hm => ?_
      rw [List.mem_singleton.1 hm, Function.update_self]
      exact dead_seval hb (hs _) (fun _ h => absurd h List.not_mem_nil) e h1

theorem log_none {P : Prims} {E : Env} {b : List (Nat × Expr)} {a : Expr} {y : ℝ} (h : run P E ⟨b, a⟩ = .ok y) (hy : y ≤ 0) :
    seval P E (sexec P E b fun _ => none) (.call1 .log a) = none := by
  cases hx : srun P E ⟨b, a⟩ with
  | none =>
    simp only [seval]
    rw [srun] at hx
    simp only [hx]; rfl
  | some x =>
    have := run_agree hx h
    rw [srun] at hx
    simp only [seval, hx]
    rw [this]
    exact if_neg (not_lt.2 hy)

theorem div_none {P : Prims} {E : Env} {b : List (Nat × Expr)} {a d : Expr} (h : run P E ⟨b, d⟩ = .ok 0) :
    seval P E (sexec P E b fun _ => none) (.div a d) = none := by
  cases hx : srun P E ⟨b, d⟩ with
  | none =>
    simp only [seval]
    rw [srun] at hx
    simp only [hx]
    cases sNum (seval P E (sexec P E b fun _ => none) a) <;> rfl
  | some x =>
    have := run_agree hx h
    subst this
    rw [srun] at hx
    simp only [seval, hx]
    cases sNum (seval P E (sexec P E b fun _ => none) a) with
    | none => rfl
    | some z => simp

/-- No screening. -/
def noScr : Expr := .lt (.num 1 0) (.num 0 0)
theorem noScr_false {P : Prims} {E : Env} (T : Nat → Option Val) : seval P E T noScr = some (.bool False) := by
  simp [noScr, seval, sNum]

/-! ## revSCAN correlation -/

prog revscan_u_e "res = 0.1e1 + (t191 - 0.1e1) * (0.1e1 - 0.1e1 / t199 / 0.2e1 - t214 / 0.2e1)"
prog revscan_u_q "t1 = (3 / (4 * math.pi * r0)) ** (1 / 3)
t2 = s0 / (4 * (3 * math.pi ** 2) ** (2 / 3) * r0 ** (8 / 3))
res = 1 + (math.exp(1 / (1 - 6623 / 100000 * math.sqrt(t1) + 16672 / 100000 * t1)) - 1) * (1 - 1 / (1 + 512103410505032599992 / 1000000000000000000000 * t2) ** (1 / 4) / 2 - (1 + 13112495152544296675008 / 10000000000000000000000 * t2 ** 2) ** (1 / 8) / 2)"

def revscan_u_qE (P : Prims) (r0 s0 : ℝ) : ℝ :=
  let t1 := (N 3 0 / (N 4 0 * Real.pi * r0)) ^ (N 1 0 / N 3 0)
  let t2 := s0 / (N 4 0 * (N 3 0 * Real.pi ^ (N 2 0)) ^ (N 2 0 / N 3 0) * r0 ^ (N 8 0 / N 3 0))
  N 1 0 + (fn1Val P .exp (N 1 0 / (N 1 0 - N 6623 0 / N 100000 0 * fn1Val P .sqrt t1 + N 16672 0 / N 100000 0 * t1)) - N 1 0) *
    (N 1 0 - N 1 0 / (N 1 0 + N 512103410505032599992 0 / N 1000000000000000000000 0 * t2) ^ (N 1 0 / N 4 0) / N 2 0 -
      (N 1 0 + N 13112495152544296675008 0 / N 10000000000000000000000 0 * t2 ^ (N 2 0)) ^ (N 1 0 / N 8 0) / N 2 0)

theorem revscan_u_qE_eq (P : Prims) (p : Rec) (r0 s0 l0 tau0 : ℝ) : run P (unpolEnv p r0 (some s0) (some l0) (some tau0)) revscan_u_q = .ok (revscan_u_qE P r0 s0) := by kernel_rfl

theorem revscan_u_ok : pubUnpol 1000 .mgga ⟨mgga_c_revscan.unpolBody.body.take 72, revscan_u_e.res⟩ revscan_u_q = true := by decide +kernel
theorem revscan_u_dead : deadAt 72 (.call1 .log revscan_u_e.res) noScr mgga_c_revscan.unpolBody = true := by decide +kernel

prog revscan_p_e "res = 0.1e1 + (t249 - 0.1e1) * (0.1e1 - 0.1e1 / t257 / 0.2e1 - t272 / 0.2e1)"
prog revscan_p_q "t0 = r0 + r1
t1 = (3 / (4 * math.pi * t0)) ** (1 / 3)
t2 = (s0 + 2 * s1 + s2) / (4 * (3 * math.pi ** 2) ** (2 / 3) * t0 ** (8 / 3))
res = 1 + (math.exp(1 / (1 - 6623 / 100000 * math.sqrt(t1) + 16672 / 100000 * t1)) - 1) * (1 - 1 / (1 + 512103410505032599992 / 1000000000000000000000 * t2) ** (1 / 4) / 2 - (1 + 13112495152544296675008 / 10000000000000000000000 * t2 ** 2) ** (1 / 8) / 2)"

theorem revscan_p_qE_eq (P : Prims) (p : Rec) (r0 r1 s0 s1 s2 l0 l1 tau0 tau1 : ℝ) :
    run P (polEnv p (r0, r1) (some (s0, s1, s2)) (some (l0, l1)) (some (tau0, tau1))) revscan_p_q = .ok (revscan_u_qE P (r0 + r1) (s0 + N 2 0 * s1 + s2)) := by kernel_rfl

theorem revscan_p_ok : pubPol 1000 .mgga ⟨mgga_c_revscan.polBody.body.take 105, revscan_p_e.res⟩ revscan_p_q = true := by decide +kernel
theorem revscan_p_dead : deadAt 105 (.call1 .log revscan_p_e.res) noScr mgga_c_revscan.polBody = true := by decide +kernel

/-! ## Meyer's kinetic functional -/

prog meyer_e "res = t53"
prog meyer_q "res = abs(1 - math.sqrt(s0) / (12 * (3 * math.pi ** 2) ** (1 / 3) * r0 ** (4 / 3)))"

theorem meyer_qE_eq (P : Prims) (p : Rec) (r0 s0 : ℝ) : run P (unpolEnv p r0 (some s0) none none) meyer_q =
    .ok (fn1Val P .abs (N 1 0 - fn1Val P .sqrt s0 / (N 12 0 * (N 3 0 * Real.pi ^ (N 2 0)) ^ (N 1 0 / N 3 0) * r0 ^ (N 4 0 / N 3 0)))) := by kernel_rfl

theorem meyer_ok : pubUnpol 1000 .gga ⟨gga_k_meyer.unpolBody.body.take 27, meyer_e.res⟩ meyer_q = true := by decide +kernel

prog meyer_d "res = (0.1e1 + t50) / t53"
/-- `r0 / 2 ≤ dens_threshold`. -/
def scrU : Expr := .le (.div (.inp .r0) (.num 2 0)) (.fld .densThreshold)
theorem meyer_dead : deadAt 27 meyer_d.res scrU gga_k_meyer.unpolBody = true := by decide +kernel

/-! ## Exchange of Jemmer and Knowles -/

prog jk_e "res = 0.1e1 + (t31 * t35 - l0 * t30 / t33 / r0) / s0 * t29 * t34"
prog jk_q "res = 1 + (s0 - l0 * r0) / s0 * 2"
theorem jk_qE_eq (P : Prims) (p : Rec) (r0 s0 l0 tau0 : ℝ) : run P (unpolEnv p r0 (some s0) (some l0) (some tau0)) jk_q = .ok (N 1 0 + (s0 - l0 * r0) / s0 * N 2 0) := by kernel_rfl
theorem jk_ok : pubUnpol 1000 .mgga ⟨mgga_x_jk.unpolBody.body.take 24, jk_e.res⟩ jk_q = true := by decide +kernel
prog jk_d "res = 0.2e1 / 0.9e1 * params_a_beta * t21 / t24 * t26 * t31 * t35 / (params_a_gamma * params_a_beta * t37 * t29 * t40 * t44 + 0.1e1) / (0.1e1 + (t31 * t35 - l0 * t30 / t33 / r0) / s0 * t29 * t34)"
theorem jk_dead : deadAt 24 jk_d.res scrU mgga_x_jk.unpolBody = true := by decide +kernel

/-! ## MVSb exchange -/

prog mvsb_e "res = t49"
prog mvsb_q "res = (2 ** (2 / 3) * tau0 / r0 ** (5 / 3) - 3 / 10 * (6 * math.pi ** 2) ** (2 / 3)) ** 2"
theorem mvsb_qE_eq (P : Prims) (p : Rec) (r0 s0 l0 tau0 : ℝ) : run P (unpolEnv p r0 (some s0) (some l0) (some tau0)) mvsb_q =
    .ok ((N 2 0 ^ (N 2 0 / N 3 0) * tau0 / r0 ^ (N 5 0 / N 3 0) - N 3 0 / N 10 0 * (N 6 0 * Real.pi ^ N 2 0) ^ (N 2 0 / N 3 0)) ^ N 2 0) := by kernel_rfl
theorem mvsb_ok : pubUnpol 1000 .mgga ⟨mgga_x_mvsb.unpolBody.body.take 25, mvsb_e.res⟩ mvsb_q = true := by decide +kernel
prog mvsb_d "res = params_a_e1 * t47 / t49"
theorem mvsb_dead : deadAt 25 mvsb_d.res scrU mgga_x_mvsb.unpolBody = true := by decide +kernel

prog mvsb_p_e "res = t54"
prog mvsb_p_q "res = (tau0 / r0 ** (5 / 3) - 3 / 10 * (6 * math.pi ** 2) ** (2 / 3)) ** 2"
theorem mvsb_p_qE_eq (P : Prims) (p : Rec) (r0 r1 s0 s1 s2 l0 l1 tau0 tau1 : ℝ) :
    run P (polEnv p (r0, r1) (some (s0, s1, s2)) (some (l0, l1)) (some (tau0, tau1))) mvsb_p_q =
    .ok ((tau0 / r0 ^ (N 5 0 / N 3 0) - N 3 0 / N 10 0 * (N 6 0 * Real.pi ^ N 2 0) ^ (N 2 0 / N 3 0)) ^ N 2 0) := by kernel_rfl
theorem mvsb_p_ok : pubPol 1000 .mgga ⟨mgga_x_mvsb.polBody.body.take 32, mvsb_p_e.res⟩ mvsb_p_q = true := by decide +kernel
prog mvsb_p_d "res = params_a_e1 * t52 / t54"
/-- `r0 ≤ dens_threshold`. -/
def scrP : Expr := .le (.inp .r0) (.fld .densThreshold)
theorem mvsb_p_dead : deadAt 32 mvsb_p_d.res scrP mgga_x_mvsb.polBody = true := by decide +kernel

/-! ## The regional self-interaction correction of Räsänen et al. -/

prog rlda_e "res = 0.2e1 * tau0 * t26 * t30 - l0 * t26 * t30 / 0.4e1"
prog rlda_q "res = (2 * tau0 - l0 / 4) * 2 ** (2 / 3) / r0 ** (5 / 3)"
theorem rlda_qE_eq (P : Prims) (p : Rec) (r0 s0 l0 tau0 : ℝ) : run P (unpolEnv p r0 (some s0) (some l0) (some tau0)) rlda_q =
    .ok ((N 2 0 * tau0 - l0 / N 4 0) * N 2 0 ^ (N 2 0 / N 3 0) / r0 ^ (N 5 0 / N 3 0)) := by kernel_rfl
theorem rlda_ok : pubUnpol 1000 .mgga ⟨mgga_x_rlda.unpolBody.body.take 17, rlda_e.res⟩ rlda_q = true := by decide +kernel
prog rlda_d "res = -0.15e2 / 0.16e2 * t4 * t16 * t18 * params_a_prefactor / t21 * t24 / (0.2e1 * tau0 * t26 * t30 - l0 * t26 * t30 / 0.4e1)"
theorem rlda_dead : deadAt 17 rlda_d.res scrU mgga_x_rlda.unpolBody = true := by decide +kernel

prog rlda_p_e "res = 0.2e1 * tau0 * t36 - l0 * t36 / 0.4e1"
prog rlda_p_q "res = (2 * tau0 - l0 / 4) / r0 ** (5 / 3)"
theorem rlda_p_qE_eq (P : Prims) (p : Rec) (r0 r1 s0 s1 s2 l0 l1 tau0 tau1 : ℝ) :
    run P (polEnv p (r0, r1) (some (s0, s1, s2)) (some (l0, l1)) (some (tau0, tau1))) rlda_p_q = .ok ((N 2 0 * tau0 - l0 / N 4 0) / r0 ^ (N 5 0 / N 3 0)) := by kernel_rfl
theorem rlda_p_ok : pubPol 1000 .mgga ⟨mgga_x_rlda.polBody.body.take 23, rlda_p_e.res⟩ rlda_p_q = true := by decide +kernel
prog rlda_p_d "res = -0.15e2 / 0.16e2 * t3 * t24 * t26 * t31 * t32 / (0.2e1 * tau0 * t36 - l0 * t36 / 0.4e1)"
theorem rlda_p_dead : deadAt 23 rlda_p_d.res scrP mgga_x_rlda.polBody = true := by decide +kernel

/-! ## The functional of Cancio and Chou -/

prog cc06_e "res = 0.1e1 + 0.65000000000000000000e-2 * t74"
prog cc06_q "t1 = (3 / (4 * math.pi * r0)) ** (1 / 3)
res = 1 + 26 / 1000 * t1 ** 2 * l0 / r0"
theorem cc06_qE_eq (P : Prims) (p : Rec) (r0 s0 l0 tau0 : ℝ) : run P (unpolEnv p r0 (some s0) (some l0) (some tau0)) cc06_q =
    .ok (N 1 0 + N 26 0 / N 1000 0 * ((N 3 0 / (N 4 0 * Real.pi * r0)) ^ (N 1 0 / N 3 0)) ^ N 2 0 * l0 / r0) := by kernel_rfl
theorem cc06_ok : pubUnpol 1000 .mgga ⟨mgga_xc_cc06.unpolBody.body.take 20, cc06_e.res⟩ cc06_q = true := by decide +kernel
prog cc06_d "res = (-0.7e-3 + 0.20000000000000000000e-2 * t74) / (0.1e1 + 0.65000000000000000000e-2 * t74)"
theorem cc06_dead : deadAt 20 cc06_d.res noScr mgga_xc_cc06.unpolBody = true := by decide +kernel

prog cc06_p_e "res = 0.1e1 + 0.65000000000000000000e-2 * t147"
prog cc06_p_q "t0 = r0 + r1
t1 = (3 / (4 * math.pi * t0)) ** (1 / 3)
res = 1 + 26 / 1000 * t1 ** 2 * (l0 + l1) / t0"
theorem cc06_p_qE_eq (P : Prims) (p : Rec) (r0 r1 s0 s1 s2 l0 l1 tau0 tau1 : ℝ) :
    run P (polEnv p (r0, r1) (some (s0, s1, s2)) (some (l0, l1)) (some (tau0, tau1))) cc06_p_q =
    .ok (N 1 0 + N 26 0 / N 1000 0 * ((N 3 0 / (N 4 0 * Real.pi * (r0 + r1))) ^ (N 1 0 / N 3 0)) ^ N 2 0 * (l0 + l1) / (r0 + r1)) := by kernel_rfl
theorem cc06_p_ok : pubPol 1000 .mgga ⟨mgga_xc_cc06.polBody.body.take 56, cc06_p_e.res⟩ cc06_p_q = true := by decide +kernel
prog cc06_p_d "res = (-0.7e-3 + 0.20000000000000000000e-2 * t147) / (0.1e1 + 0.65000000000000000000e-2 * t147)"
theorem cc06_p_dead : deadAt 56 cc06_p_d.res noScr mgga_xc_cc06.polBody = true := by decide +kernel


end
end Verif.Norm

namespace Verif.Props
open Verif.Py Verif.Model Verif.Spec Verif.Data Verif.Lib Verif.Norm Real
noncomputable section
open Classical

/-- The argument of the logarithm in revSCAN as shipped: `w` is the reciprocal of the local part, `u` and `v` the two roots. -/
theorem revscan_arg {D u v : ℝ} (hD : 0 < D) (hu : 0 < u) (hv : 2 + 2 * D ≤ v) : 1 + (exp (1 / D) - 1) * (1 - 1 / u / 2 - v / 2) ≤ 0 := by
  have h1 : 1 / D ≤ exp (1 / D) - 1 := by linarith [Real.add_one_le_exp (1 / D)]
  have h2 : 0 < 1 / u / 2 := by positivity
  have h3 : 1 / D * D = 1 := by field_simp
  have h4 : 0 < 1 / D := by positivity
  nlinarith [mul_le_mul_of_nonneg_right h1 hD.le]

theorem revscan_value {P : Prims} {n g : ℝ} (hn : 0 < n) (hg : 0 ≤ g) (hbig : (4 + 2 / 5 * wsRadius n) ^ 8 ≤ 1 + 1.3112 * reducedGradient n g ^ 4) :
    revscan_u_qE P n g ≤ 0 := by
  have e1 : g / (4 * (3 * π ^ 2) ^ (2 / 3 : ℝ) * n ^ (8 / 3 : ℝ)) = reducedGradient n g ^ 2 := by rw [redGrad_sq hn hg]
  have hr : 0 < wsRadius n := by unfold wsRadius; positivity
  have hs : 0 ≤ reducedGradient n g ^ 2 := sq_nonneg _
  have e0 : (3 / (4 * π * n)) ^ (1 / 3 : ℝ) = wsRadius n := rfl
  have key : revscan_u_qE P n g = 1 + (exp (1 / (1 - 6623 / 100000 * √(wsRadius n) + 16672 / 100000 * wsRadius n)) - 1) *
      (1 - 1 / (1 + 512103410505032599992 / 1000000000000000000000 * reducedGradient n g ^ 2) ^ (1 / 4 : ℝ) / 2 -
        (1 + 13112495152544296675008 / 10000000000000000000000 * (reducedGradient n g ^ 2) ^ (2 : ℝ)) ^ (1 / 8 : ℝ) / 2) := by
    rw [← e1, ← e0, revscan_u_qE]
    simp only [N, fn1Val, zpow_zero, mul_one, Nat.cast_ofNat, Nat.cast_one, Real.rpow_two]
  rw [key]
  have hq : 0 ≤ √(wsRadius n) := Real.sqrt_nonneg _
  have hq2 : √(wsRadius n) ^ 2 = wsRadius n := Real.sq_sqrt hr.le
  refine revscan_arg (by nlinarith [sq_nonneg (√(wsRadius n) - 1 / 5)]) (by positivity) ?_
  have : (2 + 2 * (1 - 6623 / 100000 * √(wsRadius n) + 16672 / 100000 * wsRadius n)) ≤ 4 + 2 / 5 * wsRadius n := by nlinarith
  refine this.trans ?_
  rw [show 4 + 2 / 5 * wsRadius n = ((4 + 2 / 5 * wsRadius n) ^ 8) ^ (1 / 8 : ℝ) by
    rw [← Real.rpow_natCast, ← Real.rpow_mul (by positivity)]; norm_num]
  refine Real.rpow_le_rpow (by positivity) (hbig.trans ?_) (by norm_num)
  rw [Real.rpow_two]
  nlinarith [sq_nonneg (reducedGradient n g ^ 2)]

/-- C60: revSCAN correlation as shipped is the logarithm of a negative number at large gradients: in `t214` (published: its reciprocal) a reciprocal is missing. -/
theorem mgga_c_revscan_undefined (P : Prims) (p : Rec) (n g l t : ℝ) (ht : Thresholds p) (h : Above p n) (hg : 0 ≤ g) (hτ : 0 ≤ t)
    (hbig : (4 + 2 / 5 * wsRadius n) ^ 8 ≤ 1 + 1.3112 * reducedGradient n g ^ 4) : unpolStrict P mgga_c_revscan p n (some g) (some l) (some t) = none := by
  obtain ⟨x, e, e'⟩ := pubUnpol_of revscan_u_ok P p n g l t ht h.pos hg hτ h.zeta h.dens
  have hx := (revscan_u_qE_eq P p n g l t).symm.trans e' |> Except.ok.inj
  exact undefined_of revscan_u_dead noScr_false (log_none e (hx ▸ revscan_value h.pos hg hbig))

/-- C60: the same for two spin densities. -/
theorem mgga_c_revscan_undefined_pol (P : Prims) (p : Rec) (a b saa sab sbb la lb ta tb : ℝ) (ht : Thresholds p) (ha : 0 < a) (hb : 0 < b) (haa : 0 ≤ saa) (hbb : 0 ≤ sbb)
    (hta : 0 ≤ ta) (htb : 0 ≤ tb) (hu : Unscreened p a b) (hg : 0 ≤ totalGrad saa sab sbb)
    (hbig : (4 + 2 / 5 * wsRadius (a + b)) ^ 8 ≤ 1 + 1.3112 * reducedGradient (a + b) (totalGrad saa sab sbb) ^ 4) :
    polStrict P mgga_c_revscan p (a, b) (some (saa, sab, sbb)) (some (la, lb)) (some (ta, tb)) = none := by
  obtain ⟨x, e, e'⟩ := pubPol_of revscan_p_ok P p a b saa sab sbb la lb ta tb ht ha hb haa hbb hta htb hu
  have hx := (revscan_p_qE_eq P p a b saa sab sbb la lb ta tb).symm.trans e' |> Except.ok.inj
  rw [show saa + N 2 0 * sab + sbb = totalGrad saa sab sbb by norm_num [N, totalGrad]] at hx
  exact undefined_of revscan_p_dead noScr_false (log_none e (hx ▸ revscan_value (add_pos ha hb) hg hbig))

/-- With the reciprocal, as published, the argument of the logarithm is at least 1. -/
theorem revscan_published {D u v : ℝ} (hD : 0 < D) (hu : 1 ≤ u) (hv : 1 ≤ v) : 1 ≤ 1 + (exp (1 / D) - 1) * (1 - 1 / u / 2 - 1 / v / 2) := by
  have h1 : 0 < exp (1 / D) - 1 := by linarith [Real.add_one_le_exp (1 / D), one_div_pos.2 hD]
  have h2 : 1 / u ≤ 1 := by rw [div_le_one (by linarith)]; exact hu
  have h3 : 1 / v ≤ 1 := by rw [div_le_one (by linarith)]; exact hv
  have : 0 ≤ (exp (1 / D) - 1) * (1 - 1 / u / 2 - 1 / v / 2) := mul_nonneg h1.le (by linarith)
  linarith

theorem scrU_false {P : Prims} {p : Rec} {n : ℝ} {s l t : Option ℝ} (h : p.fld .densThreshold < n / 2) (T : Nat → Option Val) :
    seval P (unpolEnv p n s l t) T scrU = some (.bool False) := by
  have : ¬n / 2 ≤ p.fld .densThreshold := not_le.2 h
  simp [scrU, seval, sNum, unpolEnv, this]

/-- C60: the kinetic functional of Meyer et al. as shipped has no value where the reduced gradient is exactly 6 (the published function is continuous there). -/
theorem gga_k_meyer_undefined (P : Prims) (p : Rec) (n g : ℝ) (ht : Thresholds p) (h : Above p n) (hg : 0 ≤ g) (hs : reducedGradient n g = 6) :
    unpolStrict P gga_k_meyer p n (some g) none none = none := by
  obtain ⟨x, e, e'⟩ := pubUnpol_of meyer_ok P p n g 0 0 ht h.pos hg le_rfl h.zeta h.dens
  have hx := (meyer_qE_eq P p n g).symm.trans e' |> Except.ok.inj
  have hn := h.pos
  have : x = 0 := by
    rw [← hx]
    rw [reducedGradient, fermiK, Real.mul_rpow (by positivity) hn.le] at hs
    have e2 : √g / (12 * (3 * π ^ (2 : ℝ)) ^ (1 / 3 : ℝ) * n ^ (4 / 3 : ℝ)) = 1 := by
      rw [show (4 / 3 : ℝ) = 1 / 3 + 1 by norm_num, Real.rpow_add hn, Real.rpow_one, Real.rpow_two]
      rw [div_eq_iff (by positivity)] at hs ⊢
      rw [hs]; ring
    simp only [N, fn1Val, zpow_zero, mul_one, Nat.cast_ofNat, Nat.cast_one]
    rw [e2]; norm_num
  rw [this] at e
  exact undefined_of meyer_dead (scrU_false h.dens) (div_none e)

/-- C60: the exchange functional of Jemmer and Knowles as shipped has no value where `2 n ∇²n = 3 |∇n|²`, whatever the parameters. -/
theorem mgga_x_jk_undefined (P : Prims) (p : Rec) (n g l t : ℝ) (ht : Thresholds p) (h : Above p n) (hg : 0 < g) (hτ : 0 ≤ t) (hl : 2 * n * l = 3 * g) :
    unpolStrict P mgga_x_jk p n (some g) (some l) (some t) = none := by
  obtain ⟨x, e, e'⟩ := pubUnpol_of jk_ok P p n g l t ht h.pos hg.le hτ h.zeta h.dens
  have hx := (jk_qE_eq P p n g l t).symm.trans e' |> Except.ok.inj
  have : x = 0 := by
    rw [← hx]
    simp only [N, zpow_zero, mul_one, Nat.cast_ofNat, Nat.cast_one]
    field_simp
    linarith
  rw [this] at e
  exact undefined_of jk_dead (scrU_false h.dens) (div_none e)

theorem scrP_false {P : Prims} {p : Rec} {a b : ℝ} {s : Option (ℝ × ℝ × ℝ)} {l t : Option (ℝ × ℝ)} (h : p.fld .densThreshold < a) (T : Nat → Option Val) :
    seval P (polEnv p (a, b) s l t) T scrP = some (.bool False) := by
  have : ¬a ≤ p.fld .densThreshold := not_le.2 h
  simp [scrP, seval, sNum, polEnv, this]

theorem two_six_rpow : (2 : ℝ) ^ (2 / 3 : ℝ) * (3 * π ^ 2) ^ (2 / 3 : ℝ) = (6 * π ^ 2) ^ (2 / 3 : ℝ) := by
  rw [← Real.mul_rpow (by norm_num) (by positivity)]; ring_nf

/-- C60: MVSb exchange as shipped has no value for a density with the kinetic energy density of the uniform electron gas, such as that gas itself (`g = 0`):
it divides by `τ - τ_unif`, where MSb divides by `τ + τ_unif` (line 23 of `unpol/mgga_x_mvsb.py`, line 27 of `unpol/mgga_x_msb.py`). -/
theorem mgga_x_mvsb_undefined (P : Prims) (p : Rec) (n g l : ℝ) (ht : Thresholds p) (h : Above p n) (hg : 0 ≤ g) :
    unpolStrict P mgga_x_mvsb p n (some g) (some l) (some (n * thomasFermi n)) = none := by
  have hn := h.pos
  obtain ⟨x, e, e'⟩ := pubUnpol_of mvsb_ok P p n g l (n * thomasFermi n) ht h.pos hg (by unfold thomasFermi; positivity) h.zeta h.dens
  have hx := (mvsb_qE_eq P p n g l _).symm.trans e' |> Except.ok.inj
  have : x = 0 := by
    rw [← hx]
    simp only [N, zpow_zero, mul_one, Nat.cast_ofNat]
    have e2 : (2 : ℝ) ^ (2 / 3 : ℝ) * (n * thomasFermi n) / n ^ (5 / 3 : ℝ) = 3 / 10 * (6 * π ^ (2 : ℝ)) ^ (2 / 3 : ℝ) := by
      rw [Real.rpow_two, ← two_six_rpow, thomasFermi, show (5 / 3 : ℝ) = 2 / 3 + 1 by norm_num, Real.rpow_add hn, Real.rpow_one]
      field_simp
    rw [e2, sub_self, Real.rpow_two]; norm_num
  rw [this] at e
  exact undefined_of mvsb_dead (scrU_false h.dens) (div_none e)

/-- C60: the same for two spin densities, the first with the kinetic energy density of a uniform gas of one spin. -/
theorem mgga_x_mvsb_undefined_pol (P : Prims) (p : Rec) (a b saa sab sbb la lb tb : ℝ) (ht : Thresholds p) (ha : 0 < a) (hb : 0 < b) (haa : 0 ≤ saa) (hbb : 0 ≤ sbb)
    (htb : 0 ≤ tb) (hu : Unscreened p a b) :
    polStrict P mgga_x_mvsb p (a, b) (some (saa, sab, sbb)) (some (la, lb)) (some (a * thomasFermi (2 * a), tb)) = none := by
  have hta : 0 ≤ a * thomasFermi (2 * a) := by unfold thomasFermi; positivity
  obtain ⟨x, e, e'⟩ := pubPol_of mvsb_p_ok P p a b saa sab sbb la lb _ tb ht ha hb haa hbb hta htb hu
  have hx := (mvsb_p_qE_eq P p a b saa sab sbb la lb _ tb).symm.trans e' |> Except.ok.inj
  have : x = 0 := by
    rw [← hx]
    simp only [N, zpow_zero, mul_one, Nat.cast_ofNat]
    have e2 : a * thomasFermi (2 * a) / a ^ (5 / 3 : ℝ) = 3 / 10 * (6 * π ^ (2 : ℝ)) ^ (2 / 3 : ℝ) := by
      rw [Real.rpow_two, ← two_six_rpow, thomasFermi, show (5 / 3 : ℝ) = 2 / 3 + 1 by norm_num, Real.rpow_add ha, Real.rpow_one, Real.mul_rpow (by norm_num) ha.le]
      field_simp
    rw [e2, sub_self, Real.rpow_two]; norm_num
  rw [this] at e
  exact undefined_of mvsb_p_dead (scrP_false hu.dens0) (div_none e)

/-- C60: the local exchange functional `mgga_x_rlda` has no value where `∇²n = 8 τ`, whatever the prefactor. -/
theorem mgga_x_rlda_undefined (P : Prims) (p : Rec) (n g t : ℝ) (ht : Thresholds p) (h : Above p n) (hg : 0 ≤ g) (hτ : 0 ≤ t) :
    unpolStrict P mgga_x_rlda p n (some g) (some (8 * t)) (some t) = none := by
  obtain ⟨x, e, e'⟩ := pubUnpol_of rlda_ok P p n g (8 * t) t ht h.pos hg hτ h.zeta h.dens
  have hx := (rlda_qE_eq P p n g _ t).symm.trans e' |> Except.ok.inj
  have : x = 0 := by
    rw [← hx]
    simp only [N, zpow_zero, mul_one, Nat.cast_ofNat]
    rw [show 2 * t - 8 * t / 4 = 0 by ring, zero_mul, zero_div]
  rw [this] at e
  exact undefined_of rlda_dead (scrU_false h.dens) (div_none e)

theorem mgga_x_rlda_undefined_pol (P : Prims) (p : Rec) (a b saa sab sbb lb ta tb : ℝ) (ht : Thresholds p) (ha : 0 < a) (hb : 0 < b) (haa : 0 ≤ saa) (hbb : 0 ≤ sbb)
    (hta : 0 ≤ ta) (htb : 0 ≤ tb) (hu : Unscreened p a b) :
    polStrict P mgga_x_rlda p (a, b) (some (saa, sab, sbb)) (some (8 * ta, lb)) (some (ta, tb)) = none := by
  obtain ⟨x, e, e'⟩ := pubPol_of rlda_p_ok P p a b saa sab sbb (8 * ta) lb ta tb ht ha hb haa hbb hta htb hu
  have hx := (rlda_p_qE_eq P p a b saa sab sbb _ lb ta tb).symm.trans e' |> Except.ok.inj
  have : x = 0 := by
    rw [← hx]
    simp only [N, zpow_zero, mul_one, Nat.cast_ofNat]
    rw [show 2 * ta - 8 * ta / 4 = 0 by ring, zero_div]
  rw [this] at e
  exact undefined_of rlda_p_dead (scrP_false hu.dens0) (div_none e)

/-- C60: the Laplacian functional of Cancio and Chou has a pole where `0.026 r_s² ∇²n = -n`. -/
theorem mgga_xc_cc06_undefined (P : Prims) (p : Rec) (n g l t : ℝ) (ht : Thresholds p) (h : Above p n) (hg : 0 ≤ g) (hτ : 0 ≤ t)
    (hl : 26 / 1000 * wsRadius n ^ 2 * l = -n) : unpolStrict P mgga_xc_cc06 p n (some g) (some l) (some t) = none := by
  obtain ⟨x, e, e'⟩ := pubUnpol_of cc06_ok P p n g l t ht h.pos hg hτ h.zeta h.dens
  have hx := (cc06_qE_eq P p n g l t).symm.trans e' |> Except.ok.inj
  have : x = 0 := by
    rw [← hx]
    simp only [N, zpow_zero, mul_one, Nat.cast_ofNat, Nat.cast_one, Real.rpow_two]
    rw [show ((3 : ℝ) / (4 * π * n)) ^ (1 / 3 : ℝ) = wsRadius n from rfl, hl, neg_div, div_self h.pos.ne']; norm_num
  rw [this] at e
  exact undefined_of cc06_dead noScr_false (div_none e)

theorem mgga_xc_cc06_undefined_pol (P : Prims) (p : Rec) (a b saa sab sbb la lb ta tb : ℝ) (ht : Thresholds p) (ha : 0 < a) (hb : 0 < b) (haa : 0 ≤ saa) (hbb : 0 ≤ sbb)
    (hta : 0 ≤ ta) (htb : 0 ≤ tb) (hu : Unscreened p a b) (hl : 26 / 1000 * wsRadius (a + b) ^ 2 * (la + lb) = -(a + b)) :
    polStrict P mgga_xc_cc06 p (a, b) (some (saa, sab, sbb)) (some (la, lb)) (some (ta, tb)) = none := by
  obtain ⟨x, e, e'⟩ := pubPol_of cc06_p_ok P p a b saa sab sbb la lb ta tb ht ha hb haa hbb hta htb hu
  have hx := (cc06_p_qE_eq P p a b saa sab sbb la lb ta tb).symm.trans e' |> Except.ok.inj
  have : x = 0 := by
    rw [← hx]
    simp only [N, zpow_zero, mul_one, Nat.cast_ofNat, Nat.cast_one, Real.rpow_two]
    rw [show ((3 : ℝ) / (4 * π * (a + b))) ^ (1 / 3 : ℝ) = wsRadius (a + b) from rfl, hl, neg_div, div_self (add_pos ha hb).ne']; norm_num
  rw [this] at e
  exact undefined_of cc06_p_dead noScr_false (div_none e)

/-! ### Instances -/

/-- Such gradients exist for each density. -/
theorem revscan_reached (n : ℝ) (hn : 0 < n) : ∃ S, ∀ g, S ≤ g → (4 + 2 / 5 * wsRadius n) ^ 8 ≤ 1 + 1.3112 * reducedGradient n g ^ 4 := by
  have hd : 0 < 4 * (3 * π ^ 2) ^ (2 / 3 : ℝ) * n ^ (8 / 3 : ℝ) := by positivity
  refine ⟨(4 + 2 / 5 * wsRadius n) ^ 8 * (4 * (3 * π ^ 2) ^ (2 / 3 : ℝ) * n ^ (8 / 3 : ℝ)), fun g hg => ?_⟩
  have hr : 0 < wsRadius n := by unfold wsRadius; positivity
  have h1 : 1 ≤ (4 + 2 / 5 * wsRadius n) ^ 8 := one_le_pow₀ (by linarith)
  have hg0 : 0 ≤ g := le_trans (by positivity) hg
  have h2 : (4 + 2 / 5 * wsRadius n) ^ 8 ≤ reducedGradient n g ^ 2 := by rw [redGrad_sq hn hg0, le_div_iff₀ hd]; exact hg
  rw [show reducedGradient n g ^ 4 = (reducedGradient n g ^ 2) ^ 2 by ring]
  nlinarith

theorem solo_above : Above soloRec 1 := ⟨one_pos, soloRec_zeta, by norm_num [soloRec]⟩

example (P : Prims) : ∃ g t, g ≤ 8 * 1 * t ∧ unpolStrict P mgga_c_revscan soloRec 1 (some g) (some 0) (some t) = none := by
  obtain ⟨S, hS⟩ := revscan_reached 1 one_pos
  exact ⟨max S 0, max S 0, by linarith [le_max_right S 0], mgga_c_revscan_undefined P soloRec 1 _ 0 _ soloRec_ok solo_above (le_max_right _ _) (le_max_right _ _) (hS _ (le_max_left _ _))⟩

example (P : Prims) : ∃ g, unpolStrict P gga_k_meyer soloRec 1 (some g) none none = none := by
  refine ⟨(6 * (2 * fermiK 1 * 1)) ^ 2, gga_k_meyer_undefined P soloRec 1 _ soloRec_ok solo_above (sq_nonneg _) ?_⟩
  have : 0 < fermiK 1 := by unfold fermiK; positivity
  rw [reducedGradient, Real.sqrt_sq (by positivity)]
  field_simp

example (P : Prims) : unpolStrict P mgga_x_jk soloRec 1 (some 2) (some 3) (some 5) = none :=
  mgga_x_jk_undefined P soloRec 1 2 3 5 soloRec_ok solo_above two_pos (by norm_num) (by norm_num)

example (P : Prims) : unpolStrict P mgga_x_mvsb soloRec 1 (some 0) (some 0) (some (1 * thomasFermi 1)) = none :=
  mgga_x_mvsb_undefined P soloRec 1 0 0 soloRec_ok solo_above le_rfl

example (P : Prims) : unpolStrict P mgga_x_rlda soloRec 1 (some 1) (some (8 * 2)) (some 2) = none :=
  mgga_x_rlda_undefined P soloRec 1 1 2 soloRec_ok solo_above one_pos.le two_pos.le

example (P : Prims) : ∃ l, unpolStrict P mgga_xc_cc06 soloRec 1 (some 1) (some l) (some 1) = none := by
  have : 0 < wsRadius 1 := by unfold wsRadius; positivity
  exact ⟨-1 / (26 / 1000 * wsRadius 1 ^ 2), mgga_xc_cc06_undefined P soloRec 1 1 _ 1 soloRec_ok solo_above one_pos.le one_pos.le (by field_simp)⟩

end
end Verif.Props
