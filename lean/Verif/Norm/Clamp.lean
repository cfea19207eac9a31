import Verif.Norm.Check2
import Verif.Spec.Clamp
/-!
# Checks for the spin-scaling relation on the whole domain
-/
namespace Verif.Norm
open Verif.Py Verif.Model Verif.Spec

set_option linter.unusedSimpArgs false

noncomputable section

/-- The power of `1 ± ζ` in a formula. -/
inductive PowKind
  /-- `4/3` -/
  | third
  /-- `5/3` -/
  | thirds
  /-- `3/2` -/
  | half

def PowKind.val : PowKind → ℝ
  | .third => 4 / 3
  | .thirds => 5 / 3
  | .half => 3 / 2

def PowKind.expr : PowKind → Expr → Expr
  | .third, a => .mul a (.call1 .cbrt a)
  | .thirds, a => .mul a (.mul (.call1 .cbrt a) (.call1 .cbrt a))
  | .half, a => .mul a (.call1 .sqrt a)

/-- `r * (c * (r0 + r1) / (2 * r)) ^ α`. -/
def wExpr (k : PowKind) (c : Expr) (r : Inp) : Expr :=
  .div (.mul (.inp r) (.mul (k.expr c) (k.expr (.add (.inp .r0) (.inp .r1))))) (k.expr (.mul (.num 2 0) (.inp r)))

theorem PowKind.eval_expr (k : PowKind) (P : Prims) (E : Env) (T : Nat → Option Val) {a : Expr} {x : ℝ} (hx : 0 < x) (h : eval P E T a = .ok (.num x)) :
    eval P E T (k.expr a) = .ok (.num (x ^ k.val)) := by
  have hc : cbrtR x = x ^ (1 / 3 : ℝ) := by simp [cbrtR, hx.le]
  cases k
  · have : x * cbrtR x = x ^ (4 / 3 : ℝ) := by
      rw [hc]; nth_rewrite 1 [← Real.rpow_one x]; rw [← Real.rpow_add hx]; norm_num
    simp [expr, eval, h, Val.toNum, fn1Val, val, bind, Except.bind, this]
  · have : x * (cbrtR x * cbrtR x) = x ^ (5 / 3 : ℝ) := by
      rw [hc]; nth_rewrite 1 [← Real.rpow_one x]; rw [← Real.rpow_add hx, ← Real.rpow_add hx]; norm_num
    simp [expr, eval, h, Val.toNum, fn1Val, val, bind, Except.bind, this]
  · have : x * Real.sqrt x = x ^ (3 / 2 : ℝ) := by
      rw [Real.sqrt_eq_rpow]; nth_rewrite 1 [← Real.rpow_one x]; rw [← Real.rpow_add hx]; norm_num
    simp [expr, eval, h, Val.toNum, fn1Val, val, bind, Except.bind, this]

theorem eval_wExpr (k : PowKind) (P : Prims) (E : Env) (T : Nat → Option Val) {c : Expr} {i : Inp} {x r0 r1 r : ℝ} (hx : 0 < x) (h0 : 0 < r0) (h1 : 0 < r1) (hr : 0 < r)
    (hc : eval P E T c = .ok (.num x)) (e0 : E.inp .r0 = .ok r0) (e1 : E.inp .r1 = .ok r1) (ei : E.inp i = .ok r) :
    eval P E T (wExpr k c i) = .ok (.num (r * (x / (2 * r / (r0 + r1))) ^ k.val)) := by
  have hn : eval P E T (.add (.inp .r0) (.inp .r1)) = .ok (.num (r0 + r1)) := by
    simp [eval, e0, e1, Val.toNum, bind, Except.bind]
  have h2 : eval P E T (.mul (.num 2 0) (.inp i)) = .ok (.num (2 * r)) := by
    simp [eval, ei, Val.toNum, bind, Except.bind]
  have a1 := k.eval_expr P E T hx hc
  have a2 := k.eval_expr P E T (add_pos h0 h1) hn
  have a3 := k.eval_expr P E T (mul_pos two_pos hr) h2
  have e : r * (x ^ k.val * (r0 + r1) ^ k.val) / (2 * r) ^ k.val = r * (x / (2 * r / (r0 + r1))) ^ k.val := by
    have hs := add_pos h0 h1
    rw [← Real.mul_rpow hx.le hs.le, mul_div_assoc, ← Real.div_rpow (by positivity) (by positivity)]
    congr 2
    field_simp
  simp only [wExpr, eval, ei, a1, a2, a3, Val.toNum, bind, Except.bind, e]

theorem run_nil (P : Prims) (E : Env) {e : Expr} {x : ℝ} (h : eval P E (fun _ => none) e = .ok (.num x)) : run P E ⟨[], e⟩ = .ok x := by
  simp [run, exec, h, Val.toNum, bind, Except.bind]

/-- `n · P = W · Q + V · R` with code `37` of `n`. -/
def chkW (pr : List Nat) (C : Cfg) (A : Sub) (P W V : Prog) (B : Sub) (Q : Prog) (D : Sub) (R : Prog) : Bool :=
  evProg C A P (st0 pr) fun x s => evProg C B Q s fun y s => evProg C D R s fun z s => evProg C A W s fun w s => evProg C A V s fun v s =>
    kif polyBeq (A.post (mulTP C.U (Nat.pow 37 C.U) 1 1 1 0 1 x))
      (A.post (addP (mulRaw C.U w y) (mulRaw C.U v z))) then ordChk s.tab 1 else false

theorem chkW_sound {pr : List Nat} (hpr : ∀ p ∈ pr, p.Prime) {C : Cfg} {K : Ctx} {A B D : Sub} {p q r w v : Prog} {EA EB ED : Env}
    (hp : PosOk C.U K.vp) (hC : C.facts = K.facts) (h0 : NnOk K.vb) (hf : FactsHold K (st0 pr))
    (hA : SubOk C K A EA (st0 pr)) (hB : SubOk C K B EB (st0 pr)) (hD : SubOk C K D ED (st0 pr)) (h : chkW pr C A p w v B q D r = true) :
    ∃ x y z a b, run K.P EA p = .ok x ∧ run K.P EB q = .ok y ∧ run K.P ED r = .ok z ∧ run K.P EA w = .ok a ∧ run K.P EA v = .ok b ∧
      H K.vp 37 ^ C.U * x = a * y + b * z := by
  obtain ⟨r1, s1, x1, hs1, hr1, hx1, h⟩ := evProg_spec hp hC hA (st0_wf hpr) h
  obtain ⟨r2, s2, x2, hs2, hr2, hx2, h⟩ := evProg_spec hp hC (hB.mono hs1) hs1.wf h
  have t2 := hs1.trans hs2
  obtain ⟨r3, s3, x3, hs3, hr3, hx3, h⟩ := evProg_spec hp hC (hD.mono t2) hs2.wf h
  have t3 := t2.trans hs3
  obtain ⟨r4, s4, x4, hs4, hr4, hx4, h⟩ := evProg_spec hp hC (hA.mono t3) hs3.wf h
  have t4 := t3.trans hs4
  obtain ⟨r5, s5, x5, hs5, hr5, hx5, h⟩ := evProg_spec hp hC (hA.mono t4) hs4.wf h
  have t5 := t4.trans hs5
  rw [kand] at h
  obtain ⟨he, ho⟩ := h
  obtain ⟨vc, hvc⟩ := exists_ok hs5.wf ho h0 (hf.mono t5)
  refine ⟨x1, x2, x3, x4, x5, hr1, hr2, hr3, hr4, hr5, ?_⟩
  have e := congrArg (den K.vp vc) (polyBeq_eq he)
  rw [hA.post, hA.post, addP_den, mulTP_den hp, mulRaw_den hp, mulRaw_den hp] at e
  rw [hx1 vc ((((hs2.trans hs3).trans hs4).trans hs5).ok hvc), hx2 vc (((hs3.trans hs4).trans hs5).ok hvc), hx3 vc ((hs4.trans hs5).ok hvc), hx4 vc (hs5.ok hvc), hx5 vc hvc]
  simpa [tm, H_one, H_powU] using e

/-- The case that the share of the second spin is at or below the threshold.  `c`: the second spin density is at or below `dens_threshold`
(`1`) or not (`0`), or nothing is said about the densities (`2`). -/
def kFacts (U c : Nat) : Facts :=
  fZ U (fShare U 2 (fShareLow U 3 (fLt10 U (kif Nat.beq c 0 then fDens U 2 (fDens U 3 .nil) else kif Nat.beq c 1 then fDens U 2 (fLow U 3 .nil) else .nil))))

/-- The weight of the first spin: with `2 - zt`, or as in C37. -/
def w0Expr (both : Bool) (k : PowKind) : Expr :=
  kif both then wExpr k (.sub (.num 2 0) (.fld .zetaThreshold)) .r0 else .inp .r0

def kChk (cap : Nat) (both : Bool) (k : PowKind) (fam : Fam) (f : Formula) (c : Nat) : Bool :=
  chkW primes ⟨12, cap, kFacts 12 c⟩
    (subP 12 fam (postN 12) (mono 12 1 1 2 1 1) (mono 12 1 1 3 1 1) (mono 12 1 1 1 2 1) (mono 12 1 1 1 1 23) (mono 12 1 1 1 3 1)
      (mono 12 1 1 1 1 31) (mono 12 1 1 1 1 41) (mono 12 1 1 1 5 1) (mono 12 1 1 1 7 1)) f.polBody
    ⟨[], w0Expr both k⟩ ⟨[], wExpr k (.fld .zetaThreshold) .r1⟩
    (subU 12 fam (postN 12) (mono 12 2 1 2 1 1) (mono 12 4 1 1 2 1) (mono 12 2 1 1 1 31) (mono 12 2 1 1 5 1)) f.unpolBody
    (subU 12 fam (postN 12) (mono 12 2 1 3 1 1) (mono 12 4 1 1 3 1) (mono 12 2 1 1 1 41) (mono 12 2 1 1 7 1)) f.unpolBody

/-- The conclusion of C62. -/
def At (share : ℝ → ℝ → ℝ → ℝ) (α : ℝ) (fam : Fam) (f : Formula) (P : Prims) (p : Rec) (r0 r1 s0 s1 s2 l0 l1 t0 t1 : ℝ) : Prop :=
  ∃ e e0 e1, f.pol P p (r0, r1) (fam.grad (s0, s1, s2)) (fam.meta (l0, l1)) (fam.meta (t0, t1)) = .ok e ∧
    f.unpol P p (2 * r0) (fam.grad (4 * s0)) (fam.meta (2 * l0)) (fam.meta (2 * t0)) = .ok e0 ∧
    f.unpol P p (2 * r1) (fam.grad (4 * s2)) (fam.meta (2 * l1)) (fam.meta (2 * t1)) = .ok e1 ∧
    (r0 + r1) * e = r0 * keptFactor share α (p.fld .zetaThreshold) r0 r1 * e0 + r1 * keptFactor share α (p.fld .zetaThreshold) r1 r0 * e1

/-- The way of keeping `ζ` away from `±1`. -/
def shareOf : Bool → ℝ → ℝ → ℝ → ℝ
  | true => keptShare
  | false => keptBelow

section
variable {zt r r' : ℝ}

theorem low_share (h0 : 0 < r) (h1 : 0 < r') (h : 2 * r ≤ zt * (r + r')) (both : Bool) : shareOf both zt r r' = zt := by
  have hs : 2 * r / (r + r') ≤ zt := by rw [div_le_iff₀ (by positivity)]; exact h
  cases both
  · exact max_eq_left hs
  · exact max_eq_left ((min_le_right _ _).trans hs)

theorem high_share (h0 : 0 < r) (h1 : 0 < r') (hz : zt < 1) (h : 2 * r' ≤ zt * (r + r')) (both : Bool) : shareOf both zt r r' = if both then 2 - zt else 2 * r / (r + r') := by
  have hs : 2 - zt ≤ 2 * r / (r + r') := by rw [le_div_iff₀ (by positivity)]; nlinarith
  cases both
  · exact max_eq_right (by linarith)
  · simp only [shareOf, keptShare, min_eq_left hs, if_true]; exact max_eq_right (by linarith)

theorem mid_share (h0 : 0 < r) (h1 : 0 < r') (h : zt * (r + r') < 2 * r) (h' : zt * (r + r') < 2 * r') (both : Bool) : shareOf both zt r r' = 2 * r / (r + r') := by
  have hs : 2 * r / (r + r') < 2 - zt := by rw [div_lt_iff₀ (by positivity)]; nlinarith
  have hs' : zt < 2 * r / (r + r') := by rw [lt_div_iff₀ (by positivity)]; exact h
  cases both
  · exact max_eq_right hs'.le
  · simp only [shareOf, keptShare, min_eq_right hs.le]; exact max_eq_right hs'.le

theorem keptFactor_one {share : ℝ → ℝ → ℝ → ℝ} {α : ℝ} (h0 : 0 < r) (h1 : 0 < r') (h : share zt r r' = 2 * r / (r + r')) : keptFactor share α zt r r' = 1 := by
  rw [keptFactor, h, div_self (by positivity), Real.one_rpow]
end

theorem kCase_of {cap c : Nat} {both : Bool} {k : PowKind} {fam : Fam} {f : Formula} (h : kChk cap both k fam f c = true) (P : Prims) (p : Rec)
    (r0 r1 s0 s1 s2 l0 l1 t0 t1 : ℝ) (ht : Thresholds p) (hz : p.fld .zetaThreshold < 1) (h0 : 0 < r0) (h1 : 0 < r1) (hs0 : 0 ≤ s0) (hs2 : 0 ≤ s2) (ht0 : 0 ≤ t0) (ht1 : 0 ≤ t1)
    (hl : 2 * r1 ≤ p.fld .zetaThreshold * (r0 + r1))
    (hc : c = 0 ∧ p.fld .densThreshold < r0 ∧ p.fld .densThreshold < r1 ∨ c = 1 ∧ p.fld .densThreshold < r0 ∧ r1 ≤ p.fld .densThreshold ∨ c = 2) :
    At (shareOf both) k.val fam f P p r0 r1 s0 s1 s2 l0 l1 t0 t1 := by
  let b : Base := ⟨P, r0, r1, s0, s1, s2, l0, l1, t0, t1, r0 + r1, p⟩
  have hn := add_pos h0 h1
  have hb : b.Pos := ⟨h0, h1, hs0, hs2, ht0, ht1, hn, ht.zeta, ht.dens⟩
  have hU : (12 : ℕ) ≠ 0 := by norm_num
  have hP := fun (p : Poly) vc => postN_den (F := kFacts 12 c) hb hU rfl p vc
  have v := posVals (F := kFacts 12 c) hb hU
  have hz2 : p.fld .zetaThreshold * (r0 + r1) < r0 + r1 := by nlinarith [ht.zeta]
  have hf : FactsHold (b.ctx 12 (kFacts 12 c)) (st0 primes) := by
    intro vc _ _
    refine fZ_ok v hz (fNeg_ok ?_ (fNN_ok ?_ (fNeg_ok ?_ ?_)))
    · rw [lin2_den]; simp only [v.m37, v.a2, v.a3, v.a13, v.a31, b]; norm_num; linarith
    · rw [lin2_den]; simp only [v.m37, v.a2, v.a3, v.a13, v.a31, b]; norm_num; linarith
    · rw [lin2_den]; simp only [v.m37, v.a2, v.a3, v.a13, v.a31, b]; norm_num; linarith
    · rcases hc with ⟨rfl, ha, hb⟩ | ⟨rfl, ha, hb⟩ | rfl
      · refine fNeg_ok ?_ (fNeg_ok ?_ trivial) <;> rw [lin2_den] <;> simp only [v.m37, v.a2, v.a3, v.a13, v.a31, b] <;> norm_num <;> linarith
      · refine fNeg_ok ?_ (fNN_ok ?_ trivial) <;> rw [lin2_den] <;> simp only [v.m37, v.a2, v.a3, v.a13, v.a31, b] <;> norm_num <;> linarith
      · trivial
  obtain ⟨x, y, z, a, a', hx, hy, hz', ha, ha', e⟩ := chkW_sound (K := b.ctx 12 (kFacts 12 c)) primes_prime (ctx_pos hb hU) rfl (ctx_nn hb) hf
    (subP_ok (R0 := r0) (R1 := r1) (S0 := s0) (S1 := s1) (S2 := s2) (L0 := l0) (L1 := l1) (T0 := t0) (T1 := t1) hb hU fam hP (idVals (b := b)))
    (subU_ok (R0 := 2 * r0) (S0 := 4 * s0) (L0 := 2 * l0) (T0 := 2 * t0) hb hU fam hP (fun vc v => by
      obtain ⟨a2, a3, _, c2, c3, c5, c7, d1, d2, d3⟩ := v
      simp only [mono_den, a2, a3, c2, c3, c5, c7, d1, d2, d3, b, H_one]; norm_num))
    (subU_ok (R0 := 2 * r1) (S0 := 4 * s2) (L0 := 2 * l1) (T0 := 2 * t1) hb hU fam hP (fun vc v => by
      obtain ⟨a2, a3, _, c2, c3, c5, c7, d1, d2, d3⟩ := v
      simp only [mono_den, a2, a3, c2, c3, c5, c7, d1, d2, d3, b, H_one]; norm_num)) h
  refine ⟨x, y, z, hx, hy, hz', ?_⟩
  rw [← H_powU, show Nat.pow 37 (Cfg.U ⟨12, cap, kFacts 12 c⟩) = Nat.pow (Nat.pow 37 1) 12 from rfl, v.a37, pow_one] at e
  have e1 : a' = r1 * keptFactor (shareOf both) k.val (p.fld .zetaThreshold) r1 r0 := by
    have := run_nil P (polEnv p (r0, r1) (fam.grad (s0, s1, s2)) (fam.meta (l0, l1)) (fam.meta (t0, t1)))
      (eval_wExpr k P _ (fun _ => none) (c := .fld .zetaThreshold) (i := .r1) ht.zeta h0 h1 h1 rfl rfl rfl rfl)
    rw [keptFactor, low_share h1 h0 (by rw [add_comm]; exact hl), add_comm r1 r0]
    exact (Except.ok.inj (this.symm.trans ha')).symm
  have e0 : a = r0 * keptFactor (shareOf both) k.val (p.fld .zetaThreshold) r0 r1 := by
    cases both
    · have := run_nil P (polEnv p (r0, r1) (fam.grad (s0, s1, s2)) (fam.meta (l0, l1)) (fam.meta (t0, t1))) (e := .inp .r0) (x := r0) rfl
      rw [keptFactor_one h0 h1 (high_share h0 h1 hz hl false), mul_one]
      exact (Except.ok.inj (this.symm.trans ha)).symm
    · have := run_nil P (polEnv p (r0, r1) (fam.grad (s0, s1, s2)) (fam.meta (l0, l1)) (fam.meta (t0, t1)))
        (eval_wExpr k P _ (fun _ => none) (c := .sub (.num 2 0) (.fld .zetaThreshold)) (x := 2 - p.fld .zetaThreshold) (i := .r0) (by linarith) h0 h1 h0
          (by simp [eval, polEnv, Val.toNum, bind, Except.bind]) rfl rfl rfl)
      rw [keptFactor, high_share h0 h1 hz hl]
      exact (Except.ok.inj (this.symm.trans ha)).symm
  rw [← e0, ← e1]
  exact e

theorem At.flip {share : ℝ → ℝ → ℝ → ℝ} {α : ℝ} {fam : Fam} {f : Formula} (hf : SpinFlipZ fam f) {P : Prims} {p : Rec} {r0 r1 s0 s1 s2 l0 l1 t0 t1 : ℝ}
    (ht : Thresholds p) (hz : p.fld .zetaThreshold < 1) (h0 : 0 < r0) (h1 : 0 < r1) (hs0 : 0 ≤ s0) (hs2 : 0 ≤ s2) (ht0 : 0 ≤ t0) (ht1 : 0 ≤ t1)
    (h : At share α fam f P p r1 r0 s2 s1 s0 l1 l0 t1 t0) : At share α fam f P p r0 r1 s0 s1 s2 l0 l1 t0 t1 := by
  obtain ⟨e, e0, e1, a, b, c, d⟩ := h
  obtain ⟨e', a1, a2⟩ := hf P p r0 r1 s0 s1 s2 l0 l1 t0 t1 ht hz h0 h1 hs0 hs2 ht0 ht1
  obtain rfl : e' = e := Except.ok.inj (a2.symm.trans a)
  exact ⟨e', e1, e0, a1, c, b, by rw [add_comm r0 r1, d, add_comm]⟩

/-- The unpolarized code returns zero below the density threshold. -/
theorem unpol_zero {fam : Fam} {f : Formula} (hc : ClosedShellZ fam f) (hB : ScreenedBoth fam f) {P : Prims} {p : Rec} {r s l t : ℝ} (ht : Thresholds p)
    (hz : p.fld .zetaThreshold < 1) (h0 : 0 < r) (hs : 0 ≤ s) (ht0 : 0 ≤ t) (hd : r ≤ p.fld .densThreshold) :
    f.unpol P p (2 * r) (fam.grad (4 * s)) (fam.meta (2 * l)) (fam.meta (2 * t)) = .ok 0 := by
  obtain ⟨e, a, b⟩ := hc P p (2 * r) (4 * s) (2 * l) (2 * t) ht hz (by positivity) (by positivity) (by positivity)
  have c := hB P p (2 * r / 2) (2 * r / 2) (4 * s / 4) (4 * s / 4) (4 * s / 4) (2 * l / 2) (2 * l / 2) (2 * t / 2) (2 * t / 2) ht (by positivity) (by positivity)
    (by positivity) (by positivity) (by positivity) (by positivity) (by linarith) (by linarith)
  rw [a, ← b, c]

theorem fullSpinScaling_of {cap : Nat} {both : Bool} {k : PowKind} {fam : Fam} {f : Formula} (hF : SpinFlipZ fam f) (hC : ClosedShellZ fam f) (hS : SpinScaling fam f)
    (hB : ScreenedBoth fam f) (hR : ScreenedRest fam f) (c0 : kChk cap both k fam f 0 = true) (c1 : kChk cap both k fam f 1 = true) :
    FullSpinScaling (shareOf both) k.val fam f := by
  have key : ∀ (P : Prims) (p : Rec) (r0 r1 s0 s1 s2 l0 l1 t0 t1 : ℝ), Thresholds p → p.fld .zetaThreshold < 1 →
      0 < r0 → 0 < r1 → 0 ≤ s0 → 0 ≤ s2 → 0 ≤ t0 → 0 ≤ t1 → 2 * r1 ≤ p.fld .zetaThreshold * (r0 + r1) →
      At (shareOf both) k.val fam f P p r0 r1 s0 s1 s2 l0 l1 t0 t1 := by
    intro P p r0 r1 s0 s1 s2 l0 l1 t0 t1 ht hz h0 h1 hs0 hs2 ht0 ht1 hl
    rcases lt_or_ge (p.fld .densThreshold) r0 with hd | hd
    · rcases lt_or_ge (p.fld .densThreshold) r1 with hd' | hd'
      · exact kCase_of c0 P p r0 r1 s0 s1 s2 l0 l1 t0 t1 ht hz h0 h1 hs0 hs2 ht0 ht1 hl (.inl ⟨rfl, hd, hd'⟩)
      · exact kCase_of c1 P p r0 r1 s0 s1 s2 l0 l1 t0 t1 ht hz h0 h1 hs0 hs2 ht0 ht1 hl (.inr (.inl ⟨rfl, hd, hd'⟩))
    · have hd' : r1 ≤ p.fld .densThreshold := by nlinarith [add_pos h0 h1]
      exact ⟨0, 0, 0, hB P p r0 r1 s0 s1 s2 l0 l1 t0 t1 ht h0 h1 hs0 hs2 ht0 ht1 hd hd', unpol_zero hC hB ht hz h0 hs0 ht0 hd,
        unpol_zero hC hB ht hz h1 hs2 ht1 hd', by ring⟩
  intro P p r0 r1 s0 s1 s2 l0 l1 t0 t1 ht hz h0 h1 hs0 hs2 ht0 ht1
  change At (shareOf both) k.val fam f P p r0 r1 s0 s1 s2 l0 l1 t0 t1
  rcases le_or_gt (2 * r1) (p.fld .zetaThreshold * (r0 + r1)) with hl | hl
  · exact key P p r0 r1 s0 s1 s2 l0 l1 t0 t1 ht hz h0 h1 hs0 hs2 ht0 ht1 hl
  rcases le_or_gt (2 * r0) (p.fld .zetaThreshold * (r0 + r1)) with hm | hm
  · exact .flip hF ht hz h0 h1 hs0 hs2 ht0 ht1 (key P p r1 r0 s2 s1 s0 l1 l0 t1 t0 ht hz h1 h0 hs2 hs0 ht1 ht0 (by rw [add_comm]; exact hm))
  have m0 := keptFactor_one (α := k.val) h0 h1 (mid_share h0 h1 hm hl both)
  have m1 := keptFactor_one (α := k.val) h1 h0 (mid_share h1 h0 (by rw [add_comm]; exact hl) (by rw [add_comm]; exact hm) both)
  obtain ⟨R1, R0⟩ := hR P p r0 r1 s0 s1 s2 l0 l1 t0 t1 ht h0 h1 hs0 hs2 ht0 ht1 hz hm hl
  rcases lt_or_ge (p.fld .densThreshold) r0 with hd | hd <;> rcases lt_or_ge (p.fld .densThreshold) r1 with hd' | hd'
  · obtain ⟨e, e0, e1, a, b, c, d⟩ := hS P p r0 r1 s0 s1 s2 l0 l1 t0 t1 ht h0 h1 hs0 hs2 ht0 ht1 ⟨hz, hd, hd', hm, hl⟩
    exact ⟨e, e0, e1, a, b, c, by rw [m0, m1, mul_one, mul_one, d]⟩
  · obtain ⟨e, e0, a, b, d⟩ := R1 hd' hd
    exact ⟨e, e0, 0, a, b, unpol_zero hC hB ht hz h1 hs2 ht1 hd', by rw [m0, mul_one, d, mul_zero, add_zero]⟩
  · obtain ⟨e, e1, a, b, d⟩ := R0 hd hd'
    exact ⟨e, 0, e1, a, unpol_zero hC hB ht hz h0 hs0 ht0 hd, b, by rw [m1, mul_one, d, mul_zero, zero_add]⟩
  · exact ⟨0, 0, 0, hB P p r0 r1 s0 s1 s2 l0 l1 t0 t1 ht h0 h1 hs0 hs2 ht0 ht1 hd hd', unpol_zero hC hB ht hz h0 hs0 ht0 hd,
      unpol_zero hC hB ht hz h1 hs2 ht1 hd', by ring⟩

/-- No share at or below the threshold; nothing is said about the densities. -/
def midFacts (U : Nat) : Facts := fZ U (fShare U 2 (fShare U 3 .nil))

def midChk (cap : Nat) (fam : Fam) (f : Formula) : Bool :=
  chkW primes ⟨12, cap, midFacts 12⟩
    (subP 12 fam (postN 12) (mono 12 1 1 2 1 1) (mono 12 1 1 3 1 1) (mono 12 1 1 1 2 1) (mono 12 1 1 1 1 23) (mono 12 1 1 1 3 1)
      (mono 12 1 1 1 1 31) (mono 12 1 1 1 1 41) (mono 12 1 1 1 5 1) (mono 12 1 1 1 7 1)) f.polBody
    ⟨[], .inp .r0⟩ ⟨[], .inp .r1⟩
    (subU 12 fam (postN 12) (mono 12 2 1 2 1 1) (mono 12 4 1 1 2 1) (mono 12 2 1 1 1 31) (mono 12 2 1 1 5 1)) f.unpolBody
    (subU 12 fam (postN 12) (mono 12 2 1 3 1 1) (mono 12 4 1 1 3 1) (mono 12 2 1 1 1 41) (mono 12 2 1 1 7 1)) f.unpolBody

theorem mid_of {cap : Nat} {both : Bool} {k : PowKind} {fam : Fam} {f : Formula} (h : midChk cap fam f = true) (P : Prims) (p : Rec)
    (r0 r1 s0 s1 s2 l0 l1 t0 t1 : ℝ) (ht : Thresholds p) (hz : p.fld .zetaThreshold < 1) (h0 : 0 < r0) (h1 : 0 < r1) (hs0 : 0 ≤ s0) (hs2 : 0 ≤ s2) (ht0 : 0 ≤ t0) (ht1 : 0 ≤ t1)
    (hm : p.fld .zetaThreshold * (r0 + r1) < 2 * r0) (hl : p.fld .zetaThreshold * (r0 + r1) < 2 * r1) :
    At (shareOf both) k.val fam f P p r0 r1 s0 s1 s2 l0 l1 t0 t1 := by
  let b : Base := ⟨P, r0, r1, s0, s1, s2, l0, l1, t0, t1, r0 + r1, p⟩
  have hn := add_pos h0 h1
  have hb : b.Pos := ⟨h0, h1, hs0, hs2, ht0, ht1, hn, ht.zeta, ht.dens⟩
  have hU : (12 : ℕ) ≠ 0 := by norm_num
  have hP := fun (p : Poly) vc => postN_den (F := midFacts 12) hb hU rfl p vc
  have v := posVals (F := midFacts 12) hb hU
  have hf : FactsHold (b.ctx 12 (midFacts 12)) (st0 primes) := by
    intro vc _ _
    refine fZ_ok v hz (fNeg_ok ?_ (fNeg_ok ?_ trivial)) <;> rw [lin2_den] <;> simp only [v.m37, v.a2, v.a3, v.a13, v.a31, b] <;> norm_num <;> linarith
  obtain ⟨x, y, z, a, a', hx, hy, hz', ha, ha', e⟩ := chkW_sound (K := b.ctx 12 (midFacts 12)) primes_prime (ctx_pos hb hU) rfl (ctx_nn hb) hf
    (subP_ok (R0 := r0) (R1 := r1) (S0 := s0) (S1 := s1) (S2 := s2) (L0 := l0) (L1 := l1) (T0 := t0) (T1 := t1) hb hU fam hP (idVals (b := b)))
    (subU_ok (R0 := 2 * r0) (S0 := 4 * s0) (L0 := 2 * l0) (T0 := 2 * t0) hb hU fam hP (fun vc v => by
      obtain ⟨a2, a3, _, c2, c3, c5, c7, d1, d2, d3⟩ := v
      simp only [mono_den, a2, a3, c2, c3, c5, c7, d1, d2, d3, b, H_one]; norm_num))
    (subU_ok (R0 := 2 * r1) (S0 := 4 * s2) (L0 := 2 * l1) (T0 := 2 * t1) hb hU fam hP (fun vc v => by
      obtain ⟨a2, a3, _, c2, c3, c5, c7, d1, d2, d3⟩ := v
      simp only [mono_den, a2, a3, c2, c3, c5, c7, d1, d2, d3, b, H_one]; norm_num)) h
  refine ⟨x, y, z, hx, hy, hz', ?_⟩
  rw [← H_powU, show Nat.pow 37 (Cfg.U ⟨12, cap, midFacts 12⟩) = Nat.pow (Nat.pow 37 1) 12 from rfl, v.a37, pow_one] at e
  rw [keptFactor_one h0 h1 (mid_share h0 h1 hm hl both), keptFactor_one h1 h0 (mid_share h1 h0 (by rw [add_comm]; exact hl) (by rw [add_comm]; exact hm) both), mul_one, mul_one]
  obtain rfl : r0 = a := Except.ok.inj ((run_nil P _ (e := .inp .r0) (x := r0) rfl).symm.trans ha)
  obtain rfl : r1 = a' := Except.ok.inj ((run_nil P _ (e := .inp .r1) (x := r1) rfl).symm.trans ha')
  exact e

/-- Formulas that do not look at `dens_threshold`. -/
theorem fullSpinScaling_plain {cap : Nat} {both : Bool} {k : PowKind} {fam : Fam} {f : Formula} (hF : SpinFlipZ fam f) (c0 : midChk cap fam f = true)
    (c1 : kChk cap both k fam f 2 = true) : FullSpinScaling (shareOf both) k.val fam f := by
  intro P p r0 r1 s0 s1 s2 l0 l1 t0 t1 ht hz h0 h1 hs0 hs2 ht0 ht1
  change At (shareOf both) k.val fam f P p r0 r1 s0 s1 s2 l0 l1 t0 t1
  rcases le_or_gt (2 * r1) (p.fld .zetaThreshold * (r0 + r1)) with hl | hl
  · exact kCase_of c1 P p r0 r1 s0 s1 s2 l0 l1 t0 t1 ht hz h0 h1 hs0 hs2 ht0 ht1 hl (.inr (.inr rfl))
  rcases le_or_gt (2 * r0) (p.fld .zetaThreshold * (r0 + r1)) with hm | hm
  · exact .flip hF ht hz h0 h1 hs0 hs2 ht0 ht1 (kCase_of c1 P p r1 r0 s2 s1 s0 l1 l0 t1 t0 ht hz h1 h0 hs2 hs0 ht1 ht0 (by rw [add_comm]; exact hm) (.inr (.inr rfl)))
  exact mid_of c0 P p r0 r1 s0 s1 s2 l0 l1 t0 t1 ht hz h0 h1 hs0 hs2 ht0 ht1 hm hl

end

end Verif.Norm
