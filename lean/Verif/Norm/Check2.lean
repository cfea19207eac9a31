import Verif.Norm.Rel
import Verif.Norm.Check
import Verif.Spec.Scaling
/-!
# Checks under assumptions on the thresholds
-/
namespace Verif.Norm
open Verif.Py Verif.Model Verif.Spec

set_option linter.unusedSimpArgs false

noncomputable section

/-! ## Comparison of programs up to a factor -/

/-- First program = `a/b · (p/d)` times the second. -/
def chkM (pr : List Nat) (C : Cfg) (A : Sub) (P : Prog) (B : Sub) (Q : Prog) (a : Nat) : Bool :=
  evProg C A P (st0 pr) fun x s => evProg C B Q s fun y s =>
    kif polyBeq x (mulTP C.U a 1 1 1 0 1 y) then ordChk s.tab 1 else false

theorem chkM_sound {pr : List Nat} (hpr : ∀ p ∈ pr, p.Prime) {C : Cfg} {K : Ctx} {A B : Sub} {p q : Prog} {EA EB : Env} {a : Nat}
    (hp : PosOk C.U K.vp) (hC : C.facts = K.facts) (h0 : NnOk K.vb) (hf : FactsHold K (st0 pr))
    (hA : SubOk C K A EA (st0 pr)) (hB : SubOk C K B EB (st0 pr)) (h : chkM pr C A p B q a = true) :
    ∃ y, run K.P EB q = .ok y ∧ run K.P EA p = .ok (H K.vp a * y) := by
  obtain ⟨r1, s1, x1, hs1, hr1, hx1, h⟩ := evProg_spec hp hC hA (st0_wf hpr) h
  obtain ⟨r2, s2, x2, hs2, hr2, hx2, h⟩ := evProg_spec hp hC (hB.mono hs1) hs1.wf h
  rw [kand] at h
  obtain ⟨he, ho⟩ := h
  obtain ⟨vc, hvc⟩ := exists_ok hs2.wf ho h0 (hf.mono (hs1.trans hs2))
  refine ⟨x2, hr2, ?_⟩
  rw [hr1, hx1 vc (hs2.ok hvc), hx2 vc hvc, polyBeq_eq he, mulTP_den hp]
  simp [tm, H_one]

/-- The program is zero. -/
def chk0 (pr : List Nat) (C : Cfg) (A : Sub) (P : Prog) : Bool :=
  evProg C A P (st0 pr) fun x s => kif isNil x then ordChk s.tab 1 else false

theorem chk0_sound {pr : List Nat} (hpr : ∀ p ∈ pr, p.Prime) {C : Cfg} {K : Ctx} {A : Sub} {p : Prog} {EA : Env}
    (hp : PosOk C.U K.vp) (hC : C.facts = K.facts) (h0 : NnOk K.vb) (hf : FactsHold K (st0 pr))
    (hA : SubOk C K A EA (st0 pr)) (h : chk0 pr C A p = true) : run K.P EA p = .ok 0 := by
  obtain ⟨r1, s1, x1, hs1, hr1, hx1, h⟩ := evProg_spec hp hC hA (st0_wf hpr) h
  rw [kand] at h
  obtain ⟨he, ho⟩ := h
  obtain ⟨vc, hvc⟩ := exists_ok hs1.wf ho h0 (hf.mono hs1)
  rw [hr1, hx1 vc hvc]
  cases r1 with
  | nil => simp
  | cons => cases he

/-- `n · P = r0 · Q + r1 · R` with codes `37`, `2`, `3` of `n`, `r0`, `r1`. -/
def chk3 (pr : List Nat) (C : Cfg) (A : Sub) (P : Prog) (B : Sub) (Q : Prog) (D : Sub) (R : Prog) : Bool :=
  evProg C A P (st0 pr) fun x s => evProg C B Q s fun y s => evProg C D R s fun z s =>
    kif polyBeq (A.post (mulTP C.U (Nat.pow 37 C.U) 1 1 1 0 1 x))
      (A.post (addP (mulTP C.U (Nat.pow 2 C.U) 1 1 1 0 1 y) (mulTP C.U (Nat.pow 3 C.U) 1 1 1 0 1 z))) then ordChk s.tab 1 else false

theorem chk3_sound {pr : List Nat} (hpr : ∀ p ∈ pr, p.Prime) {C : Cfg} {K : Ctx} {A B D : Sub} {p q r : Prog} {EA EB ED : Env}
    (hp : PosOk C.U K.vp) (hC : C.facts = K.facts) (h0 : NnOk K.vb) (hf : FactsHold K (st0 pr))
    (hA : SubOk C K A EA (st0 pr)) (hB : SubOk C K B EB (st0 pr)) (hD : SubOk C K D ED (st0 pr)) (h : chk3 pr C A p B q D r = true) :
    ∃ x y z, run K.P EA p = .ok x ∧ run K.P EB q = .ok y ∧ run K.P ED r = .ok z ∧
      H K.vp 37 ^ C.U * x = H K.vp 2 ^ C.U * y + H K.vp 3 ^ C.U * z := by
  obtain ⟨r1, s1, x1, hs1, hr1, hx1, h⟩ := evProg_spec hp hC hA (st0_wf hpr) h
  obtain ⟨r2, s2, x2, hs2, hr2, hx2, h⟩ := evProg_spec hp hC (hB.mono hs1) hs1.wf h
  obtain ⟨r3, s3, x3, hs3, hr3, hx3, h⟩ := evProg_spec hp hC (hD.mono (hs1.trans hs2)) hs2.wf h
  rw [kand] at h
  obtain ⟨he, ho⟩ := h
  obtain ⟨vc, hvc⟩ := exists_ok hs3.wf ho h0 (hf.mono ((hs1.trans hs2).trans hs3))
  refine ⟨x1, x2, x3, hr1, hr2, hr3, ?_⟩
  have e := congrArg (den K.vp vc) (polyBeq_eq he)
  rw [hA.post, hA.post, addP_den, mulTP_den hp, mulTP_den hp, mulTP_den hp] at e
  rw [hx1 vc ((hs2.trans hs3).ok hvc), hx2 vc (hs3.ok hvc), hx3 vc hvc]
  simpa [tm, H_one, H_powU] using e

/-! ## Facts -/

/-- `x < 0`. -/
def fNeg (x : Poly) (tl : Facts) : Facts := .cons 0 x false (.cons 0 (negP x) true (.cons 1 x false (.cons 1 (negP x) false tl)))
/-- `0 ≤ x`. -/
def fNN (x : Poly) (tl : Facts) : Facts := .cons 0 x true tl

theorem fNeg_ok {vp vc : Nat → ℝ} {x : Poly} {tl : Facts} (h : den vp vc x < 0) (ht : FactsOk vp vc tl) : FactsOk vp vc (fNeg x tl) := by
  simp only [fNeg, FactsOk, negP_den, if_true, Bool.false_eq_true, false_iff, true_iff, one_ne_zero, if_false, neg_eq_zero]
  exact ⟨not_le.mpr h, by linarith, h.ne, h.ne, ht⟩

theorem fNN_ok {vp vc : Nat → ℝ} {x : Poly} {tl : Facts} (h : 0 ≤ den vp vc x) (ht : FactsOk vp vc tl) : FactsOk vp vc (fNN x tl) := by
  simpa only [fNN, FactsOk, if_true, true_iff] using ⟨h, ht⟩

/-- `(p - m)/d · a + (p' - m')/d' · b`. -/
def lin2 (a b p m d p' m' d' : Nat) : Poly := .cons a 1 1 p m d (.cons b 1 1 p' m' d' .nil)

theorem lin2_den (vp vc : Nat → ℝ) (a b p m d p' m' d' : Nat) :
    den vp vc (lin2 a b p m d p' m' d') = ((p : ℝ) - m) / d * H vp a + ((p' : ℝ) - m') / d' * H vp b := by
  simp [lin2, tm, H_one]

variable {b : Base} {U : Nat} {F : Facts}

/-- Values of the positive codes. -/
structure PosVals (b : Base) (U : Nat) (vp : Nat → ℝ) : Prop where
  a2 : H vp (Nat.pow 2 U) = b.r0
  a3 : H vp (Nat.pow 3 U) = b.r1
  a13 : H vp (Nat.pow 13 U) = b.p.fld .zetaThreshold
  a31 : H vp (Nat.pow 31 U) = b.p.fld .densThreshold
  a37 : ∀ k, H vp (Nat.pow (Nat.pow 37 k) U) = b.lam ^ k
  m37 : ∀ x k, H vp (Nat.pow (Nat.mul (Nat.pow 37 k) x) U) = b.lam ^ k * H vp (Nat.pow x U)

theorem posVals (h : b.Pos) (hU : U ≠ 0) : PosVals b U (b.ctx U F).vp where
  a2 := (H_powU _ _ _).trans (vp_pow h hU (by norm_num))
  a3 := (H_powU _ _ _).trans (vp_pow h hU (by norm_num))
  a13 := (H_powU _ _ _).trans (vp_pow h hU (by norm_num))
  a31 := (H_powU _ _ _).trans (vp_pow h hU (by norm_num))
  a37 k := by
    rw [H_powU, H_powU, pow_right_comm, vp_pow h hU (by norm_num)]; rfl
  m37 x k := by
    rw [H_powU, H_powU, show H (b.ctx U F).vp (Nat.mul (Nat.pow 37 k) x) = H (b.ctx U F).vp (Nat.pow 37 k) * H (b.ctx U F).vp x from H_mul _ _ _, mul_pow, H_powU,
      pow_right_comm, vp_pow h hU (by norm_num)]
    rfl

/-- `zeta_threshold < 1`. -/
def fZ (U : Nat) (tl : Facts) : Facts := fNeg (lin2 1 (Nat.pow 13 U) 0 1 1 1 0 1) (fNeg (lin2 1 (Nat.pow 13 U) 0 1 1 1 0 2) tl)

theorem fZ_ok {vp vc : Nat → ℝ} (v : PosVals b U vp) {tl : Facts} (h : b.p.fld .zetaThreshold < 1) (ht : FactsOk vp vc tl) : FactsOk vp vc (fZ U tl) := by
  refine fNeg_ok ?_ (fNeg_ok ?_ ht) <;> rw [lin2_den, v.a13, H_one] <;> norm_num <;> linarith

/-! ## Inputs -/

/-- `pol` on given normal forms. -/
def subP (U : Nat) (f : Fam) (post : Poly → Poly) (r0 r1 s0 s1 s2 l0 l1 t0 t1 : Poly) : Sub where
  inp i := Inp.rec (some r0) (some r1) (ifS f s0) (ifS f s1) (ifS f s2) (ifM f l0) (ifM f l1) (ifM f t0) (ifM f t1) i
  fld := subFld U
  post := post

/-- `unpol` on given normal forms. -/
def subU (U : Nat) (f : Fam) (post : Poly → Poly) (r0 s0 l0 t0 : Poly) : Sub where
  inp i := Inp.rec (some r0) none (ifS f s0) none none (ifM f l0) none (ifM f t0) none i
  fld := subFld U
  post := post

theorem subP_ok (h : b.Pos) (hU : U ≠ 0) {cap : Nat} {pr : List Nat} (f : Fam) {post : Poly → Poly} {r0 r1 s0 s1 s2 l0 l1 t0 t1 : Poly}
    {R0 R1 S0 S1 S2 L0 L1 T0 T1 : ℝ} (hP : ∀ p vc, den (b.ctx U F).vp vc (post p) = den (b.ctx U F).vp vc p)
    (hv : ∀ vc, Vals b U F vc → R0 = den (b.ctx U F).vp vc r0 ∧ R1 = den (b.ctx U F).vp vc r1 ∧ S0 = den (b.ctx U F).vp vc s0 ∧
      S1 = den (b.ctx U F).vp vc s1 ∧ S2 = den (b.ctx U F).vp vc s2 ∧ L0 = den (b.ctx U F).vp vc l0 ∧ L1 = den (b.ctx U F).vp vc l1 ∧
      T0 = den (b.ctx U F).vp vc t0 ∧ T1 = den (b.ctx U F).vp vc t1) :
    SubOk ⟨U, cap, F⟩ (b.ctx U F) (subP U f post r0 r1 s0 s1 s2 l0 l1 t0 t1)
      (polEnv b.p (R0, R1) (f.grad (S0, S1, S2)) (f.meta (L0, L1)) (f.meta (T0, T1))) (st0 pr) := by
  refine subOk_mk h hU rfl hP rfl rfl fun i p hi => ?_
  cases f <;> cases i <;> simp only [subP, ifS, ifM, Fam.hasS, Fam.hasM, reduceCtorEq, Option.some.injEq] at hi <;> subst hi <;>
    refine ⟨_, rfl, fun vc ho => ?_⟩ <;> obtain ⟨e1, e2, e3, e4, e5, e6, e7, e8, e9⟩ := hv vc (vals h hU ho) <;> assumption

theorem subU_ok (h : b.Pos) (hU : U ≠ 0) {cap : Nat} {pr : List Nat} (f : Fam) {post : Poly → Poly} {r0 s0 l0 t0 : Poly}
    {R0 S0 L0 T0 : ℝ} (hP : ∀ p vc, den (b.ctx U F).vp vc (post p) = den (b.ctx U F).vp vc p)
    (hv : ∀ vc, Vals b U F vc → R0 = den (b.ctx U F).vp vc r0 ∧ S0 = den (b.ctx U F).vp vc s0 ∧
      L0 = den (b.ctx U F).vp vc l0 ∧ T0 = den (b.ctx U F).vp vc t0) :
    SubOk ⟨U, cap, F⟩ (b.ctx U F) (subU U f post r0 s0 l0 t0) (unpolEnv b.p R0 (f.grad S0) (f.meta L0) (f.meta T0)) (st0 pr) := by
  refine subOk_mk h hU rfl hP rfl rfl fun i p hi => ?_
  cases f <;> cases i <;> simp only [subU, ifS, ifM, Fam.hasS, Fam.hasM, reduceCtorEq, Option.some.injEq] at hi <;> subst hi <;>
    refine ⟨_, rfl, fun vc ho => ?_⟩ <;> obtain ⟨e1, e2, e3, e4⟩ := hv vc (vals h hU ho) <;> assumption

/-- The normal forms of the inputs themselves. -/
theorem idVals (vc : Nat → ℝ) (v : Vals b U F vc) :
    b.r0 = den (b.ctx U F).vp vc (mono U 1 1 2 1 1) ∧ b.r1 = den (b.ctx U F).vp vc (mono U 1 1 3 1 1) ∧
      b.s0 = den (b.ctx U F).vp vc (mono U 1 1 1 2 1) ∧ b.s1 = den (b.ctx U F).vp vc (mono U 1 1 1 1 23) ∧
      b.s2 = den (b.ctx U F).vp vc (mono U 1 1 1 3 1) ∧ b.l0 = den (b.ctx U F).vp vc (mono U 1 1 1 1 31) ∧
      b.l1 = den (b.ctx U F).vp vc (mono U 1 1 1 1 41) ∧ b.t0 = den (b.ctx U F).vp vc (mono U 1 1 1 5 1) ∧
      b.t1 = den (b.ctx U F).vp vc (mono U 1 1 1 7 1) := by
  obtain ⟨a2, a3, _, c2, c3, c5, c7, d1, d2, d3⟩ := v
  simp only [mono_den, a2, a3, c2, c3, c5, c7, d1, d2, d3, H_one]; norm_num

def noPost : Poly → Poly := fun p => p

/-! ## C37 -/

/-- `zeta_threshold < 2 r/n`, where `r` has code `a`. -/
def fShare (U a : Nat) (tl : Facts) : Facts := fNeg (lin2 (Nat.pow a U) (Nat.pow (Nat.mul (Nat.pow 37 1) 13) U) 0 1 1 1 0 2) tl
/-- `dens_threshold < r`, where `r` has code `a`. -/
def fDens (U a : Nat) (tl : Facts) : Facts := fNeg (lin2 (Nat.pow a U) (Nat.pow 31 U) 0 1 1 1 0 1) tl

def ssFacts (U : Nat) : Facts := fZ U (fShare U 2 (fShare U 3 (fDens U 2 (fDens U 3 .nil))))

theorem ssFacts_hold (h : b.Pos) (hU : U ≠ 0) (hn : b.lam = b.r0 + b.r1) (hu : Unscreened b.p b.r0 b.r1) (s : St) : FactsHold (b.ctx U (ssFacts U)) s := by
  intro vc _ _
  have v := posVals (F := ssFacts U) h hU
  obtain ⟨h1, h2, h3, h4, h5⟩ := hu
  refine fZ_ok v h1 (fNeg_ok ?_ (fNeg_ok ?_ (fNeg_ok ?_ (fNeg_ok ?_ trivial)))) <;> rw [lin2_den] <;> simp only [v.m37, v.a2, v.a3, v.a13, v.a31, hn] <;> norm_num <;> linarith

def ssChk (cap : Nat) (f : Fam) (F : Formula) : Bool :=
  chk3 primes ⟨12, cap, ssFacts 12⟩
    (subP 12 f (postN 12) (mono 12 1 1 2 1 1) (mono 12 1 1 3 1 1) (mono 12 1 1 1 2 1) (mono 12 1 1 1 1 23) (mono 12 1 1 1 3 1)
      (mono 12 1 1 1 1 31) (mono 12 1 1 1 1 41) (mono 12 1 1 1 5 1) (mono 12 1 1 1 7 1)) F.polBody
    (subU 12 f (postN 12) (mono 12 2 1 2 1 1) (mono 12 4 1 1 2 1) (mono 12 2 1 1 1 31) (mono 12 2 1 1 5 1)) F.unpolBody
    (subU 12 f (postN 12) (mono 12 2 1 3 1 1) (mono 12 4 1 1 3 1) (mono 12 2 1 1 1 41) (mono 12 2 1 1 7 1)) F.unpolBody

theorem spinScaling_of {cap : Nat} {fam : Fam} {f : Formula} (h : ssChk cap fam f = true) : SpinScaling fam f := by
  intro P p r0 r1 s0 s1 s2 l0 l1 t0 t1 ht h0 h1 hs0 hs2 ht0 ht1 hu
  let b : Base := ⟨P, r0, r1, s0, s1, s2, l0, l1, t0, t1, r0 + r1, p⟩
  have hb : b.Pos := ⟨h0, h1, hs0, hs2, ht0, ht1, add_pos h0 h1, ht.zeta, ht.dens⟩
  have hU : (12 : ℕ) ≠ 0 := by norm_num
  have hP := fun (p : Poly) vc => postN_den (F := ssFacts 12) hb hU rfl p vc
  obtain ⟨x, y, z, hx, hy, hz, e⟩ := chk3_sound (K := b.ctx 12 (ssFacts 12)) primes_prime (ctx_pos hb hU) rfl (ctx_nn hb) (ssFacts_hold hb hU rfl hu _)
    (subP_ok (R0 := r0) (R1 := r1) (S0 := s0) (S1 := s1) (S2 := s2) (L0 := l0) (L1 := l1) (T0 := t0) (T1 := t1) hb hU fam hP (idVals (b := b)))
    (subU_ok (R0 := 2 * r0) (S0 := 4 * s0) (L0 := 2 * l0) (T0 := 2 * t0) hb hU fam hP (fun vc v => by
      obtain ⟨a2, a3, _, c2, c3, c5, c7, d1, d2, d3⟩ := v
      simp only [mono_den, a2, a3, c2, c3, c5, c7, d1, d2, d3, b, H_one]; norm_num))
    (subU_ok (R0 := 2 * r1) (S0 := 4 * s2) (L0 := 2 * l1) (T0 := 2 * t1) hb hU fam hP (fun vc v => by
      obtain ⟨a2, a3, _, c2, c3, c5, c7, d1, d2, d3⟩ := v
      simp only [mono_den, a2, a3, c2, c3, c5, c7, d1, d2, d3, b, H_one]; norm_num)) h
  refine ⟨x, y, z, hx, hy, hz, ?_⟩
  have v := posVals (F := ssFacts 12) hb hU
  rw [← H_powU, ← H_powU, ← H_powU, v.a2, v.a3, show Nat.pow 37 (Cfg.U ⟨12, cap, ssFacts 12⟩) = Nat.pow (Nat.pow 37 1) 12 from rfl, v.a37] at e
  simpa [b] using e

/-! ## C38 -/

/-- The code of `lam^k` times the quantity with code `x`. -/
def lamC (k x : Nat) : Nat := Nat.mul (Nat.pow 37 k) x

/-- `dens_threshold < lam^k * r / d`, where `r` has code `a`. -/
def fDensL (U k a d : Nat) (tl : Facts) : Facts := fNeg (lin2 (Nat.pow 31 U) (Nat.pow (lamC k a) U) 1 0 1 0 1 d) tl
/-- `dens_threshold < r / d`, where `r` has code `a`. -/
def fDensD (U a d : Nat) (tl : Facts) : Facts := fNeg (lin2 (Nat.pow a U) (Nat.pow 31 U) 0 1 1 d 0 1) tl

def usFacts (U dim : Nat) : Facts := fZ U (fDensD U 2 1 (fDensD U 3 1 (fDensL U dim 2 1 (fDensL U dim 3 1 .nil))))
def usuFacts (U dim : Nat) : Facts := fZ U (fDensD U 2 2 (fDensL U dim 2 2 .nil))

theorem lamC_pow (h : b.Pos) (hU : U ≠ 0) (k x : Nat) : H (b.ctx U F).vp (lamC k x) ^ U = b.lam ^ k * H (b.ctx U F).vp x ^ U := by
  have := (posVals (F := F) h hU).m37 x k
  rwa [H_powU, H_powU] at this

theorem usFacts_hold (h : b.Pos) (hU : U ≠ 0) (dim : ℕ) (hz : b.p.fld .zetaThreshold < 1) (h0 : b.p.fld .densThreshold < b.r0) (h1 : b.p.fld .densThreshold < b.r1)
    (h2 : b.p.fld .densThreshold < b.lam ^ dim * b.r0) (h3 : b.p.fld .densThreshold < b.lam ^ dim * b.r1) (s : St) : FactsHold (b.ctx U (usFacts U dim)) s := by
  intro vc _ _
  have v := posVals (F := usFacts U dim) h hU
  refine fZ_ok v hz (fNeg_ok ?_ (fNeg_ok ?_ (fNeg_ok ?_ (fNeg_ok ?_ trivial)))) <;> rw [lin2_den] <;> simp only [lamC, v.m37, v.a2, v.a3, v.a13, v.a31] <;> norm_num <;> linarith

theorem usuFacts_hold (h : b.Pos) (hU : U ≠ 0) (dim : ℕ) (hz : b.p.fld .zetaThreshold < 1) (h0 : b.p.fld .densThreshold < b.r0 / 2)
    (h2 : b.p.fld .densThreshold < b.lam ^ dim * b.r0 / 2) (s : St) : FactsHold (b.ctx U (usuFacts U dim)) s := by
  intro vc _ _
  have v := posVals (F := usuFacts U dim) h hU
  refine fZ_ok v hz (fNeg_ok ?_ (fNeg_ok ?_ trivial)) <;> rw [lin2_den] <;> simp only [lamC, v.m37, v.a2, v.a3, v.a13, v.a31] <;> norm_num <;> linarith

def usChk (cap dim k : Nat) (f : Fam) (F : Formula) : Bool :=
  chkM primes ⟨12, cap, usFacts 12 dim⟩
    (subP 12 f noPost (mono 12 1 1 (lamC dim 2) 1 1) (mono 12 1 1 (lamC dim 3) 1 1) (mono 12 1 1 (lamC (2 * dim + 2) 1) 2 1) (mono 12 1 1 (lamC (2 * dim + 2) 1) 1 23)
      (mono 12 1 1 (lamC (2 * dim + 2) 1) 3 1) (mono 12 1 1 (lamC (dim + 2) 1) 1 31) (mono 12 1 1 (lamC (dim + 2) 1) 1 41) (mono 12 1 1 (lamC (dim + 2) 1) 5 1) (mono 12 1 1 (lamC (dim + 2) 1) 7 1)) F.polBody
    (subP 12 f noPost (mono 12 1 1 2 1 1) (mono 12 1 1 3 1 1) (mono 12 1 1 1 2 1) (mono 12 1 1 1 1 23) (mono 12 1 1 1 3 1) (mono 12 1 1 1 1 31) (mono 12 1 1 1 1 41) (mono 12 1 1 1 5 1) (mono 12 1 1 1 7 1)) F.polBody (Nat.pow (Nat.pow 37 k) 12)

theorem uniformScaling_of {cap dim k : Nat} {fam : Fam} {f : Formula} (h : usChk cap dim k fam f = true) : UniformScaling dim k fam f := by
  intro P p x r0 r1 s0 s1 s2 l0 l1 t0 t1 ht hx h0 h1 hs0 hs2 ht0 ht1 hz hd0 hd1 hd2 hd3
  let b : Base := ⟨P, r0, r1, s0, s1, s2, l0, l1, t0, t1, x, p⟩
  have hb : b.Pos := ⟨h0, h1, hs0, hs2, ht0, ht1, hx, ht.zeta, ht.dens⟩
  have hU : (12 : ℕ) ≠ 0 := by norm_num
  obtain ⟨y, hy, hx'⟩ := chkM_sound (K := b.ctx 12 (usFacts 12 dim)) primes_prime (ctx_pos hb hU) rfl (ctx_nn hb) (usFacts_hold hb hU dim hz hd0 hd1 hd2 hd3 _)
    (subP_ok (R0 := x ^ dim * r0) (R1 := x ^ dim * r1) (S0 := x ^ (2 * dim + 2) * s0) (S1 := x ^ (2 * dim + 2) * s1) (S2 := x ^ (2 * dim + 2) * s2) (L0 := x ^ (dim + 2) * l0)
      (L1 := x ^ (dim + 2) * l1) (T0 := x ^ (dim + 2) * t0) (T1 := x ^ (dim + 2) * t1) hb hU fam (fun _ _ => rfl) (fun vc v => by
      obtain ⟨a2, a3, _, c2, c3, c5, c7, d1, d2, d3⟩ := v
      simp only [mono_den, lamC_pow hb hU, a2, a3, c2, c3, c5, c7, d1, d2, d3, b, H_one]; norm_num))
    (subP_ok (R0 := r0) (R1 := r1) (S0 := s0) (S1 := s1) (S2 := s2) (L0 := l0) (L1 := l1) (T0 := t0) (T1 := t1) hb hU fam (fun _ _ => rfl) (idVals (b := b))) h
  refine ⟨y, hy, ?_⟩
  rw [(posVals (F := usFacts 12 dim) hb hU).a37] at hx'
  exact hx'

def usuChk (cap dim k : Nat) (f : Fam) (F : Formula) : Bool :=
  chkM primes ⟨12, cap, usuFacts 12 dim⟩
    (subU 12 f noPost (mono 12 1 1 (lamC dim 2) 1 1) (mono 12 1 1 (lamC (2 * dim + 2) 1) 2 1) (mono 12 1 1 (lamC (dim + 2) 1) 1 31) (mono 12 1 1 (lamC (dim + 2) 1) 5 1)) F.unpolBody
    (subU 12 f noPost (mono 12 1 1 2 1 1) (mono 12 1 1 1 2 1) (mono 12 1 1 1 1 31) (mono 12 1 1 1 5 1)) F.unpolBody (Nat.pow (Nat.pow 37 k) 12)

theorem uniformScalingUnpol_of {cap dim k : Nat} {fam : Fam} {f : Formula} (h : usuChk cap dim k fam f = true) : UniformScalingUnpol dim k fam f := by
  intro P p x r s l t ht hx h0 hs0 ht0 hz hd0 hd1
  let b : Base := ⟨P, r, 1, s, 0, 0, l, 0, t, 0, x, p⟩
  have hb : b.Pos := ⟨h0, one_pos, hs0, le_rfl, ht0, le_rfl, hx, ht.zeta, ht.dens⟩
  have hU : (12 : ℕ) ≠ 0 := by norm_num
  obtain ⟨y, hy, hx'⟩ := chkM_sound (K := b.ctx 12 (usuFacts 12 dim)) primes_prime (ctx_pos hb hU) rfl (ctx_nn hb) (usuFacts_hold hb hU dim hz hd0 hd1 _)
    (subU_ok (R0 := x ^ dim * r) (S0 := x ^ (2 * dim + 2) * s) (L0 := x ^ (dim + 2) * l) (T0 := x ^ (dim + 2) * t) hb hU fam (fun _ _ => rfl) (fun vc v => by
      obtain ⟨a2, a3, _, c2, c3, c5, c7, d1, d2, d3⟩ := v
      simp only [mono_den, lamC_pow hb hU, a2, a3, c2, c3, c5, c7, d1, d2, d3, b, H_one]; norm_num))
    (subU_ok (R0 := r) (S0 := s) (L0 := l) (T0 := t) hb hU fam (fun _ _ => rfl) (fun vc v => by
      obtain ⟨a2, a3, _, c2, c3, c5, c7, d1, d2, d3⟩ := v
      simp only [mono_den, a2, a3, c2, c3, c5, c7, d1, d2, d3, b, H_one]; norm_num)) h
  refine ⟨y, hy, ?_⟩
  rw [(posVals (F := usuFacts 12 dim) hb hU).a37] at hx'
  exact hx'

/-! ## C42 -/

/-- `r ≤ dens_threshold`, where `r` has code `a`. -/
def fLow (U a : Nat) (tl : Facts) : Facts := fNN (lin2 (Nat.pow a U) (Nat.pow 31 U) 0 1 1 1 0 1) tl

def sbFacts (U : Nat) : Facts := fLow U 2 (fLow U 3 .nil)

theorem sbFacts_hold (h : b.Pos) (hU : U ≠ 0) (h0 : b.r0 ≤ b.p.fld .densThreshold) (h1 : b.r1 ≤ b.p.fld .densThreshold) (s : St) : FactsHold (b.ctx U (sbFacts U)) s := by
  intro vc _ _
  have v := posVals (F := sbFacts U) h hU
  refine fNN_ok ?_ (fNN_ok ?_ trivial) <;> rw [lin2_den] <;> simp only [v.a2, v.a3, v.a31] <;> norm_num <;> linarith

theorem low0_hold (h : b.Pos) (hU : U ≠ 0) (h0 : b.r0 ≤ b.p.fld .densThreshold) (s : St) : FactsHold (b.ctx U (fLow U 2 .nil)) s := by
  intro vc _ _
  have v := posVals (F := fLow U 2 .nil) h hU
  refine fNN_ok ?_ trivial
  rw [lin2_den]; simp only [v.a2, v.a31]; norm_num; linarith

theorem low1_hold (h : b.Pos) (hU : U ≠ 0) (h0 : b.r1 ≤ b.p.fld .densThreshold) (s : St) : FactsHold (b.ctx U (fLow U 3 .nil)) s := by
  intro vc _ _
  have v := posVals (F := fLow U 3 .nil) h hU
  refine fNN_ok ?_ trivial
  rw [lin2_den]; simp only [v.a3, v.a31]; norm_num; linarith

def sbChk (cap : Nat) (f : Fam) (F : Formula) : Bool :=
  chk0 primes ⟨12, cap, sbFacts 12⟩ (subP 12 f noPost (mono 12 1 1 2 1 1) (mono 12 1 1 3 1 1) (mono 12 1 1 1 2 1) (mono 12 1 1 1 1 23) (mono 12 1 1 1 3 1) (mono 12 1 1 1 1 31) (mono 12 1 1 1 1 41) (mono 12 1 1 1 5 1) (mono 12 1 1 1 7 1)) F.polBody

theorem screenedBoth_of {cap : Nat} {fam : Fam} {f : Formula} (h : sbChk cap fam f = true) : ScreenedBoth fam f := by
  intro P p r0 r1 s0 s1 s2 l0 l1 t0 t1 ht h0 h1 hs0 hs2 ht0 ht1 hd0 hd1
  let b : Base := ⟨P, r0, r1, s0, s1, s2, l0, l1, t0, t1, 1, p⟩
  have hb : b.Pos := ⟨h0, h1, hs0, hs2, ht0, ht1, one_pos, ht.zeta, ht.dens⟩
  have hU : (12 : ℕ) ≠ 0 := by norm_num
  exact chk0_sound (K := b.ctx 12 (sbFacts 12)) primes_prime (ctx_pos hb hU) rfl (ctx_nn hb) (sbFacts_hold hb hU hd0 hd1 _)
    (subP_ok (R0 := r0) (R1 := r1) (S0 := s0) (S1 := s1) (S2 := s2) (L0 := l0) (L1 := l1) (T0 := t0) (T1 := t1) hb hU fam (fun _ _ => rfl) (idVals (b := b))) h

def so1Chk (cap : Nat) (f : Fam) (F : Formula) : Bool :=
  chk primes ⟨12, cap, fLow 12 3 .nil⟩ (subP 12 f noPost (mono 12 1 1 2 1 1) (mono 12 1 1 3 1 1) (mono 12 1 1 1 2 1) (mono 12 1 1 1 1 23) (mono 12 1 1 1 3 1) (mono 12 1 1 1 1 31) (mono 12 1 1 1 1 41) (mono 12 1 1 1 5 1) (mono 12 1 1 1 7 1)) F.polBody
    (subP 12 f noPost (mono 12 1 1 2 1 1) (mono 12 1 1 3 1 1) (mono 12 1 1 1 2 1) one one (mono 12 1 1 1 1 31) one (mono 12 1 1 1 5 1) one) F.polBody
def so0Chk (cap : Nat) (f : Fam) (F : Formula) : Bool :=
  chk primes ⟨12, cap, fLow 12 2 .nil⟩ (subP 12 f noPost (mono 12 1 1 2 1 1) (mono 12 1 1 3 1 1) (mono 12 1 1 1 2 1) (mono 12 1 1 1 1 23) (mono 12 1 1 1 3 1) (mono 12 1 1 1 1 31) (mono 12 1 1 1 1 41) (mono 12 1 1 1 5 1) (mono 12 1 1 1 7 1)) F.polBody
    (subP 12 f noPost (mono 12 1 1 2 1 1) (mono 12 1 1 3 1 1) one one (mono 12 1 1 1 3 1) one (mono 12 1 1 1 1 41) one (mono 12 1 1 1 7 1)) F.polBody
def soChk (cap : Nat) (f : Fam) (F : Formula) : Bool := kif so0Chk cap f F then so1Chk cap f F else false

set_option maxHeartbeats 1000000 in
theorem so1_of {cap : Nat} {fam : Fam} {f : Formula} (hc : so1Chk cap fam f = true) : ∀ (P : Prims) (p : Rec) (r0 r1 s0 s1 s2 l0 l1 t0 t1 : ℝ), Thresholds p → 0 < r0 → 0 < r1 → 0 ≤ s0 → 0 ≤ s2 → 0 ≤ t0 → 0 ≤ t1 →
    r1 ≤ p.fld .densThreshold → ∃ e, f.pol P p (r0, r1) (fam.grad (s0, s1, s2)) (fam.meta (l0, l1)) (fam.meta (t0, t1)) = .ok e ∧
      f.pol P p (r0, r1) (fam.grad (s0, 1, 1)) (fam.meta (l0, 1)) (fam.meta (t0, 1)) = .ok e := by
  have hU : (12 : ℕ) ≠ 0 := by norm_num
  intro P p r0 r1 s0 s1 s2 l0 l1 t0 t1 ht h0 h1 hs0 hs2 ht0 ht1 hd
  let b : Base := ⟨P, r0, r1, s0, s1, s2, l0, l1, t0, t1, 1, p⟩
  have hb : b.Pos := ⟨h0, h1, hs0, hs2, ht0, ht1, one_pos, ht.zeta, ht.dens⟩
  exact chk_sound (K := b.ctx 12 (fLow 12 3 .nil)) primes_prime (ctx_pos hb hU) rfl (ctx_nn hb) (low1_hold hb hU hd _)
    (subP_ok (R0 := r0) (R1 := r1) (S0 := s0) (S1 := s1) (S2 := s2) (L0 := l0) (L1 := l1) (T0 := t0) (T1 := t1) hb hU fam (fun _ _ => rfl) (idVals (b := b)))
    (subP_ok (R0 := r0) (R1 := r1) (S0 := s0) (S1 := 1) (S2 := 1) (L0 := l0) (L1 := 1) (T0 := t0) (T1 := 1) hb hU fam (fun _ _ => rfl) (fun vc v => by
      obtain ⟨a2, a3, _, c2, c3, c5, c7, d1, d2, d3⟩ := v
      simp only [mono_den, one_den, a2, a3, c2, c3, c5, c7, d1, d2, d3, b, H_one]; norm_num)) hc

set_option maxHeartbeats 1000000 in
theorem so0_of {cap : Nat} {fam : Fam} {f : Formula} (hc : so0Chk cap fam f = true) : ∀ (P : Prims) (p : Rec) (r0 r1 s0 s1 s2 l0 l1 t0 t1 : ℝ), Thresholds p → 0 < r0 → 0 < r1 → 0 ≤ s0 → 0 ≤ s2 → 0 ≤ t0 → 0 ≤ t1 →
    r0 ≤ p.fld .densThreshold → ∃ e, f.pol P p (r0, r1) (fam.grad (s0, s1, s2)) (fam.meta (l0, l1)) (fam.meta (t0, t1)) = .ok e ∧
      f.pol P p (r0, r1) (fam.grad (1, 1, s2)) (fam.meta (1, l1)) (fam.meta (1, t1)) = .ok e := by
  have hU : (12 : ℕ) ≠ 0 := by norm_num
  intro P p r0 r1 s0 s1 s2 l0 l1 t0 t1 ht h0 h1 hs0 hs2 ht0 ht1 hd
  let b : Base := ⟨P, r0, r1, s0, s1, s2, l0, l1, t0, t1, 1, p⟩
  have hb : b.Pos := ⟨h0, h1, hs0, hs2, ht0, ht1, one_pos, ht.zeta, ht.dens⟩
  exact chk_sound (K := b.ctx 12 (fLow 12 2 .nil)) primes_prime (ctx_pos hb hU) rfl (ctx_nn hb) (low0_hold hb hU hd _)
    (subP_ok (R0 := r0) (R1 := r1) (S0 := s0) (S1 := s1) (S2 := s2) (L0 := l0) (L1 := l1) (T0 := t0) (T1 := t1) hb hU fam (fun _ _ => rfl) (idVals (b := b)))
    (subP_ok (R0 := r0) (R1 := r1) (S0 := 1) (S1 := 1) (S2 := s2) (L0 := 1) (L1 := l1) (T0 := 1) (T1 := t1) hb hU fam (fun _ _ => rfl) (fun vc v => by
      obtain ⟨a2, a3, _, c2, c3, c5, c7, d1, d2, d3⟩ := v
      simp only [mono_den, one_den, a2, a3, c2, c3, c5, c7, d1, d2, d3, b, H_one]; norm_num)) hc

theorem screenedOne_of {cap : Nat} {fam : Fam} {f : Formula} (h : soChk cap fam f = true) : ScreenedOne fam f := by
  unfold soChk at h
  rw [kand] at h
  obtain ⟨hc0, hc1⟩ := h
  intro P p r0 r1 s0 s1 s2 l0 l1 t0 t1 ht h0 h1 hs0 hs2 ht0 ht1
  refine ⟨fun hd s1' s2' l1' t1' hs2' ht1' => ?_, fun hd s0' s1' l0' t0' hs0' ht0' => ?_⟩
  · obtain ⟨e, e1, e2⟩ := so1_of hc1 P p r0 r1 s0 s1 s2 l0 l1 t0 t1 ht h0 h1 hs0 hs2 ht0 ht1 hd
    obtain ⟨e', e1', e2'⟩ := so1_of hc1 P p r0 r1 s0 s1' s2' l0 l1' t0 t1' ht h0 h1 hs0 hs2' ht0 ht1' hd
    exact ⟨e, e1, by rw [e1', ← e2', e2]⟩
  · obtain ⟨e, e1, e2⟩ := so0_of hc0 P p r0 r1 s0 s1 s2 l0 l1 t0 t1 ht h0 h1 hs0 hs2 ht0 ht1 hd
    obtain ⟨e', e1', e2'⟩ := so0_of hc0 P p r0 r1 s0' s1' s2 l0' l1 t0' t1 ht h0 h1 hs0' hs2 ht0' ht1 hd
    exact ⟨e, e1, by rw [e1', ← e2', e2]⟩

/-- One spin suffices if the formula is symmetric. -/
theorem screenedOne_flip {fam : Fam} {f : Formula} (hf : SpinFlip fam f) {cap : Nat} (hc1 : so1Chk cap fam f = true) : ScreenedOne fam f := by
  intro P p r0 r1 s0 s1 s2 l0 l1 t0 t1 ht h0 h1 hs0 hs2 ht0 ht1
  refine ⟨fun hd s1' s2' l1' t1' hs2' ht1' => ?_, fun hd s0' s1' l0' t0' hs0' ht0' => ?_⟩
  · obtain ⟨e, e1, e2⟩ := so1_of hc1 P p r0 r1 s0 s1 s2 l0 l1 t0 t1 ht h0 h1 hs0 hs2 ht0 ht1 hd
    obtain ⟨e', e1', e2'⟩ := so1_of hc1 P p r0 r1 s0 s1' s2' l0 l1' t0 t1' ht h0 h1 hs0 hs2' ht0 ht1' hd
    exact ⟨e, e1, by rw [e1', ← e2', e2]⟩
  · obtain ⟨e, e1, e2⟩ := so1_of hc1 P p r1 r0 s2 s1 s0 l1 l0 t1 t0 ht h1 h0 hs2 hs0 ht1 ht0 hd
    obtain ⟨e', e1', e2'⟩ := so1_of hc1 P p r1 r0 s2 s1' s0' l1 l0' t1 t0' ht h1 h0 hs2 hs0' ht1 ht0' hd
    obtain ⟨g, g1, g2⟩ := hf P p r0 r1 s0 s1 s2 l0 l1 t0 t1 ht h0 h1 hs0 hs2 ht0 ht1
    obtain ⟨g', g1', g2'⟩ := hf P p r0 r1 s0' s1' s2 l0' l1 t0' t1 ht h0 h1 hs0' hs2 ht0' ht1
    refine ⟨g, g1, ?_⟩
    rw [g1', ← g2', e1', ← e2', e2, ← e1, g2]

/-- `n · P = r · Q` with codes `37` of `n` and `a` of `r`. -/
def chk2 (pr : List Nat) (C : Cfg) (A : Sub) (P : Prog) (B : Sub) (Q : Prog) (a : Nat) : Bool :=
  evProg C A P (st0 pr) fun x s => evProg C B Q s fun y s =>
    kif polyBeq (A.post (mulTP C.U (Nat.pow 37 C.U) 1 1 1 0 1 x)) (A.post (mulTP C.U (Nat.pow a C.U) 1 1 1 0 1 y)) then ordChk s.tab 1 else false

theorem chk2_sound {pr : List Nat} (hpr : ∀ p ∈ pr, p.Prime) {C : Cfg} {K : Ctx} {A B : Sub} {p q : Prog} {EA EB : Env} {a : Nat}
    (hp : PosOk C.U K.vp) (hC : C.facts = K.facts) (h0 : NnOk K.vb) (hf : FactsHold K (st0 pr))
    (hA : SubOk C K A EA (st0 pr)) (hB : SubOk C K B EB (st0 pr)) (h : chk2 pr C A p B q a = true) :
    ∃ x y, run K.P EA p = .ok x ∧ run K.P EB q = .ok y ∧ H K.vp 37 ^ C.U * x = H K.vp a ^ C.U * y := by
  obtain ⟨r1, s1, x1, hs1, hr1, hx1, h⟩ := evProg_spec hp hC hA (st0_wf hpr) h
  obtain ⟨r2, s2, x2, hs2, hr2, hx2, h⟩ := evProg_spec hp hC (hB.mono hs1) hs1.wf h
  rw [kand] at h
  obtain ⟨he, ho⟩ := h
  obtain ⟨vc, hvc⟩ := exists_ok hs2.wf ho h0 (hf.mono (hs1.trans hs2))
  refine ⟨x1, x2, hr1, hr2, ?_⟩
  have e := congrArg (den K.vp vc) (polyBeq_eq he)
  rw [hA.post, hA.post, mulTP_den hp, mulTP_den hp] at e
  rw [hx1 vc (hs2.ok hvc), hx2 vc hvc]
  simpa [tm, H_one, H_powU] using e

def sr0Facts (U : Nat) : Facts := fZ U (fShare U 2 (fShare U 3 (fDens U 2 (fLow U 3 .nil))))

def sr0Chk (cap : Nat) (f : Fam) (F : Formula) : Bool :=
  chk2 primes ⟨12, cap, sr0Facts 12⟩ (subP 12 f (postN 12) (mono 12 1 1 2 1 1) (mono 12 1 1 3 1 1) (mono 12 1 1 1 2 1) (mono 12 1 1 1 1 23) (mono 12 1 1 1 3 1) (mono 12 1 1 1 1 31) (mono 12 1 1 1 1 41) (mono 12 1 1 1 5 1) (mono 12 1 1 1 7 1)) F.polBody
    (subU 12 f (postN 12) (mono 12 2 1 2 1 1) (mono 12 4 1 1 2 1) (mono 12 2 1 1 1 31) (mono 12 2 1 1 5 1)) F.unpolBody 2

theorem sr0_of {cap : Nat} {fam : Fam} {f : Formula} (h : sr0Chk cap fam f = true) (P : Prims) (p : Rec) (r0 r1 s0 s1 s2 l0 l1 t0 t1 : ℝ)
    (ht : Thresholds p) (h0 : 0 < r0) (h1 : 0 < r1) (hs0 : 0 ≤ s0) (hs2 : 0 ≤ s2) (ht0 : 0 ≤ t0) (ht1 : 0 ≤ t1)
    (hz : p.fld .zetaThreshold < 1) (_hz0 : p.fld .zetaThreshold * (r0 + r1) < 2 * r0) (hz1 : p.fld .zetaThreshold * (r0 + r1) < 2 * r1)
    (hl : r1 ≤ p.fld .densThreshold) (hd : p.fld .densThreshold < r0) :
    ∃ e e0, f.pol P p (r0, r1) (fam.grad (s0, s1, s2)) (fam.meta (l0, l1)) (fam.meta (t0, t1)) = .ok e ∧
        f.unpol P p (2 * r0) (fam.grad (4 * s0)) (fam.meta (2 * l0)) (fam.meta (2 * t0)) = .ok e0 ∧ (r0 + r1) * e = r0 * e0 := by
  let b : Base := ⟨P, r0, r1, s0, s1, s2, l0, l1, t0, t1, r0 + r1, p⟩
  have hb : b.Pos := ⟨h0, h1, hs0, hs2, ht0, ht1, add_pos h0 h1, ht.zeta, ht.dens⟩
  have hU : (12 : ℕ) ≠ 0 := by norm_num
  have hP := fun (p : Poly) vc => postN_den (F := sr0Facts 12) hb hU rfl p vc
  have v := posVals (F := sr0Facts 12) hb hU
  have hf : FactsHold (b.ctx 12 (sr0Facts 12)) (st0 primes) := by
    intro vc _ _
    refine fZ_ok v hz (fNeg_ok ?_ (fNeg_ok ?_ (fNeg_ok ?_ (fNN_ok ?_ trivial)))) <;> rw [lin2_den] <;> simp only [v.m37, v.a2, v.a3, v.a13, v.a31, b] <;> norm_num <;> linarith
  obtain ⟨x, y, hx, hy, e⟩ := chk2_sound (K := b.ctx 12 (sr0Facts 12)) primes_prime (ctx_pos hb hU) rfl (ctx_nn hb) hf
    (subP_ok (R0 := r0) (R1 := r1) (S0 := s0) (S1 := s1) (S2 := s2) (L0 := l0) (L1 := l1) (T0 := t0) (T1 := t1) hb hU fam hP (idVals (b := b)))
    (subU_ok (R0 := 2 * r0) (S0 := 4 * s0) (L0 := 2 * l0) (T0 := 2 * t0) hb hU fam hP (fun vc v => by
      obtain ⟨a2, a3, _, c2, c3, c5, c7, d1, d2, d3⟩ := v
      simp only [mono_den, a2, a3, c2, c3, c5, c7, d1, d2, d3, b, H_one]; norm_num)) h
  refine ⟨x, y, hx, hy, ?_⟩
  rw [← H_powU, ← H_powU, v.a2, show Nat.pow 37 (Cfg.U ⟨12, cap, sr0Facts 12⟩) = Nat.pow (Nat.pow 37 1) 12 from rfl, v.a37] at e
  simpa [b] using e

def sr1Facts (U : Nat) : Facts := fZ U (fShare U 2 (fShare U 3 (fDens U 3 (fLow U 2 .nil))))

def sr1Chk (cap : Nat) (f : Fam) (F : Formula) : Bool :=
  chk2 primes ⟨12, cap, sr1Facts 12⟩ (subP 12 f (postN 12) (mono 12 1 1 2 1 1) (mono 12 1 1 3 1 1) (mono 12 1 1 1 2 1) (mono 12 1 1 1 1 23) (mono 12 1 1 1 3 1) (mono 12 1 1 1 1 31) (mono 12 1 1 1 1 41) (mono 12 1 1 1 5 1) (mono 12 1 1 1 7 1)) F.polBody
    (subU 12 f (postN 12) (mono 12 2 1 3 1 1) (mono 12 4 1 1 3 1) (mono 12 2 1 1 1 41) (mono 12 2 1 1 7 1)) F.unpolBody 3

theorem sr1_of {cap : Nat} {fam : Fam} {f : Formula} (h : sr1Chk cap fam f = true) (P : Prims) (p : Rec) (r0 r1 s0 s1 s2 l0 l1 t0 t1 : ℝ)
    (ht : Thresholds p) (h0 : 0 < r0) (h1 : 0 < r1) (hs0 : 0 ≤ s0) (hs2 : 0 ≤ s2) (ht0 : 0 ≤ t0) (ht1 : 0 ≤ t1)
    (hz : p.fld .zetaThreshold < 1) (hz0 : p.fld .zetaThreshold * (r0 + r1) < 2 * r0) (_hz1 : p.fld .zetaThreshold * (r0 + r1) < 2 * r1)
    (hl : r0 ≤ p.fld .densThreshold) (hd : p.fld .densThreshold < r1) :
    ∃ e e0, f.pol P p (r0, r1) (fam.grad (s0, s1, s2)) (fam.meta (l0, l1)) (fam.meta (t0, t1)) = .ok e ∧
        f.unpol P p (2 * r1) (fam.grad (4 * s2)) (fam.meta (2 * l1)) (fam.meta (2 * t1)) = .ok e0 ∧ (r0 + r1) * e = r1 * e0 := by
  let b : Base := ⟨P, r0, r1, s0, s1, s2, l0, l1, t0, t1, r0 + r1, p⟩
  have hb : b.Pos := ⟨h0, h1, hs0, hs2, ht0, ht1, add_pos h0 h1, ht.zeta, ht.dens⟩
  have hU : (12 : ℕ) ≠ 0 := by norm_num
  have hP := fun (p : Poly) vc => postN_den (F := sr1Facts 12) hb hU rfl p vc
  have v := posVals (F := sr1Facts 12) hb hU
  have hf : FactsHold (b.ctx 12 (sr1Facts 12)) (st0 primes) := by
    intro vc _ _
    refine fZ_ok v hz (fNeg_ok ?_ (fNeg_ok ?_ (fNeg_ok ?_ (fNN_ok ?_ trivial)))) <;> rw [lin2_den] <;> simp only [v.m37, v.a2, v.a3, v.a13, v.a31, b] <;> norm_num <;> linarith
  obtain ⟨x, y, hx, hy, e⟩ := chk2_sound (K := b.ctx 12 (sr1Facts 12)) primes_prime (ctx_pos hb hU) rfl (ctx_nn hb) hf
    (subP_ok (R0 := r0) (R1 := r1) (S0 := s0) (S1 := s1) (S2 := s2) (L0 := l0) (L1 := l1) (T0 := t0) (T1 := t1) hb hU fam hP (idVals (b := b)))
    (subU_ok (R0 := 2 * r1) (S0 := 4 * s2) (L0 := 2 * l1) (T0 := 2 * t1) hb hU fam hP (fun vc v => by
      obtain ⟨a2, a3, _, c2, c3, c5, c7, d1, d2, d3⟩ := v
      simp only [mono_den, a2, a3, c2, c3, c5, c7, d1, d2, d3, b, H_one]; norm_num)) h
  refine ⟨x, y, hx, hy, ?_⟩
  rw [← H_powU, ← H_powU, v.a3, show Nat.pow 37 (Cfg.U ⟨12, cap, sr1Facts 12⟩) = Nat.pow (Nat.pow 37 1) 12 from rfl, v.a37] at e
  simpa [b] using e

def srChk (cap : Nat) (f : Fam) (F : Formula) : Bool := kif sr0Chk cap f F then sr1Chk cap f F else false

theorem screenedRest_of {cap : Nat} {fam : Fam} {f : Formula} (h : srChk cap fam f = true) : ScreenedRest fam f := by
  unfold srChk at h
  rw [kand] at h
  intro P p r0 r1 s0 s1 s2 l0 l1 t0 t1 ht h0 h1 hs0 hs2 ht0 ht1 hz hz0 hz1
  exact ⟨sr0_of h.1 P p r0 r1 s0 s1 s2 l0 l1 t0 t1 ht h0 h1 hs0 hs2 ht0 ht1 hz hz0 hz1,
    sr1_of h.2 P p r0 r1 s0 s1 s2 l0 l1 t0 t1 ht h0 h1 hs0 hs2 ht0 ht1 hz hz0 hz1⟩

/-- One spin suffices if the formula is symmetric. -/
theorem screenedRest_flip {fam : Fam} {f : Formula} (hf : SpinFlip fam f) {cap : Nat} (h : sr0Chk cap fam f = true) : ScreenedRest fam f := by
  intro P p r0 r1 s0 s1 s2 l0 l1 t0 t1 ht h0 h1 hs0 hs2 ht0 ht1 hz hz0 hz1
  refine ⟨sr0_of h P p r0 r1 s0 s1 s2 l0 l1 t0 t1 ht h0 h1 hs0 hs2 ht0 ht1 hz hz0 hz1, fun hd0 hd1 => ?_⟩
  obtain ⟨e, e0, e1, e2, e3⟩ := sr0_of h P p r1 r0 s2 s1 s0 l1 l0 t1 t0 ht h1 h0 hs2 hs0 ht1 ht0 hz (by rw [add_comm]; exact hz1) (by rw [add_comm]; exact hz0) hd0 hd1
  obtain ⟨g, g1, g2⟩ := hf P p r0 r1 s0 s1 s2 l0 l1 t0 t1 ht h0 h1 hs0 hs2 ht0 ht1
  exact ⟨e, e0, by rw [g1, ← g2, e1], e2, by rw [add_comm]; exact e3⟩

/-! ## C21 and C22 for `zeta_threshold < 1` -/

theorem fZ_hold (h : b.Pos) (hU : U ≠ 0) (hz : b.p.fld .zetaThreshold < 1) (s : St) : FactsHold (b.ctx U (fZ U .nil)) s :=
  fun _ _ _ => fZ_ok (posVals (F := fZ U .nil) h hU) hz trivial

def czChk (cap : Nat) (fam : Fam) (f : Formula) : Bool :=
  chk primes ⟨12, cap, fZ 12 .nil⟩ (subUnpol 12 fam) f.unpolBody (subHalf 12 fam) f.polBody

theorem closedShellZ_of {cap : Nat} {fam : Fam} {f : Formula} (h : czChk cap fam f = true) : ClosedShellZ fam f := by
  intro P p ρ σ l τ ht hz hρ hσ hτ
  let b : Base := ⟨P, ρ, 1, σ, 0, 0, l, 0, τ, 0, 1, p⟩
  have hb : b.Pos := ⟨hρ, one_pos, hσ, le_rfl, hτ, le_rfl, one_pos, ht.zeta, ht.dens⟩
  have hU : (12 : ℕ) ≠ 0 := by norm_num
  exact chk_sound (K := b.ctx 12 (fZ 12 .nil)) primes_prime (ctx_pos hb hU) rfl (ctx_nn hb) (fZ_hold hb hU hz _) (subUnpol_ok hb hU fam) (subHalf_ok hb hU fam) h

/-- `2 r/n ≤ zeta_threshold`, where `r` has code `a`. -/
def fShareLow (U a : Nat) (tl : Facts) : Facts := fNN (lin2 (Nat.pow a U) (Nat.pow (Nat.mul (Nat.pow 37 1) 13) U) 0 1 1 1 0 2) tl
/-- `r0 < r1`. -/
def fLt01 (U : Nat) (tl : Facts) : Facts := fNeg (lin2 (Nat.pow 2 U) (Nat.pow 3 U) 1 0 1 0 1 1) tl
/-- `r1 < r0`. -/
def fLt10 (U : Nat) (tl : Facts) : Facts := fNeg (lin2 (Nat.pow 2 U) (Nat.pow 3 U) 0 1 1 1 0 1) tl

/-- The cases: one spin share below the threshold, or none, and which spin density is greater. -/
def sfFacts (U : Nat) (c : Nat) : Facts :=
  kif Nat.beq c 0 then fZ U (fShareLow U 2 (fShare U 3 (fLt01 U .nil)))
  else kif Nat.beq c 1 then fZ U (fShareLow U 3 (fShare U 2 (fLt10 U .nil)))
  else kif Nat.beq c 2 then fZ U (fShare U 2 (fShare U 3 (fLt01 U .nil)))
  else fZ U (fShare U 2 (fShare U 3 (fLt10 U .nil)))

def sfCase (cap : Nat) (fam : Fam) (f : Formula) (c : Nat) : Bool :=
  chk primes ⟨12, cap, sfFacts 12 c⟩ (subP 12 fam (postN 12) (mono 12 1 1 2 1 1) (mono 12 1 1 3 1 1) (mono 12 1 1 1 2 1) (mono 12 1 1 1 1 23) (mono 12 1 1 1 3 1) (mono 12 1 1 1 1 31) (mono 12 1 1 1 1 41) (mono 12 1 1 1 5 1) (mono 12 1 1 1 7 1)) f.polBody
    (subP 12 fam (postN 12) (mono 12 1 1 3 1 1) (mono 12 1 1 2 1 1) (mono 12 1 1 1 3 1) (mono 12 1 1 1 1 23) (mono 12 1 1 1 2 1) (mono 12 1 1 1 1 41) (mono 12 1 1 1 1 31) (mono 12 1 1 1 7 1) (mono 12 1 1 1 5 1)) f.polBody

/-- Equal spin densities. -/
def sfEq (cap : Nat) (fam : Fam) (f : Formula) : Bool :=
  chk primes ⟨12, cap, fZ 12 .nil⟩
    (subP 12 fam noPost (mono 12 1 1 2 1 1) (mono 12 1 1 2 1 1) (mono 12 1 1 1 2 1) (mono 12 1 1 1 1 23) (mono 12 1 1 1 3 1) (mono 12 1 1 1 1 31) (mono 12 1 1 1 1 41) (mono 12 1 1 1 5 1) (mono 12 1 1 1 7 1)) f.polBody
    (subP 12 fam noPost (mono 12 1 1 2 1 1) (mono 12 1 1 2 1 1) (mono 12 1 1 1 3 1) (mono 12 1 1 1 1 23) (mono 12 1 1 1 2 1) (mono 12 1 1 1 1 41) (mono 12 1 1 1 1 31) (mono 12 1 1 1 7 1) (mono 12 1 1 1 5 1)) f.polBody

def szChk (cap : Nat) (fam : Fam) (f : Formula) : Bool :=
  kif sfCase cap fam f 0 then kif sfCase cap fam f 1 then kif sfCase cap fam f 2 then kif sfCase cap fam f 3 then sfEq cap fam f
    else false else false else false else false

theorem sfCase_of {cap c : Nat} {fam : Fam} {f : Formula} (h : sfCase cap fam f c = true) (P : Prims) (p : Rec) (r0 r1 s0 s1 s2 l0 l1 t0 t1 : ℝ)
    (ht : Thresholds p) (h0 : 0 < r0) (h1 : 0 < r1) (hs0 : 0 ≤ s0) (hs2 : 0 ≤ s2) (ht0 : 0 ≤ t0) (ht1 : 0 ≤ t1)
    (hf : FactsHold (Base.ctx ⟨P, r0, r1, s0, s1, s2, l0, l1, t0, t1, r0 + r1, p⟩ 12 (sfFacts 12 c)) (st0 primes)) :
    ∃ e, f.pol P p (r0, r1) (fam.grad (s0, s1, s2)) (fam.meta (l0, l1)) (fam.meta (t0, t1)) = .ok e ∧
      f.pol P p (r1, r0) (fam.grad (s2, s1, s0)) (fam.meta (l1, l0)) (fam.meta (t1, t0)) = .ok e := by
  let b : Base := ⟨P, r0, r1, s0, s1, s2, l0, l1, t0, t1, r0 + r1, p⟩
  have hb : b.Pos := ⟨h0, h1, hs0, hs2, ht0, ht1, add_pos h0 h1, ht.zeta, ht.dens⟩
  have hU : (12 : ℕ) ≠ 0 := by norm_num
  have hP := fun (p : Poly) vc => postN_den (F := sfFacts 12 c) hb hU rfl p vc
  exact chk_sound (K := b.ctx 12 (sfFacts 12 c)) primes_prime (ctx_pos hb hU) rfl (ctx_nn hb) hf
    (subP_ok (R0 := r0) (R1 := r1) (S0 := s0) (S1 := s1) (S2 := s2) (L0 := l0) (L1 := l1) (T0 := t0) (T1 := t1) hb hU fam hP (idVals (b := b)))
    (subP_ok (R0 := r1) (R1 := r0) (S0 := s2) (S1 := s1) (S2 := s0) (L0 := l1) (L1 := l0) (T0 := t1) (T1 := t0) hb hU fam hP (fun vc v => by
      obtain ⟨a2, a3, _, c2, c3, c5, c7, d1, d2, d3⟩ := v
      simp only [mono_den, a2, a3, c2, c3, c5, c7, d1, d2, d3, b, H_one]; norm_num)) h

theorem spinFlipZ_of {cap : Nat} {fam : Fam} {f : Formula} (h : szChk cap fam f = true) : SpinFlipZ fam f := by
  unfold szChk at h
  rw [kand, kand, kand, kand] at h
  obtain ⟨c0, c1, c2, c3, ce⟩ := h
  intro P p r0 r1 s0 s1 s2 l0 l1 t0 t1 ht hz h0 h1 hs0 hs2 ht0 ht1
  have hU : (12 : ℕ) ≠ 0 := by norm_num
  have hn : 0 < r0 + r1 := add_pos h0 h1
  let b : Base := ⟨P, r0, r1, s0, s1, s2, l0, l1, t0, t1, r0 + r1, p⟩
  have hb : b.Pos := ⟨h0, h1, hs0, hs2, ht0, ht1, hn, ht.zeta, ht.dens⟩
  have hz2 : p.fld .zetaThreshold * (r0 + r1) < r0 + r1 := by nlinarith [ht.zeta]
  rcases le_or_gt (2 * r0) (p.fld .zetaThreshold * (r0 + r1)) with hA | hA
  · refine sfCase_of c0 P p r0 r1 s0 s1 s2 l0 l1 t0 t1 ht h0 h1 hs0 hs2 ht0 ht1 fun vc _ _ => ?_
    have v := posVals (F := sfFacts 12 0) hb hU
    refine fZ_ok v hz (fNN_ok ?_ (fNeg_ok ?_ (fNeg_ok ?_ trivial))) <;> rw [lin2_den] <;> simp only [v.m37, v.a2, v.a3, v.a13, b] <;> norm_num <;> linarith
  rcases le_or_gt (2 * r1) (p.fld .zetaThreshold * (r0 + r1)) with hB | hB
  · refine sfCase_of c1 P p r0 r1 s0 s1 s2 l0 l1 t0 t1 ht h0 h1 hs0 hs2 ht0 ht1 fun vc _ _ => ?_
    have v := posVals (F := sfFacts 12 1) hb hU
    refine fZ_ok v hz (fNN_ok ?_ (fNeg_ok ?_ (fNeg_ok ?_ trivial))) <;> rw [lin2_den] <;> simp only [v.m37, v.a2, v.a3, v.a13, b] <;> norm_num <;> linarith
  rcases lt_trichotomy r0 r1 with hC | hC | hC
  · refine sfCase_of c2 P p r0 r1 s0 s1 s2 l0 l1 t0 t1 ht h0 h1 hs0 hs2 ht0 ht1 fun vc _ _ => ?_
    have v := posVals (F := sfFacts 12 2) hb hU
    refine fZ_ok v hz (fNeg_ok ?_ (fNeg_ok ?_ (fNeg_ok ?_ trivial))) <;> rw [lin2_den] <;> simp only [v.m37, v.a2, v.a3, v.a13, b] <;> norm_num <;> linarith
  · subst hC
    let b : Base := ⟨P, r0, r0, s0, s1, s2, l0, l1, t0, t1, 1, p⟩
    have hb : b.Pos := ⟨h0, h1, hs0, hs2, ht0, ht1, one_pos, ht.zeta, ht.dens⟩
    exact chk_sound (K := b.ctx 12 (fZ 12 .nil)) primes_prime (ctx_pos hb hU) rfl (ctx_nn hb) (fZ_hold hb hU hz _)
      (subP_ok (R0 := r0) (R1 := r0) (S0 := s0) (S1 := s1) (S2 := s2) (L0 := l0) (L1 := l1) (T0 := t0) (T1 := t1) hb hU fam (fun _ _ => rfl) (fun vc v => by
        obtain ⟨a2, a3, _, c2, c3, c5, c7, d1, d2, d3⟩ := v
        simp only [mono_den, a2, a3, c2, c3, c5, c7, d1, d2, d3, b, H_one]; norm_num))
      (subP_ok (R0 := r0) (R1 := r0) (S0 := s2) (S1 := s1) (S2 := s0) (L0 := l1) (L1 := l0) (T0 := t1) (T1 := t0) hb hU fam (fun _ _ => rfl) (fun vc v => by
        obtain ⟨a2, a3, _, c2, c3, c5, c7, d1, d2, d3⟩ := v
        simp only [mono_den, a2, a3, c2, c3, c5, c7, d1, d2, d3, b, H_one]; norm_num)) ce
  · refine sfCase_of c3 P p r0 r1 s0 s1 s2 l0 l1 t0 t1 ht h0 h1 hs0 hs2 ht0 ht1 fun vc _ _ => ?_
    have v := posVals (F := sfFacts 12 3) hb hU
    refine fZ_ok v hz (fNeg_ok ?_ (fNeg_ok ?_ (fNeg_ok ?_ trivial))) <;> rw [lin2_den] <;> simp only [v.m37, v.a2, v.a3, v.a13, b] <;> norm_num <;> linarith

end

end Verif.Norm
