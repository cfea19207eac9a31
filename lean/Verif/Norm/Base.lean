import Verif.Norm.Exists
import Verif.Model.Formula
/-!
# Normal forms of the inputs of formulas
-/
namespace Verif.Norm
open Verif.Py Verif.Model

noncomputable section

/-- The base quantities that normal forms are written in. -/
structure Base where
  P : Prims
  r0 : ℝ
  r1 : ℝ
  s0 : ℝ
  s1 : ℝ
  s2 : ℝ
  l0 : ℝ
  l1 : ℝ
  t0 : ℝ
  t1 : ℝ
  /-- a scale factor -/
  lam : ℝ
  p : Rec

structure Base.Pos (b : Base) : Prop where
  r0 : 0 < b.r0
  r1 : 0 < b.r1
  s0 : 0 ≤ b.s0
  s2 : 0 ≤ b.s2
  t0 : 0 ≤ b.t0
  t1 : 0 ≤ b.t1
  lam : 0 < b.lam
  zt : 0 < b.p.fld .zetaThreshold
  dt : 0 < b.p.fld .densThreshold

/-- Quantity of a positive code, before the root. -/
def Base.posQ (b : Base) (p : Nat) : ℝ :=
  match p with
  | 2 => b.r0 | 3 => b.r1 | 5 => 2 | 7 => 3 | 11 => Real.pi | 13 => b.p.fld .zetaThreshold | 17 => 5 | 19 => 7 | 23 => 11 | 29 => 13
  | 31 => b.p.fld .densThreshold | 37 => b.lam | _ => 1

/-- Quantity of a nonnegative code, before the root. -/
def Base.nnQ (b : Base) (p : Nat) : ℝ :=
  match p with
  | 2 => b.s0 | 3 => b.s2 | 5 => b.t0 | 7 => b.t1 | 11 => b.s0⁻¹ | 13 => b.s2⁻¹ | 17 => b.t0⁻¹ | 19 => b.t1⁻¹ | _ => 1

def Base.symQ (b : Base) (k c : Nat) : ℝ :=
  match k with
  | 0 => b.p.param c
  | 1 => match c with
    | 0 => b.p.fld .zetaThreshold | 1 => b.p.fld .densThreshold | 2 => b.p.fld .camOmega | 3 => b.p.fld .camAlpha | 4 => b.p.fld .camBeta
    | _ => 0
  | _ => match c with
    | 3 => b.s1 | 5 => b.l0 | 6 => b.l1 | _ => 0

def Base.ctx (b : Base) (U : Nat) (facts : Facts) : Ctx where
  P := b.P
  vp p := b.posQ p ^ ((U : ℝ)⁻¹)
  sym := b.symQ
  facts := facts
  vb p := b.nnQ p ^ ((U : ℝ)⁻¹)

theorem Base.posQ_pos {b : Base} (h : b.Pos) (p : Nat) : 0 < b.posQ p := by
  obtain ⟨h1, h2, -, -, -, -, h7, h8, h9⟩ := h
  have := Real.pi_pos
  unfold Base.posQ
  split <;> first | assumption | norm_num

theorem Base.nnQ_nonneg {b : Base} (h : b.Pos) (p : Nat) : 0 ≤ b.nnQ p := by
  obtain ⟨-, -, h1, h2, h3, h4, -, -, -⟩ := h
  unfold Base.nnQ
  split <;> first | assumption | (apply inv_nonneg.mpr; assumption) | norm_num

variable {b : Base} {U : Nat} {F : Facts}

theorem vp_pow (h : b.Pos) (hU : U ≠ 0) {p : Nat} (hp : p.Prime) : H (b.ctx U F).vp p ^ U = b.posQ p := by
  rw [H_prime _ hp]
  exact Real.rpow_inv_natCast_pow (Base.posQ_pos h p).le hU

theorem ctx_pos (h : b.Pos) (hU : U ≠ 0) : PosOk U (b.ctx U F).vp where
  pos p := Real.rpow_pos_of_pos (Base.posQ_pos h p) _
  n2 := (vp_pow h hU (by norm_num)).trans rfl
  n3 := (vp_pow h hU (by norm_num)).trans rfl
  n5 := (vp_pow h hU (by norm_num)).trans rfl
  n7 := (vp_pow h hU (by norm_num)).trans rfl
  n11 := (vp_pow h hU (by norm_num)).trans rfl
  n13 := (vp_pow h hU (by norm_num)).trans rfl

theorem ctx_nn (h : b.Pos) : NnOk (b.ctx U F).vb where
  nn p _ := Real.rpow_nonneg (Base.nnQ_nonneg h p) _
  i2 := by rw [H_prime _ (by norm_num), H_prime _ (by norm_num)]; exact Real.inv_rpow h.s0 _
  i3 := by rw [H_prime _ (by norm_num), H_prime _ (by norm_num)]; exact Real.inv_rpow h.s2 _
  i5 := by rw [H_prime _ (by norm_num), H_prime _ (by norm_num)]; exact Real.inv_rpow h.t0 _
  i7 := by rw [H_prime _ (by norm_num), H_prime _ (by norm_num)]; exact Real.inv_rpow h.t1 _

theorem vc_pow (h : b.Pos) (hU : U ≠ 0) {vc : Nat → ℝ} {s : St} (ho : Ok (b.ctx U F) vc s) {p : Nat} (hp : p ∈ nnPrimes) : H vc p ^ U = b.nnQ p := by
  rw [H_prime _ (nnPrimes_prime p hp).1, ho.base p hp]
  exact Real.rpow_inv_natCast_pow (Base.nnQ_nonneg h p) hU

theorem noFacts (b : Base) (U : Nat) (s : St) : FactsHold (b.ctx U .nil) s := fun _ _ _ => trivial

/-- The monomial `n/d * a * c * c'`, where `a`, `c` are codes of base quantities and `c'` of an atom. -/
def mono (U n d a c c' : Nat) : Poly := .cons (Nat.pow a U) 1 (Nat.mul (Nat.pow c U) c') n 0 d .nil

theorem mono_den (vp vc : Nat → ℝ) (U n d a c c' : Nat) : den vp vc (mono U n d a c c') = (n : ℝ) / d * H vp a ^ U * H vc c ^ U * H vc c' := by
  have e1 : H vp (Nat.pow a U) = H vp a ^ U := H_pow _ _ _
  have e2 : H vc (Nat.mul (Nat.pow c U) c') = H vc c ^ U * H vc c' := (H_mul _ _ _).trans (by rw [show H vc (Nat.pow c U) = H vc c ^ U from H_pow _ _ _])
  rw [mono, den_cons, den_nil, tm, e1, e2]
  simp
  ring

section
variable (pr : List Nat)

theorem ok_s1 {vc : Nat → ℝ} (ho : Ok (b.ctx U F) vc (st0 pr)) : H vc 23 = b.s1 :=
  (ho.atoms ⟨23, 29, 0, 2, 3, .nil, .nil, .nil⟩ (by simp [st0, Tab.ents])).1
theorem ok_l0 {vc : Nat → ℝ} (ho : Ok (b.ctx U F) vc (st0 pr)) : H vc 31 = b.l0 :=
  (ho.atoms ⟨31, 37, 0, 2, 5, .nil, .nil, .nil⟩ (by simp [st0, Tab.ents])).1
theorem ok_l1 {vc : Nat → ℝ} (ho : Ok (b.ctx U F) vc (st0 pr)) : H vc 41 = b.l1 :=
  (ho.atoms ⟨41, 43, 0, 2, 6, .nil, .nil, .nil⟩ (by simp [st0, Tab.ents])).1
end

/-- Has a gradient input / Laplacian and kinetic energy inputs. -/
def _root_.Verif.Model.Fam.hasS (f : Fam) : Bool := Fam.rec false true true f
def _root_.Verif.Model.Fam.hasM (f : Fam) : Bool := Fam.rec false false true f

def ifS (f : Fam) (p : Poly) : Option Poly := kif f.hasS then some p else none
def ifM (f : Fam) (p : Poly) : Option Poly := kif f.hasM then some p else none

/-- Scalar fields: the thresholds are positive base quantities, the rest are symbols. -/
def subFld (U : Nat) (f : Fld) : Option Poly := Fld.rec (some (mono U 1 1 13 1 1)) (some (mono U 1 1 31 1 1)) none none none f

/-- `pol(r0, r1, s0, s1, s2, …)` on base quantities. -/
def subPol (U : Nat) (f : Fam) : Sub where
  inp i := Inp.rec (some (mono U 1 1 2 1 1)) (some (mono U 1 1 3 1 1)) (ifS f (mono U 1 1 1 2 1)) (ifS f (mono U 1 1 1 1 23)) (ifS f (mono U 1 1 1 3 1))
    (ifM f (mono U 1 1 1 1 31)) (ifM f (mono U 1 1 1 1 41)) (ifM f (mono U 1 1 1 5 1)) (ifM f (mono U 1 1 1 7 1)) i
  fld := subFld U

/-- The same with all spin labels exchanged. -/
def subSwap (U : Nat) (f : Fam) : Sub where
  inp i := Inp.rec (some (mono U 1 1 3 1 1)) (some (mono U 1 1 2 1 1)) (ifS f (mono U 1 1 1 3 1)) (ifS f (mono U 1 1 1 1 23)) (ifS f (mono U 1 1 1 2 1))
    (ifM f (mono U 1 1 1 1 41)) (ifM f (mono U 1 1 1 1 31)) (ifM f (mono U 1 1 1 7 1)) (ifM f (mono U 1 1 1 5 1)) i
  fld := subFld U

/-- `unpol(r0, s0, l0, tau0)` on base quantities. -/
def subUnpol (U : Nat) (f : Fam) : Sub where
  inp i := Inp.rec (some (mono U 1 1 2 1 1)) none (ifS f (mono U 1 1 1 2 1)) none none
    (ifM f (mono U 1 1 1 1 31)) none (ifM f (mono U 1 1 1 5 1)) none i
  fld := subFld U

/-- `pol` on the two equal halves of a closed shell. -/
def subHalf (U : Nat) (f : Fam) : Sub where
  inp i := Inp.rec (some (mono U 1 2 2 1 1)) (some (mono U 1 2 2 1 1)) (ifS f (mono U 1 4 1 2 1)) (ifS f (mono U 1 4 1 2 1)) (ifS f (mono U 1 4 1 2 1))
    (ifM f (mono U 1 2 1 1 31)) (ifM f (mono U 1 2 1 1 31)) (ifM f (mono U 1 2 1 5 1)) (ifM f (mono U 1 2 1 5 1)) i
  fld := subFld U

theorem subOk_mk (h : b.Pos) (hU : U ≠ 0) {cap : Nat} {pr : List Nat} {S : Sub} {E : Env} (hS : S.fld = subFld U) (hP : ∀ p vc, den (b.ctx U F).vp vc (S.post p) = den (b.ctx U F).vp vc p) (hE1 : E.fld = b.p.fld) (hE2 : E.param = b.p.param)
    (hinp : ∀ i p, S.inp i = some p → ∃ x, E.inp i = .ok x ∧ ∀ vc, Ok (b.ctx U F) vc (st0 pr) → x = den (b.ctx U F).vp vc p) :
    SubOk ⟨U, cap, F⟩ (b.ctx U F) S E (st0 pr) where
  inp := hinp
  fld f p hf vc ho := by
    rw [hS] at hf
    rw [hE1]
    have h13 := vp_pow (F := F) h hU (p := 13) (by norm_num)
    have h31 := vp_pow (F := F) h hU (p := 31) (by norm_num)
    cases f <;> simp only [subFld, reduceCtorEq, Option.some.injEq] at hf <;> subst hf <;> rw [mono_den] <;> simp [h13, h31, Base.posQ]
  fldSym f hf := by
    rw [hS] at hf
    rw [hE1]
    cases f <;> first | rfl | cases hf
  param c := by rw [hE2]; rfl
  pi := (vp_pow h hU (by norm_num)).trans rfl
  post := hP

/-- Values of the codes of base quantities. -/
structure Vals (b : Base) (U : Nat) (F : Facts) (vc : Nat → ℝ) : Prop where
  a2 : H (b.ctx U F).vp 2 ^ U = b.r0
  a3 : H (b.ctx U F).vp 3 ^ U = b.r1
  a37 : H (b.ctx U F).vp 37 ^ U = b.lam
  c2 : H vc 2 ^ U = b.s0
  c3 : H vc 3 ^ U = b.s2
  c5 : H vc 5 ^ U = b.t0
  c7 : H vc 7 ^ U = b.t1
  d1 : H vc 23 = b.s1
  d2 : H vc 31 = b.l0
  d3 : H vc 41 = b.l1

theorem vals (h : b.Pos) (hU : U ≠ 0) {pr : List Nat} {vc : Nat → ℝ} (ho : Ok (b.ctx U F) vc (st0 pr)) : Vals b U F vc where
  a2 := vp_pow h hU (by norm_num)
  a3 := vp_pow h hU (by norm_num)
  a37 := vp_pow h hU (by norm_num)
  c2 := vc_pow h hU ho (by simp [nnPrimes])
  c3 := vc_pow h hU ho (by simp [nnPrimes])
  c5 := vc_pow h hU ho (by simp [nnPrimes])
  c7 := vc_pow h hU ho (by simp [nnPrimes])
  d1 := ok_s1 pr ho
  d2 := ok_l0 pr ho
  d3 := ok_l1 pr ho

theorem subPol_ok (h : b.Pos) (hU : U ≠ 0) {cap : Nat} {pr : List Nat} (f : Fam) :
    SubOk ⟨U, cap, F⟩ (b.ctx U F) (subPol U f) (polEnv b.p (b.r0, b.r1) (f.grad (b.s0, b.s1, b.s2)) (f.meta (b.l0, b.l1)) (f.meta (b.t0, b.t1))) (st0 pr) := by
  refine subOk_mk h hU rfl (fun _ _ => rfl) rfl rfl fun i p hi => ?_
  cases f <;> cases i <;> simp only [subPol, ifS, ifM, Fam.hasS, Fam.hasM, reduceCtorEq, Option.some.injEq] at hi <;> subst hi <;>
    refine ⟨_, rfl, fun vc ho => ?_⟩ <;> obtain ⟨a2, a3, _, c2, c3, c5, c7, d1, d2, d3⟩ := vals h hU ho <;> rw [mono_den] <;>
    simp [a2, a3, c2, c3, c5, c7, d1, d2, d3]

theorem subSwap_ok (h : b.Pos) (hU : U ≠ 0) {cap : Nat} {pr : List Nat} (f : Fam) :
    SubOk ⟨U, cap, F⟩ (b.ctx U F) (subSwap U f) (polEnv b.p (b.r1, b.r0) (f.grad (b.s2, b.s1, b.s0)) (f.meta (b.l1, b.l0)) (f.meta (b.t1, b.t0))) (st0 pr) := by
  refine subOk_mk h hU rfl (fun _ _ => rfl) rfl rfl fun i p hi => ?_
  cases f <;> cases i <;> simp only [subSwap, ifS, ifM, Fam.hasS, Fam.hasM, reduceCtorEq, Option.some.injEq] at hi <;> subst hi <;>
    refine ⟨_, rfl, fun vc ho => ?_⟩ <;> obtain ⟨a2, a3, _, c2, c3, c5, c7, d1, d2, d3⟩ := vals h hU ho <;> rw [mono_den] <;>
    simp [a2, a3, c2, c3, c5, c7, d1, d2, d3]

theorem subUnpol_ok (h : b.Pos) (hU : U ≠ 0) {cap : Nat} {pr : List Nat} (f : Fam) :
    SubOk ⟨U, cap, F⟩ (b.ctx U F) (subUnpol U f) (unpolEnv b.p b.r0 (f.grad b.s0) (f.meta b.l0) (f.meta b.t0)) (st0 pr) := by
  refine subOk_mk h hU rfl (fun _ _ => rfl) rfl rfl fun i p hi => ?_
  cases f <;> cases i <;> simp only [subUnpol, ifS, ifM, Fam.hasS, Fam.hasM, reduceCtorEq, Option.some.injEq] at hi <;> subst hi <;>
    refine ⟨_, rfl, fun vc ho => ?_⟩ <;> obtain ⟨a2, a3, _, c2, c3, c5, c7, d1, d2, d3⟩ := vals h hU ho <;> rw [mono_den] <;>
    simp [a2, a3, c2, c3, c5, c7, d1, d2, d3]

theorem subHalf_ok (h : b.Pos) (hU : U ≠ 0) {cap : Nat} {pr : List Nat} (f : Fam) :
    SubOk ⟨U, cap, F⟩ (b.ctx U F) (subHalf U f) (polEnv b.p (b.r0 / 2, b.r0 / 2) (f.grad (b.s0 / 4, b.s0 / 4, b.s0 / 4)) (f.meta (b.l0 / 2, b.l0 / 2))
      (f.meta (b.t0 / 2, b.t0 / 2))) (st0 pr) := by
  refine subOk_mk h hU rfl (fun _ _ => rfl) rfl rfl fun i p hi => ?_
  cases f <;> cases i <;> simp only [subHalf, ifS, ifM, Fam.hasS, Fam.hasM, reduceCtorEq, Option.some.injEq] at hi <;> subst hi <;>
    refine ⟨_, rfl, fun vc ho => ?_⟩ <;> obtain ⟨a2, a3, _, c2, c3, c5, c7, d1, d2, d3⟩ := vals h hU ho <;> rw [mono_den] <;>
    simp [a2, a3, c2, c3, c5, c7, d1, d2, d3] <;> ring

end

end Verif.Norm
