import Verif.Norm.HintsSound
import Verif.Norm.Check2
/-!
# More kinds of hints

Proof machinery for C49: rewriting with `zeta_threshold < 1`, clipped values, quadratic forms with a parameter, the fully polarized part of the Perdew–Wang
interpolation.
-/
namespace Verif.Norm
open Verif.Py Verif.Spec Verif.Model Verif.Lib

noncomputable section

/-- A hint by another program, for `zeta_threshold < 1`. -/
theorem unpolHint_rwz {a : Assume} {fam : Fam} {b : Prog} (cap : Nat) (q : Prog) {h : Hint} {hs : List Hint} (hh : ∀ h ∈ hs, UnpolHint a fam q h) {par npar flds : List Nat}
    (hp : a.params.map nameCode = par) (hn : a.neg.map nameCode = npar) (hf : a.flds.map fldNo = flds)
    (he : chk primes ⟨12, cap, fZ 12 .nil⟩ (subUnpol 12 fam) ⟨b.body.take h.pos, h.e⟩ (subUnpol 12 fam) q = true)
    (hc : hres (acfg false fam a.sPos a.tPos par npar flds) hs q h.I = true) : UnpolHint a fam b h := by
  intro P E p ρ σ l τ c
  subst hp; subst hn; subst hf
  refine hint_rw c.good ?_ (fun g hg => hh g hg P E p ρ σ l τ c) hc
  rw [c.env]
  let B : Base := ⟨P, ρ, 1, σ, 0, 0, l, 0, τ, 0, 1, p⟩
  have hb : B.Pos := ⟨c.hρ, one_pos, c.hσ, le_rfl, c.hτ, le_rfl, one_pos, c.hrec.zeta, c.hrec.dens⟩
  have hU : (12 : ℕ) ≠ 0 := by norm_num
  have hF : FactsHold (B.ctx 12 (fZ 12 .nil)) (st0 primes) := by
    intro vc _ _
    exact fZ_ok (posVals (F := fZ 12 .nil) hb hU) c.hrec.zeta1 trivial
  exact chk_sound (K := B.ctx 12 (fZ 12 .nil)) primes_prime (ctx_pos hb hU) rfl (ctx_nn hb) hF (subUnpol_ok hb hU fam) (subUnpol_ok hb hU fam) he

theorem srun_mul {P : Prims} {E : Env} {b : List (Nat × Expr)} {x y : Expr} {v : ℝ} (h : srun P E ⟨b, .mul x y⟩ = some v) :
    ∃ u w, srun P E ⟨b, x⟩ = some u ∧ srun P E ⟨b, y⟩ = some w ∧ v = u * w := by
  simp only [srun, seval, Option.bind_eq_bind] at h ⊢
  cases hx : sNum (seval P E (sexec P E b fun _ => none) x) with
  | none => rw [hx] at h; simp [sNum] at h
  | some u =>
  cases hy : sNum (seval P E (sexec P E b fun _ => none) y) with
  | none => rw [hx, hy] at h; simp [sNum] at h
  | some w => rw [hx, hy] at h; exact ⟨u, w, rfl, rfl, (Option.some.inj h).symm⟩

theorem srun_num {P : Prims} {E : Env} {b : List (Nat × Expr)} {m : Nat} {e : Int} : srun P E ⟨b, .num m e⟩ = some (N m e) := rfl

open Classical in
/-- A conditional on `u < v`. -/
theorem srun_cond {P : Prims} {E : Env} {b : List (Nat × Expr)} {u v x y : Expr} {w : ℝ} (h : srun P E ⟨b, .cond (.lt u v) x y⟩ = some w) :
    ∃ s t, srun P E ⟨b, u⟩ = some s ∧ srun P E ⟨b, v⟩ = some t ∧ (s < t ∧ srun P E ⟨b, x⟩ = some w ∨ t ≤ s ∧ srun P E ⟨b, y⟩ = some w) := by
  simp only [srun, seval, Option.bind_eq_bind] at h ⊢
  cases hx : sNum (seval P E (sexec P E b fun _ => none) u) with
  | none => rw [hx] at h; simp [sNum, sBool] at h
  | some s =>
  cases hy : sNum (seval P E (sexec P E b fun _ => none) v) with
  | none => rw [hx, hy] at h; simp [sNum, sBool] at h
  | some t =>
    refine ⟨s, t, rfl, rfl, ?_⟩
    rw [hx, hy] at h
    simp only [Option.bind_some, sBool] at h
    by_cases hst : s < t
    · refine .inl ⟨hst, ?_⟩
      rw [if_pos hst] at h
      cases hz : sNum (seval P E (sexec P E b fun _ => none) x) with
      | none => rw [hz] at h; simp [sNum] at h
      | some z => rw [hz] at h; exact h
    · refine .inr ⟨not_lt.mp hst, ?_⟩
      rw [if_neg hst] at h
      cases hz : sNum (seval P E (sexec P E b fun _ => none) y) with
      | none => rw [hz] at h; simp [sNum] at h
      | some z => rw [hz] at h; exact h

/-- `lax_cond(u < v, x, y) > 0` if `x ≥ v - u` and `y > 0`. -/
theorem hint_condThen {P : Prims} {E : Env} {p : Prog} {n : Nat} {u v x y : Expr} (h : (Hint.mk n (.sub x (.sub v u)) nn).Ok P E p) (hy : (Hint.mk n y pos).Ok P E p) :
    (Hint.mk n (.cond (.lt u v) x y) pos).Ok P E p := by
  intro w hw
  obtain ⟨s, t, hu, hv, ⟨hst, hx⟩ | ⟨-, hy'⟩⟩ := srun_cond hw
  · have := nn_of_has (h _ (srun_sub_of hx (srun_sub_of hv hu)))
    exact has_pos (by linarith)
  · exact hy _ hy'

/-- `lax_cond(u < v, x, y) < 0` if `y < v - u` and `x < 0`. -/
theorem hint_condElse {P : Prims} {E : Env} {p : Prog} {n : Nat} {u v x y : Expr} (h : (Hint.mk n (.sub (.sub v u) y) pos).Ok P E p) (hx : (Hint.mk n x pos.neg).Ok P E p) :
    (Hint.mk n (.cond (.lt u v) x y) pos.neg).Ok P E p := by
  intro w hw
  obtain ⟨s, t, hu, hv, ⟨-, hx'⟩ | ⟨hst, hy⟩⟩ := srun_cond hw
  · exact hx _ hx'
  · have := pos_of_has (h _ (srun_sub_of (srun_sub_of hv hu) hy))
    have := (has_pos (neg_pos.mpr (by linarith : w < 0))).neg
    rwa [neg_neg] at this

theorem polHint_condThen {a : Assume} {fam : Fam} {b : Prog} {n : Nat} {u v x y : Expr} (h : PolHint a fam b ⟨n, .sub x (.sub v u), nn⟩) (hy : PolHint a fam b ⟨n, y, pos⟩) :
    PolHint a fam b ⟨n, .cond (.lt u v) x y, pos⟩ :=
  fun P E p r0 r1 s0 s1 s2 l0 l1 t0 t1 c => hint_condThen (h P E p r0 r1 s0 s1 s2 l0 l1 t0 t1 c) (hy P E p r0 r1 s0 s1 s2 l0 l1 t0 t1 c)
theorem unpolHint_condThen {a : Assume} {fam : Fam} {b : Prog} {n : Nat} {u v x y : Expr} (h : UnpolHint a fam b ⟨n, .sub x (.sub v u), nn⟩) (hy : UnpolHint a fam b ⟨n, y, pos⟩) :
    UnpolHint a fam b ⟨n, .cond (.lt u v) x y, pos⟩ :=
  fun P E p r0 s0 l0 t0 c => hint_condThen (h P E p r0 s0 l0 t0 c) (hy P E p r0 s0 l0 t0 c)
theorem polHint_condElse {a : Assume} {fam : Fam} {b : Prog} {n : Nat} {u v x y : Expr} (h : PolHint a fam b ⟨n, .sub (.sub v u) y, pos⟩) (hx : PolHint a fam b ⟨n, x, pos.neg⟩) :
    PolHint a fam b ⟨n, .cond (.lt u v) x y, pos.neg⟩ :=
  fun P E p r0 r1 s0 s1 s2 l0 l1 t0 t1 c => hint_condElse (h P E p r0 r1 s0 s1 s2 l0 l1 t0 t1 c) (hx P E p r0 r1 s0 s1 s2 l0 l1 t0 t1 c)
theorem unpolHint_condElse {a : Assume} {fam : Fam} {b : Prog} {n : Nat} {u v x y : Expr} (h : UnpolHint a fam b ⟨n, .sub (.sub v u) y, pos⟩) (hx : UnpolHint a fam b ⟨n, x, pos.neg⟩) :
    UnpolHint a fam b ⟨n, .cond (.lt u v) x y, pos.neg⟩ :=
  fun P E p r0 s0 l0 t0 c => hint_condElse (h P E p r0 s0 l0 t0 c) (hx P E p r0 s0 l0 t0 c)

/-- `a - min(u, v) > 0` if `a - v > 0`. -/
theorem hint_subMin {P : Prims} {E : Env} {p : Prog} {n : Nat} {a u v : Expr} (h : (Hint.mk n (.sub a v) pos).Ok P E p) :
    (Hint.mk n (.sub a (.cond (.lt u v) u v)) pos).Ok P E p := by
  intro w hw
  obtain ⟨x, m, hx, hm, rfl⟩ := srun_sub hw
  obtain ⟨s, t, hu, hv, hc⟩ := srun_cond hm
  have := pos_of_has (h _ (srun_sub_of hx hv))
  refine has_pos ?_
  rcases hc with ⟨hst, h1⟩ | ⟨hst, h1⟩
  · obtain rfl := Option.some.inj (hu.symm.trans h1)
    linarith
  · obtain rfl := Option.some.inj (hv.symm.trans h1)
    linarith
theorem polHint_subMin {a : Assume} {fam : Fam} {b : Prog} {n : Nat} {x u v : Expr} (h : PolHint a fam b ⟨n, .sub x v, pos⟩) :
    PolHint a fam b ⟨n, .sub x (.cond (.lt u v) u v), pos⟩ := fun P E p r0 r1 s0 s1 s2 l0 l1 t0 t1 c => hint_subMin (h P E p r0 r1 s0 s1 s2 l0 l1 t0 t1 c)
theorem unpolHint_subMin {a : Assume} {fam : Fam} {b : Prog} {n : Nat} {x u v : Expr} (h : UnpolHint a fam b ⟨n, .sub x v, pos⟩) :
    UnpolHint a fam b ⟨n, .sub x (.cond (.lt u v) u v), pos⟩ := fun P E p r0 s0 l0 t0 c => hint_subMin (h P E p r0 s0 l0 t0 c)

/-- `1 + y + b y²` with a factor `b` that is at least 1/2 -/
def quadBE (y b : Expr) : Expr := .add (.add (.num 1 0) y) (.mul b (.mul y y))

theorem hint_quadB {P : Prims} {E : Env} {p : Prog} {n : Nat} {y b : Expr} (h : (Hint.mk n (.sub b (.num 5 (-1))) nn).Ok P E p) :
    (Hint.mk n (quadBE y b) pos).Ok P E p := by
  intro w hw
  obtain ⟨s, t, hs, ht, rfl⟩ := srun_add hw
  obtain ⟨u, v, hu, hv, rfl⟩ := srun_add hs
  obtain ⟨c, d, hc, hd, rfl⟩ := srun_mul ht
  obtain ⟨v', v'', h1, h2, rfl⟩ := srun_mul hd
  obtain rfl := Option.some.inj (h1.symm.trans hv)
  obtain rfl := Option.some.inj (h2.symm.trans hv)
  obtain rfl := Option.some.inj (srun_num.symm.trans hu)
  have := nn_of_has (h _ (srun_sub_of hc srun_num))
  norm_num at this
  refine has_pos ?_
  norm_num
  nlinarith [mul_self_nonneg v'', mul_self_nonneg (1 + v'')]
theorem polHint_quadB {a : Assume} {fam : Fam} {p : Prog} {n : Nat} {y b : Expr} (h : PolHint a fam p ⟨n, .sub b (.num 5 (-1)), nn⟩) : PolHint a fam p ⟨n, quadBE y b, pos⟩ :=
  fun P E p r0 r1 s0 s1 s2 l0 l1 t0 t1 c => hint_quadB (h P E p r0 r1 s0 s1 s2 l0 l1 t0 t1 c)
theorem unpolHint_quadB {a : Assume} {fam : Fam} {p : Prog} {n : Nat} {y b : Expr} (h : UnpolHint a fam p ⟨n, .sub b (.num 5 (-1)), nn⟩) : UnpolHint a fam p ⟨n, quadBE y b, pos⟩ :=
  fun P E p r0 s0 l0 t0 c => hint_quadB (h P E p r0 s0 l0 t0 c)

/-- `zeta_threshold ≤ 1/10` -/
theorem hint_zs {P : Prims} {E : Env} {p : Prog} {n : Nat} (h0 : 0 < E.fld .zetaThreshold) (h : E.fld .zetaThreshold ≤ 1 / 10) :
    (Hint.mk n (.fld .zetaThreshold) ⟨.fin (Int.ofNat 0) true, .fin (Int.negOfNat 1844674407370955162) false⟩).Ok P E p := by
  intro x hx
  obtain rfl : E.fld .zetaThreshold = x := Option.some.inj hx
  refine ⟨(has_pos h0).1, .negOfNat ?_ fun e => nomatch e⟩
  calc _ ≤ 1 / 10 * rS := mul_le_mul_of_nonneg_right h rS_pos.le
    _ ≤ _ := by norm_num [rS, sc]
theorem unpolHint_zs {a : Assume} {fam : Fam} {b : Prog} {n : Nat} (ha : a.zetaSmall = true) :
    UnpolHint a fam b ⟨n, .fld .zetaThreshold, ⟨.fin (Int.ofNat 0) true, .fin (Int.negOfNat 1844674407370955162) false⟩⟩ := by
  intro P E p ρ σ l τ x
  refine hint_zs ?_ ?_ <;> rw [x.env]
  · exact x.hrec.zeta
  · exact x.hrec.zetaSmall ha

/-- `c (1 + a x) log (1 + d / (b1 √x + b2 x + b3 x^1.5 + b4 x²/4))` -/
def pwTermE (c a d b1 b2 b3 b4 x : Expr) : Expr :=
  .mul (.mul c (.add (.num 1 0) (.mul a x))) (.call1 .log (.add (.num 1 0) (.div d (.add (.add (.add (.mul b1 (.call1 .sqrt x)) (.mul b2 x)) (.mul b3 (.pow x (.num 15 (-1)))))
    (.mul b4 (.div (.mul x x) (.num 4 0)))))))

/-- The value of `pwTermE`. -/
def pwTerm (c a d b1 b2 b3 b4 x : ℝ) : ℝ := c * (1 + a * x) * Real.log (1 + d / (b1 * Real.sqrt x + b2 * x + b3 * x ^ (1.5 : ℝ) + b4 * (x * x / 4)))

theorem srun_call1 {P : Prims} {E : Env} {b : List (Nat × Expr)} {f : Fn1} {x : Expr} {v : ℝ} (h : srun P E ⟨b, .call1 f x⟩ = some v) :
    ∃ u, srun P E ⟨b, x⟩ = some u ∧ dom1 f u ∧ v = fn1Val P f u := by
  simp only [srun, seval, Option.bind_eq_bind] at h ⊢
  cases hx : sNum (seval P E (sexec P E b fun _ => none) x) with
  | none => rw [hx] at h; simp [sNum] at h
  | some u =>
    rw [hx] at h
    simp only [Option.bind_some] at h
    by_cases hd : dom1 f u
    · rw [if_pos hd] at h; exact ⟨u, rfl, hd, (Option.some.inj h).symm⟩
    · rw [if_neg hd] at h; simp [sNum] at h
theorem srun_pow {P : Prims} {E : Env} {b : List (Nat × Expr)} {x y : Expr} {v : ℝ} (h : srun P E ⟨b, .pow x y⟩ = some v) :
    ∃ u w, srun P E ⟨b, x⟩ = some u ∧ srun P E ⟨b, y⟩ = some w ∧ v = u ^ w := by
  simp only [srun, seval, Option.bind_eq_bind] at h ⊢
  cases hx : sNum (seval P E (sexec P E b fun _ => none) x) with
  | none => rw [hx] at h; simp [sNum] at h
  | some u =>
  cases hy : sNum (seval P E (sexec P E b fun _ => none) y) with
  | none => rw [hx, hy] at h; simp [sNum] at h
  | some w =>
    rw [hx, hy] at h
    simp only [Option.bind_some] at h
    by_cases hd : domPow u w
    · rw [if_pos hd] at h; exact ⟨u, w, rfl, rfl, (Option.some.inj h).symm⟩
    · rw [if_neg hd] at h; simp [sNum] at h
theorem srun_div' {P : Prims} {E : Env} {b : List (Nat × Expr)} {x y : Expr} {v : ℝ} (h : srun P E ⟨b, .div x y⟩ = some v) :
    ∃ u w, srun P E ⟨b, x⟩ = some u ∧ srun P E ⟨b, y⟩ = some w ∧ w ≠ 0 ∧ v = u / w := by
  obtain ⟨u, w, hu, hw, rfl⟩ := srun_div h
  refine ⟨u, w, hu, hw, ?_, rfl⟩
  rintro rfl
  simp only [srun, seval, Option.bind_eq_bind] at h hu hw
  rw [hu, hw] at h
  simp [sNum] at h

theorem pwTermE_val {P : Prims} {E : Env} {b : List (Nat × Expr)} {cm am dm m1 m2 m3 m4 : Nat} {ce ae de e1 e2 e3 e4 : Int} {x : Expr} {v : ℝ}
    (h : srun P E ⟨b, pwTermE (.num cm ce) (.num am ae) (.num dm de) (.num m1 e1) (.num m2 e2) (.num m3 e3) (.num m4 e4) x⟩ = some v) :
    ∃ X, 0 < X ∧ srun P E ⟨b, x⟩ = some X ∧ v = pwTerm (N cm ce) (N am ae) (N dm de) (N m1 e1) (N m2 e2) (N m3 e3) (N m4 e4) X := by
  obtain ⟨_, _, h1, h2, rfl⟩ := srun_mul h
  obtain ⟨_, _, h3, h4, rfl⟩ := srun_mul h1
  obtain ⟨_, _, h5, h6, rfl⟩ := srun_add h4
  obtain ⟨_, X, h7, hX, rfl⟩ := srun_mul h6
  obtain ⟨_, h8, -, rfl⟩ := srun_call1 h2
  obtain ⟨_, _, h9, h10, rfl⟩ := srun_add h8
  obtain ⟨_, _, h11, h12, hne, rfl⟩ := srun_div' h10
  obtain ⟨_, _, h13, h14, rfl⟩ := srun_add h12
  obtain ⟨_, _, h15, h16, rfl⟩ := srun_add h13
  obtain ⟨_, _, h17, h18, rfl⟩ := srun_add h15
  obtain ⟨_, _, h19, h20, rfl⟩ := srun_mul h17
  obtain ⟨X1, k1, hd, rfl⟩ := srun_call1 h20
  obtain ⟨_, X2, h21, k2, rfl⟩ := srun_mul h18
  obtain ⟨_, _, h22, h23, rfl⟩ := srun_mul h16
  obtain ⟨X3, _, k3, h24, rfl⟩ := srun_pow h23
  obtain ⟨_, _, h25, h26, rfl⟩ := srun_mul h14
  obtain ⟨_, _, h27, h28, rfl⟩ := srun_div h26
  obtain ⟨X4, X5, k4, k5, rfl⟩ := srun_mul h27
  obtain rfl := Option.some.inj (k1.symm.trans hX)
  obtain rfl := Option.some.inj (k2.symm.trans hX)
  obtain rfl := Option.some.inj (k3.symm.trans hX)
  obtain rfl := Option.some.inj (k4.symm.trans hX)
  obtain rfl := Option.some.inj (k5.symm.trans hX)
  obtain rfl := Option.some.inj (srun_num.symm.trans h3)
  obtain rfl := Option.some.inj (srun_num.symm.trans h5)
  obtain rfl := Option.some.inj (srun_num.symm.trans h7)
  obtain rfl := Option.some.inj (srun_num.symm.trans h9)
  obtain rfl := Option.some.inj (srun_num.symm.trans h11)
  obtain rfl := Option.some.inj (srun_num.symm.trans h19)
  obtain rfl := Option.some.inj (srun_num.symm.trans h21)
  obtain rfl := Option.some.inj (srun_num.symm.trans h22)
  obtain rfl := Option.some.inj (srun_num.symm.trans h24)
  obtain rfl := Option.some.inj (srun_num.symm.trans h25)
  obtain rfl := Option.some.inj (srun_num.symm.trans h28)
  have hd : (0 : ℝ) ≤ X5 := hd
  have e15 : N 15 (-1) = (1.5 : ℝ) := by norm_num
  have e10 : N 1 0 = (1 : ℝ) := by norm_num
  have e40 : N 4 0 = (4 : ℝ) := by norm_num
  refine ⟨X5, lt_of_le_of_ne hd ?_, hX, by rw [e15, e10, e40]; rfl⟩
  rintro rfl
  refine hne ?_
  rw [e15]
  show N m1 e1 * Real.sqrt 0 + _ + _ + _ = 0
  rw [Real.sqrt_zero, Real.zero_rpow (by norm_num)]
  norm_num

/-- `(F - 1) A - F B`: the interpolation for full polarization. -/
def pwfE (cAm : Nat) (cAe : Int) (cBm : Nat) (cBe : Int) (dAm : Nat) (dAe : Int) (dBm : Nat) (dBe : Int) (F x : Expr) : Expr :=
  .sub (.mul (.sub F (.num 1 0)) (pwTermE (.num cAm cAe) (.num 53425 (-6)) (.num dAm dAe) (.num 379785 (-5)) (.num 8969 (-4)) (.num 204775 (-6)) (.num 123235 (-6)) x))
    (.mul F (pwTermE (.num cBm cBe) (.num 5137 (-5)) (.num dBm dBe) (.num 705945 (-5)) (.num 1549425 (-6)) (.num 420775 (-6)) (.num 1562925 (-7)) x))

theorem hint_pwf {P : Prims} {E : Env} {p : Prog} {n : Nat} {cAm cBm dAm dBm : Nat} {cAe cBe dAe dBe : Int} {F x : Expr}
    (hF : (Hint.mk n F ⟨.fin (Int.ofNat 0) false, .fin (Int.negOfNat 20291418481080506777) false⟩).Ok P E p)
    (h : 0 < N cAm cAe ∧ 0 < N dAm dAe ∧ 0 < N dBm dBe ∧ N dAm dAe * (21 / 10) ≤ 11 / 10 * N dBm dBe ∧ N cAm cAe * (11 / 10) * 2 ≤ 10 * N cBm cBe) :
    (Hint.mk n (pwfE cAm cAe cBm cBe dAm dAe dBm dBe F x) pos.neg).Ok P E p := by
  intro w hw
  obtain ⟨_, _, h1, h2, rfl⟩ := srun_sub hw
  obtain ⟨_, A, h3, hA, rfl⟩ := srun_mul h1
  obtain ⟨f, B, hf, hB, rfl⟩ := srun_mul h2
  obtain ⟨f', _, hf', h4, rfl⟩ := srun_sub h3
  obtain rfl := Option.some.inj (hf.symm.trans hf')
  obtain rfl := Option.some.inj (srun_num.symm.trans h4)
  obtain ⟨X, hX, hx, rfl⟩ := pwTermE_val hA
  obtain ⟨X', -, hx', rfl⟩ := pwTermE_val hB
  obtain rfl := Option.some.inj (hx.symm.trans hx')
  have hI := hF _ hf
  have f0 : 0 ≤ f := nn_of_has ⟨hI.lo, trivial⟩
  have f1 : f ≤ 11001 / 10000 := by
    have := hI.hi.1
    have hs : rS = (2 : ℝ) ^ 64 := by norm_num [rS, sc]
    rw [hs] at this
    norm_num at this
    linarith
  obtain ⟨cA, dA, dB, hd2, hc2⟩ := h
  have ha : 0 < Real.sqrt X := Real.sqrt_pos.mpr hX
  have ha2 : Real.sqrt X ^ 2 = X := Real.sq_sqrt hX.le
  have hw3 : X ^ (1.5 : ℝ) = Real.sqrt X ^ 3 := by
    rw [Real.sqrt_eq_rpow, ← Real.rpow_natCast, ← Real.rpow_mul hX.le]; norm_num
  have hw : 0 < X ^ (1.5 : ℝ) := by rw [hw3]; positivity
  have hv : 0 < X * X / 4 := by positivity
  have hrel : X ^ (1.5 : ℝ) ≤ 2 * X + X * X / 4 / 2 := by
    rw [hw3]
    generalize Real.sqrt X = s at *
    rw [← ha2]
    nlinarith [mul_nonneg (sq_nonneg s) (sq_nonneg (s - 4))]
  unfold pwTerm
  generalize Real.sqrt X = a at *
  generalize X ^ (1.5 : ℝ) = w at *
  generalize X * X / 4 = v at *
  have lA : 0 < Real.log (1 + N dAm dAe / (N 379785 (-5) * a + N 8969 (-4) * X + N 204775 (-6) * w + N 123235 (-6) * v)) :=
    Real.log_pos (lt_add_of_pos_right _ (by positivity))
  have hAB := pw_cmp (c1 := N cBm cBe) (k := 11 / 10) (m := 21 / 10) (t := 2) (s := 10) (a1 := N 5137 (-5)) (a2 := N 53425 (-6))
      (Q1 := N 705945 (-5) * a + N 1549425 (-6) * X + N 420775 (-6) * w + N 1562925 (-7) * v)
      (Q2 := N 379785 (-5) * a + N 8969 (-4) * X + N 204775 (-6) * w + N 123235 (-6) * v) hX (by positivity) (by positivity) cA (by norm_num) dB dA
      (by norm_num; nlinarith) hd2 (by norm_num) (by norm_num) (by norm_num) (by linarith)
  have hA0 : 0 < N cAm cAe * (1 + N 53425 (-6) * X) * Real.log (1 + N dAm dAe / (N 379785 (-5) * a + N 8969 (-4) * X + N 204775 (-6) * w + N 123235 (-6) * v)) := by positivity
  generalize N cAm cAe * (1 + N 53425 (-6) * X) * Real.log (1 + N dAm dAe / (N 379785 (-5) * a + N 8969 (-4) * X + N 204775 (-6) * w + N 123235 (-6) * v)) = A at *
  generalize N cBm cBe * (1 + N 5137 (-5) * X) * Real.log (1 + N dBm dBe / (N 705945 (-5) * a + N 1549425 (-6) * X + N 420775 (-6) * w + N 1562925 (-7) * v)) = B at *
  have e10 : N 1 0 = (1 : ℝ) := by norm_num
  rw [e10]
  have key : (f - 1) * A - f * B < 0 := by nlinarith [mul_le_mul_of_nonneg_left hAB f0, mul_le_mul_of_nonneg_right f1 hA0.le]
  have := (has_pos (neg_pos.mpr key)).neg
  rwa [neg_neg] at this
theorem unpolHint_pwf {a : Assume} {fam : Fam} {p : Prog} {n : Nat} {cAm cBm dAm dBm : Nat} {cAe cBe dAe dBe : Int} {F x : Expr}
    (hF : UnpolHint a fam p ⟨n, F, ⟨.fin (Int.ofNat 0) false, .fin (Int.negOfNat 20291418481080506777) false⟩⟩)
    (h : 0 < N cAm cAe ∧ 0 < N dAm dAe ∧ 0 < N dBm dBe ∧ N dAm dAe * (21 / 10) ≤ 11 / 10 * N dBm dBe ∧ N cAm cAe * (11 / 10) * 2 ≤ 10 * N cBm cBe) :
    UnpolHint a fam p ⟨n, pwfE cAm cAe cBm cBe dAm dAe dBm dBe F x, pos.neg⟩ :=
  fun P E p r0 s0 l0 t0 c => hint_pwf (hF P E p r0 s0 l0 t0 c) h

end
end Verif.Norm
