import Verif.Norm.Pw92
import Verif.Norm.Check
import Lean.Elab.Command
import Verif.Py.Elab
/-!
# From checks with hints to the claim

Proof machinery for C49.
-/
namespace Verif.Norm
open Verif.Py Verif.Spec Verif.Model Verif.Lib

section
open Lean Elab Command

/-- `prog NAME "…"` defines `NAME : Prog` from Python text. -/
syntax "prog " ident str : command

elab_rules : command
  | `(prog $n:ident $p:str) => do
    let ns := (← getCurrNamespace) ++ n.getId
    match progOf p.getString with
    | none => throwError "cannot parse {n.getId}"
    | some pr => addDefn ns (mkConst ``Prog) (toExpr pr)
end

noncomputable section

theorem fc {α : Type} {Q : α → Prop} {a : α} {l : List α} (h : Q a) (t : ∀ x ∈ l, Q x) : ∀ x ∈ a :: l, Q x := List.forall_mem_cons.mpr ⟨h, t⟩
theorem fn {α : Type} {Q : α → Prop} : ∀ x ∈ ([] : List α), Q x := fun _ h => absurd h List.not_mem_nil

/-- The environment and what is assumed about it, polarized. -/
structure PolCtx (a : Assume) (fam : Fam) (E : Env) (p : Model.Rec) (r0 r1 s0 s1 s2 l0 l1 t0 t1 : ℝ) : Prop where
  env : E = polEnv p (r0, r1) (fam.grad (s0, s1, s2)) (fam.meta (l0, l1)) (fam.meta (t0, t1))
  hrec : a.Rec p
  h0 : 0 < r0
  h1 : 0 < r1
  hs0 : 0 ≤ s0
  hs2 : 0 ≤ s2
  hst : 0 ≤ s0 + 2 * s1 + s2
  ht0 : 0 ≤ t0
  ht1 : 0 ≤ t1
  hs : a.sPos = true → 0 < s0 ∧ 0 < s2 ∧ 0 < s0 + 2 * s1 + s2
  ht : a.tPos = true → 0 < t0 ∧ 0 < t1
  vw : a.vw = true → s0 ≤ 8 * r0 * t0 ∧ s2 ≤ 8 * r1 * t1

/-- The environment and what is assumed about it, unpolarized. -/
structure UnpolCtx (a : Assume) (fam : Fam) (E : Env) (p : Model.Rec) (ρ σ l τ : ℝ) : Prop where
  env : E = unpolEnv p ρ (fam.grad σ) (fam.meta l) (fam.meta τ)
  hrec : a.Rec p
  hρ : 0 < ρ
  hσ : 0 ≤ σ
  hτ : 0 ≤ τ
  hs : a.sPos = true → 0 < σ
  ht : a.tPos = true → 0 < τ
  vw : a.vw = true → σ ≤ 8 * ρ * τ

/-- What a hint says, whatever the values of the inputs. -/
def PolHint (a : Assume) (fam : Fam) (b : Prog) (h : Hint) : Prop :=
  ∀ (P : Prims) (E : Env) (p : Model.Rec) (r0 r1 s0 s1 s2 l0 l1 t0 t1 : ℝ), PolCtx a fam E p r0 r1 s0 s1 s2 l0 l1 t0 t1 → h.Ok P E b
def UnpolHint (a : Assume) (fam : Fam) (b : Prog) (h : Hint) : Prop :=
  ∀ (P : Prims) (E : Env) (p : Model.Rec) (ρ σ l τ : ℝ), UnpolCtx a fam E p ρ σ l τ → h.Ok P E b

theorem PolCtx.good {a : Assume} {fam : Fam} {E : Env} {p : Model.Rec} {r0 r1 s0 s1 s2 l0 l1 t0 t1 : ℝ} (c : PolCtx a fam E p r0 r1 s0 s1 s2 l0 l1 t0 t1) :
    Good (acfg true fam a.sPos a.tPos (a.params.map nameCode) (a.neg.map nameCode) (a.flds.map fldNo)) E ⟨r0, r1, s0, s1, s2⟩ := by
  rw [c.env]; exact pgood c.hrec c.h0 c.h1 c.hs0 c.hs2 c.hst c.ht0 c.ht1 c.hs c.ht
theorem UnpolCtx.good {a : Assume} {fam : Fam} {E : Env} {p : Model.Rec} {ρ σ l τ : ℝ} (c : UnpolCtx a fam E p ρ σ l τ) :
    Good (acfg false fam a.sPos a.tPos (a.params.map nameCode) (a.neg.map nameCode) (a.flds.map fldNo)) E ⟨ρ, 1, σ, 0, 0⟩ := by
  rw [c.env]; exact ugood c.hrec c.hρ c.hσ c.hτ c.hs c.ht

theorem pp_sound {pr : List Nat} {U cap : Nat} (hU : U ≠ 0) {fam : Fam} {A B : Prog} (b : Base) (hb : b.Pos) (hpr : ∀ p ∈ pr, p.Prime)
    (h : chk pr ⟨U, cap, .nil⟩ (subPol U fam) A (subPol U fam) B = true) :
    ∃ x, run b.P (polEnv b.p (b.r0, b.r1) (fam.grad (b.s0, b.s1, b.s2)) (fam.meta (b.l0, b.l1)) (fam.meta (b.t0, b.t1))) A = .ok x ∧
      run b.P (polEnv b.p (b.r0, b.r1) (fam.grad (b.s0, b.s1, b.s2)) (fam.meta (b.l0, b.l1)) (fam.meta (b.t0, b.t1))) B = .ok x :=
  chk_sound (K := b.ctx U .nil) hpr (ctx_pos hb hU) rfl (ctx_nn hb) (noFacts b U _) (subPol_ok hb hU fam) (subPol_ok hb hU fam) h

theorem uu_sound {pr : List Nat} {U cap : Nat} (hU : U ≠ 0) {fam : Fam} {A B : Prog} (b : Base) (hb : b.Pos) (hpr : ∀ p ∈ pr, p.Prime)
    (h : chk pr ⟨U, cap, .nil⟩ (subUnpol U fam) A (subUnpol U fam) B = true) :
    ∃ x, run b.P (unpolEnv b.p b.r0 (fam.grad b.s0) (fam.meta b.l0) (fam.meta b.t0)) A = .ok x ∧
      run b.P (unpolEnv b.p b.r0 (fam.grad b.s0) (fam.meta b.l0) (fam.meta b.t0)) B = .ok x :=
  chk_sound (K := b.ctx U .nil) hpr (ctx_pos hb hU) rfl (ctx_nn hb) (noFacts b U _) (subUnpol_ok hb hU fam) (subUnpol_ok hb hU fam) h

/-- A hint by another program: `chk` shows that the values are equal, `hres` bounds the other one. -/
theorem polHint_rw {a : Assume} {fam : Fam} {b : Prog} (cap : Nat) (q : Prog) {h : Hint} {hs : List Hint} (hh : ∀ h ∈ hs, PolHint a fam q h) {par npar flds : List Nat}
    (hp : a.params.map nameCode = par) (hn : a.neg.map nameCode = npar) (hf : a.flds.map fldNo = flds)
    (he : chk primes ⟨12, cap, .nil⟩ (subPol 12 fam) ⟨b.body.take h.pos, h.e⟩ (subPol 12 fam) q = true)
    (hc : hres (acfg true fam a.sPos a.tPos par npar flds) hs q h.I = true) : PolHint a fam b h := by
  intro P E p r0 r1 s0 s1 s2 l0 l1 t0 t1 c
  subst hp; subst hn; subst hf
  refine hint_rw c.good ?_ (fun g hg => hh g hg P E p r0 r1 s0 s1 s2 l0 l1 t0 t1 c) hc
  rw [c.env]
  exact pp_sound (U := 12) (by norm_num) ⟨P, r0, r1, s0, s1, s2, l0, l1, t0, t1, 1, p⟩ ⟨c.h0, c.h1, c.hs0, c.hs2, c.ht0, c.ht1, one_pos, c.hrec.zeta, c.hrec.dens⟩ primes_prime he

theorem unpolHint_rw {a : Assume} {fam : Fam} {b : Prog} (cap : Nat) (q : Prog) {h : Hint} {hs : List Hint} (hh : ∀ h ∈ hs, UnpolHint a fam q h) {par npar flds : List Nat}
    (hp : a.params.map nameCode = par) (hn : a.neg.map nameCode = npar) (hf : a.flds.map fldNo = flds)
    (he : chk primes ⟨12, cap, .nil⟩ (subUnpol 12 fam) ⟨b.body.take h.pos, h.e⟩ (subUnpol 12 fam) q = true)
    (hc : hres (acfg false fam a.sPos a.tPos par npar flds) hs q h.I = true) : UnpolHint a fam b h := by
  intro P E p ρ σ l τ c
  subst hp; subst hn; subst hf
  refine hint_rw c.good ?_ (fun g hg => hh g hg P E p ρ σ l τ c) hc
  rw [c.env]
  exact uu_sound (U := 12) (by norm_num) ⟨P, ρ, 1, σ, 0, 0, l, 0, τ, 0, 1, p⟩ ⟨c.hρ, one_pos, c.hσ, le_rfl, c.hτ, le_rfl, one_pos, c.hrec.zeta, c.hrec.dens⟩ primes_prime he

theorem polHint_par {a : Assume} {fam : Fam} {b : Prog} {n c m : Nat} {s : String} {q : ℚ} (hm : (s, q) ∈ a.le) (hs : nameCode s = c) (hq : q * sc ≤ m) :
    PolHint a fam b ⟨n, .param c, ⟨.inf, .fin (Int.negOfNat m) false⟩⟩ := by
  intro P E p r0 r1 s0 s1 s2 l0 l1 t0 t1 x
  refine hint_par ?_ hq
  rw [x.env, ← hs]
  exact x.hrec.le _ hm

theorem unpolHint_par {a : Assume} {fam : Fam} {b : Prog} {n c m : Nat} {s : String} {q : ℚ} (hm : (s, q) ∈ a.le) (hs : nameCode s = c) (hq : q * sc ≤ m) :
    UnpolHint a fam b ⟨n, .param c, ⟨.inf, .fin (Int.negOfNat m) false⟩⟩ := by
  intro P E p ρ σ l τ x
  refine hint_par ?_ hq
  rw [x.env, ← hs]
  exact x.hrec.le _ hm

theorem polHint_ge {a : Assume} {fam : Fam} {b : Prog} {n c k : Nat} {s : String} {q0 : ℚ} (hm0 : (s, q0) ∈ a.ge) (hs : nameCode s = c) (hq0 : (k : ℚ) ≤ q0 * sc) :
    PolHint a fam b ⟨n, .param c, ⟨.fin (Int.ofNat k) false, .inf⟩⟩ := by
  intro P E p r0 r1 s0 s1 s2 l0 l1 t0 t1 x
  refine hint_ge ?_ hq0
  rw [x.env, ← hs]
  exact x.hrec.ge _ hm0

theorem unpolHint_ge {a : Assume} {fam : Fam} {b : Prog} {n c k : Nat} {s : String} {q0 : ℚ} (hm0 : (s, q0) ∈ a.ge) (hs : nameCode s = c) (hq0 : (k : ℚ) ≤ q0 * sc) :
    UnpolHint a fam b ⟨n, .param c, ⟨.fin (Int.ofNat k) false, .inf⟩⟩ := by
  intro P E p ρ σ l τ x
  refine hint_ge ?_ hq0
  rw [x.env, ← hs]
  exact x.hrec.ge _ hm0

theorem polHint_between {a : Assume} {fam : Fam} {b : Prog} {n c k m : Nat} {s : String} {q0 q : ℚ} (hm0 : (s, q0) ∈ a.ge) (hm : (s, q) ∈ a.le) (hs : nameCode s = c) (hq0 : (k : ℚ) ≤ q0 * sc)
    (hq : q * sc ≤ m) : PolHint a fam b ⟨n, .param c, ⟨.fin (Int.ofNat k) false, .fin (Int.negOfNat m) false⟩⟩ := by
  intro P E p r0 r1 s0 s1 s2 l0 l1 t0 t1 x
  refine hint_between ?_ hq0 ?_ hq <;> rw [x.env, ← hs]
  · exact x.hrec.ge _ hm0
  · exact x.hrec.le _ hm

theorem unpolHint_between {a : Assume} {fam : Fam} {b : Prog} {n c k m : Nat} {s : String} {q0 q : ℚ} (hm0 : (s, q0) ∈ a.ge) (hm : (s, q) ∈ a.le) (hs : nameCode s = c) (hq0 : (k : ℚ) ≤ q0 * sc)
    (hq : q * sc ≤ m) : UnpolHint a fam b ⟨n, .param c, ⟨.fin (Int.ofNat k) false, .fin (Int.negOfNat m) false⟩⟩ := by
  intro P E p ρ σ l τ x
  refine hint_between ?_ hq0 ?_ hq <;> rw [x.env, ← hs]
  · exact x.hrec.ge _ hm0
  · exact x.hrec.le _ hm

/-- `8 ρ τ - |∇ρ|²` -/
def vwE (r s t : Inp) : Expr := .sub (.mul (.mul (.num 8 0) (.inp r)) (.inp t)) (.inp s)

theorem polHint_vw {a : Assume} {b : Prog} {n : Nat} (ha : a.vw = true) : PolHint a .mgga b ⟨n, vwE .r0 .s0 .tau0, nn⟩ := by
  intro P E p r0 r1 s0 s1 s2 l0 l1 t0 t1 x y hy
  rw [x.env] at hy
  obtain rfl : ((8 : ℕ) : ℝ) * (10 : ℝ) ^ (0 : Int) * r0 * t0 - s0 = y := Option.some.inj hy
  exact has_nn (by have := (x.vw ha).1; norm_num; exact this)

theorem polHint_vw1 {a : Assume} {b : Prog} {n : Nat} (ha : a.vw = true) : PolHint a .mgga b ⟨n, vwE .r1 .s2 .tau1, nn⟩ := by
  intro P E p r0 r1 s0 s1 s2 l0 l1 t0 t1 x y hy
  rw [x.env] at hy
  obtain rfl : ((8 : ℕ) : ℝ) * (10 : ℝ) ^ (0 : Int) * r1 * t1 - s2 = y := Option.some.inj hy
  exact has_nn (by have := (x.vw ha).2; norm_num; exact this)

theorem unpolHint_vw {a : Assume} {b : Prog} {n : Nat} (ha : a.vw = true) : UnpolHint a .mgga b ⟨n, vwE .r0 .s0 .tau0, nn⟩ := by
  intro P E p ρ σ l τ x y hy
  rw [x.env] at hy
  obtain rfl : ((8 : ℕ) : ℝ) * (10 : ℝ) ^ (0 : Int) * ρ * τ - σ = y := Option.some.inj hy
  exact has_nn (by have := x.vw ha; norm_num; exact this)

/-- `k x² - b x √z + c z` -/
def amgmE (km : Nat) (ke : Int) (bm : Nat) (be : Int) (cm : Nat) (ce : Int) (x z : Expr) : Expr :=
  .add (.sub (.mul (.num km ke) (.mul x x)) (.mul (.num bm be) (.mul x (.call1 .sqrt z)))) (.mul (.num cm ce) z)
/-- `k x² - b x y + c y²` -/
def quadE (km : Nat) (ke : Int) (bm : Nat) (be : Int) (cm : Nat) (ce : Int) (x y : Expr) : Expr :=
  .add (.sub (.mul (.num km ke) (.mul x x)) (.mul (.num bm be) (.mul x y))) (.mul (.num cm ce) (.mul y y))

theorem quad_nn {k b c x y : ℝ} (hk : 0 < k) (h : b * b ≤ 4 * k * c) : 0 ≤ k * (x * x) - b * (x * y) + c * (y * y) := by
  have : 4 * k * (k * (x * x) - b * (x * y) + c * (y * y)) = (2 * k * x - b * y) ^ 2 + (4 * k * c - b * b) * (y * y) := by ring
  have h2 : 0 ≤ 4 * k * (k * (x * x) - b * (x * y) + c * (y * y)) := by
    rw [this]; exact add_nonneg (sq_nonneg _) (mul_nonneg (sub_nonneg.mpr h) (mul_self_nonneg y))
  exact nonneg_of_mul_nonneg_right h2 (by positivity)

theorem hint_amgm {P : Prims} {E : Env} {p : Prog} {n : Nat} {km bm cm : Nat} {ke be ce : Int} {x z : Expr} (hk : 0 < N km ke) (h : N bm be * N bm be ≤ 4 * N km ke * N cm ce) :
    (Hint.mk n (amgmE km ke bm be cm ce x z) nn).Ok P E p := by
  intro v hv
  simp only [srun, amgmE, seval, Option.bind_eq_bind] at hv
  generalize sNum (seval P E (sexec P E (List.take n p.body) fun _ => none) x) = X at hv
  generalize sNum (seval P E (sexec P E (List.take n p.body) fun _ => none) z) = Z at hv
  cases X with
  | none => simp [sNum] at hv
  | some X =>
  cases Z with
  | none => simp [sNum] at hv
  | some Z =>
  by_cases hz : dom1 .sqrt Z
  · simp only [sNum, Option.bind_some, hz, if_true, Option.some.injEq] at hv
    rw [← hv]
    refine has_nn ?_
    have hz : (0:ℝ) ≤ Z := hz
    have := quad_nn (x := X) (y := Real.sqrt Z) hk h
    rwa [Real.mul_self_sqrt hz] at this
  · simp [sNum, hz] at hv

theorem hint_quad {P : Prims} {E : Env} {p : Prog} {n : Nat} {km bm cm : Nat} {ke be ce : Int} {x y : Expr} (hk : 0 < N km ke) (h : N bm be * N bm be ≤ 4 * N km ke * N cm ce) :
    (Hint.mk n (quadE km ke bm be cm ce x y) nn).Ok P E p := by
  intro v hv
  simp only [srun, quadE, seval, Option.bind_eq_bind] at hv
  generalize sNum (seval P E (sexec P E (List.take n p.body) fun _ => none) x) = X at hv
  generalize sNum (seval P E (sexec P E (List.take n p.body) fun _ => none) y) = Y at hv
  cases X with
  | none => simp [sNum] at hv
  | some X =>
  cases Y with
  | none => simp [sNum] at hv
  | some Y =>
  simp only [sNum, Option.bind_some, Option.some.injEq] at hv
  rw [← hv]
  exact has_nn (quad_nn (x := X) (y := Y) hk h)

theorem polHint_amgm {a : Assume} {fam : Fam} {b : Prog} {n : Nat} {km bm cm : Nat} {ke be ce : Int} {x z : Expr} (hk : 0 < N km ke ∧ N bm be * N bm be ≤ 4 * N km ke * N cm ce) :
    PolHint a fam b ⟨n, amgmE km ke bm be cm ce x z, nn⟩ := fun _ _ _ _ _ _ _ _ _ _ _ _ _ => hint_amgm hk.1 hk.2
theorem unpolHint_amgm {a : Assume} {fam : Fam} {b : Prog} {n : Nat} {km bm cm : Nat} {ke be ce : Int} {x z : Expr} (hk : 0 < N km ke ∧ N bm be * N bm be ≤ 4 * N km ke * N cm ce) :
    UnpolHint a fam b ⟨n, amgmE km ke bm be cm ce x z, nn⟩ := fun _ _ _ _ _ _ _ _ => hint_amgm hk.1 hk.2
theorem polHint_quad {a : Assume} {fam : Fam} {b : Prog} {n : Nat} {km bm cm : Nat} {ke be ce : Int} {x z : Expr} (hk : 0 < N km ke ∧ N bm be * N bm be ≤ 4 * N km ke * N cm ce) :
    PolHint a fam b ⟨n, quadE km ke bm be cm ce x z, nn⟩ := fun _ _ _ _ _ _ _ _ _ _ _ _ _ => hint_quad hk.1 hk.2
theorem unpolHint_quad {a : Assume} {fam : Fam} {b : Prog} {n : Nat} {km bm cm : Nat} {ke be ce : Int} {x z : Expr} (hk : 0 < N km ke ∧ N bm be * N bm be ≤ 4 * N km ke * N cm ce) :
    UnpolHint a fam b ⟨n, quadE km ke bm be cm ce x z, nn⟩ := fun _ _ _ _ _ _ _ _ => hint_quad hk.1 hk.2

theorem pos_of_has {x : ℝ} (h : pos.Has x) : 0 < x := by
  have := h.lo.2 rfl
  simp only [Int.ofNat_eq_natCast, Nat.cast_zero, Int.cast_zero] at this
  exact pos_of_mul_pos_left this rS_pos.le
theorem nn_of_has {x : ℝ} (h : nn.Has x) : 0 ≤ x := by
  have := h.lo.1
  simp only [Int.ofNat_eq_natCast, Nat.cast_zero, Int.cast_zero] at this
  exact nonneg_of_mul_nonneg_left this rS_pos

theorem srun_add {P : Prims} {E : Env} {b : List (Nat × Expr)} {x y : Expr} {v : ℝ} (h : srun P E ⟨b, .add x y⟩ = some v) :
    ∃ u w, srun P E ⟨b, x⟩ = some u ∧ srun P E ⟨b, y⟩ = some w ∧ v = u + w := by
  simp only [srun, seval, Option.bind_eq_bind] at h ⊢
  cases hx : sNum (seval P E (sexec P E b fun _ => none) x) with
  | none => rw [hx] at h; simp [sNum] at h
  | some u =>
  cases hy : sNum (seval P E (sexec P E b fun _ => none) y) with
  | none => rw [hx, hy] at h; simp [sNum] at h
  | some w => rw [hx, hy] at h; exact ⟨u, w, rfl, rfl, (Option.some.inj h).symm⟩
theorem srun_sub {P : Prims} {E : Env} {b : List (Nat × Expr)} {x y : Expr} {v : ℝ} (h : srun P E ⟨b, .sub x y⟩ = some v) :
    ∃ u w, srun P E ⟨b, x⟩ = some u ∧ srun P E ⟨b, y⟩ = some w ∧ v = u - w := by
  simp only [srun, seval, Option.bind_eq_bind] at h ⊢
  cases hx : sNum (seval P E (sexec P E b fun _ => none) x) with
  | none => rw [hx] at h; simp [sNum] at h
  | some u =>
  cases hy : sNum (seval P E (sexec P E b fun _ => none) y) with
  | none => rw [hx, hy] at h; simp [sNum] at h
  | some w => rw [hx, hy] at h; exact ⟨u, w, rfl, rfl, (Option.some.inj h).symm⟩
theorem srun_div {P : Prims} {E : Env} {b : List (Nat × Expr)} {x y : Expr} {v : ℝ} (h : srun P E ⟨b, .div x y⟩ = some v) :
    ∃ u w, srun P E ⟨b, x⟩ = some u ∧ srun P E ⟨b, y⟩ = some w ∧ v = u / w := by
  simp only [srun, seval, Option.bind_eq_bind] at h ⊢
  cases hx : sNum (seval P E (sexec P E b fun _ => none) x) with
  | none => rw [hx] at h; simp [sNum] at h
  | some u =>
  cases hy : sNum (seval P E (sexec P E b fun _ => none) y) with
  | none => rw [hx, hy] at h; simp [sNum] at h
  | some w =>
    rw [hx, hy] at h
    refine ⟨u, w, rfl, rfl, ?_⟩
    by_cases h0 : w = 0
    · simp [sNum, h0] at h
    · simp only [Option.bind_some, h0, if_false] at h
      exact (Option.some.inj h).symm
theorem srun_mul_of {P : Prims} {E : Env} {b : List (Nat × Expr)} {x y : Expr} {u w : ℝ} (h : srun P E ⟨b, x⟩ = some u) (h' : srun P E ⟨b, y⟩ = some w) :
    srun P E ⟨b, .mul x y⟩ = some (u * w) := by
  simp only [srun, seval, Option.bind_eq_bind] at h h' ⊢
  rw [h, h']; rfl
theorem srun_add_of {P : Prims} {E : Env} {b : List (Nat × Expr)} {x y : Expr} {u w : ℝ} (h : srun P E ⟨b, x⟩ = some u) (h' : srun P E ⟨b, y⟩ = some w) :
    srun P E ⟨b, .add x y⟩ = some (u + w) := by
  simp only [srun, seval, Option.bind_eq_bind] at h h' ⊢
  rw [h, h']; rfl
theorem srun_sub_of {P : Prims} {E : Env} {b : List (Nat × Expr)} {x y : Expr} {u w : ℝ} (h : srun P E ⟨b, x⟩ = some u) (h' : srun P E ⟨b, y⟩ = some w) :
    srun P E ⟨b, .sub x y⟩ = some (u - w) := by
  simp only [srun, seval, Option.bind_eq_bind] at h h' ⊢
  rw [h, h']; rfl

/-- Positive, or not negative. -/
def sgI (s : Bool) : Itv := if s then pos else nn

theorem sgI_div {s : Bool} {x y d : ℝ} (hd : 0 < d) (h : (sgI s).Has x) (e : y * d = x) : (sgI s).Has y := by
  have hy : y = x / d := by rw [← e, mul_div_cancel_right₀ _ hd.ne']
  cases s
  · exact has_nn (by rw [hy]; exact div_nonneg (nn_of_has h) hd.le)
  · exact has_pos (by rw [hy]; exact div_pos (pos_of_has h) hd)

/-- The sign of `a + b / d` is that of `a * d + b`. -/
theorem hint_fadd {P : Prims} {E : Env} {p : Prog} {n : Nat} {a b d : Expr} (s : Bool) (hd : (Hint.mk n d pos).Ok P E p)
    (h : (Hint.mk n (.add (.mul a d) b) (sgI s)).Ok P E p) : (Hint.mk n (.add a (.div b d)) (sgI s)).Ok P E p := by
  intro v hv
  obtain ⟨x, y, hx, hy, rfl⟩ := srun_add hv
  obtain ⟨z, w, hz, hw, rfl⟩ := srun_div hy
  have h0 := pos_of_has (hd w hw)
  exact sgI_div h0 (h _ (srun_add_of (srun_mul_of hx hw) hz)) (by field_simp)

/-- The sign of `a - b / d` is that of `a * d - b`. -/
theorem hint_fsub {P : Prims} {E : Env} {p : Prog} {n : Nat} {a b d : Expr} (s : Bool) (hd : (Hint.mk n d pos).Ok P E p)
    (h : (Hint.mk n (.sub (.mul a d) b) (sgI s)).Ok P E p) : (Hint.mk n (.sub a (.div b d)) (sgI s)).Ok P E p := by
  intro v hv
  obtain ⟨x, y, hx, hy, rfl⟩ := srun_sub hv
  obtain ⟨z, w, hz, hw, rfl⟩ := srun_div hy
  have h0 := pos_of_has (hd w hw)
  exact sgI_div h0 (h _ (srun_sub_of (srun_mul_of hx hw) hz)) (by field_simp)
theorem polHint_fadd {as : Assume} {fam : Fam} {q : Prog} {n : Nat} {a b d : Expr} (s : Bool) (hd : PolHint as fam q ⟨n, d, pos⟩)
    (h : PolHint as fam q ⟨n, .add (.mul a d) b, sgI s⟩) : PolHint as fam q ⟨n, .add a (.div b d), sgI s⟩ :=
  fun P E p r0 r1 s0 s1 s2 l0 l1 t0 t1 c => hint_fadd s (hd P E p r0 r1 s0 s1 s2 l0 l1 t0 t1 c) (h P E p r0 r1 s0 s1 s2 l0 l1 t0 t1 c)
theorem polHint_fsub {as : Assume} {fam : Fam} {q : Prog} {n : Nat} {a b d : Expr} (s : Bool) (hd : PolHint as fam q ⟨n, d, pos⟩)
    (h : PolHint as fam q ⟨n, .sub (.mul a d) b, sgI s⟩) : PolHint as fam q ⟨n, .sub a (.div b d), sgI s⟩ :=
  fun P E p r0 r1 s0 s1 s2 l0 l1 t0 t1 c => hint_fsub s (hd P E p r0 r1 s0 s1 s2 l0 l1 t0 t1 c) (h P E p r0 r1 s0 s1 s2 l0 l1 t0 t1 c)
theorem unpolHint_fadd {as : Assume} {fam : Fam} {q : Prog} {n : Nat} {a b d : Expr} (s : Bool) (hd : UnpolHint as fam q ⟨n, d, pos⟩)
    (h : UnpolHint as fam q ⟨n, .add (.mul a d) b, sgI s⟩) : UnpolHint as fam q ⟨n, .add a (.div b d), sgI s⟩ :=
  fun P E p r0 s0 l0 t0 c => hint_fadd s (hd P E p r0 s0 l0 t0 c) (h P E p r0 s0 l0 t0 c)
theorem unpolHint_fsub {as : Assume} {fam : Fam} {q : Prog} {n : Nat} {a b d : Expr} (s : Bool) (hd : UnpolHint as fam q ⟨n, d, pos⟩)
    (h : UnpolHint as fam q ⟨n, .sub (.mul a d) b, sgI s⟩) : UnpolHint as fam q ⟨n, .sub a (.div b d), sgI s⟩ :=
  fun P E p r0 s0 l0 t0 c => hint_fsub s (hd P E p r0 s0 l0 t0 c) (h P E p r0 s0 l0 t0 c)

theorem definedPolH_of (a : Assume) {fam : Fam} {f : Formula} (hr : NeverRaises fam f) {hs : List Hint} (hh : ∀ h ∈ hs, PolHint a fam f.polBody h)
    {par npar flds : List Nat} (hp : a.params.map nameCode = par) (hn : a.neg.map nameCode = npar) (hf : a.flds.map fldNo = flds)
    (h : hcheck (acfg true fam a.sPos a.tPos par npar flds) hs f.polBody = true) : DefinedPol a fam f := by
  intro P p r0 r1 s0 s1 s2 l0 l1 t0 t1 hrec h0 h1 hs0 hs2 hst ht0 ht1 hs' ht vw
  obtain ⟨e, he⟩ := hr.1 P p (r0, r1) (s0, s1, s2) (l0, l1) (t0, t1)
  subst hp; subst hn; subst hf
  have c : PolCtx a fam _ p r0 r1 s0 s1 s2 l0 l1 t0 t1 := ⟨rfl, hrec, h0, h1, hs0, hs2, hst, ht0, ht1, hs', ht, vw⟩
  obtain ⟨x, hx⟩ := hcheck_ok (P := P) c.good (fun g hg => hh g hg P _ p r0 r1 s0 s1 s2 l0 l1 t0 t1 c) h
  exact ⟨x, hx, by rw [run_agree hx he]; exact he⟩

theorem definedUnpolH_of (a : Assume) {fam : Fam} {f : Formula} (hr : NeverRaises fam f) {hs : List Hint} (hh : ∀ h ∈ hs, UnpolHint a fam f.unpolBody h)
    {par npar flds : List Nat} (hp : a.params.map nameCode = par) (hn : a.neg.map nameCode = npar) (hf : a.flds.map fldNo = flds)
    (h : hcheck (acfg false fam a.sPos a.tPos par npar flds) hs f.unpolBody = true) : DefinedUnpol a fam f := by
  intro P p ρ σ l τ hrec hρ hσ hτ hs' ht vw
  obtain ⟨e, he⟩ := hr.2 P p ρ σ l τ
  subst hp; subst hn; subst hf
  have c : UnpolCtx a fam _ p ρ σ l τ := ⟨rfl, hrec, hρ, hσ, hτ, hs', ht, vw⟩
  obtain ⟨x, hx⟩ := hcheck_ok (P := P) c.good (fun g hg => hh g hg P _ p ρ σ l τ c) h
  exact ⟨x, hx, by rw [run_agree hx he]; exact he⟩

/-- The hint that the Perdew–Wang interpolation is negative. -/
theorem polHint_pw {a : Assume} {fam : Fam} {b : Prog} {n : Nat} {e : Expr} (ha : a.zetaSmall = true) (cA cB cC dA dB dC : ℝ)
    (he : ∀ P p r0 r1 s0 s1 s2 l0 l1 t0 t1, 0 < p.fld .zetaThreshold → 0 < p.fld .densThreshold → 0 < r0 → 0 < r1 → 0 ≤ s0 → 0 ≤ s2 → 0 ≤ t0 → 0 ≤ t1 →
      run P (polEnv p (r0, r1) (fam.grad (s0, s1, s2)) (fam.meta (l0, l1)) (fam.meta (t0, t1))) ⟨b.body.take n, e⟩ =
      .ok (pwExpr P (p.fld .zetaThreshold) cA cB cC dA dB dC r0 r1))
    (h : 0 < cA ∧ 0 < cC ∧ 0 < dA ∧ 0 < dB ∧ 0 < dC ∧ dC * (13 / 10) ≤ 12 / 5 * dA ∧ dA * (21 / 10) ≤ 11 / 10 * dB ∧ cC * (12 / 5) ≤ 17 / 20 * cA ∧ cA * (11 / 10) * 2 ≤ 10 * cB) :
    PolHint a fam b ⟨n, e, pos.neg⟩ := by
  intro P E p r0 r1 s0 s1 s2 l0 l1 t0 t1 x y hy
  rw [x.env] at hy
  rw [run_agree hy (he P p r0 r1 s0 s1 s2 l0 l1 t0 t1 x.hrec.zeta x.hrec.dens x.h0 x.h1 x.hs0 x.hs2 x.ht0 x.ht1)]
  obtain ⟨h1, h2, h3, h4, h5, h6, h7, h8, h9⟩ := h
  have := pwExpr_neg P x.hrec.zeta (x.hrec.zetaSmall ha) x.h0 x.h1.le h1 h2 h3 h4 h5 h6 h7 h8 h9
  have := (has_pos (neg_pos.mpr this)).neg
  rwa [neg_neg] at this

end
end Verif.Norm
