import Verif.Norm.Base
/-!
# Rewriting with the relation `r0 + r1 = n`

The total density `n` takes the place of the scale factor `lam` as a base quantity.
-/
namespace Verif.Norm
open Verif.Py Verif.Model

noncomputable section

variable {U : Nat} {vp vc : Nat → ℝ}

theorem relTry_den (hp : PosOk U vp) {x R z : Poly} {k : Poly → Poly} (a b c p m d : Nat) (hR : den vp vc R = 0)
    (hk : ∀ y, den vp vc y = den vp vc x → den vp vc (k y) = den vp vc x) (hz : den vp vc z = den vp vc x) :
    den vp vc (relTry U x R a b c p m d z k) = den vp vc x := by
  have e : den vp vc (addP x (mulTP U a b c m p d R)) = den vp vc x := by rw [addP_den, mulTP_den hp, hR, mul_zero, add_zero]
  unfold relTry
  cases h : Nat.ble (Nat.succ (lenP (addP x (mulTP U a b c m p d R)))) (lenP x)
  · simpa only [h] using hz
  · simpa only [h] using hk _ e

theorem relStep_den (hp : PosOk U vp) {R0 R1 R2 x : Poly} {k : Poly → Poly} (h0 : den vp vc R0 = 0) (h1 : den vp vc R1 = 0) (h2 : den vp vc R2 = 0)
    (hk : ∀ y, den vp vc y = den vp vc x → den vp vc (k y) = den vp vc x) (t : Poly) :
    den vp vc (relStep U R0 R1 R2 x k t) = den vp vc x := by
  induction t with
  | nil => rfl
  | cons a b c p m d tl ih =>
    exact relTry_den hp a b c p m d h0 hk (relTry_den hp a b c p m d h1 hk (relTry_den hp a b c p m d h2 hk ih))

theorem relPost_den (hp : PosOk U vp) (n : Nat) {R0 R1 R2 : Poly} (h0 : den vp vc R0 = 0) (h1 : den vp vc R1 = 0) (h2 : den vp vc R2 = 0)
    (f : Nat) (x : Poly) : den vp vc (relPost U n R0 R1 R2 f x) = den vp vc x := by
  induction f generalizing x with
  | zero => rfl
  | succ f ih =>
    change den vp vc (kif Nat.ble (lenP x) 1 then x else kif Nat.ble (lenP x) n then relStep U R0 R1 R2 x (relPost U n R0 R1 R2 f) x else x) = _
    cases Nat.ble (lenP x) 1
    · cases Nat.ble (lenP x) n
      · rfl
      · exact relStep_den hp h0 h1 h2 (fun y hy => (ih y).trans hy) x
    · rfl

/-- `1 + r1/r0 - n/r0`. -/
def rel0 (U : Nat) : Poly := .cons 1 1 1 1 0 1 (.cons (Nat.pow 3 U) (Nat.pow 2 U) 1 1 0 1 (.cons (Nat.pow 37 U) (Nat.pow 2 U) 1 0 1 1 .nil))
/-- `1 + r0/r1 - n/r1`. -/
def rel1 (U : Nat) : Poly := .cons 1 1 1 1 0 1 (.cons (Nat.pow 2 U) (Nat.pow 3 U) 1 1 0 1 (.cons (Nat.pow 37 U) (Nat.pow 3 U) 1 0 1 1 .nil))
/-- `1 - r0/n - r1/n`. -/
def rel2 (U : Nat) : Poly := .cons 1 1 1 1 0 1 (.cons (Nat.pow 2 U) (Nat.pow 37 U) 1 0 1 1 (.cons (Nat.pow 3 U) (Nat.pow 37 U) 1 0 1 1 .nil))

variable {b : Base} {F : Facts}

theorem H_powU (v : Nat → ℝ) (a U : Nat) : H v (Nat.pow a U) = H v a ^ U := H_pow _ _ _

/-- Sums with `r0`, `r1` and `n = r0 + r1` are shortened. -/
def postN (U : Nat) : Poly → Poly := relPost U 6 (rel0 U) (rel1 U) (rel2 U) 6

theorem postN_den (h : b.Pos) (hU : U ≠ 0) (hn : b.lam = b.r0 + b.r1) (x : Poly) (vc : Nat → ℝ) :
    den (b.ctx U F).vp vc (postN U x) = den (b.ctx U F).vp vc x := by
  have a2 : H (b.ctx U F).vp 2 ^ U = b.r0 := vp_pow h hU (by norm_num)
  have a3 : H (b.ctx U F).vp 3 ^ U = b.r1 := vp_pow h hU (by norm_num)
  have a37 : H (b.ctx U F).vp 37 ^ U = b.lam := vp_pow h hU (by norm_num)
  have h0 := h.r0
  have h1 := h.r1
  have h3 := h.lam
  refine relPost_den (ctx_pos h hU) 6 ?_ ?_ ?_ 6 x <;>
    simp only [rel0, rel1, rel2, den_cons, den_nil, tm, H_powU, a2, a3, a37, H_one, hn, Nat.cast_one, Nat.cast_zero] <;> field_simp <;> ring

end

end Verif.Norm
