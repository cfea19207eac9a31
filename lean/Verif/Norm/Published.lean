import Verif.Norm.Check2
import Verif.Norm.HintsSound
/-!
# Comparison of shipped code with another program, away from the thresholds

Proof machinery for C58: the other program is the published formula.
-/
namespace Verif.Norm
open Verif.Py Verif.Model Verif.Spec

noncomputable section

/-- The inputs of `pol`. -/
def subId (fam : Fam) : Sub :=
  subP 12 fam (postN 12) (mono 12 1 1 2 1 1) (mono 12 1 1 3 1 1) (mono 12 1 1 1 2 1) (mono 12 1 1 1 1 23) (mono 12 1 1 1 3 1) (mono 12 1 1 1 1 31) (mono 12 1 1 1 1 41)
    (mono 12 1 1 1 5 1) (mono 12 1 1 1 7 1)

def pubPol (cap : Nat) (fam : Fam) (b q : Prog) : Bool := chk primes ⟨12, cap, ssFacts 12⟩ (subId fam) b (subId fam) q

theorem pubPol_of {cap : Nat} {fam : Fam} {b q : Prog} (h : pubPol cap fam b q = true) (P : Prims) (p : Rec) (r0 r1 s0 s1 s2 l0 l1 t0 t1 : ℝ)
    (ht : Thresholds p) (h0 : 0 < r0) (h1 : 0 < r1) (hs0 : 0 ≤ s0) (hs2 : 0 ≤ s2) (ht0 : 0 ≤ t0) (ht1 : 0 ≤ t1) (hu : Unscreened p r0 r1) :
    ∃ x, run P (polEnv p (r0, r1) (fam.grad (s0, s1, s2)) (fam.meta (l0, l1)) (fam.meta (t0, t1))) b = .ok x ∧
      run P (polEnv p (r0, r1) (fam.grad (s0, s1, s2)) (fam.meta (l0, l1)) (fam.meta (t0, t1))) q = .ok x := by
  let c : Base := ⟨P, r0, r1, s0, s1, s2, l0, l1, t0, t1, r0 + r1, p⟩
  have hb : c.Pos := ⟨h0, h1, hs0, hs2, ht0, ht1, add_pos h0 h1, ht.zeta, ht.dens⟩
  have hU : (12 : ℕ) ≠ 0 := by norm_num
  have hP := fun (p : Poly) vc => postN_den (F := ssFacts 12) hb hU rfl p vc
  have hs := subP_ok (F := ssFacts 12) (cap := cap) (pr := primes) (R0 := r0) (R1 := r1) (S0 := s0) (S1 := s1) (S2 := s2) (L0 := l0) (L1 := l1) (T0 := t0) (T1 := t1)
    hb hU fam hP (idVals (b := c))
  exact chk_sound (K := c.ctx 12 (ssFacts 12)) primes_prime (ctx_pos hb hU) rfl (ctx_nn hb) (ssFacts_hold hb hU rfl hu _) hs hs h

/-- `zeta_threshold < 1`, `dens_threshold < r / 2`. -/
def abFacts (U : Nat) : Facts := fZ U (fDensD U 2 2 .nil)

def pubUnpol (cap : Nat) (fam : Fam) (b q : Prog) : Bool := chk primes ⟨12, cap, abFacts 12⟩ (subUnpol 12 fam) b (subUnpol 12 fam) q

theorem pubUnpol_of {cap : Nat} {fam : Fam} {b q : Prog} (h : pubUnpol cap fam b q = true) (P : Prims) (p : Rec) (ρ σ l τ : ℝ)
    (ht : Thresholds p) (hρ : 0 < ρ) (hσ : 0 ≤ σ) (hτ : 0 ≤ τ) (hz : p.fld .zetaThreshold < 1) (hd : p.fld .densThreshold < ρ / 2) :
    ∃ x, run P (unpolEnv p ρ (fam.grad σ) (fam.meta l) (fam.meta τ)) b = .ok x ∧ run P (unpolEnv p ρ (fam.grad σ) (fam.meta l) (fam.meta τ)) q = .ok x := by
  let c : Base := ⟨P, ρ, 1, σ, 0, 0, l, 0, τ, 0, 1, p⟩
  have hb : c.Pos := ⟨hρ, one_pos, hσ, le_rfl, hτ, le_rfl, one_pos, ht.zeta, ht.dens⟩
  have hU : (12 : ℕ) ≠ 0 := by norm_num
  have hf : FactsHold (c.ctx 12 (abFacts 12)) (st0 primes) := by
    intro vc _ _
    have v := posVals (F := abFacts 12) hb hU
    refine fZ_ok v hz (fNeg_ok ?_ trivial)
    rw [lin2_den]; simp only [v.a2, v.a31, c]; norm_num; linarith
  exact chk_sound (K := c.ctx 12 (abFacts 12)) primes_prime (ctx_pos hb hU) rfl (ctx_nn hb) hf (subUnpol_ok hb hU fam) (subUnpol_ok hb hU fam) h

end
end Verif.Norm
