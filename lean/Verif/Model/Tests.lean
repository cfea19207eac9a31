import Verif.Model.RhoArgs
import Mathlib.Analysis.SpecialFunctions.Pow.Real
/-!
# Functions of the tests

Model of `tests/utils.py:12-34`, `tests/test_against_libxc.py:122-134,175-181` and `tests/test_grad.py:19-22`.
-/
namespace Verif.Model
open Verif.Py

noncomputable section

/-- An entry of `perm_2n_n = scipy.special.perm(2 * _r50, _r50)` (`tests/utils.py:12-13`): `2n (2n - 1) ⋯ (n + 1)`. -/
def perm2nn (n : ℕ) : ℝ := ((2 * n).descFactorial n : ℝ)

/-- `gto(center, exponent, angular)` (`tests/utils.py:16-34`).  The table has 50 entries; an index beyond them is an `IndexError`.
Simplification: `angular` has no negative entries (numpy would count those from the end of the table). -/
def gto (center : Fin 3 → ℝ) (exponent : ℝ) (angular : Fin 3 → ℕ) : Except PyErr ((Fin 3 → ℝ) → ℝ) :=
  if ∀ i, angular i < 50 then
    -- lines 25-27
    let normalization := (2 * exponent / Real.pi) ^ (3 / 4 : ℝ) * Real.sqrt ((8 * exponent) ^ (∑ i, angular i) / ∏ i, perm2nn (angular i))
    -- lines 29-32
    .ok fun r =>
      let r := fun i => r i - center i
      let xyz := ∏ i, r i ^ angular i
      xyz * Real.exp (-exponent * Real.sqrt (∑ i, r i ^ 2) ^ 2) * normalization
  else .error .indexError

/-- `jax.scipy.stats.norm.pdf(x, loc=0, scale=1)`. -/
def normPdf (x : ℝ) : ℝ := Real.exp (-x ^ 2 / 2) / Real.sqrt (2 * Real.pi)

/-- `jax.scipy.stats.cauchy.pdf(x, loc=0, scale=1)`. -/
def cauchyPdf (x : ℝ) : ℝ := 1 / (Real.pi * (1 + x ^ 2))

/-- `rho1` (`tests/test_against_libxc.py:122-124`), also `rho` of `tests/test_grad.py:21-22`. -/
def rho1 : ArrFn 3 ℝ := ⟨[], fun r _ => ∏ i, normPdf (r i)⟩

/-- `rho2` (`tests/test_against_libxc.py:127-129`). -/
def rho2 : ArrFn 3 ℝ := ⟨[], fun r _ => ∏ i, cauchyPdf (r i)⟩

/-- `rho3` (`tests/test_against_libxc.py:132-134`). -/
def rho3 : ArrFn 3 ℝ := ⟨[2], fun r idx => if idx = [0] then rho1.ent r [] else rho2.ent r []⟩

/-- Where `test_against_libxc` takes its points from (`tests/test_against_libxc.py:175-181`): `jax.random.uniform` with `minval=-3, maxval=3`. -/
def TestPoint (r : Coord 3) : Prop := ∀ i, -3 ≤ r i ∧ r i < 3

/-- The two points of `tests/test_grad.py:19`. -/
def gradPoints : List (Coord 3) := [WithLp.toLp 2 fun _ => 10, WithLp.toLp 2 fun _ => 9]

end

end Verif.Model
