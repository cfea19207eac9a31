import Verif.Spec.Formula
import Mathlib.Analysis.SpecialFunctions.Arsinh
/-!
# Functionals as they are written in the literature

Energies per particle of closed-shell densities, in atomic units: `n` is the density and `g = |∇n|²`.
-/
namespace Verif.Spec
open Verif.Py Verif.Model Real
noncomputable section

/-- Away from all thresholds (closed shell): each spin density is half of `n`. -/
structure Above (p : Rec) (n : ℝ) : Prop where
  pos : 0 < n
  zeta : p.fld .zetaThreshold < 1
  dens : p.fld .densThreshold < n / 2

/-- Wigner–Seitz radius: a sphere of this radius holds one electron. -/
def wsRadius (n : ℝ) : ℝ := (3 / (4 * π * n)) ^ (1 / 3 : ℝ)

/-- Fermi wave vector. -/
def fermiK (n : ℝ) : ℝ := (3 * π ^ 2 * n) ^ (1 / 3 : ℝ)

/-- Exchange energy of the uniform electron gas (Dirac, Slater). -/
def diracExchange (n : ℝ) : ℝ := -(3 / 4) * (3 / π) ^ (1 / 3 : ℝ) * n ^ (1 / 3 : ℝ)

/-- Kinetic energy of the uniform electron gas (Thomas, Fermi). -/
def thomasFermi (n : ℝ) : ℝ := 3 / 10 * (3 * π ^ 2) ^ (2 / 3 : ℝ) * n ^ (2 / 3 : ℝ)

/-- von Weizsäcker kinetic energy. -/
def weizsaecker (n g : ℝ) : ℝ := g / (8 * n ^ 2)

/-- Reduced gradient `s = |∇n| / (2 k_F n)`. -/
def reducedGradient (n g : ℝ) : ℝ := √g / (2 * fermiK n * n)

/-- Becke's reduced gradient of one spin, `x = |∇n_σ| / n_σ^(4/3)`, for equal spins. -/
def beckeX (n g : ℝ) : ℝ := √(g / 4) / (n / 2) ^ (4 / 3 : ℝ)

/-- `-(3/2) (3/(4π))^(1/3)`, the coefficient of `n_σ^(1/3)` in the exchange energy of one spin. -/
def spinExchangeCoeff : ℝ := 3 / 2 * (3 / (4 * π)) ^ (1 / 3 : ℝ)

/-- The unpolarized code of the GGA formula `f` is `diracExchange` times the enhancement factor `F`. -/
def IsExchangeGGA (f : Formula) (F : Rec → ℝ → ℝ → ℝ) : Prop :=
  ∀ (P : Prims) (p : Rec) (n g : ℝ), Above p n → 0 ≤ g → f.unpol P p n (some g) none none = .ok (diracExchange n * F p n g)

/-- The unpolarized code of the LDA formula `f` is `e`. -/
def IsLDA (f : Formula) (e : Rec → ℝ → ℝ) : Prop :=
  ∀ (P : Prims) (p : Rec) (n : ℝ), Above p n → f.unpol P p n none none none = .ok (e p n)

/-- A parameter by name. -/
def par (p : Rec) (s : String) : ℝ := p.param (nameCode s)

/-- Perdew, Burke, Ernzerhof 1996, Eq. (14) (for `κ ≠ 0` the same as `1 + κ - κ/(1 + μ s²/κ)`). -/
def pbeFactor (κ μ s : ℝ) : ℝ := 1 + κ * (1 - κ / (κ + μ * s ^ 2))
/-- Hammer, Hansen, Nørskov 1999, Eq. (15). -/
def rpbeFactor (κ μ s : ℝ) : ℝ := 1 + κ * (1 - exp (-(μ * s ^ 2 / κ)))
/-- Becke 1988, Eq. (8), relative to the local exchange (`γ = 6` there). -/
def b88Factor (β γ x : ℝ) : ℝ := 1 + β * x ^ 2 / (1 + γ * β * x * arsinh x) / spinExchangeCoeff
/-- Becke 1986; `ω = 1` or `4/5` there. -/
def b86Factor (β γ ω x : ℝ) : ℝ := 1 + β * x ^ 2 / (1 + γ * x ^ 2) ^ ω
/-- Gill 1996 (`1/137` is the coefficient of `x^(3/2)`). -/
def g96Factor (x : ℝ) : ℝ := 1 + x ^ (3 / 2 : ℝ) / 137 / spinExchangeCoeff
/-- Handy, Cohen 2001. -/
def optxFactor (a b γ x : ℝ) : ℝ := a + b * (γ * x ^ 2 / (1 + γ * x ^ 2)) ^ 2
/-- Perdew, Wang 1986. -/
def pw86Factor (a b c s : ℝ) : ℝ := (1 + a * s ^ 2 + b * s ^ 4 + c * s ^ 6) ^ (1 / 15 : ℝ)
/-- Engel, Vosko 1993: a Padé approximant in `s²`. -/
def ev93Factor (a₁ a₂ a₃ b₁ b₂ b₃ s : ℝ) : ℝ := (1 + a₁ * s ^ 2 + a₂ * s ^ 4 + a₃ * s ^ 6) / (1 + b₁ * s ^ 2 + b₂ * s ^ 4 + b₃ * s ^ 6)

/-- Wigner's interpolation formula. -/
def wignerCorr (a b r : ℝ) : ℝ := a / (b + r)
/-- Random phase approximation at high density, Gell-Mann, Brueckner 1957, with the numbers of libxc. -/
def rpaCorr (r : ℝ) : ℝ := 311 / 10000 * log r - 48 / 1000 + 9 / 1000 * (r * log r) - 17 / 1000 * r
/-- Perdew, Zunger 1981, unpolarized: Appendix C. -/
def pzCorr (γ β₁ β₂ A B C D r : ℝ) : ℝ :=
  if 1 ≤ r then γ / (1 + β₁ * √r + β₂ * r) else A * log r + B + C * (r * log r) + D * r
/-- Perdew, Wang 1992, Eq. (10). -/
def pw92G (A α₁ β₁ β₂ β₃ β₄ q r : ℝ) : ℝ :=
  -2 * A * (1 + α₁ * r) * log (1 + 1 / (2 * A * (β₁ * r ^ (1 / 2 : ℝ) + β₂ * r + β₃ * r ^ (3 / 2 : ℝ) + β₄ * r ^ (q + 1))))
/-- Hedin, Lundqvist 1971, with `x = r_s / r₀` for `1/r₀ = ρ`. -/
def hlCorr (c x : ℝ) : ℝ := -(c * ((1 + x ^ 3) * log (1 + 1 / x) - x ^ 2 + x / 2 - 1 / 3))
/-- Chachiyo 2016. -/
def chachiyoCorr (a b c r : ℝ) : ℝ := a * log (1 + b / r + c / r ^ 2)

end
end Verif.Spec
