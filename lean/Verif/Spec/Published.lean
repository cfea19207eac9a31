import Verif.Spec.Literature
import Verif.Spec.Scaling
import Mathlib.Analysis.SpecialFunctions.Trigonometric.Arctan
/-!
# Spin-polarized functionals and meta-GGAs as they are written in the literature

Energies per particle in atomic units.  `a`, `b` are the two spin densities, `n` their sum; `saa`, `sab`, `sbb` are the scalar products of
the spin density gradients; `g = |∇n|²`, `t` is the kinetic energy density.
-/
namespace Verif.Spec
open Verif.Py Verif.Model Real
noncomputable section

/-- The polarized code of the LDA formula `f` is `e`. -/
def IsSpinLDA (f : Formula) (e : Rec → ℝ → ℝ → ℝ) : Prop :=
  ∀ (P : Prims) (p : Rec) (a b : ℝ), Thresholds p → 0 < a → 0 < b → Unscreened p a b → f.pol P p (a, b) none none none = .ok (e p a b)

/-- The polarized code of the GGA formula `f` is `e`. -/
def IsSpinGGA (f : Formula) (e : Rec → ℝ → ℝ → ℝ → ℝ → ℝ → ℝ) : Prop :=
  ∀ (P : Prims) (p : Rec) (a b saa sab sbb : ℝ), Thresholds p → 0 < a → 0 < b → 0 ≤ saa → 0 ≤ sbb → Unscreened p a b →
    f.pol P p (a, b) (some (saa, sab, sbb)) none none = .ok (e p a b saa sab sbb)

/-- The unpolarized code of the GGA formula `f` is `diracExchange` times the enhancement factor `F`, for positive thresholds. -/
def IsExchange (f : Formula) (F : Rec → ℝ → ℝ → ℝ) : Prop :=
  ∀ (P : Prims) (p : Rec) (n g : ℝ), Thresholds p → Above p n → 0 ≤ g → f.unpol P p n (some g) none none = .ok (diracExchange n * F p n g)

/-- The unpolarized code of the meta-GGA formula `f` is `diracExchange` times the enhancement factor `F`.  (The Laplacian `l` is passed but not used.) -/
def IsExchangeMeta (f : Formula) (F : Rec → ℝ → ℝ → ℝ → ℝ) : Prop :=
  ∀ (P : Prims) (p : Rec) (n g l t : ℝ), Thresholds p → Above p n → 0 < g → 0 < t →
    f.unpol P p n (some g) (some l) (some t) = .ok (diracExchange n * F p n g t)

/-- The unpolarized code of the GGA formula `f` for the kinetic energy is `thomasFermi` times the enhancement factor `F`. -/
def IsKinetic (f : Formula) (F : Rec → ℝ → ℝ → ℝ) : Prop :=
  ∀ (P : Prims) (p : Rec) (n g : ℝ), Thresholds p → Above p n → 0 ≤ g → f.unpol P p n (some g) none none = .ok (thomasFermi n * F p n g)

/-- `x` is `y` printed with a relative error of at most `10^-d`. -/
def Digits (d : ℕ) (x y : ℝ) : Prop := |x - y| ≤ 1 / 10 ^ d * |y|

/-! ### Spin dependence -/

/-- Relative spin polarization `ζ`. -/
def polarization (a b : ℝ) : ℝ := (a - b) / (a + b)

/-- von Barth, Hedin 1972: the interpolation function, 0 at `ζ = 0`, 1 at `ζ = ±1`. -/
def fZeta (z : ℝ) : ℝ := ((1 + z) ^ (4 / 3 : ℝ) + (1 - z) ^ (4 / 3 : ℝ) - 2) / (2 ^ (4 / 3 : ℝ) - 2)

/-- Its second derivative at `ζ = 0`. -/
def fZeta'' : ℝ := 4 / (9 * (2 ^ (1 / 3 : ℝ) - 1))

/-- Perdew, Burke, Ernzerhof 1996, below Eq. (3). -/
def phiZeta (z : ℝ) : ℝ := ((1 + z) ^ (2 / 3 : ℝ) + (1 - z) ^ (2 / 3 : ℝ)) / 2

/-- Vosko, Wilk, Nusair 1980; Perdew, Wang 1992, Eq. (8): energies `ε₀` and `ε₁` of the unpolarized and the fully polarized gas and the spin
stiffness `α`; `f₂` stands for `fZeta''`. -/
def spinInterpolation (ε₀ ε₁ α f₂ z : ℝ) : ℝ := ε₀ + α * fZeta z / f₂ * (1 - z ^ 4) + (ε₁ - ε₀) * fZeta z * z ^ 4

/-! ### Local correlation -/

/-- Perdew, Wang 1992, Eq. (8) with Table I: the three parameter sets, `G` of the third is minus the spin stiffness. -/
def pw92Spin (p : Rec) (a b : ℝ) : ℝ :=
  let r := wsRadius (a + b)
  let G := fun (i : String) => pw92G (par p ("a" ++ i)) (par p ("alpha1" ++ i)) (par p ("beta1" ++ i)) (par p ("beta2" ++ i)) (par p ("beta3" ++ i))
    (par p ("beta4" ++ i)) (par p ("pp" ++ i)) r
  spinInterpolation (G "[0]") (G "[1]") (-G "[2]") (par p "fz20") (polarization a b)

/-- Perdew, Zunger 1981, Eq. (C13), (C14). -/
def pzSpin (p : Rec) (a b : ℝ) : ℝ :=
  let r := wsRadius (a + b)
  let E := fun (i : String) => pzCorr (par p ("gamma" ++ i)) (par p ("beta1" ++ i)) (par p ("beta2" ++ i)) (par p ("a" ++ i)) (par p ("b" ++ i)) (par p ("c" ++ i))
    (par p ("d" ++ i)) r
  E "[0]" + (E "[1]" - E "[0]") * fZeta (polarization a b)

/-- Vosko, Wilk, Nusair 1980, Eq. (4.4): `X(x) = x² + b x + c`. -/
def vwnX (b c x : ℝ) : ℝ := x ^ 2 + b * x + c
/-- Vosko, Wilk, Nusair 1980, Eq. (4.4): `Q = √(4c - b²)`. -/
def vwnQ (b c : ℝ) : ℝ := √(4 * c - b ^ 2)
/-- Coefficient of the arc tangent there, relative to `A`. -/
def vwnAtan (b c x₀ : ℝ) : ℝ := 2 * b / vwnQ b c - b * x₀ / vwnX b c x₀ * (2 * (b + 2 * x₀) / vwnQ b c)
/-- Coefficient of the second logarithm there, relative to `A`. -/
def vwnLog (b c x₀ : ℝ) : ℝ := -(b * x₀ / vwnX b c x₀)
/-- Vosko, Wilk, Nusair 1980, Eq. (4.4), with `x = √r_s`; `q`, `ca`, `cl` stand for `vwnQ`, `A * vwnAtan`, `A * vwnLog`. -/
def vwnCorr (A b c x₀ q ca cl x : ℝ) : ℝ :=
  A * log (x ^ 2 / vwnX b c x) + ca * arctan (q / (2 * x + b)) + cl * log ((x - x₀) ^ 2 / vwnX b c x)

/-- The printed numbers are those of the formula. -/
def VwnDigits (A b c x₀ q ca cl : ℝ) : Prop := Digits 19 q (vwnQ b c) ∧ Digits 19 ca (A * vwnAtan b c x₀) ∧ Digits 19 cl (A * vwnLog b c x₀)

/-- Vosko, Wilk, Nusair 1980, Eq. (3.2), Table V: unpolarized gas, fully polarized gas, spin stiffness. -/
def vwnSpin (q₀ ca₀ cl₀ q₁ ca₁ cl₁ q₂ ca₂ cl₂ a b : ℝ) : ℝ :=
  let x := √(wsRadius (a + b))
  spinInterpolation (vwnCorr 0.0310907 3.72744 12.9352 (-0.10498) q₀ ca₀ cl₀ x) (vwnCorr 0.01554535 7.06042 18.0578 (-0.32500) q₁ ca₁ cl₁ x)
    (-(1 / (6 * π ^ 2)) * vwnCorr 1 1.13107 13.0045 (-0.0047584) q₂ ca₂ cl₂ x) fZeta'' (polarization a b)

/-- Chachiyo 2016, with the interpolation of von Barth and Hedin. -/
def chachiyoSpin (p : Rec) (a b : ℝ) : ℝ :=
  let r := wsRadius (a + b)
  let E₀ := chachiyoCorr (par p "ap") (par p "bp") (par p "cp") r
  let E₁ := chachiyoCorr (par p "af") (par p "bf") (par p "cf") r
  E₀ + (E₁ - E₀) * fZeta (polarization a b)

/-- Hedin, Lundqvist 1971; von Barth, Hedin 1972. -/
def hlSpin (p : Rec) (a b : ℝ) : ℝ :=
  let r := wsRadius (a + b)
  let E₀ := hlCorr (par p "hl_c[0]") (r / par p "hl_r[0]")
  let E₁ := hlCorr (par p "hl_c[1]") (r / par p "hl_r[1]")
  E₀ + (E₁ - E₀) * fZeta (polarization a b)

/-- Gombás 1967: no dependence on the spin. -/
def gombasCorr (n : ℝ) : ℝ := -0.0357 / (1 + 0.0562 * n ^ (-(1 / 3) : ℝ)) - 0.0311 * log ((n ^ (-(1 / 3) : ℝ) + 2.39) / n ^ (-(1 / 3) : ℝ))

/-- Ragot, Cortona 2004. -/
def rc04Corr (a b : ℝ) : ℝ :=
  phiZeta (polarization a b) ^ 3 * (-0.655868 * arctan (4.888270 + 3.177037 * wsRadius (a + b)) + 0.897889) / wsRadius (a + b)

/-- Teter 1993 (Goedecker, Teter, Hutter 1996, Eq. (24), appendix): exchange and correlation as a Padé approximant in `r_s`. -/
def teterXC (a b : ℝ) : ℝ :=
  let r := wsRadius (a + b)
  let f := fZeta (polarization a b)
  (-((0.4581652932831429 + 0.119086804055547 * f) + (2.217058676663745 + 0.6157402568883345 * f) * r + (0.7405551735357053 + 0.1574201515892867 * f) * r ^ 2 +
      (0.01968227878617998 + 0.003532336663397157 * f) * r ^ 3) /
    (r + (4.504130959426697 + 0.2673612973836267 * f) * r ^ 2 + (1.110667363742916 + 0.2052004607777787 * f) * r ^ 3 +
      (0.02359291751427506 + 0.004200005045691381 * f) * r ^ 4))

/-! ### Correlation with gradients -/

/-- The scalar product of the gradient of the total density with itself. -/
def totalGrad (saa sab sbb : ℝ) : ℝ := saa + 2 * sab + sbb

/-- Perdew, Wang 1992, Eq. (10) for `p = 1`, with `c` for `2 A` and `k` for `1/(2 A)`. -/
def pw92GNum (c k α₁ β₁ β₂ β₃ β₄ r : ℝ) : ℝ :=
  -c * (1 + α₁ * r) * log (1 + k / (β₁ * r ^ (1 / 2 : ℝ) + β₂ * r + β₃ * r ^ (3 / 2 : ℝ) + β₄ * r ^ 2))

/-- Perdew, Wang 1992 with the numbers of Table I, as used inside PBE: `k₀`, `k₁`, `k₂` for `1/(2A)`, and `c₂` for `2A/f''(0)` in the spin stiffness. -/
def pw92Table (k₀ k₁ k₂ c₂ r z : ℝ) : ℝ :=
  spinInterpolation (pw92GNum (2 * 0.0310907) k₀ 0.21370 7.5957 3.5876 1.6382 0.49294 r) (pw92GNum (2 * 0.01554535) k₁ 0.20548 14.1189 6.1977 3.3662 0.62517 r)
    (-pw92GNum c₂ k₂ 0.11125 10.357 3.6231 0.88026 0.49671 r) 1 z

/-- Perdew, Burke, Ernzerhof 1996, Eq. (8): the square of the reduced gradient `t = |∇n|/(2 φ k_s n)`, with `k_s = √(4 k_F/π)`. -/
def pbeT2 (n φ g : ℝ) : ℝ := g / (2 * φ * √(4 * fermiK n / π) * n) ^ 2

/-- Perdew, Burke, Ernzerhof 1996, Eq. (8). -/
def pbeA (β γ ε φ : ℝ) : ℝ := β / γ / (exp (-ε / (γ * φ ^ 3)) - 1)

/-- Perdew, Burke, Ernzerhof 1996, Eq. (7) (there `B = 1`). -/
def pbeH (β γ B A φ t2 : ℝ) : ℝ := γ * φ ^ 3 * log (1 + β / γ * t2 * (1 + B * A * t2) / (1 + A * t2 + B * A ^ 2 * t2 ^ 2))

/-- Perdew, Burke, Ernzerhof 1996, Eq. (3): local correlation energy plus `H`. -/
def pbeCorr (k₀ k₁ k₂ c₂ : ℝ) (p : Rec) (a b saa sab sbb : ℝ) : ℝ :=
  let z := polarization a b
  let ε := pw92Table k₀ k₁ k₂ c₂ (wsRadius (a + b)) z
  ε + pbeH (par p "beta") (par p "gamma") (par p "BB") (pbeA (par p "beta") (par p "gamma") ε (phiZeta z)) (phiZeta z) (pbeT2 (a + b) (phiZeta z) (totalGrad saa sab sbb))

/-- Lee, Yang, Parr 1988 in the form of Miehlich, Savin, Stoll, Preuß 1989, Eq. (2), without second derivatives of the density. -/
def lypCorr (A B C D a b saa sab sbb : ℝ) : ℝ :=
  let n := a + b
  let g := totalGrad saa sab sbb
  let ω := exp (-C * n ^ (-(1 / 3) : ℝ)) / (1 + D * n ^ (-(1 / 3) : ℝ)) * n ^ (-(11 / 3) : ℝ)
  let δ := C * n ^ (-(1 / 3) : ℝ) + D * n ^ (-(1 / 3) : ℝ) / (1 + D * n ^ (-(1 / 3) : ℝ))
  let cF := 3 / 10 * (3 * π ^ 2) ^ (2 / 3 : ℝ)
  (-A * 4 / (1 + D * n ^ (-(1 / 3) : ℝ)) * (a * b / n) -
    A * B * ω * (a * b * (2 ^ (11 / 3 : ℝ) * cF * (a ^ (8 / 3 : ℝ) + b ^ (8 / 3 : ℝ)) + (47 / 18 - 7 * δ / 18) * g - (5 / 2 - δ / 18) * (saa + sbb) -
        (δ - 11) / 9 * (a / n * saa + b / n * sbb)) -
      2 / 3 * n ^ 2 * g + (2 / 3 * n ^ 2 - a ^ 2) * sbb + (2 / 3 * n ^ 2 - b ^ 2) * saa)) / n

/-- Perdew 1986, Eq. (6). -/
def p86C (aa bb α β γ δ r : ℝ) : ℝ := aa + (bb + α * r + β * r ^ 2) / (1 + γ * r + δ * r ^ 2 + 10000 * β * r ^ 3)

/-- Perdew 1986, Eq. (1), (4), (9), with the local correlation energy of Perdew, Zunger 1981. -/
def p86Corr (p : Rec) (a b saa sab sbb : ℝ) : ℝ :=
  let n := a + b
  let r := wsRadius n
  let z := polarization a b
  let g := totalGrad saa sab sbb
  let E₀ := pzCorr (-0.1423) 1.0529 0.3334 0.0311 (-0.048) 0.0020 (-0.0116) r
  let E₁ := pzCorr (-0.0843) 1.3981 0.2611 0.01555 (-0.0269) 0.0007 (-0.0048) r
  let C := p86C (par p "aa") (par p "bb") (par p "malpha") (par p "mbeta") (par p "mgamma") (par p "mdelta") r
  let Φ := par p "ftilde" * ((par p "aa" + par p "bb") / C) * √g / n ^ (7 / 6 : ℝ)
  let d := 2 ^ (1 / 3 : ℝ) * √(((1 + z) / 2) ^ (5 / 3 : ℝ) + ((1 - z) / 2) ^ (5 / 3 : ℝ))
  E₀ + (E₁ - E₀) * fZeta z + exp (-Φ) * C * g / (d * n ^ (7 / 3 : ℝ))

/-- Wilson, Levy 1990, Eq. (13). -/
def wlCorr (a b saa sab sbb : ℝ) : ℝ :=
  √(1 - polarization a b ^ 2) * (-0.74860 + 0.06001 * (√(totalGrad saa sab sbb) / (a + b) ^ (4 / 3 : ℝ))) /
    (3.60073 + 0.90000 * (√saa / a ^ (4 / 3 : ℝ)) + 0.90000 * (√sbb / b ^ (4 / 3 : ℝ)) + wsRadius (a + b))

/-- Wilson, Ivanov 1998, Eq. (18), with `x = |∇n|/n^(4/3)`. -/
def wiCorr (A B C D k n g : ℝ) : ℝ :=
  let x := √g / n ^ (4 / 3 : ℝ)
  (A + B * x ^ 2 * exp (-k * x ^ 2)) / (C + wsRadius n * (1 + D * (4 * π / 3) ^ (1 / 3 : ℝ) * x ^ (7 / 2 : ℝ)))

/-- Chachiyo, Chachiyo 2020: `ε (1 + t²)^(h/ε)`, with `t² = (π/3)^(1/3)/16 |∇n|²/n^(7/3)`. -/
def chachiyoGrad (p : Rec) (a b saa sab sbb : ℝ) : ℝ :=
  let n := a + b
  let E₀ := chachiyoCorr (par p "ap") (par p "bp") (par p "cp") (wsRadius n)
  let E₁ := chachiyoCorr (par p "af") (par p "bf") (par p "cf") (wsRadius n)
  let ε := E₀ + (E₁ - E₀) * (2 * (1 - phiZeta (polarization a b) ^ 3))
  ε * (1 + (π / 3) ^ (1 / 3 : ℝ) / 16 * totalGrad saa sab sbb / n ^ (7 / 3 : ℝ)) ^ (par p "h" / ε)

/-! ### Exchange, closed shell -/

/-- Perdew, Wang 1991 (Perdew et al. 1992, Eq. (8)); there `f = 0.004`, `expo = 4`. -/
def pw91Factor (a b c d f α expo s : ℝ) : ℝ :=
  1 + ((c + d * exp (-α * s ^ 2)) * s ^ 2 - f * s ^ expo) / (1 + a * s * arsinh (b * s) + f * s ^ expo)

/-- Armiento, Kümmel 2013. -/
def ak13Factor (B₁ B₂ s : ℝ) : ℝ := 1 + B₁ * s * log (1 + s) + B₂ * s * log (1 + log (1 + s))
/-- Vela, Medel, Trickey 2009. -/
def vmtFactor (μ α s : ℝ) : ℝ := 1 + μ * s ^ 2 * exp (-α * s ^ 2) / (1 + μ * s ^ 2)
/-- Vela, Pacheco-Kato, Gázquez, del Campo, Trickey 2012. -/
def vmt84Factor (μ α s : ℝ) : ℝ := vmtFactor μ α s + (1 - exp (-α * s ^ 4)) * (1 / s ^ 2 - 1)
/-- DePristo, Kress 1987, in Becke's variable. -/
def dk87Factor (a₁ b₁ α x : ℝ) : ℝ := 1 + 7 / (432 * π * (6 * π ^ 2) ^ (1 / 3 : ℝ)) * x ^ 2 * (1 + a₁ * x ^ α) / (1 + b₁ * x ^ 2) / spinExchangeCoeff
/-- Swart, Solà, Bickelhaupt 2009. -/
def ssbFactor (A B C D E s : ℝ) : ℝ := A + B * s ^ 2 / (1 + C * s ^ 2) - D * s ^ 2 / (1 + E * s ^ 4)
/-- Chachiyo, Chachiyo 2017, with `x = (4π/9) s`. -/
def chachiyoFactor (x : ℝ) : ℝ := (3 * x ^ 2 + π ^ 2 * log (x + 1)) / ((3 * x + π ^ 2) * log (x + 1))
/-- Adamo, Barone 2002; as kinetic energy Karasiev, Trickey, Harris 2006. -/
def mpbeFactor (a c₁ c₂ c₃ s : ℝ) : ℝ :=
  1 + c₁ * (s ^ 2 / (1 + a * s ^ 2)) + c₂ * (s ^ 2 / (1 + a * s ^ 2)) ^ 2 + c₃ * (s ^ 2 / (1 + a * s ^ 2)) ^ 3
/-- Carmona-Espíndola, Gázquez, Vela, Trickey 2015 (`A_x` is negative). -/
def capFactor (αA c s : ℝ) : ℝ := 1 - αA * s * log (1 + s) / (1 + c * log (1 + s))
/-- Pacheco-Kato, del Campo, Gázquez, Trickey, Vela 2016: `F - (κ + 1)(1 - e^(-α s²))` with `F` of PBE or of RPBE. -/
def lsFactor (κ α F s : ℝ) : ℝ := F - (κ + 1) * (1 - exp (-α * s ^ 2))
/-- Fabiano, Constantin, Della Sala 2010: PBE with `μ` going from `μ₀` at `s = 0` to `μ₁` at large `s`. -/
def pbeintFactor (κ α μ₀ μ₁ s : ℝ) : ℝ := pbeFactor κ (μ₀ + (μ₁ - μ₀) * α * s ^ 2 / (1 + α * s ^ 2)) s
/-- Swart 2013. -/
def s12Factor (b A B C D E x : ℝ) : ℝ := b * (A + B * (1 - 1 / (1 + C * x ^ 2 + D * x ^ 4)) * (1 - 1 / (1 + E * x ^ 2)))
/-- Carmona-Espíndola, Gázquez, Vela, Trickey 2019. -/
def ncapFactor (α β μ ζ s : ℝ) : ℝ :=
  1 + μ * tanh s * arsinh s * (1 + α * ((1 - ζ) * s * log (1 + s) + ζ * s)) / (1 + β * tanh s * arsinh s)

/-! ### Kinetic energy, closed shell -/

/-- Pearson 1983. -/
def pearsonFactor (s : ℝ) : ℝ := 1 + 5 / 27 * s ^ 2 / (1 + s ^ 6)
/-- Constantin, Fabiano, Della Sala 2018 (`5 s²/3` is the von Weizsäcker term). -/
def pgFactor (μ s : ℝ) : ℝ := 5 / 3 * s ^ 2 + exp (-μ * s ^ 2)
/-- Lehtomäki, Lopez-Acevedo 2019. -/
def rationalFactor (C₂ q s : ℝ) : ℝ := (1 + C₂ / q * s ^ 2) ^ (-q)
/-- DePristo, Kress 1987: a Padé approximant in Becke's variable. -/
def dkFactor (a₀ a₁ a₂ a₃ a₄ b₀ b₁ b₂ b₃ b₄ x : ℝ) : ℝ :=
  (a₀ + a₁ * x ^ 2 + a₂ * x ^ 4 + a₃ * x ^ 6 + a₄ * x ^ 8) / (b₀ + b₁ * x ^ 2 + b₂ * x ^ 4 + b₃ * x ^ 6 + b₄ * x ^ 8)
/-- Thakkar 1992. -/
def thakkarFactor (x : ℝ) : ℝ := 1 + 0.0055 * x ^ 2 / (1 + 0.0253 * x * arsinh x) - 0.072 * x / (1 + 2 ^ (5 / 3 : ℝ) * x)

/-! ### Exchange with the kinetic energy density, closed shell -/

/-- Ernzerhof, Scuseria 1999: local in `τ/τ_unif`. -/
def ltaFactor (c n t : ℝ) : ℝ := (t / (n * thomasFermi n)) ^ (4 / 5 * c)
/-- Tsuneda, Hirao 2000 (`7/27` times `τ_W/τ`). -/
def thFactor (n g t : ℝ) : ℝ := n * thomasFermi n / t * (1 + 7 / 27 * (g / (8 * n) / t))

/-- `α = (τ - τ_W)/τ_unif`: 0 for one orbital, 1 for the uniform gas. -/
def isoAlpha (n g t : ℝ) : ℝ := (t - g / (8 * n)) / (n * thomasFermi n)

/-- Tao, Perdew, Staroverov, Scuseria 2003, Eq. (7). -/
def tpssQ (b α p : ℝ) : ℝ := 9 / 20 * (α - 1) / √(1 + b * α * (α - 1)) + 2 * p / 3

/-- Tao, Perdew, Staroverov, Scuseria 2003, Eq. (10), with the exponent of `z` in the first term generalized to `ea + eb z` (there 2; Constantin,
Fabiano, Della Sala 2013). -/
def tpssX (b c e κ μ ea eb α p z : ℝ) : ℝ :=
  let q := tpssQ b α p
  ((10 / 81 + c * z ^ (ea + eb * z) / (1 + z ^ 2) ^ 2) * p + 146 / 2025 * q ^ 2 - 73 / 405 * q * √(1 / 2 * (3 / 5 * z) ^ 2 + 1 / 2 * p ^ 2) +
    1 / κ * (10 / 81) ^ 2 * p ^ 2 + 2 * √e * (10 / 81) * (3 / 5 * z) ^ 2 + e * μ * p ^ 3) / (1 + √e * p) ^ 2

/-- Tao, Perdew, Staroverov, Scuseria 2003, Eq. (5). -/
def tpssFactor (b c e κ μ ea eb n g t : ℝ) : ℝ :=
  1 + κ * (1 - κ / (κ + tpssX b c e κ μ ea eb (isoAlpha n g t) (reducedGradient n g ^ 2) (g / (8 * n) / t)))

/-- Sun, Ruzsinszky, Perdew 2015, Eq. (9): interpolation between one orbital (`α = 0`, value 1) and the uniform gas (`α = 1`, value 0). -/
def scanSwitch (c₁ c₂ d α : ℝ) : ℝ := if α < 1 then exp (-c₁ * α / (1 - α)) else if α = 1 then 0 else -d * exp (c₂ / (1 - α))

/-- Sun, Ruzsinszky, Perdew 2015, Eq. (5)–(8) and supplement; `f` stands for the value of `scanSwitch`.
The paper writes `exp (-|b₄| s²/μ)`; for its `k₁ = 0.065` the number `b₄` is positive, and the code has no absolute value. -/
def scanFactor (k₁ f s α : ℝ) : ℝ :=
  let μ := 10 / 81
  let b₂ := √(5913 / 405000)
  let b₁ := 511 / 13500 / (2 * b₂)
  let b₃ := 1 / 2
  let b₄ := μ ^ 2 / k₁ - 1606 / 18225 - b₁ ^ 2
  let x := μ * s ^ 2 * (1 + b₄ * s ^ 2 / μ * exp (-(b₄ * s ^ 2 / μ))) + (b₁ * s ^ 2 + b₂ * (1 - α) * exp (-b₃ * (1 - α) ^ 2)) ^ 2
  let h := 1 + k₁ * (1 - k₁ / (k₁ + x))
  (h + f * (1.174 - h)) * (1 - exp (-4.9479 / √s))

/-- Sun, Xiao, Ruzsinszky 2012: between one orbital (`α = 0`) and the uniform gas (`α = 1`). -/
def msFactor (κ c b s α : ℝ) : ℝ :=
  let F₁ := 1 + κ * (1 - κ / (κ + 10 / 81 * s ^ 2))
  let F₀ := 1 + κ * (1 - κ / (κ + 10 / 81 * s ^ 2 + c))
  F₁ + (1 - α ^ 2) ^ 3 / (1 + α ^ 3 + b * α ^ 6) * (F₀ - F₁)

/-- Sun, Perdew, Ruzsinszky 2015. -/
def mvsFactor (k₀ e₁ c₁ b s α : ℝ) : ℝ :=
  (1 + k₀ * ((1 - α) / ((1 + e₁ * α ^ 2) ^ 2 + c₁ * α ^ 4) ^ (1 / 4 : ℝ))) / (1 + b * s ^ 4) ^ (1 / 8 : ℝ)

/-- Boese, Handy 2002: two power series in `u = 0.004 x²/(1 + 0.004 x²)`, the second times `w - 2 w³ + w⁵`, `w = (τ_unif - τ)/(τ_unif + τ)`. -/
def tauHcthFactor (p : Rec) (x w : ℝ) : ℝ :=
  let u := 0.004 * x ^ 2 / (1 + 0.004 * x ^ 2)
  let G := fun (c : String) => par p (c ++ "[0]") + par p (c ++ "[1]") * u + par p (c ++ "[2]") * u ^ 2 + par p (c ++ "[3]") * u ^ 3
  G "cx_local" + G "cx_nlocal" * (w - 2 * w ^ 3 + w ^ 5)

end
end Verif.Spec
