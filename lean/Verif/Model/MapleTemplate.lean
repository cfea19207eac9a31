import Mathlib.Analysis.SpecialFunctions.Pow.Real
/-!
# `gen_repo/impl/maple_template.jinja`

The Maple program from which the code of a formula is generated.  The formula itself, `f`, and the Wigner–Seitz radius `r_ws` come from the Maple files of
libxc, which are not part of the repository: here they are arbitrary functions.  `D` is the constant `DIMENSIONS` of libxc's `util.mpl` (3, or 2 for
functionals in two dimensions).  Maple evaluates symbolically; here the arguments are real numbers.
-/
namespace Verif.Model

noncomputable section

/-- `maple_template.jinja:15`. -/
def mDens (r0 r1 : ℝ) : ℝ := r0 + r1
/-- `maple_template.jinja:16`. -/
def mZeta (r0 r1 : ℝ) : ℝ := (r0 - r1) / (r0 + r1)
/-- `maple_template.jinja:17`. -/
def mXs0 (D r0 _r1 sigma0 _sigma2 : ℝ) : ℝ := Real.sqrt sigma0 / r0 ^ (1 + 1 / D)
/-- `maple_template.jinja:18`. -/
def mXs1 (D _r0 r1 _sigma0 sigma2 : ℝ) : ℝ := Real.sqrt sigma2 / r1 ^ (1 + 1 / D)
/-- `maple_template.jinja:19`. -/
def mXt (D r0 r1 sigma0 sigma1 sigma2 : ℝ) : ℝ := Real.sqrt (sigma0 + 2 * sigma1 + sigma2) / (r0 + r1) ^ (1 + 1 / D)
/-- `maple_template.jinja:20`. -/
def mU0 (D r0 _r1 l0 _l1 : ℝ) : ℝ := l0 / r0 ^ (1 + 2 / D)
/-- `maple_template.jinja:21`. -/
def mU1 (D _r0 r1 _l0 l1 : ℝ) : ℝ := l1 / r1 ^ (1 + 2 / D)
/-- `maple_template.jinja:22`. -/
def mTt0 (D r0 _r1 tau0 _tau1 : ℝ) : ℝ := tau0 / r0 ^ (1 + 2 / D)
/-- `maple_template.jinja:23`. -/
def mTt1 (D _r0 r1 _tau0 tau1 : ℝ) : ℝ := tau1 / r1 ^ (1 + 2 / D)

/-- `mzk_pol` for `type == "mgga"` (`maple_template.jinja:27-29`). -/
def mzkPolMgga (D : ℝ) (rws : ℝ → ℝ) (f : ℝ → ℝ → ℝ → ℝ → ℝ → ℝ → ℝ → ℝ → ℝ → ℝ) (r0 r1 s0 s1 s2 l0 l1 tau0 tau1 : ℝ) : ℝ :=
  f (rws (mDens r0 r1)) (mZeta r0 r1) (mXt D r0 r1 s0 s1 s2) (mXs0 D r0 r1 s0 s2)
    (mXs1 D r0 r1 s0 s2) (mU0 D r0 r1 l0 l1) (mU1 D r0 r1 l0 l1) (mTt0 D r0 r1 tau0 tau1) (mTt1 D r0 r1 tau0 tau1)

/-- `mzk_unpol` for `type == "mgga"` (`maple_template.jinja:30`). -/
def mzkUnpolMgga (D : ℝ) (rws : ℝ → ℝ) (f : ℝ → ℝ → ℝ → ℝ → ℝ → ℝ → ℝ → ℝ → ℝ → ℝ) (r0 s0 l0 tau0 : ℝ) : ℝ :=
  mzkPolMgga D rws f (r0 / 2) (r0 / 2) (s0 / 4) (s0 / 4) (s0 / 4) (l0 / 2) (l0 / 2) (tau0 / 2) (tau0 / 2)

/-- `mzk_pol` for `type == "gga"` (`maple_template.jinja:38-40`). -/
def mzkPolGga (D : ℝ) (rws : ℝ → ℝ) (f : ℝ → ℝ → ℝ → ℝ → ℝ → ℝ) (r0 r1 s0 s1 s2 : ℝ) : ℝ :=
  f (rws (mDens r0 r1)) (mZeta r0 r1) (mXt D r0 r1 s0 s1 s2) (mXs0 D r0 r1 s0 s2) (mXs1 D r0 r1 s0 s2)

/-- `mzk_unpol` for `type == "gga"` (`maple_template.jinja:41-42`). -/
def mzkUnpolGga (D : ℝ) (rws : ℝ → ℝ) (f : ℝ → ℝ → ℝ → ℝ → ℝ → ℝ) (r0 s0 : ℝ) : ℝ :=
  mzkPolGga D rws f (r0 / 2) (r0 / 2) (s0 / 4) (s0 / 4) (s0 / 4)

/-- `mzk_pol` for `type == "lda"` (`maple_template.jinja:51`). -/
def mzkPolLda (rws : ℝ → ℝ) (f : ℝ → ℝ → ℝ) (r0 r1 : ℝ) : ℝ := f (rws (mDens r0 r1)) (mZeta r0 r1)

/-- `mzk_unpol` for `type == "lda"` (`maple_template.jinja:52`). -/
def mzkUnpolLda (rws : ℝ → ℝ) (f : ℝ → ℝ → ℝ) (r0 : ℝ) : ℝ := mzkPolLda rws f (r0 / 2) (r0 / 2)

end

end Verif.Model
