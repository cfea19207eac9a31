# A formal model of jax_xc in Lean 4

The code is `/repo` (sail-sg/jax_xc at a pinned commit). The properties are in `properties.jsonl` (C01, C02, …), their status and theorem names in
`MANIFEST.json`, the record of seeded bugs in `seeded/LOG.jsonl`. The Lean project is `lean/`; `lake build` checks everything.

## 1. Layout

| part of the code | modelled in | theorems |
|---|---|---|
| `gen_repo/impl/prebuilt/{pol,unpol}/*.py` (all 2 × 261 formula bodies) after `post_process` | text `Verif/Data/*`, parser `Verif/Py/Parse`, syntax `Verif/Py/Ast`, meaning `Verif/Py/Sem` | `Props/Static*`, `ClosedShell*`, `SpinFlip*`, `Exchange*`, `Asymmetric`, `Classification`, `Literature*`, `Published*`, `Defined*`, `OneSpin*`, `Flat`, `Domains`, `Smooth`, `Regular`, `SmoothAbove`, `FullScaling`, `Accurate` |
| `gen_repo/impl/python_template.jinja` (`pol`, `unpol`, `invoke`) | `Model/Formula`, `Model/Impl` | `Props/Screening`, `Props/Validation`, `Props/Values` |
| `gen_repo/impl/utils.py` (`rho_to_arguments`, `Heaviside`, `lax_cond`, `xc_erfcx`, `xc_E1_scaled`) | `Model/RhoArgs`, `Model/Helpers` | `Props/Validation`, `Values`, `Kinetic`, `Helpers` |
| `gen_repo/python_template.jinja` (`invoke`, the wrappers, their attributes) | `Model/Functionals` | `Props/Mixtures`, `Wrapper`, `Invariance`, `ApiSpin*` |
| `gen_repo/gen_py.py` (names and defaults of external parameters, `check_deorbitalize`) | `Model/Gen` | `Props/Wrapper`, `Props/Sanitise` |
| `gen_repo/gen_py.py:main` (references), docstrings of `gen_repo/python_template.jinja` (references, parameters) | `Model/Docs` | `Props/Docs` |
| `gen_repo/experimental.jinja` | `Model/Experimental` | `Props/Experimental` |
| `gen_repo/utils.py` (`dict_to_namedtuple`, `get_p`) | `Model/Record`, `Model/Libxc` | `Props/Record`, `Props/GetP` |
| `gen_repo/libxc/libxc.cc`, `register.h`, `register.cc` | `Model/Libxc` | `Props/Libxc`, `Props/GetP` |
| `gen_repo/impl/gen_maple.py`, `gen_repo/impl/gen_py.py:main` (classification of names) | `Model/Libxc` | `Props/Libxc` |
| `gen_repo/impl/gen_py.py:post_process` | `Text/PostProcess` | `Props/Numerals`, `Rewrite`, `CubeRoot` |
| `gen_repo/impl/gen_py.py:main` (the text of the module) | `Model/Module` | `Props/Module` |
| `gen_repo/impl/maple_template.jinja` | `Model/MapleTemplate` | `Props/MapleTemplate` |
| `gen_repo/libxc/wrap.py` | `Model/Wrap` | `Props/Wrap`, `WrapFile` |
| `gen_repo/impl/gen_build.py`, `impl/build.jinja`, `gen_repo/libxc/gen_build.py`, `libxc/build.jinja` | `Model/Build` | `Props/Build` |
| `tests/utils.py`, the densities and points of `tests/test_against_libxc.py` and `tests/test_grad.py` | `Model/Tests` | `Props/Tests` |

`Verif/Spec/*` holds the specifications: what the theorems say, independent of the model's helper functions.  `Verif/Lib/*` holds lemmas,
`Verif/Norm/*` the verified normaliser (below).  Theorems that answer a property are in `Verif/Props/*` and nowhere else.  After a group of theorems
there are `example`s in which concrete values meet the hypotheses.

## 2. How each property is expressed and proved

* **C01–C05, C12** (validation, arguments, code path). `rhoToArguments` follows the Python branch by branch and returns `Except PyErr`; densities
  and orbitals are arbitrary functions with an arbitrary shape, or raise. Case analysis.
* **C06–C09** (meaning of the arguments). Partial derivatives are Mathlib's `fderiv`; the theorems identify the arguments with `‖∇ρ‖²`,
  `⟪∇ρ↑, ∇ρ↓⟫`, Mathlib's Laplacian `Δ ρ` and `½ Σ ‖∇φ‖²`, for every density and orbitals; Cauchy–Schwarz, unitary invariance, von Weizsäcker bound.
* **C10, C11** (screening). Every formula; the threshold is part of the record.
* **C13, C14, C30, C29, C28** (mixtures and records). Structural induction over nested trees of any depth and width.
* **C15–C18, C20** (wrappers). Lists of any length. Where the code contradicts its documentation there is a counterexample and the
  strongest true statement (section 5).
* **C19** (main and experimental API agree). Induction over functional trees plus: trace of the Hessian = sum of Hessian-vector products.
* **C21, C22, C35–C38, C42, C44** (facts about every shipped formula). The text of the 522 files is parsed by a Lean parser when the project is
  elaborated. A *normaliser* for straight-line programs (`Norm/Core`) rewrites two programs to sums of monomials over positive atoms with value
  numbering; its soundness theorem (`Norm/Sound`) says: if the Boolean check is true then both programs have the same value **for all**
  real inputs and parameters that satisfy the sign conditions. For every formula the kernel evaluates the Boolean (`decide +kernel`); the
  quantification over inputs is in the soundness theorem, not in the computation. `StaticAll`, `ClosedShellAll`, `SpinFlipAll`, `ExchangeAll` and
  `Classification` collect the results into statements about the complete list `Data.shipped` of 261 formulas, with explicit lists of exceptions.
* **C23–C26** (API-level symmetry, rigid motions, semilocality). Induction over functional trees, chain rule, uniqueness of derivatives of germs.
* **C27** (classification of names). All strings.
* **C16, C18, C28, C31** (generator, `Props/Sanitise`). What becomes of every name without `lambda` (plain or indexed), no name becomes `lambda`;
  which deorbitalized records the generator accepts and what it raises; Python's reserved words; a text in which no comment is closed is kept.
* **C31, C45, C46** (C wrapper generator). The regular expressions are functions on lists of characters; grammars of C fragments in `Spec/Wrap`;
  induction over declarations.
* **C32–C34** (rewriting of Maple's output). The sixteen rules in order, as functions on character lists; induction over the text, with invariants
  saying which rules cannot fire.
* **C39, C40, C47, C48** (closed forms from the literature, limits, bounds). `kernel_rfl` turns the shipped code of a formula into an explicit real
  expression (checked by the kernel as a definitional equality); then real analysis.
* **C41** (helpers). `erfc` and `E₁` are integrals; bounds by integration.
* **C43** (build files). All directory listings.
* **C49–C51** (domains). `Spec/Strict` evaluates a formula a second and a third time: without values outside the domain of an operation, and with `nan` and
  infinities as in IEEE 754 (but exact arithmetic). An *interval analysis* (`Norm/Interval`, soundness in `Norm/IntervalSound`) runs through a body with
  bounds for each temporary, knows `|(r0 - r1)/(r0 + r1)| < 1`, and uses the comparison in a `lax_cond` in its branches. Its soundness theorem says: if
  the Boolean check is true, the formula is defined (or `nan`) at **all** inputs of the region. The kernel evaluates the Boolean for each formula.
  Where intervals alone are too weak, *hints* bound parts of a formula (`Norm/Hints`, `Norm/HintsSound`, `Norm/HintsMore`, `Norm/HintsFull` for C51; `Props/DefinedHints*`, `Props/OneSpinHinted`). A hint is a theorem: a
  rewriting to an equal form that intervals can bound (checked by the normaliser), a bound of a quotient from bounds of numerator and denominator,
  `8 ρ τ ≥ |∇ρ|²`, the inequality of means, a quadratic without roots, a known branch of a `lax_cond`, or the sign of the Perdew–Wang correlation energy at all spin polarizations
  (`Lib/Pw92`: monotonicity in `rs` and a bound of the interpolation in ζ).
* **C52** (derivatives). `Spec/Smooth` evaluates a formula once more: the *regular* value exists where every operation that contributes is inside the open
  set where it is smooth, and no comparison that contributes is between equal numbers (two literals excepted: the Maple code contains `0 < 0`).
  `run_smooth` shows that the value is smooth at such points. `Norm/Regular` reuses the interval analysis to show that, off ties, formulas are regular. `Norm/RegularHints` does so with the hints of C49 (`Props/RegularHinted`).
* **C54** (published functionals). C47 and C37 composed with the values of the arguments (C06) and the evaluation of mixtures (C13).
* **C55, C56** (text of the modules and docstrings). Induction over texts; `Spec/PySource` says what the body of a Python function is, `Spec/Docs` what escaped text is.
* **C58** (published correlation, meta-GGA exchange, kinetic functionals). For each functional a second program is written after the paper (`Props/PublishedForms`);
  the normaliser proves, inside the kernel, that it computes the same number as the shipped file away from the thresholds, and ordinary real analysis that it is the
  expression of `Spec/Published`. The program is only an intermediate step: the statements mention the shipped file and the expression.
* **C59** (exact constraints). Real analysis on the published expressions of C58: monotonicity of the logarithm for PBE, completing the square for TPSS,
  the von Weizsäcker bound of C09 for SCAN.
* **C60** (undefined points). Strict semantics of `Spec/Strict`: one operation without a value leaves the result without a value if the result depends on it
  on every branch that is taken (`deadAt`, decided by the kernel for the shipped bodies; `undefined_of`). The value of the operand is identified with a short
  published expression by the normaliser of C58; that it is zero or negative is real analysis.
* **C61** (floating point). `Spec/Float` is a relation, not a function: it says which numbers an evaluation may return when each literal, operation and call is within
  relative error `u` of the exact result for its operands. `Norm/Float` propagates a relative and an absolute error bound through a body, with the intervals
  of the interval analysis for magnitudes; `Norm/FloatLemmas` has the inequality for each operation. Constants per formula are found by running the analysis and
  checked by the kernel. Large constants come from correlated operands that intervals treat as independent (`1 - κ / (κ + μ s²)`).
* **C62** (spin scaling at all densities). `Spec/Clamp` states the relation with the kept value of `1 ± ζ`, a `max` and a `min`. `Norm/Clamp` checks the two cases
  "share of one spin at or below `zeta_threshold`, its density above or below `dens_threshold`" by the normaliser; the weights `r (k n / 2r)^α` are evaluated as small
  programs beside the formula. All other cases follow from C21, C22, C37 and C42. 110 formulas pass. In the others of C37 (range-separated exchange, `gga_x_kt`,
  `gga_x_ft97`, `gga_x_n12`, the Minnesota family) the kept `ζ` also enters the enhancement factor and the check fails; that the relation is false there is not proved.
* **C63** (smooth above the thresholds). `Norm/Untied` collects the comparisons of a body and shows with the normaliser that the difference of the two sides does not vanish;
  together with C52 this gives smoothness without the condition about ties.  Formulas with further branches (Perdew–Zunger at `rs = 1`, range-separated exchange,
  rSCAN, …) are not covered.  At or below `zeta_threshold` the polarized code compares equal numbers on an open set (`1 + ζ` is set to the threshold and then
  compared with it), so C63 says nothing there.
* **C64** (overflow). `Spec/Overflow` repeats the semantics with `nan` and brings the two factors of `xc_E1_scaled` and `xc_erfcx` into a floating-point format before they
  are multiplied; all else stays exact. `Norm/Overflow` follows `nan` through a body, given the values of a few comparisons; the arguments of the functions are found
  from the part of the body before them. FT97: the argument is a continuous function of the gradient and takes the value 1000.
* **C65, C66** (tests). `gto` is modelled line by line; its norm is computed with Mathlib's Gamma function and Fubini's theorem. The two test densities are bounded from below on
  the cube from which the test draws its points. An edited copy of `lda_x`, with an error in every branch that a threshold selects, is compared with the
  shipped text by the normaliser.
* **C57** (Maple template). Arbitrary `f`; powers of real numbers.
* **C53** (scaling of functionals). The formula-level scaling relations of C37 and C38, the real derivatives of `ρ(x r)`, and a change of variables in the integral.

## 3. Trusted base

1. **Lean's kernel** (Lean 4.33.0), and Mathlib for the meaning of the notions used in statements (`fderiv`, `Real.log`, `Laplacian`, …).
2. **Axioms.** Every theorem in `MANIFEST.json` depends on a subset of `propext`, `Classical.choice`, `Quot.sound` (checked with `#print axioms`,
   see section 7). There are no axioms of our own, no `sorry`, no `native_decide`, no `bv_decide`.
3. **The model is faithful to the code.** This is not proved. Every definition cites the lines it models. For formulas the model is the text of the
   shipped file itself: `Verif/Data/F*.lean` contain the characters of `/repo/gen_repo/impl/prebuilt/**.py` as string literals, and
   a Lean function parses them (`Verif/Py/Parse`, called by the elaborator in `Verif/Py/Elab`). The elaborator is trusted to produce the syntax
   tree of that text. (It applies `Verif/Text/PostProcess` to each file first, as `gen_py.py` does.)
4. **Semantics of JAX and Python** as written in `Py/Sem`, `Model/RhoArgs`, `Model/Impl`: see the idealisations.

### Idealisations

* Floats are exact reals; decimal literals denote rationals. No rounding, overflow, NaN, dtype promotion (except `lax_cond`'s coercion, C41).
* `x / 0`, `log`, `sqrt`, `**` outside their domain are Mathlib's total functions, whereas Python gives `inf`/`nan`. C49 shows for most formulas that
  the value of the totalised semantics comes from operations inside their domains; C50 and C51 say where it does not. Statements that hold for all inputs are
  about the totalised semantics.
* In the semantics with `nan` (C50, C51) the sign of an infinity is not tracked and functions of an infinity are not followed (`wild`); overflow and underflow do not occur.
  C64 is the exception: the factors of the two scaled functions of `utils.py` may overflow or underflow there.
* `lax.cond` traces both branches, so exceptions in either are raised; its value is the selected branch. `jacrev`/`jacfwd`/`linearize` are derivatives.
* Python exceptions are values of `PyErr`; messages are not modelled. Values that the model does not follow (arithmetic on booleans, a vector used as a
  scalar) are the error `unmodelled`, and no theorem of the form "returns" can be satisfied by it.
* libxc and Maple are not in the repository: libxc's structs and `xc_func_init`/`set_ext_params` are arbitrary parameters of the model, its records
  are universally quantified; Maple is not modelled (formulas are taken from the shipped output).
* Formulas refer to parameters by name; a name that the record lacks reads as 0 (Python would raise `AttributeError`).
* Regular expression classes `\w`, `\d`, `\s` are the ASCII ones. `post_process` is modelled line by line.

* Floating-point arithmetic is modelled for C61 only, with the standard model of rounding errors. It leaves out overflow and underflow (a run in which one
  occurs is not a run of the relation), and comparisons are assumed to agree with exact arithmetic. XLA may reorder or fuse operations; then C61 does not apply.

### Not modelled

`gen_repo/gen_build.py` (not used by any rule: the BUILD file generates with the files in `impl/` and `libxc/`), `gen_repo.bzl`, `python.bzl`, the
WORKSPACE and wheel files, patches for libxc, the fixed text of docstrings, Maple itself and libxc's Maple files, the C++ conversion of arrays to numpy (`ToNumpy`) beyond shape and entries, the rest of the tests.

## 4. Partial results

* **C21, C37, C42** are settled for every formula by the theorems `…_settled` of `Verif/Props/Decided.lean`, which go through the whole table: each
  formula has the property exactly, or up to the rounding of literals (`UpToLiterals`, `Verif/Spec/Rounding.lean`: each decimal literal is moved by at
  most one part in 10^17; lists `…Rounded`), or it is refuted (lists `…Fails`). For the formulas in `…Rounded` the exact claim is neither proved nor refuted.
  Maple evaluated constants to 20 digits separately for the two files, hence the difference.
* **C49, C51**: interval analysis with hints decides 422 of the 498 bodies (C49), 204 of the 249 polarized bodies (C51). The rest needs relations
  between inputs or sharper bounds, or is undefined somewhere
  (proved for `mgga_c_revscan`, `mgga_x_mvsb`, `gga_k_meyer`, `mgga_x_jk`, `mgga_x_rlda`, `mgga_xc_cc06`, `mgga_x_regtm`, `gga_x_sg4`, `mgga_k_rda` in C60). Assumptions per formula (`Spec.Assume`): signs of parameters, upper and lower bounds of a few
  (`le`, `ge`; libxc's values satisfy them with room), `zeta_threshold ≤ 1/10` (`zetaSmall`; libxc: 2^-52), `|∇ρ|² ≤ 8 ρ τ` (`vw`).
  The signs of parameters assumed are those of libxc's values where we know them, except `gga_x_hjs` (some of libxc's `b[i]` are negative).
* **C52**: regularity off ties is settled for 213 unpolarized and 196 polarized bodies. C63 says where the ties are for 163 and 151 of them.  That ties are exceptional
  is not proved for the rest; a numerical search found no formula with a tie at randomly chosen arguments.
* The theorems with suffix `_partial` leave out the formulas in the lists named in their statements; the `…_settled` theorems close the gap.

## 5. Where the code disagrees with its documentation or with the property first written down

* **C15**: a value of `0.0` passed for an external parameter is replaced by the default (`x or default`), `c15_zero_false`.
* **C16**: distinct libxc names that sanitise to the same Python name collapse to one parameter, `c16_collision`.
* **C17**: README promises `cam_*` attributes for hybrids; hybrids with their own formula (e.g. `hyb_mgga_xc_b98`) have none, `c17_b98`.
* **C18**: `DEORBITALIZE` records always raise `TypeError` in the main API (`invoke` is called with five arguments), `c18_main_*`; and no record
  produced by `get_p` is tagged so, because a record with components gets the empty formula name (`c30_components_not_deorbitalized`): deorbitalized
  functionals of libxc are evaluated as plain mixtures.
* **C21/C22**: `lda_xc_ksdt`, `gga_x_lb`, `mgga_x_2d_prp10` are not symmetric under exchange of the spins; some formulas are spin symmetric only
  for `zeta_threshold < 1`; in 17 formulas the polarized and unpolarized files carry different last digits.
* **C28**: a dict with both `lambda` and `lambda_` loses one value, `c28_clash`.
* **C31**: a line break between two declarators of a struct member list corrupts a name, `c31_linebreak`.
* **C32–C34**: `post_process` changes numbers with a leading zero in front of `e` or integers ending in zeros before `e`
  (`c32_leading_zero`, `c32_integer`), the digits of π are matched with an unescaped dot (`c32_pi_wrong`), names that contain `lambda`
  (`c33_lambda`), two parenthesised cube roots in a line, a call before the exponent, a power as an argument
  (`c34_wrong`, `c34_call_wrong`, `c34_argument_wrong`).
* **C35**: 12 shipped formulas call helpers that jax_xc does not define and raise `NameError` on every input.
* **C43**: two Maple files whose stems are `x` and `x_maple` produce rules with clashing names (`c43_clash`); a stem with a dot is cut (`c43_dot`).
* **C64**: libxc computes `xc_E1_scaled` and `xc_erfcx` without forming the large and the small factor; jax_xc multiplies them and gets `nan` for large arguments, in HSE
  at all densities below about `1.5e-8`.
* **C66**: `test_against_libxc` compares 100 random points of a cube on which its densities never come near a threshold; `test_grad` checks the gradient where the energy is identically zero.
* **C50, C51**: several formulas give `nan` at points where libxc does not, because libxc raises densities, gradients and kinetic energy densities to its thresholds
  before it calls the formula and jax_xc drops `sigma_threshold` and `tau_threshold`. In particular LYP, the B97 family, M05–M08, SCAN and TPSS correlation give
  `nan` for every density of one spin (`c51_nan`), TPSS also at the maximum of a Gaussian orbital (`c50_rest_unpol`).
* **C60**: revSCAN correlation is the logarithm of a negative number at large gradients, because its Maple source (and so the shipped file) has lost the reciprocal
  of a root (line 73 of `unpol/mgga_c_revscan.py`; line 48 has both reciprocals). MVSb exchange divides by `τ - τ_unif` and has no value for the uniform electron gas
  (line 23 of `unpol/mgga_x_mvsb.py`; MSb, line 27 of `unpol/mgga_x_msb.py`, divides by `τ + τ_unif`).
  regTM exchange has no value for the uniform electron gas either: line 35 of `unpol/mgga_x_regtm.py` divides by `s² + (1 - α)³ …`.
* **C55**: an indented file would lose the indentation of its first line only (`c55_indented`); no shipped file is indented.
* **C56**: URLs with a closing brace are cut off there (`c56_brace`), a backslash of a URL is lost (`c56_backslash`), and colliding parameter names shift the
  descriptions of the parameters after them (`c56_params_shifted`).
* **C45**: an init function without allocation is paired with the struct of the next one (`c45_wrong`), and in a file with two structs the text
  found for the second starts at the first (`c45_struct_wrong`).

## 6. Seeded bugs

`seeded/LOG.jsonl` records edits of the model that imitate realistic bugs, and which theorems then fail to compile.

## 7. Axioms

The table `AXIOMS.md` lists, for every theorem named in `MANIFEST.json`, the axioms printed by `#print axioms`.
