{"id": "C01", "title": "Density shape is validated", "statement": "Calling eps(rho, r[, mo]) of any single-module functional with a density function whose output shape is neither () nor (2,) raises RuntimeError; no energy is returned.", "quantifier": "every functional family, nspin, coordinate, dimension, density output shape and orbital function", "why_tests_cant": "the set of shapes is infinite; a test tries two", "anchors": ["gen_repo/impl/utils.py:rho_to_arguments"]}
{"id": "C02", "title": "Spin mismatch is rejected", "statement": "If the functional was created unpolarized and rho returns shape (2,), or created polarized and rho returns a scalar, the call raises ValueError; conversely, when shape and polarization agree an LDA/GGA call never raises a validation error.", "quantifier": "every density function, coordinate and parameter set", "why_tests_cant": "quantifies over all density functions", "anchors": ["gen_repo/impl/utils.py:rho_to_arguments"]}
{"id": "C03", "title": "mGGA needs orbitals", "statement": "Any mGGA call without mo raises ValueError before the density is looked at, and LDA/GGA calls never look at mo.", "quantifier": "every density function (even an invalid one), coordinate, parameter set", "why_tests_cant": "order of checks must hold for all inputs", "anchors": ["gen_repo/impl/utils.py:rho_to_arguments", "gen_repo/python_template.jinja:invoke"]}
{"id": "C04", "title": "Orbital shape is validated", "statement": "For a polarized mGGA the call succeeds past validation iff mo returns shape (2, N) (a scalar-valued mo raises IndexError, every other shape ValueError); for unpolarized iff it returns shape (N,). In particular the (N, 2) layout advertised by README.rst is rejected for N != 2.", "quantifier": "every orbital output shape, N and dimension", "why_tests_cant": "infinitely many shapes", "anchors": ["gen_repo/impl/utils.py:rho_to_arguments", "README.rst:mGGA"]}
{"id": "C05", "title": "The family decides which quantities are passed", "statement": "An LDA functional receives exactly (rho), a GGA exactly (rho, sigma), an mGGA exactly (rho, sigma, lapl, tau); in the polarized case sigma is the triple (up.up, up.dn, dn.dn).", "quantifier": "every density, orbital and coordinate", "why_tests_cant": "needs all inputs", "anchors": ["gen_repo/impl/utils.py:rho_to_arguments"]}
{"id": "C06", "title": "sigma is the squared gradient and is physically consistent", "statement": "The sigma handed to the functional is grad(rho).grad(rho) (three contractions when polarized); it is never negative on the diagonal, obeys Cauchy-Schwarz s1^2 <= s0*s2, and the total s0+2*s1+s2 is the squared gradient of the total density, hence >= 0.", "quantifier": "every differentiable density in every dimension", "why_tests_cant": "real-valued identity over all densities", "anchors": ["gen_repo/impl/utils.py:rho_to_arguments"]}
{"id": "C07", "title": "lapl is the Laplacian", "statement": "The lapl handed to an mGGA functional, assembled from Hessian-vector products, equals the sum of second partial derivatives of each spin density (the trace of the Hessian that the experimental API uses).", "quantifier": "every twice differentiable density, every dimension", "why_tests_cant": "identity over all densities", "anchors": ["gen_repo/impl/utils.py:rho_to_arguments", "gen_repo/experimental.jinja:make_epsilon_xc"]}
{"id": "C08", "title": "tau is the kinetic energy density", "statement": "tau is half the sum over orbitals and directions of |d_i phi_k|^2: non-negative, additive over orbitals, and invariant under any unitary rotation of the orbitals (within each spin).", "quantifier": "every differentiable complex orbital set, every unitary matrix", "why_tests_cant": "identity over all unitary matrices", "anchors": ["gen_repo/impl/utils.py:rho_to_arguments", "gen_repo/experimental.jinja:make_epsilon_xc"]}
{"id": "C09", "title": "von Weizsaecker bound", "statement": "When rho = sum_k |phi_k|^2 for the same orbitals, sigma <= 8 * rho * tau (per spin), the precondition that mGGA formulas rely on.", "quantifier": "every differentiable orbital set", "why_tests_cant": "inequality over all orbitals", "anchors": ["gen_repo/impl/utils.py:rho_to_arguments"]}
{"id": "C10", "title": "Small-density screening", "statement": "If the total density at r is strictly below dens_threshold a single-module functional returns exactly 0, whatever its code would do; at or above the threshold it returns exactly the value of its spin-resolved code. In the polarized case it is the sum of both spins that is compared.", "quantifier": "every density value, threshold, code", "why_tests_cant": "boundary must hold for every real value", "anchors": ["gen_repo/impl/python_template.jinja:invoke", "gen_repo/experimental.jinja:_filter_small_density"]}
{"id": "C11", "title": "Vanishing gradient in the screened region", "statement": "Where the density is below the threshold at a point of continuity, the energy density is locally constant, so its derivative with respect to r is zero (and well defined) for every functional.", "quantifier": "every continuous density, every functional code", "why_tests_cant": "tests check one density at two points", "anchors": ["gen_repo/impl/python_template.jinja:invoke", "tests/test_grad.py"]}
{"id": "C12", "title": "Polarization selects the code path", "statement": "polarized=False runs only the unpolarized code on the scalar density, polarized=True only the polarized code on the (up, down) pair.", "quantifier": "every module and input", "why_tests_cant": "all functionals and inputs", "anchors": ["gen_repo/impl/python_template.jinja:invoke", "gen_repo/utils.py:get_p"]}
{"id": "C13", "title": "Mixtures are linear combinations", "statement": "A functional without its own formula returns sum_i mix_coef[i] * eps_i(rho, r, mo) over its components in order, each component with its own screening, recursively; if any component raises, the call raises.", "quantifier": "every component tree of any depth and width", "why_tests_cant": "trees are unbounded", "anchors": ["gen_repo/python_template.jinja:invoke", "gen_repo/experimental.jinja:make_epsilon_xc"]}
{"id": "C14", "title": "Component order does not matter", "statement": "Permuting (component, coefficient) pairs of a mixture does not change the returned value (in exact arithmetic).", "quantifier": "every list of components, every permutation", "why_tests_cant": "unbounded lists and permutations", "anchors": ["gen_repo/python_template.jinja:invoke"]}
{"id": "C15", "title": "Explicit external parameters are honoured", "statement": "A value passed for an external parameter is the one sent to libxc; omitted parameters get the documented default. (False of the code for the value 0, which is silently replaced by the default: proved as a counterexample; the positive theorem holds for every non-zero value.)", "quantifier": "every list of parameters, every combination of passed and omitted values", "why_tests_cant": "all combinations; the code is wrong on a measure-zero set tests miss", "anchors": ["gen_repo/python_template.jinja:ext_params loop", "gen_repo/experimental.jinja:ext_params loop", "gen_repo/utils.py:get_p"]}
{"id": "C16", "title": "External parameters keep their position", "statement": "The k-th value sent to set_ext_params belongs to the k-th libxc external parameter, provided the sanitised names are pairwise distinct; with colliding names the number of values sent is smaller than libxc expects.", "quantifier": "every list of names and defaults", "why_tests_cant": "unbounded lists", "anchors": ["gen_repo/gen_py.py:get_ext_params", "gen_repo/gen_py.py:post_process"]}
{"id": "C17", "title": "Hybrid attributes", "statement": "The returned eps of a mixture functional carries cam_alpha, cam_beta, cam_omega, nlc_b and nlc_C equal to libxc's values; functionals with their own formula (including hybrids such as hyb_mgga_xc_b98) carry none, contrary to README.rst.", "quantifier": "every libxc functional record", "why_tests_cant": "all records", "anchors": ["gen_repo/python_template.jinja:cam_alpha", "README.rst:Hybrid Functionals"]}
{"id": "C18", "title": "Deorbitalized functionals", "statement": "A functional record tagged DEORBITALIZE evaluates its second component to replace tau by density times that value. (False of the main API: such a call always raises TypeError because the wrapper takes no fifth argument; the experimental API implements it.)", "quantifier": "every record, density, coordinate", "why_tests_cant": "all records and inputs", "anchors": ["gen_repo/python_template.jinja:invoke", "gen_repo/experimental.jinja:make_epsilon_xc"]}
{"id": "C19", "title": "Main and experimental API agree", "statement": "For 3-D coordinates, jax_xc.experimental.f(rho[, mo])(r) returns the same value as jax_xc.f(polarized)(rho, r[, mo]) for every non-deorbitalized functional tree whenever both validate.", "quantifier": "every functional tree, twice differentiable density, orbitals, point", "why_tests_cant": "identity over all densities and functional trees", "anchors": ["gen_repo/python_template.jinja:invoke", "gen_repo/experimental.jinja:make_epsilon_xc", "gen_repo/impl/utils.py:rho_to_arguments"]}
{"id": "C20", "title": "Experimental polarization inference", "statement": "experimental functionals infer polarization from the density's output shape, retry in float64 when float32 evaluation fails, raise ValueError for any other shape, and accept mo iff its shape is (2,N) / (N,) accordingly.", "quantifier": "every shape-evaluation behaviour", "why_tests_cant": "all shapes", "anchors": ["gen_repo/experimental.jinja:is_polarized", "gen_repo/experimental.jinja:check_mo_shape"]}
{"id": "C21", "title": "Closed-shell consistency of the shipped formulas", "statement": "For each shipped formula the unpolarized code at (rho, sigma, lapl, tau) equals the polarized code at (rho/2, rho/2, sigma/4 x3, lapl/2 x2, tau/2 x2), in exact real arithmetic: for 15 formulas after each decimal literal has been moved by at most one part in 10^17 (Maple rounded constants differently in the two files), for all others as they stand, except gga_xc_th3 and mgga_x_task (inconsistent because of rounded roots of two) and those that always raise NameError (C35).", "quantifier": "all positive densities, all non-negative sigma and tau, all lapl, all parameter values and thresholds", "why_tests_cant": "continuum of inputs and parameters; tests use 100 points and default parameters", "anchors": ["gen_repo/impl/prebuilt/pol/*.py and unpol/*.py", "gen_repo/impl/maple_template.jinja:mzk_unpol"]}
{"id": "C22", "title": "Spin-flip symmetry of the shipped formulas", "statement": "For each shipped formula the polarized code is invariant under exchanging all spin labels, except gga_x_lb, lda_xc_ksdt and mgga_x_2d_prp10 (which are not) and those that always raise NameError (C35).", "quantifier": "all positive spin densities, sigmas, lapl, tau, parameters, thresholds below 1", "why_tests_cant": "continuum of inputs and parameters", "anchors": ["gen_repo/impl/prebuilt/pol/*.py and unpol/*.py"]}
{"id": "C23", "title": "Closed-shell consistency of the API", "statement": "eps created with polarized=True evaluated on the pair (rho/2, rho/2) (and orbitals split accordingly) equals eps created with polarized=False on rho, for mixtures of any depth as well.", "quantifier": "every differentiable positive density, every point, every mixture tree of closed-shell-consistent formulas", "why_tests_cant": "all densities", "anchors": ["gen_repo/impl/python_template.jinja:invoke", "gen_repo/python_template.jinja:invoke", "gen_repo/impl/utils.py:rho_to_arguments", "gen_repo/impl/prebuilt/pol/*.py and unpol/*.py"]}
{"id": "C24", "title": "Spin-flip symmetry of the API", "statement": "Exchanging the two components of a polarized density (and orbitals) does not change eps, for mixtures of any depth as well.", "quantifier": "every differentiable positive density pair, every mixture tree of spin-symmetric formulas (C22)", "why_tests_cant": "all densities", "anchors": ["gen_repo/impl/python_template.jinja:invoke", "gen_repo/python_template.jinja:invoke", "gen_repo/impl/utils.py:rho_to_arguments", "gen_repo/impl/prebuilt/pol/*.py and unpol/*.py"]}
{"id": "C25", "title": "Rotation and translation equivariance", "statement": "For any rigid motion T, eps[rho o T, mo o T](r) = eps[rho, mo](T r), for every functional including mixtures.", "quantifier": "every C^2 density, orbitals, isometry, point, functional tree", "why_tests_cant": "continuous group of motions", "anchors": ["gen_repo/impl/utils.py:rho_to_arguments", "gen_repo/impl/python_template.jinja:invoke", "gen_repo/python_template.jinja:invoke"]}
{"id": "C26", "title": "Semilocality", "statement": "eps at r depends on rho and mo only through their values in an arbitrarily small neighbourhood of r.", "quantifier": "every pair of densities agreeing near r", "why_tests_cant": "all densities", "anchors": ["gen_repo/impl/utils.py:rho_to_arguments", "gen_repo/impl/python_template.jinja:invoke", "gen_repo/python_template.jinja:invoke"]}
{"id": "C27", "title": "Family classification is consistent", "statement": "The three independent prefix tests (C++ name_to_type, gen_maple, gen_py) agree on every string; at most one family applies; a hyb_ prefix does not change it; a string with none of the prefixes is an error in all of them.", "quantifier": "every string", "why_tests_cant": "all strings", "anchors": ["gen_repo/libxc/libxc.cc:name_to_type", "gen_repo/impl/gen_maple.py:main", "gen_repo/impl/gen_py.py:main"]}
{"id": "C28", "title": "Record conversion loses nothing", "statement": "dict_to_namedtuple keeps every key and value (recursively, in func_aux order), renaming only a key that is exactly 'lambda' to 'lambda_'; it fails exactly when some key is not a usable field name or a list holds a non-dict.", "quantifier": "every nested dict", "why_tests_cant": "unbounded nesting", "anchors": ["gen_repo/utils.py:dict_to_namedtuple"]}
{"id": "C29", "title": "get_p mirrors the C record", "statement": "get_p(name, polarized, ...) has nspin 1+polarized, the functional's own name, thresholds, the components in order with one coefficient each, recursively.", "quantifier": "every libxc record tree", "why_tests_cant": "unbounded trees", "anchors": ["gen_repo/libxc/libxc.cc:get_p", "gen_repo/utils.py:get_p"]}
{"id": "C30", "title": "Formula selection", "statement": "The formula used for a record is: the two hard-wired names first, none (mixture) if the record has components, else the formula registered for its lda, gga or mgga work table in that order of preference; an unregistered table or no table at all raises. Hence a record with components is never evaluated as DEORBITALIZE.", "quantifier": "every record and registry history", "why_tests_cant": "all records and registries", "anchors": ["gen_repo/libxc/libxc.cc:get_maple_name", "gen_repo/libxc/register.h:RegisterMaple"]}
{"id": "C31", "title": "Parameter structs are exported completely", "statement": "For a C parameter struct made of scalar/array declarations, the wrapper registers exactly the declared member names in order, so get_params exposes each of them; functionals without a registered struct expose the empty set.", "quantifier": "every struct declaration list of the supported grammar", "why_tests_cant": "unbounded grammar", "anchors": ["gen_repo/libxc/wrap.py:wrap_file", "gen_repo/libxc/register.h:REGISTER_PARAMS"]}
{"id": "C32", "title": "Maple output rewriting preserves numbers", "statement": "Every Maple float literal 0.d1..dn e\u00b1k is rewritten to a literal denoting the same rational number.", "quantifier": "every digit string and exponent", "why_tests_cant": "unbounded literals", "anchors": ["gen_repo/impl/gen_py.py:post_process"]}
{"id": "C33", "title": "Maple output rewriting preserves names", "statement": "Code text that contains none of the rewrite triggers is left unchanged, and params_a_X / p_a_X becomes params.X / p.X for every trigger-free X; names containing a trigger (e.g. lambda_x) are corrupted (counterexample).", "quantifier": "every text", "why_tests_cant": "all strings", "anchors": ["gen_repo/impl/gen_py.py:post_process"]}
{"id": "C34", "title": "Cube roots are rewritten correctly", "statement": "A single 'v ** (0.1e1 / 0.3e1)' on a line becomes jnp.cbrt(v) with the same value for v >= 0; with two parenthesised cube roots on one line the rewriting changes the meaning (counterexample).", "quantifier": "every base name / balanced parenthesised base", "why_tests_cant": "all strings", "anchors": ["gen_repo/impl/gen_py.py:post_process"]}
{"id": "C35", "title": "Shipped code is closed", "statement": "Every shipped formula only reads the inputs its family provides and only assigned temporaries and available functions, so it evaluates without NameError - except for exactly the formulas calling a helper that jax_xc does not define, which raise NameError on every input.", "quantifier": "all inputs and parameters, all 522 code bodies", "why_tests_cant": "for all inputs and branches", "anchors": ["gen_repo/impl/prebuilt/pol/*.py and unpol/*.py", "README.rst:Caveates"]}
{"id": "C36", "title": "Exchange ignores the cross gradient", "statement": "The polarized exchange formulas do not depend on sigma_updown, and LDA formulas on no gradient at all; and every mGGA formula outside an explicit short list does not depend on the Laplacian.", "quantifier": "all inputs", "why_tests_cant": "independence of a real variable", "anchors": ["gen_repo/impl/prebuilt/pol/*.py and unpol/*.py"]}
{"id": "C37", "title": "Spin scaling of exchange", "statement": "For exchange formulas away from the thresholds, (r0+r1) eps_pol(r0,r1,s0,s1,s2,..) = r0 eps_unpol(2 r0, 4 s0, ..) + r1 eps_unpol(2 r1, 4 s2, ..): for 8 formulas after each decimal literal has been moved by at most one part in 10^17, for all other exchange and kinetic-energy formulas as they stand, except gga_x_lb, lda_k_zlp, lda_x_rel, mgga_x_2d_prp10 and mgga_x_task (which do not scale like this) and those that always raise NameError (C35).", "quantifier": "all positive densities, gradients, parameters", "why_tests_cant": "continuum", "anchors": ["gen_repo/impl/prebuilt/pol/*.py and unpol/*.py"]}
{"id": "C38", "title": "Uniform scaling of exchange", "statement": "For scale-invariant exchange formulas away from the thresholds eps(l^3 rho, l^8 sigma, l^5 lapl, l^5 tau) = l eps(rho, sigma, lapl, tau) for every l > 0.", "quantifier": "all l > 0, all inputs", "why_tests_cant": "continuum", "anchors": ["gen_repo/impl/prebuilt/pol/*.py and unpol/*.py"]}
{"id": "C39", "title": "Slater exchange closed form", "statement": "lda_x unpolarized returns alpha * (-3/4)(3/pi)^(1/3) rho^(1/3) above its thresholds, is non-positive for alpha >= 0, and is decreasing in rho.", "quantifier": "all densities", "why_tests_cant": "continuum", "anchors": ["gen_repo/impl/prebuilt/unpol/lda_x.py"]}
{"id": "C40", "title": "PBE exchange limits", "statement": "gga_x_pbe at zero gradient equals lda_x (alpha = 1); its ratio to lda_x lies in [1, 1+kappa) for kappa > 0, mu >= 0 (local Lieb-Oxford bound) for every gradient, in the unpolarized and the polarized code.", "quantifier": "all densities, gradients, parameters", "why_tests_cant": "continuum", "anchors": ["gen_repo/impl/prebuilt/unpol/gga_x_pbe.py"]}
{"id": "C41", "title": "Helper functions", "statement": "Heaviside(x) is 1 for x >= 0 and 0 otherwise; lax_cond returns its second argument when the condition holds and the third otherwise and coerces integer branches; xc_erfcx and xc_E1_scaled are the scaled functions.", "quantifier": "all reals", "why_tests_cant": "continuum", "anchors": ["gen_repo/impl/utils.py:lax_cond", "gen_repo/impl/utils.py:Heaviside"]}
{"id": "C42", "title": "Per-spin screening in exchange code", "statement": "In polarized exchange formulas a spin channel with density at or below dens_threshold contributes nothing: if both are below, the energy is 0; if one is, only the other channel's inputs matter, and its term of C37 is what remains. False, with counterexamples, of explicit lists of formulas (in particular of LDA formulas without per-spin screening).", "quantifier": "all inputs", "why_tests_cant": "continuum", "anchors": ["gen_repo/impl/prebuilt/pol/*.py and unpol/*.py"]}
{"id": "C43", "title": "Build covers every Maple file", "statement": "Every *.mpl file in the six Maple folders yields one genrule set whose output module name is the file's stem, in prebuilt and non-prebuilt mode; libxc C files are wrapped unless they start with funcs_ or work_.", "quantifier": "every directory listing", "why_tests_cant": "all listings", "anchors": ["gen_repo/impl/gen_build.py:main", "gen_repo/libxc/gen_build.py:main"]}
{"id": "C44", "title": "Orbital-free mGGA formulas", "statement": "An explicit list of mGGA formulas does not depend on the kinetic energy density (they are orbital free), although the API demands orbitals for them.", "quantifier": "all inputs and parameters, polarized and unpolarized code", "why_tests_cant": "independence of a real variable", "anchors": ["gen_repo/impl/prebuilt/pol/*.py and unpol/*.py"]}
{"id": "C45", "title": "Init functions are paired with the struct they allocate", "statement": "For a C file in which every init function has the expected form and allocates its own params struct, the wrapper pairs each init function with exactly that struct, in order, and finds the definition of each struct. (False in general: an init function without an allocation is silently paired with the struct of the next one, and in a file with two structs the text found for the second one starts at the first one; both proved as counterexamples.)", "quantifier": "every sequence of init functions and struct definitions of the stated form", "why_tests_cant": "unbounded C sources", "anchors": ["gen_repo/libxc/wrap.py:wrap_file"]}
{"id": "C46", "title": "Formula registration by the C wrapper", "statement": "A C file that includes one Maple-generated formula and one work table, in either order, registers that formula for that table; a file without work table registers nothing; two formulas or two work tables raise ValueError, and a work table without formula raises IndexError.", "quantifier": "every file", "why_tests_cant": "unbounded C sources", "anchors": ["gen_repo/libxc/wrap.py:wrap_file", "gen_repo/libxc/register.h:REGISTER_MAPLE"]}
{"id": "C47", "title": "Formulas match the published closed forms", "statement": "Above the thresholds, the unpolarized code of lda_x, lda_x_2d, lda_k_tf, lda_c_wigner, lda_c_rpa, lda_c_pz, lda_c_pw, lda_c_hl, lda_c_chachiyo, gga_x_pbe, gga_x_rpbe, gga_x_b86, gga_x_b88, gga_x_g96, gga_x_optx, gga_x_pw86, gga_x_ev93 and gga_k_tflw returns the textbook expression in terms of the Wigner-Seitz radius, the reduced gradient and the functional's parameters.", "quantifier": "all densities above the thresholds, all gradients, all parameter values", "why_tests_cant": "tests compare with libxc at finitely many points; an identity over a continuum of inputs and parameters", "anchors": ["gen_repo/impl/prebuilt/unpol"]}
{"id": "C48", "title": "Signs, bounds and monotonicity", "statement": "For parameters of the physical sign: rPBE exchange enhancement lies in [1, 1+kappa); B88 exchange is at most Dirac exchange; Wigner, Perdew-Wang and Chachiyo correlation energies are negative, Wigner's decreasing in the density; the gradient-expanded kinetic energy with gamma, lambda >= 1 is at least Thomas-Fermi plus von Weizsaecker.", "quantifier": "all densities above the thresholds, all gradients, all parameters of the stated sign", "why_tests_cant": "inequalities over a continuum", "anchors": ["gen_repo/impl/prebuilt/unpol"]}
{"id": "C49", "title": "Formulas are defined on their domain", "statement": "At positive densities, nonnegative gradients and kinetic energy densities, with 0 < zeta_threshold < 1 and a positive density threshold, the formula returns a number and no operation that contributes to it is outside its domain (no division by zero, no log or root of a negative number), given signs and, for a few formulas, bounds of external parameters that are named per formula; some formulas need a positive gradient or kinetic energy density.", "quantifier": "all densities, gradients, kinetic energy densities, all parameters of the stated signs", "why_tests_cant": "a division by zero hides on a set of measure zero", "anchors": ["gen_repo/impl/prebuilt/pol/*.py and unpol/*.py", "gen_repo/impl/utils.py:lax_cond"]}
{"id": "C50", "title": "Formulas that give nan at stationary points", "statement": "Explicit lists of formulas give nan wherever the density is above the threshold and the gradient vanishes, whatever the density (e.g. gga_x_chachiyo, gga_x_vmt84, gga_k_meyer), or wherever the kinetic energy density vanishes too (e.g. mgga_c_tpss, mgga_x_tpss, mgga_c_m06l), as at the maximum of a Gaussian orbital.", "quantifier": "all densities above the threshold, all parameters", "why_tests_cant": "tests use random points, where the gradient does not vanish", "anchors": ["gen_repo/impl/prebuilt/pol/*.py and unpol/*.py", "gen_repo/impl/python_template.jinja:pol", "gen_repo/impl/python_template.jinja:unpol"]}
{"id": "C51", "title": "Electrons of one spin only", "statement": "Where rho_down, its gradient and its kinetic energy density vanish (a hydrogen atom), the polarized code is defined for an explicit list of formulas, and gives nan for every such density for another list (e.g. gga_c_lyp, gga_xc_b97, mgga_c_m06l, mgga_c_scan, mgga_c_tpss): libxc clamps its inputs before it calls the formula, the generated code does not.", "quantifier": "all densities above the threshold, positive gradients, positive kinetic energy densities", "why_tests_cant": "a set of measure zero that random tests do not hit", "anchors": ["gen_repo/impl/prebuilt/pol/*.py and unpol/*.py", "gen_repo/impl/python_template.jinja:pol"]}
{"id": "C52", "title": "Where energy densities can be differentiated", "statement": "Wherever the density and the orbitals are infinitely differentiable and the formula is regular (every operation that contributes is inside the open set where it is smooth and no comparison that contributes is between equal numbers), the energy density is infinitely differentiable; for explicit lists of formulas regularity holds for every density above the threshold except on the thresholds and kinks themselves; mixtures inherit it; below the density threshold the energy density vanishes identically near the point, so all derivatives are zero (the situation of tests/test_grad.py); at the threshold itself it is discontinuous wherever it is not zero.", "quantifier": "all smooth densities, all points, all orders of derivatives", "why_tests_cant": "the test differentiates one functional once, at two points, and only checks for nan", "anchors": ["tests/test_grad.py:_TestGrad", "gen_repo/impl/python_template.jinja:invoke", "gen_repo/impl/utils.py:lax_cond", "gen_repo/impl/prebuilt/pol/*.py and unpol/*.py"]}
{"id": "C53", "title": "Spin scaling and uniform scaling of the functionals that users call", "statement": "For every exchange-type functional whose formula scales, the energy density that jax_xc returns for the uniformly scaled density and orbitals x^n rho(x r), x^(n/2) phi(x r) is x^k times the one returned for rho at x r, through the gradients, Laplacians and kinetic energy densities that utils.py computes by automatic differentiation; the energy in a region scales accordingly; and the polarized functional is the average of the unpolarized one at twice either spin density.", "quantifier": "all differentiable densities, orbitals, scale factors and points above the thresholds", "why_tests_cant": "tests evaluate the functionals for a handful of fixed arrays of input variables, never for a density function and its scaled copy", "anchors": ["gen_repo/impl/utils.py:rho_to_arguments", "gen_repo/experimental.jinja:make_epsilon_xc", "gen_repo/impl/python_template.jinja:invoke", "gen_repo/impl/prebuilt/pol/*.py and unpol/*.py"]}
{"id": "C54", "title": "The functionals that users call are the published ones", "statement": "Above the thresholds, the energy density that jax_xc returns for a density function is the published expression of the density and of the length of its gradient at the point (local functionals, gradient-corrected exchange, the latter also spin-polarized, and all mixtures of these); where the gradient vanishes PBE exchange is Dirac's; pointwise and integrated over any region PBE exchange lies between Dirac's and 1 + kappa times it.", "quantifier": "all densities above the thresholds, all points and regions, all parameters, all nested mixtures", "why_tests_cant": "tests compare numbers with libxc at given values of rho and sigma, not functionals of a density with the literature", "anchors": ["gen_repo/experimental.jinja:make_epsilon_xc", "gen_repo/impl/python_template.jinja:invoke", "gen_repo/impl/utils.py:rho_to_arguments", "gen_repo/impl/prebuilt/pol/*.py and unpol/*.py"]}
{"id": "C55", "title": "Maple's output ends up in the right function", "statement": "The module written for a formula defines exactly pol, unpol and invoke at its top level; the body of pol (unpol) consists of params = p.params, the unpacking of the arguments, the rewritten lines of the polarized (unpolarized) file in their order, and return res, every one indented by two spaces; blank lines and trailing white space do not matter; this needs that the lines of the file start in the first column (counterexample otherwise).", "quantifier": "every pair of files and every module name", "why_tests_cant": "texts of any length", "anchors": ["gen_repo/impl/gen_py.py:main", "gen_repo/impl/gen_py.py:post_process", "gen_repo/impl/python_template.jinja"]}
{"id": "C56", "title": "References and parameters in the docstrings", "statement": "The link of a reference has libxc's DOI as label and the URL of the BibTeX entry as target, however it is escaped there, with the angle brackets escaped; entries without URL print the DOI; the k-th reference combines the k-th entries of libxc's lists; the k-th external parameter is documented with its own default value and description if the rewritten names are distinct. (URLs with a closing brace are cut off, those with a backslash lose it, and parameters whose names collide shift the descriptions: counterexamples.)", "quantifier": "every BibTeX text, every list of references and parameters", "why_tests_cant": "texts of any length", "anchors": ["gen_repo/gen_py.py:main", "gen_repo/python_template.jinja"]}
{"id": "C57", "title": "The Maple program behind the formulas", "statement": "For every libxc formula f and dimension D the unpolarized program evaluates f at zero polarization, with the total reduced gradient and with 2^(1/D), 2^(2/D) times the total reduced variables for each spin; the polarized program is symmetric under spin flip if f is; uniform scaling of the inputs changes only the Wigner-Seitz radius; for a density function the reduced variables are |grad rho|/rho^(4/3) etc.; the shipped lda_x is what the program gives for Slater's f.", "quantifier": "every f, every dimension, all inputs", "why_tests_cant": "a statement about every formula, including future ones", "anchors": ["gen_repo/impl/maple_template.jinja", "gen_repo/impl/utils.py:rho_to_arguments"]}
{"id": "C58", "title": "Correlation, meta-GGA exchange and kinetic functionals match the published closed forms", "statement": "Away from the thresholds the polarized code of lda_c_pw, lda_c_pz, lda_c_vwn, lda_c_chachiyo, lda_c_hl, lda_c_wigner, lda_c_gombas, lda_c_rc04, lda_xc_teter93, gga_c_pbe, gga_c_lyp, gga_c_p86, gga_c_wl, gga_c_wi, gga_c_chachiyo and the unpolarized code of 14 further GGA exchange functionals, 10 kinetic functionals and 7 meta-GGA exchange functionals (among them TPSS, SCAN, MS, MVS) returns the published expression in spin polarization, Wigner-Seitz radius, reduced gradients and kinetic energy density. Derived constants that libxc prints in decimals agree with the exact ones to 19 digits; SCAN's switch function is cut off where it is below the rounding unit. Through the interface these are functions of the spin densities, of the gradients at the point and of the kinetic energy density of the orbitals.", "quantifier": "all densities above the thresholds, all gradients, kinetic energy densities and parameter values", "why_tests_cant": "tests compare with libxc at finitely many points, not with the literature", "anchors": ["gen_repo/impl/prebuilt/pol", "gen_repo/impl/prebuilt/unpol", "gen_repo/impl/utils.py:rho_to_arguments"]}
{"id": "C59", "title": "Exact constraints of correlation, meta-GGA exchange and kinetic functionals", "statement": "PBE correlation energy is negative, not below its local part, equal to it at zero gradient and tends to 0 for large gradients (beta, gamma > 0). SCAN exchange of a density made of orbitals lies between 1.174 times the local exchange energy and 0; TPSS exchange between 1+kappa times the local exchange energy and the local exchange energy. The Pauli-Gaussian kinetic energy is above the von Weizsaecker one, Pearson's above Thomas-Fermi. Chachiyo's and Wigner's correlation energies are negative at all spin polarizations.", "quantifier": "All densities above the thresholds, gradients, kinetic energy densities of orbitals, spin polarizations, and all parameter values in ranges around the published ones", "why_tests_cant": "The bounds hold for every density and gradient, at unboundedly large arguments and in a limit; a sign error in one term of the formula shows only in part of the range, and samples of smooth densities stay near zero gradient", "anchors": ["gen_repo/impl/prebuilt/pol/gga_c_pbe.py", "gen_repo/impl/prebuilt/unpol/mgga_x_scan.py", "gen_repo/impl/prebuilt/unpol/mgga_x_tpss.py", "gen_repo/impl/prebuilt/unpol/gga_k_pg.py", "gen_repo/impl/prebuilt/unpol/gga_k_pearson.py", "gen_repo/impl/prebuilt/pol/lda_c_chachiyo.py", "gen_repo/impl/prebuilt/pol/lda_c_wigner.py"]}
{"id": "C60", "title": "Formulas that are undefined somewhere inside their domain", "statement": "revSCAN correlation takes the logarithm of a number that is not positive wherever the reduced gradient s satisfies 1 + 1.3112 s^4 >= (4 + 0.4 r_s)^8 (polarized and unpolarized): the second root enters without its reciprocal, with the reciprocal the argument is at least 1. MVSb exchange has no value where the kinetic energy density is that of the uniform electron gas, in particular for that gas: it divides by tau - tau_unif where MSb divides by tau + tau_unif. The kinetic functional of Meyer has no value where s = 6 exactly, the exchange functional of Jemmer and Knowles none where 2 n lapl n = 3 |grad n|^2, mgga_x_rlda none where lapl n = 8 tau, the functional of Cancio and Chou none where 0.026 r_s^2 lapl n = -n, whatever the parameters. regTM exchange has no value for the uniform electron gas, SG4 exchange none at one reduced gradient between 3.65 and 3.66, and the kinetic functional RDA none where beta3 (s^2 + c q) = -1, which some Laplacian reaches at each density and gradient.", "quantifier": "all densities above the thresholds, all gradients in the stated sets, all kinetic energy densities and parameters", "why_tests_cant": "the region of revSCAN is at reduced gradients of about 15 and more, which the sampled densities do not reach; the other sets have measure zero", "anchors": ["gen_repo/impl/prebuilt/unpol/mgga_c_revscan.py", "gen_repo/impl/prebuilt/pol/mgga_c_revscan.py", "gen_repo/impl/prebuilt/unpol/mgga_x_mvsb.py", "gen_repo/impl/prebuilt/pol/mgga_x_mvsb.py", "gen_repo/impl/prebuilt/unpol/mgga_x_rlda.py", "gen_repo/impl/prebuilt/unpol/mgga_xc_cc06.py", "gen_repo/impl/prebuilt/unpol/gga_k_meyer.py", "gen_repo/impl/prebuilt/unpol/mgga_x_jk.py", "gen_repo/impl/prebuilt/unpol/mgga_x_regtm.py", "gen_repo/impl/prebuilt/unpol/gga_x_sg4.py", "gen_repo/impl/prebuilt/unpol/mgga_k_rda.py"]}
{"id": "C61", "title": "Floating-point evaluation is accurate", "statement": "Let every literal, arithmetic operation and elementary function be rounded with relative error at most u <= 2^-50, without overflow or underflow, and let comparisons come out as in exact arithmetic. Then the value that a shipped formula returns differs from the exact value by at most K u, relatively or absolutely, with K listed per formula: for 41 unpolarized and 2 polarized bodies relatively and for all positive densities, for 106 unpolarized and 128 polarized bodies when densities, gradients, kinetic energies and parameters lie between given powers of two.", "quantifier": "for every record, every unit roundoff u, every input in the stated range and every sequence of roundings", "why_tests_cant": "A test sees one sequence of roundings at sample points; cancellation that amplifies rounding errors shows only near special inputs.", "anchors": ["gen_repo/impl/prebuilt/unpol/lda_x.py", "gen_repo/impl/prebuilt/pol/gga_x_b88.py", "gen_repo/impl/prebuilt/unpol/lda_c_wigner.py", "gen_repo/impl/prebuilt/pol/lda_c_pz.py"]}
{"id": "C62", "title": "Spin-scaling relation at all densities", "statement": "For 110 exchange and kinetic formulas the polarized energy per volume is, at every pair of positive densities, the sum over the spins of half the unpolarized energy at twice the spin density, times (k/(1 +- zeta))^a. Here k is 1 +- zeta kept in [zeta_threshold, 2 - zeta_threshold] (for LDA formulas only from below) and a is 4/3, 5/3 or 3/2. No condition on the thresholds is left except 0 < zeta_threshold < 1 and 0 < dens_threshold.", "quantifier": "for every record with 0 < zeta_threshold < 1 and 0 < dens_threshold, all positive densities and all gradients, Laplacians and kinetic energies of the domain", "why_tests_cant": "The branches at the polarization threshold are entered only for almost fully polarized densities, which sample inputs miss with the default threshold 2.2e-16.", "anchors": ["gen_repo/impl/prebuilt/pol/gga_x_b88.py", "gen_repo/impl/prebuilt/pol/gga_k_apbe.py", "gen_repo/impl/prebuilt/pol/lda_x_2d.py", "gen_repo/impl/prebuilt/pol/mgga_x_scan.py"]}
{"id": "C63", "title": "Smooth above the thresholds", "statement": "For 163 unpolarized formula bodies the only point where a comparison is between equal numbers is rho/2 = dens_threshold; for 151 polarized bodies there is none above the thresholds. Hence for these formulas the energy density of a functional is infinitely differentiable wherever the density (and the orbitals) are and the density is neither dens_threshold nor twice dens_threshold (polarized: the spin densities are above the thresholds), with no condition on the branches that the formula takes; where the list of C52 asks for it, gradient and kinetic energy density must not vanish. A smooth density that stays above twice the threshold gives a smooth energy density on all of space.", "quantifier": "for every record with 0 < zeta_threshold < 1 and 0 < dens_threshold and the signs of parameters that the list names, every density and set of orbitals, every point", "why_tests_cant": "A kink between branches lies on a set of measure zero, which sample points miss; a gradient test at a few points cannot show that there is none.", "anchors": ["gen_repo/impl/prebuilt/unpol/gga_x_pbe.py", "gen_repo/impl/prebuilt/pol/gga_x_pbe.py", "tests/test_grad.py"]}
{"id": "C64", "title": "Overflow of the scaled special functions", "statement": "xc_E1_scaled(x) = exp1(x)*exp(x) and xc_erfcx(x) = exp(x**2)*erfc(x) return nan in double precision for x >= 746 and x >= 28 (single precision: 104 and 11), because one factor overflows and the other underflows, although the exact values lie between 0 and 1. Hence the exchange of HSE (gga_x_wpbeh, unpolarized) is nan wherever the density is above the threshold and the Fermi wave number is less than omega/14 (single precision: omega/6), which for omega = 0.11 includes all densities between 3e-15 and 1.5e-8; and the correlation of FT97 is nan at every density between 1e-12 and 1e12 for some gradient.", "quantifier": "for every floating-point format in which numbers from 2^1024 (2^128) on become infinite and numbers up to 2^-1075 (2^-150) become zero, every argument, density and gradient in the stated ranges, every record with the thresholds of libxc", "why_tests_cant": "The density must be small or the gradient large compared with those of test systems; a comparison with libxc at the densities of a molecule passes, and the nan appears in the tail of some other one.", "anchors": ["gen_repo/impl/utils.py:26-31", "gen_repo/impl/utils.py:38-39", "gen_repo/impl/prebuilt/unpol/gga_x_wpbeh.py", "gen_repo/impl/prebuilt/unpol/gga_c_ft97.py"]}
{"id": "C65", "title": "Gaussian orbitals of the tests", "statement": "The function gto(center, exponent, angular) of tests/utils.py returns a Cartesian Gaussian whose square integrates to 1 over space, for every centre, every positive exponent and all powers below 50; two of them with the same centre are orthogonal if the sum of their powers along some axis is odd; a power of 50 or more raises IndexError, and nothing else raises.", "quantifier": "for every centre, exponent, and triple of powers", "why_tests_cant": "An integral over space cannot be evaluated by a test, only approximated; the powers and exponents are unlimited.", "anchors": ["tests/utils.py:gto", "tests/utils.py:perm_2n_n"]}
{"id": "C66", "title": "What the tests cannot see", "statement": "At every point that tests/test_against_libxc.py may draw, both of its densities are far above the thresholds (if dens_threshold <= 1e-8 and zeta_threshold <= 1e-6): no argument that rho_to_arguments computes reaches dens_threshold or zeta_threshold. So a formula that is wrong in every branch selected by a threshold passes the test; an example is given, which differs from lda_x at every density at or below the threshold. Conversely tests/test_grad.py looks only at points where the energy density of lda_x is constant zero nearby (if dens_threshold >= 1e-36), so its gradient is zero whatever the formula does above the threshold.", "quantifier": "for every point of the cube from which the test draws, every record with such thresholds, every pair of formulas that agree above the thresholds", "why_tests_cant": "It is a statement about the tests themselves: about all points they might draw and all programs they would accept.", "anchors": ["tests/test_against_libxc.py:rho1", "tests/test_against_libxc.py:rho2", "tests/test_against_libxc.py:rho3", "tests/test_against_libxc.py:_test_impl", "tests/test_grad.py:test_grad_is_not_nan", "gen_repo/impl/prebuilt/pol/lda_x.py", "gen_repo/impl/prebuilt/unpol/lda_x.py"]}
