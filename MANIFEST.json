{
 "claims": [
  {
   "property": "C01",
   "status": "proved",
   "theorems": [
    "Verif.Props.c01_density_shape",
    "Verif.Props.c01_no_energy"
   ],
   "note": "an mGGA called without orbitals reports the missing orbitals first (C03)"
  },
  {
   "property": "C02",
   "status": "proved",
   "theorems": [
    "Verif.Props.c02_mismatch",
    "Verif.Props.c02_agree"
   ],
   "note": ""
  },
  {
   "property": "C03",
   "status": "proved",
   "theorems": [
    "Verif.Props.c03_needs_orbitals",
    "Verif.Props.c03_ignores_orbitals"
   ],
   "note": ""
  },
  {
   "property": "C04",
   "status": "proved",
   "theorems": [
    "Verif.Props.c04_polarized_accepts",
    "Verif.Props.c04_polarized_rejects",
    "Verif.Props.c04_readme_layout",
    "Verif.Props.c04_unpolarized_accepts",
    "Verif.Props.c04_unpolarized_rejects"
   ],
   "note": ""
  },
  {
   "property": "C05",
   "status": "proved",
   "theorems": [
    "Verif.Props.c05_lda_unpolarized",
    "Verif.Props.c05_lda_polarized",
    "Verif.Props.c05_gga_unpolarized",
    "Verif.Props.c05_gga_polarized",
    "Verif.Props.c05_mgga_unpolarized",
    "Verif.Props.c05_mgga_polarized",
    "Verif.Props.c05_deorbitalize_unpolarized",
    "Verif.Props.c05_deorbitalize_polarized",
    "Verif.Props.c05_deorbitalize_ignored",
    "Verif.Props.c05_deorbitalize_errors"
   ],
   "note": "Also with a value for the argument deorbitalize of rho_to_arguments."
  },
  {
   "property": "C06",
   "status": "proved",
   "theorems": [
    "Verif.Props.c05_gga_unpolarized",
    "Verif.Props.c05_gga_polarized",
    "Verif.Props.c06_nonneg",
    "Verif.Props.c06_cauchy_schwarz",
    "Verif.Props.c06_total",
    "Verif.Props.c06_total_nonneg"
   ],
   "note": ""
  },
  {
   "property": "C07",
   "status": "proved",
   "theorems": [
    "Verif.Props.c05_mgga_unpolarized",
    "Verif.Props.c05_mgga_polarized",
    "Verif.Props.c07_coordinates"
   ],
   "note": "Laplacian is Mathlib's; the density must be twice continuously differentiable at the point"
  },
  {
   "property": "C08",
   "status": "proved",
   "theorems": [
    "Verif.Props.c05_mgga_unpolarized",
    "Verif.Props.c05_mgga_polarized",
    "Verif.Props.c08_nonneg",
    "Verif.Props.c08_additive",
    "Verif.Props.c08_single",
    "Verif.Props.c08_unitary"
   ],
   "note": ""
  },
  {
   "property": "C09",
   "status": "proved",
   "theorems": [
    "Verif.Props.c09_von_weizsaecker"
   ],
   "note": ""
  },
  {
   "property": "C10",
   "status": "proved",
   "theorems": [
    "Verif.Props.c10_above_unpolarized",
    "Verif.Props.c10_above_polarized",
    "Verif.Props.c10_below_unpolarized",
    "Verif.Props.c10_below_polarized"
   ],
   "note": "the traced code must not raise (C35): lax.cond traces both branches"
  },
  {
   "property": "C11",
   "status": "proved",
   "theorems": [
    "Verif.Props.c11_locally_zero_unpolarized",
    "Verif.Props.c11_locally_zero_polarized",
    "Verif.Props.c11_derivative_unpolarized",
    "Verif.Props.c11_derivative_polarized"
   ],
   "note": ""
  },
  {
   "property": "C12",
   "status": "proved",
   "theorems": [
    "Verif.Props.c12_unpolarized_code_only",
    "Verif.Props.c12_polarized_code_only",
    "Verif.Props.c10_above_unpolarized",
    "Verif.Props.c10_above_polarized"
   ],
   "note": ""
  },
  {
   "property": "C13",
   "status": "proved",
   "theorems": [
    "Verif.Props.c13_linear_combination",
    "Verif.Props.c13_raises",
    "Verif.Props.c13_one_level"
   ],
   "note": ""
  },
  {
   "property": "C14",
   "status": "proved",
   "theorems": [
    "Verif.Props.c14_permutation"
   ],
   "note": "the value is unchanged; which error is raised first may change"
  },
  {
   "property": "C15",
   "status": "proved",
   "theorems": [
    "Verif.Props.c15_length",
    "Verif.Props.c15_passed_partial",
    "Verif.Props.c15_omitted",
    "Verif.Props.c15_zero",
    "Verif.Props.c15_zero_false",
    "Verif.Props.c15_wrapper"
   ],
   "note": "The unrestricted claim is false of the code; c15_zero_false is the counterexample, c15_passed_partial the claim for every non-zero value, c15_zero what happens for zero."
  },
  {
   "property": "C16",
   "status": "proved",
   "theorems": [
    "Verif.Props.c16_position",
    "Verif.Props.c16_count",
    "Verif.Props.c16_collision",
    "Verif.Props.c16_not_lambda",
    "Verif.Props.c16_plain",
    "Verif.Props.c16_indexed",
    "Verif.Props.c16_lambda"
   ],
   "note": ""
  },
  {
   "property": "C17",
   "status": "proved",
   "theorems": [
    "Verif.Props.c17_mixture",
    "Verif.Props.c17_single",
    "Verif.Props.c17_b98"
   ],
   "note": "README.rst promises these attributes for hybrids in general; c17_b98 with c17_single shows a hybrid without them."
  },
  {
   "property": "C18",
   "status": "proved",
   "theorems": [
    "Verif.Props.c18_main_never",
    "Verif.Props.c18_main_typeError",
    "Verif.Props.c18_experimental_unpolarized",
    "Verif.Props.c18_experimental_polarized",
    "Verif.Props.c18_experimental_components",
    "Verif.Props.c18_generator",
    "Verif.Props.c18_generator_raises"
   ],
   "note": "The claim is false of the main API (c18_main_*), true of the experimental one."
  },
  {
   "property": "C19",
   "status": "proved",
   "theorems": [
    "Verif.Props.c19_agree"
   ],
   "note": ""
  },
  {
   "property": "C20",
   "status": "proved",
   "theorems": [
    "Verif.Props.c20_float32",
    "Verif.Props.c20_float64",
    "Verif.Props.c20_fails",
    "Verif.Props.c20_rejects",
    "Verif.Props.c20_orbitals",
    "Verif.Props.c20_energy",
    "Verif.Props.c20_float64_energy",
    "Verif.Props.c20_needs_orbitals",
    "Verif.Props.c20_mgga_component"
   ],
   "note": ""
  },
  {
   "property": "C21",
   "status": "proved",
   "theorems": [
    "Verif.Props.closedShell_settled",
    "Verif.Props.closedShellZ_shipped_partial",
    "Verif.Props.closedShell_shipped_partial",
    "Verif.Props.gga_xc_th3_not_closedShellZ",
    "Verif.Props.mgga_x_task_not_closedShellZ"
   ],
   "note": "closedShell_settled goes through the whole table (thresholds with zeta_threshold < 1). For the 15 formulas in closedShellRounded the exact claim (without moving literals) is neither proved nor refuted. closedShell_shipped_partial covers any zeta_threshold, for fewer formulas."
  },
  {
   "property": "C22",
   "status": "proved",
   "theorems": [
    "Verif.Props.spinFlipZ_shipped",
    "Verif.Props.spinFlip_shipped_partial",
    "Verif.Props.lda_xc_ksdt_not_spinFlip",
    "Verif.Props.gga_x_lb_not_spinFlipZ",
    "Verif.Props.mgga_x_2d_prp10_not_spinFlip"
   ],
   "note": "Decided for every shipped formula: proved for all except 15, and refuted for these 15."
  },
  {
   "property": "C23",
   "status": "proved",
   "theorems": [
    "Verif.Props.c23_closedShell",
    "Verif.Props.c23_shipped"
   ],
   "note": "Any mixture tree whose formulas are closed-shell consistent (c23_closedShell); c23_shipped discharges that premise with C21 for the shipped formulas for which C21 is proved. Formulas outside the C21 list are not covered."
  },
  {
   "property": "C24",
   "status": "proved",
   "theorems": [
    "Verif.Props.c24_spinFlip",
    "Verif.Props.c24_shipped"
   ],
   "note": "As C23, with C22's list of shipped formulas."
  },
  {
   "property": "C25",
   "status": "proved",
   "theorems": [
    "Verif.Props.c25_rigid_motion",
    "Verif.Props.c25_rigid_motion_no_orbitals"
   ],
   "note": "Every linear isometry (rotation or reflection) followed by a translation, any dimension."
  },
  {
   "property": "C26",
   "status": "proved",
   "theorems": [
    "Verif.Props.c26_semilocal",
    "Verif.Props.c26_semilocal_no_orbitals"
   ],
   "note": "Germs of density and orbitals at r determine the value."
  },
  {
   "property": "C27",
   "status": "proved",
   "theorems": [
    "Verif.Props.c27_unique",
    "Verif.Props.c27_cpp",
    "Verif.Props.c27_cpp_error",
    "Verif.Props.c27_maple",
    "Verif.Props.c27_py",
    "Verif.Props.c27_agree",
    "Verif.Props.c27_hyb"
   ],
   "note": ""
  },
  {
   "property": "C28",
   "status": "proved",
   "theorems": [
    "Verif.Props.c28_keeps",
    "Verif.Props.c28_succeeds",
    "Verif.Props.c28_clash",
    "Verif.Props.c28_keywords",
    "Verif.Props.c28_raises"
   ],
   "note": "For dicts that do not have both lambda and lambda_ at one level; c28_clash shows what happens otherwise."
  },
  {
   "property": "C29",
   "status": "proved",
   "theorems": [
    "Verif.Props.c29_record",
    "Verif.Props.c29_thresholds",
    "Verif.Props.c29_getP"
   ],
   "note": "libxc's own functions are parameters; c29_getP assumes that xc_func_init returns the functional of the requested name and spin (LibOK)."
  },
  {
   "property": "C30",
   "status": "proved",
   "theorems": [
    "Verif.Props.c30_formula",
    "Verif.Props.c30_components_not_deorbitalized",
    "Verif.Props.c30_raises"
   ],
   "note": ""
  },
  {
   "property": "C31",
   "status": "proved",
   "theorems": [
    "Verif.Props.c31_fields",
    "Verif.Props.c31_exposes",
    "Verif.Props.c31_file",
    "Verif.Props.c31_linebreak",
    "Verif.Props.c31_unclosed"
   ],
   "note": "All declaration lists of the grammar in Spec/Wrap (comments, const, several declarators, dimensions), through the regular expressions of wrap.py up to the whole file. c31_linebreak: outside the grammar, a line break between declarators corrupts a name."
  },
  {
   "property": "C32",
   "status": "proved",
   "theorems": [
    "Verif.Props.c32_numeral",
    "Verif.Props.c32_line",
    "Verif.Props.c32_pi",
    "Verif.Props.c32_pi_wrong",
    "Verif.Props.c32_leading_zero",
    "Verif.Props.c32_integer"
   ],
   "note": "Every literal 0.d1..dn e[-]k in any context; the one literal replaced by jnp.pi differs from pi by less than 4e-20 (c32_pi). Counterexamples for literals outside Maple's format."
  },
  {
   "property": "C33",
   "status": "proved",
   "theorems": [
    "Verif.Props.c33_unchanged",
    "Verif.Props.c33_names",
    "Verif.Props.c33_lambda",
    "Verif.Props.c33_index",
    "Verif.Props.c33_word",
    "Verif.Props.c33_epsilon"
   ],
   "note": "All lines without triggers, all lines whose only triggers are the _a_ of member access and the indices _digits_, all lines whose only trigger is one of the ten words that are replaced; counterexample for a member called lambda_x."
  },
  {
   "property": "C34",
   "status": "proved",
   "theorems": [
    "Verif.Props.c34_var",
    "Verif.Props.c34_group",
    "Verif.Props.c34_value",
    "Verif.Props.c34_wrong",
    "Verif.Props.c34_two_names",
    "Verif.Props.c34_call_wrong",
    "Verif.Props.c34_argument_wrong"
   ],
   "note": "Every line with one exponent after a name or a balanced group; counterexamples for two groups, a call, and a power as an argument."
  },
  {
   "property": "C35",
   "status": "proved",
   "theorems": [
    "Verif.Props.closed_shipped"
   ],
   "note": "all 261 formulas, both bodies; 12 raise NameError on every input"
  },
  {
   "property": "C36",
   "status": "proved",
   "theorems": [
    "Verif.Props.exchange_ignoresCross_shipped",
    "Verif.Props.ignoresLapl_shipped"
   ],
   "note": "LDA formulas are called without a gradient; that they do not read it is part of closed_shipped"
  },
  {
   "property": "C37",
   "status": "proved",
   "theorems": [
    "Verif.Props.spinScaling_settled",
    "Verif.Props.spinScaling_shipped_partial"
   ],
   "note": "spinScaling_settled goes through all exchange and kinetic formulas: exact, or up to the rounding of literals for 8 formulas (spinScalingRounded), or refuted (spinScalingFails)."
  },
  {
   "property": "C38",
   "status": "proved",
   "theorems": [
    "Verif.Props.scaling3_shipped",
    "Verif.Props.scalingKin_shipped",
    "Verif.Props.scaling2_shipped"
   ],
   "note": "84 exchange formulas in three dimensions, 8 in two dimensions, and 29 kinetic formulas (factor l^2)."
  },
  {
   "property": "C39",
   "status": "proved",
   "theorems": [
    "Verif.Props.lda_x_is",
    "Verif.Props.lda_x_screened",
    "Verif.Props.lda_x_nonpos",
    "Verif.Props.lda_x_decreasing",
    "Verif.Props.lda_x_pol_is"
   ],
   "note": "The closed form also for the polarized code (lda_x_pol_is). Decreasing in the weak sense across the threshold, strictly above it for alpha > 0."
  },
  {
   "property": "C40",
   "status": "proved",
   "theorems": [
    "Verif.Props.gga_x_pbe_is",
    "Verif.Props.gga_x_pbe_uniform",
    "Verif.Props.gga_x_pbe_bounds",
    "Verif.Props.gga_x_pbe_pol_bounds"
   ],
   "note": ""
  },
  {
   "property": "C41",
   "status": "proved",
   "theorems": [
    "Verif.Props.c41_lax_cond",
    "Verif.Props.c41_conversion_needed",
    "Verif.Props.c41_int_array",
    "Verif.Props.c41_eval",
    "Verif.Props.c41_heaviside",
    "Verif.Props.c41_cbrt",
    "Verif.Props.c41_erfcx",
    "Verif.Props.c41_erfcx_zero",
    "Verif.Props.c41_e1_scaled",
    "Verif.Props.c41_e1_bounds",
    "Verif.Props.c41_scaled_eval"
   ],
   "note": "JAX's erfc and exp1 are taken as their mathematical definitions (integrals) for the statements about the scaled functions."
  },
  {
   "property": "C42",
   "status": "proved",
   "theorems": [
    "Verif.Props.screenedBoth_settled",
    "Verif.Props.screenedOne_settled",
    "Verif.Props.screenedRest_settled"
   ],
   "note": "Each goes through all exchange and kinetic formulas; the lists screened...Fails are exactly the formulas of which the claim is false. screenedRest is up to the rounding of literals for 8 formulas."
  },
  {
   "property": "C43",
   "status": "proved",
   "theorems": [
    "Verif.Props.c43_covers",
    "Verif.Props.c43_only",
    "Verif.Props.c43_unique",
    "Verif.Props.c43_clash",
    "Verif.Props.c43_dot",
    "Verif.Props.c43_wrapped",
    "Verif.Props.c43_skipped"
   ],
   "note": "All directory listings, both modes; file names without a dot in the stem. Counterexamples: a dotted stem, a stem ending in _maple."
  },
  {
   "property": "C44",
   "status": "proved",
   "theorems": [
    "Verif.Props.ignoresTau_shipped"
   ],
   "note": "the list tauFree"
  },
  {
   "property": "C45",
   "status": "proved",
   "theorems": [
    "Verif.Props.c45_inits",
    "Verif.Props.c45_struct",
    "Verif.Props.c45_wrong",
    "Verif.Props.c45_struct_wrong",
    "Verif.Props.c45_twice",
    "Verif.Props.c45_once"
   ],
   "note": "Positive theorems for files of the stated form, counterexamples for the general claim."
  },
  {
   "property": "C46",
   "status": "proved",
   "theorems": [
    "Verif.Props.c46_registers",
    "Verif.Props.c46_none",
    "Verif.Props.c46_two",
    "Verif.Props.c46_index"
   ],
   "note": ""
  },
  {
   "property": "C47",
   "status": "proved",
   "theorems": [
    "Verif.Props.lda_x_is",
    "Verif.Props.lda_x_2d_is",
    "Verif.Props.lda_k_tf_is",
    "Verif.Props.lda_c_wigner_is",
    "Verif.Props.lda_c_rpa_is",
    "Verif.Props.lda_c_pz_is",
    "Verif.Props.lda_c_pw_is",
    "Verif.Props.lda_c_hl_is",
    "Verif.Props.lda_c_chachiyo_is",
    "Verif.Props.gga_x_pbe_is",
    "Verif.Props.gga_x_rpbe_is",
    "Verif.Props.gga_x_b86_is",
    "Verif.Props.gga_x_b88_is",
    "Verif.Props.gga_x_g96_is",
    "Verif.Props.gga_x_optx_is",
    "Verif.Props.gga_x_pw86_is",
    "Verif.Props.gga_x_ev93_is",
    "Verif.Props.gga_k_tflw_is"
   ],
   "note": "The published expressions are in Verif/Spec/Literature.lean."
  },
  {
   "property": "C48",
   "status": "proved",
   "theorems": [
    "Verif.Props.gga_x_rpbe_bounds",
    "Verif.Props.gga_x_b88_le",
    "Verif.Props.lda_c_wigner_neg",
    "Verif.Props.lda_c_pw_neg",
    "Verif.Props.lda_c_chachiyo_neg",
    "Verif.Props.gga_k_tflw_ge"
   ],
   "note": ""
  },
  {
   "property": "C49",
   "status": "partial",
   "theorems": [
    "Verif.Props.c49_unpol_partial",
    "Verif.Props.c49_pol_partial",
    "Verif.Props.definedUnpol_length",
    "Verif.Props.definedPol_length",
    "Verif.Props.sampleRec_ok",
    "Verif.Props.scanRec_ok",
    "Verif.Props.gga_x_chachiyo_needs"
   ],
   "note": "216 unpolarized and 206 polarized bodies of the 249 formulas that run (Verif/Props/Domains.lean lists them with their assumptions; one theorem X_definedUnpol / X_definedPol each). Refuted for mgga_c_revscan, mgga_x_mvsb, mgga_x_rlda, mgga_xc_cc06, mgga_x_regtm, gga_x_sg4, mgga_k_rda, gga_k_meyer (unpolarized), mgga_x_jk (unpolarized), see C60. For the others the analysis does not decide. The strict semantics is Verif/Spec/Strict.lean."
  },
  {
   "property": "C50",
   "status": "proved",
   "theorems": [
    "Verif.Props.c50_flat_unpol",
    "Verif.Props.c50_flat_pol",
    "Verif.Props.c50_rest_unpol",
    "Verif.Props.c50_rest_pol",
    "Verif.Props.nrun_strict",
    "Verif.Props.strict_of_nan"
   ],
   "note": "The lists are nanFlatUnpol, nanFlatPol, nanRestUnpol, nanRestPol in Verif/Props/Domains.lean. Exact arithmetic with infinities and nan (Verif/Spec/Strict.lean)."
  },
  {
   "property": "C51",
   "status": "partial",
   "theorems": [
    "Verif.Props.c51_defined_partial",
    "Verif.Props.c51_nan",
    "Verif.Props.definedOneSpin_length",
    "Verif.Props.nanOneSpin_length"
   ],
   "note": "169 formulas are defined, 35 give nan. Undecided for the other 45 that run."
  },
  {
   "property": "C52",
   "status": "partial",
   "theorems": [
    "Verif.Props.c52_unpol",
    "Verif.Props.c52_pol",
    "Verif.Props.c52_smooth_unpol",
    "Verif.Props.c52_smooth_pol",
    "Verif.Props.c52_smooth_mix",
    "Verif.Props.c52_vacuum",
    "Verif.Props.c52_jump",
    "Verif.Props.c52_shipped_unpol_partial",
    "Verif.Props.c52_shipped_pol_partial",
    "Verif.Props.regularUnpol_ok",
    "Verif.Props.regularPol_ok"
   ],
   "note": "The general statements are proved. Regularity off ties is settled for 213 unpolarized and 196 polarized of the 249 formulas that run; nothing is claimed of the others. Special functions (erf, Bessel, Lambert W) are assumed smooth where they are in reality (SmoothPrims)."
  },
  {
   "property": "C53",
   "status": "proved",
   "theorems": [
    "Verif.Props.c53_uniform_unpol",
    "Verif.Props.c53_uniform_pol",
    "Verif.Props.c53_energy",
    "Verif.Props.c53_spin"
   ],
   "note": "The relations of the formulas used as hypotheses (UniformScaling, UniformScalingUnpol, SpinScaling) are proved for the formulas in the lists of C38 (scaling3_shipped, scalingKin_shipped, scaling2_shipped and the spin scaling theorems); the functional must be a single formula, not a mixture."
  },
  {
   "property": "C54",
   "status": "proved",
   "theorems": [
    "Verif.Props.c54_lda",
    "Verif.Props.c54_gga",
    "Verif.Props.c54_gga_pol",
    "Verif.Props.c54_pbe_stationary",
    "Verif.Props.c54_pbe_bounds",
    "Verif.Props.c54_pbe_energy",
    "Verif.Props.c54_mixture"
   ],
   "note": "The published expressions are those of C47; the spin-polarized case is for exchange formulas with exact spin scaling (C37)."
  },
  {
   "property": "C55",
   "status": "proved",
   "theorems": [
    "Verif.Props.c55_pol",
    "Verif.Props.c55_unpol",
    "Verif.Props.c55_defs",
    "Verif.Props.c55_indented"
   ],
   "note": "The hypothesis is about the files, not about the rewritten text: it is proved that the sixteen rewriting rules keep lines and their beginnings. c55_indented is the counterexample."
  },
  {
   "property": "C56",
   "status": "proved",
   "theorems": [
    "Verif.Props.c56_find",
    "Verif.Props.c56_none",
    "Verif.Props.c56_link",
    "Verif.Props.c56_plain",
    "Verif.Props.c56_info",
    "Verif.Props.c56_params",
    "Verif.Props.c56_params_lost",
    "Verif.Props.c56_params_none",
    "Verif.Props.c56_brace",
    "Verif.Props.c56_backslash",
    "Verif.Props.c56_params_shifted"
   ],
   "note": "c56_brace, c56_backslash and c56_params_shifted are the counterexamples."
  },
  {
   "property": "C57",
   "status": "proved",
   "theorems": [
    "Verif.Props.c57_closed",
    "Verif.Props.c57_closed_gga",
    "Verif.Props.c57_closed_lda",
    "Verif.Props.c57_flip",
    "Verif.Props.c57_flip_gga",
    "Verif.Props.c57_scaling",
    "Verif.Props.c57_radius",
    "Verif.Props.c57_density",
    "Verif.Props.c57_lda_x",
    "Verif.Props.c57_density_gga",
    "Verif.Props.c57_scaling_gga"
   ],
   "note": "libxc's Maple files are not part of the repository: f and r_ws are arbitrary. c57_lda_x is about the shipped code."
  },
  {
   "property": "C58",
   "status": "proved",
   "theorems": [
    "Verif.Props.c58_exchange",
    "Verif.Props.c58_exchange_pol",
    "Verif.Props.c58_gga",
    "Verif.Props.c58_kinetic",
    "Verif.Props.c58_lda",
    "Verif.Props.c58_meta",
    "Verif.Props.gga_c_chachiyo_is_spin",
    "Verif.Props.gga_c_lyp_is_spin",
    "Verif.Props.gga_c_p86_is_spin",
    "Verif.Props.gga_c_pbe_is_spin",
    "Verif.Props.gga_c_wi_is_spin",
    "Verif.Props.gga_c_wl_is_spin",
    "Verif.Props.gga_k_apbe_is",
    "Verif.Props.gga_k_apbeint_is",
    "Verif.Props.gga_k_dk_is",
    "Verif.Props.gga_k_lc94_is",
    "Verif.Props.gga_k_llp_is",
    "Verif.Props.gga_k_mpbe_is",
    "Verif.Props.gga_k_pearson_is",
    "Verif.Props.gga_k_pg_is",
    "Verif.Props.gga_k_rational_p_is",
    "Verif.Props.gga_k_thakkar_is",
    "Verif.Props.gga_x_ak13_is",
    "Verif.Props.gga_x_cap_is",
    "Verif.Props.gga_x_chachiyo_is",
    "Verif.Props.gga_x_dk87_is",
    "Verif.Props.gga_x_lspbe_is",
    "Verif.Props.gga_x_lsrpbe_is",
    "Verif.Props.gga_x_mpbe_is",
    "Verif.Props.gga_x_ncap_is",
    "Verif.Props.gga_x_pbeint_is",
    "Verif.Props.gga_x_pw91_is",
    "Verif.Props.gga_x_s12_is",
    "Verif.Props.gga_x_ssb_sw_is",
    "Verif.Props.gga_x_vmt84_is",
    "Verif.Props.gga_x_vmt_is",
    "Verif.Props.lda_c_chachiyo_is_spin",
    "Verif.Props.lda_c_gombas_is_spin",
    "Verif.Props.lda_c_hl_is_spin",
    "Verif.Props.lda_c_pw_is_spin",
    "Verif.Props.lda_c_pz_is_spin",
    "Verif.Props.lda_c_rc04_is_spin",
    "Verif.Props.lda_c_vwn_is_spin",
    "Verif.Props.lda_c_wigner_is_spin",
    "Verif.Props.lda_xc_teter93_is_spin",
    "Verif.Props.mgga_x_lta_is",
    "Verif.Props.mgga_x_ms_is",
    "Verif.Props.mgga_x_mvs_is",
    "Verif.Props.mgga_x_scan_is",
    "Verif.Props.mgga_x_tau_hcth_is",
    "Verif.Props.mgga_x_th_is",
    "Verif.Props.mgga_x_tpss_is",
    "Verif.Props.totalGrad_eq",
    "Verif.Props.spinInterpolation_ends",
    "Verif.Props.scanSwitch_ends",
    "Verif.Props.factors_zero"
   ],
   "note": "`\u2026_is` / `\u2026_is_spin`: the shipped file equals the published formula of Spec/Published; c58_\u2026: the same through the wrapper. For gga_c_pbe, lda_c_vwn the derived constants (1/(2A), VWN's Q and prefactors, f''(0)) are printed decimals, proved correct to 19 digits; for mgga_x_scan the switch function is within 2.3e-16. SCAN is stated without the absolute value of b4 (positive for the published k1). Only for the functionals listed; 46 of 261 formulas."
  },
  {
   "property": "C59",
   "status": "proved",
   "theorems": [
    "Verif.Props.c59_pbe",
    "Verif.Props.c59_scan",
    "Verif.Props.c59_tpss",
    "Verif.Props.gga_c_pbe_bounds",
    "Verif.Props.gga_c_pbe_rapid",
    "Verif.Props.pbeH_bounds",
    "Verif.Props.pbeH_limit",
    "Verif.Props.mgga_x_scan_bounds",
    "Verif.Props.mgga_x_tpss_bounds",
    "Verif.Props.gga_k_bounds",
    "Verif.Props.lda_c_chachiyo_spin_neg",
    "Verif.Props.lda_c_wigner_spin_neg",
    "Verif.Props.pw92_neg_of_digits"
   ],
   "note": "c59_\u2026: through the wrapper. Parameter ranges: SCAN 0<k1<=0.1, 0<c1, 0<=c2, 0<=d<=5; TPSS kappa>0, c>=0, e>=0.1, e*mu>=0.01; PBE beta, gamma>0, BB>=0 (limit: BB>0). The bounds of SCAN use |grad n|^2 <= 8 n tau, proved for densities made of orbitals (C09)."
  },
  {
   "property": "C60",
   "status": "proved",
   "theorems": [
    "Verif.Props.mgga_c_revscan_undefined",
    "Verif.Props.mgga_c_revscan_undefined_pol",
    "Verif.Props.revscan_published",
    "Verif.Props.revscan_reached",
    "Verif.Props.mgga_x_mvsb_undefined",
    "Verif.Props.mgga_x_mvsb_undefined_pol",
    "Verif.Props.gga_k_meyer_undefined",
    "Verif.Props.mgga_x_jk_undefined",
    "Verif.Props.mgga_x_rlda_undefined",
    "Verif.Props.mgga_x_rlda_undefined_pol",
    "Verif.Props.mgga_xc_cc06_undefined",
    "Verif.Props.mgga_xc_cc06_undefined_pol",
    "Verif.Props.gga_x_sg4_undefined",
    "Verif.Props.gga_x_sg4_undefined_pol",
    "Verif.Props.sg4_reached",
    "Verif.Props.mgga_k_rda_undefined",
    "Verif.Props.rda_reached",
    "Verif.Props.mgga_x_regtm_undefined",
    "Verif.Props.mgga_x_regtm_undefined_pol"
   ],
   "note": "Strict semantics (Spec/Strict): none means that an operation that contributes to the result is outside its domain. revscan_reached: the region contains all large gradients at every density. revscan_published: with the missing reciprocal the argument of the logarithm is at least 1."
  },
  {
   "property": "C61",
   "status": "proved",
   "theorems": [
    "Verif.Props.c61_unpol",
    "Verif.Props.c61_pol",
    "Verif.Props.c61_unpolBox",
    "Verif.Props.c61_polBox",
    "Verif.Props.wigner_run",
    "Verif.Props.wigner_case"
   ],
   "note": "The lists accurateUnpol, accuratePol, accurateUnpolBox, accuratePolBox name the formulas and the constants. Overflow and underflow are excluded by the relation FloatRun. Comparisons are assumed to come out as in exact arithmetic."
  },
  {
   "property": "C62",
   "status": "proved",
   "theorems": [
    "Verif.Props.c62_fullSpinScaling",
    "Verif.Props.c62_oneSpin",
    "Verif.Props.keptFactor_bounds",
    "Verif.Props.c62_case"
   ],
   "note": "The list fullScaled names the formulas, the way of keeping zeta and the power. c62_case is an instance with zeta replaced."
  },
  {
   "property": "C63",
   "status": "proved",
   "theorems": [
    "Verif.Props.untiedUnpol_ok",
    "Verif.Props.untiedPol_ok",
    "Verif.Props.c63_smooth_unpol",
    "Verif.Props.c63_smooth_pol",
    "Verif.Props.c63_smooth_everywhere",
    "Verif.Props.c63_smooth_everywhere_pol",
    "Verif.Props.lda_x_tied"
   ],
   "note": "163 unpolarized and 151 polarized bodies, named in the lists untiedUnpol and untiedPol. The special functions are assumed smooth (SmoothPrims). lda_x_tied: the exception at rho = 2 dens_threshold is needed."
  },
  {
   "property": "C64",
   "status": "proved",
   "theorems": [
    "Verif.Props.c64_e1Scaled_double",
    "Verif.Props.c64_e1Scaled_single",
    "Verif.Props.c64_erfcx_double",
    "Verif.Props.c64_erfcx_single",
    "Verif.Props.c64_in_range",
    "Verif.Props.c64_hse",
    "Verif.Props.c64_hse_single",
    "Verif.Props.c64_ft97"
   ],
   "note": "All arithmetic is exact except that the two factors are brought into a format with overflow and underflow (Spec/Overflow). exp1 and erfc are assumed to be the exponential integral and the complementary error function. The unpolarized files only; the polarized ones are not treated."
  },
  {
   "property": "C65",
   "status": "proved",
   "theorems": [
    "Verif.Props.c65_gto",
    "Verif.Props.c65_orthogonal",
    "Verif.Props.c65_raises"
   ],
   "note": "Exact arithmetic; negative powers (which numpy takes from the end of the table) are not modelled."
  },
  {
   "property": "C66",
   "status": "proved",
   "theorems": [
    "Verif.Props.c66_points",
    "Verif.Props.c66_blind",
    "Verif.Props.c66_wrong",
    "Verif.Props.c66_grad"
   ],
   "note": "Exact arithmetic. That libxc's thresholds are below the stated bounds is not proved (libxc is not in the repository). SameInTest lets gradients and kinetic energies be arbitrary."
  }
 ]
}
