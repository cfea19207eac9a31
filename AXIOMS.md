# Axioms

Output of `#print axioms` for every theorem named in `MANIFEST.json`, grouped by the axioms used. All of them are axioms of Lean itself.

## Classical.choice, Quot.sound, propext

* `Verif.Props.c01_density_shape`
* `Verif.Props.c01_no_energy`
* `Verif.Props.c02_mismatch`
* `Verif.Props.c02_agree`
* `Verif.Props.c03_needs_orbitals`
* `Verif.Props.c03_ignores_orbitals`
* `Verif.Props.c04_polarized_accepts`
* `Verif.Props.c04_polarized_rejects`
* `Verif.Props.c04_readme_layout`
* `Verif.Props.c04_unpolarized_accepts`
* `Verif.Props.c04_unpolarized_rejects`
* `Verif.Props.c05_lda_unpolarized`
* `Verif.Props.c05_lda_polarized`
* `Verif.Props.c05_gga_unpolarized`
* `Verif.Props.c05_gga_polarized`
* `Verif.Props.c05_mgga_unpolarized`
* `Verif.Props.c05_mgga_polarized`
* `Verif.Props.c05_deorbitalize_unpolarized`
* `Verif.Props.c05_deorbitalize_polarized`
* `Verif.Props.c05_deorbitalize_ignored`
* `Verif.Props.c05_deorbitalize_errors`
* `Verif.Props.c06_nonneg`
* `Verif.Props.c06_cauchy_schwarz`
* `Verif.Props.c06_total`
* `Verif.Props.c06_total_nonneg`
* `Verif.Props.c07_coordinates`
* `Verif.Props.c08_nonneg`
* `Verif.Props.c08_additive`
* `Verif.Props.c08_single`
* `Verif.Props.c08_unitary`
* `Verif.Props.c09_von_weizsaecker`
* `Verif.Props.c10_above_unpolarized`
* `Verif.Props.c10_above_polarized`
* `Verif.Props.c10_below_unpolarized`
* `Verif.Props.c10_below_polarized`
* `Verif.Props.c11_locally_zero_unpolarized`
* `Verif.Props.c11_locally_zero_polarized`
* `Verif.Props.c11_derivative_unpolarized`
* `Verif.Props.c11_derivative_polarized`
* `Verif.Props.c12_unpolarized_code_only`
* `Verif.Props.c12_polarized_code_only`
* `Verif.Props.c13_linear_combination`
* `Verif.Props.c13_raises`
* `Verif.Props.c13_one_level`
* `Verif.Props.c14_permutation`
* `Verif.Props.c15_length`
* `Verif.Props.c15_passed_partial`
* `Verif.Props.c15_omitted`
* `Verif.Props.c15_zero`
* `Verif.Props.c15_zero_false`
* `Verif.Props.c15_wrapper`
* `Verif.Props.c16_position`
* `Verif.Props.c16_count`
* `Verif.Props.c16_collision`
* `Verif.Props.c16_not_lambda`
* `Verif.Props.c16_plain`
* `Verif.Props.c16_indexed`
* `Verif.Props.c16_lambda`
* `Verif.Props.c17_mixture`
* `Verif.Props.c17_single`
* `Verif.Props.c17_b98`
* `Verif.Props.c18_main_never`
* `Verif.Props.c18_main_typeError`
* `Verif.Props.c18_experimental_unpolarized`
* `Verif.Props.c18_experimental_polarized`
* `Verif.Props.c18_experimental_components`
* `Verif.Props.c18_generator`
* `Verif.Props.c18_generator_raises`
* `Verif.Props.c19_agree`
* `Verif.Props.c20_orbitals`
* `Verif.Props.c20_energy`
* `Verif.Props.c20_float64_energy`
* `Verif.Props.c20_needs_orbitals`
* `Verif.Props.c20_mgga_component`
* `Verif.Props.closedShell_settled`
* `Verif.Props.closedShellZ_shipped_partial`
* `Verif.Props.closedShell_shipped_partial`
* `Verif.Props.gga_xc_th3_not_closedShellZ`
* `Verif.Props.mgga_x_task_not_closedShellZ`
* `Verif.Props.spinFlipZ_shipped`
* `Verif.Props.spinFlip_shipped_partial`
* `Verif.Props.lda_xc_ksdt_not_spinFlip`
* `Verif.Props.gga_x_lb_not_spinFlipZ`
* `Verif.Props.mgga_x_2d_prp10_not_spinFlip`
* `Verif.Props.c23_closedShell`
* `Verif.Props.c23_shipped`
* `Verif.Props.c24_spinFlip`
* `Verif.Props.c24_shipped`
* `Verif.Props.c25_rigid_motion`
* `Verif.Props.c25_rigid_motion_no_orbitals`
* `Verif.Props.c26_semilocal`
* `Verif.Props.c26_semilocal_no_orbitals`
* `Verif.Props.c27_unique`
* `Verif.Props.c27_cpp`
* `Verif.Props.c27_cpp_error`
* `Verif.Props.c27_maple`
* `Verif.Props.c27_py`
* `Verif.Props.c27_agree`
* `Verif.Props.c27_hyb`
* `Verif.Props.c28_keeps`
* `Verif.Props.c28_succeeds`
* `Verif.Props.c28_clash`
* `Verif.Props.c28_keywords`
* `Verif.Props.c28_raises`
* `Verif.Props.c29_record`
* `Verif.Props.c29_thresholds`
* `Verif.Props.c29_getP`
* `Verif.Props.c30_formula`
* `Verif.Props.c30_components_not_deorbitalized`
* `Verif.Props.c30_raises`
* `Verif.Props.c31_fields`
* `Verif.Props.c31_exposes`
* `Verif.Props.c31_file`
* `Verif.Props.c31_linebreak`
* `Verif.Props.c31_unclosed`
* `Verif.Props.c32_numeral`
* `Verif.Props.c32_line`
* `Verif.Props.c32_pi`
* `Verif.Props.c32_pi_wrong`
* `Verif.Props.c32_leading_zero`
* `Verif.Props.c32_integer`
* `Verif.Props.c33_unchanged`
* `Verif.Props.c33_names`
* `Verif.Props.c33_lambda`
* `Verif.Props.c33_index`
* `Verif.Props.c33_word`
* `Verif.Props.c33_epsilon`
* `Verif.Props.c34_var`
* `Verif.Props.c34_group`
* `Verif.Props.c34_value`
* `Verif.Props.c34_wrong`
* `Verif.Props.c34_two_names`
* `Verif.Props.c34_call_wrong`
* `Verif.Props.c34_argument_wrong`
* `Verif.Props.closed_shipped`
* `Verif.Props.exchange_ignoresCross_shipped`
* `Verif.Props.ignoresLapl_shipped`
* `Verif.Props.spinScaling_settled`
* `Verif.Props.spinScaling_shipped_partial`
* `Verif.Props.scaling3_shipped`
* `Verif.Props.scalingKin_shipped`
* `Verif.Props.scaling2_shipped`
* `Verif.Props.lda_x_is`
* `Verif.Props.lda_x_screened`
* `Verif.Props.lda_x_nonpos`
* `Verif.Props.lda_x_decreasing`
* `Verif.Props.lda_x_pol_is`
* `Verif.Props.gga_x_pbe_is`
* `Verif.Props.gga_x_pbe_uniform`
* `Verif.Props.gga_x_pbe_bounds`
* `Verif.Props.gga_x_pbe_pol_bounds`
* `Verif.Props.c41_lax_cond`
* `Verif.Props.c41_conversion_needed`
* `Verif.Props.c41_int_array`
* `Verif.Props.c41_eval`
* `Verif.Props.c41_heaviside`
* `Verif.Props.c41_cbrt`
* `Verif.Props.c41_erfcx`
* `Verif.Props.c41_erfcx_zero`
* `Verif.Props.c41_e1_scaled`
* `Verif.Props.c41_e1_bounds`
* `Verif.Props.c41_scaled_eval`
* `Verif.Props.screenedBoth_settled`
* `Verif.Props.screenedOne_settled`
* `Verif.Props.screenedRest_settled`
* `Verif.Props.c43_covers`
* `Verif.Props.c43_only`
* `Verif.Props.c43_unique`
* `Verif.Props.c43_clash`
* `Verif.Props.c43_dot`
* `Verif.Props.c43_wrapped`
* `Verif.Props.c43_skipped`
* `Verif.Props.ignoresTau_shipped`
* `Verif.Props.c45_inits`
* `Verif.Props.c45_struct`
* `Verif.Props.c45_wrong`
* `Verif.Props.c45_struct_wrong`
* `Verif.Props.c45_twice`
* `Verif.Props.c45_once`
* `Verif.Props.c46_registers`
* `Verif.Props.c46_none`
* `Verif.Props.c46_two`
* `Verif.Props.c46_index`
* `Verif.Props.lda_x_2d_is`
* `Verif.Props.lda_k_tf_is`
* `Verif.Props.lda_c_wigner_is`
* `Verif.Props.lda_c_rpa_is`
* `Verif.Props.lda_c_pz_is`
* `Verif.Props.lda_c_pw_is`
* `Verif.Props.lda_c_hl_is`
* `Verif.Props.lda_c_chachiyo_is`
* `Verif.Props.gga_x_rpbe_is`
* `Verif.Props.gga_x_b86_is`
* `Verif.Props.gga_x_b88_is`
* `Verif.Props.gga_x_g96_is`
* `Verif.Props.gga_x_optx_is`
* `Verif.Props.gga_x_pw86_is`
* `Verif.Props.gga_x_ev93_is`
* `Verif.Props.gga_k_tflw_is`
* `Verif.Props.gga_x_rpbe_bounds`
* `Verif.Props.gga_x_b88_le`
* `Verif.Props.lda_c_wigner_neg`
* `Verif.Props.lda_c_pw_neg`
* `Verif.Props.lda_c_chachiyo_neg`
* `Verif.Props.gga_k_tflw_ge`
* `Verif.Props.c49_unpol_partial`
* `Verif.Props.c49_pol_partial`
* `Verif.Props.definedUnpol_length`
* `Verif.Props.definedPol_length`
* `Verif.Props.sampleRec_ok`
* `Verif.Props.scanRec_ok`
* `Verif.Props.gga_x_chachiyo_needs`
* `Verif.Props.c50_flat_unpol`
* `Verif.Props.c50_flat_pol`
* `Verif.Props.c50_rest_unpol`
* `Verif.Props.c50_rest_pol`
* `Verif.Props.nrun_strict`
* `Verif.Props.strict_of_nan`
* `Verif.Props.c51_defined_partial`
* `Verif.Props.c51_nan`
* `Verif.Props.definedOneSpin_length`
* `Verif.Props.c52_unpol`
* `Verif.Props.c52_pol`
* `Verif.Props.c52_smooth_unpol`
* `Verif.Props.c52_smooth_pol`
* `Verif.Props.c52_smooth_mix`
* `Verif.Props.c52_vacuum`
* `Verif.Props.c52_jump`
* `Verif.Props.c52_shipped_unpol_partial`
* `Verif.Props.c52_shipped_pol_partial`
* `Verif.Props.regularUnpol_ok`
* `Verif.Props.regularPol_ok`
* `Verif.Props.c53_uniform_unpol`
* `Verif.Props.c53_uniform_pol`
* `Verif.Props.c53_energy`
* `Verif.Props.c53_spin`
* `Verif.Props.c54_lda`
* `Verif.Props.c54_gga`
* `Verif.Props.c54_gga_pol`
* `Verif.Props.c54_pbe_stationary`
* `Verif.Props.c54_pbe_bounds`
* `Verif.Props.c54_pbe_energy`
* `Verif.Props.c54_mixture`
* `Verif.Props.c55_pol`
* `Verif.Props.c55_unpol`
* `Verif.Props.c55_defs`
* `Verif.Props.c55_indented`
* `Verif.Props.c56_find`
* `Verif.Props.c56_none`
* `Verif.Props.c56_link`
* `Verif.Props.c56_plain`
* `Verif.Props.c56_info`
* `Verif.Props.c56_params`
* `Verif.Props.c56_params_lost`
* `Verif.Props.c56_params_none`
* `Verif.Props.c56_brace`
* `Verif.Props.c56_backslash`
* `Verif.Props.c56_params_shifted`
* `Verif.Props.c57_closed`
* `Verif.Props.c57_closed_gga`
* `Verif.Props.c57_closed_lda`
* `Verif.Props.c57_flip`
* `Verif.Props.c57_flip_gga`
* `Verif.Props.c57_scaling`
* `Verif.Props.c57_radius`
* `Verif.Props.c57_density`
* `Verif.Props.c57_lda_x`
* `Verif.Props.c57_density_gga`
* `Verif.Props.c57_scaling_gga`
* `Verif.Props.c58_exchange`
* `Verif.Props.c58_exchange_pol`
* `Verif.Props.c58_gga`
* `Verif.Props.c58_kinetic`
* `Verif.Props.c58_lda`
* `Verif.Props.c58_meta`
* `Verif.Props.gga_c_chachiyo_is_spin`
* `Verif.Props.gga_c_lyp_is_spin`
* `Verif.Props.gga_c_p86_is_spin`
* `Verif.Props.gga_c_pbe_is_spin`
* `Verif.Props.gga_c_wi_is_spin`
* `Verif.Props.gga_c_wl_is_spin`
* `Verif.Props.gga_k_apbe_is`
* `Verif.Props.gga_k_apbeint_is`
* `Verif.Props.gga_k_dk_is`
* `Verif.Props.gga_k_lc94_is`
* `Verif.Props.gga_k_llp_is`
* `Verif.Props.gga_k_mpbe_is`
* `Verif.Props.gga_k_pearson_is`
* `Verif.Props.gga_k_pg_is`
* `Verif.Props.gga_k_rational_p_is`
* `Verif.Props.gga_k_thakkar_is`
* `Verif.Props.gga_x_ak13_is`
* `Verif.Props.gga_x_cap_is`
* `Verif.Props.gga_x_chachiyo_is`
* `Verif.Props.gga_x_dk87_is`
* `Verif.Props.gga_x_lspbe_is`
* `Verif.Props.gga_x_lsrpbe_is`
* `Verif.Props.gga_x_mpbe_is`
* `Verif.Props.gga_x_ncap_is`
* `Verif.Props.gga_x_pbeint_is`
* `Verif.Props.gga_x_pw91_is`
* `Verif.Props.gga_x_s12_is`
* `Verif.Props.gga_x_ssb_sw_is`
* `Verif.Props.gga_x_vmt84_is`
* `Verif.Props.gga_x_vmt_is`
* `Verif.Props.lda_c_chachiyo_is_spin`
* `Verif.Props.lda_c_gombas_is_spin`
* `Verif.Props.lda_c_hl_is_spin`
* `Verif.Props.lda_c_pw_is_spin`
* `Verif.Props.lda_c_pz_is_spin`
* `Verif.Props.lda_c_rc04_is_spin`
* `Verif.Props.lda_c_vwn_is_spin`
* `Verif.Props.lda_c_wigner_is_spin`
* `Verif.Props.lda_xc_teter93_is_spin`
* `Verif.Props.mgga_x_lta_is`
* `Verif.Props.mgga_x_ms_is`
* `Verif.Props.mgga_x_mvs_is`
* `Verif.Props.mgga_x_scan_is`
* `Verif.Props.mgga_x_tau_hcth_is`
* `Verif.Props.mgga_x_th_is`
* `Verif.Props.mgga_x_tpss_is`
* `Verif.Props.totalGrad_eq`
* `Verif.Props.spinInterpolation_ends`
* `Verif.Props.scanSwitch_ends`
* `Verif.Props.factors_zero`
* `Verif.Props.c59_pbe`
* `Verif.Props.c59_scan`
* `Verif.Props.c59_tpss`
* `Verif.Props.gga_c_pbe_bounds`
* `Verif.Props.gga_c_pbe_rapid`
* `Verif.Props.pbeH_bounds`
* `Verif.Props.pbeH_limit`
* `Verif.Props.mgga_x_scan_bounds`
* `Verif.Props.mgga_x_tpss_bounds`
* `Verif.Props.gga_k_bounds`
* `Verif.Props.lda_c_chachiyo_spin_neg`
* `Verif.Props.lda_c_wigner_spin_neg`
* `Verif.Props.pw92_neg_of_digits`
* `Verif.Props.mgga_c_revscan_undefined`
* `Verif.Props.mgga_c_revscan_undefined_pol`
* `Verif.Props.revscan_published`
* `Verif.Props.revscan_reached`
* `Verif.Props.mgga_x_mvsb_undefined`
* `Verif.Props.mgga_x_mvsb_undefined_pol`
* `Verif.Props.gga_k_meyer_undefined`
* `Verif.Props.mgga_x_jk_undefined`
* `Verif.Props.mgga_x_rlda_undefined`
* `Verif.Props.mgga_x_rlda_undefined_pol`
* `Verif.Props.mgga_xc_cc06_undefined`
* `Verif.Props.mgga_xc_cc06_undefined_pol`
* `Verif.Props.gga_x_sg4_undefined`
* `Verif.Props.gga_x_sg4_undefined_pol`
* `Verif.Props.sg4_reached`
* `Verif.Props.mgga_k_rda_undefined`
* `Verif.Props.rda_reached`
* `Verif.Props.mgga_x_regtm_undefined`
* `Verif.Props.mgga_x_regtm_undefined_pol`
* `Verif.Props.c61_unpol`
* `Verif.Props.c61_pol`
* `Verif.Props.c61_unpolBox`
* `Verif.Props.c61_polBox`
* `Verif.Props.wigner_run`
* `Verif.Props.wigner_case`
* `Verif.Props.c62_fullSpinScaling`
* `Verif.Props.c62_oneSpin`
* `Verif.Props.keptFactor_bounds`
* `Verif.Props.c62_case`
* `Verif.Props.untiedUnpol_ok`
* `Verif.Props.untiedPol_ok`
* `Verif.Props.c63_smooth_unpol`
* `Verif.Props.c63_smooth_pol`
* `Verif.Props.c63_smooth_everywhere`
* `Verif.Props.c63_smooth_everywhere_pol`
* `Verif.Props.lda_x_tied`
* `Verif.Props.c64_e1Scaled_double`
* `Verif.Props.c64_e1Scaled_single`
* `Verif.Props.c64_erfcx_double`
* `Verif.Props.c64_erfcx_single`
* `Verif.Props.c64_in_range`
* `Verif.Props.c64_hse`
* `Verif.Props.c64_hse_single`
* `Verif.Props.c64_ft97`
* `Verif.Props.c65_gto`
* `Verif.Props.c65_orthogonal`
* `Verif.Props.c65_raises`
* `Verif.Props.c66_points`
* `Verif.Props.c66_blind`
* `Verif.Props.c66_wrong`
* `Verif.Props.c66_grad`

## propext

* `Verif.Props.c20_float32`
* `Verif.Props.c20_float64`
* `Verif.Props.c20_fails`
* `Verif.Props.c20_rejects`

## none

* `Verif.Props.nanOneSpin_length`
