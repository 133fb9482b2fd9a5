{
 "claims": [
  {
   "property": "C01",
   "status": "proved",
   "theorems": [
    "Cryspy.Item.write_number_reads_back",
    "Cryspy.Item.write_value_reads_back",
    "Cryspy.Item.write_undefined_reads_none",
    "Cryspy.Item.write_changes_nothing_else",
    "Cryspy.Item.write_raises_only_on_bad_value"
   ],
   "note": "Item attribute writes."
  },
  {
   "property": "C02",
   "status": "proved",
   "theorems": [
    "Cryspy.Item.bounds_hold_in_every_history",
    "Cryspy.Item.allowed_values_hold_in_every_history",
    "Cryspy.Item.cell_angles_always_in_range",
    "Cryspy.Item.cell_length_can_be_negative"
   ],
   "note": "Holds for every attribute whose bound is declared; fails for cell lengths because of a misspelled key (negation proved)."
  },
  {
   "property": "C03",
   "status": "proved",
   "theorems": [
    "Cryspy.Item.variable_names_exact",
    "Cryspy.Item.variable_listed_iff_flagged",
    "Cryspy.Item.is_variables_iff",
    "Cryspy.Item.fix_variables_spec",
    "Cryspy.Item.refine_all_variables_spec"
   ],
   "note": ""
  },
  {
   "property": "C04",
   "status": "proved",
   "theorems": [
    "Cryspy.Item.item_set_variable_then_get",
    "Cryspy.Container.loop_variable_names_exact",
    "Cryspy.Container.member_set_variable_then_get",
    "Cryspy.Container.data_set_variable_then_get",
    "Cryspy.Container.loop_set_variable_ignored",
    "Cryspy.Container.loop_set_variable_out_of_range",
    "Cryspy.Container.loop_items_filtered",
    "Cryspy.Container.loop_getitem_first"
   ],
   "note": "Round trip fails for a loop whose name has an upper-case letter (negation proved)."
  },
  {
   "property": "C05",
   "status": "proved",
   "theorems": [
    "Cryspy.Item.derived_recomputed_after_write",
    "Cryspy.Item.derived_stale_after_none",
    "Cryspy.Item.derived_readable_iff"
   ],
   "note": "Derived values are stale after writing None (negation proved)."
  },
  {
   "property": "C06",
   "status": "proved",
   "theorems": [
    "Cryspy.Container.add_items_spec",
    "Cryspy.Container.names_unique_in_every_history",
    "Cryspy.Container.assign_under_own_name",
    "Cryspy.Container.assign_under_other_name_breaks",
    "Cryspy.Container.find_case_insensitive"
   ],
   "note": "Assignment under another object's name breaks uniqueness (negation proved)."
  },
  {
   "property": "C07",
   "status": "proved",
   "theorems": [
    "Cryspy.Text.read_decimal",
    "Cryspy.Text.read_integer",
    "Cryspy.Text.read_wide_error",
    "Cryspy.Text.value_error_mark",
    "Cryspy.Text.rounds_fl64",
    "Cryspy.Text.value_error_mark_double",
    "Cryspy.Text.value_error_mark_double_whole",
    "Cryspy.Text.error_near_one_wrong",
    "Cryspy.Text.two_saves_wrong",
    "Cryspy.Text.double_precision_wrong",
    "Cryspy.Text.fixed_round_trip",
    "Cryspy.Text.zero_error_round_trip",
    "Cryspy.Text.undefined_value"
   ],
   "note": "Exact arithmetic in full, double precision with the digits lost bounded; the common logarithm is exact in the model."
  },
  {
   "property": "C08",
   "status": "proved",
   "theorems": [
    "Cryspy.Text.common_string_greatest",
    "Cryspy.Text.common_string_empty",
    "Cryspy.Text.common_string_set",
    "Cryspy.Text.find_prefix_perm",
    "Cryspy.Text.find_prefix_is_prefix",
    "Cryspy.Text.find_prefix_point",
    "Cryspy.Text.find_prefix_name",
    "Cryspy.Text.find_prefix_underscore"
   ],
   "note": ""
  },
  {
   "property": "C09",
   "status": "proved",
   "theorems": [
    "Cryspy.Text.symop_read_write",
    "Cryspy.Text.symop_round_trip",
    "Cryspy.Text.symop_translation_rounded",
    "Cryspy.Text.symop_coefficient_rounded",
    "Cryspy.Text.symop_read_blanks"
   ],
   "note": "For any labels and any number of components; the two _rounded theorems show the denominator bound is needed."
  },
  {
   "property": "C10",
   "status": "proved",
   "theorems": [
    "Cryspy.Symm.grid_image_exact",
    "Cryspy.Symm.grid_action_composes",
    "Cryspy.Symm.grid_action_permutes",
    "Cryspy.Symm.grid_action_not_injective"
   ],
   "note": "Holds when mixed axes have equal grid sizes; the code checks only denominators (negation proved)."
  },
  {
   "property": "C11",
   "status": "proved",
   "theorems": [
    "Cryspy.Symm.asym_unit_spec",
    "Cryspy.Symm.asym_unit_refuses"
   ],
   "note": ""
  },
  {
   "property": "C12",
   "status": "proved",
   "theorems": [
    "Cryspy.Symm.symm_flag_iff_fixes",
    "Cryspy.Symm.multiplicity_counts_images",
    "Cryspy.Symm.multiplicity_mul_stabiliser"
   ],
   "note": ""
  },
  {
   "property": "C13",
   "status": "proved",
   "theorems": [
    "Cryspy.Symm.sum_b_exact",
    "Cryspy.Symm.canonical_unique",
    "Cryspy.Symm.common_denominator_exact",
    "Cryspy.Symm.rational_sum_exact",
    "Cryspy.Symm.sum_elem_symm_b_exact",
    "Cryspy.Symm.sum_elem_symm_b_exact_iff",
    "Cryspy.Symm.sum_elem_symm_b_inexact"
   ],
   "note": "sum_elem_symm_b is inexact for mixed denominators (negation proved)."
  },
  {
   "property": "C14",
   "status": "proved",
   "theorems": [
    "Cryspy.Symm.full_elems_spec"
   ],
   "note": ""
  },
  {
   "property": "C15",
   "status": "proved",
   "theorems": [
    "Cryspy.Symm.full_mag_pairs",
    "Cryspy.Symm.full_mag_is_composition",
    "Cryspy.Symm.full_mag_is_composition_iff",
    "Cryspy.Symm.full_mag_not_composition"
   ],
   "note": "Rotations multiplied in the opposite order to the translation (negation proved)."
  },
  {
   "property": "C16",
   "status": "proved",
   "theorems": [
    "Cryspy.Symm.equivalents_mem",
    "Cryspy.Symm.equivalents_are_classes",
    "Cryspy.Symm.equivalents_same_d"
   ],
   "note": ""
  },
  {
   "property": "C17",
   "status": "proved",
   "theorems": [
    "Cryspy.Constr.beta_invariant",
    "Cryspy.Constr.beta_fixes_invariant",
    "Cryspy.Constr.beta_idempotent",
    "Cryspy.Constr.chi_full_invariant",
    "Cryspy.Constr.chi_full_fixes_invariant",
    "Cryspy.Constr.chi_full_idempotent",
    "Cryspy.Constr.chi_invariant",
    "Cryspy.Constr.chi_fixes_invariant",
    "Cryspy.Constr.chi_idempotent",
    "Cryspy.Constr.position_fixed",
    "Cryspy.Constr.position_fixes_invariant",
    "Cryspy.Constr.position_jumps"
   ],
   "note": "Full for the displacement tensor and both susceptibility averages; for positions the fixing half holds when no component crosses a cell boundary, and position_jumps proves the general claim false (coordinates are reduced modulo one before averaging)."
  },
  {
   "property": "C18",
   "status": "proved",
   "theorems": [
    "Cryspy.Mat.transpose_m_spec",
    "Cryspy.Mat.calc_m1_m2_spec",
    "Cryspy.Mat.calc_m_v_spec",
    "Cryspy.Mat.calc_q_v_spec",
    "Cryspy.Mat.calc_vt_m_v_spec",
    "Cryspy.Mat.calc_vt_q_v_spec",
    "Cryspy.Mat.calc_m_q_mt_spec",
    "Cryspy.Mat.calc_mt_q_m_spec",
    "Cryspy.Mat.calc_mt_m_spec",
    "Cryspy.Mat.calc_q1_q2_q1_spec",
    "Cryspy.Mat.calc_q_sq_spec",
    "Cryspy.Mat.calc_m1_m2_m1t_spec",
    "Cryspy.Mat.calc_det_m_spec",
    "Cryspy.Mat.calc_m_q_inv_m_spec",
    "Cryspy.Mat.calc_m1_m2_inv_m1_spec",
    "Cryspy.Mat.calc_mm_as_m_q_inv_m_spec",
    "Cryspy.Mat.calc_mm_as_m1_m2_inv_m1_spec",
    "Cryspy.Mat.calc_inv_m_spec",
    "Cryspy.Mat.calc_inv_m_tiny",
    "Cryspy.Mat.calc_inv_m_not_inverse",
    "Cryspy.Mat.calc_vector_product_spec",
    "Cryspy.Mat.calc_vector_product_v1_v2_v1_spec",
    "Cryspy.Mat.calc_vv_as_v1_v2_v1_spec",
    "Cryspy.Mat.calc_m_sq_iff",
    "Cryspy.Mat.calc_m_sq_wrong",
    "Cryspy.Mat.d_calc_mt_q_m_m_spec",
    "Cryspy.Mat.d_calc_mt_q_m_q_spec",
    "Cryspy.Mat.d_calc_q_sq_spec",
    "Cryspy.Mat.d_calc_m_sq_true",
    "Cryspy.Mat.d_calc_m_v_m_spec",
    "Cryspy.Mat.d_calc_m_v_v_spec",
    "Cryspy.Mat.d_calc_q_v_v_spec",
    "Cryspy.Mat.d_calc_vt_m_v_m_spec",
    "Cryspy.Mat.d_calc_vt_m_v_v_spec",
    "Cryspy.Mat.d_calc_vt_q_v_v_spec",
    "Cryspy.Mat.d_calc_vv_spec",
    "Cryspy.Mat.d_calc_q_v_q_iff",
    "Cryspy.Mat.d_calc_det_m_iff",
    "Cryspy.Mat.d_calc_m_q_inv_m_q_iff"
   ],
   "note": "Every value formula is proved except calc_m_sq (wrong entry, negation proved); calc_inv_m fails for tiny determinants; the wrong derivative tables are characterised exactly."
  },
  {
   "property": "C19",
   "status": "proved",
   "theorems": [
    "Cryspy.Cell.m_g_is_metric",
    "Cryspy.Cell.reciprocal_metric_inverse",
    "Cryspy.Cell.volume_is_sqrt_det",
    "Cryspy.Cell.reciprocal_volume",
    "Cryspy.Cell.reciprocal_cell_metric",
    "Cryspy.Cell.reciprocal_cell_nonDegenerate",
    "Cryspy.Cell.cell_of_metric",
    "Cryspy.Cell.reciprocal_involution",
    "Cryspy.Cell.norm_metrics"
   ],
   "note": "Over the reals, for every non-degenerate cell."
  },
  {
   "property": "C20",
   "status": "proved",
   "theorems": [
    "Cryspy.Cell.m_m_factors_metric",
    "Cryspy.Cell.m_b_factors_reciprocal_metric",
    "Cryspy.Cell.m_b_dual_m_m",
    "Cryspy.Cell.m_inv_b_spec",
    "Cryspy.Cell.m_inv_m_spec",
    "Cryspy.Cell.m_m_norm_spec",
    "Cryspy.Cell.m_b_norm_spec",
    "Cryspy.Cell.m_inv_m_b_norm_spec",
    "Cryspy.Cell.frame_convention",
    "Cryspy.Cell.q_ccs_spec",
    "Cryspy.Cell.inv_d_is_length",
    "Cryspy.Cell.eq_ccs_unit"
   ],
   "note": ""
  },
  {
   "property": "C21",
   "status": "proved",
   "theorems": [
    "Cryspy.Cell.reciprocal_to_ccs_eq",
    "Cryspy.Cell.ccs_to_reciprocal_eq",
    "Cryspy.Cell.reciprocal_norm_to_ccs_eq",
    "Cryspy.Cell.ccs_to_reciprocal_norm_eq",
    "Cryspy.Cell.direct_to_ccs_eq",
    "Cryspy.Cell.ccs_to_direct_eq",
    "Cryspy.Cell.direct_norm_to_ccs_eq",
    "Cryspy.Cell.ccs_to_direct_norm_eq",
    "Cryspy.Cell.reciprocal_round_trip",
    "Cryspy.Cell.reciprocal_norm_round_trip",
    "Cryspy.Cell.direct_round_trip",
    "Cryspy.Cell.direct_norm_round_trip",
    "Cryspy.Cell.reciprocal_form_value",
    "Cryspy.Cell.direct_form_value"
   ],
   "note": ""
  },
  {
   "property": "C22",
   "status": "proved",
   "theorems": [
    "Cryspy.Cell.d_phi_sq_spec",
    "Cryspy.Cell.d_phi_spec",
    "Cryspy.Cell.d_m_g_spec",
    "Cryspy.Cell.d_m_reciprocal_g_norm_spec",
    "Cryspy.Cell.d_volume_iff",
    "Cryspy.Cell.d_volume_edges",
    "Cryspy.Cell.d_volume_ruc_iff",
    "Cryspy.Cell.d_m_g_norm_iff",
    "Cryspy.Cell.d_m_b_iff",
    "Cryspy.Cell.d_q_ccs_iff",
    "Cryspy.Cell.d_m_m_norm_iff",
    "Cryspy.Cell.d_inv_d_right_angled",
    "Cryspy.Cell.d_sthovl_right_angled",
    "Cryspy.Cell.d_inv_d_wrong",
    "Cryspy.Cell.d_reciprocal_wrong",
    "Cryspy.Cell.d_m_reciprocal_g_wrong",
    "Cryspy.Cell.d_m_inv_b_wrong",
    "Cryspy.Cell.d_m_m_wrong",
    "Cryspy.Cell.d_m_b_norm_wrong",
    "Cryspy.Cell.d_m_inv_m_wrong",
    "Cryspy.Cell.d_m_inv_m_norm_wrong",
    "Cryspy.Cell.d_m_inv_m_b_norm_wrong",
    "Cryspy.Cell.d_m_inv_b_norm_m_wrong"
   ],
   "note": "Every reported table is classified: right for all cells, right exactly for stated cells, or never right (placeholder zeros, sign errors)."
  },
  {
   "property": "C23",
   "status": "proved",
   "theorems": [
    "Cryspy.Cell.matrix_t_rotation",
    "Cryspy.Cell.matrix_t_third_row",
    "Cryspy.Cell.matrix_t_maps_to_z",
    "Cryspy.Cell.matrix_t_origin_quits",
    "Cryspy.Cell.third_row_inexact"
   ],
   "note": "Always a rotation; the third row is the direction exactly except in a narrow range where it is off by at most 1e-5 (negation of the exact claim proved); 000 stops the program."
  },
  {
   "property": "C24",
   "status": "proved",
   "theorems": [
    "Cryspy.Flip.iint_plus_cross_section",
    "Cryspy.Flip.iint_minus_cross_section",
    "Cryspy.Flip.crossSection_nonneg",
    "Cryspy.Flip.iint_nonneg",
    "Cryspy.Flip.iint_swap",
    "Cryspy.Flip.iint_unpolarised",
    "Cryspy.Flip.iint_no_extinction",
    "Cryspy.Flip.iint_extinction_nonneg",
    "Cryspy.Flip.iint_extinction_negative"
   ],
   "note": "Non-negativity and the Blume cross-section are proved for every beam without extinction, and with extinction for an achiral structure factor; iint_extinction_negative proves the general claim with extinction false (the chiral term is not multiplied by the extinction factor)."
  },
  {
   "property": "C25",
   "status": "proved",
   "theorems": [
    "Cryspy.Flip.d_polarisation",
    "Cryspy.Flip.d_nuclear",
    "Cryspy.Flip.d_magnetic",
    "Cryspy.Flip.d_extinction_parameter",
    "Cryspy.Flip.d_no_extinction",
    "Cryspy.Flip.d_no_extinction_magnetic",
    "Cryspy.Flip.d_flip_ratio_spec",
    "Cryspy.Flip.d_flip_ratio2_spec",
    "Cryspy.Flip.d_asymmetry_spec",
    "Cryspy.Flip.d_asymmetry2_spec",
    "Cryspy.Flip.flip_ratio_asymmetry",
    "Cryspy.Flip.merge_reports",
    "Cryspy.Flip.merge_reports_fraction",
    "Cryspy.Flip.merge_reports_none",
    "Cryspy.Flip.ratio_reports"
   ],
   "note": "For any extinction function whose own reported derivative is right at non-negative intensities."
  },
  {
   "property": "C26",
   "status": "proved",
   "theorems": [
    "Cryspy.Ext.primary_range",
    "Cryspy.Ext.primary_nan",
    "Cryspy.Ext.lorentz_range",
    "Cryspy.Ext.gauss_range",
    "Cryspy.Ext.extinction_range",
    "Cryspy.Ext.extinction_zero_intensity",
    "Cryspy.Ext.extinction_zero_radius",
    "Cryspy.Ext.extinction_primary_only",
    "Cryspy.Ext.primary_antitone",
    "Cryspy.Ext.lorentz_antitone",
    "Cryspy.Ext.gauss_antitone",
    "Cryspy.Ext.gauss_not_antitone",
    "Cryspy.Ext.d_primary_spec",
    "Cryspy.Ext.d_lorentz_f_sq_spec",
    "Cryspy.Ext.d_gauss_f_sq_spec",
    "Cryspy.Ext.d_lorentz_radius_wrong",
    "Cryspy.Ext.d_lorentz_mosaicity_wrong",
    "Cryspy.Ext.d_gauss_radius_wrong",
    "Cryspy.Ext.d_gauss_mosaicity_wrong"
   ],
   "note": "Range and monotonicity hold except for the primary factor in backscattering (NaN, primary_nan) and the Gauss factor near cos 2theta = 1 (jump to 1, gauss_not_antitone); derivatives over the intensity are right, those over radius and mosaicity of the secondary models are proved wrong."
  },
  {
   "property": "C27",
   "status": "proved",
   "theorems": [
    "Cryspy.Powder.poPd_eq",
    "Cryspy.Powder.poPd2d_eq",
    "Cryspy.Powder.po_pos",
    "Cryspy.Powder.po_random",
    "Cryspy.Powder.po_axis_scale",
    "Cryspy.Powder.po_pd_friedel",
    "Cryspy.Powder.po_pd2d_friedel",
    "Cryspy.Powder.d_po_pd_spec",
    "Cryspy.Powder.d_po_pd2d_spec",
    "Cryspy.Powder.marchDollase_average",
    "Cryspy.Powder.po_pd_average"
   ],
   "note": "For any cell, hkl and axis; also that the area-detector factor conserves the average intensity, and what the one-detector factor averages to."
  },
  {
   "property": "C28",
   "status": "proved",
   "theorems": [
    "Cryspy.Powder.d_lorentz_factor_neutrons",
    "Cryspy.Powder.d_lorentz_factor_wrong",
    "Cryspy.Powder.lorentz_factor_pos",
    "Cryspy.Powder.d_asymmetry_spec",
    "Cryspy.Powder.asymmetry_odd",
    "Cryspy.Powder.peak_shapes",
    "Cryspy.Powder.peak_areas",
    "Cryspy.Powder.d_gauss_z_iff",
    "Cryspy.Powder.d_peak_spec",
    "Cryspy.Powder.d_lorentz_h_pv_wrong",
    "Cryspy.Powder.h_g_pos",
    "Cryspy.Powder.d_h_g_spec",
    "Cryspy.Powder.d_h_g_clamped_wrong",
    "Cryspy.Powder.d_h_l_spec",
    "Cryspy.Powder.h_pv_spec",
    "Cryspy.Powder.d_h_pv_negated",
    "Cryspy.Powder.eta_spec",
    "Cryspy.Powder.d_eta_spec",
    "Cryspy.Powder.coeff_phi_spec",
    "Cryspy.Powder.profile_pos",
    "Cryspy.Powder.profile_sign",
    "Cryspy.Powder.profile_negative",
    "Cryspy.Powder.profile_2d_reduces",
    "Cryspy.Powder.same_direction",
    "Cryspy.Powder.same_direction'",
    "Cryspy.Powder.ttheta_phi_round_trip",
    "Cryspy.Powder.gamma_nu_round_trip"
   ],
   "note": "Values, areas, widths and angle transforms are proved. Proved wrong: the derivative of the Lorentz factor for k not 0, of the Gaussian over position, of the Lorentzian over width, of the total width (sign), of the clamped Gaussian width; non-negativity fails for large asymmetry."
  },
  {
   "property": "C29",
   "status": "proved",
   "theorems": [
    "Cryspy.Tof.d_of_time_spec",
    "Cryspy.Tof.d_of_time_wrong",
    "Cryspy.Tof.time_of_d",
    "Cryspy.Tof.time_strictMono",
    "Cryspy.Tof.d_range_spec",
    "Cryspy.Tof.d_range_zero",
    "Cryspy.Tof.d_range_disagrees",
    "Cryspy.Tof.time_epithermal_between"
   ],
   "note": "The round trip is exact for dtt2 <= 0; d_of_time_wrong proves that for dtt2 > 0 the code returns the other (negative) root, d_range_zero that dtt2 = 0 gives no range."
  },
  {
   "property": "C30",
   "status": "proved",
   "theorems": [
    "Cryspy.Adp.u_beta_round_trip",
    "Cryspy.Adp.adp_round_trip",
    "Cryspy.Adp.adp_round_trip'",
    "Cryspy.Adp.items_agree",
    "Cryspy.Adp.d_conversions",
    "Cryspy.Adp.power_aniso_spec",
    "Cryspy.Adp.d_powers",
    "Cryspy.Adp.dwf_range",
    "Cryspy.Adp.dwf_friedel",
    "Cryspy.Adp.dwf_compose",
    "Cryspy.Adp.iso_aniso_agree",
    "Cryspy.Adp.write_back_constrained",
    "Cryspy.Adp.write_back_wrong"
   ],
   "note": "Conversions, factor and derivatives in full; writing a refined tensor back uses the unconstrained cell: write_back_wrong proves the loss for a refined tetragonal cell."
  },
  {
   "property": "C31",
   "status": "proved",
   "theorems": [
    "Cryspy.CellConstr.constraint_applied",
    "Cryspy.CellConstr.constraint_keeps",
    "Cryspy.CellConstr.constraint_idempotent",
    "Cryspy.CellConstr.constraint_errors",
    "Cryspy.CellConstr.monoclinic_axis_wrong",
    "Cryspy.CellConstr.dictionary_agrees",
    "Cryspy.CellConstr.dictionary_idempotent"
   ],
   "note": "All Bravais types and settings except monoclinic settings whose unique axis is not b, where the claim is proved false."
  },
  {
   "property": "C32",
   "status": "proved",
   "theorems": [
    "Cryspy.Vib.cubic_sites",
    "Cryspy.Vib.hex_sites",
    "Cryspy.Vib.kind_unique",
    "Cryspy.Vib.two_fold_110_unconstrained",
    "Cryspy.Vib.vibration_idempotent",
    "Cryspy.Vib.vibration_flags",
    "Cryspy.Vib.vibration_multiple"
   ],
   "note": "Every site group of the cubic and hexagonal frames is classified and the constraint decided; 13 of 46 kinds are wrongly constrained (cl_1_atom_site.py:225 compares with the number 22, and kinds the decision tree lacks); rhombohedral sites are covered by the cubic frame."
  },
  {
   "property": "C33",
   "status": "proved",
   "theorems": [
    "Cryspy.Den.den_round_trip",
    "Cryspy.Den.reduced_elem_eq",
    "Cryspy.Den.angles_wrong",
    "Cryspy.Den.shift_wrong",
    "Cryspy.Den.sampleInput_fits",
    "Cryspy.Den.two_columns",
    "Cryspy.Den.one_column",
    "Cryspy.Den.spin_round_trip",
    "Cryspy.Den.centre_lost",
    "Cryspy.Den.columns_disagree"
   ],
   "note": "Character-level model of writer and reader; the round trip is proved for all data that fit the columns except angles (read as degrees: angles_wrong) and denominators of centring translations (shift_wrong). Exact rationals instead of doubles."
  },
  {
   "property": "C34",
   "status": "proved",
   "theorems": [
    "Cryspy.Mem.renormCol_total",
    "Cryspy.Mem.renormCol_idem",
    "Cryspy.Mem.uniformCol_spec",
    "Cryspy.Mem.renormChi_spec",
    "Cryspy.Mem.renormChi_fixed",
    "Cryspy.Mem.renormChi_idem",
    "Cryspy.Mem.renormalize_spec",
    "Cryspy.Mem.flat_fold",
    "Cryspy.Mem.flat_spec",
    "Cryspy.Mem.long_label_wrong",
    "Cryspy.Mem.renormCol_inCell",
    "Cryspy.Mem.renormChi_inBasin",
    "Cryspy.Mem.renormalize_inBasin",
    "Cryspy.Mem.flat_inBasin"
   ],
   "note": "All densities with non-zero sums, exact rationals; atoms whose label has more than ten characters are not normalised (long_label_wrong, the structured array cuts labels)."
  },
  {
   "property": "C35",
   "status": "proved",
   "theorems": [
    "Cryspy.Bkg.interpolate_spec",
    "Cryspy.Bkg.interpolate_empty",
    "Cryspy.Bkg.interpolate_through",
    "Cryspy.Bkg.interpolate_between",
    "Cryspy.Bkg.interpolate_outside",
    "Cryspy.Bkg.interpolate_bounds",
    "Cryspy.Bkg.estimate_bounds",
    "Cryspy.Bkg.estimate_constant",
    "Cryspy.Bkg.estimate_below"
   ],
   "note": "Over any ordered field; numpy.interp is modelled by its documentation for increasing nodes."
  },
  {
   "property": "C36",
   "status": "proved",
   "theorems": [
    "Cryspy.Refine.correlation_reproduces",
    "Cryspy.Refine.correlation_diag",
    "Cryspy.Refine.correlation_fromCorrelation",
    "Cryspy.Refine.correlation_symm",
    "Cryspy.Refine.correlation_le_one",
    "Cryspy.Refine.hessSorted_spec",
    "Cryspy.Refine.hessian_text_round_trip",
    "Cryspy.Refine.hessian_text_error",
    "Cryspy.Refine.small_variance_lost",
    "Cryspy.Refine.empty_raises",
    "Cryspy.Refine.same_label_hides"
   ],
   "note": "Matrix part over the reals, text part at character level over the rationals; distinct labels without blanks. Variances below 5e-11 are lost in the text (small_variance_lost)."
  },
  {
   "property": "C37",
   "status": "proved",
   "theorems": [
    "Cryspy.SG.number_has_system",
    "Cryspy.SG.systems_in_order",
    "Cryspy.SG.codes_of_system",
    "Cryspy.SG.default_is_offered",
    "Cryspy.SG.default_not_offered",
    "Cryspy.SG.axes_spelled",
    "Cryspy.SG.axes_missing",
    "Cryspy.SG.code_handled",
    "Cryspy.SG.unique_axis",
    "Cryspy.SG.choice_of_code"
   ],
   "note": "Default code not offered for 18 trigonal groups (default_not_offered), code 1a-cb not handled (axes_missing); everything else holds."
  },
  {
   "property": "C38",
   "status": "proved",
   "theorems": [
    "Cryspy.SG.centring_is_lattice",
    "Cryspy.SG.centring_unknown",
    "Cryspy.SG.centring_known"
   ],
   "note": ""
  },
  {
   "property": "C39",
   "status": "proved",
   "theorems": [
    "Cryspy.SG.change_meaning",
    "Cryspy.SG.change_comp",
    "Cryspy.SG.change_id",
    "Cryspy.SG.change_undo",
    "Cryspy.SG.settings_orthonormal",
    "Cryspy.SG.change_wrong"
   ],
   "note": "Holds exactly for orthonormal axes, which all settings of the program have; false for other axes (change_id, change_wrong). transform_symop_operation_xyz_by_Qq_xyz transposes the wrong variable and always raises; not modelled."
  },
  {
   "property": "C40",
   "status": "proved",
   "theorems": [
    "Cryspy.SG.auto_none",
    "Cryspy.SG.auto_mem",
    "Cryspy.SG.auto_default",
    "Cryspy.SG.auto_plain"
   ],
   "note": ""
  },
  {
   "property": "C41",
   "status": "proved",
   "theorems": [
    "Cryspy.Refine.hamilton_satisfies",
    "Cryspy.Refine.hamilton_keeps",
    "Cryspy.Refine.hamilton_singular",
    "Cryspy.Refine.hamilton_with_inverse_minimal",
    "Cryspy.Refine.hamilton_not_minimal",
    "Cryspy.Refine.formMatrixQ_row",
    "Cryspy.Refine.formMatrixQ_rows",
    "Cryspy.Refine.formMatrixQ_duplicate",
    "Cryspy.Refine.formMatrixQ_unknown"
   ],
   "note": "Also proved: the step the program takes is not the constrained minimum since it uses the Hessian where Hamilton's formula has its inverse (hamilton_not_minimal)."
  },
  {
   "property": "C42",
   "status": "proved",
   "theorems": [
    "Cryspy.Wyck.solution_exists",
    "Cryspy.Wyck.recognised_is_on",
    "Cryspy.Wyck.valid_is_on",
    "Cryspy.Wyck.recognised_iff_on",
    "Cryspy.Wyck.half_missed",
    "Cryspy.Wyck.getFor_spec",
    "Cryspy.Wyck.getFor_none",
    "Cryspy.Wyck.general_accepts",
    "Cryspy.Wyck.xyzMult_contains",
    "Cryspy.Wyck.special_taken_for_general",
    "Cryspy.Wyck.xyzMult_wrong"
   ],
   "note": "Soundness for every matrix and point; completeness for 183 of the 189 linear parts of wyckoff.dat; for the other six, forms (2x,x,..), the claim is proved false (half_missed, special_taken_for_general)."
  },
  {
   "property": "C43",
   "status": "proved",
   "theorems": [
    "Cryspy.Roots.rootsearch_first",
    "Cryspy.Roots.calc_roots_all_intervals",
    "Cryspy.Roots.calc_roots_default_step",
    "Cryspy.Roots.bisect_bracket",
    "Cryspy.Roots.bisect_none_iff",
    "Cryspy.Roots.bisect_monotone",
    "Cryspy.Roots.bisect_near_root",
    "Cryspy.Roots.calc_roots_near_roots",
    "Cryspy.Roots.calc_roots_finds",
    "Cryspy.Roots.calc_roots_never_returns",
    "Cryspy.Roots.calc_roots_twice",
    "Cryspy.Roots.calc_roots_drops",
    "Cryspy.Roots.hump_none"
   ],
   "note": "The last four are proved failures of the code outside the hypotheses: no return when the right end is a root, a root at a grid point reported twice, the switch drops a sign change, two roots in one cell not seen."
  },
  {
   "property": "C44",
   "status": "proved",
   "theorems": [
    "Cryspy.Symm.p1_refuses",
    "Cryspy.Symm.p1_accepts",
    "Cryspy.Symm.p1_nodup",
    "Cryspy.Symm.p1_points",
    "Cryspy.Symm.p1_density_source",
    "Cryspy.Symm.p1_density",
    "Cryspy.Symm.p1_invariant",
    "Cryspy.Symm.p1_keeps_input"
   ],
   "note": "Centre of symmetry at the origin (the function takes no centre); the grid sizes of axes mixed by a rotation agree."
  },
  {
   "property": "C45",
   "status": "proved",
   "theorems": [
    "Cryspy.Sf.f_nucl_absent",
    "Cryspy.Sf.pr3_allowed",
    "Cryspy.Sf.pr3_forbidden",
    "Cryspy.Sf.f_nucl_centring",
    "Cryspy.Sf.f_nucl_centro",
    "Cryspy.Sf.f_nucl_real",
    "Cryspy.Sf.exSym_absent"
   ],
   "note": ""
  },
  {
   "property": "C46",
   "status": "proved",
   "theorems": [
    "Cryspy.Tof.jorgensen_quantities",
    "Cryspy.Tof.jorgensen_pos",
    "Cryspy.Tof.jorgensen_mirror",
    "Cryspy.Tof.jorgensen_area",
    "Cryspy.Tof.tof_width_mixing",
    "Cryspy.Tof.calc_sigma_sq",
    "Cryspy.Tof.vonDreele_mirror",
    "Cryspy.Tof.vonDreele_gauss",
    "Cryspy.Tof.jorgensen_bounded",
    "Cryspy.Tof.profileL_negative",
    "Cryspy.Tof.vonDreele_unbounded"
   ],
   "note": "Over the reals; the exponential integral is the integral that defines it; the clipping of infinities of doubles is left out."
  },
  {
   "property": "C47",
   "status": "proved",
   "theorems": [
    "Cryspy.Bkg.refined_spec",
    "Cryspy.Bkg.refined_agrees_inside",
    "Cryspy.Bkg.outside_disagrees",
    "Cryspy.Bkg.single_node_raises",
    "Cryspy.Bkg.d_background_wrong",
    "Cryspy.Bkg.area_spec",
    "Cryspy.Bkg.onClamped2_unique",
    "Cryspy.Bkg.area_bounds",
    "Cryspy.Bkg.d_area_wrong",
    "Cryspy.Bkg.d_cosines_spec",
    "Cryspy.Bkg.cosines_agree",
    "Cryspy.Bkg.cosines_disagree"
   ],
   "note": "Agreement holds inside the nodes; outside the refinement extrapolates where the display continues constants (outside_disagrees), one node raises, the derivatives over node intensities are zeros or do not depend on the point (d_background_wrong, d_area_wrong), and the cosine background ignores time_max (cosines_disagree)."
  },
  {
   "property": "C48",
   "status": "proved",
   "theorems": [
    "Cryspy.Bkg.triLinear_grid",
    "Cryspy.Bkg.triLinear_periodic",
    "Cryspy.Bkg.triLinear_between",
    "Cryspy.Bkg.triLinear_exact"
   ],
   "note": ""
  },
  {
   "property": "C49",
   "status": "proved",
   "theorems": [
    "Cryspy.Refine.numericHessian_quadratic",
    "Cryspy.Refine.estimateInverse_quadratic",
    "Cryspy.Refine.numericHessian_symm",
    "Cryspy.Refine.first_derivative_wrong",
    "Cryspy.Refine.errors_too_small"
   ],
   "note": "Exactness and symmetry proved; the last part of the claim is false: the reported errors are too small by sqrt 2 (errors_too_small)."
  },
  {
   "property": "C50",
   "status": "proved",
   "theorems": [
    "Cryspy.Refine.marks_hold",
    "Cryspy.Refine.free_iff",
    "Cryspy.Refine.mark_first_unknown"
   ],
   "note": "For parameters whose names are known to the calculation; otherwise the objective raises (mark_first_unknown)."
  },
  {
   "property": "C51",
   "status": "proved",
   "theorems": [
    "Cryspy.Refine.refine_last",
    "Cryspy.Refine.refine_not_best",
    "Cryspy.Refine.lsq_result",
    "Cryspy.Refine.lsq_stale",
    "Cryspy.Refine.lsq_endless"
   ],
   "note": "Reported chi_sq always belongs to the parameters left in the dictionary; false parts: the refinement leaves the last evaluated point and not the best (refine_not_best), the least-squares loop returns the profile of the rejected step (lsq_stale) and need not stop (lsq_endless)."
  },
  {
   "property": "C52",
   "status": "proved",
   "theorems": [
    "Cryspy.Refine.addExperiment_spec",
    "Cryspy.Refine.sumExperiments_spec",
    "Cryspy.Refine.sumExperiments_perm"
   ],
   "note": ""
  },
  {
   "property": "C53",
   "status": "proved",
   "theorems": [
    "Cryspy.SG.name_number",
    "Cryspy.SG.name_exists",
    "Cryspy.SG.resolve_name",
    "Cryspy.SG.resolve_name_code",
    "Cryspy.SG.resolve_code_valid",
    "Cryspy.SG.resolve_again",
    "Cryspy.SG.resolve_extended",
    "Cryspy.SG.extended_triclinic",
    "Cryspy.SG.fullName_none"
   ],
   "note": "Exceptions proved: P 1 1 1 is the extended name of numbers 1 and 2 and leads to 2 (extended_triclinic); monoclinic groups have no full name (fullName_none)."
  },
  {
   "property": "C54",
   "status": "proved",
   "theorems": [
    "Cryspy.SG.setting_is_group",
    "Cryspy.SG.setting_raises",
    "Cryspy.SG.setting_48_not_group",
    "Cryspy.SG.operations_unique"
   ],
   "note": "Holds for 653 of the 802 offered settings; the exceptions are listed exactly: 144 settings raise (setting_raises), five are no group (setting_48_not_group)."
  },
  {
   "property": "C55",
   "status": "proved",
   "theorems": [
    "Cryspy.Sf.f_nucl_average",
    "Cryspy.Sf.f_nucl_unit_cell",
    "Cryspy.Sf.snap_exact",
    "Cryspy.Sf.snap_thirds",
    "Cryspy.Sf.rounding_wrong",
    "Cryspy.Sf.exSym_cell"
   ],
   "note": "f_nucl_unit_cell takes the orbit of the rounded site; rounding_wrong: an atom whose coordinates need more than six digits can lose its special position, since coordinates are rounded one by one."
  },
  {
   "property": "C56",
   "status": "proved",
   "theorems": [
    "Cryspy.Sf.f_nucl_equivalent",
    "Cryspy.Sf.f_nucl_equivalent_norm",
    "Cryspy.Sf.f_nucl_friedel",
    "Cryspy.Sf.sthovl_equivalent"
   ],
   "note": ""
  },
  {
   "property": "C57",
   "status": "proved",
   "theorems": [
    "Cryspy.Sf.call_empty",
    "Cryspy.Sf.stored_correct",
    "Cryspy.Sf.stored_stale",
    "Cryspy.Sf.occupancy_stale",
    "Cryspy.Sf.oneAtom_f"
   ],
   "note": "Holds when coordinates or displacement parameters are among the refined ones; proved false when only occupancies or the cell are refined (stored_stale, occupancy_stale)."
  },
  {
   "property": "C58",
   "status": "proved",
   "theorems": [
    "Cryspy.Hkl.list_sound",
    "Cryspy.Hkl.list_complete",
    "Cryspy.Hkl.list_sorted",
    "Cryspy.Hkl.list_sum",
    "Cryspy.Hkl.tet_good"
   ],
   "note": "Under 2\u00b7a\u00b7smax < 500 for the three axes (SmallBox): the labels 10^6 h + 10^3 k + l are unique only for indices below 500."
  },
  {
   "property": "C59",
   "status": "proved",
   "theorems": [
    "Cryspy.PowInt.mean_quadratic",
    "Cryspy.PowInt.powderIntensity_eq",
    "Cryspy.PowInt.para2_mean",
    "Cryspy.PowInt.para_mean",
    "Cryspy.PowInt.ordered2_mean",
    "Cryspy.PowInt.ordered_mean",
    "Cryspy.PowInt.mix_mean",
    "Cryspy.PowInt.mix2_plus_mean",
    "Cryspy.PowInt.mix2_minus_off",
    "Cryspy.PowInt.mix2_minus_iff",
    "Cryspy.PowInt.powderIntensity_nonneg",
    "Cryspy.PowInt.mix2_minus_negative"
   ],
   "note": "Proved except for the second intensity of mixed crystals out of the plane, where the code has a wrong sign: mix2_minus_iff says exactly when it is right, mix2_minus_negative gives a negative intensity."
  },
  {
   "property": "C60",
   "status": "proved",
   "theorems": [
    "Cryspy.PowInt.grad_P1",
    "Cryspy.PowInt.grad_P2",
    "Cryspy.PowInt.grad_P3",
    "Cryspy.PowInt.grad_P4",
    "Cryspy.PowInt.grad_P5",
    "Cryspy.PowInt.grad_O1",
    "Cryspy.PowInt.grad_O2",
    "Cryspy.PowInt.grad_M1",
    "Cryspy.PowInt.grad_M2",
    "Cryspy.PowInt.grad_M3",
    "Cryspy.PowInt.grad_M1_imag_iff",
    "Cryspy.PowInt.grad_M2_imag_iff",
    "Cryspy.PowInt.grad_M3_tensor_iff",
    "Cryspy.PowInt.grad_para_plus",
    "Cryspy.PowInt.grad_para_minus",
    "Cryspy.PowInt.grad_ordered",
    "Cryspy.PowInt.grad_mix_plus",
    "Cryspy.PowInt.grad_mix_minus",
    "Cryspy.PowInt.grad_mix_imag_iff",
    "Cryspy.PowInt.grad_para2_plus",
    "Cryspy.PowInt.grad_para2_minus",
    "Cryspy.PowInt.grad_ordered2_plus",
    "Cryspy.PowInt.grad_ordered2_minus",
    "Cryspy.PowInt.grad_ordered2_nucl_iff",
    "Cryspy.PowInt.grad_ordered2_flipper_iff"
   ],
   "note": "All derivatives of the paramagnetic case; for the others the theorems ending in _iff say exactly when a wrong derivative is right. For the two-dimensional mixed case the program returns no derivatives (empty dictionaries)."
  },
  {
   "property": "C61",
   "status": "proved",
   "theorems": [
    "Cryspy.Sft.sft_average",
    "Cryspy.Sft.sft_unit_cell",
    "Cryspy.Sft.sft_symmetric",
    "Cryspy.Sft.sft_equivalent",
    "Cryspy.Sft.sft_centring",
    "Cryspy.Sft.sft_friedel",
    "Cryspy.Sft.sft_deriv",
    "Cryspy.Sft.sft_deriv_iff",
    "Cryspy.Sft.sft_deriv_centro",
    "Cryspy.Sft.exSym_isometries"
   ],
   "note": "Values proved in full. The reported derivative over the susceptibility is (1+i) times the derivative, so that part of the claim is false; stated for proper rotations, or parameters that do not enter the component 23 (for the others d_calc_m_q_inv_m_q is wrong too, C18)."
  },
  {
   "property": "C62",
   "status": "proved",
   "theorems": [
    "Cryspy.FF.ff_spec",
    "Cryspy.FF.ff_forward",
    "Cryspy.FF.ff_spin",
    "Cryspy.FF.ff_kappa",
    "Cryspy.FF.ff_even",
    "Cryspy.FF.j0_bound",
    "Cryspy.FF.grad_j0",
    "Cryspy.FF.grad_j2_iff",
    "Cryspy.FF.grad_ff_spec",
    "Cryspy.FF.grad_lande",
    "Cryspy.FF.grad_j2_wrong"
   ],
   "note": "Values proved; derivatives of <j2> are wrong (grad_j2_iff says exactly when they are right)."
  },
  {
   "property": "C63",
   "status": "proved",
   "theorems": [
    "Cryspy.Cif.saved_is_loaded",
    "Cryspy.Cif.saved_unset",
    "Cryspy.Cif.saved_none",
    "Cryspy.Cif.saved_plain",
    "Cryspy.Cif.saved_string",
    "Cryspy.Cif.saved_fixed",
    "Cryspy.Cif.saved_refined",
    "Cryspy.Cif.dots_become_none",
    "Cryspy.Cif.missing_mandatory_not_loaded",
    "Cryspy.Cif.loop_saved_is_loaded",
    "Cryspy.Cif.loop_attribute_lost",
    "Cryspy.Cif.loop_unset_becomes_none",
    "Cryspy.Cif.empty_loop_loaded_as_one_item",
    "Cryspy.Cif.Row.line_values",
    "Cryspy.Cif.Row.empty_text_lost",
    "Cryspy.Cif.Row.hash_text_lost"
   ],
   "note": "The failures in the statement are theorems. The parser is the package pycifstar, outside the repository: it enters as the list of (name, text) records; the syntax of a loop row is proved against the CIF rules. Refined parameters in exact arithmetic and with the exception of C07."
  },
  {
   "property": "C64",
   "status": "proved",
   "theorems": [
    "Cryspy.Chi.pattern_spec",
    "Cryspy.Chi.pattern_perm",
    "Cryspy.Chi.pattern_linear",
    "Cryspy.Chi.pattern_missing",
    "Cryspy.Chi.untextured_first_raises",
    "Cryspy.Chi.untextured_after_textured_wrong",
    "Cryspy.Chi.untextured_after_textured_raises",
    "Cryspy.Chi.tof_second_textured_raises",
    "Cryspy.Chi.texture_case"
   ],
   "note": "Proved when no phase is textured, when all are (not in time of flight), and for the two-dimensional program always; the other cases fail as the theorems show. Structure factors, positions and profiles per phase are inputs here (their own properties are elsewhere)."
  },
  {
   "property": "C65",
   "status": "proved",
   "theorems": [
    "Cryspy.Chi.chiPowder_spec",
    "Cryspy.Chi.chiPowder_nonneg",
    "Cryspy.Chi.chiPowder_zero_iff",
    "Cryspy.Chi.chiPowder_excluded_irrelevant",
    "Cryspy.Chi.excluded_in_difference",
    "Cryspy.Chi.excluded_zero_error",
    "Cryspy.Chi.included_zero_error"
   ],
   "note": "The part of the difference pattern is not masked by the exclusions: chiPowder_spec gives exactly what is computed, the failures are theorems."
  },
  {
   "property": "C66",
   "status": "proved",
   "theorems": [
    "Cryspy.Chi.chiCrystal_spec",
    "Cryspy.Chi.chiCrystal_excluded",
    "Cryspy.Chi.chiCrystal_perm",
    "Cryspy.Chi.chiCrystal_nonneg",
    "Cryspy.Chi.chiCrystal_zero_iff",
    "Cryspy.Chi.grad_spec",
    "Cryspy.Chi.scale_derivative_wrong",
    "Cryspy.Chi.hess_symm",
    "Cryspy.Chi.hess_nonneg",
    "Cryspy.Chi.grad_excluded_raises",
    "Cryspy.Chi.grad_single_wrong",
    "Cryspy.Chi.asymmetry_error_wrong"
   ],
   "note": "Values in full; derivatives when no reflection is excluded. The intensities and their derivatives enter as given numbers: they are C24, and with the contamination by half the wavelength C25."
  },
  {
   "property": "C67",
   "status": "proved",
   "theorems": [
    "Cryspy.MemIt.reconstruct_spec",
    "Cryspy.MemIt.best_tried",
    "Cryspy.MemIt.best_minimal",
    "Cryspy.MemIt.trial_invariant",
    "Cryspy.MemIt.lam_bounds",
    "Cryspy.MemIt.densities_proper",
    "Cryspy.MemIt.update_fixed",
    "Cryspy.MemIt.update_some",
    "Cryspy.MemIt.nan_accepted",
    "Cryspy.MemIt.nan_handed_over",
    "Cryspy.MemIt.all_clipped",
    "Cryspy.MemIt.flips_of_best",
    "Cryspy.MemIt.flips_wrong"
   ],
   "note": "Everything but the two failures, which are theorems; in exact arithmetic with NaN where a density vanishes, without overflow."
  },
  {
   "property": "C68",
   "status": "proved",
   "theorems": [
    "Cryspy.MemIt.grad_spec",
    "Cryspy.MemIt.grad_extinction_iff"
   ],
   "note": "Proved without extinction; with extinction it fails (grad_extinction_iff)."
  },
  {
   "property": "C69",
   "status": "proved",
   "theorems": [
    "Cryspy.MemSf.f_col_cell",
    "Cryspy.MemSf.f_chi_cell",
    "Cryspy.MemSf.f_chi_program",
    "Cryspy.MemSf.pointSusceptibility_invariant",
    "Cryspy.MemSf.multiplicity_agrees",
    "Cryspy.MemSf.pointOf_val"
   ],
   "note": "For the reflections other than 000 (for which the direction of the scattering vector is undefined); without stored data, as the program calls it."
  },
  {
   "property": "C70",
   "status": "proved",
   "theorems": [
    "Cryspy.Basin.closest_attained",
    "Cryspy.Basin.closest_nearest",
    "Cryspy.Basin.closest_nearest_short",
    "Cryspy.Basin.closest_first",
    "Cryspy.Basin.closest_pair",
    "Cryspy.Basin.closest_translate",
    "Cryspy.Basin.closest_translate_atoms",
    "Cryspy.Basin.closest_symmetric",
    "Cryspy.Basin.closest_total",
    "Cryspy.Basin.basins_spec",
    "Cryspy.Basin.basins_total",
    "Cryspy.Basin.pair_mismatch",
    "Cryspy.Basin.hexagonal_misses"
   ],
   "note": "In oblique cells only for offsets with all fractional components below one half (closest_nearest_short); it is false in general there (hexagonal_misses). The pair of atom and operation fits only when no other atom is as near (closest_pair, pair_mismatch)."
  },
  {
   "property": "C71",
   "status": "proved",
   "theorems": [
    "Cryspy.Range.pd_covers",
    "Cryspy.Range.pd_listed",
    "Cryspy.Range.pd_backscatter_lost",
    "Cryspy.Range.pd2d_covers",
    "Cryspy.Range.pd2d_listed",
    "Cryspy.Range.pd2d_below_lost",
    "Cryspy.Range.pd2d_other_side_lost",
    "Cryspy.Range.pd2d_wide_lost",
    "Cryspy.Range.tof_covers"
   ],
   "note": "Proved on the stated domains; false outside them (the _lost theorems). The pattern with epithermal neutrons is not modelled."
  },
  {
   "property": "C72",
   "status": "proved",
   "theorems": [
    "Cryspy.Regrid.to_tthphi_direction",
    "Cryspy.Regrid.to_gammanu_direction",
    "Cryspy.Regrid.angles_round_trip",
    "Cryspy.Regrid.angles_round_trip'",
    "Cryspy.Regrid.alpha_spec",
    "Cryspy.Regrid.to_gamma_nu_spec",
    "Cryspy.Regrid.to_tth_phi_spec",
    "Cryspy.Regrid.value_node",
    "Cryspy.Regrid.value_between",
    "Cryspy.Regrid.value_linear",
    "Cryspy.Regrid.last_column_lost",
    "Cryspy.Regrid.missing_neighbour",
    "Cryspy.Regrid.uneven_wrong"
   ],
   "note": "For equidistant grids; false for others (uneven_wrong) and on the last row and column (last_column_lost)."
  },
  {
   "property": "C73",
   "status": "proved",
   "theorems": [
    "Cryspy.Orient.notation_turns",
    "Cryspy.Orient.cell_from_ub",
    "Cryspy.Orient.cell_unique",
    "Cryspy.Orient.u_from_ub",
    "Cryspy.Orient.type_names",
    "Cryspy.Orient.e_up_vertical",
    "Cryspy.Orient.e_up_component",
    "Cryspy.Orient.q2_sine",
    "Cryspy.Orient.u_current",
    "Cryspy.Orient.cell_after_read",
    "Cryspy.Orient.cell_stale",
    "Cryspy.Orient.angles_left",
    "Cryspy.Orient.angles_none_iff",
    "Cryspy.Orient.angles_right_iff",
    "Cryspy.Orient.gamma_nu_of_turned"
   ],
   "note": "False with the detector on the right (angles_right_iff), for the notation X-YZ (type_names) and for the cell read after a write (cell_stale). The class method calc_ub is not modelled: it calls a method that does not exist."
  },
  {
   "property": "C74",
   "status": "proved",
   "theorems": [
    "Cryspy.Rot.product_is_product",
    "Cryspy.Rot.mv_eq",
    "Cryspy.Rot.rcrt_eq",
    "Cryspy.Rot.inverse_right",
    "Cryspy.Rot.inverse_zero",
    "Cryspy.Rot.inverse_iff",
    "Cryspy.Rot.mirror_inverse_zero",
    "Cryspy.Rot.euler_is_turns",
    "Cryspy.Rot.euler_rotation",
    "Cryspy.Rot.euler_round_trip",
    "Cryspy.Rot.euler_angles_back",
    "Cryspy.Rot.rot_axis_xz",
    "Cryspy.Rot.rot_axis_y",
    "Cryspy.Rot.vector_angle",
    "Cryspy.Rot.vector_angle_zero",
    "Cryspy.Rot.two_vectors"
   ],
   "note": "The inverse is wrong below the determinant 1e-12 (inverse_iff); real arithmetic."
  },
  {
   "property": "C75",
   "status": "proved",
   "theorems": [
    "Cryspy.ChiAt.refine_agrees",
    "Cryspy.ChiAt.refine_adds",
    "Cryspy.ChiAt.refine_adds_wrong",
    "Cryspy.ChiAt.refine_raises",
    "Cryspy.ChiAt.refine_stored"
   ],
   "note": "Real arithmetic. The minimiser itself is outside the repository; flip ratios from structure factors are C24, C25 and C66."
  },
  {
   "property": "C76",
   "status": "proved",
   "theorems": [
    "Cryspy.Ord.f_m_unit_cell",
    "Cryspy.Ord.f_m_equivalent",
    "Cryspy.Ord.f_m_extinct",
    "Cryspy.Ord.f_m_friedel",
    "Cryspy.Ord.f_perp_spec",
    "Cryspy.Ord.f_perp_perp",
    "Cryspy.Ord.f_perp_equivalent",
    "Cryspy.Ord.intensity_equivalent",
    "Cryspy.Ord.moment_iff",
    "Cryspy.Ord.moment_wrong"
   ],
   "note": "Real arithmetic; stored data of an earlier call are not used; the function returns no derivatives."
  },
  {
   "property": "C77",
   "status": "proved",
   "theorems": [
    "Cryspy.PdStore.history_fresh",
    "Cryspy.PdStore.history_fresh_pd",
    "Cryspy.PdStore.history_fresh_tof",
    "Cryspy.PdStore.moments_ignored",
    "Cryspy.PdStore.moments_wrong",
    "Cryspy.PdStore.wavelength_ignored",
    "Cryspy.PdStore.calibration_ignored",
    "Cryspy.PdStore.texture_stale",
    "Cryspy.PdStore.zero_index_switches_off"
   ],
   "note": "history_fresh has the conditions under which the stored data are right (Safe); the other theorems are the exceptions. Structure factors enter as those of the current parameters: their own stored data are C57."
  },
  {
   "property": "C78",
   "status": "proved",
   "theorems": [
    "Cryspy.Bulk.bulk_average",
    "Cryspy.Bulk.bulk_unit_cell",
    "Cryspy.Bulk.bulk_symmetric",
    "Cryspy.Bulk.bulk_invariant",
    "Cryspy.Bulk.bulk_trace",
    "Cryspy.Bulk.forward",
    "Cryspy.Bulk.errors_zero",
    "Cryspy.Bulk.errors_missed"
   ],
   "note": "calc_bulk_susceptibility with an empty dict_in_out; floats are real numbers; errors_zero and errors_missed prove the known failure."
  },
  {
   "property": "C79",
   "status": "proved",
   "theorems": [
    "Cryspy.Cell.object_agrees",
    "Cryspy.Cell.object_spec",
    "Cryspy.Cell.positions_spec",
    "Cryspy.Cell.reflection_spec",
    "Cryspy.Cell.closest_symm",
    "Cryspy.Cell.closest_zero_iff",
    "Cryspy.Cell.closest_right_angled",
    "Cryspy.Cell.closest_oblique_wrong"
   ],
   "note": "Real arithmetic, cells with linearly independent edges and angles between 0 and 180 degrees."
  },
  {
   "property": "C80",
   "status": "proved",
   "theorems": [
    "Cryspy.Sect.axes_spec",
    "Cryspy.Sect.rows_spec",
    "Cryspy.Sect.labels_spec",
    "Cryspy.Sect.odd_points_wrong",
    "Cryspy.Sect.round5_spec",
    "Cryspy.Sect.atoms_in_cell",
    "Cryspy.Sect.section_atoms",
    "Cryspy.Sect.cube_position",
    "Cryspy.Sect.neighbours_missing"
   ],
   "note": "Real arithmetic; the moment density is an arbitrary function of the point (densities between grid points are C48); formatting of the lines is not modelled."
  },
  {
   "property": "C81",
   "status": "proved",
   "theorems": [
    "Cryspy.Take.refined_written",
    "Cryspy.Take.not_refined_unchanged",
    "Cryspy.Take.stored_spec",
    "Cryspy.Take.lost_iff",
    "Cryspy.Take.lost_keeps",
    "Cryspy.Take.ratio_lambda2_lost",
    "Cryspy.Take.phase_resolution_lost",
    "Cryspy.Take.igsize_of_others_erased",
    "Cryspy.Take.scale_of_others_erased",
    "Cryspy.Take.negative_igsize",
    "Cryspy.Take.sigma_written",
    "Cryspy.Take.sigma_other",
    "Cryspy.Take.no_error_iff",
    "Cryspy.Take.tof_errors_lost"
   ],
   "note": "Real arithmetic; pseudo-Voigt peak shape in time of flight; experiments with an incident spectrum are not modelled (the dictionary of it cannot be formed: undefined name in cl_1_tof_intensity_incident.py)."
  },
  {
   "property": "C82",
   "status": "proved",
   "theorems": [
    "Cryspy.Site.site_symmetry",
    "Cryspy.Site.site_symmetry_exact",
    "Cryspy.Site.site_symmetry_binary",
    "Cryspy.Site.stays_on_site",
    "Cryspy.Site.opposite_lost",
    "Cryspy.Site.double_lost",
    "Cryspy.Site.leaves_site",
    "Cryspy.Site.no_flags",
    "Cryspy.Site.two_parameters",
    "Cryspy.Site.only_difference"
   ],
   "note": "site_symmetry is for any arithmetic, with the products as a hypothesis; double_lost is evaluated in double precision by the kernel. The position used after averaging is in real arithmetic."
  },
  {
   "property": "C83",
   "status": "proved",
   "theorems": [
    "Cryspy.Back.cell_metric",
    "Cryspy.Back.cell_written",
    "Cryspy.Back.cell_unchanged",
    "Cryspy.Back.cell_errors",
    "Cryspy.Back.position_written",
    "Cryspy.Back.position_unchanged",
    "Cryspy.Back.six_decimals_kept",
    "Cryspy.Back.other_changed",
    "Cryspy.Back.occupancy_written"
   ],
   "note": "Real arithmetic; numpy.round is the nearest multiple of the last decimal. Displacement parameters are C30; other_changed is the known failure."
  },
  {
   "property": "C84",
   "status": "proved",
   "theorems": [
    "Cryspy.HklCell.hkl_sound",
    "Cryspy.HklCell.hkl_listed",
    "Cryspy.HklCell.hkl_sorted",
    "Cryspy.HklCell.hkl_distinct",
    "Cryspy.HklCell.hkl_sum",
    "Cryspy.HklCell.in_range_spec",
    "Cryspy.HklCell.equiv_spec",
    "Cryspy.HklCell.equiv_multiplicity_iff",
    "Cryspy.HklCell.equiv_multiplicity_wrong",
    "Cryspy.HklCell.long_cell_twice"
   ],
   "note": "Real arithmetic; the cell has the symmetry of the group (Good); long_cell_twice and equiv_multiplicity_wrong prove the known failures."
  },
  {
   "property": "C85",
   "status": "proved",
   "theorems": [
    "Cryspy.Snap.found_equivalent",
    "Cryspy.Snap.found_equivalent_exact",
    "Cryspy.Snap.kept",
    "Cryspy.Snap.first_kept",
    "Cryspy.Snap.free_determine",
    "Cryspy.Snap.not_found",
    "Cryspy.Snap.flags",
    "Cryspy.Snap.again",
    "Cryspy.Snap.first_setup",
    "Cryspy.Snap.position_stays",
    "Cryspy.Snap.tried_spec",
    "Cryspy.Snap.tried_all",
    "Cryspy.Snap.centred_atom_moved",
    "Cryspy.Snap.centred_atom_setup",
    "Cryspy.Snap.rutile_oxygen_moved",
    "Cryspy.Snap.stale_position"
   ],
   "note": "The arithmetic of the search is exact here; limit_denominator is any function that keeps small denominators. That the listed points of a position are one orbit of the group is a hypothesis (shown for C2 2a). The tables are those of wyckoff.dat without change of setting."
  },
  {
   "property": "C86",
   "status": "proved",
   "theorems": [
    "Cryspy.Ell.ellipsoid_shows_moment",
    "Cryspy.Ell.moment_size",
    "Cryspy.Ell.principal_axes",
    "Cryspy.Ell.principal_axes_of_nonneg",
    "Cryspy.Ell.ellipsoidFactor_spec",
    "Cryspy.Ell.ellipsoidFactor_order",
    "Cryspy.Ell.sort3_spec",
    "Cryspy.Ell.opposite_values_wrong",
    "Cryspy.Ell.factor_of_negative",
    "Cryspy.Ell.crystal_main_axes_raises"
   ],
   "note": "Exact real arithmetic; numpy.linalg.eigh is any orthonormal eigenbasis with ascending eigenvalues. The text of the report is not modelled, nor Crystal.calc_magnetic_moments_with_field_loc (it reads cell.m_m_norm, which no Cell has)."
  },
  {
   "property": "C87",
   "status": "proved",
   "theorems": [
    "Cryspy.FrReport.chi_points_spec",
    "Cryspy.FrReport.chi_points_excluded_irrelevant",
    "Cryspy.FrReport.chi_points_perm",
    "Cryspy.FrReport.chi_zero_iff",
    "Cryspy.FrReport.exclude_spec",
    "Cryspy.FrReport.exclude_reciprocal",
    "Cryspy.FrReport.inside_reciprocal",
    "Cryspy.FrReport.include_spec",
    "Cryspy.FrReport.include_exclude",
    "Cryspy.FrReport.exclude_comm",
    "Cryspy.FrReport.exclude_le",
    "Cryspy.FrReport.report_exists_iff",
    "Cryspy.FrReport.report_spec",
    "Cryspy.FrReport.report_classes",
    "Cryspy.FrReport.report_ignores_exclusion",
    "Cryspy.FrReport.report_vs_refinement",
    "Cryspy.FrReport.report_vs_refinement_all",
    "Cryspy.FrReport.worst_spec",
    "Cryspy.FrReport.single_worst_not_listed",
    "Cryspy.FrReport.table_counts",
    "Cryspy.FrReport.bin_line",
    "Cryspy.FrReport.largest_not_in_mean",
    "Cryspy.FrReport.last_bin_shown_empty",
    "Cryspy.FrReport.table_spec",
    "Cryspy.FrReport.mate_spec",
    "Cryspy.FrReport.average_spec",
    "Cryspy.FrReport.average_between",
    "Cryspy.FrReport.pair_chi_sum",
    "Cryspy.FrReport.ag_report_spec",
    "Cryspy.FrReport.ag_classes",
    "Cryspy.FrReport.diff_reciprocal",
    "Cryspy.FrReport.max_diff_spec",
    "Cryspy.FrReport.friedel_even",
    "Cryspy.FrReport.example_numbers",
    "Cryspy.FrReport.example_pair"
   ],
   "note": "Over exact reals; the text of the report is not modelled, the numbers in it are. Known failures are theorems: report_vs_refinement, single_worst_not_listed, largest_not_in_mean, last_bin_shown_empty; afRPer in report_spec divides by all n."
  },
  {
   "property": "C88",
   "status": "proved",
   "theorems": [
    "Cryspy.Cols.read_new",
    "Cryspy.Cols.read_new_iff",
    "Cryspy.Cols.read_again",
    "Cryspy.Cols.flush_spec",
    "Cryspy.Cols.flush_clears",
    "Cryspy.Cols.flush_new",
    "Cryspy.Cols.flush_new_spec",
    "Cryspy.Cols.step_WF",
    "Cryspy.Cols.history_fresh",
    "Cryspy.Cols.careful_read",
    "Cryspy.Cols.flush_unchanged",
    "Cryspy.Cols.lost_update",
    "Cryspy.Cols.stable_float",
    "Cryspy.Cols.stable_str",
    "Cryspy.Cols.array_of_undefined",
    "Cryspy.Cols.undefined_becomes_nan",
    "Cryspy.Cols.undefined_int_raises",
    "Cryspy.Cols.example_lost",
    "Cryspy.Cols.example_careful",
    "Cryspy.Cols.example_new"
   ],
   "note": "On top of the item model of C01-C05 (exact rationals plus nan). Arrays of derived names are not modelled; the state after a numpy_to_items that raises is not modelled. Known failures are theorems: lost_update, undefined_becomes_nan, undefined_int_raises."
  },
  {
   "property": "C89",
   "status": "proved",
   "theorems": [
    "Cryspy.Pts.polarised_spec",
    "Cryspy.Pts.unpolarised_spec",
    "Cryspy.Pts.out_of_range_irrelevant",
    "Cryspy.Pts.exclusions_union",
    "Cryspy.Pts.exchanged_limits",
    "Cryspy.Pts.chi_over_points",
    "Cryspy.Pts.two_dimensional_spec",
    "Cryspy.Pts.limits_kept",
    "Cryspy.Pts.limits_between",
    "Cryspy.Pts.negative_angle_left_out",
    "Cryspy.Pts.zero_excluded",
    "Cryspy.Pts.no_range_raises",
    "Cryspy.Pts.missing_error_raises",
    "Cryspy.Pts.mixture_raises",
    "Cryspy.Pts.applyConstraints_spec",
    "Cryspy.Pts.applyConstraints_idem",
    "Cryspy.Pts.negative_raises",
    "Cryspy.Pts.example_points",
    "Cryspy.Pts.limits_nearest",
    "Cryspy.Pts.beyond_left_out"
   ],
   "note": "Exact reals; nan of a numpy array is none; an attribute is not there, None, or a number. The choice of the first object of a class (take_items_by_class) is not modelled; for Pd2d the choice between polarised and unpolarised arrays is input. Known failures are theorems: negative_angle_left_out, zero_excluded, no_range_raises, missing_error_raises, mixture_raises, negative_raises."
  },
  {
   "property": "C90",
   "status": "proved",
   "theorems": [
    "Cryspy.Proj.project_spec",
    "Cryspy.Proj.bin_near",
    "Cryspy.Proj.near_bin",
    "Cryspy.Proj.total_conserved",
    "Cryspy.Proj.order_irrelevant",
    "Cryspy.Proj.agreement",
    "Cryspy.Proj.mean_between",
    "Cryspy.Proj.last_bin_lost",
    "Cryspy.Proj.low_angle_lost",
    "Cryspy.Proj.one_bin_empty",
    "Cryspy.Proj.excluded_in_difference",
    "Cryspy.Proj.ttheta_in_plane",
    "Cryspy.Proj.example_index",
    "Cryspy.Proj.example_project",
    "Cryspy.Proj.agreement_diff",
    "Cryspy.Proj.states_recovered"
   ],
   "note": "Exact reals, nan is none; the arrays over the detector are the list of pixels. Known failures are theorems: last_bin_lost, low_angle_lost, one_bin_empty, excluded_in_difference."
  },
  {
   "property": "C91",
   "status": "proved",
   "theorems": [
    "Cryspy.Split.find_spec",
    "Cryspy.Split.assign_total",
    "Cryspy.Split.split_spec",
    "Cryspy.Split.column_place",
    "Cryspy.Split.id_copied",
    "Cryspy.Split.label_copied",
    "Cryspy.Split.registered_proper",
    "Cryspy.Split.registered_found",
    "Cryspy.Split.registered_place",
    "Cryspy.Split.wyckoff_never",
    "Cryspy.Split.wyckoff_read_as",
    "Cryspy.Split.example_mixed",
    "Cryspy.Split.label_twice",
    "Cryspy.Split.any_separator",
    "Cryspy.Split.fallback_spec"
   ],
   "note": "Texts are lists of characters, lower case is ASCII; the table of classes is generated from the source (tools/gen_loops.py). Reading the values (from_cif of the classes) and pycifstar are not part of this model; the order of the set is a parameter. Known failures are theorems: wyckoff_never, wyckoff_read_as, label_twice, any_separator."
  },
  {
   "property": "C92",
   "status": "proved",
   "theorems": [
    "Cryspy.Ion.symbol_atom",
    "Cryspy.Ion.symbol_ion",
    "Cryspy.Ion.symbol_isotope",
    "Cryspy.Ion.symbol_isotope_ion_wrong",
    "Cryspy.Ion.symbol_lone_sign",
    "Cryspy.Ion.symbol_examples",
    "Cryspy.Ion.positive_charge",
    "Cryspy.Ion.positive_too_much",
    "Cryspy.Ion.negative_charge",
    "Cryspy.Ion.negative_too_much",
    "Cryspy.Ion.charge_sound",
    "Cryspy.Ion.charge_example",
    "Cryspy.Ion.neutral_electrons",
    "Cryspy.Ion.oganesson_unreadable",
    "Cryspy.Ion.ion_electrons",
    "Cryspy.Ion.isotope_found",
    "Cryspy.Ion.scat_ion",
    "Cryspy.Ion.scat_isotope",
    "Cryspy.Ion.magnetic_found",
    "Cryspy.Ion.magnetic_lone_sign",
    "Cryspy.Ion.magnetic_shells",
    "Cryspy.Ion.deuterium",
    "Cryspy.Ion.iron"
   ],
   "note": "Case and digits are ASCII; the orbitals of a shell are read once instead of being carried as text; the keys and texts of the data base are generated from database.pickle (tools/gen_elements.py), the numbers stored under them are not part of this model. Known failures are theorems: symbol_isotope_ion_wrong, symbol_lone_sign, magnetic_lone_sign, deuterium, oganesson_unreadable."
  },
  {
   "property": "C93",
   "status": "proved",
   "theorems": [
    "Cryspy.Simplex.matB_general",
    "Cryspy.Simplex.error_aligned",
    "Cryspy.Simplex.dist_aligned",
    "Cryspy.Simplex.minimum",
    "Cryspy.Simplex.sigma_aligned",
    "Cryspy.Simplex.sigma_ge",
    "Cryspy.Simplex.aligned_example",
    "Cryspy.Simplex.not_aligned_singular"
   ],
   "note": "Arithmetic is exact; the inverse is that of Mathlib (numpy raises for a singular matrix); the minimisation that produces the simplex is not part of the model. Known failures are theorems: dist_aligned (factor two), sigma_aligned (factor two), matB_general, not_aligned_singular."
  },
  {
   "property": "C94",
   "status": "proved",
   "theorems": [
    "Cryspy.Slater.transs_transform",
    "Cryspy.Slater.transs_too_high",
    "Cryspy.Slater.transform",
    "Cryspy.Slater.jl_transform",
    "Cryspy.Slater.jl_forward",
    "Cryspy.Slater.jl_bounded",
    "Cryspy.Slater.jl_single",
    "Cryspy.Slater.density_other_radius",
    "Cryspy.Slater.shell_electrons",
    "Cryspy.Slater.helium"
   ],
   "note": "Exact real arithmetic; improper integrals are Mathlib's Lebesgue integrals on (0, infinity); the lookup of the coefficients of an ion in the tables is not part of this model. Known failures are theorems: transs_too_high, density_other_radius."
  },
  {
   "property": "C95",
   "status": "proved",
   "theorems": [
    "Cryspy.Elim.fixes",
    "Cryspy.Elim.kept",
    "Cryspy.Elim.dependent",
    "Cryspy.Elim.repeated",
    "Cryspy.Elim.coordinates",
    "Cryspy.Elim.count",
    "Cryspy.Elim.site_projector",
    "Cryspy.Elim.site_constraints",
    "Cryspy.Elim.five_times",
    "Cryspy.Elim.iso_allowed",
    "Cryspy.Elim.once_not_enough"
   ],
   "note": "Arithmetic is exact: tests with numpy.isclose are equalities and the rounding to ten digits is left out. Known failure is the theorem once_not_enough. The groups without time reversal are those the code uses here (13 rows of symm_elems)."
  },
  {
   "property": "C96",
   "status": "proved",
   "theorems": [
    "Cryspy.Mix.fractions_sum",
    "Cryspy.Mix.fractions_range",
    "Cryspy.Mix.fractions_of_sample",
    "Cryspy.Mix.scale_irrelevant",
    "Cryspy.Mix.row_spec",
    "Cryspy.Mix.mixture_of_sample",
    "Cryspy.Mix.mixture_density",
    "Cryspy.Mix.single_phase",
    "Cryspy.Mix.powder_mean",
    "Cryspy.Mix.larger_cell",
    "Cryspy.Mix.moment_of_atoms",
    "Cryspy.Mix.moment_isotropic",
    "Cryspy.Mix.no_para",
    "Cryspy.Mix.tensor_trace",
    "Cryspy.Mix.tensor_reading",
    "Cryspy.Mix.weight_split",
    "Cryspy.Mix.weight_perm",
    "Cryspy.Mix.constants",
    "Cryspy.Mix.example_report",
    "Cryspy.Mix.example_moment"
   ],
   "note": "Floats are reals. Totals of zero (nan in numpy), a phase without a scale, the lookup of the crystal by its name in lower case and the writing of the numbers are not modelled. moment_of_atoms assumes that the multiplicities in atom_site are those of the symmetry."
  },
  {
   "property": "C97",
   "status": "proved",
   "theorems": [
    "Cryspy.Sim.count_spec",
    "Cryspy.Sim.grid_spec",
    "Cryspy.Sim.step_kept",
    "Cryspy.Sim.angles",
    "Cryspy.Sim.pattern_rounded",
    "Cryspy.Sim.pattern_unpolarized",
    "Cryspy.Sim.pattern_up",
    "Cryspy.Sim.raises_iff",
    "Cryspy.Sim.down_is_up",
    "Cryspy.Sim.start_rounded_down",
    "Cryspy.Sim.end_left_out",
    "Cryspy.Sim.example_sum",
    "Cryspy.Sim.example_shift",
    "Cryspy.Sim.example_down"
   ],
   "note": "Floats are reals; the calculated intensities are arbitrary functions of the selected points (what they are is C64). Known failures are the theorems down_is_up (with example_down), start_rounded_down (with example_shift) and end_left_out."
  },
  {
   "property": "C98",
   "status": "proved",
   "theorems": [
    "Cryspy.Gens.read_write",
    "Cryspy.Gens.write_inj",
    "Cryspy.Gens.mul_assoc'",
    "Cryspy.Gens.mul_one'",
    "Cryspy.Gens.one_mul'",
    "Cryspy.Gens.mul_acts",
    "Cryspy.Gens.orbit",
    "Cryspy.Gens.create_spec",
    "Cryspy.Gens.create_group",
    "Cryspy.Gens.passing_of_generators",
    "Cryspy.Gens.coords_spec",
    "Cryspy.Gens.between_spec",
    "Cryspy.Gens.edge_missed",
    "Cryspy.Gens.ambient_p4122",
    "Cryspy.Gens.passing_p4122",
    "Cryspy.Gens.example_p4122",
    "Cryspy.Gens.not_a_group"
   ],
   "note": "Coefficients of the rotation are integers, fractions are exact. Known failures are the theorems not_a_group and edge_missed."
  },
  {
   "property": "C99",
   "status": "proved",
   "theorems": [
    "Cryspy.Bravais.type_found",
    "Cryspy.Bravais.type_names",
    "Cryspy.Bravais.face_centring",
    "Cryspy.Bravais.type_found_rhombohedral",
    "Cryspy.Bravais.rhombohedral_made_cubic",
    "Cryspy.Bravais.symmetric_cell_kept",
    "Cryspy.Bravais.symmetric_cell_kept_rhombohedral",
    "Cryspy.Bravais.conditions_hold",
    "Cryspy.Bravais.fourfold_not_tied",
    "Cryspy.Bravais.Given.full",
    "Cryspy.Bravais.type_of_file",
    "Cryspy.Bravais.file_cell_kept",
    "Cryspy.Bravais.antitranslation",
    "Cryspy.Bravais.antitranslation_raises",
    "Cryspy.Bravais.example_given",
    "Cryspy.Bravais.example_kept"
   ],
   "note": "The classes are given by generators in Bravais/Spec; the lists of their operations in Bravais/Table are checked against the generators in the kernel. Known failures are the theorems fourfold_not_tied, rhombohedral_made_cubic, antitranslation and antitranslation_raises; monoclinic settings with another unique axis are in C31."
  },
  {
   "property": "C100",
   "status": "proved",
   "theorems": [
    "Cryspy.Induced.faithful_of_apart",
    "Cryspy.Induced.listed",
    "Cryspy.Induced.any_operation",
    "Cryspy.Induced.number_of_images",
    "Cryspy.Induced.metric_of_cell",
    "Cryspy.Induced.isometry_of_cell",
    "Cryspy.Induced.field_scale",
    "Cryspy.Induced.field_reversed",
    "Cryspy.Induced.moment_turns",
    "Cryspy.Induced.crystal_turns",
    "Cryspy.Induced.crystal_returned",
    "Cryspy.Induced.thirds_split",
    "Cryspy.Induced.near_the_edge",
    "Cryspy.Induced.hexagonal_field",
    "Cryspy.Induced.example_axis"
   ],
   "note": "Coordinates of atoms are rational, the other floats real. The operations are those of the space group as a list; in crystal_turns and any_operation they form a group. Known failures are the theorems hexagonal_field, thirds_split and near_the_edge."
  },
  {
   "property": "C101",
   "status": "proved",
   "theorems": [
    "Cryspy.SiteOps.found",
    "Cryspy.SiteOps.site_operations",
    "Cryspy.SiteOps.site_group",
    "Cryspy.SiteOps.site_rotations",
    "Cryspy.SiteOps.sum_has_symmetry",
    "Cryspy.SiteOps.thirds_lost",
    "Cryspy.SiteOps.other_side",
    "Cryspy.SiteOps.example_clear"
   ],
   "note": "Coordinates are rational and rounding is exact to five digits. Known failures are the theorems thirds_lost and other_side."
  },
  {
   "property": "C102",
   "status": "proved",
   "theorems": [
    "Cryspy.Core.core_read",
    "Cryspy.Core.valence_read",
    "Cryspy.Core.read_failures",
    "Cryspy.Core.spherical_eq",
    "Cryspy.Core.electrons",
    "Cryspy.Core.contraction",
    "Cryspy.Core.prior_defined",
    "Cryspy.Core.prior_spec",
    "Cryspy.Core.prior_failures",
    "Cryspy.Core.lookup_setup",
    "Cryspy.Core.example_read",
    "Cryspy.Core.example_prior"
   ],
   "note": "Text is ASCII; numbers are real; the entries of the data base are any functions. Known failures are the theorems read_failures and prior_failures."
  },
  {
   "property": "C103",
   "status": "proved",
   "theorems": [
    "Cryspy.Ties.ties_hold",
    "Cryspy.Ties.own_place_iff",
    "Cryspy.Ties.supported_entry",
    "Cryspy.Ties.entry_inj",
    "Cryspy.Ties.entry_unique",
    "Cryspy.Ties.crystal_known_iff",
    "Cryspy.Ties.unknown",
    "Cryspy.Ties.phase_width_confused",
    "Cryspy.Ties.unknown_raises",
    "Cryspy.Ties.phase_widths_raise",
    "Cryspy.Ties.phase_widths_tie_instruments",
    "Cryspy.Ties.example_ties"
   ],
   "note": "Places in the dictionary are those of C81 (Take.slot) and, for susceptibilities, the constructor Entry.chi. Known failures are the theorems crystal_known_iff, unknown, phase_width_confused, unknown_raises, phase_widths_raise and phase_widths_tie_instruments."
  }
 ]
}