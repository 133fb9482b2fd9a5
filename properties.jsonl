{"id": "C01", "title": "Writing an attribute changes that attribute only, to the coerced and clamped value", "statement": "After `item.attr = v` on any item, reading `item.attr` gives None if v was None/'.'/'?', otherwise the coerced v clamped to the declared [min,max], unless v is outside the declared set of allowed values, in which case the previous value stays. No other declared attribute, sigma, flag or mark changes.", "quantifier": "every item class description (declared names, bounds, allowed values), every state of the object, every attribute and value", "why_tests_cant": "the class tables and object states are unbounded; a test fixes one class and one value", "anchors": ["cryspy/B_parent_classes/cl_1_item.py: ItemN.__setattr__, ItemN.delete_internal_parameters"]}
{"id": "C02", "title": "Declared bounds and allowed values hold in every reachable state of an item", "statement": "Whatever sequence of attribute writes is made, every declared bounded attribute that is defined and not None lies in its declared [min,max], and every attribute with a declared set of allowed values is None or in that set (clamping happens after the check of the allowed set, so bounds and allowed set on one attribute must be compatible). Known failure: the lower bound of the cell lengths is declared under a misspelled name, so negative lengths are accepted.", "quantifier": "every finite history of attribute writes on every class description", "why_tests_cant": "histories are unbounded", "anchors": ["cryspy/B_parent_classes/cl_1_item.py: ItemN.__setattr__"]}
{"id": "C03", "title": "The list of refined variables is exactly the set of flagged parameters", "statement": "`get_variable_names()` lists a refinable parameter iff its refinement flag is set, in declaration order and without repetition; `is_variables()` is true iff the list is non-empty; after `fix_variables()` the list is empty and no value, sigma, constraint flag or mark has changed; after `refine_all_variables()` exactly the unconstrained parameters and those flagged before are listed.", "quantifier": "every item class description and object state", "why_tests_cant": "the flags form an unbounded product of states", "anchors": ["cryspy/B_parent_classes/cl_1_item.py: ItemN.get_variable_names, is_variables, fix_variables, refine_all_variables"]}
{"id": "C04", "title": "A variable written by name is read back by that name and nothing else moves", "statement": "For items, loops and data containers, `set_variable_by_name(n, v)` followed by `get_variable_by_name(n)` returns v (coerced/clamped) for each n that `get_variable_names()` lists, and other variables keep their values. Known failure: in a data container whose loop or data name contains a capital letter the name is listed, but setting through it is silently ignored (and reading finds nothing); the round trip through containers is for lower-case loop and data names and members with different names.", "quantifier": "every container, every listed variable name, every value", "why_tests_cant": "the nesting and the names are arbitrary", "anchors": ["cryspy/B_parent_classes/cl_1_item.py: ItemN.set_variable_by_name, get_variable_by_name", "cryspy/B_parent_classes/cl_2_loop.py: LoopN.get_variable_names, set_variable_by_name, get_variable_by_name"]}
{"id": "C05", "title": "Cached derived quantities never survive a write to the attribute they derive from", "statement": "After a write to a declared attribute of an item, any cached internal quantity (e.g. the cell volume or reciprocal lengths) is recomputed from the current attributes when read. Known failure: after writing None, '.' or '?' (an undefined value) the old derived value is still served; the property is for writes of defined values.", "quantifier": "every history of reads and writes", "why_tests_cant": "staleness appears only for particular interleavings of reads and writes", "anchors": ["cryspy/B_parent_classes/cl_1_item.py: ItemN.__setattr__, __getattr__, delete_internal_parameters"]}
{"id": "C06", "title": "A data container holds at most one object per name, and adding replaces", "statement": "After any sequence of `add_items` calls on a data or global container every name occurs at most once; the object found under a name comes from the last call that added one under it (the first of that name within the call); objects with other names are untouched and keep their order. Assigning an object under its own name keeps this too. Known failure: assigning an object under the name of another object leaves two objects with one name.", "quantifier": "every history of add operations", "why_tests_cant": "the histories are unbounded", "anchors": ["cryspy/B_parent_classes/cl_3_data.py: DataN.add_items", "cryspy/B_parent_classes/cl_4_global.py: GlobalN.add_items"]}
{"id": "C07", "title": "Text form of value, error and mark reads back as written", "statement": "For each number v, positive error e and mark m, the string that the library writes for a refined parameter is read back as the same mark and a value and error that differ from v and e by at most half a unit of the last digit written (a twentieth of the error), in double precision by less than two units (a fifth of the error); a string is read as the value, error and mark it denotes; fixed parameters carry no error; '.' means undefined; 'v()' means refined with zero error. Known failures: errors from 0.995 to 1 are read back as 100, so an error between 1 and 1.5 becomes 100 after two saves; a text with more digits in the parentheses than after the point is read with the error in whole units.", "quantifier": "every value, error and mark string", "why_tests_cant": "the set of strings is infinite", "anchors": ["cryspy/A_functions_base/function_1_strings.py: value_error_mark_to_string, string_to_value_error_mark"]}
{"id": "C08", "title": "The prefix of CIF names is the longest common prefix", "statement": "`common_string(*names)` is a prefix of each name and every common prefix of the names is a prefix of it; the CIF prefix found from it does not depend on the order of names.", "quantifier": "every finite list of strings", "why_tests_cant": "infinitely many lists", "anchors": ["cryspy/A_functions_base/function_1_strings.py: common_string, find_prefix"]}
{"id": "C09", "title": "A symmetry operation written as text is read back as the same operation", "statement": "Writing a rotation matrix with entries −1, 0, 1 and a rational translation as an 'x,y,z' string and reading the string returns the same matrix and translation.", "quantifier": "every 3x3 integer matrix with entries −1,0,1 with non-empty rows and every translation with denominators the writer keeps", "why_tests_cant": "the domain is a product too large to sample and rational translations are infinite", "anchors": ["cryspy/A_functions_base/function_1_strings.py: transform_r_b_to_string, transform_digits_to_string, transform_string_to_r_b"]}
{"id": "C10", "title": "Symmetry elements act on grid points as a group acts", "statement": "The grid index computed by `apply_symm_elems_to_index_xyz` is the exact image of the point modulo the unit cell whenever the grid is compatible with the translations; images lie in the cell; composition of elements composes the images, the inverse element undoes it, and each element permutes the grid. Compatible means that every translation falls on the grid and that axes mixed by a rotation have equally many points. Known failure: the program checks the translations only, so with unequal numbers on mixed axes the images are wrong.", "quantifier": "every grid size, every point, every element with denominators dividing the grid", "why_tests_cant": "grids and elements are unbounded", "anchors": ["cryspy/A_functions_base/symmetry_elements.py: apply_symm_elems_to_index_xyz"]}
{"id": "C11", "title": "The asymmetric unit partitions the grid of the unit cell", "statement": "`calc_asymmetric_unit_cell_indexes` returns one representative per orbit, the multiplicities are the orbit sizes, they add up to n_a·n_b·n_c, and each grid point is the image of exactly one representative.", "quantifier": "every grid size and every group of symmetry elements compatible with it", "why_tests_cant": "all sizes and groups", "anchors": ["cryspy/A_functions_base/symmetry_elements.py: calc_asymmetric_unit_cell_indexes", "cryspy/A_functions_base/function_2_mem.py"]}
{"id": "C12", "title": "Site multiplicity times stabiliser size is the group order", "statement": "`calc_multiplicity_by_atom_symm_elems` equals the number of distinct positions of the atom modulo lattice translations.", "quantifier": "every finite group of symmetry elements, every rational position", "why_tests_cant": "groups and positions unbounded", "anchors": ["cryspy/A_functions_base/symmetry_elements.py: calc_symm_flags, calc_multiplicity_by_atom_symm_elems"]}
{"id": "C13", "title": "Sum of translations is exact and normalised", "statement": "The sum of two rational translations computed by `sum_b_elems` / `calc_rational_sum` / `sum_elem_symm_b` equals the exact rational sum (modulo lattice translations where the function says so) and is in lowest terms. Known failure: `sum_elem_symm_b` is exact exactly when the smallest of the common divisors it compares divides every numerator and denominator; otherwise integer division makes it wrong (e.g. for 1/2 + 1/3).", "quantifier": "every pair of rational translations", "why_tests_cant": "infinitely many rationals, the failing ones are sparse", "anchors": ["cryspy/A_functions_base/symmetry_elements.py: sum_b_elems, sum_elem_symm_b", "cryspy/A_functions_base/function_2_sym_elems.py: calc_rational_sum, calc_numerators_and_common_denominator"]}
{"id": "C14", "title": "Full symmetry from reduced symmetry", "statement": "The full list of elements built from reduced elements, centring translations and inversion centre contains reduced op followed by each translation and, for centrosymmetric groups, its inversion through the given centre, with the exact number of elements; if the input is a group modulo the lattice then so is the output.", "quantifier": "every list of reduced elements, translations, inversion centre", "why_tests_cant": "all groups", "anchors": ["cryspy/A_functions_base/symmetry_elements.py: calc_full_symm_elems_by_reduced", "cryspy/C_item_loop_classes/cl_2_space_group.py"]}
{"id": "C15", "title": "Magnetic operation composition is associative and consistent", "statement": "The combination of magnetic operations with magnetic centring pairs every operation with every centring operation; the combined operation is the composition of the two affine maps exactly when their rotations commute and the sum of the translations is exact (C13). Known failure: otherwise it is not a composition, because the rotations are multiplied in the opposite order to the translations.", "quantifier": "every pair of operations", "why_tests_cant": "infinitely many", "anchors": ["cryspy/A_functions_base/symmetry_elements.py: calc_full_mag_elems"]}
{"id": "C16", "title": "Equivalent reflections share |h| and include the reflection", "statement": "The equivalent reflections of hkl under a group contain hkl, the relation is symmetric and transitive, multiplicity divides the group order.", "quantifier": "every hkl, every group of rotations", "why_tests_cant": "all hkl", "anchors": ["cryspy/A_functions_base/symmetry_elements.py: calc_equivalent_reflections"]}
{"id": "C17", "title": "Tensors averaged over the site symmetry are invariant and averaging is a projection", "statement": "The constraint matrices `calc_sc_beta`, `calc_sc_chi`, `calc_sc_fract_sc_b` computed from the site-symmetry group map any tensor (position) to one invariant under every element of the group, and act as the identity on the invariant ones. Known failure: a position that crosses a cell boundary under its site symmetry is moved (coordinates are reduced into the cell before averaging), so for positions the second half holds when the reduced displacement is the displacement.", "quantifier": "every finite group of rotations, every tensor", "why_tests_cant": "infinite domain", "anchors": ["cryspy/A_functions_base/symmetry_constraints.py: calc_sc_fract_sc_b, calc_sc_beta, calc_sc_chi"]}
{"id": "C18", "title": "Flat matrix algebra is matrix algebra", "statement": "The flattened 3x3 functions (product, transpose, inverse, determinant, products with vectors and quadratic forms) agree with matrix algebra for every input and their reported derivatives are the derivatives. Known failures: the square of a matrix is right exactly when m33*m33 = m33*m31; the inverse is reported as zero for determinants below 1e-12; the derivative of the determinant is right exactly when m11*m23 = 0, that of q*v over q exactly when v = 0, that of m q m^-1 over m (for a non-zero determinant) exactly when the determinant is one.", "quantifier": "every real matrix and vector", "why_tests_cant": "continuum domain; sampled tests missed wrong components", "anchors": ["cryspy/A_functions_base/matrix_operations.py: calc_m1_m2, calc_m_v, calc_mm_as_m_q_inv_m, calc_m_q_mt, calc_det_m, calc_inv_m, calc_m_sq …"]}
{"id": "C19", "title": "Reciprocal metric is the inverse of the metric", "statement": "For every non-degenerate cell, `calc_m_g`·`calc_m_reciprocal_g` = 1, the volume is sqrt(det G), reciprocal volume is 1/volume.", "quantifier": "every non-degenerate unit cell", "why_tests_cant": "continuum", "anchors": ["cryspy/A_functions_base/unit_cell.py: calc_m_g, calc_m_reciprocal_g, calc_volume_uc, calc_volume_ruc, calc_phi_sq"]}
{"id": "C20", "title": "Cartesian matrices factor the metric", "statement": "BᵀB is the reciprocal metric, MᵀM the metric, B·B⁻¹=1, M·M⁻¹=1, Bᵀ·M relation, and the length of the scattering vector |B h| equals 1/d for every reflection.", "quantifier": "every non-degenerate cell and hkl", "why_tests_cant": "continuum", "anchors": ["cryspy/A_functions_base/unit_cell.py: calc_m_b, calc_m_inv_b, calc_m_m, calc_m_inv_m, calc_inv_d, calc_q_ccs, calc_sthovl"]}
{"id": "C21", "title": "Tensor transforms to and from Cartesian frames are inverse to each other", "statement": "Transforming a symmetric tensor from reciprocal/direct (normalised) to Cartesian and back is the identity, and the trace-like invariants are kept.", "quantifier": "every cell, every symmetric tensor", "why_tests_cant": "continuum", "anchors": ["cryspy/A_functions_base/unit_cell.py: calc_q_ccs..., transform_quadratic_form_*"]}
{"id": "C22", "title": "Analytic derivatives of the unit-cell functions", "statement": "Each derivative table reported by the unit-cell functions (phi_sq, phi, volume, metric, reciprocal metric, B matrices, 1/d, sin(theta)/lambda) with respect to a, b, c, alpha, beta, gamma either is the derivative of the returned values for every cell, or exactly for the cells stated by the theorem (right angles; cos alpha = 0). Known failures: the derivatives of the volume over the angles, of 1/d and sin(theta)/lambda in oblique cells, and the tables that are placeholders of zeros.", "quantifier": "every non-degenerate cell", "why_tests_cant": "a numeric test samples a few cells; some formulas agree at special angles", "anchors": ["cryspy/A_functions_base/unit_cell.py: calc_phi_sq, calc_phi, calc_volume_uc, calc_m_g, calc_inv_d"]}
{"id": "C23", "title": "The local reflection frame is orthonormal", "statement": "`calc_matrix_t` returns an orthogonal matrix whose third row is the direction of the scattering vector. Known failure: when the y component of the unit vector is between 0 and 5e-6 the third row deviates from the direction (by less than 1e-5); for the reflection 000 the program stops.", "quantifier": "every non-zero scattering vector", "why_tests_cant": "continuum with a special axis branch", "anchors": ["cryspy/A_functions_base/unit_cell.py: calc_matrix_t, calc_eq_ccs"]}
{"id": "C24", "title": "Flipping-ratio intensities are non-negative and swap with the polarisation", "statement": "Without extinction (or with extinction factors ≥ 0) and |P|≤1, 0≤e≤1 and a unit field axis both intensities are non-negative; inverting the beam polarisation swaps them for an ideal flipper; an unpolarised beam gives the same intensity for both. With extinction non-negativity is for achiral structure factors or unpolarised beams. Known failure: with extinction and a chiral structure factor an intensity can be negative, because the chiral term is not multiplied by the extinction factor.", "quantifier": "every structure factor, polarisation, efficiency, axis", "why_tests_cant": "continuum", "anchors": ["cryspy/A_functions_base/flip_ratio.py: calc_iint"]}
{"id": "C25", "title": "Derivatives of the polarised intensities", "statement": "The reported derivatives of I+ and I− with respect to polarisation, flipper efficiency and structure factors are the true derivatives; the flip ratio's reported derivative follows the quotient rule.", "quantifier": "every input away from zero denominators", "why_tests_cant": "continuum", "anchors": ["cryspy/A_functions_base/flip_ratio.py: calc_iint, calc_flip_ratio_by_structure_factors"]}
{"id": "C26", "title": "Extinction factors stay in (0,1] and equal 1 without extinction", "statement": "Each spherical extinction model gives y in (0,1], y=1 for zero intensity or zero radius, y decreases when the intensity grows; unknown models leave y=1; reported f_sq derivative is the true derivative. Known failures: the primary factor is not a number in backscattering (it is in range for cos 2theta >= -0.67); the Gaussian mosaicity model jumps up to one near cos 2theta = 1 (it decreases for cos 2theta <= 0.8); the derivatives over radius and mosaicity of the secondary models are wrong.", "quantifier": "every non-negative physical input", "why_tests_cant": "continuum", "anchors": ["cryspy/A_functions_base/extinction.py", "cryspy/A_functions_base/function_3_extinction.py"]}
{"id": "C27", "title": "Preferred-orientation factor", "statement": "The March-Dollase factor is positive, equal to 1 for a random powder (g1=1 or g2=1) and its reported derivatives are the true ones; with an area detector the average over the sphere of orientations is conserved.", "quantifier": "all angles, g1>0, 0≤g2≤1", "why_tests_cant": "continuum", "anchors": ["cryspy/A_functions_base/preferred_orientation.py"]}
{"id": "C28", "title": "Powder profile functions", "statement": "The asymmetry, pseudo-Voigt width and mixing functions and the pseudo-Voigt profile have the reported derivatives except those listed; the profile is positive when the asymmetry correction is, has the stated area and half width; the mixing is 1 when the width is all Lorentzian; detector angle transforms are inverse to each other. Known failures: the derivatives of the Lorentz factor when its polarisation constant k is not 0, of the Gaussian over the position, of the Lorentzian over the width, of the total width over the Lorentzian width (sign), of the Gaussian width where it is clamped; a large asymmetry makes the profile negative.", "quantifier": "all parameters in the physical domain", "why_tests_cant": "continuum", "anchors": ["cryspy/A_functions_base/powder_diffraction_const_wavelength.py"]}
{"id": "C29", "title": "Time of flight and d-spacing convert to each other", "statement": "Converting a d-spacing to time and back gives the d-spacing on the branch where the time increases with d. Known failures: when dtt2 is positive the other root is returned; when dtt2 is zero no range of d-spacings is obtained. The round trip is for dtt2 <= 0.", "quantifier": "all calibration constants and d", "why_tests_cant": "continuum; the failing sign region is easily missed", "anchors": ["cryspy/A_functions_base/powder_diffraction_tof.py: calc_time_for_thermal_neutrons_by_d, calc_d_by_time_for_thermal_neutrons, calc_d_min_max_by_time_thermal"]}
{"id": "C30", "title": "Displacement parameters convert without loss", "statement": "U↔beta and B_iso↔U_iso/… conversions are inverse to each other for every adp type; the Debye-Waller factor lies in (0,1] for positive semi-definite beta and is symmetric under h→−h. Tensors refined and written back are the refined ones when the cell already satisfies its constraints. Known failure: otherwise the unconstrained cell is used for the conversion and the written tensor is another one.", "quantifier": "every cell with non-zero reciprocal lengths, every tensor and hkl", "why_tests_cant": "continuum", "anchors": ["cryspy/A_functions_base/debye_waller_factor.py", "cryspy/A_functions_base/function_1_atomic_vibrations.py: calc_beta_by_u"]}
{"id": "C31", "title": "Cell constraints of the crystal system", "statement": "Applying the constraints of a Bravais type makes the cell satisfy the metric conditions of the system, clears the refinement flag of the dependent parameters, keeps the independent ones, and applying twice is applying once. Known failure: monoclinic settings with unique axis other than b get the constraints of axis b.", "quantifier": "every cell, every bravais type and setting", "why_tests_cant": "all values", "anchors": ["cryspy/A_functions_base/function_1_atomic_vibrations.py: apply_constraint_on_cell_by_type_cell", "cryspy/C_item_loop_classes/cl_1_cell.py: Cell.apply_constraints"]}
{"id": "C32", "title": "Vibration constraints of a site", "statement": "After the constraints of its site are applied, the displacement tensor of an atom is left as it is by every rotation of the site, and a tensor that already is, is kept; dependent components are not refined and are multiples of free ones, free components are not changed, and applying the constraints again changes nothing. Known failure: 13 of the 46 kinds of site are constrained wrongly or not at all (listed in the theorems); the property holds for exactly the other kinds.", "quantifier": "every site group of rotations in the cubic or hexagonal frame, every tensor, sigma and flags", "why_tests_cant": "all groups and all real values", "anchors": ["cryspy/A_functions_base/function_1_atomic_vibrations.py: vibration_constraints", "cryspy/C_item_loop_classes/cl_1_atom_site.py: AtomSite.calc_constr_number", "cryspy/C_item_loop_classes/cl_1_atom_site_aniso.py: AtomSiteAniso.apply_space_group_constraint"]}
{"id": "C33", "title": "Density files read back what was written", "statement": "Saving a density (cell, symmetry, values) to a den file, by the converter or at the end of a reconstruction, and reading it returns the same grid, cell, symmetry elements, centring translations and the densities of spin up and spin down to the printed digits; the first column is the difference of the two (converter) or their sum (reconstruction, where the density of spin down is stored negative). Known failures of the converter: angles given in radians come back wrong, translations with a denominator that is not a power of two or three lose it; of the reconstruction: the position of the centre of symmetry is not written; of both together: the first columns disagree in sign of the spin down part.", "quantifier": "every density, cell and symmetry", "why_tests_cant": "round trip over all inputs", "anchors": ["cryspy/A_functions_base/function_3_den_file.py: save_to_den_file, read_den_file", "cryspy/A_functions_base/mempy.py: save_spin_density_into_file"]}
{"id": "C34", "title": "Density normalisation", "statement": "After renormalisation the weighted sum over the cell equals the number of electrons (resp. the requested moment), relative values are kept and repeating changes nothing; the flat density splits each basin correctly. Known failure: atoms whose label is longer than ten characters are not normalised.", "quantifier": "every density with non-zero sum", "why_tests_cant": "continuum, arbitrary length", "anchors": ["cryspy/A_functions_base/mempy.py: renormailize_density*", "cryspy/C_item_loop_classes/cl_3_density_point.py: set_flat_density"]}
{"id": "C35", "title": "Background interpolation", "statement": "The interpolated background passes through its nodes, stays between neighbouring node values, and continues as constants outside; no nodes gives zero; the automatic estimate of a background stays within the range of the data and leaves flat data unchanged.", "quantifier": "every strictly increasing node list and every point", "why_tests_cant": "unbounded list, continuum", "anchors": ["cryspy/C_item_loop_classes/cl_1_pd_background.py: PdBackgroundL.interpolate_by_points"]}
{"id": "C36", "title": "Correlation matrix and inverse Hessian", "statement": "The correlation matrix and sigmas obtained from the inverse Hessian reproduce it; diagonal is ±1; reordering labels permutes rows and columns alike.", "quantifier": "every matrix with non-zero diagonal", "why_tests_cant": "arbitrary size", "anchors": ["cryspy/C_item_loop_classes/cl_1_inversed_hessian.py: inversed_hessian_to_correlation, form_object"]}
{"id": "C37", "title": "Crystal system and IT number tables", "statement": "Every space-group number 1..230 belongs to exactly one crystal system; each default setting code is an allowed one; each listed setting code is handled by the transformation lookup. Known failures: the default code of the 18 trigonal groups with a primitive cell is not among the offered ones; the code 1a-cb is not handled by the lookup.", "quantifier": "whole table", "why_tests_cant": "one hand-written tuple misses an entry", "anchors": ["cryspy/A_functions_base/function_2_space_group.py: get_crystal_system_by_it_number, get_default_it_coordinate_system_code_by_it_number, get_transform_pp_abc_choice_by_it_coordinate_system_codes"]}
{"id": "C38", "title": "Centring translations form a group", "statement": "For each centring type the translations returned form a group modulo 1 whose order is the cell multiplicity.", "quantifier": "whole table of centring types, all pairs of translations", "why_tests_cant": "table with exact fractions", "anchors": ["cryspy/A_functions_base/function_2_space_group.py: get_shift_by_centring_type"]}
{"id": "C39", "title": "Change of basis preserves composition of operations", "statement": "Transforming symmetry operations to a new setting maps the composition to the composition, identity to identity, and can be undone, exactly when the new axes are orthonormal in the old ones; the axes of all settings the program offers are. Known failure: for other axes the transform is not the change of basis (the transpose is used for the inverse).", "quantifier": "every operation, every invertible transformation", "why_tests_cant": "infinite", "anchors": ["cryspy/A_functions_base/function_2_space_group.py: transform_symop_operation_xyz_by_pp_abc, transform_symop_operation_xyz_by_Qq_xyz"]}
{"id": "C40", "title": "Automatic choice of coordinate system code", "statement": "`auto_choose_it_coordinate_system_code` returns an element of the given list, None only for an empty list, and prefers the documented settings.", "quantifier": "every list of codes", "why_tests_cant": "all lists", "anchors": ["cryspy/A_functions_base/function_2_space_group.py: auto_choose_it_coordinate_system_code"]}
{"id": "C41", "title": "Linear constraints are satisfied after a Hamilton step", "statement": "The shift computed for constrained refinement satisfies the constraint equations exactly and keeps already satisfied ones.", "quantifier": "every constraint matrix with invertible Q V Qᵀ, every parameter vector", "why_tests_cant": "all sizes", "anchors": ["cryspy/procedure_rhochi/rhochi_by_dictionary.py: calc_shift_p_by_constraints_hamilton"]}
{"id": "C42", "title": "Atoms are recognised on special positions", "statement": "An atom on a Wyckoff position is recognised to be on it and an atom that is not on the position is not; the position found for an atom is the most special one that contains it, and the equivalent points listed for the atom contain the atom. Known failure: for the six linear parts of the form (2x,x,..) some atoms on the position are not recognised and are taken for atoms in a general position; for the other 183 linear parts of the tables the property holds for every atom; the listed equivalent points contain the atom exactly when it has the coordinates that one of the forms gives for its own x, y, z.", "quantifier": "every position of the Wyckoff table, every rational point", "why_tests_cant": "infinitely many points; the elimination modulo 1 has many branches", "anchors": ["cryspy/A_functions_base/function_2_space_group.py: is_solution_a_b, is_good_for_mask, one_line, devide", "cryspy/C_item_loop_classes/cl_1_space_group_wyckoff.py: SpaceGroupWyckoff.is_valid_for_fract, SpaceGroupWyckoffL.get_wyckoff_for_fract"]}
{"id": "C43", "title": "Root finding keeps the bracket", "statement": "The bisection returns a point whose distance to a sign change is at most the tolerance, bracket always contains a sign change, `rootsearch` returns a bracketing interval or none.", "quantifier": "every function and interval", "why_tests_cant": "all functions", "anchors": ["cryspy/A_functions_base/function_1_roots.py"]}
{"id": "C44", "title": "Expansion of the density to P1", "statement": "The density expanded to the whole cell is invariant under every symmetry element and agrees with the asymmetric unit at representatives.", "quantifier": "every grid and group", "why_tests_cant": "all sizes", "anchors": ["cryspy/A_functions_base/function_2_sym_elems.py: transform_to_p1"]}
{"id": "C45", "title": "Systematic absences and centring", "statement": "Structure factors of a centred cell vanish for reflections that break the centring condition and are multiplied by nothing else otherwise; centrosymmetric structure factors with the centre at the origin are real for real asymmetric sum.", "quantifier": "every hkl, every centring", "why_tests_cant": "all hkl", "anchors": ["cryspy/A_functions_base/structure_factor.py", "cryspy/C_item_loop_classes/cl_2_space_group.py: calc_f_hkl_by_f_hkl_as"]}
{"id": "C46", "title": "Time-of-flight peak shape", "statement": "The peak shape of the time-of-flight profile (back-to-back exponentials convolved with a Gaussian) is positive, has unit area for all rise, decay and width parameters, depends only on the distance to the peak position, is mirrored by exchanging rise and decay; its total width and mixing parameter are those of the constant-wavelength code. With a Lorentzian width the peak still depends only on the distance, is mirrored by exchanging rise and decay, and is the Gaussian one for width zero. Known failure: with a Lorentzian width it is in general neither positive nor bounded (the code takes exp1(z) for exp(z)*exp1(z) and 2*pi for 2/pi).", "quantifier": "every positive rise, decay and width, every time", "why_tests_cant": "continuum; the area is an improper integral", "anchors": ["cryspy/A_functions_base/powder_diffraction_tof.py: calc_y_z_u_v, calc_profile_by_zone, calc_hpv_eta, calc_sigma_gamma"]}
{"id": "C47", "title": "Refined background is the displayed background", "statement": "The background computed during the refinement is, at every measured point, the one the background items themselves describe and display (points on a line, points on a detector area, cosines), and its reported derivatives over the node intensities and coefficients are the derivatives of what is computed. Known failures: outside the nodes the refinement extrapolates where the display continues the end values, a single node raises, the derivatives over node intensities are zeros or do not depend on the point, the cosine background ignores the end of the time range.", "quantifier": "every set of nodes or coefficients, every set of measured points", "why_tests_cant": "continuum of points; unbounded lists", "anchors": ["cryspy/procedure_rhochi/rhochi_pd.py: calc_background", "cryspy/procedure_rhochi/rhochi_pd2d.py: calc_background", "cryspy/procedure_rhochi/rhochi_tof.py: calc_background_by_cosines", "cryspy/C_item_loop_classes/cl_1_tof_background.py: TOFBackground.calc_background, get_coefficients"]}
{"id": "C48", "title": "Density between grid points", "statement": "The density interpolated between grid points equals the density at grid points, is periodic with the unit cell, stays between the eight surrounding values and reproduces every function linear in each coordinate.", "quantifier": "every grid size, density and real point", "why_tests_cant": "continuum", "anchors": ["cryspy/A_functions_base/function_1_matrices.py: tri_linear_interpolation"]}
{"id": "C49", "title": "Numerical inverse Hessian", "statement": "The estimated inverse of the matrix of second derivatives is exact for every quadratic function whatever the starting point, the matrix is symmetric for every function, and the errors taken from it for a linear least-squares problem are the standard errors. Known failure: these errors are too small by a factor of the square root of two.", "quantifier": "every function, every parameter vector, any number of parameters", "why_tests_cant": "all functions", "anchors": ["cryspy/A_functions_base/function_1_inversed_hessian.py: estimate_inversed_hessian_matrix", "cryspy/procedure_rhochi/rhochi.py: rhochi_inversed_hessian"]}
{"id": "C50", "title": "Parameters tied by a mark stay tied", "statement": "In every evaluation of the objective the parameters that carry the same mark are equal up to the sign the marks ask for, exactly one of them is varied, the free parameters take the values of the minimiser, and parameters that are not refined are not changed.", "quantifier": "every set of parameters and marks, every vector the minimiser tries, every order of iteration over the set of labels", "why_tests_cant": "unbounded; depends on the hash order", "anchors": ["cryspy/B_parent_classes/cl_4_global.py: GlobalN.get_dictionary", "cryspy/procedure_rhochi/rhochi_by_dictionary.py: rhochi_rietveld_refinement_by_dictionary"]}
{"id": "C51", "title": "The refinement returns what it reports", "statement": "When a refinement ends, the parameters in the object are those for which chi_sq and the calculated profile are reported, and in the least-squares loop chi_sq is not larger than at the start. Known failures: the minimiser's last evaluated point and not its best is left; the least-squares loop returns the profile of a rejected step and need not stop.", "quantifier": "every model function, every history of evaluations of the minimiser, every starting point", "why_tests_cant": "all histories", "anchors": ["cryspy/procedure_rhochi/rhochi_by_dictionary.py: rhochi_rietveld_refinement_by_dictionary, rhochi_lsq_by_dictionary"]}
{"id": "C52", "title": "Derivatives of the total chi_sq", "statement": "The first and second derivatives of the total chi_sq over a parameter are the sums over the experiments of their derivatives over the same parameter, in whatever order experiments and parameters come.", "quantifier": "every list of experiments with every list of parameters", "why_tests_cant": "unbounded", "anchors": ["cryspy/procedure_rhochi/rhochi_by_dictionary.py: rhochi_calc_chi_sq_by_dictionary"]}
{"id": "C53", "title": "Names and numbers of space groups", "statement": "A space group given by any of its names (short or full Hermann-Mauguin, Hall, Schoenflies), by an extended Hermann-Mauguin name or by its number gets that number, with the given setting if the group has it and the standard setting otherwise; names and numbers determine each other; resolving again changes nothing. Known failures: 'P 1 1 1' is the extended name of numbers 1 and 2 and leads to 2; monoclinic groups have no full name.", "quantifier": "all 230 groups, every name of the tables, every offered setting", "why_tests_cant": "thousands of table entries with exceptions hidden among them", "anchors": ["cryspy/A_functions_base/function_2_space_group.py: get_it_number_by_name_hm_short, get_it_number_by_name_hm_full, get_it_number_it_coordinate_system_codes_by_name_hm_extended", "cryspy/C_item_loop_classes/cl_2_space_group.py: SpaceGroup.define_it_number_and_it_coordinate_system_code"]}
{"id": "C54", "title": "The operations of every setting are a group", "statement": "For every space-group number and every setting offered for it, except those listed as failures, the program gives a list of symmetry operations, without repetition, that is a group modulo lattice translations (identity, products and inverses); this holds for 653 of the 802 offered settings. Known failures: for 144 settings (listed) the program raises, for five settings of number 48 the list is no group.", "quantifier": "all 802 offered settings, all pairs of operations", "why_tests_cant": "hundreds of settings with up to 192 operations each; needs the reading of the table file, change of axes, centring and inversion together", "anchors": ["cryspy/A_functions_base/itables.txt", "cryspy/A_functions_base/function_2_space_group.py: read_el_cards, get_symop_pcentr_multiplicity_letter_site_symmetry_coords_xyz_2", "cryspy/C_item_loop_classes/cl_2_space_group.py: form_reduced_full_space_group_symop_space_group_wyckoff"]}
{"id": "C55", "title": "The structure factor is that of the whole unit cell", "statement": "The nuclear structure factor computed from the asymmetric unit equals the sum over all atoms of the unit cell, every equivalent atom counted once whatever the site symmetry.", "quantifier": "every group, every list of atoms on general or special positions, every reflection, every cell", "why_tests_cant": "continuum of parameters, unbounded lists of atoms", "anchors": ["cryspy/A_functions_base/structure_factor.py: calc_f_nucl, calc_f_asym_a_by_pr, calc_f_by_f_asym_a_pr", "cryspy/A_functions_base/symmetry_elements.py: calc_multiplicity_by_atom_symm_elems"]}
{"id": "C56", "title": "Equivalent reflections", "statement": "Reflections that are equivalent by the symmetry have the same sin(theta)/lambda and structure factors of the same modulus, related by the phase of the translation; with real scattering lengths the structure factors of h and -h are conjugate.", "quantifier": "every group, every operation, every reflection, every list of atoms", "why_tests_cant": "continuum of parameters", "anchors": ["cryspy/A_functions_base/structure_factor.py: calc_f_nucl", "cryspy/A_functions_base/unit_cell.py: calc_sthovl_by_unit_cell_parameters"]}
{"id": "C57", "title": "Stored intermediate results do not change the answer", "statement": "In a refinement, where intermediate results of earlier evaluations are stored and used again, every evaluation gives the structure factor a fresh computation would give for the current parameters, whenever coordinates (moving within their Wyckoff positions) or displacement parameters are among the refined ones, or neither occupancies nor the cell are. Known failure: when occupancies or the cell are refined without coordinates and displacement parameters, the stored values are stale.", "quantifier": "every history of evaluations, every choice of refined parameters", "why_tests_cant": "all histories", "anchors": ["cryspy/A_functions_base/structure_factor.py: calc_f_nucl", "cryspy/procedure_rhochi/rhochi.py", "cryspy/procedure_rhochi/rhochi_diffrn.py"]}
{"id": "C58", "title": "The list of reflections is complete", "statement": "The reflections generated for a range of sin(theta)/lambda are sorted; each lies in the range and is allowed by the centring; every allowed reflection of the range is equivalent to exactly one of them, and the multiplicity is the number of equivalent reflections, so that a sum over the list weighted with multiplicities is the sum over all reflections. (Indices below 500.)", "quantifier": "every space group, every cell with its symmetry, every range, every order numpy may give to ties", "why_tests_cant": "unbounded ranges, continuum of cells", "anchors": ["cryspy/A_functions_base/structure_factor.py: calc_index_hkl_multiplicity_in_range", "cryspy/A_functions_base/symmetry_elements.py: calc_equivalent_reflections"]}
{"id": "C59", "title": "Powder intensities of a polarised beam are means over the powder", "statement": "The intensities for both states of the flipper computed for a powder are the means of the single-crystal intensities over all orientations of the crystallites around the scattering vector, for paramagnetic, magnetically ordered and mixed crystals, with the detector in or out of the plane; they are not negative for a physical beam. Known failure: the second intensity of mixed crystals out of the plane has a term of wrong sign, exactly when that term is not zero, and can be negative.", "quantifier": "every structure factor, tensor and moment, every field, angle, polarisation and flipper efficiency", "why_tests_cant": "continuum of inputs, an integral", "anchors": ["cryspy/A_functions_base/integrated_intensity_powder_diffraction.py: calc_powder_iint_1d_para, calc_powder_iint_1d_ordered, calc_powder_iint_1d_mix, calc_powder_iint_2d_para, calc_powder_iint_2d_ordered, calc_powder_iint_2d_mix"]}
{"id": "C60", "title": "Derivatives of powder intensities", "statement": "The derivatives of powder intensities reported to the refinement are the derivatives over the nuclear structure factor, the tensor, the moment, the polarisation and the flipper efficiency. For the two-dimensional mixed case no derivatives are reported. Known failures, each with the exact condition under which it is right: the derivatives over the imaginary part of an ordered moment, over the tensor in the mixed term, over the nuclear structure factor and over the flipper efficiency in the two-dimensional ordered case.", "quantifier": "every structure factor, tensor and moment, every field, angle, polarisation and flipper efficiency", "why_tests_cant": "continuum of inputs", "anchors": ["cryspy/A_functions_base/integrated_intensity_powder_diffraction.py: calc_powder_p1 ... calc_powder_iint_2d_mix"]}
{"id": "C61", "title": "Structure factor tensor of a paramagnetic crystal", "statement": "The tensor that gives the magnetic structure factor of paramagnetic atoms is the sum over all atoms of the unit cell of form factor, displacement factor, wave and susceptibility tensor turned by the symmetry; it is symmetric; the tensors of equivalent reflections are related by the rotation and the phase of the operation; it vanishes for reflections forbidden by the centring; those of h and -h are conjugate; the reported derivative over the susceptibility is the derivative. Known failure: the reported derivative over the susceptibility is not the derivative but (1+i) times it (for operations that are proper rotations), so it is right exactly where the derivative vanishes.", "quantifier": "every group, every list of atoms, every reflection, every cell with the symmetry of the group", "why_tests_cant": "continuum of parameters, unbounded lists", "anchors": ["cryspy/A_functions_base/structure_factor.py: calc_sft_ccs, calc_sft_ccs_asym_a_by_pr", "cryspy/A_functions_base/local_susceptibility.py: calc_m_r_inv_m", "cryspy/A_functions_base/matrix_operations.py: calc_m_q_inv_m"]}
{"id": "C62", "title": "Magnetic form factors", "statement": "The form factor of a magnetic atom is <j0> + (2/g-1) <j2> of the tabulated form at the scattering vector scaled by kappa; it is the spin part in the forward direction, even, bounded, and its reported derivatives are its derivatives. Known failure: the derivatives of <j2> are wrong except where the theorem grad_j2_iff says.", "quantifier": "every table, every scattering vector, Lande factor and kappa", "why_tests_cant": "continuum of inputs", "anchors": ["cryspy/A_functions_base/magnetic_form_factor.py: calc_j0, calc_j2, calc_form_factor"]}
{"id": "C63", "title": "Items and loops saved to CIF are loaded as they were", "statement": "to_cif followed by from_cif gives an object with the same attributes: unset attributes stay unset, None stays None, texts are the same, numbers are what their text denotes, refined parameters are again refined with the same mark and their value and error up to the digits written; a loop gives as many items in the same order. Known failures: an object without a mandatory attribute is not loaded, the error and mark of a parameter that is not refined are lost, a loop loses attributes that its first item does not have, fills missing ones with None, reads an empty loop as one item, and loses empty texts and texts that begin with #.", "quantifier": "all item classes with consistent tables, all objects, all loops of any length, both separators, all texts and widths of columns", "why_tests_cant": "objects, texts and loops are unbounded; tests write one file of one class", "anchors": ["cryspy/B_parent_classes/cl_1_item.py: ItemN.to_cif, ItemN.from_cif, ItemN.__getattr__", "cryspy/B_parent_classes/cl_2_loop.py: LoopN.to_cif, LoopN.from_cif", "cryspy/A_functions_base/function_1_strings.py: value_error_mark_to_string, string_to_value_error_mark"]}
{"id": "C64", "title": "The calculated powder pattern is the sum of its phases", "statement": "The calculated pattern of a powder experiment (constant wavelength, time of flight, two-dimensional) is, for each flipper state and at each point, the sum over the listed phases of the sum over the reflections of the crystal of that name of scale, Lorentz factor, multiplicity, intensity, preferred orientation of that phase and profile; it does not depend on the order of the phases, is linear in the scales, and a phase without crystal is reported. Known failures: when only some phases are textured, the others raise or are multiplied by the preferred orientation of another phase; in time of flight a second textured phase raises; a texture label in upper case is never found.", "quantifier": "all crystals, phases, textures, intensities, profiles and points, lists of any length", "why_tests_cant": "unbounded lists of phases and reflections; tests have one phase", "anchors": ["cryspy/procedure_rhochi/rhochi_pd.py: calc_chi_sq_for_pd_by_dictionary", "cryspy/procedure_rhochi/rhochi_tof.py: calc_chi_sq_for_tof_by_dictionary", "cryspy/procedure_rhochi/rhochi_pd2d.py: calc_chi_sq_for_pd2d_by_dictionary"]}
{"id": "C65", "title": "Chi squared of a powder pattern", "statement": "The chi squared of a polarised powder pattern is the sum over the points that are not excluded of the squared weighted differences of the sum and of the difference pattern, as switched on, together with the number of terms; it is not negative, zero only when the calculated pattern is the measured one, and does not depend on excluded points. Known failures: excluded points do enter through the difference pattern, and a point with zero error, even an excluded one, replaces the result by 1e30.", "quantifier": "all patterns of any length, all errors, all exclusions, all switches", "why_tests_cant": "continuum of inputs and unbounded lists; the failure depends on combinations of switches", "anchors": ["cryspy/procedure_rhochi/rhochi_pd.py: calc_chi_sq_for_pd_by_dictionary", "cryspy/procedure_rhochi/rhochi_tof.py: calc_chi_sq_for_tof_by_dictionary"]}
{"id": "C66", "title": "Chi squared of a single crystal and its derivatives", "statement": "The chi squared of a polarised single-crystal experiment is the sum over the reflections that are not excluded of the squared weighted differences between measured and calculated flipping ratio, asymmetry or intensity; it does not depend on excluded reflections nor on the order, is not negative and zero only for perfect agreement; the gradient and the second derivative handed to the minimiser are the derivative and a symmetric positive approximation. Known failures: with excluded reflections the gradient raises or takes the excluded ones into account; the error used for the asymmetry is not the propagated one. Known failure: the derivative over the scale of an unpolarised measurement is reported as zero.", "quantifier": "all lists of reflections, all measured values and errors, all exclusions, all parametrisations", "why_tests_cant": "continuum of inputs, derivatives, unbounded lists", "anchors": ["cryspy/procedure_rhochi/rhochi_diffrn.py: calc_chi_sq_for_diffrn_by_dictionary", "cryspy/A_functions_base/flip_ratio.py: calc_flip_ratio_by_iint, calc_asymmetry_by_iint"]}
{"id": "C67", "title": "The maximum entropy reconstruction returns the best density it tried", "statement": "A reconstruction ends after at most the given number of iterations; the density it returns, in both channels and in the files, is one it tried, with the smallest goodness of fit of all tried, the prior included; it stops at the first iteration at which the desired goodness of fit, the smallest step or the number of iterations is reached; every density is non-negative and normalised to the electrons of the cell and of the atoms; a density at which the derivative vanishes is not changed. Known failures: the calculated flip ratios stored with the data belong to the density tried last, even when it was rejected; when all points of a channel or basin are cut off, the density becomes NaN and NaN is returned as the best.", "quantifier": "all data, all priors, all numbers of iterations and steps, all lengths of the run, all numbers of points", "why_tests_cant": "runs of any length over a continuum of densities", "anchors": ["cryspy/procedure_mempy/mempy_by_dictionary.py: mempy_reconstruction_by_dictionary", "cryspy/A_functions_base/mempy.py: renormailize_density_col, renormailize_density_chi", "cryspy/procedure_mempy/mempy.py: mempy_reconstruction_with_parameters"]}
{"id": "C68", "title": "The derivative that steers the maximum entropy reconstruction", "statement": "The derivative over the density at every point, in both channels, that a reconstruction uses is the gradient of the goodness of fit, for flip ratios and for asymmetries. Known failure: with extinction it is not.", "quantifier": "all densities, all reflections, all polarisations, all directions", "why_tests_cant": "a continuum of densities in any dimension; derivatives", "anchors": ["cryspy/procedure_mempy/mempy_by_dictionary.py: mempy_reconstruction_by_dictionary", "cryspy/A_functions_base/flip_ratio.py: calc_iint"]}
{"id": "C69", "title": "Magnetic structure factors of a density are sums over the whole cell", "statement": "In a maximum entropy reconstruction the magnetic structure factors computed from the density at the points of the asymmetric unit are the Fourier sums over all points of the unit cell of the spin density along the field, or of density times susceptibility times field, times the volume per point and the scattering length of a Bohr magneton, perpendicular to the scattering vector. The susceptibility at every point is invariant under the operations that keep the point, and the tensors at equivalent points are carried into each other by the operations; the multiplicities computed for the points are those of the asymmetric unit.", "quantifier": "all space groups, all grids that match, all densities that respect the symmetry, all cells, fields and reflections, all assignments of atoms to points", "why_tests_cant": "unbounded grids and a continuum of densities; tests have one structure", "anchors": ["cryspy/A_functions_base/mempy.py: calc_mem_col, calc_mem_chi, calc_point_susceptibility, calc_symm_elem_points_by_index_points", "cryspy/procedure_mempy/mempy_by_dictionary.py: mempy_reconstruction_by_dictionary"]}
{"id": "C70", "title": "The nearest atom of a point and its basin", "statement": "For every point of the density the reported distance is the distance to some position (symmetry operation followed by lattice translation) of the reported atom; in a cell with right angles no position of any atom is nearer, of atoms equally near the first is reported, and symmetry-equivalent points get the same atom and distance; lattice translations of the point or the atoms change nothing; when no other atom is as near the reported operation takes the reported atom to the reported distance. A point belongs to the susceptibility part exactly when its nearest atom is magnetic, and label, multiplicity, distance and operation listed for it belong to the same point. Known failures: in oblique cells (hexagonal already) a nearer position can be missed, because the offset is reduced coordinate by coordinate; with two atoms equally near the reported pair of atom and operation need not fit.", "quantifier": "every cell, list of atoms, list of operations and point", "why_tests_cant": "continuum of points and cells, arbitrary lists", "anchors": ["cryspy/A_functions_base/mempy.py: calc_index_atom_symmetry_closest_to_fract_xyz, form_basins", "cryspy/A_functions_base/function_2_mem.py: calc_index_atom_symmetry_closest_to_fract_xyz", "cryspy/C_item_loop_classes/cl_3_density_point.py: separate_basins"]}
{"id": "C71", "title": "The reflections of a powder pattern cover the measured range", "statement": "The pattern is calculated from all reflections that appear within four degrees of a measured point (up to symmetry, unless forbidden by the centring or with sin(theta)/lambda below 0.0001, in two dimensions 0.00001): for one-dimensional patterns between 0 and 176 degrees, for two-dimensional ones with gamma between 0 and 90 degrees and nu not farther below the plane than above; over time of flight (without the epithermal term) all reflections whose d-spacing lies between two measured ones. Known failures: near backscattering (beyond 178 degrees); detectors with nu mostly negative, with negative gamma, or beyond 90 degrees (only the pixel with largest gamma and nu is looked at).", "quantifier": "every list of measured angles or times, offset, wavelength, cell, space group and reflection", "why_tests_cant": "continuum of angles, arbitrary lists", "anchors": ["cryspy/procedure_rhochi/rhochi_pd.py: calc_chi_sq_for_pd_by_dictionary", "cryspy/procedure_rhochi/rhochi_pd2d.py: calc_chi_sq_for_pd2d_by_dictionary", "cryspy/procedure_rhochi/rhochi_tof.py: calc_chi_sq_for_tof_by_dictionary"]}
{"id": "C72", "title": "A two-dimensional pattern moved to another grid keeps directions and intensities", "statement": "Converting between detector angles and scattering/ring angle keeps the direction in space for all angles and is inverted by the opposite conversion; a pattern on an equidistant grid moved to the other pair of angles has at every pixel the value interpolated in the direction of that pixel: the value of the node at nodes, between the smallest and the largest intensity, exact for intensities linear in each angle, nothing outside the grid. The angle used for texture is that between scattering vector and vertical axis. Known failures: the last row and column of the grid count as outside; uneven grids are treated as equidistant; a missing neighbour removes the value even where its weight is zero.", "quantifier": "every grid, table of intensities (with gaps) and angle", "why_tests_cant": "continuum of angles, arbitrary tables", "anchors": ["cryspy/A_functions_base/function_1_gamma_nu.py: gammanu_to_tthphi, tthphi_to_gammanu, app_grid, app_2d, recal_int_to_tthphi_grid, recal_int_to_gammanu_grid", "cryspy/procedure_rhochi/rhochi_pd2d.py: alpha_det", "cryspy/C_item_loop_classes/cl_1_pd2d_meas.py: recalc_to_gamma_nu_grid"]}
{"id": "C73", "title": "The orientation matrix, the cell and the diffractometer angles", "statement": "From any non-singular UB matrix, in any of its notations, the cell found is the one whose reciprocal basis vectors have the lengths and angles of the columns of UB; U is orthogonal, a rotation exactly when UB is right handed, and U B is UB; the vertical direction has unit length and is what the oriented and turned crystal carries to the vertical axis; after any history of writes the orientation matrix read belongs to the current UB matrix. With the detector on the left the angles found for a reflection turn the crystal so that the beam leaves towards the detector, and nothing is returned exactly for the reflections that no turn brings into reflection. Known failures: with the detector on the right the crystal angle is wrong for every reflection with a component across the beam; the notation X-YZ is accepted and read as XYZ; after a write the cell read is the old one until something else derived is read.", "quantifier": "every UB matrix, notation, wavelength, reflection, angle and history of reads and writes", "why_tests_cant": "continuum of matrices and angles, arbitrary histories", "anchors": ["cryspy/C_item_loop_classes/cl_2_diffrn_orient_matrix.py: DiffrnOrientMatrix", "cryspy/C_item_loop_classes/cl_1_cell.py: Cell.form_object, calc_k_loc"]}
{"id": "C74", "title": "Matrices, Euler angles and rotations given as tuples of numbers", "statement": "The product of any number of matrices is the matrix product; the inverse is the inverse for determinants of at least 1e-12; the matrix of three Euler angles is the product of the three turns, and for every rotation, also in the two singular positions, every triple of angles found gives the rotation back, the first one being the angles in their ranges; the angle between two vectors satisfies the cosine rule; the matrix of two vectors is the rotation with the first axis along the first vector and the second vector in the upper half of the plane of the first two axes. Known failures: every matrix of negative (or tiny) determinant gets the inverse zero; the turn about y has the opposite sense of those about x and z; the angle with the zero vector is not a number; the arguments naming the axes of the two vectors are not used.", "quantifier": "all matrices, vectors and angles, products of any length", "why_tests_cant": "continuum of values", "anchors": ["cryspy/A_functions_base/function_1_matrices.py: calc_product_matrices, calc_inverse_matrix_ij, calc_rotation_matrix_ij_by_euler_angles, calc_euler_angles_by_rotation_matrix_ij, calc_rotation_matrix_ij_around_axis, calc_vector_angle, calc_rotation_matrix_by_two_vectors, calc_mRmCmRT"]}
{"id": "C75", "title": "Refining susceptibilities uses the structure factors of the reconstruction", "statement": "When the susceptibilities of the atoms are refined against a reconstructed density, the magnetic structure factor compared with the data is, for every density, field, reflection and value of the parameters, the one the reconstruction computes with that density and the symmetry-constrained susceptibility of the closest paramagnetic atom of every point, provided the last paramagnetic atom is closest to some point; the constrained susceptibilities stored at the end give the same structure factors as the refined parameters. Known failures: if the first atom is closest to every point and there are several (atoms sharing a site), the sum of all susceptibilities is silently used for it (n times too much for n equal atoms); if the last atoms are closest to no point otherwise, the program raises.", "quantifier": "every group of operations, grid, density, assignment of points to atoms, field, reflection and susceptibility", "why_tests_cant": "continuum of densities and susceptibilities, arbitrary numbers of points, atoms and operations", "anchors": ["cryspy/A_functions_base/mempy.py: calc_chi_atoms, calc_f_m_perp_ccs_by_chi_atoms, calc_model_value_by_precalculated_data", "cryspy/procedure_mempy/mempy_by_dictionary.py: mempy_susceptibility_refinement"]}
{"id": "C76", "title": "Magnetic structure factor of ordered moments", "statement": "For every reflection the magnetic structure factor of a magnetically ordered crystal is the part, perpendicular to the scattering vector, of the sum over all magnetic atoms of the unit cell of form factor, occupancy, wave, displacement factor and moment (0.2695 per Bohr magneton), the moments of equivalent atoms being carried into each other as axial vectors reversed by time reversal; equivalent reflections are related by the rotation and have the same magnetic intensity; reflections contradicting a magnetic translation (anti-translation) vanish, and a grey group gives no magnetic scattering; Friedel pairs are conjugate. Known failure: the moments of equivalent atoms are turned wrongly exactly when the rotation mixes axes of different lengths (for example in a primitive cell of a centred lattice).", "quantifier": "every magnetic group, cell, list of atoms, moments and reflection", "why_tests_cant": "continuum of moments and cells, arbitrary groups and lists of atoms", "anchors": ["cryspy/A_functions_base/structure_factor.py: calc_f_m_perp_ordered"]}
{"id": "C77", "title": "Stored intermediate results of a powder experiment do not change the pattern", "statement": "In every refinement of a powder pattern (constant wavelength, two-dimensional, time of flight) of any number of phases, where lists of reflections, intensities, preferred orientation, profiles and background of earlier evaluations are used again, every evaluation gives the pattern computed from scratch with the current parameters, whatever the sequence of parameters and the choice of refined ones. Known failures: if only ordered moments (or the parameters of their form factors) of a magnetically ordered phase are refined, every evaluation uses the intensities of the first one, so that the refinement cannot move them; a refined wavelength, or calibration of the time of flight, keeps the list of reflections of the first evaluation; with the cell refined and the texture fixed the preferred orientation is not computed anew as long as no index of a reflection is zero and their number stays.", "quantifier": "every history of evaluations, every list of phases, every choice of refined parameters", "why_tests_cant": "all histories and all combinations of flags", "anchors": ["cryspy/procedure_rhochi/rhochi_pd.py: calc_chi_sq_for_pd_by_dictionary", "cryspy/procedure_rhochi/rhochi_pd2d.py: calc_chi_sq_for_pd2d_by_dictionary", "cryspy/procedure_rhochi/rhochi_tof.py: calc_chi_sq_for_tof_by_dictionary", "cryspy/procedure_rhochi/rhochi_by_dictionary.py"]}
{"id": "C78", "title": "Bulk susceptibility", "statement": "The bulk susceptibility of a crystal is the sum, over all paramagnetic atoms of the unit cell, of occupancy and local susceptibility tensor, the tensors of equivalent atoms being carried into each other by the operations; it is symmetric, no operation of the space group changes it, its trace is the sum of those of the atoms, and where the form factors are one the forward structure factor tensor is 0.2695 times it. Known failure: the error bars returned with it are always zero, although it depends on the refined susceptibilities.", "quantifier": "every space group, cell whose isometries include the operations, list of atoms and susceptibilities", "why_tests_cant": "continuum of susceptibilities, arbitrary groups and lists of atoms", "anchors": ["cryspy/A_functions_base/structure_factor.py: calc_bulk_susceptibility, calc_bulk_susceptibility_by_dictionary"]}
{"id": "C79", "title": "Positions, directions and distances of the cell object", "statement": "The cell object gives the volume, metric, reciprocal cell, reciprocal metric and Cartesian matrices of its lengths and angles (in degrees), the same as the unit-cell functions; the metrics are inverse to each other; positions and fractional coordinates convert into each other without loss and have the length the metric gives; the length of a reflection is twice sin(theta)/lambda and its direction has length one. The closest distance between two points does not depend on their order nor on lattice translations, is zero exactly for equivalent points, and in a cell with right angles is the distance to the nearest equivalent point. Known failure: with an oblique angle it can be smaller than the distance to every equivalent point, because the signs of the differences are dropped.", "quantifier": "every cell with independent edges, every point, reflection and pair of points", "why_tests_cant": "continuum of cells and points, all lattice translations", "anchors": ["cryspy/C_item_loop_classes/cl_1_cell.py: Cell.form_object, calc_position_by_coordinate, calc_coordinate_by_position, calc_length_sq, calc_reciprocal_length_sq, calc_k_loc, closest_distance_between_fractions"]}
{"id": "C80", "title": "Plane sections of the density", "statement": "A section is described by a central atom and two atoms along its axes, which must not lie on one line: its axes are then right-handed and of length one, the first points at the first atom, the second to the side of the second. The listing has one line for each of the points_x by points_y points; the line of a point holds its distances from the centre along the axes and the components along the axes of the moment density at that point. Atoms listed in the section are those atoms of the unit cell within the rectangle and nearer to the plane than the limit, with their coordinates in the plane; atoms of the unit cell are the images of the given atoms under all operations, modulo lattice translations and to five decimals, each position once per atom. Known failures: with an odd number of points the distances printed are too large by half a step; atoms of neighbouring cells within the section are not listed.", "quantifier": "every cell, every choice of atoms not on a line, sizes, numbers of points and moment densities, every list of operations and atoms", "why_tests_cant": "continuum of cells and positions, arbitrary densities and operations", "anchors": ["cryspy/C_item_loop_classes/cl_2_section.py: Section.calc_axes_x_y_z, calc_fractions, calc_atoms", "cryspy/F_functions_data/script_1_mem.py: calc_section_for_mem", "cryspy/A_functions_base/function_2_crystallography_base.py: calc_atoms_in_unit_cell"]}
{"id": "C81", "title": "Refined parameters of an experiment come back where they were taken from", "statement": "After a refinement the experiment holds the numbers that were found: each attribute (polarization, efficiency, wavelength, offset, resolution, asymmetry, background, scale, crystallite size, texture, time-of-flight constants and peak shape, extinction of a single crystal) gets the number of its own parameter, in the units of the attribute and within its bounds, and its error; no other attribute changes, and a calculation without refinement changes none (the background of a two-dimensional pattern is rounded to five decimals). Known failures: never written back, although they can be refined and are used: the fraction of half the wavelength, resolution parameters of a phase, in time of flight the texture, and in single crystals the wavelength (its error is); if one phase lacks a crystallite size or a scale, a mere calculation sets those of all phases to zero; a crystallite size refined to a negative number comes back as zero; in time of flight errors of the diffractometer constants, background and peak shape are lost, in two-dimensional patterns errors of the texture.", "quantifier": "All experiments of the four kinds (one- and two-dimensional powder, time of flight, single crystal), all numbers the refinement may find and all lists of refined parameters.", "why_tests_cant": "Tests refine few parameters of few experiments; that no parameter lands in another attribute concerns all combinations.", "anchors": ["cryspy/E_data_classes/cl_2_pd.py:take_parameters_from_dictionary", "cryspy/E_data_classes/cl_2_pd2d.py:take_parameters_from_dictionary", "cryspy/E_data_classes/cl_2_tof.py:take_parameters_from_dictionary", "cryspy/E_data_classes/cl_2_diffrn.py:take_parameters_from_dictionary", "cryspy/B_parent_classes/cl_3_data.py:get_dictionary", "cryspy/procedure_rhochi/rhochi_diffrn.py:get_flags"]}
{"id": "C82", "title": "An atom stays on its site during a refinement", "statement": "The coordinates of an atom are tied by exactly the operations of the space group that keep its position, so that whatever numbers a refinement tries, the position used in the calculation is kept by the same operations; an atom without flags is not moved. This holds for coordinates that are multiples of 1/3000000 if their products with 3000000 come out exactly (in double precision: halves, quarters, to 64ths). Known failures: an atom at (x,-x,z) in P3m1 with x not such a multiple (1/7) is taken for one in a general position, nothing ties x and y, and the refinement of x moves it off the mirror; in double precision this happens already to coordinates like 0.009, 0.991; on a site (x,-x,z) one flag makes two parameters of which only the difference matters.", "quantifier": "All groups of operations, all positions on the grid 1/3000000 and all numbers the refinement may try; the failures for all x off the grid.", "why_tests_cant": "The set of positions and refinement steps is unbounded; the failure concerns a quarter of the decimals and no particular one.", "anchors": ["cryspy/E_data_classes/cl_1_crystal.py:get_dictionary", "cryspy/A_functions_base/symmetry_elements.py:calc_symm_flags", "cryspy/A_functions_base/symmetry_constraints.py:calc_sc_fract_sc_b", "cryspy/A_functions_base/structure_factor.py:calc_f_nucl_by_dictionary"]}
{"id": "C83", "title": "A calculation leaves the crystal with the numbers it used", "statement": "After a calculation or a refinement the crystal holds the numbers that were used: a cell that satisfies the conditions of its crystal system exactly, with the lengths exact and the angles rounded to five decimals of a degree; coordinates between 0 and 1 that equal the ones used up to whole periods and six decimals; occupancies to six decimals; and the errors of refined cell parameters at their own parameters, those of angles in degrees. Without refinement, a cell satisfying its conditions and coordinates between 0 and 1 with six decimals are left unchanged. Known failure: any other coordinate is changed by every calculation, even if nothing is refined, among them 1/3 and all negative ones.", "quantifier": "all crystal systems (monoclinic with unique axis b), all groups, cells, positions, values of a refinement and lists of refined cell parameters", "why_tests_cant": "Tests compare a few crystals after one calculation; they cannot cover every system, position and result of a refinement.", "anchors": ["cryspy/E_data_classes/cl_1_crystal.py: Crystal.take_parameters_from_dictionary, Crystal.get_dictionary"]}
{"id": "C84", "title": "The reflections a crystal lists are complete, counted once, and weighted right", "statement": "The reflections given by a crystal for a range of sin(theta)/lambda (taking symmetry into account) lie strictly inside the range, are allowed by the centring and sorted; each allowed reflection inside is the same, up to the operations of the group and Friedel's law, as one that is listed, whose multiplicity is the number of such reflections. If the indices k and l inside the range are below 50 none is listed twice, so that a sum weighted with the multiplicities is the sum over all allowed reflections. The list without symmetry has every reflection of the closed range once. The equivalent reflections of a given one, asked from the space group, are exactly these, each once. Known failures: in a longer cell reflections are listed twice with full multiplicity (in P1 (0 1 -100) and (0 -1 100)); the multiplicity that comes with the equivalent reflections is the number of operations keeping the reflection, which is wrong for every reflection unless the Laue class is 2/m or 4/mmm.", "quantifier": "all groups of operations with a cell of their symmetry, all cells, ranges and reflections", "why_tests_cant": "The number of reflections and cells is unbounded; the duplicates appear only in cells longer than any test uses.", "anchors": ["cryspy/E_data_classes/cl_1_crystal.py:calc_hkl", "cryspy/E_data_classes/cl_1_crystal.py:calc_hkl_in_range", "cryspy/C_item_loop_classes/cl_1_cell.py:calc_hkl", "cryspy/C_item_loop_classes/cl_1_cell.py:calc_hkl_in_range", "cryspy/C_item_loop_classes/cl_2_space_group.py:calc_hkl_equiv"]}
{"id": "C85", "title": "Setting up a crystal leaves the atoms where they are", "statement": "When a crystal is set up, each atom is given the most special position that contains it, and its coordinates are brought to the first listed coordinates of that position: an atom on the first listed coordinates is not moved (proved for the first coordinates of all positions in the tables), an atom for which fitting parameters are found is moved to a symmetry-equivalent point, setting up again changes nothing, and the coordinates left free are exactly independent parameters that determine the point. Known failures: the parameters are searched only among the signed permutations of the coordinates, so atoms on other listed coordinates can be moved to points that are not equivalent (C2 on the axis through (1/2,0,0), for every height not close to a multiple of 1/4; the rutile oxygen entered at (0.195,0.805,0.5)); the position is looked up once, so coordinates written later are brought back to the old position, or keep its multiplicity.", "quantifier": "all positions of the tables, all rational coordinates, all values of the parameters, all heights of the failing family", "why_tests_cant": "thousands of positions and a continuum of parameters; tests use atoms entered at first coordinates", "anchors": ["cryspy/C_item_loop_classes/cl_1_space_group_wyckoff.py: SpaceGroupWyckoff.give_default_xyz, form_object", "cryspy/C_item_loop_classes/cl_1_atom_site.py: AtomSite.form_object, define_space_group_wyckoff, apply_constraints", "cryspy/E_data_classes/cl_1_crystal.py: Crystal.apply_constraints", "cryspy/A_functions_base/wyckoff.dat"]}
{"id": "C86", "title": "The report on magnetization ellipsoids", "statement": "The ellipsoid reported as displacement parameters U_ij gives, for every cell, tensor and scattering vector, the square of the moment induced by a field along that vector; the moments reported along the three perpendicular unit axes have the size of the induced moment; they are the principal values and axes of the susceptibility tensor whenever the tensor has no two opposite principal values (in particular for tensors without negative ones); the ellipsoid factor does not depend on the order and is a/b-b/c, between -1 and 1, for positive moments a<=b<=c. Known failures: with opposite principal values the reported axes need not be principal axes; with negative moments the factor leaves [-1,1]; the method of the crystal that returns the main axes raises for every crystal with susceptibilities.", "quantifier": "all susceptibility tensors, all non-degenerate cells, all scattering vectors, all choices of eigenvectors an eigenvalue solver may return", "why_tests_cant": "a continuum of tensors and cells, and any choice of eigenvectors for multiple eigenvalues", "anchors": ["cryspy/A_functions_base/local_susceptibility.py: calc_magnetization_ellipsoid_as_u, calc_magnetization_ellipsoid_axes, calc_ellipsoid_factor", "cryspy/D_functions_item_loop/function_1_report_magnetization_ellipsoid.py: report_main_axes_of_magnetization_ellipsoids", "cryspy/E_data_classes/cl_1_crystal.py: Crystal.calc_main_axes_of_magnetization_ellipsoids"]}
{"id": "C87", "title": "Reports on flipping ratios: what is counted, averaged and left out", "statement": "For a loop of measured flipping ratios: calc_chi_sq_points gives the sum of ((FR - FR_calc)/sigma)^2 over the reflections that are not excluded and their number; what stands in the excluded ones and the order of the list have no effect; with non-zero errors the sum is zero exactly when the model gives every used flipping ratio. exclude_by_fr_max(m), m > 0, excludes exactly the reflections with FR outside [min(m,1/m), max(m,1/m)], keeps earlier exclusions, treats m and 1/m, and FR and 1/FR, alike, commutes with another exclusion and never raises sum or number; include_all_points undoes it. report_chi_sq_exp (made exactly for a non-empty list without zero errors) puts every reflection in exactly one of its four classes, gives the means over all n reflections, and lists up to ten reflections beyond three errors in descending order such that none left out deviates more. report_agreement_factor_exp puts every reflection in exactly one class, counts the reflections whose opposite is in the list (an even number when no indices are repeated and 000 is absent), averages a pair with the weights 1/sigma^2 (a value between the two), so that a pair adds (FR1-FR2)^2/(sigma1^2+sigma2^2), and prints the largest asymmetry, in which FR and 1/FR count alike. In the table over sin(theta)/lambda the numbers of the ten bins add to n, and in the first nine lines the number is that of the mean. Known failures, proved: the report ignores exclusions (n*mean is the refined sum plus that of the excluded reflections); exactly one reflection beyond three errors is counted but not listed; the reflections with the largest sin(theta)/lambda are in no mean, and a last bin that holds only them is shown as empty; the mean of the third factor leaves out FR = 1 but divides by all n.", "quantifier": "every list of reflections (any length, any order, any marks), every limit m > 0, every cell function of the indices", "why_tests_cant": "The counts, means and maxima are over lists of any length with real values on any side of the limits; tests sample a few lists and did not notice the excluded reflections, the single worst one or the last bin.", "anchors": ["cryspy/C_item_loop_classes/cl_1_diffrn_refln.py: DiffrnReflnL.calc_chi_sq_points, exclude_by_fr_max, include_all_points, report_chi_sq_exp, report_agreement_factor_exp"]}
{"id": "C88", "title": "Columns of a loop as arrays and back", "statement": "For a loop object: loop.numpy_x, when no such array is stored, gives the values of attribute x of the items in their order (as numpy converts them), and does not touch the items; it can be read exactly when every item has a convertible value. Once read, the same array is given whatever is written to the items. After numpy_to_items there are as many items, each is as if every value of the stored arrays had been written to it by item.x = value, nothing else changes (no array stored, or a shorter one), and no array of a declared name is stored. A loop without items gets as many items as the first stored array is long, filled in the same way from new items. In every history of readings, writes and numpy_to_items in which an attribute is written only while its array is not stored, every stored array shows the items as they are now; and moving the arrays back then changes nothing, for values an array keeps (numbers within bounds, strings other than '.' and '?'). Known failures, proved: a value written to an item after the array of the attribute was read is lost at the next numpy_to_items (for instance in the next calculation); an undefined value (None) of a float attribute becomes nan, a value, after its array was read and moved back; an array of integers cannot be read when one value is undefined.", "quantifier": "every item class, every list of items, every set of stored arrays (any lengths), every history of readings, writes and moves back", "why_tests_cant": "The property is about interleavings of readings and writes of any length; a test sees a few sequences, and the lost update needs a particular order.", "anchors": ["cryspy/B_parent_classes/cl_2_loop.py: LoopN.__getattr__, __setattr__, numpy_to_items", "cryspy/E_data_classes/cl_2_diffrn.py: Diffrn.estimate_FM, take_parameters_from_dictionary"]}
{"id": "C89", "title": "Which measured points take part in the fit", "statement": "From a powder experiment Pd or TOF, get_dictionary takes, in their order and each with its own intensities and errors, precisely the measured points inside the closed interval of the first range object, and marks as excluded precisely those lying in at least one closed interval of the exclude loop (compared at the measured position). Consequently points out of the range do not matter at all, and of the exclusions only the union within the range matters (not order, overlaps, intervals with exchanged limits); chi squared of the sum pattern formed from the measured loop is the sum over the points in the range and in no excluded interval. For Pd2d the same holds for the angles gamma and nu: the arrays keep the pixels with both angles inside, every count in its row and column, and a pixel is excluded iff it lies in one of the rectangles, given in detector angles as measured or in scattering angles corrected for the offsets. PdMeas.apply_constraints gives a missing error the root of the intensity, keeps given errors and is idempotent. Known failures: without a range, without an error for some point, or with a mixture of polarised and unpolarised points get_dictionary raises (apply_constraints is not called); the limits in 2theta are silently put between 0 and 180, so that points at negative angles never take part and an exclusion below zero excludes the point at zero; a negative intensity without error makes apply_constraints raise.", "quantifier": "every list of measured points (any number, order, repeated positions), every range, every list of excluded intervals or rectangles, every calculated pattern, every pair of offsets", "why_tests_cant": "Boundaries, overlaps and alignment of seven columns must hold for every measurement and every list of intervals; a test has one file.", "anchors": ["cryspy/E_data_classes/cl_2_pd.py: Pd.get_dictionary", "cryspy/E_data_classes/cl_2_tof.py: TOF.get_dictionary", "cryspy/E_data_classes/cl_2_pd2d.py: Pd2d.get_dictionary", "cryspy/C_item_loop_classes/cl_1_pd_meas.py: PdMeas.apply_constraints, PdMeasL", "cryspy/C_item_loop_classes/cl_1_range.py: Range", "cryspy/C_item_loop_classes/cl_1_exclude.py: Exclude"]}
{"id": "C90", "title": "Projections of a two-dimensional pattern", "statement": "Pd2dProc.calc_projections_sum_difference gives curves at the angles gamma_min + k*step (step is the difference of the first two gamma, to 5 decimals): for each of them the calculated and the measured sum are the means over the measured pixels of the bin that are not excluded, with the error of that mean (root of the sum of the squared errors, divided by the number), and nan when there is no such pixel; the difference is the same over the pixels with both intensities. A pixel is in the bin k only if its scattering angle is within half a step of the angle of the bin, and surely if it is nearer; no pixel is in two bins, and the sums of the bins add up to the sum over the pixels having a bin; the order of the pixels does not matter; where the calculation meets the pixels the curves agree. Known failures: the pixels of the largest angle are in no bin (at least one pixel is always lost, and a pattern of one bin shows nothing); pixels more than half a step below gamma_min are in no bin; excluded pixels enter the difference.", "quantifier": "every list of pixels (any angles, intensities, errors, nan, exclusions), every step, polarised or not", "why_tests_cant": "Every pixel of every detector has to land in the right bin; a test compares one picture, and the lost last bin is invisible in it.", "anchors": ["cryspy/C_item_loop_classes/cl_1_pd2d_proc.py: Pd2dProc.calc_projections_sum_difference"]}
{"id": "C91", "title": "Sharing out the columns of a loop of a file to the classes", "statement": "When a file is read, a loop whose columns belong to several classes is shared out: for every list of registered classes with different prefixes and no empty names, a column goes to the class with the shortest prefix such that its name is that prefix, one character, and a CIF name of the class in any case; if there is none, to a generic loop. Whatever order the set of prefixes has, every column of the file is in exactly one of the resulting loops with its values untouched, every resulting loop has columns of its own, and apart from them at most one copy: the (last) id column, or else the label, or else the type column of another prefix, under the name of the loop. For the classes that are actually registered, every column of every class but one is recognised, with either separator and in any case. Known failures: the loop of the Wyckoff positions is never recognised (its prefix has a capital letter, the names are compared in lower case) and becomes a loop of the unknown prefix space; when two classes in a loop bring their own label the label of the last is copied to the other, which then has it twice; any character is taken as separator.", "quantifier": "every list of classes, every loop (any names, any number of columns and rows), every order of the set of prefixes; all 50 registered loop classes with all their names", "why_tests_cant": "Which class takes a column depends on all prefixes and names at once, and on the order of a Python set, which differs from run to run; a test reads a few files in one order.", "anchors": ["cryspy/H_functions_global/function_1_cryspy_objects.py: find_name_prefix, loop_to_loopn, L_LOOP_CLASS", "cryspy/C_item_loop_classes: PREFIX and ATTR_CIF of the item classes"]}
{"id": "C92", "title": "Ion symbols, electron shells and the keys of the data base", "statement": "The symbol of an atom, isotope or ion in any case and with blanks around it is read right: letters alone are a neutral atom; letters, digits and a sign are the element with that charge; digits and letters are the isotope. Hence every isotope and element of the table of scattering lengths is found under its own symbol, an ion scatters like its element, and every ion with a tabulated magnetic form factor is found under its symbol. The shell of an ion has exactly (atomic number - charge) electrons, for every element of the data base but the last and every charge: a positive charge empties the listed valence orbitals from the end, a negative one fills them from the beginning, each orbital keeps between one electron and its capacity, the core never changes, and a charge the valence orbitals cannot give or take raises. Known failures: an isotope together with a charge is never read right (it raises, as the example of the docstring does, or gives another element); a sign without digits stays in the name, so the magnetic form factor is silently zero; deuterium has a scattering length but no shell; the shell of oganesson cannot be read.", "quantifier": "every text of the stated form (any letters, any number of digits, any blanks), every list of orbitals and every charge; all 118 elements with every charge, all 372 isotopes, all tabulated magnetic ions", "why_tests_cant": "Symbols are free text and the wrong branch silently gives zero form factors or another element; a test tries a few ions.", "anchors": ["cryspy/A_functions_base/charge_form_factor.py: get_atomic_symbol_ion_charge_isotope_number_by_ion_symbol, get_atom_name_ion_charge_shell, add_ion_charge_to_shell, get_shell_orbit_electrons, get_full_shell", "cryspy/A_functions_base/function_1_scat_length_neutron.py: get_scat_length_neutron", "cryspy/A_functions_base/magnetic_form_factor.py: get_j0_j2_parameters", "cryspy/A_functions_base/function_1_magnetic.py: get_j0_j2_by_symbol", "cryspy/A_functions_base/database.pickle: Elements, Isotopes, Magnetic Form Factor"]}
{"id": "C93", "title": "Errors estimated from the final simplex of a minimisation", "statement": "For a chi squared that is quadratic around the first vertex (value c, gradient g, invertible Hessian H), in any number of dimensions, and a simplex whose other vertices lie on the axes through the first one at positive distances, the estimate does not depend on the size of the simplex: the error matrix is exactly 4 c H^-1 and the second result is exactly twice the distance from the first vertex to the minimum, parameter by parameter; at the minimum the squared standard uncertainty is exactly twice the variance of least squares, (chi squared / number of observations) (H/2)^-1. For every simplex the matrix used is half the Hessian in units of the radii plus a diagonal error, twice the difference of the chi squared at the given vertices and at the vertices moved onto the axes. Known failures: the factor two in both results; for a simplex that is not along the axes the diagonal error makes the result meaningless (for a parabola the matrix can vanish, and the code raises).", "quantifier": "every dimension, every simplex, every quadratic function (any c, g, symmetric H)", "why_tests_cant": "The estimate is a formula in function values at many points; a test compares one function and one simplex, the theorem gives the result for all quadratic functions and all simplices.", "anchors": ["cryspy/A_functions_base/function_1_error_simplex.py: error_estimation_simplex", "cryspy/procedure_mempy/mempy_by_dictionary.py: mempy_susceptibility_refinement (standard uncertainties from the final simplex)"]}
{"id": "C94", "title": "Form factors calculated from Slater orbitals", "statement": "For every list of Slater functions (any coefficients, positive exponents and principal quantum numbers, any kappa), every sin(theta)/lambda > 0 and every order l below twice the smallest principal number, the calculated form factor of an orbital is exactly the integral over r of r^2 R(r)^2 j_l(4 pi s r), R being the sum of the normalised Slater functions and j_l the spherical Bessel function. In forward direction order zero gives the integral of the density (exactly one for a single function with coefficient one) and the other orders vanish; no angle gives more than the forward value; a shell of normalised orbitals gives its number of electrons in forward direction and never more. Known failures: an order not below the sum of the two principal numbers gives 0 instead of the transform; the density that the code draws uses the Bohr radius 0.52918, the form factor 0.529177.", "quantifier": "every list of Slater functions, every kappa, every angle, every order", "why_tests_cant": "The code fills a table with a two-fold recurrence that is nowhere compared with the integral it stands for; a test samples a few orbitals and angles.", "anchors": ["cryspy/A_functions_base/orbital_functions.py: calc_rho_normalized, calc_transs, calc_jl_per_2sthovll, calc_jl", "cryspy/A_functions_base/charge_form_factor.py: calc_jl_for_shell_of_ion"]}
{"id": "C95", "title": "Symmetry constraints written to susceptibility and exchange tensors", "statement": "For every group of site operations (that preserve the cell metric, without time reversal) and every tensor of the type Cani, applying the constraints of a crystal leaves exactly the allowed tensors unchanged; a component that is not marked as constrained keeps its value, error and refinement flag, a marked one is not refined, and the unmarked components are coordinates of the space of allowed tensors: for any values of them there is exactly one allowed tensor, and their number is its dimension. Applying the constraints five times gives an allowed tensor from every tensor; the type Ciso gives a multiple of the unity, which every site allows. Known failure: one application does not always give an allowed tensor (threefold axis: diagonal 1, 2, 3 becomes 1, 1, 3/2), because a dependent component is calculated from old values of other dependent components.", "quantifier": "every site group and cell it preserves, every tensor; the elimination for every size and every weighted-symmetric projector", "why_tests_cant": "The constraints come from an elimination without pivoting that tests only single diagonal elements; that it never meets a zero pivot with a nonzero column, and that the determinants pick the right components, must hold for all site groups and cells.", "anchors": ["cryspy/C_item_loop_classes/cl_1_atom_site_susceptibility.py: calc_constr_matrix, calc_independent_lines, AtomSiteSusceptibility.apply_space_group_constraint, apply_chi_iso_constraint", "cryspy/C_item_loop_classes/cl_1_atom_site_exchange.py: AtomSiteExchange.apply_space_group_constraint", "cryspy/E_data_classes/cl_1_crystal.py: Crystal.apply_constraints"]}
{"id": "C96", "title": "The report on powder experiments", "statement": "For a sample of phases with n unit cells each, whose scales are proportional to n over the cell volume (the integrated intensity per cell), the reported weight and volume fractions are the shares of the phases in the mass and in the volume of the sample; they are between zero and one and add up to one; a common factor of the scales, and describing a phase in a larger cell, change nothing. The density is the mass of the cell over its volume, the mass and volume magnetization of a phase the powder mean of the moments of its cell, from the susceptibility, over the mass and the volume of the cell; the totals are those of the whole sample, and the total per volume is the total per mass times the density of the mixture. The moment per ion is the mean over the directions of the field of the moment along it, divided by the number of ions; for atoms with the same isotropic susceptibility it is the field times this susceptibility. The six numbers of the tensor table give the mass magnetization along any direction. A phase without paramagnetic atoms has no magnetization.", "quantifier": "every list of phases, cells, atoms, scales, fields and susceptibilities", "why_tests_cant": "The fractions and totals are sums over all the phases weighted in different ways; that they describe one sample has to hold for any composition, cell and scale.", "anchors": ["cryspy/H_functions_global/powder_experiments.py: report_powder_experiments, calc_unit_cell_weight, calc_density_of_crystal"]}
{"id": "C97", "title": "Simulated powder patterns", "statement": "A simulated pattern has its points equally spaced from the start to the end, to half of a thousandth of a degree, with a step that differs from the given one by no more than its share of a half; a step that divides the range is used as it is. For unpolarized neutrons and a range between 0 and 180 degrees in thousandths of a degree, the intensity of each point is the sum of the calculated intensities up and down and of the background at its angle, to 0.000515; for polarized neutrons the pattern up is the calculated one with half of the background. The call raises exactly for a step of zero or a range against the step. Known failures: the pattern down is a copy of the pattern up, whatever was calculated; a start that rounding to thousandths puts below the range (4.0004) loses its first point and every intensity is written to the angle one step before its own, while the last point keeps zero; points over 180 degrees keep zero.", "quantifier": "every start, end and step, every calculated pattern", "why_tests_cant": "The points that are calculated are a selection of those that are written; that values and angles stay together depends on the rounding of the range for every start, end and step.", "anchors": ["cryspy/H_functions_global/simulations.py: simulation_pd", "cryspy/B_parent_classes/cl_2_loop.py: LoopN.numpy_to_items", "cryspy/E_data_classes/cl_2_pd.py: Pd.take_parameters_from_dictionary"]}
{"id": "C98", "title": "Symmetry operations from generators", "statement": "The list of operations made from generators has every product of powers of the generators, the last generator first, exactly once, numbered from one, with the identity first. When every generator passes through the products of those before it (times the new one on the right is the new one on the left times another such product; enough to look at the generators themselves), the list is closed under composition, has the inverse of each of its operations, and is the group that the generators generate. The list of the images of a coordinate text under a group of operations has exactly the images, with shifts put in the cell. The operations that are said to take one point to another contain every one that does up to lattice translations and only those that do to 1.001e-5. Known failures: for generators in an order in which they do not pass (y,x,z then x,z,y) the list is not a group; points as close as can be on different sides of a cell edge are not found to be the same.", "quantifier": "every list of generators that together make a set of operations with denominators up to ten and have orders up to a hundred, every coordinate text, every pair of points", "why_tests_cant": "Closure of a generated list under composition is a fact about all pairs of products of powers, for every number of generators.", "anchors": ["cryspy/C_item_loop_classes/cl_1_space_group_symop.py: SpaceGroupSymop.get_symops_by_generator_xyz, SpaceGroupSymopL.create_by_generators_xyz, get_coords_xyz_by_coord_xyz, get_symop_for_x1_x2", "cryspy/A_functions_base/function_1_strings.py: transform_string_to_r_b, transform_r_b_to_string"]}
{"id": "C99", "title": "The cell type of a magnetic crystal", "statement": "When a crystal is given by magnetic operations and centrings and its cell has no type, the type is found from the operations. For every crystal class in its standard setting (all 32, trigonal classes on hexagonal axes, monoclinic with unique axis b), every centring and every assignment of glide and screw translations and time reversal, the type is that of the class with the centring of the file; a cell that has the symmetry of the crystal (scalar products kept by the rotations) keeps all its numbers when the type is applied; afterwards the cell meets the metric conditions of its crystal system. The same holds on rhombohedral axes for classes with twofold axes or mirror planes. Known failures: classes 4, -4, 4/m get an orthorhombic type and their second length is not tied to the first; classes 3 and -3 on rhombohedral axes get a cubic type and their angles become 90 degrees; an orthorhombic crystal whose moments double the cell (222 with a translation of a half along a with time reversal) becomes tetragonal and its length b is overwritten by a; a tetragonal one doubled along c raises an exception.", "quantifier": "every list of operations and centrings of each crystal class, every cell", "why_tests_cant": "The type is found by counting operations and looking at entries of their matrices; that this is right is a fact about all groups with all translations, and that a cell is not changed about all cells.", "anchors": ["cryspy/A_functions_base/symmetry_elements.py: define_centring_type_by_symm_elems, define_bravais_type_by_symm_elems, calc_full_mag_elems", "cryspy/E_data_classes/cl_1_crystal.py: Crystal.get_dictionary, calc_sc_v_unit_cell_parameters", "cryspy/C_item_loop_classes/cl_1_cell.py: Cell.apply_constraints"]}
{"id": "C100", "title": "Magnetic moments induced by a field", "statement": "The crystal made of the moments induced by a field has, for every atom with a susceptibility, one atom at every image of it: every operation's image is there within 0.000005 up to a lattice translation, no position twice, labels all different, and the number of images times the number of operations of the site is the number of operations (for images that coincide or differ by more than 0.00001). The moment of an image is chi' G h/|h| with chi' = R chi R^T, rounded to five digits, for every operation R that carries the atom there, if the tensor has the symmetry of the site: it does not matter which operation the program met first. G is the matrix of products of the unit vectors along the axes; only the direction of the field counts; the opposite field gives opposite moments, no field none; and with right angles the moments turn with crystal and field. Known failures: without right angles the field is divided by the root of the sum of squares of its components, not by its length, so that in a hexagonal cell equivalent field directions (1,0,0) and (1,1,0) give moments that differ by the square root of two; an atom on a three-fold axis written with five digits becomes three atoms; an atom just off an inversion centre is one atom at 1/4 but two at 0 and 1.", "quantifier": "every group of operations, every atom, susceptibility tensor, cell and field", "why_tests_cant": "That the moments do not depend on which of several operations is met first, and turn with the crystal, are statements about all groups, tensors and fields; a test fixes one.", "anchors": ["cryspy/E_data_classes/cl_1_crystal.py: Crystal.calc_magnetic_moments_with_field_loc", "cryspy/C_item_loop_classes/cl_2_space_group.py: SpaceGroup.calc_rotated_matrix_for_position", "cryspy/C_item_loop_classes/cl_1_cell.py: Cell (m_m_norm)"]}
{"id": "C101", "title": "The operations of a site", "statement": "The operations the program takes as those of an atom's site (from which the constraints of its tensors come) always exist if the identity is an operation, and they are always all the operations that carry the atom to one rounded position, the lexicographically first among the positions near it. If every operation that does not leave the atom's place takes it to a position at least sqrt(1e-5) away, they are exactly the operations that carry the atom to itself up to a lattice translation, they form a group, their rotations (without repetition) form a group, as the constraints of tensors need, and the tensor summed over them has the symmetry of the site. Otherwise it can fail: an atom typed at (0.33333, 0.66667, 0) on a three-fold axis gets the 120 degree rotation alone, without the identity, and its tensor no constraint; in P-1 an atom at (0.501, 1/2, 1/2) gets the inversion alone, one at 0.499 the identity alone.", "quantifier": "every list (or group) of operations and every rational position", "why_tests_cant": "That the chosen operations form a group, whatever the group and position, is a statement about all of them; a test takes sites typed exactly.", "anchors": ["cryspy/C_item_loop_classes/cl_2_space_group.py: SpaceGroup.calc_el_symm_for_xyz", "cryspy/C_item_loop_classes/cl_1_atom_site.py: AtomSite.calc_sc_chi, calc_constr_number"]}
{"id": "C102", "title": "The prior density made of core electrons", "statement": "The core of an electron configuration is read as it is written: for every list of shells (principal number, letter s, p, d or f, number of electrons) with any blanks between, the shells come back in order with their numbers; the valence part likewise, with or without numbers. The dictionary has for an atom the functions of its shells. From them the prior density of a reconstruction is made: in the basin of every paramagnetic atom it is proportional to the electron density of its core at the distance to the nucleus, with one positive factor for the basin, it is nowhere negative, and it holds as many electrons as there are such atoms in the cell. The electron density integrates over space to the number of core electrons if the orbitals are normalised; kappa contracts the atom (density kappa^3 times that of the free atom at kappa r). If every paramagnetic atom has a configuration with a core and one kappa there is no exception; otherwise there is one. Known failures: shells separated by commas are cut to the first, a shell in capitals is passed over, a comma passes for a letter, what follows the number is ignored.", "quantifier": "every configuration text, grid, distances, orbitals, kappa and list of paramagnetic atoms", "why_tests_cant": "That every configuration is read back, and the integral and shape of the density for all orbitals and grids, are statements about unbounded sets and improper integrals.", "anchors": ["cryspy/C_item_loop_classes/cl_1_atom_electron_configuration.py: AtomElectronConfiguration.get_core_shells_populations, get_valence_shells", "cryspy/E_data_classes/cl_1_crystal.py: Crystal.get_dictionary", "cryspy/A_functions_base/orbital_functions.py: calc_density_spherical", "cryspy/procedure_mempy/mempy_by_dictionary.py: mempy_reconstruction_by_dictionary"]}
{"id": "C103", "title": "The parameter a mark stands at", "statement": "A mark put on a refined parameter ties the number that this parameter has in the calculation, not another one: polarization, flipper efficiency, wavelength, offsets, extinction, the five width parameters of the instrument, scales of phases, time-of-flight constants and components of susceptibilities are each taken for their own place in the dictionary, so that in every evaluation of the objective the numbers in the places of parameters with marks of the same label agree up to the signs of the marks, the others get the numbers of the minimiser, and nothing else changes. Known failures: a width parameter of a phase is taken for that of the instrument, so that tying those of two phases raises an exception and tying those of phases in two experiments ties the instruments and leaves the phases free; all other parameters (cell, positions, occupancies, displacement parameters, moments, background, asymmetry, texture, crystallite sizes, coefficients and peak shapes in time of flight) are taken for places that do not exist, and a mark on them makes the refinement raise.", "quantifier": "every list of refined parameters and marks, every vector the minimiser tries, every order of iteration over the set of labels", "why_tests_cant": "That no parameter is taken for another one concerns all pairs of parameters; the values hold for every vector tried.", "anchors": ["cryspy/B_parent_classes/cl_4_global.py: transfer_cif_names_to_dict_names, GlobalN.get_dictionary", "cryspy/procedure_rhochi/rhochi_by_dictionary.py: rhochi_rietveld_refinement_by_dictionary"]}
