# Design: a Lean 4 model of cryspy

## Method

Each area of the code has a directory under `lean/Verif/`: `Model.lean` (the definitions, each citing the file and
lines of /repo it models), `Spec.lean` where the specification needs notions of its own, `Lemmas*.lean`, and `Props*.lean` with the theorems
named in MANIFEST.json.  Where the code is a long list of formulas (matrix algebra, unit cell, flipping ratios, extinction,
profiles, displacement factors) the model is produced from the Python text by the translators in `tools/`
(`py2lean.py` and `gen_*.py`, reading /repo's syntax tree); the generated files are committed in `lean/Verif/Gen/` and
`lake build` does not run the translators.  The tables (`itables.txt`, `wyckoff.dat`, the name tables of
`function_2_space_group.py`) are copied by `gen_sg.py` and `gen_wyck.py`.

A property that the code has only on part of its domain says so in its statement: the domain (where possible exactly, as an
"if and only if") and the "Known failures".  It counts as proved when both the property on that domain and each failure are theorems;
claims of which something remains unmodelled or unproved are "partial" in MANIFEST.json (theorems with the suffix `_partial`).
A failure is stated with a concrete input as witness; such theorems have names
ending in `_wrong`, `_stale`, `_missed`, `_raises`, `not_…` and the like and their comments begin with "failure".

Beside each theorem with hypotheses stands an `example` or a concrete theorem showing that a non-trivial case meets them.

Mutation testing: `seeded/LOG.jsonl` lists the edits of the model made in a scratch copy, and which theorems failed.

## Plan and status per property

- **C01** Writing an attribute changes that attribute only, to the coerced and clamped value. `ItemN.__setattr__` as a total function on the `__dict__` over an abstract class description (Verif/Item). Frame theorem by case analysis. *proved.* Item attribute writes.
- **C02** Declared bounds and allowed values hold in every reachable state of an item. Invariant of `setattr`, by induction over write histories; the cell class with its misspelled key as an instance. *proved.* Holds for every attribute whose bound is declared; fails for cell lengths because of a misspelled key (negation proved).
- **C03** The list of refined variables is exactly the set of flagged parameters. The four methods over the class description; exact membership by induction over the attribute list. *proved.* 
- **C04** A variable written by name is read back by that name and nothing else moves. Get and set by name for items, loops and data containers (Verif/Container); round trip and frame; the case mismatch of loop names as a proved failure. *proved.* Round trip fails for a loop whose name has an upper-case letter (negation proved).
- **C05** Cached derived quantities never survive a write to the attribute they derive from. Cached internals with `form_object` as a parameter; theorem for ordinary writes, failure for `None`. *proved.* Derived values are stale after writing None (negation proved).
- **C06** A data container holds at most one object per name, and adding replaces. The container as a name table, `add_items` with an arbitrary set order; invariant over histories. *proved.* Assignment under another object's name breaks uniqueness (negation proved).
- **C07** Text form of value, error and mark reads back as written. Reader and writer on `List Char` (Verif/Text) with the rounding of doubles as a parameter and as an exact 53-bit model `fl64`. *proved.* Exact arithmetic in full, double precision with the digits lost bounded; the common logarithm is exact in the model.
- **C08** The prefix of CIF names is the longest common prefix. Common prefix as greatest lower bound of the prefix order, induction over the arguments. *proved.* 
- **C09** A symmetry operation written as text is read back as the same operation. Writer and parser at character level, `Fraction.limit_denominator` as the continued fraction of the standard library. *proved.* For any labels and any number of components; the two _rounded theorems show the denominator bound is needed.
- **C10** Symmetry elements act on grid points as a group acts. Integers with floor division; action of composed operations on grid points. *proved.* Holds when mixed axes have equal grid sizes; the code checks only denominators (negation proved).
- **C11** The asymmetric unit partitions the grid of the unit cell. Grid, smallest image, `numpy.unique` as lists; orbit counting by permutations of the grid. *proved.* 
- **C12** Site multiplicity times stabiliser size is the group order. Orbit-stabiliser for the list of operations acting on rational points modulo the lattice. *proved.* 
- **C13** Sum of translations is exact and normalised. Exact rational arithmetic with gcd/lcm. *proved.* sum_elem_symm_b is inexact for mixed denominators (negation proved).
- **C14** Full symmetry from reduced symmetry. Full list = all products of centrings, reduced operations and inversion. *proved.* 
- **C15** Magnetic operation composition is associative and consistent. Affine composition; failure for the order of rotations. *proved.* Rotations multiplied in the opposite order to the translation (negation proved).
- **C16** Equivalent reflections share |h| and include the reflection. Row vectors times integer matrices; classes and lengths. *proved.* 
- **C17** Tensors averaged over the site symmetry are invariant and averaging is a projection. Averages over lists of columns, re-indexing by the group (Verif/Constr). *proved.* Full for the displacement tensor and both susceptibility averages; for positions the fixing half holds when no component crosses a cell boundary, and position_jumps proves the general claim false (coordinates are reduced modulo one before averaging).
- **C18** Flat matrix algebra is matrix algebra. Formulas translated by tools/gen_matrix.py against Mathlib's matrices, by `ring` on all entries. *proved.* Every value formula is proved except calc_m_sq (wrong entry, negation proved); calc_inv_m fails for tiny determinants; the wrong derivative tables are characterised exactly.
- **C19** Reciprocal metric is the inverse of the metric. Translated formulas of unit_cell.py; identities over the reals from cos²+sin²=1. *proved.* Over the reals, for every non-degenerate cell.
- **C20** Cartesian matrices factor the metric. As C19 with square roots. *proved.* 
- **C21** Tensor transforms to and from Cartesian frames are inverse to each other. As C19; two-sided inverses. *proved.* 
- **C22** Analytic derivatives of the unit-cell functions. `HasDerivAt` of every translated function against the translated derivative; wrong entries as proved failures. *proved.* Every reported table is classified: right for all cells, right exactly for stated cells, or never right (placeholder zeros, sign errors).
- **C23** The local reflection frame is orthonormal. arcsin/arccos branches of calc_matrix_t over the reals. *proved.* Always a rotation; the third row is the direction exactly except in a narrow range where it is off by at most 1e-5 (negation of the exact claim proved); 000 stops the program.
- **C24** Flipping-ratio intensities are non-negative and swap with the polarisation. Translated flip_ratio.py; sums of squares, exchange of polarisation. *proved.* Non-negativity and the Blume cross-section are proved for every beam without extinction, and with extinction for an achiral structure factor; iint_extinction_negative proves the general claim with extinction false (the chiral term is not multiplied by the extinction factor).
- **C25** Derivatives of the polarised intensities. `HasDerivAt` against translated derivatives, with and without an extinction function. *proved.* For any extinction function whose own reported derivative is right at non-negative intensities.
- **C26** Extinction factors stay in (0,1] and equal 1 without extinction. Translated extinction.py with partiality for NaN; bounds and derivatives. *proved.* Range and monotonicity hold except for the primary factor in backscattering (NaN, primary_nan) and the Gauss factor near cos 2theta = 1 (jump to 1, gauss_not_antitone); derivatives over the intensity are right, those over radius and mosaicity of the secondary models are proved wrong.
- **C27** Preferred-orientation factor. Translated preferred_orientation.py; value one without texture, derivatives. *proved.* For any cell, hkl and axis; also that the area-detector factor conserves the average intensity, and what the one-detector factor averages to.
- **C28** Powder profile functions. Translated profile functions; integrals over the line, derivatives, asymmetry. *proved.* Values, areas, widths and angle transforms are proved. Proved wrong: the derivative of the Lorentz factor for k not 0, of the Gaussian over position, of the Lorentzian over width, of the total width (sign), of the clamped Gaussian width; non-negativity fails for large asymmetry.
- **C29** Time of flight and d-spacing convert to each other. Quadratic roots over the reals. *proved.* The round trip is exact for dtt2 <= 0; d_of_time_wrong proves that for dtt2 > 0 the code returns the other (negative) root, d_range_zero that dtt2 = 0 gives no range.
- **C30** Displacement parameters convert without loss. Translated debye_waller_factor.py; inverse conversions, derivative and composition law. *proved.* Conversions, factor and derivatives in full; writing a refined tensor back uses the unconstrained cell: write_back_wrong proves the loss for a refined tetragonal cell.
- **C31** Cell constraints of the crystal system. Record model with flags; case analysis over Bravais types; dictionary version as matrices. *proved.* All Bravais types and settings except monoclinic settings whose unique axis is not b, where the claim is proved false.
- **C32** Vibration constraints of a site. Decision tree on integer sums; all site groups of the cubic and hexagonal frames enumerated through subgroup closure and decided in the kernel, then lifted to all real tensors. *proved.* Every site group of the cubic and hexagonal frames is classified and the constraint decided; 13 of 46 kinds are wrongly constrained (cl_1_atom_site.py:225 compares with the number 22, and kinds the decision tree lacks); rhombohedral sites are covered by the cubic frame.
- **C33** Density files read back what was written. Characters: writer, `readlines`, fixed columns; induction over lines. *proved.* Character-level model of writer and reader; the round trip is proved for all data that fit the columns except angles (read as degrees: angles_wrong) and denominators of centring translations (shift_wrong). Exact rationals instead of doubles.
- **C34** Density normalisation. Finite sums over lists of points. *proved.* All densities with non-zero sums, exact rationals; atoms whose label has more than ten characters are not normalised (long_label_wrong, the structured array cuts labels).
- **C35** Background interpolation. `numpy.interp` by recursion over increasing nodes, any ordered field. *proved.* Over any ordered field; numpy.interp is modelled by its documentation for increasing nodes.
- **C36** Correlation matrix and inverse Hessian. Matrices over the reals; text at character level. *proved.* Matrix part over the reals, text part at character level over the rationals; distinct labels without blanks. Variances below 5e-11 are lost in the text (small_variance_lost).
- **C37** Crystal system and IT number tables. Finite tables, decided for all numbers and codes. *proved.* Default code not offered for 18 trigonal groups (default_not_offered), code 1a-cb not handled (axes_missing); everything else holds.
- **C38** Centring translations form a group. Finite table of rationals. *proved.* 
- **C39** Change of basis preserves composition of operations. Affine maps over ℚ; orthonormal changes. *proved.* Holds exactly for orthonormal axes, which all settings of the program have; false for other axes (change_id, change_wrong). transform_symop_operation_xyz_by_Qq_xyz transposes the wrong variable and always raises; not modelled.
- **C40** Automatic choice of coordinate system code. List scan. *proved.* 
- **C41** Linear constraints are satisfied after a Hamilton step. Mathlib matrices, arbitrary sizes. *proved.* Also proved: the step the program takes is not the constrained minimum since it uses the Hessian where Hamilton's formula has its inverse (hamilton_not_minimal).
- **C42** Atoms are recognised on special positions. Elimination modulo 1 over ℚ; soundness for all matrices; completeness through the list of linear parts of wyckoff.dat (tools/gen_wyck.py). *proved.* Soundness for every matrix and point; completeness for 183 of the 189 linear parts of wyckoff.dat; for the other six, forms (2x,x,..), the claim is proved false (half_missed, special_taken_for_general).
- **C43** Root finding keeps the bracket. Loops with fuel over an ordered field; theorems give the needed fuel or prove there is none. *proved.* The last four are proved failures of the code outside the hypotheses: no return when the right end is a root, a root at a grid point reported twice, the switch drops a sign change, two roots in one cell not seen.
- **C44** Expansion of the density to P1. Grid action and first-occurrence table. *proved.* Centre of symmetry at the origin (the function takes no centre); the grid sizes of axes mixed by a rotation agree.
- **C45** Systematic absences and centring. Characters of finite groups of translations; phases as exp of rationals. *proved.* 
- **C46** Time-of-flight peak shape. Improper integrals of the translated profile (Mathlib integrals). *proved.* Over the reals; the exponential integral is the integral that defines it; the clipping of infinities of doubles is left out.
- **C47** Refined background is the displayed background. The three background calculations against the display functions. *proved.* Agreement holds inside the nodes; outside the refinement extrapolates where the display continues constants (outside_disagrees), one node raises, the derivatives over node intensities are zeros or do not depend on the point (d_background_wrong, d_area_wrong), and the cosine background ignores time_max (cosines_disagree).
- **C48** Density between grid points. Trilinear interpolation on a periodic grid, any ordered field. *proved.* 
- **C49** Numerical inverse Hessian. Second differences of arbitrary functions; exactness for quadratics. *proved.* Exactness and symmetry proved; the last part of the claim is false: the reported errors are too small by sqrt 2 (errors_too_small).
- **C50** Parameters tied by a mark stay tied. Fold of assignments over an arbitrary label order. *proved.* For parameters whose names are known to the calculation; otherwise the objective raises (mark_first_unknown).
- **C51** The refinement returns what it reports. State machine of the refinement; arbitrary traces of the minimiser. *proved.* Reported chi_sq always belongs to the parameters left in the dictionary; false parts: the refinement leaves the last evaluated point and not the best (refine_not_best), the least-squares loop returns the profile of the rejected step (lsq_stale) and need not stop (lsq_endless).
- **C52** Derivatives of the total chi_sq. Fold of additions indexed by names. *proved.* 
- **C53** Names and numbers of space groups. Lookup tables generated from the source (tools/gen_sg.py); lookups proved equal to lookups by number keys, then decided in the kernel. *proved.* Exceptions proved: P 1 1 1 is the extended name of numbers 1 and 2 and leads to 2 (extended_triclinic); monoclinic groups have no full name (fullName_none).
- **C54** The operations of every setting are a group. The whole path file → cards → operations is evaluated in the kernel for all 802 settings; the check modulo 120 is proved sound for the group property. *proved.* Holds for 653 of the 802 offered settings; the exceptions are listed exactly: 144 settings raise (setting_raises), five are no group (setting_48_not_group).
- **C55** The structure factor is that of the whole unit cell. Sum over the group split by the fibres of g ↦ g x. *proved.* f_nucl_unit_cell takes the orbit of the rounded site; rounding_wrong: an atom whose coordinates need more than six digits can lose its special position, since coordinates are rounded one by one.
- **C56** Equivalent reflections. Re-indexing of the sum over the group by left multiplication. *proved.* 
- **C57** Stored intermediate results do not change the answer. The dictionary as a record of optional entries; invariant over any history of calls. *proved.* Holds when coordinates or displacement parameters are among the refined ones; proved false when only occupancies or the cell are refined (stored_stale, occupancy_stale).
- **C58** The list of reflections is complete. `calc_index_hkl_multiplicity_in_range` with numpy's freedom for ties as a parameter (`Choices`); the class of a reflection is the orbit under the full group, finiteness from the bound |h_i| ≤ 2 a_i sinθ/λ. *proved.* Under 2·a·smax < 500 for the three axes (SmallBox): the labels 10^6 h + 10^3 k + l are unique only for indices below 500.
- **C59** Powder intensities of a polarised beam are means over the powder. The six functions are translated from the source (tools/gen_iint.py); the mean is the integral over the angle around the scattering vector of the single-crystal intensity of the spec. *proved.* Proved except for the second intensity of mixed crystals out of the plane, where the code has a wrong sign: mix2_minus_iff says exactly when it is right, mix2_minus_negative gives a negative intensity.
- **C60** Derivatives of powder intensities. Generated derivative terms against `HasDerivAt` for each argument; wrong ones get an iff. *proved.* All derivatives of the paramagnetic case; for the others the theorems ending in _iff say exactly when a wrong derivative is right. For the two-dimensional mixed case the program returns no derivatives (empty dictionaries).
- **C61** Structure factor tensor of a paramagnetic crystal. As for C55 with a tensor carried by the operations; isometry of the cell makes the Cartesian rotations orthogonal. *proved.* Values proved in full. The reported derivative over the susceptibility is (1+i) times the derivative, so that part of the claim is false; stated for proper rotations, or parameters that do not enter the component 23 (for the others d_calc_m_q_inv_m_q is wrong too, C18).
- **C62** Magnetic form factors. Generated from magnetic_form_factor.py (tools/gen_ff.py); derivatives by the chain rule. *proved.* Values proved; derivatives of <j2> are wrong (grad_j2_iff says exactly when they are right).
- **C63** Items and loops saved to CIF are loaded as they were. Records of (name, text) stand for the file (the parser is an external package); reading one attribute after the other is shown to be reading each from a new object (frame lemmas of C01), then each kind of attribute is followed through writing and reading with C07. The line of a loop row is split by the CIF rules in a separate specification. *proved.* The failures in the statement are theorems. The parser is the package pycifstar, outside the repository: it enters as the list of (name, text) records; the syntax of a loop row is proved against the CIF rules. Refined parameters in exact arithmetic and with the exception of C07.
- **C64** The calculated powder pattern is the sum of its phases. The loop over the phases of the three programs as a fold with the variables that survive a turn as state; induction over the phases against a sum written in the specification. *proved.* Proved when no phase is textured, when all are (not in time of flight), and for the two-dimensional program always; the other cases fail as the theorems show. Structure factors, positions and profiles per phase are inputs here (their own properties are elsewhere).
- **C65** Chi squared of a powder pattern. Doubles as reals with inf and nan for the divisions by zero errors, so that masking after dividing is seen; induction over the points. *proved.* The part of the difference pattern is not masked by the exclusions: chiPowder_spec gives exactly what is computed, the failures are theorems.
- **C66** Chi squared of a single crystal and its derivatives. Sums over the reflections; derivatives by the chain rule with the derivatives of the intensities as hypotheses; numpy's broadcasting of a column against rows gives the failures. *proved.* Values in full; derivatives when no reflection is excluded. The intensities and their derivatives enter as given numbers: they are C24, and with the contamination by half the wavelength C25.
- **C67** The maximum entropy reconstruction returns the best density it tried. The loop with all its variables (previous density, cached derivative, unbound names, NaN comparisons) is refined to a search of six lines in the specification; minimality and normalisation by induction over the steps. The loop is proved for any objective, then instantiated. *proved.* Everything but the two failures, which are theorems; in exact arithmetic with NaN where a density vanishes, without overflow.
- **C68** The derivative that steers the maximum entropy reconstruction. `calc_iint` is the generated model of C25; the chain from the density over the structure factors to the goodness of fit is differentiated along every direction. *proved.* Proved without extinction; with extinction it fails (grad_extinction_iff).
- **C69** Magnetic structure factors of a density are sums over the whole cell. One orbit at a time: the fibres of the map from operations to points have the same size (orbit-stabiliser), so the mean over the operations times the multiplicity is the sum over the orbit; the orbits of the representatives partition the cell (C11). The mean over the site group (C17) makes the tensor at a representative invariant, hence it extends to a field over the cell that respects the symmetry. *proved.* For the reflections other than 000 (for which the direction of the scattering vector is undefined); without stored data, as the program calls it.
- **C70** The nearest atom of a point and its basin. Component by component: the wrapped difference is the integer translate of least absolute value; the length is the metric's quadratic form (C20); minima and first minima of lists by induction; counterexamples in a cubic and a hexagonal cell. *proved.* In oblique cells only for offsets with all fractional components below one half (closest_nearest_short); it is false in general there (hexagonal_misses). The pair of atom and operation fits only when no other atom is as near (closest_pair, pair_mismatch).
- **C71** The reflections of a powder pattern cover the measured range. Monotony of sine and arccosine on the stated domains; completeness of the list of reflections from C58; explicit detectors for the failures. *proved.* Proved on the stated domains; false outside them (the _lost theorems). The pattern with epithermal neutrons is not modelled.
- **C72** A two-dimensional pattern moved to another grid keeps directions and intensities. Directions as unit vectors (C28 for the two conversions); the cell of a point by floor and fractional part, uniqueness of the cell, induction over the flattened table. *proved.* For equidistant grids; false for others (uneven_wrong) and on the last row and column (last_column_lost).
- **C73** The orientation matrix, the cell and the diffractometer angles. Columns of UB as a reciprocal cell: its metric is UB^T UB, the code's cell is the reciprocal of it (C19), the class's B is that of C20; orthogonality by cancelling B; angles by polar coordinates (arctan2 as complex argument) and the 2-pi periodicity; history by an invariant over actions. *proved.* False with the detector on the right (angles_right_iff), for the notation X-YZ (type_names) and for the cell read after a write (cell_stale). The class method calc_ub is not modelled: it calls a method that does not exist.
- **C74** Matrices, Euler angles and rotations given as tuples of numbers. Entry by entry; products by induction on the number of factors; Euler angles from the equality of adjugate and transpose of a rotation. *proved.* The inverse is wrong below the determinant 1e-12 (inverse_iff); real arithmetic.
- **C75** Refining susceptibilities uses the structure factors of the reconstruction. The nine-by-nine and nine-by-six matrices act as the conjugations they replace (C18); exchange of finite sums over operations, points, atoms and components; the number of columns by the maximum of the list. *proved.* Real arithmetic. The minimiser itself is outside the repository; flip ratios from structure factors are C24, C25 and C66.
- **C76** Magnetic structure factor of ordered moments. Average over the group as a sum over the orbit (as in C21); moments of the program compared with the axial vectors entry by entry; left translation of the group for equivalent reflections; the reciprocal vector turns with the dual basis. *proved.* Real arithmetic; stored data of an earlier call are not used; the function returns no derivatives.
- **C77** Stored intermediate results of a powder experiment do not change the pattern. Groups of parameters and the groups each quantity depends on; invariant: the store is the one an evaluation with the last parameters writes; induction over phases and over the history; the exceptions by an invariant store of the first parameters. *proved.* history_fresh has the conditions under which the stored data are right (Safe); the other theorems are the exceptions. Structure factors enter as those of the current parameters: their own stored data are C57.
- **C78** Bulk susceptibility. Multiplicity times the mean over the reduced elements is the sum over the orbit: the conjugation does not see centre and translations; group averaging for the invariance. *proved.* calc_bulk_susceptibility with an empty dict_in_out; floats are real numbers; errors_zero and errors_missed prove the known failure.
- **C79** Positions, directions and distances of the cell object. The matrices of the object are shown equal to the translated functions of C19 and C20, from which lengths and inverses follow; distances by the nearest integer along each axis, the failure by a hexagonal cell. *proved.* Real arithmetic, cells with linearly independent edges and angles between 0 and 180 degrees.
- **C80** Plane sections of the density. Gram-Schmidt: the axes are orthonormal and right-handed; expansion of a vector in an orthonormal basis; the indices of the two listings are compared number by number; failures by an odd number of points and by a cubic cell. *proved.* Real arithmetic; the moment density is an arbitrary function of the point (densities between grid points are C48); formatting of the lines is not modelled.
- **C81** Refined parameters of an experiment come back where they were taken from. The keys written by the items and the keys read back are two separate tables; that they fit each other is shown case by case, the loop over errors by induction; the attributes that are lost are listed completely. *proved.* Real arithmetic; pseudo-Voigt peak shape in time of flight; experiments with an incident spectrum are not modelled (the dictionary of it cannot be formed: undefined name in cl_1_tof_intensity_incident.py).
- **C82** An atom stays on its site during a refinement. The selected operations are those that keep the nearest lower point of the grid 1/3000000 (symmFlag of C12); with the stabiliser as a group the averaged position is kept (C17); failures: floor(t)+floor(n-t)=n-1 off the grid, all six operations of P3m1 checked by divisibility. *proved.* site_symmetry is for any arithmetic, with the products as a hypothesis; double_lost is evaluated in double precision by the kernel. The position used after averaging is in real arithmetic.
- **C83** A calculation leaves the crystal with the numbers it used. The constrained cell in degrees satisfies its conditions (C33, C34) and rounding keeps 90 and 120; the averaged position of an unrefined atom is its own position (C17, C82), so that rounding to six decimals is the whole effect. *proved.* Real arithmetic; numpy.round is the nearest multiple of the last decimal. Displacement parameters are C30; other_changed is the known failure.
- **C84** The reflections a crystal lists are complete, counted once, and weighted right. Representatives by the key of the stable sort, which is injective below 50; induction over the loops; half of the box suffices by Friedel's law; orbit and stabiliser for the multiplicity of calc_hkl_equiv. *proved.* Real arithmetic; the cell has the symmetry of the group (Good); long_cell_twice and equiv_multiplicity_wrong prove the known failures.
- **C85** Setting up a crystal leaves the atoms where they are. give_default_xyz, AtomSite.form_object / define_space_group_wyckoff / apply_constraints over rationals; the first coordinates of all 4873 positions are generated from wyckoff.dat (216 distinct) and checked in the kernel to be projections on their free coordinates, from which the theorems follow for all values *proved.* The arithmetic of the search is exact here; limit_denominator is any function that keeps small denominators. That the listed points of a position are one orbit of the group is a hypothesis (shown for C2 2a). The tables are those of wyckoff.dat without change of setting.
- **C86** The report on magnetization ellipsoids. the three functions over the translated matrix and unit-cell functions; eigh as a structure of its guaranteed properties; proofs by matrix algebra *proved.* Exact real arithmetic; numpy.linalg.eigh is any orthonormal eigenbasis with ascending eigenvalues. The text of the report is not modelled, nor Crystal.calc_magnetic_moments_with_field_loc (it reads cell.m_m_norm, which no Cell has).
- **C87** Reports on flipping ratios: what is counted, averaged and left out. The two loops are folds with the same counters and lists; lemmas collect_from and agCollect_from turn them into counts, sums and filters over the list by induction; sorting by the lemmas on merge sort; the table by a telescoping lemma for monotone edges; the even number of Friedel reflections by an involution. *proved.* Over exact reals; the text of the report is not modelled, the numbers in it are. Known failures are theorems: report_vs_refinement, single_worst_not_listed, largest_not_in_mean, last_bin_shown_empty; afRPer in report_spec divides by all n.
- **C88** Columns of a loop as arrays and back. The loop is the list of item dictionaries and an ordered association list of arrays; induction over the stored arrays (flushAll_spec) with the frame property of item writes; an invariant (Fresh) over histories. *proved.* On top of the item model of C01-C05 (exact rationals plus nan). Arrays of derived names are not modelled; the state after a numpy_to_items that raises is not modelled. Known failures are theorems: lost_update, undefined_becomes_nan, undefined_int_raises.
- **C89** Which measured points take part in the fit. numpy masks are modelled as the program applies them to every column (flags, zip, filter); a lemma turns masks of mapped lists into filters, induction over the excluded intervals; chi squared by composition with C65. *proved.* Exact reals; nan of a numpy array is none; an attribute is not there, None, or a number. The choice of the first object of a class (take_items_by_class) is not modelled; for Pd2d the choice between polarised and unpolarised arrays is input. Known failures are theorems: negative_angle_left_out, zero_excluded, no_range_raises, missing_error_raises, mixture_raises, negative_raises.
- **C90** Projections of a two-dimensional pattern. Bins are filters by the rounded index; sums with nan reduced to sums of numbers under the flags; induction over the number of bins for the conservation; rounding by rint_spec. *proved.* Exact reals, nan is none; the arrays over the detector are the list of pixels. Known failures are theorems: last_bin_lost, low_angle_lost, one_bin_empty, excluded_in_difference.
- **C91** Sharing out the columns of a loop of a file to the classes. The search is characterised by induction over the prefixes sorted by length; the sharing out as a permutation by induction over columns and prefixes; the registered classes by two complete checks of the table (names, pairs of nested prefixes) and the general theorem. *proved.* Texts are lists of characters, lower case is ASCII; the table of classes is generated from the source (tools/gen_loops.py). Reading the values (from_cif of the classes) and pycifstar are not part of this model; the order of the set is a parameter. Known failures are theorems: wyckoff_never, wyckoff_read_as, label_twice, any_separator.
- **C92** Ion symbols, electron shells and the keys of the data base. The scan of the symbol by induction over its parts; the two loops over the orbitals by induction with an exact description of the result; the elements by a complete check of the neutral shells and the general theorem for every charge. *proved.* Case and digits are ASCII; the orbitals of a shell are read once instead of being carried as text; the keys and texts of the data base are generated from database.pickle (tools/gen_elements.py), the numbers stored under them are not part of this model. Known failures are theorems: symbol_isotope_ion_wrong, symbol_lone_sign, magnetic_lone_sign, deuterium, oganesson_unreadable.
- **C93** Errors estimated from the final simplex of a minimisation. Values of a quadratic function at the midpoints are computed exactly, the matrix is identified with D H D / 2 plus a diagonal, and inverted by exhibiting the inverse. *proved.* Arithmetic is exact; the inverse is that of Mathlib (numpy raises for a singular matrix); the minimisation that produces the simplex is not part of the model. Known failures are theorems: dist_aligned (factor two), sigma_aligned (factor two), matB_general, not_aligned_singular.
- **C94** Form factors calculated from Slater orbitals. The table is shown to hold the values of a two-index recurrence; the integrals satisfy the same recurrence (integration by parts and the Bessel recurrences), so they agree; pairs of functions are summed by linearity. *proved.* Exact real arithmetic; improper integrals are Mathlib's Lebesgue integrals on (0, infinity); the lookup of the coefficients of an ion in the tables is not part of this model. Known failures are theorems: transs_too_high, density_other_radius.
- **C95** Symmetry constraints written to susceptibility and exchange tensors. The matrix minus unity is, for weights that count off-diagonal elements twice, symmetric and not positive; the elimination keeps its kernel and this property for the rows not yet done (Schur complement), so that a zero pivot has a zero column; the rest follows from the triangular shape. *proved.* Arithmetic is exact: tests with numpy.isclose are equalities and the rounding to ten digits is left out. Known failure is the theorem once_not_enough. The groups without time reversal are those the code uses here (13 rows of symm_elems).
- **C96** The report on powder experiments. Algebra of sums over the phases; the mean over three orthogonal directions is the trace; the trace of the bulk susceptibility is from the theorem of C78 on it. *proved.* Floats are reals. Totals of zero (nan in numpy), a phase without a scale, the lookup of the crystal by its name in lower case and the writing of the numbers are not modelled. moment_of_atoms assumes that the multiplicities in atom_site are those of the symmetry.
- **C97** Simulated powder patterns. Rounding is monotone and within a half of the last digit; the selection keeps all points of the grid, all but the first, or an initial part of it; the writing pairs the lists by position. *proved.* Floats are reals; the calculated intensities are arbitrary functions of the selected points (what they are is C64). Known failures are the theorems down_is_up (with example_down), start_rounded_down (with example_shift) and end_left_out.
- **C98** Symmetry operations from generators. Composition of the operations modulo lattice translations is associative with the identity as unit; the powers of one generator are a periodic orbit listed up to its minimal period; the texts determine the operations (C09), so uniqueness of texts is that of operations; closure by induction on the number of generators. *proved.* Coefficients of the rotation are integers, fractions are exact. Known failures are the theorems not_a_group and edge_missed.
- **C99** The cell type of a magnetic crystal. The type depends on the set of rotations, the number of operations and the centring found; the centring found in the products of operations and centrings is that of the file; invariance of the metric under a few rotations of each class gives the conditions of its system, which the constraints keep. *proved.* The classes are given by generators in Bravais/Spec; the lists of their operations in Bravais/Table are checked against the generators in the kernel. Known failures are the theorems fourfold_not_tied, rhombohedral_made_cubic, antitranslation and antitranslation_raises; monoclinic settings with another unique axis are in C31.
- **C100** Magnetic moments induced by a field. Two operations that carry the atom to one place differ by an operation of the site, under which the tensor does not change; fibres of the position map are cosets of the site group; invariance of the metric moves the rotation through chi G h. *proved.* Coordinates of atoms are rational, the other floats real. The operations are those of the space group as a list; in crystal_turns and any_operation they form a group. Known failures are the theorems hexagonal_field, thirds_split and near_the_edge.
- **C101** The operations of a site. The lexicographic minimum over the positions near the atom; under the clearance hypothesis the near positions are one; operations of one position are closed under products by SamePlace. *proved.* Coordinates are rational and rounding is exact to five digits. Known failures are the theorems thirds_lost and other_side.
- **C102** The prior density made of core electrons. Words of a line of fields and the digits of numbers; integrals of products of Slater functions from C94; the closed form of the normalisation from C67. *proved.* Text is ASCII; numbers are real; the entries of the data base are any functions. Known failures are the theorems read_failures and prior_failures.
- **C103** The parameter a mark stands at. The place made from the name is compared with the place of the value for each attribute; places are different for different parameters, so that C50 applies to the places; exceptions propagate through the constraints. *proved.* Places in the dictionary are those of C81 (Take.slot) and, for susceptibilities, the constructor Entry.chi. Known failures are the theorems crystal_known_iff, unknown, phase_width_confused, unknown_raises, phase_widths_raise and phase_widths_tie_instruments.

## Trusted base

* Lean 4.33.0's kernel, which also evaluates the finite tables (`decide +kernel`: the evaluation is the kernel's own reduction, no compiled
  code).
* Axioms: every theorem of MANIFEST.json depends on a subset of `propext`, `Classical.choice`, `Quot.sound`.  No axiom is declared
  in the project, no `native_decide`, no `bv_decide`, no `implemented_by`/`extern`.
* The reading of /repo: that the definitions say what the Python code does.  For generated files this is the translator
  `tools/py2lean.py` instead of a human reader (it refuses syntax it does not know); for tables the copying by `gen_sg.py`, `gen_wyck.py`.
* numpy and the standard library as their documentation says: `numpy.interp`, `numpy.unique`, `numpy.argsort`, `numpy.linalg.inv`,
  `Fraction.limit_denominator`, `str.split`, number formatting, iteration order of sets (any order).

### Simplifications that hold everywhere

* Doubles are exact reals or rationals, except in C07 where a 53-bit rounding is modelled.  Overflow, underflow and infinities
  are left out; NaN is an explicit `none` where the code can produce it.
* Arrays are functions of an index or lists, broadcasting is pointwise.
* Python exceptions are `none` or an explicit error; their texts are not modelled.
* Printing, progress bars, plotting, file system and process control are not modelled.

### Modelled code

| directory | code |
|---|---|
| Item, Container | B_parent_classes/cl_1_item.py, cl_2_loop.py, cl_3_data.py, cl_4_global.py (attributes, variables, containers) |
| Text | A_functions_base/function_1_strings.py |
| Symm | A_functions_base/symmetry_elements.py, function_2_sym_elems.py |
| Constr | A_functions_base/symmetry_constraints.py |
| Mat, Cell | A_functions_base/matrix_operations.py, unit_cell.py; the matrices, positions and distances of cl_1_cell.py |
| Sect | cl_2_section.py, calc_section_for_mem in script_1_mem.py, calc_atoms_in_unit_cell |
| Back | Crystal.take_parameters_from_dictionary: cell, positions, occupancies and errors of the cell |
| HklCell | Cell.calc_hkl, calc_hkl_in_range, SpaceGroup.calc_hkl_equiv |
| Snap | give_default_xyz, AtomSite.form_object/define_space_group_wyckoff/apply_constraints; Gen/WyckFirst: first coordinates of all positions of wyckoff.dat |
| Ell | local_susceptibility.py: ellipsoid as U, main axes, ellipsoid factor |
| FrReport | cl_1_diffrn_refln.py:105-264, 399-423 (exclusion, chi-square and the two reports on flipping ratios; the text format is not modelled) |
| Cols | B_parent_classes/cl_2_loop.py:101-134, 145-210 (arrays of columns, numpy_to_items) |
| Pts | E_data_classes/cl_2_pd.py:159-188, cl_2_tof.py:136-179, cl_2_pd2d.py:902-969, cl_1_pd_meas.py:77-85, 131-134, limits of cl_1_range.py:59-64 and cl_1_exclude.py:65-70 |
| Proj | C_item_loop_classes/cl_1_pd2d_proc.py:452-537 (projections) |
| Split | H_functions_global/function_1_cryspy_objects.py:138-152, 360-379, 384-500; class tables PREFIX, ATTR_CIF (Gen/LoopClasses) |
| Ion | A_functions_base/charge_form_factor.py:11-114; function_1_scat_length_neutron.py:74-84; lookups of magnetic_form_factor.py:13-28 and function_1_magnetic.py:12-33; keys of database.pickle (Gen/Elements) |
| Simplex | A_functions_base/function_1_error_simplex.py:11-113; procedure_mempy/mempy_by_dictionary.py:589-606 |
| Slater | A_functions_base/orbital_functions.py:6-87; sum of charge_form_factor.py:116-146 |
| Elim | C_item_loop_classes/cl_1_atom_site_susceptibility.py:20-50, 124-251; cl_1_atom_site_exchange.py:88-176 |
| Mix | H_functions_global/powder_experiments.py |
| Sim | H_functions_global/simulations.py; E_data_classes/cl_2_pd.py:307-331; B_parent_classes/cl_2_loop.py:181-213 |
| Gens | C_item_loop_classes/cl_1_space_group_symop.py:157-292 |
| Bravais | A_functions_base/symmetry_elements.py:159-184, 288-414; E_data_classes/cl_1_crystal.py:653-678 |
| Induced | E_data_classes/cl_1_crystal.py:450-517; C_item_loop_classes/cl_2_space_group.py:626-670; C_item_loop_classes/cl_1_cell.py:187-202 |
| SiteOps | C_item_loop_classes/cl_2_space_group.py:501-540; C_item_loop_classes/cl_1_atom_site.py:148-166 |
| Core | C_item_loop_classes/cl_1_atom_electron_configuration.py:73-99; E_data_classes/cl_1_crystal.py:962-986; A_functions_base/orbital_functions.py:25-30; procedure_mempy/mempy_by_dictionary.py:171-192 |
| Ties | B_parent_classes/cl_4_global.py:583-608, 643-697; procedure_rhochi/rhochi_by_dictionary.py:156-165 |
| Site | site symmetry and flags of positions in Crystal.get_dictionary |
| Take | get_dictionary of the items of experiments, take_parameters_from_dictionary of Pd, Pd2d, TOF and Diffrn, get_flags |
| Flip, Ext | A_functions_base/flip_ratio.py, extinction.py |
| Powder, Tof | powder_diffraction_const_wavelength.py, preferred_orientation.py, powder_diffraction_tof.py, cl_1_tof_parameters.py |
| Adp, Vib, CellConstr | debye_waller_factor.py, function_1_atomic_vibrations.py, cl_1_atom_site.py, cl_1_atom_site_aniso.py, cl_1_cell.py, parts of cl_1_crystal.py |
| Den, Mem, Bkg | function_3_den_file.py, mempy.py (save_spin_density_into_file, renormalisation), cl_3_density_point.py (normalisation), cl_1_pd_background.py, cl_1_tof_background*.py, the background parts of rhochi_pd.py, rhochi_pd2d.py, rhochi_tof.py, tri_linear_interpolation |
| Refine | cl_1_inversed_hessian.py, function_1_inversed_hessian.py, rhochi_by_dictionary.py |
| Roots | function_1_roots.py |
| SG, Wyck | function_2_space_group.py, itables.txt, wyckoff.dat (linear parts), cl_2_space_group.py, cl_1_space_group_symop.py, cl_1_space_group_wyckoff.py |
| Sf, Sft, Hkl | structure_factor.py (nuclear structure factor with stored results, tensor of paramagnetic atoms, list of reflections) |
| FF | magnetic_form_factor.py |
| PowInt | integrated_intensity_powder_diffraction.py |
| Cif | writing and reading of items and loops in cl_1_item.py, cl_2_loop.py |
| Chi | the loop over the phases and the chi squared of rhochi_pd.py, rhochi_tof.py, rhochi_pd2d.py, rhochi_diffrn.py |
| MemIt | the iteration of mempy_by_dictionary.py |
| Range | the ranges of `sin θ/λ` in rhochi_pd.py, rhochi_pd2d.py, rhochi_tof.py (thermal) |
| Rot | function_1_matrices.py (products, inverse, Euler angles, rotations) |
| Orient | cl_2_diffrn_orient_matrix.py; m_b and calc_k_loc of cl_1_cell.py |
| Regrid | function_1_gamma_nu.py; alpha_det of rhochi_pd2d.py |
| Basin | mempy.py: calc_index_atom_symmetry_closest_to_fract_xyz, form_basins |
| Ord | structure_factor.py: calc_f_m_perp_ordered |
| Bulk | structure_factor.py: calc_bulk_susceptibility, calc_bulk_susceptibility_by_dictionary (empty dict_in_out) |
| PdStore | rhochi_pd.py, rhochi_pd2d.py, rhochi_tof.py: the decisions between stored and computed quantities (the quantities themselves abstract) |
| ChiAt | mempy.py: calc_chi_atoms, calc_f_m_perp_ccs_by_chi_atoms; the storing in mempy_by_dictionary.py:603-605 |
| MemSf | mempy.py: calc_symm_elem_points_by_index_points, calc_mem_col, calc_mem_chi, calc_point_susceptibility; the sums of mempy_by_dictionary.py:309-318 |

### Not modelled

Plotting and report functions, form-factor and scattering-length data bases, orbital functions,
`function_3_mcif.py` and the magnetic tables, the reading of whole CIF files by `GlobalN.from_cif`, two-dimensional powder geometry
apart from its background and texture, error simplex, report_* methods, parallel execution.

