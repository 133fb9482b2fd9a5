/-!
# The loop classes known to the reader of files

Written by tools/gen_loops.py from L_LOOP_CLASS of H_functions_global/function_1_cryspy_objects.py:138-152 and the class
attributes PREFIX and ATTR_CIF of the item classes.
-/

namespace Cryspy.Gen

/-- AtomLocalAxesL: items AtomLocalAxes, cl_1_atom_local_axes.py:10: atom_local_axes; atom_label, atom0, ax1, atom1, atom2, ax2 -/
def loopAtomLocalAxesL : List Char × List (List Char) :=
  (['a', 't', 'o', 'm', '_', 'l', 'o', 'c', 'a', 'l', '_', 'a', 'x', 'e', 's'],
  [['a', 't', 'o', 'm', '_', 'l', 'a', 'b', 'e', 'l'], ['a', 't', 'o', 'm', '0'], ['a', 'x', '1'], ['a', 't', 'o', 'm', '1'], ['a', 't', 'o', 'm', '2'], ['a', 'x', '2']])
/-- AtomElectronConfigurationL: items AtomElectronConfiguration, cl_1_atom_electron_configuration.py:11: atom_electron_configuration; label, core, valence -/
def loopAtomElectronConfigurationL : List Char × List (List Char) :=
  (['a', 't', 'o', 'm', '_', 'e', 'l', 'e', 'c', 't', 'r', 'o', 'n', '_', 'c', 'o', 'n', 'f', 'i', 'g', 'u', 'r', 'a', 't', 'i', 'o', 'n'],
  [['l', 'a', 'b', 'e', 'l'], ['c', 'o', 'r', 'e'], ['v', 'a', 'l', 'e', 'n', 'c', 'e']])
/-- AtomRhoOrbitalRadialSlaterL: items AtomRhoOrbitalRadialSlater, cl_2_atom_rho_orbital_radial_slater.py:21: atom_rho_orbital_radial_slater; n0, zeta0, coeff_1s, coeff_2s, coeff_3s, coeff_4s, coeff_5s, coeff_6s, coeff_2p, coeff_3p, coeff_4p, coeff_5p, coeff_6p, coeff_3d, coeff_4d, coeff_5d, coeff_6d, coeff_4f, coeff_5f, coeff_6f -/
def loopAtomRhoOrbitalRadialSlaterL : List Char × List (List Char) :=
  (['a', 't', 'o', 'm', '_', 'r', 'h', 'o', '_', 'o', 'r', 'b', 'i', 't', 'a', 'l', '_', 'r', 'a', 'd', 'i', 'a', 'l', '_', 's', 'l', 'a', 't', 'e', 'r'],
  [['n', '0'], ['z', 'e', 't', 'a', '0'], ['c', 'o', 'e', 'f', 'f', '_', '1', 's'], ['c', 'o', 'e', 'f', 'f', '_', '2', 's'], ['c', 'o', 'e', 'f', 'f', '_', '3', 's'], ['c', 'o', 'e', 'f', 'f', '_', '4', 's'], ['c', 'o', 'e', 'f', 'f', '_', '5', 's'], ['c', 'o', 'e', 'f', 'f', '_', '6', 's'], ['c', 'o', 'e', 'f', 'f', '_', '2', 'p'], ['c', 'o', 'e', 'f', 'f', '_', '3', 'p'], ['c', 'o', 'e', 'f', 'f', '_', '4', 'p'], ['c', 'o', 'e', 'f', 'f', '_', '5', 'p'], ['c', 'o', 'e', 'f', 'f', '_', '6', 'p'], ['c', 'o', 'e', 'f', 'f', '_', '3', 'd'], ['c', 'o', 'e', 'f', 'f', '_', '4', 'd'], ['c', 'o', 'e', 'f', 'f', '_', '5', 'd'], ['c', 'o', 'e', 'f', 'f', '_', '6', 'd'], ['c', 'o', 'e', 'f', 'f', '_', '4', 'f'], ['c', 'o', 'e', 'f', 'f', '_', '5', 'f'], ['c', 'o', 'e', 'f', 'f', '_', '6', 'f']])
/-- AtomSiteL: items AtomSite, cl_1_atom_site.py:16: atom_site; label, type_symbol, fract_x, fract_y, fract_z, occupancy, adp_type, U_iso_or_equiv, U_equiv_geom_mean, B_iso_or_equiv, multiplicity, Wyckoff_symbol, Cartn_x, Cartn_y, Cartn_z -/
def loopAtomSiteL : List Char × List (List Char) :=
  (['a', 't', 'o', 'm', '_', 's', 'i', 't', 'e'],
  [['l', 'a', 'b', 'e', 'l'], ['t', 'y', 'p', 'e', '_', 's', 'y', 'm', 'b', 'o', 'l'], ['f', 'r', 'a', 'c', 't', '_', 'x'], ['f', 'r', 'a', 'c', 't', '_', 'y'], ['f', 'r', 'a', 'c', 't', '_', 'z'], ['o', 'c', 'c', 'u', 'p', 'a', 'n', 'c', 'y'], ['a', 'd', 'p', '_', 't', 'y', 'p', 'e'], ['U', '_', 'i', 's', 'o', '_', 'o', 'r', '_', 'e', 'q', 'u', 'i', 'v'], ['U', '_', 'e', 'q', 'u', 'i', 'v', '_', 'g', 'e', 'o', 'm', '_', 'm', 'e', 'a', 'n'], ['B', '_', 'i', 's', 'o', '_', 'o', 'r', '_', 'e', 'q', 'u', 'i', 'v'], ['m', 'u', 'l', 't', 'i', 'p', 'l', 'i', 'c', 'i', 't', 'y'], ['W', 'y', 'c', 'k', 'o', 'f', 'f', '_', 's', 'y', 'm', 'b', 'o', 'l'], ['C', 'a', 'r', 't', 'n', '_', 'x'], ['C', 'a', 'r', 't', 'n', '_', 'y'], ['C', 'a', 'r', 't', 'n', '_', 'z']])
/-- AtomSiteAnisoL: items AtomSiteAniso, cl_1_atom_site_aniso.py:14: atom_site_aniso; label, U_11, U_22, U_33, U_12, U_13, U_23, B_11, B_22, B_33, B_12, B_13, B_23 -/
def loopAtomSiteAnisoL : List Char × List (List Char) :=
  (['a', 't', 'o', 'm', '_', 's', 'i', 't', 'e', '_', 'a', 'n', 'i', 's', 'o'],
  [['l', 'a', 'b', 'e', 'l'], ['U', '_', '1', '1'], ['U', '_', '2', '2'], ['U', '_', '3', '3'], ['U', '_', '1', '2'], ['U', '_', '1', '3'], ['U', '_', '2', '3'], ['B', '_', '1', '1'], ['B', '_', '2', '2'], ['B', '_', '3', '3'], ['B', '_', '1', '2'], ['B', '_', '1', '3'], ['B', '_', '2', '3']])
/-- AtomSiteMomentL: items AtomSiteMoment, cl_1_atom_site_moment.py:12: atom_site_moment; label, cartn_x, cartn_y, cartn_z, crystalaxis_x, crystalaxis_y, crystalaxis_z, symmform, modulation_flag, refinement_flags_magnetic, spherical_azimuthal, spherical_modulus, spherical_polar -/
def loopAtomSiteMomentL : List Char × List (List Char) :=
  (['a', 't', 'o', 'm', '_', 's', 'i', 't', 'e', '_', 'm', 'o', 'm', 'e', 'n', 't'],
  [['l', 'a', 'b', 'e', 'l'], ['c', 'a', 'r', 't', 'n', '_', 'x'], ['c', 'a', 'r', 't', 'n', '_', 'y'], ['c', 'a', 'r', 't', 'n', '_', 'z'], ['c', 'r', 'y', 's', 't', 'a', 'l', 'a', 'x', 'i', 's', '_', 'x'], ['c', 'r', 'y', 's', 't', 'a', 'l', 'a', 'x', 'i', 's', '_', 'y'], ['c', 'r', 'y', 's', 't', 'a', 'l', 'a', 'x', 'i', 's', '_', 'z'], ['s', 'y', 'm', 'm', 'f', 'o', 'r', 'm'], ['m', 'o', 'd', 'u', 'l', 'a', 't', 'i', 'o', 'n', '_', 'f', 'l', 'a', 'g'], ['r', 'e', 'f', 'i', 'n', 'e', 'm', 'e', 'n', 't', '_', 'f', 'l', 'a', 'g', 's', '_', 'm', 'a', 'g', 'n', 'e', 't', 'i', 'c'], ['s', 'p', 'h', 'e', 'r', 'i', 'c', 'a', 'l', '_', 'a', 'z', 'i', 'm', 'u', 't', 'h', 'a', 'l'], ['s', 'p', 'h', 'e', 'r', 'i', 'c', 'a', 'l', '_', 'm', 'o', 'd', 'u', 'l', 'u', 's'], ['s', 'p', 'h', 'e', 'r', 'i', 'c', 'a', 'l', '_', 'p', 'o', 'l', 'a', 'r']])
/-- AtomSiteScatL: items AtomSiteScat, cl_2_atom_site_scat.py:15: atom_site_scat; label, type_symbol, Lande, kappa -/
def loopAtomSiteScatL : List Char × List (List Char) :=
  (['a', 't', 'o', 'm', '_', 's', 'i', 't', 'e', '_', 's', 'c', 'a', 't'],
  [['l', 'a', 'b', 'e', 'l'], ['t', 'y', 'p', 'e', '_', 's', 'y', 'm', 'b', 'o', 'l'], ['L', 'a', 'n', 'd', 'e'], ['k', 'a', 'p', 'p', 'a']])
/-- AtomSiteSusceptibilityL: items AtomSiteSusceptibility, cl_1_atom_site_susceptibility.py:52: atom_site_susceptibility; label, chi_type, chi_11, chi_22, chi_33, chi_12, chi_13, chi_23 -/
def loopAtomSiteSusceptibilityL : List Char × List (List Char) :=
  (['a', 't', 'o', 'm', '_', 's', 'i', 't', 'e', '_', 's', 'u', 's', 'c', 'e', 'p', 't', 'i', 'b', 'i', 'l', 'i', 't', 'y'],
  [['l', 'a', 'b', 'e', 'l'], ['c', 'h', 'i', '_', 't', 'y', 'p', 'e'], ['c', 'h', 'i', '_', '1', '1'], ['c', 'h', 'i', '_', '2', '2'], ['c', 'h', 'i', '_', '3', '3'], ['c', 'h', 'i', '_', '1', '2'], ['c', 'h', 'i', '_', '1', '3'], ['c', 'h', 'i', '_', '2', '3']])
/-- AtomSiteExchangeL: items AtomSiteExchange, cl_1_atom_site_exchange.py:22: atom_site_exchange; label, J_type, J_11, J_22, J_33, J_12, J_13, J_23 -/
def loopAtomSiteExchangeL : List Char × List (List Char) :=
  (['a', 't', 'o', 'm', '_', 's', 'i', 't', 'e', '_', 'e', 'x', 'c', 'h', 'a', 'n', 'g', 'e'],
  [['l', 'a', 'b', 'e', 'l'], ['J', '_', 't', 'y', 'p', 'e'], ['J', '_', '1', '1'], ['J', '_', '2', '2'], ['J', '_', '3', '3'], ['J', '_', '1', '2'], ['J', '_', '1', '3'], ['J', '_', '2', '3']])
/-- AtomTypeL: items AtomType, cl_1_atom_type.py:10: atom_type; symbol, analytical_mass, description, number_in_cell, oxidation_number, radius_bond, radius_contact, cromer_mann_a1, cromer_mann_a2, cromer_mann_a3, cromer_mann_a4, cromer_mann_b1, cromer_mann_b2, cromer_mann_b3, cromer_mann_b4, cromer_mann_c, scat_dispersion_real, scat_dispersion_imag, dispersion_source, scat_length_neutron, scat_source, scat_versus_stol_list -/
def loopAtomTypeL : List Char × List (List Char) :=
  (['a', 't', 'o', 'm', '_', 't', 'y', 'p', 'e'],
  [['s', 'y', 'm', 'b', 'o', 'l'], ['a', 'n', 'a', 'l', 'y', 't', 'i', 'c', 'a', 'l', '_', 'm', 'a', 's', 's'], ['d', 'e', 's', 'c', 'r', 'i', 'p', 't', 'i', 'o', 'n'], ['n', 'u', 'm', 'b', 'e', 'r', '_', 'i', 'n', '_', 'c', 'e', 'l', 'l'], ['o', 'x', 'i', 'd', 'a', 't', 'i', 'o', 'n', '_', 'n', 'u', 'm', 'b', 'e', 'r'], ['r', 'a', 'd', 'i', 'u', 's', '_', 'b', 'o', 'n', 'd'], ['r', 'a', 'd', 'i', 'u', 's', '_', 'c', 'o', 'n', 't', 'a', 'c', 't'], ['c', 'r', 'o', 'm', 'e', 'r', '_', 'm', 'a', 'n', 'n', '_', 'a', '1'], ['c', 'r', 'o', 'm', 'e', 'r', '_', 'm', 'a', 'n', 'n', '_', 'a', '2'], ['c', 'r', 'o', 'm', 'e', 'r', '_', 'm', 'a', 'n', 'n', '_', 'a', '3'], ['c', 'r', 'o', 'm', 'e', 'r', '_', 'm', 'a', 'n', 'n', '_', 'a', '4'], ['c', 'r', 'o', 'm', 'e', 'r', '_', 'm', 'a', 'n', 'n', '_', 'b', '1'], ['c', 'r', 'o', 'm', 'e', 'r', '_', 'm', 'a', 'n', 'n', '_', 'b', '2'], ['c', 'r', 'o', 'm', 'e', 'r', '_', 'm', 'a', 'n', 'n', '_', 'b', '3'], ['c', 'r', 'o', 'm', 'e', 'r', '_', 'm', 'a', 'n', 'n', '_', 'b', '4'], ['c', 'r', 'o', 'm', 'e', 'r', '_', 'm', 'a', 'n', 'n', '_', 'c'], ['s', 'c', 'a', 't', '_', 'd', 'i', 's', 'p', 'e', 'r', 's', 'i', 'o', 'n', '_', 'r', 'e', 'a', 'l'], ['s', 'c', 'a', 't', '_', 'd', 'i', 's', 'p', 'e', 'r', 's', 'i', 'o', 'n', '_', 'i', 'm', 'a', 'g'], ['d', 'i', 's', 'p', 'e', 'r', 's', 'i', 'o', 'n', '_', 's', 'o', 'u', 'r', 'c', 'e'], ['s', 'c', 'a', 't', '_', 'l', 'e', 'n', 'g', 't', 'h', '_', 'n', 'e', 'u', 't', 'r', 'o', 'n'], ['s', 'c', 'a', 't', '_', 's', 'o', 'u', 'r', 'c', 'e'], ['s', 'c', 'a', 't', '_', 'v', 'e', 'r', 's', 'u', 's', '_', 's', 't', 'o', 'l', '_', 'l', 'i', 's', 't']])
/-- AtomTypeScatL: items AtomTypeScat, cl_1_atom_type_scat.py:13: atom_type_scat; symbol, neutron_magnetic_j0_a1, neutron_magnetic_j0_a2, neutron_magnetic_j0_b1, neutron_magnetic_j0_b2, neutron_magnetic_j0_c1, neutron_magnetic_j0_c2, neutron_magnetic_j0_d, neutron_magnetic_j0_e, neutron_magnetic_j2_a1, neutron_magnetic_j2_a2, neutron_magnetic_j2_b1, neutron_magnetic_j2_b2, neutron_magnetic_j2_c1, neutron_magnetic_j2_c2, neutron_magnetic_j2_d, neutron_magnetic_j2_e, neutron_magnetic_j4_a1, neutron_magnetic_j4_a2, neutron_magnetic_j4_b1, neutron_magnetic_j4_b2, neutron_magnetic_j4_c1, neutron_magnetic_j4_c2, neutron_magnetic_j4_d, neutron_magnetic_j4_e, neutron_magnetic_j6_a1, neutron_magnetic_j6_a2, neutron_magnetic_j6_b1, neutron_magnetic_j6_b2, neutron_magnetic_j6_c1, neutron_magnetic_j6_c2, neutron_magnetic_j6_d, neutron_magnetic_j6_e, neutron_magnetic_source -/
def loopAtomTypeScatL : List Char × List (List Char) :=
  (['a', 't', 'o', 'm', '_', 't', 'y', 'p', 'e', '_', 's', 'c', 'a', 't'],
  [['s', 'y', 'm', 'b', 'o', 'l'], ['n', 'e', 'u', 't', 'r', 'o', 'n', '_', 'm', 'a', 'g', 'n', 'e', 't', 'i', 'c', '_', 'j', '0', '_', 'a', '1'], ['n', 'e', 'u', 't', 'r', 'o', 'n', '_', 'm', 'a', 'g', 'n', 'e', 't', 'i', 'c', '_', 'j', '0', '_', 'a', '2'], ['n', 'e', 'u', 't', 'r', 'o', 'n', '_', 'm', 'a', 'g', 'n', 'e', 't', 'i', 'c', '_', 'j', '0', '_', 'b', '1'], ['n', 'e', 'u', 't', 'r', 'o', 'n', '_', 'm', 'a', 'g', 'n', 'e', 't', 'i', 'c', '_', 'j', '0', '_', 'b', '2'], ['n', 'e', 'u', 't', 'r', 'o', 'n', '_', 'm', 'a', 'g', 'n', 'e', 't', 'i', 'c', '_', 'j', '0', '_', 'c', '1'], ['n', 'e', 'u', 't', 'r', 'o', 'n', '_', 'm', 'a', 'g', 'n', 'e', 't', 'i', 'c', '_', 'j', '0', '_', 'c', '2'], ['n', 'e', 'u', 't', 'r', 'o', 'n', '_', 'm', 'a', 'g', 'n', 'e', 't', 'i', 'c', '_', 'j', '0', '_', 'd'], ['n', 'e', 'u', 't', 'r', 'o', 'n', '_', 'm', 'a', 'g', 'n', 'e', 't', 'i', 'c', '_', 'j', '0', '_', 'e'], ['n', 'e', 'u', 't', 'r', 'o', 'n', '_', 'm', 'a', 'g', 'n', 'e', 't', 'i', 'c', '_', 'j', '2', '_', 'a', '1'], ['n', 'e', 'u', 't', 'r', 'o', 'n', '_', 'm', 'a', 'g', 'n', 'e', 't', 'i', 'c', '_', 'j', '2', '_', 'a', '2'], ['n', 'e', 'u', 't', 'r', 'o', 'n', '_', 'm', 'a', 'g', 'n', 'e', 't', 'i', 'c', '_', 'j', '2', '_', 'b', '1'], ['n', 'e', 'u', 't', 'r', 'o', 'n', '_', 'm', 'a', 'g', 'n', 'e', 't', 'i', 'c', '_', 'j', '2', '_', 'b', '2'], ['n', 'e', 'u', 't', 'r', 'o', 'n', '_', 'm', 'a', 'g', 'n', 'e', 't', 'i', 'c', '_', 'j', '2', '_', 'c', '1'], ['n', 'e', 'u', 't', 'r', 'o', 'n', '_', 'm', 'a', 'g', 'n', 'e', 't', 'i', 'c', '_', 'j', '2', '_', 'c', '2'], ['n', 'e', 'u', 't', 'r', 'o', 'n', '_', 'm', 'a', 'g', 'n', 'e', 't', 'i', 'c', '_', 'j', '2', '_', 'd'], ['n', 'e', 'u', 't', 'r', 'o', 'n', '_', 'm', 'a', 'g', 'n', 'e', 't', 'i', 'c', '_', 'j', '2', '_', 'e'], ['n', 'e', 'u', 't', 'r', 'o', 'n', '_', 'm', 'a', 'g', 'n', 'e', 't', 'i', 'c', '_', 'j', '4', '_', 'a', '1'], ['n', 'e', 'u', 't', 'r', 'o', 'n', '_', 'm', 'a', 'g', 'n', 'e', 't', 'i', 'c', '_', 'j', '4', '_', 'a', '2'], ['n', 'e', 'u', 't', 'r', 'o', 'n', '_', 'm', 'a', 'g', 'n', 'e', 't', 'i', 'c', '_', 'j', '4', '_', 'b', '1'], ['n', 'e', 'u', 't', 'r', 'o', 'n', '_', 'm', 'a', 'g', 'n', 'e', 't', 'i', 'c', '_', 'j', '4', '_', 'b', '2'], ['n', 'e', 'u', 't', 'r', 'o', 'n', '_', 'm', 'a', 'g', 'n', 'e', 't', 'i', 'c', '_', 'j', '4', '_', 'c', '1'], ['n', 'e', 'u', 't', 'r', 'o', 'n', '_', 'm', 'a', 'g', 'n', 'e', 't', 'i', 'c', '_', 'j', '4', '_', 'c', '2'], ['n', 'e', 'u', 't', 'r', 'o', 'n', '_', 'm', 'a', 'g', 'n', 'e', 't', 'i', 'c', '_', 'j', '4', '_', 'd'], ['n', 'e', 'u', 't', 'r', 'o', 'n', '_', 'm', 'a', 'g', 'n', 'e', 't', 'i', 'c', '_', 'j', '4', '_', 'e'], ['n', 'e', 'u', 't', 'r', 'o', 'n', '_', 'm', 'a', 'g', 'n', 'e', 't', 'i', 'c', '_', 'j', '6', '_', 'a', '1'], ['n', 'e', 'u', 't', 'r', 'o', 'n', '_', 'm', 'a', 'g', 'n', 'e', 't', 'i', 'c', '_', 'j', '6', '_', 'a', '2'], ['n', 'e', 'u', 't', 'r', 'o', 'n', '_', 'm', 'a', 'g', 'n', 'e', 't', 'i', 'c', '_', 'j', '6', '_', 'b', '1'], ['n', 'e', 'u', 't', 'r', 'o', 'n', '_', 'm', 'a', 'g', 'n', 'e', 't', 'i', 'c', '_', 'j', '6', '_', 'b', '2'], ['n', 'e', 'u', 't', 'r', 'o', 'n', '_', 'm', 'a', 'g', 'n', 'e', 't', 'i', 'c', '_', 'j', '6', '_', 'c', '1'], ['n', 'e', 'u', 't', 'r', 'o', 'n', '_', 'm', 'a', 'g', 'n', 'e', 't', 'i', 'c', '_', 'j', '6', '_', 'c', '2'], ['n', 'e', 'u', 't', 'r', 'o', 'n', '_', 'm', 'a', 'g', 'n', 'e', 't', 'i', 'c', '_', 'j', '6', '_', 'd'], ['n', 'e', 'u', 't', 'r', 'o', 'n', '_', 'm', 'a', 'g', 'n', 'e', 't', 'i', 'c', '_', 'j', '6', '_', 'e'], ['n', 'e', 'u', 't', 'r', 'o', 'n', '_', 'm', 'a', 'g', 'n', 'e', 't', 'i', 'c', '_', 's', 'o', 'u', 'r', 'c', 'e']])
/-- CellL: items Cell, cl_1_cell.py:16: cell; length_a, length_b, length_c, angle_alpha, angle_beta, angle_gamma -/
def loopCellL : List Char × List (List Char) :=
  (['c', 'e', 'l', 'l'],
  [['l', 'e', 'n', 'g', 't', 'h', '_', 'a'], ['l', 'e', 'n', 'g', 't', 'h', '_', 'b'], ['l', 'e', 'n', 'g', 't', 'h', '_', 'c'], ['a', 'n', 'g', 'l', 'e', '_', 'a', 'l', 'p', 'h', 'a'], ['a', 'n', 'g', 'l', 'e', '_', 'b', 'e', 't', 'a'], ['a', 'n', 'g', 'l', 'e', '_', 'g', 'a', 'm', 'm', 'a']])
/-- ChannelChiL: items ChannelChi, cl_1_channel_chi.py:11: channel_chi; numerator_x, numerator_y, numerator_z, denominator_xyz, density, chi_11, chi_22, chi_33, chi_12, chi_13, chi_23, chi_21, chi_31, chi_32, atom_multiplicity, index_x, index_y, index_z, point_multiplicity -/
def loopChannelChiL : List Char × List (List Char) :=
  (['c', 'h', 'a', 'n', 'n', 'e', 'l', '_', 'c', 'h', 'i'],
  [['n', 'u', 'm', 'e', 'r', 'a', 't', 'o', 'r', '_', 'x'], ['n', 'u', 'm', 'e', 'r', 'a', 't', 'o', 'r', '_', 'y'], ['n', 'u', 'm', 'e', 'r', 'a', 't', 'o', 'r', '_', 'z'], ['d', 'e', 'n', 'o', 'm', 'i', 'n', 'a', 't', 'o', 'r', '_', 'x', 'y', 'z'], ['d', 'e', 'n', 's', 'i', 't', 'y'], ['c', 'h', 'i', '_', '1', '1'], ['c', 'h', 'i', '_', '2', '2'], ['c', 'h', 'i', '_', '3', '3'], ['c', 'h', 'i', '_', '1', '2'], ['c', 'h', 'i', '_', '1', '3'], ['c', 'h', 'i', '_', '2', '3'], ['c', 'h', 'i', '_', '2', '1'], ['c', 'h', 'i', '_', '3', '1'], ['c', 'h', 'i', '_', '3', '2'], ['a', 't', 'o', 'm', '_', 'm', 'u', 'l', 't', 'i', 'p', 'l', 'i', 'c', 'i', 't', 'y'], ['i', 'n', 'd', 'e', 'x', '_', 'x'], ['i', 'n', 'd', 'e', 'x', '_', 'y'], ['i', 'n', 'd', 'e', 'x', '_', 'z'], ['p', 'o', 'i', 'n', 't', '_', 'm', 'u', 'l', 't', 'i', 'p', 'l', 'i', 'c', 'i', 't', 'y']])
/-- ChannelPlusMinusL: items ChannelPlusMinus, cl_1_channel_plus_minus.py:11: channel_plus_minus; numerator_x, numerator_y, numerator_z, denominator_xyz, density_plus, density_minus, index_x, index_y, index_z, point_multiplicity -/
def loopChannelPlusMinusL : List Char × List (List Char) :=
  (['c', 'h', 'a', 'n', 'n', 'e', 'l', '_', 'p', 'l', 'u', 's', '_', 'm', 'i', 'n', 'u', 's'],
  [['n', 'u', 'm', 'e', 'r', 'a', 't', 'o', 'r', '_', 'x'], ['n', 'u', 'm', 'e', 'r', 'a', 't', 'o', 'r', '_', 'y'], ['n', 'u', 'm', 'e', 'r', 'a', 't', 'o', 'r', '_', 'z'], ['d', 'e', 'n', 'o', 'm', 'i', 'n', 'a', 't', 'o', 'r', '_', 'x', 'y', 'z'], ['d', 'e', 'n', 's', 'i', 't', 'y', '_', 'p', 'l', 'u', 's'], ['d', 'e', 'n', 's', 'i', 't', 'y', '_', 'm', 'i', 'n', 'u', 's'], ['i', 'n', 'd', 'e', 'x', '_', 'x'], ['i', 'n', 'd', 'e', 'x', '_', 'y'], ['i', 'n', 'd', 'e', 'x', '_', 'z'], ['p', 'o', 'i', 'n', 't', '_', 'm', 'u', 'l', 't', 'i', 'p', 'l', 'i', 'c', 'i', 't', 'y']])
/-- Chi2L: items Chi2, cl_1_chi2.py:10: chi2; sum, diff, up, down, asymmetry -/
def loopChi2L : List Char × List (List Char) :=
  (['c', 'h', 'i', '2'],
  [['s', 'u', 'm'], ['d', 'i', 'f', 'f'], ['u', 'p'], ['d', 'o', 'w', 'n'], ['a', 's', 'y', 'm', 'm', 'e', 't', 'r', 'y']])
/-- DensityPointL: items DensityPoint, cl_3_density_point.py:31: density_point; index_x, index_y, index_z, density, density_ferro, density_antiferro, multiplicity, fract_x, fract_y, fract_z, basin_atom_label, basin_atom_symop, basin_atom_distance -/
def loopDensityPointL : List Char × List (List Char) :=
  (['d', 'e', 'n', 's', 'i', 't', 'y', '_', 'p', 'o', 'i', 'n', 't'],
  [['i', 'n', 'd', 'e', 'x', '_', 'x'], ['i', 'n', 'd', 'e', 'x', '_', 'y'], ['i', 'n', 'd', 'e', 'x', '_', 'z'], ['d', 'e', 'n', 's', 'i', 't', 'y'], ['d', 'e', 'n', 's', 'i', 't', 'y', '_', 'f', 'e', 'r', 'r', 'o'], ['d', 'e', 'n', 's', 'i', 't', 'y', '_', 'a', 'n', 't', 'i', 'f', 'e', 'r', 'r', 'o'], ['m', 'u', 'l', 't', 'i', 'p', 'l', 'i', 'c', 'i', 't', 'y'], ['f', 'r', 'a', 'c', 't', '_', 'x'], ['f', 'r', 'a', 'c', 't', '_', 'y'], ['f', 'r', 'a', 'c', 't', '_', 'z'], ['b', 'a', 's', 'i', 'n', '_', 'a', 't', 'o', 'm', '_', 'l', 'a', 'b', 'e', 'l'], ['b', 'a', 's', 'i', 'n', '_', 'a', 't', 'o', 'm', '_', 's', 'y', 'm', 'o', 'p'], ['b', 'a', 's', 'i', 'n', '_', 'a', 't', 'o', 'm', '_', 'd', 'i', 's', 't', 'a', 'n', 'c', 'e']])
/-- DiffrnRadiationL: items DiffrnRadiation, cl_1_diffrn_radiation.py:11: diffrn_radiation; polarization, efficiency -/
def loopDiffrnRadiationL : List Char × List (List Char) :=
  (['d', 'i', 'f', 'f', 'r', 'n', '_', 'r', 'a', 'd', 'i', 'a', 't', 'i', 'o', 'n'],
  [['p', 'o', 'l', 'a', 'r', 'i', 'z', 'a', 't', 'i', 'o', 'n'], ['e', 'f', 'f', 'i', 'c', 'i', 'e', 'n', 'c', 'y']])
/-- DiffrnOrientMatrixL: items DiffrnOrientMatrix, cl_2_diffrn_orient_matrix.py:16: diffrn_orient_matrix; ub_11, ub_12, ub_13, ub_21, ub_22, ub_23, ub_31, ub_32, ub_33, id, type -/
def loopDiffrnOrientMatrixL : List Char × List (List Char) :=
  (['d', 'i', 'f', 'f', 'r', 'n', '_', 'o', 'r', 'i', 'e', 'n', 't', '_', 'm', 'a', 't', 'r', 'i', 'x'],
  [['u', 'b', '_', '1', '1'], ['u', 'b', '_', '1', '2'], ['u', 'b', '_', '1', '3'], ['u', 'b', '_', '2', '1'], ['u', 'b', '_', '2', '2'], ['u', 'b', '_', '2', '3'], ['u', 'b', '_', '3', '1'], ['u', 'b', '_', '3', '2'], ['u', 'b', '_', '3', '3'], ['i', 'd'], ['t', 'y', 'p', 'e']])
/-- DiffrnReflnL: items DiffrnRefln, cl_1_diffrn_refln.py:13: diffrn_refln; index_h, index_k, index_l, fr, fr_sigma, fr_calc, intensity, intensity_sigma, intensity_calc, excluded, sint/lambda -/
def loopDiffrnReflnL : List Char × List (List Char) :=
  (['d', 'i', 'f', 'f', 'r', 'n', '_', 'r', 'e', 'f', 'l', 'n'],
  [['i', 'n', 'd', 'e', 'x', '_', 'h'], ['i', 'n', 'd', 'e', 'x', '_', 'k'], ['i', 'n', 'd', 'e', 'x', '_', 'l'], ['f', 'r'], ['f', 'r', '_', 's', 'i', 'g', 'm', 'a'], ['f', 'r', '_', 'c', 'a', 'l', 'c'], ['i', 'n', 't', 'e', 'n', 's', 'i', 't', 'y'], ['i', 'n', 't', 'e', 'n', 's', 'i', 't', 'y', '_', 's', 'i', 'g', 'm', 'a'], ['i', 'n', 't', 'e', 'n', 's', 'i', 't', 'y', '_', 'c', 'a', 'l', 'c'], ['e', 'x', 'c', 'l', 'u', 'd', 'e', 'd'], ['s', 'i', 'n', 't', '/', 'l', 'a', 'm', 'b', 'd', 'a']])
/-- ExtinctionL: items Extinction, cl_1_extinction.py:13: extinction; model, mosaicity, radius -/
def loopExtinctionL : List Char × List (List Char) :=
  (['e', 'x', 't', 'i', 'n', 'c', 't', 'i', 'o', 'n'],
  [['m', 'o', 'd', 'e', 'l'], ['m', 'o', 's', 'a', 'i', 'c', 'i', 't', 'y'], ['r', 'a', 'd', 'i', 'u', 's']])
/-- ExcludeL: items Exclude, cl_1_exclude.py:11: exclude; id, 2theta_min, 2theta_max, phi_min, phi_max, time_min, time_max, gamma_min, gamma_max, nu_min, nu_max -/
def loopExcludeL : List Char × List (List Char) :=
  (['e', 'x', 'c', 'l', 'u', 'd', 'e'],
  [['i', 'd'], ['2', 't', 'h', 'e', 't', 'a', '_', 'm', 'i', 'n'], ['2', 't', 'h', 'e', 't', 'a', '_', 'm', 'a', 'x'], ['p', 'h', 'i', '_', 'm', 'i', 'n'], ['p', 'h', 'i', '_', 'm', 'a', 'x'], ['t', 'i', 'm', 'e', '_', 'm', 'i', 'n'], ['t', 'i', 'm', 'e', '_', 'm', 'a', 'x'], ['g', 'a', 'm', 'm', 'a', '_', 'm', 'i', 'n'], ['g', 'a', 'm', 'm', 'a', '_', 'm', 'a', 'x'], ['n', 'u', '_', 'm', 'i', 'n'], ['n', 'u', '_', 'm', 'a', 'x']])
/-- MEMParametersL: items MEMParameters, cl_1_mem_parameters.py:13: mem_parameters; points_a, points_b, points_c, channel_plus_minus, channel_chi, magnetization_plus, magnetization_minus, prior_density, use_asymmetry, only_magnetic_basins, GoF_desired, spin_density_to_den_file, magnetization_density_to_den_file -/
def loopMEMParametersL : List Char × List (List Char) :=
  (['m', 'e', 'm', '_', 'p', 'a', 'r', 'a', 'm', 'e', 't', 'e', 'r', 's'],
  [['p', 'o', 'i', 'n', 't', 's', '_', 'a'], ['p', 'o', 'i', 'n', 't', 's', '_', 'b'], ['p', 'o', 'i', 'n', 't', 's', '_', 'c'], ['c', 'h', 'a', 'n', 'n', 'e', 'l', '_', 'p', 'l', 'u', 's', '_', 'm', 'i', 'n', 'u', 's'], ['c', 'h', 'a', 'n', 'n', 'e', 'l', '_', 'c', 'h', 'i'], ['m', 'a', 'g', 'n', 'e', 't', 'i', 'z', 'a', 't', 'i', 'o', 'n', '_', 'p', 'l', 'u', 's'], ['m', 'a', 'g', 'n', 'e', 't', 'i', 'z', 'a', 't', 'i', 'o', 'n', '_', 'm', 'i', 'n', 'u', 's'], ['p', 'r', 'i', 'o', 'r', '_', 'd', 'e', 'n', 's', 'i', 't', 'y'], ['u', 's', 'e', '_', 'a', 's', 'y', 'm', 'm', 'e', 't', 'r', 'y'], ['o', 'n', 'l', 'y', '_', 'm', 'a', 'g', 'n', 'e', 't', 'i', 'c', '_', 'b', 'a', 's', 'i', 'n', 's'], ['G', 'o', 'F', '_', 'd', 'e', 's', 'i', 'r', 'e', 'd'], ['s', 'p', 'i', 'n', '_', 'd', 'e', 'n', 's', 'i', 't', 'y', '_', 't', 'o', '_', 'd', 'e', 'n', '_', 'f', 'i', 'l', 'e'], ['m', 'a', 'g', 'n', 'e', 't', 'i', 'z', 'a', 't', 'i', 'o', 'n', '_', 'd', 'e', 'n', 's', 'i', 't', 'y', '_', 't', 'o', '_', 'd', 'e', 'n', '_', 'f', 'i', 'l', 'e']])
/-- PhaseL: items Phase, cl_1_phase.py:12: phase; label, scale, igsize, X, Y, U, V, W -/
def loopPhaseL : List Char × List (List Char) :=
  (['p', 'h', 'a', 's', 'e'],
  [['l', 'a', 'b', 'e', 'l'], ['s', 'c', 'a', 'l', 'e'], ['i', 'g', 's', 'i', 'z', 'e'], ['X'], ['Y'], ['U'], ['V'], ['W']])
/-- PdBackgroundL: items PdBackground, cl_1_pd_background.py:15: pd_background; 2theta, intensity -/
def loopPdBackgroundL : List Char × List (List Char) :=
  (['p', 'd', '_', 'b', 'a', 'c', 'k', 'g', 'r', 'o', 'u', 'n', 'd'],
  [['2', 't', 'h', 'e', 't', 'a'], ['i', 'n', 't', 'e', 'n', 's', 'i', 't', 'y']])
/-- PdInstrReflexAsymmetryL: items PdInstrReflexAsymmetry, cl_1_pd_instr_reflex_asymmetry.py:11: pd_instr_reflex_asymmetry; p1, p2, p3, p4 -/
def loopPdInstrReflexAsymmetryL : List Char × List (List Char) :=
  (['p', 'd', '_', 'i', 'n', 's', 't', 'r', '_', 'r', 'e', 'f', 'l', 'e', 'x', '_', 'a', 's', 'y', 'm', 'm', 'e', 't', 'r', 'y'],
  [['p', '1'], ['p', '2'], ['p', '3'], ['p', '4']])
/-- PdInstrResolutionL: items PdInstrResolution, cl_1_pd_instr_resolution.py:12: pd_instr_resolution; U, V, W, X, Y -/
def loopPdInstrResolutionL : List Char × List (List Char) :=
  (['p', 'd', '_', 'i', 'n', 's', 't', 'r', '_', 'r', 'e', 's', 'o', 'l', 'u', 't', 'i', 'o', 'n'],
  [['U'], ['V'], ['W'], ['X'], ['Y']])
/-- PdMeasL: items PdMeas, cl_1_pd_meas.py:12: pd_meas; 2theta, intensity_plus, intensity_plus_sigma, intensity_minus, intensity_minus_sigma, intensity, intensity_sigma -/
def loopPdMeasL : List Char × List (List Char) :=
  (['p', 'd', '_', 'm', 'e', 'a', 's'],
  [['2', 't', 'h', 'e', 't', 'a'], ['i', 'n', 't', 'e', 'n', 's', 'i', 't', 'y', '_', 'p', 'l', 'u', 's'], ['i', 'n', 't', 'e', 'n', 's', 'i', 't', 'y', '_', 'p', 'l', 'u', 's', '_', 's', 'i', 'g', 'm', 'a'], ['i', 'n', 't', 'e', 'n', 's', 'i', 't', 'y', '_', 'm', 'i', 'n', 'u', 's'], ['i', 'n', 't', 'e', 'n', 's', 'i', 't', 'y', '_', 'm', 'i', 'n', 'u', 's', '_', 's', 'i', 'g', 'm', 'a'], ['i', 'n', 't', 'e', 'n', 's', 'i', 't', 'y'], ['i', 'n', 't', 'e', 'n', 's', 'i', 't', 'y', '_', 's', 'i', 'g', 'm', 'a']])
/-- PdProcL: items PdProc, cl_1_pd_proc.py:16: pd_proc; 2theta, 2theta_corrected, d_spacing, intensity_plus_net, intensity_minus_net, intensity_plus_total, intensity_minus_total, intensity_bkg_calc, intensity_net, intensity_total, intensity_diff_total, intensity_plus, intensity_plus_sigma, intensity_minus, intensity_minus_sigma, intensity, intensity_sigma, excluded -/
def loopPdProcL : List Char × List (List Char) :=
  (['p', 'd', '_', 'p', 'r', 'o', 'c'],
  [['2', 't', 'h', 'e', 't', 'a'], ['2', 't', 'h', 'e', 't', 'a', '_', 'c', 'o', 'r', 'r', 'e', 'c', 't', 'e', 'd'], ['d', '_', 's', 'p', 'a', 'c', 'i', 'n', 'g'], ['i', 'n', 't', 'e', 'n', 's', 'i', 't', 'y', '_', 'p', 'l', 'u', 's', '_', 'n', 'e', 't'], ['i', 'n', 't', 'e', 'n', 's', 'i', 't', 'y', '_', 'm', 'i', 'n', 'u', 's', '_', 'n', 'e', 't'], ['i', 'n', 't', 'e', 'n', 's', 'i', 't', 'y', '_', 'p', 'l', 'u', 's', '_', 't', 'o', 't', 'a', 'l'], ['i', 'n', 't', 'e', 'n', 's', 'i', 't', 'y', '_', 'm', 'i', 'n', 'u', 's', '_', 't', 'o', 't', 'a', 'l'], ['i', 'n', 't', 'e', 'n', 's', 'i', 't', 'y', '_', 'b', 'k', 'g', '_', 'c', 'a', 'l', 'c'], ['i', 'n', 't', 'e', 'n', 's', 'i', 't', 'y', '_', 'n', 'e', 't'], ['i', 'n', 't', 'e', 'n', 's', 'i', 't', 'y', '_', 't', 'o', 't', 'a', 'l'], ['i', 'n', 't', 'e', 'n', 's', 'i', 't', 'y', '_', 'd', 'i', 'f', 'f', '_', 't', 'o', 't', 'a', 'l'], ['i', 'n', 't', 'e', 'n', 's', 'i', 't', 'y', '_', 'p', 'l', 'u', 's'], ['i', 'n', 't', 'e', 'n', 's', 'i', 't', 'y', '_', 'p', 'l', 'u', 's', '_', 's', 'i', 'g', 'm', 'a'], ['i', 'n', 't', 'e', 'n', 's', 'i', 't', 'y', '_', 'm', 'i', 'n', 'u', 's'], ['i', 'n', 't', 'e', 'n', 's', 'i', 't', 'y', '_', 'm', 'i', 'n', 'u', 's', '_', 's', 'i', 'g', 'm', 'a'], ['i', 'n', 't', 'e', 'n', 's', 'i', 't', 'y'], ['i', 'n', 't', 'e', 'n', 's', 'i', 't', 'y', '_', 's', 'i', 'g', 'm', 'a'], ['e', 'x', 'c', 'l', 'u', 'd', 'e', 'd']])
/-- PdPeakL: items PdPeak, cl_1_pd_peak.py:11: pd_peak; index_h, index_k, index_l, index_mult, 2theta, intensity_plus, intensity_minus, width_2theta, sint/lambda, d_spacing, gamma, nu -/
def loopPdPeakL : List Char × List (List Char) :=
  (['p', 'd', '_', 'p', 'e', 'a', 'k'],
  [['i', 'n', 'd', 'e', 'x', '_', 'h'], ['i', 'n', 'd', 'e', 'x', '_', 'k'], ['i', 'n', 'd', 'e', 'x', '_', 'l'], ['i', 'n', 'd', 'e', 'x', '_', 'm', 'u', 'l', 't'], ['2', 't', 'h', 'e', 't', 'a'], ['i', 'n', 't', 'e', 'n', 's', 'i', 't', 'y', '_', 'p', 'l', 'u', 's'], ['i', 'n', 't', 'e', 'n', 's', 'i', 't', 'y', '_', 'm', 'i', 'n', 'u', 's'], ['w', 'i', 'd', 't', 'h', '_', '2', 't', 'h', 'e', 't', 'a'], ['s', 'i', 'n', 't', '/', 'l', 'a', 'm', 'b', 'd', 'a'], ['d', '_', 's', 'p', 'a', 'c', 'i', 'n', 'g'], ['g', 'a', 'm', 'm', 'a'], ['n', 'u']])
/-- Pd2dInstrReflexAsymmetryL: items Pd2dInstrReflexAsymmetry, cl_1_pd2d_instr_reflex_asymmetry.py:8: pd2d_instr_reflex_asymmetry; p1, p2, p3, p4 -/
def loopPd2dInstrReflexAsymmetryL : List Char × List (List Char) :=
  (['p', 'd', '2', 'd', '_', 'i', 'n', 's', 't', 'r', '_', 'r', 'e', 'f', 'l', 'e', 'x', '_', 'a', 's', 'y', 'm', 'm', 'e', 't', 'r', 'y'],
  [['p', '1'], ['p', '2'], ['p', '3'], ['p', '4']])
/-- Pd2dInstrResolutionL: items Pd2dInstrResolution, cl_1_pd2d_instr_resolution.py:8: pd2d_instr_resolution; U, V, W, X, Y, phi -/
def loopPd2dInstrResolutionL : List Char × List (List Char) :=
  (['p', 'd', '2', 'd', '_', 'i', 'n', 's', 't', 'r', '_', 'r', 'e', 's', 'o', 'l', 'u', 't', 'i', 'o', 'n'],
  [['U'], ['V'], ['W'], ['X'], ['Y'], ['p', 'h', 'i']])
/-- Pd2dPeakL: items Pd2dPeak, cl_1_pd2d_peak.py:11: pd2d_peak; index_h, index_k, index_l, index_mult, 2theta, f_nucl_sq, f_m_p_sin_sq, f_m_p_cos_sq, cross_sin, width_2theta, sint/lambda, d_spacing -/
def loopPd2dPeakL : List Char × List (List Char) :=
  (['p', 'd', '2', 'd', '_', 'p', 'e', 'a', 'k'],
  [['i', 'n', 'd', 'e', 'x', '_', 'h'], ['i', 'n', 'd', 'e', 'x', '_', 'k'], ['i', 'n', 'd', 'e', 'x', '_', 'l'], ['i', 'n', 'd', 'e', 'x', '_', 'm', 'u', 'l', 't'], ['2', 't', 'h', 'e', 't', 'a'], ['f', '_', 'n', 'u', 'c', 'l', '_', 's', 'q'], ['f', '_', 'm', '_', 'p', '_', 's', 'i', 'n', '_', 's', 'q'], ['f', '_', 'm', '_', 'p', '_', 'c', 'o', 's', '_', 's', 'q'], ['c', 'r', 'o', 's', 's', '_', 's', 'i', 'n'], ['w', 'i', 'd', 't', 'h', '_', '2', 't', 'h', 'e', 't', 'a'], ['s', 'i', 'n', 't', '/', 'l', 'a', 'm', 'b', 'd', 'a'], ['d', '_', 's', 'p', 'a', 'c', 'i', 'n', 'g']])
/-- RangeL: items Range, cl_1_range.py:10: range; 2theta_min, 2theta_max, phi_min, phi_max, time_min, time_max, gamma_min, gamma_max, nu_min, nu_max -/
def loopRangeL : List Char × List (List Char) :=
  (['r', 'a', 'n', 'g', 'e'],
  [['2', 't', 'h', 'e', 't', 'a', '_', 'm', 'i', 'n'], ['2', 't', 'h', 'e', 't', 'a', '_', 'm', 'a', 'x'], ['p', 'h', 'i', '_', 'm', 'i', 'n'], ['p', 'h', 'i', '_', 'm', 'a', 'x'], ['t', 'i', 'm', 'e', '_', 'm', 'i', 'n'], ['t', 'i', 'm', 'e', '_', 'm', 'a', 'x'], ['g', 'a', 'm', 'm', 'a', '_', 'm', 'i', 'n'], ['g', 'a', 'm', 'm', 'a', '_', 'm', 'a', 'x'], ['n', 'u', '_', 'm', 'i', 'n'], ['n', 'u', '_', 'm', 'a', 'x']])
/-- RefineLsL: items RefineLs, cl_1_refine_ls.py:11: refine_ls; goodness_of_fit_all, number_reflns, number_restraints, number_constraints, weighting_scheme, number_parameters -/
def loopRefineLsL : List Char × List (List Char) :=
  (['r', 'e', 'f', 'i', 'n', 'e', '_', 'l', 's'],
  [['g', 'o', 'o', 'd', 'n', 'e', 's', 's', '_', 'o', 'f', '_', 'f', 'i', 't', '_', 'a', 'l', 'l'], ['n', 'u', 'm', 'b', 'e', 'r', '_', 'r', 'e', 'f', 'l', 'n', 's'], ['n', 'u', 'm', 'b', 'e', 'r', '_', 'r', 'e', 's', 't', 'r', 'a', 'i', 'n', 't', 's'], ['n', 'u', 'm', 'b', 'e', 'r', '_', 'c', 'o', 'n', 's', 't', 'r', 'a', 'i', 'n', 't', 's'], ['w', 'e', 'i', 'g', 'h', 't', 'i', 'n', 'g', '_', 's', 'c', 'h', 'e', 'm', 'e'], ['n', 'u', 'm', 'b', 'e', 'r', '_', 'p', 'a', 'r', 'a', 'm', 'e', 't', 'e', 'r', 's']])
/-- ReflnL: items Refln, cl_1_refln.py:11: refln; index_h, index_k, index_l, a_calc, a_meas, b_calc, b_meas, class_code, crystal_id, d_spacing, f_calc, f_meas, f_sigma, f_squared_calc, f_polarized_squared_calc, f_squared_meas, f_squared_sigma, include_status, intensity_calc, intensity_meas, intensity_sigma, mean_path_length_tbar, phase_calc, phase_meas, refinement_status, scale_group_code, sint/lambda, symmetry_epsilon, symmetry_multiplicity, wavelength, wavelength_id -/
def loopReflnL : List Char × List (List Char) :=
  (['r', 'e', 'f', 'l', 'n'],
  [['i', 'n', 'd', 'e', 'x', '_', 'h'], ['i', 'n', 'd', 'e', 'x', '_', 'k'], ['i', 'n', 'd', 'e', 'x', '_', 'l'], ['a', '_', 'c', 'a', 'l', 'c'], ['a', '_', 'm', 'e', 'a', 's'], ['b', '_', 'c', 'a', 'l', 'c'], ['b', '_', 'm', 'e', 'a', 's'], ['c', 'l', 'a', 's', 's', '_', 'c', 'o', 'd', 'e'], ['c', 'r', 'y', 's', 't', 'a', 'l', '_', 'i', 'd'], ['d', '_', 's', 'p', 'a', 'c', 'i', 'n', 'g'], ['f', '_', 'c', 'a', 'l', 'c'], ['f', '_', 'm', 'e', 'a', 's'], ['f', '_', 's', 'i', 'g', 'm', 'a'], ['f', '_', 's', 'q', 'u', 'a', 'r', 'e', 'd', '_', 'c', 'a', 'l', 'c'], ['f', '_', 'p', 'o', 'l', 'a', 'r', 'i', 'z', 'e', 'd', '_', 's', 'q', 'u', 'a', 'r', 'e', 'd', '_', 'c', 'a', 'l', 'c'], ['f', '_', 's', 'q', 'u', 'a', 'r', 'e', 'd', '_', 'm', 'e', 'a', 's'], ['f', '_', 's', 'q', 'u', 'a', 'r', 'e', 'd', '_', 's', 'i', 'g', 'm', 'a'], ['i', 'n', 'c', 'l', 'u', 'd', 'e', '_', 's', 't', 'a', 't', 'u', 's'], ['i', 'n', 't', 'e', 'n', 's', 'i', 't', 'y', '_', 'c', 'a', 'l', 'c'], ['i', 'n', 't', 'e', 'n', 's', 'i', 't', 'y', '_', 'm', 'e', 'a', 's'], ['i', 'n', 't', 'e', 'n', 's', 'i', 't', 'y', '_', 's', 'i', 'g', 'm', 'a'], ['m', 'e', 'a', 'n', '_', 'p', 'a', 't', 'h', '_', 'l', 'e', 'n', 'g', 't', 'h', '_', 't', 'b', 'a', 'r'], ['p', 'h', 'a', 's', 'e', '_', 'c', 'a', 'l', 'c'], ['p', 'h', 'a', 's', 'e', '_', 'm', 'e', 'a', 's'], ['r', 'e', 'f', 'i', 'n', 'e', 'm', 'e', 'n', 't', '_', 's', 't', 'a', 't', 'u', 's'], ['s', 'c', 'a', 'l', 'e', '_', 'g', 'r', 'o', 'u', 'p', '_', 'c', 'o', 'd', 'e'], ['s', 'i', 'n', 't', '/', 'l', 'a', 'm', 'b', 'd', 'a'], ['s', 'y', 'm', 'm', 'e', 't', 'r', 'y', '_', 'e', 'p', 's', 'i', 'l', 'o', 'n'], ['s', 'y', 'm', 'm', 'e', 't', 'r', 'y', '_', 'm', 'u', 'l', 't', 'i', 'p', 'l', 'i', 'c', 'i', 't', 'y'], ['w', 'a', 'v', 'e', 'l', 'e', 'n', 'g', 't', 'h'], ['w', 'a', 'v', 'e', 'l', 'e', 'n', 'g', 't', 'h', '_', 'i', 'd']])
/-- ReflnSusceptibilityL: items ReflnSusceptibility, cl_1_refln_susceptibility.py:15: refln_susceptibility; index_h, index_k, index_l, sint/lambda, d_spacing, chi_11_calc, chi_12_calc, chi_13_calc, chi_21_calc, chi_22_calc, chi_23_calc, chi_31_calc, chi_32_calc, chi_33_calc -/
def loopReflnSusceptibilityL : List Char × List (List Char) :=
  (['r', 'e', 'f', 'l', 'n', '_', 's', 'u', 's', 'c', 'e', 'p', 't', 'i', 'b', 'i', 'l', 'i', 't', 'y'],
  [['i', 'n', 'd', 'e', 'x', '_', 'h'], ['i', 'n', 'd', 'e', 'x', '_', 'k'], ['i', 'n', 'd', 'e', 'x', '_', 'l'], ['s', 'i', 'n', 't', '/', 'l', 'a', 'm', 'b', 'd', 'a'], ['d', '_', 's', 'p', 'a', 'c', 'i', 'n', 'g'], ['c', 'h', 'i', '_', '1', '1', '_', 'c', 'a', 'l', 'c'], ['c', 'h', 'i', '_', '1', '2', '_', 'c', 'a', 'l', 'c'], ['c', 'h', 'i', '_', '1', '3', '_', 'c', 'a', 'l', 'c'], ['c', 'h', 'i', '_', '2', '1', '_', 'c', 'a', 'l', 'c'], ['c', 'h', 'i', '_', '2', '2', '_', 'c', 'a', 'l', 'c'], ['c', 'h', 'i', '_', '2', '3', '_', 'c', 'a', 'l', 'c'], ['c', 'h', 'i', '_', '3', '1', '_', 'c', 'a', 'l', 'c'], ['c', 'h', 'i', '_', '3', '2', '_', 'c', 'a', 'l', 'c'], ['c', 'h', 'i', '_', '3', '3', '_', 'c', 'a', 'l', 'c']])
/-- SectionL: items Section, cl_2_section.py:19: section; id, size_x, size_y, atom_center, atom_along_axis_x, atom_x_operation_xyz, atom_along_axis_y, atom_y_operation_xyz, points_x, points_y, url_out, field_x, field_y, field_z -/
def loopSectionL : List Char × List (List Char) :=
  (['s', 'e', 'c', 't', 'i', 'o', 'n'],
  [['i', 'd'], ['s', 'i', 'z', 'e', '_', 'x'], ['s', 'i', 'z', 'e', '_', 'y'], ['a', 't', 'o', 'm', '_', 'c', 'e', 'n', 't', 'e', 'r'], ['a', 't', 'o', 'm', '_', 'a', 'l', 'o', 'n', 'g', '_', 'a', 'x', 'i', 's', '_', 'x'], ['a', 't', 'o', 'm', '_', 'x', '_', 'o', 'p', 'e', 'r', 'a', 't', 'i', 'o', 'n', '_', 'x', 'y', 'z'], ['a', 't', 'o', 'm', '_', 'a', 'l', 'o', 'n', 'g', '_', 'a', 'x', 'i', 's', '_', 'y'], ['a', 't', 'o', 'm', '_', 'y', '_', 'o', 'p', 'e', 'r', 'a', 't', 'i', 'o', 'n', '_', 'x', 'y', 'z'], ['p', 'o', 'i', 'n', 't', 's', '_', 'x'], ['p', 'o', 'i', 'n', 't', 's', '_', 'y'], ['u', 'r', 'l', '_', 'o', 'u', 't'], ['f', 'i', 'e', 'l', 'd', '_', 'x'], ['f', 'i', 'e', 'l', 'd', '_', 'y'], ['f', 'i', 'e', 'l', 'd', '_', 'z']])
/-- SetupL: items Setup, cl_1_setup.py:12: setup; wavelength, field, offset_2theta, offset_phi, offset_gamma, offset_nu, ratio_lambda/2, radiation, K, cthm, temperature -/
def loopSetupL : List Char × List (List Char) :=
  (['s', 'e', 't', 'u', 'p'],
  [['w', 'a', 'v', 'e', 'l', 'e', 'n', 'g', 't', 'h'], ['f', 'i', 'e', 'l', 'd'], ['o', 'f', 'f', 's', 'e', 't', '_', '2', 't', 'h', 'e', 't', 'a'], ['o', 'f', 'f', 's', 'e', 't', '_', 'p', 'h', 'i'], ['o', 'f', 'f', 's', 'e', 't', '_', 'g', 'a', 'm', 'm', 'a'], ['o', 'f', 'f', 's', 'e', 't', '_', 'n', 'u'], ['r', 'a', 't', 'i', 'o', '_', 'l', 'a', 'm', 'b', 'd', 'a', '/', '2'], ['r', 'a', 'd', 'i', 'a', 't', 'i', 'o', 'n'], ['K'], ['c', 't', 'h', 'm'], ['t', 'e', 'm', 'p', 'e', 'r', 'a', 't', 'u', 'r', 'e']])
/-- SpaceGroupSymopL: items SpaceGroupSymop, cl_1_space_group_symop.py:20: space_group_symop; operation_xyz, id, operation_description, generator_xyz, sg_id -/
def loopSpaceGroupSymopL : List Char × List (List Char) :=
  (['s', 'p', 'a', 'c', 'e', '_', 'g', 'r', 'o', 'u', 'p', '_', 's', 'y', 'm', 'o', 'p'],
  [['o', 'p', 'e', 'r', 'a', 't', 'i', 'o', 'n', '_', 'x', 'y', 'z'], ['i', 'd'], ['o', 'p', 'e', 'r', 'a', 't', 'i', 'o', 'n', '_', 'd', 'e', 's', 'c', 'r', 'i', 'p', 't', 'i', 'o', 'n'], ['g', 'e', 'n', 'e', 'r', 'a', 't', 'o', 'r', '_', 'x', 'y', 'z'], ['s', 'g', '_', 'i', 'd']])
/-- SpaceGroupSymopMagnCenteringL: items SpaceGroupSymopMagnCentering, cl_1_space_group_symop_magn_centering.py:13: space_group_symop_magn_centering; xyz, id, description -/
def loopSpaceGroupSymopMagnCenteringL : List Char × List (List Char) :=
  (['s', 'p', 'a', 'c', 'e', '_', 'g', 'r', 'o', 'u', 'p', '_', 's', 'y', 'm', 'o', 'p', '_', 'm', 'a', 'g', 'n', '_', 'c', 'e', 'n', 't', 'e', 'r', 'i', 'n', 'g'],
  [['x', 'y', 'z'], ['i', 'd'], ['d', 'e', 's', 'c', 'r', 'i', 'p', 't', 'i', 'o', 'n']])
/-- SpaceGroupSymopMagnOperationL: items SpaceGroupSymopMagnOperation, cl_2_space_group_symop_magn_operation.py:17: space_group_symop_magn_operation; xyz, id, description -/
def loopSpaceGroupSymopMagnOperationL : List Char × List (List Char) :=
  (['s', 'p', 'a', 'c', 'e', '_', 'g', 'r', 'o', 'u', 'p', '_', 's', 'y', 'm', 'o', 'p', '_', 'm', 'a', 'g', 'n', '_', 'o', 'p', 'e', 'r', 'a', 't', 'i', 'o', 'n'],
  [['x', 'y', 'z'], ['i', 'd'], ['d', 'e', 's', 'c', 'r', 'i', 'p', 't', 'i', 'o', 'n']])
/-- SpaceGroupWyckoffL: items SpaceGroupWyckoff, cl_1_space_group_wyckoff.py:16: space_group_Wyckoff; coord_xyz, id, letter, multiplicity, site_symmetry -/
def loopSpaceGroupWyckoffL : List Char × List (List Char) :=
  (['s', 'p', 'a', 'c', 'e', '_', 'g', 'r', 'o', 'u', 'p', '_', 'W', 'y', 'c', 'k', 'o', 'f', 'f'],
  [['c', 'o', 'o', 'r', 'd', '_', 'x', 'y', 'z'], ['i', 'd'], ['l', 'e', 't', 't', 'e', 'r'], ['m', 'u', 'l', 't', 'i', 'p', 'l', 'i', 'c', 'i', 't', 'y'], ['s', 'i', 't', 'e', '_', 's', 'y', 'm', 'm', 'e', 't', 'r', 'y']])
/-- TextureL: items Texture, cl_1_texture.py:11: texture; g_1, g_2, h_ax, k_ax, l_ax, label -/
def loopTextureL : List Char × List (List Char) :=
  (['t', 'e', 'x', 't', 'u', 'r', 'e'],
  [['g', '_', '1'], ['g', '_', '2'], ['h', '_', 'a', 'x'], ['k', '_', 'a', 'x'], ['l', '_', 'a', 'x'], ['l', 'a', 'b', 'e', 'l']])
/-- TOFBackgroundL: items TOFBackground, cl_1_tof_background.py:11: tof_background; time_max, coeff1, coeff2, coeff3, coeff4, coeff5, coeff6, coeff7, coeff8, coeff9, coeff10, coeff11, coeff12, coeff13, coeff14, coeff15, coeff16, coeff17, coeff18, id -/
def loopTOFBackgroundL : List Char × List (List Char) :=
  (['t', 'o', 'f', '_', 'b', 'a', 'c', 'k', 'g', 'r', 'o', 'u', 'n', 'd'],
  [['t', 'i', 'm', 'e', '_', 'm', 'a', 'x'], ['c', 'o', 'e', 'f', 'f', '1'], ['c', 'o', 'e', 'f', 'f', '2'], ['c', 'o', 'e', 'f', 'f', '3'], ['c', 'o', 'e', 'f', 'f', '4'], ['c', 'o', 'e', 'f', 'f', '5'], ['c', 'o', 'e', 'f', 'f', '6'], ['c', 'o', 'e', 'f', 'f', '7'], ['c', 'o', 'e', 'f', 'f', '8'], ['c', 'o', 'e', 'f', 'f', '9'], ['c', 'o', 'e', 'f', 'f', '1', '0'], ['c', 'o', 'e', 'f', 'f', '1', '1'], ['c', 'o', 'e', 'f', 'f', '1', '2'], ['c', 'o', 'e', 'f', 'f', '1', '3'], ['c', 'o', 'e', 'f', 'f', '1', '4'], ['c', 'o', 'e', 'f', 'f', '1', '5'], ['c', 'o', 'e', 'f', 'f', '1', '6'], ['c', 'o', 'e', 'f', 'f', '1', '7'], ['c', 'o', 'e', 'f', 'f', '1', '8'], ['i', 'd']])
/-- TOFIntensityIncidentL: items TOFIntensityIncident, cl_1_tof_intensity_incident.py:12: tof_intensity_incident; a0, a1, a2, a3, a4, a5, a6, a7, a8, spectrum -/
def loopTOFIntensityIncidentL : List Char × List (List Char) :=
  (['t', 'o', 'f', '_', 'i', 'n', 't', 'e', 'n', 's', 'i', 't', 'y', '_', 'i', 'n', 'c', 'i', 'd', 'e', 'n', 't'],
  [['a', '0'], ['a', '1'], ['a', '2'], ['a', '3'], ['a', '4'], ['a', '5'], ['a', '6'], ['a', '7'], ['a', '8'], ['s', 'p', 'e', 'c', 't', 'r', 'u', 'm']])
/-- TOFMeasL: items TOFMeas, cl_1_tof_meas.py:12: tof_meas; time, intensity_plus, intensity_plus_sigma, intensity_minus, intensity_minus_sigma, intensity, intensity_sigma -/
def loopTOFMeasL : List Char × List (List Char) :=
  (['t', 'o', 'f', '_', 'm', 'e', 'a', 's'],
  [['t', 'i', 'm', 'e'], ['i', 'n', 't', 'e', 'n', 's', 'i', 't', 'y', '_', 'p', 'l', 'u', 's'], ['i', 'n', 't', 'e', 'n', 's', 'i', 't', 'y', '_', 'p', 'l', 'u', 's', '_', 's', 'i', 'g', 'm', 'a'], ['i', 'n', 't', 'e', 'n', 's', 'i', 't', 'y', '_', 'm', 'i', 'n', 'u', 's'], ['i', 'n', 't', 'e', 'n', 's', 'i', 't', 'y', '_', 'm', 'i', 'n', 'u', 's', '_', 's', 'i', 'g', 'm', 'a'], ['i', 'n', 't', 'e', 'n', 's', 'i', 't', 'y'], ['i', 'n', 't', 'e', 'n', 's', 'i', 't', 'y', '_', 's', 'i', 'g', 'm', 'a']])
/-- TOFParametersL: items TOFParameters, cl_1_tof_parameters.py:15: tof_parameters; Zero, Dtt1, 2theta_bank, neutrons, dtt2, zerot, dtt1t, dtt2t, width, x_cross, field, extinction -/
def loopTOFParametersL : List Char × List (List Char) :=
  (['t', 'o', 'f', '_', 'p', 'a', 'r', 'a', 'm', 'e', 't', 'e', 'r', 's'],
  [['Z', 'e', 'r', 'o'], ['D', 't', 't', '1'], ['2', 't', 'h', 'e', 't', 'a', '_', 'b', 'a', 'n', 'k'], ['n', 'e', 'u', 't', 'r', 'o', 'n', 's'], ['d', 't', 't', '2'], ['z', 'e', 'r', 'o', 't'], ['d', 't', 't', '1', 't'], ['d', 't', 't', '2', 't'], ['w', 'i', 'd', 't', 'h'], ['x', '_', 'c', 'r', 'o', 's', 's'], ['f', 'i', 'e', 'l', 'd'], ['e', 'x', 't', 'i', 'n', 'c', 't', 'i', 'o', 'n']])
/-- TOFPeakL: items TOFPeak, cl_1_tof_peak.py:11: tof_peak; index_h, index_k, index_l, index_mult, time, intensity_plus, intensity_minus, width_time -/
def loopTOFPeakL : List Char × List (List Char) :=
  (['t', 'o', 'f', '_', 'p', 'e', 'a', 'k'],
  [['i', 'n', 'd', 'e', 'x', '_', 'h'], ['i', 'n', 'd', 'e', 'x', '_', 'k'], ['i', 'n', 'd', 'e', 'x', '_', 'l'], ['i', 'n', 'd', 'e', 'x', '_', 'm', 'u', 'l', 't'], ['t', 'i', 'm', 'e'], ['i', 'n', 't', 'e', 'n', 's', 'i', 't', 'y', '_', 'p', 'l', 'u', 's'], ['i', 'n', 't', 'e', 'n', 's', 'i', 't', 'y', '_', 'm', 'i', 'n', 'u', 's'], ['w', 'i', 'd', 't', 'h', '_', 't', 'i', 'm', 'e']])
/-- TOFProcL: items TOFProc, cl_1_tof_proc.py:12: tof_proc; time, time_corrected, d_spacing, intensity_plus_net, intensity_minus_net, intensity_plus_total, intensity_minus_total, intensity_bkg_calc, intensity_net, intensity_total, intensity_diff_total, intensity_plus, intensity_plus_sigma, intensity_minus, intensity_minus_sigma, intensity, intensity_sigma, excluded -/
def loopTOFProcL : List Char × List (List Char) :=
  (['t', 'o', 'f', '_', 'p', 'r', 'o', 'c'],
  [['t', 'i', 'm', 'e'], ['t', 'i', 'm', 'e', '_', 'c', 'o', 'r', 'r', 'e', 'c', 't', 'e', 'd'], ['d', '_', 's', 'p', 'a', 'c', 'i', 'n', 'g'], ['i', 'n', 't', 'e', 'n', 's', 'i', 't', 'y', '_', 'p', 'l', 'u', 's', '_', 'n', 'e', 't'], ['i', 'n', 't', 'e', 'n', 's', 'i', 't', 'y', '_', 'm', 'i', 'n', 'u', 's', '_', 'n', 'e', 't'], ['i', 'n', 't', 'e', 'n', 's', 'i', 't', 'y', '_', 'p', 'l', 'u', 's', '_', 't', 'o', 't', 'a', 'l'], ['i', 'n', 't', 'e', 'n', 's', 'i', 't', 'y', '_', 'm', 'i', 'n', 'u', 's', '_', 't', 'o', 't', 'a', 'l'], ['i', 'n', 't', 'e', 'n', 's', 'i', 't', 'y', '_', 'b', 'k', 'g', '_', 'c', 'a', 'l', 'c'], ['i', 'n', 't', 'e', 'n', 's', 'i', 't', 'y', '_', 'n', 'e', 't'], ['i', 'n', 't', 'e', 'n', 's', 'i', 't', 'y', '_', 't', 'o', 't', 'a', 'l'], ['i', 'n', 't', 'e', 'n', 's', 'i', 't', 'y', '_', 'd', 'i', 'f', 'f', '_', 't', 'o', 't', 'a', 'l'], ['i', 'n', 't', 'e', 'n', 's', 'i', 't', 'y', '_', 'p', 'l', 'u', 's'], ['i', 'n', 't', 'e', 'n', 's', 'i', 't', 'y', '_', 'p', 'l', 'u', 's', '_', 's', 'i', 'g', 'm', 'a'], ['i', 'n', 't', 'e', 'n', 's', 'i', 't', 'y', '_', 'm', 'i', 'n', 'u', 's'], ['i', 'n', 't', 'e', 'n', 's', 'i', 't', 'y', '_', 'm', 'i', 'n', 'u', 's', '_', 's', 'i', 'g', 'm', 'a'], ['i', 'n', 't', 'e', 'n', 's', 'i', 't', 'y'], ['i', 'n', 't', 'e', 'n', 's', 'i', 't', 'y', '_', 's', 'i', 'g', 'm', 'a'], ['e', 'x', 'c', 'l', 'u', 'd', 'e', 'd']])
/-- TOFProfileL: items TOFProfile, cl_1_tof_profile.py:13: tof_profile; peak_shape, sigma0, sigma1, sigma2, size_g, strain_g, gamma0, gamma1, gamma2, size_l, strain_l, alpha0, alpha1, alpha2, beta0, beta1, beta00, beta01, beta10, r01, r02, r03 -/
def loopTOFProfileL : List Char × List (List Char) :=
  (['t', 'o', 'f', '_', 'p', 'r', 'o', 'f', 'i', 'l', 'e'],
  [['p', 'e', 'a', 'k', '_', 's', 'h', 'a', 'p', 'e'], ['s', 'i', 'g', 'm', 'a', '0'], ['s', 'i', 'g', 'm', 'a', '1'], ['s', 'i', 'g', 'm', 'a', '2'], ['s', 'i', 'z', 'e', '_', 'g'], ['s', 't', 'r', 'a', 'i', 'n', '_', 'g'], ['g', 'a', 'm', 'm', 'a', '0'], ['g', 'a', 'm', 'm', 'a', '1'], ['g', 'a', 'm', 'm', 'a', '2'], ['s', 'i', 'z', 'e', '_', 'l'], ['s', 't', 'r', 'a', 'i', 'n', '_', 'l'], ['a', 'l', 'p', 'h', 'a', '0'], ['a', 'l', 'p', 'h', 'a', '1'], ['a', 'l', 'p', 'h', 'a', '2'], ['b', 'e', 't', 'a', '0'], ['b', 'e', 't', 'a', '1'], ['b', 'e', 't', 'a', '0', '0'], ['b', 'e', 't', 'a', '0', '1'], ['b', 'e', 't', 'a', '1', '0'], ['r', '0', '1'], ['r', '0', '2'], ['r', '0', '3']])

/-- `L_LOOP_CLASS` in its order -/
def loopClasses : List (List Char × List (List Char)) := [loopAtomLocalAxesL, loopAtomElectronConfigurationL, loopAtomRhoOrbitalRadialSlaterL, loopAtomSiteL, loopAtomSiteAnisoL, loopAtomSiteMomentL, loopAtomSiteScatL, loopAtomSiteSusceptibilityL, loopAtomSiteExchangeL, loopAtomTypeL, loopAtomTypeScatL, loopCellL, loopChannelChiL, loopChannelPlusMinusL, loopChi2L, loopDensityPointL, loopDiffrnRadiationL, loopDiffrnOrientMatrixL, loopDiffrnReflnL, loopExtinctionL, loopExcludeL, loopMEMParametersL, loopPhaseL, loopPdBackgroundL, loopPdInstrReflexAsymmetryL, loopPdInstrResolutionL, loopPdMeasL, loopPdProcL, loopPdPeakL, loopPd2dInstrReflexAsymmetryL, loopPd2dInstrResolutionL, loopPd2dPeakL, loopRangeL, loopRefineLsL, loopReflnL, loopReflnSusceptibilityL, loopSectionL, loopSetupL, loopSpaceGroupSymopL, loopSpaceGroupSymopMagnCenteringL, loopSpaceGroupSymopMagnOperationL, loopSpaceGroupWyckoffL, loopTextureL, loopTOFBackgroundL, loopTOFIntensityIncidentL, loopTOFMeasL, loopTOFParametersL, loopTOFPeakL, loopTOFProcL, loopTOFProfileL]

end Cryspy.Gen
