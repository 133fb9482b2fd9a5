import Verif.Refine.Model
import Verif.Take.Model

/-!
# The parameter a mark stands at

`GlobalN.get_dictionary` ties the parameters that carry the same mark (their constraints are `Refine.linearConstraints`); the calculation
knows a parameter by its place in the dictionary, and `transfer_cif_names_to_dict_names`, B_parent_classes/cl_4_global.py:643-697,
makes this place from the name of the attribute.
-/

namespace Cryspy.Ties

open Cryspy.Take Cryspy.Refine

/-- a place of the dictionary: block, key and index in the array -/
abbrev Name := String × String × List ℕ

/-- `transfer_cif_names_to_dict_names`, cl_4_global.py:643-697, for an attribute and its index (none outside of a loop); names of attributes and
blocks are in small letters here, and susceptibilities are always in a loop -/
def transfer (name : String) (index : Option (List ℕ)) : String × List ℕ :=
  let i := index.getD [0]
  match name with
  | "polarization" => ("beam_polarization", i)
  | "scale" => ("phase_scale", i)
  | "efficiency" => ("flipper_efficiency", i)
  | "radius" => ("extinction_radius", i)
  | "mosaicity" => ("extinction_mosaicity", i)
  | "chi_11" => ("atom_para_susceptibility", 0 :: i)
  | "chi_22" => ("atom_para_susceptibility", 1 :: i)
  | "chi_33" => ("atom_para_susceptibility", 2 :: i)
  | "chi_12" => ("atom_para_susceptibility", 3 :: i)
  | "chi_13" => ("atom_para_susceptibility", 4 :: i)
  | "chi_23" => ("atom_para_susceptibility", 5 :: i)
  | "u" => ("resolution_parameters", [0])
  | "v" => ("resolution_parameters", [1])
  | "w" => ("resolution_parameters", [2])
  | "x" => ("resolution_parameters", [3])
  | "y" => ("resolution_parameters", [4])
  | n => (n, i)

/-- The attribute as `get_variable_names` names it: `ATTR_REF` of cl_1_diffrn_radiation.py:36, cl_1_setup.py:45, cl_1_extinction.py:43,
cl_1_pd_instr_resolution.py:36, cl_1_pd2d_instr_resolution.py:33, cl_1_pd_instr_reflex_asymmetry.py:30, cl_1_pd_background.py:34,
cl_1_phase.py:37, cl_1_texture.py:36, cl_1_tof_parameters.py:59, cl_1_tof_background.py:47, cl_1_tof_profile.py:65, and the index of
cl_2_loop.py:567-569. -/
def attrName : Attr → String × Option (List ℕ)
  | .polarization => ("polarization", none)
  | .efficiency => ("efficiency", none)
  | .wavelength => ("wavelength", none)
  | .offsetTtheta => ("offset_ttheta", none)
  | .offsetGamma => ("offset_gamma", none)
  | .offsetNu => ("offset_nu", none)
  | .ratioLambda2 => ("ratio_lambdaover2", none)
  | .mosaicity => ("mosaicity", none)
  | .radius => ("radius", none)
  | .res j => (["u", "v", "w", "x"].getD j "y", none)
  | .phi => ("phi", none)
  | .asym j => (["p1", "p2", "p3"].getD j "p4", none)
  | .bkg i => ("intensity", some i)
  | .scale i => ("scale", some [i])
  | .igsize i => ("igsize", some [i])
  | .phaseRes j i => (["u", "v", "w", "x"].getD j "y", some [i])
  | .g1 i => ("g_1", some [i])
  | .g2 i => ("g_2", some [i])
  | .axis j i => (["h_ax", "k_ax"].getD j "l_ax", some [i])
  | .zero => ("zero", none)
  | .dtt1 => ("dtt1", none)
  | .dtt2 => ("dtt2", none)
  | .zerot => ("zerot", none)
  | .dtt1t => ("dtt1t", none)
  | .dtt2t => ("dtt2t", none)
  | .coeff i => (["coeff1", "coeff2", "coeff3", "coeff4", "coeff5", "coeff6", "coeff7", "coeff8", "coeff9", "coeff10", "coeff11", "coeff12",
      "coeff13", "coeff14", "coeff15", "coeff16", "coeff17"].getD i "coeff18", none)
  | .alpha j => (["alpha0"].getD j "alpha1", none)
  | .beta j => (["beta0"].getD j "beta1", none)
  | .sigma j => (["sigma0", "sigma1"].getD j "sigma2", none)
  | .gamma j => (["gamma0", "gamma1"].getD j "gamma2", none)

/-- Refinable attributes of the items of a crystal: `ATTR_REF` of cl_1_cell.py:61, cl_1_atom_site.py:53, cl_1_atom_site_aniso.py:64,
cl_1_atom_site_exchange.py:46, cl_1_atom_site_moment.py:52, cl_1_atom_site_susceptibility.py:83, cl_2_atom_site_scat.py:46. -/
def crystalAttrs : List String :=
  ["length_a", "length_b", "length_c", "angle_alpha", "angle_beta", "angle_gamma", "fract_x", "fract_y", "fract_z", "occupancy", "u_iso_or_equiv",
    "u_equiv_geom_mean", "b_iso_or_equiv", "u_11", "u_22", "u_33", "u_12", "u_13", "u_23", "b_11", "b_22", "b_33", "b_12", "b_13", "b_23",
    "j_11", "j_22", "j_33", "j_12", "j_13", "j_23", "crystalaxis_x", "crystalaxis_y", "crystalaxis_z",
    "chi_11", "chi_22", "chi_33", "chi_12", "chi_13", "chi_23", "lande", "kappa"]

/-- Arrays of the dictionary of a crystal that have flags of refinement, cl_1_crystal.py:676, 758-762, 775, 830, 876, 888, 900-901. -/
def crystalKeys : List String :=
  ["unit_cell_parameters", "atom_fract_xyz", "atom_occupancy", "atom_b_iso", "atom_para_susceptibility", "atom_exchange_tensor",
    "atom_ordered_moment_crystalaxis_xyz", "atom_beta", "mag_atom_lande_factor", "mag_atom_kappa"]

/-- a refinable parameter of an experiment or of a crystal -/
inductive Par
  | exp (a : Attr)
  | crystal (attr : String) (index : Option ℕ)
  deriving DecidableEq

/-- its place according to `transfer_cif_names_to_dict_names` -/
def Par.place : Par → String × List ℕ
  | .exp a => transfer (attrName a).1 (attrName a).2
  | .crystal n i => transfer n (i.map fun k => [k])

/-- the name used in the constraints: the block (an experiment or a crystal) and the place, cl_4_global.py:646 and 696 -/
def toName (q : String × Par) : Name := (q.1, q.2.place)

/-- the constraints of the refined parameters with their marks, cl_4_global.py:583-608 -/
noncomputable def constraints (params : List ((String × Par) × Text.Str)) (order : List Text.Str) : List ((ℝ × Name) × (ℝ × Name)) :=
  linearConstraints (params.map fun q => (toName q.1, q.2)) order

/-- The first part of the objective (`Refine.assign`) with the exception of a place the dictionary does not have (`KeyError`):
procedure_rhochi/rhochi_by_dictionary.py:156-165; `names` are the parameters of the calculation. -/
noncomputable def objective (known : Name → Bool) (names : List Name) (cs : List ((ℝ × Name) × (ℝ × Name))) (v : List ℝ) (dict : Name → ℝ) :
    Option (Name → ℝ) :=
  let free := freeNames names cs
  let d1 := (free.zip v).foldl (fun d t => Function.update d t.1 t.2) dict
  cs.foldlM (fun d c => do
    let coeff := -c.2.1 / c.1.1
    let i ← free.findIdx? (· = c.1.2)
    let x ← v[i]?
    if known c.2.2 then some (Function.update d c.2.2 (coeff * x)) else none) d1

end Cryspy.Ties
