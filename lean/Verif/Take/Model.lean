import Verif.Sect.Model

/-!
# C81: parameters of an experiment go to the dictionary of the calculation and come back

`get_dictionary` of the items (C_item_loop_classes) and of `DataN` (B_parent_classes/cl_3_data.py:589-598), `take_parameters_from_dictionary` of
`Pd` (E_data_classes/cl_2_pd.py:192-312), `Pd2d` (cl_2_pd2d.py:1084-1215), `TOF` (cl_2_tof.py:181-325) and `Diffrn` (cl_2_diffrn.py:305-338),
`get_flags` (procedure_rhochi/rhochi_diffrn.py:21-42).  Measured and calculated data in the dictionary are not modelled here, nor are entries that
cannot be refined.  Of the time-of-flight peak shapes, the pseudo-Voigt one.
-/

namespace Cryspy.Take

open Real

/-- Refinable attributes of the items of an experiment; in loops the index of the item is the last argument. -/
inductive Attr
  /-- `diffrn_radiation` -/
  | polarization | efficiency
  /-- `setup` -/
  | wavelength | offsetTtheta | offsetGamma | offsetNu | ratioLambda2
  /-- `extinction` -/
  | mosaicity | radius
  /-- `pd_instr_resolution`, `pd2d_instr_resolution`: `u, v, w, x, y`; `phi` -/
  | res (j : ℕ) | phi
  /-- `pd_instr_reflex_asymmetry`, `pd2d_...`: `p1`, ..., `p4` -/
  | asym (j : ℕ)
  /-- `intensity` of a point of the background; two indices for `pd2d_background` -/
  | bkg (i : List ℕ)
  /-- `phase` -/
  | scale (i : ℕ) | igsize (i : ℕ)
  /-- `phase`: `u, v, w, x, y` -/
  | phaseRes (j : ℕ) (i : ℕ)
  /-- `texture`: `g_1`, `g_2`; `h_ax`, `k_ax`, `l_ax` -/
  | g1 (i : ℕ) | g2 (i : ℕ) | axis (j : ℕ) (i : ℕ)
  /-- `tof_parameters` -/
  | zero | dtt1 | dtt2 | zerot | dtt1t | dtt2t
  /-- `tof_background`: `coeff1`, ... -/
  | coeff (i : ℕ)
  /-- `tof_profile`: `alpha0, alpha1`; `beta0, beta1`; `sigma0, sigma1, sigma2`; `gamma0, gamma1, gamma2` -/
  | alpha (j : ℕ) | beta (j : ℕ) | sigma (j : ℕ) | gamma (j : ℕ)
  deriving DecidableEq

/-- kinds of experiments -/
inductive Kind
  | pd | pd2d | tof | diffrn
  deriving DecidableEq

/-- The refinable part of an experiment: values (`none` where the attribute is not defined), errors, flags `_refinement`; the number of phases. -/
structure Exp where
  val : Attr → Option ℝ
  sig : Attr → ℝ
  flag : Attr → Bool
  nPhase : ℕ

/-- dictionary: key and index in the array -/
abbrev Dict := String → List ℕ → Option ℝ

/-- Where the items put their attributes: the keys written by `get_dictionary` of cl_1_diffrn_radiation.py:74-82, cl_1_setup.py:89-120,
cl_1_extinction.py:118-128, cl_1_pd_instr_resolution.py:188-197, cl_1_pd2d_instr_resolution.py:163-178, cl_1_pd_instr_reflex_asymmetry.py:129-138,
cl_1_pd2d_instr_reflex_asymmetry.py:151-160, cl_1_pd_background.py:130-135, cl_1_pd2d_background.py:291-297, cl_1_tof_background_by_points.py:95-101,
cl_1_phase.py:74-205, cl_1_texture.py:89-102, cl_1_tof_parameters.py:212-232, cl_1_tof_background.py:195-200, cl_1_tof_profile.py:169-213. -/
def slot (key : String) (idx : List ℕ) : Option Attr :=
  match key, idx with
  | "beam_polarization", [0] => some .polarization
  | "flipper_efficiency", [0] => some .efficiency
  | "wavelength", [0] => some .wavelength
  | "offset_ttheta", [0] => some .offsetTtheta
  | "offset_gamma", [0] => some .offsetGamma
  | "offset_nu", [0] => some .offsetNu
  | "c_lambda2", [0] => some .ratioLambda2
  | "extinction_mosaicity", [0] => some .mosaicity
  | "extinction_radius", [0] => some .radius
  | "resolution_parameters", [j] => if j < 5 then some (.res j) else none
  | "resolution_phi_parameter", [0] => some .phi
  | "asymmetry_parameters", [j] => if j < 4 then some (.asym j) else none
  | "background_intensity", idx => some (.bkg idx)
  | "phase_scale", [i] => some (.scale i)
  | "phase_ig", [i] => some (.igsize i)
  | "phase_resolution_parameters", [j, i] => if j < 5 then some (.phaseRes j i) else none
  | "texture_g1", [i] => some (.g1 i)
  | "texture_g2", [i] => some (.g2 i)
  | "texture_axis", [j, i] => if j < 3 then some (.axis j i) else none
  | "zero", [0] => some .zero
  | "dtt1", [0] => some .dtt1
  | "dtt2", [0] => some .dtt2
  | "zerot", [0] => some .zerot
  | "dtt1t", [0] => some .dtt1t
  | "dtt2t", [0] => some .dtt2t
  | "background_coefficients", [i] => some (.coeff i)
  | "profile_alphas", [j] => if j < 2 then some (.alpha j) else none
  | "profile_betas", [j] => if j < 2 then some (.beta j) else none
  | "profile_sigmas", [j] => if j < 3 then some (.sigma j) else none
  | "profile_gammas", [j] => if j < 3 then some (.gamma j) else none
  | _, _ => none

/-- Columns of the phases: an attribute that is not defined for every phase is zero for all of them, cl_1_phase.py:149-205. -/
noncomputable def phaseValue (o : Exp) (f : ℕ → Attr) (i : ℕ) : Option ℝ :=
  if i < o.nPhase then (if ∀ k < o.nPhase, (o.val (f k)).isSome then o.val (f i) else some 0) else none

/-- Value an attribute has in the dictionary: offsets are converted to radians, cl_1_setup.py:98-109. -/
noncomputable def dictValue (o : Exp) : Attr → Option ℝ
  | .offsetTtheta => (o.val .offsetTtheta).map fun v => v * π / 180
  | .offsetGamma => (o.val .offsetGamma).map fun v => v * π / 180
  | .offsetNu => (o.val .offsetNu).map fun v => v * π / 180
  | .scale i => phaseValue o .scale i
  | .igsize i => phaseValue o .igsize i
  | .phaseRes j i => phaseValue o (.phaseRes j) i
  | a => o.val a

/-- `get_dictionary` of an experiment -/
noncomputable def get (o : Exp) : Dict := fun key idx => (slot key idx).bind (dictValue o)

/-- Which entries the refinement varies: those with a flag (`get_flags`, `argwhere`); the flags of phases are zero where the value is. -/
def Refined (o : Exp) (key : String) (idx : List ℕ) : Prop :=
  ∃ a, slot key idx = some a ∧ o.flag a = true ∧ (o.val a).isSome

/-- What `ItemN.__setattr__` stores (bounds: `D_MIN` of cl_1_setup.py:77, cl_1_extinction.py:67, cl_1_phase.py:62, cl_1_pd2d_instr_resolution.py:61),
after the conversion of the offsets to degrees, and the rounding of the background in cl_2_pd2d.py:1113. -/
noncomputable def stored (kind : Kind) (a : Attr) (v : ℝ) : ℝ :=
  match a with
  | .offsetTtheta | .offsetGamma | .offsetNu => v * 180 / π
  | .wavelength | .mosaicity | .radius | .igsize _ => max v 0
  | .res j => if kind = .pd2d ∧ 3 ≤ j then max v 0 else v
  | .bkg _ => if kind = .pd2d then Sect.round5 v else v
  | _ => v

/-- Which entry of the dictionary is written to an attribute by `take_parameters_from_dictionary`: cl_2_pd.py:198-257, cl_2_pd2d.py:1091-1160,
cl_2_tof.py:187-242, cl_2_diffrn.py:311-320. -/
def source (kind : Kind) (a : Attr) : Option (String × List ℕ) :=
  match kind, a with
  | _, .polarization => some ("beam_polarization", [0])
  | _, .efficiency => some ("flipper_efficiency", [0])
  | .diffrn, .mosaicity => some ("extinction_mosaicity", [0])
  | .diffrn, .radius => some ("extinction_radius", [0])
  | .diffrn, .scale 0 => some ("phase_scale", [0])
  | .diffrn, _ => none
  | _, .scale i => some ("phase_scale", [i])
  | _, .igsize i => some ("phase_ig", [i])
  | .tof, .zero => some ("zero", [0])
  | .tof, .dtt1 => some ("dtt1", [0])
  | .tof, .dtt2 => some ("dtt2", [0])
  | .tof, .zerot => some ("zerot", [0])
  | .tof, .dtt1t => some ("dtt1t", [0])
  | .tof, .dtt2t => some ("dtt2t", [0])
  | .tof, .coeff i => some ("background_coefficients", [i])
  | .tof, .alpha j => if j < 2 then some ("profile_alphas", [j]) else none
  | .tof, .beta j => if j < 2 then some ("profile_betas", [j]) else none
  | .tof, .sigma j => if j < 3 then some ("profile_sigmas", [j]) else none
  | .tof, .gamma j => if j < 3 then some ("profile_gammas", [j]) else none
  | _, .bkg i => some ("background_intensity", i)
  | .tof, _ => none
  | _, .g1 i => some ("texture_g1", [i])
  | _, .g2 i => some ("texture_g2", [i])
  | _, .axis j i => if j < 3 then some ("texture_axis", [j, i]) else none
  | _, .res j => if j < 5 then some ("resolution_parameters", [j]) else none
  | _, .asym j => if j < 4 then some ("asymmetry_parameters", [j]) else none
  | _, .wavelength => some ("wavelength", [0])
  | .pd, .offsetTtheta => some ("offset_ttheta", [0])
  | .pd2d, .offsetGamma => some ("offset_gamma", [0])
  | .pd2d, .offsetNu => some ("offset_nu", [0])
  | .pd2d, .phi => some ("resolution_phi_parameter", [0])
  | _, _ => none

/-- `take_parameters_from_dictionary`, values -/
noncomputable def take (kind : Kind) (d : Dict) (o : Exp) : Exp :=
  { o with val := fun a =>
      match source kind a with
      | none => o.val a
      | some p => match d p.1 p.2 with
        | none => o.val a
        | some v => some (stored kind a v) }

/-- Which attribute an error of the list is written to: cl_2_pd.py:259-312, cl_2_pd2d.py:1162-1215, cl_2_tof.py:287-322, cl_2_diffrn.py:322-336.  In
cl_2_tof.py:309-322 the index, a tuple, is compared with a number; in cl_2_tof.py:297-300 and cl_2_pd2d.py:1203-1206 the name is misspelled (`g1_sigma`). -/
def sigmaTarget (kind : Kind) (key : String) (idx : List ℕ) : Option Attr :=
  match kind, key, idx with
  | _, "beam_polarization", _ => some .polarization
  | _, "flipper_efficiency", _ => some .efficiency
  | .diffrn, "wavelength", _ => some .wavelength
  | .diffrn, "extinction_mosaicity", _ => some .mosaicity
  | .diffrn, "extinction_radius", _ => some .radius
  | .diffrn, "phase_scale", _ => some (.scale 0)
  | .diffrn, _, _ => none
  | _, "phase_scale", [i] => some (.scale i)
  | _, "phase_ig", [i] => some (.igsize i)
  | _, "texture_axis", [j, i] => if j < 3 then some (.axis j i) else none
  | .tof, _, _ => none
  | _, "background_intensity", idx => some (.bkg idx)
  | .pd, "texture_g1", [i] => some (.g1 i)
  | .pd, "texture_g2", [i] => some (.g2 i)
  | _, "wavelength", _ => some .wavelength
  | .pd, "offset_ttheta", _ => some .offsetTtheta
  | .pd2d, "offset_gamma", _ => some .offsetGamma
  | .pd2d, "offset_nu", _ => some .offsetNu
  | _, "asymmetry_parameters", [j] => if j < 4 then some (.asym j) else none
  | _, "resolution_parameters", [j] => if j < 5 then some (.res j) else none
  | .pd2d, "resolution_phi_parameter", _ => some .phi
  | _, _, _ => none

/-- Errors of offsets are converted to degrees. -/
noncomputable def sigmaValue (a : Attr) (s : ℝ) : ℝ :=
  match a with
  | .offsetTtheta | .offsetGamma | .offsetNu => s * 180 / π
  | _ => s

/-- One error of the list -/
noncomputable def sigmaStep (kind : Kind) (s : Attr → ℝ) (p : (String × List ℕ) × ℝ) : Attr → ℝ :=
  match sigmaTarget kind p.1.1 p.1.2 with
  | none => s
  | some a => Function.update s a (sigmaValue a p.2)

/-- `take_parameters_from_dictionary`, errors: the loop over `zip(l_parameter_name, l_sigma)` -/
noncomputable def takeSigmas (kind : Kind) (l : List ((String × List ℕ) × ℝ)) (o : Exp) : Exp :=
  { o with sig := l.foldl (sigmaStep kind) o.sig }

/-- Items an experiment of a kind can have (`CLASSES_MANDATORY`, `CLASSES_OPTIONAL`: cl_2_pd.py:75-79, cl_2_pd2d.py:89-93, cl_2_tof.py:66-69,
cl_2_diffrn.py:75-78; a loop of textures can be added to a time-of-flight experiment by `add_items`). -/
def Has (kind : Kind) (a : Attr) : Prop :=
  match kind, a with
  | _, .polarization | _, .efficiency | _, .wavelength | _, .offsetTtheta | _, .offsetGamma | _, .offsetNu | _, .ratioLambda2 => True
  | .diffrn, .scale 0 | .diffrn, .igsize 0 => True
  | .diffrn, .phaseRes j 0 => j < 5
  | .diffrn, .mosaicity | .diffrn, .radius => True
  | .diffrn, _ => False
  | _, .scale _ | _, .igsize _ | _, .g1 _ | _, .g2 _ | _, .bkg _ => True
  | _, .axis j _ => j < 3
  | _, .phaseRes j _ => j < 5
  | .tof, .zero | .tof, .dtt1 | .tof, .dtt2 | .tof, .zerot | .tof, .dtt1t | .tof, .dtt2t | .tof, .coeff _ => True
  | .tof, .alpha j | .tof, .beta j => j < 2
  | .tof, .sigma j | .tof, .gamma j => j < 3
  | .tof, _ => False
  | _, .mosaicity | _, .radius => True
  | _, .res j => j < 5
  | _, .asym j => j < 4
  | .pd2d, .phi => True
  | _, _ => False

end Cryspy.Take
