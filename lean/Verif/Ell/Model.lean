import Verif.Gen.UnitCell
import Verif.Gen.MatrixOps
import Verif.Mat.Spec
import Mathlib.Analysis.Real.Sqrt

/-!
# Magnetization ellipsoids

Model of A_functions_base/local_susceptibility.py:24-115 (`calc_magnetization_ellipsoid_as_u`,
`calc_magnetization_ellipsoid_axes`, `calc_ellipsoid_factor`) and of
`Crystal.calc_main_axes_of_magnetization_ellipsoids` (E_data_classes/cl_1_crystal.py:399-423).
The numbers are reals.
-/

namespace Cryspy.Ell

open Mat Cell

/-- `calc_magnetization_ellipsoid_as_u`, local_susceptibility.py:24-37. -/
noncomputable def ellipsoidU (chi : Fin 6 → ℝ) (uc : Fin 6 → ℝ) : Fin 6 → ℝ :=
  let m_inv_g_norm := calc_m_reciprocal_g_norm uc
  let inv_b_norm := calc_m_inv_b_norm uc
  let hh_1 := calc_m_q_inv_m inv_b_norm chi
  calc_mt_q_m hh_1 m_inv_g_norm

/-- What `numpy.linalg.eigh` may return for a symmetric matrix: eigenvalues in ascending order and, as
columns, orthonormal eigenvectors.  Which eigenvectors of a multiple eigenvalue are returned is left open. -/
structure Eigh (q : Matrix (Fin 3) (Fin 3) ℝ) where
  val : Fin 3 → ℝ
  vec : Fin 3 → Fin 3 → ℝ
  ortho : ∀ i j, vec i ⬝ᵥ vec j = if i = j then 1 else 0
  eig : ∀ i, q.mulVec (vec i) = val i • vec i
  mono : ∀ i j, i ≤ j → val i ≤ val j

/-- `np_q_ccs`, local_susceptibility.py:79-83. -/
noncomputable def qCcs (chi : Fin 6 → ℝ) : Matrix (Fin 3) (Fin 3) ℝ :=
  let q_ij := calc_q_sq chi
  !![q_ij 0, q_ij 3, q_ij 4; q_ij 3, q_ij 1, q_ij 5; q_ij 4, q_ij 5, q_ij 2]

/-- `np_chi_ccs`, local_susceptibility.py:88-91. -/
def chiCcs (chi : Fin 6 → ℝ) : Matrix (Fin 3) (Fin 3) ℝ :=
  !![chi 0, chi 3, chi 4; chi 3, chi 1, chi 5; chi 4, chi 5, chi 2]

/-- `eig_moments`, column `i`, local_susceptibility.py:92. -/
noncomputable def eigMoment (chi : Fin 6 → ℝ) (e : Eigh (qCcs chi)) (i : Fin 3) : Fin 3 → ℝ := (chiCcs chi).mulVec (e.vec i)

/-- `moments`, local_susceptibility.py:87, 94-95. -/
noncomputable def moment (chi : Fin 6 → ℝ) (e : Eigh (qCcs chi)) (i : Fin 3) : ℝ :=
  Real.sqrt (e.val i) * (2 * (if 0 ≤ e.vec i ⬝ᵥ eigMoment chi e i then 1 else 0) - 1)

/-- `numpy.sort` of three numbers, in ascending order. -/
noncomputable def sort3 (v : Fin 3 → ℝ) : List ℝ := [v 0, v 1, v 2].mergeSort fun a b => decide (a ≤ b)

/-- `calc_ellipsoid_factor`, local_susceptibility.py:99-115, as a function of the moments. -/
noncomputable def ellipsoidFactor (v : Fin 3 → ℝ) : ℝ :=
  let s := sort3 v
  if s.getD 2 0 = 0 then 0
  else if s.getD 1 0 = 0 then 1 - s.getD 1 0 / s.getD 2 0
  else s.getD 0 0 / s.getD 1 0 - s.getD 1 0 / s.getD 2 0

/-- Assignment of a tuple to three names: Python raises unless there are three values. -/
def unpack3 {α : Type} : List α → Except String (α × α × α)
  | [a, b, c] => .ok (a, b, c)
  | _ => .error "ValueError"

/-- `Crystal.calc_main_axes_of_magnetization_ellipsoids`, cl_1_crystal.py:415-423: what
`AtomSiteSusceptibilityL.calc_main_axes_of_magnetization_ellipsoid` returns (the lists of moments, errors, fields and
moments of the fields, cl_1_atom_site_susceptibility.py:334-342) is assigned to three names. -/
def crystalMainAxes {α : Type} (l_moments l_moments_sigma l_eig_fields l_eig_moments : α) :
    Except String (α × α × α) :=
  unpack3 [l_moments, l_moments_sigma, l_eig_fields, l_eig_moments]

end Cryspy.Ell
