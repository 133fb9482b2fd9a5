import Verif.Rot.Spec

/-!
# Model of A_functions_base/function_1_matrices.py: products, inverse, Euler angles, rotations

A tuple of nine numbers is `Fin 9 → ℝ` (row by row), of three numbers `Fin 3 → ℝ`.  The functions work element by element on arrays; one
element is modelled.  Real arithmetic; `numpy.arctan2 y x` is the argument of the complex number `x + i y`; NaN is `none`.
-/

namespace Cryspy.Rot

open Real Matrix

/-- `numpy.arctan2(y, x)` -/
noncomputable def arctan2 (y x : ℝ) : ℝ := Complex.arg ⟨x, y⟩

/-- `calc_product_matrices` of two matrices, function_1_matrices.py:416-434 -/
def prod2 (a b : Fin 9 → ℝ) : Fin 9 → ℝ :=
  ![a 0 * b 0 + a 1 * b 3 + a 2 * b 6, a 0 * b 1 + a 1 * b 4 + a 2 * b 7, a 0 * b 2 + a 1 * b 5 + a 2 * b 8,
    a 3 * b 0 + a 4 * b 3 + a 5 * b 6, a 3 * b 1 + a 4 * b 4 + a 5 * b 7, a 3 * b 2 + a 4 * b 5 + a 5 * b 8,
    a 6 * b 0 + a 7 * b 3 + a 8 * b 6, a 6 * b 1 + a 7 * b 4 + a 8 * b 7, a 6 * b 2 + a 7 * b 5 + a 8 * b 8]

/-- `calc_product_matrices(m_1, m_2, *argv)`, function_1_matrices.py:414-440: the first two are multiplied, then the rest -/
def prodAll (a b : Fin 9 → ℝ) : List (Fin 9 → ℝ) → (Fin 9 → ℝ)
  | [] => prod2 a b
  | c :: cs => prodAll (prod2 a b) c cs

/-- `calc_product_matrix_vector`, function_1_matrices.py:443-450 -/
def mv (m : Fin 9 → ℝ) (v : Fin 3 → ℝ) : Fin 3 → ℝ :=
  ![m 0 * v 0 + m 1 * v 1 + m 2 * v 2, m 3 * v 0 + m 4 * v 1 + m 5 * v 2, m 6 * v 0 + m 7 * v 1 + m 8 * v 2]

/-- `calc_mRmCmRT`, function_1_matrices.py:199-215 -/
def rcrt (r c : Fin 9 → ℝ) : Fin 9 → ℝ :=
  let rt : Fin 9 → ℝ := ![r 0, r 3, r 6, r 1, r 4, r 7, r 2, r 5, r 8]
  prodAll r c [rt]

/-- `calc_vector_product`, function_1_matrices.py:471-478 -/
def vprod (v w : Fin 3 → ℝ) : Fin 3 → ℝ := ![v 1 * w 2 - v 2 * w 1, v 2 * w 0 - v 0 * w 2, v 0 * w 1 - v 1 * w 0]

/-- `calc_determinant_matrix_ij`, function_1_matrices.py:280-298 -/
def det9 (m : Fin 9 → ℝ) : ℝ :=
  m 0 * m 4 * m 8 - m 0 * m 5 * m 7 - m 1 * m 3 * m 8 + m 1 * m 5 * m 6 + m 2 * m 3 * m 7 - m 2 * m 4 * m 6

/-- `calc_inverse_matrix_ij`, function_1_matrices.py:301-345 -/
noncomputable def inv9 (m : Fin 9 → ℝ) : Fin 9 → ℝ :=
  let eps : ℝ := 1 / 10 ^ 12
  let det := det9 m
  let inv_det := if det < eps then 0 else 1 / det
  let m_i_11 := (m 4 * m 8 - m 5 * m 7) * inv_det
  let m_i_21 := -(m 3 * m 8 - m 5 * m 6) * inv_det
  let m_i_31 := (m 3 * m 7 - m 4 * m 6) * inv_det
  let m_i_12 := -(m 1 * m 8 - m 2 * m 7) * inv_det
  let m_i_22 := (m 0 * m 8 - m 2 * m 6) * inv_det
  let m_i_32 := -(m 0 * m 7 - m 1 * m 6) * inv_det
  let m_i_13 := (m 1 * m 5 - m 2 * m 4) * inv_det
  let m_i_23 := -(m 0 * m 5 - m 2 * m 3) * inv_det
  let m_i_33 := (m 0 * m 4 - m 1 * m 3) * inv_det
  ![m_i_11, m_i_12, m_i_13, m_i_21, m_i_22, m_i_23, m_i_31, m_i_32, m_i_33]

/-- `calc_rotation_matrix_ij_by_euler_angles(alpha, beta, gamma)`, function_1_matrices.py:218-242 -/
noncomputable def eulerToMatrix (psi theta phi : ℝ) : Fin 9 → ℝ :=
  let rm_11 := cos theta * cos phi
  let rm_21 := cos theta * sin phi
  let rm_31 := -sin theta
  let rm_12 := sin psi * sin theta * cos phi - cos psi * sin phi
  let rm_22 := sin psi * sin theta * sin phi + cos psi * cos phi
  let rm_32 := sin psi * cos theta
  let rm_13 := cos psi * sin theta * cos phi + sin psi * sin phi
  let rm_23 := cos psi * sin theta * sin phi - sin psi * cos phi
  let rm_33 := cos psi * cos theta
  ![rm_11, rm_12, rm_13, rm_21, rm_22, rm_23, rm_31, rm_32, rm_33]

/-- `calc_euler_angles_by_rotation_matrix_ij`, function_1_matrices.py:245-277: the triples `(psi, theta, phi)` found; the code gives a list of
two triples, and the one triple itself (not in a list) when `|rm_31| = 1` -/
noncomputable def matrixToEuler (r : Fin 9 → ℝ) : List (ℝ × ℝ × ℝ) :=
  if |r 6| ≠ 1 then
    let theta1 := -1 * arcsin (r 6)
    let theta2 := π - theta1
    let psi1 := arctan2 (r 7 / cos theta1) (r 8 / cos theta1)
    let psi2 := arctan2 (r 7 / cos theta2) (r 8 / cos theta2)
    let phi1 := arctan2 (r 3 / cos theta1) (r 0 / cos theta1)
    let phi2 := arctan2 (r 3 / cos theta2) (r 0 / cos theta2)
    [(psi1, theta1, phi1), (psi2, theta2, phi2)]
  else
    let phi : ℝ := 0
    if r 6 = -1 then
      let theta := π / 2
      let psi := phi + arctan2 (r 1) (r 2)
      [(psi, theta, phi)]
    else
      let theta := -1 * π / 2
      let psi := -1 * phi + arctan2 (-1 * r 1) (-1 * r 2)
      [(psi, theta, phi)]

/-- `calc_rotation_matrix_ij_around_axis`, function_1_matrices.py:348-411; `axis` is the text after `.lower()` -/
noncomputable def rotAxis (angle : ℝ) (axis : String) : Fin 9 → ℝ :=
  if axis = "y" then ![cos angle, 0, sin angle, 0, 1, 0, -sin angle, 0, cos angle]
  else if axis = "z" then ![cos angle, sin angle, 0, -sin angle, cos angle, 0, 0, 0, 1]
  else ![1, 0, 0, 0, cos angle, sin angle, 0, -sin angle, cos angle]

/-- `calc_vector_angle`, function_1_matrices.py:453-468; `none` is NaN (`0/0`) -/
noncomputable def vecAngle (v w : Fin 3 → ℝ) : Option ℝ :=
  let eps : ℝ := 1 / 10 ^ 12
  let p := v 0 * w 0 + v 1 * w 1 + v 2 * w 2
  let n1 := √(v 0 ^ 2 + v 1 ^ 2 + v 2 ^ 2)
  let n2 := √(w 0 ^ 2 + w 1 ^ 2 + w 2 ^ 2)
  if n1 > eps ∨ n2 > eps then
    if n1 * n2 = 0 then none else some (arccos (p / (n1 * n2)))
  else some (arccos 0.99999)

/-- `calc_rotation_matrix_by_two_vectors`, function_1_matrices.py:488-505 (the arguments `ax_1`, `ax_2` are not used by the code) -/
noncomputable def twoVectors (v w : Fin 3 → ℝ) : Fin 9 → ℝ :=
  let n1 := √(v 0 ^ 2 + v 1 ^ 2 + v 2 ^ 2)
  let n2 := √(w 0 ^ 2 + w 1 ^ 2 + w 2 ^ 2)
  let e_x : Fin 3 → ℝ := ![v 0 / n1, v 1 / n1, v 2 / n1]
  let e_12 : Fin 3 → ℝ := ![w 0 / n2, w 1 / n2, w 2 / n2]
  let v_z := vprod e_x e_12
  let nz := √(v_z 0 ^ 2 + v_z 1 ^ 2 + v_z 2 ^ 2)
  let e_z : Fin 3 → ℝ := ![v_z 0 / nz, v_z 1 / nz, v_z 2 / nz]
  let e_y := vprod e_z e_x
  ![e_x 0, e_y 0, e_z 0, e_x 1, e_y 1, e_z 1, e_x 2, e_y 2, e_z 2]

end Cryspy.Rot
