import Mathlib.Data.Fin.VecNotation
import Mathlib.Analysis.Real.Sqrt

/-!
# Model of A_functions_base/matrix_operations.py

Generated from the source by tools/gen_matrix.py (see tools/py2lean.py for the translation); one definition per output.
Components of vectors (3), quadratic forms (6: 11 22 33 12 13 23) and matrices (9: row by row) are kept, trailing axes over
points are dropped.  Numbers are elements of a field (so real and complex arguments), not floats.
-/

set_option linter.unusedVariables false

namespace Cryspy.Mat

/-- `transpose_m`, A_functions_base/matrix_operations.py:18-34. -/
def transpose_m {K : Type} [Field K] (m : Fin 9 → K) : Fin 9 → K :=
  let res : Fin 9 → K := ![m 0, m 3, m 6, m 1, m 4, m 7, m 2, m 5, m 8]
  res

/-- `calc_vv_as_v1_v2_v1`, A_functions_base/matrix_operations.py:68-112. -/
def calc_vv_as_v1_v2_v1 {K : Type} [Field K] (v1 : Fin 3 → K) : Fin 3 → Fin 3 → K :=
  let v1_1_sq : K := v1 0 ^ 2
  let v1_2_sq : K := v1 1 ^ 2
  let v1_3_sq : K := v1 2 ^ 2
  let vv : Fin 3 → Fin 3 → K := ![![v1_3_sq + v1_2_sq, -v1 0 * v1 1, -v1 0 * v1 2],
   ![-v1 1 * v1 0, v1_1_sq + v1_3_sq, -v1 1 * v1 2],
   ![-v1 2 * v1 0, -v1 2 * v1 1, v1_2_sq + v1_1_sq]]
  vv

/-- `calc_vv_as_v1_v2_v1`, output `v1`, A_functions_base/matrix_operations.py:68-112. -/
def d_calc_vv_as_v1_v2_v1 {K : Type} [Field K] (v1 : Fin 3 → K) : Fin 3 → Fin 3 → Fin 3 → K :=
  let dd_11_123 : Fin 3 → K := ![0, 2 * v1 1, 2 * v1 2]
  let dd_12_123 : Fin 3 → K := ![-v1 1, -v1 0, 0]
  let dd_13_123 : Fin 3 → K := ![-v1 2, 0, -v1 0]
  let dd_21_123 : Fin 3 → K := ![-v1 1, -v1 0, 0]
  let dd_22_123 : Fin 3 → K := ![2 * v1 0, 0, 2 * v1 2]
  let dd_23_123 : Fin 3 → K := ![0, -v1 2, -v1 1]
  let dd_31_123 : Fin 3 → K := ![-v1 2, 0, -v1 0]
  let dd_32_123 : Fin 3 → K := ![0, -v1 2, -v1 1]
  let dd_33_123 : Fin 3 → K := ![2 * v1 0, 2 * v1 1, 0]
  ![![![dd_11_123 0, dd_11_123 1, dd_11_123 2],
     ![dd_12_123 0, dd_12_123 1, dd_12_123 2],
     ![dd_13_123 0, dd_13_123 1, dd_13_123 2]],
   ![![dd_21_123 0, dd_21_123 1, dd_21_123 2],
     ![dd_22_123 0, dd_22_123 1, dd_22_123 2],
     ![dd_23_123 0, dd_23_123 1, dd_23_123 2]],
   ![![dd_31_123 0, dd_31_123 1, dd_31_123 2],
     ![dd_32_123 0, dd_32_123 1, dd_32_123 2],
     ![dd_33_123 0, dd_33_123 1, dd_33_123 2]]]

/-- `calc_vector_product_v1_v2_v1`, A_functions_base/matrix_operations.py:115-139. -/
def calc_vector_product_v1_v2_v1 {K : Type} [Field K] (v1 : Fin 3 → K) (v2 : Fin 3 → K) : Fin 3 → K :=
  let vv : Fin 3 → Fin 3 → K := calc_vv_as_v1_v2_v1 v1
  let res : Fin 3 → K := ![vv 0 0 * v2 0 + vv 0 1 * v2 1 + vv 0 2 * v2 2,
   vv 1 0 * v2 0 + vv 1 1 * v2 1 + vv 1 2 * v2 2,
   vv 2 0 * v2 0 + vv 2 1 * v2 1 + vv 2 2 * v2 2]
  res

/-- `calc_vector_product_v1_v2`, A_functions_base/matrix_operations.py:142-163. -/
def calc_vector_product_v1_v2 {K : Type} [Field K] (v1 : Fin 3 → K) (v2 : Fin 3 → K) : Fin 3 → K :=
  let o_1 : K := v1 1 * v2 2 - v1 2 * v2 1
  let o_2 : K := v1 2 * v2 0 - v1 0 * v2 2
  let o_3 : K := v1 0 * v2 1 - v1 1 * v2 0
  let res : Fin 3 → K := ![o_1, o_2, o_3]
  res

/-- `calc_m_q_mt`, A_functions_base/matrix_operations.py:166-193. -/
def calc_m_q_mt {K : Type} [Field K] (m_ij : Fin 9 → K) (q_ij : Fin 6 → K) : Fin 6 → K :=
  let o_11 : K := m_ij 0 * (m_ij 0 * q_ij 0 + m_ij 1 * q_ij 3 + m_ij 2 * q_ij 4) + m_ij 1 * (m_ij 0 * q_ij 3 + m_ij 1 * q_ij 1 + m_ij 2 * q_ij 5) + m_ij 2 * (m_ij 0 * q_ij 4 + m_ij 1 * q_ij 5 + m_ij 2 * q_ij 2)
  let o_22 : K := m_ij 3 * (m_ij 3 * q_ij 0 + m_ij 4 * q_ij 3 + m_ij 5 * q_ij 4) + m_ij 4 * (m_ij 3 * q_ij 3 + m_ij 4 * q_ij 1 + m_ij 5 * q_ij 5) + m_ij 5 * (m_ij 3 * q_ij 4 + m_ij 4 * q_ij 5 + m_ij 5 * q_ij 2)
  let o_33 : K := m_ij 6 * (m_ij 6 * q_ij 0 + m_ij 7 * q_ij 3 + m_ij 8 * q_ij 4) + m_ij 7 * (m_ij 6 * q_ij 3 + m_ij 7 * q_ij 1 + m_ij 8 * q_ij 5) + m_ij 8 * (m_ij 6 * q_ij 4 + m_ij 7 * q_ij 5 + m_ij 8 * q_ij 2)
  let o_12 : K := m_ij 3 * (m_ij 0 * q_ij 0 + m_ij 1 * q_ij 3 + m_ij 2 * q_ij 4) + m_ij 4 * (m_ij 0 * q_ij 3 + m_ij 1 * q_ij 1 + m_ij 2 * q_ij 5) + m_ij 5 * (m_ij 0 * q_ij 4 + m_ij 1 * q_ij 5 + m_ij 2 * q_ij 2)
  let o_13 : K := m_ij 6 * (m_ij 0 * q_ij 0 + m_ij 1 * q_ij 3 + m_ij 2 * q_ij 4) + m_ij 7 * (m_ij 0 * q_ij 3 + m_ij 1 * q_ij 1 + m_ij 2 * q_ij 5) + m_ij 8 * (m_ij 0 * q_ij 4 + m_ij 1 * q_ij 5 + m_ij 2 * q_ij 2)
  let o_23 : K := m_ij 6 * (m_ij 3 * q_ij 0 + m_ij 4 * q_ij 3 + m_ij 5 * q_ij 4) + m_ij 7 * (m_ij 3 * q_ij 3 + m_ij 4 * q_ij 1 + m_ij 5 * q_ij 5) + m_ij 8 * (m_ij 3 * q_ij 4 + m_ij 4 * q_ij 5 + m_ij 5 * q_ij 2)
  let o_ij : Fin 6 → K := ![o_11, o_22, o_33, o_12, o_13, o_23]
  o_ij

/-- `calc_mt_q_m`, A_functions_base/matrix_operations.py:196-250. -/
def calc_mt_q_m {K : Type} [Field K] (m : Fin 9 → K) (q : Fin 6 → K) : Fin 6 → K :=
  let qo_11 : K := m 0 * (m 0 * q 0 + m 3 * q 3 + m 6 * q 4) + m 3 * (m 0 * q 3 + m 3 * q 1 + m 6 * q 5) + m 6 * (m 0 * q 4 + m 3 * q 5 + m 6 * q 2)
  let qo_22 : K := m 1 * (m 1 * q 0 + m 4 * q 3 + m 7 * q 4) + m 4 * (m 1 * q 3 + m 4 * q 1 + m 7 * q 5) + m 7 * (m 1 * q 4 + m 4 * q 5 + m 7 * q 2)
  let qo_33 : K := m 2 * (m 2 * q 0 + m 5 * q 3 + m 8 * q 4) + m 5 * (m 2 * q 3 + m 5 * q 1 + m 8 * q 5) + m 8 * (m 2 * q 4 + m 5 * q 5 + m 8 * q 2)
  let qo_12 : K := m 1 * (m 0 * q 0 + m 3 * q 3 + m 6 * q 4) + m 4 * (m 0 * q 3 + m 3 * q 1 + m 6 * q 5) + m 7 * (m 0 * q 4 + m 3 * q 5 + m 6 * q 2)
  let qo_13 : K := m 2 * (m 0 * q 0 + m 3 * q 3 + m 6 * q 4) + m 5 * (m 0 * q 3 + m 3 * q 1 + m 6 * q 5) + m 8 * (m 0 * q 4 + m 3 * q 5 + m 6 * q 2)
  let qo_23 : K := m 2 * (m 1 * q 0 + m 4 * q 3 + m 7 * q 4) + m 5 * (m 1 * q 3 + m 4 * q 1 + m 7 * q 5) + m 8 * (m 1 * q 4 + m 4 * q 5 + m 7 * q 2)
  let qo : Fin 6 → K := ![qo_11, qo_22, qo_33, qo_12, qo_13, qo_23]
  qo

/-- `calc_mt_q_m`, output `m`, A_functions_base/matrix_operations.py:196-250. -/
def d_calc_mt_q_m_m {K : Type} [Field K] (m : Fin 9 → K) (q : Fin 6 → K) : Fin 6 → Fin 9 → K :=
  let hh : Fin 6 → Fin 9 → K := ![![2 * (m 0 * q 0 + m 3 * q 3 + m 6 * q 4),
     0,
     0,
     2 * (m 0 * q 3 + m 3 * q 1 + m 6 * q 5),
     0,
     0,
     2 * (m 0 * q 4 + m 3 * q 5 + m 6 * q 2),
     0,
     0],
   ![0,
     2 * (m 1 * q 0 + m 4 * q 3 + m 7 * q 4),
     0,
     0,
     2 * (m 1 * q 3 + m 4 * q 1 + m 7 * q 5),
     0,
     0,
     2 * (m 1 * q 4 + m 4 * q 5 + m 7 * q 2),
     0],
   ![0,
     0,
     2 * (m 2 * q 0 + m 5 * q 3 + m 8 * q 4),
     0,
     0,
     2 * (m 2 * q 3 + m 5 * q 1 + m 8 * q 5),
     0,
     0,
     2 * (m 2 * q 4 + m 5 * q 5 + m 8 * q 2)],
   ![m 1 * q 0 + m 4 * q 3 + m 7 * q 4,
     m 0 * q 0 + m 3 * q 3 + m 6 * q 4,
     0,
     m 1 * q 3 + m 4 * q 1 + m 7 * q 5,
     m 0 * q 3 + m 3 * q 1 + m 6 * q 5,
     0,
     m 1 * q 4 + m 4 * q 5 + m 7 * q 2,
     m 0 * q 4 + m 3 * q 5 + m 6 * q 2,
     0],
   ![m 2 * q 0 + m 5 * q 3 + m 8 * q 4,
     0,
     m 0 * q 0 + m 3 * q 3 + m 6 * q 4,
     m 2 * q 3 + m 5 * q 1 + m 8 * q 5,
     0,
     m 0 * q 3 + m 3 * q 1 + m 6 * q 5,
     m 2 * q 4 + m 5 * q 5 + m 8 * q 2,
     0,
     m 0 * q 4 + m 3 * q 5 + m 6 * q 2],
   ![0,
     m 2 * q 0 + m 5 * q 3 + m 8 * q 4,
     m 1 * q 0 + m 4 * q 3 + m 7 * q 4,
     0,
     m 2 * q 3 + m 5 * q 1 + m 8 * q 5,
     m 1 * q 3 + m 4 * q 1 + m 7 * q 5,
     0,
     m 2 * q 4 + m 5 * q 5 + m 8 * q 2,
     m 1 * q 4 + m 4 * q 5 + m 7 * q 2]]
  hh

/-- `calc_mt_q_m`, output `q`, A_functions_base/matrix_operations.py:196-250. -/
def d_calc_mt_q_m_q {K : Type} [Field K] (m : Fin 9 → K) (q : Fin 6 → K) : Fin 6 → Fin 6 → K :=
  let hh₁ : Fin 6 → Fin 6 → K := ![![m 0 * m 0 * 1,
     m 3 * m 3 * 1,
     m 6 * m 6 * 1,
     (m 0 * m 3 + m 3 * m 0) * 1,
     (m 0 * m 6 + m 6 * m 0) * 1,
     (m 3 * m 6 + m 6 * m 3) * 1],
   ![m 1 * m 1 * 1,
     m 4 * m 4 * 1,
     m 7 * m 7 * 1,
     (m 1 * m 4 + m 4 * m 1) * 1,
     (m 1 * m 7 + m 7 * m 1) * 1,
     (m 4 * m 7 + m 7 * m 4) * 1],
   ![m 2 * m 2 * 1,
     m 5 * m 5 * 1,
     m 8 * m 8 * 1,
     (m 2 * m 5 + m 5 * m 2) * 1,
     (m 2 * m 8 + m 8 * m 2) * 1,
     (m 5 * m 8 + m 8 * m 5) * 1],
   ![m 1 * m 0 * 1,
     m 4 * m 3 * 1,
     m 7 * m 6 * 1,
     (m 1 * m 3 + m 4 * m 0) * 1,
     (m 1 * m 6 + m 7 * m 0) * 1,
     (m 4 * m 6 + m 7 * m 3) * 1],
   ![m 2 * m 0 * 1,
     m 5 * m 3 * 1,
     m 8 * m 6 * 1,
     (m 2 * m 3 + m 5 * m 0) * 1,
     (m 2 * m 6 + m 8 * m 0) * 1,
     (m 5 * m 6 + m 8 * m 3) * 1],
   ![m 2 * m 1 * 1,
     m 5 * m 4 * 1,
     m 8 * m 7 * 1,
     (m 2 * m 4 + m 5 * m 1) * 1,
     (m 2 * m 7 + m 8 * m 1) * 1,
     (m 5 * m 7 + m 8 * m 4) * 1]]
  hh₁

/-- `calc_m1_m2`, A_functions_base/matrix_operations.py:253-282. -/
def calc_m1_m2 {K : Type} [Field K] (m1_ij : Fin 9 → K) (m2_ij : Fin 9 → K) : Fin 9 → K :=
  let o_11 : K := m1_ij 0 * m2_ij 0 + m1_ij 1 * m2_ij 3 + m1_ij 2 * m2_ij 6
  let o_12 : K := m1_ij 0 * m2_ij 1 + m1_ij 1 * m2_ij 4 + m1_ij 2 * m2_ij 7
  let o_13 : K := m1_ij 0 * m2_ij 2 + m1_ij 1 * m2_ij 5 + m1_ij 2 * m2_ij 8
  let o_21 : K := m1_ij 3 * m2_ij 0 + m1_ij 4 * m2_ij 3 + m1_ij 5 * m2_ij 6
  let o_22 : K := m1_ij 3 * m2_ij 1 + m1_ij 4 * m2_ij 4 + m1_ij 5 * m2_ij 7
  let o_23 : K := m1_ij 3 * m2_ij 2 + m1_ij 4 * m2_ij 5 + m1_ij 5 * m2_ij 8
  let o_31 : K := m1_ij 6 * m2_ij 0 + m1_ij 7 * m2_ij 3 + m1_ij 8 * m2_ij 6
  let o_32 : K := m1_ij 6 * m2_ij 1 + m1_ij 7 * m2_ij 4 + m1_ij 8 * m2_ij 7
  let o_33 : K := m1_ij 6 * m2_ij 2 + m1_ij 7 * m2_ij 5 + m1_ij 8 * m2_ij 8
  let o_ij : Fin 9 → K := ![o_11, o_12, o_13, o_21, o_22, o_23, o_31, o_32, o_33]
  o_ij

/-- `calc_q1_q2_q1`, A_functions_base/matrix_operations.py:285-311. -/
def calc_q1_q2_q1 {K : Type} [Field K] (q1_ij : Fin 6 → K) (q2_ij : Fin 6 → K) : Fin 6 → K :=
  let o_11 : K := q1_ij 0 * (q1_ij 0 * q2_ij 0 + q1_ij 3 * q2_ij 3 + q1_ij 4 * q2_ij 4) + q1_ij 3 * (q1_ij 0 * q2_ij 3 + q1_ij 3 * q2_ij 1 + q1_ij 4 * q2_ij 5) + q1_ij 4 * (q1_ij 0 * q2_ij 4 + q1_ij 3 * q2_ij 5 + q1_ij 4 * q2_ij 2)
  let o_22 : K := q1_ij 3 * (q1_ij 3 * q2_ij 0 + q1_ij 1 * q2_ij 3 + q1_ij 5 * q2_ij 4) + q1_ij 1 * (q1_ij 3 * q2_ij 3 + q1_ij 1 * q2_ij 1 + q1_ij 5 * q2_ij 5) + q1_ij 5 * (q1_ij 3 * q2_ij 4 + q1_ij 1 * q2_ij 5 + q1_ij 5 * q2_ij 2)
  let o_33 : K := q1_ij 4 * (q1_ij 4 * q2_ij 0 + q1_ij 5 * q2_ij 3 + q1_ij 2 * q2_ij 4) + q1_ij 5 * (q1_ij 4 * q2_ij 3 + q1_ij 5 * q2_ij 1 + q1_ij 2 * q2_ij 5) + q1_ij 2 * (q1_ij 4 * q2_ij 4 + q1_ij 5 * q2_ij 5 + q1_ij 2 * q2_ij 2)
  let o_12 : K := q1_ij 3 * (q1_ij 0 * q2_ij 0 + q1_ij 3 * q2_ij 3 + q1_ij 4 * q2_ij 4) + q1_ij 1 * (q1_ij 0 * q2_ij 3 + q1_ij 3 * q2_ij 1 + q1_ij 4 * q2_ij 5) + q1_ij 5 * (q1_ij 0 * q2_ij 4 + q1_ij 3 * q2_ij 5 + q1_ij 4 * q2_ij 2)
  let o_13 : K := q1_ij 4 * (q1_ij 0 * q2_ij 0 + q1_ij 3 * q2_ij 3 + q1_ij 4 * q2_ij 4) + q1_ij 5 * (q1_ij 0 * q2_ij 3 + q1_ij 3 * q2_ij 1 + q1_ij 4 * q2_ij 5) + q1_ij 2 * (q1_ij 0 * q2_ij 4 + q1_ij 3 * q2_ij 5 + q1_ij 4 * q2_ij 2)
  let o_23 : K := q1_ij 4 * (q1_ij 3 * q2_ij 0 + q1_ij 1 * q2_ij 3 + q1_ij 5 * q2_ij 4) + q1_ij 5 * (q1_ij 3 * q2_ij 3 + q1_ij 1 * q2_ij 1 + q1_ij 5 * q2_ij 5) + q1_ij 2 * (q1_ij 3 * q2_ij 4 + q1_ij 1 * q2_ij 5 + q1_ij 5 * q2_ij 2)
  let o_ij : Fin 6 → K := ![o_11, o_22, o_33, o_12, o_13, o_23]
  o_ij

/-- `calc_det_m`, A_functions_base/matrix_operations.py:720-740. -/
def calc_det_m {K : Type} [Field K] (m : Fin 9 → K) : K :=
  let det : K := m 0 * m 4 * m 8 - m 0 * m 5 * m 7 - m 1 * m 3 * m 8 + m 1 * m 5 * m 6 + m 2 * m 3 * m 7 - m 2 * m 4 * m 6
  det

/-- `calc_det_m`, output `m`, A_functions_base/matrix_operations.py:720-740. -/
def d_calc_det_m {K : Type} [Field K] (m : Fin 9 → K) : Fin 9 → K :=
  let hh : Fin 9 → K := ![m 4 * m 8 - m 5 * m 7,
   -m 3 * m 8 + m 5 * m 6,
   m 3 * m 7 - m 4 * m 6,
   -m 1 * m 8 + m 2 * m 7,
   m 0 * m 8 - m 2 * m 6,
   -m 0 * m 7 + m 1 * m 6,
   m 1 * m 5 - m 2 * m 4,
   m 0 * m 5 + m 2 * m 3,
   m 0 * m 4 - m 1 * m 3]
  hh

/-- `calc_m_q_inv_m`, A_functions_base/matrix_operations.py:314-362. -/
def calc_m_q_inv_m {K : Type} [Field K] (m : Fin 9 → K) (q : Fin 6 → K) : Fin 9 → K :=
  let det : K := calc_det_m m
  let o_11 : K := ((m 3 * m 7 - m 4 * m 6) * (q 4 * m 0 + q 5 * m 1 + q 2 * m 2) - (m 3 * m 8 - m 5 * m 6) * (q 3 * m 0 + q 1 * m 1 + q 5 * m 2) + (m 4 * m 8 - m 5 * m 7) * (q 0 * m 0 + q 3 * m 1 + q 4 * m 2)) / det
  let o_12 : K := (-(m 0 * m 7 - m 1 * m 6) * (q 4 * m 0 + q 5 * m 1 + q 2 * m 2) + (m 0 * m 8 - m 2 * m 6) * (q 3 * m 0 + q 1 * m 1 + q 5 * m 2) - (m 1 * m 8 - m 2 * m 7) * (q 0 * m 0 + q 3 * m 1 + q 4 * m 2)) / det
  let o_13 : K := ((m 0 * m 4 - m 1 * m 3) * (q 4 * m 0 + q 5 * m 1 + q 2 * m 2) - (m 0 * m 5 - m 2 * m 3) * (q 3 * m 0 + q 1 * m 1 + q 5 * m 2) + (m 1 * m 5 - m 2 * m 4) * (q 0 * m 0 + q 3 * m 1 + q 4 * m 2)) / det
  let o_21 : K := ((m 3 * m 7 - m 4 * m 6) * (q 4 * m 3 + q 5 * m 4 + q 2 * m 5) - (m 3 * m 8 - m 5 * m 6) * (q 3 * m 3 + q 1 * m 4 + q 5 * m 5) + (m 4 * m 8 - m 5 * m 7) * (q 0 * m 3 + q 3 * m 4 + q 4 * m 5)) / det
  let o_22 : K := (-(m 0 * m 7 - m 1 * m 6) * (q 4 * m 3 + q 5 * m 4 + q 2 * m 5) + (m 0 * m 8 - m 2 * m 6) * (q 3 * m 3 + q 1 * m 4 + q 5 * m 5) - (m 1 * m 8 - m 2 * m 7) * (q 0 * m 3 + q 3 * m 4 + q 4 * m 5)) / det
  let o_23 : K := ((m 0 * m 4 - m 1 * m 3) * (q 4 * m 3 + q 5 * m 4 + q 2 * m 5) - (m 0 * m 5 - m 2 * m 3) * (q 3 * m 3 + q 1 * m 4 + q 5 * m 5) + (m 1 * m 5 - m 2 * m 4) * (q 0 * m 3 + q 3 * m 4 + q 4 * m 5)) / det
  let o_31 : K := ((m 3 * m 7 - m 4 * m 6) * (q 4 * m 6 + q 5 * m 7 + q 2 * m 8) - (m 3 * m 8 - m 5 * m 6) * (q 3 * m 6 + q 1 * m 7 + q 5 * m 8) + (m 4 * m 8 - m 5 * m 7) * (q 0 * m 6 + q 3 * m 7 + q 4 * m 8)) / det
  let o_32 : K := (-(m 0 * m 7 - m 1 * m 6) * (q 4 * m 6 + q 5 * m 7 + q 2 * m 8) + (m 0 * m 8 - m 2 * m 6) * (q 3 * m 6 + q 1 * m 7 + q 5 * m 8) - (m 1 * m 8 - m 2 * m 7) * (q 0 * m 6 + q 3 * m 7 + q 4 * m 8)) / det
  let o_33 : K := ((m 0 * m 4 - m 1 * m 3) * (q 4 * m 6 + q 5 * m 7 + q 2 * m 8) - (m 0 * m 5 - m 2 * m 3) * (q 3 * m 6 + q 1 * m 7 + q 5 * m 8) + (m 1 * m 5 - m 2 * m 4) * (q 0 * m 6 + q 3 * m 7 + q 4 * m 8)) / det
  let o_ij : Fin 9 → K := ![o_11, o_12, o_13, o_21, o_22, o_23, o_31, o_32, o_33]
  o_ij

/-- `calc_m_q_inv_m`, output `q`, A_functions_base/matrix_operations.py:314-362. -/
def d_calc_m_q_inv_m_q {K : Type} [Field K] (m : Fin 9 → K) (q : Fin 6 → K) : Fin 9 → Fin 6 → K :=
  let det : K := calc_det_m m
  let oq : K := 1 / det
  let dder_q : Fin 9 → Fin 6 → K := ![![(m 4 * m 8 - m 5 * m 7) * m 0 * oq,
     -(m 3 * m 8 - m 5 * m 6) * m 1 * oq,
     (m 3 * m 7 - m 4 * m 6) * m 2 * oq,
     -(m 3 * m 8 - m 5 * m 6) * m 0 * oq + (m 4 * m 8 - m 5 * m 7) * m 1 * oq,
     (m 3 * m 7 - m 4 * m 6) * m 0 * oq + (m 4 * m 8 - m 5 * m 7) * m 2 * oq,
     (m 3 * m 7 - m 4 * m 6) * m 1 - (m 3 * m 8 - m 5 * m 6) * m 2 * oq],
   ![-(m 1 * m 8 - m 2 * m 7) * m 0 * oq,
     (m 0 * m 8 - m 2 * m 6) * m 1 * oq,
     -(m 0 * m 7 - m 1 * m 6) * m 2 * oq,
     (m 0 * m 8 - m 2 * m 6) * m 0 * oq - (m 1 * m 8 - m 2 * m 7) * m 1 * oq,
     -(m 0 * m 7 - m 1 * m 6) * m 0 * oq - (m 1 * m 8 - m 2 * m 7) * m 2 * oq,
     -(m 0 * m 7 - m 1 * m 6) * m 1 + (m 0 * m 8 - m 2 * m 6) * m 2 * oq],
   ![(m 1 * m 5 - m 2 * m 4) * m 0 * oq,
     -(m 0 * m 5 - m 2 * m 3) * m 1 * oq,
     (m 0 * m 4 - m 1 * m 3) * m 2 * oq,
     -(m 0 * m 5 - m 2 * m 3) * m 0 * oq + (m 1 * m 5 - m 2 * m 4) * m 1 * oq,
     (m 0 * m 4 - m 1 * m 3) * m 0 * oq + (m 1 * m 5 - m 2 * m 4) * m 2 * oq,
     (m 0 * m 4 - m 1 * m 3) * m 1 - (m 0 * m 5 - m 2 * m 3) * m 2 * oq],
   ![(m 4 * m 8 - m 5 * m 7) * m 3 * oq,
     -(m 3 * m 8 - m 5 * m 6) * m 4 * oq,
     (m 3 * m 7 - m 4 * m 6) * m 5 * oq,
     -(m 3 * m 8 - m 5 * m 6) * m 3 * oq + (m 4 * m 8 - m 5 * m 7) * m 4 * oq,
     (m 3 * m 7 - m 4 * m 6) * m 3 * oq + (m 4 * m 8 - m 5 * m 7) * m 5 * oq,
     (m 3 * m 7 - m 4 * m 6) * m 4 - (m 3 * m 8 - m 5 * m 6) * m 5 * oq],
   ![-(m 1 * m 8 - m 2 * m 7) * m 3 * oq,
     (m 0 * m 8 - m 2 * m 6) * m 4 * oq,
     -(m 0 * m 7 - m 1 * m 6) * m 5 * oq,
     (m 0 * m 8 - m 2 * m 6) * m 3 * oq - (m 1 * m 8 - m 2 * m 7) * m 4 * oq,
     -(m 0 * m 7 - m 1 * m 6) * m 3 * oq - (m 1 * m 8 - m 2 * m 7) * m 5 * oq,
     -(m 0 * m 7 - m 1 * m 6) * m 4 + (m 0 * m 8 - m 2 * m 6) * m 5 * oq],
   ![(m 1 * m 5 - m 2 * m 4) * m 3 * oq,
     -(m 0 * m 5 - m 2 * m 3) * m 4 * oq,
     (m 0 * m 4 - m 1 * m 3) * m 5 * oq,
     -(m 0 * m 5 - m 2 * m 3) * m 3 * oq + (m 1 * m 5 - m 2 * m 4) * m 4 * oq,
     (m 0 * m 4 - m 1 * m 3) * m 3 * oq + (m 1 * m 5 - m 2 * m 4) * m 5 * oq,
     (m 0 * m 4 - m 1 * m 3) * m 4 - (m 0 * m 5 - m 2 * m 3) * m 5 * oq],
   ![(m 4 * m 8 - m 5 * m 7) * m 6 * oq,
     -(m 3 * m 8 - m 5 * m 6) * m 7 * oq,
     (m 3 * m 7 - m 4 * m 6) * m 8 * oq,
     -(m 3 * m 8 - m 5 * m 6) * m 6 * oq + (m 4 * m 8 - m 5 * m 7) * m 7 * oq,
     (m 3 * m 7 - m 4 * m 6) * m 6 * oq + (m 4 * m 8 - m 5 * m 7) * m 8 * oq,
     (m 3 * m 7 - m 4 * m 6) * m 7 - (m 3 * m 8 - m 5 * m 6) * m 8 * oq],
   ![-(m 1 * m 8 - m 2 * m 7) * m 6 * oq,
     (m 0 * m 8 - m 2 * m 6) * m 7 * oq,
     -(m 0 * m 7 - m 1 * m 6) * m 8 * oq,
     (m 0 * m 8 - m 2 * m 6) * m 6 * oq - (m 1 * m 8 - m 2 * m 7) * m 7 * oq,
     -(m 0 * m 7 - m 1 * m 6) * m 6 * oq - (m 1 * m 8 - m 2 * m 7) * m 8 * oq,
     -(m 0 * m 7 - m 1 * m 6) * m 7 + (m 0 * m 8 - m 2 * m 6) * m 8 * oq],
   ![(m 1 * m 5 - m 2 * m 4) * m 6 * oq,
     -(m 0 * m 5 - m 2 * m 3) * m 7 * oq,
     (m 0 * m 4 - m 1 * m 3) * m 8 * oq,
     -(m 0 * m 5 - m 2 * m 3) * m 6 * oq + (m 1 * m 5 - m 2 * m 4) * m 7 * oq,
     (m 0 * m 4 - m 1 * m 3) * m 6 * oq + (m 1 * m 5 - m 2 * m 4) * m 8 * oq,
     (m 0 * m 4 - m 1 * m 3) * m 7 - (m 0 * m 5 - m 2 * m 3) * m 8 * oq]]
  dder_q

/-- `calc_mt_m`, A_functions_base/matrix_operations.py:365-386. -/
def calc_mt_m {K : Type} [Field K] (m_ij : Fin 9 → K) : Fin 6 → K :=
  let q_11 : K := m_ij 0 ^ 2 + m_ij 3 ^ 2 + m_ij 6 ^ 2
  let q_22 : K := m_ij 1 ^ 2 + m_ij 4 ^ 2 + m_ij 7 ^ 2
  let q_33 : K := m_ij 2 ^ 2 + m_ij 5 ^ 2 + m_ij 8 ^ 2
  let q_12 : K := m_ij 0 * m_ij 1 + m_ij 3 * m_ij 4 + m_ij 6 * m_ij 7
  let q_13 : K := m_ij 0 * m_ij 2 + m_ij 3 * m_ij 5 + m_ij 6 * m_ij 8
  let q_23 : K := m_ij 1 * m_ij 2 + m_ij 4 * m_ij 5 + m_ij 7 * m_ij 8
  let q_ij : Fin 6 → K := ![q_11, q_22, q_33, q_12, q_13, q_23]
  q_ij

/-- `calc_q_sq`, A_functions_base/matrix_operations.py:390-421. -/
def calc_q_sq {K : Type} [Field K] (q : Fin 6 → K) : Fin 6 → K :=
  let qo_11 : K := q 0 ^ 2 + q 3 ^ 2 + q 4 ^ 2
  let qo_22 : K := q 3 ^ 2 + q 1 ^ 2 + q 5 ^ 2
  let qo_33 : K := q 4 ^ 2 + q 5 ^ 2 + q 2 ^ 2
  let qo_12 : K := q 0 * q 3 + q 3 * q 1 + q 4 * q 5
  let qo_13 : K := q 0 * q 4 + q 3 * q 5 + q 4 * q 2
  let qo_23 : K := q 3 * q 4 + q 1 * q 5 + q 5 * q 2
  let qo : Fin 6 → K := ![qo_11, qo_22, qo_33, qo_12, qo_13, qo_23]
  qo

/-- `calc_q_sq`, output `q`, A_functions_base/matrix_operations.py:390-421. -/
def d_calc_q_sq {K : Type} [Field K] (q : Fin 6 → K) : Fin 6 → Fin 6 → K :=
  let dder_11 : Fin 6 → K := ![2 * q 0, 0, 0, 2 * q 3, 2 * q 4, 0]
  let dder_22 : Fin 6 → K := ![0, 2 * q 1, 0, 2 * q 3, 0, 2 * q 5]
  let dder_33 : Fin 6 → K := ![0, 0, 2 * q 2, 0, 2 * q 4, 2 * q 5]
  let dder_12 : Fin 6 → K := ![q 3, q 3, 0, q 0 + q 1, q 5, q 4]
  let dder_13 : Fin 6 → K := ![q 4, 0, q 4, q 5, q 0 + q 2, q 3]
  let dder_23 : Fin 6 → K := ![0, q 5, q 5, q 4, q 3, q 1 + q 2]
  ![![dder_11 0, dder_11 1, dder_11 2, dder_11 3, dder_11 4, dder_11 5],
   ![dder_22 0, dder_22 1, dder_22 2, dder_22 3, dder_22 4, dder_22 5],
   ![dder_33 0, dder_33 1, dder_33 2, dder_33 3, dder_33 4, dder_33 5],
   ![dder_12 0, dder_12 1, dder_12 2, dder_12 3, dder_12 4, dder_12 5],
   ![dder_13 0, dder_13 1, dder_13 2, dder_13 3, dder_13 4, dder_13 5],
   ![dder_23 0, dder_23 1, dder_23 2, dder_23 3, dder_23 4, dder_23 5]]

/-- `calc_m_sq`, A_functions_base/matrix_operations.py:424-465. -/
def calc_m_sq {K : Type} [Field K] (m : Fin 9 → K) : Fin 9 → K :=
  let mo_11 : K := m 0 ^ 2 + m 1 * m 3 + m 2 * m 6
  let mo_22 : K := m 1 * m 3 + m 4 ^ 2 + m 5 * m 7
  let mo_33 : K := m 2 * m 6 + m 5 * m 7 + m 8 ^ 2
  let mo_12 : K := m 0 * m 1 + m 1 * m 4 + m 2 * m 7
  let mo_13 : K := m 0 * m 2 + m 1 * m 5 + m 2 * m 8
  let mo_23 : K := m 2 * m 3 + m 4 * m 5 + m 5 * m 8
  let mo_21 : K := m 0 * m 3 + m 3 * m 4 + m 5 * m 6
  let mo_31 : K := m 0 * m 6 + m 3 * m 7 + m 8 * m 8
  let mo_32 : K := m 1 * m 6 + m 4 * m 7 + m 7 * m 8
  let mo : Fin 9 → K := ![mo_11, mo_12, mo_13, mo_21, mo_22, mo_23, mo_31, mo_32, mo_33]
  mo

/-- `calc_m_sq`, output `m`, A_functions_base/matrix_operations.py:424-465. -/
def d_calc_m_sq {K : Type} [Field K] (m : Fin 9 → K) : Fin 9 → Fin 9 → K :=
  let dder_11 : Fin 9 → K := ![2 * m 0, m 3, m 6, m 1, 0, 0, m 2, 0, 0]
  let dder_12 : Fin 9 → K := ![m 1, m 0 + m 4, m 7, 0, m 1, 0, 0, m 2, 0]
  let dder_13 : Fin 9 → K := ![m 2, m 5, m 0 + m 8, 0, 0, m 1, 0, 0, m 2]
  let dder_21 : Fin 9 → K := ![m 3, 0, 0, m 0 + m 4, m 3, m 6, m 5, 0, 0]
  let dder_22 : Fin 9 → K := ![0, m 3, 0, m 1, 2 * m 4, m 7, 0, m 5, 0]
  let dder_23 : Fin 9 → K := ![0, 0, m 3, m 2, m 5, m 4 + m 8, 0, 0, m 5]
  let dder_31 : Fin 9 → K := ![m 6, 0, 0, m 7, 0, 0, m 0 + m 8, m 3, m 6]
  let dder_32 : Fin 9 → K := ![0, m 6, 0, 0, m 7, 0, m 1, m 4 + m 8, m 7]
  let dder_33 : Fin 9 → K := ![0, 0, m 6, 0, 0, m 7, m 2, m 5, 2 * m 8]
  ![![dder_11 0, dder_11 1, dder_11 2, dder_11 3, dder_11 4, dder_11 5, dder_11 6, dder_11 7, dder_11 8],
   ![dder_12 0, dder_12 1, dder_12 2, dder_12 3, dder_12 4, dder_12 5, dder_12 6, dder_12 7, dder_12 8],
   ![dder_13 0, dder_13 1, dder_13 2, dder_13 3, dder_13 4, dder_13 5, dder_13 6, dder_13 7, dder_13 8],
   ![dder_21 0, dder_21 1, dder_21 2, dder_21 3, dder_21 4, dder_21 5, dder_21 6, dder_21 7, dder_21 8],
   ![dder_22 0, dder_22 1, dder_22 2, dder_22 3, dder_22 4, dder_22 5, dder_22 6, dder_22 7, dder_22 8],
   ![dder_23 0, dder_23 1, dder_23 2, dder_23 3, dder_23 4, dder_23 5, dder_23 6, dder_23 7, dder_23 8],
   ![dder_31 0, dder_31 1, dder_31 2, dder_31 3, dder_31 4, dder_31 5, dder_31 6, dder_31 7, dder_31 8],
   ![dder_32 0, dder_32 1, dder_32 2, dder_32 3, dder_32 4, dder_32 5, dder_32 6, dder_32 7, dder_32 8],
   ![dder_33 0, dder_33 1, dder_33 2, dder_33 3, dder_33 4, dder_33 5, dder_33 6, dder_33 7, dder_33 8]]

/-- `calc_m1_m2_inv_m1`, A_functions_base/matrix_operations.py:468-515. -/
def calc_m1_m2_inv_m1 {K : Type} [Field K] (m1_ij : Fin 9 → K) (m2_ij : Fin 9 → K) : Fin 9 → K :=
  let det : K := m1_ij 0 * m1_ij 4 * m1_ij 8 - m1_ij 0 * m1_ij 5 * m1_ij 7 - m1_ij 1 * m1_ij 3 * m1_ij 8 + m1_ij 1 * m1_ij 5 * m1_ij 6 + m1_ij 2 * m1_ij 3 * m1_ij 7 - m1_ij 2 * m1_ij 4 * m1_ij 6
  let m1_m2_inv_m1_11 : K := ((m1_ij 3 * m1_ij 7 - m1_ij 4 * m1_ij 6) * (m1_ij 0 * m2_ij 2 + m1_ij 1 * m2_ij 5 + m1_ij 2 * m2_ij 8) - (m1_ij 3 * m1_ij 8 - m1_ij 5 * m1_ij 6) * (m1_ij 0 * m2_ij 1 + m1_ij 1 * m2_ij 4 + m1_ij 2 * m2_ij 7) + (m1_ij 4 * m1_ij 8 - m1_ij 5 * m1_ij 7) * (m1_ij 0 * m2_ij 0 + m1_ij 1 * m2_ij 3 + m1_ij 2 * m2_ij 6)) / det
  let m1_m2_inv_m1_12 : K := (-(m1_ij 0 * m1_ij 7 - m1_ij 1 * m1_ij 6) * (m1_ij 0 * m2_ij 2 + m1_ij 1 * m2_ij 5 + m1_ij 2 * m2_ij 8) + (m1_ij 0 * m1_ij 8 - m1_ij 2 * m1_ij 6) * (m1_ij 0 * m2_ij 1 + m1_ij 1 * m2_ij 4 + m1_ij 2 * m2_ij 7) - (m1_ij 1 * m1_ij 8 - m1_ij 2 * m1_ij 7) * (m1_ij 0 * m2_ij 0 + m1_ij 1 * m2_ij 3 + m1_ij 2 * m2_ij 6)) / det
  let m1_m2_inv_m1_13 : K := ((m1_ij 0 * m1_ij 4 - m1_ij 1 * m1_ij 3) * (m1_ij 0 * m2_ij 2 + m1_ij 1 * m2_ij 5 + m1_ij 2 * m2_ij 8) - (m1_ij 0 * m1_ij 5 - m1_ij 2 * m1_ij 3) * (m1_ij 0 * m2_ij 1 + m1_ij 1 * m2_ij 4 + m1_ij 2 * m2_ij 7) + (m1_ij 1 * m1_ij 5 - m1_ij 2 * m1_ij 4) * (m1_ij 0 * m2_ij 0 + m1_ij 1 * m2_ij 3 + m1_ij 2 * m2_ij 6)) / det
  let m1_m2_inv_m1_21 : K := ((m1_ij 3 * m1_ij 7 - m1_ij 4 * m1_ij 6) * (m1_ij 3 * m2_ij 2 + m1_ij 4 * m2_ij 5 + m1_ij 5 * m2_ij 8) - (m1_ij 3 * m1_ij 8 - m1_ij 5 * m1_ij 6) * (m1_ij 3 * m2_ij 1 + m1_ij 4 * m2_ij 4 + m1_ij 5 * m2_ij 7) + (m1_ij 4 * m1_ij 8 - m1_ij 5 * m1_ij 7) * (m1_ij 3 * m2_ij 0 + m1_ij 4 * m2_ij 3 + m1_ij 5 * m2_ij 6)) / det
  let m1_m2_inv_m1_22 : K := (-(m1_ij 0 * m1_ij 7 - m1_ij 1 * m1_ij 6) * (m1_ij 3 * m2_ij 2 + m1_ij 4 * m2_ij 5 + m1_ij 5 * m2_ij 8) + (m1_ij 0 * m1_ij 8 - m1_ij 2 * m1_ij 6) * (m1_ij 3 * m2_ij 1 + m1_ij 4 * m2_ij 4 + m1_ij 5 * m2_ij 7) - (m1_ij 1 * m1_ij 8 - m1_ij 2 * m1_ij 7) * (m1_ij 3 * m2_ij 0 + m1_ij 4 * m2_ij 3 + m1_ij 5 * m2_ij 6)) / det
  let m1_m2_inv_m1_23 : K := ((m1_ij 0 * m1_ij 4 - m1_ij 1 * m1_ij 3) * (m1_ij 3 * m2_ij 2 + m1_ij 4 * m2_ij 5 + m1_ij 5 * m2_ij 8) - (m1_ij 0 * m1_ij 5 - m1_ij 2 * m1_ij 3) * (m1_ij 3 * m2_ij 1 + m1_ij 4 * m2_ij 4 + m1_ij 5 * m2_ij 7) + (m1_ij 1 * m1_ij 5 - m1_ij 2 * m1_ij 4) * (m1_ij 3 * m2_ij 0 + m1_ij 4 * m2_ij 3 + m1_ij 5 * m2_ij 6)) / det
  let m1_m2_inv_m1_31 : K := ((m1_ij 3 * m1_ij 7 - m1_ij 4 * m1_ij 6) * (m1_ij 6 * m2_ij 2 + m1_ij 7 * m2_ij 5 + m1_ij 8 * m2_ij 8) - (m1_ij 3 * m1_ij 8 - m1_ij 5 * m1_ij 6) * (m1_ij 6 * m2_ij 1 + m1_ij 7 * m2_ij 4 + m1_ij 8 * m2_ij 7) + (m1_ij 4 * m1_ij 8 - m1_ij 5 * m1_ij 7) * (m1_ij 6 * m2_ij 0 + m1_ij 7 * m2_ij 3 + m1_ij 8 * m2_ij 6)) / det
  let m1_m2_inv_m1_32 : K := (-(m1_ij 0 * m1_ij 7 - m1_ij 1 * m1_ij 6) * (m1_ij 6 * m2_ij 2 + m1_ij 7 * m2_ij 5 + m1_ij 8 * m2_ij 8) + (m1_ij 0 * m1_ij 8 - m1_ij 2 * m1_ij 6) * (m1_ij 6 * m2_ij 1 + m1_ij 7 * m2_ij 4 + m1_ij 8 * m2_ij 7) - (m1_ij 1 * m1_ij 8 - m1_ij 2 * m1_ij 7) * (m1_ij 6 * m2_ij 0 + m1_ij 7 * m2_ij 3 + m1_ij 8 * m2_ij 6)) / det
  let m1_m2_inv_m1_33 : K := ((m1_ij 0 * m1_ij 4 - m1_ij 1 * m1_ij 3) * (m1_ij 6 * m2_ij 2 + m1_ij 7 * m2_ij 5 + m1_ij 8 * m2_ij 8) - (m1_ij 0 * m1_ij 5 - m1_ij 2 * m1_ij 3) * (m1_ij 6 * m2_ij 1 + m1_ij 7 * m2_ij 4 + m1_ij 8 * m2_ij 7) + (m1_ij 1 * m1_ij 5 - m1_ij 2 * m1_ij 4) * (m1_ij 6 * m2_ij 0 + m1_ij 7 * m2_ij 3 + m1_ij 8 * m2_ij 6)) / det
  let m1_m2_inv_m1 : Fin 9 → K := ![m1_m2_inv_m1_11,
   m1_m2_inv_m1_12,
   m1_m2_inv_m1_13,
   m1_m2_inv_m1_21,
   m1_m2_inv_m1_22,
   m1_m2_inv_m1_23,
   m1_m2_inv_m1_31,
   m1_m2_inv_m1_32,
   m1_m2_inv_m1_33]
  m1_m2_inv_m1

/-- `calc_m1_m2_m1t`, A_functions_base/matrix_operations.py:517-563. -/
def calc_m1_m2_m1t {K : Type} [Field K] (m1_ij : Fin 9 → K) (m2_ij : Fin 9 → K) : Fin 9 → K :=
  let m1_m2_m1t_11 : K := m1_ij 0 * (m1_ij 0 * m2_ij 0 + m1_ij 1 * m2_ij 3 + m1_ij 2 * m2_ij 6) + m1_ij 1 * (m1_ij 0 * m2_ij 1 + m1_ij 1 * m2_ij 4 + m1_ij 2 * m2_ij 7) + m1_ij 2 * (m1_ij 0 * m2_ij 2 + m1_ij 1 * m2_ij 5 + m1_ij 2 * m2_ij 8)
  let m1_m2_m1t_12 : K := m1_ij 3 * (m1_ij 0 * m2_ij 0 + m1_ij 1 * m2_ij 3 + m1_ij 2 * m2_ij 6) + m1_ij 4 * (m1_ij 0 * m2_ij 1 + m1_ij 1 * m2_ij 4 + m1_ij 2 * m2_ij 7) + m1_ij 5 * (m1_ij 0 * m2_ij 2 + m1_ij 1 * m2_ij 5 + m1_ij 2 * m2_ij 8)
  let m1_m2_m1t_13 : K := m1_ij 6 * (m1_ij 0 * m2_ij 0 + m1_ij 1 * m2_ij 3 + m1_ij 2 * m2_ij 6) + m1_ij 7 * (m1_ij 0 * m2_ij 1 + m1_ij 1 * m2_ij 4 + m1_ij 2 * m2_ij 7) + m1_ij 8 * (m1_ij 0 * m2_ij 2 + m1_ij 1 * m2_ij 5 + m1_ij 2 * m2_ij 8)
  let m1_m2_m1t_21 : K := m1_ij 0 * (m1_ij 3 * m2_ij 0 + m1_ij 4 * m2_ij 3 + m1_ij 5 * m2_ij 6) + m1_ij 1 * (m1_ij 3 * m2_ij 1 + m1_ij 4 * m2_ij 4 + m1_ij 5 * m2_ij 7) + m1_ij 2 * (m1_ij 3 * m2_ij 2 + m1_ij 4 * m2_ij 5 + m1_ij 5 * m2_ij 8)
  let m1_m2_m1t_22 : K := m1_ij 3 * (m1_ij 3 * m2_ij 0 + m1_ij 4 * m2_ij 3 + m1_ij 5 * m2_ij 6) + m1_ij 4 * (m1_ij 3 * m2_ij 1 + m1_ij 4 * m2_ij 4 + m1_ij 5 * m2_ij 7) + m1_ij 5 * (m1_ij 3 * m2_ij 2 + m1_ij 4 * m2_ij 5 + m1_ij 5 * m2_ij 8)
  let m1_m2_m1t_23 : K := m1_ij 6 * (m1_ij 3 * m2_ij 0 + m1_ij 4 * m2_ij 3 + m1_ij 5 * m2_ij 6) + m1_ij 7 * (m1_ij 3 * m2_ij 1 + m1_ij 4 * m2_ij 4 + m1_ij 5 * m2_ij 7) + m1_ij 8 * (m1_ij 3 * m2_ij 2 + m1_ij 4 * m2_ij 5 + m1_ij 5 * m2_ij 8)
  let m1_m2_m1t_31 : K := m1_ij 0 * (m1_ij 6 * m2_ij 0 + m1_ij 7 * m2_ij 3 + m1_ij 8 * m2_ij 6) + m1_ij 1 * (m1_ij 6 * m2_ij 1 + m1_ij 7 * m2_ij 4 + m1_ij 8 * m2_ij 7) + m1_ij 2 * (m1_ij 6 * m2_ij 2 + m1_ij 7 * m2_ij 5 + m1_ij 8 * m2_ij 8)
  let m1_m2_m1t_32 : K := m1_ij 3 * (m1_ij 6 * m2_ij 0 + m1_ij 7 * m2_ij 3 + m1_ij 8 * m2_ij 6) + m1_ij 4 * (m1_ij 6 * m2_ij 1 + m1_ij 7 * m2_ij 4 + m1_ij 8 * m2_ij 7) + m1_ij 5 * (m1_ij 6 * m2_ij 2 + m1_ij 7 * m2_ij 5 + m1_ij 8 * m2_ij 8)
  let m1_m2_m1t_33 : K := m1_ij 6 * (m1_ij 6 * m2_ij 0 + m1_ij 7 * m2_ij 3 + m1_ij 8 * m2_ij 6) + m1_ij 7 * (m1_ij 6 * m2_ij 1 + m1_ij 7 * m2_ij 4 + m1_ij 8 * m2_ij 7) + m1_ij 8 * (m1_ij 6 * m2_ij 2 + m1_ij 7 * m2_ij 5 + m1_ij 8 * m2_ij 8)
  let m1_m2_m1t : Fin 9 → K := ![m1_m2_m1t_11,
   m1_m2_m1t_12,
   m1_m2_m1t_13,
   m1_m2_m1t_21,
   m1_m2_m1t_22,
   m1_m2_m1t_23,
   m1_m2_m1t_31,
   m1_m2_m1t_32,
   m1_m2_m1t_33]
  m1_m2_m1t

/-- `calc_vt_m_v`, A_functions_base/matrix_operations.py:566-589. -/
def calc_vt_m_v {K : Type} [Field K] (m_ij : Fin 9 → K) (v_i : Fin 3 → K) : K :=
  let res : K := m_ij 0 * v_i 0 * v_i 0 + m_ij 4 * v_i 1 * v_i 1 + m_ij 8 * v_i 2 * v_i 2 + (m_ij 1 + m_ij 3) * v_i 0 * v_i 1 + (m_ij 2 + m_ij 6) * v_i 0 * v_i 2 + (m_ij 5 + m_ij 7) * v_i 1 * v_i 2
  res

/-- `calc_vt_m_v`, output `m`, A_functions_base/matrix_operations.py:566-589. -/
def d_calc_vt_m_v_m {K : Type} [Field K] (m_ij : Fin 9 → K) (v_i : Fin 3 → K) : Fin 9 → K :=
  ![v_i 0 * v_i 0 * 1,
   v_i 0 * v_i 1 * 1,
   v_i 0 * v_i 2 * 1,
   v_i 1 * v_i 0 * 1,
   v_i 1 * v_i 1 * 1,
   v_i 1 * v_i 2 * 1,
   v_i 2 * v_i 0 * 1,
   v_i 2 * v_i 1 * 1,
   v_i 2 * v_i 2 * 1]

/-- `calc_vt_m_v`, output `v`, A_functions_base/matrix_operations.py:566-589. -/
def d_calc_vt_m_v_v {K : Type} [Field K] (m_ij : Fin 9 → K) (v_i : Fin 3 → K) : Fin 3 → K :=
  ![(2 * m_ij 0 * v_i 0 + (m_ij 1 + m_ij 3) * v_i 1 + (m_ij 2 + m_ij 6) * v_i 2) * 1,
   (2 * m_ij 4 * v_i 1 + (m_ij 1 + m_ij 3) * v_i 0 + (m_ij 5 + m_ij 7) * v_i 2) * 1,
   (2 * m_ij 8 * v_i 2 + (m_ij 2 + m_ij 6) * v_i 0 + (m_ij 5 + m_ij 7) * v_i 1) * 1]

/-- `calc_vt_q_v`, A_functions_base/matrix_operations.py:592-614. -/
def calc_vt_q_v {K : Type} [Field K] (q : Fin 6 → K) (v : Fin 3 → K) : K :=
  let res : K := q 0 * v 0 * v 0 + q 1 * v 1 * v 1 + q 2 * v 2 * v 2 + 2 * q 3 * v 0 * v 1 + 2 * q 4 * v 0 * v 2 + 2 * q 5 * v 1 * v 2
  res

/-- `calc_vt_q_v`, output `v`, A_functions_base/matrix_operations.py:592-614. -/
def d_calc_vt_q_v_v {K : Type} [Field K] (q : Fin 6 → K) (v : Fin 3 → K) : Fin 3 → K :=
  ![(2 * q 0 * v 0 + (q 3 + q 3) * v 1 + (q 4 + q 4) * v 2) * 1,
   (2 * q 1 * v 1 + (q 3 + q 3) * v 0 + (q 5 + q 5) * v 2) * 1,
   (2 * q 2 * v 2 + (q 4 + q 4) * v 0 + (q 5 + q 5) * v 1) * 1]

/-- `calc_q_v`, A_functions_base/matrix_operations.py:617-665. -/
def calc_q_v {K : Type} [Field K] (q : Fin 6 → K) (v : Fin 3 → K) : Fin 3 → K :=
  let o_1 : K := q 0 * v 0 + q 3 * v 1 + q 4 * v 2
  let o_2 : K := q 3 * v 0 + q 1 * v 1 + q 5 * v 2
  let o_3 : K := q 4 * v 0 + q 5 * v 1 + q 2 * v 2
  let res : Fin 3 → K := ![o_1, o_2, o_3]
  res

/-- `calc_q_v`, output `q`, A_functions_base/matrix_operations.py:617-665. -/
def d_calc_q_v_q {K : Type} [Field K] (q : Fin 6 → K) (v : Fin 3 → K) : Fin 3 → Fin 6 → K :=
  ![![v 0 * 1, 0, 0, v 1 * 1, v 2 * 1, 0],
   ![0, v 1 * 1, 0, v 0 * 0, 0, v 2 * 0],
   ![0, 0, v 2 * 1, 0, v 0 * 0, v 1 * 0]]

/-- `calc_q_v`, output `v`, A_functions_base/matrix_operations.py:617-665. -/
def d_calc_q_v_v {K : Type} [Field K] (q : Fin 6 → K) (v : Fin 3 → K) : Fin 3 → Fin 3 → K :=
  ![![q 0 * 1, q 3 * 1, q 4 * 1], ![q 3 * 1, q 1 * 1, q 5 * 1], ![q 4 * 1, q 5 * 1, q 2 * 1]]

/-- `calc_m_v`, A_functions_base/matrix_operations.py:668-717. -/
def calc_m_v {K : Type} [Field K] (m : Fin 9 → K) (v : Fin 3 → K) : Fin 3 → K :=
  let o_1 : K := m 0 * v 0 + m 1 * v 1 + m 2 * v 2
  let o_2 : K := m 3 * v 0 + m 4 * v 1 + m 5 * v 2
  let o_3 : K := m 6 * v 0 + m 7 * v 1 + m 8 * v 2
  let res : Fin 3 → K := ![o_1, o_2, o_3]
  res

/-- `calc_m_v`, output `m`, A_functions_base/matrix_operations.py:668-717. -/
def d_calc_m_v_m {K : Type} [Field K] (m : Fin 9 → K) (v : Fin 3 → K) : Fin 3 → Fin 9 → K :=
  ![![v 0 * 1, v 1 * 1, v 2 * 1, 1 * 0, 1 * 0, 1 * 0, 1 * 0, 1 * 0, 1 * 0],
   ![1 * 0, 1 * 0, 1 * 0, v 0 * 1, v 1 * 1, v 2 * 1, 1 * 0, 1 * 0, 1 * 0],
   ![1 * 0, 1 * 0, 1 * 0, 1 * 0, 1 * 0, 1 * 0, v 0 * 1, v 1 * 1, v 2 * 1]]

/-- `calc_m_v`, output `v`, A_functions_base/matrix_operations.py:668-717. -/
def d_calc_m_v_v {K : Type} [Field K] (m : Fin 9 → K) (v : Fin 3 → K) : Fin 3 → Fin 3 → K :=
  ![![m 0 * 1, m 1 * 1, m 2 * 1], ![m 3 * 1, m 4 * 1, m 5 * 1], ![m 6 * 1, m 7 * 1, m 8 * 1]]

/-- `calc_mm_as_m_q_inv_m`, A_functions_base/matrix_operations.py:868-890. -/
def calc_mm_as_m_q_inv_m {K : Type} [Field K] (m : Fin 9 → K) : Fin 9 → Fin 6 → K :=
  let det_r : Fin 1 → Fin 1 → K := ![![m 0 * m 4 * m 8 - m 0 * m 5 * m 7 - m 1 * m 3 * m 8 + m 1 * m 5 * m 6 + m 2 * m 3 * m 7 - m 2 * m 4 * m 6]]
  let mm : Fin 9 → Fin 6 → K := ![![m 0 * (m 4 * m 8 - m 5 * m 7),
     m 1 * (-m 3 * m 8 + m 5 * m 6),
     m 2 * (m 3 * m 7 - m 4 * m 6),
     m 0 * (-m 3 * m 8 + m 5 * m 6) + m 1 * (m 4 * m 8 - m 5 * m 7),
     m 0 * (m 3 * m 7 - m 4 * m 6) + m 2 * (m 4 * m 8 - m 5 * m 7),
     m 1 * (m 3 * m 7 - m 4 * m 6) + m 2 * (-m 3 * m 8 + m 5 * m 6)],
   ![m 0 * (-m 1 * m 8 + m 2 * m 7),
     m 1 * (m 0 * m 8 - m 2 * m 6),
     m 2 * (-m 0 * m 7 + m 1 * m 6),
     m 0 * (m 0 * m 8 - m 2 * m 6) + m 1 * (-m 1 * m 8 + m 2 * m 7),
     m 0 * (-m 0 * m 7 + m 1 * m 6) + m 2 * (-m 1 * m 8 + m 2 * m 7),
     m 1 * (-m 0 * m 7 + m 1 * m 6) + m 2 * (m 0 * m 8 - m 2 * m 6)],
   ![m 0 * (m 1 * m 5 - m 2 * m 4),
     m 1 * (-m 0 * m 5 + m 2 * m 3),
     m 2 * (m 0 * m 4 - m 1 * m 3),
     m 0 * (-m 0 * m 5 + m 2 * m 3) + m 1 * (m 1 * m 5 - m 2 * m 4),
     m 0 * (m 0 * m 4 - m 1 * m 3) + m 2 * (m 1 * m 5 - m 2 * m 4),
     m 1 * (m 0 * m 4 - m 1 * m 3) + m 2 * (-m 0 * m 5 + m 2 * m 3)],
   ![m 3 * (m 4 * m 8 - m 5 * m 7),
     m 4 * (-m 3 * m 8 + m 5 * m 6),
     m 5 * (m 3 * m 7 - m 4 * m 6),
     m 3 * (-m 3 * m 8 + m 5 * m 6) + m 4 * (m 4 * m 8 - m 5 * m 7),
     m 3 * (m 3 * m 7 - m 4 * m 6) + m 5 * (m 4 * m 8 - m 5 * m 7),
     m 4 * (m 3 * m 7 - m 4 * m 6) + m 5 * (-m 3 * m 8 + m 5 * m 6)],
   ![m 3 * (-m 1 * m 8 + m 2 * m 7),
     m 4 * (m 0 * m 8 - m 2 * m 6),
     m 5 * (-m 0 * m 7 + m 1 * m 6),
     m 3 * (m 0 * m 8 - m 2 * m 6) + m 4 * (-m 1 * m 8 + m 2 * m 7),
     m 3 * (-m 0 * m 7 + m 1 * m 6) + m 5 * (-m 1 * m 8 + m 2 * m 7),
     m 4 * (-m 0 * m 7 + m 1 * m 6) + m 5 * (m 0 * m 8 - m 2 * m 6)],
   ![m 3 * (m 1 * m 5 - m 2 * m 4),
     m 4 * (-m 0 * m 5 + m 2 * m 3),
     m 5 * (m 0 * m 4 - m 1 * m 3),
     m 3 * (-m 0 * m 5 + m 2 * m 3) + m 4 * (m 1 * m 5 - m 2 * m 4),
     m 3 * (m 0 * m 4 - m 1 * m 3) + m 5 * (m 1 * m 5 - m 2 * m 4),
     m 4 * (m 0 * m 4 - m 1 * m 3) + m 5 * (-m 0 * m 5 + m 2 * m 3)],
   ![m 6 * (m 4 * m 8 - m 5 * m 7),
     m 7 * (-m 3 * m 8 + m 5 * m 6),
     m 8 * (m 3 * m 7 - m 4 * m 6),
     m 6 * (-m 3 * m 8 + m 5 * m 6) + m 7 * (m 4 * m 8 - m 5 * m 7),
     m 6 * (m 3 * m 7 - m 4 * m 6) + m 8 * (m 4 * m 8 - m 5 * m 7),
     m 7 * (m 3 * m 7 - m 4 * m 6) + m 8 * (-m 3 * m 8 + m 5 * m 6)],
   ![m 6 * (-m 1 * m 8 + m 2 * m 7),
     m 7 * (m 0 * m 8 - m 2 * m 6),
     m 8 * (-m 0 * m 7 + m 1 * m 6),
     m 6 * (m 0 * m 8 - m 2 * m 6) + m 7 * (-m 1 * m 8 + m 2 * m 7),
     m 6 * (-m 0 * m 7 + m 1 * m 6) + m 8 * (-m 1 * m 8 + m 2 * m 7),
     m 7 * (-m 0 * m 7 + m 1 * m 6) + m 8 * (m 0 * m 8 - m 2 * m 6)],
   ![m 6 * (m 1 * m 5 - m 2 * m 4),
     m 7 * (-m 0 * m 5 + m 2 * m 3),
     m 8 * (m 0 * m 4 - m 1 * m 3),
     m 6 * (-m 0 * m 5 + m 2 * m 3) + m 7 * (m 1 * m 5 - m 2 * m 4),
     m 6 * (m 0 * m 4 - m 1 * m 3) + m 8 * (m 1 * m 5 - m 2 * m 4),
     m 7 * (m 0 * m 4 - m 1 * m 3) + m 8 * (-m 0 * m 5 + m 2 * m 3)]]
  let mm₁ : Fin 9 → Fin 6 → K := ![![mm 0 0 / det_r 0 0,
     mm 0 1 / det_r 0 0,
     mm 0 2 / det_r 0 0,
     mm 0 3 / det_r 0 0,
     mm 0 4 / det_r 0 0,
     mm 0 5 / det_r 0 0],
   ![mm 1 0 / det_r 0 0,
     mm 1 1 / det_r 0 0,
     mm 1 2 / det_r 0 0,
     mm 1 3 / det_r 0 0,
     mm 1 4 / det_r 0 0,
     mm 1 5 / det_r 0 0],
   ![mm 2 0 / det_r 0 0,
     mm 2 1 / det_r 0 0,
     mm 2 2 / det_r 0 0,
     mm 2 3 / det_r 0 0,
     mm 2 4 / det_r 0 0,
     mm 2 5 / det_r 0 0],
   ![mm 3 0 / det_r 0 0,
     mm 3 1 / det_r 0 0,
     mm 3 2 / det_r 0 0,
     mm 3 3 / det_r 0 0,
     mm 3 4 / det_r 0 0,
     mm 3 5 / det_r 0 0],
   ![mm 4 0 / det_r 0 0,
     mm 4 1 / det_r 0 0,
     mm 4 2 / det_r 0 0,
     mm 4 3 / det_r 0 0,
     mm 4 4 / det_r 0 0,
     mm 4 5 / det_r 0 0],
   ![mm 5 0 / det_r 0 0,
     mm 5 1 / det_r 0 0,
     mm 5 2 / det_r 0 0,
     mm 5 3 / det_r 0 0,
     mm 5 4 / det_r 0 0,
     mm 5 5 / det_r 0 0],
   ![mm 6 0 / det_r 0 0,
     mm 6 1 / det_r 0 0,
     mm 6 2 / det_r 0 0,
     mm 6 3 / det_r 0 0,
     mm 6 4 / det_r 0 0,
     mm 6 5 / det_r 0 0],
   ![mm 7 0 / det_r 0 0,
     mm 7 1 / det_r 0 0,
     mm 7 2 / det_r 0 0,
     mm 7 3 / det_r 0 0,
     mm 7 4 / det_r 0 0,
     mm 7 5 / det_r 0 0],
   ![mm 8 0 / det_r 0 0,
     mm 8 1 / det_r 0 0,
     mm 8 2 / det_r 0 0,
     mm 8 3 / det_r 0 0,
     mm 8 4 / det_r 0 0,
     mm 8 5 / det_r 0 0]]
  mm₁

/-- `calc_mm_as_m1_m2_inv_m1`, A_functions_base/matrix_operations.py:893-915. -/
def calc_mm_as_m1_m2_inv_m1 {K : Type} [Field K] (m1 : Fin 9 → K) : Fin 9 → Fin 9 → K :=
  let det_r : Fin 1 → Fin 1 → K := ![![m1 0 * m1 4 * m1 8 - m1 0 * m1 5 * m1 7 - m1 1 * m1 3 * m1 8 + m1 1 * m1 5 * m1 6 + m1 2 * m1 3 * m1 7 - m1 2 * m1 4 * m1 6]]
  let mm : Fin 9 → Fin 9 → K := ![![m1 0 * (m1 4 * m1 8 - m1 5 * m1 7),
     m1 0 * (-m1 3 * m1 8 + m1 5 * m1 6),
     m1 0 * (m1 3 * m1 7 - m1 4 * m1 6),
     m1 1 * (m1 4 * m1 8 - m1 5 * m1 7),
     m1 1 * (-m1 3 * m1 8 + m1 5 * m1 6),
     m1 1 * (m1 3 * m1 7 - m1 4 * m1 6),
     m1 2 * (m1 4 * m1 8 - m1 5 * m1 7),
     m1 2 * (-m1 3 * m1 8 + m1 5 * m1 6),
     m1 2 * (m1 3 * m1 7 - m1 4 * m1 6)],
   ![m1 0 * (-m1 1 * m1 8 + m1 2 * m1 7),
     m1 0 * (m1 0 * m1 8 - m1 2 * m1 6),
     m1 0 * (-m1 0 * m1 7 + m1 1 * m1 6),
     m1 1 * (-m1 1 * m1 8 + m1 2 * m1 7),
     m1 1 * (m1 0 * m1 8 - m1 2 * m1 6),
     m1 1 * (-m1 0 * m1 7 + m1 1 * m1 6),
     m1 2 * (-m1 1 * m1 8 + m1 2 * m1 7),
     m1 2 * (m1 0 * m1 8 - m1 2 * m1 6),
     m1 2 * (-m1 0 * m1 7 + m1 1 * m1 6)],
   ![m1 0 * (m1 1 * m1 5 - m1 2 * m1 4),
     m1 0 * (-m1 0 * m1 5 + m1 2 * m1 3),
     m1 0 * (m1 0 * m1 4 - m1 1 * m1 3),
     m1 1 * (m1 1 * m1 5 - m1 2 * m1 4),
     m1 1 * (-m1 0 * m1 5 + m1 2 * m1 3),
     m1 1 * (m1 0 * m1 4 - m1 1 * m1 3),
     m1 2 * (m1 1 * m1 5 - m1 2 * m1 4),
     m1 2 * (-m1 0 * m1 5 + m1 2 * m1 3),
     m1 2 * (m1 0 * m1 4 - m1 1 * m1 3)],
   ![m1 3 * (m1 4 * m1 8 - m1 5 * m1 7),
     m1 3 * (-m1 3 * m1 8 + m1 5 * m1 6),
     m1 3 * (m1 3 * m1 7 - m1 4 * m1 6),
     m1 4 * (m1 4 * m1 8 - m1 5 * m1 7),
     m1 4 * (-m1 3 * m1 8 + m1 5 * m1 6),
     m1 4 * (m1 3 * m1 7 - m1 4 * m1 6),
     m1 5 * (m1 4 * m1 8 - m1 5 * m1 7),
     m1 5 * (-m1 3 * m1 8 + m1 5 * m1 6),
     m1 5 * (m1 3 * m1 7 - m1 4 * m1 6)],
   ![m1 3 * (-m1 1 * m1 8 + m1 2 * m1 7),
     m1 3 * (m1 0 * m1 8 - m1 2 * m1 6),
     m1 3 * (-m1 0 * m1 7 + m1 1 * m1 6),
     m1 4 * (-m1 1 * m1 8 + m1 2 * m1 7),
     m1 4 * (m1 0 * m1 8 - m1 2 * m1 6),
     m1 4 * (-m1 0 * m1 7 + m1 1 * m1 6),
     m1 5 * (-m1 1 * m1 8 + m1 2 * m1 7),
     m1 5 * (m1 0 * m1 8 - m1 2 * m1 6),
     m1 5 * (-m1 0 * m1 7 + m1 1 * m1 6)],
   ![m1 3 * (m1 1 * m1 5 - m1 2 * m1 4),
     m1 3 * (-m1 0 * m1 5 + m1 2 * m1 3),
     m1 3 * (m1 0 * m1 4 - m1 1 * m1 3),
     m1 4 * (m1 1 * m1 5 - m1 2 * m1 4),
     m1 4 * (-m1 0 * m1 5 + m1 2 * m1 3),
     m1 4 * (m1 0 * m1 4 - m1 1 * m1 3),
     m1 5 * (m1 1 * m1 5 - m1 2 * m1 4),
     m1 5 * (-m1 0 * m1 5 + m1 2 * m1 3),
     m1 5 * (m1 0 * m1 4 - m1 1 * m1 3)],
   ![m1 6 * (m1 4 * m1 8 - m1 5 * m1 7),
     m1 6 * (-m1 3 * m1 8 + m1 5 * m1 6),
     m1 6 * (m1 3 * m1 7 - m1 4 * m1 6),
     m1 7 * (m1 4 * m1 8 - m1 5 * m1 7),
     m1 7 * (-m1 3 * m1 8 + m1 5 * m1 6),
     m1 7 * (m1 3 * m1 7 - m1 4 * m1 6),
     m1 8 * (m1 4 * m1 8 - m1 5 * m1 7),
     m1 8 * (-m1 3 * m1 8 + m1 5 * m1 6),
     m1 8 * (m1 3 * m1 7 - m1 4 * m1 6)],
   ![m1 6 * (-m1 1 * m1 8 + m1 2 * m1 7),
     m1 6 * (m1 0 * m1 8 - m1 2 * m1 6),
     m1 6 * (-m1 0 * m1 7 + m1 1 * m1 6),
     m1 7 * (-m1 1 * m1 8 + m1 2 * m1 7),
     m1 7 * (m1 0 * m1 8 - m1 2 * m1 6),
     m1 7 * (-m1 0 * m1 7 + m1 1 * m1 6),
     m1 8 * (-m1 1 * m1 8 + m1 2 * m1 7),
     m1 8 * (m1 0 * m1 8 - m1 2 * m1 6),
     m1 8 * (-m1 0 * m1 7 + m1 1 * m1 6)],
   ![m1 6 * (m1 1 * m1 5 - m1 2 * m1 4),
     m1 6 * (-m1 0 * m1 5 + m1 2 * m1 3),
     m1 6 * (m1 0 * m1 4 - m1 1 * m1 3),
     m1 7 * (m1 1 * m1 5 - m1 2 * m1 4),
     m1 7 * (-m1 0 * m1 5 + m1 2 * m1 3),
     m1 7 * (m1 0 * m1 4 - m1 1 * m1 3),
     m1 8 * (m1 1 * m1 5 - m1 2 * m1 4),
     m1 8 * (-m1 0 * m1 5 + m1 2 * m1 3),
     m1 8 * (m1 0 * m1 4 - m1 1 * m1 3)]]
  let mm₁ : Fin 9 → Fin 9 → K := ![![mm 0 0 / det_r 0 0,
     mm 0 1 / det_r 0 0,
     mm 0 2 / det_r 0 0,
     mm 0 3 / det_r 0 0,
     mm 0 4 / det_r 0 0,
     mm 0 5 / det_r 0 0,
     mm 0 6 / det_r 0 0,
     mm 0 7 / det_r 0 0,
     mm 0 8 / det_r 0 0],
   ![mm 1 0 / det_r 0 0,
     mm 1 1 / det_r 0 0,
     mm 1 2 / det_r 0 0,
     mm 1 3 / det_r 0 0,
     mm 1 4 / det_r 0 0,
     mm 1 5 / det_r 0 0,
     mm 1 6 / det_r 0 0,
     mm 1 7 / det_r 0 0,
     mm 1 8 / det_r 0 0],
   ![mm 2 0 / det_r 0 0,
     mm 2 1 / det_r 0 0,
     mm 2 2 / det_r 0 0,
     mm 2 3 / det_r 0 0,
     mm 2 4 / det_r 0 0,
     mm 2 5 / det_r 0 0,
     mm 2 6 / det_r 0 0,
     mm 2 7 / det_r 0 0,
     mm 2 8 / det_r 0 0],
   ![mm 3 0 / det_r 0 0,
     mm 3 1 / det_r 0 0,
     mm 3 2 / det_r 0 0,
     mm 3 3 / det_r 0 0,
     mm 3 4 / det_r 0 0,
     mm 3 5 / det_r 0 0,
     mm 3 6 / det_r 0 0,
     mm 3 7 / det_r 0 0,
     mm 3 8 / det_r 0 0],
   ![mm 4 0 / det_r 0 0,
     mm 4 1 / det_r 0 0,
     mm 4 2 / det_r 0 0,
     mm 4 3 / det_r 0 0,
     mm 4 4 / det_r 0 0,
     mm 4 5 / det_r 0 0,
     mm 4 6 / det_r 0 0,
     mm 4 7 / det_r 0 0,
     mm 4 8 / det_r 0 0],
   ![mm 5 0 / det_r 0 0,
     mm 5 1 / det_r 0 0,
     mm 5 2 / det_r 0 0,
     mm 5 3 / det_r 0 0,
     mm 5 4 / det_r 0 0,
     mm 5 5 / det_r 0 0,
     mm 5 6 / det_r 0 0,
     mm 5 7 / det_r 0 0,
     mm 5 8 / det_r 0 0],
   ![mm 6 0 / det_r 0 0,
     mm 6 1 / det_r 0 0,
     mm 6 2 / det_r 0 0,
     mm 6 3 / det_r 0 0,
     mm 6 4 / det_r 0 0,
     mm 6 5 / det_r 0 0,
     mm 6 6 / det_r 0 0,
     mm 6 7 / det_r 0 0,
     mm 6 8 / det_r 0 0],
   ![mm 7 0 / det_r 0 0,
     mm 7 1 / det_r 0 0,
     mm 7 2 / det_r 0 0,
     mm 7 3 / det_r 0 0,
     mm 7 4 / det_r 0 0,
     mm 7 5 / det_r 0 0,
     mm 7 6 / det_r 0 0,
     mm 7 7 / det_r 0 0,
     mm 7 8 / det_r 0 0],
   ![mm 8 0 / det_r 0 0,
     mm 8 1 / det_r 0 0,
     mm 8 2 / det_r 0 0,
     mm 8 3 / det_r 0 0,
     mm 8 4 / det_r 0 0,
     mm 8 5 / det_r 0 0,
     mm 8 6 / det_r 0 0,
     mm 8 7 / det_r 0 0,
     mm 8 8 / det_r 0 0]]
  mm₁

/-- `calc_inv_m`, A_functions_base/matrix_operations.py:743-865.  The shortcut for `det == 1` everywhere also sets `inv_det` to 1. -/
noncomputable def calc_inv_m (m_ij : Fin 9 → ℝ) : Fin 9 → ℝ :=
  let eps : ℝ := (1 / 1000000000000)
  let det : ℝ := calc_det_m m_ij
  let inv_det : ℝ := if |det| < eps then 0 else 1 / det
  let inv_m_11 : ℝ := (m_ij 4 * m_ij 8 - m_ij 5 * m_ij 7) * inv_det
  let inv_m_12 : ℝ := -(m_ij 1 * m_ij 8 - m_ij 2 * m_ij 7) * inv_det
  let inv_m_13 : ℝ := (m_ij 1 * m_ij 5 - m_ij 2 * m_ij 4) * inv_det
  let inv_m_21 : ℝ := -(m_ij 3 * m_ij 8 - m_ij 5 * m_ij 6) * inv_det
  let inv_m_22 : ℝ := (m_ij 0 * m_ij 8 - m_ij 2 * m_ij 6) * inv_det
  let inv_m_23 : ℝ := -(m_ij 0 * m_ij 5 - m_ij 2 * m_ij 3) * inv_det
  let inv_m_31 : ℝ := (m_ij 3 * m_ij 7 - m_ij 4 * m_ij 6) * inv_det
  let inv_m_32 : ℝ := -(m_ij 0 * m_ij 7 - m_ij 1 * m_ij 6) * inv_det
  let inv_m_33 : ℝ := (m_ij 0 * m_ij 4 - m_ij 1 * m_ij 3) * inv_det
  let inv_m_ij : Fin 9 → ℝ := ![inv_m_11, inv_m_12, inv_m_13, inv_m_21, inv_m_22, inv_m_23, inv_m_31, inv_m_32, inv_m_33]
  inv_m_ij

end Cryspy.Mat
