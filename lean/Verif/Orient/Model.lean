import Verif.Rot.Model
import Verif.Orient.Spec

/-!
# Model of C_item_loop_classes/cl_2_diffrn_orient_matrix.py and of the matrix `m_b` of cl_1_cell.py

Real arithmetic.  Division by zero (a singular UB matrix) is outside: numpy gives inf and NaN there.
-/

namespace Cryspy.Orient

open Real Matrix Cryspy.Mat Cryspy.Rot

/-- `calc_ub_ccsl`, cl_2_diffrn_orient_matrix.py:157-190; `ub i j` are the attributes `ub_ij` -/
def ubCcsl (type : String) (ub : M3) : M3 :=
  if type ∈ ["XYZ", "6T2@LLB"] then
    !![ub 0 0, ub 0 1, ub 0 2; ub 1 0, ub 1 1, ub 1 2; ub 2 0, ub 2 1, ub 2 2]
  else if type ∈ ["-YXZ", "5C1@LLB"] then
    !![-ub 1 0, -ub 1 1, -ub 1 2; ub 0 0, ub 0 1, ub 0 2; ub 2 0, ub 2 1, ub 2 2]
  else if type ∈ ["Y-XZ", "BusingLevy"] then
    !![ub 1 0, ub 1 1, ub 1 2; -ub 0 0, -ub 0 1, -ub 0 2; ub 2 0, ub 2 1, ub 2 2]
  else
    !![ub 0 0, ub 0 1, ub 0 2; ub 1 0, ub 1 1, ub 1 2; ub 2 0, ub 2 1, ub 2 2]

/-- the texts that may be written to `type`, cl_2_diffrn_orient_matrix.py:68-69 -/
def allowedTypes : List String := ["CCSL", "6T2@LLB", "5C1@LLB", "BusingLevy", "-YXZ", "X-YZ", "XYZ"]

/-- the cell, angles in degrees, from the UB matrix in CCSL notation, cl_2_diffrn_orient_matrix.py:98-142 -/
noncomputable def cellOf (ub : M3) : Fin 6 → ℝ :=
  let b_1 := √(ub 0 0 * ub 0 0 + ub 1 0 * ub 1 0 + ub 2 0 * ub 2 0)
  let b_2 := √(ub 0 1 * ub 0 1 + ub 1 1 * ub 1 1 + ub 2 1 * ub 2 1)
  let b_3 := √(ub 0 2 * ub 0 2 + ub 1 2 * ub 1 2 + ub 2 2 * ub 2 2)
  let c_i_g := (ub 0 0 * ub 0 1 + ub 1 0 * ub 1 1 + ub 2 0 * ub 2 1) / (b_1 * b_2)
  let c_i_b := (ub 0 0 * ub 0 2 + ub 1 0 * ub 1 2 + ub 2 0 * ub 2 2) / (b_1 * b_3)
  let c_i_a := (ub 0 1 * ub 0 2 + ub 1 1 * ub 1 2 + ub 2 1 * ub 2 2) / (b_2 * b_3)
  let i_a := arccos c_i_a
  let i_b := arccos c_i_b
  let i_g := arccos c_i_g
  let s_i_a := sin i_a
  let s_i_b := sin i_b
  let s_i_g := sin i_g
  let i_vol := b_1 * b_2 * b_3 * √(1 - c_i_a ^ 2 - c_i_b ^ 2 - c_i_g ^ 2 + 2 * c_i_a * c_i_b * c_i_g)
  let c_a := (c_i_b * c_i_g - c_i_a) / (s_i_b * s_i_g)
  let c_b := (c_i_a * c_i_g - c_i_b) / (s_i_a * s_i_g)
  let c_g := (c_i_a * c_i_b - c_i_g) / (s_i_a * s_i_b)
  let a_1 := b_2 * b_3 * s_i_a / i_vol
  let a_2 := b_1 * b_3 * s_i_b / i_vol
  let a_3 := b_1 * b_2 * s_i_g / i_vol
  let alpha := arccos c_a
  let beta := arccos c_b
  let gamma := arccos c_g
  ![a_1, a_2, a_3, alpha * 180 / π, beta * 180 / π, gamma * 180 / π]

/-- `Cell.m_b` from the six parameters (angles in degrees), cl_1_cell.py:162-254 -/
noncomputable def cellMB (p : Fin 6 → ℝ) : M3 :=
  let rad := π / 180
  let c_a := cos (p 3 * rad)
  let c_b := cos (p 4 * rad)
  let c_g := cos (p 5 * rad)
  let s_a := sin (p 3 * rad)
  let s_b := sin (p 4 * rad)
  let s_g := sin (p 5 * rad)
  let a := p 0
  let b := p 1
  let c := p 2
  let v_sqrt := √(1 - c_a ^ 2 - c_b ^ 2 - c_g ^ 2 + 2 * c_a * c_b * c_g)
  let vol := a * b * c * v_sqrt
  let irad := 180 / π
  let ibeta := arccos ((c_g * c_a - c_b) / (s_g * s_a)) * irad
  let igamma := arccos ((c_a * c_b - c_g) / (s_a * s_b)) * irad
  let ia := b * c * s_a / vol
  let ib := c * a * s_b / vol
  let ic := a * b * s_g / vol
  let c_ib := cos (ibeta * rad)
  let c_ig := cos (igamma * rad)
  let s_ib := sin (ibeta * rad)
  let s_ig := sin (igamma * rad)
  !![ia, ib * c_ig, ic * c_ib;
     0, ib * s_ig, -ic * s_ib * c_a;
     0, 0, 1 / c]

/-- the matrix `U`, cl_2_diffrn_orient_matrix.py:143-156 -/
noncomputable def uOf (type : String) (ub : M3) : M3 :=
  let ub_ccsl := ubCcsl type ub
  let m_b := cellMB (cellOf ub_ccsl)
  let m_ib := m_b⁻¹
  ub_ccsl * m_ib

/-- the numbers `u_11, …, u_33`, row by row -/
def flat (u : M3) : Fin 9 → ℝ := ![u 0 0, u 0 1, u 0 2, u 1 0, u 1 1, u 1 2, u 2 0, u 2 1, u 2 2]

/-- `calc_e_up`, cl_2_diffrn_orient_matrix.py:271-300, with the attributes `u_ij` of the matrix `u` -/
noncomputable def calcEUp (u : M3) (phi omega chi : ℝ) : Fin 3 → ℝ :=
  let phi_ij : Fin 9 → ℝ := ![cos phi, sin phi, 0, -sin phi, cos phi, 0, 0, 0, 1]
  let omega_ij : Fin 9 → ℝ := ![cos omega, sin omega, 0, -sin omega, cos omega, 0, 0, 0, 1]
  let chi_ij : Fin 9 → ℝ := ![cos chi, 0, sin chi, 0, 1, 0, -sin chi, 0, cos chi]
  let v := prodAll omega_ij chi_ij [phi_ij, flat u]
  let ut : Fin 9 → ℝ := ![v 0, v 3, v 6, v 1, v 4, v 7, v 2, v 5, v 8]
  mv ut ![0, 0, 1]

/-- `Cell.calc_k_loc` of one reflection, cl_1_cell.py:285-318, with the matrix `m_b` -/
noncomputable def kLoc (m_b : M3) (hkl : Fin 3 → ℝ) : Fin 3 → ℝ :=
  let k_x := m_b 0 0 * hkl 0 + m_b 0 1 * hkl 1 + m_b 0 2 * hkl 2
  let k_y := m_b 1 0 * hkl 0 + m_b 1 1 * hkl 1 + m_b 1 2 * hkl 2
  let k_z := m_b 2 0 * hkl 0 + m_b 2 1 * hkl 1 + m_b 2 2 * hkl 2
  let k_norm := √(k_x ^ 2 + k_y ^ 2 + k_z ^ 2)
  let k_norm := if k_norm = 0 then 1 else k_norm
  ![k_x / k_norm, k_y / k_norm, k_z / k_norm]

/-- `calc_q2`, cl_2_diffrn_orient_matrix.py:355-366 -/
noncomputable def calcQ2 (u m_b : M3) (hkl : Fin 3 → ℝ) : ℝ :=
  let k := kLoc m_b hkl
  1 - (k 0 * u 2 0 + k 1 * u 2 1 + k 2 * u 2 2) ^ 2

/-- `calc_angle`, cl_2_diffrn_orient_matrix.py:302-353: `(gamma, nu, phi)` in degrees; `left` is `diffracted_beam.strip().lower() == "left"`,
`anti` is `diffractometer_axes.strip().lower() == "anticlockwise"`; `none` when nothing is returned.  The matrix is the attribute `ub`. -/
noncomputable def calcAngle (ub : M3) (hkl : Fin 3 → ℝ) (lam : ℝ) (left anti : Bool) : Option (ℝ × ℝ × ℝ) :=
  let q_ub := ub *ᵥ hkl
  let q := √(q_ub ⬝ᵥ q_ub)
  let qx := -q ^ 2 * lam / 2
  let qz := q_ub 2
  let q_y2 := q ^ 2 - qx ^ 2 - qz ^ 2
  if q_y2 < 0 then none
  else
    let qy := √q_y2
    let kx := qx + 1 / lam
    let nu := arcsin (qz * lam) / π * 180 - 0
    let gamma := arctan2 qy kx / π * 180 - 0
    let phi := (arctan2 qy qx - arctan2 (q_ub 1) (q_ub 0)) / π * 180
    let phi' := if phi > 0 then phi else phi + 360
    let gamma' := if gamma > 0 then gamma else gamma + 360
    if left && anti then some (gamma', nu, phi')
    else if !left && !anti then some (gamma', nu, phi')
    else if left && !anti then some (-gamma', nu, -phi')
    else some (-gamma', nu, -phi')

/-! ## The object: attributes, derived quantities and the cell

Writing a mandatory or optional attribute deletes the derived quantities but not the protected `cell`
(cl_1_item.py:222-241, 253-276); reading a derived quantity that is missing forms them all and the cell
(cl_1_item.py:178-190, cl_2_diffrn_orient_matrix.py:250-269); reading `cell` gives what is stored, or raises.
-/

/-- the attributes of a `DiffrnOrientMatrix` with all nine `ub_ij` set -/
structure Obj where
  ub : M3
  type : String
  u : Option M3
  cell : Option (Fin 6 → ℝ)

/-- writing `ub_ij` -/
def Obj.writeUb (o : Obj) (i j : Fin 3) (x : ℝ) : Obj := { o with ub := o.ub.updateRow i (Function.update (o.ub i) j x), u := none }

/-- writing `type` (a text that is not allowed is not stored) -/
def Obj.writeType (o : Obj) (s : String) : Obj := { o with type := if s ∈ allowedTypes then s else o.type, u := none }

/-- reading one of the derived quantities (`form_object` when they are missing) -/
noncomputable def Obj.readU (o : Obj) : M3 × Obj :=
  match o.u with
  | some u => (u, o)
  | none => (uOf o.type o.ub, { o with u := some (uOf o.type o.ub), cell := some (cellOf (ubCcsl o.type o.ub)) })

/-- one action on the object -/
inductive Action
  | writeUb (i j : Fin 3) (x : ℝ)
  | writeType (s : String)
  | readU
  | formObject

/-- the effect of an action; `form_object` overwrites everything derived -/
noncomputable def Obj.act (o : Obj) : Action → Obj
  | .writeUb i j x => o.writeUb i j x
  | .writeType s => o.writeType s
  | .readU => o.readU.2
  | .formObject => { o with u := some (uOf o.type o.ub), cell := some (cellOf (ubCcsl o.type o.ub)) }

end Cryspy.Orient
