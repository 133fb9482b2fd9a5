import Verif.Sft.Model
import Verif.Constr.Model

/-!
# Magnetic structure factors of a density, A_functions_base/mempy.py

Model of the matrices that turn a density on the points of the asymmetric unit into structure factors.  One reflection, one point,
one component at a time; conventions as in Sf/Model.lean.  Stored data (`flag_use_precalculated_data`) are not modelled: the caller,
mempy_by_dictionary.py:197, always passes `False`.
-/

namespace Cryspy.MemSf

open Symm Sf Real

/-- `calc_symm_elem_points_by_index_points`, mempy.py:23-28, one point. -/
def pointOf (n p : V3) : Shift :=
  let common : ℤ := Int.lcm (Int.lcm (n 0) (n 1)) (n 2)
  ⟨fun k => p k * (common / n k), common⟩

/-- `rr + fract_b`, mempy.py:60-66 and 118-124: the image of the point `x` under one operation. -/
def image (e : Elem) (x : Shift) : Q3 := fun k =>
  Mat.calc_m_v (K := ℚ) ![(e.r 0 0 : ℚ), e.r 0 1, e.r 0 2, e.r 1 0, e.r 1 1, e.r 1 2, e.r 2 0, e.r 2 1, e.r 2 2]
    (fun l => (x.n l : ℚ) / x.d) k + (e.bn k : ℚ) / e.bd

/-- `phase_3d`, mempy.py:69 and 127. -/
noncomputable def phase (h : V3) (e : Elem) (x : Shift) : ℂ :=
  ph (image e x 0 * h 0 + image e x 1 * h 1 + image e x 2 * h 2)

/-- `calc_mem_col`, mempy.py:31-74, component `k`: `eh` is the direction of the field, `m` the multiplicity of the point, `v` the
volume of the cell, `N` the number of points in it. -/
noncomputable def memCol (uc : Fin 6 → ℝ) (h : V3) (eh : Fin 3 → ℝ) (G : List Elem) (x : Shift) (m : ℕ) (v : ℝ) (N : ℕ) (k : Fin 3) : ℂ :=
  2695 / 10000 * ((G.map fun e => phase h e x).sum * m *
    (Mat.calc_vector_product_v1_v2_v1 (Cell.calc_eq_ccs (hklR h) uc) eh k : ℝ)) / G.length * v / N

/-- `m_perp_ccs` in `calc_mem_chi`, mempy.py:105-116: the moment that the field `H` induces at the image of the point, perpendicular
to the scattering vector. -/
noncomputable def mPerp (uc : Fin 6 → ℝ) (h : V3) (H : Fin 3 → ℝ) (chi : Fin 9 → ℝ) (r : M3) : Fin 3 → ℝ :=
  Mat.calc_vector_product_v1_v2_v1 (Cell.calc_eq_ccs (hklR h) uc)
    (Mat.calc_m_v (Mat.calc_m1_m2_inv_m1 (Sft.pr5 uc r) chi) H)

/-- `calc_mem_chi`, mempy.py:77-131, component `k`. -/
noncomputable def memChi (uc : Fin 6 → ℝ) (h : V3) (H : Fin 3 → ℝ) (G : List Elem) (x : Shift) (chi : Fin 9 → ℝ) (m : ℕ) (v : ℝ) (N : ℕ)
    (k : Fin 3) : ℂ :=
  2695 / 10000 * (G.map fun e => phase h e x * (mPerp uc h H chi e.r k : ℝ)).sum / G.length * m * v / N

/-- `f_m_perp` for a density with the channel plus-minus, mempy_by_dictionary.py:309-313: the points are those of the asymmetric unit
with their multiplicities. -/
noncomputable def fCol (uc : Fin 6 → ℝ) (n : V3) (h : V3) (eh : Fin 3 → ℝ) (G : List Elem) (pts : List (V3 × ℕ)) (mPlus mMinus : ℝ)
    (plus minus : V3 → ℝ) (v : ℝ) (N : ℕ) (k : Fin 3) : ℂ :=
  (pts.map fun p => ((mPlus * plus p.1 + mMinus * minus p.1 : ℝ) : ℂ) * memCol uc h eh G (pointOf n p.1) p.2 v N k).sum

/-- … and with the channel of the susceptibility, mempy_by_dictionary.py:315-318. -/
noncomputable def fChi (uc : Fin 6 → ℝ) (n : V3) (h : V3) (H : Fin 3 → ℝ) (G : List Elem) (pts : List (V3 × ℕ)) (chi : V3 → Fin 9 → ℝ)
    (density : V3 → ℝ) (v : ℝ) (N : ℕ) (k : Fin 3) : ℂ :=
  (pts.map fun p => (density p.1 : ℂ) * memChi uc h H G (pointOf n p.1) (chi p.1) p.2 v N k).sum

end Cryspy.MemSf

namespace Cryspy.MemSf

open Symm Sf

/-- A column of `full_symm_elems` as `calc_sc_chi_full` takes it (13 rows, so `theta` is 1). -/
def colOf (e : Elem) : Constr.Col := ⟨fun k => (e.bn k : ℝ), (e.bd : ℝ), flat e.r, 1⟩

/-- `calc_point_susceptibility`, mempy.py:303-326, one point `x`: `q` is the susceptibility of the closest atom, constrained by the
symmetry of its site (`atom_para_susceptibility_averaged`, line 306), `r` the rotation that carries the atom to the point's basin; then the
mean over the operations that keep the point. -/
noncomputable def pointSusceptibility (uc : Fin 6 → ℝ) (G : List Elem) (x : Shift) (q : Fin 6 → ℝ) (r : M3) : Fin 9 → ℝ :=
  Constr.apply (Constr.scChiFull ((G.filter (symmFlag · x)).map colOf) uc) (Mat.calc_m_q_inv_m (Sft.pr5 uc r) q)

end Cryspy.MemSf
