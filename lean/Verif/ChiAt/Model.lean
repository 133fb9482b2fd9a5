import Verif.MemSf.Model

/-!
# Refinement of susceptibilities against a density, A_functions_base/mempy.py

Model of `calc_chi_atoms` and `calc_f_m_perp_ccs_by_chi_atoms`: the structure factors as a linear function of the susceptibilities of the
paramagnetic atoms.  One reflection at a time; conventions as in MemSf/Model.lean.  `pts` are the points of the channel with their
multiplicities, `atomOf` and `rOf` the index of the closest paramagnetic atom and the rotation that carries it to the point (the arrays
`ind_at` and `symm_elems_ai` of `calc_index_atom_symmetry_closest_to_fract_xyz`, modelled in Basin/Model.lean), `n` is the number of
paramagnetic atoms, `sc` their constraint matrices (`atom_para_sc_chi`).
-/

namespace Cryspy.ChiAt

open Symm Sf MemSf

/-- `hhh`, mempy.py:365-369: the sum over the operations, entry `i j`. -/
noncomputable def hhh (uc : Fin 6 → ℝ) (h : V3) (G : List Elem) (x : Shift) (i j : Fin 9) : ℂ :=
  (G.map fun e => phase h e x * (Mat.calc_mm_as_m1_m2_inv_m1 (Sft.pr5 uc e.r) i j : ℝ)).sum

/-- `hh1`, mempy.py:374. -/
noncomputable def hh1 (uc : Fin 6 → ℝ) (sc : Fin 6 → Fin 6 → ℝ) (r : M3) (i : Fin 9) (j : Fin 6) : ℝ :=
  ∑ k, Mat.calc_mm_as_m_q_inv_m (Sft.pr5 uc r) i k * sc k j

/-- `hh2`, mempy.py:375, with `point_scm_chi` of lines 339-348. -/
noncomputable def hh2 (uc : Fin 6 → ℝ) (G : List Elem) (x : Shift) (sc : Fin 6 → Fin 6 → ℝ) (r : M3) (i : Fin 9) (j : Fin 6) : ℝ :=
  ∑ k, Constr.scChiFull ((G.filter (symmFlag · x)).map colOf) uc i k * hh1 uc sc r k j

/-- `hhhh3`, mempy.py:371 and 381-382: `hhh2` is `hhh` times multiplicity and density. -/
noncomputable def hhhh3 (uc : Fin 6 → ℝ) (h : V3) (G : List Elem) (x : Shift) (m : ℕ) (density : ℝ) (sc : Fin 6 → Fin 6 → ℝ) (r : M3)
    (i : Fin 9) (j : Fin 6) : ℂ :=
  ∑ k, (((m : ℝ) * density : ℝ) : ℂ) * hhh uc h G x i k * (hh2 uc G x sc r k j : ℝ)

/-- One column (one atom `a`) of `chi_atoms`, mempy.py:378-393. -/
noncomputable def chiAtoms (uc : Fin 6 → ℝ) (n3 : V3) (h : V3) (G : List Elem) (pts : List (V3 × ℕ)) (density : V3 → ℝ) (atomOf : V3 → ℕ)
    (rOf : V3 → M3) (sc : ℕ → Fin 6 → Fin 6 → ℝ) (v : ℝ) (N : ℕ) (a : ℕ) (i : Fin 9) (j : Fin 6) : ℂ :=
  2695 / 10000 * v / (G.length * N) *
    (pts.map fun p => hhhh3 uc h G (pointOf n3 p.1) p.2 (density p.1) (sc a) (rOf p.1) i j * if atomOf p.1 = a then 1 else 0).sum

/-- `ind_at.max()+1`, mempy.py:378: the number of columns; the maximum of no points raises. -/
def columns (pts : List (V3 × ℕ)) (atomOf : V3 → ℕ) : Option ℕ := ((pts.map fun p => atomOf p.1).max?).map (· + 1)

/-- `(chi_atoms*numpy.expand_dims(atom_para_susceptibility, axis=(0,1))).sum(axis=(2,3))`, mempy.py:399, entry `i`: the last axes, of
lengths `c` and `n`, are broadcast. -/
noncomputable def mChi (c n : ℕ) (chi : ℕ → Fin 9 → Fin 6 → ℂ) (susc : ℕ → Fin 6 → ℝ) : Option (Fin 9 → ℂ) :=
  if c = n then some fun i => ∑ a ∈ Finset.range n, ∑ j, chi a i j * (susc a j : ℝ)
  else if c = 1 then some fun i => ∑ a ∈ Finset.range n, ∑ j, chi 0 i j * (susc a j : ℝ)
  else if n = 1 then some fun i => ∑ a ∈ Finset.range c, ∑ j, chi a i j * (susc 0 j : ℝ)
  else none

/-- `calc_f_m_perp_ccs_by_chi_atoms`, mempy.py:398-402, with `vp` of mempy_by_dictionary.py:539-540. -/
noncomputable def fByChiAtoms (uc : Fin 6 → ℝ) (h : V3) (H : Fin 3 → ℝ) (m : Fin 9 → ℂ) (k : Fin 3) : ℂ :=
  ∑ j, (Mat.calc_vv_as_v1_v2_v1 (Cell.calc_eq_ccs (hklR h) uc) k j : ℝ) * Mat.calc_m_v (K := ℂ) m (fun l => ((H l : ℝ) : ℂ)) j

/-- The structure factor that the refinement of the susceptibilities compares with the data, mempy_by_dictionary.py:529-540 and
mempy.py:428; `none` if the program raises. -/
noncomputable def fRefine (uc : Fin 6 → ℝ) (n3 : V3) (h : V3) (H : Fin 3 → ℝ) (G : List Elem) (pts : List (V3 × ℕ)) (density : V3 → ℝ)
    (atomOf : V3 → ℕ) (rOf : V3 → M3) (n : ℕ) (sc : ℕ → Fin 6 → Fin 6 → ℝ) (susc : ℕ → Fin 6 → ℝ) (v : ℝ) (N : ℕ) :
    Option (Fin 3 → ℂ) :=
  (columns pts atomOf).bind fun c =>
    (mChi c n (chiAtoms uc n3 h G pts density atomOf rOf sc v N) susc).map (fByChiAtoms uc h H)

/-- `dict_crystal["atom_para_susceptibility"]` after the refinement, mempy_by_dictionary.py:603-605. -/
def stored (sc : ℕ → Fin 6 → Fin 6 → ℝ) (susc : ℕ → Fin 6 → ℝ) : ℕ → Fin 6 → ℝ := fun a => Constr.apply (sc a) (susc a)

end Cryspy.ChiAt
