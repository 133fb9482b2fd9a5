import Verif.Bulk.Model
import Verif.Mat.Spec

/-!
# The report on powder experiments

`report_powder_experiments`, `calc_unit_cell_weight` and `calc_density_of_crystal`, H_functions_global/powder_experiments.py.  Floats are real numbers,
a division by zero (`nan` or `inf` in numpy) is not modelled, the writing of the numbers with a few digits is left out.
-/

namespace Cryspy.Mix

/-- an atom of `atom_site`: multiplicity, occupancy and the atomic weight of its element, powder_experiments.py:36-44 -/
structure Site where
  mult : ℕ
  occ : ℝ
  aw : ℝ

/-- `calc_unit_cell_weight`, powder_experiments.py:18-45; the same lines in the report, 115-125 -/
noncomputable def weight (l : List Site) : ℝ := (l.map fun a => (a.mult : ℝ) * a.occ * a.aw).sum

/-- a phase of an experiment with its crystal: scale (one for a single crystal, powder_experiments.py:106-109), cell, atoms, and, if there are
paramagnetic atoms, bulk susceptibility and `atom_para_index`, powder_experiments.py:128-146 -/
structure Phase where
  scale : ℝ
  uc : Fin 6 → ℝ
  sites : List Site
  para : Option ((Fin 9 → ℝ) × List ℕ)

/-- `v_uc`, powder_experiments.py:148 -/
noncomputable def Phase.vol (p : Phase) : ℝ := Cell.calc_volume_uc p.uc

/-- `unit_cell_weight`, powder_experiments.py:124 -/
noncomputable def Phase.m (p : Phase) : ℝ := weight p.sites

/-- `m_chi`, powder_experiments.py:135-139, 145 -/
noncomputable def Phase.chi (p : Phase) : Matrix (Fin 3) (Fin 3) ℝ := match p.para with
  | some (b, _) => Mat.toM b
  | none => 0

/-- `(atom_multiplicity*atom_occupancy)[i]`, powder_experiments.py:143; an index outside of the list (an `IndexError`) counts as nothing -/
noncomputable def Phase.countAt (p : Phase) (i : ℕ) : ℝ := match p.sites[i]? with
  | some a => (a.mult : ℝ) * a.occ
  | none => 0

/-- `n_ions`, powder_experiments.py:140-143, 146 -/
noncomputable def Phase.ions (p : Phase) : ℝ := match p.para with
  | some (_, idx) => (idx.map p.countAt).sum
  | none => 1

/-- `COEFF_N_A_MU_B/unit_cell_weight`, powder_experiments.py:15, 126 -/
noncomputable def Phase.coeff (p : Phase) : ℝ := 6022 / 1000 * (927 / 1000) * 1000 / p.m

/-- `s_v_sq`, powder_experiments.py:151 -/
noncomputable def Phase.svSq (p : Phase) : ℝ := p.scale * p.vol * p.vol
/-- `s_v_m`, powder_experiments.py:152 -/
noncomputable def Phase.svM (p : Phase) : ℝ := p.scale * p.vol * p.m

/-- `calc_density_of_crystal`, powder_experiments.py:48-67, and `density`, 180 -/
noncomputable def Phase.density (p : Phase) : ℝ := p.m / (p.vol * (6022 / 10000))

/-- a line of the first table -/
structure Row where
  density : ℝ
  wF : ℝ
  massM : ℝ
  vF : ℝ
  volM : ℝ
  moment : ℝ

/-- the line of a phase, powder_experiments.py:158-186 -/
noncomputable def row (field : ℝ) (ps : List Phase) (p : Phase) : Row :=
  let mChi := p.coeff • p.chi
  let mIon := (1 / p.ions) • p.chi
  let aver := field * (mChi 0 0 + mChi 1 1 + mChi 2 2) / 3
  { density := p.density
    wF := p.svM / (ps.map Phase.svM).sum
    massM := aver
    vF := p.svSq / (ps.map Phase.svSq).sum
    volM := aver * p.density
    moment := field * (mIon 0 0 + mIon 1 1 + mIon 2 2) / 3 }

/-- the lines of the phases of an experiment -/
noncomputable def rows (field : ℝ) (ps : List Phase) : List Row := ps.map (row field ps)

/-- `m_chi_mixture`, powder_experiments.py:187 -/
noncomputable def massTotal (field : ℝ) (ps : List Phase) : ℝ := ((rows field ps).map fun r => r.wF * r.massM).sum

/-- `m_volume_mixture`, powder_experiments.py:188 -/
noncomputable def volTotal (field : ℝ) (ps : List Phase) : ℝ := ((rows field ps).map fun r => r.vF * r.volM).sum

/-- the tensor of a phase in the second table, powder_experiments.py:158, 210 -/
noncomputable def tensorRow (p : Phase) : Fin 6 → ℝ :=
  let c := p.coeff • p.chi
  ![c 0 0, c 1 1, c 2 2, c 0 1, c 0 2, c 1 2]

end Cryspy.Mix
