import Verif.Sft.DProps
import Verif.Hkl.Example

/-!
# The hypotheses of the theorems on structure factor tensors are met: P4₂ in a tetragonal cell
-/

namespace Cryspy.Sft

open Symm Sf Real Matrix

theorem exSym_isometries : Isometries exSym Hkl.tetUC := Hkl.tet_good.metric

/-- An atom at `(1/2, 0, 0)`. -/
noncomputable def exAtom : PAtom :=
  { x := ![1 / 2, 0, 0], occ := 1, bIso := 1, beta := 0, lande := 2, kappa := 1, j0 := fun _ => 1, j2 := fun _ => 1
    chi := ![2, 2, 2, 0, 0, 0], sc := fun i j => if i = j then 1 else 0 }

theorem exAtom_chi : localChi exAtom = (539 / 1000 : ℝ) • 1 := by
  ext i j
  fin_cases i <;> fin_cases j <;> simp [localChi, exAtom, Mat.toQ] <;> norm_num

theorem rotC_orthogonal {uc : Fin 6 → ℝ} (hu : Cell.NonDegenerate uc) {r : M3}
    (hr : (rotR r)ᵀ * Cell.metric uc * rotR r = Cell.metric uc) : rotC uc r * (rotC uc r)ᵀ = 1 := by
  rw [rotC_eq uc hu]
  exact mul_eq_one_comm.1 (pr5_orthogonal uc hu r hr)

/-- All hypotheses of `sft_average`, `sft_unit_cell`, `sft_equivalent` hold for the atom, which has two images in the cell, and
the tetragonal cell. -/
example (h : V3) : exSym.Pos ∧ IsGroup exSym.full ∧ (exSym.full.Pairwise fun a b => ¬ SameOp a b) ∧ Cell.NonDegenerate Hkl.tetUC ∧
    Isometries exSym Hkl.tetUC ∧ (siteOf exAtom.x).val = exAtom.x ∧
    ∃ cell : PAtom → List (Q3 × ℝ × Matrix (Fin 3) (Fin 3) ℝ), (cell exAtom).length = 2 ∧
      IsOrbitList exSym.full exAtom.x ((cell exAtom).map Prod.fst) ∧
      ∀ p ∈ cell exAtom, ∀ g ∈ exSym.full, Lat (act g exAtom.x) p.1 →
        dwP Hkl.tetUC h exAtom g.r = p.2.1 ∧ rotC Hkl.tetUC g.r * localChi exAtom * (rotC Hkl.tetUC g.r)ᵀ = p.2.2 := by
  have hd := exG_distinct
  have hg := exG_isGroup
  rw [← exSym_full] at hd hg
  obtain ⟨d, ⟨c1, c2⟩, c3⟩ := exSym_cell Hkl.tetUC h (toAtom 1 exAtom) rfl rfl
  refine ⟨exSym_pos, hg, hd, Hkl.tetUC_nonDegenerate, exSym_isometries, c3,
    fun _ => [(![1 / 2, 0, 0], d, (539 / 1000 : ℝ) • 1), (![0, 1 / 2, 1 / 2], d, (539 / 1000 : ℝ) • 1)], rfl, c1, ?_⟩
  intro p hp g hgm hl
  have hrot : rotC Hkl.tetUC g.r * localChi exAtom * (rotC Hkl.tetUC g.r)ᵀ = (539 / 1000 : ℝ) • 1 := by
    rw [exAtom_chi, Matrix.mul_smul, Matrix.mul_one, Matrix.smul_mul,
      rotC_orthogonal Hkl.tetUC_nonDegenerate (exSym_isometries g hgm)]
  simp only [List.mem_cons, List.not_mem_nil, or_false] at hp
  rcases hp with rfl | rfl
  · exact ⟨c2 (![1 / 2, 0, 0], d) (by simp) g hgm hl, hrot⟩
  · exact ⟨c2 (![0, 1 / 2, 1 / 2], d) (by simp) g hgm hl, hrot⟩

/-- The hypotheses of the theorems on the derivative are met. -/
example : exSym.centro = false ∧ ∀ e ∈ exSym.reduced, (Mat.toM (pr5 Hkl.tetUC e.r)).det = 1 := by
  refine ⟨rfl, fun e he => ?_⟩
  rw [← rotC_eq _ Hkl.tetUC_nonDegenerate, rotC, Matrix.det_mul, Matrix.det_mul, mul_right_comm, ← Matrix.det_mul,
    Matrix.mul_nonsing_inv _ (by
      have := Cell.m_inv_m_spec Hkl.tetUC Hkl.tetUC_nonDegenerate
      exact (Matrix.isUnit_iff_isUnit_det _).1 ⟨⟨_, _, this.1, this.2⟩, rfl⟩)]
  simp only [exSym, exG, List.mem_cons, List.not_mem_nil, or_false] at he
  rcases he with rfl | rfl | rfl | rfl <;>
    simp [Matrix.det_fin_three, rotR, idElem, ex4, ex2, ex43]

end Cryspy.Sft
