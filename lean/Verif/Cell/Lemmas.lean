import Verif.Gen.UnitCell
import Verif.Cell.Spec
import Verif.Mat.Lemmas

/-! Trigonometric facts of a non-degenerate cell, and the tactic that reduces matrix identities to algebra. -/

namespace Cryspy.Cell

open Real Cryspy.Mat

theorem det_metric (uc : Fin 6 → ℝ) : (metric uc).det = (uc 0 * uc 1 * uc 2) ^ 2 * calc_phi_sq uc := by
  simp [metric, Matrix.det_fin_three, calc_phi_sq]; ring

structure Facts (a b c ca cb cg sa sb sg p : ℝ) : Prop where
  a_ne : a ≠ 0
  b_ne : b ≠ 0
  c_ne : c ≠ 0
  sa_ne : sa ≠ 0
  sb_ne : sb ≠ 0
  sg_ne : sg ≠ 0
  p_ne : p ≠ 0
  sa2 : sa ^ 2 = 1 - ca ^ 2
  sb2 : sb ^ 2 = 1 - cb ^ 2
  sg2 : sg ^ 2 = 1 - cg ^ 2
  p2 : p ^ 2 = 1 - ca ^ 2 - cb ^ 2 - cg ^ 2 + 2 * ca * cb * cg

theorem phi_sq_pos {uc : Fin 6 → ℝ} (h : NonDegenerate uc) : 0 < calc_phi_sq uc := by
  have h0 := h.det_pos
  rw [det_metric] at h0
  by_contra hn
  have : (uc 0 * uc 1 * uc 2) ^ 2 * calc_phi_sq uc ≤ 0 := mul_nonpos_of_nonneg_of_nonpos (sq_nonneg _) (not_lt.mp hn)
  linarith

theorem phi_sq_eq {uc : Fin 6 → ℝ} (h : NonDegenerate uc) : calc_phi_sq uc = calc_phi uc ^ 2 :=
  (Real.sq_sqrt (phi_sq_pos h).le).symm

theorem phi_pos {uc : Fin 6 → ℝ} (h : NonDegenerate uc) : 0 < calc_phi uc := Real.sqrt_pos.mpr (phi_sq_pos h)

theorem facts {uc : Fin 6 → ℝ} (h : NonDegenerate uc) :
    Facts (uc 0) (uc 1) (uc 2) (cos (uc 3)) (cos (uc 4)) (cos (uc 5)) (sin (uc 3)) (sin (uc 4)) (sin (uc 5))
      (calc_phi uc) := by
  have hp := phi_sq_pos h
  have e := (phi_sq_eq h).symm
  have s1 := sin_sq_add_cos_sq (uc 3)
  have s2 := sin_sq_add_cos_sq (uc 4)
  have s3 := sin_sq_add_cos_sq (uc 5)
  simp only [calc_phi_sq] at hp e
  refine ⟨h.a_pos.ne', h.b_pos.ne', h.c_pos.ne', ?_, ?_, ?_, (phi_pos h).ne', by linarith, by linarith, by linarith, e⟩
  · intro h; rw [h] at s1
    nlinarith [sq_nonneg (cos (uc 4) - cos (uc 3) * cos (uc 5)), sq_nonneg (cos (uc 4)), sq_nonneg (cos (uc 5))]
  · intro h; rw [h] at s2; nlinarith [sq_nonneg (cos (uc 3) - cos (uc 4) * cos (uc 5))]
  · intro h; rw [h] at s3; nlinarith [sq_nonneg (cos (uc 4) - cos (uc 3) * cos (uc 5))]

/-- forget where the cosines and sines come from -/
macro "gen_cell" uc:term : tactic =>
  `(tactic| (
    generalize Real.cos ($uc 3) = ca at *
    generalize Real.cos ($uc 4) = cb at *
    generalize Real.cos ($uc 5) = cg at *
    generalize Real.sin ($uc 3) = sa at *
    generalize Real.sin ($uc 4) = sb at *
    generalize Real.sin ($uc 5) = sg at *
    generalize calc_phi $uc = p at *))

/-- entry by entry: an equation between matrices of rational functions of the cell -/
macro "mat_cell" F:ident : tactic =>
  `(tactic| (
    have h1 := Facts.a_ne $F; have h2 := Facts.b_ne $F; have h3 := Facts.c_ne $F; have h4 := Facts.sa_ne $F
    have h5 := Facts.sb_ne $F; have h6 := Facts.sg_ne $F; have h7 := Facts.p_ne $F; have h8 := Facts.sa2 $F
    have h9 := Facts.sb2 $F; have h10 := Facts.sg2 $F; have h11 := Facts.p2 $F
    clear $F
    apply m_ext <;> simp [Matrix.mul_apply, Fin.sum_univ_three, Matrix.diagonal] <;> (try field_simp) <;> (try grind)))

theorem cos_arccos_of {x y : ℝ} (_hy : y ≠ 0) (h : x ^ 2 ≤ y ^ 2) : cos (arccos (x / y)) = x / y := by
  have hh : |x / y| ≤ 1 := by
    rw [abs_div]
    exact div_le_one_of_le₀ (sq_le_sq.mp h) (abs_nonneg _)
  exact cos_arccos (abs_le.mp hh).1 (abs_le.mp hh).2

theorem cos_recip {uc : Fin 6 → ℝ} (h : NonDegenerate uc) :
    cos (calc_reciprocal uc 3) = (cos (uc 4) * cos (uc 5) - cos (uc 3)) / (sin (uc 4) * sin (uc 5)) ∧
    cos (calc_reciprocal uc 4) = (cos (uc 5) * cos (uc 3) - cos (uc 4)) / (sin (uc 5) * sin (uc 3)) ∧
    cos (calc_reciprocal uc 5) = (cos (uc 3) * cos (uc 4) - cos (uc 5)) / (sin (uc 3) * sin (uc 4)) := by
  have F := facts h
  have hp := phi_sq_pos h
  have h8 := F.sa2; have h9 := F.sb2; have h10 := F.sg2
  simp only [calc_phi_sq] at hp
  unfold calc_reciprocal
  simp only [Matrix.cons_val]
  refine ⟨cos_arccos_of (mul_ne_zero F.sb_ne F.sg_ne) ?_, cos_arccos_of (mul_ne_zero F.sg_ne F.sa_ne) ?_,
    cos_arccos_of (mul_ne_zero F.sa_ne F.sb_ne) ?_⟩
  all_goals
    rw [mul_pow]; simp only [h8, h9, h10]; nlinarith

end Cryspy.Cell
