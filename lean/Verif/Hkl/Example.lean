import Verif.Hkl.Props
import Verif.Cell.DLemmas
import Mathlib.Data.List.MinMax
import Mathlib.Data.List.Sort

/-!
# The hypotheses of the theorems on reflection lists are met: P4₂ in a tetragonal cell
-/

namespace Cryspy.Hkl

open Symm Sf Real Matrix

open Classical in
/-- A way to settle the ties. -/
noncomputable def someChoices (uc : Fin 6 → ℝ) : Choices uc where
  pick l := (l.argmax label).getD 0
  pick_mem l h := by
    cases hm : l.argmax label with
    | none => exact absurd (List.argmax_eq_none.1 hm) h
    | some v => exact List.argmax_mem hm
  pick_max l v hv := by
    cases hm : l.argmax label with
    | none => rw [List.argmax_eq_none.1 hm] at hv; cases hv
    | some w => exact List.le_of_mem_argmax hv hm
  sort l := l.insertionSort fun p q => sthovl uc p.1 ≤ sthovl uc q.1
  sort_perm l := List.perm_insertionSort _ l
  sort_sorted l := by
    have : Std.Total fun p q : V3 × ℕ => sthovl uc p.1 ≤ sthovl uc q.1 := ⟨fun a b => le_total _ _⟩
    have : IsTrans (V3 × ℕ) fun p q : V3 × ℕ => sthovl uc p.1 ≤ sthovl uc q.1 := ⟨fun a b c => le_trans⟩
    exact List.pairwise_insertionSort _ l

/-- A tetragonal cell. -/
noncomputable def tetUC : Fin 6 → ℝ := ![2, 2, 5, π / 2, π / 2, π / 2]

theorem tetUC_nonDegenerate : Cell.NonDegenerate tetUC := by
  refine ⟨by norm_num [tetUC], by norm_num [tetUC], by simp [tetUC], ?_⟩
  simp [Cell.metric, tetUC, Matrix.det_fin_three]

theorem tet_good : Good exSym tetUC := by
  refine ⟨tetUC_nonDegenerate, by rw [exSym_full]; exact exG_isGroup, ?_, by simp [exSym], by simp [exSym], ?_, ?_⟩
  · rw [exSym_full]
    intro e he
    simp only [exG, List.mem_cons, List.not_mem_nil, or_false] at he
    rcases he with rfl | rfl | rfl | rfl <;> ext i j <;> fin_cases i <;> fin_cases j <;>
      simp [Matrix.mul_apply, Fin.sum_univ_three, rotR, Cell.metric, tetUC, idElem, ex4, ex2, ex43]
  · intro a ha b hb
    refine ⟨⟨fun _ => 0, 1⟩, by simp [exSym], ?_⟩
    simp only [exSym, List.mem_singleton] at ha hb
    subst ha hb
    intro k; exact ⟨0, by simp [Shift.val]⟩
  · intro e _ t ht
    refine ⟨⟨fun _ => 0, 1⟩, by simp [exSym], ?_⟩
    simp only [exSym, List.mem_singleton] at ht
    subst ht
    intro k; exact ⟨0, by simp [Shift.val]⟩

/-- The theorems apply: `sin θ/λ` up to 2 for this crystal. -/
example : Good exSym tetUC ∧ SmallBox tetUC 2 ∧ Nonempty (Choices tetUC) ∧ InRange tetUC 0 2 ![1, 0, 0] := by
  refine ⟨tet_good, by simp only [SmallBox, tetUC, Matrix.cons_val]; norm_num, ⟨someChoices _⟩, ?_, ?_⟩
  · exact sthovl_nonneg tetUC_nonDegenerate _
  · have u0 : tetUC 0 = 2 := rfl
    have c3 : cos (tetUC 3) = 0 := cos_pi_div_two
    have c4 : cos (tetUC 4) = 0 := cos_pi_div_two
    have c5 : cos (tetUC 5) = 0 := cos_pi_div_two
    have hq : Cell.invDSq (hklR ![1, 0, 0]) tetUC = 1 / 4 := by
      unfold Cell.invDSq Cell.calc_phi_sq
      simp only [hklR, Matrix.cons_val, u0, c3, c4, c5]
      norm_num
    have hs : √(1 / 4 : ℝ) = 1 / 2 := by
      rw [show (1 / 4 : ℝ) = (1 / 2) ^ 2 by norm_num]; exact sqrt_sq (by norm_num)
    unfold sthovl
    rw [Cell.calc_sthovl, Cell.calc_inv_d_eq, hq, hs]
    norm_num

end Cryspy.Hkl
