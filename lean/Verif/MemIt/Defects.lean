import Verif.MemIt.Gradient

/-!
# C67, C68: concrete runs, and what fails
-/

namespace Cryspy.MemIt

open Cryspy.Flip

/-! ### the derivative ignores extinction -/

/-- one point, one reflection with N = 1, the field along z, the magnetic structure factor equal to the density, the measured ratio `v`, the
extinction `y` -/
def single (y : ℝ → ℝ) (v : ℝ) : Exp 1 0 where
  asymmetry := false
  magPlus := 1
  magMinus := 0
  refl := [⟨1, 1, 1, 0, ![0, 0, 1], y, v, 1, fun k _ => ![0, 0, 1] k, fun _ _ => 0, fun _ i => i.elim0, fun _ i => i.elim0⟩]

def at0 : Den 1 0 := ⟨fun _ => 0, fun _ => 0, fun i => i.elim0⟩
def along : Den 1 0 := ⟨fun _ => 1, fun _ => 0, fun i => i.elim0⟩

theorem single_gof (y : ℝ → ℝ) (v t : ℝ) :
    gof (single y v) (at0.move along t) = (v - y ((1 + t) ^ 2) * (1 + t) ^ 2 / (y ((1 - t) ^ 2) * (1 - t) ^ 2)) ^ 2 := by
  have e1 : ∀ r ∈ (single y v).refl, fRe (single y v) (at0.move along t) r = ![0, 0, t] := by
    intro r hr
    simp only [single, List.mem_cons, List.not_mem_nil, or_false] at hr
    subst hr
    funext k
    fin_cases k <;> simp [fRe, Den.move, at0, along, single]
  have e2 : ∀ r ∈ (single y v).refl, fIm (single y v) (at0.move along t) r = ![0, 0, 0] := by
    intro r hr
    simp only [single, List.mem_cons, List.not_mem_nil, or_false] at hr
    subst hr
    funext k
    fin_cases k <;> simp [fIm, Den.move, at0, along, single]
  have h := e1 _ (List.mem_cons_self ..)
  have h' := e2 _ (List.mem_cons_self ..)
  simp only [single] at h h'
  unfold gof model iPlus iMinus measured
  simp only [single, Bool.false_eq_true, if_false, List.map_cons, List.map_nil, List.sum_cons, List.sum_nil, h, h', flip_ratio, calc_iint_plus, calc_iint_minus,
    List.length_cons, List.length_nil, Matrix.cons_val]
  norm_num
  rw [show ∀ a b : ℝ, 1 / 2 * (2 * a * b) = a * b from fun a b => by ring, show ∀ a b : ℝ, 1 / 2 * (2 * a * b) = a * b from fun a b => by ring]

theorem single_grad (y : ℝ → ℝ) (v : ℝ) (h : y 1 ≠ 0) : (grad (single y v) at0).dot along = -2 * (v - 1) * 4 := by
  have e1 : ∀ r ∈ (single y v).refl, fRe (single y v) at0 r = ![0, 0, 0] := by
    intro r hr
    simp only [single, List.mem_cons, List.not_mem_nil, or_false] at hr
    subst hr
    funext k
    fin_cases k <;> simp [fRe, at0, single]
  have e2 : ∀ r ∈ (single y v).refl, fIm (single y v) at0 r = ![0, 0, 0] := by
    intro r hr
    simp only [single, List.mem_cons, List.not_mem_nil, or_false] at hr
    subst hr
    funext k
    fin_cases k <;> simp [fIm, at0, single]
  have h1 := e1 _ (List.mem_cons_self ..)
  have h2 := e2 _ (List.mem_cons_self ..)
  simp only [single] at h1 h2
  unfold Den.dot grad dCol wRe wIm dModel model iPlus iMinus measured
  simp only [single, Bool.false_eq_true, if_false, List.map_cons, List.map_nil, List.sum_cons, List.sum_nil, h1, h2, flip_ratio, calc_iint_plus, calc_iint_minus,
    d_flip_ratio_plus, d_flip_ratio_minus, d_plus_f_m_perp_real, d_minus_f_m_perp_real, Fin.sum_univ_three, along,
    List.length_cons, List.length_nil, Matrix.cons_val]
  norm_num
  field_simp
  ring

/-- defect: with extinction the derivative is not the gradient (here it is exactly when the extinction does not change with F²) -/
theorem grad_extinction_iff {y : ℝ → ℝ} {y' v : ℝ} (hy : HasDerivAt y y' 1) (h : y 1 ≠ 0) (hv : v ≠ 1) :
    HasDerivAt (fun t => gof (single y v) (at0.move along t)) ((grad (single y v) at0).dot along) 0 ↔ y' = 0 := by
  have hp : HasDerivAt (fun t : ℝ => (1 + t) ^ 2) 2 0 := by
    have := ((hasDerivAt_id' (0 : ℝ)).const_add 1).fun_pow 2
    exact this.congr_deriv (by norm_num)
  have hm : HasDerivAt (fun t : ℝ => (1 - t) ^ 2) (-2) 0 := by
    have := ((hasDerivAt_id' (0 : ℝ)).const_sub 1).fun_pow 2
    exact this.congr_deriv (by norm_num)
  have yp : HasDerivAt (fun t : ℝ => y ((1 + t) ^ 2)) (y' * 2) 0 := hasDerivAt_comp' (f := fun t : ℝ => (1 + t) ^ 2) (by simpa using hy) hp
  have ym : HasDerivAt (fun t : ℝ => y ((1 - t) ^ 2)) (y' * -2) 0 := hasDerivAt_comp' (f := fun t : ℝ => (1 - t) ^ 2) (by simpa using hy) hm
  have d := ((((yp.fun_mul hp).fun_div (ym.fun_mul hm) (by simpa using h)).const_sub v).fun_pow 2)
  have d' : HasDerivAt (fun t => gof (single y v) (at0.move along t)) (-2 * (v - 1) * (4 + 4 * y' / y 1)) 0 := by
    simp only [single_gof]
    refine d.congr_deriv ?_
    norm_num
    field_simp
    ring
  rw [single_grad y v h]
  constructor
  · intro hh
    have := hh.unique d'
    have hv' : v - 1 ≠ 0 := sub_ne_zero.2 hv
    have h4 : (4 : ℝ) = 4 + 4 * y' / y 1 := mul_left_cancel₀ (mul_ne_zero (by norm_num) hv') this
    have h5 : 4 * y' / y 1 = 0 := by linarith
    rw [div_eq_zero_iff] at h5
    rcases h5 with h5 | h5
    · linarith
    · exact absurd h5 h
  · rintro rfl
    simpa using d'

/-! ### the stored flip ratios are those of the last trial -/

/-- defect: the flip ratios handed over can belong to a density that was rejected.  A run of two steps in which the second trial is worse. -/
theorem flips_wrong : ∃ (T : Task ℝ Unit) (prior lam : ℝ) (r : Result ℝ), reconstruct T prior () lam = some r ∧ r.best ≠ r.flips ∧ gt (T.value r.flips) r.c := by
  refine ⟨⟨fun x => some ((x : ℝ) : WithTop ℝ), fun _ => (), fun _ d _ => d + 1, -1, 0, 2⟩, 0, 1, ?_⟩
  obtain ⟨k, h1, h2, h3, e⟩ := reconstruct_spec (⟨fun x => some ((x : ℝ) : WithTop ℝ), fun _ => (), fun _ d _ => d + 1, -1, 0, 2⟩ : Task ℝ Unit) 0 () 1
  have n0 : ¬ Ends (⟨fun x => some ((x : ℝ) : WithTop ℝ), fun _ => (), fun _ d _ => d + 1, -1, 0, 2⟩ : Task ℝ Unit) 0 1 0 := by
    unfold Ends
    simp only [trial, le]
    push Not
    refine ⟨by norm_num, by norm_num, ?_⟩
    exact WithTop.coe_lt_coe.2 (by norm_num)
  have hk : k = 1 := by
    simp only at h3
    rcases Nat.eq_zero_or_pos k with rfl | h
    · exact absurd h1 n0
    · omega
  subst hk
  have g1 : gt (some (((0 : ℝ) + 1 : ℝ) : WithTop ℝ)) (some ((0 : ℝ) : WithTop ℝ)) := WithTop.coe_lt_coe.2 (by norm_num)
  have ht : trial (⟨fun x => some ((x : ℝ) : WithTop ℝ), fun _ => (), fun _ d _ => d + 1, -1, 0, 2⟩ : Task ℝ Unit) 0 1 1 = ⟨0 + 1, 0, 1 / 2 * (103 / 100 * 1)⟩ := by
    rw [trial, trial]
    dsimp only
    rw [if_pos g1]
  rw [ht] at e
  refine ⟨_, e, ?_, g1⟩
  norm_num

/-! ### non-vacuity -/

/-- a grid of one point -/
def oneGrid : Grid 1 0 := ⟨fun _ => 1, fun i => i.elim0, fun i => i.elim0, fun i => i.elim0, 1, 1, 0⟩

example : oneGrid.Good := ⟨by norm_num [oneGrid], by norm_num [oneGrid], fun _ => by norm_num [oneGrid], fun i => i.elim0, fun i => i.elim0⟩

example : Proper oneGrid ⟨fun _ => 1, fun _ => 1, fun i => i.elim0⟩ :=
  ⟨fun _ => zero_le_one, fun _ => zero_le_one, fun i => i.elim0, fun _ => by simp [oneGrid], fun _ => by simp [oneGrid],
    fun _ _ h => h.elim fun i _ => i.elim0⟩

example : NoExtinction (single (fun _ => 1) 2) ∧ Regular (single (fun _ => 1) 2) at0 := by
  constructor
  · intro r hr
    simp only [single, List.mem_cons, List.not_mem_nil, or_false] at hr
    subst hr
    exact ⟨by simp [IsUnit3, Matrix.cons_val], fun s _ => hasDerivAt_const s 1⟩
  · refine ⟨by simp [single], fun r hr => ?_⟩
    simp only [single, List.mem_cons, List.not_mem_nil, or_false] at hr
    subst hr
    refine ⟨by norm_num [measured, single], ?_⟩
    have e1 : fRe (single (fun _ => 1) 2) at0 (⟨1, 1, 1, 0, ![0, 0, 1], fun _ => 1, 2, 1, fun k _ => ![0, 0, 1] k, fun _ _ => 0, fun _ i => i.elim0, fun _ i => i.elim0⟩) =
      fun _ => 0 := by funext k; simp [fRe, at0]
    have e2 : fIm (single (fun _ => 1) 2) at0 (⟨1, 1, 1, 0, ![0, 0, 1], fun _ => 1, 2, 1, fun k _ => ![0, 0, 1] k, fun _ _ => 0, fun _ i => i.elim0, fun _ i => i.elim0⟩) =
      fun _ => 0 := by funext k; simp [fIm, at0]
    have e3 : (single (fun _ => 1) 2).asymmetry = false := rfl
    rw [e3, if_neg (by simp)]
    unfold iMinus
    rw [e1, e2]
    norm_num [calc_iint_minus]

end Cryspy.MemIt
