import Verif.Basin.Props

/-!
# C70: where it fails, and examples
-/

namespace Cryspy.Basin

open Symm Matrix Cell Mat Real

/-- the identity and the inversion -/
def e1 : Elem := ⟨![0, 0, 0], 1, ![![1, 0, 0], ![0, 1, 0], ![0, 0, 1]]⟩
def em : Elem := ⟨![0, 0, 0], 1, ![![-1, 0, 0], ![0, -1, 0], ![0, 0, -1]]⟩

theorem act_e1 (a : Fin 3 → ℝ) : act e1 a = a := by
  funext k
  fin_cases k <;> simp [act, e1, Fin.sum_univ_three]

theorem act_em (a : Fin 3 → ℝ) : act em a = -a := by
  funext k
  fin_cases k <;> simp [act, em, Fin.sum_univ_three]

theorem argmin_head {x : ℝ} {l : List ℝ} (h : minL (x :: l) = x) : argminL (x :: l) = 0 := by
  unfold argminL
  rw [List.findIdx_cons, h]
  simp

/-- a cubic cell with edge 1 -/
noncomputable def cube : Fin 6 → ℝ := ![1, 1, 1, π / 2, π / 2, π / 2]

theorem cube_right : RightAngled cube := ⟨rfl, rfl, rfl⟩

theorem cube_ok : NonDegenerate cube := by
  refine ⟨by simp [cube], by simp [cube], by simp [cube], ?_⟩
  rw [det_metric]
  simp [calc_phi_sq, cube]

theorem cube_len (v : Fin 3 → ℝ) : lenSq cube v = v 0 ^ 2 + v 1 ^ 2 + v 2 ^ 2 := by
  rw [lenSq_right cube_right]
  simp [cube]

theorem cube_dist {p a : Fin 3 → ℝ} {e : Elem} (h : ∀ k, |(p - act e a) k| < 1 / 2) :
    distSq cube p a e = (p 0 - act e a 0) ^ 2 + (p 1 - act e a 1) ^ 2 + (p 2 - act e a 2) ^ 2 := by
  have hz : act e a + lat 0 = act e a := by funext k; simp [lat]
  have := distSq_near cube_ok p a e 0 (by rw [hz]; exact h)
  rw [hz, cube_len] at this
  exact this

/-- two atoms and the group of the inversion -/
noncomputable def exAtoms : List (Fin 3 → ℝ) := [![-1 / 5, 0, 0], ![1 / 10, 1 / 10, 0]]
noncomputable def exPoint : Fin 3 → ℝ := ![1 / 10, 0, 0]

theorem ex_dist : distSq cube exPoint ![-1 / 5, 0, 0] e1 = 9 / 100 ∧ distSq cube exPoint ![-1 / 5, 0, 0] em = 1 / 100 ∧
    distSq cube exPoint ![1 / 10, 1 / 10, 0] e1 = 1 / 100 ∧ distSq cube exPoint ![1 / 10, 1 / 10, 0] em = 5 / 100 := by
  refine ⟨?_, ?_, ?_, ?_⟩ <;> rw [cube_dist] <;> (try simp only [act_e1, act_em]) <;>
    first
    | (intro k; fin_cases k <;> simp [exPoint] <;> norm_num [abs_lt])
    | (simp [exPoint]; norm_num)

theorem ex_closest : closest cube exAtoms [e1, em] exPoint = some (0, 0, 1 / 10) := by
  obtain ⟨h1, h2, h3, h4⟩ := ex_dist
  have a1 : minL [(9 : ℝ) / 100, 1 / 100] = 1 / 100 := by norm_num [minL]
  have a2 : minL [(1 : ℝ) / 100, 5 / 100] = 1 / 100 := by norm_num [minL]
  have a3 : minL [(1 : ℝ) / 100, 1 / 100] = 1 / 100 := by norm_num [minL]
  unfold closest exAtoms
  simp only [List.isEmpty_cons, Bool.or_self, Bool.false_eq_true, if_false, List.map_cons, List.map_nil, h1, h2, h3, h4, a1, a2, a3,
    argmin_head a3]
  congr 3
  rw [show (1 : ℝ) / 100 = (1 / 10) ^ 2 by norm_num, Real.sqrt_sq (by norm_num)]

/-- C70, defect: the atom and the operation are found separately.  With two atoms equally near the reported operation need not take the
reported atom to the reported distance: here it takes it no nearer than 0.3 while the distance is 0.1. -/
theorem pair_mismatch : ∃ (uc : Fin 6 → ℝ) (atoms : List (Fin 3 → ℝ)) (G : List Elem) (p : Fin 3 → ℝ) (i j : ℕ) (d : ℝ),
    NonDegenerate uc ∧ RightAngled uc ∧ closest uc atoms G p = some (i, j, d) ∧
      ∀ a e, atoms[i]? = some a → G[j]? = some e → ∀ n : Fin 3 → ℤ, d ^ 2 < lenSq uc (p - (act e a + lat n)) := by
  refine ⟨cube, exAtoms, [e1, em], exPoint, 0, 0, 1 / 10, cube_ok, cube_right, ex_closest, ?_⟩
  intro a e ha he n
  simp only [exAtoms, List.getElem?_cons_zero, Option.some.injEq] at ha he
  subst ha he
  rw [cube_len, act_e1]
  have h0 : (1 / 10 : ℝ) ^ 2 < (3 / 10 - (n 0 : ℝ)) ^ 2 := by
    rcases le_or_gt (n 0) 0 with h | h
    · have : (n 0 : ℝ) ≤ 0 := by exact_mod_cast h
      nlinarith
    · have : (1 : ℝ) ≤ n 0 := by exact_mod_cast h
      nlinarith
  have h1 : (exPoint - ((![-1 / 5, 0, 0] : Fin 3 → ℝ) + lat n)) 0 = 3 / 10 - (n 0 : ℝ) := by
    simp [exPoint, lat, Matrix.vecHead]; ring
  rw [h1]
  nlinarith [sq_nonneg ((exPoint - ((![-1 / 5, 0, 0] : Fin 3 → ℝ) + lat n)) 1), sq_nonneg ((exPoint - ((![-1 / 5, 0, 0] : Fin 3 → ℝ) + lat n)) 2)]

/-- a hexagonal cell -/
noncomputable def hexa : Fin 6 → ℝ := ![1, 1, 1, π / 2, π / 2, 2 * π / 3]

theorem cos_hexa : cos (2 * π / 3) = -1 / 2 := by
  rw [show 2 * π / 3 = π - π / 3 by ring, cos_pi_sub, cos_pi_div_three]
  ring

theorem hexa_ok : NonDegenerate hexa := by
  refine ⟨by simp [hexa], by simp [hexa], by simp [hexa], ?_⟩
  rw [det_metric]
  simp [calc_phi_sq, hexa, cos_hexa]
  norm_num

theorem hexa_len (v : Fin 3 → ℝ) : lenSq hexa v = v 0 ^ 2 + v 1 ^ 2 + v 2 ^ 2 - v 0 * v 1 := by
  simp [lenSq, metric, hexa, cos_hexa, dotProduct, Matrix.mulVec, Fin.sum_univ_three]
  ring

/-- C70, defect: in a hexagonal cell a position of the atom is missed: the distance found is the square root of 3/4 of an edge, and
there is one at half an edge. -/
theorem hexagonal_misses : ∃ (uc : Fin 6 → ℝ) (a p q : Fin 3 → ℝ) (i j : ℕ) (d : ℝ), NonDegenerate uc ∧
    closest uc [a] [e1] p = some (i, j, d) ∧ IsImage [e1] a q ∧ d ^ 2 = 3 / 4 ∧ lenSq uc (p - q) = 1 / 4 := by
  have hf : Int.fract (1 / 2 : ℝ) = 1 / 2 := Int.fract_eq_self.2 ⟨by norm_num, by norm_num⟩
  have hd : distSq hexa ![1 / 2, 0, 0] ![0, 1 / 2, 0] e1 = 3 / 4 := by
    rw [distSq_eq hexa hexa_ok, act_e1, hexa_len]
    simp only [Matrix.cons_val, hf, Int.fract_zero, wrap]
    norm_num
  have hc : closest hexa [![0, 1 / 2, 0]] [e1] ![1 / 2, 0, 0] = some (0, 0, Real.sqrt (3 / 4)) := by
    have a1 : minL [(3 : ℝ) / 4] = 3 / 4 := rfl
    unfold closest
    simp only [List.isEmpty_cons, Bool.or_self, Bool.false_eq_true, if_false, List.map_cons, List.map_nil, hd, a1, argmin_head a1]
  refine ⟨hexa, ![0, 1 / 2, 0], ![1 / 2, 0, 0], ![0, -1 / 2, 0], 0, 0, _, hexa_ok, hc, ⟨e1, by simp, ![0, -1, 0], ?_⟩, ?_, ?_⟩
  · rw [act_e1]
    funext k
    fin_cases k <;> simp [lat]
    norm_num
  · rw [Real.sq_sqrt (by norm_num)]
  · rw [hexa_len]
    simp
    norm_num

/-! ### The hypotheses can be met -/

example : ∃ i j d, closest cube exAtoms [e1, em] exPoint = some (i, j, d) ∧ 0 < d := ⟨0, 0, 1 / 10, ex_closest, by norm_num⟩

/-- the inversion keeps distances and permutes the positions of each atom -/
example : Isometry cube em ∧ (∀ a q, IsImage [e1, em] a q → IsImage [e1, em] a (act em q)) ∧
    ∀ a q, IsImage [e1, em] a q → ∃ q', IsImage [e1, em] a q' ∧ act em q' = q := by
  have hinv : ∀ a q, IsImage [e1, em] a q → IsImage [e1, em] a (act em q) := by
    rintro a q ⟨e, he, n, rfl⟩
    simp only [List.mem_cons, List.not_mem_nil, or_false] at he
    rcases he with rfl | rfl
    · refine ⟨em, by simp, -n, ?_⟩
      rw [act_em, act_e1, act_em]
      funext k; simp [lat]; ring
    · refine ⟨e1, by simp, -n, ?_⟩
      rw [act_em, act_em, act_e1]
      funext k; simp [lat]; ring
  refine ⟨?_, hinv, ?_⟩
  · intro p q
    rw [cube_len, cube_len, act_em, act_em]
    simp
    ring
  · intro a q hq
    exact ⟨act em q, hinv a q hq, by simp [act_em]⟩

/-- only one atom is near -/
example : ∃ i j d, closest cube [exPoint] [e1, em] exPoint = some (i, j, d) :=
  closest_total cube exPoint (by simp) (by simp)

end Cryspy.Basin
