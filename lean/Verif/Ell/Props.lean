import Verif.Ell.Model
import Verif.Cell.Props
import Mathlib.LinearAlgebra.Matrix.DotProduct

/-!
# C86: the report on magnetization ellipsoids
-/

namespace Cryspy.Ell

open Mat Cell Real

theorem chiCcs_eq (chi : Fin 6 → ℝ) : chiCcs chi = toQ chi := rfl

theorem qCcs_eq (chi : Fin 6 → ℝ) : qCcs chi = toQ chi * toQ chi := by
  rw [← calc_q_sq_spec]
  rfl

theorem sq_mulVec (chi : Fin 6 → ℝ) (v : Fin 3 → ℝ) :
    (qCcs chi).mulVec v = (toQ chi).mulVec ((toQ chi).mulVec v) := by
  rw [qCcs_eq, Matrix.mulVec_mulVec]

theorem toQ_symm (q : Fin 6 → ℝ) : (toQ q).transpose = toQ q := by
  apply m_ext <;> simp [toQ]

/-- The reciprocal metric of unit edges is `Bₙᵀ Bₙ`. -/
theorem g_norm_of_b (uc : Fin 6 → ℝ) (h : NonDegenerate uc) :
    toQ (calc_m_reciprocal_g_norm uc) = (toM (calc_m_b_norm uc)).transpose * toM (calc_m_b_norm uc) := by
  have F := facts h
  unfold calc_m_reciprocal_g_norm calc_m_b_norm toM toQ
  dsimp only
  gen_cell uc
  mat_cell F

/-- The reported numbers as a matrix: `Bₙᵀ χ² Bₙ`. -/
theorem ellipsoidU_eq (chi uc : Fin 6 → ℝ) (h : NonDegenerate uc) :
    toQ (ellipsoidU chi uc) =
      (toM (calc_m_b_norm uc)).transpose * (toQ chi * toQ chi) * toM (calc_m_b_norm uc) := by
  have hb := (m_b_norm_spec uc h).2
  have hb' : toM (calc_m_inv_b_norm uc) * toM (calc_m_b_norm uc) = 1 := mul_eq_one_comm.mp hb
  have hdet : (toM (calc_m_inv_b_norm uc)).det ≠ 0 := by
    intro h0
    have := congrArg Matrix.det hb
    rw [Matrix.det_mul, h0, mul_zero, Matrix.det_one] at this
    exact zero_ne_one this
  have hinv : (toM (calc_m_inv_b_norm uc))⁻¹ = toM (calc_m_b_norm uc) := Matrix.inv_eq_right_inv hb'
  unfold ellipsoidU
  dsimp only
  rw [calc_mt_q_m_spec, calc_m_q_inv_m_spec _ _ hdet, hinv, g_norm_of_b uc h]
  generalize toM (calc_m_b_norm uc) = B at *
  generalize toM (calc_m_inv_b_norm uc) = C at *
  have hs := toQ_symm chi
  generalize toQ chi = Q at *
  have hbt : C.transpose * B.transpose = 1 := by rw [← Matrix.transpose_mul, hb, Matrix.transpose_one]
  calc (C * Q * B).transpose * (B.transpose * B) * (C * Q * B)
      = B.transpose * Q.transpose * (C.transpose * B.transpose) * (B * C) * Q * B := by
        rw [Matrix.transpose_mul, Matrix.transpose_mul]
        simp only [Matrix.mul_assoc]
    _ = B.transpose * (Q * Q) * B := by
        rw [hbt, hb, hs, Matrix.mul_one, Matrix.mul_one]
        simp only [Matrix.mul_assoc]

/-- **C86**: the reported ellipsoid, read as displacement parameters, gives for every scattering vector
`q = h a* + k b* + l c*` (in the orthogonal axes) the exponent `Σ U_ij h_i a*_i h_j a*_j`; this is the square
of the moment that a field `q` induces. -/
theorem ellipsoid_shows_moment (chi uc : Fin 6 → ℝ) (h : NonDegenerate uc) (hkl : Fin 3 → ℝ) :
    ((edges (calc_reciprocal uc)).mulVec hkl) ⬝ᵥ (toQ (ellipsoidU chi uc)).mulVec ((edges (calc_reciprocal uc)).mulVec hkl)
      = (toQ chi).mulVec ((toM (calc_m_b uc)).mulVec hkl) ⬝ᵥ (toQ chi).mulVec ((toM (calc_m_b uc)).mulVec hkl) := by
  rw [ellipsoidU_eq chi uc h, ← (m_b_norm_spec uc h).1]
  have hs := toQ_symm chi
  generalize toM (calc_m_b_norm uc) = B
  generalize edges (calc_reciprocal uc) = E
  generalize toQ chi = Q at *
  rw [← Matrix.mulVec_mulVec (M := B) (N := E)]
  generalize E.mulVec hkl = v
  rw [← Matrix.mulVec_mulVec, ← Matrix.mulVec_mulVec, Matrix.dotProduct_mulVec, Matrix.vecMul_transpose,
    ← Matrix.mulVec_mulVec, Matrix.dotProduct_mulVec (v := B.mulVec v) (A := Q)]
  congr 1
  rw [← Matrix.mulVec_transpose, hs]

theorem val_nonneg (chi : Fin 6 → ℝ) (e : Eigh (qCcs chi)) (i : Fin 3) :
    e.val i = (toQ chi).mulVec (e.vec i) ⬝ᵥ (toQ chi).mulVec (e.vec i) ∧ 0 ≤ e.val i := by
  have hv : e.val i = (toQ chi).mulVec (e.vec i) ⬝ᵥ (toQ chi).mulVec (e.vec i) := by
    have h1 := e.eig i
    rw [sq_mulVec] at h1
    have h2 : e.vec i ⬝ᵥ (toQ chi).mulVec ((toQ chi).mulVec (e.vec i)) = e.val i := by
      rw [h1, dotProduct_smul, e.ortho i i]; simp
    rw [Matrix.dotProduct_mulVec, ← Matrix.mulVec_transpose, toQ_symm] at h2
    exact h2.symm
  refine ⟨hv, ?_⟩
  rw [hv]
  simp only [dotProduct]
  exact Finset.sum_nonneg fun k _ => mul_self_nonneg _

/-- **C86**: the size of a moment of the report is the size of the moment that a unit field along the axis
induces; the axes are perpendicular unit vectors. -/
theorem moment_size (chi : Fin 6 → ℝ) (e : Eigh (qCcs chi)) (i : Fin 3) :
    moment chi e i ^ 2 = (toQ chi).mulVec (e.vec i) ⬝ᵥ (toQ chi).mulVec (e.vec i)
      ∧ (e.vec i ⬝ᵥ e.vec i = 1) ∧ ∀ j, j ≠ i → e.vec i ⬝ᵥ e.vec j = 0 := by
  obtain ⟨hv, hnn⟩ := val_nonneg chi e i
  refine ⟨?_, by rw [e.ortho]; simp, fun j hj => by rw [e.ortho, if_neg hj.symm]⟩
  rw [← hv]
  unfold moment
  rw [mul_pow, Real.sq_sqrt hnn]
  split_ifs <;> norm_num

/-- The tensor has two opposite non-zero eigenvalues. -/
def Opposite (q : Matrix (Fin 3) (Fin 3) ℝ) : Prop :=
  ∃ c : ℝ, c ≠ 0 ∧ (∃ u, u ≠ 0 ∧ q.mulVec u = c • u) ∧ ∃ v, v ≠ 0 ∧ q.mulVec v = (-c) • v

/-- **C86**: unless the tensor has two opposite eigenvalues, the axes of the report are the principal axes
of the tensor and the moments are the principal values, with their signs. -/
theorem principal_axes (chi : Fin 6 → ℝ) (hn : ¬ Opposite (toQ chi)) (e : Eigh (qCcs chi)) (i : Fin 3) :
    (toQ chi).mulVec (e.vec i) = moment chi e i • e.vec i := by
  obtain ⟨hv, hnn⟩ := val_nonneg chi e i
  have hsq : (toQ chi).mulVec ((toQ chi).mulVec (e.vec i)) = e.val i • e.vec i := by
    have h1 := e.eig i
    rwa [sq_mulVec] at h1
  have hself : e.vec i ⬝ᵥ e.vec i = 1 := by rw [e.ortho]; simp
  by_cases h0 : e.val i = 0
  · have hz : (toQ chi).mulVec (e.vec i) = 0 := by
      rw [h0] at hv
      exact dotProduct_self_eq_zero.1 hv.symm
    rw [hz]
    unfold moment
    rw [h0, Real.sqrt_zero, zero_mul, zero_smul]
  · have hpos : 0 < e.val i := lt_of_le_of_ne hnn (Ne.symm h0)
    have hr := Real.sqrt_pos.2 hpos
    have hrr : Real.sqrt (e.val i) * Real.sqrt (e.val i) = e.val i := Real.mul_self_sqrt hnn
    unfold moment eigMoment
    rw [chiCcs_eq]
    generalize Real.sqrt (e.val i) = r at *
    generalize e.val i = x at *
    generalize e.vec i = v at *
    generalize toQ chi = Q at *
    have hw : Q.mulVec (Q.mulVec v + r • v) = r • (Q.mulVec v + r • v) := by
      rw [Matrix.mulVec_add, Matrix.mulVec_smul, hsq, ← hrr, smul_add, smul_smul]
      exact add_comm _ _
    have hu : Q.mulVec (Q.mulVec v - r • v) = (-r) • (Q.mulVec v - r • v) := by
      rw [Matrix.mulVec_sub, Matrix.mulVec_smul, hsq, ← hrr, smul_sub, smul_smul, neg_smul, neg_mul, neg_smul]
      abel
    by_cases h1 : Q.mulVec v - r • v = 0
    · have hq : Q.mulVec v = r • v := sub_eq_zero.1 h1
      rw [hq, dotProduct_smul, hself, smul_eq_mul, mul_one, if_pos hr.le]
      norm_num
    · have h2 : Q.mulVec v + r • v = 0 := by
        by_contra hne
        exact hn ⟨r, hr.ne', ⟨_, hne, hw⟩, ⟨_, h1, hu⟩⟩
      have hq : Q.mulVec v = (-r) • v := by rw [neg_smul]; exact eq_neg_of_add_eq_zero_left h2
      rw [hq, dotProduct_smul, hself, smul_eq_mul, mul_one, if_neg (by linarith)]
      norm_num

/-- **C86**: for a tensor without negative principal values (a field never induces an opposite moment) the
axes are the principal ones and the moments are not negative. -/
theorem principal_axes_of_nonneg (chi : Fin 6 → ℝ) (hp : ∀ v, 0 ≤ v ⬝ᵥ (toQ chi).mulVec v)
    (e : Eigh (qCcs chi)) (i : Fin 3) :
    (toQ chi).mulVec (e.vec i) = moment chi e i • e.vec i ∧ 0 ≤ moment chi e i := by
  have hn : ¬ Opposite (toQ chi) := by
    rintro ⟨c, hc, ⟨u, hu, h1⟩, ⟨v, hv, h2⟩⟩
    have a := hp u
    have b := hp v
    rw [h1, dotProduct_smul, smul_eq_mul] at a
    rw [h2, dotProduct_smul, smul_eq_mul] at b
    have pu : 0 < u ⬝ᵥ u := lt_of_le_of_ne (Finset.sum_nonneg fun k _ => mul_self_nonneg _)
      (fun hh => hu (dotProduct_self_eq_zero.1 hh.symm))
    have pv : 0 < v ⬝ᵥ v := lt_of_le_of_ne (Finset.sum_nonneg fun k _ => mul_self_nonneg _)
      (fun hh => hv (dotProduct_self_eq_zero.1 hh.symm))
    rcases lt_or_gt_of_ne hc with h | h <;> nlinarith
  refine ⟨principal_axes chi hn e i, ?_⟩
  unfold moment eigMoment
  rw [chiCcs_eq, if_pos (hp _)]
  have := Real.sqrt_nonneg (e.val i)
  linarith

/-- A tensor with the principal values `5`, `-5` and `6`. -/
def oppChi : Fin 6 → ℝ := ![3, -3, 6, 4, 0, 0]

/-- Its square is diagonal, and the coordinate axes are what `eigh` may return (and returns for a diagonal
matrix). -/
noncomputable def oppEigh : Eigh (qCcs oppChi) where
  val := ![25, 25, 36]
  vec := fun i => Pi.single i 1
  ortho := by
    intro i j
    rw [single_dotProduct, one_mul, Pi.single_apply]
  eig := by
    intro i
    rw [qCcs_eq]
    funext k
    revert i k
    apply fin3 <;> apply fin3 <;>
      simp [toQ, oppChi, Matrix.mulVec, dotProduct, Fin.sum_univ_three, Matrix.mul_apply] <;> norm_num
  mono := by
    apply fin3 <;> apply fin3 <;> intro h <;> simp at h ⊢ <;> norm_num

/-- **C86, failure**: for this tensor the report gives the coordinate axes with the moments `5`, `-5`, `6`, but
the first coordinate axis is not a principal axis: the moment induced along it is not along the axis. -/
theorem opposite_values_wrong :
    moment oppChi oppEigh 0 = 5 ∧ moment oppChi oppEigh 1 = -5 ∧ moment oppChi oppEigh 2 = 6
      ∧ (∀ c : ℝ, (toQ oppChi).mulVec (oppEigh.vec 0) ≠ c • oppEigh.vec 0)
      ∧ Opposite (toQ oppChi) := by
  have r25 : Real.sqrt 25 = 5 := by rw [show (25 : ℝ) = 5 ^ 2 by norm_num]; exact Real.sqrt_sq (by norm_num)
  have r36 : Real.sqrt 36 = 6 := by rw [show (36 : ℝ) = 6 ^ 2 by norm_num]; exact Real.sqrt_sq (by norm_num)
  have e0 : oppEigh.vec 0 ⬝ᵥ eigMoment oppChi oppEigh 0 = 3 := by
    simp [oppEigh, eigMoment, chiCcs, oppChi]
  have e1 : oppEigh.vec 1 ⬝ᵥ eigMoment oppChi oppEigh 1 = -3 := by
    simp [oppEigh, eigMoment, chiCcs, oppChi]
  have e2 : oppEigh.vec 2 ⬝ᵥ eigMoment oppChi oppEigh 2 = 6 := by
    simp [oppEigh, eigMoment, chiCcs, oppChi]
  refine ⟨?_, ?_, ?_, ?_, ?_⟩
  · unfold moment
    rw [e0, show oppEigh.val 0 = 25 from rfl, r25, if_pos (by norm_num)]
    norm_num
  · unfold moment
    rw [e1, show oppEigh.val 1 = 25 from rfl, r25, if_neg (by norm_num)]
    norm_num
  · unfold moment
    rw [e2, show oppEigh.val 2 = 36 from rfl, r36, if_pos (by norm_num)]
    norm_num
  · intro c hc
    have := congrFun hc 1
    simp [oppEigh, toQ, oppChi] at this
  · refine ⟨5, by norm_num, ⟨![2, 1, 0], ?_, ?_⟩, ⟨![-1, 2, 0], ?_, ?_⟩⟩
    · intro hh
      have := congrFun hh 1
      simp at this
    · funext k
      revert k
      apply fin3 <;> simp [toQ, oppChi, Matrix.mulVec, dotProduct, Fin.sum_univ_three] <;> norm_num
    · intro hh
      have := congrFun hh 1
      simp at this
    · funext k
      revert k
      apply fin3 <;> simp [toQ, oppChi, Matrix.mulVec, dotProduct, Fin.sum_univ_three] <;> norm_num

/-- The sorted numbers are the numbers in ascending order. -/
theorem sort3_spec (v : Fin 3 → ℝ) :
    ∃ a b c, sort3 v = [a, b, c] ∧ a ≤ b ∧ b ≤ c ∧ [a, b, c].Perm [v 0, v 1, v 2] := by
  have hp : (sort3 v).Perm [v 0, v 1, v 2] := List.mergeSort_perm _ _
  have hs : (sort3 v).Pairwise fun a b => decide (a ≤ b) = true :=
    List.pairwise_mergeSort (fun a b c h1 h2 => by simp at *; exact le_trans h1 h2)
      (fun a b => by simpa using le_total a b) _
  have hl := hp.length_eq
  match hh : sort3 v with
  | [a, b, c] =>
    rw [hh] at hs hp
    simp only [List.pairwise_cons, List.mem_cons, List.not_mem_nil, or_false, forall_eq_or_imp, forall_eq,
      decide_eq_true_eq] at hs
    exact ⟨a, b, c, rfl, hs.1.1, hs.2.1, hp⟩
  | [] | [_] | [_, _] | _ :: _ :: _ :: _ :: _ => rw [hh] at hl; simp at hl

/-- **C86**: the ellipsoid factor does not depend on the order of the moments; for positive moments
`a ≤ b ≤ c` it is `a/b - b/c`, which is between `-1` and `1`. -/
theorem ellipsoidFactor_spec (v : Fin 3 → ℝ) (hv : ∀ i, 0 < v i) :
    ∃ a b c, [a, b, c].Perm [v 0, v 1, v 2] ∧ a ≤ b ∧ b ≤ c ∧ ellipsoidFactor v = a / b - b / c
      ∧ -1 < ellipsoidFactor v ∧ ellipsoidFactor v < 1 := by
  obtain ⟨a, b, c, hs, hab, hbc, hp⟩ := sort3_spec v
  have hpos : ∀ x ∈ [a, b, c], 0 < x := by
    intro x hx
    have := hp.subset hx
    simp only [List.mem_cons, List.not_mem_nil, or_false] at this
    rcases this with rfl | rfl | rfl <;> exact hv _
  have ha := hpos a (by simp)
  have hb := hpos b (by simp)
  have hc := hpos c (by simp)
  have he : ellipsoidFactor v = a / b - b / c := by
    unfold ellipsoidFactor
    rw [hs]
    simp [hb.ne', hc.ne']
  have h1 : a / b ≤ 1 := (div_le_one hb).2 hab
  have h2 : b / c ≤ 1 := (div_le_one hc).2 hbc
  have h3 : 0 < a / b := div_pos ha hb
  have h4 : 0 < b / c := div_pos hb hc
  exact ⟨a, b, c, hp, hab, hbc, he, by rw [he]; linarith, by rw [he]; linarith⟩

/-- **C86**: the factor depends only on the moments, not on their order. -/
theorem ellipsoidFactor_order (v w : Fin 3 → ℝ) (h : [v 0, v 1, v 2].Perm [w 0, w 1, w 2]) :
    ellipsoidFactor v = ellipsoidFactor w := by
  have : sort3 v = sort3 w := by
    obtain ⟨a, b, c, hs, hab, hbc, hp⟩ := sort3_spec v
    obtain ⟨a', b', c', hs', hab', hbc', hp'⟩ := sort3_spec w
    rw [hs, hs']
    refine List.Perm.eq_of_pairwise (le := fun x y : ℝ => x ≤ y) (fun x y _ _ h1 h2 => le_antisymm h1 h2) ?_ ?_ (hp.trans (h.trans hp'.symm))
    · simp [hab, hbc, hab.trans hbc]
    · simp [hab', hbc', hab'.trans hbc']
  unfold ellipsoidFactor
  rw [this]

/-- **C86, failure**: with a negative moment the factor is not between `-1` and `1`. -/
theorem factor_of_negative : ellipsoidFactor ![-3, 1, 2] = -7 / 2 := by
  have hs : sort3 ![-3, 1, 2] = [-3, 1, 2] := by
    unfold sort3
    apply List.mergeSort_of_pairwise
    simp only [List.pairwise_cons, List.mem_cons, List.not_mem_nil, or_false, forall_eq_or_imp, forall_eq,
      decide_eq_true_eq]
    refine ⟨⟨?_, ?_⟩, ?_, ?_⟩ <;> simp [Matrix.cons_val] <;> norm_num
  unfold ellipsoidFactor
  rw [hs]
  norm_num

/-- **C86, failure**: the method of the crystal that gives the main axes raises for every crystal with
susceptibilities: four lists are assigned to three names. -/
theorem crystal_main_axes_raises {α : Type} (a b c d : α) : crystalMainAxes a b c d = .error "ValueError" := rfl

/-- An isotropic tensor: no opposite values. -/
example : ∀ v : Fin 3 → ℝ, 0 ≤ v ⬝ᵥ (toQ (![2, 2, 2, 0, 0, 0] : Fin 6 → ℝ)).mulVec v := by
  intro v
  simp [toQ, Matrix.mulVec, dotProduct, Fin.sum_univ_three]
  nlinarith [mul_self_nonneg (v 0), mul_self_nonneg (v 1), mul_self_nonneg (v 2)]

example : NonDegenerate exUC := exUC_nonDegenerate

end Cryspy.Ell
