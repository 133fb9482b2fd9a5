import Verif.Cell.DProps
import Mathlib.LinearAlgebra.Matrix.NonsingularInverse
import Mathlib.LinearAlgebra.Matrix.DotProduct

/-!
# C79: the cell object

`Cell` (C_item_loop_classes/cl_1_cell.py) has its own matrices, positions, directions and distances.
-/

namespace Cryspy.Cell

open Real Matrix Cryspy.Mat

/-- lengths and angles in degrees, as the object holds them, with the angles in radians: `float(self.angle_alpha)*rad`, cl_1_cell.py:163-170 -/
noncomputable def rads (p : Fin 6 → ℝ) : Fin 6 → ℝ := ![p 0, p 1, p 2, p 3 * (π / 180), p 4 * (π / 180), p 5 * (π / 180)]

/-- What `Cell.form_object` stores (the sines and cosines apart), cl_1_cell.py:158-253. -/
structure Obj where
  volume : ℝ
  mG : Matrix (Fin 3) (Fin 3) ℝ
  mMnorm : Matrix (Fin 3) (Fin 3) ℝ
  /-- `reciprocal_length_a`, `_b`, `_c`, `reciprocal_angle_alpha`, `_beta`, `_gamma` -/
  recip : Fin 6 → ℝ
  mGrec : Matrix (Fin 3) (Fin 3) ℝ
  mBnorm : Matrix (Fin 3) (Fin 3) ℝ
  mB : Matrix (Fin 3) (Fin 3) ℝ
  mM : Matrix (Fin 3) (Fin 3) ℝ
  cosines : Fin 3 → ℝ
  rcosines : Fin 3 → ℝ

/-- `Cell.form_object`, cl_1_cell.py:158-253. -/
noncomputable def object (p : Fin 6 → ℝ) : Obj :=
  let rad : ℝ := π / 180
  let c_a := cos (p 3 * rad)
  let c_b := cos (p 4 * rad)
  let c_g := cos (p 5 * rad)
  let s_a := sin (p 3 * rad)
  let s_b := sin (p 4 * rad)
  let s_g := sin (p 5 * rad)
  let a := p 0
  let b := p 1
  let c := p 2
  let v_sqrt := √(1 - c_a ^ 2 - c_b ^ 2 - c_g ^ 2 + 2 * c_a * c_b * c_g)
  let vol := a * b * c * v_sqrt
  let irad : ℝ := 180 / π
  let ialpha := arccos ((c_b * c_g - c_a) / (s_b * s_g)) * irad
  let ibeta := arccos ((c_g * c_a - c_b) / (s_g * s_a)) * irad
  let igamma := arccos ((c_a * c_b - c_g) / (s_a * s_b)) * irad
  let ia := b * c * s_a / vol
  let ib := c * a * s_b / vol
  let ic := a * b * s_g / vol
  let c_ia := cos (ialpha * rad)
  let c_ib := cos (ibeta * rad)
  let c_ig := cos (igamma * rad)
  let s_ib := sin (ibeta * rad)
  let s_ig := sin (igamma * rad)
  { volume := vol
    mG := !![a * a, a * b * c_g, a * c * c_b; a * b * c_g, b * b, b * c * c_a; a * c * c_b, b * c * c_a, c * c]
    mMnorm := !![v_sqrt / s_a, 0, 0; (c_g - c_a * c_b) / s_a, s_a, 0; c_b, c_a, 1]
    recip := ![ia, ib, ic, ialpha, ibeta, igamma]
    mGrec := !![ia * ia, ia * ib * c_ig, ia * ic * c_ib; ia * ib * c_ig, ib * ib, ib * ic * c_ia; ia * ic * c_ib, ib * ic * c_ia, ic * ic]
    mBnorm := !![1, c_ig, c_ib; 0, s_ig, -s_ib * c_a; 0, 0, v_sqrt / s_g]
    mB := !![ia, ib * c_ig, ic * c_ib; 0, ib * s_ig, -ic * s_ib * c_a; 0, 0, 1 / c]
    mM := !![1 / ia, 0, 0; -1 * a * s_b * c_ig, b * s_a, 0; a * c_b, b * c_a, c]
    cosines := ![c_a, c_b, c_g]
    rcosines := ![c_ia, c_ib, c_ig] }

/-- `Cell.calc_position_by_coordinate`, cl_1_cell.py:461-470. -/
noncomputable def Obj.position (o : Obj) (x : Fin 3 → ℝ) : Fin 3 → ℝ := o.mM *ᵥ x

/-- `Cell.calc_coordinate_by_position`, cl_1_cell.py:472-482 (`numpy.linalg.inv`). -/
noncomputable def Obj.coordinate (o : Obj) (p : Fin 3 → ℝ) : Fin 3 → ℝ := o.mM⁻¹ *ᵥ p

/-- `Cell.calc_length_sq`, cl_1_cell.py:484-496. -/
noncomputable def lengthSq (p x : Fin 3 → ℝ) (cs : Fin 3 → ℝ) : ℝ :=
  x 0 ^ 2 * p 0 ^ 2 + x 1 ^ 2 * p 1 ^ 2 + x 2 ^ 2 * p 2 ^ 2 + 2 * x 0 * x 1 * p 0 * p 1 * cs 2 + 2 * x 0 * x 2 * p 0 * p 2 * cs 1 +
    2 * x 1 * x 2 * p 1 * p 2 * cs 0

/-- `Cell.calc_k_loc`, cl_1_cell.py:279-317. -/
noncomputable def Obj.kLoc (o : Obj) (hkl : Fin 3 → ℝ) : Fin 3 → ℝ :=
  let k := o.mB *ᵥ hkl
  let n := √(k 0 ^ 2 + k 1 ^ 2 + k 2 ^ 2)
  let n := if n = 0 then 1 else n
  ![k 0 / n, k 1 / n, k 2 / n]

/-- `Cell.closest_distance_between_fractions`, cl_1_cell.py:498-519, for one pair. -/
noncomputable def Obj.closest (o : Obj) (f1 f2 : Fin 3 → ℝ) : ℝ :=
  let d : Fin 3 → ℝ := fun i => |Int.fract (f1 i) - Int.fract (f2 i)|
  let e : Fin 3 → ℝ := fun i => if d i < 1 / 2 then d i else 1 - d i
  let q := o.position e
  √(q 0 ^ 2 + q 1 ^ 2 + q 2 ^ 2)

/-! ### the matrices -/

theorem deg_rad (x : ℝ) : x * (180 / π) * (π / 180) = x := by
  have := pi_ne_zero
  field_simp

theorem sin_arccos_of {x y z : ℝ} (hy : 0 < y) (hz : 0 ≤ z) (h : z ^ 2 = y ^ 2 - x ^ 2) : sin (arccos (x / y)) = z / y := by
  rw [sin_arccos, ← sqrt_sq (div_nonneg hz hy.le)]
  congr 1
  rw [div_pow, div_pow, h]
  field_simp

/-- C79: the reciprocal cell, volume and matrices of the object are those of the functions of C19 and C20. -/
theorem object_agrees {p : Fin 6 → ℝ} (h : NonDegenerate (rads p)) (hp : ProperAngles (rads p)) :
    (object p).volume = calc_volume_uc (rads p) ∧ (object p).mG = metric (rads p) ∧
    rads (object p).recip = calc_reciprocal (rads p) ∧ (object p).mGrec = toQ (calc_m_reciprocal_g (rads p)) ∧
    (object p).mMnorm = toM (calc_m_m_norm (rads p)) ∧ (object p).mBnorm = toM (calc_m_b_norm (rads p)) ∧
    (object p).mB = toM (calc_m_b (rads p)) ∧ (object p).mM = toM (calc_m_m (rads p)) := by
  have F := facts h
  have sa := sin_pos_of_pos_of_lt_pi hp.1.1 hp.1.2
  have sb := sin_pos_of_pos_of_lt_pi hp.2.1.1 hp.2.1.2
  have sg := sin_pos_of_pos_of_lt_pi hp.2.2.1 hp.2.2.2
  have hphi := phi_pos h
  obtain ⟨r1, r2, r3⟩ := cos_recip h
  have hphi' : calc_phi (rads p) = √(1 - cos (rads p 3) ^ 2 - cos (rads p 4) ^ 2 - cos (rads p 5) ^ 2 +
      2 * cos (rads p 3) * cos (rads p 4) * cos (rads p 5)) := rfl
  have hsq := phi_sq_eq h
  have e3 : p 3 * (π / 180) = rads p 3 := rfl
  have e4 : p 4 * (π / 180) = rads p 4 := rfl
  have e5 : p 5 * (π / 180) = rads p 5 := rfl
  have e0 : p 0 = rads p 0 := rfl
  have e1 : p 1 = rads p 1 := rfl
  have e2 : p 2 = rads p 2 := rfl
  have s4 : sin (arccos ((cos (rads p 5) * cos (rads p 3) - cos (rads p 4)) / (sin (rads p 5) * sin (rads p 3)))) =
      calc_phi (rads p) / (sin (rads p 5) * sin (rads p 3)) := by
    refine sin_arccos_of (by positivity) hphi.le ?_
    rw [mul_pow, F.sa2, F.sg2, F.p2]; ring
  have s5 : sin (arccos ((cos (rads p 3) * cos (rads p 4) - cos (rads p 5)) / (sin (rads p 3) * sin (rads p 4)))) =
      calc_phi (rads p) / (sin (rads p 3) * sin (rads p 4)) := by
    refine sin_arccos_of (by positivity) hphi.le ?_
    rw [mul_pow, F.sa2, F.sb2, F.p2]; ring
  have r1' : cos (arccos ((cos (rads p 4) * cos (rads p 5) - cos (rads p 3)) / (sin (rads p 4) * sin (rads p 5)))) = _ := r1
  have r2' : cos (arccos ((cos (rads p 5) * cos (rads p 3) - cos (rads p 4)) / (sin (rads p 5) * sin (rads p 3)))) = _ := r2
  have r3' : cos (arccos ((cos (rads p 3) * cos (rads p 4) - cos (rads p 5)) / (sin (rads p 3) * sin (rads p 4)))) = _ := r3
  have hob : object p = object p := rfl
  unfold object
  simp only [deg_rad, e3, e4, e5, e0, e1, e2, ← hphi', s4, s5, r1', r2', r3']
  clear s4 s5 r1' r2' r3' hob hphi'
  refine ⟨rfl, ?_, ?_, ?_, ?_, ?_, ?_, ?_⟩
  · apply m_ext <;> simp [metric, mul_comm]
  · funext i
    fin_cases i <;> simp [rads, calc_reciprocal, calc_volume_uc, deg_rad]
  · unfold calc_m_reciprocal_g toQ
    rw [hsq]
    dsimp only
    clear e0 e1 e2 e3 e4 e5 r1 r2 r3 hsq
    gen_cell (rads p)
    mat_cell F
  · apply m_ext <;> simp [toM, calc_m_m_norm]
  · unfold calc_m_b_norm toM
    dsimp only
    clear e0 e1 e2 e3 e4 e5 r1 r2 r3 hsq
    gen_cell (rads p)
    mat_cell F
  · unfold calc_m_b toM
    dsimp only
    clear e0 e1 e2 e3 e4 e5 r1 r2 r3 hsq
    gen_cell (rads p)
    mat_cell F
  · unfold calc_m_m toM
    dsimp only
    clear e0 e1 e2 e3 e4 e5 r1 r2 r3 hsq
    gen_cell (rads p)
    mat_cell F

/-- C79: the metric of the object gives the scalar products of the basis vectors, the reciprocal one is its inverse, and the matrices map
coordinates and reflections to Cartesian ones of that length. -/
theorem object_spec {p : Fin 6 → ℝ} (h : NonDegenerate (rads p)) (hp : ProperAngles (rads p)) :
    (object p).mG = metric (rads p) ∧ (object p).mG * (object p).mGrec = 1 ∧ (object p).volume ^ 2 = (object p).mG.det ∧
    (object p).mMᵀ * (object p).mM = (object p).mG ∧ (object p).mBᵀ * (object p).mB = (object p).mGrec ∧
    (object p).mBᵀ * (object p).mM = 1 ∧ (object p).mM = (object p).mMnorm * edges p ∧
    (object p).mB = (object p).mBnorm * edges (object p).recip := by
  obtain ⟨hv, hG, hr, hGr, hMn, hBn, hB, hM⟩ := object_agrees h hp
  have e1 := reciprocal_metric_inverse _ h
  have e2 := m_b_factors_reciprocal_metric _ h
  have e3 := m_b_dual_m_m _ h
  have hrec : toQ (calc_m_reciprocal_g (rads p)) = (toM (calc_m_b (rads p)))ᵀ * toM (calc_m_b (rads p)) := by
    calc toQ (calc_m_reciprocal_g (rads p))
        = ((toM (calc_m_b (rads p)))ᵀ * toM (calc_m_b (rads p)) * metric (rads p)) * toQ (calc_m_reciprocal_g (rads p)) := by rw [e2, one_mul]
      _ = _ := by rw [mul_assoc, e1.2, mul_one]
  refine ⟨hG, by rw [hG, hGr]; exact e1.2, ?_, by rw [hM, hG]; exact m_m_factors_metric _ h, by rw [hB, hGr, hrec], by rw [hB, hM]; exact e3, ?_, ?_⟩
  · rw [hv, hG, det_metric, phi_sq_eq h]
    unfold calc_volume_uc
    ring
  · rw [hM, hMn]
    apply m_ext <;> simp [toM, calc_m_m, calc_m_m_norm, edges, Matrix.mul_apply, Fin.sum_univ_three, Matrix.diagonal, rads] <;> ring
  · have F := facts h
    have hed : ∀ r, edges (rads r) = edges r := fun r => by simp [edges, rads]
    have hrp : edges (object p).recip = edges (calc_reciprocal (rads p)) := by
      rw [← hr, hed]
    rw [hB, hBn, hrp]
    unfold calc_m_b calc_m_b_norm toM edges calc_reciprocal calc_volume_uc
    dsimp only
    gen_cell (rads p)
    mat_cell F

/-- the position has the length the metric gives -/
theorem length_of_metric {M G : Matrix (Fin 3) (Fin 3) ℝ} (h : Mᵀ * M = G) (x : Fin 3 → ℝ) : (M *ᵥ x) ⬝ᵥ (M *ᵥ x) = x ⬝ᵥ (G *ᵥ x) := by
  rw [← h, ← Matrix.mulVec_mulVec, Matrix.dotProduct_mulVec x, Matrix.vecMul_transpose]

/-- C79: positions and coordinates are inverse to each other, the length of a position is what `calc_length_sq` says. -/
theorem positions_spec {p : Fin 6 → ℝ} (h : NonDegenerate (rads p)) (hp : ProperAngles (rads p)) (x : Fin 3 → ℝ) :
    (object p).coordinate ((object p).position x) = x ∧ (object p).position ((object p).coordinate x) = x ∧
    (object p).position x ⬝ᵥ (object p).position x = x ⬝ᵥ (metric (rads p) *ᵥ x) ∧
    lengthSq ![p 0, p 1, p 2] x (object p).cosines = x ⬝ᵥ (metric (rads p) *ᵥ x) := by
  obtain ⟨hG, -, -, hMM, -, hBM, -, -⟩ := object_spec h hp
  have hu : IsUnit (object p).mM.det := Matrix.isUnit_det_of_left_inverse hBM
  refine ⟨?_, ?_, ?_, ?_⟩
  · unfold Obj.coordinate Obj.position
    rw [Matrix.mulVec_mulVec, Matrix.nonsing_inv_mul _ hu, Matrix.one_mulVec]
  · unfold Obj.coordinate Obj.position
    rw [Matrix.mulVec_mulVec, Matrix.mul_nonsing_inv _ hu, Matrix.one_mulVec]
  · rw [← hG]
    exact length_of_metric hMM x
  · simp [lengthSq, object, metric, rads, Matrix.mulVec, dotProduct, Fin.sum_univ_three]
    ring

/-- C79: the reciprocal length of a reflection is that of its scattering vector, twice `sin θ / λ`; the direction has length one. -/
theorem reflection_spec {p : Fin 6 → ℝ} (h : NonDegenerate (rads p)) (hp : ProperAngles (rads p)) {hkl : Fin 3 → ℝ} (hh : hkl ≠ 0) :
    lengthSq ![(object p).recip 0, (object p).recip 1, (object p).recip 2] hkl (object p).rcosines = (2 * calc_sthovl hkl (rads p)) ^ 2 ∧
    ((object p).mB *ᵥ hkl) ⬝ᵥ ((object p).mB *ᵥ hkl) = (2 * calc_sthovl hkl (rads p)) ^ 2 ∧
    (object p).kLoc hkl ⬝ᵥ (object p).kLoc hkl = 1 ∧ (2 * calc_sthovl hkl (rads p)) • (object p).kLoc hkl = (object p).mB *ᵥ hkl := by
  obtain ⟨hv, hG, hr, hGr, hMn, hBn, hB, hM⟩ := object_agrees h hp
  obtain ⟨i0, i1, i2, i3⟩ := inv_d_is_length hkl _ h
  obtain ⟨u1, u2⟩ := eq_ccs_unit hkl _ h hh
  have hst : 2 * calc_sthovl hkl (rads p) = calc_inv_d hkl (rads p) := by rw [i3]; ring
  have hk : (object p).kLoc hkl = calc_eq_ccs hkl (rads p) := by
    unfold Obj.kLoc calc_eq_ccs
    rw [hB, ← q_ccs_spec]
    dsimp only
    by_cases hz : √(calc_q_ccs hkl (rads p) 0 ^ 2 + calc_q_ccs hkl (rads p) 1 ^ 2 + calc_q_ccs hkl (rads p) 2 ^ 2) = 0
    · exfalso
      have hq : calc_q_ccs hkl (rads p) ⬝ᵥ calc_q_ccs hkl (rads p) = 0 := by
        have := (Real.sqrt_eq_zero (by positivity)).1 hz
        simp only [dotProduct, Fin.sum_univ_three]; linarith
      rw [← u2, smul_dotProduct, dotProduct_smul, u1] at hq
      simp at hq
      rw [hq, zero_smul] at u2
      have e3 : calc_eq_ccs hkl (rads p) = calc_eq_ccs hkl (rads p) := rfl
      have : hkl = 0 := by
        have e4 := congrArg (fun v => toM (calc_m_inv_b (rads p)) *ᵥ v) u2
        rw [q_ccs_spec] at e4
        simpa [Matrix.mulVec_mulVec, (m_inv_b_spec _ h).2] using e4.symm
      exact hh this
    · rw [if_neg hz, if_pos hz]
  refine ⟨?_, ?_, by rw [hk]; exact u1, by rw [hk, hst, u2, hB, q_ccs_spec]⟩
  · rw [hst, i2, ← hGr]
    simp [lengthSq, object, Matrix.mulVec, dotProduct, Fin.sum_univ_three]
    ring
  · rw [hst, i1, hB, ← q_ccs_spec]

/-! ### distances -/

/-- squared length of a coordinate difference -/
noncomputable def dist2 (uc : Fin 6 → ℝ) (x : Fin 3 → ℝ) : ℝ := x ⬝ᵥ (metric uc *ᵥ x)

/-- the differences along the axes that the distance is made of -/
noncomputable def wrapped (x y : ℝ) : ℝ :=
  if |Int.fract x - Int.fract y| < 1 / 2 then |Int.fract x - Int.fract y| else 1 - |Int.fract x - Int.fract y|

theorem closest_eq {p : Fin 6 → ℝ} (h : NonDegenerate (rads p)) (hp : ProperAngles (rads p)) (f1 f2 : Fin 3 → ℝ) :
    (object p).closest f1 f2 = √(dist2 (rads p) fun i => wrapped (f1 i) (f2 i)) := by
  unfold Obj.closest
  dsimp only
  congr 1
  have := (positions_spec h hp fun i => wrapped (f1 i) (f2 i)).2.2.1
  rw [dist2, ← this]
  simp only [dotProduct, Fin.sum_univ_three]
  unfold wrapped
  ring

/-- along one axis it is the distance to the nearest equivalent -/
theorem wrapped_spec (x y : ℝ) : 0 ≤ wrapped x y ∧ (∃ n : ℤ, wrapped x y = |x - y + n|) ∧ ∀ n : ℤ, wrapped x y ≤ |x - y + n| := by
  have hx0 := Int.fract_nonneg x
  have hx1 := Int.fract_lt_one x
  have hy0 := Int.fract_nonneg y
  have hy1 := Int.fract_lt_one y
  set d := Int.fract x - Int.fract y with hd
  have hxy : x - y = d + ((⌊x⌋ - ⌊y⌋ : ℤ) : ℝ) := by
    rw [hd]; unfold Int.fract; push_cast; ring
  have hdlt : |d| < 1 := by rw [abs_lt]; constructor <;> linarith
  have hall : ∀ m : ℤ, wrapped x y ≤ |d + m| := by
    intro m
    unfold wrapped
    rw [← hd]
    rcases eq_or_ne m 0 with rfl | hm
    · simp only [Int.cast_zero, add_zero]
      split_ifs with hc
      · exact le_refl _
      · push Not at hc; linarith
    · have hm1 : (1 : ℝ) ≤ |(m : ℝ)| := by
        have : 1 ≤ |m| := Int.one_le_abs hm
        exact_mod_cast this
      have htri : |(m : ℝ)| - |d| ≤ |d + m| := by
        have := abs_sub_abs_le_abs_sub (m : ℝ) (-d)
        rw [abs_neg, sub_neg_eq_add, add_comm (m : ℝ) d] at this
        exact this
      split_ifs with hc <;> linarith
  refine ⟨?_, ?_, ?_⟩
  · unfold wrapped
    rw [← hd]
    split_ifs with hc
    · exact abs_nonneg _
    · linarith
  · unfold wrapped
    rw [← hd]
    split_ifs with hc
    · exact ⟨-(⌊x⌋ - ⌊y⌋), by rw [hxy]; push_cast; ring_nf⟩
    · push Not at hc
      rcases le_total 0 d with h0 | h0
      · refine ⟨-(⌊x⌋ - ⌊y⌋) - 1, ?_⟩
        rw [hxy]
        push_cast
        rw [show d + ((⌊x⌋ : ℝ) - ⌊y⌋) + (-((⌊x⌋ : ℝ) - ⌊y⌋) - 1) = -(1 - d) by ring, abs_neg, abs_of_nonneg h0,
          abs_of_nonneg (by rw [abs_of_nonneg h0] at hdlt; linarith)]
      · refine ⟨-(⌊x⌋ - ⌊y⌋) + 1, ?_⟩
        rw [hxy]
        push_cast
        rw [show d + ((⌊x⌋ : ℝ) - ⌊y⌋) + (-((⌊x⌋ : ℝ) - ⌊y⌋) + 1) = 1 + d by ring, abs_of_nonpos h0,
          abs_of_nonneg (by rw [abs_of_nonpos h0] at hdlt; linarith)]
        ring
  · intro n
    have := hall (⌊x⌋ - ⌊y⌋ + n)
    rw [hxy, add_assoc]
    push_cast at this ⊢
    exact this

/-- C79: in every cell the closest distance does not depend on the order of the points nor on lattice translations of either, and is zero
exactly for points that differ by a lattice translation. -/
theorem closest_symm (o : Obj) (f1 f2 : Fin 3 → ℝ) (t : Fin 3 → ℤ) :
    o.closest f1 f2 = o.closest f2 f1 ∧ o.closest (fun i => f1 i + t i) f2 = o.closest f1 f2 := by
  constructor
  · unfold Obj.closest
    simp only [abs_sub_comm (Int.fract (f1 _))]
  · unfold Obj.closest
    simp only [Int.fract_add_intCast]

theorem dist2_pos {uc : Fin 6 → ℝ} (h : NonDegenerate uc) (x : Fin 3 → ℝ) : 0 ≤ dist2 uc x ∧ (dist2 uc x = 0 → x = 0) := by
  have e : dist2 uc x = (toM (calc_m_m uc) *ᵥ x) ⬝ᵥ (toM (calc_m_m uc) *ᵥ x) := (length_of_metric (m_m_factors_metric uc h) x).symm
  rw [e]
  refine ⟨?_, ?_⟩
  · simp only [dotProduct]
    exact Finset.sum_nonneg fun i _ => mul_self_nonneg _
  · intro h0
    have hz : toM (calc_m_m uc) *ᵥ x = 0 := dotProduct_self_eq_zero.1 h0
    have e2 := congrArg (fun v => (toM (calc_m_b uc))ᵀ *ᵥ v) hz
    simpa [Matrix.mulVec_mulVec, m_b_dual_m_m uc h] using e2

theorem closest_zero_iff {p : Fin 6 → ℝ} (h : NonDegenerate (rads p)) (hp : ProperAngles (rads p)) (f1 f2 : Fin 3 → ℝ) :
    (object p).closest f1 f2 = 0 ↔ ∃ t : Fin 3 → ℤ, ∀ i, f1 i = f2 i + t i := by
  rw [closest_eq h hp]
  constructor
  · intro h0
    have h1 := (Real.sqrt_eq_zero (dist2_pos h _).1).1 h0
    have h2 := (dist2_pos h _).2 h1
    have h3 : ∀ i, ∃ n : ℤ, f1 i = f2 i + n := by
      intro i
      obtain ⟨-, ⟨n, hn⟩, -⟩ := wrapped_spec (f1 i) (f2 i)
      have h4 : wrapped (f1 i) (f2 i) = 0 := congrFun h2 i
      rw [h4] at hn
      refine ⟨-n, ?_⟩
      have := abs_eq_zero.1 hn.symm
      push_cast; linarith
    exact ⟨fun i => (h3 i).choose, fun i => (h3 i).choose_spec⟩
  · rintro ⟨t, ht⟩
    have : (fun i => wrapped (f1 i) (f2 i)) = (0 : Fin 3 → ℝ) := by
      funext i
      unfold wrapped
      rw [ht i, Int.fract_add_intCast]
      simp
    rw [this]
    simp [dist2]

/-- C79: in a cell with right angles it is the distance to the nearest equivalent point. -/
theorem closest_right_angled {p : Fin 6 → ℝ} (h : NonDegenerate (rads p)) (hp : ProperAngles (rads p)) (hr : RightAngled (rads p))
    (f1 f2 : Fin 3 → ℝ) :
    (∃ t : Fin 3 → ℤ, (object p).closest f1 f2 = √(dist2 (rads p) fun i => f1 i - f2 i + t i)) ∧
    ∀ t : Fin 3 → ℤ, (object p).closest f1 f2 ≤ √(dist2 (rads p) fun i => f1 i - f2 i + t i) := by
  have hd : ∀ x : Fin 3 → ℝ, dist2 (rads p) x = (x 0 * rads p 0) ^ 2 + (x 1 * rads p 1) ^ 2 + (x 2 * rads p 2) ^ 2 := by
    intro x
    obtain ⟨r1, r2, r3⟩ := hr
    simp only [dist2, metric, r1, r2, r3, Matrix.mulVec, dotProduct, Fin.sum_univ_three]
    simp
    ring
  rw [closest_eq h hp]
  constructor
  · have : ∀ i, ∃ n : ℤ, wrapped (f1 i) (f2 i) = |f1 i - f2 i + n| := fun i => (wrapped_spec _ _).2.1
    choose t ht using this
    refine ⟨t, ?_⟩
    congr 1
    rw [hd, hd]
    simp only [ht, mul_pow, sq_abs]
  · intro t
    apply Real.sqrt_le_sqrt
    rw [hd, hd]
    have key : ∀ i, (wrapped (f1 i) (f2 i) * rads p i.castSucc.castSucc.castSucc) ^ 2 ≤
        ((f1 i - f2 i + t i) * rads p i.castSucc.castSucc.castSucc) ^ 2 := by
      intro i
      rw [mul_pow, mul_pow]
      refine mul_le_mul_of_nonneg_right ?_ (sq_nonneg _)
      rw [← sq_abs (f1 i - f2 i + t i)]
      exact pow_le_pow_left₀ (wrapped_spec _ _).1 ((wrapped_spec _ _).2.2 _) 2
    exact add_le_add (add_le_add (key 0) (key 1)) (key 2)

/-- a hexagonal cell in degrees -/
noncomputable def hexP : Fin 6 → ℝ := ![1, 1, 1, 90, 90, 120]

theorem hexP_rads : rads hexP = ![1, 1, 1, π / 2, π / 2, 2 * π / 3] := by
  funext i
  fin_cases i <;> simp [rads, hexP] <;> ring

theorem cos_two_thirds : cos (2 * π / 3) = -(1 / 2) := by
  rw [show 2 * π / 3 = π - π / 3 by ring, cos_pi_sub, cos_pi_div_three]

theorem hexP_nonDegenerate : NonDegenerate (rads hexP) := by
  rw [hexP_rads]
  refine ⟨by simp, by simp, by simp, ?_⟩
  simp [metric, Matrix.det_fin_three, cos_two_thirds]
  norm_num

theorem hexP_proper : ProperAngles (rads hexP) := by
  rw [hexP_rads]
  have := pi_pos
  simp [ProperAngles]
  refine ⟨by linarith, by linarith⟩

/-- C79, failure: in a cell with an oblique angle the sign of the differences is lost and the distance reported can be smaller than that to
every equivalent point: in a hexagonal cell the points (1/10, 0, 0) and (0, 1/10, 0). -/
theorem closest_oblique_wrong : NonDegenerate (rads hexP) ∧ ProperAngles (rads hexP) ∧
    ∃ f1 f2 : Fin 3 → ℝ, ∀ t : Fin 3 → ℤ, (object hexP).closest f1 f2 < √(dist2 (rads hexP) fun i => f1 i - f2 i + t i) := by
  refine ⟨hexP_nonDegenerate, hexP_proper, ![1 / 10, 0, 0], ![0, 1 / 10, 0], fun t => ?_⟩
  rw [closest_eq hexP_nonDegenerate hexP_proper]
  have hd : ∀ x : Fin 3 → ℝ, dist2 (rads hexP) x = x 0 ^ 2 + x 1 ^ 2 - x 0 * x 1 + x 2 ^ 2 := by
    intro x
    rw [hexP_rads]
    simp only [dist2, metric, Matrix.mulVec, dotProduct, Fin.sum_univ_three]
    simp [cos_two_thirds]
    ring
  have f10 : Int.fract (1 / 10 : ℝ) = 1 / 10 := Int.fract_eq_self.2 ⟨by norm_num, by norm_num⟩
  have w0 : wrapped (1 / 10) 0 = 1 / 10 := by
    unfold wrapped; rw [f10, Int.fract_zero]; norm_num
  have w1 : wrapped 0 (1 / 10) = 1 / 10 := by
    unfold wrapped; rw [f10, Int.fract_zero]; norm_num
  have w2 : wrapped 0 0 = 0 := by unfold wrapped; simp
  have hl : dist2 (rads hexP) (fun i => wrapped ((![1 / 10, 0, 0] : Fin 3 → ℝ) i) ((![0, 1 / 10, 0] : Fin 3 → ℝ) i)) = 1 / 100 := by
    rw [hd]
    show wrapped (1 / 10) 0 ^ 2 + wrapped 0 (1 / 10) ^ 2 - wrapped (1 / 10) 0 * wrapped 0 (1 / 10) + wrapped 0 0 ^ 2 = _
    rw [w0, w1, w2]; norm_num
  rw [hl, hd]
  apply Real.sqrt_lt_sqrt (by norm_num)
  show (1 / 100 : ℝ) < (1 / 10 - 0 + (t 0 : ℝ)) ^ 2 + (0 - 1 / 10 + (t 1 : ℝ)) ^ 2 - (1 / 10 - 0 + (t 0 : ℝ)) * (0 - 1 / 10 + (t 1 : ℝ)) +
    (0 - 0 + (t 2 : ℝ)) ^ 2
  have big : ∀ n : ℤ, n ≠ 0 → (1 : ℝ) ≤ (n : ℝ) ^ 2 ∧ 1 ≤ |(n : ℝ)| := by
    intro n hn
    have h1 : 1 ≤ |n| := Int.one_le_abs hn
    have h2 : (1 : ℝ) ≤ |(n : ℝ)| := by exact_mod_cast h1
    exact ⟨by rw [← sq_abs]; nlinarith, h2⟩
  generalize ht0 : (t 0 : ℝ) = x
  generalize ht1 : (t 1 : ℝ) = y
  generalize (t 2 : ℝ) = z
  by_cases h0 : t 0 = 0
  · rw [h0] at ht0
    simp at ht0
    subst ht0
    by_cases h1 : t 1 = 0
    · rw [h1] at ht1
      simp at ht1
      subst ht1
      nlinarith [sq_nonneg z]
    · have := big _ h1
      rw [ht1] at this
      have h3 := le_abs.1 this.2
      rcases h3 with h3 | h3 <;> nlinarith [sq_nonneg z]
  · have := big _ h0
    rw [ht0] at this
    have h3 := le_abs.1 this.2
    rcases h3 with h3 | h3
    · nlinarith [sq_nonneg z, sq_nonneg ((0 - 1 / 10 + y) - (1 / 10 - 0 + x) / 2)]
    · nlinarith [sq_nonneg z, sq_nonneg ((0 - 1 / 10 + y) - (1 / 10 - 0 + x) / 2)]

/-- an instance: a box of 2, 3 and 5 Å -/
example : ∃ p : Fin 6 → ℝ, NonDegenerate (rads p) ∧ ProperAngles (rads p) ∧ RightAngled (rads p) ∧ p 3 = 90 := by
  have e : rads ![2, 3, 5, 90, 90, 90] = boxUC := by
    funext i
    fin_cases i <;> simp [rads, boxUC] <;> ring
  refine ⟨![2, 3, 5, 90, 90, 90], ?_, ?_, ?_, rfl⟩
  · rw [e]; exact boxUC_nonDegenerate
  · rw [e]
    have := pi_pos
    simp [ProperAngles, boxUC]
    linarith
  · rw [e]; exact boxUC_right

end Cryspy.Cell
