import Verif.Ord.Cell
import Verif.Sft.Example

/-!
# The part of the magnetic structure factor that scatters neutrons
-/

namespace Cryspy.Ord

open Symm Sf Matrix

variable {G : List (Elem × ℤ)} {uc : Fin 6 → ℝ}

/-- The direction of the scattering vector in the Cartesian frame. -/
noncomputable def dirQ (uc : Fin 6 → ℝ) (h : V3) : Fin 3 → ℝ :=
  (1 / Real.sqrt (∑ k, (Mat.toM (Cell.calc_m_b uc) *ᵥ hklR h) k ^ 2)) • (Mat.toM (Cell.calc_m_b uc) *ᵥ hklR h)

theorem hklR_ne {h : V3} (hh : h ≠ 0) : hklR h ≠ 0 := by
  intro h0
  apply hh
  funext k
  have := congrFun h0 k
  simpa [hklR] using this

theorem eq_dirQ (hu : Cell.NonDegenerate uc) {h : V3} (hh : h ≠ 0) :
    Cell.calc_eq_ccs (hklR h) uc = dirQ uc h ∧ dirQ uc h ⬝ᵥ dirQ uc h = 1 := by
  obtain ⟨h1, h2⟩ := Cell.eq_ccs_unit (hklR h) uc hu (hklR_ne hh)
  have h0 := (Cell.inv_d_is_length (hklR h) uc hu).1
  rw [Cell.q_ccs_spec] at h2
  set e := Cell.calc_eq_ccs (hklR h) uc
  set d := Cell.calc_inv_d (hklR h) uc
  have hs : ∑ k, (Mat.toM (Cell.calc_m_b uc) *ᵥ hklR h) k ^ 2 = d ^ 2 := by
    rw [← h2]
    simp only [Pi.smul_apply, smul_eq_mul, mul_pow, ← Finset.mul_sum]
    have : ∑ k, e k ^ 2 = 1 := by rw [← h1]; simp [dotProduct, pow_two]
    rw [this, mul_one]
  have hd : d ≠ 0 := by
    intro hd
    rw [hd, zero_smul] at h2
    have h3 := Cell.m_b_dual_m_m uc hu
    have h4 : (Mat.toM (Cell.calc_m_m uc))ᵀ * Mat.toM (Cell.calc_m_b uc) = 1 := by
      rw [← Matrix.transpose_one, ← h3, Matrix.transpose_mul, Matrix.transpose_transpose]
    apply hklR_ne hh
    rw [← Matrix.one_mulVec (hklR h), ← h4, ← Matrix.mulVec_mulVec, ← h2, Matrix.mulVec_zero]
  have : e = dirQ uc h := by
    unfold dirQ
    rw [hs, Real.sqrt_sq h0, ← h2, smul_smul, one_div, inv_mul_cancel₀ hd, one_smul]
  rw [← this]
  exact ⟨rfl, h1⟩

/-- **C76** The function returns the part of the structure factor perpendicular to the scattering vector. -/
theorem f_perp_spec (orb : Bool) (hu : Cell.NonDegenerate uc) (atoms : List OAtom) {h : V3} (hh : h ≠ 0) (k : Fin 3) :
    fPerp orb G uc atoms h k = fM orb G uc atoms h k - (∑ l, (dirQ uc h l : ℂ) * fM orb G uc atoms h l) * dirQ uc h k := by
  obtain ⟨e1, e2⟩ := eq_dirQ hu hh
  unfold fPerp
  rw [e1, Mat.calc_vector_product_v1_v2_v1_spec]
  have h1 : (dirQ uc h 0 : ℂ) * dirQ uc h 0 + dirQ uc h 1 * dirQ uc h 1 + dirQ uc h 2 * dirQ uc h 2 = 1 := by
    have : dirQ uc h 0 * dirQ uc h 0 + dirQ uc h 1 * dirQ uc h 1 + dirQ uc h 2 * dirQ uc h 2 = 1 := by
      simpa [dotProduct, Fin.sum_univ_three] using e2
    exact_mod_cast this
  revert k
  apply Mat.fin3 <;> simp [cross_apply, Fin.sum_univ_three]
  · linear_combination (fM orb G uc atoms h 0) * h1
  · linear_combination (fM orb G uc atoms h 1) * h1
  · linear_combination (fM orb G uc atoms h 2) * h1

/-- **C76** It is perpendicular to the scattering vector. -/
theorem f_perp_perp (orb : Bool) (hu : Cell.NonDegenerate uc) (atoms : List OAtom) {h : V3} (hh : h ≠ 0) :
    ∑ k, (dirQ uc h k : ℂ) * fPerp orb G uc atoms h k = 0 := by
  have e2 := (eq_dirQ hu hh).2
  have h1 : (dirQ uc h 0 : ℂ) * dirQ uc h 0 + dirQ uc h 1 * dirQ uc h 1 + dirQ uc h 2 * dirQ uc h 2 = 1 := by
    have : dirQ uc h 0 * dirQ uc h 0 + dirQ uc h 1 * dirQ uc h 1 + dirQ uc h 2 * dirQ uc h 2 = 1 := by
      simpa [dotProduct, Fin.sum_univ_three] using e2
    exact_mod_cast this
  simp only [f_perp_spec orb hu atoms hh, Fin.sum_univ_three]
  linear_combination -((dirQ uc h 0 : ℂ) * fM orb G uc atoms h 0 + dirQ uc h 1 * fM orb G uc atoms h 1 +
    dirQ uc h 2 * fM orb G uc atoms h 2) * h1

theorem q_equivalent (hu : Cell.NonDegenerate uc) (h : V3) (r : M3)
    (hi : (rotR r)ᵀ * Cell.metric uc * rotR r = Cell.metric uc) :
    Mat.toM (Cell.calc_m_b uc) *ᵥ hklR h = Sft.rotC uc r *ᵥ (Mat.toM (Cell.calc_m_b uc) *ᵥ hklR (rowMul h r)) := by
  have ho := Sft.rotC_orthogonal hu hi
  have e : hklR (rowMul h r) = (rotR r)ᵀ *ᵥ hklR h := by
    funext j
    simp [hklR, rowMul, rotR, Matrix.mulVec, dotProduct, mul_comm]
  have h3 := Cell.m_b_dual_m_m uc hu
  have hB : Mat.toM (Cell.calc_m_b uc) * (rotR r)ᵀ = (Sft.rotC uc r)ᵀ * Mat.toM (Cell.calc_m_b uc) := by
    set B := Mat.toM (Cell.calc_m_b uc)
    set M := Mat.toM (Cell.calc_m_m uc)
    have hinv : M⁻¹ = Bᵀ := Matrix.inv_eq_left_inv h3
    have h5 : M * Bᵀ = 1 := mul_eq_one_comm.1 h3
    have h6 : Mᵀ * B = 1 := by rw [← Matrix.transpose_one, ← h3, Matrix.transpose_mul, Matrix.transpose_transpose]
    have : Sft.rotC uc r = M * rotR r * Bᵀ := by unfold Sft.rotC; rw [← hinv]
    rw [this, Matrix.transpose_mul, Matrix.transpose_mul, Matrix.transpose_transpose, Matrix.mul_assoc, Matrix.mul_assoc, h6, Matrix.mul_one]
  rw [e, Matrix.mulVec_mulVec, Matrix.mulVec_mulVec, Matrix.mul_assoc, hB, ← Matrix.mul_assoc, ho, Matrix.one_mul]

theorem orth_sq {O : Matrix (Fin 3) (Fin 3) ℝ} (ho : O * Oᵀ = 1) (v : Fin 3 → ℝ) : ∑ k, (O *ᵥ v) k ^ 2 = ∑ k, v k ^ 2 := by
  have h1 : (O *ᵥ v) ⬝ᵥ (O *ᵥ v) = v ⬝ᵥ v := by
    rw [Matrix.dotProduct_mulVec, Matrix.vecMul_mulVec, mul_eq_one_comm.1 ho, Matrix.vecMul_one]
  simpa [dotProduct, pow_two] using h1

theorem dirQ_equivalent (hu : Cell.NonDegenerate uc) (h : V3) (r : M3)
    (hi : (rotR r)ᵀ * Cell.metric uc * rotR r = Cell.metric uc) : dirQ uc h = Sft.rotC uc r *ᵥ dirQ uc (rowMul h r) := by
  have ho := Sft.rotC_orthogonal hu hi
  unfold dirQ
  rw [q_equivalent hu h r hi, orth_sq ho, Matrix.mulVec_smul]

theorem det_sq_one (hu : Cell.NonDegenerate uc) {r : M3} (hi : (rotR r)ᵀ * Cell.metric uc * rotR r = Cell.metric uc) :
    (rotR r).det ^ 2 = 1 := by
  have h1 := congrArg Matrix.det hi
  rw [Matrix.det_mul, Matrix.det_mul, Matrix.det_transpose] at h1
  have h2 : (Cell.metric uc).det ≠ 0 := hu.det_pos.ne'
  have : (Cell.metric uc).det * ((rotR r).det ^ 2 - 1) = 0 := by linear_combination h1
  have := (mul_eq_zero.1 this).resolve_left h2
  linarith

/-- **C76** The scattering part transforms under the magnetic operations as the structure factor does; -/
theorem f_perp_equivalent (orb : Bool) (hG : IsMGroup G) (hN : G.Pairwise fun a b => ¬ (SameOp a.1 b.1 ∧ a.2 = b.2))
    (hu : Cell.NonDegenerate uc) (hi : Isometries G uc) (hk : ∀ g ∈ G, KeepsLengths uc g.1.r) (atoms : List OAtom) {h : V3} (hh : h ≠ 0)
    {g : Elem × ℤ} (hg : g ∈ G) (k : Fin 3) :
    fPerp orb G uc atoms h k = ph (hdot h g.1.shift.val) * ((g.2 : ℝ) * (rotR g.1.r).det : ℝ) *
      ∑ l, (Sft.rotC uc g.1.r k l : ℂ) * fPerp orb G uc atoms (rowMul h g.1.r) l := by
  have hi' := hi g hg
  have ho := Sft.rotC_orthogonal hu hi'
  have hq := dirQ_equivalent hu h g.1.r hi'
  have hh' : rowMul h g.1.r ≠ 0 := by
    intro h0
    have := q_equivalent hu h g.1.r hi'
    rw [h0] at this
    have hz : hklR (0 : V3) = 0 := by funext j; simp [hklR]
    rw [hz, Matrix.mulVec_zero, Matrix.mulVec_zero] at this
    have h3 := Cell.m_b_dual_m_m uc hu
    have h4 : (Mat.toM (Cell.calc_m_m uc))ᵀ * Mat.toM (Cell.calc_m_b uc) = 1 := by
      rw [← Matrix.transpose_one, ← h3, Matrix.transpose_mul, Matrix.transpose_transpose]
    apply hklR_ne hh
    rw [← Matrix.one_mulVec (hklR h), ← h4, ← Matrix.mulVec_mulVec, this, Matrix.mulVec_zero]
  simp only [f_perp_spec orb hu atoms hh, f_perp_spec orb hu atoms hh', f_m_equivalent orb hG hN hu hi hk atoms h hg]
  set O := Sft.rotC uc g.1.r
  set F := fM orb G uc atoms (rowMul h g.1.r)
  set q := dirQ uc (rowMul h g.1.r)
  set c : ℂ := ph (hdot h g.1.shift.val) * ((g.2 : ℝ) * (rotR g.1.r).det : ℝ)
  have hO : ∀ i j, O 0 i * O 0 j + O 1 i * O 1 j + O 2 i * O 2 j = if i = j then 1 else 0 := by
    intro i j
    have ho' := mul_eq_one_comm.1 ho
    have := congrFun (congrFun ho' i) j
    simpa [Matrix.mul_apply, Fin.sum_univ_three, Matrix.one_apply] using this
  have hOc : ∀ i j, (O 0 i : ℂ) * O 0 j + O 1 i * O 1 j + O 2 i * O 2 j = if i = j then 1 else 0 := by
    intro i j
    have := congrArg (fun x : ℝ => (x : ℂ)) (hO i j)
    push_cast at this
    rw [this]
    try split_ifs <;> simp
  have hqc : ∀ k, (dirQ uc h k : ℂ) = (O k 0 : ℂ) * q 0 + O k 1 * q 1 + O k 2 * q 2 := by
    intro k
    rw [hq]
    simp [Matrix.mulVec, dotProduct, Fin.sum_univ_three]
  simp only [hqc, Fin.sum_univ_three]
  have h00 := hOc 0 0
  have h01 := hOc 0 1
  have h02 := hOc 0 2
  have h11 := hOc 1 1
  have h12 := hOc 1 2
  have h22 := hOc 2 2
  simp only [if_true, Fin.isValue, reduceIte, show ((0 : Fin 3) = 1) = False from by decide, show ((0 : Fin 3) = 2) = False from by decide,
    show ((1 : Fin 3) = 2) = False from by decide] at h00 h01 h02 h11 h12 h22
  have key : ((O 0 0 : ℂ) * q 0 + O 0 1 * q 1 + O 0 2 * q 2) * ((O 0 0 : ℂ) * F 0 + O 0 1 * F 1 + O 0 2 * F 2) +
      ((O 1 0 : ℂ) * q 0 + O 1 1 * q 1 + O 1 2 * q 2) * ((O 1 0 : ℂ) * F 0 + O 1 1 * F 1 + O 1 2 * F 2) +
      ((O 2 0 : ℂ) * q 0 + O 2 1 * q 1 + O 2 2 * q 2) * ((O 2 0 : ℂ) * F 0 + O 2 1 * F 1 + O 2 2 * F 2) =
      (q 0 : ℂ) * F 0 + q 1 * F 1 + q 2 * F 2 := by
    linear_combination (q 0 * F 0 : ℂ) * h00 + (q 0 * F 1 + q 1 * F 0 : ℂ) * h01 + (q 0 * F 2 + q 2 * F 0 : ℂ) * h02 +
      (q 1 * F 1 : ℂ) * h11 + (q 1 * F 2 + q 2 * F 1 : ℂ) * h12 + (q 2 * F 2 : ℂ) * h22
  linear_combination -(c * ((O k 0 : ℂ) * q 0 + O k 1 * q 1 + O k 2 * q 2)) * key

/-- **C76** equivalent reflections have the same magnetic intensity. -/
theorem intensity_equivalent (orb : Bool) (hG : IsMGroup G) (hN : G.Pairwise fun a b => ¬ (SameOp a.1 b.1 ∧ a.2 = b.2))
    (hu : Cell.NonDegenerate uc) (hi : Isometries G uc) (hk : ∀ g ∈ G, KeepsLengths uc g.1.r) (atoms : List OAtom) {h : V3} (hh : h ≠ 0)
    {g : Elem × ℤ} (hg : g ∈ G) :
    ∑ k, Complex.normSq (fPerp orb G uc atoms h k) = ∑ k, Complex.normSq (fPerp orb G uc atoms (rowMul h g.1.r) k) := by
  have hi' := hi g hg
  have ho := Sft.rotC_orthogonal hu hi'
  have hθ : ((g.2 : ℝ) * (rotR g.1.r).det) ^ 2 = 1 := by
    obtain ⟨b, -, -, hb⟩ := hG.inv g hg
    have : g.2 = 1 ∨ g.2 = -1 := Int.isUnit_iff.1 (IsUnit.of_mul_eq_one b.2 (by rw [mul_comm]; exact hb))
    rw [mul_pow, det_sq_one hu hi', mul_one]
    rcases this with h | h <;> rw [h] <;> norm_num
  have hph : ∀ x, Complex.normSq (ph x) = 1 := by
    intro x
    rw [Complex.normSq_eq_norm_sq]
    have : ‖ph x‖ = 1 := by
      unfold ph
      rw [Complex.norm_exp]
      simp
    rw [this]; norm_num
  have hO : ∀ i j, Sft.rotC uc g.1.r 0 i * Sft.rotC uc g.1.r 0 j + Sft.rotC uc g.1.r 1 i * Sft.rotC uc g.1.r 1 j +
      Sft.rotC uc g.1.r 2 i * Sft.rotC uc g.1.r 2 j = if i = j then 1 else 0 := by
    intro i j
    have ho' := mul_eq_one_comm.1 ho
    have := congrFun (congrFun ho' i) j
    simpa [Matrix.mul_apply, Fin.sum_univ_three, Matrix.one_apply] using this
  have h00 := hO 0 0
  have h01 := hO 0 1
  have h02 := hO 0 2
  have h11 := hO 1 1
  have h12 := hO 1 2
  have h22 := hO 2 2
  simp only [reduceIte, show ((0 : Fin 3) = 1) = False from by decide, show ((0 : Fin 3) = 2) = False from by decide,
    show ((1 : Fin 3) = 2) = False from by decide] at h00 h01 h02 h11 h12 h22
  have e : ∀ k, Complex.normSq (fPerp orb G uc atoms h k) =
      Complex.normSq (∑ l, (Sft.rotC uc g.1.r k l : ℂ) * fPerp orb G uc atoms (rowMul h g.1.r) l) := by
    intro k
    rw [f_perp_equivalent orb hG hN hu hi hk atoms hh hg k, Complex.normSq_mul, Complex.normSq_mul, hph, Complex.normSq_ofReal, ← pow_two,
      hθ, one_mul, one_mul]
  simp only [e, Fin.sum_univ_three, Complex.normSq_apply, Complex.add_re, Complex.add_im, Complex.re_ofReal_mul, Complex.im_ofReal_mul]
  generalize fPerp orb G uc atoms (rowMul h g.1.r) = F at *
  generalize Sft.rotC uc g.1.r = O at *
  linear_combination ((F 0).re ^ 2 + (F 0).im ^ 2) * h00 + ((F 1).re ^ 2 + (F 1).im ^ 2) * h11 + ((F 2).re ^ 2 + (F 2).im ^ 2) * h22 +
    2 * ((F 0).re * (F 1).re + (F 0).im * (F 1).im) * h01 + 2 * ((F 0).re * (F 2).re + (F 0).im * (F 2).im) * h02 +
    2 * ((F 1).re * (F 2).re + (F 1).im * (F 2).im) * h12

end Cryspy.Ord
