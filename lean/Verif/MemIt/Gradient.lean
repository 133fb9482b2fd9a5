import Verif.MemIt.Density
import Verif.Flip.DProps

/-!
# C68: the derivative that steers the iteration
-/

namespace Cryspy.MemIt

open Cryspy.Flip

variable {n m : ℕ}

/-! ### specification -/

/-- specification: the density moved by `t` along `v` -/
def Den.move (d v : Den n m) (t : ℝ) : Den n m :=
  ⟨fun i => d.plus i + t * v.plus i, fun i => d.minus i + t * v.minus i, fun j => d.chi j + t * v.chi j⟩

/-- specification: the sum over all points and channels of two arrays -/
noncomputable def Den.dot (g v : Den n m) : ℝ := (∑ i, g.plus i * v.plus i) + (∑ i, g.minus i * v.minus i) + ∑ j, g.chi j * v.chi j

/-- specification: the directions of the fields are unit vectors and there is no extinction (it does not change with F²) -/
def NoExtinction (E : Exp n m) : Prop := ∀ r ∈ E.refl, IsUnit3 r.z ∧ ∀ s, 0 ≤ s → HasDerivAt r.y 0 s

/-! ### lemmas -/

section
variable {y dy dk : ℝ → ℝ} (P e nr ni : ℝ) (mr mi z : Fin 3 → ℝ)

set_option hygiene false in
macro "comb_dir" c:term : tactic => `(tactic| (
  apply HasDerivAt.congr_deriv
  · apply ($c)
    · refine hy _ ?_; beta_reduce; positivity
    · refine hy _ ?_; beta_reduce; positivity
    · simp only [zero_mul, add_zero]; exact hy _ hxy
    all_goals fhd
  · simp only [zero_mul, add_zero, Matrix.cons_val]; comb_gen; ring))

/-- the reported derivatives over the magnetic vector give the derivative in every direction -/
theorem dir_plus (hy : ∀ s, 0 ≤ s → HasDerivAt y (dy s) s) (hz : IsUnit3 z) (a b : Fin 3 → ℝ) :
    HasDerivAt (fun t => calc_iint_plus y dy dk P e nr ni (fun k => mr k + t * a k) (fun k => mi k + t * b k) z)
      ((∑ k, a k * d_plus_f_m_perp_real y dy dk P e nr ni mr mi z k) + ∑ k, b k * d_plus_f_m_perp_imag y dy dk P e nr ni mr mi z k) 0 := by
  have hxy := xy_nonneg hz.le mr mi
  simp only [Fin.sum_univ_three, calc_iint_plus, d_plus_f_m_perp_real, d_plus_f_m_perp_imag]
  comb_dir comb_plus

theorem dir_minus (hy : ∀ s, 0 ≤ s → HasDerivAt y (dy s) s) (hz : IsUnit3 z) (a b : Fin 3 → ℝ) :
    HasDerivAt (fun t => calc_iint_minus y dy dk P e nr ni (fun k => mr k + t * a k) (fun k => mi k + t * b k) z)
      ((∑ k, a k * d_minus_f_m_perp_real y dy dk P e nr ni mr mi z k) + ∑ k, b k * d_minus_f_m_perp_imag y dy dk P e nr ni mr mi z k) 0 := by
  have hxy := xy_nonneg hz.le mr mi
  simp only [Fin.sum_univ_three, calc_iint_minus, d_minus_f_m_perp_real, d_minus_f_m_perp_imag]
  comb_dir comb_minus

end

theorem fRe_move (E : Exp n m) (d v : Den n m) (r : Refl n m) (t : ℝ) (k : Fin 3) : fRe E (d.move v t) r k = fRe E d r k + t * fRe E v r k := by
  unfold fRe Den.move
  rw [mul_add, Finset.mul_sum, Finset.mul_sum, add_add_add_comm, ← Finset.sum_add_distrib, ← Finset.sum_add_distrib]
  congr 1 <;> exact Finset.sum_congr rfl fun i _ => by ring

theorem fIm_move (E : Exp n m) (d v : Den n m) (r : Refl n m) (t : ℝ) (k : Fin 3) : fIm E (d.move v t) r k = fIm E d r k + t * fIm E v r k := by
  unfold fIm Den.move
  rw [mul_add, Finset.mul_sum, Finset.mul_sum, add_add_add_comm, ← Finset.sum_add_distrib, ← Finset.sum_add_distrib]
  congr 1 <;> exact Finset.sum_congr rfl fun i _ => by ring

theorem move_zero (d v : Den n m) : d.move v 0 = d := by
  unfold Den.move
  simp only [zero_mul, add_zero]

/-- derivative of the fitted quantity over the two intensities -/
theorem model_deriv (E : Exp n m) (d : Den n m) (r : Refl n m) {f g : ℝ → ℝ} {f' g' : ℝ} (hf : HasDerivAt f f' 0) (hg : HasDerivAt g g' 0)
    (hf0 : f 0 = iPlus E d r) (hg0 : g 0 = iMinus E d r)
    (h : if E.asymmetry then iPlus E d r + iMinus E d r ≠ 0 ∧ r.value + 1 ≠ 0 else iMinus E d r ≠ 0) :
    HasDerivAt (fun t => if E.asymmetry then Cryspy.Flip.asymmetry (f t) (g t) else flip_ratio (f t) (g t))
      ((dModel E d r).1 * f' + (dModel E d r).2 * g') 0 := by
  unfold dModel
  cases hE : E.asymmetry with
  | true =>
    rw [hE, if_pos rfl] at h
    simp only [if_true, Cryspy.Flip.asymmetry, d_asymmetry_plus, d_asymmetry_minus, add_zero]
    have h0 : f 0 + g 0 ≠ 0 := by rw [hf0, hg0]; exact h.1
    refine ((hf.fun_sub hg).fun_div (hf.fun_add hg) h0).congr_deriv ?_
    rw [hf0, hg0]
    have := h.1
    field_simp
    ring
  | false =>
    rw [hE] at h
    simp only [Bool.false_eq_true, if_false, flip_ratio, d_flip_ratio_plus, d_flip_ratio_minus] at h ⊢
    refine (hf.fun_div hg (by rw [hg0]; exact h)).congr_deriv ?_
    rw [hf0, hg0]
    field_simp
    ring

/-- the derivative of the fitted quantity along `v` -/
theorem model_move (E : Exp n m) (d v : Den n m) {r : Refl n m} (hx : IsUnit3 r.z ∧ ∀ s, 0 ≤ s → HasDerivAt r.y 0 s)
    (h : if E.asymmetry then iPlus E d r + iMinus E d r ≠ 0 ∧ r.value + 1 ≠ 0 else iMinus E d r ≠ 0) :
    HasDerivAt (fun t => model E (d.move v t) r) ((∑ k, fRe E v r k * wRe E d r k) + ∑ k, fIm E v r k * wIm E d r k) 0 := by
  have a := dir_plus (y := r.y) (dy := fun _ => 0) (dk := fun _ => 0) r.P r.e r.nRe r.nIm (fRe E d r) (fIm E d r) r.z hx.2 hx.1 (fRe E v r) (fIm E v r)
  have b := dir_minus (y := r.y) (dy := fun _ => 0) (dk := fun _ => 0) r.P r.e r.nRe r.nIm (fRe E d r) (fIm E d r) r.z hx.2 hx.1 (fRe E v r) (fIm E v r)
  have c := model_deriv E d r a b (by simp [iPlus]) (by simp [iMinus]) h
  have e1 : ∀ t, (fun k => fRe E d r k + t * fRe E v r k) = fRe E (d.move v t) r := fun t => funext fun k => (fRe_move E d v r t k).symm
  have e2 : ∀ t, (fun k => fIm E d r k + t * fIm E v r k) = fIm E (d.move v t) r := fun t => funext fun k => (fIm_move E d v r t k).symm
  simp only [e1, e2] at c
  refine HasDerivAt.congr_deriv c ?_
  simp only [wRe, wIm, mul_add, Finset.sum_add_distrib, Finset.mul_sum]
  have q : ∀ (x : ℝ) (f g : Fin 3 → ℝ), ∑ k, f k * (x * g k) = ∑ k, x * (f k * g k) := fun x f g => Finset.sum_congr rfl fun k _ => by ring
  simp only [q]
  ring

/-- the sum over the components of the vector, exchanged with the sum over the points -/
theorem move_points (E : Exp n m) (d v : Den n m) (r : Refl n m) :
    (∑ k, fRe E v r k * wRe E d r k) + ∑ k, fIm E v r k * wIm E d r k =
      (∑ i, (E.magPlus * v.plus i + E.magMinus * v.minus i) * dCol E d r i) + ∑ j, v.chi j * dChi E d r j := by
  simp only [fRe, fIm, dCol, dChi, Fin.sum_univ_three, add_mul, Finset.sum_mul, mul_add, ← Finset.sum_add_distrib]
  rw [show ∀ a b c a' b' c' A B C A' B' C' : ℝ, a + A + (b + B) + (c + C) + (a' + A' + (b' + B') + (c' + C')) = (a + b + c + a' + b' + c') + (A + B + C + A' + B' + C') from
    fun _ _ _ _ _ _ _ _ _ _ _ _ => by ring]
  simp only [← Finset.sum_add_distrib]
  congr 1 <;> exact Finset.sum_congr rfl fun i _ => by ring

/-! ### theorems -/

/-- **C68.** Without extinction the derivative that steers the iteration is the gradient of the goodness of fit: along every direction -/
theorem grad_spec (E : Exp n m) (d v : Den n m) (hx : NoExtinction E) (hr : Regular E d) :
    HasDerivAt (fun t => gof E (d.move v t)) ((grad E d).dot v) 0 := by
  have key : ∀ L : List (Refl n m), (∀ r ∈ L, r ∈ E.refl) →
      HasDerivAt (fun t => (L.map fun r => (((measured E r).1 - model E (d.move v t) r) / (measured E r).2) ^ 2).sum)
        (-2 * (L.map fun r => ((measured E r).1 - model E d r) / (measured E r).2 / (measured E r).2 *
          ((∑ i, (E.magPlus * v.plus i + E.magMinus * v.minus i) * dCol E d r i) + ∑ j, v.chi j * dChi E d r j)).sum) 0 := by
    intro L hL
    induction L with
    | nil => simpa using hasDerivAt_const (0 : ℝ) (0 : ℝ)
    | cons r L ih =>
      have i := ih fun q hq => hL q (by simp [hq])
      have hr' := hL r (by simp)
      have a := model_move E d v (hx r hr') (hr.2 r hr').2
      have b := (((a.const_sub (measured E r).1).div_const (measured E r).2).fun_pow 2).fun_add i
      simp only [List.map_cons, List.sum_cons]
      refine HasDerivAt.congr_deriv b ?_
      rw [move_zero, move_points]
      push_cast
      ring
  have h := (key E.refl fun r hr => hr).div_const (E.refl.length : ℝ)
  refine HasDerivAt.congr_deriv h ?_
  unfold grad Den.dot
  dsimp only
  generalize (E.refl.length : ℝ) = N
  have e : ∀ L : List (Refl n m), -2 * (L.map fun r => ((measured E r).1 - model E d r) / (measured E r).2 / (measured E r).2 *
          ((∑ i, (E.magPlus * v.plus i + E.magMinus * v.minus i) * dCol E d r i) + ∑ j, v.chi j * dChi E d r j)).sum / N =
      (∑ i, E.magPlus * (-2 / N * (L.map fun r => ((measured E r).1 - model E d r) / (measured E r).2 / (measured E r).2 * dCol E d r i).sum) * v.plus i) +
      (∑ i, E.magMinus * (-2 / N * (L.map fun r => ((measured E r).1 - model E d r) / (measured E r).2 / (measured E r).2 * dCol E d r i).sum) * v.minus i) +
      ∑ j, -2 / N * (L.map fun r => ((measured E r).1 - model E d r) / (measured E r).2 / (measured E r).2 * dChi E d r j).sum * v.chi j := by
    intro L
    induction L with
    | nil => simp
    | cons r L ih =>
      simp only [List.map_cons, List.sum_cons, mul_add, add_mul, add_div, Finset.sum_add_distrib, Finset.mul_sum, Finset.sum_mul, Finset.sum_div] at ih ⊢
      rw [ih]
      rw [show ∀ a b c A B C A' B' C' : ℝ, a = A → b = B → c = C → a + b + c + (A' + B' + C') = A + A' + (B + B') + (C + C') from
        fun _ _ _ _ _ _ _ _ _ h1 h2 h3 => by rw [h1, h2, h3]; ring]
      all_goals exact Finset.sum_congr rfl fun i _ => by ring
  exact e E.refl

end Cryspy.MemIt
