import Verif.Gen.FormFactor
import Mathlib.Analysis.SpecialFunctions.ExpDeriv
import Mathlib.Analysis.Calculus.Deriv.Inv
import Mathlib.Analysis.Calculus.Deriv.Pow
import Mathlib.Topology.Algebra.Order.Field

/-!
# C62: magnetic form factors
-/

namespace Cryspy.FF

open Real

/-- Specification: three Gaussians and a constant (International Tables C, 4.4.5), `q = (sin θ/λ)²`. -/
noncomputable def gauss (p : Fin 7 → ℝ) (q : ℝ) : ℝ := p 0 * exp (-p 1 * q) + p 2 * exp (-p 3 * q) + p 4 * exp (-p 5 * q) + p 6

/-- **C62** The form factor is `⟨j0⟩ + (2/g - 1) ⟨j2⟩`, with `⟨j0⟩` and `⟨j2⟩/q` of the tabulated form, at the scattering vector
divided by the expansion parameter. -/
theorem ff_spec (s g κ : ℝ) (p0 p2 : Fin 7 → ℝ) :
    ff s g κ p0 p2 = gauss p0 ((s / κ) ^ 2) + (2 / g - 1) * ((s / κ) ^ 2 * gauss p2 ((s / κ) ^ 2)) ∧
    ffOrb s g κ p0 p2 = (2 / g - 1) * ((s / κ) ^ 2 * gauss p2 ((s / κ) ^ 2)) := by
  simp only [ff, ffOrb, j0, j2, gauss]
  constructor <;> ring

/-- **C62** In the forward direction only the spin part counts, whatever the Landé factor: the sum of the four numbers (one for a
normalised table). -/
theorem ff_forward (g κ : ℝ) (p0 p2 : Fin 7 → ℝ) :
    ff 0 g κ p0 p2 = p0 0 + p0 2 + p0 4 + p0 6 ∧ ffOrb 0 g κ p0 p2 = 0 := by
  rw [(ff_spec _ _ _ _ _).1, (ff_spec _ _ _ _ _).2]
  simp [gauss]

/-- **C62** With the Landé factor of a spin there is no orbital part. -/
theorem ff_spin (s κ : ℝ) (p0 p2 : Fin 7 → ℝ) : ff s 2 κ p0 p2 = j0 s κ p0 ∧ ffOrb s 2 κ p0 p2 = 0 := by
  simp [ff, ffOrb]

/-- **C62** The expansion parameter only rescales the scattering vector. -/
theorem ff_kappa (s g κ : ℝ) (hκ : κ ≠ 0) (p0 p2 : Fin 7 → ℝ) : ff (κ * s) g κ p0 p2 = ff s g 1 p0 p2 := by
  rw [(ff_spec _ _ _ _ _).1, (ff_spec _ _ _ _ _).1, mul_div_cancel_left₀ _ hκ, div_one]

/-- **C62** The form factor does not depend on the sign of the scattering vector. -/
theorem ff_even (s g κ : ℝ) (p0 p2 : Fin 7 → ℝ) : ff (-s) g κ p0 p2 = ff s g κ p0 p2 := by
  rw [(ff_spec _ _ _ _ _).1, (ff_spec _ _ _ _ _).1, neg_div, neg_sq]

/-- **C62** The spin part of a table with exponents that are not negative is bounded by the numbers of the table. -/
theorem j0_bound (s κ : ℝ) (p : Fin 7 → ℝ) (h1 : 0 ≤ p 1) (h3 : 0 ≤ p 3) (h5 : 0 ≤ p 5) :
    |j0 s κ p| ≤ |p 0| + |p 2| + |p 4| + |p 6| := by
  have e : ∀ a, 0 ≤ a → |exp (-a * (s / κ) ^ 2)| ≤ 1 := by
    intro a ha
    rw [abs_of_pos (exp_pos _), exp_le_one_iff]
    nlinarith [sq_nonneg (s / κ), mul_nonneg ha (sq_nonneg (s / κ))]
  have t : ∀ A a, 0 ≤ a → |A * exp (-a * (s / κ) ^ 2)| ≤ |A| := by
    intro A a ha
    rw [abs_mul]
    exact mul_le_of_le_one_right (abs_nonneg _) (e a ha)
  simp only [j0]
  calc |p 0 * exp (-p 1 * (s / κ) ^ 2) + p 2 * exp (-p 3 * (s / κ) ^ 2) + p 4 * exp (-p 5 * (s / κ) ^ 2) + p 6|
      ≤ |p 0 * exp (-p 1 * (s / κ) ^ 2)| + |p 2 * exp (-p 3 * (s / κ) ^ 2)| + |p 4 * exp (-p 5 * (s / κ) ^ 2)| + |p 6| :=
        (abs_add_le _ _).trans (add_le_add_left ((abs_add_le _ _).trans (add_le_add_left (abs_add_le _ _) _)) _)
    _ ≤ _ := add_le_add_left (add_le_add (add_le_add (t _ _ h1) (t _ _ h3)) (t _ _ h5)) _

/-- slope of `gauss` -/
noncomputable def gauss' (p : Fin 7 → ℝ) (q : ℝ) : ℝ :=
  -(p 0 * exp (-p 1 * q) * p 1 + p 2 * exp (-p 3 * q) * p 3 + p 4 * exp (-p 5 * q) * p 5)

theorem gauss_deriv (p : Fin 7 → ℝ) (q : ℝ) : HasDerivAt (gauss p) (gauss' p q) q := by
  have t : ∀ A a, HasDerivAt (fun q => A * exp (-a * q)) (A * (exp (-a * q) * (-a * 1))) q := fun A a =>
    (((hasDerivAt_id q).const_mul (-a)).exp).const_mul A
  have := (((t (p 0) (p 1)).add (t (p 2) (p 3))).add (t (p 4) (p 5))).add_const (p 6)
  refine HasDerivAt.congr_deriv this ?_
  simp only [gauss']
  ring

theorem sq_deriv_s (s κ : ℝ) : HasDerivAt (fun s => (s / κ) ^ 2) (2 * (s / κ) / κ) s := by
  have := ((hasDerivAt_id s).div_const κ).fun_pow 2
  refine HasDerivAt.congr_deriv this ?_
  simp
  ring

theorem sq_deriv_k (s κ : ℝ) (hκ : κ ≠ 0) : HasDerivAt (fun κ => (s / κ) ^ 2) (-2 * (s / κ) ^ 2 / κ) κ := by
  have h := ((hasDerivAt_inv hκ).const_mul s).fun_pow 2
  have e : (fun κ : ℝ => (s / κ) ^ 2) = fun κ => (s * κ⁻¹) ^ 2 := by funext x; rw [div_eq_mul_inv]
  rw [e]
  refine HasDerivAt.congr_deriv h ?_
  simp only [Nat.cast_ofNat, Nat.add_one_sub_one, pow_one]
  field_simp

theorem comp_deriv {f : ℝ → ℝ} {p : Fin 7 → ℝ} {d x : ℝ} (hf : HasDerivAt f d x) :
    HasDerivAt (fun t => gauss p (f t)) (gauss' p (f x) * d) x := (gauss_deriv p (f x)).comp x hf

/-- **C62** The reported derivatives of `⟨j0⟩` are right. -/
theorem grad_j0 (s κ : ℝ) (hκ : κ ≠ 0) (p : Fin 7 → ℝ) :
    HasDerivAt (fun t => j0 t κ p) (d_j0_sthovl s κ p) s ∧ HasDerivAt (fun t => j0 s t p) (d_j0_kappa s κ p) κ := by
  constructor
  · refine HasDerivAt.congr_deriv (comp_deriv (p := p) (sq_deriv_s s κ)) ?_
    simp only [gauss', d_j0_sthovl]
    ring
  · refine HasDerivAt.congr_deriv (comp_deriv (p := p) (sq_deriv_k s κ hκ)) ?_
    simp only [gauss', d_j0_kappa]
    ring

/-- the derivatives of `⟨j2⟩` as they should be -/
theorem j2_deriv (s κ : ℝ) (hκ : κ ≠ 0) (p : Fin 7 → ℝ) :
    HasDerivAt (fun t => j2 t κ p) (d_j2_sthovl s κ p + gauss p ((s / κ) ^ 2) * (2 * (s / κ) - 1) / κ) s ∧
    HasDerivAt (fun t => j2 s t p) (d_j2_kappa s κ p - gauss p ((s / κ) ^ 2) * (2 * (s / κ) - 1) * (s / κ) / κ) κ := by
  constructor
  · refine HasDerivAt.congr_deriv ((comp_deriv (p := p) (sq_deriv_s s κ)).fun_mul (sq_deriv_s s κ)) ?_
    simp only [gauss, gauss', d_j2_sthovl]
    ring
  · refine HasDerivAt.congr_deriv ((comp_deriv (p := p) (sq_deriv_k s κ hκ)).fun_mul (sq_deriv_k s κ hκ)) ?_
    simp only [gauss, gauss', d_j2_kappa]
    ring

theorem deriv_iff {f : ℝ → ℝ} {d e x : ℝ} (h : HasDerivAt f (d + e) x) : HasDerivAt f d x ↔ e = 0 :=
  ⟨fun h' => by linarith [h'.unique h], fun he => by rwa [he, add_zero] at h⟩

/-- **C62** The reported derivatives of `⟨j2⟩` miss a factor `2 s/κ`: they are right only if `⟨j2⟩/q` vanishes there or
`s/κ = 1/2` (or, for the derivative over `κ`, `s = 0`). -/
theorem grad_j2_iff (s κ : ℝ) (hκ : κ ≠ 0) (p : Fin 7 → ℝ) :
    (HasDerivAt (fun t => j2 t κ p) (d_j2_sthovl s κ p) s ↔ gauss p ((s / κ) ^ 2) = 0 ∨ s / κ = 1 / 2) ∧
    (HasDerivAt (fun t => j2 s t p) (d_j2_kappa s κ p) κ ↔ gauss p ((s / κ) ^ 2) = 0 ∨ s / κ = 1 / 2 ∨ s = 0) := by
  obtain ⟨h1, h2⟩ := j2_deriv s κ hκ p
  rw [sub_eq_add_neg] at h2
  have e : ∀ x : ℝ, 2 * x - 1 = 0 ↔ x = 1 / 2 := fun x => by constructor <;> intro h <;> linarith
  rw [deriv_iff h1, deriv_iff h2, neg_eq_zero]
  simp only [div_eq_zero_iff, mul_eq_zero, e, hκ, or_false, or_assoc, and_self]

/-- **C62** So the derivatives of the form factor are right without orbital part … -/
theorem grad_ff_spec (s g κ : ℝ) (hκ : κ ≠ 0) (p0 p2 : Fin 7 → ℝ) :
    (HasDerivAt (fun t => ff t g κ p0 p2) (d_ff_sthovl s g κ p0 p2) s ↔
      2 / g = 1 ∨ gauss p2 ((s / κ) ^ 2) = 0 ∨ s / κ = 1 / 2) ∧
    (HasDerivAt (fun t => ff s g t p0 p2) (d_ff_kappa s g κ p0 p2) κ ↔
      2 / g = 1 ∨ gauss p2 ((s / κ) ^ 2) = 0 ∨ s / κ = 1 / 2 ∨ s = 0) := by
  obtain ⟨h1, h2⟩ := j2_deriv s κ hκ p2
  obtain ⟨k1, k2⟩ := grad_j0 s κ hκ p0
  have a1 : HasDerivAt (fun t => ff t g κ p0 p2) (d_ff_sthovl s g κ p0 p2 +
      (2 / g - 1) * (gauss p2 ((s / κ) ^ 2) * (2 * (s / κ) - 1) / κ)) s := by
    refine HasDerivAt.congr_deriv (k1.add (h1.const_mul (2 / g - 1))) ?_
    simp only [d_ff_sthovl]
    ring
  have a2 : HasDerivAt (fun t => ff s g t p0 p2) (d_ff_kappa s g κ p0 p2 +
      -((2 / g - 1) * (gauss p2 ((s / κ) ^ 2) * (2 * (s / κ) - 1) * (s / κ) / κ))) κ := by
    refine HasDerivAt.congr_deriv (k2.add (h2.const_mul (2 / g - 1))) ?_
    simp only [d_ff_kappa]
    ring
  have e : ∀ x : ℝ, 2 * x - 1 = 0 ↔ x = 1 / 2 := fun x => by constructor <;> intro h <;> linarith
  rw [deriv_iff a1, deriv_iff a2, neg_eq_zero]
  simp only [div_eq_zero_iff, mul_eq_zero, e, hκ, or_false, or_assoc, sub_eq_zero, and_self]

/-- **C62** … and the derivative over the Landé factor is right. -/
theorem grad_lande (s g κ : ℝ) (hg : g ≠ 0) (p0 p2 : Fin 7 → ℝ) :
    HasDerivAt (fun t => ff s t κ p0 p2) (d_ff_lande s g κ p0 p2) g ∧
    HasDerivAt (fun t => ffOrb s t κ p0 p2) (d_ffOrb_lande s g κ p0 p2) g := by
  have h : HasDerivAt (fun t : ℝ => 2 / t - 1) (-2 / g ^ 2) g := by
    have e : (fun t : ℝ => 2 / t - 1) = fun t => 2 * t⁻¹ - 1 := by funext t; rw [div_eq_mul_inv]
    rw [e]
    refine HasDerivAt.congr_deriv (((hasDerivAt_inv hg).const_mul 2).sub_const 1) ?_
    ring
  constructor
  · refine HasDerivAt.congr_deriv ((h.mul_const (j2 s κ p2)).const_add (j0 s κ p0)) ?_
    simp only [d_ff_lande]
    ring
  · refine HasDerivAt.congr_deriv (h.mul_const (j2 s κ p2)) ?_
    simp only [d_ffOrb_lande]
    ring

/-- Numbers like those of the tables: exponents that are not negative, and a derivative that is wrong. -/
def ex_j2 : Fin 7 → ℝ := ![1.6490, 16.559, 1.9064, 6.133, 0.5206, 2.137, 0.0035]

example : 0 ≤ ex_j2 1 ∧ 0 ≤ ex_j2 3 ∧ 0 ≤ ex_j2 5 := by
  simp [ex_j2]; norm_num

/-- **C62** … for instance at `s = 1`, `κ = 1`. -/
theorem grad_j2_wrong : ¬ HasDerivAt (fun t => j2 t 1 ex_j2) (d_j2_sthovl 1 1 ex_j2) 1 := by
  rw [(grad_j2_iff 1 1 one_ne_zero ex_j2).1]
  have : 0 < gauss ex_j2 ((1 / 1) ^ 2) := by
    simp only [gauss, ex_j2, Matrix.cons_val]
    positivity
  push Not
  exact ⟨this.ne', by norm_num⟩

end Cryspy.FF
