import Verif.Cell.Props
import Mathlib.Analysis.SpecialFunctions.Trigonometric.Deriv
import Mathlib.Analysis.SpecialFunctions.Sqrt
import Mathlib.Analysis.Calculus.Deriv.Inv

/-! Tactics that differentiate the explicit formulas of the unit cell, and the derivative of `φ`. -/

namespace Cryspy.Cell

open Real Cryspy.Mat
open scoped Matrix

/-- syntax-directed differentiation; leaves the side conditions -/
macro "hd" : tactic => `(tactic| repeat' (first
  | with_reducible assumption
  | with_reducible exact hasDerivAt_id' _
  | with_reducible exact hasDerivAt_const _ _
  | with_reducible exact Real.hasDerivAt_cos _
  | with_reducible exact Real.hasDerivAt_sin _
  | with_reducible apply HasDerivAt.fun_add
  | with_reducible apply HasDerivAt.fun_sub
  | with_reducible apply HasDerivAt.fun_neg
  | with_reducible apply HasDerivAt.fun_div
  | with_reducible apply HasDerivAt.fun_mul
  | with_reducible apply HasDerivAt.fun_pow
  | with_reducible apply HasDerivAt.cos
  | with_reducible apply HasDerivAt.sin
  | with_reducible apply HasDerivAt.sqrt))

/-- one entry of a table of partial derivatives -/
macro "jac" : tactic => `(tactic| (
  simp only [Function.update_apply, Fin.reduceEq, if_true, if_false, Matrix.cons_val]
  apply HasDerivAt.congr_deriv
  hd))

/-- close the algebra left by `jac` -/
macro "jac_close" : tactic => `(tactic| (
  (try simp only [Function.update_eq_self])
  first
  | (simp only [ne_eq, mul_eq_zero, pow_eq_zero_iff, not_or, OfNat.ofNat_ne_zero, not_false_eq_true]; tauto)
  | (ring; done) | (field_simp; done) | (field_simp; ring; done) | (field_simp; grind)))

theorem d_phi_sq (uc : Fin 6 → ℝ) : IsJacobian (fun x (_ : Unit) => calc_phi_sq x) (fun _ => d_calc_phi_sq uc) uc := by
  intro _
  unfold calc_phi_sq d_calc_phi_sq
  apply fin6 <;> jac <;> ring

theorem d_phi {uc : Fin 6 → ℝ} (h : NonDegenerate uc) :
    IsJacobian (fun x (_ : Unit) => calc_phi x) (fun _ => d_calc_phi uc) uc := by
  intro _ j
  have h1 := d_phi_sq uc () j
  have h2 := (h1.sqrt (by simpa using (phi_sq_pos h).ne'))
  refine h2.congr_deriv ?_
  simp only [Function.update_eq_self]
  revert j
  unfold d_calc_phi
  apply fin6 <;> simp only [Matrix.cons_val] <;> intros <;> ring

set_option hygiene false in
/-- put the facts of a non-degenerate cell, and the derivatives of `φ`, in the context -/
macro "cell_facts" h:ident : tactic =>
  `(tactic| (
    have h1 := Facts.a_ne (facts $h); have h2 := Facts.b_ne (facts $h); have h3 := Facts.c_ne (facts $h)
    have h4 := Facts.sa_ne (facts $h); have h5 := Facts.sb_ne (facts $h); have h6 := Facts.sg_ne (facts $h)
    have h7 := Facts.p_ne (facts $h); have h8 := Facts.sa2 (facts $h)
    have h9 := Facts.sb2 (facts $h); have h10 := Facts.sg2 (facts $h); have h11 := Facts.p2 (facts $h)
    have p0 := d_phi $h () 0; have p1 := d_phi $h () 1; have p2 := d_phi $h () 2
    have p3 := d_phi $h () 3; have p4 := d_phi $h () 4; have p5 := d_phi $h () 5
    simp only at p0 p1 p2 p3 p4 p5))

/-- the six numbers `d_calc_phi` -/
theorem d_calc_phi_val (uc : Fin 6 → ℝ) :
    d_calc_phi uc 0 = 0 ∧ d_calc_phi uc 1 = 0 ∧ d_calc_phi uc 2 = 0 ∧
    d_calc_phi uc 3 = sin (uc 3) * (cos (uc 3) - cos (uc 4) * cos (uc 5)) / calc_phi uc ∧
    d_calc_phi uc 4 = sin (uc 4) * (cos (uc 4) - cos (uc 5) * cos (uc 3)) / calc_phi uc ∧
    d_calc_phi uc 5 = sin (uc 5) * (cos (uc 5) - cos (uc 3) * cos (uc 4)) / calc_phi uc := by
  unfold d_calc_phi d_calc_phi_sq calc_phi
  simp only [Matrix.cons_val]
  refine ⟨?_, ?_, ?_, ?_, ?_, ?_⟩ <;> ring

theorem isJacobian_iff {n : ℕ} {ι : Type} {f : (Fin n → ℝ) → ι → ℝ} {d e : ι → Fin n → ℝ} {x : Fin n → ℝ}
    (h : IsJacobian f d x) : IsJacobian f e x ↔ ∀ i j, e i j = d i j := by
  constructor
  · intro H i j; exact (H i j).unique (h i j)
  · intro H i j; exact (h i j).congr_deriv (H i j).symm

theorem forall_fin6 {P : Fin 6 → Prop} : (∀ k, P k) ↔ P 0 ∧ P 1 ∧ P 2 ∧ P 3 ∧ P 4 ∧ P 5 :=
  ⟨fun h => ⟨h 0, h 1, h 2, h 3, h 4, h 5⟩, fun ⟨h0, h1, h2, h3, h4, h5⟩ => fin6 h0 h1 h2 h3 h4 h5⟩

theorem vol_aux {a b c s x y z p : ℝ} (ha : a ≠ 0) (hb : b ≠ 0) (hc : c ≠ 0) (hs : s ≠ 0) (hp : p ≠ 0)
    (h1 : s ^ 2 = 1 - x ^ 2) :
    -a * b * c * (1 / 2) * (-2 * x ^ 2 + 2 * y * z) * s / p = a * b * c * (s * (x - y * z) / p) ↔ x = 0 := by
  constructor
  · intro h
    field_simp at h
    have : x * (1 - x) = 0 := by linear_combination -h
    rcases mul_eq_zero.mp this with h | h
    · exact h
    · exact absurd (by nlinarith) hs
  · rintro rfl; ring

/-- the true derivative of the volume -/
theorem d_volume_true {uc : Fin 6 → ℝ} (h : NonDegenerate uc) :
    IsJacobian (fun x (_ : Unit) => calc_volume_uc x)
      (fun _ => ![uc 1 * uc 2 * calc_phi uc, uc 0 * uc 2 * calc_phi uc, uc 0 * uc 1 * calc_phi uc,
        uc 0 * uc 1 * uc 2 * d_calc_phi uc 3, uc 0 * uc 1 * uc 2 * d_calc_phi uc 4,
        uc 0 * uc 1 * uc 2 * d_calc_phi uc 5]) uc := by
  cell_facts h
  obtain ⟨q0, q1, q2, -⟩ := d_calc_phi_val uc
  intro _
  unfold calc_volume_uc
  apply fin6 <;> jac <;> simp only [Function.update_eq_self, q0, q1, q2] <;> ring

theorem volume_ne {uc : Fin 6 → ℝ} (h : NonDegenerate uc) : calc_volume_uc uc ≠ 0 := by
  have F := facts h
  unfold calc_volume_uc
  exact mul_ne_zero (mul_ne_zero (mul_ne_zero F.a_ne F.b_ne) F.c_ne) F.p_ne

/-- in a non-degenerate cell three products of cosines vanish only together with the cosines -/
theorem right_of_products {x y z sz sx sy: ℝ} (hz : sz ≠ 0) (hx : sx ≠ 0) (hy : sy ≠ 0) (h1 : sx ^ 2 = 1 - x ^ 2)
    (h2 : sy ^ 2 = 1 - y ^ 2) (h3 : sz ^ 2 = 1 - z ^ 2) (e1 : x = y * z) (e2 : y = x * z) (e3 : z = x * y) :
    x = 0 ∧ y = 0 ∧ z = 0 := by
  have k1 : x * sz ^ 2 = 0 := by rw [h3]; linear_combination e1 + z * e2
  have k2 : y * sz ^ 2 = 0 := by rw [h3]; linear_combination e2 + z * e1
  have k3 : z * sy ^ 2 = 0 := by rw [h2]; linear_combination e3 + y * e1
  exact ⟨by simpa [hz] using k1, by simpa [hz] using k2, by simpa [hy] using k3⟩

/-- the radicand of `calc_inv_d` -/
noncomputable def invDSq (hkl : Fin 3 → ℝ) (uc : Fin 6 → ℝ) : ℝ :=
  ((1 - cos (uc 3) ^ 2) * (hkl 0 * 1 / uc 0) ^ 2 + (1 - cos (uc 4) ^ 2) * (hkl 1 * 1 / uc 1) ^ 2
    + (1 - cos (uc 5) ^ 2) * (hkl 2 * 1 / uc 2) ^ 2
    - (2 * (hkl 1 * hkl 2 * (cos (uc 3) - cos (uc 4) * cos (uc 5))) / (uc 1 * uc 2)
      + 2 * (hkl 0 * hkl 2 * (cos (uc 4) - cos (uc 3) * cos (uc 5))) / (uc 0 * uc 2)
      + 2 * (hkl 0 * hkl 1 * (cos (uc 5) - cos (uc 3) * cos (uc 4))) / (uc 0 * uc 1))) * 1 / calc_phi_sq uc

theorem calc_inv_d_eq (hkl : Fin 3 → ℝ) (uc : Fin 6 → ℝ) : calc_inv_d hkl uc = √(invDSq hkl uc) := rfl

theorem inv_d_ne {hkl : Fin 3 → ℝ} {uc : Fin 6 → ℝ} (h : NonDegenerate uc) (hz : hkl ≠ 0) : calc_inv_d hkl uc ≠ 0 := by
  intro e
  apply hz
  have hl := (inv_d_is_length hkl uc h).2.1
  rw [e, q_ccs_spec] at hl
  have hq : toM (calc_m_b uc) *ᵥ hkl = 0 := by
    generalize toM (calc_m_b uc) *ᵥ hkl = v at hl
    simp only [dotProduct, Fin.sum_univ_three] at hl
    apply v_ext <;> simp only [Pi.zero_apply] <;> nlinarith [mul_self_nonneg (v 0), mul_self_nonneg (v 1), mul_self_nonneg (v 2)]
  have := congrArg (fun v => toM (calc_m_inv_b uc) *ᵥ v) hq
  simpa [Matrix.mulVec_mulVec, (m_inv_b_spec uc h).2] using this

theorem d_calc_inv_d_right (hkl : Fin 3 → ℝ) {uc : Fin 6 → ℝ} (c1 : cos (uc 3) = 0) (c2 : cos (uc 4) = 0)
    (c3 : cos (uc 5) = 0) :
    d_calc_inv_d hkl uc = ![-hkl 0 ^ 2 / uc 0 ^ 3 / calc_inv_d hkl uc, -hkl 1 ^ 2 / uc 1 ^ 3 / calc_inv_d hkl uc,
      -hkl 2 ^ 2 / uc 2 ^ 3 / calc_inv_d hkl uc, sin (uc 3) * hkl 1 * hkl 2 / (uc 1 * uc 2) / calc_inv_d hkl uc,
      sin (uc 4) * hkl 2 * hkl 0 / (uc 2 * uc 0) / calc_inv_d hkl uc,
      sin (uc 5) * hkl 0 * hkl 1 / (uc 0 * uc 1) / calc_inv_d hkl uc] := by
  unfold d_calc_inv_d calc_inv_d
  simp only [c1, c2, c3]
  funext j
  revert j
  apply fin6 <;> simp only [Matrix.cons_val] <;> ring

theorem invDSq_jac (hkl : Fin 3 → ℝ) {uc : Fin 6 → ℝ} (h : NonDegenerate uc) :
    IsJacobian (fun x (_ : Unit) => invDSq hkl x) (fun _ => ![
     2 * (hkl 0 / uc 0 ^ 2) * (hkl 2 * (cos (uc 4) - cos (uc 3) * cos (uc 5)) / uc 2 
       + hkl 1 * (cos (uc 5) - cos (uc 3) * cos (uc 4)) / uc 1 - sin (uc 3) ^ 2 * hkl 0 / uc 0) / calc_phi_sq uc,
     2 * (hkl 1 / uc 1 ^ 2) * (hkl 0 * (cos (uc 5) - cos (uc 3) * cos (uc 4)) / uc 0 
       + hkl 2 * (cos (uc 3) - cos (uc 4) * cos (uc 5)) / uc 2 - sin (uc 4) ^ 2 * hkl 1 / uc 1) / calc_phi_sq uc,
     2 * (hkl 2 / uc 2 ^ 2) * (hkl 1 * (cos (uc 3) - cos (uc 4) * cos (uc 5)) / uc 1 
       + hkl 0 * (cos (uc 4) - cos (uc 3) * cos (uc 5)) / uc 0 - sin (uc 5) ^ 2 * hkl 2 / uc 2) / calc_phi_sq uc,
     2 * sin (uc 3) / calc_phi_sq uc * (cos (uc 3) * (hkl 0 / uc 0) ^ 2 + hkl 1 * hkl 2 / (uc 1 * uc 2) 
       - hkl 0 * hkl 2 * cos (uc 5) / (uc 0 * uc 2) - hkl 0 * hkl 1 * cos (uc 4) / (uc 0 * uc 1)
       - invDSq hkl uc * (cos (uc 3) - cos (uc 4) * cos (uc 5))),
     2 * sin (uc 4) / calc_phi_sq uc * (cos (uc 4) * (hkl 1 / uc 1) ^ 2 + hkl 0 * hkl 2 / (uc 0 * uc 2) 
       - hkl 1 * hkl 2 * cos (uc 5) / (uc 1 * uc 2) - hkl 0 * hkl 1 * cos (uc 3) / (uc 0 * uc 1)
       - invDSq hkl uc * (cos (uc 4) - cos (uc 3) * cos (uc 5))),
     2 * sin (uc 5) / calc_phi_sq uc * (cos (uc 5) * (hkl 2 / uc 2) ^ 2 + hkl 0 * hkl 1 / (uc 0 * uc 1) 
       - hkl 1 * hkl 2 * cos (uc 4) / (uc 1 * uc 2) - hkl 0 * hkl 2 * cos (uc 3) / (uc 0 * uc 2)
       - invDSq hkl uc * (cos (uc 5) - cos (uc 3) * cos (uc 4)))]) uc := by
  cell_facts h
  clear p0 p1 p2 p3 p4 p5 h11 h7
  have hp := (phi_sq_pos h).ne'
  have p0 := d_phi_sq uc () 0
  have p1 := d_phi_sq uc () 1
  have p2 := d_phi_sq uc () 2
  have p3 := d_phi_sq uc () 3
  have p4 := d_phi_sq uc () 4
  have p5 := d_phi_sq uc () 5
  simp only at p0 p1 p2 p3 p4 p5
  have e0 : d_calc_phi_sq uc 0 = 0 := rfl
  have e1 : d_calc_phi_sq uc 1 = 0 := rfl
  have e2 : d_calc_phi_sq uc 2 = 0 := rfl
  have e3 : d_calc_phi_sq uc 3 = 2 * sin (uc 3) * (cos (uc 3) - cos (uc 4) * cos (uc 5)) := rfl
  have e4 : d_calc_phi_sq uc 4 = 2 * sin (uc 4) * (cos (uc 4) - cos (uc 5) * cos (uc 3)) := rfl
  have e5 : d_calc_phi_sq uc 5 = 2 * sin (uc 5) * (cos (uc 5) - cos (uc 3) * cos (uc 4)) := rfl
  intro _
  unfold invDSq
  apply fin6 <;> jac <;> (try simp only [Function.update_eq_self, e0, e1, e2, e3, e4, e5]) <;> (try simp only [h8, h9, h10]) <;> jac_close

end Cryspy.Cell
