import Verif.PowInt.Props

/-!
# C60: derivatives of powder intensities

Every entry of the derivative dictionaries of integrated_intensity_powder_diffraction.py: which are the partial derivatives
(`IsGrad`, `HasDerivAt` from Flip/Spec.lean) of the value computed beside them, and which are not.
-/

namespace Cryspy.PowInt

open Real Cryspy.Flip

/-- A quadratic polynomial and its slope. -/
theorem quad_deriv {q : ℝ → ℝ} {d x : ℝ}
    (h : ∀ t, q t = q x + d * (t - x) + (q (x + 1) - q x - d) * (t - x) ^ 2) : HasDerivAt q d x := by
  have e : q = fun t => q x + d * (t - x) + (q (x + 1) - q x - d) * (t - x) ^ 2 := funext h
  have h1 : HasDerivAt (fun t : ℝ => t - x) 1 x := (hasDerivAt_id x).sub_const x
  have h2 := ((h1.const_mul d).const_add (q x)).add ((h1.fun_pow 2).const_mul (q (x + 1) - q x - d))
  rw [e]
  refine HasDerivAt.congr_deriv ?_ (show d * 1 + (q (x + 1) - q x - d) * (↑2 * (x - x) ^ (2 - 1) * 1) = d by simp)
  exact h2

/-- unfolds everything and compares the polynomials -/
macro "grad9" "[" ls:Lean.Parser.Tactic.simpLemma,* "]" : tactic =>
  `(tactic| (intro k; fin_cases k <;> (refine quad_deriv fun t => ?_) <;> simp [Function.update, $ls,*] <;> ring))

/-- same, for one number -/
macro "grad1" "[" ls:Lean.Parser.Tactic.simpLemma,* "]" : tactic =>
  `(tactic| ((refine quad_deriv fun t => ?_) <;> simp [$ls,*] <;> ring))

/-- **C60** Derivatives of `P1`. -/
theorem grad_P1 (Sre Sim : Fin 9 → ℝ) :
    IsGrad (fun x => P1 x Sim) (d_P1_tensor_sigma_real Sre Sim) Sre ∧
    IsGrad (fun x => P1 Sre x) (d_P1_tensor_sigma_imag Sre Sim) Sim := by
  refine ⟨?_, ?_⟩
  · grad9 [d_P1_tensor_sigma_imag, d_P1_tensor_sigma_real, P1]
  · grad9 [d_P1_tensor_sigma_imag, d_P1_tensor_sigma_real, P1]

/-- **C60** Derivatives of `P2`. -/
theorem grad_P2 (Sre Sim : Fin 9 → ℝ) :
    IsGrad (fun x => P2 x Sim) (d_P2_tensor_sigma_real Sre Sim) Sre ∧
    IsGrad (fun x => P2 Sre x) (d_P2_tensor_sigma_imag Sre Sim) Sim := by
  refine ⟨?_, ?_⟩
  · grad9 [d_P2_tensor_sigma_imag, d_P2_tensor_sigma_real, P2]
  · grad9 [d_P2_tensor_sigma_imag, d_P2_tensor_sigma_real, P2]

/-- **C60** Derivatives of `P3`. -/
theorem grad_P3 (Nre Nim : ℝ) (Sre Sim : Fin 9 → ℝ) :
    HasDerivAt (fun x => P3 x Nim Sre Sim) (d_P3_f_nucl_real Nre Nim Sre Sim) Nre ∧
    HasDerivAt (fun x => P3 Nre x Sre Sim) (d_P3_f_nucl_imag Nre Nim Sre Sim) Nim ∧
    IsGrad (fun x => P3 Nre Nim x Sim) (d_P3_tensor_sigma_real Nre Nim Sre Sim) Sre ∧
    IsGrad (fun x => P3 Nre Nim Sre x) (d_P3_tensor_sigma_imag Nre Nim Sre Sim) Sim := by
  refine ⟨?_, ?_, ?_, ?_⟩
  · grad1 [d_P3_f_nucl_imag, d_P3_f_nucl_real, d_P3_tensor_sigma_imag, d_P3_tensor_sigma_real, P3]
  · grad1 [d_P3_f_nucl_imag, d_P3_f_nucl_real, d_P3_tensor_sigma_imag, d_P3_tensor_sigma_real, P3]
  · grad9 [d_P3_f_nucl_imag, d_P3_f_nucl_real, d_P3_tensor_sigma_imag, d_P3_tensor_sigma_real, P3]
  · grad9 [d_P3_f_nucl_imag, d_P3_f_nucl_real, d_P3_tensor_sigma_imag, d_P3_tensor_sigma_real, P3]

/-- **C60** Derivatives of `P4`. -/
theorem grad_P4 (Sre Sim : Fin 9 → ℝ) :
    IsGrad (fun x => P4 x Sim) (d_P4_tensor_sigma_real Sre Sim) Sre ∧
    IsGrad (fun x => P4 Sre x) (d_P4_tensor_sigma_imag Sre Sim) Sim := by
  refine ⟨?_, ?_⟩
  · grad9 [d_P4_tensor_sigma_imag, d_P4_tensor_sigma_real, P4]
  · grad9 [d_P4_tensor_sigma_imag, d_P4_tensor_sigma_real, P4]

/-- **C60** Derivatives of `P5`. -/
theorem grad_P5 (Sre Sim : Fin 9 → ℝ) :
    IsGrad (fun x => P5 x Sim) (d_P5_tensor_sigma_real Sre Sim) Sre ∧
    IsGrad (fun x => P5 Sre x) (d_P5_tensor_sigma_imag Sre Sim) Sim := by
  refine ⟨?_, ?_⟩
  · grad9 [d_P5_tensor_sigma_imag, d_P5_tensor_sigma_real, P5]
  · grad9 [d_P5_tensor_sigma_imag, d_P5_tensor_sigma_real, P5]

/-- **C60** Derivatives of `O1`. -/
theorem grad_O1 (Nre Nim : ℝ) (Mre Mim : Fin 3 → ℝ) :
    HasDerivAt (fun x => O1 x Nim Mre Mim) (d_O1_f_nucl_real Nre Nim Mre Mim) Nre ∧
    HasDerivAt (fun x => O1 Nre x Mre Mim) (d_O1_f_nucl_imag Nre Nim Mre Mim) Nim ∧
    IsGrad (fun x => O1 Nre Nim x Mim) (d_O1_f_m_perp_real Nre Nim Mre Mim) Mre ∧
    IsGrad (fun x => O1 Nre Nim Mre x) (d_O1_f_m_perp_imag Nre Nim Mre Mim) Mim := by
  refine ⟨?_, ?_, ?_, ?_⟩
  · grad1 [d_O1_f_m_perp_imag, d_O1_f_m_perp_real, d_O1_f_nucl_imag, d_O1_f_nucl_real, O1]
  · grad1 [d_O1_f_m_perp_imag, d_O1_f_m_perp_real, d_O1_f_nucl_imag, d_O1_f_nucl_real, O1]
  · grad9 [d_O1_f_m_perp_imag, d_O1_f_m_perp_real, d_O1_f_nucl_imag, d_O1_f_nucl_real, O1]
  · grad9 [d_O1_f_m_perp_imag, d_O1_f_m_perp_real, d_O1_f_nucl_imag, d_O1_f_nucl_real, O1]

/-- **C60** Derivatives of `O2`. -/
theorem grad_O2 (Mre Mim : Fin 3 → ℝ) :
    IsGrad (fun x => O2 x Mim) (d_O2_f_m_perp_real Mre Mim) Mre ∧
    IsGrad (fun x => O2 Mre x) (d_O2_f_m_perp_imag Mre Mim) Mim := by
  refine ⟨?_, ?_⟩
  · grad9 [d_O2_f_m_perp_imag, d_O2_f_m_perp_real, O2]
  · grad9 [d_O2_f_m_perp_imag, d_O2_f_m_perp_real, O2]

/-- **C60** Derivatives of `M1`; the one over the imaginary part of the ordered moment is in `grad_M1_imag_iff`. -/
theorem grad_M1 (Sre Sim : Fin 9 → ℝ) (Mre Mim : Fin 3 → ℝ) :
    IsGrad (fun x => M1 x Sim Mre Mim) (d_M1_tensor_sigma_real Sre Sim Mre Mim) Sre ∧
    IsGrad (fun x => M1 Sre x Mre Mim) (d_M1_tensor_sigma_imag Sre Sim Mre Mim) Sim ∧
    IsGrad (fun x => M1 Sre Sim x Mim) (d_M1_f_m_perp_real Sre Sim Mre Mim) Mre := by
  refine ⟨?_, ?_, ?_⟩
  · grad9 [d_M1_f_m_perp_real, d_M1_tensor_sigma_imag, d_M1_tensor_sigma_real, M1]
  · grad9 [d_M1_f_m_perp_real, d_M1_tensor_sigma_imag, d_M1_tensor_sigma_real, M1]
  · grad9 [d_M1_f_m_perp_real, d_M1_tensor_sigma_imag, d_M1_tensor_sigma_real, M1]

/-- **C60** Derivatives of `M2`; the one over the imaginary part of the ordered moment is in `grad_M2_imag_iff`. -/
theorem grad_M2 (Sre Sim : Fin 9 → ℝ) (Mre Mim : Fin 3 → ℝ) :
    IsGrad (fun x => M2 x Sim Mre Mim) (d_M2_tensor_sigma_real Sre Sim Mre Mim) Sre ∧
    IsGrad (fun x => M2 Sre x Mre Mim) (d_M2_tensor_sigma_imag Sre Sim Mre Mim) Sim ∧
    IsGrad (fun x => M2 Sre Sim x Mim) (d_M2_f_m_perp_real Sre Sim Mre Mim) Mre := by
  refine ⟨?_, ?_, ?_⟩
  · grad9 [d_M2_f_m_perp_real, d_M2_tensor_sigma_imag, d_M2_tensor_sigma_real, M2]
  · grad9 [d_M2_f_m_perp_real, d_M2_tensor_sigma_imag, d_M2_tensor_sigma_real, M2]
  · grad9 [d_M2_f_m_perp_real, d_M2_tensor_sigma_imag, d_M2_tensor_sigma_real, M2]

/-- **C60** Derivatives of `M3` over the ordered moment; those over the tensor are in `grad_M3_tensor_iff`. -/
theorem grad_M3 (Sre Sim : Fin 9 → ℝ) (Mre Mim : Fin 3 → ℝ) :
    IsGrad (fun x => M3 Sre Sim x Mim) (d_M3_f_m_perp_real Sre Sim Mre Mim) Mre ∧
    IsGrad (fun x => M3 Sre Sim Mre x) (d_M3_f_m_perp_imag Sre Sim Mre Mim) Mim := by
  refine ⟨?_, ?_⟩
  · grad9 [d_M3_f_m_perp_imag, d_M3_f_m_perp_real, M3]
  · grad9 [d_M3_f_m_perp_imag, d_M3_f_m_perp_real, M3]

/-- A slope is unique. -/
theorem grad_iff {n : ℕ} {f : (Fin n → ℝ) → ℝ} {g d x : Fin n → ℝ} (h : IsGrad f g x) : IsGrad f d x ↔ ∀ k, d k = g k :=
  ⟨fun hd k => (hd k).unique (h k), fun e k => (e k) ▸ h k⟩

/-- **C60** The derivative of `M1` over the imaginary part takes the wrong component of the tensor: it is right only if both
components have the same imaginary part. -/
theorem grad_M1_imag_iff (Sre Sim : Fin 9 → ℝ) (Mre Mim : Fin 3 → ℝ) :
    IsGrad (fun x => M1 Sre Sim Mre x) (d_M1_f_m_perp_imag Sre Sim Mre Mim) Mim ↔ Sim 2 = Sim 5 := by
  have h : IsGrad (fun x => M1 Sre Sim Mre x) ![2 * Sim 2, 2 * Sim 5, 0] Mim := by grad9 [M1]
  rw [grad_iff h]
  simp [Fin.forall_fin_succ, d_M1_f_m_perp_imag]

/-- **C60** The derivative of `M2` over the imaginary part has a wrong sign: it is right only if the component is zero. -/
theorem grad_M2_imag_iff (Sre Sim : Fin 9 → ℝ) (Mre Mim : Fin 3 → ℝ) :
    IsGrad (fun x => M2 Sre Sim Mre x) (d_M2_f_m_perp_imag Sre Sim Mre Mim) Mim ↔ Sre 3 = 0 := by
  have h : IsGrad (fun x => M2 Sre Sim Mre x) ![0, 0, Sre 1 - Sre 3] Mim := by grad9 [M2]
  rw [grad_iff h]
  simp [Fin.forall_fin_succ, d_M2_f_m_perp_imag]
  constructor <;> intro h <;> linarith

/-- **C60** The derivatives of `M3` over the tensor miss the factor two: they are right only without a moment in the plane. -/
theorem grad_M3_tensor_iff (Sre Sim : Fin 9 → ℝ) (Mre Mim : Fin 3 → ℝ) :
    (IsGrad (fun x => M3 x Sim Mre Mim) (d_M3_tensor_sigma_real Sre Sim Mre Mim) Sre ↔ Mim 0 = 0 ∧ Mim 1 = 0) ∧
    (IsGrad (fun x => M3 Sre x Mre Mim) (d_M3_tensor_sigma_imag Sre Sim Mre Mim) Sim ↔ Mre 0 = 0 ∧ Mre 1 = 0) := by
  have h1 : IsGrad (fun x => M3 x Sim Mre Mim) ![0, 0, -2 * Mim 1, 0, 0, 2 * Mim 0, 0, 0, 0] Sre := by grad9 [M3]
  have h2 : IsGrad (fun x => M3 Sre x Mre Mim) ![0, 0, 2 * Mre 1, 0, 0, -2 * Mre 0, 0, 0, 0] Sim := by grad9 [M3]
  rw [grad_iff h1, grad_iff h2]
  simp [Fin.forall_fin_succ, d_M3_tensor_sigma_real, d_M3_tensor_sigma_imag]
  refine ⟨⟨fun h => ⟨by linarith [h.2], by linarith [h.1]⟩, fun h => by simp [h.1, h.2]⟩,
    ⟨fun h => ⟨by linarith [h.2], by linarith [h.1]⟩, fun h => by simp [h.1, h.2]⟩⟩

/-- **C60** Paramagnetic crystal, in the plane: every reported derivative. -/
theorem grad_para_plus (Nre Nim : ℝ) (Sre Sim : Fin 9 → ℝ) (P ε H : ℝ) :
    HasDerivAt (fun x => para_plus x Nim Sre Sim P ε H) (d_para_plus_f_nucl_real Nre Nim Sre Sim P ε H) Nre ∧
    HasDerivAt (fun x => para_plus Nre x Sre Sim P ε H) (d_para_plus_f_nucl_imag Nre Nim Sre Sim P ε H) Nim ∧
    IsGrad (fun x => para_plus Nre Nim x Sim P ε H) (d_para_plus_tensor_sigma_real Nre Nim Sre Sim P ε H) Sre ∧
    IsGrad (fun x => para_plus Nre Nim Sre x P ε H) (d_para_plus_tensor_sigma_imag Nre Nim Sre Sim P ε H) Sim ∧
    HasDerivAt (fun x => para_plus Nre Nim Sre Sim x ε H) (d_para_plus_polarization Nre Nim Sre Sim P ε H) P := by
  refine ⟨?_, ?_, ?_, ?_, ?_⟩
  · grad1 [d_para_plus_f_nucl_imag, d_para_plus_f_nucl_real, d_para_plus_polarization, d_para_plus_tensor_sigma_imag, d_para_plus_tensor_sigma_real, para_plus, para_minus, P1, P2, P3, P4, P5, d_P1_tensor_sigma_real, d_P1_tensor_sigma_imag, d_P3_f_nucl_real, d_P3_f_nucl_imag, d_P3_tensor_sigma_real, d_P3_tensor_sigma_imag]
  · grad1 [d_para_plus_f_nucl_imag, d_para_plus_f_nucl_real, d_para_plus_polarization, d_para_plus_tensor_sigma_imag, d_para_plus_tensor_sigma_real, para_plus, para_minus, P1, P2, P3, P4, P5, d_P1_tensor_sigma_real, d_P1_tensor_sigma_imag, d_P3_f_nucl_real, d_P3_f_nucl_imag, d_P3_tensor_sigma_real, d_P3_tensor_sigma_imag]
  · grad9 [d_para_plus_f_nucl_imag, d_para_plus_f_nucl_real, d_para_plus_polarization, d_para_plus_tensor_sigma_imag, d_para_plus_tensor_sigma_real, para_plus, para_minus, P1, P2, P3, P4, P5, d_P1_tensor_sigma_real, d_P1_tensor_sigma_imag, d_P3_f_nucl_real, d_P3_f_nucl_imag, d_P3_tensor_sigma_real, d_P3_tensor_sigma_imag]
  · grad9 [d_para_plus_f_nucl_imag, d_para_plus_f_nucl_real, d_para_plus_polarization, d_para_plus_tensor_sigma_imag, d_para_plus_tensor_sigma_real, para_plus, para_minus, P1, P2, P3, P4, P5, d_P1_tensor_sigma_real, d_P1_tensor_sigma_imag, d_P3_f_nucl_real, d_P3_f_nucl_imag, d_P3_tensor_sigma_real, d_P3_tensor_sigma_imag]
  · grad1 [d_para_plus_f_nucl_imag, d_para_plus_f_nucl_real, d_para_plus_polarization, d_para_plus_tensor_sigma_imag, d_para_plus_tensor_sigma_real, para_plus, para_minus, P1, P2, P3, P4, P5, d_P1_tensor_sigma_real, d_P1_tensor_sigma_imag, d_P3_f_nucl_real, d_P3_f_nucl_imag, d_P3_tensor_sigma_real, d_P3_tensor_sigma_imag]

/-- **C60** Paramagnetic crystal, in the plane: every reported derivative. -/
theorem grad_para_minus (Nre Nim : ℝ) (Sre Sim : Fin 9 → ℝ) (P ε H : ℝ) :
    HasDerivAt (fun x => para_minus x Nim Sre Sim P ε H) (d_para_minus_f_nucl_real Nre Nim Sre Sim P ε H) Nre ∧
    HasDerivAt (fun x => para_minus Nre x Sre Sim P ε H) (d_para_minus_f_nucl_imag Nre Nim Sre Sim P ε H) Nim ∧
    IsGrad (fun x => para_minus Nre Nim x Sim P ε H) (d_para_minus_tensor_sigma_real Nre Nim Sre Sim P ε H) Sre ∧
    IsGrad (fun x => para_minus Nre Nim Sre x P ε H) (d_para_minus_tensor_sigma_imag Nre Nim Sre Sim P ε H) Sim ∧
    HasDerivAt (fun x => para_minus Nre Nim Sre Sim x ε H) (d_para_minus_polarization Nre Nim Sre Sim P ε H) P ∧
    HasDerivAt (fun x => para_minus Nre Nim Sre Sim P x H) (d_para_minus_flipper Nre Nim Sre Sim P ε H) ε := by
  refine ⟨?_, ?_, ?_, ?_, ?_, ?_⟩
  · grad1 [d_para_minus_f_nucl_imag, d_para_minus_f_nucl_real, d_para_minus_flipper, d_para_minus_polarization, d_para_minus_tensor_sigma_imag, d_para_minus_tensor_sigma_real, para_plus, para_minus, P1, P2, P3, P4, P5, d_P1_tensor_sigma_real, d_P1_tensor_sigma_imag, d_P3_f_nucl_real, d_P3_f_nucl_imag, d_P3_tensor_sigma_real, d_P3_tensor_sigma_imag]
  · grad1 [d_para_minus_f_nucl_imag, d_para_minus_f_nucl_real, d_para_minus_flipper, d_para_minus_polarization, d_para_minus_tensor_sigma_imag, d_para_minus_tensor_sigma_real, para_plus, para_minus, P1, P2, P3, P4, P5, d_P1_tensor_sigma_real, d_P1_tensor_sigma_imag, d_P3_f_nucl_real, d_P3_f_nucl_imag, d_P3_tensor_sigma_real, d_P3_tensor_sigma_imag]
  · grad9 [d_para_minus_f_nucl_imag, d_para_minus_f_nucl_real, d_para_minus_flipper, d_para_minus_polarization, d_para_minus_tensor_sigma_imag, d_para_minus_tensor_sigma_real, para_plus, para_minus, P1, P2, P3, P4, P5, d_P1_tensor_sigma_real, d_P1_tensor_sigma_imag, d_P3_f_nucl_real, d_P3_f_nucl_imag, d_P3_tensor_sigma_real, d_P3_tensor_sigma_imag]
  · grad9 [d_para_minus_f_nucl_imag, d_para_minus_f_nucl_real, d_para_minus_flipper, d_para_minus_polarization, d_para_minus_tensor_sigma_imag, d_para_minus_tensor_sigma_real, para_plus, para_minus, P1, P2, P3, P4, P5, d_P1_tensor_sigma_real, d_P1_tensor_sigma_imag, d_P3_f_nucl_real, d_P3_f_nucl_imag, d_P3_tensor_sigma_real, d_P3_tensor_sigma_imag]
  · grad1 [d_para_minus_f_nucl_imag, d_para_minus_f_nucl_real, d_para_minus_flipper, d_para_minus_polarization, d_para_minus_tensor_sigma_imag, d_para_minus_tensor_sigma_real, para_plus, para_minus, P1, P2, P3, P4, P5, d_P1_tensor_sigma_real, d_P1_tensor_sigma_imag, d_P3_f_nucl_real, d_P3_f_nucl_imag, d_P3_tensor_sigma_real, d_P3_tensor_sigma_imag]
  · grad1 [d_para_minus_f_nucl_imag, d_para_minus_f_nucl_real, d_para_minus_flipper, d_para_minus_polarization, d_para_minus_tensor_sigma_imag, d_para_minus_tensor_sigma_real, para_plus, para_minus, P1, P2, P3, P4, P5, d_P1_tensor_sigma_real, d_P1_tensor_sigma_imag, d_P3_f_nucl_real, d_P3_f_nucl_imag, d_P3_tensor_sigma_real, d_P3_tensor_sigma_imag]

/-- **C60** Ordered crystal, in the plane: every reported derivative. -/
theorem grad_ordered (Nre Nim : ℝ) (Mre Mim : Fin 3 → ℝ) :
    HasDerivAt (fun x => ordered x Nim Mre Mim) (d_ordered_f_nucl_real Nre Nim Mre Mim) Nre ∧
    HasDerivAt (fun x => ordered Nre x Mre Mim) (d_ordered_f_nucl_imag Nre Nim Mre Mim) Nim ∧
    IsGrad (fun x => ordered Nre Nim x Mim) (d_ordered_f_m_perp_real Nre Nim Mre Mim) Mre ∧
    IsGrad (fun x => ordered Nre Nim Mre x) (d_ordered_f_m_perp_imag Nre Nim Mre Mim) Mim := by
  refine ⟨?_, ?_, ?_, ?_⟩
  · grad1 [d_ordered_f_m_perp_imag, d_ordered_f_m_perp_real, d_ordered_f_nucl_imag, d_ordered_f_nucl_real, ordered]
  · grad1 [d_ordered_f_m_perp_imag, d_ordered_f_m_perp_real, d_ordered_f_nucl_imag, d_ordered_f_nucl_real, ordered]
  · grad9 [d_ordered_f_m_perp_imag, d_ordered_f_m_perp_real, d_ordered_f_nucl_imag, d_ordered_f_nucl_real, ordered]
  · grad9 [d_ordered_f_m_perp_imag, d_ordered_f_m_perp_real, d_ordered_f_nucl_imag, d_ordered_f_nucl_real, ordered]

/-- **C60** Both kinds of moments, in the plane: the reported derivatives but the one over the imaginary part of the ordered moment. -/
theorem grad_mix_plus (Nre Nim : ℝ) (Sre Sim : Fin 9 → ℝ) (Mre Mim : Fin 3 → ℝ) (P ε H : ℝ) :
    HasDerivAt (fun x => mix_plus x Nim Mre Mim Sre Sim P ε H) (d_mix_plus_f_nucl_real Nre Nim Mre Mim Sre Sim P ε H) Nre ∧
    IsGrad (fun x => mix_plus Nre Nim Mre Mim x Sim P ε H) (d_mix_plus_tensor_sigma_real Nre Nim Mre Mim Sre Sim P ε H) Sre ∧
    IsGrad (fun x => mix_plus Nre Nim Mre Mim Sre x P ε H) (d_mix_plus_tensor_sigma_imag Nre Nim Mre Mim Sre Sim P ε H) Sim ∧
    IsGrad (fun x => mix_plus Nre Nim x Mim Sre Sim P ε H) (d_mix_plus_f_m_perp_ordered_real Nre Nim Mre Mim Sre Sim P ε H) Mre ∧
    HasDerivAt (fun x => mix_plus Nre Nim Mre Mim Sre Sim x ε H) (d_mix_plus_polarization Nre Nim Mre Mim Sre Sim P ε H) P := by
  refine ⟨?_, ?_, ?_, ?_, ?_⟩
  · grad1 [d_mix_plus_f_m_perp_ordered_real, d_mix_plus_f_nucl_real, d_mix_plus_polarization, d_mix_plus_tensor_sigma_imag, d_mix_plus_tensor_sigma_real, para_plus, para_minus, P1, P2, P3, P4, P5, d_P1_tensor_sigma_real, d_P1_tensor_sigma_imag, d_P3_f_nucl_real, d_P3_f_nucl_imag, d_P3_tensor_sigma_real, d_P3_tensor_sigma_imag, mix_plus, mix_minus, M2, d_M2_tensor_sigma_real, d_M2_tensor_sigma_imag, d_M2_f_m_perp_real, d_M2_f_m_perp_imag, d_para_plus_polarization, d_para_minus_polarization, d_para_plus_f_nucl_real, d_para_minus_f_nucl_real, d_para_plus_tensor_sigma_real, d_para_minus_tensor_sigma_real, d_para_plus_tensor_sigma_imag, d_para_minus_tensor_sigma_imag]
  · grad9 [d_mix_plus_f_m_perp_ordered_real, d_mix_plus_f_nucl_real, d_mix_plus_polarization, d_mix_plus_tensor_sigma_imag, d_mix_plus_tensor_sigma_real, para_plus, para_minus, P1, P2, P3, P4, P5, d_P1_tensor_sigma_real, d_P1_tensor_sigma_imag, d_P3_f_nucl_real, d_P3_f_nucl_imag, d_P3_tensor_sigma_real, d_P3_tensor_sigma_imag, mix_plus, mix_minus, M2, d_M2_tensor_sigma_real, d_M2_tensor_sigma_imag, d_M2_f_m_perp_real, d_M2_f_m_perp_imag, d_para_plus_polarization, d_para_minus_polarization, d_para_plus_f_nucl_real, d_para_minus_f_nucl_real, d_para_plus_tensor_sigma_real, d_para_minus_tensor_sigma_real, d_para_plus_tensor_sigma_imag, d_para_minus_tensor_sigma_imag]
  · grad9 [d_mix_plus_f_m_perp_ordered_real, d_mix_plus_f_nucl_real, d_mix_plus_polarization, d_mix_plus_tensor_sigma_imag, d_mix_plus_tensor_sigma_real, para_plus, para_minus, P1, P2, P3, P4, P5, d_P1_tensor_sigma_real, d_P1_tensor_sigma_imag, d_P3_f_nucl_real, d_P3_f_nucl_imag, d_P3_tensor_sigma_real, d_P3_tensor_sigma_imag, mix_plus, mix_minus, M2, d_M2_tensor_sigma_real, d_M2_tensor_sigma_imag, d_M2_f_m_perp_real, d_M2_f_m_perp_imag, d_para_plus_polarization, d_para_minus_polarization, d_para_plus_f_nucl_real, d_para_minus_f_nucl_real, d_para_plus_tensor_sigma_real, d_para_minus_tensor_sigma_real, d_para_plus_tensor_sigma_imag, d_para_minus_tensor_sigma_imag]
  · grad9 [d_mix_plus_f_m_perp_ordered_real, d_mix_plus_f_nucl_real, d_mix_plus_polarization, d_mix_plus_tensor_sigma_imag, d_mix_plus_tensor_sigma_real, para_plus, para_minus, P1, P2, P3, P4, P5, d_P1_tensor_sigma_real, d_P1_tensor_sigma_imag, d_P3_f_nucl_real, d_P3_f_nucl_imag, d_P3_tensor_sigma_real, d_P3_tensor_sigma_imag, mix_plus, mix_minus, M2, d_M2_tensor_sigma_real, d_M2_tensor_sigma_imag, d_M2_f_m_perp_real, d_M2_f_m_perp_imag, d_para_plus_polarization, d_para_minus_polarization, d_para_plus_f_nucl_real, d_para_minus_f_nucl_real, d_para_plus_tensor_sigma_real, d_para_minus_tensor_sigma_real, d_para_plus_tensor_sigma_imag, d_para_minus_tensor_sigma_imag]
  · grad1 [d_mix_plus_f_m_perp_ordered_real, d_mix_plus_f_nucl_real, d_mix_plus_polarization, d_mix_plus_tensor_sigma_imag, d_mix_plus_tensor_sigma_real, para_plus, para_minus, P1, P2, P3, P4, P5, d_P1_tensor_sigma_real, d_P1_tensor_sigma_imag, d_P3_f_nucl_real, d_P3_f_nucl_imag, d_P3_tensor_sigma_real, d_P3_tensor_sigma_imag, mix_plus, mix_minus, M2, d_M2_tensor_sigma_real, d_M2_tensor_sigma_imag, d_M2_f_m_perp_real, d_M2_f_m_perp_imag, d_para_plus_polarization, d_para_minus_polarization, d_para_plus_f_nucl_real, d_para_minus_f_nucl_real, d_para_plus_tensor_sigma_real, d_para_minus_tensor_sigma_real, d_para_plus_tensor_sigma_imag, d_para_minus_tensor_sigma_imag]

/-- **C60** Both kinds of moments, in the plane: the reported derivatives but the one over the imaginary part of the ordered moment. -/
theorem grad_mix_minus (Nre Nim : ℝ) (Sre Sim : Fin 9 → ℝ) (Mre Mim : Fin 3 → ℝ) (P ε H : ℝ) :
    HasDerivAt (fun x => mix_minus x Nim Mre Mim Sre Sim P ε H) (d_mix_minus_f_nucl_real Nre Nim Mre Mim Sre Sim P ε H) Nre ∧
    IsGrad (fun x => mix_minus Nre Nim Mre Mim x Sim P ε H) (d_mix_minus_tensor_sigma_real Nre Nim Mre Mim Sre Sim P ε H) Sre ∧
    IsGrad (fun x => mix_minus Nre Nim Mre Mim Sre x P ε H) (d_mix_minus_tensor_sigma_imag Nre Nim Mre Mim Sre Sim P ε H) Sim ∧
    IsGrad (fun x => mix_minus Nre Nim x Mim Sre Sim P ε H) (d_mix_minus_f_m_perp_ordered_real Nre Nim Mre Mim Sre Sim P ε H) Mre ∧
    HasDerivAt (fun x => mix_minus Nre Nim Mre Mim Sre Sim x ε H) (d_mix_minus_polarization Nre Nim Mre Mim Sre Sim P ε H) P := by
  refine ⟨?_, ?_, ?_, ?_, ?_⟩
  · grad1 [d_mix_minus_f_m_perp_ordered_real, d_mix_minus_f_nucl_real, d_mix_minus_polarization, d_mix_minus_tensor_sigma_imag, d_mix_minus_tensor_sigma_real, para_plus, para_minus, P1, P2, P3, P4, P5, d_P1_tensor_sigma_real, d_P1_tensor_sigma_imag, d_P3_f_nucl_real, d_P3_f_nucl_imag, d_P3_tensor_sigma_real, d_P3_tensor_sigma_imag, mix_plus, mix_minus, M2, d_M2_tensor_sigma_real, d_M2_tensor_sigma_imag, d_M2_f_m_perp_real, d_M2_f_m_perp_imag, d_para_plus_polarization, d_para_minus_polarization, d_para_plus_f_nucl_real, d_para_minus_f_nucl_real, d_para_plus_tensor_sigma_real, d_para_minus_tensor_sigma_real, d_para_plus_tensor_sigma_imag, d_para_minus_tensor_sigma_imag]
  · grad9 [d_mix_minus_f_m_perp_ordered_real, d_mix_minus_f_nucl_real, d_mix_minus_polarization, d_mix_minus_tensor_sigma_imag, d_mix_minus_tensor_sigma_real, para_plus, para_minus, P1, P2, P3, P4, P5, d_P1_tensor_sigma_real, d_P1_tensor_sigma_imag, d_P3_f_nucl_real, d_P3_f_nucl_imag, d_P3_tensor_sigma_real, d_P3_tensor_sigma_imag, mix_plus, mix_minus, M2, d_M2_tensor_sigma_real, d_M2_tensor_sigma_imag, d_M2_f_m_perp_real, d_M2_f_m_perp_imag, d_para_plus_polarization, d_para_minus_polarization, d_para_plus_f_nucl_real, d_para_minus_f_nucl_real, d_para_plus_tensor_sigma_real, d_para_minus_tensor_sigma_real, d_para_plus_tensor_sigma_imag, d_para_minus_tensor_sigma_imag]
  · grad9 [d_mix_minus_f_m_perp_ordered_real, d_mix_minus_f_nucl_real, d_mix_minus_polarization, d_mix_minus_tensor_sigma_imag, d_mix_minus_tensor_sigma_real, para_plus, para_minus, P1, P2, P3, P4, P5, d_P1_tensor_sigma_real, d_P1_tensor_sigma_imag, d_P3_f_nucl_real, d_P3_f_nucl_imag, d_P3_tensor_sigma_real, d_P3_tensor_sigma_imag, mix_plus, mix_minus, M2, d_M2_tensor_sigma_real, d_M2_tensor_sigma_imag, d_M2_f_m_perp_real, d_M2_f_m_perp_imag, d_para_plus_polarization, d_para_minus_polarization, d_para_plus_f_nucl_real, d_para_minus_f_nucl_real, d_para_plus_tensor_sigma_real, d_para_minus_tensor_sigma_real, d_para_plus_tensor_sigma_imag, d_para_minus_tensor_sigma_imag]
  · grad9 [d_mix_minus_f_m_perp_ordered_real, d_mix_minus_f_nucl_real, d_mix_minus_polarization, d_mix_minus_tensor_sigma_imag, d_mix_minus_tensor_sigma_real, para_plus, para_minus, P1, P2, P3, P4, P5, d_P1_tensor_sigma_real, d_P1_tensor_sigma_imag, d_P3_f_nucl_real, d_P3_f_nucl_imag, d_P3_tensor_sigma_real, d_P3_tensor_sigma_imag, mix_plus, mix_minus, M2, d_M2_tensor_sigma_real, d_M2_tensor_sigma_imag, d_M2_f_m_perp_real, d_M2_f_m_perp_imag, d_para_plus_polarization, d_para_minus_polarization, d_para_plus_f_nucl_real, d_para_minus_f_nucl_real, d_para_plus_tensor_sigma_real, d_para_minus_tensor_sigma_real, d_para_plus_tensor_sigma_imag, d_para_minus_tensor_sigma_imag]
  · grad1 [d_mix_minus_f_m_perp_ordered_real, d_mix_minus_f_nucl_real, d_mix_minus_polarization, d_mix_minus_tensor_sigma_imag, d_mix_minus_tensor_sigma_real, para_plus, para_minus, P1, P2, P3, P4, P5, d_P1_tensor_sigma_real, d_P1_tensor_sigma_imag, d_P3_f_nucl_real, d_P3_f_nucl_imag, d_P3_tensor_sigma_real, d_P3_tensor_sigma_imag, mix_plus, mix_minus, M2, d_M2_tensor_sigma_real, d_M2_tensor_sigma_imag, d_M2_f_m_perp_real, d_M2_f_m_perp_imag, d_para_plus_polarization, d_para_minus_polarization, d_para_plus_f_nucl_real, d_para_minus_f_nucl_real, d_para_plus_tensor_sigma_real, d_para_minus_tensor_sigma_real, d_para_plus_tensor_sigma_imag, d_para_minus_tensor_sigma_imag]

/-- **C60** Both kinds of moments: the derivative over the imaginary part of the ordered moment has the wrong sign of `M2`. -/
theorem grad_mix_imag_iff (Nre Nim : ℝ) (Mre Mim : Fin 3 → ℝ) (Sre Sim : Fin 9 → ℝ) (P ε H : ℝ) :
    (IsGrad (fun x => mix_plus Nre Nim Mre x Sre Sim P ε H) (d_mix_plus_f_m_perp_ordered_imag Nre Nim Mre Mim Sre Sim P ε H) Mim ↔
      P = 0 ∨ H = 0 ∨ Sre 3 = 0) ∧
    (IsGrad (fun x => mix_minus Nre Nim Mre x Sre Sim P ε H) (d_mix_minus_f_m_perp_ordered_imag Nre Nim Mre Mim Sre Sim P ε H)
      Mim ↔ P = 0 ∨ ε = 1 / 2 ∨ H = 0 ∨ Sre 3 = 0) := by
  have h1 : IsGrad (fun x => mix_plus Nre Nim Mre x Sre Sim P ε H)
      ![2 * Mim 0, 2 * Mim 1, 2 * Mim 2 + P * H * (Sre 1 - Sre 3)] Mim := by
    grad9 [mix_plus, para_plus, P1, P3, M2]
  have h2 : IsGrad (fun x => mix_minus Nre Nim Mre x Sre Sim P ε H)
      ![2 * Mim 0, 2 * Mim 1, 2 * Mim 2 + P * (2 * ε - 1) * H * (Sre 1 - Sre 3)] Mim := by
    grad9 [mix_minus, para_minus, P1, P3, M2]
  have e : (2 * ε - 1 = 0) ↔ ε = 1 / 2 := by constructor <;> intro h <;> linarith
  rw [grad_iff h1, grad_iff h2]
  constructor
  · have : (∀ k, d_mix_plus_f_m_perp_ordered_imag Nre Nim Mre Mim Sre Sim P ε H k =
        (![2 * Mim 0, 2 * Mim 1, 2 * Mim 2 + P * H * (Sre 1 - Sre 3)] : Fin 3 → ℝ) k) ↔ P * H * Sre 3 = 0 := by
      simp only [Fin.forall_fin_succ, d_mix_plus_f_m_perp_ordered_imag, d_M2_f_m_perp_imag]
      simp only [Matrix.cons_val, mul_zero, add_zero, true_and, and_true, mul_one, Fin.succ_zero_eq_one, Fin.succ_one_eq_two,
        Matrix.cons_val_succ, IsEmpty.forall_iff]
      constructor <;> intro h
      · linarith
      · linarith
    rw [this, mul_eq_zero, mul_eq_zero, or_assoc]
  · have : (∀ k, d_mix_minus_f_m_perp_ordered_imag Nre Nim Mre Mim Sre Sim P ε H k =
        (![2 * Mim 0, 2 * Mim 1, 2 * Mim 2 + P * (2 * ε - 1) * H * (Sre 1 - Sre 3)] : Fin 3 → ℝ) k) ↔
        P * (2 * ε - 1) * H * Sre 3 = 0 := by
      simp only [Fin.forall_fin_succ, d_mix_minus_f_m_perp_ordered_imag, d_M2_f_m_perp_imag]
      simp only [Matrix.cons_val, mul_zero, add_zero, true_and, and_true, mul_one, Fin.succ_zero_eq_one, Fin.succ_one_eq_two,
        Matrix.cons_val_succ, IsEmpty.forall_iff]
      constructor <;> intro h
      · linarith
      · linarith
    rw [this, mul_eq_zero, mul_eq_zero, mul_eq_zero, or_assoc, or_assoc, e]

/-- **C60** Paramagnetic crystal, out of the plane: every reported derivative. -/
theorem grad_para2_plus (Nre Nim : ℝ) (Sre Sim : Fin 9 → ℝ) (P ε H α : ℝ) :
    HasDerivAt (fun x => para2_plus x Nim Sre Sim P ε H α) (d_para2_plus_f_nucl_real Nre Nim Sre Sim P ε H α) Nre ∧
    HasDerivAt (fun x => para2_plus Nre x Sre Sim P ε H α) (d_para2_plus_f_nucl_imag Nre Nim Sre Sim P ε H α) Nim ∧
    HasDerivAt (fun x => para2_plus Nre Nim Sre Sim x ε H α) (d_para2_plus_beam_polarization Nre Nim Sre Sim P ε H α) P := by
  refine ⟨?_, ?_, ?_⟩
  · grad1 [d_para2_plus_beam_polarization, d_para2_plus_f_nucl_imag, d_para2_plus_f_nucl_real, para2_plus, para2_minus, P1, P2, P3, P4, P5, d_P3_f_nucl_real, d_P3_f_nucl_imag, d_para2_plus_beam_polarization]
  · grad1 [d_para2_plus_beam_polarization, d_para2_plus_f_nucl_imag, d_para2_plus_f_nucl_real, para2_plus, para2_minus, P1, P2, P3, P4, P5, d_P3_f_nucl_real, d_P3_f_nucl_imag, d_para2_plus_beam_polarization]
  · grad1 [d_para2_plus_beam_polarization, d_para2_plus_f_nucl_imag, d_para2_plus_f_nucl_real, para2_plus, para2_minus, P1, P2, P3, P4, P5, d_P3_f_nucl_real, d_P3_f_nucl_imag, d_para2_plus_beam_polarization]

/-- **C60** Paramagnetic crystal, out of the plane: every reported derivative. -/
theorem grad_para2_minus (Nre Nim : ℝ) (Sre Sim : Fin 9 → ℝ) (P ε H α : ℝ) :
    HasDerivAt (fun x => para2_minus x Nim Sre Sim P ε H α) (d_para2_minus_f_nucl_real Nre Nim Sre Sim P ε H α) Nre ∧
    HasDerivAt (fun x => para2_minus Nre x Sre Sim P ε H α) (d_para2_minus_f_nucl_imag Nre Nim Sre Sim P ε H α) Nim ∧
    HasDerivAt (fun x => para2_minus Nre Nim Sre Sim x ε H α) (d_para2_minus_beam_polarization Nre Nim Sre Sim P ε H α) P ∧
    HasDerivAt (fun x => para2_minus Nre Nim Sre Sim P x H α) (d_para2_minus_flipper_efficiency Nre Nim Sre Sim P ε H α) ε := by
  refine ⟨?_, ?_, ?_, ?_⟩
  · grad1 [d_para2_minus_beam_polarization, d_para2_minus_f_nucl_imag, d_para2_minus_f_nucl_real, d_para2_minus_flipper_efficiency, para2_plus, para2_minus, P1, P2, P3, P4, P5, d_P3_f_nucl_real, d_P3_f_nucl_imag, d_para2_plus_beam_polarization]
  · grad1 [d_para2_minus_beam_polarization, d_para2_minus_f_nucl_imag, d_para2_minus_f_nucl_real, d_para2_minus_flipper_efficiency, para2_plus, para2_minus, P1, P2, P3, P4, P5, d_P3_f_nucl_real, d_P3_f_nucl_imag, d_para2_plus_beam_polarization]
  · grad1 [d_para2_minus_beam_polarization, d_para2_minus_f_nucl_imag, d_para2_minus_f_nucl_real, d_para2_minus_flipper_efficiency, para2_plus, para2_minus, P1, P2, P3, P4, P5, d_P3_f_nucl_real, d_P3_f_nucl_imag, d_para2_plus_beam_polarization]
  · grad1 [d_para2_minus_beam_polarization, d_para2_minus_f_nucl_imag, d_para2_minus_f_nucl_real, d_para2_minus_flipper_efficiency, para2_plus, para2_minus, P1, P2, P3, P4, P5, d_P3_f_nucl_real, d_P3_f_nucl_imag, d_para2_plus_beam_polarization]

/-- **C60** Ordered crystal, out of the plane: the derivative over the polarisation. -/
theorem grad_ordered2_plus (Nre Nim : ℝ) (Mre Mim : Fin 3 → ℝ) (P ε α : ℝ) :
    HasDerivAt (fun x => ordered2_plus Nre Nim Mre Mim x ε α) (d_ordered2_plus_beam_polarization Nre Nim Mre Mim P ε α) P := by
  · grad1 [d_ordered2_plus_beam_polarization, ordered2_plus, ordered2_minus, O1, O2, d_ordered2_plus_beam_polarization]

/-- **C60** Ordered crystal, out of the plane: the derivative over the polarisation. -/
theorem grad_ordered2_minus (Nre Nim : ℝ) (Mre Mim : Fin 3 → ℝ) (P ε α : ℝ) :
    HasDerivAt (fun x => ordered2_minus Nre Nim Mre Mim x ε α) (d_ordered2_minus_beam_polarization Nre Nim Mre Mim P ε α) P := by
  · grad1 [d_ordered2_minus_beam_polarization, ordered2_plus, ordered2_minus, O1, O2, d_ordered2_plus_beam_polarization]

/-- **C60** Ordered crystal, out of the plane: the derivatives over the nuclear structure factor miss the interference. -/
theorem grad_ordered2_nucl_iff (Nre Nim : ℝ) (Mre Mim : Fin 3 → ℝ) (P ε α : ℝ) :
    (HasDerivAt (fun x => ordered2_plus x Nim Mre Mim P ε α) (d_ordered2_plus_f_nucl_real Nre Nim Mre Mim P ε α) Nre ↔
      P = 0 ∨ cos α = 0 ∨ Mre 2 = 0) ∧
    (HasDerivAt (fun x => ordered2_plus Nre x Mre Mim P ε α) (d_ordered2_plus_f_nucl_imag Nre Nim Mre Mim P ε α) Nim ↔
      P = 0 ∨ cos α = 0 ∨ Mim 2 = 0) := by
  have h1 : HasDerivAt (fun x => ordered2_plus x Nim Mre Mim P ε α) (2 * Nre + P * cos α * (2 * Mre 2)) Nre := by
    grad1 [ordered2_plus, O1, O2]
  have h2 : HasDerivAt (fun x => ordered2_plus Nre x Mre Mim P ε α) (2 * Nim + P * cos α * (2 * Mim 2)) Nim := by
    grad1 [ordered2_plus, O1, O2]
  have key : ∀ {f : ℝ → ℝ} {a b c x : ℝ}, HasDerivAt f (a + P * cos α * (2 * b)) x →
      (HasDerivAt f a x ↔ P = 0 ∨ cos α = 0 ∨ b = 0) := by
    intro f a b c x h
    have : HasDerivAt f a x ↔ P * cos α * b = 0 :=
      ⟨fun h' => by linarith [h'.unique h], fun e => by
        have : a + P * cos α * (2 * b) = a := by linear_combination 2 * e
        rwa [this] at h⟩
    rw [this, mul_eq_zero, mul_eq_zero, or_assoc]
  exact ⟨key (c := 0) h1, key (c := 0) h2⟩

/-- **C60** … and the derivative over the efficiency of the flipper misses the factor two. -/
theorem grad_ordered2_flipper_iff (Nre Nim : ℝ) (Mre Mim : Fin 3 → ℝ) (P ε α : ℝ) :
    HasDerivAt (fun x => ordered2_minus Nre Nim Mre Mim P x α) (d_ordered2_minus_flipper_efficiency Nre Nim Mre Mim P ε α) ε ↔
      P * (O1 Nre Nim Mre Mim + O2 Mre Mim) * cos α = 0 := by
  have h : HasDerivAt (fun x => ordered2_minus Nre Nim Mre Mim P x α)
      (-2 * P * (O1 Nre Nim Mre Mim + O2 Mre Mim) * cos α) ε := by
    grad1 [ordered2_minus]
  constructor
  · intro h'
    have := h'.unique h
    simp only [d_ordered2_minus_flipper_efficiency] at this
    linarith
  · intro e
    have : d_ordered2_minus_flipper_efficiency Nre Nim Mre Mim P ε α = -2 * P * (O1 Nre Nim Mre Mim + O2 Mre Mim) * cos α := by
      simp only [d_ordered2_minus_flipper_efficiency]
      linear_combination e
    rwa [this]

end Cryspy.PowInt
