import Verif.Sft.Props

/-!
# C61: the reported derivative over the susceptibility
-/

namespace Cryspy.Sft

open Symm Sf Real Matrix

/-- `m q m⁻¹` is affine in `q`. -/
theorem m_q_inv_m_affine (m : Fin 9 → ℝ) (q δ : Fin 6 → ℝ) (hm : (Mat.toM m).det = 1 ∨ δ 5 = 0) (t : ℝ) (k : Fin 9) :
    Mat.calc_m_q_inv_m m (fun i => q i + t * δ i) k =
      Mat.calc_m_q_inv_m m q k + t * ∑ l, Mat.d_calc_m_q_inv_m_q m q k l * δ l := by
  rw [← Mat.calc_det_m_spec] at hm
  rcases hm with hm | hm
  · revert k
    apply Mat.fin9 <;> unfold Mat.calc_m_q_inv_m Mat.d_calc_m_q_inv_m_q <;> rw [hm] <;>
      simp only [Fin.sum_univ_six, Matrix.cons_val] <;> ring
  · revert k
    apply Mat.fin9 <;> unfold Mat.calc_m_q_inv_m Mat.d_calc_m_q_inv_m_q <;>
      simp only [Fin.sum_univ_six, Matrix.cons_val, hm, mul_zero, add_zero] <;> ring

/-- one susceptibility parameter changed -/
def withChi (a : PAtom) (j : Fin 6) (t : ℝ) : PAtom := { a with chi := Function.update a.chi j t }

theorem masConstr_withChi (a : PAtom) (j : Fin 6) (t : ℝ) :
    masConstr (withChi a j t) = fun i => masConstr a i + (t - a.chi j) * (2695 / 10000 * a.sc i j) := by
  funext i
  simp only [masConstr, withChi]
  rw [← sub_eq_iff_eq_add', ← Finset.sum_sub_distrib, Finset.sum_eq_single j]
  · simp; ring
  · intro b _ hb
    rw [Function.update_of_ne hb]; ring
  · simp

theorem d_q_indep (m : Fin 9 → ℝ) (q q' : Fin 6 → ℝ) : Mat.d_calc_m_q_inv_m_q m q = Mat.d_calc_m_q_inv_m_q m q' := rfl

theorem carried_withChi (uc : Fin 6 → ℝ) (a : PAtom) (j : Fin 6) (t : ℝ) (r : M3)
    (hr : (Mat.toM (pr5 uc r)).det = 1 ∨ a.sc 5 j = 0) (k : Fin 9) :
    carried uc (withChi a j t) r k = carried uc a r k +
      (t - a.chi j) * (2695 / 10000 * ∑ l, Mat.d_calc_m_q_inv_m_q (pr5 uc r) (masConstr a) k l * a.sc l j) := by
  unfold carried
  rw [masConstr_withChi, m_q_inv_m_affine _ _ _ (hr.imp id fun h => by simp [h])]
  congr 2
  rw [Finset.mul_sum]
  refine Finset.sum_congr rfl fun l _ => ?_
  ring

theorem sftAsym_withChi (m : ℕ) (reduced : List Elem) (uc : Fin 6 → ℝ) (h : V3)
    (a : PAtom) (k : Fin 9) (j : Fin 6) (hr : ∀ e ∈ reduced, (Mat.toM (pr5 uc e.r)).det = 1 ∨ a.sc 5 j = 0) (t : ℝ) : sftAsym m reduced uc h (withChi a j t) k =
      sftAsym m reduced uc h a k + ((t - a.chi j : ℝ) : ℂ) * dSftAsym m reduced uc h a k j := by
  unfold sftAsym dSftAsym
  rw [← mul_div_assoc, ← add_div, ← sum_map_mul_left, ← sum_map_add]
  congr 1
  refine congrArg List.sum (List.map_congr_left fun e he => ?_)
  rw [carried_withChi uc a j t e.r (hr e he)]
  have e1 : (withChi a j t).x = a.x := rfl
  have e2 : (withChi a j t).occ = a.occ := rfl
  have e3 : dwP uc h (withChi a j t) e.r = dwP uc h a e.r := rfl
  rw [e1, e2, e3]
  push_cast
  ring

/-- The derivative as it should be, crystal without centre (the reduced operations are all);
the operations are proper rotations or the parameter does not enter the component 23 of the tensor (C18). -/
theorem sft_deriv (orb : Bool) (s : Sym) (hc : s.centro = false) (uc : Fin 6 → ℝ)
    (h : V3) (l₁ l₂ : List PAtom) (a : PAtom) (k : Fin 9) (j : Fin 6) (hr : ∀ e ∈ s.reduced, (Mat.toM (pr5 uc e.r)).det = 1 ∨ a.sc 5 j = 0) :
    HasDerivAt (fun t => sft orb s uc (l₁ ++ withChi a j t :: l₂) h k)
      (pr3 h s.trans * (formFactor orb uc h a * dSftAsym (multiplicity s.full (siteOf a.x)) s.reduced uc h a k j)) (a.chi j) := by
  set D := dSftAsym (multiplicity s.full (siteOf a.x)) s.reduced uc h a k j
  have e : (fun t : ℝ => sft orb s uc (l₁ ++ withChi a j t :: l₂) h k) = fun t : ℝ =>
      sft orb s uc (l₁ ++ a :: l₂) h k + ((t - a.chi j : ℝ) : ℂ) * (pr3 h s.trans * (formFactor orb uc h a * D)) := by
    funext t
    unfold sft fByAsym
    simp only [hc, Bool.false_eq_true, if_false, List.map_append, List.map_cons, List.sum_append, List.sum_cons]
    have e1 : (withChi a j t).x = a.x := rfl
    have e2 : formFactor orb uc h (withChi a j t) = formFactor orb uc h a := rfl
    rw [e1, e2, sftAsym_withChi _ _ _ _ _ _ _ hr]
    ring
  rw [e]
  have h1 : HasDerivAt (fun t : ℝ => ((t - a.chi j : ℝ) : ℂ)) 1 (a.chi j) := by
    have := ((hasDerivAt_id (a.chi j)).sub_const (a.chi j)).ofReal_comp
    simpa using this
  have h2 := (h1.mul_const (pr3 h s.trans * (formFactor orb uc h a * D))).const_add (sft orb s uc (l₁ ++ a :: l₂) h k)
  rwa [one_mul] at h2

/-- **C61** The reported derivative over a susceptibility parameter is `1 + i` times the derivative (crystal without centre, proper
rotations or a parameter that does not enter the component 23), so it is right only where the derivative vanishes. -/
theorem sft_deriv_iff (orb : Bool) (s : Sym) (hc : s.centro = false) (uc : Fin 6 → ℝ)
    (h : V3) (l₁ l₂ : List PAtom) (a : PAtom) (k : Fin 9) (j : Fin 6) (hr : ∀ e ∈ s.reduced, (Mat.toM (pr5 uc e.r)).det = 1 ∨ a.sc 5 j = 0)
    (D : ℂ) (hD : HasDerivAt (fun t => sft orb s uc (l₁ ++ withChi a j t :: l₂) h k) D (a.chi j)) :
    dSft orb s uc h a k j = (1 + Complex.I) * D ∧ (dSft orb s uc h a k j = D ↔ D = 0) := by
  have e := hD.unique (sft_deriv orb s hc uc h l₁ l₂ a k j hr)
  have h1 : dSft orb s uc h a k j = (1 + Complex.I) * D := by
    rw [e]
    unfold dSft
    simp only [hc, Bool.false_eq_true, if_false]
    ring
  refine ⟨h1, ?_⟩
  rw [h1]
  constructor
  · intro h2
    have : Complex.I * D = 0 := by linear_combination h2
    rcases mul_eq_zero.1 this with h3 | h3
    · exact absurd h3 Complex.I_ne_zero
    · exact h3
  · rintro rfl; ring

/-- **C61** Crystal with a centre (proper rotations among the reduced operations, or a parameter that does not enter the component 23): with `re` and `im` the reported derivatives of
the structure factor over the real and the imaginary part of the asymmetric sum, and `D` the derivative of that sum, the derivative is
`re · Re D + im · Im D`; reported is `(re + im) · D`. -/
theorem sft_deriv_centro (orb : Bool) (s : Sym) (hc : s.centro = true) (uc : Fin 6 → ℝ)
    (h : V3) (l₁ l₂ : List PAtom) (a : PAtom) (k : Fin 9) (j : Fin 6) (hr : ∀ e ∈ s.reduced, (Mat.toM (pr5 uc e.r)).det = 1 ∨ a.sc 5 j = 0) :
    ∃ re im : ℂ, HasDerivAt (fun t => sft orb s uc (l₁ ++ withChi a j t :: l₂) h k)
      (re * ((dSftAsym (multiplicity s.full (siteOf a.x)) s.reduced uc h a k j).re : ℂ)
        + im * ((dSftAsym (multiplicity s.full (siteOf a.x)) s.reduced uc h a k j).im : ℂ)) (a.chi j) ∧
      dSft orb s uc h a k j = (re + im) * dSftAsym (multiplicity s.full (siteOf a.x)) s.reduced uc h a k j := by
  set D := dSftAsym (multiplicity s.full (siteOf a.x)) s.reduced uc h a k j with hD
  set p3 := pr3 h s.trans with hp3
  set p4 := pr4 h s.centre with hp4
  set f : ℂ := (formFactor orb uc h a : ℂ) with hf
  refine ⟨1 / 2 * (p3 + p4 * (starRingEnd ℂ) p3) * f, 1 / 2 * Complex.I * (p3 - p4 * (starRingEnd ℂ) p3) * f, ?_, ?_⟩
  · have hre : (D.re : ℂ) = (D + (starRingEnd ℂ) D) / 2 := Complex.re_eq_add_conj D
    have him : (D.im : ℂ) = (D - (starRingEnd ℂ) D) / (2 * Complex.I) := Complex.im_eq_sub_conj D
    have e : (fun t : ℝ => sft orb s uc (l₁ ++ withChi a j t :: l₂) h k) = fun t : ℝ =>
        sft orb s uc (l₁ ++ a :: l₂) h k + ((t - a.chi j : ℝ) : ℂ) *
          (1 / 2 * (p3 * (f * D) + p4 * ((starRingEnd ℂ) p3 * (f * (starRingEnd ℂ) D)))) := by
      funext t
      unfold sft fByAsym
      simp only [hc, if_true, List.map_append, List.map_cons, List.sum_append, List.sum_cons]
      have e1 : (withChi a j t).x = a.x := rfl
      have e2 : formFactor orb uc h (withChi a j t) = formFactor orb uc h a := rfl
      rw [e1, e2, sftAsym_withChi _ _ _ _ _ _ _ hr]
      simp only [map_add, map_mul, Complex.conj_ofReal, ← hD, ← hp3, ← hp4, ← hf]
      ring
    rw [e]
    have h1 : HasDerivAt (fun t : ℝ => ((t - a.chi j : ℝ) : ℂ)) 1 (a.chi j) := by
      have := ((hasDerivAt_id (a.chi j)).sub_const (a.chi j)).ofReal_comp
      simpa using this
    have h2 := (h1.mul_const (1 / 2 * (p3 * (f * D) + p4 * ((starRingEnd ℂ) p3 * (f * (starRingEnd ℂ) D))))).const_add
      (sft orb s uc (l₁ ++ a :: l₂) h k)
    rw [one_mul] at h2
    refine h2.congr_deriv ?_
    rw [hre, him]
    have hI : Complex.I ≠ 0 := Complex.I_ne_zero
    field_simp
    ring
  · unfold dSft
    simp only [hc, if_true, ← hD, ← hp3, ← hp4, ← hf]
    ring

end Cryspy.Sft
